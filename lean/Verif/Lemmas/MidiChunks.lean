/-
The chunk loop of `load`: continuing it, and what it accepts.
-/
import Verif.Lemmas.MidiFile

set_option autoImplicit false

namespace Melodia

variable [UnicodeDigits]

namespace MidiReader

/-- Either the byte string is empty, or it starts with a chunk, or reading fails. -/
theorem chunks_cases (m : MidiReader) {st st' : LoadState} {file : Bytes} (h : m.chunks st file = .ok st') :
    (file = [] ∧ st' = st) ∨ ∃ kind top len body rest st1, kind.length = 4 ∧ IsBigEndian 3 body.length len ∧
      file = kind ++ (top : UInt8) :: len ++ body ++ rest ∧ m.handleChunk st kind body = .ok st1 ∧
      m.chunks st1 rest = .ok st' := by
  rcases hr : readChunk file with e | (_ | ⟨kind, body, rest⟩)
  · unfold chunks at h
    rw [chunkLoop, hr] at h
    cases h
  · have := readChunk_none hr
    subst this
    cases h
    exact Or.inl ⟨rfl, rfl⟩
  · obtain ⟨top, len, h1, h2, rfl⟩ := readChunk_some hr
    rw [chunks_cons m st rest h1 h2] at h
    rcases hh : m.handleChunk st kind body with e | st1
    · rw [hh] at h; cases h
    · rw [hh] at h
      exact Or.inr ⟨kind, top, len, body, rest, st1, h1, h2, rfl, hh, h⟩

/-- Reading goes on where it stopped. -/
theorem chunks_append (m : MidiReader) (b : Bytes) : ∀ (n : Nat) (a : Bytes), a.length ≤ n → ∀ st st',
    m.chunks st a = .ok st' → m.chunks st (a ++ b) = m.chunks st' b := by
  intro n
  induction n with
  | zero =>
    intro a ha st st' h
    have : a = [] := List.length_eq_zero_iff.1 (by omega)
    subst this
    cases h
    rfl
  | succ n ih =>
    intro a ha st st' h
    rcases chunks_cases m h with ⟨rfl, rfl⟩ | ⟨kind, top, len, body, rest, st1, h1, h2, rfl, h3, h4⟩
    · rfl
    · have e : kind ++ top :: len ++ body ++ rest ++ b = kind ++ top :: len ++ body ++ (rest ++ b) := by simp
      rw [e, chunks_cons m st (rest ++ b) h1 h2, h3]
      refine ih rest ?_ st1 st' h4
      simp only [List.length_append, List.length_cons] at ha
      omega

/-- The values of `b` where it has some, those of `a` elsewhere. -/
def LoadState.over (a b : LoadState) : LoadState := ⟨b.kind <|> a.kind, b.tpq <|> a.tpq, b.tracks <|> a.tracks⟩

theorem handleChunk_over (m : MidiReader) (a : LoadState) {st st' : LoadState} {name body : Bytes}
    (h : m.handleChunk st name body = .ok st') : m.handleChunk (LoadState.over a st) name body = .ok (LoadState.over a st') := by
  rw [handleChunk_eq] at h ⊢
  rcases hh : handleHeader st name body with e | st1
  · rw [hh] at h; cases h
  · rw [hh] at h
    have hh' : handleHeader (LoadState.over a st) name body = .ok (LoadState.over a st1) := by
      unfold handleHeader at hh ⊢
      split at hh
      · rename_i hn
        rw [if_pos hn]
        rcases hp : parseHeader body with e' | ⟨x, y, z⟩
        · rw [hp] at hh; cases hh
        · rw [hp] at hh
          simp only [bind, Except.bind, pure, Except.pure] at hh ⊢
          split at hh
          · cases hh
          · split at hh
            · cases hh
            · split at hh
              · cases hh
              · rename_i c1 c2 c3
                cases hh
                rw [if_neg c1, if_neg c2, if_neg c3]
                rfl
      · rename_i hn
        rw [if_neg hn]
        cases hh
        rfl
    rw [hh']
    change m.handleTrack name body st1 = _ at h
    change m.handleTrack name body (LoadState.over a st1) = _
    unfold handleTrack at h ⊢
    split at h
    · rename_i hn
      rw [if_pos hn]
      split at h
      · cases h
      · rename_i tpq ht
        have ht' : (LoadState.over a st1).tpq = some tpq := by
          unfold LoadState.over; simp only [ht]; rfl
        rw [ht']
        simp only []
        rcases hp : m.parseTrack body tpq with e' | ts
        · rw [hp] at h; cases h
        · rw [hp] at h; cases h; simp only [LoadState.over, ht, bind, Except.bind, pure, Except.pure]; rfl
    · rename_i hn
      rw [if_neg hn]
      cases h
      rfl

theorem chunks_over (m : MidiReader) (a : LoadState) : ∀ (n : Nat) (file : Bytes), file.length ≤ n → ∀ st st',
    m.chunks st file = .ok st' → m.chunks (LoadState.over a st) file = .ok (LoadState.over a st') := by
  intro n
  induction n with
  | zero =>
    intro file hf st st' h
    have : file = [] := List.length_eq_zero_iff.1 (by omega)
    subst this
    cases h
    rfl
  | succ n ih =>
    intro file hf st st' h
    rcases chunks_cases m h with ⟨rfl, rfl⟩ | ⟨kind, top, len, body, rest, st1, h1, h2, rfl, h3, h4⟩
    · rfl
    · rw [chunks_cons m _ rest h1 h2, handleChunk_over m a h3]
      refine ih rest ?_ st1 st' h4
      simp only [List.length_append, List.length_cons] at hf
      omega

omit [UnicodeDigits] in
theorem fromBytesBig_pair {l : Bytes} {n : Nat} (h : l.length = 2) (hn : fromBytesBig l = n) :
    ∃ a b, l = [a, b] ∧ n = a.toNat * 256 + b.toNat := by
  match l, h with
  | [a, b], _ =>
    refine ⟨a, b, rfl, ?_⟩
    have : (0 * 256 + a.toNat) * 256 + b.toNat = n := hn
    omega

omit [UnicodeDigits] in
/-- Headers accepted by the reader. -/
theorem handleHeader_good {st st' : LoadState} {body : Bytes} (h : handleHeader st kindMThd body = .ok st') :
    GoodHeader body ∧ st'.tpq ≠ none ∧ st'.tracks = st.tracks := by
  unfold handleHeader at h
  rw [if_pos (show kindMThd = Writer.tagMThd from rfl)] at h
  rcases hp : parseHeader body with e' | ⟨x, y, z⟩
  · rw [hp] at h; cases h
  · rw [hp] at h
    simp only [bind, Except.bind, pure, Except.pure] at h
    obtain ⟨p1, p2, p3, p4⟩ := parseHeader_ok hp
    split at h
    · cases h
    · split at h
      · cases h
      · split at h
        · cases h
        · rename_i c1 c2 c3
          cases h
          refine ⟨?_, by simp, rfl⟩
          match body, p1 with
          | a :: b :: c :: d :: e :: f :: tail, _ =>
            obtain ⟨a', b', q1, q2⟩ := fromBytesBig_pair (l := [a, b]) rfl p2.symm
            obtain ⟨c', d', q3, q4⟩ := fromBytesBig_pair (l := [c, d]) rfl p3.symm
            obtain ⟨e', f', q5, q6⟩ := fromBytesBig_pair (l := [e, f]) rfl p4.symm
            cases q1; cases q3; cases q5
            have z0 : (0 : UInt8).toNat = 0 := rfl
            have z1 : (1 : UInt8).toNat = 1 := rfl
            have ea : a = 0 := UInt8.toNat_inj.1 (by omega)
            have eb : b = 0 := UInt8.toNat_inj.1 (by omega)
            have ec : c = 0 := UInt8.toNat_inj.1 (by omega)
            have ed : d = 1 := UInt8.toNat_inj.1 (by omega)
            subst ea; subst eb; subst ec; subst ed
            exact ⟨e, f, tail, rfl, by omega⟩

theorem handleChunk_good {m : MidiReader} {st st' : LoadState} {name body : Bytes}
    (h : m.handleChunk st name body = .ok st') :
    (name = kindMThd → GoodHeader body) ∧ (name = kindMTrk → st.tpq ≠ none) ∧
    (st'.tpq ≠ none → st.tpq ≠ none ∨ name = kindMThd) ∧
    (st'.tracks ≠ none → st.tracks ≠ none ∨ name = kindMTrk) := by
  by_cases h1 : name = kindMThd
  · subst h1
    rw [handleChunk_eq] at h
    rcases hh : handleHeader st kindMThd body with e | st1
    · rw [hh] at h; cases h
    · rw [hh] at h
      obtain ⟨g1, g2, g3⟩ := handleHeader_good hh
      change m.handleTrack kindMThd body st1 = _ at h
      unfold handleTrack at h
      rw [if_neg (by decide)] at h
      cases h
      exact ⟨fun _ => g1, fun hc => absurd hc (by decide), fun _ => Or.inr rfl, fun hc => Or.inl (by rwa [g3] at hc)⟩
  · by_cases h2 : name = kindMTrk
    · subst h2
      rcases ht : st.tpq with _ | tpq
      · rw [handleChunk_eq] at h
        unfold handleHeader at h
        rw [if_neg (by decide)] at h
        change m.handleTrack kindMTrk body st = _ at h
        unfold handleTrack at h
        rw [if_pos (show kindMTrk = Writer.tagMTrk from rfl), ht] at h
        cases h
      · exact ⟨fun hc => absurd hc h1, fun _ => by simp, fun _ => Or.inl (by simp), fun _ => Or.inr rfl⟩
    · rw [handleChunk_unknown m st body h1 h2] at h
      cases h
      exact ⟨fun hc => absurd hc h1, fun hc => absurd hc h2, Or.inl, Or.inl⟩

/-- What the chunks of a file are if the chunk loop succeeds. -/
theorem chunks_good (m : MidiReader) : ∀ (n : Nat) (file : Bytes), file.length ≤ n → ∀ st st',
    m.chunks st file = .ok st' → ∃ cs, AllChunks file cs ∧ (∀ h, (kindMThd, h) ∈ cs → GoodHeader h) ∧
      (∀ pre b suf, cs = pre ++ (kindMTrk, b) :: suf → st.tpq ≠ none ∨ ∃ h, (kindMThd, h) ∈ pre) ∧
      (st'.tracks ≠ none → st.tracks ≠ none ∨ ∃ b, (kindMTrk, b) ∈ cs) := by
  intro n
  induction n with
  | zero =>
    intro file hf st st' h
    have : file = [] := List.length_eq_zero_iff.1 (by omega)
    subst this
    cases h
    exact ⟨[], .nil, by simp, by simp, Or.inl⟩
  | succ n ih =>
    intro file hf st st' h
    rcases chunks_cases m h with ⟨rfl, rfl⟩ | ⟨kind, top, len, body, rest, st1, h1, h2, rfl, h3, h4⟩
    · exact ⟨[], .nil, by simp, by simp, Or.inl⟩
    · obtain ⟨cs, k1, k2, k3, k4⟩ := ih rest (by
        simp only [List.length_append, List.length_cons] at hf
        omega) st1 st' h4
      obtain ⟨g1, g2, g3, g4⟩ := handleChunk_good h3
      refine ⟨(kind, body) :: cs, .cons h1 h2 k1, ?_, ?_, ?_⟩
      · intro h hm
        rcases List.mem_cons.1 hm with hm | hm
        · cases hm; exact g1 rfl
        · exact k2 h hm
      · intro pre b suf he
        cases pre with
        | nil => cases he; exact Or.inl (g2 rfl)
        | cons x pre =>
          rw [List.cons_append] at he
          injection he with hx he
          rcases k3 pre b suf he with hc | ⟨h, hm⟩
          · rcases g3 hc with hc | rfl
            · exact Or.inl hc
            · exact Or.inr ⟨body, by rw [← hx]; exact List.mem_cons_self⟩
          · exact Or.inr ⟨h, List.mem_cons_of_mem _ hm⟩
      · intro hc
        rcases k4 hc with hc | ⟨b, hm⟩
        · rcases g4 hc with hc | rfl
          · exact Or.inl hc
          · exact Or.inr ⟨body, List.mem_cons_self⟩
        · exact Or.inr ⟨b, List.mem_cons_of_mem _ hm⟩

omit [UnicodeDigits] in
theorem finish_ok {S : ListSort} {channel : Option Int} {st : LoadState} {t : Track}
    (h : finish S channel st = .ok t) : st.kind ≠ none ∧ st.tracks ≠ none := by
  unfold finish at h
  split at h
  · cases h
  · rename_i hk
    rw [hk]
    split at h
    · cases h
    · rename_i hk
      rw [hk]
      exact ⟨by simp, by simp⟩

end MidiReader

end Melodia
