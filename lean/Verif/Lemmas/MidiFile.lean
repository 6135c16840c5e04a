/-
`load` on well-formed files.
-/
import Verif.Lemmas.MidiLoad
import Mathlib.Algebra.BigOperators.Group.Finset.Basic

set_option autoImplicit false

namespace Melodia

/-! ### Chunks with four-byte lengths -/

theorem foldl_base (l : Bytes) : ∀ a : Nat, l.foldl (fun acc b => acc * 256 + b.toNat) a =
    a * 256 ^ l.length + l.foldl (fun acc b => acc * 256 + b.toNat) 0 := by
  induction l with
  | nil => intro a; simp
  | cons x l ih =>
    intro a
    rw [List.foldl_cons, List.foldl_cons, ih, ih (0 * 256 + x.toNat), List.length_cons, pow_succ]
    ring

theorem bigEndian_four {n : Nat} {len : Bytes} (h : IsBigEndian 4 n len) (hn : n < 2 ^ 24) :
    ∃ l3, len = 0 :: l3 ∧ IsBigEndian 3 n l3 := by
  obtain ⟨h1, h2⟩ := h
  match len, h1 with
  | x :: l3, h1 =>
    have h3 : l3.length = 3 := by simpa using h1
    rw [List.foldl_cons, foldl_base, h3] at h2
    have hx : x = 0 := UInt8.toNat_inj.1 (by
      have : (0 : UInt8).toNat = 0 := rfl
      rw [this]
      by_contra hne
      have : 1 ≤ x.toNat := by omega
      omega)
    subst hx
    exact ⟨l3, rfl, h3, by simpa using h2⟩

theorem pyBind_ok {α β : Type} (a : α) (f : α → PyM β) : ((Except.ok a : PyM α) >>= f) = f a := rfl

variable [UnicodeDigits]

namespace MidiReader

theorem chunks_chunk (m : MidiReader) (st : LoadState) {kind body bs : Bytes} (h : IsChunk kind body bs)
    (hk : kind.length = 4) (hb : body.length < 2 ^ 24) (rest : Bytes) :
    m.chunks st (bs ++ rest) = (m.handleChunk st kind body >>= fun st => m.chunks st rest) := by
  obtain ⟨len, h1, rfl⟩ := h
  obtain ⟨l3, rfl, h3⟩ := bigEndian_four h1 hb
  exact chunks_cons m st rest hk h3

theorem handleChunk_unknown (m : MidiReader) (st : LoadState) {kind : Bytes} (body : Bytes)
    (h1 : kind ≠ kindMThd) (h2 : kind ≠ kindMTrk) : m.handleChunk st kind body = .ok st := by
  rw [handleChunk_eq]
  unfold handleHeader
  rw [if_neg (show ¬ kind = Writer.tagMThd from h1)]
  change m.handleTrack kind body st = _
  unfold handleTrack
  rw [if_neg (show ¬ kind = Writer.tagMTrk from h2)]
  rfl

omit [UnicodeDigits] in
theorem parseHeader_file {division : Nat} {div : Bytes} (h : IsBigEndian 2 division div) :
    parseHeader ([0, 0, 0, 1] ++ div) = .ok (0, 1, division) := by
  obtain ⟨h1, h2⟩ := h
  match div, h1 with
  | [a, b], _ =>
    rw [← h2]
    rfl

theorem handleChunk_header (m : MidiReader) (st : LoadState) {division : Nat} {div : Bytes}
    (h : IsBigEndian 2 division div) (hd : division ≤ 0x7FFF) :
    m.handleChunk st kindMThd ([0, 0, 0, 1] ++ div) = .ok { st with kind := some 0, tpq := some division } := by
  rw [handleChunk_eq]
  unfold handleHeader
  rw [if_pos (show kindMThd = Writer.tagMThd from rfl), parseHeader_file h]
  simp only [bind, Except.bind, pure, Except.pure]
  rw [if_neg (by simp), if_neg (by simp), if_neg (by omega)]
  unfold handleTrack
  simp only []
  rw [if_neg (by decide)]
  rfl

theorem handleChunk_track (m : MidiReader) (st : LoadState) {tpq : Nat} (ht : st.tpq = some tpq) (body : Bytes) :
    m.handleChunk st kindMTrk body = (m.parseTrack body tpq >>= fun ts => pure { st with tracks := some ts }) := by
  rw [handleChunk_eq]
  unfold handleHeader
  rw [if_neg (by decide)]
  change m.handleTrack kindMTrk body st = _
  unfold handleTrack
  rw [if_pos (show kindMTrk = Writer.tagMTrk from rfl), ht]

omit [UnicodeDigits] in
theorem header_length {division : Nat} {div : Bytes} (h : IsBigEndian 2 division div) :
    ([0, 0, 0, 1] ++ div : Bytes).length < 2 ^ 24 := by
  rw [List.length_append, h.1]; norm_num

theorem load_file (S : ListSort) (m : MidiReader) {division : Nat} {body file : Bytes}
    (hf : IsFile division body file) (hd : division ≤ 0x7FFF) (hb : body.length < 2 ^ 24) (channel : Option Int) :
    m.load S file channel = (m.parseTrack body division >>= fun ts =>
      finish S channel ⟨some 0, some division, some ts⟩) := by
  obtain ⟨div, hdr, trk, h1, h2, h3, rfl⟩ := hf
  rw [load_eq, chunks_chunk m _ h2 rfl (header_length h1), handleChunk_header m _ h1 hd]
  change (m.chunks _ trk >>= _) = _
  rw [← List.append_nil trk, chunks_chunk m _ h3 rfl hb, handleChunk_track m _ (tpq := division) rfl]
  rcases m.parseTrack body division with e | ts <;> rfl

theorem load_badDivision (S : ListSort) (m : MidiReader) {division : Nat} {body file : Bytes}
    (hf : IsFile division body file) (hd : 0x7FFF < division) (channel : Option Int) :
    m.load S file channel = .error .parsingError := by
  obtain ⟨div, hdr, trk, h1, h2, h3, rfl⟩ := hf
  rw [load_eq, chunks_chunk m _ h2 rfl (header_length h1), handleChunk_eq]
  unfold handleHeader
  rw [if_pos (show kindMThd = Writer.tagMThd from rfl), parseHeader_file h1]
  simp only [bind, Except.bind, pure, Except.pure]
  rw [if_neg (by simp), if_neg (by simp), if_pos hd]

end MidiReader

/-! ### Track bodies -/

/-- The state after the events. -/
def coreOf (es : List (Nat × Ev)) : Core := es.foldl Core.step ParseState.init.core

omit [UnicodeDigits] in
theorem Encodes.wf {prev : Option UInt8} {es : List (Nat × Ev)} {bs : Bytes} (h : Encodes prev es bs) :
    ∀ x ∈ es, x.2.Wf := by
  induction h with
  | nil => intro x hx; cases hx
  | cons hv hw he h ih =>
    intro x hx
    rcases List.mem_cons.1 hx with rfl | hx
    · exact hw
    · exact ih x hx

omit [UnicodeDigits] in
theorem IsBody.wf {es : List (Nat × Ev)} {body : Bytes} (h : IsBody es body) : ∀ x ∈ es, x.2.Wf := by
  obtain ⟨-, d, h⟩ := h
  exact fun x hx => h.wf x (List.mem_append_left _ hx)

omit [UnicodeDigits] in
theorem IsBody.parse {es : List (Nat × Ev)} {body : Bytes} (h : IsBody es body) :
    ∃ st, L.parse ParseState.init body = .ok (st, []) ∧ st.channelEvents = (coreOf es).events ∧
      st.channelSignatures = (coreOf es).sigs := by
  obtain ⟨h1, d, h2⟩ := h
  obtain ⟨st, k1, k2, k3⟩ := L.parse_body es none body d h2 h1 ParseState.init (by intro s hs; cases hs) []
  rw [List.append_nil] at k1
  exact ⟨st, k1, k2, k3⟩

namespace MidiReader

theorem parseTrack_body (m : MidiReader) {es : List (Nat × Ev)} {body : Bytes} (h : IsBody es body) (tpq : Nat) :
    m.parseTrack body tpq = tracksOf m tpq (coreOf es).events (coreOf es).sigs := by
  obtain ⟨st, h1, h2, h3⟩ := h.parse
  rw [parseTrack_eq, h1, ← h2, ← h3]
  rfl

theorem load_body (S : ListSort) (m : MidiReader) {division : Nat} {es : List (Nat × Ev)} {body file : Bytes}
    (hf : IsFile division body file) (he : IsBody es body) (hd : division ≤ 0x7FFF) (hb : body.length < 2 ^ 24)
    (channel : Option Int) :
    m.load S file channel = (tracksOf m division (coreOf es).events (coreOf es).sigs >>= fun ts =>
      finish S channel ⟨some 0, some division, some ts⟩) := by
  rw [load_file S m hf hd hb, parseTrack_body m he]

omit [UnicodeDigits] in
theorem coreOf_ok {es : List (Nat × Ev)} {body : Bytes} (h : IsBody es body) :
    EventsOk (coreOf es).events ∧ SigsOk (coreOf es).sigs := by
  obtain ⟨st, h1, h2, h3⟩ := h.parse
  rw [← h2, ← h3]
  exact parse_ok h1

omit [UnicodeDigits] in
theorem channelSignature_body {es : List (Nat × Ev)} {body : Bytes} (h : IsBody es body) (c : Nat) :
    channelSignature (coreOf es).sigs c = signatureFor c es := by
  have h1 := fold_sigs es h.wf ParseState.init.core none rfl (some c)
  have h2 := fold_sigs es h.wf ParseState.init.core none rfl none
  change Dict.get (coreOf es).sigs (c : Int) = _ at h1
  change Dict.get (coreOf es).sigs (-1 : Int) = _ at h2
  unfold channelSignature signatureFor
  rw [h1, h2]
  generalize List.getLast? (List.filter (fun x => decide (x.1 = some c)) (signatureEvents none es)) = A
  generalize List.getLast? (List.filter (fun x => decide (x.1 = none)) (signatureEvents none es)) = B
  cases A <;> cases B <;> rfl

omit [UnicodeDigits] in
/-- Which channels there are and which events they have. -/
theorem channelsOf_body {es : List (Nat × Ev)} {body : Bytes} (h : IsBody es body) (c : Nat) :
    (HasChannel es c → ∃ l, (channelsOf (coreOf es).events).get c = some l ∧ decode l = noteEvents c 0 es) ∧
    (¬ HasChannel es c → (channelsOf (coreOf es).events).get c = none) := by
  have hget : ∀ c : Nat, Dict.get (coreOf es).events (c : Int) = storedAfter none c (noteEvents c 0 es) :=
    fun c => fold_events es h.wf ParseState.init.core 0 rfl c
  have hkeys : ∀ c ∈ (coreOf es).events.map Prod.fst, ∃ n : Nat, n < 16 ∧ c = n :=
    (fold_keys es h.wf ParseState.init.core (by simp [ParseState.core, ParseState.init])
      (by simp [ParseState.core, ParseState.init])).2
  have hempty : (coreOf es).events = [] ↔ ∀ k, noteEvents k 0 es = [] := by
    constructor
    · intro h0 k
      have := hget k
      rw [h0] at this
      by_contra hne
      unfold storedAfter at this
      split at this
      · contradiction
      · cases this
    · intro hk
      rcases hd : (coreOf es).events with _ | ⟨⟨a, b⟩, d⟩
      · rfl
      · exfalso
        obtain ⟨n, -, hn⟩ := hkeys a (by rw [hd]; simp)
        have := hget n
        rw [hk n, hd, Dict.get, if_pos hn] at this
        cases this
  unfold channelsOf
  by_cases h0 : (coreOf es).events = []
  · rw [h0, List.isEmpty_nil, if_pos rfl]
    have hk := hempty.1 h0
    by_cases hc : c = 0
    · subst hc
      refine ⟨fun _ => ⟨_, rfl, ?_⟩, fun hn => absurd (Or.inr ⟨rfl, hk⟩) hn⟩
      rw [hk 0]; rfl
    · refine ⟨fun hh => ?_, fun _ => ?_⟩
      · rcases hh with hh | ⟨hh, -⟩
        · exact absurd (hk c) hh
        · exact absurd hh hc
      · rw [Dict.get, if_neg (by omega)]; rfl
  · rw [if_neg (by simpa using h0), hget c]
    have hk : ¬ ∀ k, noteEvents k 0 es = [] := fun hk => h0 (hempty.2 hk)
    unfold storedAfter
    split
    · rename_i hn
      refine ⟨fun hh => ?_, fun _ => rfl⟩
      rcases hh with hh | ⟨-, hh⟩
      · exact absurd hn hh
      · exact absurd hh hk
    · rename_i hn
      refine ⟨fun _ => ⟨_, rfl, ?_⟩, fun hh => absurd (Or.inl hn) hh⟩
      rw [Option.getD_none, List.nil_append, decode_stored]

omit [UnicodeDigits] in
theorem hasChannel_of_mem {es : List (Nat × Ev)} {body : Bytes} (h : IsBody es body) {c : Nat} {l : List (Int × Event)}
    (hm : ((c : Int), l) ∈ channelsOf (coreOf es).events) : HasChannel es c ∧ decode l = noteEvents c 0 es := by
  have hok := (channelsOf_ok (coreOf_ok h).1).1
  have hg := Dict.get_of_mem hok.nodup hm
  obtain ⟨h1, h2⟩ := channelsOf_body h c
  by_cases hh : HasChannel es c
  · obtain ⟨l', k1, k2⟩ := h1 hh
    rw [hg] at k1
    cases k1
    exact ⟨hh, k2⟩
  · rw [h2 hh] at hg; cases hg

omit [UnicodeDigits] in
theorem sum_channels {es : List (Nat × Ev)} {body : Bytes} (h : IsBody es body) (delta : Int) (tpq : Nat) :
    ((channelsOf (coreOf es).events).map (fun x => readNotes delta tpq (decode x.2))).sum =
      ∑ c ∈ Finset.range 16, readNotes delta tpq (noteEvents c 0 es) := by
  have hok := (channelsOf_ok (coreOf_ok h).1).1
  set d := channelsOf (coreOf es).events with hd
  have e1 : d.map (fun x => readNotes delta tpq (decode x.2)) =
      (d.map (fun x => x.1.toNat)).map (fun c => readNotes delta tpq (noteEvents c 0 es)) := by
    rw [List.map_map]
    apply List.map_congr_left
    intro x hx
    obtain ⟨n, -, hn⟩ := hok.keys x hx
    obtain ⟨a, b⟩ := x
    simp only at hn
    subst hn
    show _ = readNotes delta tpq (noteEvents ((n : Int).toNat) 0 es)
    rw [Int.toNat_natCast, ← (hasChannel_of_mem h hx).2]
  have hnd : (d.map (fun x => x.1.toNat)).Nodup := by
    have : d.map (fun x => x.1.toNat) = (d.map Prod.fst).map Int.toNat := by rw [List.map_map]; rfl
    rw [this]
    refine List.Nodup.map_on ?_ hok.nodup
    intro x hx y hy hxy
    obtain ⟨x', hx', rfl⟩ := List.mem_map.1 hx
    obtain ⟨y', hy', rfl⟩ := List.mem_map.1 hy
    obtain ⟨n, -, hn⟩ := hok.keys x' hx'
    obtain ⟨k, -, hk⟩ := hok.keys y' hy'
    rw [hn, hk] at hxy ⊢
    simpa using hxy
  rw [e1, ← List.sum_toFinset _ hnd]
  apply Finset.sum_subset
  · intro c hc
    rw [List.mem_toFinset] at hc
    obtain ⟨x, hx, rfl⟩ := List.mem_map.1 hc
    obtain ⟨n, hn, hn'⟩ := hok.keys x hx
    rw [Finset.mem_range]
    rw [hn']
    simpa using hn
  · intro c _ hc
    have : noteEvents c 0 es = [] := by
      by_contra hne
      obtain ⟨l, h1, -⟩ := (channelsOf_body h c).1 (Or.inl hne)
      have := Dict.mem_of_get h1
      exact hc (by rw [List.mem_toFinset]; exact List.mem_map.2 ⟨_, this, by simp⟩)
    rw [this, readNotes_nil]

omit [UnicodeDigits] in
theorem forall₂_contents {S : ListSort} {delta : Int} {tpq : Nat} {sigs : Dict Int Signature}
    {d : Dict Int (List (Int × Event))} {ts : Dict Int Track} (h : List.Forall₂ (IsTrackOf S delta tpq sigs) d ts) :
    ts.map (fun x => x.2.contents) = d.map (fun x => readNotes delta tpq (decode x.2)) := by
  induction h with
  | nil => rfl
  | cons h1 h2 ih => rw [List.map_cons, List.map_cons, ih, h1.contents]

omit [UnicodeDigits] in
theorem forall₂_track {S : ListSort} {delta : Int} {tpq : Nat} {sigs : Dict Int Signature}
    {d : Dict Int (List (Int × Event))} {ts : Dict Int Track} (h : List.Forall₂ (IsTrackOf S delta tpq sigs) d ts)
    (c : Int) : (d.get c = none ∧ ts.get c = none) ∨
      ∃ l t, d.get c = some l ∧ ts.get c = some t ∧ IsTrackOf S delta tpq sigs (c, l) (c, t) := by
  induction h with
  | nil => exact Or.inl ⟨rfl, rfl⟩
  | @cons a b d ts h1 h2 ih =>
    obtain ⟨ca, l⟩ := a
    obtain ⟨cb, t⟩ := b
    have hk : ca = cb := h1.key
    subst hk
    rw [Dict.get, Dict.get]
    by_cases hc : ca = c
    · subst hc
      rw [if_pos rfl, if_pos rfl]
      exact Or.inr ⟨l, t, rfl, rfl, h1⟩
    · rw [if_neg hc, if_neg hc]; exact ih

omit [UnicodeDigits] in
theorem forall₂_sigs {S : ListSort} {delta : Int} {tpq : Nat} {sigs : Dict Int Signature}
    {d : Dict Int (List (Int × Event))} {ts : Dict Int Track} (h : List.Forall₂ (IsTrackOf S delta tpq sigs) d ts) :
    ts.map (fun x => x.2.signature) = d.map (fun x => channelSignature sigs x.1) := by
  induction h with
  | nil => rfl
  | cons h1 h2 ih => rw [List.map_cons, List.map_cons, ih, h1.sig]

/-- Loading one channel. -/
theorem load_channel (S : ListSort) (m : MidiReader) {division : Nat} {es : List (Nat × Ev)} {body file : Bytes}
    (hf : IsFile division body file) (he : IsBody es body) (hd0 : 0 < division) (hd : division ≤ 0x7FFF)
    (hb : body.length < 2 ^ 24) (c : Nat) :
    (HasChannel es c → ∃ t, m.load S file (some (c : Int)) = .ok t ∧ t.Reachable S ∧
      t.signature = signatureFor c es ∧ t.contents = readNotes m.middleCDelta division (noteEvents c 0 es)) ∧
    (¬ HasChannel es c → m.load S file (some (c : Int)) = .error .valueError) := by
  rw [load_body S m hf he hd hb]
  obtain ⟨o1, o2⟩ := coreOf_ok he
  obtain ⟨ts, h1, h2⟩ := tracksOf_ok m hd0 S o2 o1
  rw [h1]
  rw [pyBind_ok]
  unfold finish
  simp only []
  have hne : ts.isEmpty = false := by
    cases hts : ts with
    | nil =>
      have hl := h2.length_eq
      rw [hts, List.length_nil, List.length_eq_zero_iff] at hl
      exact absurd hl (channelsOf_ok o1).2
    | cons _ _ => rfl
  rw [hne, if_neg (by simp)]
  obtain ⟨c1, c2⟩ := channelsOf_body he c
  constructor
  · intro hh
    obtain ⟨l, k1, k2⟩ := c1 hh
    rcases forall₂_track h2 c with ⟨e1, -⟩ | ⟨l', t, e1, e2, e3⟩
    · rw [k1] at e1; cases e1
    · rw [k1] at e1
      cases e1
      rw [e2]
      refine ⟨t, rfl, e3.reach, ?_, ?_⟩
      · rw [e3.sig]; exact channelSignature_body he c
      · rw [e3.contents, k2]
  · intro hh
    rcases forall₂_track h2 c with ⟨-, e2⟩ | ⟨l', t, e1, -, -⟩
    · rw [e2]
    · rw [c2 hh] at e1; cases e1

/-- A channel that is not a channel number. -/
theorem load_badChannel (S : ListSort) (m : MidiReader) {division : Nat} {es : List (Nat × Ev)} {body file : Bytes}
    (hf : IsFile division body file) (he : IsBody es body) (hd0 : 0 < division) (hd : division ≤ 0x7FFF)
    (hb : body.length < 2 ^ 24) {c : Int} (hc : c < 0) :
    m.load S file (some c) = .error .valueError := by
  rw [load_body S m hf he hd hb]
  obtain ⟨o1, o2⟩ := coreOf_ok he
  obtain ⟨ts, h1, h2⟩ := tracksOf_ok m hd0 S o2 o1
  rw [h1]
  rw [pyBind_ok]
  unfold finish
  simp only []
  have hne : ts.isEmpty = false := by
    cases hts : ts with
    | nil =>
      have hl := h2.length_eq
      rw [hts, List.length_nil, List.length_eq_zero_iff] at hl
      exact absurd hl (channelsOf_ok o1).2
    | cons _ _ => rfl
  rw [hne, if_neg (by simp)]
  rcases forall₂_track h2 c with ⟨-, e2⟩ | ⟨l', t, e1, -, -⟩
  · rw [e2]
  · obtain ⟨n, -, hn⟩ := (channelsOf_ok o1).1.keys _ (Dict.mem_of_get e1)
    simp only at hn
    omega

/-- Loading all channels. -/
theorem load_all (S : ListSort) (m : MidiReader) {division : Nat} {es : List (Nat × Ev)} {body file : Bytes}
    (hf : IsFile division body file) (he : IsBody es body) (hd0 : 0 < division) (hd : division ≤ 0x7FFF)
    (hb : body.length < 2 ^ 24) :
    ∃ t, m.load S file none = .ok t ∧ t.Reachable S ∧
      t.signature = ((channelsOf (coreOf es).events).map (fun x => channelSignature (coreOf es).sigs x.1)).foldl
        (fun acc s => if s.gt acc then s else acc) ⟨0, 1⟩ ∧
      t.contents = ∑ c ∈ Finset.range 16, readNotes m.middleCDelta division (noteEvents c 0 es) := by
  rw [load_body S m hf he hd hb]
  obtain ⟨o1, o2⟩ := coreOf_ok he
  obtain ⟨ts, h1, h2⟩ := tracksOf_ok m hd0 S o2 o1
  rw [h1]
  rw [pyBind_ok]
  unfold finish
  simp only []
  have hne : ts.isEmpty = false := by
    cases hts : ts with
    | nil =>
      have hl := h2.length_eq
      rw [hts, List.length_nil, List.length_eq_zero_iff] at hl
      exact absurd hl (channelsOf_ok o1).2
    | cons _ _ => rfl
  rw [hne, if_neg (by simp)]
  have hr : ∀ x ∈ ts, x.2.Reachable S := by
    intro x hx
    obtain ⟨y, -, hy⟩ := forall₂_right h2 hx
    exact hy.reach
  obtain ⟨t, a1, a2, a3, a4⟩ := mergeTracks_ok S ts hr _ (Track.Reachable.empty (maxSignature_valid hr))
  refine ⟨t, a1, a2, ?_, ?_⟩
  · rw [a3, ← forall₂_sigs h2, List.foldl_map]; rfl
  · rw [a4, forall₂_contents h2, sum_channels he, contents_empty, add_zero]

omit [UnicodeDigits] in
theorem step_unsupported {u : Ev} (h : u.Unsupported) (k : Core) (d : Nat) :
    k.step (d, u) = { k with time := k.time + d } := by
  have : u.event = .unsupported := by
    cases u with
    | chan s data =>
      obtain ⟨h1, h2⟩ := h
      unfold Ev.event
      simp only
      split
      · rw [if_neg (by omega)]
      · rfl
    | sys s data => rfl
    | mta c payload =>
      obtain ⟨h1, h2, h3⟩ := h
      unfold Ev.event
      simp only
      rw [if_neg h1]
      split
      · rw [if_neg h2]
      · rw [if_neg h3]
      · rfl
  unfold Core.step
  simp only [this]

omit [UnicodeDigits] in
theorem step_delay (k : Core) (d d' : Nat) (e : Ev) :
    ({ k with time := k.time + d } : Core).step (d', e) = k.step (d + d', e) := by
  have ht : k.time + (d : Int) + (d' : Int) = k.time + ((d + d' : Nat) : Int) := by push_cast; ring
  unfold Core.step
  simp only [ht]

end MidiReader
end Melodia
