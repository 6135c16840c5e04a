/-
From stored events to tracks: `_time_to_signature`, the pairing loop, the loop over the channels, and
`load` on well-formed files.
-/
import Verif.Lemmas.EventParse
import Verif.Lemmas.Pairing
import Verif.Lemmas.TrackMore
import Verif.Lemmas.Note
import Verif.Lemmas.Float
import Verif.Lemmas.Track
import Mathlib.Data.Nat.Prime.Basic

set_option autoImplicit false

namespace Melodia

/-! ### Times -/

namespace Signature

theorem lowest_spec {n d : Int} (hn : 0 ≤ n) (hd : IsPow2 d) :
    (lowest n d).Valid ∧ (lowest n d).val = (n : ℚ) / d ∧
      ((lowest n d).denominator = 1 ∨ (lowest n d).nominator % 2 = 1) := by
  obtain ⟨k, rfl⟩ := hd
  have hd0 : (0 : Int) < 2 ^ k := by positivity
  have hg0 : 0 < Int.gcd n (2 ^ k) := Int.gcd_pos_of_ne_zero_right _ hd0.ne'
  have hgd : ((Int.gcd n (2 ^ k) : Nat) : Int) ∣ 2 ^ k := Int.gcd_dvd_right _ _
  have hgn : ((Int.gcd n (2 ^ k) : Nat) : Int) ∣ n := Int.gcd_dvd_left _ _
  have hp : Int.gcd n (2 ^ k) ∣ 2 ^ k := by exact_mod_cast hgd
  obtain ⟨j, hj, hgj⟩ := (Nat.dvd_prime_pow Nat.prime_two).1 hp
  have hden : (2 : Int) ^ k / (Int.gcd n (2 ^ k) : Nat) = 2 ^ (k - j) := by
    rw [hgj]
    push_cast
    rw [Int.ediv_eq_iff_eq_mul_left (by positivity) (pow_dvd_pow 2 hj), ← pow_add]
    congr 1; omega
  refine ⟨⟨?_, ?_⟩, ?_, ?_⟩
  · exact Int.ediv_nonneg hn (by positivity)
  · exact ⟨k - j, hden⟩
  · unfold val lowest
    simp only
    obtain ⟨a, ha⟩ := hgn
    obtain ⟨b, hb⟩ := hgd
    have hg : ((Int.gcd n (2 ^ k) : Nat) : Int) ≠ 0 := by exact_mod_cast hg0.ne'
    have hgq : ((Int.gcd n (2 ^ k) : Nat) : ℚ) ≠ 0 := by exact_mod_cast hg0.ne'
    generalize hG : Int.gcd n (2 ^ k) = g at *
    rw [ha, hb, Int.mul_ediv_cancel_left _ hg, Int.mul_ediv_cancel_left _ hg]
    push_cast
    rw [mul_div_mul_left _ _ hgq]
  · by_cases h1 : k - j = 0
    · left
      show (2 : Int) ^ k / (Int.gcd n (2 ^ k) : Nat) = 1
      rw [hden, h1, pow_zero]
    · right
      have hc : Int.gcd (n / (Int.gcd n (2 ^ k) : Nat)) (2 ^ k / (Int.gcd n (2 ^ k) : Nat)) = 1 :=
        Int.gcd_ediv_gcd_ediv_gcd hg0
      rw [hden] at hc
      by_contra hodd
      have h2 : (2 : Int) ∣ n / (Int.gcd n (2 ^ k) : Nat) := by
        have : (n / (Int.gcd n (2 ^ k) : Nat)) % 2 ≠ 1 := hodd
        omega
      have h3 : (2 : Int) ∣ 2 ^ (k - j) := dvd_pow_self 2 h1
      have := Int.dvd_coe_gcd h2 h3
      rw [hc] at this
      norm_num at this

end Signature

theorem isPow2_grid : IsPow2 16384 := ⟨14, by norm_num⟩

theorem gridSignature_spec (division time : Nat) : (gridSignature division time).Valid ∧
    (gridSignature division time).val = ((time * 4096 / division : Nat) : ℚ) / 16384 ∧
    ((gridSignature division time).denominator = 1 ∨ (gridSignature division time).nominator % 2 = 1) := by
  have := Signature.lowest_spec (n := ((time * 4096 / division : Nat) : Int)) (Int.natCast_nonneg _) isPow2_grid
  refine ⟨this.1, ?_, this.2.2⟩
  unfold gridSignature
  rw [this.2.1, Int.cast_natCast]
  norm_num

namespace MidiReader

theorem timeToSignature_ok {tpq : Nat} (h : 0 < tpq) (time : Nat) :
    timeToSignature time tpq = .ok (gridSignature tpq time) := by
  unfold timeToSignature
  rw [if_neg (by omega)]
  have e : pyFloorDiv ((time : Int) * 4096) tpq = ((time * 4096 / tpq : Nat) : Int) := by
    unfold pyFloorDiv
    rw [Int.fdiv_eq_ediv_of_nonneg _ (by omega)]
    push_cast
    rfl
  rw [e, show (4 * 4096 : Int) = 16384 by norm_num, Signature.new_ok (Int.natCast_nonneg _) isPow2_grid]
  change Signature.normalized _ = _
  obtain ⟨r, h1, h2, h3, h4⟩ := Signature.normalized_spec
    (s := ⟨((time * 4096 / tpq : Nat) : Int), 16384⟩) ⟨Int.natCast_nonneg _, isPow2_grid⟩
  rw [h1]
  obtain ⟨g1, g2, g3⟩ := gridSignature_spec tpq time
  congr 1
  apply Signature.lowest_unique h2 g1 h4 g3
  rw [h3, g2]
  unfold Signature.val
  simp only
  rw [Int.cast_natCast]
  norm_num

theorem timeToSignature_zero (time : Int) : timeToSignature time ((0 : Nat) : Int) = .error .assertionError := by
  unfold timeToSignature
  rw [if_pos (by simp)]

theorem velocityOf_eq (k : Nat) : velocityOf k = .fin (fl ((min k 127 : Nat) / 127)) ∧
    0 ≤ fl (((min k 127 : Nat) : ℚ) / 127) ∧ fl (((min k 127 : Nat) : ℚ) / 127) ≤ 1 := by
  have f1 : fl 1 = 1 := by have := fl_nat (n := 1) (by norm_num); exact_mod_cast this
  have hn : 0 ≤ fl (((min k 127 : Nat) : ℚ) / 127) := fl_nonneg (by positivity)
  have hle : fl (((min k 127 : Nat) : ℚ) / 127) ≤ 1 := by
    have : ((min k 127 : Nat) : ℚ) / 127 ≤ 1 := by
      rw [div_le_iff₀ (by norm_num), one_mul]; exact_mod_cast (min_le_right k 127)
    have := fl_mono (by positivity) this
    rwa [f1] at this
  refine ⟨?_, hn, hle⟩
  have hn' : 0 ≤ fl ((k : ℚ) / 127) := fl_nonneg (by positivity)
  have hmin : fl (((min k 127 : Nat) : ℚ) / 127) = min 1 (fl ((k : ℚ) / 127)) := by
    rcases Nat.le_total k 127 with h | h
    · rw [min_eq_left h] at hle ⊢
      rw [min_eq_right hle]
    · rw [min_eq_right h]
      have h2 : (1 : ℚ) ≤ (k : ℚ) / 127 := by
        rw [le_div_iff₀ (by norm_num), one_mul]; exact_mod_cast h
      have := fl_mono (by norm_num) h2
      rw [f1] at this
      rw [min_eq_left this]
      norm_num
      exact f1
  rw [hmin]
  unfold velocityOf PyFloat.min PyFloat.max
  by_cases h1 : fl ((k : ℚ) / 127) < 1
  · have e1 : (PyFloat.fin (fl ((k : ℚ) / 127))).lt (.fin 1) = true := by simp [PyFloat.lt, h1]
    rw [if_pos e1, min_eq_right h1.le]
    by_cases h0 : 0 < fl ((k : ℚ) / 127)
    · have e2 : (PyFloat.fin 0).lt (.fin (fl ((k : ℚ) / 127))) = true := by simp [PyFloat.lt, h0]
      rw [if_pos e2]
    · have e2 : (PyFloat.fin 0).lt (.fin (fl ((k : ℚ) / 127))) = false := by simpa [PyFloat.lt] using h0
      rw [e2, le_antisymm (not_lt.1 h0) hn']
      rfl
  · have e1 : (PyFloat.fin (fl ((k : ℚ) / 127))).lt (.fin 1) = false := by simpa [PyFloat.lt] using h1
    rw [e1, min_eq_left (not_lt.1 h1)]
    simp [PyFloat.lt]

end MidiReader

/-! ### Reachable tracks -/

theorem Track.Reachable.add {S : ListSort} {t t' : Track} (h : t.Reachable S) {w : What} (hw : w.Valid)
    {pos : Option SigArg} (hp : ∀ a, pos = some a → a.Valid) (ht : t.add w pos = .ok t') : t'.Reachable S := by
  obtain ⟨sig, ops, hs, ho, rfl⟩ := h
  refine ⟨sig, ops ++ [.add w pos], hs, ?_, ?_⟩
  · intro o ho'
    rw [List.mem_append, List.mem_singleton] at ho'
    rcases ho' with ho' | rfl
    · exact ho o ho'
    · exact ⟨hw, hp⟩
  · unfold Track.run
    rw [List.foldl_append]
    simp only [List.foldl_cons, List.foldl_nil, TrackOp.step]
    unfold Track.run at ht
    rw [Track.addS_of_ok ht]

theorem Track.Reachable.empty {S : ListSort} {s : Signature} (hs : s.Valid) : (Track.empty s).Reachable S :=
  ⟨s, [], hs, by simp, rfl⟩

/-! ### The pairing loop -/

/-- Times never decrease. -/
def TimeSorted (evs : List NoteEv) : Prop := evs.Pairwise (fun a b => a.time ≤ b.time)

/-- `running_notes` holds exactly the open notes. -/
structure RunInv (pre : List NoteEv) (r : MidiReader.Running) : Prop where
  nodup : (r.map Prod.fst).Nodup
  get : ∀ p x, r.get p = some x ↔ ∃ i a, IsOpen pre p i ∧ pre[i]? = some a ∧ x = ((a.time : Int), a.velocity)

theorem RunInv.init : RunInv [] [] := by
  refine ⟨by simp, fun p x => ?_⟩
  constructor
  · intro h; cases h
  · rintro ⟨i, a, -, h, -⟩; simp at h

theorem RunInv.isSome {pre : List NoteEv} {r : MidiReader.Running} (h : RunInv pre r) (p : Nat) :
    (r.get p).isSome ↔ ∃ i, IsOpen pre p i := by
  rw [Option.isSome_iff_exists]
  constructor
  · rintro ⟨x, hx⟩
    obtain ⟨i, a, h1, -⟩ := (h.get p x).1 hx
    exact ⟨i, h1⟩
  · rintro ⟨i, hi⟩
    obtain ⟨a, ha, -⟩ := hi.1.1
    exact ⟨_, (h.get p _).2 ⟨i, a, hi, ha, rfl⟩⟩

theorem getElem?_snoc_lt {pre : List NoteEv} {e : NoteEv} {i : Nat} (h : i < pre.length) :
    (pre ++ [e])[i]? = pre[i]? := List.getElem?_append_left h

/-- A note-on while a note of that pitch is open, or a note-off while none is, changes nothing. -/
theorem RunInv.skip {pre : List NoteEv} {r : MidiReader.Running} (h : RunInv pre r) {e : NoteEv}
    (he : (e.on = true ∧ ∃ i, IsOpen pre e.pitch i) ∨ (e.on = false ∧ ¬ ∃ i, IsOpen pre e.pitch i)) :
    RunInv (pre ++ [e]) r := by
  refine ⟨h.nodup, fun p x => ?_⟩
  rw [h.get p x]
  constructor
  · rintro ⟨i, a, h1, h2, h3⟩
    refine ⟨i, a, isOpen_snoc.2 (Or.inl ⟨h1, ?_⟩), by rw [getElem?_snoc_lt h1.1.1.lt]; exact h2, h3⟩
    rintro ⟨a1, rfl⟩
    rcases he with he | he
    · rw [he.1] at a1; cases a1
    · exact he.2 ⟨i, h1⟩
  · rintro ⟨i, a, h1, h2, h3⟩
    rw [isOpen_snoc] at h1
    rcases h1 with ⟨h1, -⟩ | ⟨-, ⟨a1, rfl⟩, a2⟩
    · exact ⟨i, a, h1, by rwa [getElem?_snoc_lt h1.1.1.lt] at h2, h3⟩
    · rcases he with he | he
      · exact absurd he.2 a2
      · rw [he.1] at a1; cases a1

/-- A note-on starting a note. -/
theorem RunInv.start {pre : List NoteEv} {r : MidiReader.Running} (h : RunInv pre r) {e : NoteEv}
    (he : e.on = true) (hn : ¬ ∃ i, IsOpen pre e.pitch i) :
    RunInv (pre ++ [e]) (r.set e.pitch ((e.time : Int), e.velocity)) := by
  refine ⟨Dict.set_nodup h.nodup _ _, fun p x => ?_⟩
  rw [Dict.get_set]
  by_cases hp : e.pitch = p
  · rw [if_pos hp]
    constructor
    · intro hx
      cases hx
      refine ⟨pre.length, e, isOpen_snoc.2 (Or.inr ⟨rfl, ⟨he, hp⟩, hp ▸ hn⟩), by simp, rfl⟩
    · rintro ⟨i, a, h1, h2, h3⟩
      rw [isOpen_snoc] at h1
      rcases h1 with ⟨h1, -⟩ | ⟨rfl, -⟩
      · exact absurd ⟨i, hp ▸ h1⟩ hn
      · rw [List.getElem?_concat_length] at h2
        cases h2
        rw [h3]
  · rw [if_neg hp, h.get p x]
    constructor
    · rintro ⟨i, a, h1, h2, h3⟩
      exact ⟨i, a, isOpen_snoc.2 (Or.inl ⟨h1, fun hc => hp hc.2⟩), by rw [getElem?_snoc_lt h1.1.1.lt]; exact h2, h3⟩
    · rintro ⟨i, a, h1, h2, h3⟩
      rw [isOpen_snoc] at h1
      rcases h1 with ⟨h1, -⟩ | ⟨-, ⟨-, h1⟩, -⟩
      · exact ⟨i, a, h1, by rwa [getElem?_snoc_lt h1.1.1.lt] at h2, h3⟩
      · exact absurd h1 hp

/-- A note-off ending a note. -/
theorem RunInv.close {pre : List NoteEv} {r : MidiReader.Running} (h : RunInv pre r) {e : NoteEv}
    (he : e.on = false) : RunInv (pre ++ [e]) (r.del e.pitch) := by
  refine ⟨Dict.del_nodup h.nodup _, fun p x => ?_⟩
  rw [Dict.get_del h.nodup]
  by_cases hp : e.pitch = p
  · rw [if_pos hp]
    constructor
    · intro hx; cases hx
    · rintro ⟨i, a, h1, -⟩
      rw [isOpen_snoc] at h1
      rcases h1 with ⟨-, h1⟩ | ⟨-, ⟨h1, -⟩, -⟩
      · exact absurd ⟨he, hp⟩ h1
      · rw [he] at h1; cases h1
  · rw [if_neg hp, h.get p x]
    constructor
    · rintro ⟨i, a, h1, h2, h3⟩
      exact ⟨i, a, isOpen_snoc.2 (Or.inl ⟨h1, fun hc => hp hc.2⟩), by rw [getElem?_snoc_lt h1.1.1.lt]; exact h2, h3⟩
    · rintro ⟨i, a, h1, h2, h3⟩
      rw [isOpen_snoc] at h1
      rcases h1 with ⟨h1, -⟩ | ⟨-, ⟨-, h1⟩, -⟩
      · exact ⟨i, a, h1, by rwa [getElem?_snoc_lt h1.1.1.lt] at h2, h3⟩
      · exact absurd h1 hp

variable [UnicodeDigits]

namespace MidiReader

/-- The note made from a note-on and a note-off, and its place. -/
def madeNote (m : MidiReader) (tpq : Nat) (a b : NoteEv) : Note :=
  ⟨⟨(a.pitch : Int) - m.middleCDelta⟩, gridSignature tpq (b.time - a.time), fl ((min a.velocity 127 : Nat) / 127)⟩

omit [UnicodeDigits] in
theorem madeNote_valid (m : MidiReader) (tpq : Nat) (a b : NoteEv) : (m.madeNote tpq a b).Valid :=
  ⟨(gridSignature_spec tpq _).1, (velocityOf_eq a.velocity).2.1, (velocityOf_eq a.velocity).2.2⟩

/-- Closing a note. -/
theorem close_ok (m : MidiReader) {tpq : Nat} (h : 0 < tpq) (S : ListSort) {t : Track} (ht : t.Reachable S)
    (a b : NoteEv) (hab : a.time ≤ b.time) (hp : a.pitch = b.pitch) :
    ∃ t', (do
        let tone ← m.pitchToTone b.pitch
        let duration ← timeToSignature ((b.time : Int) - (a.time : Int)) tpq
        let position ← timeToSignature a.time tpq
        let note ← Note.new (.tone tone) (.sig duration) (velocityOf a.velocity)
        t.add (.note note) (some (.sig position))) = .ok t' ∧
      t'.Reachable S ∧ t'.signature = t.signature ∧
      t'.contents = readNote m.middleCDelta tpq a b ::ₘ t.contents := by
  have hd : (b.time : Int) - (a.time : Int) = ((b.time - a.time : Nat) : Int) := by omega
  have hnote : Note.new (.tone ⟨(b.pitch : Int) - m.middleCDelta⟩) (.sig (gridSignature tpq (b.time - a.time)))
      (velocityOf a.velocity) = .ok (m.madeNote tpq a b) := by
    rw [Note.new_ok_iff]
    refine ⟨?_, rfl, (velocityOf_eq a.velocity).1, (velocityOf_eq a.velocity).2.1, (velocityOf_eq a.velocity).2.2⟩
    unfold madeNote
    rw [hp]
    rfl
  have hw : (What.note (m.madeNote tpq a b)).Valid := by
    intro n hn
    simp only [What.notes, List.mem_singleton] at hn
    subst hn
    exact madeNote_valid m tpq a b
  have hpos : ∀ x, some (SigArg.sig (gridSignature tpq a.time)) = some x → x.Valid := by
    intro x hx; cases hx; exact (gridSignature_spec tpq _).1
  obtain ⟨t', h1, h2, h3, h4⟩ := Track.add_of_pos ht.wf hw hpos (p := gridSignature tpq a.time) rfl
  refine ⟨t', ?_, ht.add hw hpos h1, h3, ?_⟩
  · rw [hd, timeToSignature_ok h, timeToSignature_ok h]
    change (Note.new _ _ _ >>= _) = _
    rw [hnote]
    exact h1
  · rw [h4]
    simp only [What.notes, List.map_cons, List.map_nil]
    rfl

/-- The loop over the events of one channel. -/
theorem channelLoop_spec (m : MidiReader) {tpq : Nat} (h : 0 < tpq) (S : ListSort) (c : Nat) :
    ∀ (rest pre : List NoteEv) (t : Track) (r : Running), TimeSorted (pre ++ rest) → RunInv pre r →
      t.Reachable S → ∃ t', channelLoop m tpq t r (rest.map (NoteEv.stored c)) = .ok t' ∧
        t'.Reachable S ∧ t'.signature = t.signature ∧
        t'.contents + readNotes m.middleCDelta tpq pre =
          t.contents + readNotes m.middleCDelta tpq (pre ++ rest) := by
  intro rest
  induction rest with
  | nil =>
    intro pre t r _ _ ht
    exact ⟨t, rfl, ht, rfl, by rw [List.append_nil]⟩
  | cons e rest ih =>
    intro pre t r hs hr ht
    have happ : pre ++ e :: rest = (pre ++ [e]) ++ rest := by simp
    rw [happ] at hs ⊢
    rw [List.map_cons]
    by_cases hon : e.on = true
    · have hst : e.stored c = ((e.time : Int), .noteOn c e.pitch e.velocity) := by
        unfold NoteEv.stored; rw [if_pos hon]
      rw [hst, channelLoop]
      by_cases hop : ∃ i, IsOpen pre e.pitch i
      · rw [if_pos ((hr.isSome _).2 hop)]
        obtain ⟨t', h1, h2, h3, h4⟩ := ih (pre ++ [e]) t r hs (hr.skip (Or.inl ⟨hon, hop⟩)) ht
        refine ⟨t', h1, h2, h3, ?_⟩
        rw [← h4, readNotes_snoc_same (Or.inl hon)]
      · rw [if_neg (fun hc => hop ((hr.isSome _).1 hc))]
        obtain ⟨t', h1, h2, h3, h4⟩ := ih (pre ++ [e]) t _ hs (hr.start hon hop) ht
        refine ⟨t', h1, h2, h3, ?_⟩
        rw [← h4, readNotes_snoc_same (Or.inl hon)]
    · have hoff : e.on = false := by simpa using hon
      have hst : e.stored c = ((e.time : Int), .noteOff c e.pitch e.velocity) := by
        unfold NoteEv.stored; rw [if_neg hon]
      rw [hst, channelLoop]
      cases hg : Dict.get r e.pitch with
      | none =>
        have hop : ¬ ∃ i, IsOpen pre e.pitch i := by
          intro hc
          have := (hr.isSome _).2 hc
          rw [hg] at this
          cases this
        obtain ⟨t', h1, h2, h3, h4⟩ := ih (pre ++ [e]) t r hs (hr.skip (Or.inr ⟨hoff, hop⟩)) ht
        refine ⟨t', h1, h2, h3, ?_⟩
        rw [← h4, readNotes_snoc_same (Or.inr hop)]
      | some x =>
        obtain ⟨i, a, ho, ha, rfl⟩ := (hr.get _ _).1 hg
        have hab : a.time ≤ e.time := by
          unfold TimeSorted at hs
          rw [List.append_assoc, List.pairwise_append] at hs
          exact hs.2.2 a (List.mem_of_getElem? ha) e (by simp)
        have hpi : a.pitch = e.pitch := by
          obtain ⟨a', ha', -, hp⟩ := ho.1.1
          rw [ha] at ha'
          cases ha'
          exact hp
        obtain ⟨t1, k1, k2, k3, k4⟩ := close_ok m h S ht a e hab hpi
        obtain ⟨t', h1, h2, h3, h4⟩ := ih (pre ++ [e]) t1 _ hs (hr.close hoff) k2
        refine ⟨t', ?_, h2, h3.trans k3, ?_⟩
        · simp only []
          simp only [bind, Except.bind] at k1 ⊢
          split at k1
          · cases k1
          · split at k1
            · cases k1
            · split at k1
              · cases k1
              · split at k1
                · cases k1
                · rw [k1]
                  exact h1
        · rw [readNotes_snoc_close hoff ho ha] at h4
          rw [k4] at h4
          rw [Multiset.add_cons, Multiset.cons_add] at h4
          exact (Multiset.cons_inj_right _).1 h4

/-- With division zero the loop stops at the first note. -/
theorem channelLoop_zero (m : MidiReader) : ∀ (evs : List (Int × Event)) (t : Track) (r : Running),
    channelLoop m ((0 : Nat) : Int) t r evs = .ok t ∨
      channelLoop m ((0 : Nat) : Int) t r evs = .error .assertionError := by
  intro evs
  induction evs with
  | nil => intro t r; exact Or.inl rfl
  | cons x rest ih =>
    obtain ⟨τ, ev⟩ := x
    intro t r
    cases ev with
    | noteOn c p v =>
      rw [channelLoop]
      split
      · exact ih t r
      · exact ih t _
    | noteOff c p v =>
      rw [channelLoop]
      split
      · exact ih t r
      · right
        simp only [pitchToTone, Tone.new, timeToSignature_zero, bind, Except.bind]
    | _ => exact ih t r

end MidiReader
end Melodia
