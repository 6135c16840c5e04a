/-
Property theorem C84: the project's randomized tests pass whatever the random generator delivers.
-/
import Verif.Props.Capacity
import Mathlib.Data.List.Permutation

set_option autoImplicit false

namespace Melodia

/-- The loop of `random_track_without_overlaps` (tests/melodia/io/test_midi_serialize.py:11-15): `p` and the outcomes
`(pitch, nominator)` of the generator. -/
def serializeTestLoop [UnicodeDigits] (t : Track) (p : Int) : List (Int × Int) → PyM Track
  | [] => .ok t
  | (x, d) :: l => do
    let note ← Note.new (.int x) (.ints [d, 16]) (.fin 1)
    let t ← t.add (.note note) (some (.ints [p + 200, 16]))
    serializeTestLoop t (p + 200) l

/-- `random_track_without_overlaps` (tests/melodia/io/test_midi_serialize.py:7-17). -/
def serializeTestTrack [UnicodeDigits] (s : Int) (l : List (Int × Int)) : PyM Track := do
  let t ← Track.new (.ints [s, 16]) []
  serializeTestLoop t 0 l

/-- The loop of `random_track` (tests/melodia/core/test_track.py:11-14): outcomes pitch, nominator of the duration, and
position. -/
def trackTestLoop [UnicodeDigits] (t : Track) : List (Int × Int × Int × Int) → PyM Track
  | [] => .ok t
  | (x, d, n, k) :: l => do
    let note ← Note.new (.int x) (.ints [d, 16])
    let t ← t.add (.note note) (some (.ints [n, k]))
    trackTestLoop t l

/-- `random_track` (tests/melodia/core/test_track.py:8-16). -/
def trackTestTrack [UnicodeDigits] (s : Int) (l : List (Int × Int × Int × Int)) : PyM Track := do
  let t ← Track.new (.ints [s, 16]) []
  trackTestLoop t l

theorem coerce_pair {n d : Int} (hn : 0 ≤ n) (hd : ∃ k : Nat, d = 2 ^ k) :
    (SigArg.ints [n, d]).coerce = .ok ⟨n, d⟩ ∧ (⟨n, d⟩ : Signature).Valid := by
  have hv : (⟨n, d⟩ : Signature).Valid := ⟨hn, hd⟩
  exact ⟨Signature.new_ok hn hd, hv⟩

theorem new_sixteenth [UnicodeDigits] {s : Int} (hs : 0 ≤ s) :
    Track.new (.ints [s, 16]) [] = .ok (Track.empty ⟨s, 16⟩) ∧ (⟨s, 16⟩ : Signature).Valid := by
  obtain ⟨h, hv⟩ := coerce_pair hs ⟨4, show (16 : Int) = 2 ^ 4 by norm_num⟩
  refine ⟨?_, hv⟩
  unfold Track.new
  rw [h]
  rfl

/-- What the test adds to the track. -/
def serializeTestNotes (p : Int) : List (Int × Int) → List (ℚ × Note)
  | [] => []
  | (x, d) :: l => (((p + 200 : Int) : ℚ) / 16, ⟨⟨x⟩, ⟨d, 16⟩, 1⟩) :: serializeTestNotes (p + 200) l

theorem serializeTestLoop_spec [UnicodeDigits] (S : ListSort) (l : List (Int × Int)) (h : ∀ x ∈ l, 0 ≤ x.2) (p : Int)
    (hp : 0 ≤ p) (t : Track) (ht : t.Reachable S) :
    ∃ t', serializeTestLoop t p l = .ok t' ∧ t'.Reachable S ∧ t'.signature = t.signature ∧
      t'.contents = (serializeTestNotes p l : Multiset _) + t.contents := by
  induction l generalizing p t with
  | nil => exact ⟨t, rfl, ht, rfl, by simp [serializeTestNotes]⟩
  | cons x l ih =>
    obtain ⟨x, d⟩ := x
    have hd : 0 ≤ d := h (x, d) (by simp)
    obtain ⟨c1, v1⟩ := coerce_pair hd ⟨4, show (16 : Int) = 2 ^ 4 by norm_num⟩
    obtain ⟨c2, v2⟩ := coerce_pair (show 0 ≤ p + 200 by omega) ⟨4, show (16 : Int) = 2 ^ 4 by norm_num⟩
    have hn : Note.new (.int x) (.ints [d, 16]) (.fin 1) = .ok ⟨⟨x⟩, ⟨d, 16⟩, 1⟩ :=
      Note.new_ok_iff.2 ⟨rfl, c1, rfl, by norm_num, by norm_num⟩
    have hw : (What.note (⟨⟨x⟩, ⟨d, 16⟩, 1⟩ : Note)).Valid := by
      intro n hn
      simp [What.notes] at hn
      subst hn
      exact ⟨v1, by norm_num, by norm_num⟩
    obtain ⟨t1, a1, -, a3, a4⟩ := Track.addAt_spec ht.wf _ hw v2
    have ha : t.add (.note ⟨⟨x⟩, ⟨d, 16⟩, 1⟩) (some (.ints [p + 200, 16])) = .ok t1 := by
      unfold Track.add
      simp only
      rw [c2]
      exact a1
    have hr := ht.add hw (fun a ha => by cases ha; trivial) ha
    obtain ⟨t2, b1, b2, b3, b4⟩ := ih (fun y hy => h y (by simp [hy])) (p + 200) (by omega) t1 hr
    refine ⟨t2, ?_, b2, b3.trans a3, ?_⟩
    · unfold serializeTestLoop
      rw [hn]
      show (do let t ← t.add _ _; serializeTestLoop t (p + 200) l) = _
      rw [ha]
      exact b1
    · rw [b4, a4]
      have e : (⟨p + 200, 16⟩ : Signature).val = ((p + 200 : Int) : ℚ) / 16 := by
        unfold Signature.val; norm_num
      rw [e, serializeTestNotes, ← Multiset.cons_coe, Multiset.cons_add]
      simp [What.notes]

theorem serializeTestNotes_length (l : List (Int × Int)) (p : Int) : (serializeTestNotes p l).length = l.length := by
  induction l generalizing p with
  | nil => rfl
  | cons x l ih => simp [serializeTestNotes, ih]

theorem serializeTestNotes_mem (l : List (Int × Int)) (p : Int) (hp : 0 ≤ p) (a : ℚ × Note) (ha : a ∈ serializeTestNotes p l) :
    (∃ x ∈ l, a.2 = ⟨⟨x.1⟩, ⟨x.2, 16⟩, 1⟩) ∧ (∃ m : Nat, a.1 = (m : ℚ) / 16) ∧ ((p + 200 : Int) : ℚ) / 16 ≤ a.1 ∧
      a.1 ≤ ((p + 200 * l.length : Int) : ℚ) / 16 := by
  induction l generalizing p with
  | nil => simp [serializeTestNotes] at ha
  | cons x l ih =>
    rw [serializeTestNotes, List.mem_cons] at ha
    rcases ha with rfl | ha
    · refine ⟨⟨x, by simp, rfl⟩, ⟨(p + 200).toNat, ?_⟩, le_refl _, ?_⟩
      · simp only
        congr 1
        exact_mod_cast (Int.toNat_of_nonneg (show 0 ≤ p + 200 by omega)).symm
      · simp only [List.length_cons]
        push_cast
        have : (0 : ℚ) ≤ (l.length : ℚ) := by positivity
        linarith
    · obtain ⟨⟨y, hy, h1⟩, h2, h3, h4⟩ := ih (p + 200) (by omega) ha
      refine ⟨⟨y, by simp [hy], h1⟩, h2, ?_, ?_⟩
      · push_cast at h3 ⊢; linarith
      · simp only [List.length_cons]
        push_cast at h4 ⊢; linarith

theorem serializeTestNotes_pairwise (l : List (Int × Int)) (h : ∀ x ∈ l, x.2 ≤ 100) (p : Int) (hp : 0 ≤ p) :
    (serializeTestNotes p l).Pairwise (fun a b => noteEnd a ≤ b.1 ∧ a.1 < b.1) := by
  induction l generalizing p with
  | nil => exact List.Pairwise.nil
  | cons x l ih =>
    rw [serializeTestNotes, List.pairwise_cons]
    refine ⟨?_, ih (fun y hy => h y (by simp [hy])) (p + 200) (by omega)⟩
    intro b hb
    obtain ⟨-, -, h3, -⟩ := serializeTestNotes_mem l (p + 200) (by omega) b hb
    have hx : (x.2 : ℚ) ≤ 100 := by exact_mod_cast h x (by simp)
    unfold noteEnd Signature.val
    push_cast at h3 ⊢
    constructor <;> linarith

/-- C84: `test_midi_serialize` passes for every outcome of the random generator: for all signatures from 0/16 to 100/16, all
lists of up to 55000 notes (the test has 100 to 300) with pitches from 30 to 90 and durations from 0/16 to 100/16, the
track can be written and read, and the track read is equal to it and has as many notes. -/
theorem C84_serialize_test [UnicodeDigits] (S : ListSort) (s : Int) (hs0 : 0 ≤ s) (hs1 : s ≤ 100) (l : List (Int × Int))
    (hl : l.length ≤ 55000) (hp : ∀ x ∈ l, 30 ≤ x.1 ∧ x.1 ≤ 90) (hd : ∀ x ∈ l, 0 ≤ x.2 ∧ x.2 ≤ 100) :
    ∃ t bytes t', serializeTestTrack s l = .ok t ∧ t.len = l.length ∧ midiDumps S t = .ok bytes ∧
      midiLoads S bytes = .ok t' ∧ t.eq S t' = true ∧ t'.len = t.len := by
  obtain ⟨hnew, hv⟩ := new_sixteenth hs0
  obtain ⟨t, h1, h2, h3, h4⟩ := serializeTestLoop_spec S l (fun x hx => (hd x hx).1) 0 le_rfl _ (Track.Reachable.empty hv)
  have h0 : (Track.empty ⟨s, 16⟩).contents = 0 := rfl
  rw [h0, add_zero] at h4
  have hlen : t.len = l.length := by rw [Track.len_eq_card, h4, Multiset.coe_card, serializeTestNotes_length]
  have hmem : ∀ p ∈ t.contents, (∃ x ∈ l, p.2 = ⟨⟨x.1⟩, ⟨x.2, 16⟩, 1⟩) ∧ (∃ m : Nat, p.1 = (m : ℚ) / 16) ∧
      ((0 + 200 : Int) : ℚ) / 16 ≤ p.1 ∧ p.1 ≤ ((0 + 200 * l.length : Int) : ℚ) / 16 := by
    intro p hp
    rw [h4] at hp
    exact serializeTestNotes_mem l 0 le_rfl p (Multiset.mem_coe.1 hp)
  have hpair : ∀ a b, ({a, b} : Multiset (ℚ × Note)) ≤ t.contents →
      (noteEnd a ≤ b.1 ∧ a.1 < b.1) ∨ (noteEnd b ≤ a.1 ∧ b.1 < a.1) := by
    intro a b hab
    rw [h4] at hab
    have hab : (([a, b] : List (ℚ × Note)) : Multiset (ℚ × Note)) ≤ _ := hab
    rw [Multiset.coe_le] at hab
    obtain ⟨m, hm, hs⟩ := hab
    have hpw := (serializeTestNotes_pairwise l (fun x hx => (hd x hx).2) 0 le_rfl).sublist hs
    rcases List.perm_pair.mp hm with rfl | rfl
    · simp only [List.pairwise_cons, List.mem_singleton, forall_eq] at hpw
      exact Or.inl hpw.1
    · simp only [List.pairwise_cons, List.mem_singleton, forall_eq] at hpw
      exact Or.inr hpw.1
  obtain ⟨bytes, t', k1, k2, -, -, k3, k4⟩ := C75_equal S 120 (by norm_num) 0 le_rfl (by norm_num) t h2 (by omega)
    (by rw [h3]; exact ⟨by show s < 256; omega, by show (16 : Int) < 2 ^ 256; norm_num⟩)
    (fun p hq => by
      obtain ⟨⟨x, hx, e⟩, -⟩ := hmem p hq
      rw [e]
      have := hp x hx
      constructor <;> simp only <;> omega)
    (fun p hq => by
      obtain ⟨⟨x, hx, e⟩, -, -, h⟩ := hmem p hq
      rw [e]
      have e1 : (x.2 : ℚ) ≤ 100 := by exact_mod_cast (hd x hx).2
      have e2 : (l.length : ℚ) ≤ 55000 := by exact_mod_cast hl
      unfold Signature.val
      push_cast at h ⊢
      linarith)
    (fun p hq => by
      obtain ⟨⟨x, hx, e⟩, ⟨m, hm⟩, -⟩ := hmem p hq
      refine ⟨⟨24 * m, by rw [hm]; push_cast; ring⟩, ⟨24 * x.2.toNat, ?_⟩⟩
      rw [e]
      have e1 : ((x.2.toNat : Int) : ℚ) = (x.2 : ℚ) := by rw [Int.toNat_of_nonneg (hd x hx).1]
      unfold Signature.val
      push_cast at e1 ⊢
      rw [e1]
      ring)
    (fun p hq => by
      obtain ⟨⟨x, hx, e⟩, -⟩ := hmem p hq
      refine ⟨127, by norm_num, le_rfl, ?_⟩
      rw [e]
      show (1 : ℚ) = fl (((127 : Nat) : ℚ) / 127)
      decide +kernel)
    (fun a b hab _ => by rcases hpair a b hab with h | h <;> [exact Or.inl h.1; exact Or.inr h.1])
    (fun a b hab _ => by rcases hpair a b hab with h | h <;> [exact h.2.ne; exact h.2.ne'])
  refine ⟨t, bytes, t', ?_, hlen, k1, k2, k3, k4⟩
  unfold serializeTestTrack
  rw [hnew]
  exact h1

/-- C84: `test_track_eq` passes for every outcome: `random_track` makes a track, and it is equal to itself. -/
theorem C84_track_test [UnicodeDigits] (S : ListSort) (s : Int) (hs : 0 ≤ s) (l : List (Int × Int × Int × Int))
    (h : ∀ x ∈ l, 0 ≤ x.2.1 ∧ 0 ≤ x.2.2.1 ∧ ∃ k : Nat, x.2.2.2 = 2 ^ k) :
    ∃ t, trackTestTrack s l = .ok t ∧ t.len = l.length ∧ t.eq S t = true := by
  obtain ⟨hnew, hv⟩ := new_sixteenth hs
  have loop : ∀ (l : List (Int × Int × Int × Int)), (∀ x ∈ l, 0 ≤ x.2.1 ∧ 0 ≤ x.2.2.1 ∧ ∃ k : Nat, x.2.2.2 = 2 ^ k) →
      ∀ t : Track, t.Reachable S → ∃ t', trackTestLoop t l = .ok t' ∧ t'.Reachable S ∧ t'.len = t.len + l.length := by
    intro l
    induction l with
    | nil => intro _ t ht; exact ⟨t, rfl, ht, rfl⟩
    | cons x l ih =>
      intro h t ht
      obtain ⟨x, d, n, k⟩ := x
      obtain ⟨hd, hn, hk⟩ := h (x, d, n, k) (by simp)
      obtain ⟨c1, v1⟩ := coerce_pair hd ⟨4, show (16 : Int) = 2 ^ 4 by norm_num⟩
      obtain ⟨c2, v2⟩ := coerce_pair hn hk
      have hn : Note.new (.int x) (.ints [d, 16]) = .ok ⟨⟨x⟩, ⟨d, 16⟩, 3 / 4⟩ :=
        Note.new_ok_iff.2 ⟨rfl, c1, rfl, by norm_num, by norm_num⟩
      have hw : (What.note (⟨⟨x⟩, ⟨d, 16⟩, 3 / 4⟩ : Note)).Valid := by
        intro n hn
        simp [What.notes] at hn
        subst hn
        exact ⟨v1, by norm_num, by norm_num⟩
      obtain ⟨t1, a1, -, -, a4⟩ := Track.addAt_spec ht.wf _ hw v2
      have ha : t.add (.note ⟨⟨x⟩, ⟨d, 16⟩, 3 / 4⟩) (some (.ints [n, k])) = .ok t1 := by
        unfold Track.add
        simp only
        rw [c2]
        exact a1
      have hr := ht.add hw (fun a ha => by cases ha; trivial) ha
      obtain ⟨t2, b1, b2, b3⟩ := ih (fun y hy => h y (by simp [hy])) t1 hr
      refine ⟨t2, ?_, b2, ?_⟩
      · unfold trackTestLoop
        rw [hn]
        show (do let t ← t.add _ _; trackTestLoop t l) = _
        rw [ha]
        exact b1
      · rw [b3, Track.len_eq_card, a4, Track.len_eq_card, Multiset.card_add]
        simp [What.notes]
        omega
  obtain ⟨t, h1, h2, h3⟩ := loop l h _ (Track.Reachable.empty hv)
  refine ⟨t, ?_, by rw [h3]; simp [Track.len, Track.empty], (C25_refl_symm S t t h2 h2).1⟩
  unfold trackTestTrack
  rw [hnew]
  exact h1

/-- An outcome with notes of no duration and repeated pitches, compared in the model. -/
example : (match @serializeTestTrack ⟨fun _ => none⟩ 0 [(30, 100), (30, 0), (90, 100), (30, 7)] with
    | .ok t => match @midiDumps ⟨fun _ => none⟩ cpySort t (.fin 120) 0 with
      | .ok b => match @midiLoads ⟨fun _ => none⟩ cpySort b none with
        | .ok t' => t.eq cpySort t' && t'.len == 4
        | .error _ => false
      | .error _ => false
    | .error _ => false) = true := by decide +kernel

example : (match @trackTestTrack ⟨fun _ => none⟩ 100 [(-100, 0, 10000, 512), (100, 100, 0, 1), (-100, 3, 10000, 512)] with
    | .ok t => t.eq cpySort t && t.len == 3
    | .error _ => false) = true := by decide +kernel

end Melodia
