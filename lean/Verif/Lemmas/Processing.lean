/-
Lemmas about src/melodia/processing/track.py.
-/
import Verif.Model.Processing
import Verif.Lemmas.TrackMore
import Mathlib.Tactic.NormNum

set_option autoImplicit false

namespace Melodia
variable [UnicodeDigits]

omit [UnicodeDigits] in
theorem PyFloat.inUnit_iff (v : PyFloat) :
    ((PyFloat.fin 0).le v && v.le (.fin 1)) = true ↔ ∃ q : ℚ, v = .fin q ∧ 0 ≤ q ∧ q ≤ 1 :=
  velocityInRange_iff v

omit [UnicodeDigits] in
/-- The clamped velocity: between the bounds if they are ordered, the minimum otherwise. -/
theorem clampVelocity_spec (lo hi : ℚ) (g : PyFloat) :
    ∃ q : ℚ, clampVelocity (.fin lo) (.fin hi) g = .fin q ∧
      (lo ≤ hi → lo ≤ q ∧ q ≤ hi) ∧ (hi ≤ lo → q = lo) ∧
      (∀ x, g = .fin x → lo ≤ x → x ≤ hi → q = x) := by
  have key : ∀ y : ℚ, (PyFloat.fin hi).min g = .fin y → y ≤ hi →
      (∀ x, g = .fin x → x ≤ hi → y = x) →
      ∃ q : ℚ, clampVelocity (.fin lo) (.fin hi) g = .fin q ∧
        (lo ≤ hi → lo ≤ q ∧ q ≤ hi) ∧ (hi ≤ lo → q = lo) ∧
        (∀ x, g = .fin x → lo ≤ x → x ≤ hi → q = x) := by
    intro y hy hyhi hyx
    unfold clampVelocity
    rw [hy]
    unfold PyFloat.max
    by_cases h : lo < y
    · rw [if_pos (by simp [PyFloat.lt, h])]
      exact ⟨y, rfl, fun _ => ⟨h.le, hyhi⟩, fun h' => absurd (hyhi.trans h') (not_le.mpr h),
        fun x hx _ h2 => hyx x hx h2⟩
    · rw [if_neg (by simp [PyFloat.lt, h])]
      refine ⟨lo, rfl, fun h' => ⟨le_rfl, h'⟩, fun _ => rfl, fun x hx h1 h2 => ?_⟩
      have := hyx x hx h2
      rw [not_lt, this] at h
      exact le_antisymm h1 h
  unfold PyFloat.min at key
  cases g with
  | nan => exact key hi (by simp [PyFloat.lt]) le_rfl (by simp)
  | posInf => exact key hi (by simp [PyFloat.lt]) le_rfl (by simp)
  | negInf =>
    refine ⟨lo, ?_, fun h => ⟨le_rfl, h⟩, fun _ => rfl, by simp⟩
    simp [clampVelocity, PyFloat.min, PyFloat.max, PyFloat.lt]
  | fin x =>
    by_cases h : x < hi
    · exact key x (by simp [PyFloat.lt, h]) h.le (by simp)
    · refine key hi (by simp [PyFloat.lt, h]) le_rfl ?_
      intro x' hx hle
      cases hx
      exact le_antisymm (not_lt.mp h) hle

/-- Velocity given to the `i`-th note. -/
def clampQ (lo hi : ℚ) (g : PyFloat) : ℚ :=
  match clampVelocity (.fin lo) (.fin hi) g with
  | .fin q => q
  | _ => 0

omit [UnicodeDigits] in
theorem clampQ_eq (lo hi : ℚ) (g : PyFloat) :
    clampVelocity (.fin lo) (.fin hi) g = .fin (clampQ lo hi g) := by
  obtain ⟨q, hq, -⟩ := clampVelocity_spec lo hi g
  unfold clampQ
  rw [hq]

omit [UnicodeDigits] in
theorem clampQ_range {lo hi : ℚ} (hl : 0 ≤ lo) (hl1 : lo ≤ 1) (hh1 : hi ≤ 1) (g : PyFloat) :
    0 ≤ clampQ lo hi g ∧ clampQ lo hi g ≤ 1 := by
  obtain ⟨q, hq, h1, h2, -⟩ := clampVelocity_spec lo hi g
  rw [clampQ_eq] at hq
  cases hq
  rcases le_total lo hi with h | h
  · exact ⟨hl.trans (h1 h).1, (h1 h).2.trans hh1⟩
  · rw [h2 h]; exact ⟨hl, hl1⟩

/-- The notes the loop adds: the `j`-th entry with the velocity made from the `i+j`-th random value. -/
def reVelocity (lo hi : ℚ) (gauss : Nat → PyFloat) : Nat → List Entry → List Entry
  | _, [] => []
  | i, e :: es => (e.1, ⟨e.2.tone, e.2.duration, clampQ lo hi (gauss i)⟩) :: reVelocity lo hi gauss (i + 1) es

theorem randomizeLoop_spec {lo hi : ℚ} (hl : 0 ≤ lo) (hl1 : lo ≤ 1) (hh1 : hi ≤ 1)
    (gauss : Nat → PyFloat) (l : List Entry) : ∀ (i : Nat) {r : Track}, r.WF →
    (∀ e ∈ l, e.1.Valid ∧ e.2.Valid) →
    ∃ r', randomizeLoop (.fin lo) (.fin hi) gauss i r l = .ok r' ∧ r'.WF ∧ r'.signature = r.signature ∧
      r'.contents = ((reVelocity lo hi gauss i l).map Entry.placed : Multiset _) + r.contents := by
  induction l with
  | nil => intro i r hr _; exact ⟨r, rfl, hr, rfl, by simp [reVelocity]⟩
  | cons e l ih =>
    intro i r hr hv
    obtain ⟨p, n⟩ := e
    obtain ⟨hp, hn⟩ := hv (p, n) (by simp)
    obtain ⟨c0, c1⟩ := clampQ_range hl hl1 hh1 (gauss i)
    have hnew : n.withVelocity (clampVelocity (.fin lo) (.fin hi) (gauss i)) =
        .ok ⟨n.tone, n.duration, clampQ lo hi (gauss i)⟩ := by
      rw [clampQ_eq]
      exact Note.new_ok_iff.mpr ⟨rfl, rfl, rfl, c0, c1⟩
    obtain ⟨r1, h1, h2, h3, h4⟩ := Track.add_of_pos hr
      (w := .note ⟨n.tone, n.duration, clampQ lo hi (gauss i)⟩) (pos := some (.sig p)) (p := p)
      (by intro m hm; simp [What.notes] at hm; subst hm; exact ⟨hn.duration, c0, c1⟩)
      (by intro a ha; cases ha; exact hp) rfl
    obtain ⟨r2, g1, g2, g3, g4⟩ := ih (i + 1) h2 (fun e he => hv e (by simp [he]))
    refine ⟨r2, ?_, g2, g3.trans h3, ?_⟩
    · rw [randomizeLoop, hnew]
      show (do let r' ← r.add _ _; randomizeLoop _ _ gauss (i + 1) r' l) = _
      rw [h1]
      exact g1
    · rw [g4, h4]
      simp [reVelocity, What.notes, Entry.placed, ← Multiset.cons_coe]

/-- Everything about a successful call: the parameters are in range and the result is as expected. -/
theorem randomizeVelocities_spec (S : ListSort) {t : Track} (ht : t.WF) {lo hi mean : ℚ}
    {variance : PyFloat} (hl : 0 ≤ lo ∧ lo ≤ 1) (hh : 0 ≤ hi ∧ hi ≤ 1) (hm : 0 ≤ mean ∧ mean ≤ 1)
    (hvar : (PyFloat.fin 0).le variance = true) (gauss : Nat → PyFloat) :
    ∃ u, randomizeVelocities S t (.fin lo) (.fin hi) (.fin mean) variance gauss = ((t.iter S).1, .ok u) ∧
      u.WF ∧ u.signature = t.signature ∧
      u.contents = ((reVelocity lo hi gauss 0 (t.items S)).map Entry.placed : Multiset _) := by
  obtain ⟨u, h1, h2, h3, h4⟩ := randomizeLoop_spec hl.1 hl.2 hh.2 gauss (t.items S) 0
    (Track.empty_wf ht.sig) (Track.items_valid S ht)
  refine ⟨u, ?_, h2, h3, ?_⟩
  · unfold randomizeVelocities
    rw [if_neg (by simp [PyFloat.le, hl.1, hl.2]), if_neg (by simp [PyFloat.le, hh.1, hh.2]),
      if_neg (by simp [PyFloat.le, hm.1, hm.2]), if_neg (by simp [hvar])]
    show ((t.iter S).1, randomizeLoop _ _ gauss 0 _ (t.items S)) = _
    rw [h1]
  · rw [h4]; simp [Track.contents, Track.empty]

/-- A call with a parameter out of range raises ValueError before looking at the track. -/
theorem randomizeVelocities_bad (S : ListSort) (t : Track) {lo hi mean variance : PyFloat}
    (gauss : Nat → PyFloat)
    (h : ¬ ((∃ q, lo = .fin q ∧ 0 ≤ q ∧ q ≤ 1) ∧ (∃ q, hi = .fin q ∧ 0 ≤ q ∧ q ≤ 1) ∧
      (∃ q, mean = .fin q ∧ 0 ≤ q ∧ q ≤ 1) ∧ (PyFloat.fin 0).le variance = true)) :
    randomizeVelocities S t lo hi mean variance gauss = (t, .error .valueError) := by
  rw [← PyFloat.inUnit_iff, ← PyFloat.inUnit_iff, ← PyFloat.inUnit_iff] at h
  unfold randomizeVelocities
  split
  · rfl
  · split
    · rfl
    · split
      · rfl
      · split
        · rfl
        · rename_i h1 h2 h3 h4
          rw [Bool.not_eq_true', Bool.not_eq_false] at h1 h2 h3 h4
          exact absurd ⟨h1, h2, h3, h4⟩ h

omit [UnicodeDigits] in
theorem reVelocity_map {β : Type} (f : Entry → β)
    (hf : ∀ (s : Signature) (n : Note) (v : ℚ), f (s, ⟨n.tone, n.duration, v⟩) = f (s, n)) (lo hi : ℚ)
    (gauss : Nat → PyFloat) (l : List Entry) : ∀ i, (reVelocity lo hi gauss i l).map f = l.map f := by
  induction l with
  | nil => intro i; rfl
  | cons e l ih => intro i; simp [reVelocity, ih, hf]

omit [UnicodeDigits] in
theorem reVelocity_mem {lo hi : ℚ} {gauss : Nat → PyFloat} {l : List Entry} :
    ∀ {i : Nat} {e : Entry}, e ∈ reVelocity lo hi gauss i l → ∃ j, e.2.velocity = clampQ lo hi (gauss j) := by
  induction l with
  | nil => intro i e h; simp [reVelocity] at h
  | cons x l ih =>
    intro i e h
    simp only [reVelocity, List.mem_cons] at h
    rcases h with rfl | h
    · exact ⟨i, rfl⟩
    · exact ih h

end Melodia
