/-
Lemmas about playing written files.
-/
import Verif.Spec.Playback
import Verif.Props.MidiWrite
import Verif.Lemmas.FloatMore

set_option autoImplicit false

namespace Melodia

/-- With a constant tempo a player is linear in the absolute times. -/
theorem play_const (division tempo : Nat) : ∀ (es : List (Nat × Msg)) (n : Nat), (∀ x ∈ es, x.2.isNote = true) →
    ∀ tl, play division tempo ((n : ℚ) * tempo / (1000000 * division)) (es ++ [(0, tl)]) =
      (absoluteTimes n (es ++ [(0, tl)])).map (fun x => ((x.1 : ℚ) * tempo / (1000000 * division), x.2)) := by
  intro es
  induction es with
  | nil => intro n _ tl; simp [play, absoluteTimes]
  | cons x es ih =>
    obtain ⟨d, m⟩ := x
    intro n h tl
    have hm : m.tempoAfter tempo = tempo := by
      have := h (d, m) (by simp)
      cases m <;> first | rfl | simp [Msg.isNote] at this
    have e : (n : ℚ) * tempo / (1000000 * division) + (d : ℚ) * tempo / (1000000 * division) =
        ((n + d : Nat) : ℚ) * tempo / (1000000 * division) := by push_cast; ring
    simp only [List.cons_append, play, absoluteTimes, hm, e, List.map_cons]
    rw [ih (n + d) (fun y hy => h y (List.mem_cons_of_mem _ hy)) tl]

theorem absoluteTimes_append : ∀ (es fs : List (Nat × Msg)) (n : Nat), ∃ k,
    absoluteTimes n (es ++ fs) = absoluteTimes n es ++ absoluteTimes k fs := by
  intro es
  induction es with
  | nil => intro fs n; exact ⟨n, rfl⟩
  | cons x es ih =>
    intro fs n
    obtain ⟨d, m⟩ := x
    obtain ⟨k, hk⟩ := ih fs (n + d)
    exact ⟨k, by simp [absoluteTimes, hk]⟩

theorem absoluteTimes_isNote : ∀ (es : List (Nat × Msg)) (n : Nat), (∀ x ∈ es, x.2.isNote = true) →
    ∀ x ∈ absoluteTimes n es, x.2.isNote = true := by
  intro es
  induction es with
  | nil => intro n _ x hx; simp [absoluteTimes] at hx
  | cons y es ih =>
    intro n h x hx
    obtain ⟨d, m⟩ := y
    simp only [absoluteTimes, List.mem_cons] at hx
    rcases hx with rfl | hx
    · exact h (d, m) List.mem_cons_self
    · exact ih _ (fun z hz => h z (List.mem_cons_of_mem _ hz)) x hx

/-- The notes of a written file as played. -/
theorem playNotes_written (division start tempo nn dd cc bb : Nat) (notes : List (Nat × Msg))
    (h : ∀ x ∈ notes, x.2.isNote = true) :
    playNotes division start ([(0, .timeSignature nn dd cc bb), (0, .tempo tempo)] ++ notes ++ [(0, .endOfTrack)]) =
      (absoluteTimes 0 notes).map (fun x => ((x.1 : ℚ) * tempo / (1000000 * division), x.2)) := by
  unfold playNotes
  have e := play_const division tempo notes 0 h .endOfTrack
  simp only [Nat.cast_zero, zero_mul, zero_div] at e
  simp only [List.cons_append, List.nil_append, play, Msg.tempoAfter, Nat.cast_zero, zero_mul, zero_div, add_zero, e]
  obtain ⟨k, hk⟩ := absoluteTimes_append notes [(0, .endOfTrack)] 0
  rw [hk, List.map_append]
  simp only [absoluteTimes, List.map_cons, List.map_nil]
  rw [List.filter_cons_of_neg (by simp [Msg.isNote]), List.filter_cons_of_neg (by simp [Msg.isNote]),
    List.filter_append, List.filter_cons_of_neg (by simp [Msg.isNote]), List.filter_nil, List.append_nil,
    List.filter_eq_self]
  intro x hx
  simp only [List.mem_map] at hx
  obtain ⟨y, hy, rfl⟩ := hx
  exact absoluteTimes_isNote notes 0 h y hy

/-- The tempo written for a positive number of beats per minute. -/
theorem tempo_close {q : ℚ} (hq : 0 < q) {t : Nat} (h : TempoFits (.fin q) t) :
    (t : ℚ) - 60000000 / q ≤ 1 / 2 ^ 28 ∧ 60000000 / q - t < 1 + 1 / 2 ^ 28 := by
  obtain ⟨h1, h2⟩ := h
  cases h1 with
  | fin _ _ _ ht =>
    have hT : 0 ≤ 60000000 / q := by positivity
    rw [if_pos (fl_nonneg hT)] at ht
    have a := Int.floor_le (fl (60000000 / q))
    have b := Int.lt_floor_add_one (fl (60000000 / q))
    rw [← ht] at a b
    have c := abs_le.1 (fl_err hT)
    have ht' : (t : ℚ) + 1 ≤ 2 ^ 24 := by exact_mod_cast h2
    push_cast at a b
    generalize fl (60000000 / q) = f at *
    generalize 60000000 / q = T at *
    have : T ≤ 2 ^ 25 := by
      have := c.1
      norm_num at *
      linarith
    have e : T / 2 ^ 53 ≤ 1 / 2 ^ 28 := by
      rw [div_le_div_iff₀ (by positivity) (by positivity)]
      norm_num at *; linarith
    constructor <;> linarith [c.1, c.2]

end Melodia
