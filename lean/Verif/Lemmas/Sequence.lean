/-
Lemmas for music laid end to end, on the abstract machine.
-/
import Verif.Lemmas.TrackMachine
import Verif.Spec.Sequence
import Mathlib.Tactic.Linarith

set_option autoImplicit false

namespace Melodia

theorem longest_nonneg (ns : List Note) : 0 ≤ longest ns := by
  induction ns with
  | nil => exact le_rfl
  | cons n ns ih => exact le_max_of_le_right ih

theorem AbsTrack.placeAll_even (x : ℚ) (den : Int) : ∀ (ns : List Note) (s : AbsTrack), EvenGroup ns →
    (∀ n ∈ ns, s.finishDen ≤ max (max s.grid den) n.duration.denominator) → x ≤ s.finish →
    (s.placeAll x den ns).finish = max s.finish (x + longest ns) ∧
    (s.placeAll x den ns).notes = (ns.map (fun n => (x, n)) : Multiset _) + s.notes := by
  intro ns
  induction ns with
  | nil => intro s _ _ hx; simp [AbsTrack.placeAll, longest, hx]
  | cons n ns ih =>
    intro s he hd hx
    have hd0 := hd n (by simp)
    obtain ⟨he1, he2⟩ := List.pairwise_cons.mp he
    have h1 : (s.place x den n).finish = max s.finish (x + n.duration.val) := by
      unfold AbsTrack.place
      simp only []
      split
      · rename_i h
        rcases h with ⟨-, h⟩ | ⟨h, -⟩
        · exact (max_eq_right h.le).symm
        · omega
      · rename_i h
        push Not at h
        exact (max_eq_left (h.1 hd0)).symm
    have h2 : (s.place x den n).notes = (x, n) ::ₘ s.notes := by
      unfold AbsTrack.place
      simp only []
      split <;> rfl
    have h3 : (s.place x den n).grid = max s.grid den := by
      unfold AbsTrack.place
      simp only []
      split <;> rfl
    have h4 : (s.place x den n).finishDen ≤ max (max s.grid den) n.duration.denominator := by
      unfold AbsTrack.place
      simp only []
      split
      · exact le_rfl
      · exact hd0
    obtain ⟨g1, g2⟩ := ih (s.place x den n) he2 (fun m hm => by
      rw [h3]
      have := he1 m hm
      omega) (by rw [h1]; exact le_max_of_le_left hx)
    have hu : s.placeAll x den (n :: ns) = (s.place x den n).placeAll x den ns := rfl
    rw [hu, g1, g2, h1, h2]
    refine ⟨?_, ?_⟩
    · rw [longest, max_assoc, max_add_add_left]
    · simp only [List.map_cons]
      rw [← Multiset.cons_coe, Multiset.add_cons, Multiset.cons_add]

/-- Appending an even group at the end. -/
theorem AbsTrack.placeAll_end (s : AbsTrack) (ns : List Note) (he : EvenGroup ns) :
    (s.placeAll s.finish s.finishDen ns).finish = s.finish + longest ns ∧
    (s.placeAll s.finish s.finishDen ns).notes = (ns.map (fun n => (s.finish, n)) : Multiset _) + s.notes := by
  obtain ⟨h1, h2⟩ := AbsTrack.placeAll_even s.finish s.finishDen ns s he (fun n _ => by omega) le_rfl
  refine ⟨?_, h2⟩
  rw [h1, max_eq_right]
  linarith [longest_nonneg ns]

theorem AbsTrack.run_laidOut {s s' : AbsTrack} {ops : List TrackOp} (h : AbsTrack.Run s ops s') :
    ∀ (ws : List What), TrackOp.withoutObservations ops = ws.map (fun w => .add w none) →
    (∀ w ∈ ws, EvenGroup w.notes) →
    s'.finish = s.finish + laidLength (ws.map What.notes) ∧
    s'.notes = (laidOut s.finish (ws.map What.notes) : Multiset _) + s.notes := by
  induction h with
  | nil s =>
    intro ws hw _
    cases ws with
    | nil => simp [laidLength, laidOut]
    | cons w ws => simp [TrackOp.withoutObservations] at hw
  | cons h hr ih =>
    intro ws hw he
    cases h with
    | default w =>
      cases ws with
      | nil => simp [TrackOp.withoutObservations] at hw
      | cons w' ws =>
        simp only [TrackOp.withoutObservations, List.filter_cons, if_true, List.map_cons, List.cons.injEq,
          TrackOp.add.injEq, and_true] at hw
        obtain ⟨rfl, hw⟩ := hw
        obtain ⟨g1, g2⟩ := ih ws hw (fun w hw => he w (by simp [hw]))
        obtain ⟨k1, k2⟩ := AbsTrack.placeAll_end _ w.notes (he w (by simp))
        rw [g1, g2, k1, k2]
        simp only [List.map_cons, laidLength, laidOut]
        refine ⟨by ring, ?_⟩
        rw [← Multiset.coe_add, ← add_assoc]
        congr 1
        rw [add_comm]
    | «at» w a p h =>
      cases ws with
      | nil => simp [TrackOp.withoutObservations] at hw
      | cons w' ws => simp [TrackOp.withoutObservations] at hw
    | fail w a h =>
      cases ws with
      | nil => simp [TrackOp.withoutObservations] at hw
      | cons w' ws => simp [TrackOp.withoutObservations] at hw
    | iterate => exact ih ws (by simpa [TrackOp.withoutObservations] using hw) he
    | peek => exact ih ws (by simpa [TrackOp.withoutObservations] using hw) he

/-- A melody of notes of positive length is strictly increasing in time. -/
theorem laidOut_melody_lt : ∀ (ns : List Note) (x : ℚ), (∀ n ∈ ns, 0 < n.duration.val) →
    (laidOut x (ns.map (fun n => [n]))).Pairwise (fun a b => a.1 < b.1) ∧
    ∀ p ∈ laidOut x (ns.map (fun n => [n])), x ≤ p.1 := by
  intro ns
  induction ns with
  | nil => intro x _; simp [laidOut]
  | cons n ns ih =>
    intro x h
    have hn := h n (by simp)
    obtain ⟨g1, g2⟩ := ih (x + longest [n]) (fun m hm => h m (by simp [hm]))
    have hl : longest [n] = n.duration.val := by simp [longest, hn.le]
    simp only [List.map_cons, laidOut, List.map_nil, List.cons_append, List.nil_append, List.pairwise_cons,
      List.mem_cons]
    refine ⟨⟨fun p hp => ?_, g1⟩, ?_⟩
    · have := g2 p hp
      rw [hl] at this
      linarith
    · rintro p (rfl | hp)
      · exact le_rfl
      · have := g2 p hp
        rw [hl] at this
        linarith

end Melodia
