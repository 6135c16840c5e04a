/-
The track refines the abstract machine of Spec/TrackMachine.lean.
-/
import Verif.Lemmas.TrackMore
import Verif.Spec.TrackMachine

set_option autoImplicit false

namespace Melodia

namespace Track

/-- What the machine sees of a track. -/
def abs (t : Track) : AbsTrack := ⟨t.maxDenominator, t.length.val, t.length.denominator, t.contents⟩

theorem abs_addNote {t : Track} (ht : t.WF) {n : Note} (hn : n.Valid) {p : Signature} (hp : p.Valid) :
    ∃ t', t.addNote n p = .ok t' ∧ t'.WF ∧ t'.abs = t.abs.place p.val p.denominator n := by
  obtain ⟨t', e, h1, h2, -, h4, h5, h6, h7, h8, h9, -, -⟩ := addNote_spec ht hn hp
  refine ⟨t', h1, h2, ?_⟩
  have key : e.gt t.maxPosition = true ↔
      (t.maxPosition.denominator ≤ e.denominator ∧ t.maxPosition.val < e.val) ∨
      (e.denominator < t.maxPosition.denominator ∧ e.val < t.maxPosition.val) := by
    rcases le_or_gt t.maxPosition.denominator e.denominator with h | h
    · rw [Signature.gt_of_ge h6 ht.pos h]
      constructor
      · intro hx; exact Or.inl ⟨h, hx⟩
      · rintro (⟨-, hx⟩ | ⟨hx, -⟩)
        · exact hx
        · omega
    · rw [Signature.gt_of_lt h6 ht.pos h]
      constructor
      · intro hx; exact Or.inr ⟨h, hx⟩
      · rintro (⟨hx, -⟩ | ⟨-, hx⟩)
        · omega
        · exact hx
  unfold abs AbsTrack.place length
  simp only []
  rw [h4, h5, h9, ← h7, ← h8]
  by_cases hg : e.gt t.maxPosition = true
  · rw [if_pos (key.mp hg), if_pos hg]
  · rw [if_neg (fun hx => hg (key.mpr hx)), if_neg hg]

theorem abs_addAll {p : Signature} (hp : p.Valid) : ∀ (ns : List Note) {t : Track}, t.WF → (∀ n ∈ ns, n.Valid) →
    ∃ t', ns.foldlM (fun t n => t.addNote n p) t = .ok t' ∧ t'.abs = t.abs.placeAll p.val p.denominator ns := by
  intro ns
  induction ns with
  | nil => intro t _ _; exact ⟨t, rfl, rfl⟩
  | cons n ns ih =>
    intro t ht hv
    obtain ⟨t1, h1, h2, h3⟩ := abs_addNote ht (hv n (by simp)) hp
    obtain ⟨t', h4, h5⟩ := ih h2 (fun x hx => hv x (by simp [hx]))
    refine ⟨t', by rw [List.foldlM_cons, h1]; exact h4, ?_⟩
    rw [h5, h3]
    rfl

theorem abs_add {t : Track} (ht : t.WF) {w : What} (hw : w.Valid) {pos : Option SigArg}
    (hpos : ∀ a, pos = some a → a.Valid) {p : Signature} (hp : t.posOf pos = .ok p) (S : ListSort) :
    (TrackOp.step S t (.add w pos)).abs = t.abs.placeAll p.val p.denominator w.notes := by
  have hpv := posOf_valid ht hpos hp
  obtain ⟨t', h1, h2⟩ := abs_addAll hpv w.notes ht hw
  rw [← addAt_eq_foldlM] at h1
  simp only [TrackOp.step]
  rw [addS_of_ok (t' := t') (by rw [add_eq, hp]; exact h1)]
  exact h2

theorem abs_step (S : ListSort) {t : Track} (ht : t.WF) {o : TrackOp} (ho : o.Valid) :
    t.abs.Step o (o.step S t).abs ∧ ∀ s, t.abs.Step o s → s = (o.step S t).abs := by
  cases o with
  | add w pos =>
    cases pos with
    | none =>
      have h := abs_add ht ho.1 ho.2 (p := t.maxPosition) rfl S
      rw [h]
      exact ⟨.default w, fun s hs => by cases hs; rfl⟩
    | some a =>
      cases hp : t.posOf (some a) with
      | ok p =>
        have hd : SigDenotes a p := SigArg.coerce_ok_iff.mp hp
        have h := abs_add ht ho.1 ho.2 hp S
        rw [h]
        refine ⟨.at w a p hd, fun s hs => ?_⟩
        cases hs with
        | «at» _ _ q hq =>
          have := SigArg.coerce_ok_iff.mpr hq
          change a.coerce = .ok p at hp
          rw [hp] at this
          cases this
          rfl
        | fail _ _ hf => exact absurd hd (hf p)
      | error e =>
        have hf : ∀ p, ¬ SigDenotes a p := fun p hd => by
          have := SigArg.coerce_ok_iff.mpr hd
          change a.coerce = .error e at hp
          rw [hp] at this
          cases this
        have h : TrackOp.step S t (.add w (some a)) = t := by
          simp only [TrackOp.step]
          rw [addS_of_pos_error hp]
        rw [h]
        refine ⟨.fail w a hf, fun s hs => ?_⟩
        cases hs with
        | «at» _ _ q hq => exact absurd hq (hf q)
        | fail => rfl
  | iterate =>
    have h : (TrackOp.step S t .iterate).abs = t.abs := by
      simp only [TrackOp.step]
      unfold abs length
      obtain ⟨-, d, p, -⟩ := iter_fields S t
      rw [iter_contents, d, p]
    rw [h]
    exact ⟨.iterate, fun s hs => by cases hs; rfl⟩
  | peek => exact ⟨.peek, fun s hs => by cases hs; rfl⟩

theorem abs_run (S : ListSort) (ops : List TrackOp) : ∀ {t : Track}, t.WF → (∀ o ∈ ops, o.Valid) →
    AbsTrack.Run t.abs ops (t.run S ops).abs ∧ ∀ s, AbsTrack.Run t.abs ops s → s = (t.run S ops).abs := by
  induction ops with
  | nil => intro t _ _; exact ⟨.nil _, fun s hs => by cases hs; rfl⟩
  | cons o ops ih =>
    intro t ht ho
    obtain ⟨h1, h2⟩ := abs_step S ht (ho o (by simp))
    obtain ⟨h3, h4⟩ := ih (step_wf S ht (ho o (by simp))).1 (fun x hx => ho x (by simp [hx]))
    refine ⟨.cons h1 h3, fun s hs => ?_⟩
    cases hs with
    | cons k1 k2 =>
      rw [h2 _ k1] at k2
      exact h4 s k2

end Track

end Melodia
