/-
Lemmas about src/melodia/music/chord.py.
-/
import Verif.Spec.Chord
import Verif.Lemmas.Note
import Mathlib.Tactic.NormNum

set_option autoImplicit false

namespace Melodia
variable [UnicodeDigits]

/-- The duration argument passed on. -/
def durOf (base : BaseArg) (d : Option SigArg) : SigArg :=
  match d with
  | none => (match base with
    | .note n => .sig n.duration
    | _ => .sig ⟨1, 4⟩)
  | some d => d

/-- The velocity argument passed on. -/
def velOf (base : BaseArg) (v : Option PyFloat) : PyFloat :=
  match v with
  | none => (match base with
    | .note n => .fin n.velocity
    | _ => .fin (3 / 4))
  | some v => v

theorem getParameters_ok_iff {base : BaseArg} {d : Option SigArg} {v : Option PyFloat} {t : Tone}
    {a : SigArg} {x : PyFloat} :
    getParameters base d v = .ok (t, a, x) ↔ BaseDenotes base t.pitch ∧
      (∀ s, SigDenotes a s ↔ ChordDuration base d s) ∧ (∀ q, x = .fin q ↔ ChordVelocity base v q) ∧
      getParameters base d v = .ok (t, a, x) := by
  constructor
  · intro h
    refine ⟨?_, ?_, ?_, h⟩
    · cases base with
      | int i => cases h; exact .int i
      | tone t => cases h; exact .tone t
      | note n => cases h; exact .note n
      | other => cases h
      | str s =>
        unfold getParameters at h
        cases hs : Tone.fromNotation s with
        | error e => simp only [hs] at h; cases h
        | ok t' =>
          simp only [hs] at h
          cases h
          have h2 : (ToneArg.str s).coerceNote = .ok t := hs
          have := coerceNote_ok_iff.mp h2
          cases this with
          | str s p rest hr => exact .str s _ rest hr
    · intro s
      have ha : a = durOf base d := by
        unfold getParameters at h
        cases base <;> simp only [] at h
        case str s =>
          cases hs : Tone.fromNotation s with
          | error e => simp only [hs] at h; cases h
          | ok t' => simp only [hs] at h; cases h; cases d <;> rfl
        all_goals cases h
        all_goals (cases d <;> rfl)
      subst ha
      cases d with
      | some d' => exact ⟨fun h => .given _ _ _ h, fun h => by cases h; assumption⟩
      | none =>
        cases base <;> simp only [durOf]
        case note n =>
          constructor
          · intro h; cases h; exact .ofNote n
          · intro h
            cases h with
            | ofNote => exact .sig _
            | default _ h => exact absurd rfl (h n)
        all_goals
          constructor
          · intro h; cases h; exact .default _ (by simp)
          · intro h; cases h; exact .sig _
    · intro q
      have ha : x = velOf base v := by
        unfold getParameters at h
        cases base <;> simp only [] at h
        case str s =>
          cases hs : Tone.fromNotation s with
          | error e => simp only [hs] at h; cases h
          | ok t' => simp only [hs] at h; cases h; cases v <;> rfl
        all_goals cases h
        all_goals (cases v <;> rfl)
      subst ha
      cases v with
      | some v' => exact ⟨fun h => by cases h; exact .given _ _, fun h => by cases h; rfl⟩
      | none =>
        cases base <;> simp only [velOf]
        case note n =>
          constructor
          · intro h; cases h; exact .ofNote n
          · intro h
            cases h with
            | ofNote => rfl
            | default _ h => exact absurd rfl (h n)
        all_goals
          constructor
          · intro h; cases h; exact .default _ (by simp)
          · intro h; cases h; rfl
  · exact fun h => h.2.2.2

theorem getParameters_exists {base : BaseArg} {p : Int} (h : BaseDenotes base p) (d : Option SigArg)
    (v : Option PyFloat) : ∃ a x, getParameters base d v = .ok (⟨p⟩, a, x) := by
  cases h with
  | int i => exact ⟨_, _, rfl⟩
  | tone t => exact ⟨_, _, rfl⟩
  | note n => exact ⟨_, _, rfl⟩
  | str s p rest hr =>
    have : Tone.fromNotation s = .ok ⟨p⟩ := coerceNote_ok_iff.mpr (.str s p rest hr)
    unfold getParameters
    simp only [this]
    exact ⟨_, _, rfl⟩

theorem getParameters_err {base : BaseArg} {d : Option SigArg} {v : Option PyFloat} {e : PyErr}
    (h : getParameters base d v = .error e) : e = .typeError ∨ e = .valueError := by
  cases base with
  | int i => cases h
  | tone t => cases h
  | note n => cases h
  | other => cases h; exact Or.inr rfl
  | str s =>
    unfold getParameters at h
    cases hs : Tone.fromNotation s with
    | error e' =>
      simp only [hs] at h
      cases h
      exact coerceNote_err (a := .str s) hs
    | ok t' => simp only [hs] at h; cases h

theorem chordNote_ok_iff {t : Tone} {a : SigArg} {x : PyFloat} {k : Int} {n : Note} :
    chordNote t a x k = .ok n ↔ n.tone.pitch = t.pitch + k ∧ SigDenotes a n.duration ∧
      x = .fin n.velocity ∧ 0 ≤ n.velocity ∧ n.velocity ≤ 1 := by
  obtain ⟨⟨p⟩, d, v⟩ := n
  obtain ⟨b⟩ := t
  unfold chordNote
  split
  · rename_i hk
    subst hk
    rw [Note.new_ok_iff, SigArg.coerce_ok_iff]
    simp [ToneArg.coerceNote, eq_comm]
  · show Note.new (.tone ⟨b + k⟩) a x = _ ↔ _
    rw [Note.new_ok_iff, SigArg.coerce_ok_iff]
    simp [ToneArg.coerceNote, eq_comm]

theorem chordNote_err {t : Tone} {a : SigArg} {x : PyFloat} {k : Int} {e : PyErr}
    (h : chordNote t a x k = .error e) : e = .typeError ∨ e = .valueError := by
  unfold chordNote at h
  split at h
  · exact Note.new_err h
  · exact Note.new_err (t := .tone ⟨t.pitch + k⟩) h

omit [UnicodeDigits] in
theorem mapM_ok {α β : Type} {f : α → PyM β} {g : α → β} {l : List α} (h : ∀ x ∈ l, f x = .ok (g x)) :
    l.mapM f = .ok (l.map g) := by
  induction l with
  | nil => rfl
  | cons x l ih =>
    rw [List.mapM_cons, h x (by simp), ih (fun y hy => h y (by simp [hy]))]
    rfl

omit [UnicodeDigits] in
theorem mapM_err {α β : Type} {f : α → PyM β} {P : PyErr → Prop} {l : List α} {e : PyErr}
    (hf : ∀ x ∈ l, ∀ e, f x = .error e → P e) (h : l.mapM f = .error e) : P e := by
  induction l with
  | nil => cases h
  | cons x l ih =>
    rw [List.mapM_cons] at h
    cases hx : f x with
    | error e' => rw [hx] at h; cases h; exact hf x (by simp) _ hx
    | ok y =>
      rw [hx] at h
      cases hl : l.mapM f with
      | error e' =>
        have : e' = e := by
          have h' : (do let ys ← l.mapM f; pure (y :: ys) : PyM (List β)) = .error e := h
          rw [hl] at h'; cases h'; rfl
        subst this
        exact ih (fun z hz => hf z (by simp [hz])) hl
      | ok ys =>
        have h' : (do let ys ← l.mapM f; pure (y :: ys) : PyM (List β)) = .error e := h
        rw [hl] at h'; cases h'

theorem chordBody_ok_iff {l : List Int} (hl : l ≠ []) {base : BaseArg} {d : Option SigArg}
    {v : Option PyFloat} {ns : List Note} :
    chordBody l base d v = .ok ns ↔ ∃ p s q, BaseDenotes base p ∧ ChordDuration base d s ∧
      ChordVelocity base v q ∧ 0 ≤ q ∧ q ≤ 1 ∧ ns = l.map (fun k => ⟨⟨p + k⟩, s, q⟩) := by
  have key : ∀ p a x s q, BaseDenotes base p → getParameters base d v = .ok (⟨p⟩, a, x) →
      ChordDuration base d s → ChordVelocity base v q → 0 ≤ q → q ≤ 1 →
      chordBody l base d v = .ok (l.map (fun k => ⟨⟨p + k⟩, s, q⟩)) := by
    intro p a x s q hb hg hs hq h0 h1
    obtain ⟨-, hd, hv, -⟩ := getParameters_ok_iff.mp hg
    unfold chordBody
    rw [hg]
    refine mapM_ok (fun k _ => ?_)
    exact chordNote_ok_iff.mpr ⟨rfl, (hd s).mpr hs, (hv q).mpr hq, h0, h1⟩
  constructor
  · intro h
    cases hg : getParameters base d v with
    | error e => unfold chordBody at h; rw [hg] at h; cases h
    | ok r =>
      obtain ⟨t, a, x⟩ := r
      obtain ⟨hb, hd, hv, -⟩ := getParameters_ok_iff.mp hg
      have h' : l.mapM (chordNote t a x) = .ok ns := by unfold chordBody at h; rw [hg] at h; exact h
      obtain ⟨k, l', rfl⟩ := List.exists_cons_of_ne_nil hl
      cases hk : chordNote t a x k with
      | error e => rw [List.mapM_cons, hk] at h'; cases h'
      | ok n =>
        obtain ⟨-, h2, h3, h4, h5⟩ := chordNote_ok_iff.mp hk
        refine ⟨t.pitch, n.duration, n.velocity, hb, (hd _).mp h2, (hv _).mp h3, h4, h5, ?_⟩
        have := key t.pitch a x n.duration n.velocity hb hg ((hd _).mp h2) ((hv _).mp h3) h4 h5
        rw [h] at this
        exact Except.ok.inj this
  · rintro ⟨p, s, q, hb, hs, hq, h0, h1, rfl⟩
    obtain ⟨a, x, hg⟩ := getParameters_exists hb d v
    exact key p a x s q hb hg hs hq h0 h1

theorem chordBody_err {l : List Int} {base : BaseArg} {d : Option SigArg} {v : Option PyFloat} {e : PyErr}
    (h : chordBody l base d v = .error e) : e = .typeError ∨ e = .valueError := by
  unfold chordBody at h
  cases hg : getParameters base d v with
  | error e' => rw [hg] at h; cases h; exact getParameters_err hg
  | ok r =>
    obtain ⟨t, a, x⟩ := r
    rw [hg] at h
    exact mapM_err (P := fun e => e = .typeError ∨ e = .valueError) (fun k _ e he => chordNote_err he) h

end Melodia
