/-
Lemmas about notes.
-/
import Verif.Spec.Note
import Verif.Lemmas.Signature
import Verif.Lemmas.ToneMore

set_option autoImplicit false

namespace Melodia

theorem velocityInRange_iff (v : PyFloat) :
    velocityInRange v = true ↔ ∃ q : ℚ, v = .fin q ∧ 0 ≤ q ∧ q ≤ 1 := by
  cases v <;> simp [velocityInRange, PyFloat.le]

theorem SigArg.coerce_ok_iff {a : SigArg} {s : Signature} : a.coerce = .ok s ↔ SigDenotes a s := by
  constructor
  · intro h
    unfold SigArg.coerce at h
    split at h
    · cases h; exact .sig _
    · unfold Signature.ofIter at h
      split at h
      · obtain ⟨rfl, hv⟩ := Signature.new_eq_ok_iff.mp h
        exact .pair _ _ hv.nom hv.den
      · cases h
    · cases h
  · intro h
    cases h with
    | sig => rfl
    | pair n d hn hd => exact Signature.new_ok hn hd

theorem SigArg.coerce_err {a : SigArg} {e : PyErr} (h : a.coerce = .error e) :
    e = .typeError ∨ e = .valueError := by
  unfold SigArg.coerce at h
  split at h
  · cases h
  · unfold Signature.ofIter at h
    split at h
    · rename_i n d
      by_cases hnd : 0 ≤ n ∧ IsPow2 d
      · rw [Signature.new_ok hnd.1 hnd.2] at h; cases h
      · rw [Signature.new_err hnd] at h; cases h; right; rfl
    · cases h; left; rfl
  · cases h; left; rfl

section
variable [UnicodeDigits]

theorem coerceNote_ok_iff {a : ToneArg} {t : Tone} : a.coerceNote = .ok t ↔ ToneDenotes a t.pitch := by
  obtain ⟨p⟩ := t
  constructor
  · intro h
    unfold ToneArg.coerceNote at h
    split at h
    · cases h; exact .tone _
    · cases h; exact .int _
    · rename_i s
      have hl : ∃ c u, s = c :: u ∧ IsLetter c := by
        by_contra hc
        rw [fromNotation_bad (fun c t hs hh => hc ⟨c, t, hs, hh⟩)] at h
        cases h
      obtain ⟨c, u, rfl, hc⟩ := hl
      obtain ⟨q, rest, hr⟩ := exists_reads (t := u) hc
      rw [fromNotation_reads hr] at h
      cases h
      exact .str _ _ rest hr
    · cases h
  · intro h
    generalize hq : (Tone.mk p).pitch = q at h
    cases h with
    | tone t => obtain ⟨r⟩ := t; cases hq; rfl
    | int i => cases hq; rfl
    | str s _ rest hr => cases hq; exact fromNotation_reads hr

theorem coerceNote_err {a : ToneArg} {e : PyErr} (h : a.coerceNote = .error e) :
    e = .typeError ∨ e = .valueError := by
  unfold ToneArg.coerceNote at h
  split at h
  · cases h
  · cases h
  · rename_i s
    by_cases hl : ∃ c u, s = c :: u ∧ IsLetter c
    · obtain ⟨c, u, rfl, hc⟩ := hl
      obtain ⟨q, rest, hr⟩ := exists_reads (t := u) hc
      rw [fromNotation_reads hr] at h; cases h
    · rw [fromNotation_bad (fun c t hs hh => hl ⟨c, t, hs, hh⟩)] at h
      cases h; right; rfl
  · cases h; left; rfl

theorem Note.new_ok_iff {t : ToneArg} {d : SigArg} {v : PyFloat} {n : Note} :
    Note.new t d v = .ok n ↔
      t.coerceNote = .ok n.tone ∧ d.coerce = .ok n.duration ∧ v = .fin n.velocity ∧
        0 ≤ n.velocity ∧ n.velocity ≤ 1 := by
  unfold Note.new
  cases ht : t.coerceNote with
  | error e => simp [bind, Except.bind]
  | ok t' =>
    cases hd : d.coerce with
    | error e => simp [bind, Except.bind]
    | ok d' =>
      simp only [bind, Except.bind]
      by_cases hv : velocityInRange v = true
      · obtain ⟨q, rfl, h0, h1⟩ := (velocityInRange_iff v).mp hv
        simp only [hv, Bool.not_true, Bool.false_eq_true, if_false]
        obtain ⟨a, b, c⟩ := n
        constructor
        · intro h; injection h with h; injection h with h2 h3 h4
          subst h2; subst h3; subst h4
          exact ⟨rfl, rfl, rfl, h0, h1⟩
        · rintro ⟨h2, h3, h4, -, -⟩
          cases h2; cases h3; cases h4; rfl
      · simp only [Bool.not_eq_true] at hv
        simp only [hv, Bool.not_false, if_true]
        constructor
        · intro h; cases h
        · rintro ⟨-, -, rfl, h0, h1⟩
          have := (velocityInRange_iff (.fin n.velocity)).mpr ⟨_, rfl, h0, h1⟩
          rw [hv] at this; cases this

theorem Note.new_err {t : ToneArg} {d : SigArg} {v : PyFloat} {e : PyErr}
    (h : Note.new t d v = .error e) : e = .typeError ∨ e = .valueError := by
  unfold Note.new at h
  cases ht : t.coerceNote with
  | error e' => rw [ht] at h; cases h; exact coerceNote_err ht
  | ok t' =>
    rw [ht] at h
    cases hd : d.coerce with
    | error e' => rw [hd] at h; cases h; exact SigArg.coerce_err hd
    | ok d' =>
      rw [hd] at h
      simp only [bind, Except.bind] at h
      split at h
      · cases h; right; rfl
      · split at h
        · cases h
        · cases h; right; rfl

end

theorem Note.eq_iff {a b : Note} (ha : a.duration.Valid) (hb : b.duration.Valid) :
    a.eq b = true ↔ a.tone.pitch = b.tone.pitch ∧ a.duration.val = b.duration.val ∧
      a.velocity = b.velocity := by
  unfold Note.eq Tone.eq
  rw [Bool.and_eq_true, Bool.and_eq_true, Signature.eq_iff ha hb]
  simp [and_assoc]

/-- Expansion of the tuple comparison. -/
theorem Note.tripletCmp_iff {tc : Tone → Tone → Bool} {sc : Signature → Signature → Bool}
    {vc : ℚ → ℚ → Bool} {dflt : Bool} {a b : Note} (ha : a.duration.Valid) (hb : b.duration.Valid) :
    Note.tripletCmp tc sc vc dflt a b = true ↔
      (a.tone.pitch ≠ b.tone.pitch ∧ tc a.tone b.tone = true) ∨
      (a.tone.pitch = b.tone.pitch ∧ a.duration.val ≠ b.duration.val ∧
        sc a.duration b.duration = true) ∨
      (a.tone.pitch = b.tone.pitch ∧ a.duration.val = b.duration.val ∧ a.velocity ≠ b.velocity ∧
        vc a.velocity b.velocity = true) ∨
      (a.tone.pitch = b.tone.pitch ∧ a.duration.val = b.duration.val ∧ a.velocity = b.velocity ∧
        dflt = true) := by
  unfold Note.tripletCmp Tone.eq
  by_cases h1 : a.tone.pitch = b.tone.pitch
  · have e := Signature.eq_iff ha hb
    by_cases h2 : a.duration.val = b.duration.val
    · have := e.mpr h2
      by_cases h3 : a.velocity = b.velocity <;> simp [h1, h2, h3, this]
    · have : a.duration.eq b.duration = false := by
        rw [← Bool.not_eq_true, e]; exact h2
      simp [h1, h2, this]
  · simp [h1]

theorem Note.lt_iff {a b : Note} (ha : a.duration.Valid) (hb : b.duration.Valid) :
    a.lt b = true ↔ a.tone.pitch < b.tone.pitch ∨
      (a.tone.pitch = b.tone.pitch ∧ a.duration.val ≠ b.duration.val ∧
        a.duration.lt b.duration = true) ∨
      (a.tone.pitch = b.tone.pitch ∧ a.duration.val = b.duration.val ∧ a.velocity < b.velocity) := by
  unfold Note.lt
  rw [Note.tripletCmp_iff ha hb]
  simp only [Tone.lt, decide_eq_true_eq, Bool.false_eq_true, and_false, or_false]
  constructor
  · rintro (⟨_, h⟩ | h | ⟨h1, h2, _, h3⟩)
    · exact Or.inl h
    · exact Or.inr (Or.inl h)
    · exact Or.inr (Or.inr ⟨h1, h2, h3⟩)
  · rintro (h | h | ⟨h1, h2, h3⟩)
    · exact Or.inl ⟨h.ne, h⟩
    · exact Or.inr (Or.inl h)
    · exact Or.inr (Or.inr ⟨h1, h2, h3.ne, h3⟩)

end Melodia
