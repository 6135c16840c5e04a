/-
C90: a velocity given as an int or a bool. Code: `Note` (src/melodia/core/note.py:13-188) and the velocity byte of
`MIDIWriter` (src/melodia/io/midi.py:121).
-/
import Verif.Model.NoteDyn
import Verif.Lemmas.WriterDyn
import Verif.Lemmas.Note
import Verif.Props.RoundTrip

set_option autoImplicit false

namespace Melodia

theorem velocityByte_zero : Writer.velocityByte ((0 : Int) : ℚ) = 0 := by decide +kernel
theorem velocityByte_one : Writer.velocityByte ((1 : Int) : ℚ) = 127 := by decide +kernel

section
variable [UnicodeDigits]

/-- C90: with a good tone and duration the constructor accepts exactly the numbers from 0 to 1, keeps the object as it was
given, and raises TypeError for an object that is no number and ValueError for a number out of range. -/
theorem C90_accepts (t : ToneArg) (d : SigArg) (v : PyVal) (tone : Tone) (s : Signature)
    (ht : t.coerceNote = .ok tone) (hd : d.coerce = .ok s) :
    (v.InRange 0 1 → DynNote.new t d v = .ok ⟨tone, s, v⟩) ∧
    (v = .other → DynNote.new t d v = .error .typeError) ∧
    (v ≠ .other → ¬ v.InRange 0 1 → DynNote.new t d v = .error .valueError) := by
  unfold DynNote.new
  rw [ht, hd]
  rcases v.between_ok 0 1 with ⟨h1, k1⟩ | ⟨h1, k0, k1⟩ | ⟨h1, k1⟩
  · refine ⟨fun _ => by simp only [bind, Except.bind, h1]; rfl, ?_, fun _ h => absurd k1 h⟩
    rintro rfl
    obtain ⟨q, hq, -⟩ := k1
    cases hq
  · exact ⟨fun h => absurd h k1, fun h => absurd h k0, fun _ _ => by simp only [bind, Except.bind, h1]; rfl⟩
  · refine ⟨?_, fun _ => by simp only [bind, Except.bind, h1], fun h => absurd k1 h⟩
    rintro ⟨q, hq, -⟩
    rw [k1] at hq; cases hq

/-- C90: a velocity that is a number makes the note the float equal to it makes, and the same velocity byte; the call fails
for the one exactly if it fails for the other, with the same exception. -/
theorem C90_same (t : ToneArg) (d : SigArg) (v : PyVal) (f : PyFloat) (hv : v.number = some f) :
    (∃ e, DynNote.new t d v = .error e ∧ Note.new t d f = .error e) ∨
    ∃ a n, DynNote.new t d v = .ok a ∧ Note.new t d f = .ok n ∧ a.tone = n.tone ∧ a.duration = n.duration ∧
      a.velocity = v ∧ f = .fin n.velocity ∧ a.velocityByte = Writer.velocityByte n.velocity := by
  unfold DynNote.new Note.new
  cases t.coerceNote with
  | error e => exact .inl ⟨e, rfl, rfl⟩
  | ok tone =>
    cases d.coerce with
    | error e => exact .inl ⟨e, rfl, rfl⟩
    | ok s =>
      simp only [bind, Except.bind]
      rcases v.between_ok 0 1 with ⟨h1, q, hq, k1, k2⟩ | ⟨h1, -, k1⟩ | ⟨h1, k1⟩
      · rw [hv] at hq
        cases hq
        right
        have hr : velocityInRange (.fin q) = true := by
          simp only [velocityInRange, PyFloat.le]
          simp only [Int.cast_zero, Int.cast_one] at k1 k2
          simp [k1, k2]
        rw [h1, hr]
        refine ⟨_, _, rfl, rfl, rfl, rfl, rfl, rfl, ?_⟩
        cases v with
        | int i =>
          cases hv
          have : i = 0 ∨ i = 1 := by
            have h0 : (0 : Int) ≤ i := by exact_mod_cast k1
            have h1 : i ≤ (1 : Int) := by exact_mod_cast k2
            omega
          rcases this with rfl | rfl
          · exact velocityByte_zero.symm
          · exact velocityByte_one.symm
        | bool b =>
          cases b <;> cases hv
          · exact velocityByte_zero.symm
          · exact velocityByte_one.symm
        | float x => cases hv; rfl
        | other => cases hv
      · left
        have hr : velocityInRange f = false := by
          cases f with
          | fin q =>
            rw [Bool.eq_false_iff]
            intro h
            simp only [velocityInRange, PyFloat.le, Bool.and_eq_true, decide_eq_true_eq] at h
            exact k1 ⟨q, hv, by exact_mod_cast h.1, by exact_mod_cast h.2⟩
          | _ => rfl
        rw [h1, hr]
        exact ⟨_, rfl, rfl⟩
      · rw [k1] at hv; cases hv

/-- C90: notes compare as the notes with the equal floats do. -/
theorem C90_compare (t t' : ToneArg) (d d' : SigArg) (v v' : PyVal) (f f' : PyFloat) (a b : DynNote) (m n : Note)
    (hv : v.number = some f) (hv' : v'.number = some f') (ha : DynNote.new t d v = .ok a) (hb : DynNote.new t' d' v' = .ok b)
    (hm : Note.new t d f = .ok m) (hn : Note.new t' d' f' = .ok n) :
    a.eq b = m.eq n ∧ a.le b = m.le n ∧ a.lt b = m.lt n ∧ a.ge b = m.ge n ∧ a.gt b = m.gt n := by
  have key : ∀ {t d v f a m}, v.number = some f → DynNote.new t d v = .ok a → Note.new t d f = .ok m →
      a.tone = m.tone ∧ a.duration = m.duration ∧ a.velocity.time = m.velocity := by
    intro t d v f a m hv ha hm
    rcases C90_same t d v f hv with ⟨e, h, -⟩ | ⟨a', m', h1, h2, h3, h4, h5, h6, -⟩
    · rw [h] at ha; cases ha
    · rw [h1] at ha; rw [h2] at hm
      cases ha; cases hm
      refine ⟨h3, h4, ?_⟩
      rw [h5]
      cases v with
      | int i =>
        cases hv
        injection h6
      | bool b =>
        cases b <;> cases hv <;> injection h6
      | float x => cases hv; cases h6; rfl
      | other => cases hv
  obtain ⟨e1, e2, e3⟩ := key hv ha hm
  obtain ⟨g1, g2, g3⟩ := key hv' hb hn
  simp only [DynNote.eq, DynNote.le, DynNote.lt, DynNote.ge, DynNote.gt, DynNote.tripletCmp, Note.eq, Note.le, Note.lt,
    Note.ge, Note.gt, Note.tripletCmp, e1, e2, e3, g1, g2, g3, and_self]

/-- C90: notes derived from a note keep the velocity object. -/
theorem C90_kept (t : ToneArg) (d : SigArg) (v : PyVal) (a : DynNote) (ha : DynNote.new t d v = .ok a) (k : Int)
    (d' : SigArg) (b : DynNote) :
    (a.transposed k = .ok b → b = ⟨⟨a.tone.pitch + k⟩, a.duration, v⟩) ∧
    (a.withDuration d' = .ok b → b.tone = a.tone ∧ b.velocity = v) ∧
    (∀ v', a.withVelocity v' = .ok b → b = ⟨a.tone, a.duration, v'⟩) := by
  have key : ∀ {t d v a}, DynNote.new t d v = .ok a → t.coerceNote = .ok a.tone ∧ d.coerce = .ok a.duration ∧ a.velocity = v := by
    intro t d v a h
    unfold DynNote.new at h
    cases h1 : t.coerceNote with
    | error => rw [h1] at h; cases h
    | ok x =>
      cases h2 : d.coerce with
      | error => rw [h1, h2] at h; cases h
      | ok y =>
        rw [h1, h2] at h
        simp only [bind, Except.bind] at h
        rcases v.between_ok 0 1 with ⟨h3, -⟩ | ⟨h3, -⟩ | ⟨h3, -⟩ <;> rw [h3] at h <;> cases h
        exact ⟨rfl, rfl, rfl⟩
  obtain ⟨-, -, h3⟩ := key ha
  refine ⟨fun h => ?_, fun h => ?_, fun v' h => ?_⟩
  · unfold DynNote.transposed at h
    rw [h3] at h
    obtain ⟨k1, k2, k3⟩ := key (t := .tone ⟨a.tone.pitch + k⟩) (d := .sig a.duration) (v := v) (a := b) h
    obtain ⟨x, y, z⟩ := b
    cases k1; cases k2; cases k3
    rfl
  · obtain ⟨k1, -, k3⟩ := key h
    injection k1 with k1
    exact ⟨k1.symm, k3.trans h3⟩
  · obtain ⟨k1, k2, k3⟩ := key h
    obtain ⟨x, y, z⟩ := b
    cases k1; cases k2; cases k3
    rfl

end

/-- `Note(40, (1, 4), 1)`, `Note(40, (1, 4), True)` and `Note(40, (1, 4), 1.0)` are equal notes and differ as objects;
2, -0.5, an infinity and NaN are out of range, and a string cannot be compared. -/
example :
    let mk := fun v => @DynNote.new ⟨fun _ => none⟩ (.int 40) (.ints [1, 4]) v
    okAnd (mk (.int 1)) (fun a => okAnd (mk (.bool true)) (fun b => okAnd (mk (.float (.fin 1))) (fun c =>
      a.eq b && b.eq c && a.eq c && a.velocityByte == 127 && b.velocityByte == 127 && c.velocityByte == 127 &&
      decide (a ≠ b) && decide (b ≠ c)))) = true ∧
    okAnd (mk (.bool false)) (fun a => okAnd (mk (.float (.fin (1 / 2)))) (fun b =>
      a.lt b && a.le b && !a.ge b && a.velocityByte == 0)) = true ∧
    mk (.int 2) = .error .valueError ∧ mk (.float (.fin (-1 / 2))) = .error .valueError ∧
    mk (.float .posInf) = .error .valueError ∧ mk (.float .nan) = .error .valueError ∧ mk .other = .error .typeError := by
  decide +kernel

end Melodia
