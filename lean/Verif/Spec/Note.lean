/-
Specification vocabulary for notes.
-/
import Verif.Model.Note
import Verif.Spec.Signature
import Verif.Spec.Tone

set_option autoImplicit false

namespace Melodia

/-- A note as the documentation describes it: a well-formed duration, a velocity in [0, 1]. -/
structure Note.Valid (n : Note) : Prop where
  duration : n.duration.Valid
  velLow : 0 ≤ n.velocity
  velHigh : n.velocity ≤ 1

/-- The pitch an argument for `tone` stands for. -/
inductive ToneDenotes [UnicodeDigits] : ToneArg → Int → Prop
  | tone (t : Tone) : ToneDenotes (.tone t) t.pitch
  | int (i : Int) : ToneDenotes (.int i) i
  | str (s : List Char) (p : Int) (rest : List Char) (h : Reads s p rest) : ToneDenotes (.str s) p

/-- The signature an argument for `duration` (or `position`, `signature`) stands for. -/
inductive SigDenotes : SigArg → Signature → Prop
  | sig (s : Signature) : SigDenotes (.sig s) s
  | pair (n d : Int) (hn : 0 ≤ n) (hd : IsPow2 d) : SigDenotes (.ints [n, d]) ⟨n, d⟩

/-- Lexicographic "less" on (pitch, duration value, velocity). -/
def NoteLexLt (a b : Note) : Prop :=
  a.tone.pitch < b.tone.pitch ∨
  (a.tone.pitch = b.tone.pitch ∧ a.duration.val < b.duration.val) ∨
  (a.tone.pitch = b.tone.pitch ∧ a.duration.val = b.duration.val ∧ a.velocity < b.velocity)

end Melodia
