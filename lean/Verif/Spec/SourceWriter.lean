/-
Vocabulary for statements about the text of the writer in midi.py.
-/
import Verif.Spec.SourceTrack
import Verif.Model.MidiWrite
import Verif.Spec.Midi

set_option autoImplicit false

namespace Melodia

open Melodia.Python

/-- A `MIDIWriter` object; `c` are the values of the arguments `middle_c` and `bpm`. -/
def writerV (w : Writer) (c : Val × Val) : Val :=
  .obj "MIDIWriter" [("_pulses_per_quarter", .int w.ppq), ("_pulses_per_whole", .int w.ppw), ("_middle_c", c.1),
    ("_middle_c_delta", .int w.middleCDelta), ("_bpm", c.2), ("_channel", .int w.channel)]

/-- The tempo as a number, and the value given for it: a float, an int or a bool. -/
inductive IsBpm : PyFloat → Val → Prop
  | float (x : PyFloat) : IsBpm x (.float x)
  | int (i : Int) : IsBpm (.fin i) (.int i)
  | bool (b : Bool) : IsBpm (.fin b.toNat) (.bool b)

/-- The memory contains a binary file with this content, positioned at its end. -/
def FileAt (h : Heap) (f : Nat) (content : Bytes) : Prop := h.objs[f]? = some (.file content content.length)

/-- The options of a call of `MIDIWriter` by keywords. -/
def writerOpts (p m x k : Option Val) : List (String × Val) :=
  (p.map (Prod.mk "pulses_per_quarter")).toList ++ (m.map (Prod.mk "middle_c")).toList ++ (x.map (Prod.mk "bpm")).toList ++
    (k.map (Prod.mk "channel")).toList

/-- The ways to call `MIDIWriter`: the four options, the values of the variables and the expression. Any of the options may be
given by keyword, the others have the values 96, the tone with pitch 36, 120.0 and 0; or all are given by position. -/
inductive WriterCall : Val → Val → Val → Val → List (String × Val) → Expr → Prop
  | kw (p m x k : Option Val) : WriterCall (p.getD (.int 96)) (m.getD (toneV ⟨36⟩)) (x.getD (.float (.fin 120)))
      (k.getD (.int 0)) (writerOpts p m x k)
      (.call (.name "MIDIWriter") ((writerOpts p m x k).map (fun o => .name o.1)) ((writerOpts p m x k).map Prod.fst))
  | all (p m x k : Val) : WriterCall p m x k [("pulses_per_quarter", p), ("middle_c", m), ("bpm", x), ("channel", k)]
      (callE "MIDIWriter" ["pulses_per_quarter", "middle_c", "bpm", "channel"])

/-- The values `middle_c` of a `MIDIWriter` object. -/
inductive IsMiddleC : Val → Prop
  | tone (t : Tone) : IsMiddleC (toneV t)
  | int (i : Int) : IsMiddleC (.int i)
  | str (s : List Char) : IsMiddleC (.str s)

/-- The value is a `MIDIWriter` object with these settings. -/
def IsWriter (w : Writer) (v : Val) : Prop := w.Valid ∧ ∃ c, IsMiddleC c.1 ∧ IsBpm w.bpm c.2 ∧ v = writerV w c

end Melodia
