/-
Vocabulary for statements about the text of the reader in midi.py.
-/
import Verif.Spec.SourceWriter
import Verif.Spec.SourceTrack
import Verif.Model.MidiRead
import Verif.Spec.MidiRead

set_option autoImplicit false

namespace Melodia

open Melodia.Python

/-- A `MIDIReader` object; `c` is the value given as `middle_c`. -/
def readerV (m : MidiReader) (c : Val) : Val :=
  .obj "MIDIReader" [("_middle_c", c), ("_middle_c_delta", .int m.middleCDelta)]

/-- The value given as `channel`: a number or None. -/
def chanV : Option Int → Val
  | none => .none
  | some c => .int c

/-- The value is a `MIDIReader` object with this setting. -/
def IsReader (m : MidiReader) (v : Val) : Prop := ∃ c, IsMiddleC c ∧ v = readerV m c

/-- The ways to call `MIDIReader`: the value of `middle_c`, the values of the variables and the expression. -/
inductive ReaderCall : Val → List (String × Val) → Expr → Prop
  | default : ReaderCall (toneV ⟨36⟩) [] (callE "MIDIReader" [])
  | pos (c : Val) : ReaderCall c [("middle_c", c)] (callE "MIDIReader" ["middle_c"])
  | kw (c : Val) : ReaderCall c [("middle_c", c)] (.call (.name "MIDIReader") [.name "middle_c"] ["middle_c"])

/-- The ways to call `g(x)` with a channel: the channel, the further variables and the expression. -/
inductive ChannelCall (g : Expr) (x : String) : Option Int → List (String × Val) → Expr → Prop
  | omitted : ChannelCall g x none [] (.call g [.name x] [])
  | pos (c : Option Int) : ChannelCall g x c [("channel", chanV c)] (.call g [.name x, .name "channel"] [])
  | kw (c : Option Int) : ChannelCall g x c [("channel", chanV c)] (.call g [.name x, .name "channel"] ["channel"])

/-- The options of a call of `dump` or `dumps`. -/
def dumpOpts (x : Option Val) (ch : Option Int) : List (String × Val) :=
  (x.map (fun x => ("bpm", x))).toList ++ (ch.map (fun c => ("channel", Val.int c))).toList

/-- The ways to call the function `g` of the module for the variables `xs`: bpm and channel, the further variables and the
expression. Any of the two may be given by keyword, the others are 120.0 and 0; or both are given by position. -/
inductive DumpCall (g : String) (xs : List String) : Val → Int → List (String × Val) → Expr → Prop
  | kw (x : Option Val) (ch : Option Int) : DumpCall g xs (x.getD (.float (.fin 120))) (ch.getD 0) (dumpOpts x ch)
      (.call (.name g) (xs.map .name ++ (dumpOpts x ch).map (fun o => .name o.1)) ((dumpOpts x ch).map Prod.fst))
  | all (x : Val) (ch : Int) : DumpCall g xs x ch [("bpm", x), ("channel", .int ch)] (callE g (xs ++ ["bpm", "channel"]))

/-- Every track chunk begins with a delta time and a status byte. -/
def StatusGiven (data : Bytes) : Prop := ∀ cs body, Chunks data cs → (kindMTrk, body) ∈ cs → ¬ MissingStatus body

/-- A function of the module `melodia.io.midi`. -/
def midiFun (g : String) : String × Val := (g, .func "melodia.io.midi" g)

/-- The ways to read a file: `r.loads(data)`, `r.load(f)` for a file whose bytes from its position on are `data`, and
`loads(data)`, `load(f)` of the module, each with any channel argument. The bytes, the setting of the reader, what is changed
(the position of the file), the channel, the variables and the expression. -/
inductive LoadCall (h : Heap) (data : Bytes) :
    MidiReader → (Nat → Prop) → Option Int → List (String × Val) → Expr → Prop
  | loads {m : MidiReader} {v : Val} {c : Option Int} {more : List (String × Val)} {e : Expr} (hv : IsReader m v)
      (hc : ChannelCall (.attr (.name "r") "loads") "data" c more e) :
      LoadCall h data m (fun _ => False) c (("r", v) :: ("data", .bytes data) :: more) e
  | load {m : MidiReader} {v : Val} {f pos : Nat} {content : Bytes} {c : Option Int} {more : List (String × Val)} {e : Expr}
      (hv : IsReader m v) (hf : h.objs[f]? = some (.file content pos)) (hd : content.drop pos = data)
      (hc : ChannelCall (.attr (.name "r") "load") "f" c more e) :
      LoadCall h data m (· = f) c (("r", v) :: ("f", .ref f) :: more) e
  | midiLoads {c : Option Int} {more : List (String × Val)} {e : Expr} (hc : ChannelCall (.name "loads") "data" c more e) :
      LoadCall h data ⟨24⟩ (fun _ => False) c (midiFun "loads" :: ("data", .bytes data) :: more) e
  | midiLoad {f pos : Nat} {content : Bytes} {c : Option Int} {more : List (String × Val)} {e : Expr}
      (hf : h.objs[f]? = some (.file content pos)) (hd : content.drop pos = data)
      (hc : ChannelCall (.name "load") "f" c more e) :
      LoadCall h data ⟨24⟩ (· = f) c (midiFun "load" :: ("f", .ref f) :: more) e

/-- The result is a new track, with this content; nothing outside `S` is changed. -/
def NewTrack (x : Option (Res Val)) (h : Heap) (S : Nat → Prop) (t : Track) : Prop :=
  ∃ h' a l, x = some (.ok (.ref a) h') ∧ TrackAt h' a l t ∧ h.objs.length ≤ a ∧ h.objs.length ≤ l ∧ Python.Frame S h h'

/-- The result is an exception; nothing outside `S` is changed. -/
def Fails (x : Option (Res Val)) (h : Heap) (S : Nat → Prop) (e : PyErr) : Prop :=
  ∃ h', x = some (.err e h') ∧ Python.Frame S h h'

end Melodia
