/-
Abstract syntax of src/melodia/core/tone.py, written by tools/translate.py.
-/
import Verif.Python.Syntax

set_option autoImplicit false

namespace Melodia.Source

open Melodia.Python

/-- `__init__` (src/melodia/core/tone.py:23-46). -/
def Tone.dunder_init : FunDef where
  name := "__init__"
  mod := "melodia.core.tone"
  params := [("self", .none), ("pitch", .none)]
  body := [
    .ite (.un .not (.call (.name "isinstance") [.name "pitch", .name "int"] [])) [
      .raise (.call (.name "ValueError") [.str "Pitch must be an integer, to construct tone from notation use Tone.from_notation"] [])] [],
    .assign (.attr (.name "self") "_pitch") (.name "pitch")]

/-- `pitch` (src/melodia/core/tone.py:48-55). -/
def Tone.pitch : FunDef where
  name := "pitch"
  mod := "melodia.core.tone"
  params := [("self", .none)]
  body := [
    .ret (.attr (.name "self") "_pitch")]
  deco := .property

/-- `octave` (src/melodia/core/tone.py:57-71). -/
def Tone.octave : FunDef where
  name := "octave"
  mod := "melodia.core.tone"
  params := [("self", .none)]
  body := [
    .ret (.bin .floorDiv (.attr (.name "self") "_pitch") (.int 12))]
  deco := .property

/-- `from_notation` (src/melodia/core/tone.py:73-108). -/
def Tone.from_notation : FunDef where
  name := "from_notation"
  mod := "melodia.core.tone"
  params := [("cls", .none), ("notation", .none)]
  body := [
    .assign (.name "match") (.call (.attr (.name "_notation_regex") "match") [.name "notation"] []),
    .ite (.cmp (.name "match") [.is] [.none]) [
      .raise (.call (.name "ValueError") [.str "Invalid notation"] [])] [],
    .assign (.name "base_pitch") (.index (.name "_tone_mapping") (.call (.attr (.name "match") "group") [.str "tone"] [])),
    .assign (.name "transposition") (.call (.name "sum") [.genExp (.cond (.cmp (.name "t") [.eq] [.str "#"]) (.un .pos (.int 1)) (.un .neg (.int 1))) (.name "t") (.call (.attr (.name "match") "group") [.str "transposition"] [])] []),
    .assign (.name "octave_raw") (.call (.attr (.name "match") "group") [.str "octave"] []),
    .assign (.name "octave") (.cond (.name "octave_raw") (.call (.name "int") [.name "octave_raw"] []) (.int 0)),
    .ret (.call (.name "cls") [.bin .add (.bin .add (.bin .mul (.int 12) (.name "octave")) (.name "base_pitch")) (.name "transposition")] [])]
  deco := .classmethod

/-- `to_notation` (src/melodia/core/tone.py:110-146). -/
def Tone.to_notation : FunDef where
  name := "to_notation"
  mod := "melodia.core.tone"
  params := [("self", .none), ("transpose_down", some (.bool false))]
  body := [
    .assign (.name "base_pitch") (.bin .mod (.attr (.name "self") "_pitch") (.int 12)),
    .assign (.name "octave") (.bin .floorDiv (.attr (.name "self") "_pitch") (.int 12)),
    .ite (.cmp (.name "base_pitch") [.isIn] [.name "_reverse_tone_mapping"]) [
      .assign (.name "tone") (.index (.name "_reverse_tone_mapping") (.name "base_pitch")),
      .assign (.name "transposition") (.str "")] [
      .ite (.name "transpose_down") [
        .assign (.name "tone") (.index (.name "_reverse_tone_mapping") (.bin .add (.name "base_pitch") (.int 1))),
        .assign (.name "transposition") (.str "b")] [
        .assign (.name "tone") (.index (.name "_reverse_tone_mapping") (.bin .sub (.name "base_pitch") (.int 1))),
        .assign (.name "transposition") (.str "#")]],
    .ret (.fstr [.field (.name "tone") "s", .field (.name "transposition") "s", .field (.name "octave") "d"])]

/-- `to_frequency` (src/melodia/core/tone.py:148-156). -/
def Tone.to_frequency : FunDef where
  name := "to_frequency"
  mod := "melodia.core.tone"
  params := [("self", .none), ("base", some (.float 440 1))]
  body := [
    .ret (.bin .mul (.name "base") (.bin .pow (.int 2) (.bin .div (.bin .sub (.attr (.name "self") "_pitch") (.int 57)) (.int 12))))]

/-- `transposed` (src/melodia/core/tone.py:158-178). -/
def Tone.transposed : FunDef where
  name := "transposed"
  mod := "melodia.core.tone"
  params := [("self", .none), ("transposition", .none)]
  body := [
    .ret (.call (.name "Tone") [.bin .add (.attr (.name "self") "_pitch") (.name "transposition")] ["pitch"])]

/-- `__str__` (src/melodia/core/tone.py:180-186). -/
def Tone.dunder_str : FunDef where
  name := "__str__"
  mod := "melodia.core.tone"
  params := [("self", .none)]
  body := [
    .ret (.call (.attr (.name "self") "to_notation") [] [])]

/-- `__repr__` (src/melodia/core/tone.py:188-194). -/
def Tone.dunder_repr : FunDef where
  name := "__repr__"
  mod := "melodia.core.tone"
  params := [("self", .none)]
  body := [
    .ret (.fstr [.field (.attr (.attr (.name "self") "__class__") "__name__") "", .str "(pitch=", .field (.attr (.name "self") "_pitch") "", .str ")"])]

/-- `__eq__` (src/melodia/core/tone.py:196-203). -/
def Tone.dunder_eq : FunDef where
  name := "__eq__"
  mod := "melodia.core.tone"
  params := [("self", .none), ("other", .none)]
  body := [
    .ret (.cmp (.attr (.name "self") "_pitch") [.eq] [.attr (.name "other") "_pitch"])]

/-- `__le__` (src/melodia/core/tone.py:205-212). -/
def Tone.dunder_le : FunDef where
  name := "__le__"
  mod := "melodia.core.tone"
  params := [("self", .none), ("other", .none)]
  body := [
    .ret (.cmp (.attr (.name "self") "_pitch") [.le] [.attr (.name "other") "_pitch"])]

/-- `__lt__` (src/melodia/core/tone.py:214-221). -/
def Tone.dunder_lt : FunDef where
  name := "__lt__"
  mod := "melodia.core.tone"
  params := [("self", .none), ("other", .none)]
  body := [
    .ret (.cmp (.attr (.name "self") "_pitch") [.lt] [.attr (.name "other") "_pitch"])]

/-- `__ge__` (src/melodia/core/tone.py:223-230). -/
def Tone.dunder_ge : FunDef where
  name := "__ge__"
  mod := "melodia.core.tone"
  params := [("self", .none), ("other", .none)]
  body := [
    .ret (.cmp (.attr (.name "self") "_pitch") [.ge] [.attr (.name "other") "_pitch"])]

/-- `__gt__` (src/melodia/core/tone.py:232-239). -/
def Tone.dunder_gt : FunDef where
  name := "__gt__"
  mod := "melodia.core.tone"
  params := [("self", .none), ("other", .none)]
  body := [
    .ret (.cmp (.attr (.name "self") "_pitch") [.gt] [.attr (.name "other") "_pitch"])]

/-- Class `Tone` (src/melodia/core/tone.py:17-239). -/
def Tone.classDef : ClassDef where
  name := "Tone"
  mod := "melodia.core.tone"
  methods := [Tone.dunder_init,
    Tone.pitch,
    Tone.octave,
    Tone.from_notation,
    Tone.to_notation,
    Tone.to_frequency,
    Tone.transposed,
    Tone.dunder_str,
    Tone.dunder_repr,
    Tone.dunder_eq,
    Tone.dunder_le,
    Tone.dunder_lt,
    Tone.dunder_ge,
    Tone.dunder_gt]
  slots := some ["_pitch"]

/-- Module `melodia.core.tone` (src/melodia/core/tone.py). -/
def toneModule : Module where
  name := "melodia.core.tone"
  names := [("re", .module "re"),
    ("Dict", .imported "typing" "Dict"),
    ("Tone", .cls "Tone")]
  init := [
    .assign (.name "_notation_regex") (.call (.attr (.name "re") "compile") [.str "(?P<tone>[ABCDEFG])(?P<transposition>[#b]*)(?P<octave>-?\\d+)?"] []),
    .assign (.name "_tone_mapping") (.dict [.str "C", .str "D", .str "E", .str "F", .str "G", .str "A", .str "B"] [.int 0, .int 2, .int 4, .int 5, .int 7, .int 9, .int 11]),
    .assign (.name "_reverse_tone_mapping") (.dictComp (.name "v") (.name "k") (.tuple [.name "k", .name "v"]) (.call (.attr (.name "_tone_mapping") "items") [] []))]

end Melodia.Source
