/-
Abstract syntax of src/melodia/core/note.py, written by tools/translate.py.
-/
import Verif.Python.Syntax

set_option autoImplicit false

namespace Melodia.Source

open Melodia.Python

/-- `__init__` (src/melodia/core/note.py:13-53). -/
def Note.dunder_init : FunDef where
  name := "__init__"
  mod := "melodia.core.note"
  params := [("self", .none), ("tone", .none), ("duration", some (.call (.name "Signature") [.int 1, .int 4] [])), ("velocity", some (.float 3 4))]
  body := [
    .ite (.call (.name "isinstance") [.name "tone", .name "Tone"] []) [
      .assign (.attr (.name "self") "_tone") (.name "tone")] [
      .ite (.call (.name "isinstance") [.name "tone", .name "int"] []) [
        .assign (.attr (.name "self") "_tone") (.call (.name "Tone") [.name "tone"] [])] [
        .ite (.call (.name "isinstance") [.name "tone", .name "str"] []) [
          .assign (.attr (.name "self") "_tone") (.call (.attr (.name "Tone") "from_notation") [.name "tone"] [])] [
          .raise (.call (.name "TypeError") [.str "tone must be a Tone object, an integer or a string"] [])]]],
    .ite (.call (.name "isinstance") [.name "duration", .name "Signature"] []) [
      .assign (.attr (.name "self") "_duration") (.name "duration")] [
      .ite (.call (.name "isinstance") [.name "duration", .name "Iterable"] []) [
        .assign (.attr (.name "self") "_duration") (.call (.name "Signature") [.star (.name "duration")] [])] [
        .raise (.call (.name "TypeError") [.str "duration must be a Signature object or a pair of integers"] [])]],
    .ite (.un .not (.cmp (.float 0 1) [.le, .le] [.name "velocity", .float 1 1])) [
      .raise (.call (.name "ValueError") [.str "velocity must be in range [0.0, 1.0]"] [])] [],
    .assign (.attr (.name "self") "_velocity") (.name "velocity")]

/-- `tone` (src/melodia/core/note.py:55-62). -/
def Note.tone : FunDef where
  name := "tone"
  mod := "melodia.core.note"
  params := [("self", .none)]
  body := [
    .ret (.attr (.name "self") "_tone")]
  deco := .property

/-- `velocity` (src/melodia/core/note.py:64-71). -/
def Note.velocity : FunDef where
  name := "velocity"
  mod := "melodia.core.note"
  params := [("self", .none)]
  body := [
    .ret (.attr (.name "self") "_velocity")]
  deco := .property

/-- `duration` (src/melodia/core/note.py:73-80). -/
def Note.duration : FunDef where
  name := "duration"
  mod := "melodia.core.note"
  params := [("self", .none)]
  body := [
    .ret (.attr (.name "self") "_duration")]
  deco := .property

/-- `transposed` (src/melodia/core/note.py:82-93). -/
def Note.transposed : FunDef where
  name := "transposed"
  mod := "melodia.core.note"
  params := [("self", .none), ("transposition", .none)]
  body := [
    .ret (.call (.name "Note") [.call (.attr (.attr (.name "self") "_tone") "transposed") [.name "transposition"] [], .attr (.name "self") "_duration", .attr (.name "self") "_velocity"] ["tone", "duration", "velocity"])]

/-- `with_duration` (src/melodia/core/note.py:95-106). -/
def Note.with_duration : FunDef where
  name := "with_duration"
  mod := "melodia.core.note"
  params := [("self", .none), ("duration", .none)]
  body := [
    .ret (.call (.name "Note") [.attr (.name "self") "_tone", .name "duration", .attr (.name "self") "_velocity"] ["tone", "duration", "velocity"])]

/-- `with_velocity` (src/melodia/core/note.py:108-119). -/
def Note.with_velocity : FunDef where
  name := "with_velocity"
  mod := "melodia.core.note"
  params := [("self", .none), ("velocity", .none)]
  body := [
    .ret (.call (.name "Note") [.attr (.name "self") "_tone", .attr (.name "self") "_duration", .name "velocity"] ["tone", "duration", "velocity"])]

/-- `_as_triplet` (src/melodia/core/note.py:121-122). -/
def Note._as_triplet : FunDef where
  name := "_as_triplet"
  mod := "melodia.core.note"
  params := [("self", .none)]
  body := [
    .ret (.tuple [.attr (.name "self") "_tone", .attr (.name "self") "_duration", .attr (.name "self") "_velocity"])]

/-- `__str__` (src/melodia/core/note.py:124-130). -/
def Note.dunder_str : FunDef where
  name := "__str__"
  mod := "melodia.core.note"
  params := [("self", .none)]
  body := [
    .ret (.fstr [.str "Note ", .field (.call (.name "str") [.attr (.name "self") "_duration"] []) "", .str " ", .field (.call (.name "str") [.attr (.name "self") "_tone"] []) "", .str " (", .field (.attr (.name "self") "_velocity") ".3f", .str ")"])]

/-- `__repr__` (src/melodia/core/note.py:132-143). -/
def Note.dunder_repr : FunDef where
  name := "__repr__"
  mod := "melodia.core.note"
  params := [("self", .none)]
  body := [
    .assign (.name "name") (.attr (.attr (.name "self") "__class__") "__name__"),
    .assign (.name "pitch") (.attr (.attr (.name "self") "_tone") "pitch"),
    .assign (.name "velocity") (.attr (.name "self") "_velocity"),
    .assign (.name "duration") (.fstr [.str "(", .field (.attr (.attr (.name "self") "_duration") "nominator") "", .str ", ", .field (.attr (.attr (.name "self") "_duration") "denominator") "", .str ")"]),
    .ret (.fstr [.field (.name "name") "", .str "(tone=", .field (.name "pitch") "", .str ", duration=", .field (.name "duration") "", .str ", velocity=", .field (.name "velocity") "", .str ") "])]

/-- `__eq__` (src/melodia/core/note.py:145-152). -/
def Note.dunder_eq : FunDef where
  name := "__eq__"
  mod := "melodia.core.note"
  params := [("self", .none), ("other", .none)]
  body := [
    .ret (.cmp (.call (.attr (.name "self") "_as_triplet") [] []) [.eq] [.call (.attr (.name "other") "_as_triplet") [] []])]

/-- `__le__` (src/melodia/core/note.py:154-161). -/
def Note.dunder_le : FunDef where
  name := "__le__"
  mod := "melodia.core.note"
  params := [("self", .none), ("other", .none)]
  body := [
    .ret (.cmp (.call (.attr (.name "self") "_as_triplet") [] []) [.le] [.call (.attr (.name "other") "_as_triplet") [] []])]

/-- `__lt__` (src/melodia/core/note.py:163-170). -/
def Note.dunder_lt : FunDef where
  name := "__lt__"
  mod := "melodia.core.note"
  params := [("self", .none), ("other", .none)]
  body := [
    .ret (.cmp (.call (.attr (.name "self") "_as_triplet") [] []) [.lt] [.call (.attr (.name "other") "_as_triplet") [] []])]

/-- `__ge__` (src/melodia/core/note.py:172-179). -/
def Note.dunder_ge : FunDef where
  name := "__ge__"
  mod := "melodia.core.note"
  params := [("self", .none), ("other", .none)]
  body := [
    .ret (.cmp (.call (.attr (.name "self") "_as_triplet") [] []) [.ge] [.call (.attr (.name "other") "_as_triplet") [] []])]

/-- `__gt__` (src/melodia/core/note.py:181-188). -/
def Note.dunder_gt : FunDef where
  name := "__gt__"
  mod := "melodia.core.note"
  params := [("self", .none), ("other", .none)]
  body := [
    .ret (.cmp (.call (.attr (.name "self") "_as_triplet") [] []) [.gt] [.call (.attr (.name "other") "_as_triplet") [] []])]

/-- Class `Note` (src/melodia/core/note.py:7-188). -/
def Note.classDef : ClassDef where
  name := "Note"
  mod := "melodia.core.note"
  methods := [Note.dunder_init,
    Note.tone,
    Note.velocity,
    Note.duration,
    Note.transposed,
    Note.with_duration,
    Note.with_velocity,
    Note._as_triplet,
    Note.dunder_str,
    Note.dunder_repr,
    Note.dunder_eq,
    Note.dunder_le,
    Note.dunder_lt,
    Note.dunder_ge,
    Note.dunder_gt]
  slots := some ["_tone", "_velocity", "_duration"]

/-- Module `melodia.core.note` (src/melodia/core/note.py). -/
def noteModule : Module where
  name := "melodia.core.note"
  names := [("Tuple", .imported "typing" "Tuple"),
    ("Union", .imported "typing" "Union"),
    ("Iterable", .imported "typing" "Iterable"),
    ("Signature", .imported "melodia.core.signature" "Signature"),
    ("Tone", .imported "melodia.core.tone" "Tone"),
    ("Note", .cls "Note")]

end Melodia.Source
