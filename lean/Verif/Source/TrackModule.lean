/-
Abstract syntax of src/melodia/core/track.py, written by tools/translate.py.
-/
import Verif.Python.Syntax

set_option autoImplicit false

namespace Melodia.Source

open Melodia.Python

/-- `__init__` (src/melodia/core/track.py:21-48). -/
def Track.dunder_init : FunDef where
  name := "__init__"
  mod := "melodia.core.track"
  params := [("self", .none), ("signature", some (.call (.name "Signature") [.int 4, .int 4] [])), ("content", some .none)]
  body := [
    .ite (.call (.name "isinstance") [.name "signature", .name "Signature"] []) [
      .assign (.attr (.name "self") "_signature") (.name "signature")] [
      .ite (.call (.name "isinstance") [.name "signature", .name "Iterable"] []) [
        .assign (.attr (.name "self") "_signature") (.call (.name "Signature") [.star (.name "signature")] [])] [
        .raise (.call (.name "TypeError") [.str "signature must be a Signature object or a pair of integers"] [])]],
    .assign (.attr (.name "self") "_max_denominator") (.int 1),
    .assign (.attr (.name "self") "_heap") (.list []),
    .assign (.attr (.name "self") "_max_position") (.call (.name "Signature") [.int 0, .int 1] []),
    .assign (.attr (.name "self") "_sorted") (.bool true),
    .ite (.cmp (.name "content") [.isNot] [.none]) [
      .for (.tuple [.name "note", .name "position"]) (.name "content") [
        .expr (.call (.attr (.name "self") "add") [.name "note", .name "position"] ["where"])]] []]

/-- `signature` (src/melodia/core/track.py:50-57). -/
def Track.signature : FunDef where
  name := "signature"
  mod := "melodia.core.track"
  params := [("self", .none)]
  body := [
    .ret (.attr (.name "self") "_signature")]
  deco := .property

/-- `length` (src/melodia/core/track.py:59-68). -/
def Track.length : FunDef where
  name := "length"
  mod := "melodia.core.track"
  params := [("self", .none)]
  body := [
    .ret (.attr (.name "self") "_max_position")]
  deco := .property

/-- `add` (src/melodia/core/track.py:70-113). -/
def Track.add : FunDef where
  name := "add"
  mod := "melodia.core.track"
  params := [("self", .none), ("what", .none), ("where", some .none)]
  body := [
    .ite (.cmp (.name "where") [.is] [.none]) [
      .assign (.name "position") (.attr (.name "self") "_max_position")] [
      .ite (.call (.name "isinstance") [.name "where", .name "Signature"] []) [
        .assign (.name "position") (.name "where")] [
        .ite (.call (.name "isinstance") [.name "where", .name "Iterable"] []) [
          .assign (.name "position") (.call (.name "Signature") [.star (.name "where")] [])] [
          .raise (.call (.name "TypeError") [.str "where must be a Signature object or a pair of integers"] [])]]],
    .ite (.call (.name "isinstance") [.name "what", .name "Iterable"] []) [
      .for (.name "x") (.name "what") [
        .expr (.call (.attr (.name "self") "add") [.name "x", .name "position"] ["what", "where"])],
      .ret .none] [],
    .assign (.name "note") (.name "what"),
    .ite (.cmp (.attr (.name "position") "denominator") [.gt] [.attr (.name "self") "_max_denominator"]) [
      .assign (.attr (.name "self") "_max_denominator") (.attr (.name "position") "denominator"),
      .assign (.attr (.name "self") "_heap") (.comp (.tuple [.call (.attr (.name "s") "to") [.attr (.name "self") "_max_denominator"] [], .name "n"]) (.tuple [.name "s", .name "n"]) (.attr (.name "self") "_heap"))] [],
    .assign (.name "position_transformed") (.call (.attr (.name "position") "to") [.attr (.name "self") "_max_denominator"] []),
    .expr (.call (.attr (.name "heapq") "heappush") [.attr (.name "self") "_heap", .tuple [.name "position_transformed", .name "note"]] []),
    .assign (.attr (.name "self") "_sorted") (.bool false),
    .assign (.name "end_position") (.bin .add (.name "position_transformed") (.attr (.name "note") "duration")),
    .ite (.cmp (.name "end_position") [.gt] [.attr (.name "self") "_max_position"]) [
      .assign (.attr (.name "self") "_max_position") (.name "end_position")] []]

/-- `__eq__` (src/melodia/core/track.py:115-130). -/
def Track.dunder_eq : FunDef where
  name := "__eq__"
  mod := "melodia.core.track"
  params := [("self", .none), ("other", .none)]
  body := [
    .ite (.cmp (.attr (.name "self") "_signature") [.ne] [.attr (.name "other") "_signature"]) [
      .ret (.bool false)] [],
    .for (.tuple [.tuple [.name "ap", .name "an"], .tuple [.name "bp", .name "bn"]]) (.call (.name "zip") [.name "self", .name "other"] []) [
      .ite (.or (.cmp (.name "an") [.ne] [.name "bn"]) (.cmp (.name "ap") [.ne] [.name "bp"])) [
        .ret (.bool false)] []],
    .ret (.bool true)]

/-- `__iter__` (src/melodia/core/track.py:132-143). -/
def Track.dunder_iter : FunDef where
  name := "__iter__"
  mod := "melodia.core.track"
  params := [("self", .none)]
  body := [
    .ite (.un .not (.attr (.name "self") "_sorted")) [
      .expr (.call (.attr (.attr (.name "self") "_heap") "sort") [] []),
      .assign (.attr (.name "self") "_sorted") (.bool true)] [],
    .ret (.call (.name "iter") [.attr (.name "self") "_heap"] [])]

/-- `__len__` (src/melodia/core/track.py:145-151). -/
def Track.dunder_len : FunDef where
  name := "__len__"
  mod := "melodia.core.track"
  params := [("self", .none)]
  body := [
    .ret (.call (.name "len") [.attr (.name "self") "_heap"] [])]

/-- `__str__` (src/melodia/core/track.py:153-159). -/
def Track.dunder_str : FunDef where
  name := "__str__"
  mod := "melodia.core.track"
  params := [("self", .none)]
  body := [
    .ret (.fstr [.str "Track ", .field (.call (.name "str") [.attr (.name "self") "_signature"] []) "", .str " with ", .field (.call (.name "len") [.attr (.name "self") "_heap"] []) "", .str " notes"])]

/-- `__repr__` (src/melodia/core/track.py:161-174). -/
def Track.dunder_repr : FunDef where
  name := "__repr__"
  mod := "melodia.core.track"
  params := [("self", .none)]
  body := [
    .assign (.name "name") (.attr (.attr (.name "self") "__class__") "__name__"),
    .assign (.name "signature") (.fstr [.str "(", .field (.attr (.attr (.name "self") "_signature") "nominator") "", .str ", ", .field (.attr (.attr (.name "self") "_signature") "denominator") "", .str ")"]),
    .assign (.name "contents") (.list []),
    .for (.tuple [.name "position", .name "note"]) (.name "self") [
      .expr (.call (.attr (.name "contents") "append") [.fstr [.str "(", .field (.call (.name "repr") [.name "note"] []) "", .str ", (", .field (.attr (.name "position") "nominator") "", .str ", ", .field (.attr (.name "position") "denominator") "", .str "))"]] [])],
    .ret (.fstr [.field (.name "name") "", .str "(signature=", .field (.name "signature") "", .str ", content=[", .field (.call (.attr (.str ", ") "join") [.name "contents"] []) "", .str "])"])]

/-- Class `Track` (src/melodia/core/track.py:8-174). -/
def Track.classDef : ClassDef where
  name := "Track"
  mod := "melodia.core.track"
  methods := [Track.dunder_init,
    Track.signature,
    Track.length,
    Track.add,
    Track.dunder_eq,
    Track.dunder_iter,
    Track.dunder_len,
    Track.dunder_str,
    Track.dunder_repr]
  slots := some ["_signature", "_max_denominator", "_max_position", "_heap", "_sorted"]
  mutable := true

/-- Module `melodia.core.track` (src/melodia/core/track.py). -/
def trackModule : Module where
  name := "melodia.core.track"
  names := [("heapq", .module "heapq"),
    ("Iterable", .imported "typing" "Iterable"),
    ("Tuple", .imported "typing" "Tuple"),
    ("Union", .imported "typing" "Union"),
    ("List", .imported "typing" "List"),
    ("Optional", .imported "typing" "Optional"),
    ("Note", .imported "melodia.core.note" "Note"),
    ("Signature", .imported "melodia.core.signature" "Signature"),
    ("Track", .cls "Track")]

end Melodia.Source
