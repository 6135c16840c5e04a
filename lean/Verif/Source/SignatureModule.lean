/-
Abstract syntax of src/melodia/core/signature.py, written by tools/translate.py.
-/
import Verif.Python.Syntax

set_option autoImplicit false

namespace Melodia.Source

open Melodia.Python

/-- `__init__` (src/melodia/core/signature.py:10-34). -/
def Signature.dunder_init : FunDef where
  name := "__init__"
  mod := "melodia.core.signature"
  params := [("self", .none), ("nominator", .none), ("denominator", .none)]
  body := [
    .ite (.un .not (.and (.cmp (.name "nominator") [.ge] [.int 0]) (.and (.cmp (.name "denominator") [.gt] [.int 0]) (.cmp (.bin .band (.name "denominator") (.bin .sub (.name "denominator") (.int 1))) [.eq] [.int 0])))) [
      .raise (.call (.name "ValueError") [.str "Invalid time signature (the nominator must be non-negative and the denominator must be a positive power of two)"] [])] [],
    .assign (.attr (.name "self") "_nominator") (.name "nominator"),
    .assign (.attr (.name "self") "_denominator") (.name "denominator")]

/-- `nominator` (src/melodia/core/signature.py:36-43). -/
def Signature.nominator : FunDef where
  name := "nominator"
  mod := "melodia.core.signature"
  params := [("self", .none)]
  body := [
    .ret (.attr (.name "self") "_nominator")]
  deco := .property

/-- `denominator` (src/melodia/core/signature.py:45-52). -/
def Signature.denominator : FunDef where
  name := "denominator"
  mod := "melodia.core.signature"
  params := [("self", .none)]
  body := [
    .ret (.attr (.name "self") "_denominator")]
  deco := .property

/-- `to` (src/melodia/core/signature.py:54-81). -/
def Signature.to : FunDef where
  name := "to"
  mod := "melodia.core.signature"
  params := [("self", .none), ("denominator", .none)]
  body := [
    .ite (.un .not (.and (.cmp (.name "denominator") [.gt] [.int 0]) (.cmp (.bin .band (.name "denominator") (.bin .sub (.name "denominator") (.int 1))) [.eq] [.int 0]))) [
      .raise (.call (.name "ValueError") [.str "Invalid denominator (must be a positive power of two)"] [])] [],
    .ite (.cmp (.name "denominator") [.eq] [.attr (.name "self") "_denominator"]) [
      .ret (.call (.name "Signature") [.attr (.name "self") "_nominator", .attr (.name "self") "_denominator"] [])] [],
    .ite (.cmp (.name "denominator") [.gt] [.attr (.name "self") "_denominator"]) [
      .assign (.name "nominator") (.bin .mul (.bin .floorDiv (.name "denominator") (.attr (.name "self") "_denominator")) (.attr (.name "self") "_nominator")),
      .ret (.call (.name "Signature") [.name "nominator", .name "denominator"] [])] [],
    .raise (.call (.name "ValueError") [.fstr [.str "New denominator must be >= ", .field (.attr (.name "self") "_denominator") ""]] [])]

/-- `normalized` (src/melodia/core/signature.py:83-105). -/
def Signature.normalized : FunDef where
  name := "normalized"
  mod := "melodia.core.signature"
  params := [("self", .none)]
  body := [
    .assign (.tuple ["n", "d"]) (.tuple [.attr (.name "self") "_nominator", .attr (.name "self") "_denominator"]),
    .while (.and (.cmp (.bin .band (.name "n") (.int 1)) [.eq] [.int 0]) (.cmp (.name "d") [.gt] [.int 1])) [
      .aug (.name "n") .shr (.int 1),
      .aug (.name "d") .shr (.int 1)],
    .ret (.call (.name "Signature") [.name "n", .name "d"] [])]

/-- `_to_common_denominator` (src/melodia/core/signature.py:107-117). -/
def Signature._to_common_denominator : FunDef where
  name := "_to_common_denominator"
  mod := "melodia.core.signature"
  params := [("self", .none), ("other", .none)]
  body := [
    .assign (.tuple ["n1", "d1"]) (.tuple [.attr (.name "self") "_nominator", .attr (.name "self") "_denominator"]),
    .assign (.tuple ["n2", "d2"]) (.tuple [.attr (.name "other") "_nominator", .attr (.name "other") "_denominator"]),
    .ite (.cmp (.name "d1") [.eq] [.name "d2"]) [
      .ret (.tuple [.name "n1", .name "n2", .name "d1"])] [],
    .ite (.cmp (.name "d1") [.gt] [.name "d2"]) [
      .ret (.tuple [.name "n1", .bin .mul (.bin .floorDiv (.name "d1") (.name "d2")) (.name "n2"), .name "d1"])] [],
    .ret (.tuple [.name "n2", .bin .mul (.bin .floorDiv (.name "d2") (.name "d1")) (.name "n1"), .name "d2"])]

/-- `__str__` (src/melodia/core/signature.py:119-125). -/
def Signature.dunder_str : FunDef where
  name := "__str__"
  mod := "melodia.core.signature"
  params := [("self", .none)]
  body := [
    .ret (.fstr [.field (.attr (.name "self") "_nominator") "", .str "/", .field (.attr (.name "self") "_denominator") ""])]

/-- `__repr__` (src/melodia/core/signature.py:127-133). -/
def Signature.dunder_repr : FunDef where
  name := "__repr__"
  mod := "melodia.core.signature"
  params := [("self", .none)]
  body := [
    .ret (.fstr [.field (.attr (.attr (.name "self") "__class__") "__name__") "", .str "(", .field (.attr (.name "self") "_nominator") "", .str ", ", .field (.attr (.name "self") "_denominator") "", .str ")"])]

/-- `__eq__` (src/melodia/core/signature.py:135-144). -/
def Signature.dunder_eq : FunDef where
  name := "__eq__"
  mod := "melodia.core.signature"
  params := [("self", .none), ("other", .none)]
  body := [
    .assign (.tuple ["n1", "n2", "_"]) (.call (.attr (.name "self") "_to_common_denominator") [.name "other"] []),
    .ret (.cmp (.name "n1") [.eq] [.name "n2"])]

/-- `__le__` (src/melodia/core/signature.py:146-155). -/
def Signature.dunder_le : FunDef where
  name := "__le__"
  mod := "melodia.core.signature"
  params := [("self", .none), ("other", .none)]
  body := [
    .assign (.tuple ["n1", "n2", "_"]) (.call (.attr (.name "self") "_to_common_denominator") [.name "other"] []),
    .ret (.cmp (.name "n1") [.le] [.name "n2"])]

/-- `__lt__` (src/melodia/core/signature.py:157-166). -/
def Signature.dunder_lt : FunDef where
  name := "__lt__"
  mod := "melodia.core.signature"
  params := [("self", .none), ("other", .none)]
  body := [
    .assign (.tuple ["n1", "n2", "_"]) (.call (.attr (.name "self") "_to_common_denominator") [.name "other"] []),
    .ret (.cmp (.name "n1") [.lt] [.name "n2"])]

/-- `__ge__` (src/melodia/core/signature.py:168-177). -/
def Signature.dunder_ge : FunDef where
  name := "__ge__"
  mod := "melodia.core.signature"
  params := [("self", .none), ("other", .none)]
  body := [
    .assign (.tuple ["n1", "n2", "_"]) (.call (.attr (.name "self") "_to_common_denominator") [.name "other"] []),
    .ret (.cmp (.name "n1") [.ge] [.name "n2"])]

/-- `__gt__` (src/melodia/core/signature.py:179-188). -/
def Signature.dunder_gt : FunDef where
  name := "__gt__"
  mod := "melodia.core.signature"
  params := [("self", .none), ("other", .none)]
  body := [
    .assign (.tuple ["n1", "n2", "_"]) (.call (.attr (.name "self") "_to_common_denominator") [.name "other"] []),
    .ret (.cmp (.name "n1") [.gt] [.name "n2"])]

/-- `__add__` (src/melodia/core/signature.py:190-199). -/
def Signature.dunder_add : FunDef where
  name := "__add__"
  mod := "melodia.core.signature"
  params := [("self", .none), ("other", .none)]
  body := [
    .assign (.tuple ["n1", "n2", "d"]) (.call (.attr (.name "self") "_to_common_denominator") [.name "other"] []),
    .ret (.call (.name "Signature") [.bin .add (.name "n1") (.name "n2"), .name "d"] [])]

/-- `__mul__` (src/melodia/core/signature.py:201-208). -/
def Signature.dunder_mul : FunDef where
  name := "__mul__"
  mod := "melodia.core.signature"
  params := [("self", .none), ("other", .none)]
  body := [
    .ret (.call (.name "Signature") [.bin .mul (.attr (.name "self") "_nominator") (.attr (.name "other") "_nominator"), .bin .mul (.attr (.name "self") "_denominator") (.attr (.name "other") "_denominator")] [])]

/-- `__abs__` (src/melodia/core/signature.py:210-216). -/
def Signature.dunder_abs : FunDef where
  name := "__abs__"
  mod := "melodia.core.signature"
  params := [("self", .none)]
  body := [
    .ret (.call (.name "Signature") [.call (.name "abs") [.attr (.name "self") "_nominator"] [], .attr (.name "self") "_denominator"] [])]

/-- Class `Signature` (src/melodia/core/signature.py:4-216). -/
def Signature.classDef : ClassDef where
  name := "Signature"
  mod := "melodia.core.signature"
  methods := [Signature.dunder_init,
    Signature.nominator,
    Signature.denominator,
    Signature.to,
    Signature.normalized,
    Signature._to_common_denominator,
    Signature.dunder_str,
    Signature.dunder_repr,
    Signature.dunder_eq,
    Signature.dunder_le,
    Signature.dunder_lt,
    Signature.dunder_ge,
    Signature.dunder_gt,
    Signature.dunder_add,
    Signature.dunder_mul,
    Signature.dunder_abs]
  slots := some ["_nominator", "_denominator"]

/-- Module `melodia.core.signature` (src/melodia/core/signature.py). -/
def signatureModule : Module where
  name := "melodia.core.signature"
  names := [("Tuple", .imported "typing" "Tuple"),
    ("Signature", .cls "Signature")]

end Melodia.Source
