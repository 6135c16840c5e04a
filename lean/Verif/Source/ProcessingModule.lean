/-
Abstract syntax of src/melodia/processing/track.py, written by tools/translate.py.
-/
import Verif.Python.Syntax

set_option autoImplicit false

namespace Melodia.Source

open Melodia.Python

/-- `randomize_velocities` (src/melodia/processing/track.py:7-45). -/
def processing.randomize_velocities : FunDef where
  name := "randomize_velocities"
  mod := "melodia.processing.track"
  params := [("track", .none), ("minimum", some (.float 1 2)), ("maximum", some (.float 1 1)), ("mean", some (.float 3 4)), ("variance", some (.float 5764607523034235 576460752303423488))]
  body := [
    .ite (.un .not (.cmp (.int 0) [.le, .le] [.name "minimum", .float 1 1])) [
      .raise (.call (.name "ValueError") [.str "minimum velocity must be in range [0.0, 1.0]"] [])] [],
    .ite (.un .not (.cmp (.int 0) [.le, .le] [.name "maximum", .float 1 1])) [
      .raise (.call (.name "ValueError") [.str "maximum velocity must be in range [0.0, 1.0]"] [])] [],
    .ite (.un .not (.cmp (.int 0) [.le, .le] [.name "mean", .float 1 1])) [
      .raise (.call (.name "ValueError") [.str "mean velocity must be in range [0.0, 1.0]"] [])] [],
    .ite (.un .not (.cmp (.name "variance") [.ge] [.int 0])) [
      .raise (.call (.name "ValueError") [.str "variance must be positive"] [])] [],
    .assign (.name "result") (.call (.name "Track") [.attr (.name "track") "signature"] ["signature"]),
    .assign (.name "std") (.call (.attr (.name "math") "sqrt") [.name "variance"] []),
    .for (.tuple [.name "position", .name "note"]) (.name "track") [
      .assign (.name "new_velocity") (.call (.name "max") [.name "minimum", .call (.name "min") [.name "maximum", .call (.attr (.name "random") "gauss") [.name "mean", .name "std"] []] []] []),
      .expr (.call (.attr (.name "result") "add") [.call (.attr (.name "note") "with_velocity") [.name "new_velocity"] [], .name "position"] [])],
    .ret (.name "result")]

/-- Module `melodia.processing.track` (src/melodia/processing/track.py). -/
def processingModule : Module where
  name := "melodia.processing.track"
  names := [("math", .module "math"),
    ("random", .module "random"),
    ("Track", .imported "melodia.core" "Track"),
    ("randomize_velocities", .func processing.randomize_velocities)]

end Melodia.Source
