/-
Abstract syntax of src/melodia/processing/__init__.py, written by tools/translate.py.
-/
import Verif.Python.Syntax

set_option autoImplicit false

namespace Melodia.Source

open Melodia.Python

/-- Module `melodia.processing` (src/melodia/processing/__init__.py). -/
def processingPackageModule : Module where
  name := "melodia.processing"
  names := [("Sequence", .imported "typing" "Sequence"),
    ("track", .module "melodia.processing.track")]
  init := [
    .assign (.name "__all__") (.list [.str "track"])]

end Melodia.Source
