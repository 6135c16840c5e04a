/-
The text of src/melodia/processing/__init__.py, written by tools/embed.py.
-/

set_option autoImplicit false

namespace Melodia.Source

/-- The lines of src/melodia/processing/__init__.py. -/
def processingPackageText : List String := [
  "from typing import Sequence",
  "",
  "from . import track",
  "",
  "__all__: Sequence[str] = [",
  "    'track'",
  "]"]

end Melodia.Source
