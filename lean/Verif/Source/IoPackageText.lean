/-
The text of src/melodia/io/__init__.py, written by tools/embed.py.
-/

set_option autoImplicit false

namespace Melodia.Source

/-- The lines of src/melodia/io/__init__.py. -/
def ioPackageText : List String := [
  "from typing import Sequence",
  "",
  "from . import midi",
  "",
  "__all__: Sequence[str] = ['midi']"]

end Melodia.Source
