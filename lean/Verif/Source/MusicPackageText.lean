/-
The text of src/melodia/music/__init__.py, written by tools/embed.py.
-/

set_option autoImplicit false

namespace Melodia.Source

/-- The lines of src/melodia/music/__init__.py. -/
def musicPackageText : List String := [
  "from typing import Sequence",
  "",
  "from . import chord",
  "",
  "__all__: Sequence[str] = [",
  "    'chord'",
  "]"]

end Melodia.Source
