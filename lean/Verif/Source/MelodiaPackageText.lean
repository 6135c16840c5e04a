/-
The text of src/melodia/__init__.py, written by tools/embed.py.
-/

set_option autoImplicit false

namespace Melodia.Source

/-- The lines of src/melodia/__init__.py. -/
def melodiaPackageText : List String := [
  "from typing import Sequence",
  "",
  "from . import core",
  "from . import io",
  "from . import music",
  "from . import processing",
  "",
  "__all__: Sequence[str] = [",
  "    'core',",
  "    'io',",
  "    'music',",
  "    'processing'",
  "]"]

end Melodia.Source
