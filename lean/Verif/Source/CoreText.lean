/-
The text of src/melodia/core/__init__.py, written by tools/embed.py.
-/

set_option autoImplicit false

namespace Melodia.Source

/-- The lines of src/melodia/core/__init__.py. -/
def coreText : List String := [
  "from typing import Sequence",
  "",
  "from .tone import Tone",
  "from .signature import Signature",
  "from .note import Note",
  "from .track import Track",
  "",
  "__all__: Sequence[str] = ['Tone', 'Signature', 'Note', 'Track']"]

end Melodia.Source
