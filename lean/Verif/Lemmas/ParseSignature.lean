/-
The text of src/melodia/core/signature.py parses to its abstract syntax.
-/
import Verif.Python.KernelRfl
import Verif.Python.Parser
import Verif.Source.SignatureModule
import Verif.Source.SignatureText

set_option autoImplicit false

namespace Melodia.Source

open Melodia.Python

theorem signature_parses : parseModule "melodia.core.signature" false signatureText = some (signatureModule, [Signature.classDef]) := by kernel_rfl

end Melodia.Source
