/-
The texts of the `__init__.py` files parse to their abstract syntax.
-/
import Verif.Python.KernelRfl
import Verif.Python.Parser
import Verif.Source.CoreModule
import Verif.Source.CoreText
import Verif.Source.IoPackageModule
import Verif.Source.IoPackageText
import Verif.Source.MusicPackageModule
import Verif.Source.MusicPackageText
import Verif.Source.ProcessingPackageModule
import Verif.Source.ProcessingPackageText
import Verif.Source.MelodiaPackageModule
import Verif.Source.MelodiaPackageText

set_option autoImplicit false

namespace Melodia.Source

open Melodia.Python

theorem core_parses : parseModule "melodia.core" true coreText = some (coreModule, []) := by kernel_rfl

theorem ioPackage_parses : parseModule "melodia.io" true ioPackageText = some (ioPackageModule, []) := by kernel_rfl

theorem musicPackage_parses : parseModule "melodia.music" true musicPackageText = some (musicPackageModule, []) := by kernel_rfl

theorem processingPackage_parses : parseModule "melodia.processing" true processingPackageText = some (processingPackageModule, []) := by kernel_rfl

theorem melodiaPackage_parses : parseModule "melodia" true melodiaPackageText = some (melodiaPackageModule, []) := by kernel_rfl

end Melodia.Source
