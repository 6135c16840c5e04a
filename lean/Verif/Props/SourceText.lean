/-
C100: the text of the source files, read by the grammar of Python, is the program the other theorems are about.
-/
import Verif.Lemmas.ParseSignature
import Verif.Lemmas.ParseTone
import Verif.Lemmas.ParseNote
import Verif.Lemmas.ParseTrack
import Verif.Lemmas.ParseProcessing
import Verif.Lemmas.ParseMidi
import Verif.Lemmas.ParseChord
import Verif.Lemmas.ParseCore
import Verif.Source.Program
import Verif.Source.Texts
import Verif.Python.Supported

set_option autoImplicit false

namespace Melodia

open Melodia.Python Melodia.Source

/-- Parsing one more file. -/
theorem parseProgram_cons {m : String} {p : Bool} {lines : List String} {files : List (String × Bool × List String)}
    {d : Module} {cs : List ClassDef} {P : Program} (h : parseModule m p lines = some (d, cs))
    (h' : parseProgram files = some P) :
    parseProgram ((m, p, lines) :: files) = some ⟨d :: P.modules, cs ++ P.classes⟩ := by
  rw [parseProgram, h, h']

/-- C100: the files, line by line as they are in the repository, parse to `program`. -/
theorem C100_text : parseProgram sourceFiles = some program := by
  have h0 : parseProgram [] = some ⟨[], []⟩ := rfl
  have h := parseProgram_cons signature_parses <| parseProgram_cons tone_parses <| parseProgram_cons note_parses <|
    parseProgram_cons track_parses <| parseProgram_cons processing_parses <| parseProgram_cons midi_parses <|
    parseProgram_cons chord_parses <| parseProgram_cons core_parses <| parseProgram_cons ioPackage_parses <|
    parseProgram_cons musicPackage_parses <| parseProgram_cons processingPackage_parses <|
    parseProgram_cons melodiaPackage_parses h0
  exact h

/-- C100: the program is one of those the evaluator is meant for. It has no nested function whose variables change behind its
back, no inherited method, no special method the evaluator does not call, no local variable that hides a global one, and no file
that is used after it is closed. -/
theorem C100_supported : program.supported = true := by kernel_rfl

/-- The test finds programs the evaluator is not meant for: a nested function whose variable is assigned after its definition,
a method inherited from another class, a special method that is not known, and an attribute that is not in `__slots__`. -/
example :
    (FunDef.supported program { name := "f", mod := "m", params := [("a", none)], body := [
      .assign (.name "b") (.int 1), .defn "g" [] [] [.ret (.name "b")], .assign (.name "b") (.int 2),
      .ret (.call (.name "g") [] [])] }) = false ∧
    (ClassDef.supported program { name := "D", mod := "melodia.core.note", bases := ["Note"] }) = false ∧
    (ClassDef.supported program { name := "D", mod := "m", methods := [
      { name := "__bool__", mod := "m", params := [("self", none)], body := [.ret (.bool false)] }] }) = false ∧
    (ClassDef.supported program { name := "D", mod := "m", slots := some ["_x"], methods := [
      { name := "__init__", mod := "m", params := [("self", none)], body := [.assign (.attr (.name "self") "_y") (.int 1)] }] }) =
      false := by
  refine ⟨?_, ?_, ?_, ?_⟩ <;> kernel_rfl

/-- The expression on a line. -/
def readExpr (line : String) : Option Expr :=
  match tokens [line] with
  | some ts => match expr ts with
    | some (e, [.newline]) => some e
    | _ => none
  | none => none

/-- Subtraction groups to the left. -/
example : readExpr "a - b - c" = some (.bin .sub (.bin .sub (.name "a") (.name "b")) (.name "c")) := by kernel_rfl

/-- The sign is weaker than the power. -/
example : readExpr "-2 ** 2" = some (.un .neg (.bin .pow (.int 2) (.int 2))) := by kernel_rfl

/-- Unlike in C, `&` is stronger than `==`. -/
example : readExpr "value & 0x80 == 0" = some (.cmp (.bin .band (.name "value") (.int 128)) [.eq] [.int 0]) := by kernel_rfl

/-- `not` is weaker than comparisons, which form chains. -/
example : readExpr "not 0 <= x <= 127 or y is not None" =
    some (.or (.un .not (.cmp (.int 0) [.le, .le] [.name "x", .int 127])) (.cmp (.name "y") [.isNot] [.none])) := by kernel_rfl

/-- A comma makes a tuple, parentheses do not. -/
example : readExpr "f((a), (b,))" = some (.call (.name "f") [.name "a", .tuple [.name "b"]] []) := by kernel_rfl

/-- `0.1` is the float nearest to it. -/
example : readExpr "0.1" = some (.float 3602879701896397 36028797018963968) := by kernel_rfl

/-- Adjacent literals are joined, and an f-string has its fields. -/
example : readExpr "f'{n:d} ' 'of' f' {a.b}'" =
    some (.fstr [.field (.name "n") "d", .str " of ", .field (.attr (.name "a") "b") ""]) := by kernel_rfl

/-- What the grammar does not have is refused. -/
example : readExpr "lambda x: x" = none ∧ readExpr "a b" = none ∧ readExpr "(a" = none ∧ readExpr "f(x=1, 2)" = none := by
  refine ⟨?_, ?_, ?_, ?_⟩ <;> kernel_rfl

end Melodia
