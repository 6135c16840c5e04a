/-
Vocabulary for statements about running scripts/generate_chords.py: the program it is part of, its table as an expression, and
the files it leaves.
-/
import Verif.Model.Generator
import Verif.Source.GenerateChordsModule
import Verif.Python.Semantics

set_option autoImplicit false

namespace Melodia

open Melodia.Python Melodia.Source

/-- The classes of the standard module `argparse`, as far as scripts/generate_chords.py:116-118 uses them and for a command line
that consists of the one argument `out`: `add_argument` does nothing that can be seen, and `parse_args` gives an object whose
attribute `output` is `out`. -/
def argparseParser (out : String) : ClassDef where
  name := "ArgumentParser"
  mod := "argparse"
  methods := [
    { name := "add_argument", mod := "argparse", params := [("self", none), ("name", none), ("help", none), ("type", none)],
      body := [.pass] },
    { name := "parse_args", mod := "argparse", params := [("self", none)], body := [.ret (.call (.name "Namespace") [.str out] [])] }]

/-- The class of the result of `parse_args`. -/
def argparseNamespace : ClassDef where
  name := "Namespace"
  mod := "argparse"
  fields := ["output"]

/-- The module `argparse`. -/
def argparseModule : Module where
  name := "argparse"
  names := [("ArgumentParser", .cls "ArgumentParser"), ("Namespace", .cls "Namespace")]

/-- The expression for an integer. -/
def intSource (n : Int) : Expr := if n < 0 then .un .neg (.int n.natAbs) else .int n.natAbs

/-- The expression `Chord('...', '...', [...])` for a row. -/
def rowSource (g : GenChord) : Expr :=
  .call (.name "Chord") [.str g.name, .str g.fullName, .list (g.notation'.map intSource)] []

/-- The statements of scripts/generate_chords.py with another table for the list `chords` (lines 82-112). -/
def generatorInit (table : List GenChord) : List Stmt :=
  generateChordsModule.init.take 3 ++ [.assign (.name "chords") (.list (table.map rowSource))] ++ generateChordsModule.init.drop 4

/-- The script with another table, and `argparse` for the command line `out`. -/
def generatorProgram (out : String) (table : List GenChord) : Program where
  modules := [argparseModule, { generateChordsModule with init := generatorInit table }]
  classes := [argparseParser out, argparseNamespace, Chord.classDef]

/-- Run the script: its statements, with `__name__` set to `'__main__'`, on an empty memory. -/
noncomputable def runGenerator (W : World) (out : String) (table : List GenChord) : Option (Res Flow) :=
  execB (generatorProgram out table) W (generatorInit table)
    { mod := "generate_chords", vars := [("__name__", .str "__main__".toList)] } { objs := [], draws := 0 }

/-- The files of a memory: text files with their names, and others without. -/
def fileOf : Obj → Option (Option (List Char) × (List Char ⊕ Bytes))
  | .text name s => some (some name, .inl s)
  | .file b _ => some (none, .inr b)
  | _ => none

/-- All files of a memory. -/
def Python.Heap.files (h : Heap) : List (Option (List Char) × (List Char ⊕ Bytes)) := h.objs.filterMap fileOf

/-- The text with given lines, each ended by a line break. -/
def textOf (ls : List String) : List Char := ls.flatMap fun l => l.toList ++ ['\n']

end Melodia
