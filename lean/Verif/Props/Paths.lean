/-
C106: variables and results of functions on all paths.
-/
import Verif.Lemmas.Paths
import Verif.Source.Program
import Verif.Spec.GeneratorRun
import Verif.Python.KernelRfl

set_option autoImplicit false

namespace Melodia

open Melodia.Python Melodia.Source

/-- C106 (variables): on every path through a function or method of melodia, or through a function nested in one, a variable of the
function is only read when it has a value, the parameters having values from the beginning. -/
theorem C106_assigned : ∀ f ∈ program.functions, ∀ ps xs b, (ps, xs, b) ∈ f.scopes → ∀ t o, Paths b t o →
    ReadsAssigned xs (ps.map .write ++ t) := by
  have h : (program.functions.all fun f => f.scopes.all fun s => (flows s.2.1 s.2.2 s.1).isSome) = true := by kernel_rfl
  intro f hf ps xs b hs t o hp
  exact reads_assigned (List.all_eq_true.mp (List.all_eq_true.mp h f hf) (ps, xs, b) hs) hp

/-- C106 (generator): the same holds for the functions of scripts/generate_chords.py. -/
theorem C106_generator (out : String) (table : List GenChord) : ∀ f ∈ (generatorProgram out table).functions,
    ∀ ps xs b, (ps, xs, b) ∈ f.scopes → ∀ t o, Paths b t o → ReadsAssigned xs (ps.map .write ++ t) := by
  have h : ((generatorProgram out table).functions.all fun f => f.scopes.all fun s => (flows s.2.1 s.2.2 s.1).isSome) = true := by
    kernel_rfl
  intro f hf ps xs b hs t o hp
  exact reads_assigned (List.all_eq_true.mp (List.all_eq_true.mp h f hf) (ps, xs, b) hs) hp

/-- Whether an expression is `None`. -/
def isNoneExpr : Expr → Bool
  | .none => true
  | _ => false

/-- C106 (results): a function that returns a value somewhere does so on every path that does not end with an exception: it never
ends behind its last statement, where it would return `None`, nor with a `return` without value or with `None`. -/
theorem C106_returns : ∀ f ∈ program.functions, ∀ ps xs b, (ps, xs, b) ∈ f.scopes → (∃ e ∈ returnedIn b, e ≠ .none) →
    (∀ e ∈ returnedIn b, e ≠ .none) ∧ ∀ t o, Paths b t o → o = .ret ∨ o = .raised := by
  have h : (program.functions.all fun f => f.scopes.all fun s => (returnedIn s.2.2).all isNoneExpr ||
    ((returnedIn s.2.2).all (fun e => !isNoneExpr e) && (match flows s.2.1 s.2.2 s.1 with
      | some none => true
      | _ => false) && !looseIn s.2.2)) = true := by kernel_rfl
  intro f hf ps xs b hs ⟨e, he, hne⟩
  have h := List.all_eq_true.mp (List.all_eq_true.mp h f hf) (ps, xs, b) hs
  simp only [Bool.or_eq_true, Bool.and_eq_true, Bool.not_eq_true', List.all_eq_true] at h
  rcases h with h | ⟨⟨h1, h2⟩, h3⟩
  · have := h e he
    cases e <;> simp [isNoneExpr] at this hne
  · refine ⟨fun e he hn => by have := h1 e he; subst hn; simp [isNoneExpr] at this, fun t o hp => ?_⟩
    have hl := not_loose b t o hp h3
    have hn : o ≠ .next := by
      rintro rfl
      refine no_end (L := xs) (ps := ps) ?_ hp
      revert h2
      split
      · rename_i hf; exact fun _ => hf
      · simp
    cases o <;> simp_all

/-- C106 (which functions): these are all functions and methods that return no value, so that every other one returns a value on every
path that does not end with an exception. -/
theorem C106_no_result : (program.functions.filter fun f => (returnedIn f.body).all isNoneExpr).map (fun f => (f.mod, f.name)) = [
    ("melodia.io.midi", "dump"), ("melodia.core.signature", "__init__"), ("melodia.core.tone", "__init__"),
    ("melodia.core.note", "__init__"), ("melodia.core.track", "__init__"), ("melodia.core.track", "add"),
    ("melodia.io.midi", "__init__"), ("melodia.io.midi", "shift"), ("melodia.io.midi", "__init__"),
    ("melodia.io.midi", "dump"), ("melodia.io.midi", "__init__"), ("melodia.io.midi", "_read_chunks")] := by kernel_rfl

/-- A function that reads a variable behind a loop that may not be entered: there is a path on which it has no value. -/
example : let b : List Stmt := [.for (.name "x") (.name "l") [.assign (.name "y") (.name "x")], .ret (.name "y")]
    Paths b [.read "y"] .ret ∧ ¬ ReadsAssigned ["l", "x", "y"] (["l"].map .write ++ [.read "y"]) := by
  refine ⟨.cons _ _ [] _ _ (.forEnd _ _ _ _ (by simp [Evaluates])) (.leave _ _ _ _ (.ret _ _ ?_) (by simp)), fun h => ?_⟩
  · simp [Evaluates, Expr.needs]
  · obtain ⟨u, v, hu, _⟩ := h [.write "l"] [] "y" rfl (by simp)
    have : VarEvent.write "y" ∈ [VarEvent.write "l"] := by rw [hu]; simp
    simp at this

/-- `Track.add` returns early, without a value. -/
example : (program.functions.filter fun f => (returnedIn f.body).any isNoneExpr).map FunDef.name = ["add"] := by kernel_rfl

/-- The functions that return a value, and the nested one of the reader among them. -/
example : (program.functions.flatMap FunDef.scopes).length = 139 ∧
    ((program.functions.flatMap FunDef.scopes).filter fun s => (returnedIn s.2.2).any fun e => !isNoneExpr e).length = 127 := by
  constructor <;> kernel_rfl

end Melodia
