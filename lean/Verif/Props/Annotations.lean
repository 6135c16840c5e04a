/-
C112: the annotations of melodia.
-/
import Verif.Lemmas.Annotations
import Verif.Props.Paths

set_option autoImplicit false

namespace Melodia

open Melodia.Python Melodia.Source

/-- Whether a head is that of a function. -/
def headOf (h : Head) (f : FunDef) : Bool := h.name == f.name && h.params.map Prod.fst == f.params.map Prod.fst

theorem headOf_iff {h : Head} {f : FunDef} : headOf h f = true ↔ h.Of f := by simp [headOf, Head.Of]

/-- C112 (heads): the annotations are read off the source text, and every function and every method has a head. -/
theorem C112_heads : ∃ H, headsOf sourceFiles = some H ∧ (∀ f ∈ program.functions, ∃ p ∈ H, p.1 = f.mod ∧ ∃ h ∈ p.2, h.Of f) ∧
    ∀ c ∈ program.classes, ∀ f ∈ c.methods, ∃ p ∈ H, p.1 = c.mod ∧ ∃ h ∈ p.2, h.cls = some c.name ∧ h.Of f := by
  have h1 : (program.functions.all fun f => allHeads.any fun p => p.1 == f.mod && p.2.any fun h => headOf h f) = true := by kernel_rfl
  have h2 : (program.classes.all fun c => c.methods.all fun f => allHeads.any fun p => p.1 == c.mod && p.2.any fun h =>
    h.cls == some c.name && headOf h f) = true := by kernel_rfl
  refine ⟨_, heads_eq, fun f hf => ?_, fun c hc f hf => ?_⟩
  · have := List.all_eq_true.mp h1 f hf
    simpa only [List.any_eq_true, Bool.and_eq_true, beq_iff_eq, headOf_iff] using this
  · have := List.all_eq_true.mp (List.all_eq_true.mp h2 c hc) f hf
    simpa only [List.any_eq_true, Bool.and_eq_true, beq_iff_eq, headOf_iff] using this

/-- C112 (parameters): every parameter of every function, also of the nested one, is annotated, but for the object or class that is the
first parameter of a method. -/
theorem C112_parameters : ∃ H, headsOf sourceFiles = some H ∧ ∀ p ∈ H, ∀ h ∈ p.2, ∀ (i : Nat) (x : String), h.params[i]? = some (x, none) →
    i = 0 ∧ h.cls.isSome ∧ (x = "self" ∨ x = "cls") := by
  have h1 : (allHeads.all fun p => p.2.all fun h => (match h.params with
      | (x, none) :: _ => h.cls.isSome && (x == "self" || x == "cls")
      | _ => true) && h.params.tail.all fun q => q.2.isSome) = true := by kernel_rfl
  refine ⟨_, heads_eq, fun p hp h hh i x hx => ?_⟩
  have h1 := List.all_eq_true.mp (List.all_eq_true.mp h1 p hp) h hh
  rw [Bool.and_eq_true] at h1
  cases i with
  | zero =>
    cases hps : h.params with
    | nil => simp [hps] at hx
    | cons q l =>
      rw [hps] at h1 hx
      obtain rfl : q = (x, none) := by simpa using hx
      simpa using h1.1
  | succ i =>
    have := List.all_eq_true.mp h1.2 (x, none) (by
      rw [← List.getElem?_tail] at hx
      exact List.mem_of_getElem? hx)
    simp at this

/-- The function whose result is not annotated. -/
def untyped : Head := ⟨some "MIDIWriter", "_format_header_chunk", [("self", none), ("kind", some (.name "int")), ("n_tracks", some (.name "int"))], none⟩

/-- C112 (results): the result of every function is annotated, but for the constructors and one method of the writer. -/
theorem C112_results_partial : ∃ H, headsOf sourceFiles = some H ∧ ∀ p ∈ H, ∀ h ∈ p.2, h.result = none → h.name = "__init__" ∨
    (p.1 = "melodia.io.midi" ∧ h.cls = some "MIDIWriter" ∧ h.name = "_format_header_chunk") := by
  have h1 : (allHeads.all fun p => p.2.all fun h => h.result.isSome || h.name == "__init__" ||
    (p.1 == "melodia.io.midi" && h.cls == some "MIDIWriter" && h.name == "_format_header_chunk")) = true := by kernel_rfl
  refine ⟨_, heads_eq, fun p hp h hh hr => ?_⟩
  have := List.all_eq_true.mp (List.all_eq_true.mp h1 p hp) h hh
  simpa [hr, and_assoc] using this

/-- C112 (violated): "Melodia is fully typed" (README.rst:20), but the method `_format_header_chunk` of the writer, which returns a
value, has no annotation for its result (src/melodia/io/midi.py:182). -/
theorem C112_violated : ∃ H, headsOf sourceFiles = some H ∧ ∃ p ∈ H, ∃ h ∈ p.2, ∃ f ∈ program.functions, h.Of f ∧ h.result = none ∧
    ∃ e ∈ returnedIn f.body, e ≠ .none := by
  refine ⟨_, heads_eq, ("melodia.io.midi", midiHeads), by simp [allHeads], untyped, by simp [midiHeads, untyped],
    MIDIWriter._format_header_chunk, by simp [program, Program.functions, MIDIWriter.classDef], ⟨rfl, rfl⟩, rfl, ?_⟩
  refine ⟨_, List.mem_cons_self .., ?_⟩
  simp

/-- C112 (None): a function annotated with `None` never returns a value, and one annotated with another type returns a value on every
path that does not end with an exception; only `_read_chunks` does not return but yields. -/
theorem C112_none : ∃ H, headsOf sourceFiles = some H ∧ ∀ p ∈ H, ∀ h ∈ p.2, ∀ f ∈ program.functions, f.mod = p.1 → h.Of f → ∀ t,
    h.result = some t → (t = .none → ∀ e ∈ returnedIn f.body, e = .none) ∧
      (t ≠ .none → f.name = "_read_chunks" ∨ ((∀ e ∈ returnedIn f.body, e ≠ .none) ∧ ∀ u o, Paths f.body u o → o = .ret ∨ o = .raised)) := by
  have h1 : (allHeads.all fun p => p.2.all fun h => program.functions.all fun f => !(f.mod == p.1) || !headOf h f || (match h.result with
    | none => true
    | some .none => (returnedIn f.body).all isNoneExpr
    | some _ => f.name == "_read_chunks" || (returnedIn f.body).any fun e => !isNoneExpr e)) = true := by kernel_rfl
  refine ⟨_, heads_eq, fun p hp h hh f hf hm hof t ht => ?_⟩
  have h1 := List.all_eq_true.mp (List.all_eq_true.mp (List.all_eq_true.mp h1 p hp) h hh) f hf
  rw [hm, headOf_iff.mpr hof, ht] at h1
  have hn : ∀ e : Expr, isNoneExpr e = true ↔ e = .none := by intro e; cases e <;> simp [isNoneExpr]
  constructor
  · rintro rfl e he
    have h1 : (returnedIn f.body).all isNoneExpr = true := by simpa using h1
    exact (hn e).mp (List.all_eq_true.mp h1 e he)
  · intro hne
    have h1 : f.name = "_read_chunks" ∨ ∃ e ∈ returnedIn f.body, isNoneExpr e = false := by
      cases t <;> simp_all
    rcases h1 with h1 | ⟨e, he, h1⟩
    · exact .inl h1
    · refine .inr (C106_returns f hf _ _ _ (List.mem_cons_self ..) ⟨e, he, fun h => ?_⟩)
      rw [(hn e).mpr h] at h1
      cases h1

/-- The annotations of `Tone.to_frequency` and of the nested function of the reader. -/
example : ⟨some "Tone", "to_frequency", [("self", none), ("base", some (.name "float"))], some (.name "float")⟩ ∈ toneHeads ∧
    ⟨some "MIDIReader", "read_event", [("status", some (.app "Optional" [.name "int"]))], some (.name "_Event")⟩ ∈ midiHeads := by
  simp [toneHeads, midiHeads]

/-- There are as many heads as functions, nested ones included. -/
example : (allHeads.map fun p => p.2.length).sum = 139 ∧ (program.functions.flatMap FunDef.scopes).length = 139 := by
  constructor <;> kernel_rfl

end Melodia
