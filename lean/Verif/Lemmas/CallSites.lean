/-
The calls of melodia and the default values of its functions, for Verif/Props/Calls.lean.
-/
import Verif.Lemmas.Calls
import Verif.Lemmas.Imports
import Verif.Lemmas.SourceWriterUser

set_option autoImplicit false

namespace Melodia.Source

open Melodia.Python

/-- The default values in melodia. -/
def simpleDefault (m : String) : Expr → Bool
  | .none => true
  | .bool _ => true
  | .int _ => true
  | .float _ _ => true
  | .call (.name "Signature") [.int 1, .int 4] [] => m == "melodia.core.note"
  | .call (.name "Signature") [.int 4, .int 4] [] => m == "melodia.core.track"
  | .call (.attr (.name "Tone") "from_notation") [.str "C3"] [] => m == "melodia.io.midi"
  | _ => false

/-- The calls of a function that have a known number of arguments. -/
def plainSites (f : FunDef) : List (List String × Call) := f.sites.filter fun s => plainArgs s.2.args

/-- The default values in melodia are of these forms. -/
theorem simple_defaults : ∀ f ∈ program.functions, ∀ p ∈ f.params, ∀ e, p.2 = some e → simpleDefault f.mod e = true := by
  have h : (program.functions.all fun f => f.params.all fun p => match p.2 with
    | none => true
    | some e => simpleDefault f.mod e) = true := by kernel_rfl
  intro f hf p hp e he
  have := List.all_eq_true.mp (List.all_eq_true.mp h f hf) p hp
  rw [he] at this
  exact this

/-- The calls fit, by computing all functions they can reach. -/
theorem calls_fit : ∀ f ∈ program.functions, ∀ s ∈ f.sites, s.2.plain → ∀ m ps, Reaches program loaded f s.1 s.2.callee m ps →
    Fits ps (s.2.args.length - s.2.kws.length) s.2.kws ∧ (ps.map Prod.fst).Nodup ∧
      ∀ p ∈ ps, ∀ e, p.2 = some e → simpleDefault m e = true := by
  have h : (program.functions.all fun f => (plainSites f).all fun s => (reaches program loaded f s.1 s.2.callee).all fun q =>
      decide (Fits q.2 (s.2.args.length - s.2.kws.length) s.2.kws) && decide (q.2.map Prod.fst).Nodup && q.2.all fun p => match p.2 with
        | none => true
        | some e => simpleDefault q.1 e) = true := by kernel_rfl
  intro f hf s hs hp m ps hr
  have := List.all_eq_true.mp (List.all_eq_true.mp (List.all_eq_true.mp h f hf) s
    (List.mem_filter.mpr ⟨hs, Call.plain_iff.mp hp⟩)) _ hr.mem
  simp only [Bool.and_eq_true, decide_eq_true_eq, List.all_eq_true] at this
  refine ⟨this.1.1, this.1.2, fun p hp e he => ?_⟩
  have := this.2 p hp
  rw [he] at this
  exact this

/-- The default values can be computed. -/
theorem simpleDefault_value (W : World) {m : String} {e : Expr} (h : simpleDefault m e = true) :
    ∃ v, evalE program W e { mod := m, vars := [] } = pure v := by
  unfold simpleDefault at h
  split at h
  · exact ⟨.none, by simp [py]⟩
  · rename_i b; exact ⟨.bool b, by simp [py]⟩
  · rename_i i; exact ⟨.int i, by simp [py]⟩
  · rename_i n d; exact ⟨.float (.fin ((n : Rat) / d)), by simp [py]⟩
  · obtain rfl : m = "melodia.core.note" := by simpa using h
    exact ⟨sigV ⟨1, 4⟩, by simp [py]; rfl⟩
  · obtain rfl : m = "melodia.core.track" := by simpa using h
    exact ⟨sigV ⟨4, 4⟩, by simp [py]; rfl⟩
  · obtain rfl : m = "melodia.io.midi" := by simpa using h
    exact ⟨_, c3val W⟩
  · cases h

end Melodia.Source
