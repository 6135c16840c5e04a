/-
C111: the calls in melodia fit the functions they call.
-/
import Verif.Lemmas.CallSites
import Verif.Props.Imports

set_option autoImplicit false

namespace Melodia

open Melodia.Python Melodia.Source

/-- C111 (calls): every call in melodia whose number of arguments is written in it fits every function of melodia it can reach, whichever
class the object of a method call belongs to: there are not too many arguments, every keyword is a parameter, none is given twice, and
none that has no default value is missing. -/
theorem C111_calls : ∃ F L, filesOf sourceFiles = some F ∧ (∀ m ∈ moduleNames, importModule F 1000 [] m = .ok L) ∧
    ∀ f ∈ program.functions, ∀ s ∈ f.sites, s.2.plain → ∀ m ps, Reaches program L f s.1 s.2.callee m ps →
      Fits ps (s.2.args.length - s.2.kws.length) s.2.kws :=
  ⟨files, loaded, files_eq, import_first, fun f hf s hs hp m ps hr => (calls_fit f hf s hs hp m ps hr).1⟩

/-- C111 (binding): for any parameters with different names whose default values can be computed, and any arguments, binding gives every
parameter its value if the arguments fit, and raises TypeError otherwise. -/
theorem C111_binding (P : Program) (W : World) (env : Env) (ps : Params) (hn : (ps.map Prod.fst).Nodup)
    (hd : ∀ p ∈ ps, ∀ e, p.2 = some e → ∃ v, evalE P W e env = pure v) (args : List Val) (kws : List (String × Val)) :
    (Fits ps args.length (kws.map Prod.fst) → ∃ vs, bindParams P W ps args kws env = pure vs ∧ BoundTo P W env ps args kws vs) ∧
    (¬ Fits ps args.length (kws.map Prod.fst) → bindParams P W ps args kws env = raise .typeError) :=
  bind_fits P W env ps hn hd args kws

/-- C111 (no TypeError): whatever the values of the arguments are, binding the arguments of a call in melodia to the parameters of a
function of melodia succeeds. -/
theorem C111_bound : ∃ F L, filesOf sourceFiles = some F ∧ (∀ m ∈ moduleNames, importModule F 1000 [] m = .ok L) ∧
    ∀ f ∈ program.functions, ∀ s ∈ f.sites, s.2.plain → ∀ m ps, Reaches program L f s.1 s.2.callee m ps →
      ∀ (W : World) (args : List Val) (kws : List (String × Val)), args.length + kws.length = s.2.args.length →
        kws.map Prod.fst = s.2.kws →
        ∃ vs, bindParams program W ps args kws { mod := m, vars := [] } = pure vs ∧
          BoundTo program W { mod := m, vars := [] } ps args kws vs := by
  refine ⟨files, loaded, files_eq, import_first, fun f hf s hs hp m ps hr W args kws h1 h2 => ?_⟩
  obtain ⟨g1, g2, g3⟩ := calls_fit f hf s hs hp m ps hr
  refine (bind_fits program W _ ps g2 (fun p hp e he => simpleDefault_value W (g3 p hp e he)) args kws).1 ?_
  have : kws.length = s.2.kws.length := by rw [← h2, List.length_map]
  rw [h2, show args.length = s.2.args.length - s.2.kws.length by omega]
  exact g1

/-- C111 (users): the parameters of a function or method of melodia have different names and default values that can be computed, so
that `C111_binding` says for every call from outside whether it is a TypeError. -/
theorem C111_parameters (W : World) : ∀ f ∈ program.functions, (f.params.map Prod.fst).Nodup ∧
    ∀ p ∈ f.params, ∀ e, p.2 = some e → ∃ v, evalE program W e { mod := f.mod, vars := [] } = pure v := by
  have h : (program.functions.all fun f => decide (f.params.map Prod.fst).Nodup) = true := by kernel_rfl
  exact fun f hf => ⟨by simpa using List.all_eq_true.mp h f hf, fun p hp e he => simpleDefault_value W (simple_defaults f hf p hp e he)⟩

/-- C111 (properties): no property of a class of melodia is called like a method. -/
theorem C111_properties : ∀ f ∈ program.functions, ∀ s ∈ f.sites, ∀ e a, s.2.callee = .attr e a →
    ∀ c ∈ program.classes, ∀ g ∈ c.methods, g.name = a → g.deco ≠ .property := by
  have h : (program.functions.all fun f => f.sites.all fun s => match s.2.callee with
    | .attr _ a => program.classes.all fun c => c.methods.all fun g => g.name != a || g.deco != .property
    | _ => true) = true := by kernel_rfl
  intro f hf s hs e a he c hc g hg hga
  have := List.all_eq_true.mp (List.all_eq_true.mp h f hf) s hs
  rw [he] at this
  have := List.all_eq_true.mp (List.all_eq_true.mp this c hc) g hg
  simpa [hga] using this

/-- `self.add(what=x, where=position)` in `Track.add` (src/melodia/core/track.py:97) reaches `Track.add` without `self`; there are other
arguments that do not fit. -/
example : Reaches program loaded Source.Track.add Source.Track.add.locals (.attr (.name "self") "add") "melodia.core.track"
    Source.Track.add.params.tail := by
  refine .bound (c := Source.Track.classDef) (g := Source.Track.add) ?_ (by simp [program]) (by simp [Source.Track.classDef]) rfl
  rintro ⟨x, hx, h⟩
  cases hx
  rcases h with ⟨p, h, -⟩ | ⟨_, _, h, -⟩ <;> exact h (by decide +kernel)
example : Fits Source.Track.add.params.tail 0 ["what", "where"] ∧ Fits Source.Track.add.params.tail 1 [] ∧
    ¬ Fits Source.Track.add.params.tail 1 ["what"] ∧ ¬ Fits Source.Track.add.params.tail 0 ["where"] ∧
    ¬ Fits Source.Track.add.params.tail 3 [] ∧ ¬ Fits Source.Track.add.params.tail 1 ["position"] := by decide +kernel

/-- `add(where=None)` on a track raises TypeError. -/
example (W : World) : bindParams program W Source.Track.add.params.tail [] [("where", .none)] { mod := "melodia.core.track", vars := [] } =
    raise .typeError :=
  (C111_binding program W _ Source.Track.add.params.tail (by decide +kernel)
    (fun p hp e he => (C111_parameters W _ (by simp [program, Program.functions, Source.Track.classDef])).2 p (List.mem_of_mem_tail hp) e he) [] _).2
    (by decide +kernel)

/-- Of the 708 calls in melodia whose number of arguments is written in them, this many reach a function of melodia. -/
example : ((program.functions.map fun f => ((plainSites f).filter fun s => !(reaches program loaded f s.1 s.2.callee).isEmpty).length).sum,
    (program.functions.map fun f => (plainSites f).length).sum) = (537, 708) := by kernel_rfl

end Melodia
