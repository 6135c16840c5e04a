/-
C104: importing melodia.
-/
import Verif.Lemmas.Imports
import Verif.Source.Program

set_option autoImplicit false

namespace Melodia

open Melodia.Python Melodia.Source

/-- The names of the modules. -/
def moduleNames : List String := sourceFiles.map Prod.fst

theorem import_first : ∀ m ∈ moduleNames, importModule files 1000 [] m = .ok loaded := by
  unfold moduleNames sourceFiles
  simp only [List.map_cons, List.map_nil, List.forall_mem_cons]
  refine ⟨?_, ?_, ?_, ?_, ?_, ?_, ?_, ?_, ?_, ?_, ?_, ?_, by simp⟩ <;> kernel_rfl

theorem import_again : ∀ m ∈ moduleNames, importModule files 1000 loaded m = .ok loaded := by
  unfold moduleNames sourceFiles
  simp only [List.map_cons, List.map_nil, List.forall_mem_cons]
  refine ⟨?_, ?_, ?_, ?_, ?_, ?_, ?_, ?_, ?_, ?_, ?_, ?_, by simp⟩ <;> kernel_rfl

theorem importAll_again : ∀ l : List String, (∀ m ∈ l, m ∈ moduleNames) → importAll files loaded l = .ok loaded := by
  intro l h
  induction l with
  | nil => rfl
  | cons m l ih =>
    rw [importAll, import_again m (h m (by simp))]
    exact ih fun x hx => h x (by simp [hx])

theorem importAll_first : ∀ l : List String, (∀ m ∈ l, m ∈ moduleNames) →
    importAll files [] l = .ok (if l = [] then [] else loaded) := by
  intro l h
  cases l with
  | nil => rfl
  | cons m l =>
    rw [importAll, import_first m (h m (by simp))]
    simpa using importAll_again l fun x hx => h x (by simp [hx])

theorem chords_offered : ∀ g ∈ generatorChords, ∀ x ∈ g.names,
    Dict.get namesMelodiaMusicChord (String.ofList x) = some (.defined "melodia.music.chord" (String.ofList x)) := by
  decide +kernel

theorem offered_loaded {m x : String} {b : Bound} (h : Offered m x b) : m ∈ moduleNames ∧ Dict.get (Loaded.names loaded m) x = some b := by
  cases h with
  | package x h =>
    refine ⟨by decide +kernel, ?_⟩
    simp only [List.mem_cons, List.not_mem_nil, or_false] at h
    rcases h with rfl | rfl | rfl | rfl <;> decide +kernel
  | core x m h =>
    refine ⟨by decide +kernel, ?_⟩
    simp only [List.mem_cons, List.not_mem_nil, or_false, Prod.mk.injEq] at h
    rcases h with ⟨rfl, rfl⟩ | ⟨rfl, rfl⟩ | ⟨rfl, rfl⟩ | ⟨rfl, rfl⟩ <;> decide +kernel
  | midi => decide +kernel
  | chord => decide +kernel
  | track => decide +kernel
  | chords g x hg hx =>
    refine ⟨by decide +kernel, ?_⟩
    rw [show Loaded.names loaded "melodia.music.chord" = namesMelodiaMusicChord by decide +kernel]
    exact chords_offered g hg x hx
  | io x h =>
    refine ⟨by decide +kernel, ?_⟩
    simp only [List.mem_cons, List.not_mem_nil, or_false] at h
    rcases h with rfl | rfl | rfl | rfl | rfl | rfl | rfl | rfl <;> decide +kernel
  | velocities => decide +kernel

/-- C104: every sequence of imports of modules of melodia, in any order and with repetitions, succeeds; after the first all modules
have been executed, each exactly once, and nothing changes any more. Every name melodia offers can be imported at any point and stands
for the same function, class or module. -/
theorem C104_imports : ∃ F L, filesOf sourceFiles = some F ∧ (L.map Prod.fst).Perm moduleNames ∧ moduleNames.Nodup ∧
    ∀ l : List String, (∀ m ∈ l, m ∈ moduleNames) →
      importAll F [] l = .ok (if l = [] then [] else L) ∧
      ∀ m x b, Offered m x b → ∃ L', importAll F [] l = .ok L' ∧ importName F 1001 L' m x = .ok (b, L) := by
  refine ⟨files, loaded, files_eq, by decide +kernel, by decide +kernel, fun l hl => ⟨importAll_first l hl, fun m x b h => ?_⟩⟩
  refine ⟨_, importAll_first l hl, ?_⟩
  obtain ⟨hm, hx⟩ := offered_loaded h
  have hi : importModule files 1000 (if l = [] then [] else loaded) m = .ok loaded := by
    split
    · exact import_first m hm
    · exact import_again m hm
  have hf : ∃ p, Dict.get files m = some p := by
    have : ∀ m ∈ moduleNames, (Dict.get files m).isSome := by decide +kernel
    exact Option.isSome_iff_exists.mp (this m hm)
  obtain ⟨⟨p, steps⟩, hf⟩ := hf
  rw [importName, hi]
  simp only [hf, hx]

theorem exports_eq : program.modules.filterMap (fun d => d.exports.map fun l => (d.name, l)) = [
    ("melodia.core", ["Tone", "Signature", "Note", "Track"]), ("melodia.io", ["midi"]), ("melodia.music", ["chord"]),
    ("melodia.processing", ["track"]), ("melodia", ["core", "io", "music", "processing"])] := by kernel_rfl

/-- C104 (`import *`): the `__all__` of each package lists exactly the names it offers. -/
theorem C104_star : ∀ d ∈ program.modules, ∀ l, d.exports = some l → ∀ x, x ∈ l ↔ ∃ b, Offered d.name x b := by
  intro d hd l hl x
  have h : (d.name, l) ∈ program.modules.filterMap (fun d => d.exports.map fun l => (d.name, l)) :=
    List.mem_filterMap.mpr ⟨d, hd, by rw [hl]; rfl⟩
  rw [exports_eq] at h
  simp only [List.mem_cons, List.not_mem_nil, or_false, Prod.mk.injEq] at h
  constructor
  · intro hx
    rcases h with ⟨e, rfl⟩ | ⟨e, rfl⟩ | ⟨e, rfl⟩ | ⟨e, rfl⟩ | ⟨e, rfl⟩ <;> rw [e] <;>
      simp only [List.mem_cons, List.not_mem_nil, or_false] at hx
    · rcases hx with rfl | rfl | rfl | rfl
      · exact ⟨_, .core _ "tone" (by simp)⟩
      · exact ⟨_, .core _ "signature" (by simp)⟩
      · exact ⟨_, .core _ "note" (by simp)⟩
      · exact ⟨_, .core _ "track" (by simp)⟩
    · exact hx ▸ ⟨_, .midi⟩
    · exact hx ▸ ⟨_, .chord⟩
    · exact hx ▸ ⟨_, .track⟩
    · exact ⟨_, .package x (by simpa using hx)⟩
  · rintro ⟨b, ho⟩
    generalize d.name = m at *
    cases ho <;> simp only [String.reduceEq, false_and, true_and, false_or, or_false] at h <;> subst h
    · assumption
    · rename_i m h
      simp only [List.mem_cons, List.not_mem_nil, or_false, Prod.mk.injEq] at h
      rcases h with ⟨rfl, rfl⟩ | ⟨rfl, rfl⟩ | ⟨rfl, rfl⟩ | ⟨rfl, rfl⟩ <;> simp
    · simp
    · simp
    · simp

/-- The packages do have `__all__`. -/
example : program.modules.filterMap (fun d => d.exports.map fun _ => d.name) =
    ["melodia.core", "melodia.io", "melodia.music", "melodia.processing", "melodia"] := by kernel_rfl

/-- C104 (names): every name a function or method uses is a parameter, or bound in the function, or bound in its module after any import,
or built in; every attribute it takes from a module is there, and every attribute it takes from a class is a method of the class. -/
theorem C104_names : ∃ F L, filesOf sourceFiles = some F ∧ (∀ m ∈ moduleNames, importModule F 1000 [] m = .ok L) ∧
    ∀ f ∈ program.functions, (∀ x ∈ f.needs, L.has f.mod x) ∧
      ∀ y x, (y, x) ∈ blockAttrs f.body → y ∈ f.needs →
        (∀ p, Dict.get (L.names f.mod) y = some (.module p) →
          (∃ l, Dict.get stdlib p = some l ∧ x ∈ l) ∨ (Dict.get (L.names p) x).isSome) ∧
        ∀ m c, Dict.get (L.names f.mod) y = some (.defined m c) → (program.method c x).isSome := by
  refine ⟨files, loaded, files_eq, import_first, fun f hf => ⟨fun x hx => ?_, fun y x hyx hy => ⟨fun p hp => ?_, fun m c hc => ?_⟩⟩⟩
  · have h : (program.functions.all fun f => f.needs.all (Loaded.has loaded f.mod)) = true := by kernel_rfl
    exact List.all_eq_true.mp (List.all_eq_true.mp h f hf) x hx
  · have h : (program.functions.all fun f => (blockAttrs f.body).all fun a => match Dict.get (Loaded.names loaded f.mod) a.1 with
      | some (.module p) => ((Dict.get stdlib p).getD []).contains a.2 || (Dict.get (Loaded.names loaded p) a.2).isSome
      | _ => true) = true := by kernel_rfl
    have := List.all_eq_true.mp (List.all_eq_true.mp h f hf) (y, x) hyx
    rw [hp] at this
    simp only [Bool.or_eq_true] at this
    refine this.imp (fun h => ?_) id
    cases hs : Dict.get stdlib p with
    | none => rw [hs] at h; simp at h
    | some l => rw [hs] at h; exact ⟨l, rfl, by simpa using h⟩
  · have h : (program.functions.all fun f => (blockAttrs f.body).all fun a => match Dict.get (Loaded.names loaded f.mod) a.1 with
      | some (.defined _ c) => !f.needs.contains a.1 || (program.method c a.2).isSome
      | _ => true) = true := by kernel_rfl
    have := List.all_eq_true.mp (List.all_eq_true.mp h f hf) (y, x) hyx
    rw [hc] at this
    simpa [hy] using this

/-- C104 (attributes): every attribute a method takes from its object is a slot, a field or a method of the class, or `__class__`,
which every object has. -/
theorem C104_attributes : ∀ c ∈ program.classes, ∀ f ∈ c.methods, ∀ self d ps, f.params = (self, d) :: ps → f.deco ≠ .staticmethod →
    ∀ x, (self, x) ∈ blockAttrs f.body → x ∈ c.slots.getD [] ∨ x ∈ c.fields ∨ (∃ g ∈ c.methods, g.name = x) ∨ x = "__class__" := by
  have h : (program.classes.all fun c => c.methods.all fun f => match f.params with
    | (self, _) :: _ => f.deco == .staticmethod || (blockAttrs f.body).all fun a => a.1 != self || (c.slots.getD []).contains a.2 ||
        c.fields.contains a.2 || (c.methods.any fun g => g.name == a.2) || a.2 == "__class__"
    | [] => true) = true := by kernel_rfl
  intro c hc f hf self d ps hp hd x hx
  have h := List.all_eq_true.mp (List.all_eq_true.mp h c hc) f hf
  rw [hp] at h
  simp only [Bool.or_eq_true, beq_iff_eq, hd, false_or] at h
  have := List.all_eq_true.mp h (self, x) hx
  simp only [Bool.or_eq_true, bne_iff_ne, ne_eq, not_true_eq_false, false_or, List.contains_iff_mem, List.any_eq_true, beq_iff_eq,
    or_assoc] at this
  exact this

/-- Two modules that need each other's names: importing one of them fails. -/
example : importModule [("a", false, [.take "b" "x", .define [] "y"]), ("b", false, [.take "a" "y", .define [] "x"])] 1000 [] "a" =
    .error (.noName "a" "y") := by kernel_rfl

/-- A class named in its own annotation without quotation marks: importing the module fails. -/
example : moduleSteps "m" false ["class A:", "    def f(self) -> A:", "        return self"] = some [.define ["A"] "A"] ∧
    importModule [("m", false, [.define ["A"] "A"])] 1000 [] "m" = .error (.unbound "m" "A") := by
  constructor <;> kernel_rfl

/-- `from melodia.core import Track` first of all. -/
example : importName files 1001 [] "melodia.core" "Track" = .ok (.defined "melodia.core.track" "Track", loaded) := by kernel_rfl

end Melodia
