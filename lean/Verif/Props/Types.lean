/-
C113: the results of the methods of `Signature`, `Tone` and `Note` are of the annotated types.
-/
import Verif.Lemmas.TypesCore

set_option autoImplicit false

namespace Melodia

open Melodia.Python Melodia.Source

/-- The modules with the classes `Signature`, `Tone` and `Note`. -/
def valueModules : List String := ["melodia.core.signature", "melodia.core.tone", "melodia.core.note"]

theorem valueClasses {c : ClassDef} (hc : c ∈ program.classes) (hm : c.mod ∈ valueModules) :
    c = Signature.classDef ∨ c = Tone.classDef ∨ c = Note.classDef := by
  have h : program.classes.filter (fun c => decide (c.mod ∈ valueModules)) = [Signature.classDef, Tone.classDef, Note.classDef] := by kernel_rfl
  have : c ∈ [Signature.classDef, Tone.classDef, Note.classDef] := by
    rw [← h, List.mem_filter]; exact ⟨hc, by simpa using hm⟩
  simpa using this

/-- C113 (results): a method of `Signature`, `Tone` or `Note`, applied to arguments of the annotated types, ends with a value of the annotated
type or with an exception, and leaves all objects as they are. -/
theorem C113_results (W : World) : ∃ H, headsOf sourceFiles = some H ∧ ∀ c ∈ program.classes, c.mod ∈ valueModules →
    ∀ f ∈ c.methods, f.name ≠ "__init__" → ∀ p ∈ H, p.1 = c.mod → ∀ h ∈ p.2, h.cls = some c.name → h.name = f.name → Typed W f h := by
  refine ⟨_, heads_eq, fun c hc hm f hf hn p hp hpm h hh hhc hhn => ?_⟩
  have key {q : String × List Head} (hq : q ∈ allHeads) (hqm : q.1 = c.mod) (hk : ∃ k ∈ q.2, k.cls = some c.name ∧ Typed W f k) :
      Typed W f h := by
    obtain ⟨k, hk, hkc, ht⟩ := hk
    rw [head_unique hp hq (hpm.trans hqm.symm) hh hk (hhc.trans hkc.symm) (hhn.trans ht.1.1.symm)]
    exact ht
  rcases valueClasses hc hm with rfl | rfl | rfl
  · exact key (q := ("melodia.core.signature", signatureHeads)) (by simp [allHeads]) rfl (typed_signature W f hf hn)
  · exact key (q := ("melodia.core.tone", toneHeads)) (by simp [allHeads]) rfl (typed_tone W f hf hn)
  · exact key (q := ("melodia.core.note", noteHeads)) (by simp [allHeads]) rfl (typed_note W f hf hn)

/-- `note.with_duration((3, 8))` fits the head, `note.with_duration(1)` does not. -/
example : Fits noteHeads[5] [noteV ⟨⟨60⟩, ⟨1, 4⟩, 3 / 4⟩, .tuple [.int 3, .int 8]] ∧
    ¬ Fits noteHeads[5] [noteV ⟨⟨60⟩, ⟨1, 4⟩, 3 / 4⟩, .int 1] := by
  refine ⟨⟨?_, [durationTy], rfl, ?_⟩, fun h => ?_⟩
  · rw [if_neg (by simp)]
    exact ⟨_, rfl, isNote.mpr ⟨_, ⟨⟨by decide, 2, rfl⟩, by norm_num, by norm_num⟩, rfl⟩⟩
  · simp only [HasTypes, hasDuration]
    exact ⟨_, _, rfl, .inr ⟨3, 8, rfl⟩, rfl⟩
  · obtain ⟨v, w, h1, -, h2⟩ := fits_one h
    cases h1
    rcases hasDuration.mp h2 with ⟨s, -, h⟩ | ⟨i, j, h⟩
    · simp [sigV] at h
    · cases h

/-- A signature that no constructor gives is not an instance. -/
example : ¬ HasType (.name "Signature") (sigV ⟨1, 3⟩) := by
  rw [hasSignature]
  rintro ⟨s, hs, h⟩
  simp only [sigV, Val.obj.injEq, List.cons.injEq, Prod.mk.injEq, Val.int.injEq, true_and, and_true] at h
  have := hs.den
  rw [← h.2] at this
  obtain ⟨k, hk⟩ := this
  have : k ≤ 1 := by
    by_contra h
    have : (2 : Int) ^ 2 ≤ 2 ^ k := pow_le_pow_right₀ (by norm_num) (by omega)
    omega
  interval_cases k <;> simp at hk

/-- C113 (constructors): `Signature`, `Tone` and `Note`, applied to arguments of the annotated types, give an object of the class or an
exception. -/
theorem C113_new (W : World) : ∃ H, headsOf sourceFiles = some H ∧ ∀ c ∈ program.classes, c.mod ∈ valueModules →
    ∀ p ∈ H, p.1 = c.mod → ∀ h ∈ p.2, h.cls = some c.name → h.name = "__init__" → ∀ args, FitsNew h args →
      GivesTy (.name c.name) (construct program W c.name args []) := by
  refine ⟨_, heads_eq, fun c hc hm p hp hpm h hh hhc hhn => ?_⟩
  have key {q : String × List Head} {k : Head} (hq : q ∈ allHeads) (hqm : q.1 = c.mod) (hk : k ∈ q.2) (hkc : k.cls = some c.name)
      (hkn : k.name = "__init__") : h = k := head_unique hp hq (hpm.trans hqm.symm) hh hk (hhc.trans hkc.symm) (hhn.trans hkn.symm)
  rcases valueClasses hc hm with rfl | rfl | rfl
  · rw [key (q := ("melodia.core.signature", signatureHeads)) (k := signatureHeads[0]) (by simp [allHeads]) rfl (List.getElem_mem _) rfl rfl]
    rintro args ⟨ts, h1, h2⟩
    obtain rfl : ts = [.name "int", .name "int"] := fits_types h1
    simp only [HasTypes, hasInt] at h2
    obtain ⟨_, _, rfl, ⟨n, rfl⟩, _, _, rfl, ⟨d, rfl⟩, rfl⟩ := h2
    exact sig_new_gives n d
  · rw [key (q := ("melodia.core.tone", toneHeads)) (k := toneHeads[0]) (by simp [allHeads]) rfl (List.getElem_mem _) rfl rfl]
    rintro args ⟨ts, h1, h2⟩
    obtain rfl : ts = [.name "int"] := fits_types h1
    simp only [HasTypes, hasInt] at h2
    obtain ⟨_, _, rfl, ⟨n, rfl⟩, rfl⟩ := h2
    exact tone_new_gives n
  · rw [key (q := ("melodia.core.note", noteHeads)) (k := noteHeads[0]) (by simp [allHeads]) rfl (List.getElem_mem _) rfl rfl]
    rintro args ⟨ts, h1, h2⟩
    obtain rfl : ts = [toneTy, durationTy, .name "float"] := fits_types h1
    simp only [HasTypes, hasFloat] at h2
    obtain ⟨_, _, rfl, ht, _, _, rfl, hd, _, _, rfl, ⟨y, rfl⟩, rfl⟩ := h2
    exact note_new_gives ht hd y

/-- C113 (defaults): the parameters of the methods and constructors of `Signature`, `Tone` and `Note` that can be left out have values of the
annotated types. -/
theorem C113_defaults (W : World) : ∃ H, headsOf sourceFiles = some H ∧ ∀ c ∈ program.classes, c.mod ∈ valueModules →
    ∀ f ∈ c.methods, ∀ p ∈ H, p.1 = c.mod → ∀ h ∈ p.2, h.cls = some c.name → h.name = f.name → TypedDefaults W f h := by
  refine ⟨_, heads_eq, fun c hc hm f hf p hp hpm h hh hhc hhn => ?_⟩
  have key {q : String × List Head} {k : Head} (hq : q ∈ allHeads) (hqm : q.1 = c.mod) (hk : k ∈ q.2) (hkc : k.cls = some c.name)
      (hkn : k.name = f.name) : h = k := head_unique hp hq (hpm.trans hqm.symm) hh hk (hhc.trans hkc.symm) (hhn.trans hkn.symm)
  have none (hd : (f.params.all fun q => q.2.isNone) = true) : TypedDefaults W f h := fun i x e he => by
    have := List.all_eq_true.mp hd (x, some e) (List.mem_of_getElem? he)
    cases this
  rcases valueClasses hc hm with rfl | rfl | rfl
  · exact none (List.all_eq_true.mp (show (Signature.classDef.methods.all fun f => f.params.all fun q => q.2.isNone) = true by kernel_rfl) f hf)
  · by_cases h1 : (f.params.all fun q => q.2.isNone) = true
    · exact none h1
    have : f ∈ Tone.classDef.methods.filter fun f => !f.params.all fun q => q.2.isNone := List.mem_filter.mpr ⟨hf, by simpa using h1⟩
    rw [show (Tone.classDef.methods.filter fun f => !f.params.all fun q => q.2.isNone) = [Tone.to_notation, Tone.to_frequency] by kernel_rfl] at this
    simp only [List.mem_cons, List.not_mem_nil, or_false] at this
    rcases this with rfl | rfl
    · rw [key (q := ("melodia.core.tone", toneHeads)) (k := toneHeads[4]) (by simp [allHeads]) rfl (List.getElem_mem _) rfl rfl]
      intro i x e he
      rcases i with _ | _ | i
      · cases he
      · cases he; exact ⟨_, .bool false, rfl, by simp [py], hasBool.mpr ⟨_, rfl⟩⟩
      · cases he
    · rw [key (q := ("melodia.core.tone", toneHeads)) (k := toneHeads[5]) (by simp [allHeads]) rfl (List.getElem_mem _) rfl rfl]
      intro i x e he
      rcases i with _ | _ | i
      · cases he
      · cases he; exact ⟨_, _, rfl, by simp only [py]; rfl, hasFloat.mpr ⟨_, rfl⟩⟩
      · cases he
  · by_cases h1 : (f.params.all fun q => q.2.isNone) = true
    · exact none h1
    have : f ∈ Note.classDef.methods.filter fun f => !f.params.all fun q => q.2.isNone := List.mem_filter.mpr ⟨hf, by simpa using h1⟩
    rw [show (Note.classDef.methods.filter fun f => !f.params.all fun q => q.2.isNone) = [Note.dunder_init] by kernel_rfl] at this
    simp only [List.mem_cons, List.not_mem_nil, or_false] at this
    subst this
    rw [key (q := ("melodia.core.note", noteHeads)) (k := noteHeads[0]) (by simp [allHeads]) rfl (List.getElem_mem _) rfl rfl]
    intro i x e he
    rcases i with _ | _ | _ | _ | i
    · cases he
    · cases he
    · cases he
      have h : Melodia.Signature.new 1 4 = .ok ⟨1, 4⟩ := by decide
      exact ⟨durationTy, sigV ⟨1, 4⟩, rfl, by simp [py, Note.dunder_init, h, Except.map], hasDuration.mpr (.inl ⟨_, new_valid h, rfl⟩)⟩
    · cases he; exact ⟨_, _, rfl, by simp only [py]; rfl, hasFloat.mpr ⟨_, rfl⟩⟩
    · cases he

end Melodia
