/-
C108: objects do not change behind the back of their users. C109: objects in sets and dictionaries.
-/
import Verif.Spec.ObjectModel
import Verif.Source.Program
import Verif.Python.KernelRfl

set_option autoImplicit false

namespace Melodia

open Melodia.Python Melodia.Source

theorem slots_private : (program.classes.all fun c => match c.slots with
    | some l => c.bases.isEmpty && l.all fun a => !isPublic a
    | none => true) = true := by kernel_rfl

/-- C108 (from outside): assigning to or deleting a public attribute of an object of melodia raises AttributeError, whatever the name,
for all classes with `__slots__`. -/
theorem C108_outside (c : ClassDef) (hc : c ∈ program.classes) (hs : c.slots.isSome) (a : String) (ha : isPublic a = true) :
    setAttr c a = some .attributeError := by
  have h := List.all_eq_true.mp slots_private c hc
  obtain ⟨l, hl⟩ := Option.isSome_iff_exists.mp hs
  rw [hl] at h
  simp only [Bool.and_eq_true, List.isEmpty_iff, List.all_eq_true, Bool.not_eq_true'] at h
  simp only [setAttr, hl, h.1, ha]
  have : l.contains a = false := by
    rw [List.contains_eq_mem, decide_eq_false_iff_not]
    intro hm
    rw [h.2 a hm] at ha
    exact absurd ha (by simp)
  simp only [this, Bool.false_eq_true, if_false, ite_self]

/-- The classes with `__slots__`. -/
theorem C108_classes : (program.classes.filter fun c => c.slots.isSome).map ClassDef.name =
    ["Signature", "Tone", "Note", "Track", "_Reader", "MIDIWriter", "MIDIReader"] := by kernel_rfl

/-- C108 (from inside): after its constructor no method of a signature, tone, note, writer or reader assigns to an attribute of any
object; the methods of a track assign to four private attributes, not to its signature, those of the byte reader to its position. -/
theorem C108_inside : ∀ c ∈ program.classes, ∀ a ∈ laterStores c,
    (c.name = "Track" ∧ a ∈ ["_max_denominator", "_heap", "_sorted", "_max_position"]) ∨ (c.name = "_Reader" ∧ a = "_idx") := by
  have h : (program.classes.all fun c => (laterStores c).all fun a =>
    (c.name == "Track" && ["_max_denominator", "_heap", "_sorted", "_max_position"].contains a) || (c.name == "_Reader" && a == "_idx")) = true := by kernel_rfl
  intro c hc a ha
  have := List.all_eq_true.mp (List.all_eq_true.mp h c hc) a ha
  simpa using this

/-- C108: functions that are no methods assign to no attribute. -/
theorem C108_functions : ∀ m ∈ program.modules, storesIn m.init = [] ∧
    ∀ x f, (x, Global.func f) ∈ m.names → storesIn f.body = [] := by
  have h : (program.modules.all fun m => (storesIn m.init).isEmpty && m.names.all fun g => match g.2 with
    | .func f => (storesIn f.body).isEmpty
    | _ => true) = true := by kernel_rfl
  intro m hm
  have := List.all_eq_true.mp h m hm
  simp only [Bool.and_eq_true, List.isEmpty_iff, List.all_eq_true] at this
  exact ⟨this.1, fun x f hf => by have := this.2 _ hf; simpa using this⟩

/-- Whether an expression is a given name. -/
def isNameExpr (x : String) : Expr → Bool
  | .name y => y == x
  | _ => false

/-- C108 (constructors): a constructor only assigns to attributes of the object it makes: of its first parameter, which it does not
assign to itself. -/
theorem C108_constructors : ∀ c ∈ program.classes, ∀ f ∈ c.methods, f.name = "__init__" →
    ∃ self d ps, f.params = (self, d) :: ps ∧ self ∉ bindsOf f.body ∧ ∀ e ∈ ownersIn f.body, e = .name self := by
  have h : (program.classes.all fun c => c.methods.all fun f => f.name != "__init__" || match f.params with
    | (self, _) :: _ => !(bindsOf f.body).contains self && (ownersIn f.body).all (isNameExpr self)
    | [] => false) = true := by kernel_rfl
  intro c hc f hf hn
  have h := List.all_eq_true.mp (List.all_eq_true.mp h c hc) f hf
  simp only [hn, bne_self_eq_false, Bool.false_or] at h
  cases hp : f.params with
  | nil => rw [hp] at h; simp at h
  | cons p ps =>
    rw [hp] at h
    simp only [Bool.and_eq_true, Bool.not_eq_true', List.all_eq_true] at h
    refine ⟨p.1, p.2, ps, rfl, by simpa using h.1, fun e he => ?_⟩
    have := h.2 e he
    cases e <;> simp [isNameExpr] at this
    rw [this]

/-- C108 (no other way): no function or method uses a built-in function that reaches attributes by their name, and the only attributes
with two underscores in front that occur are `__class__` and `__name__`, so that no constructor is called again on an object that exists and no
`__setattr__`, `__dict__` or `__delattr__` is used. -/
theorem C108_direct : ∀ f ∈ program.functions, (∀ x ∈ stmtNames f.body, x ∉ reflectiveNames) ∧
    ∀ a ∈ attrNamesIn f.body, a.toList.take 2 = ['_', '_'] → a = "__class__" ∨ a = "__name__" := by
  have h : (program.functions.all fun f => (stmtNames f.body).all (fun x => !reflectiveNames.contains x) &&
    (attrNamesIn f.body).all fun a => (a == "__class__" || a == "__name__") || !(a.toList.take 2 == ['_', '_'])) = true := by kernel_rfl
  intro f hf
  have h := List.all_eq_true.mp h f hf
  simp only [Bool.and_eq_true, List.all_eq_true, Bool.or_eq_true, Bool.not_eq_true', beq_iff_eq, beq_eq_false_iff_ne] at h
  refine ⟨fun x hx => by simpa using h.1 x hx, fun a ha hu => ?_⟩
  exact (h.2 a ha).resolve_right fun hn => hn hu

/-- A class with a public slot can be changed. -/
example : setAttr { name := "A", mod := "m", slots := some ["x"] } "x" = some .stored := by kernel_rfl

/-- C109 refuted: `hash` raises TypeError on every tone, signature, note and track, so none of them can be in a set or be the key of a
dictionary. -/
theorem C109_violated : ∀ c ∈ program.classes, c.name ∈ ["Tone", "Signature", "Note", "Track"] → hashOf c = some .typeError := by
  have h : (program.classes.all fun c => !["Tone", "Signature", "Note", "Track"].contains c.name ||
    decide (hashOf c = some .typeError)) = true := by kernel_rfl
  intro c hc hn
  have := List.all_eq_true.mp h c hc
  simpa [hn] using this

/-- C109, what holds: the other classes without bases and fields compare by identity and have a hash. Missing: the classes above. -/
theorem C109_hash_partial : ∀ c ∈ program.classes, c.name ∈ ["_Reader", "MIDIWriter", "MIDIReader"] → hashOf c = some .number := by
  have h : (program.classes.all fun c => !["_Reader", "MIDIWriter", "MIDIReader"].contains c.name ||
    decide (hashOf c = some .number)) = true := by kernel_rfl
  intro c hc hn
  have := List.all_eq_true.mp h c hc
  simpa [hn] using this

/-- The classes concerned are in the program. -/
example : ∀ x ∈ ["Tone", "Signature", "Note", "Track", "_Reader", "MIDIWriter", "MIDIReader"],
    x ∈ program.classes.map ClassDef.name := by decide +kernel

end Melodia
