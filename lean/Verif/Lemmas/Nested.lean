/-
Lemmas about `Track.add` with nested objects.
-/
import Verif.Spec.Nested
import Verif.Lemmas.TrackRaw

set_option autoImplicit false

namespace Melodia

namespace RawTrack

/-- Going through leaves one by one. -/
def addLeaves (position : Signature) : RawTrack → List Leaf → PyM Unit × RawTrack
  | t, [] => (.ok (), t)
  | t, .note n :: ls =>
    match t.addObject (some n) position with
    | (.error e, t) => (.error e, t)
    | (.ok (), t) => addLeaves position t ls
  | t, .foreign :: ls =>
    match t.addObject none position with
    | (.error e, t) => (.error e, t)
    | (.ok (), t) => addLeaves position t ls
  | t, .tooDeep :: _ => (.error .recursionError, t)

theorem addLeaves_append (p : Signature) : ∀ (a b : List Leaf) (t : RawTrack),
    addLeaves p t (a ++ b) = match addLeaves p t a with
      | (.error e, t) => (.error e, t)
      | (.ok (), t) => addLeaves p t b := by
  intro a
  induction a with
  | nil => intro b t; rfl
  | cons x a ih =>
    intro b t
    cases x with
    | note n =>
      simp only [List.cons_append, addLeaves]
      rcases t.addObject (some n) p with ⟨e | u, t'⟩
      · rfl
      · exact ih b t'
    | foreign =>
      simp only [List.cons_append, addLeaves]
      rcases t.addObject none p with ⟨e | u, t'⟩
      · rfl
      · exact ih b t'
    | tooDeep => rfl

theorem addLeaves_one (p : Signature) (t : RawTrack) (x : Option Note) (l : Leaf)
    (h : l = match x with | some n => .note n | none => .foreign) : addLeaves p t [l] = t.addObject x p := by
  subst h
  cases x with
  | some n =>
    simp only [addLeaves]
    rcases t.addObject (some n) p with ⟨e | u, t'⟩ <;> rfl
  | none =>
    simp only [addLeaves]
    rcases t.addObject none p with ⟨e | u, t'⟩ <;> rfl

/-- The nested calls do the same as going through the leaves. -/
theorem addNested_leaves (p : Signature) {limit : Nat} {o : Obj} {ls : List Leaf} (h : Reaches limit o ls) :
    ∀ t : RawTrack, addNested limit t o p = addLeaves p t ls := by
  induction h with
  | deep o => intro t; unfold addNested; rfl
  | note limit n => intro t; rw [addLeaves_one p t (some n) _ rfl]; rfl
  | foreign limit => intro t; rw [addLeaves_one p t none _ rfl]; rfl
  | nil limit => intro t; rfl
  | @cons limit x l a b hx hl ih1 ih2 =>
    intro t
    rw [addLeaves_append, ← ih1 t]
    simp only [addNested, addEach]
    rcases addNested limit t x p with ⟨e | u, t'⟩
    · rfl
    · simp only []
      rw [← ih2 t']; rfl
  | empty limit => intro t; rfl
  | @char limit c s a b hx hl ih1 ih2 =>
    intro t
    rw [addLeaves_append, ← ih1 t]
    simp only [addNested, List.map_cons, addEach]
    rcases addNested limit t (.str [c]) p with ⟨e | u, t'⟩
    · rfl
    · simp only []
      rw [← ih2 t']; rfl

/-- Notes at the front are added. -/
theorem addLeaves_notes {p : Signature} (hp : p.Valid) (rest : List Leaf) : ∀ (ns : List Note) {t : Track}, t.WF →
    (∀ n ∈ ns, n.Valid) → ∃ t' : Track, t'.WF ∧ t'.signature = t.signature ∧
      t'.contents = (ns.map (fun n => (p.val, n)) : Multiset _) + t.contents ∧
      addLeaves p t.raw (ns.map .note ++ rest) = addLeaves p t'.raw rest := by
  intro ns
  induction ns with
  | nil => intro t ht _; exact ⟨t, ht, rfl, by simp, rfl⟩
  | cons n ns ih =>
    intro t ht hv
    obtain ⟨t1, e, h1, h2, h3, -, h5, -⟩ := Track.addNote_spec ht (hv n (by simp)) hp
    obtain ⟨t', k1, k2, k3, k4⟩ := ih h2 (fun m hm => hv m (by simp [hm]))
    refine ⟨t', k1, k2.trans h3, ?_, ?_⟩
    · rw [k3, h5, List.map_cons, ← Multiset.cons_coe, Multiset.cons_add, Multiset.add_cons]
    · rw [List.map_cons, List.cons_append, addLeaves, addObject_note h1]
      exact k4

end RawTrack

/-- Something is reached. -/
theorem Reaches.total : ∀ (limit : Nat) (o : Obj), ∃ ls, Reaches limit o ls := by
  intro limit
  induction limit with
  | zero => intro o; exact ⟨_, .deep o⟩
  | succ limit ih =>
    intro o
    cases o with
    | note n => exact ⟨_, .note _ n⟩
    | foreign => exact ⟨_, .foreign _⟩
    | iter l =>
      induction l with
      | nil => exact ⟨_, .nil _⟩
      | cons x l ihl =>
        obtain ⟨a, ha⟩ := ih x
        obtain ⟨b, hb⟩ := ihl
        exact ⟨_, .cons ha hb⟩
    | str s =>
      induction s with
      | nil => exact ⟨_, .empty _⟩
      | cons c s ihs =>
        obtain ⟨a, ha⟩ := ih (.str [c])
        obtain ⟨b, hb⟩ := ihs
        exact ⟨_, .char ha hb⟩

theorem Reaches.char_deep : ∀ (limit : Nat) (c : Char), Reaches limit (.str [c]) [.tooDeep] := by
  intro limit c
  induction limit with
  | zero => exact .deep _
  | succ limit ih => exact .char (b := []) ih (.empty _)

theorem Obj.NotesOnly.reaches {depth : Nat} {o : Obj} {ns : List Note} (h : o.NotesOnly depth ns) :
    ∀ limit, depth < limit → Reaches limit o (ns.map .note) := by
  induction h with
  | note depth n =>
    intro limit hl
    obtain ⟨k, rfl⟩ := Nat.exists_eq_add_of_lt hl
    exact .note _ n
  | nil depth =>
    intro limit hl
    obtain ⟨k, rfl⟩ : ∃ k, limit = k + 1 := ⟨limit - 1, by omega⟩
    exact .nil _
  | cons hx hl ih1 ih2 =>
    intro limit hlim
    obtain ⟨k, rfl⟩ : ∃ k, limit = k + 1 := ⟨limit - 1, by omega⟩
    rw [List.map_append]
    exact .cons (ih1 k (by omega)) (ih2 (k + 1) hlim)

end Melodia
