/-
CPython's sort of short lists satisfies `ListSort.Natural`.
-/
import Verif.Lemmas.CPySort
import Verif.Spec.Source

set_option autoImplicit false

namespace Melodia

variable {α β : Type} {lt : α → α → Bool} {lt' : β → β → Bool} {f : α → β}

theorem descRun_map (p : α) (l : List α) (h : ∀ a ∈ p :: l, ∀ b ∈ p :: l, lt' (f a) (f b) = lt a b) :
    descRun lt' (f p) (l.map f) = ((descRun lt p l).1.map f, (descRun lt p l).2.map f) := by
  induction l generalizing p with
  | nil => rfl
  | cons x l ih =>
    have hx := ih x (fun a ha b hb => h a (List.mem_cons_of_mem _ ha) b (List.mem_cons_of_mem _ hb))
    simp only [List.map_cons, descRun]
    rw [h x (by simp) p (by simp), hx]
    cases lt x p <;> simp

theorem ascRun_map (p : α) (l : List α) (h : ∀ a ∈ p :: l, ∀ b ∈ p :: l, lt' (f a) (f b) = lt a b) :
    ascRun lt' (f p) (l.map f) = ((ascRun lt p l).1.map f, (ascRun lt p l).2.map f) := by
  induction l generalizing p with
  | nil => rfl
  | cons x l ih =>
    have hx := ih x (fun a ha b hb => h a (List.mem_cons_of_mem _ ha) b (List.mem_cons_of_mem _ hb))
    simp only [List.map_cons, ascRun]
    rw [h x (by simp) p (by simp), hx]
    cases lt x p <;> simp

theorem initialRun_map (l : List α) (h : ∀ a ∈ l, ∀ b ∈ l, lt' (f a) (f b) = lt a b) :
    initialRun lt' (l.map f) = ((initialRun lt l).1.map f, (initialRun lt l).2.map f) := by
  rcases l with _ | ⟨a, _ | ⟨b, l⟩⟩
  · rfl
  · rfl
  · have h' : ∀ x ∈ b :: l, ∀ y ∈ b :: l, lt' (f x) (f y) = lt x y := fun x hx y hy =>
      h x (List.mem_cons_of_mem _ hx) y (List.mem_cons_of_mem _ hy)
    simp only [List.map_cons, initialRun]
    rw [h b (by simp) a (by simp), descRun_map b l h', ascRun_map b l h']
    cases lt b a <;> simp

theorem bisect_map (x : α) (l : List α) (h : ∀ a ∈ l, lt' (f x) (f a) = lt x a) (n lo hi : Nat) :
    bisect lt' (f x) (l.map f) n lo hi = bisect lt x l n lo hi := by
  induction n generalizing lo hi with
  | zero => rfl
  | succ n ih =>
    simp only [bisect, List.getElem?_map]
    by_cases hlt : lo < hi
    · rw [if_pos hlt, if_pos hlt]
      cases hy : l[(lo + hi) / 2]? with
      | none => rfl
      | some y => simp only [Option.map_some]; rw [h y (List.mem_of_getElem? hy), ih, ih]
    · rw [if_neg hlt, if_neg hlt]

theorem binInsert_map (x : α) (l : List α) (h : ∀ a ∈ l, lt' (f x) (f a) = lt x a) :
    binInsert lt' (l.map f) (f x) = (binInsert lt l x).map f := by
  simp only [binInsert, List.length_map, bisect_map x l h, List.map_append, List.map_take, List.map_cons, List.map_drop]

theorem foldl_binInsert_map (r acc : List α) (h : ∀ a ∈ r ++ acc, ∀ b ∈ r ++ acc, lt' (f a) (f b) = lt a b) :
    (r.map f).foldl (binInsert lt') (acc.map f) = (r.foldl (binInsert lt) acc).map f := by
  induction r generalizing acc with
  | nil => rfl
  | cons x r ih =>
    simp only [List.map_cons, List.foldl_cons]
    rw [binInsert_map x acc (fun a ha => h x (by simp) a (by simp [ha]))]
    refine ih _ (fun a ha b hb => ?_)
    have hmem : ∀ y ∈ r ++ binInsert lt acc x, y ∈ x :: r ++ acc := by
      intro y hy
      rcases List.mem_append.mp hy with hy | hy
      · simp [hy]
      · rcases List.mem_cons.mp ((binInsert_perm lt acc x).mem_iff.mp hy) with rfl | hy <;> simp [*]
    exact h a (hmem a ha) b (hmem b hb)

theorem cpySort_natural : cpySort.Natural := by
  intro α β lt lt' f l h
  change cpySortFn lt' (l.map f) = (cpySortFn lt l).map f
  rw [cpySortFn, cpySortFn, initialRun_map l h]
  refine foldl_binInsert_map _ _ (fun a ha b hb => ?_)
  have hp := (initialRun_perm lt l)
  have hm : ∀ y ∈ (initialRun lt l).2 ++ (initialRun lt l).1, y ∈ l := fun y hy =>
    hp.mem_iff.mp (by simpa [or_comm] using hy)
  exact h a (hm a ha) b (hm b hb)

end Melodia
