/-
Lemmas about the reference stable sort with an integer key.
-/
import Verif.Model.Py
import Verif.Lemmas.CPySort
import Mathlib.Data.List.Induction
import Mathlib.Data.List.Nodup
import Mathlib.Data.List.Sort
import Mathlib.Data.Fintype.Basic
import Mathlib.Logic.Equiv.Defs

set_option autoImplicit false

namespace Melodia

variable {α β : Type}

/-- Compare by key. -/
def ltKey (key : α → Int) (a b : α) : Bool := decide (key a < key b)

theorem stableSort_append (lt : α → α → Bool) (l : List α) (x : α) :
    stableSort lt (l ++ [x]) = insertBy lt x (stableSort lt l) := by
  unfold stableSort; rw [List.foldl_append]; rfl

theorem insertBy_map (lt : β → β → Bool) (f : α → β) (x : α) (l : List α) :
    insertBy lt (f x) (l.map f) = (insertBy (fun a b => lt (f a) (f b)) x l).map f := by
  induction l with
  | nil => rfl
  | cons y l ih =>
    rw [List.map_cons, insertBy, insertBy, ih]
    split <;> rfl

theorem stableSort_map (lt : β → β → Bool) (f : α → β) (l : List α) :
    stableSort lt (l.map f) = (stableSort (fun a b => lt (f a) (f b)) l).map f := by
  induction l using List.reverseRecOn with
  | nil => rfl
  | append_singleton l x ih =>
    rw [List.map_append, List.map_cons, List.map_nil, stableSort_append, stableSort_append, ih, insertBy_map]

theorem stableSort_perm (lt : α → α → Bool) (l : List α) : (stableSort lt l).Perm l := by
  induction l using List.reverseRecOn with
  | nil => exact List.Perm.refl _
  | append_singleton l x ih =>
    rw [stableSort_append]
    exact (insertBy_perm lt x _).trans ((ih.cons x).trans (List.perm_append_singleton x l).symm)

theorem mem_insertBy {lt : α → α → Bool} {x y : α} {l : List α} : y ∈ insertBy lt x l ↔ y = x ∨ y ∈ l := by
  rw [(insertBy_perm lt x l).mem_iff, List.mem_cons]

/-- Inserting keeps a relation that refines the key order, if it relates every earlier element of the
same or smaller key to the new one, and the new one to every element of greater key. -/
theorem insertBy_pairwise {key : α → Int} {R : α → α → Prop} {x : α} : ∀ {l : List α},
    l.Pairwise R → l.Pairwise (fun a b => key a ≤ key b) → (∀ y ∈ l, key y ≤ key x → R y x) →
    (∀ y ∈ l, key x < key y → R x y) → (insertBy (ltKey key) x l).Pairwise R := by
  intro l
  induction l with
  | nil => intro _ _ _ _; exact List.pairwise_singleton _ _
  | cons y l ih =>
    intro h1 h2 h3 h4
    rw [List.pairwise_cons] at h1 h2
    rw [insertBy]
    split
    · rename_i hlt
      have hlt : key x < key y := by simpa [ltKey] using hlt
      rw [List.pairwise_cons]
      refine ⟨?_, List.pairwise_cons.2 h1⟩
      intro z hz
      apply h4 z hz
      rcases List.mem_cons.1 hz with rfl | hz
      · exact hlt
      · exact lt_of_lt_of_le hlt (h2.1 z hz)
    · rename_i hlt
      have hlt : key y ≤ key x := by simpa [ltKey] using hlt
      rw [List.pairwise_cons]
      refine ⟨?_, ih h1.2 h2.2 (fun z hz => h3 z (by simp [hz])) (fun z hz => h4 z (by simp [hz]))⟩
      intro z hz
      rcases mem_insertBy.1 hz with rfl | hz
      · exact h3 y (by simp) hlt
      · exact h1.1 z hz

theorem stableSort_sorted (key : α → Int) (l : List α) :
    (stableSort (ltKey key) l).Pairwise (fun a b => key a ≤ key b) := by
  induction l using List.reverseRecOn with
  | nil => exact List.Pairwise.nil
  | append_singleton l x ih =>
    rw [stableSort_append]
    exact insertBy_pairwise ih ih (fun _ _ h => h) (fun _ _ h => h.le)

theorem insertBy_filter (key : α → Int) (p : α → Bool) (x : α) : ∀ (l : List α),
    l.Pairwise (fun a b => key a ≤ key b) →
    (insertBy (ltKey key) x l).filter p =
      if p x then insertBy (ltKey key) x (l.filter p) else l.filter p := by
  intro l
  induction l with
  | nil => intro _; by_cases h : p x <;> simp [insertBy, h]
  | cons y l ih =>
    intro h
    rw [List.pairwise_cons] at h
    rw [insertBy]
    by_cases hlt : ltKey key x y = true
    · rw [if_pos hlt]
      have hins : ∀ m : List α, (∀ z ∈ m, ltKey key x z = true) → insertBy (ltKey key) x m = x :: m := by
        intro m hm
        cases m with
        | nil => rfl
        | cons z m => rw [insertBy, if_pos (hm z (by simp))]
      have hall : ∀ z ∈ (y :: l).filter p, ltKey key x z = true := by
        intro z hz
        have hz := (List.mem_filter.1 hz).1
        rcases List.mem_cons.1 hz with rfl | hz
        · exact hlt
        · have h1 := h.1 z hz
          simp only [ltKey, decide_eq_true_eq] at hlt ⊢
          omega
      rw [hins _ hall]
      by_cases hp : p x
      · rw [if_pos hp, List.filter_cons_of_pos hp]
      · rw [if_neg hp, List.filter_cons_of_neg hp]
    · rw [if_neg hlt]
      by_cases hy : p y
      · rw [List.filter_cons_of_pos hy, ih h.2, List.filter_cons_of_pos hy]
        split
        · rw [insertBy, if_neg hlt]
        · rfl
      · rw [List.filter_cons_of_neg hy, ih h.2, List.filter_cons_of_neg hy]

/-- Selecting elements commutes with the stable sort. -/
theorem stableSort_filter (key : α → Int) (p : α → Bool) (l : List α) :
    (stableSort (ltKey key) l).filter p = stableSort (ltKey key) (l.filter p) := by
  induction l using List.reverseRecOn with
  | nil => rfl
  | append_singleton l x ih =>
    rw [stableSort_append, insertBy_filter _ _ _ _ (stableSort_sorted key l), ih, List.filter_append]
    by_cases hp : p x
    · rw [if_pos hp, List.filter_cons_of_pos hp, List.filter_nil, stableSort_append]
    · rw [if_neg hp, List.filter_cons_of_neg hp, List.filter_nil, List.append_nil]

theorem insertBy_last (key : α → Int) (x : α) : ∀ (l : List α), (∀ y ∈ l, key y ≤ key x) →
    insertBy (ltKey key) x l = l ++ [x] := by
  intro l
  induction l with
  | nil => intro _; rfl
  | cons y l ih =>
    intro h
    rw [insertBy, if_neg, ih (fun z hz => h z (by simp [hz]))]
    · rfl
    · have := h y (by simp)
      simp only [ltKey, decide_eq_true_eq]
      omega

/-- A sorted list is left alone. -/
theorem stableSort_of_sorted (key : α → Int) (l : List α) :
    l.Pairwise (fun a b => key a ≤ key b) → stableSort (ltKey key) l = l := by
  induction l using List.reverseRecOn with
  | nil => intro _; rfl
  | append_singleton l x ih =>
    intro h
    rw [List.pairwise_append] at h
    rw [stableSort_append, ih h.1, insertBy_last]
    intro y hy
    exact h.2.2 y hy x (by simp)

/-- `list.sort` with a key comparison is the reference stable sort. -/
theorem ListSort.sort_ltKey (S : ListSort) (key : α → Int) (l : List α) :
    S.sort (ltKey key) l = stableSort (ltKey key) l := by
  apply S.stable
  · intro a _; simp [ltKey]
  · intro a _ b _ c _ h1 h2
    simp only [ltKey, decide_eq_true_eq] at *
    omega
  · intro a _ b _ c _ h1 h2 h3 h4
    simp only [ltKey, decide_eq_false_iff_not] at *
    omega

/-- Where each element of the input goes: a bijection of positions that keeps the order of elements
unless the later one has a smaller key. -/
theorem stableSort_equiv (key : α → Int) (l : List α) :
    ∃ σ : Fin l.length ≃ Fin (stableSort (ltKey key) l).length,
      (∀ i, (stableSort (ltKey key) l)[σ i] = l[i]) ∧
      (∀ i j, i < j → key l[i] ≤ key l[j] → σ i < σ j) := by
  -- sort the elements tagged with their positions
  let t := l.zipIdx
  let k : α × Nat → Int := fun x => key x.1
  let s := stableSort (ltKey k) t
  have hmap : s.map Prod.fst = stableSort (ltKey key) l := by
    have := stableSort_map (ltKey key) (Prod.fst : α × Nat → α) t
    rw [List.zipIdx_map_fst] at this
    exact this.symm
  have hperm : s.Perm t := stableSort_perm _ _
  have hlen : s.length = l.length := by rw [hperm.length_eq]; simp [t]
  have hlen2 : (stableSort (ltKey key) l).length = s.length := by rw [← hmap, List.length_map]
  have hnd : s.Nodup := by
    apply hperm.nodup_iff.2
    apply List.Nodup.of_map Prod.snd
    rw [List.zipIdx_map_snd]
    exact List.nodup_range'
  have hlex : s.Pairwise (fun a b => k a < k b ∨ (k a = k b ∧ a.2 < b.2)) := by
    have gen : ∀ m : List (α × Nat), (m.map Prod.snd).Pairwise (· < ·) →
        (stableSort (ltKey k) m).Pairwise (fun a b => k a < k b ∨ (k a = k b ∧ a.2 < b.2)) := by
      intro m
      induction m using List.reverseRecOn with
      | nil => intro _; exact List.Pairwise.nil
      | append_singleton m x ih =>
        intro h
        rw [List.map_append, List.pairwise_append] at h
        rw [stableSort_append]
        apply insertBy_pairwise (ih h.1) (stableSort_sorted k m)
        · intro y hy hle
          have hy := (stableSort_perm _ _).mem_iff.1 hy
          have : y.2 < x.2 := h.2.2 y.2 (List.mem_map_of_mem hy) x.2 (by simp)
          rcases hle.lt_or_eq with h | h
          · exact Or.inl h
          · exact Or.inr ⟨h, this⟩
        · intro y _ h; exact Or.inl h
    apply gen
    rw [List.zipIdx_map_snd]
    exact List.pairwise_lt_range'
  have hmem : ∀ i : Fin l.length, (l[i], i.val) ∈ s := by
    intro i
    rw [hperm.mem_iff]
    apply List.mem_zipIdx_iff_getElem?.2
    simp
  have hmem' : ∀ j : Fin (stableSort (ltKey key) l).length, ∃ i : Fin l.length,
      s[j.val]'(by omega) = (l[i], i.val) := by
    intro j
    have hj : s[j.val]'(by omega) ∈ t := hperm.mem_iff.1 (List.getElem_mem _)
    have := List.mem_zipIdx_iff_getElem?.1 hj
    have hlt : (s[j.val]'(by omega)).2 < l.length := by
      by_contra hc
      rw [List.getElem?_eq_none (by omega)] at this
      cases this
    refine ⟨⟨_, hlt⟩, ?_⟩
    rw [List.getElem?_eq_getElem hlt] at this
    apply Prod.ext
    · exact (Option.some.inj this).symm
    · rfl
  choose f hf using fun i => List.getElem_of_mem (hmem i)
  choose hfl hfe using hf
  let σf : Fin l.length → Fin (stableSort (ltKey key) l).length := fun i => ⟨f i, by rw [hlen2]; exact hfl i⟩
  have hinj : Function.Injective σf := by
    intro i j h
    have h : f i = f j := congrArg Fin.val h
    have e : s[f i]'(hfl i) = s[f j]'(hfl j) := by simp only [h]
    rw [hfe, hfe] at e
    exact Fin.ext (congrArg Prod.snd e)
  have hsurj : Function.Surjective σf := by
    intro j
    obtain ⟨i, hi⟩ := hmem' j
    refine ⟨i, Fin.ext ?_⟩
    have h2 := hfe i
    rw [← hi] at h2
    exact (hnd.getElem_inj_iff).1 h2
  refine ⟨Equiv.ofBijective σf ⟨hinj, hsurj⟩, ?_, ?_⟩
  · intro i
    have h1 : (stableSort (ltKey key) l)[f i]? = some l[i] := by
      rw [← hmap, List.getElem?_map, List.getElem?_eq_getElem (hfl i), hfe]
      rfl
    have h2 := List.getElem?_eq_some_iff.1 h1
    exact h2.2
  · intro i j hij hk
    show f i < f j
    by_contra hc
    rcases Nat.lt_or_ge (f j) (f i) with h | h
    · have := List.pairwise_iff_getElem.1 hlex (f j) (f i) (hfl j) (hfl i) h
      rw [hfe, hfe] at this
      simp only [k] at this
      have hij : i.val < j.val := hij
      rcases this with h | h
      · simp only [Fin.getElem_fin] at h hk; omega
      · omega
    · have hfe' : f i = f j := by omega
      have := hinj (Fin.ext hfe' : σf i = σf j)
      exact absurd this (ne_of_lt hij)

end Melodia
