/-
`max` and `min` of signatures (src/melodia/core/signature.py:44-81).
-/
import Verif.Model.Compare
import Verif.Lemmas.Signature
import Mathlib.Data.List.Induction

set_option autoImplicit false

namespace Melodia

/-- What the comparison used for `max` or `min` does with a measure `key` of the values (the value, or its negative): right
if the denominator on the left is not smaller, reversed otherwise (C05). -/
structure Chooses (key : ℚ → ℚ) (gt : Signature → Signature → Bool) : Prop where
  right : ∀ a b : Signature, a.Valid → b.Valid → b.denominator ≤ a.denominator → (gt a b = true ↔ key b.val < key a.val)
  wrong : ∀ a b : Signature, a.Valid → b.Valid → a.denominator < b.denominator → (gt a b = true ↔ key a.val < key b.val)

theorem chooses_max : Chooses id Signature.gt :=
  ⟨fun _ _ ha hb h => Signature.gt_of_ge ha hb h, fun _ _ ha hb h => Signature.gt_of_lt ha hb h⟩

theorem chooses_min : Chooses (fun x => -x) Signature.lt :=
  ⟨fun _ _ ha hb h => by rw [Signature.lt_of_ge ha hb h, neg_lt_neg_iff],
   fun _ _ ha hb h => by rw [Signature.lt_of_lt ha hb h, neg_lt_neg_iff]⟩

theorem pyMinOf_eq {α : Type} (lt : α → α → Bool) (l : List α) : pyMinOf lt l = pyMaxOf lt l := by cases l <;> rfl

theorem fold_best {key : ℚ → ℚ} {gt : Signature → Signature → Bool} (hc : Chooses key gt) (l : List Signature) :
    ∀ a : Signature, a.Valid → (∀ s ∈ l, s.Valid) → (a :: l).Pairwise (fun x y => x.denominator ≤ y.denominator) →
      let r := l.foldl (fun best x => if gt x best then x else best) a
      (r = a ∨ r ∈ l) ∧ key a.val ≤ key r.val ∧ ∀ s ∈ l, key s.val ≤ key r.val := by
  induction l with
  | nil => intro a ha _ _; exact ⟨Or.inl rfl, le_refl _, by simp⟩
  | cons x l ih =>
    intro a ha hl hs
    have hx := hl x (by simp)
    have hl' := fun s hs => hl s (List.mem_cons_of_mem x hs)
    have hax : a.denominator ≤ x.denominator := (List.pairwise_cons.mp hs).1 x (by simp)
    have hsx : (x :: l).Pairwise (fun x y => x.denominator ≤ y.denominator) := (List.pairwise_cons.mp hs).2
    have hsa : (a :: l).Pairwise (fun x y => x.denominator ≤ y.denominator) :=
      List.pairwise_cons.mpr ⟨fun s h => (List.pairwise_cons.mp hs).1 s (List.mem_cons_of_mem x h),
        (List.pairwise_cons.mp hsx).2⟩
    simp only [List.foldl_cons]
    by_cases h : gt x a = true
    · rw [if_pos h]
      obtain ⟨i3, i4, i5⟩ := ih x hx hl' hsx
      have := (hc.right x a hx ha hax).mp h
      refine ⟨Or.inr ?_, this.le.trans i4, ?_⟩
      · rcases i3 with i3 | i3
        · rw [i3]; simp
        · exact List.mem_cons_of_mem _ i3
      · intro s hs
        rcases List.mem_cons.mp hs with rfl | hs
        · exact i4
        · exact i5 s hs
    · rw [if_neg h]
      obtain ⟨i3, i4, i5⟩ := ih a ha hl' hsa
      have := (hc.right x a hx ha hax).not.mp h
      refine ⟨?_, i4, ?_⟩
      · rcases i3 with i3 | i3
        · exact Or.inl i3
        · exact Or.inr (List.mem_cons_of_mem _ i3)
      · intro s hs
        rcases List.mem_cons.mp hs with rfl | hs
        · exact (not_lt.mp this).trans i4
        · exact i5 s hs

theorem best_sorted {key : ℚ → ℚ} {gt : Signature → Signature → Bool} (hc : Chooses key gt) (l : List Signature)
    (hne : l ≠ []) (hl : ∀ s ∈ l, s.Valid) (hs : l.Pairwise (fun x y => x.denominator ≤ y.denominator)) :
    ∃ r ∈ l, pyMaxOf gt l = .ok r ∧ ∀ s ∈ l, key s.val ≤ key r.val := by
  cases l with
  | nil => exact absurd rfl hne
  | cons a l =>
    obtain ⟨h3, h4, h5⟩ := fold_best hc l a (hl a (by simp)) (fun s h => hl s (List.mem_cons_of_mem a h)) hs
    refine ⟨_, ?_, rfl, ?_⟩
    · rcases h3 with h3 | h3
      · rw [h3]; simp
      · exact List.mem_cons_of_mem _ h3
    · intro s hs
      rcases List.mem_cons.mp hs with rfl | hs
      · exact h4
      · exact h5 s hs

theorem pyMaxOf_append {α : Type} (gt : α → α → Bool) (l l' : List α) (m : α) (h : pyMaxOf gt l = .ok m) :
    pyMaxOf gt (l ++ l') = .ok (l'.foldl (fun best x => if gt x best then x else best) m) := by
  cases l with
  | nil => cases h
  | cons a l =>
    simp only [pyMaxOf, Except.ok.injEq] at h
    simp only [List.cons_append, pyMaxOf, List.foldl_append, h]

theorem fold_mem {α : Type} (gt : α → α → Bool) (l : List α) :
    ∀ a, l.foldl (fun best x => if gt x best then x else best) a ∈ a :: l := by
  induction l with
  | nil => intro a; simp
  | cons x l ih =>
    intro a
    simp only [List.foldl_cons]
    split
    · exact List.mem_cons_of_mem _ (ih x)
    · rcases List.mem_cons.mp (ih a) with h | h
      · rw [h]; simp
      · exact List.mem_cons_of_mem _ (List.mem_cons_of_mem _ h)

/-- Where a list begins to be out of order. -/
theorem first_descent (l : List Int) (h : ¬ l.Pairwise (· ≤ ·)) :
    ∃ pre a b post, l = pre ++ a :: b :: post ∧ b < a ∧ (pre ++ [a]).Pairwise (· ≤ ·) := by
  induction l using List.reverseRecOn with
  | nil => exact absurd List.Pairwise.nil h
  | append_singleton l x ih =>
    by_cases hl : l.Pairwise (· ≤ ·)
    · rcases List.eq_nil_or_concat l with rfl | ⟨l', a, rfl⟩
      · exact absurd (List.pairwise_singleton _ _) h
      · refine ⟨l', a, x, [], by simp, ?_, by simpa using hl⟩
        by_contra hax
        apply h
        rw [List.concat_eq_append] at hl ⊢
        rw [List.pairwise_append]
        refine ⟨hl, List.pairwise_singleton _ _, ?_⟩
        intro y hy z hz
        rw [List.mem_singleton] at hz
        subst hz
        rcases List.mem_append.mp hy with hy | hy
        · exact ((List.pairwise_append.mp hl).2.2 y hy a (by simp)).trans (not_lt.mp hax)
        · rw [List.mem_singleton] at hy
          subst hy; exact not_lt.mp hax
    · obtain ⟨pre, a, b, post, h1, h2, h3⟩ := ih hl
      exact ⟨pre, a, b, post ++ [x], by rw [h1]; simp, h2, h3⟩

/-- A signature of a whole value `u` over the denominator `d`. -/
theorem whole_val (u d : Int) (hd : ∃ k : Nat, d = 2 ^ k) : (⟨u * d, d⟩ : Signature).val = u := by
  obtain ⟨k, rfl⟩ := hd
  unfold Signature.val
  push_cast
  rw [mul_div_assoc, div_self (by positivity), mul_one]

theorem best_iff {key : ℚ → ℚ} {gt : Signature → Signature → Bool} (hc : Chooses key gt) (low top : Int) (hlow : 0 ≤ low)
    (htop : 0 ≤ top) (h1 : key low < key 1) (h2 : key 1 < key top) (ds : List Int) (hne : ds ≠ [])
    (hd : ∀ d ∈ ds, ∃ k : Nat, d = 2 ^ k) :
    (∀ l : List Signature, (∀ s ∈ l, s.Valid) → l.map Signature.denominator = ds →
      ∃ r, pyMaxOf gt l = .ok r ∧ ∀ s ∈ l, key s.val ≤ key r.val) ↔ ds.Pairwise (· ≤ ·) := by
  constructor
  · intro h
    by_contra hs
    obtain ⟨pre, a, b, post, rfl, hba, hpa⟩ := first_descent ds hs
    have hp : ∀ d ∈ pre, ∃ k : Nat, d = 2 ^ k := fun d h => hd d (by simp [h])
    have ha : ∃ k : Nat, a = 2 ^ k := hd a (by simp)
    have hb : ∃ k : Nat, b = 2 ^ k := hd b (by simp)
    have hq : ∀ d ∈ post, ∃ k : Nat, d = 2 ^ k := fun d h => hd d (by simp [h])
    have pos : ∀ d : Int, (∃ k : Nat, d = 2 ^ k) → 0 ≤ d := by rintro d ⟨k, rfl⟩; positivity
    have V : ∀ u d : Int, 0 ≤ u → (∃ k : Nat, d = 2 ^ k) → (⟨u * d, d⟩ : Signature).Valid :=
      fun u d hu hd => ⟨mul_nonneg hu (pos d hd), hd⟩
    have one : (⟨1 * a, a⟩ : Signature).val = 1 := by rw [whole_val 1 a ha]; norm_num
    let f : Int → Signature := fun d => ⟨low * d, d⟩
    have hfront : ∀ s ∈ pre.map f ++ [⟨1 * a, a⟩], s.Valid := by
      intro s hs
      rcases List.mem_append.mp hs with hs | hs
      · obtain ⟨d, hd', rfl⟩ := List.mem_map.mp hs; exact V low d hlow (hp d hd')
      · rw [List.mem_singleton] at hs; subst hs; exact V 1 a (by norm_num) ha
    have hsorted : (pre.map f ++ [(⟨1 * a, a⟩ : Signature)]).Pairwise (fun x y => x.denominator ≤ y.denominator) := by
      have : (pre.map f ++ [(⟨1 * a, a⟩ : Signature)]).map Signature.denominator = pre ++ [a] := by
        simp [f, Function.comp_def]
      rw [← this, List.pairwise_map] at hpa
      exact hpa
    obtain ⟨m, hm, hmax, hbest⟩ := best_sorted hc _ (by simp) hfront hsorted
    have hma : m = ⟨1 * a, a⟩ := by
      rcases List.mem_append.mp hm with hm | hm
      · obtain ⟨d, hd', rfl⟩ := List.mem_map.mp hm
        have := hbest ⟨1 * a, a⟩ (by simp)
        rw [one, whole_val low d (hp d hd')] at this
        exact absurd h1 (not_lt.mpr this)
      · simpa using hm
    subst hma
    have hall := pyMaxOf_append gt _ (⟨top * b, b⟩ :: post.map f) _ hmax
    have hskip : ¬ gt ⟨top * b, b⟩ ⟨1 * a, a⟩ = true := by
      rw [hc.wrong _ _ (V top b htop hb) (V 1 a (by norm_num) ha) hba, one, whole_val top b hb]
      exact h2.not_gt
    rw [List.foldl_cons, if_neg hskip] at hall
    obtain ⟨r, hr, hr'⟩ := h (pre.map f ++ [⟨1 * a, a⟩] ++ ⟨top * b, b⟩ :: post.map f) (by
        intro s hs
        rcases List.mem_append.mp hs with hs | hs
        · exact hfront s hs
        · rcases List.mem_cons.mp hs with rfl | hs
          · exact V top b htop hb
          · obtain ⟨d, hd', rfl⟩ := List.mem_map.mp hs; exact V low d hlow (hq d hd'))
      (by simp [f, Function.comp_def])
    rw [hall, Except.ok.injEq] at hr
    have hmem := fold_mem gt (post.map f) ⟨1 * a, a⟩
    rw [hr] at hmem
    have htb := hr' ⟨top * b, b⟩ (by simp)
    rw [whole_val top b hb] at htb
    rcases List.mem_cons.mp hmem with rfl | hmem
    · rw [one] at htb; exact absurd h2 (not_lt.mpr htb)
    · obtain ⟨d, hd', rfl⟩ := List.mem_map.mp hmem
      rw [whole_val low d (hq d hd')] at htb
      exact absurd (h1.trans h2) (not_lt.mpr htb)
  · intro hs l hl hmap
    have hln : l ≠ [] := by rintro rfl; exact hne hmap.symm
    subst hmap
    rw [List.pairwise_map] at hs
    obtain ⟨r, -, h3, h4⟩ := best_sorted hc l hln hl hs
    exact ⟨r, h3, h4⟩

end Melodia
