/-
`cpySortFn` meets the contract `ListSort`.
-/
import Verif.Model.CPySort
import Mathlib.Data.List.Sort
import Mathlib.Data.List.Chain

set_option autoImplicit false

namespace Melodia

variable {α : Type}

theorem descRun_append (lt : α → α → Bool) (prev : α) (l : List α) :
    (descRun lt prev l).1 ++ (descRun lt prev l).2 = l := by
  induction l generalizing prev with
  | nil => rfl
  | cons x xs ih => rw [descRun]; split <;> simp [ih]

theorem ascRun_append (lt : α → α → Bool) (prev : α) (l : List α) :
    (ascRun lt prev l).1 ++ (ascRun lt prev l).2 = l := by
  induction l generalizing prev with
  | nil => rfl
  | cons x xs ih => rw [ascRun]; split <;> simp [ih]

theorem descRun_chain (lt : α → α → Bool) (prev : α) (l : List α) :
    List.IsChain (fun a b => lt b a = true) (prev :: (descRun lt prev l).1) := by
  induction l generalizing prev with
  | nil => simp [descRun]
  | cons x xs ih =>
    rw [descRun]; split
    · next h => exact List.isChain_cons_cons.mpr ⟨h, ih x⟩
    · simp

theorem ascRun_chain (lt : α → α → Bool) (prev : α) (l : List α) :
    List.IsChain (fun a b => lt b a = false) (prev :: (ascRun lt prev l).1) := by
  induction l generalizing prev with
  | nil => simp [ascRun]
  | cons x xs ih =>
    rw [ascRun]; split
    · simp
    · next h => exact List.isChain_cons_cons.mpr ⟨by simpa using h, ih x⟩

/-- The initial run comes from a prefix of the list: non-descending, or reversed strictly
descending. -/
theorem initialRun_spec (lt : α → α → Bool) (l : List α) :
    (List.IsChain (fun a b => lt b a = false) (initialRun lt l).1 ∧
      (initialRun lt l).1 ++ (initialRun lt l).2 = l) ∨
    (∃ d, (initialRun lt l).1 = d.reverse ∧ List.IsChain (fun a b => lt b a = true) d ∧
      d ++ (initialRun lt l).2 = l) := by
  match l with
  | [] => left; simp [initialRun]
  | [a] => left; simp [initialRun]
  | a :: b :: xs =>
    rw [initialRun]
    split
    · next h =>
      right
      refine ⟨_, rfl, List.isChain_cons_cons.mpr ⟨h, descRun_chain lt b xs⟩, ?_⟩
      simp [descRun_append]
    · next h =>
      left
      refine ⟨List.isChain_cons_cons.mpr ⟨by simpa using h, ascRun_chain lt b xs⟩, ?_⟩
      simp [ascRun_append]

theorem binInsert_perm (lt : α → α → Bool) (l : List α) (x : α) : (binInsert lt l x).Perm (x :: l) := by
  unfold binInsert
  refine List.perm_middle.trans ?_
  rw [List.take_append_drop]

theorem foldl_binInsert_perm (lt : α → α → Bool) (r acc : List α) :
    (r.foldl (binInsert lt) acc).Perm (acc ++ r) := by
  induction r generalizing acc with
  | nil => simp
  | cons x r ih =>
    rw [List.foldl_cons]
    refine (ih _).trans ?_
    refine ((binInsert_perm lt acc x).append_right r).trans ?_
    exact List.perm_middle.symm

theorem initialRun_perm (lt : α → α → Bool) (l : List α) :
    ((initialRun lt l).1 ++ (initialRun lt l).2).Perm l := by
  rcases initialRun_spec lt l with ⟨-, h⟩ | ⟨d, h1, -, h2⟩
  · rw [h]
  · rw [h1]
    conv_rhs => rw [← h2]
    exact (List.reverse_perm d).append_right _

theorem cpySortFn_perm (lt : α → α → Bool) (l : List α) : (cpySortFn lt l).Perm l :=
  (foldl_binInsert_perm _ _ _).trans (initialRun_perm lt l)

/-- Binary search invariant, for any left condition `A` and right condition `B` established by a
comparison. -/
theorem bisect_spec (lt : α → α → Bool) (x : α) (l : List α) (A B : Nat → Prop)
    (hB : ∀ p (h : p < l.length), lt x l[p] = true → ∀ j, p ≤ j → j < l.length → B j)
    (hA : ∀ p (h : p < l.length), lt x l[p] = false → ∀ j, j ≤ p → A j) :
    ∀ fuel lo hi, hi - lo ≤ fuel → lo ≤ hi → hi ≤ l.length → (∀ j, j < lo → A j) →
      (∀ j, hi ≤ j → j < l.length → B j) →
      bisect lt x l fuel lo hi ≤ l.length ∧ (∀ j, j < bisect lt x l fuel lo hi → A j) ∧
        (∀ j, bisect lt x l fuel lo hi ≤ j → j < l.length → B j) := by
  intro fuel
  induction fuel with
  | zero =>
    intro lo hi h1 h2 h3 h4 h5
    have : lo = hi := by omega
    subst this
    exact ⟨h3, h4, h5⟩
  | succ f ih =>
    intro lo hi h1 h2 h3 h4 h5
    rw [bisect]
    split
    · next hlt =>
      have hp : (lo + hi) / 2 < l.length := by omega
      rw [List.getElem?_eq_getElem hp]
      simp only
      split
      · next hx =>
        exact ih _ _ (by omega) (by omega) (by omega) h4 (hB _ hp hx)
      · next hx =>
        refine ih _ _ (by omega) (by omega) h3 ?_ h5
        intro j hj
        exact hA _ hp (by simpa using hx) j (by omega)
    · have : lo = hi := by omega
      subst this
      exact ⟨h3, h4, h5⟩

theorem binInsert_spec (lt : α → α → Bool) (x : α) (l : List α) (A B : α → Prop)
    (hB : ∀ p (_ : p < l.length), lt x l[p] = true → ∀ j (_ : p ≤ j) (h : j < l.length), B l[j])
    (hA : ∀ p (_ : p < l.length), lt x l[p] = false → ∀ j (_ : j ≤ p) (h : j < l.length), A l[j]) :
    ∃ a b, l = a ++ b ∧ binInsert lt l x = a ++ x :: b ∧ (∀ y ∈ a, A y) ∧ (∀ y ∈ b, B y) := by
  obtain ⟨h1, h2, h3⟩ := bisect_spec lt x l (fun j => ∀ h : j < l.length, A l[j])
    (fun j => ∀ h : j < l.length, B l[j])
    (fun p hp hx j hj _ h => hB p hp hx j hj h) (fun p hp hx j hj h => hA p hp hx j hj h)
    l.length 0 l.length (by omega) (by omega) le_rfl (by omega) (by omega)
  refine ⟨_, _, (List.take_append_drop (bisect lt x l l.length 0 l.length) l).symm, rfl, ?_, ?_⟩
  · intro y hy
    obtain ⟨i, hi, rfl⟩ := List.mem_iff_getElem.mp hy
    rw [List.length_take] at hi
    rw [List.getElem_take]
    exact h2 i (by omega) _
  · intro y hy
    obtain ⟨i, hi, rfl⟩ := List.mem_iff_getElem.mp hy
    rw [List.length_drop] at hi
    rw [List.getElem_drop]
    exact h3 _ (by omega) (by omega) _

/-! ### Sorted by any respected key -/

theorem cpySortFn_sorted_key {κ : Type} [LinearOrder κ] (lt : α → α → Bool) (key : α → κ) (l : List α)
    (hk : ∀ a ∈ l, ∀ b ∈ l, key a < key b → lt a b = true ∧ lt b a = false) :
    (cpySortFn lt l).Pairwise (fun a b => key a ≤ key b) := by
  have le_of_not : ∀ a ∈ l, ∀ b ∈ l, lt b a = false → key a ≤ key b := by
    intro a ha b hb h
    by_contra hc
    have := (hk b hb a ha (not_le.mp hc)).1
    rw [h] at this; cases this
  have le_of_lt' : ∀ a ∈ l, ∀ b ∈ l, lt a b = true → key a ≤ key b := by
    intro a ha b hb h
    by_contra hc
    have := (hk b hb a ha (not_le.mp hc)).2
    rw [h] at this; cases this
  have chainKey : ∀ d : List α, (∀ x ∈ d, x ∈ l) → ∀ R : α → α → Prop, ∀ Q : α → α → Prop,
      (∀ a ∈ l, ∀ b ∈ l, R a b → Q a b) → List.IsChain R d → List.IsChain Q d := by
    intro d hd R Q h hc
    induction d with
    | nil => simp
    | cons a d ih =>
      cases d with
      | nil => simp
      | cons b d =>
        obtain ⟨h1, h2⟩ := List.isChain_cons_cons.mp hc
        exact List.isChain_cons_cons.mpr ⟨h a (hd a (by simp)) b (hd b (by simp)) h1,
          ih (fun x hx => hd x (List.mem_cons_of_mem _ hx)) h2⟩
  have t1 : IsTrans α (fun a b => key a ≤ key b) := ⟨fun a b c h1 h2 => le_trans h1 h2⟩
  have t2 : IsTrans α (fun a b => key b ≤ key a) := ⟨fun a b c h1 h2 => le_trans h2 h1⟩
  have hrun : (initialRun lt l).1.Pairwise (fun a b => key a ≤ key b) := by
    rcases initialRun_spec lt l with ⟨h, he⟩ | ⟨d, h1, h2, he⟩
    · apply List.isChain_iff_pairwise.mp
      refine chainKey _ (fun x hx => ?_) _ _ (fun a ha b hb h => le_of_not a ha b hb h) h
      rw [← he]; exact List.mem_append_left _ hx
    · rw [h1, List.pairwise_reverse]
      apply List.isChain_iff_pairwise.mp
      refine chainKey _ (fun x hx => ?_) _ _ (fun a ha b hb h => le_of_lt' b hb a ha h) h2
      rw [← he]; exact List.mem_append_left _ hx
  have hall : ∀ x ∈ (initialRun lt l).1 ++ (initialRun lt l).2, x ∈ l :=
    fun x hx => (initialRun_perm lt l).mem_iff.mp hx
  unfold cpySortFn
  generalize (initialRun lt l).1 = acc at hrun hall
  generalize (initialRun lt l).2 = r at hall
  induction r generalizing acc with
  | nil => exact hrun
  | cons x r ih =>
    rw [List.foldl_cons]
    have hx : x ∈ l := hall x (by simp)
    have hacc : ∀ y ∈ acc, y ∈ l := fun y hy => hall y (by simp [hy])
    apply ih
    · have hget := List.pairwise_iff_getElem.mp hrun
      obtain ⟨a, b, he, hi, ha, hb⟩ := binInsert_spec lt x acc (fun y => key y ≤ key x)
        (fun y => key x ≤ key y)
        (by
          intro p hp hlt j hj h
          have h1 : key x ≤ key acc[p] := le_of_lt' x hx _ (hacc _ (List.getElem_mem hp)) hlt
          rcases Nat.eq_or_lt_of_le hj with rfl | hj
          · exact h1
          · exact h1.trans (hget p j hp h hj))
        (by
          intro p hp hlt j hj h
          have h1 : key acc[p] ≤ key x := le_of_not _ (hacc _ (List.getElem_mem hp)) x hx hlt
          rcases Nat.eq_or_lt_of_le hj with rfl | hj
          · exact h1
          · exact (hget j p h hp hj).trans h1)
      rw [hi]
      rw [he] at hrun
      obtain ⟨r1, r2, r3⟩ := List.pairwise_append.mp hrun
      refine List.pairwise_append.mpr ⟨r1, List.pairwise_cons.mpr ⟨hb, r2⟩, ?_⟩
      intro y hy z hz
      rcases List.mem_cons.mp hz with rfl | hz
      · exact ha y hy
      · exact r3 y hy z hz
    · intro y hy
      rcases List.mem_append.mp hy with hy | hy
      · rcases List.mem_cons.mp ((binInsert_perm lt acc x).mem_iff.mp hy) with rfl | hy
        · exact hx
        · exact hacc y hy
      · exact hall y (by simp [hy])

/-! ### Stability -/

theorem insertBy_append (lt : α → α → Bool) (x : α) (a b : List α) (ha : ∀ y ∈ a, lt x y = false)
    (hb : ∀ y ∈ b, lt x y = true) : insertBy lt x (a ++ b) = a ++ x :: b := by
  induction a with
  | nil =>
    cases b with
    | nil => rfl
    | cons y b => simp [insertBy, hb y (by simp)]
  | cons y a ih =>
    simp [insertBy, ha y (by simp), ih (fun z hz => ha z (by simp [hz]))]

theorem insertBy_perm (lt : α → α → Bool) (x : α) (l : List α) : (insertBy lt x l).Perm (x :: l) := by
  induction l with
  | nil => exact List.Perm.refl _
  | cons y l ih =>
    rw [insertBy]
    split
    · exact List.Perm.refl _
    · exact (ih.cons y).trans (List.Perm.swap _ _ _)

theorem cpySortFn_stable (lt : α → α → Bool) (l : List α)
    (_hirr : ∀ a ∈ l, lt a a = false)
    (htr : ∀ a ∈ l, ∀ b ∈ l, ∀ c ∈ l, lt a b = true → lt b c = true → lt a c = true)
    (hinc : ∀ a ∈ l, ∀ b ∈ l, ∀ c ∈ l, lt a b = false → lt b a = false → lt b c = false →
      lt c b = false → lt a c = false ∧ lt c a = false) :
    cpySortFn lt l = stableSort lt l := by
  have f : ∀ b : Bool, b = false ↔ ¬ b = true := by intro b; cases b <;> simp
  -- negative transitivity
  have ntr : ∀ a ∈ l, ∀ b ∈ l, ∀ c ∈ l, lt b a = false → lt c b = false → lt c a = false := by
    intro a ha b hb c hc h1 h2
    rw [f]
    intro h
    by_cases hab : lt a b = true
    · have := htr c hc a ha b hb h hab
      rw [h2] at this; cases this
    · rw [← f] at hab
      by_cases hbc : lt b c = true
      · have := htr b hb c hc a ha hbc h
        rw [h1] at this; cases this
      · rw [← f] at hbc
        have := (hinc a ha b hb c hc hab h1 hbc h2).2
        rw [h] at this; cases this
  have nlt_of_lt : ∀ a ∈ l, ∀ b ∈ l, lt a b = true → lt b a = false := by
    intro a ha b hb h
    rw [f]; intro h'
    have := htr a ha b hb a ha h h'
    rw [_hirr a ha] at this; cases this
  -- the initial run
  have hrun : stableSort lt l =
      (initialRun lt l).2.foldl (fun acc x => insertBy lt x acc) (initialRun lt l).1 ∧
      (initialRun lt l).1.Pairwise (fun a b => lt b a = false) := by
    have asc : ∀ (d acc : List α), (∀ x ∈ acc ++ d, x ∈ l) →
        acc.Pairwise (fun a b => lt b a = false) →
        List.IsChain (fun a b => lt b a = false) (acc ++ d) →
        d.foldl (fun acc x => insertBy lt x acc) acc = acc ++ d ∧
        (acc ++ d).Pairwise (fun a b => lt b a = false) := by
      intro d
      induction d with
      | nil => intro acc _ h _; exact ⟨by simp, by simpa using h⟩
      | cons x d ih =>
        intro acc hm hp hc
        have hx : ∀ y ∈ acc, lt x y = false := by
          intro y hy
          rcases List.eq_nil_or_concat acc with rfl | ⟨acc', z, rfl⟩
          · cases hy
          · rw [List.concat_eq_append] at *
            have hzx : lt x z = false := by
              rw [List.append_assoc] at hc
              have := (List.isChain_append.mp hc).2.1
              exact (List.isChain_cons_cons.mp this).1
            rcases List.mem_append.mp hy with hy' | hy'
            · have hyz : lt z y = false := (List.pairwise_append.mp hp).2.2 y hy' z (by simp)
              exact ntr y (hm y (by simp [hy'])) z (hm z (by simp)) x (hm x (by simp)) hyz hzx
            · rw [List.mem_singleton] at hy'; rw [hy']; exact hzx
        have hi : insertBy lt x acc = acc ++ [x] := by
          have := insertBy_append lt x acc [] hx (by simp)
          simpa using this
        rw [List.foldl_cons, hi]
        obtain ⟨h1, h2⟩ := ih (acc ++ [x]) (by simpa using hm)
          (List.pairwise_append.mpr ⟨hp, by simp, by simpa using hx⟩) (by simpa using hc)
        exact ⟨by simpa using h1, by simpa using h2⟩
    have desc : ∀ (d : List α) (y : α) (acc : List α), List.IsChain (fun a b => lt b a = true) (y :: d) →
        d.foldl (fun acc x => insertBy lt x acc) (y :: acc) = d.reverse ++ y :: acc := by
      intro d
      induction d with
      | nil => intro y acc _; rfl
      | cons x d ih =>
        intro y acc hc
        obtain ⟨h1, h2⟩ := List.isChain_cons_cons.mp hc
        rw [List.foldl_cons, insertBy, if_pos h1, ih x (y :: acc) h2]
        simp
    rcases initialRun_spec lt l with ⟨h, he⟩ | ⟨d, h1, h2, he⟩
    · obtain ⟨g1, g2⟩ := asc (initialRun lt l).1 []
        (fun x hx => by rw [← he]; exact List.mem_append_left _ (by simpa using hx)) (by simp) h
      refine ⟨?_, by simpa using g2⟩
      unfold stableSort
      conv_lhs => rw [← he]
      rw [List.foldl_append, g1]; rfl
    · have hdl : ∀ x ∈ d, x ∈ l := fun x hx => by rw [← he]; exact List.mem_append_left _ hx
      refine ⟨?_, ?_⟩
      · unfold stableSort
        conv_lhs => rw [← he]
        rw [List.foldl_append, h1]
        congr 1
        cases d with
        | nil => rfl
        | cons y d =>
          have := desc d y [] h2
          simp only [List.foldl_cons, insertBy] at this ⊢
          rw [this]; simp
      · rw [h1, List.pairwise_reverse]
        have : ∀ (d : List α), (∀ x ∈ d, x ∈ l) → List.IsChain (fun a b => lt b a = true) d →
            d.Pairwise (fun a b => lt b a = true) := by
          intro d
          induction d with
          | nil => simp
          | cons y d ih =>
            intro hm hc
            cases d with
            | nil => simp
            | cons z d =>
              obtain ⟨h1, h2⟩ := List.isChain_cons_cons.mp hc
              have hp := ih (fun x hx => hm x (List.mem_cons_of_mem _ hx)) h2
              refine List.pairwise_cons.mpr ⟨?_, hp⟩
              intro w hw
              rcases List.mem_cons.mp hw with rfl | hw'
              · exact h1
              · exact htr w (hm w (by simp [hw'])) z (hm z (by simp)) y (hm y (by simp))
                  ((List.pairwise_cons.mp hp).1 w hw') h1
        refine ((this d hdl h2).imp_of_mem ?_)
        intro a b ha hb hab
        exact nlt_of_lt b (hdl b hb) a (hdl a ha) hab
  obtain ⟨hr1, hr2⟩ := hrun
  rw [hr1]
  unfold cpySortFn
  have hall : ∀ x ∈ (initialRun lt l).1 ++ (initialRun lt l).2, x ∈ l :=
    fun x hx => (initialRun_perm lt l).mem_iff.mp hx
  clear hr1
  generalize (initialRun lt l).1 = acc at hr2 hall
  generalize (initialRun lt l).2 = r at hall
  induction r generalizing acc with
  | nil => rfl
  | cons x r ih =>
    rw [List.foldl_cons, List.foldl_cons]
    have hx : x ∈ l := hall x (by simp)
    have hacc : ∀ y ∈ acc, y ∈ l := fun y hy => hall y (by simp [hy])
    have hget := List.pairwise_iff_getElem.mp hr2
    obtain ⟨a, b, he, hi, ha, hb⟩ := binInsert_spec lt x acc (fun y => lt x y = false)
      (fun y => lt x y = true)
      (by
        intro p hp hlt j hj h
        rcases Nat.eq_or_lt_of_le hj with rfl | hj
        · exact hlt
        · by_contra hc
          rw [← f] at hc
          have := ntr _ (hacc _ (List.getElem_mem hp)) _ (hacc _ (List.getElem_mem h)) x hx
            (hget p j hp h hj) hc
          rw [hlt] at this; cases this)
      (by
        intro p hp hlt j hj h
        rcases Nat.eq_or_lt_of_le hj with rfl | hj
        · exact hlt
        · exact ntr _ (hacc _ (List.getElem_mem h)) _ (hacc _ (List.getElem_mem hp)) x hx
            (hget j p h hp hj) hlt)
    have heq : binInsert lt acc x = insertBy lt x acc := by
      rw [hi]; conv_rhs => rw [he]
      exact (insertBy_append lt x a b ha hb).symm
    rw [← heq]
    apply ih
    · rw [hi]
      rw [he] at hr2
      obtain ⟨r1, r2, r3⟩ := List.pairwise_append.mp hr2
      have hbl : ∀ y ∈ b, y ∈ l := fun y hy => hacc y (by rw [he]; simp [hy])
      refine List.pairwise_append.mpr ⟨r1, List.pairwise_cons.mpr ⟨?_, r2⟩, ?_⟩
      · intro y hy; exact nlt_of_lt x hx y (hbl y hy) (hb y hy)
      · intro y hy z hz
        rcases List.mem_cons.mp hz with rfl | hz
        · exact ha y hy
        · exact r3 y hy z hz
    · intro y hy
      rcases List.mem_append.mp hy with hy | hy
      · rcases List.mem_cons.mp ((binInsert_perm lt acc x).mem_iff.mp hy) with rfl | hy
        · exact hx
        · exact hacc y hy
      · exact hall y (by simp [hy])

/-- CPython's sort of short lists as an instance of the contract. -/
def cpySort : ListSort where
  sort := cpySortFn
  perm := cpySortFn_perm
  sorted_key := cpySortFn_sorted_key
  stable := cpySortFn_stable

end Melodia
