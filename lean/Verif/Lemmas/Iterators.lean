/-
Lemmas on programs that use several iterators over one track.
-/
import Verif.Spec.Iterators
import Verif.Lemmas.TrackMore

set_option autoImplicit false

namespace Melodia


theorem iter_iter (S : ListSort) (t : Track) : ((t.iter S).1.iter S) = t.iter S := by
  unfold Track.iter
  by_cases h : t.sorted <;> simp [h]

theorem step_look (S : ListSort) (t : Track) (o : TrackOp) (h : ∀ w p, o ≠ .add w p) :
    (o.step S t).maxDenominator = t.maxDenominator ∧ (o.step S t).iter S = t.iter S ∧
      (t.sorted = true → o.step S t = t) := by
  cases o with
  | add w p => exact absurd rfl (h w p)
  | iterate =>
    refine ⟨?_, iter_iter S t, fun hs => ?_⟩
    · exact (Track.iter_fields S t).2.1
    · simp [TrackOp.step, Track.iter, hs]
  | peek => exact ⟨rfl, rfl, fun _ => rfl⟩

theorem after_look (S : ListSort) (t : Track) (o : TrackOp) (h : ∀ w p, o ≠ .add w p) (it : LiveIter) :
    it.after t (o.step S t) = it := by
  unfold LiveIter.after
  rw [if_pos (step_look S t o h).1]

/-- The state of an iterator over a track that is only looked at. -/
def IterOk (items : List Entry) (it : LiveIter) : Prop :=
  it.frozen = none ∧ (it.exhausted = true → items.length ≤ it.index)

theorem session_looks (S : ListSort) (items : List Entry) (i : Nat) (es : List IterEvent) :
    OnlyLooks es → ∀ (t : Track) (its : List LiveIter), (t.iter S).2 = items →
      (its ≠ [] → t.sorted = true) → (∀ it ∈ its, IterOk items it) →
      ∀ j, (∀ it, its[i]? = some it → it.index = j) → (its[i]? = none → j = 0) →
      resultsOf i (iterSession S t its es) = (List.range (nextCalls i its.length es)).map fun m => items[j + m]? := by
  induction es with
  | nil => intro _ t its _ _ _ j _ _; simp [iterSession, resultsOf, nextCalls]
  | cons e es ih =>
    intro hl t its hit hs hok j hj hj0
    have hl' : OnlyLooks es := fun w p hm => hl w p (List.mem_cons_of_mem _ hm)
    cases e with
    | start =>
      rw [iterSession, nextCalls]
      have := ih hl' (t.startIter S).1 (its ++ [(t.startIter S).2])
        (by rw [show (t.startIter S).1 = (t.iter S).1 from rfl, iter_iter]; exact hit)
        (fun _ => (Track.iter_fields S t).2.2.2)
        (by
          intro it hm
          rcases List.mem_append.mp hm with h | h
          · exact hok it h
          · rw [List.mem_singleton.mp h]; exact ⟨rfl, fun h => by cases h⟩) j
        (by
          intro it hm
          by_cases hi : i < its.length
          · rw [List.getElem?_append_left hi] at hm; exact hj it hm
          · have h0 := hj0 (List.getElem?_eq_none (by omega))
            rw [List.getElem?_append_right (by omega)] at hm
            obtain ⟨-, rfl⟩ : i - its.length = 0 ∧ (t.startIter S).2 = it := by
              rcases Nat.eq_zero_or_pos (i - its.length) with h | h
              · rw [h] at hm; exact ⟨h, by simpa using hm⟩
              · rw [List.getElem?_eq_none (by rw [List.length_singleton]; exact h)] at hm; exact absurd hm (by simp)
            rw [h0]; rfl)
        (by
          intro hn
          apply hj0
          rw [List.getElem?_eq_none_iff] at hn ⊢
          simp at hn; omega)
      rwa [List.length_append, List.length_singleton] at this
    | next k =>
      rw [iterSession, nextCalls]
      by_cases hk : k < its.length
      · rw [List.getElem?_eq_getElem hk]
        simp only
        have hsorted : t.sorted = true := hs (by rintro rfl; simp at hk)
        have hheap : t.heap = items := by rw [← hit]; simp [Track.iter, hsorted]
        have hokk := hok its[k] (List.getElem_mem hk)
        generalize hg : its[k] = it at hokk
        have hgk : its[k]? = some it := by rw [List.getElem?_eq_getElem hk, hg]
        have hok' : ∀ x ∈ its.set k (it.next t).2, IterOk items x := by
          intro x hx
          rcases List.mem_or_eq_of_mem_set hx with h | h
          · exact hok x h
          · rw [h]
            unfold LiveIter.next
            split
            · exact hokk
            · rw [hokk.1, Option.getD_none, hheap]
              cases hx : items[it.index]? with
              | none => exact ⟨rfl, fun _ => List.getElem?_eq_none_iff.mp hx⟩
              | some e =>
                refine ⟨rfl, fun h => ?_⟩
                rename_i hne
                exact absurd h hne
        have hne' : its.set k (it.next t).2 ≠ [] → t.sorted = true := fun _ => hsorted
        by_cases hki : k = i
        · subst hki
          have hji := hj it hgk
          have hres : (it.next t).1 = items[j]? := by
            unfold LiveIter.next
            split
            · rename_i he
              rw [List.getElem?_eq_none]; rw [← hji]; exact hokk.2 he
            · rw [hokk.1, Option.getD_none, hheap, hji]
              cases items[j]? <;> rfl
          have hcons : resultsOf k ((k, (it.next t).1) :: iterSession S t (its.set k (it.next t).2) es) =
              (it.next t).1 :: resultsOf k (iterSession S t (its.set k (it.next t).2) es) := by
            simp [resultsOf]
          rw [hcons, if_pos ⟨rfl, hk⟩, Nat.add_comm, List.range_succ_eq_map, List.map_cons, hres, List.map_map,
            Nat.add_zero]
          congr 1
          have hset : (its.set k (it.next t).2)[k]? = some (it.next t).2 := by
            rw [List.getElem?_set_self hk]
          have := ih hl' t _ hit hne' hok' (it.next t).2.index
            (by intro x hx; rw [hset] at hx; rw [← Option.some.inj hx]) (by intro hx; rw [hset] at hx; cases hx)
          rw [this, List.length_set]
          apply List.map_congr_left
          intro m _
          show items[(it.next t).2.index + m]? = items[j + (m + 1)]?
          unfold LiveIter.next
          split
          · rename_i he
            have := hokk.2 he
            simp only
            rw [List.getElem?_eq_none (by omega), List.getElem?_eq_none (by omega)]
          · rw [hokk.1, Option.getD_none, hheap]
            cases hx : items[it.index]? with
            | none =>
              have := List.getElem?_eq_none_iff.mp hx
              simp only
              rw [List.getElem?_eq_none (by omega), List.getElem?_eq_none (by omega)]
            | some e =>
              simp only
              rw [hji, Nat.add_assoc, Nat.add_comm 1 m]
        · have hcons : resultsOf i ((k, (it.next t).1) :: iterSession S t (its.set k (it.next t).2) es) =
              resultsOf i (iterSession S t (its.set k (it.next t).2) es) := by
            simp [resultsOf, hki]
          rw [hcons, if_neg (fun h => hki h.1), Nat.zero_add]
          have := ih hl' t _ hit hne' hok' j (by rw [List.getElem?_set_ne hki]; exact hj)
            (by rw [List.getElem?_set_ne hki]; exact hj0)
          rw [this, List.length_set]
      · rw [List.getElem?_eq_none (by omega)]
        simp only
        rw [if_neg (fun h => hk (by omega)), Nat.zero_add]
        exact ih hl' t its hit hs hok j hj hj0
    | op o =>
      rw [iterSession, nextCalls]
      have ho : ∀ w p, o ≠ .add w p := fun w p h => hl w p (by rw [h]; exact List.mem_cons_self)
      have hmap : its.map (LiveIter.after t (o.step S t)) = its := by
        rw [List.map_congr_left (fun it _ => after_look S t o ho it)]; exact List.map_id _
      rw [hmap]
      obtain ⟨-, h2, h3⟩ := step_look S t o ho
      exact ih hl' _ its (by rw [h2]; exact hit) (fun h => by rw [h3 (hs h)]; exact hs h) hok j hj hj0

theorem session_exhausted (S : ListSort) (i : Nat) (es : List IterEvent) :
    ∀ (t : Track) (its : List LiveIter), (∀ it, its[i]? = some it → it.exhausted = true) → i < its.length →
      ∀ r ∈ resultsOf i (iterSession S t its es), r = none := by
  induction es with
  | nil => intro t its _ _ r hr; simp [iterSession, resultsOf] at hr
  | cons e es ih =>
    intro t its hx hi r hr
    cases e with
    | start =>
      rw [iterSession] at hr
      exact ih _ _ (by rw [List.getElem?_append_left hi]; exact hx) (by simp; omega) r hr
    | next k =>
      rw [iterSession] at hr
      by_cases hk : k < its.length
      · rw [List.getElem?_eq_getElem hk] at hr
        simp only at hr
        by_cases hki : k = i
        · subst hki
          have he := hx its[k] (List.getElem?_eq_getElem hk)
          have hn : its[k].next t = (none, its[k]) := by unfold LiveIter.next; rw [if_pos he]
          rw [hn] at hr
          have hcons : resultsOf k ((k, none) :: iterSession S t (its.set k its[k]) es) =
              none :: resultsOf k (iterSession S t (its.set k its[k]) es) := by simp [resultsOf]
          simp only at hr
          rw [hcons] at hr
          rcases List.mem_cons.mp hr with h | h
          · exact h
          · rw [List.set_getElem_self] at h
            exact ih _ _ hx hi r h
        · have hcons : resultsOf i ((k, (its[k].next t).1) :: iterSession S t (its.set k (its[k].next t).2) es) =
              resultsOf i (iterSession S t (its.set k (its[k].next t).2) es) := by simp [resultsOf, hki]
          rw [hcons] at hr
          exact ih _ _ (by rw [List.getElem?_set_ne hki]; exact hx) (by simpa using hi) r hr
      · rw [List.getElem?_eq_none (by omega)] at hr
        exact ih _ _ hx hi r hr
    | op o =>
      rw [iterSession] at hr
      refine ih _ _ ?_ (by simpa using hi) r hr
      intro it hm
      rw [List.getElem?_map] at hm
      cases hg : its[i]? with
      | none => rw [hg] at hm; simp at hm
      | some x =>
        rw [hg] at hm
        simp only [Option.map_some, Option.some.injEq] at hm
        rw [← hm]
        have := hx x hg
        unfold LiveIter.after
        split <;> exact this

theorem session_stop (S : ListSort) (i : Nat) (es : List IterEvent) :
    ∀ (t : Track) (its : List LiveIter), ∀ a b, resultsOf i (iterSession S t its es) = a ++ none :: b →
      ∀ r ∈ b, r = none := by
  induction es with
  | nil => intro t its a b h; simp [iterSession, resultsOf] at h
  | cons e es ih =>
    intro t its a b h
    cases e with
    | start => rw [iterSession] at h; exact ih _ _ a b h
    | op o => rw [iterSession] at h; exact ih _ _ a b h
    | next k =>
      rw [iterSession] at h
      by_cases hk : k < its.length
      · rw [List.getElem?_eq_getElem hk] at h
        simp only at h
        by_cases hki : k = i
        · subst hki
          have hcons : resultsOf k ((k, (its[k].next t).1) :: iterSession S t (its.set k (its[k].next t).2) es) =
              (its[k].next t).1 :: resultsOf k (iterSession S t (its.set k (its[k].next t).2) es) := by simp [resultsOf]
          rw [hcons] at h
          cases a with
          | cons x a => exact ih _ _ a b (List.cons.inj h).2
          | nil =>
            obtain ⟨h1, h2⟩ := List.cons.inj h
            intro r hr
            rw [← h2] at hr
            refine session_exhausted S k es t _ ?_ (by simpa using hk) r hr
            intro it hm
            rw [List.getElem?_set_self hk] at hm
            rw [← Option.some.inj hm]
            unfold LiveIter.next at h1 ⊢
            split
            · assumption
            · rename_i hne
              rw [if_neg hne] at h1
              split
              · rename_i e he
                rw [he] at h1; cases h1
              · rfl
        · have hcons : resultsOf i ((k, (its[k].next t).1) :: iterSession S t (its.set k (its[k].next t).2) es) =
              resultsOf i (iterSession S t (its.set k (its[k].next t).2) es) := by simp [resultsOf, hki]
          rw [hcons] at h
          exact ih _ _ a b h
      · rw [List.getElem?_eq_none (by omega)] at h
        exact ih _ _ a b h

theorem step_contents_le (S : ListSort) {t : Track} (ht : t.WF) {o : TrackOp} (ho : o.Valid) :
    t.contents ≤ (o.step S t).contents := by
  obtain ⟨a, ha⟩ := Track.adds_exists t.length.val o
  rw [Track.step_contents S ht ho ha]
  exact Multiset.le_add_left _ _

theorem run_contents_le (S : ListSort) (ops : List TrackOp) : ∀ {t : Track}, t.WF → (∀ o ∈ ops, o.Valid) →
    t.contents ≤ (t.run S ops).contents := by
  induction ops with
  | nil => intro t _ _; exact le_refl _
  | cons o ops ih =>
    intro t ht ho
    have h1 := ho o List.mem_cons_self
    exact le_trans (step_contents_le S ht h1)
      (ih (Track.step_wf S ht h1).1 (fun x hx => ho x (List.mem_cons_of_mem _ hx)))

theorem session_member (S : ListSort) (es : List IterEvent) :
    ∀ (t : Track) (its : List LiveIter), t.WF → (∀ o ∈ trackOps es, o.Valid) →
      (∀ it ∈ its, ∀ l, it.frozen = some l → ∀ e ∈ l, e.placed ∈ t.contents) →
      ∀ i e, (i, some e) ∈ iterSession S t its es → e.placed ∈ (t.run S (trackOps es)).contents := by
  induction es with
  | nil => intro t its _ _ _ i e h; simp [iterSession] at h
  | cons ev es ih =>
    intro t its ht hv hf i e h
    cases ev with
    | start =>
      rw [iterSession] at h
      have h1 : (TrackOp.iterate).Valid := trivial
      refine ih _ _ (Track.step_wf S ht h1).1 (fun o ho => hv o (List.mem_cons_of_mem _ ho)) ?_ i e h
      intro it hm l hl x hx
      rcases List.mem_append.mp hm with g | g
      · exact Multiset.mem_of_le (step_contents_le S ht h1) (hf it g l hl x hx)
      · rw [List.mem_singleton.mp g] at hl; cases hl
    | op o =>
      rw [iterSession] at h
      have h1 : o.Valid := hv o List.mem_cons_self
      refine ih _ _ (Track.step_wf S ht h1).1 (fun o ho => hv o (List.mem_cons_of_mem _ ho)) ?_ i e h
      intro it hm l hl x hx
      obtain ⟨it0, hm0, rfl⟩ := List.mem_map.mp hm
      apply Multiset.mem_of_le (step_contents_le S ht h1)
      unfold LiveIter.after at hl
      split at hl
      · exact hf it0 hm0 l hl x hx
      · simp only [Option.some.injEq] at hl
        cases hfz : it0.frozen with
        | some l0 =>
          rw [hfz, Option.getD_some] at hl
          subst hl
          exact hf it0 hm0 _ hfz x hx
        | none =>
          rw [hfz, Option.getD_none] at hl
          subst hl
          exact Multiset.mem_coe.mpr (List.mem_map.mpr ⟨x, hx, rfl⟩)
    | next k =>
      rw [iterSession] at h
      have hv' : ∀ o ∈ trackOps es, o.Valid := hv
      show e.placed ∈ (t.run S (trackOps es)).contents
      by_cases hk : k < its.length
      · rw [List.getElem?_eq_getElem hk] at h
        rcases List.mem_cons.mp h with h | h
        · obtain ⟨-, h⟩ := Prod.mk.inj h
          apply Multiset.mem_of_le (run_contents_le S _ ht hv')
          unfold LiveIter.next at h
          split at h
          · cases h
          · split at h
            · rename_i x hx
              obtain rfl := Option.some.inj h
              have hmem := List.mem_of_getElem? hx
              cases hfz : (its[k]).frozen with
              | some l0 =>
                rw [hfz, Option.getD_some] at hmem
                exact hf its[k] (List.getElem_mem hk) _ hfz _ hmem
              | none =>
                rw [hfz, Option.getD_none] at hmem
                exact Multiset.mem_coe.mpr (List.mem_map.mpr ⟨_, hmem, rfl⟩)
            · cases h
        · refine ih _ _ ht hv' ?_ i e h
          intro it hm l hl x hx
          rcases List.mem_or_eq_of_mem_set hm with g | g
          · exact hf it g l hl x hx
          · have hfz : it.frozen = (its[k]).frozen := by
              rw [g]; unfold LiveIter.next; split
              · rfl
              · split <;> rfl
            exact hf its[k] (List.getElem_mem hk) l (hfz ▸ hl) x hx
      · rw [List.getElem?_eq_none (by omega)] at h
        exact ih _ _ ht hv' hf i e h

end Melodia
