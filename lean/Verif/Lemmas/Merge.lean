/-
Lemmas about the order of the channels and the merged time signature.
-/
import Verif.Spec.Merge
import Verif.Lemmas.LenientFile
import Verif.Props.Signature
import Verif.Props.MidiRead

set_option autoImplicit false

namespace Melodia

theorem mem_firsts {l : List Nat} {x : Nat} : x ∈ firsts l ↔ x ∈ l := by
  induction l with
  | nil => simp [firsts]
  | cons y l ih =>
    simp only [firsts, List.mem_cons, List.mem_filter, ih, decide_eq_true_eq]
    by_cases h : x = y <;> simp [h]

/-- The order of first occurrence, adding elements at the end. -/
theorem firsts_append (l : List Nat) (x : Nat) :
    firsts (l ++ [x]) = if x ∈ l then firsts l else firsts l ++ [x] := by
  induction l with
  | nil => simp [firsts]
  | cons y l ih =>
    rw [List.cons_append, firsts, ih, firsts]
    by_cases h : x = y
    · subst h
      simp only [List.mem_cons, true_or, if_true]
      by_cases hl : x ∈ l
      · rw [if_pos hl]
      · rw [if_neg hl, List.filter_append]; simp
    · by_cases hl : x ∈ l
      · simp [hl]
      · simp [hl, h, List.filter_append]

/-- The keys of the dictionary of events are the channels in the order of their first note event. -/
theorem coreOf_keys (es : List (Nat × Ev)) (hw : ∀ x ∈ es, x.2.Wf) :
    (coreOf es).events.map Prod.fst =
      (firsts ((es.filterMap (fun x => x.2.note?)).map (fun n => n.1))).map (fun c : Nat => (c : Int)) := by
  induction es using List.reverseRecOn with
  | nil => rfl
  | append_singleton es x ih =>
    obtain ⟨d, e⟩ := x
    have ih := ih (fun y hy => hw y (by simp [hy]))
    have hwe : e.Wf := hw (d, e) (by simp)
    have hc : coreOf (es ++ [(d, e)]) = (coreOf es).step (d, e) := by unfold coreOf; simp
    rw [hc, List.filterMap_append, List.map_append]
    rcases hn : e.note? with _ | ⟨c, on, p, v⟩
    · rw [Core.step_other hwe hn, ih]
      simp [hn]
    · rw [Core.step_note hwe hn]
      simp only [List.filterMap_cons, hn, List.filterMap_nil, List.map_cons, List.map_nil]
      rw [firsts_append]
      unfold appendEvent
      rw [Dict.set_keys, ih]
      by_cases hm : c ∈ (es.filterMap (fun x => x.2.note?)).map (fun n => n.1)
      · rw [if_pos hm, if_pos]
        exact List.mem_map.2 ⟨c, mem_firsts.2 hm, rfl⟩
      · rw [if_neg hm, if_neg, List.map_append]
        · rfl
        · intro hh
          obtain ⟨c', h1, h2⟩ := List.mem_map.1 hh
          have : c' = c := by exact_mod_cast h2
          exact hm (mem_firsts.1 (this ▸ h1))

theorem channelsOf_keys (es : List (Nat × Ev)) (hw : ∀ x ∈ es, x.2.Wf) :
    (MidiReader.channelsOf (coreOf es).events).map Prod.fst = (channelOrder es).map (fun c : Nat => (c : Int)) := by
  have h := coreOf_keys es hw
  unfold MidiReader.channelsOf channelOrder
  cases hd : (coreOf es).events with
  | nil =>
    rw [hd] at h
    have : firsts ((es.filterMap (fun x => x.2.note?)).map (fun n => n.1)) = [] := by
      simpa using h.symm
    rw [this]
    rfl
  | cons x l =>
    rw [hd] at h
    rw [if_neg (by simp)]
    split
    · rename_i h0
      rw [h0] at h
      simp at h
    · exact h

/-- The fold of the code is the winner. -/
theorem foldl_winner : ∀ (l : List Signature) (acc : Signature), (∀ s ∈ l, s.Valid) → acc.Valid →
    Winner acc l (l.foldl (fun acc s => if s.gt acc then s else acc) acc) := by
  intro l
  induction l with
  | nil => intro acc _ _; exact .nil _
  | cons s l ih =>
    intro acc hl ha
    have hs := hl s (by simp)
    have hl' : ∀ x ∈ l, x.Valid := fun x hx => hl x (by simp [hx])
    have hgt : s.gt acc = true ↔ Overtakes s acc := by
      unfold Overtakes
      by_cases hd : acc.denominator ≤ s.denominator
      · rw [(C05_order_partial s acc hs ha hd).2.2.1]
        constructor
        · intro h; exact Or.inl ⟨hd, h⟩
        · rintro (h | h)
          · exact h.2
          · omega
      · rw [(C05_order_reversed s acc hs ha (by omega)).2.2.1]
        constructor
        · intro h; exact Or.inr ⟨by omega, h⟩
        · rintro (h | h)
          · exact absurd h.1 hd
          · exact h.2
    rw [List.foldl_cons]
    by_cases h : s.gt acc = true
    · rw [if_pos h]; exact .takes (hgt.1 h) (ih s hl' hs)
    · rw [if_neg h]; exact .keeps (fun hh => h (hgt.2 hh)) (ih acc hl' ha)

theorem Winner.unique {acc : Signature} {l : List Signature} {r r' : Signature} (h : Winner acc l r)
    (h' : Winner acc l r') : r = r' := by
  induction h with
  | nil => cases h'; rfl
  | takes h _ ih => cases h' with
    | takes _ hr => exact ih hr
    | keeps k _ => exact absurd h k
  | keeps h _ ih => cases h' with
    | takes k _ => exact absurd k h
    | keeps _ hr => exact ih hr

theorem Winner.mem {acc : Signature} {l : List Signature} {r : Signature} (h : Winner acc l r) :
    r = acc ∨ r ∈ l := by
  induction h with
  | nil => exact Or.inl rfl
  | takes _ _ ih =>
    rcases ih with h | h
    · exact Or.inr (by rw [h]; exact List.mem_cons_self)
    · exact Or.inr (List.mem_cons_of_mem _ h)
  | keeps _ _ ih =>
    rcases ih with h | h
    · exact Or.inl h
    · exact Or.inr (List.mem_cons_of_mem _ h)

/-- If no denominator is smaller than one before it, the winner is a longest. -/
theorem Winner.sorted {acc : Signature} {l : List Signature} {r : Signature} (h : Winner acc l r)
    (hs : (acc :: l).Pairwise (fun a b => a.denominator ≤ b.denominator)) :
    ∀ s ∈ acc :: l, s.val ≤ r.val := by
  induction h with
  | nil => intro s hs; simp only [List.mem_singleton] at hs; rw [hs]
  | @takes acc s l r ho _ ih =>
    rw [List.pairwise_cons] at hs
    have ih := ih hs.2
    intro x hx
    rcases List.mem_cons.1 hx with rfl | hx
    · have h1 := hs.1 s (by simp)
      rcases ho with ho | ho
      · exact ho.2.le.trans (ih s (by simp))
      · omega
    · exact ih x hx
  | @keeps acc s l r ho _ ih =>
    rw [List.pairwise_cons, List.pairwise_cons] at hs
    have ih := ih (List.pairwise_cons.2 ⟨fun x hx => hs.1 x (by simp [hx]), hs.2.2⟩)
    intro x hx
    rcases List.mem_cons.1 hx with rfl | hx
    · exact ih x (by simp)
    · rcases List.mem_cons.1 hx with rfl | hx
      · refine le_trans (not_lt.1 fun hh => ho (Or.inl ⟨hs.1 x (by simp), hh⟩)) (ih acc (by simp))
      · exact ih x (by simp [hx])

end Melodia
