/-
Association lists as dictionaries.
-/
import Verif.Model.Py
import Mathlib.Data.List.Nodup

set_option autoImplicit false

namespace Melodia
namespace Dict

variable {κ ν : Type} [DecidableEq κ]

theorem get_nil (k : κ) : Dict.get ([] : Dict κ ν) k = none := rfl

theorem get_set (d : Dict κ ν) (k k' : κ) (v : ν) :
    (d.set k v).get k' = if k = k' then some v else d.get k' := by
  induction d with
  | nil => rfl
  | cons x d ih =>
    obtain ⟨a, b⟩ := x
    rw [Dict.set]
    by_cases h : a = k
    · rw [if_pos h, Dict.get, Dict.get]
      subst h
      split <;> rfl
    · rw [if_neg h, Dict.get, Dict.get, ih]
      by_cases h2 : a = k'
      · rw [if_pos h2, if_pos h2, if_neg (by rintro rfl; exact h h2)]
      · rw [if_neg h2, if_neg h2]

theorem set_keys (d : Dict κ ν) (k : κ) (v : ν) :
    (d.set k v).map Prod.fst = if k ∈ d.map Prod.fst then d.map Prod.fst else d.map Prod.fst ++ [k] := by
  induction d with
  | nil => simp [Dict.set]
  | cons x d ih =>
    obtain ⟨a, b⟩ := x
    rw [Dict.set]
    by_cases h : a = k
    · rw [if_pos h, if_pos (by simp [h])]; rfl
    · rw [if_neg h, List.map_cons, ih]
      by_cases h2 : k ∈ d.map Prod.fst
      · rw [if_pos h2, if_pos (by rw [List.map_cons]; exact List.mem_cons_of_mem _ h2)]; rfl
      · rw [if_neg h2, if_neg (by rw [List.map_cons, List.mem_cons]; rintro (h3 | h3)
                                  · exact h h3.symm
                                  · exact h2 h3)]
        rfl

theorem set_nodup {d : Dict κ ν} (h : (d.map Prod.fst).Nodup) (k : κ) (v : ν) :
    ((d.set k v).map Prod.fst).Nodup := by
  rw [set_keys]
  split
  · exact h
  · rename_i hk
    exact List.nodup_append.2 ⟨h, List.nodup_singleton _, fun a ha b hb => by
      rw [List.mem_singleton] at hb; rintro rfl; exact hk (hb ▸ ha)⟩

theorem get_isSome {d : Dict κ ν} {k : κ} : (d.get k).isSome ↔ k ∈ d.map Prod.fst := by
  induction d with
  | nil => simp [Dict.get]
  | cons x d ih =>
    obtain ⟨a, b⟩ := x
    rw [Dict.get, List.map_cons, List.mem_cons]
    by_cases h : a = k
    · rw [if_pos h]; simp [h]
    · rw [if_neg h, ih]
      constructor
      · exact Or.inr
      · rintro (h2 | h2)
        · exact absurd h2.symm h
        · exact h2

theorem get_of_mem {d : Dict κ ν} (h : (d.map Prod.fst).Nodup) {k : κ} {v : ν} (hm : (k, v) ∈ d) :
    d.get k = some v := by
  induction d with
  | nil => cases hm
  | cons x d ih =>
    obtain ⟨a, b⟩ := x
    rw [List.map_cons, List.nodup_cons] at h
    rw [Dict.get]
    rcases List.mem_cons.1 hm with h1 | h1
    · cases h1; rw [if_pos rfl]
    · rw [if_neg, ih h.2 h1]
      rintro rfl
      exact h.1 (List.mem_map.2 ⟨_, h1, rfl⟩)

theorem mem_of_get {d : Dict κ ν} {k : κ} {v : ν} (h : d.get k = some v) : (k, v) ∈ d := by
  induction d with
  | nil => cases h
  | cons x d ih =>
    obtain ⟨a, b⟩ := x
    rw [Dict.get] at h
    by_cases h1 : a = k
    · rw [if_pos h1] at h; cases h; subst h1; simp
    · rw [if_neg h1] at h; exact List.mem_cons_of_mem _ (ih h)

theorem get_del {d : Dict κ ν} (h : (d.map Prod.fst).Nodup) (k k' : κ) :
    (d.del k).get k' = if k = k' then none else d.get k' := by
  induction d with
  | nil => simp [Dict.del, Dict.get]
  | cons x d ih =>
    obtain ⟨a, b⟩ := x
    rw [List.map_cons, List.nodup_cons] at h
    rw [Dict.del]
    by_cases h1 : a = k
    · rw [if_pos h1]
      by_cases h2 : k = k'
      · rw [if_pos h2]
        subst h1 h2
        by_contra hc
        exact h.1 (get_isSome.1 (by cases hg : Dict.get d a with
          | none => exact absurd hg hc
          | some v => rfl))
      · rw [if_neg h2, Dict.get, if_neg (by rintro rfl; exact h2 h1.symm)]
    · rw [if_neg h1, Dict.get, Dict.get, ih h.2]
      by_cases h2 : k = k'
      · rw [if_pos h2, if_neg (by rintro rfl; exact h1 h2.symm)]
        simp [h2]
      · simp [h2]

theorem del_keys_sublist (d : Dict κ ν) (k : κ) : ((d.del k).map Prod.fst).Sublist (d.map Prod.fst) := by
  induction d with
  | nil => exact List.Sublist.refl _
  | cons x d ih =>
    obtain ⟨a, b⟩ := x
    rw [Dict.del]
    split
    · exact List.sublist_cons_self _ _
    · exact ih.cons_cons _

theorem del_nodup {d : Dict κ ν} (h : (d.map Prod.fst).Nodup) (k : κ) :
    ((d.del k).map Prod.fst).Nodup := h.sublist (del_keys_sublist d k)

/-- Setting a new key appends. -/
theorem set_new {d : Dict κ ν} {k : κ} (h : k ∉ d.map Prod.fst) (v : ν) : d.set k v = d ++ [(k, v)] := by
  induction d with
  | nil => rfl
  | cons x d ih =>
    obtain ⟨a, b⟩ := x
    rw [List.map_cons, List.mem_cons, not_or] at h
    rw [Dict.set, if_neg (fun e => h.1 e.symm), ih h.2]
    rfl

theorem mem_set {d : Dict κ ν} {k : κ} {v : ν} {x : κ × ν} (h : x ∈ d.set k v) : x ∈ d ∨ x = (k, v) := by
  induction d with
  | nil => exact Or.inr (List.mem_singleton.1 h)
  | cons y d ih =>
    obtain ⟨a, b⟩ := y
    rw [Dict.set] at h
    split at h
    · rename_i e
      rcases List.mem_cons.1 h with rfl | h
      · exact Or.inr (by rw [e])
      · exact Or.inl (List.mem_cons_of_mem _ h)
    · rcases List.mem_cons.1 h with rfl | h
      · exact Or.inl (by simp)
      · rcases ih h with h | h
        · exact Or.inl (List.mem_cons_of_mem _ h)
        · exact Or.inr h

end Dict
end Melodia
