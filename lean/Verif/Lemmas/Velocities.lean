/-
Files that differ in velocities only: helper lemmas for C82.
-/
import Verif.Lemmas.MidiWrite

set_option autoImplicit false

namespace Melodia

/-! ### Lists -/

theorem flatMap_comm {α β : Type} (c : α → List β) (x : List β) : ∀ l : List α,
    (∀ b ∈ l, c b ++ x = x ++ c b) → l.flatMap c ++ x = x ++ l.flatMap c := by
  intro l
  induction l with
  | nil => intro _; simp
  | cons b l ih =>
    intro h
    rw [List.flatMap_cons, List.append_assoc, ih (fun y hy => h y (by simp [hy])), ← List.append_assoc,
      h b (by simp), List.append_assoc]

/-- Two arrangements of the same elements, both sorted by a key, give the same concatenation if contributions of elements
of one key commute. -/
theorem flatMap_group {α β γ : Type} [LinearOrder γ] (k : α → γ) (c : α → List β) : ∀ (A B : List α), A.Perm B →
    A.Pairwise (fun a b => k a ≤ k b) → B.Pairwise (fun a b => k a ≤ k b) →
    (∀ x ∈ A, ∀ y ∈ A, k x = k y → c x ++ c y = c y ++ c x) → A.flatMap c = B.flatMap c := by
  intro A
  induction A with
  | nil => intro B h _ _ _; rw [h.nil_eq]
  | cons a A ih =>
    intro B h hA hB hc
    obtain ⟨B1, B2, rfl⟩ := List.append_of_mem (h.mem_iff.mp (List.mem_cons_self))
    have hp : A.Perm (B1 ++ B2) := (h.trans List.perm_middle).cons_inv
    rw [List.pairwise_cons] at hA
    have hB' : (B1 ++ B2).Pairwise (fun a b => k a ≤ k b) := by
      refine hB.sublist ?_
      exact List.Sublist.append_left (List.sublist_cons_self a B2) B1
    have heq : ∀ b ∈ B1, k b = k a := by
      intro b hb
      refine le_antisymm ?_ ?_
      · exact (List.pairwise_append.mp hB).2.2 b hb a (by simp)
      · exact hA.1 b (hp.mem_iff.mpr (by simp [hb]))
    rw [List.flatMap_cons, ih (B1 ++ B2) hp hA.2 hB' (fun x hx y hy => hc x (by simp [hx]) y (by simp [hy])),
      List.flatMap_append, List.flatMap_append, List.flatMap_cons, ← List.append_assoc, ← List.append_assoc,
      flatMap_comm c (c a) B1]
    intro b hb
    exact hc b (List.mem_cons_of_mem _ (hp.mem_iff.mpr (by simp [hb]))) a (by simp) (heq b hb)

/-- Sorted lists are equal if they agree on every key. -/
theorem sorted_ext {α : Type} (key : α → Int) : ∀ (l l' : List α), l.Pairwise (fun a b => key a ≤ key b) →
    l'.Pairwise (fun a b => key a ≤ key b) →
    (∀ x, l.filter (fun a => decide (key a = x)) = l'.filter (fun a => decide (key a = x))) → l = l' := by
  intro l
  induction l with
  | nil =>
    intro l' _ _ h
    cases l' with
    | nil => rfl
    | cons b l' => have := h (key b); simp at this
  | cons a l ih =>
    intro l' hl hl' h
    cases l' with
    | nil => have := h (key a); simp at this
    | cons b l' =>
      have mem : ∀ x, x ∈ a :: l ↔ x ∈ b :: l' := by
        intro x
        have := h (key x)
        constructor
        · intro hx
          have h1 : x ∈ (a :: l).filter (fun a => decide (key a = key x)) := List.mem_filter.mpr ⟨hx, by simp⟩
          rw [this] at h1
          exact (List.mem_filter.mp h1).1
        · intro hx
          have h1 : x ∈ (b :: l').filter (fun a => decide (key a = key x)) := List.mem_filter.mpr ⟨hx, by simp⟩
          rw [← this] at h1
          exact (List.mem_filter.mp h1).1
      rw [List.pairwise_cons] at hl hl'
      have h1 : key a ≤ key b := by
        rcases List.mem_cons.mp ((mem b).mpr (by simp)) with e | hb
        · rw [e]
        · exact hl.1 b hb
      have h2 : key b ≤ key a := by
        rcases List.mem_cons.mp ((mem a).mp (by simp)) with e | hb
        · rw [e]
        · exact hl'.1 a hb
      have hk : key b = key a := le_antisymm h2 h1
      have hab : a = b := by
        have := h (key a)
        rw [List.filter_cons_of_pos (by simp), List.filter_cons_of_pos (by simp [hk])] at this
        exact (List.cons.inj this).1
      subst hab
      rw [ih l' hl.2 hl'.2]
      intro x
      have := h x
      by_cases hx : key a = x
      · rw [List.filter_cons_of_pos (by simp [hx]), List.filter_cons_of_pos (by simp [hx])] at this
        exact (List.cons.inj this).2
      · rwa [List.filter_cons_of_neg (by simp [hx]), List.filter_cons_of_neg (by simp [hx])] at this

/-! ### Messages without their velocities -/

/-- Forget the velocity of a note-on message. -/
def Msg.mute : Msg → Msg
  | .noteOn c p _ => .noteOn c p 0
  | m => m

/-- The same for messages with times. -/
def muted (x : Nat × Msg) : Nat × Msg := (x.1, x.2.mute)

/-- What a file shows of a placed note apart from its velocity. -/
def Entry.shape (e : Entry) : ℚ × Int × ℚ := (e.1.val, e.2.tone.pitch, e.2.duration.val)

namespace Writer
variable {w : Writer}

/-- Muted messages of a note of the given shape. -/
def shapeMsgs (w : Writer) (q : ℚ × Int × ℚ) : List (Nat × Msg) :=
  [(pulsesOf w.ppq q.1, .noteOn w.channel.toNat (q.2.1 + w.middleCDelta).toNat 0),
   (pulsesOf w.ppq q.1 + pulsesOf w.ppq q.2.2, .noteOff w.channel.toNat (q.2.1 + w.middleCDelta).toNat 64)]

theorem noteMsgs_muted (w : Writer) (items : List Entry) :
    (noteMsgs w items).map muted = (items.map Entry.shape).flatMap (shapeMsgs w) := by
  unfold noteMsgs
  rw [List.map_flatMap, List.flatMap_map]
  rfl

theorem sortedMsgs_muted (w : Writer) (items : List Entry) :
    (sortedMsgs w items).map muted =
      stableSort (ltKey (fun x : Nat × Msg => (x.1 : Int))) ((items.map Entry.shape).flatMap (shapeMsgs w)) := by
  rw [← noteMsgs_muted, stableSort_map]
  rfl

/-- The muted messages depend on the sorted shapes only, if notes last at least a pulse. -/
theorem sortedMsgs_shapes (w : Writer) (A B : List Entry) (hperm : (A.map Entry.shape).Perm (B.map Entry.shape))
    (hA : A.Pairwise (fun a b => Entry.pitchKey a ≤ Entry.pitchKey b))
    (hB : B.Pairwise (fun a b => Entry.pitchKey a ≤ Entry.pitchKey b))
    (hd : ∀ e ∈ A, 1 ≤ pulsesOf w.ppq e.2.duration.val) :
    (sortedMsgs w A).map muted = (sortedMsgs w B).map muted := by
  rw [sortedMsgs_muted, sortedMsgs_muted]
  refine sorted_ext (fun x : Nat × Msg => (x.1 : Int)) _ _ (stableSort_sorted _ _) (stableSort_sorted _ _) ?_
  intro X
  rw [stableSort_filter, stableSort_filter]
  congr 1
  rw [List.filter_flatMap, List.filter_flatMap]
  refine flatMap_group (fun q : ℚ × Int × ℚ => (toLex (q.1, q.2.1) : ℚ ×ₗ Int)) _ _ _ hperm ?_ ?_ ?_
  · rw [List.pairwise_map]
    exact hA
  · rw [List.pairwise_map]
    exact hB
  · intro x hx y hy hxy
    obtain ⟨e, he, rfl⟩ := List.mem_map.mp hx
    obtain ⟨f, hf, rfl⟩ := List.mem_map.mp hy
    have hxy := Prod.mk.inj (toLex.injective hxy)
    have d1 := hd e he
    have d2 := hd f hf
    simp only [shapeMsgs, ← hxy.1, ← hxy.2]
    have e1 : (Entry.shape e).2.2 = e.2.duration.val := rfl
    have e2 : (Entry.shape f).2.2 = f.2.duration.val := rfl
    rw [e1, e2]
    generalize pulsesOf w.ppq e.2.duration.val = d at d1
    generalize pulsesOf w.ppq f.2.duration.val = d' at d2
    generalize pulsesOf w.ppq (Entry.shape e).1 = o
    by_cases h : (o : Int) = X
    · have h1 : ¬ (((o + d : Nat) : Int) = X) := by omega
      have h2 : ¬ (((o + d' : Nat) : Int) = X) := by omega
      simp only [List.filter_cons, List.filter_nil, h, h1, h2, decide_true, decide_false, if_true, if_false,
        Bool.false_eq_true]
    · by_cases h1 : ((o + d : Nat) : Int) = X <;> by_cases h2 : ((o + d' : Nat) : Int) = X
      · have : d = d' := by omega
        rw [this]
      all_goals simp only [List.filter_cons, List.filter_nil, h, h1, h2, decide_true, decide_false, if_true, if_false,
          Bool.false_eq_true, List.nil_append, List.append_nil]

theorem deltaMsgs_muted : ∀ (l : List (Nat × Msg)) (last : Nat),
    (deltaMsgs last l).map muted = deltaMsgs last (l.map muted) := by
  intro l
  induction l with
  | nil => intro _; rfl
  | cons x l ih =>
    intro last
    obtain ⟨t, m⟩ := x
    rw [deltaMsgs, List.map_cons, ih, List.map_cons]
    rfl

theorem allMsgs_muted (w : Writer) (s : Signature) (tempo : Nat) {A B : List Entry}
    (h : (sortedMsgs w A).map muted = (sortedMsgs w B).map muted) :
    (allMsgs w s tempo A).map muted = (allMsgs w s tempo B).map muted := by
  unfold allMsgs
  rw [List.map_append, List.map_append, List.map_append, List.map_append, deltaMsgs_muted, deltaMsgs_muted, h]

theorem mute_length (m : Msg) : m.mute.bytes.length = m.bytes.length := by cases m <;> rfl

theorem bodyBytes_muted_length : ∀ l : List (Nat × Msg), (bodyBytes (l.map muted)).length = (bodyBytes l).length := by
  intro l
  induction l with
  | nil => rfl
  | cons x l ih =>
    obtain ⟨d, m⟩ := x
    simp only [List.map_cons, muted, bodyBytes, List.length_append, ih, mute_length]

end Writer

end Melodia
