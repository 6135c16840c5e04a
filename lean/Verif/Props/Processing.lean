/-
Property theorems C28-C29 (src/melodia/processing/track.py). `gauss` is an arbitrary sequence of
floats (including NaN and infinities): the outcomes of the random generator.
-/
import Verif.Lemmas.Processing
import Verif.Lemmas.CPySort

set_option autoImplicit false

namespace Melodia
variable [UnicodeDigits]

/-- A placed note without its velocity. -/
def withoutVelocity (p : ℚ × Note) : ℚ × Tone × Signature := (p.1, p.2.tone, p.2.duration)

/-! ### C28 -/

/-- C28: if the call returns `u`, then `u` has the signature of `t` and, apart from velocities, exactly the
placed notes of `t`; positions are yielded in the same sequence. -/
theorem C28_result (S : ListSort) (t : Track) (ht : t.Reachable S) (lo hi mean variance : PyFloat)
    (gauss : Nat → PyFloat) (u : Track)
    (hu : (randomizeVelocities S t lo hi mean variance gauss).2 = .ok u) :
    u.signature = t.signature ∧ u.len = t.len ∧
    u.contents.map withoutVelocity = t.contents.map withoutVelocity ∧
    (u.items S).map (fun e => e.1.val) = (t.items S).map (fun e => e.1.val) := by
  by_cases h : (∃ q, lo = .fin q ∧ 0 ≤ q ∧ q ≤ 1) ∧ (∃ q, hi = .fin q ∧ 0 ≤ q ∧ q ≤ 1) ∧
      (∃ q, mean = .fin q ∧ 0 ≤ q ∧ q ≤ 1) ∧ (PyFloat.fin 0).le variance = true
  · obtain ⟨⟨l, rfl, hl⟩, ⟨hh, rfl, hhh⟩, ⟨m, rfl, hm⟩, hv⟩ := h
    obtain ⟨u', h1, h2, h3, h4⟩ := randomizeVelocities_spec S ht.wf hl hhh hm hv gauss
    rw [h1] at hu
    cases hu
    have hc : u.contents.map withoutVelocity = t.contents.map withoutVelocity := by
      rw [h4, ← Track.items_placed S t, Multiset.map_coe, Multiset.map_coe, List.map_map, List.map_map,
        reVelocity_map _ (fun s n v => rfl)]
    refine ⟨h3, ?_, hc, ?_⟩
    · rw [Track.len_eq_card, Track.len_eq_card, ← Multiset.card_map withoutVelocity, hc, Multiset.card_map]
    · refine List.Perm.eq_of_pairwise (le := fun x y => x ≤ y) (fun x y _ _ h1 h2 => le_antisymm h1 h2)
        (List.pairwise_map.mpr (Track.iter_sorted S h2)) (List.pairwise_map.mpr (Track.iter_sorted S ht.wf)) ?_
      have := congrArg (Multiset.map Prod.fst) hc
      rw [← Track.items_placed S u, ← Track.items_placed S t] at this
      simp only [Multiset.map_coe, List.map_map] at this
      exact Multiset.coe_eq_coe.mp this
  · rw [randomizeVelocities_bad S t gauss h] at hu
    cases hu

/-- C28: whether or not the call succeeds, the input track is unchanged: same signature, length, number of
notes and placed notes, and iteration yields the same sequence as before. -/
theorem C28_input_unchanged (S : ListSort) (t : Track) (lo hi mean variance : PyFloat)
    (gauss : Nat → PyFloat) :
    let t' := (randomizeVelocities S t lo hi mean variance gauss).1
    t'.signature = t.signature ∧ t'.length = t.length ∧ t'.len = t.len ∧ t'.contents = t.contents ∧
      t'.items S = t.items S := by
  intro t'
  have : t' = t ∨ t' = (t.iter S).1 := by
    show (randomizeVelocities S t lo hi mean variance gauss).1 = t ∨
      (randomizeVelocities S t lo hi mean variance gauss).1 = (t.iter S).1
    unfold randomizeVelocities
    split_ifs
    all_goals first | exact Or.inl rfl | exact Or.inr rfl
  rcases this with h | h
  · rw [h]; exact ⟨rfl, rfl, rfl, rfl, rfl⟩
  · rw [h]
    obtain ⟨h1, -, h3, -⟩ := Track.iter_fields S t
    refine ⟨h1, h3, (Track.iter_perm S t).length_eq, Track.iter_contents S t, ?_⟩
    show ((t.iter S).1.iter S).2 = (t.iter S).2
    rw [Track.iter_iter]

omit [UnicodeDigits] in
theorem key_le_prefix {a b : Entry} (h : Entry.key a ≤ Entry.key b) :
    (toLex (a.1.val, toLex (a.2.tone.pitch, a.2.duration.val)) : ℚ ×ₗ ℤ ×ₗ ℚ) ≤
      toLex (b.1.val, toLex (b.2.tone.pitch, b.2.duration.val)) := by
  unfold Entry.key at h
  rw [Prod.Lex.toLex_le_toLex] at h ⊢
  rcases h with h | ⟨h1, h⟩
  · exact Or.inl h
  · refine Or.inr ⟨h1, ?_⟩
    simp only at h ⊢
    rw [Prod.Lex.toLex_le_toLex] at h ⊢
    rcases h with h | ⟨h2, h⟩
    · exact Or.inl h
    · refine Or.inr ⟨h2, ?_⟩
      simp only at h ⊢
      rw [Prod.Lex.toLex_le_toLex] at h
      rcases h with h | ⟨h3, h⟩
      · exact h.le
      · exact h3.le

/-- C28 in iteration order: when notes of equal pitch and position have consistent durations (the
comparison bug C05 can otherwise reorder them) the `i`-th note of the result has position, tone and
duration of the `i`-th note of the input. -/
theorem C28_sequence_consistent (S : ListSort) (t : Track) (ht : t.Reachable S)
    (hcon : ConsistentPlaced t.contents) (lo hi mean variance : PyFloat) (gauss : Nat → PyFloat) (u : Track)
    (hu : (randomizeVelocities S t lo hi mean variance gauss).2 = .ok u) :
    (u.items S).map (fun e => (e.1.val, e.2.tone.pitch, e.2.duration.val)) =
      (t.items S).map (fun e => (e.1.val, e.2.tone.pitch, e.2.duration.val)) := by
  by_cases h : (∃ q, lo = .fin q ∧ 0 ≤ q ∧ q ≤ 1) ∧ (∃ q, hi = .fin q ∧ 0 ≤ q ∧ q ≤ 1) ∧
      (∃ q, mean = .fin q ∧ 0 ≤ q ∧ q ≤ 1) ∧ (PyFloat.fin 0).le variance = true
  · have hc := (C28_result S t ht lo hi mean variance gauss u hu).2.2.1
    obtain ⟨⟨l, rfl, hl⟩, ⟨hh, rfl, hhh⟩, ⟨m, rfl, hm⟩, hv⟩ := h
    obtain ⟨u', h1, h2, h3, h4⟩ := randomizeVelocities_spec S ht.wf hl hhh hm hv gauss
    rw [h1] at hu
    cases hu
    have hcu : ConsistentPlaced u.contents := by
      intro a ha b hb hab hp
      have mem : ∀ x ∈ u.contents, ∃ y ∈ t.contents, withoutVelocity y = withoutVelocity x := by
        intro x hx
        have := Multiset.mem_map_of_mem withoutVelocity hx
        rw [hc] at this
        exact Multiset.mem_map.mp this
      obtain ⟨a', ha', ea⟩ := mem a ha
      obtain ⟨b', hb', eb⟩ := mem b hb
      simp only [withoutVelocity, Prod.mk.injEq] at ea eb
      have := hcon a' ha' b' hb' (by rw [ea.1, eb.1, hab]) (by rw [ea.2.1, eb.2.1, hp])
      rwa [ea.2.2, eb.2.2] at this
    have hs : ∀ {x : Track}, x.WF → ConsistentPlaced x.contents → ((x.items S).map (fun e =>
        (toLex (e.1.val, toLex (e.2.tone.pitch, e.2.duration.val)) : ℚ ×ₗ ℤ ×ₗ ℚ))).Pairwise
          (fun p q => p ≤ q) := by
      intro x hx hxc
      rw [List.pairwise_map]
      exact (Track.iter_sortedKey S hx hxc).imp (fun h => key_le_prefix h)
    have key : (u.items S).map (fun e =>
        (toLex (e.1.val, toLex (e.2.tone.pitch, e.2.duration.val)) : ℚ ×ₗ ℤ ×ₗ ℚ)) =
        (t.items S).map (fun e =>
        (toLex (e.1.val, toLex (e.2.tone.pitch, e.2.duration.val)) : ℚ ×ₗ ℤ ×ₗ ℚ)) := by
      refine List.Perm.eq_of_pairwise (le := fun x y => x ≤ y) (fun x y _ _ h1 h2 => le_antisymm h1 h2)
        (hs h2 hcu) (hs ht.wf hcon) ?_
      have := congrArg (Multiset.map (fun q : ℚ × Tone × Signature =>
        (toLex (q.1, toLex (q.2.1.pitch, q.2.2.val)) : ℚ ×ₗ ℤ ×ₗ ℚ))) hc
      rw [← Track.items_placed S u, ← Track.items_placed S t] at this
      simp only [Multiset.map_coe, List.map_map] at this
      exact Multiset.coe_eq_coe.mp this
    have := congrArg (List.map (fun k : ℚ ×ₗ ℤ ×ₗ ℚ =>
      ((ofLex k).1, (ofLex (ofLex k).2).1, (ofLex (ofLex k).2).2))) key
    simpa [List.map_map, Function.comp_def] using this
  · rw [randomizeVelocities_bad S t gauss h] at hu
    cases hu

/-! ### C29 -/

/-- C29: with parameters in the documented ranges the call succeeds whatever the generator returns, and
every velocity lies in [minimum, maximum]. -/
theorem C29_in_range (S : ListSort) (t : Track) (ht : t.Reachable S) (lo hi mean : ℚ) (variance : PyFloat)
    (h0 : 0 ≤ lo) (h1 : lo ≤ hi) (h2 : hi ≤ 1) (hm : 0 ≤ mean ∧ mean ≤ 1)
    (hv : variance = .posInf ∨ ∃ q : ℚ, variance = .fin q ∧ 0 ≤ q) (gauss : Nat → PyFloat) :
    ∃ u, (randomizeVelocities S t (.fin lo) (.fin hi) (.fin mean) variance gauss).2 = .ok u ∧
      ∀ p ∈ u.contents, lo ≤ p.2.velocity ∧ p.2.velocity ≤ hi := by
  have hvar : (PyFloat.fin 0).le variance = true := by
    rcases hv with rfl | ⟨q, rfl, hq⟩
    · rfl
    · simp [PyFloat.le, hq]
  obtain ⟨u, g1, g2, g3, g4⟩ := randomizeVelocities_spec S ht.wf ⟨h0, h1.trans h2⟩ ⟨h0.trans h1, h2⟩ hm hvar gauss
  refine ⟨u, by rw [g1], ?_⟩
  intro p hp
  rw [g4] at hp
  obtain ⟨e, he, rfl⟩ := List.mem_map.mp (Multiset.mem_coe.mp hp)
  obtain ⟨j, hj⟩ := reVelocity_mem he
  show lo ≤ e.2.velocity ∧ e.2.velocity ≤ hi
  rw [hj]
  obtain ⟨q, hq, hb, -⟩ := clampVelocity_spec lo hi (gauss j)
  rw [clampQ_eq] at hq
  cases hq
  exact hb h1

/-- C29: which note gets which random value: the `i`-th note in iteration order gets the `i`-th value,
clamped. -/
theorem C29_velocities (S : ListSort) (t : Track) (ht : t.Reachable S) (lo hi mean : ℚ) (variance : PyFloat)
    (h0 : 0 ≤ lo) (h1 : lo ≤ hi) (h2 : hi ≤ 1) (hm : 0 ≤ mean ∧ mean ≤ 1)
    (hv : (PyFloat.fin 0).le variance = true) (g : Nat → ℚ) (hg : ∀ i, lo ≤ g i ∧ g i ≤ hi) :
    ∃ u, (randomizeVelocities S t (.fin lo) (.fin hi) (.fin mean) variance (fun i => .fin (g i))).2 = .ok u ∧
      u.contents = ((t.items S).zipIdx.map
        (fun x => (x.1.1.val, (⟨x.1.2.tone, x.1.2.duration, g x.2⟩ : Note))) : Multiset _) := by
  obtain ⟨u, g1, g2, g3, g4⟩ := randomizeVelocities_spec S ht.wf ⟨h0, h1.trans h2⟩ ⟨h0.trans h1, h2⟩ hm hv
    (fun i => .fin (g i))
  refine ⟨u, by rw [g1], ?_⟩
  rw [g4]
  congr 1
  have hq : ∀ i, clampQ lo hi (.fin (g i)) = g i := by
    intro i
    obtain ⟨q, hq, -, -, hx⟩ := clampVelocity_spec lo hi (.fin (g i))
    rw [clampQ_eq] at hq
    cases hq
    exact hx _ rfl (hg i).1 (hg i).2
  have : ∀ (l : List Entry) (i : Nat), (reVelocity lo hi (fun i => .fin (g i)) i l).map Entry.placed =
      (l.zipIdx i).map (fun x => (x.1.1.val, (⟨x.1.2.tone, x.1.2.duration, g x.2⟩ : Note))) := by
    intro l
    induction l with
    | nil => intro i; rfl
    | cons e l ih => intro i; simp [reVelocity, List.zipIdx_cons, ih, hq, Entry.placed]
  exact this _ 0

/-- C29 (failures): the call raises iff a parameter is outside its documented range (NaN and infinities
included), and then it raises ValueError. -/
theorem C29_failures (S : ListSort) (t : Track) (ht : t.Reachable S) (lo hi mean variance : PyFloat)
    (gauss : Nat → PyFloat) (e : PyErr) :
    (randomizeVelocities S t lo hi mean variance gauss).2 = .error e ↔
      e = .valueError ∧ ¬ ((∃ q, lo = .fin q ∧ 0 ≤ q ∧ q ≤ 1) ∧ (∃ q, hi = .fin q ∧ 0 ≤ q ∧ q ≤ 1) ∧
        (∃ q, mean = .fin q ∧ 0 ≤ q ∧ q ≤ 1) ∧ (variance = .posInf ∨ ∃ q, variance = .fin q ∧ 0 ≤ q)) := by
  have hvar : (PyFloat.fin 0).le variance = true ↔ (variance = .posInf ∨ ∃ q, variance = .fin q ∧ 0 ≤ q) := by
    cases variance <;> simp [PyFloat.le]
  rw [← hvar]
  constructor
  · intro h
    by_cases hp : (∃ q, lo = .fin q ∧ 0 ≤ q ∧ q ≤ 1) ∧ (∃ q, hi = .fin q ∧ 0 ≤ q ∧ q ≤ 1) ∧
        (∃ q, mean = .fin q ∧ 0 ≤ q ∧ q ≤ 1) ∧ (PyFloat.fin 0).le variance = true
    · obtain ⟨⟨l, rfl, hl⟩, ⟨hh, rfl, hhh⟩, ⟨m, rfl, hm⟩, hv⟩ := hp
      obtain ⟨u, h1, -⟩ := randomizeVelocities_spec S ht.wf hl hhh hm hv gauss
      rw [h1] at h
      cases h
    · rw [randomizeVelocities_bad S t gauss hp] at h
      cases h
      exact ⟨rfl, hp⟩
  · rintro ⟨rfl, hp⟩
    rw [randomizeVelocities_bad S t gauss hp]

/-- C29, swapped bounds (each in range but minimum > maximum) are accepted: every velocity is then the
minimum. -/
theorem C29_swapped (S : ListSort) (t : Track) (ht : t.Reachable S) (lo hi mean : ℚ) (variance : PyFloat)
    (h0 : 0 ≤ hi) (h1 : hi < lo) (h2 : lo ≤ 1) (hm : 0 ≤ mean ∧ mean ≤ 1)
    (hv : (PyFloat.fin 0).le variance = true) (gauss : Nat → PyFloat) :
    ∃ u, (randomizeVelocities S t (.fin lo) (.fin hi) (.fin mean) variance gauss).2 = .ok u ∧
      ∀ p ∈ u.contents, p.2.velocity = lo := by
  obtain ⟨u, g1, g2, g3, g4⟩ := randomizeVelocities_spec S ht.wf ⟨h0.trans h1.le, h2⟩
    ⟨h0, h1.le.trans h2⟩ hm hv gauss
  refine ⟨u, by rw [g1], ?_⟩
  intro p hp
  rw [g4] at hp
  obtain ⟨e, he, rfl⟩ := List.mem_map.mp (Multiset.mem_coe.mp hp)
  obtain ⟨j, hj⟩ := reVelocity_mem he
  show e.2.velocity = lo
  rw [hj]
  obtain ⟨q, hq, -, hb, -⟩ := clampVelocity_spec lo hi (gauss j)
  rw [clampQ_eq] at hq
  cases hq
  exact hb h1.le

/-- A track with three notes. -/
def exThree : List TrackOp :=
  [.add (.note ⟨⟨60⟩, ⟨1, 4⟩, 1⟩) none, .add (.note ⟨⟨62⟩, ⟨1, 4⟩, 1⟩) none,
   .add (.note ⟨⟨64⟩, ⟨1, 4⟩, 1⟩) none]

omit [UnicodeDigits] in
theorem exThree_reachable (S : ListSort) : ((Track.empty ⟨4, 4⟩).run S exThree).Reachable S := by
  refine ⟨⟨4, 4⟩, exThree, ⟨by decide, 2, rfl⟩, ?_, rfl⟩
  intro o ho
  simp only [exThree, List.mem_cons, List.not_mem_nil, or_false] at ho
  rcases ho with rfl | rfl | rfl <;>
  · refine ⟨?_, by simp⟩
    intro n hn
    simp only [What.notes, List.mem_singleton] at hn
    subst hn
    exact ⟨⟨by decide, 2, rfl⟩, by norm_num, by norm_num⟩

omit [UnicodeDigits] in
/-- A concrete run: three notes, random outcomes NaN, -infinity, 0.6. -/
example : (@randomizeVelocities ⟨fun _ => none⟩ cpySort ((Track.empty ⟨4, 4⟩).run cpySort exThree) (.fin (1 / 2)) (.fin (4 / 5))
      (.fin (3 / 4)) (.fin (1 / 100))
      (fun i => [PyFloat.nan, .negInf, .fin (3 / 5)].getD i (.fin 0))).2.toOption.map
        (fun u => (u.items cpySort).map (fun e => e.2.velocity)) = some [4 / 5, 1 / 2, 3 / 5] := by
  decide +kernel

end Melodia
