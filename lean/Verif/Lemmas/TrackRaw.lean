/-
`add` with arbitrary objects.
-/
import Verif.Lemmas.TrackMore
import Verif.Model.TrackRaw

set_option autoImplicit false

namespace Melodia

theorem siftDownM_perm {α : Type} (lt : α → α → PyM Bool) (fuel : Nat) (h : List α) (pos : Nat) :
    (siftDownM lt fuel h pos).2.Perm h := by
  induction fuel generalizing h pos with
  | zero => exact List.Perm.refl _
  | succ f ih =>
    rw [siftDownM]
    split
    · exact List.Perm.refl _
    · simp only
      split
      · rename_i x p hx hp
        split
        · exact List.Perm.refl _
        · refine (ih _ _).trans ?_
          obtain ⟨h1, rfl⟩ := List.getElem?_eq_some_iff.mp hx
          obtain ⟨h2, rfl⟩ := List.getElem?_eq_some_iff.mp hp
          exact List.set_set_perm h1 h2
        · exact List.Perm.refl _
      · exact List.Perm.refl _

theorem heapPushM_perm {α : Type} (lt : α → α → PyM Bool) (h : List α) (x : α) :
    (heapPushM lt h x).2.Perm (x :: h) :=
  (siftDownM_perm _ _ _ _).trans (List.perm_append_singleton x h)

/-- Exceptions of the heap are exceptions of the comparison. -/
theorem siftDownM_err {α : Type} (lt : α → α → PyM Bool) (P : PyErr → Prop)
    (hP : ∀ a b e, lt a b = .error e → P e) (fuel : Nat) (h : List α) (pos : Nat) (e : PyErr)
    (he : (siftDownM lt fuel h pos).1 = .error e) : P e := by
  induction fuel generalizing h pos with
  | zero => cases he
  | succ f ih =>
    rw [siftDownM] at he
    split at he
    · cases he
    · simp only at he
      split at he
      · split at he
        · rename_i hx; cases he; exact hP _ _ _ hx
        · exact ih _ _ he
        · cases he
      · cases he

theorem rawLt_err (a b : RawEntry) (e : PyErr) (h : rawLt a b = .error e) : e = .attributeError := by
  unfold rawLt at h
  split at h
  · cases h
  · split at h
    · cases h
    · cases h; rfl

/-- A note entry. -/
def Entry.raw (e : Entry) : RawEntry := (e.1, some e.2)

theorem rawLt_raw (a b : Entry) : rawLt a.raw b.raw = .ok (entryLt a b) := by
  unfold rawLt entryLt Entry.raw
  simp only
  split <;> rfl

theorem siftDownM_raw (fuel : Nat) (h : List Entry) (pos : Nat) :
    siftDownM rawLt fuel (h.map Entry.raw) pos = (.ok (), (siftDown entryLt fuel h pos).map Entry.raw) := by
  induction fuel generalizing h pos with
  | zero => rfl
  | succ f ih =>
    rw [siftDownM, siftDown]
    split
    · rfl
    · simp only [List.getElem?_map]
      rcases h[pos]? with _ | x
      · rfl
      · rcases h[(pos - 1) / 2]? with _ | p
        · rfl
        · simp only [Option.map_some, rawLt_raw]
          cases entryLt x p with
          | false => rfl
          | true =>
            simp only [if_true]
            rw [← ih, List.map_set, List.map_set]

theorem heapPushM_raw (h : List Entry) (x : Entry) :
    heapPushM rawLt (h.map Entry.raw) x.raw = (.ok (), (heapPush entryLt h x).map Entry.raw) := by
  unfold heapPushM heapPush
  have : h.map Entry.raw ++ [x.raw] = (h ++ [x]).map Entry.raw := by simp
  rw [this, List.length_map, List.length_map, siftDownM_raw]

theorem mapM_raw (d : Int) (l : List Entry) : (l.map Entry.raw).mapM (fun e => (do
      let s ← e.1.toDen d
      pure ((s, e.2) : RawEntry) : PyM RawEntry)) =
    (l.mapM (fun e => (do let s ← e.1.toDen d; pure ((s, e.2) : Entry) : PyM Entry)) >>= fun l => .ok (l.map Entry.raw)) := by
  induction l with
  | nil => rfl
  | cons e l ih =>
    rw [List.map_cons, List.mapM_cons, List.mapM_cons, ih]
    generalize (l.mapM (fun e => (do let s ← e.1.toDen d; pure ((s, e.2) : Entry) : PyM Entry))) = y
    have he : e.raw.1 = e.1 := rfl
    rw [he]
    rcases e.1.toDen d with x | s
    · rfl
    · rcases y with y | l' <;> rfl

/-- `add` of an object to a track of notes up to the call of `heappush`. -/
theorem addObject_eq {t : Track} (ht : t.WF) (x : Option Note) {p : Signature} (hp : p.Valid) :
    let d := max t.maxDenominator p.denominator
    let heap := (t.heap.map (fun e => (e.1.scaleTo d, e.2)))
    let r := heapPushM rawLt (heap.map Entry.raw) (p.scaleTo d, x)
    t.raw.addObject x p =
      match r.1 with
      | .error e => (.error e, ⟨t.signature, d, t.maxPosition, r.2, t.sorted⟩)
      | .ok () =>
        match x with
        | none => (.error .attributeError, ⟨t.signature, d, t.maxPosition, r.2, false⟩)
        | some note =>
          match (p.scaleTo d).add note.duration with
          | .error e => (.error e, ⟨t.signature, d, t.maxPosition, r.2, false⟩)
          | .ok endPosition =>
            (.ok (), ⟨t.signature, d, if endPosition.gt t.maxPosition then endPosition else t.maxPosition, r.2, false⟩) := by
  intro d heap r
  have hd2 : IsPow2 d := by
    rcases max_choice t.maxDenominator p.denominator with h | h
    · rw [show d = t.maxDenominator from h]; exact ht.den
    · rw [show d = p.denominator from h]; exact hp.den
  have hpd : p.denominator ≤ d := le_max_right _ _
  have htd : ∀ e ∈ t.heap, e.1.Valid ∧ e.1.denominator ≤ d := fun e he => by
    obtain ⟨h1, h2, -⟩ := ht.entries e he
    exact ⟨h1, by rw [h2]; exact le_max_left _ _⟩
  have hq : p.toDen d = .ok (p.scaleTo d) := Signature.toDen_ok hp hd2 hpd
  have hraw : t.raw.heap = t.heap.map Entry.raw := rfl
  have hm : (t.heap.map Entry.raw).mapM (fun e => (do
      let s ← e.1.toDen d
      pure ((s, e.2) : RawEntry) : PyM RawEntry)) = .ok (heap.map Entry.raw) := by
    rw [mapM_raw, Track.mapM_toDen hd2 htd]; rfl
  have fin : ∀ y : RawTrack, y.maxDenominator = d → y.heap = heap.map Entry.raw →
      y.signature = t.signature → y.maxPosition = t.maxPosition → y.sorted = t.sorted →
      (match p.toDen y.maxDenominator with
        | .error e => ((.error e, y) : PyM Unit × RawTrack)
        | .ok positionTransformed =>
          match heapPushM rawLt y.heap (positionTransformed, x) with
          | (.error e, heap) => (.error e, { y with heap := heap })
          | (.ok (), heap) =>
            let t := { y with heap := heap, sorted := false }
            match x with
            | none => (.error .attributeError, t)
            | some note =>
              match positionTransformed.add note.duration with
              | .error e => (.error e, t)
              | .ok endPosition =>
                (.ok (), if endPosition.gt t.maxPosition then { t with maxPosition := endPosition } else t)) =
      match r.1 with
      | .error e => (.error e, ⟨t.signature, d, t.maxPosition, r.2, t.sorted⟩)
      | .ok () =>
        match x with
        | none => (.error .attributeError, ⟨t.signature, d, t.maxPosition, r.2, false⟩)
        | some note =>
          match (p.scaleTo d).add note.duration with
          | .error e => (.error e, ⟨t.signature, d, t.maxPosition, r.2, false⟩)
          | .ok endPosition =>
            (.ok (), ⟨t.signature, d, if endPosition.gt t.maxPosition then endPosition else t.maxPosition, r.2, false⟩) := by
    rintro ⟨sg, md, mp, hh, so⟩ rfl rfl rfl rfl rfl
    simp only [hq]
    rcases hr : r with ⟨a, b⟩
    have hr' : heapPushM rawLt (heap.map Entry.raw) (p.scaleTo d, x) = (a, b) := hr
    rw [hr']
    rcases a with e | u
    · rfl
    · rcases x with _ | n
      · rfl
      · simp only
        rcases (p.scaleTo d).add n.duration with e | ep
        · rfl
        · simp only
          split <;> rfl
  unfold RawTrack.addObject
  by_cases h : p.denominator > t.maxDenominator
  · have hpe : p.denominator = d := (max_eq_right h.le).symm
    rw [if_pos (show p.denominator > t.raw.maxDenominator from h)]
    simp only [hraw, hpe, hm]
    exact fin ⟨t.signature, d, t.maxPosition, heap.map Entry.raw, t.sorted⟩ rfl rfl rfl rfl rfl
  · rw [if_neg (show ¬ p.denominator > t.raw.maxDenominator from h)]
    have hte : t.maxDenominator = d := (max_eq_left (not_lt.mp h)).symm
    have hheap : heap = t.heap := by
      conv_rhs => rw [← List.map_id t.heap]
      apply List.map_congr_left
      intro e he
      obtain ⟨h1, h2, -⟩ := ht.entries e he
      rw [← hte, ← h2, Track.scaleTo_self h1]
      rfl
    refine fin t.raw hte ?_ rfl rfl rfl
    rw [hheap]
    rfl

/-- On notes this is the model used elsewhere. -/
theorem addObject_note {t t' : Track} {n : Note} {p : Signature} (h : t.addNote n p = .ok t') :
    t.raw.addObject (some n) p = (.ok (), t'.raw) := by
  have hraw : t.raw.heap = t.heap.map Entry.raw := rfl
  have key : ∀ (md : Int) (hp : List Entry), (do
      let positionTransformed ← p.toDen md
      let heap := heapPush entryLt hp (positionTransformed, n)
      let endPosition ← positionTransformed.add n.duration
      let maxPosition := if endPosition.gt t.maxPosition then endPosition else t.maxPosition
      pure (⟨t.signature, md, maxPosition, heap, false⟩ : Track)) = (.ok t' : PyM Track) →
      (match p.toDen md with
        | .error e => ((.error e, ⟨t.signature, md, t.maxPosition, hp.map Entry.raw, t.sorted⟩) : PyM Unit × RawTrack)
        | .ok positionTransformed =>
          match heapPushM rawLt (hp.map Entry.raw) (positionTransformed, some n) with
          | (.error e, heap) => (.error e, ⟨t.signature, md, t.maxPosition, heap, t.sorted⟩)
          | (.ok (), heap) =>
            match positionTransformed.add n.duration with
            | .error e => (.error e, ⟨t.signature, md, t.maxPosition, heap, false⟩)
            | .ok endPosition =>
              (.ok (), if endPosition.gt t.maxPosition then ⟨t.signature, md, endPosition, heap, false⟩
                else ⟨t.signature, md, t.maxPosition, heap, false⟩)) = (.ok (), t'.raw) := by
    intro md hp hk
    rcases hq : p.toDen md with e | q
    · rw [hq] at hk; cases hk
    · rw [hq] at hk
      simp only
      have := heapPushM_raw hp (q, n)
      change heapPushM rawLt (hp.map Entry.raw) (q, some n) = _ at this
      rw [this]
      simp only
      rcases ha : q.add n.duration with e | ep
      · simp only [bind, Except.bind, ha] at hk; cases hk
      · simp only [bind, Except.bind, ha, pure, Except.pure] at hk
        cases hk
        simp only [Track.raw]
        split <;> rfl
  unfold Track.addNote at h
  unfold RawTrack.addObject
  by_cases hc : p.denominator > t.maxDenominator
  · rw [if_pos hc] at h
    rw [if_pos (show p.denominator > t.raw.maxDenominator from hc)]
    simp only [hraw, mapM_raw]
    rcases hm : (t.heap.mapM (fun e => (do let s ← e.1.toDen p.denominator; pure ((s, e.2) : Entry) : PyM Entry))) with e | l
    · simp only [bind, Except.bind] at h hm
      rw [hm] at h
      cases h
    · have h' := h
      rw [hm]
      simp only [bind, Except.bind] at h' hm
      rw [hm] at h'
      exact key p.denominator l h'
  · rw [if_neg hc] at h
    rw [if_neg (show ¬ p.denominator > t.raw.maxDenominator from hc)]
    exact key t.maxDenominator t.heap h

/-- Several notes, then an object that is not a note. -/
theorem addObjects_notes (xs : List (Option Note)) {p : Signature} (hp : p.Valid) : ∀ (ns : List Note) {t : Track}, t.WF →
    (∀ n ∈ ns, n.Valid) → ∃ t' : Track, t'.WF ∧ t'.contents = (ns.map (fun n => (p.val, n)) : Multiset _) + t.contents ∧
      t.raw.addObjects (ns.map some ++ xs) p = t'.raw.addObjects xs p := by
  intro ns
  induction ns with
  | nil => intro t ht _; exact ⟨t, ht, by simp, rfl⟩
  | cons n ns ih =>
    intro t ht hv
    obtain ⟨t1, e, h1, h2, -, -, h5, -⟩ := Track.addNote_spec ht (hv n (by simp)) hp
    obtain ⟨t', k1, k2, k3⟩ := ih h2 (fun m hm => hv m (by simp [hm]))
    refine ⟨t', k1, ?_, ?_⟩
    · rw [k2, h5, List.map_cons, ← Multiset.cons_coe, Multiset.cons_add, Multiset.add_cons]
    · rw [List.map_cons, List.cons_append, RawTrack.addObjects, addObject_note h1]
      exact k3

/-- The first object that is not a note. -/
theorem addObject_other {t : Track} (ht : t.WF) {p : Signature} (hp : p.Valid) :
    ∃ u : RawTrack, t.raw.addObject none p = (.error .attributeError, u) ∧
      u.signature = t.signature ∧ u.maxPosition = t.maxPosition ∧
      (u.heap.map (fun e => (e.1.val, e.2)) : Multiset (ℚ × Option Note)) =
        (p.val, none) ::ₘ t.contents.map (fun x => (x.1, some x.2)) := by
  have h := addObject_eq ht none hp
  simp only at h
  set d := max t.maxDenominator p.denominator with hd
  have hd2 : IsPow2 d := by
    rcases max_choice t.maxDenominator p.denominator with h | h
    · rw [hd, h]; exact ht.den
    · rw [hd, h]; exact hp.den
  have hpd : p.denominator ≤ d := le_max_right _ _
  have htd : ∀ e ∈ t.heap, e.1.Valid ∧ e.1.denominator ≤ d := fun e he => by
    obtain ⟨h1, h2, -⟩ := ht.entries e he
    exact ⟨h1, by rw [h2]; exact le_max_left _ _⟩
  have hperm := heapPushM_perm rawLt ((t.heap.map (fun e => (e.1.scaleTo d, e.2))).map Entry.raw) (p.scaleTo d, none)
  have herr := siftDownM_err rawLt (· = .attributeError) rawLt_err
  rcases hr : heapPushM rawLt ((t.heap.map (fun e => (e.1.scaleTo d, e.2))).map Entry.raw) (p.scaleTo d, none) with ⟨a, b⟩
  rw [hr] at h hperm
  have hc : (b.map (fun e => (e.1.val, e.2)) : Multiset (ℚ × Option Note)) =
      (p.val, none) ::ₘ t.contents.map (fun x => (x.1, some x.2)) := by
    have h1 := hperm.map (fun e : RawEntry => (e.1.val, e.2))
    rw [Multiset.coe_eq_coe.mpr h1, List.map_cons, ← Multiset.cons_coe]
    simp only [Track.scaleTo_val hp hd2 hpd]
    congr 1
    unfold Track.contents
    rw [Multiset.map_coe, List.map_map, List.map_map, List.map_map]
    congr 1
    apply List.map_congr_left
    intro e he
    simp [Entry.raw, Entry.placed, Track.scaleTo_val (htd e he).1 hd2 (htd e he).2]
  rcases a with e | u
  · have : e = .attributeError := herr _ _ _ e (by
      have := congrArg Prod.fst hr
      exact this)
    subst this
    exact ⟨_, h, rfl, rfl, hc⟩
  · exact ⟨_, h, rfl, rfl, hc⟩

end Melodia
