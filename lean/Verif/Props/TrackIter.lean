/-
Property theorems C56 (src/melodia/core/track.py:100-108, 132-143): `for` loops over a track whose body
uses the same track.

The property - the loop visits exactly the notes that were in the track when it started, once each, in
order - holds for bodies that do not add notes, and by accident for bodies whose first addition is at a
position finer than all earlier ones. It is false otherwise.
-/
import Verif.Model.TrackIter
import Verif.Props.Track

set_option autoImplicit false

namespace Melodia

/-! ### Vocabulary -/

/-- Loop bodies that leave a running iteration alone, `d` being the finest denominator used so far:
observations and calls of `add` rejected for their position, up to a first `add` of at least one note
at a position with a denominator above `d`; anything may follow that. -/
inductive Detaches (d : Int) : List TrackOp → Prop
  | nil : Detaches d []
  | iterate (ops) (h : Detaches d ops) : Detaches d (.iterate :: ops)
  | peek (ops) (h : Detaches d ops) : Detaches d (.peek :: ops)
  | fail (w a ops) (hf : ∀ s, ¬ SigDenotes a s) (h : Detaches d ops) :
      Detaches d (.add w (some a) :: ops)
  | finer (w a s ops) (hw : w.Valid) (ha : a.Valid) (hs : SigDenotes a s) (hne : w.notes ≠ [])
      (hd : d < s.denominator) : Detaches d (.add w (some a) :: ops)

/-- Operations that use no position finer than `d`. `defaults` says whether positions may be left out;
then durations have to be no finer than `d` either, because they determine the default position. -/
inductive Coarse (d : Int) (defaults : Prop) : TrackOp → Prop
  | iterate : Coarse d defaults .iterate
  | peek : Coarse d defaults .peek
  | fail (w a) (hf : ∀ s, ¬ SigDenotes a s) : Coarse d defaults (.add w (some a))
  | at (w a s) (hw : w.Valid) (ha : a.Valid) (hs : SigDenotes a s) (hd : s.denominator ≤ d)
      (hdur : defaults → ∀ n ∈ w.notes, n.duration.denominator ≤ d) : Coarse d defaults (.add w (some a))
  | default (w) (hw : w.Valid) (h : defaults) (hdur : ∀ n ∈ w.notes, n.duration.denominator ≤ d) :
      Coarse d defaults (.add w none)

/-- The operation adds at least one note. -/
inductive AddsNote : TrackOp → Prop
  | at (w a s) (hs : SigDenotes a s) (hne : w.notes ≠ []) : AddsNote (.add w (some a))
  | default (w) (hne : w.notes ≠ []) : AddsNote (.add w none)

/-! ### Lemmas -/

namespace Track

/-- Denominator, number of notes and length after adding notes at one position. -/
theorem addNotes_den {p : Signature} (hp : p.Valid) (ns : List Note) : ∀ {t : Track}, t.WF →
    (∀ n ∈ ns, n.Valid) →
    ∃ t', ns.foldlM (fun t n => t.addNote n p) t = .ok t' ∧ t'.WF ∧
      t'.heap.length = t.heap.length + ns.length ∧
      t'.maxDenominator = (if ns = [] then t.maxDenominator else max t.maxDenominator p.denominator) ∧
      (∀ d, t.maxDenominator ≤ d → p.denominator ≤ d → t.maxPosition.denominator ≤ d →
        (∀ n ∈ ns, n.duration.denominator ≤ d) → t'.maxPosition.denominator ≤ d) := by
  induction ns with
  | nil => intro t ht _; exact ⟨t, rfl, ht, rfl, rfl, fun d _ _ h _ => h⟩
  | cons n ns ih =>
    intro t ht hn
    obtain ⟨t1, e, h1, h2, -, h4, -, -, -, h8, h9, -, h11⟩ := addNote_spec ht (hn n (by simp)) hp
    obtain ⟨t2, g1, g2, g3, g4, g5⟩ := ih h2 (fun m hm => hn m (List.mem_cons_of_mem _ hm))
    refine ⟨t2, ?_, g2, ?_, ?_, ?_⟩
    · rw [List.foldlM_cons, h1]; exact g1
    · have := (heapPush_perm entryLt (t.heap.map (fun x => (x.1.scaleTo t1.maxDenominator, x.2)))
        (p.scaleTo t1.maxDenominator, n)).length_eq
      rw [← h11] at this
      simp only [List.length_cons, List.length_map] at this ⊢
      omega
    · rw [g4, h4]
      simp
    · intro d hd1 hd2 hd3 hd4
      refine g5 d (by rw [h4]; exact max_le hd1 hd2) hd2 ?_ (fun m hm => hd4 m (List.mem_cons_of_mem _ hm))
      rw [h9]
      split
      · rw [h8]; exact max_le (max_le hd1 hd2) (hd4 n (by simp))
      · exact hd3

/-- The same for `add`. -/
theorem step_add_den (S : ListSort) {t : Track} (ht : t.WF) {w : What} (hw : w.Valid)
    {pos : Option SigArg} (hpos : ∀ a, pos = some a → a.Valid) {p : Signature} (h : t.posOf pos = .ok p) :
    let t' := (TrackOp.add w pos).step S t
    t'.WF ∧ t'.heap.length = t.heap.length + w.notes.length ∧
      t'.maxDenominator =
        (if w.notes = [] then t.maxDenominator else max t.maxDenominator p.denominator) ∧
      (∀ d, t.maxDenominator ≤ d → p.denominator ≤ d → t.maxPosition.denominator ≤ d →
        (∀ n ∈ w.notes, n.duration.denominator ≤ d) → t'.maxPosition.denominator ≤ d) := by
  obtain ⟨t', h1, h2, h3, h4, h5⟩ := addNotes_den (posOf_valid ht hpos h) w.notes ht hw
  have ha : t.add w pos = .ok t' := by rw [add_eq, h, ← h1, ← addAt_eq_foldlM]; rfl
  simp only [TrackOp.step]
  rw [addS_of_ok ha]
  exact ⟨h2, h3, h4, h5⟩

theorem step_fail (S : ListSort) (t : Track) (w : What) {a : SigArg} (hf : ∀ s, ¬ SigDenotes a s) :
    (TrackOp.add w (some a)).step S t = t := by
  cases h : a.coerce with
  | ok s => exact absurd (SigArg.coerce_ok_iff.mp h) (hf s)
  | error e =>
    simp only [TrackOp.step]
    rw [addS_of_pos_error (t := t) (pos := some a) (e := e) h]

end Track

namespace LiveIter

/-- Once the list has been replaced, nothing the body does reaches the iterator. -/
theorem runBody_frozen (S : ListSort) (l : List Entry) (i : Nat) (b : Bool) (ops : List TrackOp) :
    ∀ t : Track, (runBody S t ⟨some l, i, b⟩ ops).2 = ⟨some l, i, b⟩ := by
  induction ops with
  | nil => intro t; rfl
  | cons o ops ih =>
    intro t
    rw [runBody]
    have : LiveIter.after t (o.step S t) ⟨some l, i, b⟩ = ⟨some l, i, b⟩ := by
      unfold LiveIter.after; split <;> rfl
    rw [this]
    exact ih _

theorem loop_frozen (S : ListSort) (body : Track → Entry → List TrackOp) (l : List Entry) (k : Nat) :
    ∀ (i : Nat) (t : Track),
      ((⟨some l, i, false⟩ : LiveIter).loop S body k t).visited = (l.drop i).take k ∧
      ((⟨some l, i, false⟩ : LiveIter).loop S body k t).finished = decide (l.length - i < k) := by
  induction k with
  | zero => intro i t; simp [loop]
  | succ k ih =>
    intro i t
    unfold loop next
    simp only [Bool.false_eq_true, if_false, Option.getD_some]
    by_cases hi : i < l.length
    · rw [List.getElem?_eq_getElem hi]
      simp only
      have hb := runBody_frozen S l (i + 1) false (body t l[i]) t
      generalize hr : runBody S t ⟨some l, i + 1, false⟩ (body t l[i]) = r at hb
      obtain ⟨t', it'⟩ := r
      simp only at hb ⊢
      subst hb
      obtain ⟨h1, h2⟩ := ih (i + 1) t'
      rw [h1, h2]
      refine ⟨?_, ?_⟩
      · rw [List.drop_eq_getElem_cons hi, List.take_succ_cons]
      · simp only [decide_eq_decide]; omega
    · rw [List.getElem?_eq_none (by omega)]
      simp only
      refine ⟨?_, ?_⟩
      · rw [List.drop_eq_nil_of_le (by omega)]; simp
      · symm; simp only [decide_eq_true_eq]; omega

/-- A detaching body either changes nothing or leaves the iterator with the list of before. -/
theorem runBody_detaches (S : ListSort) {t : Track} (ht : t.WF) (hs : t.sorted = true) (i : Nat)
    {ops : List TrackOp} (h : Detaches t.maxDenominator ops) :
    runBody S t ⟨none, i, false⟩ ops = (t, ⟨none, i, false⟩) ∨
      (runBody S t ⟨none, i, false⟩ ops).2 = ⟨some t.heap, i, false⟩ := by
  have hself : ∀ it : LiveIter, it.after t t = it := fun it => by simp [LiveIter.after]
  induction h with
  | nil => exact .inl rfl
  | iterate ops h ih =>
    have : TrackOp.iterate.step S t = t := by
      simp only [TrackOp.step]; rw [Track.iter_of_sorted S hs]
    rw [runBody, this, hself]; exact ih
  | peek ops h ih =>
    have : TrackOp.peek.step S t = t := rfl
    rw [runBody, this, hself]; exact ih
  | fail w a ops hf h ih =>
    rw [runBody, Track.step_fail S t w hf, hself]; exact ih
  | finer w a s ops hw ha hsd hne hd =>
    right
    have hp : t.posOf (some a) = .ok s := SigArg.coerce_ok_iff.mpr hsd
    obtain ⟨-, -, h3, -⟩ := Track.step_add_den S ht hw (pos := some a)
      (by intro b hb; cases hb; exact ha) hp
    rw [runBody]
    have : LiveIter.after t ((TrackOp.add w (some a)).step S t) ⟨none, i, false⟩ =
        ⟨some t.heap, i, false⟩ := by
      unfold LiveIter.after
      rw [if_neg, Option.getD_none]
      rw [h3, if_neg hne, max_eq_right hd.le]
      exact hd.ne'
    rw [this]
    exact runBody_frozen S _ _ _ _ _

theorem loop_detaches (S : ListSort) (body : Track → Entry → List TrackOp) {t : Track} (ht : t.WF)
    (hs : t.sorted = true) (hb : ∀ e ∈ t.heap, Detaches t.maxDenominator (body t e)) (k : Nat) :
    ∀ i : Nat,
      ((⟨none, i, false⟩ : LiveIter).loop S body k t).visited = (t.heap.drop i).take k ∧
      ((⟨none, i, false⟩ : LiveIter).loop S body k t).finished = decide (t.heap.length - i < k) := by
  induction k with
  | zero => intro i; simp [loop]
  | succ k ih =>
    intro i
    unfold loop next
    simp only [Bool.false_eq_true, if_false, Option.getD_none]
    by_cases hi : i < t.heap.length
    · rw [List.getElem?_eq_getElem hi]
      simp only
      have hb' := runBody_detaches S ht hs (i + 1) (hb t.heap[i] (List.getElem_mem hi))
      generalize hr : runBody S t ⟨none, i + 1, false⟩ (body t t.heap[i]) = r at hb'
      obtain ⟨t', it'⟩ := r
      simp only at hb' ⊢
      have key : (it'.loop S body k t').visited = (t.heap.drop (i + 1)).take k ∧
          (it'.loop S body k t').finished = decide (t.heap.length - (i + 1) < k) := by
        rcases hb' with h | h
        · cases h; exact ih (i + 1)
        · subst h; exact loop_frozen S body t.heap k (i + 1) t'
      rw [key.1, key.2]
      refine ⟨?_, ?_⟩
      · rw [List.drop_eq_getElem_cons hi, List.take_succ_cons]
      · simp only [decide_eq_decide]; omega
    · rw [List.getElem?_eq_none (by omega)]
      simp only
      refine ⟨?_, ?_⟩
      · rw [List.drop_eq_nil_of_le (by omega)]; simp
      · symm; simp only [decide_eq_true_eq]; omega

/-- Coarse operations keep the list object and never remove notes. -/
theorem runBody_coarse (S : ListSort) {d : Int} {defaults : Prop} (i : Nat) (ops : List TrackOp) :
    ∀ {t : Track}, t.WF → t.maxDenominator = d → (defaults → t.maxPosition.denominator ≤ d) →
    (∀ o ∈ ops, Coarse d defaults o) →
    ∃ t', runBody S t ⟨none, i, false⟩ ops = (t', ⟨none, i, false⟩) ∧ t'.WF ∧ t'.maxDenominator = d ∧
      (defaults → t'.maxPosition.denominator ≤ d) ∧ t.heap.length ≤ t'.heap.length ∧
      ((∃ o ∈ ops, AddsNote o) → t.heap.length < t'.heap.length) := by
  induction ops with
  | nil => intro t ht h1 h2 _; exact ⟨t, rfl, ht, h1, h2, le_rfl, by simp⟩
  | cons o ops ih =>
    intro t ht h1 h2 h3
    have ho := h3 o (by simp)
    have key : (o.step S t).WF ∧ (o.step S t).maxDenominator = d ∧
        (defaults → (o.step S t).maxPosition.denominator ≤ d) ∧
        t.heap.length ≤ (o.step S t).heap.length ∧
        (AddsNote o → t.heap.length < (o.step S t).heap.length) := by
      cases ho with
      | iterate =>
        obtain ⟨-, f2, f3, -⟩ := Track.iter_fields S t
        have f4 := (Track.iter_perm S t).length_eq
        simp only [TrackOp.step]
        exact ⟨Track.iter_wf S ht, by rw [f2, h1], by rw [f3]; exact h2, f4.ge, fun h => nomatch h⟩
      | peek => exact ⟨ht, h1, h2, le_rfl, fun h => nomatch h⟩
      | fail w a hf =>
        rw [Track.step_fail S t w hf]
        exact ⟨ht, h1, h2, le_rfl, fun h => by cases h with | «at» _ _ s hs _ => exact absurd hs (hf s)⟩
      | «at» w a s hw ha hs hd hdur =>
        have hp : t.posOf (some a) = .ok s := SigArg.coerce_ok_iff.mpr hs
        obtain ⟨g1, g2, g3, g4⟩ := Track.step_add_den S ht hw (pos := some a)
          (by intro b hb; cases hb; exact ha) hp
        refine ⟨g1, ?_, fun hdf => g4 d h1.le hd (h2 hdf) (hdur hdf), by omega, ?_⟩
        · rw [g3]; split
          · exact h1
          · rw [h1, max_eq_left hd]
        · intro h
          have : w.notes ≠ [] := by cases h; assumption
          have := List.length_pos_iff.mpr this
          omega
      | default w hw hdf hdur =>
        have hp : t.posOf none = .ok t.maxPosition := rfl
        obtain ⟨g1, g2, g3, g4⟩ := Track.step_add_den S ht hw (pos := none) (by simp) hp
        refine ⟨g1, ?_, fun hdf => g4 d h1.le (h2 hdf) (h2 hdf) hdur, by omega, ?_⟩
        · rw [g3]; split
          · exact h1
          · rw [h1, max_eq_left (h2 hdf)]
        · intro h
          have : w.notes ≠ [] := by cases h; assumption
          have := List.length_pos_iff.mpr this
          omega
    obtain ⟨k1, k2, k3, k4, k5⟩ := key
    obtain ⟨t', g1, g2, g3, g4, g5, g6⟩ := ih k1 k2 k3 (fun x hx => h3 x (List.mem_cons_of_mem _ hx))
    refine ⟨t', ?_, g2, g3, g4, k4.trans g5, ?_⟩
    · rw [runBody]
      have : LiveIter.after t (o.step S t) ⟨none, i, false⟩ = ⟨none, i, false⟩ := by
        unfold LiveIter.after; rw [if_pos (by rw [k2, h1])]
      rw [this, g1]
    · rintro ⟨x, hx, hxa⟩
      rcases List.mem_cons.mp hx with rfl | hx
      · have := k5 hxa; omega
      · have := g6 ⟨x, hx, hxa⟩; omega

theorem loop_coarse (S : ListSort) {d : Int} {defaults : Prop} (body : Track → Entry → List TrackOp)
    (hc : ∀ u e, (∀ o ∈ body u e, Coarse d defaults o) ∧ ∃ o ∈ body u e, AddsNote o) (k : Nat) :
    ∀ (i : Nat) {t : Track}, t.WF → t.maxDenominator = d → (defaults → t.maxPosition.denominator ≤ d) →
    i < t.heap.length →
    ((⟨none, i, false⟩ : LiveIter).loop S body k t).visited.length = k ∧
    ((⟨none, i, false⟩ : LiveIter).loop S body k t).finished = false ∧
    t.heap.length + k ≤ ((⟨none, i, false⟩ : LiveIter).loop S body k t).track.heap.length := by
  induction k with
  | zero => intro i t _ _ _ _; simp [loop]
  | succ k ih =>
    intro i t ht h1 h2 hi
    unfold loop next
    simp only [Bool.false_eq_true, if_false, Option.getD_none]
    rw [List.getElem?_eq_getElem hi]
    simp only
    obtain ⟨hc1, hc2⟩ := hc t t.heap[i]
    obtain ⟨t', g1, g2, g3, g4, g5, g6⟩ := runBody_coarse S (i + 1) (body t t.heap[i]) ht h1 h2 hc1
    rw [g1]
    have g6 := g6 hc2
    obtain ⟨r1, r2, r3⟩ := ih (i + 1) g2 g3 g4 (by omega)
    refine ⟨by simp [r1], r2, ?_⟩
    simp only
    omega

end LiveIter

/-! ### C56 -/

/-- C56 refuted for every track that has a note: if the loop body adds at least one note per iteration and
uses no finer positions than the track already has, the loop never ends. Every iteration up to any
number `k` takes place, and the track has grown by at least `k` notes by then. -/
theorem C56_endless_violated (S : ListSort) (t : Track) (ht : t.Reachable S) (hne : 0 < t.len)
    (defaults : Prop) (hdef : defaults → t.length.denominator ≤ t.maxDenominator)
    (body : Track → Entry → List TrackOp)
    (hbody : ∀ u e, (∀ o ∈ body u e, Coarse t.maxDenominator defaults o) ∧ ∃ o ∈ body u e, AddsNote o)
    (k : Nat) :
    (t.forLoop S body k).visited.length = k ∧ (t.forLoop S body k).finished = false ∧
    t.len + k ≤ (t.forLoop S body k).track.len := by
  obtain ⟨-, f2, f3, -⟩ := Track.iter_fields S t
  have f4 := (Track.iter_perm S t).length_eq
  have := LiveIter.loop_coarse S body hbody k 0 (Track.iter_wf S ht.wf) f2 (by rw [f3]; exact hdef)
    (by rw [f4]; exact hne)
  rw [f4] at this
  exact this

/-- The track of the examples: quarter notes at 0/4, 1/4, 2/4 and 3/4. -/
def exLoopOps : List TrackOp :=
  [.add (.note (exNote 60 1 4)) (some (.ints [0, 4])), .add (.note (exNote 62 1 4)) (some (.ints [1, 4])),
   .add (.note (exNote 64 1 4)) (some (.ints [2, 4])), .add (.note (exNote 65 1 4)) (some (.ints [3, 4]))]

/-- Hypotheses met: doubling a track with `for p, n in track: track.add(n)`. The positions have
denominator 4, and so has the length; the body is coarse. -/
example : let t := (Track.empty ⟨4, 4⟩).run cpySort exLoopOps
    0 < t.len ∧ t.length.denominator ≤ t.maxDenominator ∧
    ∀ (_ : Track) (e : Entry), let n := exNote e.2.tone.pitch 1 4
      (∀ o ∈ [TrackOp.add (.note n) none], Coarse t.maxDenominator True o) ∧
      ∃ o ∈ [TrackOp.add (.note n) none], AddsNote o := by
  refine ⟨by decide, by decide, fun u e => ⟨fun o ho => ?_, _, List.mem_singleton.mpr rfl,
    .default _ (by simp [What.notes])⟩⟩
  rw [List.mem_singleton.mp ho]
  refine .default _ ?_ trivial ?_
  · intro n hn
    simp only [What.notes, List.mem_singleton] at hn
    rw [hn]; exact exNote_valid _ 1 2 (by decide)
  · intro n hn
    simp only [What.notes, List.mem_singleton] at hn
    rw [hn]; show (4 : Int) ≤ _; decide

/-- The loop `for p, n in track: track.add(n)` on that track, observed for ten iterations: it is now
visiting its own additions. -/
example : (((Track.empty ⟨4, 4⟩).run cpySort exLoopOps).forLoop cpySort
      (fun _ e => [.add (.note e.2) none]) 10).visited.map (fun e => (e.1.nominator, e.2.tone.pitch)) =
    [(0, 60), (1, 62), (2, 64), (3, 65), (4, 60), (5, 62), (6, 64), (7, 65), (8, 60), (9, 62)] := by
  decide +kernel

/-- C56 refuted for a loop that ends: on the same four notes, adding one note at 0/4 with a lower pitch
while the first is being visited makes the loop visit that first note twice in a row and
the note at 1/4 last; the added note itself is not visited. -/
theorem C56_repeated_violated :
    let t := (Track.empty ⟨4, 4⟩).run cpySort exLoopOps
    let body : Track → Entry → List TrackOp := fun u _ =>
      if u.len = 4 then [.add (.note (exNote 40 1 4)) (some (.ints [0, 4]))] else []
    let r := t.forLoop cpySort body 6
    (t.items cpySort).map (fun e => (e.1.nominator, e.2.tone.pitch)) =
      [(0, 60), (1, 62), (2, 64), (3, 65)] ∧
    r.visited.map (fun e => (e.1.nominator, e.2.tone.pitch)) =
      [(0, 60), (0, 60), (2, 64), (3, 65), (1, 62)] ∧
    r.finished = true := by decide +kernel

/-- C56, the part that holds: if the body adds nothing, or its first addition is at a position finer than
every earlier one, then after `k` calls of `next` the loop has visited the first `k` notes that were in
the track when it started, in order, and it has ended as soon as `k` exceeds their number. Missing:
all other bodies that add notes, see the theorems above. -/
theorem C56_snapshot_partial (S : ListSort) (t : Track) (ht : t.Reachable S)
    (body : Track → Entry → List TrackOp)
    (hbody : ∀ e ∈ t.items S, Detaches t.maxDenominator (body (t.iter S).1 e)) (k : Nat) :
    (t.forLoop S body k).visited = (t.items S).take k ∧
    (t.forLoop S body k).finished = decide (t.len < k) := by
  obtain ⟨-, f2, -, f4⟩ := Track.iter_fields S t
  have h := LiveIter.loop_detaches S body (Track.iter_wf S ht.wf) f4
    (by rw [f2]; exact hbody) k 0
  simp only [List.drop_zero, Nat.sub_zero] at h
  rw [(Track.iter_perm S t).length_eq] at h
  exact h

/-- Hypothesis met: an echo an eighth later, `for p, n in track: track.add(n, p + Signature(1, 8))`,
on a track with denominator 4. -/
example (t : Track) (hd : t.maxDenominator = 4) (e : Entry) (hn : e.2.Valid) (m : Nat) :
    Detaches t.maxDenominator [.add (.note e.2) (some (.sig ⟨m, 8⟩))] := by
  refine .finer _ _ ⟨m, 8⟩ _ ?_ ⟨Int.natCast_nonneg m, 3, rfl⟩ (.sig _) (by simp [What.notes])
    (by rw [hd]; show (4 : Int) < 8; decide)
  intro n h
  simp only [What.notes, List.mem_singleton] at h
  rw [h]; exact hn

/-- The echo loop: it visits the four notes and ends, with eight notes in the track. Run a second time
on the result, the same loop does not end (`C56_endless_violated`). -/
example :
    let echo : Track → Entry → List TrackOp := fun _ e =>
      [.add (.note e.2) (some (.sig ⟨e.1.nominator * (8 / e.1.denominator) + 1, 8⟩))]
    let r := ((Track.empty ⟨4, 4⟩).run cpySort exLoopOps).forLoop cpySort echo 20
    let r' := r.track.forLoop cpySort echo 20
    r.visited.map (fun e => (e.1, e.2.tone.pitch)) =
      [(⟨0, 4⟩, 60), (⟨1, 4⟩, 62), (⟨2, 4⟩, 64), (⟨3, 4⟩, 65)] ∧ r.finished = true ∧ r.track.len = 8 ∧
    r'.finished = false := by
  decide +kernel

end Melodia
