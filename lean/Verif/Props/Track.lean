/-
Property theorems C19-C27 (src/melodia/core/track.py).

A history is a list of operations on one track object (Model/TrackState.lean); `S` is any sort
meeting the contract of `list.sort`. `contents` is the multiset of placed notes (position as a
rational number, note); Spec/Track.lean has the vocabulary.
-/
import Verif.Lemmas.TrackMore
import Verif.Lemmas.CPySort
import Mathlib.Tactic.NormNum

set_option autoImplicit false

namespace Melodia

/-! ### C19 -/

/-- C19: after any history on a new track, iteration yields exactly the notes the operations added, each
at the position value it was added at, and `len` is their number. `PlacedBy` determines the added
notes (second part: such a collection always exists). -/
theorem C19_contents (S : ListSort) (sig : Signature) (hsig : sig.Valid) (ops : List TrackOp)
    (hops : ∀ o ∈ ops, o.Valid) :
    (∀ c, PlacedBy S (Track.empty sig) ops c →
      ((((Track.empty sig).run S ops).items S).map Entry.placed : Multiset _) = c ∧
      ((Track.empty sig).run S ops).len = c.card ∧
      (((Track.empty sig).run S ops).items S).length = c.card) ∧
    (∃ c, PlacedBy S (Track.empty sig) ops c) := by
  refine ⟨fun c hc => ?_, Track.placedBy_exists S ops _⟩
  have h := Track.placedBy_contents S (Track.empty_wf hsig) hops hc
  have h0 : (Track.empty sig).contents = 0 := rfl
  rw [h0, add_zero] at h
  refine ⟨by rw [Track.items_placed, h], by rw [Track.len_eq_card, h], ?_⟩
  rw [Track.items_length, Track.len_eq_card, h]

/-- C19: the notes found in a track are the very notes added (tone, duration and velocity as given). -/
theorem C19_notes_unchanged (S : ListSort) (t : Track) (ht : t.Reachable S) (n : Note) (hn : n.Valid)
    (p : Signature) (hp : p.Valid) :
    ∃ t', t.add (.note n) (some (.sig p)) = .ok t' ∧
      ((t'.items S).map Prod.snd).Perm (n :: (t.items S).map Prod.snd) := by
  obtain ⟨t', h1, -, -, h4⟩ := Track.add_of_pos ht.wf (w := .note n) (pos := some (.sig p)) (p := p)
    (by intro m hm; simp [What.notes] at hm; exact hm ▸ hn) (by intro a ha; cases ha; exact hp) rfl
  refine ⟨t', h1, ?_⟩
  rw [← Track.items_placed S, ← Track.items_placed S t] at h4
  simp only [What.notes, List.map_cons, List.map_nil, Multiset.coe_add] at h4
  have := (Multiset.coe_eq_coe.mp h4).map Prod.snd
  simpa [List.map_map, Function.comp_def, Entry.placed] using this

/-- A note used in examples. -/
def exNote (pitch : Int) (n d : Int) : Note := ⟨⟨pitch⟩, ⟨n, d⟩, 1⟩

theorem exNote_valid (pitch n : Int) (k : Nat) (hn : 0 ≤ n) : (exNote pitch n (2 ^ k)).Valid :=
  ⟨⟨hn, k, rfl⟩, by norm_num [exNote], by norm_num [exNote]⟩

/-- A history with nested iterables, default and explicit positions, a failing call, iteration. -/
def exOps : List TrackOp :=
  [.add (.note (exNote 60 1 4)) none, .add (.many [.note (exNote 64 1 8), .many [.note (exNote 67 1 8)]])
    (some (.ints [3, 8])), .add (.note (exNote 1 1 1)) (some (.ints [1, 3])), .iterate,
   .add (.note (exNote 72 1 4)) none, .peek]

theorem exOps_valid : ∀ o ∈ exOps, o.Valid := by
  intro o ho
  have h1 := exNote_valid 60 1 2 (by decide)
  have h2 := exNote_valid 64 1 3 (by decide)
  have h3 := exNote_valid 67 1 3 (by decide)
  have h4 := exNote_valid 1 1 0 (by decide)
  have h5 := exNote_valid 72 1 2 (by decide)
  simp only [exOps, List.mem_cons, List.not_mem_nil, or_false] at ho
  rcases ho with rfl | rfl | rfl | rfl | rfl | rfl
  · exact ⟨by intro n hn; simp [What.notes] at hn; subst hn; exact h1, by simp⟩
  · refine ⟨?_, by rintro a ha; cases ha; trivial⟩
    intro n hn
    simp [What.notes, What.notesList] at hn
    rcases hn with rfl | rfl
    · exact h2
    · exact h3
  · exact ⟨by intro n hn; simp [What.notes] at hn; subst hn; exact h4, by rintro a ha; cases ha; trivial⟩
  · trivial
  · exact ⟨by intro n hn; simp [What.notes] at hn; subst hn; exact h5, by simp⟩
  · trivial

example : (((Track.empty ⟨4, 4⟩).run cpySort exOps).items cpySort).map (fun e => (e.1, e.2.tone.pitch)) =
    [(⟨0, 8⟩, 60), (⟨3, 8⟩, 64), (⟨3, 8⟩, 67), (⟨4, 8⟩, 72)] := by decide

/-! ### C20 -/

/-- C20: after any history, iteration yields non-decreasing positions. -/
theorem C20_ascending (S : ListSort) (t : Track) (ht : t.Reachable S) :
    (t.items S).Pairwise (fun a b => a.1.val ≤ b.1.val) := Track.iter_sorted S ht.wf

/-- C20: notes at one position come in the order of their pitches, however they were added and whatever their durations
(the comparison bug of C05 does not reach so far). -/
theorem C20_chords_ascending (S : ListSort) (t : Track) (ht : t.Reachable S) :
    (t.items S).Pairwise (fun a b => a.1.val = b.1.val → a.2.tone.pitch ≤ b.2.tone.pitch) := by
  refine (Track.iter_sortedPitch S ht.wf).imp ?_
  intro a b h heq
  unfold Entry.pitchKey at h
  rw [Prod.Lex.toLex_le_toLex] at h
  rcases h with h | ⟨-, h⟩
  · exact absurd heq h.ne
  · exact h

example : ((Track.empty ⟨4, 4⟩).run cpySort exOps).Reachable cpySort :=
  ⟨⟨4, 4⟩, exOps, ⟨by decide, 2, rfl⟩, exOps_valid, rfl⟩

/-! ### C21 -/

/-- A note of pitch 60 at position 0. -/
def add60 (n d : Int) : TrackOp := .add (.note (exNote 60 n d)) (some (.ints [0, 1]))

/-- C21 refuted: three notes of the same pitch at position 0 with durations 1/1, 1/4, 1/8; iterating after
the second `add` changes the order later iterations yield. -/
theorem C21_violated :
    let t := Track.empty ⟨4, 4⟩
    let observed := t.run cpySort [add60 1 1, add60 1 4, .iterate, add60 1 8]
    let plain := t.run cpySort [add60 1 1, add60 1 4, add60 1 8]
    (observed.items cpySort).map (fun e => e.2.duration) = [⟨1, 1⟩, ⟨1, 4⟩, ⟨1, 8⟩] ∧
    (plain.items cpySort).map (fun e => e.2.duration) = [⟨1, 4⟩, ⟨1, 1⟩, ⟨1, 8⟩] ∧
    observed.eq cpySort plain = false := by decide

/-- C21, the part that holds for all histories: removing all observations changes neither signature,
length, number of notes, placed notes, nor the sequence of positions yielded; iterating twice in a
row yields the same sequence and iteration leaves the track equal to itself. Missing: the order of notes
at one position, see `C21_order_partial`. -/
theorem C21_observation_partial (S : ListSort) (sig : Signature) (hsig : sig.Valid) (ops : List TrackOp)
    (hops : ∀ o ∈ ops, o.Valid) :
    let t := (Track.empty sig).run S ops
    let u := (Track.empty sig).run S (TrackOp.withoutObservations ops)
    t.signature = u.signature ∧ t.length = u.length ∧ t.len = u.len ∧ t.contents = u.contents ∧
    (t.items S).map (fun e => e.1) = (u.items S).map (fun e => e.1) ∧
    (t.iter S).1.items S = t.items S := by
  intro t u
  have hs := Track.run_sim_strip S ops (Track.Sim.refl (Track.empty sig)) (Track.empty_wf hsig)
    (Track.empty_wf hsig) hops
  have ht := (Track.run_wf S ops (Track.empty_wf hsig) hops).1
  have hu := (Track.run_wf S _ (Track.empty_wf hsig) (Track.withoutObservations_valid hops)).1
  refine ⟨hs.sig, hs.pos, hs.heap.length_eq, hs.contents, ?_, ?_⟩
  · have hv := Track.items_pos_eq S ht hu hs.contents
    have dt : ∀ e ∈ t.items S, e.1.Valid ∧ e.1.denominator = t.maxDenominator := fun e he => by
      obtain ⟨h1, h2, -⟩ := ht.entries e ((Track.iter_perm S t).mem_iff.mp he); exact ⟨h1, h2⟩
    have du : ∀ e ∈ u.items S, e.1.Valid ∧ e.1.denominator = t.maxDenominator := fun e he => by
      obtain ⟨h1, h2, -⟩ := hu.entries e ((Track.iter_perm S u).mem_iff.mp he)
      exact ⟨h1, h2.trans hs.den.symm⟩
    have key : ∀ (l m : List Entry), (∀ e ∈ l, e.1.Valid ∧ e.1.denominator = t.maxDenominator) →
        (∀ e ∈ m, e.1.Valid ∧ e.1.denominator = t.maxDenominator) →
        l.map (fun e => e.1.val) = m.map (fun e => e.1.val) → l.map (fun e => e.1) = m.map (fun e => e.1) := by
      intro l
      induction l with
      | nil => intro m _ _ h; cases m <;> simp_all
      | cons a l ih =>
        intro m hl hm h
        cases m with
        | nil => simp at h
        | cons b m =>
          simp only [List.map_cons, List.cons.injEq] at h ⊢
          obtain ⟨a1, a2⟩ := hl a (by simp)
          obtain ⟨b1, b2⟩ := hm b (by simp)
          exact ⟨Signature.ext_val a1 (a2.trans b2.symm) h.1,
            ih m (fun e he => hl e (by simp [he])) (fun e he => hm e (by simp [he])) h.2⟩
    exact key _ _ dt du hv
  · show ((t.iter S).1.iter S).2 = (t.iter S).2
    rw [Track.iter_iter]

/-- C21 for tracks in which notes of equal pitch and position have equal durations or equal duration
denominators: observations have no influence at all on what iteration yields (up to `==`). -/
theorem C21_order_partial (S : ListSort) (sig : Signature) (hsig : sig.Valid) (ops : List TrackOp)
    (hops : ∀ o ∈ ops, o.Valid)
    (hc : ConsistentPlaced ((Track.empty sig).run S ops).contents) :
    let t := (Track.empty sig).run S ops
    let u := (Track.empty sig).run S (TrackOp.withoutObservations ops)
    (t.items S).map Entry.key = (u.items S).map Entry.key ∧ t.eq S u = true := by
  intro t u
  have hs := Track.run_sim_strip S ops (Track.Sim.refl (Track.empty sig)) (Track.empty_wf hsig)
    (Track.empty_wf hsig) hops
  have ht := (Track.run_wf S ops (Track.empty_wf hsig) hops).1
  have hu := (Track.run_wf S _ (Track.empty_wf hsig) (Track.withoutObservations_valid hops)).1
  have hk := Track.items_key_eq S ht hu hs.contents hc
  refine ⟨hk, (Track.eq_iff S ht hu).mpr ⟨by rw [hs.sig], ?_⟩⟩
  rw [hk]

instance (c : Multiset (ℚ × Note)) : Decidable (ConsistentPlaced c) := by
  unfold ConsistentPlaced; infer_instance

example : ConsistentPlaced ((Track.empty ⟨4, 4⟩).run cpySort exOps).contents := by decide +kernel

/-! ### C22 -/

/-- C22 refuted: a note of length 1/8 and then one of length 1/1 at position 0: the length stays 1/8;
a note of zero length after one of length 1/8 makes the length 0. -/
theorem C22_violated :
    ((Track.empty ⟨4, 4⟩).run cpySort [add60 1 8, add60 1 1]).length = ⟨1, 8⟩ ∧
    ((Track.empty ⟨4, 4⟩).run cpySort [add60 1 8, add60 0 1]).length = ⟨0, 1⟩ ∧
    ¬ IsEnd (1 / 8) ((Track.empty ⟨4, 4⟩).run cpySort [add60 1 8, add60 1 1]).contents := by
  refine ⟨by decide, by decide, ?_⟩
  rintro ⟨h, -⟩
  have h1 := h (0, exNote 60 1 1) (by decide +kernel)
  norm_num [noteEnd, exNote, Signature.val] at h1

/-- C22, exact effect of one `add`: the length becomes the maximum of the old length and the new end, or
(the bug) the minimum; it is the maximum whenever the old length is not finer than both the position
and the duration. -/
theorem C22_step (S : ListSort) (t : Track) (ht : t.Reachable S) (n : Note) (hn : n.Valid)
    (p : Signature) (hp : p.Valid) :
    ∃ t', t.add (.note n) (some (.sig p)) = .ok t' ∧
      (t'.length.val = max t.length.val (p.val + n.duration.val) ∨
        t'.length.val = min t.length.val (p.val + n.duration.val)) ∧
      (t.length.denominator ≤ max p.denominator n.duration.denominator →
        t'.length.val = max t.length.val (p.val + n.duration.val)) := by
  obtain ⟨t', e, h1, -, -, -, -, h6, h7, h8, h9, -, -⟩ := Track.addNote_spec ht.wf hn hp
  have hadd : t.add (.note n) (some (.sig p)) = .ok t' := by
    rw [Track.add_eq]; show t.addAt _ _ = _; rw [Track.addAt]; exact h1
  obtain ⟨g1, g2⟩ := Track.addNote_length ht.wf h6 h9
  rw [h7] at g1 g2
  refine ⟨t', hadd, ?_, ?_⟩
  · rcases le_or_gt t.maxPosition.denominator e.denominator with h | h
    · exact Or.inl (g1 h)
    · exact Or.inr (g2 h)
  · intro h
    refine g1 (h.trans ?_)
    rw [h8]
    exact max_le_max_right _ (le_max_right _ _)

/-- C22, the part that holds: for histories in which the denominators do not trigger the comparison bug
(`LengthSafe`, e.g. every note is appended singly without position, or duration denominators never
decrease), the length is the right-most note ending. Missing: other histories (refuted above). -/
theorem C22_length_partial (S : ListSort) (sig : Signature) (hsig : sig.Valid) (ops : List TrackOp)
    (hops : ∀ o ∈ ops, o.Valid) (hsafe : LengthSafe 1 [] ops) :
    IsEnd ((Track.empty sig).run S ops).length.val ((Track.empty sig).run S ops).contents := by
  refine Track.lengthSafe_run S hsafe ⟨Track.empty_wf hsig, le_rfl, Or.inl le_rfl, ?_⟩ hops
  refine ⟨by simp [Track.contents, Track.empty], Or.inl ⟨rfl, ?_⟩⟩
  norm_num [Track.empty, Signature.val]

/-- C22 for all histories: the length is 0 or the ending of a note in the track. -/
theorem C22_attained (S : ListSort) (t : Track) (ht : t.Reachable S) :
    t.length.val = 0 ∨ ∃ p ∈ t.contents, noteEnd p = t.length.val := by
  obtain ⟨sig, ops, hsig, hops, rfl⟩ := ht
  refine Track.length_attained S ops (Track.empty_wf hsig) hops (Or.inl ?_)
  norm_num [Track.empty, Track.length, Signature.val]

/-- The hypothesis of `C22_length_partial` holds for every history that only appends single notes. -/
example (ns : List Note) : LengthSafe 1 [] (ns.map (fun n => .add (.note n) none)) := by
  suffices h : ∀ seen, LengthSafe 1 seen (ns.map (fun n => .add (.note n) none)) from h []
  induction ns with
  | nil => intro seen; exact .nil _ _
  | cons n ns ih => intro seen; exact .append _ _ _ _ (ih _)

/-! ### C23 -/

/-- C23: without position, every note of `what` is placed at the value `track.length` had before the
call; with a position, at that position. -/
theorem C23_default_position (S : ListSort) (t : Track) (ht : t.Reachable S) (w : What) (hw : w.Valid) :
    (∃ t', t.add w none = .ok t' ∧
      t'.contents = (w.notes.map (fun n => (t.length.val, n)) : Multiset _) + t.contents) ∧
    (∀ a s, SigDenotes a s → a.Valid → ∃ t', t.add w (some a) = .ok t' ∧
      t'.contents = (w.notes.map (fun n => (s.val, n)) : Multiset _) + t.contents) := by
  constructor
  · obtain ⟨t', h1, -, -, h4⟩ := Track.add_of_pos ht.wf hw (pos := none) (by simp) rfl
    exact ⟨t', h1, h4⟩
  · intro a s hs ha
    obtain ⟨t', h1, -, -, h4⟩ := Track.add_of_pos ht.wf hw (pos := some a) (p := s)
      (by intro b hb; cases hb; exact ha) (SigArg.coerce_ok_iff.mpr hs)
    exact ⟨t', h1, h4⟩

example : ((Track.empty ⟨4, 4⟩).run cpySort [add60 1 4,
    .add (.many [.note (exNote 64 1 8), .note (exNote 67 1 8)]) none]).contents =
    {((0 : ℚ), exNote 60 1 4), (1 / 4, exNote 64 1 8), (1 / 4, exNote 67 1 8)} := by decide +kernel

/-! ### C24 -/

/-- C24: a call of `add` with a missing position or one denoting a signature succeeds; otherwise it raises
TypeError or ValueError and the track object is unchanged (the stateful model keeps whatever the
code has assigned before an exception). -/
theorem C24_atomic (S : ListSort) (t : Track) (ht : t.Reachable S) (w : What) (hw : w.Valid)
    (pos : Option SigArg) (hpos : ∀ a, pos = some a → a.Valid) :
    ((pos = none ∨ ∃ a s, pos = some a ∧ SigDenotes a s) →
      ((Track.addS w pos).run t).1 = .ok ()) ∧
    ((∃ a, pos = some a ∧ ∀ s, ¬ SigDenotes a s) →
      ((Track.addS w pos).run t).2 = t ∧
      (((Track.addS w pos).run t).1 = .error .typeError ∨
        ((Track.addS w pos).run t).1 = .error .valueError)) := by
  constructor
  · intro h
    obtain ⟨p, hp⟩ : ∃ p, t.posOf pos = .ok p := by
      rcases h with rfl | ⟨a, s, rfl, hs⟩
      · exact ⟨_, rfl⟩
      · exact ⟨s, SigArg.coerce_ok_iff.mpr hs⟩
    obtain ⟨t', h1, -⟩ := Track.add_of_pos ht.wf hw hpos hp
    rw [Track.addS_of_ok h1]
  · rintro ⟨a, rfl, h⟩
    cases hp : t.posOf (some a) with
    | ok p => exact absurd (SigArg.coerce_ok_iff.mp hp) (h p)
    | error e =>
      rw [Track.addS_of_pos_error hp]
      refine ⟨rfl, ?_⟩
      rcases SigArg.coerce_err hp with rfl | rfl
      · exact Or.inl rfl
      · exact Or.inr rfl

example : ∀ s, ¬ SigDenotes (.ints [1, 3]) s := by
  intro s h
  have := SigArg.coerce_ok_iff.mpr h
  simp [SigArg.coerce, Signature.ofIter, Signature.new, Signature.isPow2Test] at this

/-! ### C25 -/

/-- C25 refuted: an empty track equals any track with the same signature; `==` is not transitive. -/
theorem C25_violated :
    let e := Track.empty ⟨4, 4⟩
    let a := e.run cpySort [add60 1 4]
    let b := e.run cpySort [add60 1 8]
    e.eq cpySort a = true ∧ a.len ≠ e.len ∧
    a.eq cpySort e = true ∧ e.eq cpySort b = true ∧ a.eq cpySort b = false := by decide

/-- C25, exact meaning of `==`: equal signatures, and equal (position, note) pairs as far as the shorter
track goes. -/
theorem C25_eq_iff (S : ListSort) (a b : Track) (ha : a.Reachable S) (hb : b.Reachable S) :
    a.eq S b = true ↔ a.signature.val = b.signature.val ∧
      ((a.items S).map Entry.key).take (min a.len b.len) =
        ((b.items S).map Entry.key).take (min a.len b.len) := Track.eq_iff S ha.wf hb.wf

/-- C25: `==` is reflexive and symmetric for all tracks. -/
theorem C25_refl_symm (S : ListSort) (a b : Track) (ha : a.Reachable S) (hb : b.Reachable S) :
    a.eq S a = true ∧ a.eq S b = b.eq S a := by
  refine ⟨(Track.eq_iff S ha.wf ha.wf).mpr ⟨rfl, rfl⟩, ?_⟩
  rw [Bool.eq_iff_iff, Track.eq_iff S ha.wf hb.wf, Track.eq_iff S hb.wf ha.wf, min_comm a.len]
  constructor <;> rintro ⟨h1, h2⟩ <;> exact ⟨h1.symm, h2.symm⟩

/-- C25, the part that holds: for tracks with the same number of notes `==` means equal signatures and
equal contents in iteration order, and is transitive. Missing: different numbers of notes (refuted
above). -/
theorem C25_same_length_partial (S : ListSort) (a b c : Track) (ha : a.Reachable S)
    (hb : b.Reachable S) (hc : c.Reachable S) (hab : a.len = b.len) (hbc : b.len = c.len) :
    (a.eq S b = true ↔ a.signature.val = b.signature.val ∧
      (a.items S).map Entry.key = (b.items S).map Entry.key) ∧
    (a.eq S b = true → b.eq S c = true → a.eq S c = true) := by
  have full : ∀ x y : Track, x.Reachable S → y.Reachable S → x.len = y.len →
      (x.eq S y = true ↔ x.signature.val = y.signature.val ∧
        (x.items S).map Entry.key = (y.items S).map Entry.key) := by
    intro x y hx hy h
    rw [Track.eq_iff S hx.wf hy.wf, ← h, min_self, List.take_of_length_le, List.take_of_length_le]
    · rw [List.length_map, Track.items_length, h]
    · rw [List.length_map, Track.items_length]
  refine ⟨full a b ha hb hab, ?_⟩
  rw [full a b ha hb hab, full b c hb hc hbc, full a c ha hc (hab.trans hbc)]
  rintro ⟨h1, h2⟩ ⟨h3, h4⟩
  exact ⟨h1.trans h3, h2.trans h4⟩

/-- Equality of keys is what the documentation calls equal contents: same position value and `==` notes. -/
theorem C25_key_meaning (a b : Entry) (ha : a.1.Valid ∧ a.2.Valid) (hb : b.1.Valid ∧ b.2.Valid) :
    Entry.key a = Entry.key b ↔ a.1.val = b.1.val ∧ a.2.tone.pitch = b.2.tone.pitch ∧
      a.2.duration.val = b.2.duration.val ∧ a.2.velocity = b.2.velocity := by
  rw [Track.key_eq_iff ha hb, Note.eq_iff ha.2.duration hb.2.duration, Signature.eq_iff ha.1 hb.1]
  tauto

/-! ### C26 -/

/-- C26 refuted: notes with durations 1/1 and 1/4, equal pitch and position, added in the two orders. -/
theorem C26_violated :
    let a := (Track.empty ⟨4, 4⟩).run cpySort [add60 1 1, add60 1 4]
    let b := (Track.empty ⟨4, 4⟩).run cpySort [add60 1 4, add60 1 1]
    (a.items cpySort).map (fun e => e.2.duration) = [⟨1, 1⟩, ⟨1, 4⟩] ∧
    (b.items cpySort).map (fun e => e.2.duration) = [⟨1, 4⟩, ⟨1, 1⟩] ∧
    a.eq cpySort b = false := by decide

/-- Adding a list of placed notes one after the other. -/
def addPlaced (l : List (Note × Signature)) : List TrackOp :=
  l.map (fun x => .add (.note x.1) (some (.sig x.2)))

theorem addPlaced_valid {l : List (Note × Signature)} (h : ∀ x ∈ l, x.1.Valid ∧ x.2.Valid) :
    ∀ o ∈ addPlaced l, o.Valid := by
  intro o ho
  obtain ⟨x, hx, rfl⟩ := List.mem_map.mp ho
  refine ⟨?_, ?_⟩
  · intro n hn; simp [What.notes] at hn; subst hn; exact (h x hx).1
  · intro a ha; cases ha; exact (h x hx).2

theorem addPlaced_contents (S : ListSort) {l : List (Note × Signature)}
    (h : ∀ x ∈ l, x.1.Valid ∧ x.2.Valid) : ∀ {t : Track}, t.WF →
    (t.run S (addPlaced l)).contents = (l.map (fun x => (x.2.val, x.1)) : Multiset _) + t.contents := by
  induction l with
  | nil => intro t _; simp [addPlaced, Track.run]
  | cons x l ih =>
    intro t ht
    have hv := addPlaced_valid h
    have hx : (TrackOp.add (.note x.1) (some (.sig x.2))).Valid := hv _ (by simp [addPlaced])
    have hs := Track.step_contents S ht hx (Adds.at (.note x.1) (.sig x.2) x.2 (.sig _))
    have := ih (fun y hy => h y (by simp [hy])) (Track.step_wf S ht hx).1
    show (Track.run S (TrackOp.step S t _) (addPlaced l)).contents = _
    rw [this, hs]
    simp [What.notes, ← Multiset.cons_coe]

/-- C26, the part that holds for all insertion orders: number of notes, placed notes, and the sequence of
positions yielded do not depend on the order. Missing: the order of notes sharing a position. -/
theorem C26_order_partial (S : ListSort) (sig : Signature) (hsig : sig.Valid)
    (l m : List (Note × Signature)) (hl : ∀ x ∈ l, x.1.Valid ∧ x.2.Valid) (hlm : l.Perm m) :
    let a := (Track.empty sig).run S (addPlaced l)
    let b := (Track.empty sig).run S (addPlaced m)
    a.contents = b.contents ∧ a.len = b.len ∧
    (a.items S).map (fun e => e.1.val) = (b.items S).map (fun e => e.1.val) := by
  intro a b
  have hm : ∀ x ∈ m, x.1.Valid ∧ x.2.Valid := fun x hx => hl x (hlm.mem_iff.mpr hx)
  have hc : a.contents = b.contents := by
    rw [addPlaced_contents S hl (Track.empty_wf hsig), addPlaced_contents S hm (Track.empty_wf hsig)]
    congr 1
    exact Multiset.coe_eq_coe.mpr (hlm.map _)
  have ha := (Track.run_wf S _ (Track.empty_wf hsig) (addPlaced_valid hl)).1
  have hb := (Track.run_wf S _ (Track.empty_wf hsig) (addPlaced_valid hm)).1
  exact ⟨hc, by rw [Track.len_eq_card, Track.len_eq_card, hc], Track.items_pos_eq S ha hb hc⟩

/-- C26 for consistent durations: any insertion order gives equal tracks that iterate identically. -/
theorem C26_equal_partial (S : ListSort) (sig : Signature) (hsig : sig.Valid)
    (l m : List (Note × Signature)) (hl : ∀ x ∈ l, x.1.Valid ∧ x.2.Valid) (hlm : l.Perm m)
    (hcon : ConsistentPlaced (l.map (fun x => (x.2.val, x.1)) : Multiset _)) :
    let a := (Track.empty sig).run S (addPlaced l)
    let b := (Track.empty sig).run S (addPlaced m)
    a.eq S b = true ∧ (a.items S).map Entry.key = (b.items S).map Entry.key := by
  intro a b
  have hm : ∀ x ∈ m, x.1.Valid ∧ x.2.Valid := fun x hx => hl x (hlm.mem_iff.mpr hx)
  obtain ⟨hc, -, -⟩ := C26_order_partial S sig hsig l m hl hlm
  have ha := Track.run_wf S _ (Track.empty_wf hsig) (addPlaced_valid hl)
  have hb := Track.run_wf S _ (Track.empty_wf hsig) (addPlaced_valid hm)
  have hac : ConsistentPlaced a.contents := by
    rw [addPlaced_contents S hl (Track.empty_wf hsig)]
    simpa [Track.contents, Track.empty] using hcon
  have hk := Track.items_key_eq S ha.1 hb.1 hc hac
  refine ⟨(Track.eq_iff S ha.1 hb.1).mpr ⟨by rw [ha.2, hb.2], by rw [hk]⟩, hk⟩

example : ConsistentPlaced
    ([(exNote 60 1 4, ⟨0, 1⟩), (exNote 60 3 4, ⟨0, 2⟩), (exNote 62 1 8, ⟨0, 1⟩)].map
      (fun x : Note × Signature => (x.2.val, x.1)) : Multiset _) := by decide +kernel

/-! ### C27 -/

/-- The argument `[(note, position) for position, note in t]`. -/
def rebuildContent (S : ListSort) (t : Track) : List (What × Option SigArg) :=
  (t.items S).map (fun e => (.note e.2, some (.sig e.1)))

/-- C27 refuted: a track yielding durations 1/1, 1/4, 1/8 is rebuilt as one yielding 1/4, 1/1, 1/8, which
is not equal. -/
theorem C27_violated :
    let t := (Track.empty ⟨4, 4⟩).run cpySort [add60 1 1, add60 1 4, .iterate, add60 1 8]
    ∃ u, Track.new (.sig t.signature) (rebuildContent cpySort t) = .ok u ∧
      u.eq cpySort t = false := by
  refine ⟨(Track.empty ⟨4, 4⟩).run cpySort [add60 1 1, add60 1 4, add60 1 8], by decide, by decide⟩

theorem addContent_run (S : ListSort) (l : List Entry) (h : ∀ e ∈ l, e.1.Valid ∧ e.2.Valid) :
    ∀ {t : Track}, t.WF → t.addContent (l.map (fun e => (.note e.2, some (.sig e.1)))) =
      .ok (t.run S (addPlaced (l.map (fun e => (e.2, e.1))))) := by
  induction l with
  | nil => intro t _; rfl
  | cons e l ih =>
    intro t ht
    obtain ⟨h1, h2⟩ := h e (by simp)
    have hx : (TrackOp.add (.note e.2) (some (.sig e.1))).Valid := by
      refine ⟨?_, by intro a ha; cases ha; exact h1⟩
      intro n hn; simp [What.notes] at hn; subst hn; exact h2
    obtain ⟨t', g1, g2, -, -⟩ := Track.add_of_pos ht hx.1 hx.2 (pos := some (.sig e.1)) (p := e.1) rfl
    have hstep : TrackOp.step S t (.add (.note e.2) (some (.sig e.1))) = t' := by
      simp only [TrackOp.step]; rw [Track.addS_of_ok g1]
    rw [List.map_cons, Track.addContent, g1]
    show t'.addContent _ = _
    rw [ih (fun x hx => h x (by simp [hx])) g2]
    simp only [addPlaced, List.map_cons, Track.run, List.foldl_cons, hstep]

/-- C27, the part that holds for all tracks: rebuilding never raises and gives a track with the same
signature, number of notes, placed notes and sequence of positions. Missing: the order of notes
sharing a position. -/
theorem C27_rebuild_partial (S : ListSort) (t : Track) (ht : t.Reachable S) :
    ∃ u, Track.new (.sig t.signature) (rebuildContent S t) = .ok u ∧
      u.signature = t.signature ∧ u.len = t.len ∧ u.contents = t.contents ∧
      (u.items S).map (fun e => e.1.val) = (t.items S).map (fun e => e.1.val) := by
  have hv := Track.items_valid S ht.wf
  have he := Track.empty_wf ht.wf.sig
  have hv' : ∀ x ∈ (t.items S).map (fun e => (e.2, e.1)), x.1.Valid ∧ x.2.Valid := by
    intro x hx
    obtain ⟨e, he, rfl⟩ := List.mem_map.mp hx
    exact ⟨(hv e he).2, (hv e he).1⟩
  have hwf := Track.run_wf S _ he (addPlaced_valid hv')
  have hc : ((Track.empty t.signature).run S (addPlaced ((t.items S).map (fun e => (e.2, e.1))))).contents
      = t.contents := by
    rw [addPlaced_contents S hv' he, List.map_map]
    rw [← Track.items_placed S t]
    show _ + (0 : Multiset _) = _
    rw [add_zero]
    rfl
  refine ⟨_, addContent_run S (t.items S) hv he, hwf.2, ?_, hc, Track.items_pos_eq S hwf.1 ht.wf hc⟩
  rw [Track.len_eq_card, Track.len_eq_card, hc]

/-- C27 for consistent durations: the rebuilt track is equal and iterates identically. -/
theorem C27_equal_partial (S : ListSort) (t : Track) (ht : t.Reachable S)
    (hcon : ConsistentPlaced t.contents) :
    ∃ u, Track.new (.sig t.signature) (rebuildContent S t) = .ok u ∧ u.eq S t = true ∧
      (u.items S).map Entry.key = (t.items S).map Entry.key := by
  have hv := Track.items_valid S ht.wf
  have he := Track.empty_wf ht.wf.sig
  have hv' : ∀ x ∈ (t.items S).map (fun e => (e.2, e.1)), x.1.Valid ∧ x.2.Valid := by
    intro x hx
    obtain ⟨e, he, rfl⟩ := List.mem_map.mp hx
    exact ⟨(hv e he).2, (hv e he).1⟩
  have hwf := Track.run_wf S _ he (addPlaced_valid hv')
  obtain ⟨u, h1, h2, -, h4, -⟩ := C27_rebuild_partial S t ht
  have hu : Track.new (.sig t.signature) (rebuildContent S t) = _ := addContent_run S (t.items S) hv he
  rw [h1] at hu
  injection hu with hu
  have hk := Track.items_key_eq S (hu ▸ hwf.1) ht.wf h4 (h4 ▸ hcon)
  exact ⟨u, h1, (Track.eq_iff S (hu ▸ hwf.1) ht.wf).mpr ⟨by rw [h2], by rw [hk]⟩, hk⟩

example : ConsistentPlaced ((Track.empty ⟨4, 4⟩).run cpySort exOps).contents := by decide +kernel

end Melodia
