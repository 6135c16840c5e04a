/-
Property theorems C76 (nested arguments of `Track.add`).
-/
import Verif.Lemmas.Nested
import Verif.Props.Track

set_option autoImplicit false

namespace Melodia

/-- What `add` returns and leaves behind, given the objects reached from left to right: all notes, or notes and then
a first object that is none. -/
inductive AddOutcome (t : Track) (p : Signature) : List Leaf → PyM Unit × RawTrack → Prop
  | all (ns : List Note) (t' : Track)
      (h : t'.contents = (ns.map (fun n => (p.val, n)) : Multiset _) + t.contents) :
      AddOutcome t p (ns.map .note) (.ok (), t'.raw)
  | foreign (ns : List Note) (rest : List Leaf) (u : RawTrack)
      (h : (u.heap.map (fun e => (e.1.val, e.2)) : Multiset (ℚ × Option Note)) =
        (p.val, none) ::ₘ ((ns.map (fun n => (p.val, some n)) : Multiset (ℚ × Option Note)) +
          t.contents.map (fun x => (x.1, some x.2)))) :
      AddOutcome t p (ns.map .note ++ .foreign :: rest) (.error .attributeError, u)
  | tooDeep (ns : List Note) (rest : List Leaf) (t' : Track)
      (h : t'.contents = (ns.map (fun n => (p.val, n)) : Multiset _) + t.contents) :
      AddOutcome t p (ns.map .note ++ .tooDeep :: rest) (.error .recursionError, t'.raw)

/-- Every list of leaves begins with notes, and then ends, or goes on with another leaf. -/
theorem Leaf.split (ls : List Leaf) : ∃ ns : List Note, ls = ns.map .note ∨
    (∃ rest, ls = ns.map .note ++ .foreign :: rest) ∨ (∃ rest, ls = ns.map .note ++ .tooDeep :: rest) := by
  induction ls with
  | nil => exact ⟨[], .inl rfl⟩
  | cons l ls ih =>
    cases l with
    | foreign => exact ⟨[], .inr (.inl ⟨ls, rfl⟩)⟩
    | tooDeep => exact ⟨[], .inr (.inr ⟨ls, rfl⟩)⟩
    | note n =>
      obtain ⟨ns, h | ⟨r, h⟩ | ⟨r, h⟩⟩ := ih
      · exact ⟨n :: ns, .inl (by rw [h]; rfl)⟩
      · exact ⟨n :: ns, .inr (.inl ⟨r, by rw [h]; rfl⟩)⟩
      · exact ⟨n :: ns, .inr (.inr ⟨r, by rw [h]; rfl⟩)⟩

/-- C76: for every argument, however nested: `add` goes through it from left to right, adds all the notes at the one
position, and ends at the first object that is not a note. -/
theorem C76_nested (S : ListSort) (t : Track) (ht : t.Reachable S) (p : Signature) (hp : p.Valid) (limit : Nat)
    (o : Obj) (ls : List Leaf) (h : Reaches limit o ls) (hv : ∀ n, .note n ∈ ls → n.Valid) :
    AddOutcome t p ls (t.raw.add limit o (some (.sig p))) := by
  have hadd : t.raw.add limit o (some (.sig p)) = RawTrack.addLeaves p t.raw ls := by
    rw [← RawTrack.addNested_leaves p h]; rfl
  rw [hadd]
  obtain ⟨ns, rfl | ⟨rest, rfl⟩ | ⟨rest, rfl⟩⟩ := Leaf.split ls
  · obtain ⟨t', -, -, h3, h4⟩ := RawTrack.addLeaves_notes hp [] ns ht.wf (fun n hn => hv n (by simp [hn]))
    rw [List.append_nil] at h4
    rw [h4]
    exact .all ns t' h3
  · obtain ⟨t', h1, -, h3, h4⟩ := RawTrack.addLeaves_notes hp (.foreign :: rest) ns ht.wf (fun n hn => hv n (by simp [hn]))
    obtain ⟨u, k1, -, -, k4⟩ := addObject_other h1 hp
    rw [h4, RawTrack.addLeaves, k1]
    refine .foreign ns rest u ?_
    rw [k4, h3, Multiset.map_add, Multiset.map_coe, List.map_map]
    rfl
  · obtain ⟨t', -, -, h3, h4⟩ := RawTrack.addLeaves_notes hp (.tooDeep :: rest) ns ht.wf (fun n hn => hv n (by simp [hn]))
    rw [h4, RawTrack.addLeaves]
    exact .tooDeep ns rest t' h3

/-- C76: nested notes are all added, at the end of the track when no position is given, if the nesting is less than
the recursion limit. -/
theorem C76_notes (S : ListSort) (t : Track) (ht : t.Reachable S) (depth limit : Nat) (hd : depth < limit) (o : Obj)
    (ns : List Note) (h : o.NotesOnly depth ns) (hv : ∀ n ∈ ns, n.Valid) :
    ∃ t' : Track, t.raw.add limit o none = (.ok (), t'.raw) ∧
      t'.contents = (ns.map (fun n => (t.length.val, n)) : Multiset _) + t.contents := by
  obtain ⟨t', -, -, h3, h4⟩ := RawTrack.addLeaves_notes (p := t.maxPosition) ht.wf.pos [] ns ht.wf hv
  refine ⟨t', ?_, h3⟩
  rw [List.append_nil] at h4
  rw [show t.raw.add limit o none = RawTrack.addNested limit t.raw o t.maxPosition from rfl,
    RawTrack.addNested_leaves _ (h.reaches limit hd), h4]
  rfl

/-- C76: a string that is not empty recurses until the interpreter stops it, whatever the limit; the track is as
before. An empty string adds nothing. -/
theorem C76_string (t : Track) (limit : Nat) (s : List Char) (p : Signature) :
    t.raw.add (limit + 1) (.str s) (some (.sig p)) =
      (if s = [] then .ok () else .error .recursionError, t.raw) := by
  cases s with
  | nil => rfl
  | cons c s =>
    obtain ⟨b, hb⟩ := Reaches.total (limit + 1) (.str s)
    rw [show t.raw.add (limit + 1) (.str (c :: s)) (some (.sig p)) = RawTrack.addNested (limit + 1) t.raw (.str (c :: s)) p
      from rfl, RawTrack.addNested_leaves p (.char (Reaches.char_deep limit c) hb)]
    rfl

/-- C76: adding a track to a track raises AttributeError (its pairs are taken for chords, and the position in the
first pair for a note), and leaves an object that is not a note in the track; an empty track adds nothing. -/
theorem C76_track (S : ListSort) (t : Track) (ht : t.Reachable S) (p : Signature) (hp : p.Valid) (limit : Nat)
    (items : List Entry) :
    (items = [] → t.raw.add (limit + 3) (.ofTrack items) (some (.sig p)) = (.ok (), t.raw)) ∧
    (items ≠ [] → ∃ u, t.raw.add (limit + 3) (.ofTrack items) (some (.sig p)) = (.error .attributeError, u) ∧
      u.heap.length = t.len + 1 ∧
      (u.heap.map (fun e => (e.1.val, e.2)) : Multiset (ℚ × Option Note)) =
        (p.val, none) ::ₘ t.contents.map (fun x => (x.1, some x.2))) := by
  refine ⟨fun h => by subst h; rfl, fun h => ?_⟩
  obtain ⟨e, l, rfl⟩ := List.exists_cons_of_ne_nil h
  obtain ⟨u, k1, -, -, k4⟩ := addObject_other ht.wf hp
  refine ⟨u, ?_, ?_, k4⟩
  · obtain ⟨b, hb⟩ := Reaches.total (limit + 3) (.ofTrack l)
    rw [show t.raw.add (limit + 3) (.ofTrack (e :: l)) (some (.sig p)) =
      RawTrack.addNested (limit + 3) t.raw (.ofTrack (e :: l)) p from rfl,
      RawTrack.addNested_leaves p (o := .ofTrack (e :: l))
        (.cons (.cons (.foreign _) (.cons (.note _ e.2) (.nil _))) hb)]
    change RawTrack.addLeaves p t.raw (.foreign :: _) = _
    rw [RawTrack.addLeaves, k1]
  · have := congrArg Multiset.card k4
    rw [Multiset.card_cons, Multiset.card_map, ← Track.len_eq_card, Multiset.coe_card, List.length_map] at this
    exact this

/-- C76: `[[n60], n62, [[n64]]]` at 1/4 after a note at the beginning; the same with a string at the end. -/
example : (((Track.empty ⟨4, 4⟩).run cpySort [add60 1 4]).raw.add 4
      (.iter [.iter [.note (exNote 60 1 8)], .note (exNote 62 1 8), .iter [.iter [.note (exNote 64 1 8)]]]) none).2.heap.map
        (fun e => (e.1, e.2.map (fun n => n.tone.pitch))) =
      [(⟨0, 4⟩, some 60), (⟨1, 4⟩, some 60), (⟨1, 4⟩, some 62), (⟨1, 4⟩, some 64)] ∧
    ((((Track.empty ⟨4, 4⟩).run cpySort [add60 1 4]).raw.add 900
      (.iter [.iter [.note (exNote 60 1 8)], .str ['A', '4']]) none).2.heap.length = 2) ∧
    (Obj.iter [.iter [.note (exNote 60 1 8)], .note (exNote 62 1 8), .iter [.iter [.note (exNote 64 1 8)]]]).NotesOnly 3
      [exNote 60 1 8, exNote 62 1 8, exNote 64 1 8] :=
  ⟨by decide +kernel, by decide +kernel, .cons (.cons (.note _ _) (.nil _)) (.cons (.note _ _) (.cons
    (.cons (.cons (.note _ _) (.nil _)) (.nil _)) (.nil _)))⟩

/-- C76: a track added to itself. -/
example : (((Track.empty ⟨4, 4⟩).run cpySort [add60 1 4]).raw.add 900
    (.ofTrack (((Track.empty ⟨4, 4⟩).run cpySort [add60 1 4]).iter cpySort).2) (some (.sig ⟨0, 1⟩))).2.heap.map
      (fun e => e.2.map (fun n => n.tone.pitch)) = [some 60, none] := by
  decide +kernel

end Melodia
