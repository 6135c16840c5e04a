/-
Property theorems C64 (`Track.add` called with wrong types).
-/
import Verif.Lemmas.TrackRaw
import Verif.Props.Track

set_option autoImplicit false

namespace Melodia

/-- C64 refuted, for every track and every position: `add` of an object that is neither a note nor iterable
raises AttributeError, and the object is in the track afterwards: one more entry, at the given position,
beside the notes there were. -/
theorem C64_violated (S : ListSort) (t : Track) (ht : t.Reachable S) (p : Signature) (hp : p.Valid) :
    ∃ u, t.raw.addObject none p = (.error .attributeError, u) ∧ u ≠ t.raw ∧ u.heap.length = t.len + 1 ∧
      (u.heap.map (fun e => (e.1.val, e.2)) : Multiset (ℚ × Option Note)) =
        (p.val, none) ::ₘ t.contents.map (fun x => (x.1, some x.2)) := by
  obtain ⟨u, h1, -, -, h4⟩ := addObject_other ht.wf hp
  have hl : u.heap.length = t.len + 1 := by
    have := congrArg Multiset.card h4
    rw [Multiset.card_cons, Multiset.card_map, ← Track.len_eq_card, Multiset.coe_card, List.length_map] at this
    exact this
  refine ⟨u, h1, fun hu => ?_, hl, h4⟩
  rw [hu] at hl
  have : t.raw.heap.length = t.len := List.length_map _
  omega

/-- C64 refuted for iterables: the notes before the first object that is not a note have been added, and so
has that object, when the exception is raised. -/
theorem C64_iterable_violated (S : ListSort) (t : Track) (ht : t.Reachable S) (p : Signature) (hp : p.Valid)
    (ns : List Note) (hns : ∀ n ∈ ns, n.Valid) (rest : List (Option Note)) :
    ∃ u, t.raw.addObjects (ns.map some ++ none :: rest) p = (.error .attributeError, u) ∧
      (u.heap.map (fun e => (e.1.val, e.2)) : Multiset (ℚ × Option Note)) =
        (p.val, none) ::ₘ ((ns.map (fun n => (p.val, some n)) : Multiset (ℚ × Option Note)) +
          t.contents.map (fun x => (x.1, some x.2))) := by
  obtain ⟨t', h1, h2, h3⟩ := addObjects_notes (none :: rest) hp ns ht.wf hns
  obtain ⟨u, k1, -, -, k4⟩ := addObject_other h1 hp
  refine ⟨u, ?_, ?_⟩
  · rw [h3, RawTrack.addObjects, k1]
  · rw [k4, h2, Multiset.map_add, Multiset.map_coe, List.map_map]
    rfl

/-- C64, the part that holds: an iterable of notes is added completely (wrong positions: C24). -/
theorem C64_notes_partial (S : ListSort) (t : Track) (ht : t.Reachable S) (p : Signature) (hp : p.Valid)
    (ns : List Note) (hns : ∀ n ∈ ns, n.Valid) :
    ∃ t' : Track, t.raw.addObjects (ns.map some) p = (.ok (), t'.raw) ∧
      t'.contents = (ns.map (fun n => (p.val, n)) : Multiset _) + t.contents := by
  obtain ⟨t', -, h2, h3⟩ := addObjects_notes [] hp ns ht.wf hns
  exact ⟨t', by rw [← List.append_nil (ns.map some), h3]; rfl, h2⟩

/-- C64: a track with a note, then a list of a note and something else at the same position. -/
example : (((Track.empty ⟨4, 4⟩).run cpySort [add60 1 4]).raw.addObjects [some (exNote 62 1 8), none, some (exNote 64 1 8)]
    ⟨0, 1⟩).2.heap.map (fun e => e.2.map (fun n => n.tone.pitch)) = [some 60, some 62, none] := by decide +kernel

end Melodia
