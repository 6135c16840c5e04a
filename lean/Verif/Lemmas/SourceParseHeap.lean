/-
The memory of `MIDIReader._parse_track` (src/melodia/io/midi.py:452-602) and its text in parts.
-/
import Verif.Lemmas.SourceEvent

set_option autoImplicit false

namespace Melodia

open Melodia.Python

namespace Source

variable (W : World)

/-! ### Dicts with int keys -/

/-- A dict from ints to objects at consecutive addresses. -/
def refDict {α : Type} : Nat → Dict Int α → List (Val × Val)
  | _, [] => []
  | n, (k, _) :: E => (.int k, .ref n) :: refDict (n + 1) E

theorem keyEq_int (a b : Int) : keyEq (.int a) (.int b) = decide (a = b) := by
  simp [keyEq, primCmp, asInt, intCmp]

theorem refDict_none {α : Type} (c : Int) : ∀ (n : Nat) (E : Dict Int α), E.get c = .none →
    dictGet (refDict n E) (.int c) = .none ∧
    ∀ v : α, dictSet (refDict n E) (.int c) (.ref (n + E.length)) = refDict n (E ++ [(c, v)]) ∧ E.set c v = E ++ [(c, v)] := by
  intro n E
  induction E generalizing n with
  | nil => intro _; exact ⟨rfl, fun v => ⟨rfl, rfl⟩⟩
  | cons x E ih =>
    obtain ⟨k, w⟩ := x
    intro h
    rw [Dict.get] at h
    by_cases hk : k = c
    · rw [if_pos hk] at h; cases h
    · rw [if_neg hk] at h
      obtain ⟨h1, h2⟩ := ih (n + 1) h
      refine ⟨?_, fun v => ⟨?_, ?_⟩⟩
      · simp [refDict, dictGet, keyEq_int, hk, h1]
      · have := (h2 v).1
        simp only [refDict, dictSet, keyEq_int, hk, List.length_cons, List.cons_append, decide_false]
        rw [show n + (E.length + 1) = n + 1 + E.length by omega, this]
        rfl
      · simp [Dict.set, hk, (h2 v).2]

theorem refDict_some {α : Type} (c : Int) (l : α) : ∀ (n : Nat) (E : Dict Int α), E.get c = some l →
    ∃ i, i < E.length ∧ dictGet (refDict n E) (.int c) = some (.ref (n + i)) ∧ E[i]? = some (c, l) ∧
      ∀ v : α, E.set c v = List.set E i (c, v) ∧ refDict n (E.set c v) = refDict n E := by
  intro n E
  induction E generalizing n with
  | nil => intro h; cases h
  | cons x E ih =>
    obtain ⟨k, w⟩ := x
    intro h
    rw [Dict.get] at h
    by_cases hk : k = c
    · rw [if_pos hk] at h
      cases h
      subst hk
      exact ⟨0, by simp, by simp [refDict, dictGet, keyEq_int], rfl, fun v => ⟨by simp [Dict.set], by simp [Dict.set, refDict]⟩⟩
    · rw [if_neg hk] at h
      obtain ⟨i, h1, h2, h3, h4⟩ := ih (n + 1) h
      refine ⟨i + 1, by simp [h1], ?_, by simpa using h3, fun v => ⟨?_, ?_⟩⟩
      · simp only [refDict, dictGet, keyEq_int, hk, h2, decide_false]
        rw [show n + (i + 1) = n + 1 + i by omega]
        rfl
      · simp [Dict.set, hk, (h4 v).1]
      · simp only [Dict.set, hk, if_false, refDict, (h4 v).2]

/-- A dict from ints to values. -/
def valDict {α : Type} (f : α → Val) (S : Dict Int α) : List (Val × Val) := S.map (fun x => (.int x.1, f x.2))

theorem valDict_get {α : Type} (f : α → Val) (S : Dict Int α) (c : Int) :
    dictGet (valDict f S) (.int c) = (S.get c).map f := by
  induction S with
  | nil => rfl
  | cons x S ih =>
    obtain ⟨k, w⟩ := x
    simp only [valDict, List.map_cons, dictGet, keyEq_int, Dict.get] at ih ⊢
    by_cases hk : k = c <;> simp [hk, ih]

theorem valDict_set {α : Type} (f : α → Val) (S : Dict Int α) (c : Int) (v : α) :
    dictSet (valDict f S) (.int c) (f v) = valDict f (S.set c v) := by
  induction S with
  | nil => rfl
  | cons x S ih =>
    obtain ⟨k, w⟩ := x
    simp only [valDict, List.map_cons, dictSet, keyEq_int, Dict.set] at ih ⊢
    by_cases hk : k = c <;> simp [hk, ih]

theorem valDict_del {α : Type} (f : α → Val) (S : Dict Int α) (c : Int) :
    dictDel (valDict f S) (.int c) = valDict f (S.del c) := by
  induction S with
  | nil => rfl
  | cons x S ih =>
    obtain ⟨k, w⟩ := x
    simp only [valDict, List.map_cons, dictDel, keyEq_int, Dict.del] at ih ⊢
    by_cases hk : k = c <;> simp [hk, ih]

/-! ### The memory of `_parse_track` -/

/-- An entry of the list of events of a channel. -/
def timedVal (x : Int × Event) : Val := .tuple [.int x.1, eventVal x.2]

/-- The list of events of a channel. -/
def eventsObj (x : Int × List (Int × Event)) : Obj := .list (x.2.map timedVal)

/-- The memory while the events are read: before, nothing but the reader at `d` has changed; then `previous_status`,
`channel_events`, `channel_signatures` and the lists of events. -/
def parseHeap (h : Heap) (d : Nat) (r : Melodia.Reader) (prev : Val) (E : Dict Int (List (Int × Event))) (S : Dict Int Signature) : Heap :=
  { objs := h.objs.set d (readerObj r) ++ (.cell prev :: .dict (refDict (h.objs.length + 3) E) true ::
      .dict (valDict sigV S) false :: E.map eventsObj), draws := h.draws }

section
variable {h : Heap} {d : Nat} (hd : d < h.objs.length) (r : Melodia.Reader) (prev : Val)
  (E : Dict Int (List (Int × Event))) (S : Dict Int Signature)

theorem parseHeap_length : (parseHeap h d r prev E S).objs.length = h.objs.length + 3 + E.length := by
  simp [parseHeap]; omega

include hd in
theorem parseHeap_d : (parseHeap h d r prev E S).objs[d]? = some (readerObj r) := by
  simp only [parseHeap]
  rw [List.getElem?_append_left (by simpa using hd)]
  simp [hd]
theorem parseHeap_p : (parseHeap h d r prev E S).objs[h.objs.length]? = some (.cell prev) := by
  simp only [parseHeap]
  rw [List.getElem?_append_right (by simp)]
  simp
theorem parseHeap_ce : (parseHeap h d r prev E S).objs[h.objs.length + 1]? =
    some (.dict (refDict (h.objs.length + 3) E) true) := by
  simp only [parseHeap]
  rw [List.getElem?_append_right (by simp)]
  simp
theorem parseHeap_cs : (parseHeap h d r prev E S).objs[h.objs.length + 2]? = some (.dict (valDict sigV S) false) := by
  simp only [parseHeap]
  rw [List.getElem?_append_right (by simp)]
  simp
theorem parseHeap_list (i : Nat) : (parseHeap h d r prev E S).objs[h.objs.length + 3 + i]? = E[i]?.map eventsObj := by
  simp only [parseHeap]
  rw [List.getElem?_append_right (by simp; omega)]
  simp only [List.length_set, show h.objs.length + 3 + i - h.objs.length = i + 3 by omega,
    List.getElem?_cons_succ, List.getElem?_map]

include hd in
theorem parseHeap_put_d (r' : Melodia.Reader) :
    (parseHeap h d r prev E S).put d (readerObj r') = parseHeap h d r' prev E S := by
  simp [parseHeap, Heap.put, List.set_append_left, hd]
theorem parseHeap_put_p (v : Val) :
    (parseHeap h d r prev E S).put h.objs.length (.cell v) = parseHeap h d r v E S := by
  simp only [parseHeap, Heap.put]
  rw [List.set_append_right _ _ (by simp)]
  simp
theorem parseHeap_put_cs (c : Int) (s : Signature) :
    (parseHeap h d r prev E S).put (h.objs.length + 2) (.dict (valDict sigV (S.set c s)) false) =
      parseHeap h d r prev E (S.set c s) := by
  simp only [parseHeap, Heap.put]
  rw [List.set_append_right _ _ (by simp)]
  simp
theorem parseHeap_put_list (i : Nat) (x : Int × List (Int × Event)) (he : refDict (h.objs.length + 3) (List.set E i x) = refDict (h.objs.length + 3) E) :
    (parseHeap h d r prev E S).put (h.objs.length + 3 + i) (eventsObj x) = parseHeap h d r prev (List.set E i x) S := by
  simp only [parseHeap, Heap.put]
  rw [List.set_append_right _ _ (by simp; omega)]
  simp only [List.length_set, show h.objs.length + 3 + i - h.objs.length = i + 3 by omega, List.set_cons_succ, List.map_set, he]
theorem parseHeap_new (c : Int) (hg : E.get c = .none) :
    ((parseHeap h d r prev E S).push (.list [])).put (h.objs.length + 1)
      (.dict (dictSet (refDict (h.objs.length + 3) E) (.int c) (.ref (h.objs.length + 3 + E.length))) true) =
      parseHeap h d r prev (E ++ [(c, [])]) S := by
  rw [((refDict_none c (h.objs.length + 3) E hg).2 []).1]
  simp only [parseHeap, Heap.put, Heap.push]
  rw [List.append_assoc, List.set_append_right _ _ (by simp)]
  simp [eventsObj]

end

/-! ### The text -/

@[py] theorem sub_EventUnsupported_EventNoteOFF : program.isSubclass 3 "_EventUnsupported" "_EventNoteOFF" = false := by rfl
@[py] theorem sub_EventUnsupported_EventNoteON : program.isSubclass 3 "_EventUnsupported" "_EventNoteON" = false := by rfl
@[py] theorem sub_EventUnsupported_EventEndOfTrack : program.isSubclass 3 "_EventUnsupported" "_EventEndOfTrack" = false := by rfl
@[py] theorem sub_EventUnsupported_EventTimeSignature : program.isSubclass 3 "_EventUnsupported" "_EventTimeSignature" = false := by rfl
@[py] theorem sub_EventUnsupported_EventGlobalChannel : program.isSubclass 3 "_EventUnsupported" "_EventGlobalChannel" = false := by rfl
@[py] theorem sub_EventNoteOFF_EventNoteOFF : program.isSubclass 3 "_EventNoteOFF" "_EventNoteOFF" = true := by rfl
@[py] theorem sub_EventNoteOFF_EventNoteON : program.isSubclass 3 "_EventNoteOFF" "_EventNoteON" = false := by rfl
@[py] theorem sub_EventNoteOFF_EventEndOfTrack : program.isSubclass 3 "_EventNoteOFF" "_EventEndOfTrack" = false := by rfl
@[py] theorem sub_EventNoteOFF_EventTimeSignature : program.isSubclass 3 "_EventNoteOFF" "_EventTimeSignature" = false := by rfl
@[py] theorem sub_EventNoteOFF_EventGlobalChannel : program.isSubclass 3 "_EventNoteOFF" "_EventGlobalChannel" = false := by rfl
@[py] theorem sub_EventNoteON_EventNoteOFF : program.isSubclass 3 "_EventNoteON" "_EventNoteOFF" = false := by rfl
@[py] theorem sub_EventNoteON_EventNoteON : program.isSubclass 3 "_EventNoteON" "_EventNoteON" = true := by rfl
@[py] theorem sub_EventNoteON_EventEndOfTrack : program.isSubclass 3 "_EventNoteON" "_EventEndOfTrack" = false := by rfl
@[py] theorem sub_EventNoteON_EventTimeSignature : program.isSubclass 3 "_EventNoteON" "_EventTimeSignature" = false := by rfl
@[py] theorem sub_EventNoteON_EventGlobalChannel : program.isSubclass 3 "_EventNoteON" "_EventGlobalChannel" = false := by rfl
@[py] theorem sub_EventEndOfTrack_EventNoteOFF : program.isSubclass 3 "_EventEndOfTrack" "_EventNoteOFF" = false := by rfl
@[py] theorem sub_EventEndOfTrack_EventNoteON : program.isSubclass 3 "_EventEndOfTrack" "_EventNoteON" = false := by rfl
@[py] theorem sub_EventEndOfTrack_EventEndOfTrack : program.isSubclass 3 "_EventEndOfTrack" "_EventEndOfTrack" = true := by rfl
@[py] theorem sub_EventEndOfTrack_EventTimeSignature : program.isSubclass 3 "_EventEndOfTrack" "_EventTimeSignature" = false := by rfl
@[py] theorem sub_EventEndOfTrack_EventGlobalChannel : program.isSubclass 3 "_EventEndOfTrack" "_EventGlobalChannel" = false := by rfl
@[py] theorem sub_EventTimeSignature_EventNoteOFF : program.isSubclass 3 "_EventTimeSignature" "_EventNoteOFF" = false := by rfl
@[py] theorem sub_EventTimeSignature_EventNoteON : program.isSubclass 3 "_EventTimeSignature" "_EventNoteON" = false := by rfl
@[py] theorem sub_EventTimeSignature_EventEndOfTrack : program.isSubclass 3 "_EventTimeSignature" "_EventEndOfTrack" = false := by rfl
@[py] theorem sub_EventTimeSignature_EventTimeSignature : program.isSubclass 3 "_EventTimeSignature" "_EventTimeSignature" = true := by rfl
@[py] theorem sub_EventTimeSignature_EventGlobalChannel : program.isSubclass 3 "_EventTimeSignature" "_EventGlobalChannel" = false := by rfl
@[py] theorem sub_EventGlobalChannel_EventNoteOFF : program.isSubclass 3 "_EventGlobalChannel" "_EventNoteOFF" = false := by rfl
@[py] theorem sub_EventGlobalChannel_EventNoteON : program.isSubclass 3 "_EventGlobalChannel" "_EventNoteON" = false := by rfl
@[py] theorem sub_EventGlobalChannel_EventEndOfTrack : program.isSubclass 3 "_EventGlobalChannel" "_EventEndOfTrack" = false := by rfl
@[py] theorem sub_EventGlobalChannel_EventTimeSignature : program.isSubclass 3 "_EventGlobalChannel" "_EventTimeSignature" = false := by rfl
@[py] theorem sub_EventGlobalChannel_EventGlobalChannel : program.isSubclass 3 "_EventGlobalChannel" "_EventGlobalChannel" = true := by rfl

/-- The body of the main loop (src/melodia/io/midi.py:536-554). -/
def ptLoop : List Stmt := [
      .assign (.name "delta_time") (.call (.attr (.name "MIDIReader") "_read_var_len") [.name "data"] []),
      .assign (.name "absolute_time") (.bin .add (.name "last_time") (.name "delta_time")),
      .assign (.name "last_time") (.name "absolute_time"),
      .assign (.name "event") (.call (.name "read_event") [] []),
      .ite (.call (.name "isinstance") [.name "event", .tuple [.name "_EventNoteON", .name "_EventNoteOFF"]] []) [
        .expr (.call (.attr (.index (.name "channel_events") (.attr (.name "event") "channel")) "append") [.tuple [.name "absolute_time", .name "event"]] []),
        .continue] [],
      .ite (.call (.name "isinstance") [.name "event", .name "_EventEndOfTrack"] []) [
        .break] [],
      .ite (.call (.name "isinstance") [.name "event", .name "_EventGlobalChannel"] []) [
        .assign (.name "global_channel") (.attr (.name "event") "channel"),
        .continue] [],
      .ite (.call (.name "isinstance") [.name "event", .name "_EventTimeSignature"] []) [
        .assign (.index (.name "channel_signatures") (.name "global_channel")) (.call (.name "Signature") [.attr (.name "event") "nn", .bin .shl (.int 1) (.attr (.name "event") "dd")] []),
        .continue] []]

/-- The body of the loop over the events of a channel (src/melodia/io/midi.py:572-598). -/
def ptChannel : List Stmt := [
        .ite (.call (.name "isinstance") [.name "event", .name "_EventNoteON"] []) [
          .ite (.cmp (.attr (.name "event") "pitch") [.isIn] [.name "running_notes"]) [
            .continue] [],
          .assign (.index (.name "running_notes") (.attr (.name "event") "pitch")) (.tuple [.name "absolute_time", .name "event"]),
          .continue] [],
        .ite (.call (.name "isinstance") [.name "event", .name "_EventNoteOFF"] []) [
          .ite (.cmp (.attr (.name "event") "pitch") [.notIn] [.name "running_notes"]) [
            .continue] [],
          .assign (.tuple ["note_beginning", "note_on"]) (.index (.name "running_notes") (.attr (.name "event") "pitch")),
          .del (.index (.name "running_notes") (.attr (.name "event") "pitch")),
          .assign (.name "tone") (.call (.attr (.name "self") "_pitch_to_tone") [.attr (.name "event") "pitch"] []),
          .assign (.name "duration") (.call (.attr (.name "self") "_time_to_signature") [.bin .sub (.name "absolute_time") (.name "note_beginning"), .name "ticks_per_quarter"] ["ticks_per_quarter"]),
          .assign (.name "velocity") (.call (.name "max") [.float 0 1, .call (.name "min") [.float 1 1, .bin .div (.attr (.name "note_on") "velocity") (.float 127 1)] []] []),
          .assign (.name "position") (.call (.attr (.name "self") "_time_to_signature") [.name "note_beginning", .name "ticks_per_quarter"] ["ticks_per_quarter"]),
          .expr (.call (.attr (.name "track") "add") [.call (.name "Note") [.name "tone", .name "duration", .name "velocity"] [], .name "position"] []),
          .continue] []]

/-- The body of the loop over the channels (src/melodia/io/midi.py:561-600). -/
def ptBuild : List Stmt := [
      .ite (.cmp (.name "channel") [.isIn] [.name "channel_signatures"]) [
        .assign (.name "signature") (.index (.name "channel_signatures") (.name "channel"))] [
        .assign (.name "signature") (.call (.attr (.name "channel_signatures") "get") [.un .neg (.int 1), .call (.name "Signature") [.int 4, .int 4] []] [])],
      .assign (.name "track") (.call (.name "Track") [.name "signature"] ["signature"]),
      .assign (.name "running_notes") (.dict [] []),
      .for (.tuple [.name "absolute_time", .name "event"]) (.name "events") ptChannel,
      .assign (.index (.name "result") (.name "channel")) (.name "track")]

/-- What follows the definition of `read_event` (src/melodia/io/midi.py:529-602). -/
def ptRest : List Stmt := [
    .assign (.name "channel_events") (.call (.name "defaultdict") [.name "list"] []),
    .assign (.name "channel_signatures") (.dict [] []),
    .assign (.name "global_channel") (.un .neg (.int 1)),
    .assign (.name "last_time") (.int 0),
    .while (.bool true) ptLoop,
    .ite (.un .not (.name "channel_events")) [
      .expr (.call (.attr (.index (.name "channel_events") (.int 0)) "append") [.tuple [.int 0, .call (.name "_EventUnsupported") [] []]] [])] [],
    .assign (.name "result") (.dict [] []),
    .for (.tuple [.name "channel", .name "events"]) (.call (.attr (.name "channel_events") "items") [] []) ptBuild,
    .ret (.name "result")]

theorem parse_track_text : MIDIReader._parse_track.body =
    .assign (.name "previous_status") .none :: .defn "read_event" [("status", .none)] ["previous_status"] reBody :: ptRest := by
  rfl

end Source
end Melodia
