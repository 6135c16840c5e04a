/-
Property theorem C83, the `_Reader` object.
-/
import Verif.Lemmas.ReaderObj

set_option autoImplicit false

namespace Melodia

/-- The reader stands inside its data. -/
def ReaderObj.Inside (s : ReaderObj) : Prop := 0 ≤ s.idx ∧ s.idx ≤ s.data.length

/-- The bytes not read yet. -/
def ReaderObj.rest (s : ReaderObj) : Bytes := s.data.drop s.idx.toNat

/-- Read pieces of the given sizes one after the other. -/
def readPieces : List Nat → RM (List Bytes)
  | [] => pure []
  | n :: ns => do
    let b ← RM.read n
    let l ← readPieces ns
    pure (b :: l)

/-- C83: a `read(n)` inside the data takes the next `n` bytes off the rest if there are that many; otherwise it raises
MIDIParsingError and nothing is left. The data stay the same. -/
theorem C83_read (s : ReaderObj) (h : s.Inside) (n : Nat) :
    (n ≤ s.rest.length → ∃ b s', RM.read n s = (.ok b, s') ∧ b.length = n ∧ s.rest = b ++ s'.rest ∧ s'.data = s.data ∧ s'.Inside) ∧
    (s.rest.length < n → ∃ s', RM.read n s = (.error .parsingError, s') ∧ s'.rest = [] ∧ s'.data = s.data ∧ s'.Inside) := by
  obtain ⟨d, i⟩ := s
  obtain ⟨h0, h1⟩ := h
  simp only at h0 h1
  obtain ⟨k, rfl⟩ := Int.eq_ofNat_of_zero_le h0
  have hl : (⟨d, (k : Int)⟩ : ReaderObj).rest = d.drop k := rfl
  rw [hl, List.length_drop]
  constructor
  · intro hn
    refine ⟨(d.drop k).take n, ⟨d, (k : Int) + n⟩, ?_, ?_, ?_, rfl, ?_⟩
    · unfold RM.read
      simp only
      rw [if_neg (by omega), RM.pySlice_nat d k n (by omega)]
    · rw [List.length_take, List.length_drop]; omega
    · have : (⟨d, (k : Int) + n⟩ : ReaderObj).rest = (d.drop k).drop n := by
        show d.drop ((k : Int) + n).toNat = _
        rw [List.drop_drop]; congr 1
      rw [this, List.take_append_drop]
    · constructor
      · show (0 : Int) ≤ (k : Int) + n; omega
      · show (k : Int) + n ≤ d.length; omega
  · intro hn
    refine ⟨⟨d, d.length⟩, ?_, ?_, rfl, ?_⟩
    · unfold RM.read
      simp only
      rw [if_pos (by omega)]
    · show d.drop (d.length : Int).toNat = []
      simp
    · exact ⟨by show (0 : Int) ≤ d.length; omega, le_refl _⟩

example : RM.read 2 (RM.init [1, 2, 3]) = (.ok [1, 2], ⟨[1, 2, 3], 2⟩) ∧
    RM.read 2 ⟨[1, 2, 3], 2⟩ = (.error .parsingError, ⟨[1, 2, 3], 3⟩) := by decide

/-- C83: however the sizes are chosen, the pieces read one after the other are consecutive and none is missing or read twice;
all the reads succeed exactly if there are enough bytes. -/
theorem C83_consecutive (ns : List Nat) (s : ReaderObj) (h : s.Inside) :
    (ns.sum ≤ s.rest.length → ∃ l s', readPieces ns s = (.ok l, s') ∧ l.map List.length = ns ∧
      s.rest = l.flatten ++ s'.rest ∧ s'.data = s.data ∧ s'.Inside) ∧
    (s.rest.length < ns.sum → ∃ s', readPieces ns s = (.error .parsingError, s') ∧ s'.rest = [] ∧ s'.data = s.data ∧
      s'.Inside) := by
  induction ns generalizing s with
  | nil => exact ⟨fun _ => ⟨[], s, rfl, rfl, rfl, rfl, h⟩, fun hn => by simp at hn⟩
  | cons n ns ih =>
    rw [List.sum_cons]
    have hb : ∀ {b s1}, RM.read n s = (.ok b, s1) → readPieces (n :: ns) s =
        (match readPieces ns s1 with | (.ok l, s2) => (.ok (b :: l), s2) | (.error e, s2) => (.error e, s2)) := by
      intro b s1 e
      rw [readPieces, RM.bind_ok e]
      rcases h2 : readPieces ns s1 with ⟨v | v, s2⟩
      · rw [RM.bind_error h2]
      · rw [RM.bind_ok h2]; rfl
    constructor
    · intro hn
      obtain ⟨b, s1, e, hl, hr, hd, hi⟩ := (C83_read s h n).1 (by omega)
      have hlen : s.rest.length = n + s1.rest.length := by rw [hr, List.length_append, hl]
      obtain ⟨l, s2, e2, hl2, hr2, hd2, hi2⟩ := (ih s1 hi).1 (by omega)
      refine ⟨b :: l, s2, ?_, ?_, ?_, hd2.trans hd, hi2⟩
      · rw [hb e, e2]
      · rw [List.map_cons, hl, hl2]
      · rw [hr, hr2, List.flatten_cons, List.append_assoc]
    · intro hn
      by_cases hc : n ≤ s.rest.length
      · obtain ⟨b, s1, e, hl, hr, hd, hi⟩ := (C83_read s h n).1 hc
        have hlen : s.rest.length = n + s1.rest.length := by rw [hr, List.length_append, hl]
        obtain ⟨s2, e2, hr2, hd2, hi2⟩ := (ih s1 hi).2 (by omega)
        exact ⟨s2, by rw [hb e, e2], hr2, hd2.trans hd, hi2⟩
      · obtain ⟨s1, e, hr, hd, hi⟩ := (C83_read s h n).2 (by omega)
        refine ⟨s1, ?_, hr, hd, hi⟩
        unfold readPieces
        rw [RM.bind_error e]

example : readPieces [1, 0, 2] (RM.init [1, 2, 3, 4]) = (.ok [[1], [], [2, 3]], ⟨[1, 2, 3, 4], 3⟩) ∧
    (readPieces [1, 0, 2, 2] (RM.init [1, 2, 3, 4])).1 = .error .parsingError := by decide

/-- C83: after a failed read only `read(0)` succeeds, and going back `k` bytes gives access to the last `k` bytes. -/
theorem C83_after_failure (s s' : ReaderObj) (n : Nat) (e : PyErr) (hf : RM.read n s = (.error e, s')) :
    (∀ m : Nat, 0 < m → RM.read m s' = (.error .parsingError, s')) ∧ RM.read 0 s' = (.ok [], s') ∧
    ∀ k : Nat, k ≤ s.data.length → ∃ t, RM.shift (-(k : Int)) s' = (.ok (), t) ∧ t.Inside ∧
      t.rest = s.data.drop (s.data.length - k) := by
  have hs : s' = ⟨s.data, s.data.length⟩ := by
    unfold RM.read at hf
    split at hf
    · cases hf; rfl
    · cases hf
  subst hs
  refine ⟨fun m hm => ?_, ?_, fun k hk => ⟨_, rfl, ?_, ?_⟩⟩
  · unfold RM.read
    simp only
    rw [if_pos (by omega)]
  · have := RM.pySlice_nat s.data s.data.length 0 (by omega)
    unfold RM.read
    simp only
    rw [if_neg (by omega)]
    simp only [Int.add_zero, Nat.cast_zero] at this ⊢
    rw [this, List.take_zero]
  · constructor
    · show (0 : Int) ≤ s.data.length + -(k : Int); omega
    · show (s.data.length : Int) + -(k : Int) ≤ s.data.length; omega
  · show s.data.drop ((s.data.length : Int) + -(k : Int)).toNat = _
    congr 1
    omega

example : RM.read 5 (RM.init [1, 2, 3]) = (.error .parsingError, ⟨[1, 2, 3], 3⟩) ∧
    RM.shift (-2) ⟨[1, 2, 3], 3⟩ = (.ok (), ⟨[1, 2, 3], 1⟩) ∧ RM.read 2 ⟨[1, 2, 3], 1⟩ = (.ok [2, 3], ⟨[1, 2, 3], 3⟩) := by decide

/-- C83: reading, going back by as many bytes and reading again gives the same bytes. -/
theorem C83_again (s s1 : ReaderObj) (n : Nat) (b : Bytes) (h : RM.read n s = (.ok b, s1)) :
    ∃ s2, RM.shift (-(n : Int)) s1 = (.ok (), s2) ∧ RM.read n s2 = (.ok b, s1) := by
  have hs : s1 = ⟨s.data, s.idx + n⟩ := by
    unfold RM.read at h
    split at h
    · cases h
    · cases h; rfl
  subst hs
  refine ⟨s, ?_, h⟩
  unfold RM.shift
  simp only [Int.add_neg_cancel_right]

example : RM.read 2 ⟨[1, 2, 3], 1⟩ = (.ok [2, 3], ⟨[1, 2, 3], 3⟩) ∧ RM.shift (-2) ⟨[1, 2, 3], 3⟩ = (.ok (), ⟨[1, 2, 3], 1⟩) := by
  decide

/-- C83: the parsers of `_parse_header` and `_parse_track`, working on a mutable reader whose state survives exceptions,
compute for all chunk bodies exactly what the model with readers as values computes. -/
theorem C83_refinement [UnicodeDigits] (m : MidiReader) (data : Bytes) (tpq : Int) :
    (RM.parseTrack m tpq (RM.init data)).1 = MidiReader.parseTrack m data tpq ∧
    (RM.parseHeader (RM.init data)).1 = MidiReader.parseHeader data := by
  have e : RM.init data = RM.obj ⟨data, 0⟩ := rfl
  constructor
  · have h := RM.ref_eventLoop (data.length + 1) ParseState.init trivial ⟨data, 0⟩
    unfold RM.parseTrack MidiReader.parseTrack
    rw [← h, e]
    have hl : RM.len (RM.obj ⟨data, 0⟩) = (.ok data.length, RM.obj ⟨data, 0⟩) := rfl
    rw [RM.bind_ok hl]
    rcases h2 : RM.eventLoop (data.length + 1) ParseState.init (RM.obj ⟨data, 0⟩) with ⟨v | v, s2⟩
    · rw [RM.bind_error h2]; rfl
    · rw [RM.bind_ok h2]; rfl
  · have hr : RM.Ref (do
        let (a, r) ← (⟨data, 0⟩ : Reader).read 2
        let (b, r) ← r.read 2
        let (c, r) ← r.read 2
        pure ((fromBytesBig a, fromBytesBig b, fromBytesBig c), r)) (RM.parseHeader (RM.obj ⟨data, 0⟩)) := by
      unfold RM.parseHeader
      refine RM.Ref.bind (RM.ref_read _ 2) fun a r1 _ => ?_
      refine RM.Ref.bind (RM.ref_read _ 2) fun b r2 _ => ?_
      exact RM.Ref.bind (RM.ref_read _ 2) fun c r3 _ => RM.Ref.pure _ _
    rw [e]
    unfold MidiReader.parseHeader
    simp only [bind, Except.bind, pure, Except.pure] at hr ⊢
    cases h1 : (⟨data, 0⟩ : Reader).read 2 with
    | error x => rw [h1] at hr; exact hr
    | ok q =>
      obtain ⟨a, r1⟩ := q
      rw [h1] at hr
      dsimp only at hr ⊢
      cases h2 : r1.read 2 with
      | error x => rw [h2] at hr; exact hr
      | ok q =>
        obtain ⟨b, r2⟩ := q
        rw [h2] at hr
        dsimp only at hr ⊢
        cases h3 : r2.read 2 with
        | error x => rw [h3] at hr; exact hr
        | ok q => rw [h3] at hr; exact congrArg Prod.fst hr

-- a note in running status: the reader is moved back by one byte before its second event is read
example : (match (@RM.parseTrack ⟨fun _ => none⟩ ⟨24⟩ 96 (RM.init [0, 0x90, 60, 127, 96, 60, 0, 0, 0xFF, 0x2F, 0])).1 with
    | .ok d => d.map fun p => (p.1, p.2.heap)
    | .error _ => []) = [(0, [(⟨0, 1⟩, ⟨⟨36⟩, ⟨1, 4⟩, 1⟩)])] := by decide +kernel

/-- C83: outside its data nothing of this holds. After moving a reader before its data a `read(1)` then succeeds with no byte at all, and a `read(2)`
with too few. -/
theorem C83_outside :
    (∃ s1 s2 : ReaderObj, RM.shift (-1) (RM.init [1, 2, 3]) = (.ok (), s1) ∧ RM.read 1 s1 = (.ok [], s2)) ∧
    ∃ s1 s2 : ReaderObj, RM.shift (-2) (RM.init [1, 2, 3]) = (.ok (), s1) ∧ RM.read 4 s1 = (.ok [2], s2) :=
  ⟨⟨⟨[1, 2, 3], -1⟩, ⟨[1, 2, 3], 0⟩, rfl, rfl⟩, ⟨⟨[1, 2, 3], -2⟩, ⟨[1, 2, 3], 2⟩, rfl, rfl⟩⟩

end Melodia
