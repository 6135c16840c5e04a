/-
Specification of what the reader has to understand: MIDI events and their encodings, chunks and files,
the note events of a channel, how they pair up to notes, and the note a pair stands for. Independent of
the model of the reader.
-/
import Verif.Spec.Midi
import Mathlib.Data.Finset.Prod

set_option autoImplicit false

namespace Melodia

/-! ### Events and their encodings -/

/-- MIDI events: channel messages, system messages without length, meta events. -/
inductive Ev where
  | chan (status : UInt8) (data : Bytes)
  | sys (status : UInt8) (data : Bytes)
  | mta (kind : UInt8) (payload : Bytes)
  deriving DecidableEq

/-- Well-formed events: status bytes with their number of data bytes (MIDI 1.0), meta events with the
lengths the standard fixes for end of track, channel prefix and time signature. -/
def Ev.Wf : Ev → Prop
  | .chan s data => 0x80 ≤ s.toNat ∧ s.toNat < 0xF0 ∧
      data.length = if 0xC0 ≤ s.toNat ∧ s.toNat < 0xE0 then 1 else 2
  | .sys s data =>
      (s.toNat = 0xF1 ∧ data.length = 1) ∨ (s.toNat = 0xF2 ∧ data.length = 2) ∨
      (s.toNat = 0xF3 ∧ data.length = 1) ∨
      (s.toNat ∈ [0xF6, 0xF8, 0xFA, 0xFB, 0xFC, 0xFE] ∧ data = [])
  | .mta k payload =>
      (k.toNat = 0x2F → payload = []) ∧ (k.toNat = 0x20 → payload.length = 1) ∧
      (k.toNat = 0x58 → payload.length = 4)

/-- The end-of-track event. -/
def Ev.endOfTrack : Ev := .mta 0x2F []

/-- `bs` is a variable-length quantity for `n` (leading zero septets allowed). -/
def VlqReads (n : Nat) (bs : Bytes) : Prop :=
  (∃ init last, bs = init ++ [last] ∧ (∀ b ∈ init, 128 ≤ b.toNat) ∧ last.toNat < 128) ∧ vlqValue bs = n

/-- `EvBytes prev e bs next`: with running status `prev` the bytes `bs` encode `e`, and `next` is the
running status afterwards. The status byte of a channel message may be left out if it is the running
status (the data then has to start with a data byte, i.e. below 0x80). -/
inductive EvBytes : Option UInt8 → Ev → Bytes → Option UInt8 → Prop
  | chan (prev s data) : EvBytes prev (.chan s data) (s :: data) (some s)
  | running (s d data) (h : d.toNat < 0x80) :
      EvBytes (some s) (.chan s (d :: data)) (d :: data) (some s)
  | sys (prev s data) : EvBytes prev (.sys s data) (s :: data) none
  | mta (prev k len payload) (h : VlqReads payload.length len) :
      EvBytes prev (.mta k payload) (0xFF :: k :: (len ++ payload)) none

/-- `Encodes prev es bs`: the bytes `bs` encode the events `es` (with delta times). -/
inductive Encodes : Option UInt8 → List (Nat × Ev) → Bytes → Prop
  | nil (prev) : Encodes prev [] []
  | cons {prev next d e es v bs rest} (hv : VlqReads d v) (hw : e.Wf) (he : EvBytes prev e bs next)
      (h : Encodes next es rest) : Encodes prev ((d, e) :: es) (v ++ bs ++ rest)

/-- A track body: events that are not end of track, then end of track. -/
def IsBody (es : List (Nat × Ev)) (body : Bytes) : Prop :=
  (∀ x ∈ es, x.2 ≠ .endOfTrack) ∧ ∃ d, Encodes none (es ++ [(d, .endOfTrack)]) body

/-! ### Chunks and files -/

/-- `bs` is a chunk: four bytes of kind, four bytes of length, body. -/
def IsChunk (kind body bs : Bytes) : Prop :=
  ∃ len, IsBigEndian 4 body.length len ∧ bs = kind ++ len ++ body

/-- The kinds `MThd` and `MTrk`. -/
def kindMThd : Bytes := [0x4D, 0x54, 0x68, 0x64]
def kindMTrk : Bytes := [0x4D, 0x54, 0x72, 0x6B]

/-- A format-0 file: header chunk (format 0, one track, division) and track chunk. -/
def IsFile (division : Nat) (body file : Bytes) : Prop :=
  ∃ div hdr trk, IsBigEndian 2 division div ∧ IsChunk kindMThd ([0, 0, 0, 1] ++ div) hdr ∧
    IsChunk kindMTrk body trk ∧ file = hdr ++ trk

/-- A sequence of whole chunks of any kinds (bodies below 2^24 bytes). -/
inductive ChunkSeq : Bytes → Prop
  | nil : ChunkSeq []
  | cons {kind body bs rest} (hk : kind.length = 4) (hb : body.length < 2 ^ 24) (h : IsChunk kind body bs)
      (hr : ChunkSeq rest) : ChunkSeq (bs ++ rest)

/-- Events that carry neither notes nor time signatures, channel prefixes or the end of the track. -/
def Ev.Unsupported : Ev → Prop
  | .chan s _ => s.toNat / 16 ≠ 8 ∧ s.toNat / 16 ≠ 9
  | .sys _ _ => True
  | .mta k _ => k.toNat ≠ 0x2F ∧ k.toNat ≠ 0x20 ∧ k.toNat ≠ 0x58

/-! ### Note events and notes -/

/-- A note event of a channel. -/
structure NoteEv where
  time : Nat
  on : Bool
  pitch : Nat
  velocity : Nat
  deriving DecidableEq, Inhabited

/-- The channel, kind, pitch and velocity of a note message; a note-on with velocity 0 is a note-off. -/
def Ev.note? : Ev → Option (Nat × Bool × Nat × Nat)
  | .chan s [p, v] =>
    if s.toNat / 16 = 9 ∧ v.toNat ≠ 0 then some (s.toNat % 16, true, p.toNat, v.toNat)
    else if s.toNat / 16 = 8 ∨ s.toNat / 16 = 9 then some (s.toNat % 16, false, p.toNat, v.toNat)
    else none
  | _ => none

/-- The note events of channel `c`, with absolute times, of events with delta times starting at `now`. -/
def noteEvents (c : Nat) : Nat → List (Nat × Ev) → List NoteEv
  | _, [] => []
  | now, (d, e) :: es =>
    match e.note? with
    | some (c', on, p, v) =>
      if c' = c then ⟨now + d, on, p, v⟩ :: noteEvents c (now + d) es else noteEvents c (now + d) es
    | none => noteEvents c (now + d) es

/-- Event number `i` is a note-on (`b = true`) or note-off of pitch `p`. -/
def IsAt (evs : List NoteEv) (p : Nat) (b : Bool) (i : Nat) : Prop :=
  ∃ e, evs[i]? = some e ∧ e.on = b ∧ e.pitch = p

/-- Note-on number `i` starts a note: every earlier note-on of the same pitch is followed by a
note-off of that pitch before `i`. -/
def Starts (evs : List NoteEv) (p i : Nat) : Prop :=
  IsAt evs p true i ∧ ∀ k, k < i → IsAt evs p true k → ∃ l, k < l ∧ l < i ∧ IsAt evs p false l

/-- Events `i` and `j` are the beginning and the end of a note: `i` starts a note and `j` is the first
note-off of that pitch after `i`. -/
def IsPair (evs : List NoteEv) (i j : Nat) : Prop :=
  ∃ p, Starts evs p i ∧ i < j ∧ IsAt evs p false j ∧ ∀ l, i < l → l < j → ¬ IsAt evs p false l

open Classical in
/-- All pairs. -/
noncomputable def pairSet (evs : List NoteEv) : Finset (Nat × Nat) :=
  (Finset.range evs.length ×ˢ Finset.range evs.length).filter (fun x => IsPair evs x.1 x.2)

/-- The fraction `n / d` in lowest terms. -/
def Signature.lowest (n d : Int) : Signature := ⟨n / Int.gcd n d, d / Int.gcd n d⟩

/-- A time in pulses as a signature: rounded down to a multiple of 1/16384 whole note. -/
def gridSignature (division time : Nat) : Signature := .lowest (time * 4096 / division : Nat) 16384

/-- The placed note a note-on `a` and note-off `b` stand for. -/
def readNote (delta : Int) (division : Nat) (a b : NoteEv) : ℚ × Note :=
  ((gridSignature division a.time).val,
    ⟨⟨(a.pitch : Int) - delta⟩, gridSignature division (b.time - a.time), fl ((min a.velocity 127 : Nat) / 127)⟩)

/-- The placed notes of a sequence of note events. -/
noncomputable def readNotes (delta : Int) (division : Nat) (evs : List NoteEv) : Multiset (ℚ × Note) :=
  (pairSet evs).val.map (fun x => readNote delta division (evs.getD x.1 default) (evs.getD x.2 default))

/-! ### Time signatures -/

/-- The time signatures of a track, each with the channel prefix in force (none at first). -/
def signatureEvents : Option Nat → List (Nat × Ev) → List (Option Nat × Signature)
  | _, [] => []
  | pre, (_, e) :: es =>
    match e with
    | .mta k [a] => if k.toNat = 0x20 then signatureEvents (some a.toNat) es else signatureEvents pre es
    | .mta k [nn, dd, _, _] =>
      if k.toNat = 0x58 then (pre, ⟨nn.toNat, 2 ^ dd.toNat⟩) :: signatureEvents pre es
      else signatureEvents pre es
    | _ => signatureEvents pre es

/-- The signature for channel `c`: the last one given for this channel, else the last one given
without channel prefix, else 4/4. -/
def signatureFor (c : Nat) (es : List (Nat × Ev)) : Signature :=
  match ((signatureEvents none es).filter (fun x => x.1 = some c)).getLast? with
  | some x => x.2
  | none =>
    match ((signatureEvents none es).filter (fun x => x.1 = none)).getLast? with
    | some x => x.2
    | none => ⟨4, 4⟩

/-- The channels of a track: those with note events. A track without any note event counts as having
channel 0. -/
def HasChannel (es : List (Nat × Ev)) (c : Nat) : Prop :=
  noteEvents c 0 es ≠ [] ∨ (c = 0 ∧ ∀ k, noteEvents k 0 es = [])

/-! ### Shifted notes -/

/-- A placed note with its tone moved by `k` semitones. -/
def shiftPlaced (k : Int) (x : ℚ × Note) : ℚ × Note := (x.1, { x.2 with tone := ⟨x.2.tone.pitch + k⟩ })

/-! ### Arbitrary byte strings as chunks -/

/-- `Chunks file cs`: the byte string starts with the chunks `cs` (kind and body), where the length of a
body is given by the last three bytes of the length field. -/
inductive Chunks : Bytes → List (Bytes × Bytes) → Prop
  | nil (rest) : Chunks rest []
  | cons {kind top len body rest cs} (hk : kind.length = 4) (hl : IsBigEndian 3 body.length len)
      (h : Chunks rest cs) : Chunks (kind ++ (top : UInt8) :: len ++ body ++ rest) ((kind, body) :: cs)

/-- `AllChunks file cs`: the byte string consists of exactly the chunks `cs`. -/
inductive AllChunks : Bytes → List (Bytes × Bytes) → Prop
  | nil : AllChunks [] []
  | cons {kind top len body rest cs} (hk : kind.length = 4) (hl : IsBigEndian 3 body.length len)
      (h : AllChunks rest cs) : AllChunks (kind ++ (top : UInt8) :: len ++ body ++ rest) ((kind, body) :: cs)

/-- A header body for a single-track file of format 0 with a division in pulses per quarter note. -/
def GoodHeader (body : Bytes) : Prop :=
  ∃ hi lo tail, body = 0 :: 0 :: 0 :: 1 :: hi :: lo :: tail ∧ hi.toNat < 0x80

/-- The first event of a track body lacks its status byte: after the delta time comes a data byte. -/
def MissingStatus (body : Bytes) : Prop := ∃ n v b r, VlqReads n v ∧ body = v ++ b :: r ∧ b.toNat < 0x80

/-- A header body with division zero. -/
def ZeroDivision (body : Bytes) : Prop := (body.drop 4).take 2 = [0, 0]

end Melodia
