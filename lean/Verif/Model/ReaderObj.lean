/-
The `_Reader` object (src/melodia/io/midi.py:21-40) as a mutable object: `read` and `shift` with any ints, and its state
after an exception. The parser of chunks on top of it; Verif/Model/MidiRead.lean has the same parser with readers as values,
which forgets the reader when an exception is raised.
-/
import Verif.Model.MidiRead

set_option autoImplicit false

namespace Melodia

/-- An index of a slice of a sequence of `n` elements: negative ones count from the end, and all are clipped. -/
def sliceIndex (n : Nat) (i : Int) : Nat := (if i < 0 then max (i + n) 0 else min i n).toNat

/-- `l[a:b]`. -/
def pySlice {α : Type} (l : List α) (a b : Int) : List α :=
  (l.drop (sliceIndex l.length a)).take (sliceIndex l.length b - sliceIndex l.length a)

/-- The fields of a `_Reader` (src/melodia/io/midi.py:22-26). -/
structure ReaderObj where
  data : Bytes
  idx : Int
  deriving DecidableEq

/-- A piece of a program that uses a `_Reader`: what it returns or raises, and the object afterwards. -/
def RM (α : Type) := ReaderObj → PyM α × ReaderObj

instance : Monad RM where
  pure a := fun s => (.ok a, s)
  bind m f := fun s =>
    match m s with
    | (.ok a, s) => f a s
    | (.error e, s) => (.error e, s)

namespace RM

/-- `raise`. -/
def raise {α : Type} (e : PyErr) : RM α := fun s => (.error e, s)

/-- A computation that does not use the reader. -/
def lift {α : Type} (x : PyM α) : RM α := fun s => (x, s)

/-- `_Reader.__init__` (src/melodia/io/midi.py:24-26). -/
def init (data : Bytes) : ReaderObj := ⟨data, 0⟩

/-- `_Reader.read` (src/melodia/io/midi.py:28-34). -/
def read (n : Int) : RM Bytes := fun s =>
  if (s.data.length : Int) - s.idx < n then (.error .parsingError, { s with idx := s.data.length })
  else (.ok (pySlice s.data s.idx (s.idx + n)), { s with idx := s.idx + n })

/-- `_Reader.shift` (src/melodia/io/midi.py:36-37). -/
def shift (n : Int) : RM Unit := fun s => (.ok (), { s with idx := s.idx + n })

/-- `_Reader.__len__` (src/melodia/io/midi.py:39-40). -/
def len : RM Nat := fun s => (.ok s.data.length, s)

/-- `_read_8` (src/melodia/io/midi.py:436-438). -/
def read8 : RM Nat := do
  let b ← read 1
  pure (fromBytesBig b)

/-- The loop of `_read_var_len` (src/melodia/io/midi.py:428-432). -/
def varLenLoop : Nat → Nat → RM Nat
  | 0, _ => raise .outOfFuel
  | fuel + 1, result => do
    let value ← read8
    let result := (result <<< 7) + (value &&& 0x7F)
    if value &&& 0x80 = 0 then pure result else varLenLoop fuel result

/-- `_read_var_len` (src/melodia/io/midi.py:419-434). -/
def readVarLen : RM Nat := do
  let result ← read8
  if result &&& 0x80 = 0 then pure result
  else do
    let n ← len
    varLenLoop (n + 1) (result &&& 0x7F)

/-- The system-exclusive loop (src/melodia/io/midi.py:513-515). -/
def sysexLoop : Nat → RM Unit
  | 0 => raise .outOfFuel
  | fuel + 1 => do
    let value ← read 1
    if bytesNeInt value 0xF7 then sysexLoop fuel else pure ()

/-- The meta-event branch of `read_event` (src/melodia/io/midi.py:467-493). -/
def readMeta : RM Event := do
  let kind ← read8
  let length ← readVarLen
  if kind = 0x2F then
    if length ≠ 0 then raise .parsingError else pure .endOfTrack
  else if kind = 0x20 then
    if length ≠ 1 then raise .parsingError
    else do
      let channel ← read8
      pure (.globalChannel channel)
  else if kind = 0x58 then
    if length ≠ 4 then raise .parsingError
    else do
      let nn ← read8
      let dd ← read8
      let cc ← read8
      let bb ← read8
      pure (.timeSignature nn dd cc bb)
  else do
    let _ ← read length
    pure .unsupported

/-- The branch of `read_event` for a status byte `0x80 <= status < 0xFF` (src/melodia/io/midi.py:496-523). -/
def readStatusEvent (status : Nat) : RM Event := do
  let kind := status >>> 4
  let channel := status &&& 0xF
  if kind = 8 then do
    let pitch ← read8
    let velocity ← read8
    pure (.noteOff channel pitch velocity)
  else if kind = 9 then do
    let pitch ← read8
    let velocity ← read8
    if velocity = 0 then pure (.noteOff channel pitch velocity)
    else pure (.noteOn channel pitch velocity)
  else if status = 0xF0 then do
    let n ← len
    sysexLoop (n + 1)
    pure .unsupported
  else
    match eventLengths[status]? with
    | none => raise .indexError
    | some length =>
      if length = -1 then raise .parsingError
      else do
        let _ ← read length
        pure .unsupported

/-- `read_event` (src/melodia/io/midi.py:459-527): event and new `previous_status`. -/
def readEvent : Nat → Option Nat → Option Nat → RM (Event × Option Nat)
  | 0, _, _ => raise .recursionError
  | depth + 1, status, previousStatus => do
    let status ← match status with
      | none => read8
      | some s => pure s
    if status = 0xFF then do
      let e ← readMeta
      pure (e, some status)
    else if status ≥ 0x80 then do
      let e ← readStatusEvent status
      pure (e, some status)
    else do
      shift (-1)
      readEvent depth previousStatus previousStatus

/-- The main loop of `_parse_track` (src/melodia/io/midi.py:535-554). -/
def eventLoop : Nat → ParseState → RM ParseState
  | 0, _ => raise .outOfFuel
  | fuel + 1, st => do
    let deltaTime ← readVarLen
    let absoluteTime := st.lastTime + deltaTime
    let st := { st with lastTime := absoluteTime }
    let (event, prev) ← readEvent recursionLimit none st.previousStatus
    let st := { st with previousStatus := prev }
    match ← lift (handleEvent st absoluteTime event) with
    | none => pure st
    | some st => eventLoop fuel st

/-- `_parse_track` (src/melodia/io/midi.py:452-602). -/
def parseTrack [UnicodeDigits] (m : MidiReader) (tpq : Int) : RM (Dict Int Track) := do
  let n ← len
  let st ← eventLoop (n + 1) ParseState.init
  let events := if st.channelEvents.isEmpty then appendEvent st.channelEvents 0 (0, .unsupported)
    else st.channelEvents
  lift (MidiReader.buildTracks m tpq st.channelSignatures events [])

/-- `_parse_header` (src/melodia/io/midi.py:403-408). -/
def parseHeader : RM (Nat × Nat × Nat) := do
  let a ← read 2
  let b ← read 2
  let c ← read 2
  pure (fromBytesBig a, fromBytesBig b, fromBytesBig c)

end RM

end Melodia
