/-
`load` and `dump` (src/melodia/io/midi.py) with file objects that may deliver or take fewer bytes than asked for
(unbuffered files, pipes, sockets) or raise OSError. The other files of the model have the file objects of
`io.BytesIO` and of `open` without `buffering=0`.
-/
import Verif.Model.MidiRead

set_option autoImplicit false

namespace Melodia

/-- How a file object answers `read`: the `i`-th call raises OSError (`none`) or delivers at most `k + 1` bytes
(`some k`). At least one byte is delivered unless none is left or none was asked for: an empty result
means end of file (documentation of `io.RawIOBase.read`). -/
abbrev ReadPlan := Nat → Option Nat

/-- `file.read(n)`, the `i`-th call: what is delivered and what is left. -/
def streamRead (plan : ReadPlan) (i : Nat) (file : Bytes) (n : Nat) : PyM (Bytes × Bytes) :=
  match plan i with
  | none => .error .osError
  | some k => .ok (file.take (min n (k + 1)), file.drop (min n (k + 1)))

namespace MidiReader

/-- One round of `_read_chunks` (src/melodia/io/midi.py:391-401): the calls `2 * i` and `2 * i + 1` of `read`. -/
def readChunkStream (plan : ReadPlan) (i : Nat) (file : Bytes) : PyM (Option (Bytes × Bytes × Bytes)) := do
  let (header, file) ← streamRead plan (2 * i) file 8
  if header.length = 0 then pure none
  else if header.length < 8 then .error .parsingError
  else do
    let name := header.take 4
    let size := fromBytesBig (header.drop 5)
    let (body, file) ← streamRead plan (2 * i + 1) file size
    if body.length < size then .error .parsingError
    else pure (some (name, body, file))

/-- The chunk loop of `load` (src/melodia/io/midi.py:619-632). -/
def chunkLoopStream [UnicodeDigits] (m : MidiReader) (plan : ReadPlan) :
    Nat → Nat → LoadState → Bytes → PyM LoadState
  | 0, _, _, _ => .error .outOfFuel
  | fuel + 1, i, st, file => do
    match ← readChunkStream plan i file with
    | none => pure st
    | some (name, body, rest) => do
      let st ← m.handleChunk st name body
      chunkLoopStream m plan fuel (i + 1) st rest

/-- `load` (src/melodia/io/midi.py:604-661). -/
def loadStream [UnicodeDigits] (S : ListSort) (m : MidiReader) (plan : ReadPlan) (file : Bytes) (channel : Option Int) :
    PyM Track := do
  let st ← m.chunkLoopStream plan (file.length + 1) 0 ⟨none, none, none⟩ file
  match st.kind with
  | none => .error .parsingError
  | some _ =>
    match st.tracks with
    | none => .error .parsingError
    | some tracks =>
      if tracks.isEmpty then .ok (Track.empty ⟨4, 4⟩)
      else match channel with
        | none => mergeTracks S (Track.empty (maxSignature tracks)) tracks
        | some c =>
          match tracks.get c with
          | none => .error .valueError
          | some t => .ok t

end MidiReader

/-- How a file object answers one `write`: it takes at most that many bytes, and then returns or raises OSError. -/
structure WritePlan where
  takes : Nat
  raises : Bool

/-- `file.write(data)`: the contents afterwards, and the exception. The number of bytes taken, which `write` returns,
is not looked at by the code. -/
def streamWrite (p : WritePlan) (file data : Bytes) : Bytes × PyM Unit :=
  (file ++ data.take p.takes, if p.raises then .error .osError else .ok ())

namespace Writer

/-- `dump` (src/melodia/io/midi.py:197-240), whose two calls of `write` are answered by `p` and `q`. -/
def dumpStream (S : ListSort) (w : Writer) (p q : WritePlan) (track : Track) (file : Bytes) :
    Track × Bytes × PyM Unit :=
  let (track', items) := track.iter S
  match deltaEvents S w track'.signature items with
  | .error e => (track', file, .error e)
  | .ok events =>
    match w.formatHeaderChunk 0 1 with
    | .error e => (track', file, .error e)
    | .ok header =>
      match streamWrite p file header with
      | (file, .error e) => (track', file, .error e)
      | (file, .ok ()) =>
        match trackBody events with
        | .error e => (track', file, .error e)
        | .ok body =>
          match formatChunk tagMTrk body with
          | .error e => (track', file, .error e)
          | .ok chunk =>
            match streamWrite q file chunk with
            | (file, r) => (track', file, r)

end Writer

end Melodia
