/-
Byte strings made of whole chunks of certain kinds.
-/
import Verif.Spec.MidiRead

set_option autoImplicit false

namespace Melodia

/-- The byte string consists of whole chunks (each shorter than 16 MiB), the kinds of which are all as `P` says. -/
inductive ChunksOnly (P : Bytes → Prop) : Bytes → Prop
  | nil : ChunksOnly P []
  | cons {kind body bs rest : Bytes} (hP : P kind) (hk : kind.length = 4) (hb : body.length < 2 ^ 24) (h : IsChunk kind body bs)
      (hr : ChunksOnly P rest) : ChunksOnly P (bs ++ rest)

/-- Kinds the reader does not know. -/
def UnknownKind (kind : Bytes) : Prop := kind ≠ kindMThd ∧ kind ≠ kindMTrk

end Melodia
