/-
Python run-time notions used by the model of melodia.

Nothing in this file models melodia itself; it fixes what we assume about the Python
features the code relies on (exceptions, ints, floats, bytes, sorting, dictionaries).
-/
import Mathlib.Data.Rat.Floor
import Mathlib.Order.Defs.LinearOrder

set_option autoImplicit false

namespace Melodia

/-- Exceptions as values. `outOfFuel` is not a Python exception: it marks that a fuel
bound of the model was too small; theorems show it never occurs. -/
inductive PyErr where
  | valueError
  | typeError
  | overflowError
  | assertionError
  | zeroDivisionError
  | parsingError      -- melodia.io.midi.MIDIParsingError, src/melodia/io/midi.py:17-18
  | recursionError
  | indexError
  | attributeError
  | osError           -- raised by a file object
  | outOfFuel
  deriving DecidableEq, Repr

/-- A Python computation that may raise. -/
abbrev PyM := Except PyErr

/-- Python `//` on ints (floor division). -/
def pyFloorDiv (a b : Int) : Int := Int.fdiv a b

/-- Python `%` on ints (sign of the divisor). -/
def pyMod (a b : Int) : Int := Int.fmod a b

/-- Python `int.bit_length` for non-negative ints. -/
def bitLength (n : Nat) : Nat := if n = 0 then 0 else Nat.log2 n + 1

/-! ### Floats -/

/-- A Python float. A finite double is identified with the rational number it denotes
(so `0.0` and `-0.0` coincide). The model admits every rational, which is more general. -/
inductive PyFloat where
  | nan
  | negInf
  | posInf
  | fin (q : ℚ)
  deriving DecidableEq

/-- Python `a <= b` on floats (false if either is NaN). -/
def PyFloat.le : PyFloat → PyFloat → Bool
  | .nan, _ => false
  | _, .nan => false
  | .negInf, _ => true
  | _, .negInf => false
  | _, .posInf => true
  | .posInf, _ => false
  | .fin a, .fin b => decide (a ≤ b)

/-- Python `a < b` on floats (false if either is NaN). -/
def PyFloat.lt : PyFloat → PyFloat → Bool
  | .nan, _ => false
  | _, .nan => false
  | .negInf, .negInf => false
  | .negInf, _ => true
  | _, .negInf => false
  | .posInf, _ => false
  | .fin _, .posInf => true
  | .fin a, .fin b => decide (a < b)

/-- Python builtin `min(a, b)`: the first argument unless the second is smaller. -/
def PyFloat.min (a b : PyFloat) : PyFloat := if b.lt a then b else a

/-- Python builtin `max(a, b)`: the first argument unless the second is greater. -/
def PyFloat.max (a b : PyFloat) : PyFloat := if a.lt b then b else a

/-- `floor (log2 q)` for a positive rational `q`. -/
def ratLog2 (q : ℚ) : Int :=
  let e : Int := (Nat.log2 q.num.natAbs : Int) - (Nat.log2 q.den : Int)
  if (2 : ℚ) ^ e ≤ q then e else e - 1

/-- Round a rational to the nearest integer, ties to even. -/
def roundHalfEven (q : ℚ) : Int :=
  let f := ⌊q⌋
  let r := q - f
  if r < 1 / 2 then f
  else if 1 / 2 < r then f + 1
  else if f % 2 = 0 then f else f + 1

/-- IEEE-754 binary64 rounding of the exact result of one arithmetic operation:
53 significant bits, to nearest, ties to even. Simplification: the exponent range is
unbounded (no overflow to infinity, no subnormals); see DESIGN.md. -/
def fl (q : ℚ) : ℚ :=
  if q = 0 then 0
  else
    let ulp : ℚ := (2 : ℚ) ^ (ratLog2 |q| - 52)
    (roundHalfEven (q / ulp) : ℚ) * ulp

/-- Python `int(x)` for a finite float: truncation toward zero. -/
def pyTrunc (q : ℚ) : Int := if 0 ≤ q then ⌊q⌋ else ⌈q⌉

/-! ### Bytes -/

abbrev Bytes := List UInt8

/-- The `len` low-order bytes of `n`, least significant first. -/
def natLE : Nat → Nat → Bytes
  | 0, _ => []
  | len + 1, n => UInt8.ofNat n :: natLE len (n / 256)

/-- `x.to_bytes(len, 'little')`: OverflowError if negative or too big. -/
def toBytesLittle (x : Int) (len : Nat) : PyM Bytes :=
  if x < 0 ∨ x ≥ 256 ^ len then .error .overflowError else .ok (natLE len x.toNat)

/-- `x.to_bytes(len, 'big')`: OverflowError if negative or too big. -/
def toBytesBig (x : Int) (len : Nat) : PyM Bytes :=
  if x < 0 ∨ x ≥ 256 ^ len then .error .overflowError else .ok (natLE len x.toNat).reverse

/-- `int.from_bytes(b, 'big')`. -/
def fromBytesBig (b : Bytes) : Nat := b.foldl (fun acc x => acc * 256 + x.toNat) 0

/-! ### Sorting -/

/-- Stable insertion into a list: before the first element that is greater. -/
def insertBy {α : Type} (lt : α → α → Bool) (x : α) : List α → List α
  | [] => [x]
  | y :: ys => if lt x y then x :: y :: ys else y :: insertBy lt x ys

/-- Reference stable sort: insert the elements one after the other. -/
def stableSort {α : Type} (lt : α → α → Bool) (l : List α) : List α :=
  l.foldl (fun acc x => insertBy lt x acc) []

/-- What we assume of Python's `list.sort` (with the `<` of the elements passed as `lt`).

* the result is a permutation of the input, whatever `lt` is;
* if `lt` respects a key (a smaller key is always `lt`, a greater one never), the result is
  sorted by that key, even when `lt` is inconsistent among elements of equal key: this is how
  every insertion/merge based sort behaves, CPython's included;
* if `lt` is a strict weak order on the elements, the result is the stable sort. -/
structure ListSort where
  sort : {α : Type} → (α → α → Bool) → List α → List α
  perm : ∀ {α : Type} (lt : α → α → Bool) (l : List α), (sort lt l).Perm l
  sorted_key : ∀ {α κ : Type} [LinearOrder κ] (lt : α → α → Bool) (key : α → κ) (l : List α),
    (∀ a ∈ l, ∀ b ∈ l, key a < key b → lt a b = true ∧ lt b a = false) →
    (sort lt l).Pairwise (fun a b => key a ≤ key b)
  stable : ∀ {α : Type} (lt : α → α → Bool) (l : List α),
    (∀ a ∈ l, lt a a = false) →
    (∀ a ∈ l, ∀ b ∈ l, ∀ c ∈ l, lt a b = true → lt b c = true → lt a c = true) →
    (∀ a ∈ l, ∀ b ∈ l, ∀ c ∈ l, lt a b = false → lt b a = false → lt b c = false →
      lt c b = false → lt a c = false ∧ lt c a = false) →
    sort lt l = stableSort lt l

/-! ### Dictionaries -/

/-- A Python dict: association list in insertion order, keys unique. -/
abbrev Dict (κ ν : Type) := List (κ × ν)

/-- `d.get(k)` / `d[k]` / `k in d`. -/
def Dict.get {κ ν : Type} [DecidableEq κ] (d : Dict κ ν) (k : κ) : Option ν :=
  match d with
  | [] => none
  | (k', v) :: d => if k' = k then some v else Dict.get d k

/-- `d[k] = v`: overwrite in place, or append. -/
def Dict.set {κ ν : Type} [DecidableEq κ] (d : Dict κ ν) (k : κ) (v : ν) : Dict κ ν :=
  match d with
  | [] => [(k, v)]
  | (k', v') :: d => if k' = k then (k', v) :: d else (k', v') :: Dict.set d k v

/-- `del d[k]`. -/
def Dict.del {κ ν : Type} [DecidableEq κ] (d : Dict κ ν) (k : κ) : Dict κ ν :=
  match d with
  | [] => []
  | (k', v') :: d => if k' = k then d else (k', v') :: Dict.del d k

end Melodia
