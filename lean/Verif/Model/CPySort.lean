/-
A concrete `list.sort`: what CPython's listobject.c does for lists shorter than 64 elements
(one minimal run: `count_run`, reversing a strictly descending run, then `binarysort`).
It is used to make refutations concrete and to show that the contract `ListSort` is satisfiable;
positive theorems hold for every `ListSort`.
-/
import Verif.Model.Py

set_option autoImplicit false

namespace Melodia

/-- Continue a strictly descending run after `prev`: (run, rest). -/
def descRun {α : Type} (lt : α → α → Bool) (prev : α) : List α → List α × List α
  | [] => ([], [])
  | x :: xs =>
    if lt x prev then (x :: (descRun lt x xs).1, (descRun lt x xs).2) else ([], x :: xs)

/-- Continue a non-descending run after `prev`: (run, rest). -/
def ascRun {α : Type} (lt : α → α → Bool) (prev : α) : List α → List α × List α
  | [] => ([], [])
  | x :: xs =>
    if lt x prev then ([], x :: xs) else (x :: (ascRun lt x xs).1, (ascRun lt x xs).2)

/-- `count_run` followed by `reverse_slice` for a descending run: (sorted run, rest). -/
def initialRun {α : Type} (lt : α → α → Bool) : List α → List α × List α
  | [] => ([], [])
  | [a] => ([a], [])
  | a :: b :: xs =>
    if lt b a then ((a :: b :: (descRun lt b xs).1).reverse, (descRun lt b xs).2)
    else (a :: b :: (ascRun lt b xs).1, (ascRun lt b xs).2)

/-- The binary search of `binarysort`: position where `pivot` goes. -/
def bisect {α : Type} (lt : α → α → Bool) (pivot : α) (l : List α) : Nat → Nat → Nat → Nat
  | 0, lo, _ => lo
  | fuel + 1, lo, hi =>
    if lo < hi then
      match l[(lo + hi) / 2]? with
      | some y =>
        if lt pivot y then bisect lt pivot l fuel lo ((lo + hi) / 2)
        else bisect lt pivot l fuel ((lo + hi) / 2 + 1) hi
      | none => lo
    else lo

/-- One step of `binarysort`. -/
def binInsert {α : Type} (lt : α → α → Bool) (l : List α) (x : α) : List α :=
  l.take (bisect lt x l l.length 0 l.length) ++ x :: l.drop (bisect lt x l l.length 0 l.length)

/-- `list.sort` for short lists. -/
def cpySortFn {α : Type} (lt : α → α → Bool) (l : List α) : List α :=
  (initialRun lt l).2.foldl (binInsert lt) (initialRun lt l).1

end Melodia
