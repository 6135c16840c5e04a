/-
Lemmas about the lexer of Verif/Python/Lexer.lean on text that is only partly known.
-/
import Verif.Python.KernelRfl
import Verif.Python.Lexer
import Mathlib.Tactic.IntervalCases

set_option autoImplicit false

namespace Melodia.Source

open Melodia.Python

/-! ### Codes -/

theorem lineCodes_append (a b : String) : lineCodes (a ++ b) = lineCodes a ++ lineCodes b := by
  simp [lineCodes, String.toByteArray_append]

theorem loop_toList (l : List UInt8) (r : ByteArray) : (List.toByteArray.loop l r).data.toList = r.data.toList ++ l := by
  induction l generalizing r with
  | nil => simp [List.toByteArray.loop]
  | cons a l ih => rw [List.toByteArray.loop, ih]; simp [ByteArray.push]

theorem toByteArray_toList (l : List UInt8) : l.toByteArray.data.toList = l := by
  rw [List.toByteArray, loop_toList]; rfl

theorem encode_ascii (c : Char) (h : c.toNat < 128) : (String.utf8EncodeChar c).map UInt8.toNat = [c.toNat] := by
  have h' : c.val.toNat ≤ 127 := by have : c.val.toNat = c.toNat := rfl; omega
  have : String.utf8EncodeChar c = [UInt8.ofNat c.val.toNat] := by
    unfold String.utf8EncodeChar
    exact if_pos h'
  rw [this]
  simp only [List.map_cons, List.map_nil, List.cons.injEq, and_true]
  show (UInt8.ofNat c.toNat).toNat = c.toNat
  simp; omega

/-- The codes of a text of ASCII characters. -/
theorem lineCodes_ascii (l : List Char) (h : ∀ c ∈ l, c.toNat < 128) :
    lineCodes (String.ofList l) = l.map Char.toNat := by
  rw [lineCodes, String.toByteArray_ofList, List.utf8Encode, toByteArray_toList]
  induction l with
  | nil => rfl
  | cons c l ih =>
    rw [List.flatMap_cons, List.map_append, encode_ascii c (h c (by simp)), ih fun d hd => h d (by simp [hd])]
    rfl

/-- The string with the codes of an ASCII string. -/
theorem strOf_lineCodes (l : List Char) (h : ∀ c ∈ l, c.toNat < 128) : strOf (lineCodes (String.ofList l)) = String.ofList l := by
  rw [lineCodes_ascii l h, strOf, List.map_map]
  congr 1
  conv_rhs => rw [← List.map_id l]
  refine List.map_congr_left fun c _ => ?_
  simp

/-! ### Parts of lines -/

theorem beq_ne {a b : Nat} (h : a ≠ b) : Nat.beq a b = false :=
  Bool.eq_false_iff.mpr fun e => h (Nat.eq_of_beq_eq_true e)

/-- A word up to a character that does not belong to it. -/
theorem spanText_word (w : List Nat) (hw : ∀ c ∈ w, isWord c = true) (c : Nat) (hc : isWord c = false) (l : List Nat) :
    spanText isWord (w ++ c :: l) = (w, c :: l) := by
  induction w with
  | nil => simp [spanText, hc]
  | cons d w ih =>
    rw [List.cons_append, spanText, if_pos (hw d (by simp)), ih fun e he => hw e (by simp [he])]

/-- Text without quotes and backslashes inside a string literal in triple quotes. -/
theorem lexTriple_plain (l : List Nat) (h : ∀ c ∈ l, c ≠ 34 ∧ c ≠ 92 ∧ c < 128) (acc : List Nat) :
    lexTriple acc l = some (acc.reverse ++ l, none) := by
  induction l generalizing acc with
  | nil => simp [lexTriple]
  | cons c l ih =>
    obtain ⟨h1, h2, h3⟩ := h c (by simp)
    have e1 : Nat.beq 34 c = false := beq_ne fun e => h1 e.symm
    have e2 : Nat.beq c 92 = false := beq_ne h2
    have e4 : Nat.ble 128 c = false := by
      rw [Bool.eq_false_iff]
      intro e
      exact absurd (Nat.le_of_ble_eq_true e) (by omega)
    have e3 : dropPrefix c!"\"\"\"" (c :: l) = none := by simp [dropPrefix, e1]
    unfold lexTriple
    simp only [e2, e3, e4, Bool.false_eq_true, if_false]
    rw [ih fun d hd => h d (by simp [hd])]
    simp

/-- The continuation of a string literal in triple quotes by such text. -/
theorem physicalLine_triple (l : List Nat) (h : ∀ c ∈ l, c ≠ 34 ∧ c ≠ 92 ∧ c < 128) (d : Nat) (is : List Nat) (toks : List Tok)
    (body : List Nat) :
    physicalLine ⟨d, some body, is, toks⟩ l = some ⟨d, some (body ++ 10 :: l), is, toks⟩ := by
  simp only [physicalLine]
  rw [lexTriple_plain l h]
  simp

theorem lexLines_append (a b : List String) (s : LexState) :
    lexLines (a ++ b) s = (lexLines a s).bind (lexLines b) := by
  induction a generalizing s with
  | nil => rfl
  | cons l a ih =>
    rw [List.cons_append, lexLines, lexLines]
    cases physicalLine s (lineCodes l) with
    | none => rfl
    | some s' => exact ih s'

/-! ### Decimal numbers -/

theorem isDigit_digitChar (n : Nat) (h : n < 10) : isDigit (Nat.digitChar n).toNat = true := by
  interval_cases n <;> rfl

theorem decimal_append (l : List Nat) (c : Nat) : decimal (l ++ [c]) = 10 * decimal l + (c - 48) := by
  simp [decimal, List.foldl_append]

/-- The codes of the decimal digits of a number. -/
def digitCodes (n : Nat) : List Nat := (Nat.toDigits 10 n).map Char.toNat

theorem lineCodes_repr (n : Nat) : lineCodes (Nat.repr n) = digitCodes n := by
  rw [Nat.repr, lineCodes_ascii]
  · rfl
  · intro c hc
    have := Nat.isDigit_of_mem_toDigits (by omega) (by omega) hc
    simp [Char.isDigit] at this
    have h2 := this.2
    have : c.toNat ≤ 57 := by exact_mod_cast h2
    omega

theorem toDigits_step (n : Nat) (h : 10 ≤ n) : Nat.toDigits 10 n = Nat.toDigits 10 (n / 10) ++ [Nat.digitChar (n % 10)] := by
  rw [Nat.toDigits_of_base_le (by omega) h]

theorem digitCodes_spec (n : Nat) : (∀ c ∈ digitCodes n, isDigit c = true) ∧ decimal (digitCodes n) = n ∧
    (n ≠ 0 → ∃ c l, digitCodes n = c :: l ∧ c ≠ 48) := by
  induction n using Nat.strong_induction_on with
  | _ n ih =>
    by_cases h : n < 10
    · refine ⟨?_, ?_, ?_⟩
      · interval_cases n <;> decide
      · interval_cases n <;> rfl
      · intro hn
        interval_cases n
        · exact absurd rfl hn
        all_goals exact ⟨_, _, rfl, by decide⟩
    · obtain ⟨h1, h2, h3⟩ := ih (n / 10) (by omega)
      have hs : digitCodes n = digitCodes (n / 10) ++ [(Nat.digitChar (n % 10)).toNat] := by
        rw [digitCodes, toDigits_step n (by omega), List.map_append]; rfl
      have hd : (Nat.digitChar (n % 10)).toNat = 48 + n % 10 := by
        have : n % 10 < 10 := by omega
        generalize n % 10 = k at this
        interval_cases k <;> rfl
      refine ⟨?_, ?_, ?_⟩
      · intro c hc
        rw [hs] at hc
        rcases List.mem_append.mp hc with hc | hc
        · exact h1 c hc
        · rw [List.mem_singleton.mp hc]; exact isDigit_digitChar _ (by omega)
      · rw [hs, decimal_append, h2, hd]; omega
      · intro _
        obtain ⟨c, l, e, hc⟩ := h3 (by omega)
        exact ⟨c, l ++ [_], by rw [hs, e]; rfl, hc⟩

end Melodia.Source
