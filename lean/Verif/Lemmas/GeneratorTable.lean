/-
The generator for any table: from the conditions on the rows to the functions.
-/
import Verif.Lemmas.Chord
import Verif.Lemmas.GeneratorParse
import Verif.Spec.Generator

set_option autoImplicit false

namespace Melodia.Source

open Melodia.Python

/-! ### Names -/

theorem alpha_range {c : Char} (h : c.isAlpha = true) :
    (97 ≤ c.toNat ∧ c.toNat ≤ 122) ∨ (65 ≤ c.toNat ∧ c.toNat ≤ 90) := by
  simp only [Char.isAlpha, Char.isUpper, Char.isLower, Bool.or_eq_true, Bool.and_eq_true, decide_eq_true_eq, ge_iff_le] at h
  rcases h with h | h
  · exact Or.inr ⟨UInt32.le_iff_toNat_le.mp h.1, UInt32.le_iff_toNat_le.mp h.2⟩
  · exact Or.inl ⟨UInt32.le_iff_toNat_le.mp h.1, UInt32.le_iff_toNat_le.mp h.2⟩

theorem digit_range {c : Char} (h : c.isDigit = true) : 48 ≤ c.toNat ∧ c.toNat ≤ 57 := by
  simp only [Char.isDigit, Bool.and_eq_true, decide_eq_true_eq, ge_iff_le] at h
  exact ⟨UInt32.le_iff_toNat_le.mp h.1, UInt32.le_iff_toNat_le.mp h.2⟩

theorem between_true {a b c : Nat} (h1 : a ≤ c) (h2 : c ≤ b) : between a b c = true := by
  simp [between, Nat.ble_eq_true_of_le h1, Nat.ble_eq_true_of_le h2]

theorem isAlpha_char {c : Char} (h : c.isAlpha = true ∨ c = '_') : isAlpha c.toNat = true ∧ c.toNat < 128 := by
  rcases h with h | rfl
  · rcases alpha_range h with ⟨a, b⟩ | ⟨a, b⟩
    · exact ⟨by simp [isAlpha, between_true a b], by omega⟩
    · exact ⟨by simp [isAlpha, between_true a b], by omega⟩
  · exact ⟨rfl, by decide⟩

theorem isWord_char {c : Char} (h : c.isAlphanum = true ∨ c = '_') : isWord c.toNat = true ∧ c.toNat < 128 := by
  have : (c.isAlpha = true ∨ c = '_') ∨ c.isDigit = true := by
    rcases h with h | h
    · simp only [Char.isAlphanum, Bool.or_eq_true] at h
      rcases h with h | h
      · exact Or.inl (Or.inl h)
      · exact Or.inr h
    · exact Or.inl (Or.inr h)
  rcases this with h | h
  · exact ⟨by simp [isWord, (isAlpha_char h).1], (isAlpha_char h).2⟩
  · obtain ⟨a, b⟩ := digit_range h
    exact ⟨by simp [isWord, isDigit, between_true a b], by omega⟩

theorem eqText_eq {a b : List Nat} (h : eqText a b = true) : a = b := by
  induction a generalizing b with
  | nil => cases b with
    | nil => rfl
    | cons _ _ => cases h
  | cons x a ih => cases b with
    | nil => cases h
    | cons y b =>
      simp only [eqText, Bool.and_eq_true] at h
      rw [Nat.eq_of_beq_eq_true h.1, ih h.2]

theorem memText_mem {a : List Nat} {l : List (List Nat)} (h : memText a l = true) : a ∈ l := by
  induction l with
  | nil => cases h
  | cons b l ih =>
    simp only [memText, Bool.or_eq_true] at h
    rcases h with h | h
    · exact List.mem_cons.mpr (Or.inl (eqText_eq h))
    · exact List.mem_cons.mpr (Or.inr (ih h))

theorem keywords_python : ∀ k ∈ keywords, strOf k ∈ pythonKeywords := by decide +kernel

theorem identifier_codes {s : List Char} (h : IsIdentifier s) :
    NameCodes (lineCodes (String.ofList s)) ∧ memText (lineCodes (String.ofList s)) keywords = false ∧
      strOf (lineCodes (String.ofList s)) = String.ofList s := by
  obtain ⟨⟨c, l, rfl, hc, hl⟩, hk⟩ := h
  have ha : ∀ d ∈ c :: l, d.toNat < 128 := by
    intro d hd
    rcases List.mem_cons.mp hd with rfl | hd
    · exact (isAlpha_char hc).2
    · exact (isWord_char (hl d hd)).2
  have hs := strOf_lineCodes (c :: l) ha
  refine ⟨⟨c.toNat, l.map Char.toNat, lineCodes_ascii _ ha, (isAlpha_char hc).1, ?_⟩, ?_, hs⟩
  · intro d hd
    obtain ⟨e, he, rfl⟩ := List.mem_map.mp hd
    exact (isWord_char (hl e he)).1
  · rw [Bool.eq_false_iff]
    intro hm
    have := keywords_python _ (memText_mem hm)
    rw [hs] at this
    exact hk this

theorem docText_of {s : String} (h : ∀ c ∈ s.toList, c.toNat < 128 ∧ c ≠ '"' ∧ c ≠ '\\' ∧ c ≠ '\n') : DocText (lineCodes s) := by
  have e : s = String.ofList s.toList := by simp
  rw [e, lineCodes_ascii _ (fun c hc => (h c hc).1)]
  intro n hn
  obtain ⟨c, hc, rfl⟩ := List.mem_map.mp hn
  obtain ⟨h0, h1, h2, -⟩ := h c hc
  refine ⟨?_, ?_, h0⟩
  · intro e
    exact h1 (Char.ext (UInt32.toNat_inj.mp e))
  · intro e
    exact h2 (Char.ext (UInt32.toNat_inj.mp e))

/-! ### Functions -/

theorem generated_plays (W : World) (name : String) (l : List Int) (hl : l ≠ []) :
    PlaysIntervals W (generatedDef name l) l := by
  intro ba b d x da xa hb hd hx
  have hp : bindParams program W chordParams [b, d, x] [] { mod := "melodia.music.chord", vars := [] } =
      pure [("base", b), ("duration", d), ("velocity", x)] := by simp [py, chordParams]
  have key : callFun program W (generatedDef name l) [b, d, x] [] = (do
      let ns ← liftPy (@chordBody W.digits l ba da xa)
      pure (match l, ns with
        | [_], [n] => noteV n
        | _, ns => .tuple (ns.map noteV))) := by
    match l, hl with
    | [k], _ =>
      refine Eq.trans (single_ok W hb hd hx name k [b, d, x] [] hp) ?_
      cases h : @chordBody W.digits [k] ba da xa with
      | error e => rfl
      | ok ns =>
        obtain ⟨p, s, q, -, -, -, -, -, rfl⟩ := (@chordBody_ok_iff W.digits [k] (by simp) ba da xa ns).mp h
        rfl
    | k :: m :: l, _ =>
      refine Eq.trans (chord_ok W hb hd hx name (k :: m :: l) [b, d, x] [] hp) ?_
      cases @chordBody W.digits (k :: m :: l) ba da xa <;> rfl
  constructor
  · intro p s q h1 h2 h3 h4 h5
    rw [key, (@chordBody_ok_iff W.digits l hl ba da xa _).mpr ⟨p, s, q, h1, h2, h3, h4, h5, rfl⟩]
    match l, hl with
    | [k], _ => rfl
    | k :: m :: l, _ => simp [chordResult, liftPy, Function.comp_def]
  · intro hno
    rw [key]
    cases h : @chordBody W.digits l ba da xa with
    | error e =>
      rcases @chordBody_err W.digits l ba da xa e h with rfl | rfl
      · exact Or.inl rfl
      · exact Or.inr rfl
    | ok ns =>
      obtain ⟨p, s, q, h1, h2, h3, h4, h5, -⟩ := (@chordBody_ok_iff W.digits l hl ba da xa ns).mp h
      exact absurd ⟨p, s, q, h1, h2, h3, h4, h5⟩ hno

/-! ### Tables -/

/-- The functions of a table with their rows. -/
def tableRows (table : List GenChord) : List (String × GenChord) :=
  table.flatMap fun g => g.names.map fun n => (String.ofList n, g)

theorem rows_lines (table : List GenChord) :
    (tableRows table).map (fun f => functionLines f.1 f.2) = table.flatMap rowFunctions := by
  simp [tableRows, List.map_flatMap, GenChord.names, Function.comp_def]
  rfl

theorem rows_names (table : List GenChord) : (tableRows table).map (fun f => (f.1, f.2.notation')) = tableNames table := by
  simp [tableRows, tableNames, List.map_flatMap, Function.comp_def]

theorem parse_table (table : List GenChord) (h : ∀ g ∈ table, RowOk g) :
    parseModule "melodia.music.chord" false (generate table) =
      some ({ name := "melodia.music.chord",
              names := headItems.flatMap Item.names ++ (tableNames table).map fun f => (f.1, .func (generatedDef f.1 f.2)),
              init := [] }, []) := by
  have := parse_generated (tableRows table) (by
    intro f hf
    obtain ⟨g, hg, hf⟩ := List.mem_flatMap.mp hf
    obtain ⟨n, hn, rfl⟩ := List.mem_map.mp hf
    obtain ⟨h1, h2, h3⟩ := identifier_codes ((h g hg).names n hn)
    exact ⟨h1, docText_of (h g hg).fullName, (h g hg).intervals, h2, h3⟩)
  rw [rows_lines] at this
  rw [generate, this, ← rows_names, List.map_map]
  rfl

theorem forall₂_written (W : World) (l : List (String × List Int)) (h : ∀ e ∈ l, e.2 ≠ []) :
    List.Forall₂ (WrittenFor W) l (l.map fun f => (f.1, .func (generatedDef f.1 f.2))) := by
  induction l with
  | nil => exact .nil
  | cons e l ih =>
    refine .cons ⟨rfl, _, rfl, rfl, rfl, rfl, generated_plays W e.1 e.2 (h e (by simp))⟩ (ih fun x hx => h x (by simp [hx]))

/-- The conditions on a row, as a test. -/
def checkRow (g : GenChord) : Bool :=
  (g.names.all fun n => match n with
    | c :: l => (c.isAlpha || c == '_') && (l.all fun d => d.isAlphanum || d == '_') && !pythonKeywords.contains (String.ofList (c :: l))
    | [] => false) &&
  (g.fullName.toList.all fun c => decide (c.toNat < 128) && c != '"' && c != '\\' && c != '\n') && !g.notation'.isEmpty

theorem rowOk_of_check {g : GenChord} (h : checkRow g = true) : RowOk g := by
  simp only [checkRow, Bool.and_eq_true, List.all_eq_true] at h
  obtain ⟨⟨h1, h2⟩, h3⟩ := h
  refine ⟨?_, ?_, ?_⟩
  · intro n hn
    have := h1 n hn
    cases n with
    | nil => cases this
    | cons c l =>
      simp only [Bool.and_eq_true, Bool.or_eq_true, beq_iff_eq, List.all_eq_true, Bool.not_eq_true'] at this
      obtain ⟨⟨a, b⟩, k⟩ := this
      refine ⟨⟨c, l, rfl, a, b⟩, ?_⟩
      intro hm
      rw [List.contains_iff_mem.mpr hm] at k
      cases k
  · intro c hc
    have := h2 c hc
    simp only [decide_eq_true_eq, bne_iff_ne] at this
    exact ⟨this.1.1.1, this.1.1.2, this.1.2, this.2⟩
  · intro e
    rw [e] at h3
    cases h3

end Melodia.Source
