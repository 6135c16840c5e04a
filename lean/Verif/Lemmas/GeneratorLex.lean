/-
The tokens of the functions the generator writes.
-/
import Verif.Lemmas.LexText
import Verif.Model.Generator

set_option autoImplicit false

namespace Melodia.Source

open Melodia.Python

/-! ### Tokens -/

/-- `Note, …, Note` -/
def typeToks : List Int → List Tok
  | [] => []
  | [_] => [.name c!"Note"]
  | _ :: l => .name c!"Note" :: .op c!"," :: typeToks l

/-- `, base_duration, base_velocity)` -/
def noteTail : List Tok := [.op c!",", .name c!"base_duration", .op c!",", .name c!"base_velocity", .op c!")"]

/-- One note. -/
def noteTok (n : Int) : List Tok :=
  if n = 0 then [.name c!"Note", .op c!"(", .name c!"base_tone"] ++ noteTail
  else [.name c!"Note", .op c!"(", .name c!"base_tone", .op c!".", .name c!"transposed", .op c!"(",
    .op (if n > 0 then c!"+" else c!"-"), .int n.natAbs, .op c!")"] ++ noteTail

/-- The notes, separated by commas. -/
def noteToks : List Int → List Tok
  | [] => []
  | [n] => noteTok n
  | n :: l => noteTok n ++ .op c!"," :: noteToks l

/-- The parameters and the arrow. -/
def paramToks : List Tok := [
  .name c!"base", .op c!":", .name c!"Union", .op c!"[", .name c!"int", .op c!",", .name c!"str", .op c!",", .name c!"Tone",
  .op c!",", .name c!"Note", .op c!"]", .op c!",",
  .name c!"duration", .op c!":", .name c!"Union", .op c!"[", .name c!"Tuple", .op c!"[", .name c!"int", .op c!",",
  .name c!"int", .op c!"]", .op c!",", .name c!"Signature", .op c!",", .name c!"None", .op c!"]", .op c!"=", .name c!"None",
  .op c!",",
  .name c!"velocity", .op c!":", .name c!"Optional", .op c!"[", .name c!"float", .op c!"]", .op c!"=", .name c!"None",
  .op c!")", .op c!"->", .name c!"Tuple", .op c!"["]

/-- The docstring and the first statement, up to the notes. -/
def bodyToks (doc : List Nat) : List Tok := [
  .op c!"]", .op c!":", .newline, .indent, .str doc, .newline,
  .name c!"base_tone", .op c!",", .name c!"base_duration", .op c!",", .name c!"base_velocity", .op c!"=",
  .name c!"_get_parameters", .op c!"(", .name c!"base", .op c!",", .name c!"duration", .op c!",", .name c!"velocity",
  .op c!")", .newline, .name c!"return", .op c!"("]

/-- A function, after the end of the one before. -/
def funToks (name doc : List Nat) (l : List Int) : List Tok :=
  [.dedent, .name c!"def", .name name, .op c!"("] ++ paramToks ++ typeToks l ++ bodyToks doc ++ noteToks l ++
    [.op c!")", .newline]

/-! ### The first line -/

theorem lex_def (k : Nat) (s : LexState) (l : List Nat) :
    lexLine (k + 2) s (c!"def " ++ l) = lexLine k (s.push (.name c!"def")) l := by kernel_rfl

theorem lex_open (k : Nat) (is : List Nat) (toks : List Tok) :
    lexLine (k + 2) ⟨0, none, is, toks⟩ c!"(" = some ⟨1, none, is, .op c!"(" :: toks⟩ := by kernel_rfl

/-- The codes of a name: a letter or underscore, then letters, digits and underscores. -/
def NameCodes (w : List Nat) : Prop := ∃ c l, w = c :: l ∧ isAlpha c = true ∧ ∀ d ∈ l, isWord d = true

theorem alpha_ne {c : Nat} (h : isAlpha c = true) :
    Nat.beq c 32 = false ∧ Nat.beq c 35 = false ∧ isDigit c = false := by
  simp only [isAlpha, between, Bool.or_eq_true, Bool.and_eq_true] at h
  have h' : (97 ≤ c ∧ c ≤ 122) ∨ (65 ≤ c ∧ c ≤ 90) ∨ c = 95 := by
    rcases h with (⟨a, b⟩ | ⟨a, b⟩) | a
    · exact Or.inl ⟨Nat.le_of_ble_eq_true a, Nat.le_of_ble_eq_true b⟩
    · exact Or.inr (Or.inl ⟨Nat.le_of_ble_eq_true a, Nat.le_of_ble_eq_true b⟩)
    · exact Or.inr (Or.inr (Nat.eq_of_beq_eq_true a))
  refine ⟨beq_ne (by omega), beq_ne (by omega), ?_⟩
  simp only [isDigit, between, Bool.and_eq_false_iff]
  by_cases hc : 48 ≤ c
  · right
    exact Bool.eq_false_iff.mpr fun e => by have := Nat.le_of_ble_eq_true e; omega
  · left
    exact Bool.eq_false_iff.mpr fun e => hc (Nat.le_of_ble_eq_true e)

theorem lex_name (k : Nat) (s : LexState) (w : List Nat) (hw : NameCodes w) :
    lexLine (k + 1) s (w ++ c!"(") = lexLine k (s.push (.name w)) c!"(" := by
  obtain ⟨c, l, rfl, hc, hl⟩ := hw
  obtain ⟨h1, h2, h3⟩ := alpha_ne hc
  have hs := spanText_word (c :: l) (by
    intro d hd
    rcases List.mem_cons.mp hd with rfl | hd
    · simp [isWord, hc]
    · exact hl d hd) 40 (by rfl) []
  rw [List.cons_append] at hs ⊢
  rw [lexLine]
  simp only [h1, h2, h3, Bool.false_eq_true, if_false]
  rw [hs]
  rfl

theorem line_def (name : List Nat) (hn : NameCodes name) (toks : List Tok) :
    physicalLine ⟨0, none, [4], toks⟩ (c!"def " ++ name ++ c!"(") =
      some ⟨1, none, [], [.op c!"(", .name name, .name c!"def", .dedent] ++ toks⟩ := by
  have h : physicalLine ⟨0, none, [4], toks⟩ (c!"def " ++ (name ++ c!"(")) =
      lexLine ((name ++ c!"(").length + 5) ⟨0, none, [], .dedent :: toks⟩ (c!"def " ++ (name ++ c!"(")) := by kernel_rfl
  rw [List.append_assoc, h]
  obtain ⟨k, hk⟩ : ∃ k, (name ++ c!"(").length + 5 = k + 2 + 1 + 2 := by
    refine ⟨(name ++ c!"(").length, by omega⟩
  rw [hk, lex_def, lex_name _ _ _ hn]
  exact lex_open _ _ _

/-! ### The parameters and the return type -/

theorem line_params (toks : List Tok) :
    ∃ s, lexLines ["        base: Union[int, str, Tone, Note],",
      "        duration: Union[Tuple[int, int], Signature, None] = None,",
      "        velocity: Optional[float] = None"] ⟨1, none, [], toks⟩ = some s ∧
    s = ⟨1, none, [], (paramToks.take 39).reverse ++ toks⟩ := ⟨_, rfl, by kernel_rfl⟩

theorem lex_type_last (k : Nat) (toks : List Tok) :
    lexLine (k + 4) ⟨1, none, [], toks⟩ c!"Note]:" =
      some ⟨0, none, [], [.newline, .op c!":", .op c!"]", .name c!"Note"] ++ toks⟩ := by kernel_rfl

theorem lex_type_more (k : Nat) (s : LexState) (l : List Nat) :
    lexLine (k + 3) s (c!"Note, " ++ l) = lexLine k ((s.push (.name c!"Note")).push (.op c!",")) l := by kernel_rfl

theorem lex_types (l : List Int) (hl : l ≠ []) (n : Nat) (hn : 3 * l.length + 1 ≤ n) (toks : List Tok) :
    lexLine n ⟨1, none, [], toks⟩ (lineCodes (noteTypes l) ++ c!"]:") =
      some ⟨0, none, [], [.newline, .op c!":", .op c!"]"] ++ (typeToks l).reverse ++ toks⟩ := by
  induction l generalizing n toks with
  | nil => exact absurd rfl hl
  | cons a l ih =>
    cases l with
    | nil =>
      simp only [List.length_cons, List.length_nil] at hn
      obtain ⟨k, rfl⟩ : ∃ k, n = k + 4 := ⟨n - 4, by omega⟩
      exact lex_type_last k toks
    | cons b l =>
      simp only [List.length_cons] at hn ih
      obtain ⟨k, rfl⟩ : ∃ k, n = k + 3 := ⟨n - 3, by omega⟩
      have e : lineCodes (noteTypes (a :: b :: l)) ++ c!"]:" = c!"Note, " ++ (lineCodes (noteTypes (b :: l)) ++ c!"]:") := by
        rw [show noteTypes (a :: b :: l) = "Note, " ++ noteTypes (b :: l) from rfl, lineCodes_append, List.append_assoc]
        rfl
      rw [e, lex_type_more]
      have := ih (by simp) k (by omega) ((.op c!",") :: (.name c!"Note") :: toks)
      refine Eq.trans this ?_
      simp [typeToks]

theorem types_length (l : List Int) : 4 * l.length ≤ (lineCodes (noteTypes l)).length := by
  induction l with
  | nil => simp
  | cons a l ih =>
    cases l with
    | nil => exact show 4 ≤ (lineCodes "Note").length by decide +kernel
    | cons b l =>
      rw [show noteTypes (a :: b :: l) = "Note, " ++ noteTypes (b :: l) from rfl, lineCodes_append, List.length_append,
        show (lineCodes "Note, ").length = 6 from by decide +kernel]
      simp only [List.length_cons] at ih ⊢
      omega

theorem line_type (l : List Int) (hl : l ≠ []) (toks : List Tok) :
    physicalLine ⟨1, none, [], toks⟩ (lineCodes (") -> " ++ returnType l ++ ":")) =
      some ⟨0, none, [], [.newline, .op c!":", .op c!"]"] ++ (typeToks l).reverse ++
        [.op c!"[", .name c!"Tuple", .op c!"->", .op c!")"] ++ toks⟩ := by
  have e : lineCodes (") -> " ++ returnType l ++ ":") = c!") -> Tuple[" ++ (lineCodes (noteTypes l) ++ c!"]:") := by
    simp only [returnType, lineCodes_append, List.append_assoc]
    rfl
  rw [e]
  have hlen := types_length l
  generalize hr : lineCodes (noteTypes l) ++ c!"]:" = r
  have hrl : r.length = (lineCodes (noteTypes l)).length + 2 := by rw [← hr]; simp
  have h : physicalLine ⟨1, none, [], toks⟩ (c!") -> Tuple[" ++ r) =
      lexLine (r.length + 6) ⟨1, none, [], [.op c!"[", .name c!"Tuple", .op c!"->", .op c!")"] ++ toks⟩ r := by kernel_rfl
  rw [h, ← hr, lex_types l hl _ (by rw [hr]; omega)]
  simp

/-! ### The docstring and the first statement -/

/-- Text that may stand inside a docstring. -/
def DocText (l : List Nat) : Prop := ∀ c ∈ l, c ≠ 34 ∧ c ≠ 92 ∧ c < 128

instance (l : List Nat) : Decidable (DocText l) := inferInstanceAs (Decidable (∀ c ∈ l, c ≠ 34 ∧ c ≠ 92 ∧ c < 128))

theorem lexLines_doc (ls : List String) (h : ∀ l ∈ ls, DocText (lineCodes l)) (d : Nat) (is : List Nat) (toks : List Tok)
    (body : List Nat) : ∃ body', lexLines ls ⟨d, some body, is, toks⟩ = some ⟨d, some body', is, toks⟩ := by
  induction ls generalizing body with
  | nil => exact ⟨body, rfl⟩
  | cons l ls ih =>
    rw [lexLines, physicalLine_triple _ (h l (by simp))]
    exact ih (fun m hm => h m (by simp [hm])) _

theorem doc_open (toks : List Tok) :
    lexLines ["    \"\"\""] ⟨0, none, [], toks⟩ = some ⟨0, some [], [4], .indent :: toks⟩ := by kernel_rfl

theorem doc_close (body : List Nat) (toks : List Tok) :
    ∃ doc, lexLines ["    \"\"\"",
      "    base_tone, base_duration, base_velocity = _get_parameters(base, duration, velocity)",
      "",
      "    return ("] ⟨0, some body, [4], toks⟩ = some ⟨1, none, [4], ((bodyToks doc).drop 4).reverse ++ toks⟩ :=
  ⟨([32, 32, 32, 32, 10] ++ body.reverse).reverse, by kernel_rfl⟩

theorem digits_doc (n : Nat) : DocText (digitCodes n) := by
  intro c hc
  have h := (digitCodes_spec n).1 c hc
  simp only [isDigit, between, Bool.and_eq_true] at h
  have h1 := Nat.le_of_ble_eq_true h.1
  have h2 := Nat.le_of_ble_eq_true h.2
  omega

theorem doc_append {a b : List Nat} (ha : DocText a) (hb : DocText b) : DocText (a ++ b) := by
  intro c hc
  rcases List.mem_append.mp hc with hc | hc
  · exact ha c hc
  · exact hb c hc

theorem line_doc (full : String) (hf : DocText (lineCodes full)) (n : Nat) (toks : List Tok) :
    ∃ doc, lexLines ["    \"\"\"",
      "    Generates " ++ full ++ " chord. If note is provided as the first argument, duration and ",
      "    velocity of this note will be used as default values for chord duration and velocity.",
      "    Otherwise :class:`~melodia.core.note.Note` defaults will be used.",
      "",
      "    :param base: base tone",
      "    (can be integer, string, :class:`~melodia.core.tone.Tone` or :class:`~melodia.core.note.Note`)",
      "    :param duration: duration of the chord (default: None)",
      "    :param velocity: velocity of the chord (default: None)",
      "    :return: tuple of " ++ Nat.repr n ++ " notes",
      "    \"\"\"",
      "    base_tone, base_duration, base_velocity = _get_parameters(base, duration, velocity)",
      "",
      "    return ("] ⟨0, none, [], toks⟩ = some ⟨1, none, [4], ((bodyToks doc).drop 3).reverse ++ toks⟩ := by
  have h := lexLines_doc ["    Generates " ++ full ++ " chord. If note is provided as the first argument, duration and ",
      "    velocity of this note will be used as default values for chord duration and velocity.",
      "    Otherwise :class:`~melodia.core.note.Note` defaults will be used.",
      "",
      "    :param base: base tone",
      "    (can be integer, string, :class:`~melodia.core.tone.Tone` or :class:`~melodia.core.note.Note`)",
      "    :param duration: duration of the chord (default: None)",
      "    :param velocity: velocity of the chord (default: None)",
      "    :return: tuple of " ++ Nat.repr n ++ " notes"] (by
    intro l hl
    simp only [List.mem_cons, List.not_mem_nil, or_false] at hl
    rcases hl with rfl | rfl | rfl | rfl | rfl | rfl | rfl | rfl | rfl
    · rw [lineCodes_append, lineCodes_append]
      exact doc_append (doc_append (by decide +kernel) hf) (by decide +kernel)
    · decide +kernel
    · decide +kernel
    · decide +kernel
    · decide +kernel
    · decide +kernel
    · decide +kernel
    · decide +kernel
    · rw [lineCodes_append, lineCodes_append, lineCodes_repr]
      exact doc_append (doc_append (by decide +kernel) (digits_doc n)) (by decide +kernel)) 0 [4] (.indent :: toks) []
  obtain ⟨body, h⟩ := h
  obtain ⟨doc, h'⟩ := doc_close body (.indent :: toks)
  refine ⟨doc, ?_⟩
  have e := lexLines_append ["    \"\"\""] (["    Generates " ++ full ++ " chord. If note is provided as the first argument, duration and ",
      "    velocity of this note will be used as default values for chord duration and velocity.",
      "    Otherwise :class:`~melodia.core.note.Note` defaults will be used.",
      "",
      "    :param base: base tone",
      "    (can be integer, string, :class:`~melodia.core.tone.Tone` or :class:`~melodia.core.note.Note`)",
      "    :param duration: duration of the chord (default: None)",
      "    :param velocity: velocity of the chord (default: None)",
      "    :return: tuple of " ++ Nat.repr n ++ " notes"] ++ ["    \"\"\"",
      "    base_tone, base_duration, base_velocity = _get_parameters(base, duration, velocity)",
      "",
      "    return ("]) ⟨0, none, [], toks⟩
  rw [doc_open, Option.bind_some] at e
  refine Eq.trans e ?_
  rw [lexLines_append, h, Option.bind_some, h']
  simp [bodyToks]

/-! ### The notes -/

theorem digit_cases {d : Nat} (h : isDigit d = true) : 48 ≤ d ∧ d ≤ 57 := by
  simp only [isDigit, between, Bool.and_eq_true] at h
  exact ⟨Nat.le_of_ble_eq_true h.1, Nat.le_of_ble_eq_true h.2⟩

theorem lex_plus (k d : Nat) (hd : isDigit d = true) (toks : List Tok) (l : List Nat) :
    lexLine (k + 7) ⟨1, none, [4], toks⟩ (c!"Note(base_tone.transposed(+" ++ d :: l) =
      lexLine k ⟨3, none, [4], [.op c!"+", .op c!"(", .name c!"transposed", .op c!".", .name c!"base_tone", .op c!"(",
        .name c!"Note"] ++ toks⟩ (d :: l) := by
  obtain ⟨h1, h2⟩ := digit_cases hd
  interval_cases d <;> kernel_rfl

theorem lex_minus (k d : Nat) (hd : isDigit d = true) (toks : List Tok) (l : List Nat) :
    lexLine (k + 7) ⟨1, none, [4], toks⟩ (c!"Note(base_tone.transposed(-" ++ d :: l) =
      lexLine k ⟨3, none, [4], [.op c!"-", .op c!"(", .name c!"transposed", .op c!".", .name c!"base_tone", .op c!"(",
        .name c!"Note"] ++ toks⟩ (d :: l) := by
  obtain ⟨h1, h2⟩ := digit_cases hd
  interval_cases d <;> kernel_rfl

theorem isWord_digit {c : Nat} (h : isDigit c = true) : isWord c = true := by simp [isWord, h]

theorem lex_number (k n : Nat) (hn : n ≠ 0) (s : LexState) (l : List Nat) :
    lexLine (k + 1) s (digitCodes n ++ 41 :: l) = lexLine k (s.push (.int n)) (41 :: l) := by
  obtain ⟨h1, h2, h3⟩ := digitCodes_spec n
  obtain ⟨c, m, e, hc⟩ := h3 hn
  have hs := spanText_word (digitCodes n) (fun d hd => isWord_digit (h1 d hd)) 41 rfl l
  have hnum : lexNumber (digitCodes n ++ 41 :: l) = some (.int n, 41 :: l) := by
    have hx : dropPrefix c!"0x" (digitCodes n) = none := by
      rw [e]; simp [dropPrefix, beq_ne (show 48 ≠ c from fun h => hc h.symm)]
    have ha : (digitCodes n).all isDigit = true := List.all_eq_true.mpr h1
    have h0 : eqText ((digitCodes n).take 1) c!"0" = false := by
      rw [e]; simp [eqText, beq_ne hc]
    have hp : dropPrefix c!"." (41 :: l) = none := rfl
    unfold lexNumber
    rw [hs]
    simp only [hx, ha, if_true, hp, h0, h2, Bool.not_false, Bool.or_true]
  have hd : isDigit c = true := h1 c (by rw [e]; simp)
  obtain ⟨b1, b2⟩ := digit_cases hd
  rw [e, List.cons_append] at hnum ⊢
  rw [lexLine]
  simp only [beq_ne (show c ≠ 32 by omega), beq_ne (show c ≠ 35 by omega), hd, Bool.false_eq_true, if_false, if_true, hnum]

theorem lex_tail (k : Nat) (toks : List Tok) :
    lexLine (k + 10) ⟨3, none, [4], toks⟩ c!"), base_duration, base_velocity)" =
      some ⟨1, none, [4], noteTail.reverse ++ .op c!")" :: toks⟩ ∧
    lexLine (k + 10) ⟨3, none, [4], toks⟩ c!"), base_duration, base_velocity)," =
      some ⟨1, none, [4], .op c!"," :: noteTail.reverse ++ .op c!")" :: toks⟩ := by
  constructor <;> kernel_rfl

theorem zero_line (toks : List Tok) :
    physicalLine ⟨1, none, [4], toks⟩ (lineCodes "        Note(base_tone, base_duration, base_velocity)") =
      some ⟨1, none, [4], (noteTok 0).reverse ++ toks⟩ ∧
    physicalLine ⟨1, none, [4], toks⟩ (lineCodes "        Note(base_tone, base_duration, base_velocity),") =
      some ⟨1, none, [4], .op c!"," :: (noteTok 0).reverse ++ toks⟩ := by
  constructor <;> kernel_rfl

theorem spaces_line (toks : List Tok) (l : List Nat) :
    physicalLine ⟨1, none, [4], toks⟩ (c!"        Note" ++ l) =
      lexLine (l.length + 13) ⟨1, none, [4], toks⟩ (c!"Note" ++ l) := by kernel_rfl

theorem line_note (n : Int) (toks : List Tok) :
    physicalLine ⟨1, none, [4], toks⟩ (lineCodes ("        " ++ noteStatement n)) =
      some ⟨1, none, [4], (noteTok n).reverse ++ toks⟩ ∧
    physicalLine ⟨1, none, [4], toks⟩ (lineCodes ("        " ++ noteStatement n ++ ",")) =
      some ⟨1, none, [4], .op c!"," :: (noteTok n).reverse ++ toks⟩ := by
  by_cases h0 : n = 0
  · subst h0; exact zero_line toks
  have hn : n.natAbs ≠ 0 := by omega
  obtain ⟨c, m, e, -⟩ := (digitCodes_spec n.natAbs).2.2 hn
  have hd : isDigit c = true := (digitCodes_spec n.natAbs).1 c (by rw [e]; simp)
  by_cases hp : n > 0
  · have hs : noteStatement n = "Note(base_tone.transposed(+" ++ Nat.repr n.natAbs ++ "), base_duration, base_velocity)" := by
      simp [noteStatement, h0, hp]
    have key : ∀ t : List Nat, physicalLine ⟨1, none, [4], toks⟩
        (c!"        Note(base_tone.transposed(+" ++ (digitCodes n.natAbs ++ 41 :: t)) =
        lexLine ((digitCodes n.natAbs).length + t.length + 29)
          ⟨3, none, [4], [.int n.natAbs, .op c!"+", .op c!"(", .name c!"transposed", .op c!".", .name c!"base_tone", .op c!"(",
            .name c!"Note"] ++ toks⟩ (41 :: t) := by
      intro t
      have h1 := spaces_line toks (c!"(base_tone.transposed(+" ++ (digitCodes n.natAbs ++ 41 :: t))
      refine Eq.trans h1 ?_
      have hl : (c!"(base_tone.transposed(+" ++ (digitCodes n.natAbs ++ 41 :: t)).length + 13 =
          ((digitCodes n.natAbs).length + t.length + 29 + 1) + 7 := by simp; omega
      rw [hl]
      have h2 := lex_plus ((digitCodes n.natAbs).length + t.length + 29 + 1) c hd toks (m ++ 41 :: t)
      rw [← List.cons_append, ← e] at h2
      refine Eq.trans h2 ?_
      exact lex_number _ _ hn _ _
    have hcode : ∀ t : String, lineCodes ("        " ++ noteStatement n ++ t) =
        c!"        Note(base_tone.transposed(+" ++ (digitCodes n.natAbs ++ 41 :: (c!", base_duration, base_velocity)" ++
          lineCodes t)) := by
      intro t
      rw [hs]
      simp only [lineCodes_append, lineCodes_repr, List.append_assoc]
      rfl
    constructor
    · have hc := hcode ""
      rw [String.append_empty] at hc
      rw [hc, key]
      refine Eq.trans (lex_tail ((digitCodes n.natAbs).length + 50) _).1 ?_
      simp [noteTok, h0, hp]
    · rw [hcode, key]
      refine Eq.trans (lex_tail ((digitCodes n.natAbs).length + 51) _).2 ?_
      simp [noteTok, h0, hp]
  · have hs : noteStatement n = "Note(base_tone.transposed(-" ++ Nat.repr n.natAbs ++ "), base_duration, base_velocity)" := by
      simp [noteStatement, h0, hp]
    have key : ∀ t : List Nat, physicalLine ⟨1, none, [4], toks⟩
        (c!"        Note(base_tone.transposed(-" ++ (digitCodes n.natAbs ++ 41 :: t)) =
        lexLine ((digitCodes n.natAbs).length + t.length + 29)
          ⟨3, none, [4], [.int n.natAbs, .op c!"-", .op c!"(", .name c!"transposed", .op c!".", .name c!"base_tone", .op c!"(",
            .name c!"Note"] ++ toks⟩ (41 :: t) := by
      intro t
      have h1 := spaces_line toks (c!"(base_tone.transposed(-" ++ (digitCodes n.natAbs ++ 41 :: t))
      refine Eq.trans h1 ?_
      have hl : (c!"(base_tone.transposed(-" ++ (digitCodes n.natAbs ++ 41 :: t)).length + 13 =
          ((digitCodes n.natAbs).length + t.length + 29 + 1) + 7 := by simp; omega
      rw [hl]
      have h2 := lex_minus ((digitCodes n.natAbs).length + t.length + 29 + 1) c hd toks (m ++ 41 :: t)
      rw [← List.cons_append, ← e] at h2
      refine Eq.trans h2 ?_
      exact lex_number _ _ hn _ _
    have hcode : ∀ t : String, lineCodes ("        " ++ noteStatement n ++ t) =
        c!"        Note(base_tone.transposed(-" ++ (digitCodes n.natAbs ++ 41 :: (c!", base_duration, base_velocity)" ++
          lineCodes t)) := by
      intro t
      rw [hs]
      simp only [lineCodes_append, lineCodes_repr, List.append_assoc]
      rfl
    constructor
    · have hc := hcode ""
      rw [String.append_empty] at hc
      rw [hc, key]
      refine Eq.trans (lex_tail ((digitCodes n.natAbs).length + 50) _).1 ?_
      simp [noteTok, h0, hp]
    · rw [hcode, key]
      refine Eq.trans (lex_tail ((digitCodes n.natAbs).length + 51) _).2 ?_
      simp [noteTok, h0, hp]

theorem lex_notes (l : List Int) (hl : l ≠ []) (toks : List Tok) :
    lexLines (noteLines l) ⟨1, none, [4], toks⟩ = some ⟨1, none, [4], (noteToks l).reverse ++ toks⟩ := by
  induction l generalizing toks with
  | nil => exact absurd rfl hl
  | cons n l ih =>
    cases l with
    | nil => rw [noteLines, lexLines, (line_note n toks).1]; rfl
    | cons m l =>
      rw [show noteLines (n :: m :: l) = ("        " ++ noteStatement n ++ ",") :: noteLines (m :: l) from rfl, lexLines,
        (line_note n toks).2]
      refine Eq.trans (ih (by simp) _) ?_
      simp [noteToks]

/-! ### A function -/

theorem lex_close (toks : List Tok) :
    lexLines ["    )"] ⟨1, none, [4], toks⟩ = some ⟨0, none, [4], [.newline, .op c!")"] ++ toks⟩ := by kernel_rfl

theorem lex_function (name : String) (g : GenChord) (hn : NameCodes (lineCodes name)) (hf : DocText (lineCodes g.fullName))
    (hl : g.notation' ≠ []) (toks : List Tok) :
    ∃ doc, lexLines (functionLines name g) ⟨0, none, [4], toks⟩ =
      some ⟨0, none, [4], (funToks (lineCodes name) doc g.notation').reverse ++ toks⟩ := by
  have h1 : lexLines ["def " ++ name ++ "("] ⟨0, none, [4], toks⟩ =
      some ⟨1, none, [], [.op c!"(", .name (lineCodes name), .name c!"def", .dedent] ++ toks⟩ := by
    rw [lexLines, lineCodes_append, lineCodes_append, show lineCodes "def " = c!"def " from by decide +kernel,
      show lineCodes "(" = c!"(" from by decide +kernel, line_def _ hn]
    rfl
  obtain ⟨s2, h2, e2⟩ := line_params ([.op c!"(", .name (lineCodes name), .name c!"def", .dedent] ++ toks)
  rw [e2] at h2
  have h3 : ∀ t, lexLines [") -> " ++ returnType g.notation' ++ ":"] ⟨1, none, [], t⟩ = some ⟨0, none, [],
      [.newline, .op c!":", .op c!"]"] ++ (typeToks g.notation').reverse ++
        [.op c!"[", .name c!"Tuple", .op c!"->", .op c!")"] ++ t⟩ := by
    intro t
    rw [lexLines, line_type _ hl]
    rfl
  obtain ⟨doc, h4⟩ := line_doc g.fullName hf g.notation'.length ([.newline, .op c!":", .op c!"]"] ++
    (typeToks g.notation').reverse ++ [.op c!"[", .name c!"Tuple", .op c!"->", .op c!")"] ++
    ((paramToks.take 39).reverse ++ ([.op c!"(", .name (lineCodes name), .name c!"def", .dedent] ++ toks)))
  refine ⟨doc, ?_⟩
  have e : functionLines name g = ["def " ++ name ++ "("] ++ (["        base: Union[int, str, Tone, Note],",
      "        duration: Union[Tuple[int, int], Signature, None] = None,",
      "        velocity: Optional[float] = None"] ++ ([") -> " ++ returnType g.notation' ++ ":"] ++ (["    \"\"\"",
      "    Generates " ++ g.fullName ++ " chord. If note is provided as the first argument, duration and ",
      "    velocity of this note will be used as default values for chord duration and velocity.",
      "    Otherwise :class:`~melodia.core.note.Note` defaults will be used.",
      "",
      "    :param base: base tone",
      "    (can be integer, string, :class:`~melodia.core.tone.Tone` or :class:`~melodia.core.note.Note`)",
      "    :param duration: duration of the chord (default: None)",
      "    :param velocity: velocity of the chord (default: None)",
      "    :return: tuple of " ++ Nat.repr g.notation'.length ++ " notes",
      "    \"\"\"",
      "    base_tone, base_duration, base_velocity = _get_parameters(base, duration, velocity)",
      "",
      "    return ("] ++ (noteLines g.notation' ++ ["    )"])))) := by
    simp [functionLines]
  rw [e, lexLines_append, h1, Option.bind_some, lexLines_append, h2, Option.bind_some, lexLines_append, h3, Option.bind_some,
    lexLines_append, h4, Option.bind_some, lexLines_append, lex_notes _ hl, Option.bind_some, lex_close]
  simp [funToks, paramToks, bodyToks]

end Melodia.Source
