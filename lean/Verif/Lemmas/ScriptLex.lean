/-
The tokens of scripts of the kind shown in the README.
-/
import Verif.Lemmas.GeneratorLex
import Verif.Spec.Script

set_option autoImplicit false

namespace Melodia.Source

open Melodia.Python

/-! ### Pieces of a line -/

/-- The codes of text that stands for itself between single quotes. -/
def QuotedCodes (w : List Nat) : Prop := ∀ c ∈ w, c ≠ 39 ∧ c ≠ 92 ∧ c < 128

theorem ble_lt {c : Nat} (h : c < 128) : Nat.ble 128 c = false :=
  Bool.eq_false_iff.mpr fun e => absurd (Nat.le_of_ble_eq_true e) (by omega)

theorem lexString_cons (c : Nat) (h1 : c ≠ 39) (h2 : c ≠ 92) (h3 : c < 128) (l : List Nat) :
    lexString false 39 (c :: l) = match lexString false 39 l with
      | some (s, r) => some (c :: s, r)
      | none => none := by
  interval_cases c
  all_goals first | exact absurd rfl h1 | exact absurd rfl h2 | kernel_rfl

theorem lexString_plain (w : List Nat) (hw : QuotedCodes w) (l : List Nat) :
    lexString false 39 (w ++ 39 :: l) = some (w, l) := by
  induction w with
  | nil =>
    rw [List.nil_append]
    kernel_rfl
  | cons c w ih =>
    obtain ⟨h1, h2, h3⟩ := hw c (by simp)
    rw [List.cons_append, lexString_cons c h1 h2 h3, ih fun d hd => hw d (by simp [hd])]

/-- A string literal that is followed by something other than a quote. -/
theorem lex_quote (k : Nat) (s : LexState) (w : List Nat) (hw : QuotedCodes w) (d : Nat) (hd : d ≠ 39) (l : List Nat) :
    lexLine (k + 1) s (39 :: (w ++ 39 :: d :: l)) = lexLine k (s.push (.str w)) (d :: l) := by
  have h3 : eqText ((39 :: (w ++ 39 :: d :: l)).take 3) [39, 39, 39] = false := by
    cases w with
    | nil => simp [eqText, beq_ne hd]
    | cons c w =>
      have := (hw c (by simp)).1
      simp [eqText, beq_ne this]
  have e : lexLine (k + 1) s (39 :: (w ++ 39 :: d :: l)) =
      if eqText ((39 :: (w ++ 39 :: d :: l)).take 3) [39, 39, 39] then none
      else match lexString (eqText [] c!"r") 39 (w ++ 39 :: d :: l) with
        | some (body, r) => match s.pushStr [] body with
          | some s' => lexLine k s' r
          | none => none
        | none => none := by kernel_rfl
  rw [e, h3]
  rw [show eqText [] c!"r" = false from rfl, lexString_plain w hw]
  rfl

/-- A name. -/
theorem lex_word (k : Nat) (s : LexState) (w : List Nat) (hw : NameCodes w) (l : List Nat) :
    lexLine (k + 1) s (w ++ 40 :: l) = lexLine k (s.push (.name w)) (40 :: l) := by
  obtain ⟨c, v, rfl, hc, hl⟩ := hw
  obtain ⟨h1, h2, h3⟩ := alpha_ne hc
  have hs := spanText_word (c :: v) (by
    intro d hd
    rcases List.mem_cons.mp hd with rfl | hd
    · simp [isWord, hc]
    · exact hl d hd) 40 (by rfl) l
  rw [List.cons_append] at hs ⊢
  rw [lexLine]
  simp only [h1, h2, h3, Bool.false_eq_true, if_false]
  rw [hs]
  rfl

/-- A number, followed by something that belongs neither to a name nor to a number. -/
theorem lex_nat (k n : Nat) (s : LexState) (e : Nat) (he : isWord e = false) (he' : e ≠ 46) (l : List Nat) :
    lexLine (k + 1) s (digitCodes n ++ e :: l) = lexLine k (s.push (.int n)) (e :: l) := by
  obtain ⟨h1, h2, h3⟩ := digitCodes_spec n
  have hs := spanText_word (digitCodes n) (fun d hd => isWord_digit (h1 d hd)) e he l
  have hp : dropPrefix c!"." (e :: l) = none := by simp [dropPrefix, beq_ne (show 46 ≠ e from fun h => he' h.symm)]
  have hnum : lexNumber (digitCodes n ++ e :: l) = some (.int n, e :: l) := by
    unfold lexNumber
    rw [hs]
    by_cases hn : n = 0
    · subst hn
      have : digitCodes 0 = [48] := by decide
      rw [this]
      simp only [hp]
      rfl
    · obtain ⟨c, m, e', hc⟩ := h3 hn
      have hx : dropPrefix c!"0x" (digitCodes n) = none := by
        rw [e']; simp [dropPrefix, beq_ne (show 48 ≠ c from fun h => hc h.symm)]
      have ha : (digitCodes n).all isDigit = true := List.all_eq_true.mpr h1
      have h0 : eqText ((digitCodes n).take 1) c!"0" = false := by
        rw [e']; simp [eqText, beq_ne hc]
      simp only [hx, ha, if_true, hp, h0, h2, Bool.not_false, Bool.or_true]
  obtain ⟨c, m, e'⟩ : ∃ c m, digitCodes n = c :: m := by
    by_cases hn : n = 0
    · exact ⟨48, [], by subst hn; decide⟩
    · obtain ⟨c, m, e', -⟩ := h3 hn
      exact ⟨c, m, e'⟩
  have hd : isDigit c = true := h1 c (by rw [e']; simp)
  obtain ⟨b1, b2⟩ := digit_cases hd
  rw [e', List.cons_append] at hnum ⊢
  rw [lexLine]
  simp only [beq_ne (show c ≠ 32 by omega), beq_ne (show c ≠ 35 by omega), hd, Bool.false_eq_true, if_false, if_true, hnum]

theorem lex_paren (k d : Nat) (is : List Nat) (toks : List Tok) (l : List Nat) :
    lexLine (k + 1) ⟨d, none, is, toks⟩ (40 :: l) = lexLine k ⟨d + 1, none, is, .op c!"(" :: toks⟩ l := by kernel_rfl

theorem lex_comma (k : Nat) (s : LexState) (l : List Nat) :
    lexLine (k + 2) s (44 :: 32 :: l) = lexLine k (s.push (.op c!",")) l := by kernel_rfl

/-- `, (` -/
theorem lex_comma_paren (k d : Nat) (is : List Nat) (toks : List Tok) (l : List Nat) :
    lexLine (k + 3) ⟨d, none, is, toks⟩ (44 :: 32 :: 40 :: l) = lexLine k ⟨d + 1, none, is, .op c!"(" :: .op c!"," :: toks⟩ l := by
  kernel_rfl

theorem lex_end2 (k : Nat) (is : List Nat) (toks : List Tok) :
    lexLine (k + 3) ⟨2, none, is, toks⟩ c!"))" = some ⟨0, none, is, .newline :: .op c!")" :: .op c!")" :: toks⟩ := by kernel_rfl

theorem lex_end3 (k : Nat) (is : List Nat) (toks : List Tok) :
    lexLine (k + 4) ⟨3, none, is, toks⟩ c!")))" =
      some ⟨0, none, is, .newline :: .op c!")" :: .op c!")" :: .op c!")" :: toks⟩ := by kernel_rfl

/-- `(n, d)` without the closing parenthesis. -/
theorem lex_pair (k n m d : Nat) (is : List Nat) (toks : List Tok) (l : List Nat) :
    lexLine (k + 5) ⟨d, none, is, toks⟩ (40 :: (digitCodes n ++ 44 :: 32 :: (digitCodes m ++ 41 :: l))) =
      lexLine k ⟨d + 1, none, is, .int m :: .op c!"," :: .int n :: .op c!"(" :: toks⟩ (41 :: l) := by
  rw [lex_paren, lex_nat _ _ _ 44 rfl (by decide), lex_comma, lex_nat _ _ _ 41 rfl (by decide)]
  rfl

/-! ### The lines -/

/-- The tokens of a duration. -/
def durationToks : Option (Nat × Nat) → List Tok
  | none => []
  | some (n, d) => [.op c!",", .op c!"(", .int n, .op c!",", .int d, .op c!")"]

/-- The tokens of a line with a chord. -/
def lineToks (name base : List Nat) (d : Option (Nat × Nat)) : List Tok :=
  [.name c!"track", .op c!".", .name c!"add", .op c!"(", .name c!"chord", .op c!".", .name name, .op c!"(", .str base] ++
    durationToks d ++ [.op c!")", .op c!")", .newline]

theorem code_track : lineCodes "track.add(chord." = c!"track.add(chord." := by kernel_rfl
theorem code_open : lineCodes "('" = [40, 39] := by kernel_rfl
theorem code_quote : lineCodes "'" = [39] := by kernel_rfl
theorem code_empty : lineCodes "" = [] := by kernel_rfl
theorem code_close : lineCodes "))" = [41, 41] := by kernel_rfl
theorem code_comma_paren : lineCodes ", (" = [44, 32, 40] := by kernel_rfl
theorem code_comma : lineCodes ", " = [44, 32] := by kernel_rfl
theorem code_paren : lineCodes ")" = [41] := by kernel_rfl

theorem line_open (toks : List Tok) (l : List Nat) :
    physicalLine ⟨0, none, [], toks⟩ (c!"track.add(chord." ++ l) =
      lexLine (l.length + 11) ⟨1, none, [], [.op c!".", .name c!"chord", .op c!"(", .name c!"add", .op c!".",
        .name c!"track"] ++ toks⟩ l := by kernel_rfl

theorem line_chord (c : ChordLine) (hn : NameCodes (lineCodes c.name)) (hb : QuotedCodes (lineCodes c.base)) (toks : List Tok) :
    physicalLine ⟨0, none, [], toks⟩ (lineCodes c.text) =
      some ⟨0, none, [], (lineToks (lineCodes c.name) (lineCodes c.base) c.duration).reverse ++ toks⟩ := by
  obtain ⟨name, base, d⟩ := c
  dsimp only at hn hb ⊢
  rcases d with _ | ⟨n, m⟩
  · have e : lineCodes (ChordLine.text ⟨name, base, none⟩) =
        c!"track.add(chord." ++ (lineCodes name ++ 40 :: 39 :: (lineCodes base ++ 39 :: 41 :: [41])) := by
      have h : ChordLine.text ⟨name, base, none⟩ = "track.add(chord." ++ name ++ "('" ++ base ++ "'" ++ "" ++ "))" := by
        kernel_rfl
      rw [h, lineCodes_append, lineCodes_append, lineCodes_append, lineCodes_append, lineCodes_append, lineCodes_append,
        code_track, code_open, code_quote, code_empty, code_close]
      simp only [List.append_assoc, List.cons_append, List.nil_append]
    rw [e, line_open]
    obtain ⟨k, hk⟩ : ∃ k, (lineCodes name ++ 40 :: 39 :: (lineCodes base ++ 39 :: 41 :: [41])).length + 11 =
        k + 3 + 1 + 1 + 1 := ⟨(lineCodes name ++ 40 :: 39 :: (lineCodes base ++ 39 :: 41 :: [41])).length + 5, by omega⟩
    rw [hk, lex_word _ _ _ hn]
    refine Eq.trans (lex_paren _ _ _ _ _) ?_
    rw [lex_quote _ _ _ hb 41 (by decide)]
    refine Eq.trans (lex_end2 _ _ _) ?_
    simp [lineToks, durationToks]
  · have e : lineCodes (ChordLine.text ⟨name, base, some (n, m)⟩) =
        c!"track.add(chord." ++ (lineCodes name ++ 40 :: 39 :: (lineCodes base ++ 39 :: 44 :: 32 :: 40 :: (digitCodes n ++
          44 :: 32 :: (digitCodes m ++ 41 :: [41, 41])))) := by
      have h : ChordLine.text ⟨name, base, some (n, m)⟩ = "track.add(chord." ++ name ++ "('" ++ base ++ "'" ++
          (", (" ++ Nat.repr n ++ ", " ++ Nat.repr m ++ ")") ++ "))" := by kernel_rfl
      rw [h, lineCodes_append, lineCodes_append, lineCodes_append, lineCodes_append, lineCodes_append, lineCodes_append,
        lineCodes_append, lineCodes_append, lineCodes_append, lineCodes_append, lineCodes_repr, lineCodes_repr,
        code_track, code_open, code_quote, code_comma_paren, code_comma, code_paren, code_close]
      simp only [List.append_assoc, List.cons_append, List.nil_append]
    rw [e, line_open]
    obtain ⟨k, hk⟩ : ∃ k, (lineCodes name ++ 40 :: 39 :: (lineCodes base ++ 39 :: 44 :: 32 :: 40 :: (digitCodes n ++
          44 :: 32 :: (digitCodes m ++ 41 :: [41, 41])))).length + 11 =
        k + 4 + 5 + 2 + 1 + 1 + 1 := by
      refine ⟨(lineCodes name).length + (lineCodes base).length + (digitCodes n).length + (digitCodes m).length + 8, ?_⟩
      simp only [List.length_append, List.length_cons, List.length_nil]
      omega
    rw [hk, lex_word _ _ _ hn]
    refine Eq.trans (lex_paren _ _ _ _ _) ?_
    rw [lex_quote _ _ _ hb 44 (by decide), lex_comma]
    refine Eq.trans (lex_pair _ _ _ _ _ _ _) ?_
    refine Eq.trans (lex_end3 _ _ _) ?_
    simp [lineToks, durationToks, LexState.push]

/-- The tokens of all lines with chords. -/
def chordToks : List ChordLine → List Tok
  | [] => []
  | c :: l => lineToks (lineCodes c.name) (lineCodes c.base) c.duration ++ chordToks l

theorem lex_chords (cs : List ChordLine) (h : ∀ c ∈ cs, NameCodes (lineCodes c.name) ∧ QuotedCodes (lineCodes c.base))
    (toks : List Tok) :
    lexLines (cs.map ChordLine.text) ⟨0, none, [], toks⟩ = some ⟨0, none, [], (chordToks cs).reverse ++ toks⟩ := by
  induction cs generalizing toks with
  | nil => rfl
  | cons c cs ih =>
    obtain ⟨h1, h2⟩ := h c (by simp)
    rw [List.map_cons, lexLines, line_chord c h1 h2]
    refine Eq.trans (ih (fun c hc => h c (by simp [hc])) _) ?_
    simp [chordToks]

/-- The tokens of the imports. -/
def importToks : List Tok := [
  .name c!"from", .name c!"melodia", .op c!".", .name c!"core", .name c!"import", .name c!"Track", .newline,
  .name c!"from", .name c!"melodia", .op c!".", .name c!"music", .name c!"import", .name c!"chord", .newline,
  .name c!"from", .name c!"melodia", .op c!".", .name c!"io", .name c!"import", .name c!"midi", .newline]

/-- The tokens of the line that makes the track. -/
def newToks (n d : Nat) : List Tok := [
  .name c!"track", .op c!"=", .name c!"Track", .op c!"(", .name c!"signature", .op c!"=", .op c!"(", .int n, .op c!",", .int d,
  .op c!")", .op c!")", .newline]

/-- The tokens of the last two lines. -/
def saveToks (file : List Nat) : List Tok := [
  .name c!"with", .name c!"open", .op c!"(", .str file, .op c!",", .str c!"wb", .op c!")", .name c!"as", .name c!"f", .op c!":",
  .newline, .indent, .name c!"midi", .op c!".", .name c!"dump", .op c!"(", .name c!"track", .op c!",", .name c!"f", .op c!")",
  .newline, .dedent]

theorem lex_imports : lexLines ["from melodia.core import Track", "from melodia.music import chord",
    "from melodia.io import midi", ""] ⟨0, none, [], []⟩ = some ⟨0, none, [], importToks.reverse⟩ := by kernel_rfl

theorem new_open (toks : List Tok) (l : List Nat) :
    physicalLine ⟨0, none, [], toks⟩ (c!"track = Track(signature=(" ++ l) =
      lexLine (l.length + 18) ⟨1, none, [], [.op c!"=", .name c!"signature", .op c!"(", .name c!"Track", .op c!"=",
        .name c!"track"] ++ toks⟩ (40 :: l) := by kernel_rfl

theorem lex_new (n d : Nat) (toks : List Tok) :
    lexLines ["track = Track(signature=(" ++ Nat.repr n ++ ", " ++ Nat.repr d ++ "))", ""] ⟨0, none, [], toks⟩ =
      some ⟨0, none, [], (newToks n d).reverse ++ toks⟩ := by
  have e : lineCodes ("track = Track(signature=(" ++ Nat.repr n ++ ", " ++ Nat.repr d ++ "))") =
      c!"track = Track(signature=(" ++ (digitCodes n ++ 44 :: 32 :: (digitCodes d ++ 41 :: [41])) := by
    simp only [lineCodes_append, List.append_assoc, lineCodes_repr]
    kernel_rfl
  rw [lexLines, e, new_open]
  obtain ⟨k, hk⟩ : ∃ k, (digitCodes n ++ 44 :: 32 :: (digitCodes d ++ 41 :: [41])).length + 18 = k + 3 + 5 :=
    ⟨(digitCodes n ++ 44 :: 32 :: (digitCodes d ++ 41 :: [41])).length + 10, by omega⟩
  rw [hk]
  have := (lex_pair (k + 3) n d 1 [] ([.op c!"=", .name c!"signature", .op c!"(", .name c!"Track", .op c!"=",
        .name c!"track"] ++ toks) [41]).trans (lex_end2 _ _ _)
  rw [this]
  refine Eq.trans (show _ = some _ from rfl) ?_
  simp [newToks]

theorem save_open (toks : List Tok) (l : List Nat) :
    physicalLine ⟨0, none, [], toks⟩ (c!"with open('" ++ l) =
      lexLine (l.length + 8) ⟨1, none, [], [.op c!"(", .name c!"open", .name c!"with"] ++ toks⟩ (39 :: l) := by kernel_rfl

theorem save_close (k : Nat) (toks : List Tok) :
    lexLine (k + 12) ⟨1, none, [], toks⟩ c!", 'wb') as f:" =
      some ⟨0, none, [], [.newline, .op c!":", .name c!"f", .name c!"as", .op c!")", .str c!"wb", .op c!","] ++ toks⟩ := by
  kernel_rfl

theorem save_body (toks : List Tok) :
    lexLines ["    midi.dump(track, f)"] ⟨0, none, [], toks⟩ =
      some ⟨0, none, [4], [.newline, .op c!")", .name c!"f", .op c!",", .name c!"track", .op c!"(", .name c!"dump", .op c!".",
        .name c!"midi", .indent] ++ toks⟩ := by kernel_rfl

theorem lex_save (file : String) (hf : QuotedCodes (lineCodes file)) (toks : List Tok) :
    lexLines ["", "with open('" ++ file ++ "', 'wb') as f:", "    midi.dump(track, f)"] ⟨0, none, [], toks⟩ =
      some ⟨0, none, [4], (saveToks (lineCodes file)).reverse.tail ++ toks⟩ := by
  have e : lineCodes ("with open('" ++ file ++ "', 'wb') as f:") =
      c!"with open('" ++ (lineCodes file ++ 39 :: 44 :: c!" 'wb') as f:") := by
    simp only [lineCodes_append, List.append_assoc]
    kernel_rfl
  rw [lexLines, show physicalLine ⟨0, none, [], toks⟩ (lineCodes "") = some ⟨0, none, [], toks⟩ from rfl]
  dsimp only
  rw [lexLines, e, save_open]
  obtain ⟨k, hk⟩ : ∃ k, (lineCodes file ++ 39 :: 44 :: c!" 'wb') as f:").length + 8 = k + 12 + 1 :=
    ⟨(lineCodes file).length + 9, by simp⟩
  rw [hk, lex_quote _ _ _ hf 44 (by decide)]
  have := save_close k (.str (lineCodes file) :: ([.op c!"(", .name c!"open", .name c!"with"] ++ toks))
  refine Eq.trans (congrArg (fun o => match o with
    | some s' => lexLines ["    midi.dump(track, f)"] s'
    | none => none) this) ?_
  refine Eq.trans (save_body _) ?_
  simp [saveToks]

/-- The tokens of the script. -/
theorem script_tokens (n d : Nat) (cs : List ChordLine) (file : String)
    (h : ∀ c ∈ cs, NameCodes (lineCodes c.name) ∧ QuotedCodes (lineCodes c.base)) (hf : QuotedCodes (lineCodes file)) :
    tokens (scriptText n d cs file) = some (importToks ++ newToks n d ++ chordToks cs ++ saveToks (lineCodes file)) := by
  have e : lexLines (scriptText n d cs file) ⟨0, none, [], []⟩ =
      some ⟨0, none, [4], (saveToks (lineCodes file)).reverse.tail ++ ((chordToks cs).reverse ++ ((newToks n d).reverse ++
        importToks.reverse))⟩ := by
    have e0 : scriptText n d cs file = ["from melodia.core import Track", "from melodia.music import chord",
        "from melodia.io import midi", ""] ++ (["track = Track(signature=(" ++ Nat.repr n ++ ", " ++ Nat.repr d ++ "))", ""] ++
        (cs.map ChordLine.text ++ ["", "with open('" ++ file ++ "', 'wb') as f:", "    midi.dump(track, f)"])) := by
      simp [scriptText]
    rw [e0, lexLines_append, lex_imports, Option.bind_some, lexLines_append, lex_new, Option.bind_some, lexLines_append,
      lex_chords cs h, Option.bind_some, lex_save file hf]
  rw [tokens, e]
  have hd : ∀ toks : List Tok, dedents 0 toks [4] = some ([], .dedent :: toks) := fun toks => by kernel_rfl
  refine Eq.trans (show _ = match dedents 0 ((saveToks (lineCodes file)).reverse.tail ++ ((chordToks cs).reverse ++
      ((newToks n d).reverse ++ importToks.reverse))) [4] with
    | some (_, toks') => some toks'.reverse
    | none => none from rfl) ?_
  rw [hd]
  simp [saveToks]

end Melodia.Source
