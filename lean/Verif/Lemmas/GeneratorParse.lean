/-
Parsing the tokens of the functions the generator writes.
-/
import Verif.Lemmas.GeneratorLex
import Verif.Lemmas.SourceChord
import Verif.Python.Parser

set_option autoImplicit false

namespace Melodia.Source

open Melodia.Python

/-! ### Expressions -/

theorem parse_zero (rest : List Tok) :
    expression 99 (noteTok 0 ++ .op c!"," :: rest) = some (chordNoteE 0, .op c!"," :: rest) ∧
    expression 99 (noteTok 0 ++ .op c!")" :: rest) = some (chordNoteE 0, .op c!")" :: rest) := by
  constructor <;> kernel_rfl

theorem parse_plus (n : Nat) (rest : List Tok) :
    expression 99 ([.name c!"Note", .op c!"(", .name c!"base_tone", .op c!".", .name c!"transposed", .op c!"(",
      .op c!"+", .int n, .op c!")"] ++ noteTail ++ .op c!"," :: rest) =
      some (.call (.name "Note") [.call (.attr (.name "base_tone") "transposed") [.un .pos (.int n)] [],
        .name "base_duration", .name "base_velocity"] [], .op c!"," :: rest) ∧
    expression 99 ([.name c!"Note", .op c!"(", .name c!"base_tone", .op c!".", .name c!"transposed", .op c!"(",
      .op c!"+", .int n, .op c!")"] ++ noteTail ++ .op c!")" :: rest) =
      some (.call (.name "Note") [.call (.attr (.name "base_tone") "transposed") [.un .pos (.int n)] [],
        .name "base_duration", .name "base_velocity"] [], .op c!")" :: rest) := by
  constructor <;> kernel_rfl

theorem parse_minus (n : Nat) (rest : List Tok) :
    expression 99 ([.name c!"Note", .op c!"(", .name c!"base_tone", .op c!".", .name c!"transposed", .op c!"(",
      .op c!"-", .int n, .op c!")"] ++ noteTail ++ .op c!"," :: rest) =
      some (.call (.name "Note") [.call (.attr (.name "base_tone") "transposed") [.un .neg (.int n)] [],
        .name "base_duration", .name "base_velocity"] [], .op c!"," :: rest) ∧
    expression 99 ([.name c!"Note", .op c!"(", .name c!"base_tone", .op c!".", .name c!"transposed", .op c!"(",
      .op c!"-", .int n, .op c!")"] ++ noteTail ++ .op c!")" :: rest) =
      some (.call (.name "Note") [.call (.attr (.name "base_tone") "transposed") [.un .neg (.int n)] [],
        .name "base_duration", .name "base_velocity"] [], .op c!")" :: rest) := by
  constructor <;> kernel_rfl

theorem parse_note (k : Int) (rest : List Tok) :
    expression 99 (noteTok k ++ .op c!"," :: rest) = some (chordNoteE k, .op c!"," :: rest) ∧
    expression 99 (noteTok k ++ .op c!")" :: rest) = some (chordNoteE k, .op c!")" :: rest) := by
  by_cases h0 : k = 0
  · subst h0; exact parse_zero rest
  by_cases hp : k > 0
  · have e : ((k.natAbs : Nat) : Int) = k := by omega
    have hE : chordNoteE k = .call (.name "Note") [.call (.attr (.name "base_tone") "transposed") [.un .pos (.int k.natAbs)] [],
        .name "base_duration", .name "base_velocity"] [] := by simp [chordNoteE, h0, hp, e]
    have hT : noteTok k = [.name c!"Note", .op c!"(", .name c!"base_tone", .op c!".", .name c!"transposed", .op c!"(",
      .op c!"+", .int k.natAbs, .op c!")"] ++ noteTail := by simp [noteTok, h0, hp]
    rw [hE, hT]
    exact parse_plus _ rest
  · have e : ((k.natAbs : Nat) : Int) = -k := by omega
    have hE : chordNoteE k = .call (.name "Note") [.call (.attr (.name "base_tone") "transposed") [.un .neg (.int k.natAbs)] [],
        .name "base_duration", .name "base_velocity"] [] := by simp [chordNoteE, h0, hp, e]
    have hT : noteTok k = [.name c!"Note", .op c!"(", .name c!"base_tone", .op c!".", .name c!"transposed", .op c!"(",
      .op c!"-", .int k.natAbs, .op c!")"] ++ noteTail := by simp [noteTok, h0, hp]
    rw [hE, hT]
    exact parse_minus _ rest

theorem parse_notes (k : Int) (l : List Int) (n : Nat) (hn : l.length < n) (rest : List Tok) :
    sepBy (expression 99) c!"," n (noteToks (k :: l) ++ .op c!")" :: rest) =
      some (((k :: l).map chordNoteE, !l.isEmpty), .op c!")" :: rest) := by
  induction l generalizing k n with
  | nil =>
    obtain ⟨n, rfl⟩ : ∃ m, n = m + 1 := ⟨n - 1, by simp at hn; omega⟩
    rw [sepBy, show noteToks [k] = noteTok k from rfl, (parse_note k rest).2]
    rfl
  | cons m l ih =>
    obtain ⟨n, rfl⟩ : ∃ m, n = m + 1 := ⟨n - 1, by simp at hn; omega⟩
    rw [sepBy, show noteToks (k :: m :: l) = noteTok k ++ .op c!"," :: noteToks (m :: l) from rfl, List.append_assoc,
      List.cons_append, (parse_note k _).1]
    simp only [show ∀ ts, takeOp c!"," (.op c!"," :: ts) = some ts from fun _ => rfl]
    rw [ih m n (by simp at hn; omega)]
    rfl

/-- What a generated function returns. -/
def returnE (l : List Int) : Expr :=
  match l with
  | [k] => chordNoteE k
  | l => .tuple (l.map chordNoteE)

theorem noteToks_length (k : Int) (l : List Int) : l.length < (noteToks (k :: l)).length := by
  induction l generalizing k with
  | nil => simp [noteToks, noteTok]; split <;> simp [noteTail]
  | cons m l ih =>
    have := ih m
    rw [show noteToks (k :: m :: l) = noteTok k ++ .op c!"," :: noteToks (m :: l) from rfl]
    simp; omega

theorem noteTok_head (k : Int) : ∃ r, noteTok k = .name c!"Note" :: r := by
  unfold noteTok; split <;> exact ⟨_, rfl⟩

theorem noteToks_head (k : Int) (l : List Int) : ∃ r, noteToks (k :: l) = .name c!"Note" :: r := by
  obtain ⟨r, hr⟩ := noteTok_head k
  cases l with
  | nil => exact ⟨r, hr⟩
  | cons m l => exact ⟨r ++ .op c!"," :: noteToks (m :: l), by simp [noteToks, hr]⟩

theorem parse_paren (k : Int) (l : List Int) (rest : List Tok) :
    parenthesised (expression 99) (noteToks (k :: l) ++ .op c!")" :: rest) = some (returnE (k :: l), rest) := by
  have h := parse_notes k l ((noteToks (k :: l) ++ .op c!")" :: rest).length + 1)
    (by have := noteToks_length k l; simp; omega) rest
  have h0 : takeOp c!")" (noteToks (k :: l) ++ .op c!")" :: rest) = none := by
    obtain ⟨r, hr⟩ := noteToks_head k l
    rw [hr]; rfl
  unfold parenthesised
  rw [h0]
  simp only []
  unfold exprList
  rw [h]
  cases l with
  | nil => rfl
  | cons m l => rfl

/-- An expression in parentheses at the end of a line. -/
theorem expr_paren (n : Nat) (ts rest : List Tok) (a : Expr)
    (h : parenthesised (expression n) ts = some (a, .newline :: rest)) :
    expression (n + 1) (.op c!"(" :: ts) = some (a, .newline :: rest) := by
  have h1 : primary (expression n) (.op c!"(" :: ts) = some (a, .newline :: rest) := by
    unfold primary
    rw [show atom (expression n) (.op c!"(" :: ts) = parenthesised (expression n) ts from rfl, h]
    rfl
  have h2 : ∀ m, factor (expression n) (m + 1) (.op c!"(" :: ts) = some (a, .newline :: rest) := by
    intro m
    rw [factor]
    simp only [show takeOp c!"-" (.op c!"(" :: ts) = none from rfl, show takeOp c!"+" (.op c!"(" :: ts) = none from rfl, h1]
    rfl
  have h3 : binaryExpr (expression n) binaryLevels (.op c!"(" :: ts) = some (a, .newline :: rest) := by
    unfold binaryLevels
    simp only [binaryExpr, h2]
    rfl
  have h4 : comparison (expression n) (.op c!"(" :: ts) = some (a, .newline :: rest) := by
    unfold comparison
    rw [h3]
    rfl
  have h5 : ∀ m, negation (expression n) (m + 1) (.op c!"(" :: ts) = some (a, .newline :: rest) := by
    intro m
    rw [negation]
    simp only [show takeWord c!"not" (.op c!"(" :: ts) = none from rfl, h4]
  have h6 : ∀ m, conjunction (expression n) (m + 1) (.op c!"(" :: ts) = some (a, .newline :: rest) := by
    intro m
    rw [conjunction, h5]
    rfl
  have h7 : ∀ m, disjunction (expression n) (m + 1) (.op c!"(" :: ts) = some (a, .newline :: rest) := by
    intro m
    rw [disjunction, h6]
    rfl
  rw [expression, h7]
  rfl

theorem parse_return (k : Int) (l : List Int) (rest : List Tok) :
    expr (.op c!"(" :: (noteToks (k :: l) ++ .op c!")" :: .newline :: rest)) = some (returnE (k :: l), .newline :: rest) :=
  expr_paren 99 _ _ _ (parse_paren k l (.newline :: rest))

/-! ### The type of the result -/

theorem parse_type (rest : List Tok) :
    expression 99 (.name c!"Note" :: .op c!"," :: rest) = some (.name "Note", .op c!"," :: rest) ∧
    expression 99 (.name c!"Note" :: .op c!"]" :: rest) = some (.name "Note", .op c!"]" :: rest) := by
  constructor <;> kernel_rfl

theorem parse_types (k : Int) (l : List Int) (n : Nat) (hn : l.length < n) (rest : List Tok) :
    sepBy (expression 99) c!"," n (typeToks (k :: l) ++ .op c!"]" :: rest) =
      some (((k :: l).map fun _ => .name "Note", !l.isEmpty), .op c!"]" :: rest) := by
  induction l generalizing k n with
  | nil =>
    obtain ⟨n, rfl⟩ : ∃ m, n = m + 1 := ⟨n - 1, by simp at hn; omega⟩
    rw [sepBy, show typeToks [k] ++ .op c!"]" :: rest = .name c!"Note" :: .op c!"]" :: rest from rfl, (parse_type rest).2]
    rfl
  | cons m l ih =>
    obtain ⟨n, rfl⟩ : ∃ m, n = m + 1 := ⟨n - 1, by simp at hn; omega⟩
    rw [sepBy, show typeToks (k :: m :: l) ++ .op c!"]" :: rest =
      .name c!"Note" :: .op c!"," :: (typeToks (m :: l) ++ .op c!"]" :: rest) from rfl, (parse_type _).1]
    simp only [show ∀ ts, takeOp c!"," (.op c!"," :: ts) = some ts from fun _ => rfl]
    rw [ih m n (by simp at hn; omega)]
    rfl

theorem typeToks_head (k : Int) (l : List Int) : ∃ r, typeToks (k :: l) = .name c!"Note" :: r ∧ l.length ≤ r.length := by
  induction l generalizing k with
  | nil => exact ⟨[], rfl, by simp⟩
  | cons m l ih =>
    obtain ⟨r, hr, h⟩ := ih m
    exact ⟨.op c!"," :: typeToks (m :: l), rfl, by rw [hr]; simp; omega⟩

theorem parse_subscript (k : Int) (l : List Int) (rest : List Tok) :
    ∃ r, subscript (expression 99) (.name "Tuple") (typeToks (k :: l) ++ .op c!"]" :: rest) = some (r, rest) := by
  obtain ⟨r, hr, hlen⟩ := typeToks_head k l
  have h := parse_types k l ((typeToks (k :: l) ++ .op c!"]" :: rest).length + 1) (by rw [hr]; simp; omega) rest
  have h0 : takeOp c!":" (typeToks (k :: l) ++ .op c!"]" :: rest) = none := by rw [hr]; rfl
  unfold subscript
  rw [h0]
  simp only [h]
  cases l with
  | nil => exact ⟨_, rfl⟩
  | cons m l => exact ⟨_, rfl⟩

theorem expr_tuple (n : Nat) (ts rest : List Tok) (a : Expr)
    (h : subscript (expression n) (.name "Tuple") ts = some (a, .op c!":" :: rest)) :
    expression (n + 1) (.name c!"Tuple" :: .op c!"[" :: ts) = some (a, .op c!":" :: rest) := by
  have h1 : primary (expression n) (.name c!"Tuple" :: .op c!"[" :: ts) = some (a, .op c!":" :: rest) := by
    unfold primary
    rw [show atom (expression n) (.name c!"Tuple" :: .op c!"[" :: ts) = some (.name "Tuple", .op c!"[" :: ts) by kernel_rfl]
    simp only []
    rw [trailers]
    simp only [show takeOp c!"." (.op c!"[" :: ts) = none from rfl, show takeOp c!"[" (.op c!"[" :: ts) = some ts from rfl, h]
    rfl
  have h2 : ∀ m, factor (expression n) (m + 1) (.name c!"Tuple" :: .op c!"[" :: ts) = some (a, .op c!":" :: rest) := by
    intro m
    rw [factor]
    simp only [show takeOp c!"-" (.name c!"Tuple" :: .op c!"[" :: ts) = none from rfl,
      show takeOp c!"+" (.name c!"Tuple" :: .op c!"[" :: ts) = none from rfl, h1]
    rfl
  have h3 : binaryExpr (expression n) binaryLevels (.name c!"Tuple" :: .op c!"[" :: ts) = some (a, .op c!":" :: rest) := by
    unfold binaryLevels
    simp only [binaryExpr, h2]
    rfl
  have h4 : comparison (expression n) (.name c!"Tuple" :: .op c!"[" :: ts) = some (a, .op c!":" :: rest) := by
    unfold comparison
    rw [h3]
    rfl
  have h5 : ∀ m, negation (expression n) (m + 1) (.name c!"Tuple" :: .op c!"[" :: ts) = some (a, .op c!":" :: rest) := by
    intro m
    rw [negation]
    simp only [show takeWord c!"not" (.name c!"Tuple" :: .op c!"[" :: ts) = none from rfl, h4]
  have h6 : ∀ m, conjunction (expression n) (m + 1) (.name c!"Tuple" :: .op c!"[" :: ts) = some (a, .op c!":" :: rest) := by
    intro m
    rw [conjunction, h5]
    rfl
  have h7 : ∀ m, disjunction (expression n) (m + 1) (.name c!"Tuple" :: .op c!"[" :: ts) = some (a, .op c!":" :: rest) := by
    intro m
    rw [disjunction, h6]
    rfl
  rw [expression, h7]
  rfl

/-! ### The head of the function -/

/-- The parameters of a generated function. -/
def chordParams : List (String × Option Expr) := [("base", .none), ("duration", some .none), ("velocity", some .none)]

theorem parse_params (rest : List Tok) :
    sepBy parameter c!"," ((paramToks.take 39 ++ .op c!")" :: rest).length + 1) (paramToks.take 39 ++ .op c!")" :: rest) =
      some ((chordParams, true), .op c!")" :: rest) := by kernel_rfl

theorem parse_file_head (name doc : List Nat) (hname : memText name keywords = false) (k : Int) (l : List Int) (rest : List Tok) :
    functionHead (.name name :: .op c!"(" :: (paramToks ++ typeToks (k :: l) ++ bodyToks doc ++ rest)) =
      some ((strOf name, chordParams), (bodyToks doc).drop 4 ++ rest) := by
  obtain ⟨r, hr⟩ := parse_subscript k l (.op c!":" :: .newline :: .indent :: ((bodyToks doc).drop 4 ++ rest))
  have h1 := expr_tuple 99 _ _ _ hr
  have h2 := parse_params (.op c!"->" :: .name c!"Tuple" :: .op c!"[" :: (typeToks (k :: l) ++ .op c!"]" :: .op c!":" :: .newline ::
    .indent :: ((bodyToks doc).drop 4 ++ rest)))
  have e : paramToks ++ typeToks (k :: l) ++ bodyToks doc ++ rest = paramToks.take 39 ++ .op c!")" :: .op c!"->" ::
      .name c!"Tuple" :: .op c!"[" :: (typeToks (k :: l) ++ .op c!"]" :: .op c!":" :: .newline ::
      .indent :: ((bodyToks doc).drop 4 ++ rest)) := by
    simp [paramToks, bodyToks]
  rw [e]
  unfold functionHead
  simp only [identifier, hname, Bool.false_eq_true, if_false]
  simp only [show ∀ ts, takeOp c!"(" (.op c!"(" :: ts) = some ts from fun _ => rfl,
    show ∀ ts, takeOp c!")" (.op c!")" :: ts) = some ts from fun _ => rfl,
    show ∀ ts, takeOp c!"->" (.op c!"->" :: ts) = some ts from fun _ => rfl,
    show ∀ ts, takeOp c!")" (paramToks.take 39 ++ ts) = none from fun _ => rfl, h2]
  rw [show expr = expression 100 from rfl, h1]
  rfl

/-! ### The body -/

theorem parse_doc (doc : List Nat) (rest : List Tok) :
    statement 100 (.str doc :: .newline :: rest) = some (.nothing, rest) := by kernel_rfl

theorem parse_assign (rest : List Tok) :
    statement 100 ([.name c!"base_tone", .op c!",", .name c!"base_duration", .op c!",", .name c!"base_velocity", .op c!"=",
      .name c!"_get_parameters", .op c!"(", .name c!"base", .op c!",", .name c!"duration", .op c!",", .name c!"velocity",
      .op c!")", .newline] ++ rest) =
      some (.stmt (.assign (.tuple ["base_tone", "base_duration", "base_velocity"])
        (.call (.name "_get_parameters") [.name "base", .name "duration", .name "velocity"] [])), rest) := by kernel_rfl

theorem statement_return (ts rest : List Tok) (a : Expr) (h : expr (.op c!"(" :: ts) = some (a, .newline :: rest)) :
    statement 100 (.name c!"return" :: .op c!"(" :: ts) = some (.stmt (.ret a), rest) := by
  have h1 : exprList expr (.op c!"(" :: ts) = some (a, .newline :: rest) := by
    unfold exprList
    rw [sepBy, h]
    rfl
  have h2 : simple (.name c!"return" :: .op c!"(" :: ts) = some (.stmt (.ret a), .newline :: rest) := by
    unfold simple
    simp only [show takeWord c!"return" (.name c!"return" :: .op c!"(" :: ts) = some (.op c!"(" :: ts) from rfl,
      show takeLine (.op c!"(" :: ts) = none from rfl, h1]
  rw [statement]
  simp only [show takeWord c!"if" (.name c!"return" :: .op c!"(" :: ts) = none from rfl,
    show takeWord c!"while" (.name c!"return" :: .op c!"(" :: ts) = none from rfl,
    show forClause (exprList expr) (.name c!"return" :: .op c!"(" :: ts) = none from rfl,
    show takeWord c!"with" (.name c!"return" :: .op c!"(" :: ts) = none from rfl,
    show takeWord c!"def" (.name c!"return" :: .op c!"(" :: ts) = none from rfl, h2]
  rfl

/-- The function written for a name and intervals. -/
def generatedDef (name : String) (l : List Int) : FunDef where
  name := name
  mod := "melodia.music.chord"
  params := chordParams
  body := [
    .assign (.tuple ["base_tone", "base_duration", "base_velocity"])
      (.call (.name "_get_parameters") [.name "base", .name "duration", .name "velocity"] []),
    .ret (returnE l)]

theorem block_step (n : Nat) (s : Line) (t : Tok) (ht : t ≠ .dedent) (ts rest : List Tok)
    (h : statement 100 (t :: ts) = some (s, rest)) :
    blockOf (statement 100) (n + 1) (t :: ts) = (match blockOf (statement 100) n rest with
      | some (l, ts) => some (s :: l, ts)
      | none => none) := by
  cases t <;> first | exact absurd rfl ht | (rw [blockOf, h] <;> first | rfl | (intro _ e; cases e))

theorem parse_body (doc : List Nat) (k : Int) (l : List Int) (rest : List Tok) (n : Nat) :
    blockOf (statement 100) (n + 4) ((bodyToks doc).drop 4 ++ (noteToks (k :: l) ++ .op c!")" :: .newline :: .dedent :: rest)) =
      some ([.nothing, .stmt (.assign (.tuple ["base_tone", "base_duration", "base_velocity"])
        (.call (.name "_get_parameters") [.name "base", .name "duration", .name "velocity"] [])),
        .stmt (.ret (returnE (k :: l)))], rest) := by
  have h3 := statement_return _ _ _ (parse_return k l (.dedent :: rest))
  have h2 := parse_assign (.name c!"return" :: .op c!"(" :: (noteToks (k :: l) ++ .op c!")" :: .newline :: .dedent :: rest))
  refine Eq.trans (block_step (n + 3) _ _ (by simp) _ _ (parse_doc doc _)) ?_
  have b2 := block_step (n + 2) _ _ (by simp) _ _ h2
  have b3 := block_step (n + 1) _ _ (by simp) _ _ h3
  rw [b3] at b2
  refine Eq.trans (congrArg (fun o => match o with
    | some (l, ts) => some (Line.nothing :: l, ts)
    | none => none) b2) ?_
  rfl

theorem returnE_cases (l : List Int) : (∃ k, l = [k] ∧ returnE l = chordNoteE k) ∨ returnE l = .tuple (l.map chordNoteE) := by
  unfold returnE
  split
  · exact Or.inl ⟨_, rfl, rfl⟩
  · exact Or.inr rfl

theorem parse_function (name doc : List Nat) (hname : memText name keywords = false) (k : Int) (l : List Int) (rest : List Tok) :
    item "melodia.music.chord" false ((funToks name doc (k :: l)).tail ++ .dedent :: rest) =
      some (.func (generatedDef (strOf name) (k :: l)), rest) := by
  have e : (funToks name doc (k :: l)).tail ++ .dedent :: rest = .name c!"def" :: .name name :: .op c!"(" ::
      (paramToks ++ typeToks (k :: l) ++ bodyToks doc ++ (noteToks (k :: l) ++ .op c!")" :: .newline :: .dedent :: rest)) := by
    simp [funToks]
  have h1 := parse_file_head name doc hname k l (noteToks (k :: l) ++ .op c!")" :: .newline :: .dedent :: rest)
  have hlen : ∃ n, ((bodyToks doc).drop 4 ++ (noteToks (k :: l) ++ .op c!")" :: .newline :: .dedent :: rest)).length + 1 =
      n + 4 := ⟨_, by simp [bodyToks]; rfl⟩
  obtain ⟨n, hn⟩ := hlen
  have h2 := parse_body doc k l rest n
  rw [← hn] at h2
  have h3 : function "melodia.music.chord" .plain (.name name :: .op c!"(" ::
      (paramToks ++ typeToks (k :: l) ++ bodyToks doc ++ (noteToks (k :: l) ++ .op c!")" :: .newline :: .dedent :: rest))) =
      some (generatedDef (strOf name) (k :: l), rest) := by
    unfold function
    rw [h1]
    simp only [h2]
    rfl
  rw [e]
  unfold item
  simp only [show ∀ ts, takeWord c!"import" (.name c!"def" :: ts) = none from fun _ => rfl,
    show ∀ ts, takeWord c!"from" (.name c!"def" :: ts) = none from fun _ => rfl,
    show ∀ ts, takeWord c!"def" (.name c!"def" :: ts) = some ts from fun _ => rfl, h3]

/-! ### The file -/

/-- The tokens of functions, each after the end of the one before. -/
inductive FunsToks : List (String × List Int) → List Tok → Prop
  | nil : FunsToks [] []
  | cons (name : String) (doc : List Nat) (l : List Int) (fs : List (String × List Int)) (ts : List Tok) (h : FunsToks fs ts) :
      FunsToks ((name, l) :: fs) (funToks (lineCodes name) doc l ++ ts)

theorem lex_blank (s : LexState) (h : s.triple = none) : lexLines ["", ""] s = some s := by
  obtain ⟨d, t, is, toks⟩ := s
  subst h
  kernel_rfl

theorem lex_functions (fs : List (String × GenChord))
    (h : ∀ f ∈ fs, NameCodes (lineCodes f.1) ∧ DocText (lineCodes f.2.fullName) ∧ f.2.notation' ≠ []) (toks : List Tok) :
    ∃ ts, lexLines (joinFunctions (fs.map fun f => functionLines f.1 f.2)) ⟨0, none, [4], toks⟩ =
      some ⟨0, none, [4], ts.reverse ++ toks⟩ ∧ FunsToks (fs.map fun f => (f.1, f.2.notation')) ts := by
  induction fs generalizing toks with
  | nil => exact ⟨[], by kernel_rfl, .nil⟩
  | cons f fs ih =>
    obtain ⟨h1, h2, h3⟩ := h f (by simp)
    obtain ⟨doc, hd⟩ := lex_function f.1 f.2 h1 h2 h3 toks
    cases fs with
    | nil =>
      refine ⟨funToks (lineCodes f.1) doc f.2.notation' ++ [], ?_, .cons _ _ _ _ _ .nil⟩
      rw [List.append_nil]
      exact hd
    | cons g fs =>
      obtain ⟨ts, ht, hf⟩ := ih (fun x hx => h x (by simp [hx])) ((funToks (lineCodes f.1) doc f.2.notation').reverse ++ toks)
      refine ⟨funToks (lineCodes f.1) doc f.2.notation' ++ ts, ?_, .cons _ _ _ _ _ hf⟩
      rw [show joinFunctions ((f :: g :: fs).map fun f => functionLines f.1 f.2) =
        functionLines f.1 f.2 ++ ["", ""] ++ joinFunctions ((g :: fs).map fun f => functionLines f.1 f.2) from rfl,
        lexLines_append, lexLines_append, hd, Option.bind_some, lex_blank _ rfl, Option.bind_some, ht]
      simp

/-- The tokens before the functions. -/
def headToks : List Tok :=
  match lexLines fileHead ⟨0, none, [], []⟩ with
  | some s => s.toks.reverse
  | none => []

theorem lex_head : lexLines fileHead ⟨0, none, [], []⟩ = some ⟨0, none, [4], headToks.reverse⟩ := by kernel_rfl

/-- The names before the functions. -/
def headItems : List Item :=
  [.imports [("Union", .imported "typing" "Union"), ("Tuple", .imported "typing" "Tuple"),
    ("Optional", .imported "typing" "Optional")],
   .imports [("Tone", .imported "melodia.core" "Tone"), ("Note", .imported "melodia.core" "Note"),
    ("Signature", .imported "melodia.core" "Signature")],
   .func chord._get_parameters]

theorem parse_headItems (rest : List Tok) : ∃ a b c r1 r2,
    headToks ++ .dedent :: rest = a :: r1 ∧ item "melodia.music.chord" false (a :: r1) = some (headItems[0], b :: r2) ∧
    ∃ d r3, item "melodia.music.chord" false (b :: r2) = some (headItems[1], d :: r3) ∧ c = d ∧
    item "melodia.music.chord" false (d :: r3) = some (headItems[2], rest) := by
  refine ⟨headToks.headD .newline, .name c!"from", .name c!"def", headToks.tail ++ .dedent :: rest,
    headToks.drop 10 ++ .dedent :: rest, ?_, ?_, .name c!"def", headToks.drop 21 ++ .dedent :: rest, ?_, rfl, ?_⟩
  · kernel_rfl
  · kernel_rfl
  · kernel_rfl
  · kernel_rfl

theorem items_step (n : Nat) (t : Tok) (ts rest : List Tok) (x : Item)
    (h : item "melodia.music.chord" false (t :: ts) = some (x, rest)) :
    items "melodia.music.chord" false (n + 1) (t :: ts) =
      (items "melodia.music.chord" false n rest).map (x :: ·) := by
  rw [items, h]
  · simp only []
    cases items "melodia.music.chord" false n rest <;> rfl
  · intro e; cases e

theorem funToks_cons (name doc : List Nat) (l : List Int) : funToks name doc l = .dedent :: (funToks name doc l).tail := rfl

theorem parse_functions (fs : List (String × List Int)) (ts : List Tok) (h : FunsToks fs ts)
    (hf : ∀ f ∈ fs, memText (lineCodes f.1) keywords = false ∧ strOf (lineCodes f.1) = f.1 ∧ f.2 ≠ []) :
    ∃ r, ts ++ [.dedent] = .dedent :: r ∧ fs.length ≤ r.length ∧ ∀ n, fs.length < n →
      items "melodia.music.chord" false n r = some (fs.map fun f => .func (generatedDef f.1 f.2)) := by
  induction h with
  | nil =>
    refine ⟨[], rfl, by simp, fun n hn => ?_⟩
    obtain ⟨n, rfl⟩ : ∃ m, n = m + 1 := ⟨n - 1, by simp at hn; omega⟩
    rfl
  | cons name doc l fs ts h ih =>
    obtain ⟨r, e, hlen, ih⟩ := ih (fun f hm => hf f (by simp [hm]))
    obtain ⟨h1, h2, h3⟩ := hf (name, l) (by simp)
    obtain ⟨k, l, rfl⟩ : ∃ k m, l = k :: m := List.exists_cons_of_ne_nil h3
    refine ⟨(funToks (lineCodes name) doc (k :: l)).tail ++ .dedent :: r, ?_, by simp; omega, fun n hn => ?_⟩
    · rw [List.append_assoc, e]; rfl
    · obtain ⟨n, rfl⟩ : ∃ m, n = m + 1 := ⟨n - 1, by simp at hn; omega⟩
      have hi := parse_function (lineCodes name) doc h1 k l r
      rw [h2] at hi
      rw [show (funToks (lineCodes name) doc (k :: l)).tail ++ .dedent :: r = .name c!"def" ::
        ((funToks (lineCodes name) doc (k :: l)).tail.tail ++ .dedent :: r) from rfl] at hi ⊢
      rw [items_step n _ _ _ _ hi, ih n (by simp at hn; omega)]
      rfl

theorem items_of (fs : List (String × GenChord)) :
    (fs.map fun f => Item.func (generatedDef f.1 f.2.notation')).flatMap Item.names =
      fs.map (fun f => (f.1, .func (generatedDef f.1 f.2.notation'))) ∧
    (fs.map fun f => Item.func (generatedDef f.1 f.2.notation')).filterMap Item.stmt? = [] ∧
    (fs.map fun f => Item.func (generatedDef f.1 f.2.notation')).filterMap Item.cls? = [] := by
  induction fs with
  | nil => exact ⟨rfl, rfl, rfl⟩
  | cons f fs ih =>
    obtain ⟨h1, h2, h3⟩ := ih
    refine ⟨?_, ?_, ?_⟩
    · rw [List.map_cons, List.flatMap_cons, h1]; rfl
    · rw [List.map_cons, List.filterMap_cons, h2]; rfl
    · rw [List.map_cons, List.filterMap_cons, h3]; rfl

theorem parse_generated (fs : List (String × GenChord))
    (h : ∀ f ∈ fs, NameCodes (lineCodes f.1) ∧ DocText (lineCodes f.2.fullName) ∧ f.2.notation' ≠ [] ∧
      memText (lineCodes f.1) keywords = false ∧ strOf (lineCodes f.1) = f.1) :
    parseModule "melodia.music.chord" false (fileHead ++ joinFunctions (fs.map fun f => functionLines f.1 f.2)) =
      some ({ name := "melodia.music.chord",
              names := headItems.flatMap Item.names ++ fs.map fun f => (f.1, .func (generatedDef f.1 f.2.notation')),
              init := [] }, []) := by
  obtain ⟨ts, ht, hf⟩ := lex_functions fs (fun f hf => ⟨(h f hf).1, (h f hf).2.1, (h f hf).2.2.1⟩) headToks.reverse
  obtain ⟨r, e, hlen, hi⟩ := parse_functions _ ts hf (by
    intro f hf
    obtain ⟨g, hg, rfl⟩ := List.mem_map.mp hf
    exact ⟨(h g hg).2.2.2.1, (h g hg).2.2.2.2, (h g hg).2.2.1⟩)
  have htok : tokens (fileHead ++ joinFunctions (fs.map fun f => functionLines f.1 f.2)) = some (headToks ++ .dedent :: r) := by
    unfold tokens
    rw [lexLines_append, lex_head, Option.bind_some, ht]
    have : dedents 0 (ts.reverse ++ headToks.reverse) [4] = some ([], .dedent :: (ts.reverse ++ headToks.reverse)) := rfl
    simp only [this]
    rw [← e]
    simp
  obtain ⟨a, b, c, r1, r2, e1, i1, d, r3, i2, -, i3⟩ := parse_headItems r
  have hit : ∀ n, fs.length < n → items "melodia.music.chord" false (n + 3) (headToks ++ .dedent :: r) =
      some (headItems ++ fs.map fun f => .func (generatedDef f.1 f.2.notation')) := by
    intro n hn
    rw [e1, items_step (n + 2) _ _ _ _ i1, items_step (n + 1) _ _ _ _ i2, items_step n _ _ _ _ i3, hi n (by simpa using hn)]
    simp [headItems]
  have hn : ∃ n, (headToks ++ .dedent :: r).length + 1 = n + 3 ∧ fs.length < n := by
    refine ⟨(headToks ++ .dedent :: r).length - 2, ?_, ?_⟩
    · have : 30 ≤ headToks.length := Nat.le_of_ble_eq_true (by kernel_rfl)
      simp; omega
    · have : 30 ≤ headToks.length := Nat.le_of_ble_eq_true (by kernel_rfl)
      simp at hlen ⊢; omega
  obtain ⟨n, hn1, hn2⟩ := hn
  unfold parseModule
  rw [htok]
  simp only []
  rw [hn1, hit n hn2]
  obtain ⟨n1, n2, n3⟩ := items_of fs
  simp only [List.flatMap_append, List.filterMap_append, n1, n2, n3, List.append_nil]
  rfl

end Melodia.Source
