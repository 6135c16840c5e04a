/-
Parsing scripts of the kind shown in the README.
-/
import Verif.Lemmas.ScriptLex
import Verif.Lemmas.SourceChord

set_option autoImplicit false

namespace Melodia.Source

open Melodia.Python

/-- The arguments of a call in a line. -/
def lineArgs (base : String) : Option (Nat × Nat) → List Expr
  | none => [.str base]
  | some (n, d) => [.str base, .tuple [.int n, .int d]]

/-- The statement of a line with a chord. -/
def lineStmt (name base : String) (d : Option (Nat × Nat)) : Stmt :=
  .expr (.call (.attr (.name "track") "add") [.call (.attr (.name "chord") name) (lineArgs base d) []] [])

/-- The statement that makes the track. -/
def newStmt (n d : Nat) : Stmt := .assign (.name "track") (.call (.name "Track") [.tuple [.int n, .int d]] ["signature"])

/-- The statement that saves the track. -/
def saveStmt (file : String) : Stmt :=
  .withAs (.call (.name "open") [.str file, .str "wb"] []) "f"
    [.expr (.call (.attr (.name "midi") "dump") [.name "track", .name "f"] [])]

theorem parse_new (n d : Nat) (rest : List Tok) :
    item "__main__" false (newToks n d ++ rest) = some (.stmt (newStmt n d), rest) := by kernel_rfl

theorem parse_save (file : List Nat) :
    item "__main__" false (saveToks file) = some (.stmt (saveStmt (strOf file)), []) := by
  have h : item "__main__" false (saveToks file) = some (.stmt (saveStmt (strOf (file ++ []))), []) := by kernel_rfl
  rwa [List.append_nil] at h

/-- The imports. -/
def importItems : List Item := [.imports [("Track", .imported "melodia.core" "Track")],
  .imports [("chord", .imported "melodia.music" "chord")], .imports [("midi", .imported "melodia.io" "midi")]]

theorem parse_imports (k : Nat) (rest : List Tok) :
    items "__main__" false (k + 3) (importToks ++ rest) = match items "__main__" false k rest with
      | some l => some (importItems ++ l)
      | none => none := by
  have e : items "__main__" false (k + 3) (importToks ++ rest) =
      match (match (match items "__main__" false k rest with
        | some l => some (.imports [("midi", .imported "melodia.io" "midi")] :: l)
        | none => none) with
        | some l => some (.imports [("chord", .imported "melodia.music" "chord")] :: l)
        | none => none) with
        | some l => some (.imports [("Track", .imported "melodia.core" "Track")] :: l)
        | none => none := by kernel_rfl
  rw [e]
  cases items "__main__" false k rest <;> rfl

theorem parse_line_nil (f : ChordFn) (hf : f ∈ chordFunctions) (base : List Nat) (rest : List Tok) :
    item "__main__" false (lineToks (lineCodes f.name) base none ++ rest) =
      some (.stmt (lineStmt f.name (strOf (base ++ [])) none), rest) := by
  revert f
  simp only [chordFunctions, List.forall_mem_cons]
  repeat' apply And.intro
  all_goals first | kernel_rfl | simp

theorem parse_line_some (f : ChordFn) (hf : f ∈ chordFunctions) (base : List Nat) (n m : Nat) (rest : List Tok) :
    item "__main__" false (lineToks (lineCodes f.name) base (some (n, m)) ++ rest) =
      some (.stmt (lineStmt f.name (strOf (base ++ [])) (some (n, m))), rest) := by
  revert f
  simp only [chordFunctions, List.forall_mem_cons]
  repeat' apply And.intro
  all_goals first | kernel_rfl | simp

theorem parse_line (f : ChordFn) (hf : f ∈ chordFunctions) (base : List Nat) (d : Option (Nat × Nat)) (rest : List Tok) :
    item "__main__" false (lineToks (lineCodes f.name) base d ++ rest) =
      some (.stmt (lineStmt f.name (strOf base) d), rest) := by
  rcases d with _ | ⟨n, m⟩
  · have h := parse_line_nil f hf base rest
    rwa [List.append_nil] at h
  · have h := parse_line_some f hf base n m rest
    rwa [List.append_nil] at h

/-- The statements of the lines with chords. -/
def chordStmts (cs : List ChordLine) : List Stmt := cs.map fun c => lineStmt c.name (strOf (lineCodes c.base)) c.duration

theorem items_cons (k : Nat) (t : Tok) (ts rest : List Tok) (x : Item) (l : List Item)
    (h : item "__main__" false (t :: ts) = some (x, rest)) (hl : items "__main__" false k rest = some l) :
    items "__main__" false (k + 1) (t :: ts) = some (x :: l) := by
  rw [items, h]
  simp only [hl]
  intro h
  cases h

theorem parse_chords (cs : List ChordLine) (h : ∀ c ∈ cs, ∃ f ∈ chordFunctions, c.name = f.name) (k : Nat) (rest : List Tok)
    (l : List Item) (hl : items "__main__" false k rest = some l) :
    items "__main__" false (k + cs.length) (chordToks cs ++ rest) = some ((chordStmts cs).map .stmt ++ l) := by
  induction cs with
  | nil => exact hl
  | cons c cs ih =>
    obtain ⟨f, hf, e⟩ := h c (by simp)
    have h1 := parse_line f hf (lineCodes c.base) c.duration (chordToks cs ++ rest)
    rw [← e] at h1
    have h2 := items_cons (k + cs.length) _ _ _ _ _ h1 (ih fun c hc => h c (by simp [hc]))
    rw [chordToks, List.append_assoc, List.length_cons, ← Nat.add_assoc]
    exact h2

theorem chordToks_length (cs : List ChordLine) : cs.length ≤ (chordToks cs).length := by
  induction cs with
  | nil => simp
  | cons c cs ih => simp [chordToks, lineToks]; omega

theorem stmt_items (l : List Stmt) : (l.map Item.stmt).filterMap Item.stmt? = l ∧ (l.map Item.stmt).flatMap Item.names = [] ∧
    (l.map Item.stmt).filterMap Item.cls? = [] := by
  induction l with
  | nil => exact ⟨rfl, rfl, rfl⟩
  | cons a l ih =>
    obtain ⟨h1, h2, h3⟩ := ih
    refine ⟨?_, ?_, ?_⟩
    · rw [List.map_cons, List.filterMap_cons_some (f := Item.stmt?) (a := .stmt a) (b := a) rfl, h1]
    · rw [List.map_cons, List.flatMap_cons, h2]; rfl
    · rw [List.map_cons, List.filterMap_cons_none (f := Item.cls?) (a := .stmt a) rfl, h3]

/-- The script as a module. -/
theorem script_parses (n d : Nat) (cs : List ChordLine) (file : String)
    (h : ∀ c ∈ cs, NameCodes (lineCodes c.name) ∧ QuotedCodes (lineCodes c.base)) (hf : QuotedCodes (lineCodes file))
    (hn : ∀ c ∈ cs, ∃ f ∈ chordFunctions, c.name = f.name) :
    parseModule "__main__" false (scriptText n d cs file) = some (
      { name := "__main__",
        names := [("Track", .imported "melodia.core" "Track"), ("chord", .imported "melodia.music" "chord"),
          ("midi", .imported "melodia.io" "midi")],
        init := newStmt n d :: (chordStmts cs ++ [saveStmt (strOf (lineCodes file))]) }, []) := by
  have hs : ∀ k, items "__main__" false (k + 2) (saveToks (lineCodes file)) =
      some [.stmt (saveStmt (strOf (lineCodes file)))] := fun k =>
    items_cons (k + 1) _ _ _ _ _ (parse_save (lineCodes file)) rfl
  have hc := fun k => parse_chords cs hn (k + 2) _ _ (hs k)
  have hw := fun k => items_cons (k + 2 + cs.length) _ _ _ _ _ (parse_new n d (chordToks cs ++ saveToks (lineCodes file))) (hc k)
  have hi : ∀ k, items "__main__" false (k + 2 + cs.length + 1 + 3)
      (importToks ++ (newToks n d ++ (chordToks cs ++ saveToks (lineCodes file)))) =
      some (importItems ++ (.stmt (newStmt n d) :: ((chordStmts cs).map .stmt ++ [.stmt (saveStmt (strOf (lineCodes file)))]))) := by
    intro k
    rw [parse_imports]
    have := hw k
    rw [show items "__main__" false (k + 2 + cs.length + 1) (newToks n d ++ (chordToks cs ++ saveToks (lineCodes file))) = _ from
      this]
  obtain ⟨k, hk⟩ : ∃ k, (importToks ++ (newToks n d ++ (chordToks cs ++ saveToks (lineCodes file)))).length + 1 =
      k + 2 + cs.length + 1 + 3 := by
    have := chordToks_length cs
    refine ⟨(importToks ++ (newToks n d ++ (chordToks cs ++ saveToks (lineCodes file)))).length + 1 - (2 + cs.length + 1 + 3), ?_⟩
    simp only [List.length_append, importToks, List.length_cons, List.length_nil, newToks]
    omega
  rw [parseModule, script_tokens n d cs file h hf]
  simp only [List.append_assoc]
  rw [hk, hi k]
  have hl : (.stmt (newStmt n d) :: ((chordStmts cs).map .stmt ++ [.stmt (saveStmt (strOf (lineCodes file)))]) : List Item) =
      (newStmt n d :: (chordStmts cs ++ [saveStmt (strOf (lineCodes file))])).map .stmt := by simp
  rw [hl]
  obtain ⟨h1, h2, h3⟩ := stmt_items (newStmt n d :: (chordStmts cs ++ [saveStmt (strOf (lineCodes file))]))
  simp only [List.filterMap_append, List.flatMap_append, h1, h2, h3]
  rfl

/-! ### Names and literals -/

theorem chord_name (f : ChordFn) (hf : f ∈ chordFunctions) : NameCodes (lineCodes f.name) := by
  have h : ∀ f ∈ chordFunctions, ((lineCodes f.name).take 1).all isAlpha = true ∧ (lineCodes f.name).isEmpty = false ∧
      (lineCodes f.name).all isWord = true := by decide +kernel
  obtain ⟨h1, h2, h3⟩ := h f hf
  match e : lineCodes f.name, h1, h2, h3 with
  | c :: l, h1, _, h3 =>
    refine ⟨c, l, rfl, by simpa using h1, fun d hd => List.all_eq_true.mp h3 d (by simp [hd])⟩

theorem plain_codes (s : String) (h : PlainText s) : QuotedCodes (lineCodes s) ∧ strOf (lineCodes s) = s := by
  have ha : ∀ c ∈ s.toList, c.toNat < 128 := fun c hc => by have := h c hc; omega
  have e : lineCodes s = s.toList.map Char.toNat := by
    have := lineCodes_ascii s.toList ha
    rwa [String.ofList_toList] at this
  refine ⟨?_, ?_⟩
  · intro c hc
    rw [e] at hc
    obtain ⟨x, hx, rfl⟩ := List.mem_map.mp hc
    obtain ⟨h1, h2, h3, h4⟩ := h x hx
    refine ⟨fun h => h3 ?_, fun h => h4 ?_, by omega⟩
    · exact Char.toNat_inj.mp h
    · exact Char.toNat_inj.mp h
  · have := strOf_lineCodes s.toList ha
    rwa [String.ofList_toList] at this

end Melodia.Source
