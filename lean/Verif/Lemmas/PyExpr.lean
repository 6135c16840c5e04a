/-
Lemmas about the subset of Python's expressions.
-/
import Verif.Model.PyExpr
import Verif.Lemmas.Text
import Verif.Lemmas.Note

set_option autoImplicit false

namespace Melodia

/-- Tokens of a keyword. -/
def keyToks : Option (List Char) → List Tok
  | none => []
  | some k => [.name k, .equals]

mutual
/-- The tokens of an expression. -/
def PyExpr.toks : PyExpr → List Tok
  | .num s => [.num s]
  | .neg e => .minus :: e.toks
  | .pair a b => .lpar :: (a.toks ++ .comma :: (b.toks ++ [.rpar]))
  | .list items => .lbrack :: (items.toks ++ [.rbrack])
  | .call f args => .name f :: .lpar :: (args.toks ++ [.rpar])
/-- The tokens of items, with commas between them. -/
def PyItems.toks : PyItems → List Tok
  | .nil => []
  | .cons key e .nil => keyToks key ++ e.toks
  | .cons key e (.cons k e' r) => keyToks key ++ (e.toks ++ .comma :: (PyItems.cons k e' r).toks)
end

mutual
/-- No keywords in lists. -/
def PyExpr.Plain : PyExpr → Prop
  | .num _ => True
  | .neg e => e.Plain
  | .pair a b => a.Plain ∧ b.Plain
  | .list items => items.Plain .rbrack
  | .call _ args => args.Plain .rpar
/-- The same for items. -/
def PyItems.Plain : PyItems → Tok → Prop
  | .nil, _ => True
  | .cons key e rest, close => (key = none ∨ close = .rpar) ∧ e.Plain ∧ rest.Plain close
end

theorem PyExpr.toks_head (e : PyExpr) : ∃ t r, e.toks = t :: r ∧ t ≠ .rpar ∧ t ≠ .rbrack ∧ t ≠ .comma := by
  cases e <;> exact ⟨_, _, rfl, by simp, by simp, by simp⟩

theorem PyItems.toks_head (k : Option (List Char)) (e : PyExpr) (rest : PyItems) :
    ∃ t r, (PyItems.cons k e rest).toks = t :: r ∧ t ≠ .rpar ∧ t ≠ .rbrack := by
  obtain ⟨t, r, h, h1, h2, -⟩ := e.toks_head
  cases rest <;> cases k <;> simp only [PyItems.toks, keyToks, h, List.cons_append, List.nil_append] <;>
    exact ⟨_, _, rfl, by first | exact h1 | simp, by first | exact h2 | simp⟩

theorem splitKey_none {close : Tok} (e : PyExpr) (r : List Tok) : splitKey close (e.toks ++ r) = (none, e.toks ++ r) := by
  cases e <;> (unfold splitKey; simp only [PyExpr.toks, List.cons_append, List.nil_append])

theorem splitKey_key {close : Tok} {key : Option (List Char)} (h : key = none ∨ close = .rpar) (e : PyExpr) (r : List Tok) :
    splitKey close (keyToks key ++ (e.toks ++ r)) = (key, e.toks ++ r) := by
  cases key with
  | none => exact splitKey_none e r
  | some k =>
    rcases h with h | rfl
    · cases h
    · rfl

mutual
theorem parseExpr_toks : ∀ (e : PyExpr) (fuel : Nat) (r : List Tok), e.Plain → e.toks.length ≤ fuel →
    parseExpr fuel (e.toks ++ r) = some (e, r)
  | .num s, fuel, r, _, hf => by
    obtain ⟨f, rfl⟩ : ∃ f, fuel = f + 1 := ⟨fuel - 1, by simp [PyExpr.toks] at hf; omega⟩
    simp [PyExpr.toks, parseExpr]
  | .neg e, fuel, r, hp, hf => by
    simp only [PyExpr.toks, List.length_cons] at hf
    obtain ⟨f, rfl⟩ : ∃ f, fuel = f + 1 := ⟨fuel - 1, by omega⟩
    have ih := parseExpr_toks e f r (by simpa [PyExpr.Plain] using hp) (by omega)
    simp [PyExpr.toks, parseExpr, ih]
  | .pair a b, fuel, r, hp, hf => by
    simp only [PyExpr.toks, List.length_cons, List.length_append, List.length_nil] at hf
    obtain ⟨f, rfl⟩ : ∃ f, fuel = f + 1 := ⟨fuel - 1, by omega⟩
    simp only [PyExpr.Plain] at hp
    have iha := parseExpr_toks a f (.comma :: (b.toks ++ .rpar :: r)) hp.1 (by omega)
    have ihb := parseExpr_toks b f (.rpar :: r) hp.2 (by omega)
    simp [PyExpr.toks, parseExpr, iha, ihb]
  | .list .nil, fuel, r, hp, hf => by
    simp only [PyExpr.toks, PyItems.toks, List.length_cons, List.length_append, List.length_nil] at hf
    obtain ⟨f, rfl⟩ : ∃ f, fuel = f + 1 := ⟨fuel - 1, by omega⟩
    simp [PyExpr.toks, PyItems.toks, parseExpr]
  | .list (.cons k e rest), fuel, r, hp, hf => by
    simp only [PyExpr.toks, List.length_cons, List.length_append, List.length_nil] at hf
    obtain ⟨f, rfl⟩ : ∃ f, fuel = f + 1 := ⟨fuel - 1, by omega⟩
    have ih := parseItems_toks k e rest f .rbrack r (by simpa [PyExpr.Plain] using hp) (Or.inr rfl) (by omega)
    obtain ⟨t, r', h1, h2, h3⟩ := PyItems.toks_head k e rest
    rw [h1] at ih
    have h3' : ¬ Tok.rbrack = t := fun h => h3 h.symm
    simp only [List.cons_append] at ih
    simp [PyExpr.toks, h1, parseExpr, h3, ih]
  | .call f .nil, fuel, r, hp, hf => by
    simp only [PyExpr.toks, PyItems.toks, List.length_cons, List.length_append, List.length_nil] at hf
    obtain ⟨f, rfl⟩ : ∃ f, fuel = f + 1 := ⟨fuel - 1, by omega⟩
    simp [PyExpr.toks, PyItems.toks, parseExpr]
  | .call g (.cons k e rest), fuel, r, hp, hf => by
    simp only [PyExpr.toks, List.length_cons, List.length_append, List.length_nil] at hf
    obtain ⟨f, rfl⟩ : ∃ f, fuel = f + 1 := ⟨fuel - 1, by omega⟩
    have ih := parseItems_toks k e rest f .rpar r (by simpa [PyExpr.Plain] using hp) (Or.inl rfl) (by omega)
    obtain ⟨t, r', h1, h2, h3⟩ := PyItems.toks_head k e rest
    rw [h1] at ih
    simp only [List.cons_append] at ih
    simp [PyExpr.toks, h1, parseExpr, h2, ih]
theorem parseItems_toks : ∀ (k : Option (List Char)) (e : PyExpr) (rest : PyItems) (fuel : Nat) (close : Tok) (r : List Tok),
    (PyItems.cons k e rest).Plain close → (close = .rpar ∨ close = .rbrack) → (PyItems.cons k e rest).toks.length + 1 ≤ fuel →
    parseItems fuel close ((PyItems.cons k e rest).toks ++ close :: r) = some (.cons k e rest, r)
  | k, e, .nil, fuel, close, r, hp, hc, hf => by
    obtain ⟨f, rfl⟩ : ∃ f, fuel = f + 1 := ⟨fuel - 1, by omega⟩
    simp only [PyItems.toks, List.length_append] at hf
    simp only [PyItems.Plain] at hp
    have ih := parseExpr_toks e f (close :: r) hp.2.1 (by omega)
    have hcc : ¬ close = .comma := by rcases hc with rfl | rfl <;> simp
    simp only [PyItems.toks, List.append_assoc, parseItems, splitKey_key hp.1]
    simp [ih, hcc]
  | k, e, .cons k' e' rest, fuel, close, r, hp, hc, hf => by
    obtain ⟨f, rfl⟩ : ∃ f, fuel = f + 1 := ⟨fuel - 1, by omega⟩
    rw [PyItems.toks] at hf
    simp only [List.length_append, List.length_cons] at hf
    rw [PyItems.Plain] at hp
    have ih := parseExpr_toks e f (.comma :: ((PyItems.cons k' e' rest).toks ++ close :: r)) hp.2.1 (by omega)
    have ih2 := parseItems_toks k' e' rest f close r hp.2.2 hc (by omega)
    rw [PyItems.toks]
    simp only [List.append_assoc, List.cons_append, parseItems, splitKey_key hp.1]
    simp [ih, ih2]
end

/-! ### Splitting into tokens -/

/-- A word: every character continues what is before it. -/
def IsWord (w : List Char) : Prop := ∀ pre c post, w = pre ++ c :: post → continues pre c = true

theorem tokens_append : ∀ (w cur rest : List Char), (∀ pre c post, w = pre ++ c :: post → continues (cur ++ pre) c = true) →
    tokens cur (w ++ rest) = tokens (cur ++ w) rest := by
  intro w
  induction w with
  | nil => intro cur rest _; simp
  | cons c w ih =>
    intro cur rest h
    have h1 : continues cur c = true := by
      have := h [] c w rfl
      rwa [List.append_nil] at this
    rw [List.cons_append, tokens, if_pos h1, ih (cur ++ [c]) rest]
    · rw [List.append_assoc]
      rfl
    · intro pre d post hw
      have := h (c :: pre) d post (by rw [hw]; rfl)
      rwa [List.append_assoc, List.singleton_append]

/-- Characters that end every word. -/
def delims : List Char := ['(', ')', '[', ']', ',', '=', ' ']

theorem delim_continues {c : Char} (h : c ∈ delims) (w : List Char) : continues w c = false := by
  unfold continues
  simp only [delims, List.mem_cons, List.not_mem_nil, or_false] at h
  rcases h with rfl | rfl | rfl | rfl | rfl | rfl | rfl <;> rfl

/-- The tokens of a text that goes on with a word and a delimiter. -/
theorem tokens_word {w : List Char} (h : IsWord w) {c : Char} (hc : c ∈ delims) {rest : List Char} {R p : List Tok}
    (hp : punctTok c = some p) (hR : tokens [] rest = some R) : tokens [] (w ++ c :: rest) = some (wordTok w ++ (p ++ R)) := by
  rw [tokens_append w [] (c :: rest) (by intro pre d post e; rw [List.nil_append]; exact h pre d post e), List.nil_append,
    tokens, if_neg (by rw [delim_continues hc]; simp), hp, hR]
  simp

theorem tokens_punct {c : Char} {rest : List Char} {R p : List Tok} (hc : continues [] c = false)
    (hp : punctTok c = some p) (hR : tokens [] rest = some R) : tokens [] (c :: rest) = some (p ++ R) := by
  rw [tokens, if_neg (by rw [hc]; simp), hp, hR]
  simp [wordTok]

theorem isWord_alphanum {w : List Char} (h : ∀ c ∈ w, c.isAlphanum = true) : IsWord w := by
  intro pre c post e
  unfold continues
  rw [h c (by rw [e]; simp)]
  rfl

theorem digit_of {c : Char} (h : '0' ≤ c ∧ c ≤ '9') : c.isDigit = true := by
  obtain ⟨h1, h2⟩ := h
  unfold Char.isDigit
  simp only [ge_iff_le, Bool.and_eq_true, decide_eq_true_eq]
  exact ⟨h1, h2⟩

theorem natStr_digits (n : Nat) : natStr n ≠ [] ∧ ∀ c ∈ natStr n, c.isDigit = true := by
  obtain ⟨h1, h2, -⟩ := @natStr_spec ⟨fun _ => none⟩ n
  exact ⟨h1, fun c hc => digit_of (ascii_digit (h2 c hc))⟩

theorem natStr_word (n : Nat) : IsWord (natStr n) ∧ wordTok (natStr n) = [.num (natStr n)] := by
  obtain ⟨h1, h2⟩ := natStr_digits n
  refine ⟨isWord_alphanum (fun c hc => by unfold Char.isAlphanum; rw [h2 c hc, Bool.or_true]), ?_⟩
  cases h : natStr n with
  | nil => exact absurd h h1
  | cons c cs =>
    rw [wordTok, if_pos (h2 c (by rw [h]; simp))]

theorem literalVal_natStr (n : Nat) : literalVal (natStr n) = n := by
  obtain ⟨-, h2, h3⟩ := @natStr_spec ⟨fun _ => none⟩ n
  rw [← @digitsVal_eq ⟨fun _ => none⟩] at h3
  have key : ∀ (l : List Char) (a : Nat), (∀ c ∈ l, @IsDigit ⟨fun _ => none⟩ c) →
      l.foldl (fun acc c => 10 * acc + (c.toNat - 48)) a =
        l.foldl (fun acc c => 10 * acc + (@digitVal ⟨fun _ => none⟩ c).getD 0) a := by
    intro l
    induction l with
    | nil => intro a _; rfl
    | cons c l ih =>
      intro a h
      rw [List.foldl_cons, List.foldl_cons]
      have hd : (@digitVal ⟨fun _ => none⟩ c).getD 0 = c.toNat - 48 := by
        obtain ⟨v, hv⟩ := h c (by simp)
        rw [@decDigit_eq ⟨fun _ => none⟩] at hv
        have h0 := hv
        unfold digitVal at hv ⊢
        split at hv
        · rename_i hlt
          rw [if_pos hlt]
          split at hv
          · rename_i hr
            rw [if_pos hr]
            rfl
          · cases hv
        · cases hv
      rw [hd]
      exact ih _ (fun c hc => h c (by simp [hc]))
  unfold literalVal
  rw [key _ _ h2]
  exact h3

/-- The literal of an int. -/
def intExpr (k : Int) : PyExpr := if k < 0 then .neg (.num (natStr k.natAbs)) else .num (natStr k.natAbs)

theorem tokens_int (k : Int) {c : Char} (hc : c ∈ delims) {rest : List Char} {R p : List Tok}
    (hp : punctTok c = some p) (hR : tokens [] rest = some R) :
    tokens [] (intStr k ++ c :: rest) = some ((intExpr k).toks ++ (p ++ R)) := by
  obtain ⟨h1, h2⟩ := natStr_word k.natAbs
  have h3 := tokens_word h1 hc hp hR
  rw [h2] at h3
  unfold intStr intExpr
  split
  · rw [List.cons_append, tokens_punct (p := [.minus]) rfl rfl h3, PyExpr.toks, PyExpr.toks]
    rfl
  · rw [h3, PyExpr.toks]

theorem intExpr_plain (k : Int) : (intExpr k).Plain := by
  unfold intExpr
  split <;> simp [PyExpr.Plain]

theorem intExpr_eval [UnicodeDigits] (F : FloatLiteral) (k : Int) : (intExpr k).eval F = .ok (.int k) := by
  have h : (PyExpr.num (natStr k.natAbs)).eval F = .ok (.int k.natAbs) := by
    rw [PyExpr.eval, if_pos (List.all_eq_true.mpr (natStr_digits _).2), literalVal_natStr]
  unfold intExpr
  split
  · rw [PyExpr.eval, h]
    show Except.ok (PyValue.int (-(k.natAbs : Int))) = _
    congr 2
    omega
  · rw [h]
    congr 2
    omega

theorem name_word {w : List Char} (hw : ∀ c ∈ w, c.isAlphanum = true) (h : w.head?.map Char.isDigit = some false) :
    IsWord w ∧ wordTok w = [.name w] := by
  refine ⟨isWord_alphanum hw, ?_⟩
  cases w with
  | nil => cases h
  | cons c cs =>
    simp only [List.head?_cons, Option.map_some, Option.some.injEq] at h
    rw [wordTok, if_neg (by rw [h]; simp)]

/-- A name, a delimiter, and the rest. -/
theorem tokens_name {w : List Char} (hw : ∀ c ∈ w, c.isAlphanum = true) (h : w.head?.map Char.isDigit = some false) {c : Char}
    (hc : c ∈ delims) {rest : List Char} {R p : List Tok}
    (hp : punctTok c = some p) (hR : tokens [] rest = some R) : tokens [] (w ++ c :: rest) = some (.name w :: (p ++ R)) := by
  obtain ⟨h1, h2⟩ := name_word hw h
  rw [tokens_word h1 hc hp hR, h2]
  rfl

/-- The pair of a signature. -/
def sigExpr (s : Signature) : PyExpr := .pair (intExpr s.nominator) (intExpr s.denominator)

theorem tokens_tuple (s : Signature) {rest : List Char} {R : List Tok} (hR : tokens [] rest = some R) :
    tokens [] (s.tupleText ++ rest) = some ((sigExpr s).toks ++ R) := by
  have h1 := tokens_int s.denominator (c := ')') (by decide) rfl hR
  have h2 := tokens_int s.nominator (c := ',') (by decide) (p := [.comma]) rfl (tokens_punct (c := ' ') (p := []) rfl rfl h1)
  have h3 := tokens_punct (c := '(') (p := [.lpar]) rfl rfl h2
  have e : s.tupleText ++ rest = '(' :: (intStr s.nominator ++ ',' :: ' ' :: (intStr s.denominator ++ ')' :: rest)) := by
    simp [Signature.tupleText]
  rw [e, h3]
  simp [sigExpr, PyExpr.toks]

theorem sigExpr_plain (s : Signature) : (sigExpr s).Plain := by
  unfold sigExpr
  rw [PyExpr.Plain]
  exact ⟨intExpr_plain _, intExpr_plain _⟩

theorem sigExpr_eval [UnicodeDigits] (F : FloatLiteral) (s : Signature) :
    (sigExpr s).eval F = .ok (.pair (.int s.nominator) (.int s.denominator)) := by
  unfold sigExpr
  rw [PyExpr.eval, intExpr_eval, intExpr_eval]
  rfl

/-- The literal of a velocity. -/
theorem float_word (F : FloatLiteral) {v : ℚ} (h0 : 0 ≤ v) (hv : fl v = v) :
    IsWord (F.text v) ∧ wordTok (F.text v) = [.num (F.text v)] := by
  obtain ⟨c, cs, h1, h2⟩ := F.first v h0 hv
  constructor
  · intro pre d post e
    unfold continues
    rcases F.shape v h0 hv pre d post e with h | h | h | ⟨h, h'⟩
    · simp [Char.isAlphanum, h]
    · simp [h]
    · rw [h]; rfl
    · have hhead : (pre.head?.map Char.isDigit).getD false = true := by
        cases pre with
        | nil => simp at h'
        | cons x xs =>
          rw [h1] at e
          simp only [List.cons_append, List.cons.injEq] at e
          rw [List.head?_cons, ← e.1]
          simp [h2]
      rw [h', hhead]
      rcases h with h | h <;> simp [h]
  · rw [h1, wordTok, if_pos h2]

theorem float_eval [UnicodeDigits] (F : FloatLiteral) {v : ℚ} (h0 : 0 ≤ v) (hv : fl v = v) :
    (PyExpr.num (F.text v)).eval F = .ok (.float v) := by
  obtain ⟨c, hc, h⟩ := F.point v h0 hv
  rw [PyExpr.eval, if_neg, F.roundtrip v h0 hv]
  intro hall
  rw [List.all_eq_true] at hall
  rw [hall c hc] at h
  cases h

/-- The call of a note. -/
def noteExpr (F : FloatLiteral) (n : Note) : PyExpr :=
  .call "Note".toList (.cons (some "tone".toList) (intExpr n.tone.pitch) (.cons (some "duration".toList) (sigExpr n.duration)
    (.cons (some "velocity".toList) (.num (F.text n.velocity)) .nil)))

theorem tokens_note (F : FloatLiteral) (n : Note) (h0 : 0 ≤ n.velocity) (hv : fl n.velocity = n.velocity) {rest : List Char}
    {R : List Tok} (hR : tokens [] rest = some R) :
    tokens [] (n.repr F.toFloatText ++ rest) = some ((noteExpr F n).toks ++ R) := by
  obtain ⟨w1, w2⟩ := float_word F h0 hv
  have h1 := tokens_word w1 (c := ')') (by decide) (p := [.rpar]) rfl (tokens_punct (c := ' ') (p := []) rfl rfl hR)
  have h2 := tokens_name (w := "velocity".toList) (by decide) (by decide) (c := '=') (by decide) (p := [.equals]) rfl h1
  have h3 := tokens_tuple n.duration (tokens_punct (c := ',') (p := [.comma]) rfl rfl (tokens_punct (c := ' ') (p := []) rfl rfl h2))
  have h4 := tokens_name (w := "duration".toList) (by decide) (by decide) (c := '=') (by decide) (p := [.equals]) rfl h3
  have h5 := tokens_int n.tone.pitch (c := ',') (by decide) (p := [.comma]) rfl (tokens_punct (c := ' ') (p := []) rfl rfl h4)
  have h6 := tokens_name (w := "tone".toList) (by decide) (by decide) (c := '=') (by decide) (p := [.equals]) rfl h5
  have h7 := tokens_name (w := "Note".toList) (by decide) (by decide) (c := '(') (by decide) (p := [.lpar]) rfl h6
  have e : n.repr F.toFloatText ++ rest = "Note".toList ++ '(' :: ("tone".toList ++ '=' :: (intStr n.tone.pitch ++ ',' :: ' ' ::
      ("duration".toList ++ '=' :: (n.duration.tupleText ++ ',' :: ' ' :: ("velocity".toList ++ '=' ::
      (F.text n.velocity ++ ')' :: ' ' :: rest)))))) := by
    have s1 : "Note(tone=".toList = "Note".toList ++ '(' :: ("tone".toList ++ ['=']) := by decide
    have s2 : ", duration=".toList = ',' :: ' ' :: ("duration".toList ++ ['=']) := by decide
    have s3 : ", velocity=".toList = ',' :: ' ' :: ("velocity".toList ++ ['=']) := by decide
    have s4 : ") ".toList = [')', ' '] := by decide
    unfold Note.repr
    rw [s1, s2, s3, s4]
    simp only [List.append_assoc, List.cons_append, List.nil_append]
  rw [e, h7, w2]
  simp [noteExpr, PyExpr.toks, PyItems.toks, keyToks]

theorem noteExpr_plain (F : FloatLiteral) (n : Note) : (noteExpr F n).Plain := by
  simp [noteExpr, PyExpr.Plain, PyItems.Plain, intExpr_plain, sigExpr_plain]

theorem noteExpr_eval [UnicodeDigits] (F : FloatLiteral) (n : Note) (hn : n.Valid) (hv : fl n.velocity = n.velocity) :
    (noteExpr F n).eval F = .ok (.note n) := by
  have e : (noteExpr F n).eval F = callClass "Note".toList [(some "tone".toList, .int n.tone.pitch),
      (some "duration".toList, .pair (.int n.duration.nominator) (.int n.duration.denominator)),
      (some "velocity".toList, .float n.velocity)] := by
    simp only [noteExpr, PyExpr.eval.eq_5, PyItems.eval, intExpr_eval, sigExpr_eval, float_eval F hn.velLow hv]
    rfl
  have h : Note.new (.int n.tone.pitch) (.ints [n.duration.nominator, n.duration.denominator]) (.fin n.velocity) = .ok n := by
    rw [Note.new_ok_iff, SigArg.coerce_ok_iff]
    refine ⟨rfl, .pair _ _ hn.duration.1 hn.duration.2, rfl, hn.velLow, hn.velHigh⟩
  rw [e]
  simp only [callClass]
  rw [if_neg (by decide), if_neg (by decide), if_pos trivial, if_pos (by decide)]
  simp only [PyValue.toToneArg, PyValue.toSigArg]
  rw [h]
  rfl

/-! ### Tones, signatures and tracks -/

/-- The call of a tone. -/
def toneExpr (t : Tone) : PyExpr := .call "Tone".toList (.cons (some "pitch".toList) (intExpr t.pitch) .nil)

theorem tokens_tone (t : Tone) : tokens [] t.repr = some (toneExpr t).toks := by
  have h0 : tokens [] [] = some [] := rfl
  have h1 := tokens_int t.pitch (c := ')') (by decide) (p := [.rpar]) rfl h0
  have h2 := tokens_name (w := "pitch".toList) (by decide) (by decide) (c := '=') (by decide) (p := [.equals]) rfl h1
  have h3 := tokens_name (w := "Tone".toList) (by decide) (by decide) (c := '(') (by decide) (p := [.lpar]) rfl h2
  have e : t.repr = "Tone".toList ++ '(' :: ("pitch".toList ++ '=' :: (intStr t.pitch ++ ')' :: [])) := by
    have s1 : "Tone(pitch=".toList = "Tone".toList ++ '(' :: ("pitch".toList ++ ['=']) := by decide
    have s2 : ")".toList = [')'] := by decide
    unfold Tone.repr
    rw [s1, s2]
    simp only [List.append_assoc, List.cons_append, List.nil_append]
  rw [e, h3]
  simp [toneExpr, PyExpr.toks, PyItems.toks, keyToks]

theorem toneExpr_plain (t : Tone) : (toneExpr t).Plain := by
  simp [toneExpr, PyExpr.Plain, PyItems.Plain, intExpr_plain]

theorem toneExpr_eval [UnicodeDigits] (F : FloatLiteral) (t : Tone) : (toneExpr t).eval F = .ok (.tone t) := by
  have e : (toneExpr t).eval F = callClass "Tone".toList [(some "pitch".toList, .int t.pitch)] := by
    simp only [toneExpr, PyExpr.eval.eq_5, PyItems.eval, intExpr_eval]
    rfl
  rw [e]
  simp only [callClass]
  rw [if_pos trivial, if_pos trivial]
  rfl

/-- The call of a signature, whose text is the class name before the pair. -/
def sigCall (s : Signature) : PyExpr :=
  .call "Signature".toList (.cons none (intExpr s.nominator) (.cons none (intExpr s.denominator) .nil))

theorem tokens_sigCall (s : Signature) : tokens [] s.repr = some (sigCall s).toks := by
  have h0 : tokens [] [] = some [] := rfl
  have h1 := tokens_int s.denominator (c := ')') (by decide) (p := [.rpar]) rfl h0
  have h2 := tokens_int s.nominator (c := ',') (by decide) (p := [.comma]) rfl (tokens_punct (c := ' ') (p := []) rfl rfl h1)
  have h3 := tokens_name (w := "Signature".toList) (by decide) (by decide) (c := '(') (by decide) (p := [.lpar]) rfl h2
  have e : s.repr = "Signature".toList ++ '(' :: (intStr s.nominator ++ ',' :: ' ' :: (intStr s.denominator ++ ')' :: [])) := by
    unfold Signature.repr
    congr 1
    simp [Signature.tupleText]
  rw [e, h3]
  simp [sigCall, PyExpr.toks, PyItems.toks, keyToks]

theorem sigCall_plain (s : Signature) : (sigCall s).Plain := by
  simp [sigCall, PyExpr.Plain, PyItems.Plain, intExpr_plain]

theorem sigCall_eval [UnicodeDigits] (F : FloatLiteral) (s : Signature) (hs : s.Valid) :
    (sigCall s).eval F = .ok (.signature s) := by
  have e : (sigCall s).eval F = callClass "Signature".toList [(none, .int s.nominator), (none, .int s.denominator)] := by
    simp only [sigCall, PyExpr.eval.eq_5, PyItems.eval, intExpr_eval]
    rfl
  have h : Signature.new s.nominator s.denominator = .ok s := by
    have := (SigArg.coerce_ok_iff (a := .ints [s.nominator, s.denominator]) (s := s)).mpr (.pair _ _ hs.1 hs.2)
    exact this
  rw [e]
  simp only [callClass]
  rw [if_neg (by decide), if_pos trivial, h]
  rfl

/-- The elements of the content of a track. -/
def contentExpr (F : FloatLiteral) : List Entry → PyItems
  | [] => .nil
  | e :: l => .cons none (.pair (noteExpr F e.2) (sigExpr e.1)) (contentExpr F l)

/-- Notes that can be written: valid ones whose velocity is a double. -/
def Writable (e : Entry) : Prop := e.1.Valid ∧ e.2.Valid ∧ fl e.2.velocity = e.2.velocity

theorem tokens_entry (F : FloatLiteral) (e : Entry) (he : Writable e) {rest : List Char} {R : List Tok}
    (hR : tokens [] rest = some R) :
    tokens [] (Entry.repr F.toFloatText e ++ rest) = some ((PyExpr.pair (noteExpr F e.2) (sigExpr e.1)).toks ++ R) := by
  have h1 := tokens_tuple e.1 (tokens_punct (c := ')') (p := [.rpar]) rfl rfl hR)
  have h2 := tokens_note F e.2 he.2.1.velLow he.2.2
    (tokens_punct (c := ',') (p := [.comma]) rfl rfl (tokens_punct (c := ' ') (p := []) rfl rfl h1))
  have h3 := tokens_punct (c := '(') (p := [.lpar]) rfl rfl h2
  have s : Entry.repr F.toFloatText e ++ rest = '(' :: (e.2.repr F.toFloatText ++ ',' :: ' ' :: (e.1.tupleText ++ ')' :: rest)) := by
    have s1 : "(".toList = ['('] := by decide
    have s2 : ", ".toList = [',', ' '] := by decide
    have s3 : ")".toList = [')'] := by decide
    unfold Entry.repr
    rw [s1, s2, s3]
    simp only [List.append_assoc, List.cons_append, List.nil_append]
  rw [s, h3]
  simp [PyExpr.toks]

theorem tokens_content (F : FloatLiteral) : ∀ (l : List Entry), (∀ e ∈ l, Writable e) → ∀ {rest : List Char} {R : List Tok},
    tokens [] rest = some R →
    tokens [] (joinComma (l.map (Entry.repr F.toFloatText)) ++ rest) = some ((contentExpr F l).toks ++ R)
  | [], _, _, _, hR => by simpa [joinComma, contentExpr, PyItems.toks] using hR
  | [e], h, _, _, hR => by
    have := tokens_entry F e (h e (by simp)) hR
    simpa [joinComma, contentExpr, PyItems.toks, keyToks] using this
  | e :: e' :: l, h, rest, R, hR => by
    have ih := tokens_content F (e' :: l) (fun x hx => h x (by simp [List.mem_cons.mp hx])) hR
    have h1 := tokens_entry F e (h e (by simp))
      (tokens_punct (c := ',') (p := [.comma]) rfl rfl (tokens_punct (c := ' ') (p := []) rfl rfl ih))
    have s2 : ", ".toList = [',', ' '] := by decide
    simp only [List.map_cons, joinComma, s2, List.append_assoc, List.cons_append, List.nil_append] at h1 ⊢
    rw [h1]
    simp [contentExpr, PyItems.toks, keyToks]

theorem contentExpr_plain (F : FloatLiteral) (l : List Entry) : (contentExpr F l).Plain .rbrack := by
  induction l with
  | nil => simp [contentExpr, PyItems.Plain]
  | cons e l ih => simp [contentExpr, PyItems.Plain, PyExpr.Plain, noteExpr_plain, sigExpr_plain, ih]

theorem contentExpr_eval [UnicodeDigits] (F : FloatLiteral) : ∀ (l : List Entry), (∀ e ∈ l, Writable e) →
    (contentExpr F l).eval F = .ok (l.map fun e =>
      (none, PyValue.pair (.note e.2) (.pair (.int e.1.nominator) (.int e.1.denominator))))
  | [], _ => by rw [contentExpr, PyItems.eval]; rfl
  | e :: l, h => by
    have ih := contentExpr_eval F l (fun x hx => h x (by simp [hx]))
    have he := h e (by simp)
    rw [contentExpr, PyItems.eval, ih, PyExpr.eval.eq_3, noteExpr_eval F e.2 he.2.1 he.2.2, sigExpr_eval]
    rfl

/-- The call of a track. -/
def trackExpr (F : FloatLiteral) (s : Signature) (l : List Entry) : PyExpr :=
  .call "Track".toList (.cons (some "signature".toList) (sigExpr s) (.cons (some "content".toList) (.list (contentExpr F l)) .nil))

theorem tokens_track (S : ListSort) (F : FloatLiteral) (t : Track) (h : ∀ e ∈ t.items S, Writable e) :
    tokens [] (t.repr S F.toFloatText).2 = some (trackExpr F t.signature (t.items S)).toks := by
  have h0 : tokens [] [] = some [] := rfl
  have h1 := tokens_content F (t.items S) h
    (tokens_punct (c := ']') (p := [.rbrack]) rfl rfl (tokens_punct (c := ')') (p := [.rpar]) rfl rfl h0))
  have h2 := tokens_name (w := "content".toList) (by decide) (by decide) (c := '=') (by decide) (p := [.equals]) rfl
    (tokens_punct (c := '[') (p := [.lbrack]) rfl rfl h1)
  have h3 := tokens_tuple t.signature (tokens_punct (c := ',') (p := [.comma]) rfl rfl (tokens_punct (c := ' ') (p := []) rfl rfl h2))
  have h4 := tokens_name (w := "signature".toList) (by decide) (by decide) (c := '=') (by decide) (p := [.equals]) rfl h3
  have h5 := tokens_name (w := "Track".toList) (by decide) (by decide) (c := '(') (by decide) (p := [.lpar]) rfl h4
  have e : (t.repr S F.toFloatText).2 = "Track".toList ++ '(' :: ("signature".toList ++ '=' :: (t.signature.tupleText ++
      ',' :: ' ' :: ("content".toList ++ '=' :: '[' :: (joinComma ((t.items S).map (Entry.repr F.toFloatText)) ++ ']' :: ')' :: [])))) := by
    have s1 : "Track(signature=".toList = "Track".toList ++ '(' :: ("signature".toList ++ ['=']) := by decide
    have s2 : ", content=[".toList = ',' :: ' ' :: ("content".toList ++ ['=', '[']) := by decide
    have s3 : "])".toList = [']', ')'] := by decide
    unfold Track.repr Track.items
    simp only [s1, s2, s3, List.append_assoc, List.cons_append, List.nil_append]
  rw [e, h5]
  simp [trackExpr, PyExpr.toks, PyItems.toks, keyToks]

theorem trackExpr_plain (F : FloatLiteral) (s : Signature) (l : List Entry) : (trackExpr F s l).Plain := by
  simp [trackExpr, PyExpr.Plain, PyItems.Plain, sigExpr_plain, contentExpr_plain]

theorem contentArgs_map : ∀ l : List Entry,
    contentArgs (l.map fun e => PyValue.pair (.note e.2) (.pair (.int e.1.nominator) (.int e.1.denominator))) =
      .ok (l.map fun e => (.note e.2, some (.ints [e.1.nominator, e.1.denominator])))
  | [] => rfl
  | e :: l => by
    rw [List.map_cons, contentArgs, contentArgs_map l]
    rfl

theorem coerce_ints {s : Signature} (hs : s.Valid) :
    SigArg.coerce (.ints [s.nominator, s.denominator]) = SigArg.coerce (.sig s) := by
  rw [SigArg.coerce_ok_iff.mpr (.pair s.nominator s.denominator hs.1 hs.2)]
  rfl

theorem addContent_ints : ∀ (l : List Entry), (∀ e ∈ l, e.1.Valid) → ∀ t : Track,
    t.addContent (l.map fun e => (.note e.2, some (.ints [e.1.nominator, e.1.denominator]))) =
      t.addContent (l.map fun e => (.note e.2, some (.sig e.1)))
  | [], _, _ => rfl
  | e :: l, h, t => by
    have he : t.add (.note e.2) (some (.ints [e.1.nominator, e.1.denominator])) = t.add (.note e.2) (some (.sig e.1)) := by
      unfold Track.add
      simp only [coerce_ints (h e (by simp))]
    rw [List.map_cons, List.map_cons, Track.addContent, Track.addContent, he]
    congr 1
    funext t'
    exact addContent_ints l (fun x hx => h x (by simp [hx])) t'

theorem trackExpr_eval [UnicodeDigits] (F : FloatLiteral) (s : Signature) (hs : s.Valid) (l : List Entry)
    (h : ∀ e ∈ l, Writable e) :
    (trackExpr F s l).eval F = (Track.new (.sig s) (l.map fun e => (.note e.2, some (.sig e.1)))).map .track := by
  have e : (trackExpr F s l).eval F = callClass "Track".toList [(some "signature".toList,
      .pair (.int s.nominator) (.int s.denominator)), (some "content".toList,
      .list (l.map fun e => PyValue.pair (.note e.2) (.pair (.int e.1.nominator) (.int e.1.denominator))))] := by
    simp only [trackExpr, PyExpr.eval.eq_5, PyExpr.eval.eq_4, PyItems.eval, sigExpr_eval, contentExpr_eval F l h]
    simp only [bind, Except.bind, pure, Except.pure, List.map_map]
    rfl
  rw [e]
  simp only [callClass]
  rw [if_neg (by decide), if_neg (by decide), if_neg (by decide), if_pos trivial, if_pos (by decide), contentArgs_map]
  show (Track.new (.ints [s.nominator, s.denominator]) _ >>= _) = _
  have k : Track.new (.ints [s.nominator, s.denominator]) (l.map fun e => (.note e.2, some (.ints [e.1.nominator, e.1.denominator]))) =
      Track.new (.sig s) (l.map fun e => (.note e.2, some (.sig e.1))) := by
    unfold Track.new
    rw [coerce_ints hs]
    exact addContent_ints l (fun x hx => (h x hx).1) _
  rw [k]
  cases Track.new (.sig s) (l.map fun e => (.note e.2, some (.sig e.1))) <;> rfl

/-- From tokens to values. -/
theorem evalText_of [UnicodeDigits] (F : FloatLiteral) {text : List Char} {e : PyExpr} (h : tokens [] text = some e.toks)
    (hp : e.Plain) : evalText F text = some (e.eval F) := by
  unfold evalText
  rw [h]
  have := parseExpr_toks e (e.toks.length + 1) [] hp (by omega)
  rw [List.append_nil] at this
  show (parseExpr (e.toks.length + 1) e.toks >>= _) = _
  rw [this]
  rfl

end Melodia
