/-
Running scripts/generate_chords.py (Verif/Source/GenerateChordsModule.lean) on any table.
-/
import Verif.Lemmas.GeneratorText
import Mathlib.Tactic.IntervalCases
import Verif.Lemmas.PyLoops
import Verif.Lemmas.PyRuns
import Verif.Python.KernelRfl
import Verif.Spec.GeneratorRun

set_option autoImplicit false

namespace Melodia

open Melodia.Python

namespace Source

/-! ### The files of a memory -/

theorem files_push (h : Heap) (o : Obj) : (h.push o).files = h.files ++ (fileOf o).toList := by
  simp only [Heap.files, Heap.push, List.filterMap_append, List.filterMap_cons, List.filterMap_nil]
  cases fileOf o <;> rfl

theorem files_put {h : Heap} {a : Nat} {o o' : Obj} (ha : h.objs[a]? = some o) (ho : fileOf o = .none) (ho' : fileOf o' = .none) :
    (h.put a o').files = h.files := by
  have : ∀ (l : List Obj) (a : Nat), l[a]? = some o → (l.set a o').filterMap fileOf = l.filterMap fileOf := by
    intro l
    induction l with
    | nil => simp
    | cons x l ih =>
      intro a ha
      cases a with
      | zero => simp at ha; simp [ha, ho, ho']
      | succ a =>
        simp at ha
        simp [List.filterMap_cons, ih a ha]
  exact this _ _ ha

/-! ### The table -/

section
variable (W : World) (out : String) (table : List GenChord)

local notation "GP" => generatorProgram out table

theorem gen_global_chord : globalName GP W "generate_chords" "Chord" = pure (.cls "Chord") := by
  rw [globalName]; rfl
theorem gen_global_main : globalName GP W "generate_chords" "main" = pure (.func "generate_chords" "main") := by
  rw [globalName]; rfl
theorem gen_global_len : globalName GP W "generate_chords" "len" = pure (.builtin .len) := by
  rw [globalName]; rfl
theorem gen_global_abs : globalName GP W "generate_chords" "abs" = pure (.builtin .abs) := by
  rw [globalName]; rfl
theorem gen_global_str : globalName GP W "generate_chords" "str" = pure (.builtin .str) := by
  rw [globalName]; rfl
theorem gen_global_open : globalName GP W "generate_chords" "open" = pure (.builtin .openFile) := by
  rw [globalName]; rfl
theorem gen_global_argparse : globalName GP W "generate_chords" "argparse" = pure (.module "argparse") := by
  rw [globalName]; rfl

theorem gen_class_chord : (GP).classOf "Chord" = some Chord.classDef := rfl
theorem gen_init_chord : (GP).method "Chord" "__init__" = .none := rfl

/-- The value of a row as `chords` is computed; its intervals are at the address `n`. -/
def rowAt (g : GenChord) (n : Nat) : Val :=
  .obj "Chord" [("name", .str g.name.toList), ("full_name", .str g.fullName.toList), ("notation", .ref n)]

/-- The values of the rows; the intervals are at consecutive addresses. -/
def rowsAt : Nat → List GenChord → List Val
  | _, [] => []
  | n, g :: t => rowAt g n :: rowsAt (n + 1) t

/-- The value of a row. -/
def rowV (g : GenChord) : Val :=
  .obj "Chord" [("name", .str g.name.toList), ("full_name", .str g.fullName.toList),
    ("notation", .constList (g.notation'.map Val.int))]

/-- The lists of intervals. -/
def rowObjs (t : List GenChord) : List Obj := t.map fun g => .list (g.notation'.map Val.int)

theorem eval_int (n : Int) (env : Env) (h : Heap) : evalE GP W (intSource n) env h = some (.ok (.int n) h) := by
  unfold intSource
  split
  · rename_i hn
    pyrun [primNeg, asInt]
    rw [abs_of_neg hn, neg_neg]
  · rename_i hn
    pyrun []
    omega

theorem eval_ints (l : List Int) (env : Env) (h : Heap) :
    evalArgs GP W (l.map intSource) env h = some (.ok (l.map Val.int) h) := by
  induction l with
  | nil => rw [List.map_nil, evalArgs]; rfl
  | cons n l ih =>
    exact evalArgs_cons _ _ (by intro x; unfold intSource; split <;> simp) (eval_int W out table n env h) ih

theorem eval_row (g : GenChord) (env : Env) (henv : env.mod = "generate_chords") (hc : Dict.get env.vars "Chord" = .none) (h : Heap) :
    evalE GP W (rowSource g) env h =
      some (.ok (rowAt g h.objs.length) (h.push (.list (g.notation'.map Val.int)))) := by
  have hl := evalE_list GP W (eval_ints W out table g.notation' env h)
  have ha := evalArgs_cons GP W (by simp) (evalE_str GP W env g.name h) (evalArgs_cons GP W (by simp)
    (evalE_str GP W env g.fullName h) (evalArgs_cons GP W (by simp) hl (evalArgs_nil GP W env _)))
  rw [rowSource, evalE_call GP W (evalE_global GP W hc (by rw [henv]; exact gen_global_chord W out table) h) ha]
  pyrun [call, construct, bindParams, gen_class_chord out table, gen_init_chord out table, Chord.classDef]
  rfl

theorem eval_rows (env : Env) (henv : env.mod = "generate_chords") (hc : Dict.get env.vars "Chord" = .none) (t : List GenChord) (h : Heap) :
    evalArgs GP W (t.map rowSource) env h =
      some (.ok (rowsAt h.objs.length t) { h with objs := h.objs ++ rowObjs t }) := by
  induction t generalizing h with
  | nil => rw [List.map_nil, evalArgs]; simp [rowsAt, rowObjs]; rfl
  | cons g t ih =>
    refine (evalArgs_cons GP W (by simp [rowSource]) (eval_row W out table g env henv hc h) (ih _)).trans ?_
    simp [rowsAt, rowObjs, Heap.push]

/-! ### The names of the module -/

/-- The variables of the module, once `chords` has been assigned to. -/
def genVars (s : String) : List (String × Val) :=
  [("__name__", .str s.toList), ("indent", .str indentChars), ("file_template", .str fileTemplate.toList),
    ("function_template", .str functionTemplate.toList), ("chords", .ref table.length)]

/-- The memory then. -/
def genHeap : Heap := { objs := rowObjs table ++ [.list (rowsAt 0 table)], draws := 0 }

/-- The last statement. -/
def genGuard : Stmt := .ite (.cmp (.name "__name__") [.eq] [.str "__main__"]) [.expr (.call (.name "main") [] [])] []

theorem genInit_eq : generatorInit table = [.assign (.name "indent") (.bin .mul (.str " ") (.int 4)),
    .assign (.name "file_template") (.str fileTemplate), .assign (.name "function_template") (.str functionTemplate),
    .assign (.name "chords") (.list (table.map rowSource)), genGuard] := rfl

theorem rowObjs_length (t : List GenChord) : (rowObjs t).length = t.length := by simp [rowObjs]

theorem gen_init (s : String) : execB GP W (generatorInit table)
      { mod := "generate_chords", vars := [("__name__", .str s.toList)] } { objs := [], draws := 0 } =
    execB GP W [genGuard] { mod := "generate_chords", vars := genVars table s } (genHeap table) := by
  rw [genInit_eq]
  have h1 : execS GP W (.assign (.name "indent") (.bin .mul (.str " ") (.int 4)))
      { mod := "generate_chords", vars := [("__name__", .str s.toList)] } { objs := [], draws := 0 } =
      some (.ok (.next { mod := "generate_chords", vars := (genVars table s).take 2 }) { objs := [], draws := 0 }) := by
    pyrun [binary, primOp, toFloat, asInt, methodOf, instOf]
    rfl
  have h2 : execS GP W (.assign (.name "file_template") (.str fileTemplate))
      { mod := "generate_chords", vars := (genVars table s).take 2 } { objs := [], draws := 0 } =
      some (.ok (.next { mod := "generate_chords", vars := (genVars table s).take 3 }) { objs := [], draws := 0 }) :=
    execS_setname GP W (evalE_str GP W _ _ _) (by intro a; simp [genVars, Dict.get])
  have h3 : execS GP W (.assign (.name "function_template") (.str functionTemplate))
      { mod := "generate_chords", vars := (genVars table s).take 3 } { objs := [], draws := 0 } =
      some (.ok (.next { mod := "generate_chords", vars := (genVars table s).take 4 }) { objs := [], draws := 0 }) :=
    execS_setname GP W (evalE_str GP W _ _ _) (by intro a; simp [genVars, Dict.get])
  have h4 : execS GP W (.assign (.name "chords") (.list (table.map rowSource)))
      { mod := "generate_chords", vars := (genVars table s).take 4 } { objs := [], draws := 0 } =
      some (.ok (.next { mod := "generate_chords", vars := genVars table s }) (genHeap table)) := by
    rw [execS_setname GP W (evalE_list GP W (eval_rows W out table _ rfl rfl table _)) (by intro a; simp [genVars, Dict.get])]
    simp [genHeap, genVars, Env.set, Dict.set, Heap.push, rowObjs_length]
  rw [execB_next GP W h1, execB_next GP W h2, execB_next GP W h3, execB_next GP W h4]

theorem cmp_str (a b : List Char) : cmpPrim .eq (.str a) (.str b) = pure (.bool (decide (a = b))) := rfl

theorem gen_guard (env : Env) (s : String) (hs : s.toList ≠ "__main__".toList) (hn : Dict.get env.vars "__name__" = some (.str s.toList)) (h : Heap) :
    execB GP W [genGuard] env h = some (.ok (.next env) h) := by
  unfold genGuard
  pyrun [hn, hs, cmp_str]

theorem gen_var {x : String} {v v' : Val} (hg : Dict.get (genVars table "generate_chords") x = some v)
    (hx : (GP).global 4 "generate_chords" x = .none) (hb : builtinName x = .none) (hf : freeze (genHeap table) 100 v = some v') :
    globalName GP W "generate_chords" x = pure v' := by
  rw [globalName, hx]
  simp only [hb]
  ext1 h
  rw [moduleVar]
  have hi : (GP).init "generate_chords" = generatorInit table := rfl
  rw [hi, bind_apply, isolated, gen_init, gen_guard W out table _ "generate_chords" (by decide) rfl]
  simp only [hg]
  change orStuck (freeze (genHeap table) 100 v) h = _
  rw [hf]
  rfl

theorem gen_global_indent : globalName GP W "generate_chords" "indent" = pure (.str indentChars) :=
  gen_var W out table rfl rfl rfl rfl

theorem gen_global_file : globalName GP W "generate_chords" "file_template" = pure (.str fileTemplate.toList) :=
  gen_var W out table rfl rfl rfl rfl

theorem gen_global_function : globalName GP W "generate_chords" "function_template" = pure (.str functionTemplate.toList) :=
  gen_var W out table rfl rfl rfl rfl

theorem allSome_map {α β : Type} {f : α → Option β} {g : α → β} {l : List α} (h : ∀ x ∈ l, f x = some (g x)) :
    allSome (l.map f) = some (l.map g) := by
  induction l with
  | nil => rfl
  | cons x l ih =>
    rw [List.map_cons, h x (by simp), allSome, ih fun y hy => h y (by simp [hy])]
    rfl

theorem freeze_row (h : Heap) (n : Nat) (g : GenChord) (a : Nat) (ha : h.objs[a]? = some (.list (g.notation'.map Val.int))) :
    freeze h (n + 3) (rowAt g a) = some (rowV g) := by
  have hi : allSome (g.notation'.map (freeze h (n + 1) ∘ Val.int)) = some (g.notation'.map Val.int) :=
    allSome_map (g := Val.int) (by intro x _; rfl)
  simp [rowAt, rowV, freeze, allSome, ha, hi]

theorem freeze_rows (h : Heap) (n : Nat) (t : List GenChord) (k : Nat) (hk : ∀ i, i < t.length → h.objs[k + i]? = (rowObjs t)[i]?) :
    allSome ((rowsAt k t).map (freeze h (n + 3))) = some (t.map rowV) := by
  induction t generalizing k with
  | nil => rfl
  | cons g t ih =>
    have h0 := hk 0 (by simp)
    rw [rowsAt, List.map_cons, freeze_row h n g k (by simpa [rowObjs] using h0), allSome, ih]
    · rfl
    · intro i hi
      have := hk (i + 1) (by simpa using hi)
      rw [Nat.add_assoc, Nat.add_comm 1 i, this]
      simp [rowObjs]

theorem gen_global_chords : globalName GP W "generate_chords" "chords" = pure (.constList (table.map rowV)) := by
  refine gen_var W out table rfl rfl rfl ?_
  have h0 : (genHeap table).objs[table.length]? = some (.list (rowsAt 0 table)) := by
    simp [genHeap, rowObjs_length]
  change freeze (genHeap table) (96 + 3 + 1) _ = _
  rw [freeze]
  simp only [h0]
  rw [freeze_rows (genHeap table) 96 table 0]
  · rfl
  · intro i hi
    simp [genHeap, List.getElem?_append, rowObjs_length, hi]

/-! ### Methods of strings -/

theorem getAttr_str (s : List Char) {x : String} (hx : x = "join" ∨ x = "strip" ∨ x = "split" ∨ x = "format") (h : Heap) :
    getAttr GP W (.str s) x h = some (.ok (.meth (.str s) x) h) := by
  rw [getAttr]
  · rcases hx with rfl | rfl | rfl | rfl <;> simp [py, hasPrimAttr] <;> rfl
  all_goals simp

theorem gen_join (sep : List Char) {h : Heap} {a : Nat} {l : List (List Char)} (ha : h.objs[a]? = some (.list (l.map Val.str))) :
    call GP W (.meth (.str sep) "join") [.ref a] [] h = some (.ok (.str (joinChars sep l)) h) := by
  rw [call_prim GP W _ (by rfl) (by simp), primMeth]
  rw [bind_ok (load_ok ha)]
  simp only [joinStr_map]
  rfl

theorem call_strip (s : List Char) (h : Heap) :
    call GP W (.meth (.str s) "strip") [] [] h = some (.ok (.str (stripSpace s)) h) := by
  rw [call_prim GP W _ (by rfl) (by simp), primMeth]
  rfl

theorem call_split (s : List Char) (c : Char) (h : Heap) :
    call GP W (.meth (.str s) "split") [.str [c]] [] h =
      some (.ok (.ref h.objs.length) (h.push (.list ((splitAt c s).map Val.str)))) := by
  rw [call_prim GP W _ (by rfl) (by simp), primMeth]
  rfl

theorem call_format (s : List Char) (kws : List (String × Val)) (h : Heap) :
    call GP W (.meth (.str s) "format") [] kws h = strFormat W (.str s) [] kws h := by
  rw [call]
  simp only [py]

theorem fill_texts (kws : List (String × Val)) (s : List Char) (l : List TemplatePart) (h : Heap) {r : List Char}
    (hl : fillParts W kws l h = some (.ok r h)) : fillParts W kws (texts s ++ l) h = some (.ok (s ++ r) h) := by
  induction s with
  | nil => exact hl
  | cons c s ih =>
    change fillParts W kws (.text [c] :: (texts s ++ l)) h = _
    rw [fillParts, bind_ok ih]
    rfl

theorem fill_field (kws : List (String × Val)) {x : List Char} {v : Val} {s : List Char} (l : List TemplatePart) (h : Heap) {r : List Char}
    (hx : Dict.get kws (String.ofList x) = some v) (hv : formatNum W "" v = pure s)
    (hl : fillParts W kws l h = some (.ok r h)) : fillParts W kws (.field x :: l) h = some (.ok (s ++ r) h) := by
  rw [fillParts, hx]
  have h1 : (orStuck (some v) : M Val) h = some (.ok v h) := rfl
  have h2 : formatNum W "" v h = some (.ok s h) := by rw [hv]; rfl
  rw [bind_ok h1, bind_ok h2, bind_ok hl]
  rfl

attribute [local irreducible] functionTemplate fileTemplate stripSpace functionParts functionPart1 functionPart2 functionPart3 functionPart4 filePart

/-! ### The statements of `main` -/

theorem getAttr_append {h : Heap} {a : Nat} {l : List Val} (ha : h.objs[a]? = some (.list l)) :
    getAttr GP W (.ref a) "append" h = some (.ok (.meth (.ref a) "append") h) :=
  getAttr_ref_prim GP W ha (by rfl)

/-- `x.append(e)`. -/
theorem exec_append {env : Env} {x : String} {e : Expr} {a : Nat} {l : List Val} {v : Val} {h h1 : Heap}
    (hx : Dict.get env.vars x = some (.ref a)) (ha : h.objs[a]? = some (.list l)) (hne : ∀ y, e ≠ .star y)
    (he : evalE GP W e env h = some (.ok v h1)) (ha1 : h1.objs[a]? = some (.list l)) :
    execS GP W (.expr (.call (.attr (.name x) "append") [e] [])) env h = some (.ok (.next env) (h1.put a (.list (l ++ [v])))) := by
  refine execS_expr GP W (v := .none) ?_
  rw [evalE_call GP W (f := .attr (.name x) "append") (by
    rw [evalE_attr_of GP W (evalE_name GP W hx rfl h)]
    exact getAttr_append W out table ha) (evalArgs_cons GP W hne he (evalArgs_nil GP W _ _))]
  exact call_append GP W ha1 v

theorem row_notation {env : Env} {g : GenChord} (hc : Dict.get env.vars "chord" = some (rowV g)) (h : Heap) :
    evalE GP W (.attr (.name "chord") "notation") env h = some (.ok (.constList (g.notation'.map Val.int)) h) := by
  rw [evalE_attr_of GP W (evalE_name GP W hc rfl h), rowV, getAttr_field GP W _ _ _ (v := .constList (g.notation'.map Val.int)) rfl]
  rfl

theorem row_name {env : Env} {g : GenChord} (hc : Dict.get env.vars "chord" = some (rowV g)) (h : Heap) :
    evalE GP W (.attr (.name "chord") "name") env h = some (.ok (.str g.name.toList) h) := by
  rw [evalE_attr_of GP W (evalE_name GP W hc rfl h), rowV, getAttr_field GP W _ _ _ (v := .str g.name.toList) rfl]
  rfl

theorem row_full_name {env : Env} {g : GenChord} (hc : Dict.get env.vars "chord" = some (rowV g)) (h : Heap) :
    evalE GP W (.attr (.name "chord") "full_name") env h = some (.ok (.str g.fullName.toList) h) := by
  rw [evalE_attr_of GP W (evalE_name GP W hc rfl h), rowV, getAttr_field GP W _ _ _ (v := .str g.fullName.toList) rfl]
  rfl

theorem gen_len {env : Env} {g : GenChord} (hm : env.mod = "generate_chords") (hc : Dict.get env.vars "chord" = some (rowV g))
    (hl : Dict.get env.vars "len" = .none) (h : Heap) :
    evalE GP W (.call (.name "len") [.attr (.name "chord") "notation"] []) env h = some (.ok (.int g.notation'.length) h) := by
  rw [evalE_call GP W (evalE_global GP W hl (by rw [hm]; exact gen_global_len W out table) h)
    (evalArgs_cons GP W (by simp) (row_notation W out table hc h) (evalArgs_nil GP W _ _))]
  pyrun [call, callBuiltin_len, methodOf, instOf, primLen]

theorem gen_return_type {env : Env} {g : GenChord} (hm : env.mod = "generate_chords") (hc : Dict.get env.vars "chord" = some (rowV g))
    (hl : Dict.get env.vars "len" = .none) (h : Heap) :
    evalE GP W (.fstr [.str "Tuple[", .field (.call (.attr (.str ", ") "join") [.bin .mul (.list [.str "Note"])
        (.call (.name "len") [.attr (.name "chord") "notation"] [])] []) "", .str "]"]) env h =
      some (.ok (.str (returnType g.notation').toList) ((h.push (.list [.str "Note".toList])).push
        (.list ((List.replicate g.notation'.length "Note".toList).map Val.str)))) := by
  have h0 : evalE GP W (.call (.name "len") [.attr (.name "chord") "notation"] []) env (h.push (.list [.str "Note".toList])) =
      some (.ok (.int g.notation'.length) (h.push (.list [.str "Note".toList]))) := by
    exact gen_len W out table hm hc hl _
  have h1 : evalE GP W (.bin .mul (.list [.str "Note"]) (.call (.name "len") [.attr (.name "chord") "notation"] [])) env h =
      some (.ok (.ref (h.push (.list [.str "Note".toList])).objs.length) ((h.push (.list [.str "Note".toList])).push
        (.list ((List.replicate g.notation'.length "Note".toList).map Val.str)))) := by
    rw [evalE_bin GP W (evalE_list GP W (evalArgs_cons GP W (by simp) (evalE_str GP W env "Note" h) (evalArgs_nil GP W _ _))) h0]
    have hp := Heap.push_at h (.list [.str "Note".toList])
    pyrun [binary, primOp, toFloat, asInt, methodOf, hp]
  have h2 := evalE_call GP W (f := .attr (.str ", ") "join") (by
    rw [evalE_attr_of GP W (evalE_str GP W env ", " h)]
    exact getAttr_str W out table _ (.inl rfl) h) (evalArgs_cons GP W (by simp) h1 (evalArgs_nil GP W _ _))
  rw [gen_join W out table _ (Heap.push_at _ _)] at h2
  rw [returnType_text]
  refine evalE_fstr GP W (evalParts_cons GP W (evalE_str GP W _ _ _) (evalParts_cons GP W (evalE_field GP W h2 ?_)
    (evalParts_cons GP W (evalE_str GP W _ _ _) (evalParts_nil GP W _ _))))
  pyrun [format, formatNum]

theorem repr_chars (k : Nat) : (Nat.repr k).toList = natStr k := by
  have : ∀ f n, n < f → natDigitsAux f n = Nat.toDigits 10 n := by
    intro f
    induction f with
    | zero => intro n h; omega
    | succ f ih =>
      intro n h
      rw [natDigitsAux]
      split
      · rename_i h; interval_cases n <;> decide
      · rw [ih (n / 10) (by omega), Nat.toDigits_of_base_le (b := 10) (n := n) (by omega) (by omega)]
        congr 1
        have : n % 10 < 10 := Nat.mod_lt _ (by omega)
        generalize n % 10 = m at *
        interval_cases m <;> decide
  rw [Nat.repr, String.toList_ofList, natStr, this _ _ (by omega)]

theorem gen_statement {env : Env} {n : Int} (hm : env.mod = "generate_chords") (hn : Dict.get env.vars "n" = some (.int n))
    (ha : Dict.get env.vars "abs" = .none) (hs : ∀ a, Dict.get env.vars "statement" ≠ some (.cell a)) (h : Heap) :
    execS GP W (.ite (.cmp (.name "n") [.eq] [.int 0]) [
          .assign (.name "statement") (.str "Note(base_tone, base_duration, base_velocity)")] [
          .ite (.cmp (.name "n") [.gt] [.int 0]) [
            .assign (.name "statement") (.fstr [.str "Note(base_tone.transposed(+", .field (.call (.name "abs") [.name "n"] []) "", .str "), base_duration, base_velocity)"])] [
            .assign (.name "statement") (.fstr [.str "Note(base_tone.transposed(-", .field (.call (.name "abs") [.name "n"] []) "", .str "), base_duration, base_velocity)"])]]) env h =
      some (.ok (.next (env.set "statement" (.str (noteStatement n).toList))) h) := by
  have hb : ∀ sgn : String, evalE GP W (.fstr [.str sgn, .field (.call (.name "abs") [.name "n"] []) "", .str "), base_duration, base_velocity)"]) env h =
      some (.ok (.str (sgn.toList ++ (natStr n.natAbs ++ "), base_duration, base_velocity)".toList))) h) := by
    intro sgn
    have h0 : evalE GP W (.call (.name "abs") [.name "n"] []) env h = some (.ok (.int n.natAbs) h) := by
      pyrun [hm, hn, ha, gen_global_abs W out table, call, callBuiltin, primAbs]
    refine evalE_fstr GP W (evalParts_cons GP W (evalE_str GP W _ _ _) (evalParts_cons GP W (evalE_field GP W h0 ?_)
      (evalParts_cons GP W (evalE_str GP W _ _ _) (evalParts_nil GP W _ _)) ))
    have hi : intStr (n.natAbs : ℤ) = natStr n.natAbs := by
      rw [intStr, if_neg (by omega), Int.natAbs_natCast]
    rw [← hi]
    generalize ((n.natAbs : ℕ) : ℤ) = k
    pyrun [format, formatNum]
  have he : evalE GP W (.cmp (.name "n") [.eq] [.int 0]) env h = some (.ok (.bool (decide (n = 0))) h) := by
    pyrun [hn]
  have hg : evalE GP W (.cmp (.name "n") [.gt] [.int 0]) env h = some (.ok (.bool (decide (n > 0))) h) := by
    pyrun [hn]
  rw [execS_ite GP W _ _ he]
  by_cases h0 : n = 0
  · rw [if_pos (by simpa using h0), execB_next GP W (execS_setname GP W (evalE_str GP W _ _ _) hs), execB_nil]
    simp [noteStatement, h0]
  · rw [if_neg (by simpa using h0)]
    by_cases h1 : n > 0
    · rw [execB_next GP W (env1 := env.set "statement" (.str (noteStatement n).toList)) (h1 := h), execB_nil]
      rw [execS_ite GP W _ _ hg, if_pos (by simpa using h1), execB_next GP W (execS_setname GP W (hb _) hs), execB_nil]
      simp only [noteStatement, if_neg h0, if_pos h1, String.toList_append, repr_chars, List.append_assoc]
    · rw [execB_next GP W (env1 := env.set "statement" (.str (noteStatement n).toList)) (h1 := h), execB_nil]
      rw [execS_ite GP W _ _ hg, if_neg (by simpa using h1), execB_next GP W (execS_setname GP W (hb _) hs), execB_nil]
      simp only [noteStatement, if_neg h0, if_neg h1, String.toList_append, repr_chars, List.append_assoc]

theorem gen_indent {env : Env} (hm : env.mod = "generate_chords") (hi : Dict.get env.vars "indent" = .none) (h : Heap) :
    evalE GP W (.field (.name "indent") "") env h = some (.ok (.str indentChars) h) := by
  refine evalE_field GP W (evalE_global GP W hi (by rw [hm]; exact gen_global_indent W out table) h) ?_
  pyrun [format, formatNum]

theorem gen_return_statement {env : Env} {l : List Int} {a : Nat} (hm : env.mod = "generate_chords")
    (hi : Dict.get env.vars "indent" = .none) (hn : Dict.get env.vars "note_statements" = some (.ref a)) {h : Heap}
    (ha : h.objs[a]? = some (.list ((l.map fun n => (noteStatement n).toList).map Val.str))) :
    evalE GP W (.bin .add (.bin .add (.fstr [.str "(\n", .field (.name "indent") "", .field (.name "indent") ""])
        (.call (.attr (.fstr [.str ",\n", .field (.name "indent") "", .field (.name "indent") ""]) "join") [.name "note_statements"] []))
        (.fstr [.str "\n", .field (.name "indent") "", .str ")"])) env h =
      some (.ok (.str (returnStatement l)) h) := by
  have hI := gen_indent W out table hm hi h
  have h1 : ∀ s : String, evalE GP W (.fstr [.str s, .field (.name "indent") "", .field (.name "indent") ""]) env h =
      some (.ok (.str (s.toList ++ (indentChars ++ (indentChars ++ [])))) h) := fun s =>
    evalE_fstr GP W (evalParts_cons GP W (evalE_str GP W _ _ _) (evalParts_cons GP W hI (evalParts_cons GP W hI
      (evalParts_nil GP W _ _))))
  have h2 : evalE GP W (.fstr [.str "\n", .field (.name "indent") "", .str ")"]) env h =
      some (.ok (.str ("\n".toList ++ (indentChars ++ (")".toList ++ [])))) h) :=
    evalE_fstr GP W (evalParts_cons GP W (evalE_str GP W _ _ _) (evalParts_cons GP W hI (evalParts_cons GP W (evalE_str GP W _ _ _)
      (evalParts_nil GP W _ _))))
  have h3 := evalE_call GP W (f := .attr (.fstr [.str ",\n", .field (.name "indent") "", .field (.name "indent") ""]) "join") (by
    rw [evalE_attr_of GP W (h1 ",\n")]
    exact getAttr_str W out table _ (.inl rfl) h) (evalArgs_cons GP W (by simp) (evalE_name GP W hn rfl h) (evalArgs_nil GP W _ _))
  rw [gen_join W out table _ ha] at h3
  have hadd : ∀ s t : List Char, binary GP W .add (.str s) (.str t) h = some (.ok (.str (s ++ t)) h) := by
    intro s t
    pyrun [binary, primOp, toFloat, asInt, methodOf, instOf]
  have h4 := evalE_bin GP W (op := .add) (h1 "(\n") h3
  rw [hadd] at h4
  have h5 := evalE_bin GP W (op := .add) h4 h2
  rw [hadd] at h5
  rw [h5]
  simp only [List.append_nil, returnStatement]

theorem splitCommas_ne (s : List Char) : splitCommas s ≠ [] := by
  cases s with
  | nil => simp [splitCommas]
  | cons c s =>
    rw [splitCommas]
    split
    · simp
    · split <;> simp

theorem splitAt_commas (s : List Char) : splitAt ',' s = splitCommas s := by
  induction s with
  | nil => rfl
  | cons c s ih =>
    rw [splitAt, splitCommas, ih]
    cases hs : splitCommas s with
    | nil => exact absurd hs (splitCommas_ne s)
    | cons w ws => rfl

theorem format_of_parts {s : List Char} {ps : List TemplatePart} {kws : List (String × Val)} {r : List Char} {h : Heap}
    (hp : templateParts (s.length + 1) s = some ps) (hf : fillParts W kws ps h = some (.ok r h)) :
    strFormat W (.str s) [] kws h = some (.ok (.str r) h) := by
  have h1 : (orStuck (templateParts (s.length + 1) s) : M _) h = some (.ok ps h) := by rw [hp]; rfl
  rw [strFormat, bind_ok h1, bind_ok hf]
  rfl

theorem fill_function {kws : List (String × Val)} {name full rt rs : List Char} {n : Nat}
    (k1 : Dict.get kws "name" = some (.str name)) (k2 : Dict.get kws "full_name" = some (.str full))
    (k3 : Dict.get kws "number" = some (.int (n : Int))) (k4 : Dict.get kws "return_type" = some (.str rt))
    (k5 : Dict.get kws "return_statement" = some (.str rs)) (h : Heap) :
    fillParts W kws functionParts h = some (.ok (ch!"def " ++ (name ++ (functionPart1 ++ (rt ++ (functionPart2 ++ (full ++
      (functionPart3 ++ ((Nat.repr n).toList ++ (functionPart4 ++ rs))))))))) h) := by
  have e1 : String.ofList ch!"name" = "name" := rfl
  have e2 : String.ofList ch!"return_type" = "return_type" := rfl
  have e3 : String.ofList ch!"full_name" = "full_name" := rfl
  have e4 : String.ofList ch!"number" = "number" := rfl
  have e5 : String.ofList ch!"return_statement" = "return_statement" := rfl
  have hn' : formatNum W "" (.int (n : Int)) = pure (Nat.repr n).toList := by
    rw [repr_chars]
    rfl
  have f0 : fillParts W kws [] h = some (.ok [] h) := rfl
  have f1 := fill_field W kws (x := ch!"return_statement") _ h (by rw [e5]; exact k5) rfl f0
  have f2 := fill_field W kws (x := ch!"number") _ h (by rw [e4]; exact k3) hn' (fill_texts W kws functionPart4 _ h f1)
  have f3 := fill_field W kws (x := ch!"full_name") _ h (by rw [e3]; exact k2) rfl (fill_texts W kws functionPart3 _ h f2)
  have f4 := fill_field W kws (x := ch!"return_type") _ h (by rw [e2]; exact k4) rfl (fill_texts W kws functionPart2 _ h f3)
  have f5 := fill_field W kws (x := ch!"name") _ h (by rw [e1]; exact k1) rfl (fill_texts W kws functionPart1 _ h f4)
  have f6 := fill_texts W kws ch!"def " _ h f5
  rw [List.append_nil] at f6
  rw [functionParts]
  exact f6

theorem gen_function_of {T : List Char} (hT : templateParts (T.length + 1) T = some functionParts) (hg : stripSpace functionTemplate.toList = T) {env : Env} {g : GenChord} {name : List Char} (hm : env.mod = "generate_chords")
    (hc : Dict.get env.vars "chord" = some (rowV g)) (hl : Dict.get env.vars "len" = .none)
    (hf : Dict.get env.vars "function_template" = .none) (hn : Dict.get env.vars "name" = some (.str name))
    (hr : Dict.get env.vars "return_type" = some (.str (returnType g.notation').toList))
    (hs : Dict.get env.vars "return_statement" = some (.str (returnStatement g.notation'))) (h : Heap) :
    evalE GP W (.call (.attr (.call (.attr (.name "function_template") "strip") [] []) "format") [.call (.attr (.name "name") "strip") [] [], .attr (.name "chord") "full_name", .call (.name "len") [.attr (.name "chord") "notation"] [], .name "return_type", .name "return_statement"] ["name", "full_name", "number", "return_type", "return_statement"]) env h =
      some (.ok (.str (functionText (stripSpace name) g)) h) := by
  have h1 : evalE GP W (.call (.attr (.name "function_template") "strip") [] []) env h =
      some (.ok (.str T) h) := by
    rw [evalE_call GP W (by
      rw [evalE_attr_of GP W (evalE_global GP W hf (by rw [hm]; exact gen_global_function W out table) h)]
      exact getAttr_str W out table _ (.inr (.inl rfl)) h) (evalArgs_nil GP W _ _), call_strip, hg]
  have h2 : evalE GP W (.call (.attr (.name "name") "strip") [] []) env h = some (.ok (.str (stripSpace name)) h) := by
    rw [evalE_call GP W (by
      rw [evalE_attr_of GP W (evalE_name GP W hn rfl h)]
      exact getAttr_str W out table _ (.inr (.inl rfl)) h) (evalArgs_nil GP W _ _), call_strip]
  have h3 : evalE GP W (.attr (.call (.attr (.name "function_template") "strip") [] []) "format") env h =
      some (.ok (.meth (.str T) "format") h) := by
    rw [evalE_attr_of GP W h1]
    exact getAttr_str W out table _ (.inr (.inr (.inr rfl))) h
  have h4 := evalArgs_cons GP W (by simp) h2 (evalArgs_cons GP W (by simp) (row_full_name W out table hc h)
      (evalArgs_cons GP W (by simp) (gen_len W out table hm hc hl h) (evalArgs_cons GP W (by simp) (evalE_name GP W hr rfl h)
        (evalArgs_cons GP W (by simp) (evalE_name GP W hs rfl h) (evalArgs_nil GP W _ _)))))
  have h5 := evalE_call_kw GP W (es := []) (kws := ["name", "full_name", "number", "return_type", "return_statement"]) (by simp) h3 (evalArgs_nil GP W _ _) h4
  rw [List.nil_append] at h5
  rw [h5, call_format]
  exact format_of_parts W hT (fill_function W rfl rfl rfl rfl rfl h)

theorem gen_function {env : Env} {g : GenChord} {name : List Char} (hm : env.mod = "generate_chords")
    (hc : Dict.get env.vars "chord" = some (rowV g)) (hl : Dict.get env.vars "len" = .none)
    (hf : Dict.get env.vars "function_template" = .none) (hn : Dict.get env.vars "name" = some (.str name))
    (hr : Dict.get env.vars "return_type" = some (.str (returnType g.notation').toList))
    (hs : Dict.get env.vars "return_statement" = some (.str (returnStatement g.notation'))) (h : Heap) :
    evalE GP W (.call (.attr (.call (.attr (.name "function_template") "strip") [] []) "format") [.call (.attr (.name "name") "strip") [] [], .attr (.name "chord") "full_name", .call (.name "len") [.attr (.name "chord") "notation"] [], .name "return_type", .name "return_statement"] ["name", "full_name", "number", "return_type", "return_statement"]) env h =
      some (.ok (.str (functionText (stripSpace name) g)) h) :=
  gen_function_of W out table function_template_parts rfl hm hc hl hf hn hr hs h

theorem foldlM_pure {α β : Type} (f : β → α → β) (s : β) (xs : List α) :
    xs.foldlM (fun s x => (Except.ok (f s x) : PyM β)) s = .ok (xs.foldl f s) := by
  induction xs generalizing s with
  | nil => rfl
  | cons x xs ih => rw [List.foldlM_cons, List.foldl_cons]; exact ih _

/-- A `for` statement whose body always ends normally. -/
theorem for_runs {P : Program} {σ α : Type} {x : String} {e : Expr} {v : Val} {body : List Stmt} {it : Val} {xs : List α} {g : α → Val}
    (I : σ → Env → Heap → Prop) (f : σ → α → σ) {s : σ} {env : Env} {h h1 h2 : Heap}
    (he : evalE P W e env h = some (.ok v h1)) (hg : getIter P W v h1 = some (.ok it h2)) (hit : ∀ m b vs, it ≠ .gen m b vs)
    (hl : ∀ s env h, I s env h → ∀ i, itemAt h it i = (xs.map g)[i]?)
    (hstep : ∀ s env h y, y ∈ xs → I s env h → ∃ env' h', execB P W body (env.set x (g y)) h = some (.ok (.next env') h') ∧
      I (f s y) env' h') (hI : I s env h2) :
    ∃ env' h', execS P W (.for (.name x) e body) env h = some (.ok (.next env') h') ∧ I (xs.foldl f s) env' h' := by
  have := for_ends (P := P) (W := W) (p := .name x) (body := body) (g := g) (xs := xs) I (fun _ => False)
    (fun s y => .ok (f s y)) he hg hit hl (by
      intro s env h y hy hI
      obtain ⟨env', h', h1, h2⟩ := hstep s env h y hy hI
      exact ⟨_, rfl, _, _, h1, _, .inl rfl, h2⟩) hI
  rw [foldlM_pure] at this
  obtain ⟨r, h', h1, env', rfl, h2⟩ := this
  exact ⟨env', h', h1, h2⟩

/-- The names `main` reads that are not its own. -/
def genNone : List (String × Option Val) :=
  [("argparse", .none), ("str", .none), ("chords", .none), ("len", .none), ("abs", .none), ("indent", .none),
    ("function_template", .none), ("file_template", .none), ("open", .none)]

/-- The variables of `main` in front of its loop. -/
def genEnv (F : Nat) (args : Val) : List (String × Option Val) := ("functions", some (.ref F)) :: ("args", some args) :: genNone

/-- The variables of `main` in its loop. -/
def genRowEnv (F : Nat) (args : Val) (g : GenChord) : List (String × Option Val) :=
  ("return_type", some (.str (returnType g.notation').toList)) :: ("chord", some (rowV g)) :: genEnv F args

theorem iter_const (l : List Val) (h : Heap) : getIter GP W (.constList l) h = some (.ok (.constList l) h) := by
  rw [getIter]
  pyrun [methodOf, instOf, primIter]

theorem gen_notes {F N : Nat} {args : Val} {g : GenChord} {env : Env} {o : Obj}
    (H : Has "generate_chords" env (("note_statements", some (.ref N)) :: genRowEnv F args g)) {h : Heap}
    (hN : h.objs[N]? = some (.list [])) (hF : h.objs[F]? = some o) (hne : F ≠ N) :
    ∃ env' h', execS GP W (.for (.name "n") (.attr (.name "chord") "notation") [
        .ite (.cmp (.name "n") [.eq] [.int 0]) [
          .assign (.name "statement") (.str "Note(base_tone, base_duration, base_velocity)")] [
          .ite (.cmp (.name "n") [.gt] [.int 0]) [
            .assign (.name "statement") (.fstr [.str "Note(base_tone.transposed(+", .field (.call (.name "abs") [.name "n"] []) "", .str "), base_duration, base_velocity)"])] [
            .assign (.name "statement") (.fstr [.str "Note(base_tone.transposed(-", .field (.call (.name "abs") [.name "n"] []) "", .str "), base_duration, base_velocity)"])]],
        .expr (.call (.attr (.name "note_statements") "append") [.name "statement"] [])]) env h = some (.ok (.next env') h') ∧
      Has "generate_chords" env' (("note_statements", some (.ref N)) :: genRowEnv F args g) ∧
      h'.objs[N]? = some (.list ((g.notation'.map fun n => (noteStatement n).toList).map Val.str)) ∧ h'.objs[F]? = some o ∧
      h'.files = h.files := by
  have := for_runs W (P := GP) (x := "n") (xs := g.notation') (g := Val.int) (s := [])
    (fun (l : List Int) env' h' => Has "generate_chords" env' (("note_statements", some (.ref N)) :: genRowEnv F args g) ∧
      h'.objs[N]? = some (.list ((l.map fun n => (noteStatement n).toList).map Val.str)) ∧ h'.objs[F]? = some o ∧
      h'.files = h.files) (fun l n => l ++ [n])
    (row_notation W out table (g := g) (H.get ("chord", some (rowV g)) (by simp [genRowEnv])) h) (iter_const W out table _ h) (by simp)
    (fun _ _ _ _ _ => rfl) (by
      rintro l env h1 n - ⟨H, hN, hF, hf⟩
      have H1 := H.set "n" (v := .int n) (by simp) (by simp [genRowEnv, genEnv, genNone])
      have H2 := H1.set "statement" (v := .str (noteStatement n).toList) (by simp) (by simp [genRowEnv, genEnv, genNone])
      refine ⟨_, _, ?_, H2.weaken (by intro p hp; simp [hp]), Heap.put_at hN (o := .list (((l ++ [n]).map fun n => (noteStatement n).toList).map Val.str)), ?_, ?_⟩
      · rw [execB_next GP W (gen_statement W out table H1.mod (H1.get ("n", some (.int n)) (by simp)) (H1.get ("abs", .none) (by simp [genRowEnv, genEnv, genNone]))
          (H1.cell _) h1), execB_next GP W (exec_append W out table (H2.get ("note_statements", some (.ref N)) (by simp)) hN (by simp)
            (H2.name GP W (x := "statement") (v := .str (noteStatement n).toList) (by simp) h1) hN), execB_nil, List.map_append, List.map_append]
        rfl
      · rw [Heap.put_ne hne, hF]
      · rw [files_put hN rfl rfl, hf]) ⟨H, hN, hF, rfl⟩
  obtain ⟨env', h', h1, h2, h3, h4⟩ := this
  refine ⟨env', h', h1, h2, ?_, h4⟩
  have hfold : ∀ (xs l : List Int), xs.foldl (fun l n => l ++ [n]) l = l ++ xs := by
    intro xs
    induction xs with
    | nil => simp
    | cons x xs ih => intro l; rw [List.foldl_cons, ih]; simp
  rw [hfold, List.nil_append] at h3
  exact h3

/-- The texts of the functions for a row. -/
def rowTexts (g : GenChord) : List (List Char) := (splitCommas g.name.toList).map fun n => functionText (stripSpace n) g

theorem gen_names {F : Nat} {args : Val} {g : GenChord} {env : Env} {fs : List (List Char)}
    (H : Has "generate_chords" env (("return_statement", some (.str (returnStatement g.notation'))) :: genRowEnv F args g)) {h : Heap}
    (hF : h.objs[F]? = some (.list (fs.map Val.str))) :
    ∃ env' h', execS GP W (.for (.name "name") (.call (.attr (.attr (.name "chord") "name") "split") [.str ","] []) [
        .expr (.call (.attr (.name "functions") "append") [.call (.attr (.call (.attr (.name "function_template") "strip") [] []) "format") [.call (.attr (.name "name") "strip") [] [], .attr (.name "chord") "full_name", .call (.name "len") [.attr (.name "chord") "notation"] [], .name "return_type", .name "return_statement"] ["name", "full_name", "number", "return_type", "return_statement"]] [])]) env h =
        some (.ok (.next env') h') ∧ Has "generate_chords" env' (genEnv F args) ∧
      h'.objs[F]? = some (.list ((fs ++ rowTexts g).map Val.str)) ∧ h'.files = h.files := by
  have hs := evalE_call GP W (f := .attr (.attr (.name "chord") "name") "split") (es := [.str ","]) (by
    rw [evalE_attr_of GP W (row_name W out table (g := g) (H.get ("chord", some (rowV g)) (by simp [genRowEnv])) h)]
    exact getAttr_str W out table _ (.inr (.inr (.inl rfl))) h) (evalArgs_cons GP W (by simp) (evalE_str GP W _ _ _) (evalArgs_nil GP W _ _))
  have hc : ",".toList = [','] := rfl
  rw [hc, call_split, splitAt_commas] at hs
  set K := h.objs.length with hK
  have hne : F ≠ K := (lt_of_at hF).ne
  have := for_runs W (P := GP) (x := "name") (xs := splitCommas g.name.toList) (g := Val.str) (s := [])
    (fun (l : List (List Char)) env' h' => Has "generate_chords" env' (("return_statement", some (.str (returnStatement g.notation'))) :: genRowEnv F args g) ∧
      h'.objs[K]? = some (.list ((splitCommas g.name.toList).map Val.str)) ∧
      h'.objs[F]? = some (.list ((fs ++ l.map fun n => functionText (stripSpace n) g).map Val.str)) ∧ h'.files = h.files)
    (fun l n => l ++ [n]) hs (getIter_ref_list GP W (Heap.push_at _ _)) (by simp)
    (by
      rintro l env h1 ⟨H, hK, hF, hf⟩ i
      simp only [itemAt, hK]) (by
      rintro l env h1 n - ⟨H, hK, hF, hf⟩
      have H1 := H.set "name" (v := .str n) (by simp) (by simp [genRowEnv, genEnv, genNone])
      have hfun := gen_function W out table (g := g) (name := n) H1.mod (H1.get ("chord", some (rowV g)) (by simp [genRowEnv]))
        (H1.get ("len", .none) (by simp [genRowEnv, genEnv, genNone])) (H1.get ("function_template", .none) (by simp [genRowEnv, genEnv, genNone]))
        (H1.get ("name", some (.str n)) (by simp)) (H1.get ("return_type", some (.str (returnType g.notation').toList)) (by simp [genRowEnv])) (H1.get ("return_statement", some (.str (returnStatement g.notation'))) (by simp)) h1
      refine ⟨_, _, ?_, H1.weaken (by intro p hp; simp [hp]), ?_, Heap.put_at hF (o := .list ((fs ++ (l ++ [n]).map fun n => functionText (stripSpace n) g).map Val.str)), ?_⟩
      · rw [execB_next GP W (exec_append W out table (H1.get ("functions", some (.ref F)) (by simp [genRowEnv, genEnv])) hF (by simp) hfun hF), execB_nil,
          List.map_append, List.map_append, List.map_append, List.map_append, List.append_assoc]
        rfl
      · rw [Heap.put_ne hne.symm, hK]
      · rw [files_put hF rfl rfl, hf]) ⟨H, Heap.push_at _ _, by rw [List.map_nil, List.append_nil]; exact Heap.push_old hF, by
        rw [files_push]; exact List.append_nil _⟩
  obtain ⟨env', h', h1, h2, -, h3, h4⟩ := this
  refine ⟨env', h', h1, h2.weaken (by intro p hp; simp [genRowEnv, hp]), ?_, h4⟩
  have hfold : ∀ (xs l : List (List Char)), xs.foldl (fun l n => l ++ [n]) l = l ++ xs := by
    intro xs
    induction xs with
    | nil => simp
    | cons x xs ih => intro l; rw [List.foldl_cons, ih]; simp
  rw [hfold, List.nil_append] at h3
  exact h3

/-- The body of the loop of `main` over the table. -/
def genBody : List Stmt := [
      .assign (.name "return_type") (.fstr [.str "Tuple[", .field (.call (.attr (.str ", ") "join") [.bin .mul (.list [.str "Note"]) (.call (.name "len") [.attr (.name "chord") "notation"] [])] []) "", .str "]"]),
      .assign (.name "note_statements") (.list []),
      .for (.name "n") (.attr (.name "chord") "notation") [
        .ite (.cmp (.name "n") [.eq] [.int 0]) [
          .assign (.name "statement") (.str "Note(base_tone, base_duration, base_velocity)")] [
          .ite (.cmp (.name "n") [.gt] [.int 0]) [
            .assign (.name "statement") (.fstr [.str "Note(base_tone.transposed(+", .field (.call (.name "abs") [.name "n"] []) "", .str "), base_duration, base_velocity)"])] [
            .assign (.name "statement") (.fstr [.str "Note(base_tone.transposed(-", .field (.call (.name "abs") [.name "n"] []) "", .str "), base_duration, base_velocity)"])]],
        .expr (.call (.attr (.name "note_statements") "append") [.name "statement"] [])],
      .assign (.name "return_statement") (.bin .add (.bin .add (.fstr [.str "(\n", .field (.name "indent") "", .field (.name "indent") ""]) (.call (.attr (.fstr [.str ",\n", .field (.name "indent") "", .field (.name "indent") ""]) "join") [.name "note_statements"] [])) (.fstr [.str "\n", .field (.name "indent") "", .str ")"])),
      .for (.name "name") (.call (.attr (.attr (.name "chord") "name") "split") [.str ","] []) [
        .expr (.call (.attr (.name "functions") "append") [.call (.attr (.call (.attr (.name "function_template") "strip") [] []) "format") [.call (.attr (.name "name") "strip") [] [], .attr (.name "chord") "full_name", .call (.name "len") [.attr (.name "chord") "notation"] [], .name "return_type", .name "return_statement"] ["name", "full_name", "number", "return_type", "return_statement"]] [])]]

/-- The last two statements of `main`. -/
def genLast : List Stmt := [
    .assign (.name "functions_formatted") (.call (.attr (.str "\n\n\n") "join") [.name "functions"] []),
    .withAs (.call (.name "open") [.attr (.name "args") "output", .str "w"] []) "f" [
      .expr (.call (.attr (.name "f") "write") [.bin .add (.call (.attr (.call (.attr (.name "file_template") "strip") [] []) "format") [.name "functions_formatted"] ["functions"]) (.str "\n")] [])]]

theorem genMain_eq : generateChords.main.body = [
    .assign (.name "parser") (.call (.attr (.name "argparse") "ArgumentParser") [] []),
    .expr (.call (.attr (.name "parser") "add_argument") [.str "output", .str "output file", .name "str"] ["help", "type"]),
    .assign (.name "args") (.call (.attr (.name "parser") "parse_args") [] []),
    .assign (.name "functions") (.list []),
    .for (.name "chord") (.name "chords") genBody] ++ genLast := rfl

theorem gen_body {F : Nat} {args : Val} {g : GenChord} {env : Env} {fs : List (List Char)}
    (H : Has "generate_chords" env (("chord", some (rowV g)) :: genEnv F args)) {h : Heap}
    (hF : h.objs[F]? = some (.list (fs.map Val.str))) :
    ∃ env' h', execB GP W genBody env h = some (.ok (.next env') h') ∧ Has "generate_chords" env' (genEnv F args) ∧
      h'.objs[F]? = some (.list ((fs ++ rowTexts g).map Val.str)) ∧ h'.files = h.files := by
  have h1 := execS_setname GP W (y := "return_type") (gen_return_type W out table (g := g) H.mod
    (H.get ("chord", some (rowV g)) (by simp)) (H.get ("len", .none) (by simp [genEnv, genNone])) h) (H.cell _)
  have H1 := H.set "return_type" (v := .str (returnType g.notation').toList) (by simp) (by simp [genEnv, genNone])
  set h1' := ((h.push (.list [.str "Note".toList])).push
        (.list ((List.replicate g.notation'.length "Note".toList).map Val.str))) with hh1
  have hF1 : h1'.objs[F]? = some (.list (fs.map Val.str)) := Heap.push_old (Heap.push_old hF)
  have hf1 : h1'.files = h.files := by
    rw [hh1, files_push, files_push]
    exact (List.append_nil _).trans (List.append_nil _)
  have h2 := execS_setname GP W (y := "note_statements") (evalE_list GP W (evalArgs_nil GP W (env.set "return_type" (.str (returnType g.notation').toList)) h1')) (H1.cell _)
  have H2 := H1.set "note_statements" (v := .ref h1'.objs.length) (by simp) (by simp [genEnv, genNone])
  have hf2 : (h1'.push (.list [])).files = h.files := by
    rw [files_push, hf1]
    exact List.append_nil _
  obtain ⟨env3, h3', h3, H3, hN3, hF3, hf3⟩ := gen_notes W out table (N := h1'.objs.length) (F := F) (args := args) (g := g)
    H2 (Heap.push_at h1' (.list [])) (Heap.push_old hF1) (lt_of_at hF1).ne
  have h4 := execS_setname GP W (y := "return_statement") (gen_return_statement W out table (l := g.notation') H3.mod
    (H3.get ("indent", .none) (by simp [genRowEnv, genEnv, genNone])) (H3.get ("note_statements", some (.ref h1'.objs.length)) (by simp)) hN3) (H3.cell _)
  have H4 := (H3.weaken (l' := genRowEnv F args g) (by intro p hp; simp [hp])).set "return_statement"
    (v := .str (returnStatement g.notation')) (by simp) (by simp [genRowEnv, genEnv, genNone])
  obtain ⟨env5, h5', h5, H5, hF5, hf5⟩ := gen_names W out table H4 hF3
  refine ⟨env5, h5', ?_, H5, hF5, by rw [hf5, hf3, hf2]⟩
  rw [genBody, execB_next GP W h1, execB_next GP W h2, execB_next GP W h3, execB_next GP W h4, execB_next GP W h5, execB_nil]

theorem gen_loop {F : Nat} {args : Val} {env : Env} (H : Has "generate_chords" env (genEnv F args)) {h : Heap}
    (hF : h.objs[F]? = some (.list [])) :
    ∃ env' h', execS GP W (.for (.name "chord") (.name "chords") genBody) env h = some (.ok (.next env') h') ∧
      Has "generate_chords" env' (genEnv F args) ∧
      h'.objs[F]? = some (.list ((table.flatMap rowTexts).map Val.str)) ∧ h'.files = h.files := by
  have := for_runs W (P := GP) (x := "chord") (body := genBody) (xs := table) (g := rowV) (s := [])
    (fun (fs : List (List Char)) env' h' => Has "generate_chords" env' (genEnv F args) ∧
      h'.objs[F]? = some (.list (fs.map Val.str)) ∧ h'.files = h.files) (fun fs g => fs ++ rowTexts g)
    (H.global GP W (x := "chords") (by simp [genEnv, genNone]) (gen_global_chords W out table) h) (iter_const W out table _ h) (by simp)
    (fun _ _ _ _ _ => rfl) (by
      rintro fs env h1 g - ⟨H, hF, hf⟩
      obtain ⟨env2, h2, e2, H2, hF2, hf2⟩ := gen_body W out table (g := g) (H.set "chord" (v := rowV g) (by simp [rowV]) (by simp [genEnv, genNone])) hF
      exact ⟨env2, h2, e2, H2, hF2, by rw [hf2, hf]⟩) ⟨H, hF, rfl⟩
  obtain ⟨env', h', h1, h2, h3, h4⟩ := this
  refine ⟨env', h', h1, h2, ?_, h4⟩
  have hfold : ∀ (xs : List GenChord) (l : List (List Char)), xs.foldl (fun l n => l ++ rowTexts n) l = l ++ xs.flatMap rowTexts := by
    intro xs
    induction xs with
    | nil => simp
    | cons x xs ih => intro l; rw [List.foldl_cons, ih]; simp
  rw [hfold, List.nil_append] at h3
  exact h3

/-- The value of `argparse.ArgumentParser()`. -/
def parserV : Val := .obj "ArgumentParser" []
/-- The value of `parser.parse_args()`. -/
def argsV (out : String) : Val := .obj "Namespace" [("output", .str out.toList)]

theorem gen_parser {env : Env} (hm : env.mod = "generate_chords") (ha : Dict.get env.vars "argparse" = .none) (h : Heap) :
    evalE GP W (.call (.attr (.name "argparse") "ArgumentParser") [] []) env h = some (.ok parserV h) := by
  have h1 : getAttr GP W (.module "argparse") "ArgumentParser" h = some (.ok (.cls "ArgumentParser") h) := by
    have h1 : stdName "argparse" "ArgumentParser" = .none := rfl
    have h2 : (GP).global 4 "argparse" "ArgumentParser" = some (.cls "ArgumentParser") := rfl
    pyrun [getAttr, instOf, h1, h2]
  rw [evalE_call GP W (by rw [evalE_attr_of GP W (evalE_global GP W ha (by rw [hm]; exact gen_global_argparse W out table) h)]; exact h1) (evalArgs_nil GP W _ _)]
  have h2 : (GP).classOf "ArgumentParser" = some (argparseParser out) := rfl
  have h3 : (GP).method "ArgumentParser" "__init__" = .none := rfl
  pyrun [call, construct, bindParams, h2, h3, argparseParser]
  rfl

theorem gen_add {env : Env} (H : Has "generate_chords" env (("parser", some parserV) :: genNone)) (h : Heap) :
    execS GP W (.expr (.call (.attr (.name "parser") "add_argument") [.str "output", .str "output file", .name "str"] ["help", "type"])) env h =
      some (.ok (.next env) h) := by
  have h2 : (GP).method "ArgumentParser" "add_argument" = some { name := "add_argument", mod := "argparse", params := [("self", none), ("name", none), ("help", none), ("type", none)], body := [.pass] } := rfl
  have h1 : getAttr GP W parserV "add_argument" h = some (.ok (.meth parserV "add_argument") h) := by
    pyrun [getAttr, instOf, parserV, h2]
  refine execS_expr GP W (v := .none) ?_
  have h6 := evalE_call_kw GP W (es := [.str "output"]) (ks := [.str "output file", .name "str"]) (kws := ["help", "type"]) (by simp) (by
      rw [evalE_attr_of GP W (H.name GP W (x := "parser") (v := parserV) (by simp) h)]
      exact h1) (evalArgs_cons GP W (by simp) (evalE_str GP W _ _ _) (evalArgs_nil GP W _ _)) (evalArgs_cons GP W (by simp) (evalE_str GP W _ _ _)
    (evalArgs_cons GP W (by simp) (H.global GP W (x := "str") (by simp [genNone]) (gen_global_str W out table) h) (evalArgs_nil GP W _ _)))
  rw [List.cons_append, List.nil_append] at h6
  rw [h6]
  pyrun [call, callFun, bindParams, parserV, boundMethod, methodOf, instOf, h2]

theorem gen_args {env : Env} (H : Has "generate_chords" env (("parser", some parserV) :: genNone)) (h : Heap) :
    evalE GP W (.call (.attr (.name "parser") "parse_args") [] []) env h = some (.ok (argsV out) h) := by
  have h2 : (GP).method "ArgumentParser" "parse_args" = some
    { name := "parse_args", mod := "argparse", params := [("self", none)], body := [.ret (.call (.name "Namespace") [.str out] [])] } := rfl
  have h1 : getAttr GP W parserV "parse_args" h = some (.ok (.meth parserV "parse_args") h) := by
    pyrun [getAttr, instOf, parserV, h2]
  rw [evalE_call GP W (by
      rw [evalE_attr_of GP W (H.name GP W (x := "parser") (v := parserV) (by simp) h)]
      exact h1) (evalArgs_nil GP W _ _)]
  have h3 : globalName GP W "argparse" "Namespace" = pure (.cls "Namespace") := by rw [globalName]; rfl
  have h4 : (GP).classOf "Namespace" = some argparseNamespace := rfl
  have h5 : (GP).method "Namespace" "__init__" = .none := rfl
  pyrun [call, callFun, construct, bindParams, parserV, boundMethod, methodOf, instOf, h2, h3, h4, h5, argparseNamespace]
  rfl

theorem gen_output {env : Env} (ha : Dict.get env.vars "args" = some (argsV out)) (h : Heap) :
    evalE GP W (.attr (.name "args") "output") env h = some (.ok (.str out.toList) h) := by
  rw [evalE_attr_of GP W (evalE_name GP W ha rfl h), argsV, getAttr_field GP W _ _ _ (v := .str out.toList) rfl]
  rfl

theorem gen_file {T : List Char} (hT : templateParts (T.length + 1) T = some (texts filePart ++ [.field ch!"functions"]))
    (hg : stripSpace fileTemplate.toList = T) {env : Env} {s : List Char} (hm : env.mod = "generate_chords")
    (hf : Dict.get env.vars "file_template" = .none) (hs : Dict.get env.vars "functions_formatted" = some (.str s)) (h : Heap) :
    evalE GP W (.bin .add (.call (.attr (.call (.attr (.name "file_template") "strip") [] []) "format") [.name "functions_formatted"] ["functions"]) (.str "\n")) env h =
      some (.ok (.str (filePart ++ s ++ ['\n'])) h) := by
  have h1 : evalE GP W (.call (.attr (.name "file_template") "strip") [] []) env h = some (.ok (.str T) h) := by
    rw [evalE_call GP W (by
      rw [evalE_attr_of GP W (evalE_global GP W hf (by rw [hm]; exact gen_global_file W out table) h)]
      exact getAttr_str W out table _ (.inr (.inl rfl)) h) (evalArgs_nil GP W _ _), call_strip, hg]
  have h3 : evalE GP W (.attr (.call (.attr (.name "file_template") "strip") [] []) "format") env h = some (.ok (.meth (.str T) "format") h) := by
    rw [evalE_attr_of GP W h1]
    exact getAttr_str W out table _ (.inr (.inr (.inr rfl))) h
  have h5 := evalE_call_kw GP W (es := []) (kws := ["functions"]) (by simp) h3 (evalArgs_nil GP W _ _)
    (evalArgs_cons GP W (by simp) (evalE_name GP W hs rfl h) (evalArgs_nil GP W _ _))
  rw [List.nil_append, call_format] at h5
  have hfill : fillParts W [("functions", .str s)] (texts filePart ++ [.field ch!"functions"]) h = some (.ok (filePart ++ (s ++ [])) h) :=
    fill_texts W _ filePart _ h (fill_field W _ [] h rfl rfl rfl)
  have h6 := format_of_parts W hT hfill
  have h7 := evalE_bin GP W (op := .add) (h5.trans h6) (evalE_str GP W env "\n" h)
  have hadd : ∀ s t : List Char, binary GP W .add (.str s) (.str t) h = some (.ok (.str (s ++ t)) h) := by
    intro s t
    pyrun [binary, primOp, toFloat, asInt, methodOf, instOf]
  rw [h7, hadd, List.append_nil]
  rfl

theorem instOf_ref_text {h : Heap} {a : Nat} {n s : List Char} (ha : h.objs[a]? = some (.text n s)) :
    instOf (.ref a) h = some (.ok .none h) := by
  rw [instOf, bind_ok (load_ok ha)]
  rfl

theorem put_push (h : Heap) (o o' : Obj) : (h.push o).put h.objs.length o' = h.push o' := by
  simp [Heap.push, Heap.put]

theorem gen_last {F : Nat} {env : Env} {fs : List (List Char)} (H : Has "generate_chords" env (genEnv F (argsV out))) {h : Heap}
    (hF : h.objs[F]? = some (.list (fs.map Val.str))) :
    ∃ env' h', execB GP W genLast env h = some (.ok (.next env') h') ∧
      h'.files = h.files ++ [(some out.toList, .inl (filePart ++ joinChars "\n\n\n".toList fs ++ ['\n']))] := by
  have h1 := execS_setname GP W (y := "functions_formatted") (e := .call (.attr (.str "\n\n\n") "join") [.name "functions"] []) (by
    rw [evalE_call GP W (f := .attr (.str "\n\n\n") "join") (by
      rw [evalE_attr_of GP W (evalE_str GP W env _ h)]
      exact getAttr_str W out table _ (.inl rfl) h) (evalArgs_cons GP W (by simp) (H.name GP W (x := "functions") (v := .ref F) (by simp [genEnv]) h) (evalArgs_nil GP W _ _))]
    exact gen_join W out table _ hF) (H.cell _)
  have H1 := H.set "functions_formatted" (v := .str (joinChars "\n\n\n".toList fs)) (by simp) (by simp [genEnv, genNone])
  have h2 : evalE GP W (.call (.name "open") [.attr (.name "args") "output", .str "w"] []) (env.set "functions_formatted" (.str (joinChars "\n\n\n".toList fs))) h =
      some (.ok (.ref h.objs.length) (h.push (.text out.toList []))) := by
    rw [evalE_call GP W (H1.global GP W (x := "open") (by simp [genEnv, genNone]) (gen_global_open W out table) h)
      (evalArgs_cons GP W (by simp) (gen_output W out table (H1.get ("args", some (argsV out)) (by simp [genEnv])) h)
        (evalArgs_cons GP W (by simp) (evalE_str GP W _ _ _) (evalArgs_nil GP W _ _)))]
    pyrun [call, callBuiltin, primCall]
    rfl
  have H2 := H1.set "f" (v := .ref h.objs.length) (by simp) (by simp [genEnv, genNone])
  have h3 := gen_file W out table file_template_parts rfl H2.mod (H2.get ("file_template", .none) (by simp [genEnv, genNone]))
    (H2.get ("functions_formatted", some (.str (joinChars "\n\n\n".toList fs))) (by simp)) (h.push (.text out.toList []))
  have hat := Heap.push_at h (.text out.toList [])
  have h4 : getAttr GP W (.ref h.objs.length) "write" (h.push (.text out.toList [])) =
      some (.ok (.meth (.ref h.objs.length) "write") (h.push (.text out.toList []))) := by
    rw [getAttr.eq_def, bind_ok (instOf_ref_text hat)]
    simp only []
    rw [bind_ok (objAt_ref_ok hat)]
    rfl
  have h5 : ∀ s, call GP W (.meth (.ref h.objs.length) "write") [.str s] [] (h.push (.text out.toList [])) =
      some (.ok (.int s.length) ((h.push (.text out.toList [])).put h.objs.length (.text out.toList s))) := by
    intro s
    have hb : boundMethod GP (.ref h.objs.length) "write" (h.push (.text out.toList [])) = some (.ok .none (h.push (.text out.toList []))) := by
      change methodOf GP _ _ _ = _
      rw [methodOf, bind_ok (instOf_ref_text hat)]
      rfl
    rw [call_prim GP W _ hb (by simp), primMeth]
    rw [bind_ok (load_ok hat)]
    rfl
  have h6 := evalE_call GP W (by
    rw [evalE_attr_of GP W (H2.name GP W (x := "f") (v := .ref h.objs.length) (by simp) (h.push (.text out.toList [])))]
    exact h4) (evalArgs_cons GP W (by simp) h3 (evalArgs_nil GP W _ _))
  rw [h5] at h6
  have h7 : execS GP W (.withAs (.call (.name "open") [.attr (.name "args") "output", .str "w"] []) "f" [
      .expr (.call (.attr (.name "f") "write") [.bin .add (.call (.attr (.call (.attr (.name "file_template") "strip") [] []) "format") [.name "functions_formatted"] ["functions"]) (.str "\n")] [])])
      (env.set "functions_formatted" (.str (joinChars "\n\n\n".toList fs))) h =
      some (.ok (.next ((env.set "functions_formatted" (.str (joinChars "\n\n\n".toList fs))).set "f" (.ref h.objs.length)))
        ((h.push (.text out.toList [])).put h.objs.length (.text out.toList (filePart ++ joinChars "\n\n\n".toList fs ++ ['\n'])))) := by
    rw [execS, bind_ok h2]
    have hset : setVar (env.set "functions_formatted" (.str (joinChars "\n\n\n".toList fs))) "f" (.ref h.objs.length) =
      pure ((env.set "functions_formatted" (.str (joinChars "\n\n\n".toList fs))).set "f" (.ref h.objs.length)) := by
      have := H1.cell "f"
      rw [setVar]
      split
      · exact absurd (by assumption) (this _)
      · rfl
    rw [hset, pure_bind, execB_next GP W (execS_expr GP W h6), execB_nil]
  refine ⟨_, _, by rw [genLast, execB_next GP W h1, execB_next GP W h7, execB_nil], ?_⟩
  rw [put_push, files_push]
  rfl

theorem gen_main (h : Heap) :
    ∃ h', call GP W (.func "generate_chords" "main") [] [] h = some (.ok .none h') ∧
      h'.files = h.files ++ [(some out.toList, .inl (filePart ++ joinChars "\n\n\n".toList (table.flatMap rowTexts) ++ ['\n']))] := by
  have H0 : Has "generate_chords" { mod := "generate_chords", vars := [] } genNone :=
    ⟨rfl, by intro p hp; simp only [genNone, List.mem_cons, List.not_mem_nil, or_false] at hp; rcases hp with rfl | rfl | rfl | rfl | rfl | rfl | rfl | rfl | rfl <;> rfl,
      by intro x a; simp [Dict.get]⟩
  have h1 := execS_setname GP W (y := "parser") (gen_parser W out table H0.mod (H0.get ("argparse", .none) (by simp [genNone])) h) (H0.cell _)
  have H1 := H0.set "parser" (v := parserV) (by simp [parserV]) (by simp [genNone])
  have h2 := gen_add W out table H1 h
  have h3 := execS_setname GP W (y := "args") (gen_args W out table H1 h) (H1.cell _)
  have H3 := (H1.weaken (l' := genNone) (by intro p hp; simp [hp])).set "args" (v := argsV out) (by simp [argsV]) (by simp [genNone])
  have h4 := execS_setname GP W (y := "functions") (evalE_list GP W (evalArgs_nil GP W _ h)) (H3.cell _)
  have H4 := H3.set "functions" (v := .ref h.objs.length) (by simp) (by simp [genNone])
  obtain ⟨env5, h5', h5, H5, hF5, hf5⟩ := gen_loop W out table (F := h.objs.length) (args := argsV out) H4 (Heap.push_at h (.list []))
  obtain ⟨env6, h6', h6, hf6⟩ := gen_last W out table H5 hF5
  have hbody : execB GP W generateChords.main.body { mod := "generate_chords", vars := [] } h = some (.ok (.next env6) h6') := by
    rw [genMain_eq, List.cons_append, List.cons_append, List.cons_append, List.cons_append, List.cons_append, List.nil_append,
      execB_next GP W h1, execB_next GP W h2, execB_next GP W h3, execB_next GP W h4, execB_next GP W h5]
    exact h6
  refine ⟨h6', ?_, ?_⟩
  · have hfun : (GP).func "generate_chords" "main" = some generateChords.main := rfl
    have hp : bindParams GP W generateChords.main.params [] [] { mod := generateChords.main.mod, vars := [] } = pure [] := by
      change bindParams GP W [] [] [] _ = _
      rw [bindParams]
    rw [call, hfun]
    exact callFun_run GP W hp rfl hbody
  · rw [hf6, hf5, files_push]
    congr 1
    exact List.append_nil _

theorem genHeap_files : (genHeap table).files = [] := by
  rw [Heap.files, genHeap]
  simp only [List.filterMap_append, List.filterMap_cons, List.filterMap_nil]
  have : (rowObjs table).filterMap fileOf = [] := by
    rw [rowObjs, List.filterMap_map]
    simp [fileOf, Function.comp_def]
  rw [this]
  rfl

theorem gen_script : ∃ env h, runGenerator W out table = some (.ok (.next env) h) ∧
    h.files = [(some out.toList, .inl (filePart ++ joinChars "\n\n\n".toList (table.flatMap rowTexts) ++ ['\n']))] := by
  obtain ⟨h', h1, h2⟩ := gen_main W out table (genHeap table)
  refine ⟨{ mod := "generate_chords", vars := genVars table "__main__" }, h', ?_, ?_⟩
  · rw [runGenerator, gen_init, genGuard]
    have hc : evalE GP W (.call (.name "main") [] []) { mod := "generate_chords", vars := genVars table "__main__" } (genHeap table) =
        some (.ok .none h') := by
      rw [evalE_call GP W (evalE_global GP W rfl (gen_global_main W out table) _) (evalArgs_nil GP W _ _)]
      exact h1
    have hg : evalE GP W (.cmp (.name "__name__") [.eq] [.str "__main__"]) { mod := "generate_chords", vars := genVars table "__main__" } (genHeap table) =
        some (.ok (.bool true) (genHeap table)) := by
      have hn : Dict.get (genVars table "__main__") "__name__" = some (.str "__main__".toList) := rfl
      pyrun [hn, cmp_str]
    rw [execB_next GP W (env1 := { mod := "generate_chords", vars := genVars table "__main__" }) (h1 := h'), execB_nil]
    rw [execS_ite GP W _ _ hg, if_pos rfl, execB_next GP W (execS_expr GP W hc), execB_nil]
  · rw [h2, genHeap_files, List.nil_append]

end

end Source

end Melodia
