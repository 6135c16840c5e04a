/-
Running Python code on a given memory step by step, beside a computation of the model that may raise.
-/
import Verif.Lemmas.PyRuns
import Verif.Python.RunAttr

set_option autoImplicit false

namespace Melodia.Python

/-! ### One step after the other -/

/-- Go on with the result of a computation. -/
def andThen {α β : Type} (r : Option (Res α)) (f : α → M β) : Option (Res β) :=
  match r with
  | .none => .none
  | some (.err e h) => some (.err e h)
  | some (.ok a h) => f a h

@[pyrun ↓] theorem run_bind {α β : Type} (x : M α) (f : α → M β) (h : Heap) : (x >>= f) h = andThen (x h) f := rfl
@[pyrun] theorem andThen_ok {α β : Type} (a : α) (h : Heap) (f : α → M β) : andThen (some (.ok a h)) f = f a h := rfl
@[pyrun] theorem andThen_err {α β : Type} (e : PyErr) (h : Heap) (f : α → M β) :
    andThen (some (.err e h)) f = some (.err e h) := rfl

attribute [pyrun ↓] run_pure run_raise run_ite run_pure_bind evalE evalArgs evalDict evalParts execS execB assign

open Lean Meta Simp in
/-- Simplify the first step only, and go on once it is done. -/
simproc_decl stepFirst (andThen _ _) := fun e => do
  let_expr andThen α β r f := e | return .continue
  let r' ← Simp.simp r
  let prf ← mkCongrArg (← withLocalDeclD `r (← inferType r) fun x => mkLambdaFVars #[x] (mkApp4 e.getAppFn α β x f)) (← r'.getProof)
  let v := r'.expr
  match_expr v with
  | Option.some _ w =>
    match_expr w with
    | Res.ok _ a h => return .visit { expr := (mkApp2 f a h).headBeta, proof? := prf }
    | Res.err _ e h => return .done { expr := mkApp2 (mkConst ``Option.some [0]) (mkApp (mkConst ``Res) β) (mkApp3 (mkConst ``Res.err) β e h), proof? := prf }
    | _ => return .done { expr := mkApp4 e.getAppFn α β v f, proof? := prf }
  | _ => return .done { expr := mkApp4 e.getAppFn α β v f, proof? := prf }

@[pyrun] theorem run_load' (a : Nat) (h : Heap) : load a h = match h.objs[a]? with
    | some o => some (.ok o h)
    | .none => .none := rfl
@[pyrun] theorem run_store' (a : Nat) (o : Obj) (h : Heap) : store a o h = some (.ok () (h.put a o)) := rfl
@[pyrun] theorem run_alloc' (o : Obj) (h : Heap) : alloc o h = some (.ok h.objs.length (h.push o)) := rfl

/-- A single comparison. -/
@[pyrun ↓] theorem evalChain_one (P : Program) (W : World) (v : Val) (op : CmpOp) (e : Expr) (env : Env) :
    evalChain P W v [op] [e] env = (do
      let w ← evalE P W e env
      compareOp P W op v w) := by
  rw [evalChain]
  simp only [bind_pure]

/-! ### Objects in memory -/

section
variable (P : Program) (W : World)

@[pyrun ↓] theorem instOf_ref (a : Nat) : instOf (.ref a) = (do
    match ← load a with
    | .inst c fs => pure (some (c, fs))
    | _ => pure .none) := rfl
@[pyrun ↓] theorem objAt_ref (a : Nat) : objAt (.ref a) = (do
    let o ← load a
    pure (some o)) := rfl

/-- An attribute of an object in memory. -/
@[pyrun ↓] theorem getAttr_ref (a : Nat) (x : String) : getAttr P W (.ref a) x = (do
    match ← load a with
    | .inst c fs =>
      match Dict.get fs x with
      | some w => pure w
      | .none =>
        if x = "__class__" then pure (.cls c)
        else match P.method c x with
          | some f => if f.deco = .property then callFun P W f [.ref a] [] else pure (.meth (.ref a) x)
          | .none => if isSpecial x then stuck else raise .attributeError
    | o =>
      if hasPrimAttr (some o) (.ref a) x then pure (.meth (.ref a) x)
      else if lacksAttr x then raise .attributeError else stuck) := by
  rw [getAttr.eq_def]
  funext h
  cases ho : h.objs[a]? with
  | none => simp [instOf, bind, load, ho]
  | some o => cases o <;> (simp [instOf, objAt, bind, load, ho, pure]; try rfl)

@[pyrun ↓] theorem getAttr_module (m x : String) : getAttr P W (.module m) x =
    match stdName m x with
    | some w => pure w
    | .none => orStuck (P.global 4 m x) := by
  rw [getAttr.eq_def]; rfl
@[pyrun] theorem orStuck_ok {α : Type} (a : α) : orStuck (some a) = pure a := rfl

@[pyrun ↓] theorem truthy_ref (a : Nat) : truthy P W (.ref a) = (do
    match ← methodOf P (.ref a) "__len__" with
    | some f => do
      match ← callFun P W f [.ref a] [] with
      | .int i => pure (decide (i ≠ 0))
      | _ => stuck
    | .none => do
      let o ← objAt (.ref a)
      pure (primTruthy (.ref a) o)) := by rw [truthy.eq_def]; rfl

@[pyrun ↓] theorem getIter_ref (a : Nat) : getIter P W (.ref a) = (do
    match ← methodOf P (.ref a) "__iter__" with
    | some f => callFun P W f [.ref a] []
    | .none => primIter (.ref a)) := by rw [getIter.eq_def]; rfl

@[pyrun ↓] theorem contains_ref (k : Val) (a : Nat) : contains P W k (.ref a) = (do
    match ← dictHas (.ref a) k with
    | some r => pure r
    | .none => do
      let it ← getIter P W (.ref a)
      anyEq P W k it 0) := by rw [contains.eq_def]; rfl

@[pyrun] theorem call_meth_ref (a : Nat) (name : String) (args : List Val) (kws : List (String × Val)) :
    call P W (.meth (.ref a) name) args kws = (do
      match ← methodOf P (.ref a) name with
      | some d => do
        match d.deco with
        | .staticmethod => callFun P W d args kws
        | .classmethod => do
          match ← instOf (.ref a) with
          | some (c, _) => callFun P W d (.cls c :: args) kws
          | .none => callFun P W d (.ref a :: args) kws
        | _ => callFun P W d (.ref a :: args) kws
      | .none =>
        match name with
        | "sort" => callSort P W (.ref a) args kws
        | "format" => strFormat W (.ref a) args kws
        | _ => match kws with
          | [] => primMeth W (.ref a) name args
          | _ => stuck) := by rw [call.eq_def]; rfl

@[pyrun ↓] theorem callBuiltin_len (v : Val) : callBuiltin P W .len [v] [] = (do
    match ← methodOf P v "__len__" with
    | some f => callFun P W f [v] []
    | .none => primLen v) := by rw [callBuiltin.eq_def]; rfl
@[pyrun ↓] theorem callBuiltin_isinstance (v c : Val) : callBuiltin P W .isinstance [v, c] [] = (do
    let r ← isInstance P v c
    pure (.bool r)) := by rw [callBuiltin.eq_def]
@[pyrun ↓] theorem callBuiltin_iter (v : Val) : callBuiltin P W .iter [v] [] = getIter P W v := by rw [callBuiltin.eq_def]
@[pyrun] theorem primLen_bytes (b : Bytes) : primLen (.bytes b) = pure (.int b.length) := rfl

attribute [pyrun] isKey
attribute [pyrun ↓] getItem setItem delItem getSlice dictHas setAttr

end

/-! ### Memory -/

@[pyrun] theorem put_get {h : Heap} {a : Nat} {o : Obj} (ha : a < h.objs.length) : (h.put a o).objs[a]? = some o := by
  simp [Heap.put, ha]
@[pyrun] theorem put_get_ne {h : Heap} {a b : Nat} {o : Obj} (hb : b ≠ a) : (h.put a o).objs[b]? = h.objs[b]? := Heap.put_ne hb
@[pyrun] theorem push_get {h : Heap} {o : Obj} : (h.push o).objs[h.objs.length]? = some o := Heap.push_at h o
@[pyrun] theorem push_get_lt {h : Heap} {a : Nat} {o : Obj} (ha : a < h.objs.length) : (h.push o).objs[a]? = h.objs[a]? := by
  simp only [Heap.push]; rw [List.getElem?_append_left ha]
attribute [pyrun] Heap.push_length Heap.put_length Heap.put_put

open Lean.Parser.Tactic in
/-- Run a computation on a given memory, one step after the other. -/
macro "pyrun" "[" ls:simpLemma,* "]" : tactic =>
  `(tactic| simp [py, pyrun, ↓stepFirst, -String.reduceToList, -getElem?_pos, $ls,*])

end Melodia.Python
