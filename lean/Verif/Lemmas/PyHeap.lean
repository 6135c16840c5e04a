/-
Computations of the semantics of Python on a given memory.
-/
import Verif.Lemmas.PyBasic

set_option autoImplicit false

namespace Melodia.Python

/-- Replace the object at an address. -/
def Heap.put (h : Heap) (a : Nat) (o : Obj) : Heap := { h with objs := h.objs.set a o }

/-- Memory with one more object. -/
def Heap.push (h : Heap) (o : Obj) : Heap := { h with objs := h.objs ++ [o] }

/-- Memory changed at the addresses in `S` only, apart from new objects. -/
structure Frame (S : Nat → Prop) (h h' : Heap) : Prop where
  len : h.objs.length ≤ h'.objs.length
  draws : h'.draws = h.draws
  keep : ∀ b < h.objs.length, ¬ S b → h'.objs[b]? = h.objs[b]?

theorem Frame.refl (S : Nat → Prop) (h : Heap) : Frame S h h := ⟨le_rfl, rfl, fun _ _ _ => rfl⟩

theorem Frame.trans {S T U : Nat → Prop} {h h1 h2 : Heap} (f : Frame S h h1) (g : Frame T h1 h2)
    (hS : ∀ b, S b → U b) (hT : ∀ b < h.objs.length, T b → U b) : Frame U h h2 :=
  ⟨f.len.trans g.len, g.draws.trans f.draws, fun b hb hU => by
    rw [g.keep b (hb.trans_le f.len) (fun hb' => hU (hT b hb hb')), f.keep b hb (fun h => hU (hS b h))]⟩

theorem Frame.mono {S T : Nat → Prop} {h h1 : Heap} (f : Frame S h h1) (hS : ∀ b < h.objs.length, S b → T b) :
    Frame T h h1 := ⟨f.len, f.draws, fun b hb hT => f.keep b hb (fun h => hT (hS b hb h))⟩

theorem Frame.at {S : Nat → Prop} {h h1 : Heap} (f : Frame S h h1) {b : Nat} {o : Obj} (hb : h.objs[b]? = some o)
    (hS : ¬ S b) : h1.objs[b]? = some o := by
  rw [f.keep b (List.getElem?_eq_some_iff.mp hb).1 hS, hb]

theorem Frame.put (h : Heap) (a : Nat) (o : Obj) : Frame (· = a) h (h.put a o) :=
  ⟨by simp [Heap.put], rfl, fun b _ hb => by simp only [Heap.put]; rw [List.getElem?_set_ne (Ne.symm hb)]⟩

theorem Frame.push (h : Heap) (o : Obj) : Frame (fun _ => False) h (h.push o) :=
  ⟨by simp [Heap.push], rfl, fun b hb _ => by simp only [Heap.push]; rw [List.getElem?_append_left hb]⟩

theorem lt_of_at {h : Heap} {a : Nat} {o : Obj} (ha : h.objs[a]? = some o) : a < h.objs.length :=
  (List.getElem?_eq_some_iff.mp ha).1

theorem Heap.put_at {h : Heap} {a : Nat} {o o' : Obj} (ha : h.objs[a]? = some o') : (h.put a o).objs[a]? = some o := by
  have := lt_of_at ha
  simp [Heap.put, this]

theorem Heap.put_ne {h : Heap} {a b : Nat} {o : Obj} (hb : b ≠ a) : (h.put a o).objs[b]? = h.objs[b]? := by
  simp only [Heap.put]; rw [List.getElem?_set_ne (Ne.symm hb)]

theorem Heap.push_at (h : Heap) (o : Obj) : (h.push o).objs[h.objs.length]? = some o := by
  simp [Heap.push]

theorem Heap.push_old {h : Heap} {o o' : Obj} {b : Nat} (hb : h.objs[b]? = some o') : (h.push o).objs[b]? = some o' := by
  simp only [Heap.push]; rw [List.getElem?_append_left (lt_of_at hb), hb]

@[simp] theorem Heap.push_length (h : Heap) (o : Obj) : (h.push o).objs.length = h.objs.length + 1 := by
  simp [Heap.push]

@[simp] theorem Heap.put_length (h : Heap) (a : Nat) (o : Obj) : (h.put a o).objs.length = h.objs.length := by
  simp [Heap.put]

/-! ### Steps -/

theorem bind_ok {α β : Type} {x : M α} {f : α → M β} {h h1 : Heap} {a : α} (hx : x h = some (.ok a h1)) :
    (x >>= f) h = f a h1 := by rw [bind_apply, hx]

theorem bind_err {α β : Type} {x : M α} {f : α → M β} {h h1 : Heap} {e : PyErr} (hx : x h = some (.err e h1)) :
    (x >>= f) h = some (.err e h1) := by rw [bind_apply, hx]

theorem alloc_apply (o : Obj) (h : Heap) : alloc o h = some (.ok h.objs.length (h.push o)) := rfl
theorem store_apply (a : Nat) (o : Obj) (h : Heap) : store a o h = some (.ok () (h.put a o)) := rfl
theorem load_ok {h : Heap} {a : Nat} {o : Obj} (ha : h.objs[a]? = some o) : load a h = some (.ok o h) := by
  simp only [load, ha]

theorem liftPy_apply_ok {α : Type} {x : PyM α} {a : α} (hx : x = .ok a) (h : Heap) :
    liftPy x h = some (.ok a h) := by rw [hx]; rfl
theorem liftPy_apply_err {α : Type} {x : PyM α} {e : PyErr} (hx : x = .error e) (h : Heap) :
    liftPy x h = some (.err e h) := by rw [hx]; rfl

section
variable (P : Program) (W : World)

theorem instOf_ref_ok {h : Heap} {a : Nat} {c : String} {fs : List (String × Val)} (ha : h.objs[a]? = some (.inst c fs)) :
    instOf (.ref a) h = some (.ok (some (c, fs)) h) := by
  rw [instOf, bind_ok (load_ok ha)]; rfl

theorem instOf_ref_list {h : Heap} {a : Nat} {l : List Val} (ha : h.objs[a]? = some (.list l)) :
    instOf (.ref a) h = some (.ok .none h) := by
  rw [instOf, bind_ok (load_ok ha)]; rfl

theorem methodOf_ref_ok {h : Heap} {a : Nat} {c : String} {fs : List (String × Val)} (m : String)
    (ha : h.objs[a]? = some (.inst c fs)) : methodOf P (.ref a) m h = some (.ok (P.method c m) h) := by
  rw [methodOf, bind_ok (instOf_ref_ok ha)]; rfl

theorem methodOf_ref_list {h : Heap} {a : Nat} {l : List Val} (m : String) (ha : h.objs[a]? = some (.list l)) :
    methodOf P (.ref a) m h = some (.ok .none h) := by
  rw [methodOf, bind_ok (instOf_ref_list ha)]; rfl

theorem objAt_ref_ok {h : Heap} {a : Nat} {o : Obj} (ha : h.objs[a]? = some o) :
    objAt (.ref a) h = some (.ok (some o) h) := by
  rw [objAt, bind_ok (load_ok ha)]; rfl

theorem getAttr_ref_field {h : Heap} {a : Nat} {c : String} {fs : List (String × Val)} {x : String} {v : Val}
    (ha : h.objs[a]? = some (.inst c fs)) (hx : Dict.get fs x = some v) :
    getAttr P W (.ref a) x h = some (.ok v h) := by
  rw [getAttr.eq_def, bind_ok (instOf_ref_ok ha)]
  simp only [hx]
  rfl

theorem getAttr_ref_meth {h : Heap} {a : Nat} {c : String} {fs : List (String × Val)} {x : String} {f : FunDef}
    (ha : h.objs[a]? = some (.inst c fs)) (hx : Dict.get fs x = .none) (hc : x ≠ "__class__")
    (hf : P.method c x = some f) (hd : f.deco ≠ .property) :
    getAttr P W (.ref a) x h = some (.ok (.meth (.ref a) x) h) := by
  rw [getAttr.eq_def, bind_ok (instOf_ref_ok ha)]
  simp only [hx, hc, if_false, hf, hd]
  rfl

theorem getAttr_ref_prop {h : Heap} {a : Nat} {c : String} {fs : List (String × Val)} {x : String} {f : FunDef}
    (ha : h.objs[a]? = some (.inst c fs)) (hx : Dict.get fs x = .none) (hc : x ≠ "__class__")
    (hf : P.method c x = some f) (hd : f.deco = .property) :
    getAttr P W (.ref a) x h = callFun P W f [.ref a] [] h := by
  rw [getAttr.eq_def, bind_ok (instOf_ref_ok ha)]
  simp only [hx, hc, if_false, hf, hd, if_true]

theorem getAttr_ref_class {h : Heap} {a : Nat} {c : String} {fs : List (String × Val)}
    (ha : h.objs[a]? = some (.inst c fs)) (hx : Dict.get fs "__class__" = .none) :
    getAttr P W (.ref a) "__class__" h = some (.ok (.cls c) h) := by
  rw [getAttr.eq_def, bind_ok (instOf_ref_ok ha)]
  simp only [hx, if_true]
  rfl

theorem getAttr_ref_prim {h : Heap} {a : Nat} {l : List Val} {x : String} (ha : h.objs[a]? = some (.list l))
    (hx : hasPrimAttr (some (.list l)) (.ref a) x = true) :
    getAttr P W (.ref a) x h = some (.ok (.meth (.ref a) x) h) := by
  rw [getAttr.eq_def, bind_ok (instOf_ref_list ha)]
  simp only
  rw [bind_ok (objAt_ref_ok ha), if_pos hx]
  rfl

theorem call_ref_ok {h : Heap} {a : Nat} {c : String} {fs : List (String × Val)} {m : String} {f : FunDef}
    (args : List Val) (kws : List (String × Val)) (ha : h.objs[a]? = some (.inst c fs)) (hf : P.method c m = some f)
    (hs : f.deco ≠ .staticmethod ∧ f.deco ≠ .classmethod) :
    call P W (.meth (.ref a) m) args kws h = callFun P W f (.ref a :: args) kws h := by
  rw [call.eq_def]
  simp only [boundMethod]
  rw [bind_ok (methodOf_ref_ok P m ha)]
  simp only [hf]
  cases h : f.deco <;> simp_all

theorem getIter_ref_list {h : Heap} {a : Nat} {l : List Val} (ha : h.objs[a]? = some (.list l)) :
    getIter P W (.ref a) h = some (.ok (.iter a) h) := by
  rw [getIter, bind_ok (methodOf_ref_list P _ ha)]
  simp only [primIter]
  rw [bind_ok (load_ok ha)]
  rfl

theorem getIter_ref_inst {h : Heap} {a : Nat} {c : String} {fs : List (String × Val)} {f : FunDef}
    (ha : h.objs[a]? = some (.inst c fs)) (hf : P.method c "__iter__" = some f) :
    getIter P W (.ref a) h = callFun P W f [.ref a] [] h := by
  rw [getIter, bind_ok (methodOf_ref_ok P _ ha)]
  simp only [hf]

theorem setAttr_ok {h : Heap} {a : Nat} {c : String} {fs : List (String × Val)} (x : String) (v : Val)
    (ha : h.objs[a]? = some (.inst c fs)) :
    setAttr (.ref a) x v h = some (.ok () (h.put a (.inst c (Dict.set fs x v)))) := by
  rw [setAttr, bind_ok (load_ok ha)]
  rfl

/-- `s.x`, for a variable `s`. -/
theorem evalE_attr {h : Heap} {a : Nat} {c s : String} {fs : List (String × Val)} {x : String} {v : Val} {env : Env}
    (hs : Dict.get env.vars s = some (.ref a)) (ha : h.objs[a]? = some (.inst c fs)) (hx : Dict.get fs x = some v) :
    evalE P W (.attr (.name s) x) env h = some (.ok v h) := by
  rw [evalE, evalE]
  simp only [hs, readVar_ref, pure_bind]
  exact getAttr_ref_field P W ha hx

/-- `s.x = e`, for a variable `s`. -/
theorem execS_setattr {h h1 : Heap} {a : Nat} {c s : String} {fs : List (String × Val)} {x : String} {v : Val} {e : Expr}
    {env : Env} (he : evalE P W e env h = some (.ok v h1)) (hs : Dict.get env.vars s = some (.ref a))
    (ha : h1.objs[a]? = some (.inst c fs)) :
    execS P W (.assign (.attr (.name s) x) e) env h = some (.ok (.next env) (h1.put a (.inst c (Dict.set fs x v)))) := by
  rw [execS, bind_ok he, assign]
  simp only [hs, bind_assoc, pure_bind]
  rw [bind_ok (setAttr_ok x v ha)]
  rfl

/-- `y = e`, for a variable `y` that is not shared. -/
theorem execS_setname {h h1 : Heap} {y : String} {v : Val} {e : Expr} {env : Env}
    (he : evalE P W e env h = some (.ok v h1)) (hy : ∀ a, Dict.get env.vars y ≠ some (.cell a)) :
    execS P W (.assign (.name y) e) env h = some (.ok (.next (env.set y v)) h1) := by
  rw [execS, bind_ok he, assign, setVar_plain _ _ _ hy]
  rfl

theorem execS_expr {h h1 : Heap} {v : Val} {e : Expr} {env : Env} (he : evalE P W e env h = some (.ok v h1)) :
    execS P W (.expr e) env h = some (.ok (.next env) h1) := by
  rw [execS, bind_ok he]; rfl

theorem execS_ite {h h1 : Heap} {c : Expr} {b : Bool} {env : Env} (s t : List Stmt)
    (he : evalE P W c env h = some (.ok (.bool b) h1)) :
    execS P W (.ite c s t) env h = if b then execB P W s env h1 else execB P W t env h1 := by
  rw [execS, bind_ok he, truthy_bool, pure_bind, run_ite]

theorem execB_nil (env : Env) (h : Heap) : execB P W [] env h = some (.ok (.next env) h) := by rw [execB]; rfl

theorem execB_next {h h1 : Heap} {s : Stmt} {ss : List Stmt} {env env1 : Env}
    (hs : execS P W s env h = some (.ok (.next env1) h1)) : execB P W (s :: ss) env h = execB P W ss env1 h1 := by
  rw [execB, bind_ok hs]

theorem execB_ret {h h1 : Heap} {s : Stmt} {ss : List Stmt} {env env1 : Env} {v : Val}
    (hs : execS P W s env h = some (.ok (.ret v env1) h1)) :
    execB P W (s :: ss) env h = some (.ok (.ret v env1) h1) := by
  rw [execB, bind_ok hs]; rfl

theorem execB_err {h h1 : Heap} {s : Stmt} {ss : List Stmt} {env : Env} {e : PyErr}
    (hs : execS P W s env h = some (.err e h1)) : execB P W (s :: ss) env h = some (.err e h1) := by
  rw [execB, bind_err hs]

/-! ### Expressions -/

theorem evalE_name {env : Env} {x : String} {v : Val} (hx : Dict.get env.vars x = some v) (hv : readVar v = pure v)
    (h : Heap) : evalE P W (.name x) env h = some (.ok v h) := by
  rw [evalE]
  simp only [hx, hv]
  rfl

theorem evalE_global {env : Env} {x : String} {v : Val} (hx : Dict.get env.vars x = .none)
    (hv : globalName P W env.mod x = pure v) (h : Heap) : evalE P W (.name x) env h = some (.ok v h) := by
  rw [evalE]
  simp only [hx, hv]
  rfl

theorem evalE_attr_of {env : Env} {e : Expr} {x : String} {v : Val} {h h1 : Heap}
    (he : evalE P W e env h = some (.ok v h1)) : evalE P W (.attr e x) env h = getAttr P W v x h1 := by
  rw [evalE, bind_ok he]

theorem evalE_cmp {env : Env} {a b : Expr} {op : CmpOp} {x y : Val} {h h1 h2 : Heap}
    (ha : evalE P W a env h = some (.ok x h1)) (hb : evalE P W b env h1 = some (.ok y h2)) :
    evalE P W (.cmp a [op] [b]) env h = compareOp P W op x y h2 := by
  rw [evalE, bind_ok ha, evalChain, bind_ok hb]
  simp only [bind_pure]

theorem evalE_bin {env : Env} {a b : Expr} {op : BinOp} {x y : Val} {h h1 h2 : Heap}
    (ha : evalE P W a env h = some (.ok x h1)) (hb : evalE P W b env h1 = some (.ok y h2)) :
    evalE P W (.bin op a b) env h = binary P W op x y h2 := by
  rw [evalE, bind_ok ha, bind_ok hb]

theorem evalE_not {env : Env} {a : Expr} {b : Bool} {h h1 : Heap} (ha : evalE P W a env h = some (.ok (.bool b) h1)) :
    evalE P W (.un .not a) env h = some (.ok (.bool !b) h1) := by
  rw [evalE, bind_ok ha]
  simp only [truthy_bool, pure_bind]
  rfl

theorem evalE_or {env : Env} {a b : Expr} {x : Bool} {h h1 : Heap} (ha : evalE P W a env h = some (.ok (.bool x) h1)) :
    evalE P W (.or a b) env h = if x then some (.ok (.bool true) h1) else evalE P W b env h1 := by
  rw [evalE, bind_ok ha, truthy_bool, pure_bind]
  cases x <;> rfl

theorem evalArgs_nil (env : Env) (h : Heap) : evalArgs P W [] env h = some (.ok [] h) := by rw [evalArgs]; rfl

theorem evalArgs_cons {env : Env} {e : Expr} {es : List Expr} {v : Val} {vs : List Val} {h h1 h2 : Heap}
    (hne : ∀ x, e ≠ .star x) (he : evalE P W e env h = some (.ok v h1)) (hes : evalArgs P W es env h1 = some (.ok vs h2)) :
    evalArgs P W (e :: es) env h = some (.ok (v :: vs) h2) := by
  rw [evalArgs]
  · rw [bind_ok he, bind_ok hes]; rfl
  · intro x hx; exact hne x hx

theorem evalE_tuple {env : Env} {es : List Expr} {vs : List Val} {h h1 : Heap}
    (he : evalArgs P W es env h = some (.ok vs h1)) : evalE P W (.tuple es) env h = some (.ok (.tuple vs) h1) := by
  rw [evalE, bind_ok he]; rfl

theorem evalE_list {env : Env} {es : List Expr} {vs : List Val} {h h1 : Heap}
    (he : evalArgs P W es env h = some (.ok vs h1)) :
    evalE P W (.list es) env h = some (.ok (.ref h1.objs.length) (h1.push (.list vs))) := by
  rw [evalE, bind_ok he, bind_ok (alloc_apply _ _)]; rfl

theorem evalE_call {env : Env} {f : Expr} {es : List Expr} {g : Val} {vs : List Val} {h h1 h2 : Heap}
    (hf : evalE P W f env h = some (.ok g h1)) (he : evalArgs P W es env h1 = some (.ok vs h2)) :
    evalE P W (.call f es []) env h = call P W g vs [] h2 := by
  rw [evalE, bind_ok hf]
  simp only [List.length_nil, Nat.sub_zero, List.take_length, List.drop_length, List.zip_nil_left]
  rw [bind_ok he, bind_ok (evalArgs_nil P W env h2)]

theorem evalE_call_kw {env : Env} {f : Expr} {es ks : List Expr} {kws : List String} {g : Val} {vs ws : List Val}
    {h h1 h2 h3 : Heap} (hk : ks.length = kws.length) (hf : evalE P W f env h = some (.ok g h1))
    (he : evalArgs P W es env h1 = some (.ok vs h2)) (hw : evalArgs P W ks env h2 = some (.ok ws h3)) :
    evalE P W (.call f (es ++ ks) kws) env h = call P W g vs (kws.zip ws) h3 := by
  rw [evalE, bind_ok hf]
  have : (es ++ ks).length - kws.length = es.length := by simp [hk]
  simp only [this, List.take_left, List.drop_left]
  rw [bind_ok he, bind_ok hw]

theorem evalE_comp {env : Env} {elt it : Expr} {p : Pat} {v i : Val} {vs : List Val} {h h1 h2 h3 : Heap}
    (hi : evalE P W it env h = some (.ok v h1)) (hg : getIter P W v h1 = some (.ok i h2))
    (hc : compLoop P W elt p i 0 env h2 = some (.ok vs h3)) :
    evalE P W (.comp elt p it) env h = some (.ok (.ref h3.objs.length) (h3.push (.list vs))) := by
  rw [evalE, bind_ok hi, bind_ok hg, bind_ok hc, bind_ok (alloc_apply _ _)]; rfl

theorem execS_ret {h h1 : Heap} {v : Val} {e : Expr} {env : Env} (he : evalE P W e env h = some (.ok v h1)) :
    execS P W (.ret e) env h = some (.ok (.ret v env) h1) := by
  rw [execS, bind_ok he]; rfl

theorem execS_for {h h1 h2 : Heap} {v i : Val} {e : Expr} {p : Pat} {body : List Stmt} {env : Env}
    (he : evalE P W e env h = some (.ok v h1)) (hg : getIter P W v h1 = some (.ok i h2))
    (hi : ∀ m b vs, i ≠ .gen m b vs) : execS P W (.for p e body) env h = forLoop P W p body i 0 env h2 := by
  rw [execS, bind_ok he, bind_ok hg]
  split
  · rename_i m b vs
    exact absurd rfl (hi m b vs)
  · rfl

/-- The value of a call whose body ends like this. -/
def Flow.value : Flow → M Val
  | .ret v _ => pure v
  | .next _ => pure .none
  | _ => stuck

/-- A call of a function, by the run of its body. -/
theorem callFun_run {f : FunDef} {args : List Val} {kws vars : List (String × Val)} {h h1 : Heap} {r : Flow}
    (hp : bindParams P W f.params args kws { mod := f.mod, vars := [] } = pure vars) (hg : f.gen = false)
    (hb : execB P W f.body { mod := f.mod, vars := vars } h = some (.ok r h1)) :
    callFun P W f args kws h = r.value h1 := by
  rw [callFun, hp, pure_bind]
  simp only [hg]
  rw [if_neg (by simp), bind_ok hb]
  cases r <;> rfl

theorem callFun_err {f : FunDef} {args : List Val} {kws vars : List (String × Val)} {h h1 : Heap} {e : PyErr}
    (hp : bindParams P W f.params args kws { mod := f.mod, vars := [] } = pure vars) (hg : f.gen = false)
    (hb : execB P W f.body { mod := f.mod, vars := vars } h = some (.err e h1)) :
    callFun P W f args kws h = some (.err e h1) := by
  rw [callFun, hp, pure_bind]
  simp only [hg]
  rw [if_neg (by simp), bind_err hb]

theorem evalParts_nil (env : Env) (h : Heap) : evalParts P W [] env h = some (.ok [] h) := by rw [evalParts]; rfl

theorem evalParts_cons {env : Env} {e : Expr} {es : List Expr} {s t : List Char} {h h1 h2 : Heap}
    (he : evalE P W e env h = some (.ok (.str s) h1)) (hes : evalParts P W es env h1 = some (.ok t h2)) :
    evalParts P W (e :: es) env h = some (.ok (s ++ t) h2) := by
  rw [evalParts, bind_ok he]
  simp only
  rw [bind_ok hes]
  rfl

theorem evalE_fstr {env : Env} {es : List Expr} {s : List Char} {h h1 : Heap}
    (he : evalParts P W es env h = some (.ok s h1)) : evalE P W (.fstr es) env h = some (.ok (.str s) h1) := by
  rw [evalE, bind_ok he]; rfl

theorem evalE_str (env : Env) (s : String) (h : Heap) : evalE P W (.str s) env h = some (.ok (.str s.toList) h) := by
  rw [evalE]; rfl

theorem evalE_field {env : Env} {e : Expr} {v : Val} {s : List Char} {h h1 h2 : Heap}
    (he : evalE P W e env h = some (.ok v h1)) (hs : format P W "" v h1 = some (.ok s h2)) :
    evalE P W (.field e "") env h = some (.ok (.str s) h2) := by
  rw [evalE, bind_ok he, bind_ok hs]; rfl

theorem richCmp_ref {h : Heap} {a : Nat} {c : String} {fs : List (String × Val)} {f : FunDef} {op : CmpOp} (hop : op ≠ .ne)
    (ha : h.objs[a]? = some (.inst c fs)) (hf : P.method c op.dunder = some f) (v : Val) :
    richCmp P W op (.ref a) v h = callFun P W f [.ref a, v] [] h := by
  rw [richCmp.eq_def]
  simp only
  rw [bind_ok (methodOf_ref_ok P _ ha)]
  simp only [hf, hop, if_false, bind_pure]

theorem richCmp_ref_ne {h h1 : Heap} {a : Nat} {c : String} {fs : List (String × Val)} {f : FunDef} {b : Bool}
    (ha : h.objs[a]? = some (.inst c fs)) (hf : P.method c "__eq__" = some f) {v : Val}
    (hc : callFun P W f [.ref a, v] [] h = some (.ok (.bool b) h1)) :
    richCmp P W .ne (.ref a) v h = some (.ok (.bool !b) h1) := by
  rw [richCmp.eq_def]
  simp only
  rw [bind_ok (methodOf_ref_ok P _ ha)]
  have hf' : P.method c (CmpOp.dunder .ne) = some f := hf
  simp only [hf']
  rw [bind_ok hc]
  simp only [if_true, truthy_bool, pure_bind]
  rfl

/-- A method of a value of a built-in type. -/
theorem call_prim {h : Heap} {self : Val} {m : String} (args : List Val) (hb : boundMethod P self m h = some (.ok .none h))
    (hm : m ≠ "sort" ∧ m ≠ "format") : call P W (.meth self m) args [] h = primMeth W self m args h := by
  rw [call.eq_def]
  simp only
  rw [bind_ok hb]
  simp only
  split
  · exact absurd rfl hm.1
  · exact absurd rfl hm.2
  · rfl

/-- `l.append(x)` for a list. -/
theorem call_append {h : Heap} {c : Nat} {l : List Val} (hc : h.objs[c]? = some (.list l)) (v : Val) :
    call P W (.meth (.ref c) "append") [v] [] h = some (.ok .none (h.put c (.list (l ++ [v])))) := by
  rw [call_prim P W (self := .ref c) (m := "append") _ (methodOf_ref_list P "append" hc) (by simp), primMeth]
  rw [bind_ok (load_ok hc)]
  rfl

theorem Heap.put_put (h : Heap) (a : Nat) (o o' : Obj) : (h.put a o).put a o' = h.put a o' := by
  simp [Heap.put]

/-- A list comprehension whose elements are computed without touching memory. -/
theorem compLoop_list {α : Type} {h : Heap} {elt : Expr} {p : Pat} {l : Nat} {xs : List α} {env : Env} (g f : α → Val)
    (hl : h.objs[l]? = some (.list (xs.map g)))
    (he : ∀ x ∈ xs, (do let vars ← bindPat p (g x) env.vars; evalE P W elt { env with vars := vars } : M Val) h =
      some (.ok (f x) h)) :
    compLoop P W elt p (.iter l) 0 env h = some (.ok (xs.map f) h) := by
  have : ∀ n i, xs.length - i = n → compLoop P W elt p (.iter l) i env h = some (.ok ((xs.drop i).map f) h) := by
    intro n
    induction n with
    | zero =>
      intro i hi
      rw [compLoop_none, List.drop_eq_nil_of_le (by omega)]
      · rfl
      · simp only [itemAt, hl]
        exact List.getElem?_eq_none (by simp; omega)
    | succ n ih =>
      intro i hi
      have hlt : i < xs.length := by omega
      rw [compLoop_some P W elt p _ i env h (g xs[i]) (by simp [itemAt, hl, hlt])]
      have := he xs[i] (List.getElem_mem hlt)
      rw [← bind_assoc, bind_ok this, bind_ok (ih (i + 1) (by omega)), List.drop_eq_getElem_cons hlt]
      rfl
  exact this _ 0 rfl

end

end Melodia.Python
