/-
Equations for computing with the semantics of Python (Verif/Python).
-/
import Verif.Python.Semantics
import Verif.Python.Attr

set_option autoImplicit false

namespace Melodia.Python

/-! ### Computations -/

theorem bind_apply {α β : Type} (x : M α) (f : α → M β) (h : Heap) :
    (x >>= f) h = match x h with
      | .none => .none
      | some (.err e h) => some (.err e h)
      | some (.ok a h) => f a h := rfl

theorem pure_apply {α : Type} (a : α) (h : Heap) : (pure a : M α) h = some (.ok a h) := rfl

theorem raise_apply {α : Type} (e : PyErr) (h : Heap) : (raise e : M α) h = some (.err e h) := rfl

@[ext] theorem M.ext {α : Type} {x y : M α} (H : ∀ h, x h = y h) : x = y := funext H

instance : LawfulMonad M := LawfulMonad.mk'
  (id_map := by
    intro α x
    ext1 h
    show (x >>= fun a => pure a) h = x h
    simp only [bind_apply]
    cases x h with
    | none => rfl
    | some r => cases r <;> rfl)
  (pure_bind := by intros; rfl)
  (bind_assoc := by
    intro α β γ x f g
    ext1 h
    simp only [bind_apply]
    cases x h with
    | none => rfl
    | some r => cases r <;> rfl)

@[py] theorem raise_bind {α β : Type} (e : PyErr) (f : α → M β) : (raise e : M α) >>= f = raise e := rfl
@[py] theorem stuck_bind {α β : Type} (f : α → M β) : (stuck : M α) >>= f = stuck := rfl
@[py] theorem liftPy_ok {α : Type} (a : α) : liftPy (.ok a) = pure a := rfl
@[py] theorem liftPy_error {α : Type} (e : PyErr) : (liftPy (.error e) : M α) = raise e := rfl
@[py] theorem orStuck_some {α : Type} (a : α) : orStuck (some a) = pure a := rfl
@[py] theorem orStuck_none {α : Type} : (orStuck .none : M α) = stuck := rfl

attribute [py] pure_bind bind_assoc

theorem liftPy_bind {α β : Type} (x : PyM α) (f : α → PyM β) :
    liftPy (x >>= f) = liftPy x >>= fun a => liftPy (f a) := by cases x <;> rfl

theorem liftPy_map {α β : Type} (x : PyM α) (f : α → β) :
    liftPy (x.map f) = liftPy x >>= fun a => pure (f a) := by cases x <;> rfl

@[py] theorem ite_bind {α β : Type} (c : Prop) [Decidable c] (x y : M α) (f : α → M β) :
    (if c then x else y) >>= f = if c then x >>= f else y >>= f := by split <;> rfl

/-! ### Variables -/

@[py] theorem get_nil {ν : Type} (x : String) : Dict.get ([] : Dict String ν) x = .none := rfl
@[py] theorem get_cons {ν : Type} (x y : String) (v : ν) (d : Dict String ν) :
    Dict.get ((x, v) :: d) y = if x = y then some v else Dict.get d y := by rw [Dict.get]
@[py] theorem set_nil {ν : Type} (x : String) (v : ν) : Dict.set ([] : Dict String ν) x v = [(x, v)] := rfl
@[py] theorem set_cons {ν : Type} (x y : String) (v w : ν) (d : Dict String ν) :
    Dict.set ((x, v) :: d) y w = if x = y then (x, w) :: d else (x, v) :: Dict.set d y w := by rw [Dict.set]
@[py] theorem del_nil {ν : Type} (x : String) : Dict.del ([] : Dict String ν) x = [] := rfl
@[py] theorem del_cons {ν : Type} (x y : String) (v : ν) (d : Dict String ν) :
    Dict.del ((x, v) :: d) y = if x = y then d else (x, v) :: Dict.del d y := by rw [Dict.del]

attribute [py] Env.set bindNames unpack bindPat bindPats asInt asNum toFloat CmpOp.dunder CmpOp.reflected
  BinOp.dunder builtinName

@[py] theorem readVar_none : readVar .none = pure .none := rfl
@[py] theorem readVar_bool (b : Bool) : readVar (.bool b) = pure (.bool b) := rfl
@[py] theorem readVar_int (i : Int) : readVar (.int i) = pure (.int i) := rfl
@[py] theorem readVar_float (x : PyFloat) : readVar (.float x) = pure (.float x) := rfl
@[py] theorem readVar_str (s : List Char) : readVar (.str s) = pure (.str s) := rfl
@[py] theorem readVar_bytes (s : Bytes) : readVar (.bytes s) = pure (.bytes s) := rfl
@[py] theorem readVar_tuple (l : List Val) : readVar (.tuple l) = pure (.tuple l) := rfl
@[py] theorem readVar_constList (l : List Val) : readVar (.constList l) = pure (.constList l) := rfl
@[py] theorem readVar_constDict (l : List (Val × Val)) : readVar (.constDict l) = pure (.constDict l) := rfl
@[py] theorem readVar_obj (c : String) (fs : List (String × Val)) : readVar (.obj c fs) = pure (.obj c fs) := rfl
@[py] theorem readVar_ref (a : Nat) : readVar (.ref a) = pure (.ref a) := rfl
@[py] theorem readVar_cls (c : String) : readVar (.cls c) = pure (.cls c) := rfl
@[py] theorem readVar_builtin (b : Builtin) : readVar (.builtin b) = pure (.builtin b) := rfl
@[py] theorem readVar_meth (v : Val) (n : String) : readVar (.meth v n) = pure (.meth v n) := rfl
@[py] theorem readVar_regex (r : List Char) : readVar (.regex r) = pure (.regex r) := rfl
@[py] theorem readVar_reMatch (g : List (String × Val)) : readVar (.reMatch g) = pure (.reMatch g) := rfl
@[py] theorem readVar_memoryview (b : Bytes) : readVar (.memoryview b) = pure (.memoryview b) := rfl
@[py] theorem readVar_cell (a : Nat) : readVar (.cell a) = (do
    match ← load a with
    | .cell v => pure v
    | _ => stuck) := rfl

/-- Assignment to a variable that is not shared with a nested function. -/
theorem setVar_plain (e : Env) (x : String) (v : Val) (h : ∀ a, Dict.get e.vars x ≠ some (.cell a)) :
    setVar e x v = pure (e.set x v) := by
  unfold setVar
  split
  · rename_i a ha
    exact absurd ha (h a)
  · rfl

@[py] theorem setVar_eq (e : Env) (x : String) (v : Val) :
    setVar e x v = match Dict.get e.vars x with
      | some (.cell a) => (do store a (.cell v); pure e)
      | _ => pure (e.set x v) := rfl

/-! ### Values of built-in types -/

section
variable (P : Program) (W : World)

@[py] theorem instOf_obj (c : String) (fs : List (String × Val)) : instOf (.obj c fs) = pure (some (c, fs)) := rfl
@[py] theorem instOf_none : instOf .none = pure .none := rfl
@[py] theorem instOf_bool (b : Bool) : instOf (.bool b) = pure .none := rfl
@[py] theorem instOf_int (i : Int) : instOf (.int i) = pure .none := rfl
@[py] theorem instOf_float (x : PyFloat) : instOf (.float x) = pure .none := rfl
@[py] theorem instOf_str (s : List Char) : instOf (.str s) = pure .none := rfl
@[py] theorem instOf_bytes (s : Bytes) : instOf (.bytes s) = pure .none := rfl
@[py] theorem instOf_tuple (l : List Val) : instOf (.tuple l) = pure .none := rfl
@[py] theorem instOf_cls (c : String) : instOf (.cls c) = pure .none := rfl
@[py] theorem instOf_module (c : String) : instOf (.module c) = pure .none := rfl
@[py] theorem instOf_builtin (b : Builtin) : instOf (.builtin b) = pure .none := rfl
@[py] theorem instOf_regex (p : List Char) : instOf (.regex p) = pure .none := rfl
@[py] theorem instOf_reMatch (g : List (String × Val)) : instOf (.reMatch g) = pure .none := rfl
@[py] theorem instOf_constDict (d : List (Val × Val)) : instOf (.constDict d) = pure .none := rfl
@[py] theorem instOf_constList (d : List Val) : instOf (.constList d) = pure .none := rfl
@[py] theorem instOf_iter (a : Nat) : instOf (.iter a) = pure .none := rfl
@[py] theorem instOf_zip (a b : Val) : instOf (.zip a b) = pure .none := rfl
@[py] theorem instOf_range (a b : Int) : instOf (.range a b) = pure .none := rfl
@[py] theorem instOf_dictItems (a : Nat) : instOf (.dictItems a) = pure .none := rfl
@[py] theorem instOf_dictValues (a : Nat) : instOf (.dictValues a) = pure .none := rfl
@[py] theorem instOf_memoryview (b : Bytes) : instOf (.memoryview b) = pure .none := rfl
@[py] theorem instOf_gen (m : String) (b : List Stmt) (v : List (String × Val)) : instOf (.gen m b v) = pure .none := rfl

attribute [py] methodOf boundMethod

@[py] theorem objAt_none : objAt .none = pure .none := rfl
@[py] theorem objAt_bool (b : Bool) : objAt (.bool b) = pure .none := rfl
@[py] theorem objAt_int (i : Int) : objAt (.int i) = pure .none := rfl
@[py] theorem objAt_float (x : PyFloat) : objAt (.float x) = pure .none := rfl
@[py] theorem objAt_str (s : List Char) : objAt (.str s) = pure .none := rfl
@[py] theorem objAt_bytes (s : Bytes) : objAt (.bytes s) = pure .none := rfl
@[py] theorem objAt_tuple (l : List Val) : objAt (.tuple l) = pure .none := rfl
@[py] theorem objAt_obj (c : String) (fs : List (String × Val)) : objAt (.obj c fs) = pure .none := rfl
@[py] theorem objAt_builtin (b : Builtin) : objAt (.builtin b) = pure .none := rfl
@[py] theorem objAt_regex (p : List Char) : objAt (.regex p) = pure .none := rfl
@[py] theorem objAt_reMatch (g : List (String × Val)) : objAt (.reMatch g) = pure .none := rfl
@[py] theorem objAt_memoryview (b : Bytes) : objAt (.memoryview b) = pure .none := rfl

@[py] theorem truthy_none : truthy P W .none = pure false := by rw [truthy]; rfl
@[py] theorem truthy_bool (b : Bool) : truthy P W (.bool b) = pure b := by rw [truthy]; rfl
@[py] theorem truthy_int (i : Int) : truthy P W (.int i) = pure (decide (i ≠ 0)) := by rw [truthy]; rfl
@[py] theorem truthy_str (s : List Char) : truthy P W (.str s) = pure (!s.isEmpty) := by rw [truthy]; rfl

@[py] theorem binary_int_int (op : BinOp) (i j : Int) : binary P W op (.int i) (.int j) = intOp op i j := by
  rw [binary]; rfl

@[py] theorem binary_int_float (op : BinOp) (i : Int) (x : PyFloat) :
    binary P W op (.int i) (.float x) = floatOp W op (.fin (fl i)) x := by rw [binary]; rfl
@[py] theorem binary_float_int (op : BinOp) (i : Int) (x : PyFloat) :
    binary P W op (.float x) (.int i) = floatOp W op x (.fin (fl i)) := by rw [binary]; rfl
@[py] theorem binary_float_float (op : BinOp) (x y : PyFloat) :
    binary P W op (.float x) (.float y) = floatOp W op x y := by rw [binary]; rfl
@[py] theorem binary_bytes_bytes (x y : Bytes) :
    binary P W .add (.bytes x) (.bytes y) = pure (.bytes (x ++ y)) := by rw [binary]; rfl

theorem binary_prim (op : BinOp) (a b : Val) (ha : instOf a = pure .none) :
    binary P W op a b = primOp W op a b := by rw [binary]; simp only [methodOf, ha, pure_bind]

@[py] theorem compareOp_eq (a b : Val) : compareOp P W .eq a b = richCmp P W .eq a b := by rw [compareOp] <;> simp
@[py] theorem compareOp_ne (a b : Val) : compareOp P W .ne a b = richCmp P W .ne a b := by rw [compareOp] <;> simp
@[py] theorem compareOp_lt (a b : Val) : compareOp P W .lt a b = richCmp P W .lt a b := by rw [compareOp] <;> simp
@[py] theorem compareOp_le (a b : Val) : compareOp P W .le a b = richCmp P W .le a b := by rw [compareOp] <;> simp
@[py] theorem compareOp_gt (a b : Val) : compareOp P W .gt a b = richCmp P W .gt a b := by rw [compareOp] <;> simp
@[py] theorem compareOp_ge (a b : Val) : compareOp P W .ge a b = richCmp P W .ge a b := by rw [compareOp] <;> simp

theorem richCmp_prim (op : CmpOp) (a b : Val) (ha : instOf a = pure .none) (hb : instOf b = pure .none)
    (ht : ∀ l m, a = .tuple l → b = .tuple m → False) : richCmp P W op a b = cmpPrim op a b := by
  rw [richCmp]
  · simp only [methodOf, ha, hb, pure_bind]
  · exact ht

@[py] theorem richCmp_int_int (op : CmpOp) (i j : Int) : richCmp P W op (.int i) (.int j) = cmpPrim op (.int i) (.int j) :=
  richCmp_prim P W op _ _ rfl rfl (by simp)
@[py] theorem richCmp_float_float (op : CmpOp) (i j : PyFloat) :
    richCmp P W op (.float i) (.float j) = cmpPrim op (.float i) (.float j) :=
  richCmp_prim P W op _ _ rfl rfl (by simp)
@[py] theorem richCmp_int_float (op : CmpOp) (i : Int) (j : PyFloat) :
    richCmp P W op (.int i) (.float j) = cmpPrim op (.int i) (.float j) :=
  richCmp_prim P W op _ _ rfl rfl (by simp)
@[py] theorem richCmp_float_int (op : CmpOp) (i : PyFloat) (j : Int) :
    richCmp P W op (.float i) (.int j) = cmpPrim op (.float i) (.int j) :=
  richCmp_prim P W op _ _ rfl rfl (by simp)
@[py] theorem richCmp_str_str (op : CmpOp) (i j : List Char) :
    richCmp P W op (.str i) (.str j) = cmpPrim op (.str i) (.str j) :=
  richCmp_prim P W op _ _ rfl rfl (by simp)
@[py] theorem richCmp_bytes_bytes (op : CmpOp) (i j : Bytes) :
    richCmp P W op (.bytes i) (.bytes j) = cmpPrim op (.bytes i) (.bytes j) :=
  richCmp_prim P W op _ _ rfl rfl (by simp)
@[py] theorem richCmp_bytes_int (op : CmpOp) (i : Bytes) (j : Int) :
    richCmp P W op (.bytes i) (.int j) = cmpPrim op (.bytes i) (.int j) :=
  richCmp_prim P W op _ _ rfl rfl (by simp)
@[py] theorem richCmp_tuple (op : CmpOp) (l m : List Val) :
    richCmp P W op (.tuple l) (.tuple m) = (do let r ← tupleCmp P W op l m; pure (.bool r)) := by rw [richCmp]

@[py] theorem cmpPrim_eq (i j : Int) : cmpPrim .eq (.int i) (.int j) = pure (.bool (decide (i = j))) := rfl
@[py] theorem cmpPrim_ne (i j : Int) : cmpPrim .ne (.int i) (.int j) = pure (.bool (decide (i ≠ j))) := rfl
@[py] theorem cmpPrim_lt (i j : Int) : cmpPrim .lt (.int i) (.int j) = pure (.bool (decide (i < j))) := rfl
@[py] theorem cmpPrim_le (i j : Int) : cmpPrim .le (.int i) (.int j) = pure (.bool (decide (i ≤ j))) := rfl
@[py] theorem cmpPrim_gt (i j : Int) : cmpPrim .gt (.int i) (.int j) = pure (.bool (decide (i > j))) := rfl
@[py] theorem cmpPrim_ge (i j : Int) : cmpPrim .ge (.int i) (.int j) = pure (.bool (decide (i ≥ j))) := rfl

@[py] theorem intOp_add (i j : Int) : intOp .add i j = pure (.int (i + j)) := rfl
@[py] theorem intOp_sub (i j : Int) : intOp .sub i j = pure (.int (i - j)) := rfl
@[py] theorem intOp_mul (i j : Int) : intOp .mul i j = pure (.int (i * j)) := rfl
@[py] theorem intOp_band (i j : Int) : intOp .band i j = pure (.int (Int.land i j)) := rfl
@[py] theorem intOp_bor (i j : Int) : intOp .bor i j = pure (.int (Int.lor i j)) := rfl
@[py] theorem intOp_floorDiv (i j : Int) :
    intOp .floorDiv i j = if j = 0 then raise .zeroDivisionError else pure (.int (pyFloorDiv i j)) := rfl
@[py] theorem intOp_mod (i j : Int) :
    intOp .mod i j = if j = 0 then raise .zeroDivisionError else pure (.int (pyMod i j)) := rfl
@[py] theorem intOp_shr (i j : Int) :
    intOp .shr i j = if j < 0 then raise .valueError else pure (.int (i >>> j.toNat)) := rfl
@[py] theorem intOp_shl (i j : Int) :
    intOp .shl i j = if j < 0 then raise .valueError else pure (.int (i <<< j.toNat)) := rfl
@[py] theorem intOp_div (i j : Int) :
    intOp .div i j = if j = 0 then raise .zeroDivisionError else pure (.float (.fin (fl ((i : ℚ) / j)))) := rfl

end

@[py] theorem format_int (P : Program) (W : World) (i : Int) : format P W "" (.int i) = pure (intStr i) := by
  rw [format]; rfl
@[py] theorem format_int_d (P : Program) (W : World) (i : Int) : format P W "d" (.int i) = pure (intStr i) := by
  rw [format]; rfl
@[py] theorem format_str (P : Program) (W : World) (s : List Char) : format P W "" (.str s) = pure s := by
  rw [format]; rfl
@[py] theorem format_str_s (P : Program) (W : World) (s : List Char) : format P W "s" (.str s) = pure s := by
  rw [format]; rfl
@[py] theorem format_float (P : Program) (W : World) (q : ℚ) :
    format P W "" (.float (.fin q)) = pure (W.floatText.text q) := by rw [format]; rfl

/-! ### Calls -/

section
variable (P : Program) (W : World) (args : List Val) (kws : List (String × Val))

@[py] theorem call_func (m x : String) :
    call P W (.func m x) args kws = (do let d ← orStuck (P.func m x); callFun P W d args kws) := by rw [call]
@[py] theorem call_cls (c : String) : call P W (.cls c) args kws = construct P W c args kws := by rw [call]
@[py] theorem call_exc (e : PyErr) : call P W (.excClass e) args kws = pure (.exc e) := by rw [call]
@[py] theorem call_builtin (b : Builtin) : call P W (.builtin b) args kws = callBuiltin P W b args kws := by rw [call]
theorem call_obj (c : String) (fs : List (String × Val)) (m : String) (f : FunDef) (hf : P.method c m = some f)
    (hs : f.deco ≠ .staticmethod ∧ f.deco ≠ .classmethod) :
    call P W (.meth (.obj c fs) m) args kws = callFun P W f (.obj c fs :: args) kws := by
  rw [call.eq_def]
  simp only [boundMethod, methodOf, instOf_obj, pure_bind, hf]
  cases h : f.deco <;> simp_all
theorem getAttr_field (c : String) (fs : List (String × Val)) (x : String) (v : Val) (h : Dict.get fs x = some v) :
    getAttr P W (.obj c fs) x = pure v := by
  rw [getAttr] <;> simp [instOf_obj, pure_bind, h]
theorem getAttr_meth (c : String) (fs : List (String × Val)) (x : String) (f : FunDef) (h : Dict.get fs x = .none)
    (hx : x ≠ "__class__") (hf : P.method c x = some f) (hd : f.deco ≠ .property) :
    getAttr P W (.obj c fs) x = pure (.meth (.obj c fs) x) := by
  rw [getAttr] <;> simp [instOf_obj, h, hx, hf, hd]
theorem getAttr_prop (c : String) (fs : List (String × Val)) (x : String) (f : FunDef) (h : Dict.get fs x = .none)
    (hx : x ≠ "__class__") (hf : P.method c x = some f) (hd : f.deco = .property) :
    getAttr P W (.obj c fs) x = callFun P W f [.obj c fs] [] := by
  rw [getAttr] <;> simp [instOf_obj, h, hx, hf, hd]
@[py] theorem getAttr_class (c : String) (fs : List (String × Val)) (h : Dict.get fs "__class__" = .none) :
    getAttr P W (.obj c fs) "__class__" = pure (.cls c) := by
  rw [getAttr] <;> simp [instOf_obj, h]
@[py] theorem getAttr_name (c : String) : getAttr P W (.cls c) "__name__" = pure (.str c.toList) := by
  rw [getAttr]; simp [instOf_cls]

/-- Comparison of an instance with anything but `!=`. -/
theorem richCmp_obj (op : CmpOp) (hop : op ≠ .ne) (c : String) (fs : List (String × Val)) (b : Val) (f : FunDef)
    (hf : P.method c op.dunder = some f) : richCmp P W op (.obj c fs) b = callFun P W f [.obj c fs, b] [] := by
  rw [richCmp]
  · simp only [methodOf, instOf_obj, pure_bind, hf, hop, if_false, bind_pure]
  · simp

theorem richCmp_obj_ne (c : String) (fs : List (String × Val)) (b : Val) (f : FunDef)
    (hf : P.method c "__eq__" = some f) :
    richCmp P W .ne (.obj c fs) b = (do
      let r ← callFun P W f [.obj c fs, b] []
      let t ← truthy P W r
      pure (.bool !t)) := by
  rw [richCmp]
  · simp only [methodOf, instOf_obj, pure_bind, CmpOp.dunder, hf, if_true]
  · simp

theorem binary_obj (op : BinOp) (c : String) (fs : List (String × Val)) (b : Val) (f : FunDef)
    (hf : P.method c op.dunder = some f) : binary P W op (.obj c fs) b = callFun P W f [.obj c fs, b] [] := by
  rw [binary]
  simp only [methodOf, instOf_obj, pure_bind, hf]

end

/-! ### Expressions and statements -/

attribute [py] isKey evalE evalArgs evalDict evalParts evalChain execS execB assign bindParams

end Melodia.Python

/-! ### Computations on a given memory -/

namespace Melodia.Python

/-- Equations for computations on a given memory. -/
theorem run_pure {α : Type} (a : α) (h : Heap) : (pure a : M α) h = some (.ok a h) := rfl
theorem run_pure_bind {α β : Type} (a : α) (f : α → M β) (h : Heap) : (pure a >>= f) h = f a h := rfl
theorem run_alloc {β : Type} (o : Obj) (f : Nat → M β) (h : Heap) :
    (alloc o >>= f) h = f h.objs.length { h with objs := h.objs ++ [o] } := rfl
theorem run_store {β : Type} (a : Nat) (o : Obj) (f : Unit → M β) (h : Heap) :
    (store a o >>= f) h = f () { h with objs := h.objs.set a o } := rfl
theorem run_load {β : Type} (a : Nat) (f : Obj → M β) (h : Heap) :
    (load a >>= f) h = match h.objs[a]? with
      | some o => f o h
      | .none => .none := by
  simp only [bind_apply, load]
  cases h.objs[a]? <;> rfl
theorem run_nextItem {β : Type} (it : Val) (i : Nat) (f : Option Val → M β) (h : Heap) :
    (nextItem it i >>= f) h = f (itemAt h it i) h := rfl
theorem run_ite {α : Type} (c : Prop) [Decidable c] (x y : M α) (h : Heap) :
    (if c then x else y) h = if c then x h else y h := by split <;> rfl
theorem run_raise {α : Type} (e : PyErr) (h : Heap) : (raise e : M α) h = some (.err e h) := rfl

/-! ### Loops over an iterator -/

section
variable (P : Program) (W : World)

theorem dictLoop_none (k e : Expr) (p : Pat) (it : Val) (i : Nat) (d : List (Val × Val)) (env : Env) (h : Heap)
    (hi : itemAt h it i = .none) : dictLoop P W k e p it i d env h = some (.ok d h) := by
  rw [dictLoop, run_nextItem, hi]; rfl
theorem dictLoop_some (k e : Expr) (p : Pat) (it : Val) (i : Nat) (d : List (Val × Val)) (env : Env) (h : Heap) (v : Val)
    (hi : itemAt h it i = some v) : dictLoop P W k e p it i d env h = (do
      let vars ← bindPat p v env.vars
      let x ← evalE P W k { env with vars := vars }
      let y ← evalE P W e { env with vars := vars }
      if isKey x then dictLoop P W k e p it (i + 1) (dictSet d x y) env else stuck : M _) h := by
  rw [dictLoop, run_nextItem, hi]

theorem compLoop_none (e : Expr) (p : Pat) (it : Val) (i : Nat) (env : Env) (h : Heap)
    (hi : itemAt h it i = .none) : compLoop P W e p it i env h = some (.ok [] h) := by
  rw [compLoop, run_nextItem, hi]; rfl
theorem compLoop_some (e : Expr) (p : Pat) (it : Val) (i : Nat) (env : Env) (h : Heap) (v : Val)
    (hi : itemAt h it i = some v) : compLoop P W e p it i env h = (do
      let vars ← bindPat p v env.vars
      let x ← evalE P W e { env with vars := vars }
      let xs ← compLoop P W e p it (i + 1) env
      pure (x :: xs) : M _) h := by
  rw [compLoop, run_nextItem, hi]

theorem forLoop_none (p : Pat) (body : List Stmt) (it : Val) (i : Nat) (env : Env) (h : Heap)
    (hi : itemAt h it i = .none) : forLoop P W p body it i env h = some (.ok (.next env) h) := by
  rw [forLoop, run_nextItem, hi]; rfl
theorem forLoop_some (p : Pat) (body : List Stmt) (it : Val) (i : Nat) (env : Env) (h : Heap) (v : Val)
    (hi : itemAt h it i = some v) : forLoop P W p body it i env h = (do
      let vars ← bindPat p v env.vars
      match ← execB P W body { env with vars := vars } with
      | .next env => forLoop P W p body it (i + 1) env
      | .cont env => forLoop P W p body it (i + 1) env
      | .brk env => pure (.next env)
      | .ret v env => pure (.ret v env) : M _) h := by
  rw [forLoop, run_nextItem, hi]; rfl

theorem sumLoop_none (it : Val) (i : Nat) (acc : Val) (h : Heap)
    (hi : itemAt h it i = .none) : sumLoop P W it i acc h = some (.ok acc h) := by
  rw [sumLoop, run_nextItem, hi]; rfl
theorem sumLoop_some (it : Val) (i : Nat) (acc : Val) (h : Heap) (v : Val)
    (hi : itemAt h it i = some v) : sumLoop P W it i acc h = (do
      let r ← binary P W .add acc v
      sumLoop P W it (i + 1) r : M _) h := by
  rw [sumLoop, run_nextItem, hi]

theorem collect_none (it : Val) (i : Nat) (h : Heap)
    (hi : itemAt h it i = .none) : collect P W it i h = some (.ok [] h) := by
  rw [collect, run_nextItem, hi]; rfl
theorem collect_some (it : Val) (i : Nat) (h : Heap) (v : Val)
    (hi : itemAt h it i = some v) : collect P W it i h = (do
      let vs ← collect P W it (i + 1)
      pure (v :: vs) : M _) h := by
  rw [collect, run_nextItem, hi]

theorem anyEq_none (a it : Val) (i : Nat) (h : Heap)
    (hi : itemAt h it i = .none) : anyEq P W a it i h = some (.ok false h) := by
  rw [anyEq, run_nextItem, hi]; rfl
theorem anyEq_some (a it : Val) (i : Nat) (h : Heap) (v : Val)
    (hi : itemAt h it i = some v) : anyEq P W a it i h = (do
      let r ← richCmp P W .eq v a
      let t ← truthy P W r
      if t then pure true else anyEq P W a it (i + 1) : M _) h := by
  rw [anyEq, run_nextItem, hi]

end

/-! ### Iterators that do not depend on the memory -/

section
variable (P : Program) (W : World)

/-- A comprehension over the characters of a string. -/
theorem compLoop_str (e : Expr) (x : String) (s : List Char) (env : Env) (f : Char → Val)
    (he : ∀ c, evalE P W e { env with vars := Dict.set env.vars x (.str [c]) } = pure (f c)) :
    ∀ (n i : Nat), s.length - i = n → compLoop P W e (.name x) (.str s) i env = pure ((s.drop i).map f) := by
  intro n
  induction n with
  | zero =>
    intro i hi
    ext1 h
    have : s.length ≤ i := by omega
    rw [compLoop_none _ _ _ _ _ _ _ _ (by simp [itemAt, this]), List.drop_eq_nil_of_le this]
    rfl
  | succ n ih =>
    intro i hi
    ext1 h
    have hlt : i < s.length := by omega
    rw [compLoop_some _ _ _ _ _ _ _ _ (.str [s[i]]) (by simp [itemAt, hlt]), bindPat, pure_bind, he, pure_bind,
      ih (i + 1) (by omega), pure_bind, List.drop_eq_getElem_cons hlt]
    rfl

/-- `sum` of ints. -/
theorem sumLoop_ints (l : List Int) : ∀ (n i : Nat) (a : Int), l.length - i = n →
    sumLoop P W (.constList (l.map Val.int)) i (.int a) = pure (.int (a + (l.drop i).sum)) := by
  intro n
  induction n with
  | zero =>
    intro i a hi
    ext1 h
    have : l.length ≤ i := by omega
    rw [sumLoop_none _ _ _ _ _ _ (by simp [itemAt, this]), List.drop_eq_nil_of_le this]
    simp [pure_apply]
  | succ n ih =>
    intro i a hi
    ext1 h
    have hlt : i < l.length := by omega
    rw [sumLoop_some _ _ _ _ _ _ (.int l[i]) (by simp [itemAt, hlt]), binary_int_int, intOp_add, pure_bind,
      ih (i + 1) _ (by omega), List.drop_eq_getElem_cons hlt, List.sum_cons, add_assoc]

end

/-- Calls that bind the parameters to the same values have the same outcome. -/
theorem callFun_congr (P : Program) (W : World) (f : FunDef) (args args' : List Val) (kws kws' : List (String × Val))
    (h : bindParams P W f.params args kws { mod := f.mod, vars := [] } =
      bindParams P W f.params args' kws' { mod := f.mod, vars := [] }) :
    callFun P W f args kws = callFun P W f args' kws' := by
  rw [callFun, callFun, h]

end Melodia.Python
