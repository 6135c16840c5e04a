/-
Running blocks and loops of Python code whose variables are known in part (semantics: Verif/Python/Semantics.lean).
-/
import Verif.Lemmas.PyHeap
import Verif.Lemmas.Dict

set_option autoImplicit false

namespace Melodia

open Melodia.Python

namespace Python

/-! ### Variables known in part -/

/-- What is known about variables: the values of some names, `none` for those that are no variables; none is shared. -/
structure Has (m : String) (env : Env) (l : List (String × Option Val)) : Prop where
  mod : env.mod = m
  get : ∀ p ∈ l, Dict.get env.vars p.1 = p.2
  cell : ∀ x a, Dict.get env.vars x ≠ some (.cell a)

theorem Has.weaken {m : String} {env : Env} {l l' : List (String × Option Val)} (H : Has m env l) (hl : ∀ p ∈ l', p ∈ l) :
    Has m env l' := ⟨H.mod, fun p hp => H.get p (hl p hp), H.cell⟩

theorem Has.set {m : String} {env : Env} {l : List (String × Option Val)} (H : Has m env l) (x : String) {v : Val}
    (hv : ∀ a, v ≠ .cell a) (hx : ∀ p ∈ l, p.1 ≠ x) : Has m (env.set x v) ((x, some v) :: l) := by
  refine ⟨H.mod, ?_, ?_⟩
  · intro p hp
    simp only [Env.set, Dict.get_set]
    rcases List.mem_cons.mp hp with rfl | hp
    · simp
    · rw [if_neg (Ne.symm (hx p hp)), H.get p hp]
  · intro y a
    simp only [Env.set, Dict.get_set]
    split
    · simpa using hv a
    · exact H.cell y a

theorem Has.reset {m : String} {env : Env} {l : List (String × Option Val)} (H : Has m env l) (x : String) {v : Val}
    (hv : ∀ a, v ≠ .cell a) : Has m (env.set x v) ((x, some v) :: l.filter (fun p => p.1 ≠ x)) :=
  (H.weaken (l' := l.filter (fun p => p.1 ≠ x)) (fun _ hp => (List.mem_filter.mp hp).1)).set x hv
    (fun _ hp => by simpa using (List.mem_filter.mp hp).2)

section
variable (P : Program) (W : World)

theorem Has.name {m : String} {env : Env} {l : List (String × Option Val)} (H : Has m env l) {x : String} {v : Val}
    (hx : (x, some v) ∈ l) (h : Heap) : evalE P W (.name x) env h = some (.ok v h) := by
  have hg := H.get _ hx
  have hc := H.cell x
  refine evalE_name P W hg ?_ h
  cases v <;> first | rfl | exact absurd hg (hc _)

theorem Has.global {m : String} {env : Env} {l : List (String × Option Val)} (H : Has m env l) {x : String} {v : Val}
    (hx : (x, Option.none) ∈ l) (hv : globalName P W m x = pure v) (h : Heap) :
    evalE P W (.name x) env h = some (.ok v h) :=
  evalE_global P W (H.get _ hx) (by rw [H.mod]; exact hv) h

theorem evalE_call_err {env : Env} {f : Expr} {es : List Expr} {g : Val} {h h1 h2 : Heap} {e : PyErr}
    (hf : evalE P W f env h = some (.ok g h1)) (he : evalArgs P W es env h1 = some (.err e h2)) :
    evalE P W (.call f es []) env h = some (.err e h2) := by
  rw [evalE, bind_ok hf]
  simp only [List.length_nil, Nat.sub_zero, List.take_length, List.drop_length, List.zip_nil_left]
  rw [bind_err he]

theorem evalArgs_err {env : Env} {e : Expr} {es : List Expr} {h h1 : Heap} {x : PyErr}
    (hne : ∀ x, e ≠ .star x) (he : evalE P W e env h = some (.err x h1)) :
    evalArgs P W (e :: es) env h = some (.err x h1) := by
  rw [evalArgs]
  · rw [bind_err he]
  · intro x hx; exact hne x hx

theorem evalArgs_err_tail {env : Env} {e : Expr} {es : List Expr} {v : Val} {h h1 h2 : Heap} {x : PyErr}
    (hne : ∀ x, e ≠ .star x) (he : evalE P W e env h = some (.ok v h1)) (hes : evalArgs P W es env h1 = some (.err x h2)) :
    evalArgs P W (e :: es) env h = some (.err x h2) := by
  rw [evalArgs]
  · rw [bind_ok he, bind_err hes]
  · intro x hx; exact hne x hx

theorem evalE_tuple_err {env : Env} {es : List Expr} {h h1 : Heap} {x : PyErr}
    (he : evalArgs P W es env h = some (.err x h1)) : evalE P W (.tuple es) env h = some (.err x h1) := by
  rw [evalE, bind_err he]

theorem evalE_list_err {env : Env} {es : List Expr} {h h1 : Heap} {x : PyErr}
    (he : evalArgs P W es env h = some (.err x h1)) : evalE P W (.list es) env h = some (.err x h1) := by
  rw [evalE, bind_err he]

theorem execS_setname_err {h h1 : Heap} {y : String} {e : Expr} {env : Env} {x : PyErr}
    (he : evalE P W e env h = some (.err x h1)) : execS P W (.assign (.name y) e) env h = some (.err x h1) := by
  rw [execS, bind_err he]

theorem execS_expr_err {h h1 : Heap} {e : Expr} {env : Env} {x : PyErr}
    (he : evalE P W e env h = some (.err x h1)) : execS P W (.expr e) env h = some (.err x h1) := by
  rw [execS, bind_err he]

theorem evalE_bin_err {env : Env} {a b : Expr} {op : BinOp} {x : Val} {h h1 h2 : Heap} {e : PyErr}
    (ha : evalE P W a env h = some (.ok x h1)) (hb : evalE P W b env h1 = some (.err e h2)) :
    evalE P W (.bin op a b) env h = some (.err e h2) := by
  rw [evalE, bind_ok ha, bind_err hb]

end

/-! ### Blocks and loops that may raise -/

/-- What running a block achieves: with result `r`, the block goes on to the next statement in a state with `I`, or raises in a
memory with `J`. -/
def Runs {σ : Type} (P : Program) (W : World) (ss : List Stmt) (env : Env) (h : Heap) (r : PyM σ) (I : σ → Env → Heap → Prop)
    (J : Heap → Prop) : Prop :=
  match r with
  | .ok s => ∃ env' h', execB P W ss env h = some (.ok (.next env') h') ∧ I s env' h'
  | .error e => ∃ h', execB P W ss env h = some (.err e h') ∧ J h'

section
variable {P : Program} {W : World}

theorem execB_join (s t : List Stmt) (env : Env) : execB P W (s ++ t) env = (do
    match ← execB P W s env with
    | .next env => execB P W t env
    | r => pure r) := by
  induction s generalizing env with
  | nil => rw [List.nil_append, execB, pure_bind]
  | cons x s ih =>
    rw [List.cons_append, execB, execB, bind_assoc]
    congr 1
    funext r
    cases r with
    | next env => exact ih env
    | _ => rfl

theorem execB_append_next {s t : List Stmt} {env env1 : Env} {h h1 : Heap}
    (hs : execB P W s env h = some (.ok (.next env1) h1)) : execB P W (s ++ t) env h = execB P W t env1 h1 := by
  rw [execB_join, bind_ok hs]

theorem execB_append_err {s t : List Stmt} {env : Env} {h h1 : Heap} {e : PyErr}
    (hs : execB P W s env h = some (.err e h1)) : execB P W (s ++ t) env h = some (.err e h1) := by
  rw [execB_join, bind_err hs]

theorem Runs.seq {σ τ : Type} {ss ts : List Stmt} {env : Env} {h : Heap} {r : PyM σ} {f : σ → PyM τ}
    {I : σ → Env → Heap → Prop} {K : τ → Env → Heap → Prop} {J J' : Heap → Prop} (hs : Runs P W ss env h r I J)
    (hJ : ∀ h', J h' → J' h')
    (ht : ∀ s env' h', r = .ok s → I s env' h' → Runs P W ts env' h' (f s) K J') :
    Runs P W (ss ++ ts) env h (r >>= f) K J' := by
  cases r with
  | error e =>
    obtain ⟨h', h1, h2⟩ := hs
    exact ⟨h', execB_append_err h1, hJ _ h2⟩
  | ok s =>
    obtain ⟨env', h', h1, h2⟩ := hs
    have := ht s env' h' rfl h2
    change Runs P W _ _ _ (f s) K J'
    revert this
    cases f s with
    | error e => rintro ⟨h'', h3, h4⟩; exact ⟨h'', (execB_append_next h1).trans h3, h4⟩
    | ok u => rintro ⟨env'', h'', h3, h4⟩; exact ⟨env'', h'', (execB_append_next h1).trans h3, h4⟩

theorem Runs.cons {σ τ : Type} {s : Stmt} {ts : List Stmt} {env : Env} {h : Heap} {r : PyM σ} {f : σ → PyM τ}
    {I : σ → Env → Heap → Prop} {K : τ → Env → Heap → Prop} {J J' : Heap → Prop} (hs : Runs P W [s] env h r I J)
    (hJ : ∀ h', J h' → J' h')
    (ht : ∀ s env' h', r = .ok s → I s env' h' → Runs P W ts env' h' (f s) K J') :
    Runs P W (s :: ts) env h (r >>= f) K J' := Runs.seq (ss := [s]) hs hJ ht

theorem Runs.next {τ : Type} {s : Stmt} {ts : List Stmt} {env env1 : Env} {h h1 : Heap} {r : PyM τ}
    {K : τ → Env → Heap → Prop} {J : Heap → Prop} (hs : execS P W s env h = some (.ok (.next env1) h1))
    (ht : Runs P W ts env1 h1 r K J) : Runs P W (s :: ts) env h r K J := by
  cases r with
  | error e => obtain ⟨h', h3, h4⟩ := ht; exact ⟨h', (execB_next _ _ hs).trans h3, h4⟩
  | ok u => obtain ⟨env', h', h3, h4⟩ := ht; exact ⟨env', h', (execB_next _ _ hs).trans h3, h4⟩

theorem Runs.fail {τ : Type} {s : Stmt} {ts : List Stmt} {env : Env} {h h1 : Heap} {e : PyErr}
    {K : τ → Env → Heap → Prop} {J : Heap → Prop} (hs : execS P W s env h = some (.err e h1)) (hJ : J h1) :
    Runs P W (s :: ts) env h (.error e) K J := ⟨h1, execB_err _ _ hs, hJ⟩

theorem Runs.done {τ : Type} {env : Env} {h : Heap} {t : τ} {K : τ → Env → Heap → Prop} {J : Heap → Prop} (hK : K t env h) :
    Runs P W [] env h (.ok t) K J := ⟨env, h, execB_nil _ _ _ _, hK⟩

theorem Runs.mono {σ : Type} {ss : List Stmt} {env : Env} {h : Heap} {r : PyM σ} {I I' : σ → Env → Heap → Prop}
    {J J' : Heap → Prop} (hs : Runs P W ss env h r I J) (hI : ∀ s env h, r = .ok s → I s env h → I' s env h)
    (hJ : ∀ h, J h → J' h) : Runs P W ss env h r I' J' := by
  cases r with
  | error e => obtain ⟨h', h1, h2⟩ := hs; exact ⟨h', h1, hJ _ h2⟩
  | ok s => obtain ⟨env', h', h1, h2⟩ := hs; exact ⟨env', h', h1, hI _ _ _ rfl h2⟩

/-- A loop over a list that the body does not change. -/
theorem forLoop_fold {σ α : Type} {p : Pat} {body : List Stmt} {l : Nat} {xs : List α} {g : α → Val}
    (I : σ → Env → Heap → Prop) (J : Heap → Prop) (step : σ → α → PyM σ)
    (hl : ∀ s env h, I s env h → h.objs[l]? = some (.list (xs.map g)))
    (hstep : ∀ s env h x, x ∈ xs → I s env h → ∃ vars, bindPat p (g x) env.vars = pure vars ∧
      Runs P W body { env with vars := vars } h (step s x) I J)
    {s : σ} {env : Env} {h : Heap} (hI : I s env h) :
    match xs.foldlM step s with
    | .ok s' => ∃ env' h', forLoop P W p body (.iter l) 0 env h = some (.ok (.next env') h') ∧ I s' env' h'
    | .error e => ∃ h', forLoop P W p body (.iter l) 0 env h = some (.err e h') ∧ J h' := by
  have : ∀ n i s env h, xs.length - i = n → I s env h →
      match (xs.drop i).foldlM step s with
      | .ok s' => ∃ env' h', forLoop P W p body (.iter l) i env h = some (.ok (.next env') h') ∧ I s' env' h'
      | .error e => ∃ h', forLoop P W p body (.iter l) i env h = some (.err e h') ∧ J h' := by
    intro n
    induction n with
    | zero =>
      intro i s env h hi hI
      rw [List.drop_eq_nil_of_le (by omega)]
      refine ⟨env, h, forLoop_none _ _ _ _ _ _ _ _ ?_, hI⟩
      simp only [itemAt, hl _ _ _ hI]
      exact List.getElem?_eq_none (by simp; omega)
    | succ n ih =>
      intro i s env h hi hI
      have hlt : i < xs.length := by omega
      obtain ⟨vars, hv, hr⟩ := hstep s env h xs[i] (List.getElem_mem hlt) hI
      rw [List.drop_eq_getElem_cons hlt, List.foldlM_cons,
        forLoop_some P W _ _ _ i env h (g xs[i]) (by simp [itemAt, hl _ _ _ hI, hlt]), hv, pure_bind]
      revert hr
      cases step s xs[i] with
      | error e =>
        rintro ⟨h', h1, h2⟩
        exact ⟨h', by rw [bind_err h1], h2⟩
      | ok s' =>
        rintro ⟨env', h', h1, h2⟩
        rw [bind_ok h1]
        exact ih (i + 1) s' env' h' (by omega) h2
  simpa using this _ 0 s env h rfl hI

/-- A `for` statement over such a list. -/
theorem Runs.for {σ α : Type} {p : Pat} {body : List Stmt} {l : Nat} {xs : List α} {g : α → Val} {e : Expr} {v : Val}
    (I : σ → Env → Heap → Prop) (J : Heap → Prop) (step : σ → α → PyM σ) {s : σ} {env : Env} {h h1 h2 : Heap}
    (he : evalE P W e env h = some (.ok v h1)) (hg : getIter P W v h1 = some (.ok (.iter l) h2))
    (hl : ∀ s env h, I s env h → h.objs[l]? = some (.list (xs.map g)))
    (hstep : ∀ s env h x, x ∈ xs → I s env h → ∃ vars, bindPat p (g x) env.vars = pure vars ∧
      Runs P W body { env with vars := vars } h (step s x) I J) (hI : I s env h2) :
    Runs P W [.for p e body] env h (xs.foldlM step s) I J := by
  have := forLoop_fold (P := P) (W := W) (p := p) (body := body) I J step hl hstep hI
  rw [Runs.eq_def]
  revert this
  cases xs.foldlM step s with
  | ok s' =>
    rintro ⟨env', h', h3, h4⟩
    refine ⟨env', h', ?_, h4⟩
    rw [execB_next _ _ ((execS_for _ _ he hg (by simp)).trans h3), execB_nil]
  | error x =>
    rintro ⟨h', h3, h4⟩
    exact ⟨h', execB_err _ _ ((execS_for _ _ he hg (by simp)).trans h3), h4⟩

end

end Python

end Melodia
