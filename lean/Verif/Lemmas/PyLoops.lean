/-
Loops of Python code beside a computation of the model that may raise (semantics: Verif/Python/Semantics.lean).
-/
import Verif.Lemmas.PyStep

set_option autoImplicit false

namespace Melodia.Python

/-- A computation ends as the computation `m` of the model: with a value and memory related to its value by `Q`, or with the
same exception and a memory with `E`. -/
def Ends {α β : Type} (x : Option (Res α)) (m : PyM β) (Q : β → α → Heap → Prop) (E : Heap → Prop) : Prop :=
  match m with
  | .ok b => ∃ a h, x = some (.ok a h) ∧ Q b a h
  | .error e => ∃ h, x = some (.err e h) ∧ E h

theorem Ends.mono {α β : Type} {x : Option (Res α)} {m : PyM β} {Q Q' : β → α → Heap → Prop} {E E' : Heap → Prop}
    (hx : Ends x m Q E) (hQ : ∀ b a h, m = .ok b → Q b a h → Q' b a h) (hE : ∀ h, E h → E' h) : Ends x m Q' E' := by
  cases m with
  | ok b => obtain ⟨a, h, h1, h2⟩ := hx; exact ⟨a, h, h1, hQ _ _ _ rfl h2⟩
  | error e => obtain ⟨h, h1, h2⟩ := hx; exact ⟨h, h1, hE _ h2⟩

theorem Ends.bind {α β γ δ : Type} {x : Option (Res α)} {m : PyM β} {Q : β → α → Heap → Prop} {E E' : Heap → Prop}
    {f : α → M γ} {k : β → PyM δ} {Q' : δ → γ → Heap → Prop} (hx : Ends x m Q E) (hE : ∀ h, E h → E' h)
    (hf : ∀ b a h, m = .ok b → Q b a h → Ends (f a h) (k b) Q' E') : Ends (andThen x f) (m >>= k) Q' E' := by
  cases m with
  | ok b =>
    obtain ⟨a, h, h1, h2⟩ := hx
    rw [h1]
    exact hf b a h rfl h2
  | error e =>
    obtain ⟨h, h1, h2⟩ := hx
    rw [h1]
    exact ⟨h, rfl, hE _ h2⟩

theorem Ends.map {α β γ : Type} {x : Option (Res α)} {m : PyM β} {Q : β → α → Heap → Prop} {E : Heap → Prop} {f : β → γ}
    {Q' : γ → α → Heap → Prop} (hx : Ends x m Q E) (hQ : ∀ b a h, m = .ok b → Q b a h → Q' (f b) a h) :
    Ends x (m.map f) Q' E := by
  cases m with
  | ok b => obtain ⟨a, h, h1, h2⟩ := hx; exact ⟨a, h, h1, hQ _ _ _ rfl h2⟩
  | error e => exact hx

/-- The statement ends normally or with `continue`. -/
def GoesOn (I : Env → Heap → Prop) (r : Flow) (h : Heap) : Prop := ∃ env, (r = .next env ∨ r = .cont env) ∧ I env h

section
variable {P : Program} {W : World}

/-- A `for` loop whose iterator yields given values. -/
theorem forLoop_ends {σ α : Type} {p : Pat} {body : List Stmt} {it : Val} {xs : List α} {g : α → Val}
    (I : σ → Env → Heap → Prop) (J : Heap → Prop) (step : σ → α → PyM σ)
    (hl : ∀ s env h, I s env h → ∀ i, itemAt h it i = (xs.map g)[i]?)
    (hstep : ∀ s env h x, x ∈ xs → I s env h → ∃ vars, bindPat p (g x) env.vars h = some (.ok vars h) ∧
      Ends (execB P W body { env with vars := vars } h) (step s x) (fun s' => GoesOn (I s')) J)
    {s : σ} {env : Env} {h : Heap} (hI : I s env h) :
    Ends (forLoop P W p body it 0 env h) (xs.foldlM step s) (fun s' r h' => ∃ env', r = .next env' ∧ I s' env' h') J := by
  have : ∀ n i s env h, xs.length - i = n → I s env h →
      Ends (forLoop P W p body it i env h) ((xs.drop i).foldlM step s)
        (fun s' r h' => ∃ env', r = .next env' ∧ I s' env' h') J := by
    intro n
    induction n with
    | zero =>
      intro i s env h hi hI
      rw [List.drop_eq_nil_of_le (by omega)]
      refine ⟨_, _, forLoop_none _ _ _ _ _ _ _ _ ?_, env, rfl, hI⟩
      rw [hl _ _ _ hI]
      exact List.getElem?_eq_none (by simp; omega)
    | succ n ih =>
      intro i s env h hi hI
      have hlt : i < xs.length := by omega
      obtain ⟨vars, hv, hr⟩ := hstep s env h xs[i] (List.getElem_mem hlt) hI
      rw [List.drop_eq_getElem_cons hlt, List.foldlM_cons,
        forLoop_some P W _ _ _ i env h (g xs[i]) (by rw [hl _ _ _ hI]; simp [hlt]), bind_ok hv, run_bind]
      refine hr.bind (fun _ h => h) ?_
      rintro s' r h' - ⟨env', hr, hI'⟩
      rcases hr with rfl | rfl <;> exact ih (i + 1) s' env' h' (by omega) hI'
  simpa using this _ 0 s env h rfl hI

/-- Such a `for` statement. -/
theorem for_ends {σ α : Type} {p : Pat} {e : Expr} {v : Val} {body : List Stmt} {it : Val} {xs : List α} {g : α → Val}
    (I : σ → Env → Heap → Prop) (J : Heap → Prop) (step : σ → α → PyM σ) {s : σ} {env : Env} {h h1 h2 : Heap}
    (he : evalE P W e env h = some (.ok v h1)) (hg : getIter P W v h1 = some (.ok it h2)) (hit : ∀ m b vs, it ≠ .gen m b vs)
    (hl : ∀ s env h, I s env h → ∀ i, itemAt h it i = (xs.map g)[i]?)
    (hstep : ∀ s env h x, x ∈ xs → I s env h → ∃ vars, bindPat p (g x) env.vars h = some (.ok vars h) ∧
      Ends (execB P W body { env with vars := vars } h) (step s x) (fun s' => GoesOn (I s')) J) (hI : I s env h2) :
    Ends (execS P W (.for p e body) env h) (xs.foldlM step s) (fun s' r h' => ∃ env', r = .next env' ∧ I s' env' h') J := by
  rw [execS_for _ _ he hg hit]
  exact forLoop_ends I J step hl hstep hI

/-- A statement before others. -/
theorem Ends.block {σ τ : Type} {s : Stmt} {ss : List Stmt} {env : Env} {h : Heap} {m : PyM σ} {k : σ → PyM τ}
    {I : σ → Env → Heap → Prop} {E E' : Heap → Prop} {Q : τ → Flow → Heap → Prop}
    (hs : Ends (execS P W s env h) m (fun b r h' => ∃ env', r = .next env' ∧ I b env' h') E) (hE : ∀ h, E h → E' h)
    (hr : ∀ b env' h', m = .ok b → I b env' h' → Ends (execB P W ss env' h') (k b) Q E') :
    Ends (execB P W (s :: ss) env h) (m >>= k) Q E' := by
  rw [execB]
  rw [run_bind]
  refine hs.bind hE ?_
  rintro b r h' hm ⟨env', rfl, hI⟩
  exact hr b env' h' hm hI

end

end Melodia.Python
