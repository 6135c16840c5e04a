/-
Binding arguments to parameters, and the functions the calls of the program can reach.
-/
import Verif.Spec.Calls
import Verif.Lemmas.PyBasic

set_option autoImplicit false

namespace Melodia.Python

open Melodia

theorem Fits.perm {ps : Params} {n : Nat} {k k' : List String} (h : k.Perm k') : Fits ps n k ↔ Fits ps n k' := by
  unfold Fits
  rw [h.nodup_iff]
  simp only [h.mem_iff]

theorem fits_nil {ks : List String} : Fits [] 0 ks ↔ ks = [] := by
  unfold Fits
  constructor
  · rintro ⟨-, -, h, -⟩
    exact List.eq_nil_iff_forall_not_mem.mpr fun k hk => by simpa using h k hk
  · rintro rfl; simp

theorem fits_nil_pos {n : Nat} {ks : List String} : ¬ Fits [] (n + 1) ks := by
  rintro ⟨h, -⟩; simp at h

theorem fits_pos {p : String × Option Expr} {ps : Params} {n : Nat} {ks : List String} :
    Fits (p :: ps) (n + 1) ks ↔ Fits ps n ks := by
  unfold Fits; simp

theorem fits_kw {x : String} {d : Option Expr} {ps : Params} {ks : List String} (hx : x ∉ ps.map Prod.fst) :
    Fits ((x, d) :: ps) 0 (x :: ks) ↔ Fits ps 0 ks := by
  unfold Fits
  simp only [Nat.zero_le, true_and, List.nodup_cons, List.drop_zero, List.map_cons, List.mem_cons, forall_eq_or_imp, true_or]
  constructor
  · rintro ⟨⟨h1, h2⟩, h3, -, h4⟩
    refine ⟨h2, fun k hk => (h3 k hk).resolve_left fun e => h1 (e ▸ hk), fun p hp hn => (h4 p hp hn).resolve_left fun e => ?_⟩
    exact hx (e ▸ List.mem_map_of_mem hp)
  · rintro ⟨h2, h3, h4⟩
    exact ⟨⟨fun h => hx (h3 x h), h2⟩, fun k hk => .inr (h3 k hk), fun _ => trivial, fun p hp hn => .inr (h4 p hp hn)⟩

theorem fits_default {x : String} {e : Expr} {ps : Params} {ks : List String} (hk : x ∉ ks) :
    Fits ((x, some e) :: ps) 0 ks ↔ Fits ps 0 ks := by
  unfold Fits
  simp only [Nat.zero_le, true_and, List.drop_zero, List.map_cons, List.mem_cons, forall_eq_or_imp, Option.isNone_some,
    Bool.false_eq_true, false_imp_iff]
  exact and_congr_right fun _ => and_congr_left fun _ =>
    ⟨fun h k hk' => (h k hk').resolve_left fun e => hk (e ▸ hk'), fun h k hk' => .inr (h k hk')⟩

theorem fits_missing {x : String} {ps : Params} {ks : List String} (hk : x ∉ ks) : ¬ Fits ((x, none) :: ps) 0 ks :=
  fun h => hk (h.2.2.2 (x, none) (by simp) rfl)

theorem get_none {ν : Type} {d : List (String × ν)} {x : String} : Dict.get d x = none ↔ x ∉ d.map Prod.fst := by
  induction d with
  | nil => simp [Dict.get]
  | cons p d ih =>
    obtain ⟨y, v⟩ := p
    unfold Dict.get
    by_cases h : y = x
    · simp [h]
    · rw [if_neg h, ih]; simp [Ne.symm h]

theorem del_perm {ν : Type} {d : List (String × ν)} {x : String} {v : ν} (h : Dict.get d x = some v) :
    (d.map Prod.fst).Perm (x :: (Dict.del d x).map Prod.fst) := by
  induction d with
  | nil => cases h
  | cons p d ih =>
    obtain ⟨y, w⟩ := p
    unfold Dict.get at h
    unfold Dict.del
    by_cases e : y = x
    · rw [if_pos e, e]; simp
    · rw [if_neg e] at h ⊢
      simp only [List.map_cons]
      exact ((ih h).cons y).trans (List.Perm.swap _ _ _)

theorem get_del {ν : Type} {d : List (String × ν)} {x y : String} (hn : y ≠ x) : Dict.get (Dict.del d x) y = Dict.get d y := by
  induction d with
  | nil => rfl
  | cons p d ih =>
    obtain ⟨z, w⟩ := p
    unfold Dict.del
    by_cases e : z = x
    · rw [if_pos e, Dict.get, if_neg (e ▸ Ne.symm hn)]
    · rw [if_neg e]
      unfold Dict.get
      rw [ih]

theorem bind_names (P : Program) (W : World) (env : Env) (ps : Params) (hn : (ps.map Prod.fst).Nodup)
    (hd : ∀ p ∈ ps, ∀ e, p.2 = some e → ∃ v, evalE P W e env = pure v) (kws : List (String × Val)) :
    (Fits ps 0 (kws.map Prod.fst) → ∃ vs, bindParams P W ps [] kws env = pure vs ∧ BoundTo P W env ps [] kws vs) ∧
    (¬ Fits ps 0 (kws.map Prod.fst) → bindParams P W ps [] kws env = raise .typeError) := by
  induction ps generalizing kws with
  | nil =>
    rw [fits_nil, List.map_eq_nil_iff, bindParams.eq_def]
    refine ⟨?_, ?_⟩
    · rintro rfl; exact ⟨[], rfl, rfl, by simp⟩
    · intro h
      cases kws with
      | nil => exact absurd rfl h
      | cons _ _ => rfl
  | cons p ps ih =>
    obtain ⟨x, d⟩ := p
    simp only [List.map_cons, List.nodup_cons] at hn
    have hd' : ∀ p ∈ ps, ∀ e, p.2 = some e → ∃ v, evalE P W e env = pure v := fun p hp => hd p (by simp [hp])
    rw [bindParams.eq_def]
    cases hg : Dict.get kws x with
    | some v =>
      obtain ⟨i1, i2⟩ := ih hn.2 hd' (Dict.del kws x)
      rw [Fits.perm (del_perm hg), fits_kw hn.1]
      refine ⟨fun h => ?_, fun h => ?_⟩
      · obtain ⟨vs, k1, k2, k3⟩ := i1 h
        refine ⟨(x, v) :: vs, by simp [hg, k1], by simp [k2], fun i y e hi => ?_⟩
        cases i with
        | zero =>
          simp only [List.getElem?_cons_zero, Option.some.injEq, Prod.mk.injEq] at hi
          obtain ⟨rfl, rfl⟩ := hi
          exact ⟨v, rfl, by simp [hg]⟩
        | succ i =>
          simp only [List.getElem?_cons_succ] at hi
          obtain ⟨w, j1, j2⟩ := k3 i y e hi
          have hne : y ≠ x := fun h => hn.1 (h ▸ List.mem_map_of_mem (List.mem_of_getElem? hi))
          rw [get_del hne] at j2
          exact ⟨w, j1, j2⟩
      · simp [hg, i2 h]; rfl
    | none =>
      have hk := get_none.mp hg
      cases d with
      | none =>
        refine ⟨fun h => absurd h (fits_missing hk), fun _ => by simp [hg]⟩
      | some e =>
        obtain ⟨i1, i2⟩ := ih hn.2 hd' kws
        obtain ⟨w, hw⟩ := hd (x, some e) (by simp) e rfl
        rw [fits_default hk]
        refine ⟨fun h => ?_, fun h => ?_⟩
        · obtain ⟨vs, k1, k2, k3⟩ := i1 h
          refine ⟨(x, w) :: vs, by simp [hg, hw, k1], by simp [k2], fun i y e' hi => ?_⟩
          cases i with
          | zero =>
            simp only [List.getElem?_cons_zero, Option.some.injEq, Prod.mk.injEq] at hi
            obtain ⟨rfl, rfl⟩ := hi
            exact ⟨w, rfl, by simp [hg, hw]⟩
          | succ i => exact k3 i y e' hi
        · simp [hg, hw, i2 h]; rfl

/-- Binding succeeds exactly if the arguments fit, and gives every parameter the value it should have; otherwise TypeError. -/
theorem bind_fits (P : Program) (W : World) (env : Env) (ps : Params) (hn : (ps.map Prod.fst).Nodup)
    (hd : ∀ p ∈ ps, ∀ e, p.2 = some e → ∃ v, evalE P W e env = pure v) (args : List Val) (kws : List (String × Val)) :
    (Fits ps args.length (kws.map Prod.fst) → ∃ vs, bindParams P W ps args kws env = pure vs ∧ BoundTo P W env ps args kws vs) ∧
    (¬ Fits ps args.length (kws.map Prod.fst) → bindParams P W ps args kws env = raise .typeError) := by
  induction ps generalizing args with
  | nil =>
    cases args with
    | nil => exact bind_names P W env [] hn hd kws
    | cons a args => exact ⟨fun h => absurd h fits_nil_pos, fun _ => by rw [bindParams.eq_def]⟩
  | cons p ps ih =>
    cases args with
    | nil => exact bind_names P W env _ hn hd kws
    | cons a args =>
      obtain ⟨x, d⟩ := p
      simp only [List.map_cons, List.nodup_cons] at hn
      obtain ⟨i1, i2⟩ := ih hn.2 (fun p hp => hd p (by simp [hp])) args
      rw [bindParams.eq_def, List.length_cons, fits_pos]
      cases hg : Dict.get kws x with
      | some v =>
        refine ⟨fun h => ?_, fun _ => by simp [hg]⟩
        have hx : x ∈ kws.map Prod.fst := by
          by_contra hx; rw [get_none.mpr hx] at hg; cases hg
        have := h.2.2.1 x hx
        exact absurd (List.map_subset _ (List.drop_subset _ _) this) hn.1
      | none =>
        refine ⟨fun h => ?_, fun h => ?_⟩
        · obtain ⟨vs, k1, k2, k3⟩ := i1 h
          refine ⟨(x, a) :: vs, by simp [hg, k1], by simp [k2], fun i y e hi => ?_⟩
          cases i with
          | zero =>
            simp only [List.getElem?_cons_zero, Option.some.injEq, Prod.mk.injEq] at hi
            obtain ⟨rfl, rfl⟩ := hi
            exact ⟨a, rfl, rfl⟩
          | succ i => exact k3 i y e hi
        · simp [hg, i2 h]; rfl

/-- What a class takes, computed. -/
def classTakes (P : Program) (c : String) : List (String × Params) :=
  match P.method c "__init__" with
  | some i => [(i.mod, i.params.tail)]
  | none => match P.classOf c with
    | some d => if d.bases.isEmpty then [(d.mod, d.fields.map fun x => (x, none))] else []
    | none => []

theorem ClassTakes.mem {P : Program} {c m : String} {ps : Params} (h : ClassTakes P c m ps) : (m, ps) ∈ classTakes P c := by
  cases h with
  | init h => simp [classTakes, h]
  | fields h hi hb => simp [classTakes, h, hi, hb]

/-- The meaning of a name of the module, unless it is hidden. -/
def visible (L : Loaded) (m : String) (hidden : List String) (x : String) : Option Bound :=
  if hidden.contains x then none else Dict.get (L.names m) x

theorem Visible.eq {L : Loaded} {m : String} {hidden : List String} {x : String} {b : Bound} (h : Visible L m hidden x b) :
    visible L m hidden x = some b := by
  unfold visible
  rw [if_neg (by simpa using h.1)]
  exact h.2

/-- Whether the expression is the name of a class of the program or of a module. -/
def isClassOrModule (L : Loaded) (m : String) (hidden : List String) : Expr → Bool
  | .name x => match visible L m hidden x with
    | some (.module _) => true
    | some (.defined _ _) => true
    | _ => false
  | _ => false

theorem isClassOrModule_of {L : Loaded} {m : String} {hidden : List String} {e : Expr} (h : isClassOrModule L m hidden e = true) :
    IsClassOrModule L m hidden e := by
  cases e with
  | name x =>
    have hx : ∀ b, visible L m hidden x = some b → Visible L m hidden x b := by
      intro b hb
      unfold visible at hb
      split_ifs at hb with hc
      exact ⟨by simpa using hc, hb⟩
    refine ⟨x, rfl, ?_⟩
    unfold isClassOrModule at h
    dsimp only at h
    rcases hv : visible L m hidden x with _ | b
    · rw [hv] at h; cases h
    · rw [hv] at h
      cases b with
      | module p => exact .inl ⟨_, hx _ hv⟩
      | defined p c => exact .inr ⟨_, _, hx _ hv⟩
      | var _ _ => cases h
      | std _ _ => cases h
  | _ => cases h

/-- The parameters of the functions of the program a callee can stand for, computed. -/
def reaches (P : Program) (L : Loaded) (f : FunDef) (hidden : List String) : Expr → List (String × Params)
  | .name x =>
    (match visible L f.mod hidden x with
      | some (.defined m y) => (P.func m y).toList.map (fun g => (g.mod, g.params)) ++ classTakes P y
      | _ => []) ++
    (match f.params with
      | (y, _) :: _ => if y = x ∧ f.deco = .classmethod then P.classes.flatMap fun c =>
          if c.methods.any (fun g => g.name == f.name) then classTakes P c.name else [] else []
      | [] => []) ++
    (blockDefns f.body).filterMap fun d => if d.1 = x then some (f.mod, d.2.map fun p => (p.1, some p.2)) else none
  | .attr e a =>
    (match e with
      | .name x => match visible L f.mod hidden x with
        | some (.module m) => (P.func m a).toList.map fun g => (g.mod, g.params)
        | some (.defined _ c) => (P.method c a).toList.map fun g => (g.mod, if g.deco = .classmethod then g.params.tail else g.params)
        | _ => []
      | _ => []) ++
    if isClassOrModule L f.mod hidden e then [] else
      P.classes.flatMap fun c => c.methods.filterMap fun g =>
        if g.name = a then some (g.mod, if g.deco = .staticmethod then g.params else g.params.tail) else none
  | _ => []

theorem Reaches.mem {P : Program} {L : Loaded} {f : FunDef} {hidden : List String} {e : Expr} {m : String} {ps : Params}
    (h : Reaches P L f hidden e m ps) : (m, ps) ∈ reaches P L f hidden e := by
  cases h with
  | func h hg =>
    refine List.mem_append_left _ (List.mem_append_left _ ?_)
    rw [h.eq]
    simp [hg]
  | cls h hc =>
    refine List.mem_append_left _ (List.mem_append_left _ ?_)
    rw [h.eq]
    exact List.mem_append_right _ hc.mem
  | self h hf hm hfm hc =>
    refine List.mem_append_left _ (List.mem_append_right _ ?_)
    rw [h]
    dsimp only
    rw [if_pos ⟨rfl, hf⟩]
    refine List.mem_flatMap.mpr ⟨_, hm, ?_⟩
    rw [if_pos (List.any_eq_true.mpr ⟨f, hfm, by simp⟩)]
    exact hc.mem
  | nested h =>
    exact List.mem_append_right _ (List.mem_filterMap.mpr ⟨_, h, by simp⟩)
  | attr h hg =>
    refine List.mem_append_left _ ?_
    dsimp only
    rw [h.eq]
    simp [hg]
  | method h hg =>
    refine List.mem_append_left _ ?_
    dsimp only
    rw [h.eq]
    simp [hg]
  | bound h hc hg ha =>
    refine List.mem_append_right _ ?_
    rw [if_neg (fun hb => h (isClassOrModule_of hb))]
    exact List.mem_flatMap.mpr ⟨_, hc, List.mem_filterMap.mpr ⟨_, hg, by simp [ha]⟩⟩

/-- Whether no argument is `*e`. -/
def plainArgs : List Expr → Bool
  | [] => true
  | .star _ :: _ => false
  | _ :: l => plainArgs l

theorem Call.plain_iff {c : Call} : c.plain ↔ plainArgs c.args = true := by
  unfold Call.plain
  generalize c.args = l
  induction l with
  | nil => simp [plainArgs]
  | cons a l ih =>
    cases a <;> simp [plainArgs, ih]

end Melodia.Python
