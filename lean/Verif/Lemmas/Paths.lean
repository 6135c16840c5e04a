/-
Variables that certainly have a value, followed along all paths at once.
-/
import Verif.Spec.Paths

set_option autoImplicit false

namespace Melodia.Source

open Melodia.Python

/-- The variables among `L` that are needed are among those that have a value. -/
def needsOk (L A l : List String) : Bool := l.all fun x => !L.contains x || A.contains x

/-- What holds on two ways; `none` stands for a place that is not reached. -/
def meet : Option (List String) → Option (List String) → Option (List String)
  | none, b => b
  | a, none => a
  | some a, some b => some (a.filter b.contains)

mutual
/-- The variables that have a value behind a statement, given those before it; no result if one of `L` may be read without. -/
def flow (L : List String) : Stmt → List String → Option (Option (List String))
  | .expr e, A => if needsOk L A e.needs then some (some A) else none
  | .assign g e, A => if needsOk L A (g.needs ++ e.needs) then some (some (g.binds ++ A)) else none
  | .aug g _ e, A => if needsOk L A (g.binds ++ g.needs ++ e.needs) then some (some (g.binds ++ A)) else none
  | .ret e, A => if needsOk L A e.needs then some none else none
  | .raise e, A => if needsOk L A e.needs then some none else none
  | .ite c a b, A => if needsOk L A c.needs then match flows L a A, flows L b A with
      | some x, some y => some (meet x y)
      | _, _ => none
    else none
  | .while c b, A => if needsOk L A c.needs && (flows L b A).isSome then some (some A) else none
  | .for p it b, A => if needsOk L A it.needs && (flows L b (p.names ++ A)).isSome then some (some A) else none
  | .assert e, A => if needsOk L A e.needs then some (some A) else none
  | .del g, A => if needsOk L A g.needs && g.binds.isEmpty then some (some A) else none
  | .withAs e x b, A => if needsOk L A e.needs then flows L b (x :: A) else none
  | .defn f ps nl b, A => if needsOk L A (headNeedsOf (.defn f ps nl b)) then some (some (f :: A)) else none
  | .yield e, A => if needsOk L A e.needs then some (some A) else none
  | .pass, A => some (some A)
  | .break, _ => some none
  | .continue, _ => some none

/-- The variables that have a value behind some statements. -/
def flows (L : List String) : List Stmt → List String → Option (Option (List String))
  | [], A => some (some A)
  | s :: l, A => match flow L s A with
    | some (some B) => flows L l B
    | r => r
end

/-- Reads of `L` after the events `pre` are reads of variables that have a value. -/
def Good (L : List String) (pre t : List VarEvent) : Prop :=
  ∀ u v x, t = u ++ .read x :: v → x ∈ L → HasValue x (pre ++ u)

def NoUnset (t : List VarEvent) : Prop := ∀ x, VarEvent.unset x ∉ t

theorem NoUnset.append {t u : List VarEvent} (ht : NoUnset t) (hu : NoUnset u) : NoUnset (t ++ u) := by
  intro x h
  rcases List.mem_append.mp h with h | h
  · exact ht x h
  · exact hu x h

theorem hasValue_append {x : String} {pre t : List VarEvent} (h : HasValue x pre) (ht : NoUnset t) : HasValue x (pre ++ t) := by
  obtain ⟨u, v, rfl, hv⟩ := h
  exact ⟨u, v ++ t, by simp, by simp only [List.mem_append, not_or]; exact ⟨hv, ht x⟩⟩

theorem hasValue_writes {x : String} {l : List String} (pre : List VarEvent) (h : x ∈ l) : HasValue x (pre ++ l.map .write) := by
  obtain ⟨a, b, rfl⟩ := List.append_of_mem h
  exact ⟨pre ++ a.map .write, b.map .write, by simp, by simp⟩

theorem Good.append {L : List String} {pre t u : List VarEvent} (ht : Good L pre t) (hu : Good L (pre ++ t) u) :
    Good L pre (t ++ u) := by
  intro a b x h hx
  rcases List.append_eq_append_iff.mp h with ⟨c, hc, h⟩ | ⟨c, hc, h⟩
  · rw [hc, ← List.append_assoc]
    exact hu c b x h hx
  · cases c with
    | nil =>
      simp only [List.append_nil] at hc
      have := hu [] b x (by simpa using h.symm) hx
      simpa [hc] using this
    | cons y c =>
      simp only [List.cons_append, List.cons.injEq] at h
      exact ht a c x (by rw [hc, ← h.1]) hx

theorem Good.nil (L : List String) (pre : List VarEvent) : Good L pre [] := by
  intro u v x h
  simp at h

theorem Good.writes (L : List String) (pre : List VarEvent) (l : List String) : Good L pre (l.map .write) := by
  intro u v x h
  have : VarEvent.read x ∈ l.map VarEvent.write := by rw [h]; simp
  simp at this

theorem noUnset_writes (l : List String) : NoUnset (l.map .write) := by
  intro x h
  simp at h

theorem noUnset_evaluates {l : List String} {t : List VarEvent} (h : Evaluates l t) : NoUnset t := by
  intro x hx
  obtain ⟨y, _, hy⟩ := h _ hx
  cases hy

theorem good_evaluates {L A l : List String} {pre t : List VarEvent} (hA : ∀ x ∈ A, HasValue x pre) (hn : needsOk L A l = true)
    (h : Evaluates l t) : Good L pre t := by
  intro u v x ht hx
  obtain ⟨y, hy, e⟩ := h (.read x) (by rw [ht]; simp)
  cases e
  have := List.all_eq_true.mp hn x hy
  simp only [Bool.or_eq_true, Bool.not_eq_true', List.contains_eq_mem, decide_eq_false_iff_not, decide_eq_true_eq] at this
  rcases this with h' | h'
  · exact absurd hx h'
  · refine hasValue_append (hA x h') fun z hz => noUnset_evaluates h z ?_
    rw [ht]; simp [hz]

/-- What is known about a path. -/
structure Sound (L : List String) (pre t : List VarEvent) (o : Out) (r : Option (List String)) : Prop where
  good : Good L pre t
  keep : NoUnset t
  next : o = .next → ∃ B, r = some B ∧ ∀ x ∈ B, HasValue x (pre ++ t)

theorem Sound.of_append {L A l : List String} {pre t u : List VarEvent} {o : Out} {r : Option (List String)}
    (hA : ∀ x ∈ A, HasValue x pre) (hn : needsOk L A l = true) (h : Evaluates l t) (hu : Sound L (pre ++ t) u o r) :
    Sound L pre (t ++ u) o r :=
  ⟨(good_evaluates hA hn h).append hu.good, (noUnset_evaluates h).append hu.keep, fun ho => by
    obtain ⟨B, hB, h⟩ := hu.next ho
    exact ⟨B, hB, by simpa using h⟩⟩

theorem Sound.of_writes {L : List String} {pre u : List VarEvent} {o : Out} {r : Option (List String)} (l : List String)
    (hu : Sound L (pre ++ l.map .write) u o r) : Sound L pre (l.map .write ++ u) o r :=
  ⟨(Good.writes L pre l).append hu.good, (noUnset_writes l).append hu.keep, fun ho => by
    obtain ⟨B, hB, h⟩ := hu.next ho
    exact ⟨B, hB, by simpa using h⟩⟩

theorem Sound.only {L A l : List String} {pre t : List VarEvent} {o : Out} {r : Option (List String)}
    (hA : ∀ x ∈ A, HasValue x pre) (hn : needsOk L A l = true) (h : Evaluates l t) (hr : o = .next → r = some A) : Sound L pre t o r :=
  ⟨good_evaluates hA hn h, noUnset_evaluates h, fun ho => ⟨A, hr ho, fun x hx => hasValue_append (hA x hx) (noUnset_evaluates h)⟩⟩

theorem Sound.then {L : List String} {pre t u : List VarEvent} {o o' : Out} {r r' : Option (List String)} (ht : Sound L pre t o r)
    (hu : Sound L (pre ++ t) u o' r') : Sound L pre (t ++ u) o' r' :=
  ⟨ht.good.append hu.good, ht.keep.append hu.keep, fun ho => by
    obtain ⟨B, hB, h⟩ := hu.next ho
    exact ⟨B, hB, by simpa using h⟩⟩

theorem Sound.weaken {L : List String} {pre t : List VarEvent} {o o' : Out} {r r' : Option (List String)} (ht : Sound L pre t o r)
    (ho : o' = .next → ∃ B, r' = some B ∧ ∀ x ∈ B, HasValue x (pre ++ t)) : Sound L pre t o' r' :=
  ⟨ht.good, ht.keep, ho⟩

theorem has_append {A : List String} {pre t : List VarEvent} (hA : ∀ x ∈ A, HasValue x pre) (ht : NoUnset t) :
    ∀ x ∈ A, HasValue x (pre ++ t) := fun x hx => hasValue_append (hA x hx) ht

theorem has_writes {A : List String} {pre : List VarEvent} (hA : ∀ x ∈ A, HasValue x pre) (l : List String) :
    ∀ x ∈ l ++ A, HasValue x (pre ++ l.map .write) := by
  intro x hx
  rcases List.mem_append.mp hx with h | h
  · exact hasValue_writes pre h
  · exact hasValue_append (hA x h) (noUnset_writes l)

theorem meet_left {a b : Option (List String)} {A : List String} (h : a = some A) : ∃ B, meet a b = some B ∧ ∀ x ∈ B, x ∈ A := by
  subst h
  cases b with
  | none => exact ⟨A, rfl, fun x hx => hx⟩
  | some b => exact ⟨_, rfl, fun x hx => (List.mem_filter.mp hx).1⟩

theorem meet_right {a b : Option (List String)} {A : List String} (h : b = some A) : ∃ B, meet a b = some B ∧ ∀ x ∈ B, x ∈ A := by
  subst h
  cases a with
  | none => exact ⟨A, rfl, fun x hx => hx⟩
  | some a => exact ⟨_, rfl, fun x hx => by simpa using (List.mem_filter.mp hx).2⟩

theorem Sound.meetLeft {L : List String} {pre t : List VarEvent} {o : Out} {a b : Option (List String)} (h : Sound L pre t o a) :
    Sound L pre t o (meet a b) :=
  h.weaken fun ho => by
    obtain ⟨B, hB, hv⟩ := h.next ho
    obtain ⟨C, hC, hs⟩ := meet_left (b := b) hB
    exact ⟨C, hC, fun x hx => hv x (hs x hx)⟩

theorem Sound.meetRight {L : List String} {pre t : List VarEvent} {o : Out} {a b : Option (List String)} (h : Sound L pre t o b) :
    Sound L pre t o (meet a b) :=
  h.weaken fun ho => by
    obtain ⟨B, hB, hv⟩ := h.next ho
    obtain ⟨C, hC, hs⟩ := meet_right (a := a) hB
    exact ⟨C, hC, fun x hx => hv x (hs x hx)⟩

/-- What the heading of a statement needs has been checked. -/
theorem flow_head {L A : List String} {s : Stmt} {r : Option (List String)} (h : flow L s A = some r) :
    needsOk L A (headNeedsOf s) = true := by
  cases s
  case pass => rfl
  case «break» => rfl
  case «continue» => rfl
  case del g =>
    simp only [flow, Option.ite_none_right_eq_some, Bool.and_eq_true, List.isEmpty_iff] at h
    simp only [headNeedsOf, Stmt.needs, h.1.2, List.nil_append, h.1.1]
  all_goals
    simp only [flow, Option.ite_none_right_eq_some, Bool.and_eq_true] at h
    first
      | exact h.1
      | exact h.1.1

theorem block_sound (L : List String) (l : List Stmt) (t : List VarEvent) (o : Out) (h : Paths l t o) :
    ∀ (A : List String) (r : Option (List String)) (pre : List VarEvent), flows L l A = some r → (∀ x ∈ A, HasValue x pre) →
      Sound L pre t o r := by
  induction h using Paths.rec (motive_1 := fun s t o _ => ∀ (A : List String) (r : Option (List String)) (pre : List VarEvent),
    flow L s A = some r → (∀ x ∈ A, HasValue x pre) → Sound L pre t o r) with
  | fails s t h A r pre hf hA => exact .only hA (flow_head hf) h (by simp)
  | expr e t h A r pre hf hA =>
    simp only [flow, Option.ite_none_right_eq_some, Option.some.injEq] at hf
    exact .only hA hf.1 h fun _ => hf.2.symm
  | assign g e t h A r pre hf hA =>
    simp only [flow, Option.ite_none_right_eq_some, Option.some.injEq] at hf
    refine .of_append hA hf.1 h ⟨.writes _ _ _, noUnset_writes _, fun _ => ⟨_, hf.2.symm, ?_⟩⟩
    exact has_writes (has_append hA (noUnset_evaluates h)) _
  | aug g op e t h A r pre hf hA =>
    simp only [flow, Option.ite_none_right_eq_some, Option.some.injEq] at hf
    refine .of_append hA hf.1 h ⟨.writes _ _ _, noUnset_writes _, fun _ => ⟨_, hf.2.symm, ?_⟩⟩
    exact has_writes (has_append hA (noUnset_evaluates h)) _
  | ret e t h A r pre hf hA =>
    exact .only hA (flow_head hf) h (by simp)
  | «then» c a b t u o h hu ih A r pre hf hA =>
    simp only [flow, Option.ite_none_right_eq_some] at hf
    obtain ⟨hn, hf⟩ := hf
    split at hf
    · rename_i x y hx hy
      simp only [Option.some.injEq] at hf
      subst hf
      exact .of_append hA hn h (ih A x _ hx (has_append hA (noUnset_evaluates h))).meetLeft
    · simp at hf
  | «else» c a b t u o h hu ih A r pre hf hA =>
    simp only [flow, Option.ite_none_right_eq_some] at hf
    obtain ⟨hn, hf⟩ := hf
    split at hf
    · rename_i x y hx hy
      simp only [Option.some.injEq] at hf
      subst hf
      exact .of_append hA hn h (ih A y _ hy (has_append hA (noUnset_evaluates h))).meetRight
    · simp at hf
  | whileEnd c b t h hc A r pre hf hA =>
    simp only [flow, Option.ite_none_right_eq_some, Option.some.injEq] at hf
    exact .only hA (flow_head (s := .while c b) (by simp only [flow, hf.1, if_true]; rfl)) h fun _ => hf.2.symm
  | whileBreak c b t u h hu ih A r pre hf hA =>
    simp only [flow, Option.ite_none_right_eq_some, Option.some.injEq, Bool.and_eq_true, Option.isSome_iff_exists] at hf
    obtain ⟨⟨hn, r', hb⟩, rfl⟩ := hf
    have hA' := has_append hA (noUnset_evaluates h)
    have hs := ih A r' _ hb hA'
    exact .of_append hA hn h (hs.weaken fun _ => ⟨A, rfl, has_append hA' hs.keep⟩)
  | whileLeave c b t u o h hu ho ih A r pre hf hA =>
    simp only [flow, Option.ite_none_right_eq_some, Option.some.injEq, Bool.and_eq_true, Option.isSome_iff_exists] at hf
    obtain ⟨⟨hn, r', hb⟩, rfl⟩ := hf
    have hs := ih A r' _ hb (has_append hA (noUnset_evaluates h))
    exact .of_append hA hn h (hs.weaken fun e => by rw [e] at ho; simp at ho)
  | whileAgain c b t u v o o' h hu ho hv ih ih' A r pre hf hA =>
    have hf' := hf
    simp only [flow, Option.ite_none_right_eq_some, Option.some.injEq, Bool.and_eq_true, Option.isSome_iff_exists] at hf
    obtain ⟨⟨hn, r', hb⟩, rfl⟩ := hf
    have hA' := has_append hA (noUnset_evaluates h)
    have hs := ih A r' _ hb hA'
    rw [List.append_assoc]
    exact .of_append hA hn h (hs.then (ih' A _ _ hf' (has_append hA' hs.keep)))
  | forEnd p it b t h A r pre hf hA =>
    simp only [flow, Option.ite_none_right_eq_some, Option.some.injEq, Bool.and_eq_true] at hf
    exact .only hA hf.1.1 h fun _ => hf.2.symm
  | forBreak p it b t u h hu ih A r pre hf hA =>
    simp only [flow, Option.ite_none_right_eq_some, Option.some.injEq, Bool.and_eq_true, Option.isSome_iff_exists] at hf
    obtain ⟨⟨hn, r', hb⟩, rfl⟩ := hf
    have hA' := has_append hA (noUnset_evaluates h)
    have hs := ih _ r' _ hb (has_writes hA' p.names)
    rw [List.append_assoc]
    refine .of_append hA hn h (.of_writes _ (hs.weaken fun _ => ⟨A, rfl, has_append (has_append hA' (noUnset_writes _)) hs.keep⟩))
  | forLeave p it b t u o h hu ho ih A r pre hf hA =>
    simp only [flow, Option.ite_none_right_eq_some, Option.some.injEq, Bool.and_eq_true, Option.isSome_iff_exists] at hf
    obtain ⟨⟨hn, r', hb⟩, rfl⟩ := hf
    have hs := ih _ r' _ hb (has_writes (has_append hA (noUnset_evaluates h)) p.names)
    rw [List.append_assoc]
    exact .of_append hA hn h (.of_writes _ (hs.weaken fun e => by rw [e] at ho; simp at ho))
  | forAgain p it b t u v o o' h hu ho hv ih ih' A r pre hf hA =>
    have hf' := hf
    simp only [flow, Option.ite_none_right_eq_some, Option.some.injEq, Bool.and_eq_true, Option.isSome_iff_exists] at hf
    obtain ⟨⟨hn, r', hb⟩, rfl⟩ := hf
    have hA' := has_append hA (noUnset_evaluates h)
    have hs := ih _ r' _ hb (has_writes hA' p.names)
    rw [List.append_assoc, List.append_assoc]
    exact .of_append hA hn h (.of_writes _ (hs.then (ih' A _ _ hf' (has_append (has_append hA' (noUnset_writes _)) hs.keep))))
  | assert e t h A r pre hf hA =>
    simp only [flow, Option.ite_none_right_eq_some, Option.some.injEq] at hf
    exact .only hA hf.1 h fun _ => hf.2.symm
  | del g t h A r pre hf hA =>
    have hn := flow_head hf
    simp only [flow, Option.ite_none_right_eq_some, Option.some.injEq, Bool.and_eq_true, List.isEmpty_iff] at hf
    rw [hf.1.2, List.map_nil, List.append_nil]
    exact .only hA hn h fun _ => hf.2.symm
  | withAs e x b t u o h hu ih A r pre hf hA =>
    simp only [flow, Option.ite_none_right_eq_some] at hf
    exact .of_append hA hf.1 h (.of_writes [x] (ih _ r _ hf.2 (has_writes (has_append hA (noUnset_evaluates h)) [x])))
  | defn f ps nl b t h A r pre hf hA =>
    simp only [flow, Option.ite_none_right_eq_some, Option.some.injEq] at hf
    refine .of_append hA hf.1 h ⟨.writes _ _ [f], noUnset_writes [f], fun _ => ⟨_, hf.2.symm, ?_⟩⟩
    exact has_writes (has_append hA (noUnset_evaluates h)) [f]
  | «yield» e t h A r pre hf hA =>
    simp only [flow, Option.ite_none_right_eq_some, Option.some.injEq] at hf
    exact .only hA hf.1 h fun _ => hf.2.symm
  | pass A r pre hf hA =>
    simp only [flow, Option.some.injEq] at hf
    exact ⟨.nil L pre, fun x hx => by simp at hx, fun _ => ⟨A, hf.symm, by simpa using hA⟩⟩
  | «break» A r pre hf hA =>
    exact ⟨.nil L pre, fun x hx => by simp at hx, by simp⟩
  | «continue» A r pre hf hA =>
    exact ⟨.nil L pre, fun x hx => by simp at hx, by simp⟩
  | nil =>
    intro A r pre hf hA
    simp only [flows, Option.some.injEq] at hf
    exact ⟨.nil L pre, fun x hx => by simp at hx, fun _ => ⟨A, hf.symm, by simpa using hA⟩⟩
  | cons s l t u o ht hu ih ih' =>
    intro A r pre hf hA
    rw [flows] at hf
    cases hs : flow L s A with
    | none => rw [hs] at hf; simp at hf
    | some r' =>
      have h1 := ih A r' pre hs hA
      obtain ⟨B, rfl, hB⟩ := h1.next rfl
      rw [hs] at hf
      exact h1.then (ih' B r _ hf hB)
  | leave s l t o ht ho ih =>
    intro A r pre hf hA
    rw [flows] at hf
    cases hs : flow L s A with
    | none => rw [hs] at hf; simp at hf
    | some r' => exact (ih A r' pre hs hA).weaken fun h => absurd h ho

/-- Variables of a function are only read when they have a value, if the analysis says so. -/
theorem reads_assigned {ps L : List String} {b : List Stmt} (h : (flows L b ps).isSome) {t : List VarEvent} {o : Out}
    (hp : Paths b t o) : ReadsAssigned L (ps.map .write ++ t) := by
  obtain ⟨r, hr⟩ := Option.isSome_iff_exists.mp h
  have hs := block_sound L b t o hp ps r (ps.map .write) hr fun x hx => by simpa using hasValue_writes [] hx
  intro u v x e hx
  simpa using (Good.writes L [] ps).append (by simpa using hs.good) u v x e hx

/-- A function does not end behind its last statement, if the analysis says so. -/
theorem no_end {ps L : List String} {b : List Stmt} (h : flows L b ps = some none) {t : List VarEvent} : ¬ Paths b t .next := by
  intro hp
  have hs := block_sound L b t _ hp ps none (ps.map .write) h fun x hx => by simpa using hasValue_writes [] hx
  obtain ⟨B, hB, _⟩ := hs.next rfl
  simp at hB

mutual
/-- Whether there is a `break` or `continue` outside of the loops of a statement. -/
def loose : Stmt → Bool
  | .ite _ a b => looseIn a || looseIn b
  | .withAs _ _ b => looseIn b
  | .break => true
  | .continue => true
  | _ => false

/-- Whether there is one outside of the loops of some statements. -/
def looseIn : List Stmt → Bool
  | [] => false
  | s :: l => loose s || looseIn l
end

theorem not_loose (l : List Stmt) (t : List VarEvent) (o : Out) (h : Paths l t o) : looseIn l = false → o ≠ .brk ∧ o ≠ .cont := by
  induction h using Paths.rec (motive_1 := fun s t o _ => loose s = false → o ≠ .brk ∧ o ≠ .cont) with
  | «then» c a b t u o h hu ih hl =>
    simp only [loose, Bool.or_eq_false_iff] at hl
    exact ih hl.1
  | «else» c a b t u o h hu ih hl =>
    simp only [loose, Bool.or_eq_false_iff] at hl
    exact ih hl.2
  | whileLeave c b t u o h hu ho ih hl => rcases ho with rfl | rfl <;> simp
  | forLeave p it b t u o h hu ho ih hl => rcases ho with rfl | rfl <;> simp
  | whileAgain c b t u v o o' h hu ho hv ih ih' hl => exact ih' hl
  | forAgain p it b t u v o o' h hu ho hv ih ih' hl => exact ih' hl
  | withAs e x b t u o h hu ih hl =>
    simp only [loose] at hl
    exact ih hl
  | «break» hl => simp [loose] at hl
  | «continue» hl => simp [loose] at hl
  | cons s l t u o ht hu ih ih' =>
    intro hl
    simp only [looseIn, Bool.or_eq_false_iff] at hl
    exact ih' hl.2
  | leave s l t o ht ho ih =>
    intro hl
    simp only [looseIn, Bool.or_eq_false_iff] at hl
    exact ih hl.1
  | _ => simp

end Melodia.Source
