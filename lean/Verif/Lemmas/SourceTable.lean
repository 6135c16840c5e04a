/-
The table of event lengths of src/melodia/io/midi.py:254-308, computed from its text (Verif/Source/MidiModule.lean).
-/
import Verif.Lemmas.SourceReader

set_option autoImplicit false

namespace Melodia

open Melodia.Python

namespace Source

variable (W : World)

@[py] theorem midi_name_range : globalName program W "melodia.io.midi" "range" = pure (.builtin .range) := by
  rw [globalName]; rfl

/-! ### The table of event lengths -/

/-- The memory while the table is computed. -/
def tableHeap (l : List Int) : Heap := { objs := [.list [.int (-1)], .list (l.map Val.int)], draws := 0 }

def TableEnv (env : Env) : Prop :=
  env = { mod := "melodia.io.midi", vars := [("__name__", .str "melodia.io.midi".toList), ("_event_lengths", .ref 1)] } ∨
    ∃ i, env = { mod := "melodia.io.midi", vars := [("__name__", .str "melodia.io.midi".toList), ("_event_lengths", .ref 1), ("i", .int i)] }

theorem table_set (env : Env) (henv : TableEnv env) (l : List Int) (hl : l.length = 255) (k : Nat) (hk : k < 255) (v : Int) (e : Expr)
    (he : ∀ h, evalE program W e env h = some (.ok (.int k) h)) :
    execS program W (.assign (.index (.name "_event_lengths") e) (.int v)) env (tableHeap l) =
      some (.ok (.next env) (tableHeap (l.set k v))) := by
  have hk' : (0 : Int) ≤ k ∧ (k : Int) < 255 := by omega
  have h0 : (tableHeap l).objs[1]? = some (.list (l.map Val.int)) := rfl
  have h1 : (tableHeap l).put 1 (.list ((l.map Val.int).set k (.int v))) = tableHeap (l.set k v) := by
    simp [tableHeap, Heap.put]
  rcases henv with rfl | ⟨i, rfl⟩ <;> pyrun [he, h0, hl, hk', h1]

theorem foldlM_ok {α β : Type} (f : β → α → β) (s : β) (xs : List α) :
    xs.foldlM (fun s x => (Except.ok (f s x) : PyM β)) s = .ok (xs.foldl f s) := by
  induction xs generalizing s with
  | nil => rfl
  | cons x xs ih => rw [List.foldlM_cons, List.foldl_cons]; exact ih _

theorem table_range (env : Env) (henv : TableEnv env) (l : List Int) (hl : l.length = 255) (a b : Nat) (hb : b < 255)
    (hab : a ≤ b) (v : Int) :
    ∃ env', execS program W (.for (.name "i") (.call (.name "range") [.int a, .bin .add (.int b) (.int 1)] []) [
      .assign (.index (.name "_event_lengths") (.name "i")) (.int v)]) env (tableHeap l) =
      some (.ok (.next env') (tableHeap (setRange l a b v))) ∧ TableEnv env' := by
  have := for_ends (P := program) (W := W) (p := .name "i") (e := .call (.name "range") [.int a, .bin .add (.int b) (.int 1)] [])
    (v := .range a (b + 1)) (it := .range a (b + 1)) (env := env) (h := tableHeap l) (h1 := tableHeap l) (h2 := tableHeap l)
    (body := [.assign (.index (.name "_event_lengths") (.name "i")) (.int v)]) (xs := List.range (b + 1 - a))
    (g := fun i => .int ((a + i : ℕ) : ℤ)) (s := l)
    (fun l' env h => TableEnv env ∧ h = tableHeap l' ∧ l'.length = 255) (fun _ => False)
    (fun l' i => .ok (l'.set (a + i) v))
    (by rcases henv with rfl | ⟨i, rfl⟩ <;> pyrun [callBuiltin, primCall])
    (by pyrun [getIter, primIter]) (by simp) ?_ ?_ ⟨henv, rfl, hl⟩
  · have hf : (List.range (b + 1 - a)).foldlM (fun (l' : List Int) i => (Except.ok (l'.set (a + i) v) : PyM _)) l =
        .ok (setRange l a b v) := by
      unfold setRange
      exact foldlM_ok _ _ _
    rw [hf] at this
    obtain ⟨r, h, h1, env', rfl, h3, h4, h5⟩ := this
    exact ⟨env', by rw [h1, h4], h3⟩
  · rintro s env h - i
    simp only [itemAt]
    by_cases h : (a : Int) + i < b + 1
    · rw [if_pos h]
      simp [List.getElem?_range (show i < b + 1 - a by omega)]
    · rw [if_neg h, List.getElem?_eq_none (by simp; omega)]
  · rintro s env h x hx ⟨henv, rfl, hs⟩
    have hx' : a + x < 255 := by simp at hx; omega
    refine ⟨Dict.set env.vars "i" (.int ((a + x : ℕ) : ℤ)), rfl, ?_⟩
    have he : TableEnv { env with vars := Dict.set env.vars "i" (.int ((a + x : ℕ) : ℤ)) } := by
      rcases henv with rfl | ⟨i, rfl⟩ <;> exact .inr ⟨_, rfl⟩
    refine ⟨_, _, ?_, _, .inl rfl, he, rfl, by simp [hs]⟩
    rw [execB, run_bind, table_set W _ he s hs (a + x) hx' v (.name "i")]
    · simp only [andThen_ok, execB]
      rfl
    · intro h
      rcases henv with rfl | ⟨i, rfl⟩ <;> pyrun []

theorem setRange_length (l : List Int) (a b : Nat) (v : Int) : (setRange l a b v).length = l.length := by
  unfold setRange
  generalize List.range (b + 1 - a) = xs
  induction xs generalizing l with
  | nil => rfl
  | cons x xs ih => rw [List.foldl_cons, ih]; simp

theorem execB_cons {s : Stmt} {ss : List Stmt} {env env' : Env} {h h' : Heap}
    (hs : execS program W s env h = some (.ok (.next env') h')) :
    execB program W (s :: ss) env h = execB program W ss env' h' := by
  rw [execB, run_bind, hs]; rfl

/-- The statements change the table. -/
def TableRun (ss : List Stmt) (l l' : List Int) : Prop := ∀ env, TableEnv env → l.length = 255 →
  ∃ env', execB program W ss env (tableHeap l) = some (.ok (.next env') (tableHeap l')) ∧ TableEnv env'

theorem TableRun.nil (l : List Int) : TableRun W [] l l := fun env h _ => ⟨env, by rw [execB]; rfl, h⟩

theorem TableRun.set {ss : List Stmt} {l l' : List Int} (k : Nat) (v : Int) (hk : k < 255) (hr : TableRun W ss (l.set k v) l') :
    TableRun W (.assign (.index (.name "_event_lengths") (.int k)) (.int v) :: ss) l l' := by
  intro env henv hl
  rw [execB_cons W (table_set W env henv l hl k hk v (.int k) (fun h => by rw [evalE]; rfl))]
  exact hr env henv (by simp [hl])

theorem TableRun.range {ss : List Stmt} {l l' : List Int} (a b : Nat) (v : Int) (hb : b < 255) (hab : a ≤ b)
    (hr : TableRun W ss (setRange l a b v) l') :
    TableRun W (.for (.name "i") (.call (.name "range") [.int a, .bin .add (.int b) (.int 1)] []) [
      .assign (.index (.name "_event_lengths") (.name "i")) (.int v)] :: ss) l l' := by
  intro env henv hl
  obtain ⟨env', h1, h2⟩ := table_range W env henv l hl a b hb hab v
  rw [execB_cons W h1]
  exact hr env' h2 (by rw [setRange_length, hl])

theorem table_start (n : Nat) : execS program W (.assign (.name "_event_lengths") (.bin .mul (.list [.un .neg (.int 1)]) (.int n)))
      { mod := "melodia.io.midi", vars := [("__name__", .str "melodia.io.midi".toList)] } { objs := [], draws := 0 } =
      some (.ok (.next { mod := "melodia.io.midi", vars := [("__name__", .str "melodia.io.midi".toList), ("_event_lengths", .ref 1)] }) (tableHeap (List.replicate n (-1)))) := by
  pyrun [binary, primOp, primNeg, List.getElem?_cons_zero, toFloat, asInt, methodOf, instOf, tableHeap, Heap.push]

/-- What importing the module computes. -/
theorem midi_module_run :
    ∃ env, execB program W midiModule.init { mod := "melodia.io.midi", vars := [("__name__", .str "melodia.io.midi".toList)] } { objs := [], draws := 0 } =
      some (.ok (.next env) (tableHeap eventLengths)) ∧ TableEnv env := by
  have h : TableRun W midiModule.init.tail (List.replicate 255 (-1)) eventLengths := by
    unfold eventLengths
    exact .range W 0x80 0x9F 2 (by decide) (by decide) <| .range W 0xA0 0xAF 2 (by decide) (by decide) <|
      .range W 0xB0 0xBF 2 (by decide) (by decide) <| .range W 0xC0 0xCF 1 (by decide) (by decide) <|
      .range W 0xD0 0xDF 1 (by decide) (by decide) <| .range W 0xE0 0xEF 2 (by decide) (by decide) <|
      .set W 0xF1 1 (by decide) <| .set W 0xF2 2 (by decide) <| .set W 0xF3 1 (by decide) <| .set W 0xF6 0 (by decide) <|
      .set W 0xF8 0 (by decide) <| .set W 0xF8 0 (by decide) <| .set W 0xFA 0 (by decide) <| .set W 0xFC 0 (by decide) <|
      .set W 0xFB 0 (by decide) <| .set W 0xFE 0 (by decide) <| .nil W _
  obtain ⟨env, h1, h2⟩ := h _ (.inl rfl) List.length_replicate
  refine ⟨env, ?_, h2⟩
  rw [← h1]
  exact execB_cons W (table_start W 255)

theorem midi_module_init : program.init "melodia.io.midi" = midiModule.init := by rfl

/-- The value of `_event_lengths`. -/
def eventTable : Val := .constList (eventLengths.map Val.int)

theorem freeze_ints (h : Heap) (n : Nat) (l : List Int) : allSome ((l.map Val.int).map (freeze h (n + 1))) = some (l.map Val.int) := by
  induction l with
  | nil => rfl
  | cons i l ih => simp only [List.map_cons, freeze, allSome, ih, Option.map_some]

@[py] theorem midi_name_event_lengths : globalName program W "melodia.io.midi" "_event_lengths" = pure eventTable := by
  rw [globalName]
  change moduleVar program W "melodia.io.midi" "_event_lengths" = _
  obtain ⟨env, h1, h2⟩ := midi_module_run W
  have hg : Dict.get env.vars "_event_lengths" = some (.ref 1) := by
    rcases h2 with rfl | ⟨i, rfl⟩ <;> rfl
  ext1 h
  rw [moduleVar, midi_module_init, bind_apply, isolated, h1]
  simp only [hg]
  change orStuck (freeze (tableHeap eventLengths) (98 + 1 + 1) (.ref 1)) h = _
  have hi : (tableHeap eventLengths).objs[1]? = some (.list (eventLengths.map Val.int)) := rfl
  rw [freeze]
  simp only [hi, freeze_ints]
  rfl

@[py] theorem table_inst : instOf eventTable = pure .none := rfl

theorem table_item (s : Nat) : getItem eventTable (.int s) =
    match eventLengths[s]? with
    | some l => pure (.int l)
    | .none => raise .indexError := by
  unfold eventTable
  generalize eventLengths = E
  cases h : E[s]? <;> simp [getItem, asInt, seqIndex, h, py]

end Source
end Melodia
