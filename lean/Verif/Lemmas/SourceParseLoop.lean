/-
The main loop of `MIDIReader._parse_track` (src/melodia/io/midi.py:535-554), run from its text.
-/
import Verif.Lemmas.SourceParseHeap

set_option autoImplicit false

namespace Melodia

open Melodia.Python

/-- A computation of the model that neither recurses for ever nor stops for lack of fuel. -/
def Settles {α : Type} (m : PyM α) : Prop := m ≠ .error .recursionError ∧ m ≠ .error .outOfFuel

theorem Settles.left {α β : Type} {m : PyM α} {k : α → PyM β} (h : Settles (m >>= k)) : Settles m := by
  constructor <;> rintro rfl
  · exact h.1 rfl
  · exact h.2 rfl
theorem Settles.right {α β : Type} {m : PyM α} {k : α → PyM β} {a : α} (h : Settles (m >>= k)) (hm : m = .ok a) : Settles (k a) := by
  subst hm; exact h

namespace Source

variable (W : World)

@[py] theorem isInstance_cls (c d : String) (fs : List (String × Val)) :
    isInstance program (.obj c fs) (.cls d) = pure (program.isSubclass 3 c d) := rfl
@[py] theorem isInstance_two (c d e : String) (fs : List (String × Val)) :
    isInstance program (.obj c fs) (.tuple [.cls d, .cls e]) = pure (program.isSubclass 3 c d || program.isSubclass 3 c e) := by
  change (do
    let b ← isInstance1 program (.obj c fs) (.cls d)
    if b then pure true else do
      let b ← isInstance1 program (.obj c fs) (.cls e)
      if b then pure true else pure false : M Bool) = _
  simp only [isInstance1, py]
  cases program.isSubclass 3 c d <;> cases program.isSubclass 3 c e <;> rfl

theorem getAttr_obj {c x : String} {fs : List (String × Val)} {v : Val} (hf : Dict.get fs x = some v) :
    getAttr program W (.obj c fs) x = pure v := by
  rw [getAttr.eq_def]; simp [instOf, hf, py]
@[py] theorem event_note (c x : String) (a b d : Val) (hx : x = "channel" ∨ x = "pitch" ∨ x = "velocity") :
    getAttr program W (.obj c [("channel", a), ("pitch", b), ("velocity", d)]) x =
      pure (if x = "channel" then a else if x = "pitch" then b else d) := by
  rcases hx with rfl | rfl | rfl <;> exact getAttr_obj W rfl
@[py] theorem event_channel (c : String) (a : Val) : getAttr program W (.obj c [("channel", a)]) "channel" = pure a := getAttr_obj W rfl
@[py] theorem event_nn (c : String) (x y z t : Val) :
    getAttr program W (.obj c [("nn", x), ("dd", y), ("cc", z), ("bb", t)]) "nn" = pure x := getAttr_obj W rfl
@[py] theorem event_dd (c : String) (x y z t : Val) :
    getAttr program W (.obj c [("nn", x), ("dd", y), ("cc", z), ("bb", t)]) "dd" = pure y := getAttr_obj W rfl
@[py] theorem midi_name_Signature : globalName program W "melodia.io.midi" "Signature" = pure (.cls "Signature") := by
  rw [globalName]; rfl

@[py] theorem readVar_eventVal (e : Event) : readVar (eventVal e) = pure (eventVal e) := by cases e <;> rfl

/-- The variables of the main loop. -/
def ptEnv (d n : Nat) (sv tv : Val) (g t : Int) (extra : List (String × Val)) : Env :=
  { mod := "melodia.io.midi", vars := ("self", sv) :: ("data", .ref d) :: ("ticks_per_quarter", tv) :: ("previous_status", .cell n) ::
      ("read_event", reFn d n sv tv) :: ("channel_events", .ref (n + 1)) :: ("channel_signatures", .ref (n + 2)) ::
      ("global_channel", .int g) :: ("last_time", .int t) :: extra }

/-- `channel_events[c].append(x)`. -/
theorem append_event {h : Heap} {d : Nat} (r : Melodia.Reader) (prev : Val)
    (E : Dict Int (List (Int × Event))) (S : Dict Int Signature) (c : Int) (x : Int × Event) {env : Env} (ec : Expr) (es : List Expr)
    (h1 : Dict.get env.vars "channel_events" = some (.ref (h.objs.length + 1)))
    (h2 : ∀ H, evalE program W ec env H = some (.ok (.int c) H)) (h3 : ∀ H, evalArgs program W es env H = some (.ok [.int x.1, eventVal x.2] H)) :
    execS program W (.expr (.call (.attr (.index (.name "channel_events") ec) "append") [.tuple es] [])) env (parseHeap h d r prev E S) =
      some (.ok (.next env) (parseHeap h d r prev (appendEvent E c x) S)) := by
  unfold appendEvent
  cases hg : E.get c with
  | none =>
    have hE := parseHeap_new r prev E S (h := h) (d := d) c hg
    have hl : (parseHeap h d r prev (E ++ [(c, [])]) S).objs[h.objs.length + 3 + E.length]? = some (.list []) := by
      rw [parseHeap_list]; simp [eventsObj]
    have hset : List.set (E ++ [(c, [])]) E.length (c, [x]) = E ++ [(c, [x])] := by
      rw [List.set_append_right _ _ (Nat.le_refl _)]; simp
    have hp := parseHeap_put_list r prev (E ++ [(c, [])]) S (h := h) (d := d) E.length (c, [x]) (by
      rw [hset, ← ((refDict_none c (h.objs.length + 3) E hg).2 _).1, ← ((refDict_none c (h.objs.length + 3) E hg).2 _).1])
    rw [hset, ← ((refDict_none c (h.objs.length + 3) E hg).2 [x]).2] at hp
    have hap := call_append program W hl (.tuple [.int x.1, eventVal x.2])
    pyrun [h1, h2, h3, parseHeap_ce, (refDict_none c (h.objs.length + 3) E hg).1, parseHeap_length, hE, hl, hasPrimAttr, hap]
    exact hp
  | some l =>
    obtain ⟨i, hi, hd, hl, hs⟩ := refDict_some c l (h.objs.length + 3) E hg
    have hl' : (parseHeap h d r prev E S).objs[h.objs.length + 3 + i]? = some (.list (l.map timedVal)) := by
      rw [parseHeap_list, hl]; rfl
    have hp := parseHeap_put_list r prev E S (h := h) (d := d) i (c, l ++ [x]) (by
      rw [← (hs _).1]; exact (hs _).2)
    rw [← (hs _).1] at hp
    have hp' : (parseHeap h d r prev E S).put (h.objs.length + 3 + i) (.list (l.map timedVal ++ [.tuple [.int x.1, eventVal x.2]])) =
        parseHeap h d r prev (E.set c (l ++ [x])) S := by
      rw [← hp]; simp [eventsObj, timedVal]
    pyrun [h1, h2, h3, parseHeap_ce, hd, hl', hasPrimAttr, call_append program W hl' (.tuple [.int x.1, eventVal x.2]), hp']

/-- What follows the reading of an event in the main loop. -/
def ptHandle : List Stmt := ptLoop.drop 4

/-- The variables of a round of the main loop. -/
def roundVars (a b : Int) (e : Event) : List (String × Val) := [("delta_time", .int a), ("absolute_time", .int b), ("event", eventVal e)]

/-- The event is handled. -/
theorem handle_run {h : Heap} {d : Nat} (sv tv : Val) (r : Melodia.Reader) (st : ParseState) (e : Event) (a : Int) (prev : Val) :
    Ends (execB program W ptHandle (ptEnv d h.objs.length sv tv st.globalChannel st.lastTime (roundVars a st.lastTime e))
        (parseHeap h d r prev st.channelEvents st.channelSignatures))
      (handleEvent st st.lastTime e)
      (fun o fl h' => match o with
        | .none => fl = .brk (ptEnv d h.objs.length sv tv st.globalChannel st.lastTime (roundVars a st.lastTime e)) ∧
            h' = parseHeap h d r prev st.channelEvents st.channelSignatures
        | some st' => st'.previousStatus = st.previousStatus ∧ st'.lastTime = st.lastTime ∧
            (∃ env', (fl = .next env' ∨ fl = .cont env') ∧
              env' = ptEnv d h.objs.length sv tv st'.globalChannel st.lastTime (roundVars a st.lastTime e)) ∧
            h' = parseHeap h d r prev st'.channelEvents st'.channelSignatures)
      (fun h' => h' = parseHeap h d r prev st.channelEvents st.channelSignatures) := by
  cases e with
  | noteOn c p v =>
    have := append_event W r prev st.channelEvents st.channelSignatures (h := h) (d := d) c (st.lastTime, .noteOn c p v)
      (env := ptEnv d h.objs.length sv tv st.globalChannel st.lastTime (roundVars a st.lastTime (.noteOn c p v)))
      (.attr (.name "event") "channel") [.name "absolute_time", .name "event"] (by rfl) (by intro H; pyrun [ptEnv, roundVars, eventVal])
      (by intro H; pyrun [ptEnv, roundVars, eventVal])
    simp only [ptEnv, roundVars, eventVal] at this
    pyrun [ptHandle, ptLoop, ptEnv, roundVars, eventVal, handleEvent, Ends, ↓this]
  | noteOff c p v =>
    have := append_event W r prev st.channelEvents st.channelSignatures (h := h) (d := d) c (st.lastTime, .noteOff c p v)
      (env := ptEnv d h.objs.length sv tv st.globalChannel st.lastTime (roundVars a st.lastTime (.noteOff c p v)))
      (.attr (.name "event") "channel") [.name "absolute_time", .name "event"] (by rfl) (by intro H; pyrun [ptEnv, roundVars, eventVal])
      (by intro H; pyrun [ptEnv, roundVars, eventVal])
    simp only [ptEnv, roundVars, eventVal] at this
    pyrun [ptHandle, ptLoop, ptEnv, roundVars, eventVal, handleEvent, Ends, ↓this]
  | endOfTrack => pyrun [ptHandle, ptLoop, ptEnv, roundVars, eventVal, handleEvent, Ends]
  | globalChannel c => pyrun [ptHandle, ptLoop, ptEnv, roundVars, eventVal, handleEvent, Ends]
  | unsupported => pyrun [ptHandle, ptLoop, ptEnv, roundVars, eventVal, handleEvent, Ends]
  | timeSignature nn dd cc bb =>
    have hn : ¬ (dd : Int) < 0 := by omega
    cases hs : Signature.new nn ((1 : Int) <<< (dd : ℕ)) with
    | error e => pyrun [ptHandle, ptLoop, ptEnv, roundVars, eventVal, handleEvent, Ends, hs, hn, Except.map, bind, Except.bind]
    | ok s =>
      pyrun [ptHandle, ptLoop, ptEnv, roundVars, eventVal, handleEvent, Ends, hs, hn, Except.map, bind, Except.bind, parseHeap_cs,
        valDict_set, parseHeap_put_cs]

section
variable {h : Heap} {d : Nat} (hd : d < h.objs.length) (r : Melodia.Reader) (prev : Val)
  (E : Dict Int (List (Int × Event))) (S : Dict Int Signature)

include hd in
theorem parseHeap_var_len :
    call program W (.meth (.cls "MIDIReader") "_read_var_len") [.ref d] [] (parseHeap h d r prev E S) =
      match r.readVarLen with
      | .ok (n, r') => some (.ok (.int (n : Nat)) (parseHeap h d r' prev E S))
      | .error e => some (.err e (parseHeap h d ⟨r.data, r.data.length⟩ prev E S)) := by
  have := call_read_var_len W (h := parseHeap h d r prev E S) (d := d) (by rw [parseHeap_length]; omega) r
  rw [parseHeap_put_d hd] at this
  rw [this]
  cases r.readVarLen with
  | ok x => simp only [afterRead, parseHeap_put_d hd]
  | error e => simp only [afterRead, parseHeap_put_d hd]

include hd in
theorem parseHeap_event (sv tv : Val) (ps : Option Nat) (hps : ∀ s, ps = some s → 128 ≤ s)
    (hm : readEvent recursionLimit .none ps r ≠ .error .recursionError) :
    Ends (call program W (reFn d h.objs.length sv tv) [] [] (parseHeap h d r (prevVal ps) E S)) (readEvent recursionLimit .none ps r)
      (fun b v h' => v = eventVal b.1 ∧ h' = parseHeap h d b.2.2 (prevVal b.2.1) E S)
      (fun h' => ∃ v r', h' = parseHeap h d r' v E S) := by
  have := call_read_event W (h := parseHeap h d r (prevVal ps) E S) (d := d) (p := h.objs.length) (by rw [parseHeap_length]; omega)
    (by rw [parseHeap_length]; omega) (by omega) sv tv ps hps r hm
  rw [parseHeap_put_p, parseHeap_put_d hd] at this
  refine Ends.mono this ?_ ?_
  · rintro b v h' _ ⟨h1, h2⟩
    rw [parseHeap_put_p, parseHeap_put_d hd] at h2
    exact ⟨h1, h2⟩
  · rintro h' ⟨v, r', h1⟩
    rw [parseHeap_put_p, parseHeap_put_d hd] at h1
    exact ⟨v, r', h1⟩
end

theorem statusEvent_prev {s : Nat} {r : Melodia.Reader} {e : Event} {t : Nat} {r' : Melodia.Reader}
    (h : (do
        let (e, r) ← statusEvent s r
        pure (e, some s, r) : PyM (Event × Option Nat × Melodia.Reader)) = .ok (e, some t, r')) : t = s := by
  cases hs : statusEvent s r with
  | error e => rw [hs] at h; cases h
  | ok x => rw [hs] at h; cases h; rfl

/-- The status remembered is a status byte. -/
theorem readEvent_prev {ps : Option Nat} {r : Melodia.Reader} (hps : ∀ s, ps = some s → 128 ≤ s) {e : Event} {p : Option Nat}
    {r' : Melodia.Reader} (h : readEvent recursionLimit .none ps r = .ok (e, p, r')) : ∀ s, p = some s → 128 ≤ s := by
  rintro s rfl
  cases hr : r.read8 with
  | error e => rw [recursionLimit, readEvent_eof hr] at h; cases h
  | ok x =>
    obtain ⟨t, r1⟩ := x
    by_cases ht : 128 ≤ t
    · rw [recursionLimit, readEvent_fresh hr ht] at h
      rw [statusEvent_prev h]; exact ht
    · cases ps with
      | none => rw [readEvent_endless hr (by omega)] at h; cases h
      | some u =>
        rw [recursionLimit, readEvent_running hr (by omega) (hps u rfl)] at h
        rw [statusEvent_prev h]; exact hps u rfl

theorem ptLoop_eq : ptLoop =
      .assign (.name "delta_time") (.call (.attr (.name "MIDIReader") "_read_var_len") [.name "data"] []) ::
      .assign (.name "absolute_time") (.bin .add (.name "last_time") (.name "delta_time")) ::
      .assign (.name "last_time") (.name "absolute_time") ::
      .assign (.name "event") (.call (.name "read_event") [] []) :: ptHandle := rfl

/-- The main loop. -/
theorem loop_run {h : Heap} {d : Nat} (hd : d < h.objs.length) (sv tv : Val) : ∀ (fuel : Nat) (st : ParseState) (r : Melodia.Reader)
    (extra : List (String × Val)), (extra = [] ∨ ∃ a b e, extra = roundVars a b e) →
    (∀ s, st.previousStatus = some s → 128 ≤ s) → Settles (eventLoop fuel st r) →
    Ends (whileLoop program W (.bool true) ptLoop (ptEnv d h.objs.length sv tv st.globalChannel st.lastTime extra)
        (parseHeap h d r (prevVal st.previousStatus) st.channelEvents st.channelSignatures))
      (eventLoop fuel st r)
      (fun st' fl h' => (∃ a b e, fl = .next (ptEnv d h.objs.length sv tv st'.globalChannel st'.lastTime (roundVars a b e))) ∧
        ∃ r', h' = parseHeap h d r' (prevVal st'.previousStatus) st'.channelEvents st'.channelSignatures)
      (fun h' => ∃ r' v E S, h' = parseHeap h d r' v E S) := by
  intro fuel
  induction fuel with
  | zero => intro st r extra _ _ hm; exact absurd rfl hm.2
  | succ fuel ih =>
    intro st r extra hx hp hm
    rw [eventLoop] at hm ⊢
    rw [whileLoop]
    have hv := parseHeap_var_len W hd r (prevVal st.previousStatus) st.channelEvents st.channelSignatures
    have hm1 := hm.left
    cases hr : r.readVarLen with
    | error e =>
      rw [hr] at hv
      refine ⟨_, ?_, ⟨⟨r.data, r.data.length⟩, prevVal st.previousStatus, st.channelEvents, st.channelSignatures, rfl⟩⟩
      rcases hx with rfl | ⟨a, b, e', rfl⟩ <;> pyrun [ptLoop, ptEnv, roundVars, hv]
    | ok x =>
      obtain ⟨n, r1⟩ := x
      rw [hr] at hv
      simp only [hr] at hm ⊢
      have he := parseHeap_event W hd r1 st.channelEvents st.channelSignatures sv tv st.previousStatus hp (hm.right rfl).left.1
      change Settles (readEvent recursionLimit .none st.previousStatus r1 >>= _) at hm
      change Ends _ (readEvent recursionLimit .none st.previousStatus r1 >>= _) _ _
      cases hv' : readEvent recursionLimit .none st.previousStatus r1 with
      | error e =>
        rw [hv'] at he
        obtain ⟨h', h1, v, r', h2⟩ := he
        refine ⟨h', ?_, r', v, _, _, h2⟩
        rcases hx with rfl | ⟨a, b, e', rfl⟩ <;> pyrun [ptLoop_eq, ptEnv, roundVars, hv, h1]
      | ok y =>
        obtain ⟨ev, ps, r2⟩ := y
        rw [hv'] at he
        obtain ⟨v, h', h1, h2, h3⟩ := he
        simp only at h2 h3
        subst h2 h3
        have hb : execB program W ptLoop (ptEnv d h.objs.length sv tv st.globalChannel st.lastTime extra)
              (parseHeap h d r (prevVal st.previousStatus) st.channelEvents st.channelSignatures) =
            execB program W ptHandle (ptEnv d h.objs.length sv tv st.globalChannel (st.lastTime + n)
                (roundVars n (st.lastTime + n) ev))
              (parseHeap h d r2 (prevVal ps) st.channelEvents st.channelSignatures) := by
          rcases hx with rfl | ⟨a, b, e', rfl⟩
          · pyrun [ptLoop_eq, ptEnv, roundVars, hv, h1]
          · cases e' <;> pyrun [ptLoop_eq, ptEnv, roundVars, hv, h1, eventVal]
        have hh := handle_run W (h := h) (d := d) sv tv r2 { st with lastTime := st.lastTime + n, previousStatus := ps } ev n (prevVal ps)
        rw [hv'] at hm
        change Settles (handleEvent { st with lastTime := st.lastTime + n, previousStatus := ps } (st.lastTime + n) ev >>= _) at hm
        change Ends _ (handleEvent { st with lastTime := st.lastTime + n, previousStatus := ps } (st.lastTime + n) ev >>= _) _ _
        simp only at hh
        cases hv2 : handleEvent { st with lastTime := st.lastTime + n, previousStatus := ps } (st.lastTime + n) ev with
        | error e =>
          rw [hv2] at hh
          obtain ⟨h', h2, h3⟩ := hh
          refine ⟨h', ?_, _, _, _, _, h3⟩
          pyrun [hb, h2]
        | ok o =>
          rw [hv2] at hh hm
          obtain ⟨fl, h', h2, h3⟩ := hh
          cases o with
          | none =>
            obtain ⟨rfl, rfl⟩ := h3
            refine ⟨_, _, ?_, ⟨n, st.lastTime + n, ev, rfl⟩, r2, rfl⟩
            pyrun [hb, h2]
          | some st' =>
            obtain ⟨e1, e2, ⟨env', e3, rfl⟩, rfl⟩ := h3
            have := ih st' r2 (roundVars n (st.lastTime + n) ev) (.inr ⟨_, _, _, rfl⟩)
              (by rw [e1]; exact readEvent_prev hp hv') hm
            rw [e1, e2] at this
            change Ends _ (eventLoop fuel st' r2) _ _
            convert this using 1
            rcases e3 with rfl | rfl <;> pyrun [hb, h2]

end Source
end Melodia
