/-
`MIDIReader._parse_track` (src/melodia/io/midi.py:452-602) and `_parse_header` (403-408), run from their text.
-/
import Verif.Lemmas.SourceParseBuild

set_option autoImplicit false

namespace Melodia

open Melodia.Python

namespace Source

variable (W : World)

theorem parseHeap_frame (h : Heap) (d : Nat) (r : Melodia.Reader) (prev : Val) (E : Dict Int (List (Int × Event))) (S : Dict Int Signature) :
    Frame (· = d) h (parseHeap h d r prev E S) := by
  refine ⟨by simp [parseHeap], rfl, fun b hb hd => ?_⟩
  simp only [parseHeap]
  rw [List.getElem?_append_left (by simpa using hb), List.getElem?_set_ne (Ne.symm hd)]

theorem parseHeap_init {h : Heap} {d : Nat} {r : Melodia.Reader} (hd : h.objs[d]? = some (readerObj r)) :
    ((h.push (.cell .none)).push (.dict [] true)).push (.dict [] false) = parseHeap h d r .none [] [] := by
  obtain ⟨h1, h2⟩ := List.getElem?_eq_some_iff.mp hd
  simp [parseHeap, Heap.push, refDict, valDict, ← h2]

@[py] theorem midi_name_defaultdict : globalName program W "melodia.io.midi" "defaultdict" = pure (.builtin .defaultdict) := by
  rw [globalName]; rfl
@[py] theorem midi_name_list : globalName program W "melodia.io.midi" "list" = pure (.builtin .list) := by
  rw [globalName]; rfl

theorem parse_head {m : MidiReader} {c : Val} {h : Heap} {d : Nat} {r : Melodia.Reader} {q : Int} (hd : h.objs[d]? = some (readerObj r)) :
    execB program W (.assign (.name "previous_status") .none :: .defn "read_event" [("status", .none)] ["previous_status"] reBody :: ptRest.take 4)
      { mod := "melodia.io.midi", vars := [("self", readerV m c), ("data", .ref d), ("ticks_per_quarter", .int q)] } h =
      some (.ok (.next (ptEnv d h.objs.length (readerV m c) (.int q) (-1) 0 [])) (parseHeap h d r .none [] [])) := by
  rw [← parseHeap_init hd]
  have hb : ∀ sv : Val, boxVars ["previous_status"] { mod := "melodia.io.midi", vars := [("self", sv), ("data", .ref d),
      ("ticks_per_quarter", .int q), ("previous_status", .none)] } h = some (.ok { mod := "melodia.io.midi", vars := [("self", sv), ("data", .ref d),
      ("ticks_per_quarter", .int q), ("previous_status", .cell h.objs.length)] } (h.push (.cell .none))) := by
    intro sv; rfl
  have hdd : ∀ H : Heap, callBuiltin program W .defaultdict [.builtin .list] [] H = some (.ok (.ref H.objs.length) (H.push (.dict [] true))) := by
    intro H; rw [callBuiltin.eq_def]; rfl
  pyrun [ptRest, ptEnv, ↓hb, hdd, reFn, reVars, Heap.push_length]

theorem truthy_dict {a : Nat} {xs : List (Val × Val)} {dd : Bool} {H : Heap} (ha : H.objs[a]? = some (.dict xs dd)) :
    truthy program W (.ref a) H = some (.ok (!xs.isEmpty) H) := by
  rw [truthy.eq_def]
  pyrun [ha]
  cases xs <;> rfl

theorem refDict_isEmpty {α : Type} (n : Nat) (E : Dict Int α) : (refDict n E).isEmpty = List.isEmpty E := by
  cases E with
  | nil => rfl
  | cons x E => rfl

/-- `if not channel_events: ...`. -/
theorem no_events {h : Heap} {d : Nat} {sv tv : Val} {g t : Int} {a b : Int} {e : Event} (r : Melodia.Reader) (prev : Val)
    (E : Dict Int (List (Int × Event))) (S : Dict Int Signature) :
    execS program W (.ite (.un .not (.name "channel_events")) [
        .expr (.call (.attr (.index (.name "channel_events") (.int 0)) "append") [.tuple [.int 0, .call (.name "_EventUnsupported") [] []]] [])] [])
      (ptEnv d h.objs.length sv tv g t (roundVars a b e)) (parseHeap h d r prev E S) =
      some (.ok (.next (ptEnv d h.objs.length sv tv g t (roundVars a b e)))
        (parseHeap h d r prev (if E.isEmpty then appendEvent E 0 (0, .unsupported) else E) S)) := by
  have ht := truthy_dict W (parseHeap_ce (h := h) (d := d) r prev E S)
  rw [refDict_isEmpty] at ht
  have hno : evalE program W (.un .not (.name "channel_events")) (ptEnv d h.objs.length sv tv g t (roundVars a b e)) (parseHeap h d r prev E S) =
      some (.ok (.bool E.isEmpty) (parseHeap h d r prev E S)) := by
    pyrun [ptEnv, ↓ht]
  rw [execS_ite _ _ _ _ hno]
  cases hemp : E.isEmpty with
  | true =>
    have ha := append_event W (h := h) (d := d) r prev E S 0 (0, .unsupported) (env := ptEnv d h.objs.length sv tv g t (roundVars a b e))
      (.int 0) [.int 0, .call (.name "_EventUnsupported") [] []] rfl (by intro H; pyrun []) (by intro H; pyrun [ptEnv, roundVars, eventVal])
    rw [if_pos rfl, if_pos rfl]
    exact (execB_next _ _ ha).trans (execB_nil _ _ _ _)
  | false => exact execB_nil _ _ _ _

/-- The result of `_parse_track`. -/
structure Tracks (h : Heap) (d : Nat) (R : Dict Int Melodia.Track) (v : Val) (H : Heap) : Prop where
  dict : ∃ b D, v = .ref b ∧ h.objs.length ≤ b ∧ H.objs[b]? = some (.dict D false) ∧ List.Forall₂ (TrackRow H h.objs.length) D R ∧ D.Pairwise (Apart H)
  frame : Frame (· = d) h H

/-- `_parse_track` does what the model says. -/
theorem parse_track_run {m : MidiReader} {c : Val} {h : Heap} {d : Nat} {data : Bytes} {q : Int} (hd : h.objs[d]? = some (readerObj ⟨data, 0⟩))
    (hset : Settles (@MidiReader.parseTrack W.digits m data q)) :
    Ends (callFun program W MIDIReader._parse_track [readerV m c, .ref d, .int q] [] h) (@MidiReader.parseTrack W.digits m data q)
      (Tracks h d) (Frame (· = d) h) := by
  have hdl := lt_of_at hd
  suffices hmain : Ends (execB program W MIDIReader._parse_track.body
      { mod := "melodia.io.midi", vars := [("self", readerV m c), ("data", .ref d), ("ticks_per_quarter", .int q)] } h)
      (@MidiReader.parseTrack W.digits m data q) (fun R f H => ∃ v env, f = .ret v env ∧ Tracks h d R v H) (Frame (· = d) h) by
    have hb : bindParams program W MIDIReader._parse_track.params [readerV m c, .ref d, .int q] []
        { mod := MIDIReader._parse_track.mod, vars := [] } = pure [("self", readerV m c), ("data", .ref d), ("ticks_per_quarter", .int q)] := by
      simp [py, MIDIReader._parse_track]
    cases hr : @MidiReader.parseTrack W.digits m data q with
    | ok R =>
      rw [hr] at hmain
      obtain ⟨f, H, h1, v, env, rfl, h2⟩ := hmain
      exact ⟨v, H, callFun_run program W hb rfl h1, h2⟩
    | error e =>
      rw [hr] at hmain
      obtain ⟨H, h1, h2⟩ := hmain
      exact ⟨H, callFun_err program W hb rfl h1, h2⟩
  rw [parse_track_text, show ∀ a b, a :: b :: ptRest = (a :: b :: ptRest.take 4) ++ ptRest.drop 4 from fun _ _ => rfl, execB_append_next (parse_head W hd)]
  unfold MidiReader.parseTrack at hset ⊢
  have hl := loop_run W hdl (readerV m c) (.int q) (data.length + 1) ParseState.init ⟨data, 0⟩ [] (.inl rfl) (by rintro s ⟨⟩) hset.left
  have hw : execS program W (.while (.bool true) ptLoop) (ptEnv d h.objs.length (readerV m c) (.int q) (-1) 0 []) (parseHeap h d ⟨data, 0⟩ .none [] []) =
      whileLoop program W (.bool true) ptLoop (ptEnv d h.objs.length (readerV m c) (.int q) (-1) 0 []) (parseHeap h d ⟨data, 0⟩ .none [] []) := by
    rw [execS]
  change Ends (execB program W (.while (.bool true) ptLoop :: ptRest.drop 5) _ _) _ _ _
  refine Ends.block (I := fun st' env' h' => (∃ a b e, env' = ptEnv d h.objs.length (readerV m c) (.int q) st'.globalChannel st'.lastTime (roundVars a b e)) ∧
      ∃ r', h' = parseHeap h d r' (prevVal st'.previousStatus) st'.channelEvents st'.channelSignatures)
    (E := fun h' => ∃ r' v E S, h' = parseHeap h d r' v E S) ?_ ?_ ?_
  · rw [hw]
    refine hl.mono ?_ (fun _ h => h)
    rintro st f H - ⟨⟨a, b, e, rfl⟩, h2⟩
    exact ⟨_, rfl, ⟨a, b, e, rfl⟩, h2⟩
  · rintro H ⟨r', v, E, S, rfl⟩
    exact parseHeap_frame _ _ _ _ _ _
  · rintro st env H hm ⟨⟨a, b, e, rfl⟩, r', rfl⟩
    have hp := eventLoop_parsed _ _ _ _ hm ⟨by rintro x ⟨⟩, by rintro x ⟨⟩⟩
    have hpE : Parsed (if st.channelEvents.isEmpty then appendEvent st.channelEvents 0 (0, .unsupported) else st.channelEvents) st.channelSignatures := by
      split
      · exact ⟨append_vel hp.vel (by rintro c p v ⟨⟩), hp.sig⟩
      · exact hp
    have k1 := no_events W (h := h) (d := d) (sv := readerV m c) (tv := .int q) (g := st.globalChannel) (t := st.lastTime) (a := a) (b := b) (e := e)
      r' (prevVal st.previousStatus) st.channelEvents st.channelSignatures
    change Ends (execB program W (_ :: ptRest.drop 6) _ _) _ _ _
    rw [execB_next _ _ k1]
    dsimp only
    generalize (if st.channelEvents.isEmpty then appendEvent st.channelEvents 0 (0, .unsupported) else st.channelEvents) = E at hpE ⊢
    have k2 : execS program W (.assign (.name "result") (.dict [] []))
        (ptEnv d h.objs.length (readerV m c) (.int q) st.globalChannel st.lastTime (roundVars a b e))
        (parseHeap h d r' (prevVal st.previousStatus) E st.channelSignatures) =
        some (.ok (.next (buEnv d h.objs.length (readerV m c) q st.globalChannel st.lastTime a b e (h.objs.length + 3 + E.length) []))
          ((parseHeap h d r' (prevVal st.previousStatus) E st.channelSignatures).push (.dict [] false))) := by
      rw [← parseHeap_length (h := h) (d := d) r' (prevVal st.previousStatus) E st.channelSignatures]
      pyrun [ptEnv, roundVars, buEnv]
    change Ends (execB program W (_ :: ptRest.drop 7) _ _) _ _ _
    rw [execB_next _ _ k2, ← bind_pure (@MidiReader.buildTracks W.digits m q st.channelSignatures E [])]
    have fP : Frame (· = d) h ((parseHeap h d r' (prevVal st.previousStatus) E st.channelSignatures).push (.dict [] false)) :=
      (parseHeap_frame h d r' _ E _).trans (Frame.push _ _) (fun _ h => h) (fun _ _ h => h.elim)
    refine Ends.block (build_run W r' (prevVal st.previousStatus) hpE) ?_ ?_
    · intro H hH
      exact fP.trans hH (fun _ h => h) (by rintro b hb h; omega)
    · rintro R env H - ⟨⟨time, e', X, hX, rfl⟩, hf, D, hD, hrows, hap⟩
      refine ⟨.ret (.ref (h.objs.length + 3 + E.length)) (buEnv d h.objs.length (readerV m c) q st.globalChannel st.lastTime a time e' (h.objs.length + 3 + E.length) X),
        H, ?_, _, _, rfl, ⟨_, D, rfl, by omega, hD, ?_, hap⟩, ?_⟩
      · pyrun [buEnv, ptEnv, ptRest]
      · refine hrows.imp (fun x y hxy => ?_)
        obtain ⟨h1, a, l, h2, h3, h4, h5⟩ := hxy
        have := fP.len
        exact ⟨h1, a, l, h2, by omega, by omega, h5⟩
      · exact fP.trans hf (fun _ h => h) (by rintro b hb h; omega)

end Source
end Melodia
