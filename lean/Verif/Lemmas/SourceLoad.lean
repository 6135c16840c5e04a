/-
`MIDIReader.load` (src/melodia/io/midi.py:604-661), run from its text.
-/
import Verif.Lemmas.SourceMerge

set_option autoImplicit false

namespace Melodia

open Melodia.Python

namespace Source

variable (W : World)

/-- The part of the model after the chunk loop. -/
def finishLoad (S : ListSort) (st : MidiReader.LoadState) (channel : Option Int) : PyM Melodia.Track :=
  match st.kind with
  | none => .error .parsingError
  | some _ =>
    match st.tracks with
    | none => .error .parsingError
    | some tracks =>
      if tracks.isEmpty then .ok (Track.empty ⟨4, 4⟩)
      else match channel with
        | none => MidiReader.mergeTracks S (Track.empty (MidiReader.maxSignature tracks)) tracks
        | some c =>
          match tracks.get c with
          | none => .error .valueError
          | some t => .ok t

theorem load_eq [UnicodeDigits] (S : ListSort) (m : MidiReader) (file : Bytes) (channel : Option Int) :
    m.load S file channel = m.chunkLoop (file.length + 1) ⟨none, none, none⟩ file >>= fun st => finishLoad S st channel := rfl

/-- What is known of the variables after the chunk loop. -/
def endNames (k tr ch : Val) : List (String × Option Val) :=
  [("kind", some k), ("tracks", some tr), ("channel", some ch), ("Track", .none), ("Signature", .none), ("MIDIParsingError", .none), ("ValueError", .none)]

theorem get_all {a : Nat} {x : String} {l : List (String × Val)} (h : ∀ p ∈ l, p.2 ≠ .cell a) : Dict.get l x ≠ some (.cell a) := by
  induction l with
  | nil => simp [Dict.get]
  | cons p l ih =>
    obtain ⟨k, v⟩ := p
    simp only [Dict.get]
    split
    · simpa using h (k, v) (by simp)
    · exact ih (fun p hp => h p (by simp [hp]))

theorem ldVars_has {sv ch k q tr : Val} {f : Nat} {X : List (String × Val)} (hX : ChunkVars X) (h1 : ∀ a, sv ≠ .cell a) (h2 : ∀ a, ch ≠ .cell a)
    (h3 : ∀ a, k ≠ .cell a) (h4 : ∀ a, q ≠ .cell a) (h5 : ∀ a, tr ≠ .cell a) :
    Has "melodia.io.midi" { mod := "melodia.io.midi", vars := ldVars sv f ch k q tr X } (endNames k tr ch) := by
  refine ⟨rfl, ?_, ?_⟩
  · intro p hp
    simp only [endNames, List.mem_cons, List.not_mem_nil, or_false] at hp
    rcases hp with rfl | rfl | rfl | rfl | rfl | rfl | rfl <;> cases hX <;> rfl
  · intro x a
    refine get_all ?_
    intro p hp
    cases hX <;> simp only [ldVars, List.cons_append, List.nil_append, List.mem_cons, List.not_mem_nil, or_false] at hp
    · rcases hp with rfl | rfl | rfl | rfl | rfl | rfl <;> first | exact h1 _ | exact h2 _ | exact h3 _ | exact h4 _ | exact h5 _ | simp
    · rcases hp with rfl | rfl | rfl | rfl | rfl | rfl | rfl | rfl <;> first | exact h1 _ | exact h2 _ | exact h3 _ | exact h4 _ | exact h5 _ | simp
    · rcases hp with rfl | rfl | rfl | rfl | rfl | rfl | rfl | rfl | rfl | rfl <;> first | exact h1 _ | exact h2 _ | exact h3 _ | exact h4 _ | exact h5 _ | simp

theorem rows_get {H : Heap} {B : Nat} {D : List (Val × Val)} {R : Dict Int Melodia.Track} (h : List.Forall₂ (TrackRow H B) D R) (c : Int) :
    (R.get c = none → dictGet D (.int c) = none) ∧
    ∀ t, R.get c = some t → ∃ a l, dictGet D (.int c) = some (.ref a) ∧ B ≤ a ∧ B ≤ l ∧ TrackAt H a l t ∧ t.WF := by
  induction h with
  | nil => exact ⟨fun _ => rfl, by rintro t ⟨⟩⟩
  | @cons x y D R hxy _ ih =>
    obtain ⟨k, v⟩ := x
    obtain ⟨k', t'⟩ := y
    obtain ⟨h1, a, l, h2, h3⟩ := hxy
    simp only at h1 h2 h3
    subst h1 h2
    have hk : keyEq (.int k') (.int c) = decide (k' = c) := by
      simp [keyEq, primCmp, asInt, intCmp]
    simp only [dictGet, Dict.get, hk, decide_eq_true_eq]
    by_cases hc : k' = c
    · simp only [hc, if_true]
      exact ⟨by simp, by rintro t ⟨⟩; exact ⟨a, l, rfl, h3⟩⟩
    · simp only [hc, if_false]
      exact ih

theorem ldRest_text : ldRest = [
    .ite (.cmp (.name "kind") [.is] [.none]) [
      .raise (.call (.name "MIDIParsingError") [.str "Invalid MIDI file: missing header chunk"] [])] [],
    .ite (.cmp (.name "tracks") [.is] [.none]) [
      .raise (.call (.name "MIDIParsingError") [.str "Invalid MIDI file: missing track chunk"] [])] [],
    .ite (.un .not (.name "tracks")) [
      .ret (.call (.name "Track") [.call (.name "Signature") [.int 4, .int 4] []] ["signature"])] [],
    .ite (.cmp (.name "channel") [.is] [.none]) [
      .assign (.name "max_signature") (.call (.name "Signature") [.int 0, .int 1] []),
      .for (.name "track") (.call (.attr (.name "tracks") "values") [] []) maxBody,
      .assign (.name "common_track") (.call (.name "Track") [.name "max_signature"] ["signature"]),
      .for (.name "track") (.call (.attr (.name "tracks") "values") [] []) mergeBody,
      .ret (.name "common_track")] [],
    .ite (.cmp (.name "channel") [.notIn] [.name "tracks"]) [
      .raise (.call (.name "ValueError") [.fstr [.str "No channel ", .field (.name "channel") "", .str " found"]] [])] [],
    .ret (.index (.name "tracks") (.name "channel"))] := rfl

/-- `Track(signature=s)` in the module. -/
theorem new_track {s : Melodia.Signature} (hs : s.Valid) (H : Heap) :
    ∃ H' l, construct program W "Track" [] [("signature", sigV s)] H = some (.ok (.ref H.objs.length) H') ∧
      (Track.empty s).WF ∧ TrackAt H' H.objs.length l (Track.empty s) ∧ H.objs.length < l ∧ Frame (fun _ => False) H H' :=
  (track_new_run W (h := H) (s := .sig s) (.sig _) hs (content := []) (by simp) (c := .none) (l0 := 0) (.inl ⟨rfl, rfl⟩)
    (args := []) (kws := [("signature", sigV s)]) (by simp [py, Track.dunder_init])).1 (Track.empty s) rfl

/-- The code after the chunk loop does what the model says. -/
theorem finish_run (hN : W.sort.Natural) {m : MidiReader} {c : Val} {h H : Heap} {f : Nat} {data rest : Bytes} {st : MidiReader.LoadState} {vars : List (String × Val)}
    {channel : Option Int} (hL : Loading h f data (readerV m c) (chanV channel) st rest vars H) :
    Ends (execB program W ldRest { mod := "melodia.io.midi", vars := vars } H) (finishLoad W.sort st channel)
      (fun t fl H' => ∃ a l env, fl = .ret (.ref a) env ∧ TrackAt H' a l t ∧ t.WF ∧ h.objs.length ≤ a ∧ h.objs.length ≤ l ∧ Frame (· = f) h H')
      (Frame (· = f) h) := by
  obtain ⟨⟨tr, X, rfl, hX, ht⟩, -, hfr⟩ := hL
  have hE := ldVars_has (f := f) (sv := readerV m c) (ch := chanV channel) (k := optV st.kind) (q := optV st.tpq) hX (by simp [readerV]) (by cases channel <;> simp [chanV])
    (by cases st.kind <;> simp [optV]) (by cases st.tpq <;> simp [optV]) ht.not_cell
  generalize ({ mod := "melodia.io.midi", vars := ldVars (readerV m c) f (chanV channel) (optV st.kind) (optV st.tpq) tr X } : Env) = env at hE ⊢
  have e1 := hE.get ("kind", some (optV st.kind)) (by simp [endNames])
  have e2 := hE.get ("tracks", some tr) (by simp [endNames])
  have e3 := hE.get ("channel", some (chanV channel)) (by simp [endNames])
  have e4 := hE.get ("Track", .none) (by simp [endNames])
  have e5 := hE.get ("Signature", .none) (by simp [endNames])
  have e6 := hE.get ("MIDIParsingError", .none) (by simp [endNames])
  have e7 := hE.get ("ValueError", .none) (by simp [endNames])
  have hmod := hE.mod
  simp only at e1 e2 e3 e4 e5 e6 e7
  rw [ldRest_text]
  unfold finishLoad
  cases hk : st.kind with
  | none =>
    rw [hk] at e1
    refine ⟨H, ?_, hfr⟩
    pyrun [e1, optV, e6, hmod]
  | some k =>
    rw [hk] at e1
    rw [execB_next _ _ (s := .ite _ _ _) (env1 := env) (h1 := H) (by pyrun [e1, optV, hmod])]
    cases hR : st.tracks with
    | none =>
      rw [hR] at ht
      obtain rfl : tr = .none := ht
      refine ⟨H, ?_, hfr⟩
      pyrun [e2, e6, hmod]
    | some R =>
      rw [hR] at ht
      obtain ⟨b, D, rfl, hB, hb, hrows, hap⟩ := ht
      rw [execB_next _ _ (s := .ite _ _ _) (env1 := env) (h1 := H) (by
        have : compareOp program W .is (.ref b) .none H = some (.ok (.bool false) H) := by rw [compareOp.eq_def]; rfl
        pyrun [e2, hmod, this])]
      have hDR : D.isEmpty = List.isEmpty R := by
        have := hrows.length_eq
        cases D <;> cases R <;> simp at this ⊢
      have htr := truthy_dict W hb
      have hn : evalE program W (.un .not (.name "tracks")) env H = some (.ok (.bool D.isEmpty) H) := by
        pyrun [e2, hb]
        cases D <;> rfl
      dsimp only
      by_cases hRe : List.isEmpty R
      · rw [if_pos hRe]
        obtain ⟨H', l, k1, k2, k3, k4, k5⟩ := new_track W (s := ⟨4, 4⟩) ⟨by decide, ⟨2, rfl⟩⟩ H
        refine ⟨.ret (.ref H.objs.length) env, H', ?_, _, l, env, rfl, k3, k2, hfr.len, by have := hfr.len; omega, hfr.trans k5 (fun _ h => h) (by simp)⟩
        refine execB_ret _ _ ?_
        rw [execS_ite _ _ _ _ hn, hDR, hRe, if_pos rfl]
        have hs44 : Melodia.Signature.new 4 4 = .ok ⟨4, 4⟩ := by decide
        pyrun [e4, e5, hmod, midi_name_Track', hs44, Except.map, ↓k1]
      · rw [if_neg hRe]
        rw [execB_next _ _ (s := .ite _ _ _) (env1 := env) (h1 := H) (by rw [execS_ite _ _ _ _ hn, hDR, if_neg hRe, execB_nil])]
        cases channel with
        | none =>
          simp only [chanV] at e3
          have hc : evalE program W (.cmp (.name "channel") [.is] [.none]) env H = some (.ok (.bool true) H) := by pyrun [e3]
          have hs01 : Melodia.Signature.new 0 1 = .ok ⟨0, 1⟩ := by decide
          have hs01' : construct program W "Signature" [.int 0, .int 1] [] H = some (.ok (sigV ⟨0, 1⟩) H) := by
            rw [signature_new, hs01]; rfl
          have g1 : execS program W (.assign (.name "max_signature") (.call (.name "Signature") [.int 0, .int 1] [])) env H =
              some (.ok (.next (env.set "max_signature" (sigV ⟨0, 1⟩))) H) := by
            refine execS_setname _ _ ?_ (hE.cell _)
            pyrun [e5, hmod, ↓hs01']
          have hE1 := hE.set "max_signature" (v := sigV ⟨0, 1⟩) (by simp [sigV]) (by simp [endNames])
          obtain ⟨env2, g2, hE2, hv⟩ := max_run W hb hrows (hE1.weaken (by simp [endNames]))
          obtain ⟨H3, l, k1, k2, k3, k4, k5⟩ := new_track W hv H
          have g3 : execS program W (.assign (.name "common_track") (.call (.name "Track") [.name "max_signature"] ["signature"])) env2 H =
              some (.ok (.next (env2.set "common_track" (.ref H.objs.length))) H3) := by
            refine execS_setname _ _ ?_ (hE2.cell _)
            have q1 := hE2.get ("max_signature", some (sigV (MidiReader.maxSignature R))) (by simp)
            have q2 := hE2.get ("Track", .none) (by simp)
            have q3 := hE2.mod
            simp only at q1 q2
            pyrun [q1, q2, q3, midi_name_Track', ↓k1]
          have hE3 := hE2.set "common_track" (v := .ref H.objs.length) (by simp) (by simp)
          have hlen := hfr.len
          have hb3 := k5.at hb (by simp)
          have hm := merge_run W hN (B := h.objs.length) hb3 (hrows.imp fun _ _ h => h.mono k5 (by simp)) (apart_mono hrows hap k5 (by simp))
            (hE3.weaken (l' := mgNames b H.objs.length) (by simp [mgNames])) k3 k2 (by omega) (by omega)
            (by
              intro x hx a l' hxa hta
              obtain ⟨-, a', l2, z1, -, -, z4, -⟩ := rows_zip hrows x hx
              obtain rfl : a = a' := by rw [hxa] at z1; simpa using z1
              have z5 : TrackAt H3 a l2 x.2.2 := ⟨k5.at z4.obj (by simp), k5.at z4.list (by simp)⟩
              have := lt_of_at z4.obj
              have := lt_of_at z4.list
              rw [hta.list_eq z5]
              omega)
            (by have := k5.len; omega)
          cases hmr : MidiReader.mergeTracks W.sort (Track.empty (MidiReader.maxSignature R)) R with
          | error e =>
            rw [hmr] at hm
            obtain ⟨_, _, hF⟩ := hm
            exact hF.elim
          | ok u =>
            rw [hmr] at hm
            obtain ⟨fl, H4, g4, env4, rfl, hE4, hu, lc, t1, t2, t3⟩ := hm
            refine ⟨.ret (.ref H.objs.length) env4, H4, ?_, _, lc, env4, rfl, t1, hu, by omega, t2, ?_⟩
            · refine execB_ret _ _ ?_
              rw [execS_ite _ _ _ _ hc, if_pos rfl, execB_next _ _ g1, execB_next _ _ g2, execB_next _ _ g3, execB_next _ _ g4]
              have q1 := hE4.get ("common_track", some (.ref H.objs.length)) (by simp [mgNames])
              simp only at q1
              pyrun [q1]
            · refine (hfr.trans k5 (fun _ h => h) (by simp)).trans t3 (fun _ h => h) ?_
              intro z hz h'
              omega
        | some ch =>
          simp only [chanV] at e3
          have hc : evalE program W (.cmp (.name "channel") [.is] [.none]) env H = some (.ok (.bool false) H) := by
            pyrun [e3]
          rw [execB_next _ _ (s := .ite _ _ _) (env1 := env) (h1 := H) (by rw [execS_ite _ _ _ _ hc, if_neg (by simp), execB_nil])]
          obtain ⟨r1, r2⟩ := rows_get hrows ch
          have hin := notIn_dict W hb (k := ch)
          dsimp only
          cases hg : R.get ch with
          | none =>
            rw [r1 hg] at hin
            refine ⟨H, execB_err _ _ ?_, hfr⟩
            pyrun [e2, e3, hin, e7, hmod]
          | some t =>
            obtain ⟨a, l, w1, w2, w3, w4, w5⟩ := r2 t hg
            rw [w1] at hin
            rw [execB_next _ _ (s := .ite _ _ _) (env1 := env) (h1 := H) (by pyrun [e2, e3, hin])]
            refine ⟨.ret (.ref a) env, H, ?_, a, l, env, rfl, w4, w5, w2, w3, hfr⟩
            pyrun [e2, e3, hb, w1]

@[py] theorem midireader_read_chunks : program.method "MIDIReader" "_read_chunks" = some MIDIReader._read_chunks := by rfl
@[py] theorem midireader_load : program.method "MIDIReader" "load" = some MIDIReader.load := by rfl
@[py] theorem midireader_loads : program.method "MIDIReader" "loads" = some MIDIReader.loads := by rfl

/-- `load(self, file, channel)` does what the model says: the track is new, and of all that was there before only the position in the
file is changed. -/
theorem load_run (hN : W.sort.Natural) {m : MidiReader} {c : Val} {h : Heap} {f pos : Nat} {data : Bytes} {channel : Option Int}
    (hf : h.objs[f]? = some (.file data pos)) (hset : Settles (@MidiReader.load W.digits W.sort m (data.drop pos) channel))
    {args : List Val} {kws : List (String × Val)}
    (hb : bindParams program W MIDIReader.load.params args kws { mod := "melodia.io.midi", vars := [] } =
      pure [("self", readerV m c), ("file", .ref f), ("channel", chanV channel)]) :
    Ends (callFun program W MIDIReader.load args kws h) (@MidiReader.load W.digits W.sort m (data.drop pos) channel)
      (fun t v H => ∃ a l, v = .ref a ∧ TrackAt H a l t ∧ t.WF ∧ h.objs.length ≤ a ∧ h.objs.length ≤ l ∧ Frame (· = f) h H)
      (Frame (· = f) h) := by
  have hfl := lt_of_at hf
  have hmain : Ends (execB program W MIDIReader.load.body { mod := "melodia.io.midi", vars := [("self", readerV m c), ("file", .ref f), ("channel", chanV channel)] } h)
      (@MidiReader.load W.digits W.sort m (data.drop pos) channel)
      (fun t fl H' => ∃ a l env, fl = .ret (.ref a) env ∧ TrackAt H' a l t ∧ t.WF ∧ h.objs.length ≤ a ∧ h.objs.length ≤ l ∧ Frame (· = f) h H')
      (Frame (· = f) h) := by
    rw [@load_eq W.digits] at hset ⊢
    rw [load_text]
    have g : execB program W [.assign (.name "kind") .none, .assign (.name "ticks_per_quarter") .none, .assign (.name "tracks") .none]
        { mod := "melodia.io.midi", vars := [("self", readerV m c), ("file", .ref f), ("channel", chanV channel)] } h =
        some (.ok (.next { mod := "melodia.io.midi", vars := ldVars (readerV m c) f (chanV channel) .none .none .none [] }) h) := by
      pyrun [ldVars]
    rw [show ∀ a b c (r : List Stmt), a :: b :: c :: r = [a, b, c] ++ r from fun _ _ _ _ => rfl, execB_append_next g]
    have hL : Loading h f data (readerV m c) (chanV channel) ⟨none, none, none⟩ (data.drop pos) (ldVars (readerV m c) f (chanV channel) .none .none .none []) h :=
      ⟨⟨.none, [], rfl, .nil, rfl⟩, ⟨pos, hf, rfl⟩, Frame.refl _ _⟩
    have hch := chunks_run W hfl _ _ _ _ [] _ .nil hL hset.left
    have ha : getAttr program W (readerV m c) "_read_chunks" = pure (.meth (readerV m c) "_read_chunks") :=
      readerV_meth W m c (by decide) (by decide) (by decide) midireader_read_chunks (by decide)
    have hc : ∀ H, call program W (.meth (readerV m c) "_read_chunks") [.ref f] [] H = callFun program W MIDIReader._read_chunks [.ref f] [] H := by
      intro H; rw [call_reader W m c midireader_read_chunks]; rfl
    have hcf : callFun program W MIDIReader._read_chunks [.ref f] [] h = some (.ok (.gen "melodia.io.midi" [.while (.bool true) rcLoop] [("file", .ref f)]) h) := by
      have hbp : bindParams program W MIDIReader._read_chunks.params [.ref f] [] { mod := MIDIReader._read_chunks.mod, vars := [] } = pure [("file", .ref f)] := by
        simp [py, MIDIReader._read_chunks]
      rw [callFun, hbp, pure_bind]
      rfl
    have he : evalE program W (.call (.attr (.name "self") "_read_chunks") [.name "file"] [])
        { mod := "melodia.io.midi", vars := ldVars (readerV m c) f (chanV channel) .none .none .none [] } h =
        some (.ok (.gen "melodia.io.midi" [.while (.bool true) rcLoop] [("file", .ref f)]) h) := by
      pyrun [ldVars, ha, hc, hcf]
    refine Ends.block (I := fun st env H => ∃ vars' rest', env = { mod := "melodia.io.midi", vars := vars' } ∧ Loading h f data (readerV m c) (chanV channel) st rest' vars' H)
      (E := Frame (· = f) h) ?_ (fun _ h => h) ?_
    · rw [execS, bind_ok he]
      have hg : getIter program W (.gen "melodia.io.midi" [.while (.bool true) rcLoop] [("file", .ref f)]) h =
          some (.ok (.gen "melodia.io.midi" [.while (.bool true) rcLoop] [("file", .ref f)]) h) := by rw [getIter.eq_def]; rfl
      rw [bind_ok hg]
      dsimp only
      have hbody : execB program W [.while (.bool true) rcLoop] (rcEnv f [] (ldVars (readerV m c) f (chanV channel) .none .none .none [])) h =
          andThen (whileLoop program W (.bool true) rcLoop (rcEnv f [] (ldVars (readerV m c) f (chanV channel) .none .none .none [])) h)
            (fun fl => match fl with
              | .next env => execB program W [] env
              | r => pure r) := by
        rw [execB, run_bind, execS]
        rfl
      have hbody' := hbody
      simp only [rcEnv, ldConsumer] at hbody'
      rw [run_bind, hbody']
      cases hm : @MidiReader.chunkLoop W.digits m ((data.drop pos).length + 1) ⟨none, none, none⟩ (data.drop pos) with
      | error e =>
        rw [hm] at hch
        obtain ⟨H, k1, k2⟩ := hch
        simp only [rcEnv, ldConsumer] at k1
        rw [k1]
        exact ⟨H, rfl, k2⟩
      | ok st =>
        rw [hm] at hch
        obtain ⟨fl, H, k1, X', vars', rfl, rest', k2⟩ := hch
        simp only [rcEnv, ldConsumer] at k1
        rw [k1]
        refine ⟨.next { mod := "melodia.io.midi", vars := vars' }, H, ?_, _, rfl, vars', rest', rfl, k2⟩
        simp only [andThen, execB_nil]
        rfl
    · rintro st env H hm ⟨vars', rest', rfl, hL'⟩
      exact finish_run W hN hL'
  cases hr : @MidiReader.load W.digits W.sort m (data.drop pos) channel with
  | ok t =>
    rw [hr] at hmain
    obtain ⟨fl, H, h1, a, l, env, rfl, h2⟩ := hmain
    exact ⟨.ref a, H, callFun_run program W hb rfl h1, a, l, rfl, h2⟩
  | error e =>
    rw [hr] at hmain
    obtain ⟨H, h1, h2⟩ := hmain
    exact ⟨H, callFun_err program W hb rfl h1, h2⟩

end Source
end Melodia
