/-
Executing scripts of the kind shown in the README.
-/
import Verif.Lemmas.ScriptParse
import Verif.Lemmas.SourceReaderUser
import Verif.Lemmas.SourceTrackUser
import Verif.Props.Progression
import Verif.Props.SourceRoundTrip

set_option autoImplicit false

namespace Melodia.Source

open Melodia.Python

variable (W : World)

/-- The imported names. -/
def scriptImports : List (String × Val) :=
  [("Track", .cls "Track"), ("chord", .module "melodia.music.chord"), ("midi", .module "melodia.io.midi")]

theorem script_names : scriptNames program [("Track", .imported "melodia.core" "Track"),
    ("chord", .imported "melodia.music" "chord"), ("midi", .imported "melodia.io" "midi")] = some scriptImports := by rfl

theorem chord_global (f : ChordFn) (hf : f ∈ chordFunctions) :
    program.global 4 "melodia.music.chord" f.name = some (.func "melodia.music.chord" f.name) := by
  revert f
  simp only [chordFunctions, List.forall_mem_cons]
  repeat' apply And.intro
  all_goals first | rfl | simp

theorem chord_std (f : ChordFn) (hf : f ∈ chordFunctions) : stdName "melodia.music.chord" f.name = none := by
  revert f
  simp only [chordFunctions, List.forall_mem_cons]
  repeat' apply And.intro
  all_goals first | rfl | simp

/-- The variables after the track was made. -/
def scriptEnv (a : Nat) : Env := { mod := "__main__", vars := scriptImports ++ [("track", .ref a)] }

theorem read_module (m : String) : readVar (.module m) = pure (.module m) := rfl

/-- The value of the argument of a line. -/
theorem line_chord_run (f : ChordFn) (hf : f ∈ chordFunctions) (base : String) (d : Option (Nat × Nat)) (a : Nat) :
    evalE program W (.call (.attr (.name "chord") f.name) (lineArgs base d) []) (scriptEnv a) =
      liftPy ((@chordBody W.digits f.intervals (.str base.toList) (d.map fun p => .ints [p.1, p.2]) none).map
        (fun ns => .tuple (ns.map noteV))) := by
  rcases d with _ | ⟨n, m⟩
  · rw [Option.map_none, ← chord_ok W (.str base.toList) .none .none f.name f.intervals [.str base.toList] []
      (by simp [py, chordDef])]
    simp [lineArgs, scriptEnv, scriptImports, py, read_module, getAttr_module, chord_std f hf, chord_global f hf,
      chord_defs f hf]
  · rw [Option.map_some, ← chord_ok W (.str base.toList) (.some _ _ (.tuple [(n : Int), (m : Int)]) (by simp)) .none f.name
      f.intervals [.str base.toList, .tuple [.int n, .int m]] [] (by simp [py, chordDef])]
    simp [lineArgs, scriptEnv, scriptImports, py, read_module, getAttr_module, chord_std f hf, chord_global f hf,
      chord_defs f hf]

/-! ### A line with a chord -/

theorem sigArg_valid {s : SigArg} (hs : s.Valid) {sig : Melodia.Signature} (hd : s.coerce = .ok sig) : sig.Valid :=
  denotes_valid hs (SigArg.coerce_ok_iff.mp hd)

theorem chord_notes_valid [UnicodeDigits] {l : List Int} {b : List Char} {d : Option (Nat × Nat)} {ns : List Melodia.Note}
    (h : chordBody l (.str b) (d.map fun p => .ints [p.1, p.2]) none = .ok ns) : ∀ n ∈ ns, n.Valid := by
  unfold chordBody at h
  cases hg : getParameters (.str b) (d.map fun p => (.ints [(p.1 : Int), (p.2 : Int)] : SigArg)) none with
  | error e => rw [hg] at h; cases h
  | ok r =>
    obtain ⟨t, sa, v⟩ := r
    rw [hg] at h
    have hsa : sa.Valid := by
      unfold getParameters at hg
      dsimp only at hg
      cases ht : Melodia.Tone.fromNotation b with
      | error e => rw [ht] at hg; cases hg
      | ok t' =>
        rw [ht] at hg
        cases d <;> (cases hg)
        · exact ⟨by norm_num, 2, rfl⟩
        · trivial
    have hn : ∀ k n, chordNote t sa v k = .ok n → n.Valid := by
      intro k n hk
      have : ∀ t', Melodia.Note.new (.tone t') sa v = .ok n → n.Valid := fun t' h' => by
        obtain ⟨-, h2, -, h4, h5⟩ := Note.new_ok_iff.mp h'
        exact ⟨sigArg_valid hsa h2, h4, h5⟩
      unfold chordNote at hk
      split at hk
      · exact this _ hk
      · cases htr : t.transposed k with
        | error e => rw [htr] at hk; cases hk
        | ok t' => rw [htr] at hk; exact this _ hk
    have hl : ∀ (l : List Int) (ns : List Melodia.Note), l.mapM (chordNote t sa v) = .ok ns → ∀ n ∈ ns, n.Valid := by
      intro l
      induction l with
      | nil => intro ns h; cases h; simp
      | cons k l ih =>
        intro ns h
        rw [List.mapM_cons] at h
        cases h1 : chordNote t sa v k with
        | error e => rw [h1] at h; cases h
        | ok n =>
          rw [h1] at h
          cases h2 : l.mapM (chordNote t sa v) with
          | error e =>
            simp only [h2] at h
            cases h
          | ok ns' =>
            simp only [h2] at h
            cases h
            intro m hm
            rcases List.mem_cons.mp hm with rfl | hm
            · exact hn _ _ h1
            · exact ih _ h2 m hm
    exact hl l ns h

theorem isWhats_notes (h : Heap) (l : Nat) (ns : List Melodia.Note) : IsWhats h l (ns.map .note) (ns.map noteV) := by
  induction ns with
  | nil => simp [IsWhats]
  | cons n ns ih => exact ⟨_, _, rfl, by simp [IsWhat], ih⟩

theorem line_run {h : Heap} {a l : Nat} {t : Melodia.Track} (ht : TrackAt h a l t) (hwf : t.WF) (f : ChordFn)
    (hf : f ∈ chordFunctions) (base : String) (d : Option (Nat × Nat)) :
    match @chordBody W.digits f.intervals (.str base.toList) (d.map fun p => .ints [p.1, p.2]) none with
    | .error e => execS program W (lineStmt f.name base d) (scriptEnv a) h = some (.err e h)
    | .ok ns => ∃ h' l' t', t.add (.many (ns.map .note)) none = .ok t' ∧ t'.WF ∧
        execS program W (lineStmt f.name base d) (scriptEnv a) h = some (.ok (.next (scriptEnv a)) h') ∧
        Becomes h h' a l l' t' := by
  have hm : evalE program W (.attr (.name "track") "add") (scriptEnv a) h = some (.ok (.meth (.ref a) "add") h) :=
    (evalE_attr_of _ _ (evalE_name program W (v := .ref a) (by rfl) rfl h)).trans
      (getAttr_ref_meth _ _ ht.obj rfl (by simp) track_add (by simp [Track.add]))
  have hc := congrFun (line_chord_run W f hf base d a) h
  cases hr : @chordBody W.digits f.intervals (.str base.toList) (d.map fun p => .ints [p.1, p.2]) none with
  | error e =>
    rw [hr] at hc
    exact execS_expr_err _ _ (evalE_call_err _ _ hm (evalArgs_err _ _ (by simp) hc))
  | ok ns =>
    rw [hr] at hc
    have hv := @chord_notes_valid W.digits _ _ _ _ hr
    obtain ⟨h', l', t', g1, g2, g3, g4⟩ := add_run W ht hwf (what := .many (ns.map .note)) (by
        intro n hn
        rw [What.notes, notesList_map] at hn
        exact hv n hn) (v := .tuple (ns.map noteV)) ⟨_, isWhats_notes h l ns, .inl rfl⟩ (pos := none) (by simp) .default rfl
      (args := [.ref a, .tuple (ns.map noteV)]) (kws := []) (by simp [py, Track.add])
    refine ⟨h', l', t', g1, g2, ?_, g4⟩
    refine execS_expr (v := .none) _ _ ((evalE_call _ _ hm (evalArgs_cons _ _ (by simp) hc (evalArgs_nil _ _ _ _))).trans ?_)
    rw [call_ref_ok _ _ _ _ ht.obj track_add (by simp [Track.add])]
    exact g3

/-! ### All lines with chords -/

theorem execB_cons_next {s : Stmt} {ss : List Stmt} {env env1 : Env} {h h1 : Heap}
    (hs : execS program W s env h = some (.ok (.next env1) h1)) : execB program W (s :: ss) env h = execB program W ss env1 h1 := by
  rw [execB, bind_ok hs]

theorem execB_cons_err {s : Stmt} {ss : List Stmt} {env : Env} {h h1 : Heap} {e : PyErr}
    (hs : execS program W s env h = some (.err e h1)) : execB program W (s :: ss) env h = some (.err e h1) := by
  rw [execB, bind_err hs]

theorem lines_run (cs : List ChordLine) (fs : List ChordFn) (hok : List.Forall₂ ChordLine.Ok cs fs) {h : Heap} {a l : Nat}
    {t : Melodia.Track} (ht : TrackAt h a l t) (hwf : t.WF) :
    match @addChords W.digits t (List.zipWith ChordLine.call cs fs) with
    | .error e => ∃ h', execB program W (chordStmts cs) (scriptEnv a) h = some (.err e h') ∧ Frame (Own a l) h h'
    | .ok t' => ∃ h' l', execB program W (chordStmts cs) (scriptEnv a) h = some (.ok (.next (scriptEnv a)) h') ∧ t'.WF ∧
        Becomes h h' a l l' t' := by
  let _ := W.digits
  induction hok generalizing h l t with
  | nil => exact ⟨h, l, by rw [chordStmts, List.map_nil, execB]; rfl, hwf, ht, Frame.refl _ _, .inl rfl⟩
  | @cons c f cs fs hc _ ih =>
    have h1 := line_run W ht hwf f hc.documented c.base c.duration
    have e1 : chordStmts (c :: cs) = lineStmt f.name c.base c.duration :: chordStmts cs := by
      rw [chordStmts, List.map_cons, (plain_codes c.base hc.base).2, hc.name]
      rfl
    have e2 : addChords t (List.zipWith ChordLine.call (c :: cs) (f :: fs)) = (do
        let notes ← chordBody f.intervals (.str c.base.toList) (c.duration.map fun p => .ints [p.1, p.2]) none
        let t' ← t.add (.many (notes.map .note)) none
        addChords t' (List.zipWith ChordLine.call cs fs)) := rfl
    rw [e1, e2]
    cases hr : chordBody f.intervals (.str c.base.toList) (c.duration.map fun p => .ints [(p.1 : Int), (p.2 : Int)]) none with
    | error e =>
      rw [hr] at h1
      exact ⟨h, execB_cons_err W h1, Frame.refl _ _⟩
    | ok ns =>
      rw [hr] at h1
      obtain ⟨h2, l2, t2, g1, g2, g3, g4⟩ := h1
      have h3 := ih g4.track g2
      simp only [bind, Except.bind, g1]
      cases hx : addChords t2 (List.zipWith ChordLine.call cs fs) with
      | error e =>
        rw [hx] at h3
        obtain ⟨h', k1, k2⟩ := h3
        exact ⟨h', (execB_cons_next W g3).trans k1, (own_trans g4.frame k2 g4.addr (.inl rfl)).1⟩
      | ok t' =>
        rw [hx] at h3
        obtain ⟨h', l', k1, k2, k3⟩ := h3
        exact ⟨h', l', (execB_cons_next W g3).trans k1, k2, g4.trans k3⟩

/-! ### The first and the last statement -/

theorem new_stmt_run (n d : Nat) (h : Heap) :
    match Melodia.Track.new (.ints [n, d]) [] with
    | .error e => ∃ h', execS program W (newStmt n d) { mod := "__main__", vars := scriptImports } h = some (.err e h') ∧
        Frame (fun _ => False) h h'
    | .ok t => ∃ h' l, execS program W (newStmt n d) { mod := "__main__", vars := scriptImports } h =
          some (.ok (.next (scriptEnv h.objs.length)) h') ∧ t.WF ∧ TrackAt h' h.objs.length l t ∧ h.objs.length < l ∧
        Frame (fun _ => False) h h' := by
  have hrun := track_new_run W (h := h) (l0 := 0) (s := .ints [n, d]) (.tuple [(n : Int), (d : Int)]) trivial (content := [])
    (by simp) (.inl ⟨rfl, rfl⟩) (args := []) (kws := [("signature", .tuple [.int n, .int d])])
    (by simp [py, Track.dunder_init])
  have hcall : evalE program W (.call (.name "Track") [.tuple [.int n, .int d]] ["signature"])
      { mod := "__main__", vars := scriptImports } = construct program W "Track" [] [("signature", .tuple [.int n, .int d])] := by
    simp [scriptImports, py]
  have hex : execS program W (newStmt n d) { mod := "__main__", vars := scriptImports } = (do
      let v ← construct program W "Track" [] [("signature", .tuple [.int n, .int d])]
      pure (.next { mod := "__main__", vars := scriptImports ++ [("track", v)] })) := by
    unfold newStmt
    simp [py, scriptImports]
  cases hx : Melodia.Track.new (.ints [n, d]) [] with
  | error e =>
    obtain ⟨h', g1, g2⟩ := hrun.2 e hx
    exact ⟨h', by rw [hex, bind_err g1], g2⟩
  | ok t =>
    obtain ⟨h', l, g1, g2, g3, g4, g5⟩ := hrun.1 t hx
    exact ⟨h', l, by rw [hex, bind_ok g1]; rfl, g2, g3, g4, g5⟩

theorem save_run (hN : W.sort.Natural) {h : Heap} {a l : Nat} {t : Melodia.Track} (ht : TrackAt h a l t) (hwf : t.WF)
    (file : String) :
    match @midiDumps W.digits W.sort t (.fin 120) 0 with
    | .error e => ∃ h', execS program W (saveStmt file) (scriptEnv a) h = some (.err e h') ∧ Frame (Own a l) h h'
    | .ok bytes => ∃ h' env, execS program W (saveStmt file) (scriptEnv a) h = some (.ok (.next env) h') ∧
        Dict.get env.vars "f" = some (.ref h.objs.length) ∧ FileAt h' h.objs.length bytes ∧ Frame (Own a l) h h' := by
  let _ := W.digits
  set b := h.objs.length with hb
  set env : Env := { mod := "__main__", vars := scriptImports ++ [("track", .ref a), ("f", .ref b)] } with henv
  have hopen : execS program W (saveStmt file) (scriptEnv a) h =
      execB program W [.expr (.call (.attr (.name "midi") "dump") [.name "track", .name "f"] [])] env (h.push (.file [] 0)) := by
    have : execS program W (saveStmt file) (scriptEnv a) = (do
        let p ← alloc (.file [] 0)
        execB program W [.expr (.call (.attr (.name "midi") "dump") [.name "track", .name "f"] [])]
          { mod := "__main__", vars := scriptImports ++ [("track", .ref a), ("f", .ref p)] }) := by
      have h1 : evalE program W (.call (.name "open") [.str file, .str "wb"] []) (scriptEnv a) = (do
          let p ← alloc (.file [] 0)
          pure (.ref p)) := by
        have hg : globalName program W "__main__" "open" = pure (.builtin .openFile) := by rw [globalName]; rfl
        simp [py, scriptEnv, scriptImports, hg]
        rw [callBuiltin.eq_def]
        rfl
      unfold saveStmt
      rw [execS, h1, bind_assoc]
      rfl
    rw [this]
    rfl
  have ht1 : TrackAt (h.push (.file [] 0)) a l t :=
    ⟨(Frame.push h _).at ht.obj id, (Frame.push h _).at ht.list id⟩
  have hf1 : FileAt (h.push (.file [] 0)) b [] := Heap.push_at _ _
  have hcall : evalE program W (.call (.attr (.name "midi") "dump") [.name "track", .name "f"] []) env =
      callFun program W midi.dump [.ref a, .ref b] [] := by
    have h1 : stdName "melodia.io.midi" "dump" = none := by rfl
    have h2 : program.global 4 "melodia.io.midi" "dump" = some (.func "melodia.io.midi" "dump") := by rfl
    have h3 : program.func "melodia.io.midi" "dump" = some midi.dump := by rfl
    simp [py, henv, scriptImports, read_module, getAttr_module, h1, h2, h3]
  have hrun := midi_dump_run W hN ht1 hwf hf1 (.float (.fin 120)) 0 (args := [.ref a, .ref b]) (kws := []) (by simp [py, midi.dump])
  have hw := module_writer_new (W := W) (.fin 120) (ch := 0) le_rfl (by norm_num)
  rw [hw] at hrun
  obtain ⟨h', g1, g2⟩ := hrun
  have hfr : Frame (Own a l) h h' := (Frame.push h (.file [] 0)).trans g2.frame (by simp) (by
    rintro c hc (hc' | rfl)
    · exact hc'
    · exact absurd hc (lt_irrefl _))
  have hd : midiDumps W.sort t (.fin 120) 0 = match (⟨96, 384, 24, .fin 120, 0⟩ : Writer).dump W.sort t [] with
      | (_, file, .ok ()) => .ok file | (_, _, .error e) => .error e := by
    unfold midiDumps
    rw [hw]
    rfl
  rw [hd]
  rw [← hcall] at g1
  generalize (⟨96, 384, 24, .fin 120, 0⟩ : Writer).dump W.sort t [] = r at *
  obtain ⟨t', bytes, e | u⟩ := r
  · exact ⟨h', by rw [hopen]; exact execB_cons_err W (execS_expr_err _ _ g1), hfr⟩
  · refine ⟨h', env, ?_, by rfl, g2.file, hfr⟩
    rw [hopen, execB_cons_next W (execS_expr _ _ g1), execB]
    rfl

/-- The whole script. -/
theorem script_run (hN : W.sort.Natural) (n d : Nat) (cs : List ChordLine) (fs : List ChordFn)
    (hok : List.Forall₂ ChordLine.Ok cs fs) (file : String) (hf : PlainText file) (h : Heap) :
    match @progressionFile W.digits W.sort (.ints [n, d]) (List.zipWith ChordLine.call cs fs) (.fin 120) 0 with
    | .error e => ∃ h', runScript W (scriptText n d cs file) h = some (.err e h') ∧ Frame (fun _ => False) h h'
    | .ok bytes => ∃ h' env b, runScript W (scriptText n d cs file) h = some (.ok (.next env) h') ∧
        Dict.get env.vars "f" = some (.ref b) ∧ h.objs.length ≤ b ∧ FileAt h' b bytes ∧ Frame (fun _ => False) h h' := by
  let _ := W.digits
  have hmem : ∀ c ∈ cs, ∃ f, ChordLine.Ok c f := by
    intro c hc
    obtain ⟨i, hi, rfl⟩ := List.getElem_of_mem hc
    exact ⟨_, hok.get hi (hok.length_eq ▸ hi)⟩
  have hparse : runScript W (scriptText n d cs file) h =
      execB program W (newStmt n d :: (chordStmts cs ++ [saveStmt file])) { mod := "__main__", vars := scriptImports } h := by
    unfold runScript
    rw [script_parses n d cs file (by
      intro c hc
      obtain ⟨f, hcf⟩ := hmem c hc
      exact ⟨hcf.name ▸ chord_name f hcf.documented, (plain_codes c.base hcf.base).1⟩) (plain_codes file hf).1 (by
      intro c hc
      obtain ⟨f, hcf⟩ := hmem c hc
      exact ⟨f, hcf.documented, hcf.name⟩)]
    simp only [script_names, (plain_codes file hf).2]
  rw [hparse]
  have h1 := new_stmt_run W n d h
  unfold progressionFile progressionTrack
  cases hx : Melodia.Track.new (.ints [(n : Int), (d : Int)]) [] with
  | error e =>
    rw [hx] at h1
    obtain ⟨h', g1, g2⟩ := h1
    exact ⟨h', execB_cons_err W g1, g2⟩
  | ok t =>
    rw [hx] at h1
    obtain ⟨h1, l, g1, g2, g3, g4, g5⟩ := h1
    have hown : ∀ c < h.objs.length, ¬ Own h.objs.length l c := by
      rintro c hc (rfl | rfl) <;> omega
    have h2 := lines_run W cs fs hok g3 g2
    simp only [bind, Except.bind]
    cases hy : addChords t (List.zipWith ChordLine.call cs fs) with
    | error e =>
      rw [hy] at h2
      obtain ⟨h', k1, k2⟩ := h2
      exact ⟨h', by rw [execB_cons_next W g1, execB_append_err k1], g5.trans k2 (fun _ h => h) (fun c hc => hown c hc)⟩
    | ok t' =>
      rw [hy] at h2
      obtain ⟨h2, l', k1, k2, k3⟩ := h2
      have f2 : Frame (fun _ => False) h h2 := g5.trans k3.frame (fun _ h => h) (fun c hc => hown c hc)
      have hl' : h.objs.length ≤ l' := by
        rcases k3.addr with rfl | h3
        · omega
        · exact g5.len.trans h3
      have hown' : ∀ c < h.objs.length, ¬ Own h.objs.length l' c := by
        rintro c hc (rfl | rfl) <;> omega
      have h3 := save_run W hN k3.track k2 file
      dsimp only
      cases hz : midiDumps W.sort t' (.fin 120) 0 with
      | error e =>
        rw [hz] at h3
        obtain ⟨h', m1, m2⟩ := h3
        exact ⟨h', by rw [execB_cons_next W g1, execB_append_next k1]; exact execB_cons_err W m1,
          f2.trans m2 (fun _ h => h) (fun c hc => hown' c hc)⟩
      | ok bytes =>
        rw [hz] at h3
        obtain ⟨h', env, m1, m2, m3, m4⟩ := h3
        refine ⟨h', env, h2.objs.length, ?_, m2, f2.len, m3, f2.trans m4 (fun _ h => h) (fun c hc => hown' c hc)⟩
        rw [execB_cons_next W g1, execB_append_next k1, execB_cons_next W m1, execB]
        rfl

end Melodia.Source
