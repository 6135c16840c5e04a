/-
The chunks of a MIDI file: `MIDIReader._read_chunks` (src/melodia/io/midi.py:388-401), `_parse_header` (403-408) and the chunk loop
of `load` (619-632), run from their text.
-/
import Verif.Lemmas.SourceParseTrack

set_option autoImplicit false

namespace Melodia

open Melodia.Python

namespace Source

variable (W : World)

theorem put_self {h : Heap} {a : Nat} {o : Obj} (ha : h.objs[a]? = some o) : h.put a o = h := by
  obtain ⟨h1, h2⟩ := List.getElem?_eq_some_iff.mp ha
  simp [Heap.put, ← h2]

/-- The value of `_parse_header`. -/
def headerV (x : Nat × Nat × Nat) : Val := .tuple [.int x.1, .int x.2.1, .int x.2.2]

theorem parse_header_run {h : Heap} {d : Nat} {data : Bytes} (hd : h.objs[d]? = some (readerObj ⟨data, 0⟩)) :
    Ends (callFun program W MIDIReader._parse_header [.ref d] [] h) (MidiReader.parseHeader data)
      (fun x v H => v = headerV x ∧ Frame (· = d) h H) (Frame (· = d) h) := by
  have hdl := lt_of_at hd
  rw [← put_self hd]
  unfold MidiReader.parseHeader
  dsimp only
  rw [callFun]
  have fr : ∀ o, Frame (· = d) (h.put d (readerObj ⟨data, 0⟩)) (h.put d o) := by
    intro o
    have := Frame.put (h.put d (readerObj ⟨data, 0⟩)) d o
    rwa [Heap.put_put] at this
  cases h1 : Reader.read ⟨data, 0⟩ 2 with
  | error e =>
    refine ⟨h.put d (readerObj ⟨data, data.length⟩), ?_, fr _⟩
    pyrun [MIDIReader._parse_header, hdl, h1, afterRead]
  | ok x =>
    obtain ⟨x, r1⟩ := x
    change Ends _ (r1.read 2 >>= _) _ _
    cases h2 : Reader.read r1 2 with
    | error e =>
      refine ⟨h.put d (readerObj ⟨r1.data, r1.data.length⟩), ?_, fr _⟩
      pyrun [MIDIReader._parse_header, hdl, h1, h2, afterRead]
    | ok y =>
      obtain ⟨y, r2⟩ := y
      change Ends _ (r2.read 2 >>= _) _ _
      cases h3 : Reader.read r2 2 with
      | error e =>
        refine ⟨h.put d (readerObj ⟨r2.data, r2.data.length⟩), ?_, fr _⟩
        pyrun [MIDIReader._parse_header, hdl, h1, h2, h3, afterRead]
      | ok z =>
        obtain ⟨z, r3⟩ := z
        refine ⟨_, h.put d (readerObj r3), ?_, rfl, fr _⟩
        pyrun [MIDIReader._parse_header, hdl, h1, h2, h3, afterRead, headerV]

/-- The body of the chunk loop. -/
def ldBody : List Stmt :=
  match MIDIReader.load.body with
  | [_, _, _, .for _ _ b, _, _, _, _, _, _] => b
  | _ => []

/-- The code after the chunk loop. -/
def ldRest : List Stmt := MIDIReader.load.body.drop 4

theorem load_text : MIDIReader.load.body =
    .assign (.name "kind") .none ::
    .assign (.name "ticks_per_quarter") .none ::
    .assign (.name "tracks") .none ::
    .for (.tuple [.name "chunk_kind", .name "chunk_data"]) (.call (.attr (.name "self") "_read_chunks") [.name "file"] []) ldBody :: ldRest := rfl

/-- A number or `None`. -/
def optV : Option Nat → Val
  | some n => .int n
  | none => .none

/-- The variables bound by the chunk loop. -/
inductive ChunkVars : List (String × Val) → Prop
  | nil : ChunkVars []
  | chunk (k : Bytes) (b : Nat) : ChunkVars [("chunk_kind", .bytes k), ("chunk_data", .ref b)]
  | header (k : Bytes) (b : Nat) (n q : Int) : ChunkVars [("chunk_kind", .bytes k), ("chunk_data", .ref b), ("n_tracks", .int n), ("division", .int q)]

/-- The variables of `load` in the chunk loop. -/
def ldVars (sv : Val) (f : Nat) (ch : Val) (k q tr : Val) (X : List (String × Val)) : List (String × Val) :=
  [("self", sv), ("file", .ref f), ("channel", ch), ("kind", k), ("ticks_per_quarter", q), ("tracks", tr)] ++ X

/-- The value of `tracks`. -/
def TracksIn (B : Nat) (H : Heap) : Option (Dict Int Melodia.Track) → Val → Prop
  | none, v => v = .none
  | some R, v => ∃ b D, v = .ref b ∧ B ≤ b ∧ H.objs[b]? = some (.dict D false) ∧ List.Forall₂ (TrackRow H B) D R ∧ D.Pairwise (Apart H)

theorem TracksIn.mono {B : Nat} {H H' : Heap} {R : Option (Dict Int Melodia.Track)} {v : Val} (h : TracksIn B H R v) {S : Nat → Prop}
    (hf : Frame S H H') (hS : ∀ b < H.objs.length, S b → b < B) : TracksIn B H' R v := by
  cases R with
  | none => exact h
  | some R =>
    obtain ⟨b, D, h1, h2, h3, h4, h5⟩ := h
    refine ⟨b, D, h1, h2, hf.at h3 (fun hb => by have := hS _ (lt_of_at h3) hb; omega), h4.imp (fun x y hxy => ?_), apart_mono h4 h5 hf hS⟩
    obtain ⟨k1, a, l, k2, k3, k4, k5, k6⟩ := hxy
    exact ⟨k1, a, l, k2, k3, k4, ⟨hf.at k5.obj (fun hb => by have := hS _ (lt_of_at k5.obj) hb; omega),
      hf.at k5.list (fun hb => by have := hS _ (lt_of_at k5.list) hb; omega)⟩, k6⟩

/-- What holds in the chunk loop. -/
structure Loading (h : Heap) (f : Nat) (data : Bytes) (sv ch : Val) (st : MidiReader.LoadState) (rest : Bytes) (vars : List (String × Val)) (H : Heap) : Prop where
  vars : ∃ tr X, vars = ldVars sv f ch (optV st.kind) (optV st.tpq) tr X ∧ ChunkVars X ∧ TracksIn h.objs.length H st.tracks tr
  file : ∃ pos, H.objs[f]? = some (.file data pos) ∧ data.drop pos = rest
  frame : Frame (· = f) h H

/-- The variables in the body of the chunk loop. -/
inductive BodyVars (k : Bytes) (b : Nat) : List (String × Val) → Prop
  | chunk : BodyVars k b [("chunk_kind", .bytes k), ("chunk_data", .ref b)]
  | header (n q : Int) : BodyVars k b [("chunk_kind", .bytes k), ("chunk_data", .ref b), ("n_tracks", .int n), ("division", .int q)]

@[py] theorem midireader_parse_header : program.method "MIDIReader" "_parse_header" = some MIDIReader._parse_header := by rfl
@[py] theorem midireader_parse_track : program.method "MIDIReader" "_parse_track" = some MIDIReader._parse_track := by rfl

def ldHead : Stmt := ldBody.headD .pass
def ldTrack : Stmt := ldBody.tail.headD .pass
theorem ldBody_eq : ldBody = [ldHead, ldTrack] := rfl

/-- The first half of the model. -/
def headStep (st : MidiReader.LoadState) (name body : Bytes) : PyM MidiReader.LoadState :=
  if name = Melodia.Writer.tagMThd then do
    let (kind, nTracks, division) ← MidiReader.parseHeader body
    if kind ≠ 0 then .error .parsingError
    else if nTracks ≠ 1 then .error .parsingError
    else if division > 0x7FFF then .error .parsingError
    else pure { st with kind := some kind, tpq := some division }
  else pure st

def trackStep [UnicodeDigits] (m : MidiReader) (st : MidiReader.LoadState) (name body : Bytes) : PyM MidiReader.LoadState :=
  if name = Melodia.Writer.tagMTrk then
    match st.tpq with
    | none => .error .parsingError
    | some tpq => do
      let tracks ← m.parseTrack body tpq
      pure { st with tracks := some tracks }
  else pure st

theorem handleChunk_eq [UnicodeDigits] (m : MidiReader) (st : MidiReader.LoadState) (name body : Bytes) :
    m.handleChunk st name body = headStep st name body >>= fun st' => trackStep m st' name body := by
  unfold MidiReader.handleChunk headStep trackStep
  by_cases h : name = Melodia.Writer.tagMThd
  · simp only [if_pos h]
    cases MidiReader.parseHeader body with
    | error e => rfl
    | ok x =>
      obtain ⟨x, y, z⟩ := x
      change (if x ≠ 0 then _ else _) = (if x ≠ 0 then _ else _) >>= _
      split_ifs <;> rfl
  · simp only [if_neg h]
    rfl

theorem cmp_bytes (a b : Bytes) : cmpPrim .eq (.bytes a) (.bytes b) = pure (.bool (decide (a = b))) := rfl

theorem head_run {m : MidiReader} {c ch tr : Val} {H : Heap} {f b : Nat} {st : MidiReader.LoadState} {name body : Bytes} {X : List (String × Val)}
    (hX : BodyVars name b X) (hb : H.objs[b]? = some (readerObj ⟨body, 0⟩)) :
    Ends (execS program W ldHead { mod := "melodia.io.midi", vars := ldVars (readerV m c) f ch (optV st.kind) (optV st.tpq) tr X } H)
      (headStep st name body)
      (fun st' fl H' => ∃ env, fl = .next env ∧ st'.tracks = st.tracks ∧ (∃ X', env = { mod := "melodia.io.midi", vars := ldVars (readerV m c) f ch (optV st'.kind) (optV st'.tpq) tr X' } ∧
        BodyVars name b X') ∧ Frame (· = b) H H' ∧ (name ≠ Melodia.Writer.tagMThd → H' = H)) (Frame (· = b) H) := by
  unfold headStep
  by_cases hn : name = Melodia.Writer.tagMThd
  · rw [if_pos hn]
    subst hn
    have hh := parse_header_run W hb
    have hc : ∀ H, call program W (.meth (readerV m c) "_parse_header") [.ref b] [] H = callFun program W MIDIReader._parse_header [.ref b] [] H := by
      intro H; rw [call_reader W m c midireader_parse_header]; rfl
    have ha : getAttr program W (readerV m c) "_parse_header" = pure (.meth (readerV m c) "_parse_header") :=
      readerV_meth W m c (by decide) (by decide) (by decide) midireader_parse_header (by decide)
    cases hp : MidiReader.parseHeader body with
    | error e =>
      rw [hp] at hh
      obtain ⟨H', h1, h2⟩ := hh
      refine ⟨H', ?_, h2⟩
      cases hX <;> pyrun [ldHead, ldBody, MIDIReader.load, ldVars, cmp_bytes, Melodia.Writer.tagMThd, hc, ha, h1]
    | ok x =>
      obtain ⟨k, n, q⟩ := x
      rw [hp] at hh
      obtain ⟨v, H', h1, rfl, h2⟩ := hh
      simp only [headerV] at h1
      change Ends _ (if k ≠ 0 then _ else if n ≠ 1 then _ else if q > 0x7FFF then _ else _) _ _
      have hgo : execS program W ldHead { mod := "melodia.io.midi", vars := ldVars (readerV m c) f ch (optV st.kind) (optV st.tpq) tr X } H =
          (if k ≠ 0 ∨ n ≠ 1 ∨ q > 0x7FFF then some (.err .parsingError H') else
          some (.ok (.next { mod := "melodia.io.midi", vars := ldVars (readerV m c) f ch (.int k) (.int q) tr ([("chunk_kind", .bytes Melodia.Writer.tagMThd), ("chunk_data", .ref b), ("n_tracks", .int n), ("division", .int q)]) }) H')) := by
        rcases st with ⟨kd, tp, ts⟩
        rcases kd with _ | kd <;> rcases tp with _ | tp <;> cases hX <;> by_cases c1 : k = 0 <;> by_cases c2 : n = 1 <;> by_cases c3 : 32767 < q <;>
          pyrun [ldHead, ldBody, MIDIReader.load, ldVars, cmp_bytes, Melodia.Writer.tagMThd, hc, ha, h1, optV, c1, c2, c3]
      rw [hgo]
      by_cases c1 : k ≠ 0
      · rw [if_pos c1, if_pos (.inl c1)]; exact ⟨H', rfl, h2⟩
      · rw [if_neg c1]
        by_cases c2 : n ≠ 1
        · rw [if_pos c2, if_pos (.inr (.inl c2))]; exact ⟨H', rfl, h2⟩
        · rw [if_neg c2]
          by_cases c3 : q > 0x7FFF
          · rw [if_pos c3, if_pos (.inr (.inr c3))]; exact ⟨H', rfl, h2⟩
          · rw [if_neg c3, if_neg (by tauto)]
            exact ⟨_, H', rfl, _, rfl, rfl, ⟨_, rfl, .header n q⟩, h2, fun h => absurd rfl h⟩
  · rw [if_neg hn]
    refine ⟨_, _, ?_, _, rfl, rfl, ⟨X, rfl, hX⟩, Frame.refl _ _, fun _ => rfl⟩
    have : name ≠ [77, 84, 104, 100] := hn
    cases hX <;> pyrun [ldHead, ldBody, MIDIReader.load, ldVars, cmp_bytes, this]
    

theorem track_run {m : MidiReader} {c ch tr : Val} {H : Heap} {f b B : Nat} {st : MidiReader.LoadState} {name body : Bytes} {X : List (String × Val)}
    (hX : BodyVars name b X) (hb : name = Melodia.Writer.tagMTrk → H.objs[b]? = some (readerObj ⟨body, 0⟩)) (hB : B ≤ H.objs.length)
    (ht : TracksIn B H st.tracks tr) (hset : Settles (@trackStep W.digits m st name body)) (htr : ∀ x, tr ≠ .cell x) :
    Ends (execS program W ldTrack { mod := "melodia.io.midi", vars := ldVars (readerV m c) f ch (optV st.kind) (optV st.tpq) tr X } H)
      (@trackStep W.digits m st name body)
      (fun st' fl H' => ∃ env, fl = .next env ∧ (∃ tr', env = { mod := "melodia.io.midi", vars := ldVars (readerV m c) f ch (optV st'.kind) (optV st'.tpq) tr' X } ∧
        TracksIn B H' st'.tracks tr') ∧ Frame (· = b) H H') (Frame (· = b) H) := by
  unfold trackStep at hset ⊢
  by_cases hn : name = Melodia.Writer.tagMTrk
  · rw [if_pos hn] at hset ⊢
    replace hb := hb hn
    subst hn
    cases hq : st.tpq with
    | none =>
      refine ⟨H, ?_, Frame.refl _ _⟩
      cases hX <;> pyrun [ldTrack, ldBody, MIDIReader.load, ldVars, cmp_bytes, Melodia.Writer.tagMTrk, hq, optV]
    | some q =>
      rw [hq] at hset
      have hset' : Settles (@MidiReader.parseTrack W.digits m body q) := hset.left
      have hh := parse_track_run W (c := c) hb hset'
      have hc : ∀ H, call program W (.meth (readerV m c) "_parse_track") [.ref b, .int q] [] H =
          callFun program W MIDIReader._parse_track [readerV m c, .ref b, .int q] [] H := by
        intro H; rw [call_reader W m c midireader_parse_track]; rfl
      have ha : getAttr program W (readerV m c) "_parse_track" = pure (.meth (readerV m c) "_parse_track") :=
        readerV_meth W m c (by decide) (by decide) (by decide) midireader_parse_track (by decide)
      change Ends _ (@MidiReader.parseTrack W.digits m body q >>= _) _ _
      cases hp : @MidiReader.parseTrack W.digits m body q with
      | error e =>
        rw [hp] at hh
        obtain ⟨H', h1, h2⟩ := hh
        refine ⟨H', ?_, h2⟩
        cases hX <;> pyrun [ldTrack, ldBody, MIDIReader.load, ldVars, cmp_bytes, Melodia.Writer.tagMTrk, hc, ha, h1, optV, hq]
      | ok R =>
        rw [hp] at hh
        obtain ⟨v, H', h1, ⟨b', D, rfl, h2, h3, h4, h6⟩, h5⟩ := hh
        refine ⟨_, H', ?_, _, rfl, ⟨.ref b', rfl, b', D, rfl, by omega, h3, h4.imp ?_, h6⟩, h5⟩
        · have hts : ∀ e : Env, ∀ v, Dict.get e.vars "tracks" = some tr → setVar e "tracks" v = pure (e.set "tracks" v) := by
            intro e v he
            exact setVar_plain _ _ _ (by intro x; rw [he]; intro h; exact htr x (Option.some.inj h))
          cases hX <;> pyrun [ldTrack, ldBody, MIDIReader.load, ldVars, cmp_bytes, Melodia.Writer.tagMTrk, hc, ha, h1, optV, hq, hts]
        · rintro x y ⟨k1, a, l, k2, k3, k4, k5⟩
          exact ⟨k1, a, l, k2, by omega, by omega, k5⟩
  · rw [if_neg hn]
    refine ⟨_, H, ?_, _, rfl, ⟨tr, rfl, ht⟩, Frame.refl _ _⟩
    have : name ≠ [77, 84, 114, 107] := hn
    cases hX <;> pyrun [ldTrack, ldBody, MIDIReader.load, ldVars, cmp_bytes, this]

theorem TracksIn.not_cell {B : Nat} {H : Heap} {R : Option (Dict Int Melodia.Track)} {v : Val} (h : TracksIn B H R v) (x : Nat) : v ≠ .cell x := by
  cases R with
  | none => rw [show v = .none from h]; simp
  | some R => obtain ⟨b, D, rfl, -⟩ := h; simp

/-- The body of the chunk loop does what the model says. -/
theorem chunk_run {m : MidiReader} {c ch tr : Val} {H : Heap} {f b B : Nat} {st : MidiReader.LoadState} {name body : Bytes} {X : List (String × Val)}
    (hX : BodyVars name b X) (hb : H.objs[b]? = some (readerObj ⟨body, 0⟩)) (hB : B ≤ H.objs.length)
    (ht : ∀ H', Frame (· = b) H H' → TracksIn B H' st.tracks tr) (hset : Settles (@MidiReader.handleChunk W.digits m st name body)) :
    Ends (execB program W ldBody { mod := "melodia.io.midi", vars := ldVars (readerV m c) f ch (optV st.kind) (optV st.tpq) tr X } H)
      (@MidiReader.handleChunk W.digits m st name body)
      (fun st' fl H' => ∃ env, fl = .next env ∧ (∃ tr' X', env = { mod := "melodia.io.midi", vars := ldVars (readerV m c) f ch (optV st'.kind) (optV st'.tpq) tr' X' } ∧
        BodyVars name b X' ∧ TracksIn B H' st'.tracks tr') ∧ Frame (· = b) H H') (Frame (· = b) H) := by
  rw [ldBody_eq]
  rw [@handleChunk_eq W.digits] at hset ⊢
  refine Ends.block (I := fun st' env H' => st'.tracks = st.tracks ∧ (∃ X', env = { mod := "melodia.io.midi", vars := ldVars (readerV m c) f ch (optV st'.kind) (optV st'.tpq) tr X' } ∧
        BodyVars name b X') ∧ Frame (· = b) H H' ∧ (name ≠ Melodia.Writer.tagMThd → H' = H)) (head_run W hX hb) (fun _ h => h) ?_
  rintro st1 env H1 h1 ⟨e1, ⟨X1, rfl, hX1⟩, f1, e2⟩
  have ht1 := ht _ f1
  rw [← e1] at ht1
  have hb1 : name = Melodia.Writer.tagMTrk → H1.objs[b]? = some (readerObj ⟨body, 0⟩) := by
    rintro rfl
    rw [e2 (by decide)]
    exact hb
  have := track_run W (c := c) (ch := ch) (f := f) hX1 hb1 (hB.trans f1.len) ht1 (hset.right h1) ht1.not_cell
  cases hs : @trackStep W.digits m st1 name body with
  | error e =>
    rw [hs] at this
    obtain ⟨H2, k1, k2⟩ := this
    exact ⟨H2, execB_err _ _ k1, f1.trans k2 (fun _ h => h) (fun _ _ h => h)⟩
  | ok st2 =>
    rw [hs] at this
    obtain ⟨fl, H2, k1, env, rfl, ⟨tr', rfl, k2⟩, k3⟩ := this
    exact ⟨_, H2, (execB_next _ _ k1).trans (execB_nil _ _ _ _), _, rfl, ⟨tr', X1, rfl, hX1, k2⟩, f1.trans k3 (fun _ h => h) (fun _ _ h => h)⟩

/-! ### Reading the chunks -/

/-- The body of the loop of `_read_chunks`. -/
def rcLoop : List Stmt :=
  match MIDIReader._read_chunks.body with
  | [.while _ b] => b
  | _ => []
theorem read_chunks_text : MIDIReader._read_chunks.body = [.while (.bool true) rcLoop] := rfl

/-- The variables bound in that loop. -/
inductive RcVars : List (String × Val) → Prop
  | nil : RcVars []
  | round (a b d : Bytes) (n : Int) : RcVars [("chunk_header", .bytes a), ("chunk_name", .bytes b), ("chunk_size", .int n), ("chunk_body", .bytes d)]

/-- The loop of `load` as the consumer. -/
def ldConsumer (vars : List (String × Val)) : Consumer := ⟨"melodia.io.midi", vars, .tuple [.name "chunk_kind", .name "chunk_data"], ldBody⟩

/-- The frame of `_read_chunks`. -/
def rcEnv (f : Nat) (X : List (String × Val)) (vars : List (String × Val)) : Env :=
  { mod := "melodia.io.midi", vars := ("file", .ref f) :: X, consumer := some (ldConsumer vars) }

/-- The part of the loop before the `yield`. -/
def rcRead : List Stmt := rcLoop.take 7
def rcYield : Stmt := .yield (.tuple [.name "chunk_name", .call (.name "_Reader") [.name "chunk_body"] []])
theorem rcLoop_eq : rcLoop = rcRead ++ [rcYield] := rfl

/-- Reading a chunk. -/
theorem read_chunk_run {H : Heap} {f pos : Nat} {data : Bytes} (hf : H.objs[f]? = some (.file data pos)) {X vars : List (String × Val)} (hX : RcVars X) :
    Ends (execB program W rcRead (rcEnv f X vars) H) (MidiReader.readChunk (data.drop pos))
      (fun o fl H' => match o with
        | none => (∃ X', fl = .brk (rcEnv f X' vars)) ∧ Frame (· = f) H H' ∧ ∃ pos', H'.objs[f]? = some (.file data pos')
        | some (name, body, rest) => (∃ a n, fl = .next (rcEnv f [("chunk_header", .bytes a), ("chunk_name", .bytes name), ("chunk_size", .int n), ("chunk_body", .bytes body)] vars)) ∧
          ∃ pos', H' = H.put f (.file data pos') ∧ data.drop pos' = rest)
      (Frame (· = f) H) := by
  have hfl := lt_of_at hf
  unfold MidiReader.readChunk
  dsimp only
  by_cases c1 : ((data.drop pos).take 8).length = 0
  · rw [if_pos c1]
    refine ⟨.brk (rcEnv f (Dict.set (("file", .ref f) :: X) "chunk_header" (.bytes [])).tail vars), H.put f (.file data pos), ?_, ⟨_, rfl⟩, Frame.put _ _ _, pos, put_get hfl⟩
    have c1' : (data.drop pos).take 8 = [] := List.length_eq_zero_iff.mp c1
    cases hX <;> pyrun [rcRead, rcLoop, MIDIReader._read_chunks, rcEnv, hf, hasPrimAttr, primMeth, c1', ldConsumer]
  · rw [if_neg c1]
    generalize hh : (data.drop pos).take 8 = hd8 at c1 ⊢
    by_cases c2 : hd8.length < 8
    · rw [if_pos c2]
      have c2' : (hd8.length : Int) < 8 := by omega
      have c1' : ¬ (hd8.length : Int) = 0 := by omega
      refine ⟨H.put f (.file data (pos + hd8.length)), ?_, Frame.put _ _ _⟩
      cases hX <;> pyrun [rcRead, rcLoop, MIDIReader._read_chunks, rcEnv, hf, hasPrimAttr, primMeth, ldConsumer, hh, c1, c1', c2, c2']
    · rw [if_neg c2]
      have h8 : hd8.length = 8 := by
        have := List.length_take_le 8 (data.drop pos)
        rw [hh] at this
        omega
      have c2' : ¬ (hd8.length : Int) < 8 := by omega
      have c1' : ¬ (hd8.length : Int) = 0 := by omega
      have s1 : sliceBound 8 0 .none = some 0 := rfl
      have s2 : sliceBound 8 8 (.int 4) = some 4 := rfl
      have s3 : sliceBound 8 0 (.int 5) = some 5 := rfl
      have s4 : sliceBound 8 8 .none = some 8 := rfl
      have q1 : seqSlice hd8 0 4 = hd8.take 4 := by simp [seqSlice]
      have q2 : seqSlice hd8 5 8 = hd8.drop 5 := by
        simp only [seqSlice]
        rw [List.take_of_length_le (by omega)]
      rw [List.drop_drop]
      generalize hs : fromBytesBig (hd8.drop 5) = size
      generalize hb : (data.drop (pos + 8)).take size = body
      by_cases c3 : body.length < size
      · rw [if_pos c3]
        have c3' : (body.length : Int) < size := by omega
        refine ⟨(H.put f (.file data (pos + 8))).put f (.file data (pos + 8 + body.length)), ?_, ?_⟩
        · cases hX <;> pyrun [rcRead, rcLoop, MIDIReader._read_chunks, rcEnv, hf, hasPrimAttr, primMeth, ldConsumer, hh, c1, c1', c2, c2', c3, c3', h8, s1, s2, s3, s4, q1, q2, hs, hb, hfl]
        · rw [Heap.put_put]; exact Frame.put _ _ _
      · rw [if_neg c3]
        have c3' : ¬ (body.length : Int) < size := by omega
        refine ⟨.next (rcEnv f [("chunk_header", .bytes hd8), ("chunk_name", .bytes (hd8.take 4)), ("chunk_size", .int size), ("chunk_body", .bytes body)] vars),
          H.put f (.file data (pos + 8 + body.length)), ?_, ⟨_, _, rfl⟩, _, rfl, ?_⟩
        · cases hX <;> pyrun [rcRead, rcLoop, MIDIReader._read_chunks, rcEnv, hf, hasPrimAttr, primMeth, ldConsumer, hh, c1, c1', c2, c2', c3, c3', h8, s1, s2, s3, s4, q1, q2, hs, hb, hfl]
        · have : body.length = size := by
            have := List.length_take_le size (data.drop (pos + 8))
            rw [hb] at this
            omega
          rw [this, List.drop_drop]


theorem ldVars_bind {sv ch k q tr : Val} {f b : Nat} {X : List (String × Val)} (hX : ChunkVars X) (name : Bytes) (H : Heap) :
    ∃ X', BodyVars name b X' ∧ bindPat (.tuple [.name "chunk_kind", .name "chunk_data"]) (.tuple [.bytes name, .ref b]) (ldVars sv f ch k q tr X) H =
      some (.ok (ldVars sv f ch k q tr X') H) := by
  cases hX with
  | nil => exact ⟨_, .chunk, rfl⟩
  | chunk k b => exact ⟨_, .chunk, rfl⟩
  | header k b n q => exact ⟨_, .header n q, rfl⟩

theorem BodyVars.chunkVars {name : Bytes} {b : Nat} {X : List (String × Val)} (h : BodyVars name b X) : ChunkVars X := by
  cases h with
  | chunk => exact .chunk _ _
  | header n q => exact .header _ _ _ _

/-- `_Reader(chunk_body)`. -/
theorem new_reader (body : Bytes) (H : Heap) :
    call program W (.cls "_Reader") [.bytes body] [] H = some (.ok (.ref H.objs.length) (H.push (readerObj ⟨body, 0⟩))) := by
  rw [call.eq_def]
  pyrun [construct.eq_def, callFun.eq_def, _Reader.dunder_init, readerObj]
  simp [Heap.push, Heap.put]

/-- `yield`: the body of the chunk loop is run. -/
theorem yield_run {m : MidiReader} {c ch : Val} {h H : Heap} {f : Nat} {data rest : Bytes} {st : MidiReader.LoadState} {vars : List (String × Val)}
    (hL : Loading h f data (readerV m c) ch st rest vars H) (hfl : f < h.objs.length) {a name body : Bytes} {n : Int}
    (hset : Settles (@MidiReader.handleChunk W.digits m st name body)) :
    Ends (execS program W rcYield (rcEnv f [("chunk_header", .bytes a), ("chunk_name", .bytes name), ("chunk_size", .int n), ("chunk_body", .bytes body)] vars) H)
      (@MidiReader.handleChunk W.digits m st name body)
      (fun st' fl H' => ∃ vars', fl = .next (rcEnv f [("chunk_header", .bytes a), ("chunk_name", .bytes name), ("chunk_size", .int n), ("chunk_body", .bytes body)] vars') ∧
        Loading h f data (readerV m c) ch st' rest vars' H')
      (Frame (· = f) h) := by
  obtain ⟨⟨tr, X, rfl, hX, ht⟩, ⟨pos, hf, hr⟩, hfr⟩ := hL
  obtain ⟨X', hX', hb⟩ := ldVars_bind (sv := readerV m c) (ch := ch) (k := optV st.kind) (q := optV st.tpq) (tr := tr) (f := f) (b := H.objs.length) hX name
    (H.push (readerObj ⟨body, 0⟩))
  have fP := Frame.push H (readerObj ⟨body, 0⟩)
  have hev : evalE program W (.tuple [.name "chunk_name", .call (.name "_Reader") [.name "chunk_body"] []])
      (rcEnv f [("chunk_header", .bytes a), ("chunk_name", .bytes name), ("chunk_size", .int n), ("chunk_body", .bytes body)] (ldVars (readerV m c) f ch (optV st.kind) (optV st.tpq) tr X)) H =
      some (.ok (.tuple [.bytes name, .ref H.objs.length]) (H.push (readerObj ⟨body, 0⟩))) := by
    pyrun [rcEnv, ldConsumer, new_reader]
  have hrun := chunk_run W (c := c) (ch := ch) (f := f) (B := h.objs.length) hX' (Heap.push_at H (readerObj ⟨body, 0⟩)) (hfr.len.trans fP.len)
    (tr := tr) (st := st) (by
      intro H' hH'
      have : Frame (· = H.objs.length) H H' := fP.trans hH' (by simp) (fun _ _ h => h)
      exact ht.mono this (by rintro b hb rfl; omega)) hset
  have hfr' : ∀ {H'}, Frame (· = H.objs.length) (H.push (readerObj ⟨body, 0⟩)) H' → Frame (· = f) h H' := by
    intro H' hH'
    have : Frame (· = H.objs.length) H H' := fP.trans hH' (by simp) (fun _ _ h => h)
    exact hfr.trans this (fun _ h => h) (by have := hfr.len; rintro b hb rfl; omega)
  have hstep : execS program W rcYield (rcEnv f [("chunk_header", .bytes a), ("chunk_name", .bytes name), ("chunk_size", .int n), ("chunk_body", .bytes body)] (ldVars (readerV m c) f ch (optV st.kind) (optV st.tpq) tr X)) H =
      andThen (execB program W ldBody { mod := "melodia.io.midi", vars := ldVars (readerV m c) f ch (optV st.kind) (optV st.tpq) tr X' } (H.push (readerObj ⟨body, 0⟩)))
        (fun fl => match fl with
          | .next e => pure (.next (rcEnv f [("chunk_header", .bytes a), ("chunk_name", .bytes name), ("chunk_size", .int n), ("chunk_body", .bytes body)] e.vars))
          | .cont e => pure (.next (rcEnv f [("chunk_header", .bytes a), ("chunk_name", .bytes name), ("chunk_size", .int n), ("chunk_body", .bytes body)] e.vars))
          | _ => stuck) := by
    rw [rcYield, execS, bind_ok hev]
    simp only [rcEnv, ldConsumer]
    rw [bind_ok hb]
    rfl
  rw [hstep]
  cases hs : @MidiReader.handleChunk W.digits m st name body with
  | error e =>
    rw [hs] at hrun
    obtain ⟨H', k1, k2⟩ := hrun
    rw [k1]
    exact ⟨H', rfl, hfr' k2⟩
  | ok st' =>
    rw [hs] at hrun
    obtain ⟨fl, H', k1, env, rfl, ⟨tr', X2, rfl, k2, k3⟩, k4⟩ := hrun
    rw [k1]
    refine ⟨_, H', rfl, _, rfl, ⟨tr', X2, rfl, k2.chunkVars, k3⟩, ⟨pos, ?_, hr⟩, hfr' k4⟩
    have : Frame (· = H.objs.length) H H' := fP.trans k4 (by simp) (fun _ _ h => h)
    exact this.at hf (by have := hfr.len; omega)

theorem chunkLoop_succ [UnicodeDigits] (m : MidiReader) (fuel : Nat) (st : MidiReader.LoadState) (file : Bytes) :
    m.chunkLoop (fuel + 1) st file = MidiReader.readChunk file >>= fun o => match o with
      | none => pure st
      | some (name, body, rest) => m.handleChunk st name body >>= fun st' => m.chunkLoop fuel st' rest := rfl

theorem execB_append_brk {s t : List Stmt} {env env1 : Env} {h h1 : Heap}
    (hs : execB program W s env h = some (.ok (.brk env1) h1)) : execB program W (s ++ t) env h = some (.ok (.brk env1) h1) := by
  rw [execB_join, bind_ok hs]; rfl

/-- The loop of `_read_chunks` driving the chunk loop of `load`. -/
theorem chunks_run {m : MidiReader} {c ch : Val} {h : Heap} {f : Nat} {data : Bytes} (hfl : f < h.objs.length) :
    ∀ (fuel : Nat) (st : MidiReader.LoadState) (rest : Bytes) (vars X : List (String × Val)) (H : Heap), RcVars X →
    Loading h f data (readerV m c) ch st rest vars H → Settles (@MidiReader.chunkLoop W.digits m fuel st rest) →
    Ends (whileLoop program W (.bool true) rcLoop (rcEnv f X vars) H) (@MidiReader.chunkLoop W.digits m fuel st rest)
      (fun st' fl H' => ∃ X' vars', fl = .next (rcEnv f X' vars') ∧ ∃ rest', Loading h f data (readerV m c) ch st' rest' vars' H')
      (Frame (· = f) h) := by
  intro fuel
  induction fuel with
  | zero => intro st rest vars X H _ _ hs; exact absurd rfl hs.2
  | succ fuel ih =>
    intro st rest vars X H hX hL hs
    have hL' := hL
    obtain ⟨-, ⟨pos, hf, rfl⟩, hfr⟩ := hL'
    rw [@chunkLoop_succ W.digits] at hs ⊢
    have hr := read_chunk_run W hf (vars := vars) hX
    have hw : whileLoop program W (.bool true) rcLoop (rcEnv f X vars) H = andThen (execB program W rcLoop (rcEnv f X vars) H) (fun fl => match fl with
        | .next env => whileLoop program W (.bool true) rcLoop env
        | .cont env => whileLoop program W (.bool true) rcLoop env
        | .brk env => pure (.next env)
        | .ret v env => pure (.ret v env)) := by
      rw [whileLoop]
      pyrun []
      rfl
    rw [hw, rcLoop_eq]
    cases hc : MidiReader.readChunk (data.drop pos) with
    | error e =>
      rw [hc] at hr
      obtain ⟨H', k1, k2⟩ := hr
      rw [execB_append_err k1]
      exact ⟨H', rfl, hfr.trans k2 (fun _ h => h) (fun _ _ h => h)⟩
    | ok o =>
      rw [hc] at hr hs
      cases o with
      | none =>
        obtain ⟨fl, H', k1, ⟨X', rfl⟩, k2, pos', k3⟩ := hr
        rw [execB_append_brk W k1]
        refine ⟨_, H', rfl, X', vars, rfl, _, hL.vars.imp fun tr h => h.imp fun X h => ⟨h.1, h.2.1, h.2.2.mono k2 (by rintro b - rfl; exact hfl)⟩, ⟨pos', k3, rfl⟩,
          hfr.trans k2 (fun _ h => h) (fun _ _ h => h)⟩
      | some x =>
        obtain ⟨name, body, rest⟩ := x
        obtain ⟨fl, H', k1, ⟨a, n, rfl⟩, pos', rfl, k2⟩ := hr
        rw [execB_append_next k1]
        have fp := Frame.put H f (.file data pos')
        have hL1 : Loading h f data (readerV m c) ch st rest vars (H.put f (.file data pos')) :=
          ⟨hL.vars.imp fun tr h => h.imp fun X h => ⟨h.1, h.2.1, h.2.2.mono fp (by rintro b - rfl; exact hfl)⟩, ⟨pos', put_get (lt_of_at hf), k2⟩,
            hfr.trans fp (fun _ h => h) (fun _ _ h => h)⟩
        change Settles (@MidiReader.handleChunk W.digits m st name body >>= _) at hs
        change Ends _ (@MidiReader.handleChunk W.digits m st name body >>= _) _ _
        have hy := yield_run W hL1 hfl (a := a) (n := n) hs.left
        cases hh : @MidiReader.handleChunk W.digits m st name body with
        | error e =>
          rw [hh] at hy
          obtain ⟨H2, y1, y2⟩ := hy
          rw [execB_err _ _ y1]
          exact ⟨H2, rfl, y2⟩
        | ok st' =>
          rw [hh] at hy hs
          obtain ⟨fl, H2, y1, vars', rfl, y2⟩ := hy
          rw [execB_next _ _ y1, execB_nil]
          exact ih st' rest vars' _ H2 (.round _ _ _ _) y2 hs

end Source
end Melodia
