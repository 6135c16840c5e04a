/-
The local function `read_event` of `MIDIReader._parse_track` (src/melodia/io/midi.py:459-527), executed from its text
(Verif/Source/MidiModule.lean).
-/
import Verif.Lemmas.SourceTable

set_option autoImplicit false

namespace Melodia

open Melodia.Python

namespace Source

variable (W : World)

/-! ### Names -/

@[py] theorem midi_name_EventUnsupported : globalName program W "melodia.io.midi" "_EventUnsupported" = pure (.cls "_EventUnsupported") := by
  rw [globalName]; rfl
theorem class_EventUnsupported : program.classOf "_EventUnsupported" = some _EventUnsupported.classDef := by rfl
theorem init_EventUnsupported : program.method "_EventUnsupported" "__init__" = .none := by rfl
@[py] theorem new_EventUnsupported :
    construct program W "_EventUnsupported" [] [] = pure (.obj "_EventUnsupported" []) := by
  simp [construct, class_EventUnsupported, init_EventUnsupported, _EventUnsupported.classDef, py]
@[py] theorem midi_name_EventNoteOFF : globalName program W "melodia.io.midi" "_EventNoteOFF" = pure (.cls "_EventNoteOFF") := by
  rw [globalName]; rfl
theorem class_EventNoteOFF : program.classOf "_EventNoteOFF" = some _EventNoteOFF.classDef := by rfl
theorem init_EventNoteOFF : program.method "_EventNoteOFF" "__init__" = .none := by rfl
@[py] theorem new_EventNoteOFF (vchannel vpitch vvelocity : Val) :
    construct program W "_EventNoteOFF" [] [("channel", vchannel), ("pitch", vpitch), ("velocity", vvelocity)] = pure (.obj "_EventNoteOFF" [("channel", vchannel), ("pitch", vpitch), ("velocity", vvelocity)]) := by
  simp [construct, class_EventNoteOFF, init_EventNoteOFF, _EventNoteOFF.classDef, py]
@[py] theorem midi_name_EventNoteON : globalName program W "melodia.io.midi" "_EventNoteON" = pure (.cls "_EventNoteON") := by
  rw [globalName]; rfl
theorem class_EventNoteON : program.classOf "_EventNoteON" = some _EventNoteON.classDef := by rfl
theorem init_EventNoteON : program.method "_EventNoteON" "__init__" = .none := by rfl
@[py] theorem new_EventNoteON (vchannel vpitch vvelocity : Val) :
    construct program W "_EventNoteON" [] [("channel", vchannel), ("pitch", vpitch), ("velocity", vvelocity)] = pure (.obj "_EventNoteON" [("channel", vchannel), ("pitch", vpitch), ("velocity", vvelocity)]) := by
  simp [construct, class_EventNoteON, init_EventNoteON, _EventNoteON.classDef, py]
@[py] theorem midi_name_EventEndOfTrack : globalName program W "melodia.io.midi" "_EventEndOfTrack" = pure (.cls "_EventEndOfTrack") := by
  rw [globalName]; rfl
theorem class_EventEndOfTrack : program.classOf "_EventEndOfTrack" = some _EventEndOfTrack.classDef := by rfl
theorem init_EventEndOfTrack : program.method "_EventEndOfTrack" "__init__" = .none := by rfl
@[py] theorem new_EventEndOfTrack :
    construct program W "_EventEndOfTrack" [] [] = pure (.obj "_EventEndOfTrack" []) := by
  simp [construct, class_EventEndOfTrack, init_EventEndOfTrack, _EventEndOfTrack.classDef, py]
@[py] theorem midi_name_EventTimeSignature : globalName program W "melodia.io.midi" "_EventTimeSignature" = pure (.cls "_EventTimeSignature") := by
  rw [globalName]; rfl
theorem class_EventTimeSignature : program.classOf "_EventTimeSignature" = some _EventTimeSignature.classDef := by rfl
theorem init_EventTimeSignature : program.method "_EventTimeSignature" "__init__" = .none := by rfl
@[py] theorem new_EventTimeSignature (vnn vdd vcc vbb : Val) :
    construct program W "_EventTimeSignature" [] [("nn", vnn), ("dd", vdd), ("cc", vcc), ("bb", vbb)] = pure (.obj "_EventTimeSignature" [("nn", vnn), ("dd", vdd), ("cc", vcc), ("bb", vbb)]) := by
  simp [construct, class_EventTimeSignature, init_EventTimeSignature, _EventTimeSignature.classDef, py]
@[py] theorem midi_name_EventGlobalChannel : globalName program W "melodia.io.midi" "_EventGlobalChannel" = pure (.cls "_EventGlobalChannel") := by
  rw [globalName]; rfl
theorem class_EventGlobalChannel : program.classOf "_EventGlobalChannel" = some _EventGlobalChannel.classDef := by rfl
theorem init_EventGlobalChannel : program.method "_EventGlobalChannel" "__init__" = .none := by rfl
@[py] theorem new_EventGlobalChannel (vchannel : Val) :
    construct program W "_EventGlobalChannel" [] [("channel", vchannel)] = pure (.obj "_EventGlobalChannel" [("channel", vchannel)]) := by
  simp [construct, class_EventGlobalChannel, init_EventGlobalChannel, _EventGlobalChannel.classDef, py]
@[py] theorem is_int_none (i : Int) : compareOp program W .is (.int i) .none = pure (.bool false) := by
  rw [compareOp.eq_def]
@[py] theorem is_none_none : compareOp program W .is .none .none = pure (.bool true) := by
  rw [compareOp]

@[py] theorem primNeg_int (i : Int) : primNeg (.int i) = pure (.int (-i)) := rfl

/-! ### The local function `read_event` -/

/-- The branch of `read_event` for meta events (src/melodia/io/midi.py:468-493). -/
def reMeta : List Stmt := [
        .assign (.name "previous_status") (.name "status"),
        .assign (.name "kind") (.call (.attr (.name "MIDIReader") "_read_8") [.name "data"] []),
        .assign (.name "length") (.call (.attr (.name "MIDIReader") "_read_var_len") [.name "data"] []),
        .ite (.cmp (.name "kind") [.eq] [.int 47]) [
          .ite (.cmp (.name "length") [.ne] [.int 0]) [
            .raise (.call (.name "MIDIParsingError") [.fstr [.str "Invalid MIDI file: end of track event has length ", .field (.name "length") "", .str " != 0"]] [])] [],
          .ret (.call (.name "_EventEndOfTrack") [] [])] [
          .ite (.cmp (.name "kind") [.eq] [.int 32]) [
            .ite (.cmp (.name "length") [.ne] [.int 1]) [
              .raise (.call (.name "MIDIParsingError") [.fstr [.str "Invalid MIDI file: meta channel event has length ", .field (.name "length") "", .str " != 3"]] [])] [],
            .assign (.name "channel") (.call (.attr (.name "MIDIReader") "_read_8") [.name "data"] []),
            .ret (.call (.name "_EventGlobalChannel") [.name "channel"] ["channel"])] [
            .ite (.cmp (.name "kind") [.eq] [.int 88]) [
              .ite (.cmp (.name "length") [.ne] [.int 4]) [
                .raise (.call (.name "MIDIParsingError") [.fstr [.str "Invalid MIDI file: time signature event has length ", .field (.name "length") "", .str " != 3"]] [])] [],
              .assign (.name "nn") (.call (.attr (.name "MIDIReader") "_read_8") [.name "data"] []),
              .assign (.name "dd") (.call (.attr (.name "MIDIReader") "_read_8") [.name "data"] []),
              .assign (.name "cc") (.call (.attr (.name "MIDIReader") "_read_8") [.name "data"] []),
              .assign (.name "bb") (.call (.attr (.name "MIDIReader") "_read_8") [.name "data"] []),
              .ret (.call (.name "_EventTimeSignature") [.name "nn", .name "dd", .name "cc", .name "bb"] ["nn", "dd", "cc", "bb"])] [
              .expr (.call (.attr (.name "data") "read") [.name "length"] []),
              .ret (.call (.name "_EventUnsupported") [] [])]]]]

/-- The branch for the other status bytes (src/melodia/io/midi.py:495-523). -/
def reStatus : List Stmt := [
          .assign (.name "previous_status") (.name "status"),
          .assign (.name "kind") (.bin .shr (.name "status") (.int 4)),
          .assign (.name "channel") (.bin .band (.name "status") (.int 15)),
          .ite (.cmp (.name "kind") [.eq] [.int 8]) [
            .assign (.name "pitch") (.call (.attr (.name "MIDIReader") "_read_8") [.name "data"] []),
            .assign (.name "velocity") (.call (.attr (.name "MIDIReader") "_read_8") [.name "data"] []),
            .ret (.call (.name "_EventNoteOFF") [.name "channel", .name "pitch", .name "velocity"] ["channel", "pitch", "velocity"])] [
            .ite (.cmp (.name "kind") [.eq] [.int 9]) [
              .assign (.name "pitch") (.call (.attr (.name "MIDIReader") "_read_8") [.name "data"] []),
              .assign (.name "velocity") (.call (.attr (.name "MIDIReader") "_read_8") [.name "data"] []),
              .ite (.cmp (.name "velocity") [.eq] [.int 0]) [
                .ret (.call (.name "_EventNoteOFF") [.name "channel", .name "pitch", .name "velocity"] ["channel", "pitch", "velocity"])] [],
              .ret (.call (.name "_EventNoteON") [.name "channel", .name "pitch", .name "velocity"] ["channel", "pitch", "velocity"])] [
              .ite (.cmp (.name "status") [.eq] [.int 240]) [
                .assign (.name "value") (.int 0),
                .while (.cmp (.name "value") [.ne] [.int 247]) [
                  .assign (.name "value") (.call (.attr (.name "data") "read") [.int 1] [])],
                .ret (.call (.name "_EventUnsupported") [] [])] [
                .assign (.name "length") (.index (.name "_event_lengths") (.name "status")),
                .ite (.cmp (.name "length") [.eq] [.un .neg (.int 1)]) [
                  .raise (.call (.name "MIDIParsingError") [.fstr [.str "Unknown status ", .field (.name "status") ""]] [])] [
                  .expr (.call (.attr (.name "data") "read") [.name "length"] [])],
                .ret (.call (.name "_EventUnsupported") [] [])]]]]

/-- The branch for running status (src/melodia/io/midi.py:525-527). -/
def reRunning : List Stmt := [
          .expr (.call (.attr (.name "data") "shift") [.un .neg (.int 1)] []),
          .ret (.call (.name "read_event") [.name "previous_status"] ["status"])]

/-- The body of `read_event` (src/melodia/io/midi.py:459-527). -/
def reBody : List Stmt := [
  .ite (.cmp (.name "status") [.is] [.none]) [
    .assign (.name "status") (.call (.attr (.name "MIDIReader") "_read_8") [.name "data"] [])] [],
  .ite (.cmp (.name "status") [.eq] [.int 255]) reMeta [
    .ite (.cmp (.name "status") [.ge] [.int 128]) reStatus reRunning]]

theorem parse_track_body : ∃ rest, MIDIReader._parse_track.body =
    .assign (.name "previous_status") .none :: .defn "read_event" [("status", .none)] ["previous_status"] reBody :: rest :=
  ⟨_, rfl⟩

/-- The object an event is. -/
def eventVal : Event → Val
  | .unsupported => .obj "_EventUnsupported" []
  | .noteOff c p v => .obj "_EventNoteOFF" [("channel", .int c), ("pitch", .int p), ("velocity", .int v)]
  | .noteOn c p v => .obj "_EventNoteON" [("channel", .int c), ("pitch", .int p), ("velocity", .int v)]
  | .endOfTrack => .obj "_EventEndOfTrack" []
  | .timeSignature nn dd cc bb => .obj "_EventTimeSignature" [("nn", .int nn), ("dd", .int dd), ("cc", .int cc), ("bb", .int bb)]
  | .globalChannel c => .obj "_EventGlobalChannel" [("channel", .int c)]

/-- The memory while events are read: the shared variable at `p` and the reader at `d`. -/
theorem put_reader_comm {h : Heap} {d p : Nat} (hp : p ≠ d) (r : Melodia.Reader) (v : Val) :
    (h.put d (readerObj r)).put p (.cell v) = (h.put p (.cell v)).put d (readerObj r) := by
  simp only [Heap.put]
  rw [List.set_comm _ _ hp.symm]

/-- The variables of `read_event`. -/
def reEnv (d p : Nat) (sv tv f s : Val) : Env :=
  { mod := "melodia.io.midi", vars := [("self", sv), ("data", .ref d), ("ticks_per_quarter", tv), ("previous_status", .cell p),
      ("status", s), ("read_event", f)] }

/-- What a branch does. -/
def EventEnds (h : Heap) (d p : Nat) (s : Nat) (x : Option (Res Flow)) (m : PyM (Event × Melodia.Reader)) : Prop :=
  Ends x m (fun b r h' => (∃ env', r = .ret (eventVal b.1) env') ∧ h' = (h.put p (.cell (.int s))).put d (readerObj b.2))
    (fun h' => ∃ v r', h' = (h.put p (.cell v)).put d (readerObj r'))

open Lean.Parser.Tactic in
/-- Run a branch of `read_event`. -/
macro "rerun" "[" ls:simpLemma,* "]" : tactic =>
  `(tactic| pyrun [reEnv, afterRead, bind, Except.bind, pure, Except.pure, EventEnds, Ends, $ls,*])

theorem reMeta_run {h : Heap} {d p : Nat} (hd : d < h.objs.length) (hpd : p ≠ d) (sv tv f v : Val)
    (r : Melodia.Reader) :
    EventEnds h d p 255 (execB program W reMeta (reEnv d p sv tv f (.int 255)) ((h.put p (.cell v)).put d (readerObj r))) (readMeta r) := by
  unfold readMeta
  have hc := fun (h : Heap) => put_reader_comm (h := h) hpd
  cases h1 : r.read8 with
  | error e => rerun [reMeta, hd, h1, hc]; exact ⟨_, _, rfl⟩
  | ok x =>
    obtain ⟨kind, r1⟩ := x
    cases h2 : r1.readVarLen with
    | error e => rerun [reMeta, hd, h1, h2, hc]; exact ⟨_, _, rfl⟩
    | ok x =>
      obtain ⟨length, r2⟩ := x
      by_cases k1 : kind = 47
      · subst k1
        by_cases l1 : length = 0
        · rerun [reMeta, hd, h1, h2, hc, l1, eventVal]
        · rerun [reMeta, hd, h1, h2, hc, l1]; exact ⟨_, _, rfl⟩
      · have k1' : ¬ (kind : Int) = 47 := by omega
        by_cases k2 : kind = 32
        · subst k2
          by_cases l1 : length = 1
          · cases h3 : r2.read8 with
            | error e => rerun [reMeta, hd, h1, h2, h3, hc, l1]; exact ⟨_, _, rfl⟩
            | ok x => rerun [reMeta, hd, h1, h2, h3, hc, l1, eventVal]
          · rerun [reMeta, hd, h1, h2, hc, l1]; exact ⟨_, _, rfl⟩
        · have k2' : ¬ (kind : Int) = 32 := by omega
          by_cases k3 : kind = 88
          · subst k3
            by_cases l1 : length = 4
            · subst l1
              cases h3 : r2.read8 with
              | error e => rerun [reMeta, hd, h1, h2, h3, hc]; exact ⟨_, _, rfl⟩
              | ok x =>
                obtain ⟨nn, r3⟩ := x
                cases h4 : r3.read8 with
                | error e => rerun [reMeta, hd, h1, h2, h3, h4, hc]; exact ⟨_, _, rfl⟩
                | ok x =>
                  obtain ⟨dd, r4⟩ := x
                  cases h5 : r4.read8 with
                  | error e => rerun [reMeta, hd, h1, h2, h3, h4, h5, hc]; exact ⟨_, _, rfl⟩
                  | ok x =>
                    obtain ⟨cc, r5⟩ := x
                    cases h6 : r5.read8 with
                    | error e => rerun [reMeta, hd, h1, h2, h3, h4, h5, h6, hc]; exact ⟨_, _, rfl⟩
                    | ok x => rerun [reMeta, hd, h1, h2, h3, h4, h5, h6, hc, eventVal]
            · have l1' : ¬ (length : Int) = 4 := by omega
              rerun [reMeta, hd, h1, h2, hc, l1, l1']; exact ⟨_, _, rfl⟩
          · have k3' : ¬ (kind : Int) = 88 := by omega
            cases h3 : r2.read length with
            | error e => rerun [reMeta, hd, h1, h2, h3, hc, k1, k2, k3, k1', k2', k3']; exact ⟨_, _, rfl⟩
            | ok x => rerun [reMeta, hd, h1, h2, h3, hc, k1, k2, k3, k1', k2', k3', eventVal]

@[py] theorem bytes_ne_int (b : Bytes) (i : Int) : cmpPrim .ne (.bytes b) (.int i) = pure (.bool true) := by
  rfl

/-- The loop for system exclusive messages ends by an exception only. -/
theorem sysex_loop {d : Nat} : ∀ (n : Nat) {h : Heap} (_ : d < h.objs.length) (r : Melodia.Reader) (p : Nat) (sv tv f a b c : Val) (v : Val),
    r.data.length - r.idx = n → (v = .int 0 ∨ ∃ bs, v = .bytes bs) →
    whileLoop program W (.cmp (.name "value") [.ne] [.int 247]) [
      .assign (.name "value") (.call (.attr (.name "data") "read") [.int 1] [])]
      { mod := "melodia.io.midi", vars := [("self", sv), ("data", .ref d), ("ticks_per_quarter", tv), ("previous_status", .cell p),
        ("status", a), ("read_event", f), ("kind", b), ("channel", c), ("value", v)] } (h.put d (readerObj r)) =
      some (.err .parsingError (h.put d (readerObj ⟨r.data, r.data.length⟩))) := by
  intro n
  induction n with
  | zero =>
    intro h hd r p sv tv f a b c v hn hv
    have hr : r.read 1 = .error .parsingError := by rw [Reader.read, if_pos (by omega)]
    rw [whileLoop]
    rcases hv with rfl | ⟨bs, rfl⟩ <;> pyrun [hd, hr, afterRead]
  | succ n ih =>
    intro h hd r p sv tv f a b c v hn hv
    obtain ⟨bs', r', hr, h1, h2⟩ : ∃ bs r', r.read 1 = .ok (bs, r') ∧ r'.data = r.data ∧ r'.idx = r.idx + 1 :=
      ⟨(r.data.drop r.idx).take 1, ⟨r.data, r.idx + 1⟩, by rw [Reader.read, if_neg (by omega)], rfl, rfl⟩
    have := ih hd r' p sv tv f a b c (.bytes bs') (by rw [h1, h2]; omega) (.inr ⟨_, rfl⟩)
    rw [h1] at this
    rw [whileLoop]
    rcases hv with rfl | ⟨bs, rfl⟩ <;> pyrun [hd, hr, afterRead, this]

theorem sysexLoop_error : ∀ (fuel : Nat) (r : Melodia.Reader), r.data.length - r.idx < fuel →
    sysexLoop fuel r = .error .parsingError := by
  intro fuel
  induction fuel with
  | zero => intro r h; omega
  | succ fuel ih =>
    intro r h
    rw [sysexLoop, Reader.read]
    split
    · rfl
    · exact ih _ (by simp only; omega)

theorem eventLengths_nonneg : ∀ x ∈ eventLengths, x = -1 ∨ 0 ≤ x := by decide +kernel

theorem reStatus_run {h : Heap} {d p : Nat} (hd : d < h.objs.length) (hpd : p ≠ d) (sv tv f v : Val) (s : Nat)
    (r : Melodia.Reader) :
    EventEnds h d p s (execB program W reStatus (reEnv d p sv tv f (.int s)) ((h.put p (.cell v)).put d (readerObj r)))
      (readStatusEvent s r) := by
  unfold readStatusEvent
  have hc := fun (h : Heap) => put_reader_comm (h := h) hpd
  have hk : (s : Int) >>> (4 : ℕ) = ((s >>> 4 : ℕ) : Int) := rfl
  have hch : (s : Int).land 15 = ((s &&& 15 : ℕ) : Int) := rfl
  by_cases k1 : s >>> 4 = 8
  · cases h1 : r.read8 with
    | error e => rerun [reStatus, hd, h1, hc, hk, hch, k1]; exact ⟨_, _, rfl⟩
    | ok x =>
      obtain ⟨pitch, r1⟩ := x
      cases h2 : r1.read8 with
      | error e => rerun [reStatus, hd, h1, h2, hc, hk, hch, k1]; exact ⟨_, _, rfl⟩
      | ok x => rerun [reStatus, hd, h1, h2, hc, hk, hch, k1, eventVal]
  · have k1' : ¬ (s : Int) >>> (4 : ℕ) = 8 := by rw [hk]; omega
    by_cases k2 : s >>> 4 = 9
    · cases h1 : r.read8 with
      | error e => rerun [reStatus, hd, h1, hc, hk, hch, k2]; exact ⟨_, _, rfl⟩
      | ok x =>
        obtain ⟨pitch, r1⟩ := x
        cases h2 : r1.read8 with
        | error e => rerun [reStatus, hd, h1, h2, hc, hk, hch, k2]; exact ⟨_, _, rfl⟩
        | ok x =>
          obtain ⟨vel, r2⟩ := x
          by_cases k3 : vel = 0
          · rerun [reStatus, hd, h1, h2, hc, hk, hch, k2, k3, eventVal]
          · rerun [reStatus, hd, h1, h2, hc, hk, hch, k2, k3, eventVal]
    · have k2' : ¬ (s : Int) >>> (4 : ℕ) = 9 := by rw [hk]; omega
      by_cases k3 : s = 240
      · rw [if_neg k1, if_neg k2, if_pos k3, sysexLoop_error (r.data.length + 1) r (by omega)]
        have k3' : (s : Int) = 240 := by omega
        have hw := fun h hd a b c => sysex_loop W (d := d) _ (h := h) hd r p sv tv f a b c (.int 0) rfl (.inl rfl)
        clear k3
        have hs : decide ((s : Int) = 240) = true := by simp [k3']
        clear hk
        rw [k3'] at *
        rerun [reStatus, hd, hc, hch, k1', k2', hw]
        exact ⟨_, _, rfl⟩
      · have k3' : ¬ (s : Int) = 240 := by omega
        have hI := table_item s
        rw [if_neg k1, if_neg k2, if_neg k3]
        cases h0 : eventLengths[s]? with
        | none =>
          rw [h0] at hI
          simp only at hI ⊢
          rerun [reStatus, hd, hc, hch, k1', k2', k3', ↓hI]; exact ⟨_, _, rfl⟩
        | some l =>
          rw [h0] at hI
          simp only at hI ⊢
          by_cases k4 : l = -1
          · rerun [reStatus, hd, hc, hch, k1', k2', k3', k4, ↓hI]; exact ⟨_, _, rfl⟩
          · obtain ⟨m, rfl⟩ : ∃ m : ℕ, l = m := by
              rcases eventLengths_nonneg l (List.mem_of_getElem? h0) with h | h
              · exact absurd h k4
              · exact ⟨l.toNat, by omega⟩
            clear h0
            have k4' : ¬ (m : Int) = -1 := by omega
            cases h1 : r.read m with
            | error e => rerun [reStatus, hd, hc, hch, k1', k2', k3', ↓hI, h1]; exact ⟨_, _, rfl⟩
            | ok x => rerun [reStatus, hd, hc, hch, k1', k2', k3', ↓hI, h1, eventVal]

/-- The variables captured by `read_event`. -/
def reVars (d p : Nat) (sv tv : Val) : List (String × Val) :=
  [("self", sv), ("data", .ref d), ("ticks_per_quarter", tv), ("previous_status", .cell p)]

/-- The local function `read_event`. -/
def reFn (d p : Nat) (sv tv : Val) : Val := .closure "read_event" [("status", .none)] reBody "melodia.io.midi" (reVars d p sv tv)

/-- The value of `previous_status`. -/
def prevVal : Option Nat → Val
  | .none => .none
  | some s => .int s

@[py] theorem readVar_reFn (d p : Nat) (sv tv : Val) : readVar (reFn d p sv tv) = pure (reFn d p sv tv) := rfl

theorem call_reFn {d p : Nat} {sv tv : Val} (args : List Val) (kws : List (String × Val)) (s : Val)
    (hb : bindParams program W [("status", some .none)] args kws { mod := "melodia.io.midi", vars := reVars d p sv tv } =
      pure [("status", s)]) :
    call program W (reFn d p sv tv) args kws = (do
      let r ← execB program W reBody (reEnv d p sv tv (reFn d p sv tv) s)
      match r with
      | .ret v _ => pure v
      | .next _ => pure .none
      | _ => stuck) := by
  rw [call.eq_def]
  simp only [reFn, List.map_cons, List.map_nil, hb]
  rfl

theorem call_reFn_none {d p : Nat} {sv tv : Val} :
    call program W (reFn d p sv tv) [] [] = (do
      let r ← execB program W reBody (reEnv d p sv tv (reFn d p sv tv) .none)
      match r with
      | .ret v _ => pure v
      | .next _ => pure .none
      | _ => stuck) := by
  apply call_reFn
  simp [py]

theorem call_reFn_status {d p : Nat} {sv tv s : Val} :
    call program W (reFn d p sv tv) [] [("status", s)] = (do
      let r ← execB program W reBody (reEnv d p sv tv (reFn d p sv tv) s)
      match r with
      | .ret v _ => pure v
      | .next _ => pure .none
      | _ => stuck) := by
  apply call_reFn
  simp [py]

/-- A call of `read_event` in the model with a status byte. -/
def statusEvent (s : Nat) (r : Melodia.Reader) : PyM (Event × Melodia.Reader) :=
  if s = 255 then readMeta r else readStatusEvent s r

/-- The conditional statement of `read_event`. -/
theorem reBody_status {h : Heap} {d p : Nat} (hd : d < h.objs.length) (hpd : p ≠ d) (sv tv f v : Val) (s : Nat) (hs : 128 ≤ s)
    (r : Melodia.Reader) :
    EventEnds h d p s (execB program W reBody.tail (reEnv d p sv tv f (.int s)) ((h.put p (.cell v)).put d (readerObj r)))
      (statusEvent s r) := by
  have hs' : (128 : Int) ≤ s := by omega
  have ht : reBody.tail = [.ite (.cmp (.name "status") [.eq] [.int 255]) reMeta [
    .ite (.cmp (.name "status") [.ge] [.int 128]) reStatus reRunning]] := rfl
  unfold statusEvent
  by_cases h1 : s = 255
  · have h1' : (s : Int) = 255 := by omega
    have hm := reMeta_run W hd hpd sv tv f v r
    rw [if_pos h1, h1'] at *
    subst h1
    unfold EventEnds at hm ⊢
    cases hx : readMeta r with
    | error e =>
      rw [hx] at hm
      obtain ⟨h', h2, h3⟩ := hm
      refine ⟨h', ?_, h3⟩
      rw [reEnv] at h2 ⊢
      pyrun [ht, h2]
    | ok x =>
      rw [hx] at hm
      obtain ⟨a, h', h2, ⟨env', rfl⟩, h3⟩ := hm
      refine ⟨.ret (eventVal x.1) env', h', ?_, ⟨env', rfl⟩, h3⟩
      rw [reEnv] at h2 ⊢
      pyrun [ht, h2]
  · have h1' : ¬ (s : Int) = 255 := by omega
    have hm := reStatus_run W hd hpd sv tv f v s r
    rw [if_neg h1]
    unfold EventEnds at hm ⊢
    cases hx : readStatusEvent s r with
    | error e =>
      rw [hx] at hm
      obtain ⟨h', h2, h3⟩ := hm
      refine ⟨h', ?_, h3⟩
      rw [reEnv] at h2 ⊢
      pyrun [ht, h2, h1', hs']
    | ok x =>
      rw [hx] at hm
      obtain ⟨a, h', h2, ⟨env', rfl⟩, h3⟩ := hm
      refine ⟨.ret (eventVal x.1) env', h', ?_, ⟨env', rfl⟩, h3⟩
      rw [reEnv] at h2 ⊢
      pyrun [ht, h2, h1', hs']

/-- What a call of `read_event` does. -/
def CallEnds (h : Heap) (d p : Nat) (x : Option (Res Val)) (m : PyM (Event × Option Nat × Melodia.Reader)) : Prop :=
  Ends x m (fun b v h' => v = eventVal b.1 ∧ h' = (h.put p (.cell (prevVal b.2.1))).put d (readerObj b.2.2))
    (fun h' => ∃ v r', h' = (h.put p (.cell v)).put d (readerObj r'))

theorem EventEnds.call {h : Heap} {d p s : Nat} {x : Option (Res Flow)} {m : PyM (Event × Melodia.Reader)}
    (hx : EventEnds h d p s x m) :
    CallEnds h d p (andThen x (fun r => match r with
      | .ret v _ => pure v
      | .next _ => pure .none
      | _ => stuck)) (do
        let (e, r) ← m
        pure (e, some s, r)) := by
  refine Ends.bind hx (fun _ h => h) ?_
  rintro ⟨e, r⟩ a h' - ⟨⟨env', rfl⟩, h3⟩
  exact ⟨_, _, rfl, rfl, h3⟩

/-- A call with a status byte. -/
theorem call_status {h : Heap} {d p : Nat} (hd : d < h.objs.length) (hpd : p ≠ d) (sv tv v : Val) (s : Nat) (hs : 128 ≤ s)
    (r : Melodia.Reader) :
    CallEnds h d p (call program W (reFn d p sv tv) [] [("status", .int s)] ((h.put p (.cell v)).put d (readerObj r)))
      (do
        let (e, r) ← statusEvent s r
        pure (e, some s, r)) := by
  rw [call_reFn_status, run_bind]
  have := (reBody_status W hd hpd sv tv (reFn d p sv tv) v s hs r).call
  have hb : ∀ h', execB program W reBody (reEnv d p sv tv (reFn d p sv tv) (.int s)) h' =
      execB program W reBody.tail (reEnv d p sv tv (reFn d p sv tv) (.int s)) h' := by
    intro h'
    refine execB_cons W ?_
    pyrun [reEnv]
  rw [hb]
  exact this

theorem read8_shiftBack {r r1 : Melodia.Reader} {s : Nat} (hr : r.read8 = .ok (s, r1)) : r1.shiftBack = r := by
  unfold Reader.read8 at hr
  cases hx : r.read 1 with
  | error e => rw [hx] at hr; cases hr
  | ok x =>
    rw [hx] at hr
    obtain ⟨h1, h2, -⟩ := Reader.read_ok hx
    obtain rfl : x.2 = r1 := congrArg Prod.snd (Except.ok.inj hr)
    rw [Reader.shiftBack]
    cases r
    simp_all

theorem read8_idx {r r1 : Melodia.Reader} {s : Nat} (hr : r.read8 = .ok (s, r1)) : 1 ≤ r1.idx := by
  unfold Reader.read8 at hr
  cases hx : r.read 1 with
  | error e => rw [hx] at hr; cases hr
  | ok x =>
    rw [hx] at hr
    obtain ⟨h1, h2, -⟩ := Reader.read_ok hx
    obtain rfl : x.2 = r1 := congrArg Prod.snd (Except.ok.inj hr)
    omega

/-- Without a status byte in the file and without one before, `read_event` calls itself for ever. -/
theorem readEvent_endless {r r1 : Melodia.Reader} {s : Nat} (hr : r.read8 = .ok (s, r1)) (hs : s < 128) :
    ∀ n, readEvent n .none .none r = .error .recursionError := by
  have hb := read8_shiftBack hr
  intro n
  induction n with
  | zero => rfl
  | succ n ih =>
    rw [readEvent]
    simp only [hr]
    change (if s = 255 then _ else if s ≥ 128 then _ else readEvent n .none .none r1.shiftBack) = _
    rw [if_neg (by omega), if_neg (by omega), hb, ih]

theorem readEvent_running {r r1 : Melodia.Reader} {s t : Nat} (hr : r.read8 = .ok (s, r1)) (hs : s < 128) (ht : 128 ≤ t) (n : Nat) :
    readEvent (n + 2) .none (some t) r = (do
        let (e, r) ← statusEvent t r
        pure (e, some t, r)) := by
  rw [readEvent]
  simp only [hr]
  change (if s = 255 then _ else if s ≥ 128 then _ else readEvent (n + 1) (some t) (some t) r1.shiftBack) = _
  rw [if_neg (by omega), if_neg (by omega), read8_shiftBack hr, readEvent]
  change (if t = 255 then _ else if t ≥ 128 then _ else _) = _
  unfold statusEvent
  split
  · rfl
  · rfl

theorem readEvent_fresh {r r1 : Melodia.Reader} {s : Nat} {prev : Option Nat} (hr : r.read8 = .ok (s, r1)) (hs : 128 ≤ s) (n : Nat) :
    readEvent (n + 1) .none prev r = (do
        let (e, r) ← statusEvent s r1
        pure (e, some s, r)) := by
  rw [readEvent]
  simp only [hr]
  change (if s = 255 then _ else if s ≥ 128 then _ else _) = _
  unfold statusEvent
  split
  · rfl
  · rfl

theorem readEvent_eof {r : Melodia.Reader} {e : PyErr} {prev : Option Nat} (hr : r.read8 = .error e) (n : Nat) :
    readEvent (n + 1) .none prev r = .error e := by
  rw [readEvent]
  simp only [hr]
  rfl

/-- `read_event()`. -/
theorem call_read_event {h : Heap} {d p : Nat} (hd : d < h.objs.length) (hp : p < h.objs.length) (hpd : p ≠ d) (sv tv : Val)
    (prev : Option Nat) (hprev : ∀ s, prev = some s → 128 ≤ s) (r : Melodia.Reader)
    (hm : readEvent recursionLimit .none prev r ≠ .error .recursionError) :
    CallEnds h d p (call program W (reFn d p sv tv) [] [] ((h.put p (.cell (prevVal prev))).put d (readerObj r)))
      (readEvent recursionLimit .none prev r) := by
  have hd' : d < (h.put p (.cell (prevVal prev))).objs.length := by simpa using hd
  rw [call_reFn_none, run_bind]
  cases hr : r.read8 with
  | error e =>
    rw [recursionLimit, readEvent_eof hr]
    refine ⟨(h.put p (.cell (prevVal prev))).put d (readerObj ⟨r.data, r.data.length⟩), ?_, _, _, rfl⟩
    pyrun [reBody, reEnv, hd, hr, afterRead]
  | ok x =>
    obtain ⟨s, r1⟩ := x
    have hb : execB program W reBody (reEnv d p sv tv (reFn d p sv tv) .none) ((h.put p (.cell (prevVal prev))).put d (readerObj r)) =
        execB program W reBody.tail (reEnv d p sv tv (reFn d p sv tv) (.int s)) ((h.put p (.cell (prevVal prev))).put d (readerObj r1)) := by
      refine execB_cons W ?_
      pyrun [reEnv, hd, hr, afterRead]
    rw [hb]
    by_cases hs : 128 ≤ s
    · rw [recursionLimit, readEvent_fresh hr hs]
      exact (reBody_status W hd hpd sv tv (reFn d p sv tv) _ s hs r1).call
    · cases prev with
      | none => exact absurd (readEvent_endless hr (by omega) _) hm
      | some t =>
        rw [recursionLimit, readEvent_running hr (by omega) (hprev t rfl)]
        have hc := call_status W hd hpd sv tv (.int t) t (hprev t rfl) r
        have hi := read8_idx hr
        have h1' : ¬ (s : Int) = 255 := by omega
        have h2' : ¬ (128 : Int) ≤ s := by omega
        have hsb := read8_shiftBack hr
        have ht : reBody.tail = [.ite (.cmp (.name "status") [.eq] [.int 255]) reMeta [
          .ite (.cmp (.name "status") [.ge] [.int 128]) reStatus reRunning]] := rfl
        unfold CallEnds at hc ⊢
        generalize (statusEvent t r >>= _) = m at hc ⊢
        cases m with
        | error e =>
          obtain ⟨h', h2, h3⟩ := hc
          refine ⟨h', ?_, h3⟩
          pyrun [ht, reRunning, reEnv, hd, hd', hp, hpd, h1', h2', hi, prevVal, hsb, h2]
        | ok x =>
          obtain ⟨a, h', h2, h3⟩ := hc
          refine ⟨a, h', ?_, h3⟩
          pyrun [ht, reRunning, reEnv, hd, hd', hp, hpd, h1', h2', hi, prevVal, hsb, h2]

end Source
end Melodia
