/-
C98: the text of the reader in midi.py, executed by the meaning of Python.
-/
import Verif.Lemmas.SourceReaderCalls
import Verif.Props.MidiRead
import Verif.Props.RoundTrip
import Verif.Props.SourceWriter

set_option autoImplicit false

namespace Melodia

open Melodia.Python Melodia.Source

variable (W : World)

/-- C98 (constructor): `MIDIReader(...)` makes a reader with the given setting exactly if middle_c denotes a tone; otherwise
ValueError is raised, or TypeError if middle_c is no Tone, int or str. Memory is left as it was. -/
theorem C98_constructor {ta : ToneArg} {c : Val} (ht : IsToneArg ta c) {vars : List (String × Val)} {e : Expr}
    (hc : ReaderCall c vars e) :
    (∀ p, @ToneDenotes W.digits ta p → ∃ v, Gives W vars e v ∧ IsReader ⟨60 - p⟩ v) ∧
    ((∀ p, ¬ @ToneDenotes W.digits ta p) → Raises W vars e (if ta = .other then .typeError else .valueError)) := by
  let _ := W.digits
  have hu := user_reader W ht hc
  refine ⟨?_, ?_⟩
  · intro p hd
    refine ⟨_, ?_, c, ?_, rfl⟩
    · rw [Gives, hu, MidiReader.new, middleCDeltaOf_ok_iff.mpr ⟨p, hd, rfl⟩]
      rfl
    · cases hd with
      | tone t => cases ht; exact .tone t
      | int => cases ht; exact .int _
      | str s => cases ht; exact .str s
  · intro hno
    rw [Raises, hu, MidiReader.new]
    rcases hd : middleCDeltaOf ta with e | d
    · rw [← middleCDeltaOf_error hd]; rfl
    · obtain ⟨p, hp, -⟩ := middleCDeltaOf_ok_iff.mp hd
      exact absurd hp (hno p)

variable {W} {m : MidiReader} {h : Heap} {data : Bytes} {S : Nat → Prop} {channel : Option Int} {vars : List (String × Val)}
  {e : Expr}

theorem load_gives (hN : W.sort.Natural) (hc : LoadCall h data m S channel vars e) {t : Track}
    (ht : @MidiReader.loads W.digits W.sort m data channel = .ok t) : NewTrack (userEval W vars e h) h S t := by
  have := user_load W hN hc ⟨by rw [ht]; simp, by rw [ht]; simp⟩
  rw [ht] at this
  obtain ⟨v, H, k1, a, l, rfl, k2, -, k3, k4, k5⟩ := this
  exact ⟨H, a, l, k1, k2, k3, k4, k5⟩

theorem load_fails (hN : W.sort.Natural) (hc : LoadCall h data m S channel vars e) {x : PyErr}
    (ht : @MidiReader.loads W.digits W.sort m data channel = .error x) (hx : x ≠ .recursionError) (hx' : x ≠ .outOfFuel) :
    Fails (userEval W vars e h) h S x := by
  have := user_load W hN hc ⟨by rw [ht]; simpa using hx, by rw [ht]; simpa using hx'⟩
  rw [ht] at this
  exact this

/-- C98 (refinement): reading any bytes in any form, with or without a channel, does what the model of the reader says: a new
track with the same contents, or the same exception. Nothing but the position of the file is changed. (The file must give the
status of the first event of each track chunk; otherwise the text calls itself without end.) -/
theorem C98_refines (hN : W.sort.Natural) (hc : LoadCall h data m S channel vars e) (hs : StatusGiven data) :
    match @MidiReader.loads W.digits W.sort m data channel with
    | .ok t => NewTrack (userEval W vars e h) h S t
    | .error x => Fails (userEval W vars e h) h S x := by
  let _ := W.digits
  cases hr : MidiReader.loads W.sort m data channel with
  | ok t => exact load_gives hN hc hr
  | error x =>
    refine load_fails hN hc hr ?_ ?_
    · rintro rfl
      rcases C40_exceptions_partial W.sort m data channel _ hr with h | ⟨h, -⟩ | ⟨-, cs, b, h1, h2, h3⟩ | ⟨h, -⟩
      · cases h
      · cases h
      · exact hs cs b h1 h2 h3
      · cases h
    · rintro rfl
      exact (C39_loads_terminates W.sort m data channel).1 hr

/-- C98 (any bytes): reading ends, and the result is a track whose positions and notes are all valid, or MIDIParsingError;
ValueError only if a channel is asked for, AssertionError only if a header chunk has division 0. -/
theorem C98_total (hN : W.sort.Natural) (hc : LoadCall h data m S channel vars e) (hs : StatusGiven data) :
    (∃ t, NewTrack (userEval W vars e h) h S t ∧ t.Reachable W.sort ∧ ∀ x ∈ t.items W.sort, x.1.Valid ∧ x.2.Valid) ∨
    Fails (userEval W vars e h) h S .parsingError ∨
    (channel ≠ none ∧ Fails (userEval W vars e h) h S .valueError) ∨
    ((∃ cs body, Chunks data cs ∧ (kindMThd, body) ∈ cs ∧ ZeroDivision body) ∧
      Fails (userEval W vars e h) h S .assertionError) := by
  let _ := W.digits
  have hr := C98_refines hN hc hs
  cases hm : MidiReader.loads W.sort m data channel with
  | ok t =>
    rw [hm] at hr
    exact .inl ⟨t, hr, (C39_loads_terminates W.sort m data channel).2 t hm⟩
  | error x =>
    rw [hm] at hr
    rcases C40_exceptions_partial W.sort m data channel _ hm with rfl | ⟨rfl, h1⟩ | ⟨-, cs, b, h1, h2, h3⟩ | ⟨rfl, h1⟩
    · exact .inr (.inl hr)
    · exact .inr (.inr (.inl ⟨h1, hr⟩))
    · exact absurd h3 (hs cs b h1 h2)
    · exact .inr (.inr (.inr ⟨h1, hr⟩))

/-- C98 (one channel): reading channel `c` of a MIDI file with one track gives the notes of the channel, one for every
note-on with the note-off that ends it, and its signature; ValueError if the file has nothing for the channel. -/
theorem C98_channel (hN : W.sort.Natural) {division : Nat} {es : List (Nat × Ev)} {body : Bytes}
    (hf : IsFile division body data) (he : IsBody es body) (hd0 : 0 < division) (hd : division ≤ 0x7FFF)
    (hb : body.length < 2 ^ 24) {c : Nat} (hc : LoadCall h data m S (some c) vars e) :
    (HasChannel es c → ∃ t, NewTrack (userEval W vars e h) h S t ∧ t.Reachable W.sort ∧ t.signature = signatureFor c es ∧
      t.contents = (pairSet (noteEvents c 0 es)).val.map (fun x => readNote m.middleCDelta division
        ((noteEvents c 0 es).getD x.1 default) ((noteEvents c 0 es).getD x.2 default))) ∧
    (¬ HasChannel es c → Fails (userEval W vars e h) h S .valueError) := by
  let _ := W.digits
  obtain ⟨h1, h2⟩ := MidiReader.load_channel W.sort m hf he hd0 hd hb c
  refine ⟨fun hh => ?_, fun hh => load_fails hN hc (h2 hh) (by decide) (by decide)⟩
  obtain ⟨t, k1, k2, k3, k4⟩ := h1 hh
  exact ⟨t, load_gives hN hc k1, k2, k3, k4⟩

/-- C98 (negative channels): reading a negative channel of a MIDI file is a ValueError. -/
theorem C98_negative_channel (hN : W.sort.Natural) {division : Nat} {es : List (Nat × Ev)} {body : Bytes}
    (hf : IsFile division body data) (he : IsBody es body) (hd0 : 0 < division) (hd : division ≤ 0x7FFF)
    (hb : body.length < 2 ^ 24) {c : Int} (hneg : c < 0) (hc : LoadCall h data m S (some c) vars e) :
    Fails (userEval W vars e h) h S .valueError := by
  let _ := W.digits
  exact load_fails hN hc (C50_negative_channel W.sort m hf he hd0 hd hb hneg) (by decide) (by decide)

/-- C98 (all channels): reading a MIDI file without a channel gives the notes of all sixteen channels together. -/
theorem C98_all_channels (hN : W.sort.Natural) {division : Nat} {es : List (Nat × Ev)} {body : Bytes}
    (hf : IsFile division body data) (he : IsBody es body) (hd0 : 0 < division) (hd : division ≤ 0x7FFF)
    (hb : body.length < 2 ^ 24) (hc : LoadCall h data m S none vars e) :
    ∃ t, NewTrack (userEval W vars e h) h S t ∧ t.Reachable W.sort ∧
      t.contents = ∑ c ∈ Finset.range 16, (pairSet (noteEvents c 0 es)).val.map (fun x => readNote m.middleCDelta division
        ((noteEvents c 0 es).getD x.1 default) ((noteEvents c 0 es).getD x.2 default)) := by
  let _ := W.digits
  obtain ⟨t, h1, h2, -, h3⟩ := MidiReader.load_all W.sort m hf he hd0 hd hb
  exact ⟨t, load_gives hN hc h1, h2, h3⟩

/-- `MIDIReader()` and `MIDIReader(middle_c=36)` make the same reader up to the value kept; `MIDIReader(None)` raises
TypeError. -/
example : (∃ v, Gives W [] (callE "MIDIReader" []) v ∧ IsReader ⟨24⟩ v) ∧
    (∃ v, Gives W [("middle_c", .int 36)] (.call (.name "MIDIReader") [.name "middle_c"] ["middle_c"]) v ∧ IsReader ⟨24⟩ v) ∧
    Raises W [("middle_c", .none)] (callE "MIDIReader" ["middle_c"]) .typeError :=
  ⟨(C98_constructor W (.tone ⟨36⟩) .default).1 36 (@ToneDenotes.tone W.digits ⟨36⟩),
    (C98_constructor W (.int 36) (.kw _)).1 36 (@ToneDenotes.int W.digits 36),
    (C98_constructor W .none (.pos _)).2 (by intro p hp; cases hp)⟩

/-- `r.load(f, channel=1)` for a file with one byte more before its position: the note of channel 1 of the example file. -/
example (hN : W.sort.Natural) : ∃ t, NewTrack (userEval W [("r", readerV ⟨24⟩ (toneV ⟨36⟩)), ("f", .ref 0), ("channel", .int 1)]
      (.call (.attr (.name "r") "load") [.name "f", .name "channel"] ["channel"])
      ⟨[.file (7 :: exFile 96 exBodyBytes) 1], 0⟩) ⟨[.file (7 :: exFile 96 exBodyBytes) 1], 0⟩ (· = 0) t ∧
    t.signature = ⟨4, 4⟩ ∧ t.contents = {(1 / 4, ⟨⟨38⟩, ⟨1, 16⟩, 1⟩)} := by
  have hc : LoadCall ⟨[.file (7 :: exFile 96 exBodyBytes) 1], 0⟩ (exFile 96 exBodyBytes) ⟨24⟩ (· = 0) (some 1)
      [("r", readerV ⟨24⟩ (toneV ⟨36⟩)), ("f", .ref 0), ("channel", .int 1)]
      (.call (.attr (.name "r") "load") [.name "f", .name "channel"] ["channel"]) :=
    .load ⟨_, .tone _, rfl⟩ rfl rfl (.kw (some 1))
  obtain ⟨t, h1, -, h2, h3⟩ := (C98_channel hN (exFile_isFile 96 (by decide)) exBody_isBody (by decide) (by decide) (by decide)
    (c := 1) hc).1 (Or.inl (by decide +kernel))
  have hev : noteEvents 1 0 exEvents = [⟨96, true, 62, 127⟩, ⟨120, false, 62, 0⟩] := by decide +kernel
  have hp : pairSet (noteEvents 1 0 exEvents) = {(0, 1)} := by
    rw [hev]
    ext ⟨i, j⟩
    simp only [pairSet, Finset.mem_filter, Finset.mem_product, Finset.mem_range, List.length_cons, List.length_nil,
      Finset.mem_singleton, Prod.mk.injEq]
    constructor
    · rintro ⟨⟨h1, h2⟩, p, -, hij, -⟩
      omega
    · rintro ⟨rfl, rfl⟩
      exact ⟨⟨by omega, by omega⟩, 62, ⟨⟨_, rfl, rfl, rfl⟩, fun k hk => absurd hk (Nat.not_lt_zero k)⟩, by norm_num, ⟨_, rfl, rfl, rfl⟩,
        fun l h1 h2 => by omega⟩
  refine ⟨t, h1, ?_, ?_⟩
  · rw [h2]; decide +kernel
  · rw [h3, hp, hev]
    decide +kernel

/-- `loads(b'\x01\x02\x03')` raises MIDIParsingError. -/
example (hN : W.sort.Natural) : StatusGiven [1, 2, 3] ∧ Fails (userEval W [midiFun "loads", ("data", .bytes [1, 2, 3])] (callE "loads" ["data"])
    ⟨[], 0⟩) ⟨[], 0⟩ (fun _ => False) .parsingError := by
  have key : ∀ data cs, Chunks data cs → data.length < 8 → cs = [] := by
    intro data cs h hl
    cases h with
    | nil => rfl
    | cons hk hl' h => simp [hk, hl'.1] at hl; omega
  have hs : StatusGiven [1, 2, 3] := by
    intro cs b h hm
    rw [key _ _ h (by decide)] at hm; cases hm
  refine ⟨hs, ?_⟩
  have hc : LoadCall ⟨[], 0⟩ [1, 2, 3] ⟨24⟩ (fun _ => False) none [midiFun "loads", ("data", .bytes [1, 2, 3])] (callE "loads" ["data"]) :=
    .midiLoads .omitted
  exact load_fails hN hc (by rfl) (by decide) (by decide)

end Melodia
