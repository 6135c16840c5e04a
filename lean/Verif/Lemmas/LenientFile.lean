/-
`load` accepts exactly the files of the grammar in Spec/Lenient.lean.
-/
import Verif.Lemmas.Lenient

set_option autoImplicit false

namespace Melodia

/-! ### Division zero -/

theorem pairSet_card_snoc (evs : List NoteEv) (e : NoteEv) :
    (pairSet evs).card ≤ (pairSet (evs ++ [e])).card := by
  by_cases h : e.on = true ∨ ¬ ∃ i, IsOpen evs e.pitch i
  · rw [pairSet_snoc_same h]
  · push Not at h
    obtain ⟨h1, i, h2⟩ := h
    have := readNotes_snoc_close (delta := 0) (division := 1) (by simpa using h1) h2
      (List.getElem?_eq_getElem h2.1.1.lt)
    have := congrArg Multiset.card this
    unfold readNotes at this
    rw [Multiset.card_map, Multiset.card_cons, Multiset.card_map] at this
    change (pairSet (evs ++ [e])).card = (pairSet evs).card + 1 at this
    omega

theorem pairSet_card_append (evs : List NoteEv) : ∀ rest : List NoteEv,
    (pairSet evs).card ≤ (pairSet (evs ++ rest)).card := by
  intro rest
  induction rest generalizing evs with
  | nil => rw [List.append_nil]
  | cons e rest ih =>
    rw [show evs ++ e :: rest = (evs ++ [e]) ++ rest by simp]
    exact (pairSet_card_snoc evs e).trans (ih _)

variable [UnicodeDigits]

namespace MidiReader

/-- With division zero the loop over the events of a channel succeeds if and only if no note ends. -/
theorem channelLoop_zero_spec (m : MidiReader) (c : Nat) : ∀ (rest pre : List NoteEv) (t : Track) (r : Running),
    RunInv pre r →
    (channelLoop m ((0 : Nat) : Int) t r (rest.map (NoteEv.stored c)) = .ok t ∧
      (pairSet (pre ++ rest)).card = (pairSet pre).card) ∨
    (channelLoop m ((0 : Nat) : Int) t r (rest.map (NoteEv.stored c)) = .error .assertionError ∧
      (pairSet pre).card < (pairSet (pre ++ rest)).card) := by
  intro rest
  induction rest with
  | nil => intro pre t r _; exact Or.inl ⟨rfl, by rw [List.append_nil]⟩
  | cons e rest ih =>
    intro pre t r hr
    have happ : pre ++ e :: rest = (pre ++ [e]) ++ rest := by simp
    rw [happ, List.map_cons]
    by_cases hon : e.on = true
    · have hst : e.stored c = ((e.time : Int), .noteOn c e.pitch e.velocity) := by
        unfold NoteEv.stored; rw [if_pos hon]
      rw [hst, channelLoop]
      have same := pairSet_snoc_same (evs := pre) (e := e) (Or.inl hon)
      by_cases hop : ∃ i, IsOpen pre e.pitch i
      · rw [if_pos ((hr.isSome _).2 hop)]
        have := ih (pre ++ [e]) t r (hr.skip (Or.inl ⟨hon, hop⟩))
        rwa [same] at this
      · rw [if_neg (fun hc => hop ((hr.isSome _).1 hc))]
        have := ih (pre ++ [e]) t _ (hr.start hon hop)
        rwa [same] at this
    · have hoff : e.on = false := by simpa using hon
      have hst : e.stored c = ((e.time : Int), .noteOff c e.pitch e.velocity) := by
        unfold NoteEv.stored; rw [if_neg hon]
      rw [hst, channelLoop]
      cases hg : Dict.get r e.pitch with
      | none =>
        have hop : ¬ ∃ i, IsOpen pre e.pitch i := by
          intro hc
          have := (hr.isSome _).2 hc
          rw [hg] at this
          cases this
        have same := pairSet_snoc_same (evs := pre) (e := e) (Or.inr hop)
        have := ih (pre ++ [e]) t r (hr.skip (Or.inr ⟨hoff, hop⟩))
        rwa [same] at this
      | some x =>
        right
        refine ⟨?_, ?_⟩
        · simp only [pitchToTone, Tone.new, timeToSignature_zero, bind, Except.bind]
        · obtain ⟨i, a, ho, ha, rfl⟩ := (hr.get _ _).1 hg
          refine lt_of_lt_of_le ?_ (pairSet_card_append _ rest)
          have := congrArg Multiset.card (readNotes_snoc_close (delta := 0) (division := 1) hoff ho ha)
          unfold readNotes at this
          rw [Multiset.card_map, Multiset.card_cons, Multiset.card_map] at this
          change (pairSet (pre ++ [e])).card = (pairSet pre).card + 1 at this
          omega

theorem channelLoop_zero_iff (m : MidiReader) (t : Track) {l : List (Int × Event)} (hl : StoredOk l) :
    (channelLoop m ((0 : Nat) : Int) t [] l = .ok t ∧ pairSet (decode l) = ∅) ∨
    (channelLoop m ((0 : Nat) : Int) t [] l = .error .assertionError ∧ pairSet (decode l) ≠ ∅) := by
  rw [channelLoop_decode m _ 0 l hl.nonneg]
  rcases channelLoop_zero_spec m 0 (decode l) [] t [] RunInv.init with ⟨h1, h2⟩ | ⟨h1, h2⟩
  · rw [pairSet_nil, Finset.card_empty, List.nil_append, Finset.card_eq_zero] at h2
    exact Or.inl ⟨h1, h2⟩
  · rw [pairSet_nil, Finset.card_empty, List.nil_append, Finset.card_pos, Finset.nonempty_iff_ne_empty] at h2
    exact Or.inr ⟨h1, h2⟩

theorem buildTracks_of (m : MidiReader) (tpq : Nat) (S : ListSort)
    {sigs : Dict Int Signature} : ∀ (d : Dict Int (List (Int × Event))) (acc : Dict Int Track),
    ((acc.map Prod.fst) ++ (d.map Prod.fst)).Nodup →
    (∀ x ∈ d, ∃ t, channelLoop m tpq (Track.empty (channelSignature sigs x.1)) [] x.2 = .ok t ∧
      IsTrackOf S m.middleCDelta tpq sigs x (x.1, t)) →
    ∃ ts, buildTracks m tpq sigs d acc = .ok (acc ++ ts) ∧
      List.Forall₂ (IsTrackOf S m.middleCDelta tpq sigs) d ts := by
  intro d
  induction d with
  | nil => intro acc _ _; exact ⟨[], by rw [buildTracks, List.append_nil], List.Forall₂.nil⟩
  | cons x d ih =>
    obtain ⟨c, evs⟩ := x
    intro acc hn hd
    obtain ⟨t, h1, h2⟩ := hd (c, evs) (by simp)
    rw [List.map_cons] at hn
    have hc : c ∉ acc.map Prod.fst := by
      intro hc
      exact (List.nodup_append.1 hn).2.2 c hc c (by simp) rfl
    obtain ⟨ts, h3, h4⟩ := ih (acc ++ [(c, t)]) (by
      rw [List.map_append, List.append_assoc]; exact hn) (fun x hx => hd x (List.mem_cons_of_mem _ hx))
    refine ⟨(c, t) :: ts, ?_, List.Forall₂.cons h2 h4⟩
    rw [buildTracks, h1]
    change buildTracks m tpq sigs d (Dict.set acc c t) = _
    rw [Dict.set_new hc, h3, List.append_assoc]
    rfl

theorem buildTracks_all (m : MidiReader) (tpq : Int) {sigs : Dict Int Signature} :
    ∀ (d : Dict Int (List (Int × Event))) (acc ts : Dict Int Track), buildTracks m tpq sigs d acc = .ok ts →
    ∀ x ∈ d, ∃ t, channelLoop m tpq (Track.empty (channelSignature sigs x.1)) [] x.2 = .ok t := by
  intro d
  induction d with
  | nil => intro _ _ _ x hx; cases hx
  | cons y d ih =>
    obtain ⟨c, evs⟩ := y
    intro acc ts h x hx
    rw [buildTracks] at h
    rcases hc : channelLoop m tpq (Track.empty (channelSignature sigs c)) [] evs with e | t
    · rw [hc] at h; cases h
    · rw [hc] at h
      rcases List.mem_cons.1 hx with rfl | hx
      · exact ⟨t, hc⟩
      · exact ih _ _ h x hx

/-- The tracks the reader makes of events: one for each channel. -/
def TracksFor (S : ListSort) (m : MidiReader) (division : Nat) (es : List (Nat × Ev)) (ts : Dict Int Track) : Prop :=
  List.Forall₂ (IsTrackOf S m.middleCDelta division (coreOf es).sigs) (channelsOf (coreOf es).events) ts

omit [UnicodeDigits] in
theorem noNotes_channels {es : List (Nat × Ev)} {body : Bytes} (he : IsBody es body) :
    NoNotes es ↔ ∀ x ∈ channelsOf (coreOf es).events, pairSet (decode x.2) = ∅ := by
  have hok := (channelsOf_ok (coreOf_ok he).1).1
  constructor
  · intro h x hx
    obtain ⟨n, -, hn⟩ := hok.keys x hx
    obtain ⟨c, l⟩ := x
    simp only at hn
    subst hn
    rw [(hasChannel_of_mem he hx).2, Finset.eq_empty_iff_forall_notMem]
    intro y hy
    exact h n y.1 y.2 (mem_pairSet.1 hy)
  · intro h c i j hp
    have hne : noteEvents c 0 es ≠ [] := by
      intro h0
      rw [h0] at hp
      have := hp.lt
      simp at this
    obtain ⟨l, h1, h2⟩ := (channelsOf_body he c).1 (Or.inl hne)
    have := h _ (Dict.mem_of_get h1)
    simp only at this
    rw [h2] at this
    have hm : (i, j) ∈ pairSet (noteEvents c 0 es) := mem_pairSet.2 hp
    rw [this] at hm
    simp at hm

/-- Track chunks: the tracks exist if and only if the division is not zero or there are no notes. -/
theorem tracksOf_iff (S : ListSort) (m : MidiReader) (division : Nat) {es : List (Nat × Ev)} {body : Bytes}
    (he : IsBody es body) :
    ((division = 0 → NoNotes es) → ∃ ts, tracksOf m division (coreOf es).events (coreOf es).sigs = .ok ts ∧
      TracksFor S m division es ts) ∧
    (∀ ts, tracksOf m division (coreOf es).events (coreOf es).sigs = .ok ts → (division = 0 → NoNotes es)) := by
  obtain ⟨o1, o2⟩ := coreOf_ok he
  have hok := (channelsOf_ok o1).1
  rcases Nat.eq_zero_or_pos division with rfl | hd
  · constructor
    · intro h
      have h0 := (noNotes_channels he).1 (h rfl)
      rw [tracksOf_eq]
      obtain ⟨ts, h1, h2⟩ := buildTracks_of m 0 S (sigs := (coreOf es).sigs) (channelsOf (coreOf es).events) []
        (by simpa using hok.nodup) (by
        intro x hx
        rcases channelLoop_zero_iff m (Track.empty (channelSignature (coreOf es).sigs x.1)) (hok.stored x hx) with h | h
        · refine ⟨_, h.1, rfl, Track.Reachable.empty (channelSignature_valid o2 x.1), rfl, ?_⟩
          change (Track.empty _).contents = readNotes _ _ (decode x.2)
          unfold readNotes
          rw [h.2]
          rfl
        · exact absurd (h0 x hx) h.2)
      exact ⟨ts, h1, h2⟩
    · intro ts h _
      rw [tracksOf_eq] at h
      refine (noNotes_channels he).2 (fun x hx => ?_)
      obtain ⟨t, ht⟩ := buildTracks_all m _ _ _ _ h x hx
      rcases channelLoop_zero_iff m (Track.empty (channelSignature (coreOf es).sigs x.1)) (hok.stored x hx) with h' | h'
      · exact h'.2
      · rw [h'.1] at ht; cases ht
  · refine ⟨fun _ => ?_, fun _ _ h => by omega⟩
    exact tracksOf_ok m hd S o2 o1

/-! ### The track chunk -/

omit [UnicodeDigits] in
theorem coreOf_parse {es : List (Nat × Ev)} {body : Bytes} (h : Lenient none es body) :
    ∃ st r, L.parse ParseState.init body = .ok (st, r) ∧ st.channelEvents = (coreOf es).events ∧
      st.channelSignatures = (coreOf es).sigs := h.parse ParseState.init rfl

theorem parseTrack_lenient (S : ListSort) (m : MidiReader) {division : Nat} {es : List (Nat × Ev)} {body : Bytes}
    (h : Lenient none es body) (h0 : division = 0 → NoNotes es) :
    ∃ ts, m.parseTrack body division = .ok ts ∧ TracksFor S m division es ts := by
  obtain ⟨b, hb⟩ := body_exists h.wf
  obtain ⟨st, r, h1, h2, h3⟩ := coreOf_parse h
  obtain ⟨ts, h4, h5⟩ := (tracksOf_iff S m division hb).1 h0
  refine ⟨ts, ?_, h5⟩
  rw [parseTrack_eq, h1]
  change tracksOf m division st.channelEvents st.channelSignatures = _
  rw [h2, h3, h4]

theorem parseTrack_inv (S : ListSort) (m : MidiReader) {division : Nat} {body : Bytes} {ts : Dict Int Track}
    (h : m.parseTrack body division = .ok ts) :
    ∃ es, Lenient none es body ∧ (division = 0 → NoNotes es) ∧ TracksFor S m division es ts := by
  rw [parseTrack_eq] at h
  rcases hp : L.parse ParseState.init body with e | ⟨st, r⟩
  · rw [hp] at h; cases h
  · rw [hp] at h
    change tracksOf m division st.channelEvents st.channelSignatures = _ at h
    obtain ⟨es, h1, h2, h3⟩ := L.parse_lenient _ body le_rfl ParseState.init none rfl (fun s hs => (by cases hs)) st r hp
    change _ = (coreOf es).events at h2
    change _ = (coreOf es).sigs at h3
    rw [h2, h3] at h
    obtain ⟨b, hb⟩ := body_exists h1.wf
    have h0 := (tracksOf_iff S m division hb).2 ts h
    obtain ⟨ts', h4, h5⟩ := (tracksOf_iff S m division hb).1 h0
    rw [h4] at h
    cases h
    exact ⟨es, h1, h0, h5⟩

/-! ### The chunks -/

theorem handleChunk_goodHeader (m : MidiReader) (st : LoadState) {hi lo : UInt8} {tail : Bytes} (h : hi.toNat < 0x80) :
    m.handleChunk st kindMThd (0 :: 0 :: 0 :: 1 :: hi :: lo :: tail) =
      .ok { st with kind := some 0, tpq := some (hi.toNat * 256 + lo.toNat) } := by
  have hp : parseHeader (0 :: 0 :: 0 :: 1 :: hi :: lo :: tail) = .ok (0, 1, hi.toNat * 256 + lo.toNat) := by
    unfold parseHeader Reader.read
    simp only [bind, Except.bind, pure, Except.pure, List.length_cons]
    rw [if_neg (by omega)]
    simp only []
    rw [if_neg (by simp only [List.length_cons]; omega)]
    simp only []
    rw [if_neg (by simp only [List.length_cons]; omega)]
    simp only []
    have e : fromBytesBig [hi, lo] = hi.toNat * 256 + lo.toNat := by
      unfold fromBytesBig
      simp
    rw [← e]
    rfl
  rw [handleChunk_eq]
  unfold handleHeader
  have := lo.toNat_lt
  rw [if_pos (show kindMThd = Writer.tagMThd from rfl), hp]
  simp only [bind, Except.bind, pure, Except.pure]
  rw [if_neg (by simp), if_neg (by simp), if_neg (by omega)]
  unfold handleTrack
  simp only []
  rw [if_neg (by decide)]
  rfl

/-- The state of `load` corresponds to the last division and the last track. -/
structure Holds (S : ListSort) (m : MidiReader) (st : LoadState) (division : Option Nat)
    (music : Option (Nat × List (Nat × Ev))) : Prop where
  kind : st.kind = division.map (fun _ => 0)
  tpq : st.tpq = division
  header : music ≠ none → division ≠ none
  tracks : ∀ d es, music = some (d, es) → (∃ body, IsBody es body) ∧ ∃ ts, st.tracks = some ts ∧ TracksFor S m d es ts
  empty : music = none → st.tracks = none

theorem chunksRead_ok (S : ListSort) (m : MidiReader) {division : Option Nat} {music music' : Option (Nat × List (Nat × Ev))}
    {cs : List (Bytes × Bytes)} (h : ChunksRead division music cs music') : ∀ {file : Bytes} {st : LoadState},
    AllChunks file cs → Holds S m st division music →
    ∃ st' division', m.chunks st file = .ok st' ∧ Holds S m st' division' music' := by
  induction h with
  | nil division music =>
    intro file st hf hs
    cases hf
    exact ⟨st, division, rfl, hs⟩
  | @header division music music' hi lo tail cs hd h ih =>
    intro file st hf hs
    cases hf with
    | @cons _ top len _ rest _ hk hl hr =>
      rw [chunks_cons m st rest hk hl, handleChunk_goodHeader m st hd]
      exact ih hr ⟨rfl, rfl, fun _ => by simp, hs.tracks, hs.empty⟩
  | @track division music music' es body cs hb h0 h ih =>
    intro file st hf hs
    cases hf with
    | @cons _ top len _ rest _ hk hl hr =>
      obtain ⟨ts, h1, h2⟩ := parseTrack_lenient S m hb h0
      rw [chunks_cons m st rest hk hl, handleChunk_track m st hs.tpq, h1]
      exact ih (st := { st with tracks := some ts }) hr ⟨hs.kind, hs.tpq, fun _ => by simp,
        fun d es' he => (by cases he; exact ⟨body_exists hb.wf, ts, rfl, h2⟩), fun he => (by cases he)⟩
  | @other division music music' kind body cs k1 k2 h ih =>
    intro file st hf hs
    cases hf with
    | @cons _ top len _ rest _ hk hl hr =>
      rw [chunks_cons m st rest hk hl, handleChunk_unknown m st body k1 k2]
      exact ih hr hs

theorem chunksRead_of_ok (S : ListSort) (m : MidiReader) : ∀ (n : Nat) (file : Bytes), file.length ≤ n →
    ∀ st st' division music, m.chunks st file = .ok st' → Holds S m st division music →
    ∃ cs division' music', AllChunks file cs ∧ ChunksRead division music cs music' ∧ Holds S m st' division' music' := by
  intro n
  induction n with
  | zero =>
    intro file hf st st' division music h hs
    have : file = [] := List.length_eq_zero_iff.1 (by omega)
    subst this
    cases h
    exact ⟨[], division, music, .nil, .nil _ _, hs⟩
  | succ n ih =>
    intro file hf st st' division music h hs
    rcases chunks_cases m h with ⟨rfl, rfl⟩ | ⟨kind, top, len, body, rest, st1, h1, h2, rfl, h3, h4⟩
    · exact ⟨[], division, music, .nil, .nil _ _, hs⟩
    · have hlen : rest.length ≤ n := by
        simp only [List.length_append, List.length_cons] at hf
        omega
      by_cases c1 : kind = kindMThd
      · subst c1
        obtain ⟨hi, lo, tail, rfl, hh⟩ := (handleChunk_good h3).1 rfl
        rw [handleChunk_goodHeader m st hh] at h3
        cases h3
        obtain ⟨cs, division', music', j1, j2, j3⟩ := ih rest hlen _ st' _ music h4
          ⟨rfl, rfl, fun _ => by simp, hs.tracks, hs.empty⟩
        exact ⟨_, division', music', .cons h1 h2 j1, .header hh j2, j3⟩
      · by_cases c2 : kind = kindMTrk
        · subst c2
          have ht := (handleChunk_good h3).2.1 rfl
          rw [hs.tpq] at ht
          cases division with
          | none => exact absurd rfl ht
          | some d =>
            rw [handleChunk_track m st hs.tpq] at h3
            rcases hp : m.parseTrack body d with e | ts
            · rw [hp] at h3; cases h3
            · rw [hp] at h3
              cases h3
              obtain ⟨es, k1, k2, k3⟩ := parseTrack_inv S m hp
              obtain ⟨cs, division', music', j1, j2, j3⟩ := ih rest hlen _ st' (some d) (some (d, es)) h4
                ⟨hs.kind, hs.tpq, fun _ => by simp,
                  fun d' es' he => (by cases he; exact ⟨body_exists k1.wf, ts, rfl, k3⟩), fun he => (by cases he)⟩
              exact ⟨_, division', music', .cons h1 h2 j1, .track k1 k2 j2, j3⟩
        · rw [handleChunk_unknown m st body c1 c2] at h3
          cases h3
          obtain ⟨cs, division', music', j1, j2, j3⟩ := ih rest hlen _ st' _ music h4 hs
          exact ⟨_, division', music', .cons h1 h2 j1, .other c1 c2 j2, j3⟩

/-! ### The whole file -/

omit [UnicodeDigits] in
theorem holds_init (S : ListSort) (m : MidiReader) : Holds S m ⟨none, none, none⟩ none none :=
  ⟨rfl, rfl, fun h => absurd rfl h, fun _ _ h => (by cases h), fun _ => rfl⟩

/-- Loading a file of the grammar. -/
theorem load_reads (S : ListSort) (m : MidiReader) {file : Bytes} {division : Nat} {es : List (Nat × Ev)}
    (h : FileReads file division es) (channel : Option Int) :
    ∃ ts d, m.load S file channel = finish S channel ⟨some 0, some d, some ts⟩ ∧ TracksFor S m division es ts ∧
      ∃ body, IsBody es body := by
  obtain ⟨cs, h1, h2⟩ := h
  obtain ⟨st', division', h3, h4⟩ := chunksRead_ok S m h2 h1 (holds_init S m)
  obtain ⟨hb, ts, h5, h6⟩ := h4.tracks _ _ rfl
  have hk := h4.kind
  have ht := h4.tpq
  cases division' with
  | none => exact absurd rfl (h4.header (by simp))
  | some d =>
    refine ⟨ts, d, ?_, h6, hb⟩
    rw [load_eq, h3]
    obtain ⟨a, b, c⟩ := st'
    simp only at hk ht h5
    subst hk; subst ht; subst h5
    rfl

/-- A file that is loaded is in the grammar. -/
theorem reads_of_load (S : ListSort) (m : MidiReader) {file : Bytes} {channel : Option Int} {t : Track}
    (h : m.load S file channel = .ok t) : ∃ division es, FileReads file division es := by
  rw [load_eq] at h
  rcases hc : m.chunks ⟨none, none, none⟩ file with e | st
  · rw [hc] at h; cases h
  · rw [hc] at h
    obtain ⟨cs, division', music', j1, j2, j3⟩ := chunksRead_of_ok S m _ file le_rfl _ _ _ _ hc (holds_init S m)
    have := (finish_ok h).2
    rcases music' with _ | ⟨d, es⟩
    · exact absurd (j3.empty rfl) this
    · exact ⟨d, es, cs, j1, j2⟩

omit [UnicodeDigits] in
theorem TracksFor.ne {S : ListSort} {m : MidiReader} {division : Nat} {es : List (Nat × Ev)} {ts : Dict Int Track}
    (h : TracksFor S m division es ts) {body : Bytes} (he : IsBody es body) : ts.isEmpty = false := by
  cases hts : ts with
  | nil =>
    have hl := h.length_eq
    rw [hts, List.length_nil, List.length_eq_zero_iff] at hl
    exact absurd hl (channelsOf_ok (coreOf_ok he).1).2
  | cons _ _ => rfl

omit [UnicodeDigits] in
theorem finish_channel (S : ListSort) (m : MidiReader) {division d : Nat} {es : List (Nat × Ev)} {ts : Dict Int Track}
    (h2 : TracksFor S m division es ts) {body : Bytes} (he : IsBody es body) (c : Nat) :
    (HasChannel es c → ∃ t, finish S (some (c : Int)) ⟨some 0, some d, some ts⟩ = .ok t ∧ t.Reachable S ∧
      t.signature = signatureFor c es ∧ t.contents = readNotes m.middleCDelta division (noteEvents c 0 es)) ∧
    (¬ HasChannel es c → finish S (some (c : Int)) ⟨some 0, some d, some ts⟩ = .error .valueError) := by
  unfold finish
  simp only []
  rw [h2.ne he, if_neg (by simp)]
  obtain ⟨c1, c2⟩ := channelsOf_body he c
  constructor
  · intro hh
    obtain ⟨l, k1, k2⟩ := c1 hh
    rcases forall₂_track h2 c with ⟨e1, -⟩ | ⟨l', t, e1, e2, e3⟩
    · rw [k1] at e1; cases e1
    · rw [k1] at e1
      cases e1
      rw [e2]
      refine ⟨t, rfl, e3.reach, ?_, ?_⟩
      · rw [e3.sig]; exact channelSignature_body he c
      · rw [e3.contents, k2]
  · intro hh
    rcases forall₂_track h2 c with ⟨-, e2⟩ | ⟨l', t, e1, -, -⟩
    · rw [e2]
    · rw [c2 hh] at e1; cases e1

omit [UnicodeDigits] in
theorem finish_negative (S : ListSort) (m : MidiReader) {division d : Nat} {es : List (Nat × Ev)} {ts : Dict Int Track}
    (h2 : TracksFor S m division es ts) {body : Bytes} (he : IsBody es body) {c : Int} (hc : c < 0) :
    finish S (some c) ⟨some 0, some d, some ts⟩ = .error .valueError := by
  unfold finish
  simp only []
  rw [h2.ne he, if_neg (by simp)]
  rcases forall₂_track h2 c with ⟨-, e2⟩ | ⟨l', t, e1, -, -⟩
  · rw [e2]
  · obtain ⟨n, -, hn⟩ := (channelsOf_ok (coreOf_ok he).1).1.keys _ (Dict.mem_of_get e1)
    simp only at hn
    omega

omit [UnicodeDigits] in
theorem finish_all (S : ListSort) (m : MidiReader) {division d : Nat} {es : List (Nat × Ev)} {ts : Dict Int Track}
    (h2 : TracksFor S m division es ts) {body : Bytes} (he : IsBody es body) :
    ∃ t, finish S none ⟨some 0, some d, some ts⟩ = .ok t ∧ t.Reachable S ∧
      t.signature = ((channelsOf (coreOf es).events).map (fun x => channelSignature (coreOf es).sigs x.1)).foldl
        (fun acc s => if s.gt acc then s else acc) ⟨0, 1⟩ ∧
      t.contents = ∑ c ∈ Finset.range 16, readNotes m.middleCDelta division (noteEvents c 0 es) := by
  unfold finish
  simp only []
  rw [h2.ne he, if_neg (by simp)]
  have hr : ∀ x ∈ ts, x.2.Reachable S := by
    intro x hx
    obtain ⟨y, -, hy⟩ := forall₂_right h2 hx
    exact hy.reach
  obtain ⟨t, a1, a2, a3, a4⟩ := mergeTracks_ok S ts hr _ (Track.Reachable.empty (maxSignature_valid hr))
  refine ⟨t, a1, a2, ?_, ?_⟩
  · rw [a3, ← forall₂_sigs h2, List.foldl_map]; rfl
  · rw [a4, forall₂_contents h2, sum_channels he, contents_empty, add_zero]

end MidiReader
end Melodia
