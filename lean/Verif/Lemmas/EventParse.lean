/-
The parser on encoded events: which state it ends in.
-/
import Verif.Lemmas.ParserLaws
import Verif.Lemmas.Dict
import Verif.Spec.MidiRead

set_option autoImplicit false

namespace Melodia

/-- The parsed event. -/
def Ev.event : Ev → Event
  | .chan s data =>
    match data with
    | [p, v] => if s.toNat / 16 = 8 ∨ s.toNat / 16 = 9 then L.noteEvent s.toNat p.toNat v.toNat else .unsupported
    | _ => .unsupported
  | .sys _ _ => .unsupported
  | .mta k payload =>
    if k.toNat = 0x2F then .endOfTrack
    else match payload with
    | [a] => if k.toNat = 0x20 then .globalChannel a.toNat else .unsupported
    | [a, b, c, d] => if k.toNat = 0x58 then .timeSignature a.toNat b.toNat c.toNat d.toNat else .unsupported
    | _ => .unsupported

namespace L

theorem readVar_reads {n : Nat} {bs : Bytes} (h : VlqReads n bs) (l : Bytes) :
    readVar 0 (bs ++ l) = .ok (n, l) := by
  obtain ⟨⟨init, last, rfl, h1, h2⟩, hv⟩ := h
  rw [vlqValue_append] at hv
  rw [List.append_assoc, readVar_high _ _ _ h1]
  change readVar (vlqValue init) (last :: l) = _
  rw [readVar, if_pos h2]
  congr 2
  omega

theorem read_append {n : Nat} {a : Bytes} (h : a.length = n) (l : Bytes) : read n (a ++ l) = .ok (a, l) := by
  unfold read
  rw [if_neg (by rw [List.length_append]; omega), ← h, List.take_left, List.drop_left]

theorem readWith_chan {s : UInt8} {data : Bytes} (h : (Ev.chan s data).Wf) (l : Bytes) :
    readWith s.toNat (data ++ l) = .ok ((Ev.chan s data).event, l) := by
  obtain ⟨h1, h2, h3⟩ := h
  unfold readWith readStatus
  rw [if_neg (by omega)]
  by_cases hn : s.toNat / 16 = 8 ∨ s.toNat / 16 = 9
  · rw [if_pos hn]
    rw [if_neg (by omega)] at h3
    match data, h3 with
    | [p, v], _ =>
      simp only [Ev.event]
      rw [if_pos hn]
      rfl
  · rw [if_neg hn]
    have hd : dataLength s.toNat = some data.length := by
      unfold dataLength
      rw [h3, if_neg (by omega)]
      split_ifs <;> first | rfl | omega
    rw [hd]
    simp only []
    rw [read_append rfl]
    have he : (Ev.chan s data).event = .unsupported := by
      unfold Ev.event
      simp only []
      split
      · rw [if_neg hn]
      · rfl
    rw [he]
    rfl

theorem readWith_sys {s : UInt8} {data : Bytes} (h : (Ev.sys s data).Wf) (l : Bytes) :
    0x80 ≤ s.toNat ∧ readWith s.toNat (data ++ l) = .ok (.unsupported, l) := by
  have key : 0x80 ≤ s.toNat ∧ s.toNat ≠ 0xFF ∧ ¬ (s.toNat / 16 = 8 ∨ s.toNat / 16 = 9) ∧
      dataLength s.toNat = some data.length := by
    rcases h with ⟨h1, h2⟩ | ⟨h1, h2⟩ | ⟨h1, h2⟩ | ⟨h1, h2⟩
    · rw [h1, h2]; decide
    · rw [h1, h2]; decide
    · rw [h1, h2]; decide
    · subst h2
      have : ∀ n ∈ [0xF6, 0xF8, 0xFA, 0xFB, 0xFC, 0xFE], 0x80 ≤ n ∧ n ≠ 0xFF ∧ ¬ (n / 16 = 8 ∨ n / 16 = 9) ∧
        dataLength n = some 0 := by decide
      exact this _ h1
  obtain ⟨k1, k2, k3, k4⟩ := key
  refine ⟨k1, ?_⟩
  unfold readWith readStatus
  rw [if_neg k2, if_neg k3, k4]
  simp only []
  rw [read_append rfl]
  rfl

theorem readWith_mta {k : UInt8} {len payload : Bytes} (h : (Ev.mta k payload).Wf)
    (hl : VlqReads payload.length len) (l : Bytes) :
    readWith 0xFF (k :: (len ++ payload) ++ l) = .ok ((Ev.mta k payload).event, l) := by
  obtain ⟨h1, h2, h3⟩ := h
  unfold readWith readMeta
  rw [if_pos rfl, List.cons_append, read8]
  change (readVar 0 ((len ++ payload) ++ l) >>= _) = _
  rw [List.append_assoc, readVar_reads hl]
  change metaBody k.toNat payload.length (payload ++ l) = _
  unfold metaBody
  by_cases k1 : k.toNat = 0x2F
  · rw [if_pos k1, h1 k1, if_neg (by simp)]
    simp only [Ev.event]
    rw [if_pos k1]
    rfl
  · rw [if_neg k1]
    by_cases k2 : k.toNat = 0x20
    · rw [if_pos k2]
      match payload, h2 k2 with
      | [a], _ =>
        simp only [Ev.event]
        rw [if_neg k1, if_pos k2]
        rfl
    · rw [if_neg k2]
      by_cases k3 : k.toNat = 0x58
      · rw [if_pos k3]
        match payload, h3 k3 with
        | [a, b, c, d], _ =>
          simp only [Ev.event]
          rw [if_neg k1, if_pos k3]
          rfl
      · rw [if_neg k3, read_append rfl]
        have he : (Ev.mta k payload).event = .unsupported := by
          unfold Ev.event
          simp only []
          rw [if_neg k1]
          split
          · rw [if_neg k2]
          · rw [if_neg k3]
          · rfl
        rw [he]
        rfl

/-- The parser's previous status is the running status, if there is one. -/
def Agree (prev : Option UInt8) (p : Option Nat) : Prop := ∀ s, prev = some s → p = some s.toNat

theorem readEvent_ev {prev next : Option UInt8} {e : Ev} {bs : Bytes} (h : EvBytes prev e bs next) (hw : e.Wf)
    {p : Option Nat} (hp : Agree prev p) (l : Bytes) :
    ∃ p', readEvent p (bs ++ l) = .ok ((e.event, p'), l) ∧ Agree next p' := by
  cases h with
  | chan _ s data =>
    refine ⟨some s.toNat, ?_, fun t ht => by cases ht; rfl⟩
    rw [List.cons_append, readEvent, if_pos hw.1, readWith_chan hw]
    rfl
  | running s d data hd =>
    refine ⟨some s.toNat, ?_, fun t ht => by cases ht; rfl⟩
    have hps := hp s rfl
    subst hps
    rw [List.cons_append, readEvent, if_neg (by omega), readRunning]
    have := readWith_chan hw l
    rw [List.cons_append] at this
    rw [this]
    rfl
  | sys _ s data =>
    obtain ⟨h1, h2⟩ := readWith_sys hw l
    refine ⟨some s.toNat, ?_, fun t ht => by cases ht⟩
    rw [List.cons_append, readEvent, if_pos h1, h2]
    rfl
  | mta _ k len payload hl =>
    have h2 := readWith_mta hw hl l
    refine ⟨some 0xFF, ?_, fun t ht => by cases ht⟩
    rw [List.cons_append, readEvent, if_pos (by decide)]
    rw [show (255 : UInt8).toNat = 0xFF from rfl, h2]
    rfl

end L

/-! ### The state after a sequence of events -/

/-- The part of the parser state that depends on the events only. -/
structure Core where
  events : Dict Int (List (Int × Event))
  sigs : Dict Int Signature
  channel : Int
  time : Int

def ParseState.core (st : ParseState) : Core :=
  ⟨st.channelEvents, st.channelSignatures, st.globalChannel, st.lastTime⟩

/-- One event. -/
def Core.step (k : Core) (x : Nat × Ev) : Core :=
  match x.2.event with
  | .noteOn c p v => ⟨appendEvent k.events c (k.time + x.1, .noteOn c p v), k.sigs, k.channel, k.time + x.1⟩
  | .noteOff c p v => ⟨appendEvent k.events c (k.time + x.1, .noteOff c p v), k.sigs, k.channel, k.time + x.1⟩
  | .globalChannel c => ⟨k.events, k.sigs, c, k.time + x.1⟩
  | .timeSignature nn dd _ _ => ⟨k.events, k.sigs.set k.channel ⟨nn, 2 ^ dd⟩, k.channel, k.time + x.1⟩
  | .unsupported => { k with time := k.time + x.1 }
  | .endOfTrack => { k with time := k.time + x.1 }

theorem Ev.event_eot {e : Ev} (hw : e.Wf) : e.event = .endOfTrack ↔ e = .endOfTrack := by
  constructor
  · intro h
    unfold Ev.event at h
    split at h
    · split at h
      · split at h
        · unfold L.noteEvent at h; split at h <;> cases h
        · cases h
      · cases h
    · cases h
    · rename_i k payload
      split at h
      · rename_i hk
        rw [hw.1 hk]
        unfold Ev.endOfTrack
        congr 1
        exact UInt8.toNat.inj (by rw [hk]; rfl)
      · split at h
        · split at h <;> cases h
        · split at h <;> cases h
        · cases h
  · rintro rfl; rfl

namespace L

theorem next_core (st : ParseState) (d : Nat) {e : Ev} (hw : e.Wf) (he : e ≠ .endOfTrack) (p : Option Nat) :
    ∃ st', next st d (e.event, p) = .ok (st', false) ∧ st'.core = st.core.step (d, e) ∧
      st'.previousStatus = p := by
  unfold next Core.step handleEvent
  simp only []
  have hne : e.event ≠ .endOfTrack := fun h => he ((Ev.event_eot hw).1 h)
  rcases hev : e.event with _ | ⟨c, q, v⟩ | ⟨c, q, v⟩ | _ | ⟨nn, dd, cc, bb⟩ | c
  · exact ⟨_, rfl, rfl, rfl⟩
  · exact ⟨_, rfl, rfl, rfl⟩
  · exact ⟨_, rfl, rfl, rfl⟩
  · exact absurd hev hne
  · simp only []
    rw [Signature.new_ok (by omega) (pow2_shift dd)]
    refine ⟨_, rfl, ?_, rfl⟩
    simp only [ParseState.core]
    congr 2
    rw [Nat.one_shiftLeft]; push_cast; rfl
  · exact ⟨_, rfl, rfl, rfl⟩

theorem parse_step {prev next : Option UInt8} {d : Nat} {e : Ev} {v bs : Bytes} (hv : VlqReads d v)
    (hw : e.Wf) (he : EvBytes prev e bs next) (hne : e ≠ .endOfTrack) {st : ParseState}
    (hp : Agree prev st.previousStatus) (l : Bytes) :
    ∃ st', parse st (v ++ bs ++ l) = parse st' l ∧ st'.core = st.core.step (d, e) ∧
      Agree next st'.previousStatus := by
  obtain ⟨p', h1, h2⟩ := readEvent_ev he hw hp l
  obtain ⟨st', h3, h4, h5⟩ := next_core st d hw hne p'
  refine ⟨st', ?_, h4, by rw [h5]; exact h2⟩
  rw [parse_unfold, List.append_assoc, readVar_reads hv]
  change (readEvent _ (bs ++ l) >>= _) = _
  rw [h1]
  change (L.next _ _ _ >>= _) = _
  rw [h3]
  rfl

theorem parse_eot {prev next : Option UInt8} {d : Nat} {v bs : Bytes} (hv : VlqReads d v)
    (he : EvBytes prev .endOfTrack bs next) {st : ParseState} (l : Bytes) :
    ∃ st', parse st (v ++ bs ++ l) = .ok (st', l) ∧ st'.channelEvents = st.channelEvents ∧
      st'.channelSignatures = st.channelSignatures := by
  cases he with
  | mta _ _ len _ hl =>
    have hw : Ev.endOfTrack.Wf := by refine ⟨fun _ => rfl, ?_, ?_⟩ <;> intro h <;> cases h
    obtain ⟨p', h1, h2⟩ := readEvent_ev (EvBytes.mta none 0x2F len [] hl) hw
      (p := st.previousStatus) (fun s h => by cases h) l
    rw [parse_unfold, List.append_assoc, readVar_reads hv]
    change ∃ st', (readEvent _ _ >>= _) = _ ∧ _
    rw [h1]
    exact ⟨_, rfl, rfl, rfl⟩

/-- Events before the end of track are consumed one by one. -/
theorem parse_encodes {prev : Option UInt8} {es : List (Nat × Ev)} {bs : Bytes} (h : Encodes prev es bs) :
    (∀ x ∈ es, x.2 ≠ .endOfTrack) → ∀ (st : ParseState), Agree prev st.previousStatus → ∀ l,
    ∃ st', parse st (bs ++ l) = parse st' l ∧ st'.core = es.foldl Core.step st.core := by
  induction h with
  | nil prev => intro _ st hp l; exact ⟨st, rfl, rfl⟩
  | @cons prev next d e es v bs rest hv hw he h ih =>
    intro hne st hp l
    obtain ⟨st', h1, h2, h3⟩ := parse_step hv hw he (hne (d, e) (by simp)) hp (rest ++ l)
    obtain ⟨st'', h4, h5⟩ := ih (fun x hx => hne x (by simp [hx])) st' h3 l
    refine ⟨st'', ?_, ?_⟩
    · rw [List.append_assoc, h1, h4]
    · rw [h5, h2]; rfl

/-- A whole track body. -/
theorem parse_body : ∀ (es : List (Nat × Ev)) (prev : Option UInt8) (bs : Bytes) (d : Nat),
    Encodes prev (es ++ [(d, .endOfTrack)]) bs → (∀ x ∈ es, x.2 ≠ .endOfTrack) →
    ∀ (st : ParseState), Agree prev st.previousStatus → ∀ l, ∃ st', parse st (bs ++ l) = .ok (st', l) ∧
      st'.channelEvents = (es.foldl Core.step st.core).events ∧
      st'.channelSignatures = (es.foldl Core.step st.core).sigs := by
  intro es
  induction es with
  | nil =>
    intro prev bs d h _ st hp l
    cases h with
    | @cons _ next _ _ _ v bs' rest hv hw he h =>
      cases h
      rw [List.append_nil]
      exact parse_eot hv he l
  | cons x es ih =>
    intro prev bs d h hne st hp l
    cases h with
    | @cons _ next d' e _ v bs' rest hv hw he h =>
      obtain ⟨st', h1, h2, h3⟩ := parse_step hv hw he (hne (d', e) (by simp)) hp (rest ++ l)
      obtain ⟨st'', h4, h5, h6⟩ := ih next rest d h (fun x hx => hne x (by simp [hx])) st' h3 l
      refine ⟨st'', ?_, ?_, ?_⟩
      · rw [List.append_assoc, h1, h4]
      · rw [h5, h2]; rfl
      · rw [h6, h2]; rfl

end L

/-! ### What the state contains -/

/-- A note event as the parser stores it. -/
def NoteEv.stored (c : Nat) (e : NoteEv) : Int × Event :=
  (e.time, if e.on then .noteOn c e.pitch e.velocity else .noteOff c e.pitch e.velocity)

theorem Ev.note_event {e : Ev} (hw : e.Wf) :
    match e.note? with
    | some (c, on, p, v) => c < 16 ∧ (on = true → v ≠ 0) ∧
        e.event = if on then .noteOn c p v else .noteOff c p v
    | none => ∀ c p v, e.event ≠ .noteOn c p v ∧ e.event ≠ .noteOff c p v := by
  rcases e with ⟨s, data⟩ | ⟨s, data⟩ | ⟨k, payload⟩
  · by_cases h2 : data.length = 2
    · match data, h2 with
      | [p, v], _ =>
        simp only [Ev.note?, Ev.event, L.noteEvent]
        by_cases h9 : s.toNat / 16 = 9
        · by_cases hv : v.toNat = 0
          · simp only [h9, hv]
            simp
            omega
          · simp only [h9, hv]
            simp [hv]
            omega
        · by_cases h8 : s.toNat / 16 = 8
          · simp only [h8]
            simp
            omega
          · simp [h8, h9]
    · have e1 : (Ev.chan s data).note? = none := by
        unfold Ev.note?
        split
        · rename_i h; cases h; simp at h2
        · rfl
      have e2 : (Ev.chan s data).event = .unsupported := by
        unfold Ev.event
        simp only []
        split
        · simp at h2
        · rfl
      rw [e1, e2]
      simp
  · simp [Ev.note?, Ev.event]
  · simp only [Ev.note?, Ev.event]
    intro c p v
    split
    · simp
    · split
      · split <;> simp
      · split <;> simp
      · simp

/-- The events stored for channel `c`, given those stored before. -/
def storedAfter (before : Option (List (Int × Event))) (c : Nat) (evs : List NoteEv) :
    Option (List (Int × Event)) :=
  match evs with
  | [] => before
  | _ => some (before.getD [] ++ evs.map (NoteEv.stored c))

theorem Core.step_other {k : Core} {d : Nat} {e : Ev} (hw : e.Wf) (h : e.note? = none) :
    (k.step (d, e)).events = k.events := by
  have := Ev.note_event hw
  rw [h] at this
  unfold Core.step
  simp only []
  rcases hev : e.event with _ | ⟨c, q, v⟩ | ⟨c, q, v⟩ | _ | ⟨nn, dd, cc, bb⟩ | c <;> simp only []
  · exact absurd hev (this c q v).2
  · exact absurd hev (this c q v).1

theorem Core.step_note {k : Core} {d : Nat} {e : Ev} (hw : e.Wf) {c : Nat} {on : Bool} {p v : Nat}
    (h : e.note? = some (c, on, p, v)) :
    (k.step (d, e)).events = appendEvent k.events c
      (k.time + d, if on then .noteOn c p v else .noteOff c p v) := by
  have := Ev.note_event hw
  rw [h] at this
  obtain ⟨-, -, he⟩ := this
  unfold Core.step
  simp only [he]
  cases on <;> rfl

theorem Core.step_time (k : Core) (d : Nat) (e : Ev) : (k.step (d, e)).time = k.time + d := by
  unfold Core.step
  simp only []
  split <;> rfl

theorem appendEvent_get (d : Dict Int (List (Int × Event))) (c c' : Int) (x : Int × Event) :
    (appendEvent d c x).get c' = if c = c' then some ((d.get c').getD [] ++ [x]) else d.get c' := by
  unfold appendEvent
  rw [Dict.get_set]
  by_cases h : c = c'
  · subst h; simp
  · simp [h]

theorem storedAfter_cons (b : Option (List (Int × Event))) (c : Nat) (e : NoteEv) (evs : List NoteEv) :
    storedAfter b c (e :: evs) = storedAfter (some (b.getD [] ++ [e.stored c])) c evs := by
  cases evs with
  | nil => rfl
  | cons a as => simp [storedAfter]

theorem fold_events : ∀ (es : List (Nat × Ev)), (∀ x ∈ es, x.2.Wf) → ∀ (k : Core) (now : Nat), k.time = now →
    ∀ c : Nat, (es.foldl Core.step k).events.get c = storedAfter (k.events.get c) c (noteEvents c now es) := by
  intro es
  induction es with
  | nil => intros; rfl
  | cons x es ih =>
    obtain ⟨d, e⟩ := x
    intro hw k now hk c
    have hwe : e.Wf := hw (d, e) (by simp)
    rw [List.foldl_cons, ih (fun x hx => hw x (by simp [hx])) _ (now + d) (by rw [Core.step_time, hk]; push_cast; rfl) c]
    rw [noteEvents]
    cases h : e.note? with
    | none => simp only []; rw [Core.step_other hwe h]
    | some q =>
      obtain ⟨c', on, p, v⟩ := q
      simp only []
      rw [Core.step_note hwe h, appendEvent_get]
      by_cases hc : c' = c
      · subst hc
        rw [if_pos rfl, if_pos rfl, storedAfter_cons, hk]
        congr 3
      · rw [if_neg (by exact_mod_cast hc), if_neg hc]

theorem appendEvent_keys {d : Dict Int (List (Int × Event))} (h : (d.map Prod.fst).Nodup) (c : Int)
    (x : Int × Event) : ((appendEvent d c x).map Prod.fst).Nodup := Dict.set_nodup h _ _

theorem fold_keys : ∀ (es : List (Nat × Ev)), (∀ x ∈ es, x.2.Wf) → ∀ (k : Core),
    (k.events.map Prod.fst).Nodup → (∀ c ∈ k.events.map Prod.fst, ∃ n : Nat, n < 16 ∧ c = n) →
    ((es.foldl Core.step k).events.map Prod.fst).Nodup ∧
    (∀ c ∈ (es.foldl Core.step k).events.map Prod.fst, ∃ n : Nat, n < 16 ∧ c = n) := by
  intro es
  induction es with
  | nil => intro _ k h1 h2; exact ⟨h1, h2⟩
  | cons x es ih =>
    obtain ⟨d, e⟩ := x
    intro hw k h1 h2
    have hwe : e.Wf := hw (d, e) (by simp)
    rw [List.foldl_cons]
    apply ih (fun x hx => hw x (by simp [hx]))
    · cases h : e.note? with
      | none => rw [Core.step_other hwe h]; exact h1
      | some q =>
        obtain ⟨c', on, p, v⟩ := q
        rw [Core.step_note hwe h]
        exact appendEvent_keys h1 _ _
    · cases h : e.note? with
      | none => rw [Core.step_other hwe h]; exact h2
      | some q =>
        obtain ⟨c', on, p, v⟩ := q
        rw [Core.step_note hwe h]
        have hn := Ev.note_event hwe
        rw [h] at hn
        unfold appendEvent
        rw [Dict.set_keys]
        split
        · exact h2
        · intro c hc
          rw [List.mem_append, List.mem_singleton] at hc
          rcases hc with hc | hc
          · exact h2 c hc
          · exact ⟨c', hn.1, hc⟩

/-- The key under which signatures of a channel prefix are stored. -/
def prefixKey : Option Nat → Int
  | none => -1
  | some c => c

theorem prefixKey_inj {a b : Option Nat} (h : prefixKey a = prefixKey b) : a = b := by
  cases a <;> cases b <;> simp only [prefixKey] at h <;> first | rfl | omega | skip
  congr 1; omega

theorem fold_sigs : ∀ (es : List (Nat × Ev)), (∀ x ∈ es, x.2.Wf) → ∀ (k : Core) (pre : Option Nat),
    k.channel = prefixKey pre → ∀ c : Option Nat, (es.foldl Core.step k).sigs.get (prefixKey c) =
      match ((signatureEvents pre es).filter (fun x => x.1 = c)).getLast? with
      | some x => some x.2
      | none => k.sigs.get (prefixKey c) := by
  intro es
  induction es with
  | nil => intros; rfl
  | cons x es ih =>
    obtain ⟨d, e⟩ := x
    intro hw k pre hk c
    have hwe : e.Wf := hw (d, e) (by simp)
    have hws : ∀ x ∈ es, x.2.Wf := fun x hx => hw x (by simp [hx])
    rw [List.foldl_cons]
    -- events that are neither prefix nor signature
    have other : (k.step (d, e)).sigs = k.sigs → (k.step (d, e)).channel = k.channel →
        signatureEvents pre ((d, e) :: es) = signatureEvents pre es →
        (es.foldl Core.step (k.step (d, e))).sigs.get (prefixKey c) =
          match ((signatureEvents pre ((d, e) :: es)).filter (fun x => x.1 = c)).getLast? with
          | some x => some x.2
          | none => k.sigs.get (prefixKey c) := by
      intro h1 h2 h3
      rw [ih hws _ pre (by rw [h2, hk]) c, h3, h1]
    rcases e with ⟨s, data⟩ | ⟨s, data⟩ | ⟨q, payload⟩
    · apply other
      · unfold Core.step
        simp only [Ev.event]
        split <;> rename_i h <;> try rfl
        split at h
        · split at h
          · unfold L.noteEvent at h; split at h <;> cases h
          · cases h
        · cases h
      · unfold Core.step
        simp only [Ev.event]
        split <;> rename_i h <;> try rfl
        split at h
        · split at h
          · unfold L.noteEvent at h; split at h <;> cases h
          · cases h
        · cases h
      · rw [signatureEvents]
        · intro a b h; cases h
        · intro a b c d e h; cases h
    · exact other rfl rfl (by rw [signatureEvents] <;> intros <;> contradiction)
    · by_cases k1 : q.toNat = 0x2F
      · have hp := hwe.1 k1
        subst hp
        apply other
        · simp [Core.step, Ev.event, k1]
        · simp [Core.step, Ev.event, k1]
        · rw [signatureEvents] <;> (intros; rename_i h; injection h; contradiction)
      · by_cases k2 : q.toNat = 0x20
        · match payload, hwe.2.1 k2 with
          | [a], _ =>
            have h1 : k.step (d, .mta q [a]) = ⟨k.events, k.sigs, a.toNat, k.time + d⟩ := by
              simp [Core.step, Ev.event, k2]
            rw [h1, signatureEvents, if_pos k2]
            exact ih hws _ (some a.toNat) rfl c
        · by_cases k3 : q.toNat = 0x58
          · match payload, hwe.2.2 k3 with
            | [a, b, x, y], _ =>
              have h1 : k.step (d, .mta q [a, b, x, y]) =
                  ⟨k.events, k.sigs.set k.channel ⟨a.toNat, 2 ^ b.toNat⟩, k.channel, k.time + d⟩ := by
                simp [Core.step, Ev.event, k3]
              rw [h1, signatureEvents, if_pos k3, ih hws ⟨k.events, k.sigs.set k.channel ⟨a.toNat, 2 ^ b.toNat⟩,
                k.channel, k.time + d⟩ pre hk c]
              simp only []
              rw [Dict.get_set, hk, List.filter_cons]
              by_cases hc : pre = c
              · subst hc
                simp only [decide_true, if_true]
                rw [List.getLast?_cons]
                cases ((signatureEvents pre es).filter (fun x => x.1 = pre)).getLast? <;> rfl
              · rw [if_neg (fun h => hc (prefixKey_inj h))]
                simp [hc]
          · have he : (Ev.mta q payload).event = .unsupported := by
              unfold Ev.event
              simp only []
              rw [if_neg k1]
              split
              · rw [if_neg k2]
              · rw [if_neg k3]
              · rfl
            apply other
            · simp [Core.step, he]
            · simp [Core.step, he]
            · match payload with
              | [] => rw [signatureEvents] <;> (intros; rename_i h; injection h; contradiction)
              | [a] => rw [signatureEvents, if_neg k2]
              | [a, b] => rw [signatureEvents] <;> (intros; rename_i h; injection h with _ h; simp at h)
              | [a, b, c] => rw [signatureEvents] <;> (intros; rename_i h; injection h with _ h; simp at h)
              | [a, b, c, d] => rw [signatureEvents, if_neg k3]
              | a :: b :: c :: d :: f :: l =>
                rw [signatureEvents] <;> (intros; rename_i h; injection h with _ h; simp at h)

end Melodia
