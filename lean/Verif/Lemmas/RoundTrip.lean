/-
Lemmas for writing a track and reading it back.
-/
import Verif.Spec.RoundTrip
import Verif.Props.MidiRead
import Mathlib.Data.Nat.Factorization.Basic

set_option autoImplicit false

namespace Melodia

/-! ### Messages as events -/

/-- The event of a message. -/
def Msg.ev : Msg → Ev
  | .timeSignature nn dd cc bb => .mta 0x58 [UInt8.ofNat nn, UInt8.ofNat dd, UInt8.ofNat cc, UInt8.ofNat bb]
  | .tempo t => .mta 0x51 [UInt8.ofNat (t / 65536), UInt8.ofNat (t / 256), UInt8.ofNat t]
  | .noteOn c p v => .chan (UInt8.ofNat (0x90 + c)) [UInt8.ofNat p, UInt8.ofNat v]
  | .noteOff c p v => .chan (UInt8.ofNat (0x80 + c)) [UInt8.ofNat p, UInt8.ofNat v]
  | .endOfTrack => Ev.endOfTrack

/-- The events of messages with delta times. -/
def msgEvs (es : List (Nat × Msg)) : List (Nat × Ev) := es.map (fun x => (x.1, x.2.ev))

theorem Msg.ev_wf {m : Msg} (h : m.InRange) : m.ev.Wf := by
  cases m with
  | timeSignature nn dd cc bb => exact ⟨fun h => absurd h (by decide), fun h => absurd h (by decide), fun _ => rfl⟩
  | tempo t => exact ⟨fun h => absurd h (by decide), fun h => absurd h (by decide), fun h => absurd h (by decide)⟩
  | noteOn c p v =>
    obtain ⟨h1, -, -⟩ := h
    have : (UInt8.ofNat (0x90 + c)).toNat = 0x90 + c := toNat_ofNat_lt (by omega)
    exact wf_chan_note (by omega) (by omega)
  | noteOff c p v =>
    obtain ⟨h1, -, -⟩ := h
    have : (UInt8.ofNat (0x80 + c)).toNat = 0x80 + c := toNat_ofNat_lt (by omega)
    exact wf_chan_note (by omega) (by omega)
  | endOfTrack => exact ⟨fun _ => rfl, by decide, by decide⟩

theorem Msg.ev_bytes (m : Msg) (prev : Option UInt8) : ∃ next, EvBytes prev m.ev m.bytes next := by
  cases m with
  | timeSignature nn dd cc bb =>
    exact ⟨_, EvBytes.mta prev 0x58 [4] _ (vlqReads_one (n := 4) (by norm_num))⟩
  | tempo t => exact ⟨_, EvBytes.mta prev 0x51 [3] _ (vlqReads_one (n := 3) (by norm_num))⟩
  | noteOn c p v => exact ⟨_, EvBytes.chan prev _ _⟩
  | noteOff c p v => exact ⟨_, EvBytes.chan prev _ _⟩
  | endOfTrack => exact ⟨_, EvBytes.mta prev 0x2F [0] [] (vlqReads_one (n := 0) (by norm_num))⟩

theorem IsVlq.reads {n : Nat} {bs : Bytes} (h : IsVlq n bs) : VlqReads n bs := ⟨h.shape, h.value⟩

theorem TrackBody.encodes {es : List (Nat × Msg)} {bs : Bytes} (h : TrackBody es bs) :
    ∀ prev, Encodes prev (msgEvs es) bs := by
  induction h with
  | nil => intro prev; exact Encodes.nil prev
  | @cons d m es v bs hv hr h ih =>
    intro prev
    obtain ⟨next, hn⟩ := m.ev_bytes prev
    exact Encodes.cons hv.reads (Msg.ev_wf hr) hn (ih next)

/-- Note messages of a channel. -/
def IsNoteOf (c : Nat) (m : Msg) : Prop := ∃ p v, m = .noteOn c p v ∨ m = .noteOff c p v

theorem IsNoteOf.note? {c : Nat} {m : Msg} (h : IsNoteOf c m) (hr : m.InRange) (t : Nat) :
    m.ev.note? = some (c, (Msg.noteEv (t, m)).on, (Msg.noteEv (t, m)).pitch, (Msg.noteEv (t, m)).velocity) := by
  obtain ⟨p, v, rfl | rfl⟩ := h
  · obtain ⟨h1, h2, h3⟩ := hr
    have e1 : (UInt8.ofNat (0x90 + c)).toNat = 0x90 + c := toNat_ofNat_lt (by omega)
    have e2 : (UInt8.ofNat p).toNat = p := toNat_ofNat_lt (by omega)
    have e3 : (UInt8.ofNat v).toNat = v := toNat_ofNat_lt (by omega)
    unfold Msg.ev Ev.note?
    simp only [e1, e2, e3, Msg.noteEv]
    have q1 : (0x90 + c) / 16 = 9 := by omega
    have q2 : (0x90 + c) % 16 = c := by omega
    rw [q1, q2]
    by_cases hv : v = 0
    · rw [if_neg (by simp [hv]), if_pos (by simp)]; simp [hv]
    · rw [if_pos ⟨rfl, hv⟩]; simp [hv]
  · obtain ⟨h1, h2, h3⟩ := hr
    have e1 : (UInt8.ofNat (0x80 + c)).toNat = 0x80 + c := toNat_ofNat_lt (by omega)
    have e2 : (UInt8.ofNat p).toNat = p := toNat_ofNat_lt (by omega)
    have e3 : (UInt8.ofNat v).toNat = v := toNat_ofNat_lt (by omega)
    unfold Msg.ev Ev.note?
    simp only [e1, e2, e3, Msg.noteEv]
    have q1 : (0x80 + c) / 16 = 8 := by omega
    have q2 : (0x80 + c) % 16 = c := by omega
    rw [q1, q2, if_neg (by simp), if_pos (by simp)]

theorem noteEvents_msgs {c : Nat} : ∀ (es : List (Nat × Msg)) (now : Nat), (∀ x ∈ es, IsNoteOf c x.2 ∧ x.2.InRange) →
    noteEvents c now (msgEvs es) = (absoluteTimes now es).map Msg.noteEv ∧
    ∀ k, k ≠ c → noteEvents k now (msgEvs es) = [] := by
  intro es
  induction es with
  | nil => intro now _; exact ⟨rfl, fun _ _ => rfl⟩
  | cons x es ih =>
    obtain ⟨d, m⟩ := x
    intro now h
    obtain ⟨h1, h2⟩ := h (d, m) (by simp)
    obtain ⟨i1, i2⟩ := ih (now + d) (fun x hx => h x (List.mem_cons_of_mem _ hx))
    have hn := h1.note? h2 (now + d)
    constructor
    · change noteEvents c now ((d, m.ev) :: msgEvs es) = _
      rw [noteEvents, hn]
      simp only [if_true]
      rw [i1, absoluteTimes, List.map_cons]
      obtain ⟨p, v, rfl | rfl⟩ := h1 <;> rfl
    · intro k hk
      change noteEvents k now ((d, m.ev) :: msgEvs es) = _
      rw [noteEvents, hn]
      simp only
      rw [if_neg (Ne.symm hk)]
      exact i2 k hk

theorem signatureEvents_notes {c : Nat} : ∀ (es : List (Nat × Msg)) (pre : Option Nat), (∀ x ∈ es, IsNoteOf c x.2) →
    signatureEvents pre (msgEvs es) = [] := by
  intro es
  induction es with
  | nil => intro _ _; rfl
  | cons x es ih =>
    obtain ⟨d, m⟩ := x
    intro pre h
    obtain ⟨p, v, rfl | rfl⟩ := h (d, m) (by simp) <;>
      exact ih pre (fun x hx => h x (List.mem_cons_of_mem _ hx))

/-! ### What a dump contains, as the reader sees it -/

/-- The events of a written track, without the end of track. -/
def writtenEvs (w : Writer) (s : Signature) (tempo : Nat) (items : List Entry) : List (Nat × Ev) :=
  msgEvs ([(0, Writer.sigMsg w s), (0, .tempo tempo)] ++ Writer.deltaMsgs 0 (Writer.sortedMsgs w items))

theorem deltaMsgs_note {w : Writer} {items : List Entry} :
    ∀ x ∈ Writer.deltaMsgs 0 (Writer.sortedMsgs w items), IsNoteOf w.channel.toNat x.2 := by
  intro x hx
  obtain ⟨y, hy, e⟩ := Writer.mem_deltaMsgs _ _ _ hx
  obtain ⟨z, -, h⟩ := Writer.mem_sortedMsgs.1 hy
  rw [← e]
  rcases h with rfl | rfl
  · exact ⟨_, _, Or.inl rfl⟩
  · exact ⟨_, _, Or.inr rfl⟩

/-- The body written for a track. -/
def writtenBody (w : Writer) (s : Signature) (tempo : Nat) (items : List Entry) : Bytes :=
  Writer.bodyBytes (Writer.allMsgs w s tempo items)

theorem writtenBody_isBody {w : Writer} (hw : w.Valid) {s : Signature} (hs : s.Valid) {items : List Entry}
    (hv : ∀ e ∈ items, e.1.Valid ∧ e.2.Valid) (hp : ∀ e ∈ items, e.2.PitchOk w.middleCDelta)
    (hf : SignatureFits s) (hq : w.ppq ≤ 255) {t : Nat} (ht : TempoFits w.bpm t) :
    IsBody (writtenEvs w s t items) (writtenBody w s t items) := by
  constructor
  · intro x hx
    obtain ⟨y, hy, rfl⟩ := List.mem_map.1 hx
    rcases List.mem_append.1 hy with hy | hy
    · simp only [List.mem_cons, List.not_mem_nil, or_false] at hy
      rcases hy with rfl | rfl
      · simp [Writer.sigMsg, Msg.ev, Ev.endOfTrack]
      · simp [Msg.ev, Ev.endOfTrack]
    · obtain ⟨p, v, e | e⟩ := deltaMsgs_note y hy <;> simp [e, Msg.ev, Ev.endOfTrack]
  · refine ⟨0, ?_⟩
    have h := (Writer.bodyBytes_spec _ (Writer.msgs_inRange hw hs hv hp hf hq ht)).encodes none
    unfold Writer.allMsgs msgEvs at h
    rw [List.map_append] at h
    exact h

theorem writtenEvs_noteEvents {w : Writer} (hw : w.Valid) {s : Signature} (hs : s.Valid) {items : List Entry}
    (hv : ∀ e ∈ items, e.1.Valid ∧ e.2.Valid) (hp : ∀ e ∈ items, e.2.PitchOk w.middleCDelta)
    (hf : SignatureFits s) (hq : w.ppq ≤ 255) {t : Nat} (ht : TempoFits w.bpm t) :
    noteEvents w.channel.toNat 0 (writtenEvs w s t items) = (Writer.sortedMsgs w items).map Msg.noteEv ∧
    ∀ k, k ≠ w.channel.toNat → noteEvents k 0 (writtenEvs w s t items) = [] := by
  have hr := Writer.msgs_inRange hw hs hv hp hf hq ht
  have h := noteEvents_msgs (c := w.channel.toNat) (Writer.deltaMsgs 0 (Writer.sortedMsgs w items)) 0
    (fun x hx => ⟨deltaMsgs_note x hx, hr x (List.mem_append_left _ (List.mem_append_right _ hx))⟩)
  rw [Writer.absoluteTimes_deltaMsgs _ 0 (Writer.sortedMsgs_sorted w _) (fun _ _ => Nat.zero_le _)] at h
  exact h

theorem writtenEvs_signature {w : Writer} {s : Signature} (hs : s.Valid) {items : List Entry}
    (hf : SignatureFits s) {t : Nat} (c : Nat) : signatureFor c (writtenEvs w s t items) = s := by
  have h : signatureEvents none (writtenEvs w s t items) = [(none, s)] := by
    have hn := hs.nom
    obtain ⟨f1, f2⟩ := (Writer.signatureFits_iff hs).1 hf
    have hd := (Writer.log2Den_spec hs).1
    change ((none : Option Nat), (⟨((UInt8.ofNat s.nominator.toNat).toNat : Int),
      2 ^ (UInt8.ofNat (Writer.log2Den s)).toNat⟩ : Signature)) ::
        signatureEvents none (msgEvs (Writer.deltaMsgs 0 (Writer.sortedMsgs w items))) = _
    rw [signatureEvents_notes (c := w.channel.toNat) _ _ deltaMsgs_note, toNat_ofNat_lt (by omega), toNat_ofNat_lt (by omega),
      Int.toNat_of_nonneg hn, ← hd]
  unfold signatureFor
  rw [h]
  rfl

/-! ### The file -/

theorem headerBytes_length (w : Writer) : (Writer.headerBytes w).length = 14 := by
  unfold Writer.headerBytes
  rw [List.length_append, List.length_reverse, natLE_length]
  rfl

theorem writtenFile_isFile {w : Writer} (hw : w.Valid) {body : Bytes} (hl : body.length < 2 ^ 32) :
    IsFile w.ppq.toNat body
      (Writer.headerBytes w ++ (Writer.tagMTrk ++ (natLE 4 body.length).reverse ++ body)) := by
  have h1 := hw.ppqPos
  have h2 := hw.ppqMax
  have hd : IsBigEndian 2 w.ppq.toNat (natLE 2 w.ppq.toNat).reverse :=
    ⟨by rw [List.length_reverse, natLE_length], fromBytesBig_natLE 2 _ (by norm_num; omega)⟩
  refine ⟨(natLE 2 w.ppq.toNat).reverse, Writer.headerBytes w, _, hd,
    ⟨[0, 0, 0, 6], ⟨rfl, ?_⟩, ?_⟩, ⟨(natLE 4 body.length).reverse,
      ⟨by rw [List.length_reverse, natLE_length], fromBytesBig_natLE 4 _ (by norm_num; omega)⟩, rfl⟩, rfl⟩
  · rw [List.length_append, hd.1]; rfl
  · unfold Writer.headerBytes kindMThd
    simp

/-- The file written for a track, as the reader sees it. -/
theorem dumps_file {S : ListSort} {w : Writer} (hw : w.Valid) {t : Track} (ht : t.WF) {bytes : Bytes}
    (h : w.dumps S t = .ok bytes) :
    ∃ es body, IsFile w.ppq.toNat body bytes ∧ IsBody es body ∧ bytes.length = body.length + 22 ∧
      0 < w.ppq.toNat ∧ w.ppq.toNat ≤ 255 ∧
      noteEvents w.channel.toNat 0 es = (Writer.sortedMsgs w (t.items S)).map Msg.noteEv ∧
      (∀ k, k ≠ w.channel.toNat → noteEvents k 0 es = []) ∧
      (∀ c, signatureFor c es = t.signature) ∧ (∀ e ∈ t.items S, e.2.PitchOk w.middleCDelta) ∧
      SignatureFits t.signature := by
  obtain ⟨h1, h2, h3, tempo, h4, h5, rfl⟩ := Writer.dumps_success hw ht h
  have hv := Track.items_valid S ht
  have hq := hw.ppqPos
  obtain ⟨n1, n2⟩ := writtenEvs_noteEvents hw ht.sig hv h1 h2 h3 h4
  refine ⟨writtenEvs w t.signature tempo (t.items S), _, writtenFile_isFile hw h5,
    writtenBody_isBody hw ht.sig hv h1 h2 h3 h4, ?_, by omega, by omega, n1, n2,
    fun c => writtenEvs_signature ht.sig h2 c, h1, h2⟩
  rw [List.length_append, List.length_append, List.length_append, headerBytes_length, List.length_reverse, natLE_length]
  change 14 + (4 + 4 + _) = _
  omega

/-! ### Pairing what was arranged -/

/-- The note events of arranged messages pair up to the notes they were written for. -/
theorem pairSet_arranged {w : Writer} {items : List Entry} {ms : List (Nat × Msg)} (ha : Arranged w items ms)
    (hp : ∀ e ∈ items, e.2.PitchOk w.middleCDelta) (hv : ∀ e ∈ items, 1 ≤ velByte e.2.velocity)
    (ht : items.Pairwise (fun a b => a.2.tone.pitch = b.2.tone.pitch → a.offTime w.ppq ≤ b.onTime w.ppq))
    {β : Type} (f : NoteEv → NoteEv → β) :
    (pairSet (ms.map Msg.noteEv)).val.map (fun x => f ((ms.map Msg.noteEv).getD x.1 default)
        ((ms.map Msg.noteEv).getD x.2 default)) =
      (items.map (fun e => f (Msg.noteEv (Entry.msg w e false)) (Msg.noteEv (Entry.msg w e true))) : Multiset β) := by
  obtain ⟨place, h1, h2, h3⟩ := ha
  set evs := ms.map Msg.noteEv with hevs
  have hlen : evs.length = ms.length := by rw [hevs, List.length_map]
  have hget : ∀ x : Fin items.length × Bool, evs[(place x).val]? = some (Msg.noteEv (Entry.msg w items[x.1] x.2)) := by
    intro x
    rw [hevs, List.getElem?_map, List.getElem?_eq_getElem (place x).isLt, Option.map_some]
    have := h1 x.1 x.2
    rw [← this]
    rfl
  -- events by their place
  have hon : ∀ (i : Fin items.length), (Msg.noteEv (Entry.msg w items[i] false)).on = true := by
    intro i
    have := hv items[i] (List.getElem_mem _)
    change decide (_ ≠ 0) = true
    rw [decide_eq_true_iff]
    change velByte items[i].2.velocity ≠ 0
    omega
  have hoff : ∀ (i : Fin items.length), (Msg.noteEv (Entry.msg w items[i] true)).on = false := fun i => rfl
  have hpitch : ∀ (i j : Fin items.length) (a b : Bool), (Msg.noteEv (Entry.msg w items[i] a)).pitch =
      (Msg.noteEv (Entry.msg w items[j] b)).pitch → items[i].2.tone.pitch = items[j].2.tone.pitch := by
    intro i j a b h
    have e : ∀ (i : Fin items.length) (a : Bool), (Msg.noteEv (Entry.msg w items[i] a)).pitch =
        (items[i].2.midiPitch w.middleCDelta).toNat := by intro i a; cases a <;> rfl
    rw [e, e] at h
    have p1 := (hp items[i] (List.getElem_mem _)).1
    have p2 := (hp items[j] (List.getElem_mem _)).1
    unfold Note.midiPitch at *
    omega
  have hat : ∀ (p : Nat) (b : Bool) (k : Nat), IsAt evs p b k → ∃ i : Fin items.length, k = (place (i, !b)).val ∧
      (Msg.noteEv (Entry.msg w items[i] (!b))).pitch = p := by
    intro p b k hk
    have hl : k < ms.length := by rw [← hlen]; exact hk.lt
    obtain ⟨x, hx⟩ := place.surjective ⟨k, hl⟩
    obtain ⟨i, a⟩ := x
    obtain ⟨e, e1, e2, e3⟩ := hk
    have hk' : k = (place (i, a)).val := by rw [hx]
    rw [hk', hget (i, a)] at e1
    cases e1
    cases a with
    | false => rw [hon i] at e2; subst e2; exact ⟨i, hk', e3⟩
    | true => rw [hoff i] at e2; subst e2; exact ⟨i, hk', e3⟩
  have hAt : ∀ (i : Fin items.length) (b : Bool), IsAt evs (Msg.noteEv (Entry.msg w items[i] (!b))).pitch b
      (place (i, !b)).val := by
    intro i b
    refine ⟨_, hget (i, !b), ?_, rfl⟩
    cases b with
    | false => exact hoff i
    | true => exact hon i
  -- notes of one pitch come one after another
  have hturn : ∀ i j : Fin items.length, i < j → items[i].2.tone.pitch = items[j].2.tone.pitch →
      place (i, true) < place (j, false) := by
    intro i j hij hpij
    exact h3 i j true false hij (List.pairwise_iff_getElem.1 ht i.val j.val i.isLt j.isLt hij hpij)
  have hsame : ∀ (i : Fin items.length) (a b : Bool), (Msg.noteEv (Entry.msg w items[i] a)).pitch =
      (Msg.noteEv (Entry.msg w items[i] b)).pitch := by intro i a b; cases a <;> cases b <;> rfl
  have hpair : ∀ k : Fin items.length, IsPair evs (place (k, false)).val (place (k, true)).val := by
    intro k
    refine ⟨(Msg.noteEv (Entry.msg w items[k] false)).pitch, ⟨hAt k true, ?_⟩, h2 k, hAt k false, ?_⟩
    · intro l hl hat'
      obtain ⟨i, e1, e2⟩ := hat _ _ _ hat'
      rw [Bool.not_true] at e1 e2
      have hpk := hpitch i k _ _ e2
      subst e1
      rcases lt_trichotomy i k with hik | hik | hik
      · refine ⟨(place (i, true)).val, h2 i, hturn i k hik hpk, ?_⟩
        rw [← e2]
        exact hAt i false
      · subst hik; exact absurd hl (lt_irrefl _)
      · have := hturn k i hik hpk.symm
        have := h2 k
        have : (place (k, false)).val < (place (i, false)).val := by
          exact lt_trans (h2 k) (hturn k i hik hpk.symm)
        omega
    · intro l hl1 hl2 hat'
      obtain ⟨i, e1, e2⟩ := hat _ _ _ hat'
      rw [Bool.not_false] at e1 e2
      have hpk := hpitch i k _ _ e2
      subst e1
      rcases lt_trichotomy i k with hik | hik | hik
      · have : (place (i, true)).val < (place (k, false)).val := hturn i k hik hpk
        omega
      · subst hik; exact absurd hl2 (lt_irrefl _)
      · have : (place (k, true)).val < (place (i, true)).val := lt_trans (hturn k i hik hpk.symm) (h2 i)
        omega
  have hconv : ∀ i j, IsPair evs i j → ∃ k : Fin items.length, i = (place (k, false)).val ∧ j = (place (k, true)).val := by
    intro i j h
    obtain ⟨p, hs, -⟩ := id h
    obtain ⟨k, e1, -⟩ := hat _ _ _ hs.1
    rw [Bool.not_true] at e1
    exact ⟨k, e1, (C49_pairs_unique h (hpair k)).1 e1⟩
  -- the set of pairs
  let g : Fin items.length → Nat × Nat := fun k => ((place (k, false)).val, (place (k, true)).val)
  have hinj : Function.Injective g := by
    intro a b hab
    have h := (Prod.mk.inj hab).1
    have := place.injective (Fin.ext h)
    exact (Prod.mk.inj this).1
  have hset : pairSet evs = Finset.univ.map ⟨g, hinj⟩ := by
    classical
    ext ⟨i, j⟩
    unfold pairSet
    rw [Finset.mem_filter, Finset.mem_product, Finset.mem_range, Finset.mem_range, Finset.mem_map]
    constructor
    · rintro ⟨-, h⟩
      obtain ⟨k, rfl, rfl⟩ := hconv i j h
      exact ⟨k, Finset.mem_univ _, rfl⟩
    · rintro ⟨k, -, hk⟩
      cases hk
      exact ⟨⟨by rw [hlen]; exact (place (k, false)).isLt, by rw [hlen]; exact (place (k, true)).isLt⟩, hpair k⟩
  rw [hset, Finset.map_val, Multiset.map_map]
  have e2 : items.map (fun e => f (Msg.noteEv (Entry.msg w e false)) (Msg.noteEv (Entry.msg w e true))) =
      (List.finRange items.length).map (fun k => f (Msg.noteEv (Entry.msg w items[k] false))
        (Msg.noteEv (Entry.msg w items[k] true))) := by
    conv_lhs => rw [show items = (List.finRange items.length).map (fun k => items[k]) by simp]
    rw [List.map_map]
    rfl
  rw [e2]
  change _ = Multiset.map _ (Finset.univ : Finset (Fin items.length)).val
  refine Multiset.map_congr rfl ?_
  intro k _
  change f (evs.getD (place (k, false)).val default) (evs.getD (place (k, true)).val default) = _
  rw [List.getD_eq_getElem?_getD, List.getD_eq_getElem?_getD, hget (k, false), hget (k, true)]
  rfl

/-! ### The grid is exact -/

/-- Times that are whole pulses survive the grid of 1/16384 notes, for the divisions the writer accepts. -/
theorem gridSignature_exact {ppq : Nat} (h0 : 0 < ppq) (h1 : ppq ≤ 255) {s : Signature} (hs : s.Valid) {k : Nat}
    (hk : 4 * (ppq : ℚ) * s.val = k) : gridSignature ppq k = .lowest s.nominator s.denominator := by
  obtain ⟨a, ha⟩ := hs.den
  have hn := hs.nom
  obtain ⟨n, hn'⟩ : ∃ n : Nat, s.nominator = n := ⟨s.nominator.toNat, by omega⟩
  -- in integers
  have hk' : 4 * ppq * n = k * 2 ^ a := by
    unfold Signature.val at hk
    rw [ha, hn'] at hk
    push_cast at hk
    have h2 : (0 : ℚ) < 2 ^ a := by positivity
    field_simp at hk
    rw [mul_comm k]
    exact_mod_cast hk
  -- 2^a divides 2^14 n
  have hdvd : 2 ^ a ∣ 16384 * n := by
    obtain ⟨v, o, ho, hv⟩ := Nat.exists_eq_two_pow_mul_odd (n := ppq) (by omega)
    have hv7 : v ≤ 7 := by
      by_contra hc
      have : 2 ^ 8 ≤ 2 ^ v := Nat.pow_le_pow_right (by norm_num) (by omega)
      have ho' : 1 ≤ o := ho.pos
      have : 2 ^ 8 * 1 ≤ 2 ^ v * o := Nat.mul_le_mul this ho'
      omega
    have h3 : 2 ^ a ∣ o * (2 ^ (v + 2) * n) := ⟨k, by
      have : o * (2 ^ (v + 2) * n) = 4 * (2 ^ v * o) * n := by rw [pow_add]; ring
      rw [this, ← hv, hk']; ring⟩
    have hco : Nat.Coprime (2 ^ a) o := (Nat.coprime_two_left.2 ho).pow_left a
    have h4 := hco.dvd_of_dvd_mul_left h3
    have h5 : 16384 * n = 2 ^ (12 - v) * (2 ^ (v + 2) * n) := by
      rw [← mul_assoc, ← pow_add, show 12 - v + (v + 2) = 14 by omega]
      norm_num
    rw [h5]
    exact dvd_mul_of_dvd_right h4 _
  obtain ⟨N, hN⟩ := hdvd
  have hdiv : k * 4096 / ppq = N := by
    have : k * 4096 = ppq * N := by
      have h2 : 0 < 2 ^ a := by positivity
      apply Nat.eq_of_mul_eq_mul_left h2
      calc 2 ^ a * (k * 4096) = (k * 2 ^ a) * 4096 := by ring
        _ = ppq * (16384 * n) := by rw [← hk']; ring
        _ = 2 ^ a * (ppq * N) := by rw [hN]; ring
    rw [this, Nat.mul_div_cancel_left _ h0]
  obtain ⟨g1, g2, g3⟩ := gridSignature_spec ppq k
  obtain ⟨l1, l2, l3⟩ := Signature.lowest_spec hn hs.den
  apply Signature.lowest_unique g1 l1 g3 l3
  rw [g2, l2, hdiv, ha, hn']
  have h2 : (0 : ℚ) < 2 ^ a := by positivity
  have : (16384 : ℚ) * n = 2 ^ a * N := by exact_mod_cast hN
  push_cast
  field_simp
  linarith

theorem pulsesOf_exact {ppq : Int} {x : ℚ} {k : Nat} (h : 4 * (ppq : ℚ) * x = k) : pulsesOf ppq x = k := by
  unfold pulsesOf
  rw [h, Int.floor_natCast, Int.toNat_natCast]

/-- The placed note read from the messages of a note of whole pulses. -/
theorem readNote_msg {w : Writer} (h0 : 0 < w.ppq) (h1 : w.ppq ≤ 255) (delta : Int) {e : Entry} (he : e.1.Valid)
    (hv : e.2.Valid) (hp : e.2.PitchOk w.middleCDelta) (hk : ∃ k : Nat, 4 * (w.ppq : ℚ) * e.1.val = k)
    (hd : ∃ k : Nat, 4 * (w.ppq : ℚ) * e.2.duration.val = k) :
    readNote delta w.ppq.toNat (Msg.noteEv (Entry.msg w e false)) (Msg.noteEv (Entry.msg w e true)) =
      shiftPlaced (w.middleCDelta - delta) (midiNote e.placed) := by
  obtain ⟨k, hk⟩ := hk
  obtain ⟨d, hd⟩ := hd
  have hc : ((w.ppq.toNat : Nat) : ℚ) = (w.ppq : ℚ) := by
    rw [← Int.cast_natCast, Int.toNat_of_nonneg h0.le]
  have e1 : e.onTime w.ppq = k := pulsesOf_exact hk
  have e2 : e.offTime w.ppq = k + d := by
    unfold Entry.offTime
    rw [e1, pulsesOf_exact hd]
  have g1 := gridSignature_exact (ppq := w.ppq.toNat) (by omega) (by omega) he (k := k) (by rw [hc]; exact hk)
  have g2 := gridSignature_exact (ppq := w.ppq.toNat) (by omega) (by omega) hv.duration (k := d) (by rw [hc]; exact hd)
  have hb := (Writer.velocityByte_eq hv.velLow hv.velHigh).2
  unfold readNote shiftPlaced midiNote
  simp only [Msg.noteEv, Entry.msg, e1, e2, Nat.add_sub_cancel_left, g1, g2]
  have l := Signature.lowest_spec he.nom he.den
  refine Prod.ext ?_ ?_
  · exact l.2.1
  · simp only
    congr 1
    · congr 1
      have := hp.1
      rw [Int.toNat_of_nonneg this]
      unfold Note.midiPitch Entry.placed
      ring
    · rw [Nat.min_eq_left hb]
      rfl

/-! ### Reading a dump -/

/-- Reading a dump: the notes are those of the arranged messages. -/
theorem dumps_loads [UnicodeDigits] {S : ListSort} (m : MidiReader) {w : Writer} (hw : w.Valid) {t : Track} (ht : t.WF)
    {bytes : Bytes} (h : w.dumps S t = .ok bytes) (hl : bytes.length < 2 ^ 24 + 22) (channel : Option Int) :
    (ReadableWith w t channel → ∃ t', m.loads S bytes channel = .ok t' ∧ t'.Reachable S ∧
      (t'.signature = t.signature ∨ (channel = none ∧ t'.signature = ⟨0, 1⟩ ∧ t.signature.nominator = 0)) ∧
      t'.contents = readNotes m.middleCDelta w.ppq.toNat ((Writer.sortedMsgs w (t.items S)).map Msg.noteEv)) ∧
    (¬ ReadableWith w t channel → m.loads S bytes channel = .error .valueError) := by
  obtain ⟨es, body, hf, hb, hlen, q0, q1, n1, n2, hs, -, -⟩ := dumps_file hw ht h
  have hb24 : body.length < 2 ^ 24 := by omega
  have hd : w.ppq.toNat ≤ 0x7FFF := by omega
  have hc0 := hw.chanMin
  have hc1 := hw.chanMax
  have hempty : noteEvents w.channel.toNat 0 es = [] ↔ t.len = 0 := by
    rw [n1, ← List.length_eq_zero_iff, List.length_map, Writer.sortedMsgs_length, Track.items_length]
    omega
  have hhas : ∀ c : Nat, HasChannel es c ↔ ReadableWith w t (some (c : Int)) := by
    intro c
    unfold HasChannel ReadableWith
    constructor
    · rintro (h1 | ⟨rfl, h1⟩)
      · by_cases hc : c = w.channel.toNat
        · subst hc
          exact Or.inr (Or.inl ⟨fun h2 => h1 (hempty.2 h2), by rw [Int.toNat_of_nonneg hc0]⟩)
        · exact absurd (n2 c hc) h1
      · exact Or.inr (Or.inr ⟨hempty.1 (h1 _), rfl⟩)
    · rintro (h1 | ⟨h1, h2⟩ | ⟨h1, h2⟩)
      · cases h1
      · have hc : c = w.channel.toNat := by
          rw [Option.some.injEq] at h2; omega
        subst hc
        exact Or.inl (fun h3 => h1 (hempty.1 h3))
      · have hc : c = 0 := by rw [Option.some.injEq] at h2; omega
        refine Or.inr ⟨hc, fun k => ?_⟩
        by_cases hk : k = w.channel.toNat
        · rw [hk]; exact hempty.2 h1
        · exact n2 k hk
  cases channel with
  | none =>
    refine ⟨fun _ => ?_, fun hn => absurd (Or.inl rfl) hn⟩
    obtain ⟨t', k1, k2, -, k4⟩ := MidiReader.load_all S m hf hb q0 hd hb24
    obtain ⟨t'', j1, j2, j3⟩ := C55_same_denominator_partial S m hf hb q0 hd hb24 (k := t.signature.denominator)
      (fun c _ => by rw [hs])
    change m.load S bytes none = _ at j1
    rw [k1] at j1
    cases j1
    refine ⟨t', k1, k2, ?_, ?_⟩
    · rcases j3 with j3 | ⟨c, -, j3⟩
      · right
        have hc : ∃ c, HasChannel es c := by
          by_cases hz : t.len = 0
          · exact ⟨0, (hhas 0).2 (Or.inr (Or.inr ⟨hz, rfl⟩))⟩
          · exact ⟨w.channel.toNat, (hhas _).2 (Or.inr (Or.inl ⟨hz, by rw [Int.toNat_of_nonneg hc0]⟩))⟩
        obtain ⟨c, hc⟩ := hc
        have := j2 c hc
        rw [hs, j3] at this
        have hv0 : (⟨0, 1⟩ : Signature).val = 0 := by simp [Signature.val]
        rw [hv0] at this
        refine ⟨rfl, j3, ?_⟩
        have hz := le_antisymm this ht.sig.valNonneg
        unfold Signature.val at hz
        rw [div_eq_zero_iff] at hz
        rcases hz with hz | hz
        · exact_mod_cast hz
        · exact absurd hz (ne_of_gt ht.sig.denPosQ)
      · left; rw [j3, hs]
    · rw [k4, Finset.sum_eq_single_of_mem w.channel.toNat (Finset.mem_range.2 (by omega)), n1]
      intro k _ hk
      rw [n2 k hk, readNotes_nil]
  | some c =>
    rcases lt_or_ge c 0 with hc | hc
    · refine ⟨?_, fun _ => MidiReader.load_badChannel S m hf hb q0 hd hb24 hc⟩
      rintro (h1 | ⟨-, h1⟩ | ⟨-, h1⟩)
      · cases h1
      · rw [Option.some.injEq] at h1; omega
      · rw [Option.some.injEq] at h1; omega
    · obtain ⟨n, rfl⟩ : ∃ n : Nat, c = n := ⟨c.toNat, by omega⟩
      obtain ⟨k1, k2⟩ := MidiReader.load_channel S m hf hb q0 hd hb24 n
      refine ⟨fun hr => ?_, fun hn => k2 (fun hh => hn ((hhas n).1 hh))⟩
      obtain ⟨t', j1, j2, j3, j4⟩ := k1 ((hhas n).2 hr)
      refine ⟨t', j1, j2, Or.inl (by rw [j3, hs]), ?_⟩
      rw [j4]
      rcases hr with h1 | ⟨-, h1⟩ | ⟨h0, h1⟩
      · cases h1
      · have : n = w.channel.toNat := by rw [Option.some.injEq] at h1; omega
        rw [this, n1]
      · have e1 : noteEvents n 0 es = [] := by
          by_cases hk : n = w.channel.toNat
          · rw [hk]; exact hempty.2 h0
          · exact n2 n hk
        rw [e1, ← n1, hempty.2 h0]

theorem mem_contents_items {S : ListSort} {t : Track} {e : Entry} (h : e ∈ t.items S) : e.placed ∈ t.contents := by
  rw [← Track.items_placed S, Multiset.mem_coe]
  exact List.mem_map_of_mem h

/-- Under the conditions of the round trip, the arranged messages read as the notes of the track. -/
theorem readNotes_written {S : ListSort} {w : Writer} (hw : w.Valid) {t : Track} (ht : t.WF) (hq : w.ppq ≤ 255)
    (hp : ∀ e ∈ t.items S, e.2.PitchOk w.middleCDelta) (h1 : WholePulses w.ppq t) (h2 : Audible t)
    (h3 : InTurn S t) (delta : Int) :
    readNotes delta w.ppq.toNat ((Writer.sortedMsgs w (t.items S)).map Msg.noteEv) =
      (t.contents.map midiNote).map (shiftPlaced (w.middleCDelta - delta)) := by
  have hv := Track.items_valid S ht
  have hq0 := hw.ppqPos
  unfold readNotes
  rw [pairSet_arranged (Writer.arranged_sortedMsgs w (t.items S)) hp
    (fun e he => h2 _ (mem_contents_items he)) ?_ (fun a b => readNote delta w.ppq.toNat a b)]
  · rw [← Track.items_placed S t, Multiset.map_map, Multiset.map_coe, List.map_map]
    congr 1
    apply List.map_congr_left
    intro e he
    obtain ⟨w1, w2⟩ := h1 _ (mem_contents_items he)
    exact readNote_msg (by omega) hq delta (hv e he).1 (hv e he).2 (hp e he) w1 w2
  · refine h3.imp_of_mem ?_
    intro a b ha hb hab he
    have := hab he
    obtain ⟨⟨ka, wa⟩, ⟨da, wa'⟩⟩ := h1 _ (mem_contents_items ha)
    obtain ⟨⟨kb, wb⟩, -⟩ := h1 _ (mem_contents_items hb)
    change 4 * (w.ppq : ℚ) * a.1.val = ka at wa
    change 4 * (w.ppq : ℚ) * a.2.duration.val = da at wa'
    change 4 * (w.ppq : ℚ) * b.1.val = kb at wb
    unfold Entry.offTime Entry.onTime
    rw [pulsesOf_exact wa, pulsesOf_exact wa', pulsesOf_exact wb]
    have hqq : (0 : ℚ) ≤ 4 * (w.ppq : ℚ) := by
      have : (0 : ℚ) ≤ w.ppq := by exact_mod_cast (by omega : (0 : Int) ≤ w.ppq)
      linarith
    have := mul_le_mul_of_nonneg_left this hqq
    rw [mul_add, wa, wa', wb] at this
    exact_mod_cast this

theorem shiftPlaced_zero (c : Multiset (ℚ × Note)) : c.map (shiftPlaced 0) = c := by
  conv_rhs => rw [← Multiset.map_id c]
  apply Multiset.map_congr rfl
  intro x _
  unfold shiftPlaced
  simp

/-- Notes of positive duration that do not overlap start at different positions. -/
theorem distinctStarts_of {t : Track} (h1 : NoOverlap t) (h2 : ∀ p ∈ t.contents, 0 < p.2.duration.val) : DistinctStarts t := by
  intro a b hle hp he
  have ha := h2 a (Multiset.mem_of_le hle (by simp))
  have hb := h2 b (Multiset.mem_of_le hle (by simp))
  rcases h1 a b hle hp with h | h <;> unfold noteEnd at h <;> linarith

/-- Notes that do not overlap and do not start together are in turn. -/
theorem inTurn_of_noOverlap (S : ListSort) {t : Track} (ht : t.WF) (h1 : NoOverlap t) (h2 : DistinctStarts t) :
    InTurn S t := by
  have hs : (t.items S).Pairwise (fun a b => a.1.val ≤ b.1.val) := Track.iter_sorted S ht
  have hsub : (t.items S).Pairwise (fun a b => [a, b].Sublist (t.items S)) :=
    List.pairwise_iff_forall_sublist.2 (fun h => h)
  refine (hs.and hsub).imp ?_
  rintro a b ⟨h3, h4⟩ h5
  have hle : ({a.placed, b.placed} : Multiset (ℚ × Note)) ≤ t.contents := by
    rw [← Track.items_placed S]
    exact (h4.map Entry.placed).subperm
  have hb : b.placed ∈ t.contents := Multiset.mem_of_le hle (by simp)
  rcases h1 _ _ hle h5 with h | h
  · exact h
  · have hne := h2 _ _ hle h5
    change b.1.val + b.2.duration.val ≤ a.1.val at h
    obtain ⟨e, he, hee⟩ : ∃ e ∈ t.heap, e.placed = b.placed := by
      unfold Track.contents at hb
      exact List.mem_map.1 (Multiset.mem_coe.1 hb)
    have h0 : 0 ≤ e.2.duration.val := (ht.entries e he).2.2.duration.valNonneg
    have h0' : 0 ≤ b.2.duration.val := by
      have : e.2 = b.2 := congrArg (Prod.snd : ℚ × Note → Note) hee
      rwa [this] at h0
    exact absurd (show a.1.val = b.1.val by linarith) hne

/-! ### Incomplete files -/

namespace MidiReader

variable [UnicodeDigits]

theorem chunks_err (m : MidiReader) (st : LoadState) {p : Bytes} {e : PyErr} (h : readChunk p = .error e) :
    m.chunks st p = .error e := by
  unfold chunks
  rw [chunkLoop, h]
  rfl

/-- A file cut short, or with a track body of 2^24 bytes or more, is rejected. -/
theorem load_short (S : ListSort) (m : MidiReader) {division : Nat} {es : List (Nat × Ev)} {body file p rest : Bytes}
    (hf : IsFile division body file) (he : IsBody es body) (hd : division ≤ 0x7FFF) (hp : file = p ++ rest)
    (hr : rest ≠ [] ∨ 2 ^ 24 ≤ body.length) (channel : Option Int) : m.load S p channel = .error .parsingError := by
  obtain ⟨div, hdr, trk, h1, ⟨len, hl, rfl⟩, ⟨len', hl', rfl⟩, rfl⟩ := hf
  have hhl := header_length h1
  obtain ⟨l3, rfl, h3⟩ := bigEndian_four hl hhl
  rw [load_eq]
  rcases hc : readChunk p with e | _ | ⟨kind, b, rest'⟩
  · rw [chunks_err m _ hc, readChunk_err hc]; rfl
  · rw [readChunk_none hc, chunks_nil]; rfl
  · obtain ⟨top, len, k1, k2, rfl⟩ := readChunk_some hc
    simp only [List.append_assoc, List.cons_append] at hp
    obtain ⟨e1, hp1⟩ := List.append_inj hp (by rw [k1]; rfl)
    rw [List.cons.injEq] at hp1
    obtain ⟨e2, hp2⟩ := hp1
    obtain ⟨e3, hp3⟩ := List.append_inj hp2 (by rw [h3.1, k2.1])
    subst e1 e2 e3
    clear hp hp2
    have hb : b = [0, 0, 0, 1] ++ div := by
      have hle : b.length = ([0, 0, 0, 1] ++ div : Bytes).length := by rw [← k2.2, ← h3.2]
      have hp' : ([0, 0, 0, 1] ++ div) ++ (kindMTrk ++ (len' ++ body)) = b ++ (rest' ++ rest) := by
        simpa using hp3
      exact (List.append_inj hp' hle.symm).1.symm
    subst hb
    have hp : kindMTrk ++ (len' ++ body) = rest' ++ rest := by simpa using hp3
    rw [chunks_cons m _ rest' rfl h3, handleChunk_header m _ h1 hd, pyBind_ok]
    rcases hc2 : readChunk rest' with e | _ | ⟨kind, b, rest2⟩
    · rw [chunks_err m _ hc2, readChunk_err hc2]; rfl
    · rw [readChunk_none hc2, chunks_nil]; rfl
    · obtain ⟨top, len2, j1, j2, rfl⟩ := readChunk_some hc2
      simp only [List.append_assoc, List.cons_append] at hp
      obtain ⟨e1, hp1⟩ := List.append_inj hp (by rw [j1]; rfl)
      have hp2 : len' ++ body = (top :: len2) ++ (b ++ (rest2 ++ rest)) := by simpa using hp1
      obtain ⟨e2, hp4⟩ := List.append_inj hp2 (by rw [hl'.1, List.length_cons, j2.1])
      subst e1 e2
      rw [chunks_cons m _ rest2 rfl j2, handleChunk_track m _ rfl, parseTrack_eq]
      obtain ⟨st, q1, -⟩ := he.parse
      rw [hp4] at q1
      have hne : rest2 ++ rest ≠ [] := by
        intro h0
        obtain ⟨h4, h5⟩ := List.append_eq_nil_iff.1 h0
        rcases hr with hr | hr
        · exact hr h5
        · rw [hp4, h0, List.append_nil] at hr
          have hlt : ∀ l : Bytes, l.length = 3 → l.foldl (fun acc b => acc * 256 + b.toNat) 0 < 2 ^ 24 := by
            intro l hl
            match l, hl with
            | [x, y, z], _ =>
              have a := x.toNat_lt
              have b := y.toNat_lt
              have c := z.toNat_lt
              change ((0 * 256 + x.toNat) * 256 + y.toNat) * 256 + z.toNat < 2 ^ 24
              omega
          have := hlt len2 j2.1
          have h6 := j2.2
          omega
      rw [L.parse_prefix q1 hne]
      rfl

end MidiReader

/-! ### Writing what was read -/

theorem velByte_mono {u v : ℚ} (h0 : 0 ≤ u) (h : u ≤ v) : velByte u ≤ velByte v :=
  Int.toNat_le_toNat (Int.floor_le_floor (fl_mono (by positivity) (by linarith)))

theorem velByte_le (v : ℚ) (h0 : 0 ≤ v) (h1 : v ≤ 1) : velByte v ≤ 127 := (Writer.velocityByte_eq h0 h1).2

theorem fl_byte {k : Nat} (hk : k ≤ 127) : 0 ≤ fl ((k : ℚ) / 127) ∧ fl ((k : ℚ) / 127) ≤ 1 := by
  have := (MidiReader.velocityOf_eq k).2
  rwa [Nat.min_eq_left hk] at this

theorem velByte_fl {k : Nat} (hk : k ≤ 127) : velByte (fl ((k : ℚ) / 127)) = k := by
  obtain ⟨q, h1, h2⟩ := C51_lossless k hk
  have h3 := (MidiReader.velocityOf_eq k).1
  rw [Nat.min_eq_left hk, h1] at h3
  cases h3
  obtain ⟨h4, h5⟩ := fl_byte hk
  have := (Writer.velocityByte_eq h4 h5).1
  omega

/-- What the messages of a note depend on. -/
abbrev MsgKey := ℚ ×ₗ ℤ ×ₗ ℚ ×ₗ ℕ

def Entry.msgKey (e : Entry) : MsgKey :=
  toLex (e.1.val, toLex (e.2.tone.pitch, toLex (e.2.duration.val, velByte e.2.velocity)))

def placedMsgKey (p : ℚ × Note) : MsgKey :=
  toLex (p.1, toLex (p.2.tone.pitch, toLex (p.2.duration.val, velByte p.2.velocity)))

theorem msgKey_mono {a b : Entry} (ha : a.2.Valid) (h : Entry.key a ≤ Entry.key b) : a.msgKey ≤ b.msgKey := by
  unfold Entry.key at h
  unfold Entry.msgKey
  rw [Prod.Lex.toLex_le_toLex] at h ⊢
  rcases h with h | ⟨h1, h⟩
  · exact Or.inl h
  · refine Or.inr ⟨h1, ?_⟩
    rw [Prod.Lex.toLex_le_toLex] at h ⊢
    rcases h with h | ⟨h2, h⟩
    · exact Or.inl h
    · refine Or.inr ⟨h2, ?_⟩
      rw [Prod.Lex.toLex_le_toLex] at h ⊢
      rcases h with h | ⟨h3, h⟩
      · exact Or.inl h
      · exact Or.inr ⟨h3, velByte_mono ha.velLow h⟩

/-- The same bytes are written for entries with the same message keys. -/
theorem noteMsgs_congr (w : Writer) : ∀ (a b : List Entry), a.map Entry.msgKey = b.map Entry.msgKey →
    Writer.noteMsgs w a = Writer.noteMsgs w b := by
  intro a
  induction a with
  | nil => intro b h; cases b with
    | nil => rfl
    | cons x b => simp at h
  | cons x a ih =>
    intro b h
    cases b with
    | nil => simp at h
    | cons y b =>
      rw [List.map_cons, List.map_cons, List.cons.injEq] at h
      obtain ⟨h1, h2⟩ := h
      have hm : ∀ s, Entry.msg w x s = Entry.msg w y s := by
        unfold Entry.msgKey at h1
        rw [toLex_inj, Prod.mk.injEq, toLex_inj, Prod.mk.injEq, toLex_inj, Prod.mk.injEq] at h1
        obtain ⟨e1, e2, e3, e4⟩ := h1
        intro s
        cases s <;> simp only [Entry.msg, Entry.onTime, Entry.offTime, Note.midiPitch, e1, e2, e3, e4]
      have := ih b h2
      unfold Writer.noteMsgs at this ⊢
      rw [List.flatMap_cons, List.flatMap_cons, this, hm, hm]

/-- Two different occurrences in a multiset. -/
theorem pair_le {c : Multiset (ℚ × Note)} {a b : ℚ × Note} (ha : a ∈ c) (hb : b ∈ c) (h : a ≠ b) :
    ({a, b} : Multiset (ℚ × Note)) ≤ c := by
  obtain ⟨d, rfl⟩ := Multiset.exists_cons_of_mem ha
  rcases Multiset.mem_cons.1 hb with hb | hb
  · exact absurd hb.symm h
  · exact Multiset.cons_le_cons a (Multiset.singleton_le.2 hb)

/-- A note is determined by its pitch and position. -/
theorem eq_of_position {t : Track} (h2 : DistinctStarts t) {a b : ℚ × Note} (ha : a ∈ t.contents)
    (hb : b ∈ t.contents) (hp : a.1 = b.1) (ht : a.2.tone.pitch = b.2.tone.pitch) : a = b := by
  by_contra hne
  exact h2 a b (pair_le ha hb hne) ht hp

theorem consistent_of {t : Track} (h2 : DistinctStarts t) : ConsistentPlaced t.contents := by
  intro a ha b hb hp ht
  rw [eq_of_position h2 ha hb hp ht]
  exact Or.inl rfl

theorem consistent_midi {t : Track} (h2 : DistinctStarts t) :
    ConsistentPlaced (t.contents.map midiNote) := by
  intro a ha b hb hp ht
  obtain ⟨x, hx, rfl⟩ := Multiset.mem_map.1 ha
  obtain ⟨y, hy, rfl⟩ := Multiset.mem_map.1 hb
  rw [eq_of_position h2 hx hy hp ht]
  exact Or.inl rfl

/-- The notes read back are written with the same keys. -/
theorem msgKey_midi {t : Track} (ht : t.WF) {p : ℚ × Note} (hp : p ∈ t.contents) :
    placedMsgKey (midiNote p) = placedMsgKey p := by
  obtain ⟨e, he, rfl⟩ : ∃ e ∈ t.heap, e.placed = p := by
    unfold Track.contents at hp
    exact List.mem_map.1 (Multiset.mem_coe.1 hp)
  obtain ⟨-, -, hv⟩ := ht.entries e he
  have h1 := (Signature.lowest_spec hv.duration.nom hv.duration.den).2.1
  have h2 := velByte_fl (velByte_le _ hv.velLow hv.velHigh)
  change toLex (_, toLex (_, toLex ((Signature.lowest e.2.duration.nominator e.2.duration.denominator).val,
    velByte (fl ((velByte e.2.velocity : ℚ) / 127))))) = _
  rw [h1, h2]
  rfl

theorem msgKeys_eq (S : ListSort) {t t' : Track} (ht : t.WF) (ht' : t'.WF) (h2 : DistinctStarts t)
    (hc : t'.contents = t.contents.map midiNote) :
    (t'.items S).map Entry.msgKey = (t.items S).map Entry.msgKey := by
  have sorted : ∀ {t : Track}, t.WF → ConsistentPlaced t.contents →
      ((t.items S).map Entry.msgKey).Pairwise (fun x y => x ≤ y) := by
    intro t ht hc
    refine List.pairwise_map.2 ?_
    have hk : (t.items S).Pairwise (fun a b => Entry.key a ≤ Entry.key b) := Track.iter_sortedKey S ht hc
    exact hk.imp_of_mem (fun ha _ h => msgKey_mono (Track.items_valid S ht _ ha).2 h)
  refine List.Perm.eq_of_pairwise (le := fun x y => x ≤ y) (fun x y _ _ h1 h2 => le_antisymm h1 h2)
    (sorted ht' (by rw [hc]; exact consistent_midi h2)) (sorted ht (consistent_of h2)) ?_
  have e : ∀ t : Track, (((t.items S).map Entry.msgKey : List MsgKey) : Multiset MsgKey) =
      t.contents.map placedMsgKey := by
    intro t
    rw [← Track.items_placed S t, Multiset.map_coe, List.map_map]
    rfl
  apply Multiset.coe_eq_coe.1
  rw [e, e, hc, Multiset.map_map]
  apply Multiset.map_congr rfl
  intro p hp
  exact msgKey_midi ht hp

/-- Tracks whose placed notes have the same keys iterate identically (up to `==`). -/
theorem items_key_eq_of (S : ListSort) {a b : Track} (ha : a.WF) (hb : b.WF)
    (h : a.contents.map Track.placedKey = b.contents.map Track.placedKey) (hc : ConsistentPlaced a.contents)
    (hc' : ConsistentPlaced b.contents) : (a.items S).map Entry.key = (b.items S).map Entry.key := by
  refine List.Perm.eq_of_pairwise (le := fun x y => x ≤ y) (fun x y _ _ h1 h2 => le_antisymm h1 h2)
    (List.pairwise_map.mpr (Track.iter_sortedKey S ha hc)) (List.pairwise_map.mpr (Track.iter_sortedKey S hb hc')) ?_
  rw [← Track.items_placed S a, ← Track.items_placed S b, Multiset.map_coe, Multiset.map_coe, List.map_map,
    List.map_map] at h
  exact Multiset.coe_eq_coe.1 h

/-- If the messages of two tracks are the same, so are the files. -/
theorem dumps_congr (S : ListSort) {w : Writer} (hw : w.Valid) {t t' : Track} (ht : t.WF) (ht' : t'.WF)
    (hs : t'.signature = t.signature) (hk : (t'.items S).map Entry.msgKey = (t.items S).map Entry.msgKey)
    {bytes : Bytes} (h : w.dumps S t = .ok bytes) : w.dumps S t' = .ok bytes := by
  obtain ⟨h1, h2, h3, tempo, h4, h5, rfl⟩ := Writer.dumps_success hw ht h
  have hm : Writer.allMsgs w t'.signature tempo (t'.items S) = Writer.allMsgs w t.signature tempo (t.items S) := by
    unfold Writer.allMsgs Writer.sortedMsgs
    rw [noteMsgs_congr w _ _ hk, hs]
  have hp : ∀ e ∈ t'.items S, e.2.PitchOk w.middleCDelta := by
    intro e he
    have : e.msgKey ∈ (t.items S).map Entry.msgKey := by rw [← hk]; exact List.mem_map_of_mem he
    obtain ⟨e', he', hee⟩ := List.mem_map.1 this
    unfold Entry.msgKey at hee
    rw [toLex_inj, Prod.mk.injEq, toLex_inj, Prod.mk.injEq] at hee
    have := h1 e' he'
    unfold Note.PitchOk Note.midiPitch at this ⊢
    rwa [hee.2.1] at this
  unfold Writer.dumps
  rw [Writer.dump_fits S hw ht' [] hp (by rw [hs]; exact h2) h3 h4, hm, if_pos h5]
  rfl

/-- Every message takes at least four bytes. -/
theorem bodyBytes_lower : ∀ l : List (Nat × Msg), 4 * l.length ≤ (Writer.bodyBytes l).length := by
  intro l
  induction l with
  | nil => simp
  | cons x l ih =>
    obtain ⟨d, m⟩ := x
    have h1 : 1 ≤ (vlq d).length := by
      rw [Nat.one_le_iff_ne_zero, Ne, List.length_eq_zero_iff]
      obtain ⟨init, last, h, -⟩ := (vlq_isVlq d).shape
      rw [h]
      simp
    have h2 : 3 ≤ m.bytes.length := by cases m <;> simp [Msg.bytes]
    simp only [Writer.bodyBytes, List.length_append, List.length_cons]
    omega

end Melodia
