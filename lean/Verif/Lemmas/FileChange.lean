/-
Helper lemmas for C86, C87 and C88.
-/
import Verif.Spec.FileChange
import Verif.Lemmas.RoundTrip

set_option autoImplicit false

namespace Melodia

/-! ### Messages -/

theorem Msg.withSettings_length (shift : Int) (tempo ch : Nat) (m : Msg) :
    (m.withSettings shift tempo ch).bytes.length = m.bytes.length := by
  cases m <;> rfl

namespace Writer

theorem deltaMsgs_map (f : Msg → Msg) : ∀ (l : List (Nat × Msg)) (last : Nat),
    deltaMsgs last (l.map (fun x => (x.1, f x.2))) = (deltaMsgs last l).map (fun x => (x.1, f x.2)) := by
  intro l
  induction l with
  | nil => intro _; rfl
  | cons x l ih => intro last; obtain ⟨t, m⟩ := x; rw [List.map_cons, deltaMsgs, ih]; rfl

theorem sortedMsgs_of_map {w w' : Writer} (f : Msg → Msg) (a b : List Entry)
    (h : noteMsgs w' b = (noteMsgs w a).map (fun x => (x.1, f x.2))) :
    sortedMsgs w' b = (sortedMsgs w a).map (fun x => (x.1, f x.2)) := by
  unfold sortedMsgs
  rw [h, stableSort_map]
  rfl

/-- The messages of one track under two settings. -/
theorem allMsgs_settings {w w' : Writer} (hq : w'.ppq = w.ppq) (s : Signature) (tempo tempo' : Nat)
    (items : List Entry) (hp : ∀ e ∈ items, e.2.PitchOk w.middleCDelta) :
    allMsgs w' s tempo' items = (allMsgs w s tempo items).map (fun x =>
      (x.1, x.2.withSettings (w'.middleCDelta - w.middleCDelta) tempo' w'.channel.toNat)) := by
  have hn : noteMsgs w' items = (noteMsgs w items).map (fun x =>
      (x.1, x.2.withSettings (w'.middleCDelta - w.middleCDelta) tempo' w'.channel.toNat)) := by
    induction items with
    | nil => rfl
    | cons e l ih =>
      unfold noteMsgs at ih ⊢
      rw [List.flatMap_cons, List.flatMap_cons, List.map_append, ih (fun x hx => hp x (by simp [hx]))]
      obtain ⟨p1, -⟩ := hp e (by simp)
      have hk : (e.2.midiPitch w'.middleCDelta).toNat =
          (((e.2.midiPitch w.middleCDelta).toNat : Int) + (w'.middleCDelta - w.middleCDelta)).toNat := by
        rw [Int.toNat_of_nonneg p1]
        unfold Note.midiPitch
        congr 1
        omega
      simp only [Entry.msg, List.map_cons, List.map_nil, Msg.withSettings, hq, hk]
  unfold allMsgs
  rw [sortedMsgs_of_map (fun m => m.withSettings (w'.middleCDelta - w.middleCDelta) tempo' w'.channel.toNat) _ _ hn,
    deltaMsgs_map (fun m => m.withSettings (w'.middleCDelta - w.middleCDelta) tempo' w'.channel.toNat)]
  rw [List.map_append, List.map_append]
  simp only [List.map_cons, List.map_nil, sigMsg, hq, Msg.withSettings]

/-- With the own tempo and channel, only keys change. -/
theorem withSettings_own {w w' : Writer} (hch : w'.channel = w.channel) (k : Int) {s : Signature} {tempo : Nat}
    {items : List Entry} {x : Nat × Msg} (hx : x ∈ allMsgs w s tempo items) :
    x.2.withSettings k tempo w'.channel.toNat = x.2.shiftKey k := by
  unfold allMsgs at hx
  simp only [List.mem_append, List.mem_cons, List.not_mem_nil, or_false] at hx
  rcases hx with ((rfl | rfl) | hx) | rfl
  · rfl
  · rfl
  · obtain ⟨y, hy, he⟩ := mem_deltaMsgs _ _ _ hx
    obtain ⟨e, _, rfl | rfl⟩ := mem_sortedMsgs.1 hy
    · rw [← he, hch]; rfl
    · rw [← he, hch]; rfl
  · rfl

theorem bodyBytes_map_length (f : Msg → Msg) (hf : ∀ m, (f m).bytes.length = m.bytes.length) :
    ∀ l : List (Nat × Msg), (bodyBytes (l.map (fun x => (x.1, f x.2)))).length = (bodyBytes l).length := by
  intro l
  induction l with
  | nil => rfl
  | cons x l ih =>
    obtain ⟨d, m⟩ := x
    rw [List.map_cons, bodyBytes, bodyBytes]
    simp only [List.length_append, ih, hf]

/-! ### Iteration of moved tracks -/

/-- If the notes of `u` are those of `t` with keys moved monotonically, so is the iteration. -/
theorem _root_.Melodia.items_key_map (S : ListSort) {t u : Track} (ht : t.WF) (hu : u.WF) (f : EntryKey → EntryKey)
    (hf : ∀ x y, x ≤ y → f x ≤ f y)
    (h : u.contents.map Track.placedKey = t.contents.map (fun p => f (Track.placedKey p)))
    (hc : ConsistentPlaced t.contents) (hc' : ConsistentPlaced u.contents) :
    (u.items S).map Entry.key = (t.items S).map (fun e => f (Entry.key e)) := by
  refine List.Perm.eq_of_pairwise (le := fun x y => x ≤ y) (fun x y _ _ h1 h2 => le_antisymm h1 h2)
    (List.pairwise_map.mpr (Track.iter_sortedKey S hu hc'))
    (List.pairwise_map.mpr ((Track.iter_sortedKey S ht hc).imp (fun h => hf _ _ h))) ?_
  rw [← Track.items_placed S u, ← Track.items_placed S t, Multiset.map_coe, Multiset.map_coe, List.map_map,
    List.map_map] at h
  exact Multiset.coe_eq_coe.1 h

/-- What two notes contribute to two files. -/
theorem noteEvents_moved {w w' : Writer} (hw : w.Valid) (hw' : w'.Valid) (hq : w'.ppq = w.ppq)
    (hch : w'.channel = w.channel) (k : Int) (hk : w.middleCDelta = w'.middleCDelta + k) : ∀ (a b : List Entry),
    (∀ e ∈ a, e.1.Valid ∧ e.2.Valid) → (∀ e ∈ b, e.1.Valid ∧ e.2.Valid) →
    b.map (fun e => soundOf e.placed) = a.map (fun e => higher k (soundOf e.placed)) →
    w'.noteEvents b = w.noteEvents a := by
  intro a
  induction a with
  | nil =>
    intro b _ _ h
    cases b with
    | nil => rfl
    | cons y b => simp at h
  | cons x a ih =>
    intro b ha hb h
    cases b with
    | nil => simp at h
    | cons y b =>
      rw [List.map_cons, List.map_cons, List.cons.injEq] at h
      obtain ⟨h1, h2⟩ := h
      obtain ⟨x1, x2⟩ := x
      obtain ⟨y1, y2⟩ := y
      obtain ⟨hx1, hx2⟩ := ha _ List.mem_cons_self
      obtain ⟨hy1, hy2⟩ := hb _ List.mem_cons_self
      simp only [soundOf, higher, Entry.placed, Prod.mk.injEq] at h1
      obtain ⟨e1, e2, e3, e4⟩ := h1
      have hpw : w'.ppw = w.ppw := by rw [hw.ppw, hw'.ppw, hq]
      have k1 : w'.signatureToPulses y1 = w.signatureToPulses x1 := by
        rw [signatureToPulses_ok hw hx1, signatureToPulses_ok hw' hy1, e1, hq]
      have k2 : w'.signatureToPulses y2.duration = w.signatureToPulses x2.duration := by
        rw [signatureToPulses_ok hw hx2.duration, signatureToPulses_ok hw' hy2.duration, e3, hq]
      have e5 : y2.tone.pitch + w'.middleCDelta = x2.tone.pitch + w.middleCDelta := by omega
      have k3 : w'.formatNoteOn y2 = w.formatNoteOn x2 := by
        unfold formatNoteOn
        rw [e5, e4, hch]
      have k4 : w'.formatNoteOff y2 = w.formatNoteOff x2 := by
        unfold formatNoteOff
        rw [e5, hch]
      unfold noteEvents
      rw [k1, k2, k3, k4, ih b (fun e he => ha e (List.mem_cons_of_mem _ he))
        (fun e he => hb e (List.mem_cons_of_mem _ he)) h2]

/-- `dumps` depends on the signature, the events of the notes, the division and the tempo only. -/
theorem dumps_of_events (S : ListSort) {w w' : Writer} {t u : Track} (hq : w'.ppq = w.ppq) (hb : w'.bpm = w.bpm)
    (hs : u.signature = t.signature) (hn : w'.noteEvents (u.items S) = w.noteEvents (t.items S)) :
    w'.dumps S u = w.dumps S t := by
  have hd : deltaEvents S w' (u.iter S).1.signature (u.iter S).2 =
      deltaEvents S w (t.iter S).1.signature (t.iter S).2 := by
    unfold deltaEvents
    rw [(Track.iter_fields S t).1, (Track.iter_fields S u).1, hs, hb, hq]
    change (w'.noteEvents (u.items S) >>= _) = (w.noteEvents (t.items S) >>= _)
    rw [hn]
  have hh : w'.formatHeaderChunk 0 1 = w.formatHeaderChunk 0 1 := by
    unfold formatHeaderChunk
    rw [hq]
  unfold dumps dump
  simp only [hd, hh]
  rcases deltaEvents S w (t.iter S).1.signature (t.iter S).2 with e | ev
  · rfl
  · simp only
    rcases w.formatHeaderChunk 0 1 with e | hdr
    · rfl
    · simp only
      rcases trackBody ev with e | body
      · rfl
      · simp only
        rcases formatChunk tagMTrk body with e | c <;> rfl

/-! ### Later tracks -/

theorem pulsesOf_add {ppq : Int} (hq : 1 ≤ ppq) {x d : ℚ} (hx : 0 ≤ x) {n : Nat} (hd : 4 * (ppq : ℚ) * d = n) :
    pulsesOf ppq (x + d) = pulsesOf ppq x + n := by
  unfold pulsesOf
  rw [mul_add, hd]
  have : (n : ℚ) = ((n : ℤ) : ℚ) := by push_cast; rfl
  rw [this, Int.floor_add_intCast]
  have h0 : 0 ≤ ⌊4 * (ppq : ℚ) * x⌋ := Int.floor_nonneg.mpr (by
    have : (0 : ℚ) ≤ ppq := by exact_mod_cast (by omega : (0 : Int) ≤ ppq)
    positivity)
  omega

/-- Messages `n` pulses later. -/
theorem noteMsgs_later {w : Writer} (hw : w.Valid) {d : ℚ} {n : Nat} (hd : 4 * (w.ppq : ℚ) * d = n) :
    ∀ (a b : List Entry), (∀ e ∈ a, e.1.Valid ∧ e.2.Valid) →
    b.map (fun e => soundOf e.placed) = a.map (fun e => later d (soundOf e.placed)) →
    noteMsgs w b = (noteMsgs w a).map (fun x => (x.1 + n, x.2)) := by
  intro a
  induction a with
  | nil =>
    intro b _ h
    cases b with
    | nil => rfl
    | cons y b => simp at h
  | cons x a ih =>
    intro b ha h
    cases b with
    | nil => simp at h
    | cons y b =>
      rw [List.map_cons, List.map_cons, List.cons.injEq] at h
      obtain ⟨h1, h2⟩ := h
      obtain ⟨x1, x2⟩ := x
      obtain ⟨y1, y2⟩ := y
      obtain ⟨hx1, hx2⟩ := ha _ List.mem_cons_self
      simp only [soundOf, later, Entry.placed, Prod.mk.injEq] at h1
      obtain ⟨e1, e2, e3, e4⟩ := h1
      have ih' := ih b (fun e he => ha e (List.mem_cons_of_mem _ he)) h2
      unfold noteMsgs at ih' ⊢
      rw [List.flatMap_cons, List.flatMap_cons, List.map_append, ih']
      have hon : pulsesOf w.ppq y1.val = pulsesOf w.ppq x1.val + n := by
        rw [e1]
        exact pulsesOf_add hw.ppqPos (hx1.valNonneg) hd
      simp only [Entry.msg, Entry.onTime, Entry.offTime, Note.midiPitch, hon, e2, e3, e4, List.map_cons, List.map_nil,
        Nat.add_right_comm]

theorem sortedMsgs_later {w : Writer} {n : Nat} (a b : List Entry)
    (h : noteMsgs w b = (noteMsgs w a).map (fun x => (x.1 + n, x.2))) :
    sortedMsgs w b = (sortedMsgs w a).map (fun x => (x.1 + n, x.2)) := by
  unfold sortedMsgs
  rw [h, stableSort_map]
  have : (fun a b : Nat × Msg => ltKey (fun x : Nat × Msg => (x.1 : Int)) (a.1 + n, a.2) (b.1 + n, b.2)) =
      ltKey (fun x : Nat × Msg => (x.1 : Int)) := by
    funext a b
    unfold ltKey
    simp
  rw [this]

theorem deltaMsgs_later (n : Nat) : ∀ (l : List (Nat × Msg)) (last : Nat),
    deltaMsgs (last + n) (l.map (fun x => (x.1 + n, x.2))) = deltaMsgs last l := by
  intro l
  induction l with
  | nil => intro _; rfl
  | cons x l ih =>
    intro last
    obtain ⟨t, m⟩ := x
    rw [List.map_cons, deltaMsgs, deltaMsgs, ih, Nat.add_sub_add_right]

theorem vlqInit_length_mono : ∀ (b a : Nat), a ≤ b → (vlqInit a).length ≤ (vlqInit b).length := by
  intro b
  induction b using Nat.strong_induction_on with
  | _ b ih =>
    intro a h
    rcases Nat.eq_zero_or_pos a with rfl | ha
    · simp [vlqInit]
    · rw [vlqInit_pos ha, vlqInit_pos (by omega : 0 < b), List.length_append, List.length_append]
      have := ih (b / 128) (Nat.div_lt_self (by omega) (by norm_num)) (a / 128) (Nat.div_le_div_right h)
      simp only [List.length_singleton]
      omega

theorem vlq_length_mono {a b : Nat} (h : a ≤ b) : (vlq a).length ≤ (vlq b).length := by
  unfold vlq
  rw [List.length_append, List.length_append]
  have := vlqInit_length_mono (b / 128) (a / 128) (Nat.div_le_div_right h)
  simp only [List.length_singleton]
  omega

end Writer

end Melodia
