/-
C82: `randomize_velocities` (src/melodia/processing/track.py) changes nothing but velocities, seen in the files
`MIDIWriter.dumps` (src/melodia/io/midi.py:197-251) makes of the track before and after.
-/
import Verif.Props.Processing
import Verif.Props.MidiWrite
import Verif.Lemmas.Velocities

set_option autoImplicit false

namespace Melodia

/-- Two byte strings of equal length that differ at most in the velocity bytes of `n` note-on messages on channel `ch`. -/
inductive SameButVelocities (ch : Nat) : Nat → Bytes → Bytes → Prop
  | same (s : Bytes) : SameButVelocities ch 0 s s
  | note (s : Bytes) (p v v' : UInt8) (hv : v < 128) (hv' : v' < 128) {n : Nat} {r r' : Bytes}
      (h : SameButVelocities ch n r r') :
      SameButVelocities ch (n + 1) (s ++ [UInt8.ofNat (0x90 + ch), p, v] ++ r)
        (s ++ [UInt8.ofNat (0x90 + ch), p, v'] ++ r')

/-- Two messages that differ at most in the velocity of a note-on. -/
inductive Msg.SameButVelocity : Msg → Msg → Prop
  | same (m : Msg) : Msg.SameButVelocity m m
  | noteOn (c p v v' : Nat) : Msg.SameButVelocity (.noteOn c p v) (.noteOn c p v')

theorem SameButVelocities.prefix {ch n : Nat} {r r' : Bytes} (h : SameButVelocities ch n r r') (s : Bytes) :
    SameButVelocities ch n (s ++ r) (s ++ r') := by
  cases h with
  | same x => exact .same _
  | note x p v v' hv hv' h =>
    rw [← List.append_assoc, ← List.append_assoc, ← List.append_assoc, ← List.append_assoc]
    exact .note _ p v v' hv hv' h

/-- What the relation excludes: other lengths, and differences in bytes from 128 on. -/
theorem SameButVelocities.bytes {ch n : Nat} {r r' : Bytes} (h : SameButVelocities ch n r r') :
    List.Forall₂ (fun a b : UInt8 => a = b ∨ a < 128 ∧ b < 128) r r' := by
  have refl : ∀ s : Bytes, List.Forall₂ (fun a b : UInt8 => a = b ∨ a < 128 ∧ b < 128) s s :=
    fun s => List.forall₂_same.mpr (fun _ _ => Or.inl rfl)
  induction h with
  | same s => exact refl s
  | note s p v v' hv hv' h ih =>
    refine List.rel_append (List.rel_append (refl s) ?_) ih
    exact .cons (Or.inl rfl) (.cons (Or.inl rfl) (.cons (Or.inr ⟨hv, hv'⟩) .nil))

/-- Note-on messages. -/
def Msg.isNoteOn : Msg → Bool
  | .noteOn .. => true
  | _ => false

namespace Writer

theorem same_of_muted (ch : Nat) : ∀ l l' : List (Nat × Msg), l.map muted = l'.map muted →
    (∀ x ∈ l, x.2.InRange ∧ ∀ c p v, x.2 = .noteOn c p v → c = ch) → (∀ x ∈ l', x.2.InRange) →
    SameButVelocities ch (l.countP (fun x => x.2.isNoteOn)) (bodyBytes l) (bodyBytes l') ∧
    List.Forall₂ (fun a b => a.1 = b.1 ∧ Msg.SameButVelocity a.2 b.2) l l' := by
  intro l
  induction l with
  | nil =>
    intro l' h _ _
    cases l' with
    | nil => exact ⟨.same _, .nil⟩
    | cons y l' => cases h
  | cons x l ih =>
    intro l' h hl hl'
    cases l' with
    | nil => cases h
    | cons y l' =>
      rw [List.map_cons, List.map_cons] at h
      obtain ⟨h1, h2⟩ := List.cons.inj h
      obtain ⟨i1, i2⟩ := ih l' h2 (fun z hz => hl z (by simp [hz])) (fun z hz => hl' z (by simp [hz]))
      obtain ⟨d, m⟩ := x
      obtain ⟨d', m'⟩ := y
      obtain ⟨rfl, hm⟩ := Prod.mk.inj h1
      have eq_case : m = m' → m.isNoteOn = false →
          SameButVelocities ch (((d, m) :: l).countP (fun x => x.2.isNoteOn)) (bodyBytes ((d, m) :: l))
            (bodyBytes ((d, m') :: l')) ∧
          List.Forall₂ (fun a b => a.1 = b.1 ∧ Msg.SameButVelocity a.2 b.2) ((d, m) :: l) ((d, m') :: l') := by
        intro e hf
        subst e
        refine ⟨?_, .cons ⟨rfl, .same _⟩ i2⟩
        rw [List.countP_cons_of_neg (by simp [hf])]
        exact i1.prefix _
      cases m with
      | noteOn c p v =>
        cases m' with
        | noteOn c' p' v' =>
          obtain ⟨r1, r2⟩ := hl (d, .noteOn c p v) (by simp)
          have r3 := hl' (d, .noteOn c' p' v') (by simp)
          have hc := r2 c p v rfl
          simp only [Msg.mute, Msg.noteOn.injEq, and_true] at hm
          obtain ⟨rfl, rfl⟩ := hm
          subst hc
          refine ⟨?_, .cons ⟨rfl, .noteOn _ _ _ _⟩ i2⟩
          rw [List.countP_cons_of_pos (by rfl)]
          have lt : ∀ k : Nat, k < 128 → UInt8.ofNat k < 128 := by
            intro k hk
            rw [UInt8.lt_iff_toNat_lt, UInt8.toNat_ofNat']
            show k % 2 ^ 8 < 128
            omega
          exact .note (vlq d) _ _ _ (lt v r1.2.2) (lt v' r3.2.2) i1
        | _ => cases hm
      | noteOff c p v => exact eq_case (by cases m' <;> first | exact hm | cases hm) rfl
      | timeSignature => exact eq_case (by cases m' <;> first | exact hm | cases hm) rfl
      | tempo => exact eq_case (by cases m' <;> first | exact hm | cases hm) rfl
      | endOfTrack => exact eq_case (by cases m' <;> first | exact hm | cases hm) rfl

theorem noteOns_deltaMsgs : ∀ (l : List (Nat × Msg)) (last : Nat),
    (deltaMsgs last l).countP (fun x => x.2.isNoteOn) = l.countP (fun x => x.2.isNoteOn) := by
  intro l
  induction l with
  | nil => intro _; rfl
  | cons x l ih =>
    intro last
    obtain ⟨t, m⟩ := x
    rw [deltaMsgs, List.countP_cons, List.countP_cons, ih]

theorem noteOns_allMsgs (w : Writer) (s : Signature) (tempo : Nat) (items : List Entry) :
    (allMsgs w s tempo items).countP (fun x => x.2.isNoteOn) = items.length := by
  unfold allMsgs
  rw [List.countP_append, List.countP_append, noteOns_deltaMsgs, sortedMsgs, (stableSort_perm _ _).countP_eq]
  have : (noteMsgs w items).countP (fun x => x.2.isNoteOn) = items.length := by
    induction items with
    | nil => rfl
    | cons e l ih =>
      unfold noteMsgs at ih ⊢
      rw [List.flatMap_cons, List.countP_append, ih, List.length_cons]
      show 1 + l.length = l.length + 1
      omega
  rw [this]
  simp [sigMsg, Msg.isNoteOn]

theorem dumps_muted (S : ListSort) {w : Writer} (hw : w.Valid) {t u : Track} (ht : t.WF) (hu : u.WF)
    (hsig : u.signature = t.signature)
    (hperm : ((u.items S).map Entry.shape).Perm ((t.items S).map Entry.shape))
    (hm : (sortedMsgs w (t.items S)).map muted = (sortedMsgs w (u.items S)).map muted) :
    (∃ a b es es', w.dumps S t = .ok a ∧ w.dumps S u = .ok b ∧ SameButVelocities w.channel.toNat t.len a b ∧
      IsSmf w.ppq.toNat es a ∧ IsSmf w.ppq.toNat es' b ∧
      List.Forall₂ (fun x y => x.1 = y.1 ∧ Msg.SameButVelocity x.2 y.2) es es') ∨
    (∃ e, w.dumps S t = .error e ∧ w.dumps S u = .error e) := by
  have hpitch : (∀ e ∈ u.items S, e.2.PitchOk w.middleCDelta) ↔ ∀ e ∈ t.items S, e.2.PitchOk w.middleCDelta := by
    have key : ∀ A : List Entry, (∀ e ∈ A, e.2.PitchOk w.middleCDelta) ↔
        ∀ q ∈ A.map Entry.shape, 0 ≤ q.2.1 + w.middleCDelta ∧ q.2.1 + w.middleCDelta ≤ 127 := by
      intro A
      rw [List.forall_mem_map]
      rfl
    rw [key, key]
    exact ⟨fun h q hq => h q (hperm.mem_iff.mpr hq), fun h q hq => h q (hperm.mem_iff.mp hq)⟩
  unfold dumps
  by_cases hp : ∀ e ∈ t.items S, e.2.PitchOk w.middleCDelta
  swap
  · rw [dump_pitch S hw ht [] hp, dump_pitch S hw hu [] (hpitch.not.mpr hp)]
    exact Or.inr ⟨_, rfl, rfl⟩
  have hp' := hpitch.mpr hp
  by_cases hf : SignatureFits t.signature ∧ w.ppq ≤ 255
  swap
  · rw [dump_sig S hw ht [] hp hf, dump_sig S hw hu [] hp' (by rw [hsig]; exact hf)]
    exact Or.inr ⟨_, rfl, rfl⟩
  obtain ⟨hf, hq⟩ := hf
  have hf' : SignatureFits u.signature := by rw [hsig]; exact hf
  by_cases hb : ∃ tempo, TempoFits w.bpm tempo
  swap
  · rw [dump_tempo S hw ht [] hp hf hq hb, dump_tempo S hw hu [] hp' hf' hq hb]
    exact Or.inr ⟨_, rfl, rfl⟩
  obtain ⟨tempo, hb⟩ := hb
  rw [dump_fits S hw ht [] hp hf hq hb, dump_fits S hw hu [] hp' hf' hq hb, hsig]
  have hall := allMsgs_muted w t.signature tempo hm
  have hr := msgs_inRange hw ht.sig (Track.items_valid S ht) hp hf hq hb
  have hr' := msgs_inRange hw hu.sig (Track.items_valid S hu) hp' hf' hq hb
  rw [hsig] at hr'
  obtain ⟨r1, r2⟩ := same_of_muted w.channel.toNat _ _ hall
    (fun x hx => ⟨hr x hx, fun c p v hcpv => by
      unfold allMsgs at hx
      simp only [List.mem_append, List.mem_cons, List.not_mem_nil, or_false] at hx
      rcases hx with ((rfl | rfl) | hx) | rfl
      · simp [sigMsg] at hcpv
      · cases hcpv
      · obtain ⟨y, hy, he⟩ := mem_deltaMsgs _ _ _ hx
        obtain ⟨e, _, rfl | rfl⟩ := mem_sortedMsgs.1 hy
        · rw [← he] at hcpv
          cases hcpv
          rfl
        · rw [← he] at hcpv
          cases hcpv
      · cases hcpv⟩) hr'
  rw [noteOns_allMsgs] at r1
  have hlen : (bodyBytes (allMsgs w t.signature tempo (t.items S))).length =
      (bodyBytes (allMsgs w t.signature tempo (u.items S))).length := by
    rw [← bodyBytes_muted_length, hall, bodyBytes_muted_length]
  by_cases hl : (bodyBytes (allMsgs w t.signature tempo (t.items S))).length < 2 ^ 32
  · rw [if_pos hl, if_pos (hlen ▸ hl)]
    refine Or.inl ⟨_, _, _, _, rfl, rfl, ?_, isSmf_of hw hr hl, isSmf_of hw hr' (hlen ▸ hl), r2⟩
    rw [← hlen]
    have : (t.items S).length = t.len := Track.items_length S t
    rw [this] at r1
    exact (r1.prefix _).prefix _
  · rw [if_neg hl, if_neg (hlen ▸ hl)]
    exact Or.inr ⟨_, rfl, rfl⟩

end Writer

theorem shape_perm (S : ListSort) {t u : Track}
    (h : u.contents.map withoutVelocity = t.contents.map withoutVelocity) :
    ((u.items S).map Entry.shape).Perm ((t.items S).map Entry.shape) := by
  have key : ∀ x : Track, (((x.items S).map Entry.shape : List _) : Multiset _) =
      (x.contents.map withoutVelocity).map (fun q => (q.1, q.2.1.pitch, q.2.2.val)) := by
    intro x
    rw [← Track.items_placed S x, Multiset.map_map, Multiset.map_coe, List.map_map]
    rfl
  rw [← Multiset.coe_eq_coe, key, key, h]

section
variable [UnicodeDigits]

/-- C82: the file of the track with randomized velocities is the old file with at most the velocity bytes of its note-on
messages replaced; or both calls fail, with the same error. Condition: every note lasts at least a pulse, or notes of equal
tone at one position have durations that compare correctly. Missing: tracks without either (`C82_violated`). -/
theorem C82_file_partial (S : ListSort) (w : Writer) (hw : w.Valid) (t : Track) (ht : t.Reachable S)
    (hcond : ConsistentPlaced t.contents ∨ ∀ x ∈ t.contents, 1 ≤ pulsesOf w.ppq x.2.duration.val)
    (lo hi mean variance : PyFloat) (gauss : Nat → PyFloat) (u : Track)
    (hu : (randomizeVelocities S t lo hi mean variance gauss).2 = .ok u) :
    (∃ a b es es', w.dumps S t = .ok a ∧ w.dumps S u = .ok b ∧ SameButVelocities w.channel.toNat t.len a b ∧
      IsSmf w.ppq.toNat es a ∧ IsSmf w.ppq.toNat es' b ∧
      List.Forall₂ (fun x y => x.1 = y.1 ∧ Msg.SameButVelocity x.2 y.2) es es') ∨
    (∃ e, w.dumps S t = .error e ∧ w.dumps S u = .error e) := by
  obtain ⟨h1, h2, h3, h4⟩ := C28_result S t ht lo hi mean variance gauss u hu
  have huwf : u.WF := by
    by_cases h : (∃ q, lo = .fin q ∧ 0 ≤ q ∧ q ≤ 1) ∧ (∃ q, hi = .fin q ∧ 0 ≤ q ∧ q ≤ 1) ∧
      (∃ q, mean = .fin q ∧ 0 ≤ q ∧ q ≤ 1) ∧ (PyFloat.fin 0).le variance = true
    · obtain ⟨⟨l, rfl, hl⟩, ⟨hh, rfl, hhh⟩, ⟨m, rfl, hm⟩, hv⟩ := h
      obtain ⟨u', g1, g2, g3, g4⟩ := randomizeVelocities_spec S ht.wf hl hhh hm hv gauss
      rw [g1] at hu
      cases hu
      exact g2
    · rw [randomizeVelocities_bad S t gauss h] at hu
      cases hu
  have hperm := shape_perm S h3
  refine Writer.dumps_muted S hw ht.wf huwf h1 hperm ?_
  rcases hcond with hc | hd
  · have := C28_sequence_consistent S t ht hc lo hi mean variance gauss u hu
    rw [Writer.sortedMsgs_muted, Writer.sortedMsgs_muted]
    congr 2
    exact this.symm
  · refine Writer.sortedMsgs_shapes w _ _ hperm.symm (Track.iter_sortedPitch S ht.wf) (Track.iter_sortedPitch S huwf) ?_
    intro e he
    refine hd e.placed ?_
    rw [← Track.items_placed S t]
    exact Multiset.mem_coe.mpr (List.mem_map_of_mem he)

end

/-- Three notes of one tone at one position; with 96 pulses per quarter two of them last less than a pulse. -/
def exShortOps : List TrackOp :=
  [.add (.note (exNote 40 1 512)) (some (.ints [0, 1])), .add (.note (exNote 40 1 256)) (some (.ints [0, 1])),
    .add (.note (exNote 40 1 512)) (some (.ints [0, 1]))]

theorem exShortOps_valid : ∀ o ∈ exShortOps, o.Valid := by
  intro o ho
  have h1 := exNote_valid 40 1 9 (by decide)
  have h2 := exNote_valid 40 1 8 (by decide)
  simp only [exShortOps, List.mem_cons, List.not_mem_nil, or_false] at ho
  rcases ho with rfl | rfl | rfl
  · exact ⟨by intro n hn; simp [What.notes] at hn; subst hn; exact h1, by rintro a ha; cases ha; trivial⟩
  · exact ⟨by intro n hn; simp [What.notes] at hn; subst hn; exact h2, by rintro a ha; cases ha; trivial⟩
  · exact ⟨by intro n hn; simp [What.notes] at hn; subst hn; exact h1, by rintro a ha; cases ha; trivial⟩

/-- The track of these notes. -/
def exShort : Track := (Track.empty ⟨4, 4⟩).run cpySort exShortOps

/-- The track `randomize_velocities` returns, if the call returns. -/
def exShortRandomized : Track :=
  match (@randomizeVelocities ⟨fun _ => none⟩ cpySort exShort (.fin 0) (.fin 1) (.fin 1) (.fin 0) (fun _ => .fin 1)).2 with
  | .ok t => t
  | .error _ => Track.empty ⟨4, 4⟩

/-- The bytes both files begin with. -/
def exShortHead : Bytes :=
  [77, 84, 104, 100, 0, 0, 0, 6, 0, 0, 0, 1, 0, 96, 77, 84, 114, 107, 0, 0, 0, 43, 0, 255, 88, 4, 4, 2, 96, 8,
    0, 255, 81, 3, 7, 161, 32, 0, 147, 64, 127, 0]

/-- C82 refuted: for notes shorter than a pulse with durations that compare wrongly, the file changes in more than
velocities. Here all velocities even stay what they were, but note-off and note-on messages change places. -/
theorem C82_violated : ∃ (t : Track) (u : Track) (a b : Bytes), t.Reachable cpySort ∧
    (@randomizeVelocities ⟨fun _ => none⟩ cpySort t (.fin 0) (.fin 1) (.fin 1) (.fin 0) (fun _ => .fin 1)).2 = .ok u ∧
    exWriter.dumps cpySort t = .ok a ∧ exWriter.dumps cpySort u = .ok b ∧ ∀ ch n, ¬ SameButVelocities ch n a b := by
  refine ⟨exShort, exShortRandomized,
    exShortHead ++ [147, 64, 127, 0, 131, 64, 64, 0, 147, 64, 127, 0, 131, 64, 64, 1, 131, 64, 64, 0, 255, 47, 0],
    exShortHead ++ [131, 64, 64, 0, 147, 64, 127, 0, 147, 64, 127, 0, 131, 64, 64, 1, 131, 64, 64, 0, 255, 47, 0],
    ⟨⟨4, 4⟩, exShortOps, ⟨by decide, 2, rfl⟩, exShortOps_valid, rfl⟩, by decide +kernel, by decide +kernel,
    by decide +kernel, ?_⟩
  intro ch n h
  have := h.bytes
  revert this
  unfold exShortHead
  decide

/-- A case in which the velocity byte changes and nothing else does. -/
example : ∃ u, (@randomizeVelocities ⟨fun _ => none⟩ cpySort ((Track.empty ⟨4, 4⟩).run cpySort
      [.add (.note (exNote 40 1 4)) (some (.ints [0, 1]))]) (.fin 0) (.fin (1 / 2)) (.fin 1) (.fin 0) (fun _ => .fin 1)).2 =
        .ok u ∧
    exWriter.dumps cpySort ((Track.empty ⟨4, 4⟩).run cpySort [.add (.note (exNote 40 1 4)) (some (.ints [0, 1]))]) =
      .ok ([77, 84, 104, 100, 0, 0, 0, 6, 0, 0, 0, 1, 0, 96, 77, 84, 114, 107, 0, 0, 0, 27, 0, 255, 88, 4, 4, 2, 96, 8,
        0, 255, 81, 3, 7, 161, 32, 0] ++ [0x93, 64, 127] ++ [96, 131, 64, 64, 0, 255, 47, 0]) ∧
    exWriter.dumps cpySort u =
      .ok ([77, 84, 104, 100, 0, 0, 0, 6, 0, 0, 0, 1, 0, 96, 77, 84, 114, 107, 0, 0, 0, 27, 0, 255, 88, 4, 4, 2, 96, 8,
        0, 255, 81, 3, 7, 161, 32, 0] ++ [0x93, 64, 63] ++ [96, 131, 64, 64, 0, 255, 47, 0]) :=
  ⟨⟨⟨4, 4⟩, 1, ⟨1, 4⟩, [(⟨0, 1⟩, ⟨⟨40⟩, ⟨1, 4⟩, 1 / 2⟩)], false⟩, by decide +kernel, by decide +kernel, by decide +kernel⟩

end Melodia
