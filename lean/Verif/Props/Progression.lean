/-
Property theorems C78 (programs of the kind shown in the README).
-/
import Verif.Spec.Progression
import Verif.Props.Approx
import Verif.Props.Capacity

set_option autoImplicit false

namespace Melodia

variable [UnicodeDigits]

/-- Groups of notes of one duration and different pitches. -/
structure EvenChord (ns : List Note) : Prop where
  valid : ∀ n ∈ ns, n.Valid
  even : EvenGroup ns
  pitches : ns.Pairwise (fun a b => a.tone.pitch ≠ b.tone.pitch)
  few : ns.length ≤ 6

theorem ChordCall.Denotes.even {c : ChordCall} {ns : List Note} (h : c.Denotes ns) :
    c.fn.call c.base c.duration c.velocity = .ok ns ∧ EvenChord ns := by
  obtain ⟨g, hg, hn, p, s, q, h1, h2, h3, h4, h5, h6, rfl⟩ := h.notes
  have hc := (C30_chord c.fn h.documented c.base c.duration c.velocity _).mpr ⟨g, hg, hn, p, s, q, h1, h2, h4, h5, h6, rfl⟩
  have hv : ∀ n ∈ g.notation'.map (fun k => (⟨⟨p + k⟩, s, q⟩ : Note)), n.Valid := by
    intro n hm
    obtain ⟨k, -, rfl⟩ := List.mem_map.mp hm
    exact ⟨h3, h5, h6⟩
  refine ⟨hc, hv, (C65_chord _ h.documented _ _ _ _ hc hv).1, ?_, ?_⟩
  · have := (C30_ascending _ h.documented _ _ _ _ hc).2
    rw [List.pairwise_map] at this
    exact this.imp (fun h => ne_of_lt h)
  · rw [List.length_map]
    exact (by decide +kernel : ∀ g ∈ generatorChords, g.notation'.length ≤ 6) g hg

theorem addChords_eq : ∀ (calls : List ChordCall) (gs : List (List Note)) (t : Track),
    List.Forall₂ ChordCall.Denotes calls gs →
    addChords t calls = t.addContent (gs.map (fun ns => (.many (ns.map .note), none))) := by
  intro calls gs t h
  induction h generalizing t with
  | nil => rfl
  | @cons c ns calls gs h1 h2 ih =>
    rw [addChords, h1.even.1]
    change (t.add (.many (ns.map .note)) none >>= fun t => addChords t calls) = _
    rw [List.map_cons, Track.addContent]
    rcases t.add (.many (ns.map .note)) none with e | t'
    · rfl
    · exact ih t'

omit [UnicodeDigits] in
theorem notesList_map : ∀ ns : List Note, What.notesList (ns.map .note) = ns := by
  intro ns
  induction ns with
  | nil => rfl
  | cons n ns ih => rw [List.map_cons, What.notesList, ih]; rfl

omit [UnicodeDigits] in
theorem forall₂_right {α β : Type} {R : α → β → Prop} {l : List α} {m : List β} (h : List.Forall₂ R l m) {b : β}
    (hb : b ∈ m) : ∃ a ∈ l, R a b := by
  induction h with
  | nil => cases hb
  | @cons a b' l m h1 h2 ih =>
    rcases List.mem_cons.mp hb with rfl | hb
    · exact ⟨a, by simp, h1⟩
    · obtain ⟨a', h3, h4⟩ := ih hb
      exact ⟨a', by simp [h3], h4⟩

/-- C78: any sequence of calls of chord functions builds the track with these chords laid end to end. -/
theorem C78_track (S : ListSort) (sig : SigArg) (s : Signature) (hs : SigDenotes sig s) (hv : s.Valid)
    (calls : List ChordCall) (gs : List (List Note)) (h : List.Forall₂ ChordCall.Denotes calls gs) :
    ∃ t, progressionTrack sig calls = .ok t ∧ t.Reachable S ∧ t.signature = s ∧
      t.contents = (laidOut 0 gs : Multiset _) ∧ t.length.val = laidLength gs := by
  have hw : ∀ ns ∈ gs, EvenChord ns := by
    intro ns hns
    obtain ⟨c, -, hc⟩ := forall₂_right h hns
    exact hc.even.2
  have hrun := addContent_eq_run S (gs.map (fun ns => (What.many (ns.map .note), (none : Option SigArg))))
    (Track.empty_wf hv) (by
      intro c hc
      obtain ⟨ns, hns, rfl⟩ := List.mem_map.mp hc
      refine ⟨?_, by simp⟩
      intro n hn
      rw [What.notes, notesList_map] at hn
      exact (hw ns hns).valid n hn)
  have h2 := hrun.1 (by
    intro c hc a ha
    obtain ⟨ns, -, rfl⟩ := List.mem_map.mp hc
    cases ha)
  rw [List.map_map] at h2
  set ops : List TrackOp := gs.map ((fun c : What × Option SigArg => TrackOp.add c.1 c.2) ∘ fun ns => (What.many (ns.map .note), none))
    with hops
  have hfilter : TrackOp.withoutObservations ops = (gs.map (fun ns => What.many (ns.map .note))).map (fun w => .add w none) := by
    rw [hops, List.map_map]
    unfold TrackOp.withoutObservations
    refine (List.filter_eq_self.mpr ?_).trans rfl
    intro o ho
    obtain ⟨ns, -, rfl⟩ := List.mem_map.mp ho
    rfl
  have hval : ∀ o ∈ ops, o.Valid := by
    intro o ho
    obtain ⟨ns, hns, rfl⟩ := List.mem_map.mp ho
    refine ⟨?_, by simp⟩
    intro n hn
    rw [What.notes, notesList_map] at hn
    exact (hw ns hns).valid n hn
  have hnotes : (gs.map (fun ns => What.many (ns.map .note))).map What.notes = gs := by
    rw [List.map_map]
    conv_rhs => rw [← List.map_id gs]
    apply List.map_congr_left
    intro ns _
    exact notesList_map ns
  have hmem : ∀ w ∈ gs.map (fun ns => What.many (ns.map .note)), ∃ ns ∈ gs, w.notes = ns := by
    intro w hw
    obtain ⟨ns, hns, rfl⟩ := List.mem_map.mp hw
    exact ⟨ns, hns, notesList_map ns⟩
  obtain ⟨k1, k2⟩ := C65_sequence S (Track.empty s) ⟨s, [], hv, by simp, rfl⟩ (gs.map (fun ns => What.many (ns.map .note)))
    (by
      intro w hw' n hn
      obtain ⟨ns, hns, e⟩ := hmem w hw'
      rw [e] at hn
      exact (hw ns hns).valid n hn)
    (by
      intro w hw'
      obtain ⟨ns, hns, e⟩ := hmem w hw'
      rw [e]
      exact (hw ns hns).even) ops hfilter
  have hl : (Track.empty s).length.val = 0 := by norm_num [Track.empty, Track.length, Signature.val]
  have hc : (Track.empty s).contents = 0 := rfl
  rw [hnotes, hl] at k1 k2
  rw [hc, add_zero] at k1
  rw [zero_add] at k2
  refine ⟨(Track.empty s).run S ops, ?_, ⟨s, ops, hv, hval, rfl⟩, ?_, k1, k2⟩
  · unfold progressionTrack Track.new
    rw [SigArg.coerce_ok_iff.mpr hs]
    change addChords (Track.empty s) calls = _
    rw [addChords_eq calls gs _ h]
    exact h2
  · exact (Track.run_wf S ops (Track.empty_wf hv) hval).2

omit [UnicodeDigits] in
/-- A duration with denominator at most 128 is a whole number of pulses. -/
theorem whole_of_common {s : Signature} (hv : s.Valid) (h : s.denominator ≤ 128) :
    ∃ k : Nat, 4 * ((96 : Int) : ℚ) * s.val = k := by
  obtain ⟨j, hj⟩ := IsPow2.dvd hv.den (⟨7, by norm_num⟩ : IsPow2 128) h
  have hp := hv.den.pos
  have hn := hv.nom
  have hj0 : 0 < j := by
    by_contra hc
    push Not at hc
    nlinarith
  refine ⟨(3 * s.nominator * j).toNat, ?_⟩
  have e : (((3 * s.nominator * j).toNat : Nat) : ℚ) = ((3 * s.nominator * j : Int) : ℚ) := by
    have : ((3 * s.nominator * j).toNat : Int) = 3 * s.nominator * j := Int.toNat_of_nonneg (by positivity)
    exact_mod_cast this
  rw [e]
  have hd : (s.denominator : ℚ) ≠ 0 := by exact_mod_cast hp.ne'
  have hq : (128 : ℚ) = s.denominator * j := by exact_mod_cast hj
  unfold Signature.val
  push_cast
  field_simp
  have e2 : (s.nominator : ℚ) * s.denominator * 3 * j = 3 * s.nominator * (s.denominator * j) := by ring
  rw [e2, ← hq]
  ring

omit [UnicodeDigits] in
theorem longest_le_laidLength : ∀ (gs : List (List Note)) (x : ℚ), ∀ p ∈ laidOut x gs,
    p.1 + p.2.duration.val ≤ x + laidLength gs := by
  intro gs
  induction gs with
  | nil => intro x p hp; cases hp
  | cons g gs ih =>
    intro x p hp
    rw [laidOut] at hp
    rw [laidLength]
    have hl : ∀ (g : List Note), ∀ n ∈ g, n.duration.val ≤ longest g := by
      intro g
      induction g with
      | nil => simp
      | cons m g ih =>
        intro n hn
        rcases List.mem_cons.mp hn with rfl | hn
        · exact le_max_left _ _
        · exact le_max_of_le_right (ih n hn)
    have hL : ∀ gs : List (List Note), 0 ≤ laidLength gs := by
      intro gs
      induction gs with
      | nil => exact le_rfl
      | cons g gs ih => exact add_nonneg (longest_nonneg g) ih
    rcases List.mem_append.mp hp with hp | hp
    · obtain ⟨n, hn, rfl⟩ := List.mem_map.mp hp
      have := hl g n hn
      have := hL gs
      simp only
      linarith
    · have := ih _ p hp
      linarith

omit [UnicodeDigits] in
theorem laidOut_whole : ∀ (gs : List (List Note)) (x : ℚ), (∃ k : Nat, 4 * ((96 : Int) : ℚ) * x = k) →
    (∀ g ∈ gs, ∀ n ∈ g, ∃ k : Nat, 4 * ((96 : Int) : ℚ) * n.duration.val = k) →
    ∀ p ∈ laidOut x gs, ∃ k : Nat, 4 * ((96 : Int) : ℚ) * p.1 = k := by
  intro gs
  induction gs with
  | nil => intro x _ _ p hp; cases hp
  | cons g gs ih =>
    intro x hx h p hp
    rw [laidOut] at hp
    rcases List.mem_append.mp hp with hp | hp
    · obtain ⟨n, hn, rfl⟩ := List.mem_map.mp hp
      exact hx
    · refine ih _ ?_ (fun g hg => h g (by simp [hg])) p hp
      have hl : ∀ g : List Note, (∀ n ∈ g, ∃ k : Nat, 4 * ((96 : Int) : ℚ) * n.duration.val = k) →
          ∃ k : Nat, 4 * ((96 : Int) : ℚ) * longest g = k := by
        intro g
        induction g with
        | nil => intro _; exact ⟨0, by simp [longest]⟩
        | cons m g ih =>
          intro hg
          rw [longest]
          rcases max_choice m.duration.val (longest g) with e | e <;> rw [e]
          · exact hg m (by simp)
          · exact ih (fun n hn => hg n (by simp [hn]))
      obtain ⟨a, ha⟩ := hx
      obtain ⟨b, hb⟩ := hl g (h g (by simp))
      exact ⟨a + b, by rw [mul_add, ha, hb]; push_cast; rfl⟩

omit [UnicodeDigits] in
theorem mem_laidOut : ∀ (gs : List (List Note)) (x : ℚ), ∀ p ∈ laidOut x gs, ∃ g ∈ gs, p.2 ∈ g := by
  intro gs
  induction gs with
  | nil => intro x p hp; cases hp
  | cons g gs ih =>
    intro x p hp
    rw [laidOut] at hp
    rcases List.mem_append.mp hp with hp | hp
    · obtain ⟨n, hn, rfl⟩ := List.mem_map.mp hp
      exact ⟨g, by simp, hn⟩
    · obtain ⟨g', h1, h2⟩ := ih _ p hp
      exact ⟨g', by simp [h1], h2⟩

omit [UnicodeDigits] in
theorem laidOut_length : ∀ (gs : List (List Note)) (x : ℚ), (∀ g ∈ gs, g.length ≤ 6) →
    (laidOut x gs).length ≤ 6 * gs.length := by
  intro gs
  induction gs with
  | nil => intro x _; simp [laidOut]
  | cons g gs ih =>
    intro x h
    rw [laidOut, List.length_append, List.length_map, List.length_cons]
    have := h g (by simp)
    have := ih (x + longest g) (fun g hg => h g (by simp [hg]))
    omega

/-- C78: the whole program, and reading the file back: any progression of at most 199728 chords with tones from C-2 to
G8, durations of multiples of 1/128 or coarser, audible velocities, and a total length of at most 699050 whole notes
is written without error, and the file holds exactly these chords one after the other. -/
theorem C78_file (S : ListSort) (sig : SigArg) (s : Signature) (hs : SigDenotes sig s) (hv : s.Valid)
    (hsig : s.nominator < 256 ∧ s.denominator < 2 ^ 256)
    (calls : List ChordCall) (gs : List (List Note)) (h : List.Forall₂ ChordCall.Denotes calls gs)
    (hn : calls.length ≤ 199728) (hlen : laidLength gs ≤ 699050)
    (htone : ∀ g ∈ gs, ∀ n ∈ g, -24 ≤ n.tone.pitch ∧ n.tone.pitch ≤ 103)
    (hdur : ∀ g ∈ gs, ∀ n ∈ g, 0 < n.duration.val ∧ n.duration.denominator ≤ 128)
    (hvel : ∀ g ∈ gs, ∀ n ∈ g, 1 ≤ velByte n.velocity)
    (q : ℚ) (hq : 4 ≤ q) (ch : Int) (hc0 : 0 ≤ ch) (hc1 : ch ≤ 15) :
    ∃ bytes t', progressionFile S sig calls (.fin q) ch = .ok bytes ∧ midiLoads S bytes = .ok t' ∧
      t'.signature.eq s = true ∧ t'.contents = ((laidOut 0 gs).map midiNote : Multiset _) := by
  obtain ⟨t, h1, h2, h3, h4, -⟩ := C78_track S sig s hs hv calls gs h
  have hw : ∀ ns ∈ gs, EvenChord ns := by
    intro ns hns
    obtain ⟨c, -, hc⟩ := forall₂_right h hns
    exact hc.even.2
  have hmem : ∀ p ∈ t.contents, p ∈ laidOut 0 gs := by
    intro p hp
    rw [h4] at hp
    exact Multiset.mem_coe.mp hp
  have hnote : ∀ p ∈ t.contents, ∃ g ∈ gs, p.2 ∈ g := fun p hp => mem_laidOut gs 0 p (hmem p hp)
  have hwhole : ∀ g ∈ gs, ∀ n ∈ g, ∃ k : Nat, 4 * ((96 : Int) : ℚ) * n.duration.val = k :=
    fun g hg n hn => whole_of_common ((hw g hg).valid n hn).duration (hdur g hg n hn).2
  obtain ⟨g1, g2⟩ := laidOut_pairwise gs 0 (fun g hg n hn => (hdur g hg n hn).1) (fun g hg => (hw g hg).pitches)
  have hno : NoOverlap t := by
    intro a b hab hp
    rw [h4] at hab
    have hab : (([a, b] : List (ℚ × Note)) : Multiset (ℚ × Note)) ≤ _ := hab
    rw [Multiset.coe_le] at hab
    obtain ⟨l, hl, hs⟩ := hab
    have hpw := g1.sublist hs
    rcases List.perm_pair.mp hl with rfl | rfl
    · simp only [List.pairwise_cons, List.mem_singleton, forall_eq] at hpw
      exact Or.inl (hpw.1 hp)
    · simp only [List.pairwise_cons, List.mem_singleton, forall_eq] at hpw
      exact Or.inr (hpw.1 hp.symm)
  obtain ⟨bytes, t', k1, k2, k3, k4⟩ := C75_roundtrip S q hq ch hc0 hc1 t h2
    (by
      have := laidOut_length gs 0 (fun g hg => (hw g hg).few)
      rw [Track.len_eq_card, h4, Multiset.coe_card]
      rw [h.length_eq] at hn
      omega)
    (by rw [h3]; exact hsig)
    (fun p hp => by obtain ⟨g, hg, hm⟩ := hnote p hp; exact htone g hg _ hm)
    (fun p hp => by have := longest_le_laidLength gs 0 p (hmem p hp); linarith)
    (fun p hp => ⟨laidOut_whole gs 0 ⟨0, by simp⟩ hwhole p (hmem p hp), by
      obtain ⟨g, hg, hm⟩ := hnote p hp; exact hwhole g hg _ hm⟩)
    (fun p hp => by obtain ⟨g, hg, hm⟩ := hnote p hp; exact hvel g hg _ hm)
    hno
    (distinctStarts_of hno fun p hp => by obtain ⟨g, hg, hm⟩ := hnote p hp; exact (hdur g hg _ hm).1)
  refine ⟨bytes, t', ?_, k2, by rw [← h3]; exact k3, by rw [k4, h4, Multiset.map_coe]⟩
  unfold progressionFile
  rw [h1]
  exact k1

theorem reads_octave3 {c : Char} (hc : IsLetter c) : Reads [c, '3'] (36 + letterSemitone c) [] := by
  refine ⟨c, [], ['3'], 3, rfl, hc, by simp, ?_, ?_, by simp⟩
  · intro a t h
    rw [List.append_nil, List.cons.injEq] at h
    rw [← h.1]
    simp [IsAccidental]
  · have : OctaveText ['3'] ((decValue ['3'] : Nat) : Int) [] := .pos ['3'] [] (by simp)
      (by intro c hc; rw [List.mem_singleton] at hc; exact ⟨3, by rw [hc]; rfl⟩) (by simp)
    exact this

omit [UnicodeDigits] in
/-- `chord.<f>('<c>3', (1, 1))`. -/
def wholeChord (f : ChordFn) (c : Char) : ChordCall := ⟨f, .str [c, '3'], some (.ints [1, 1]), none⟩

theorem wholeChord_denotes (g : GenChord) (hg : g ∈ generatorChords) (f : ChordFn) (hf : f ∈ chordFunctions)
    (hn : f.name.toList ∈ g.names) {c : Char} (hc : IsLetter c) :
    (wholeChord f c).Denotes (g.notation'.map (fun k => ⟨⟨36 + letterSemitone c + k⟩, ⟨1, 1⟩, 3 / 4⟩)) :=
  ⟨hf, g, hg, hn, 36 + letterSemitone c, ⟨1, 1⟩, 3 / 4, .str _ _ [] (reads_octave3 hc),
    .given _ _ _ (.pair 1 1 (by decide) ⟨0, rfl⟩), ⟨by decide, ⟨0, rfl⟩⟩, .default _ (by simp [wholeChord]), by norm_num, by norm_num, rfl⟩

omit [UnicodeDigits] in
/-- The calls of README.rst:45-48. -/
def readmeCalls : List ChordCall :=
  [wholeChord ⟨"maj", [0, 4, 7]⟩ 'C', wholeChord ⟨"maj", [0, 4, 7]⟩ 'D', wholeChord ⟨"min", [0, 3, 7]⟩ 'A',
    wholeChord ⟨"maj7", [0, 4, 7, 11]⟩ 'G']

omit [UnicodeDigits] in
/-- A whole note of the default velocity. -/
def wholeNote (pitch : Int) : Note := ⟨⟨pitch⟩, ⟨1, 1⟩, 3 / 4⟩

omit [UnicodeDigits] in
/-- The chords of README.rst:45-48. -/
def readmeChords : List (List Note) :=
  [[36, 40, 43], [38, 42, 45], [45, 48, 52], [43, 47, 50, 54]].map (List.map wholeNote)

theorem readme_denotes : List.Forall₂ ChordCall.Denotes readmeCalls readmeChords :=
  .cons (wholeChord_denotes ⟨"major,maj", "Major Triad", [0, 4, 7]⟩ (by simp [generatorChords]) _ (by decide +kernel) (by decide +kernel) (by simp [IsLetter]))
    (.cons (wholeChord_denotes ⟨"major,maj", "Major Triad", [0, 4, 7]⟩ (by simp [generatorChords]) _ (by decide +kernel) (by decide +kernel) (by simp [IsLetter]))
    (.cons (wholeChord_denotes ⟨"minor,min", "Minor Triad", [0, 3, 7]⟩ (by simp [generatorChords]) _ (by decide +kernel) (by decide +kernel) (by simp [IsLetter]))
    (.cons (wholeChord_denotes ⟨"major7,maj7", "Major Seventh", [0, 4, 7, 11]⟩ (by simp [generatorChords]) _ (by decide +kernel) (by decide +kernel) (by simp [IsLetter]))
    .nil)))

/-- The README program writes a file, and the file is read back as the 13 notes of the chords, four whole notes long. -/
example (S : ListSort) : ∃ bytes t', progressionFile S (.ints [4, 4]) readmeCalls = .ok bytes ∧
    midiLoads S bytes = .ok t' ∧ t'.signature.eq ⟨4, 4⟩ = true ∧
    t'.contents = ([(0, wholeNote 36), (0, wholeNote 40), (0, wholeNote 43), (1, wholeNote 38), (1, wholeNote 42),
      (1, wholeNote 45), (2, wholeNote 45), (2, wholeNote 48), (2, wholeNote 52), (3, wholeNote 43), (3, wholeNote 47),
      (3, wholeNote 50), (3, wholeNote 54)].map midiNote : Multiset _) := by
  have h := C78_file S (.ints [4, 4]) ⟨4, 4⟩ (.pair 4 4 (by decide) ⟨2, rfl⟩) ⟨by decide, ⟨2, rfl⟩⟩ (by norm_num) readmeCalls
    readmeChords readme_denotes (by decide) (by decide +kernel) (by decide +kernel) (by decide +kernel) (by decide +kernel)
    120 (by norm_num) 0 (by decide) (by decide)
  have e : laidOut 0 readmeChords = [(0, wholeNote 36), (0, wholeNote 40), (0, wholeNote 43), (1, wholeNote 38), (1, wholeNote 42),
      (1, wholeNote 45), (2, wholeNote 45), (2, wholeNote 48), (2, wholeNote 52), (3, wholeNote 43), (3, wholeNote 47),
      (3, wholeNote 50), (3, wholeNote 54)] := by decide +kernel
  rw [e] at h
  exact h

end Melodia
