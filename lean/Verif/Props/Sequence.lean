/-
Property theorems C65 (music added without positions is laid end to end) and C63_constructor.
-/
import Verif.Props.TrackMachine
import Verif.Props.Chord
import Verif.Lemmas.Sequence

set_option autoImplicit false

namespace Melodia

/-! ### C63: the constructor -/

theorem addContent_eq_run (S : ListSort) : ∀ (content : List (What × Option SigArg)) {t : Track}, t.WF →
    (∀ c ∈ content, c.1.Valid ∧ ∀ a, c.2 = some a → a.Valid) →
    ((∀ c ∈ content, ∀ a, c.2 = some a → ∃ s, SigDenotes a s) →
      t.addContent content = .ok (t.run S (content.map (fun c => .add c.1 c.2)))) ∧
    ((∃ c ∈ content, ∃ a, c.2 = some a ∧ ∀ s, ¬ SigDenotes a s) →
      t.addContent content = .error .typeError ∨ t.addContent content = .error .valueError) := by
  intro content
  induction content with
  | nil => intro t _ _; simp [Track.addContent, Track.run]
  | cons c content ih =>
    intro t ht hv
    obtain ⟨w, pos⟩ := c
    obtain ⟨hw, hpos⟩ := hv (w, pos) (by simp)
    simp only at hw hpos
    have hv' : ∀ c ∈ content, c.1.Valid ∧ ∀ a, c.2 = some a → a.Valid := fun c hc => hv c (by simp [hc])
    cases hp : t.posOf pos with
    | ok p =>
      obtain ⟨t', g1, g2, -, -⟩ := Track.add_of_pos ht hw hpos hp
      have hstep : TrackOp.step S t (.add w pos) = t' := by
        simp only [TrackOp.step]; rw [Track.addS_of_ok g1]
      have hc : t.addContent ((w, pos) :: content) = t'.addContent content := by
        rw [Track.addContent, g1]; rfl
      obtain ⟨k1, k2⟩ := ih g2 hv'
      rw [hc]
      refine ⟨fun h => ?_, ?_⟩
      · rw [k1 (fun c hc => h c (by simp [hc]))]
        simp only [List.map_cons, Track.run, List.foldl_cons, hstep]
      · rintro ⟨c, hc, a, ha, hs⟩
        rcases List.mem_cons.mp hc with rfl | hc
        · simp only at ha
          subst ha
          exact absurd (SigArg.coerce_ok_iff.mp hp) (hs p)
        · exact k2 ⟨c, hc, a, ha, hs⟩
    | error e =>
      cases pos with
      | none => cases hp
      | some a =>
        have hc : t.addContent ((w, some a) :: content) = .error e := by
          rw [Track.addContent, Track.add_eq, hp]; rfl
        rw [hc]
        refine ⟨fun h => ?_, fun _ => ?_⟩
        · obtain ⟨s, hs⟩ := h (w, some a) (by simp) a rfl
          have := SigArg.coerce_ok_iff.mpr hs
          change a.coerce = .error e at hp
          rw [hp] at this
          cases this
        · rcases SigArg.coerce_err hp with rfl | rfl
          · exact Or.inl rfl
          · exact Or.inr rfl

/-- C63 (constructor): `Track(signature, content)` is a new track on which the pairs of `content` have been
added one after the other; it raises TypeError or ValueError if the signature or one of the positions
denotes no signature. -/
theorem C63_constructor (S : ListSort) (a : SigArg) (content : List (What × Option SigArg)) (ha : a.Valid)
    (hv : ∀ c ∈ content, c.1.Valid ∧ ∀ b, c.2 = some b → b.Valid) :
    (∀ sig, SigDenotes a sig → (∀ c ∈ content, ∀ b, c.2 = some b → ∃ s, SigDenotes b s) →
      Track.new a content = .ok ((Track.empty sig).run S (content.map (fun c => .add c.1 c.2)))) ∧
    (((∀ sig, ¬ SigDenotes a sig) ∨ ∃ c ∈ content, ∃ b, c.2 = some b ∧ ∀ s, ¬ SigDenotes b s) →
      Track.new a content = .error .typeError ∨ Track.new a content = .error .valueError) := by
  have hnew : ∀ sig, SigDenotes a sig → Track.new a content = (Track.empty sig).addContent content := by
    intro sig hs
    unfold Track.new
    rw [SigArg.coerce_ok_iff.mpr hs]
    rfl
  have hval : ∀ sig, SigDenotes a sig → sig.Valid := by
    intro sig hs
    exact Track.posOf_valid (t := Track.empty ⟨4, 4⟩) (Track.empty_wf ⟨by norm_num, 2, rfl⟩)
      (pos := some a) (by intro b hb; cases hb; exact ha) (SigArg.coerce_ok_iff.mpr hs)
  refine ⟨fun sig hs h => ?_, fun h => ?_⟩
  · rw [hnew sig hs]
    exact (addContent_eq_run S content (Track.empty_wf (hval sig hs)) hv).1 h
  · by_cases hs : ∃ sig, SigDenotes a sig
    · obtain ⟨sig, hs⟩ := hs
      rw [hnew sig hs]
      rcases h with h | h
      · exact absurd hs (h sig)
      · exact (addContent_eq_run S content (Track.empty_wf (hval sig hs)) hv).2 h
    · push Not at hs
      cases hc : a.coerce with
      | ok s => exact absurd (SigArg.coerce_ok_iff.mp hc) (hs s)
      | error e =>
        have : Track.new a content = .error e := by unfold Track.new; rw [hc]; rfl
        rw [this]
        rcases SigArg.coerce_err hc with rfl | rfl
        · exact Or.inl rfl
        · exact Or.inr rfl

example : (∃ t, Track.new (.ints [3, 4]) [(.note (exNote 60 1 4), none), (.note (exNote 62 1 8), some (.ints [1, 2]))] = .ok t ∧
      t.len = 2) ∧
    Track.new (.ints [3, 4]) [(.note (exNote 60 1 4), none), (.note (exNote 62 1 8), some (.ints [1, 3]))] =
      .error .valueError ∧
    Track.new .other [] = .error .typeError := by
  refine ⟨⟨_, rfl, by decide⟩, by decide, by decide⟩

/-! ### C65 -/

/-- C65: on any track, a history that only adds groups of notes without positions (and observes the track in
between) lays the groups end to end from the length of the track on, and the track gets longer by the
sum of the longest durations. Groups: single notes, or several notes none of which has a smaller duration
denominator than an earlier one (other groups: see C22_violated). -/
theorem C65_sequence (S : ListSort) (t : Track) (ht : t.Reachable S) (ws : List What)
    (hw : ∀ w ∈ ws, w.Valid) (he : ∀ w ∈ ws, EvenGroup w.notes) (ops : List TrackOp)
    (hops : TrackOp.withoutObservations ops = ws.map (fun w => .add w none)) :
    (t.run S ops).contents = (laidOut t.length.val (ws.map What.notes) : Multiset _) + t.contents ∧
    (t.run S ops).length.val = t.length.val + laidLength (ws.map What.notes) := by
  have hv : ∀ o ∈ ops, o.Valid := by
    intro o ho
    cases o with
    | add w p =>
      have hm : TrackOp.add w p ∈ TrackOp.withoutObservations ops := List.mem_filter.mpr ⟨ho, rfl⟩
      rw [hops] at hm
      obtain ⟨w', hw', h⟩ := List.mem_map.mp hm
      cases h
      exact ⟨hw w hw', by simp⟩
    | iterate => trivial
    | peek => trivial
  obtain ⟨h1, -⟩ := Track.abs_run S ops ht.wf hv
  obtain ⟨g1, g2⟩ := AbsTrack.run_laidOut h1 ws hops he
  exact ⟨g2, g1⟩

/-- C65: a melody of notes of positive length added to a new track is iterated in the order it was added,
each note starting where the one before ends. -/
theorem C65_melody (S : ListSort) (sig : Signature) (hsig : sig.Valid) (ns : List Note)
    (hv : ∀ n ∈ ns, n.Valid) (hpos : ∀ n ∈ ns, 0 < n.duration.val) (ops : List TrackOp)
    (hops : TrackOp.withoutObservations ops = ns.map (fun n => .add (.note n) none)) :
    (((Track.empty sig).run S ops).items S).map Entry.placed = laidOut 0 (ns.map (fun n => [n])) ∧
    ((Track.empty sig).run S ops).length.val = (ns.map (fun n => n.duration.val)).sum := by
  have ht : (Track.empty sig).Reachable S := ⟨sig, [], hsig, by simp, rfl⟩
  have hmap : (ns.map What.note).map What.notes = ns.map (fun n => [n]) := by
    simp [List.map_map, Function.comp_def, What.notes]
  obtain ⟨h1, h2⟩ := C65_sequence S (Track.empty sig) ht (ns.map .note)
    (by
      intro w hw m hm
      obtain ⟨n, hn, rfl⟩ := List.mem_map.mp hw
      simp [What.notes] at hm
      exact hm ▸ hv n hn)
    (by
      intro w hw
      obtain ⟨n, -, rfl⟩ := List.mem_map.mp hw
      simp [EvenGroup, What.notes]) ops (by rw [hops]; simp [List.map_map, Function.comp_def])
  have hl : (Track.empty sig).length.val = 0 := by norm_num [Track.empty, Track.length, Signature.val]
  have hc : (Track.empty sig).contents = 0 := rfl
  rw [hmap, hl] at h1 h2
  rw [hc, add_zero] at h1
  have hwf : ((Track.empty sig).run S ops).WF := by
    refine (Track.run_wf S ops (Track.empty_wf hsig) ?_).1
    intro o ho
    cases o with
    | add w p =>
      have hm : TrackOp.add w p ∈ TrackOp.withoutObservations ops := List.mem_filter.mpr ⟨ho, rfl⟩
      rw [hops] at hm
      obtain ⟨n, hn, h⟩ := List.mem_map.mp hm
      cases h
      refine ⟨?_, by simp⟩
      intro m hm
      simp [What.notes] at hm
      exact hm ▸ hv n hn
    | iterate => trivial
    | peek => trivial
  obtain ⟨g1, -⟩ := laidOut_melody_lt ns 0 hpos
  refine ⟨?_, ?_⟩
  · have hs := Track.iter_sorted S hwf
    have hp : ((((Track.empty sig).run S ops).items S).map Entry.placed).Perm (laidOut 0 (ns.map (fun n => [n]))) := by
      rw [← Multiset.coe_eq_coe, Track.items_placed, h1]
    have hs' : ((((Track.empty sig).run S ops).items S).map Entry.placed).Pairwise (fun a b => a.1 ≤ b.1) := by
      rw [List.pairwise_map]
      exact hs
    have hs2 : ((((Track.empty sig).run S ops).items S).map Entry.placed).Pairwise (fun a b => a.1 < b.1) := by
      have hnd : ((((Track.empty sig).run S ops).items S).map Entry.placed).Pairwise (fun a b => a.1 ≠ b.1) := by
        refine (hp.pairwise_iff (fun h => Ne.symm h)).mpr ?_
        exact g1.imp (fun h => ne_of_lt h)
      exact (hs'.and hnd).imp (fun h => lt_of_le_of_ne h.1 h.2)
    exact hp.eq_of_pairwise (fun a b _ _ h h' => absurd h (not_lt.mpr h'.le)) hs2 g1
  · rw [h2, zero_add]
    clear hops h1 h2 hmap g1
    induction ns with
    | nil => rfl
    | cons n ns ih =>
      rw [List.map_cons, laidLength, ih (fun m hm => hv m (by simp [hm])) (fun m hm => hpos m (by simp [hm]))]
      simp [longest, (hpos n (by simp)).le]

/-- C65: the notes made by a chord function form such a group, which lasts as long as the chord. -/
theorem C65_chord [UnicodeDigits] (f : ChordFn) (hf : f ∈ chordFunctions) (base : BaseArg) (duration : Option SigArg)
    (velocity : Option PyFloat) (ns : List Note) (h : f.call base duration velocity = .ok ns)
    (hv : ∀ n ∈ ns, n.Valid) :
    EvenGroup ns ∧ ∃ s, ChordDuration base duration s ∧ longest ns = s.val := by
  obtain ⟨g, hg, -, p, s, q, -, hs, -, -, -, rfl⟩ := (C30_chord f hf base duration velocity ns).mp h
  have key : ∀ l : List Int, EvenGroup (l.map (fun k => (⟨⟨p + k⟩, s, q⟩ : Note))) ∧
      longest (l.map (fun k => (⟨⟨p + k⟩, s, q⟩ : Note))) = if l = [] then 0 else max s.val 0 := by
    intro l
    induction l with
    | nil => exact ⟨by simp [EvenGroup], rfl⟩
    | cons k l ih =>
      refine ⟨?_, ?_⟩
      · rw [EvenGroup, List.map_cons, List.pairwise_cons]
        refine ⟨?_, ih.1⟩
        intro m hm
        obtain ⟨j, -, rfl⟩ := List.mem_map.mp hm
        exact le_rfl
      · rw [List.map_cons, longest, ih.2]
        split <;> simp
  refine ⟨(key _).1, s, hs, ?_⟩
  rw [(key _).2]
  have hne : g.notation' ≠ [] :=
    (by decide +kernel : ∀ g ∈ generatorChords, g.notation' ≠ []) g hg
  rw [if_neg hne]
  obtain ⟨k, hk⟩ := List.exists_mem_of_ne_nil _ hne
  have := (hv _ (List.mem_map_of_mem hk)).1
  exact max_eq_left this.valNonneg

/-- A melody with a chord in it, observed in between. -/
example : ((Track.empty ⟨4, 4⟩).run cpySort [.add (.note (exNote 60 3 8)) none, .iterate,
      .add (.many [.note (exNote 60 1 4), .note (exNote 64 1 4), .note (exNote 67 1 4)]) none, .peek,
      .add (.note (exNote 59 1 1)) none]).contents =
    {((0 : ℚ), exNote 60 3 8), (3 / 8, exNote 60 1 4), (3 / 8, exNote 64 1 4), (3 / 8, exNote 67 1 4),
     (5 / 8, exNote 59 1 1)} ∧
    laidOut 0 [[exNote 60 3 8], [exNote 60 1 4, exNote 64 1 4, exNote 67 1 4], [exNote 59 1 1]] =
    [((0 : ℚ), exNote 60 3 8), (3 / 8, exNote 60 1 4), (3 / 8, exNote 64 1 4), (3 / 8, exNote 67 1 4),
     (5 / 8, exNote 59 1 1)] := by
  constructor <;> decide +kernel

/-- The boundary of C65: in a group with an eighth before a whole note, the next note starts after the
eighth (the effect of C05, cf. C22_violated). -/
example : ¬ EvenGroup [exNote 60 1 8, exNote 64 1 1] ∧
    ((Track.empty ⟨4, 4⟩).run cpySort [.add (.many [.note (exNote 60 1 8), .note (exNote 64 1 1)]) none,
      .add (.note (exNote 59 1 1)) none]).contents =
    {((0 : ℚ), exNote 60 1 8), (0, exNote 64 1 1), (1 / 8, exNote 59 1 1)} := by
  refine ⟨by simp [EvenGroup, exNote], by decide +kernel⟩

end Melodia
