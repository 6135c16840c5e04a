/-
Property theorems C66: writing and reading back tracks with arbitrary times.
-/
import Verif.Lemmas.Approx
import Verif.Props.Sequence
import Mathlib.Data.List.Permutation

set_option autoImplicit false

namespace Melodia
variable [UnicodeDigits]

/-- C66: writing a track and reading it back keeps every note (and adds none), whatever its times are, as long as
the velocities are audible and notes of one pitch do not overlap and start at different positions: the notes can be paired such that each keeps
its tone, starts less than a pulse and 1/16384 of a whole note earlier, and is less than that shorter. -/
theorem C66_roundtrip (S : ListSort) (ppq : Int) (mc : ToneArg) (bpm : PyFloat) (ch : Int) (w : Writer)
    (hw : Writer.new ppq mc bpm ch = .ok w) (m : MidiReader) (hm : MidiReader.new mc = .ok m)
    (t : Track) (ht : t.Reachable S) (bytes : Bytes) (h : w.dumps S t = .ok bytes)
    (hl : bytes.length < 2 ^ 24 + 22) (h2 : Audible t) (h3 : NoOverlap t) (h4 : DistinctStarts t)
    (channel : Option Int) (hc : ReadableWith w t channel) :
    ∃ t', m.loads S bytes channel = .ok t' ∧ t'.Reachable S ∧ t'.signature.eq t.signature = true ∧
      Multiset.Rel (Near ppq) t.contents t'.contents := by
  obtain ⟨hv, rfl, -, -, hd⟩ := Writer.new_valid hw
  have hmd : m.middleCDelta = w.middleCDelta := by
    unfold MidiReader.new at hm
    rw [hd] at hm
    cases hm
    rfl
  obtain ⟨t', k1, k2, k3, k4⟩ := (dumps_loads m hv ht.wf h hl channel).1 hc
  obtain ⟨p1, -⟩ := Writer.dumps_success hv ht.wf h
  refine ⟨t', k1, k2, ?_, ?_⟩
  · rw [Signature.eq_iff k2.wf.sig ht.wf.sig]
    rcases k3 with k3 | ⟨-, k3, k5⟩
    · rw [k3]
    · rw [k3]
      simp [Signature.val, k5]
  · rw [k4, readNotes_quantised hv ht.wf p1 h2 (inTurn_of_noOverlap S ht.wf h3 h4), hmd, sub_self, shiftPlaced_zero,
      Multiset.rel_map_right]
    refine Multiset.rel_refl_of_refl_on ?_
    intro p hp
    rw [← Track.items_placed S t] at hp
    obtain ⟨e, he, rfl⟩ := List.mem_map.mp (Multiset.mem_coe.mp hp)
    obtain ⟨e1, e2⟩ := Track.items_valid S ht.wf e he
    exact near_quantised hv.ppqPos e1.valNonneg e2

omit [UnicodeDigits] in
theorem laidOut_pairwise : ∀ (gs : List (List Note)) (x : ℚ), (∀ g ∈ gs, ∀ n ∈ g, 0 < n.duration.val) →
    (∀ g ∈ gs, g.Pairwise (fun a b => a.tone.pitch ≠ b.tone.pitch)) →
    (laidOut x gs).Pairwise (fun a b => a.2.tone.pitch = b.2.tone.pitch → noteEnd a ≤ b.1) ∧
    (∀ p ∈ laidOut x gs, x ≤ p.1 ∧ 0 < p.2.duration.val) := by
  intro gs
  induction gs with
  | nil => intro x _ _; simp [laidOut]
  | cons g gs ih =>
    intro x h1 h2
    obtain ⟨g1, g2⟩ := ih (x + longest g) (fun g hg => h1 g (by simp [hg])) (fun g hg => h2 g (by simp [hg]))
    have hl : ∀ (g : List Note), ∀ n ∈ g, n.duration.val ≤ longest g := by
      intro g
      induction g with
      | nil => simp
      | cons m g ih =>
        intro n hn
        rcases List.mem_cons.mp hn with rfl | hn
        · exact le_max_left _ _
        · exact le_max_of_le_right (ih n hn)
    rw [laidOut]
    refine ⟨List.pairwise_append.mpr ⟨?_, g1, ?_⟩, ?_⟩
    · rw [List.pairwise_map]
      exact (h2 g (by simp)).imp (fun h h' => absurd h' h)
    · intro a ha b hb _
      obtain ⟨n, hn, rfl⟩ := List.mem_map.mp ha
      have := (g2 b hb).1
      have := hl g n hn
      simp only [noteEnd]
      linarith
    · intro p hp
      rcases List.mem_append.mp hp with hp | hp
      · obtain ⟨n, hn, rfl⟩ := List.mem_map.mp hp
        exact ⟨le_rfl, h1 g (by simp) n hn⟩
      · obtain ⟨k1, k2⟩ := g2 p hp
        exact ⟨by linarith [longest_nonneg g], k2⟩

omit [UnicodeDigits] in
/-- C66: music laid end to end (C65), with notes of positive length and no pitch twice in a group, meets the
conditions of `C66_roundtrip`. -/
theorem C66_sequence (S : ListSort) (sig : Signature) (hsig : sig.Valid) (ws : List What)
    (hw : ∀ w ∈ ws, w.Valid) (he : ∀ w ∈ ws, EvenGroup w.notes)
    (hpos : ∀ w ∈ ws, ∀ n ∈ w.notes, 0 < n.duration.val)
    (hd : ∀ w ∈ ws, w.notes.Pairwise (fun a b => a.tone.pitch ≠ b.tone.pitch)) (ops : List TrackOp)
    (hops : TrackOp.withoutObservations ops = ws.map (fun w => .add w none)) :
    NoOverlap ((Track.empty sig).run S ops) ∧ DistinctStarts ((Track.empty sig).run S ops) := by
  have ht : (Track.empty sig).Reachable S := ⟨sig, [], hsig, by simp, rfl⟩
  obtain ⟨h1, -⟩ := C65_sequence S _ ht ws hw he ops hops
  have h0 : (Track.empty sig).contents = 0 := rfl
  rw [h0, add_zero] at h1
  obtain ⟨g1, g2⟩ := laidOut_pairwise (ws.map What.notes) (Track.empty sig).length.val
    (by
      intro g hg
      obtain ⟨w, hw, rfl⟩ := List.mem_map.mp hg
      exact hpos w hw)
    (by
      intro g hg
      obtain ⟨w, hw, rfl⟩ := List.mem_map.mp hg
      exact hd w hw)
  suffices hno : NoOverlap ((Track.empty sig).run S ops) by
    refine ⟨hno, distinctStarts_of hno ?_⟩
    intro p hp
    rw [h1] at hp
    exact (g2 p (Multiset.mem_coe.mp hp)).2
  · intro a b hab hp
    rw [h1] at hab
    have hab : (([a, b] : List (ℚ × Note)) : Multiset (ℚ × Note)) ≤ _ := hab
    rw [Multiset.coe_le] at hab
    obtain ⟨l, hl, hs⟩ := hab
    have hpw := g1.sublist hs
    rcases List.perm_pair.mp hl with rfl | rfl
    · simp only [List.pairwise_cons, List.mem_singleton, forall_eq] at hpw
      exact Or.inl (hpw.1 hp)
    · simp only [List.pairwise_cons, List.mem_singleton, forall_eq] at hpw
      exact Or.inr (hpw.1 hp.symm)

/-- Three notes of 1.5 pulses each (at 96 pulses per quarter), two of them of the same pitch. -/
def exApproxOps : List TrackOp := [.add (.note (exNote 40 1 256)) none, .add (.note (exNote 40 1 256)) none, .iterate,
  .add (.note (exNote 43 1 256)) none]

omit [UnicodeDigits] in
/-- The conditions of `C66_sequence` hold for the example; it is dumped and read back with moved positions
(1/256 becomes 42/16384, 1/128 stays), the same number of notes, and not the same notes. -/
example : (∀ w ∈ ([.note (exNote 40 1 256), .note (exNote 40 1 256), .note (exNote 43 1 256)] : List What),
      w.Valid ∧ EvenGroup w.notes ∧ (∀ n ∈ w.notes, 0 < n.duration.val) ∧
      w.notes.Pairwise (fun a b => a.tone.pitch ≠ b.tone.pitch)) ∧
    Audible ((Track.empty ⟨4, 4⟩).run cpySort exApproxOps) ∧
    ∃ bytes, exWriter.dumps cpySort ((Track.empty ⟨4, 4⟩).run cpySort exApproxOps) = .ok bytes ∧
      okAnd (@MidiReader.loads ⟨fun _ => none⟩ cpySort ⟨24⟩ bytes none) (fun t' =>
        decide (t'.contents.map Prod.fst = {(0 : ℚ), 42 / 16384, 1 / 128})) = true := by
  refine ⟨?_, by unfold Audible; decide +kernel, okAnd_iff (by decide +kernel)⟩
  intro w hw
  simp only [List.mem_cons, List.not_mem_nil, or_false, or_self_left] at hw
  rcases hw with rfl | rfl <;>
    exact ⟨by intro n hn; simp [What.notes] at hn; exact hn ▸ exNote_valid _ 1 8 (by decide),
      by simp [EvenGroup, What.notes], by simp [What.notes, exNote, Signature.val], by simp [What.notes]⟩

end Melodia
