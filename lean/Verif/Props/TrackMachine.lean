/-
Property theorems C63: the track refines an abstract machine (Spec/TrackMachine.lean).
-/
import Verif.Props.Track
import Verif.Lemmas.TrackMachine

set_option autoImplicit false

namespace Melodia

/-- C63: after any history the track is in the state of the abstract machine (which always has exactly
one): its length has the value and the denominator of the machine, its contents are the notes of the
machine, and iteration yields positions that all have the machine's denominator. -/
theorem C63_machine (S : ListSort) (sig : Signature) (hsig : sig.Valid) (ops : List TrackOp)
    (hops : ∀ o ∈ ops, o.Valid) :
    (∃ s, AbsTrack.Run .start ops s) ∧
    ∀ s, AbsTrack.Run .start ops s →
      let t := (Track.empty sig).run S ops
      t.signature = sig ∧ t.length.val = s.finish ∧ t.length.denominator = s.finishDen ∧
      t.len = s.notes.card ∧ ((t.items S).map Entry.placed : Multiset _) = s.notes ∧
      ∀ e ∈ t.items S, e.1.Valid ∧ e.1.denominator = s.grid := by
  have h0 : (Track.empty sig).abs = .start := by
    unfold Track.abs AbsTrack.start
    simp [Track.empty, Track.length, Track.contents, Signature.val]
  obtain ⟨h1, h2⟩ := Track.abs_run S ops (Track.empty_wf hsig) hops
  rw [h0] at h1 h2
  refine ⟨⟨_, h1⟩, fun s hs => ?_⟩
  have hwf := Track.run_wf S ops (Track.empty_wf hsig) hops
  rw [h2 s hs]
  refine ⟨hwf.2, rfl, rfl, Track.len_eq_card _, Track.items_placed S _, fun e he => ?_⟩
  have hi := Track.iter_wf S hwf.1
  obtain ⟨-, d, -, -⟩ := Track.iter_fields S ((Track.empty sig).run S ops)
  obtain ⟨e1, e2, -⟩ := hi.entries e (by
    have : ((Track.empty sig).run S ops).items S = (((Track.empty sig).run S ops).iter S).1.heap := by
      rfl
    rwa [this] at he)
  exact ⟨e1, by rw [e2, d]; rfl⟩

/-- C63: the machine on the history of C22 (an eighth, then a whole note, both at position 0): the length
stays 1/8. -/
example : ∃ s, AbsTrack.Run .start [add60 1 8, add60 1 1] s ∧ s.finish = 1 / 8 ∧ s.finishDen = 8 ∧
    s.notes = {((0 : ℚ), exNote 60 1 8), (0, exNote 60 1 1)} := by
  refine ⟨_, .cons (.at _ _ ⟨0, 1⟩ (.pair 0 1 le_rfl ⟨0, rfl⟩)) (.cons (.at _ _ ⟨0, 1⟩ (.pair 0 1 le_rfl ⟨0, rfl⟩)) (.nil _)),
    ?_, ?_, ?_⟩ <;> decide +kernel

end Melodia
