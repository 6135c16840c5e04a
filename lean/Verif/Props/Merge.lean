/-
C55, exact description: the time signature of a file read without a channel, for every accepted file.
-/
import Verif.Lemmas.Merge
import Verif.Props.Language

set_option autoImplicit false

namespace Melodia

variable [UnicodeDigits]

omit [UnicodeDigits] in
/-- The channels in `channelOrder` are those of the track, each once. -/
theorem channelOrder_mem {es : List (Nat × Ev)} {body : Bytes} (h : IsBody es body) (c : Nat) :
    c ∈ channelOrder es ↔ HasChannel es c := by
  have hk := channelsOf_keys es h.wf
  have h1 : ((c : Int) ∈ (MidiReader.channelsOf (coreOf es).events).map Prod.fst) ↔ c ∈ channelOrder es := by
    rw [hk, List.mem_map]
    constructor
    · rintro ⟨c', h1, h2⟩
      have : c' = c := by exact_mod_cast h2
      exact this ▸ h1
    · intro h; exact ⟨c, h, rfl⟩
  rw [← h1]
  constructor
  · intro hm
    obtain ⟨⟨a, l⟩, hx, he⟩ := List.mem_map.1 hm
    simp only at he
    subst he
    exact (MidiReader.hasChannel_of_mem h hx).1
  · intro hc
    obtain ⟨l, hl, -⟩ := (MidiReader.channelsOf_body h c).1 hc
    exact List.mem_map.2 ⟨_, Dict.mem_of_get hl, rfl⟩

/-- C55, for every accepted file: the time signature is the winner among the signatures of the channels, in
the order in which the channels appear, starting with 0/1. Together with `C72_language` this determines the
time signature for every byte string. -/
theorem C55_winner (S : ListSort) (m : MidiReader) {file : Bytes} {division : Nat} {es : List (Nat × Ev)}
    (h : FileReads file division es) : ∃ t, m.loads S file none = .ok t ∧
      Winner ⟨0, 1⟩ ((channelOrder es).map (fun c => signatureFor c es)) t.signature ∧
      ∀ c, c ∈ channelOrder es ↔ HasChannel es c := by
  obtain ⟨ts, d, h1, h2, body, h3⟩ := MidiReader.load_reads S m h none
  obtain ⟨t, h4, -, h5, -⟩ := MidiReader.finish_all S m (d := d) h2 h3
  refine ⟨t, h1.trans h4, ?_, channelOrder_mem h3⟩
  obtain ⟨o1, o2⟩ := MidiReader.coreOf_ok h3
  have e : (MidiReader.channelsOf (coreOf es).events).map (fun x => MidiReader.channelSignature (coreOf es).sigs x.1) =
      (channelOrder es).map (fun c => signatureFor c es) := by
    have hk := channelsOf_keys es h3.wf
    have : (MidiReader.channelsOf (coreOf es).events).map
        (fun x => MidiReader.channelSignature (coreOf es).sigs x.1) =
        ((MidiReader.channelsOf (coreOf es).events).map Prod.fst).map
          (fun c => MidiReader.channelSignature (coreOf es).sigs c) := by
      rw [List.map_map]; rfl
    rw [this, hk, List.map_map]
    apply List.map_congr_left
    intro c _
    exact MidiReader.channelSignature_body h3 c
  rw [h5, e]
  apply foldl_winner
  · intro s hs
    rw [← e] at hs
    obtain ⟨x, -, rfl⟩ := List.mem_map.1 hs
    exact channelSignature_valid o2 _
  · exact ⟨le_refl _, IsPow2.one⟩

/-- C55 if no channel has a smaller denominator than a channel before it: the merged track has a largest
signature (0/1 if all are zero). Missing: other files, where `C55_winner` says what happens. -/
theorem C55_sorted_partial (S : ListSort) (m : MidiReader) {file : Bytes} {division : Nat} {es : List (Nat × Ev)}
    (h : FileReads file division es)
    (hs : ((channelOrder es).map (fun c => signatureFor c es)).Pairwise (fun a b => a.denominator ≤ b.denominator)) :
    ∃ t, m.loads S file none = .ok t ∧ (∀ c, HasChannel es c → (signatureFor c es).val ≤ t.signature.val) ∧
      (t.signature = ⟨0, 1⟩ ∨ ∃ c, HasChannel es c ∧ t.signature = signatureFor c es) := by
  obtain ⟨t, h1, h2, h3⟩ := C55_winner S m h
  refine ⟨t, h1, ?_, ?_⟩
  · intro c hc
    refine h2.sorted ?_ _ (List.mem_cons_of_mem _ (List.mem_map.2 ⟨c, (h3 c).2 hc, rfl⟩))
    rw [List.pairwise_cons]
    refine ⟨?_, hs⟩
    intro s hs'
    obtain ⟨ts, d, -, -, body, hb⟩ := MidiReader.load_reads S m h none
    obtain ⟨c', -, rfl⟩ := List.mem_map.1 hs'
    rw [← MidiReader.channelSignature_body hb c']
    obtain ⟨k, hk⟩ := (channelSignature_valid (MidiReader.coreOf_ok hb).2 (c' : Int)).2
    change (1 : Int) ≤ _
    rw [hk]
    exact one_le_pow₀ (by norm_num)
  · rcases h2.mem with h | h
    · exact Or.inl h
    · obtain ⟨c, hc, e⟩ := List.mem_map.1 h
      exact Or.inr ⟨c, (h3 c).1 hc, e.symm⟩

/-- C55: a single channel (as in every file melodia writes) keeps its signature. -/
theorem C55_single (S : ListSort) (m : MidiReader) {file : Bytes} {division : Nat} {es : List (Nat × Ev)}
    (h : FileReads file division es) {c : Nat} (hc : channelOrder es = [c])
    (h0 : 0 < (signatureFor c es).nominator) :
    ∃ t, m.loads S file none = .ok t ∧ t.signature = signatureFor c es := by
  obtain ⟨t, h1, h2, -⟩ := C55_winner S m h
  refine ⟨t, h1, ?_⟩
  rw [hc] at h2
  obtain ⟨ts, d, -, -, body, hb⟩ := MidiReader.load_reads S m h none
  have hv : (signatureFor c es).Valid := by
    rw [← MidiReader.channelSignature_body hb c]
    exact channelSignature_valid (MidiReader.coreOf_ok hb).2 _
  have h1d : (1 : Int) ≤ (signatureFor c es).denominator := by
    obtain ⟨k, hk⟩ := hv.2
    rw [hk]
    exact one_le_pow₀ (by norm_num)
  have hover : Overtakes (signatureFor c es) ⟨0, 1⟩ := by
    refine Or.inl ⟨h1d, ?_⟩
    have : (0 : ℚ) < (signatureFor c es).nominator := by exact_mod_cast h0
    have : (0 : ℚ) < (signatureFor c es).denominator := by exact_mod_cast (by omega)
    unfold Signature.val
    simp only [Int.cast_zero, zero_div]
    positivity
  exact h2.unique (.takes hover (.nil _))

/-- With 3/4, then 1/2, the result is 1/2: the shorter. With 1/2, then 3/4, it is 3/4. -/
example : Winner ⟨0, 1⟩ [⟨3, 4⟩, ⟨1, 2⟩] ⟨1, 2⟩ ∧ Winner ⟨0, 1⟩ [⟨1, 2⟩, ⟨3, 4⟩] ⟨3, 4⟩ := by
  refine ⟨.takes (Or.inl ⟨by decide, ?_⟩) (.takes (Or.inr ⟨by decide, ?_⟩) (.nil _)),
    .takes (Or.inl ⟨by decide, ?_⟩) (.takes (Or.inl ⟨by decide, ?_⟩) (.nil _))⟩ <;> norm_num [Signature.val]
example : firsts [3, 1, 3, 0, 1] = [3, 1, 0] := by decide

/-- The example file has two channels with the default signature; the first one is channel 0. -/
example : (channelOrder exEvents).map (fun c => signatureFor c exEvents) = [⟨4, 4⟩, ⟨4, 4⟩] := by decide +kernel

end Melodia
