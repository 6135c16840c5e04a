/-
C74: when the notes of a written file sound.
-/
import Verif.Lemmas.Playback
import Verif.Props.RoundTrip

set_option autoImplicit false

namespace Melodia

/-- How a written file is played, whatever the bpm: the seconds are the quantised times in pulses of
`tempo / (10^6 * ppq)` seconds. -/
theorem C74_seconds (S : ListSort) (w : Writer) (hw : w.Valid) (t : Track) (ht : t.Reachable S)
    (bytes : Bytes) (h : w.dumps S t = .ok bytes) :
    ∃ (es : List (Nat × Msg)) (tempo : Nat), IsSmf w.ppq.toNat es bytes ∧ TempoFits w.bpm tempo ∧
      ∀ start, (playNotes w.ppq.toNat start es).Perm
        (((t.items S).map (fun e => Entry.msg w e false) ++ (t.items S).map (fun e => Entry.msg w e true)).map
          (fun x => ((x.1 : ℚ) * (tempo / (1000000 * w.ppq)), x.2))) ∧
      (playNotes w.ppq.toNat start es).Pairwise (fun a b => a.1 ≤ b.1) := by
  have hwf := ht.wf
  obtain ⟨hp, hf, hq, tempo, hb, hl, rfl⟩ := Writer.dumps_success hw hwf h
  have hv := Track.items_valid S hwf
  have habs := Writer.absoluteTimes_deltaMsgs (Writer.sortedMsgs w (t.items S)) 0
    (Writer.sortedMsgs_sorted w _) (fun _ _ => Nat.zero_le _)
  have hn : ∀ x ∈ Writer.deltaMsgs 0 (Writer.sortedMsgs w (t.items S)), x.2.isNote = true := by
    intro x hx
    obtain ⟨y, hy, e⟩ := Writer.mem_deltaMsgs _ _ x hx
    rw [← e]
    obtain ⟨z, -, rfl | rfl⟩ := Writer.mem_sortedMsgs.1 hy <;> rfl
  refine ⟨_, tempo, Writer.isSmf_of hw (Writer.msgs_inRange hw hwf.sig hv hp hf hq hb) hl, hb, ?_⟩
  intro start
  have hall : playNotes w.ppq.toNat start (w.allMsgs t.signature tempo (t.items S)) = _ :=
    playNotes_written _ _ _ _ _ _ _ _ hn
  rw [hall, habs]
  have hc : ((w.ppq.toNat : Nat) : ℚ) = (w.ppq : ℚ) := by
    have := hw.ppqPos
    rw [← Int.cast_natCast, Int.toNat_of_nonneg (by omega)]
  have hfun : (fun x : Nat × Msg => ((x.1 : ℚ) * tempo / (1000000 * (w.ppq.toNat : ℚ)), x.2)) =
      (fun x => ((x.1 : ℚ) * (tempo / (1000000 * (w.ppq : ℚ))), x.2)) := by
    funext x; rw [hc, mul_div_assoc]
  rw [hfun]
  refine ⟨(C35_multiset w _ _ (Writer.arranged_sortedMsgs w _)).map _, ?_⟩
  rw [List.pairwise_map]
  refine (Writer.sortedMsgs_sorted w _).imp ?_
  intro a b hab
  have h0 : (0 : ℚ) ≤ tempo / (1000000 * (w.ppq : ℚ)) := by
    have : (0 : ℚ) ≤ w.ppq := by exact_mod_cast (by have := hw.ppqPos; omega : (0 : Int) ≤ w.ppq)
    positivity
  exact mul_le_mul_of_nonneg_right (by exact_mod_cast hab) h0

/-- Seconds of a time in pulses against the seconds of the exact time. -/
theorem seconds_close {q : ℚ} (hq : 0 < q) {tempo : Nat} (ht : TempoFits (.fin q) tempo) {ppq x k : ℚ} {m : ℚ}
    (hp : 0 < ppq) (hx : 0 ≤ x) (h1 : 0 ≤ 4 * ppq * x - k) (h2 : 4 * ppq * x - k < m) :
    k * (tempo / (1000000 * ppq)) - secondsOf q x ≤ 4 * x / 2 ^ 28 / 1000000 ∧
    secondsOf q x - k * (tempo / (1000000 * ppq)) ≤
      4 * x * (1 + 1 / 2 ^ 28) / 1000000 + m * (tempo / (1000000 * ppq)) := by
  obtain ⟨a, b⟩ := tempo_close hq ht
  have e : secondsOf q x = 4 * x * (60000000 / q) / 1000000 := by unfold secondsOf; ring
  rw [e]
  generalize 60000000 / q = T at *
  have ht0 : (0 : ℚ) ≤ tempo := by positivity
  have hk : k * (tempo / (1000000 * ppq)) = k / ppq * tempo / 1000000 := by field_simp
  have hm : m * (tempo / (1000000 * ppq)) = m / ppq * tempo / 1000000 := by field_simp
  rw [hk, hm]
  have c1 : k / ppq ≤ 4 * x := by rw [div_le_iff₀ hp]; linarith
  have c2 : 4 * x ≤ k / ppq + m / ppq := by rw [← add_div, le_div_iff₀ hp]; linarith
  generalize k / ppq = κ at *
  generalize m / ppq = μ at *
  constructor
  · have : κ * tempo ≤ 4 * x * tempo := mul_le_mul_of_nonneg_right c1 ht0
    have : 4 * x * (tempo - T) ≤ 4 * x * (1 / 2 ^ 28) := mul_le_mul_of_nonneg_left a (by positivity)
    rw [← sub_div, div_le_div_iff_of_pos_right (by norm_num)]
    linarith
  · have : 4 * x * tempo ≤ (κ + μ) * tempo := mul_le_mul_of_nonneg_right c2 ht0
    have : 4 * x * (T - tempo) ≤ 4 * x * (1 + 1 / 2 ^ 28) := mul_le_mul_of_nonneg_left b.le (by positivity)
    rw [← sub_div, ← add_div, div_le_div_iff_of_pos_right (by norm_num)]
    linarith

/-- C74: a note at position `x` (in whole notes) sounds at `240 x / bpm` seconds: never later by more than
`4 x / 2^28` microseconds, earlier by at most one pulse and about one microsecond per quarter note. It ends
at `240 (x + d) / bpm` seconds with the same precision but two pulses. Nothing else sounds, and this does
not depend on the tempo the player starts with. -/
theorem C74_playback (S : ListSort) (w : Writer) (hw : w.Valid) (t : Track) (ht : t.Reachable S)
    (bytes : Bytes) (h : w.dumps S t = .ok bytes) (q : ℚ) (hq : 0 < q) (hb : w.bpm = .fin q) :
    ∃ (es : List (Nat × Msg)) (on off : Entry → ℚ) (pulse : ℚ), IsSmf w.ppq.toNat es bytes ∧
      (0 ≤ pulse ∧ pulse ≤ secondsOf q (1 / (4 * w.ppq)) + 1 / 2 ^ 28 / 1000000) ∧
      (∀ start, (playNotes w.ppq.toNat start es).Perm
        ((t.items S).map (fun e => (on e, (Entry.msg w e false).2)) ++
          (t.items S).map (fun e => (off e, (Entry.msg w e true).2)))) ∧
      ∀ e ∈ t.items S,
        (on e - secondsOf q e.1.val ≤ 4 * e.1.val / 2 ^ 28 / 1000000 ∧
          secondsOf q e.1.val - on e ≤ 4 * e.1.val * (1 + 1 / 2 ^ 28) / 1000000 + pulse) ∧
        (off e - secondsOf q (e.1.val + e.2.duration.val) ≤
            4 * (e.1.val + e.2.duration.val) / 2 ^ 28 / 1000000 ∧
          secondsOf q (e.1.val + e.2.duration.val) - off e ≤
            4 * (e.1.val + e.2.duration.val) * (1 + 1 / 2 ^ 28) / 1000000 + 2 * pulse) := by
  obtain ⟨es, tempo, hsmf, htempo, hplay⟩ := C74_seconds S w hw t ht bytes h
  rw [hb] at htempo
  have hp : (0 : ℚ) < w.ppq := by exact_mod_cast (by have := hw.ppqPos; omega : (0 : Int) < w.ppq)
  have hp1 : (1 : ℚ) ≤ w.ppq := by exact_mod_cast hw.ppqPos
  refine ⟨es, fun e => ((Entry.msg w e false).1 : ℚ) * (tempo / (1000000 * w.ppq)),
    fun e => ((Entry.msg w e true).1 : ℚ) * (tempo / (1000000 * w.ppq)), tempo / (1000000 * w.ppq), hsmf,
    ⟨by positivity, ?_⟩, ?_, ?_⟩
  · obtain ⟨a, -⟩ := tempo_close hq htempo
    have e : secondsOf q (1 / (4 * w.ppq)) + 1 / 2 ^ 28 / 1000000 =
        (60000000 / q + w.ppq * (1 / 2 ^ 28)) / (1000000 * w.ppq) := by
      unfold secondsOf; field_simp; ring
    rw [e, div_le_div_iff_of_pos_right (by positivity)]
    have : (1 : ℚ) * (1 / 2 ^ 28) ≤ w.ppq * (1 / 2 ^ 28) := mul_le_mul_of_nonneg_right hp1 (by positivity)
    linarith
  · intro start
    have := (hplay start).1
    rw [List.map_append, List.map_map, List.map_map] at this
    exact this
  · intro e he
    obtain ⟨v1, v2⟩ := Track.items_valid S ht.wf e he
    obtain ⟨a, b, -⟩ := C36_note_times w hw e v1 v2
    have x1 := v1.valNonneg
    have x2 := v2.duration.valNonneg
    constructor
    · have := seconds_close hq htempo hp x1 a.1 a.2
      simpa using this
    · exact seconds_close hq htempo hp (by positivity) b.1 b.2

/-- C74: when a quarter lasts a whole number of microseconds and the notes lie on the grid of pulses, the
file plays the music exactly in time. -/
theorem C74_exact (S : ListSort) (w : Writer) (hw : w.Valid) (t : Track) (ht : t.Reachable S)
    (bytes : Bytes) (h : w.dumps S t = .ok bytes) (q : ℚ) (hq : 0 < q) (hb : w.bpm = .fin q)
    (n : Nat) (hn : n * q = 60000000)
    (hg : ∀ e ∈ t.items S, (∃ m : Int, 4 * w.ppq * e.1.val = m) ∧ ∃ m : Int, 4 * w.ppq * e.2.duration.val = m) :
    ∃ es, IsSmf w.ppq.toNat es bytes ∧ ∀ start, (playNotes w.ppq.toNat start es).Perm
      ((t.items S).map (fun e => (secondsOf q e.1.val, (Entry.msg w e false).2)) ++
        (t.items S).map (fun e => (secondsOf q (e.1.val + e.2.duration.val), (Entry.msg w e true).2))) := by
  obtain ⟨es, tempo, hsmf, htempo, hplay⟩ := C74_seconds S w hw t ht bytes h
  rw [hb] at htempo
  have hp : (0 : ℚ) < w.ppq := by exact_mod_cast (by have := hw.ppqPos; omega : (0 : Int) < w.ppq)
  have hT : 60000000 / q = n := by rw [← hn]; field_simp
  obtain ⟨t1, t2⟩ := tempo_close hq htempo
  have htn : tempo = n := by
    rw [hT] at t1 t2
    have hnb : n < 2 ^ 53 := by
      have : (tempo : ℚ) < 2 ^ 24 := by exact_mod_cast htempo.2
      have : (n : ℚ) < 2 ^ 53 := by
        have : (1 : ℚ) / 2 ^ 28 ≤ 1 := by norm_num
        have : (2 : ℚ) ^ 24 + 2 < 2 ^ 53 := by norm_num
        linarith
      exact_mod_cast this
    obtain ⟨hi, -⟩ := htempo
    cases hi with
    | fin _ _ _ hi =>
      rw [hT, fl_nat hnb, if_pos (by positivity)] at hi
      simpa using hi
  refine ⟨es, hsmf, fun start => ?_⟩
  have h1 := (hplay start).1
  rw [List.map_append, List.map_map, List.map_map] at h1
  have key : ∀ x : ℚ, 4 * (w.ppq : ℚ) * x * (tempo / (1000000 * w.ppq)) = secondsOf q x := by
    intro x
    have : secondsOf q x = 4 * x * (60000000 / q) / 1000000 := by unfold secondsOf; ring
    rw [this, hT, htn]
    field_simp
  have e1 : (t.items S).map ((fun x : Nat × Msg => ((x.1 : ℚ) * (tempo / (1000000 * (w.ppq : ℚ))), x.2)) ∘
      fun e => Entry.msg w e false) = (t.items S).map (fun e => (secondsOf q e.1.val, (Entry.msg w e false).2)) := by
    apply List.map_congr_left
    intro e he
    obtain ⟨v1, v2⟩ := Track.items_valid S ht.wf e he
    obtain ⟨-, -, c⟩ := C36_note_times w hw e v1 v2
    simp only [Function.comp]
    rw [(c (hg e he).1 (hg e he).2).1, key]
  have e2 : (t.items S).map ((fun x : Nat × Msg => ((x.1 : ℚ) * (tempo / (1000000 * (w.ppq : ℚ))), x.2)) ∘
      fun e => Entry.msg w e true) =
      (t.items S).map (fun e => (secondsOf q (e.1.val + e.2.duration.val), (Entry.msg w e true).2)) := by
    apply List.map_congr_left
    intro e he
    obtain ⟨v1, v2⟩ := Track.items_valid S ht.wf e he
    obtain ⟨-, -, c⟩ := C36_note_times w hw e v1 v2
    simp only [Function.comp]
    rw [(c (hg e he).1 (hg e he).2).2, key]
  rw [e1, e2] at h1
  exact h1

/-- The example track at 120 quarters per minute: starts after 0, 1/4 and 5/2 seconds. -/
example : playNotes 96 500000 [(0, .timeSignature 4 2 96 8), (0, .tempo 500000), (0, .noteOn 3 64 127),
    (48, .noteOn 3 67 127), (48, .noteOff 3 64 64), (0, .noteOff 3 67 64), (384, .noteOn 3 64 127),
    (96, .noteOff 3 64 64), (0, .endOfTrack)] =
    [(0, .noteOn 3 64 127), (1/4, .noteOn 3 67 127), (1/2, .noteOff 3 64 64), (1/2, .noteOff 3 67 64),
     (5/2, .noteOn 3 64 127), (3, .noteOff 3 64 64)] := by decide +kernel
example : secondsOf 120 (1/8) = 1/4 ∧ secondsOf 120 (5/4) = 5/2 := by decide +kernel
example : ∃ bytes, exWriter.dumps cpySort exTrack = .ok bytes ∧ ∃ es, IsSmf 96 es bytes ∧
    ∀ start, (playNotes 96 start es).Perm
      [(0, .noteOn 3 64 127), (1/4, .noteOn 3 67 127), (5/2, .noteOn 3 64 127),
       (1/2, .noteOff 3 64 64), (1/2, .noteOff 3 67 64), (3, .noteOff 3 64 64)] := by
  obtain ⟨bytes, hb, -⟩ := okAnd_iff (x := exWriter.dumps cpySort exTrack) (p := fun _ => true) (by decide +kernel)
  refine ⟨bytes, hb, ?_⟩
  have := C74_exact cpySort exWriter exWriter_valid exTrack exTrack_reachable bytes hb 120 (by norm_num) rfl
    500000 (by norm_num) ?_
  · have e : (exTrack.items cpySort).map (fun e => (secondsOf 120 e.1.val, (Entry.msg exWriter e false).2)) ++
        (exTrack.items cpySort).map
          (fun e => (secondsOf 120 (e.1.val + e.2.duration.val), (Entry.msg exWriter e true).2)) =
        [(0, .noteOn 3 64 127), (1/4, .noteOn 3 67 127), (5/2, .noteOn 3 64 127),
         (1/2, .noteOff 3 64 64), (1/2, .noteOff 3 67 64), (3, .noteOff 3 64 64)] := by decide +kernel
    rw [e] at this
    exact this
  · have : ∀ e ∈ exTrack.items cpySort, (⌊4 * (exWriter.ppq : ℚ) * e.1.val⌋ : ℚ) = 4 * exWriter.ppq * e.1.val ∧
      (⌊4 * (exWriter.ppq : ℚ) * e.2.duration.val⌋ : ℚ) = 4 * exWriter.ppq * e.2.duration.val := by decide +kernel
    exact fun e he => ⟨⟨_, (this e he).1.symm⟩, ⟨_, (this e he).2.symm⟩⟩

/-- Players follow every change of tempo: halving the tempo halves the remaining delays. -/
example : playNotes 96 1000000 [(96, .noteOn 0 60 1), (0, .tempo 500000), (96, .noteOff 0 60 64)] =
    [(1, .noteOn 0 60 1), (3/2, .noteOff 0 60 64)] := by decide +kernel

end Melodia
