/-
Property theorems C57 and C58 (times read from a file, and what loading and saving again does to them;
src/melodia/io/midi.py:108-111 and :410-414).
-/
import Verif.Props.RoundTrip

set_option autoImplicit false

namespace Melodia

/-! ### C57 -/

/-- The exact time, in whole notes, of `time` pulses. -/
def exactTime (division time : Nat) : ℚ := (time : ℚ) / (4 * division)

/-- The nearest multiple of 1/16384 below. -/
theorem gridSignature_bounds {division : Nat} (h : 0 < division) (time : Nat) :
    (gridSignature division time).val ≤ exactTime division time ∧
    exactTime division time < (gridSignature division time).val + 1 / 16384 := by
  have hd : (0 : ℚ) < division := by exact_mod_cast h
  rw [(gridSignature_spec division time).2.1]
  unfold exactTime
  have h1 : (time * 4096 / division) * division ≤ time * 4096 := Nat.div_mul_le_self _ _
  have h2 : time * 4096 < (time * 4096 / division + 1) * division := by
    rw [Nat.add_mul, Nat.one_mul]
    exact Nat.lt_div_mul_add h
  have h1' : (((time * 4096 / division : Nat) : ℚ)) * division ≤ time * 4096 := by exact_mod_cast h1
  have h2' : (time * 4096 : ℚ) < (((time * 4096 / division : Nat) : ℚ) + 1) * division := by exact_mod_cast h2
  constructor
  · rw [div_le_div_iff₀ (by norm_num) (by positivity)]
    linarith
  · rw [← add_div, div_lt_div_iff₀ (by positivity) (by norm_num)]
    linarith

/-- C57: a time read from a file lies at most 1/16384 of a whole note before the exact time, never after it;
it is exact iff the exact time is a multiple of 1/16384. -/
theorem C57_error (division : Nat) (h : 0 < division) (time : Nat) :
    ∃ s, MidiReader.timeToSignature time division = .ok s ∧ s.Valid ∧
      0 ≤ exactTime division time - s.val ∧ exactTime division time - s.val < 1 / 16384 ∧
      (s.val = exactTime division time ↔ ∃ k : Nat, exactTime division time = k / 16384) := by
  have hb := gridSignature_bounds h time
  refine ⟨_, MidiReader.timeToSignature_ok h time, (gridSignature_spec division time).1, by linarith, by linarith, ?_⟩
  constructor
  · intro e
    exact ⟨_, e ▸ (gridSignature_spec division time).2.1⟩
  · rintro ⟨k, hk⟩
    have hg := (gridSignature_spec division time).2.1
    rw [hk, hg] at hb
    rw [hk, hg]
    have h1 : ((time * 4096 / division : Nat) : ℚ) ≤ k := by
      have := hb.1; rw [div_le_div_iff_of_pos_right (by norm_num)] at this; exact this
    have h2 : (k : ℚ) < ((time * 4096 / division : Nat) : ℚ) + 1 := by
      have := hb.2; rw [← add_div, div_lt_div_iff_of_pos_right (by norm_num)] at this; exact this
    have h1' : time * 4096 / division ≤ k := by exact_mod_cast h1
    have h2' : k < time * 4096 / division + 1 := by exact_mod_cast h2
    have : time * 4096 / division = k := by omega
    rw [this]

/-- C57: 480 pulses at division 480 are read exactly (a quarter note); one pulse at division 96 is not: it is read as
42/16384, the exact time being 42.67/16384. -/
example : MidiReader.timeToSignature 480 480 = .ok ⟨1, 4⟩ ∧ MidiReader.timeToSignature 1 96 = .ok ⟨21, 8192⟩ := by
  decide +kernel

/-- C57: later times are not read earlier. -/
theorem C57_monotone (division : Nat) (h : 0 < division) (t u : Nat) (htu : t ≤ u) :
    ∃ a b, MidiReader.timeToSignature t division = .ok a ∧ MidiReader.timeToSignature u division = .ok b ∧
      a.val ≤ b.val := by
  refine ⟨_, _, MidiReader.timeToSignature_ok h t, MidiReader.timeToSignature_ok h u, ?_⟩
  rw [(gridSignature_spec division t).2.1, (gridSignature_spec division u).2.1,
    div_le_div_iff_of_pos_right (by norm_num)]
  exact_mod_cast Nat.div_le_div_right (Nat.mul_le_mul_right _ htu)

/-- Rounding down is superadditive. -/
theorem gridSignature_add (division t d : Nat) :
    (gridSignature division t).val + (gridSignature division d).val ≤ (gridSignature division (t + d)).val := by
  rw [(gridSignature_spec division t).2.1, (gridSignature_spec division d).2.1,
    (gridSignature_spec division (t + d)).2.1, ← add_div, div_le_div_iff_of_pos_right (by norm_num), Nat.add_mul]
  exact_mod_cast Nat.div_add_div_le_add_div

/-- C57: a note that ends (time `t`, duration `d`) not later than another begins (time `u`) still does so after
reading: rounding never creates overlaps. -/
theorem C57_no_new_overlap (division : Nat) (h : 0 < division) (t d u : Nat) (hu : t + d ≤ u) :
    ∃ a b c, MidiReader.timeToSignature t division = .ok a ∧ MidiReader.timeToSignature d division = .ok b ∧
      MidiReader.timeToSignature u division = .ok c ∧ a.val + b.val ≤ c.val := by
  refine ⟨_, _, _, MidiReader.timeToSignature_ok h t, MidiReader.timeToSignature_ok h d,
    MidiReader.timeToSignature_ok h u, (gridSignature_add division t d).trans ?_⟩
  obtain ⟨a, b, h1, h2, h3⟩ := C57_monotone division h _ _ hu
  rw [MidiReader.timeToSignature_ok h] at h1 h2
  cases h1; cases h2
  exact h3

/-- C57: up to division 4096 different times stay different, so a note of positive duration keeps a positive
duration; beyond that they may coincide. -/
theorem C57_distinct (division : Nat) (h : 0 < division) :
    (division ≤ 4096 ↔ ∀ t u : Nat, t < u → ∃ a b, MidiReader.timeToSignature t division = .ok a ∧
      MidiReader.timeToSignature u division = .ok b ∧ a.val < b.val) := by
  constructor
  · intro hd t u htu
    refine ⟨_, _, MidiReader.timeToSignature_ok h t, MidiReader.timeToSignature_ok h u, ?_⟩
    rw [(gridSignature_spec division t).2.1, (gridSignature_spec division u).2.1,
      div_lt_div_iff_of_pos_right (by norm_num)]
    have h1 : t * 4096 / division + 1 ≤ u * 4096 / division := by
      rw [← Nat.add_div_right _ h]
      exact Nat.div_le_div_right (by omega)
    exact_mod_cast h1
  · intro hs
    obtain ⟨a, b, h1, h2, h3⟩ := hs 0 1 (by norm_num)
    rw [MidiReader.timeToSignature_ok h] at h1 h2
    cases h1; cases h2
    rw [(gridSignature_spec division 0).2.1, (gridSignature_spec division 1).2.1,
      div_lt_div_iff_of_pos_right (by norm_num)] at h3
    by_contra hc
    rw [Nat.div_eq_of_lt (show 1 * 4096 < division by omega)] at h3
    have : (0 : ℚ) ≤ ((0 * 4096 / division : Nat) : ℚ) := Nat.cast_nonneg _
    rw [Nat.cast_zero] at h3
    linarith

/-- C57: at division 8192 one pulse is read as zero. -/
example : MidiReader.timeToSignature 1 8192 = .ok ⟨0, 1⟩ := by decide +kernel

variable [UnicodeDigits]

/-- C57: for the notes of a file. Every note read from a channel belongs to a pair of note-on and note-off
of that channel; its position and its duration lie less than 1/16384 of a whole note before the exact ones. -/
theorem C57_notes (S : ListSort) (m : MidiReader) {division : Nat} {es : List (Nat × Ev)}
    {body file : Bytes} (hf : IsFile division body file) (he : IsBody es body) (hd0 : 0 < division)
    (hd : division ≤ 0x7FFF) (hb : body.length < 2 ^ 24) {c : Nat} (hc : noteEvents c 0 es ≠ []) :
    ∃ t, m.loads S file (some c) = .ok t ∧ ∀ p ∈ t.contents, ∃ i j, IsPair (noteEvents c 0 es) i j ∧
      ∀ a b, (noteEvents c 0 es)[i]? = some a → (noteEvents c 0 es)[j]? = some b →
        0 ≤ exactTime division a.time - p.1 ∧ exactTime division a.time - p.1 < 1 / 16384 ∧
        0 ≤ exactTime division (b.time - a.time) - p.2.duration.val ∧
        exactTime division (b.time - a.time) - p.2.duration.val < 1 / 16384 := by
  obtain ⟨t, h1, h2⟩ := C49_notes_are_pairs S m hf he hd0 hd hb hc
  refine ⟨t, h1, ?_⟩
  intro p hp
  rw [h2, Multiset.mem_map] at hp
  obtain ⟨⟨i, j⟩, hx, rfl⟩ := hp
  refine ⟨i, j, mem_pairSet.1 hx, ?_⟩
  intro a b ha hb
  have ea : (noteEvents c 0 es).getD i default = a := by rw [List.getD_eq_getElem?_getD, ha]; rfl
  have eb : (noteEvents c 0 es).getD j default = b := by rw [List.getD_eq_getElem?_getD, hb]; rfl
  simp only [ea, eb, readNote]
  have g1 := gridSignature_bounds hd0 a.time
  have g2 := gridSignature_bounds hd0 (b.time - a.time)
  refine ⟨by linarith, by linarith, by linarith, by linarith⟩

omit [UnicodeDigits] in
/-- C57: the hypotheses hold for the example file. -/
example : IsFile 96 exBodyBytes (exFile 96 exBodyBytes) ∧ IsBody exEvents exBodyBytes ∧ noteEvents 0 0 exEvents ≠ [] :=
  ⟨exFile_isFile 96 (by decide), exBody_isBody, by decide⟩

/-! ### C58 -/

/-- The time in pulses after loading and saving with the same number of pulses per quarter. -/
def resavedTime (division time : Nat) : Nat := if division ∣ 4096 * time then time else time - 1

omit [UnicodeDigits] in
theorem pulsesOf_grid {ppq : Int} (h1 : 1 ≤ ppq) (h2 : ppq ≤ 4096) (time : Nat) :
    pulsesOf ppq (gridSignature ppq.toNat time).val = resavedTime ppq.toNat time := by
  obtain ⟨p, rfl⟩ := Int.eq_ofNat_of_zero_le (show 0 ≤ ppq by omega)
  rw [Int.toNat_natCast, (gridSignature_spec p time).2.1]
  have hp : 0 < p := by omega
  have hp' : p ≤ 4096 := by omega
  generalize hk : time * 4096 / p = k
  have e : pulsesOf (p : Int) ((k : ℚ) / 16384) = p * k / 4096 := by
    unfold pulsesOf
    rw [show 4 * (((p : Int) : ℚ)) * ((k : ℚ) / 16384) = ((p * k : Nat) : ℚ) / ((4096 : Nat) : ℚ) by push_cast; ring,
      Rat.floor_natCast_div_natCast]
    rfl
  rw [e]
  have a1 : k * p ≤ time * 4096 := hk ▸ Nat.div_mul_le_self _ _
  have a2 : time * 4096 < k * p + p := hk ▸ Nat.lt_div_mul_add hp
  rw [Nat.mul_comm p k]
  unfold resavedTime
  split_ifs with hd
  · have : k * p = time * 4096 := by
      rw [← hk]; exact Nat.div_mul_cancel (by rw [Nat.mul_comm]; exact hd)
    omega
  · have : k * p ≠ time * 4096 := fun e => hd ⟨k, by rw [Nat.mul_comm p k]; omega⟩
    omega

omit [UnicodeDigits] in
/-- C58 for a single time: reading it and writing it with the same number of pulses per quarter gives the same
pulse if it was read exactly, and otherwise the pulse before. -/
theorem C58_time_partial (w : Writer) (hw : w.Valid) (hq : w.ppq ≤ 4096) (time : Nat) :
    ∃ s, MidiReader.timeToSignature time w.ppq = .ok s ∧
      w.signatureToPulses s = .ok ((if w.ppq ∣ 4096 * (time : Int) then time else time - 1 : Nat) : Int) := by
  have h1 := hw.ppqPos
  have hp : 0 < w.ppq.toNat := by omega
  have e : ((w.ppq.toNat : Nat) : Int) = w.ppq := Int.toNat_of_nonneg (by omega)
  have := MidiReader.timeToSignature_ok hp time
  rw [e] at this
  refine ⟨_, this, ?_⟩
  rw [Writer.signatureToPulses_ok hw (gridSignature_spec _ _).1, pulsesOf_grid h1 hq]
  unfold resavedTime
  have hiff : w.ppq.toNat ∣ 4096 * time ↔ w.ppq ∣ 4096 * (time : Int) := by
    rw [← Int.natCast_dvd_natCast, e]
    push_cast
    rfl
  simp only [hiff]

/-- A number of load-and-save cycles applied to a time in pulses. -/
def cycles (w : Writer) : Nat → Int → PyM Int
  | 0, time => .ok time
  | k + 1, time => do
    let s ← MidiReader.timeToSignature time w.ppq
    let time' ← w.signatureToPulses s
    cycles w k time'

omit [UnicodeDigits] in
/-- C58: the times drift: every cycle of loading and saving moves a time one pulse back, until it is a multiple of
`ppq / gcd(ppq, 4096)` (for ppq up to 4096 the odd part of ppq), where it stays. -/
theorem C58_drift (w : Writer) (hw : w.Valid) (hq : w.ppq ≤ 4096) (k time : Nat) :
    cycles w k time = .ok ((max (time - k) (w.ppq.toNat / Nat.gcd w.ppq.toNat 4096 *
      (time / (w.ppq.toNat / Nat.gcd w.ppq.toNat 4096))) : Nat) : Int) := by
  have h1 := hw.ppqPos
  have hp : 0 < w.ppq.toNat := by omega
  generalize hM : w.ppq.toNat / Nat.gcd w.ppq.toNat 4096 = M
  have hg : 0 < Nat.gcd w.ppq.toNat 4096 := Nat.gcd_pos_of_pos_left _ hp
  have hM0 : 0 < M := hM ▸ Nat.div_pos (Nat.gcd_le_left _ hp) hg
  have hdvd : ∀ t : Nat, w.ppq ∣ 4096 * (t : Int) ↔ M ∣ t := by
    intro t
    have e : ((w.ppq.toNat : Nat) : Int) = w.ppq := Int.toNat_of_nonneg (by omega)
    rw [← e, show (4096 : Int) * (t : Int) = ((4096 * t : Nat) : Int) by push_cast; rfl, Int.natCast_dvd_natCast, ← hM]
    constructor
    · intro h
      refine Nat.Coprime.dvd_of_dvd_mul_left (Nat.coprime_div_gcd_div_gcd hg) ?_
      obtain ⟨c, hc⟩ := h
      refine ⟨c, ?_⟩
      apply Nat.eq_of_mul_eq_mul_left hg
      rw [← Nat.mul_assoc, Nat.mul_div_cancel' (Nat.gcd_dvd_right _ _), hc, ← Nat.mul_assoc,
        Nat.mul_div_cancel' (Nat.gcd_dvd_left _ _)]
    · rintro ⟨c, rfl⟩
      obtain ⟨b, hb⟩ := Nat.gcd_dvd_right w.ppq.toNat 4096
      refine ⟨b * c, ?_⟩
      calc 4096 * (w.ppq.toNat / Nat.gcd w.ppq.toNat 4096 * c)
          = Nat.gcd w.ppq.toNat 4096 * b * (w.ppq.toNat / Nat.gcd w.ppq.toNat 4096 * c) := by rw [← hb]
        _ = (Nat.gcd w.ppq.toNat 4096 * (w.ppq.toNat / Nat.gcd w.ppq.toNat 4096)) * (b * c) := by ring
        _ = _ := by rw [Nat.mul_div_cancel' (Nat.gcd_dvd_left _ _)]
  induction k generalizing time with
  | zero =>
    rw [cycles, Nat.sub_zero, max_eq_left (Nat.mul_div_le _ _)]
  | succ k ih =>
    obtain ⟨s, e1, e2⟩ := C58_time_partial w hw hq time
    rw [cycles, e1, pyBind_ok, e2, pyBind_ok, ih]
    simp only [hdvd]
    have hle := Nat.mul_div_le time M
    split_ifs with hd
    · have : M * (time / M) = time := Nat.mul_div_cancel' hd
      rw [this]; congr 2; omega
    · have hlt : M * (time / M) < time := lt_of_le_of_ne hle (fun e => hd ⟨_, e.symm⟩)
      have hsame : (time - 1) / M = time / M := by
        apply Nat.div_eq_of_lt_le
        · rw [Nat.mul_comm]; omega
        · have := Nat.lt_div_mul_add (a := time) hM0
          rw [Nat.add_mul, Nat.one_mul]; omega
      rw [hsame]; congr 2; omega

omit [UnicodeDigits] in
/-- C58: at 240 pulses per quarter a time of 14 pulses needs 14 cycles to settle (at 0). -/
example : exWriter.Valid ∧ cycles ⟨240, 960, 24, .fin 120, 0⟩ 7 14 = .ok 7 ∧
    cycles ⟨240, 960, 24, .fin 120, 0⟩ 20 14 = .ok 0 ∧ cycles ⟨240, 960, 24, .fin 120, 0⟩ 20 15 = .ok 15 := by
  exact ⟨exWriter_valid, by decide +kernel, by decide +kernel, by decide +kernel⟩

/-- A quarter note at position 1/256. -/
def exFineTrack : Track := (Track.empty ⟨4, 4⟩).run cpySort [.add (.note (exNote 40 1 4)) (some (.ints [1, 256]))]

omit [UnicodeDigits] in
/-- C58 is violated: saving, loading and saving again (96 pulses per quarter) moves the note: the first file has it at
pulse 1, the second at pulse 0. -/
theorem C58_violated : ∃ bytes t' bytes', exWriter.dumps cpySort exFineTrack = .ok bytes ∧
    @MidiReader.loads ⟨fun _ => none⟩ cpySort ⟨24⟩ bytes none = .ok t' ∧
    exWriter.dumps cpySort t' = .ok bytes' ∧ (bytes.drop 37).take 4 = [1, 0x93, 64, 127] ∧
    (bytes'.drop 37).take 4 = [0, 0x93, 64, 127] := by
  obtain ⟨bytes, h1, h⟩ := okAnd_iff (x := exWriter.dumps cpySort exFineTrack)
    (p := fun b => okAnd (@MidiReader.loads ⟨fun _ => none⟩ cpySort ⟨24⟩ b none)
      (fun t' => okAnd (exWriter.dumps cpySort t') (fun b' => decide ((b.drop 37).take 4 = [1, 0x93, 64, 127] ∧
        (b'.drop 37).take 4 = [0, 0x93, 64, 127])))) (by decide +kernel)
  obtain ⟨t', h2, h⟩ := okAnd_iff h
  obtain ⟨bytes', h3, h⟩ := okAnd_iff h
  have h := of_decide_eq_true h
  exact ⟨bytes, t', bytes', h1, h2, h3, h.1, h.2⟩

/-- C58 (partial: exact description instead of equality): loading a channel of a file and saving it with the same
resolution and middle C writes, for every pair of note-on and note-off of the channel, a note-on at
the old time or one pulse earlier (`resavedTime`) and a note-off after the likewise changed duration; pitch and
velocity are kept. -/
theorem C58_resave_partial (S : ListSort) (m : MidiReader) (w : Writer) (hw : w.Valid)
    (hm : w.middleCDelta = m.middleCDelta) {es : List (Nat × Ev)} {body file : Bytes}
    (hf : IsFile w.ppq.toNat body file) (he : IsBody es body) (hb : body.length < 2 ^ 24)
    {c : Nat} (hc : noteEvents c 0 es ≠ []) (t : Track) (ht : m.loads S file (some c) = .ok t)
    (bytes : Bytes) (h : w.dumps S t = .ok bytes) :
    ∃ sig tempo notes, IsSmf w.ppq.toNat ([(0, sig), (0, tempo)] ++ notes ++ [(0, .endOfTrack)]) bytes ∧
      ((absoluteTimes 0 notes : List (Nat × Msg)) : Multiset (Nat × Msg)) =
        (pairSet (noteEvents c 0 es)).val.map (fun x =>
          (resavedTime w.ppq.toNat ((noteEvents c 0 es).getD x.1 default).time,
            Msg.noteOn w.channel.toNat ((noteEvents c 0 es).getD x.1 default).pitch
              (min ((noteEvents c 0 es).getD x.1 default).velocity 127))) +
        (pairSet (noteEvents c 0 es)).val.map (fun x =>
          (resavedTime w.ppq.toNat ((noteEvents c 0 es).getD x.1 default).time +
            resavedTime w.ppq.toNat (((noteEvents c 0 es).getD x.2 default).time -
              ((noteEvents c 0 es).getD x.1 default).time),
            Msg.noteOff w.channel.toNat ((noteEvents c 0 es).getD x.1 default).pitch 64)) := by
  have hq1 := hw.ppqPos
  have hq2 := hw.ppqMax
  obtain ⟨t', k1, k2⟩ := C49_notes_are_pairs S m hf he (by omega) (by omega) hb hc
  rw [ht] at k1
  cases k1
  have hr : t.Reachable S := ((C39_loads_terminates S m file (some c)).2 t ht).1
  obtain ⟨sig, tempo, notes, g1, g2, -⟩ := C35_notes S w hw t hr bytes h
  have hq := (Writer.dumps_success hw hr.wf h).2.2.1
  refine ⟨sig, tempo, notes, g1, ?_⟩
  have g3 := C35_multiset w _ _ g2
  rw [Multiset.coe_eq_coe.2 g3, ← Multiset.coe_add]
  have key : ∀ b, (((t.items S).map (fun e => Entry.msg w e b) : List (Nat × Msg)) : Multiset (Nat × Msg)) =
      (pairSet (noteEvents c 0 es)).val.map (fun x => if b then
          (resavedTime w.ppq.toNat ((noteEvents c 0 es).getD x.1 default).time +
            resavedTime w.ppq.toNat (((noteEvents c 0 es).getD x.2 default).time -
              ((noteEvents c 0 es).getD x.1 default).time),
            Msg.noteOff w.channel.toNat ((noteEvents c 0 es).getD x.1 default).pitch 64)
        else (resavedTime w.ppq.toNat ((noteEvents c 0 es).getD x.1 default).time,
            Msg.noteOn w.channel.toNat ((noteEvents c 0 es).getD x.1 default).pitch
              (min ((noteEvents c 0 es).getD x.1 default).velocity 127))) := by
    intro b
    let f : ℚ × Note → Nat × Msg := fun p => if b then
        (pulsesOf w.ppq p.1 + pulsesOf w.ppq p.2.duration.val,
          .noteOff w.channel.toNat (p.2.midiPitch w.middleCDelta).toNat 64)
      else (pulsesOf w.ppq p.1, .noteOn w.channel.toNat (p.2.midiPitch w.middleCDelta).toNat (velByte p.2.velocity))
    have e1 : (t.items S).map (fun e => Entry.msg w e b) = ((t.items S).map Entry.placed).map f := by
      rw [List.map_map]
      apply List.map_congr_left
      intro e _
      cases b <;> rfl
    rw [e1, ← Multiset.map_coe, Track.items_placed, k2, Multiset.map_map]
    apply Multiset.map_congr rfl
    intro x _
    have hv : min ((noteEvents c 0 es).getD x.1 default).velocity 127 ≤ 127 := min_le_right _ _
    have e2 : (((((noteEvents c 0 es).getD x.1 default).pitch : Int) - m.middleCDelta + m.middleCDelta).toNat) =
        ((noteEvents c 0 es).getD x.1 default).pitch := by omega
    have e3 := velByte_fl hv
    cases b <;>
      simp only [f, Function.comp, readNote, pulsesOf_grid hq1 (show w.ppq ≤ 4096 by omega), Note.midiPitch, hm, e2, e3,
        if_true, if_false, Bool.false_eq_true]
  rw [key false, key true]
  rfl

omit [UnicodeDigits] in
/-- C58: an instance of the hypotheses (file and writer of 96 pulses per quarter, channel 0). -/
example : exWriter.Valid ∧ exWriter.middleCDelta = (⟨24⟩ : MidiReader).middleCDelta ∧
    IsFile exWriter.ppq.toNat exBodyBytes (exFile 96 exBodyBytes) ∧ IsBody exEvents exBodyBytes ∧
    noteEvents 0 0 exEvents ≠ [] ∧
    ∃ t, @MidiReader.loads ⟨fun _ => none⟩ cpySort ⟨24⟩ (exFile 96 exBodyBytes) (some (0 : Nat)) = .ok t ∧
      ∃ bytes, exWriter.dumps cpySort t = .ok bytes ∧ bytes.length = 49 := by
  refine ⟨exWriter_valid, rfl, exFile_isFile 96 (by decide), exBody_isBody, by decide, ?_⟩
  obtain ⟨t, h1, h⟩ := okAnd_iff (x := @MidiReader.loads ⟨fun _ => none⟩ cpySort ⟨24⟩ (exFile 96 exBodyBytes)
    (some (0 : Nat))) (p := fun t => okAnd (exWriter.dumps cpySort t) (fun b => decide (b.length = 49)))
    (by decide +kernel)
  obtain ⟨bytes, h2, h⟩ := okAnd_iff h
  exact ⟨t, h1, bytes, h2, of_decide_eq_true h⟩

end Melodia
