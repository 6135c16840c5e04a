/-
Writing and reading tracks whose times are not whole pulses.
-/
import Verif.Lemmas.RoundTrip
import Verif.Props.Times

set_option autoImplicit false

namespace Melodia

/-- The placed note read back. -/
def quantisedNote (ppq : Int) (p : ℚ × Note) : ℚ × Note :=
  ((gridSignature ppq.toNat (pulsesOf ppq p.1)).val,
    ⟨p.2.tone, gridSignature ppq.toNat (pulsesOf ppq p.2.duration.val), fl ((velByte p.2.velocity : ℚ) / 127)⟩)

theorem pulsesOf_add {ppq : Int} (h : 1 ≤ ppq) {x y : ℚ} (hx : 0 ≤ x) (hy : 0 ≤ y) :
    pulsesOf ppq x + pulsesOf ppq y ≤ pulsesOf ppq (x + y) := by
  have hq : (0 : ℚ) ≤ 4 * ppq := by
    have : (0 : ℚ) ≤ ppq := by exact_mod_cast (by omega : (0 : Int) ≤ ppq)
    linarith
  have h1 : 0 ≤ ⌊4 * (ppq : ℚ) * x⌋ := Int.floor_nonneg.2 (by positivity)
  have h2 : 0 ≤ ⌊4 * (ppq : ℚ) * y⌋ := Int.floor_nonneg.2 (by positivity)
  unfold pulsesOf
  rw [mul_add]
  have := Int.le_floor_add (4 * (ppq : ℚ) * x) (4 * (ppq : ℚ) * y)
  omega

theorem pulsesOf_mono {ppq : Int} (h : 1 ≤ ppq) {x y : ℚ} (hxy : x ≤ y) : pulsesOf ppq x ≤ pulsesOf ppq y := by
  have hq : (0 : ℚ) ≤ ppq := by exact_mod_cast (by omega : (0 : Int) ≤ ppq)
  exact Int.toNat_le_toNat (Int.floor_le_floor (by gcongr))

theorem readNote_quantised {w : Writer} (delta : Int) {e : Entry}
    (hv : e.2.Valid) (hp : e.2.PitchOk w.middleCDelta) :
    readNote delta w.ppq.toNat (Msg.noteEv (Entry.msg w e false)) (Msg.noteEv (Entry.msg w e true)) =
      shiftPlaced (w.middleCDelta - delta) (quantisedNote w.ppq e.placed) := by
  have hb := (Writer.velocityByte_eq hv.velLow hv.velHigh).2
  unfold readNote shiftPlaced quantisedNote
  simp only [Msg.noteEv, Entry.msg, Entry.offTime, Nat.add_sub_cancel_left]
  refine Prod.ext ?_ ?_
  · rfl
  · simp only
    congr 1
    · congr 1
      have := hp.1
      rw [Int.toNat_of_nonneg this]
      unfold Note.midiPitch Entry.placed
      ring
    · rw [Nat.min_eq_left hb]
      rfl

theorem readNotes_quantised {S : ListSort} {w : Writer} (hw : w.Valid) {t : Track} (ht : t.WF)
    (hp : ∀ e ∈ t.items S, e.2.PitchOk w.middleCDelta) (h2 : Audible t) (h3 : InTurn S t) (delta : Int) :
    readNotes delta w.ppq.toNat ((Writer.sortedMsgs w (t.items S)).map Msg.noteEv) =
      (t.contents.map (quantisedNote w.ppq)).map (shiftPlaced (w.middleCDelta - delta)) := by
  have hv := Track.items_valid S ht
  have hq0 := hw.ppqPos
  unfold readNotes
  rw [pairSet_arranged (Writer.arranged_sortedMsgs w (t.items S)) hp
    (fun e he => h2 _ (mem_contents_items he)) ?_ (fun a b => readNote delta w.ppq.toNat a b)]
  · rw [← Track.items_placed S t, Multiset.map_map, Multiset.map_coe, List.map_map]
    congr 1
    apply List.map_congr_left
    intro e he
    exact readNote_quantised delta (hv e he).2 (hp e he)
  · refine h3.imp_of_mem ?_
    intro a b ha hb hab he
    have := hab he
    unfold Entry.offTime Entry.onTime
    exact (pulsesOf_add hq0 (hv a ha).1.valNonneg (hv a ha).2.duration.valNonneg).trans (pulsesOf_mono hq0 this)

theorem grid_near {ppq : Int} (h : 1 ≤ ppq) {x : ℚ} (hx : 0 ≤ x) :
    0 ≤ x - (gridSignature ppq.toNat (pulsesOf ppq x)).val ∧
    x - (gridSignature ppq.toNat (pulsesOf ppq x)).val < 1 / (4 * ppq) + 1 / 16384 := by
  obtain ⟨h1, h2⟩ := pulsesOf_bounds h hx
  obtain ⟨g1, g2⟩ := gridSignature_bounds (division := ppq.toNat) (by omega) (pulsesOf ppq x)
  have hc : ((ppq.toNat : Nat) : ℚ) = (ppq : ℚ) := by
    rw [← Int.cast_natCast, Int.toNat_of_nonneg (by omega)]
  unfold exactTime at g1 g2
  rw [hc] at g1 g2
  have hq : (0 : ℚ) < 4 * ppq := by
    have : (0 : ℚ) < ppq := by exact_mod_cast (by omega : (0 : Int) < ppq)
    linarith
  have k1 : (pulsesOf ppq x : ℚ) / (4 * ppq) ≤ x := by rw [div_le_iff₀ hq]; linarith
  have k2 : x < (pulsesOf ppq x : ℚ) / (4 * ppq) + 1 / (4 * ppq) := by
    rw [← add_div, lt_div_iff₀ hq]; linarith
  constructor <;> linarith

theorem near_quantised {ppq : Int} (h : 1 ≤ ppq) {p : ℚ × Note} (hx : 0 ≤ p.1) (hv : p.2.Valid) :
    Near ppq p (quantisedNote ppq p) := by
  refine ⟨rfl, grid_near h hx, grid_near h hv.duration.valNonneg, ?_⟩
  obtain ⟨b, q, hb, hq, h1, h2⟩ := C51_error p.2.velocity hv.velLow hv.velHigh
  obtain ⟨e, hb'⟩ := Writer.velocityByte_eq hv.velLow hv.velHigh
  rw [e] at hb
  have hbe : velByte p.2.velocity = b := by exact_mod_cast hb
  subst hbe
  obtain ⟨q', hq', -, -, h4⟩ := C51_read (velByte p.2.velocity)
  rw [hq'] at hq
  cases hq
  unfold quantisedNote
  rw [← (h4 hb').1]
  exact ⟨h1, h2⟩

end Melodia
