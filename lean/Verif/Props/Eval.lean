/-
C79: `eval(repr(x))` gives the object again.
-/
import Verif.Props.Track
import Verif.Props.Text
import Verif.Lemmas.PyExpr

set_option autoImplicit false

namespace Melodia

section

variable [UnicodeDigits]

/-- C79 for tones. -/
theorem C79_tone (F : FloatLiteral) (t : Tone) : evalText F t.repr = some (.ok (.tone t)) := by
  rw [evalText_of F (tokens_tone t) (toneExpr_plain t), toneExpr_eval]

/-- C79 for signatures. -/
theorem C79_signature (F : FloatLiteral) (s : Signature) (hs : s.Valid) : evalText F s.repr = some (.ok (.signature s)) := by
  rw [evalText_of F (tokens_sigCall s) (sigCall_plain s), sigCall_eval F s hs]

/-- C79 for notes, in spite of the trailing space of their text. -/
theorem C79_note (F : FloatLiteral) (n : Note) (hn : n.Valid) (hv : fl n.velocity = n.velocity) :
    evalText F (n.repr F.toFloatText) = some (.ok (.note n)) := by
  have h := tokens_note F n hn.velLow hv (rest := []) (R := []) rfl
  rw [List.append_nil, List.append_nil] at h
  rw [evalText_of F h (noteExpr_plain F n), noteExpr_eval F n hn hv]

omit [UnicodeDigits] in
theorem repr_writable (S : ListSort) (t : Track) (ht : t.Reachable S)
    (hv : ∀ x ∈ t.contents, fl x.2.velocity = x.2.velocity) : ∀ e ∈ t.items S, Writable e := by
  intro e he
  have h := Track.items_valid S ht.wf e he
  refine ⟨h.1, h.2, hv e.placed ?_⟩
  rw [← Track.items_placed S, Multiset.mem_coe]
  exact List.mem_map_of_mem he

/-- C79 for tracks: the text is an expression that evaluates, without an exception, to a track with the same
signature and the same notes at the same positions; if notes at the same position with equal tone, velocity and
duration value also have equally written durations, the new track is equal to the old one. -/
theorem C79_track (S : ListSort) (F : FloatLiteral) (t : Track) (ht : t.Reachable S)
    (hv : ∀ x ∈ t.contents, fl x.2.velocity = x.2.velocity) :
    ∃ u, evalText F (t.repr S F.toFloatText).2 = some (.ok (.track u)) ∧ u.signature = t.signature ∧
      u.len = t.len ∧ u.contents = t.contents ∧ (ConsistentPlaced t.contents → u.eq S t = true) := by
  have hw := repr_writable S t ht hv
  obtain ⟨u, h1, h2, h3, h4, -⟩ := C27_rebuild_partial S t ht
  refine ⟨u, ?_, h2, h3, h4, fun hc => ?_⟩
  · rw [evalText_of F (tokens_track S F t hw) (trackExpr_plain F _ _), trackExpr_eval F _ ht.wf.sig _ hw]
    rw [rebuildContent] at h1
    rw [h1]
    rfl
  · obtain ⟨u', g1, g2, -⟩ := C27_equal_partial S t ht hc
    rw [h1] at g1
    cases g1
    exact g2

end

theorem intStr_nonneg {x : Int} (h : 0 ≤ x) : intStr x = natStr x.natAbs := by
  rw [intStr, if_neg (by omega)]

/-- A text of floats meeting the contract: numerator and denominator around a point. -/
def exFloatLiteral : FloatLiteral where
  text q := intStr q.num ++ '.' :: natStr q.den
  injective := by
    intro a b _ _ h
    obtain ⟨h1, -, h2⟩ := intStr_split (by decide) (by decide) h
    exact Rat.ext h1 (natStr_inj h2)
  chars := by
    intro a c hc
    rw [List.mem_append, List.mem_cons] at hc
    rintro rfl
    rcases hc with hc | hc | hc
    · exact absurd (intStr_chars _ _ hc) (by decide)
    · exact absurd hc (by decide)
    · exact absurd (natStr_chars _ _ hc) (by decide)
  read s := some ((literalVal (s.takeWhile Char.isDigit) : ℚ) / literalVal (s.dropWhile Char.isDigit).tail)
  first := by
    intro a h0 _
    rw [intStr_nonneg (Rat.num_nonneg.mpr h0)]
    obtain ⟨h1, h2⟩ := natStr_digits a.num.natAbs
    cases h : natStr a.num.natAbs with
    | nil => exact absurd h h1
    | cons c cs => exact ⟨c, _, rfl, h2 c (by rw [h]; simp)⟩
  shape := by
    intro a h0 _ pre c post e
    rw [intStr_nonneg (Rat.num_nonneg.mpr h0)] at e
    have hc : c ∈ natStr a.num.natAbs ++ '.' :: natStr a.den := by rw [e]; simp
    rw [List.mem_append, List.mem_cons] at hc
    rcases hc with hc | hc | hc
    · exact Or.inl ((natStr_digits _).2 c hc)
    · exact Or.inr (Or.inl hc)
    · exact Or.inl ((natStr_digits _).2 c hc)
  point := by
    intro a _ _
    exact ⟨'.', by simp, by decide⟩
  roundtrip := by
    intro a h0 _
    have hn := Rat.num_nonneg.mpr h0
    rw [intStr_nonneg hn]
    have h1 : (natStr a.num.natAbs ++ '.' :: natStr a.den).takeWhile Char.isDigit = natStr a.num.natAbs := by
      rw [List.takeWhile_append_of_pos (natStr_digits _).2]
      simp [show Char.isDigit '.' = false from by decide]
    have h2 : (natStr a.num.natAbs ++ '.' :: natStr a.den).dropWhile Char.isDigit = '.' :: natStr a.den := by
      rw [List.dropWhile_append_of_pos (natStr_digits _).2]
      simp [show Char.isDigit '.' = false from by decide]
    rw [h1, h2, List.tail_cons, literalVal_natStr, literalVal_natStr]
    have h3 : ((a.num.natAbs : ℕ) : ℚ) = (a.num : ℚ) := by
      rw [← Int.cast_natCast, Int.natAbs_of_nonneg hn]
    rw [h3, Rat.num_div_den]

/-- The text of a note with its trailing space, and of a track with two notes. -/
example : (Note.mk ⟨-3⟩ ⟨3, 8⟩ (3 / 4)).repr exFloatLiteral.toFloatText =
      "Note(tone=-3, duration=(3, 8), velocity=3.4) ".toList ∧
    (Note.mk ⟨-3⟩ ⟨3, 8⟩ (3 / 4)).Valid ∧ fl (3 / 4) = 3 / 4 := by
  refine ⟨by decide +kernel, ⟨⟨by decide, ⟨3, by decide⟩⟩, by decide +kernel, by decide +kernel⟩, by decide +kernel⟩

/-- Text outside the subset, and text whose evaluation raises. -/
example : (@evalText ⟨fun _ => none⟩ exFloatLiteral "Tone(pitch=3".toList).isNone = true ∧
    (@evalText ⟨fun _ => none⟩ exFloatLiteral "Signature(1, 3)".toList).map (fun r => r.isOk) = some false ∧
    (@evalText ⟨fun _ => none⟩ exFloatLiteral "Tone(key=3)".toList).map (fun r => r.isOk) = some false := by decide +kernel

/-- The example history is covered. -/
example : (∀ x ∈ ((Track.empty ⟨4, 4⟩).run cpySort exOps).contents, fl x.2.velocity = x.2.velocity) ∧
    ConsistentPlaced ((Track.empty ⟨4, 4⟩).run cpySort exOps).contents ∧
    ((Track.empty ⟨4, 4⟩).run cpySort exOps).len = 4 := by decide +kernel

end Melodia
