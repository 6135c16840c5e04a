/-
Property theorems C54: text forms (`__str__`, `__repr__`).
-/
import Verif.Lemmas.Text
import Verif.Props.Track

set_option autoImplicit false

namespace Melodia

/-- C54: the repr of a tone determines it. -/
theorem C54_tone_repr (a b : Tone) (h : a.repr = b.repr) : a = b := by
  unfold Tone.repr at h
  rw [List.append_assoc, List.append_assoc] at h
  have h := List.append_cancel_left h
  have e : ")".toList = [')'] := rfl
  rw [e] at h
  obtain ⟨h1, -⟩ := intStr_split (by decide) (by decide) h
  cases a
  cases b
  simp only at h1
  rw [h1]

/-- C54: the str of a tone determines it. -/
theorem C54_tone_str (a b : Tone) : ∃ x y, a.str = .ok x ∧ b.str = .ok y ∧ (x = y ↔ a = b) := by
  obtain ⟨x, h1, -, h2⟩ := tone_str a
  obtain ⟨y, h3, -, h4⟩ := tone_str b
  refine ⟨x, y, h1, h3, ?_, ?_⟩
  · rintro rfl
    rw [h2] at h4
    cases h4
    rfl
  · rintro rfl
    rw [h1] at h3
    cases h3
    rfl

/-- C54: the str of a signature determines nominator and denominator. -/
theorem C54_signature_str (a b : Signature) (h : a.str = b.str) : a = b := by
  have : a.str ++ ' ' :: [] = b.str ++ ' ' :: [] := by rw [h]
  exact (strText_split (by decide) (by decide) this).1

/-- C54: the repr of a signature determines nominator and denominator. -/
theorem C54_signature_repr (a b : Signature) (h : a.repr = b.repr) : a = b := by
  unfold Signature.repr at h
  have h := List.append_cancel_left h
  rw [← List.append_nil a.tupleText, ← List.append_nil b.tupleText] at h
  exact (tupleText_split h).1

/-- C54: the repr of a note determines tone, duration (as written) and velocity. `F` is any text of floats that
identifies doubles; velocities are doubles. -/
theorem C54_note_repr (F : FloatText) (a b : Note) (ha : fl a.velocity = a.velocity) (hb : fl b.velocity = b.velocity)
    (h : a.repr F = b.repr F) : a = b := by
  rw [← List.append_nil (a.repr F), ← List.append_nil (b.repr F)] at h
  exact (note_repr_split ha hb h).1

/-- C54: the str of a note always exists; it determines the tone, the duration and the velocity up to 0.001. -/
theorem C54_note_str (a b : Note) (ha : a.Valid) (hb : b.Valid) : ∃ x y, a.str = .ok x ∧ b.str = .ok y ∧
    (x = y → a.tone = b.tone ∧ a.duration = b.duration ∧ |a.velocity - b.velocity| ≤ 1 / 1000) := by
  obtain ⟨x, h1, h2⟩ := note_str_ok a
  obtain ⟨y, h3, h4⟩ := note_str_ok b
  refine ⟨_, _, h2, h4, fun h => ?_⟩
  obtain ⟨x', k1, k2, k3⟩ := tone_str a.tone
  obtain ⟨y', k4, k5, k6⟩ := tone_str b.tone
  rw [h1] at k1
  rw [h3] at k4
  cases k1
  cases k4
  have e1 : " ".toList = [' '] := rfl
  have e2 : " (".toList = ' ' :: ['('] := rfl
  simp only [List.append_assoc, e1, e2, List.cons_append, List.nil_append] at h
  have h := List.append_cancel_left h
  obtain ⟨d1, -, h⟩ := strText_split (by decide) (by decide) h
  obtain ⟨d2, -, h⟩ := split_delim (P := fun c => c ≠ ' ') k2 k5 (by simp) (by simp) h
  subst d2
  rw [k3] at k6
  have h := List.append_cancel_left h
  rw [List.cons.injEq, List.cons.injEq] at h
  have h := List.append_cancel_right h.2.2
  have h5 := fixed3_inj ha.velLow hb.velLow h
  have b1 := (roundHalfEven_bounds (1000 * a.velocity)).2
  have b2 := (roundHalfEven_bounds (1000 * b.velocity)).2
  rw [h5] at b1
  refine ⟨by injection k6, d1, ?_⟩
  rw [abs_le] at b1 b2 ⊢
  constructor <;> linarith [b1.1, b1.2, b2.1, b2.2]

/-- C54: the repr of a track determines its signature and the sequence iteration yields (positions as written,
notes). -/
theorem C54_track_repr (S : ListSort) (F : FloatText) (a b : Track)
    (ha : ∀ e ∈ a.items S, fl e.2.velocity = e.2.velocity) (hb : ∀ e ∈ b.items S, fl e.2.velocity = e.2.velocity)
    (h : (a.repr S F).2 = (b.repr S F).2) : a.signature = b.signature ∧ a.items S = b.items S := by
  have e : ∀ t : Track, (t.repr S F).2 = "Track(signature=".toList ++ (t.signature.tupleText ++
      (", content=[".toList ++ (joinComma ((t.items S).map (Entry.repr F)) ++ ']' :: [')']))) := by
    intro t
    unfold Track.repr Track.items
    simp
  rw [e, e] at h
  have h := List.append_cancel_left h
  obtain ⟨h1, h⟩ := tupleText_split h
  have h := List.append_cancel_left h
  exact ⟨h1, join_split ha hb h⟩

/-- C54: the text of a track has the iterated contents in it, and producing it has the effect of one iteration. -/
theorem C54_track_repr_iterates (S : ListSort) (F : FloatText) (t : Track) : (t.repr S F).1 = (t.iter S).1 := rfl

/-- C54: the str of a track is the same exactly for equal signatures and equal numbers of notes. -/
theorem C54_track_str (a b : Track) : a.str = b.str ↔ a.signature = b.signature ∧ a.len = b.len := by
  constructor
  · intro h
    have e : ∀ t : Track, t.str = "Track ".toList ++ (t.signature.str ++ ' ' :: ("with ".toList ++
        (intStr t.len ++ ' ' :: "notes".toList))) := by
      intro t
      unfold Track.str
      simp
    rw [e, e] at h
    have h := List.append_cancel_left h
    obtain ⟨h1, -, h⟩ := strText_split (by decide) (by decide) h
    have h := List.append_cancel_left h
    obtain ⟨h2, -⟩ := intStr_split (by decide) (by decide) h
    exact ⟨h1, by exact_mod_cast h2⟩
  · rintro ⟨h1, h2⟩
    unfold Track.str
    rw [h1, h2]

/-- A float text meeting the contract: numerator and denominator. -/
def exFloatText : FloatText where
  text q := intStr q.num ++ '/' :: natStr q.den
  injective := by
    intro a b _ _ h
    obtain ⟨h1, -, h2⟩ := intStr_split (by decide) (by decide) h
    exact Rat.ext h1 (natStr_inj h2)
  chars := by
    intro a c hc
    rw [List.mem_append, List.mem_cons] at hc
    rintro rfl
    rcases hc with hc | hc | hc
    · exact absurd (intStr_chars _ _ hc) (by decide)
    · exact absurd hc (by decide)
    · exact absurd (natStr_chars _ _ hc) (by decide)

/-- C54: texts of some objects. -/
example : (Tone.mk (-5)).repr = "Tone(pitch=-5)".toList ∧ (Signature.mk 3 4).str = "3/4".toList ∧
    (Signature.mk 3 4).repr = "Signature(3, 4)".toList ∧
    (exNote 57 1 4).repr exFloatText = "Note(tone=57, duration=(1, 4), velocity=1/1) ".toList ∧
    (exNote 57 1 4).str = .ok "Note 1/4 A4 (1.000)".toList ∧
    (Note.mk ⟨57⟩ ⟨1, 4⟩ (1 / 16)).str = .ok "Note 1/4 A4 (0.062)".toList := by decide +kernel

example : ((Track.empty ⟨4, 4⟩).run cpySort exOps).str = "Track 4/4 with 4 notes".toList ∧
    (((Track.empty ⟨3, 4⟩).run cpySort [.add (.note (exNote 57 1 4)) none]).repr cpySort exFloatText).2 =
      "Track(signature=(3, 4), content=[(Note(tone=57, duration=(1, 4), velocity=1/1) , (0, 1))])".toList := by
  decide +kernel

/-- The velocities of the example history are doubles. -/
example : ∀ e ∈ ((Track.empty ⟨4, 4⟩).run cpySort exOps).items cpySort, fl e.2.velocity = e.2.velocity := by
  decide +kernel

end Melodia
