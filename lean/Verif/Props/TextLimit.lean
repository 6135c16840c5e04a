/-
C110: the texts of signatures, notes and tracks under Python's limit on digits.
-/
import Verif.Model.TextLimit
import Verif.Spec.TextLimit
import Verif.Props.ToneLimit
import Verif.Props.Eval

set_option autoImplicit false

namespace Melodia

theorem strOfInt_short {l : Nat} (hl : 1 ≤ l) (x : Int) :
    strOfInt (some l) x = if -10 ^ l < x ∧ x < 10 ^ l then .ok (intStr x) else .error .valueError := by
  unfold strOfInt
  have h := natStr_length hl x.natAbs
  have e : (x.natAbs < 10 ^ l) ↔ -10 ^ l < x ∧ x < 10 ^ l := by
    have : ((10 ^ l : Nat) : Int) = 10 ^ l := by push_cast; rfl
    generalize (10 : Int) ^ l = x at *
    generalize 10 ^ l = y at *
    omega
  simp only [← e, ← h, overLimit, decide_eq_true_eq]
  by_cases g : (natStr x.natAbs).length ≤ l
  · rw [if_neg (by omega), if_pos g]
  · rw [if_pos (by omega), if_neg g]

theorem strOfInt_nonneg {l : Nat} (hl : 1 ≤ l) {x : Int} (hx : 0 ≤ x) :
    strOfInt (some l) x = if x < 10 ^ l then .ok (intStr x) else .error .valueError := by
  rw [strOfInt_short hl]
  have : (0 : Int) < 10 ^ l := by positivity
  exact if_congr ⟨fun h => h.2, fun h => ⟨by omega, h⟩⟩ rfl rfl

theorem Signature.Valid.nonneg {s : Signature} (hs : s.Valid) : 0 ≤ s.nominator ∧ 0 ≤ s.denominator := by
  obtain ⟨h1, k, h2⟩ := hs
  exact ⟨h1, by rw [h2]; positivity⟩

theorem strLimit_sig {l : Nat} (hl : 1 ≤ l) (s : Signature) (hs : s.Valid) :
    s.strLimit (some l) = if s.Short l then .ok s.str else .error .valueError := by
  unfold Signature.strLimit
  rw [strOfInt_nonneg hl hs.nonneg.1, strOfInt_nonneg hl hs.nonneg.2]
  by_cases h1 : s.nominator < 10 ^ l
  · by_cases h2 : s.denominator < 10 ^ l
    · rw [if_pos h1, if_pos h2, if_pos ⟨h1, h2⟩]; rfl
    · rw [if_pos h1, if_neg h2, if_neg (fun h => h2 h.2)]; rfl
  · rw [if_neg h1, if_neg (show ¬ s.Short l from fun h => h1 h.1)]; rfl

theorem tupleTextLimit_sig {l : Nat} (hl : 1 ≤ l) (s : Signature) (hs : s.Valid) :
    s.tupleTextLimit (some l) = if s.Short l then .ok s.tupleText else .error .valueError := by
  unfold Signature.tupleTextLimit
  rw [strOfInt_nonneg hl hs.nonneg.1, strOfInt_nonneg hl hs.nonneg.2]
  by_cases h1 : s.nominator < 10 ^ l
  · by_cases h2 : s.denominator < 10 ^ l
    · rw [if_pos h1, if_pos h2, if_pos ⟨h1, h2⟩]; rfl
    · rw [if_pos h1, if_neg h2, if_neg (fun h => h2 h.2)]; rfl
  · rw [if_neg h1, if_neg (show ¬ s.Short l from fun h => h1 h.1)]; rfl

theorem reprLimit_note {l : Nat} (hl : 1 ≤ l) (F : FloatText) (n : Note) (hn : n.Valid) :
    n.reprLimit (some l) F = if n.Short l then .ok (n.repr F) else .error .valueError := by
  unfold Note.reprLimit
  rw [tupleTextLimit_sig hl _ hn.1, strOfInt_short hl]
  by_cases h1 : n.duration.Short l
  · by_cases h2 : -10 ^ l < n.tone.pitch ∧ n.tone.pitch < 10 ^ l
    · rw [if_pos h1, if_pos h2, if_pos ⟨h2.1, h2.2, h1⟩]; rfl
    · rw [if_pos h1, if_neg h2, if_neg (fun h => h2 ⟨h.1, h.2.1⟩)]; rfl
  · rw [if_neg h1, if_neg (show ¬ n.Short l from fun h => h1 h.2.2)]; rfl

theorem reprLimit_entry {l : Nat} (hl : 1 ≤ l) (F : FloatText) (e : Entry) (h1 : e.1.Valid) (h2 : e.2.Valid) :
    e.reprLimit (some l) F = if e.1.Short l ∧ e.2.Short l then .ok (e.repr F) else .error .valueError := by
  unfold Entry.reprLimit
  rw [tupleTextLimit_sig hl _ h1, reprLimit_note hl F _ h2]
  by_cases g2 : e.2.Short l
  · by_cases g1 : e.1.Short l
    · rw [if_pos g1, if_pos g2, if_pos ⟨g1, g2⟩]; rfl
    · rw [if_neg g1, if_pos g2, if_neg (fun h => g1 h.1)]; rfl
  · rw [if_neg g2, if_neg (show ¬ (e.1.Short l ∧ e.2.Short l) from fun h => g2 h.2)]; rfl

theorem entryTextsLimit_eq {l : Nat} (hl : 1 ≤ l) (F : FloatText) (es : List Entry) (hv : ∀ e ∈ es, e.1.Valid ∧ e.2.Valid) :
    entryTextsLimit (some l) F es =
      if ∀ e ∈ es, e.1.Short l ∧ e.2.Short l then .ok (es.map (Entry.repr F)) else .error .valueError := by
  induction es with
  | nil => rfl
  | cons e es ih =>
    unfold entryTextsLimit
    rw [reprLimit_entry hl F e (hv e (by simp)).1 (hv e (by simp)).2, ih (fun x hx => hv x (by simp [hx]))]
    by_cases h1 : e.1.Short l ∧ e.2.Short l
    · by_cases h2 : ∀ e ∈ es, e.1.Short l ∧ e.2.Short l
      · rw [if_pos h1, if_pos h2, if_pos (by simpa using ⟨h1, fun a b h => h2 (a, b) h⟩)]; rfl
      · rw [if_pos h1, if_neg h2, if_neg (fun h => h2 fun x hx => h x (by simp [hx]))]; rfl
    · rw [if_neg h1, if_neg (show ¬ (∀ x ∈ e :: es, x.1.Short l ∧ x.2.Short l) from fun h => h1 (h e (by simp)))]; rfl

/-- C110 for signatures: with a limit of `l ≥ 1` digits, `str` and `repr` give the text they give without a limit if nominator and
denominator have at most `l` digits, and raise ValueError otherwise. -/
theorem C110_signature (l : Nat) (hl : 1 ≤ l) (s : Signature) (hs : s.Valid) :
    (s.strLimit (some l) = if s.Short l then .ok s.str else .error .valueError) ∧
    (s.reprLimit (some l) = if s.Short l then .ok s.repr else .error .valueError) := by
  refine ⟨strLimit_sig hl s hs, ?_⟩
  unfold Signature.reprLimit
  rw [tupleTextLimit_sig hl s hs]
  by_cases h : s.Short l
  · rw [if_pos h, if_pos h]; rfl
  · rw [if_neg h, if_neg h]; rfl

/-- C110 for notes: `str` needs a duration with short numbers and an octave with at most `l` digits, `repr` a pitch with at most
`l` digits instead of the octave; otherwise ValueError. -/
theorem C110_note (l : Nat) (hl : 1 ≤ l) (F : FloatText) (n : Note) (hn : n.Valid) :
    (n.strLimit (some l) = if n.duration.Short l ∧ 12 * (1 - 10 ^ l) ≤ n.tone.pitch ∧ n.tone.pitch < 12 * 10 ^ l
      then n.str else .error .valueError) ∧
    (n.reprLimit (some l) F = if n.Short l then .ok (n.repr F) else .error .valueError) := by
  refine ⟨?_, reprLimit_note hl F n hn⟩
  unfold Note.strLimit
  rw [strLimit_sig hl _ hn.1, (C107_printing l hl n.tone false).2.1]
  by_cases h1 : n.duration.Short l
  · by_cases h2 : 12 * (1 - 10 ^ l) ≤ n.tone.pitch ∧ n.tone.pitch < 12 * 10 ^ l
    · rw [if_pos h1, if_pos h2, if_pos ⟨h1, h2⟩]; rfl
    · rw [if_pos h1, if_neg h2, if_neg (fun h => h2 h.2)]; rfl
  · rw [if_neg h1, if_neg (show ¬ (n.duration.Short l ∧ 12 * (1 - 10 ^ l) ≤ n.tone.pitch ∧ n.tone.pitch < 12 * 10 ^ l) from
      fun h => h1 h.1)]; rfl

/-- C110 for `str` of tracks. -/
theorem C110_track_str (l : Nat) (hl : 1 ≤ l) (S : ListSort) (t : Track) (ht : t.Reachable S) :
    t.strLimit (some l) = if t.signature.Short l ∧ t.len < 10 ^ l then .ok t.str else .error .valueError := by
  unfold Track.strLimit
  rw [strLimit_sig hl _ (ht.wf.sig), strOfInt_nonneg hl (by positivity)]
  have e : ((t.len : Int) < 10 ^ l) ↔ t.len < 10 ^ l := by exact_mod_cast Iff.rfl
  by_cases h1 : t.signature.Short l
  · by_cases h2 : t.len < 10 ^ l
    · rw [if_pos h1, if_pos (e.mpr h2), if_pos ⟨h1, h2⟩]; rfl
    · rw [if_pos h1, if_neg (fun h => h2 (e.mp h)), if_neg (fun h => h2 h.2)]; rfl
  · rw [if_neg h1, if_neg (show ¬ (t.signature.Short l ∧ t.len < 10 ^ l) from fun h => h1 h.1)]; rfl

/-- C110 for `repr` of tracks: if the numbers of the signature, of the notes and of the positions (as they are stored) have at most
`l` digits, the text is the one without a limit and the track is left as after an iteration. Otherwise ValueError is raised; the
track is then as before if the signature is too long, and as after an iteration if an entry is. -/
theorem C110_track_repr (l : Nat) (hl : 1 ≤ l) (S : ListSort) (F : FloatText) (t : Track) (ht : t.Reachable S) :
    (¬ t.signature.Short l → t.reprLimit (some l) S F = (t, .error .valueError)) ∧
    (t.signature.Short l → (∀ e ∈ t.heap, e.1.Short l ∧ e.2.Short l) →
      t.reprLimit (some l) S F = ((t.iter S).1, .ok (t.repr S F).2)) ∧
    (t.signature.Short l → (∃ e ∈ t.heap, ¬ (e.1.Short l ∧ e.2.Short l)) →
      t.reprLimit (some l) S F = ((t.iter S).1, .error .valueError)) := by
  have hp : ∀ e, e ∈ (t.iter S).2 ↔ e ∈ t.heap := fun e => (Track.iter_perm S t).mem_iff
  have hv : ∀ e ∈ (t.iter S).2, e.1.Valid ∧ e.2.Valid := fun e he =>
    ⟨(ht.wf.entries e ((hp e).mp he)).1, (ht.wf.entries e ((hp e).mp he)).2.2⟩
  unfold Track.reprLimit
  rw [tupleTextLimit_sig hl _ ht.wf.sig]
  refine ⟨fun h => by rw [if_neg h], fun h h' => ?_, fun h h' => ?_⟩
  · rw [if_pos h]
    simp only [entryTextsLimit_eq hl F _ hv]
    rw [if_pos (fun e he => h' e ((hp e).mp he))]
    rfl
  · rw [if_pos h]
    simp only [entryTextsLimit_eq hl F _ hv]
    obtain ⟨e, he, hn⟩ := h'
    rw [if_neg (fun h => hn (h e ((hp e).mpr he)))]
    rfl

/-- C110 (no limit): without a limit these are the texts of C54 and C79. -/
theorem C110_unlimited (S : ListSort) (F : FloatText) (s : Signature) (n : Note) (t : Track) :
    s.strLimit none = .ok s.str ∧ s.reprLimit none = .ok s.repr ∧ n.strLimit none = n.str ∧ n.reprLimit none F = .ok (n.repr F) ∧
      t.strLimit none = .ok t.str ∧ t.reprLimit none S F = ((t.iter S).1, .ok (t.repr S F).2) := by
  have key : ∀ es : List Entry, entryTextsLimit none F es = .ok (es.map (Entry.repr F)) := by
    intro es
    induction es with
    | nil => rfl
    | cons e es ih => unfold entryTextsLimit; rw [ih]; rfl
  have ht : n.tone.strLimit none = n.tone.str := by rw [Tone.strLimit, toNotationLimit_eq]; rfl
  refine ⟨rfl, rfl, ?_, rfl, rfl, ?_⟩
  · unfold Note.strLimit; rw [ht]; rfl
  · unfold Track.reprLimit
    change ((t.iter S).1, _) = _
    rw [key]
    rfl

/-- C110 (reading back): whatever the limit, a text `repr` has given is an expression for the object, as in C79. -/
theorem C110_roundtrip [UnicodeDigits] (l : Nat) (hl : 1 ≤ l) (S : ListSort) (F : FloatLiteral) (text : List Char) :
    (∀ s : Signature, s.Valid → s.reprLimit (some l) = .ok text → evalText F text = some (.ok (.signature s))) ∧
    (∀ n : Note, n.Valid → fl n.velocity = n.velocity → n.reprLimit (some l) F.toFloatText = .ok text →
      evalText F text = some (.ok (.note n))) ∧
    (∀ t : Track, t.Reachable S → (∀ x ∈ t.contents, fl x.2.velocity = x.2.velocity) →
      (t.reprLimit (some l) S F.toFloatText).2 = .ok text →
      ∃ u, evalText F text = some (.ok (.track u)) ∧ u.signature = t.signature ∧ u.len = t.len ∧ u.contents = t.contents) := by
  refine ⟨fun s hs h => ?_, fun n hn hv h => ?_, fun t ht hv h => ?_⟩
  · rw [(C110_signature l hl s hs).2] at h
    split at h
    · cases h; exact C79_signature F s hs
    · cases h
  · rw [(C110_note l hl F.toFloatText n hn).2] at h
    split at h
    · cases h; exact C79_note F n hn hv
    · cases h
  · obtain ⟨h1, h2, h3⟩ := C110_track_repr l hl S F.toFloatText t ht
    by_cases hs : t.signature.Short l
    · by_cases he : ∀ e ∈ t.heap, e.1.Short l ∧ e.2.Short l
      · rw [h2 hs he] at h
        cases h
        obtain ⟨u, g1, g2, g3, g4, -⟩ := C79_track S F t ht hv
        exact ⟨u, g1, g2, g3, g4⟩
      · rw [h3 hs (by push Not at he ⊢; simpa using he)] at h; cases h
    · rw [h1 hs] at h; cases h

/-- With the default limit, the signature 1/2 ** 14284 has a text and 1/2 ** 14285 has none. -/
example : Signature.strLimit (some 4300) ⟨1, 2 ^ 14284⟩ = .ok (Signature.str ⟨1, 2 ^ 14284⟩) ∧
    Signature.reprLimit (some 4300) ⟨1, 2 ^ 14285⟩ = .error .valueError := by
  have h1 : ((2 ^ 14284 : Nat) : Int) < ((10 ^ 4300 : Nat) : Int) := Int.ofNat_lt.mpr (by decide +kernel)
  have h2 : ¬ ((2 ^ 14285 : Nat) : Int) < ((10 ^ 4300 : Nat) : Int) := fun h => absurd (Int.ofNat_lt.mp h) (by decide +kernel)
  have h3 : (((1 : Nat)) : Int) < ((10 ^ 4300 : Nat) : Int) := Int.ofNat_lt.mpr (by decide +kernel)
  rw [Nat.cast_pow, Nat.cast_pow] at h1 h2
  rw [Nat.cast_pow] at h3
  constructor
  · rw [(C110_signature 4300 (by omega) ⟨1, 2 ^ 14284⟩ ⟨by simp, 14284, rfl⟩).1]
    exact if_pos ⟨h3, h1⟩
  · rw [(C110_signature 4300 (by omega) ⟨1, 2 ^ 14285⟩ ⟨by simp, 14285, rfl⟩).2]
    exact if_neg fun h => h2 h.2

/-- With a limit of two digits: a track of one note at a position of three digits has a `str` but no `repr`. -/
example : Track.strLimit (some 2) ⟨⟨4, 4⟩, 4, ⟨401, 4⟩, [(⟨400, 4⟩, ⟨⟨60⟩, ⟨1, 4⟩, 1⟩)], true⟩ = .ok "Track 4/4 with 1 notes".toList ∧
    (Track.reprLimit (some 2) cpySort exFloatLiteral.toFloatText
      ⟨⟨4, 4⟩, 4, ⟨401, 4⟩, [(⟨400, 4⟩, ⟨⟨60⟩, ⟨1, 4⟩, 1⟩)], true⟩).2 = .error .valueError := ⟨rfl, rfl⟩

end Melodia
