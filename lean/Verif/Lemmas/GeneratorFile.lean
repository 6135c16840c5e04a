/-
The text of the file scripts/generate_chords.py writes, as the text of the lines of the model.
-/
import Verif.Lemmas.GeneratorRun
import Verif.Lemmas.GeneratorTable

set_option autoImplicit false

namespace Melodia

open Melodia.Python

namespace Source

/-! ### The text of the file -/

theorem textOf_cons (s : String) (ls : List String) : textOf (s :: ls) = s.toList ++ ('\n' :: textOf ls) := by simp [textOf]

theorem textOf_nil : textOf [] = [] := rfl

theorem fileHead_text : textOf fileHead = filePart := by
  simp only [fileHead, textOf_cons, textOf_nil]
  rw [toList_literal (s := "# DO NOT EDIT! This file is auto generated by scripts/generate_chords.py.") (l := ch!"# DO NOT EDIT! This file is auto generated by scripts/generate_chords.py.") (by kernel_rfl),
    toList_literal (s := "from typing import Union, Tuple, Optional") (l := ch!"from typing import Union, Tuple, Optional") (by kernel_rfl),
    toList_literal (s := "from melodia.core import Tone, Note, Signature") (l := ch!"from melodia.core import Tone, Note, Signature") (by kernel_rfl),
    toList_literal (s := "def _get_parameters(") (l := ch!"def _get_parameters(") (by kernel_rfl),
    toList_literal (s := "        base: Union[int, str, Tone, Note],") (l := ch!"        base: Union[int, str, Tone, Note],") (by kernel_rfl),
    toList_literal (s := "        duration: Union[Tuple[int, int], Signature, None] = None,") (l := ch!"        duration: Union[Tuple[int, int], Signature, None] = None,") (by kernel_rfl),
    toList_literal (s := "        velocity: Optional[float] = None") (l := ch!"        velocity: Optional[float] = None") (by kernel_rfl),
    toList_literal (s := ") -> Tuple[Tone, Signature, float]:") (l := ch!") -> Tuple[Tone, Signature, float]:") (by kernel_rfl),
    toList_literal (s := "    if isinstance(base, int):") (l := ch!"    if isinstance(base, int):") (by kernel_rfl),
    toList_literal (s := "        base_tone = Tone(base)") (l := ch!"        base_tone = Tone(base)") (by kernel_rfl),
    toList_literal (s := "    elif isinstance(base, str):") (l := ch!"    elif isinstance(base, str):") (by kernel_rfl),
    toList_literal (s := "        base_tone = Tone.from_notation(base)") (l := ch!"        base_tone = Tone.from_notation(base)") (by kernel_rfl),
    toList_literal (s := "    elif isinstance(base, Tone):") (l := ch!"    elif isinstance(base, Tone):") (by kernel_rfl),
    toList_literal (s := "        base_tone = base") (l := ch!"        base_tone = base") (by kernel_rfl),
    toList_literal (s := "    elif isinstance(base, Note):") (l := ch!"    elif isinstance(base, Note):") (by kernel_rfl),
    toList_literal (s := "        base_tone = base.tone") (l := ch!"        base_tone = base.tone") (by kernel_rfl),
    toList_literal (s := "    else:") (l := ch!"    else:") (by kernel_rfl),
    toList_literal (s := "        raise ValueError('base must be int, str, Tone or Note')") (l := ch!"        raise ValueError('base must be int, str, Tone or Note')") (by kernel_rfl),
    toList_literal (s := "    if duration is None:") (l := ch!"    if duration is None:") (by kernel_rfl),
    toList_literal (s := "        if isinstance(base, Note):") (l := ch!"        if isinstance(base, Note):") (by kernel_rfl),
    toList_literal (s := "            base_duration = base.duration") (l := ch!"            base_duration = base.duration") (by kernel_rfl),
    toList_literal (s := "        else:") (l := ch!"        else:") (by kernel_rfl),
    toList_literal (s := "            base_duration = Signature(1, 4)") (l := ch!"            base_duration = Signature(1, 4)") (by kernel_rfl),
    toList_literal (s := "        base_duration = duration") (l := ch!"        base_duration = duration") (by kernel_rfl),
    toList_literal (s := "    if velocity is None:") (l := ch!"    if velocity is None:") (by kernel_rfl),
    toList_literal (s := "            base_velocity = base.velocity") (l := ch!"            base_velocity = base.velocity") (by kernel_rfl),
    toList_literal (s := "            base_velocity = 0.75") (l := ch!"            base_velocity = 0.75") (by kernel_rfl),
    toList_literal (s := "        base_velocity = velocity") (l := ch!"        base_velocity = velocity") (by kernel_rfl),
    toList_literal (s := "    return base_tone, base_duration, base_velocity") (l := ch!"    return base_tone, base_duration, base_velocity") (by kernel_rfl)]
  kernel_rfl

theorem joinFunctions_text {fs : List (List String)} (h : ∀ f ∈ fs, f ≠ []) :
    textOf (joinFunctions fs) = joinChars "\n\n\n".toList (fs.map linesText) ++ ['\n'] := by
  induction fs with
  | nil => rfl
  | cons f fs ih =>
    cases fs with
    | nil => exact textOf_eq (h f (by simp))
    | cons g fs =>
      rw [joinFunctions, textOf_append, textOf_append, ih fun f hf => h f (by simp [hf]), textOf_eq (h f (by simp)),
        List.map_cons (a := f), joinChars_cons _ (linesText f) (by simp)]
      · simp only [List.append_assoc]
        rfl
      · simp

theorem strip_of_blanks {s : List Char} (h : ∀ c ∈ s, isSpace c = true → c = ' ') : stripSpace s = stripBlanks s := by
  have hd : ∀ l : List Char, (∀ c ∈ l, isSpace c = true → c = ' ') → l.dropWhile isSpace = l.dropWhile (· == ' ') := by
    intro l hl
    induction l with
    | nil => rfl
    | cons c l ih =>
      have hc : isSpace c = (c == ' ') := by
        by_cases h1 : c = ' '
        · subst h1; rfl
        · rw [beq_eq_false_iff_ne.mpr h1]
          exact Bool.eq_false_iff.mpr fun h2 => h1 (hl c (by simp) h2)
      rw [List.dropWhile_cons, List.dropWhile_cons, hc, ih fun c hc => hl c (by simp [hc])]
  rw [stripSpace, stripBlanks, hd s h, hd]
  intro c hc
  exact h c ((List.dropWhile_sublist _).subset (List.mem_reverse.mp hc))

theorem mem_splitCommas {s w : List Char} (hw : w ∈ splitCommas s) : ∀ c ∈ w, c ∈ s := by
  induction s generalizing w with
  | nil => simp [splitCommas] at hw; simp [hw]
  | cons c s ih =>
    rw [splitCommas] at hw
    split at hw
    · simp at hw; simp [hw]
    · rename_i v vs hv
      split at hw
      · rcases List.mem_cons.mp hw with rfl | hw
        · simp
        · intro d hd
          exact List.mem_cons_of_mem _ (ih (by rw [hv]; exact hw) d hd)
      · rcases List.mem_cons.mp hw with rfl | hw
        · intro d hd
          rcases List.mem_cons.mp hd with rfl | hd
          · simp
          · exact List.mem_cons_of_mem _ (ih (w := v) (by rw [hv]; simp) d hd)
        · intro d hd
          exact List.mem_cons_of_mem _ (ih (by rw [hv]; simp [hw]) d hd)

theorem rowTexts_eq {g : GenChord} (h : ∀ c ∈ g.name.toList, isSpace c = true → c = ' ') :
    rowTexts g = (rowFunctions g).map linesText := by
  rw [rowTexts, rowFunctions, List.map_map]
  refine List.map_congr_left fun n hn => ?_
  rw [strip_of_blanks fun c hc => h c (mem_splitCommas hn c hc), functionText_eq]
  rfl

theorem generate_text {table : List GenChord} (h : ∀ g ∈ table, ∀ c ∈ g.name.toList, isSpace c = true → c = ' ') :
    textOf (generate table) = filePart ++ joinChars "\n\n\n".toList (table.flatMap rowTexts) ++ ['\n'] := by
  have : table.flatMap rowTexts = (table.flatMap rowFunctions).map linesText := by
    rw [List.map_flatMap]
    exact List.flatMap_congr fun g hg => rowTexts_eq (h g hg)
  rw [generate, textOf_append, fileHead_text, joinFunctions_text, this, List.append_assoc]
  intro f hf
  obtain ⟨g, -, hf⟩ := List.mem_flatMap.mp hf
  obtain ⟨n, -, rfl⟩ := List.mem_map.mp hf
  simp [functionLines]

/-- The names of a row that meets the conditions have no other white space than blanks. -/
theorem blanks_of_rowOk {g : GenChord} (h : RowOk g) : ∀ c ∈ g.name.toList, isSpace c = true → c = ' ' := by
  have hid : ∀ c : Char, c.isAlpha = true ∨ c.isAlphanum = true ∨ c = '_' → isSpace c = false := by
    intro c hc
    rcases hc with hc | hc | rfl
    · simp only [Char.isAlpha, Char.isUpper, Char.isLower, Bool.or_eq_true, Bool.and_eq_true, decide_eq_true_eq,
        UInt32.le_iff_toNat_le, ge_iff_le] at hc
      simp only [isSpace, Char.toNat]
      simp at hc ⊢
      omega
    · simp only [Char.isAlphanum, Char.isAlpha, Char.isDigit, Char.isUpper, Char.isLower, Bool.or_eq_true, Bool.and_eq_true, decide_eq_true_eq,
        UInt32.le_iff_toNat_le, ge_iff_le] at hc
      simp only [isSpace, Char.toNat]
      simp at hc ⊢
      omega
    · rfl
  have hsplit : ∀ s : List Char, ∀ c ∈ s, c = ',' ∨ ∃ w ∈ splitCommas s, c ∈ w := by
    intro s
    induction s with
    | nil => simp
    | cons d s ih =>
      intro c hc
      rw [splitCommas]
      cases hs : splitCommas s with
      | nil => exact absurd hs (splitCommas_ne s)
      | cons w ws =>
        rw [hs] at ih
        by_cases hd : d = ','
        · simp only [hd, if_true]
          rcases List.mem_cons.mp hc with rfl | hc
          · exact .inl hd
          · rcases ih c hc with h | ⟨v, hv, hcv⟩
            · exact .inl h
            · exact .inr ⟨v, by simp only [List.mem_cons] at hv ⊢; exact .inr hv, hcv⟩
        · simp only [if_neg hd]
          rcases List.mem_cons.mp hc with rfl | hc
          · exact .inr ⟨c :: w, by simp, by simp⟩
          · rcases ih c hc with h | ⟨v, hv, hcv⟩
            · exact .inl h
            · rcases List.mem_cons.mp hv with rfl | hv
              · exact .inr ⟨d :: v, by simp, by simp [hcv]⟩
              · exact .inr ⟨v, by simp [hv], hcv⟩
  have hstrip : ∀ w : List Char, ∀ c ∈ w, c = ' ' ∨ c ∈ stripBlanks w := by
    have hdrop : ∀ l : List Char, ∀ c ∈ l, c = ' ' ∨ c ∈ l.dropWhile (· == ' ') := by
      intro l
      induction l with
      | nil => simp
      | cons d l ih =>
        intro c hc
        rw [List.dropWhile_cons]
        by_cases hd : d = ' '
        · subst hd
          rcases List.mem_cons.mp hc with rfl | hc
          · exact .inl rfl
          · simpa using ih c hc
        · rw [if_neg (by simpa using hd)]
          exact .inr hc
    intro w c hc
    rcases hdrop w c hc with h | h
    · exact .inl h
    · rcases hdrop _ c (List.mem_reverse.mpr h) with h | h
      · exact .inl h
      · exact .inr (List.mem_reverse.mpr h)
  intro c hc hs
  rcases hsplit _ c hc with rfl | ⟨w, hw, hc⟩
  · simp [isSpace] at hs
  · rcases hstrip w c hc with rfl | hc
    · rfl
    · obtain ⟨⟨d, l, hd, h1, h2⟩, -⟩ := h.names _ (List.mem_map_of_mem hw)
      rw [hd] at hc
      have : isSpace c = false := by
        rcases List.mem_cons.mp hc with rfl | hc
        · exact hid c (by rcases h1 with h1 | h1 <;> simp [h1])
        · exact hid c (by rcases h2 c hc with h1 | h1 <;> simp [h1])
      rw [this] at hs
      exact absurd hs (by simp)

end Source

end Melodia
