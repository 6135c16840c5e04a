/-
C114: the results of the functions of src/melodia/music/chord.py are of the annotated types.
-/
import Verif.Lemmas.TypesChord

set_option autoImplicit false

namespace Melodia

open Melodia.Python Melodia.Source

/-- C114 (chords): a function for a chord, applied to arguments of the annotated types, ends with a tuple of valid notes, as many as it is
annotated with, or with an exception. -/
theorem C114_chords (W : World) : ∃ H, headsOf sourceFiles = some H ∧ ∀ f ∈ program.functions, f.mod = "melodia.music.chord" →
    f.name ≠ "_get_parameters" → ∀ p ∈ H, p.1 = f.mod → ∀ h ∈ p.2, h.cls = none → h.name = f.name → Typed W f h := by
  refine ⟨_, heads_eq, fun f hf hm hn p hp hpm h hh hhc hhn => ?_⟩
  have h1 : f ∈ program.functions.filter fun f => decide (f.mod = "melodia.music.chord") := List.mem_filter.mpr ⟨hf, by simpa using hm⟩
  rw [chordFunctions_table, List.mem_cons] at h1
  rcases h1 with rfl | h1
  · exact absurd rfl hn
  obtain ⟨g, hg, rfl⟩ := List.mem_map.mp h1
  rw [head_unique (q := ("melodia.music.chord", chordHeads)) (k := ⟨none, g.name, chordParameters, some (chordResult g.intervals)⟩) hp
    (by simp [allHeads]) hpm hh (by rw [chordHeads_table]; exact List.mem_cons_of_mem _ (List.mem_map.mpr ⟨g, hg, rfl⟩)) hhc hhn]
  exact typed_chord W hg

/-- Four notes are not a triad. -/
example (a b c d : Note) : ¬ HasType (chordResult [0, 4, 7]) (.tuple [noteV a, noteV b, noteV c, noteV d]) := by
  rw [chordResult, HasType, if_neg (by simp), if_neg (by simp), if_pos rfl]
  simp [HasTypes]

/-- The annotations of `add9`: three notes. -/
example : (⟨none, "add9", chordParameters, some (.app "Tuple" [.name "Note", .name "Note", .name "Note"])⟩ : Head) ∈ chordHeads := by
  rw [chordHeads_table]
  exact List.mem_cons_of_mem _ (List.mem_map.mpr ⟨⟨"add9", [0, 4, 14]⟩, by decide +kernel, rfl⟩)

/-- C114 (violated): `_get_parameters` is annotated as giving a `Signature`, but hands out a pair of ints given as duration. -/
theorem C114_violated (W : World) : ∃ H, headsOf sourceFiles = some H ∧ ∃ p ∈ H, p.1 = "melodia.music.chord" ∧ ∃ h ∈ p.2,
    h.Of chord._get_parameters ∧ h.result = some (.app "Tuple" [.name "Tone", .name "Signature", .name "float"]) ∧
    ∃ args v, Fits h args ∧ callFun program W chord._get_parameters args [] = pure v ∧
      ¬ HasType (.app "Tuple" [.name "Tone", .name "Signature", .name "float"]) v := by
  refine ⟨_, heads_eq, ("melodia.music.chord", chordHeads), by simp [allHeads], rfl, parametersHead, by rw [chordHeads_table]; simp,
    ⟨rfl, rfl⟩, rfl, [.int 60, .tuple [.int 1, .int 4], .none], .tuple [toneV ⟨60⟩, .tuple [.int 1, .int 4], .float (.fin (3 / 4))], ?_, ?_, ?_⟩
  · refine ⟨[baseTy, chordDurationTy, chordVelocityTy], rfl, ?_⟩
    simp only [HasTypes]
    refine ⟨_, _, rfl, ?_, _, _, rfl, ?_, _, _, rfl, ?_, rfl⟩
    · rw [baseTy, HasType, if_pos rfl]; exact .inl (hasInt.mpr ⟨_, rfl⟩)
    · rw [chordDurationTy, HasType, if_pos rfl]; exact .inl (hasPair.mpr ⟨_, _, rfl⟩)
    · rw [chordVelocityTy, HasType, if_neg (by simp), if_pos rfl]; exact .inl rfl
  · exact (params_ok W (.int 60) (.some _ _ (.tuple [1, 4]) (by simp)) .none).trans rfl
  · rw [HasType, if_neg (by simp), if_neg (by simp), if_pos rfl]
    simp only [HasTypes, hasTone, hasSignature, hasFloat]
    rintro ⟨_, ⟨⟩, _, _, ⟨⟩, _, _, _, ⟨⟩, ⟨s, _, h⟩, _⟩
    simp [sigV] at h

/-- C114 (parameters): `_get_parameters` gives a tone, a float and a `Signature` or, if the duration is a pair, this pair. -/
theorem C114_parameters_partial (W : World) (args : List Val) (ha : Fits parametersHead args) :
    GivesTy (.app "Tuple" [.name "Tone", durationTy, .name "float"]) (callFun program W chord._get_parameters args []) ∧
    ((∀ i j : Int, args[1]? ≠ some (.tuple [.int i, .int j])) →
      GivesTy (.app "Tuple" [.name "Tone", .name "Signature", .name "float"]) (callFun program W chord._get_parameters args [])) := by
  obtain ⟨b, d, x, rfl, hb, hd, hx⟩ := fits_chord ha
  obtain ⟨ba, hb, hbv⟩ := hasBase hb
  obtain ⟨xa, hx⟩ := hasVelocityArg hx
  have hs (hp : ∀ i j : Int, d ≠ .tuple [.int i, .int j]) : HasType (.name "Signature") (chordDurV ba d) := by
    rcases hasChordDuration hd with ⟨i, j, rfl⟩ | ⟨s, hs, rfl⟩ | rfl
    · exact absurd rfl (hp i j)
    · exact hasSignature.mpr ⟨s, hs, rfl⟩
    · cases ba with
      | note n => exact hasSignature.mpr ⟨_, (hbv n rfl).duration, rfl⟩
      | _ => exact hasSignature.mpr ⟨⟨1, 4⟩, ⟨by decide, 2, rfl⟩, rfl⟩
  have key {t : Ty} (ht : HasType t (chordDurV ba d)) :
      GivesTy (.app "Tuple" [.name "Tone", t, .name "float"]) (callFun program W chord._get_parameters [b, d, x] []) := by
    obtain ⟨da, hda, -⟩ := hasDurationArg hd
    rw [params_ok W hb hda hx]
    cases @baseTone W.digits ba with
    | error e => exact gives_raise
    | ok u =>
      refine gives_pure ?_
      rw [HasType, if_neg (by simp), if_neg (by simp), if_pos rfl]
      simp only [HasTypes, hasTone, hasFloat]
      exact ⟨_, rfl, _, _, rfl, ⟨_, rfl⟩, _, _, rfl, ht, _, _, rfl, ⟨_, rfl⟩, rfl⟩
  refine ⟨?_, fun hp => key (hs fun i j h => hp i j (by rw [h]; rfl))⟩
  by_cases hp : ∃ i j : Int, d = .tuple [.int i, .int j]
  · obtain ⟨i, j, rfl⟩ := hp
    exact key (hasDuration.mpr (.inr ⟨i, j, rfl⟩))
  · obtain ⟨s, hsv, h⟩ := hasSignature.mp (hs fun i j h => hp ⟨i, j, h⟩)
    exact key (hasDuration.mpr (.inl ⟨s, hsv, h⟩))

/-- C114 (defaults): the parameters that can be left out have values of the annotated types. -/
theorem C114_defaults (W : World) : ∃ H, headsOf sourceFiles = some H ∧ ∀ f ∈ program.functions, f.mod = "melodia.music.chord" →
    ∀ p ∈ H, p.1 = f.mod → ∀ h ∈ p.2, h.cls = none → h.name = f.name → TypedDefaults W f h := by
  refine ⟨_, heads_eq, fun f hf hm p hp hpm h hh hhc hhn => ?_⟩
  have h1 : f ∈ program.functions.filter fun f => decide (f.mod = "melodia.music.chord") := List.mem_filter.mpr ⟨hf, by simpa using hm⟩
  obtain ⟨h2, h3⟩ : f.params = [("base", Option.none), ("duration", some .none), ("velocity", some .none)] ∧ h.params = chordParameters := by
    rw [chordFunctions_table, List.mem_cons] at h1
    rcases h1 with rfl | h1
    · rw [head_unique (q := ("melodia.music.chord", chordHeads)) (k := parametersHead) hp (by simp [allHeads]) hpm hh
        (by rw [chordHeads_table]; simp) hhc hhn]
      exact ⟨rfl, rfl⟩
    · obtain ⟨g, hg, rfl⟩ := List.mem_map.mp h1
      rw [head_unique (q := ("melodia.music.chord", chordHeads)) (k := ⟨none, g.name, chordParameters, some (chordResult g.intervals)⟩) hp
        (by simp [allHeads]) hpm hh (by rw [chordHeads_table]; exact List.mem_cons_of_mem _ (List.mem_map.mpr ⟨g, hg, rfl⟩)) hhc hhn]
      exact ⟨rfl, rfl⟩
  intro i x e he
  rw [h2] at he
  rw [h3]
  rcases i with _ | _ | _ | i
  · cases he
  · cases he
    exact ⟨chordDurationTy, .none, rfl, by simp [py], by rw [chordDurationTy, HasType, if_pos rfl]; simp [HasSome, HasType]⟩
  · cases he
    exact ⟨chordVelocityTy, .none, rfl, by simp [py], by rw [chordVelocityTy, HasType, if_neg (by simp), if_pos rfl]; exact .inl rfl⟩
  · cases he

end Melodia
