/-
Property theorems C30-C32 (src/melodia/music/chord.py, scripts/generate_chords.py).
-/
import Verif.Lemmas.Chord
import Verif.Lemmas.ChordNames

set_option autoImplicit false

namespace Melodia
variable [UnicodeDigits]

/-! ### C30 -/

omit [UnicodeDigits] in
/-- C30: chord.py contains exactly the functions the generator table describes, with those intervals; no
name occurs twice. -/
theorem C30_table :
    chordFunctions = generatedFunctions ∧ (chordFunctions.map (fun f => f.name)).Nodup ∧
    (∀ f, f ∈ chordFunctions ↔ ∃ g ∈ generatorChords, f.name.toList ∈ g.names ∧ f.intervals = g.notation') := by
  have h : chordFunctions = generatedFunctions := by decide +kernel
  refine ⟨h, by decide +kernel, ?_⟩
  intro f
  rw [h]
  unfold generatedFunctions GenChord.names
  simp only [List.mem_flatMap, List.mem_map]
  constructor
  · rintro ⟨g, hg, n, hn, rfl⟩
    exact ⟨g, hg, ⟨n, hn, by simp⟩, rfl⟩
  · rintro ⟨g, hg, ⟨n, hn, h1⟩, h2⟩
    refine ⟨g, hg, n, hn, ?_⟩
    obtain ⟨a, b⟩ := f
    simp only at h1 h2
    subst h2
    rw [h1]
    simp

omit [UnicodeDigits] in
/-- C30: every chord starts with the root and is strictly ascending. -/
theorem C30_shape (f : ChordFn) (hf : f ∈ chordFunctions) :
    f.intervals.head? = some 0 ∧ f.intervals.Pairwise (· < ·) := by
  revert f
  decide +kernel

/-- C30: a chord function returns `ns` iff the base denotes a pitch `p`, the duration and velocity
arguments (or the defaults) are valid, and `ns` are the documented intervals above `p`, in order,
all with that duration and velocity. -/
theorem C30_chord (f : ChordFn) (hf : f ∈ chordFunctions) (base : BaseArg) (duration : Option SigArg)
    (velocity : Option PyFloat) (ns : List Note) :
    f.call base duration velocity = .ok ns ↔
      ∃ g ∈ generatorChords, f.name.toList ∈ g.names ∧
      ∃ p s q, BaseDenotes base p ∧ ChordDuration base duration s ∧ ChordVelocity base velocity q ∧
        0 ≤ q ∧ q ≤ 1 ∧ ns = g.notation'.map (fun k => ⟨⟨p + k⟩, s, q⟩) := by
  have hne : f.intervals ≠ [] := by
    intro h
    have := (C30_shape f hf).1
    rw [h] at this
    cases this
  obtain ⟨g, hg, hn, hi⟩ := (C30_table.2.2 f).mp hf
  have huniq : ∀ g' ∈ generatorChords, f.name.toList ∈ g'.names → g'.notation' = g.notation' := by
    intro g' hg' hn'
    have hf' : (⟨f.name, g'.notation'⟩ : ChordFn) ∈ chordFunctions := (C30_table.2.2 _).mpr ⟨g', hg', hn', rfl⟩
    have : (⟨f.name, g'.notation'⟩ : ChordFn) = f :=
      (List.inj_on_of_nodup_map C30_table.2.1) hf' hf rfl
    rw [← hi, ← this]
  unfold ChordFn.call
  rw [chordBody_ok_iff hne]
  constructor
  · intro h
    rw [hi] at h
    exact ⟨g, hg, hn, h⟩
  · rintro ⟨g', hg', hn', h⟩
    rw [hi, ← huniq g' hg' hn']
    exact h

/-- C30 (failures): otherwise TypeError or ValueError is raised. -/
theorem C30_failures (f : ChordFn) (base : BaseArg) (duration : Option SigArg)
    (velocity : Option PyFloat) (e : PyErr) (h : f.call base duration velocity = .error e) :
    e = .typeError ∨ e = .valueError := chordBody_err h

/-- C30: the notes are valid, root first, strictly ascending. -/
theorem C30_ascending (f : ChordFn) (hf : f ∈ chordFunctions) (base : BaseArg) (duration : Option SigArg)
    (velocity : Option PyFloat) (ns : List Note) (h : f.call base duration velocity = .ok ns) :
    (∃ p, BaseDenotes base p ∧ (ns.map (fun n => n.tone.pitch)).head? = some p) ∧
    (ns.map (fun n => n.tone.pitch)).Pairwise (· < ·) := by
  obtain ⟨h1, h2⟩ := C30_shape f hf
  have hne : f.intervals ≠ [] := by intro h'; rw [h'] at h1; cases h1
  obtain ⟨p, s, q, hb, -, -, -, -, rfl⟩ := (chordBody_ok_iff hne).mp h
  refine ⟨⟨p, hb, ?_⟩, ?_⟩
  · obtain ⟨k, l, hk⟩ := List.exists_cons_of_ne_nil hne
    rw [hk] at h1 ⊢
    simp at h1
    simp [h1]
  · rw [List.map_map, List.pairwise_map]
    exact h2.imp (fun {a b} hab => by simpa using hab)

example : (⟨"min7", [0, 3, 7, 10]⟩ : ChordFn) ∈ chordFunctions ∧
    (⟨"min7", [0, 3, 7, 10]⟩ : ChordFn).call (.int 60) (some (.ints [1, 2])) none =
      .ok [⟨⟨60⟩, ⟨1, 2⟩, 3/4⟩, ⟨⟨63⟩, ⟨1, 2⟩, 3/4⟩, ⟨⟨67⟩, ⟨1, 2⟩, 3/4⟩, ⟨⟨70⟩, ⟨1, 2⟩, 3/4⟩] := by
  constructor
  · decide +kernel
  · refine (chordBody_ok_iff (by simp)).mpr ⟨60, ⟨1, 2⟩, 3/4, .int 60,
      .given _ _ _ (.pair 1 2 (by decide) ⟨1, rfl⟩), .default _ (by simp), by norm_num, by norm_num, rfl⟩

/-! ### C31 -/

/-- C31: functions documented by the same row of the table agree on all arguments. -/
theorem C31_aliases (g : GenChord) (hg : g ∈ generatorChords) (f f' : ChordFn) (hf : f ∈ chordFunctions)
    (hf' : f' ∈ chordFunctions) (hn : f.name.toList ∈ g.names) (hn' : f'.name.toList ∈ g.names)
    (base : BaseArg) (duration : Option SigArg) (velocity : Option PyFloat) :
    f.call base duration velocity = f'.call base duration velocity := by
  have : ∀ f ∈ chordFunctions, f.name.toList ∈ g.names → f.intervals = g.notation' := by
    intro f hf hn
    have hf' : (⟨f.name, g.notation'⟩ : ChordFn) ∈ chordFunctions := (C30_table.2.2 _).mpr ⟨g, hg, hn, rfl⟩
    exact (congrArg ChordFn.intervals ((List.inj_on_of_nodup_map C30_table.2.1) hf' hf rfl)).symm
  unfold ChordFn.call
  rw [this f hf hn, this f' hf' hn']

/-- A base argument transposed by `k` semitones: ints, tones, notes (by their `transposed`), and
strings whose notation denotes a pitch `k` higher. -/
inductive BaseShift (k : Int) : BaseArg → BaseArg → Prop
  | int (i : Int) : BaseShift k (.int i) (.int (i + k))
  | tone (t t' : Tone) (h : t.transposed k = .ok t') : BaseShift k (.tone t) (.tone t')
  | note (n n' : Note) (h : n.transposed k = .ok n') : BaseShift k (.note n) (.note n')
  | str (s s' : List Char) (p : Int) (h : BaseDenotes (.str s) p) (h' : BaseDenotes (.str s') (p + k)) :
      BaseShift k (.str s) (.str s')

/-- C31: a chord on a transposed base is the transposed chord. -/
theorem C31_transpose (f : ChordFn) (hf : f ∈ chordFunctions) (k : Int) (base base' : BaseArg)
    (hb : BaseShift k base base') (duration : Option SigArg) (velocity : Option PyFloat) (ns : List Note)
    (h : f.call base duration velocity = .ok ns) :
    ∃ ns', f.call base' duration velocity = .ok ns' ∧ ns.mapM (fun n => n.transposed k) = .ok ns' := by
  have hne : f.intervals ≠ [] := by
    intro h'
    have := (C30_shape f hf).1
    rw [h'] at this
    cases this
  obtain ⟨p, s, q, h1, h2, h3, h4, h5, rfl⟩ := (chordBody_ok_iff hne).mp h
  have key : BaseDenotes base' (p + k) ∧ ChordDuration base' duration s ∧ ChordVelocity base' velocity q := by
    cases hb with
    | int i =>
      cases h1
      refine ⟨.int _, ?_, ?_⟩
      · cases h2 with
        | given _ a _ h => exact .given _ _ _ h
        | default _ h => exact .default _ (by simp)
      · cases h3 with
        | given => exact .given _ _
        | default => exact .default _ (by simp)
    | tone t t' ht =>
      cases h1
      cases ht
      refine ⟨.tone _, ?_, ?_⟩
      · cases h2 with
        | given _ a _ h => exact .given _ _ _ h
        | default _ h => exact .default _ (by simp)
      · cases h3 with
        | given => exact .given _ _
        | default => exact .default _ (by simp)
    | note n n' hn =>
      cases h1
      have hn' : Note.new (.tone ⟨n.tone.pitch + k⟩) (.sig n.duration) (.fin n.velocity) = .ok n' := hn
      obtain ⟨g1, g2, g3, -⟩ := Note.new_ok_iff.mp hn'
      simp only [ToneArg.coerceNote, SigArg.coerce, Except.ok.injEq, PyFloat.fin.injEq] at g1 g2 g3
      refine ⟨?_, ?_, ?_⟩
      · have := BaseDenotes.note n'
        rw [← g1] at this
        exact this
      · cases h2 with
        | given _ a _ h => exact .given _ _ _ h
        | ofNote => rw [g2]; exact .ofNote _
        | default => rename_i hd; exact absurd rfl (hd n)
      · cases h3 with
        | given => exact .given _ _
        | ofNote => rw [g3]; exact .ofNote _
        | default => rename_i hd; exact absurd rfl (hd n)
    | str s s' p' hp hp' =>
      have : p = p' := by
        have d1 : ∀ {x}, BaseDenotes (.str s) x → (ToneArg.str s).coerceNote = .ok ⟨x⟩ := by
          intro x hx
          cases hx with
          | str _ _ rest hr => exact coerceNote_ok_iff.mpr (.str _ _ rest hr)
        have e1 := d1 h1
        rw [d1 hp] at e1
        cases e1
        rfl
      subst this
      refine ⟨hp', ?_, ?_⟩
      · cases h2 with
        | given _ a _ h => exact .given _ _ _ h
        | default _ h => exact .default _ (by simp)
      · cases h3 with
        | given => exact .given _ _
        | default => exact .default _ (by simp)
  refine ⟨f.intervals.map (fun j => ⟨⟨p + k + j⟩, s, q⟩), ?_, ?_⟩
  · exact (chordBody_ok_iff hne).mpr ⟨p + k, s, q, key.1, key.2.1, key.2.2, h4, h5, rfl⟩
  · rw [mapM_ok (g := fun n : Note => ⟨⟨n.tone.pitch + k⟩, n.duration, n.velocity⟩)]
    · rw [List.map_map]
      congr 1
      refine List.map_congr_left (fun j _ => ?_)
      simp [add_right_comm]
    · intro n hn
      obtain ⟨j, -, rfl⟩ := List.mem_map.mp hn
      exact Note.new_ok_iff (t := .tone ⟨p + j + k⟩) (d := .sig s) (v := .fin q) (n := ⟨⟨p + j + k⟩, s, q⟩)
        |>.mpr ⟨rfl, rfl, rfl, h4, h5⟩

omit [UnicodeDigits] in
example : "maj7s5".toList ∈ (⟨"augmented_major7,major7s5,maj7s5", "Augmented Major Seventh", [0, 4, 8, 11]⟩ : GenChord).names ∧
    "major7s5".toList ∈ (⟨"augmented_major7,major7s5,maj7s5", "Augmented Major Seventh", [0, 4, 8, 11]⟩ : GenChord).names := by
  decide

/-! ### C32 -/

/-- The result contains the note `k` semitones above the base. -/
def ChordFn.HasInterval (f : ChordFn) (k : Int) : Prop :=
  ∀ base duration velocity ns p, f.call base duration velocity = .ok ns → BaseDenotes base p →
    ∃ n ∈ ns, n.tone.pitch = p + k

/-- The result does not contain it. -/
def ChordFn.LacksInterval (f : ChordFn) (k : Int) : Prop :=
  ∀ base duration velocity ns p, f.call base duration velocity = .ok ns → BaseDenotes base p →
    ∀ n ∈ ns, n.tone.pitch ≠ p + k

/-- What a chord name promises. "min…" covers "minor…", "maj…" covers "major…", "dom…" covers
"dominant…", "add…" covers "added…". -/
def ChordFn.NameKept (f : ChordFn) : Prop :=
  (f.named "min" = true → f.HasInterval 3 ∧ f.LacksInterval 4) ∧
  (f.named "maj" = true ∨ f.named "dom" = true → f.HasInterval 4 ∧ f.LacksInterval 3) ∧
  (f.named "add" = true → f.HasInterval 4 ∧ f.HasInterval 7 ∧ f.HasInterval 14)

theorem baseDenotes_unique {b : BaseArg} {p q : Int} (h : BaseDenotes b p) (h' : BaseDenotes b q) : p = q := by
  cases h with
  | int i => cases h'; rfl
  | tone t => cases h'; rfl
  | note n => cases h'; rfl
  | str s _ rest hr =>
    cases h' with
    | str _ _ rest' hr' =>
      have e1 : (ToneArg.str s).coerceNote = .ok ⟨p⟩ := coerceNote_ok_iff.mpr (.str _ _ rest hr)
      have e2 : (ToneArg.str s).coerceNote = .ok ⟨q⟩ := coerceNote_ok_iff.mpr (.str _ _ rest' hr')
      rw [e1] at e2; cases e2; rfl

theorem hasInterval_iff {f : ChordFn} (hf : f ∈ chordFunctions) (k : Int) :
    (f.HasInterval k ↔ k ∈ f.intervals) ∧ (f.LacksInterval k ↔ k ∉ f.intervals) := by
  have hne : f.intervals ≠ [] := by
    intro h'
    have := (C30_shape f hf).1
    rw [h'] at this
    cases this
  have ex : f.call (.int 0) none none = .ok (f.intervals.map (fun k => ⟨⟨0 + k⟩, ⟨1, 4⟩, 3 / 4⟩)) :=
    (chordBody_ok_iff hne).mpr ⟨0, _, _, .int 0, .default _ (by simp), .default _ (by simp), by norm_num,
      by norm_num, rfl⟩
  have mem : ∀ {base d v ns p}, f.call base d v = .ok ns → BaseDenotes base p →
      ((∃ n ∈ ns, n.tone.pitch = p + k) ↔ k ∈ f.intervals) := by
    intro base d v ns p h hp
    obtain ⟨p', s, q, hb, -, -, -, -, rfl⟩ := (chordBody_ok_iff hne).mp h
    have := baseDenotes_unique hb hp
    subst this
    simp
  constructor
  · constructor
    · intro h
      exact (mem ex (.int 0)).mp (h _ _ _ _ _ ex (.int 0))
    · intro h base d v ns p hc hp
      exact (mem hc hp).mpr h
  · constructor
    · intro h hk
      obtain ⟨n, hn, hp⟩ := (mem ex (.int 0)).mpr hk
      exact h _ _ _ _ _ ex (.int 0) n hn hp
    · intro h base d v ns p hc hp n hn hpn
      exact h ((mem hc hp).mp ⟨n, hn, hpn⟩)

theorem nameKept_iff {f : ChordFn} (hf : f ∈ chordFunctions) :
    f.NameKept ↔ (f.named "min" = true → 3 ∈ f.intervals ∧ 4 ∉ f.intervals) ∧
      (f.named "maj" = true ∨ f.named "dom" = true → 4 ∈ f.intervals ∧ 3 ∉ f.intervals) ∧
      (f.named "add" = true → 4 ∈ f.intervals ∧ 7 ∈ f.intervals ∧ 14 ∈ f.intervals) := by
  unfold ChordFn.NameKept
  simp only [(hasInterval_iff hf _).1, (hasInterval_iff hf _).2]

/-- C32 refuted: `minor69`, `min69` and `min7b9` have the major instead of the minor third; `added9` and
`add9` lack the fifth. -/
theorem C32_violated :
    ∀ name ∈ ["minor69", "min69", "min7b9", "added9", "add9"],
      ∃ f ∈ chordFunctions, f.name = name ∧ ¬ f.NameKept := by
  have h : ∀ name ∈ ["minor69", "min69", "min7b9", "added9", "add9"],
      (chordFunctions.any (fun f => decide (f.name = name) &&
        !decide ((f.named "min" = true → 3 ∈ f.intervals ∧ 4 ∉ f.intervals) ∧
          (f.named "maj" = true ∨ f.named "dom" = true → 4 ∈ f.intervals ∧ 3 ∉ f.intervals) ∧
          (f.named "add" = true → 4 ∈ f.intervals ∧ 7 ∈ f.intervals ∧ 14 ∈ f.intervals)))) = true := by
    decide +kernel
  intro name hn
  obtain ⟨f, hf, h1⟩ := List.any_eq_true.mp (h name hn)
  rw [Bool.and_eq_true, Bool.not_eq_true', decide_eq_true_iff, decide_eq_false_iff_not] at h1
  exact ⟨f, hf, h1.1, fun hk => h1.2 ((nameKept_iff hf).mp hk)⟩

/-- C32, the part that holds: all other chord functions are what their names say. Missing: the five
functions above. -/
theorem C32_names_partial (f : ChordFn) (hf : f ∈ chordFunctions)
    (hn : f.name ∉ ["minor69", "min69", "min7b9", "added9", "add9"]) : f.NameKept := by
  rw [nameKept_iff hf]
  have h : ∀ f ∈ chordFunctions, f.name ∉ ["minor69", "min69", "min7b9", "added9", "add9"] →
      (f.named "min" = true → 3 ∈ f.intervals ∧ 4 ∉ f.intervals) ∧
      (f.named "maj" = true ∨ f.named "dom" = true → 4 ∈ f.intervals ∧ 3 ∉ f.intervals) ∧
      (f.named "add" = true → 4 ∈ f.intervals ∧ 7 ∈ f.intervals ∧ 14 ∈ f.intervals) := by
    decide +kernel
  exact h f hf hn

/-- Whenever the function returns, the pitches are those of the chord with intervals `ks` on the base, in order. -/
def ChordFn.Plays (f : ChordFn) (ks : List Int) : Prop :=
  ∀ base duration velocity ns p, f.call base duration velocity = .ok ns → BaseDenotes base p →
    ns.map (fun n => n.tone.pitch) = ks.map (fun k => p + k)

theorem plays_iff {f : ChordFn} (hf : f ∈ chordFunctions) (ks : List Int) : f.Plays ks ↔ f.intervals = ks := by
  have hne : f.intervals ≠ [] := by
    intro h'
    have := (C30_shape f hf).1
    rw [h'] at this
    cases this
  constructor
  · intro h
    have ex : f.call (.int 0) none none = .ok (f.intervals.map (fun k => ⟨⟨0 + k⟩, ⟨1, 4⟩, 3 / 4⟩)) :=
      (chordBody_ok_iff hne).mpr ⟨0, _, _, .int 0, .default _ (by simp), .default _ (by simp), by norm_num,
        by norm_num, rfl⟩
    have := h _ _ _ _ _ ex (.int 0)
    simpa [List.map_map, Function.comp_def] using this
  · rintro rfl base d v ns p h hp
    obtain ⟨p', s, q, hb, -, -, -, -, rfl⟩ := (chordBody_ok_iff hne).mp h
    have := baseDenotes_unique hb hp
    subst this
    simp [List.map_map, Function.comp_def]

/-- C32, the part that holds, exactly: every chord function except the five plays the chord its name denotes
(`ChordName`: quality, extension, alteration), note for note. -/
theorem C32_chords_partial (f : ChordFn) (hf : f ∈ chordFunctions)
    (hn : f.name ∉ ["minor69", "min69", "min7b9", "added9", "add9"]) : ∃ ks, ChordName f.name ks ∧ f.Plays ks := by
  refine ⟨f.intervals, ?_, (plays_iff hf _).mpr rfl⟩
  rw [chordName_iff]
  have h : ∀ f ∈ chordFunctions, f.name ∉ ["minor69", "min69", "min7b9", "added9", "add9"] →
      (f.name, f.intervals) ∈ chordNames := by decide +kernel
  exact h f hf hn

/-- C32 refuted: the five functions play other chords than their names denote. -/
theorem C32_chords_violated :
    ∀ name ∈ ["minor69", "min69", "min7b9", "added9", "add9"],
      ∃ f ∈ chordFunctions, f.name = name ∧ (∃ ks, ChordName name ks) ∧ ∀ ks, ChordName name ks → ¬ f.Plays ks := by
  have h : ∀ name ∈ ["minor69", "min69", "min7b9", "added9", "add9"], ∃ f ∈ chordFunctions, f.name = name ∧
      (∃ p ∈ chordNames, p.1 = name) ∧ ∀ p ∈ chordNames, p.1 = name → f.intervals ≠ p.2 := by decide +kernel
  intro name hn
  obtain ⟨f, hf, h1, ⟨p, hp, h2⟩, h3⟩ := h name hn
  refine ⟨f, hf, h1, ⟨p.2, by rw [chordName_iff, ← h2]; exact hp⟩, ?_⟩
  intro ks hk
  rw [plays_iff hf]
  exact h3 _ ((chordName_iff _ _).mp hk) rfl

omit [UnicodeDigits] in
example : ChordName "dom7b5" [0, 4, 6, 10] ∧ ChordName "minor_major7" [0, 3, 7, 11] ∧ ChordName "min69" [0, 3, 7, 9, 14] ∧
    (⟨"dom7b5", [0, 4, 6, 10]⟩ : ChordFn) ∈ chordFunctions :=
  ⟨.quality "dom" "7b5" _ _ .dom (.flatFifth _), .quality "minor" "_major7" _ _ .minor (.majorSeventh _),
    .quality "min" "69" _ _ .min (.sixNine _), by decide +kernel⟩

omit [UnicodeDigits] in
example : (⟨"minor_major7", [0, 3, 7, 11]⟩ : ChordFn) ∈ chordFunctions ∧
    (⟨"minor_major7", [0, 3, 7, 11]⟩ : ChordFn).named "min" = true := by decide +kernel

end Melodia
