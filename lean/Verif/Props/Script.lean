/-
C103: scripts like the one in the README, given as text.
-/
import Verif.Lemmas.ScriptRun

set_option autoImplicit false

namespace Melodia

open Melodia.Python Melodia.Source

variable {W : World}

/-- The function a documented name stands for. -/
theorem documented_fn {g : GenChord} (hg : g ∈ generatorChords) {name : String} (hn : name.toList ∈ g.names) :
    (⟨name, g.notation'⟩ : ChordFn) ∈ chordFunctions := (C30_table.2.2 _).mpr ⟨g, hg, hn, rfl⟩

theorem ChordLine.Denotes.ok [UnicodeDigits] {c : ChordLine} {notes : List Note} (h : c.Denotes notes) :
    ∃ f, c.Ok f ∧ (c.call f).Denotes notes := by
  obtain ⟨hb, hd, g, hg, hn, p, rest, hr, rfl⟩ := h
  have hf := documented_fn hg hn
  refine ⟨_, ⟨hf, rfl, hb⟩, hf, g, hg, hn, p, c.length, 3 / 4, .str _ _ rest hr, ?_, ?_, .default _ (by simp [ChordLine.call]), by norm_num,
    by norm_num, rfl⟩
  · obtain ⟨name, base, _ | ⟨n, d⟩⟩ := c
    · exact .default _ (by simp [ChordLine.call])
    · exact .given _ _ _ (.pair n d (by omega) hd)
  · obtain ⟨name, base, _ | ⟨n, d⟩⟩ := c
    · exact ⟨by simp [ChordLine.length], 2, rfl⟩
    · exact ⟨by simp [ChordLine.length], hd⟩

theorem lines_ok [UnicodeDigits] {cs : List ChordLine} {gs : List (List Note)} (h : List.Forall₂ ChordLine.Denotes cs gs) :
    ∃ fs, List.Forall₂ ChordLine.Ok cs fs ∧ List.Forall₂ ChordCall.Denotes (List.zipWith ChordLine.call cs fs) gs := by
  induction h with
  | nil => exact ⟨[], .nil, .nil⟩
  | cons h _ ih =>
    obtain ⟨f, h1, h2⟩ := h.ok
    obtain ⟨fs, h3, h4⟩ := ih
    exact ⟨f :: fs, .cons h1 h3, .cons h2 h4⟩

/-- C103 (the file): a script like the one in the README, given as text, for any signature that fits a MIDI file and any lines
with documented chords within the limits of C78, runs to its end and changes nothing that was there before. The file it opened
holds bytes from which `midi.loads` makes a track with this signature and exactly these chords, laid end to end. -/
theorem C103_file (hN : W.sort.Natural) (num den : Nat) (hden : IsPow2 den) (hfit : num < 256 ∧ den < 2 ^ 256)
    (cs : List ChordLine) (gs : List (List Note)) (h : List.Forall₂ (@ChordLine.Denotes W.digits) cs gs) (hn : cs.length ≤ 199728)
    (hlen : laidLength gs ≤ 699050) (htone : ∀ g ∈ gs, ∀ n ∈ g, -24 ≤ n.tone.pitch ∧ n.tone.pitch ≤ 103)
    (hdur : ∀ g ∈ gs, ∀ n ∈ g, 0 < n.duration.val ∧ n.duration.denominator ≤ 128) (file : String) (hf : PlainText file)
    (heap : Heap) :
    ∃ heap' env b bytes, runScript W (scriptText num den cs file) heap = some (.ok (.next env) heap') ∧
      Dict.get env.vars "f" = some (.ref b) ∧ heap.objs.length ≤ b ∧ FileAt heap' b bytes ∧
      Frame (fun _ => False) heap heap' ∧
      ∀ h1, ∃ t, NewTrack (userEval W [midiFun "loads", ("data", .bytes bytes)] (callE "loads" ["data"]) h1) h1
          (fun _ => False) t ∧
        t.signature.val = (num : ℚ) / den ∧ t.contents = ((laidOut 0 gs).map midiNote : Multiset _) := by
  let _ := W.digits
  obtain ⟨fs, h1, h2⟩ := lines_ok h
  have hv : (⟨num, den⟩ : Signature).Valid := ⟨by simp, hden⟩
  have hvel : ∀ g ∈ gs, ∀ n ∈ g, 1 ≤ velByte n.velocity := by
    intro g hg n hn
    obtain ⟨c, -, hc⟩ := forall₂_right h hg
    obtain ⟨-, -, g', -, -, p, rest, -, rfl⟩ := hc
    obtain ⟨k, -, rfl⟩ := List.mem_map.mp hn
    exact (by decide +kernel : 1 ≤ velByte (3 / 4))
  obtain ⟨bytes, t, k1, k2, k3, k4⟩ := C78_file W.sort (.ints [num, den]) ⟨num, den⟩ (.pair num den (by simp) hden) hv
    ⟨Int.ofNat_lt.mpr hfit.1, by simp only; exact_mod_cast hfit.2⟩ _ gs h2 (by
      rw [List.length_zipWith]; omega) hlen htone hdur hvel 120 (by norm_num) 0 le_rfl (by norm_num)
  have hrun := script_run W hN num den cs fs h1 file hf heap
  rw [k1] at hrun
  obtain ⟨heap', env, b, g1, g2, g3, g4, g5⟩ := hrun
  refine ⟨heap', env, b, bytes, g1, g2, g3, g4, g5, fun H => ⟨t, ?_, ?_, k4⟩⟩
  · exact load_gives hN (.midiLoads .omitted) k2
  · rw [(Signature.eq_iff ((C39_loads_terminates W.sort ⟨24⟩ bytes none).2 t k2).1.wf.sig hv).mp k3]
    simp [Signature.val]

/-- C103 (refinement): for any signature and any lines that call documented functions, whatever their arguments, the script does
what the model of C78 does: it ends with the same bytes in its file or with the same exception. -/
theorem C103_refines (hN : W.sort.Natural) (num den : Nat) (cs : List ChordLine) (fs : List ChordFn)
    (hok : List.Forall₂ ChordLine.Ok cs fs) (file : String) (hf : PlainText file) (heap : Heap) :
    match @progressionFile W.digits W.sort (.ints [num, den]) (List.zipWith ChordLine.call cs fs) (.fin 120) 0 with
    | .error e => ∃ heap', runScript W (scriptText num den cs file) heap = some (.err e heap') ∧
        Frame (fun _ => False) heap heap'
    | .ok bytes => ∃ heap' env b, runScript W (scriptText num den cs file) heap = some (.ok (.next env) heap') ∧
        Dict.get env.vars "f" = some (.ref b) ∧ heap.objs.length ≤ b ∧ FileAt heap' b bytes ∧
        Frame (fun _ => False) heap heap' :=
  script_run W hN num den cs fs hok file hf heap

theorem bad_call [UnicodeDigits] {c : ChordLine} (hc : c.Documented) (hbad : c.Bad) :
    ∃ f, c.Ok f ∧ (c.call f).fn.call (c.call f).base (c.call f).duration (c.call f).velocity = .error .valueError := by
  obtain ⟨hb, g, hg, hn⟩ := hc
  have hf := documented_fn hg hn
  refine ⟨_, ⟨hf, rfl, hb⟩, ?_⟩
  obtain ⟨f, hfn⟩ : ∃ f : ChordFn, f = ⟨c.name, g.notation'⟩ := ⟨_, rfl⟩
  rw [← hfn] at hf ⊢
  by_cases hl : ∀ x t, c.base.toList = x :: t → ¬ IsLetter x
  · change chordBody _ (.str c.base.toList) _ _ = _
    unfold chordBody getParameters
    simp only [fromNotation_bad hl]
    rfl
  · have hd := hbad.resolve_left hl
    push Not at hl
    obtain ⟨x, t, hxt, hx⟩ := hl
    obtain ⟨p, rest, hr⟩ := exists_reads (t := t) hx
    obtain ⟨name, base, _ | ⟨n, d⟩⟩ := c
    · exact absurd ⟨2, rfl⟩ hd
    have hcoerce : (SigArg.ints [(n : Int), d]).coerce = .error .valueError := Signature.new_err fun h => hd h.2
    cases hres : f.intervals with
    | nil =>
      have := (C30_shape f hf).1
      rw [hres] at this
      cases this
    | cons k l =>
      change chordBody f.intervals (.str base.toList) (some (.ints [(n : Int), d])) none = _
      have hb' : Tone.fromNotation base.toList = .ok ⟨p⟩ := by rw [hxt]; exact fromNotation_reads hr
      unfold chordBody getParameters
      simp only [hb', hres, List.mapM_cons]
      have : ∀ k, chordNote ⟨p⟩ (.ints [(n : Int), d]) (.fin (3 / 4)) k = .error .valueError := by
        intro k
        unfold chordNote
        split
        · unfold Note.new
          rw [hcoerce]
          rfl
        · change Note.new (.tone ⟨p + k⟩) _ _ = _
          unfold Note.new
          rw [hcoerce]
          rfl
      change (chordNote ⟨p⟩ (.ints [(n : Int), d]) (.fin (3 / 4)) k >>= _) = _
      rw [this]
      rfl

theorem addChords_append [UnicodeDigits] {c : ChordCall} {bs : List ChordCall} {e : PyErr}
    (hc : c.fn.call c.base c.duration c.velocity = .error e) :
    ∀ (as : List ChordCall) (t t' : Track), addChords t as = .ok t' → addChords t (as ++ c :: bs) = .error e := by
  intro as
  induction as with
  | nil =>
    intro t t' _
    rw [List.nil_append, addChords, hc]
    rfl
  | cons a as ih =>
    intro t t' h
    rw [addChords] at h
    rw [List.cons_append, addChords]
    cases h1 : a.fn.call a.base a.duration a.velocity with
    | error e => rw [h1] at h; cases h
    | ok ns =>
      rw [h1] at h
      change (t.add (.many (ns.map .note)) none >>= fun t => addChords t as) = _ at h
      change (t.add (.many (ns.map .note)) none >>= fun t => addChords t _) = _
      cases h2 : t.add (.many (ns.map .note)) none with
      | error e => rw [h2] at h; cases h
      | ok t1 => rw [h2] at h; exact ih t1 t' h

theorem documented_ok : ∀ cs : List ChordLine, (∀ c ∈ cs, c.Documented) → ∃ fs, List.Forall₂ ChordLine.Ok cs fs := by
  intro cs h
  induction cs with
  | nil => exact ⟨[], .nil⟩
  | cons c cs ih =>
    obtain ⟨fs, h1⟩ := ih fun x hx => h x (by simp [hx])
    obtain ⟨hb, g, hg, hn⟩ := h c (by simp)
    exact ⟨_, .cons ⟨documented_fn hg hn, rfl, hb⟩ h1⟩

/-- C103 (failures): if the denominator of the signature is no power of two, or if some line, after lines that are correct and whatever
lines follow, has a base that names no tone or a duration that is no signature, the script ends with a ValueError and everything
that was there before is unchanged. -/
theorem C103_failures (hN : W.sort.Natural) (num den : Nat) (cs : List ChordLine) (hdoc : ∀ c ∈ cs, c.Documented)
    (file : String) (hf : PlainText file) (heap : Heap)
    (h : ¬ IsPow2 den ∨ ∃ good gs bad rest, cs = good ++ bad :: rest ∧ List.Forall₂ (@ChordLine.Denotes W.digits) good gs ∧
      bad.Bad) :
    ∃ heap', runScript W (scriptText num den cs file) heap = some (.err .valueError heap') ∧
      Frame (fun _ => False) heap heap' := by
  let _ := W.digits
  obtain ⟨fs, hok, herr⟩ : ∃ fs, List.Forall₂ ChordLine.Ok cs fs ∧
      progressionFile W.sort (.ints [num, den]) (List.zipWith ChordLine.call cs fs) (.fin 120) 0 = .error .valueError := by
    by_cases hden : IsPow2 den
    · obtain ⟨good, gs, bad, rest, rfl, hg, hb⟩ := h.resolve_left (not_not.mpr hden)
      obtain ⟨fs1, h1, h2⟩ := lines_ok hg
      obtain ⟨f, h3, h4⟩ := bad_call (hdoc bad (by simp)) hb
      obtain ⟨fs2, h5⟩ := documented_ok rest fun c hc => hdoc c (by simp [hc])
      refine ⟨fs1 ++ f :: fs2, List.rel_append h1 (.cons h3 h5), ?_⟩
      obtain ⟨t, k1, -⟩ := C78_track W.sort (.ints [num, den]) ⟨num, den⟩ (.pair num den (by simp) hden) ⟨by simp, hden⟩ _ gs h2
      rw [List.zipWith_append h1.length_eq, List.zipWith_cons_cons]
      unfold progressionFile
      unfold progressionTrack at k1 ⊢
      cases hn : Track.new (.ints [num, den]) [] with
      | error e => rw [hn] at k1; cases k1
      | ok t0 =>
        rw [hn] at k1
        change (addChords t0 _ >>= _) = _
        rw [addChords_append h4 _ _ _ k1]
        rfl
    · obtain ⟨fs, h1⟩ := documented_ok cs hdoc
      have : (SigArg.ints [(num : Int), den]).coerce = .error .valueError := Signature.new_err fun h => hden h.2
      refine ⟨fs, h1, ?_⟩
      unfold progressionFile progressionTrack Track.new
      rw [this]
      rfl
  have hrun := script_run W hN num den cs fs hok file hf heap
  rw [herr] at hrun
  exact hrun

/-- The lines of README.rst:45-48. -/
def readmeLines : List ChordLine :=
  [⟨"maj", "C3", some (1, 1)⟩, ⟨"maj", "D3", some (1, 1)⟩, ⟨"min", "A3", some (1, 1)⟩, ⟨"maj7", "G3", some (1, 1)⟩]

/-- The script of README.rst:40-51 is one of these scripts. -/
example : scriptText 4 4 readmeLines "chords.mid" = readmeScript := by decide +kernel

theorem readmeLines_denote [UnicodeDigits] : List.Forall₂ ChordLine.Denotes readmeLines readmeChords := by
  have hp : ∀ c, IsLetter c → PlainText (String.ofList [c, '3']) := by
    intro c hc
    simp only [IsLetter] at hc
    rcases hc with rfl | rfl | rfl | rfl | rfl | rfl | rfl <;> (unfold PlainText; decide +kernel)
  have key : ∀ (g : GenChord) (name : String) (c : Char), g ∈ generatorChords → name.toList ∈ g.names → IsLetter c →
      ChordLine.Denotes ⟨name, String.ofList [c, '3'], some (1, 1)⟩
        (g.notation'.map (fun k => ⟨⟨36 + letterSemitone c + k⟩, ⟨1, 1⟩, 3 / 4⟩)) := fun g name c hg hn hc =>
    ⟨hp c hc, ⟨0, rfl⟩, g, hg, hn, _, [], by simpa using reads_octave3 hc, rfl⟩
  exact .cons (key ⟨"major,maj", "Major Triad", [0, 4, 7]⟩ "maj" 'C' (by simp [generatorChords]) (by decide +kernel) (by simp [IsLetter]))
    (.cons (key ⟨"major,maj", "Major Triad", [0, 4, 7]⟩ "maj" 'D' (by simp [generatorChords]) (by decide +kernel) (by simp [IsLetter]))
    (.cons (key ⟨"minor,min", "Minor Triad", [0, 3, 7]⟩ "min" 'A' (by simp [generatorChords]) (by decide +kernel) (by simp [IsLetter]))
    (.cons (key ⟨"major7,maj7", "Major Seventh", [0, 4, 7, 11]⟩ "maj7" 'G' (by simp [generatorChords]) (by decide +kernel)
      (by simp [IsLetter])) .nil)))

/-- The script of README.rst:40-51: the file it writes is read back as the 13 notes of its chords. -/
example (hN : W.sort.Natural) : ∃ heap' env b bytes, runScript W readmeScript ⟨[], 0⟩ = some (.ok (.next env) heap') ∧
    Dict.get env.vars "f" = some (.ref b) ∧ FileAt heap' b bytes ∧
    ∀ h1, ∃ t, NewTrack (userEval W [midiFun "loads", ("data", .bytes bytes)] (callE "loads" ["data"]) h1) h1 (fun _ => False) t ∧
      t.contents = ([(0, wholeNote 36), (0, wholeNote 40), (0, wholeNote 43), (1, wholeNote 38), (1, wholeNote 42),
        (1, wholeNote 45), (2, wholeNote 45), (2, wholeNote 48), (2, wholeNote 52), (3, wholeNote 43), (3, wholeNote 47),
        (3, wholeNote 50), (3, wholeNote 54)].map midiNote : Multiset _) := by
  have h := C103_file hN 4 4 ⟨2, rfl⟩ (by norm_num) readmeLines readmeChords (@readmeLines_denote W.digits) (by decide)
    (by decide +kernel) (by decide +kernel) (by decide +kernel) "chords.mid" (by unfold PlainText; decide +kernel) ⟨[], 0⟩
  rw [show scriptText 4 4 readmeLines "chords.mid" = readmeScript by decide +kernel,
    show laidOut 0 readmeChords = [(0, wholeNote 36), (0, wholeNote 40), (0, wholeNote 43), (1, wholeNote 38), (1, wholeNote 42),
      (1, wholeNote 45), (2, wholeNote 45), (2, wholeNote 48), (2, wholeNote 52), (3, wholeNote 43), (3, wholeNote 47),
      (3, wholeNote 50), (3, wholeNote 54)] by decide +kernel] at h
  obtain ⟨heap', env, b, bytes, h1, h2, -, h3, -, h4⟩ := h
  exact ⟨heap', env, b, bytes, h1, h2, h3, fun H => (h4 H).imp fun t ht => ⟨ht.1, ht.2.2⟩⟩

/-- The German name of a tone, and a triplet: ValueError. -/
example (hN : W.sort.Natural) : ∃ heap', runScript W (scriptText 4 4 [⟨"min", "H3", none⟩, ⟨"maj", "C3", some (1, 3)⟩] "a.mid") ⟨[], 0⟩ =
    some (.err .valueError heap') ∧ Frame (fun _ => False) ⟨[], 0⟩ heap' := by
  refine C103_failures hN 4 4 _ ?_ "a.mid" (by unfold PlainText; decide +kernel) _ (.inr ⟨[], [], _, _, rfl, .nil, .inl ?_⟩)
  · intro c hc
    simp only [List.mem_cons, List.not_mem_nil, or_false] at hc
    rcases hc with rfl | rfl
    · exact ⟨by unfold PlainText; decide +kernel, ⟨"minor,min", "Minor Triad", [0, 3, 7]⟩, by simp [generatorChords], by decide +kernel⟩
    · exact ⟨by unfold PlainText; decide +kernel, ⟨"major,maj", "Major Triad", [0, 4, 7]⟩, by simp [generatorChords], by decide +kernel⟩
  · intro x t hx
    rw [show "H3".toList = ['H', '3'] by decide] at hx
    cases hx
    simp [IsLetter]

end Melodia
