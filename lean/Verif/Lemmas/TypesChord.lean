/-
The functions of src/melodia/music/chord.py and their heads.
-/
import Verif.Lemmas.TypesCore
import Verif.Lemmas.SourceChord
import Verif.Props.Chord

set_option autoImplicit false

namespace Melodia.Source

open Melodia.Python Melodia

/-- The annotation of the parameter `base`. -/
def baseTy : Ty := .app "Union" [.name "int", .name "str", .name "Tone", .name "Note"]

/-- The annotation of the parameter `duration`. -/
def chordDurationTy : Ty := .app "Union" [.app "Tuple" [.name "int", .name "int"], .name "Signature", .none]

/-- The annotation of the parameter `velocity`. -/
def chordVelocityTy : Ty := .app "Optional" [.name "float"]

/-- The annotated parameters of the functions of chord.py. -/
def chordParameters : List (String × Option Ty) :=
  [("base", some baseTy), ("duration", some chordDurationTy), ("velocity", some chordVelocityTy)]

/-- The annotated result of a function for a chord of as many notes as there are intervals. -/
def chordResult (l : List Int) : Ty := .app "Tuple" (l.map fun _ => .name "Note")

/-- The head of `_get_parameters`. -/
def parametersHead : Head := ⟨none, "_get_parameters", chordParameters, some (.app "Tuple" [.name "Tone", .name "Signature", .name "float"])⟩

theorem chordHeads_table : chordHeads = parametersHead :: chordFunctions.map fun f => ⟨none, f.name, chordParameters, some (chordResult f.intervals)⟩ := by
  kernel_rfl

theorem chordFunctions_table : (program.functions.filter fun f => decide (f.mod = "melodia.music.chord")) =
    chord._get_parameters :: chordFunctions.map fun f => chordDef f.name f.intervals := by kernel_rfl

theorem hasBase {v : Val} (h : HasType baseTy v) : ∃ a : BaseArg, IsBaseArg a v ∧ ∀ n, a = .note n → n.Valid := by
  rw [baseTy, HasType, if_pos rfl] at h
  simp only [HasSome, hasTone, hasInt, hasStr, hasNote, or_false] at h
  rcases h with ⟨i, rfl⟩ | ⟨s, rfl⟩ | ⟨t, rfl⟩ | ⟨n, hn, rfl⟩
  · exact ⟨_, .int i, fun _ h => by cases h⟩
  · exact ⟨_, .str s, fun _ h => by cases h⟩
  · exact ⟨_, .tone t, fun _ h => by cases h⟩
  · exact ⟨_, .note n, fun _ h => by cases h; exact hn⟩

theorem hasPair {v : Val} : HasType (.app "Tuple" [.name "int", .name "int"]) v ↔ ∃ i j : Int, v = .tuple [.int i, .int j] := by
  rw [HasType, if_neg (by simp), if_neg (by simp), if_pos rfl]
  simp only [HasTypes, hasInt]
  constructor
  · rintro ⟨_, rfl, _, _, rfl, ⟨i, rfl⟩, _, _, rfl, ⟨j, rfl⟩, rfl⟩; exact ⟨i, j, rfl⟩
  · rintro ⟨i, j, rfl⟩; exact ⟨_, rfl, _, _, rfl, ⟨i, rfl⟩, _, _, rfl, ⟨j, rfl⟩, rfl⟩

theorem hasChordDuration {v : Val} (h : HasType chordDurationTy v) :
    (∃ i j : Int, v = .tuple [.int i, .int j]) ∨ (∃ s : Melodia.Signature, s.Valid ∧ v = sigV s) ∨ v = .none := by
  rw [chordDurationTy, HasType, if_pos rfl] at h
  have hn : HasType .none v ↔ v = .none := by rw [HasType]
  simpa only [HasSome, hasPair, hasSignature, hn, or_false] using h

theorem hasDurationArg {v : Val} (h : HasType chordDurationTy v) :
    ∃ a : Option SigArg, IsDurationArg a v ∧ ∀ s, a = some (.sig s) → s.Valid := by
  rcases hasChordDuration h with ⟨i, j, rfl⟩ | ⟨s, hs, rfl⟩ | rfl
  · exact ⟨_, .some _ _ (.tuple [i, j]) (by simp), fun _ h => by cases h⟩
  · exact ⟨_, .some _ _ (.sig s) (by simp [sigV]), fun _ h => by cases h; exact hs⟩
  · exact ⟨_, .none, fun _ h => by cases h⟩

theorem hasVelocityArg {v : Val} (h : HasType chordVelocityTy v) : ∃ a : Option PyFloat, IsVelocityArg a v := by
  rw [chordVelocityTy, HasType, if_neg (by simp), if_pos rfl] at h
  simp only [HasSome, hasFloat, or_false] at h
  rcases h with rfl | ⟨x, rfl⟩
  exacts [⟨_, .none⟩, ⟨_, .some x⟩]

/-- The arguments of a function of chord.py. -/
theorem fits_chord {n : String} {r : Option Ty} {args : List Val} (h : Fits ⟨none, n, chordParameters, r⟩ args) :
    ∃ b d x, args = [b, d, x] ∧ HasType baseTy b ∧ HasType chordDurationTy d ∧ HasType chordVelocityTy x := by
  have : ∃ ts, chordParameters.map Prod.snd = ts.map some ∧ HasTypes ts args := by
    cases args <;> exact h
  obtain ⟨ts, h1, h2⟩ := this
  obtain rfl : ts = [baseTy, chordDurationTy, chordVelocityTy] := fits_types h1
  simp only [HasTypes] at h2
  obtain ⟨b, _, rfl, hb, d, _, rfl, hd, x, _, rfl, hx, rfl⟩ := h2
  exact ⟨b, d, x, rfl, hb, hd, hx⟩

theorem hasNotes (l : List Int) (g : Int → Melodia.Note) (h : ∀ k ∈ l, (g k).Valid) :
    HasTypes (l.map fun _ => .name "Note") ((l.map g).map noteV) := by
  induction l with
  | nil => simp [HasTypes]
  | cons k l ih =>
    simp only [List.map_cons, HasTypes]
    exact ⟨_, _, rfl, hasNote.mpr ⟨_, h k (by simp), rfl⟩, ih fun k hk => h k (by simp [hk])⟩

/-- Every function for a chord gives as many notes as it is annotated with. -/
theorem typed_chord (W : World) {f : ChordFn} (hf : f ∈ chordFunctions) :
    Typed W (chordDef f.name f.intervals) ⟨none, f.name, chordParameters, some (chordResult f.intervals)⟩ := by
  refine ⟨⟨rfl, rfl⟩, _, rfl, fun args ha => ?_⟩
  obtain ⟨b, d, x, rfl, hb, hd, hx⟩ := fits_chord ha
  obtain ⟨ba, hb, hbv⟩ := hasBase hb
  obtain ⟨da, hd, hdv⟩ := hasDurationArg hd
  obtain ⟨xa, hx⟩ := hasVelocityArg hx
  rw [chord_ok W hb hd hx f.name f.intervals _ _ (by simp [py, chordDef])]
  refine gives_liftPy fun ns hns => ?_
  have hne : f.intervals ≠ [] := by
    intro h
    have := (C30_shape f hf).1
    rw [h] at this
    cases this
  obtain ⟨p, s, q, -, hs, -, h0, h1, rfl⟩ := (@chordBody_ok_iff W.digits _ hne _ _ _ _).mp hns
  have hsv : s.Valid := by
    cases hs with
    | given b a s h =>
      cases h with
      | sig => exact hdv _ rfl
      | pair i j hi hj => exact ⟨hi, hj⟩
    | ofNote n => exact (hbv n rfl).duration
    | default => exact ⟨by decide, 2, rfl⟩
  rw [chordResult, HasType, if_neg (by simp), if_neg (by simp), if_pos rfl]
  exact ⟨_, rfl, hasNotes _ _ fun k _ => ⟨hsv, h0, h1⟩⟩

end Melodia.Source
