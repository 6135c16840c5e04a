/-
C94: the text of chord.py, executed by the meaning of Python.
-/
import Verif.Lemmas.SourceChord
import Verif.Props.Chord
import Verif.Spec.Source

set_option autoImplicit false

namespace Melodia

open Melodia.Python Melodia.Source

variable (W : World)

/-- A function of chord.py, as a user imports it. -/
def chordFunV (name : String) : Val := .func "melodia.music.chord" name

/-- `f(b, d, x)` in a user's program. -/
theorem user_chord (f : ChordFn) (hf : f ∈ chordFunctions) {ba : BaseArg} {b d x : Val} {da : Option SigArg}
    {xa : Option PyFloat} (hb : IsBaseArg ba b) (hd : IsDurationArg da d) (hx : IsVelocityArg xa x) :
    userEval W [("f", chordFunV f.name), ("b", b), ("d", d), ("x", x)] (callE "f" ["b", "d", "x"]) =
      liftPy ((@chordBody W.digits f.intervals ba da xa).map (fun ns => .tuple (ns.map noteV))) := by
  have hrf : readVar (.func "melodia.music.chord" f.name) = pure (.func "melodia.music.chord" f.name) := rfl
  have hrb : readVar b = pure b := by cases hb <;> rfl
  have hrd : readVar d = pure d := by
    cases hd with
    | none => rfl
    | some a v h hn => cases h <;> rfl
  have hrx : readVar x = pure x := by cases hx <;> rfl
  rw [← chord_ok W hb hd hx f.name f.intervals [b, d, x] [] (by simp [py, chordDef])]
  simp [userEval, callE, chordFunV, userNames, py, hrb, hrd, hrx, call, chord_defs f hf, hrf]

/-- C94 (the functions): each name of the generator's table is a function of chord.py. For a base that denotes a pitch `p`,
a duration `s` and a velocity `q` (given, or those of the base, or 1/4 and 0.75), the function gives the tuple of the notes
`p + k` for the documented intervals `k`, in order. -/
theorem C94_chord (g : GenChord) (hg : g ∈ generatorChords) (name : String) (hn : name.toList ∈ g.names)
    {ba : BaseArg} {b d x : Val} {da : Option SigArg} {xa : Option PyFloat} (hb : IsBaseArg ba b) (hd : IsDurationArg da d)
    (hx : IsVelocityArg xa x) (p : Int) (s : Signature) (q : ℚ) (h1 : @BaseDenotes W.digits ba p) (h2 : ChordDuration ba da s)
    (h3 : ChordVelocity ba xa q) (h4 : 0 ≤ q) (h5 : q ≤ 1) :
    Gives W [("f", chordFunV name), ("b", b), ("d", d), ("x", x)] (callE "f" ["b", "d", "x"])
      (.tuple (g.notation'.map (fun k => noteV ⟨⟨p + k⟩, s, q⟩))) := by
  have hf : (⟨name, g.notation'⟩ : ChordFn) ∈ chordFunctions := (C30_table.2.2 _).mpr ⟨g, hg, hn, rfl⟩
  have hc := (@C30_chord W.digits ⟨name, g.notation'⟩ hf ba da xa (g.notation'.map (fun k => ⟨⟨p + k⟩, s, q⟩))).mpr
    ⟨g, hg, hn, p, s, q, h1, h2, h3, h4, h5, rfl⟩
  have := user_chord W ⟨name, g.notation'⟩ hf hb hd hx
  rw [show @chordBody W.digits g.notation' ba da xa = _ from hc] at this
  rw [Gives, this]
  simp [py, Except.map, Function.comp_def]

/-- C94 (leaving arguments out): `f(b)` and `f(b, d)` are `f(b, None, None)` and `f(b, d, None)`, and the arguments can be
passed by name. -/
theorem C94_defaults (f : ChordFn) (hf : f ∈ chordFunctions) {ba : BaseArg} {b d x : Val} {da : Option SigArg}
    {xa : Option PyFloat} (hb : IsBaseArg ba b) (hd : IsDurationArg da d) (hx : IsVelocityArg xa x) :
    userEval W [("f", chordFunV f.name), ("b", b)] (callE "f" ["b"]) =
      userEval W [("f", chordFunV f.name), ("b", b), ("d", .none), ("x", .none)] (callE "f" ["b", "d", "x"]) ∧
    userEval W [("f", chordFunV f.name), ("b", b), ("d", d)] (callE "f" ["b", "d"]) =
      userEval W [("f", chordFunV f.name), ("b", b), ("d", d), ("x", .none)] (callE "f" ["b", "d", "x"]) ∧
    userEval W [("f", chordFunV f.name), ("b", b), ("x", x)]
      (.call (.name "f") [.name "b", .name "x"] ["velocity"]) =
      userEval W [("f", chordFunV f.name), ("b", b), ("d", .none), ("x", x)] (callE "f" ["b", "d", "x"]) := by
  have hrf : readVar (.func "melodia.music.chord" f.name) = pure (.func "melodia.music.chord" f.name) := rfl
  have hrb : readVar b = pure b := by cases hb <;> rfl
  have hrd : readVar d = pure d := by
    cases hd with
    | none => rfl
    | some a v h hn => cases h <;> rfl
  have hrx : readVar x = pure x := by cases hx <;> rfl
  refine ⟨?_, ?_, ?_⟩
  · rw [user_chord W f hf hb .none .none, ← chord_ok W hb .none .none f.name f.intervals [b] [] (by simp [py, chordDef])]
    simp [userEval, callE, chordFunV, userNames, py, hrb, call, chord_defs f hf, hrf]
  · rw [user_chord W f hf hb hd .none, ← chord_ok W hb hd .none f.name f.intervals [b, d] [] (by simp [py, chordDef])]
    simp [userEval, callE, chordFunV, userNames, py, hrb, hrd, call, chord_defs f hf, hrf]
  · rw [user_chord W f hf hb .none hx, ← chord_ok W hb .none hx f.name f.intervals [b] [("velocity", x)]
      (by simp [py, chordDef])]
    simp [userEval, chordFunV, userNames, py, hrb, hrx, call, chord_defs f hf, hrf]

/-- C94 (failures): otherwise the function raises `TypeError` or `ValueError`; a base of the wrong type is `ValueError`. -/
theorem C94_failures (f : ChordFn) (hf : f ∈ chordFunctions) {ba : BaseArg} {b d x : Val} {da : Option SigArg}
    {xa : Option PyFloat} (hb : IsBaseArg ba b) (hd : IsDurationArg da d) (hx : IsVelocityArg xa x) :
    ((¬ ∃ p s q, @BaseDenotes W.digits ba p ∧ ChordDuration ba da s ∧ ChordVelocity ba xa q ∧ 0 ≤ q ∧ q ≤ 1) →
      Raises W [("f", chordFunV f.name), ("b", b), ("d", d), ("x", x)] (callE "f" ["b", "d", "x"]) .typeError ∨
      Raises W [("f", chordFunV f.name), ("b", b), ("d", d), ("x", x)] (callE "f" ["b", "d", "x"]) .valueError) ∧
    (ba = .other →
      Raises W [("f", chordFunV f.name), ("b", b), ("d", d), ("x", x)] (callE "f" ["b", "d", "x"]) .valueError) := by
  have h := user_chord W f hf hb hd hx
  constructor
  · intro hno
    rcases hc : @ChordFn.call W.digits f ba da xa with e | ns
    · rw [show @chordBody W.digits f.intervals ba da xa = _ from hc] at h
      rcases @C30_failures W.digits f ba da xa e hc with rfl | rfl
      · exact Or.inl h
      · exact Or.inr h
    · obtain ⟨g, -, -, p, s, q, h1, h2, h3, h4, h5, -⟩ := (@C30_chord W.digits f hf ba da xa ns).mp hc
      exact absurd ⟨p, s, q, h1, h2, h3, h4, h5⟩ hno
  · rintro rfl
    rw [Raises, h]; rfl

/-- `chord.min7b9(60)` has the intervals 4, 7, 10 and 13 above the base: the notation is that of a dominant chord. -/
example : Gives W [("f", chordFunV "min7b9"), ("b", .int 60), ("d", .none), ("x", .none)] (callE "f" ["b", "d", "x"])
    (.tuple [noteV ⟨⟨60⟩, ⟨1, 4⟩, 3 / 4⟩, noteV ⟨⟨64⟩, ⟨1, 4⟩, 3 / 4⟩, noteV ⟨⟨67⟩, ⟨1, 4⟩, 3 / 4⟩,
      noteV ⟨⟨70⟩, ⟨1, 4⟩, 3 / 4⟩, noteV ⟨⟨73⟩, ⟨1, 4⟩, 3 / 4⟩]) := by
  have hf : (⟨"min7b9", [0, 4, 7, 10, 13]⟩ : ChordFn) ∈ chordFunctions := by decide
  obtain ⟨g, hg, hn, hi⟩ := (C30_table.2.2 _).mp hf
  have := C94_chord W g hg "min7b9" hn (.int 60) .none .none 60 ⟨1, 4⟩ (3 / 4) (@BaseDenotes.int W.digits 60)
    (.default _ (by simp)) (.default _ (by simp)) (by norm_num) (by norm_num)
  rw [← hi] at this
  exact this

end Melodia
