/-
C97: the text of processing/track.py, executed by the meaning of Python.
-/
import Verif.Lemmas.SourceProcessing
import Verif.Props.Processing
import Verif.Props.SourceTrack

set_option autoImplicit false

namespace Melodia

open Melodia.Python Melodia.Source

variable (W : World)

/-- C97 (refinement): `randomize_velocities(...)`, with any of the options given by keyword or all by position, for a track in
memory: the result is a new track, the one the model says, or the exception the model says is raised and memory is as before.
The random generator is asked once per note. The given track is left as after an iteration, and nothing else is changed. -/
theorem C97_refines (hN : W.sort.Natural) {h : Heap} {a l : Nat} {t : Track} (ht : TrackAt h a l t) (hr : t.Reachable W.sort)
    {lo hi mean var : PyFloat} {vars : List (String × Val)} {e : Expr} (hc : RandomCall a lo hi mean var vars e) :
    match (@randomizeVelocities W.digits W.sort t lo hi mean var (fun i => W.gauss (h.draws + i) mean (W.sqrt var))).2 with
    | .ok u => ∃ h' b lb, userEval W vars e h = some (.ok (.ref b) h') ∧ TrackAt h' b lb u ∧ h.objs.length ≤ b ∧
        h.objs.length ≤ lb ∧ Becomes { h with draws := h.draws + t.len } h' a l l (t.iter W.sort).1
    | .error x => userEval W vars e h = some (.err x h) := by
  obtain ⟨args, kws, h1, h2⟩ := user_random W hc h
  have := random_run W hN ht hr.wf lo hi mean var h2
  rw [h1]
  cases hx : (@randomizeVelocities W.digits W.sort t lo hi mean var (fun i => W.gauss (h.draws + i) mean (W.sqrt var))).2 with
  | error x => rw [hx] at this; exact this
  | ok u =>
    rw [hx] at this
    obtain ⟨h', b, lb, g1, g2, -, g3, g4, -, g5⟩ := this
    exact ⟨h', b, lb, g1, g2, g3, g4, g5⟩

theorem randomizeLoop_reachable [UnicodeDigits] {S : ListSort} {lo hi : PyFloat} {g : Nat → PyFloat} :
    ∀ (l : List Entry) (i : Nat) {r r' : Track}, (∀ e ∈ l, e.1.Valid ∧ e.2.Valid) → r.Reachable S →
    randomizeLoop lo hi g i r l = .ok r' → r'.Reachable S
  | [], i, r, r', _, hr, h => by cases h; exact hr
  | e :: l, i, r, r', hv, hr, h => by
    obtain ⟨p, n⟩ := e
    rw [randomizeLoop] at h
    obtain ⟨hp, hn⟩ := hv (p, n) (by simp)
    cases h1 : Note.withVelocity n (clampVelocity lo hi (g i)) with
    | error x => rw [h1] at h; cases h
    | ok m =>
      rw [h1] at h
      cases h2 : r.add (.note m) (some (.sig p)) with
      | error x => simp only [bind, Except.bind, h2] at h; cases h
      | ok r2 =>
        simp only [bind, Except.bind, h2] at h
        refine randomizeLoop_reachable l (i + 1) (fun e he => hv e (by simp [he])) ?_ h
        have hm : m.Valid := by
          obtain ⟨h1, h2, h3, h4, h5⟩ := Note.new_ok_iff.mp h1
          have hd : n.duration = m.duration := Except.ok.inj h2
          exact ⟨hd ▸ hn.duration, h4, h5⟩
        have := reachable_run hr [.add (.note m) (some (.sig p))] (by
          simp only [List.mem_singleton, forall_eq]
          exact ⟨by simpa [What.Valid, What.notes] using hm, by rintro s ⟨⟩; exact hp⟩)
        simpa [Track.run, TrackOp.step, Track.addS_of_ok h2] using this

theorem randomizeVelocities_reachable [UnicodeDigits] {S : ListSort} {t u : Track} (ht : t.Reachable S)
    {lo hi mean var : PyFloat} {g : Nat → PyFloat} (hu : (randomizeVelocities S t lo hi mean var g).2 = .ok u) :
    u.Reachable S := by
  have hl : randomizeLoop lo hi g 0 (Track.empty t.signature) (t.items S) = .ok u := by
    unfold randomizeVelocities at hu
    split_ifs at hu
    exact hu
  exact randomizeLoop_reachable _ 0 (Track.items_valid S ht.wf) ⟨t.signature, [], ht.wf.sig, by simp, rfl⟩ hl

/-- C97 (result): if minimum, maximum and mean are in [0, 1] and the variance is not negative, the call returns a new track with
the signature of the given one and the same notes at the same positions except for their velocities. If minimum ≤ maximum all
velocities are between them; if moreover the random generator yields numbers between them, these are the velocities, in the
order of iteration. The given track keeps its signature, its length and its notes, and no other object is changed. -/
theorem C97_result (hN : W.sort.Natural) {h : Heap} {a l : Nat} {t : Track} (ht : TrackAt h a l t) (hr : t.Reachable W.sort)
    {lo hi mean : ℚ} {var : PyFloat} {vars : List (String × Val)} {e : Expr}
    (hc : RandomCall a (.fin lo) (.fin hi) (.fin mean) var vars e) (hlo : 0 ≤ lo ∧ lo ≤ 1) (hhi : 0 ≤ hi ∧ hi ≤ 1)
    (hm : 0 ≤ mean ∧ mean ≤ 1) (hv : var = .posInf ∨ ∃ q : ℚ, var = .fin q ∧ 0 ≤ q) :
    ∃ (h' : Heap) (b lb : Nat) (u t' : Track), userEval W vars e h = some (.ok (.ref b) h') ∧ TrackAt h' b lb u ∧
      h.objs.length ≤ b ∧ h.objs.length ≤ lb ∧ u.Reachable W.sort ∧ u.signature = t.signature ∧ u.len = t.len ∧
      u.contents.map withoutVelocity = t.contents.map withoutVelocity ∧
      (lo ≤ hi → ∀ p ∈ u.contents, lo ≤ p.2.velocity ∧ p.2.velocity ≤ hi) ∧
      (lo ≤ hi → ∀ g : Nat → ℚ, (∀ i, lo ≤ g i ∧ g i ≤ hi) →
        (∀ i, W.gauss (h.draws + i) (.fin mean) (W.sqrt var) = .fin (g i)) →
        u.contents = ((t.items W.sort).zipIdx.map
          (fun x => (x.1.1.val, (⟨x.1.2.tone, x.1.2.duration, g x.2⟩ : Note))) : Multiset _)) ∧
      Becomes { h with draws := h.draws + t.len } h' a l l t' ∧ t'.signature = t.signature ∧ t'.length = t.length ∧
      t'.contents = t.contents := by
  let _ := W.digits
  have hR := C97_refines W hN ht hr hc
  have hF := C29_failures W.sort t hr (.fin lo) (.fin hi) (.fin mean) var
    (fun i => W.gauss (h.draws + i) (.fin mean) (W.sqrt var))
  have hU := C28_input_unchanged W.sort t (.fin lo) (.fin hi) (.fin mean) var
    (fun i => W.gauss (h.draws + i) (.fin mean) (W.sqrt var))
  have hvar : (PyFloat.fin 0).le var = true := by
    rcases hv with rfl | ⟨q, rfl, hq⟩
    · rfl
    · simp [PyFloat.le, hq]
  cases hx : (randomizeVelocities W.sort t (.fin lo) (.fin hi) (.fin mean) var
      (fun i => W.gauss (h.draws + i) (.fin mean) (W.sqrt var))).2 with
  | error x =>
    obtain ⟨-, hno⟩ := (hF x).mp hx
    exact absurd ⟨⟨lo, rfl, hlo⟩, ⟨hi, rfl, hhi⟩, ⟨mean, rfl, hm⟩, hv⟩ hno
  | ok u =>
    rw [hx] at hR
    obtain ⟨h', b, lb, g1, g2, g3, g4, g5⟩ := hR
    obtain ⟨r1, r2, r3, -⟩ := C28_result W.sort t hr _ _ _ _ _ u hx
    have hit : (randomizeVelocities W.sort t (.fin lo) (.fin hi) (.fin mean) var
      (fun i => W.gauss (h.draws + i) (.fin mean) (W.sqrt var))).1 = (t.iter W.sort).1 := by
      obtain ⟨u', k, -⟩ := randomizeVelocities_spec W.sort hr.wf hlo hhi hm hvar
        (fun i => W.gauss (h.draws + i) (.fin mean) (W.sqrt var))
      rw [k]
    rw [hit] at hU
    refine ⟨h', b, lb, u, _, g1, g2, g3, g4, randomizeVelocities_reachable hr hx, r1, r2, r3, ?_, ?_, g5, hU.1, hU.2.1,
      hU.2.2.2.1⟩
    · intro hle
      obtain ⟨u', k1, k2⟩ := C29_in_range W.sort t hr lo hi mean var hlo.1 hle hhi.2 hm hv
        (fun i => W.gauss (h.draws + i) (.fin mean) (W.sqrt var))
      rw [hx] at k1
      cases k1
      exact k2
    · intro hle g hg hgw
      obtain ⟨u', k1, k2⟩ := C29_velocities W.sort t hr lo hi mean var hlo.1 hle hhi.2 hm hvar g hg
      have : (fun i => W.gauss (h.draws + i) (.fin mean) (W.sqrt var)) = fun i => PyFloat.fin (g i) := funext hgw
      rw [this, k1] at hx
      cases hx
      exact k2

/-- C97 (failures): the call raises an exception exactly if minimum, maximum or mean is no number in [0, 1] or the variance is
negative or NaN; the exception is ValueError, no random number was drawn and memory is as before. -/
theorem C97_failures (hN : W.sort.Natural) {h : Heap} {a l : Nat} {t : Track} (ht : TrackAt h a l t) (hr : t.Reachable W.sort)
    {lo hi mean var : PyFloat} {vars : List (String × Val)} {e : Expr} (hc : RandomCall a lo hi mean var vars e) :
    (¬ ((∃ q, lo = .fin q ∧ 0 ≤ q ∧ q ≤ 1) ∧ (∃ q, hi = .fin q ∧ 0 ≤ q ∧ q ≤ 1) ∧
        (∃ q, mean = .fin q ∧ 0 ≤ q ∧ q ≤ 1) ∧ (var = .posInf ∨ ∃ q, var = .fin q ∧ 0 ≤ q)) ↔
      userEval W vars e h = some (.err .valueError h)) ∧
    ((∃ x h', userEval W vars e h = some (.err x h')) → userEval W vars e h = some (.err .valueError h)) := by
  let _ := W.digits
  have hR := C97_refines W hN ht hr hc
  have hF := C29_failures W.sort t hr lo hi mean var (fun i => W.gauss (h.draws + i) mean (W.sqrt var))
  cases hx : (randomizeVelocities W.sort t lo hi mean var (fun i => W.gauss (h.draws + i) mean (W.sqrt var))).2 with
  | error x =>
    rw [hx] at hR
    obtain ⟨rfl, hno⟩ := (hF x).mp hx
    exact ⟨iff_of_true hno hR, fun _ => hR⟩
  | ok u =>
    rw [hx] at hR
    obtain ⟨h', b, lb, g1, -⟩ := hR
    have hn := mt (fun hb => (hF .valueError).mpr ⟨rfl, hb⟩) (by rw [hx]; simp)
    refine ⟨iff_of_false hn (by rw [g1]; simp), ?_⟩
    rintro ⟨x, h'', hb⟩
    rw [g1] at hb
    cases hb

/-- `randomize_velocities(t, minimum=0.25, variance=0.0)` with the other options left out, and two calls that fail. -/
example (a : Nat) : RandomCall a (.fin (1 / 4)) (.fin 1) (.fin (3 / 4)) (.fin 0)
    [("randomize_velocities", .func "melodia.processing.track" "randomize_velocities"), ("t", .ref a),
      ("minimum", .float (.fin (1 / 4))), ("variance", .float (.fin 0))]
    (.call (.name "randomize_velocities") [.name "t", .name "minimum", .name "variance"] ["minimum", "variance"]) :=
  .kw (some (.fin (1 / 4))) none none (some (.fin 0))

example (hN : W.sort.Natural) {h : Heap} {a l : Nat} {t : Track} (ht : TrackAt h a l t) (hr : t.Reachable W.sort) :
    userEval W (randomVars a (some (.fin (3 / 2))) none none none)
      (.call (.name "randomize_velocities") [.name "t", .name "minimum"] ["minimum"]) h = some (.err .valueError h) ∧
    userEval W (randomVars a none none none (some .nan))
      (.call (.name "randomize_velocities") [.name "t", .name "variance"] ["variance"]) h = some (.err .valueError h) := by
  refine ⟨(C97_failures W hN ht hr (.kw (some (.fin (3 / 2))) none none none)).1.mp ?_,
    (C97_failures W hN ht hr (.kw none none none (some .nan))).1.mp ?_⟩
  · rintro ⟨⟨q, hq, -, h1⟩, -⟩
    cases hq
    norm_num at h1
  · rintro ⟨-, -, -, h1 | ⟨q, h1, -⟩⟩ <;> cases h1

/-- The default options on a track made by three calls of `add`: the result is a new track with as many notes and velocities in
[1/2, 1]. -/
example (hN : W.sort.Natural) {h : Heap} {a l : Nat} (ht : TrackAt h a l ((Track.empty ⟨4, 4⟩).run W.sort exThree)) :
    ∃ (h' : Heap) (b lb : Nat) (u : Track), userEval W (randomVars a none none none none)
        (.call (.name "randomize_velocities") [.name "t"] []) h = some (.ok (.ref b) h') ∧ TrackAt h' b lb u ∧ b ≠ a ∧
      u.len = ((Track.empty ⟨4, 4⟩).run W.sort exThree).len ∧ (∀ p ∈ u.contents, 1 / 2 ≤ p.2.velocity ∧ p.2.velocity ≤ 1) ∧
      h'.draws = h.draws + u.len := by
  obtain ⟨h', b, lb, u, t', g1, g2, g0, -, -, -, g3, -, g4, -, g5, -⟩ := C97_result W hN ht (exThree_reachable W.sort)
    (.kw none none none none) (by norm_num) (by norm_num) (by norm_num) (.inr ⟨_, rfl, by norm_num⟩)
  refine ⟨h', b, lb, u, g1, g2, ?_, g3, g4 (by norm_num), ?_⟩
  · have := lt_of_at ht.obj
    omega
  · rw [g3]
    exact g5.frame.draws

end Melodia
