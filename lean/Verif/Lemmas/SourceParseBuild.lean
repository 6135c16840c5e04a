/-
The loop over the channels in `MIDIReader._parse_track` (src/melodia/io/midi.py:560-600), run from its text.
-/
import Verif.Lemmas.SourceParseChannel

set_option autoImplicit false

namespace Melodia

open Melodia.Python

namespace Source

variable (W : World)

/-! ### What the main loop keeps -/

/-- Velocities are bytes, signatures are valid. -/
structure Parsed (E : Dict Int (List (Int × Event))) (S : Dict Int Signature) : Prop where
  vel : ∀ x ∈ E, ∀ y ∈ x.2, ∀ c p v, y.2 = .noteOn c p v → v < 256
  sig : ∀ x ∈ S, x.2.Valid

theorem read8_lt {r r' : Melodia.Reader} {n : Nat} (h : r.read8 = .ok (n, r')) : n < 256 := by
  unfold Reader.read8 at h
  cases h1 : r.read 1 with
  | error e => rw [h1] at h; cases h
  | ok x =>
    rw [h1] at h
    cases h
    have hl : x.1.length = 1 := by
      unfold Reader.read at h1
      split at h1
      · cases h1
      · cases h1; simp; omega
    obtain ⟨b, hb⟩ := List.length_eq_one_iff.mp hl
    rw [hb]
    have := b.toNat_lt
    simpa [fromBytesBig] using this

theorem readStatusEvent_vel {s : Nat} {r r' : Melodia.Reader} {c p v : Nat} (h : readStatusEvent s r = .ok (.noteOn c p v, r')) : v < 256 := by
  unfold readStatusEvent at h
  simp only [bind, Except.bind] at h
  repeat' split at h
  all_goals try (cases h; done)
  all_goals try (cases h; exact read8_lt ‹_›)

theorem readMeta_vel {r r' : Melodia.Reader} {c p v : Nat} : readMeta r ≠ .ok (.noteOn c p v, r') := by
  intro h
  unfold readMeta at h
  simp only [bind, Except.bind] at h
  repeat' split at h
  all_goals cases h

theorem readEvent_vel : ∀ (k : Nat) (st ps : Option Nat) (r : Melodia.Reader) (c p v : Nat) (x : Option Nat × Melodia.Reader),
    readEvent k st ps r = .ok (.noteOn c p v, x) → v < 256 := by
  intro k
  induction k with
  | zero => intro _ _ _ _ _ _ _ h; cases h
  | succ k ih =>
    intro st ps r c p v x h
    have key : ∀ (s : Nat) (r : Melodia.Reader), (if s = 0xFF then do
        let (e, r) ← readMeta r
        pure (e, some s, r)
      else if s ≥ 0x80 then do
        let (e, r) ← readStatusEvent s r
        pure (e, some s, r)
      else readEvent k ps ps r.shiftBack) = .ok (.noteOn c p v, x) → v < 256 := by
      intro s r h
      split at h
      · cases h1 : readMeta r with
        | error e => rw [h1] at h; cases h
        | ok y => obtain ⟨y1, y2⟩ := y; rw [h1] at h; cases h; exact absurd h1 readMeta_vel
      · split at h
        · cases h1 : readStatusEvent s r with
          | error e => rw [h1] at h; cases h
          | ok y => obtain ⟨y1, y2⟩ := y; rw [h1] at h; cases h; exact readStatusEvent_vel h1
        · exact ih _ _ _ _ _ _ _ h
    cases st with
    | none =>
      rw [readEvent.eq_def] at h
      cases h1 : r.read8 with
      | error e => simp only [h1] at h; cases h
      | ok y => simp only [h1] at h; exact key _ _ h
    | some s => rw [readEvent.eq_def] at h; exact key _ _ h

theorem append_vel {E : Dict Int (List (Int × Event))} {c : Int} {z : Int × Event}
    (h : ∀ x ∈ E, ∀ y ∈ x.2, ∀ c p v, y.2 = .noteOn c p v → v < 256) (hz : ∀ c p v, z.2 = .noteOn c p v → v < 256) :
    ∀ x ∈ appendEvent E c z, ∀ y ∈ x.2, ∀ c p v, y.2 = .noteOn c p v → v < 256 := by
  intro x hx y hy
  rcases Dict.mem_set hx with hx | rfl
  · exact h x hx y hy
  · rcases List.mem_append.mp hy with hy | hy
    · cases hg : E.get c with
      | none => rw [hg] at hy; cases hy
      | some l => rw [hg] at hy; exact h _ (Dict.mem_of_get hg) y hy
    · rw [List.mem_singleton.mp hy]; exact hz

theorem eventLoop_parsed : ∀ (fuel : Nat) (st : ParseState) (r : Melodia.Reader) (st' : ParseState), eventLoop fuel st r = .ok st' →
    Parsed st.channelEvents st.channelSignatures → Parsed st'.channelEvents st'.channelSignatures := by
  intro fuel
  induction fuel with
  | zero => intro _ _ _ h; cases h
  | succ k ih =>
    intro st r st' h hp
    rw [eventLoop] at h
    simp only [bind, Except.bind] at h
    split at h
    · cases h
    · split at h
      · cases h
      · rename_i y hy
        obtain ⟨e, pr, r2⟩ := y
        split at h
        · cases h
        · rename_i o ho
          cases o with
          | none => cases h; exact hp
          | some s2 =>
            refine ih _ _ _ h ?_
            cases e with
            | noteOn c p v =>
              cases ho
              exact ⟨append_vel hp.vel (by rintro c' p' v' ⟨⟩; exact readEvent_vel _ _ _ _ _ _ _ _ hy), hp.sig⟩
            | noteOff c p v =>
              cases ho
              exact ⟨append_vel hp.vel (by rintro c' p' v' ⟨⟩), hp.sig⟩
            | timeSignature nn dd cc bb =>
              rw [handleEvent] at ho
              cases hs : Signature.new nn ((1 <<< dd : Nat) : Int) with
              | error e => rw [hs] at ho; cases ho
              | ok u =>
                rw [hs] at ho
                cases ho
                refine ⟨hp.vel, fun x hx => ?_⟩
                rcases Dict.mem_set hx with hx | rfl
                · exact hp.sig x hx
                · obtain ⟨rfl, h2, h3⟩ := Signature.new_eq_ok_iff.mp hs
                  exact ⟨h2, h3⟩
            | endOfTrack => cases ho
            | globalChannel c => cases ho; exact hp
            | unsupported => cases ho; exact hp

/-! ### The loop over the events of a channel -/

theorem ch_step {m : MidiReader} {c : Val} {d n : Nat} {q g t dt : Int} {res evs a rn : Nat} {ch : Int} {s : Melodia.Signature} {H0 : Heap} {l0 : Nat}
    {z : Melodia.Track × Sounding} {H : Heap} (hs : ChState H0 a l0 rn z H) {Y : List (String × Val)} (hY : NoteVars Y)
    (time : Int) (e : Event) (he : ∀ c p v, e = .noteOn c p v → v < 256) :
    Ends (execB program W ptChannel (chEnv d n (readerV m c) q g t dt time e res ch evs s a rn Y) H) (@chStep W.digits m q z (time, e))
      (fun s' => GoesOn (fun env' H' => (∃ Y', NoteVars Y' ∧ env' = chEnv d n (readerV m c) q g t dt time e res ch evs s a rn Y') ∧
        ChState H0 a l0 rn s' H')) (Frame (fun b => b = a ∨ b = l0 ∨ b = rn) H0) := by
  obtain ⟨tr, Z⟩ := z
  by_cases hm : ∃ c p v, e = .noteOff c p v
  · obtain ⟨c', p, v, rfl⟩ := hm
    exact ch_off W hs hY time c' p v
  · exact ch_on W hs hY time e he (fun c p v h => hm ⟨c, p, v, h⟩)

/-- The loop over the events of a channel. -/
theorem channel_run {m : MidiReader} {c : Val} {d n : Nat} {q g t dt : Int} {res evs a rn : Nat} {ch : Int} {s : Melodia.Signature} {H0 : Heap} {l0 : Nat}
    {tr : Melodia.Track} (hs : ChState H0 a l0 rn (tr, []) H0) {Y : List (String × Val)} (hY : NoteVars Y) {time : Int} {e : Event}
    {xs : List (Int × Event)} (hx : ∀ y ∈ xs, ∀ c p v, y.2 = .noteOn c p v → v < 256) (he : H0.objs[evs]? = some (.list (xs.map timedVal)))
    (h1 : evs ≠ a) (h2 : evs ≠ l0) (h3 : evs ≠ rn) :
    Ends (execS program W (.for (.tuple [.name "absolute_time", .name "event"]) (.name "events") ptChannel)
        (chEnv d n (readerV m c) q g t dt time e res ch evs s a rn Y) H0) (@MidiReader.channelLoop W.digits m q tr [] xs)
      (fun tr' r H' => ∃ env', r = .next env' ∧
        (∃ time e Y', NoteVars Y' ∧ env' = chEnv d n (readerV m c) q g t dt time e res ch evs s a rn Y') ∧
        ∃ Z, ChState H0 a l0 rn (tr', Z) H') (Frame (fun b => b = a ∨ b = l0 ∨ b = rn) H0) := by
  have := @channelLoop_fold W.digits m q xs tr []
  rw [show runModel [] = [] from rfl] at this
  rw [this]
  refine Ends.map (for_ends (P := program) (W := W) (g := timedVal)
    (fun z env H => (∃ time e Y', NoteVars Y' ∧ env = chEnv d n (readerV m c) q g t dt time e res ch evs s a rn Y') ∧ ChState H0 a l0 rn z H)
    _ (@chStep W.digits m q) (it := .iter evs) (xs := xs) ?_ (getIter_ref_list program W he) (by simp) ?_ ?_ ⟨⟨_, _, _, hY, rfl⟩, hs⟩) ?_
  · exact evalE_name _ _ rfl rfl _
  · rintro z env H ⟨-, hz⟩ i
    simp [itemAt, hz.frame.at he (by rintro (h | h | h); exacts [h1 h, h2 h, h3 h])]
  · rintro z env H ⟨time', e'⟩ hm ⟨⟨time2, e2, Y', hY', rfl⟩, hz⟩
    refine ⟨(chEnv d n (readerV m c) q g t dt time' e' res ch evs s a rn Y').vars, ?_, ?_⟩
    · cases hY' <;> rfl
    · refine (ch_step W hz hY' time' e' (hx _ hm)).mono ?_ (fun _ h => h)
      rintro b f H' - ⟨env', h1, ⟨Y2, hY2, rfl⟩, h3⟩
      exact ⟨_, h1, ⟨_, _, _, hY2, rfl⟩, h3⟩
  · rintro ⟨tr', Z⟩ f H' - ⟨env', rfl, h1, h2⟩
    exact ⟨env', rfl, h1, Z, h2⟩

/-! ### The loop over the channels -/

/-- The variables of the loop over the channels. -/
def buEnv (d n : Nat) (sv : Val) (q g t dt : Int) (time : Int) (e : Event) (res : Nat) (X : List (String × Val)) : Env :=
  ptEnv d n sv (.int q) g t (("delta_time", .int dt) :: ("absolute_time", .int time) :: ("event", eventVal e) :: ("result", .ref res) :: X)

/-- The variables of a round. -/
inductive BuildVars : List (String × Val) → Prop
  | none : BuildVars []
  | some (ch : Int) (evs : Nat) (n d : Int) (a rn : Nat) (Y : List (String × Val)) (hY : NoteVars Y) :
      BuildVars (("channel", .int ch) :: ("events", .ref evs) :: ("signature", .obj "Signature" [("_nominator", .int n), ("_denominator", .int d)]) ::
        ("track", .ref a) :: ("running_notes", .ref rn) :: Y)

/-- The same after the head of the loop. -/
inductive RoundVars (ch : Int) (evs : Nat) : List (String × Val) → Prop
  | none : RoundVars ch evs [("channel", .int ch), ("events", .ref evs)]
  | some (n d : Int) (a rn : Nat) (Y : List (String × Val)) (hY : NoteVars Y) :
      RoundVars ch evs (("channel", .int ch) :: ("events", .ref evs) :: ("signature", .obj "Signature" [("_nominator", .int n), ("_denominator", .int d)]) ::
        ("track", .ref a) :: ("running_notes", .ref rn) :: Y)

theorem NoteVars.get_none {Y : List (String × Val)} (h : NoteVars Y) {x : String}
    (hx : x ∉ ["note_beginning", "note_on", "tone", "duration", "velocity", "position"]) : Dict.get Y x = .none := by
  simp only [List.mem_cons, List.not_mem_nil, or_false, not_or] at hx
  obtain ⟨h1, h2, h3, h4, h5, h6⟩ := hx
  cases h
  · rfl
  · simp [Dict.get, Ne.symm h1, Ne.symm h2, Ne.symm h3, Ne.symm h4, Ne.symm h5, Ne.symm h6]

theorem midi_name_Track' : globalName program W "melodia.io.midi" "Track" = pure (.cls "Track") := by
  rw [globalName]; rfl

theorem channelSignature_valid {S : Dict Int Signature} (h : ∀ x ∈ S, x.2.Valid) (ch : Int) : (MidiReader.channelSignature S ch).Valid := by
  unfold MidiReader.channelSignature
  split
  · exact h _ (Dict.mem_of_get ‹_›)
  · split
    · exact h _ (Dict.mem_of_get ‹_›)
    · exact ⟨by decide, 2, rfl⟩

theorem meth_get {b : Nat} {xs : List (Val × Val)} {dd : Bool} {h : Heap} (hb : h.objs[b]? = some (.dict xs dd)) (k : Int) (v : Val) :
    primMeth W (.ref b) "get" [.int k, v] h = some (.ok ((dictGet xs (.int k)).getD v) h) := by
  pyrun [primMeth, hb]

theorem build_signature {m : MidiReader} {c : Val} {d n : Nat} {q g t dt time : Int} {e : Event} {res evs : Nat} {ch : Int} {H : Heap}
    {X : List (String × Val)} (hX : RoundVars ch evs X) {S : Dict Int Signature} (hS : H.objs[n + 2]? = some (.dict (valDict sigV S) false)) :
    ∃ X', (X' = [] ∨ ∃ a rn Y, NoteVars Y ∧ X' = ("track", .ref a) :: ("running_notes", .ref rn) :: Y) ∧
    execB program W (ptBuild.take 1) (buEnv d n (readerV m c) q g t dt time e res X) H =
      some (.ok (.next (buEnv d n (readerV m c) q g t dt time e res (("channel", .int ch) :: ("events", .ref evs) ::
        ("signature", sigV (MidiReader.channelSignature S ch)) :: X'))) H) := by
  have hsig : Signature.new 4 4 = .ok ⟨4, 4⟩ := by decide
  cases hX with
  | none =>
    refine ⟨[], .inl rfl, ?_⟩
    unfold MidiReader.channelSignature
    cases h1 : S.get ch with
    | some s => pyrun [ptBuild, buEnv, ptEnv, in_dict W hS, hS, valDict_get, h1]
    | none =>
      cases h2 : S.get (-1) with
      | some s => pyrun [ptBuild, buEnv, ptEnv, in_dict W hS, hS, hasPrimAttr, hsig, meth_get W hS, Except.map, valDict_get, h1, h2]
      | none => pyrun [ptBuild, buEnv, ptEnv, in_dict W hS, hS, hasPrimAttr, hsig, meth_get W hS, Except.map, valDict_get, h1, h2]
  | some n' d' a rn Y hY =>
    refine ⟨_, .inr ⟨a, rn, Y, hY, rfl⟩, ?_⟩
    have hs := hY.get_none (x := "Signature") (by decide)
    unfold MidiReader.channelSignature
    cases h1 : S.get ch with
    | some s => pyrun [ptBuild, buEnv, ptEnv, in_dict W hS, hS, valDict_get, h1]
    | none =>
      cases h2 : S.get (-1) with
      | some s => pyrun [ptBuild, buEnv, ptEnv, in_dict W hS, hS, hasPrimAttr, hsig, meth_get W hS, hs, Except.map, valDict_get, h1, h2]
      | none => pyrun [ptBuild, buEnv, ptEnv, in_dict W hS, hS, hasPrimAttr, hsig, meth_get W hS, hs, Except.map, valDict_get, h1, h2]

/-- A track in `result`. -/
def TrackRow (H : Heap) (B : Nat) (x : Val × Val) (y : Int × Melodia.Track) : Prop :=
  x.1 = .int y.1 ∧ ∃ a l, x.2 = .ref a ∧ B ≤ a ∧ B ≤ l ∧ TrackAt H a l y.2 ∧ y.2.WF

theorem TrackRow.mono {H H' : Heap} {B : Nat} {x : Val × Val} {y : Int × Melodia.Track} (h : TrackRow H B x y) {S : Nat → Prop}
    (hf : Frame S H H') (hS : ∀ b, S b → b < B) : TrackRow H' B x y := by
  obtain ⟨h1, a, l, h2, h3, h4, h5, h6⟩ := h
  exact ⟨h1, a, l, h2, h3, h4, ⟨hf.at h5.obj (fun h => by have := hS _ h; omega), hf.at h5.list (fun h => by have := hS _ h; omega)⟩, h6⟩

theorem rows_set {H : Heap} {B : Nat} {D : List (Val × Val)} {R : Dict Int Melodia.Track} (h : List.Forall₂ (TrackRow H B) D R) {k : Int} {v : Val}
    {t : Melodia.Track} (hr : TrackRow H B (.int k, v) (k, t)) : List.Forall₂ (TrackRow H B) (dictSet D (.int k) v) (R.set k t) := by
  induction h with
  | nil => exact .cons hr .nil
  | @cons x y D R hx hxs ih =>
    obtain ⟨x1, x2⟩ := x
    obtain ⟨y1, y2⟩ := y
    obtain ⟨rfl, h2⟩ := hx
    simp only [dictSet, Dict.set, keyEq_int]
    by_cases hk : y1 = k
    · simp only [hk, decide_true, if_true]
      exact .cons hr hxs
    · simp only [hk, decide_false, if_false]
      exact .cons ⟨rfl, h2⟩ ih

/-- Two tracks share nothing. -/
def Apart (H : Heap) (x y : Val × Val) : Prop :=
  ∀ a l t a' l' t', x.2 = .ref a → y.2 = .ref a' → TrackAt H a l t → TrackAt H a' l' t' → a ≠ a' ∧ l ≠ l'

theorem _root_.Melodia.TrackAt.list_eq {H : Heap} {a l l' : Nat} {t t' : Melodia.Track} (h : TrackAt H a l t) (h' : TrackAt H a l' t') : l = l' := by
  have := h.obj.symm.trans h'.obj
  simp only [trackFields, Option.some.injEq, Obj.inst.injEq, true_and] at this
  simp at this
  tauto

theorem rows_mem {H : Heap} {B : Nat} {D : List (Val × Val)} {R : Dict Int Melodia.Track} (h : List.Forall₂ (TrackRow H B) D R) {x : Val × Val}
    (hx : x ∈ D) : ∃ y, TrackRow H B x y := by
  induction h with
  | nil => exact absurd hx (by simp)
  | cons h1 h2 ih =>
    rcases List.mem_cons.mp hx with rfl | hx
    · exact ⟨_, h1⟩
    · exact ih hx

theorem apart_mono {H H' : Heap} {B : Nat} {D : List (Val × Val)} {R : Dict Int Melodia.Track} (h : List.Forall₂ (TrackRow H B) D R)
    (hp : D.Pairwise (Apart H)) {S : Nat → Prop} (hf : Frame S H H') (hS : ∀ b < H.objs.length, S b → b < B) : D.Pairwise (Apart H') := by
  refine hp.imp_of_mem ?_
  rintro x y hx hy hxy a l t a' l' t' ex ey hx' hy'
  obtain ⟨u, -, b, k, e1, e2, e3, e4, -⟩ := rows_mem h hx
  obtain ⟨w, -, b', k', e1', e2', e3', e4', -⟩ := rows_mem h hy
  have hb : b = a := by rw [e1] at ex; simpa using ex
  have hb' : b' = a' := by rw [e1'] at ey; simpa using ey
  subst hb hb'
  have m1 : TrackAt H' b k u.2 := ⟨hf.at e4.obj (fun h => by have := hS _ (lt_of_at e4.obj) h; omega),
    hf.at e4.list (fun h => by have := hS _ (lt_of_at e4.list) h; omega)⟩
  have m2 : TrackAt H' b' k' w.2 := ⟨hf.at e4'.obj (fun h => by have := hS _ (lt_of_at e4'.obj) h; omega),
    hf.at e4'.list (fun h => by have := hS _ (lt_of_at e4'.list) h; omega)⟩
  rw [← m1.list_eq hx', ← m2.list_eq hy']
  exact hxy _ _ _ _ _ _ ex ey e4 e4'

theorem apart_set {H : Heap} {D : List (Val × Val)} (hp : D.Pairwise (Apart H)) {k v : Val}
    (h1 : ∀ x ∈ D, ∀ k', Apart H x (k', v) ∧ Apart H (k', v) x) : (dictSet D k v).Pairwise (Apart H) := by
  have mem : ∀ {D : List (Val × Val)} {x}, x ∈ dictSet D k v → x ∈ D ∨ x.2 = v := by
    intro D
    induction D with
    | nil => intro x hx; simp only [dictSet, List.mem_singleton] at hx; exact .inr (by rw [hx])
    | cons y D ih =>
      intro x hx
      simp only [dictSet] at hx
      split at hx
      · rcases List.mem_cons.mp hx with rfl | hx
        · exact .inr rfl
        · exact .inl (List.mem_cons_of_mem _ hx)
      · rcases List.mem_cons.mp hx with rfl | hx
        · exact .inl List.mem_cons_self
        · exact (ih hx).imp (List.mem_cons_of_mem _) id
  induction D with
  | nil => exact List.pairwise_singleton _ _
  | cons y D ih =>
    simp only [dictSet]
    obtain ⟨h2, h3⟩ := List.pairwise_cons.mp hp
    split
    · exact List.pairwise_cons.mpr ⟨fun x hx => (h1 x (List.mem_cons_of_mem _ hx) _).2, h3⟩
    · refine List.pairwise_cons.mpr ⟨fun x hx => ?_, ih h3 (fun x hx => h1 x (List.mem_cons_of_mem _ hx))⟩
      rcases mem hx with hx | hx
      · exact h2 x hx
      · obtain ⟨k', w⟩ := x
        obtain rfl : w = v := hx
        exact (h1 y List.mem_cons_self k').1

/-- The state of the loop over the channels. -/
structure BuildState (HB : Heap) (res : Nat) (R : Dict Int Melodia.Track) (H : Heap) : Prop where
  frame : Frame (· = res) HB H
  dict : ∃ D, H.objs[res]? = some (.dict D false) ∧ List.Forall₂ (TrackRow H HB.objs.length) D R ∧ D.Pairwise (Apart H)

theorem build_text : ptBuild = ptBuild.take 1 ++ ([
      .assign (.name "track") (.call (.name "Track") [.name "signature"] ["signature"]),
      .assign (.name "running_notes") (.dict [] [])] ++ [
      .for (.tuple [.name "absolute_time", .name "event"]) (.name "events") ptChannel,
      .assign (.index (.name "result") (.name "channel")) (.name "track")]) := rfl

/-- A round of the loop over the channels. -/
theorem build_round {m : MidiReader} {c : Val} {d n : Nat} {q g t dt time : Int} {e : Event} {res evs : Nat} {ch : Int} {HB H : Heap}
    {R : Dict Int Melodia.Track} (hb : BuildState HB res R H) {S : Dict Int Signature} (hS : HB.objs[n + 2]? = some (.dict (valDict sigV S) false))
    (hSv : ∀ x ∈ S, x.2.Valid) {xs : List (Int × Event)} (hx : ∀ y ∈ xs, ∀ c p v, y.2 = .noteOn c p v → v < 256)
    (he : HB.objs[evs]? = some (.list (xs.map timedVal))) (hr : res < HB.objs.length) (h1 : evs ≠ res) (h2 : n + 2 ≠ res)
    {X : List (String × Val)} (hX : RoundVars ch evs X) :
    Ends (execB program W ptBuild (buEnv d n (readerV m c) q g t dt time e res X) H)
      (@MidiReader.channelLoop W.digits m q (Melodia.Track.empty (MidiReader.channelSignature S ch)) [] xs)
      (fun tr => GoesOn (fun env' H' => (∃ time e X', BuildVars X' ∧ env' = buEnv d n (readerV m c) q g t dt time e res X') ∧
        BuildState HB res (R.set ch tr) H')) (Frame (· = res) HB) := by
  obtain ⟨hf, D, hD, hrows, hap⟩ := hb
  obtain ⟨X', hX', g1⟩ := build_signature W (m := m) (c := c) (d := d) (n := n) (q := q) (g := g) (t := t) (dt := dt) (time := time) (e := e) (res := res) (H := H) hX
    (S := S) (hf.at hS h2)
  rw [build_text, execB_append_next g1]
  have hsv := channelSignature_valid hSv ch
  generalize MidiReader.channelSignature S ch = sg at hsv ⊢
  obtain ⟨H1, l, n1, n2, n3, n4, n5⟩ := (track_new_run W (h := H) (s := .sig sg) (.sig _) hsv (content := [])
      (by simp) (c := .none) (l0 := 0) (.inl ⟨rfl, rfl⟩) (args := []) (kws := [("signature", sigV sg)])
      (by simp [py, Track.dunder_init])).1 (Track.empty sg) rfl
  have hlen := hf.len
  have hlen1 := n5.len
  have ha1 := lt_of_at n3.obj
  have hl1 := lt_of_at n3.list
  set H2 := H1.push (.dict [] false) with hH2
  obtain ⟨Y, hY, g2⟩ : ∃ Y, NoteVars Y ∧ execB program W [
      .assign (.name "track") (.call (.name "Track") [.name "signature"] ["signature"]),
      .assign (.name "running_notes") (.dict [] [])] (buEnv d n (readerV m c) q g t dt time e res (("channel", .int ch) :: ("events", .ref evs) ::
        ("signature", sigV sg) :: X')) H =
      some (.ok (.next (chEnv d n (readerV m c) q g t dt time e res ch evs sg H.objs.length H1.objs.length Y)) H2) := by
    rcases hX' with rfl | ⟨a, rn, Y, hY, rfl⟩
    · refine ⟨[], .none, ?_⟩
      pyrun [buEnv, ptEnv, chEnv, midi_name_Track', ↓n1, hH2]
    · refine ⟨Y, hY, ?_⟩
      have hs := hY.get_none (x := "Track") (by decide)
      pyrun [buEnv, ptEnv, chEnv, hs, midi_name_Track', ↓n1, hH2]
  rw [execB_append_next g2]
  have f2 : Frame (fun _ => False) H H2 := n5.trans (Frame.push _ _) (fun _ h => h) (fun _ _ h => h)
  have fB : Frame (· = res) HB H2 := hf.trans f2 (fun _ h => h) (fun _ _ h => h.elim)
  have hH2l : H2.objs.length = H1.objs.length + 1 := by rw [hH2, Heap.push_length]
  have hev := lt_of_at he
  have t2 : TrackAt H2 H.objs.length l (Track.empty sg) :=
    ⟨(Frame.push H1 _).at n3.obj (fun h => h), (Frame.push H1 _).at n3.list (fun h => h)⟩
  have hcs : ChState H2 H.objs.length l H1.objs.length (Track.empty sg, []) H2 :=
    ⟨⟨l, t2, by omega, .inl rfl⟩, n2, Heap.push_at _ _, Frame.refl _ _, by simp⟩
  rw [← bind_pure (@MidiReader.channelLoop W.digits m q (Track.empty sg) [] xs)]
  refine Ends.block (channel_run W hcs hY hx (fB.at he h1) (by omega) (by omega) (by omega)) ?_ ?_
  · intro H' hH'
    exact fB.trans hH' (fun _ h => h) (by rintro b hb (h | h | h) <;> omega)
  · rintro tr env' H' - ⟨⟨time', e', Y', hY', rfl⟩, Z, hz⟩
    obtain ⟨⟨l', k1, k2, k3⟩, k4, k5, k6, k7⟩ := hz
    have hres : H'.objs[res]? = some (.dict D false) := by
      refine k6.at (f2.at hD (fun h => h)) ?_
      rintro (h | h | h) <;> omega
    have fH : Frame (fun _ => False) H H' := f2.trans k6 (fun _ h => h) (by rintro b hb (h | h | h) <;> omega)
    have fP := Frame.put H' res (.dict (dictSet D (.int ch) (.ref H.objs.length)) false)
    have g3 : execB program W [.assign (.index (.name "result") (.name "channel")) (.name "track")]
        (chEnv d n (readerV m c) q g t dt time' e' res ch evs sg H.objs.length H1.objs.length Y') H' =
        some (.ok (.next (chEnv d n (readerV m c) q g t dt time' e' res ch evs sg H.objs.length H1.objs.length Y'))
          (H'.put res (.dict (dictSet D (.int ch) (.ref H.objs.length)) false))) := by
      pyrun [chEnv, ptEnv, hres]
    refine ⟨_, _, g3, _, .inl rfl, ⟨time', e', _, .some ch evs _ _ _ _ Y' hY', rfl⟩, ?_, ?_⟩
    · exact (fB.trans k6 (fun _ h => h) (by rintro b hb (h | h | h) <;> omega)).trans fP (fun _ h => h) (fun _ _ h => h)
    · have hrowsP := hrows.imp (fun x y hxy => (hxy.mono fH (fun _ h => h.elim)).mono fP (by rintro b rfl; exact hr))
      have fHP : Frame (· = res) H _ := fH.trans fP (fun _ h => h.elim) (fun _ _ h => h)
      have hnew := TrackRow.mono (H := H') (x := (.int ch, .ref H.objs.length)) (y := (ch, tr)) ⟨rfl, _, l', rfl, by omega, by omega, k1, k4⟩ fP (by rintro b rfl; exact hr)
      refine ⟨_, Heap.put_at hres, rows_set hrowsP hnew, apart_set (apart_mono hrows hap fHP (by rintro b - rfl; exact hr)) ?_⟩
      intro x hx k'
      obtain ⟨y, -, b, l0, e1, e2, e3, e4, -⟩ := rows_mem hrows hx
      have hb1 := lt_of_at e4.obj
      have hb2 := lt_of_at e4.list
      have e5 : TrackAt (H'.put res (.dict (dictSet D (.int ch) (.ref H.objs.length)) false)) b l0 y.2 :=
        ⟨fHP.at e4.obj (fun h => by omega), fHP.at e4.list (fun h => by omega)⟩
      have e6 : TrackAt (H'.put res (.dict (dictSet D (.int ch) (.ref H.objs.length)) false)) H.objs.length l' tr :=
        ⟨fP.at k1.obj (fun h => by omega), fP.at k1.list (fun h => by omega)⟩
      have main : ∀ a l t a' l1 t', x.2 = .ref a → Val.ref H.objs.length = .ref a' → TrackAt (H'.put res (.dict (dictSet D (.int ch) (.ref H.objs.length)) false)) a l t →
          TrackAt (H'.put res (.dict (dictSet D (.int ch) (.ref H.objs.length)) false)) a' l1 t' → a ≠ a' ∧ l ≠ l1 := by
        rintro a l t a' l1 t' ex ey g1 g2
        have hb : b = a := by rw [e1] at ex; simpa using ex
        have hb' : H.objs.length = a' := by simpa using ey
        subst hb hb'
        rw [← e5.list_eq g1, ← e6.list_eq g2]
        omega
      refine ⟨main, ?_⟩
      rintro a l t a' l1 t' ex ey g1 g2
      have := main _ _ _ _ _ _ ey ex g2 g1
      exact ⟨this.1.symm, this.2.symm⟩

/-- A round in the model. -/
def buildStep [UnicodeDigits] (m : MidiReader) (q : Int) (S : Dict Int Signature) (R : Dict Int Melodia.Track)
    (x : (Int × List (Int × Event)) × Nat) : PyM (Dict Int Melodia.Track) :=
  (MidiReader.channelLoop m q (Melodia.Track.empty (MidiReader.channelSignature S x.1.1)) [] x.1.2).map (R.set x.1.1 ·)

theorem buildTracks_fold [UnicodeDigits] (m : MidiReader) (q : Int) (S : Dict Int Signature) : ∀ (E : Dict Int (List (Int × Event))) (i : Nat)
    (R : Dict Int Melodia.Track), MidiReader.buildTracks m q S E R = (List.zipIdx E i).foldlM (buildStep m q S) R := by
  intro E
  induction E with
  | nil => intro i R; rfl
  | cons x E ih =>
    intro i R
    rw [MidiReader.buildTracks, List.zipIdx_cons, List.foldlM_cons, buildStep]
    cases MidiReader.channelLoop m q (Melodia.Track.empty (MidiReader.channelSignature S x.1)) [] x.2 with
    | error e => rfl
    | ok t => exact ih _ _

theorem refDict_getElem {α : Type} : ∀ (n : Nat) (E : Dict Int α) (i : Nat), (refDict n E)[i]? = E[i]?.map (fun x => (.int x.1, .ref (n + i))) := by
  intro n E
  induction E generalizing n with
  | nil => intro i; rfl
  | cons x E ih =>
    obtain ⟨k, w⟩ := x
    intro i
    cases i with
    | zero => rfl
    | succ i => rw [refDict, List.getElem?_cons_succ, ih, List.getElem?_cons_succ, Nat.add_right_comm, Nat.add_assoc]

theorem build_run {m : MidiReader} {c : Val} {h : Heap} {d : Nat} {q g t dt time : Int} {e : Event} (r : Melodia.Reader) (prev : Val)
    {E : Dict Int (List (Int × Event))} {S : Dict Int Signature} (hp : Parsed E S) :
    Ends (execS program W (.for (.tuple [.name "channel", .name "events"]) (.call (.attr (.name "channel_events") "items") [] []) ptBuild)
        (buEnv d h.objs.length (readerV m c) q g t dt time e (h.objs.length + 3 + E.length) [])
        ((parseHeap h d r prev E S).push (.dict [] false)))
      (@MidiReader.buildTracks W.digits m q S E [])
      (fun R f H' => ∃ env', f = .next env' ∧
        (∃ time e X', BuildVars X' ∧ env' = buEnv d h.objs.length (readerV m c) q g t dt time e (h.objs.length + 3 + E.length) X') ∧
        BuildState ((parseHeap h d r prev E S).push (.dict [] false)) (h.objs.length + 3 + E.length) R H')
      (Frame (· = h.objs.length + 3 + E.length) ((parseHeap h d r prev E S).push (.dict [] false))) := by
  set n := h.objs.length with hn
  set HB := (parseHeap h d r prev E S).push (.dict [] false) with hHB
  have hlen : HB.objs.length = n + 3 + E.length + 1 := by rw [hHB, Heap.push_length, parseHeap_length]
  have hat : ∀ {b : Nat} {o : Obj}, (parseHeap h d r prev E S).objs[b]? = some o → HB.objs[b]? = some o :=
    fun hb => (Frame.push _ _).at hb (fun h => h)
  have hce := hat (parseHeap_ce (h := h) (d := d) r prev E S)
  have hcs := hat (parseHeap_cs (h := h) (d := d) r prev E S)
  rw [← hn] at hce hcs
  have hres : HB.objs[n + 3 + E.length]? = some (.dict [] false) := by
    have := Heap.push_at (parseHeap h d r prev E S) (.dict [] false)
    rwa [parseHeap_length] at this
  rw [@buildTracks_fold W.digits m q S E 0 []]
  refine for_ends (P := program) (W := W) (g := fun x => .tuple [.int x.1.1, .ref (n + 3 + x.2)])
    (fun R env H => (∃ time e X', BuildVars X' ∧ env = buEnv d n (readerV m c) q g t dt time e (n + 3 + E.length) X') ∧
      BuildState HB (n + 3 + E.length) R H)
    _ (@buildStep W.digits m q S) (v := .dictItems (n + 1)) (it := .dictItems (n + 1)) (h1 := HB) (h2 := HB) ?_ ?_ (by simp) ?_ ?_
    ⟨⟨_, _, _, .none, rfl⟩, Frame.refl _ _, [], hres, .nil, .nil⟩
  · have hi : primMeth W (.ref (n + 1)) "items" [] HB = some (.ok (.dictItems (n + 1)) HB) := rfl
    pyrun [buEnv, ptEnv, hce, hasPrimAttr, hi]
  · rw [getIter.eq_def]; rfl
  · rintro R env H ⟨-, hb⟩ i
    simp only [itemAt, hb.frame.at hce (by omega), List.getElem?_map, refDict_getElem, List.getElem?_zipIdx]
    cases E[i]? <;> simp
  · rintro R env H ⟨⟨k, evs⟩, i⟩ hm ⟨⟨time', e', X', hX', rfl⟩, hb⟩
    have hi : E[i]? = some (k, evs) := by simpa using List.mk_mem_zipIdx_iff_getElem?.mp hm
    obtain ⟨X2, hX2, hbind⟩ : ∃ X2, RoundVars k (n + 3 + i) X2 ∧ bindPat (.tuple [.name "channel", .name "events"])
        (.tuple [.int k, .ref (n + 3 + i)]) (buEnv d n (readerV m c) q g t dt time' e' (n + 3 + E.length) X').vars H =
        some (.ok (buEnv d n (readerV m c) q g t dt time' e' (n + 3 + E.length) X2).vars H) := by
      cases hX' with
      | none => exact ⟨_, .none, rfl⟩
      | some ch evs' n' d' a rn Y hY => exact ⟨_, .some n' d' a rn Y hY, rfl⟩
    refine ⟨_, hbind, ?_⟩
    have hev : HB.objs[n + 3 + i]? = some (.list (evs.map timedVal)) := hat (by rw [parseHeap_list, hi]; rfl)
    have hlt := (List.getElem?_eq_some_iff.mp hi).1
    refine Ends.map (build_round W hb hcs hp.sig (hp.vel _ (List.mem_of_getElem? hi)) hev (by omega) (by omega) (by omega) hX2) ?_
    exact fun _ _ _ _ h => h
end Source
end Melodia
