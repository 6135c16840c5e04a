/-
The methods of `Track` and `randomize_velocities`, with their heads.
-/
import Verif.Spec.TypesTrack
import Verif.Lemmas.TypesCore
import Verif.Lemmas.MidiRead
import Verif.Props.SourceProcessing

set_option autoImplicit false

namespace Melodia.Source

open Melodia.Python Melodia

variable {W : World}

/-! ### Types in memory -/

theorem atInt {h : Heap} {v : Val} : HasTypeAt W h (.name "int") v ↔ ∃ i : Int, v = .int i := by simp [HasTypeAt, IsInstance]
theorem atFloat {h : Heap} {v : Val} : HasTypeAt W h (.name "float") v ↔ ∃ x : PyFloat, v = .float x := by simp [HasTypeAt, IsInstance]
theorem atStr {h : Heap} {v : Val} : HasTypeAt W h (.name "str") v ↔ ∃ s : List Char, v = .str s := by simp [HasTypeAt, IsInstance]
theorem atBool {h : Heap} {v : Val} : HasTypeAt W h (.name "bool") v ↔ ∃ b : Bool, v = .bool b := by simp [HasTypeAt, IsInstance]
theorem atTrack {h : Heap} {v : Val} : HasTypeAt W h (.name "Track") v ↔ IsTrack W h v := by simp [HasTypeAt]
theorem atSignature {h : Heap} {v : Val} : HasTypeAt W h (.name "Signature") v ↔ ∃ s : Melodia.Signature, s.Valid ∧ v = sigV s := by
  rw [← isSignature, HasTypeAt, if_neg (by decide)]
theorem atNote {h : Heap} {v : Val} : HasTypeAt W h (.name "Note") v ↔ ∃ n : Melodia.Note, n.Valid ∧ v = noteV n := by
  rw [← isNote, HasTypeAt, if_neg (by decide)]

/-- The pairs of ints. -/
theorem atInts {h : Heap} {v : Val} : HasTypeAt W h (.app "Tuple" [.name "int", .name "int"]) v ↔ ∃ i j : Int, v = .tuple [.int i, .int j] := by
  rw [HasTypeAt, if_neg (by decide), if_neg (by decide), if_pos rfl]
  simp only [HasTypesAt, atInt]
  constructor
  · rintro ⟨_, rfl, _, _, rfl, ⟨i, rfl⟩, _, _, rfl, ⟨j, rfl⟩, rfl⟩
    exact ⟨i, j, rfl⟩
  · rintro ⟨i, j, rfl⟩
    exact ⟨_, rfl, _, _, rfl, ⟨i, rfl⟩, _, _, rfl, ⟨j, rfl⟩, rfl⟩

theorem atUnion {h : Heap} {l : List Ty} {v : Val} : HasTypeAt W h (.app "Union" l) v ↔ HasSomeAt W h l v := by
  rw [HasTypeAt, if_pos rfl]

theorem atOptional {h : Heap} {l : List Ty} {v : Val} : HasTypeAt W h (.app "Optional" l) v ↔ v = .none ∨ HasSomeAt W h l v := by
  rw [HasTypeAt, if_neg (by decide), if_pos rfl]

theorem atIterable {h : Heap} {t : Ty} {v : Val} :
    HasTypeAt W h (.app "Iterable" [t]) v ↔ ∃ vs, HasElements h v vs ∧ ∀ y ∈ vs, HasTypeAt W h t y := by
  rw [HasTypeAt, if_neg (by decide), if_neg (by decide), if_neg (by decide), if_pos rfl]
  simp only [HasSomeAt, or_false]

theorem atPair {h : Heap} {t u : Ty} {v : Val} :
    HasTypeAt W h (.app "Tuple" [t, u]) v ↔ ∃ x y, v = .tuple [x, y] ∧ HasTypeAt W h t x ∧ HasTypeAt W h u y := by
  rw [HasTypeAt, if_neg (by decide), if_neg (by decide), if_pos rfl]
  simp only [HasTypesAt]
  constructor
  · rintro ⟨_, rfl, x, _, rfl, hx, y, _, rfl, hy, rfl⟩
    exact ⟨x, y, rfl, hx, hy⟩
  · rintro ⟨x, y, rfl, hx, hy⟩
    exact ⟨_, rfl, x, _, rfl, hx, y, _, rfl, hy, rfl⟩

/-- The values of `where`. -/
def whereTy : Ty := .app "Union" [.name "Signature", .app "Tuple" [.name "int", .name "int"], .none]

theorem where_arg {h : Heap} {v : Val} (hv : HasTypeAt W h whereTy v) :
    ∃ pos : Option SigArg, IsWhere pos v ∧ ∀ s, pos = some s → s.Valid := by
  rw [whereTy, atUnion] at hv
  simp only [HasSomeAt, atSignature, atInts, or_false] at hv
  rw [show HasTypeAt W h .none v ↔ v = .none by rw [HasTypeAt]] at hv
  rcases hv with ⟨s, hs, rfl⟩ | ⟨i, j, rfl⟩ | rfl
  · exact ⟨some (.sig s), .arg _ _ (by simp [sigV]) (.sig s), by rintro _ ⟨⟩; exact hs⟩
  · exact ⟨some (.ints [i, j]), .arg _ _ (by simp) (.tuple [i, j]), by rintro _ ⟨⟩; trivial⟩
  · exact ⟨none, .default, by simp⟩

theorem signature_arg {h : Heap} {v : Val} (hv : HasTypeAt W h durationTy v) : ∃ s : SigArg, IsSigArg s v ∧ s.Valid := by
  rw [durationTy, atUnion] at hv
  simp only [HasSomeAt, atSignature, atInts, or_false] at hv
  rcases hv with ⟨s, hs, rfl⟩ | ⟨i, j, rfl⟩
  · exact ⟨_, .sig s, hs⟩
  · exact ⟨_, .tuple [i, j], trivial⟩

theorem notes_what {h : Heap} {l : Nat} : ∀ {vs : List Val}, (∀ y ∈ vs, HasTypeAt W h (.name "Note") y) →
    ∃ ws : List What, IsWhats h l ws vs ∧ ∀ n ∈ What.notesList ws, n.Valid
  | [], _ => ⟨[], rfl, by simp [What.notesList]⟩
  | y :: vs, hv => by
    obtain ⟨ws, h1, h2⟩ := notes_what (vs := vs) (fun y hy => hv y (List.mem_cons_of_mem _ hy))
    obtain ⟨n, hn, rfl⟩ := atNote.mp (hv y (by simp))
    refine ⟨.note n :: ws, ?_, ?_⟩
    · rw [IsWhats]
      exact ⟨_, _, rfl, by rw [IsWhat], h1⟩
    · intro m hm
      simp only [What.notesList, What.notes, List.cons_append, List.nil_append, List.mem_cons] at hm
      rcases hm with rfl | hm
      · exact hn
      · exact h2 m hm

/-- The values of `what`. -/
def whatTy : Ty := .app "Union" [.name "Note", .app "Iterable" [.name "Note"]]

theorem what_arg {h : Heap} {l : Nat} {v : Val} (hv : HasTypeAt W h whatTy v) (hi : ∀ b, v ≠ .iter b) (hl : v ≠ .ref l) :
    ∃ w : What, IsWhat h l w v ∧ w.Valid := by
  rw [whatTy, atUnion] at hv
  simp only [HasSomeAt, atNote, atIterable, or_false] at hv
  rcases hv with ⟨n, hn, rfl⟩ | ⟨vs, he, hv⟩
  · exact ⟨.note n, by rw [IsWhat], by simpa [What.Valid, What.notes] using hn⟩
  · obtain ⟨ws, h1, h2⟩ := notes_what (W := W) (l := l) (fun y hy => atNote.mpr (hv y hy))
    refine ⟨.many ws, ?_, fun n hn => h2 n (by simpa [What.notes] using hn)⟩
    rw [IsWhat]
    refine ⟨vs, h1, ?_⟩
    rcases he with rfl | ⟨b, hb, rfl | rfl⟩
    · exact .inl rfl
    · exact .inr ⟨b, rfl, fun e => hl (by rw [e]), hb⟩
    · exact absurd rfl (hi b)

/-- The pairs of `content`. -/
def placementTy : Ty := .app "Tuple" [.name "Note", whereTy]

theorem placements {h : Heap} {l : Nat} : ∀ {vs : List Val}, (∀ y ∈ vs, HasTypeAt W h placementTy y) →
    ∃ content : List (What × Option SigArg), List.Forall₂ (IsPlacement h l) content vs ∧
      ∀ p ∈ content, p.1.Valid ∧ ∀ s, p.2 = some s → s.Valid
  | [], _ => ⟨[], .nil, by simp⟩
  | y :: vs, hv => by
    obtain ⟨c, h1, h2⟩ := placements (vs := vs) (fun y hy => hv y (List.mem_cons_of_mem _ hy))
    obtain ⟨x, w, rfl, hx, hw⟩ := atPair.mp (hv y (by simp))
    obtain ⟨n, hn, rfl⟩ := atNote.mp hx
    obtain ⟨pos, hp, hpv⟩ := where_arg hw
    refine ⟨(.note n, pos) :: c, .cons ⟨_, _, rfl, by rw [IsWhat], hp⟩ h1, ?_⟩
    intro p hp
    rcases List.mem_cons.mp hp with rfl | hp
    · exact ⟨by simpa [What.Valid, What.notes] using hn, hpv⟩
    · exact h2 p hp

/-- The values of `content`. -/
def contentTy : Ty := .app "Optional" [.app "Iterable" [placementTy]]

theorem content_arg {h : Heap} {v : Val} (hv : HasTypeAt W h contentTy v) (hi : ∀ b, v ≠ .iter b) :
    ∃ content : List (What × Option SigArg), IsContent h h.objs.length content v ∧
      ∀ p ∈ content, p.1.Valid ∧ ∀ s, p.2 = some s → s.Valid := by
  rw [contentTy, atOptional] at hv
  simp only [HasSomeAt, atIterable, or_false] at hv
  rcases hv with rfl | ⟨vs, he, hv⟩
  · exact ⟨[], .inl ⟨rfl, rfl⟩, by simp⟩
  · obtain ⟨c, h1, h2⟩ := placements (l := h.objs.length) hv
    refine ⟨c, .inr ⟨vs, h1, ?_⟩, h2⟩
    rcases he with rfl | ⟨b, hb, rfl | rfl⟩
    · exact .inl rfl
    · exact .inr ⟨b, rfl, (lt_of_at hb).ne, hb⟩
    · exact absurd rfl (hi b)

/-! ### Reachable tracks -/

theorem iter_reachable {t : Melodia.Track} (hr : t.Reachable W.sort) : ((t.iter W.sort).1).Reachable W.sort := by
  simpa [Melodia.Track.run, TrackOp.step] using reachable_run hr [.iterate] (by simp [TrackOp.Valid])

theorem addContent_reachable : ∀ (content : List (What × Option SigArg)) {t t' : Melodia.Track}, t.Reachable W.sort →
    (∀ p ∈ content, p.1.Valid ∧ ∀ s, p.2 = some s → s.Valid) → t.addContent content = .ok t' → t'.Reachable W.sort
  | [], t, t', hr, _, h => by cases h; exact hr
  | (w, p) :: rest, t, t', hr, hv, h => by
    rw [Melodia.Track.addContent] at h
    cases ha : t.add w p with
    | error e => rw [ha] at h; cases h
    | ok u =>
      rw [ha] at h
      obtain ⟨h1, h2⟩ := hv (w, p) (by simp)
      exact addContent_reachable rest (Melodia.Track.Reachable.add hr h1 h2 ha) (fun q hq => hv q (List.mem_cons_of_mem _ hq)) h

theorem new_reachable {s : SigArg} (hs : s.Valid) {content : List (What × Option SigArg)}
    (hv : ∀ p ∈ content, p.1.Valid ∧ ∀ s, p.2 = some s → s.Valid) {t : Melodia.Track} (h : Melodia.Track.new s content = .ok t) :
    t.Reachable W.sort := by
  rw [Melodia.Track.new] at h
  cases hc : s.coerce with
  | error e => rw [hc] at h; cases h
  | ok p =>
    rw [hc] at h
    exact addContent_reachable content (Melodia.Track.Reachable.empty (denotes_valid hs (SigArg.coerce_ok_iff.mp hc))) hv h

/-! ### Heads -/

theorem fitsAt_self {h : Heap} {n : String} {r : Option Ty} {args : List Val}
    (hf : FitsAt W h ⟨some "Track", n, [("self", none)], r⟩ args) : ∃ a l t, args = [.ref a] ∧ TrackAt h a l t ∧ t.Reachable W.sort := by
  cases args with
  | nil => obtain ⟨ts, h1, -⟩ := hf; cases ts <;> simp at h1
  | cons v vs =>
    obtain ⟨⟨_, ⟨⟩, h1⟩, ts, h2, h3⟩ := hf
    obtain ⟨a, l, t, rfl, h4⟩ := atTrack.mp h1
    cases ts with
    | cons _ _ => simp at h2
    | nil => rw [HasTypesAt] at h3; exact ⟨a, l, t, by rw [h3], h4⟩

theorem fitsAt_more {h : Heap} {n : String} {l : List (String × Option Ty)} {ts : List Ty} (hl : l.map Prod.snd = ts.map some) {r : Option Ty}
    {args : List Val} (hf : FitsAt W h ⟨some "Track", n, ("self", none) :: l, r⟩ args) :
    ∃ a m t vs, args = .ref a :: vs ∧ TrackAt h a m t ∧ t.Reachable W.sort ∧ HasTypesAt W h ts vs := by
  cases args with
  | nil => obtain ⟨ts, h1, -⟩ := hf; cases ts <;> simp at h1
  | cons v vs =>
    obtain ⟨⟨_, ⟨⟩, h1⟩, us, h2, h3⟩ := hf
    obtain ⟨a, m, t, rfl, h1, h4⟩ := atTrack.mp h1
    obtain rfl := fits_types (hl.symm.trans h2)
    exact ⟨a, m, t, vs, rfl, h1, h4, h3⟩

theorem trackClass {c : ClassDef} (hc : c ∈ program.classes) (hm : c.mod = "melodia.core.track") : c = Track.classDef := by
  have h : program.classes.filter (fun c => decide (c.mod = "melodia.core.track")) = [Track.classDef] := by kernel_rfl
  have : c ∈ [Track.classDef] := by rw [← h, List.mem_filter]; exact ⟨hc, by simpa using hm⟩
  simpa using this

theorem processingFunction {f : FunDef} (hf : f ∈ program.functions) (hm : f.mod = "melodia.processing.track") :
    f = processing.randomize_velocities := by
  have h : program.functions.filter (fun f => decide (f.mod = "melodia.processing.track")) = [processing.randomize_velocities] := by kernel_rfl
  have : f ∈ [processing.randomize_velocities] := by rw [← h, List.mem_filter]; exact ⟨hf, by simpa using hm⟩
  simpa using this

/-! ### The methods -/

section
variable {h : Heap} {a l : Nat} {t : Melodia.Track}

theorem track_signature_call (ht : TrackAt h a l t) : callFun program W Track.signature [.ref a] [] h = some (.ok (sigV t.signature) h) := by
  rw [callFun_run program W (vars := [("self", .ref a)]) (by simp [py, Track.signature]) rfl
      (r := .ret (sigV t.signature) (selfEnv a)) (h1 := h)]
  · rfl
  · exact execB_ret _ _ (execS_ret program W (evalE_attr _ _ rfl ht.obj rfl))

theorem track_length_call (ht : TrackAt h a l t) : callFun program W Track.length [.ref a] [] h = some (.ok (sigV t.length) h) := by
  rw [callFun_run program W (vars := [("self", .ref a)]) (by simp [py, Track.length]) rfl
      (r := .ret (sigV t.length) (selfEnv a)) (h1 := h)]
  · rfl
  · exact execB_ret _ _ (execS_ret program W (evalE_attr _ _ rfl ht.obj rfl))

theorem track_len_call (ht : TrackAt h a l t) : callFun program W Track.dunder_len [.ref a] [] h = some (.ok (.int t.len) h) := by
  rw [callFun_run program W (vars := [("self", .ref a)]) (by simp [py, Track.dunder_len]) rfl
      (r := .ret (.int t.len) (selfEnv a)) (h1 := h)]
  · rfl
  · exact execB_ret _ _ (execS_ret program W (len_heap W ht))

theorem track_str_call (ht : TrackAt h a l t) : callFun program W Track.dunder_str [.ref a] [] h = some (.ok (.str t.str) h) := by
  have h1 := track_str_ok W ht
  rw [callBuiltin.eq_def] at h1
  simp only at h1
  rw [format.eq_def, bind_assoc, bind_ok (methodOf_ref_ok _ _ ht.obj)] at h1
  simp only [track_str] at h1
  rw [bind_assoc] at h1
  cases hc : callFun program W Track.dunder_str [.ref a] [] h with
  | none => simp [bind, hc] at h1
  | some r =>
    cases r with
    | err e h2 => rw [bind_err hc] at h1; cases h1
    | ok v h2 =>
      rw [bind_ok hc] at h1
      cases v <;> first | (cases h1; rfl) | (cases h1)

theorem track_repr_call (hN : W.sort.Natural) (ht : TrackAt h a l t) (hwf : t.WF) :
    ∃ h', callFun program W Track.dunder_repr [.ref a] [] h = some (.ok (.str (t.repr W.sort W.floatText).2) h') ∧
      Becomes h h' a l l (t.iter W.sort).1 := by
  obtain ⟨h', h1, h2⟩ := track_repr_ok W hN ht hwf
  refine ⟨h', ?_, h2⟩
  rw [callBuiltin.eq_def] at h1
  simp only at h1
  rw [bind_ok (methodOf_ref_ok _ _ ht.obj)] at h1
  simpa only [track_repr] using h1

end

end Melodia.Source
