/-
track.py: executing the text agrees with the model (Verif/Model/Track.lean). Tracks live in memory, at two addresses: the
object and the list its slot `_heap` refers to.
-/
import Verif.Spec.SourceTrack
import Verif.Lemmas.Track
import Verif.Lemmas.Dict

set_option autoImplicit false

namespace Melodia

open Melodia.Python

theorem TrackAt.ne {h : Heap} {a l : Nat} {t : Track} (ht : TrackAt h a l t) : a ≠ l := by
  rintro rfl
  have := ht.obj.symm.trans ht.list
  simp at this

namespace Source

variable (W : World)

/-! ### Names and methods -/

@[py] theorem track_init : program.method "Track" "__init__" = some Track.dunder_init := by rfl
@[py] theorem track_signature : program.method "Track" "signature" = some Track.signature := by rfl
@[py] theorem track_length : program.method "Track" "length" = some Track.length := by rfl
@[py] theorem track_add : program.method "Track" "add" = some Track.add := by rfl
@[py] theorem track_eq : program.method "Track" "__eq__" = some Track.dunder_eq := by rfl
@[py] theorem track_iter : program.method "Track" "__iter__" = some Track.dunder_iter := by rfl
@[py] theorem track_len : program.method "Track" "__len__" = some Track.dunder_len := by rfl
@[py] theorem track_str : program.method "Track" "__str__" = some Track.dunder_str := by rfl
@[py] theorem track_repr : program.method "Track" "__repr__" = some Track.dunder_repr := by rfl
@[py] theorem track_class : program.classOf "Track" = some Track.classDef := by rfl
@[py] theorem track_mutable : Track.classDef.mutable = true := by rfl

@[py] theorem track_name_sig : globalName program W "melodia.core.track" "Signature" = pure (.cls "Signature") := by
  rw [globalName]; rfl
@[py] theorem track_name_isinstance :
    globalName program W "melodia.core.track" "isinstance" = pure (.builtin .isinstance) := by rw [globalName]; rfl
@[py] theorem track_name_iterable :
    globalName program W "melodia.core.track" "Iterable" = pure (.builtin .iterable) := by rw [globalName]; rfl
@[py] theorem track_name_type : globalName program W "melodia.core.track" "TypeError" = pure (.excClass .typeError) := by
  rw [globalName]; rfl
@[py] theorem track_name_heapq : globalName program W "melodia.core.track" "heapq" = pure (.module "heapq") := by
  rw [globalName]; rfl
@[py] theorem track_name_len : globalName program W "melodia.core.track" "len" = pure (.builtin .len) := by
  rw [globalName]; rfl
@[py] theorem track_name_str : globalName program W "melodia.core.track" "str" = pure (.builtin .str) := by
  rw [globalName]; rfl
@[py] theorem track_name_repr : globalName program W "melodia.core.track" "repr" = pure (.builtin .repr) := by
  rw [globalName]; rfl
@[py] theorem track_name_zip : globalName program W "melodia.core.track" "zip" = pure (.builtin .zip) := by
  rw [globalName]; rfl
@[py] theorem track_name_iter : globalName program W "melodia.core.track" "iter" = pure (.builtin .iter) := by
  rw [globalName]; rfl
@[py] theorem heapq_heappush : getAttr program W (.module "heapq") "heappush" = pure (.builtin .heappush) := by
  rw [getAttr.eq_def]; rfl

@[py] theorem sub_note_sig : program.isSubclass 3 "Note" "Signature" = false := by rfl

/-! ### Comparison of entries -/

/-- Denominators that can be compared. -/
def EntryOk (e : Entry) : Prop := e.1.denominator ≠ 0 ∧ e.2.duration.denominator ≠ 0

theorem entry_lt {a b : Entry} (ha : EntryOk a) (hb : EntryOk b) :
    richCmp program W .lt (entryV a) (entryV b) = pure (.bool (entryLt a b)) := by
  rw [entryV, entryV, richCmp_tuple, tupleCmp.eq_def]
  simp only
  rw [signature_eq W _ _ ha.1 hb.1, entryLt]
  simp only [py]
  cases a.1.eq b.1
  · simp [py, signature_lt W _ _ ha.1 hb.1]
  · simp only [py]
    rw [tupleCmp.eq_def]
    simp only
    rw [note_eq_ok W ha.2 hb.2]
    simp only [py]
    cases a.2.eq b.2
    · simp [py, note_lt_ok W ha.2 hb.2]
    · simp only [py]
      rw [tupleCmp]
      simp [py, intCmp]

/-- `heapq._siftdown`. -/
theorem sift_ok : ∀ (n : Nat) (l : List Entry) (pos : Nat), (∀ e ∈ l, EntryOk e) → pos < l.length → pos ≤ n →
    sift program W (l.map entryV) pos = pure ((siftDown entryLt n l pos).map entryV) := by
  intro n
  induction n with
  | zero =>
    intro l pos hl hp hn
    rw [sift, siftDown, if_pos (by omega)]
  | succ n ih =>
    intro l pos hl hp hn
    rw [sift, siftDown]
    by_cases h0 : pos = 0
    · rw [if_pos h0, if_pos h0]
    · have hq : (pos - 1) / 2 < l.length := by omega
      rw [if_neg h0, if_neg h0, List.getElem?_map, List.getElem?_map, List.getElem?_eq_getElem hp,
        List.getElem?_eq_getElem hq]
      simp only [Option.map_some, List.getElem?_eq_getElem hq]
      rw [entry_lt W (hl _ (List.getElem_mem hp)) (hl _ (List.getElem_mem hq))]
      simp only [py]
      by_cases hlt : entryLt l[pos] l[(pos - 1) / 2]
      · simp only [hlt, if_true]
        rw [← ih _ _ _ (by simpa using hq) (by omega)]
        · rw [List.map_set, List.map_set]
        · intro e he
          rcases List.mem_or_eq_of_mem_set he with he | rfl
          · rcases List.mem_or_eq_of_mem_set he with he | rfl
            · exact hl e he
            · exact hl _ (List.getElem_mem hq)
          · exact hl _ (List.getElem_mem hp)
      · simp [hlt]

/-- `heapq.heappush`. -/
theorem heappush_ok {h : Heap} {a : Nat} {l : List Entry} {e : Entry} (ha : h.objs[a]? = some (.list (l.map entryV)))
    (hl : ∀ x ∈ l, EntryOk x) (he : EntryOk e) :
    callBuiltin program W .heappush [.ref a, entryV e] [] h =
      some (.ok .none (h.put a (.list ((heapPush entryLt l e).map entryV)))) := by
  have hs := sift_ok W (l ++ [e]).length (l ++ [e]) l.length (by
    intro x hx
    rcases List.mem_append.mp hx with hx | hx
    · exact hl x hx
    · rw [List.mem_singleton.mp hx]; exact he) (by simp) (by simp)
  rw [callBuiltin.eq_def]
  simp only
  rw [bind_ok (load_ok ha)]
  simp only [List.length_map]
  rw [show l.map entryV ++ [entryV e] = (l ++ [e]).map entryV by simp, hs, pure_bind]
  rfl

/-! ### `Track.add` -/

/-- The variables of `Track.add` after its first statement. -/
def addEnv (a : Nat) (v w : Val) (rest : List (String × Val)) : Env :=
  { mod := "melodia.core.track", vars := [("self", .ref a), ("what", v), ("where", w)] ++ rest }

/-- The first statement of `Track.add`. -/
theorem add_position {h : Heap} {a l : Nat} {t : Melodia.Track} (ht : TrackAt h a l t) (v : Val) {pos : Option SigArg} {w : Val}
    (hw : IsWhere pos w) :
    (∀ p, t.posOf pos = .ok p → execB program W (Track.add.body.take 1) (addEnv a v w []) h =
      some (.ok (.next (addEnv a v w [("position", sigV p)])) h)) ∧
    (∀ e, t.posOf pos = .error e → execB program W (Track.add.body.take 1) (addEnv a v w []) h = some (.err e h)) := by
  cases hw with
  | default =>
    refine ⟨fun p hp => ?_, fun e he => by cases he⟩
    cases hp
    have hm : evalE program W (.attr (.name "self") "_max_position") (addEnv a v .none []) h =
        some (.ok (sigV t.maxPosition) h) := evalE_attr _ _ rfl ht.obj rfl
    simp only [Track.add, List.take]
    rw [execB_next]
    · exact execB_nil _ _ _ _
    · rw [execS_ite (b := true) (h1 := h)]
      · rw [if_pos rfl, execB_next _ _ (execS_setname _ _ hm (by simp [addEnv, py])), execB_nil]
        rfl
      · simp [py, addEnv, compareOp]
        rfl
  | arg s w hv hs =>
    have : execB program W (Track.add.body.take 1) (addEnv a v w []) = (do
        let p ← liftPy s.coerce
        pure (.next (addEnv a v w [("position", sigV p)]))) := by
      cases hs with
      | tuple l =>
        simp [py, Track.add, callBuiltin, isInstance, isInstance1, SigArg.coerce, signature_iter, addEnv, primIterable,
          compareOp]
        cases Melodia.Signature.ofIter l <;> rfl
      | none => exact absurd rfl hv
      | _ => simp [py, Track.add, callBuiltin, isInstance, isInstance1, toneV, sigV, SigArg.coerce, addEnv, primIterable,
          compareOp]
    rw [this]
    unfold Melodia.Track.posOf
    refine ⟨fun p hp => ?_, fun e he => ?_⟩
    · simp only at hp; rw [hp]; rfl
    · simp only at he; rw [he]; rfl

/-- A track with the positions at another denominator. -/
def rescaled (t : Melodia.Track) (d : Int) : Melodia.Track :=
  ⟨t.signature, d, t.maxPosition, t.heap.map (fun x => (x.1.scaleTo d, x.2)), t.sorted⟩

/-- The statement of `Track.add` that makes the denominators larger. -/
theorem add_denominator {h : Heap} {a l : Nat} {t : Melodia.Track} (ht : TrackAt h a l t) (hwf : t.WF) (v w : Val)
    {p : Melodia.Signature} (hp : p.Valid) (n : Val) :
    ∃ h' l', execB program W ((Track.add.body.drop 3).take 1) (addEnv a v w [("position", sigV p), ("note", n)]) h =
        some (.ok (.next (addEnv a v w [("position", sigV p), ("note", n)])) h') ∧
      TrackAt h' a l' (rescaled t (max t.maxDenominator p.denominator)) ∧
      Frame (· = a) h h' ∧ (l' = l ∨ h.objs.length ≤ l') := by
  have hc : evalE program W (.cmp (.attr (.name "position") "denominator") [.gt] [.attr (.name "self") "_max_denominator"])
      (addEnv a v w [("position", sigV p), ("note", n)]) h =
      some (.ok (.bool (decide (p.denominator > t.maxDenominator))) h) := by
    rw [evalE_cmp program W ((evalE_attr_of _ _ (evalE_name _ _ rfl rfl h)).trans (by rw [signature_denominator]; rfl))
      (evalE_attr _ _ rfl ht.obj rfl)]
    simp only [py]
    rfl
  simp only [Track.add, List.drop, List.take]
  rw [execB, bind_apply, execS_ite _ _ _ _ hc]
  by_cases hd : p.denominator > t.maxDenominator
  · have hmax : max t.maxDenominator p.denominator = p.denominator := max_eq_right hd.le
    rw [hmax]
    have h1 : evalE program W (.attr (.name "position") "denominator") (addEnv a v w [("position", sigV p), ("note", n)]) h =
        some (.ok (.int p.denominator) h) := by
      rw [evalE_attr_of _ _ (evalE_name _ _ rfl rfl h), signature_denominator]; rfl
    have s1 := execS_setattr (s := "self") (x := "_max_denominator") program W h1 rfl ht.obj
    set h2 := h.put a (.inst "Track" (Dict.set (trackFields t l) "_max_denominator" (.int p.denominator))) with hh2
    have ho : h2.objs[a]? = some (.inst "Track" (Dict.set (trackFields t l) "_max_denominator" (.int p.denominator))) :=
      Heap.put_at ht.obj
    have hl : h2.objs[l]? = some (.list (t.heap.map entryV)) := by rw [hh2, Heap.put_ne ht.ne.symm]; exact ht.list
    have hcomp := compLoop_list program W
      (elt := .tuple [.call (.attr (.name "s") "to") [.attr (.name "self") "_max_denominator"] [], .name "n"])
      (p := .tuple [.name "s", .name "n"]) (env := addEnv a v w [("position", sigV p), ("note", n)])
      entryV (fun e => entryV (e.1.scaleTo p.denominator, e.2)) hl
      (by
        intro e he
        obtain ⟨e1, e2, -⟩ := hwf.entries e he
        simp only [entryV, bindPat, unpack, bindPats, pure_bind]
        have hto : (e.1.toDen p.denominator).map sigV = .ok (sigV (e.1.scaleTo p.denominator)) := by
          rw [Signature.toDen_ok e1 hp.den (by rw [e2]; exact hd.le)]; rfl
        refine evalE_tuple _ _ (evalArgs_cons _ _ (by simp) ?_ (evalArgs_cons _ _ (by simp)
          (evalE_name _ _ rfl rfl _) (evalArgs_nil _ _ _ _)))
        rw [evalE_call program W ((evalE_attr_of _ _ (evalE_name _ _ rfl rfl _)).trans (by rw [sigV_to]; rfl))
          (evalArgs_cons _ _ (by simp) (evalE_attr _ _ rfl ho rfl) (evalArgs_nil _ _ _ _)), signature_to W _ e1.denPos.ne', hto]
        rfl)
    have hr : evalE program W (.attr (.name "self") "_heap") (addEnv a v w [("position", sigV p), ("note", n)]) h2 =
        some (.ok (.ref l) h2) := evalE_attr _ _ rfl ho rfl
    have s2 := execS_setattr (s := "self") (x := "_heap") program W (evalE_comp program W hr
      (getIter_ref_list _ _ hl) hcomp) rfl (Heap.push_old ho)
    refine ⟨(h2.push (.list (t.heap.map (fun e => entryV (e.1.scaleTo p.denominator, e.2))))).put a
      (.inst "Track" (trackFields (rescaled t p.denominator) h2.objs.length)), h2.objs.length, ?_,
      ⟨Heap.put_at (Heap.push_old ho), ?_⟩, ?_, .inr (by rw [hh2]; simp)⟩
    · simp only [hd, decide_true, if_true]
      rw [execB_next _ _ s1, execB_next _ _ s2, execB_nil]
      simp only [execB_nil]
      rfl
    · rw [Heap.put_ne (lt_of_at ho).ne']
      rw [Heap.push_at]
      simp [rescaled]
    · refine ((Frame.put h a _).trans (Frame.push _ _) (U := (· = a)) (fun _ => id) (by simp)).trans (Frame.put _ a _)
        (fun _ => id) (fun _ _ => id)
  · have hmax : max t.maxDenominator p.denominator = t.maxDenominator := max_eq_left (not_lt.mp hd)
    have hr : rescaled t t.maxDenominator = t := by
      have : t.heap.map (fun x => (x.1.scaleTo t.maxDenominator, x.2)) = t.heap := by
        conv_rhs => rw [← List.map_id t.heap]
        apply List.map_congr_left
        intro x hx
        obtain ⟨h1, h2, -⟩ := hwf.entries x hx
        rw [← h2, Melodia.Track.scaleTo_self h1]
        rfl
      rw [rescaled, this]
    refine ⟨h, l, ?_, by rw [hmax, hr]; exact ht, Frame.refl _ _, .inl rfl⟩
    simp only [hd, decide_false]
    rw [execB_nil]
    simp [execB_nil]

/-- The statements of `Track.add` after that, for one note. -/
theorem add_insert {h : Heap} {a l : Nat} {t : Melodia.Track} (ht : TrackAt h a l t)
    (hent : ∀ e ∈ t.heap, EntryOk e) (hmp : t.maxPosition.Valid) (v w : Val)
    {p q e : Melodia.Signature} (hp : p.Valid) (hq : p.toDen t.maxDenominator = .ok q) (hqv : q.Valid)
    {n : Melodia.Note} (hn : n.Valid) (he : q.add n.duration = .ok e) (hev : e.Valid) :
    ∃ h' env', execB program W (Track.add.body.drop 4) (addEnv a v w [("position", sigV p), ("note", noteV n)]) h =
        some (.ok (.next env') h') ∧
      TrackAt h' a l ⟨t.signature, t.maxDenominator, if e.gt t.maxPosition then e else t.maxPosition,
        heapPush entryLt t.heap (q, n), false⟩ ∧ Frame (fun b => b = a ∨ b = l) h h' := by
  simp only [Track.add, List.drop]
  have e1 : evalE program W (.call (.attr (.name "position") "to") [.attr (.name "self") "_max_denominator"] [])
      (addEnv a v w [("position", sigV p), ("note", noteV n)]) h = some (.ok (sigV q) h) := by
    rw [evalE_call program W ((evalE_attr_of _ _ (evalE_name _ _ rfl rfl _)).trans (by rw [sigV_to]; rfl))
      (evalArgs_cons _ _ (by simp) (evalE_attr _ _ rfl ht.obj rfl) (evalArgs_nil _ _ _ _)),
      signature_to W _ hp.denPos.ne', hq]
    rfl
  rw [execB_next _ _ (execS_setname _ _ e1 (by simp [addEnv, py]))]
  set env := (addEnv a v w [("position", sigV p), ("note", noteV n)]).set "position_transformed" (sigV q) with henv
  have e2 : evalE program W (.call (.attr (.name "heapq") "heappush") [.attr (.name "self") "_heap",
      .tuple [.name "position_transformed", .name "note"]] []) env h =
      some (.ok .none (h.put l (.list ((heapPush entryLt t.heap (q, n)).map entryV)))) := by
    rw [evalE_call program W ((evalE_attr_of _ _ (evalE_global _ _ rfl (track_name_heapq W) h)).trans
      (by rw [heapq_heappush]; rfl)) (evalArgs_cons _ _ (by simp) (evalE_attr _ _ rfl ht.obj rfl)
      (evalArgs_cons _ _ (by simp) (evalE_tuple _ _ (evalArgs_cons _ _ (by simp) (evalE_name _ _ rfl rfl _)
      (evalArgs_cons _ _ (by simp) (evalE_name _ _ rfl rfl _) (evalArgs_nil _ _ _ _)))) (evalArgs_nil _ _ _ _))), call_builtin]
    exact heappush_ok W (e := (q, n)) ht.list hent ⟨hqv.denPos.ne', hn.duration.denPos.ne'⟩
  rw [execB_next _ _ (execS_expr _ _ e2)]
  set h1 := h.put l (.list ((heapPush entryLt t.heap (q, n)).map entryV)) with hh1
  have o1 : h1.objs[a]? = some (.inst "Track" (trackFields t l)) := by rw [hh1, Heap.put_ne ht.ne]; exact ht.obj
  have l1 : h1.objs[l]? = some (.list ((heapPush entryLt t.heap (q, n)).map entryV)) := Heap.put_at ht.list
  have e3 : evalE program W (.bool false) env h1 = some (.ok (.bool false) h1) := by rw [evalE]; rfl
  rw [execB_next _ _ (execS_setattr _ _ e3 (by rfl) o1)]
  set h2 := h1.put a (.inst "Track" (Dict.set (trackFields t l) "_sorted" (.bool false))) with hh2
  have o2 : h2.objs[a]? = some (.inst "Track" (Dict.set (trackFields t l) "_sorted" (.bool false))) := Heap.put_at o1
  have l2 : h2.objs[l]? = some (.list ((heapPush entryLt t.heap (q, n)).map entryV)) := by
    rw [hh2, Heap.put_ne ht.ne.symm]; exact l1
  have e4 : evalE program W (.bin .add (.name "position_transformed") (.attr (.name "note") "duration")) env h2 =
      some (.ok (sigV e) h2) := by
    rw [evalE_bin program W (evalE_name _ _ rfl rfl _) ((evalE_attr_of _ _ (evalE_name _ _ rfl rfl _)).trans
      (by rw [note_duration_ok]; rfl)), signature_add W _ _ hqv.denPos.ne' hn.duration.denPos.ne', he]
    rfl
  rw [execB_next _ _ (execS_setname _ _ e4 (by simp [henv, addEnv, py, Env.set]))]
  set env2 := env.set "end_position" (sigV e) with henv2
  have e5 : evalE program W (.cmp (.name "end_position") [.gt] [.attr (.name "self") "_max_position"]) env2 h2 =
      some (.ok (.bool (e.gt t.maxPosition)) h2) := by
    rw [evalE_cmp program W (evalE_name _ _ rfl rfl _) (evalE_attr _ _ rfl o2 rfl), compareOp_gt,
      signature_gt W _ _ hev.denPos.ne' hmp.denPos.ne']
    rfl
  have f2 : Frame (fun b => b = a ∨ b = l) h h2 :=
    (Frame.put h l _).trans (Frame.put _ a _) (fun _ h => .inr h) (fun _ _ h => .inl h)
  rw [execB, bind_apply, execS_ite _ _ _ _ e5]
  by_cases hg : e.gt t.maxPosition
  · have e6 : evalE program W (.name "end_position") env2 h2 = some (.ok (sigV e) h2) := evalE_name _ _ rfl rfl _
    refine ⟨h2.put a (.inst "Track" (Dict.set (Dict.set (trackFields t l) "_sorted" (.bool false)) "_max_position"
      (sigV e))), env2, ?_, ⟨?_, ?_⟩, f2.trans (Frame.put _ a _) (fun _ => id) (fun _ _ h => .inl h)⟩
    · simp only [hg, if_true]
      rw [execB_next _ _ (execS_setattr _ _ e6 (by rfl) o2), execB_nil]
      simp only [execB_nil]
    · rw [Heap.put_at o2]
      simp only [hg, if_true]
      rfl
    · rw [Heap.put_ne ht.ne.symm]; exact l2
  · refine ⟨h2, env2, ?_, ⟨?_, l2⟩, f2⟩
    · simp [hg, execB_nil]
    · rw [o2]
      simp only [hg]
      rfl

/-! ### Memory that a track does not share -/

mutual
theorem isWhat_frame {h h' : Heap} {a l l' : Nat} {t : Melodia.Track} (ht : TrackAt h a l t) (hf : Frame (Own a l) h h')
    (hl : l' = l ∨ h.objs.length ≤ l') (w : What) (v : Val) (hw : IsWhat h l w v) : IsWhat h' l' w v := by
  cases w with
  | note n => rw [IsWhat] at hw ⊢; exact hw
  | many ws =>
    rw [IsWhat] at hw ⊢
    obtain ⟨vs, h1, h2⟩ := hw
    refine ⟨vs, isWhats_frame ht hf hl ws vs h1, ?_⟩
    rcases h2 with h2 | ⟨b, rfl, hb, hv⟩
    · exact .inl h2
    · refine .inr ⟨b, rfl, ?_, hf.at hv ?_⟩
      · rcases hl with rfl | hl
        · exact hb
        · exact ((lt_of_at hv).trans_le hl).ne
      · rintro (rfl | rfl)
        · rw [ht.obj] at hv; cases hv
        · exact hb rfl
theorem isWhats_frame {h h' : Heap} {a l l' : Nat} {t : Melodia.Track} (ht : TrackAt h a l t) (hf : Frame (Own a l) h h')
    (hl : l' = l ∨ h.objs.length ≤ l') (ws : List What) (vs : List Val) (hw : IsWhats h l ws vs) : IsWhats h' l' ws vs := by
  cases ws with
  | nil => rw [IsWhats] at hw ⊢; exact hw
  | cons w ws =>
    rw [IsWhats] at hw ⊢
    obtain ⟨x, xs, h1, h2, h3⟩ := hw
    exact ⟨x, xs, h1, isWhat_frame ht hf hl w x h2, isWhats_frame ht hf hl ws xs h3⟩
end

/-- An iterator over a tuple, or over a list other than the one at `l`. -/
def IterAt (h : Heap) (l : Nat) (it : Val) (vs : List Val) : Prop :=
  it = .tuple vs ∨ ∃ b, it = .iter b ∧ b ≠ l ∧ h.objs[b]? = some (.list vs)

theorem iterAt_frame {h h' : Heap} {a l l' : Nat} {t : Melodia.Track} (ht : TrackAt h a l t) (hf : Frame (Own a l) h h')
    (hl : l' = l ∨ h.objs.length ≤ l') {it : Val} {vs : List Val} (hi : IterAt h l it vs) : IterAt h' l' it vs := by
  rcases hi with h2 | ⟨b, rfl, hb, hv⟩
  · exact .inl h2
  · refine .inr ⟨b, rfl, ?_, hf.at hv ?_⟩
    · rcases hl with rfl | hl
      · exact hb
      · exact ((lt_of_at hv).trans_le hl).ne
    · rintro (rfl | rfl)
      · rw [ht.obj] at hv; cases hv
      · exact hb rfl

theorem iterAt_item {h : Heap} {l : Nat} {it : Val} {vs : List Val} (hi : IterAt h l it vs) (i : Nat) :
    itemAt h it i = vs[i]? := by
  rcases hi with rfl | ⟨b, rfl, -, hv⟩
  · rfl
  · simp only [itemAt, hv]

theorem own_trans {h h1 h2 : Heap} {a l l1 l2 : Nat} (f : Frame (Own a l) h h1) (g : Frame (Own a l1) h1 h2)
    (hl : l1 = l ∨ h.objs.length ≤ l1) (hl2 : l2 = l1 ∨ h1.objs.length ≤ l2) :
    Frame (Own a l) h h2 ∧ (l2 = l ∨ h.objs.length ≤ l2) := by
  refine ⟨f.trans g (fun _ => id) ?_, ?_⟩
  · rintro b hb (rfl | rfl)
    · exact .inl rfl
    · rcases hl with rfl | hl
      · exact .inr rfl
      · exact absurd hb (not_lt.mpr hl)
  · rcases hl2 with rfl | hl2
    · exact hl
    · exact .inr (f.len.trans hl2)

/-! ### `Track.add`, once the position is known -/

theorem Becomes.trans {h h1 h2 : Heap} {a l l1 l2 : Nat} {t1 t2 : Melodia.Track} (f : Becomes h h1 a l l1 t1)
    (g : Becomes h1 h2 a l1 l2 t2) : Becomes h h2 a l l2 t2 :=
  ⟨g.track, (own_trans f.frame g.frame f.addr g.addr).1, (own_trans f.frame g.frame f.addr g.addr).2⟩

/-- One note. -/
theorem add_note_run {h : Heap} {a l : Nat} {t : Melodia.Track} (ht : TrackAt h a l t) (hwf : t.WF) {n : Melodia.Note}
    (hn : n.Valid) {p : Melodia.Signature} (hp : p.Valid) (w : Val) :
    ∃ h' l' t' env', t.addNote n p = .ok t' ∧ t'.WF ∧ execB program W (Track.add.body.drop 1)
        (addEnv a (noteV n) w [("position", sigV p)]) h = some (.ok (.next env') h') ∧ Becomes h h' a l l' t' := by
  obtain ⟨t', e, h1, h2, h3, h4, -, h6, h7, h8, h9, h10, h11⟩ := Melodia.Track.addNote_spec hwf hn hp
  obtain ⟨hA, lA, a1, a2, a3, a4⟩ := add_denominator W ht hwf (noteV n) w hp (noteV n)
  have hd2 : IsPow2 (max t.maxDenominator p.denominator) := by rw [← h4]; exact h2.den
  have hq : p.toDen (max t.maxDenominator p.denominator) = .ok (p.scaleTo (max t.maxDenominator p.denominator)) :=
    Signature.toDen_ok hp hd2 (le_max_right _ _)
  have hqv := Melodia.Track.scaleTo_valid hp hd2
  obtain ⟨e', he1, he2, he3, he4⟩ := Signature.add_ok hqv hn.duration
  have hee : e' = e := by
    refine Signature.ext_val he2 ?_ ?_
    · rw [he4, h8]; rfl
    · rw [he3, h7, Melodia.Track.scaleTo_val hp hd2 (le_max_right _ _)]
  subst hee
  obtain ⟨hB, env', b1, b2, b3⟩ := add_insert W (t := rescaled t (max t.maxDenominator p.denominator)) a2 (by
    intro x hx
    simp only [rescaled, List.mem_map] at hx
    obtain ⟨y, hy, rfl⟩ := hx
    obtain ⟨y1, -, y3⟩ := hwf.entries y hy
    exact ⟨hd2.pos.ne', y3.duration.denPos.ne'⟩) hwf.pos (noteV n) w hp hq hqv hn he1 he2
  refine ⟨hB, lA, t', env', h1, h2, ?_, ⟨?_, ?_, a4⟩⟩
  · have hbody : Track.add.body.drop 1 = (Track.add.body.drop 1).take 1 ++ ((Track.add.body.drop 2).take 1 ++
        ((Track.add.body.drop 3).take 1 ++ Track.add.body.drop 4)) := by rfl
    have s1 : execB program W ((Track.add.body.drop 1).take 1) (addEnv a (noteV n) w [("position", sigV p)]) =
        pure (.next (addEnv a (noteV n) w [("position", sigV p)])) := by
      simp [py, Track.add, callBuiltin, isInstance, isInstance1, noteV, addEnv, primIterable]
    have s2 : execB program W ((Track.add.body.drop 2).take 1) (addEnv a (noteV n) w [("position", sigV p)]) =
        pure (.next (addEnv a (noteV n) w [("position", sigV p), ("note", noteV n)])) := by
      simp [py, Track.add, addEnv]
    rw [hbody, execB_append, s1, pure_bind]
    simp only
    rw [execB_append, s2, pure_bind]
    simp only
    rw [execB_append, bind_ok a1]
    simp only
    exact b1
  · obtain ⟨s, d, m, hp', so⟩ := t'
    simp only at h3 h4 h9 h10 h11
    subst h3 h4 h9 h10 h11
    exact b2
  · refine a3.trans b3 (fun _ h => .inl h) ?_
    rintro b hb (rfl | rfl)
    · exact .inl rfl
    · rcases a4 with rfl | h
      · exact .inr rfl
      · exact absurd hb (not_lt.mpr h)

/-- The parameters of `Track.add`. -/
theorem add_params (a : Nat) (x w : Val) : bindParams program W Track.add.params [.ref a] [("what", x), ("where", w)]
    { mod := Track.add.mod, vars := [] } = pure [("self", .ref a), ("what", x), ("where", w)] := by
  simp [py, Track.add]

/-- A whole call of `Track.add`, from the run of the body once the position is known. -/
theorem add_call {h h' : Heap} {a l : Nat} {t : Melodia.Track} (ht : TrackAt h a l t) {x w : Val} {pos : Option SigArg}
    (hw : IsWhere pos w) {p : Melodia.Signature} (hp : t.posOf pos = .ok p) {args : List Val} {kws : List (String × Val)}
    (hb : bindParams program W Track.add.params args kws { mod := Track.add.mod, vars := [] } =
      pure [("self", .ref a), ("what", x), ("where", w)]) {r : Flow}
    (hr : execB program W (Track.add.body.drop 1) (addEnv a x w [("position", sigV p)]) h = some (.ok r h'))
    (hv : r.value = pure .none) :
    callFun program W Track.add args kws h = some (.ok .none h') := by
  have h1 := (add_position W ht x hw).1 p hp
  rw [callFun_run program W hb rfl (r := r) (h1 := h')]
  · rw [hv]; rfl
  · have hbody : Track.add.body = Track.add.body.take 1 ++ Track.add.body.drop 1 := by rfl
    rw [hbody, execB_append]
    rw [show ({ mod := Track.add.mod, vars := [("self", .ref a), ("what", x), ("where", w)] } : Env) = addEnv a x w [] from rfl,
      bind_ok h1]
    exact hr

mutual
/-- A note, or nested notes. -/
theorem add_what_run {h : Heap} {a l : Nat} {t : Melodia.Track} (ht : TrackAt h a l t) (hwf : t.WF) (what : What)
    (hwv : what.Valid) {v : Val} (hv : IsWhat h l what v) {p : Melodia.Signature} (hp : p.Valid) (w : Val) :
    ∃ h' l' t' r, t.addAt what p = .ok t' ∧ t'.WF ∧ execB program W (Track.add.body.drop 1)
        (addEnv a v w [("position", sigV p)]) h = some (.ok r h') ∧ r.value = pure .none ∧ Becomes h h' a l l' t' := by
  cases what with
  | note n =>
    rw [IsWhat] at hv
    subst hv
    obtain ⟨h', l', t', env', h1, h2, h3, h4⟩ := add_note_run W ht hwf (hwv n (by simp [What.notes])) hp w
    exact ⟨h', l', t', _, by rw [Melodia.Track.addAt]; exact h1, h2, h3, rfl, h4⟩
  | many ws =>
    rw [IsWhat] at hv
    obtain ⟨vs, hvs, hv⟩ := hv
    have hex : ∃ it, IterAt h l it vs ∧ getIter program W v h = some (.ok it h) ∧ readVar v = pure v ∧
        (∀ m b c, it ≠ .gen m b c) ∧ isInstance1 program v (.builtin .iterable) h = some (.ok true h) := by
      rcases hv with rfl | ⟨b, rfl, hb, hlist⟩
      · refine ⟨.tuple vs, .inl rfl, by rw [getIter_tuple]; rfl, rfl, by simp, ?_⟩
        simp [isInstance1, py, primIterable]
        rfl
      · refine ⟨.iter b, .inr ⟨b, rfl, hb, hlist⟩, getIter_ref_list _ _ hlist, rfl, by simp, ?_⟩
        rw [isInstance1, bind_ok (methodOf_ref_list _ _ hlist)]
        simp only
        rw [bind_ok (objAt_ref_ok hlist)]
        rfl
    obtain ⟨it, hit, hg, hrv, hng, hinst⟩ := hex
    obtain ⟨h', l', t', env', h1, h2, h3, h4⟩ := add_loop_run ht hwf ws (fun n hn => hwv n (by rwa [What.notes]))
      (vs := vs) hvs (i := 0) (all := vs) (it := it) hit rfl hp (env := addEnv a v w [("position", sigV p)]) rfl rfl rfl
    refine ⟨h', l', t', .ret .none env', by rw [Melodia.Track.addAt]; exact h1, h2, ?_, rfl, h4⟩
    have hbody : Track.add.body.drop 1 = .ite (.call (.name "isinstance") [.name "what", .name "Iterable"] []) [
      .for (.name "x") (.name "what") [
        .expr (.call (.attr (.name "self") "add") [.name "x", .name "position"] ["what", "where"])],
      .ret .none] [] :: Track.add.body.drop 2 := by rfl
    have hcond : evalE program W (.call (.name "isinstance") [.name "what", .name "Iterable"] [])
        (addEnv a v w [("position", sigV p)]) h = some (.ok (.bool true) h) := by
      rw [evalE_call program W (evalE_global _ _ rfl (track_name_isinstance W) _) (evalArgs_cons _ _ (by simp)
        (evalE_name _ _ rfl hrv _) (evalArgs_cons _ _ (by simp) (evalE_global _ _ rfl (track_name_iterable W) _)
        (evalArgs_nil _ _ _ _))), call_builtin, callBuiltin.eq_def]
      simp only [isInstance]
      rw [bind_ok hinst]
      rfl
    rw [hbody, execB_ret]
    rw [execS_ite _ _ _ _ hcond, if_pos rfl, execB_next]
    · exact execB_ret _ _ (execS_ret program W (by rw [evalE]; rfl))
    · rw [execS_for _ _ (evalE_name _ _ rfl hrv _) hg hng]
      exact h3
/-- The loop over the elements. -/
theorem add_loop_run {h : Heap} {a l : Nat} {t : Melodia.Track} (ht : TrackAt h a l t) (hwf : t.WF) (ws : List What)
    (hwv : ∀ n ∈ What.notesList ws, n.Valid) {vs : List Val} (hvs : IsWhats h l ws vs) {all : List Val} {it : Val} {i : Nat}
    (hit : IterAt h l it all) (hi : all.drop i = vs) {p : Melodia.Signature} (hp : p.Valid) {env : Env}
    (hmod : env.mod = "melodia.core.track") (hself : Dict.get env.vars "self" = some (.ref a))
    (hpos : Dict.get env.vars "position" = some (sigV p)):
    ∃ h' l' t' env', t.addAll ws p = .ok t' ∧ t'.WF ∧ forLoop program W (.name "x")
        [.expr (.call (.attr (.name "self") "add") [.name "x", .name "position"] ["what", "where"])] it i env h =
        some (.ok (.next env') h') ∧ Becomes h h' a l l' t' := by
  cases ws with
  | nil =>
    rw [IsWhats] at hvs
    rw [hvs] at hi
    refine ⟨h, l, t, env, by rw [Melodia.Track.addAll], hwf, ?_, ⟨ht, Frame.refl _ _, .inl rfl⟩⟩
    rw [forLoop_none]
    rw [iterAt_item hit, ← Nat.add_zero i, ← List.getElem?_drop, hi]
    rfl
  | cons w ws =>
    rw [IsWhats] at hvs
    obtain ⟨x, xs, rfl, hx1, hxs⟩ := hvs
    rw [What.notesList] at hwv
    have hlt : i < all.length := by
      by_contra hc
      rw [List.drop_eq_nil_of_le (by omega)] at hi
      cases hi
    rw [List.drop_eq_getElem_cons hlt] at hi
    obtain ⟨hi1, hi2⟩ := List.cons.inj hi
    have hrv : readVar x = pure x := by
      cases w with
      | note n => rw [IsWhat] at hx1; rw [hx1]; rfl
      | many l =>
        rw [IsWhat] at hx1
        obtain ⟨_, _, rfl | ⟨b, rfl, -⟩⟩ := hx1 <;> rfl
    obtain ⟨hA, lA, tA, r, a1, a2, a3, a4, a5⟩ := add_what_run ht hwf w (fun n hn => hwv n (List.mem_append_left _ hn))
      hx1 hp (sigV p)
    have hcall := add_call W ht (IsWhere.arg (.sig p) (sigV p) (by simp [sigV]) (.sig p)) (p := p) rfl
      (add_params W a x (sigV p)) a3 a4
    set env1 : Env := { env with vars := Dict.set env.vars "x" x } with henv1
    have g1 : Dict.get env1.vars "self" = some (.ref a) := by
      rw [henv1]; simp only; rw [Dict.get_set, if_neg (by decide)]; exact hself
    have g2 : Dict.get env1.vars "position" = some (sigV p) := by
      rw [henv1]; simp only; rw [Dict.get_set, if_neg (by decide)]; exact hpos
    have g3 : Dict.get env1.vars "x" = some x := by rw [henv1]; simp [Dict.get_set]
    have hbody : execB program W
        [.expr (.call (.attr (.name "self") "add") [.name "x", .name "position"] ["what", "where"])] env1 h =
        some (.ok (.next env1) hA) := by
      rw [execB_next _ _ (execS_expr _ _ (v := .none) (h1 := hA) ?_), execB_nil]
      refine (evalE_call_kw program W (es := []) (ks := [.name "x", .name "position"]) (kws := ["what", "where"]) rfl
        ((evalE_attr_of _ _ (evalE_name _ _ g1 rfl h)).trans (getAttr_ref_meth _ _ ht.obj rfl (by simp) track_add
          (by simp [Track.add]))) (evalArgs_nil _ _ _ _) (evalArgs_cons _ _ (by simp) (evalE_name _ _ g3 hrv _)
          (evalArgs_cons _ _ (by simp) (evalE_name _ _ g2 rfl _) (evalArgs_nil _ _ _ _)))).trans ?_
      rw [call_ref_ok _ _ _ _ ht.obj track_add (by simp [Track.add])]
      exact hcall
    obtain ⟨hB, lB, tB, env', b1, b2, b3, b4⟩ := add_loop_run a5.track a2 ws (fun n hn => hwv n (List.mem_append_right _ hn))
      (isWhats_frame ht a5.frame a5.addr ws xs hxs) (iterAt_frame ht a5.frame a5.addr hit) hi2 hp (env := env1) hmod g1 g2
    refine ⟨hB, lB, tB, env', ?_, b2, ?_, a5.trans b4⟩
    · rw [Melodia.Track.addAll, a1]; exact b1
    · rw [forLoop_some program W _ _ _ _ _ _ x (by rw [iterAt_item hit, List.getElem?_eq_getElem hlt, hi1])]
      simp only [bindPat, pure_bind]
      rw [bind_ok hbody]
      exact b3
end

/-- `track.add(...)`. -/
theorem add_run {h : Heap} {a l : Nat} {t : Melodia.Track} (ht : TrackAt h a l t) (hwf : t.WF) {what : What}
    (hwv : what.Valid) {v : Val} (hv : IsWhat h l what v) {pos : Option SigArg} (hpos : ∀ s, pos = some s → s.Valid) {w : Val}
    (hw : IsWhere pos w) {p : Melodia.Signature} (hp : t.posOf pos = .ok p) {args : List Val} {kws : List (String × Val)}
    (hb : bindParams program W Track.add.params args kws { mod := Track.add.mod, vars := [] } =
      pure [("self", .ref a), ("what", v), ("where", w)]) :
    ∃ h' l' t', t.add what pos = .ok t' ∧ t'.WF ∧ callFun program W Track.add args kws h = some (.ok .none h') ∧
      Becomes h h' a l l' t' := by
  obtain ⟨h', l', t', r, h1, h2, h3, h4, h5⟩ := add_what_run W ht hwf what hwv hv (Melodia.Track.posOf_valid hwf hpos hp) w
  refine ⟨h', l', t', ?_, h2, add_call W ht hw hp hb h3 h4, h5⟩
  rw [Melodia.Track.add_eq, hp]
  exact h1

theorem add_run_err {h : Heap} {a l : Nat} {t : Melodia.Track} (ht : TrackAt h a l t) {v : Val} {pos : Option SigArg} {w : Val}
    (hw : IsWhere pos w) {e : PyErr} (hp : t.posOf pos = .error e) {args : List Val} {kws : List (String × Val)}
    (hb : bindParams program W Track.add.params args kws { mod := Track.add.mod, vars := [] } =
      pure [("self", .ref a), ("what", v), ("where", w)]) :
    callFun program W Track.add args kws h = some (.err e h) := by
  have h1 := (add_position W ht v hw).2 e hp
  refine callFun_err program W hb rfl ?_
  have hbody : Track.add.body = Track.add.body.take 1 ++ Track.add.body.drop 1 := by rfl
  rw [hbody, execB_append]
  rw [show ({ mod := Track.add.mod, vars := [("self", .ref a), ("what", v), ("where", w)] } : Env) = addEnv a v w [] from rfl,
    bind_err h1]

/-! ### Iteration -/

theorem sortRow_ok {e : Entry} (he : EntryOk e) (m : List Entry) (hm : ∀ x ∈ m, EntryOk x) :
    sortRow program W (entryV e) (m.map entryV) = pure (m.map (entryLt e)) := by
  induction m with
  | nil => rw [List.map_nil, sortRow]; rfl
  | cons y m ih =>
    rw [List.map_cons, sortRow, entry_lt W he (hm y (by simp)), ih (fun x hx => hm x (by simp [hx]))]
    simp only [py]
    rfl

theorem noRaise_pure {α : Type} (a : α) : noRaise (pure a) = pure a := rfl

theorem sortTable_ok (l m : List Entry) (hl : ∀ x ∈ l, EntryOk x) (hm : ∀ x ∈ m, EntryOk x) :
    sortTable program W (l.map entryV) (m.map entryV) = pure (l.map (fun x => m.map (entryLt x))) := by
  induction l with
  | nil => rw [List.map_nil, sortTable]; rfl
  | cons y l ih =>
    rw [List.map_cons, sortTable, sortRow_ok W (hl y (by simp)) m hm, ih (fun x hx => hl x (by simp [hx]))]
    rfl

/-- Sorting by the outcomes of the comparisons. -/
theorem sortByTable_ok {α : Type} (hN : W.sort.Natural) (g : α → Val) (lt : α → α → Bool) (l : List α) :
    sortByTable W (l.map (fun x => l.map (lt x))) (l.map g) = (W.sort.sort lt l).map g := by
  rw [sortByTable]
  have h1 : (l.map g).zipIdx = l.zipIdx.map (fun x => (g x.1, x.2)) := by
    rw [List.zipIdx_map]; rfl
  rw [h1, hN _ _ (fun x y : α × Nat => lt x.1 y.1) _ (fun x => (g x.1, x.2)) l.zipIdx]
  · rw [List.map_map]
    have h2 := hN _ _ (fun x y : α × Nat => lt x.1 y.1) lt Prod.fst l.zipIdx (fun _ _ _ _ => rfl)
    rw [List.zipIdx_map_fst] at h2
    rw [h2, List.map_map]
    rfl
  · intro x hx y hy
    have hx' := List.getElem?_eq_some_iff.mp (List.mem_zipIdx_iff_getElem?.mp hx)
    have hy' := List.getElem?_eq_some_iff.mp (List.mem_zipIdx_iff_getElem?.mp hy)
    obtain ⟨i, hi⟩ := hx'
    obtain ⟨j, hj⟩ := hy'
    simp [i, j, hi, hj]

theorem entries_ok {t : Melodia.Track} (hwf : t.WF) : ∀ e ∈ t.heap, EntryOk e := fun e he =>
  ⟨(hwf.entries e he).1.denPos.ne', (hwf.entries e he).2.2.duration.denPos.ne'⟩

/-- The variables of a method without parameters. -/
def selfEnv (a : Nat) : Env := { mod := "melodia.core.track", vars := [("self", .ref a)] }

/-- `iter(track)`. -/
theorem iter_run (hN : W.sort.Natural) {h : Heap} {a l : Nat} {t : Melodia.Track} (ht : TrackAt h a l t) (hwf : t.WF) :
    ∃ h', callFun program W Track.dunder_iter [.ref a] [] h = some (.ok (.iter l) h') ∧
      Becomes h h' a l l (t.iter W.sort).1 := by
  have hp : bindParams program W Track.dunder_iter.params [.ref a] [] { mod := Track.dunder_iter.mod, vars := [] } =
      pure [("self", .ref a)] := by simp [py, Track.dunder_iter]
  have hc : evalE program W (.un .not (.attr (.name "self") "_sorted")) (selfEnv a) h = some (.ok (.bool !t.sorted) h) :=
    evalE_not _ _ (evalE_attr _ _ rfl ht.obj rfl)
  have hret : ∀ {h' : Heap} {t' : Melodia.Track}, TrackAt h' a l t' →
      execB program W [.ret (.call (.name "iter") [.attr (.name "self") "_heap"] [])] (selfEnv a) h' =
        some (.ok (.ret (.iter l) (selfEnv a)) h') := by
    intro h' t' ht'
    refine execB_ret _ _ (execS_ret program W ?_)
    rw [evalE_call program W (evalE_global _ _ rfl (track_name_iter W) _) (evalArgs_cons _ _ (by simp)
      (evalE_attr _ _ rfl ht'.obj rfl) (evalArgs_nil _ _ _ _)), call_builtin, callBuiltin.eq_def]
    exact getIter_ref_list _ _ ht'.list
  cases hs : t.sorted with
  | true =>
    refine ⟨h, ?_, ⟨?_, Frame.refl _ _, .inl rfl⟩⟩
    · rw [callFun_run program W hp rfl (r := .ret (.iter l) (selfEnv a)) (h1 := h)]
      · rfl
      · change execB program W (_ :: _) (selfEnv a) h = _
        rw [execB_next (env1 := selfEnv a) (h1 := h)]
        · exact hret ht
        · rw [execS_ite _ _ _ _ hc, hs]
          exact execB_nil _ _ _ _
    · simpa [Melodia.Track.iter, hs] using ht
  | false =>
    have hsort : callSort program W (.ref l) [] [] h =
        some (.ok .none (h.put l (.list ((W.sort.sort entryLt t.heap).map entryV)))) := by
      rw [callSort.eq_def]
      simp only
      rw [bind_ok (load_ok ht.list)]
      simp only
      rw [sortTable_ok W _ _ (entries_ok hwf) (entries_ok hwf), noRaise_pure, pure_bind, sortByTable_ok W hN]
      rfl
    have e1 : evalE program W (.call (.attr (.attr (.name "self") "_heap") "sort") [] []) (selfEnv a) h =
        some (.ok .none (h.put l (.list ((W.sort.sort entryLt t.heap).map entryV)))) := by
      rw [evalE_call program W ((evalE_attr_of _ _ (evalE_attr _ _ rfl ht.obj rfl)).trans
        (getAttr_ref_prim _ _ ht.list rfl)) (evalArgs_nil _ _ _ _), call.eq_def]
      simp only [boundMethod]
      rw [bind_ok (methodOf_ref_list _ _ ht.list)]
      exact hsort
    set h1 := h.put l (.list ((W.sort.sort entryLt t.heap).map entryV)) with hh1
    have o1 : h1.objs[a]? = some (.inst "Track" (trackFields t l)) := by rw [hh1, Heap.put_ne ht.ne]; exact ht.obj
    have e2 : evalE program W (.bool true) (selfEnv a) h1 = some (.ok (.bool true) h1) := by rw [evalE]; rfl
    have hfin : TrackAt (h1.put a (.inst "Track" (Dict.set (trackFields t l) "_sorted" (.bool true)))) a l
        (t.iter W.sort).1 := by
      refine ⟨?_, ?_⟩
      · rw [Heap.put_at o1]
        simp only [Melodia.Track.iter, hs]
        rfl
      · rw [Heap.put_ne ht.ne.symm, hh1, Heap.put_at ht.list]
        simp [Melodia.Track.iter, hs]
    refine ⟨h1.put a (.inst "Track" (Dict.set (trackFields t l) "_sorted" (.bool true))), ?_, ⟨hfin, ?_, .inl rfl⟩⟩
    · rw [callFun_run program W hp rfl (r := .ret (.iter l) (selfEnv a))]
      · rfl
      · change execB program W (_ :: _) (selfEnv a) h = _
        rw [execB_next (env1 := selfEnv a)]
        · exact hret hfin
        · rw [execS_ite _ _ _ _ hc, hs]
          simp only [Bool.not_false, if_true]
          rw [execB_next _ _ (execS_expr _ _ e1), execB_next _ _ (execS_setattr _ _ e2 (by rfl) o1), execB_nil]
    · exact (Frame.put h l _).trans (Frame.put _ a _) (fun _ h => .inr h) (fun _ _ h => .inl h)

end Source

end Melodia
