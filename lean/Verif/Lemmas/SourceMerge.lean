/-
The common track of `MIDIReader.load` (src/melodia/io/midi.py:643-656), run from its text.
-/
import Verif.Lemmas.SourceChunks
import Verif.Lemmas.SourceProcessing

set_option autoImplicit false

namespace Melodia

open Melodia.Python

namespace Source

variable (W : World)

/-! ### The rows of `tracks` -/

theorem Apart.symm {H : Heap} {x y : Val × Val} (h : Apart H x y) : Apart H y x := by
  intro a l t a' l' t' h1 h2 h3 h4
  have := h _ _ _ _ _ _ h2 h1 h4 h3
  exact ⟨this.1.symm, this.2.symm⟩

theorem rows_zip {H : Heap} {B : Nat} {D : List (Val × Val)} {R : Dict Int Melodia.Track} (h : List.Forall₂ (TrackRow H B) D R) :
    ∀ x ∈ D.zip R, TrackRow H B x.1 x.2 := fun _ hx => List.forall₂_zip h hx

theorem rows_fst {H : Heap} {B : Nat} {D : List (Val × Val)} {R : Dict Int Melodia.Track} (h : List.Forall₂ (TrackRow H B) D R) :
    (D.zip R).map Prod.fst = D := List.map_fst_zip h.length_eq.le
theorem rows_snd {H : Heap} {B : Nat} {D : List (Val × Val)} {R : Dict Int Melodia.Track} (h : List.Forall₂ (TrackRow H B) D R) :
    (D.zip R).map Prod.snd = R := List.map_snd_zip h.length_eq.ge

theorem rows_apart {H : Heap} {B : Nat} {D : List (Val × Val)} {R : Dict Int Melodia.Track} (h : List.Forall₂ (TrackRow H B) D R)
    (hp : D.Pairwise (Apart H)) : ∀ x ∈ D.zip R, ∀ y ∈ D.zip R, x ≠ y → Apart H x.1 y.1 := by
  have : (D.zip R).Pairwise (fun x y => Apart H x.1 y.1) := by
    rw [← List.pairwise_map, rows_fst h]
    exact hp
  intro x hx y hy hne
  have : Std.Symm (fun x y : (Val × Val) × (Int × Melodia.Track) => Apart H x.1 y.1) := ⟨fun _ _ h => h.symm⟩
  exact List.Pairwise.forall ‹_› hx hy hne

theorem rows_values {H : Heap} {B b : Nat} {D : List (Val × Val)} {R : Dict Int Melodia.Track} (h : List.Forall₂ (TrackRow H B) D R) {H' : Heap}
    (hb : H'.objs[b]? = some (.dict D false)) (i : Nat) :
    itemAt H' (.dictValues b) i = ((D.zip R).map (fun x => x.1.2))[i]? := by
  have : (D.zip R).map (fun x => x.1.2) = D.map Prod.snd := by
    conv_rhs => rw [← rows_fst h]
    rw [List.map_map]; rfl
  rw [this]
  simp [itemAt, hb]

theorem values_run {H : Heap} {b : Nat} {D : List (Val × Val)} (hb : H.objs[b]? = some (.dict D false)) {env : Env} {l : List (String × Option Val)}
    (hE : Has "melodia.io.midi" env l) (hn : ("tracks", some (.ref b)) ∈ l) :
    evalE program W (.call (.attr (.name "tracks") "values") [] []) env H = some (.ok (.dictValues b) H) := by
  have hg := hE.get _ hn
  have hi : primMeth W (.ref b) "values" [] H = some (.ok (.dictValues b) H) := rfl
  pyrun [hg, hb, hasPrimAttr, hi]

/-! ### The greatest signature -/

/-- The body of the first loop. -/
def maxBody : List Stmt := [
  .ite (.cmp (.attr (.name "track") "signature") [.gt] [.name "max_signature"]) [
    .assign (.name "max_signature") (.attr (.name "track") "signature")] []]

def maxStep (acc : Melodia.Signature) (t : Melodia.Track) : Melodia.Signature := if t.signature.gt acc then t.signature else acc

theorem maxSignature_fold (R : Dict Int Melodia.Track) (D : List (Val × Val)) (h : (D.zip R).map Prod.snd = R) :
    (D.zip R).foldlM (fun acc x => (.ok (maxStep acc x.2.2) : PyM _)) ⟨0, 1⟩ = .ok (MidiReader.maxSignature R) := by
  have : ∀ (l : List ((Val × Val) × (Int × Melodia.Track))) acc, l.foldlM (fun acc x => (.ok (maxStep acc x.2.2) : PyM _)) acc =
      .ok ((l.map Prod.snd).foldl (fun acc p => if p.2.signature.gt acc then p.2.signature else acc) acc) := by
    intro l
    induction l with
    | nil => intro acc; rfl
    | cons x l ih => intro acc; exact ih _
  rw [this, h]
  rfl

theorem max_run {H : Heap} {B b : Nat} {D : List (Val × Val)} {R : Dict Int Melodia.Track} (hb : H.objs[b]? = some (.dict D false))
    (hrows : List.Forall₂ (TrackRow H B) D R) {env : Env}
    (hE : Has "melodia.io.midi" env [("tracks", some (.ref b)), ("max_signature", some (sigV ⟨0, 1⟩)), ("Track", .none)]) :
    ∃ env', execS program W (.for (.name "track") (.call (.attr (.name "tracks") "values") [] []) maxBody) env H = some (.ok (.next env') H) ∧
      Has "melodia.io.midi" env' [("tracks", some (.ref b)), ("max_signature", some (sigV (MidiReader.maxSignature R))), ("Track", .none)] ∧
      (MidiReader.maxSignature R).Valid := by
  have := for_ends (P := program) (W := W) (p := .name "track") (e := .call (.attr (.name "tracks") "values") [] []) (body := maxBody)
    (v := .dictValues b) (it := .dictValues b) (xs := D.zip R) (g := fun x => x.1.2)
    (fun acc env' h' => Has "melodia.io.midi" env' [("tracks", some (.ref b)), ("max_signature", some (sigV acc)), ("Track", .none)] ∧ acc.Valid ∧ h' = H)
    (fun _ => False) (fun acc x => (.ok (maxStep acc x.2.2) : PyM _)) (s := ⟨0, 1⟩) (env := env) (h := H) (h1 := H) (h2 := H)
    (values_run W hb hE (by simp)) (by rw [getIter.eq_def]; rfl) (by simp)
    (by rintro s env' h' ⟨-, -, rfl⟩ i; exact rows_values hrows hb i)
    (by
      rintro acc env' h' x hx ⟨hE', hv, rfl⟩
      obtain ⟨-, a, l, e1, -, -, ht, hwf⟩ := rows_zip hrows x hx
      refine ⟨(env'.set "track" x.1.2).vars, rfl, ?_⟩
      have hE1 := hE'.set "track" (v := .ref a) (by simp) (by simp)
      rw [← e1] at hE1
      change Ends (execB program W maxBody (env'.set "track" x.1.2) _) _ _ _
      have hsv : x.2.2.signature.Valid := hwf.sig
      have hgt := signature_gt W x.2.2.signature acc hsv.denPos.ne' hv.denPos.ne'
      have hsig : callFun program W Track.signature [.ref a] [] h' = some (.ok (sigV x.2.2.signature) h') :=
        (getAttr_ref_prop _ _ ht.obj rfl (by simp) track_signature rfl).symm.trans (track_signature_ok W ht)
      have hd : Track.signature.deco = .property := rfl
      have k1 := hE1.get ("track", some x.1.2) (by simp)
      have k2 := hE1.get ("max_signature", some (sigV acc)) (by simp)
      generalize env'.set "track" x.1.2 = env1 at hE1 k1 k2 ⊢
      rw [e1] at k1
      simp only at k1 k2
      have hset := setVar_plain env1 "max_signature" (sigV x.2.2.signature) (hE1.cell _)
      have hc : evalE program W (.cmp (.attr (.name "track") "signature") [.gt] [.name "max_signature"]) env1 h' =
          some (.ok (.bool (x.2.2.signature.gt acc)) h') := by
        pyrun [k1, k2, ht.obj, trackFields, track_signature, hd, hsig, compareOp, hgt]
      rw [maxBody, execB, run_bind, execS_ite _ _ _ _ hc]
      cases hg : x.2.2.signature.gt acc with
      | true =>
        refine ⟨.next (env1.set "max_signature" (sigV x.2.2.signature)), h', ?_, _, .inl rfl, ?_, ?_, rfl⟩
        · pyrun [k1, ht.obj, trackFields, track_signature, hd, hsig, hset]
        · have := hE1.reset "max_signature" (v := sigV x.2.2.signature) (by simp [sigV])
          rw [maxStep, hg, if_pos rfl]
          exact this.weaken (by simp)
        · rw [maxStep, hg, if_pos rfl]; exact hsv
      | false =>
        refine ⟨.next env1, h', ?_, _, .inl rfl, ?_, ?_, rfl⟩
        · pyrun []
        · rw [maxStep, hg, if_neg (by simp)]
          exact hE1.weaken (by simp)
        · rw [maxStep, hg, if_neg (by simp)]; exact hv)
    ⟨hE, ⟨le_rfl, ⟨0, rfl⟩⟩, rfl⟩
  rw [maxSignature_fold R D (rows_snd hrows)] at this
  obtain ⟨fl, H', h1, env', rfl, h2, h3, rfl⟩ := this
  exact ⟨env', h1, h2, h3⟩

/-! ### The common track -/

/-- The body of the inner loop. -/
def addBody : List Stmt := [.expr (.call (.attr (.name "common_track") "add") [.name "note", .name "position"] [])]

/-- A row whose track may have been sorted meanwhile; `a`, `l` are its addresses. -/
def SeenAt (H : Heap) (S : ListSort) (a l : Nat) (t : Melodia.Track) : Prop := ∃ t', TrackAt H a l t' ∧ t'.WF ∧ t'.items S = t.items S

theorem addItems_fold (l : List Entry) : ∀ t : Melodia.Track,
    MidiReader.addItems t l = l.foldlM (fun t e => t.add (.note e.2) (some (.sig e.1))) t := by
  induction l with
  | nil => intro t; rfl
  | cons e l ih =>
    intro t
    rw [MidiReader.addItems, List.foldlM_cons]
    cases t.add (.note e.2) (some (.sig e.1)) with
    | error x => rfl
    | ok t' => exact ih t'

theorem items_idem (S : ListSort) (t : Melodia.Track) : (t.iter S).1.items S = t.items S := by
  obtain ⟨s, d, p, l, b⟩ := t
  cases b <;> rfl

/-- The variables of the second loop. -/
def mgNames (b cb : Nat) : List (String × Option Val) := [("tracks", some (.ref b)), ("common_track", some (.ref cb))]

/-- Adding a track to the common track. -/
theorem add_items_run (hN : W.sort.Natural) {H : Heap} {a l b cb lc : Nat} {t u : Melodia.Track} {env : Env}
    (hE : Has "melodia.io.midi" env (("track", some (.ref a)) :: mgNames b cb)) (ht : SeenAt H W.sort a l t) (hc : TrackAt H cb lc u) (hu : u.WF)
    (h1 : a ≠ cb) (h2 : l ≠ lc) :
    Ends (execS program W (.for (.tuple [.name "position", .name "note"]) (.name "track") addBody) env H) (MidiReader.addItems u (t.items W.sort))
      (fun u' fl H' => ∃ env', fl = .next env' ∧ Has "melodia.io.midi" env' (mgNames b cb) ∧ u'.WF ∧ SeenAt H' W.sort a l t ∧
        ∃ lc', TrackAt H' cb lc' u' ∧ (lc' = lc ∨ H.objs.length ≤ lc') ∧ Frame (fun x => Own a l x ∨ Own cb lc x) H H')
      (fun _ => False) := by
  obtain ⟨t', ht', hwf, hit⟩ := ht
  obtain ⟨H1, i1, i2⟩ := iter_run W hN ht' hwf
  have n1 : a ≠ lc := by rintro rfl; have := ht'.obj.symm.trans hc.list; simp at this
  have n2 : l ≠ cb := by rintro rfl; have := ht'.list.symm.trans hc.obj; simp at this
  have hl := lt_of_at ht'.list
  have hal := lt_of_at ht'.obj
  have hc1 : TrackAt H1 cb lc u := ⟨i2.frame.at hc.obj (by rintro (h | h); exacts [h1 h.symm, n2 h.symm]),
    i2.frame.at hc.list (by rintro (h | h); exacts [n1 h.symm, h2 h.symm])⟩
  rw [← hit, addItems_fold]
  have hitems : (t'.iter W.sort).1.heap = t'.items W.sort := rfl
  have hloop := for_ends (P := program) (W := W) (p := .tuple [.name "position", .name "note"]) (e := .name "track") (body := addBody)
    (v := .ref a) (it := .iter l) (g := entryV) (xs := t'.items W.sort) (env := env) (s := u) (h := H) (h1 := H) (h2 := H1)
    (fun u' env' H' => Has "melodia.io.midi" env' (mgNames b cb) ∧ u'.WF ∧ TrackAt H' a l (t'.iter W.sort).1 ∧
        ∃ lc', TrackAt H' cb lc' u' ∧ (lc' = lc ∨ H.objs.length ≤ lc') ∧ Frame (fun x => Own a l x ∨ Own cb lc x) H H') (fun _ => False)
    (fun t e => t.add (.note e.2) (some (.sig e.1))) (hE.name _ _ (by simp) _)
    ((getIter_ref_inst _ _ ht'.obj track_iter).trans i1) (by simp)
    (by
      rintro s env' h' ⟨-, -, ht', -⟩ i
      simp [itemAt, ht'.list, hitems])
    (by
      rintro r env' h' e he ⟨hE', hr, hta, lc', htc, hlc, fr⟩
      have hev := Track.items_valid W.sort hwf e he
      refine ⟨((env'.set "position" (sigV e.1)).set "note" (noteV e.2)).vars, by simp [py, bindPat, entryV, Env.set]; rfl, ?_⟩
      have hE1 := (hE'.set "position" (v := sigV e.1) (by simp [sigV]) (by simp [mgNames])).set "note" (v := noteV e.2)
        (by simp [noteV]) (by simp [mgNames])
      change Ends (execB program W addBody ((env'.set "position" (sigV e.1)).set "note" (noteV e.2)) h') _ _ _
      have k1 := hE1.get ("common_track", some (.ref cb)) (by simp [mgNames])
      have k2 := hE1.get ("position", some (sigV e.1)) (by simp)
      have k3 := hE1.get ("note", some (noteV e.2)) (by simp)
      have hE2 := hE1.weaken (l' := mgNames b cb) (by simp [mgNames])
      generalize (env'.set "position" (sigV e.1)).set "note" (noteV e.2) = env1 at hE2 k1 k2 k3 ⊢
      simp only at k1 k2 k3
      obtain ⟨h'', l', r', g1, g2, g3, g4⟩ := add_run W htc hr (what := .note e.2) (by simpa [What.Valid, What.notes] using hev.2) (v := noteV e.2) rfl
        (pos := some (.sig e.1)) (by rintro s ⟨⟩; exact hev.1) (w := sigV e.1) (.arg _ _ (by simp [sigV]) (.sig _)) (p := e.1) rfl
        (args := [.ref cb, noteV e.2, sigV e.1]) (kws := []) (by simp [py, Track.add])
      rw [g1]
      have hx : execB program W addBody env1 h' = some (.ok (.next env1) h'') := by
        pyrun [addBody, k1, k2, k3, htc.obj, trackFields, track_add, g3]
      have hlen := fr.len
      refine ⟨_, _, hx, env1, .inl rfl, hE2, g2, ?_, l', g4.track, ?_, ?_⟩
      · exact ⟨g4.frame.at hta.obj (by rintro (h | h) <;> omega), g4.frame.at hta.list (by rintro (h | h) <;> omega)⟩
      · rcases g4.addr with h | h
        · rw [h]; exact hlc
        · exact .inr (by omega)
      · refine fr.trans g4.frame (fun _ h => h) ?_
        rintro x hx (h | h)
        · exact .inr (.inl h)
        · rcases hlc with h' | h'
          · exact .inr (.inr (h.trans h'))
          · omega)
    ⟨hE.weaken (by simp [mgNames]), hu, i2.track, lc, hc1, .inl rfl, i2.frame.mono (fun _ _ h => .inl h)⟩
  refine hloop.mono ?_ (fun _ h => h)
  rintro u' fl H' - ⟨env', rfl, e1, e2, e3, e4⟩
  exact ⟨env', rfl, e1, e2, ⟨_, e3, Track.iter_wf W.sort hwf, (items_idem W.sort t').trans hit⟩, e4⟩

/-- The body of the second loop. -/
def mergeBody : List Stmt := [.for (.tuple [.name "position", .name "note"]) (.name "track") addBody]

theorem mergeTracks_fold (S : ListSort) (R : Dict Int Melodia.Track) (D : List (Val × Val)) (h : (D.zip R).map Prod.snd = R) (u : Melodia.Track) :
    MidiReader.mergeTracks S u R = (D.zip R).foldlM (fun u x => MidiReader.addItems u (x.2.2.items S)) u := by
  have : ∀ (l : List ((Val × Val) × (Int × Melodia.Track))) u, MidiReader.mergeTracks S u (l.map Prod.snd) =
      l.foldlM (fun u x => MidiReader.addItems u (x.2.2.items S)) u := by
    intro l
    induction l with
    | nil => intro u; rfl
    | cons x l ih =>
      intro u
      obtain ⟨d, k, t⟩ := x
      rw [List.map_cons, MidiReader.mergeTracks, List.foldlM_cons]
      cases MidiReader.addItems u (t.items S) with
      | error e => rfl
      | ok u' => exact ih u'
  rw [← this, h]

/-- The second loop does what the model says; nothing that was there before is changed but the tracks of the channels. -/
theorem merge_run (hN : W.sort.Natural) {H : Heap} {B b cb lc : Nat} {D : List (Val × Val)} {R : Dict Int Melodia.Track}
    (hb : H.objs[b]? = some (.dict D false)) (hrows : List.Forall₂ (TrackRow H B) D R) (hap : D.Pairwise (Apart H)) {env : Env}
    (hE : Has "melodia.io.midi" env (mgNames b cb)) {u : Melodia.Track} (hc : TrackAt H cb lc u) (hu : u.WF) (hcB : B ≤ cb) (hlB : B ≤ lc)
    (hfresh : ∀ x ∈ D.zip R, ∀ a l, x.1.2 = .ref a → TrackAt H a l x.2.2 → a ≠ cb ∧ l ≠ lc) (hB : B ≤ H.objs.length) :
    Ends (execS program W (.for (.name "track") (.call (.attr (.name "tracks") "values") [] []) mergeBody) env H) (MidiReader.mergeTracks W.sort u R)
      (fun u' fl H' => ∃ env', fl = .next env' ∧ Has "melodia.io.midi" env' (mgNames b cb) ∧ u'.WF ∧
        ∃ lc', TrackAt H' cb lc' u' ∧ B ≤ lc' ∧ Frame (fun x => B ≤ x) H H')
      (fun _ => False) := by
  rw [mergeTracks_fold W.sort R D (rows_snd hrows)]
  have hloop := for_ends (P := program) (W := W) (p := .name "track") (e := .call (.attr (.name "tracks") "values") [] []) (body := mergeBody)
    (v := .dictValues b) (it := .dictValues b) (xs := D.zip R) (g := fun x => x.1.2)
    (fun u' env' H' => Has "melodia.io.midi" env' (mgNames b cb) ∧ u'.WF ∧ H'.objs[b]? = some (.dict D false) ∧
      (∀ x ∈ D.zip R, ∀ a l, x.1.2 = .ref a → TrackAt H a l x.2.2 → SeenAt H' W.sort a l x.2.2) ∧
      ∃ lc', TrackAt H' cb lc' u' ∧ (lc' = lc ∨ H.objs.length ≤ lc') ∧ Frame (fun x => B ≤ x) H H')
    (fun _ => False) (fun u x => MidiReader.addItems u (x.2.2.items W.sort)) (s := u) (env := env) (h := H) (h1 := H) (h2 := H)
    (values_run W hb hE (by simp [mgNames])) (by rw [getIter.eq_def]; rfl) (by simp)
    (by rintro s env' h' ⟨-, -, hb', -⟩ i; exact rows_values hrows hb' i)
    (by
      rintro r env' h' x hx ⟨hE', hr, hb', hseen, lc', htc, hlc, fr⟩
      obtain ⟨-, a, l, e1, e2, e3, ht, hwf⟩ := rows_zip hrows x hx
      refine ⟨(env'.set "track" x.1.2).vars, rfl, ?_⟩
      have hE1 := hE'.set "track" (v := .ref a) (by simp) (by simp [mgNames])
      change Ends (execB program W mergeBody (env'.set "track" x.1.2) _) _ _ _
      rw [e1]
      obtain ⟨f1, f2⟩ := hfresh x hx a l e1 ht
      have hal := lt_of_at ht.obj
      have hll := lt_of_at ht.list
      have hne : l ≠ lc' := by
        rcases hlc with h | h
        · rw [h]; exact f2
        · omega
      have hrun := add_items_run W hN hE1 (hseen x hx a l e1 ht) htc hr f1 hne
      rw [mergeBody, execB, run_bind]
      cases hm : MidiReader.addItems r (x.2.2.items W.sort) with
      | error e =>
        rw [hm] at hrun
        obtain ⟨_, _, h⟩ := hrun
        exact h.elim
      | ok r' =>
        rw [hm] at hrun
        obtain ⟨fl, H2, k1, env2, rfl, k2, k3, k4, lc2, k5, k6, k7⟩ := hrun
        rw [k1]
        obtain ⟨tx, hs1, -⟩ := hseen x hx a l e1 ht
        refine ⟨_, H2, execB_nil _ _ _ _, env2, .inl rfl, k2, k3, k7.at hb' ?_, ?_, lc2, k5, ?_, ?_⟩
        · rintro ((rfl | rfl) | (rfl | rfl))
          · have := hb'.symm.trans hs1.obj; simp at this
          · have := hb'.symm.trans hs1.list; simp at this
          · have := hb'.symm.trans htc.obj; simp at this
          · have := hb'.symm.trans htc.list; simp at this
        · intro y hy a' l' ey hty
          by_cases hxy : x = y
          · subst hxy
            have : a = a' := by rw [e1] at ey; simpa using ey
            subst this
            rw [hty.list_eq ht]
            exact k4
          · obtain ⟨g1, g2⟩ := rows_apart hrows hap x hx y hy hxy a l x.2.2 a' l' y.2.2 e1 ey ht hty
            obtain ⟨g3, g4⟩ := hfresh y hy a' l' ey hty
            obtain ⟨t', s1, s2, s3⟩ := hseen y hy a' l' ey hty
            have q1 := lt_of_at hty.obj
            have q2 := lt_of_at hty.list
            refine ⟨t', ⟨k7.at s1.obj ?_, k7.at s1.list ?_⟩, s2, s3⟩
            · rintro ((h | h) | (h | h))
              · exact g1 h.symm
              · rw [h] at s1; have := s1.obj.symm.trans hs1.list; simp at this
              · exact g3 h
              · rw [h] at s1; have := s1.obj.symm.trans htc.list; simp at this
            · rintro ((h | h) | (h | h))
              · rw [h] at s1; have := s1.list.symm.trans hs1.obj; simp at this
              · exact g2 h.symm
              · rw [h] at s1; have := s1.list.symm.trans htc.obj; simp at this
              · omega
        · have := fr.len
          omega
        · refine fr.trans k7 (fun _ h => h) ?_
          rintro z hz ((h | h) | (h | h)) <;> omega)
    ⟨hE, hu, hb, fun x hx a l h1 h2 => by
      obtain ⟨-, -, -, -, -, -, -, hwf⟩ := rows_zip hrows x hx
      exact ⟨_, h2, hwf, rfl⟩, lc, hc, .inl rfl, Frame.refl _ _⟩
  refine hloop.mono ?_ (fun _ h => h)
  rintro u' fl H' - ⟨env', rfl, e1, e2, -, -, lc', e3, e4, e5⟩
  exact ⟨env', rfl, e1, e2, lc', e3, by omega, e5⟩

end Source
end Melodia
