/-
Lemmas about tracks: heap, invariant, effect of `add`, refinement to placed notes.
-/
import Verif.Spec.Track
import Verif.Lemmas.Note
import Mathlib.Data.List.Sort

set_option autoImplicit false

namespace Melodia

/-! ### heapq -/

theorem siftDown_perm {α : Type} (lt : α → α → Bool) (fuel : Nat) (h : List α) (pos : Nat) :
    (siftDown lt fuel h pos).Perm h := by
  induction fuel generalizing h pos with
  | zero => exact List.Perm.refl _
  | succ f ih =>
    rw [siftDown]
    split
    · exact List.Perm.refl _
    · simp only
      split
      · rename_i x p hx hp
        split
        · refine (ih _ _).trans ?_
          obtain ⟨h1, rfl⟩ := List.getElem?_eq_some_iff.mp hx
          obtain ⟨h2, rfl⟩ := List.getElem?_eq_some_iff.mp hp
          exact List.set_set_perm h1 h2
        · exact List.Perm.refl _
      · exact List.Perm.refl _

theorem heapPush_perm {α : Type} (lt : α → α → Bool) (h : List α) (x : α) :
    (heapPush lt h x).Perm (x :: h) :=
  (siftDown_perm _ _ _ _).trans (List.perm_append_singleton x h)

/-! ### The stateful `add` agrees with the functional one -/

namespace Track

theorem addNoteS_of_ok {t t' : Track} {n : Note} {p : Signature} (h : t.addNote n p = .ok t') :
    (addNoteS n p).run t = (.ok (), t') := by
  unfold addNote at h
  unfold addNoteS
  obtain ⟨sg, md, mp, hp, so⟩ := t
  simp only [bind, Except.bind, pure, Except.pure] at h
  by_cases hd : p.denominator > md
  · simp only [hd, if_true] at h
    cases hm : List.mapM (fun e : Entry => do
        let s ← e.1.toDen p.denominator
        pure ((s, e.2) : Entry)) hp with
    | error e => simp only [bind, Except.bind, pure, Except.pure] at hm; rw [hm] at h; cases h
    | ok hp' =>
      simp only [bind, Except.bind, pure, Except.pure] at hm; rw [hm] at h
      simp only at h
      cases hq : p.toDen p.denominator with
      | error e => rw [hq] at h; cases h
      | ok q =>
        rw [hq] at h
        simp only at h
        cases he : q.add n.duration with
        | error e => rw [he] at h; cases h
        | ok e =>
          rw [he] at h
          simp only at h
          injection h with h
          subst h
          simp only [get, getThe, MonadStateOf.get, liftM, monadLift, MonadLift.monadLift,
            StateT.get, ExceptT.run, bind, ExceptT.bind, ExceptT.mk, ExceptT.lift, ExceptT.bindCont,
            StateT.bind, pure, StateT.pure, Functor.map, StateT.map, modify, modifyGet,
            MonadStateOf.modifyGet, StateT.modifyGet, TrackM.eval, ExceptT.pure, Except.bind, Except.pure,
            hd, if_true, hm, hq, he]
          by_cases hg : e.gt mp = true <;> simp [hg] <;> rfl
  · simp only [hd, if_false] at h
    cases hq : p.toDen md with
    | error e => rw [hq] at h; cases h
    | ok q =>
      rw [hq] at h
      simp only at h
      cases he : q.add n.duration with
      | error e => rw [he] at h; cases h
      | ok e =>
        rw [he] at h
        simp only at h
        injection h with h
        subst h
        simp only [get, getThe, MonadStateOf.get, liftM, monadLift, MonadLift.monadLift,
          StateT.get, ExceptT.run, bind, ExceptT.bind, ExceptT.mk, ExceptT.lift, ExceptT.bindCont,
          StateT.bind, pure, StateT.pure, Functor.map, StateT.map, modify, modifyGet,
          MonadStateOf.modifyGet, StateT.modifyGet, TrackM.eval, ExceptT.pure,
          hd, if_false, hq, he]
        by_cases hg : e.gt mp = true <;> simp [hg] <;> rfl

mutual
theorem addAtS_of_ok {t t' : Track} (w : What) {p : Signature} (h : t.addAt w p = .ok t') :
    (addAtS w p).run t = (.ok (), t') := by
  cases w with
  | note n => rw [addAt] at h; rw [addAtS]; exact addNoteS_of_ok h
  | many ws => rw [addAt] at h; rw [addAtS]; exact addAllS_of_ok ws h
theorem addAllS_of_ok {t t' : Track} (ws : List What) {p : Signature} (h : t.addAll ws p = .ok t') :
    (addAllS ws p).run t = (.ok (), t') := by
  cases ws with
  | nil => rw [addAll] at h; cases h; rw [addAllS]; rfl
  | cons w ws =>
    rw [addAll] at h
    cases h1 : t.addAt w p with
    | error e => rw [h1] at h; cases h
    | ok t1 =>
      rw [h1] at h
      have a := addAtS_of_ok w h1
      have b := addAllS_of_ok ws (t := t1) (t' := t') h
      rw [addAllS]
      simp only [ExceptT.run, bind, ExceptT.bind, ExceptT.mk, StateT.bind] at a b ⊢
      rw [a]
      exact b
end

/-! ### Invariant -/

/-- The first two components of `Entry.key`: position, then pitch. -/
def _root_.Melodia.Entry.pitchKey (e : Entry) : ℚ ×ₗ Int := toLex (e.1.val, e.2.tone.pitch)

/-- Representation invariant of a track object. -/
structure WF (t : Track) : Prop where
  sig : t.signature.Valid
  den : IsPow2 t.maxDenominator
  pos : t.maxPosition.Valid
  entries : ∀ e ∈ t.heap, e.1.Valid ∧ e.1.denominator = t.maxDenominator ∧ e.2.Valid
  srt : t.sorted = true → t.heap.Pairwise (fun a b => a.1.val ≤ b.1.val)
  srtKey : t.sorted = true → ConsistentPlaced t.contents →
    t.heap.Pairwise (fun a b => Entry.key a ≤ Entry.key b)
  srtPitch : t.sorted = true →
    t.heap.Pairwise (fun a b => Entry.pitchKey a ≤ Entry.pitchKey b)

theorem empty_wf {s : Signature} (hs : s.Valid) : (empty s).WF :=
  ⟨hs, IsPow2.one, ⟨le_refl _, IsPow2.one⟩, by simp [empty], by simp [empty], by simp [empty], by simp [empty]⟩

/-- The rescaled signature `s.to(d)` produces. -/
def _root_.Melodia.Signature.scaleTo (s : Signature) (d : Int) : Signature :=
  ⟨pyFloorDiv d s.denominator * s.nominator, d⟩

theorem scaleTo_val {s : Signature} (hs : s.Valid) {d : Int} (hd : IsPow2 d) (h : s.denominator ≤ d) :
    (s.scaleTo d).val = s.val := Signature.val_scale hs hd h

theorem scaleTo_valid {s : Signature} (hs : s.Valid) {d : Int} (hd : IsPow2 d) :
    (s.scaleTo d).Valid :=
  ⟨mul_nonneg (Signature.fdiv_nonneg hs.denPos hd.pos.le) hs.nom, hd⟩

theorem mapM_toDen {l : List Entry} {d : Int} (hd : IsPow2 d)
    (h : ∀ e ∈ l, e.1.Valid ∧ e.1.denominator ≤ d) :
    l.mapM (fun e => (do let s ← e.1.toDen d; pure ((s, e.2) : Entry) : PyM Entry)) =
      .ok (l.map (fun e => (e.1.scaleTo d, e.2))) := by
  induction l with
  | nil => rfl
  | cons e l ih =>
    rw [List.mapM_cons, ih (fun x hx => h x (List.mem_cons_of_mem _ hx))]
    obtain ⟨h1, h2⟩ := h e (by simp)
    rw [Signature.toDen_ok h1 hd h2]
    rfl

theorem scaleTo_self {s : Signature} (hs : s.Valid) : s.scaleTo s.denominator = s := by
  exact Signature.ext_val (b := s) (scaleTo_valid hs hs.den) rfl (scaleTo_val hs hs.den le_rfl)

/-- Effect of adding one note. -/
theorem addNote_spec {t : Track} (ht : t.WF) {n : Note} (hn : n.Valid) {p : Signature} (hp : p.Valid) :
    ∃ t' e, t.addNote n p = .ok t' ∧ t'.WF ∧ t'.signature = t.signature ∧
      t'.maxDenominator = max t.maxDenominator p.denominator ∧
      t'.contents = (p.val, n) ::ₘ t.contents ∧
      e.Valid ∧ e.val = p.val + n.duration.val ∧
      e.denominator = max (max t.maxDenominator p.denominator) n.duration.denominator ∧
      t'.maxPosition = (if e.gt t.maxPosition then e else t.maxPosition) ∧
      t'.sorted = false ∧
      t'.heap = heapPush entryLt (t.heap.map (fun x => (x.1.scaleTo t'.maxDenominator, x.2)))
        (p.scaleTo t'.maxDenominator, n) := by
  set d := max t.maxDenominator p.denominator with hd
  have hd2 : IsPow2 d := by
    rcases max_choice t.maxDenominator p.denominator with h | h <;> rw [hd, h]
    · exact ht.den
    · exact hp.den
  have hpd : p.denominator ≤ d := le_max_right _ _
  have htd : ∀ e ∈ t.heap, e.1.Valid ∧ e.1.denominator ≤ d := fun e he => by
    obtain ⟨h1, h2, -⟩ := ht.entries e he
    exact ⟨h1, by rw [h2]; exact le_max_left _ _⟩
  obtain ⟨e, he1, he2, he3, he4⟩ := Signature.add_ok (scaleTo_valid hp hd2) hn.duration
  have hheap : p.denominator ≤ t.maxDenominator →
      t.heap.map (fun x => (x.1.scaleTo d, x.2)) = t.heap := by
    intro h
    have : t.maxDenominator = d := by rw [hd, max_eq_left h]
    conv_rhs => rw [← List.map_id t.heap]
    apply List.map_congr_left
    intro x hx
    obtain ⟨h1, h2, -⟩ := ht.entries x hx
    rw [← this, ← h2, scaleTo_self h1]
    rfl
  refine ⟨⟨t.signature, d, if e.gt t.maxPosition then e else t.maxPosition,
    heapPush entryLt (t.heap.map (fun x => (x.1.scaleTo d, x.2))) (p.scaleTo d, n), false⟩, e, ?_,
    ⟨ht.sig, hd2, ?_, ?_, by simp, by simp, by simp⟩, rfl, rfl, ?_, he2, by rw [he3, scaleTo_val hp hd2 hpd], ?_, rfl, rfl,
    rfl⟩
  · have hq : p.toDen d = .ok (p.scaleTo d) := Signature.toDen_ok hp hd2 hpd
    unfold addNote
    by_cases h : p.denominator > t.maxDenominator
    · have hpe : p.denominator = d := by rw [hd, max_eq_right h.le]
      have hm := mapM_toDen hd2 htd
      rw [if_pos h]
      simp only [hpe]
      rw [hm]
      simp only [bind, Except.bind, pure, Except.pure] at hq he1 ⊢
      rw [hq]; simp only; rw [he1]
    · have hte : t.maxDenominator = d := by rw [hd, max_eq_left (not_lt.mp h)]
      rw [if_neg h]
      simp only [hte, hheap (not_lt.mp h)]
      simp only [bind, Except.bind, pure, Except.pure] at hq he1 ⊢
      rw [hq]; simp only; rw [he1]
  · simp only; split
    · exact he2
    · exact ht.pos
  · intro x hx
    have := (heapPush_perm _ _ _).mem_iff.mp hx
    rcases List.mem_cons.mp this with rfl | h
    · exact ⟨scaleTo_valid hp hd2, rfl, hn⟩
    · obtain ⟨y, hy, rfl⟩ := List.mem_map.mp h
      exact ⟨scaleTo_valid (htd y hy).1 hd2, rfl, (ht.entries y hy).2.2⟩
  · have h1 := (heapPush_perm entryLt (t.heap.map (fun x => (x.1.scaleTo d, x.2)))
      (p.scaleTo d, n)).map Entry.placed
    unfold contents
    simp only
    rw [Multiset.coe_eq_coe.mpr h1, List.map_cons, ← Multiset.cons_coe]
    congr 1
    · simp [Entry.placed, scaleTo_val hp hd2 hpd]
    · rw [List.map_map]
      congr 1
      apply List.map_congr_left
      intro x hx
      simp [Entry.placed, scaleTo_val (htd x hx).1 hd2 (htd x hx).2]
  · rw [he4]; rfl

mutual
/-- Effect of adding a nested iterable at one position. -/
theorem addAt_spec {t : Track} (ht : t.WF) (w : What) (hw : w.Valid) {p : Signature} (hp : p.Valid) :
    ∃ t', t.addAt w p = .ok t' ∧ t'.WF ∧ t'.signature = t.signature ∧
      t'.contents = (w.notes.map (fun n => (p.val, n)) : Multiset _) + t.contents := by
  cases w with
  | note n =>
    obtain ⟨t', e, h1, h2, h3, -, h5, -⟩ := addNote_spec ht (hw n (by simp [What.notes])) hp
    refine ⟨t', by rw [addAt]; exact h1, h2, h3, ?_⟩
    rw [h5, What.notes]; simp
  | many ws =>
    obtain ⟨t', h1, h2, h3, h4⟩ := addAll_spec ht ws (fun n hn => hw n (by rwa [What.notes])) hp
    exact ⟨t', by rw [addAt]; exact h1, h2, h3, by rw [h4, What.notes]⟩
theorem addAll_spec {t : Track} (ht : t.WF) (ws : List What) (hw : ∀ n ∈ What.notesList ws, n.Valid)
    {p : Signature} (hp : p.Valid) :
    ∃ t', t.addAll ws p = .ok t' ∧ t'.WF ∧ t'.signature = t.signature ∧
      t'.contents = ((What.notesList ws).map (fun n => (p.val, n)) : Multiset _) + t.contents := by
  cases ws with
  | nil => exact ⟨t, by rw [addAll], ht, rfl, by simp [What.notesList]⟩
  | cons w ws =>
    rw [What.notesList] at hw
    obtain ⟨t1, h1, h2, h3, h4⟩ := addAt_spec ht w
      (fun n hn => hw n (List.mem_append_left _ hn)) hp
    obtain ⟨t2, g1, g2, g3, g4⟩ := addAll_spec h2 ws
      (fun n hn => hw n (List.mem_append_right _ hn)) hp
    refine ⟨t2, ?_, g2, g3.trans h3, ?_⟩
    · rw [addAll, h1]; exact g1
    · rw [g4, h4, What.notesList, List.map_append, ← Multiset.coe_add]
      rw [← add_assoc]
      congr 1
      rw [add_comm]
end

mutual
/-- Adding a nested iterable = adding its notes one by one. -/
theorem addAt_eq_foldlM (w : What) (t : Track) (p : Signature) :
    t.addAt w p = w.notes.foldlM (fun t n => t.addNote n p) t := by
  cases w with
  | note n =>
    rw [addAt, What.notes, List.foldlM_cons]
    cases t.addNote n p <;> rfl
  | many ws => rw [addAt, What.notes]; exact addAll_eq_foldlM ws t p
theorem addAll_eq_foldlM (ws : List What) (t : Track) (p : Signature) :
    t.addAll ws p = (What.notesList ws).foldlM (fun t n => t.addNote n p) t := by
  cases ws with
  | nil => rw [addAll, What.notesList]; rfl
  | cons w ws =>
    rw [addAll, What.notesList, List.foldlM_append, ← addAt_eq_foldlM w t p]
    congr 1
    funext t'
    exact addAll_eq_foldlM ws t' p
end

/-! ### `add` -/

/-- The position used by `add`. -/
def posOf (t : Track) : Option SigArg → PyM Signature
  | none => .ok t.maxPosition
  | some a => a.coerce

theorem add_eq (t : Track) (w : What) (pos : Option SigArg) :
    t.add w pos = (do let p ← t.posOf pos; t.addAt w p) := by
  unfold add posOf; cases pos <;> rfl

theorem posOf_valid {t : Track} (ht : t.WF) {pos : Option SigArg} (hpos : ∀ a, pos = some a → a.Valid)
    {p : Signature} (h : t.posOf pos = .ok p) : p.Valid := by
  cases pos with
  | none => cases h; exact ht.pos
  | some a =>
    have := SigArg.coerce_ok_iff.mp h
    cases this with
    | sig => exact hpos _ rfl
    | pair n d hn hd => exact ⟨hn, hd⟩

theorem add_of_pos {t : Track} (ht : t.WF) {w : What} (hw : w.Valid) {pos : Option SigArg}
    (hpos : ∀ a, pos = some a → a.Valid) {p : Signature} (h : t.posOf pos = .ok p) :
    ∃ t', t.add w pos = .ok t' ∧ t'.WF ∧ t'.signature = t.signature ∧
      t'.contents = (w.notes.map (fun n => (p.val, n)) : Multiset _) + t.contents := by
  obtain ⟨t', h1, h2⟩ := addAt_spec ht w hw (posOf_valid ht hpos h)
  exact ⟨t', by rw [add_eq, h]; exact h1, h2⟩

theorem addS_of_ok {t t' : Track} {w : What} {pos : Option SigArg} (h : t.add w pos = .ok t') :
    (addS w pos).run t = (.ok (), t') := by
  rw [add_eq] at h
  cases hp : t.posOf pos with
  | error e => rw [hp] at h; cases h
  | ok p =>
    rw [hp] at h
    have := addAtS_of_ok w (t := t) (t' := t') (p := p) h
    unfold addS
    unfold posOf at hp
    simp only [get, getThe, MonadStateOf.get, liftM, monadLift, MonadLift.monadLift,
      StateT.get, ExceptT.run, bind, ExceptT.bind, ExceptT.mk, ExceptT.lift, ExceptT.bindCont,
      StateT.bind, pure, StateT.pure, Functor.map, StateT.map, TrackM.eval, Except.pure] at this ⊢
    cases pos with
    | none => cases hp; exact this
    | some a => simp only at hp ⊢; rw [hp]; exact this

theorem addS_of_pos_error {t : Track} {w : What} {pos : Option SigArg} {e : PyErr}
    (h : t.posOf pos = .error e) : (addS w pos).run t = (.error e, t) := by
  unfold addS
  unfold posOf at h
  simp only [get, getThe, MonadStateOf.get, liftM, monadLift, MonadLift.monadLift,
    StateT.get, ExceptT.run, bind, ExceptT.bind, ExceptT.mk, ExceptT.lift, ExceptT.bindCont,
    StateT.bind, pure, StateT.pure, Functor.map, StateT.map, TrackM.eval, Except.pure]
  cases pos with
  | none => cases h
  | some a => simp only at h ⊢; rw [h]; rfl

/-! ### Iteration -/

theorem entryLt_key {a b : Entry} (ha : a.1.Valid) (hb : b.1.Valid)
    (hd : a.1.denominator = b.1.denominator) (h : a.1.val < b.1.val) :
    entryLt a b = true ∧ entryLt b a = false := by
  have e1 : a.1.eq b.1 = false := by
    rw [← Bool.not_eq_true, Signature.eq_iff ha hb]; exact h.ne
  have e2 : b.1.eq a.1 = false := by
    rw [← Bool.not_eq_true, Signature.eq_iff hb ha]; exact h.ne'
  unfold entryLt
  simp only [e1, e2, Bool.not_false, if_true]
  refine ⟨(Signature.lt_of_ge ha hb hd.ge).mpr h, ?_⟩
  rw [← Bool.not_eq_true, Signature.lt_of_ge hb ha hd.le]
  exact h.not_gt

theorem iter_perm (S : ListSort) (t : Track) : (t.iter S).1.heap.Perm t.heap := by
  unfold iter
  simp only
  split
  · exact S.perm _ _
  · exact List.Perm.refl _

theorem iter_heap (S : ListSort) (t : Track) : (t.iter S).2 = (t.iter S).1.heap := rfl

theorem iter_fields (S : ListSort) (t : Track) :
    (t.iter S).1.signature = t.signature ∧ (t.iter S).1.maxDenominator = t.maxDenominator ∧
    (t.iter S).1.maxPosition = t.maxPosition ∧ (t.iter S).1.sorted = true := by
  unfold iter
  simp only
  split
  · exact ⟨rfl, rfl, rfl, rfl⟩
  · next h => exact ⟨rfl, rfl, rfl, by simpa using h⟩

theorem iter_sorted (S : ListSort) {t : Track} (ht : t.WF) :
    (t.iter S).1.heap.Pairwise (fun a b => a.1.val ≤ b.1.val) := by
  unfold iter
  simp only
  split
  · refine S.sorted_key entryLt (fun e : Entry => e.1.val) t.heap ?_
    intro a ha b hb h
    obtain ⟨a1, a2, -⟩ := ht.entries a ha
    obtain ⟨b1, b2, -⟩ := ht.entries b hb
    exact entryLt_key a1 b1 (a2.trans b2.symm) h
  · next h => exact ht.srt (by simpa using h)

theorem entryLt_of_key_lt {a b : Entry} (ha : a.1.Valid) (hb : b.1.Valid) (hna : a.2.Valid)
    (hnb : b.2.Valid) (hd : a.1.denominator = b.1.denominator)
    (hc : a.1.val = b.1.val → a.2.tone.pitch = b.2.tone.pitch →
      a.2.duration.val = b.2.duration.val ∨ a.2.duration.denominator = b.2.duration.denominator)
    (h : Entry.key a < Entry.key b) : entryLt a b = true ∧ entryLt b a = false := by
  unfold Entry.key at h
  rw [Prod.Lex.toLex_lt_toLex] at h
  simp only at h
  rcases h with h | ⟨hp, h⟩
  · exact entryLt_key ha hb hd h
  · have e1 : a.1.eq b.1 = true := (Signature.eq_iff ha hb).mpr hp
    have e2 : b.1.eq a.1 = true := (Signature.eq_iff hb ha).mpr hp.symm
    have hlex : NoteLexLt a.2 b.2 := by
      rw [Prod.Lex.toLex_lt_toLex] at h
      simp only at h
      rcases h with h | ⟨ht, h⟩
      · exact Or.inl h
      · rw [Prod.Lex.toLex_lt_toLex] at h
        rcases h with h | ⟨hdv, h⟩
        · exact Or.inr (Or.inl ⟨ht, h⟩)
        · exact Or.inr (Or.inr ⟨ht, hdv, h⟩)
    have hne : ¬ (a.2.tone.pitch = b.2.tone.pitch ∧ a.2.duration.val = b.2.duration.val ∧
        a.2.velocity = b.2.velocity) := by
      rintro ⟨h1, h2, h3⟩
      rcases hlex with h | ⟨_, h⟩ | ⟨_, _, h⟩ <;> simp_all
    have n1 : a.2.eq b.2 = false := by
      rw [← Bool.not_eq_true, Note.eq_iff hna.duration hnb.duration]; exact hne
    have n2 : b.2.eq a.2 = false := by
      rw [← Bool.not_eq_true, Note.eq_iff hnb.duration hna.duration]
      rintro ⟨h1, h2, h3⟩; exact hne ⟨h1.symm, h2.symm, h3.symm⟩
    unfold entryLt
    simp only [e1, e2, n1, n2, Bool.not_true, Bool.false_eq_true, if_false, Bool.not_false, if_true]
    have hdur : a.2.tone.pitch = b.2.tone.pitch → a.2.duration.val ≠ b.2.duration.val →
        a.2.duration.denominator = b.2.duration.denominator := by
      intro h1 h2
      exact (hc hp h1).resolve_left h2
    constructor
    · rw [Note.lt_iff hna.duration hnb.duration]
      rcases hlex with h | ⟨h1, h⟩ | h
      · exact Or.inl h
      · exact Or.inr (Or.inl ⟨h1, h.ne, (Signature.lt_of_ge hna.duration hnb.duration
          (hdur h1 h.ne).ge).mpr h⟩)
      · exact Or.inr (Or.inr h)
    · rw [← Bool.not_eq_true, Note.lt_iff hnb.duration hna.duration]
      rintro (g | ⟨g1, g2, g3⟩ | ⟨g1, g2, g3⟩)
      · rcases hlex with h | ⟨h1, h⟩ | ⟨h1, h2, h⟩
        · exact absurd g h.not_gt
        · rw [h1] at g; exact absurd g (lt_irrefl _)
        · rw [h1] at g; exact absurd g (lt_irrefl _)
      · rcases hlex with h | ⟨h1, h⟩ | ⟨h1, h2, h⟩
        · rw [g1] at h; exact absurd h (lt_irrefl _)
        · rw [Signature.lt_of_ge hnb.duration hna.duration (hdur h1 h.ne).le] at g3
          exact absurd g3 h.not_gt
        · exact g2 h2.symm
      · rcases hlex with h | ⟨h1, h⟩ | ⟨h1, h2, h⟩
        · rw [g1] at h; exact absurd h (lt_irrefl _)
        · rw [g2] at h; exact absurd h (lt_irrefl _)
        · exact absurd g3 h.not_gt

theorem mem_contents {t : Track} {e : Entry} (h : e ∈ t.heap) : e.placed ∈ t.contents := by
  unfold contents
  exact Multiset.mem_coe.mpr (List.mem_map_of_mem h)

theorem iter_sortedKey (S : ListSort) {t : Track} (ht : t.WF) (hc : ConsistentPlaced t.contents) :
    (t.iter S).1.heap.Pairwise (fun a b => Entry.key a ≤ Entry.key b) := by
  unfold iter
  simp only
  split
  · refine S.sorted_key entryLt Entry.key t.heap ?_
    intro a ha b hb h
    obtain ⟨a1, a2, a3⟩ := ht.entries a ha
    obtain ⟨b1, b2, b3⟩ := ht.entries b hb
    exact entryLt_of_key_lt a1 b1 a3 b3 (a2.trans b2.symm)
      (fun h1 h2 => hc _ (mem_contents ha) _ (mem_contents hb) h1 h2) h
  · next h => exact ht.srtKey (by simpa using h) hc

theorem iter_sortedPitch (S : ListSort) {t : Track} (ht : t.WF) :
    (t.iter S).1.heap.Pairwise (fun a b => Entry.pitchKey a ≤ Entry.pitchKey b) := by
  unfold iter
  simp only
  split
  · refine S.sorted_key entryLt Entry.pitchKey t.heap ?_
    intro a ha b hb h
    obtain ⟨a1, a2, a3⟩ := ht.entries a ha
    obtain ⟨b1, b2, b3⟩ := ht.entries b hb
    unfold Entry.pitchKey at h
    rw [Prod.Lex.toLex_lt_toLex] at h
    simp only at h
    refine entryLt_of_key_lt a1 b1 a3 b3 (a2.trans b2.symm) ?_ ?_
    · intro h1 h2
      rcases h with h | ⟨-, h⟩
      · exact absurd h1 h.ne
      · exact absurd h2 h.ne
    · unfold Entry.key
      rw [Prod.Lex.toLex_lt_toLex]
      rcases h with h | ⟨h1, h⟩
      · exact Or.inl h
      · refine Or.inr ⟨h1, ?_⟩
        simp only
        rw [Prod.Lex.toLex_lt_toLex]
        exact Or.inl h
  · next h => exact ht.srtPitch (by simpa using h)

theorem iter_contents (S : ListSort) (t : Track) : (t.iter S).1.contents = t.contents := by
  unfold contents
  exact Multiset.coe_eq_coe.mpr ((iter_perm S t).map _)

theorem iter_wf (S : ListSort) {t : Track} (ht : t.WF) : (t.iter S).1.WF := by
  obtain ⟨h1, h2, h3, -⟩ := iter_fields S t
  refine ⟨h1 ▸ ht.sig, h2 ▸ ht.den, h3 ▸ ht.pos, ?_, fun _ => iter_sorted S ht,
    fun _ hc => iter_sortedKey S ht (by rwa [iter_contents] at hc),
    fun _ => iter_sortedPitch S ht⟩
  intro e he
  rw [h2]
  exact ht.entries e ((iter_perm S t).mem_iff.mp he)

theorem iter_of_sorted (S : ListSort) {t : Track} (h : t.sorted = true) : t.iter S = (t, t.heap) := by
  unfold iter; simp [h]

/-- Iterating an already iterated track changes nothing. -/
theorem iter_iter (S : ListSort) (t : Track) : (t.iter S).1.iter S = t.iter S := by
  rw [iter_of_sorted S (iter_fields S t).2.2.2]; rfl

/-! ### Histories -/

theorem step_wf (S : ListSort) {t : Track} (ht : t.WF) {o : TrackOp} (ho : o.Valid) :
    (o.step S t).WF ∧ (o.step S t).signature = t.signature := by
  cases o with
  | add w pos =>
    simp only [TrackOp.step]
    cases hp : t.posOf pos with
    | error e => rw [addS_of_pos_error hp]; exact ⟨ht, rfl⟩
    | ok p =>
      obtain ⟨t', h1, h2, h3, -⟩ := add_of_pos ht ho.1 ho.2 hp
      rw [addS_of_ok h1]
      exact ⟨h2, h3⟩
  | iterate => exact ⟨iter_wf S ht, (iter_fields S t).1⟩
  | peek => exact ⟨ht, rfl⟩

theorem run_wf (S : ListSort) (ops : List TrackOp) : ∀ {t : Track}, t.WF → (∀ o ∈ ops, o.Valid) →
    (t.run S ops).WF ∧ (t.run S ops).signature = t.signature := by
  induction ops with
  | nil => intro t ht _; exact ⟨ht, rfl⟩
  | cons o ops ih =>
    intro t ht ho
    obtain ⟨h1, h2⟩ := step_wf S ht (ho o (by simp))
    obtain ⟨h3, h4⟩ := ih h1 (fun x hx => ho x (List.mem_cons_of_mem _ hx))
    exact ⟨h3, h4.trans h2⟩

theorem Reachable.wf {S : ListSort} {t : Track} (h : t.Reachable S) : t.WF := by
  obtain ⟨s, ops, hs, ho, rfl⟩ := h
  exact (run_wf S ops (empty_wf hs) ho).1

end Track

end Melodia
