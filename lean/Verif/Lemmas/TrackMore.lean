/-
More lemmas about tracks: contents of histories, independence of observations, length, equality.
-/
import Verif.Lemmas.Track
import Mathlib.Tactic.Linarith

set_option autoImplicit false

namespace Melodia
namespace Track

/-! ### Contents -/

theorem step_contents (S : ListSort) {t : Track} (ht : t.WF) {o : TrackOp} (ho : o.Valid)
    {a : Multiset (ℚ × Note)} (h : Adds t.length.val o a) : (o.step S t).contents = a + t.contents := by
  cases h with
  | default w =>
    obtain ⟨t', h1, h2, h3, h4⟩ := add_of_pos ht ho.1 ho.2 (pos := none) rfl
    simp only [TrackOp.step]
    rw [addS_of_ok h1]
    exact h4
  | «at» w a s h =>
    obtain ⟨t', h1, h2, h3, h4⟩ := add_of_pos ht ho.1 ho.2 (pos := some a)
      (p := s) (SigArg.coerce_ok_iff.mpr h)
    simp only [TrackOp.step]
    rw [addS_of_ok h1]
    exact h4
  | fail w a h =>
    cases hp : t.posOf (some a) with
    | ok p => exact absurd (SigArg.coerce_ok_iff.mp hp) (h p)
    | error e => simp only [TrackOp.step]; rw [addS_of_pos_error hp]; simp
  | iterate => simp only [TrackOp.step]; rw [iter_contents]; simp
  | peek => simp [TrackOp.step]

theorem adds_exists (x : ℚ) (o : TrackOp) : ∃ a, Adds x o a := by
  cases o with
  | add w p =>
    cases p with
    | none => exact ⟨_, .default w⟩
    | some a =>
      by_cases h : ∃ s, SigDenotes a s
      · obtain ⟨s, hs⟩ := h; exact ⟨_, .at w a s hs⟩
      · exact ⟨_, .fail w a (fun s hs => h ⟨s, hs⟩)⟩
  | iterate => exact ⟨_, .iterate⟩
  | peek => exact ⟨_, .peek⟩

theorem placedBy_exists (S : ListSort) (ops : List TrackOp) : ∀ t : Track, ∃ c, PlacedBy S t ops c := by
  induction ops with
  | nil => intro t; exact ⟨_, .nil t⟩
  | cons o ops ih =>
    intro t
    obtain ⟨a, ha⟩ := adds_exists t.length.val o
    obtain ⟨c, hc⟩ := ih (o.step S t)
    exact ⟨_, .cons t o ops a c ha hc⟩

theorem placedBy_contents (S : ListSort) {ops : List TrackOp} {c : Multiset (ℚ × Note)} :
    ∀ {t : Track}, t.WF → (∀ o ∈ ops, o.Valid) → PlacedBy S t ops c →
      (t.run S ops).contents = c + t.contents := by
  induction ops generalizing c with
  | nil => intro t _ _ h; cases h; simp [run]
  | cons o ops ih =>
    intro t ht ho h
    cases h with
    | cons _ _ _ a c h hc =>
      have := ih (step_wf S ht (ho o (by simp))).1 (fun x hx => ho x (List.mem_cons_of_mem _ hx)) hc
      rw [show t.run S (o :: ops) = (o.step S t).run S ops from rfl, this,
        step_contents S ht (ho o (by simp)) h]
      rw [← add_assoc, add_comm c a]

theorem items_placed (S : ListSort) (t : Track) :
    ((t.items S).map Entry.placed : Multiset _) = t.contents := by
  show (t.iter S).1.contents = t.contents
  exact iter_contents S t

theorem len_eq_card (t : Track) : t.len = t.contents.card := by
  unfold len contents; simp

theorem items_length (S : ListSort) (t : Track) : (t.items S).length = t.len :=
  (iter_perm S t).length_eq

/-! ### Independence of observations -/

/-- Same track up to the order in the heap. -/
structure Sim (a b : Track) : Prop where
  sig : a.signature = b.signature
  den : a.maxDenominator = b.maxDenominator
  pos : a.maxPosition = b.maxPosition
  heap : a.heap.Perm b.heap

theorem Sim.refl (a : Track) : Sim a a := ⟨rfl, rfl, rfl, List.Perm.refl _⟩

theorem iter_sim (S : ListSort) (t : Track) : Sim (t.iter S).1 t := by
  obtain ⟨h1, h2, h3, -⟩ := iter_fields S t
  exact ⟨h1, h2, h3, iter_perm S t⟩

theorem addNote_sim {a b : Track} (h : Sim a b) (ha : a.WF) (hb : b.WF) {n : Note} (hn : n.Valid)
    {p : Signature} (hp : p.Valid) :
    ∃ a' b', a.addNote n p = .ok a' ∧ b.addNote n p = .ok b' ∧ a'.WF ∧ b'.WF ∧ Sim a' b' := by
  obtain ⟨a', e, x1, x2, x3, x4, -, x6, x7, x8, x9, x10, x11⟩ := addNote_spec ha hn hp
  obtain ⟨b', f, y1, y2, y3, y4, -, y6, y7, y8, y9, y10, y11⟩ := addNote_spec hb hn hp
  have hef : e = f := Signature.ext_val x6 (by rw [x8, y8, h.den]) (by rw [x7, y7])
  have hden : a'.maxDenominator = b'.maxDenominator := by rw [x4, y4, h.den]
  refine ⟨a', b', x1, y1, x2, y2, ⟨by rw [x3, y3, h.sig], hden, by rw [x9, y9, hef, h.pos], ?_⟩⟩
  rw [x11, y11, hden]
  refine (heapPush_perm _ _ _).trans (List.Perm.trans ?_ (heapPush_perm _ _ _).symm)
  exact (h.heap.map _).cons _

mutual
theorem addAt_sim {a b : Track} (h : Sim a b) (ha : a.WF) (hb : b.WF) (w : What) (hw : w.Valid)
    {p : Signature} (hp : p.Valid) :
    ∃ a' b', a.addAt w p = .ok a' ∧ b.addAt w p = .ok b' ∧ a'.WF ∧ b'.WF ∧ Sim a' b' := by
  cases w with
  | note n =>
    obtain ⟨a', b', h1, h2, h3⟩ := addNote_sim h ha hb (hw n (by simp [What.notes])) hp
    exact ⟨a', b', by rw [addAt]; exact h1, by rw [addAt]; exact h2, h3⟩
  | many ws =>
    obtain ⟨a', b', h1, h2, h3⟩ := addAll_sim h ha hb ws (fun n hn => hw n (by rwa [What.notes])) hp
    exact ⟨a', b', by rw [addAt]; exact h1, by rw [addAt]; exact h2, h3⟩
theorem addAll_sim {a b : Track} (h : Sim a b) (ha : a.WF) (hb : b.WF) (ws : List What)
    (hw : ∀ n ∈ What.notesList ws, n.Valid) {p : Signature} (hp : p.Valid) :
    ∃ a' b', a.addAll ws p = .ok a' ∧ b.addAll ws p = .ok b' ∧ a'.WF ∧ b'.WF ∧ Sim a' b' := by
  cases ws with
  | nil => exact ⟨a, b, by rw [addAll], by rw [addAll], ha, hb, h⟩
  | cons w ws =>
    rw [What.notesList] at hw
    obtain ⟨a1, b1, h1, h2, h3, h4, h5⟩ := addAt_sim h ha hb w
      (fun n hn => hw n (List.mem_append_left _ hn)) hp
    obtain ⟨a2, b2, g1, g2, g3⟩ := addAll_sim h5 h3 h4 ws
      (fun n hn => hw n (List.mem_append_right _ hn)) hp
    exact ⟨a2, b2, by rw [addAll, h1]; exact g1, by rw [addAll, h2]; exact g2, g3⟩
end

theorem posOf_sim {a b : Track} (h : Sim a b) (pos : Option SigArg) : a.posOf pos = b.posOf pos := by
  cases pos with
  | none => simp [posOf, h.pos]
  | some x => rfl

theorem step_sim (S : ListSort) {a b : Track} (h : Sim a b) (ha : a.WF) (hb : b.WF) {o : TrackOp}
    (ho : o.Valid) : Sim (o.step S a) (o.step S b) := by
  cases o with
  | add w pos =>
    simp only [TrackOp.step]
    cases hp : a.posOf pos with
    | error e =>
      rw [addS_of_pos_error hp, addS_of_pos_error ((posOf_sim h pos).symm.trans hp)]; exact h
    | ok p =>
      have hpv := posOf_valid ha ho.2 hp
      obtain ⟨a', b', h1, h2, -, -, h3⟩ := addAt_sim h ha hb w ho.1 hpv
      rw [addS_of_ok (t' := a') (by rw [add_eq, hp]; exact h1),
        addS_of_ok (t' := b') (by rw [add_eq, ← posOf_sim h pos, hp]; exact h2)]
      exact h3
  | iterate =>
    obtain ⟨s1, d1, p1, -⟩ := iter_fields S a
    obtain ⟨s2, d2, p2, -⟩ := iter_fields S b
    exact ⟨s1.trans (h.sig.trans s2.symm), d1.trans (h.den.trans d2.symm),
      p1.trans (h.pos.trans p2.symm), (iter_perm S a).trans (h.heap.trans (iter_perm S b).symm)⟩
  | peek => exact h

theorem run_sim_strip (S : ListSort) (ops : List TrackOp) : ∀ {a b : Track}, Sim a b → a.WF → b.WF →
    (∀ o ∈ ops, o.Valid) → Sim (a.run S ops) (b.run S (TrackOp.withoutObservations ops)) := by
  induction ops with
  | nil => intro a b h _ _ _; exact h
  | cons o ops ih =>
    intro a b h ha hb ho
    have hov := ho o (by simp)
    have hrest : ∀ x ∈ ops, x.Valid := fun x hx => ho x (List.mem_cons_of_mem _ hx)
    cases o with
    | add w pos =>
      exact ih (step_sim S h ha hb hov) (step_wf S ha hov).1 (step_wf S hb hov).1 hrest
    | iterate =>
      refine ih ?_ (iter_wf S ha) hb hrest
      obtain ⟨s1, d1, p1, -⟩ := iter_fields S a
      exact ⟨s1.trans h.sig, d1.trans h.den, p1.trans h.pos, (iter_perm S a).trans h.heap⟩
    | peek => exact ih h ha hb hrest

theorem Sim.contents {a b : Track} (h : Sim a b) : a.contents = b.contents :=
  Multiset.coe_eq_coe.mpr (h.heap.map _)

theorem withoutObservations_valid {ops : List TrackOp} (h : ∀ o ∈ ops, o.Valid) :
    ∀ o ∈ TrackOp.withoutObservations ops, o.Valid :=
  fun o ho => h o (List.mem_filter.mp ho).1

/-! ### Order of iteration -/

/-- The key as a function of the placed note. -/
def placedKey (p : ℚ × Note) : EntryKey :=
  toLex (p.1, toLex (p.2.tone.pitch, toLex (p.2.duration.val, p.2.velocity)))

theorem placedKey_placed (e : Entry) : placedKey e.placed = Entry.key e := rfl

/-- Tracks with the same placed notes and consistent durations iterate identically (up to `==`). -/
theorem items_key_eq (S : ListSort) {a b : Track} (ha : a.WF) (hb : b.WF)
    (h : a.contents = b.contents) (hc : ConsistentPlaced a.contents) :
    (a.items S).map Entry.key = (b.items S).map Entry.key := by
  have pa := iter_sortedKey S ha hc
  have pb := iter_sortedKey S hb (h ▸ hc)
  refine List.Perm.eq_of_pairwise (le := fun x y => x ≤ y) (fun x y _ _ h1 h2 => le_antisymm h1 h2)
    (List.pairwise_map.mpr pa) (List.pairwise_map.mpr pb) ?_
  have e1 := items_placed S a
  have e2 := items_placed S b
  rw [h, ← e2] at e1
  have := (Multiset.coe_eq_coe.mp e1).map placedKey
  rw [List.map_map, List.map_map] at this
  exact this

/-- Tracks with the same placed notes always yield the same sequence of positions. -/
theorem items_pos_eq (S : ListSort) {a b : Track} (ha : a.WF) (hb : b.WF)
    (h : a.contents = b.contents) :
    (a.items S).map (fun e => e.1.val) = (b.items S).map (fun e => e.1.val) := by
  refine List.Perm.eq_of_pairwise (le := fun x y => x ≤ y) (fun x y _ _ h1 h2 => le_antisymm h1 h2)
    (List.pairwise_map.mpr (iter_sorted S ha)) (List.pairwise_map.mpr (iter_sorted S hb)) ?_
  have e1 := items_placed S a
  have e2 := items_placed S b
  rw [h, ← e2] at e1
  have := (Multiset.coe_eq_coe.mp e1).map Prod.fst
  rw [List.map_map, List.map_map] at this
  exact this

/-! ### Equality -/

theorem key_eq_iff {a b : Entry} (ha : a.1.Valid ∧ a.2.Valid) (hb : b.1.Valid ∧ b.2.Valid) :
    Entry.key a = Entry.key b ↔ a.2.eq b.2 = true ∧ a.1.eq b.1 = true := by
  rw [Note.eq_iff ha.2.duration hb.2.duration, Signature.eq_iff ha.1 hb.1]
  unfold Entry.key
  rw [toLex_inj, Prod.mk.injEq, toLex_inj, Prod.mk.injEq, toLex_inj, Prod.mk.injEq]
  tauto

theorem zipEq_iff : ∀ (l m : List Entry), (∀ e ∈ l, e.1.Valid ∧ e.2.Valid) →
    (∀ e ∈ m, e.1.Valid ∧ e.2.Valid) →
    (zipEq l m = true ↔
      (l.map Entry.key).take (min l.length m.length) = (m.map Entry.key).take (min l.length m.length))
  | [], m, _, _ => by simp [zipEq]
  | a :: l, [], _, _ => by simp [zipEq]
  | a :: l, b :: m, hl, hm => by
    have ih := zipEq_iff l m (fun e he => hl e (by simp [he])) (fun e he => hm e (by simp [he]))
    have hk := key_eq_iff (hl a (by simp)) (hm b (by simp))
    rw [zipEq]
    simp only [List.map_cons, List.length_cons, Nat.add_min_add_right, List.take_succ_cons,
      List.cons.injEq]
    rw [← ih, hk]
    by_cases h : a.2.eq b.2 = true ∧ a.1.eq b.1 = true
    · simp [h.1, h.2]
    · have : (!a.2.eq b.2 || !a.1.eq b.1) = true := by
        rw [Bool.or_eq_true]
        by_contra hc
        apply h
        push Not at hc
        simpa using hc
      simp only [this, if_true, Bool.false_eq_true, false_iff]
      exact fun hh => h hh.1

theorem items_valid (S : ListSort) {t : Track} (ht : t.WF) : ∀ e ∈ t.items S, e.1.Valid ∧ e.2.Valid := by
  intro e he
  obtain ⟨h1, -, h3⟩ := ht.entries e ((iter_perm S t).mem_iff.mp he)
  exact ⟨h1, h3⟩

theorem eq_iff (S : ListSort) {a b : Track} (ha : a.WF) (hb : b.WF) :
    a.eq S b = true ↔ a.signature.val = b.signature.val ∧
      ((a.items S).map Entry.key).take (min a.len b.len) =
        ((b.items S).map Entry.key).take (min a.len b.len) := by
  unfold eq
  have hs := Signature.eq_iff ha.sig hb.sig
  have hz := zipEq_iff (a.items S) (b.items S) (items_valid S ha) (items_valid S hb)
  rw [items_length, items_length] at hz
  by_cases h : a.signature.eq b.signature = true
  · simp [h, hs.mp h, hz]
  · have h' : ¬ a.signature.val = b.signature.val := fun hh => h (hs.mpr hh)
    rw [Bool.not_eq_true] at h
    simp [h, h']

/-! ### Length -/

/-- Adding one note when the end is at least as fine as the current length. -/
theorem addNote_length {t t' : Track} {e : Signature} (ht : t.WF) (he : e.Valid)
    (h9 : t'.maxPosition = (if e.gt t.maxPosition then e else t.maxPosition)) :
    (t.maxPosition.denominator ≤ e.denominator → t'.maxPosition.val = max t.maxPosition.val e.val) ∧
    (e.denominator < t.maxPosition.denominator → t'.maxPosition.val = min t.maxPosition.val e.val) := by
  constructor
  · intro h
    have := Signature.gt_of_ge he ht.pos h
    rw [h9]
    split
    · next hg => rw [max_eq_right (this.mp hg).le]
    · next hg =>
      rw [this] at hg
      rw [max_eq_left (not_lt.mp hg)]
  · intro h
    have := Signature.gt_of_lt he ht.pos h
    rw [h9]
    split
    · next hg => rw [min_eq_right (this.mp hg).le]
    · next hg =>
      rw [this] at hg
      rw [min_eq_left (not_lt.mp hg)]

theorem isEnd_cons {x e : ℚ} {c : Multiset (ℚ × Note)} {p : ℚ × Note} (h : IsEnd x c)
    (he : noteEnd p = e) (h0 : 0 ≤ e) : IsEnd (max x e) (p ::ₘ c) := by
  obtain ⟨h1, h2⟩ := h
  constructor
  · intro q hq
    rcases Multiset.mem_cons.mp hq with rfl | hq
    · rw [he]; exact le_max_right _ _
    · exact (h1 q hq).trans (le_max_left _ _)
  · right
    rcases le_total x e with hxe | hxe
    · exact ⟨p, Multiset.mem_cons_self _ _, by rw [he, max_eq_right hxe]⟩
    · rw [max_eq_left hxe]
      rcases h2 with ⟨-, rfl⟩ | ⟨q, hq, hqe⟩
      · exact ⟨p, Multiset.mem_cons_self _ _, by rw [he]; exact le_antisymm hxe h0⟩
      · exact ⟨q, Multiset.mem_cons_of_mem hq, hqe⟩

/-- Invariant for the length. -/
structure LenInv (grid : Int) (seen : List Note) (t : Track) : Prop where
  wf : t.WF
  grid : grid ≤ t.maxDenominator
  den : t.maxPosition.denominator ≤ t.maxDenominator ∨
    ∃ m ∈ seen, t.maxPosition.denominator ≤ m.duration.denominator
  isEnd : IsEnd t.maxPosition.val t.contents

theorem lenInv_addNote {grid : Int} {seen : List Note} {t : Track} (h : LenInv grid seen t) {n : Note}
    (hn : n.Valid) {p : Signature} (hp : p.Valid)
    (hs : t.maxPosition.denominator ≤ p.denominator ∨
      ∀ m ∈ seen, m.duration.denominator ≤ n.duration.denominator ∨
        m.duration.denominator ≤ max grid p.denominator) :
    ∃ t', t.addNote n p = .ok t' ∧ LenInv (max grid p.denominator) (n :: seen) t' := by
  obtain ⟨t', e, h1, h2, -, h4, h5, h6, h7, h8, h9, -, -⟩ := addNote_spec h.wf hn hp
  have hfine : t.maxPosition.denominator ≤ e.denominator := by
    rw [h8]
    rcases hs with hs | hs
    · exact hs.trans ((le_max_right _ _).trans (le_max_left _ _))
    · rcases h.den with hd | ⟨m, hm, hd⟩
      · exact hd.trans ((le_max_left _ _).trans (le_max_left _ _))
      · rcases hs m hm with g | g
        · exact (hd.trans g).trans (le_max_right _ _)
        · exact (hd.trans g).trans ((max_le_max_right _ h.grid).trans (le_max_left _ _))
  refine ⟨t', h1, h2, by rw [h4]; exact max_le_max_right _ h.grid, ?_, ?_⟩
  · rw [h9, h4]
    split
    · rw [h8]
      rcases le_total n.duration.denominator (max t.maxDenominator p.denominator) with hl | hl
      · left; rw [max_eq_left hl]
      · right; exact ⟨n, by simp, by rw [max_eq_right hl]⟩
    · rcases h.den with hd | ⟨m, hm, hd⟩
      · left; exact hd.trans (le_max_left _ _)
      · right; exact ⟨m, by simp [hm], hd⟩
  · rw [(addNote_length h.wf h6 h9).1 hfine, h5]
    refine isEnd_cons h.isEnd ?_ h6.valNonneg
    rw [h7]; rfl

mutual
theorem lenInv_addAt {grid : Int} {seen : List Note} {t : Track} (h : LenInv grid seen t) (w : What)
    (hw : w.Valid) {p : Signature} (hp : p.Valid)
    (h1 : ∀ n ∈ w.notes, ∀ m ∈ seen, m.duration.denominator ≤ n.duration.denominator ∨
      m.duration.denominator ≤ max grid p.denominator)
    (h2 : w.notes.Pairwise (fun m n => m.duration.denominator ≤ n.duration.denominator ∨
      m.duration.denominator ≤ max grid p.denominator)) :
    ∃ t' g', t.addAt w p = .ok t' ∧ grid ≤ g' ∧ g' ≤ max grid p.denominator ∧
      (w.notes ≠ [] → g' = max grid p.denominator) ∧ LenInv g' (w.notes.reverse ++ seen) t' := by
  cases w with
  | note n =>
    obtain ⟨t', g1, g2⟩ := lenInv_addNote h (hw n (by simp [What.notes])) hp
      (Or.inr (h1 n (by simp [What.notes])))
    exact ⟨t', _, by rw [addAt]; exact g1, le_max_left _ _, le_rfl, fun _ => rfl,
      by simpa [What.notes] using g2⟩
  | many ws =>
    obtain ⟨t', g', g1, g2⟩ := lenInv_addAll h ws (fun n hn => hw n (by rwa [What.notes])) hp
      (by simpa [What.notes] using h1) (by simpa [What.notes] using h2)
    exact ⟨t', g', by rw [addAt]; exact g1, by rw [What.notes]; exact g2⟩
theorem lenInv_addAll {grid : Int} {seen : List Note} {t : Track} (h : LenInv grid seen t)
    (ws : List What) (hw : ∀ n ∈ What.notesList ws, n.Valid) {p : Signature} (hp : p.Valid)
    (h1 : ∀ n ∈ What.notesList ws, ∀ m ∈ seen, m.duration.denominator ≤ n.duration.denominator ∨
      m.duration.denominator ≤ max grid p.denominator)
    (h2 : (What.notesList ws).Pairwise (fun m n => m.duration.denominator ≤ n.duration.denominator ∨
      m.duration.denominator ≤ max grid p.denominator)) :
    ∃ t' g', t.addAll ws p = .ok t' ∧ grid ≤ g' ∧ g' ≤ max grid p.denominator ∧
      (What.notesList ws ≠ [] → g' = max grid p.denominator) ∧
      LenInv g' ((What.notesList ws).reverse ++ seen) t' := by
  cases ws with
  | nil =>
    exact ⟨t, grid, by rw [addAll], le_rfl, le_max_left _ _, by simp [What.notesList],
      by simpa [What.notesList] using h⟩
  | cons w ws =>
    rw [What.notesList] at hw h1 h2
    obtain ⟨a1, a2, a3⟩ := List.pairwise_append.mp h2
    obtain ⟨t1, g1, b1, b2, b3, b4, b5⟩ := lenInv_addAt h w
      (fun n hn => hw n (List.mem_append_left _ hn)) hp
      (fun n hn => h1 n (List.mem_append_left _ hn)) a1
    have hmax : max g1 p.denominator = max grid p.denominator := by
      apply le_antisymm
      · exact max_le b3 (le_max_right _ _)
      · exact max_le_max_right _ b2
    obtain ⟨t2, g2, c1, c2, c3, c4, c5⟩ := lenInv_addAll b5 ws
      (fun n hn => hw n (List.mem_append_right _ hn)) hp
      (by
        intro n hn m hm
        rw [hmax]
        rcases List.mem_append.mp hm with hm | hm
        · exact a3 m (List.mem_reverse.mp hm) n hn
        · exact h1 n (List.mem_append_right _ hn) m hm)
      (by rw [hmax]; exact a2)
    rw [hmax] at c3 c4
    refine ⟨t2, g2, by rw [addAll, b1]; exact c1, b2.trans c2, c3, ?_, ?_⟩
    · intro hne
      by_cases hws : What.notesList ws = []
      · rw [What.notesList, hws, List.append_nil] at hne
        exact le_antisymm c3 ((b4 hne).symm.le.trans c2)
      · exact c4 hws
    · rw [What.notesList, List.reverse_append, List.append_assoc]; exact c5
end

theorem lenInv_mono {g g' : Int} {seen seen' : List Note} {t : Track} (h : LenInv g seen t)
    (hg : g' ≤ g) (hs : ∀ m ∈ seen, m ∈ seen') : LenInv g' seen' t :=
  ⟨h.wf, hg.trans h.grid, h.den.imp_right (fun ⟨m, hm, hd⟩ => ⟨m, hs m hm, hd⟩), h.isEnd⟩

theorem lengthSafe_run (S : ListSort) {ops : List TrackOp} {grid : Int} {seen : List Note}
    (hsafe : LengthSafe grid seen ops) : ∀ {t : Track}, LenInv grid seen t → (∀ o ∈ ops, o.Valid) →
    IsEnd (t.run S ops).length.val (t.run S ops).contents := by
  induction hsafe with
  | nil grid seen => intro t h _; exact h.isEnd
  | append grid seen n ops hs ih =>
    intro t h ho
    obtain ⟨hw, -⟩ := ho _ (List.mem_cons_self)
    obtain ⟨t', h1, h2⟩ := lenInv_addNote h (hw n (by simp [What.notes])) h.wf.pos (Or.inl le_rfl)
    have hadd : t.add (.note n) none = .ok t' := by rw [add_eq]; show t.addAt _ _ = _; rw [addAt]; exact h1
    show IsEnd (run S (TrackOp.step S t _) ops).length.val (run S (TrackOp.step S t _) ops).contents
    simp only [TrackOp.step]
    rw [addS_of_ok hadd]
    exact ih (lenInv_mono h2 (le_max_left _ _) (fun m hm => hm)) (fun o h => ho o (List.mem_cons_of_mem _ h))
  | default grid seen w ops h1 h2 hs ih =>
    intro t h ho
    obtain ⟨hw, -⟩ := ho _ (List.mem_cons_self)
    have up : ∀ x : Int, x ≤ grid → x ≤ max grid t.maxPosition.denominator :=
      fun x hx => hx.trans (le_max_left _ _)
    obtain ⟨t', g', b1, b2, b3, b4, b5⟩ := lenInv_addAt h w hw h.wf.pos
      (fun n hn m hm => (h1 n hn m hm).imp_right (up _))
      (h2.imp (fun h => h.imp_right (up _)))
    have hadd : t.add w none = .ok t' := by rw [add_eq]; exact b1
    show IsEnd (run S (TrackOp.step S t _) ops).length.val (run S (TrackOp.step S t _) ops).contents
    simp only [TrackOp.step]
    rw [addS_of_ok hadd]
    exact ih (lenInv_mono b5 b2 (by simp)) (fun o h => ho o (List.mem_cons_of_mem _ h))
  | «at» grid seen w a s ops hd h1 h2 hne hs ih =>
    intro t h ho
    obtain ⟨hw, hpos⟩ := ho _ (List.mem_cons_self)
    have hc : t.posOf (some a) = .ok s := SigArg.coerce_ok_iff.mpr hd
    obtain ⟨t', g', b1, b2, b3, b4, b5⟩ := lenInv_addAt h w hw (posOf_valid h.wf hpos hc) h1 h2
    have hadd : t.add w (some a) = .ok t' := by rw [add_eq, hc]; exact b1
    show IsEnd (run S (TrackOp.step S t _) ops).length.val (run S (TrackOp.step S t _) ops).contents
    simp only [TrackOp.step]
    rw [addS_of_ok hadd]
    exact ih (lenInv_mono b5 (b4 hne).symm.le (by simp)) (fun o h => ho o (List.mem_cons_of_mem _ h))
  | fail grid seen w a ops hf hs ih =>
    intro t h ho
    show IsEnd (run S (TrackOp.step S t _) ops).length.val (run S (TrackOp.step S t _) ops).contents
    simp only [TrackOp.step]
    cases hp : t.posOf (some a) with
    | ok p => exact absurd (SigArg.coerce_ok_iff.mp hp) (hf p)
    | error e =>
      rw [addS_of_pos_error hp]
      exact ih h (fun o h => ho o (List.mem_cons_of_mem _ h))
  | iterate grid seen ops hs ih =>
    intro t h ho
    refine ih (t := (t.iter S).1) ?_ (fun o h => ho o (List.mem_cons_of_mem _ h))
    obtain ⟨-, d, p, -⟩ := iter_fields S t
    exact ⟨iter_wf S h.wf, d ▸ h.grid, by rw [d, p]; exact h.den, by rw [p, iter_contents]; exact h.isEnd⟩
  | peek grid seen ops hs ih =>
    intro t h ho
    exact ih h (fun o h => ho o (List.mem_cons_of_mem _ h))

/-- Whatever the history: the length is 0 or the end of some note in the track. -/
theorem length_attained (S : ListSort) (ops : List TrackOp) : ∀ {t : Track}, t.WF →
    (∀ o ∈ ops, o.Valid) → (t.length.val = 0 ∨ ∃ p ∈ t.contents, noteEnd p = t.length.val) →
    ((t.run S ops).length.val = 0 ∨
      ∃ p ∈ (t.run S ops).contents, noteEnd p = (t.run S ops).length.val) := by
  have note : ∀ {t : Track}, t.WF → ∀ {n : Note}, n.Valid → ∀ {p : Signature}, p.Valid →
      (t.length.val = 0 ∨ ∃ p ∈ t.contents, noteEnd p = t.length.val) → ∀ {t'}, t.addNote n p = .ok t' →
      (t'.length.val = 0 ∨ ∃ p ∈ t'.contents, noteEnd p = t'.length.val) := by
    intro t ht n hn p hp h t' hadd
    obtain ⟨t'', e, h1, -, -, -, h5, -, h7, -, h9, -, -⟩ := addNote_spec ht hn hp
    rw [h1] at hadd; cases hadd
    unfold length at h ⊢
    rw [h9, h5]
    split
    · right; exact ⟨_, Multiset.mem_cons_self _ _, by rw [h7]; rfl⟩
    · rcases h with h | ⟨q, hq, h⟩
      · left; exact h
      · right; exact ⟨q, Multiset.mem_cons_of_mem hq, h⟩
  have all : ∀ (ns : List Note) {t : Track}, t.WF → (∀ n ∈ ns, n.Valid) → ∀ {p : Signature}, p.Valid →
      (t.length.val = 0 ∨ ∃ p ∈ t.contents, noteEnd p = t.length.val) →
      ∀ {t'}, ns.foldlM (fun t n => t.addNote n p) t = .ok t' →
      (t'.length.val = 0 ∨ ∃ p ∈ t'.contents, noteEnd p = t'.length.val) := by
    intro ns
    induction ns with
    | nil => intro t ht _ p hp h t' hf; cases hf; exact h
    | cons n ns ih =>
      intro t ht hv p hp h t' hf
      rw [List.foldlM_cons] at hf
      obtain ⟨t1, e, h1, h2, -⟩ := addNote_spec ht (hv n (by simp)) hp
      rw [h1] at hf
      exact ih h2 (fun x hx => hv x (by simp [hx])) hp (note ht (hv n (by simp)) hp h h1) hf
  induction ops with
  | nil => intro t _ _ h; exact h
  | cons o ops ih =>
    intro t ht ho h
    have hov := ho o (by simp)
    refine ih (step_wf S ht hov).1 (fun x hx => ho x (List.mem_cons_of_mem _ hx)) ?_
    cases o with
    | add w pos =>
      simp only [TrackOp.step]
      cases hp : t.posOf pos with
      | error e => rw [addS_of_pos_error hp]; exact h
      | ok p =>
        have hpv := posOf_valid ht hov.2 hp
        obtain ⟨t', h1, -⟩ := addAt_spec ht w hov.1 hpv
        rw [addS_of_ok (t' := t') (by rw [add_eq, hp]; exact h1)]
        refine all w.notes ht hov.1 hpv h ?_
        rw [← h1]
        exact (addAt_eq_foldlM w t p).symm
    | iterate =>
      simp only [TrackOp.step]
      rw [iter_contents]
      unfold length at h ⊢
      rw [(iter_fields S t).2.2.1]
      exact h
    | peek => exact h

end Track
end Melodia
