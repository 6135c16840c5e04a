/-
C80: comparisons between objects of different classes. C81: sums, maxima and minima of signatures.
-/
import Verif.Lemmas.Extremes
import Verif.Model.Compare
import Verif.Lemmas.Note
import Verif.Props.Note

set_option autoImplicit false

namespace Melodia

/-! ### C80 -/

/-- The class of a value; all foreign classes are taken together. -/
inductive ValClass where
  | tone | signature | note | track | foreign
  deriving DecidableEq

/-- The class of a value. -/
def AnyVal.cls : AnyVal → ValClass
  | .tone _ => .tone
  | .signature _ => .signature
  | .note _ => .note
  | .track _ => .track
  | .other => .foreign

/-- C80 refuted: a tone compared with anything else, for instance None, raises instead of being unequal. -/
theorem C80_violated : ∃ x y : AnyVal, x.cls ≠ y.cls ∧ ∀ S : ListSort,
    richCompare S .eq false x y ≠ .ok false ∧ richCompare S .ne false y x ≠ .ok true :=
  ⟨.tone ⟨0⟩, .other, by decide, fun _ => ⟨by simp [richCompare, cmpMethod], by simp [richCompare, cmpMethod]⟩⟩

/-- C80, what happens instead: `==` and `!=` between objects of different classes raise AttributeError, in both orders of the
operands, whenever one of them is melodia's. -/
theorem C80_different_partial (S : ListSort) (op : CmpOp) (hop : op = .eq ∨ op = .ne) (same : Bool) (x y : AnyVal)
    (h : x.cls ≠ y.cls) : richCompare S op same x y = .error .attributeError := by
  rcases hop with rfl | rfl <;> cases x <;> cases y <;>
    first
    | exact absurd rfl h
    | rfl

/-- C80: the order operators raise between different classes: never a wrong answer. -/
theorem C80_order (S : ListSort) (op : CmpOp) (same : Bool) (x y : AnyVal) (h : x.cls ≠ y.cls) :
    richCompare S op same x y = .error .attributeError ∨ richCompare S op same x y = .error .typeError := by
  cases op <;> cases x <;> cases y <;>
    first
    | exact absurd rfl h
    | exact Or.inl rfl
    | exact Or.inr rfl

/-- C80: tracks have no order. -/
theorem C80_tracks_unordered (S : ListSort) (op : CmpOp) (hop : op ≠ .eq ∧ op ≠ .ne) (same : Bool) (a b : Track) :
    richCompare S op same (.track a) (.track b) = .error .typeError := by
  cases op <;> simp_all [richCompare, cmpMethod, CmpOp.reflected]

/-- C80: between objects of one class the operators never raise (order of tracks excepted), and `!=` is the negation of
`==`. -/
theorem C80_same_class (S : ListSort) (same : Bool) (x y : AnyVal) (h : x.cls = y.cls) (hx : x ≠ .other) :
    (∃ b, richCompare S .eq same x y = .ok b ∧ richCompare S .ne same x y = .ok !b) ∧
    (x.cls ≠ .track → ∀ op, ∃ b, richCompare S op same x y = .ok b) := by
  cases x <;> cases y <;> try cases h
  all_goals first | exact absurd rfl hx | skip
  all_goals
    refine ⟨⟨_, rfl, rfl⟩, fun ht op => ?_⟩
    first
    | exact ⟨_, rfl⟩
    | exact absurd rfl ht

/-- What an operator means for a given order: equality is that neither is smaller. -/
def CmpOp.Means {α : Type} (lt : α → α → Prop) (a b : α) : CmpOp → Prop
  | .eq => ¬ lt a b ∧ ¬ lt b a
  | .ne => lt a b ∨ lt b a
  | .lt => lt a b
  | .le => ¬ lt b a
  | .gt => lt b a
  | .ge => ¬ lt a b

/-- C80: what the operators answer between objects of one class. Tones are compared by pitch; signatures by value, and notes
by pitch, duration, velocity, both provided that the denominator on the left is not the smaller one (the other cases are
those of C05 and C18). -/
theorem C80_operators (S : ListSort) (op : CmpOp) (same : Bool) :
    (∀ a b : Tone, richCompare S op same (.tone a) (.tone b) = .ok true ↔ op.Means (fun x y => x < y) a.pitch b.pitch) ∧
    (∀ a b : Signature, a.Valid → b.Valid → b.denominator ≤ a.denominator →
      (richCompare S op same (.signature a) (.signature b) = .ok true ↔ op.Means (fun x y => x < y) a.val b.val)) ∧
    (∀ a b : Note, a.Valid → b.Valid → b.duration.denominator ≤ a.duration.denominator →
      (richCompare S op same (.note a) (.note b) = .ok true ↔ op.Means NoteLexLt a b)) := by
  refine ⟨fun a b => ?_, fun a b ha hb h => ?_, fun a b ha hb h => ?_⟩
  · show Except.ok (toneMethod op a b) = Except.ok true ↔ _
    rw [Except.ok.injEq]
    cases op <;> simp only [toneMethod, CmpOp.Means, Tone.eq, Tone.lt, Tone.le, Tone.gt, Tone.ge, decide_eq_true_eq,
      Bool.not_eq_true', decide_eq_false_iff_not] <;> omega
  · show Except.ok (signatureMethod op a b) = Except.ok true ↔ _
    rw [Except.ok.injEq]
    have he := Signature.eq_iff ha hb
    cases op with
    | eq =>
      simp only [signatureMethod, CmpOp.Means, he, not_lt]
      exact ⟨fun h => ⟨h.ge, h.le⟩, fun h => le_antisymm h.2 h.1⟩
    | ne =>
      simp only [signatureMethod, CmpOp.Means, Bool.not_eq_true']
      rw [← Bool.not_eq_true, he]
      exact lt_or_lt_iff_ne.symm
    | lt => exact Signature.lt_of_ge ha hb h
    | le => simp only [signatureMethod, CmpOp.Means, not_lt]; exact Signature.le_of_ge ha hb h
    | gt => exact Signature.gt_of_ge ha hb h
    | ge => simp only [signatureMethod, CmpOp.Means, not_lt]; exact Signature.ge_of_ge ha hb h
  · show Except.ok (noteMethod op a b) = Except.ok true ↔ _
    rw [Except.ok.injEq]
    obtain ⟨h1, h2, h3, h4⟩ := C18_lex_partial a b ha hb (Or.inr (Or.inr h))
    have he : a.eq b = true ↔ ¬ NoteLexLt a b ∧ ¬ NoteLexLt b a := by
      unfold Note.eq NoteLexLt Tone.eq
      simp only [Bool.and_eq_true, decide_eq_true_eq, Signature.eq_iff ha.duration hb.duration]
      constructor
      · rintro ⟨⟨e1, e2⟩, e3⟩
        rw [e1, e2, e3]
        simp
      · rintro ⟨n1, n2⟩
        push Not at n1 n2
        have e1 : a.tone.pitch = b.tone.pitch := by omega
        have e2 : a.duration.val = b.duration.val := le_antisymm (n2.2.1 e1.symm) (n1.2.1 e1)
        exact ⟨⟨e1, e2⟩, le_antisymm (n2.2.2 e1.symm e2.symm) (n1.2.2 e1 e2)⟩
    cases op with
    | eq => exact he
    | ne =>
      simp only [noteMethod, CmpOp.Means, Bool.not_eq_true']
      rw [← Bool.not_eq_true, he]
      tauto
    | lt => exact h1
    | le => exact h3
    | gt => exact h2
    | ge => exact h4

/-- C80 for `x in l` with a foreign object `x` that is not itself in the list: False if all elements are foreign, otherwise
AttributeError. -/
theorem C80_member_foreign (S : ListSort) (l : List AnyVal) :
    ((∀ y ∈ l, y = .other) → memberOf S .other l = .ok false) ∧
    ((∃ y ∈ l, y ≠ .other) → memberOf S .other l = .error .attributeError) := by
  induction l with
  | nil => exact ⟨fun _ => rfl, fun h => by obtain ⟨y, hy, -⟩ := h; cases hy⟩
  | cons y l ih =>
    by_cases hy : y = .other
    · subst hy
      have e : memberOf S .other (.other :: l) = memberOf S .other l := rfl
      rw [e]
      refine ⟨fun h => ih.1 (fun y hy => h y (by simp [hy])), fun h => ih.2 ?_⟩
      obtain ⟨y, hm, hn⟩ := h
      rcases List.mem_cons.mp hm with rfl | hm
      · exact absurd rfl hn
      · exact ⟨y, hm, hn⟩
    · refine ⟨fun h => absurd (h y (by simp)) hy, fun _ => ?_⟩
      cases y <;> first | exact absurd rfl hy | rfl

/-- C80 for `x in l`: with a tone `x` the answer is True exactly if an equal tone occurs and everything before it is a tone;
False exactly if all elements are other tones; otherwise AttributeError. -/
theorem C80_member (S : ListSort) (t : Tone) (l : List AnyVal) :
    (memberOf S (.tone t) l = .ok true ↔
      ∃ pre post, l = pre ++ .tone t :: post ∧ ∀ y ∈ pre, ∃ u, y = .tone u ∧ u ≠ t) ∧
    (memberOf S (.tone t) l = .ok false ↔ ∀ y ∈ l, ∃ u, y = .tone u ∧ u ≠ t) ∧
    (∀ e, memberOf S (.tone t) l = .error e → e = .attributeError) := by
  induction l with
  | nil => simp [memberOf]
  | cons y l ih =>
    obtain ⟨ih1, ih2, ih3⟩ := ih
    by_cases hy : ∃ u, y = .tone u
    · obtain ⟨u, rfl⟩ := hy
      have e : memberOf S (.tone t) (.tone u :: l) = if u.eq t then .ok true else memberOf S (.tone t) l := rfl
      have hut : u.eq t = true ↔ u = t := by
        unfold Tone.eq
        rw [decide_eq_true_iff]
        exact ⟨fun h => by cases u; cases t; simp_all, fun h => by rw [h]⟩
      by_cases hu : u = t
      · rw [e, if_pos (hut.mpr hu)]
        subst hu
        refine ⟨⟨fun _ => ⟨[], l, rfl, by simp⟩, fun _ => rfl⟩, ⟨by simp, fun h => ?_⟩, by simp⟩
        obtain ⟨v, hv, hne⟩ := h (.tone u) (by simp)
        cases hv
        exact absurd rfl hne
      · rw [e, if_neg (by rw [hut]; exact hu)]
        refine ⟨?_, ?_, ih3⟩
        · rw [ih1]
          constructor
          · rintro ⟨pre, post, rfl, hp⟩
            refine ⟨.tone u :: pre, post, rfl, ?_⟩
            intro y hy
            rcases List.mem_cons.mp hy with rfl | hy
            · exact ⟨u, rfl, hu⟩
            · exact hp y hy
          · rintro ⟨pre, post, h, hp⟩
            cases pre with
            | nil =>
              simp only [List.nil_append, List.cons.injEq] at h
              cases h.1
              exact absurd rfl hu
            | cons p pre =>
              simp only [List.cons_append, List.cons.injEq] at h
              exact ⟨pre, post, h.2, fun y hy => hp y (by simp [hy])⟩
        · rw [ih2]
          simp [hu]
    · have e : memberOf S (.tone t) (y :: l) = .error .attributeError := by
        cases y <;> first | exact absurd ⟨_, rfl⟩ hy | rfl
      rw [e]
      refine ⟨⟨by simp, ?_⟩, ⟨by simp, ?_⟩, by simp⟩
      · rintro ⟨pre, post, h, hp⟩
        cases pre with
        | nil =>
          simp only [List.nil_append, List.cons.injEq] at h
          exact absurd ⟨t, h.1⟩ hy
        | cons p pre =>
          simp only [List.cons_append, List.cons.injEq] at h
          obtain ⟨u, hu, -⟩ := hp p (by simp)
          exact absurd ⟨u, h.1.trans hu⟩ hy
      · intro h
        obtain ⟨u, hu, -⟩ := h y (by simp)
        exact absurd ⟨u, hu⟩ hy

example (S : ListSort) : richCompare S .lt false (.signature ⟨1, 4⟩) (.signature ⟨1, 2⟩) = .ok true ∧
    richCompare S .ge false (.note ⟨⟨3⟩, ⟨1, 4⟩, 1⟩) (.note ⟨⟨3⟩, ⟨1, 4⟩, 1 / 2⟩) = .ok true ∧
    memberOf S .other [.other, .tone ⟨3⟩] = .error .attributeError :=
  ⟨rfl, by show Except.ok (noteMethod _ _ _) = _; decide +kernel, rfl⟩

/-- An equal tone hidden behind None is not found; one before None is. -/
example (S : ListSort) : memberOf S (.tone ⟨3⟩) [.tone ⟨2⟩, .tone ⟨3⟩, .other] = .ok true ∧
    memberOf S (.tone ⟨3⟩) [.other, .tone ⟨3⟩] = .error .attributeError := ⟨rfl, rfl⟩

/-! ### C81 -/

/-- The largest denominator, 1 for no signatures. -/
def maxDen (l : List Signature) : Int := l.foldr (fun s d => max s.denominator d) 1

/-- C81: `sum(l, start)` never raises and is exact; its denominator is the largest one that occurs. -/
theorem C81_sum (l : List Signature) : ∀ (start : Signature), start.Valid → (∀ s ∈ l, s.Valid) →
    ∃ r, sumSig start l = .ok r ∧ r.Valid ∧ r.val = start.val + (l.map Signature.val).sum ∧
      r.denominator = max start.denominator (maxDen l) := by
  induction l with
  | nil =>
    intro start h0 _
    refine ⟨start, rfl, h0, by simp, ?_⟩
    have := h0.denPos
    simp only [maxDen, List.foldr_nil]
    omega
  | cons s l ih =>
    intro start h0 hl
    obtain ⟨r, h1, h2, h3, h4⟩ := Signature.add_ok h0 (hl s (by simp))
    obtain ⟨q, g1, g2, g3, g4⟩ := ih r h2 (fun x hx => hl x (by simp [hx]))
    refine ⟨q, ?_, g2, ?_, ?_⟩
    · rw [sumSig, h1]; exact g1
    · rw [g3, h3, List.map_cons, List.sum_cons, add_assoc]
    · rw [g4, h4, max_assoc]
      rfl

/-- C81: the sum does not depend on the order of the summands, not even in how it is written. -/
theorem C81_sum_perm (l l' : List Signature) (h : l.Perm l') (start : Signature) (h0 : start.Valid) (hl : ∀ s ∈ l, s.Valid) :
    sumSig start l = sumSig start l' := by
  obtain ⟨r, h1, h2, h3, h4⟩ := C81_sum l start h0 hl
  obtain ⟨q, g1, g2, g3, g4⟩ := C81_sum l' start h0 (fun s hs => hl s (h.mem_iff.mpr hs))
  have hd : maxDen l = maxDen l' := by
    unfold maxDen
    exact h.foldr_eq' (fun x _ y _ z => by omega) 1
  have : r = q := Signature.ext_val h2 (by rw [h4, g4, hd]) (by rw [h3, g3, (h.map _).sum_eq])
  rw [h1, g1, this]

/-- C81: sums can be grouped: the sum of a concatenation starts where the first sum ended. -/
theorem C81_sum_append (l l' : List Signature) (start : Signature) :
    sumSig start (l ++ l') = (do let r ← sumSig start l; sumSig r l') := by
  induction l generalizing start with
  | nil => rfl
  | cons s l ih =>
    simp only [List.cons_append, sumSig]
    cases h : start.add s with
    | error e => rfl
    | ok r => exact ih r

/-- C81: `*` distributes over `+`, with identical nominators and denominators. -/
theorem C81_distributive (a b c : Signature) (ha : a.Valid) (hb : b.Valid) (hc : c.Valid) :
    (do let s ← b.add c; a.mul s) = (do let x ← a.mul b; let y ← a.mul c; x.add y) := by
  have e : ∀ x y : Signature, x.Valid → y.Valid →
      x.mul y = .ok ⟨x.nominator * y.nominator, x.denominator * y.denominator⟩ :=
    fun x y hx hy => Signature.new_ok (mul_nonneg hx.nom hy.nom) (hx.den.mul hy.den)
  have v : ∀ x y : Signature, x.Valid → y.Valid →
      (⟨x.nominator * y.nominator, x.denominator * y.denominator⟩ : Signature).Valid :=
    fun x y hx hy => ⟨mul_nonneg hx.nom hy.nom, hx.den.mul hy.den⟩
  have w : ∀ x y : Signature,
      (⟨x.nominator * y.nominator, x.denominator * y.denominator⟩ : Signature).val = x.val * y.val := by
    intro x y
    unfold Signature.val
    push_cast
    rw [div_mul_div_comm]
  obtain ⟨s, h1, h2, h3, h4⟩ := Signature.add_ok hb hc
  obtain ⟨r, g1, g2, g3, g4⟩ := Signature.add_ok (v a b ha hb) (v a c ha hc)
  simp only [h1, e a b ha hb, e a c ha hc, bind, Except.bind]
  rw [e a s ha h2, g1]
  congr 1
  refine Signature.ext_val (v a s ha h2) ?_ ?_
  · rw [g4]
    simp only
    rw [h4, mul_max_of_nonneg _ _ ha.denPos.le]
  · rw [w, h3, g3, w, w]
    ring

/-- C81 refuted for `sum(l)` without a start value: TypeError for every list with an element. -/
theorem C81_sum_violated (l : List Signature) (h : l ≠ []) : sumSig0 l = .error .typeError := by
  cases l with
  | nil => exact absurd rfl h
  | cons s l => rfl

/-- C81 refuted for `max` and `min`: the largest of 1/2 and 3/4 comes out as 1/2. -/
theorem C81_max_violated :
    pyMaxOf Signature.gt [⟨3, 4⟩, ⟨1, 2⟩] = .ok ⟨1, 2⟩ ∧ pyMinOf Signature.lt [⟨1, 4⟩, ⟨1, 2⟩] = .ok ⟨1, 2⟩ ∧
    (⟨1, 2⟩ : Signature).val < (⟨3, 4⟩ : Signature).val ∧ (⟨1, 4⟩ : Signature).val < (⟨1, 2⟩ : Signature).val :=
  ⟨by decide, by decide, by norm_num [Signature.val], by norm_num [Signature.val]⟩

/-- C81, the part of `max` that holds: of signatures in the order of their denominators, in particular of signatures with one
common denominator, it is an element of the largest value. Missing: other orders (`C81_max_iff`). -/
theorem C81_max_partial (l : List Signature) (hne : l ≠ []) (hl : ∀ s ∈ l, s.Valid)
    (hs : l.Pairwise (fun x y => x.denominator ≤ y.denominator)) :
    ∃ r ∈ l, pyMaxOf Signature.gt l = .ok r ∧ ∀ s ∈ l, s.val ≤ r.val := best_sorted chooses_max l hne hl hs

/-- C81, the part of `min` that holds, in the same way. -/
theorem C81_min_partial (l : List Signature) (hne : l ≠ []) (hl : ∀ s ∈ l, s.Valid)
    (hs : l.Pairwise (fun x y => x.denominator ≤ y.denominator)) :
    ∃ r ∈ l, pyMinOf Signature.lt l = .ok r ∧ ∀ s ∈ l, r.val ≤ s.val := by
  obtain ⟨r, h1, h2, h3⟩ := best_sorted chooses_min l hne hl hs
  exact ⟨r, h1, (pyMinOf_eq _ _).trans h2, fun s hs => neg_le_neg_iff.mp (h3 s hs)⟩

/-- C81: this is all that holds: for every sequence of denominators that is out of order somewhere there are nominators for
which `max` is wrong, and nominators for which `min` is. -/
theorem C81_max_iff (ds : List Int) (hne : ds ≠ []) (hd : ∀ d ∈ ds, ∃ k : Nat, d = 2 ^ k) :
    ((∀ l : List Signature, (∀ s ∈ l, s.Valid) → l.map Signature.denominator = ds →
      ∃ r, pyMaxOf Signature.gt l = .ok r ∧ ∀ s ∈ l, s.val ≤ r.val) ↔ ds.Pairwise (· ≤ ·)) ∧
    ((∀ l : List Signature, (∀ s ∈ l, s.Valid) → l.map Signature.denominator = ds →
      ∃ r, pyMinOf Signature.lt l = .ok r ∧ ∀ s ∈ l, r.val ≤ s.val) ↔ ds.Pairwise (· ≤ ·)) := by
  constructor
  · exact best_iff chooses_max 0 2 (by norm_num) (by norm_num) (by norm_num) (by norm_num) ds hne hd
  · rw [← best_iff chooses_min 2 0 (by norm_num) (by norm_num) (by norm_num) (by norm_num) ds hne hd]
    simp only [pyMinOf_eq, neg_le_neg_iff]

/-- C81: without elements, `sum` is its start value (the int 0 if none is given), `max` and `min` raise ValueError. -/
theorem C81_empty (start : Signature) : sumSig start [] = .ok start ∧ sumSig0 [] = .ok none ∧
    pyMaxOf Signature.gt [] = .error .valueError ∧ pyMinOf Signature.lt [] = .error .valueError :=
  ⟨rfl, rfl, rfl, rfl⟩

example : sumSig ⟨0, 1⟩ [⟨1, 4⟩, ⟨3, 8⟩, ⟨1, 1⟩] = .ok ⟨13, 8⟩ ∧ sumSig ⟨0, 1⟩ [⟨1, 1⟩, ⟨3, 8⟩, ⟨1, 4⟩] = .ok ⟨13, 8⟩ ∧
    pyMaxOf Signature.gt [⟨1, 8⟩, ⟨5, 8⟩, ⟨3, 8⟩] = .ok ⟨5, 8⟩ := by decide

end Melodia
