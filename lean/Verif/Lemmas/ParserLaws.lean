/-
Laws of the list parser: it only consumes from the front, more input does not change an outcome other
than "input too short", and the fuel of the model always suffices.
-/
import Verif.Lemmas.ReaderList
import Verif.Lemmas.Signature
import Mathlib.Data.List.Infix

set_option autoImplicit false

namespace Melodia
namespace L

/-- Laws of a parser of byte lists. -/
structure Lawful {α : Type} (f : Bytes → PyM (α × Bytes)) : Prop where
  suffix : ∀ l a r, f l = .ok (a, r) → r <:+ l
  ext_ok : ∀ l a r, f l = .ok (a, r) → ∀ m, f (l ++ m) = .ok (a, r ++ m)
  ext_err : ∀ l e, f l = .error e → e ≠ .parsingError → ∀ m, f (l ++ m) = .error e
  errs : ∀ l e, f l = .error e → e = .parsingError ∨ e = .recursionError

theorem Lawful.bind {α β : Type} {f : Bytes → PyM (α × Bytes)} {g : α × Bytes → PyM (β × Bytes)}
    (hf : Lawful f) (hg : ∀ a, Lawful (fun l => g (a, l))) :
    Lawful (fun l => f l >>= g) := by
  refine ⟨?_, ?_, ?_, ?_⟩
  · intro l b r h
    rcases hx : f l with e | ⟨a, l1⟩
    · rw [hx] at h; cases h
    · rw [hx] at h
      exact ((hg a).suffix _ _ _ h).trans (hf.suffix _ _ _ hx)
  · intro l b r h m
    rcases hx : f l with e | ⟨a, l1⟩
    · rw [hx] at h; cases h
    · rw [hx] at h
      rw [hf.ext_ok _ _ _ hx m]
      exact (hg a).ext_ok _ _ _ h m
  · intro l e h he m
    rcases hx : f l with e' | ⟨a, l1⟩
    · rw [hx] at h
      cases h
      rw [hf.ext_err _ _ hx he m]
      rfl
    · rw [hx] at h
      rw [hf.ext_ok _ _ _ hx m]
      exact (hg a).ext_err _ _ h he m
  · intro l e h
    rcases hx : f l with e' | ⟨a, l1⟩
    · rw [hx] at h
      cases h
      exact hf.errs _ _ hx
    · rw [hx] at h
      exact (hg a).errs _ _ h

theorem Lawful.pure {α : Type} (a : α) : Lawful (fun l => (Pure.pure (a, l) : PyM (α × Bytes))) := by
  refine ⟨?_, ?_, ?_, ?_⟩
  · intro l b r h; cases h; exact List.suffix_refl _
  · intro l b r h m; cases h; rfl
  · intro l e h; cases h
  · intro l e h; cases h

theorem Lawful.fail {α : Type} : Lawful (fun _ => (.error .parsingError : PyM (α × Bytes))) := by
  refine ⟨?_, ?_, ?_, ?_⟩
  · intro l b r h; cases h
  · intro l b r h; cases h
  · intro l e h he; cases h; exact absurd rfl he
  · intro l e h; cases h; exact Or.inl rfl

theorem Lawful.recursion {α : Type} : Lawful (fun _ => (.error .recursionError : PyM (α × Bytes))) := by
  refine ⟨?_, ?_, ?_, ?_⟩
  · intro l b r h; cases h
  · intro l b r h; cases h
  · intro l e h he m; cases h; rfl
  · intro l e h; cases h; exact Or.inr rfl

theorem Lawful.ite {α : Type} {c : Prop} [Decidable c] {f g : Bytes → PyM (α × Bytes)} (hf : Lawful f)
    (hg : Lawful g) : Lawful (fun l => if c then f l else g l) := by
  by_cases h : c
  · simpa only [if_pos h] using hf
  · simpa only [if_neg h] using hg

theorem lawful_read (n : Nat) : Lawful (read n) := by
  unfold read
  refine ⟨?_, ?_, ?_, ?_⟩
  · intro l b r h
    split at h
    · cases h
    · cases h; exact List.drop_suffix _ _
  · intro l b r h m
    split at h
    · cases h
    · rename_i hn
      cases h
      rw [if_neg (by rw [List.length_append]; omega), List.take_append_of_le_length (by omega),
        List.drop_append_of_le_length (by omega)]
  · intro l e h he
    split at h
    · cases h; exact absurd rfl he
    · cases h
  · intro l e h
    split at h
    · cases h; exact Or.inl rfl
    · cases h

theorem lawful_read8 : Lawful read8 := by
  refine ⟨?_, ?_, ?_, ?_⟩
  · intro l b r h
    cases l with
    | nil => cases h
    | cons x l => cases h; exact List.suffix_cons _ _
  · intro l b r h m
    cases l with
    | nil => cases h
    | cons x l => cases h; rfl
  · intro l e h he
    cases l with
    | nil => cases h; exact absurd rfl he
    | cons x l => cases h
  · intro l e h
    cases l with
    | nil => cases h; exact Or.inl rfl
    | cons x l => cases h

theorem readVar_suffix : ∀ (l : Bytes) (acc : Nat) (n : Nat) (r : Bytes), readVar acc l = .ok (n, r) →
    r <:+ l ∧ r.length < l.length := by
  intro l
  induction l with
  | nil => intro _ _ _ h; cases h
  | cons b l ih =>
    intro acc n r h
    rw [readVar] at h
    split at h
    · cases h; exact ⟨List.suffix_cons _ _, by simp⟩
    · obtain ⟨h1, h2⟩ := ih _ _ _ h
      exact ⟨h1.trans (List.suffix_cons _ _), by simp only [List.length_cons]; omega⟩

theorem readVar_ext : ∀ (l : Bytes) (acc : Nat) (x : Nat × Bytes), readVar acc l = .ok x → ∀ m,
    readVar acc (l ++ m) = .ok (x.1, x.2 ++ m) := by
  intro l
  induction l with
  | nil => intro _ _ h; cases h
  | cons b l ih =>
    intro acc x h m
    rw [List.cons_append, readVar]
    rw [readVar] at h
    split at h
    · rename_i hb; cases h; rw [if_pos hb]
    · rename_i hb; rw [if_neg hb]; exact ih _ _ h m

theorem readVar_err : ∀ (l : Bytes) (acc : Nat) (e : PyErr), readVar acc l = .error e → e = .parsingError := by
  intro l
  induction l with
  | nil => intro _ _ h; cases h; rfl
  | cons b l ih =>
    intro acc e h
    rw [readVar] at h
    split at h
    · cases h
    · exact ih _ _ h

theorem lawful_readVar (acc : Nat) : Lawful (readVar acc) := by
  refine ⟨?_, ?_, ?_, ?_⟩
  · intro l n r h; exact (readVar_suffix l acc n r h).1
  · intro l n r h m; exact readVar_ext l acc _ h m
  · intro l e h he; exact absurd (readVar_err l acc e h) he
  · intro l e h; exact Or.inl (readVar_err l acc e h)

theorem lawful_metaBody (kind length : Nat) : Lawful (metaBody kind length) := by
  unfold metaBody
  refine Lawful.ite (Lawful.ite Lawful.fail (Lawful.pure _)) ?_
  refine Lawful.ite (Lawful.ite Lawful.fail
    (Lawful.bind lawful_read8 fun c => Lawful.pure (Event.globalChannel c))) ?_
  refine Lawful.ite (Lawful.ite Lawful.fail ?_) ?_
  · refine Lawful.bind lawful_read8 fun a => ?_
    dsimp only
    refine Lawful.bind lawful_read8 fun b => ?_
    dsimp only
    refine Lawful.bind lawful_read8 fun c => ?_
    dsimp only
    exact Lawful.bind lawful_read8 fun d => Lawful.pure (Event.timeSignature a b c d)
  · exact Lawful.bind (lawful_read _) fun _ => Lawful.pure Event.unsupported

theorem lawful_readMeta : Lawful readMeta := by
  unfold readMeta
  refine Lawful.bind lawful_read8 fun kind => ?_
  dsimp only
  exact Lawful.bind (lawful_readVar 0) fun length => lawful_metaBody kind length

theorem lawful_readStatus (s : Nat) : Lawful (readStatus s) := by
  unfold readStatus
  refine Lawful.ite ?_ ?_
  · refine Lawful.bind lawful_read8 fun a => ?_
    dsimp only
    exact Lawful.bind lawful_read8 fun b => Lawful.pure (noteEvent s a b)
  · cases dataLength s with
    | none => exact Lawful.fail
    | some n => exact Lawful.bind (lawful_read _) fun _ => Lawful.pure Event.unsupported

theorem lawful_readWith (s : Nat) : Lawful (readWith s) := by
  unfold readWith
  exact Lawful.ite lawful_readMeta (lawful_readStatus s)

theorem lawful_readRunning (p : Option Nat) : Lawful (readRunning p) := by
  cases p with
  | none => exact Lawful.recursion
  | some p => exact Lawful.bind (lawful_readWith p) fun e => Lawful.pure (e, some p)

theorem lawful_readEvent (p : Option Nat) : Lawful (readEvent p) := by
  have hs : ∀ b : UInt8, Lawful (fun l => readWith b.toNat l >>= fun x =>
      (Pure.pure ((x.1, some b.toNat), x.2) : PyM ((Event × Option Nat) × Bytes))) :=
    fun b => Lawful.bind (lawful_readWith _) fun e => Lawful.pure (e, some b.toNat)
  have hr := lawful_readRunning p
  refine ⟨?_, ?_, ?_, ?_⟩
  · intro l a r h
    cases l with
    | nil => cases h
    | cons b l =>
      rw [readEvent] at h
      split at h
      · exact ((hs b).suffix _ _ _ h).trans (List.suffix_cons _ _)
      · exact hr.suffix _ _ _ h
  · intro l a r h m
    cases l with
    | nil => cases h
    | cons b l =>
      rw [List.cons_append, readEvent]
      rw [readEvent] at h
      split at h
      · rename_i hb; rw [if_pos hb]; exact (hs b).ext_ok _ _ _ h m
      · rename_i hb; rw [if_neg hb]; exact hr.ext_ok _ _ _ h m
  · intro l e h he m
    cases l with
    | nil => cases h; exact absurd rfl he
    | cons b l =>
      rw [List.cons_append, readEvent]
      rw [readEvent] at h
      split at h
      · rename_i hb; rw [if_pos hb]; exact (hs b).ext_err _ _ h he m
      · rename_i hb; rw [if_neg hb]; exact hr.ext_err _ _ h he m
  · intro l e h
    cases l with
    | nil => cases h; exact Or.inl rfl
    | cons b l =>
      rw [readEvent] at h
      split at h
      · exact (hs b).errs _ _ h
      · exact hr.errs _ _ h

theorem pow2_shift (d : Nat) : IsPow2 (((1 <<< d : Nat) : Int)) :=
  ⟨d, by rw [Nat.one_shiftLeft]; push_cast; rfl⟩

theorem handleEvent_ok (st : ParseState) (t : Int) (e : Event) : ∃ o, handleEvent st t e = .ok o := by
  unfold handleEvent
  split
  · exact ⟨_, rfl⟩
  · exact ⟨_, rfl⟩
  · exact ⟨_, rfl⟩
  · exact ⟨_, rfl⟩
  · rename_i nn dd _ _
    rw [Signature.new_ok (by omega) (pow2_shift dd)]
    exact ⟨_, rfl⟩
  · exact ⟨_, rfl⟩

theorem next_ok (st : ParseState) (d : Nat) (x : Event × Option Nat) : ∃ y, next st d x = .ok y := by
  unfold next
  simp only []
  obtain ⟨o, ho⟩ := handleEvent_ok { st with lastTime := st.lastTime + d, previousStatus := x.2 }
    (st.lastTime + d) x.1
  rw [ho]
  cases o <;> exact ⟨_, rfl⟩

/-- Running out of fuel is possible only with too little fuel. -/
theorem eventLoop_fuel : ∀ (fuel : Nat) (st : ParseState) (l : Bytes), l.length < fuel →
    eventLoop fuel st l ≠ .error .outOfFuel := by
  intro fuel
  induction fuel with
  | zero => intro _ _ h; omega
  | succ f ih =>
    intro st l hl h
    rw [eventLoop] at h
    rcases h1 : readVar 0 l with e | ⟨d, l1⟩
    · rw [h1] at h
      cases h
      have := readVar_err _ _ _ h1
      cases this
    · rw [h1] at h
      have s1 := readVar_suffix _ _ _ _ h1
      change (readEvent st.previousStatus l1 >>= _) = _ at h
      rcases h2 : readEvent st.previousStatus l1 with e | ⟨x, l2⟩
      · rw [h2] at h
        cases h
        rcases (lawful_readEvent _).errs _ _ h2 with h | h <;> cases h
      · rw [h2] at h
        have s2 := ((lawful_readEvent _).suffix _ _ _ h2).length_le
        change (next st d x >>= _) = _ at h
        obtain ⟨⟨st', stop⟩, hy⟩ := next_ok st d x
        rw [hy] at h
        change (if stop then _ else _) = _ at h
        split at h
        · cases h
        · exact ih st' l2 (by omega) h

/-- More fuel does not change an outcome other than running out of fuel. -/
theorem eventLoop_mono : ∀ (fuel k : Nat) (st : ParseState) (l : Bytes),
    eventLoop fuel st l ≠ .error .outOfFuel → eventLoop (fuel + k) st l = eventLoop fuel st l := by
  intro fuel
  induction fuel with
  | zero => intro _ _ _ h; exact absurd rfl h
  | succ f ih =>
    intro k st l h
    rw [show f + 1 + k = (f + k) + 1 by omega, eventLoop, eventLoop]
    rw [eventLoop] at h
    rcases h1 : readVar 0 l with e | ⟨d, l1⟩
    · rfl
    · rw [h1] at h
      change (readEvent st.previousStatus l1 >>= _) = (readEvent st.previousStatus l1 >>= _)
      change (readEvent st.previousStatus l1 >>= _) ≠ _ at h
      rcases h2 : readEvent st.previousStatus l1 with e | ⟨x, l2⟩
      · rfl
      · rw [h2] at h
        change (next st d x >>= _) ≠ _ at h
        change (next st d x >>= _) = (next st d x >>= _)
        obtain ⟨⟨st', stop⟩, hy⟩ := next_ok st d x
        rw [hy] at h ⊢
        cases stop
        · exact ih k st' l2 h
        · rfl

/-- The main loop with enough fuel. -/
def parse (st : ParseState) (l : Bytes) : PyM (ParseState × Bytes) := eventLoop (l.length + 1) st l

theorem eventLoop_eq_parse {fuel : Nat} {st : ParseState} {l : Bytes} (h : l.length < fuel) :
    eventLoop fuel st l = parse st l := by
  obtain ⟨k, rfl⟩ : ∃ k, fuel = l.length + 1 + k := ⟨fuel - (l.length + 1), by omega⟩
  exact eventLoop_mono _ k st l (eventLoop_fuel _ st l (by omega))

theorem parse_unfold (st : ParseState) (l : Bytes) :
    parse st l = (readVar 0 l >>= fun a => readEvent st.previousStatus a.2 >>= fun b =>
      next st a.1 b.1 >>= fun c => if c.2 then pure (c.1, b.2) else parse c.1 b.2) := by
  unfold parse
  rw [eventLoop]
  rcases h1 : readVar 0 l with e | ⟨d, l1⟩
  · rfl
  · have s1 := readVar_suffix _ _ _ _ h1
    change (readEvent st.previousStatus l1 >>= _) = (readEvent st.previousStatus l1 >>= _)
    rcases h2 : readEvent st.previousStatus l1 with e | ⟨x, l2⟩
    · rfl
    · have s2 := ((lawful_readEvent _).suffix _ _ _ h2).length_le
      change (next st d x >>= _) = (next st d x >>= _)
      obtain ⟨⟨st', stop⟩, hy⟩ := next_ok st d x
      rw [hy]
      cases stop
      · change eventLoop l.length st' l2 = eventLoop _ st' l2
        rw [eventLoop_eq_parse (by omega)]
        rfl
      · rfl

/-- Induction over the length of the input. -/
theorem lawful_parse_aux : ∀ (n : Nat) (st : ParseState) (l : Bytes), l.length ≤ n →
    (∀ a r, parse st l = .ok (a, r) → r <:+ l ∧ ∀ m, parse st (l ++ m) = .ok (a, r ++ m)) ∧
    (∀ e, parse st l = .error e → (e ≠ .parsingError → ∀ m, parse st (l ++ m) = .error e) ∧
      (e = .parsingError ∨ e = .recursionError)) := by
  intro n
  induction n using Nat.strong_induction_on with
  | _ n ih =>
    intro st l hl
    rw [parse_unfold st l]
    rcases h1 : readVar 0 l with e | ⟨d, l1⟩
    · refine ⟨fun a r h => (by cases h), fun e' h => ?_⟩
      cases h
      have := readVar_err _ _ _ h1
      exact ⟨fun he => absurd this he, Or.inl this⟩
    · have s1 := readVar_suffix _ _ _ _ h1
      have x1 := readVar_ext _ _ _ h1
      change (∀ a r, (readEvent st.previousStatus l1 >>= _) = _ → _) ∧
        (∀ e, (readEvent st.previousStatus l1 >>= _) = _ → _)
      rcases h2 : readEvent st.previousStatus l1 with e | ⟨x, l2⟩
      · refine ⟨fun a r h => (by cases h), fun e' h => ?_⟩
        cases h
        refine ⟨fun he m => ?_, (lawful_readEvent _).errs _ _ h2⟩
        rw [parse_unfold, x1 m]
        change (readEvent st.previousStatus (l1 ++ m) >>= _) = _
        rw [(lawful_readEvent _).ext_err _ _ h2 he m]
        rfl
      · have s2 := (lawful_readEvent _).suffix _ _ _ h2
        have x2 := (lawful_readEvent _).ext_ok _ _ _ h2
        obtain ⟨⟨st', stop⟩, hy⟩ := next_ok st d x
        have ext : ∀ m, parse st (l ++ m) = if stop then pure (st', l2 ++ m) else parse st' (l2 ++ m) := by
          intro m
          rw [parse_unfold, x1 m]
          change (readEvent st.previousStatus (l1 ++ m) >>= _) = _
          rw [x2 m]
          change (next st d x >>= _) = _
          rw [hy]
          rfl
        change (∀ a r, (next st d x >>= _) = _ → _) ∧ (∀ e, (next st d x >>= _) = _ → _)
        rw [hy]
        cases stop with
        | true =>
          refine ⟨fun a r h => ?_, fun e h => (by cases h)⟩
          cases h
          exact ⟨s2.trans s1.1, fun m => ext m⟩
        | false =>
          change (∀ a r, parse st' l2 = _ → _) ∧ (∀ e, parse st' l2 = _ → _)
          have hlen := s2.length_le
          obtain ⟨i1, i2⟩ := ih l2.length (by omega) st' l2 le_rfl
          refine ⟨fun a r h => ?_, fun e h => ?_⟩
          · obtain ⟨j1, j2⟩ := i1 a r h
            exact ⟨j1.trans (s2.trans s1.1), fun m => by rw [ext m]; exact j2 m⟩
          · obtain ⟨j1, j2⟩ := i2 e h
            exact ⟨fun he m => by rw [ext m]; exact j1 he m, j2⟩

theorem lawful_parse (st : ParseState) : Lawful (parse st) :=
  ⟨fun l a r h => ((lawful_parse_aux _ st l le_rfl).1 a r h).1,
   fun l a r h => ((lawful_parse_aux _ st l le_rfl).1 a r h).2,
   fun l e h he => ((lawful_parse_aux _ st l le_rfl).2 e h).1 he,
   fun l e h => ((lawful_parse_aux _ st l le_rfl).2 e h).2⟩

/-- A strict prefix of an input that is parsed to its very end is too short. -/
theorem parse_prefix {st st' : ParseState} {p m : Bytes} (h : parse st (p ++ m) = .ok (st', []))
    (hm : m ≠ []) : parse st p = .error .parsingError := by
  rcases hp : parse st p with e | ⟨a, r⟩
  · by_cases he : e = .parsingError
    · rw [he]
    · rw [(lawful_parse st).ext_err _ _ hp he m] at h
      cases h
  · rw [(lawful_parse st).ext_ok _ _ _ hp m] at h
    rw [Except.ok.injEq, Prod.mk.injEq, List.append_eq_nil_iff] at h
    exact absurd h.2.2 hm

/-! ### Reading what was encoded -/

theorem readVar_high : ∀ (a : Bytes) (acc : Nat) (l : Bytes), (∀ b ∈ a, 128 ≤ b.toNat) →
    readVar acc (a ++ l) = readVar (a.foldl (fun acc b => acc * 128 + b.toNat % 128) acc) l := by
  intro a
  induction a with
  | nil => intros; rfl
  | cons b a ih =>
    intro acc l h
    rw [List.cons_append, readVar, if_neg (by have := h b (by simp); omega),
      ih _ _ (fun x hx => h x (by simp [hx]))]
    rfl

theorem readVar_vlq (n : Nat) (l : Bytes) : readVar 0 (vlq n ++ l) = .ok (n, l) := by
  unfold vlq
  rw [List.append_assoc, readVar_high _ _ _ (vlqInit_high _)]
  change readVar (vlqValue (vlqInit (n / 128))) _ = _
  rw [vlqInit_value, List.singleton_append, readVar, toNat_ofNat_lt (by omega), if_pos (by omega)]
  congr 2
  omega

end L
end Melodia
