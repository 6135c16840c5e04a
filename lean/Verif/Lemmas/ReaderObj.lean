/-
The parser on `_Reader` objects computes what the parser on readers as values computes.
-/
import Verif.Model.ReaderObj

set_option autoImplicit false

namespace Melodia

namespace RM

theorem sliceIndex_nat (n k : Nat) : sliceIndex n (k : Int) = min k n := by
  unfold sliceIndex
  rw [if_neg (by omega)]
  omega

theorem pySlice_nat {α : Type} (l : List α) (a b : Nat) (h : a + b ≤ l.length) :
    pySlice l (a : Int) ((a : Int) + b) = (l.drop a).take b := by
  unfold pySlice
  rw [show (a : Int) + b = ((a + b : Nat) : Int) by push_cast; rfl, sliceIndex_nat, sliceIndex_nat,
    show min a l.length = a by omega, show min (a + b) l.length - a = b by omega]

theorem bind_ok {α β : Type} {m : RM α} {k : α → RM β} {s s' : ReaderObj} {a : α} (h : m s = (.ok a, s')) :
    (m >>= k) s = k a s' := by
  show (match m s with | (.ok a, s) => k a s | (.error e, s) => (.error e, s) : PyM β × ReaderObj) = _
  rw [h]

theorem bind_error {α β : Type} {m : RM α} {k : α → RM β} {s s' : ReaderObj} {e : PyErr} (h : m s = (.error e, s')) :
    (m >>= k) s = (.error e, s') := by
  show (match m s with | (.ok a, s) => k a s | (.error e, s) => (.error e, s) : PyM β × ReaderObj) = _
  rw [h]

/-- The object for a reader of the value model. -/
def obj (r : Reader) : ReaderObj := ⟨r.data, r.idx⟩

/-- Both models agree: the same result and the same reader, or the same exception. -/
def Ref {α : Type} (x : PyM (α × Reader)) (y : PyM α × ReaderObj) : Prop :=
  match x with
  | .ok (a, r) => y = (.ok a, obj r)
  | .error e => y.1 = .error e

theorem Ref.bind {α β : Type} {x : PyM (α × Reader)} {m : RM α} {s : ReaderObj} {g : α × Reader → PyM (β × Reader)}
    {k : α → RM β} (h : Ref x (m s)) (hk : ∀ a r, x = .ok (a, r) → Ref (g (a, r)) (k a (obj r))) :
    Ref (x >>= g) ((m >>= k) s) := by
  cases x with
  | error e =>
    have h' : (m s).1 = .error e := h
    show (match m s with | (.ok a, s) => k a s | (.error e, s) => (.error e, s) : PyM β × ReaderObj).1 = .error e
    rcases hm : m s with ⟨v, s'⟩
    rw [hm] at h'
    simp only at h'
    subst h'
    rfl
  | ok p =>
    obtain ⟨a, r⟩ := p
    have h' : m s = (.ok a, obj r) := h
    have : (m >>= k) s = k a (obj r) := by
      show (match m s with | (.ok a, s) => k a s | (.error e, s) => (.error e, s) : PyM β × ReaderObj) = _
      rw [h']
    rw [this]
    exact hk a r rfl

theorem Ref.pure {α : Type} (a : α) (r : Reader) : Ref (Pure.pure (a, r)) ((Pure.pure a : RM α) (obj r)) := rfl

theorem Ref.raise {α : Type} (e : PyErr) (r : Reader) : Ref (.error e : PyM (α × Reader)) ((raise e : RM α) (obj r)) := rfl

theorem ref_read (r : Reader) (n : Nat) : Ref (r.read n) (read (n : Int) (obj r)) := by
  unfold Reader.read read obj
  by_cases h : r.data.length < r.idx + n
  · rw [if_pos h, if_pos (by simp only; omega)]; rfl
  · rw [if_neg h, if_neg (by simp only; omega)]
    show _ = _
    simp only [pySlice_nat r.data r.idx n (by omega)]
    rfl

theorem ref_read8 (r : Reader) : Ref r.read8 (read8 (obj r)) := by
  unfold Reader.read8 read8
  exact Ref.bind (ref_read r 1) fun b r' _ => Ref.pure _ _

theorem ref_varLenLoop (fuel result : Nat) (r : Reader) :
    Ref (Reader.varLenLoop fuel result r) (varLenLoop fuel result (obj r)) := by
  induction fuel generalizing result r with
  | zero => exact Ref.raise _ _
  | succ fuel ih =>
    unfold Reader.varLenLoop varLenLoop
    refine Ref.bind (ref_read8 r) fun v r' _ => ?_
    dsimp only
    by_cases h : v &&& 0x80 = 0
    · rw [if_pos h, if_pos h]; exact Ref.pure _ _
    · rw [if_neg h, if_neg h]; exact ih _ _

theorem ref_readVarLen (r : Reader) : Ref r.readVarLen (readVarLen (obj r)) := by
  unfold Reader.readVarLen readVarLen
  refine Ref.bind (ref_read8 r) fun v r' _ => ?_
  dsimp only
  by_cases h : v &&& 0x80 = 0
  · rw [if_pos h, if_pos h]; exact Ref.pure _ _
  · rw [if_neg h, if_neg h]
    exact ref_varLenLoop _ _ _

theorem ref_sysexLoop (fuel : Nat) (r : Reader) :
    Ref (do let r ← Melodia.sysexLoop fuel r; pure ((), r)) (sysexLoop fuel (obj r)) := by
  induction fuel generalizing r with
  | zero => exact Ref.raise _ _
  | succ fuel ih =>
    unfold Melodia.sysexLoop sysexLoop
    rw [bind_assoc]
    refine Ref.bind (ref_read r 1) fun v r' _ => ?_
    dsimp only
    by_cases h : bytesNeInt v 0xF7 = true
    · rw [if_pos h, if_pos h]; exact ih _
    · rw [if_neg h, if_neg h]; exact Ref.pure _ _

theorem ref_readMeta (r : Reader) : Ref (Melodia.readMeta r) (readMeta (obj r)) := by
  unfold Melodia.readMeta readMeta
  refine Ref.bind (ref_read8 r) fun kind r1 _ => ?_
  refine Ref.bind (ref_readVarLen r1) fun length r2 _ => ?_
  dsimp only
  by_cases h1 : kind = 0x2F
  · rw [if_pos h1, if_pos h1]
    by_cases h : length ≠ 0
    · rw [if_pos h, if_pos h]; exact Ref.raise _ _
    · rw [if_neg h, if_neg h]; exact Ref.pure _ _
  · rw [if_neg h1, if_neg h1]
    by_cases h2 : kind = 0x20
    · rw [if_pos h2, if_pos h2]
      by_cases h : length ≠ 1
      · rw [if_pos h, if_pos h]; exact Ref.raise _ _
      · rw [if_neg h, if_neg h]
        exact Ref.bind (ref_read8 r2) fun c r3 _ => Ref.pure _ _
    · rw [if_neg h2, if_neg h2]
      by_cases h3 : kind = 0x58
      · rw [if_pos h3, if_pos h3]
        by_cases h : length ≠ 4
        · rw [if_pos h, if_pos h]; exact Ref.raise _ _
        · rw [if_neg h, if_neg h]
          refine Ref.bind (ref_read8 r2) fun nn r3 _ => ?_
          refine Ref.bind (ref_read8 r3) fun dd r4 _ => ?_
          refine Ref.bind (ref_read8 r4) fun cc r5 _ => ?_
          exact Ref.bind (ref_read8 r5) fun bb r6 _ => Ref.pure _ _
      · rw [if_neg h3, if_neg h3]
        exact Ref.bind (ref_read r2 length) fun _ r3 _ => Ref.pure _ _

theorem eventLengths_ge : ∀ x ∈ eventLengths, -1 ≤ x := by decide +kernel

theorem ref_readStatusEvent (status : Nat) (r : Reader) :
    Ref (Melodia.readStatusEvent status r) (readStatusEvent status (obj r)) := by
  unfold Melodia.readStatusEvent readStatusEvent
  dsimp only
  by_cases h1 : status >>> 4 = 8
  · rw [if_pos h1, if_pos h1]
    refine Ref.bind (ref_read8 r) fun p r1 _ => ?_
    exact Ref.bind (ref_read8 r1) fun v r2 _ => Ref.pure _ _
  · rw [if_neg h1, if_neg h1]
    by_cases h2 : status >>> 4 = 9
    · rw [if_pos h2, if_pos h2]
      refine Ref.bind (ref_read8 r) fun p r1 _ => ?_
      refine Ref.bind (ref_read8 r1) fun v r2 _ => ?_
      dsimp only
      by_cases h : v = 0
      · rw [if_pos h, if_pos h]; exact Ref.pure _ _
      · rw [if_neg h, if_neg h]; exact Ref.pure _ _
    · rw [if_neg h2, if_neg h2]
      by_cases h3 : status = 0xF0
      · rw [if_pos h3, if_pos h3]
        have := ref_sysexLoop (r.data.length + 1) r
        show Ref _ ((sysexLoop (r.data.length + 1) >>= fun _ => Pure.pure Event.unsupported) (obj r))
        have e : (Melodia.sysexLoop (r.data.length + 1) r >>= fun r => Pure.pure (Event.unsupported, r)) =
            ((do let r ← Melodia.sysexLoop (r.data.length + 1) r; Pure.pure ((), r)) >>=
              fun p : Unit × Reader => (Pure.pure (Event.unsupported, p.2) : PyM (Event × Reader))) := by
          rw [bind_assoc]; rfl
        rw [e]
        exact Ref.bind this fun _ _ _ => Ref.pure _ _
      · rw [if_neg h3, if_neg h3]
        cases hl : eventLengths[status]? with
        | none => exact Ref.raise _ _
        | some l =>
          dsimp only
          by_cases h4 : l = -1
          · rw [if_pos h4, if_pos h4]; exact Ref.raise _ _
          · rw [if_neg h4, if_neg h4]
            have := eventLengths_ge l (List.mem_of_getElem? hl)
            have e : (l.toNat : Int) = l := by omega
            rw [show read l = read (l.toNat : Int) by rw [e]]
            exact Ref.bind (ref_read r l.toNat) fun _ _ _ => Ref.pure _ _

/-- `previous_status` is none or a status byte. -/
def StatusOk : Option Nat → Prop
  | none => True
  | some s => 0x80 ≤ s

theorem ref_readEvent (depth : Nat) (status prev : Option Nat) (hs : StatusOk status) (hp : StatusOk prev) (r : Reader) :
    Ref (do let (e, p, r) ← Melodia.readEvent depth status prev r; pure ((e, p), r)) (readEvent depth status prev (obj r)) ∧
    ∀ e p r', Melodia.readEvent depth status prev r = .ok (e, p, r') → StatusOk p := by
  induction depth generalizing status r with
  | zero => exact ⟨Ref.raise _ _, fun e p r' h => by cases h⟩
  | succ depth ih =>
    have rest : ∀ (s : Nat) (r1 : Reader), (0x80 ≤ s ∨ 1 ≤ r1.idx) →
        Ref (do
          let (e, p, r) ← (if s = 0xFF then do
              let (e, r) ← Melodia.readMeta r1
              pure (e, some s, r)
            else if s ≥ 0x80 then do
              let (e, r) ← Melodia.readStatusEvent s r1
              pure (e, some s, r)
            else Melodia.readEvent depth prev prev r1.shiftBack : PyM (Event × Option Nat × Reader))
          pure ((e, p), r))
          ((if s = 0xFF then do
              let e ← readMeta
              pure (e, some s)
            else if s ≥ 0x80 then do
              let e ← readStatusEvent s
              pure (e, some s)
            else do
              shift (-1)
              readEvent depth prev prev : RM (Event × Option Nat)) (obj r1)) ∧
        ∀ e p r', (if s = 0xFF then do
              let (e, r) ← Melodia.readMeta r1
              pure (e, some s, r)
            else if s ≥ 0x80 then do
              let (e, r) ← Melodia.readStatusEvent s r1
              pure (e, some s, r)
            else Melodia.readEvent depth prev prev r1.shiftBack : PyM (Event × Option Nat × Reader)) = .ok (e, p, r') →
          StatusOk p := by
      intro s r1 hs1
      by_cases h1 : s = 0xFF
      · simp only [if_pos h1]
        refine ⟨?_, ?_⟩
        · rw [bind_assoc]
          exact Ref.bind (ref_readMeta r1) fun _ _ _ => Ref.pure _ _
        · intro e p r' h
          cases hm : Melodia.readMeta r1 with
          | error x => rw [hm] at h; cases h
          | ok q => rw [hm] at h; cases h; show 0x80 ≤ s; omega
      · simp only [if_neg h1]
        by_cases h2 : s ≥ 0x80
        · simp only [if_pos h2]
          refine ⟨?_, ?_⟩
          · rw [bind_assoc]
            exact Ref.bind (ref_readStatusEvent s r1) fun _ _ _ => Ref.pure _ _
          · intro e p r' h
            cases hm : Melodia.readStatusEvent s r1 with
            | error x => rw [hm] at h; cases h
            | ok q => rw [hm] at h; cases h; exact h2
        · simp only [if_neg h2]
          have hi : 1 ≤ r1.idx := by omega
          have e : obj r1.shiftBack = (shift (-1) (obj r1)).2 := by
            unfold obj Reader.shiftBack shift
            simp only [ReaderObj.mk.injEq, true_and]
            omega
          have := ih prev hp r1.shiftBack
          rw [e] at this
          exact this
    cases status with
    | none =>
      constructor
      · unfold Melodia.readEvent readEvent
        dsimp only
        rw [bind_assoc]
        refine Ref.bind (ref_read8 r) fun s r1 h1 => ?_
        refine (rest s r1 (Or.inr ?_)).1
        unfold Reader.read8 Reader.read at h1
        split at h1
        · cases h1
        · cases h1; simp
      · intro e p r' h
        unfold Melodia.readEvent at h
        dsimp only at h
        cases h1 : r.read8 with
        | error x => rw [h1] at h; cases h
        | ok q =>
          obtain ⟨s, r1⟩ := q
          rw [h1] at h
          refine (rest s r1 (Or.inr ?_)).2 e p r' h
          unfold Reader.read8 Reader.read at h1
          split at h1
          · cases h1
          · cases h1; simp
    | some s =>
      constructor
      · unfold Melodia.readEvent readEvent
        exact (rest s r (Or.inl hs)).1
      · intro e p r' h
        unfold Melodia.readEvent at h
        exact (rest s r (Or.inl hs)).2 e p r' h

theorem ref_eventLoop (fuel : Nat) (st : ParseState) (hst : StatusOk st.previousStatus) (r : Reader) :
    (eventLoop fuel st (obj r)).1 = Melodia.eventLoop fuel st r := by
  induction fuel generalizing st r with
  | zero => rfl
  | succ fuel ih =>
    unfold Melodia.eventLoop eventLoop
    have h1 := ref_readVarLen r
    cases hv : r.readVarLen with
    | error e =>
      rw [hv] at h1
      have h1' : (readVarLen (obj r)).1 = .error e := h1
      rcases hw : readVarLen (obj r) with ⟨v, s'⟩
      rw [hw] at h1'
      simp only at h1'
      subst h1'
      simp only [bind, Except.bind, hw]
    | ok q =>
      obtain ⟨d, r1⟩ := q
      rw [hv] at h1
      have h1' : readVarLen (obj r) = (.ok d, obj r1) := h1
      obtain ⟨h2, h3⟩ := ref_readEvent recursionLimit none st.previousStatus trivial hst r1
      cases he : Melodia.readEvent recursionLimit none st.previousStatus r1 with
      | error e =>
        rw [he] at h2
        have h2' : (readEvent recursionLimit none st.previousStatus (obj r1)).1 = .error e := h2
        rcases hw : readEvent recursionLimit none st.previousStatus (obj r1) with ⟨v, s'⟩
        rw [hw] at h2'
        simp only at h2'
        subst h2'
        simp only [bind, Except.bind, h1', hw, he]
      | ok q =>
        obtain ⟨ev, p, r2⟩ := q
        rw [he] at h2
        have h2' : readEvent recursionLimit none st.previousStatus (obj r1) = (.ok (ev, p), obj r2) := h2
        have h4 := h3 ev p r2 he
        simp only [bind, Except.bind, h1', h2', he, lift]
        cases hh : handleEvent { st with previousStatus := p, lastTime := st.lastTime + d } (st.lastTime + d) ev with
        | error e => rfl
        | ok o =>
          cases o with
          | none => rfl
          | some st' =>
            dsimp only
            refine ih st' ?_ r2
            unfold handleEvent at hh
            split at hh
            · cases hh; exact h4
            · cases hh; exact h4
            · cases hh
            · cases hh; exact h4
            · rename_i nn dd cc bb
              cases hn : Signature.new nn ((1 <<< dd : Nat) : Int) with
              | error e => rw [hn] at hh; cases hh
              | ok s => rw [hn] at hh; cases hh; exact h4
            · cases hh; exact h4

end RM

end Melodia
