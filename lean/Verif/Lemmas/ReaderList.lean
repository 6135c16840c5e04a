/-
The parser of `_parse_track` restated over the list of remaining bytes, and the proof that the model
(which keeps an index into the data) agrees with it.
-/
import Verif.Lemmas.Bytes

set_option autoImplicit false

namespace Melodia

/-- The reader stands before the bytes `l`. -/
def Reader.At (r : Reader) (l : Bytes) : Prop := r.idx ≤ r.data.length ∧ r.data.drop r.idx = l

/-- The two computations fail alike or succeed with the same value and matching remaining bytes. -/
def Sim {α : Type} : PyM (α × Reader) → PyM (α × Bytes) → Prop
  | .error e, .error e' => e = e'
  | .ok (a, r), .ok (b, l) => a = b ∧ r.At l
  | _, _ => False

theorem Sim.bind {α β : Type} {x : PyM (α × Reader)} {y : PyM (α × Bytes)}
    {f : α × Reader → PyM (β × Reader)} {g : α × Bytes → PyM (β × Bytes)} (h : Sim x y)
    (hf : ∀ a r l, r.At l → Sim (f (a, r)) (g (a, l))) : Sim (x >>= f) (y >>= g) := by
  rcases x with e | ⟨a, r⟩ <;> rcases y with e' | ⟨b, l⟩ <;> simp only [Sim] at h
  · subst h; exact rfl
  · obtain ⟨rfl, h⟩ := h; exact hf _ _ _ h

namespace L

/-- Take `n` bytes. -/
def read (n : Nat) (l : Bytes) : PyM (Bytes × Bytes) :=
  if l.length < n then .error .parsingError else .ok (l.take n, l.drop n)

/-- Take one byte. -/
def read8 : Bytes → PyM (Nat × Bytes)
  | [] => .error .parsingError
  | b :: l => .ok (b.toNat, l)

/-- Read a variable-length quantity, continuing from `acc`. -/
def readVar : Nat → Bytes → PyM (Nat × Bytes)
  | _, [] => .error .parsingError
  | acc, b :: l =>
    if b.toNat < 128 then .ok (acc * 128 + b.toNat, l) else readVar (acc * 128 + b.toNat % 128) l

/-- The contents of a meta event of the given kind and length. -/
def metaBody (kind length : Nat) (l : Bytes) : PyM (Event × Bytes) :=
  if kind = 0x2F then
    if length ≠ 0 then .error .parsingError else pure (.endOfTrack, l)
  else if kind = 0x20 then
    if length ≠ 1 then .error .parsingError
    else read8 l >>= fun a => pure (.globalChannel a.1, a.2)
  else if kind = 0x58 then
    if length ≠ 4 then .error .parsingError
    else read8 l >>= fun a => read8 a.2 >>= fun b => read8 b.2 >>= fun c => read8 c.2 >>= fun d =>
      pure (.timeSignature a.1 b.1 c.1 d.1, d.2)
  else read length l >>= fun a => pure (.unsupported, a.2)

/-- Read a meta event after its status byte. -/
def readMeta (l : Bytes) : PyM (Event × Bytes) :=
  read8 l >>= fun a => readVar 0 a.2 >>= fun b => metaBody a.1 b.1 b.2

/-- Number of data bytes of a status byte, for the events the reader skips. -/
def dataLength (status : Nat) : Option Nat :=
  if status < 0x80 then none
  else if status < 0xC0 then some 2
  else if status < 0xE0 then some 1
  else if status < 0xF0 then some 2
  else if status = 0xF1 then some 1
  else if status = 0xF2 then some 2
  else if status = 0xF3 then some 1
  else if status = 0xF6 ∨ status = 0xF8 ∨ status = 0xFA ∨ status = 0xFB ∨ status = 0xFC ∨
    status = 0xFE then some 0
  else none

/-- The note event with the given status and data bytes (note on with velocity 0 is note off). -/
def noteEvent (status pitch velocity : Nat) : Event :=
  if status / 16 = 8 ∨ velocity = 0 then .noteOff (status % 16) pitch velocity
  else .noteOn (status % 16) pitch velocity

/-- Read the data bytes of an event with status byte in `0x80 .. 0xFE`. -/
def readStatus (status : Nat) (l : Bytes) : PyM (Event × Bytes) :=
  if status / 16 = 8 ∨ status / 16 = 9 then
    read8 l >>= fun a => read8 a.2 >>= fun b => pure (noteEvent status a.1 b.1, b.2)
  else
    match dataLength status with
    | none => .error .parsingError
    | some n => read n l >>= fun a => pure (.unsupported, a.2)

/-- Read the data of an event with the given status byte. -/
def readWith (status : Nat) (l : Bytes) : PyM (Event × Bytes) :=
  if status = 0xFF then readMeta l else readStatus status l

/-- An event without status byte uses the previous one. -/
def readRunning (prev : Option Nat) (l : Bytes) : PyM ((Event × Option Nat) × Bytes) :=
  match prev with
  | none => .error .recursionError
  | some p => do
    let (e, l) ← readWith p l
    pure ((e, some p), l)

/-- Read an event; `prev` is the status byte of the previous event. -/
def readEvent (prev : Option Nat) : Bytes → PyM ((Event × Option Nat) × Bytes)
  | [] => .error .parsingError
  | b :: l =>
    if 0x80 ≤ b.toNat then do
      let (e, l) ← readWith b.toNat l
      pure ((e, some b.toNat), l)
    else readRunning prev (b :: l)

/-- What the main loop does with an event that has been read: stop, or go on with the rest. -/
def next (st : ParseState) (deltaTime : Nat) (x : Event × Option Nat) : PyM (ParseState × Bool) :=
  let st' := { st with lastTime := st.lastTime + deltaTime, previousStatus := x.2 }
  match handleEvent st' (st.lastTime + deltaTime) x.1 with
  | .error e => .error e
  | .ok none => .ok (st', true)
  | .ok (some st'') => .ok (st'', false)

/-- The main loop: final state and bytes after the end of track. -/
def eventLoop : Nat → ParseState → Bytes → PyM (ParseState × Bytes)
  | 0, _, _ => .error .outOfFuel
  | fuel + 1, st, l => do
    let (deltaTime, l) ← readVar 0 l
    let (x, l) ← readEvent st.previousStatus l
    let (st, stop) ← next st deltaTime x
    if stop then pure (st, l) else eventLoop fuel st l

end L

namespace Reader

theorem At.length_eq {r : Reader} {l : Bytes} (h : r.At l) : r.data.length = r.idx + l.length := by
  have := congrArg List.length h.2
  rw [List.length_drop] at this
  have := h.1
  omega

theorem sim_read {r : Reader} {l : Bytes} (h : r.At l) (n : Nat) : Sim (r.read n) (L.read n l) := by
  have hl := h.length_eq
  unfold read L.read
  by_cases hn : l.length < n
  · rw [if_pos (by omega), if_pos hn]; exact rfl
  · rw [if_neg (by omega), if_neg hn]
    refine ⟨by rw [h.2], ?_, ?_⟩
    · simp only; omega
    · simp only; rw [← h.2, List.drop_drop]

theorem sim_read8 {r : Reader} {l : Bytes} (h : r.At l) : Sim r.read8 (L.read8 l) := by
  have := sim_read h 1
  unfold read8
  cases l with
  | nil =>
    have e : L.read 1 [] = .error .parsingError := rfl
    rw [e] at this
    rcases hr : r.read 1 with e | ⟨a, r'⟩ <;> rw [hr] at this <;> simp only [Sim] at this
    subst this; exact rfl
  | cons b l =>
    have e : L.read 1 (b :: l) = .ok ([b], l) := by simp [L.read]
    rw [e] at this
    rcases hr : r.read 1 with e | ⟨a, r'⟩ <;> rw [hr] at this <;> simp only [Sim] at this
    obtain ⟨rfl, h'⟩ := this
    refine ⟨?_, h'⟩
    simp [fromBytesBig]

theorem read8_cons {r : Reader} {b : UInt8} {l : Bytes} (h : r.At (b :: l)) :
    r.read8 = .ok (b.toNat, ⟨r.data, r.idx + 1⟩) := by
  have hl := h.length_eq
  unfold read8 read
  rw [if_neg (by rw [hl]; simp only [List.length_cons]; omega), h.2]
  show Except.ok _ = _
  simp [fromBytesBig]

theorem and128 (b : UInt8) : (b.toNat &&& 0x80 = 0) ↔ b.toNat < 128 := by
  have key : ∀ n : Fin 256, (n.val &&& 0x80 = 0) ↔ n.val < 128 := by decide +kernel
  exact key ⟨b.toNat, b.toNat_lt⟩

theorem and127 (n : Nat) : n &&& 0x7F = n % 128 := by
  rw [show (0x7f : Nat) = 2 ^ 7 - 1 from rfl, Nat.and_two_pow_sub_one_eq_mod]

theorem sim_varLenLoop : ∀ (l : Bytes) (fuel acc : Nat) (r : Reader), r.At l → l.length < fuel →
    Sim (varLenLoop fuel acc r) (L.readVar acc l) := by
  intro l
  induction l with
  | nil =>
    intro fuel acc r h hf
    obtain ⟨f, rfl⟩ : ∃ f, fuel = f + 1 := ⟨fuel - 1, by omega⟩
    rw [varLenLoop, L.readVar]
    have := sim_read8 h
    rcases hr : r.read8 with e | ⟨a, r'⟩ <;> rw [hr] at this <;> simp only [Sim, L.read8] at this
    subst this; exact rfl
  | cons b l ih =>
    intro fuel acc r h hf
    obtain ⟨f, rfl⟩ : ∃ f, fuel = f + 1 := ⟨fuel - 1, by omega⟩
    have hb := sim_read8 h
    rw [varLenLoop, L.readVar, read8_cons h]
    rw [read8_cons h] at hb
    have hat := hb.2
    show Sim (if b.toNat &&& 0x80 = 0 then pure ((acc <<< 7) + (b.toNat &&& 0x7F), _)
      else varLenLoop f ((acc <<< 7) + (b.toNat &&& 0x7F)) _) _
    rw [and127, Nat.shiftLeft_eq]
    by_cases h7 : b.toNat < 128
    · rw [if_pos ((and128 b).2 h7), if_pos h7]
      refine ⟨?_, hat⟩
      norm_num; omega
    · rw [if_neg (fun h => h7 ((and128 b).1 h)), if_neg h7]
      exact ih f _ _ hat (by simp only [List.length_cons] at hf; omega)

theorem sim_readVarLen {r : Reader} {l : Bytes} (h : r.At l) : Sim r.readVarLen (L.readVar 0 l) := by
  unfold readVarLen
  cases l with
  | nil =>
    have := sim_read8 h
    rw [L.readVar]
    rcases hr : r.read8 with e | ⟨a, r'⟩ <;> rw [hr] at this <;> simp only [Sim, L.read8] at this
    subst this; exact rfl
  | cons b l =>
    have hb := sim_read8 h
    rw [read8_cons h] at hb ⊢
    have hat := hb.2
    rw [L.readVar]
    show Sim (if b.toNat &&& 0x80 = 0 then pure (b.toNat, _)
      else varLenLoop _ (b.toNat &&& 0x7F) _) _
    rw [and127]
    by_cases h7 : b.toNat < 128
    · rw [if_pos ((and128 b).2 h7), if_pos h7]
      exact ⟨by omega, hat⟩
    · rw [if_neg (fun h => h7 ((and128 b).1 h)), if_neg h7, Nat.zero_mul, Nat.zero_add]
      refine sim_varLenLoop l _ _ _ hat ?_
      have := hat.length_eq
      omega

theorem sysexLoop_error : ∀ (fuel : Nat) (l : Bytes) (r : Reader), r.At l → l.length < fuel →
    sysexLoop fuel r = .error .parsingError := by
  intro fuel
  induction fuel with
  | zero => intro l r _ h; omega
  | succ f ih =>
    intro l r h hf
    rw [sysexLoop]
    have hs := sim_read h 1
    cases l with
    | nil =>
      have e : L.read 1 [] = .error .parsingError := rfl
      rw [e] at hs
      rcases hr : r.read 1 with e | ⟨a, r'⟩ <;> rw [hr] at hs <;> simp only [Sim] at hs
      subst hs; exact rfl
    | cons b l =>
      have e : L.read 1 (b :: l) = .ok ([b], l) := by simp [L.read]
      rw [e] at hs
      rcases hr : r.read 1 with e | ⟨a, r'⟩ <;> rw [hr] at hs <;> simp only [Sim] at hs
      exact ih l r' hs.2 (by simp only [List.length_cons] at hf; omega)

end Reader

theorem sim_pure {α : Type} (a : α) {r : Reader} {l : Bytes} (h : r.At l) :
    Sim (pure (a, r)) (pure (a, l)) := ⟨rfl, h⟩

theorem sim_error {α : Type} (e : PyErr) : Sim (α := α) (.error e) (.error e) := rfl

theorem sim_readMeta {r : Reader} {l : Bytes} (h : r.At l) : Sim (readMeta r) (L.readMeta l) := by
  unfold readMeta L.readMeta
  refine Sim.bind (Reader.sim_read8 h) fun kind r l h => ?_
  refine Sim.bind (Reader.sim_readVarLen h) fun length r l h => ?_
  simp only [L.metaBody]
  split_ifs
  · exact sim_error _
  · exact sim_pure _ h
  · exact sim_error _
  · exact Sim.bind (Reader.sim_read8 h) fun c r l h => sim_pure _ h
  · exact sim_error _
  · refine Sim.bind (Reader.sim_read8 h) fun nn r l h => ?_
    refine Sim.bind (Reader.sim_read8 h) fun dd r l h => ?_
    refine Sim.bind (Reader.sim_read8 h) fun cc r l h => ?_
    exact Sim.bind (Reader.sim_read8 h) fun bb r l h => sim_pure _ h
  · exact Sim.bind (Reader.sim_read h _) fun c r l h => sim_pure _ h

/-- The table of event lengths, for the status bytes that reach it. -/
theorem eventLengths_get : ∀ s : Fin 256, 0x80 ≤ s.val → s.val ≠ 0xFF → s.val ≠ 0xF0 →
    eventLengths[s.val]? = some (match L.dataLength s.val with | none => -1 | some n => (n : Int)) := by
  decide +kernel

theorem eventLengths_get_f0 : eventLengths[0xF0]? = some (-1) := by decide +kernel

theorem sim_readStatus {s : Nat} (h1 : 0x80 ≤ s) (h2 : s < 0xFF) {r : Reader} {l : Bytes}
    (h : r.At l) : Sim (readStatusEvent s r) (L.readStatus s l) := by
  unfold readStatusEvent L.readStatus
  have e1 : s >>> 4 = s / 16 := by rw [Nat.shiftRight_eq_div_pow]
  have e2 : s &&& 0xF = s % 16 := by
    rw [show (0xF : Nat) = 2 ^ 4 - 1 from rfl, Nat.and_two_pow_sub_one_eq_mod]
  simp only [e1, e2]
  by_cases k8 : s / 16 = 8
  · rw [if_pos k8, if_pos (Or.inl k8)]
    refine Sim.bind (Reader.sim_read8 h) fun p r l h => ?_
    refine Sim.bind (Reader.sim_read8 h) fun v r l h => ?_
    rw [show L.noteEvent s p v = .noteOff (s % 16) p v from if_pos (Or.inl k8)]
    exact sim_pure _ h
  · rw [if_neg k8]
    by_cases k9 : s / 16 = 9
    · rw [if_pos k9, if_pos (Or.inr k9)]
      refine Sim.bind (Reader.sim_read8 h) fun p r l h => ?_
      refine Sim.bind (Reader.sim_read8 h) fun v r l h => ?_
      simp only []
      split_ifs with hv
      · rw [show L.noteEvent s p v = .noteOff (s % 16) p v from if_pos (Or.inr hv)]
        exact sim_pure _ h
      · rw [show L.noteEvent s p v = .noteOn (s % 16) p v from if_neg (by rintro (h | h) <;> contradiction)]
        exact sim_pure _ h
    · have k89 : ¬ (s / 16 = 8 ∨ s / 16 = 9) := by omega
      rw [if_neg k9, if_neg k89]
      by_cases kf : s = 0xF0
      · rw [if_pos kf, Reader.sysexLoop_error _ l r h (by have := h.length_eq; omega)]
        subst kf
        exact rfl
      · rw [if_neg kf]
        have ht := eventLengths_get ⟨s, by omega⟩ h1 (by simp only; omega) kf
        simp only at ht
        rw [ht]
        cases hd : L.dataLength s with
        | none =>
          show Sim (if (-1 : Int) = -1 then _ else _) _
          rw [if_pos rfl]
          exact sim_error _
        | some n =>
          show Sim (if ((n : Nat) : Int) = -1 then _ else _) _
          rw [if_neg (by omega), Int.toNat_natCast]
          exact Sim.bind (Reader.sim_read h _) fun c r l h => sim_pure _ h

/-- Previous status bytes are absent or at least 0x80. -/
def GoodPrev (p : Option Nat) : Prop := ∀ s, p = some s → 0x80 ≤ s ∧ s < 256

/-- Rearranged result of the model's `readEvent`. -/
def assocEvent (x : PyM (Event × Option Nat × Reader)) : PyM ((Event × Option Nat) × Reader) :=
  match x with
  | .error e => .error e
  | .ok (e, p, r) => .ok ((e, p), r)

theorem readEvent_status (depth s : Nat) (prev : Option Nat) (h1 : 0x80 ≤ s) (h2 : s < 256)
    {r : Reader} {l : Bytes} (h : r.At l) :
    Sim (assocEvent (readEvent (depth + 1) (some s) prev r))
      (do let (e, l) ← L.readWith s l; pure ((e, some s), l)) := by
  rw [readEvent]
  show Sim (assocEvent (if s = 0xFF then _ else if s ≥ 0x80 then _ else _)) _
  unfold L.readWith
  by_cases hf : s = 0xFF
  · rw [if_pos hf, if_pos hf]
    have := sim_readMeta h
    rcases hx : readMeta r with e | ⟨a, r'⟩ <;> rcases hy : L.readMeta l with e' | ⟨b, l'⟩ <;>
      rw [hx, hy] at this <;> simp only [Sim] at this
    · subst this; exact rfl
    · obtain ⟨rfl, h'⟩ := this
      exact ⟨rfl, h'⟩
  · rw [if_neg hf, if_pos h1, if_neg hf]
    have := sim_readStatus h1 (by omega) h
    rcases hx : readStatusEvent s r with e | ⟨a, r'⟩ <;> rcases hy : L.readStatus s l with e' | ⟨b, l'⟩ <;>
      rw [hx, hy] at this <;> simp only [Sim] at this
    · subst this; exact rfl
    · obtain ⟨rfl, h'⟩ := this
      exact ⟨rfl, h'⟩

/-- With no previous status a data byte makes `read_event` call itself for ever. -/
theorem readEvent_loops {b : UInt8} {l : Bytes} (hb : b.toNat < 0x80) : ∀ (depth : Nat) (r : Reader),
    r.At (b :: l) → readEvent depth none none r = .error .recursionError := by
  intro depth
  induction depth with
  | zero => intro r _; rfl
  | succ d ih =>
    intro r h
    rw [readEvent]
    simp only []
    rw [Reader.read8_cons h]
    show (if b.toNat = 0xFF then _ else if b.toNat ≥ 0x80 then _ else _) = _
    rw [if_neg (by omega), if_neg (by omega)]
    exact ih _ h

theorem sim_readEvent (depth : Nat) {prev : Option Nat} (hp : GoodPrev prev) {r : Reader} {l : Bytes}
    (h : r.At l) : Sim (assocEvent (readEvent (depth + 2) none prev r)) (L.readEvent prev l) := by
  cases l with
  | nil =>
    rw [readEvent, L.readEvent]
    have := Reader.sim_read8 h
    rcases hr : r.read8 with e | ⟨a, r'⟩ <;> rw [hr] at this <;> simp only [Sim, L.read8] at this
    subst this; exact rfl
  | cons b l =>
    have hb := Reader.sim_read8 h
    rw [Reader.read8_cons h] at hb
    have hat := hb.2
    rw [L.readEvent]
    have hlt := b.toNat_lt
    by_cases hs : 0x80 ≤ b.toNat
    · rw [if_pos hs]
      have := readEvent_status (depth + 1) b.toNat prev hs (by omega) hat
      unfold readEvent at this ⊢
      simp only [] at this ⊢
      rw [Reader.read8_cons h]
      exact this
    · rw [if_neg hs]
      cases prev with
      | none =>
        rw [readEvent_loops (by omega) _ _ h]
        exact rfl
      | some p =>
        obtain ⟨p1, p2⟩ := hp p rfl
        have := readEvent_status depth p (some p) p1 p2 h
        rw [readEvent]
        simp only []
        rw [Reader.read8_cons h]
        show Sim (assocEvent (if b.toNat = 0xFF then _ else if b.toNat ≥ 0x80 then _ else
          readEvent (depth + 1) (some p) (some p) _)) _
        rw [if_neg (by omega), if_neg (by omega)]
        exact this

theorem L.readEvent_prev {prev : Option Nat} (hp : GoodPrev prev) {l l' : Bytes} {e : Event}
    {p : Option Nat} (h : L.readEvent prev l = .ok ((e, p), l')) : GoodPrev p := by
  cases l with
  | nil => cases h
  | cons b l =>
    rw [L.readEvent] at h
    split at h
    · rename_i hs
      rcases hx : L.readWith b.toNat l with e | ⟨a, r'⟩
      · rw [hx] at h; cases h
      · rw [hx] at h
        cases h
        intro s hs'
        cases hs'
        exact ⟨hs, b.toNat_lt⟩
    · cases prev with
      | none => cases h
      | some q =>
        rw [L.readRunning] at h
        rcases hx : L.readWith q (b :: l) with e | ⟨a, r'⟩
        · rw [hx] at h; cases h
        · rw [hx] at h
          cases h
          exact hp

theorem handleEvent_prev {st st' : ParseState} {t : Int} {e : Event}
    (h : handleEvent st t e = .ok (some st')) : st'.previousStatus = st.previousStatus ∧
      st'.lastTime = st.lastTime := by
  unfold handleEvent at h
  split at h
  · cases h; exact ⟨rfl, rfl⟩
  · cases h; exact ⟨rfl, rfl⟩
  · cases h
  · cases h; exact ⟨rfl, rfl⟩
  · rename_i nn dd _ _
    rcases hs : Signature.new nn ((1 <<< dd : Nat) : Int) with e | s
    · rw [hs] at h; cases h
    · rw [hs] at h; cases h; exact ⟨rfl, rfl⟩
  · cases h; exact ⟨rfl, rfl⟩

/-- The model's main loop is the list version. -/
theorem eventLoop_eq : ∀ (fuel : Nat) (st : ParseState) (r : Reader) (l : Bytes), r.At l →
    GoodPrev st.previousStatus → eventLoop fuel st r = (L.eventLoop fuel st l).map Prod.fst := by
  intro fuel
  induction fuel with
  | zero => intros; rfl
  | succ f ih =>
    intro st r l h hp
    rw [eventLoop, L.eventLoop]
    have h1 := Reader.sim_readVarLen h
    rcases hx : r.readVarLen with e | ⟨d, r1⟩ <;> rcases hy : L.readVar 0 l with e' | ⟨d', l1⟩ <;>
      rw [hx, hy] at h1 <;> simp only [Sim] at h1
    · subst h1; rfl
    · obtain ⟨rfl, h1⟩ := h1
      show (readEvent recursionLimit none st.previousStatus r1 >>= _) =
        (L.readEvent st.previousStatus l1 >>= _).map _
      have h2 := sim_readEvent 998 hp h1
      rcases hx2 : readEvent recursionLimit none st.previousStatus r1 with e | ⟨ev, p, r2⟩ <;>
        rcases hy2 : L.readEvent st.previousStatus l1 with e' | ⟨⟨ev', p'⟩, l2⟩ <;>
        rw [hy2] at h2 <;>
        (rw [show 998 + 2 = recursionLimit from rfl, hx2] at h2) <;> simp only [Sim, assocEvent] at h2
      · subst h2; rfl
      · obtain ⟨h2, h3⟩ := h2
        cases h2
        show (handleEvent _ _ _ >>= _) = (L.next _ _ _ >>= _).map _
        unfold L.next
        simp only []
        rcases hh : handleEvent { st with lastTime := st.lastTime + d, previousStatus := p }
          (st.lastTime + d) ev with e | o
        · rfl
        · cases o with
          | none => rfl
          | some st' =>
            show eventLoop f st' r2 = (L.eventLoop f st' l2).map Prod.fst
            apply ih st' r2 l2 h3
            rw [(handleEvent_prev hh).1]
            exact L.readEvent_prev hp hy2

theorem eventLoop_init (data : Bytes) :
    eventLoop (data.length + 1) ParseState.init ⟨data, 0⟩ =
      (L.eventLoop (data.length + 1) ParseState.init data).map Prod.fst :=
  eventLoop_eq _ _ _ _ ⟨Nat.zero_le _, rfl⟩ (by intro s h; cases h)

end Melodia
