/-
The writer of midi.py: executing the text agrees with the model (Verif/Model/MidiWrite.lean).
-/
import Verif.Spec.SourceWriter
import Verif.Spec.Midi
import Verif.Lemmas.FloatMore
import Verif.Lemmas.ToneMore

set_option autoImplicit false

namespace Melodia

open Melodia.Python

namespace Python

/-- A computation has this result and only makes new objects. -/
def Quiet {α : Type} (x : M α) (r : PyM α) : Prop :=
  ∀ h, ∃ h', Frame (fun _ => False) h h' ∧ x h = some (match r with | .ok a => .ok a h' | .error e => .err e h')

theorem Quiet.liftPy {α : Type} (r : PyM α) : Quiet (liftPy r) r := by
  intro h
  refine ⟨h, Frame.refl _ _, ?_⟩
  cases r <;> rfl

theorem Quiet.pure {α : Type} (a : α) : Quiet (Pure.pure a) (Pure.pure a) := Quiet.liftPy (.ok a)

theorem Quiet.raise {α : Type} (e : PyErr) : Quiet (raise e : M α) (.error e) := Quiet.liftPy (.error e)

theorem Quiet.alloc (o : Obj) : Quiet (do let _ ← alloc o; Pure.pure ()) (Pure.pure ()) :=
  fun h => ⟨h.push o, Frame.push h o, rfl⟩

theorem Quiet.allocPy {α : Type} (o : Obj) (r : PyM α) : Quiet (do let _ ← Python.alloc o; Python.liftPy r) r :=
  fun h => ⟨h.push o, Frame.push h o, by cases r <;> rfl⟩

theorem Quiet.bind {α β : Type} {x : M α} {r : PyM α} {f : α → M β} {g : α → PyM β} (hx : Quiet x r)
    (hf : ∀ a, r = .ok a → Quiet (f a) (g a)) : Quiet (x >>= f) (r >>= g) := by
  intro h
  obtain ⟨h1, f1, e1⟩ := hx h
  cases r with
  | error e => exact ⟨h1, f1, by rw [bind_apply, e1]; rfl⟩
  | ok a =>
    obtain ⟨h2, f2, e2⟩ := hf a rfl h1
    refine ⟨h2, f1.trans f2 (fun _ => id) (fun _ _ => id), ?_⟩
    rw [bind_apply, e1]
    exact e2

theorem Quiet.ok {α : Type} {x : M α} {r : PyM α} {a : α} (hx : Quiet x r) (hr : r = .ok a) (h : Heap) :
    ∃ h', Frame (fun _ => False) h h' ∧ x h = some (.ok a h') := by
  subst hr; exact hx h

theorem Quiet.err {α : Type} {x : M α} {r : PyM α} {e : PyErr} (hx : Quiet x r) (hr : r = .error e) (h : Heap) :
    ∃ h', Frame (fun _ => False) h h' ∧ x h = some (.err e h') := by
  subst hr; exact hx h

/-- `b''.join(l)`. -/
theorem call_join (W : World) (P : Program) {h : Heap} {n : Nat} {vs : List Val} (hn : h.objs[n]? = some (.list vs)) :
    call P W (.meth (.bytes []) "join") [.ref n] [] h = liftPy ((joinBytes vs).map Val.bytes) h := by
  rw [call_prim P W (self := .bytes []) (m := "join") [.ref n] (by rfl) (by simp), primMeth]
  refine (bind_ok (load_ok hn)).trans ?_
  change (liftPy (joinBytes vs) >>= fun b => pure (Val.bytes b)) h = _
  cases joinBytes vs <;> rfl

/-- `b''.join([...])`. -/
@[py] theorem join_new (W : World) (P : Program) {β : Type} (vs : List Val) (f : Val → M β) :
    (alloc (.list vs) >>= fun a => call P W (.meth (.bytes []) "join") [.ref a] [] >>= f) =
      (do let _ ← alloc (.list vs); let b ← liftPy (joinBytes vs); f (.bytes b)) := by
  ext1 h
  rw [bind_ok (alloc_apply _ _), bind_ok (alloc_apply _ _), bind_apply, call_join W P (Heap.push_at h _)]
  cases h' : joinBytes vs <;> rfl

@[py] theorem join_new' (W : World) (P : Program) (vs : List Val) :
    (alloc (.list vs) >>= fun a => call P W (.meth (.bytes []) "join") [.ref a] []) =
      (do let _ ← alloc (.list vs); let b ← liftPy (joinBytes vs); pure (.bytes b)) := by
  have := join_new W P vs (Pure.pure (f := M))
  simpa using this

theorem joinBytes_map (l : List Bytes) : joinBytes (l.map Val.bytes) = .ok l.flatten := by
  induction l with
  | nil => rfl
  | cons b l ih => rw [List.map_cons, joinBytes, ih]; rfl

end Python

namespace Source

variable (W : World)

/-! ### Names and methods -/

@[py] theorem writer_init : program.method "MIDIWriter" "__init__" = some MIDIWriter.dunder_init := by rfl
@[py] theorem writer_pulses : program.method "MIDIWriter" "_signature_to_pulses" = some MIDIWriter._signature_to_pulses := by rfl
@[py] theorem writer_on : program.method "MIDIWriter" "_format_note_on" = some MIDIWriter._format_note_on := by rfl
@[py] theorem writer_off : program.method "MIDIWriter" "_format_note_off" = some MIDIWriter._format_note_off := by rfl
@[py] theorem writer_varlen : program.method "MIDIWriter" "_format_var_len" = some MIDIWriter._format_var_len := by rfl
@[py] theorem writer_sig : program.method "MIDIWriter" "_format_signature" = some MIDIWriter._format_signature := by rfl
@[py] theorem writer_tempo : program.method "MIDIWriter" "_format_tempo" = some MIDIWriter._format_tempo := by rfl
@[py] theorem writer_chunk : program.method "MIDIWriter" "_format_chunk" = some MIDIWriter._format_chunk := by rfl
@[py] theorem writer_header : program.method "MIDIWriter" "_format_header_chunk" = some MIDIWriter._format_header_chunk := by rfl
@[py] theorem writer_dump : program.method "MIDIWriter" "dump" = some MIDIWriter.dump := by rfl
@[py] theorem writer_dumps : program.method "MIDIWriter" "dumps" = some MIDIWriter.dumps := by rfl
@[py] theorem writer_class : program.classOf "MIDIWriter" = some MIDIWriter.classDef := by rfl
@[py] theorem writer_mutable : MIDIWriter.classDef.mutable = false := by rfl

@[py] theorem midi_name_tone : globalName program W "melodia.io.midi" "Tone" = pure (.cls "Tone") := by
  rw [globalName]; rfl
@[py] theorem midi_name_writer : globalName program W "melodia.io.midi" "MIDIWriter" = pure (.cls "MIDIWriter") := by
  rw [globalName]; rfl
@[py] theorem midi_name_value : globalName program W "melodia.io.midi" "ValueError" = pure (.excClass .valueError) := by
  rw [globalName]; rfl
@[py] theorem midi_name_type : globalName program W "melodia.io.midi" "TypeError" = pure (.excClass .typeError) := by
  rw [globalName]; rfl
@[py] theorem midi_name_isinstance :
    globalName program W "melodia.io.midi" "isinstance" = pure (.builtin .isinstance) := by rw [globalName]; rfl
@[py] theorem midi_name_int : globalName program W "melodia.io.midi" "int" = pure (.builtin .int) := by
  rw [globalName]; rfl
@[py] theorem midi_name_str : globalName program W "melodia.io.midi" "str" = pure (.builtin .str) := by
  rw [globalName]; rfl
@[py] theorem midi_name_len : globalName program W "melodia.io.midi" "len" = pure (.builtin .len) := by
  rw [globalName]; rfl
@[py] theorem midi_name_max : globalName program W "melodia.io.midi" "max" = pure (.builtin .max) := by
  rw [globalName]; rfl
@[py] theorem midi_name_min : globalName program W "melodia.io.midi" "min" = pure (.builtin .min) := by
  rw [globalName]; rfl
@[py] theorem midi_name_itemgetter :
    globalName program W "melodia.io.midi" "itemgetter" = pure (.builtin .itemgetter) := by rw [globalName]; rfl
@[py] theorem midi_name_io : globalName program W "melodia.io.midi" "io" = pure (.module "io") := by
  rw [globalName]; rfl
@[py] theorem io_bytesIO : getAttr program W (.module "io") "BytesIO" = pure (.builtin .bytesIO) := by
  rw [getAttr.eq_def]; rfl

/-! ### Attributes -/

section
variable (w : Melodia.Writer) (c : Val × Val)

@[py] theorem writerV_ppq : getAttr program W (writerV w c) "_pulses_per_quarter" = pure (.int w.ppq) :=
  getAttr_field _ _ _ _ _ _ rfl
@[py] theorem writerV_ppw : getAttr program W (writerV w c) "_pulses_per_whole" = pure (.int w.ppw) :=
  getAttr_field _ _ _ _ _ _ rfl
@[py] theorem writerV_c : getAttr program W (writerV w c) "_middle_c" = pure c.1 :=
  getAttr_field _ _ _ _ _ _ rfl
@[py] theorem writerV_delta : getAttr program W (writerV w c) "_middle_c_delta" = pure (.int w.middleCDelta) :=
  getAttr_field _ _ _ _ _ _ rfl
@[py] theorem writerV_bpm : getAttr program W (writerV w c) "_bpm" = pure c.2 :=
  getAttr_field _ _ _ _ _ _ rfl
@[py] theorem writerV_channel : getAttr program W (writerV w c) "_channel" = pure (.int w.channel) :=
  getAttr_field _ _ _ _ _ _ rfl
@[py] theorem readVar_writerV : readVar (writerV w c) = pure (writerV w c) := rfl
theorem writerV_meth {m : String} {f : FunDef} (hm : Dict.get [("_pulses_per_quarter", Val.int w.ppq),
      ("_pulses_per_whole", .int w.ppw), ("_middle_c", c.1), ("_middle_c_delta", .int w.middleCDelta), ("_bpm", c.2),
      ("_channel", .int w.channel)] m = .none) (hc : m ≠ "__class__") (hf : program.method "MIDIWriter" m = some f)
    (hd : f.deco ≠ .property) : getAttr program W (writerV w c) m = pure (.meth (writerV w c) m) :=
  getAttr_meth _ _ _ _ _ _ hm hc hf hd
end

@[py] theorem getAttr_to_bytes (i : Int) : getAttr program W (.int i) "to_bytes" = pure (.meth (.int i) "to_bytes") := by
  rw [getAttr.eq_def]; rfl
@[py] theorem getAttr_bit_length (i : Int) :
    getAttr program W (.int i) "bit_length" = pure (.meth (.int i) "bit_length") := by
  rw [getAttr.eq_def]; rfl
@[py] theorem getAttr_bytes_join (b : Bytes) : getAttr program W (.bytes b) "join" = pure (.meth (.bytes b) "join") := by
  rw [getAttr.eq_def]; rfl

@[py] theorem call_to_bytes_big (i n : Int) : call program W (.meth (.int i) "to_bytes") [.int n, .str ['b', 'i', 'g']] [] =
    liftPy ((toBytesBig i n.toNat).map Val.bytes) := by
  rw [call.eq_def]
  simp only [boundMethod, methodOf, instOf, pure_bind, primMeth, asInt]
  rw [if_pos (by decide)]
  cases toBytesBig i n.toNat <;> rfl
@[py] theorem call_to_bytes_little (i n : Int) :
    call program W (.meth (.int i) "to_bytes") [.int n, .str ['l', 'i', 't', 't', 'l', 'e']] [] =
    liftPy ((toBytesLittle i n.toNat).map Val.bytes) := by
  rw [call.eq_def]
  simp only [boundMethod, methodOf, instOf, pure_bind, primMeth, asInt]
  rw [if_neg (by decide), if_pos (by decide)]
  cases toBytesLittle i n.toNat <;> rfl
@[py] theorem call_bit_length (i : Int) :
    call program W (.meth (.int i) "bit_length") [] [] = pure (.int (bitLength i.natAbs)) := by
  rw [call.eq_def]; rfl

/-! ### `_signature_to_pulses` -/

theorem pulses_ok (w : Melodia.Writer) (c : Val × Val) (s : Melodia.Signature) (hs : s.Valid) :
    callFun program W MIDIWriter._signature_to_pulses [writerV w c, sigV s] [] =
      liftPy ((w.signatureToPulses s).map Val.int) := by
  obtain ⟨n, hn, hv, -⟩ := Signature.normalized_spec hs
  rw [callFun, Melodia.Writer.signatureToPulses]
  simp [py, MIDIWriter._signature_to_pulses, signature_normalized W s hs.nom, hn, Except.map, signature_nominator,
    signature_denominator, hv.denPos.ne']

/-! ### Messages -/

theorem lor_channel (k : Nat) {c : Int} (hc : 0 ≤ c) : Int.lor k c = ((k ||| c.toNat : Nat) : Int) := by
  obtain ⟨n, rfl⟩ := Int.eq_ofNat_of_zero_le hc
  rfl

/-- The values of `middle_c` an error message can contain. -/
def HasText (c : Val) : Prop := ∃ s, callBuiltin program W .str [c] [] = pure (.str s)

theorem tone_text (t : Melodia.Tone) : ∃ s, t.str = .ok s := by
  obtain ⟨c, a, h, -⟩ := @toNotation_shape ⟨fun _ => none⟩ t false
  exact ⟨_, h⟩

theorem text_of_tone (t : Melodia.Tone) : HasText W (toneV t) := by
  obtain ⟨s, hs⟩ := tone_text t
  exact ⟨s, by rw [tone_str_ok, hs]; rfl⟩

theorem text_of_int (i : Int) : HasText W (.int i) := ⟨intStr i, by rw [callBuiltin]; simp [py]⟩

theorem text_of_str (s : List Char) : HasText W (.str s) := ⟨s, by rw [callBuiltin]; simp [py]⟩

@[py] theorem call_int_float (q : ℚ) : callBuiltin program W .int [.float (.fin q)] [] = pure (.int (pyTrunc q)) := by
  rw [callBuiltin.eq_def]; rfl
@[py] theorem call_min_int (i j : Int) : callBuiltin program W .min [.int i, .int j] [] = pure (.int (min i j)) := by
  rw [callBuiltin.eq_def]
  simp only [primCall, primBest, isPlain, cmpKnown, Bool.and_self, Bool.or_self, if_true, primCmp, asInt, intCmp]
  by_cases h : j < i
  · simp [h, min_eq_right h.le]
  · simp [h, min_eq_left (not_lt.mp h)]
@[py] theorem call_max_int (i j : Int) : callBuiltin program W .max [.int i, .int j] [] = pure (.int (max i j)) := by
  rw [callBuiltin.eq_def]
  simp only [primCall, primBest, isPlain, cmpKnown, Bool.and_self, Bool.or_self, if_true, primCmp, asInt, intCmp]
  by_cases h : j > i
  · simp [h, max_eq_right h.le]
  · simp [h, max_eq_left (not_lt.mp h)]
@[py] theorem floatOp_mul (x y : PyFloat) : floatOp W .mul x y = pure (.float (floatMul x y)) := rfl

theorem fl_127 : fl 127 = 127 := by
  have := fl_int (n := 127) (by norm_num)
  simpa using this

theorem quiet_join (l : List Bytes) {b : Bytes} (hb : b = l.flatten) :
    Quiet (do
      let _ ← alloc (.list (l.map Val.bytes))
      Val.bytes <$> liftPy (joinBytes (l.map Val.bytes))) (.ok (.bytes b)) := by
  rw [joinBytes_map, hb]
  exact Quiet.allocPy _ (.ok _)

theorem quiet_join3 (x y z : PyM Bytes) :
    Quiet (do
      let a ← liftPy (x.map Val.bytes)
      let b ← liftPy (y.map Val.bytes)
      let c ← liftPy (z.map Val.bytes)
      let _ ← alloc (.list [a, b, c])
      Val.bytes <$> liftPy (joinBytes [a, b, c]))
    (Except.map Val.bytes do
      let a ← x
      let b ← y
      (fun c => a ++ (b ++ c)) <$> z) := by
  cases x <;> cases y <;> cases z
  case ok.ok.ok a b c => exact quiet_join [a, b, c] (by simp)
  all_goals exact Quiet.raise _

theorem note_on_ok (w : Melodia.Writer) (hw : w.Valid) (c : Val × Val) (hc : HasText W c.1) (n : Melodia.Note) :
    Quiet (callFun program W MIDIWriter._format_note_on [writerV w c, noteV n] []) ((w.formatNoteOn n).map Val.bytes) := by
  obtain ⟨s, hs⟩ := hc
  obtain ⟨t, ht⟩ := text_of_tone W n.tone
  rw [callFun, Melodia.Writer.formatNoteOn]
  by_cases hp : 0 ≤ n.tone.pitch + w.middleCDelta ∧ n.tone.pitch + w.middleCDelta ≤ 127
  · simp [py, MIDIWriter._format_note_on, hp, floatMul, fl_127]
    rw [show (144 : Int) = ((144 : Nat) : Int) from rfl, lor_channel _ hw.chanMin]
    exact quiet_join3 _ _ _
  · have : ¬ 0 ≤ n.tone.pitch + w.middleCDelta ∨ ¬ n.tone.pitch + w.middleCDelta ≤ 127 := by tauto
    rcases lt_or_ge (n.tone.pitch + w.middleCDelta) 0 with h | h
    · simp [py, MIDIWriter._format_note_on, not_le.mpr h, ht, hs]
      exact Quiet.raise _
    · have h2 : 127 < n.tone.pitch + w.middleCDelta := by omega
      simp [py, MIDIWriter._format_note_on, h, h2, ht, hs]
      exact Quiet.raise _

theorem note_off_ok (w : Melodia.Writer) (hw : w.Valid) (c : Val × Val) (hc : HasText W c.1) (n : Melodia.Note) :
    Quiet (callFun program W MIDIWriter._format_note_off [writerV w c, noteV n] []) ((w.formatNoteOff n).map Val.bytes) := by
  obtain ⟨s, hs⟩ := hc
  obtain ⟨t, ht⟩ := text_of_tone W n.tone
  rw [callFun, Melodia.Writer.formatNoteOff]
  by_cases hp : 0 ≤ n.tone.pitch + w.middleCDelta ∧ n.tone.pitch + w.middleCDelta ≤ 127
  · simp [py, MIDIWriter._format_note_off, hp]
    rw [show (128 : Int) = ((128 : Nat) : Int) from rfl, lor_channel _ hw.chanMin]
    exact quiet_join3 _ _ _
  · rcases lt_or_ge (n.tone.pitch + w.middleCDelta) 0 with h | h
    · simp [py, MIDIWriter._format_note_off, not_le.mpr h, ht, hs]
      exact Quiet.raise _
    · have h2 : 127 < n.tone.pitch + w.middleCDelta := by omega
      simp [py, MIDIWriter._format_note_off, h, h2, ht, hs]
      exact Quiet.raise _

theorem call_len_bytes (b : Bytes) : callBuiltin program W .len [.bytes b] [] = pure (.int b.length) := by
  rw [callBuiltin.eq_def]; rfl

theorem signature_event_ok (s : Melodia.Signature) (hs : s.Valid) (cc bb : Int) :
    Quiet (callFun program W MIDIWriter._format_signature [sigV s] [("cc", .int cc), ("bb", .int bb)])
      ((Melodia.Writer.formatSignature s cc bb).map Val.bytes) := by
  rw [callFun, Melodia.Writer.formatSignature]
  have hd : s.denominator.natAbs = s.denominator.toNat := by have := hs.denPos; omega
  simp [py, MIDIWriter._format_signature, signature_nominator, signature_denominator, hd]
  generalize toBytesBig s.nominator 1 = x
  generalize toBytesBig ((bitLength s.denominator.toNat : Int) - 1) 1 = y
  generalize toBytesBig cc 1 = z
  generalize toBytesBig bb 1 = u
  cases x <;> cases y <;> cases z <;> cases u
  case ok.ok.ok.ok a b c d => exact quiet_join [[255, 88, 4], a, b, c, d] (by simp)
  all_goals exact Quiet.raise _

theorem tempo_ok (i : Int) :
    Quiet (callFun program W MIDIWriter._format_tempo [.int i] []) ((Melodia.Writer.formatTempo i).map Val.bytes) := by
  rw [callFun, Melodia.Writer.formatTempo]
  simp [py, MIDIWriter._format_tempo]
  cases toBytesBig i 3 with
  | ok a => exact quiet_join [[255, 81, 3], a] (by simp)
  | error e => exact Quiet.raise _

theorem chunk_ok (k b : Bytes) :
    Quiet (callFun program W MIDIWriter._format_chunk [.bytes k, .bytes b] []) ((Melodia.Writer.formatChunk k b).map Val.bytes) := by
  rw [callFun, Melodia.Writer.formatChunk]
  simp [py, MIDIWriter._format_chunk, call_len_bytes]
  by_cases hk : k.length = 4
  · simp only [hk, Nat.cast_ofNat, if_true]
    cases toBytesBig (b.length : Int) 4 with
    | ok a => exact quiet_join [k, a, b] (by simp)
    | error e => exact Quiet.raise _
  · rw [if_neg (by exact_mod_cast hk), if_neg hk]
    exact Quiet.raise _

@[py] theorem writerCls_chunk :
    getAttr program W (.cls "MIDIWriter") "_format_chunk" = pure (.meth (.cls "MIDIWriter") "_format_chunk") := by
  rw [getAttr.eq_def]; rfl
theorem call_cls_chunk (args : List Val) : call program W (.meth (.cls "MIDIWriter") "_format_chunk") args [] =
    callFun program W MIDIWriter._format_chunk args [] := by
  rw [call.eq_def]; rfl

theorem header_ok (w : Melodia.Writer) (c : Val × Val) :
    Quiet (callFun program W MIDIWriter._format_header_chunk [writerV w c] [("kind", .int 0), ("n_tracks", .int 1)])
      ((w.formatHeaderChunk 0 1).map Val.bytes) := by
  rw [callFun, Melodia.Writer.formatHeaderChunk]
  simp [py, MIDIWriter._format_header_chunk, compareOp, contains, dictHas, call_cls_chunk]
  have h0 : anyEq program W (.int 0) (.tuple [.int 0, .int 1, .int 2]) 0 = pure true := by
    ext1 h
    rw [anyEq_some program W _ _ 0 h (.int 0) rfl]
    simp [py]
  simp only [h0, py, if_true]
  generalize toBytesBig 0 2 = x
  generalize toBytesBig 1 2 = y
  generalize toBytesBig w.ppq 2 = z
  cases x <;> cases y <;> cases z
  case ok.ok.ok a b c =>
    have := joinBytes_map [a, b, c]
    simp only [List.map] at this
    simp only [Except.map, py, this]
    intro h
    obtain ⟨h', f, e⟩ := chunk_ok W [77, 84, 104, 100] [a, b, c].flatten (h.push (.list [.bytes a, .bytes b, .bytes c]))
    refine ⟨h', (Frame.push h _).trans f (fun _ => id) (fun _ _ => id), ?_⟩
    rw [bind_ok (alloc_apply _ _)]
    refine e.trans ?_
    simp only [List.flatten_cons, List.flatten_nil, List.append_nil]
    rfl
  all_goals exact Quiet.raise _

theorem lift_map {α β : Type} (x : PyM α) (f : α → β) : liftPy (x.map f) = (do let a ← liftPy x; pure (f a)) := by
  cases x <;> rfl

/-! ### Variable-length quantities -/

theorem land_127 (x : Int) : Int.land x 127 = pyMod x 128 := by
  rw [pyMod, Int.fmod_eq_emod_of_nonneg _ (by norm_num)]
  cases x with
  | ofNat n =>
    change ((n &&& 127 : Nat) : Int) = (n : Int) % 128
    rw [show (127 : Nat) = 2 ^ 7 - 1 from rfl, Nat.and_two_pow_sub_one_eq_mod]
    norm_cast
  | negSucc n =>
    change ((Nat.ldiff 127 n : Nat) : Int) = Int.negSucc n % 128
    have h1 : Nat.ldiff 127 n = Nat.ldiff 127 (n % 128) := by
      apply Nat.eq_of_testBit_eq
      intro i
      rw [Nat.testBit_ldiff, Nat.testBit_ldiff, show (128 : Nat) = 2 ^ 7 from rfl, Nat.testBit_mod_two_pow,
        show (127 : Nat) = 2 ^ 7 - 1 from rfl, Nat.testBit_two_pow_sub_one]
      by_cases h : i < 7 <;> simp [h]
    have h2 : ∀ m < 128, Nat.ldiff 127 m = 127 - m := by decide +kernel
    have h3 : n % 128 < 128 := Nat.mod_lt _ (by norm_num)
    rw [h1, h2 _ h3]
    omega

theorem shr_7 (x : Int) : x >>> (7 : Nat) = pyFloorDiv x 128 := by
  rw [Int.shiftRight_eq_div_pow, pyFloorDiv, Int.fdiv_eq_ediv_of_nonneg _ (by norm_num)]
  norm_num

theorem varlen_stop {x : Int} (hx : x ≤ 0) (buffer : Int) :
    whileLoop program W (.cmp (.name "x") [.gt] [.int 0])
      [.aug (.name "buffer") .shl (.int 8),
      .aug (.name "buffer") .bor (.int 128),
      .aug (.name "buffer") .add (.bin .band (.name "x") (.int 127)),
      .aug (.name "x") .shr (.int 7)]
      { mod := "melodia.io.midi", vars := [("x", .int x), ("buffer", .int buffer)] } =
    pure (.next { mod := "melodia.io.midi", vars := [("x", .int x), ("buffer", .int buffer)] }) := by
  rw [whileLoop]
  simp [py, not_lt.mpr hx]

theorem varlen_loop : ∀ (fuel x buffer : Nat), x ≤ fuel →
    whileLoop program W (.cmp (.name "x") [.gt] [.int 0])
      [.aug (.name "buffer") .shl (.int 8),
      .aug (.name "buffer") .bor (.int 128),
      .aug (.name "buffer") .add (.bin .band (.name "x") (.int 127)),
      .aug (.name "x") .shr (.int 7)]
      { mod := "melodia.io.midi", vars := [("x", .int x), ("buffer", .int buffer)] } =
    pure (.next { mod := "melodia.io.midi",
                  vars := [("x", .int 0), ("buffer", .int (Melodia.Writer.varLenLoop fuel x buffer))] }) := by
  intro fuel
  induction fuel with
  | zero =>
    intro x buffer hx
    obtain rfl : x = 0 := by omega
    rw [whileLoop]
    simp [py, Melodia.Writer.varLenLoop]
  | succ n ih =>
    intro x buffer hx
    rw [whileLoop, Melodia.Writer.varLenLoop]
    by_cases h : x > 0
    · simp [py, h]
      rw [← ih (x >>> 7) _ (by
        have := Nat.shiftRight_eq_div_pow x 7
        have := Nat.div_lt_self h (show 1 < 2 ^ 7 by norm_num)
        omega)]
      rfl
    · obtain rfl : x = 0 := by omega
      simp [py]

theorem varlen_ok (x : Int) : callFun program W MIDIWriter._format_var_len [.int x] [] =
    liftPy ((Melodia.Writer.formatVarLen x).map Val.bytes) := by
  have key : ∀ (y : Int) (b : Nat), whileLoop program W (.cmp (.name "x") [.gt] [.int 0])
      [.aug (.name "buffer") .shl (.int 8),
      .aug (.name "buffer") .bor (.int 128),
      .aug (.name "buffer") .add (.bin .band (.name "x") (.int 127)),
      .aug (.name "x") .shr (.int 7)]
      { mod := "melodia.io.midi", vars := [("x", .int y), ("buffer", .int b)] } =
    pure (.next { mod := "melodia.io.midi", vars := [("x", .int (min y 0)),
      ("buffer", .int ((if y > 0 then Melodia.Writer.varLenLoop y.toNat y.toNat b else b : Nat)))] }) := by
    intro y b
    by_cases hy : y > 0
    · have := varlen_loop W y.toNat y.toNat b le_rfl
      rw [Int.toNat_of_nonneg hy.le] at this
      rw [this, if_pos hy, min_eq_right hy.le]
    · rw [varlen_stop W (not_lt.mp hy), if_neg hy, min_eq_left (not_lt.mp hy)]
  have h0 : 0 ≤ pyMod x 128 := by
    rw [pyMod, Int.fmod_eq_emod_of_nonneg _ (by norm_num)]; exact Int.emod_nonneg _ (by norm_num)
  have hb : Int.land x 127 = ((pyMod x 128).toNat : Int) := by rw [land_127, Int.toNat_of_nonneg h0]
  obtain ⟨buf, hbuf⟩ : ∃ buf, buf = if x >>> (7 : Nat) > 0 then
    Melodia.Writer.varLenLoop (x >>> (7 : Nat)).toNat (x >>> (7 : Nat)).toNat (pyMod x 128).toNat else (pyMod x 128).toNat := ⟨_, rfl⟩
  have hm : Melodia.Writer.formatVarLen x = toBytesLittle buf (bitLength buf / 8 + 1) := by
    rw [hbuf, shr_7]; rfl
  have hk := key (x >>> (7 : Nat)) (pyMod x 128).toNat
  rw [← hbuf] at hk
  have h8 : (pyFloorDiv (bitLength buf : Int) 8 + 1).toNat = bitLength buf / 8 + 1 := by
    rw [pyFloorDiv, Int.fdiv_eq_ediv_of_nonneg _ (by norm_num)]
    omega
  rw [hm, callFun]
  generalize (pyMod x 128).toNat = m at *
  simp [py, MIDIWriter._format_var_len, hb, hk, h8]

end Source

end Melodia
