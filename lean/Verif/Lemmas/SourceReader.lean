/-
The class `_Reader` and the numbers of a MIDI file (src/melodia/io/midi.py:21-40, 419-450), executed from their text
(Verif/Source/MidiModule.lean).
-/
import Verif.Lemmas.PyLoops
import Verif.Lemmas.SourceWriterUser
import Verif.Model.MidiRead

set_option autoImplicit false

namespace Melodia

open Melodia.Python

namespace Source

variable (W : World)

/-! ### Names -/

@[py] theorem reader_init_ : program.method "_Reader" "__init__" = some _Reader.dunder_init := by rfl
@[py] theorem reader_read : program.method "_Reader" "read" = some _Reader.read := by rfl
@[py] theorem reader_shift : program.method "_Reader" "shift" = some _Reader.shift := by rfl
@[py] theorem reader_class_ : program.classOf "_Reader" = some _Reader.classDef := by rfl
@[py] theorem reader_mutable_ : _Reader.classDef.mutable = true := by rfl
@[py] theorem reader_deco_read : _Reader.read.deco = .plain := by rfl
@[py] theorem reader_deco_shift : _Reader.shift.deco = .plain := by rfl
@[py] theorem midi_name_parsing : globalName program W "melodia.io.midi" "MIDIParsingError" = pure (.excClass .parsingError) := by
  rw [globalName]; rfl
@[py] theorem midi_name_midireader : globalName program W "melodia.io.midi" "MIDIReader" = pure (.cls "MIDIReader") := by
  rw [globalName]; rfl
@[py] theorem midi_name_reader : globalName program W "melodia.io.midi" "_Reader" = pure (.cls "_Reader") := by
  rw [globalName]; rfl

@[py] theorem int_from_bytes : getAttr program W (.builtin .int) "from_bytes" = pure (.meth (.builtin .int) "from_bytes") := by
  rw [getAttr.eq_def]; rfl
@[py] theorem call_from_bytes (b : Bytes) :
    call program W (.meth (.builtin .int) "from_bytes") [.bytes b, .str "big".toList] [] = pure (.int (fromBytesBig b)) := by
  rw [call.eq_def]; rfl

/-! ### The class `_Reader` -/

/-- The object that is a reader. -/
def readerObj (r : Melodia.Reader) : Obj := .inst "_Reader" [("_data", .bytes r.data), ("_idx", .int r.idx)]

/-- What reading gives: the value and the reader moved on, or the exception and the reader at the end. -/
def afterRead {α : Type} (h : Heap) (d : Nat) (r : Melodia.Reader) (f : α → Val) : PyM (α × Melodia.Reader) → Option (Res Val)
  | .ok (x, r') => some (.ok (f x) (h.put d (readerObj r')))
  | .error e => some (.err e (h.put d (readerObj ⟨r.data, r.data.length⟩)))

theorem read_run {h : Heap} {d : Nat} (hd : d < h.objs.length) (r : Melodia.Reader) (n : Nat) :
    callFun program W _Reader.read [.ref d, .int n] [] (h.put d (readerObj r)) = afterRead h d r .bytes (r.read n) := by
  rw [callFun]
  unfold Reader.read
  by_cases hn : r.data.length < r.idx + n
  · have hn' : (r.data.length : Int) - r.idx < n := by omega
    pyrun [ _Reader.read, hd, hn, hn', readerObj, afterRead]
  · have hn' : ¬ (r.data.length : Int) - r.idx < n := by omega
    have h1 : sliceBound r.data.length 0 (.int r.idx) = some r.idx := by
      simp [sliceBound]; omega
    have h2 : sliceBound r.data.length r.data.length (.int (r.idx + n)) = some (r.idx + n) := by
      simp only [sliceBound]
      rw [if_pos (by omega)]
      congr 1
      omega
    pyrun [ _Reader.read, hd, hn, hn', readerObj, afterRead, h1, h2]
    simp [seqSlice, List.drop_take]

theorem shift_run {h : Heap} {d : Nat} (hd : d < h.objs.length) (r : Melodia.Reader) (hi : 1 ≤ r.idx) :
    callFun program W _Reader.shift [.ref d, .int (-1)] [] (h.put d (readerObj r)) =
      some (.ok .none (h.put d (readerObj r.shiftBack))) := by
  rw [callFun]
  have : (r.idx : Int) + -1 = ((r.idx - 1 : ℕ) : Int) := by omega
  pyrun [_Reader.shift, hd, readerObj, this, Reader.shiftBack]

theorem read1_run {h : Heap} {d : Nat} (hd : d < h.objs.length) (r : Melodia.Reader) :
    callFun program W _Reader.read [.ref d, .int 1] [] (h.put d (readerObj r)) = afterRead h d r .bytes (r.read 1) :=
  read_run W hd r 1
theorem read2_run {h : Heap} {d : Nat} (hd : d < h.objs.length) (r : Melodia.Reader) :
    callFun program W _Reader.read [.ref d, .int 2] [] (h.put d (readerObj r)) = afterRead h d r .bytes (r.read 2) :=
  read_run W hd r 2

@[pyrun ↓ high] theorem attr_read {h : Heap} {d : Nat} (hd : d < h.objs.length) (r : Melodia.Reader) :
    getAttr program W (.ref d) "read" (h.put d (readerObj r)) = some (.ok (.meth (.ref d) "read") (h.put d (readerObj r))) := by
  pyrun [hd, readerObj]
@[pyrun ↓ high] theorem attr_shift {h : Heap} {d : Nat} (hd : d < h.objs.length) (r : Melodia.Reader) :
    getAttr program W (.ref d) "shift" (h.put d (readerObj r)) = some (.ok (.meth (.ref d) "shift") (h.put d (readerObj r))) := by
  pyrun [hd, readerObj]

theorem methodOf_reader {h : Heap} {d : Nat} (hd : d < h.objs.length) (r : Melodia.Reader) (m : String) :
    methodOf program (.ref d) m (h.put d (readerObj r)) = some (.ok (program.method "_Reader" m) (h.put d (readerObj r))) := by
  pyrun [hd, readerObj]

/-- The same as method calls. -/
@[pyrun high] theorem call_read {h : Heap} {d : Nat} (hd : d < h.objs.length) (r : Melodia.Reader) (n : Nat) :
    call program W (.meth (.ref d) "read") [.int n] [] (h.put d (readerObj r)) = afterRead h d r .bytes (r.read n) := by
  rw [call_meth_ref, bind_ok (methodOf_reader hd r "read")]
  exact read_run W hd r n
@[pyrun high] theorem call_read1 {h : Heap} {d : Nat} (hd : d < h.objs.length) (r : Melodia.Reader) :
    call program W (.meth (.ref d) "read") [.int 1] [] (h.put d (readerObj r)) = afterRead h d r .bytes (r.read 1) :=
  call_read W hd r 1
@[pyrun high] theorem call_read2 {h : Heap} {d : Nat} (hd : d < h.objs.length) (r : Melodia.Reader) :
    call program W (.meth (.ref d) "read") [.int 2] [] (h.put d (readerObj r)) = afterRead h d r .bytes (r.read 2) :=
  call_read W hd r 2
@[pyrun high] theorem call_shift {h : Heap} {d : Nat} (hd : d < h.objs.length) (r : Melodia.Reader) (hi : 1 ≤ r.idx) :
    call program W (.meth (.ref d) "shift") [.int (-1)] [] (h.put d (readerObj r)) =
      some (.ok .none (h.put d (readerObj r.shiftBack))) := by
  rw [call_meth_ref, bind_ok (methodOf_reader hd r "shift")]
  exact shift_run W hd r hi

/-! ### Numbers -/

@[py] theorem midireader_read_8 : program.method "MIDIReader" "_read_8" = some MIDIReader._read_8 := by rfl
@[py] theorem midireader_read_var_len : program.method "MIDIReader" "_read_var_len" = some MIDIReader._read_var_len := by rfl
@[py] theorem attr_cls_read_8 : getAttr program W (.cls "MIDIReader") "_read_8" = pure (.meth (.cls "MIDIReader") "_read_8") := by
  rw [getAttr.eq_def]; rfl
@[py] theorem attr_cls_read_var_len :
    getAttr program W (.cls "MIDIReader") "_read_var_len" = pure (.meth (.cls "MIDIReader") "_read_var_len") := by
  rw [getAttr.eq_def]; rfl

theorem read8_run {h : Heap} {d : Nat} (hd : d < h.objs.length) (r : Melodia.Reader) :
    callFun program W MIDIReader._read_8 [.ref d] [] (h.put d (readerObj r)) =
      afterRead h d r (fun n => .int (n : Nat)) r.read8 := by
  rw [callFun]
  unfold Reader.read8
  cases hr : r.read 1 with
  | error e => pyrun [MIDIReader._read_8, hd, hr, afterRead, bind, Except.bind]
  | ok x => pyrun [MIDIReader._read_8, hd, hr, afterRead, bind, Except.bind, pure, Except.pure]
@[pyrun high] theorem call_read8 {h : Heap} {d : Nat} (hd : d < h.objs.length) (r : Melodia.Reader) :
    call program W (.meth (.cls "MIDIReader") "_read_8") [.ref d] [] (h.put d (readerObj r)) =
      afterRead h d r (fun n => .int (n : Nat)) r.read8 := by
  rw [call.eq_def]
  exact read8_run W hd r

theorem Reader.read_ok {r r' : Melodia.Reader} {n : Nat} {b : Bytes} (h : r.read n = .ok (b, r')) :
    r'.data = r.data ∧ r'.idx = r.idx + n ∧ r'.idx ≤ r.data.length := by
  unfold Melodia.Reader.read at h
  split at h
  · cases h
  · cases h
    exact ⟨rfl, rfl, by simp; omega⟩

/-- The loop of `_read_var_len`. -/
theorem varLen_loop {d : Nat} : ∀ (fuel : Nat) {h : Heap} (_ : d < h.objs.length) (n : Nat) (r : Melodia.Reader) (env : Env),
    (env = { mod := "melodia.io.midi", vars := [("data", .ref d), ("result", .int n)] } ∨
      ∃ v, env = { mod := "melodia.io.midi", vars := [("data", .ref d), ("result", .int n), ("value", .int v)] }) →
    r.idx ≤ r.data.length → r.data.length < r.idx + fuel →
    ∃ v, whileLoop program W (.bool true) [
      .assign (.name "value") (.call (.attr (.name "int") "from_bytes") [.call (.attr (.name "data") "read") [.int 1] [], .str "big"] []),
      .assign (.name "result") (.bin .add (.bin .shl (.name "result") (.int 7)) (.bin .band (.name "value") (.int 127))),
      .ite (.cmp (.bin .band (.name "value") (.int 128)) [.eq] [.int 0]) [
        .break] []] env (h.put d (readerObj r)) =
      match Reader.varLenLoop fuel n r with
      | .ok (m, r') => some (.ok (.next { mod := "melodia.io.midi", vars := [("data", .ref d), ("result", .int m), ("value", .int v)] })
          (h.put d (readerObj r')))
      | .error e => some (.err e (h.put d (readerObj ⟨r.data, r.data.length⟩))) := by
  intro fuel
  induction fuel with
  | zero => intro h hd n r env henv hi hf; omega
  | succ fuel ih =>
    intro h hd n r env henv hi hf
    rw [Reader.varLenLoop, whileLoop]
    unfold Reader.read8
    cases hr : r.read 1 with
    | error e =>
      rcases henv with rfl | ⟨v, rfl⟩ <;> pyrun [hd, hr, afterRead, bind, Except.bind]
    | ok x =>
      obtain ⟨b, r'⟩ := x
      obtain ⟨hr1, hr2, hr3⟩ := Reader.read_ok hr
      set m := fromBytesBig b with hm
      have hb : (m : ℤ).land 128 = ((m &&& 128 : ℕ) : ℤ) := rfl
      have h127 : (m : ℤ).land 127 = ((m &&& 127 : ℕ) : ℤ) := rfl
      by_cases h8 : m &&& 128 = 0
      · rcases henv with rfl | ⟨v, rfl⟩ <;>
          pyrun [hd, hr, afterRead, bind, Except.bind, pure, Except.pure, ← hm, hb, h127, h8]
      · obtain ⟨v', hv⟩ := ih hd (n <<< 7 + (m &&& 127)) r' _ (.inr ⟨m, rfl⟩) (by rw [hr1]; omega)
          (by rw [hr1]; omega)
        refine ⟨v', ?_⟩
        rw [hr1] at hv
        rcases henv with rfl | ⟨v, rfl⟩ <;>
          pyrun [hd, hr, afterRead, bind, Except.bind, pure, Except.pure, ← hm, hb, h127, h8] <;>
          exact hv

theorem read_var_len_run {h : Heap} {d : Nat} (hd : d < h.objs.length) (r : Melodia.Reader) :
    callFun program W MIDIReader._read_var_len [.ref d] [] (h.put d (readerObj r)) =
      afterRead h d r (fun n => .int (n : Nat)) r.readVarLen := by
  rw [callFun]
  unfold Reader.readVarLen Reader.read8
  cases hr : r.read 1 with
  | error e => pyrun [MIDIReader._read_var_len, hd, hr, afterRead, bind, Except.bind]
  | ok x =>
    obtain ⟨b, r'⟩ := x
    obtain ⟨hr1, hr2, hr3⟩ := Reader.read_ok hr
    set m := fromBytesBig b with hm
    have hb : (m : ℤ).land 128 = ((m &&& 128 : ℕ) : ℤ) := rfl
    have h127 : (m : ℤ).land 127 = ((m &&& 127 : ℕ) : ℤ) := rfl
    by_cases h8 : m &&& 128 = 0
    · pyrun [MIDIReader._read_var_len, hd, hr, afterRead, bind, Except.bind, pure, Except.pure, ← hm, hb, h127, h8]
    · obtain ⟨v', hv⟩ := varLen_loop W (r.data.length + 1) hd (m &&& 127) r' _ (.inl rfl) (by rw [hr1]; omega)
        (by rw [hr1]; omega)
      cases hx : Reader.varLenLoop (r.data.length + 1) (m &&& 127) r' with
      | error e =>
        rw [hx] at hv
        pyrun [MIDIReader._read_var_len, hd, hr, afterRead, bind, Except.bind, pure, Except.pure, ← hm, hb, h127, h8, hv, hx, hr1]
      | ok y =>
        rw [hx] at hv
        pyrun [MIDIReader._read_var_len, hd, hr, afterRead, bind, Except.bind, pure, Except.pure, ← hm, hb, h127, h8, hv, hx, hr1]

@[pyrun high] theorem call_read_var_len {h : Heap} {d : Nat} (hd : d < h.objs.length) (r : Melodia.Reader) :
    call program W (.meth (.cls "MIDIReader") "_read_var_len") [.ref d] [] (h.put d (readerObj r)) =
      afterRead h d r (fun n => .int (n : Nat)) r.readVarLen := by
  rw [call.eq_def]
  exact read_var_len_run W hd r
end Source
end Melodia
