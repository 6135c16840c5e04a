/-
C86, C87, C88: what in the file of a track changes if a setting of the writer, the pitch of the track or its start
changes. Code: `MIDIWriter` (src/melodia/io/midi.py:43-251).
-/
import Verif.Props.SameFile
import Verif.Lemmas.FileChange
import Verif.Spec.Playback

set_option autoImplicit false

namespace Melodia

/-! ### C86 -/

section
variable [UnicodeDigits]

/-- C86: two writers with the same division write the same messages at the same times for any track. Every key is moved by
the difference of the middle Cs, every note message is on the channel of its writer, and the tempo message has the tempo of
its writer. -/
theorem C86_settings (S : ListSort) (ppq : Int) (c c' : Tone) (bpm bpm' : PyFloat) (ch ch' : Int) (w w' : Writer)
    (hw : Writer.new ppq (.tone c) bpm ch = .ok w) (hw' : Writer.new ppq (.tone c') bpm' ch' = .ok w')
    (t : Track) (ht : t.Reachable S) (a b : Bytes) (ha : w.dumps S t = .ok a) (hb : w'.dumps S t = .ok b) :
    ∃ es tempo', TempoFits bpm' tempo' ∧ IsSmf ppq.toNat es a ∧
      IsSmf ppq.toNat (es.map (fun x => (x.1, x.2.withSettings (c.pitch - c'.pitch) tempo' ch'.toNat))) b := by
  obtain ⟨v, e1, e2, e3, e4⟩ := Writer.new_valid hw
  obtain ⟨v', e1', e2', e3', e4'⟩ := Writer.new_valid hw'
  obtain ⟨p1, f1, q1, tempo, t1, l1, rfl⟩ := Writer.dumps_success v ht.wf ha
  obtain ⟨p2, f2, q2, tempo', t2, l2, rfl⟩ := Writer.dumps_success v' ht.wf hb
  have hr := Writer.msgs_inRange v ht.wf.sig (Track.items_valid S ht.wf) p1 f1 q1 t1
  have hr' := Writer.msgs_inRange v' ht.wf.sig (Track.items_valid S ht.wf) p2 f2 q2 t2
  have hm := Writer.allMsgs_settings (w := w) (w' := w') (by rw [e1, e1']) t.signature tempo tempo' (t.items S) p1
  have hd : w'.middleCDelta - w.middleCDelta = c.pitch - c'.pitch := by
    injection e4 with e4
    injection e4' with e4'
    omega
  refine ⟨_, tempo', e2' ▸ t2, e1 ▸ Writer.isSmf_of v hr l1, ?_⟩
  have := Writer.isSmf_of v' hr' l2
  rw [e1'] at this
  rw [← hd, ← e3', ← hm]
  exact this

/-- C86: whether the second writer succeeds depends on its tempo and on the keys only. -/
theorem C86_success (S : ListSort) (ppq : Int) (c c' : Tone) (bpm bpm' : PyFloat) (ch ch' : Int) (w w' : Writer)
    (hw : Writer.new ppq (.tone c) bpm ch = .ok w) (hw' : Writer.new ppq (.tone c') bpm' ch' = .ok w')
    (t : Track) (ht : t.Reachable S) (a : Bytes) (ha : w.dumps S t = .ok a) :
    (∃ b, w'.dumps S t = .ok b ∧ b.length = a.length) ↔
      (∀ x ∈ t.contents, 0 ≤ x.2.tone.pitch - c'.pitch + 60 ∧ x.2.tone.pitch - c'.pitch + 60 ≤ 127) ∧
      ∃ tempo, TempoFits bpm' tempo := by
  obtain ⟨v, e1, e2, e3, e4⟩ := Writer.new_valid hw
  obtain ⟨v', e1', e2', e3', e4'⟩ := Writer.new_valid hw'
  obtain ⟨p1, f1, q1, tempo, t1, l1, rfl⟩ := Writer.dumps_success v ht.wf ha
  have hp : (∀ e ∈ t.items S, e.2.PitchOk w'.middleCDelta) ↔
      ∀ x ∈ t.contents, 0 ≤ x.2.tone.pitch - c'.pitch + 60 ∧ x.2.tone.pitch - c'.pitch + 60 ≤ 127 := by
    injection e4' with e4'
    rw [← Track.items_placed S t, ← e4']
    simp only [Multiset.mem_coe, List.mem_map, forall_exists_index, and_imp, forall_apply_eq_imp_iff₂]
    refine forall_congr' (fun e => forall_congr' (fun _ => ?_))
    show (0 ≤ e.2.tone.pitch + (60 - c'.pitch) ∧ e.2.tone.pitch + (60 - c'.pitch) ≤ 127) ↔
      (0 ≤ e.2.tone.pitch - c'.pitch + 60 ∧ e.2.tone.pitch - c'.pitch + 60 ≤ 127)
    constructor <;> rintro ⟨h1, h2⟩ <;> constructor <;> omega
  constructor
  · rintro ⟨b, hb, -⟩
    obtain ⟨p2, f2, q2, tempo', t2, l2, rfl⟩ := Writer.dumps_success v' ht.wf hb
    exact ⟨hp.mp p2, tempo', e2' ▸ t2⟩
  · rintro ⟨h1, tempo', h2⟩
    have hm := Writer.allMsgs_settings (w := w) (w' := w') (by rw [e1, e1']) t.signature tempo tempo' (t.items S) p1
    have hlen : (Writer.bodyBytes (Writer.allMsgs w' t.signature tempo' (t.items S))).length =
        (Writer.bodyBytes (Writer.allMsgs w t.signature tempo (t.items S))).length := by
      rw [hm, Writer.bodyBytes_map_length (fun m => m.withSettings _ _ _)
        (fun m => Msg.withSettings_length _ _ _ m)]
    have hq' : w'.ppq ≤ 255 := by rw [e1', ← e1]; exact q1
    unfold Writer.dumps
    rw [Writer.dump_fits S v' ht.wf [] (hp.mpr h1) f1 hq' (e2' ▸ h2), if_pos (by rw [hlen]; exact l1)]
    refine ⟨_, rfl, ?_⟩
    simp only [List.length_append, List.length_nil, hlen, Writer.headerBytes, List.length_reverse, natLE_length,
      List.length_cons, Nat.zero_add]

/-- C86, tempo: with another tempo only the three tempo bytes (34 to 36) of the file change. -/
theorem C86_tempo (S : ListSort) (ppq : Int) (c : Tone) (bpm bpm' : PyFloat) (ch : Int) (w w' : Writer)
    (hw : Writer.new ppq (.tone c) bpm ch = .ok w) (hw' : Writer.new ppq (.tone c) bpm' ch = .ok w')
    (t : Track) (ht : t.Reachable S) (a b : Bytes) (ha : w.dumps S t = .ok a) (hb : w'.dumps S t = .ok b) :
    ∃ pre x y post, pre.length = 34 ∧ x.length = 3 ∧ y.length = 3 ∧ a = pre ++ x ++ post ∧ b = pre ++ y ++ post := by
  obtain ⟨v, e1, e2, e3, e4⟩ := Writer.new_valid hw
  obtain ⟨v', e1', e2', e3', e4'⟩ := Writer.new_valid hw'
  obtain ⟨p1, f1, q1, tempo, t1, l1, rfl⟩ := Writer.dumps_success v ht.wf ha
  obtain ⟨p2, f2, q2, tempo', t2, l2, rfl⟩ := Writer.dumps_success v' ht.wf hb
  have hd : w'.middleCDelta = w.middleCDelta := by
    injection e4 with e4
    injection e4' with e4'
    omega
  have hw2 : ∀ l, Writer.sortedMsgs w' l = Writer.sortedMsgs w l := by
    intro l
    unfold Writer.sortedMsgs Writer.noteMsgs Entry.msg
    rw [e1, e1', e3, e3', hd]
  have body : ∀ (u : Writer) (T : Nat), Writer.bodyBytes (Writer.allMsgs u t.signature T (t.items S)) =
      ([0] ++ (Writer.sigMsg u t.signature).bytes ++ [0, 0xFF, 0x51, 0x03]) ++
        [UInt8.ofNat (T / 65536), UInt8.ofNat (T / 256), UInt8.ofNat T] ++
        Writer.bodyBytes (Writer.deltaMsgs 0 (Writer.sortedMsgs u (t.items S)) ++ [(0, .endOfTrack)]) := by
    intro u T
    unfold Writer.allMsgs
    rw [List.append_assoc, Writer.bodyBytes_append _ (Writer.deltaMsgs 0 _ ++ _)]
    congr 1
    have h0 : vlq 0 = [0] := by unfold vlq vlqInit; rfl
    simp only [Writer.bodyBytes, h0, Msg.bytes, List.append_assoc, List.append_nil, List.cons_append, List.nil_append]
  have hsg : Writer.sigMsg w' t.signature = Writer.sigMsg w t.signature := by
    unfold Writer.sigMsg; rw [e1, e1']
  have hh : Writer.headerBytes w' = Writer.headerBytes w := by
    unfold Writer.headerBytes; rw [e1, e1']
  have hlen : (Writer.bodyBytes (Writer.allMsgs w' t.signature tempo' (t.items S))).length =
      (Writer.bodyBytes (Writer.allMsgs w t.signature tempo (t.items S))).length := by
    rw [body, body, hsg, hw2]
    simp only [List.length_append, List.length_cons, List.length_nil]
  refine ⟨Writer.headerBytes w ++ (Writer.tagMTrk ++
      (natLE 4 (Writer.bodyBytes (Writer.allMsgs w t.signature tempo (t.items S))).length).reverse ++
      ([0] ++ (Writer.sigMsg w t.signature).bytes ++ [0, 0xFF, 0x51, 0x03])),
    [UInt8.ofNat (tempo / 65536), UInt8.ofNat (tempo / 256), UInt8.ofNat tempo],
    [UInt8.ofNat (tempo' / 65536), UInt8.ofNat (tempo' / 256), UInt8.ofNat tempo'],
    Writer.bodyBytes (Writer.deltaMsgs 0 (Writer.sortedMsgs w (t.items S)) ++ [(0, .endOfTrack)]), ?_, rfl, rfl, ?_, ?_⟩
  · simp only [List.length_append, Writer.headerBytes, Writer.tagMTrk, List.length_reverse, natLE_length,
      List.length_cons, List.length_nil]
    rfl
  · generalize (Writer.bodyBytes (Writer.allMsgs w t.signature tempo (t.items S))).length = L
    rw [body w tempo]
    simp only [List.append_assoc]
  · rw [hlen, hh]
    generalize (Writer.bodyBytes (Writer.allMsgs w t.signature tempo (t.items S))).length = L
    rw [body w' tempo', hsg, hw2]
    simp only [List.append_assoc]

/-- Two bytes that are equal or the status bytes of one kind of note message on two channels. -/
def SameButChannel (ch ch' : Nat) (x y : UInt8) : Prop :=
  x = y ∨ (x = UInt8.ofNat (0x90 + ch) ∧ y = UInt8.ofNat (0x90 + ch')) ∨
    (x = UInt8.ofNat (0x80 + ch) ∧ y = UInt8.ofNat (0x80 + ch'))

omit [UnicodeDigits] in
theorem SameButChannel.refl (ch ch' : Nat) (l : Bytes) : List.Forall₂ (SameButChannel ch ch') l l := by
  induction l with
  | nil => exact .nil
  | cons x l ih => exact .cons (Or.inl rfl) ih

omit [UnicodeDigits] in
theorem forall₂_append {α : Type} {R : α → α → Prop} {a b c d : List α} (h : List.Forall₂ R a b)
    (h' : List.Forall₂ R c d) : List.Forall₂ R (a ++ c) (b ++ d) := by
  induction h with
  | nil => exact h'
  | cons h1 _ ih => exact .cons h1 ih

/-- C86, channel: on another channel only status bytes of note messages change, and only to those of the other channel. -/
theorem C86_channel (S : ListSort) (ppq : Int) (c : Tone) (bpm : PyFloat) (ch ch' : Int) (w w' : Writer)
    (hw : Writer.new ppq (.tone c) bpm ch = .ok w) (hw' : Writer.new ppq (.tone c) bpm ch' = .ok w')
    (t : Track) (ht : t.Reachable S) (a : Bytes) (ha : w.dumps S t = .ok a) :
    ∃ b, w'.dumps S t = .ok b ∧ List.Forall₂ (SameButChannel ch.toNat ch'.toNat) a b := by
  obtain ⟨v, e1, e2, e3, e4⟩ := Writer.new_valid hw
  obtain ⟨v', e1', e2', e3', e4'⟩ := Writer.new_valid hw'
  obtain ⟨p1, f1, q1, tempo, t1, l1, rfl⟩ := Writer.dumps_success v ht.wf ha
  have hd : w'.middleCDelta = w.middleCDelta := by
    injection e4 with e4
    injection e4' with e4'
    omega
  have hm := Writer.allMsgs_settings (w := w) (w' := w') (by rw [e1, e1']) t.signature tempo tempo (t.items S) p1
  rw [hd, sub_self] at hm
  have hlen : (Writer.bodyBytes (Writer.allMsgs w' t.signature tempo (t.items S))).length =
      (Writer.bodyBytes (Writer.allMsgs w t.signature tempo (t.items S))).length := by
    rw [hm, Writer.bodyBytes_map_length (fun m => m.withSettings _ _ _)
      (fun m => Msg.withSettings_length _ _ _ m)]
  have hh : Writer.headerBytes w' = Writer.headerBytes w := by
    unfold Writer.headerBytes; rw [e1, e1']
  have hch : ∀ x ∈ Writer.allMsgs w t.signature tempo (t.items S),
      List.Forall₂ (SameButChannel ch.toNat ch'.toNat) x.2.bytes (x.2.withSettings 0 tempo w'.channel.toNat).bytes := by
    intro x hx
    unfold Writer.allMsgs at hx
    simp only [List.mem_append, List.mem_cons, List.not_mem_nil, or_false] at hx
    rcases hx with ((rfl | rfl) | hx) | rfl
    · exact SameButChannel.refl _ _ _
    · exact SameButChannel.refl _ _ _
    · obtain ⟨y, hy, he⟩ := Writer.mem_deltaMsgs _ _ _ hx
      obtain ⟨e, _, rfl | rfl⟩ := Writer.mem_sortedMsgs.1 hy
      · rw [← he, e3']
        simp only [Entry.msg, Msg.withSettings, Msg.bytes, e3, add_zero, Int.toNat_natCast]
        exact .cons (Or.inr (Or.inl ⟨rfl, rfl⟩)) (SameButChannel.refl _ _ _)
      · rw [← he, e3']
        simp only [Entry.msg, Msg.withSettings, Msg.bytes, e3, add_zero, Int.toNat_natCast]
        exact .cons (Or.inr (Or.inr ⟨rfl, rfl⟩)) (SameButChannel.refl _ _ _)
    · exact SameButChannel.refl _ _ _
  have hbody : ∀ l : List (Nat × Msg), (∀ x ∈ l, List.Forall₂ (SameButChannel ch.toNat ch'.toNat) x.2.bytes
      (x.2.withSettings 0 tempo w'.channel.toNat).bytes) → List.Forall₂ (SameButChannel ch.toNat ch'.toNat)
        (Writer.bodyBytes l) (Writer.bodyBytes (l.map (fun x => (x.1, x.2.withSettings 0 tempo w'.channel.toNat)))) := by
    intro l
    induction l with
    | nil => intro _; exact .nil
    | cons x l ih =>
      intro h
      obtain ⟨d, m⟩ := x
      rw [List.map_cons, Writer.bodyBytes, Writer.bodyBytes]
      exact forall₂_append (forall₂_append (SameButChannel.refl _ _ _) (h (d, m) (by simp)))
        (ih (fun x hx => h x (by simp [hx])))
  refine ⟨Writer.headerBytes w ++ (Writer.tagMTrk ++
      (natLE 4 (Writer.bodyBytes (Writer.allMsgs w t.signature tempo (t.items S))).length).reverse ++
      Writer.bodyBytes (Writer.allMsgs w' t.signature tempo (t.items S))), ?_, ?_⟩
  · unfold Writer.dumps
    rw [Writer.dump_fits S v' ht.wf [] (by rw [hd]; exact p1) f1 (by rw [e1', ← e1]; exact q1)
      (t := tempo) (by rw [e2', ← e2]; exact t1), if_pos (by rw [hlen]; exact l1), hlen, hh]
    rfl
  · rw [hm]
    exact forall₂_append (SameButChannel.refl _ _ _) (forall₂_append (SameButChannel.refl _ _ _) (hbody _ hch))

end

/-! ### C87 -/

section
variable [UnicodeDigits]

/-- `[(note.transposed(k), position) for position, note in t]`. -/
def transposedContent (S : ListSort) (k : Int) (t : Track) : PyM (List (What × Option SigArg)) :=
  (t.items S).mapM (fun e => do
    let n ← e.2.transposed k
    pure (.note n, some (.sig e.1)))

omit [UnicodeDigits] in
theorem higher_mono (k : Int) (x y : EntryKey) (h : x ≤ y) :
    (toLex ((ofLex x).1, toLex ((ofLex (ofLex x).2).1 + k, (ofLex (ofLex x).2).2)) : EntryKey) ≤
      toLex ((ofLex y).1, toLex ((ofLex (ofLex y).2).1 + k, (ofLex (ofLex y).2).2)) := by
  rw [Prod.Lex.le_iff] at h ⊢
  rcases h with h | ⟨h1, h2⟩
  · exact Or.inl h
  · refine Or.inr ⟨h1, ?_⟩
    rw [Prod.Lex.le_iff] at h2 ⊢
    rcases h2 with h | ⟨h2, h3⟩
    · exact Or.inl (add_lt_add_left (α := ℤ) h k)
    · exact Or.inr ⟨congrArg (· + k) h2, h3⟩

omit [UnicodeDigits] in
theorem items_higher (S : ListSort) {t u : Track} (ht : t.WF) (hu : u.WF) (k : Int)
    (h : u.contents.map soundOf = t.contents.map (fun p => higher k (soundOf p)))
    (hc : ConsistentPlaced t.contents) (hc' : ConsistentPlaced u.contents) :
    (u.items S).map (fun e => soundOf e.placed) = (t.items S).map (fun e => higher k (soundOf e.placed)) := by
  have hk : u.contents.map Track.placedKey = t.contents.map (fun p =>
      (toLex ((ofLex (Track.placedKey p)).1, toLex ((ofLex (ofLex (Track.placedKey p)).2).1 + k,
        (ofLex (ofLex (Track.placedKey p)).2).2)) : EntryKey)) := by
    have := congrArg (Multiset.map (fun x : ℚ × ℤ × ℚ × ℚ => toLex (x.1, toLex (x.2.1, toLex (x.2.2.1, x.2.2.2))))) h
    rw [Multiset.map_map, Multiset.map_map] at this
    exact this
  have := items_key_map S ht hu (fun x => (toLex ((ofLex x).1, toLex ((ofLex (ofLex x).2).1 + k,
    (ofLex (ofLex x).2).2)) : EntryKey)) (higher_mono k) hk hc hc'
  have := congrArg (List.map (fun x : EntryKey => ((ofLex x).1, (ofLex (ofLex x).2).1,
    (ofLex (ofLex (ofLex x).2).2).1, (ofLex (ofLex (ofLex x).2).2).2))) this
  rw [List.map_map, List.map_map] at this
  exact this

/-- C87: a track with the notes of another one, `k` semitones higher, is written with a middle C `k` semitones higher to
the same bytes, or writing fails with the same error. Condition as in C68: notes of equal pitch at one position have equal
durations or equal duration denominators. -/
theorem C87_same_file (S : ListSort) (ppq : Int) (c : Tone) (k : Int) (bpm : PyFloat) (ch : Int) (w w' : Writer)
    (hw : Writer.new ppq (.tone c) bpm ch = .ok w) (hw' : Writer.new ppq (.tone ⟨c.pitch + k⟩) bpm ch = .ok w')
    (t u : Track) (ht : t.Reachable S) (hu : u.Reachable S) (hs : u.signature = t.signature)
    (h : u.contents.map soundOf = t.contents.map (fun p => higher k (soundOf p)))
    (hc : ConsistentPlaced t.contents) (hc' : ConsistentPlaced u.contents) :
    w'.dumps S u = w.dumps S t := by
  obtain ⟨v, e1, e2, e3, e4⟩ := Writer.new_valid hw
  obtain ⟨v', e1', e2', e3', e4'⟩ := Writer.new_valid hw'
  have hd : w.middleCDelta = w'.middleCDelta + k := by
    injection e4 with e4
    injection e4' with e4'
    simp only at e4'
    omega
  exact Writer.dumps_of_events S (by rw [e1, e1']) (by rw [e2, e2']) hs
    (Writer.noteEvents_moved v v' (by rw [e1, e1']) (by rw [e3, e3']) k hd _ _ (Track.items_valid S ht.wf)
      (Track.items_valid S hu.wf) (items_higher S ht.wf hu.wf k h hc hc'))

omit [UnicodeDigits] in
theorem transposedContent_ok [UnicodeDigits] (S : ListSort) (k : Int) {t : Track} (ht : t.WF) :
    transposedContent S k t = .ok ((t.items S).map (fun e =>
      (.note ⟨⟨e.2.tone.pitch + k⟩, e.2.duration, e.2.velocity⟩, some (.sig e.1)))) := by
  have hv := Track.items_valid S ht
  unfold transposedContent
  generalize t.items S = l at hv
  induction l with
  | nil => rfl
  | cons e l ih =>
    have hn : e.2.transposed k = .ok ⟨⟨e.2.tone.pitch + k⟩, e.2.duration, e.2.velocity⟩ := by
      unfold Note.transposed
      show Note.new (.tone ⟨e.2.tone.pitch + k⟩) (.sig e.2.duration) (.fin e.2.velocity) = _
      rw [Note.new_ok_iff]
      exact ⟨rfl, rfl, rfl, (hv e (by simp)).2.velLow, (hv e (by simp)).2.velHigh⟩
    rw [List.mapM_cons, hn, ih (fun x hx => hv x (by simp [hx]))]
    rfl

/-- C87 for the program that transposes a track: `Track(t.signature, [(n.transposed(k), p) for p, n in t])` succeeds and is
written with the middle C moved along to the same bytes as `t`, or writing either fails with the same error. With the
unchanged writer, the messages are those of `t` with the keys moved by `k`. -/
theorem C87_program (S : ListSort) (ppq : Int) (c : Tone) (k : Int) (bpm : PyFloat) (ch : Int) (w w' : Writer)
    (hw : Writer.new ppq (.tone c) bpm ch = .ok w) (hw' : Writer.new ppq (.tone ⟨c.pitch + k⟩) bpm ch = .ok w')
    (t : Track) (ht : t.Reachable S) (hc : ConsistentPlaced t.contents) :
    ∃ l u, transposedContent S k t = .ok l ∧ Track.new (.sig t.signature) l = .ok u ∧ w'.dumps S u = w.dumps S t ∧
      ∀ a b, w.dumps S t = .ok a → w.dumps S u = .ok b → ∃ es, IsSmf ppq.toNat es a ∧
        IsSmf ppq.toNat (es.map (fun x => (x.1, x.2.shiftKey k))) b := by
  have hwf := Track.empty_wf ht.wf.sig
  have hv := Track.items_valid S ht.wf
  let l : List Entry := (t.items S).map (fun e => (e.1, ⟨⟨e.2.tone.pitch + k⟩, e.2.duration, e.2.velocity⟩))
  have hlv : ∀ e ∈ l, e.1.Valid ∧ e.2.Valid := by
    intro e he
    obtain ⟨x, hx, rfl⟩ := List.mem_map.mp he
    exact ⟨(hv x hx).1, (hv x hx).2.duration, (hv x hx).2.velLow, (hv x hx).2.velHigh⟩
  have hv' : ∀ x ∈ l.map (fun e => (e.2, e.1)), x.1.Valid ∧ x.2.Valid := by
    intro x hx
    obtain ⟨e, he, rfl⟩ := List.mem_map.mp hx
    exact ⟨(hlv e he).2, (hlv e he).1⟩
  have hu := addContent_run S l hlv hwf
  have hr := Track.run_wf S _ hwf (addPlaced_valid hv')
  have hcont := addPlaced_contents S hv' hwf
  generalize hue : (Track.empty t.signature).run S (addPlaced (l.map (fun e => (e.2, e.1)))) = u at hu hr hcont
  have hreach : u.Reachable S := ⟨t.signature, _, ht.wf.sig, addPlaced_valid hv', hue.symm⟩
  have hcu : u.contents = t.contents.map (fun p => (p.1, ⟨⟨p.2.tone.pitch + k⟩, p.2.duration, p.2.velocity⟩)) := by
    rw [hcont, ← Track.items_placed S t, Multiset.map_coe, List.map_map, List.map_map, List.map_map]
    show _ + (0 : Multiset _) = _
    rw [add_zero]
    rfl
  have hsnd : u.contents.map soundOf = t.contents.map (fun p => higher k (soundOf p)) := by
    rw [hcu, Multiset.map_map]
    rfl
  have hcc : ConsistentPlaced u.contents := by
    intro a ha b hb hab hp
    rw [hcu] at ha hb
    obtain ⟨a', ha', rfl⟩ := Multiset.mem_map.mp ha
    obtain ⟨b', hb', rfl⟩ := Multiset.mem_map.mp hb
    exact hc a' ha' b' hb' hab (by simp only at hp; omega)
  have hsame := C87_same_file S ppq c k bpm ch w w' hw hw' t u ht hreach hr.2 hsnd hc hcc
  refine ⟨_, u, transposedContent_ok S k ht.wf, ?_, hsame, ?_⟩
  · rw [List.map_map] at hu
    exact hu
  · intro a b ha hb
    obtain ⟨v, e1, e2, e3, e4⟩ := Writer.new_valid hw
    obtain ⟨v', e1', e2', e3', e4'⟩ := Writer.new_valid hw'
    rw [← hsame] at ha
    obtain ⟨p1, f1, q1, tempo, t1, l1, rfl⟩ := Writer.dumps_success v' hreach.wf ha
    obtain ⟨p2, f2, q2, tempo', t2, l2, rfl⟩ := Writer.dumps_success v hreach.wf hb
    have htt : tempo' = tempo := by
      rw [e2'] at t1
      rw [e2] at t2
      have h1 := Writer.tempoOf_ok_iff.2 t1.1
      rw [Writer.tempoOf_ok_iff.2 t2.1] at h1
      injection h1 with h1
      exact_mod_cast h1
    subst htt
    have hr1 := Writer.msgs_inRange v' hreach.wf.sig (Track.items_valid S hreach.wf) p1 f1 q1 t1
    have hr2 := Writer.msgs_inRange v hreach.wf.sig (Track.items_valid S hreach.wf) p2 f2 q2 t2
    have hm := Writer.allMsgs_settings (w := w') (w' := w) (by rw [e1, e1']) u.signature tempo' tempo' (u.items S) p1
    have hd : w.middleCDelta - w'.middleCDelta = k := by
      injection e4 with e4
      injection e4' with e4'
      simp only at e4'
      omega
    refine ⟨_, e1' ▸ Writer.isSmf_of v' hr1 l1, ?_⟩
    have := Writer.isSmf_of v hr2 l2
    rw [e1] at this
    have hsh : (Writer.allMsgs w' u.signature tempo' (u.items S)).map (fun x => (x.1, x.2.shiftKey k)) =
        Writer.allMsgs w u.signature tempo' (u.items S) := by
      rw [hm, hd]
      refine List.map_congr_left (fun x hx => ?_)
      rw [Writer.withSettings_own (by rw [e3, e3']) k hx]
    rw [hsh]
    exact this

end

/-! ### C88 -/

section
variable [UnicodeDigits]

omit [UnicodeDigits] in
theorem later_mono (d : ℚ) (x y : EntryKey) (h : x ≤ y) :
    (toLex ((ofLex x).1 + d, (ofLex x).2) : EntryKey) ≤ toLex ((ofLex y).1 + d, (ofLex y).2) := by
  rw [Prod.Lex.le_iff] at h ⊢
  rcases h with h | ⟨h1, h2⟩
  · exact Or.inl (by simpa using h)
  · exact Or.inr ⟨congrArg (· + d) h1, h2⟩

omit [UnicodeDigits] in
theorem items_later (S : ListSort) {t u : Track} (ht : t.WF) (hu : u.WF) (d : ℚ)
    (h : u.contents.map soundOf = t.contents.map (fun p => later d (soundOf p)))
    (hc : ConsistentPlaced t.contents) (hc' : ConsistentPlaced u.contents) :
    (u.items S).map (fun e => soundOf e.placed) = (t.items S).map (fun e => later d (soundOf e.placed)) := by
  have hk : u.contents.map Track.placedKey = t.contents.map (fun p =>
      (toLex ((ofLex (Track.placedKey p)).1 + d, (ofLex (Track.placedKey p)).2) : EntryKey)) := by
    have := congrArg (Multiset.map (fun x : ℚ × ℤ × ℚ × ℚ => toLex (x.1, toLex (x.2.1, toLex (x.2.2.1, x.2.2.2))))) h
    rw [Multiset.map_map, Multiset.map_map] at this
    exact this
  have := items_key_map S ht hu (fun x => (toLex ((ofLex x).1 + d, (ofLex x).2) : EntryKey)) (later_mono d) hk hc hc'
  have := congrArg (List.map (fun x : EntryKey => ((ofLex x).1, (ofLex (ofLex x).2).1,
    (ofLex (ofLex (ofLex x).2).2).1, (ofLex (ofLex (ofLex x).2).2).2))) this
  rw [List.map_map, List.map_map] at this
  exact this

/-- C88: if all notes of a track start later by the same whole number `n` of pulses, the file changes in one delta time
only: that of the first note message, which grows by `n`. Writing the later track succeeds unless the longer delta time
brings the track body to 2^32 bytes. Condition as in C68. -/
theorem C88_later (S : ListSort) (ppq : Int) (mc : ToneArg) (bpm : PyFloat) (ch : Int) (w : Writer)
    (hw : Writer.new ppq mc bpm ch = .ok w) (t u : Track) (ht : t.Reachable S) (hu : u.Reachable S)
    (hs : u.signature = t.signature) (d : ℚ) (n : Nat) (hd : 4 * (ppq : ℚ) * d = n)
    (h : u.contents.map soundOf = t.contents.map (fun p => later d (soundOf p)))
    (hc : ConsistentPlaced t.contents) (hc' : ConsistentPlaced u.contents) (hne : t.contents ≠ 0)
    (a : Bytes) (ha : w.dumps S t = .ok a) :
    ∃ sig tempo first m rest, m.isNote = true ∧
      IsSmf ppq.toNat ((0, sig) :: (0, tempo) :: (first, m) :: rest) a ∧
      ((∃ b, w.dumps S u = .ok b ∧ IsSmf ppq.toNat ((0, sig) :: (0, tempo) :: (first + n, m) :: rest) b) ∨
        (w.dumps S u = .error .overflowError ∧ ∃ bs,
          TrackBody ((0, sig) :: (0, tempo) :: (first + n, m) :: rest) bs ∧ 2 ^ 32 ≤ bs.length)) := by
  obtain ⟨v, e1, e2, e3, e4⟩ := Writer.new_valid hw
  obtain ⟨p1, f1, q1, tempo, t1, l1, rfl⟩ := Writer.dumps_success v ht.wf ha
  have hi := items_later S ht.wf hu.wf d h hc hc'
  have hn := Writer.noteMsgs_later v (by rw [e1]; exact hd) _ _ (Track.items_valid S ht.wf) hi
  have hsm := Writer.sortedMsgs_later _ _ hn
  have hpu : ∀ e ∈ u.items S, e.2.PitchOk w.middleCDelta := by
    intro e he
    have : soundOf e.placed ∈ (t.items S).map (fun e => later d (soundOf e.placed)) := by
      rw [← hi]
      exact List.mem_map_of_mem he
    obtain ⟨e', he', hee⟩ := List.mem_map.mp this
    simp only [later, soundOf, Prod.mk.injEq, Entry.placed] at hee
    have := p1 e' he'
    unfold Note.PitchOk Note.midiPitch at this ⊢
    rwa [hee.2.1] at this
  have hr := Writer.msgs_inRange v ht.wf.sig (Track.items_valid S ht.wf) p1 f1 q1 t1
  have hru := Writer.msgs_inRange v hu.wf.sig (Track.items_valid S hu.wf) hpu (by rw [hs]; exact f1) q1 t1
  have hlen : (Writer.sortedMsgs w (t.items S)).length ≠ 0 := by
    rw [Writer.sortedMsgs_length]
    intro h0
    apply hne
    have : t.items S = [] := List.length_eq_zero_iff.mp (by omega)
    rw [← Track.items_placed S t, this]
    rfl
  rcases hcs : Writer.sortedMsgs w (t.items S) with _ | ⟨⟨first, m⟩, rest⟩
  · rw [hcs] at hlen
    exact absurd rfl hlen
  have hm : m.isNote = true := by
    have : (first, m) ∈ Writer.sortedMsgs w (t.items S) := by rw [hcs]; exact List.mem_cons_self
    obtain ⟨e, _, he | he⟩ := Writer.mem_sortedMsgs.1 this <;> cases he <;> rfl
  have eqt : Writer.allMsgs w t.signature tempo (t.items S) =
      (0, Writer.sigMsg w t.signature) :: (0, .tempo tempo) :: (first, m) ::
        (Writer.deltaMsgs first rest ++ [(0, .endOfTrack)]) := by
    unfold Writer.allMsgs
    rw [hcs]
    rfl
  have equ : Writer.allMsgs w u.signature tempo (u.items S) =
      (0, Writer.sigMsg w t.signature) :: (0, .tempo tempo) :: (first + n, m) ::
        (Writer.deltaMsgs first rest ++ [(0, .endOfTrack)]) := by
    unfold Writer.allMsgs
    rw [hsm, hcs, hs, List.map_cons, Writer.deltaMsgs, Writer.deltaMsgs_later]
    rfl
  refine ⟨Writer.sigMsg w t.signature, .tempo tempo, first, m, Writer.deltaMsgs first rest ++ [(0, .endOfTrack)], hm, ?_,
    ?_⟩
  · rw [← eqt, ← e1]
    exact Writer.isSmf_of v hr l1
  · unfold Writer.dumps
    rw [Writer.dump_fits S v hu.wf [] hpu (by rw [hs]; exact f1) q1 t1]
    by_cases hl : (Writer.bodyBytes (Writer.allMsgs w u.signature tempo (u.items S))).length < 2 ^ 32
    · left
      rw [if_pos hl]
      refine ⟨_, rfl, ?_⟩
      rw [← equ, ← e1]
      exact Writer.isSmf_of v hru hl
    · right
      rw [if_neg hl]
      refine ⟨rfl, _, ?_, Nat.le_of_not_lt hl⟩
      rw [← equ]
      exact Writer.bodyBytes_spec _ hru

/-- C88: if the track cannot be written, neither can the later one, with the same exception. -/
theorem C88_error (S : ListSort) (ppq : Int) (mc : ToneArg) (bpm : PyFloat) (ch : Int) (w : Writer)
    (hw : Writer.new ppq mc bpm ch = .ok w) (t u : Track) (ht : t.Reachable S) (hu : u.Reachable S)
    (hs : u.signature = t.signature) (d : ℚ) (n : Nat) (hd : 4 * (ppq : ℚ) * d = n)
    (h : u.contents.map soundOf = t.contents.map (fun p => later d (soundOf p)))
    (hc : ConsistentPlaced t.contents) (hc' : ConsistentPlaced u.contents)
    (e : PyErr) (he : w.dumps S t = .error e) : w.dumps S u = .error e := by
  obtain ⟨v, e1, e2, e3, e4⟩ := Writer.new_valid hw
  have hi := items_later S ht.wf hu.wf d h hc hc'
  have hpu : (∀ e ∈ u.items S, e.2.PitchOk w.middleCDelta) ↔ ∀ e ∈ t.items S, e.2.PitchOk w.middleCDelta := by
    have := congrArg (List.map (fun x : ℚ × ℤ × ℚ × ℚ => x.2.1)) hi
    rw [List.map_map, List.map_map] at this
    have key : ∀ l : List Entry, (∀ e ∈ l, e.2.PitchOk w.middleCDelta) ↔
        ∀ p ∈ l.map (fun e => e.2.tone.pitch), 0 ≤ p + w.middleCDelta ∧ p + w.middleCDelta ≤ 127 := by
      intro l
      rw [List.forall_mem_map]
      rfl
    have h2 : (u.items S).map (fun e => e.2.tone.pitch) = (t.items S).map (fun e => e.2.tone.pitch) := this
    rw [key, key, h2]
  unfold Writer.dumps at he ⊢
  by_cases p1 : ∀ e ∈ t.items S, e.2.PitchOk w.middleCDelta
  swap
  · rw [Writer.dump_pitch S v ht.wf [] p1] at he
    rw [Writer.dump_pitch S v hu.wf [] (hpu.not.mpr p1)]
    exact he
  have p2 := hpu.mpr p1
  by_cases hf : SignatureFits t.signature ∧ w.ppq ≤ 255
  swap
  · rw [Writer.dump_sig S v ht.wf [] p1 hf] at he
    rw [Writer.dump_sig S v hu.wf [] p2 (by rw [hs]; exact hf)]
    exact he
  obtain ⟨f1, q1⟩ := hf
  have f2 : SignatureFits u.signature := by rw [hs]; exact f1
  by_cases hb : ∃ tempo, TempoFits w.bpm tempo
  swap
  · rw [Writer.dump_tempo S v ht.wf [] p1 f1 q1 hb] at he
    rw [Writer.dump_tempo S v hu.wf [] p2 f2 q1 hb]
    exact he
  obtain ⟨tempo, t1⟩ := hb
  rw [Writer.dump_fits S v ht.wf [] p1 f1 q1 t1] at he
  rw [Writer.dump_fits S v hu.wf [] p2 f2 q1 t1]
  have hn := Writer.noteMsgs_later v (by rw [e1]; exact hd) _ _ (Track.items_valid S ht.wf) hi
  have hsm := Writer.sortedMsgs_later _ _ hn
  have hle : (Writer.bodyBytes (Writer.allMsgs w t.signature tempo (t.items S))).length ≤
      (Writer.bodyBytes (Writer.allMsgs w u.signature tempo (u.items S))).length := by
    unfold Writer.allMsgs
    rw [hsm, hs]
    rcases Writer.sortedMsgs w (t.items S) with _ | ⟨⟨first, m⟩, rest⟩
    · exact le_refl _
    · rw [List.map_cons, Writer.deltaMsgs, Writer.deltaMsgs, Writer.deltaMsgs_later]
      have := Writer.vlq_length_mono (show first ≤ first + n by omega)
      simp only [Writer.bodyBytes_append, Writer.bodyBytes, List.length_append, Nat.sub_zero]
      omega
  by_cases hl : (Writer.bodyBytes (Writer.allMsgs w t.signature tempo (t.items S))).length < 2 ^ 32
  · rw [if_pos hl] at he
    cases he
  · rw [if_neg hl] at he
    rw [if_neg (by omega)]
    exact he

end

/-! ### Examples -/

/-- A track of three notes, two of them together. -/
def exMoved (k : Int) (d : Int) : Track := (Track.empty ⟨3, 4⟩).run cpySort
  [.add (.note (exNote (40 + k) 1 4)) (some (.ints [d, 4])), .add (.note (exNote (44 + k) 1 2)) (some (.ints [d, 4])),
    .add (.note (exNote (47 + k) 1 8)) (some (.ints [d + 1, 4]))]

example : ConsistentPlaced (exMoved 0 0).contents ∧ ConsistentPlaced (exMoved 5 0).contents ∧
    ConsistentPlaced (exMoved 0 2).contents ∧ (exMoved 0 0).contents ≠ 0 := by decide +kernel

/-- The example track's file. -/
def exMovedFile (w : Writer) (k d : Int) : PyM Bytes := w.dumps cpySort (exMoved k d)

/-- C86: another tempo, another channel, another middle C. -/
example : okAnd (exMovedFile ⟨96, 384, 24, .fin 120, 3⟩ 0 0) (fun a =>
    okAnd (exMovedFile ⟨96, 384, 24, .fin 60, 3⟩ 0 0) (fun b =>
      a ≠ b && a.take 34 == b.take 34 && a.drop 37 == b.drop 37) &&
    okAnd (exMovedFile ⟨96, 384, 24, .fin 120, 5⟩ 0 0) (fun b =>
      a ≠ b && a.map (fun x => if x = 0x93 then 0x95 else if x = 0x83 then 0x85 else x) == b) &&
    okAnd (exMovedFile ⟨96, 384, 12, .fin 120, 3⟩ 0 0) (fun b => a ≠ b && a.length == b.length)) = true := by
  decide +kernel

/-- C87: five semitones higher, with the middle C moved along and without. -/
example : okAnd (exMovedFile ⟨96, 384, 24, .fin 120, 3⟩ 0 0) (fun a =>
    okAnd (exMovedFile ⟨96, 384, 19, .fin 120, 3⟩ 5 0) (fun b => a == b) &&
    okAnd (exMovedFile ⟨96, 384, 24, .fin 120, 3⟩ 5 0) (fun b => a ≠ b)) = true ∧
    (exMoved 5 0).contents.map soundOf = (exMoved 0 0).contents.map (fun p => higher 5 (soundOf p)) := by
  decide +kernel

/-- C88: half a note later; the first delta time of 0 becomes 192 pulses, written in two bytes. -/
example : okAnd (exMovedFile ⟨96, 384, 24, .fin 120, 3⟩ 0 0) (fun a =>
    okAnd (exMovedFile ⟨96, 384, 24, .fin 120, 3⟩ 0 2) (fun b =>
      a.drop 38 == b.drop 39 && a[37]? == some 0 && b[37]? == some 0x81 && b[38]? == some 0x40)) = true ∧
    (exMoved 0 2).contents.map soundOf = (exMoved 0 0).contents.map (fun p => later (1 / 2) (soundOf p)) := by
  decide +kernel

/-- C88, error: a note below the lowest key. -/
example : exMovedFile ⟨96, 384, -41, .fin 120, 3⟩ 0 0 = .error .valueError ∧
    exMovedFile ⟨96, 384, -41, .fin 120, 3⟩ 0 2 = .error .valueError := by decide +kernel

end Melodia
