/-
The parser accepts exactly the byte strings of the grammar in Spec/Lenient.lean.
-/
import Verif.Lemmas.MidiChunks
import Verif.Lemmas.MidiFile
import Verif.Spec.Lenient

set_option autoImplicit false

namespace Melodia

theorem Ev.endOfTrack_wf : Ev.endOfTrack.Wf := by
  refine ⟨fun _ => rfl, ?_, ?_⟩ <;> intro h <;> cases h

theorem Ev.status_ge {e : Ev} (hw : e.Wf) : 0x80 ≤ e.status.toNat := by
  cases e with
  | chan s data => exact hw.1
  | sys s data =>
    rcases hw with ⟨h, -⟩ | ⟨h, -⟩ | ⟨h, -⟩ | ⟨h, -⟩ <;> simp only [Ev.status]
    · omega
    · omega
    · omega
    · have : ∀ n ∈ [0xF6, 0xF8, 0xFA, 0xFB, 0xFC, 0xFE], 0x80 ≤ n := by decide
      exact this _ h
  | mta k payload => exact (by decide : 0x80 ≤ (0xFF : UInt8).toNat)

namespace L

/-- Reading the rest of a well-formed event. -/
theorem readWith_tail {e : Ev} (hw : e.Wf) {tl : Bytes} (ht : e.Tail tl) (l : Bytes) :
    readWith e.status.toNat (tl ++ l) = .ok (e.event, l) := by
  cases ht with
  | chan s data => exact readWith_chan hw l
  | sys s data => exact (readWith_sys hw l).2
  | mta k len payload h => exact readWith_mta hw h l

theorem readEvent_announced {prev : Option UInt8} {e : Ev} (hw : e.Wf) {a tl l : Bytes} (ht : e.Tail tl)
    (ha : Announced prev e.status (tl ++ l) a) :
    readEvent (prev.map UInt8.toNat) (a ++ (tl ++ l)) = .ok ((e.event, some e.status.toNat), l) := by
  generalize hf : tl ++ l = follow at ha
  generalize hs : e.status = s at ha
  have hr := readWith_tail hw ht l
  rw [hf, hs] at hr
  have h8 := Ev.status_ge hw
  rw [hs] at h8
  cases ha with
  | status =>
    rw [List.cons_append, List.nil_append, readEvent, if_pos h8, hr]
    rfl
  | running _ b follow hb =>
    rw [List.nil_append, readEvent, if_neg (by omega), Option.map_some, readRunning, hr]
    rfl

theorem readVar_acc : ∀ (l : Bytes) (acc n : Nat) (r : Bytes), readVar acc l = .ok (n, r) →
    ∃ v, l = v ++ r ∧ (∃ init last, v = init ++ [last] ∧ (∀ b ∈ init, 128 ≤ b.toNat) ∧ last.toNat < 128) ∧
      n = v.foldl (fun acc b => acc * 128 + b.toNat % 128) acc := by
  intro l
  induction l with
  | nil => intro _ _ _ h; cases h
  | cons b l ih =>
    intro acc n r h
    rw [readVar] at h
    split at h
    · rename_i hb
      cases h
      refine ⟨[b], rfl, ⟨[], b, rfl, by simp, hb⟩, ?_⟩
      rw [List.foldl_cons, List.foldl_nil, Nat.mod_eq_of_lt hb]
    · rename_i hb
      obtain ⟨v, rfl, ⟨init, last, rfl, h1, h2⟩, h3⟩ := ih _ _ _ h
      refine ⟨b :: (init ++ [last]), rfl, ⟨b :: init, last, rfl, ?_, h2⟩, ?_⟩
      · intro x hx
        rcases List.mem_cons.1 hx with rfl | hx
        · omega
        · exact h1 x hx
      · rw [List.foldl_cons]; exact h3

theorem readVar_vlqReads {l r : Bytes} {n : Nat} (h : readVar 0 l = .ok (n, r)) : ∃ v, l = v ++ r ∧ VlqReads n v := by
  obtain ⟨v, h1, h2, h3⟩ := readVar_acc _ _ _ _ h
  exact ⟨v, h1, h2, h3.symm⟩

theorem read8_ok {l r : Bytes} {n : Nat} (h : read8 l = .ok (n, r)) : ∃ b : UInt8, l = b :: r ∧ n = b.toNat := by
  cases l with
  | nil => cases h
  | cons b l => cases h; exact ⟨b, rfl, rfl⟩

theorem read_ok {k : Nat} {l a r : Bytes} (h : read k l = .ok (a, r)) : l = a ++ r ∧ a.length = k := by
  unfold read at h
  split at h
  · cases h
  · cases h
    refine ⟨(List.take_append_drop _ _).symm, ?_⟩
    rw [List.length_take]; omega

/-- A successful read of a meta event. -/
theorem metaBody_ok {k : UInt8} {n : Nat} {l r : Bytes} {ev : Event} (h : metaBody k.toNat n l = .ok (ev, r)) :
    ∃ payload, payload.length = n ∧ l = payload ++ r ∧ (Ev.mta k payload).Wf ∧ ev = (Ev.mta k payload).event := by
  unfold metaBody at h
  by_cases k1 : k.toNat = 0x2F
  · rw [if_pos k1] at h
    split at h
    · cases h
    · cases h
      rename_i hn
      refine ⟨[], by simpa using (not_not.1 hn).symm, rfl, ⟨fun _ => rfl, fun h => by omega, fun h => by omega⟩, ?_⟩
      simp only [Ev.event]
      rw [if_pos k1]
  · rw [if_neg k1] at h
    by_cases k2 : k.toNat = 0x20
    · rw [if_pos k2] at h
      split at h
      · cases h
      · rename_i hn
        rcases h1 : read8 l with e | ⟨x, l1⟩
        · rw [h1] at h; cases h
        · rw [h1] at h
          cases h
          obtain ⟨b, rfl, rfl⟩ := read8_ok h1
          refine ⟨[b], by simpa using (not_not.1 hn).symm, rfl, ⟨fun h => absurd h k1, fun _ => rfl, fun h => by omega⟩, ?_⟩
          simp only [Ev.event]
          rw [if_neg k1, if_pos k2]
    · rw [if_neg k2] at h
      by_cases k3 : k.toNat = 0x58
      · rw [if_pos k3] at h
        split at h
        · cases h
        · rename_i hn
          rcases h1 : read8 l with e | ⟨x, l1⟩
          · rw [h1] at h; cases h
          · rw [h1] at h
            change (read8 l1 >>= _) = _ at h
            rcases h2 : read8 l1 with e | ⟨y, l2⟩
            · rw [h2] at h; cases h
            · rw [h2] at h
              change (read8 l2 >>= _) = _ at h
              rcases h3 : read8 l2 with e | ⟨z, l3⟩
              · rw [h3] at h; cases h
              · rw [h3] at h
                change (read8 l3 >>= _) = _ at h
                rcases h4 : read8 l3 with e | ⟨w, l4⟩
                · rw [h4] at h; cases h
                · rw [h4] at h
                  cases h
                  obtain ⟨a, rfl, rfl⟩ := read8_ok h1
                  obtain ⟨b, rfl, rfl⟩ := read8_ok h2
                  obtain ⟨c, rfl, rfl⟩ := read8_ok h3
                  obtain ⟨d, rfl, rfl⟩ := read8_ok h4
                  refine ⟨[a, b, c, d], by simpa using (not_not.1 hn).symm, rfl,
                    ⟨fun h => absurd h k1, fun h => absurd h k2, fun _ => rfl⟩, ?_⟩
                  simp only [Ev.event]
                  rw [if_neg k1, if_pos k3]
      · rw [if_neg k3] at h
        rcases h1 : read n l with e | ⟨x, l1⟩
        · rw [h1] at h; cases h
        · rw [h1] at h
          cases h
          obtain ⟨rfl, hx⟩ := read_ok h1
          refine ⟨x, hx, rfl, ⟨fun h => absurd h k1, fun h => absurd h k2, fun h => absurd h k3⟩, ?_⟩
          unfold Ev.event
          simp only []
          rw [if_neg k1]
          split
          · rw [if_neg k2]
          · rw [if_neg k3]
          · rfl

theorem dataLength_ok {s n : Nat} (h : dataLength s = some n) (h256 : s < 256) :
    (0x80 ≤ s ∧ s < 0xF0 ∧ n = if 0xC0 ≤ s ∧ s < 0xE0 then 1 else 2) ∨
    (s = 0xF1 ∧ n = 1) ∨ (s = 0xF2 ∧ n = 2) ∨ (s = 0xF3 ∧ n = 1) ∨
    (s ∈ [0xF6, 0xF8, 0xFA, 0xFB, 0xFC, 0xFE] ∧ n = 0) := by
  have key : ∀ s < 256, ∀ n ∈ dataLength s, (0x80 ≤ s ∧ s < 0xF0 ∧ n = if 0xC0 ≤ s ∧ s < 0xE0 then 1 else 2) ∨
      (s = 0xF1 ∧ n = 1) ∨ (s = 0xF2 ∧ n = 2) ∨ (s = 0xF3 ∧ n = 1) ∨
      (s ∈ [0xF6, 0xF8, 0xFA, 0xFB, 0xFC, 0xFE] ∧ n = 0) := by decide +kernel
  exact key s h256 n h

/-- Whatever is read after a status byte is a well-formed event. -/
theorem readWith_ok {s : UInt8} (hs : 0x80 ≤ s.toNat) {l r : Bytes} {ev : Event} (h : readWith s.toNat l = .ok (ev, r)) :
    ∃ (e : Ev) (tl : Bytes), e.Wf ∧ e.status = s ∧ e.Tail tl ∧ l = tl ++ r ∧ ev = e.event := by
  unfold readWith at h
  by_cases hf : s.toNat = 0xFF
  · rw [if_pos hf] at h
    have hs' : s = 0xFF := UInt8.toNat_inj.1 hf
    subst hs'
    unfold readMeta at h
    rcases h1 : read8 l with e | ⟨k, l1⟩
    · rw [h1] at h; cases h
    · rw [h1] at h
      obtain ⟨k, rfl, rfl⟩ := read8_ok h1
      change (readVar 0 l1 >>= _) = _ at h
      rcases h2 : readVar 0 l1 with e | ⟨n, l2⟩
      · rw [h2] at h; cases h
      · rw [h2] at h
        have h3 : metaBody k.toNat n l2 = .ok (ev, r) := h
        clear h
        obtain ⟨v, rfl, hv⟩ := readVar_vlqReads h2
        obtain ⟨payload, rfl, rfl, hw, he⟩ := metaBody_ok h3
        exact ⟨.mta k payload, _, hw, rfl, .mta k v payload hv, by simp, he⟩
  · rw [if_neg hf] at h
    unfold readStatus at h
    have h256 : s.toNat < 256 := s.toNat_lt
    by_cases hn : s.toNat / 16 = 8 ∨ s.toNat / 16 = 9
    · rw [if_pos hn] at h
      rcases h1 : read8 l with e | ⟨x, l1⟩
      · rw [h1] at h; cases h
      · rw [h1] at h
        change (read8 l1 >>= _) = _ at h
        rcases h2 : read8 l1 with e | ⟨y, l2⟩
        · rw [h2] at h; cases h
        · rw [h2] at h
          cases h
          obtain ⟨a, rfl, rfl⟩ := read8_ok h1
          obtain ⟨b, rfl, rfl⟩ := read8_ok h2
          refine ⟨.chan s [a, b], [a, b], ⟨hs, by omega, ?_⟩, rfl, .chan s _, rfl, ?_⟩
          · rw [if_neg (by omega)]; rfl
          · simp only [Ev.event]
            rw [if_pos hn]
    · rw [if_neg hn] at h
      rcases hd : dataLength s.toNat with _ | n
      · rw [hd] at h; cases h
      · rw [hd] at h
        simp only [] at h
        rcases h1 : read n l with e | ⟨x, l1⟩
        · rw [h1] at h; cases h
        · rw [h1] at h
          cases h
          obtain ⟨rfl, hx⟩ := read_ok h1
          rcases dataLength_ok hd h256 with ⟨c1, c2, c3⟩ | c
          · refine ⟨.chan s x, x, ⟨c1, c2, hx.trans c3⟩, rfl, .chan s x, rfl, ?_⟩
            unfold Ev.event
            simp only []
            split
            · rw [if_neg hn]
            · rfl
          · refine ⟨.sys s x, x, ?_, rfl, .sys s x, rfl, rfl⟩
            rcases c with ⟨c1, c2⟩ | ⟨c1, c2⟩ | ⟨c1, c2⟩ | ⟨c1, c2⟩
            · exact Or.inl ⟨c1, hx.trans c2⟩
            · exact Or.inr (Or.inl ⟨c1, hx.trans c2⟩)
            · exact Or.inr (Or.inr (Or.inl ⟨c1, hx.trans c2⟩))
            · exact Or.inr (Or.inr (Or.inr ⟨c1, List.length_eq_zero_iff.1 (hx.trans c2)⟩))

theorem readEvent_ok {prev : Option UInt8} (hp : ∀ s, prev = some s → 0x80 ≤ s.toNat) {l r : Bytes}
    {x : Event × Option Nat} (h : readEvent (prev.map UInt8.toNat) l = .ok (x, r)) :
    ∃ (e : Ev) (a tl : Bytes), e.Wf ∧ e.Tail tl ∧ Announced prev e.status (tl ++ r) a ∧ l = a ++ (tl ++ r) ∧
      x = (e.event, some e.status.toNat) := by
  cases l with
  | nil => cases h
  | cons b l =>
    rw [readEvent] at h
    by_cases hb : 0x80 ≤ b.toNat
    · rw [if_pos hb] at h
      rcases h1 : readWith b.toNat l with e | ⟨ev, l1⟩
      · rw [h1] at h; cases h
      · rw [h1] at h
        cases h
        obtain ⟨e, tl, hw, rfl, ht, rfl, rfl⟩ := readWith_ok hb h1
        exact ⟨e, [e.status], tl, hw, ht, .status _ _ _, rfl, rfl⟩
    · rw [if_neg hb] at h
      cases prev with
      | none => cases h
      | some s =>
        rw [Option.map_some, readRunning] at h
        rcases h1 : readWith s.toNat (b :: l) with e | ⟨ev, l1⟩
        · rw [h1] at h; cases h
        · rw [h1] at h
          cases h
          obtain ⟨e, tl, hw, rfl, ht, hl, rfl⟩ := readWith_ok (hp s rfl) h1
          refine ⟨e, [], tl, hw, ht, ?_, hl, rfl⟩
          rw [← hl]
          exact .running _ _ _ (by omega)

/-- What the parser accepts is in the grammar. -/
theorem parse_lenient : ∀ (n : Nat) (l : Bytes), l.length ≤ n → ∀ (st : ParseState) (prev : Option UInt8),
    st.previousStatus = prev.map UInt8.toNat → (∀ s, prev = some s → 0x80 ≤ s.toNat) → ∀ st' r,
    parse st l = .ok (st', r) → ∃ es, Lenient prev es l ∧
      st'.channelEvents = (es.foldl Core.step st.core).events ∧
      st'.channelSignatures = (es.foldl Core.step st.core).sigs := by
  intro n
  induction n using Nat.strong_induction_on with
  | _ n ih =>
    intro l hl st prev hst hp st' r h
    rw [parse_unfold] at h
    rcases h1 : readVar 0 l with e | ⟨d, l1⟩
    · rw [h1] at h; cases h
    · rw [h1] at h
      obtain ⟨v, rfl, hv⟩ := readVar_vlqReads h1
      have hvl : 0 < v.length := by
        obtain ⟨⟨init, last, rfl, -⟩, -⟩ := hv
        simp
      change (readEvent st.previousStatus l1 >>= _) = _ at h
      rw [hst] at h
      rcases h2 : readEvent (prev.map UInt8.toNat) l1 with e | ⟨x, l2⟩
      · rw [h2] at h; cases h
      · rw [h2] at h
        obtain ⟨e, a, tl, hw, ht, ha, rfl, rfl⟩ := readEvent_ok hp h2
        by_cases he : e = .endOfTrack
        · subst he
          cases h
          exact ⟨[], .stop hv ht ha, rfl, rfl⟩
        · obtain ⟨st1, k1, k2, k3⟩ := next_core st d hw he (some e.status.toNat)
          change (L.next st d (e.event, some e.status.toNat) >>= _) = _ at h
          rw [k1] at h
          change parse st1 l2 = _ at h
          have hlen : l2.length < n := by
            simp only [List.length_append] at hl
            omega
          obtain ⟨es, j1, j2, j3⟩ := ih l2.length hlen l2 le_rfl st1 (some e.status) k3
            (fun s hs => by cases hs; exact Ev.status_ge hw) st' r h
          refine ⟨(d, e) :: es, .cons hv hw he ht ha j1, ?_, ?_⟩
          · rw [j2, k2]; rfl
          · rw [j3, k2]; rfl

end L

/-- What is in the grammar is accepted by the parser. -/
theorem Lenient.parse {prev : Option UInt8} {es : List (Nat × Ev)} {bs : Bytes} (h : Lenient prev es bs) :
    ∀ st : ParseState, st.previousStatus = prev.map UInt8.toNat → ∃ st' r, L.parse st bs = .ok (st', r) ∧
      st'.channelEvents = (es.foldl Core.step st.core).events ∧
      st'.channelSignatures = (es.foldl Core.step st.core).sigs := by
  induction h with
  | @stop prev d v a tl rest hv ht ha =>
    intro st hst
    rw [L.parse_unfold, L.readVar_reads hv]
    change ∃ st' r, (L.readEvent st.previousStatus _ >>= _) = _ ∧ _
    rw [hst, L.readEvent_announced Ev.endOfTrack_wf ht ha]
    exact ⟨_, _, rfl, rfl, rfl⟩
  | @cons prev d e es v a tl rest hv hw hne ht ha h ih =>
    intro st hst
    obtain ⟨st1, k1, k2, k3⟩ := L.next_core st d hw hne (some e.status.toNat)
    obtain ⟨st', r, j1, j2, j3⟩ := ih st1 k3
    refine ⟨st', r, ?_, ?_, ?_⟩
    · rw [L.parse_unfold, L.readVar_reads hv]
      change (L.readEvent st.previousStatus _ >>= _) = _
      rw [hst, L.readEvent_announced hw ht ha]
      change (L.next st d (e.event, some e.status.toNat) >>= _) = _
      rw [k1]
      exact j1
    · rw [j2, k2]; rfl
    · rw [j3, k2]; rfl

theorem Lenient.wf {prev : Option UInt8} {es : List (Nat × Ev)} {bs : Bytes} (h : Lenient prev es bs) :
    ∀ x ∈ es, x.2.Wf ∧ x.2 ≠ .endOfTrack := by
  induction h with
  | stop => intro x hx; cases hx
  | cons hv hw hne ht ha h ih =>
    intro x hx
    rcases List.mem_cons.1 hx with rfl | hx
    · exact ⟨hw, hne⟩
    · exact ih x hx

theorem vlq_reads (n : Nat) : VlqReads n (vlq n) := by
  obtain ⟨v, h1, h2⟩ := L.readVar_vlqReads (L.readVar_vlq n [])
  rw [List.append_nil, List.append_nil] at h1
  rw [h1]
  exact h2

/-- Well-formed events have a standard encoding. -/
theorem encodes_exists : ∀ (es : List (Nat × Ev)), (∀ x ∈ es, x.2.Wf) → ∀ prev, ∃ bs, Encodes prev es bs := by
  intro es
  induction es with
  | nil => intro _ prev; exact ⟨[], .nil prev⟩
  | cons x es ih =>
    obtain ⟨d, e⟩ := x
    intro h prev
    have hw : e.Wf := h (d, e) (by simp)
    have ih' := fun p => ih (fun x hx => h x (List.mem_cons_of_mem _ hx)) p
    cases e with
    | chan s data =>
      obtain ⟨bs, hb⟩ := ih' (some s)
      exact ⟨_, .cons (vlq_reads d) hw (.chan prev s data) hb⟩
    | sys s data =>
      obtain ⟨bs, hb⟩ := ih' none
      exact ⟨_, .cons (vlq_reads d) hw (.sys prev s data) hb⟩
    | mta k payload =>
      obtain ⟨bs, hb⟩ := ih' none
      exact ⟨_, .cons (vlq_reads d) hw (.mta prev k _ payload (vlq_reads _)) hb⟩

theorem body_exists {es : List (Nat × Ev)} (h : ∀ x ∈ es, x.2.Wf ∧ x.2 ≠ .endOfTrack) : ∃ body, IsBody es body := by
  obtain ⟨bs, hb⟩ := encodes_exists (es ++ [(0, .endOfTrack)]) (by
    intro x hx
    rcases List.mem_append.1 hx with hx | hx
    · exact (h x hx).1
    · rw [List.mem_singleton] at hx
      subst hx
      exact Ev.endOfTrack_wf) none
  exact ⟨bs, fun x hx => (h x hx).2, 0, hb⟩

end Melodia
