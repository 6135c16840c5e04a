/-
The grammar of Spec/Lenient.lean is unambiguous, and what it costs in bytes.
-/
import Verif.Lemmas.LenientFile

set_option autoImplicit false

namespace Melodia

theorem VlqReads.unique {d d' : Nat} {v v' x x' : Bytes} (h : VlqReads d v) (h' : VlqReads d' v')
    (he : v ++ x = v' ++ x') : d = d' ∧ x = x' := by
  have h1 := L.readVar_reads h x
  rw [he, L.readVar_reads h' x'] at h1
  cases h1
  exact ⟨rfl, rfl⟩

theorem Ev.sys_status {s : UInt8} {data : Bytes} (h : (Ev.sys s data).Wf) : 0xF0 < s.toNat ∧ s.toNat < 0xFF := by
  rcases h with ⟨h, -⟩ | ⟨h, -⟩ | ⟨h, -⟩ | ⟨h, -⟩
  · omega
  · omega
  · omega
  · have : ∀ n ∈ [0xF6, 0xF8, 0xFA, 0xFB, 0xFC, 0xFE], 0xF0 < n ∧ n < 0xFF := by decide
    exact this _ h

theorem Ev.Tail.unique {e e' : Ev} (hw : e.Wf) (hw' : e'.Wf) {tl tl' x x' : Bytes} (h : e.Tail tl) (h' : e'.Tail tl')
    (hs : e.status = e'.status) (he : tl ++ x = tl' ++ x') : e = e' ∧ x = x' := by
  have sysr := @Ev.sys_status
  have hff : (0xFF : UInt8).toNat = 0xFF := rfl
  cases h with
  | chan s data =>
    cases h' with
    | chan s' data' =>
      change s = s' at hs
      subst hs
      obtain ⟨h1, h2⟩ := List.append_inj he (hw.2.2.trans hw'.2.2.symm)
      exact ⟨by rw [h1], h2⟩
    | sys s' data' =>
      change s = s' at hs
      subst hs
      have := sysr hw'
      have := hw.2.1
      omega
    | mta k len payload hl =>
      change s = 0xFF at hs
      have := hw.2.1
      rw [hs] at this
      omega
  | sys s data =>
    cases h' with
    | chan s' data' =>
      change s = s' at hs
      subst hs
      have := sysr hw
      have := hw'.2.1
      omega
    | sys s' data' =>
      change s = s' at hs
      subst hs
      have hl : tl.length = tl'.length := by
        rcases hw with ⟨h1, h2⟩ | ⟨h1, h2⟩ | ⟨h1, h2⟩ | ⟨h1, h2⟩ <;>
        rcases hw' with ⟨k1, k2⟩ | ⟨k1, k2⟩ | ⟨k1, k2⟩ | ⟨k1, k2⟩ <;>
        first
          | omega
          | (rw [h1] at k1; exact absurd k1 (by decide))
          | (rw [k1] at h1; exact absurd h1 (by decide))
          | (rw [h2, k2])
      obtain ⟨h1, h2⟩ := List.append_inj he hl
      exact ⟨by rw [h1], h2⟩
    | mta k len payload hl =>
      change s = 0xFF at hs
      have := (sysr hw).2
      rw [hs] at this
      omega
  | mta k len payload hl =>
    cases h' with
    | chan s' data' =>
      change 0xFF = s' at hs
      have := hw'.2.1
      rw [← hs] at this
      omega
    | sys s' data' =>
      change 0xFF = s' at hs
      have := (sysr hw').2
      rw [← hs] at this
      omega
    | mta k' len' payload' hl' =>
      rw [List.cons_append, List.cons_append] at he
      injection he with hk he
      rw [List.append_assoc, List.append_assoc] at he
      obtain ⟨h1, h2⟩ := hl.unique hl' he
      obtain ⟨h3, h4⟩ := List.append_inj h2 h1
      exact ⟨by rw [hk, h3], h4⟩

theorem Announced.unique {prev : Option UInt8} {e e' : Ev} (hw : e.Wf) (hw' : e'.Wf) {a a' tl tl' x x' : Bytes}
    (h : e.Tail tl) (h' : e'.Tail tl') (ha : Announced prev e.status (tl ++ x) a)
    (ha' : Announced prev e'.status (tl' ++ x') a') (he : a ++ (tl ++ x) = a' ++ (tl' ++ x')) : e = e' ∧ x = x' := by
  have h1 := Ev.status_ge hw
  have h2 := Ev.status_ge hw'
  generalize hf : tl ++ x = f at ha he
  generalize hf' : tl' ++ x' = f' at ha' he
  generalize hs : e.status = s at ha h1
  generalize hs' : e'.status = s' at ha' h2
  cases ha with
  | status =>
    cases ha' with
    | status =>
      rw [List.cons_append, List.cons_append] at he
      injection he with e1 e2
      rw [List.nil_append, List.nil_append] at e2
      exact Ev.Tail.unique hw hw' h h' (by rw [hs, hs', e1]) (by rw [hf, hf', e2])
    | running _ b g hb =>
      rw [List.cons_append, List.nil_append] at he
      injection he with e1 e2
      subst e1
      omega
  | running _ b g hb =>
    cases ha' with
    | status =>
      rw [List.cons_append, List.nil_append] at he
      injection he with e1 e2
      subst e1
      omega
    | running _ b' g' hb' =>
      rw [List.nil_append, List.nil_append] at he
      exact Ev.Tail.unique hw hw' h h' (by rw [hs, hs']) (by rw [hf, hf', he])

theorem Lenient.unique {prev : Option UInt8} {es : List (Nat × Ev)} {bs : Bytes} (h : Lenient prev es bs) :
    ∀ {es'}, Lenient prev es' bs → es = es' := by
  induction h with
  | @stop prev d v a tl rest hv ht ha =>
    intro es' h'
    generalize hb : v ++ (a ++ (tl ++ rest)) = bs at h'
    cases h' with
    | stop => rfl
    | @cons _ d' e' es' v' a' tl' rest' hv' hw' hne' ht' ha' h' =>
      obtain ⟨-, h2⟩ := hv.unique hv' hb
      exact absurd (Announced.unique Ev.endOfTrack_wf hw' ht ht' ha ha' h2).1.symm hne'
  | @cons prev d e es v a tl rest hv hw hne ht ha h ih =>
    intro es' h'
    generalize hb : v ++ (a ++ (tl ++ rest)) = bs at h'
    cases h' with
    | @stop _ d' v' a' tl' rest' hv' ht' ha' =>
      obtain ⟨-, h2⟩ := hv.unique hv' hb
      exact absurd (Announced.unique hw Ev.endOfTrack_wf ht ht' ha ha' h2).1 hne
    | @cons _ d' e' es' v' a' tl' rest' hv' hw' hne' ht' ha' h' =>
      obtain ⟨h1, h2⟩ := hv.unique hv' hb
      obtain ⟨h3, h4⟩ := Announced.unique hw hw' ht ht' ha ha' h2
      subst h1; subst h3; subst h4
      rw [ih h']

theorem AllChunks.unique {file : Bytes} {cs : List (Bytes × Bytes)} (h : AllChunks file cs) :
    ∀ {cs'}, AllChunks file cs' → cs = cs' := by
  induction h with
  | nil =>
    intro cs' h'
    generalize hb : ([] : Bytes) = f at h'
    cases h' with
    | nil => rfl
    | cons hk hl h' =>
      have := congrArg List.length hb
      simp only [List.length_append, List.length_cons, List.length_nil] at this
      omega
  | @cons kind top len body rest cs hk hl h ih =>
    intro cs' h'
    generalize hb : kind ++ top :: len ++ body ++ rest = f at h'
    cases h' with
    | nil =>
      have := congrArg List.length hb
      simp only [List.length_append, List.length_cons, List.length_nil] at this
      omega
    | @cons kind' top' len' body' rest' cs' hk' hl' h' =>
      have h1 := MidiReader.readChunk_cons (top := top) (rest := rest) hk hl
      rw [hb, MidiReader.readChunk_cons (top := top') (rest := rest') hk' hl'] at h1
      cases h1
      rw [ih h']

theorem ChunksRead.unique {division : Option Nat} {music music' : Option (Nat × List (Nat × Ev))}
    {cs : List (Bytes × Bytes)} (h : ChunksRead division music cs music') :
    ∀ {music''}, ChunksRead division music cs music'' → music' = music'' := by
  induction h with
  | nil => intro m h'; cases h'; rfl
  | @header division music music' hi lo tail cs hd h ih =>
    intro m h'
    cases h' with
    | header hd' h' => exact ih h'
    | other h1 h2 h' => exact absurd rfl h1
  | @track division music music' es body cs hb h0 h ih =>
    intro m h'
    cases h' with
    | track hb' h0' h' =>
      have := hb.unique hb'
      subst this
      exact ih h'
    | other h1 h2 h' => exact absurd rfl h2
  | @other division music music' kind body cs h1 h2 h ih =>
    intro m h'
    cases h' with
    | header hd' h' => exact absurd rfl h1
    | track hb' h0' h' => exact absurd rfl h2
    | other h1' h2' h' => exact ih h'

/-! ### Sizes -/

theorem IsPair.right_unique {evs : List NoteEv} {i j j' : Nat} (h : IsPair evs i j) (h' : IsPair evs i j') : j = j' := by
  obtain ⟨p, h1, h2, h3, h4⟩ := h
  obtain ⟨p', h1', h2', h3', h4'⟩ := h'
  have hp : p = p' := by
    obtain ⟨e, k1, -, k2⟩ := h1.1
    obtain ⟨e', k1', -, k2'⟩ := h1'.1
    rw [k1] at k1'
    cases k1'
    rw [← k2, ← k2']
  subst hp
  rcases Nat.lt_trichotomy j j' with h | h | h
  · exact absurd h3 (h4' j h2 h)
  · exact h
  · exact absurd h3' (h4 j' h2' h)

theorem IsPair.left_unique {evs : List NoteEv} {i i' j : Nat} (h : IsPair evs i j) (h' : IsPair evs i' j) : i = i' := by
  obtain ⟨p, h1, h2, h3, h4⟩ := h
  obtain ⟨p', h1', h2', h3', h4'⟩ := h'
  have hp : p = p' := by
    obtain ⟨e, k1, -, k2⟩ := h3
    obtain ⟨e', k1', -, k2'⟩ := h3'
    rw [k1] at k1'
    cases k1'
    rw [← k2, ← k2']
  subst hp
  rcases Nat.lt_trichotomy i i' with h | h | h
  · obtain ⟨l, k1, k2, k3⟩ := h1'.2 i h h1.1
    exact absurd k3 (h4 l k1 (by omega))
  · exact h
  · obtain ⟨l, k1, k2, k3⟩ := h1.2 i' h h1'.1
    exact absurd k3 (h4' l k1 (by omega))

theorem pairSet_card_le (evs : List NoteEv) : 2 * (pairSet evs).card ≤ evs.length := by
  classical
  have h1 : ((pairSet evs).image Prod.fst).card = (pairSet evs).card := by
    apply Finset.card_image_of_injOn
    rintro ⟨i, j⟩ hx ⟨i', j'⟩ hy he
    simp only at he
    subst he
    have a : IsPair evs i j := mem_pairSet.1 hx
    have b : IsPair evs i j' := mem_pairSet.1 hy
    rw [a.right_unique b]
  have h2 : ((pairSet evs).image Prod.snd).card = (pairSet evs).card := by
    apply Finset.card_image_of_injOn
    rintro ⟨i, j⟩ hx ⟨i', j'⟩ hy he
    simp only at he
    subst he
    have a : IsPair evs i j := mem_pairSet.1 hx
    have b : IsPair evs i' j := mem_pairSet.1 hy
    rw [a.left_unique b]
  have hd : Disjoint ((pairSet evs).image Prod.fst) ((pairSet evs).image Prod.snd) := by
    rw [Finset.disjoint_left]
    intro k hk hk'
    obtain ⟨x, hx, rfl⟩ := Finset.mem_image.1 hk
    obtain ⟨y, hy, he⟩ := Finset.mem_image.1 hk'
    obtain ⟨p, a, -, -, -⟩ := mem_pairSet.1 hx
    obtain ⟨q, -, -, b, -⟩ := mem_pairSet.1 hy
    rw [he] at b
    exact a.1.not b
  have hs : (pairSet evs).image Prod.fst ∪ (pairSet evs).image Prod.snd ⊆ Finset.range evs.length := by
    intro k hk
    rw [Finset.mem_range]
    rcases Finset.mem_union.1 hk with hk | hk
    · obtain ⟨x, hx, rfl⟩ := Finset.mem_image.1 hk
      have := (mem_pairSet.1 hx).lt
      omega
    · obtain ⟨x, hx, rfl⟩ := Finset.mem_image.1 hk
      exact (mem_pairSet.1 hx).lt.2
  have := Finset.card_le_card hs
  rw [Finset.card_union_of_disjoint hd, h1, h2, Finset.card_range] at this
  omega

/-- Number of note messages. -/
def noteCount (es : List (Nat × Ev)) : Nat := (es.filter (fun x => x.2.note?.isSome)).length

theorem noteEvents_sum : ∀ (es : List (Nat × Ev)) (now : Nat),
    ∑ c ∈ Finset.range 16, (noteEvents c now es).length ≤ noteCount es := by
  intro es
  induction es with
  | nil => intro now; simp [noteEvents]
  | cons x es ih =>
    obtain ⟨d, e⟩ := x
    intro now
    rcases hn : e.note? with _ | ⟨c', on, p, v⟩
    · have e1 : noteCount ((d, e) :: es) = noteCount es := by
        unfold noteCount
        rw [List.filter_cons_of_neg (by simp [hn])]
      have e2 : ∀ c, noteEvents c now ((d, e) :: es) = noteEvents c (now + d) es := by
        intro c; rw [noteEvents, hn]
      simp only [e1, e2]
      exact ih _
    · have e1 : noteCount ((d, e) :: es) = noteCount es + 1 := by
        unfold noteCount
        rw [List.filter_cons_of_pos (by simp [hn])]
        rfl
      have e2 : ∀ c, (noteEvents c now ((d, e) :: es)).length =
          (noteEvents c (now + d) es).length + if c' = c then 1 else 0 := by
        intro c
        rw [noteEvents, hn]
        simp only
        split <;> rfl
      simp only [e1, e2]
      rw [Finset.sum_add_distrib, Finset.sum_ite_eq]
      have := ih (now + d)
      split <;> omega

theorem Ev.note_data {e : Ev} (h : e.note?.isSome = true) {tl : Bytes} (ht : e.Tail tl) :
    tl.length = 2 ∧ e.status.toNat < 0xA0 := by
  unfold Ev.note? at h
  split at h
  · rename_i s p v
    cases ht
    refine ⟨rfl, ?_⟩
    have := s.toNat_lt
    simp only [Ev.status]
    split at h
    · omega
    · split at h
      · omega
      · cases h
  · cases h

theorem Lenient.size {prev : Option UInt8} {es : List (Nat × Ev)} {bs : Bytes} (h : Lenient prev es bs) :
    3 * noteCount es + 3 + (if prev = some 0xFF then 0 else 1) ≤ bs.length := by
  have vl : ∀ {d v}, VlqReads d v → 1 ≤ v.length := by
    rintro d v ⟨⟨init, last, rfl, -⟩, -⟩
    simp
  have al : ∀ {prev s f a}, Announced prev s f a → prev ≠ some s → 1 ≤ a.length := by
    intro prev s f a h hne
    cases h with
    | status => simp
    | running => exact absurd rfl hne
  induction h with
  | @stop prev d v a tl rest hv ht ha =>
    have h1 := vl hv
    have h2 : 2 ≤ tl.length := by
      cases ht with
      | mta k len payload hl =>
        have := vl hl
        simp only [List.length_cons, List.length_append]
        omega
    have h3 : (if prev = some 0xFF then 0 else 1) ≤ a.length := by
      split
      · omega
      · rename_i hp; exact al ha hp
    simp only [List.length_append]
    change 3 * 0 + 3 + _ ≤ _
    omega
  | @cons prev d e es v a tl rest hv hw hne ht ha h ih =>
    have h1 := vl hv
    simp only [List.length_append]
    by_cases hn : e.note?.isSome = true
    · obtain ⟨h2, h3⟩ := Ev.note_data hn ht
      have e1 : noteCount ((d, e) :: es) = noteCount es + 1 := by
        unfold noteCount
        rw [List.filter_cons_of_pos (by simpa using hn)]
        rfl
      rw [if_neg (by
        intro hc
        injection hc with hc
        rw [hc] at h3
        exact absurd h3 (by decide))] at ih
      rw [e1]
      split <;> omega
    · have e1 : noteCount ((d, e) :: es) = noteCount es := by
        unfold noteCount
        rw [List.filter_cons_of_neg (by simpa using hn)]
      rw [e1]
      by_cases hs : e.status = 0xFF
      · rw [if_pos (by rw [hs])] at ih
        have h2 : 2 ≤ tl.length := by
          cases ht with
          | chan s data =>
            have := hw.2.1
            change s = 0xFF at hs
            rw [hs] at this
            exact absurd this (by decide)
          | sys s data =>
            change s = 0xFF at hs
            subst hs
            exact absurd (Ev.sys_status hw).2 (by decide)
          | mta k len payload hl =>
            have := vl hl
            simp only [List.length_cons, List.length_append]
            omega
        split <;> omega
      · rw [if_neg (by intro hc; injection hc with hc; exact hs hc)] at ih
        split <;> omega

theorem ChunksRead.size {division : Option Nat} {music music' : Option (Nat × List (Nat × Ev))}
    {cs : List (Bytes × Bytes)} (h : ChunksRead division music cs music') : ∀ {file : Bytes}, AllChunks file cs →
    ∀ d es, music' = some (d, es) → music = some (d, es) ∨
      3 * noteCount es + 12 + (if division = none then 14 else 0) ≤ file.length := by
  induction h with
  | nil => intro file _ d es he; exact Or.inl he
  | @header division music music' hi lo tail cs hd h ih =>
    intro file hf d es he
    cases hf with
    | @cons _ top len _ rest _ hk hl hr =>
      rcases ih hr d es he with h | h
      · exact Or.inl h
      · right
        rw [if_neg (by simp)] at h
        have := hl.1
        simp only [List.length_append, List.length_cons] at *
        split <;> omega
  | @track division music music' es' body cs hb h0 h ih =>
    intro file hf d es he
    cases hf with
    | @cons _ top len _ rest _ hk hl hr =>
      right
      have hl3 := hl.1
      have hsz := hb.size
      rw [if_neg (by simp)] at hsz
      rw [if_neg (by simp)]
      simp only [List.length_append, List.length_cons]
      rcases ih hr d es he with h | h
      · cases h
        omega
      · rw [if_neg (by simp)] at h
        omega
  | @other division music music' kind body cs h1 h2 h ih =>
    intro file hf d es he
    cases hf with
    | @cons _ top len _ rest _ hk hl hr =>
      rcases ih hr d es he with h | h
      · exact Or.inl h
      · right
        simp only [List.length_append, List.length_cons]
        split at h
        · rename_i hn
          rw [if_pos hn]; omega
        · rename_i hn
          rw [if_neg hn]; omega

theorem FileReads.size {file : Bytes} {division : Nat} {es : List (Nat × Ev)} (h : FileReads file division es) :
    3 * noteCount es + 26 ≤ file.length := by
  obtain ⟨cs, h1, h2⟩ := h
  rcases h2.size h1 division es rfl with h | h
  · cases h
  · rw [if_pos rfl] at h
    omega

end Melodia
