/-
C115: the results of the methods of `Track` and of `randomize_velocities` are of the annotated types.
-/
import Verif.Lemmas.TypesTrack

set_option autoImplicit false

namespace Melodia

open Melodia.Python Melodia.Source

/-- Methods without parameters besides `self`. -/
theorem typedAt_self {W : World} {fails : Prop} {f : FunDef} {n : String} {ty : Ty} (ho : Head.Of ⟨some "Track", n, [("self", none)], some ty⟩ f)
    (hr : ∀ {h : Heap} {a l : Nat} {t : Track}, TrackAt h a l t → t.Reachable W.sort → ∃ v h' t', callFun program W f [.ref a] [] h = some (.ok v h') ∧
      HasTypeAt W h' ty v ∧ TrackAt h' a l t' ∧ t'.Reachable W.sort) : TypedAt W fails f ⟨some "Track", n, [("self", none)], some ty⟩ := by
  refine ⟨ho, ty, rfl, fun h args hf _ => ?_⟩
  obtain ⟨a, l, t, rfl, ht, htr⟩ := fitsAt_self hf
  obtain ⟨v, h', t', h1, h2, h3, h4⟩ := hr ht htr
  refine ⟨h', .inl ⟨v, h1, h2⟩, ?_⟩
  rintro _ ⟨⟩
  exact ⟨a, l, t', rfl, h3, h4⟩

theorem typed_track {W : World} (hN : W.sort.Natural) (f : FunDef) (hf : f ∈ Track.classDef.methods) (hn : f.name ≠ "__init__") :
    ∃ k ∈ trackHeads, k.cls = some "Track" ∧ TypedAt W (f.name = "add") f k := by
  simp only [Track.classDef, List.mem_cons, List.not_mem_nil, or_false] at hf
  rcases hf with rfl | rfl | rfl | rfl | rfl | rfl | rfl | rfl | rfl
  · exact absurd rfl hn
  · exact ⟨trackHeads[1], List.getElem_mem _, rfl, typedAt_self ⟨rfl, rfl⟩ fun ht hr =>
      ⟨_, _, _, track_signature_call ht, atSignature.mpr ⟨_, hr.wf.sig, rfl⟩, ht, hr⟩⟩
  · exact ⟨trackHeads[2], List.getElem_mem _, rfl, typedAt_self ⟨rfl, rfl⟩ fun ht hr =>
      ⟨_, _, _, track_length_call ht, atSignature.mpr ⟨_, hr.wf.pos, rfl⟩, ht, hr⟩⟩
  · refine ⟨trackHeads[3], List.getElem_mem _, rfl, ⟨rfl, rfl⟩, .none, rfl, fun h args hf hs => ?_⟩
    obtain ⟨a, l, t, vs, rfl, ht, hr, hv⟩ := fitsAt_more (ts := [whatTy, whereTy]) rfl hf
    simp only [HasTypesAt] at hv
    obtain ⟨v, _, rfl, hv, w, _, rfl, hw, rfl⟩ := hv
    obtain ⟨s1, s2, -⟩ := hs a l t rfl ht v (by simp)
    obtain ⟨what, hwhat, hwv⟩ := what_arg hv s1 s2
    obtain ⟨pos, hpos, hpv⟩ := where_arg hw
    have hb : bindParams program W Source.Track.add.params [.ref a, v, w] [] { mod := Source.Track.add.mod, vars := [] } =
      pure [("self", .ref a), ("what", v), ("where", w)] := by simp [py, Source.Track.add]
    cases hp : t.posOf pos with
    | error e =>
      refine ⟨h, .inr ⟨rfl, e, add_run_err W ht hpos hp hb⟩, ?_⟩
      rintro _ ⟨⟩
      exact ⟨a, l, t, rfl, ht, hr⟩
    | ok p =>
      obtain ⟨h', l', t', g1, -, g3, g4⟩ := add_run W ht hr.wf hwv hwhat hpv hpos hp hb
      refine ⟨h', .inl ⟨.none, g3, by rw [HasTypeAt]⟩, ?_⟩
      rintro _ ⟨⟩
      exact ⟨a, l', t', rfl, g4.track, Track.Reachable.add hr hwv hpv g1⟩
  · refine ⟨trackHeads[4], List.getElem_mem _, rfl, ⟨rfl, rfl⟩, .name "bool", rfl, fun h args hf hs => ?_⟩
    obtain ⟨a, l, t, vs, rfl, ht, hr, hv⟩ := fitsAt_more (ts := [.name "Track"]) rfl hf
    simp only [HasTypesAt] at hv
    obtain ⟨v, _, rfl, hv, rfl⟩ := hv
    obtain ⟨b, m, u, rfl, hu, hur⟩ := atTrack.mp hv
    have hseen : ∀ u : Track, (seen W.sort t u).Reachable W.sort := fun u => by
      rw [seen]; split_ifs
      · exact iter_reachable hr
      · exact hr
    by_cases hab : b = a
    · subst hab
      obtain ⟨h', g1, g2⟩ := track_eq_self_run W hN ht hr.wf
      refine ⟨h', .inl ⟨_, g1, atBool.mpr ⟨_, rfl⟩⟩, ?_⟩
      rintro _ ⟨⟩
      exact ⟨_, _, _, rfl, g2.track, hseen t⟩
    · obtain ⟨-, -, s3⟩ := hs a l t rfl ht (.ref b) (by simp)
      have hlm : m ≠ l := (s3 b m u rfl hu).resolve_left hab
      obtain ⟨h', g1, g2, -, -⟩ := track_eq_run W hN ht hu hr.wf hur.wf (Ne.symm hab) (Ne.symm hlm)
      refine ⟨h', .inl ⟨_, g1, atBool.mpr ⟨_, rfl⟩⟩, ?_⟩
      rintro _ ⟨⟩
      exact ⟨_, _, _, rfl, g2, hseen u⟩
  · refine ⟨trackHeads[5], List.getElem_mem _, rfl, typedAt_self ⟨rfl, rfl⟩ fun {h a l t} ht hr => ?_⟩
    obtain ⟨h', g1, g2⟩ := iter_run W hN ht hr.wf
    refine ⟨_, h', _, g1, atIterable.mpr ⟨_, .inr ⟨l, g2.track.list, .inr rfl⟩, fun y hy => ?_⟩, g2.track, iter_reachable hr⟩
    obtain ⟨e, he, rfl⟩ := List.mem_map.mp hy
    obtain ⟨h1, -, h2⟩ := (iter_reachable hr).wf.entries e he
    exact atPair.mpr ⟨_, _, rfl, atSignature.mpr ⟨_, h1, rfl⟩, atNote.mpr ⟨_, h2, rfl⟩⟩
  · exact ⟨trackHeads[6], List.getElem_mem _, rfl, typedAt_self ⟨rfl, rfl⟩ fun ht hr =>
      ⟨_, _, _, track_len_call ht, atInt.mpr ⟨_, rfl⟩, ht, hr⟩⟩
  · exact ⟨trackHeads[7], List.getElem_mem _, rfl, typedAt_self ⟨rfl, rfl⟩ fun ht hr =>
      ⟨_, _, _, track_str_call ht, atStr.mpr ⟨_, rfl⟩, ht, hr⟩⟩
  · refine ⟨trackHeads[8], List.getElem_mem _, rfl, typedAt_self ⟨rfl, rfl⟩ fun ht hr => ?_⟩
    obtain ⟨h', g1, g2⟩ := track_repr_call hN ht hr.wf
    exact ⟨_, h', _, g1, atStr.mpr ⟨_, rfl⟩, g2.track, iter_reachable hr⟩

/-- C115 (methods): a method of `Track`, applied to a track and arguments of the annotated types that do not share the list of the track, ends
with a value of the annotated type. Only `add` may end with an exception instead. The track is a track afterwards, after an exception too. -/
theorem C115_methods (W : World) (hN : W.sort.Natural) : ∃ H, headsOf sourceFiles = some H ∧ ∀ c ∈ program.classes, c.mod = "melodia.core.track" →
    ∀ f ∈ c.methods, f.name ≠ "__init__" → ∀ p ∈ H, p.1 = c.mod → ∀ k ∈ p.2, k.cls = some c.name → k.name = f.name →
      TypedAt W (f.name = "add") f k := by
  refine ⟨_, heads_eq, fun c hc hm f hf hn p hp hpm k hk hkc hkn => ?_⟩
  obtain rfl := trackClass hc hm
  obtain ⟨k', hk', hkc', ht⟩ := typed_track hN f hf hn
  rw [head_unique hp (q := ("melodia.core.track", trackHeads)) (by simp [allHeads]) hpm hk hk' (hkc.trans hkc'.symm) (hkn.trans ht.1.1.symm)]
  exact ht

/-- An empty track at address 0 in a memory with a list of a note at address 2: `track.add([note], (1, 4))` fits the head and shares nothing,
`track.add(5, (1, 4))` does not fit. -/
example (W : World) : let h : Heap := { objs := [.inst "Track" (trackFields (Track.empty ⟨4, 4⟩) 1), .list [], .list [noteV ⟨⟨60⟩, ⟨1, 4⟩, 3 / 4⟩]], draws := 0 }
    FitsAt W h trackHeads[3] [.ref 0, .ref 2, .tuple [.int 1, .int 4]] ∧ Separate h [.ref 0, .ref 2, .tuple [.int 1, .int 4]] ∧
      ¬ FitsAt W h trackHeads[3] [.ref 0, .int 5, .tuple [.int 1, .int 4]] := by
  intro h
  have h44 : Signature.Valid ⟨4, 4⟩ := ⟨by decide, 2, rfl⟩
  have ht : TrackAt h 0 1 (Track.empty ⟨4, 4⟩) := ⟨rfl, rfl⟩
  have hw : HasTypeAt W h whereTy (.tuple [.int 1, .int 4]) := by
    rw [whereTy, atUnion]
    exact .inr (.inl (atInts.mpr ⟨1, 4, rfl⟩))
  refine ⟨⟨⟨_, rfl, atTrack.mpr ⟨0, 1, _, rfl, ht, Track.Reachable.empty h44⟩⟩, [whatTy, whereTy], rfl, ?_⟩, ?_, fun hf => ?_⟩
  · simp only [HasTypesAt]
    refine ⟨_, _, rfl, ?_, _, _, rfl, hw, rfl⟩
    rw [whatTy, atUnion]
    refine .inr (.inl (atIterable.mpr ⟨[noteV ⟨⟨60⟩, ⟨1, 4⟩, 3 / 4⟩], .inr ⟨2, rfl, .inl rfl⟩, fun y hy => ?_⟩))
    rw [List.mem_singleton.mp hy]
    exact atNote.mpr ⟨_, ⟨⟨by decide, 2, rfl⟩, by norm_num, by norm_num⟩, rfl⟩
  · rintro a l t ⟨⟩ hl v hv
    have : l = 1 := by
      have := hl.obj.symm.trans ht.obj
      simp only [Option.some.injEq, Obj.inst.injEq, trackFields, List.cons.injEq, Prod.mk.injEq, Val.ref.injEq, true_and] at this
      exact this.2.2.1
    subst this
    simp only [List.tail_cons, List.mem_cons, List.not_mem_nil, or_false] at hv
    rcases hv with rfl | rfl
    · refine ⟨by simp, by simp, ?_⟩
      rintro _ m u ⟨⟩ hu
      have := hu.obj
      simp [h] at this
    · refine ⟨by simp, by simp, ?_⟩
      rintro _ m u ⟨⟩
  · obtain ⟨a, l, t, vs, h1, -, -, hv⟩ := fitsAt_more (ts := [whatTy, whereTy]) rfl hf
    cases h1
    simp only [HasTypesAt] at hv
    obtain ⟨v, _, h1, hv, -⟩ := hv
    cases h1
    rw [whatTy, atUnion] at hv
    simp only [HasSomeAt, atNote, atIterable, or_false] at hv
    rcases hv with ⟨n, -, hn⟩ | ⟨vs, hv | ⟨b, -, hb | hb⟩, -⟩
    · simp [noteV] at hn
    · cases hv
    · cases hb
    · cases hb

/-- C115 (constructor): `Track`, applied to arguments of the annotated types (the content a tuple or a list), gives a track or an exception. -/
theorem C115_new (W : World) : ∃ H, headsOf sourceFiles = some H ∧ ∀ c ∈ program.classes, c.mod = "melodia.core.track" →
    ∀ p ∈ H, p.1 = c.mod → ∀ k ∈ p.2, k.cls = some c.name → k.name = "__init__" → ∀ (h : Heap) (args : List Val), FitsNewAt W h k args →
      (∀ v ∈ args, ∀ b, v ≠ .iter b) → ∃ h', (∃ v, construct program W c.name args [] h = some (.ok v h') ∧ HasTypeAt W h' (.name c.name) v) ∨
        ∃ e, construct program W c.name args [] h = some (.err e h') := by
  refine ⟨_, heads_eq, fun c hc hm p hp hpm k hk hkc hkn => ?_⟩
  obtain rfl := trackClass hc hm
  rw [head_unique hp (q := ("melodia.core.track", trackHeads)) (k := trackHeads[0]) (by simp [allHeads]) hpm hk (List.getElem_mem _) hkc hkn]
  rintro h args ⟨ts, h1, h2⟩ hi
  obtain rfl : ts = [durationTy, contentTy] := fits_types h1
  simp only [HasTypesAt] at h2
  obtain ⟨v, _, rfl, hv, c, _, rfl, hc, rfl⟩ := h2
  obtain ⟨s, hs, hsv⟩ := signature_arg hv
  obtain ⟨content, hct, hcv⟩ := content_arg hc (hi c (by simp))
  have hb : bindParams program W Source.Track.dunder_init.params (.ref h.objs.length :: [v, c]) [] { mod := Source.Track.dunder_init.mod, vars := [] } =
      pure [("self", .ref h.objs.length), ("signature", v), ("content", c)] := by simp [py, Track.dunder_init]
  obtain ⟨g1, g2⟩ := track_new_run W hs hsv hcv hct hb
  cases hx : Track.new s content with
  | error e =>
    obtain ⟨h', g2, -⟩ := g2 e hx
    exact ⟨h', .inr ⟨e, g2⟩⟩
  | ok t =>
    obtain ⟨h', l, g1, -, g3, -, -⟩ := g1 t hx
    exact ⟨h', .inl ⟨_, g1, atTrack.mpr ⟨_, l, t, rfl, g3, new_reachable hsv hcv hx⟩⟩⟩

/-- C115 (processing): `randomize_velocities`, applied to a track and floats, ends with a track or an exception, and the given track is a track
afterwards. -/
theorem C115_processing (W : World) (hN : W.sort.Natural) : ∃ H, headsOf sourceFiles = some H ∧ ∀ f ∈ program.functions, f.mod = "melodia.processing.track" →
    ∀ p ∈ H, p.1 = f.mod → ∀ k ∈ p.2, k.cls = none → k.name = f.name → TypedAt W True f k := by
  refine ⟨_, heads_eq, fun f hf hm p hp hpm k hk hkc hkn => ?_⟩
  obtain rfl := processingFunction hf hm
  rw [head_unique hp (q := ("melodia.processing.track", processingHeads)) (k := processingHeads[0]) (by simp [allHeads]) hpm hk
    (List.getElem_mem _) hkc hkn]
  refine ⟨⟨rfl, rfl⟩, .name "Track", rfl, fun h args hfit _ => ?_⟩
  obtain ⟨ts, h1, h2⟩ := hfit
  obtain rfl : ts = [.name "Track", .name "float", .name "float", .name "float", .name "float"] := fits_types h1
  simp only [HasTypesAt, atFloat, atTrack] at h2
  obtain ⟨_, _, rfl, ⟨a, l, t, rfl, ht, hr⟩, _, _, rfl, ⟨lo, rfl⟩, _, _, rfl, ⟨hi, rfl⟩, _, _, rfl, ⟨mean, rfl⟩, _, _, rfl, ⟨var, rfl⟩, rfl⟩ := h2
  have hb : bindParams program W processing.randomize_velocities.params [.ref a, .float lo, .float hi, .float mean, .float var] []
      { mod := processing.randomize_velocities.mod, vars := [] } = pure (randomEnv a lo hi mean var).vars := by
    simp [py, processing.randomize_velocities, randomEnv]
  have := random_run W hN ht hr.wf lo hi mean var hb
  cases hx : (@randomizeVelocities W.digits W.sort t lo hi mean var (fun i => W.gauss (h.draws + i) mean (W.sqrt var))).2 with
  | error x =>
    rw [hx] at this
    refine ⟨h, .inr ⟨trivial, x, this⟩, ?_⟩
    rintro _ ⟨⟩
    exact ⟨a, l, t, rfl, ht, hr⟩
  | ok u =>
    rw [hx] at this
    obtain ⟨h', b, lb, g1, g2, -, -, -, -, g5⟩ := this
    let _ := W.digits
    refine ⟨h', .inl ⟨_, g1, atTrack.mpr ⟨b, lb, u, rfl, g2, randomizeVelocities_reachable hr hx⟩⟩, ?_⟩
    rintro _ ⟨⟩
    exact ⟨a, l, _, rfl, g5.track, iter_reachable hr⟩

/-- C115 (defaults): the parameters of the constructor and the methods of `Track` and of `randomize_velocities` that can be left out have values
of the annotated types. -/
theorem C115_defaults (W : World) : ∃ H, headsOf sourceFiles = some H ∧
    (∀ c ∈ program.classes, c.mod = "melodia.core.track" → ∀ f ∈ c.methods, ∀ p ∈ H, p.1 = c.mod → ∀ k ∈ p.2, k.cls = some c.name →
      k.name = f.name → TypedDefaults W f k) ∧
    ∀ f ∈ program.functions, f.mod = "melodia.processing.track" → ∀ p ∈ H, p.1 = f.mod → ∀ k ∈ p.2, k.cls = none → k.name = f.name →
      TypedDefaults W f k := by
  refine ⟨_, heads_eq, fun c hc hm f hf p hp hpm k hk hkc hkn => ?_, fun f hf hm p hp hpm k hk hkc hkn => ?_⟩
  · obtain rfl := trackClass hc hm
    have key {k' : Head} (hk' : k' ∈ trackHeads) (hkc' : k'.cls = some "Track") (hkn' : k'.name = f.name) : k = k' :=
      head_unique hp (q := ("melodia.core.track", trackHeads)) (by simp [allHeads]) hpm hk hk' (hkc.trans hkc'.symm) (hkn.trans hkn'.symm)
    by_cases h1 : (f.params.all fun q => q.2.isNone) = true
    · intro i x e he
      have := List.all_eq_true.mp h1 (x, some e) (List.mem_of_getElem? he)
      cases this
    have : f ∈ Track.classDef.methods.filter fun f => !f.params.all fun q => q.2.isNone := List.mem_filter.mpr ⟨hf, by simpa using h1⟩
    rw [show (Track.classDef.methods.filter fun f => !f.params.all fun q => q.2.isNone) = [Source.Track.dunder_init, Source.Track.add] by
      kernel_rfl] at this
    simp only [List.mem_cons, List.not_mem_nil, or_false] at this
    rcases this with rfl | rfl
    · rw [key (k' := trackHeads[0]) (List.getElem_mem _) rfl rfl]
      intro i x e he
      rcases i with _ | _ | _ | i
      · cases he
      · cases he
        have h : Signature.new 4 4 = .ok ⟨4, 4⟩ := by decide
        exact ⟨durationTy, sigV ⟨4, 4⟩, rfl, by simp [py, Source.Track.dunder_init, h, Except.map], hasDuration.mpr (.inl ⟨_, new_valid h, rfl⟩)⟩
      · cases he
        exact ⟨contentTy, .none, rfl, by simp [py], by rw [contentTy, HasType, if_neg (by decide), if_pos rfl]; exact .inl rfl⟩
      · cases he
    · rw [key (k' := trackHeads[3]) (List.getElem_mem _) rfl rfl]
      intro i x e he
      rcases i with _ | _ | _ | i
      · cases he
      · cases he
      · cases he
        exact ⟨whereTy, .none, rfl, by simp [py], by rw [whereTy, HasType, if_pos rfl]; simp [HasSome, HasType]⟩
      · cases he
  · obtain rfl := processingFunction hf hm
    rw [head_unique hp (q := ("melodia.processing.track", processingHeads)) (k := processingHeads[0]) (by simp [allHeads]) hpm hk
      (List.getElem_mem _) hkc hkn]
    intro i x e he
    rcases i with _ | _ | _ | _ | _ | i
    · cases he
    · cases he; exact ⟨_, _, rfl, by simp only [py]; rfl, hasFloat.mpr ⟨_, rfl⟩⟩
    · cases he; exact ⟨_, _, rfl, by simp only [py]; rfl, hasFloat.mpr ⟨_, rfl⟩⟩
    · cases he; exact ⟨_, _, rfl, by simp only [py]; rfl, hasFloat.mpr ⟨_, rfl⟩⟩
    · cases he; exact ⟨_, _, rfl, by simp only [py]; rfl, hasFloat.mpr ⟨_, rfl⟩⟩
    · cases he

end Melodia
