/-
The methods of `Signature`, `Tone` and `Note` and their heads.
-/
import Verif.Lemmas.Types
import Verif.Lemmas.Annotations

set_option autoImplicit false

namespace Melodia.Source

open Melodia.Python Melodia

/-- The heads of a class are determined by their names. -/
theorem head_unique {p q : String × List Head} (hp : p ∈ allHeads) (hq : q ∈ allHeads) (hpq : p.1 = q.1) {h k : Head} (hh : h ∈ p.2)
    (hk : k ∈ q.2) (hc : h.cls = k.cls) (hn : h.name = k.name) : h = k := by
  have h1 : decide (allHeads.map Prod.fst).Nodup = true := by kernel_rfl
  have h2 : (allHeads.all fun p => decide (p.2.map fun h => (h.cls, h.name)).Nodup) = true := by kernel_rfl
  obtain rfl : p = q := List.inj_on_of_nodup_map (of_decide_eq_true h1) hp hq hpq
  exact List.inj_on_of_nodup_map (of_decide_eq_true (List.all_eq_true.mp h2 p hp)) hh hk (by rw [hc, hn])

/-- Types given by annotations. -/
theorem fits_types {ts l : List Ty} (h : l.map some = ts.map some) : ts = l := (List.map_injective_iff.mpr (Option.some_injective _) h).symm

theorem fits_self {c n : String} {r : Option Ty} {args : List Val} (h : Fits ⟨some c, n, [("self", none)], r⟩ args) :
    ∃ v, args = [v] ∧ IsInstance c v := by
  cases args with
  | nil => obtain ⟨ts, h1, -⟩ := h; cases ts <;> simp at h1
  | cons v vs =>
    obtain ⟨h1, ts, h2, h3⟩ := h
    rw [if_neg (by simp)] at h1
    obtain ⟨_, ⟨⟩, h1⟩ := h1
    cases ts with
    | cons _ _ => simp at h2
    | nil => rw [HasTypes] at h3; exact ⟨v, by rw [h3], h1⟩

theorem fits_one {c n x : String} {t : Ty} {r : Option Ty} {args : List Val}
    (h : Fits ⟨some c, n, [("self", none), (x, some t)], r⟩ args) : ∃ v w, args = [v, w] ∧ IsInstance c v ∧ HasType t w := by
  cases args with
  | nil => obtain ⟨ts, h1, -⟩ := h; cases ts <;> simp at h1
  | cons v vs =>
    obtain ⟨h1, ts, h2, h3⟩ := h
    rw [if_neg (by simp)] at h1
    obtain ⟨_, ⟨⟩, h1⟩ := h1
    obtain rfl : ts = [t] := by
      rcases ts with _ | ⟨a, _ | ⟨b, l⟩⟩ <;> simp at h2
      rw [h2]
    simp only [HasTypes] at h3
    obtain ⟨w, _, rfl, h3, rfl⟩ := h3
    exact ⟨v, w, rfl, h1, h3⟩

theorem fits_cls {c n x : String} {t : Ty} {r : Option Ty} {args : List Val}
    (h : Fits ⟨some c, n, [("cls", none), (x, some t)], r⟩ args) : ∃ w, args = [.cls c, w] ∧ HasType t w := by
  cases args with
  | nil => obtain ⟨ts, h1, -⟩ := h; cases ts <;> simp at h1
  | cons v vs =>
    obtain ⟨h1, ts, h2, h3⟩ := h
    rw [if_pos rfl] at h1
    obtain ⟨_, ⟨⟩, rfl⟩ := h1
    obtain rfl : ts = [t] := by
      rcases ts with _ | ⟨a, _ | ⟨b, l⟩⟩ <;> simp at h2
      rw [h2]
    simp only [HasTypes] at h3
    obtain ⟨w, _, rfl, h3, rfl⟩ := h3
    exact ⟨w, rfl, h3⟩

theorem typed_signature (W : World) : ∀ f ∈ Signature.classDef.methods, f.name ≠ "__init__" →
    ∃ h ∈ signatureHeads, h.cls = some "Signature" ∧ Typed W f h := by
  intro f hf hn
  have one {t : Ty} {n : String} {r : Option Ty} {g : FunDef} (hg : ∀ s : Melodia.Signature, s.Valid → GivesTy t (callFun program W g [sigV s] [])) :
      ∀ args, Fits ⟨some "Signature", n, [("self", none)], r⟩ args → GivesTy t (callFun program W g args []) := fun args ha => by
    obtain ⟨v, rfl, hv⟩ := fits_self ha
    obtain ⟨s, hs, rfl⟩ := isSignature.mp hv
    exact hg s hs
  have two {t : Ty} {n x : String} {r : Option Ty} {g : FunDef}
      (hg : ∀ s u : Melodia.Signature, s.Valid → u.Valid → GivesTy t (callFun program W g [sigV s, sigV u] [])) :
      ∀ args, Fits ⟨some "Signature", n, [("self", none), (x, some (.name "Signature"))], r⟩ args →
        GivesTy t (callFun program W g args []) := fun args ha => by
    obtain ⟨v, w, rfl, hv, hw⟩ := fits_one ha
    obtain ⟨s, hs, rfl⟩ := isSignature.mp hv
    obtain ⟨u, hu, rfl⟩ := hasSignature.mp hw
    exact hg s u hs hu
  simp only [Signature.classDef, List.mem_cons, List.not_mem_nil, or_false] at hf
  rcases hf with rfl | rfl | rfl | rfl | rfl | rfl | rfl | rfl | rfl | rfl | rfl | rfl | rfl | rfl | rfl | rfl
  · exact absurd rfl hn
  · exact ⟨signatureHeads[1], List.getElem_mem _, rfl, ⟨rfl, rfl⟩, _, rfl, one fun _ _ => sig_nominator_gives⟩
  · exact ⟨signatureHeads[2], List.getElem_mem _, rfl, ⟨rfl, rfl⟩, _, rfl, one fun _ _ => sig_denominator_gives⟩
  · refine ⟨signatureHeads[3], List.getElem_mem _, rfl, ⟨rfl, rfl⟩, _, rfl, fun args ha => ?_⟩
    obtain ⟨v, w, rfl, hv, hw⟩ := fits_one ha
    obtain ⟨s, hs, rfl⟩ := isSignature.mp hv
    obtain ⟨i, rfl⟩ := hasInt.mp hw
    exact sig_to_gives hs i
  · exact ⟨signatureHeads[4], List.getElem_mem _, rfl, ⟨rfl, rfl⟩, _, rfl, one fun _ => sig_normalized_gives⟩
  · exact ⟨signatureHeads[5], List.getElem_mem _, rfl, ⟨rfl, rfl⟩, _, rfl, two fun _ _ => sig_common_gives⟩
  · exact ⟨signatureHeads[6], List.getElem_mem _, rfl, ⟨rfl, rfl⟩, _, rfl, one fun _ _ => sig_str_gives⟩
  · exact ⟨signatureHeads[7], List.getElem_mem _, rfl, ⟨rfl, rfl⟩, _, rfl, one fun _ _ => sig_repr_gives⟩
  · exact ⟨signatureHeads[8], List.getElem_mem _, rfl, ⟨rfl, rfl⟩, _, rfl, two fun _ _ => sig_eq_gives⟩
  · exact ⟨signatureHeads[9], List.getElem_mem _, rfl, ⟨rfl, rfl⟩, _, rfl, two fun _ _ => sig_le_gives⟩
  · exact ⟨signatureHeads[10], List.getElem_mem _, rfl, ⟨rfl, rfl⟩, _, rfl, two fun _ _ => sig_lt_gives⟩
  · exact ⟨signatureHeads[11], List.getElem_mem _, rfl, ⟨rfl, rfl⟩, _, rfl, two fun _ _ => sig_ge_gives⟩
  · exact ⟨signatureHeads[12], List.getElem_mem _, rfl, ⟨rfl, rfl⟩, _, rfl, two fun _ _ => sig_gt_gives⟩
  · exact ⟨signatureHeads[13], List.getElem_mem _, rfl, ⟨rfl, rfl⟩, _, rfl, two fun _ _ => sig_add_gives⟩
  · exact ⟨signatureHeads[14], List.getElem_mem _, rfl, ⟨rfl, rfl⟩, _, rfl, two fun _ _ _ _ => sig_mul_gives⟩
  · exact ⟨signatureHeads[15], List.getElem_mem _, rfl, ⟨rfl, rfl⟩, _, rfl, one fun _ _ => sig_abs_gives⟩

theorem typed_tone (W : World) : ∀ f ∈ Tone.classDef.methods, f.name ≠ "__init__" →
    ∃ h ∈ toneHeads, h.cls = some "Tone" ∧ Typed W f h := by
  intro f hf hn
  have one {t : Ty} {n : String} {r : Option Ty} {g : FunDef} (hg : ∀ s : Melodia.Tone, GivesTy t (callFun program W g [toneV s] [])) :
      ∀ args, Fits ⟨some "Tone", n, [("self", none)], r⟩ args → GivesTy t (callFun program W g args []) := fun args ha => by
    obtain ⟨v, rfl, hv⟩ := fits_self ha
    obtain ⟨s, rfl⟩ := isTone.mp hv
    exact hg s
  have two {t : Ty} {n x : String} {r : Option Ty} {g : FunDef}
      (hg : ∀ s u : Melodia.Tone, GivesTy t (callFun program W g [toneV s, toneV u] [])) :
      ∀ args, Fits ⟨some "Tone", n, [("self", none), (x, some (.name "Tone"))], r⟩ args →
        GivesTy t (callFun program W g args []) := fun args ha => by
    obtain ⟨v, w, rfl, hv, hw⟩ := fits_one ha
    obtain ⟨s, rfl⟩ := isTone.mp hv
    obtain ⟨u, rfl⟩ := hasTone.mp hw
    exact hg s u
  simp only [Tone.classDef, List.mem_cons, List.not_mem_nil, or_false] at hf
  rcases hf with rfl | rfl | rfl | rfl | rfl | rfl | rfl | rfl | rfl | rfl | rfl | rfl | rfl | rfl
  · exact absurd rfl hn
  · exact ⟨toneHeads[1], List.getElem_mem _, rfl, ⟨rfl, rfl⟩, _, rfl, one fun _ => tone_pitch_gives⟩
  · exact ⟨toneHeads[2], List.getElem_mem _, rfl, ⟨rfl, rfl⟩, _, rfl, one fun _ => tone_octave_gives⟩
  · refine ⟨toneHeads[3], List.getElem_mem _, rfl, ⟨rfl, rfl⟩, _, rfl, fun args ha => ?_⟩
    obtain ⟨w, rfl, hw⟩ := fits_cls ha
    obtain ⟨l, rfl⟩ := hasStr.mp hw
    exact tone_from_gives l
  · refine ⟨toneHeads[4], List.getElem_mem _, rfl, ⟨rfl, rfl⟩, _, rfl, fun args ha => ?_⟩
    obtain ⟨v, w, rfl, hv, hw⟩ := fits_one ha
    obtain ⟨s, rfl⟩ := isTone.mp hv
    obtain ⟨d, rfl⟩ := hasBool.mp hw
    exact tone_to_gives d
  · refine ⟨toneHeads[5], List.getElem_mem _, rfl, ⟨rfl, rfl⟩, _, rfl, fun args ha => ?_⟩
    obtain ⟨v, w, rfl, hv, hw⟩ := fits_one ha
    obtain ⟨s, rfl⟩ := isTone.mp hv
    obtain ⟨x, rfl⟩ := hasFloat.mp hw
    exact tone_frequency_gives x
  · refine ⟨toneHeads[6], List.getElem_mem _, rfl, ⟨rfl, rfl⟩, _, rfl, fun args ha => ?_⟩
    obtain ⟨v, w, rfl, hv, hw⟩ := fits_one ha
    obtain ⟨s, rfl⟩ := isTone.mp hv
    obtain ⟨k, rfl⟩ := hasInt.mp hw
    exact tone_transposed_gives k
  · exact ⟨toneHeads[7], List.getElem_mem _, rfl, ⟨rfl, rfl⟩, _, rfl, one fun _ => tone_str_gives⟩
  · exact ⟨toneHeads[8], List.getElem_mem _, rfl, ⟨rfl, rfl⟩, _, rfl, one fun _ => tone_repr_gives⟩
  · exact ⟨toneHeads[9], List.getElem_mem _, rfl, ⟨rfl, rfl⟩, _, rfl, two fun _ _ => tone_eq_gives⟩
  · exact ⟨toneHeads[10], List.getElem_mem _, rfl, ⟨rfl, rfl⟩, _, rfl, two fun _ _ => tone_le_gives⟩
  · exact ⟨toneHeads[11], List.getElem_mem _, rfl, ⟨rfl, rfl⟩, _, rfl, two fun _ _ => tone_lt_gives⟩
  · exact ⟨toneHeads[12], List.getElem_mem _, rfl, ⟨rfl, rfl⟩, _, rfl, two fun _ _ => tone_ge_gives⟩
  · exact ⟨toneHeads[13], List.getElem_mem _, rfl, ⟨rfl, rfl⟩, _, rfl, two fun _ _ => tone_gt_gives⟩

theorem typed_note (W : World) : ∀ f ∈ Note.classDef.methods, f.name ≠ "__init__" →
    ∃ h ∈ noteHeads, h.cls = some "Note" ∧ Typed W f h := by
  intro f hf hn
  have one {t : Ty} {n : String} {r : Option Ty} {g : FunDef} (hg : ∀ s : Melodia.Note, s.Valid → GivesTy t (callFun program W g [noteV s] [])) :
      ∀ args, Fits ⟨some "Note", n, [("self", none)], r⟩ args → GivesTy t (callFun program W g args []) := fun args ha => by
    obtain ⟨v, rfl, hv⟩ := fits_self ha
    obtain ⟨s, hs, rfl⟩ := isNote.mp hv
    exact hg s hs
  have two {t : Ty} {n x : String} {r : Option Ty} {g : FunDef}
      (hg : ∀ s u : Melodia.Note, s.Valid → u.Valid → GivesTy t (callFun program W g [noteV s, noteV u] [])) :
      ∀ args, Fits ⟨some "Note", n, [("self", none), (x, some (.name "Note"))], r⟩ args →
        GivesTy t (callFun program W g args []) := fun args ha => by
    obtain ⟨v, w, rfl, hv, hw⟩ := fits_one ha
    obtain ⟨s, hs, rfl⟩ := isNote.mp hv
    obtain ⟨u, hu, rfl⟩ := hasNote.mp hw
    exact hg s u hs hu
  simp only [Note.classDef, List.mem_cons, List.not_mem_nil, or_false] at hf
  rcases hf with rfl | rfl | rfl | rfl | rfl | rfl | rfl | rfl | rfl | rfl | rfl | rfl | rfl | rfl | rfl
  · exact absurd rfl hn
  · exact ⟨noteHeads[1], List.getElem_mem _, rfl, ⟨rfl, rfl⟩, _, rfl, one fun _ _ => note_tone_gives⟩
  · exact ⟨noteHeads[2], List.getElem_mem _, rfl, ⟨rfl, rfl⟩, _, rfl, one fun _ _ => note_velocity_gives⟩
  · exact ⟨noteHeads[3], List.getElem_mem _, rfl, ⟨rfl, rfl⟩, _, rfl, one fun _ => note_duration_gives⟩
  · refine ⟨noteHeads[4], List.getElem_mem _, rfl, ⟨rfl, rfl⟩, _, rfl, fun args ha => ?_⟩
    obtain ⟨v, w, rfl, hv, hw⟩ := fits_one ha
    obtain ⟨s, hs, rfl⟩ := isNote.mp hv
    obtain ⟨k, rfl⟩ := hasInt.mp hw
    exact note_transposed_gives hs k
  · refine ⟨noteHeads[5], List.getElem_mem _, rfl, ⟨rfl, rfl⟩, _, rfl, fun args ha => ?_⟩
    obtain ⟨v, w, rfl, hv, hw⟩ := fits_one ha
    obtain ⟨s, hs, rfl⟩ := isNote.mp hv
    exact note_with_duration_gives hw
  · refine ⟨noteHeads[6], List.getElem_mem _, rfl, ⟨rfl, rfl⟩, _, rfl, fun args ha => ?_⟩
    obtain ⟨v, w, rfl, hv, hw⟩ := fits_one ha
    obtain ⟨s, hs, rfl⟩ := isNote.mp hv
    obtain ⟨x, rfl⟩ := hasFloat.mp hw
    exact note_with_velocity_gives hs x
  · exact ⟨noteHeads[7], List.getElem_mem _, rfl, ⟨rfl, rfl⟩, _, rfl, one fun _ => note_triplet_gives⟩
  · exact ⟨noteHeads[8], List.getElem_mem _, rfl, ⟨rfl, rfl⟩, _, rfl, one fun _ => note_str_gives⟩
  · exact ⟨noteHeads[9], List.getElem_mem _, rfl, ⟨rfl, rfl⟩, _, rfl, one fun _ _ => note_repr_gives⟩
  · exact ⟨noteHeads[10], List.getElem_mem _, rfl, ⟨rfl, rfl⟩, _, rfl, two fun _ _ => note_eq_gives⟩
  · exact ⟨noteHeads[11], List.getElem_mem _, rfl, ⟨rfl, rfl⟩, _, rfl, two fun _ _ => note_le_gives⟩
  · exact ⟨noteHeads[12], List.getElem_mem _, rfl, ⟨rfl, rfl⟩, _, rfl, two fun _ _ => note_lt_gives⟩
  · exact ⟨noteHeads[13], List.getElem_mem _, rfl, ⟨rfl, rfl⟩, _, rfl, two fun _ _ => note_ge_gives⟩
  · exact ⟨noteHeads[14], List.getElem_mem _, rfl, ⟨rfl, rfl⟩, _, rfl, two fun _ _ => note_gt_gives⟩

end Melodia.Source
