/-
A file of the grammar in Spec/Midi.lean determines its division and its messages with their delta times.
-/
import Verif.Lemmas.LenientUnique
import Verif.Lemmas.RoundTrip

set_option autoImplicit false

namespace Melodia

theorem ofNat_inj_of_lt {a b : Nat} (ha : a < 256) (hb : b < 256) (h : UInt8.ofNat a = UInt8.ofNat b) : a = b := by
  have := congrArg UInt8.toNat h
  simp only [UInt8.toNat_ofNat'] at this
  omega

theorem Msg.bytes_inj {m m' : Msg} (hm : m.InRange) (hm' : m'.InRange) {x x' : Bytes}
    (h : m.bytes ++ x = m'.bytes ++ x') : m = m' ∧ x = x' := by
  have key : ∀ {a b : Nat}, a < 256 → b < 256 → UInt8.ofNat a = UInt8.ofNat b → a = b := ofNat_inj_of_lt
  have kff : ∀ {a : Nat}, a < 255 → UInt8.ofNat a = 255 → False := by
    intro a ha h
    have := key (a := a) (b := 255) (by omega) (by omega) h
    omega
  cases m <;> cases m' <;>
    simp only [Msg.bytes, Msg.InRange, List.cons_append, List.nil_append, List.cons.injEq, true_and] at h hm hm' <;>
    try (first
      | (exfalso; exact kff (by omega) h.1)
      | (exfalso; exact kff (by omega) h.1.symm)
      | (exfalso; revert h; intro h; exact absurd h.1 (by decide)))
  · obtain ⟨h1, h2, h3, h4, h5⟩ := h
    refine ⟨?_, h5⟩
    rw [key hm.1 hm'.1 h1, key hm.2.1 hm'.2.1 h2, key hm.2.2.1 hm'.2.2.1 h3, key hm.2.2.2 hm'.2.2.2 h4]
  · rename_i t t'
    obtain ⟨h1, h2, h3, h4⟩ := h
    refine ⟨?_, h4⟩
    have a1 := congrArg UInt8.toNat h1
    have a2 := congrArg UInt8.toNat h2
    have a3 := congrArg UInt8.toNat h3
    simp only [UInt8.toNat_ofNat'] at a1 a2 a3
    congr 1
    omega
  · obtain ⟨h1, h2, h3, h4⟩ := h
    refine ⟨?_, h4⟩
    have := key (by omega) (by omega) h1
    rw [show _ = _ from Nat.add_left_cancel this, key (by omega) (by omega) h2, key (by omega) (by omega) h3]
  · have := key (by omega) (by omega) h.1
    omega
  · have := key (by omega) (by omega) h.1
    omega
  · obtain ⟨h1, h2, h3, h4⟩ := h
    refine ⟨?_, h4⟩
    have := key (by omega) (by omega) h1
    rw [show _ = _ from Nat.add_left_cancel this, key (by omega) (by omega) h2, key (by omega) (by omega) h3]
  · exact ⟨rfl, h⟩

theorem TrackBody.unique {es : List (Nat × Msg)} {bs : Bytes} (h : TrackBody es bs) :
    ∀ {es' : List (Nat × Msg)}, TrackBody es' bs → es = es' := by
  induction h with
  | nil =>
    intro es' h'
    generalize hb : ([] : Bytes) = bs at h'
    cases h' with
    | nil => rfl
    | @cons d m es v bs hv hr h =>
      cases m <;> simp [Msg.bytes] at hb
  | @cons d m es v bs hv hr h ih =>
    intro es' h'
    generalize hb : v ++ m.bytes ++ bs = all at h'
    cases h' with
    | nil => cases m <;> simp [Msg.bytes] at hb
    | @cons d' m' es' v' bs' hv' hr' h' =>
      rw [List.append_assoc, List.append_assoc] at hb
      obtain ⟨h1, h3⟩ := hv.reads.unique hv'.reads hb
      obtain ⟨h4, h5⟩ := Msg.bytes_inj hr hr' h3
      subst h1 h4 h5
      rw [ih h']

theorem IsSmf.unique {d d' : Nat} {es es' : List (Nat × Msg)} {file : Bytes} (h : IsSmf d es file)
    (h' : IsSmf d' es' file) : d = d' ∧ es = es' := by
  obtain ⟨div, len, body, ⟨a1, a2⟩, ⟨b1, b2⟩, c, e⟩ := h
  obtain ⟨div', len', body', ⟨a1', a2'⟩, ⟨b1', b2'⟩, c', e'⟩ := h'
  rw [e] at e'
  simp only [List.append_assoc, List.append_cancel_left_eq] at e'
  obtain ⟨h1, h2⟩ := List.append_inj e' (by omega)
  rw [List.append_cancel_left_eq] at h2
  obtain ⟨h3, h4⟩ := List.append_inj h2 (by omega)
  subst h1 h4
  exact ⟨a2.symm.trans a2', c.unique c'⟩

end Melodia
