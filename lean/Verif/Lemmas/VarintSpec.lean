import Verif.Lemmas.Varint
import Verif.Spec.Varint
import Mathlib.Algebra.Order.Monoid.Defs
/-!
# `varint` meets the specification `Spec.IsVarint`, and only it does
-/

namespace Verif
open Spec

theorem varint_ne_nil (n : Nat) : varint n ≠ [] := by
  rw [varint]; split <;> simp

theorem varint_length_pos (n : Nat) : 1 ≤ (varint n).length :=
  List.length_pos_iff.2 (varint_ne_nil n)

theorem varint_length_le (k : Nat) : ∀ n, (varint n).length ≤ k + 1 ↔ n < 128 ^ (k + 1) := by
  induction k with
  | zero =>
    intro n
    by_cases h : n < 128
    · rw [varint_lt h]; simpa using h
    · rw [varint_ge (by omega)]
      have := varint_length_pos (n / 128)
      simp only [List.length_cons]; constructor <;> intro <;> omega
  | succ k ih =>
    intro n
    by_cases h : n < 128
    · rw [varint_lt h]
      have : 128 ^ 1 ≤ 128 ^ (k + 1 + 1) := Nat.pow_le_pow_right (by omega) (by omega)
      simp only [List.length_singleton]; constructor <;> intro <;> omega
    · rw [varint_ge (by omega), List.length_cons, Nat.add_le_add_iff_right, ih, pow_succ 128 (k + 1)]
      exact Nat.div_lt_iff_lt_mul (by omega)

theorem varint_length_mono {m n : Nat} (h : m ≤ n) : (varint m).length ≤ (varint n).length := by
  have hp := varint_length_pos n
  obtain ⟨k, hk⟩ : ∃ k, (varint n).length = k + 1 := ⟨_, (Nat.sub_add_cancel hp).symm⟩
  rw [hk, varint_length_le]
  have := (varint_length_le k n).1 (by omega)
  omega

theorem isVarint_varint (n : Nat) : IsVarint (varint n) n := by
  induction n using Nat.strong_induction_on with
  | _ n ih =>
    by_cases h : n < 128
    · rw [varint_lt h]
      refine ⟨by simp, ?_, ?_, ?_⟩
      · simp [varintValue]; omega
      · intro k hk
        simp only [List.length_singleton] at hk
        have : k = 0 := by omega
        subst this
        simp only [List.getElem_cons_zero, List.length_singleton]
        rw [toNat_low h]; omega
      · intro _; left; rfl
    · have ih := ih (n / 128) (by omega)
      rw [varint_ge (by omega)]
      refine ⟨by simp, ?_, ?_, ?_⟩
      · rw [varintValue, ih.value, toNat_cont]; omega
      · intro k hk
        cases k with
        | zero =>
          simp only [List.getElem_cons_zero, List.length_cons]
          rw [toNat_cont]
          have := varint_length_pos (n / 128)
          constructor <;> intro <;> omega
        | succ k =>
          simp only [List.length_cons] at hk ⊢
          simp only [List.getElem_cons_succ]
          rw [ih.continuation k (by omega)]; omega
      · intro _
        right
        rw [List.getLast_cons (varint_ne_nil _)]
        by_cases h2 : n / 128 < 128
        · have : ∀ hne, (varint (n / 128)).getLast hne = UInt8.ofNat (n / 128) := by
            rw [varint_lt h2]; simp
          rw [this]
          intro h0
          have := congrArg UInt8.toNat h0
          rw [toNat_low h2] at this
          simp at this; omega
        · rcases ih.minimal (varint_ne_nil _) with h1 | h1
          · exfalso
            have := (varint_length_le 0 (n / 128)).1 (by omega)
            omega
          · exact h1

theorem isVarint_unique {bs : Bytes} {n : Nat} (h : IsVarint bs n) : bs = varint n := by
  induction bs generalizing n with
  | nil => exact absurd rfl h.nonempty
  | cons b bs ih =>
    have hv := h.value
    rw [varintValue] at hv
    have hc0 := h.continuation 0 (by simp)
    simp only [List.getElem_cons_zero, List.length_cons] at hc0
    have hb : b.toNat < 256 := b.toNat_lt
    by_cases hbs : bs = []
    · subst hbs
      simp only [varintValue, List.length_nil] at hv hc0
      have : n < 128 := by omega
      rw [varint_lt this]
      congr 1
      apply UInt8.toNat_inj.1; rw [toNat_low this]; omega
    · have hlen : 1 ≤ bs.length := List.length_pos_iff.2 hbs
      have hsub : IsVarint bs (varintValue bs) := by
        refine ⟨hbs, rfl, ?_, ?_⟩
        · intro k hk
          have := h.continuation (k + 1) (by simp; omega)
          simp only [List.getElem_cons_succ, List.length_cons] at this
          rw [this]; omega
        · intro h1
          rcases h.minimal (by simp) with h2 | h2
          · simp only [List.length_cons] at h2; omega
          · rw [List.getLast_cons h1] at h2; exact Or.inr h2
      have hne : varintValue bs ≠ 0 := by
        intro h0
        rw [h0] at hsub
        have e := ih hsub
        rcases h.minimal (by simp) with h2 | h2
        · simp only [List.length_cons] at h2; omega
        · rw [List.getLast_cons hbs] at h2
          apply h2
          have : ∀ hne, bs.getLast hne = (0 : UInt8) := by
            rw [e, varint_lt (by omega)]; intro; rfl
          exact this hbs
      have e := ih hsub
      have hge : 128 ≤ n := by omega
      rw [varint_ge hge]
      have h1 : n / 128 = varintValue bs := by omega
      rw [h1, ← e]
      congr 1
      apply UInt8.toNat_inj.1; rw [toNat_cont]; omega

end Verif
