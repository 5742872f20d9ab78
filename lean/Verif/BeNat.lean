import Verif.BerSpec

/-! # Facts about big-endian values -/

set_option autoImplicit false

namespace Verif.BerSpec
open Verif

theorem beNat_snoc' (bs : List Byte) (b : Byte) : beNat (bs ++ [b]) = beNat bs * 256 + b.toNat := by
  simp [beNat, List.foldl_append]

theorem beNat_lt (bs : List Byte) : beNat bs < 256 ^ bs.length := by
  rcases List.eq_nil_or_concat bs with rfl | ⟨init, b, rfl⟩
  · simp [beNat]
  · rw [List.concat_eq_append, beNat_snoc']
    have := beNat_lt init
    have hb := b.toNat_lt
    simp only [List.length_append, List.length_cons, List.length_nil, Nat.zero_add, Nat.pow_succ]
    omega
termination_by bs.length
decreasing_by subst_vars; simp

theorem beNat_inj : ∀ (a b : List Byte), a.length = b.length → beNat a = beNat b → a = b := by
  intro a
  generalize hn : a.length = n
  induction n generalizing a with
  | zero =>
    intro b h _
    rw [List.length_eq_zero_iff.mp hn, List.length_eq_zero_iff.mp h.symm]
  | succ n ih =>
    intro b hb he
    rcases List.eq_nil_or_concat a with rfl | ⟨a', x, rfl⟩
    · simp at hn
    rcases List.eq_nil_or_concat b with rfl | ⟨b', y, rfl⟩
    · simp at hb
    simp only [List.concat_eq_append, beNat_snoc', List.length_append, List.length_cons,
      List.length_nil, Nat.zero_add] at *
    have hx := x.toNat_lt
    have hy := y.toNat_lt
    have e1 : x.toNat = y.toNat := by omega
    have e2 : beNat a' = beNat b' := by omega
    rw [ih a' (by omega) b' (by omega) e2, UInt8.toNat_inj.mp e1]

end Verif.BerSpec
