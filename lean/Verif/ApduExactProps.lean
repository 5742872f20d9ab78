import Verif.ApduProps

/-! # What becomes of extended commands with data (C22) -/

set_option autoImplicit false

namespace Verif.Apdu
open Verif

/-- **C22, partial** (extended commands with data).  The number the code compares the length of
the command with is made of the *low* byte of the extended Lc and the first byte of the command
data.  An extended command is classified by that number only: as 3E if it is 7 less than the
length, as 4E if it is 9 less, and otherwise not at all.  So whether a well-formed command is
recognised depends on its first data byte. -/
theorem C22_ext_exact_partial (h : List Byte) (hh : h.length = 4) (hi lo d : Byte)
    (data : List Byte) :
    apduCase (h ++ [0, hi, lo, d] ++ data) = .ok (
      if lo.toNat * 256 + d.toNat = 0 then .error (-2)
      else if lo.toNat * 256 + d.toNat = data.length + 1 then .ok .c3E
      else if lo.toNat * 256 + d.toNat + 1 = data.length then .ok .c4E
      else .error (-2)) := by
  obtain ⟨a, b, c, e, rfl⟩ : ∃ a b c e, h = [a, b, c, e] := by
    match h, hh with
    | [a, b, c, e], _ => exact ⟨a, b, c, e, rfl⟩
  unfold apduCase
  simp only [List.cons_append, List.nil_append, List.length_cons]
  rw [if_neg (by omega), if_neg (by omega), if_neg (by omega)]
  simp only [rd_cons_succ, rd_cons_zero, bind_ok]
  rw [if_neg (by simp), if_neg (by omega), if_pos (by omega)]
  by_cases h0 : lo.toNat * 256 + d.toNat = 0
  · rw [if_pos h0, if_neg (by simpa using h0)]
  · rw [if_neg h0, if_pos h0]
    by_cases h3 : lo.toNat * 256 + d.toNat = data.length + 1
    · rw [if_pos h3, if_pos (by omega)]
    · rw [if_neg h3, if_neg (by omega)]
      by_cases h4 : lo.toNat * 256 + d.toNat + 1 = data.length
      · rw [if_pos h4, if_pos (by omega)]
      · rw [if_neg h4, if_neg (by omega)]

/-- A command of case 3E with 0x0101 data bytes is recognised if the first of them is 1, and taken
for nothing otherwise. -/
example (data : List Byte) (hl : data.length = 0x100) (d : Byte) :
    (Body.extData 1 1 (d :: data)).WF ∧
    apduCase ([0, 0xD6, 0, 0] ++ (Body.extData 1 1 (d :: data)).enc) =
      .ok (if d.toNat = 1 then .ok .c3E else .error (-2)) := by
  refine ⟨⟨by simp [hl], by simp⟩, ?_⟩
  have := C22_ext_exact_partial [0, 0xD6, 0, 0] rfl 1 1 d data
  refine Eq.trans ?_ (this.trans ?_)
  · rfl
  · have := d.toNat_lt
    simp only [hl]
    rw [if_neg (by simp)]
    by_cases hd : d.toNat = 1
    · rw [if_pos hd, if_pos (by rw [hd]; rfl)]
    · rw [if_neg hd, if_neg (by simp; omega), if_neg (by simp; omega)]

end Verif.Apdu
