import Verif.Apdu

/-! # Properties of APDU classification and status words: C22, C60 -/

set_option autoImplicit false

namespace Verif.Apdu
open Verif

/-! ## Specification (ISO 7816-3:2006, 12.1.3): the body following the 4-byte header -/

/-- The seven command bodies. -/
inductive Body where
  | none
  | shortLe (le : Byte)
  | extLe (hi lo : Byte)
  | shortData (lc : Byte) (data : List Byte)
  | extData (hi lo : Byte) (data : List Byte)
  | shortDataLe (lc : Byte) (data : List Byte) (le : Byte)
  | extDataLe (hi lo : Byte) (data : List Byte) (leHi leLo : Byte)

/-- Lc states the (non-zero) number of data bytes. -/
def Body.WF : Body → Prop
  | .none | .shortLe _ | .extLe _ _ => True
  | .shortData lc data | .shortDataLe lc data _ => lc.toNat = data.length ∧ data ≠ []
  | .extData hi lo data | .extDataLe hi lo data _ _ =>
    hi.toNat * 256 + lo.toNat = data.length ∧ data ≠ []

/-- Body octets. -/
def Body.enc : Body → List Byte
  | .none => []
  | .shortLe le => [le]
  | .extLe hi lo => [0, hi, lo]
  | .shortData lc data => lc :: data
  | .extData hi lo data => 0 :: hi :: lo :: data
  | .shortDataLe lc data le => lc :: data ++ [le]
  | .extDataLe hi lo data a b => 0 :: hi :: lo :: data ++ [a, b]

/-- The case each body belongs to. -/
def Body.case : Body → Case
  | .none => .c1
  | .shortLe _ => .c2S
  | .extLe _ _ => .c2E
  | .shortData _ _ => .c3S
  | .extData _ _ _ => .c3E
  | .shortDataLe _ _ _ => .c4S
  | .extDataLe _ _ _ _ _ => .c4E

/-- Bodies other than extended length with data. -/
def Body.Supported : Body → Prop
  | .extData _ _ _ | .extDataLe _ _ _ _ _ => False
  | _ => True

/-! ## C22 -/

theorem rd4 (h : List Byte) (hh : h.length = 4) (x : Byte) (xs : List Byte) :
    rd (h ++ x :: xs) 4 = .ok x := by
  have := rd_append_right h (x :: xs) 0
  simpa [hh] using this

/-- **C22, partial** (recognition).  Every well-formed command of case 1, 2S, 3S, 4S or 2E is
recognised as that case.  Missing: cases 3E and 4E, see `C22_ext_unrecognised`. -/
theorem C22_recognise_partial (h : List Byte) (hh : h.length = 4) (b : Body) (hb : b.WF)
    (hs : b.Supported) : apduCase (h ++ b.enc) = .ok (.ok b.case) := by
  cases b with
  | none => simp [apduCase, Body.enc, hh, Body.case]
  | shortLe le => simp [apduCase, Body.enc, hh, Body.case]
  | extLe hi lo => simp [apduCase, Body.enc, hh, Body.case, rd4 h hh]
  | shortData lc data =>
    obtain ⟨h1, h2⟩ := hb
    have h3 : data.length ≠ 0 := by simpa using h2
    have hne : lc ≠ 0 := by intro e; subst e; simp at h1; omega
    show apduCase (h ++ lc :: data) = .ok (.ok .c3S)
    have hl : (h ++ lc :: data).length = 5 + data.length := by simp [hh]; omega
    unfold apduCase
    rw [if_neg (by omega), if_neg (by omega), if_neg (by omega), rd4 h hh]
    simp only [bind_ok]
    rw [if_pos hne, if_pos (by omega)]
  | shortDataLe lc data le =>
    obtain ⟨h1, h2⟩ := hb
    have h3 : data.length ≠ 0 := by simpa using h2
    have hne : lc ≠ 0 := by intro e; subst e; simp at h1; omega
    show apduCase (h ++ lc :: (data ++ [le])) = .ok (.ok .c4S)
    have hl : (h ++ lc :: (data ++ [le])).length = 6 + data.length := by simp [hh]; omega
    unfold apduCase
    rw [if_neg (by omega), if_neg (by omega), if_neg (by omega), rd4 h hh]
    simp only [bind_ok]
    rw [if_pos hne, if_neg (by omega), if_pos (by omega)]
  | extData => exact hs.elim
  | extDataLe => exact hs.elim

/-- **C22, partial** (soundness).  For any byte string classification completes in bounds; if
it reports case 1, 2S, 3S, 4S or 2E then the command has exactly that form.  Missing: 3E and
4E, see `C22_ext_misclassified`. -/
theorem C22_sound_partial (a : List Byte) :
    ∃ r, apduCase a = .ok r ∧ ∀ k, r = .ok k → k ≠ .c3E → k ≠ .c4E →
      ∃ (h : List Byte) (b : Body), h.length = 4 ∧ b.WF ∧ b.Supported ∧ a = h ++ b.enc ∧ b.case = k := by
  by_cases h4 : a.length < 4
  · exact ⟨_, by rw [apduCase, if_pos h4], by intro k h; cases h⟩
  have ha : a = a.take 4 ++ a.drop 4 := by simp
  have hh : (a.take 4).length = 4 := by simp; omega
  generalize hH : a.take 4 = h at ha hh
  generalize a.drop 4 = body at ha
  clear hH
  subst ha
  unfold apduCase
  rw [if_neg h4]
  match body with
  | [] =>
    rw [if_pos (by simp [hh])]
    exact ⟨_, rfl, by intro k hk _ _; cases hk; exact ⟨h, .none, hh, trivial, trivial, rfl, rfl⟩⟩
  | [x] =>
    rw [if_neg (by simp [hh]), if_pos (by simp [hh])]
    exact ⟨_, rfl, by intro k hk _ _; cases hk; exact ⟨h, .shortLe x, hh, trivial, trivial, rfl, rfl⟩⟩
  | x :: y :: rest =>
    have hl : (h ++ x :: y :: rest).length = 6 + rest.length := by simp [hh]; omega
    rw [if_neg (by omega), if_neg (by omega), rd4 h hh]
    simp only [bind_ok, hl]
    by_cases hx : x = 0
    · subst hx
      simp only [ne_eq, not_true_eq_false, if_false]
      match rest with
      | [] => exact ⟨_, rfl, by intro k hk; cases hk⟩
      | [z] =>
        exact ⟨_, rfl, by
          intro k hk _ _; cases hk; exact ⟨h, .extLe y z, hh, trivial, trivial, rfl, rfl⟩⟩
      | z :: w :: rest =>
        simp only [List.length_cons] at *
        rw [if_neg (by omega), if_pos (by omega)]
        have e6 : rd (h ++ 0 :: y :: z :: w :: rest) 6 = .ok z := by
          have := rd_append_right h (0 :: y :: z :: w :: rest) 2
          simpa [hh] using this
        have e7 : rd (h ++ 0 :: y :: z :: w :: rest) 7 = .ok w := by
          have := rd_append_right h (0 :: y :: z :: w :: rest) 3
          simpa [hh] using this
        rw [e6, e7]
        simp only [bind_ok]
        split
        · split
          · exact ⟨_, rfl, by intro k hk h1 _; cases hk; exact absurd rfl h1⟩
          · split
            · exact ⟨_, rfl, by intro k hk _ h1; cases hk; exact absurd rfl h1⟩
            · exact ⟨_, rfl, by intro k hk; cases hk⟩
        · exact ⟨_, rfl, by intro k hk; cases hk⟩
    · rw [if_pos hx]
      split
      · rename_i he
        refine ⟨_, rfl, ?_⟩
        intro k hk _ _; cases hk
        exact ⟨h, .shortData x (y :: rest), hh, ⟨by simp; omega, by simp⟩, trivial, rfl, rfl⟩
      · split
        · rename_i _ he
          refine ⟨_, rfl, ?_⟩
          intro k hk _ _; cases hk
          have hx0 : x.toNat ≠ 0 := by
            intro e; exact hx (UInt8.toNat_inj.mp e)
          have hne : (y :: rest) ≠ [] := by simp
          refine ⟨h, .shortDataLe x (y :: rest).dropLast ((y :: rest).getLast hne), hh,
            ⟨by simp; omega, ?_⟩, trivial, ?_, rfl⟩
          · intro e
            have := congrArg List.length e
            simp at this
            subst this
            simp at he
            omega
          · have := List.dropLast_concat_getLast hne
            simp only [Body.enc, List.cons_append, this]
        · exact ⟨_, rfl, by intro k hk; cases hk⟩

/-- **C22 is false** of the code for extended Lc: for every header and data byte, the shortest
extended case 3 command is not recognised (bytes C7 and C8 are read instead of C6 and C7). -/
theorem C22_ext_unrecognised (cla ins p1 p2 d : Byte) :
    (Body.extData 0 1 [d]).WF ∧
    apduCase ([cla, ins, p1, p2] ++ (Body.extData 0 1 [d]).enc) = .ok (.error (-2)) := by
  refine ⟨⟨rfl, by simp⟩, ?_⟩
  show apduCase [cla, ins, p1, p2, 0, 0, 1, d] = _
  have h0 : ∀ k x : Nat, ¬ (k + 7 + (256 + x) = 8) := by intro k x h; omega
  have h1 : ¬ (7 + ((1 : Byte).toNat * 256 + d.toNat) = 8) := h0 0 d.toNat
  have h2 : ¬ (9 + ((1 : Byte).toNat * 256 + d.toNat) = 8) := h0 2 d.toNat
  unfold apduCase
  simp only [List.length_cons, List.length_nil, Nat.zero_add, Nat.reduceAdd, Nat.reduceLT,
    Nat.reduceEqDiff, if_false, rd_cons_succ, rd_cons_zero, bind_ok, ne_eq, not_true_eq_false,
    gt_iff_lt, if_neg h1, if_neg h2, ite_self]

theorem ext4_as_3 (tail : List Byte) (h : tail.length = 256) :
    apduCase ([0, 0xA4, 4, 0] ++ (Body.extDataLe 1 1 (3 :: tail) 0 0).enc) = .ok (.ok .c3E) := by
  have e : [0, 0xA4, 4, 0] ++ (Body.extDataLe 1 1 (3 :: tail) 0 0).enc =
      0 :: 0xA4 :: 4 :: 0 :: 0 :: 1 :: 1 :: 3 :: (tail ++ [0, 0]) := by simp [Body.enc]
  rw [e]
  have hl : (0 :: 0xA4 :: 4 :: 0 :: 0 :: 1 :: 1 :: (3 : Byte) :: (tail ++ [0, 0])).length = 266 := by
    simp [h]
  unfold apduCase
  rw [hl]
  have e1 : 7 + ((1 : Byte).toNat * 256 + (3 : Byte).toNat) = 266 := by decide
  have e2 : (1 : Byte).toNat * 256 + (3 : Byte).toNat ≠ 0 := by decide
  simp only [Nat.reduceLT, Nat.reduceEqDiff, if_false, rd_cons_succ, rd_cons_zero, bind_ok, ne_eq,
    not_true_eq_false, gt_iff_lt, if_true, if_pos e1, if_pos e2]

/-- **C22 is false**: a well-formed case 4E command is even reported as case 3E. -/
theorem C22_ext_misclassified :
    ∃ b : Body, b.WF ∧ b.case = .c4E ∧ apduCase ([0, 0xA4, 4, 0] ++ b.enc) = .ok (.ok .c3E) := by
  have hlen : (List.replicate 256 (0xAA : Byte)).length = 256 := List.length_replicate
  generalize List.replicate 256 (0xAA : Byte) = tail at hlen
  refine ⟨.extDataLe 1 1 (3 :: tail) 0 0, ⟨?_, by simp⟩, rfl, ext4_as_3 tail hlen⟩
  rw [List.length_cons, hlen]; rfl

example : (Body.shortDataLe 2 [0x3F, 0x00] 0).WF ∧ (Body.shortDataLe 2 [0x3F, 0x00] 0).Supported ∧
    apduCase [0x00, 0xA4, 0x00, 0x00, 0x02, 0x3F, 0x00, 0x00] = .ok (.ok .c4S) :=
  ⟨⟨rfl, by simp⟩, trivial, by decide⟩

/-! ## C60 -/

/-- **C60** (partition).  Every status word is exactly one of normal, warning, error; success
implies normal. -/
theorem C60_partition (sw1 sw2 : Byte) :
    (swIsNormal sw1 sw2 = true ∧ swIsWarning sw1 sw2 = false ∧ swIsError sw1 sw2 = false ∨
     swIsNormal sw1 sw2 = false ∧ swIsWarning sw1 sw2 = true ∧ swIsError sw1 sw2 = false ∨
     swIsNormal sw1 sw2 = false ∧ swIsWarning sw1 sw2 = false ∧ swIsError sw1 sw2 = true) ∧
    (swIsSuccess sw1 sw2 = true → swIsNormal sw1 sw2 = true) := by
  have hd : swIsNormal sw1 sw2 = true → swIsWarning sw1 sw2 = false := by
    simp only [swIsNormal, swIsSuccess, swIsWarning, Bool.or_eq_true, Bool.and_eq_true,
      beq_iff_eq, Bool.or_eq_false_iff]
    rintro (⟨rfl, -⟩ | rfl) <;> decide
  have hs : swIsSuccess sw1 sw2 = true → swIsNormal sw1 sw2 = true := by
    intro h; simp [swIsNormal, h]
  refine ⟨?_, hs⟩
  unfold swIsError
  revert hd
  cases swIsNormal sw1 sw2 <;> cases swIsWarning sw1 sw2 <;> simp

/-- **C60** (documented values).  Success is exactly 9000, normal exactly 9000 and 61XX,
warning exactly 62XX and 63XX. -/
theorem C60_values (sw1 sw2 : Byte) :
    (swIsSuccess sw1 sw2 = true ↔ sw1.toNat * 256 + sw2.toNat = 0x9000) ∧
    (swIsNormal sw1 sw2 = true ↔
      sw1.toNat * 256 + sw2.toNat = 0x9000 ∨ sw1.toNat * 256 + sw2.toNat - sw2.toNat = 0x6100) ∧
    (swIsWarning sw1 sw2 = true ↔ sw1.toNat = 0x62 ∨ sw1.toNat = 0x63) := by
  have h1 := sw1.toNat_lt
  have h2 := sw2.toNat_lt
  have e (a b : Byte) : a = b ↔ a.toNat = b.toNat := UInt8.toNat_inj.symm
  simp only [swIsSuccess, swIsNormal, swIsWarning, Bool.or_eq_true, Bool.and_eq_true,
    beq_iff_eq, e]
  simp only [show (0x90 : Byte).toNat = 0x90 from rfl, show (0x00 : Byte).toNat = 0 from rfl,
    show (0x61 : Byte).toNat = 0x61 from rfl, show (0x62 : Byte).toNat = 0x62 from rfl,
    show (0x63 : Byte).toNat = 0x63 from rfl]
  refine ⟨?_, ?_, trivial⟩ <;> constructor <;> intro h <;> omega

example : swIsWarning 0x62 0x83 = true ∧ swIsError 0x6A 0x83 = true ∧ swIsNormal 0x61 0x10 = true := by
  decide

end Verif.Apdu
