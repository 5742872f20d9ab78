import Verif.Aid

/-! # Properties of AID classification: C20 -/

set_option autoImplicit false

namespace Verif.Aid
open Verif

/-! ## Specification: the register of application providers and products -/

/-- One line of the register: AID prefix, scheme, product. -/
structure Reg where
  pre : List Byte
  scheme : Scheme
  product : Product

/-- RIDs and product prefixes, as published by the schemes. -/
def register : List Reg :=
  [⟨[0xA0, 0x00, 0x00, 0x00, 0x25], .amex, .amexCreditDebit⟩,
   ⟨[0xA0, 0x00, 0x00, 0x07, 0x90], .amex, .amexChinaCreditDebit⟩,
   ⟨[0xA0, 0x00, 0x00, 0x00, 0x42], .cb, .unknown⟩,
   ⟨[0xA0, 0x00, 0x00, 0x00, 0x42, 0x10, 0x10], .cb, .cbCreditDebit⟩,
   ⟨[0xA0, 0x00, 0x00, 0x00, 0x42, 0x20, 0x10], .cb, .cbDebit⟩,
   ⟨[0xA0, 0x00, 0x00, 0x01, 0x21], .dankort, .unknown⟩,
   ⟨[0xA0, 0x00, 0x00, 0x01, 0x21, 0x47, 0x11], .dankort, .dankortVisadankort⟩,
   ⟨[0xA0, 0x00, 0x00, 0x01, 0x21, 0x47, 0x12], .dankort, .dankortJspeedy⟩,
   ⟨[0xA0, 0x00, 0x00, 0x01, 0x52], .discover, .unknown⟩,
   ⟨[0xA0, 0x00, 0x00, 0x01, 0x52, 0x30, 0x10], .discover, .discoverCard⟩,
   ⟨[0xA0, 0x00, 0x00, 0x01, 0x52, 0x40, 0x10], .discover, .discoverUsaDebit⟩,
   ⟨[0xA0, 0x00, 0x00, 0x03, 0x24], .discover, .discoverZip⟩,
   ⟨[0xA0, 0x00, 0x00, 0x03, 0x59, 0x10, 0x10, 0x02, 0x80, 0x01], .dk, .dkGirocard⟩,
   ⟨[0xA0, 0x00, 0x00, 0x03, 0x84], .eftpos, .unknown⟩,
   ⟨[0xA0, 0x00, 0x00, 0x03, 0x84, 0x10], .eftpos, .eftposSavings⟩,
   ⟨[0xA0, 0x00, 0x00, 0x03, 0x84, 0x20], .eftpos, .eftposCheque⟩,
   ⟨[0xA0, 0x00, 0x00, 0x03, 0x37], .gimuemoa, .unknown⟩,
   ⟨[0xA0, 0x00, 0x00, 0x03, 0x37, 0x10, 0x10, 0x00], .gimuemoa, .gimuemoaStandard⟩,
   ⟨[0xA0, 0x00, 0x00, 0x03, 0x37, 0x10, 0x10, 0x01], .gimuemoa, .gimuemoaPrepaidOnline⟩,
   ⟨[0xA0, 0x00, 0x00, 0x03, 0x37, 0x10, 0x20, 0x00], .gimuemoa, .gimuemoaClassic⟩,
   ⟨[0xA0, 0x00, 0x00, 0x03, 0x37, 0x10, 0x20, 0x01], .gimuemoa, .gimuemoaPrepaidOffline⟩,
   ⟨[0xA0, 0x00, 0x00, 0x03, 0x37, 0x30, 0x10, 0x00], .gimuemoa, .gimuemoaRetrait⟩,
   ⟨[0xA0, 0x00, 0x00, 0x03, 0x37, 0x60, 0x10, 0x01], .gimuemoa, .gimuemoaElectronicWallet⟩,
   ⟨[0xA0, 0x00, 0x00, 0x00, 0x65], .jcb, .unknown⟩,
   ⟨[0xA0, 0x00, 0x00, 0x00, 0x04], .mastercard, .unknown⟩,
   ⟨[0xA0, 0x00, 0x00, 0x00, 0x04, 0x10, 0x10], .mastercard, .mastercardCreditDebit⟩,
   ⟨[0xA0, 0x00, 0x00, 0x00, 0x04, 0x22, 0x03], .mastercard, .mastercardUsaDebit⟩,
   ⟨[0xA0, 0x00, 0x00, 0x00, 0x04, 0x30, 0x60], .mastercard, .mastercardMaestro⟩,
   ⟨[0xA0, 0x00, 0x00, 0x00, 0x04, 0x60, 0x00], .mastercard, .mastercardCirrus⟩,
   ⟨[0xA0, 0x00, 0x00, 0x00, 0x05], .mastercard, .mastercardMaestroUk⟩,
   ⟨[0xB0, 0x12, 0x34, 0x56, 0x78], .mastercard, .mastercardTest⟩,
   ⟨[0xA0, 0x00, 0x00, 0x07, 0x32], .meeza, .unknown⟩,
   ⟨[0xA0, 0x00, 0x00, 0x06, 0x58], .mir, .unknown⟩,
   ⟨[0xA0, 0x00, 0x00, 0x06, 0x58, 0x10, 0x10], .mir, .mirCredit⟩,
   ⟨[0xA0, 0x00, 0x00, 0x06, 0x58, 0x20, 0x10], .mir, .mirDebit⟩,
   ⟨[0xA0, 0x00, 0x00, 0x05, 0x24], .rupay, .unknown⟩,
   ⟨[0xA0, 0x00, 0x00, 0x03, 0x33], .unionpay, .unknown⟩,
   ⟨[0xA0, 0x00, 0x00, 0x03, 0x33, 0x01, 0x01, 0x01], .unionpay, .unionpayDebit⟩,
   ⟨[0xA0, 0x00, 0x00, 0x03, 0x33, 0x01, 0x01, 0x02], .unionpay, .unionpayCredit⟩,
   ⟨[0xA0, 0x00, 0x00, 0x03, 0x33, 0x01, 0x01, 0x03], .unionpay, .unionpayQuasiCredit⟩,
   ⟨[0xA0, 0x00, 0x00, 0x03, 0x33, 0x01, 0x01, 0x06], .unionpay, .unionpayElectronicCash⟩,
   ⟨[0xA0, 0x00, 0x00, 0x03, 0x33, 0x01, 0x01, 0x08], .unionpay, .unionpayUsaDebit⟩,
   ⟨[0xA0, 0x00, 0x00, 0x03, 0x71], .verve, .unknown⟩,
   ⟨[0xA0, 0x00, 0x00, 0x00, 0x03], .visa, .unknown⟩,
   ⟨[0xA0, 0x00, 0x00, 0x00, 0x03, 0x10, 0x10], .visa, .visaCreditDebit⟩,
   ⟨[0xA0, 0x00, 0x00, 0x00, 0x03, 0x20, 0x10], .visa, .visaElectron⟩,
   ⟨[0xA0, 0x00, 0x00, 0x00, 0x03, 0x20, 0x20], .visa, .visaVpay⟩,
   ⟨[0xA0, 0x00, 0x00, 0x00, 0x03, 0x80, 0x10], .visa, .visaPlus⟩,
   ⟨[0xA0, 0x00, 0x00, 0x00, 0x98], .visa, .visaUsaDebit⟩]

/-- `r` is the longest line of the register that `aid` starts with. -/
def Longest (aid : List Byte) (r : Reg) : Prop :=
  r ∈ register ∧ r.pre <+: aid ∧ ∀ r' ∈ register, r'.pre <+: aid → r'.pre.length ≤ r.pre.length

/-! ## C20 -/

theorem memEq_take (aid ref : List Byte) (k : Nat) (h : k + ref.length ≤ aid.length) :
    memEq aid k ref = .ok (ref.isPrefixOf (aid.drop k)) := by
  unfold memEq
  rw [slice_eq h]
  simp only [bind_ok]
  congr 1
  rw [Bool.eq_iff_iff, beq_iff_eq, List.isPrefixOf_iff_prefix]
  rw [List.prefix_iff_eq_take, eq_comm]

theorem aidMatch_eq (aid ref : List Byte) : aidMatch aid ref = .ok (ref.isPrefixOf aid) := by
  unfold aidMatch
  split
  · rename_i h
    rw [memEq_take aid ref 0 (by omega)]; rfl
  · rename_i h
    congr 1
    rw [eq_comm, Bool.eq_false_iff]
    intro h'
    exact h (List.isPrefixOf_iff_prefix.mp h').length_le

theorem pixMatch_eq (aid pix : List Byte) (hl : 5 ≤ aid.length) :
    pixMatch aid pix = .ok (pix.isPrefixOf (aid.drop 5)) := by
  unfold pixMatch
  split
  · rename_i h
    exact memEq_take aid pix 5 h
  · rename_i h
    congr 1
    rw [eq_comm, Bool.eq_false_iff]
    intro h'
    have := (List.isPrefixOf_iff_prefix.mp h').length_le
    simp at this
    omega

theorem pixChain_cons (aid : List Byte) (hl : 5 ≤ aid.length) (pix : List Byte) (p : Product)
    (rest : List (List Byte × Product)) :
    pixChain aid ((pix, p) :: rest) =
      if pix.isPrefixOf (aid.drop 5) then .ok p else pixChain aid rest := by
  rw [pixChain, pixMatch_eq aid pix hl]; rfl

theorem pixChain_nil (aid : List Byte) : pixChain aid [] = .ok .unknown := rfl

set_option maxHeartbeats 4000000 in
theorem longest_ok (aid : List Byte) (r : Reg) (h1 : 5 ≤ aid.length) (h2 : aid.length ≤ 16)
    (hr : Longest aid r) (hj : r.scheme ≠ .jcb) :
    aidInfo aid = .ok (0, r.scheme, r.product) := by
  obtain ⟨hm, hp, h3⟩ := hr
  obtain ⟨rest, rfl⟩ := hp
  simp only [register, List.mem_cons, List.not_mem_nil, or_false] at hm
  unfold aidInfo
  rw [if_neg (by omega), if_neg (by omega)]
  simp only [aidMatch_eq, bind_ok]
  rcases hm with rfl | rfl | rfl | rfl | rfl | rfl | rfl | rfl | rfl | rfl | rfl | rfl | rfl | rfl | rfl | rfl | rfl | rfl | rfl | rfl | rfl | rfl | rfl | rfl | rfl | rfl | rfl | rfl | rfl | rfl | rfl | rfl | rfl | rfl | rfl | rfl | rfl | rfl | rfl | rfl | rfl | rfl | rfl | rfl | rfl | rfl | rfl | rfl | rfl <;>
  first
  | exact absurd rfl hj
  | (simp [register] at h3
     simp [pixChain_cons, pixChain_nil, List.isPrefixOf_iff_prefix, h3])

theorem isPrefixOf_false {p l : List Byte} (h : ¬ p <+: l) : p.isPrefixOf l = false := by
  rw [Bool.eq_false_iff]; intro h'; exact h (List.isPrefixOf_iff_prefix.mp h')

/-- **C20, partial**.  For every AID of 5 to 16 bytes: if it starts with a registered prefix of
a scheme other than JCB, it is recognised, with the scheme and product of the longest
registered prefix; if it starts with no registered prefix it is reported as unknown.
Missing: JCB, see `C20_jcb_not_recognised`. -/
theorem C20_classify_partial (aid : List Byte) (h1 : 5 ≤ aid.length) (h2 : aid.length ≤ 16) :
    (∀ r, Longest aid r → r.scheme ≠ .jcb → aidInfo aid = .ok (0, r.scheme, r.product)) ∧
    ((∀ r ∈ register, ¬ r.pre <+: aid) → aidInfo aid = .ok (-1, .unknown, .unknown)) := by
  refine ⟨fun r hr hj => longest_ok aid r h1 h2 hr hj, ?_⟩
  intro hn
  simp only [register, List.mem_cons, List.not_mem_nil, or_false, forall_eq_or_imp,
    forall_eq] at hn
  unfold aidInfo
  rw [if_neg (by omega), if_neg (by omega)]
  simp only [aidMatch_eq, bind_ok, isPrefixOf_false, hn, not_false_eq_true, Bool.false_eq_true,
    if_false, pure_eq_ok]

/-- **C20 is false for JCB**: every AID with the registered JCB RID is reported as an error,
although the scheme field is filled in. -/
theorem C20_jcb_not_recognised (pix : List Byte) (h : pix.length ≤ 11) :
    aidInfo ([0xA0, 0x00, 0x00, 0x00, 0x65] ++ pix) = .ok (-1, .jcb, .unknown) := by
  unfold aidInfo
  rw [if_neg (by simp), if_neg (by simp; omega)]
  simp [aidMatch_eq]

/-- **C20** (length).  Anything else than 5 to 16 bytes is refused. -/
theorem C20_length (aid : List Byte) (h : ¬ (5 ≤ aid.length ∧ aid.length ≤ 16)) :
    ∃ c, c ≠ 0 ∧ aidInfo aid = .ok (c, .unknown, .unknown) := by
  unfold aidInfo
  by_cases h0 : aid.length = 0
  · exact ⟨-1, by decide, by rw [if_pos h0]⟩
  · exact ⟨1, by decide, by rw [if_neg h0, if_pos (by omega)]⟩

example : aidInfo [0xA0, 0, 0, 0, 3, 0x10, 0x10] = .ok (0, .visa, .visaCreditDebit) := by decide
example : aidInfo [0xA0, 0, 0, 0, 3, 0x10] = .ok (0, .visa, .unknown) := by decide
example : Longest [0xA0, 0, 0, 3, 0x33, 1, 1, 2, 7]
    ⟨[0xA0, 0, 0, 3, 0x33, 1, 1, 2], .unionpay, .unionpayCredit⟩ := by
  refine ⟨by simp [register], ⟨[7], rfl⟩, ?_⟩
  simp [register]

end Verif.Aid
