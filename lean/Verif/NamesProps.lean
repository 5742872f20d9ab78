import Verif.Names
import Verif.AidProps
import Verif.FormatsProps
import Verif.CapduProps
import Verif.BitsLemmas

/-! # C80 and C81: names of codes -/

set_option autoImplicit false

namespace Verif.Names
open Verif Lists Formats

/-! ## Specification -/

/-- What an output of `n` bytes holds after a text was copied to it: as much of the text as leaves
room for a terminator, then NUL up to the end. -/
def held (n : Nat) (t : List Byte) : List Byte :=
  t.take (n - 1) ++ List.replicate (n - min (n - 1) t.length) 0

/-- A table of codes and their names. -/
abbrev Table := List (Nat × List Byte)

/-- The name of a code. -/
def Table.name (t : Table) (code : Nat) : Option (List Byte) :=
  (t.find? (fun p => p.1 == code)).map (·.2)

/-- Transaction types, the first two digits of the ISO 8583 processing code. -/
def txnTypes : Table :=
  [(0x00, txt!"Goods and services"), (0x01, txt!"Cash"), (0x09, txt!"Cashback"),
   (0x20, txt!"Refund"), (0x30, txt!"Inquiry")]

/-- Account types (EMV Book 3, annex G). -/
def accountTypes : Table :=
  [(0x00, txt!"Default"), (0x10, txt!"Savings"), (0x20, txt!"Cheque/Debit"),
   (0x30, txt!"Credit")]

/-- POS entry modes (ISO 8583). -/
def posEntryModes : Table :=
  [(0x00, txt!"Unknown"), (0x01, txt!"Manual PAN entry"), (0x02, txt!"Magnetic stripe"),
   (0x03, txt!"Optical Code"), (0x04, txt!"OCR"),
   (0x05, txt!"Integrated circuit card (ICC). CVV can be checked."),
   (0x07, txt!"Auto entry via contactless EMV"),
   (0x10, txt!"Merchant has Cardholder Credentials on File"),
   (0x80, txt!"Fallback from integrated circuit card (ICC) to magnetic stripe"),
   (0x90, txt!"Magnetic stripe as read from track 2. CVV can be checked."),
   (0x91, txt!"Auto entry via contactless magnetic stripe"),
   (0x95, txt!"Integrated circuit card (ICC). CVV may not be checked."),
   (0x99, txt!"Same as original transaction")]

/-- Contactless Reader Capabilities by bits 8, 7 and 4 (EMV Contactless Book C-4, table 4-2). -/
def readerCapsName : Bool → Bool → Bool → List Byte
  | false, false, false => txt!"Deprecated"
  | false, true, false => txt!"Mag-stripe CVM Not Required"
  | false, true, true => txt!"Mag-stripe CVM Required"
  | true, false, false => txt!"Deprecated - EMV and Mag-stripe"
  | true, true, false => txt!"EMV and Mag-stripe CVM Not Required"
  | true, true, true => txt!"EMV and Mag-stripe CVM Required"
  | _, _, _ => txt!"Not Available for Use"

/-- What is asked of the function naming the codes of a table. -/
def NamesCodes (g : Byte → List Byte → C (Int × List Byte)) (t : Table) : Prop :=
  ∀ (b : Byte) (str : List Byte),
    (str = [] → g b str = .ok (0, str)) ∧
    (str ≠ [] → t.name b.toNat = none → g b str = .ok (1, str)) ∧
    (∀ s, str ≠ [] → t.name b.toNat = some s → g b str = .ok (0, held str.length s))

/-! ## Lemmas -/

theorem held_length (n : Nat) (t : List Byte) : (held n t).length = n := by
  simp [held]; omega

theorem held_fits (n : Nat) (t : List Byte) (h : t.length < n) :
    held n t = t ++ List.replicate (n - t.length) 0 := by
  rw [held, List.take_of_length_le (by omega), Nat.min_eq_right (by omega)]

theorem strncpyTerm_held (str s : List Byte) (h : str ≠ []) :
    Capdu.strncpyTerm str s = .ok (held str.length s) := by
  obtain ⟨out, e, hl, k, hk⟩ := Capdu.strncpyTerm_spec str s h
  have h1 : str.length ≠ 0 := by simpa using h
  rw [e, hk, held]
  congr 3
  rw [hk] at hl
  simp only [List.length_append, List.length_take, List.length_replicate] at hl
  omega

theorem strncpyTerm1_held (str s : List Byte) (h : str ≠ []) :
    strncpyTerm1 str s = .ok (held str.length s) := by
  have h1 : str.length ≠ 0 := by simpa using h
  have hl : (s.take (str.length - 1) ++
      List.replicate (str.length - 1 - s.length) (0 : Byte)).length = str.length - 1 := by
    simp; omega
  unfold strncpyTerm1
  simp only
  rw [wrs_eq (by omega)]
  simp only [List.take_zero, List.nil_append, Nat.zero_add, hl, bind_ok]
  obtain ⟨x, hx⟩ : ∃ x, str.drop (str.length - 1) = [x] := by
    have : (str.drop (str.length - 1)).length = 1 := by simp; omega
    match str.drop (str.length - 1), this with
    | [x], _ => exact ⟨x, rfl⟩
  rw [hx, wr_eq (by simp only [List.length_append, hl, List.length_singleton]; omega)]
  congr 1
  rw [List.length_append, hl, List.set_append_right _ _ (by simp only [hl, List.length_singleton]; omega)]
  simp only [hl, List.length_singleton, Nat.add_sub_cancel, Nat.sub_self, List.set_cons_zero]
  rw [held, List.append_assoc]
  congr 1
  show _ ++ List.replicate 1 0 = _
  rw [List.replicate_append_replicate]
  congr 1
  omega

theorem copyLookup_eq (o : Option (List Byte)) (str : List Byte) (h : str ≠ []) :
    copyLookup o str = .ok (0, match o with | none => str.set 0 0 | some s => held str.length s) := by
  have h1 : str.length ≠ 0 := by simpa using h
  cases o with
  | none => rw [copyLookup, wr_eq (by omega), bind_ok]
  | some s => rw [copyLookup, strncpyTerm1_held str s h, bind_ok]

theorem byCode_spec (text : Byte → Option (List Byte)) (t : Table)
    (h : ∀ b : Byte, text b = t.name b.toNat) : NamesCodes (byCode text) t := by
  intro b str
  refine ⟨fun h0 => ?_, fun hs hn => ?_, fun s hs hn => ?_⟩
  · rw [byCode, if_pos (by rw [h0]; rfl)]
  · rw [byCode, if_neg (by simpa using hs), h b, hn]
  · rw [byCode, if_neg (by simpa using hs), h b, hn]
    show (Capdu.strncpyTerm str s >>= fun str => Except.ok (0, str)) = _
    rw [strncpyTerm_held str s hs, bind_ok]

theorem txnType_eq : ∀ b : Byte, txnTypeText b = txnTypes.name b.toNat := by decide +kernel
theorem account_eq : ∀ b : Byte, accountText b = accountTypes.name b.toNat := by decide +kernel
theorem posEntry_eq : ∀ b : Byte, posEntryText b = posEntryModes.name b.toNat := by decide +kernel
theorem readerCaps_eq : ∀ b : Byte, readerCapsText b =
    readerCapsName (b.toNat / 128 % 2 == 1) (b.toNat / 64 % 2 == 1) (b.toNat / 8 % 2 == 1) := by
  decide +kernel

/-! ## C80 -/

/-- **C80** (transaction type, field 9C). -/
theorem C80_txn_type : NamesCodes txnType txnTypes := byCode_spec _ _ txnType_eq

/-- **C80** (account type, field 5F57). -/
theorem C80_account_type : NamesCodes account accountTypes := byCode_spec _ _ account_eq

/-- **C80** (POS entry mode, field 9F39). -/
theorem C80_pos_entry_mode : NamesCodes posEntry posEntryModes := byCode_spec _ _ posEntry_eq

/-- **C80** (Contactless Reader Capabilities, field 9F6D): every value is named, by its bits 8, 7
and 4 alone. -/
theorem C80_reader_caps (b : Byte) (str : List Byte) :
    (str = [] → readerCaps b str = .ok (0, str)) ∧
    (str ≠ [] → readerCaps b str = .ok (0, held str.length
      (readerCapsName (b.toNat / 128 % 2 == 1) (b.toNat / 64 % 2 == 1) (b.toNat / 8 % 2 == 1)))) := by
  refine ⟨fun h => by rw [readerCaps, if_pos (by rw [h]; rfl)], fun hs => ?_⟩
  rw [readerCaps, if_neg (by simpa using hs), strncpyTerm1_held _ _ hs, bind_ok, readerCaps_eq]

/-- **C80** (names are unambiguous): different codes of one table have different names. -/
theorem C80_distinct : ∀ t ∈ [txnTypes, accountTypes, posEntryModes],
    (t.map (·.1)).Nodup ∧ (t.map (·.2)).Nodup := by decide +kernel

example : txnType 0x09 (List.replicate 10 9) =
    .ok (0, [0x43, 0x61, 0x73, 0x68, 0x62, 0x61, 0x63, 0x6B, 0, 0]) := by decide +kernel
example : txnType 0x09 (List.replicate 5 9) = .ok (0, [0x43, 0x61, 0x73, 0x68, 0]) := by
  decide +kernel
example : txnType 0x40 [9, 9] = .ok (1, [9, 9]) := by decide +kernel
example : readerCaps 0x49 [9, 9, 9, 9] = .ok (0, [0x4D, 0x61, 0x67, 0]) := by decide +kernel

/-! ## C81 -/

/-- The displayed name of each registered AID prefix. -/
def aidNames : List (List Byte × List Byte) :=
  [([0xA0, 0x00, 0x00, 0x00, 0x25], txt!"American Express Credit/Debit"),
   ([0xA0, 0x00, 0x00, 0x07, 0x90], txt!"American Express (China Credit/Debit)"),
   ([0xA0, 0x00, 0x00, 0x00, 0x42], txt!"Cartes Bancaires (CB)"),
   ([0xA0, 0x00, 0x00, 0x00, 0x42, 0x10, 0x10], txt!"Cartes Bancaires (CB) Credit/Debit"),
   ([0xA0, 0x00, 0x00, 0x00, 0x42, 0x20, 0x10], txt!"Cartes Bancaires (CB) Debit"),
   ([0xA0, 0x00, 0x00, 0x01, 0x21], txt!"Dankort"),
   ([0xA0, 0x00, 0x00, 0x01, 0x21, 0x47, 0x11], txt!"Visa/Dankort"),
   ([0xA0, 0x00, 0x00, 0x01, 0x21, 0x47, 0x12], txt!"Dankort (J/Speedy)"),
   ([0xA0, 0x00, 0x00, 0x01, 0x52], txt!"Discover"),
   ([0xA0, 0x00, 0x00, 0x01, 0x52, 0x30, 0x10], txt!"Discover Card"),
   ([0xA0, 0x00, 0x00, 0x01, 0x52, 0x40, 0x10], txt!"Discover USA Debit"),
   ([0xA0, 0x00, 0x00, 0x03, 0x24], txt!"Discover ZIP"),
   ([0xA0, 0x00, 0x00, 0x03, 0x59, 0x10, 0x10, 0x02, 0x80, 0x01], txt!"Deutsche Kreditwirtschaft (DK) Girocard"),
   ([0xA0, 0x00, 0x00, 0x03, 0x84], txt!"eftpos (Australia)"),
   ([0xA0, 0x00, 0x00, 0x03, 0x84, 0x10], txt!"eftpos (Australia) savings"),
   ([0xA0, 0x00, 0x00, 0x03, 0x84, 0x20], txt!"eftpos (Australia) cheque"),
   ([0xA0, 0x00, 0x00, 0x03, 0x37], txt!"GIM-UEMOA"),
   ([0xA0, 0x00, 0x00, 0x03, 0x37, 0x10, 0x10, 0x00], txt!"GIM-UEMOA Standard"),
   ([0xA0, 0x00, 0x00, 0x03, 0x37, 0x10, 0x10, 0x01], txt!"GIM-UEMOA Prepaye Online"),
   ([0xA0, 0x00, 0x00, 0x03, 0x37, 0x10, 0x20, 0x00], txt!"GIM-UEMOA Classic"),
   ([0xA0, 0x00, 0x00, 0x03, 0x37, 0x10, 0x20, 0x01], txt!"GIM-UEMOA Prepaye Possibile Offline"),
   ([0xA0, 0x00, 0x00, 0x03, 0x37, 0x30, 0x10, 0x00], txt!"GIM-UEMOA Retrait"),
   ([0xA0, 0x00, 0x00, 0x03, 0x37, 0x60, 0x10, 0x01], txt!"GIM-UEMOA Porte Monnaie Electronique"),
   ([0xA0, 0x00, 0x00, 0x00, 0x65], txt!"JCB"),
   ([0xA0, 0x00, 0x00, 0x00, 0x04], txt!"Mastercard"),
   ([0xA0, 0x00, 0x00, 0x00, 0x04, 0x10, 0x10], txt!"Mastercard Credit/Debit"),
   ([0xA0, 0x00, 0x00, 0x00, 0x04, 0x22, 0x03], txt!"Mastercard USA Debit"),
   ([0xA0, 0x00, 0x00, 0x00, 0x04, 0x30, 0x60], txt!"Maestro"),
   ([0xA0, 0x00, 0x00, 0x00, 0x04, 0x60, 0x00], txt!"Mastercard Cirrus"),
   ([0xA0, 0x00, 0x00, 0x00, 0x05], txt!"Maestro UK"),
   ([0xB0, 0x12, 0x34, 0x56, 0x78], txt!"Mastercard Test Card"),
   ([0xA0, 0x00, 0x00, 0x07, 0x32], txt!"Meeza"),
   ([0xA0, 0x00, 0x00, 0x06, 0x58], txt!"Mir"),
   ([0xA0, 0x00, 0x00, 0x06, 0x58, 0x10, 0x10], txt!"Mir Credit"),
   ([0xA0, 0x00, 0x00, 0x06, 0x58, 0x20, 0x10], txt!"Mir Debit"),
   ([0xA0, 0x00, 0x00, 0x05, 0x24], txt!"RuPay"),
   ([0xA0, 0x00, 0x00, 0x03, 0x33], txt!"UnionPay"),
   ([0xA0, 0x00, 0x00, 0x03, 0x33, 0x01, 0x01, 0x01], txt!"UnionPay Debit"),
   ([0xA0, 0x00, 0x00, 0x03, 0x33, 0x01, 0x01, 0x02], txt!"UnionPay Credit"),
   ([0xA0, 0x00, 0x00, 0x03, 0x33, 0x01, 0x01, 0x03], txt!"UnionPay Quasi-credit"),
   ([0xA0, 0x00, 0x00, 0x03, 0x33, 0x01, 0x01, 0x06], txt!"UnionPay Electronic Cash"),
   ([0xA0, 0x00, 0x00, 0x03, 0x33, 0x01, 0x01, 0x08], txt!"UnionPay USA Debit"),
   ([0xA0, 0x00, 0x00, 0x03, 0x71], txt!"Verve"),
   ([0xA0, 0x00, 0x00, 0x00, 0x03], txt!"Visa"),
   ([0xA0, 0x00, 0x00, 0x00, 0x03, 0x10, 0x10], txt!"Visa Credit/Debit"),
   ([0xA0, 0x00, 0x00, 0x00, 0x03, 0x20, 0x10], txt!"Visa Electron"),
   ([0xA0, 0x00, 0x00, 0x00, 0x03, 0x20, 0x20], txt!"V Pay"),
   ([0xA0, 0x00, 0x00, 0x00, 0x03, 0x80, 0x10], txt!"Visa Plus"),
   ([0xA0, 0x00, 0x00, 0x00, 0x98], txt!"Visa USA Debit")]

/-- `e` is the longest entry that `aid` starts with. -/
def LongestName (aid : List Byte) (e : List Byte × List Byte) : Prop :=
  e ∈ aidNames ∧ e.1 <+: aid ∧ ∀ e' ∈ aidNames, e'.1 <+: aid → e'.1.length ≤ e.1.length

/-- The text shown for a line of the register. -/
def regText (r : Aid.Reg) : Option (List Byte) := aidText r.scheme r.product

theorem aidNames_eq : Aid.register.map (fun r => (r.pre, regText r)) =
    aidNames.map (fun e => (e.1, some e.2)) := rfl

theorem jcb_pre : ∀ r ∈ Aid.register, r.scheme = .jcb → r.pre = [0xA0, 0, 0, 0, 0x65] := by
  decide +kernel

/-- **C81** (AID, partial).  An AID of 5 to 16 bytes which starts with a registered prefix is
shown with the name of the longest such prefix; one without a registered prefix is refused, and
the output left as it was.  Missing: JCB, see `C81_jcb`. -/
theorem C81_aid_partial (aid str : List Byte) (h1 : 5 ≤ aid.length) (h2 : aid.length ≤ 16)
    (hs : str ≠ []) :
    (∀ e, LongestName aid e → e.1 ≠ [0xA0, 0, 0, 0, 0x65] →
      aidString aid str = .ok (0, held str.length e.2)) ∧
    ((∀ e ∈ aidNames, ¬ e.1 <+: aid) → aidString aid str = .ok (-1, str)) := by
  have hs1 : ¬ str.length = 0 := by simpa using hs
  obtain ⟨c1, c2⟩ := Aid.C20_classify_partial aid h1 h2
  refine ⟨fun e ⟨he, hp, hmax⟩ hj => ?_, fun hn => ?_⟩
  · have hm : (e.1, some e.2) ∈ Aid.register.map (fun r => (r.pre, regText r)) := by
      rw [aidNames_eq]; exact List.mem_map.2 ⟨e, he, rfl⟩
    obtain ⟨r, hr, hre⟩ := List.mem_map.1 hm
    obtain ⟨hr1, hr2⟩ := Prod.mk.inj hre
    have hL : Aid.Longest aid r := by
      refine ⟨hr, by rw [hr1]; exact hp, fun r' hr' hp' => ?_⟩
      have hm' : (r'.pre, regText r') ∈ aidNames.map (fun e => (e.1, some e.2)) := by
        rw [← aidNames_eq]; exact List.mem_map.2 ⟨r', hr', rfl⟩
      obtain ⟨e', he', hee⟩ := List.mem_map.1 hm'
      have := (Prod.mk.inj hee).1
      rw [hr1, ← this]
      exact hmax e' he' (by rw [this]; exact hp')
    have hinfo := c1 r hL (fun hc => hj (by rw [← hr1]; exact jcb_pre r hr hc))
    rw [aidString, if_neg (by omega), if_neg hs1, if_neg (by omega), hinfo, bind_ok]
    have ht : aidText r.scheme r.product = some e.2 := hr2
    simp only [ne_eq, not_true_eq_false, if_false, ht, strncpyTerm1_held str _ hs, bind_ok]
  · have hinfo := c2 (fun r hr hp => by
      have hm' : (r.pre, regText r) ∈ aidNames.map (fun e => (e.1, some e.2)) := by
        rw [← aidNames_eq]; exact List.mem_map.2 ⟨r, hr, rfl⟩
      obtain ⟨e', he', hee⟩ := List.mem_map.1 hm'
      exact hn e' he' (by rw [(Prod.mk.inj hee).1]; exact hp))
    rw [aidString, if_neg (by omega), if_neg hs1, if_neg (by omega), hinfo, bind_ok]
    rfl

/-- **C81 is false for JCB**: the name "JCB" is in the code but cannot be reached, every such AID
is refused. -/
theorem C81_jcb (pix str : List Byte) (h : pix.length ≤ 11) (hs : str ≠ []) :
    ([0xA0, 0, 0, 0, 0x65], txt!"JCB") ∈ aidNames ∧
    aidString ([0xA0, 0, 0, 0, 0x65] ++ pix) str = .ok (-1, str) := by
  refine ⟨by decide +kernel, ?_⟩
  have hs1 : ¬ str.length = 0 := by simpa using hs
  rw [aidString, if_neg (by simp), if_neg hs1, if_neg (by simp; omega),
    Aid.C20_jcb_not_recognised pix h, bind_ok]
  rfl

/-- **C81** (AID, other lengths). -/
theorem C81_aid_length (aid str : List Byte) :
    (aid = [] → aidString aid str = .ok (-1, str)) ∧
    (aid ≠ [] → str = [] → aidString aid str = .ok (0, str)) ∧
    (aid ≠ [] → str ≠ [] → ¬ (5 ≤ aid.length ∧ aid.length ≤ 16) →
      aidString aid str = .ok (1, str)) := by
  refine ⟨fun h => ?_, fun h hs => ?_, fun h hs hl => ?_⟩
  · rw [aidString, if_pos (by rw [h]; rfl)]
  · rw [aidString, if_neg (by simpa using h), if_pos (by rw [hs]; rfl)]
  · rw [aidString, if_neg (by simpa using h), if_neg (by simpa using hs), if_pos (by omega)]

/-- What is shown for the result of a table lookup: the name, or an empty string. -/
def lookedUp (str : List Byte) : Option (List Byte) → List Byte
  | none => str.set 0 0
  | some s => held str.length s

/-- **C81** (merchant category code and numeric country code).  Two bytes of decimal digits are
looked up as a number; unknown numbers give an empty string. -/
theorem C81_number (lookup : Nat → Option (List Byte)) (buf str : List Byte) (hs : str ≠ []) :
    (buf.length = 2 → IsFormatN buf →
      byNumber lookup buf str = .ok (0, lookedUp str (lookup (decNat (nibbles buf))))) ∧
    (buf.length = 2 → ¬ IsFormatN buf → ∃ c, 0 < c ∧ byNumber lookup buf str = .ok (c, str)) ∧
    (buf = [] → byNumber lookup buf str = .ok (-1, str)) ∧
    (buf ≠ [] → buf.length ≠ 2 → byNumber lookup buf str = .ok (1, str)) := by
  have hs1 : ¬ str.length = 0 := by simpa using hs
  refine ⟨fun h hf => ?_, fun h hf => ?_, fun h => ?_, fun h h2 => ?_⟩
  · have hv : decNat (nibbles buf) < 2 ^ 32 := by
      match buf, h, hf with
      | [a, b], _, hf =>
        have h1 := hf (a.toNat / 16) (by simp [nibbles])
        have h2 := hf (a.toNat % 16) (by simp [nibbles])
        have h3 := hf (b.toNat / 16) (by simp [nibbles])
        have h4 := hf (b.toNat % 16) (by simp [nibbles])
        simp only [nibbles, decNat, List.foldl]
        omega
    have e := (C10_decode_partial buf (by rintro rfl; simp at h)).2.1 hf hv
    rw [byNumber, if_neg (by omega), if_neg hs1, if_neg (by omega), e, bind_ok]
    simp only [ne_eq, not_true_eq_false, if_false]
    rw [copyLookup_eq _ _ hs]
    rfl
  · obtain ⟨c, v, hc, e⟩ := (C10_decode_partial buf (by rintro rfl; simp at h)).2.2 hf
    refine ⟨c, hc, ?_⟩
    rw [byNumber, if_neg (by omega), if_neg hs1, if_neg (by omega), e, bind_ok]
    simp only
    rw [if_pos (by omega)]
  · rw [byNumber, if_pos (by rw [h]; rfl)]
  · rw [byNumber, if_neg (by simpa using h), if_neg hs1, if_pos h2]

theorem cstr_takeWhile (x : List Byte) : Capdu.cstr (x ++ [0]) = .ok (x.takeWhile (· ≠ 0)) := by
  have hz : ∀ b ∈ x.takeWhile (· ≠ 0), b ≠ 0 := by
    intro b hb
    have : ∀ (l : List Byte), b ∈ l.takeWhile (· ≠ 0) → b ≠ 0 := by
      intro l
      induction l with
      | nil => simp
      | cons a l ih =>
        rw [List.takeWhile_cons]
        split
        · rename_i ha
          intro h
          rcases List.mem_cons.1 h with rfl | h
          · simpa using ha
          · exact ih h
        · simp
    exact this x hb
  have hd : ∃ rest, x ++ [0] = x.takeWhile (· ≠ 0) ++ 0 :: rest := by
    induction x with
    | nil => exact ⟨[], rfl⟩
    | cons a x ih =>
      rw [List.takeWhile_cons]
      by_cases ha : a = 0
      · subst ha
        exact ⟨x ++ [0], by simp⟩
      · obtain ⟨rest, e⟩ := ih (fun b hb => hz b (by
          rw [List.takeWhile_cons, if_pos (by simpa using ha)]; exact List.mem_cons_of_mem _ hb))
        refine ⟨rest, ?_⟩
        rw [if_pos (by simpa using ha), List.cons_append, e, List.cons_append]
  obtain ⟨rest, e⟩ := hd
  rw [e, Capdu.cstr_spec _ _ hz]

/-- **C81** (country by two or three letters, `n = 2` and `n = 3`).  The letters up to a NUL are
looked up; unknown countries give an empty string. -/
theorem C81_alpha (n : Nat) (hn : 0 < n) (lookup : List Byte → Option (List Byte))
    (buf str : List Byte) (hs : str ≠ []) :
    (buf.length = n → byAlpha n lookup buf str =
      .ok (0, lookedUp str (lookup (buf.takeWhile (· ≠ 0))))) ∧
    (buf = [] → byAlpha n lookup buf str = .ok (-1, str)) ∧
    (buf ≠ [] → buf.length ≠ n → byAlpha n lookup buf str = .ok (1, str)) := by
  have hs1 : ¬ str.length = 0 := by simpa using hs
  refine ⟨fun h => ?_, fun h => ?_, fun h h2 => ?_⟩
  · rw [byAlpha, if_neg (by omega), if_neg hs1, if_neg (by omega), slice_eq (by omega), bind_ok]
    have : (buf.drop 0).take n = buf := by rw [List.drop_zero, List.take_of_length_le (by omega)]
    rw [this, cstr_takeWhile, bind_ok, copyLookup_eq _ _ hs]
    rfl
  · rw [byAlpha, if_pos (by rw [h]; rfl)]
  · rw [byAlpha, if_neg (by simpa using h), if_neg hs1, if_pos h2]

/-- **C81** (no output).  Without an output nothing is done, whatever the field; only an empty one
is refused. -/
theorem C81_no_output (n : Nat) (num : Nat → Option (List Byte))
    (alpha : List Byte → Option (List Byte)) (buf : List Byte) :
    byNumber num buf [] = .ok (if buf = [] then -1 else 0, []) ∧
    byAlpha n alpha buf [] = .ok (if buf = [] then -1 else 0, []) ∧
    aidString buf [] = .ok (if buf = [] then -1 else 0, []) := by
  cases buf <;> simp [byNumber, byAlpha, aidString]

example : LongestName [0xA0, 0, 0, 0, 3, 0x10, 0x10, 1]
    ([0xA0, 0, 0, 0, 3, 0x10, 0x10], txt!"Visa Credit/Debit") :=
  ⟨by decide +kernel, ⟨[1], rfl⟩, by simp [aidNames]⟩
example : byNumber (fun n => if n = 840 then some txt!"US" else none) [0x08, 0x40] [9, 9, 9, 9] =
    .ok (0, [0x55, 0x53, 0, 0]) := by decide +kernel
example : byAlpha 2 (fun k => if k = txt!"NL" then some txt!"Netherlands" else none)
    [0x4E, 0x4C] [9, 9, 9, 9] = .ok (0, [0x4E, 0x65, 0x74, 0]) := by decide +kernel

end Verif.Names
