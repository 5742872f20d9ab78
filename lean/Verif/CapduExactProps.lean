import Verif.CapduProps
import Verif.StrProps
import Verif.Text

/-! # What exactly is said of commands: C140, and SELECT without Le (C67) -/

set_option autoImplicit false

namespace Verif.Capdu
open Verif Formats

/-! ## Specification -/

/-- A number in decimal. -/
def number (n : Nat) : List Byte := (Str.digits n).map Str.digitChar

/-- READ RECORD by its parameters (ISO 7816-4, 7.3.3): bits 8 to 4 of P2 are the short EF
identifier; with bit 3, P1 is a record number and bits 2 and 1 tell which records are read;
otherwise P1 is a record identifier and they tell the occurrence. -/
def recordText (p1 p2 : Nat) : Option (List Byte) :=
  let from_ := txt!"READ RECORD from short EF " ++ number (p2 / 8) ++ txt!", "
  let record (what : List Byte) := if p1 = 0 then txt!"current record" else what ++ number p1
  if p1 = 255 then none
  else match p2 % 8 with
    | 0 => some (from_ ++ txt!"first occurence of " ++ record txt!"record identifier ")
    | 1 => some (from_ ++ txt!"last occurence of " ++ record txt!"record identifier ")
    | 2 => some (from_ ++ txt!"next occurence of " ++ record txt!"record identifier ")
    | 3 => some (from_ ++ txt!"previous occurence of " ++ record txt!"record identifier ")
    | 4 => some (from_ ++ record txt!"record number ")
    | 5 => some (from_ ++ txt!"all records from " ++ record txt!"record number " ++ txt!" up to last")
    | 6 => some (from_ ++ txt!"all records from the last up to " ++ record txt!"record number ")
    | _ => none

/-- PUT DATA by tag (INS DA; ISO 7816-4, 7.4.1, table 62). -/
def putTagText (p1 p2 : Byte) : List Byte :=
  let n := p1.toNat * 256 + p2.toNat
  if 0x0040 ≤ n ∧ n ≤ 0x00FE then txt!"PUT DATA for BER-TLV field " ++ hexOf [p2]
  else if 0x0100 ≤ n ∧ n ≤ 0x01FF then txt!"PUT DATA for proprietary identifier " ++ hexOf [p2]
  else if 0x0201 ≤ n ∧ n ≤ 0x02FE then txt!"PUT DATA for SIMPLE-TLV field " ++ hexOf [p2]
  else if 0x4000 ≤ n then txt!"PUT DATA for BER-TLV field " ++ hexOf [p1, p2]
  else txt!"PUT DATA"

/-- PUT DATA by file (INS DB; ISO 7816-4, 7.4.1). -/
def putFileText (p1 p2 : Byte) : List Byte :=
  let n := p1.toNat * 256 + p2.toNat
  if n = 0 then txt!"PUT DATA"
  else if n ≤ 30 then txt!"PUT DATA for short EF " ++ number n
  else if n = 0x3FFF then txt!"PUT DATA for current DF"
  else txt!"PUT DATA for file " ++ hexOf [p1, p2]

/-- The instructions known by their name only (ISO 7816-4, 7816-7, 7816-8, 7816-9). -/
def insNames : List (Nat × List Byte) := [
  (0x04, txt!"DEACTIVATE FILE"), (0x0C, txt!"ERASE RECORD"),
  (0x0E, txt!"ERASE BINARY"), (0x0F, txt!"ERASE BINARY"),
  (0x10, txt!"PERFORM SCQL OPERATION"), (0x12, txt!"PERFORM TRANSACTION OPERATION"),
  (0x14, txt!"PERFORM USER OPERATION"), (0x20, txt!"VERIFY"), (0x21, txt!"VERIFY"),
  (0x22, txt!"MANAGE SECURITY ENVIRONMENT"), (0x24, txt!"CHANGE REFERENCE DATA"),
  (0x26, txt!"DISABLE VERIFICATION REQUIREMENT"), (0x28, txt!"ENABLE VERIFICATION REQUIREMENT"),
  (0x2A, txt!"PERFORM SECURITY OPERATION"), (0x2C, txt!"RESET RETRY COUNTER"),
  (0x44, txt!"ACTIVATE FILE"), (0x46, txt!"GENERATE ASYMMETRIC KEY PAIR"),
  (0x70, txt!"MANAGE CHANNEL"), (0x82, txt!"EXTERNAL AUTHENTICATE"), (0x84, txt!"GET CHALLENGE"),
  (0x86, txt!"GENERAL AUTHENTICATE"), (0x87, txt!"GENERAL AUTHENTICATE"),
  (0x88, txt!"INTERNAL AUTHENTICATE"), (0xA0, txt!"SEARCH BINARY"), (0xA1, txt!"SEARCH BINARY"),
  (0xA2, txt!"SEARCH RECORD"), (0xB0, txt!"READ BINARY"), (0xB1, txt!"READ BINARY"),
  (0xC0, txt!"GET RESPONSE"), (0xC2, txt!"ENVELOPE"), (0xC3, txt!"ENVELOPE"),
  (0xCA, txt!"GET DATA"), (0xCB, txt!"GET DATA"), (0xD0, txt!"WRITE BINARY"),
  (0xD1, txt!"WRITE BINARY"), (0xD2, txt!"WRITE RECORD"), (0xD6, txt!"UPDATE BINARY"),
  (0xD7, txt!"UPDATE BINARY"), (0xDC, txt!"UPDATE RECORD"), (0xDD, txt!"UPDATE RECORD"),
  (0xE0, txt!"CREATE FILE"), (0xE2, txt!"APPEND RECORD"), (0xE4, txt!"DELETE FILE"),
  (0xE6, txt!"TERMINATE DF"), (0xE8, txt!"TERMINATE EF"), (0xFE, txt!"TERMINATE CARD USAGE")]

/-- The instructions of EMV known by their name only (EMV 4.4 Book 3, 6.5). -/
def emvNames : List (Nat × List Byte) := [
  (0x16, txt!"CARD BLOCK"), (0x18, txt!"APPLICATION UNBLOCK"), (0x1E, txt!"APPLICATION BLOCK"),
  (0x24, txt!"PIN CHANGE/UNBLOCK"), (0xA8, txt!"GET PROCESSING OPTIONS"), (0xAE, txt!"GENERATE AC")]

/-- Whether the body asks for data, and whether it has data. -/
def _root_.Verif.Apdu.Body.asks : Apdu.Body → Bool
  | .shortLe _ | .extLe _ _ | .shortDataLe _ _ _ | .extDataLe _ _ _ _ _ => true
  | _ => false

/-- See `Body.asks`. -/
def _root_.Verif.Apdu.Body.hasData : Apdu.Body → Bool
  | .shortData _ _ | .extData _ _ _ | .shortDataLe _ _ _ | .extDataLe _ _ _ _ _ => true
  | _ => false

/-- What is said of an interindustry command other than SELECT. -/
def isoText (ins p1 p2 : Byte) (b : Apdu.Body) : Option (List Byte) :=
  if ins.toNat = 0xB2 then if b.asks && !b.hasData then recordText p1.toNat p2.toNat else none
  else if ins.toNat = 0xB3 then if b.asks && b.hasData then recordText p1.toNat p2.toNat else none
  else if ins.toNat = 0xDA then if !b.asks && b.hasData then some (putTagText p1 p2) else none
  else if ins.toNat = 0xDB then if !b.asks && b.hasData then some (putFileText p1 p2) else none
  else insNames.lookup ins.toNat

/-- What is said of a proprietary command. -/
def emvText (ins p1 p2 : Byte) : Option (List Byte) :=
  if ins.toNat = 0xCA then some (txt!"GET DATA field " ++ hexOf [p1, p2])
  else emvNames.lookup ins.toNat

/-- The output, as a C string, is the text cut to what fits; its size is unchanged. -/
def Reads (str out t : List Byte) : Prop :=
  out.length = str.length ∧ ∃ rest, out = t.take (str.length - 1) ++ 0 :: rest

/-! ## Proofs -/

theorem reads_snprintf (str text : List Byte) (hs : str ≠ []) :
    ∃ out, snprintf str text = .ok out ∧ Reads str out text := by
  have h1 : str.length ≠ 0 := by simpa using hs
  refine ⟨_, snprintf_spec str text hs, ?_, _, by rw [strOver]⟩
  simp [strOver]
  omega

theorem reads_strncpy (str s : List Byte) (hs : str ≠ []) :
    ∃ out, strncpyTerm str s = .ok out ∧ Reads str out s := by
  obtain ⟨out, e, hl, k, ho⟩ := strncpyTerm_spec str s hs
  exact ⟨out, e, hl, List.replicate k 0, by rw [ho, List.replicate_succ]⟩

theorem dec_eq : ∀ b : Byte, dec b = number b.toNat := by
  have : ∀ b : Byte, dec b = (Str.digits b.toNat).map Str.digitChar := by decide +kernel
  exact this

theorem hex4_eq (a b : Byte) : hex2 a ++ hex2 b = hexOf [a, b] := by
  rw [hex2_eq, hex2_eq, ← hexOf_append]; rfl

theorem p2_cases : ∀ p2 : Byte,
    (p2.toNat % 8 = 0 ∧ p2 &&& 4 = 0 ∧ p2 &&& 3 = 0) ∨
    (p2.toNat % 8 = 1 ∧ p2 &&& 4 = 0 ∧ p2 &&& 3 = 1) ∨
    (p2.toNat % 8 = 2 ∧ p2 &&& 4 = 0 ∧ p2 &&& 3 = 2) ∨
    (p2.toNat % 8 = 3 ∧ p2 &&& 4 = 0 ∧ p2 &&& 3 = 3) ∨
    (p2.toNat % 8 = 4 ∧ p2 &&& 4 = 4 ∧ p2 &&& 3 = 0) ∨
    (p2.toNat % 8 = 5 ∧ p2 &&& 4 = 4 ∧ p2 &&& 3 = 1) ∨
    (p2.toNat % 8 = 6 ∧ p2 &&& 4 = 4 ∧ p2 &&& 3 = 2) ∨
    (p2.toNat % 8 = 7 ∧ p2 &&& 4 = 4 ∧ p2 &&& 3 = 3) := by decide +kernel

theorem p2_sfi : ∀ p2 : Byte, dec (p2 >>> 3) = number (p2.toNat / 8) := by
  have : ∀ p2 : Byte, (p2 >>> 3).toNat = p2.toNat / 8 := by decide +kernel
  intro p2
  rw [dec_eq, this]

theorem byte_eq_iff (a b : Byte) : a = b ↔ a.toNat = b.toNat := UInt8.toNat_inj.symm

theorem readRecord_spec (c0 c1 p1 p2 : Byte) (rest : List Byte) (k : Except Int Apdu.Case)
    (h0 : c0 &&& 0x80 = 0) (h1 : c1 = 0xB2 ∨ c1 = 0xB3)
    (hk : Apdu.apduCase (c0 :: c1 :: p1 :: p2 :: rest) = .ok k) :
    readRecordString (c0 :: c1 :: p1 :: p2 :: rest) =
      .ok (if readRecordCase c1 k then recordText p1.toNat p2.toNat else none) := by
  rw [readRecordString]
  simp only [rd_cons_zero, rd_cons_succ, bind_ok, hk]
  have hn : ¬ (c0 &&& 0x80 ≠ 0 ∨ (c1 ≠ 0xB2 ∧ c1 ≠ 0xB3)) := by
    rintro (h | ⟨h, h'⟩)
    · exact h h0
    · rcases h1 with h1 | h1
      · exact h h1
      · exact h' h1
  rw [if_neg hn]
  by_cases hc : readRecordCase c1 k = true
  · rw [if_neg (by simp [hc]), if_pos hc, recordText]
    have e255 : p1 = 0xFF ↔ p1.toNat = 255 := byte_eq_iff p1 0xFF
    have e0 : p1 = 0 ↔ p1.toNat = 0 := byte_eq_iff p1 0
    by_cases h : p1 = 0xFF
    · rw [if_pos h, if_pos (e255.1 h)]
    · rw [if_neg h, if_neg (fun x => h (e255.2 x))]
      have t1 : ascii "current record" = txt!"current record" := by decide +kernel
      have t2 : ascii "record number " = txt!"record number " := by decide +kernel
      have t3 : ascii "record identifier " = txt!"record identifier " := by decide +kernel
      have t4 : ascii "READ RECORD from short EF " = txt!"READ RECORD from short EF " := by
        decide +kernel
      have t5 : ascii "all records from " = txt!"all records from " := by decide +kernel
      have t6 : ascii " up to last" = txt!" up to last" := by decide +kernel
      have t7 : ascii "all records from the last up to " =
        txt!"all records from the last up to " := by decide +kernel
      have t8 : ascii ", " = txt!", " := by decide +kernel
      have o1 : ascii "first" ++ ascii " occurence of " = txt!"first occurence of " := by
        decide +kernel
      have o2 : ascii "last" ++ ascii " occurence of " = txt!"last occurence of " := by
        decide +kernel
      have o3 : ascii "next" ++ ascii " occurence of " = txt!"next occurence of " := by
        decide +kernel
      have o4 : ascii "previous" ++ ascii " occurence of " = txt!"previous occurence of " := by
        decide +kernel
      rw [← t1, ← t2, ← t3, ← t4, ← t5, ← t6, ← t7, ← t8, ← o1, ← o2, ← o3, ← o4]
      rw [p2_sfi]
      simp only [dec_eq, e0]
      rcases p2_cases p2 with h | h | h | h | h | h | h | h <;> obtain ⟨h8, h4, h3⟩ := h <;>
        simp [h8, h4, h3, occurrence, List.append_assoc]
  · rw [if_pos (by simpa using hc), if_neg hc]

theorem putData_tag (p1 p2 : Byte) :
    (if p1 = 0 ∧ p2 ≥ 0x40 ∧ p2 ≤ 0xFE then
      (.ok (some (ascii "PUT DATA for BER-TLV field " ++ hex2 p2)) : C (Option (List Byte)))
    else if p1 = 1 then .ok (some (ascii "PUT DATA for proprietary identifier " ++ hex2 p2))
    else if p1 = 2 ∧ p2 ≥ 1 ∧ p2 ≤ 0xFE then
      .ok (some (ascii "PUT DATA for SIMPLE-TLV field " ++ hex2 p2))
    else if p1 ≥ 0x40 then .ok (some (ascii "PUT DATA for BER-TLV field " ++ hex2 p1 ++ hex2 p2))
    else .ok (some (ascii "PUT DATA"))) = .ok (some (putTagText p1 p2)) := by
  have t1 : ascii "PUT DATA for BER-TLV field " = txt!"PUT DATA for BER-TLV field " := by
    decide +kernel
  have t2 : ascii "PUT DATA for proprietary identifier " =
    txt!"PUT DATA for proprietary identifier " := by decide +kernel
  have t3 : ascii "PUT DATA for SIMPLE-TLV field " = txt!"PUT DATA for SIMPLE-TLV field " := by
    decide +kernel
  have t4 : ascii "PUT DATA" = txt!"PUT DATA" := by decide +kernel
  rw [putTagText, ← t1, ← t2, ← t3, ← t4, List.append_assoc, hex4_eq, hex2_eq]
  have b1 := p1.toNat_lt
  have b2 := p2.toNat_lt
  simp only [byte_eq_iff, ge_iff_le, UInt8.le_iff_toNat_le, UInt8.reduceToNat]
  have e1 : (0x0040 ≤ p1.toNat * 256 + p2.toNat ∧ p1.toNat * 256 + p2.toNat ≤ 0x00FE) ↔
    (p1.toNat = 0 ∧ 64 ≤ p2.toNat ∧ p2.toNat ≤ 254) := by omega
  have e2 : (0x0100 ≤ p1.toNat * 256 + p2.toNat ∧ p1.toNat * 256 + p2.toNat ≤ 0x01FF) ↔
    p1.toNat = 1 := by omega
  have e3 : (0x0201 ≤ p1.toNat * 256 + p2.toNat ∧ p1.toNat * 256 + p2.toNat ≤ 0x02FE) ↔
    (p1.toNat = 2 ∧ 1 ≤ p2.toNat ∧ p2.toNat ≤ 254) := by omega
  have e4 : 0x4000 ≤ p1.toNat * 256 + p2.toNat ↔ 64 ≤ p1.toNat := by omega
  simp only [e1, e2, e3, e4]
  by_cases c1 : p1.toNat = 0 ∧ 64 ≤ p2.toNat ∧ p2.toNat ≤ 254
  · rw [if_pos c1, if_pos c1]
  rw [if_neg c1, if_neg c1]
  by_cases c2 : p1.toNat = 1
  · rw [if_pos c2, if_pos c2]
  rw [if_neg c2, if_neg c2]
  by_cases c3 : p1.toNat = 2 ∧ 1 ≤ p2.toNat ∧ p2.toNat ≤ 254
  · rw [if_pos c3, if_pos c3]
  rw [if_neg c3, if_neg c3]
  by_cases c4 : 64 ≤ p1.toNat
  · rw [if_pos c4, if_pos c4]
  rw [if_neg c4, if_neg c4]

theorem shortEf : ∀ p2 : Byte, (p2 &&& 0xE0 = 0 ∧ p2 &&& 0x1F ≠ 0 ∧ p2 &&& 0x1F ≠ 0x1F) ↔
    (1 ≤ p2.toNat ∧ p2.toNat ≤ 30) := by decide +kernel

theorem putData_file (p1 p2 lc : Byte) (hlc : lc ≠ 0) :
    (if p1 = 0 ∧ p2 &&& 0xE0 = 0 ∧ p2 &&& 0x1F ≠ 0 ∧ p2 &&& 0x1F ≠ 0x1F then
      (.ok (some (ascii "PUT DATA for short EF " ++ dec p2)) : C (Option (List Byte)))
    else if p1 = 0x3F ∧ p2 = 0xFF then .ok (some (ascii "PUT DATA for current DF"))
    else if p1 = 0 ∧ p2 = 0 ∧ lc = 0 then .ok (some (ascii "PUT DATA for current EF"))
    else if p1 ≠ 0 ∨ p2 ≠ 0 then .ok (some (ascii "PUT DATA for file " ++ hex2 p1 ++ hex2 p2))
    else .ok (some (ascii "PUT DATA"))) = .ok (some (putFileText p1 p2)) := by
  have t1 : ascii "PUT DATA for short EF " = txt!"PUT DATA for short EF " := by decide +kernel
  have t2 : ascii "PUT DATA for current DF" = txt!"PUT DATA for current DF" := by decide +kernel
  have t3 : ascii "PUT DATA for file " = txt!"PUT DATA for file " := by decide +kernel
  have t4 : ascii "PUT DATA" = txt!"PUT DATA" := by decide +kernel
  rw [putFileText, ← t1, ← t2, ← t3, ← t4, List.append_assoc, hex4_eq, dec_eq]
  have b1 := p1.toNat_lt
  have b2 := p2.toNat_lt
  have e0 : (p1 = 0 ∧ p2 &&& 0xE0 = 0 ∧ p2 &&& 0x1F ≠ 0 ∧ p2 &&& 0x1F ≠ 0x1F) ↔
      (p1.toNat = 0 ∧ 1 ≤ p2.toNat ∧ p2.toNat ≤ 30) := by
    rw [shortEf p2, byte_eq_iff p1 0]; rfl
  have e1 : (p1 = 0x3F ∧ p2 = 0xFF) ↔ p1.toNat * 256 + p2.toNat = 0x3FFF := by
    rw [byte_eq_iff p1 0x3F, byte_eq_iff p2 0xFF]
    show p1.toNat = 63 ∧ p2.toNat = 255 ↔ _
    omega
  have e2 : (p1 ≠ 0 ∨ p2 ≠ 0) ↔ ¬ p1.toNat * 256 + p2.toNat = 0 := by
    rw [ne_eq, ne_eq, byte_eq_iff p1 0, byte_eq_iff p2 0]
    show ¬ p1.toNat = 0 ∨ ¬ p2.toNat = 0 ↔ _
    omega
  have e3 : ¬ (p1 = 0 ∧ p2 = 0 ∧ lc = 0) := fun h => hlc h.2.2
  simp only [e0, e1, e2]
  rw [if_neg e3]
  by_cases c0 : p1.toNat * 256 + p2.toNat = 0
  · have n1 : ¬ (p1.toNat = 0 ∧ 1 ≤ p2.toNat ∧ p2.toNat ≤ 30) := by omega
    have n2 : ¬ p1.toNat * 256 + p2.toNat = 0x3FFF := by omega
    rw [if_pos c0, if_neg n1, if_neg n2, if_neg (not_not_intro c0)]
  rw [if_neg c0, if_pos (c := ¬ p1.toNat * 256 + p2.toNat = 0) c0]
  by_cases c1 : p1.toNat = 0 ∧ 1 ≤ p2.toNat ∧ p2.toNat ≤ 30
  · have n1 : p1.toNat * 256 + p2.toNat ≤ 30 := by omega
    have n2 : p1.toNat * 256 + p2.toNat = p2.toNat := by omega
    rw [if_pos c1, if_pos n1, n2]
  · have n1 : ¬ p1.toNat * 256 + p2.toNat ≤ 30 := by omega
    rw [if_neg c1, if_neg n1]
    by_cases c2 : p1.toNat * 256 + p2.toNat = 0x3FFF
    · rw [if_pos c2, if_pos c2]
    · rw [if_neg c2, if_neg c2]

theorem ins_eq : ∀ c : Byte, (isoIns c).map ascii =
    if c.toNat = 0xB2 ∨ c.toNat = 0xB3 ∨ c.toNat = 0xDA ∨ c.toNat = 0xDB then none
    else insNames.lookup c.toNat := by decide +kernel

theorem emvIns_eq : ∀ c : Byte, (emvIns c).map ascii = emvNames.lookup c.toNat := by decide +kernel

theorem case_supported (c0 c1 p1 p2 : Byte) (b : Apdu.Body) (hb : b.WF) (hs : b.Supported) :
    Apdu.apduCase (c0 :: c1 :: p1 :: p2 :: b.enc) = .ok (.ok b.case) :=
  Apdu.C22_recognise_partial [c0, c1, p1, p2] rfl b hb hs

theorem putData_spec (c0 c1 p1 p2 : Byte) (b : Apdu.Body) (hb : b.WF) (hsup : b.Supported)
    (h0 : c0 &&& 0x80 = 0) (h1 : c1 = 0xDA ∨ c1 = 0xDB) :
    putDataString (c0 :: c1 :: p1 :: p2 :: b.enc) =
      .ok (if !b.asks && b.hasData then
        some (if c1 = 0xDA then putTagText p1 p2 else putFileText p1 p2) else none) := by
  rw [putDataString]
  simp only [rd_cons_zero, rd_cons_succ, bind_ok, case_supported c0 c1 p1 p2 b hb hsup]
  have hn : ¬ (c0 &&& 0x80 ≠ 0 ∨ (c1 ≠ 0xDA ∧ c1 ≠ 0xDB)) := by
    rintro (h | ⟨h, h'⟩)
    · exact h h0
    · rcases h1 with h1 | h1
      · exact h h1
      · exact h' h1
  rw [if_neg hn]
  cases b with
  | none => rfl
  | shortLe le => rfl
  | extLe hi lo => rfl
  | shortDataLe lc data le => rfl
  | extData hi lo data => exact absurd hsup id
  | extDataLe hi lo data x y => exact absurd hsup id
  | shortData lc data =>
    have hlc : lc ≠ 0 := by
      rintro rfl
      exact hb.2 (List.length_eq_zero_iff.1 hb.1.symm)
    simp only [Apdu.Body.case, Apdu.Body.asks, Apdu.Body.hasData, Apdu.Body.enc, rd_cons_zero,
      bind_ok, Bool.not_false, Bool.and_self, if_true]
    rcases h1 with rfl | rfl
    · rw [if_pos (show (0xDA : Byte) &&& 1 = 0 by decide), putData_tag]; rfl
    · rw [if_neg (show ¬ (0xDB : Byte) &&& 1 = 0 by decide), putData_file p1 p2 lc hlc]; rfl

theorem set_ne {str : List Byte} (hs : 4 ≤ str.length) : str.set 0 0 ≠ [] := by
  intro h
  have := congrArg List.length h
  rw [List.length_set, List.length_nil] at this
  omega

/-- What `isoGetString` does with a command of four bytes or more, by its instruction. -/
theorem iso_unfold (c0 c1 : Byte) (rest str : List Byte) (h0 : c0.toNat < 128)
    (hs : 4 ≤ str.length) : isoGetString (c0 :: c1 :: rest) str =
      (if c1 = 0xA4 then do
        let t ← selectString (c0 :: c1 :: rest)
        finishText (str.set 0 0) t
      else if c1 = 0xB2 ∨ c1 = 0xB3 then do
        let t ← readRecordString (c0 :: c1 :: rest)
        finishText (str.set 0 0) t
      else if c1 = 0xDA ∨ c1 = 0xDB then do
        let t ← putDataString (c0 :: c1 :: rest)
        finishText (str.set 0 0) t
      else match isoIns c1 with
        | none => .ok (false, str.set 0 0)
        | some s => do
          let str ← strncpyTerm (str.set 0 0) (ascii s)
          .ok (true, str)) := by
  have hcb := class_bits c0
  have h1 : ¬ ((c0 :: c1 :: rest).length = 0 ∨ str.length = 0) := by
    rw [List.length_cons]; omega
  have h2 : ¬ (str.set 0 0).length < 4 := by rw [List.length_set]; omega
  rw [isoGetString, if_neg h1, wr_eq (by omega), bind_ok, if_neg h2]
  simp only [rd_cons_zero, rd_cons_succ, bind_ok]
  rw [if_neg (fun h => by have := hcb.2.1.1 h; omega),
    if_neg (fun h => by have := hcb.1.1 h; omega)]
  rfl

theorem finish_reads (str : List Byte) (hs : 4 ≤ str.length) (t : Option (List Byte)) :
    match t with
    | none => finishText (str.set 0 0) t = .ok (false, str.set 0 0)
    | some text => ∃ out, finishText (str.set 0 0) t = .ok (true, out) ∧ Reads str out text := by
  cases t with
  | none => rfl
  | some text =>
    obtain ⟨out, e, h1, h2⟩ := reads_snprintf (str.set 0 0) text
      (set_ne hs)
    refine ⟨out, ?_, ?_, ?_⟩
    · rw [finishText, e, bind_ok]
    · simpa using h1
    · simpa using h2

/-- **C140** (interindustry commands).  Every command other than SELECT of case 1 or 2, or of case 3
or 4 with a short data field, is described by exactly the text of its instruction and parameters,
cut to the output; if it has none, an empty string is left and nothing is returned. -/
theorem C140_iso (cla ins p1 p2 : Byte) (b : Apdu.Body) (hb : b.WF) (hsup : b.Supported)
    (hc : cla.toNat < 128) (hi : ins ≠ 0xA4) (str : List Byte) (hs : 4 ≤ str.length) :
    match isoText ins p1 p2 b with
    | none => isoGetString (cla :: ins :: p1 :: p2 :: b.enc) str = .ok (false, str.set 0 0)
    | some t => ∃ out, isoGetString (cla :: ins :: p1 :: p2 :: b.enc) str = .ok (true, out) ∧
        Reads str out t := by
  have h80 : cla &&& 0x80 = 0 := by
    apply Classical.byContradiction
    intro h
    have := (class_bits cla).1.1 h
    omega
  rw [iso_unfold cla ins _ str hc hs, if_neg hi]
  have n1 : ins = 0xB2 ↔ ins.toNat = 0xB2 := byte_eq_iff _ _
  have n2 : ins = 0xB3 ↔ ins.toNat = 0xB3 := byte_eq_iff _ _
  have n3 : ins = 0xDA ↔ ins.toNat = 0xDA := byte_eq_iff _ _
  have n4 : ins = 0xDB ↔ ins.toNat = 0xDB := byte_eq_iff _ _
  by_cases hr : ins = 0xB2 ∨ ins = 0xB3
  · rw [if_pos hr, readRecord_spec cla ins p1 p2 _ _ h80 hr (case_supported cla ins p1 p2 b hb hsup),
      bind_ok]
    have e : (if readRecordCase ins (.ok b.case) then recordText p1.toNat p2.toNat else none) =
        isoText ins p1 p2 b := by
      rcases hr with rfl | rfl <;> cases b <;> rfl
    rw [e]
    exact finish_reads str hs _
  · rw [if_neg hr]
    by_cases hp : ins = 0xDA ∨ ins = 0xDB
    · rw [if_pos hp, putData_spec cla ins p1 p2 b hb hsup h80 hp, bind_ok]
      have e : (if !b.asks && b.hasData then
          some (if ins = 0xDA then putTagText p1 p2 else putFileText p1 p2) else none) =
          isoText ins p1 p2 b := by
        rcases hp with rfl | rfl <;> cases b <;> rfl
      rw [e]
      exact finish_reads str hs _
    · rw [if_neg hp]
      have e : isoText ins p1 p2 b = (isoIns ins).map ascii := by
        rw [ins_eq, isoText]
        rw [n1, n2] at hr
        rw [n3, n4] at hp
        rw [if_neg (fun h => hr (.inl h)), if_neg (fun h => hr (.inr h)),
          if_neg (fun h => hp (.inl h)), if_neg (fun h => hp (.inr h)), if_neg (by omega)]
      rw [e]
      cases isoIns ins with
      | none => rfl
      | some s =>
        obtain ⟨out, eo, h1, h2⟩ := reads_strncpy (str.set 0 0) (ascii s)
          (set_ne hs)
        exact ⟨out, by simp only [eo, bind_ok], by simpa using h1, by simpa using h2⟩

/-- **C140** (other instructions).  The description of the other instructions depends on nothing that
follows the instruction, also in commands with extended data. -/
theorem C140_name (cla ins : Byte) (rest : List Byte) (hc : cla.toNat < 128)
    (hi : ins.toNat ≠ 0xA4 ∧ ins.toNat ≠ 0xB2 ∧ ins.toNat ≠ 0xB3 ∧ ins.toNat ≠ 0xDA ∧ ins.toNat ≠ 0xDB)
    (str : List Byte) (hs : 4 ≤ str.length) :
    match insNames.lookup ins.toNat with
    | none => isoGetString (cla :: ins :: rest) str = .ok (false, str.set 0 0)
    | some t => ∃ out, isoGetString (cla :: ins :: rest) str = .ok (true, out) ∧ Reads str out t := by
  obtain ⟨i1, i2, i3, i4, i5⟩ := hi
  rw [iso_unfold cla ins _ str hc hs, if_neg (fun h => i1 (by rw [h]; rfl)),
    if_neg (by rintro (h | h) <;> subst h <;> contradiction),
    if_neg (by rintro (h | h) <;> subst h <;> contradiction)]
  have e := ins_eq ins
  rw [if_neg (by omega)] at e
  rw [← e]
  cases isoIns ins with
  | none => rfl
  | some s =>
    obtain ⟨out, eo, h1, h2⟩ := reads_strncpy (str.set 0 0) (ascii s) (set_ne hs)
    exact ⟨out, by simp only [eo, bind_ok], by simpa using h1, by simpa using h2⟩

/-- **C140** (extended PUT DATA), a disagreement.  PUT DATA with an extended data field is described by its
name alone, and only if the last byte of Lc with the first byte of the data happens to be the number of data
bytes (`C22_ext_unrecognised`); otherwise it is not described. -/
theorem C140_extended (cla ins p1 p2 hi lo d : Byte) (data : List Byte) (hc : cla.toNat < 128)
    (hi' : ins = 0xDA ∨ ins = 0xDB) (str : List Byte) (hs : 4 ≤ str.length) :
    (lo.toNat * 256 + d.toNat = data.length + 1 →
      ∃ out, isoGetString (cla :: ins :: p1 :: p2 :: (Apdu.Body.extData hi lo (d :: data)).enc) str = .ok (true, out) ∧
        Reads str out txt!"PUT DATA") ∧
    (lo.toNat * 256 + d.toNat ≠ data.length + 1 →
      isoGetString (cla :: ins :: p1 :: p2 :: (Apdu.Body.extData hi lo (d :: data)).enc) str =
        .ok (false, str.set 0 0)) := by
  have h80 : ¬ (cla &&& 0x80 ≠ 0 ∨ (ins ≠ 0xDA ∧ ins ≠ 0xDB)) := by
    rintro (h | h)
    · have := (class_bits cla).1.1 h
      omega
    · rcases hi' with e | e
      · exact h.1 e
      · exact h.2 e
  have hput : putDataString (cla :: ins :: p1 :: p2 :: (Apdu.Body.extData hi lo (d :: data)).enc) =
      .ok (if lo.toNat * 256 + d.toNat = data.length + 1 then some (ascii "PUT DATA") else none) := by
    rw [putDataString]
    simp only [Apdu.Body.enc, rd_cons_zero, rd_cons_succ, bind_ok]
    rw [if_neg h80, Apdu.apduCase]
    simp only [List.length_cons, rd_cons_zero, rd_cons_succ, bind_ok]
    rw [if_neg (by omega), if_neg (by omega), if_neg (by omega), if_neg (by simp), if_neg (by omega), if_pos (by omega)]
    by_cases h : lo.toNat * 256 + d.toNat = data.length + 1
    · rw [if_pos (by omega), if_pos (by omega), if_pos h]
      rfl
    · rw [if_neg h]
      by_cases h0 : lo.toNat * 256 + d.toNat ≠ 0
      · rw [if_pos h0, if_neg (by omega)]
        split <;> rfl
      · rw [if_neg h0]
        rfl
  rw [iso_unfold cla ins _ str hc hs, if_neg (by rcases hi' with e | e <;> subst e <;> decide),
    if_neg (by rcases hi' with e | e <;> subst e <;> decide), if_pos hi', hput, bind_ok]
  constructor
  · intro h
    rw [if_pos h, show (txt!"PUT DATA") = ascii "PUT DATA" by decide +kernel]
    exact finish_reads str hs (some (ascii "PUT DATA"))
  · intro h
    rw [if_neg h]
    exact finish_reads str hs none

theorem bind_some {α β : Type} {x : C α} {f : α → C β} {r : β} (h : (x >>= f) = .ok r) :
    ∃ a, x = .ok a ∧ f a = .ok r := by
  cases x with
  | error e => cases h
  | ok a => exact ⟨a, rfl, h⟩

theorem finish_false (str : List Byte) (hs : 4 ≤ str.length) (t : Option (List Byte))
    (out : List Byte) (h : finishText (str.set 0 0) t = .ok (false, out)) : out = str.set 0 0 := by
  have := finish_reads str hs t
  cases t with
  | none => simp only at this; rw [this] at h; cases h; rfl
  | some text =>
    obtain ⟨o, e, -⟩ := this
    rw [e] at h; cases h

theorem iso_false (c0 c1 : Byte) (rest str out : List Byte) (h0 : c0.toNat < 128)
    (hs : 4 ≤ str.length) (h : isoGetString (c0 :: c1 :: rest) str = .ok (false, out)) :
    out = str.set 0 0 := by
  rw [iso_unfold c0 c1 rest str h0 hs] at h
  split at h
  · obtain ⟨t, -, h⟩ := bind_some h
    exact finish_false str hs t out h
  split at h
  · obtain ⟨t, -, h⟩ := bind_some h
    exact finish_false str hs t out h
  split at h
  · obtain ⟨t, -, h⟩ := bind_some h
    exact finish_false str hs t out h
  split at h
  · cases h; rfl
  · obtain ⟨t, -, h⟩ := bind_some h
    cases h

/-- **C140** (proprietary commands, and all commands for EMV).  A proprietary command is described
by its name, GET DATA with its field; an unknown one gives code 2 and an empty string, class FF
code 1.  Any other command is described as above, with code 3 if it has no description. -/
theorem C140_emv (cla ins p1 p2 : Byte) (rest str : List Byte) (hs : 4 ≤ str.length) :
    (cla.toNat = 255 → emvGetString (cla :: ins :: p1 :: p2 :: rest) str = .ok (1, str.set 0 0)) ∧
    (128 ≤ cla.toNat → cla.toNat < 255 →
      match emvText ins p1 p2 with
      | none => emvGetString (cla :: ins :: p1 :: p2 :: rest) str = .ok (2, str.set 0 0)
      | some t => ∃ out, emvGetString (cla :: ins :: p1 :: p2 :: rest) str = .ok (0, out) ∧
          Reads str out t) ∧
    (cla.toNat < 128 → ∀ ok out,
      isoGetString (cla :: ins :: p1 :: p2 :: rest) str = .ok (ok, out) →
      ∃ code out', emvGetString (cla :: ins :: p1 :: p2 :: rest) str = .ok (code, out') ∧
        (ok = true → code = 0 ∧ out' = out) ∧
        (ok = false → code = 3 ∧ out' = str.set 0 0)) := by
  have hcb := class_bits cla
  have h1 : ¬ (cla :: ins :: p1 :: p2 :: rest).length = 0 := by simp
  have h2 : ¬ str.length = 0 := by omega
  have h3 : ¬ (str.set 0 0).length < 4 := by rw [List.length_set]; omega
  have hu : emvGetString (cla :: ins :: p1 :: p2 :: rest) str =
      (if cla = 0xFF then .ok (1, str.set 0 0)
      else if cla &&& 0x80 ≠ 0 then
        if ins = 0xCA then do
          let str ← snprintf (str.set 0 0) (ascii "GET DATA field " ++ hex2 p1 ++ hex2 p2)
          .ok (0, str)
        else match emvIns ins with
          | none => .ok (2, str.set 0 0)
          | some s => do
            let str ← strncpyTerm (str.set 0 0) (ascii s)
            .ok (0, str)
      else do
        let (ok, str) ← isoGetString (cla :: ins :: p1 :: p2 :: rest) (str.set 0 0)
        if ok then .ok (0, str)
        else do
          let str ← wr str 0 0
          .ok (3, str)) := by
    rw [emvGetString, if_neg h1, if_neg h2, wr_eq (by omega), bind_ok, if_neg h3]
    simp only [rd_cons_zero, rd_cons_succ, bind_ok]
    rfl
  refine ⟨fun h => ?_, fun hl hh => ?_, fun hl ok out ho => ?_⟩
  · rw [hu, if_pos (hcb.2.1.2 h)]
  · rw [if_neg (fun h => by have := hcb.2.1.1 h; omega), if_pos (hcb.1.2 hl)] at hu
    rw [hu, emvText]
    have n1 : ins = 0xCA ↔ ins.toNat = 0xCA := byte_eq_iff _ _
    by_cases hg : ins = 0xCA
    · rw [if_pos hg, if_pos (n1.1 hg)]
      have t1 : ascii "GET DATA field " = txt!"GET DATA field " := by decide +kernel
      obtain ⟨out, e, r1, r2⟩ := reads_snprintf (str.set 0 0)
        (ascii "GET DATA field " ++ hex2 p1 ++ hex2 p2) (set_ne hs)
      refine ⟨out, by rw [e, bind_ok], by simpa using r1, ?_⟩
      rw [← t1, ← hex4_eq, ← List.append_assoc]
      simpa using r2
    · rw [if_neg hg, if_neg (fun h => hg (n1.2 h)), ← emvIns_eq]
      cases emvIns ins with
      | none => rfl
      | some s =>
        obtain ⟨out, eo, r1, r2⟩ := reads_strncpy (str.set 0 0) (ascii s) (set_ne hs)
        exact ⟨out, by simp only [eo, bind_ok], by simpa using r1, by simpa using r2⟩
  · rw [if_neg (fun h => by have := hcb.2.1.1 h; omega),
      if_neg (fun h => by have := hcb.1.1 h; omega)] at hu
    have hi : isoGetString (cla :: ins :: p1 :: p2 :: rest) (str.set 0 0) = .ok (ok, out) := by
      rw [← ho, iso_unfold cla ins _ str hl hs, iso_unfold cla ins _ (str.set 0 0) hl
        (by rw [List.length_set]; exact hs), List.set_set]
    rw [hi, bind_ok] at hu
    cases ok with
    | true => exact ⟨0, out, hu, fun _ => ⟨rfl, rfl⟩, fun h => by cases h⟩
    | false =>
      have hout := iso_false cla ins _ str out hl hs ho
      subst hout
      refine ⟨3, str.set 0 0, ?_, fun h => (by cases h), fun _ => ⟨rfl, rfl⟩⟩
      rw [hu]
      simp only [Bool.false_eq_true, if_false]
      rw [wr_eq (by rw [List.length_set]; omega), bind_ok, List.set_set]

/-- **C67** (without Le).  A SELECT command that does not ask for a response is not described. -/
theorem C67_without_le (cla p1 p2 : Byte) (b : Apdu.Body) (hb : b.WF) (hsup : b.Supported)
    (hc : cla.toNat < 128) (ha : b.asks = false) (str : List Byte) (hs : 4 ≤ str.length) :
    isoGetString (cla :: 0xA4 :: p1 :: p2 :: b.enc) str = .ok (false, str.set 0 0) := by
  rw [iso_unfold cla 0xA4 _ str hc hs, if_pos rfl, selectString]
  simp only [rd_cons_zero, rd_cons_succ, bind_ok, case_supported cla 0xA4 p1 p2 b hb hsup]
  have h80 : ¬ (cla &&& 0x80 ≠ 0 ∨ (0xA4 : Byte) ≠ 0xA4) := by
    rintro (h | h)
    · have := (class_bits cla).1.1 h
      omega
    · exact h rfl
  rw [if_neg h80]
  cases b with
  | none => rfl
  | shortData lc data => rfl
  | shortLe le => cases ha
  | extLe hi lo => cases ha
  | shortDataLe lc data le => cases ha
  | extData hi lo data => exact absurd hsup id
  | extDataLe hi lo data x y => exact absurd hsup id

/-- **C67** (without data).  A SELECT command without data is described only if it has the short form of Le and both
parameters are zero; the text for that is the one of `C67_master_file`. -/
theorem C67_without_data (cla p1 p2 : Byte) (b : Apdu.Body) (hb : b.WF) (hsup : b.Supported) (hc : cla.toNat < 128)
    (hd : b.enc.length = 1 ∧ (p1 ≠ 0 ∨ p2 ≠ 0) ∨ ∃ hi lo, b = .extLe hi lo) (str : List Byte) (hs : 4 ≤ str.length) :
    isoGetString (cla :: 0xA4 :: p1 :: p2 :: b.enc) str = .ok (false, str.set 0 0) := by
  rw [iso_unfold cla 0xA4 _ str hc hs, if_pos rfl, selectString]
  simp only [rd_cons_zero, rd_cons_succ, bind_ok, case_supported cla 0xA4 p1 p2 b hb hsup]
  have h80 : ¬ (cla &&& 0x80 ≠ 0 ∨ (0xA4 : Byte) ≠ 0xA4) := by
    rintro (h | h)
    · have := (class_bits cla).1.1 h
      omega
    · exact h rfl
  rw [if_neg h80]
  rcases hd with ⟨hl, hp⟩ | ⟨hi, lo, rfl⟩
  · cases b with
    | none => simp [Apdu.Body.enc] at hl
    | shortData lc data => rfl
    | shortLe le =>
      have : ¬ (p1 = 0 ∧ p2 = 0) := by rintro ⟨rfl, rfl⟩; simp at hp
      show (if p1 = 0 ∧ p2 = 0 then _ else _) >>= _ = _
      rw [if_neg this]
      rfl
    | extLe hi lo => simp [Apdu.Body.enc] at hl
    | shortDataLe lc data le => simp [Apdu.Body.enc] at hl
    | extData hi lo data => exact absurd hsup id
    | extDataLe hi lo data x y => exact absurd hsup id
  · rfl

/-! ## Cases -/

/-- SELECT without data, for the next occurrence and with a long Le. -/
example : isoGetString [0, 0xA4, 0, 2, 0] [1, 2, 3, 4] = .ok (false, [0, 2, 3, 4]) := by decide +kernel
example : isoGetString [0, 0xA4, 0, 0, 0, 0, 0] [1, 2, 3, 4] = .ok (false, [0, 2, 3, 4]) := by decide +kernel

/-- One byte of extended data, and 257 bytes that begin with 01. -/
example : isoGetString ([0, 0xDA, 1, 0] ++ (Apdu.Body.extData 0 1 [0x55]).enc) [1, 2, 3, 4] =
    .ok (false, [0, 2, 3, 4]) := by decide +kernel
example : isoGetString ([0, 0xDA, 1, 0] ++ (Apdu.Body.extData 1 1 (1 :: List.replicate 256 0x55)).enc)
    (List.replicate 9 1) = .ok (true, txt!"PUT DATA" ++ [0]) := by decide +kernel

example : isoText 0xB2 1 0x0C (.shortLe 0) =
    some txt!"READ RECORD from short EF 1, record number 1" := by decide +kernel
example : isoText 0xB2 0 0xFA (.extLe 0 0) =
    some txt!"READ RECORD from short EF 31, next occurence of current record" := by decide +kernel
example : isoText 0xB2 1 0x0C .none = none := by decide +kernel
example : isoText 0xDA 0x9F 0x36 (.shortData 1 [7]) = some txt!"PUT DATA for BER-TLV field 9F36" := by
  decide +kernel
example : isoText 0xDB 0x2F 0x01 (.shortData 1 [7]) = some txt!"PUT DATA for file 2F01" := by
  decide +kernel
/-- The text "PUT DATA for current EF" (iso7816_strings.c:389) is never given: it asks for a command
without data, which PUT DATA always has. -/
example : isoText 0xDB 0 0 (.shortData 1 [7]) = some txt!"PUT DATA" := by decide +kernel
example : isoText 0x84 0 0 (.shortLe 8) = some txt!"GET CHALLENGE" := by decide +kernel
example : emvText 0xAE 0x80 0 = some txt!"GENERATE AC" ∧
    emvText 0xCA 0x9F 0x17 = some txt!"GET DATA field 9F17" ∧ emvText 0xA4 0 0 = none := by
  decide +kernel
example : isoGetString ([0, 0xA4, 4, 0] ++ (Apdu.Body.shortData 1 [0xA0]).enc) [1, 2, 3, 4] =
    .ok (false, [0, 2, 3, 4]) := by decide +kernel

end Verif.Capdu
