import Verif.Aid
import Verif.Atr
import Verif.Fields
import Verif.Dol
import Verif.Str
import Verif.Iso8859
import Verif.RepoTestDecode

/-! # The remaining tests of the project on the model

`emv_aid_info_test.c`, `emv_atr_parse_test.c`, `emv_cvmlist_test.c`, `emv_dol_test.c`, `emv_str_parse_test.c`,
`iso8859_test.c` (with `ISO8859_SIMPLE`), `isocodes_test.c` and `mcc_test.c`.  These are tests of the model, not
proofs. -/

set_option autoImplicit false

namespace Verif.RepoTest.Fields
open Verif

/-! ## `emv_aid_info_test.c` -/

/-- tests/emv_aid_info_test.c:33. -/
example : Aid.aidInfo [0xA0, 0x00, 0x00, 0x00, 0x03, 0x20, 0x20] = .ok (0, .visa, .visaVpay) := by decide +kernel

/-- tests/emv_aid_info_test.c:44. -/
example : Aid.aidInfo [0xA0, 0x00, 0x00, 0x00, 0x04, 0x60, 0x00] = .ok (0, .mastercard, .mastercardCirrus) :=
    by decide +kernel

/-- tests/emv_aid_info_test.c:55. -/
example : Aid.aidInfo [0xA0, 0x00, 0x00, 0x01, 0x52, 0x40, 0x10] = .ok (0, .discover, .discoverUsaDebit) :=
    by decide +kernel

/-- tests/emv_aid_info_test.c:66. -/
example : Aid.aidInfo [0xA0, 0x00, 0x00, 0x03, 0x24, 0x10, 0x10] = .ok (0, .discover, .discoverZip) :=
    by decide +kernel

/-- tests/emv_aid_info_test.c:77. -/
example : Aid.aidInfo [0xA0, 0x00, 0x00, 0x03, 0x33, 0x01, 0x01, 0x03] = .ok (0, .unionpay, .unionpayQuasiCredit) :=
    by decide +kernel

/-- tests/emv_aid_info_test.c:88. -/
example : Aid.aidInfo [0xA0, 0x00, 0x00, 0x03, 0x84, 0x20] = .ok (0, .eftpos, .eftposCheque) := by decide +kernel

/-- tests/emv_aid_info_test.c:99. -/
example : Aid.aidInfo [0xA0, 0x00, 0x00, 0x03, 0x37, 0x20, 0x20] = .ok (0, .gimuemoa, .unknown) := by decide +kernel

/-! ## `emv_atr_parse_test.c` -/

/-- basic ATR for T=0: tests/emv_atr_parse_test.c:51. -/
example : Atr.emvParse [0x3B, 0x60, 0x00, 0x00] = .ok 0 := by decide +kernel

/-- basic ATR for T=1: tests/emv_atr_parse_test.c:59. -/
example : Atr.emvParse [0x3B, 0xE0, 0x00, 0xFF, 0x81, 0x31, 0x7C, 0x41, 0x92] = .ok 0 := by decide +kernel

/-- non-EMV ATR: tests/emv_atr_parse_test.c:67. -/
example : Atr.emvParse [0x3B, 0xDA, 0x18, 0xFF, 0x81, 0xB1, 0xFE, 0x75, 0x1F, 0x03, 0x00, 0x31, 0xF5, 0x73, 0xC7,
    0x8A, 0x40, 0x00, 0x90, 0x00, 0xB0] = .ok 1 := by decide +kernel

/-- complex ATR for T=0: tests/emv_atr_parse_test.c:75. -/
example : Atr.emvParse [0x3B, 0xF4, 0x13, 0x00, 0xFF, 0xD0, 0x00, 0x0A, 0x3F, 0x03, 0x00, 0xDE, 0xAD, 0xBE, 0xEF,
    0xDC] = .ok 0 := by decide +kernel

/-- complex ATR for T=0 with invalid TA1: tests/emv_atr_parse_test.c:83. -/
example : Atr.emvParse [0x3B, 0xF4, 0x14, 0x00, 0xFF, 0xD0, 0x00, 0x0A, 0x3F, 0x03, 0x00, 0xDE, 0xAD, 0xBE, 0xEF,
    0xDB] = .ok 1 := by decide +kernel

/-- complex ATR for T=0 with invalid TC1: tests/emv_atr_parse_test.c:95. -/
example : Atr.emvParse [0x3B, 0xF4, 0x13, 0x00, 0x01, 0xD0, 0x00, 0x0A, 0x3F, 0x03, 0x00, 0xDE, 0xAD, 0xBE, 0xEF,
    0x22] = .ok 1 := by decide +kernel

/-- complex ATR for T=0 with invalid TD1: tests/emv_atr_parse_test.c:107. -/
example : Atr.emvParse [0x3B, 0xF4, 0x13, 0x00, 0xFF, 0xD2, 0x00, 0x0A, 0x3F, 0x03, 0x00, 0xDE, 0xAD, 0xBE, 0xEF,
    0xDE] = .ok 1 := by decide +kernel

/-- complex ATR for T=0 with invalid TA2: tests/emv_atr_parse_test.c:119. -/
example : Atr.emvParse [0x3B, 0xF4, 0x13, 0x00, 0xFF, 0xD0, 0x10, 0x0A, 0x3F, 0x03, 0x00, 0xDE, 0xAD, 0xBE, 0xEF,
    0xCC] = .ok 1 := by decide +kernel

/-- complex ATR for T=0 with invalid TA2: tests/emv_atr_parse_test.c:131. -/
example : Atr.emvParse [0x3B, 0xF4, 0x13, 0x00, 0xFF, 0xD0, 0x01, 0x0A, 0x3F, 0x03, 0x00, 0xDE, 0xAD, 0xBE, 0xEF,
    0xDD] = .ok 1 := by decide +kernel

/-- complex ATR for T=0 with invalid TC2: tests/emv_atr_parse_test.c:143. -/
example : Atr.emvParse [0x3B, 0xF4, 0x13, 0x00, 0xFF, 0xD0, 0x00, 0x00, 0x3F, 0x03, 0x00, 0xDE, 0xAD, 0xBE, 0xEF,
    0xD6] = .ok 1 := by decide +kernel

/-- complex ATR for T=0 with invalid TD2: tests/emv_atr_parse_test.c:155. -/
example : Atr.emvParse [0x3B, 0xF4, 0x13, 0x00, 0xFF, 0xD0, 0x00, 0x0A, 0x30, 0x03, 0x00, 0xDE, 0xAD, 0xBE, 0xEF,
    0xD3] = .ok 1 := by decide +kernel

/-- complex ATR for T=15 with invalid TA3: tests/emv_atr_parse_test.c:167. -/
example : Atr.emvParse [0x3B, 0xF4, 0x13, 0x00, 0xFF, 0xD0, 0x00, 0x0A, 0x3F, 0x08, 0x00, 0xDE, 0xAD, 0xBE, 0xEF,
    0xD7] = .ok 1 := by decide +kernel

/-- complex ATR for T=1: tests/emv_atr_parse_test.c:179. -/
example : Atr.emvParse [0x3B, 0xF4, 0x13, 0x00, 0xFF, 0x91, 0x01, 0x71, 0x7C, 0x41, 0x00, 0xDE, 0xAD, 0xBE, 0xEF,
    0xE6] = .ok 0 := by decide +kernel

/-- complex ATR for T=1 with invalid TA1: tests/emv_atr_parse_test.c:187. -/
example : Atr.emvParse [0x3B, 0xF4, 0x23, 0x00, 0xFF, 0x91, 0x01, 0x71, 0x7C, 0x41, 0x00, 0xDE, 0xAD, 0xBE, 0xEF,
    0xD6] = .ok 1 := by decide +kernel

/-- complex ATR for T=1 with invalid TC1: tests/emv_atr_parse_test.c:199. -/
example : Atr.emvParse [0x3B, 0xF4, 0x13, 0x00, 0x01, 0x91, 0x01, 0x71, 0x7C, 0x41, 0x00, 0xDE, 0xAD, 0xBE, 0xEF,
    0x18] = .ok 1 := by decide +kernel

/-- complex ATR for T=1 with invalid TD1: tests/emv_atr_parse_test.c:211. -/
example : Atr.emvParse [0x3B, 0xF4, 0x13, 0x00, 0xFF, 0x92, 0x01, 0x71, 0x7C, 0x41, 0x00, 0xDE, 0xAD, 0xBE, 0xEF,
    0xE5] = .ok 1 := by decide +kernel

/-- complex ATR for T=1 with invalid TA2: tests/emv_atr_parse_test.c:223. -/
example : Atr.emvParse [0x3B, 0xF4, 0x13, 0x00, 0xFF, 0x91, 0x11, 0x71, 0x7C, 0x41, 0x00, 0xDE, 0xAD, 0xBE, 0xEF,
    0xF6] = .ok 1 := by decide +kernel

/-- complex ATR for T=1 with invalid TA2: tests/emv_atr_parse_test.c:235. -/
example : Atr.emvParse [0x3B, 0xF4, 0x13, 0x00, 0xFF, 0x91, 0x00, 0x71, 0x7C, 0x41, 0x00, 0xDE, 0xAD, 0xBE, 0xEF,
    0xE7] = .ok 1 := by decide +kernel

/-- complex ATR for T=1 with invalid TD2: tests/emv_atr_parse_test.c:247. -/
example : Atr.emvParse [0x3B, 0xF4, 0x13, 0x00, 0xFF, 0x91, 0x01, 0x70, 0x7C, 0x41, 0x00, 0xDE, 0xAD, 0xBE, 0xEF,
    0xE7] = .ok 1 := by decide +kernel

/-- complex ATR for T=1 with invalid TA3: tests/emv_atr_parse_test.c:259. -/
example : Atr.emvParse [0x3B, 0xF4, 0x13, 0x00, 0xFF, 0x91, 0x01, 0x71, 0x0F, 0x41, 0x00, 0xDE, 0xAD, 0xBE, 0xEF,
    0x95] = .ok 1 := by decide +kernel

/-- complex ATR for T=1 with invalid TB3: tests/emv_atr_parse_test.c:271. -/
example : Atr.emvParse [0x3B, 0xF4, 0x13, 0x00, 0xFF, 0x91, 0x01, 0x71, 0x7C, 0x46, 0x00, 0xDE, 0xAD, 0xBE, 0xEF,
    0xE1] = .ok 1 := by decide +kernel

/-- complex ATR for T=1 with invalid TC3: tests/emv_atr_parse_test.c:283. -/
example : Atr.emvParse [0x3B, 0xF4, 0x13, 0x00, 0xFF, 0x91, 0x01, 0x71, 0x7C, 0x41, 0x01, 0xDE, 0xAD, 0xBE, 0xEF,
    0xE7] = .ok 1 := by decide +kernel

/-! ## `emv_cvmlist_test.c` -/

/-- The first code which is not 0, the amounts and the bytes of the rules. -/
def cvm (buf : List Byte) : C (Int × List Nat × List Byte) := do
  match ← Fields.cvmInit buf with
  | .error c => .ok (c, [], [])
  | .ok (x, y, itr) => do
    let (rs, c) ← Fields.cvmIterate (itr.length + 1) itr
    .ok (c, [x, y], rs.flatMap fun r => [r.cvm, r.cond])

/-- Test 1: tests/emv_cvmlist_test.c:28. -/
example : cvm [0x00, 0x01, 0x86, 0xA0, 0x00, 0x00, 0x03, 0xE8] =
    .ok (2, [], []) := by decide +kernel

/-- Test 2: tests/emv_cvmlist_test.c:30. -/
example : cvm [0x00, 0x01, 0x86, 0xA0, 0x00, 0x00, 0x03, 0xE8, 0x1E, 0x03, 0x42] =
    .ok (1, [], []) := by decide +kernel

/-- Test 3: tests/emv_cvmlist_test.c:32. -/
example : cvm [0x00, 0x01, 0x86, 0xA0, 0x00, 0x00, 0x03, 0xE8, 0x1E, 0x03] =
    .ok (0, [100000, 1000], [0x1E, 0x03]) := by decide +kernel

/-- Test 4: tests/emv_cvmlist_test.c:39. -/
example : cvm [0x00, 0x01, 0x86, 0xA0, 0x00, 0x00, 0x03, 0xE8, 0x44, 0x03] =
    .ok (0, [100000, 1000], [0x44, 0x03]) := by decide +kernel

/-- Test 5: tests/emv_cvmlist_test.c:46. -/
example : cvm [0x00, 0x01, 0x86, 0xA0, 0x00, 0x00, 0x03, 0xE8, 0x42, 0x01] =
    .ok (0, [100000, 1000], [0x42, 0x01]) := by decide +kernel

/-- Test 6: tests/emv_cvmlist_test.c:53. -/
example : cvm [0x00, 0x00, 0x00, 0x00, 0x00, 0x00, 0x00, 0x00, 0x42, 0x01, 0x44, 0x03, 0x41, 0x03, 0x5E, 0x03, 0x42,
    0x03, 0x1F, 0x03] =
    .ok (0, [0, 0], [0x42, 0x01, 0x44, 0x03, 0x41, 0x03, 0x5E, 0x03, 0x42, 0x03, 0x1F, 0x03]) := by decide +kernel

/-! ## `emv_dol_test.c` -/

/-- The entries read and the code at the end. -/
def entries : Nat → List Byte → C (List (Nat × Nat) × Int)
  | 0, _ => .error .nonTerm
  | n + 1, itr => do
    let (rest, r) ← Dol.itrNext itr
    match r with
    | .ok _ e => do
      let (es, c) ← entries n rest
      .ok ((e.tag, e.length) :: es, c)
    | .eod => .ok ([], 0)
    | .err c => .ok ([], c)

/-- Test 1: tests/emv_dol_test.c:33. -/
example : entries 20 [0x9F, 0x02, 0x06, 0x9F, 0x03, 0x06, 0x9F, 0x1A, 0x02, 0x95, 0x05, 0x5F, 0x2A, 0x02, 0x9A,
    0x03, 0x9C, 0x01, 0x9F, 0x37, 0x04] =
    .ok ([(0x9F02, 6), (0x9F03, 6), (0x9F1A, 2), (0x95, 5), (0x5F2A, 2), (0x9A, 3), (0x9C, 1), (0x9F37, 4)], 0) :=
        by decide +kernel

/-- Test 2: tests/emv_dol_test.c:45. -/
example : entries 20 [0x9F, 0x02, 0x06, 0x9F, 0x03, 0x06, 0x9F, 0x1A, 0x02, 0x95] =
    .ok ([(0x9F02, 6), (0x9F03, 6), (0x9F1A, 2)], -2) := by decide +kernel

/-- Test 3: tests/emv_dol_test.c:52. -/
example : entries 20 [0x9F, 0x02, 0x06, 0x9F, 0x03, 0x06, 0x9F, 0x1A, 0x02, 0x95, 0x05, 0x5F, 0x2A, 0x02, 0x9A,
    0x03, 0x9C, 0x01, 0x9F, 0x37] =
    .ok ([(0x9F02, 6), (0x9F03, 6), (0x9F1A, 2), (0x95, 5), (0x5F2A, 2), (0x9A, 3), (0x9C, 1)], -5) :=
        by decide +kernel

/-- Test 4: tests/emv_dol_test.c:63. -/
example : Dol.computeDataLength [0x9F, 0x02, 0x06, 0x9F, 0x03, 0x06, 0x9F, 0x1A, 0x02, 0x95, 0x05, 0x5F, 0x2A, 0x02,
    0x9A, 0x03, 0x9C, 0x01, 0x9F, 0x37, 0x04] = .ok 29 := by decide +kernel

/-- Test 5: tests/emv_dol_test.c:66. -/
example : Dol.computeDataLength [0x9F, 0x02, 0x06, 0x9F, 0x03, 0x06, 0x9F, 0x1A, 0x02, 0x95, 0x05, 0x5F, 0x2A, 0x02,
    0x9A, 0x03, 0x9C, 0x01, 0x9F, 0x37] = .ok (-3) := by decide +kernel

/-- Test 6: tests/emv_dol_test.c:68. -/
example : (Dol.buildData [0x9F, 0x02, 0x06, 0x9F, 0x03, 0x06, 0x9F, 0x1A, 0x02, 0x95, 0x05, 0x5F, 0x2A, 0x02, 0x9A,
    0x03, 0x9C, 0x01, 0x9F, 0x37, 0x04]
    [[⟨0x9C, 0, [0x09]⟩, ⟨0x9A, 0, [0x24, 0x02, 0x17]⟩, ⟨0x5F2A, 0, [0x09, 0x78]⟩, ⟨0x9F02, 0, [0x00, 0x01, 0x23,
        0x45, 0x67, 0x89]⟩, ⟨0x9F03, 0, [0x00, 0x09, 0x87, 0x65, 0x43, 0x21]⟩, ⟨0x9F37, 0, [0xDE, 0xAD, 0xBE,
        0xEF]⟩],
     [⟨0x9F1A, 0, [0x05, 0x28]⟩, ⟨0x9F37, 0, [0xDE, 0xAD, 0xCA, 0xFE]⟩, ⟨0x95, 0, [0x12, 0x34, 0x55, 0x43, 0x21]⟩]]
    ((List.range 256).map UInt8.ofNat)).map (fun r => (r.1, r.2.1.take r.2.2)) =
    .ok (0, [0x00, 0x01, 0x23, 0x45, 0x67, 0x89, 0x00, 0x09, 0x87, 0x65, 0x43, 0x21, 0x05, 0x28, 0x12, 0x34, 0x55,
        0x43, 0x21, 0x09, 0x78, 0x24, 0x02, 0x17, 0x09, 0xDE, 0xAD, 0xBE, 0xEF]) := by decide +kernel

/-- Test 7: tests/emv_dol_test.c:93. -/
example : (Dol.buildData [0x9F, 0x02, 0x03, 0x9F, 0x03, 0x07, 0x9F, 0x1A, 0x02, 0x95, 0x06, 0x5F, 0x2A, 0x02, 0x9A,
    0x00, 0x9C, 0x03, 0x9F, 0x37, 0x03]
    [[⟨0x9C, 0, [0x09]⟩, ⟨0x9A, 0, [0x24, 0x02, 0x17]⟩, ⟨0x5F2A, 0, [0x09, 0x78]⟩, ⟨0x9F02, 0, [0x00, 0x01, 0x23,
        0x45, 0x67, 0x89]⟩, ⟨0x9F03, 0, [0x00, 0x09, 0x87, 0x65, 0x43, 0x21]⟩, ⟨0x9F37, 0, [0xDE, 0xAD, 0xBE,
        0xEF]⟩],
     [⟨0x9F1A, 0, [0x05, 0x28]⟩, ⟨0x9F37, 0, [0xDE, 0xAD, 0xCA, 0xFE]⟩, ⟨0x95, 0, [0x12, 0x34, 0x55, 0x43, 0x21]⟩]]
    ((List.range 256).map UInt8.ofNat)).map (fun r => (r.1, r.2.1.take r.2.2)) =
    .ok (0, [0x45, 0x67, 0x89, 0x00, 0x00, 0x09, 0x87, 0x65, 0x43, 0x21, 0x05, 0x28, 0x12, 0x34, 0x55, 0x43, 0x21,
        0x00, 0x09, 0x78, 0x00, 0x00, 0x09, 0xDE, 0xAD, 0xBE]) := by decide +kernel

/-! ## `emv_str_parse_test.c` -/

/-- tests/emv_str_parse_test.c:41. -/
example : Str.strToCn (txt!"123456" ++ [0]) (List.replicate 2 0x00) = .ok (0, [0x12, 0x34]) := by decide +kernel

/-- tests/emv_str_parse_test.c:55. -/
example : Str.strToCn (txt!"123456" ++ [0]) (List.replicate 3 0x00) = .ok (0, [0x12, 0x34, 0x56]) := by decide +kernel

/-- tests/emv_str_parse_test.c:69. -/
example : Str.strToCn (txt!"123456" ++ [0]) (List.replicate 4 0x00) = .ok (0, [0x12, 0x34, 0x56, 0xFF]) :=
    by decide +kernel

/-- tests/emv_str_parse_test.c:83. -/
example : Str.strToCn (txt!"12345" ++ [0]) (List.replicate 3 0x00) = .ok (0, [0x12, 0x34, 0x5F]) := by decide +kernel

/-- tests/emv_str_parse_test.c:97. -/
example : Str.strToCn (txt!"12345" ++ [0]) (List.replicate 4 0x00) = .ok (0, [0x12, 0x34, 0x5F, 0xFF]) :=
    by decide +kernel

/-- tests/emv_str_parse_test.c:111. -/
example : (Str.strToCn (txt!"12B456" ++ [0]) (List.replicate 4 0x00)).map (·.1) = .ok 1 := by decide +kernel

/-- tests/emv_str_parse_test.c:120. -/
example : (Str.strToCn (txt!"123F56" ++ [0]) (List.replicate 4 0x00)).map (·.1) = .ok 1 := by decide +kernel

/-- tests/emv_str_parse_test.c:129. -/
example : Str.strToCn (txt!"123456A" ++ [0]) (List.replicate 3 0x00) = .ok (0, [0x12, 0x34, 0x56]) :=
    by decide +kernel

/-- tests/emv_str_parse_test.c:144. -/
example : Str.strToN (txt!"123456" ++ [0]) (List.replicate 2 0xFF) = .ok (0, [0x34, 0x56]) := by decide +kernel

/-- tests/emv_str_parse_test.c:158. -/
example : Str.strToN (txt!"123456" ++ [0]) (List.replicate 3 0xFF) = .ok (0, [0x12, 0x34, 0x56]) := by decide +kernel

/-- tests/emv_str_parse_test.c:172. -/
example : Str.strToN (txt!"123456" ++ [0]) (List.replicate 4 0xFF) = .ok (0, [0x00, 0x12, 0x34, 0x56]) :=
    by decide +kernel

/-- tests/emv_str_parse_test.c:186. -/
example : Str.strToN (txt!"12345" ++ [0]) (List.replicate 3 0xFF) = .ok (0, [0x01, 0x23, 0x45]) := by decide +kernel

/-- tests/emv_str_parse_test.c:200. -/
example : Str.strToN (txt!"12345" ++ [0]) (List.replicate 4 0xFF) = .ok (0, [0x00, 0x01, 0x23, 0x45]) :=
    by decide +kernel

/-- tests/emv_str_parse_test.c:214. -/
example : (Str.strToN (txt!"12B456" ++ [0]) (List.replicate 4 0x00)).map (·.1) = .ok 1 := by decide +kernel

/-- tests/emv_str_parse_test.c:223. -/
example : (Str.strToN (txt!"123F56" ++ [0]) (List.replicate 4 0x00)).map (·.1) = .ok 1 := by decide +kernel

/-- tests/emv_str_parse_test.c:232. -/
example : Str.strToN (txt!"A123456" ++ [0]) (List.replicate 3 0x00) = .ok (0, [0x12, 0x34, 0x56]) := by decide +kernel

/-- The common character set (tests/emv_str_parse_test.c:244-247, tests/iso8859_test.c:72-76). -/
def common : List Byte := (List.range 95).map fun i => UInt8.ofNat (0x20 + i)

/-- tests/emv_str_parse_test.c:248. -/
example : Str.formatAnsCcs common (List.replicate 96 0xFF) = .ok (0, common ++ [0]) := by decide +kernel

/-! ## `iso8859_test.c` -/

/-- The common character set: tests/iso8859_test.c:79-101. -/
example : Iso8859.isSupported 1 = true ∧ (Iso8859.toUtf8 1 common (List.replicate 388 0)).map
    (fun r => (r.1, r.2.take 95)) = .ok (0, common) := by decide +kernel

/-- The upper half of ISO 8859-1 (tests/iso8859_test.c:37), in UTF-8. -/
def upper : List Byte := [0xC2, 0xA0, 0xC2, 0xA1, 0xC2, 0xA2, 0xC2, 0xA3, 0xC2, 0xA4, 0xC2, 0xA5, 0xC2, 0xA6, 0xC2,
    0xA7, 0xC2, 0xA8, 0xC2, 0xA9, 0xC2, 0xAA, 0xC2, 0xAB, 0xC2, 0xAC, 0xC2, 0xAD, 0xC2, 0xAE, 0xC2, 0xAF, 0xC2,
    0xB0, 0xC2, 0xB1, 0xC2, 0xB2, 0xC2, 0xB3, 0xC2, 0xB4, 0xC2, 0xB5, 0xC2, 0xB6, 0xC2, 0xB7, 0xC2, 0xB8, 0xC2,
    0xB9, 0xC2, 0xBA, 0xC2, 0xBB, 0xC2, 0xBC, 0xC2, 0xBD, 0xC2, 0xBE, 0xC2, 0xBF, 0xC3, 0x80, 0xC3, 0x81, 0xC3,
    0x82, 0xC3, 0x83, 0xC3, 0x84, 0xC3, 0x85, 0xC3, 0x86, 0xC3, 0x87, 0xC3, 0x88, 0xC3, 0x89, 0xC3, 0x8A, 0xC3,
    0x8B, 0xC3, 0x8C, 0xC3, 0x8D, 0xC3, 0x8E, 0xC3, 0x8F, 0xC3, 0x90, 0xC3, 0x91, 0xC3, 0x92, 0xC3, 0x93, 0xC3,
    0x94, 0xC3, 0x95, 0xC3, 0x96, 0xC3, 0x97, 0xC3, 0x98, 0xC3, 0x99, 0xC3, 0x9A, 0xC3, 0x9B, 0xC3, 0x9C, 0xC3,
    0x9D, 0xC3, 0x9E, 0xC3, 0x9F, 0xC3, 0xA0, 0xC3, 0xA1, 0xC3, 0xA2, 0xC3, 0xA3, 0xC3, 0xA4, 0xC3, 0xA5, 0xC3,
    0xA6, 0xC3, 0xA7, 0xC3, 0xA8, 0xC3, 0xA9, 0xC3, 0xAA, 0xC3, 0xAB, 0xC3, 0xAC, 0xC3, 0xAD, 0xC3, 0xAE, 0xC3,
    0xAF, 0xC3, 0xB0, 0xC3, 0xB1, 0xC3, 0xB2, 0xC3, 0xB3, 0xC3, 0xB4, 0xC3, 0xB5, 0xC3, 0xB6, 0xC3, 0xB7, 0xC3,
    0xB8, 0xC3, 0xB9, 0xC3, 0xBA, 0xC3, 0xBB, 0xC3, 0xBC, 0xC3, 0xBD, 0xC3, 0xBE, 0xC3, 0xBF]

/-- The higher characters and a terminator: tests/iso8859_test.c:104-158. -/
example : (Iso8859.toUtf8 1 ((List.range 96).map (fun i => UInt8.ofNat (0xA0 + i)) ++ [0]) (List.replicate 388 0)).map
    (fun r => (r.1, r.2.takeWhile (· ≠ 0))) = .ok (0, upper) := by decide +kernel

/-- The empty string: tests/iso8859_test.c:160-180. -/
example : (Iso8859.toUtf8 1 [0] (List.replicate 388 0xFF)).map (fun r => (r.1, r.2.head?)) = .ok (0, some 0) := by
  decide +kernel

/-! ## `isocodes_test.c` -/

/-- Three documents of iso-codes with some of their entries. -/
def isoLib : Codes.Lib :=
  { lib with file := fun p =>
      if p = txt!"/iso_639-2.json" then some (.obj [(txt!"639-2", .arr [
        language txt!"fr" txt!"fra" txt!"French",
        .obj [(txt!"alpha_3", .str txt!"frr"), (txt!"name", .str txt!"Northern Frisian")]])])
      else if p = txt!"mcc.json" then some (.arr [
        .obj [(txt!"mcc", .str txt!"5999"),
          (txt!"edited_description", .str txt!"Miscellaneous and Specialty Retail Stores")],
        .obj [(txt!"mcc", .str txt!"7629"),
          (txt!"edited_description", .str txt!"Electrical And Small Appliance Repair Shops")]])
      else lib.file p }

/-- After `isocodes_init(NULL)`. -/
def loaded {α : Type} (f : Codes.State → C α) : Option α :=
  match Codes.isoInit isoLib none Codes.fresh with
  | .ok (.ok (0, s)) => (f s).toOption
  | _ => none

/-- tests/isocodes_test.c:51. -/
example : loaded (Codes.countryByAlpha2 · txt!"NL") = some (some txt!"Netherlands") := by decide +kernel

/-- tests/isocodes_test.c:61. -/
example : loaded (Codes.countryByAlpha3 · txt!"NLD") = some (some txt!"Netherlands") := by decide +kernel

/-- tests/isocodes_test.c:71. -/
example : loaded (Codes.countryByNumeric · 528) = some (some txt!"Netherlands") := by decide +kernel

/-- tests/isocodes_test.c:81. -/
example : loaded (Codes.currencyByAlpha3 · txt!"EUR") = some (some txt!"Euro") := by decide +kernel

/-- tests/isocodes_test.c:91. -/
example : loaded (Codes.currencyByNumeric · 978) = some (some txt!"Euro") := by decide +kernel

/-- tests/isocodes_test.c:101. -/
example : loaded (Codes.languageByAlpha2 · txt!"fr") = some (some txt!"French") := by decide +kernel

/-- tests/isocodes_test.c:111. -/
example : loaded (Codes.languageByAlpha3 · txt!"frr") = some (some txt!"Northern Frisian") := by decide +kernel

/-! ## `mcc_test.c` -/

/-- tests/mcc_test.c:31-70. -/
example : (Codes.mccInit isoLib (some txt!"mcc.json") []).1 = 0 ∧
    [0, 1, 5999, 7629].map (Codes.mccLookup { Codes.fresh with
      mcc := (Codes.mccInit isoLib (some txt!"mcc.json") []).2 }) =
    [none, none, some txt!"Miscellaneous and Specialty Retail Stores",
      some txt!"Electrical And Small Appliance Repair Shops"] := by decide +kernel

end Verif.RepoTest.Fields
