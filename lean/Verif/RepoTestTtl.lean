import Verif.Ttl

/-! # The tests `emv_ttl_tpdu_test.c` and `emv_ttl_pcsc_test.c` on the model of the transport layer

Each test of the project lists what must be transmitted and what the card answers.  The model is run on the answers;
it must transmit exactly the listed bytes, use all answers, and give the result, the data and the status the test
asks for.  The emulated reader of the project (tests/emv_cardreader_emul.c:28-69) checks the same.  These are tests
of the model, not proofs. -/

set_option autoImplicit false

namespace Verif.RepoTest.Ttl
open Verif Verif.Ttl

/-- Everything transmitted, the code, the bytes returned and SW1-SW2; `none` if not all answers are used. -/
def direct (x : C (List (List Byte) × Outcome)) : Option (List (List Byte) × Int × List Byte × Nat) :=
  match x with
  | .ok (log, .done d []) => some (log, d.code, d.rbuf.take d.rlen, d.sw)
  | _ => none

/-- The same for the wrappers. -/
def wrapped (x : C (List (List Byte) × WOutcome)) : Option (List (List Byte) × Int × List Byte × Nat) :=
  match x with
  | .ok (log, .done d []) => some (log, d.code, d.data, d.sw)
  | _ => none

/-! ## `emv_ttl_tpdu_test.c` -/

/-- `test_tpdu_case_1_normal` (tests/emv_ttl_tpdu_test.c:35, 327). -/
example : direct (trx .tpdu [0x12, 0x34, 0x56, 0x78] (List.replicate 258 0xEE)
      [.data [0x90, 0x00]]) =
    some ([[0x12, 0x34, 0x56, 0x78, 0x00]],
      0, [0x90, 0x00], 0x9000) := by decide +kernel

/-- `test_tpdu_case_1_error` (tests/emv_ttl_tpdu_test.c:46, 360). -/
example : direct (trx .tpdu [0x12, 0x34, 0x56, 0x78] (List.replicate 258 0xEE)
      [.data [0x6A, 0x81]]) =
    some ([[0x12, 0x34, 0x56, 0x78, 0x00]],
      0, [0x6A, 0x81], 0x6A81) := by decide +kernel

/-- `test_tpdu_case_2_normal` (tests/emv_ttl_tpdu_test.c:57, 393). -/
example : wrapped (readRecord .tpdu 1 1 256
      [.data [0x6C, 0x1C],
       .data [0xB2, 0x70, 0x1A, 0x61, 0x18, 0x4F, 0x07, 0xA0, 0x00, 0x00, 0x00, 0x03, 0x10, 0x10, 0x50, 0x0A, 0x56,
        0x49, 0x53, 0x41, 0x20, 0x44, 0x45, 0x42, 0x49, 0x54, 0x87, 0x01, 0x01, 0x90, 0x00]]) =
    some ([[0x00, 0xB2, 0x01, 0x0C, 0x00],
      [0x00, 0xB2, 0x01, 0x0C, 0x1C]],
       0, [0x70, 0x1A, 0x61, 0x18, 0x4F, 0x07, 0xA0, 0x00, 0x00, 0x00, 0x03, 0x10, 0x10, 0x50, 0x0A, 0x56, 0x49,
        0x53, 0x41, 0x20, 0x44, 0x45, 0x42, 0x49, 0x54, 0x87, 0x01, 0x01], 0x9000) := by decide +kernel

/-- `test_tpdu_case_2_error_early` (tests/emv_ttl_tpdu_test.c:74, 426). -/
example : wrapped (readRecord .tpdu 1 1 256
      [.data [0x6A, 0x81]]) =
    some ([[0x00, 0xB2, 0x01, 0x0C, 0x00]],
      0, [], 0x6A81) := by decide +kernel

/-- `test_tpdu_case_2_error_late` (tests/emv_ttl_tpdu_test.c:85, 459). -/
example : wrapped (readRecord .tpdu 1 1 256
      [.data [0x6C, 0x1C],
      .data [0x65, 0x81]]) =
    some ([[0x00, 0xB2, 0x01, 0x0C, 0x00],
      [0x00, 0xB2, 0x01, 0x0C, 0x1C]],
      0, [], 0x6581) := by decide +kernel

/-- `test_tpdu_case_3_normal` (tests/emv_ttl_tpdu_test.c:100, 492). -/
example : direct (trx .tpdu [0x00, 0x82, 0x00, 0x00, 0x04, 0xDE, 0xAD, 0xBE, 0xEF] (List.replicate 258 0xEE)
      [.data [0x82],
      .data [0x90, 0x00]]) =
    some ([[0x00, 0x82, 0x00, 0x00, 0x04],
      [0xDE, 0xAD, 0xBE, 0xEF]],
      0, [0x90, 0x00], 0x9000) := by decide +kernel

/-- `test_tpdu_case_3_error_early` (tests/emv_ttl_tpdu_test.c:115, 525). -/
example : direct (trx .tpdu [0x00, 0x82, 0x00, 0x00, 0x04, 0xDE, 0xAD, 0xBE, 0xEF] (List.replicate 258 0xEE)
      [.data [0x6A, 0x81]]) =
    some ([[0x00, 0x82, 0x00, 0x00, 0x04]],
      0, [0x6A, 0x81], 0x6A81) := by decide +kernel

/-- `test_tpdu_case_3_error_late` (tests/emv_ttl_tpdu_test.c:125, 558). -/
example : direct (trx .tpdu [0x00, 0x82, 0x00, 0x00, 0x04, 0xDE, 0xAD, 0xBE, 0xEF] (List.replicate 258 0xEE)
      [.data [0x82],
      .data [0x65, 0x81]]) =
    some ([[0x00, 0x82, 0x00, 0x00, 0x04],
      [0xDE, 0xAD, 0xBE, 0xEF]],
      0, [0x65, 0x81], 0x6581) := by decide +kernel

/-- `test_tpdu_case_4_normal` (tests/emv_ttl_tpdu_test.c:140, 591). -/
example : wrapped (select 0x00 .tpdu [0x31, 0x50, 0x41, 0x59, 0x2E, 0x53, 0x59, 0x53, 0x2E, 0x44, 0x44, 0x46, 0x30,
        0x31] 256
      [.data [0xA4],
      .data [0x61, 0x26],
       .data [0xC0, 0x6F, 0x24, 0x84, 0x0E, 0x31, 0x50, 0x41, 0x59, 0x2E, 0x53, 0x59, 0x53, 0x2E, 0x44, 0x44, 0x46,
        0x30, 0x31, 0xA5, 0x12, 0x88, 0x01, 0x01, 0x5F, 0x2D, 0x08, 0x65, 0x6E, 0x65, 0x73, 0x66, 0x72, 0x64, 0x65,
        0x9F, 0x11, 0x01, 0x01, 0x90, 0x00]]) =
    some ([[0x00, 0xA4, 0x04, 0x00, 0x0E],
      [0x31, 0x50, 0x41, 0x59, 0x2E, 0x53, 0x59, 0x53, 0x2E, 0x44, 0x44, 0x46, 0x30, 0x31],
      [0x00, 0xC0, 0x00, 0x00, 0x26]],
       0, [0x6F, 0x24, 0x84, 0x0E, 0x31, 0x50, 0x41, 0x59, 0x2E, 0x53, 0x59, 0x53, 0x2E, 0x44, 0x44, 0x46, 0x30,
        0x31, 0xA5, 0x12, 0x88, 0x01, 0x01, 0x5F, 0x2D, 0x08, 0x65, 0x6E, 0x65, 0x73, 0x66, 0x72, 0x64, 0x65, 0x9F,
        0x11, 0x01, 0x01], 0x9000) := by decide +kernel

/-- `test_tpdu_case_4_error_early` (tests/emv_ttl_tpdu_test.c:161, 625). -/
example : wrapped (select 0x00 .tpdu [0x31, 0x50, 0x41, 0x59, 0x2E, 0x53, 0x59, 0x53, 0x2E, 0x44, 0x44, 0x46, 0x30,
        0x31] 256
      [.data [0x6A, 0x81]]) =
    some ([[0x00, 0xA4, 0x04, 0x00, 0x0E]],
      0, [], 0x6A81) := by decide +kernel

/-- `test_tpdu_case_4_error_early2` (tests/emv_ttl_tpdu_test.c:172, 658). -/
example : wrapped (select 0x00 .tpdu [0x31, 0x50, 0x41, 0x59, 0x2E, 0x53, 0x59, 0x53, 0x2E, 0x44, 0x44, 0x46, 0x30,
        0x31] 256
      [.data [0xA4],
      .data [0x6A, 0x82]]) =
    some ([[0x00, 0xA4, 0x04, 0x00, 0x0E],
      [0x31, 0x50, 0x41, 0x59, 0x2E, 0x53, 0x59, 0x53, 0x2E, 0x44, 0x44, 0x46, 0x30, 0x31]],
      0, [], 0x6A82) := by decide +kernel

/-- `test_tpdu_case_4_error_late` (tests/emv_ttl_tpdu_test.c:187, 691). -/
example : wrapped (select 0x00 .tpdu [0x31, 0x50, 0x41, 0x59, 0x2E, 0x53, 0x59, 0x53, 0x2E, 0x44, 0x44, 0x46, 0x30,
        0x31] 256
      [.data [0xA4],
      .data [0x61, 0x26],
      .data [0x65, 0x81]]) =
    some ([[0x00, 0xA4, 0x04, 0x00, 0x0E],
      [0x31, 0x50, 0x41, 0x59, 0x2E, 0x53, 0x59, 0x53, 0x2E, 0x44, 0x44, 0x46, 0x30, 0x31],
      [0x00, 0xC0, 0x00, 0x00, 0x26]],
      0, [], 0x6581) := by decide +kernel

/-- `test_tpdu_case_2_normal_advanced` (tests/emv_ttl_tpdu_test.c:206, 724). -/
example : wrapped (readRecord .tpdu 1 1 256
      [.data [0x6C, 0x1C],
      .data [0x61, 0x1C],
      .data [0xC0, 0x70, 0x1A, 0x61, 0x18, 0x4F, 0x07, 0xA0, 0x00, 0x00, 0x00, 0x03, 0x10, 0x10, 0x61, 0x0F],
       .data [0xC0, 0x50, 0x0A, 0x56, 0x49, 0x53, 0x41, 0x20, 0x44, 0x45, 0x42, 0x49, 0x54, 0x87, 0x01, 0x01, 0x90,
        0x00]]) =
    some ([[0x00, 0xB2, 0x01, 0x0C, 0x00],
      [0x00, 0xB2, 0x01, 0x0C, 0x1C],
      [0x00, 0xC0, 0x00, 0x00, 0x1C],
      [0x00, 0xC0, 0x00, 0x00, 0x0F]],
       0, [0x70, 0x1A, 0x61, 0x18, 0x4F, 0x07, 0xA0, 0x00, 0x00, 0x00, 0x03, 0x10, 0x10, 0x50, 0x0A, 0x56, 0x49,
        0x53, 0x41, 0x20, 0x44, 0x45, 0x42, 0x49, 0x54, 0x87, 0x01, 0x01], 0x9000) := by decide +kernel

/-- `test_tpdu_case_4_normal_advanced` (tests/emv_ttl_tpdu_test.c:233, 757). -/
example : wrapped (select 0x00 .tpdu [0x31, 0x50, 0x41, 0x59, 0x2E, 0x53, 0x59, 0x53, 0x2E, 0x44, 0x44, 0x46, 0x30,
        0x31] 256
      [.data [0xA4],
      .data [0x61, 0x26],
       .data [0xC0, 0x6F, 0x24, 0x84, 0x0E, 0x31, 0x50, 0x41, 0x59, 0x2E, 0x53, 0x59, 0x53, 0x2E, 0x44, 0x44, 0x61,
        0x14],
       .data [0xC0, 0x46, 0x30, 0x31, 0xA5, 0x12, 0x88, 0x01, 0x01, 0x5F, 0x2D, 0x08, 0x65, 0x6E, 0x65, 0x73, 0x66,
        0x72, 0x64, 0x65, 0x9F, 0x11, 0x01, 0x01, 0x90, 0x00]]) =
    some ([[0x00, 0xA4, 0x04, 0x00, 0x0E],
      [0x31, 0x50, 0x41, 0x59, 0x2E, 0x53, 0x59, 0x53, 0x2E, 0x44, 0x44, 0x46, 0x30, 0x31],
      [0x00, 0xC0, 0x00, 0x00, 0x26],
      [0x00, 0xC0, 0x00, 0x00, 0x14]],
       0, [0x6F, 0x24, 0x84, 0x0E, 0x31, 0x50, 0x41, 0x59, 0x2E, 0x53, 0x59, 0x53, 0x2E, 0x44, 0x44, 0x46, 0x30,
        0x31, 0xA5, 0x12, 0x88, 0x01, 0x01, 0x5F, 0x2D, 0x08, 0x65, 0x6E, 0x65, 0x73, 0x66, 0x72, 0x64, 0x65, 0x9F,
        0x11, 0x01, 0x01], 0x9000) := by decide +kernel

/-- `test_tpdu_case_4_warning1` (tests/emv_ttl_tpdu_test.c:258, 790). -/
example : wrapped (select 0x00 .tpdu [0x31, 0x50, 0x41, 0x59, 0x2E, 0x53, 0x59, 0x53, 0x2E, 0x44, 0x44, 0x46, 0x30,
        0x31] 256
      [.data [0xA4],
      .data [0x62, 0x86],
      .data [0x6C, 0x26],
       .data [0xC0, 0x6F, 0x24, 0x84, 0x0E, 0x31, 0x50, 0x41, 0x59, 0x2E, 0x53, 0x59, 0x53, 0x2E, 0x44, 0x44, 0x46,
        0x30, 0x31, 0xA5, 0x12, 0x88, 0x01, 0x01, 0x5F, 0x2D, 0x08, 0x65, 0x6E, 0x65, 0x73, 0x66, 0x72, 0x64, 0x65,
        0x9F, 0x11, 0x01, 0x01, 0x90, 0x00]]) =
    some ([[0x00, 0xA4, 0x04, 0x00, 0x0E],
      [0x31, 0x50, 0x41, 0x59, 0x2E, 0x53, 0x59, 0x53, 0x2E, 0x44, 0x44, 0x46, 0x30, 0x31],
      [0x00, 0xC0, 0x00, 0x00, 0x00],
      [0x00, 0xC0, 0x00, 0x00, 0x26]],
       0, [0x6F, 0x24, 0x84, 0x0E, 0x31, 0x50, 0x41, 0x59, 0x2E, 0x53, 0x59, 0x53, 0x2E, 0x44, 0x44, 0x46, 0x30,
        0x31, 0xA5, 0x12, 0x88, 0x01, 0x01, 0x5F, 0x2D, 0x08, 0x65, 0x6E, 0x65, 0x73, 0x66, 0x72, 0x64, 0x65, 0x9F,
        0x11, 0x01, 0x01], 0x6286) := by decide +kernel

/-- `test_tpdu_case_4_warning2` (tests/emv_ttl_tpdu_test.c:283, 823). -/
example : wrapped (select 0x00 .tpdu [0x31, 0x50, 0x41, 0x59, 0x2E, 0x53, 0x59, 0x53, 0x2E, 0x44, 0x44, 0x46, 0x30,
        0x31] 256
      [.data [0xA4],
      .data [0x61, 0x26],
       .data [0xC0, 0x6F, 0x24, 0x84, 0x0E, 0x31, 0x50, 0x41, 0x59, 0x2E, 0x53, 0x59, 0x53, 0x2E, 0x44, 0x44, 0x46,
        0x30, 0x31, 0xA5, 0x12, 0x88, 0x01, 0x01, 0x5F, 0x2D, 0x08, 0x65, 0x6E, 0x65, 0x73, 0x66, 0x72, 0x64, 0x65,
        0x9F, 0x11, 0x01, 0x01, 0x62, 0x86]]) =
    some ([[0x00, 0xA4, 0x04, 0x00, 0x0E],
      [0x31, 0x50, 0x41, 0x59, 0x2E, 0x53, 0x59, 0x53, 0x2E, 0x44, 0x44, 0x46, 0x30, 0x31],
      [0x00, 0xC0, 0x00, 0x00, 0x26]],
       0, [0x6F, 0x24, 0x84, 0x0E, 0x31, 0x50, 0x41, 0x59, 0x2E, 0x53, 0x59, 0x53, 0x2E, 0x44, 0x44, 0x46, 0x30,
        0x31, 0xA5, 0x12, 0x88, 0x01, 0x01, 0x5F, 0x2D, 0x08, 0x65, 0x6E, 0x65, 0x73, 0x66, 0x72, 0x64, 0x65, 0x9F,
        0x11, 0x01, 0x01], 0x6286) := by decide +kernel

/-! ## `emv_ttl_pcsc_test.c` -/

/-- `test_pcsc_case_1_normal` (tests/emv_ttl_pcsc_test.c:35, 273). -/
example : direct (trx .apdu [0x12, 0x34, 0x56, 0x78] (List.replicate 258 0xEE)
      [.data [0x90, 0x00]]) =
    some ([[0x12, 0x34, 0x56, 0x78]],
      0, [0x90, 0x00], 0x9000) := by decide +kernel

/-- `test_pcsc_case_1_error` (tests/emv_ttl_pcsc_test.c:46, 306). -/
example : direct (trx .apdu [0x12, 0x34, 0x56, 0x78] (List.replicate 258 0xEE)
      [.data [0x6A, 0x81]]) =
    some ([[0x12, 0x34, 0x56, 0x78]],
      0, [0x6A, 0x81], 0x6A81) := by decide +kernel

/-- `test_pcsc_case_2_normal` (tests/emv_ttl_pcsc_test.c:57, 339). -/
example : wrapped (readRecord .apdu 1 1 256
      [.data [0x6C, 0x1C],
       .data [0x70, 0x1A, 0x61, 0x18, 0x4F, 0x07, 0xA0, 0x00, 0x00, 0x00, 0x03, 0x10, 0x10, 0x50, 0x0A, 0x56, 0x49,
        0x53, 0x41, 0x20, 0x44, 0x45, 0x42, 0x49, 0x54, 0x87, 0x01, 0x01, 0x90, 0x00]]) =
    some ([[0x00, 0xB2, 0x01, 0x0C, 0x00],
      [0x00, 0xB2, 0x01, 0x0C, 0x1C]],
       0, [0x70, 0x1A, 0x61, 0x18, 0x4F, 0x07, 0xA0, 0x00, 0x00, 0x00, 0x03, 0x10, 0x10, 0x50, 0x0A, 0x56, 0x49,
        0x53, 0x41, 0x20, 0x44, 0x45, 0x42, 0x49, 0x54, 0x87, 0x01, 0x01], 0x9000) := by decide +kernel

/-- `test_pcsc_case_2_error_early` (tests/emv_ttl_pcsc_test.c:74, 372). -/
example : wrapped (readRecord .apdu 1 1 256
      [.data [0x6A, 0x81]]) =
    some ([[0x00, 0xB2, 0x01, 0x0C, 0x00]],
      0, [], 0x6A81) := by decide +kernel

/-- `test_pcsc_case_2_error_late` (tests/emv_ttl_pcsc_test.c:85, 405). -/
example : wrapped (readRecord .apdu 1 1 256
      [.data [0x6C, 0x1C],
      .data [0x65, 0x81]]) =
    some ([[0x00, 0xB2, 0x01, 0x0C, 0x00],
      [0x00, 0xB2, 0x01, 0x0C, 0x1C]],
      0, [], 0x6581) := by decide +kernel

/-- `test_pcsc_case_3_normal` (tests/emv_ttl_pcsc_test.c:100, 438). -/
example : direct (trx .apdu [0x00, 0x82, 0x00, 0x00, 0x04, 0xDE, 0xAD, 0xBE, 0xEF] (List.replicate 258 0xEE)
      [.data [0x90, 0x00]]) =
    some ([[0x00, 0x82, 0x00, 0x00, 0x04, 0xDE, 0xAD, 0xBE, 0xEF]],
      0, [0x90, 0x00], 0x9000) := by decide +kernel

/-- `test_pcsc_case_3_error` (tests/emv_ttl_pcsc_test.c:111, 471). -/
example : direct (trx .apdu [0x00, 0x82, 0x00, 0x00, 0x04, 0xDE, 0xAD, 0xBE, 0xEF] (List.replicate 258 0xEE)
      [.data [0x6A, 0x81]]) =
    some ([[0x00, 0x82, 0x00, 0x00, 0x04, 0xDE, 0xAD, 0xBE, 0xEF]],
      0, [0x6A, 0x81], 0x6A81) := by decide +kernel

/-- `test_pcsc_case_4_normal` (tests/emv_ttl_pcsc_test.c:121, 504). -/
example : wrapped (select 0x00 .apdu [0x31, 0x50, 0x41, 0x59, 0x2E, 0x53, 0x59, 0x53, 0x2E, 0x44, 0x44, 0x46, 0x30,
        0x31] 256
      [.data [0x61, 0x26],
       .data [0x6F, 0x24, 0x84, 0x0E, 0x31, 0x50, 0x41, 0x59, 0x2E, 0x53, 0x59, 0x53, 0x2E, 0x44, 0x44, 0x46, 0x30,
        0x31, 0xA5, 0x12, 0x88, 0x01, 0x01, 0x5F, 0x2D, 0x08, 0x65, 0x6E, 0x65, 0x73, 0x66, 0x72, 0x64, 0x65, 0x9F,
        0x11, 0x01, 0x01, 0x90, 0x00]]) =
     some ([[0x00, 0xA4, 0x04, 0x00, 0x0E, 0x31, 0x50, 0x41, 0x59, 0x2E, 0x53, 0x59, 0x53, 0x2E, 0x44, 0x44, 0x46,
        0x30, 0x31, 0x00],
      [0x00, 0xC0, 0x00, 0x00, 0x26]],
       0, [0x6F, 0x24, 0x84, 0x0E, 0x31, 0x50, 0x41, 0x59, 0x2E, 0x53, 0x59, 0x53, 0x2E, 0x44, 0x44, 0x46, 0x30,
        0x31, 0xA5, 0x12, 0x88, 0x01, 0x01, 0x5F, 0x2D, 0x08, 0x65, 0x6E, 0x65, 0x73, 0x66, 0x72, 0x64, 0x65, 0x9F,
        0x11, 0x01, 0x01], 0x9000) := by decide +kernel

/-- `test_pcsc_case_4_error_early` (tests/emv_ttl_pcsc_test.c:138, 538). -/
example : wrapped (select 0x00 .apdu [0x31, 0x50, 0x41, 0x59, 0x2E, 0x53, 0x59, 0x53, 0x2E, 0x44, 0x44, 0x46, 0x30,
        0x31] 256
      [.data [0x6A, 0x82]]) =
     some ([[0x00, 0xA4, 0x04, 0x00, 0x0E, 0x31, 0x50, 0x41, 0x59, 0x2E, 0x53, 0x59, 0x53, 0x2E, 0x44, 0x44, 0x46,
        0x30, 0x31, 0x00]],
      0, [], 0x6A82) := by decide +kernel

/-- `test_pcsc_case_4_error_late` (tests/emv_ttl_pcsc_test.c:149, 571). -/
example : wrapped (select 0x00 .apdu [0x31, 0x50, 0x41, 0x59, 0x2E, 0x53, 0x59, 0x53, 0x2E, 0x44, 0x44, 0x46, 0x30,
        0x31] 256
      [.data [0x61, 0x26],
      .data [0x65, 0x81]]) =
     some ([[0x00, 0xA4, 0x04, 0x00, 0x0E, 0x31, 0x50, 0x41, 0x59, 0x2E, 0x53, 0x59, 0x53, 0x2E, 0x44, 0x44, 0x46,
        0x30, 0x31, 0x00],
      [0x00, 0xC0, 0x00, 0x00, 0x26]],
      0, [], 0x6581) := by decide +kernel

/-- `test_pcsc_case_2_normal_advanced` (tests/emv_ttl_pcsc_test.c:164, 604). -/
example : wrapped (readRecord .apdu 1 1 256
      [.data [0x6C, 0x1C],
      .data [0x61, 0x1C],
      .data [0x70, 0x1A, 0x61, 0x18, 0x4F, 0x07, 0xA0, 0x00, 0x00, 0x00, 0x03, 0x10, 0x10, 0x61, 0x0F],
      .data [0x50, 0x0A, 0x56, 0x49, 0x53, 0x41, 0x20, 0x44, 0x45, 0x42, 0x49, 0x54, 0x87, 0x01, 0x01, 0x90, 0x00]]) =
    some ([[0x00, 0xB2, 0x01, 0x0C, 0x00],
      [0x00, 0xB2, 0x01, 0x0C, 0x1C],
      [0x00, 0xC0, 0x00, 0x00, 0x1C],
      [0x00, 0xC0, 0x00, 0x00, 0x0F]],
       0, [0x70, 0x1A, 0x61, 0x18, 0x4F, 0x07, 0xA0, 0x00, 0x00, 0x00, 0x03, 0x10, 0x10, 0x50, 0x0A, 0x56, 0x49,
        0x53, 0x41, 0x20, 0x44, 0x45, 0x42, 0x49, 0x54, 0x87, 0x01, 0x01], 0x9000) := by decide +kernel

/-- `test_pcsc_case_4_normal_advanced` (tests/emv_ttl_pcsc_test.c:191, 637). -/
example : wrapped (select 0x00 .apdu [0x31, 0x50, 0x41, 0x59, 0x2E, 0x53, 0x59, 0x53, 0x2E, 0x44, 0x44, 0x46, 0x30,
        0x31] 256
      [.data [0x61, 0x26],
      .data [0x6F, 0x24, 0x84, 0x0E, 0x31, 0x50, 0x41, 0x59, 0x2E, 0x53, 0x59, 0x53, 0x2E, 0x44, 0x44, 0x61, 0x14],
       .data [0x46, 0x30, 0x31, 0xA5, 0x12, 0x88, 0x01, 0x01, 0x5F, 0x2D, 0x08, 0x65, 0x6E, 0x65, 0x73, 0x66, 0x72,
        0x64, 0x65, 0x9F, 0x11, 0x01, 0x01, 0x90, 0x00]]) =
     some ([[0x00, 0xA4, 0x04, 0x00, 0x0E, 0x31, 0x50, 0x41, 0x59, 0x2E, 0x53, 0x59, 0x53, 0x2E, 0x44, 0x44, 0x46,
        0x30, 0x31, 0x00],
      [0x00, 0xC0, 0x00, 0x00, 0x26],
      [0x00, 0xC0, 0x00, 0x00, 0x14]],
       0, [0x6F, 0x24, 0x84, 0x0E, 0x31, 0x50, 0x41, 0x59, 0x2E, 0x53, 0x59, 0x53, 0x2E, 0x44, 0x44, 0x46, 0x30,
        0x31, 0xA5, 0x12, 0x88, 0x01, 0x01, 0x5F, 0x2D, 0x08, 0x65, 0x6E, 0x65, 0x73, 0x66, 0x72, 0x64, 0x65, 0x9F,
        0x11, 0x01, 0x01], 0x9000) := by decide +kernel

/-- `test_pcsc_case_4_warning1` (tests/emv_ttl_pcsc_test.c:212, 670). -/
example : wrapped (select 0x00 .apdu [0x31, 0x50, 0x41, 0x59, 0x2E, 0x53, 0x59, 0x53, 0x2E, 0x44, 0x44, 0x46, 0x30,
        0x31] 256
      [.data [0x62, 0x86],
      .data [0x6C, 0x26],
       .data [0x6F, 0x24, 0x84, 0x0E, 0x31, 0x50, 0x41, 0x59, 0x2E, 0x53, 0x59, 0x53, 0x2E, 0x44, 0x44, 0x46, 0x30,
        0x31, 0xA5, 0x12, 0x88, 0x01, 0x01, 0x5F, 0x2D, 0x08, 0x65, 0x6E, 0x65, 0x73, 0x66, 0x72, 0x64, 0x65, 0x9F,
        0x11, 0x01, 0x01, 0x90, 0x00]]) =
     some ([[0x00, 0xA4, 0x04, 0x00, 0x0E, 0x31, 0x50, 0x41, 0x59, 0x2E, 0x53, 0x59, 0x53, 0x2E, 0x44, 0x44, 0x46,
        0x30, 0x31, 0x00],
      [0x00, 0xC0, 0x00, 0x00, 0x00],
      [0x00, 0xC0, 0x00, 0x00, 0x26]],
       0, [0x6F, 0x24, 0x84, 0x0E, 0x31, 0x50, 0x41, 0x59, 0x2E, 0x53, 0x59, 0x53, 0x2E, 0x44, 0x44, 0x46, 0x30,
        0x31, 0xA5, 0x12, 0x88, 0x01, 0x01, 0x5F, 0x2D, 0x08, 0x65, 0x6E, 0x65, 0x73, 0x66, 0x72, 0x64, 0x65, 0x9F,
        0x11, 0x01, 0x01], 0x6286) := by decide +kernel

/-- `test_pcsc_case_4_warning2` (tests/emv_ttl_pcsc_test.c:233, 703). -/
example : wrapped (select 0x00 .apdu [0x31, 0x50, 0x41, 0x59, 0x2E, 0x53, 0x59, 0x53, 0x2E, 0x44, 0x44, 0x46, 0x30,
        0x31] 256
      [.data [0x61, 0x26],
       .data [0x6F, 0x24, 0x84, 0x0E, 0x31, 0x50, 0x41, 0x59, 0x2E, 0x53, 0x59, 0x53, 0x2E, 0x44, 0x44, 0x46, 0x30,
        0x31, 0xA5, 0x12, 0x88, 0x01, 0x01, 0x5F, 0x2D, 0x08, 0x65, 0x6E, 0x65, 0x73, 0x66, 0x72, 0x64, 0x65, 0x9F,
        0x11, 0x01, 0x01, 0x62, 0x86]]) =
     some ([[0x00, 0xA4, 0x04, 0x00, 0x0E, 0x31, 0x50, 0x41, 0x59, 0x2E, 0x53, 0x59, 0x53, 0x2E, 0x44, 0x44, 0x46,
        0x30, 0x31, 0x00],
      [0x00, 0xC0, 0x00, 0x00, 0x26]],
       0, [0x6F, 0x24, 0x84, 0x0E, 0x31, 0x50, 0x41, 0x59, 0x2E, 0x53, 0x59, 0x53, 0x2E, 0x44, 0x44, 0x46, 0x30,
        0x31, 0xA5, 0x12, 0x88, 0x01, 0x01, 0x5F, 0x2D, 0x08, 0x65, 0x6E, 0x65, 0x73, 0x66, 0x72, 0x64, 0x65, 0x9F,
        0x11, 0x01, 0x01], 0x6286) := by decide +kernel

end Verif.RepoTest.Ttl
