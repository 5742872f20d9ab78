import Verif.Emv
import Verif.Stack
import Verif.ToolTxn

/-! # The kernel tests of the project on the model

`emv_build_candidate_list_test.c`, `emv_select_application_test.c`, `emv_initiate_application_processing_test.c` and
`emv_read_application_data_test.c` list what must be transmitted and what the card answers.  The models of the four
functions of `emv.h`, over the models of the layers below, are run on the answers; they must transmit exactly the
listed bytes, use all answers, and give what the test asks for.  These are tests of the model, not proofs. -/

set_option autoImplicit false

namespace Verif.RepoTest.Kernel
open Verif Ber App Tal Stack

/-- An exchange of a test: what must be transmitted, and the answer. -/
abbrev Table := List (List Byte × List Byte)

/-- The result of a function over the emulated reader (tests/emv_cardreader_emul.c:28-69): `none` if other bytes than
those listed are transmitted, or not all answers are used. -/
def over {α : Type} (t : Table) (prog : List W → C (Run α)) : Option α :=
  match drive prog .apdu 40 [] (t.map fun x => .data x.2) with
  | .ok (log, .done _ a []) => if log = t.map (·.1) then some a else none
  | _ => none

/-- Allocation does not fail. -/
def mem : List Tlv → Tlv → Bool := fun _ _ => true

/-- The supported applications (tests/emv_build_candidate_list_test.c:373-378). -/
def supported : List Tlv :=
  [⟨0x9F06, 1, [0xA0, 0x00, 0x00, 0x00, 0x03, 0x10]⟩, ⟨0x9F06, 0, [0xA0, 0x00, 0x00, 0x00, 0x03, 0x20, 0x10]⟩,
   ⟨0x9F06, 0, [0xA0, 0x00, 0x00, 0x00, 0x03, 0x20, 0x20]⟩, ⟨0x9F06, 1, [0xA0, 0x00, 0x00, 0x00, 0x04, 0x10]⟩,
   ⟨0x9F06, 1, [0xA0, 0x00, 0x00, 0x00, 0x04, 0x30]⟩]

/-- Code, display names and whether the cardholder must choose. -/
def built (t : Table) : Option (Int × List (List Byte) × Bool) :=
  (over t (Emv.build supported [])).map fun a =>
    (a.1, a.2.map (fun x => x.name.takeWhile (· ≠ 0)), ToolTxn.required a.2)

/-! ## `emv_build_candidate_list_test.c` -/

/-- tests/emv_build_candidate_list_test.c:38. -/
def test_pse_card_blocked : Table := [([0x00, 0xA4, 0x04, 0x00, 0x0E, 0x31, 0x50, 0x41, 0x59, 0x2E, 0x53, 0x59,
    0x53, 0x2E, 0x44, 0x44, 0x46, 0x30, 0x31, 0x00],
   [0x6A, 0x81])]

/-- tests/emv_build_candidate_list_test.c:388. -/
example : built test_pse_card_blocked = some (2, [], false) := by decide +kernel

/-- tests/emv_build_candidate_list_test.c:46. -/
def test_aid_card_blocked : Table := [([0x00, 0xA4, 0x04, 0x00, 0x0E, 0x31, 0x50, 0x41, 0x59, 0x2E, 0x53, 0x59,
    0x53, 0x2E, 0x44, 0x44, 0x46, 0x30, 0x31, 0x00],
   [0x6A, 0x82]),
  ([0x00, 0xA4, 0x04, 0x00, 0x06, 0xA0, 0x00, 0x00, 0x00, 0x03, 0x10, 0x00],
   [0x6A, 0x81])]

/-- tests/emv_build_candidate_list_test.c:418. -/
example : built test_aid_card_blocked = some (2, [], false) := by decide +kernel

/-- tests/emv_build_candidate_list_test.c:58. -/
def test_nothing_found : Table := [([0x00, 0xA4, 0x04, 0x00, 0x0E, 0x31, 0x50, 0x41, 0x59, 0x2E, 0x53, 0x59, 0x53,
    0x2E, 0x44, 0x44, 0x46, 0x30, 0x31, 0x00],
   [0x6A, 0x82]),
  ([0x00, 0xA4, 0x04, 0x00, 0x06, 0xA0, 0x00, 0x00, 0x00, 0x03, 0x10, 0x00],
   [0x6A, 0x82]),
  ([0x00, 0xA4, 0x04, 0x00, 0x07, 0xA0, 0x00, 0x00, 0x00, 0x03, 0x20, 0x10, 0x00],
   [0x6A, 0x82]),
  ([0x00, 0xA4, 0x04, 0x00, 0x07, 0xA0, 0x00, 0x00, 0x00, 0x03, 0x20, 0x20, 0x00],
   [0x6A, 0x82]),
  ([0x00, 0xA4, 0x04, 0x00, 0x06, 0xA0, 0x00, 0x00, 0x00, 0x04, 0x10, 0x00],
   [0x6A, 0x82]),
  ([0x00, 0xA4, 0x04, 0x00, 0x06, 0xA0, 0x00, 0x00, 0x00, 0x04, 0x30, 0x00],
   [0x6A, 0x82])]

/-- tests/emv_build_candidate_list_test.c:448. -/
example : built test_nothing_found = some (3, [], false) := by decide +kernel

/-- tests/emv_build_candidate_list_test.c:86. -/
def test_pse_blocked : Table := [([0x00, 0xA4, 0x04, 0x00, 0x0E, 0x31, 0x50, 0x41, 0x59, 0x2E, 0x53, 0x59, 0x53,
    0x2E, 0x44, 0x44, 0x46, 0x30, 0x31, 0x00],
   [0x62, 0x83]),
  ([0x00, 0xC0, 0x00, 0x00, 0x00],
   [0x6C, 0x1A]),
  ([0x00, 0xC0, 0x00, 0x00, 0x1A],
   [0x6F, 0x20, 0x84, 0x0E, 0x31, 0x50, 0x41, 0x59, 0x2E, 0x53, 0x59, 0x53, 0x2E, 0x44, 0x44, 0x46, 0x30, 0x31,
       0xA5, 0x0E, 0x88, 0x01, 0x01, 0x5F, 0x2D, 0x04, 0x6E, 0x6C, 0x65, 0x6E, 0x9F, 0x11, 0x01, 0x01, 0x90, 0x00]),
  ([0x00, 0xA4, 0x04, 0x00, 0x06, 0xA0, 0x00, 0x00, 0x00, 0x03, 0x10, 0x00],
   [0x6A, 0x82]),
  ([0x00, 0xA4, 0x04, 0x00, 0x07, 0xA0, 0x00, 0x00, 0x00, 0x03, 0x20, 0x10, 0x00],
   [0x6A, 0x82]),
  ([0x00, 0xA4, 0x04, 0x00, 0x07, 0xA0, 0x00, 0x00, 0x00, 0x03, 0x20, 0x20, 0x00],
   [0x6A, 0x82]),
  ([0x00, 0xA4, 0x04, 0x00, 0x06, 0xA0, 0x00, 0x00, 0x00, 0x04, 0x10, 0x00],
   [0x6A, 0x82]),
  ([0x00, 0xA4, 0x04, 0x00, 0x06, 0xA0, 0x00, 0x00, 0x00, 0x04, 0x30, 0x00],
   [0x6A, 0x82])]

/-- tests/emv_build_candidate_list_test.c:478. -/
example : built test_pse_blocked = some (3, [], false) := by decide +kernel

/-- tests/emv_build_candidate_list_test.c:122. -/
def test_aid_blocked : Table := [([0x00, 0xA4, 0x04, 0x00, 0x0E, 0x31, 0x50, 0x41, 0x59, 0x2E, 0x53, 0x59, 0x53,
    0x2E, 0x44, 0x44, 0x46, 0x30, 0x31, 0x00],
   [0x6A, 0x82]),
  ([0x00, 0xA4, 0x04, 0x00, 0x06, 0xA0, 0x00, 0x00, 0x00, 0x03, 0x10, 0x00],
   [0x6A, 0x82]),
  ([0x00, 0xA4, 0x04, 0x00, 0x07, 0xA0, 0x00, 0x00, 0x00, 0x03, 0x20, 0x10, 0x00],
   [0x6A, 0x82]),
  ([0x00, 0xA4, 0x04, 0x00, 0x07, 0xA0, 0x00, 0x00, 0x00, 0x03, 0x20, 0x20, 0x00],
   [0x62, 0x83]),
  ([0x00, 0xC0, 0x00, 0x00, 0x00],
   [0x6C, 0x33]),
  ([0x00, 0xC0, 0x00, 0x00, 0x33],
   [0x6F, 0x2F, 0x84, 0x07, 0xA0, 0x00, 0x00, 0x00, 0x03, 0x20, 0x20, 0xA5, 0x24, 0x50, 0x05, 0x56, 0x20, 0x50,
       0x41, 0x59, 0x87, 0x01, 0x01, 0x5F, 0x2D, 0x04, 0x6E, 0x6C, 0x65, 0x6E, 0xBF, 0x0C, 0x10, 0x9F, 0x4D, 0x02,
       0x0B, 0x05, 0x9F, 0x0A, 0x08, 0x00, 0x01, 0x05, 0x01, 0x00, 0x00, 0x00, 0x00, 0x90, 0x00]),
  ([0x00, 0xA4, 0x04, 0x00, 0x06, 0xA0, 0x00, 0x00, 0x00, 0x04, 0x10, 0x00],
   [0x6A, 0x82]),
  ([0x00, 0xA4, 0x04, 0x00, 0x06, 0xA0, 0x00, 0x00, 0x00, 0x04, 0x30, 0x00],
   [0x6A, 0x82])]

/-- tests/emv_build_candidate_list_test.c:508. -/
example : built test_aid_blocked = some (3, [], false) := by decide +kernel

/-- tests/emv_build_candidate_list_test.c:158. -/
def test_pse_app_not_supported : Table := [([0x00, 0xA4, 0x04, 0x00, 0x0E, 0x31, 0x50, 0x41, 0x59, 0x2E, 0x53, 0x59,
    0x53, 0x2E, 0x44, 0x44, 0x46, 0x30, 0x31, 0x00],
   [0x6F, 0x20, 0x84, 0x0E, 0x31, 0x50, 0x41, 0x59, 0x2E, 0x53, 0x59, 0x53, 0x2E, 0x44, 0x44, 0x46, 0x30, 0x31,
       0xA5, 0x0E, 0x88, 0x01, 0x01, 0x5F, 0x2D, 0x04, 0x6E, 0x6C, 0x65, 0x6E, 0x9F, 0x11, 0x01, 0x01, 0x90, 0x00]),
  ([0x00, 0xB2, 0x01, 0x0C, 0x00],
   [0x70, 0x29, 0x61, 0x27, 0x4F, 0x07, 0xA0, 0x00, 0x00, 0x00, 0x03, 0x30, 0x30, 0x50, 0x0B, 0x56, 0x49, 0x53,
       0x41, 0x20, 0x43, 0x52, 0x45, 0x44, 0x49, 0x54, 0x87, 0x01, 0x01, 0x9F, 0x12, 0x0B, 0x56, 0x49, 0x53, 0x41,
       0x20, 0x43, 0x52, 0x45, 0x44, 0x49, 0x54, 0x90, 0x00]),
  ([0x00, 0xB2, 0x02, 0x0C, 0x00],
   [0x6A, 0x83]),
  ([0x00, 0xA4, 0x04, 0x00, 0x06, 0xA0, 0x00, 0x00, 0x00, 0x03, 0x10, 0x00],
   [0x6A, 0x82]),
  ([0x00, 0xA4, 0x04, 0x00, 0x07, 0xA0, 0x00, 0x00, 0x00, 0x03, 0x20, 0x10, 0x00],
   [0x6A, 0x82]),
  ([0x00, 0xA4, 0x04, 0x00, 0x07, 0xA0, 0x00, 0x00, 0x00, 0x03, 0x20, 0x20, 0x00],
   [0x6A, 0x82]),
  ([0x00, 0xA4, 0x04, 0x00, 0x06, 0xA0, 0x00, 0x00, 0x00, 0x04, 0x10, 0x00],
   [0x6A, 0x82]),
  ([0x00, 0xA4, 0x04, 0x00, 0x06, 0xA0, 0x00, 0x00, 0x00, 0x04, 0x30, 0x00],
   [0x6A, 0x82])]

/-- tests/emv_build_candidate_list_test.c:538. -/
example : built test_pse_app_not_supported = some (3, [], false) := by decide +kernel

/-- tests/emv_build_candidate_list_test.c:194. -/
def test_pse_app_supported : Table := [([0x00, 0xA4, 0x04, 0x00, 0x0E, 0x31, 0x50, 0x41, 0x59, 0x2E, 0x53, 0x59,
    0x53, 0x2E, 0x44, 0x44, 0x46, 0x30, 0x31, 0x00],
   [0x6F, 0x20, 0x84, 0x0E, 0x31, 0x50, 0x41, 0x59, 0x2E, 0x53, 0x59, 0x53, 0x2E, 0x44, 0x44, 0x46, 0x30, 0x31,
       0xA5, 0x0E, 0x88, 0x01, 0x01, 0x5F, 0x2D, 0x04, 0x6E, 0x6C, 0x65, 0x6E, 0x9F, 0x11, 0x01, 0x01, 0x90, 0x00]),
  ([0x00, 0xB2, 0x01, 0x0C, 0x00],
   [0x70, 0x29, 0x61, 0x27, 0x4F, 0x07, 0xA0, 0x00, 0x00, 0x00, 0x03, 0x10, 0x10, 0x50, 0x0B, 0x56, 0x49, 0x53,
       0x41, 0x20, 0x43, 0x52, 0x45, 0x44, 0x49, 0x54, 0x87, 0x01, 0x01, 0x9F, 0x12, 0x0B, 0x56, 0x49, 0x53, 0x41,
       0x20, 0x43, 0x52, 0x45, 0x44, 0x49, 0x54, 0x90, 0x00]),
  ([0x00, 0xB2, 0x02, 0x0C, 0x00],
   [0x6A, 0x83])]

/-- tests/emv_build_candidate_list_test.c:568. -/
example : built test_pse_app_supported = some (0, [txt!"VISA CREDIT"], false) := by decide +kernel

/-- tests/emv_build_candidate_list_test.c:210. -/
def test_pse_multi_app_supported : Table := [([0x00, 0xA4, 0x04, 0x00, 0x0E, 0x31, 0x50, 0x41, 0x59, 0x2E, 0x53,
    0x59, 0x53, 0x2E, 0x44, 0x44, 0x46, 0x30, 0x31, 0x00],
   [0x6F, 0x20, 0x84, 0x0E, 0x31, 0x50, 0x41, 0x59, 0x2E, 0x53, 0x59, 0x53, 0x2E, 0x44, 0x44, 0x46, 0x30, 0x31,
       0xA5, 0x0E, 0x88, 0x01, 0x01, 0x5F, 0x2D, 0x04, 0x6E, 0x6C, 0x65, 0x6E, 0x9F, 0x11, 0x01, 0x01, 0x90, 0x00]),
  ([0x00, 0xB2, 0x01, 0x0C, 0x00],
   [0x70, 0x44, 0x61, 0x20, 0x4F, 0x07, 0xA0, 0x00, 0x00, 0x00, 0x03, 0x20, 0x20, 0x50, 0x05, 0x56, 0x20, 0x50,
       0x41, 0x59, 0x87, 0x01, 0x01, 0x73, 0x0B, 0x9F, 0x0A, 0x08, 0x00, 0x01, 0x05, 0x01, 0x00, 0x00, 0x00, 0x00,
       0x61, 0x20, 0x4F, 0x07, 0xA0, 0x00, 0x00, 0x00, 0x03, 0x20, 0x10, 0x50, 0x05, 0x56, 0x20, 0x50, 0x41, 0x59,
       0x87, 0x01, 0x02, 0x73, 0x0B, 0x9F, 0x0A, 0x08, 0x00, 0x01, 0x05, 0x01, 0x00, 0x00, 0x00, 0x00, 0x90, 0x00]),
  ([0x00, 0xB2, 0x02, 0x0C, 0x00],
   [0x6A, 0x83])]

/-- tests/emv_build_candidate_list_test.c:598. -/
example : built test_pse_multi_app_supported = some (0, [txt!"V PAY", txt!"V PAY"], true) := by decide +kernel

/-- tests/emv_build_candidate_list_test.c:226. -/
def test_aid_multi_exact_match_app_supported : Table := [([0x00, 0xA4, 0x04, 0x00, 0x0E, 0x31, 0x50, 0x41, 0x59,
    0x2E, 0x53, 0x59, 0x53, 0x2E, 0x44, 0x44, 0x46, 0x30, 0x31, 0x00],
   [0x6A, 0x82]),
  ([0x00, 0xA4, 0x04, 0x00, 0x06, 0xA0, 0x00, 0x00, 0x00, 0x03, 0x10, 0x00],
   [0x6A, 0x82]),
  ([0x00, 0xA4, 0x04, 0x00, 0x07, 0xA0, 0x00, 0x00, 0x00, 0x03, 0x20, 0x10, 0x00],
   [0x6F, 0x2F, 0x84, 0x07, 0xA0, 0x00, 0x00, 0x00, 0x03, 0x20, 0x10, 0xA5, 0x24, 0x50, 0x05, 0x56, 0x20, 0x50,
       0x41, 0x59, 0x87, 0x01, 0x02, 0x5F, 0x2D, 0x04, 0x6E, 0x6C, 0x65, 0x6E, 0xBF, 0x0C, 0x10, 0x9F, 0x4D, 0x02,
       0x0B, 0x05, 0x9F, 0x0A, 0x08, 0x00, 0x01, 0x05, 0x01, 0x00, 0x00, 0x00, 0x00, 0x90, 0x00]),
  ([0x00, 0xA4, 0x04, 0x00, 0x07, 0xA0, 0x00, 0x00, 0x00, 0x03, 0x20, 0x20, 0x00],
   [0x6F, 0x2F, 0x84, 0x07, 0xA0, 0x00, 0x00, 0x00, 0x03, 0x20, 0x20, 0xA5, 0x24, 0x50, 0x05, 0x56, 0x20, 0x50,
       0x41, 0x59, 0x87, 0x01, 0x01, 0x5F, 0x2D, 0x04, 0x6E, 0x6C, 0x65, 0x6E, 0xBF, 0x0C, 0x10, 0x9F, 0x4D, 0x02,
       0x0B, 0x05, 0x9F, 0x0A, 0x08, 0x00, 0x01, 0x05, 0x01, 0x00, 0x00, 0x00, 0x00, 0x90, 0x00]),
  ([0x00, 0xA4, 0x04, 0x00, 0x06, 0xA0, 0x00, 0x00, 0x00, 0x04, 0x10, 0x00],
   [0x6A, 0x82]),
  ([0x00, 0xA4, 0x04, 0x00, 0x06, 0xA0, 0x00, 0x00, 0x00, 0x04, 0x30, 0x00],
   [0x6A, 0x82])]

/-- tests/emv_build_candidate_list_test.c:628. -/
example : built test_aid_multi_exact_match_app_supported = some (0, [txt!"V PAY", txt!"V PAY"], true) :=
    by decide +kernel

/-- tests/emv_build_candidate_list_test.c:254. -/
def test_aid_multi_partial_match_app_supported : Table := [([0x00, 0xA4, 0x04, 0x00, 0x0E, 0x31, 0x50, 0x41, 0x59,
    0x2E, 0x53, 0x59, 0x53, 0x2E, 0x44, 0x44, 0x46, 0x30, 0x31, 0x00],
   [0x6A, 0x82]),
  ([0x00, 0xA4, 0x04, 0x00, 0x06, 0xA0, 0x00, 0x00, 0x00, 0x03, 0x10, 0x00],
   [0x6A, 0x82]),
  ([0x00, 0xA4, 0x04, 0x00, 0x07, 0xA0, 0x00, 0x00, 0x00, 0x03, 0x20, 0x10, 0x00],
   [0x6A, 0x82]),
  ([0x00, 0xA4, 0x04, 0x00, 0x07, 0xA0, 0x00, 0x00, 0x00, 0x03, 0x20, 0x20, 0x00],
   [0x6A, 0x82]),
  ([0x00, 0xA4, 0x04, 0x00, 0x06, 0xA0, 0x00, 0x00, 0x00, 0x04, 0x10, 0x00],
   [0x6F, 0x44, 0x84, 0x07, 0xA0, 0x00, 0x00, 0x00, 0x04, 0x10, 0x10, 0xA5, 0x39, 0x50, 0x09, 0x4D, 0x43, 0x20,
       0x43, 0x52, 0x45, 0x44, 0x49, 0x54, 0x5F, 0x2D, 0x04, 0x6E, 0x6C, 0x65, 0x6E, 0x87, 0x01, 0x01, 0x9F, 0x11,
       0x01, 0x01, 0x9F, 0x12, 0x0A, 0x4D, 0x41, 0x53, 0x54, 0x45, 0x52, 0x43, 0x41, 0x52, 0x44, 0xBF, 0x0C, 0x10,
       0x9F, 0x4D, 0x02, 0x0B, 0x0A, 0x9F, 0x0A, 0x08, 0x00, 0x01, 0x05, 0x02, 0x00, 0x00, 0x00, 0x00, 0x90, 0x00]),
  ([0x00, 0xA4, 0x04, 0x02, 0x06, 0xA0, 0x00, 0x00, 0x00, 0x04, 0x10, 0x00],
   [0x6F, 0x44, 0x84, 0x07, 0xA0, 0x00, 0x00, 0x00, 0x04, 0x10, 0x20, 0xA5, 0x39, 0x50, 0x09, 0x4D, 0x43, 0x20,
       0x43, 0x52, 0x45, 0x44, 0x49, 0x54, 0x5F, 0x2D, 0x04, 0x6E, 0x6C, 0x65, 0x6E, 0x87, 0x01, 0x02, 0x9F, 0x11,
       0x01, 0x01, 0x9F, 0x12, 0x0A, 0x4D, 0x41, 0x53, 0x54, 0x45, 0x52, 0x43, 0x41, 0x52, 0x44, 0xBF, 0x0C, 0x10,
       0x9F, 0x4D, 0x02, 0x0B, 0x0A, 0x9F, 0x0A, 0x08, 0x00, 0x01, 0x05, 0x02, 0x00, 0x00, 0x00, 0x00, 0x90, 0x00]),
  ([0x00, 0xA4, 0x04, 0x02, 0x06, 0xA0, 0x00, 0x00, 0x00, 0x04, 0x10, 0x00],
   [0x6A, 0x82]),
  ([0x00, 0xA4, 0x04, 0x00, 0x06, 0xA0, 0x00, 0x00, 0x00, 0x04, 0x30, 0x00],
   [0x6A, 0x82])]

/-- tests/emv_build_candidate_list_test.c:658. -/
example : built test_aid_multi_partial_match_app_supported = some (0, [txt!"MASTERCARD", txt!"MASTERCARD"], true) :=
    by decide +kernel

/-- tests/emv_build_candidate_list_test.c:306. -/
def test_sorted_app_priority : Table := [([0x00, 0xA4, 0x04, 0x00, 0x0E, 0x31, 0x50, 0x41, 0x59, 0x2E, 0x53, 0x59,
    0x53, 0x2E, 0x44, 0x44, 0x46, 0x30, 0x31, 0x00],
   [0x6F, 0x20, 0x84, 0x0E, 0x31, 0x50, 0x41, 0x59, 0x2E, 0x53, 0x59, 0x53, 0x2E, 0x44, 0x44, 0x46, 0x30, 0x31,
       0xA5, 0x0E, 0x88, 0x01, 0x01, 0x5F, 0x2D, 0x04, 0x6E, 0x6C, 0x65, 0x6E, 0x9F, 0x11, 0x01, 0x01, 0x90, 0x00]),
  ([0x00, 0xB2, 0x01, 0x0C, 0x00],
   [0x70, 0x44, 0x61, 0x20, 0x4F, 0x07, 0xA0, 0x00, 0x00, 0x00, 0x03, 0x10, 0x05, 0x50, 0x05, 0x41, 0x50, 0x50,
       0x20, 0x35, 0x87, 0x01, 0x05, 0x73, 0x0B, 0x9F, 0x0A, 0x08, 0x00, 0x01, 0x05, 0x01, 0x00, 0x00, 0x00, 0x00,
       0x61, 0x20, 0x4F, 0x07, 0xA0, 0x00, 0x00, 0x00, 0x03, 0x10, 0x03, 0x50, 0x05, 0x41, 0x50, 0x50, 0x20, 0x33,
       0x87, 0x01, 0x04, 0x73, 0x0B, 0x9F, 0x0A, 0x08, 0x00, 0x01, 0x05, 0x01, 0x00, 0x00, 0x00, 0x00, 0x90, 0x00]),
  ([0x00, 0xB2, 0x02, 0x0C, 0x00],
   [0x70, 0x36, 0x61, 0x19, 0x4F, 0x07, 0xA0, 0x00, 0x00, 0x00, 0x05, 0x10, 0x10, 0x50, 0x05, 0x41, 0x50, 0x50,
       0x20, 0x38, 0x73, 0x07, 0x9F, 0x0A, 0x04, 0x00, 0x01, 0x01, 0x04, 0x61, 0x19, 0x4F, 0x07, 0xA0, 0x00, 0x00,
       0x00, 0x04, 0x10, 0x10, 0x50, 0x05, 0x41, 0x50, 0x50, 0x20, 0x37, 0x73, 0x07, 0x9F, 0x0A, 0x04, 0x00, 0x01,
       0x01, 0x04, 0x90, 0x00]),
  ([0x00, 0xB2, 0x03, 0x0C, 0x00],
   [0x70, 0x44, 0x61, 0x20, 0x4F, 0x07, 0xA0, 0x00, 0x00, 0x00, 0x03, 0x10, 0x01, 0x50, 0x05, 0x41, 0x50, 0x50,
       0x20, 0x31, 0x87, 0x01, 0x01, 0x73, 0x0B, 0x9F, 0x0A, 0x08, 0x00, 0x01, 0x05, 0x01, 0x00, 0x00, 0x00, 0x00,
       0x61, 0x20, 0x4F, 0x07, 0xA0, 0x00, 0x00, 0x00, 0x03, 0x10, 0x06, 0x50, 0x05, 0x41, 0x50, 0x50, 0x20, 0x36,
       0x87, 0x01, 0x07, 0x73, 0x0B, 0x9F, 0x0A, 0x08, 0x00, 0x01, 0x05, 0x01, 0x00, 0x00, 0x00, 0x00, 0x90, 0x00]),
  ([0x00, 0xB2, 0x04, 0x0C, 0x00],
   [0x70, 0x44, 0x61, 0x20, 0x4F, 0x07, 0xA0, 0x00, 0x00, 0x00, 0x03, 0x10, 0x02, 0x50, 0x05, 0x41, 0x50, 0x50,
       0x20, 0x32, 0x87, 0x01, 0x01, 0x73, 0x0B, 0x9F, 0x0A, 0x08, 0x00, 0x01, 0x05, 0x01, 0x00, 0x00, 0x00, 0x00,
       0x61, 0x20, 0x4F, 0x07, 0xA0, 0x00, 0x00, 0x00, 0x03, 0x10, 0x04, 0x50, 0x05, 0x41, 0x50, 0x50, 0x20, 0x34,
       0x87, 0x01, 0x04, 0x73, 0x0B, 0x9F, 0x0A, 0x08, 0x00, 0x01, 0x05, 0x01, 0x00, 0x00, 0x00, 0x00, 0x90, 0x00]),
  ([0x00, 0xB2, 0x05, 0x0C, 0x00],
   [0x6A, 0x83])]

/-- tests/emv_build_candidate_list_test.c:688. -/
example : built test_sorted_app_priority = some (0, [txt!"APP 1", txt!"APP 2", txt!"APP 3", txt!"APP 4",
    txt!"APP 5", txt!"APP 6", txt!"APP 7"], true) := by decide +kernel

/-- tests/emv_build_candidate_list_test.c:334. -/
def test_app_cardholder_confirmation : Table := [([0x00, 0xA4, 0x04, 0x00, 0x0E, 0x31, 0x50, 0x41, 0x59, 0x2E, 0x53,
    0x59, 0x53, 0x2E, 0x44, 0x44, 0x46, 0x30, 0x31, 0x00],
   [0x6F, 0x20, 0x84, 0x0E, 0x31, 0x50, 0x41, 0x59, 0x2E, 0x53, 0x59, 0x53, 0x2E, 0x44, 0x44, 0x46, 0x30, 0x31,
       0xA5, 0x0E, 0x88, 0x01, 0x01, 0x5F, 0x2D, 0x04, 0x6E, 0x6C, 0x65, 0x6E, 0x9F, 0x11, 0x01, 0x01, 0x90, 0x00]),
  ([0x00, 0xB2, 0x01, 0x0C, 0x00],
   [0x70, 0x29, 0x61, 0x27, 0x4F, 0x07, 0xA0, 0x00, 0x00, 0x00, 0x03, 0x10, 0x10, 0x50, 0x0B, 0x56, 0x49, 0x53,
       0x41, 0x20, 0x43, 0x52, 0x45, 0x44, 0x49, 0x54, 0x87, 0x01, 0x81, 0x9F, 0x12, 0x0B, 0x56, 0x49, 0x53, 0x41,
       0x20, 0x43, 0x52, 0x45, 0x44, 0x49, 0x54, 0x90, 0x00]),
  ([0x00, 0xB2, 0x02, 0x0C, 0x00],
   [0x6A, 0x83])]

/-- tests/emv_build_candidate_list_test.c:729. -/
example : built test_app_cardholder_confirmation = some (0, [txt!"VISA CREDIT"], true) := by decide +kernel

/-! ## `emv_select_application_test.c` -/

/-- tests/emv_select_application_test.c:39. -/
def sel_test_pse : Table := [([0x00, 0xA4, 0x04, 0x00, 0x0E, 0x31, 0x50, 0x41, 0x59, 0x2E, 0x53, 0x59, 0x53, 0x2E,
    0x44, 0x44, 0x46, 0x30, 0x31, 0x00],
   [0x6F, 0x20, 0x84, 0x0E, 0x31, 0x50, 0x41, 0x59, 0x2E, 0x53, 0x59, 0x53, 0x2E, 0x44, 0x44, 0x46, 0x30, 0x31,
       0xA5, 0x0E, 0x88, 0x01, 0x01, 0x5F, 0x2D, 0x04, 0x6E, 0x6C, 0x65, 0x6E, 0x9F, 0x11, 0x01, 0x01, 0x90, 0x00]),
  ([0x00, 0xB2, 0x01, 0x0C, 0x00],
   [0x70, 0x44, 0x61, 0x20, 0x4F, 0x07, 0xA0, 0x00, 0x00, 0x00, 0x03, 0x10, 0x05, 0x50, 0x05, 0x41, 0x50, 0x50,
       0x20, 0x35, 0x87, 0x01, 0x05, 0x73, 0x0B, 0x9F, 0x0A, 0x08, 0x00, 0x01, 0x05, 0x01, 0x00, 0x00, 0x00, 0x00,
       0x61, 0x20, 0x4F, 0x07, 0xA0, 0x00, 0x00, 0x00, 0x03, 0x10, 0x03, 0x50, 0x05, 0x41, 0x50, 0x50, 0x20, 0x33,
       0x87, 0x01, 0x04, 0x73, 0x0B, 0x9F, 0x0A, 0x08, 0x00, 0x01, 0x05, 0x01, 0x00, 0x00, 0x00, 0x00, 0x90, 0x00]),
  ([0x00, 0xB2, 0x02, 0x0C, 0x00],
   [0x70, 0x36, 0x61, 0x19, 0x4F, 0x07, 0xA0, 0x00, 0x00, 0x00, 0x05, 0x10, 0x10, 0x50, 0x05, 0x41, 0x50, 0x50,
       0x20, 0x38, 0x73, 0x07, 0x9F, 0x0A, 0x04, 0x00, 0x01, 0x01, 0x04, 0x61, 0x19, 0x4F, 0x07, 0xA0, 0x00, 0x00,
       0x00, 0x04, 0x10, 0x10, 0x50, 0x05, 0x41, 0x50, 0x50, 0x20, 0x37, 0x73, 0x07, 0x9F, 0x0A, 0x04, 0x00, 0x01,
       0x01, 0x04, 0x90, 0x00]),
  ([0x00, 0xB2, 0x03, 0x0C, 0x00],
   [0x70, 0x44, 0x61, 0x20, 0x4F, 0x07, 0xA0, 0x00, 0x00, 0x00, 0x03, 0x10, 0x01, 0x50, 0x05, 0x41, 0x50, 0x50,
       0x20, 0x31, 0x87, 0x01, 0x01, 0x73, 0x0B, 0x9F, 0x0A, 0x08, 0x00, 0x01, 0x05, 0x01, 0x00, 0x00, 0x00, 0x00,
       0x61, 0x20, 0x4F, 0x07, 0xA0, 0x00, 0x00, 0x00, 0x03, 0x10, 0x06, 0x50, 0x05, 0x41, 0x50, 0x50, 0x20, 0x36,
       0x87, 0x01, 0x07, 0x73, 0x0B, 0x9F, 0x0A, 0x08, 0x00, 0x01, 0x05, 0x01, 0x00, 0x00, 0x00, 0x00, 0x90, 0x00]),
  ([0x00, 0xB2, 0x04, 0x0C, 0x00],
   [0x70, 0x44, 0x61, 0x20, 0x4F, 0x07, 0xA0, 0x00, 0x00, 0x00, 0x03, 0x10, 0x02, 0x50, 0x05, 0x41, 0x50, 0x50,
       0x20, 0x32, 0x87, 0x01, 0x01, 0x73, 0x0B, 0x9F, 0x0A, 0x08, 0x00, 0x01, 0x05, 0x01, 0x00, 0x00, 0x00, 0x00,
       0x61, 0x20, 0x4F, 0x07, 0xA0, 0x00, 0x00, 0x00, 0x03, 0x10, 0x04, 0x50, 0x05, 0x41, 0x50, 0x50, 0x20, 0x34,
       0x87, 0x01, 0x04, 0x73, 0x0B, 0x9F, 0x0A, 0x08, 0x00, 0x01, 0x05, 0x01, 0x00, 0x00, 0x00, 0x00, 0x90, 0x00]),
  ([0x00, 0xB2, 0x05, 0x0C, 0x00],
   [0x6A, 0x83])]

/-- tests/emv_select_application_test.c:67. -/
def sel_test_select_app1 : Table := [([0x00, 0xA4, 0x04, 0x00, 0x07, 0xA0, 0x00, 0x00, 0x00, 0x03, 0x10, 0x01, 0x00],
   [0x6A, 0x82])]

/-- tests/emv_select_application_test.c:75. -/
def sel_test_select_app7 : Table := [([0x00, 0xA4, 0x04, 0x00, 0x07, 0xA0, 0x00, 0x00, 0x00, 0x04, 0x10, 0x10, 0x00],
   [0x62, 0x83]),
  ([0x00, 0xC0, 0x00, 0x00, 0x00],
   [0x6C, 0x61]),
  ([0x00, 0xC0, 0x00, 0x00, 0x61],
   [0x6F, 0x5D, 0x84, 0x07, 0xA0, 0x00, 0x00, 0x00, 0x04, 0x10, 0x10, 0xA5, 0x52, 0x50, 0x10, 0x44, 0x45, 0x42,
       0x49, 0x54, 0x20, 0x4D, 0x41, 0x53, 0x54, 0x45, 0x52, 0x43, 0x41, 0x52, 0x44, 0x9F, 0x12, 0x10, 0x44, 0x65,
       0x62, 0x69, 0x74, 0x20, 0x4D, 0x61, 0x73, 0x74, 0x65, 0x72, 0x43, 0x61, 0x72, 0x64, 0x87])]

/-- tests/emv_select_application_test.c:91. -/
def sel_test_select_app4 : Table := [([0x00, 0xA4, 0x04, 0x00, 0x07, 0xA0, 0x00, 0x00, 0x00, 0x03, 0x10, 0x04, 0x00],
   [0x00])]

/-- tests/emv_select_application_test.c:99. -/
def sel_test_select_app3 : Table := [([0x00, 0xA4, 0x04, 0x00, 0x07, 0xA0, 0x00, 0x00, 0x00, 0x03, 0x10, 0x03, 0x00],
   [0x6A, 0x81])]

/-- tests/emv_select_application_test.c:107. -/
def sel_test_select_app5 : Table := [([0x00, 0xA4, 0x04, 0x00, 0x07, 0xA0, 0x00, 0x00, 0x00, 0x03, 0x10, 0x05, 0x00],
   [0x6F, 0x1C, 0x85, 0x07, 0xA0, 0x00, 0x00, 0x00, 0x03, 0x10, 0x05, 0xA5, 0x11, 0x50, 0x05, 0x56, 0x20, 0x50,
       0x41, 0x59, 0x87, 0x01, 0x01, 0x5F, 0x2D, 0x04, 0x6E, 0x6C, 0x65, 0x6E, 0x90, 0x00])]

/-- tests/emv_select_application_test.c:115. -/
def sel_test_select_app2 : Table := [([0x00, 0xA4, 0x04, 0x00, 0x07, 0xA0, 0x00, 0x00, 0x00, 0x03, 0x10, 0x02, 0x00],
   [0x6F, 0x1C, 0x84, 0x07, 0xA0, 0x00, 0x00, 0x00, 0x03, 0x10, 0x05, 0xA5, 0x11, 0x50, 0x05, 0x56, 0x20, 0x50,
       0x41, 0x59, 0x87, 0x01, 0x01, 0x5F, 0x2D, 0x04, 0x6E, 0x6C, 0x65, 0x6E, 0x90, 0x00])]

/-- tests/emv_select_application_test.c:123. -/
def sel_test_select_app6 : Table := [([0x00, 0xA4, 0x04, 0x00, 0x07, 0xA0, 0x00, 0x00, 0x00, 0x03, 0x10, 0x06, 0x00],
   [0x6F, 0x1C, 0x84, 0x07, 0xA0, 0x00, 0x00, 0x00, 0x03, 0x10, 0x05, 0xA5, 0x11, 0x50, 0x05, 0x56, 0x20, 0x50,
       0x41, 0x59, 0x87, 0x01, 0x01, 0x5F, 0x2D, 0x04, 0x6E, 0x6C, 0x65, 0x6E, 0x90, 0x00])]

/-- tests/emv_select_application_test.c:131. -/
def sel_test_select_app_success : Table := [([0x00, 0xA4, 0x04, 0x00, 0x07, 0xA0, 0x00, 0x00, 0x00, 0x03, 0x10,
    0x03, 0x00],
   [0x6F, 0x1C, 0x84, 0x07, 0xA0, 0x00, 0x00, 0x00, 0x03, 0x10, 0x03, 0xA5, 0x11, 0x50, 0x05, 0x56, 0x20, 0x50,
       0x41, 0x59, 0x87, 0x01, 0x01, 0x5F, 0x2D, 0x04, 0x6E, 0x6C, 0x65, 0x6E, 0x90, 0x00])]

/-- tests/emv_select_application_test.c:139. -/
def sel_test_repeat_select_app_success : Table := [([0x00, 0xA4, 0x04, 0x00, 0x07, 0xA0, 0x00, 0x00, 0x00, 0x03,
    0x10, 0x04, 0x00],
   [0x6F, 0x1C, 0x84, 0x07, 0xA0, 0x00, 0x00, 0x00, 0x03, 0x10, 0x04, 0xA5, 0x11, 0x50, 0x05, 0x56, 0x20, 0x50,
       0x41, 0x59, 0x87, 0x01, 0x01, 0x5F, 0x2D, 0x04, 0x6E, 0x6C, 0x65, 0x6E, 0x90, 0x00])]

/-- The candidate list and the context between two calls. -/
structure State where
  apps : List App
  ctx : Emv.Ctx

/-- The list all selections start from (tests/emv_select_application_test.c:219-251). -/
def start : Option State :=
  (over sel_test_pse (Emv.build supported [])).map fun a => ⟨a.2, { Emv.Ctx.init with supported := supported }⟩

/-- One call of `emv_select_application`. -/
def selects (t : Table) (index : Nat) (s : Option State) : Option (Int × State) :=
  s.bind fun s => (over t (Emv.select s.ctx s.apps index)).map fun a => (a.1, ⟨a.2.1, a.2.2⟩)

/-- The calls of the test one after the other, each on what the previous one left; for each the code, the numbers in
the display names of the remaining candidates (`verify_app_list_numbers`, tests/emv_select_application_test.c:147),
and whether there is a selected application. -/
def selections : List (Table × Nat) → Option State → Option (List (Int × List Byte × Bool))
  | [], _ => some []
  | (t, i) :: rest, s =>
    match selects t i s with
    | none => none
    | some (code, s) => (selections rest (some s)).map fun l =>
        (code, s.apps.map (fun a => a.name.getD 4 0 - 0x30), s.ctx.selected.isSome) :: l

/-- tests/emv_select_application_test.c:219-251. -/
example : start.map (fun s => (s.apps.map (fun a => a.name.takeWhile (· ≠ 0)), ToolTxn.required s.apps)) =
    some ([txt!"APP 1", txt!"APP 2", txt!"APP 3", txt!"APP 4", txt!"APP 5", txt!"APP 6", txt!"APP 7"], true) :=
        by decide +kernel

/-- tests/emv_select_application_test.c:253-508. -/
example : selections [([], 13), (sel_test_select_app1, 0), (sel_test_select_app7, 5), (sel_test_select_app4, 2),
      (sel_test_select_app3, 1), (sel_test_select_app5, 1), (sel_test_select_app2, 0), (sel_test_select_app6, 0)]
          start =
    some [(-2, [1, 2, 3, 4, 5, 6, 7], false), (4, [2, 3, 4, 5, 6, 7], false), (4, [2, 3, 4, 5, 6], false),
      (1, [2, 3, 5, 6], false), (2, [2, 5, 6], false), (4, [2, 6], false), (4, [6], false), (3, [], false)] := by
  decide +kernel

/-- tests/emv_select_application_test.c:509-600. -/
example : selections [(sel_test_select_app_success, 2), (sel_test_repeat_select_app_success, 2)] start =
    some [(0, [1, 2, 4, 5, 6, 7], true), (0, [1, 2, 5, 6, 7], true)] := by decide +kernel

/-! ## `emv_initiate_application_processing_test.c` -/

/-- tests/emv_initiate_application_processing_test.c:38. -/
def params : List Tlv := [⟨0x9C, 0, [0x09]⟩, ⟨0x9A, 0, [0x24, 0x02, 0x17]⟩, ⟨0x5F2A, 0, [0x09, 0x78]⟩, ⟨0x9F02, 0,
    [0x00, 0x01, 0x23, 0x45, 0x67, 0x89]⟩, ⟨0x9F03, 0, [0x00, 0x09, 0x87, 0x65, 0x43, 0x21]⟩, ⟨0x9F33, 0, [0x60,
    0xF0, 0xC8]⟩]

/-- tests/emv_initiate_application_processing_test.c:46. -/
def config : List Tlv := [⟨0x9F1A, 0, [0x05, 0x28]⟩, ⟨0x9F33, 0, [0x60, 0xFD, 0xC8]⟩, ⟨0x9F35, 0, [0x22]⟩, ⟨0x9F40,
    0, [0xFA, 0x00, 0xF0, 0xA3, 0xFF]⟩]

/-- tests/emv_initiate_application_processing_test.c:54. -/
def init_test1_apdu_list : Table := [([0x80, 0xA8, 0x00, 0x00, 0x02, 0x83, 0x00, 0x00],
   [0x80, 0x0E, 0x78, 0x00, 0x08, 0x02, 0x02, 0x00, 0x10, 0x01, 0x04, 0x00, 0x18, 0x01, 0x02, 0x01, 0x90, 0x00])]

/-- tests/emv_initiate_application_processing_test.c:65. -/
def init_test2_apdu_list : Table := [([0x80, 0xA8, 0x00, 0x00, 0x02, 0x83, 0x00, 0x00],
   [0x77, 0x0E, 0x82, 0x02, 0x39, 0x00, 0x94, 0x08, 0x18, 0x01, 0x02, 0x01, 0x20, 0x02, 0x04, 0x00, 0x90, 0x00])]

/-- tests/emv_initiate_application_processing_test.c:76. -/
def init_test3_apdu_list : Table := [([0x80, 0xA8, 0x00, 0x00, 0x05, 0x83, 0x03, 0x60, 0xF0, 0xC8, 0x00],
   [0x69, 0x85])]

/-- tests/emv_initiate_application_processing_test.c:85. -/
def init_test4_apdu_list : Table := [([0x80, 0xA8, 0x00, 0x00, 0x05, 0x83, 0x03, 0x60, 0xF0, 0xC8, 0x00],
   [0x80, 0x0E, 0x78, 0x00, 0x08, 0x02, 0x02, 0x00, 0x10, 0x01, 0x04, 0x00, 0x18, 0x01, 0x02, 0x01, 0x90, 0x00])]

/-- tests/emv_initiate_application_processing_test.c:96. -/
def init_test5_apdu_list : Table := []

/-- tests/emv_initiate_application_processing_test.c:101. -/
def init_test6_apdu_list : Table := [([0x80, 0xA8, 0x00, 0x00, 0x05, 0x83, 0x03, 0x60, 0xF0, 0xC8, 0x00],
   [0x6A, 0x81])]

/-- What the test looks at. -/
structure Initiated where
  code : Int
  aip : Option (List Byte)
  afl : Option (List Byte)
  empty : Bool
  terminal : List Nat
deriving DecidableEq

/-- `emv_initiate_application_processing` with the application made from an FCI: the code, the AIP, the AFL, whether
the ICC data is empty, and the tags of the terminal data. -/
def initiated (t : Table) (fci : List Byte) : Option Initiated :=
  match App.createFromFci fci with
  | .ok (some a) =>
    (over t (Emv.initiate mem (List.replicate 255 0xEE)
      { Emv.Ctx.init with params := params, config := config, selected := some ⟨a, .own⟩ } 0x05)).map
      fun (r : Int × Emv.Ctx) => ⟨r.1, (find r.2.icc 0x82).map (·.value), (find r.2.icc 0x94).map (·.value),
        r.2.icc.isEmpty, r.2.terminal.map (·.tag)⟩
  | _ => none

/-- Test 1, tests/emv_initiate_application_processing_test.c:195. -/
example : initiated init_test1_apdu_list [0x6F, 0x12, 0x84, 0x07, 0xA0, 0x00, 0x00, 0x00, 0x03, 0x10, 0x03, 0xA5,
    0x07, 0x50, 0x05, 0x44, 0x65, 0x62, 0x69, 0x74] =
    some ⟨0, some [0x78, 0x00], some [0x08, 0x02, 0x02, 0x00, 0x10, 0x01, 0x04, 0x00, 0x18, 0x01, 0x02, 0x01],
        false, [0x9F39, 0x9F06, 0x9B, 0x95]⟩ := by decide +kernel

/-- Test 2, tests/emv_initiate_application_processing_test.c:262. -/
example : initiated init_test2_apdu_list [0x6F, 0x12, 0x84, 0x07, 0xA0, 0x00, 0x00, 0x00, 0x03, 0x10, 0x03, 0xA5,
    0x07, 0x50, 0x05, 0x44, 0x65, 0x62, 0x69, 0x74] =
    some ⟨0, some [0x39, 0x00], some [0x18, 0x01, 0x02, 0x01, 0x20, 0x02, 0x04, 0x00], false, [0x9F39, 0x9F06, 0x9B,
        0x95]⟩ := by decide +kernel

/-- Test 3, tests/emv_initiate_application_processing_test.c:329. -/
example : initiated init_test3_apdu_list [0x6F, 0x18, 0x84, 0x07, 0xA0, 0x00, 0x00, 0x00, 0x03, 0x10, 0x03, 0xA5,
    0x0D, 0x50, 0x05, 0x44, 0x65, 0x62, 0x69, 0x74, 0x9F, 0x38, 0x03, 0x9F, 0x33, 0x03] =
    some ⟨5, none, none, true, [0x9F39, 0x9F06, 0x9B, 0x95]⟩ := by decide +kernel

/-- Test 4, tests/emv_initiate_application_processing_test.c:366. -/
example : initiated init_test4_apdu_list [0x6F, 0x18, 0x84, 0x07, 0xA0, 0x00, 0x00, 0x00, 0x03, 0x10, 0x03, 0xA5,
    0x0D, 0x50, 0x05, 0x44, 0x65, 0x62, 0x69, 0x74, 0x9F, 0x38, 0x03, 0x9F, 0x33, 0x03] =
    some ⟨0, some [0x78, 0x00], some [0x08, 0x02, 0x02, 0x00, 0x10, 0x01, 0x04, 0x00, 0x18, 0x01, 0x02, 0x01],
        false, [0x9F39, 0x9F06, 0x9B, 0x95]⟩ := by decide +kernel

/-- Test 5, tests/emv_initiate_application_processing_test.c:433. -/
example : initiated init_test5_apdu_list [0x6F, 0x18, 0x84, 0x07, 0xA0, 0x00, 0x00, 0x00, 0x03, 0x10, 0x03, 0xA5,
    0x0D, 0x50, 0x05, 0x44, 0x65, 0x62, 0x69, 0x74, 0x9F, 0x38, 0x03, 0x9F, 0x33, 0xFF] =
    some ⟨1, none, none, true, [0x9F39, 0x9F06, 0x9B, 0x95]⟩ := by decide +kernel

/-- Test 6, tests/emv_initiate_application_processing_test.c:470. -/
example : initiated init_test6_apdu_list [0x6F, 0x18, 0x84, 0x07, 0xA0, 0x00, 0x00, 0x00, 0x03, 0x10, 0x03, 0xA5,
    0x0D, 0x50, 0x05, 0x44, 0x65, 0x62, 0x69, 0x74, 0x9F, 0x38, 0x03, 0x9F, 0x33, 0x03] =
    some ⟨1, none, none, true, [0x9F39, 0x9F06, 0x9B, 0x95]⟩ := by decide +kernel

/-! ## `emv_read_application_data_test.c` -/

/-- tests/emv_read_application_data_test.c:36. -/
def read_test2_apdu_list : Table := []

/-- tests/emv_read_application_data_test.c:41. -/
def read_test3_apdu_list : Table := [([0x00, 0xB2, 0x02, 0x0C, 0x00],
   [0x69, 0x85])]

/-- tests/emv_read_application_data_test.c:50. -/
def read_test4_apdu_list : Table := [([0x00, 0xB2, 0x02, 0x0C, 0x00],
   [0x71, 0x00, 0x90, 0x00])]

/-- tests/emv_read_application_data_test.c:59. -/
def read_test5_apdu_list : Table := [([0x00, 0xB2, 0x02, 0x0C, 0x00],
   [0x70, 0x33, 0x57, 0x11, 0x47, 0x61, 0x73, 0x90, 0x01, 0x01, 0x01, 0x19, 0xD2, 0x21, 0x22, 0x01, 0x17, 0x58,
       0x92, 0x88, 0x89, 0x5F, 0x20, 0x0C, 0x45, 0x58, 0x50, 0x49, 0x52, 0x45, 0x44, 0x2F, 0x43, 0x41, 0x52, 0x44,
       0x9F, 0x1F, 0x0E, 0x31, 0x37, 0x35, 0x38, 0x39, 0x30, 0x39, 0x36, 0x30, 0x30, 0x30, 0x30, 0x30, 0x30, 0xFF,
       0xFF, 0x90, 0x00])]

/-- tests/emv_read_application_data_test.c:76. -/
def read_test6_apdu_list : Table := [([0x00, 0xB2, 0x02, 0x0C, 0x00],
   [0x70, 0x33, 0x57, 0x11, 0x47, 0x61, 0x73, 0x90, 0x01, 0x01, 0x01, 0x19, 0xD2, 0x21, 0x22, 0x01, 0x17, 0x58,
       0x92, 0x88, 0x89, 0x5F, 0x20, 0x0C, 0x45, 0x58, 0x50, 0x49, 0x52, 0x45, 0x44, 0x2F, 0x43, 0x41, 0x52, 0x44,
       0x9F, 0x1F, 0x0F, 0x31, 0x37, 0x35, 0x38, 0x39, 0x30, 0x39, 0x36, 0x30, 0x30, 0x30, 0x30, 0x30, 0x30, 0x90,
       0x00])]

/-- tests/emv_read_application_data_test.c:92. -/
def read_test7_apdu_list : Table := [([0x00, 0xB2, 0x02, 0x0C, 0x00],
   [0x70, 0x33, 0x57, 0x11, 0x47, 0x61, 0x73, 0x90, 0x01, 0x01, 0x01, 0x19, 0xD2, 0x21, 0x22, 0x01, 0x17, 0x58,
       0x92, 0x88, 0x89, 0x5F, 0x20, 0x0C, 0x45, 0x58, 0x50, 0x49, 0x52, 0x45, 0x44, 0x2F, 0x43, 0x41, 0x52, 0x44,
       0x9F, 0x1F, 0x0E, 0x31, 0x37, 0x35, 0x38, 0x39, 0x30, 0x39, 0x36, 0x30, 0x30, 0x30, 0x30, 0x30, 0x30, 0x90,
       0x00])]

/-- tests/emv_read_application_data_test.c:108. -/
def read_test8_apdu_list : Table := [([0x00, 0xB2, 0x02, 0x0C, 0x00],
   [0x70, 0x33, 0x57, 0x11, 0x47, 0x61, 0x73, 0x90, 0x01, 0x01, 0x01, 0x19, 0xD2, 0x21, 0x22, 0x01, 0x17, 0x58,
       0x92, 0x88, 0x89, 0x5F, 0x20, 0x0C, 0x45, 0x58, 0x50, 0x49, 0x52, 0x45, 0x44, 0x2F, 0x43, 0x41, 0x52, 0x44,
       0x9F, 0x1F, 0x0E, 0x31, 0x37, 0x35, 0x38, 0x39, 0x30, 0x39, 0x36, 0x30, 0x30, 0x30, 0x30, 0x30, 0x30, 0x90,
       0x00]),
  ([0x00, 0xB2, 0x01, 0x14, 0x00],
   [0x70, 0x13, 0x8F, 0x01, 0x94, 0x92, 0x00, 0x9F, 0x32, 0x01, 0x03, 0x9F, 0x47, 0x01, 0x03, 0x9F, 0x49, 0x03,
       0x9F, 0x37, 0x04, 0x90, 0x00]),
  ([0x00, 0xB2, 0x02, 0x14, 0x00],
   [0x70, 0x03, 0x8F, 0x01, 0x94, 0x90, 0x00])]

/-- tests/emv_read_application_data_test.c:139. -/
def read_test9_apdu_list : Table := [([0x00, 0xB2, 0x02, 0x0C, 0x00],
   [0x70, 0x33, 0x57, 0x11, 0x47, 0x61, 0x73, 0x90, 0x01, 0x01, 0x01, 0x19, 0xD2, 0x21, 0x22, 0x01, 0x17, 0x58,
       0x92, 0x88, 0x89, 0x5F, 0x20, 0x0C, 0x45, 0x58, 0x50, 0x49, 0x52, 0x45, 0x44, 0x2F, 0x43, 0x41, 0x52, 0x44,
       0x9F, 0x1F, 0x0E, 0x31, 0x37, 0x35, 0x38, 0x39, 0x30, 0x39, 0x36, 0x30, 0x30, 0x30, 0x30, 0x30, 0x30, 0x90,
       0x00]),
  ([0x00, 0xB2, 0x01, 0x14, 0x00],
   [0x70, 0x14, 0x5A, 0x08, 0x47, 0x61, 0x73, 0x90, 0x01, 0x01, 0x01, 0x19, 0x5F, 0x34, 0x01, 0x01, 0x5F, 0x24,
       0x03, 0x22, 0x12, 0x31, 0x90, 0x00]),
  ([0x00, 0xB2, 0x02, 0x14, 0x00],
   [0x70, 0x13, 0x8F, 0x01, 0x94, 0x92, 0x00, 0x9F, 0x32, 0x01, 0x03, 0x9F, 0x47, 0x01, 0x03, 0x9F, 0x49, 0x03,
       0x9F, 0x37, 0x04, 0x90, 0x00])]

/-- tests/emv_read_application_data_test.c:171. -/
def read_test10_apdu_list : Table := [([0x00, 0xB2, 0x02, 0x0C, 0x00],
   [0x70, 0x33, 0x57, 0x11, 0x47, 0x61, 0x73, 0x90, 0x01, 0x01, 0x01, 0x19, 0xD2, 0x21, 0x22, 0x01, 0x17, 0x58,
       0x92, 0x88, 0x89, 0x5F, 0x20, 0x0C, 0x45, 0x58, 0x50, 0x49, 0x52, 0x45, 0x44, 0x2F, 0x43, 0x41, 0x52, 0x44,
       0x9F, 0x1F, 0x0E, 0x31, 0x37, 0x35, 0x38, 0x39, 0x30, 0x39, 0x36, 0x30, 0x30, 0x30, 0x30, 0x30, 0x30, 0x90,
       0x00]),
  ([0x00, 0xB2, 0x01, 0x64, 0x00],
   [0xFF, 0x90, 0x00]),
  ([0x00, 0xB2, 0x01, 0x14, 0x00],
   [0x70, 0x46, 0x5A, 0x08, 0x47, 0x61, 0x73, 0x90, 0x01, 0x01, 0x01, 0x19, 0x5F, 0x34, 0x01, 0x01, 0x5F, 0x24,
       0x03, 0x22, 0x12, 0x31, 0x8C, 0x15, 0x9F, 0x02, 0x06, 0x9F, 0x03, 0x06, 0x9F, 0x1A, 0x02, 0x95, 0x05, 0x5F,
       0x2A, 0x02, 0x9A, 0x03, 0x9C, 0x01, 0x9F, 0x37, 0x04, 0x8D, 0x19, 0x8A, 0x02, 0x9F, 0x02, 0x06, 0x9F, 0x03,
       0x06, 0x9F, 0x1A, 0x02, 0x95, 0x05, 0x5F, 0x2A, 0x02, 0x9A, 0x03, 0x9C, 0x01, 0x9F, 0x37, 0x04, 0x91, 0x08,
       0x90, 0x00]),
  ([0x00, 0xB2, 0x02, 0x14, 0x00],
   [0x70, 0x13, 0x8F, 0x01, 0x94, 0x92, 0x00, 0x9F, 0x32, 0x01, 0x03, 0x9F, 0x47, 0x01, 0x03, 0x9F, 0x49, 0x03,
       0x9F, 0x37, 0x04, 0x90, 0x00]),
  ([0x00, 0xB2, 0x01, 0x5C, 0x00],
   [0x70, 0x03, 0x01, 0x01, 0xFF, 0x90, 0x00])]

/-- tests/emv_read_application_data_test.c:213. -/
def read_test11_apdu_list : Table := [([0x00, 0xB2, 0x02, 0x0C, 0x00],
   [0x70, 0x33, 0x57, 0x11, 0x47, 0x61, 0x73, 0x90, 0x01, 0x01, 0x01, 0x19, 0xD2, 0x21, 0x22, 0x01, 0x17, 0x58,
       0x92, 0x88, 0x89, 0x5F, 0x20, 0x0C, 0x45, 0x58, 0x50, 0x49, 0x52, 0x45, 0x44, 0x2F, 0x43, 0x41, 0x52, 0x44,
       0x9F, 0x1F, 0x0E, 0x31, 0x37, 0x35, 0x38, 0x39, 0x30, 0x39, 0x36, 0x30, 0x30, 0x30, 0x30, 0x30, 0x30, 0x90,
       0x00]),
  ([0x00, 0xB2, 0x01, 0x14, 0x00],
   [0x70, 0x46, 0x5A, 0x08, 0x47, 0x61, 0x73, 0x90, 0x01, 0x01, 0x01, 0x19, 0x5F, 0x34, 0x01, 0x01, 0x5F, 0x24,
       0x03, 0x22, 0x12, 0x31, 0x8C, 0x15, 0x9F, 0x02, 0x06, 0x9F, 0x03, 0x06, 0x9F, 0x1A, 0x02, 0x95, 0x05, 0x5F,
       0x2A, 0x02, 0x9A, 0x03, 0x9C, 0x01, 0x9F, 0x37, 0x04, 0x8D, 0x19, 0x8A, 0x02, 0x9F, 0x02, 0x06, 0x9F, 0x03,
       0x06, 0x9F, 0x1A, 0x02, 0x95, 0x05, 0x5F, 0x2A, 0x02, 0x9A, 0x03, 0x9C, 0x01, 0x9F, 0x37, 0x04, 0x91, 0x08,
       0x90, 0x00]),
  ([0x00, 0xB2, 0x02, 0x14, 0x00],
   [0x70, 0x13, 0x8F, 0x01, 0x94, 0x92, 0x00, 0x9F, 0x32, 0x01, 0x03, 0x9F, 0x47, 0x01, 0x03, 0x9F, 0x49, 0x03,
       0x9F, 0x37, 0x04, 0x90, 0x00]),
  ([0x00, 0xB2, 0x01, 0x5C, 0x00],
   [0x70, 0x03, 0x01, 0x01, 0xFF, 0x90, 0x00])]

/-- `emv_read_application_data` with an AFL among the ICC data. -/
def read (t : Table) (afl : Option (List Byte)) : Option Int :=
  (over t (Emv.readData mem { Emv.Ctx.init with icc := afl.elim [] fun v => [⟨0x94, 0, v⟩] })).map (·.1)

/-- `emv_tal_read_afl_records`. -/
def readAfl (t : Table) (afl : List Byte) : Option Int :=
  (over t (Tal.readAfl mem afl [⟨0x94, 0, afl⟩])).map (·.1)

/-- Test 1, tests/emv_read_application_data_test.c:278. -/
example : read [] none = some 1 := by decide +kernel

/-- Test 2, tests/emv_read_application_data_test.c:288. -/
example : readAfl read_test2_apdu_list [0x09, 0x02, 0x02, 0x00, 0x10, 0x01, 0x04, 0x00, 0x18, 0x01, 0x02, 0x01] =
    some (-8) := by decide +kernel

/-- Test 3, tests/emv_read_application_data_test.c:323. -/
example : readAfl read_test3_apdu_list [0x08, 0x02, 0x02, 0x00, 0x10, 0x01, 0x04, 0x00, 0x18, 0x01, 0x02, 0x01] =
    some (-9) := by decide +kernel

/-- Test 4, tests/emv_read_application_data_test.c:358. -/
example : readAfl read_test4_apdu_list [0x08, 0x02, 0x02, 0x00, 0x10, 0x01, 0x04, 0x00, 0x18, 0x01, 0x02, 0x01] =
    some (-10) := by decide +kernel

/-- Test 5, tests/emv_read_application_data_test.c:393. -/
example : readAfl read_test5_apdu_list [0x08, 0x02, 0x02, 0x00, 0x10, 0x01, 0x04, 0x00, 0x18, 0x01, 0x02, 0x01] =
    some (-10) := by decide +kernel

/-- Test 6, tests/emv_read_application_data_test.c:428. -/
example : readAfl read_test6_apdu_list [0x08, 0x02, 0x02, 0x00, 0x10, 0x01, 0x04, 0x00, 0x18, 0x01, 0x02, 0x01] =
    some (-11) := by decide +kernel

/-- Test 7, tests/emv_read_application_data_test.c:463. -/
example : readAfl read_test7_apdu_list [0x08, 0x02, 0x02, 0x00, 0x10, 0x01, 0x00, 0x00, 0x18, 0x01, 0x02, 0x01] =
    some (-8) := by decide +kernel

/-- Test 8, tests/emv_read_application_data_test.c:498. -/
example : read read_test8_apdu_list (some [0x08, 0x02, 0x02, 0x00, 0x10, 0x01, 0x02, 0x00]) = some 1 :=
    by decide +kernel

/-- Test 9, tests/emv_read_application_data_test.c:528. -/
example : read read_test9_apdu_list (some [0x08, 0x02, 0x02, 0x00, 0x10, 0x01, 0x02, 0x01]) = some 1 :=
    by decide +kernel

/-- Test 10, tests/emv_read_application_data_test.c:558. -/
example : readAfl read_test10_apdu_list [0x08, 0x02, 0x02, 0x00, 0x60, 0x01, 0x01, 0x01, 0x10, 0x01, 0x02, 0x01,
    0x58, 0x01, 0x01, 0x01] = some 14 := by decide +kernel

/-- Test 11, tests/emv_read_application_data_test.c:593. -/
example : read read_test11_apdu_list (some [0x08, 0x02, 0x02, 0x00, 0x10, 0x01, 0x02, 0x01, 0x58, 0x01, 0x01, 0x01])
    = some 0 := by decide +kernel

end Verif.RepoTest.Kernel
