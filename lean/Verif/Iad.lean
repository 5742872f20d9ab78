import Verif.Bits
import Verif.Fields
import Verif.Str
import Verif.Capdu
import Verif.Lists
import Verif.ArcTable

/-!
# Model of the descriptions of Issuer Application Data and Issuer Authentication Data

`src/emv_strings.c`: Issuer Application Data (3851-4711), Authorisation Response Code (5707-5776),
Card Status Update and Issuer Authentication Data (5778-5939).

As in `Bits`, the strings are computed first and then added in order to the output, which the
functions do not read.  `iad + 3` and `iad + 2` (the `cvr` pointers) are added to the index.
-/

set_option autoImplicit false

namespace Verif.Iad
open Verif StrList Bits Fields

/-! ## Tables -/

/-- Derivation key index (emv_strings.c:3885-3887). -/
def ccdDki : List Item :=
  [.fmt .yes [.lit txt!"Derivation Key Index (DKI): ", .hex 2 0xFF]]

/-- Card verification results of a CCD application (emv_strings.c:3889-4011; constants
emv_fields.h:381-423).  Both cumulative amount constants are `0x20` (emv_fields.h:409-410). -/
def ccdCvr : List Item :=
  [.sel 3 0xC0
      [(0x00, some txt!"Card Verification Results (CVR): Second GENERATE AC returned AAC"),
       (0x40, some txt!"Card Verification Results (CVR): Second GENERATE AC returned TC"),
       (0x80, some txt!"Card Verification Results (CVR): Second GENERATE AC Not Requested"),
       (0xC0, some txt!"Card Verification Results (CVR): Second GENERATE AC RFU")]
      (none),
   .sel 3 0x30
      [(0x00, some txt!"Card Verification Results (CVR): First GENERATE AC returned AAC"),
       (0x10, some txt!"Card Verification Results (CVR): First GENERATE AC returned TC"),
       (0x20, some txt!"Card Verification Results (CVR): First GENERATE AC returned ARQC"),
       (0x30, some txt!"Card Verification Results (CVR): First GENERATE AC RFU")]
      (none),
   .when (.bit 3 0x08) txt!"Card Verification Results (CVR): Combined DDA/Application Cryptogram Generation (CDA) Performed",
   .when (.bit 3 0x04) txt!"Card Verification Results (CVR): Offline Dynamic Data Authentication (DDA) Performed",
   .when (.bit 3 0x02) txt!"Card Verification Results (CVR): Issuer Authentication Not Performed",
   .when (.bit 3 0x01) txt!"Card Verification Results (CVR): Issuer Authentication Failed",
   .fmt .yes [.lit txt!"Card Verification Results (CVR): PIN Try Counter is ", .dec 4 0xF0 4],
   .when (.bit 4 0x08) txt!"Card Verification Results (CVR): Offline PIN Verification Performed",
   .when (.bit 4 0x04) txt!"Card Verification Results (CVR): Offline PIN Verification Performed and PIN Not Successfully Verified",
   .when (.bit 4 0x02) txt!"Card Verification Results (CVR): PIN Try Limit Exceeded",
   .when (.bit 4 0x01) txt!"Card Verification Results (CVR): Last Online Transaction Not Completed",
   .when (.bit 5 0x80) txt!"Card Verification Results (CVR): Lower Offline Transaction Count Limit Exceeded",
   .when (.bit 5 0x40) txt!"Card Verification Results (CVR): Upper Offline Transaction Count Limit Exceeded",
   .when (.bit 5 0x20) txt!"Card Verification Results (CVR): Lower Cumulative Offline Amount Limit Exceeded",
   .when (.bit 5 0x20) txt!"Card Verification Results (CVR): Upper Cumulative Offline Amount Limit Exceeded",
   .when (.bit 5 0x08) txt!"Card Verification Results (CVR): Issuer-discretionary bit 1",
   .when (.bit 5 0x04) txt!"Card Verification Results (CVR): Issuer-discretionary bit 2",
   .when (.bit 5 0x02) txt!"Card Verification Results (CVR): Issuer-discretionary bit 3",
   .when (.bit 5 0x01) txt!"Card Verification Results (CVR): Issuer-discretionary bit 4",
   .fmt (.bit 6 0xF0) [.lit txt!"Card Verification Results (CVR): ", .dec 6 0xF0 4, .lit txt!" Successfully Processed Issuer Script Commands Containing Secure Messaging"],
   .when (.bit 6 0x08) txt!"Card Verification Results (CVR): Issuer Script Processing Failed",
   .when (.bit 6 0x04) txt!"Card Verification Results (CVR): Offline Data Authentication Failed on Previous Transaction",
   .when (.bit 6 0x02) txt!"Card Verification Results (CVR): Go Online on Next Transaction Was Set",
   .when (.bit 6 0x01) txt!"Card Verification Results (CVR): Unable to go Online",
   .when (.bit 7 0xFF) txt!"Card Verification Results (CVR): RFU"]

/-- Key index and cryptogram version (emv_strings.c:4039-4043). -/
def mchipHead : List Item :=
  [.fmt .yes [.lit txt!"Derivation Key Index (DKI): ", .hex 0 0xFF],
   .fmt .yes [.lit txt!"Cryptogram Version Number (CVN): ", .hex 1 0xFF]]

/-- Counters (emv_strings.c:4057-4061). -/
def mchipCtr : List Item :=
  [.ite (.bit 1 0x01) txt!"Cryptogram: Counter included in AC data" txt!"Cryptogram: Counters not included in AC data"]

/-- Card verification results, bytes 1 to 4 (emv_strings.c:4063-4174; emv_fields.h:442-487). -/
def mchipCvr14 : List Item :=
  [.sel 2 0xC0
      [(0x00, some txt!"Card Verification Results (CVR): Second GENERATE AC returned AAC"),
       (0x40, some txt!"Card Verification Results (CVR): Second GENERATE AC returned TC"),
       (0x80, some txt!"Card Verification Results (CVR): Second GENERATE AC Not Requested"),
       (0xC0, some txt!"Card Verification Results (CVR): Second GENERATE AC RFU")]
      (none),
   .sel 2 0x30
      [(0x00, some txt!"Card Verification Results (CVR): First GENERATE AC returned AAC"),
       (0x10, some txt!"Card Verification Results (CVR): First GENERATE AC returned TC"),
       (0x20, some txt!"Card Verification Results (CVR): First GENERATE AC returned ARQC"),
       (0x30, some txt!"Card Verification Results (CVR): First GENERATE AC RFU")]
      (none),
   .when (.bit 2 0x08) txt!"Card Verification Results (CVR): Date Check Failed",
   .when (.bit 2 0x04) txt!"Card Verification Results (CVR): Offline PIN Verification Performed",
   .when (.bit 2 0x02) txt!"Card Verification Results (CVR): Offline Encrypted PIN Verification Performed",
   .when (.bit 2 0x01) txt!"Card Verification Results (CVR): Offline PIN Verification Successful",
   .when (.bit 3 0x80) txt!"Card Verification Results (CVR): Dynamic Data Authentication (DDA) Returned",
   .when (.bit 3 0x40) txt!"Card Verification Results (CVR): Combined DDA/Application Cryptogram Generation (CDA) Returned in First GENERATE AC",
   .when (.bit 3 0x20) txt!"Card Verification Results (CVR): Combined DDA/Application Cryptogram Generation (CDA) Returned in Second GENERATE AC",
   .when (.bit 3 0x10) txt!"Card Verification Results (CVR): Issuer Authentication Performed",
   .when (.bit 3 0x08) txt!"Card Verification Results (CVR): Card Issuer Action Codes (CIAC) Default Skipped on Cardholder Activated Terminal Level 3 (CAT3)",
   .when (.bit 3 0x04) txt!"Card Verification Results (CVR): Offline Change PIN Result Successful",
   .when (.bit 3 0x03) txt!"Card Verification Results (CVR): Issuer Discretionary",
   .fmt (.bit 4 0xF0) [.lit txt!"Card Verification Results (CVR): Script Counter is ", .dec 4 0xF0 4],
   .fmt (.bit 4 0x0F) [.lit txt!"Card Verification Results (CVR): PIN Try Counter is ", .dec 4 0x0F 0],
   .when (.bit 5 0x80) txt!"Card Verification Results (CVR): Last Online Transaction Not Completed",
   .when (.bit 5 0x40) txt!"Card Verification Results (CVR): Unable To Go Online",
   .when (.bit 5 0x20) txt!"Card Verification Results (CVR): Offline PIN Verification Not Performed",
   .when (.bit 5 0x10) txt!"Card Verification Results (CVR): Offline PIN Verification Failed",
   .when (.bit 5 0x08) txt!"Card Verification Results (CVR): PTL Exceeded",
   .when (.bit 5 0x04) txt!"Card Verification Results (CVR): International Transaction",
   .when (.bit 5 0x02) txt!"Card Verification Results (CVR): Domestic Transaction",
   .when (.bit 5 0x01) txt!"Card Verification Results (CVR): Terminal Erroneously Considers Offline PIN OK"]

/-- Byte 5 for M/Chip 4 (emv_strings.c:4177-4189). -/
def mchip4Cvr5 : List Item :=
  [.when (.bit 6 0x80) txt!"Card Verification Results (CVR): Lower Consecutive Offline Limit Exceeded",
   .when (.bit 6 0x40) txt!"Card Verification Results (CVR): Upper Consecutive Offline Limit Exceeded",
   .when (.bit 6 0x20) txt!"Card Verification Results (CVR): Lower Cumulative Offline Limit Exceeded",
   .when (.bit 6 0x10) txt!"Card Verification Results (CVR): Upper Cumulative Offline Limit Exceeded"]

/-- Byte 5 for M/Chip Advance (emv_strings.c:4191-4203). -/
def mchipAdvCvr5 : List Item :=
  [.when (.bit 6 0x80) txt!"Card Verification Results (CVR): Lower Consecutive Counter 1 Limit Exceeded",
   .when (.bit 6 0x40) txt!"Card Verification Results (CVR): Upper Consecutive Counter 1 Limit Exceeded",
   .when (.bit 6 0x20) txt!"Card Verification Results (CVR): Lower Cumulative Accumulator Limit Exceeded",
   .when (.bit 6 0x10) txt!"Card Verification Results (CVR): Upper Cumulative Accumulator Limit Exceeded"]

/-- Rest of byte 5, and byte 6 (emv_strings.c:4205-4243; emv_fields.h:488-503). -/
def mchipCvr56 : List Item :=
  [.when (.bit 6 0x08) txt!"Card Verification Results (CVR): Go Online On Next Transaction Was Set",
   .when (.bit 6 0x04) txt!"Card Verification Results (CVR): Issuer Authentication Failed",
   .when (.bit 6 0x02) txt!"Card Verification Results (CVR): Script Received",
   .when (.bit 6 0x01) txt!"Card Verification Results (CVR): Script Failed",
   .when (.bit 7 0x80) txt!"Card Verification Results (CVR): Lower Consecutive Counter 2 Limit Exceeded",
   .when (.bit 7 0x40) txt!"Card Verification Results (CVR): Upper Consecutive Counter 2 Limit Exceeded",
   .when (.bit 7 0x20) txt!"Card Verification Results (CVR): Lower Cumulative Accumulator 2 Limit Exceeded",
   .when (.bit 7 0x10) txt!"Card Verification Results (CVR): Upper Cumulative Accumulator 2 Limit Exceeded",
   .when (.bit 7 0x08) txt!"Card Verification Results (CVR): MTA Limit Exceeded",
   .when (.bit 7 0x04) txt!"Card Verification Results (CVR): Number Of Days Offline Limit Exceeded",
   .when (.bit 7 0x02) txt!"Card Verification Results (CVR): Match Found In Additional Check Table",
   .when (.bit 7 0x01) txt!"Card Verification Results (CVR): No Match Found In Additional Check Table"]

/-- Key index and cryptogram version (emv_strings.c:4267-4272). -/
def vsdc013Head : List Item :=
  [.fmt .yes [.lit txt!"Derivation Key Index (DKI): ", .hex 1 0xFF],
   .fmt .yes [.lit txt!"Cryptogram Version Number (CVN): ", .hex 2 0xFF, .lit txt!" (CVN", .dec2 2 0xFF, .lit txt!")"]]

/-- Card verification results (emv_strings.c:4274-4368; emv_fields.h:510-585). -/
def vsdc013Cvr : List Item :=
  [.sel 4 0xC0
      [(0x00, some txt!"Card Verification Results (CVR): Second GENERATE AC returned AAC"),
       (0x40, some txt!"Card Verification Results (CVR): Second GENERATE AC returned TC"),
       (0x80, some txt!"Card Verification Results (CVR): Second GENERATE AC Not Requested"),
       (0xC0, some txt!"Card Verification Results (CVR): Second GENERATE AC RFU")]
      (none),
   .sel 4 0x30
      [(0x00, some txt!"Card Verification Results (CVR): First GENERATE AC returned AAC"),
       (0x10, some txt!"Card Verification Results (CVR): First GENERATE AC returned TC"),
       (0x20, some txt!"Card Verification Results (CVR): First GENERATE AC returned ARQC"),
       (0x30, some txt!"Card Verification Results (CVR): First GENERATE AC RFU")]
      (none),
   .when (.bit 4 0x08) txt!"Card Verification Results (CVR): Issuer Authentication performed and failed",
   .when (.bit 4 0x04) txt!"Card Verification Results (CVR): Offline PIN verification performed",
   .when (.bit 4 0x02) txt!"Card Verification Results (CVR): Offline PIN verification failed",
   .when (.bit 4 0x01) txt!"Card Verification Results (CVR): Unable to go online",
   .when (.bit 5 0x80) txt!"Card Verification Results (CVR): Last online transaction not completed",
   .when (.bit 5 0x40) txt!"Card Verification Results (CVR): PIN Try Limit exceeded",
   .when (.bit 5 0x20) txt!"Card Verification Results (CVR): Exceeded velocity checking counters",
   .when (.bit 5 0x10) txt!"Card Verification Results (CVR): New card",
   .when (.bit 5 0x08) txt!"Card Verification Results (CVR): Issuer Authentication failure on last online transaction",
   .when (.bit 5 0x04) txt!"Card Verification Results (CVR): Issuer Authentication not performed after online authorization",
   .when (.bit 5 0x02) txt!"Card Verification Results (CVR): Application blocked by card because PIN Try Limit exceeded",
   .when (.bit 5 0x01) txt!"Card Verification Results (CVR): Offline static data authentication failed on last transaction",
   .fmt (.bit 6 0xF0) [.lit txt!"Card Verification Results (CVR): Script Counter is ", .dec 6 0xF0 4],
   .when (.bit 6 0x08) txt!"Card Verification Results (CVR): Issuer Script processing failed",
   .when (.bit 6 0x04) txt!"Card Verification Results (CVR): Offline dynamic data authentication failed on last transaction",
   .when (.bit 6 0x02) txt!"Card Verification Results (CVR): Offline dynamic data authentication performed",
   .when (.bit 6 0x01) txt!"Card Verification Results (CVR): PIN verification command not received for a PIN-Expecting card"]

/-- Cryptogram version and key index (emv_strings.c:4390-4397). -/
def vsdc24Head : List Item :=
  [.fmt .yes [.lit txt!"Cryptogram Version Number (CVN): ", .hex 1 0xFF, .lit txt!" (CVN'", .hex 1 0xFF, .lit txt!"')"],
   .fmt .yes [.lit txt!"Derivation Key Index (DKI): ", .hex 2 0xFF]]

/-- Card verification results (emv_strings.c:4399-4593; emv_fields.h:510-585). -/
def vsdc24Cvr : List Item :=
  [.when (.not (.bit 3 0xFF)) txt!"No CDCVM",
   .sel 3 0xF0
      [(0x10, some txt!"Card Verification Results (CVR): Visa Mobile Payment Application (VMPA)"),
       (0x20, some txt!"Card Verification Results (CVR): MG"),
       (0x30, some txt!"Card Verification Results (CVR): Co-residing SE app"),
       (0x40, some txt!"Card Verification Results (CVR): TEE app"),
       (0x50, some txt!"Card Verification Results (CVR): Mobile Application"),
       (0x60, some txt!"Card Verification Results (CVR): Terminal"),
       (0x70, some txt!"Card Verification Results (CVR): Verified in the cloud"),
       (0x80, some txt!"Card Verification Results (CVR): Verified by the mobile device OS")]
      (none),
   .sel 3 0x0F
      [(0x01, some txt!"Card Verification Results (CVR): Passcode"),
       (0x02, some txt!"Card Verification Results (CVR): Finger biometric"),
       (0x03, some txt!"Card Verification Results (CVR): Mobile device pattern"),
       (0x04, some txt!"Card Verification Results (CVR): Facial biometric"),
       (0x05, some txt!"Card Verification Results (CVR): Iris biometric"),
       (0x06, some txt!"Card Verification Results (CVR): Voice biometric"),
       (0x07, some txt!"Card Verification Results (CVR): Palm biometric"),
       (0x0D, some txt!"Card Verification Results (CVR): Signature"),
       (0x0E, some txt!"Card Verification Results (CVR): Online PIN")]
      (none),
   .sel 4 0xC0
      [(0x00, some txt!"Card Verification Results (CVR): Second GENERATE AC returned AAC"),
       (0x40, some txt!"Card Verification Results (CVR): Second GENERATE AC returned TC"),
       (0x80, some txt!"Card Verification Results (CVR): Second GENERATE AC Not Requested"),
       (0xC0, some txt!"Card Verification Results (CVR): Second GENERATE AC RFU")]
      (none),
   .sel 4 0x30
      [(0x00, some txt!"Card Verification Results (CVR): GPO returned AAC"),
       (0x10, some txt!"Card Verification Results (CVR): GPO returned TC"),
       (0x20, some txt!"Card Verification Results (CVR): GPO returned ARQC"),
       (0x30, some txt!"Card Verification Results (CVR): GPO RFU")]
      (none),
   .when (.bit 4 0x08) txt!"Card Verification Results (CVR): Issuer Authentication performed and failed",
   .when (.bit 4 0x04) txt!"Card Verification Results (CVR): CDCVM successfully performed",
   .when (.bit 4 0x02) txt!"Card Verification Results (CVR): RFU",
   .when (.bit 4 0x01) txt!"Card Verification Results (CVR): Unable to go online",
   .when (.bit 5 0x80) txt!"Card Verification Results (CVR): Last online transaction not completed",
   .when (.bit 5 0x40) txt!"Card Verification Results (CVR): PIN Try Limit exceeded",
   .when (.bit 5 0x20) txt!"Card Verification Results (CVR): Exceeded velocity checking counters",
   .when (.bit 5 0x10) txt!"Card Verification Results (CVR): New card",
   .when (.bit 5 0x08) txt!"Card Verification Results (CVR): Issuer Authentication failure on last online transaction",
   .when (.bit 5 0x04) txt!"Card Verification Results (CVR): Issuer Authentication not performed after online authorization",
   .when (.bit 5 0x02) txt!"Card Verification Results (CVR): Application blocked by card because PIN Try Limit exceeded",
   .when (.bit 5 0x01) txt!"Card Verification Results (CVR): Offline static data authentication failed on last transaction",
   .fmt (.bit 6 0xF0) [.lit txt!"Card Verification Results (CVR): Script Counter is ", .dec 6 0xF0 4],
   .when (.bit 6 0x08) txt!"Card Verification Results (CVR): Issuer Script processing failed",
   .when (.bit 6 0x04) txt!"Card Verification Results (CVR): Offline dynamic data authentication failed on last transaction",
   .when (.bit 6 0x02) txt!"Card Verification Results (CVR): Offline dynamic data authentication performed",
   .when (.bit 6 0x01) txt!"Card Verification Results (CVR): PIN verification command not received for a PIN-Expecting card",
   .when (.bit 7 0x80) txt!"Card Verification Results (CVR): Consumer Device is not in debug mode",
   .when (.bit 7 0x40) txt!"Card Verification Results (CVR): Consumer Device is not a rooted device",
   .when (.bit 7 0x20) txt!"Card Verification Results (CVR): Mobile Application is not hooked",
   .when (.bit 7 0x10) txt!"Card Verification Results (CVR): Mobile Application integrity is intact",
   .when (.bit 7 0x08) txt!"Card Verification Results (CVR): Consumer Device has data connectivity",
   .when (.bit 7 0x04) txt!"Card Verification Results (CVR): Consumer Device is genuine",
   .when (.bit 7 0x02) txt!"Card Verification Results (CVR): CDCVM successfully performed",
   .when (.bit 7 0x01) txt!"Card Verification Results (CVR): Secure Messaging uses EMV Session key-based derivation"]

/-- `emv_csu_append_string_list` (emv_strings.c:5778-5849; emv_fields.h:769-793), for four bytes. -/
def csu : List Item :=
  [.when (.bit 0 0x80) txt!"Card Status Update (CSU): Proprietary Authentication Data Included",
   .fmt (.bit 0 0x0F) [.lit txt!"Card Status Update (CSU): PIN Try Counter = ", .dec 0 0x0F 0],
   .when (.bit 1 0x80) txt!"Card Status Update (CSU): Issuer Approves Online Transaction",
   .when (.bit 1 0x40) txt!"Card Status Update (CSU): Card Block",
   .when (.bit 1 0x20) txt!"Card Status Update (CSU): Application Block",
   .when (.bit 1 0x10) txt!"Card Status Update (CSU): Update PIN Try Counter",
   .when (.bit 1 0x08) txt!"Card Status Update (CSU): Set Go Online on Next Transaction",
   .when (.bit 1 0x04) txt!"Card Status Update (CSU): CSU Created by Proxy for the Issuer",
   .when (.eq 1 0x03 0x00) txt!"Card Status Update (CSU): Do Not Update Offline Counters",
   .when (.eq 1 0x03 0x01) txt!"ard Status Update (CSU): Set Offline Counters to Upper Offline Limits",
   .when (.eq 1 0x03 0x02) txt!"Card Status Update (CSU): Reset Offline Counters to Zero",
   .when (.eq 1 0x03 0x03) txt!"Card Status Update (CSU): Add Transaction to Offline Counter",
   .fmt (.bit 3 0xFF) [.lit txt!"Card Status Update (CSU): Issuer Discretionary 0x", .hex 3 0xFF],
   .when (.or (.bit 0 0x70) (.bit 2 0xFF)) txt!"Card Status Update (CSU): RFU"]

/-! ## Issuer Application Data -/

/-- The strings of several tables, one after the other. -/
def runAll (f : List Byte) (ts : List (List Item)) : C (List (List Byte)) := runItems f ts.flatten

/-- `emv_iad_ccd_append_string_list` (emv_strings.c:3851-4014): result and strings added. -/
def ccdAppend (iad : List Byte) : C (Int × List (List Byte)) := do
  if ← andC (.ok (decide (iad.length = 32)))
      (andC (rdIs iad 0 (· == 0x0F)) (rdIs iad 16 (· == 0x0F))) then
    let b ← rd iad 1
    if b &&& 0x0F = 0x05 then
      let ls ← runAll iad [ccdDki, ccdCvr]
      .ok (0, txt!"Cryptogram Version: TDES" :: ls)
    else if b &&& 0x0F = 0x06 then
      let ls ← runAll iad [ccdDki, ccdCvr]
      .ok (0, txt!"Cryptogram Version: AES" :: ls)
    else .ok (1, [txt!"Cryptogram Version: Unknown"])
  else .ok (-1, [])

/-- The strings after the session key (emv_strings.c:4057-4243); byte 5 depends on the length. -/
def mchipRest (iad : List Byte) : C (List (List Byte)) :=
  runAll iad [mchipCtr, mchipCvr14,
    if iad.length = 18 then mchip4Cvr5 else mchipAdvCvr5, mchipCvr56]

/-- `emv_iad_mchip_append_string_list` (emv_strings.c:4016-4246). -/
def mchipAppend (iad : List Byte) : C (Int × List (List Byte)) := do
  if ← andC (.ok (decide (iad.length = 18 ∨ iad.length = 20 ∨ iad.length = 26 ∨ iad.length = 28)))
      (andC (rdIs iad 1 (fun b => b &&& 0xF0 == 0x10))
      (andC (rdIs iad 1 (fun b => b &&& 0x08 == 0)) (rdIs iad 1 (fun b => b &&& 0x02 == 0)))) then
    let hs ← runAll iad [mchipHead]
    let b ← rd iad 1
    if b &&& 0x06 = 0x00 then
      let ls ← mchipRest iad
      .ok (0, hs ++ txt!"Cryptogram: Mastercard Proprietary SKD session key" :: ls)
    else if b &&& 0x06 = 0x04 then
      let ls ← mchipRest iad
      .ok (0, hs ++ txt!"Cryptogram: EMV CSK session key" :: ls)
    else .ok (1, hs ++ [txt!"Cryptogram: Unknown session key"])
  else .ok (-1, [])

/-- `emv_iad_vsdc_0_1_3_append_string_list` (emv_strings.c:4248-4371). -/
def vsdc013Append (iad : List Byte) : C (Int × List (List Byte)) := do
  if ← andC (.ok (decide (7 ≤ iad.length)))
      (andC (rdIs iad 0 (· == 0x06)) (andC (rdIs iad 3 (· == 0x03))
      (rdIs iad 2 (fun b => (b &&& 0xF0) >>> 4 == 0 || (b &&& 0xF0) >>> 4 == 1 ||
        (b &&& 0xF0) >>> 4 == 3)))) then
    let ls ← runAll iad [vsdc013Head, vsdc013Cvr]
    .ok (0, ls)
  else .ok (-1, [])

/-- `emv_iad_vsdc_2_4_append_string_list` (emv_strings.c:4373-4595). -/
def vsdc24Append (iad : List Byte) : C (Int × List (List Byte)) := do
  if ← andC (.ok (decide (iad.length = 32)))
      (andC (rdIs iad 0 (· == 0x1F)) (andC (rdIs iad 8 (fun b => b &&& 0xF0 == 0))
      (rdIs iad 1 (fun b => (b &&& 0xF0) >>> 4 == 2 || (b &&& 0xF0) >>> 4 == 4)))) then
    let ls ← runAll iad [vsdc24Head, vsdc24Cvr]
    .ok (0, ls)
  else .ok (-1, [])

/-- Strings before those of an `append` function. -/
def prefixed (ls : List (List Byte)) (r : C (Int × List (List Byte))) :
    C (Int × List (List Byte)) := do
  let (c, ms) ← r
  .ok (c, ls ++ ms)

/-- The three `switch` statements on the format (emv_strings.c:4624-4710). -/
def iadStrings (iad : List Byte) (fmt : IadFormat) : C (Int × List (List Byte)) :=
  match fmt with
  | .invalid => .ok (-1, [txt!"Invalid IAD format"])
  | .ccd => prefixed [txt!"Application: CCD-Compliant", txt!"IAD Format: CCD Version 4.1"]
      (ccdAppend iad)
  | .mchip4 => prefixed [txt!"Application: M/Chip 4"] (mchipAppend iad)
  | .mchipAdvance => prefixed [txt!"Application: M/Chip Advance"] (mchipAppend iad)
  | .vsdc0 => prefixed [txt!"Application: Visa Smart Debit/Credit (VSDC)", txt!"IAD Format: 0"]
      (vsdc013Append iad)
  | .vsdc1 => prefixed [txt!"Application: Visa Smart Debit/Credit (VSDC)", txt!"IAD Format: 1"]
      (vsdc013Append iad)
  | .vsdc2 => prefixed [txt!"Application: Visa Smart Debit/Credit (VSDC)", txt!"IAD Format: 2"]
      (vsdc24Append iad)
  | .vsdc3 => prefixed [txt!"Application: Visa Smart Debit/Credit (VSDC)", txt!"IAD Format: 3"]
      (vsdc013Append iad)
  | .vsdc4 => prefixed [txt!"Application: Visa Smart Debit/Credit (VSDC)", txt!"IAD Format: 4"]
      (vsdc24Append iad)
  | .unknown => .ok (0, [txt!"Unknown IAD format"])

/-- `emv_iad_get_string_list` (emv_strings.c:4597-4711). -/
def iadList (iad str : List Byte) : C (Int × List Byte) :=
  if iad.length = 0 then .ok (-1, str)
  else if str.length = 0 then .ok (0, str)
  else if iad.length > 32 then .ok (1, str)
  else do
    let fmt ← iadFormat iad
    let (c, ls) ← iadStrings iad fmt
    let str ← build ls str
    .ok (c, str)

/-! ## Authorisation Response Code -/

/-- `emv_arc_get_desc` (emv_strings.c:5707-5716).  `strncmp` of two bytes is taken as equality of
two bytes, which differs only if both have a NUL as first byte; the codes of the table have none. -/
def arcDesc (table : List (List Byte × List Byte)) (arc : List Byte) : Option (List Byte) :=
  match table with
  | [] => none
  | (c, d) :: rest => if c.take 2 = arc.take 2 then some d else arcDesc rest arc

/-- `emv_auth_response_code_get_string` (emv_strings.c:5718-5776). -/
def arcString (arc str : List Byte) : C (Int × List Byte) :=
  if arc.length = 0 then .ok (-1, str)
  else if str.length = 0 then .ok (0, str)
  else do
    let str ← wr str 0 0
    if str.length < 3 then .ok (-2, str)
    else if arc.length ≠ 2 then .ok (1, str)
    else do
      let a ← slice arc 0 2
      let (r, str) ← Str.formatAn a str
      if r ≠ 0 then do
        let str ← wr str 0 0
        .ok (r, str)
      else if str.length < 10 then .ok (0, str)
      else
        match arcDesc arcTable a with
        | none => .ok (0, str)
        | some d => do
          let tail ← Capdu.snprintf (str.drop 2) (txt!" - " ++ d)
          let str ← wrs str 2 tail
          .ok (0, str)

/-! ## Issuer Authentication Data -/

/-- `%02X` of consecutive bytes. -/
def hexRun (f : List Byte) : Nat → Nat → C (List Byte)
  | 0, _ => .ok []
  | n + 1, i => do
    let b ← rd f i
    let t ← hexRun f n (i + 1)
    .ok (hex02 b ++ t)

/-- The strings for data after the Card Status Update (emv_strings.c:5913-5932); `loc` is the
previous content of `arc_str[3]`. -/
def csuExtra (loc iad : List Byte) : C (List (List Byte)) :=
  if iad.length > 8 then do
    let b4 ← rd iad 4
    if b4 &&& 0x80 ≠ 0 then
      .ok [txt!"Proprietary Authentication Data: " ++ Lists.decU (iad.length - 8) ++ txt!" bytes"]
    else if iad.length = 10 then do
      let a ← slice iad 8 2
      let (r, s) ← Str.formatAn a loc
      if r = 0 then do
        let s ← Capdu.cstr s
        .ok [txt!"Authorisation Response Code: " ++ s]
      else .ok []
    else .ok []
  else .ok []

/-- The strings of the part with a Card Status Update (emv_strings.c:5902-5935). -/
def csuStrings (loc iad : List Byte) : C (List (List Byte)) := do
  let h ← hexRun iad 4 0
  let c ← slice iad 4 4
  let cs ← runItems c csu
  let extra ← csuExtra loc iad
  .ok ((txt!"Authorisation Response Cryptogram (ARPC): " ++ h) :: cs ++ extra)

/-- The part not specific to 10 bytes (emv_strings.c:5897-5938).  (For 10 bytes `arc_str` has been
written by the first attempt; `loc` is arbitrary in any case.) -/
def authRest (loc iad : List Byte) : C (List (List Byte)) := do
  if ← andC (rdIs iad 4 (fun b => b &&& 0x70 == 0)) (rdIs iad 6 (fun b => b &&& 0xFF == 0)) then
    csuStrings loc iad
  else .ok []

/-- The strings of `emv_issuer_auth_data_get_string_list` (emv_strings.c:5866-5938). -/
def authStrings (loc iad : List Byte) : C (List (List Byte)) :=
  if iad.length = 10 then do
    let a ← slice iad 8 2
    let (r, s) ← Str.formatAn a loc
    if r = 0 then do
      let h ← hexRun iad 8 0
      let s ← Capdu.cstr s
      .ok [txt!"Authorisation Response Cryptogram (ARPC): " ++ h,
        txt!"Authorisation Response Code: " ++ s]
    else do
      let b8 ← rd iad 8
      if b8 &&& 0xF0 = 0 then do
        let h ← hexRun iad 8 0
        let g ← hexRun iad 2 8
        .ok [txt!"Authorisation Response Cryptogram (ARPC): " ++ h,
          txt!"M/Chip ARPC Response Code: " ++ g]
      else authRest loc iad
  else authRest loc iad

/-- `emv_issuer_auth_data_get_string_list` (emv_strings.c:5851-5939). -/
def authList (loc iad str : List Byte) : C (Int × List Byte) :=
  if iad.length = 0 then .ok (-1, str)
  else if str.length = 0 then .ok (0, str)
  else if iad.length < 8 ∨ iad.length > 32 then .ok (1, str)
  else do
    let ls ← authStrings loc iad
    let str ← build ls str
    .ok (0, str)

end Verif.Iad
