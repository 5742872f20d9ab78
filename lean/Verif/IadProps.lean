import Verif.IadLemmas

/-!
# C77 to C79: Issuer Application Data, Issuer Authentication Data, Authorisation Response Code

The tables give, in the byte and bit numbering of the specifications, the lines a field shows.
-/

set_option autoImplicit false

namespace Verif.Iad
open Verif StrList Bits Fields Formats Lists

/-! ## Specified tables -/

/-- Issuer Application Data of a CCD compliant application (EMV 4.4 Book 3, Annex C9), bytes 2 to
8. -/
def ccdRows : List IRow :=
  [.row (.value 2 4 1 [(5, some txt!"Cryptogram Version: TDES"),
      (6, some txt!"Cryptogram Version: AES")] none),
   .line [.text txt!"Derivation Key Index (DKI): ", .hex 3],
   .row (.value 4 8 7
      [(0, some txt!"Card Verification Results (CVR): Second GENERATE AC returned AAC"),
       (1, some txt!"Card Verification Results (CVR): Second GENERATE AC returned TC"),
       (2, some txt!"Card Verification Results (CVR): Second GENERATE AC Not Requested"),
       (3, some txt!"Card Verification Results (CVR): Second GENERATE AC RFU")]
      none),
   .row (.value 4 6 5
      [(0, some txt!"Card Verification Results (CVR): First GENERATE AC returned AAC"),
       (1, some txt!"Card Verification Results (CVR): First GENERATE AC returned TC"),
       (2, some txt!"Card Verification Results (CVR): First GENERATE AC returned ARQC"),
       (3, some txt!"Card Verification Results (CVR): First GENERATE AC RFU")]
      none),
   .row (.set [(4, 4)] txt!"Card Verification Results (CVR): Combined DDA/Application Cryptogram Generation (CDA) Performed"),
   .row (.set [(4, 3)] txt!"Card Verification Results (CVR): Offline Dynamic Data Authentication (DDA) Performed"),
   .row (.set [(4, 2)] txt!"Card Verification Results (CVR): Issuer Authentication Not Performed"),
   .row (.set [(4, 1)] txt!"Card Verification Results (CVR): Issuer Authentication Failed"),
   .line [.text txt!"Card Verification Results (CVR): PIN Try Counter is ", .num 5 8 5],
   .row (.set [(5, 4)] txt!"Card Verification Results (CVR): Offline PIN Verification Performed"),
   .row (.set [(5, 3)] txt!"Card Verification Results (CVR): Offline PIN Verification Performed and PIN Not Successfully Verified"),
   .row (.set [(5, 2)] txt!"Card Verification Results (CVR): PIN Try Limit Exceeded"),
   .row (.set [(5, 1)] txt!"Card Verification Results (CVR): Last Online Transaction Not Completed"),
   .row (.set [(6, 8)] txt!"Card Verification Results (CVR): Lower Offline Transaction Count Limit Exceeded"),
   .row (.set [(6, 7)] txt!"Card Verification Results (CVR): Upper Offline Transaction Count Limit Exceeded"),
   .row (.set [(6, 6)] txt!"Card Verification Results (CVR): Lower Cumulative Offline Amount Limit Exceeded"),
   .row (.set [(6, 5)] txt!"Card Verification Results (CVR): Upper Cumulative Offline Amount Limit Exceeded"),
   .row (.set [(6, 4)] txt!"Card Verification Results (CVR): Issuer-discretionary bit 1"),
   .row (.set [(6, 3)] txt!"Card Verification Results (CVR): Issuer-discretionary bit 2"),
   .row (.set [(6, 2)] txt!"Card Verification Results (CVR): Issuer-discretionary bit 3"),
   .row (.set [(6, 1)] txt!"Card Verification Results (CVR): Issuer-discretionary bit 4"),
   .lineIf (bits 7 8 5) [.text txt!"Card Verification Results (CVR): ", .num 7 8 5, .text txt!" Successfully Processed Issuer Script Commands Containing Secure Messaging"],
   .row (.set [(7, 4)] txt!"Card Verification Results (CVR): Issuer Script Processing Failed"),
   .row (.set [(7, 3)] txt!"Card Verification Results (CVR): Offline Data Authentication Failed on Previous Transaction"),
   .row (.set [(7, 2)] txt!"Card Verification Results (CVR): Go Online on Next Transaction Was Set"),
   .row (.set [(7, 1)] txt!"Card Verification Results (CVR): Unable to go Online"),
   .row (.set (bits 8 8 1) txt!"Card Verification Results (CVR): RFU")]

/-- Issuer Application Data of M/Chip (M/Chip Requirements, Appendix B), bytes 1 and 2. -/
def mchipHeadRows : List IRow :=
  [.line [.text txt!"Derivation Key Index (DKI): ", .hex 1],
   .line [.text txt!"Cryptogram Version Number (CVN): ", .hex 2],
   .row (.value 2 3 2 [(0, some txt!"Cryptogram: Mastercard Proprietary SKD session key"),
      (2, some txt!"Cryptogram: EMV CSK session key")] none)]

/-- M/Chip: counters and card verification results, bytes 3 to 6. -/
def mchipTailRows : List IRow :=
  [.row (.either 2 1 txt!"Cryptogram: Counter included in AC data"
      txt!"Cryptogram: Counters not included in AC data"),
   .row (.value 3 8 7
      [(0, some txt!"Card Verification Results (CVR): Second GENERATE AC returned AAC"),
       (1, some txt!"Card Verification Results (CVR): Second GENERATE AC returned TC"),
       (2, some txt!"Card Verification Results (CVR): Second GENERATE AC Not Requested"),
       (3, some txt!"Card Verification Results (CVR): Second GENERATE AC RFU")]
      none),
   .row (.value 3 6 5
      [(0, some txt!"Card Verification Results (CVR): First GENERATE AC returned AAC"),
       (1, some txt!"Card Verification Results (CVR): First GENERATE AC returned TC"),
       (2, some txt!"Card Verification Results (CVR): First GENERATE AC returned ARQC"),
       (3, some txt!"Card Verification Results (CVR): First GENERATE AC RFU")]
      none),
   .row (.set [(3, 4)] txt!"Card Verification Results (CVR): Date Check Failed"),
   .row (.set [(3, 3)] txt!"Card Verification Results (CVR): Offline PIN Verification Performed"),
   .row (.set [(3, 2)] txt!"Card Verification Results (CVR): Offline Encrypted PIN Verification Performed"),
   .row (.set [(3, 1)] txt!"Card Verification Results (CVR): Offline PIN Verification Successful"),
   .row (.set [(4, 8)] txt!"Card Verification Results (CVR): Dynamic Data Authentication (DDA) Returned"),
   .row (.set [(4, 7)] txt!"Card Verification Results (CVR): Combined DDA/Application Cryptogram Generation (CDA) Returned in First GENERATE AC"),
   .row (.set [(4, 6)] txt!"Card Verification Results (CVR): Combined DDA/Application Cryptogram Generation (CDA) Returned in Second GENERATE AC"),
   .row (.set [(4, 5)] txt!"Card Verification Results (CVR): Issuer Authentication Performed"),
   .row (.set [(4, 4)] txt!"Card Verification Results (CVR): Card Issuer Action Codes (CIAC) Default Skipped on Cardholder Activated Terminal Level 3 (CAT3)"),
   .row (.set [(4, 3)] txt!"Card Verification Results (CVR): Offline Change PIN Result Successful"),
   .row (.set (bits 4 2 1) txt!"Card Verification Results (CVR): Issuer Discretionary"),
   .lineIf (bits 5 8 5) [.text txt!"Card Verification Results (CVR): Script Counter is ", .num 5 8 5],
   .lineIf (bits 5 4 1) [.text txt!"Card Verification Results (CVR): PIN Try Counter is ", .num 5 4 1],
   .row (.set [(6, 8)] txt!"Card Verification Results (CVR): Last Online Transaction Not Completed"),
   .row (.set [(6, 7)] txt!"Card Verification Results (CVR): Unable To Go Online"),
   .row (.set [(6, 6)] txt!"Card Verification Results (CVR): Offline PIN Verification Not Performed"),
   .row (.set [(6, 5)] txt!"Card Verification Results (CVR): Offline PIN Verification Failed"),
   .row (.set [(6, 4)] txt!"Card Verification Results (CVR): PTL Exceeded"),
   .row (.set [(6, 3)] txt!"Card Verification Results (CVR): International Transaction"),
   .row (.set [(6, 2)] txt!"Card Verification Results (CVR): Domestic Transaction"),
   .row (.set [(6, 1)] txt!"Card Verification Results (CVR): Terminal Erroneously Considers Offline PIN OK")]

/-- M/Chip 4: limits in byte 7. -/
def mchip4Rows : List IRow :=
  [.row (.set [(7, 8)] txt!"Card Verification Results (CVR): Lower Consecutive Offline Limit Exceeded"),
   .row (.set [(7, 7)] txt!"Card Verification Results (CVR): Upper Consecutive Offline Limit Exceeded"),
   .row (.set [(7, 6)] txt!"Card Verification Results (CVR): Lower Cumulative Offline Limit Exceeded"),
   .row (.set [(7, 5)] txt!"Card Verification Results (CVR): Upper Cumulative Offline Limit Exceeded")]

/-- M/Chip Advance: limits in byte 7. -/
def mchipAdvRows : List IRow :=
  [.row (.set [(7, 8)] txt!"Card Verification Results (CVR): Lower Consecutive Counter 1 Limit Exceeded"),
   .row (.set [(7, 7)] txt!"Card Verification Results (CVR): Upper Consecutive Counter 1 Limit Exceeded"),
   .row (.set [(7, 6)] txt!"Card Verification Results (CVR): Lower Cumulative Accumulator Limit Exceeded"),
   .row (.set [(7, 5)] txt!"Card Verification Results (CVR): Upper Cumulative Accumulator Limit Exceeded")]

/-- M/Chip: rest of byte 7, and byte 8. -/
def mchipEndRows : List IRow :=
  [.row (.set [(7, 4)] txt!"Card Verification Results (CVR): Go Online On Next Transaction Was Set"),
   .row (.set [(7, 3)] txt!"Card Verification Results (CVR): Issuer Authentication Failed"),
   .row (.set [(7, 2)] txt!"Card Verification Results (CVR): Script Received"),
   .row (.set [(7, 1)] txt!"Card Verification Results (CVR): Script Failed"),
   .row (.set [(8, 8)] txt!"Card Verification Results (CVR): Lower Consecutive Counter 2 Limit Exceeded"),
   .row (.set [(8, 7)] txt!"Card Verification Results (CVR): Upper Consecutive Counter 2 Limit Exceeded"),
   .row (.set [(8, 6)] txt!"Card Verification Results (CVR): Lower Cumulative Accumulator 2 Limit Exceeded"),
   .row (.set [(8, 5)] txt!"Card Verification Results (CVR): Upper Cumulative Accumulator 2 Limit Exceeded"),
   .row (.set [(8, 4)] txt!"Card Verification Results (CVR): MTA Limit Exceeded"),
   .row (.set [(8, 3)] txt!"Card Verification Results (CVR): Number Of Days Offline Limit Exceeded"),
   .row (.set [(8, 2)] txt!"Card Verification Results (CVR): Match Found In Additional Check Table"),
   .row (.set [(8, 1)] txt!"Card Verification Results (CVR): No Match Found In Additional Check Table")]

/-- Visa formats 0, 1 and 3 (VCPS Supplemental Requirements, Appendix M). -/
def visa013Rows : List IRow :=
  [.line [.text txt!"Derivation Key Index (DKI): ", .hex 2],
   .line [.text txt!"Cryptogram Version Number (CVN): ", .hex 3, .text txt!" (CVN", .num2 3, .text txt!")"],
   .row (.value 5 8 7
      [(0, some txt!"Card Verification Results (CVR): Second GENERATE AC returned AAC"),
       (1, some txt!"Card Verification Results (CVR): Second GENERATE AC returned TC"),
       (2, some txt!"Card Verification Results (CVR): Second GENERATE AC Not Requested"),
       (3, some txt!"Card Verification Results (CVR): Second GENERATE AC RFU")]
      none),
   .row (.value 5 6 5
      [(0, some txt!"Card Verification Results (CVR): First GENERATE AC returned AAC"),
       (1, some txt!"Card Verification Results (CVR): First GENERATE AC returned TC"),
       (2, some txt!"Card Verification Results (CVR): First GENERATE AC returned ARQC"),
       (3, some txt!"Card Verification Results (CVR): First GENERATE AC RFU")]
      none),
   .row (.set [(5, 4)] txt!"Card Verification Results (CVR): Issuer Authentication performed and failed"),
   .row (.set [(5, 3)] txt!"Card Verification Results (CVR): Offline PIN verification performed"),
   .row (.set [(5, 2)] txt!"Card Verification Results (CVR): Offline PIN verification failed"),
   .row (.set [(5, 1)] txt!"Card Verification Results (CVR): Unable to go online"),
   .row (.set [(6, 8)] txt!"Card Verification Results (CVR): Last online transaction not completed"),
   .row (.set [(6, 7)] txt!"Card Verification Results (CVR): PIN Try Limit exceeded"),
   .row (.set [(6, 6)] txt!"Card Verification Results (CVR): Exceeded velocity checking counters"),
   .row (.set [(6, 5)] txt!"Card Verification Results (CVR): New card"),
   .row (.set [(6, 4)] txt!"Card Verification Results (CVR): Issuer Authentication failure on last online transaction"),
   .row (.set [(6, 3)] txt!"Card Verification Results (CVR): Issuer Authentication not performed after online authorization"),
   .row (.set [(6, 2)] txt!"Card Verification Results (CVR): Application blocked by card because PIN Try Limit exceeded"),
   .row (.set [(6, 1)] txt!"Card Verification Results (CVR): Offline static data authentication failed on last transaction"),
   .lineIf (bits 7 8 5) [.text txt!"Card Verification Results (CVR): Script Counter is ", .num 7 8 5],
   .row (.set [(7, 4)] txt!"Card Verification Results (CVR): Issuer Script processing failed"),
   .row (.set [(7, 3)] txt!"Card Verification Results (CVR): Offline dynamic data authentication failed on last transaction"),
   .row (.set [(7, 2)] txt!"Card Verification Results (CVR): Offline dynamic data authentication performed"),
   .row (.set [(7, 1)] txt!"Card Verification Results (CVR): PIN verification command not received for a PIN-Expecting card")]

/-- Visa formats 2 and 4 (VCPS Supplemental Requirements, Appendix M). -/
def visa24Rows : List IRow :=
  [.line [.text txt!"Cryptogram Version Number (CVN): ", .hex 2, .text txt!" (CVN'", .hex 2, .text txt!"')"],
   .line [.text txt!"Derivation Key Index (DKI): ", .hex 3],
   .row (.clear (bits 4 8 1) txt!"No CDCVM"),
   .row (.value 4 8 5
      [(1, some txt!"Card Verification Results (CVR): Visa Mobile Payment Application (VMPA)"),
       (2, some txt!"Card Verification Results (CVR): MG"),
       (3, some txt!"Card Verification Results (CVR): Co-residing SE app"),
       (4, some txt!"Card Verification Results (CVR): TEE app"),
       (5, some txt!"Card Verification Results (CVR): Mobile Application"),
       (6, some txt!"Card Verification Results (CVR): Terminal"),
       (7, some txt!"Card Verification Results (CVR): Verified in the cloud"),
       (8, some txt!"Card Verification Results (CVR): Verified by the mobile device OS")]
      none),
   .row (.value 4 4 1
      [(1, some txt!"Card Verification Results (CVR): Passcode"),
       (2, some txt!"Card Verification Results (CVR): Finger biometric"),
       (3, some txt!"Card Verification Results (CVR): Mobile device pattern"),
       (4, some txt!"Card Verification Results (CVR): Facial biometric"),
       (5, some txt!"Card Verification Results (CVR): Iris biometric"),
       (6, some txt!"Card Verification Results (CVR): Voice biometric"),
       (7, some txt!"Card Verification Results (CVR): Palm biometric"),
       (13, some txt!"Card Verification Results (CVR): Signature"),
       (14, some txt!"Card Verification Results (CVR): Online PIN")]
      none),
   .row (.value 5 8 7
      [(0, some txt!"Card Verification Results (CVR): Second GENERATE AC returned AAC"),
       (1, some txt!"Card Verification Results (CVR): Second GENERATE AC returned TC"),
       (2, some txt!"Card Verification Results (CVR): Second GENERATE AC Not Requested"),
       (3, some txt!"Card Verification Results (CVR): Second GENERATE AC RFU")]
      none),
   .row (.value 5 6 5
      [(0, some txt!"Card Verification Results (CVR): GPO returned AAC"),
       (1, some txt!"Card Verification Results (CVR): GPO returned TC"),
       (2, some txt!"Card Verification Results (CVR): GPO returned ARQC"),
       (3, some txt!"Card Verification Results (CVR): GPO RFU")]
      none),
   .row (.set [(5, 4)] txt!"Card Verification Results (CVR): Issuer Authentication performed and failed"),
   .row (.set [(5, 3)] txt!"Card Verification Results (CVR): CDCVM successfully performed"),
   .row (.set [(5, 2)] txt!"Card Verification Results (CVR): RFU"),
   .row (.set [(5, 1)] txt!"Card Verification Results (CVR): Unable to go online"),
   .row (.set [(6, 8)] txt!"Card Verification Results (CVR): Last online transaction not completed"),
   .row (.set [(6, 7)] txt!"Card Verification Results (CVR): PIN Try Limit exceeded"),
   .row (.set [(6, 6)] txt!"Card Verification Results (CVR): Exceeded velocity checking counters"),
   .row (.set [(6, 5)] txt!"Card Verification Results (CVR): New card"),
   .row (.set [(6, 4)] txt!"Card Verification Results (CVR): Issuer Authentication failure on last online transaction"),
   .row (.set [(6, 3)] txt!"Card Verification Results (CVR): Issuer Authentication not performed after online authorization"),
   .row (.set [(6, 2)] txt!"Card Verification Results (CVR): Application blocked by card because PIN Try Limit exceeded"),
   .row (.set [(6, 1)] txt!"Card Verification Results (CVR): Offline static data authentication failed on last transaction"),
   .lineIf (bits 7 8 5) [.text txt!"Card Verification Results (CVR): Script Counter is ", .num 7 8 5],
   .row (.set [(7, 4)] txt!"Card Verification Results (CVR): Issuer Script processing failed"),
   .row (.set [(7, 3)] txt!"Card Verification Results (CVR): Offline dynamic data authentication failed on last transaction"),
   .row (.set [(7, 2)] txt!"Card Verification Results (CVR): Offline dynamic data authentication performed"),
   .row (.set [(7, 1)] txt!"Card Verification Results (CVR): PIN verification command not received for a PIN-Expecting card"),
   .row (.set [(8, 8)] txt!"Card Verification Results (CVR): Consumer Device is not in debug mode"),
   .row (.set [(8, 7)] txt!"Card Verification Results (CVR): Consumer Device is not a rooted device"),
   .row (.set [(8, 6)] txt!"Card Verification Results (CVR): Mobile Application is not hooked"),
   .row (.set [(8, 5)] txt!"Card Verification Results (CVR): Mobile Application integrity is intact"),
   .row (.set [(8, 4)] txt!"Card Verification Results (CVR): Consumer Device has data connectivity"),
   .row (.set [(8, 3)] txt!"Card Verification Results (CVR): Consumer Device is genuine"),
   .row (.set [(8, 2)] txt!"Card Verification Results (CVR): CDCVM successfully performed"),
   .row (.set [(8, 1)] txt!"Card Verification Results (CVR): Secure Messaging uses EMV Session key-based derivation")]

/-- Card Status Update (EMV 4.4 Book 3, Annex C10). -/
def csuRows : List IRow :=
  [.row (.set [(1, 8)] txt!"Card Status Update (CSU): Proprietary Authentication Data Included"),
   .lineIf (bits 1 4 1) [.text txt!"Card Status Update (CSU): PIN Try Counter = ", .num 1 4 1],
   .row (.set [(2, 8)] txt!"Card Status Update (CSU): Issuer Approves Online Transaction"),
   .row (.set [(2, 7)] txt!"Card Status Update (CSU): Card Block"),
   .row (.set [(2, 6)] txt!"Card Status Update (CSU): Application Block"),
   .row (.set [(2, 5)] txt!"Card Status Update (CSU): Update PIN Try Counter"),
   .row (.set [(2, 4)] txt!"Card Status Update (CSU): Set Go Online on Next Transaction"),
   .row (.set [(2, 3)] txt!"Card Status Update (CSU): CSU Created by Proxy for the Issuer"),
   .row (.value 2 2 1 [(0, some txt!"Card Status Update (CSU): Do Not Update Offline Counters")] none),
   .row (.value 2 2 1 [(1, some txt!"Card Status Update (CSU): Set Offline Counters to Upper Offline Limits")] none),
   .row (.value 2 2 1 [(2, some txt!"Card Status Update (CSU): Reset Offline Counters to Zero")] none),
   .row (.value 2 2 1 [(3, some txt!"Card Status Update (CSU): Add Transaction to Offline Counter")] none),
   .lineIf (bits 4 8 1) [.text txt!"Card Status Update (CSU): Issuer Discretionary 0x", .hex 4],
   .row (.set (bits 1 7 5 ++ bits 3 8 1) txt!"Card Status Update (CSU): RFU")]


/-! ## C77: Issuer Application Data -/

/-- The lines of the Issuer Application Data, by format. -/
def iadLines (iad : List Byte) : IadFormat → List (List Byte)
  | .invalid => [txt!"Invalid IAD format"]
  | .unknown => [txt!"Unknown IAD format"]
  | .ccd => txt!"Application: CCD-Compliant" :: txt!"IAD Format: CCD Version 4.1" ::
      ishown ccdRows iad
  | .mchip4 => txt!"Application: M/Chip 4" ::
      ishown (mchipHeadRows ++ mchipTailRows ++ mchip4Rows ++ mchipEndRows) iad
  | .mchipAdvance => txt!"Application: M/Chip Advance" ::
      ishown (mchipHeadRows ++ mchipTailRows ++ mchipAdvRows ++ mchipEndRows) iad
  | .vsdc0 => txt!"Application: Visa Smart Debit/Credit (VSDC)" :: txt!"IAD Format: 0" ::
      ishown visa013Rows iad
  | .vsdc1 => txt!"Application: Visa Smart Debit/Credit (VSDC)" :: txt!"IAD Format: 1" ::
      ishown visa013Rows iad
  | .vsdc2 => txt!"Application: Visa Smart Debit/Credit (VSDC)" :: txt!"IAD Format: 2" ::
      ishown visa24Rows iad
  | .vsdc3 => txt!"Application: Visa Smart Debit/Credit (VSDC)" :: txt!"IAD Format: 3" ::
      ishown visa013Rows iad
  | .vsdc4 => txt!"Application: Visa Smart Debit/Credit (VSDC)" :: txt!"IAD Format: 4" ::
      ishown visa24Rows iad

theorem ishown_append (a b : List IRow) (f : List Byte) :
    ishown (a ++ b) f = ishown a f ++ ishown b f := by simp [ishown]

theorem ishown_cons (r : IRow) (b : List IRow) (f : List Byte) :
    ishown (r :: b) f = r.shown f ++ ishown b f := by simp [ishown]

/-- The table of the code for CCD: the row of the upper cumulative amount looks at bit 6. -/
def ccdWrong : IRow :=
  .row (.set [(6, 6)] txt!"Card Verification Results (CVR): Upper Cumulative Offline Amount Limit Exceeded")

theorem mchipHead_split (iad : List Byte) : ishown mchipHeadRows iad =
    ishown (mchipHeadRows.take 2) iad ++ (IRow.shown iad (.row (.value 2 3 2
      [(0, some txt!"Cryptogram: Mastercard Proprietary SKD session key"),
       (2, some txt!"Cryptogram: EMV CSK session key")] none))) := by
  simp [ishown, mchipHeadRows]

theorem mchipHead_rows : irowsOf 18 [mchipHead].flatten = some (mchipHeadRows.take 2) := rfl

theorem ccd_rows : irowsOf 32 [ccdDki, ccdCvr].flatten =
    some ((ccdRows.drop 1).set 15 ccdWrong) := rfl

theorem visa013_rows : irowsOf 7 [vsdc013Head, vsdc013Cvr].flatten = some visa013Rows := rfl

theorem visa24_rows : irowsOf 32 [vsdc24Head, vsdc24Cvr].flatten = some visa24Rows := rfl

theorem mchip4_rows : irowsOf 18 [mchipCtr, mchipCvr14, mchip4Cvr5, mchipCvr56].flatten =
    some (mchipTailRows ++ mchip4Rows ++ mchipEndRows) := rfl

theorem mchipAdv_rows : irowsOf 18 [mchipCtr, mchipCvr14, mchipAdvCvr5, mchipCvr56].flatten =
    some (mchipTailRows ++ mchipAdvRows ++ mchipEndRows) := rfl

theorem ccdAppend_lines (iad : List Byte) (h : IsCcd iad)
    (hq : bitSet iad (6, 6) = bitSet iad (6, 5)) :
    ccdAppend iad = .ok (0, ishown ccdRows iad) := by
  obtain ⟨l, b1, b2, b17⟩ := h
  have hb1 : iad.getD 0 0 = 0x0F := UInt8.toNat_inj.1 b1
  have hb17 : iad.getD 16 0 = 0x0F := UInt8.toNat_inj.1 b17
  have hrun : runAll iad [ccdDki, ccdCvr] = .ok (ishown (ccdRows.drop 1) iad) := by
    rw [runAll, irowsOf_run 32 iad (by omega) _ _ ccd_rows]
    congr 1
    apply ishown_set
    intro q hq'
    have : (ccdRows.drop 1)[15]? = some (.row (.set [(6, 5)] txt!"Card Verification Results (CVR): Upper Cumulative Offline Amount Limit Exceeded")) := by
      decide +kernel
    rw [this] at hq'
    cases hq'
    simp [ccdWrong, IRow.shown, Row.shown, hq]
  have hsplit : ishown ccdRows iad = IRow.shown iad (.row (.value 2 4 1
      [(5, some txt!"Cryptogram Version: TDES"), (6, some txt!"Cryptogram Version: AES")] none)) ++
      ishown (ccdRows.drop 1) iad := rfl
  rw [ccdAppend, rdIs_eq (by omega), rdIs_eq (by omega), hb1, hb17, hsplit]
  simp only [andC_ok, l, decide_true, if_true, beq_self_eq_true, bind_ok, hrun,
    Fields.rd_getD (show 1 < iad.length by omega)]
  generalize ishown (ccdRows.drop 1) iad = rest
  have hv : bitsVal iad 2 4 1 = byteAt iad 2 % 16 := by
    rw [bitsVal, byteAt]; simp
  rcases b2 with b2 | b2
  · have hb2 : iad.getD 1 0 = 0xA5 := UInt8.toNat_inj.1 b2
    rw [hb2, if_pos (by decide)]
    simp [IRow.shown, Row.shown, hv, b2, valText]
  · have hb2 : iad.getD 1 0 = 0xA6 := UInt8.toNat_inj.1 b2
    rw [hb2, if_neg (by decide), if_pos (by decide)]
    simp [IRow.shown, Row.shown, hv, b2, valText]

theorem mchipAppend_lines (iad : List Byte) (h : IsMChip iad) :
    mchipAppend iad = .ok (0, ishown (mchipHeadRows ++ mchipTailRows ++
      (if iad.length = 18 then mchip4Rows else mchipAdvRows) ++ mchipEndRows) iad) := by
  obtain ⟨l, b⟩ := h
  have h18 : 18 ≤ iad.length := by omega
  obtain ⟨c1, c2, c3⟩ := (mchip_cvn (iad.getD 1 0)).2 b
  have hhead : runAll iad [mchipHead] = .ok (ishown (mchipHeadRows.take 2) iad) :=
    irowsOf_run 18 iad h18 _ _ mchipHead_rows
  have hrest : mchipRest iad = .ok (ishown (mchipTailRows ++
      (if iad.length = 18 then mchip4Rows else mchipAdvRows) ++ mchipEndRows) iad) := by
    by_cases hl : iad.length = 18
    · rw [mchipRest, runAll, if_pos hl, if_pos hl]
      exact irowsOf_run 18 iad h18 _ _ mchip4_rows
    · rw [mchipRest, runAll, if_neg hl, if_neg hl]
      exact irowsOf_run 18 iad h18 _ _ mchipAdv_rows
  have hsplit : ∀ rows, ishown (mchipHeadRows ++ rows) iad =
      ishown (mchipHeadRows.take 2) iad ++ (IRow.shown iad (.row (.value 2 3 2
        [(0, some txt!"Cryptogram: Mastercard Proprietary SKD session key"),
         (2, some txt!"Cryptogram: EMV CSK session key")] none)) ++ ishown rows iad) := by
    intro rows
    rw [ishown_append, ← List.append_assoc, mchipHead_split]
  rw [List.append_assoc, List.append_assoc, hsplit, ← List.append_assoc mchipTailRows]
  rw [mchipAppend, rdIs_eq (by omega), rdIs_eq (by omega), rdIs_eq (by omega), c1, c2, c3]
  simp only [andC_ok, l, decide_true, if_true, bind_ok, hhead, hrest,
    Fields.rd_getD (show 1 < iad.length by omega)]
  generalize ishown (mchipTailRows ++ _ ++ _) iad = rest
  generalize ishown (mchipHeadRows.take 2) iad = hd
  have hv : ∀ v : Byte, iad.getD 1 0 = v → bitsVal iad 2 3 2 = v.toNat / 2 % 4 := by
    intro v e; rw [bitsVal, e]
  rcases b with b | b | b | b
  · have hb2 : iad.getD 1 0 = 0x10 := UInt8.toNat_inj.1 b
    rw [hb2, if_pos (by decide)]
    simp [IRow.shown, Row.shown, hv _ hb2, valText]
  · have hb2 : iad.getD 1 0 = 0x11 := UInt8.toNat_inj.1 b
    rw [hb2, if_pos (by decide)]
    simp [IRow.shown, Row.shown, hv _ hb2, valText]
  · have hb2 : iad.getD 1 0 = 0x14 := UInt8.toNat_inj.1 b
    rw [hb2, if_neg (by decide), if_pos (by decide)]
    simp [IRow.shown, Row.shown, hv _ hb2, valText]
  · have hb2 : iad.getD 1 0 = 0x15 := UInt8.toNat_inj.1 b
    rw [hb2, if_neg (by decide), if_pos (by decide)]
    simp [IRow.shown, Row.shown, hv _ hb2, valText]

theorem nib013 : ∀ b : Byte, (b.toNat / 16 = 0 ∨ b.toNat / 16 = 1 ∨ b.toNat / 16 = 3) →
    ((b &&& 0xF0) >>> 4 == 0 || (b &&& 0xF0) >>> 4 == 1 || (b &&& 0xF0) >>> 4 == 3) = true := by
  decide +kernel

theorem nib24 : ∀ b : Byte, (b.toNat / 16 = 2 ∨ b.toNat / 16 = 4) →
    ((b &&& 0xF0) >>> 4 == 2 || (b &&& 0xF0) >>> 4 == 4) = true := by
  decide +kernel

theorem low_nib : ∀ b : Byte, b.toNat < 16 → (b &&& 0xF0 == 0) = true := by decide +kernel

theorem vsdc013_lines (iad : List Byte) (h : IsVisa013 iad)
    (hn : byteAt iad 3 / 16 = 0 ∨ byteAt iad 3 / 16 = 1 ∨ byteAt iad 3 / 16 = 3) :
    vsdc013Append iad = .ok (0, ishown visa013Rows iad) := by
  obtain ⟨l, b1, b4⟩ := h
  have hb1 : iad.getD 0 0 = 0x06 := UInt8.toNat_inj.1 b1
  have hb4 : iad.getD 3 0 = 0x03 := UInt8.toNat_inj.1 b4
  have hrun : runAll iad [vsdc013Head, vsdc013Cvr] = .ok (ishown visa013Rows iad) :=
    irowsOf_run 7 iad l _ _ visa013_rows
  rw [vsdc013Append, rdIs_eq (by omega), rdIs_eq (by omega), rdIs_eq (by omega), hb1, hb4,
    nib013 _ hn]
  simp [andC_ok, l, hrun, bind_ok]

theorem vsdc24_lines (iad : List Byte) (h : IsVisa24 iad)
    (hn : byteAt iad 2 / 16 = 2 ∨ byteAt iad 2 / 16 = 4) :
    vsdc24Append iad = .ok (0, ishown visa24Rows iad) := by
  obtain ⟨l, b1, b9⟩ := h
  have hb1 : iad.getD 0 0 = 0x1F := UInt8.toNat_inj.1 b1
  have hrun : runAll iad [vsdc24Head, vsdc24Cvr] = .ok (ishown visa24Rows iad) :=
    irowsOf_run 32 iad (by omega) _ _ visa24_rows
  rw [vsdc24Append, rdIs_eq (by omega), rdIs_eq (by omega), rdIs_eq (by omega), hb1,
    low_nib _ b9, nib24 _ hn]
  simp [andC_ok, l, hrun, bind_ok]

theorem iadStrings_lines (iad : List Byte) (fmt : IadFormat) (h : Is iad fmt)
    (hq : fmt = .ccd → bitSet iad (6, 6) = bitSet iad (6, 5)) :
    iadStrings iad fmt = .ok (if fmt = .invalid then -1 else 0, iadLines iad fmt) := by
  cases fmt with
  | invalid => rfl
  | unknown => rfl
  | ccd => rw [iadStrings, ccdAppend_lines iad h (hq rfl)]; rfl
  | mchip4 => rw [iadStrings, mchipAppend_lines iad h.1, if_pos h.2]; rfl
  | mchipAdvance => rw [iadStrings, mchipAppend_lines iad h.1, if_neg h.2]; rfl
  | vsdc0 => rw [iadStrings, vsdc013_lines iad h.1 (.inl h.2.2)]; rfl
  | vsdc1 => rw [iadStrings, vsdc013_lines iad h.1 (.inr (.inl h.2.2))]; rfl
  | vsdc3 => rw [iadStrings, vsdc013_lines iad h.1 (.inr (.inr h.2.2))]; rfl
  | vsdc2 => rw [iadStrings, vsdc24_lines iad h.1 (.inl h.2)]; rfl
  | vsdc4 => rw [iadStrings, vsdc24_lines iad h.1 (.inr h.2)]; rfl

theorem iadLines_ne (iad : List Byte) (fmt : IadFormat) : ∀ s ∈ iadLines iad fmt, s ≠ [] := by
  have h1 := ishown_ne iad ccdRows (by decide +kernel)
  have h2 := ishown_ne iad (mchipHeadRows ++ mchipTailRows ++ mchip4Rows ++ mchipEndRows)
    (by decide +kernel)
  have h3 := ishown_ne iad (mchipHeadRows ++ mchipTailRows ++ mchipAdvRows ++ mchipEndRows)
    (by decide +kernel)
  have h4 := ishown_ne iad visa013Rows (by decide +kernel)
  have h5 := ishown_ne iad visa24Rows (by decide +kernel)
  have one : ∀ (a : List Byte) (ls : List (List Byte)), a ≠ [] → (∀ s ∈ ls, s ≠ []) →
      ∀ s ∈ a :: ls, s ≠ [] := by
    intro a ls ha hl s hs
    rcases List.mem_cons.1 hs with rfl | hs
    · exact ha
    · exact hl s hs
  have nil : ∀ s ∈ ([] : List (List Byte)), s ≠ [] := by simp
  cases fmt with
  | invalid => exact one _ _ (by decide) nil
  | unknown => exact one _ _ (by decide) nil
  | ccd => exact one _ _ (by decide) (one _ _ (by decide) h1)
  | mchip4 => exact one _ _ (by decide) h2
  | mchipAdvance => exact one _ _ (by decide) h3
  | vsdc0 => exact one _ _ (by decide) (one _ _ (by decide) h4)
  | vsdc1 => exact one _ _ (by decide) (one _ _ (by decide) h4)
  | vsdc2 => exact one _ _ (by decide) (one _ _ (by decide) h5)
  | vsdc3 => exact one _ _ (by decide) (one _ _ (by decide) h4)
  | vsdc4 => exact one _ _ (by decide) (one _ _ (by decide) h5)

/-- **C77**.  The description of Issuer Application Data of one to 32 bytes is that of its
format, as specified by the tables.  Missing: for CCD, data in which the bits of the lower and
of the upper cumulative offline amount limit differ, see `C77_ccd_upper_wrong`. -/
theorem C77_iad_partial (iad str : List Byte) (h0 : iad ≠ []) (h32 : iad.length ≤ 32)
    (hs : str ≠ []) (fmt : IadFormat) (h : Is iad fmt)
    (hq : fmt = .ccd → bitSet iad (6, 6) = bitSet iad (6, 5)) :
    ∃ str', iadList iad str = .ok (if fmt = .invalid then -1 else 0, str') ∧
      Shows str (iadLines iad fmt) str' := by
  obtain ⟨g, e, hg⟩ := C21_format iad
  obtain rfl : fmt = g := (hg fmt).1 h
  obtain ⟨str', e', hsh⟩ := build_shows str (iadLines iad fmt) (iadLines_ne iad fmt)
  refine ⟨str', ?_, hsh⟩
  have n0 : iad.length ≠ 0 := by simpa using h0
  have ns : str.length ≠ 0 := by simpa using hs
  rw [iadList, if_neg n0, if_neg ns, if_neg (by omega), e, bind_ok,
    iadStrings_lines iad fmt h hq, bind_ok]
  simp only [e', bind_ok]

/-- **C77** (safety and refusals).  Whatever the data: no memory error, only the output is
written, and data longer than 32 bytes is refused. -/
theorem C77_safe (iad str : List Byte) :
    ∃ c str', iadList iad str = .ok (c, str') ∧ str'.length = str.length ∧
      (iad = [] → c = -1 ∧ str' = str) ∧
      (iad ≠ [] → str = [] → c = 0) ∧
      (32 < iad.length → str ≠ [] → c = 1 ∧ str' = str) := by
  by_cases h0 : iad = []
  · subst h0; exact ⟨-1, str, rfl, rfl, fun _ => ⟨rfl, rfl⟩, fun h => absurd rfl h, fun h => by simp at h⟩
  have n0 : iad.length ≠ 0 := by simpa using h0
  by_cases hs : str = []
  · subst hs
    exact ⟨0, [], by simp [iadList, h0], rfl, fun h => absurd h h0, fun _ _ => rfl,
      fun _ h => absurd rfl h⟩
  have ns : str.length ≠ 0 := by simpa using hs
  by_cases h32 : iad.length > 32
  · exact ⟨1, str, by rw [iadList, if_neg n0, if_neg ns, if_pos h32], rfl, fun h => absurd h h0,
      fun _ h => absurd h hs, fun _ _ => ⟨rfl, rfl⟩⟩
  obtain ⟨fmt, e, hg⟩ := C21_format iad
  have hfmt := (hg fmt).2 rfl
  have hstr : ∃ c ls, iadStrings iad fmt = .ok (c, ls) := by
    by_cases hc : fmt = .ccd
    · subst hc
      obtain ⟨l, b1, b2, b17⟩ := hfmt
      have hrun : runAll iad [ccdDki, ccdCvr] =
          .ok (ishown ((ccdRows.drop 1).set 15 ccdWrong) iad) :=
        irowsOf_run 32 iad (by omega) _ _ ccd_rows
      rw [iadStrings, ccdAppend, rdIs_eq (by omega), rdIs_eq (by omega)]
      have hb1 : iad.getD 0 0 = 0x0F := UInt8.toNat_inj.1 b1
      have hb17 : iad.getD 16 0 = 0x0F := UInt8.toNat_inj.1 b17
      simp only [hb1, hb17, andC_ok, l, decide_true, if_true, beq_self_eq_true, bind_ok, hrun,
        Fields.rd_getD (show 1 < iad.length by omega), prefixed]
      split
      · exact ⟨_, _, rfl⟩
      · split
        · exact ⟨_, _, rfl⟩
        · exact ⟨_, _, rfl⟩
    · exact ⟨_, _, iadStrings_lines iad fmt hfmt (fun h => absurd h hc)⟩
  obtain ⟨c, ls, e2⟩ := hstr
  obtain ⟨str', e3, -⟩ := build_spec ls str
  refine ⟨c, str', ?_, build_length _ _ _ e3, fun h => absurd h h0, fun _ h => absurd h hs,
    fun h => absurd h h32⟩
  rw [iadList, if_neg n0, if_neg ns, if_neg h32, e, bind_ok, e2, bind_ok]
  simp only [e3, bind_ok]

/-- CCD data with the given byte 6. -/
def ccdWith (b6 : Byte) : List Byte :=
  [0x0F, 0xA5, 0x01, 0x80, 0x30, b6] ++ List.replicate 10 0 ++ 0x0F :: List.replicate 15 0

/-- **C77** is false of the code for the upper cumulative offline amount limit of CCD: the
constant for it is that of the lower limit (emv_fields.h:409-410).  With only the upper limit
exceeded nothing is shown of it, and with only the lower limit exceeded both are shown. -/
theorem C77_ccd_upper_wrong :
    Is (ccdWith 0x10) .ccd ∧ Is (ccdWith 0x20) .ccd ∧
    (iadStrings (ccdWith 0x10) .ccd = iadStrings (ccdWith 0x00) .ccd) ∧
    (iadStrings (ccdWith 0x20) .ccd = iadStrings (ccdWith 0x30) .ccd) ∧
    iadLines (ccdWith 0x10) .ccd ≠ iadLines (ccdWith 0x00) .ccd ∧
    iadLines (ccdWith 0x20) .ccd ≠ iadLines (ccdWith 0x30) .ccd := by
  have hccd : ∀ b ∈ [0x00, 0x10, 0x20, 0x30], Is (ccdWith b) .ccd := by
    intro b _; exact ⟨rfl, rfl, .inl rfl, rfl⟩
  refine ⟨hccd _ (by simp), hccd _ (by simp), ?_, ?_, ?_, ?_⟩
  · rfl
  · rfl
  · intro h
    have := congrArg List.length h
    revert this
    decide +kernel
  · intro h
    have := congrArg List.length h
    revert this
    decide +kernel

/-- A case of C77: Visa, with the numbers in the lines. -/
example : Is [0x06, 0x01, 0x0A, 0x03, 0xA0, 0x00, 0x00] .vsdc0 ∧
    (iadLines [0x06, 0x01, 0x0A, 0x03, 0xA0, 0x00, 0x00] .vsdc0).take 4 =
      [txt!"Application: Visa Smart Debit/Credit (VSDC)", txt!"IAD Format: 0",
       txt!"Derivation Key Index (DKI): 01", txt!"Cryptogram Version Number (CVN): 0A (CVN10)"] := by
  refine ⟨⟨⟨by decide, by decide, by decide⟩, ?_, by decide⟩, by decide +kernel⟩
  rintro ⟨h, _⟩
  revert h; decide

/-! ## C78: Issuer Authentication Data -/

/-- The last two of ten bytes are an alphanumeric response code. -/
def HasArc (d : List Byte) : Prop := d.length = 10 ∧ ∀ b ∈ d.drop 8, Str.IsAn b

/-- Ten bytes with an M/Chip response code. -/
def HasMChipCode (d : List Byte) : Prop := d.length = 10 ∧ byteAt d 9 < 16

/-- The reserved bits of a Card Status Update from byte 5 on are clear. -/
def HasCsu (d : List Byte) : Prop := byteAt d 5 / 16 % 8 = 0 ∧ byteAt d 7 = 0

instance (d : List Byte) : Decidable (HasArc d) := by unfold HasArc; infer_instance
instance (d : List Byte) : Decidable (HasMChipCode d) := by unfold HasMChipCode; infer_instance
instance (d : List Byte) : Decidable (HasCsu d) := by unfold HasCsu; infer_instance

/-- The lines of Issuer Authentication Data. -/
def authLines (d : List Byte) : List (List Byte) :=
  if HasArc d then
    [txt!"Authorisation Response Cryptogram (ARPC): " ++ hexOf (d.take 8),
     txt!"Authorisation Response Code: " ++ d.drop 8]
  else if HasMChipCode d then
    [txt!"Authorisation Response Cryptogram (ARPC): " ++ hexOf (d.take 8),
     txt!"M/Chip ARPC Response Code: " ++ hexOf (d.drop 8)]
  else if HasCsu d then
    [txt!"Authorisation Response Cryptogram (ARPC): " ++ hexOf (d.take 4)] ++
    ishown csuRows ((d.drop 4).take 4) ++
    (if 8 < d.length ∧ 128 ≤ byteAt d 5 then
      [txt!"Proprietary Authentication Data: " ++ decimal (d.length - 8) ++ txt!" bytes"]
     else [])
  else []

theorem hexRun_spec (f : List Byte) : ∀ (n i : Nat), i + n ≤ f.length →
    hexRun f n i = .ok (hexOf ((f.drop i).take n)) := by
  intro n
  induction n with
  | zero => intro i h; simp [hexRun, hexOf, nibbles]
  | succ n ih =>
    intro i h
    rw [hexRun, Bits.rd_getD (by omega), bind_ok, ih (i + 1) (by omega), bind_ok]
    have : (f.drop i).take (n + 1) = f.getD i 0 :: (f.drop (i + 1)).take n := by
      rw [List.drop_eq_getElem_cons (show i < f.length by omega), List.take_succ_cons]
      simp [show i < f.length by omega]
    rw [this, hex02_hexOf']
    rfl

theorem csu_rows : irowsOf 4 csu = some (csuRows.set 9
    (.row (.value 2 2 1
      [(1, some txt!"ard Status Update (CSU): Set Offline Counters to Upper Offline Limits")]
      none))) := rfl

theorem csuRun (c : List Byte) (hc : c.length = 4) (h : bitsVal c 2 2 1 ≠ 1) :
    runItems c csu = .ok (ishown csuRows c) := by
  rw [irowsOf_run 4 c (by omega) _ _ csu_rows]
  congr 1
  apply ishown_set
  intro q hq
  have : csuRows[9]? = some (.row (.value 2 2 1
      [(1, some txt!"Card Status Update (CSU): Set Offline Counters to Upper Offline Limits")]
      none)) := rfl
  rw [this] at hq
  cases hq
  simp [IRow.shown, Row.shown, valText, h]

theorem formatAn_cases (a loc : List Byte) (ha : a.length = 2) (hl : loc.length = 3) :
    ((∀ b ∈ a, Str.IsAn b) → Str.formatAn a loc = .ok (0, a ++ [0])) ∧
    (¬ (∀ b ∈ a, Str.IsAn b) → ∃ c s, c ≠ 0 ∧ s.length = 3 ∧ Str.formatAn a loc = .ok (c, s)) := by
  obtain ⟨h1, h2⟩ := Str.C55_validation.2.1 a loc
  have h0 : a ≠ [] := by rintro rfl; simp at ha
  constructor
  · intro h
    rw [h1 ⟨h0, by omega, h⟩, strOver, ha, List.drop_eq_nil_of_le (by omega)]
  · intro h
    obtain ⟨c, s, e1, e2, e3⟩ := h2 (fun h' => h h'.2.2)
    exact ⟨c, s, e1, by omega, e3⟩

theorem an_nonzero : ∀ b : Byte, Str.IsAn b → b ≠ 0 := by decide +kernel

theorem csu_bits : ∀ b : Byte, ((b &&& 0x70 == 0) = true ↔ b.toNat / 16 % 8 = 0) ∧
    (b &&& 0x80 ≠ 0 ↔ 128 ≤ b.toNat) ∧ ((b &&& 0xFF == 0) = true ↔ b.toNat = 0) ∧
    (b &&& 0xF0 = 0 ↔ b.toNat < 16) := by
  decide +kernel

/-- The lines of the part with a Card Status Update, `cs` being those of the update. -/
def csuLines (d : List Byte) (cs : List (List Byte)) : List (List Byte) :=
  [txt!"Authorisation Response Cryptogram (ARPC): " ++ hexOf (d.take 4)] ++ cs ++
    (if 8 < d.length ∧ 128 ≤ byteAt d 5 then
      [txt!"Proprietary Authentication Data: " ++ decimal (d.length - 8) ++ txt!" bytes"]
     else [])

theorem csuStrings_lines (loc d : List Byte) (hl : loc.length = 3) (h8 : 8 ≤ d.length)
    (h32 : d.length ≤ 32) (hn : ¬ HasArc d) (cs : List (List Byte))
    (hcs : runItems ((d.drop 4).take 4) csu = .ok cs) :
    csuStrings loc d = .ok (csuLines d cs) := by
  have hextra : csuExtra loc d = .ok (if 8 < d.length ∧ 128 ≤ byteAt d 5 then
      [txt!"Proprietary Authentication Data: " ++ decimal (d.length - 8) ++ txt!" bytes"]
     else []) := by
    have hb := (csu_bits (d.getD 4 0)).2.1
    by_cases hlt : d.length > 8
    · rw [csuExtra, if_pos hlt, Bits.rd_getD (by omega), bind_ok]
      by_cases hp : d.getD 4 0 &&& 0x80 ≠ 0
      · rw [if_pos hp, if_pos (show 8 < d.length ∧ 128 ≤ byteAt d 5 from ⟨hlt, hb.1 hp⟩), decU_spec _ (by omega)]
      · rw [if_neg hp, if_neg (fun h : 8 < d.length ∧ 128 ≤ byteAt d 5 => hp (hb.2 h.2))]
        by_cases h10 : d.length = 10
        · have hna : ¬ ∀ b ∈ (d.drop 8).take 2, Str.IsAn b := by
            intro h
            rw [List.take_of_length_le (by simp; omega)] at h
            exact hn ⟨h10, h⟩
          obtain ⟨c, s, hc, -, e⟩ := (formatAn_cases _ loc (by simp; omega) hl).2 hna
          rw [if_pos h10, slice_eq (by omega), bind_ok, e, bind_ok]
          simp only [if_neg hc]
        · rw [if_neg h10]
    · rw [csuExtra, if_neg hlt, if_neg (fun h : 8 < d.length ∧ 128 ≤ byteAt d 5 => hlt h.1)]
  rw [csuStrings, hexRun_spec d 4 0 (by omega), bind_ok, slice_eq (by omega), bind_ok, hcs, bind_ok,
    hextra]
  rfl

/-- The lines of Issuer Authentication Data, `cs` being those of the Card Status Update. -/
def authLinesWith (d : List Byte) (cs : List (List Byte)) : List (List Byte) :=
  if HasArc d then
    [txt!"Authorisation Response Cryptogram (ARPC): " ++ hexOf (d.take 8),
     txt!"Authorisation Response Code: " ++ d.drop 8]
  else if HasMChipCode d then
    [txt!"Authorisation Response Cryptogram (ARPC): " ++ hexOf (d.take 8),
     txt!"M/Chip ARPC Response Code: " ++ hexOf (d.drop 8)]
  else if HasCsu d then csuLines d cs
  else []

theorem authRest_lines (loc d : List Byte) (hl : loc.length = 3) (h8 : 8 ≤ d.length)
    (h32 : d.length ≤ 32) (hn : ¬ HasArc d) (cs : List (List Byte))
    (hcs : runItems ((d.drop 4).take 4) csu = .ok cs) :
    authRest loc d = .ok (if HasCsu d then csuLines d cs else []) := by
  rw [authRest, rdIs_eq (by omega), rdIs_eq (by omega), andC_ok]
  have h1 := (csu_bits (d.getD 4 0)).1
  have h2 := (csu_bits (d.getD 6 0)).2.2.1
  by_cases c1 : (d.getD 4 0 &&& 0x70 == 0) = true
  · rw [if_pos c1, bind_ok]
    by_cases c2 : (d.getD 6 0 &&& 0xFF == 0) = true
    · rw [if_pos c2, if_pos (show HasCsu d from ⟨h1.1 c1, h2.1 c2⟩),
        csuStrings_lines loc d hl h8 h32 hn cs hcs]
    · rw [if_neg c2, if_neg (fun h : HasCsu d => c2 (h2.2 h.2))]
  · rw [if_neg c1, bind_ok, if_neg (fun h : HasCsu d => c1 (h1.2 h.1))]
    simp

theorem authStrings_lines (loc d : List Byte) (hl : loc.length = 3) (h8 : 8 ≤ d.length)
    (h32 : d.length ≤ 32) (cs : List (List Byte))
    (hcs : runItems ((d.drop 4).take 4) csu = .ok cs) :
    authStrings loc d = .ok (authLinesWith d cs) := by
  rw [authStrings]
  by_cases h10 : d.length = 10
  · have ht : (d.drop 8).take 2 = d.drop 8 := List.take_of_length_le (by simp; omega)
    obtain ⟨f1, f2⟩ := formatAn_cases (d.drop 8) loc (by simp; omega) hl
    rw [if_pos h10, slice_eq (by omega), bind_ok, ht]
    by_cases ha : ∀ b ∈ d.drop 8, Str.IsAn b
    · rw [f1 ha, bind_ok]
      simp only [if_true, hexRun_spec d 8 0 (by omega), bind_ok, List.drop_zero,
        Capdu.cstr_spec (d.drop 8) [] (fun b hb => an_nonzero b (ha b hb))]
      rw [authLinesWith, if_pos ⟨h10, ha⟩]
    · have hn : ¬ HasArc d := fun h => ha h.2
      obtain ⟨c, s, hc, -, e⟩ := f2 ha
      rw [e, bind_ok]
      simp only [if_neg hc]
      rw [Bits.rd_getD (by omega), bind_ok]
      have h9 := (csu_bits (d.getD 8 0)).2.2.2
      by_cases hm : d.getD 8 0 &&& 0xF0 = 0
      · rw [if_pos hm, hexRun_spec d 8 0 (by omega), bind_ok, hexRun_spec d 2 8 (by omega), bind_ok,
          ht, authLinesWith, if_neg hn, if_pos ⟨h10, h9.1 hm⟩]
        rfl
      · rw [if_neg hm, authRest_lines loc d hl h8 h32 hn cs hcs, authLinesWith, if_neg hn,
          if_neg (fun h : HasMChipCode d => hm (h9.2 h.2))]
  · have hn : ¬ HasArc d := fun h => h10 h.1
    rw [if_neg h10, authRest_lines loc d hl h8 h32 hn cs hcs, authLinesWith, if_neg hn,
      if_neg (fun h : HasMChipCode d => h10 h.1)]

theorem authLines_ne (d : List Byte) : ∀ s ∈ authLines d, s ≠ [] := by
  have h := ishown_ne ((d.drop 4).take 4) csuRows (by decide +kernel)
  have happ : ∀ k n (x : List Byte), bytesOfNum (k + 1) n ++ x ≠ [] := by
    intro k n x; simp [bytesOfNum]
  intro s hs
  unfold authLines at hs
  split at hs
  · simp only [List.mem_cons, List.not_mem_nil, or_false] at hs
    rcases hs with rfl | rfl <;> exact happ _ _ _
  split at hs
  · simp only [List.mem_cons, List.not_mem_nil, or_false] at hs
    rcases hs with rfl | rfl <;> exact happ _ _ _
  split at hs
  · rw [List.mem_append, List.mem_append] at hs
    rcases hs with (hs | hs) | hs
    · rw [List.mem_singleton] at hs; subst hs; exact happ _ _ _
    · exact h s hs
    · split at hs
      · rw [List.mem_singleton] at hs; subst hs; rw [List.append_assoc]; exact happ _ _ _
      · cases hs
  · cases hs

/-- **C78**.  Issuer Authentication Data of 8 to 32 bytes shows the lines of its kind.  Missing:
a Card Status Update which sets the offline counters to the upper limits, see `C78_csu_typo`,
and (as no line is added) an empty description for data of none of the kinds, see
`C78_undescribed`. -/
theorem C78_auth_partial (loc d str : List Byte) (hl : loc.length = 3) (h8 : 8 ≤ d.length)
    (h32 : d.length ≤ 32) (hs : str ≠ []) (hq : bitsVal d 6 2 1 ≠ 1) :
    ∃ str', authList loc d str = .ok (0, str') ∧ Shows str (authLines d) str' := by
  have hcs := csuRun ((d.drop 4).take 4) (by simp; omega) (by
    have : ((d.drop 4).take 4).getD 1 0 = d.getD 5 0 := by
      simp [List.getD_eq_getElem?_getD, List.getElem?_drop]
    rw [bitsVal] at hq ⊢
    simp only [Nat.add_one_sub_one, this] at hq ⊢
    exact hq)
  obtain ⟨str', e, hsh⟩ := build_shows str (authLines d) (authLines_ne d)
  refine ⟨str', ?_, hsh⟩
  have ns : str.length ≠ 0 := by simpa using hs
  rw [authList, if_neg (by omega), if_neg ns, if_neg (by omega),
    authStrings_lines loc d hl h8 h32 _ hcs, bind_ok]
  change (do let str ← build (authLines d) str; .ok ((0 : Int), str)) = _
  rw [e, bind_ok]

/-- **C78** (safety and refusals).  Whatever the data: no memory error, only the output is
written, and data of fewer than 8 or more than 32 bytes is refused. -/
theorem C78_safe (loc d str : List Byte) (hl : loc.length = 3) :
    ∃ c str', authList loc d str = .ok (c, str') ∧ str'.length = str.length ∧
      (d = [] → c = -1 ∧ str' = str) ∧
      (d ≠ [] → str = [] → c = 0) ∧
      (d ≠ [] → str ≠ [] → (c = 0 ↔ 8 ≤ d.length ∧ d.length ≤ 32)) := by
  by_cases h0 : d = []
  · subst h0
    exact ⟨-1, str, rfl, rfl, fun _ => ⟨rfl, rfl⟩, fun h => absurd rfl h, fun h => absurd rfl h⟩
  have n0 : d.length ≠ 0 := by simpa using h0
  by_cases hs : str = []
  · subst hs
    exact ⟨0, [], by simp [authList, h0], rfl, fun h => absurd h h0, fun _ _ => rfl,
      fun _ h => absurd rfl h⟩
  have ns : str.length ≠ 0 := by simpa using hs
  by_cases hr : d.length < 8 ∨ d.length > 32
  · refine ⟨1, str, by rw [authList, if_neg n0, if_neg ns, if_pos hr], rfl, fun h => absurd h h0,
      fun _ h => absurd h hs, fun _ _ => ⟨fun h => absurd h (by decide), fun h => by omega⟩⟩
  · have hrun := irowsOf_run 4 ((d.drop 4).take 4) (by simp; omega) _ _ csu_rows
    obtain ⟨str', e, -⟩ := build_spec (authLinesWith d _) str
    refine ⟨0, str', ?_, build_length _ _ _ e, fun h => absurd h h0, fun _ h => absurd h hs,
      fun _ _ => ⟨fun _ => by omega, fun _ => rfl⟩⟩
    rw [authList, if_neg n0, if_neg ns, if_neg hr,
      authStrings_lines loc d hl (by omega) (by omega) _ hrun, bind_ok, e, bind_ok]

/-- **C78** is false of the code for data of none of the kinds: success is reported with the
output untouched, hence possibly not even terminated. -/
theorem C78_undescribed (loc d str : List Byte) (hl : loc.length = 3) (h8 : 8 ≤ d.length)
    (h32 : d.length ≤ 32) (hs : str ≠ []) (h1 : ¬ HasArc d) (h2 : ¬ HasMChipCode d)
    (h3 : ¬ HasCsu d) : authList loc d str = .ok (0, str) := by
  have ns : str.length ≠ 0 := by simpa using hs
  have hrun := irowsOf_run 4 ((d.drop 4).take 4) (by simp; omega) _ _ csu_rows
  rw [authList, if_neg (by omega), if_neg ns, if_neg (by omega),
    authStrings_lines loc d hl h8 h32 _ hrun, bind_ok, authLinesWith, if_neg h1, if_neg h2,
    if_neg h3]
  rfl

/-- Such data exists. -/
example : ¬ HasArc [0, 0, 0, 0, 0x70, 0, 0, 0] ∧ ¬ HasMChipCode [0, 0, 0, 0, 0x70, 0, 0, 0] ∧
    ¬ HasCsu [0, 0, 0, 0, 0x70, 0, 0, 0] := by decide

/-- **C78** is false of the code for a Card Status Update which sets the offline counters to the
upper limits: the first letter of the line is missing (emv_strings.c, `emv_csu_append_string_list`). -/
theorem C78_csu_typo :
    ∃ l, authStrings [0, 0, 0] [1, 2, 3, 4, 0, 1, 0, 0] = .ok l ∧
    l[1]? = some txt!"ard Status Update (CSU): Set Offline Counters to Upper Offline Limits" ∧
    (authLines [1, 2, 3, 4, 0, 1, 0, 0])[1]? =
      some txt!"Card Status Update (CSU): Set Offline Counters to Upper Offline Limits" :=
  ⟨_, rfl, rfl, rfl⟩

/-- A case of `C78_auth_partial`: proprietary data after the update. -/
example : bitsVal [1, 2, 3, 4, 0x83, 0x80, 0, 0, 9, 9, 9] 6 2 1 ≠ 1 ∧
    authLines [1, 2, 3, 4, 0x83, 0x80, 0, 0, 9, 9, 9] =
      [txt!"Authorisation Response Cryptogram (ARPC): 01020304",
       txt!"Card Status Update (CSU): Proprietary Authentication Data Included",
       txt!"Card Status Update (CSU): PIN Try Counter = 3",
       txt!"Card Status Update (CSU): Issuer Approves Online Transaction",
       txt!"Card Status Update (CSU): Do Not Update Offline Counters",
       txt!"Proprietary Authentication Data: 3 bytes"] := by
  constructor <;> decide +kernel

/-! ## C79: Authorisation Response Code -/

/-- The description of a response code: that of the table (ISO 8583:2021, table J.3, and the codes
of EMV), if any. -/
def arcText (arc : List Byte) : Option (List Byte) := arcTable.lookup arc

/-- The text for a response code in an output of `n` bytes: the code and, when the output has at
least ten bytes and the code is known, as much of its description as fits. -/
def arcShown (arc : List Byte) (n : Nat) : List Byte :=
  if n < 10 then arc
  else match arcText arc with
    | none => arc
    | some d => (arc ++ txt!" - " ++ d).take (n - 1)

theorem arcDesc_lookup (arc : List Byte) (h : arc.length = 2) :
    ∀ table : List (List Byte × List Byte), (∀ e ∈ table, e.1.length = 2) →
      arcDesc table arc = table.lookup arc := by
  intro table
  induction table with
  | nil => intro _; rfl
  | cons e rest ih =>
    intro ht
    obtain ⟨c, d⟩ := e
    have hc := ht (c, d) (by simp)
    simp only at hc
    rw [arcDesc, List.take_of_length_le (by omega), List.take_of_length_le (by omega),
      ih (fun e he => ht e (by simp [he])), List.lookup_cons]
    by_cases hca : c = arc
    · subst hca; simp
    · have : (arc == c) = false := by simpa using fun h => hca h.symm
      rw [if_neg hca, this]

/-- **C79**.  A response code of two alphanumeric characters is shown, in an output of at least
three bytes, with its description. -/
theorem C79_shown (arc str : List Byte) (ha : arc.length = 2) (han : ∀ b ∈ arc, Str.IsAn b)
    (hs : 3 ≤ str.length) :
    arcString arc str = .ok (0, strOver (arcShown arc str.length) str) := by
  have h0 : arc ≠ [] := by rintro rfl; simp at ha
  obtain ⟨x, str, rfl⟩ := List.exists_cons_of_ne_nil (show str ≠ [] by rintro rfl; simp at hs)
  have hf := (Str.C55_validation.2.1 arc (0 :: str)).1 ⟨h0, by simp at hs ⊢; omega, han⟩
  simp only [List.length_cons] at hs
  match arc, ha with
  | [a, b], _ =>
    have hso : strOver [a, b] (0 :: str) = strOver [a, b] (x :: str) := by simp [strOver]
    rw [arcString, if_neg (by simp), if_neg (by simp), wr_eq (by simp), bind_ok, List.set_cons_zero,
      if_neg (by simp; omega), if_neg (by simp), slice_eq (by simp), bind_ok]
    simp only [List.drop_zero, List.length_cons, List.take_succ_cons, List.take_zero]
    rw [hf, bind_ok]
    simp only [ne_eq, not_true_eq_false, if_false, hso,
      strOver_length [a, b] (x :: str) (by simp; omega)]
    rw [arcDesc_lookup _ rfl arcTable (by decide +kernel), arcShown, arcText]
    simp only [List.length_cons]
    by_cases h10 : str.length + 1 < 10
    · rw [if_pos h10, if_pos h10]
    · rw [if_neg h10, if_neg h10]
      cases List.lookup [a, b] arcTable with
      | none => rfl
      | some d =>
        have hd : (strOver [a, b] (x :: str)).drop 2 = 0 :: str.drop 2 := by simp [strOver]
        simp only [hd]
        rw [Capdu.snprintf_spec _ _ (by simp), bind_ok]
        have hl : ((txt!" - " ++ d).take ((0 :: str.drop 2).length - 1)).length < str.length - 1 := by
          simp only [List.length_take, List.length_cons, List.length_drop]; omega
        have hsol := strOver_length ((txt!" - " ++ d).take ((0 :: str.drop 2).length - 1))
          (0 :: str.drop 2) (by
            have : (0 :: str.drop 2).length = str.length - 1 := by
              simp only [List.length_cons, List.length_drop]; omega
            omega)
        rw [wrs_eq (by
          rw [hsol, strOver_length [a, b] (x :: str) (by simp; omega)]
          simp; omega), bind_ok, hsol]
        have e1 : (strOver [a, b] (x :: str)).take 2 = [a, b] := by simp [strOver]
        have e2 : (strOver [a, b] (x :: str)).drop (2 + (0 :: str.drop 2).length) = [] := by
          apply List.drop_eq_nil_of_le
          rw [strOver_length [a, b] (x :: str) (by simp; omega)]
          simp; omega
        rw [e1, e2]
        congr 2
        have e3 : ([a, b] ++ txt!" - " ++ d).take (str.length + 1 - 1) =
            a :: b :: (txt!" - " ++ d).take (str.length - 2) := by
          obtain ⟨k, hk⟩ : ∃ k, str.length = k + 2 := ⟨str.length - 2, by omega⟩
          rw [hk]; simp
        rw [e3]
        simp only [List.length_cons, List.length_drop, Nat.add_sub_cancel, strOver,
          List.append_nil, List.cons_append, List.nil_append, List.drop_succ_cons, List.drop_drop]
        congr 5
        omega

/-- **C79** (empty).  An empty field is refused and the output left as it was; without an output
nothing is checked. -/
theorem C79_empty (arc str : List Byte) : arcString [] str = .ok (-1, str) ∧
    (arc ≠ [] → arcString arc [] = .ok (0, [])) := by
  refine ⟨rfl, fun h => ?_⟩
  rw [arcString, if_neg (by simpa using h)]
  rfl

/-- **C79** (refusals).  Anything else is refused with a code other than zero and, if there is
an output, an empty string. -/
theorem C79_refused (arc str : List Byte) (h0 : arc ≠ []) (hs : str ≠ [])
    (h : ¬ (arc.length = 2 ∧ (∀ b ∈ arc, Str.IsAn b) ∧ 3 ≤ str.length)) :
    ∃ c str', arcString arc str = .ok (c, str') ∧ c ≠ 0 ∧ str'.length = str.length ∧
      str'.head? = some 0 := by
  have n0 : arc.length ≠ 0 := by simpa using h0
  obtain ⟨x, str, rfl⟩ := List.exists_cons_of_ne_nil hs
  simp only [List.length_cons] at h
  rw [arcString, if_neg n0, if_neg (by simp), wr_eq (by simp), bind_ok, List.set_cons_zero]
  by_cases h3 : str.length + 1 < 3
  · exact ⟨-2, 0 :: str, by rw [if_pos (by simpa using h3)], by decide, rfl, rfl⟩
  rw [if_neg (by simpa using h3)]
  by_cases h2 : arc.length = 2
  · rw [if_neg (by omega), slice_eq (by omega), bind_ok, List.drop_zero,
      List.take_of_length_le (by omega)]
    obtain ⟨c, s, hc, hl, e⟩ := (Str.C55_validation.2.1 arc (0 :: str)).2
      (fun h' => h ⟨h2, h'.2.2, by omega⟩)
    rw [e, bind_ok]
    simp only [ne_eq, hc, not_false_eq_true, if_true]
    simp only [List.length_cons] at hl
    rw [wr_eq (by omega), bind_ok]
    refine ⟨c, _, rfl, hc, by simpa using hl, ?_⟩
    cases s with
    | nil => simp at hl
    | cons y s => rfl
  · exact ⟨1, 0 :: str, by rw [if_pos h2], by decide, rfl, rfl⟩

/-- A case of `C79_refused` and one of `C79_shown`. -/
example : arcString [0x41, 0x2D] [9, 9, 9] = .ok (1, [0, 9, 9]) ∧
    arcString [0x30, 0x30] (List.replicate 12 9) =
      .ok (0, [0x30, 0x30, 0x20, 0x2D, 0x20, 0x41, 0x70, 0x70, 0x72, 0x6F, 0x76, 0]) := by
  decide +kernel

/-- **C79** (table).  No code occurs twice, so that every entry of the table is what is shown for
its code. -/
theorem C79_entries : ∀ e ∈ arcTable, arcText e.1 = some e.2 ∧ (∀ b ∈ e.1, Str.IsAn b) := by
  decide +kernel

end Verif.Iad
