import Verif.BitsLemmas

/-!
# C70 and C72: descriptions of bit fields

The tables below are the specification: which text stands for which bits of the field, in
the numbering of the EMV specifications.
-/

set_option autoImplicit false

namespace Verif.Bits
open Verif StrList Formats

/-! ## Specification -/

/-- What is asked of the description of a field of `n` bytes by a table: any other length is
refused and the output left as it was.  Otherwise the result is 0, only the output is written,
and it shows the lines of the table for the field. -/
def Describes (g : List Byte → List Byte → C (Int × List Byte)) (n : Nat)
    (lines : List Byte → List (List Byte)) : Prop :=
  (∀ f str : List Byte, f ≠ [] → str ≠ [] → f.length ≠ n → g f str = .ok (1, str)) ∧
  (∀ f str : List Byte, str ≠ [] → f.length = n →
    ∃ str', g f str = .ok (0, str') ∧ Lists.Shows str (lines f) str')

/-- Terminal Verification Results (field 95), EMV Book 3 annex C5. -/
def tvrRows : List Row :=
  [.set [(1, 8)] txt!"Offline data authentication was not performed",
   .set [(1, 7)] txt!"Static Data Authentication (SDA) failed",
   .set [(1, 6)] txt!"Integrated circuit card (ICC) data missing",
   .set [(1, 5)] txt!"Card appears on terminal exception file",
   .set [(1, 4)] txt!"Dynamic Data Authentication (DDA) failed",
   .set [(1, 3)] txt!"Combined DDA/Application Cryptogram Generation (CDA) failed",
   .set [(1, 2)] txt!"Static Data Authentication (SDA) selected",
   .set [(1, 1)] txt!"Extended Data Authentication (XDA) selected",
   .set [(2, 8)] txt!"ICC and terminal have different application versions",
   .set [(2, 7)] txt!"Expired application",
   .set [(2, 6)] txt!"Application not yet effective",
   .set [(2, 5)] txt!"Requested service not allowed for card product",
   .set [(2, 4)] txt!"New card",
   .set [(2, 3)] txt!"RFU",
   .set [(2, 2)] txt!"Biometric performed and successful",
   .set [(2, 1)] txt!"Biometric template format not supported",
   .set [(3, 8)] txt!"Cardholder verification was not successful",
   .set [(3, 7)] txt!"Unrecognised CVM",
   .set [(3, 6)] txt!"PIN Try Limit exceeded",
   .set [(3, 5)] txt!"PIN entry required and PIN pad not present or not working",
   .set [(3, 4)] txt!"PIN entry required, PIN pad present, but PIN was not entered",
   .set [(3, 3)] txt!"Online CVM captured",
   .set [(3, 2)] txt!"Biometric required but Biometric capture device not working",
   .set [(3, 1)] txt!"Biometric required, Biometric capture device present, but Biometric Subtype entry was bypassed",
   .set [(4, 8)] txt!"Transaction exceeds floor limit",
   .set [(4, 7)] txt!"Lower consecutive offline limit exceeded",
   .set [(4, 6)] txt!"Upper consecutive offline limit exceeded",
   .set [(4, 5)] txt!"Transaction selected randomly for online processing",
   .set [(4, 4)] txt!"Merchant forced transaction online",
   .set [(4, 3)] txt!"Biometric Try Limit exceeded",
   .set [(4, 2)] txt!"A selected Biometric Type not supported",
   .set [(4, 1)] txt!"XDA signature verification failed",
   .set [(5, 8)] txt!"Default TDOL used",
   .set [(5, 7)] txt!"Issuer authentication failed",
   .set [(5, 6)] txt!"Script processing failed before final GENERATE AC",
   .set [(5, 5)] txt!"Script processing failed after final GENERATE AC",
   .set [(5, 3)] txt!"CA ECC key missing",
   .set [(5, 2)] txt!"ECC key recovery failed",
   .set [(5, 4), (5, 1)] txt!"Reserved for use by the EMV Contactless Specifications"]

/-- Transaction Status Information (field 9B), EMV Book 3 annex C6. -/
def tsiRows : List Row :=
  [.set [(1, 8)] txt!"Offline data authentication was performed",
   .set [(1, 7)] txt!"Cardholder verification was performed",
   .set [(1, 6)] txt!"Card risk management was performed",
   .set [(1, 5)] txt!"Issuer authentication was performed",
   .set [(1, 4)] txt!"Terminal risk management was performed",
   .set [(1, 3)] txt!"Script processing was performed",
   .set (bits 1 2 1 ++ bits 2 8 1) txt!"RFU"]

/-- Application Interchange Profile (field 82), EMV Book 3 annex C1 and contactless kernels 2 and 3. -/
def aipRows : List Row :=
  [.set [(1, 8)] txt!"Extended Data Authentication (XDA) is supported",
   .set [(1, 7)] txt!"Static Data Authentication (SDA) is supported",
   .set [(1, 6)] txt!"Dynamic Data Authentication (DDA) is supported",
   .set [(1, 5)] txt!"Cardholder verification is supported",
   .set [(1, 4)] txt!"Terminal risk management is to be performed",
   .set [(1, 3)] txt!"Issuer authentication is supported",
   .set [(1, 2)] txt!"On device cardholder verification is supported",
   .set [(1, 1)] txt!"Combined DDA/Application Cryptogram Generation (CDA) is supported",
   .set [(2, 8)] txt!"Contactless EMV mode is supported",
   .set [(2, 7)] txt!"Mobile phone",
   .set [(2, 6)] txt!"Contactless transaction",
   .set (bits 2 5 2) txt!"RFU",
   .set [(2, 1)] txt!"Relay Resistance Protocol (RRP) is supported"]

/-- Application Usage Control (field 9F07), EMV Book 3 annex C2. -/
def aucRows : List Row :=
  [.set [(1, 8)] txt!"Valid for domestic cash transactions",
   .set [(1, 7)] txt!"Valid for international cash transactions",
   .set [(1, 6)] txt!"Valid for domestic goods",
   .set [(1, 5)] txt!"Valid for international goods",
   .set [(1, 4)] txt!"Valid for domestic services",
   .set [(1, 3)] txt!"Valid for international services",
   .set [(1, 2)] txt!"Valid at ATMs",
   .set [(1, 1)] txt!"Valid at terminals other than ATMs",
   .set [(2, 8)] txt!"Domestic cashback allowed",
   .set [(2, 7)] txt!"International cashback allowed",
   .set (bits 2 6 1) txt!"RFU"]

/-- Card Transaction Qualifiers (field 9F6C), EMV contactless book C-3. -/
def ctqRows : List Row :=
  [.set [(1, 8)] txt!"Online PIN Required",
   .set [(1, 7)] txt!"Signature Required",
   .set [(1, 6)] txt!"Go Online if Offline Data Authentication Fails and Reader is online capable",
   .set [(1, 5)] txt!"Switch Interface if Offline Data Authentication fails and Reader supports contact chip",
   .set [(1, 4)] txt!"Go Online if Application Expired",
   .set [(1, 3)] txt!"Switch Interface for Cash Transactions",
   .set [(1, 2)] txt!"Switch Interface for Cashback Transactions",
   .set [(1, 1)] txt!"Not valid for contactless ATM transactions",
   .set [(2, 8)] txt!"Consumer Device CVM Performed",
   .set [(2, 7)] txt!"Card supports Issuer Update Processing at the POS",
   .set (bits 2 6 1) txt!"RFU"]

/-- Terminal Risk Management Data (field 9F1D), EMV contactless book C-2. -/
def trmdRows : List Row :=
  [.set [(1, 8)] txt!"Restart supported",
   .set [(1, 7)] txt!"Enciphered PIN verified online (Contactless)",
   .set [(1, 6)] txt!"Signature (paper) (Contactless)",
   .set [(1, 5)] txt!"Enciphered PIN verification performed by ICC (Contactless)",
   .set [(1, 4)] txt!"No CVM required (Contactless)",
   .set [(1, 3)] txt!"CDCVM (Contactless)",
   .set [(1, 2)] txt!"Plaintext PIN verification performed by ICC (Contactless)",
   .set [(1, 1)] txt!"Present and Hold supported",
   .set [(2, 8)] txt!"CVM Limit exceeded",
   .set [(2, 7)] txt!"Enciphered PIN verified online (Contact)",
   .set [(2, 6)] txt!"Signature (paper) (Contact)",
   .set [(2, 5)] txt!"Enciphered PIN verification performed by ICC (Contact)",
   .set [(2, 4)] txt!"No CVM required (Contact)",
   .set [(2, 3)] txt!"CDCVM (Contact)",
   .set [(2, 2)] txt!"Plaintext PIN verification performed by ICC (Contact)",
   .set [(3, 8)] txt!"Mag-stripe mode contactless transactions not supported",
   .set [(3, 7)] txt!"EMV mode contactless transactions not supported",
   .set [(3, 6)] txt!"CDCVM without CDA supported",
   .set [(4, 8)] txt!"CDCVM bypass requested",
   .set [(4, 7)] txt!"SCA exempt",
   .set ([(2, 1)] ++ bits 3 5 1 ++ bits 4 6 1 ++ bits 5 8 1 ++ bits 6 8 1 ++ bits 7 8 1 ++ bits 8 8 1) txt!"RFU"]

/-- Terminal Capabilities (field 9F33), EMV Book 4 annex A2. -/
def termCapsRows : List Row :=
  [.clear (bits 1 8 1) txt!"Card Data Input Capability: None",
   .set [(1, 8)] txt!"Card Data Input Capability: Manual key entry",
   .set [(1, 7)] txt!"Card Data Input Capability: Magnetic stripe",
   .set [(1, 6)] txt!"Card Data Input Capability: IC with contacts",
   .set (bits 1 5 1) txt!"Card Data Input Capability: RFU",
   .clear (bits 2 8 1) txt!"CVM Capability: None",
   .set [(2, 8)] txt!"CVM Capability: Plaintext PIN for ICC verification",
   .set [(2, 7)] txt!"CVM Capability: Enciphered PIN for online verification",
   .set [(2, 6)] txt!"CVM Capability: Signature",
   .set [(2, 5)] txt!"CVM Capability: Enciphered PIN for offline verification (RSA ODE)",
   .set [(2, 4)] txt!"CVM Capability: No CVM required",
   .set [(2, 3)] txt!"CVM Capability: Online Biometric",
   .set [(2, 2)] txt!"CVM Capability: Offline Biometric",
   .set [(2, 1)] txt!"CVM Capability: Enciphered PIN for offline verification (ECC ODE)",
   .clear (bits 3 8 1) txt!"Security Capability: None",
   .set [(3, 8)] txt!"Security Capability: Static Data Authentication (SDA)",
   .set [(3, 7)] txt!"Security Capability: Dynamic Data Authentication (DDA)",
   .set [(3, 6)] txt!"Security Capability: Card capture",
   .set [(3, 4)] txt!"Security Capability: Combined DDA/Application Cryptogram Generation (CDA)",
   .set [(3, 3)] txt!"Security Capability: Extended Data Authentication (XDA)",
   .set ([(3, 5)] ++ bits 3 2 1) txt!"Security Capability: RFU"]

/-- Additional Terminal Capabilities (field 9F40), EMV Book 4 annex A3. -/
def addlTermCapsRows : List Row :=
  [.clear (bits 1 8 1 ++ bits 2 8 1) txt!"Transaction Type Capability: None",
   .set [(1, 8)] txt!"Transaction Type Capability: Cash",
   .set [(1, 7)] txt!"Transaction Type Capability: Goods",
   .set [(1, 6)] txt!"Transaction Type Capability: Services",
   .set [(1, 5)] txt!"Transaction Type Capability: Cashback",
   .set [(1, 4)] txt!"Transaction Type Capability: Inquiry",
   .set [(1, 3)] txt!"Transaction Type Capability: Transfer",
   .set [(1, 2)] txt!"Transaction Type Capability: Payment",
   .set [(1, 1)] txt!"Transaction Type Capability: Administrative",
   .set [(2, 8)] txt!"Transaction Type Capability: Cash deposit",
   .set (bits 2 7 1) txt!"Transaction Type Capability: RFU",
   .clear (bits 3 8 1) txt!"Terminal Data Input Capability: None",
   .set [(3, 8)] txt!"Terminal Data Input Capability: Numeric keys",
   .set [(3, 7)] txt!"Terminal Data Input Capability: Alphabetic and special characters keys",
   .set [(3, 6)] txt!"Terminal Data Input Capability: Command keys",
   .set [(3, 5)] txt!"Terminal Data Input Capability: Function keys",
   .set (bits 3 4 1) txt!"Terminal Data Input Capability: RFU",
   .clear (bits 4 8 5) txt!"Terminal Data Input Capability: No print, electronic or display output",
   .set [(4, 8)] txt!"Terminal Data Output Capability: Print or electronic, attendant",
   .set [(4, 7)] txt!"Terminal Data Output Capability: Print or electronic, cardholder",
   .set [(4, 6)] txt!"Terminal Data Output Capability: Display, attendant",
   .set [(4, 5)] txt!"Terminal Data Output Capability: Display cardholder",
   .set [(4, 2)] txt!"Terminal Data Output Capability: Code table 10",
   .set [(4, 1)] txt!"Terminal Data Output Capability: Code table 9",
   .set (bits 4 4 3) txt!"Terminal Data Output Capability: RFU",
   .set [(5, 8)] txt!"Terminal Data Output Capability: Code table 8",
   .set [(5, 7)] txt!"Terminal Data Output Capability: Code table 7",
   .set [(5, 6)] txt!"Terminal Data Output Capability: Code table 6",
   .set [(5, 5)] txt!"Terminal Data Output Capability: Code table 5",
   .set [(5, 4)] txt!"Terminal Data Output Capability: Code table 4",
   .set [(5, 3)] txt!"Terminal Data Output Capability: Code table 3",
   .set [(5, 2)] txt!"Terminal Data Output Capability: Code table 2",
   .set [(5, 1)] txt!"Terminal Data Output Capability: Code table 1"]

/-- Terminal Transaction Qualifiers (field 9F66), EMV contactless book A and VCPS. -/
def ttqRows : List Row :=
  [.either 1 8 txt!"Mag-stripe mode supported"
      txt!"Mag-stripe mode not supported",
   .set [(1, 7)] txt!"RFU",
   .either 1 6 txt!"EMV mode supported"
      txt!"EMV mode not supported",
   .either 1 5 txt!"EMV contact chip supported"
      txt!"EMV contact chip not supported",
   .either 1 4 txt!"Offline-only reader"
      txt!"Online capable reader",
   .either 1 3 txt!"Online PIN supported"
      txt!"Online PIN not supported",
   .either 1 2 txt!"Signature supported"
      txt!"Signature not supported",
   .either 1 1 txt!"Offline Data Authentication for Online Authorizations supported"
      txt!"Offline Data Authentication for Online Authorizations not supported",
   .either 2 8 txt!"Online cryptogram required"
      txt!"Online cryptogram not required",
   .either 2 7 txt!"CVM required"
      txt!"CVM not required",
   .either 2 6 txt!"(Contact Chip) Offline PIN supported"
      txt!"(Contact Chip) Offline PIN not supported",
   .set (bits 2 5 1) txt!"RFU",
   .either 3 8 txt!"Issuer Update Processing supported"
      txt!"Issuer Update Processing not supported",
   .either 3 7 txt!"Consumer Device CVM supported"
      txt!"Consumer Device CVM not supported",
   .set [(3, 4)] txt!"Consumer Device CVM required",
   .set (bits 3 6 5 ++ bits 3 3 1) txt!"RFU",
   .set [(4, 8)] txt!"fDDA v1.0 Supported",
   .set (bits 4 7 1) txt!"RFU"]

/-- American Express Enhanced Contactless Reader Capabilities (field 9F6E), EMV contactless book C-4. -/
def amexEnhRows : List Row :=
  [.set [(1, 8)] txt!"Contact mode supported",
   .set [(1, 7)] txt!"Contactless Mag-Stripe Mode supported",
   .set [(1, 6)] txt!"Contactless EMV full online mode supported (legacy feature and no longer supported)",
   .set [(1, 5)] txt!"Contactless EMV partial online mode supported",
   .set [(1, 4)] txt!"Contactless Mobile Supported",
   .set [(1, 3)] txt!"Try Another Interface after a decline",
   .set (bits 1 2 1) txt!"RFU",
   .set [(2, 8)] txt!"Mobile CVM supported",
   .set [(2, 7)] txt!"Online PIN supported",
   .set [(2, 6)] txt!"Signature supported",
   .set [(2, 5)] txt!"Plaintext Offline PIN supported",
   .set (bits 2 4 1) txt!"RFU",
   .set [(3, 8)] txt!"Reader is offline only",
   .set [(3, 7)] txt!"CVM Required",
   .set (bits 3 6 1) txt!"RFU",
   .set [(4, 8)] txt!"Terminal exempt from No CVM checks",
   .set [(4, 7)] txt!"Delayed Authorisation Terminal",
   .set [(4, 6)] txt!"Transit Terminal",
   .set (bits 4 5 4) txt!"RFU",
   .value 4 3 1
      [(1, some txt!"C-4 kernel version 2.2 - 2.3"),
       (2, some txt!"C-4 kernel version 2.4 - 2.6"),
       (3, some txt!"C-4 kernel version 2.7")]
      (some txt!"C-4 kernel version unknown")]

/-- Visa Form Factor Indicator (field 9F6E) of version 1, VCPS annex D. -/
def ffiRows : List Row :=
  [.value 1 5 1
      [(0, some txt!"Consumer Payment Device Form Factor: Card"),
       (1, some txt!"Consumer Payment Device Form Factor: Mini-card"),
       (2, some txt!"Consumer Payment Device Form Factor: Non-card Form Factor"),
       (3, some txt!"Consumer Payment Device Form Factor: Consumer mobile phone"),
       (4, some txt!"Consumer Payment Device Form Factor: Wrist-worn device")]
      (some txt!"Consumer Payment Device Form Factor: Unknown"),
   .set [(2, 8)] txt!"Consumer Payment Device Features: Passcode Capable",
   .set [(2, 7)] txt!"Consumer Payment Device Features: Signature Panel",
   .set [(2, 6)] txt!"Consumer Payment Device Features: Hologram",
   .set [(2, 5)] txt!"Consumer Payment Device Features: CVV2",
   .set [(2, 4)] txt!"Consumer Payment Device Features: Two-way Messaging",
   .set [(2, 3)] txt!"Consumer Payment Device Features: Cloud Based Payment Credentials",
   .set [(2, 2)] txt!"Consumer Payment Device Features: Biometric Cardholder Verification Capable",
   .set [(2, 1)] txt!"Consumer Payment Device Features: RFU",
   .set (bits 3 8 1) txt!"Form Factor Indicator (FFI) byte 3: RFU",
   .value 4 4 1
      [(0, some txt!"Payment Transaction Technology: Proximity Contactless interface using ISO 14443 (including NFC)"),
       (1, some txt!"Payment Transaction Technology: Not used in VCPS")]
      (some txt!"Payment Transaction Technology: Unknown"),
   .set (bits 4 8 5) txt!"Payment Transaction Technology: RFU"]

/-- EMV Book 4 annex A1. -/
def termTypeRows : List Row :=
  [.value 1 6 5
      [(1, some txt!"Operational Control: Financial Institution"),
       (2, some txt!"Operational Control: Merchant"),
       (3, some txt!"Operational Control: Cardholder")]
      (some txt!"Operational Control: Unknown"),
   .value 1 3 1
      [(1, some txt!"Environment: Attended, online only"),
       (2, some txt!"Environment: Attended, offline with online capability"),
       (3, some txt!"Environment: Attended, offline only"),
       (4, some txt!"Environment: Unattended, online only"),
       (5, some txt!"Environment: Unattended, offline with online capability"),
       (6, some txt!"Environment: Unattended, offline only")]
      (some txt!"Environment: Unknown")]

/-- Cryptogram Information Data (field 9F27), EMV Book 3 table 15.  Bits 6 and 5 are shown as the byte they are in. -/
def cidRows : List Row :=
  [.value 1 8 7
      [(0, some txt!"Application Cryptogram (AC) type: Application Authentication Cryptogram (AAC)"),
       (1, some txt!"Application Cryptogram (AC) type: Transaction Certificate (TC)"),
       (2, some txt!"Application Cryptogram (AC) type: Authorisation Request Cryptogram (ARQC)")]
      (some txt!"Application Cryptogram (AC) type: RFU"),
   .value 1 6 5
      [(1, some txt!"Payment System-specific cryptogram: 0x10"),
       (2, some txt!"Payment System-specific cryptogram: 0x20"),
       (3, some txt!"Payment System-specific cryptogram: 0x30")] none,
   .set [(1, 4)] txt!"Advice required",
   .value 1 4 1 ([1, 2, 3, 4, 5, 6, 7].map fun k => (k, some txt!"No advice required")) none,
   .value 1 3 1
      [(0, none),
       (1, some txt!"Advice: Service not allowed"),
       (2, some txt!"Advice: PIN Try Limit exceeded"),
       (3, some txt!"Advice: Issuer authentication failed")]
      (some txt!"Advice: RFU")]

/-- Form Factor Indicator: a version other than 1 is only reported as such. -/
def ffiLines (f : List Byte) : List (List Byte) :=
  match bitsVal f 1 8 6 with
  | 0 => [txt!"Form Factor Indicator (FFI): Version Number 0"]
  | 1 => shown ffiRows f
  | 2 => [txt!"Form Factor Indicator (FFI): Version Number 2"]
  | 3 => [txt!"Form Factor Indicator (FFI): Version Number 3"]
  | 4 => [txt!"Form Factor Indicator (FFI): Version Number 4"]
  | 5 => [txt!"Form Factor Indicator (FFI): Version Number 5"]
  | 6 => [txt!"Form Factor Indicator (FFI): Version Number 6"]
  | _ => [txt!"Form Factor Indicator (FFI): Version Number 7"]

/-! ## Proofs -/

/-- No row shows an empty text. -/
def rowsOk : List Row → Bool
  | [] => true
  | .set _ s :: rest => !s.isEmpty && rowsOk rest
  | .clear _ s :: rest => !s.isEmpty && rowsOk rest
  | .either _ _ s u :: rest => !s.isEmpty && !u.isEmpty && rowsOk rest
  | .value _ _ _ vals other :: rest =>
    (vals.all fun v => v.2 != some []) && other != some [] && rowsOk rest

theorem valText_mem (vals : List (Nat × Option (List Byte))) (other : Option (List Byte)) (n : Nat) :
    valText vals other n = other ∨ ∃ v ∈ vals, v.2 = valText vals other n := by
  induction vals with
  | nil => exact .inl rfl
  | cons v rest ih =>
    obtain ⟨k, s⟩ := v
    rw [valText]
    by_cases h : n = k
    · rw [if_pos h]; exact .inr ⟨(k, s), by simp, rfl⟩
    · rw [if_neg h]
      rcases ih with h | ⟨v, hv, e⟩
      · exact .inl h
      · exact .inr ⟨v, by simp [hv], e⟩

theorem shown_ne (f : List Byte) : ∀ rows : List Row, rowsOk rows = true →
    ∀ s ∈ shown rows f, s ≠ [] := by
  intro rows
  induction rows with
  | nil => intro _ s hs; simp [shown] at hs
  | cons r rest ih =>
    intro h s hs
    rw [shown, List.flatMap_cons, List.mem_append] at hs
    rcases hs with hs | hs
    · cases r with
      | set bs u =>
        simp only [Row.shown] at hs
        simp only [rowsOk, Bool.and_eq_true, Bool.not_eq_true'] at h
        split at hs <;> simp at hs
        subst hs; rintro rfl; simp at h
      | clear bs u =>
        simp only [Row.shown] at hs
        simp only [rowsOk, Bool.and_eq_true, Bool.not_eq_true'] at h
        split at hs <;> simp at hs
        subst hs; rintro rfl; simp at h
      | either B b u v =>
        simp only [Row.shown] at hs
        simp only [rowsOk, Bool.and_eq_true, Bool.not_eq_true'] at h
        split at hs <;> simp at hs <;> subst hs <;> rintro rfl <;> simp at h
      | value B hi lo vals other =>
        simp only [Row.shown, Option.mem_toList] at hs
        simp only [rowsOk, Bool.and_eq_true, List.all_eq_true, bne_iff_ne] at h
        rintro rfl
        rcases valText_mem vals other (bitsVal f B hi lo) with e | ⟨v, hv, e⟩
        · exact h.1.2 (by rw [← e]; exact hs)
        · exact h.1.1 v hv (by rw [e]; exact hs)
    · refine ih ?_ s hs
      cases r <;> simp only [rowsOk, Bool.and_eq_true] at h <;> exact h.2

theorem describes_core (strict : Bool) (n : Nat) (hn : n ≠ 0) (items : List Item)
    (lines : List Byte → List (List Byte))
    (hrun : ∀ f : List Byte, f.length = n → runItems f items = .ok (lines f))
    (hne : ∀ f, ∀ s ∈ lines f, s ≠ []) : Describes (describe strict n items) n lines := by
  refine ⟨fun f str hf hs hl => ?_, fun f str hs hl => ?_⟩
  · rw [describe, if_neg (by simpa using hf), if_neg (by simpa using hs), if_pos hl]
  · rw [describe, if_neg (by omega), if_neg (by simpa using hs), if_neg (by simpa using hl),
      hrun f hl, bind_ok]
    obtain ⟨str', e, h1, h2⟩ := build_spec (lines f) str
    refine ⟨str', by rw [e, bind_ok], build_length _ _ _ e, fun h => h2 h.symm,
      fun h h3 => ⟨_, ⟨rfl, (h1 h3 h).2⟩, (h1 h3 h).1⟩, fun h h3 => ?_⟩
    have := build_fits (lines f) str h (hne f) h3
    rw [e] at this
    exact Except.ok.inj this

theorem describes_rows (strict : Bool) (n : Nat) (hn : n ≠ 0) (items : List Item) (rows : List Row)
    (h : rowsOf n items = some rows) (hok : rowsOk rows = true) :
    Describes (describe strict n items) n (shown rows) :=
  describes_core strict n hn items (shown rows)
    (fun f hf => rowsOf_run n f (Nat.le_of_eq hf.symm) items rows h) (fun f => shown_ne f rows hok)

/-! ## C70: fields of flags -/

/-- **C70** (Terminal Verification Results).  The description is by the table.  Missing: an output that is always terminated, see `C70_no_lines`. -/
theorem C70_tvr_partial : Describes tvrList 5 (shown tvrRows) :=
  describes_rows _ 5 (by decide) tvr tvrRows rfl (by decide +kernel)

/-- A field with several lines. -/
example : ∃ a b rest, shown tvrRows [0x80, 0, 0, 0, 0x09] = a :: b :: rest := ⟨_, _, _, rfl⟩

/-- **C70** (Transaction Status Information).  The description is by the table.  Missing: an output that is always terminated, see `C70_no_lines`. -/
theorem C70_tsi_partial : Describes tsiList 2 (shown tsiRows) :=
  describes_rows _ 2 (by decide) tsi tsiRows rfl (by decide +kernel)

/-- A field with several lines. -/
example : ∃ a b rest, shown tsiRows [0xE8, 0x01] = a :: b :: rest := ⟨_, _, _, rfl⟩

/-- **C70** (Application Interchange Profile).  The description is by the table.  Missing: an output that is always terminated, see `C70_no_lines`. -/
theorem C70_aip_partial : Describes aipList 2 (shown aipRows) :=
  describes_rows _ 2 (by decide) aip aipRows rfl (by decide +kernel)

/-- A field with several lines. -/
example : ∃ a b rest, shown aipRows [0x39, 0x00] = a :: b :: rest := ⟨_, _, _, rfl⟩

/-- **C70** (Application Usage Control).  The description is by the table.  Missing: an output that is always terminated, see `C70_no_lines`. -/
theorem C70_auc_partial : Describes aucList 2 (shown aucRows) :=
  describes_rows _ 2 (by decide) auc aucRows rfl (by decide +kernel)

/-- A field with several lines. -/
example : ∃ a b rest, shown aucRows [0xFF, 0xC0] = a :: b :: rest := ⟨_, _, _, rfl⟩

/-- **C70** (Card Transaction Qualifiers).  The description is by the table.  Missing: an output that is always terminated, see `C70_no_lines`. -/
theorem C70_ctq_partial : Describes ctqList 2 (shown ctqRows) :=
  describes_rows _ 2 (by decide) ctq ctqRows rfl (by decide +kernel)

/-- A field with several lines. -/
example : ∃ a b rest, shown ctqRows [0x80, 0x80] = a :: b :: rest := ⟨_, _, _, rfl⟩

/-- **C70** (Terminal Risk Management Data).  The description is by the table.  Missing: an output that is always terminated, see `C70_no_lines`. -/
theorem C70_trmd_partial : Describes trmdList 8 (shown trmdRows) :=
  describes_rows _ 8 (by decide) trmd trmdRows rfl (by decide +kernel)

/-- A field with several lines. -/
example : ∃ a b rest, shown trmdRows [0x80, 0, 0, 0, 0, 0, 0, 1] = a :: b :: rest := ⟨_, _, _, rfl⟩

/-- Nothing is written when no bit is set: the output is then not terminated, though the result
is 0. -/
theorem C70_no_lines :
    tvrList [0, 0, 0, 0, 0] [0x41, 0x42, 0x43, 0x44] = .ok (0, [0x41, 0x42, 0x43, 0x44]) ∧
    tsiList [0, 0] [0x41, 0x42, 0x43, 0x44] = .ok (0, [0x41, 0x42, 0x43, 0x44]) ∧
    aipList [0, 0] [0x41, 0x42, 0x43, 0x44] = .ok (0, [0x41, 0x42, 0x43, 0x44]) ∧
    aucList [0, 0] [0x41, 0x42, 0x43, 0x44] = .ok (0, [0x41, 0x42, 0x43, 0x44]) ∧
    ctqList [0, 0] [0x41, 0x42, 0x43, 0x44] = .ok (0, [0x41, 0x42, 0x43, 0x44]) ∧
    trmdList [0, 0, 0, 0, 0, 0, 0, 0] [0x41, 0x42, 0x43, 0x44] =
      .ok (0, [0x41, 0x42, 0x43, 0x44]) := by
  decide +kernel

/-! ## C72: capabilities, qualifiers, indicators -/

/-- **C72** (Terminal Capabilities).  The description is by the table. -/
theorem C72_term_caps : Describes termCapsList 3 (shown termCapsRows) :=
  describes_rows _ 3 (by decide) termCaps termCapsRows rfl (by decide +kernel)

/-- A field with several lines. -/
example : ∃ a b rest, shown termCapsRows [0xE0, 0xB8, 0xC8] = a :: b :: rest := ⟨_, _, _, rfl⟩

/-- **C72** (Additional Terminal Capabilities).  The description is by the table. -/
theorem C72_addl_term_caps : Describes addlTermCapsList 5 (shown addlTermCapsRows) :=
  describes_rows _ 5 (by decide) addlTermCaps addlTermCapsRows rfl (by decide +kernel)

/-- A field with several lines. -/
example : ∃ a b rest, shown addlTermCapsRows [0, 0, 0xF0, 0, 1] = a :: b :: rest := ⟨_, _, _, rfl⟩

/-- **C72** (Terminal Transaction Qualifiers).  The description is by the table. -/
theorem C72_ttq : Describes ttqList 4 (shown ttqRows) :=
  describes_rows _ 4 (by decide) ttq ttqRows rfl (by decide +kernel)

/-- A field with several lines. -/
example : ∃ a b rest, shown ttqRows [0x36, 0x20, 0x40, 0] = a :: b :: rest := ⟨_, _, _, rfl⟩

/-- **C72** (American Express Enhanced Contactless Reader Capabilities).  The description is by the table. -/
theorem C72_amex_enh : Describes amexEnhList 4 (shown amexEnhRows) :=
  describes_rows _ 4 (by decide) amexEnh amexEnhRows rfl (by decide +kernel)

/-- A field with several lines. -/
example : ∃ a b rest, shown amexEnhRows [0xC0, 0, 0, 3] = a :: b :: rest := ⟨_, _, _, rfl⟩

theorem shown_append (xs ys : List Row) (f : List Byte) :
    shown (xs ++ ys) f = shown xs f ++ shown ys f := by
  simp [shown]

/-- **C72** (lines).  There is always at least one line, so that the output is always
terminated if it has at least three bytes. -/
theorem C72_lines (f : List Byte) :
    (f.length = 3 → shown termCapsRows f ≠ []) ∧ (f.length = 5 → shown addlTermCapsRows f ≠ []) ∧
    shown ttqRows f ≠ [] ∧ shown amexEnhRows f ≠ [] := by
  refine ⟨fun h => ?_, fun h => ?_, ?_, ?_⟩
  · match f, h with
    | [a, b, c], _ =>
      have h1 : ∀ a : Byte, shown (termCapsRows.take 5) [a] ≠ [] := by decide +kernel
      rw [← List.take_append_drop 5 termCapsRows, shown_append]
      intro h
      exact h1 a (List.append_eq_nil_iff.1 h).1
  · match f, h with
    | [a, b, c, d, e], _ =>
      have h1 : ∀ c : Byte, shown ((addlTermCapsRows.drop 11).take 6) [0, 0, c] ≠ [] := by
        decide +kernel
      rw [← List.take_append_drop 11 addlTermCapsRows, shown_append,
        ← List.take_append_drop 6 (addlTermCapsRows.drop 11), shown_append]
      intro h
      exact h1 c (List.append_eq_nil_iff.1 (List.append_eq_nil_iff.1 h).2).1
  · rw [ttqRows, shown, List.flatMap_cons, Row.shown]
    intro h
    have := (List.append_eq_nil_iff.1 h).1
    split at this <;> cases this
  · rw [← List.take_append_drop 19 amexEnhRows, shown_append]
    intro h
    have h1 := (List.append_eq_nil_iff.1 h).2
    have h2 : ∀ k, k < 8 → (valText [(1, some txt!"C-4 kernel version 2.2 - 2.3"),
       (2, some txt!"C-4 kernel version 2.4 - 2.6"), (3, some txt!"C-4 kernel version 2.7")]
       (some txt!"C-4 kernel version unknown") k).toList ≠ [] := by decide +kernel
    refine h2 (bitsVal f 4 3 1) (Nat.mod_lt _ (by decide)) ?_
    simpa [amexEnhRows, shown, Row.shown] using h1

/-- **C72** (at least one line).  A Form Factor Indicator of any version gives at least one line, and one of
another version than 1 exactly one. -/
theorem C72_ffi_lines (f : List Byte) :
    ffiLines f ≠ [] ∧ (bitsVal f 1 8 6 ≠ 1 → ∃ s, ffiLines f = [s]) := by
  have h1 : shown ffiRows f ≠ [] := by
    rw [← List.take_append_drop 1 ffiRows, shown_append]
    intro h
    have h1 := (List.append_eq_nil_iff.1 h).1
    have h2 : ∀ k, k < 32 → (valText [(0, some txt!"Consumer Payment Device Form Factor: Card"),
        (1, some txt!"Consumer Payment Device Form Factor: Mini-card"),
        (2, some txt!"Consumer Payment Device Form Factor: Non-card Form Factor"),
        (3, some txt!"Consumer Payment Device Form Factor: Consumer mobile phone"),
        (4, some txt!"Consumer Payment Device Form Factor: Wrist-worn device")]
        (some txt!"Consumer Payment Device Form Factor: Unknown") k).toList ≠ [] := by decide +kernel
    refine h2 (bitsVal f 1 5 1) (Nat.mod_lt _ (by decide)) ?_
    simpa [ffiRows, shown, Row.shown] using h1
  rw [ffiLines]
  split
  case h_2 h => exact ⟨h1, fun h' => absurd h h'⟩
  all_goals exact ⟨by simp, fun _ => ⟨_, rfl⟩⟩

/-- Another version, one line. -/
example : ffiLines [0x00, 0, 0, 0] = [txt!"Form Factor Indicator (FFI): Version Number 0"] := by decide +kernel

/-- **C72** (Form Factor Indicator).  The description is by the table for version 1. -/
theorem C72_ffi : Describes ffiList 4 ffiLines := by
  have hver : ∀ b : Byte, b &&& 0xE0 ≠ 0x20 →
      (do let s ← runPieces [b] [.lit txt!"Form Factor Indicator (FFI): Version Number ",
            .dec 0 0xFF 5]
          (.ok [s] : C (List (List Byte)))) =
        .ok (ffiLines [b]) := by
    decide +kernel
  have hone : ∀ b : Byte, b &&& 0xE0 = 0x20 ↔ bitsVal [b] 1 8 6 = 1 := by decide +kernel
  have hrows := fun f (hf : f.length = 4) =>
    rowsOf_run 4 f (Nat.le_of_eq hf.symm) ffi ffiRows (by decide +kernel)
  have hitems : ∀ f : List Byte, f.length = 4 → ffiItems f = .ok (ffiLines f) := by
    intro f hf
    match f, hf with
    | [a, b, c, d], _ =>
      have e : bitsVal [a, b, c, d] 1 8 6 = bitsVal [a] 1 8 6 := rfl
      rw [ffiItems, rd_cons_zero, bind_ok]
      by_cases h : a &&& 0xE0 ≠ 0x20
      · rw [if_pos h]
        have h1 : bitsVal [a] 1 8 6 ≠ 1 := fun h' => h ((hone a).2 h')
        have : ffiLines [a, b, c, d] = ffiLines [a] := by
          rw [ffiLines, ffiLines, e]
          split <;> first | rfl | (exfalso; omega)
        rw [this, ← hver a h]
        rfl
      · rw [if_neg h, hrows _ rfl]
        have h1 : bitsVal [a] 1 8 6 = 1 := (hone a).1 (Classical.not_not.1 h)
        rw [ffiLines, e, h1]
        rfl
  have hne : ∀ f, ∀ s ∈ ffiLines f, s ≠ [] := by
    intro f s hs
    rw [ffiLines] at hs
    split at hs
    case h_2 => exact shown_ne f ffiRows (by decide +kernel) s hs
    all_goals
      simp only [List.mem_singleton] at hs
      subst hs
      exact List.ne_nil_of_length_pos (by rw [bytesOfNum_length]; decide)
  refine ⟨fun f str hf hs hl => ?_, fun f str hs hl => ?_⟩
  · rw [ffiList, if_neg (by simpa using hf), if_neg (by simpa using hs), if_pos hl]
  · rw [ffiList, if_neg (by omega), if_neg (by simpa using hs), if_neg (by simpa using hl),
      hitems f hl, bind_ok]
    obtain ⟨str', e, h1, h2⟩ := build_spec (ffiLines f) str
    refine ⟨str', by rw [e, bind_ok], build_length _ _ _ e, fun h => h2 h.symm,
      fun h h3 => ⟨_, ⟨rfl, (h1 h3 h).2⟩, (h1 h3 h).1⟩, fun h h3 => ?_⟩
    have := build_fits (ffiLines f) str h (hne f) h3
    rw [e] at this
    exact Except.ok.inj this

example : ffiLines [0x24, 0, 0, 0] =
    [txt!"Consumer Payment Device Form Factor: Wrist-worn device",
     txt!"Payment Transaction Technology: Proximity Contactless interface using ISO 14443 (including NFC)"] := by
  decide +kernel

/-- **C72** (Terminal Type).  Zero is refused; any other value is described by the table, with
at least one line. -/
theorem C72_term_type :
    (∀ str, termTypeList 0 str = .ok (-1, str)) ∧
    (∀ b : Byte, b ≠ 0 → ∀ str : List Byte, str ≠ [] → shown termTypeRows [b] ≠ [] ∧
      ∃ str', termTypeList b str = .ok (0, str') ∧ Lists.Shows str (shown termTypeRows [b]) str') := by
  refine ⟨fun str => by rw [termTypeList, if_pos rfl], fun b hb str hs => ⟨?_, ?_⟩⟩
  · have hne : ∀ b : Byte, shown termTypeRows [b] ≠ [] := by decide +kernel
    exact hne b
  · rw [termTypeList, if_neg hb]
    have hd := describes_rows true 1 (by decide) termType termTypeRows (by decide +kernel)
      (by decide +kernel)
    exact hd.2 [b] str hs rfl

theorem termType_fits (b : Byte) (hb : b ≠ 0) (str : List Byte)
    (hl : (text (shown termTypeRows [b])).length < str.length) :
    termTypeList b str = .ok (0, strOver (text (shown termTypeRows [b])) str) := by
  obtain ⟨hne, s, e, -, -, -, h⟩ := C72_term_type.2 b hb str (List.ne_nil_of_length_pos (by omega))
  rw [e, h hne hl]

example : shown termTypeRows [0x22] =
    [txt!"Operational Control: Merchant",
     txt!"Environment: Attended, offline with online capability"] := by decide +kernel

/-- **C72** (Cryptogram Information Data).  Every value is described by the table, with at least
one line. -/
theorem C72_cid (b : Byte) (str : List Byte) (hs : str ≠ []) :
    shown cidRows [b] ≠ [] ∧
    ∃ str', cidList b str = .ok (0, str') ∧ Lists.Shows str (shown cidRows [b]) str' := by
  have hne : ∀ b : Byte, shown cidRows [b] ≠ [] := by decide +kernel
  have hrun : ∀ b : Byte, runItems [b] cid = .ok (shown cidRows [b]) := by decide +kernel
  have hd := describes_core true 1 (by decide) cid (shown cidRows)
    (fun f hf => by
      match f, hf with
      | [a], _ => exact hrun a) (fun f => shown_ne f cidRows (by decide +kernel))
  exact ⟨hne b, hd.2 [b] str hs rfl⟩

theorem cid_fits (b : Byte) (str : List Byte)
    (hl : (text (shown cidRows [b])).length < str.length) :
    cidList b str = .ok (0, strOver (text (shown cidRows [b])) str) := by
  obtain ⟨hne, s, e, -, -, -, h⟩ := C72_cid b str (List.ne_nil_of_length_pos (by omega))
  rw [e, h hne hl]

example : shown cidRows [0x91] =
    [txt!"Application Cryptogram (AC) type: Authorisation Request Cryptogram (ARQC)",
     txt!"Payment System-specific cryptogram: 0x10", txt!"No advice required",
     txt!"Advice: Service not allowed"] := by decide +kernel

/-- What a description returns when it has no output to write to. -/
def NoOutput (g : List Byte → List Byte → C (Int × List Byte)) (code : Int) : Prop :=
  ∀ f : List Byte, f ≠ [] → g f [] = .ok (code, [])

theorem noOutput (strict : Bool) (n : Nat) (items : List Item) :
    NoOutput (describe strict n items) (if strict then -1 else 0) := by
  intro f hf
  rw [describe, if_neg (by simpa using hf), if_pos (by simp)]

/-- **C70** (no output).  Without an output, Terminal Verification Results, Transaction Status
Information, Application Usage Control, Card Transaction Qualifiers and Terminal Risk Management
Data of any length are accepted and nothing is written; Application Interchange Profiles are
refused. -/
theorem C70_no_output : NoOutput tvrList 0 ∧ NoOutput tsiList 0 ∧ NoOutput aucList 0 ∧
    NoOutput ctqList 0 ∧ NoOutput trmdList 0 ∧ NoOutput aipList (-1) :=
  ⟨noOutput _ _ _, noOutput _ _ _, noOutput _ _ _, noOutput _ _ _, noOutput _ _ _, noOutput _ _ _⟩

/-- **C72** (no output).  Without an output, Terminal Transaction Qualifiers and Enhanced Contactless
Reader Capabilities are accepted and nothing is written; Terminal Capabilities and Additional Terminal
Capabilities are refused. -/
theorem C72_no_output : NoOutput ttqList 0 ∧ NoOutput amexEnhList 0 ∧ NoOutput termCapsList (-1) ∧
    NoOutput addlTermCapsList (-1) :=
  ⟨noOutput _ _ _, noOutput _ _ _, noOutput _ _ _, noOutput _ _ _⟩

end Verif.Bits
