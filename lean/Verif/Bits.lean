import Verif.Text
import Verif.StrList

/-!
# Model of the descriptions of bit fields

The functions of `src/emv_strings.c` which add one string per set bit (or per value of some
bits) of a field to a string list.  Each is a table of `Item`s in the order of the C code, run
by `Item.run`; an `Item` is one `if`, `if`/`else` or `switch` statement or one unconditional
addition of the C code, with the masks of `src/emv_fields.h` written out.

The strings are computed first and then added in order; in C each is added as soon as it is
known, which makes no difference as these functions do not read the output.
-/

set_option autoImplicit false

namespace Verif.Bits
open Verif StrList

/-- A condition of the C code on the bytes of the field. -/
inductive Test where
  /-- always true (no `if`) -/
  | yes
  /-- `f[i] & m` -/
  | bit (i : Nat) (m : Byte)
  /-- `(f[i] & m) == v` -/
  | eq (i : Nat) (m v : Byte)
  /-- `!t` -/
  | not (t : Test)
  /-- `a || b` -/
  | or (a b : Test)
  /-- `a && b` -/
  | and (a b : Test)
deriving DecidableEq

/-- Evaluation of a condition, with C short circuit. -/
def Test.run (f : List Byte) : Test → C Bool
  | .yes => .ok true
  | .bit i m => do let b ← rd f i; .ok (decide (b &&& m ≠ 0))
  | .eq i m v => do let b ← rd f i; .ok (decide (b &&& m = v))
  | .not t => do let r ← t.run f; .ok (!r)
  | .or a b => do let r ← a.run f; if r then .ok true else b.run f
  | .and a b => do let r ← a.run f; if r then b.run f else .ok false

/-- One piece of a `printf` format. -/
inductive Piece where
  /-- literal text -/
  | lit (s : List Byte)
  /-- `%02X` of `f[i] & m` -/
  | hex (i : Nat) (m : Byte)
  /-- `%u` of `(f[i] & m) >> s` -/
  | dec (i : Nat) (m : Byte) (s : Nat)
  /-- `%02u` of `f[i] & m` -/
  | dec2 (i : Nat) (m : Byte)
deriving DecidableEq

/-- Upper case hexadecimal digit. -/
def hexDigit (n : Nat) : Byte := UInt8.ofNat (if n < 10 then 0x30 + n else 0x37 + n)

/-- `%02X` of a byte. -/
def hex02 (b : Byte) : List Byte := [hexDigit (b.toNat / 16), hexDigit (b.toNat % 16)]

/-- `%u` of a number below 1000. -/
def decText (n : Nat) : List Byte :=
  let d (k : Nat) : Byte := UInt8.ofNat (0x30 + k % 10)
  if n < 10 then [d n] else if n < 100 then [d (n / 10), d n] else [d (n / 100), d (n / 10), d n]

/-- `%02u` of a number below 1000. -/
def decText2 (n : Nat) : List Byte := if n < 10 then 0x30 :: decText n else decText n

/-- Text of one piece. -/
def Piece.run (f : List Byte) : Piece → C (List Byte)
  | .lit s => .ok s
  | .hex i m => do let b ← rd f i; .ok (hex02 (b &&& m))
  | .dec i m s => do let b ← rd f i; .ok (decText ((b &&& m).toNat / 2 ^ s))
  | .dec2 i m => do let b ← rd f i; .ok (decText2 (b &&& m).toNat)

/-- Text of a format. -/
def runPieces (f : List Byte) : List Piece → C (List Byte)
  | [] => .ok []
  | p :: ps => do
    let a ← p.run f
    let b ← runPieces f ps
    .ok (a ++ b)

/-- A statement of the C code which adds at most one string. -/
inductive Item where
  /-- unconditional addition -/
  | always (s : List Byte)
  /-- `if (t) add(s);` -/
  | when (t : Test) (s : List Byte)
  /-- `if (t) add(s); else add(u);` -/
  | ite (t : Test) (s u : List Byte)
  /-- `switch (f[i] & m)`; a case or default without addition is `none` -/
  | sel (i : Nat) (m : Byte) (cases : List (Byte × Option (List Byte))) (d : Option (List Byte))
  /-- `if (t) add(fmt, ...);` -/
  | fmt (t : Test) (ps : List Piece)
deriving DecidableEq

/-- `switch`: the first matching case. -/
def selText (cases : List (Byte × Option (List Byte))) (d : Option (List Byte)) (b : Byte) :
    Option (List Byte) :=
  match cases with
  | [] => d
  | (v, s) :: rest => if b = v then s else selText rest d b

/-- The strings added by one statement. -/
def Item.run (f : List Byte) : Item → C (List (List Byte))
  | .always s => .ok [s]
  | .when t s => do let r ← t.run f; .ok (if r then [s] else [])
  | .ite t s u => do let r ← t.run f; .ok (if r then [s] else [u])
  | .sel i m cases d => do let b ← rd f i; .ok (selText cases d (b &&& m)).toList
  | .fmt t ps => do
    let r ← t.run f
    if r then do
      let s ← runPieces f ps
      .ok [s]
    else .ok []

/-- The strings added by a sequence of statements. -/
def runItems (f : List Byte) : List Item → C (List (List Byte))
  | [] => .ok []
  | it :: rest => do
    let a ← it.run f
    let b ← runItems f rest
    .ok (a ++ b)

/-- Build the string list in the output. -/
def build (ls : List (List Byte)) (str : List Byte) : C (List Byte) := do
  let it ← addAll (fun s => emvAdd (some s)) ls (init str)
  .ok it.buf

/-- The common frame of the functions for fields of `n` bytes, e.g. `emv_tvr_get_string_list`
(emv_strings.c:3560-3583, 3717): empty field, no output wanted (`strict` functions refuse
this), wrong length. -/
def describe (strict : Bool) (n : Nat) (items : List Item) (f str : List Byte) :
    C (Int × List Byte) :=
  if f.length = 0 then .ok (-1, str)
  else if str.length = 0 then .ok (if strict then -1 else 0, str)
  else if f.length ≠ n then .ok (1, str)
  else do
    let ls ← runItems f items
    let str ← build ls str
    .ok (0, str)

/-- `emv_term_type_get_string_list` (emv_strings.c:2066-2116), the field being `[term_type]`. -/
def termType : List Item :=
  [.sel 0 0x30
      [(0x10, some txt!"Operational Control: Financial Institution"),
       (0x20, some txt!"Operational Control: Merchant"),
       (0x30, some txt!"Operational Control: Cardholder")]
      (some txt!"Operational Control: Unknown"),
   .sel 0 0x07
      [(0x01, some txt!"Environment: Attended, online only"),
       (0x02, some txt!"Environment: Attended, offline with online capability"),
       (0x03, some txt!"Environment: Attended, offline only"),
       (0x04, some txt!"Environment: Unattended, online only"),
       (0x05, some txt!"Environment: Unattended, offline with online capability"),
       (0x06, some txt!"Environment: Unattended, offline only")]
      (some txt!"Environment: Unknown")]

/-- `emv_term_caps_get_string_list` (emv_strings.c:2141-2211). -/
def termCaps : List Item :=
  [.when (.not (.bit 0 0xFF)) txt!"Card Data Input Capability: None",
   .when (.bit 0 0x80) txt!"Card Data Input Capability: Manual key entry",
   .when (.bit 0 0x40) txt!"Card Data Input Capability: Magnetic stripe",
   .when (.bit 0 0x20) txt!"Card Data Input Capability: IC with contacts",
   .when (.bit 0 0x1F) txt!"Card Data Input Capability: RFU",
   .when (.not (.bit 1 0xFF)) txt!"CVM Capability: None",
   .when (.bit 1 0x80) txt!"CVM Capability: Plaintext PIN for ICC verification",
   .when (.bit 1 0x40) txt!"CVM Capability: Enciphered PIN for online verification",
   .when (.bit 1 0x20) txt!"CVM Capability: Signature",
   .when (.bit 1 0x10) txt!"CVM Capability: Enciphered PIN for offline verification (RSA ODE)",
   .when (.bit 1 0x08) txt!"CVM Capability: No CVM required",
   .when (.bit 1 0x04) txt!"CVM Capability: Online Biometric",
   .when (.bit 1 0x02) txt!"CVM Capability: Offline Biometric",
   .when (.bit 1 0x01) txt!"CVM Capability: Enciphered PIN for offline verification (ECC ODE)",
   .when (.not (.bit 2 0xFF)) txt!"Security Capability: None",
   .when (.bit 2 0x80) txt!"Security Capability: Static Data Authentication (SDA)",
   .when (.bit 2 0x40) txt!"Security Capability: Dynamic Data Authentication (DDA)",
   .when (.bit 2 0x20) txt!"Security Capability: Card capture",
   .when (.bit 2 0x08) txt!"Security Capability: Combined DDA/Application Cryptogram Generation (CDA)",
   .when (.bit 2 0x04) txt!"Security Capability: Extended Data Authentication (XDA)",
   .when (.bit 2 0x13) txt!"Security Capability: RFU"]

/-- `emv_addl_term_caps_get_string_list` (emv_strings.c:2322-2434). -/
def addlTermCaps : List Item :=
  [.when (.and (.not (.bit 0 0xFF)) (.not (.bit 1 0xFF))) txt!"Transaction Type Capability: None",
   .when (.bit 0 0x80) txt!"Transaction Type Capability: Cash",
   .when (.bit 0 0x40) txt!"Transaction Type Capability: Goods",
   .when (.bit 0 0x20) txt!"Transaction Type Capability: Services",
   .when (.bit 0 0x10) txt!"Transaction Type Capability: Cashback",
   .when (.bit 0 0x08) txt!"Transaction Type Capability: Inquiry",
   .when (.bit 0 0x04) txt!"Transaction Type Capability: Transfer",
   .when (.bit 0 0x02) txt!"Transaction Type Capability: Payment",
   .when (.bit 0 0x01) txt!"Transaction Type Capability: Administrative",
   .when (.bit 1 0x80) txt!"Transaction Type Capability: Cash deposit",
   .when (.bit 1 0x7F) txt!"Transaction Type Capability: RFU",
   .when (.not (.bit 2 0xFF)) txt!"Terminal Data Input Capability: None",
   .when (.bit 2 0x80) txt!"Terminal Data Input Capability: Numeric keys",
   .when (.bit 2 0x40) txt!"Terminal Data Input Capability: Alphabetic and special characters keys",
   .when (.bit 2 0x20) txt!"Terminal Data Input Capability: Command keys",
   .when (.bit 2 0x10) txt!"Terminal Data Input Capability: Function keys",
   .when (.bit 2 0x0F) txt!"Terminal Data Input Capability: RFU",
   .when (.not (.bit 3 0xF0)) txt!"Terminal Data Input Capability: No print, electronic or display output",
   .when (.bit 3 0x80) txt!"Terminal Data Output Capability: Print or electronic, attendant",
   .when (.bit 3 0x40) txt!"Terminal Data Output Capability: Print or electronic, cardholder",
   .when (.bit 3 0x20) txt!"Terminal Data Output Capability: Display, attendant",
   .when (.bit 3 0x10) txt!"Terminal Data Output Capability: Display cardholder",
   .when (.bit 3 0x02) txt!"Terminal Data Output Capability: Code table 10",
   .when (.bit 3 0x01) txt!"Terminal Data Output Capability: Code table 9",
   .when (.bit 3 0x0C) txt!"Terminal Data Output Capability: RFU",
   .when (.bit 4 0x80) txt!"Terminal Data Output Capability: Code table 8",
   .when (.bit 4 0x40) txt!"Terminal Data Output Capability: Code table 7",
   .when (.bit 4 0x20) txt!"Terminal Data Output Capability: Code table 6",
   .when (.bit 4 0x10) txt!"Terminal Data Output Capability: Code table 5",
   .when (.bit 4 0x08) txt!"Terminal Data Output Capability: Code table 4",
   .when (.bit 4 0x04) txt!"Terminal Data Output Capability: Code table 3",
   .when (.bit 4 0x02) txt!"Terminal Data Output Capability: Code table 2",
   .when (.bit 4 0x01) txt!"Terminal Data Output Capability: Code table 1"]

/-- `emv_aip_get_string_list` (emv_strings.c:2650-2695). -/
def aip : List Item :=
  [.when (.bit 0 0x80) txt!"Extended Data Authentication (XDA) is supported",
   .when (.bit 0 0x40) txt!"Static Data Authentication (SDA) is supported",
   .when (.bit 0 0x20) txt!"Dynamic Data Authentication (DDA) is supported",
   .when (.bit 0 0x10) txt!"Cardholder verification is supported",
   .when (.bit 0 0x08) txt!"Terminal risk management is to be performed",
   .when (.bit 0 0x04) txt!"Issuer authentication is supported",
   .when (.bit 0 0x02) txt!"On device cardholder verification is supported",
   .when (.bit 0 0x01) txt!"Combined DDA/Application Cryptogram Generation (CDA) is supported",
   .when (.bit 1 0x80) txt!"Contactless EMV mode is supported",
   .when (.bit 1 0x40) txt!"Mobile phone",
   .when (.bit 1 0x20) txt!"Contactless transaction",
   .when (.bit 1 0x1E) txt!"RFU",
   .when (.bit 1 0x01) txt!"Relay Resistance Protocol (RRP) is supported"]

/-- `emv_app_usage_control_get_string_list` (emv_strings.c:2801-2838). -/
def auc : List Item :=
  [.when (.bit 0 0x80) txt!"Valid for domestic cash transactions",
   .when (.bit 0 0x40) txt!"Valid for international cash transactions",
   .when (.bit 0 0x20) txt!"Valid for domestic goods",
   .when (.bit 0 0x10) txt!"Valid for international goods",
   .when (.bit 0 0x08) txt!"Valid for domestic services",
   .when (.bit 0 0x04) txt!"Valid for international services",
   .when (.bit 0 0x02) txt!"Valid at ATMs",
   .when (.bit 0 0x01) txt!"Valid at terminals other than ATMs",
   .when (.bit 1 0x80) txt!"Domestic cashback allowed",
   .when (.bit 1 0x40) txt!"International cashback allowed",
   .when (.bit 1 0x3F) txt!"RFU"]

/-- `emv_tvr_get_string_list` (emv_strings.c:3585-3715). -/
def tvr : List Item :=
  [.when (.bit 0 0x80) txt!"Offline data authentication was not performed",
   .when (.bit 0 0x40) txt!"Static Data Authentication (SDA) failed",
   .when (.bit 0 0x20) txt!"Integrated circuit card (ICC) data missing",
   .when (.bit 0 0x10) txt!"Card appears on terminal exception file",
   .when (.bit 0 0x08) txt!"Dynamic Data Authentication (DDA) failed",
   .when (.bit 0 0x04) txt!"Combined DDA/Application Cryptogram Generation (CDA) failed",
   .when (.bit 0 0x02) txt!"Static Data Authentication (SDA) selected",
   .when (.bit 0 0x01) txt!"Extended Data Authentication (XDA) selected",
   .when (.bit 1 0x80) txt!"ICC and terminal have different application versions",
   .when (.bit 1 0x40) txt!"Expired application",
   .when (.bit 1 0x20) txt!"Application not yet effective",
   .when (.bit 1 0x10) txt!"Requested service not allowed for card product",
   .when (.bit 1 0x08) txt!"New card",
   .when (.bit 1 0x04) txt!"RFU",
   .when (.bit 1 0x02) txt!"Biometric performed and successful",
   .when (.bit 1 0x01) txt!"Biometric template format not supported",
   .when (.bit 2 0x80) txt!"Cardholder verification was not successful",
   .when (.bit 2 0x40) txt!"Unrecognised CVM",
   .when (.bit 2 0x20) txt!"PIN Try Limit exceeded",
   .when (.bit 2 0x10) txt!"PIN entry required and PIN pad not present or not working",
   .when (.bit 2 0x08) txt!"PIN entry required, PIN pad present, but PIN was not entered",
   .when (.bit 2 0x04) txt!"Online CVM captured",
   .when (.bit 2 0x02) txt!"Biometric required but Biometric capture device not working",
   .when (.bit 2 0x01) txt!"Biometric required, Biometric capture device present, but Biometric Subtype entry was bypassed",
   .when (.bit 3 0x80) txt!"Transaction exceeds floor limit",
   .when (.bit 3 0x40) txt!"Lower consecutive offline limit exceeded",
   .when (.bit 3 0x20) txt!"Upper consecutive offline limit exceeded",
   .when (.bit 3 0x10) txt!"Transaction selected randomly for online processing",
   .when (.bit 3 0x08) txt!"Merchant forced transaction online",
   .when (.bit 3 0x04) txt!"Biometric Try Limit exceeded",
   .when (.bit 3 0x02) txt!"A selected Biometric Type not supported",
   .when (.bit 3 0x01) txt!"XDA signature verification failed",
   .when (.bit 4 0x80) txt!"Default TDOL used",
   .when (.bit 4 0x40) txt!"Issuer authentication failed",
   .when (.bit 4 0x20) txt!"Script processing failed before final GENERATE AC",
   .when (.bit 4 0x10) txt!"Script processing failed after final GENERATE AC",
   .when (.bit 4 0x04) txt!"CA ECC key missing",
   .when (.bit 4 0x02) txt!"ECC key recovery failed",
   .when (.bit 4 0x09) txt!"Reserved for use by the EMV Contactless Specifications"]

/-- `emv_tsi_get_string_list` (emv_strings.c:3745-3767). -/
def tsi : List Item :=
  [.when (.bit 0 0x80) txt!"Offline data authentication was performed",
   .when (.bit 0 0x40) txt!"Cardholder verification was performed",
   .when (.bit 0 0x20) txt!"Card risk management was performed",
   .when (.bit 0 0x10) txt!"Issuer authentication was performed",
   .when (.bit 0 0x08) txt!"Terminal risk management was performed",
   .when (.bit 0 0x04) txt!"Script processing was performed",
   .when (.or (.bit 0 0x03) (.bit 1 0xFF)) txt!"RFU"]

/-- `emv_cid_get_string_list` (emv_strings.c:3786-3846), the field being `[cid]`. -/
def cid : List Item :=
  [.sel 0 0xC0
      [(0x00, some txt!"Application Cryptogram (AC) type: Application Authentication Cryptogram (AAC)"),
       (0x40, some txt!"Application Cryptogram (AC) type: Transaction Certificate (TC)"),
       (0x80, some txt!"Application Cryptogram (AC) type: Authorisation Request Cryptogram (ARQC)")]
      (some txt!"Application Cryptogram (AC) type: RFU"),
   .fmt (.bit 0 0x30) [.lit txt!"Payment System-specific cryptogram: 0x", .hex 0 0x30],
   .when (.bit 0 0x08) txt!"Advice required",
   .when (.and (.not (.bit 0 0x08)) (.bit 0 0x07)) txt!"No advice required",
   .sel 0 0x07
      [(0x00, none),
       (0x01, some txt!"Advice: Service not allowed"),
       (0x02, some txt!"Advice: PIN Try Limit exceeded"),
       (0x03, some txt!"Advice: Issuer authentication failed")]
      (some txt!"Advice: RFU")]

/-- `emv_terminal_risk_management_data_get_string_list` (emv_strings.c:4738-4837). -/
def trmd : List Item :=
  [.when (.bit 0 0x80) txt!"Restart supported",
   .when (.bit 0 0x40) txt!"Enciphered PIN verified online (Contactless)",
   .when (.bit 0 0x20) txt!"Signature (paper) (Contactless)",
   .when (.bit 0 0x10) txt!"Enciphered PIN verification performed by ICC (Contactless)",
   .when (.bit 0 0x08) txt!"No CVM required (Contactless)",
   .when (.bit 0 0x04) txt!"CDCVM (Contactless)",
   .when (.bit 0 0x02) txt!"Plaintext PIN verification performed by ICC (Contactless)",
   .when (.bit 0 0x01) txt!"Present and Hold supported",
   .when (.bit 1 0x80) txt!"CVM Limit exceeded",
   .when (.bit 1 0x40) txt!"Enciphered PIN verified online (Contact)",
   .when (.bit 1 0x20) txt!"Signature (paper) (Contact)",
   .when (.bit 1 0x10) txt!"Enciphered PIN verification performed by ICC (Contact)",
   .when (.bit 1 0x08) txt!"No CVM required (Contact)",
   .when (.bit 1 0x04) txt!"CDCVM (Contact)",
   .when (.bit 1 0x02) txt!"Plaintext PIN verification performed by ICC (Contact)",
   .when (.bit 2 0x80) txt!"Mag-stripe mode contactless transactions not supported",
   .when (.bit 2 0x40) txt!"EMV mode contactless transactions not supported",
   .when (.bit 2 0x20) txt!"CDCVM without CDA supported",
   .when (.bit 3 0x80) txt!"CDCVM bypass requested",
   .when (.bit 3 0x40) txt!"SCA exempt",
   .when (.or (.bit 1 0x01) (.or (.bit 2 0x1F) (.or (.bit 3 0x3F) (.or (.bit 4 0xFF) (.or (.bit 5 0xFF) (.or (.bit 6 0xFF) (.bit 7 0xFF))))))) txt!"RFU"]

/-- `emv_ttq_get_string_list` (emv_strings.c:4867-4963). -/
def ttq : List Item :=
  [.ite (.bit 0 0x80) txt!"Mag-stripe mode supported" txt!"Mag-stripe mode not supported",
   .when (.bit 0 0x40) txt!"RFU",
   .ite (.bit 0 0x20) txt!"EMV mode supported" txt!"EMV mode not supported",
   .ite (.bit 0 0x10) txt!"EMV contact chip supported" txt!"EMV contact chip not supported",
   .ite (.bit 0 0x08) txt!"Offline-only reader" txt!"Online capable reader",
   .ite (.bit 0 0x04) txt!"Online PIN supported" txt!"Online PIN not supported",
   .ite (.bit 0 0x02) txt!"Signature supported" txt!"Signature not supported",
   .ite (.bit 0 0x01) txt!"Offline Data Authentication for Online Authorizations supported" txt!"Offline Data Authentication for Online Authorizations not supported",
   .ite (.bit 1 0x80) txt!"Online cryptogram required" txt!"Online cryptogram not required",
   .ite (.bit 1 0x40) txt!"CVM required" txt!"CVM not required",
   .ite (.bit 1 0x20) txt!"(Contact Chip) Offline PIN supported" txt!"(Contact Chip) Offline PIN not supported",
   .when (.bit 1 0x1F) txt!"RFU",
   .ite (.bit 2 0x80) txt!"Issuer Update Processing supported" txt!"Issuer Update Processing not supported",
   .ite (.bit 2 0x40) txt!"Consumer Device CVM supported" txt!"Consumer Device CVM not supported",
   .when (.bit 2 0x08) txt!"Consumer Device CVM required",
   .when (.bit 2 0x37) txt!"RFU",
   .when (.bit 3 0x80) txt!"fDDA v1.0 Supported",
   .when (.bit 3 0x7F) txt!"RFU"]

/-- `emv_ctq_get_string_list` (emv_strings.c:4993-5033). -/
def ctq : List Item :=
  [.when (.bit 0 0x80) txt!"Online PIN Required",
   .when (.bit 0 0x40) txt!"Signature Required",
   .when (.bit 0 0x20) txt!"Go Online if Offline Data Authentication Fails and Reader is online capable",
   .when (.bit 0 0x10) txt!"Switch Interface if Offline Data Authentication fails and Reader supports contact chip",
   .when (.bit 0 0x08) txt!"Go Online if Application Expired",
   .when (.bit 0 0x04) txt!"Switch Interface for Cash Transactions",
   .when (.bit 0 0x02) txt!"Switch Interface for Cashback Transactions",
   .when (.bit 0 0x01) txt!"Not valid for contactless ATM transactions",
   .when (.bit 1 0x80) txt!"Consumer Device CVM Performed",
   .when (.bit 1 0x40) txt!"Card supports Issuer Update Processing at the POS",
   .when (.bit 1 0x3F) txt!"RFU"]

/-- `emv_visa_form_factor_indicator_get_string_list`, version 1 (emv_strings.c:5388-5439). -/
def ffi : List Item :=
  [.sel 0 0x1F
      [(0x00, some txt!"Consumer Payment Device Form Factor: Card"),
       (0x01, some txt!"Consumer Payment Device Form Factor: Mini-card"),
       (0x02, some txt!"Consumer Payment Device Form Factor: Non-card Form Factor"),
       (0x03, some txt!"Consumer Payment Device Form Factor: Consumer mobile phone"),
       (0x04, some txt!"Consumer Payment Device Form Factor: Wrist-worn device")]
      (some txt!"Consumer Payment Device Form Factor: Unknown"),
   .when (.bit 1 0x80) txt!"Consumer Payment Device Features: Passcode Capable",
   .when (.bit 1 0x40) txt!"Consumer Payment Device Features: Signature Panel",
   .when (.bit 1 0x20) txt!"Consumer Payment Device Features: Hologram",
   .when (.bit 1 0x10) txt!"Consumer Payment Device Features: CVV2",
   .when (.bit 1 0x08) txt!"Consumer Payment Device Features: Two-way Messaging",
   .when (.bit 1 0x04) txt!"Consumer Payment Device Features: Cloud Based Payment Credentials",
   .when (.bit 1 0x02) txt!"Consumer Payment Device Features: Biometric Cardholder Verification Capable",
   .when (.bit 1 0x01) txt!"Consumer Payment Device Features: RFU",
   .when (.bit 2 0xFF) txt!"Form Factor Indicator (FFI) byte 3: RFU",
   .sel 3 0x0F
      [(0x00, some txt!"Payment Transaction Technology: Proximity Contactless interface using ISO 14443 (including NFC)"),
       (0x01, some txt!"Payment Transaction Technology: Not used in VCPS")]
      (some txt!"Payment Transaction Technology: Unknown"),
   .when (.bit 3 0xF0) txt!"Payment Transaction Technology: RFU"]

/-- `emv_amex_enh_cl_reader_caps_get_string_list` (emv_strings.c:5469-5542). -/
def amexEnh : List Item :=
  [.when (.bit 0 0x80) txt!"Contact mode supported",
   .when (.bit 0 0x40) txt!"Contactless Mag-Stripe Mode supported",
   .when (.bit 0 0x20) txt!"Contactless EMV full online mode supported (legacy feature and no longer supported)",
   .when (.bit 0 0x10) txt!"Contactless EMV partial online mode supported",
   .when (.bit 0 0x08) txt!"Contactless Mobile Supported",
   .when (.bit 0 0x04) txt!"Try Another Interface after a decline",
   .when (.bit 0 0x03) txt!"RFU",
   .when (.bit 1 0x80) txt!"Mobile CVM supported",
   .when (.bit 1 0x40) txt!"Online PIN supported",
   .when (.bit 1 0x20) txt!"Signature supported",
   .when (.bit 1 0x10) txt!"Plaintext Offline PIN supported",
   .when (.bit 1 0x0F) txt!"RFU",
   .when (.bit 2 0x80) txt!"Reader is offline only",
   .when (.bit 2 0x40) txt!"CVM Required",
   .when (.bit 2 0x3F) txt!"RFU",
   .when (.bit 3 0x80) txt!"Terminal exempt from No CVM checks",
   .when (.bit 3 0x40) txt!"Delayed Authorisation Terminal",
   .when (.bit 3 0x20) txt!"Transit Terminal",
   .when (.bit 3 0x18) txt!"RFU",
   .sel 3 0x07
      [(0x01, some txt!"C-4 kernel version 2.2 - 2.3"),
       (0x02, some txt!"C-4 kernel version 2.4 - 2.6"),
       (0x03, some txt!"C-4 kernel version 2.7")]
      (some txt!"C-4 kernel version unknown")]

/-! ## The functions -/

/-- `emv_term_type_get_string_list` (emv_strings.c:2052-2119). -/
def termTypeList (b : Byte) (str : List Byte) : C (Int × List Byte) :=
  if b = 0 then .ok (-1, str) else describe true 1 termType [b] str

/-- `emv_term_caps_get_string_list` (emv_strings.c:2121-2214). -/
def termCapsList := describe true 3 termCaps

/-- `emv_addl_term_caps_get_string_list` (emv_strings.c:2302-2437). -/
def addlTermCapsList := describe true 5 addlTermCaps

/-- `emv_aip_get_string_list` (emv_strings.c:2630-2698). -/
def aipList := describe true 2 aip

/-- `emv_app_usage_control_get_string_list` (emv_strings.c:2776-2841). -/
def aucList := describe false 2 auc

/-- `emv_tvr_get_string_list` (emv_strings.c:3560-3718). -/
def tvrList := describe false 5 tvr

/-- `emv_tsi_get_string_list` (emv_strings.c:3720-3770). -/
def tsiList := describe false 2 tsi

/-- `emv_cid_get_string_list` (emv_strings.c:3772-3849). -/
def cidList (b : Byte) (str : List Byte) : C (Int × List Byte) := describe true 1 cid [b] str

/-- `emv_terminal_risk_management_data_get_string_list` (emv_strings.c:4713-4840). -/
def trmdList := describe false 8 trmd

/-- `emv_ttq_get_string_list` (emv_strings.c:4842-4966). -/
def ttqList := describe false 4 ttq

/-- `emv_ctq_get_string_list` (emv_strings.c:4968-5036). -/
def ctqList := describe false 2 ctq

/-- `emv_visa_form_factor_indicator_get_string_list` (emv_strings.c:5355-5442): other versions
than 1 are only reported as such. -/
def ffiItems (f : List Byte) : C (List (List Byte)) := do
  let b ← rd f 0
  if b &&& 0xE0 ≠ 0x20 then do
    let s ← runPieces f [.lit txt!"Form Factor Indicator (FFI): Version Number ", .dec 0 0xFF 5]
    .ok [s]
  else runItems f ffi

/-- `emv_visa_form_factor_indicator_get_string_list` (emv_strings.c:5355-5442). -/
def ffiList (f str : List Byte) : C (Int × List Byte) :=
  if f.length = 0 then .ok (-1, str)
  else if str.length = 0 then .ok (0, str)
  else if f.length ≠ 4 then .ok (1, str)
  else do
    let ls ← ffiItems f
    let str ← build ls str
    .ok (0, str)

/-- `emv_amex_enh_cl_reader_caps_get_string_list` (emv_strings.c:5444-5545). -/
def amexEnhList := describe false 4 amexEnh

end Verif.Bits
