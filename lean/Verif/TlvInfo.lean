import Verif.Names
import Verif.Iad
import Verif.ThirdParty
import Verif.Bits
import Verif.Str

/-!
# Model of the description of any TLV field

`emv_tlv_get_info` (src/emv_strings.c:90-1249) and `emv_tlv_value_get_string` (1261-1370).

The descriptions of tags (`tag_desc`) are not modelled, names and formats are.  `tlv->value` is
not NULL: it is the list of exactly `tlv->length` bytes.  The lookups in external tables and the
contents of uninitialised local arrays of the functions called are parameters (`Env`).
-/

set_option autoImplicit false

namespace Verif.TlvInfo
open Verif

/-- `enum emv_format_t` (emv_strings.h:38-107). -/
inductive Fmt where
  | a | an | ans | b | cn | n | var | dol | tagList
  deriving DecidableEq, Repr

/-- What happens to the value of a field with a certain tag. -/
inductive Handler where
  | none
  /-- `emv_tlv_value_get_string` with format and maximum length -/
  | value (f : Fmt) (max : Nat)
  | aid | track2 | amount | aip | dfName | capdu | arc | cvmList | auth | afl | tvr | date | time
  | tsi | txnType | countryNum | currency | language | country2 | country3 | account | auc | asrpd
  | iad | mcc | trmd | cid | termCaps | cvmResults | termType | posEntry | refCurrency | addlCaps
  | ctq
  deriving DecidableEq, Repr

/-- One `case` of the `switch`. -/
structure Entry where
  tag : Nat
  name : List Byte
  fmt : Fmt
  handler : Handler
  deriving DecidableEq

/-- The cases with one name and format (emv_strings.c:109-1117, 1138-1144, 1238-1243; tag numbers
emv_tags.h). -/
def table : List Entry :=
  [⟨0x42, txt!"Issuer Identification Number (IIN)", .n, .value .n 6⟩,
   ⟨0x4F, txt!"Application Dedicated File (ADF) Name", .b, .aid⟩,
   ⟨0x50, txt!"Application Label", .ans, .value .ans 16⟩,
   ⟨0x56, txt!"Track 1 Data", .ans, .value .ans 76⟩,
   ⟨0x57, txt!"Track 2 Equivalent Data", .b, .track2⟩,
   ⟨0x5A, txt!"Application Primary Account Number (PAN)", .cn, .value .cn 19⟩,
   ⟨0x61, txt!"Application Template", .b, .none⟩,
   ⟨0x6F, txt!"File Control Information (FCI) Template", .var, .none⟩,
   ⟨0x70, txt!"EMV Data Template", .var, .none⟩,
   ⟨0x71, txt!"Issuer Script Template 1", .var, .none⟩,
   ⟨0x72, txt!"Issuer Script Template 2", .var, .none⟩,
   ⟨0x73, txt!"Directory Discretionary Template", .var, .none⟩,
   ⟨0x77, txt!"Response Message Template Format 2", .var, .none⟩,
   ⟨0x80, txt!"Response Message Template Format 1", .var, .none⟩,
   ⟨0x81, txt!"Amount, Authorised (Binary)", .b, .amount⟩,
   ⟨0x82, txt!"Application Interchange Profile (AIP)", .b, .aip⟩,
   ⟨0x83, txt!"Command Template", .var, .none⟩,
   ⟨0x84, txt!"Dedicated File (DF) Name", .b, .dfName⟩,
   ⟨0x86, txt!"Issuer Script Command", .var, .capdu⟩,
   ⟨0x87, txt!"Application Priority Indicator", .b, .none⟩,
   ⟨0x88, txt!"Short File Identifier (SFI)", .b, .none⟩,
   ⟨0x89, txt!"Authorisation Code", .ans, .value .ans 6⟩,
   ⟨0x8A, txt!"Authorisation Response Code", .an, .arc⟩,
   ⟨0x8C, txt!"Card Risk Management Data Object List 1 (CDOL1)", .dol, .none⟩,
   ⟨0x8D, txt!"Card Risk Management Data Object List 2 (CDOL2)", .dol, .none⟩,
   ⟨0x8E, txt!"Cardholder Verification Method (CVM) List", .b, .cvmList⟩,
   ⟨0x8F, txt!"Certification Authority Public Key (CAPK) Index", .b, .none⟩,
   ⟨0x90, txt!"Issuer Public Key Certificate", .b, .none⟩,
   ⟨0x91, txt!"Issuer Authentication Data", .b, .auth⟩,
   ⟨0x92, txt!"Issuer Public Key Remainder", .b, .none⟩,
   ⟨0x93, txt!"Signed Static Application Data", .b, .none⟩,
   ⟨0x94, txt!"Application File Locator (AFL)", .var, .afl⟩,
   ⟨0x95, txt!"Terminal Verification Results (TVR)", .b, .tvr⟩,
   ⟨0x9A, txt!"Transaction Date", .n, .date⟩,
   ⟨0x9B, txt!"Transaction Status Information (TSI)", .b, .tsi⟩,
   ⟨0x9C, txt!"Transaction Type", .n, .txnType⟩,
   ⟨0x9D, txt!"Directory Definition File (DDF) Name", .b, .none⟩,
   ⟨0xA5, txt!"File Control Information (FCI) Proprietary Template", .var, .none⟩,
   ⟨0x5F20, txt!"Cardholder Name", .ans, .value .ans 26⟩,
   ⟨0x5F24, txt!"Application Expiration Date", .n, .date⟩,
   ⟨0x5F25, txt!"Application Effective Date", .n, .date⟩,
   ⟨0x5F28, txt!"Issuer Country Code", .n, .countryNum⟩,
   ⟨0x5F2A, txt!"Transaction Currency Code", .n, .currency⟩,
   ⟨0x5F2D, txt!"Language Preference", .an, .language⟩,
   ⟨0x5F30, txt!"Service Code", .n, .value .n 3⟩,
   ⟨0x5F34, txt!"Application Primary Account Number (PAN) Sequence Number", .n, .none⟩,
   ⟨0x5F36, txt!"Transaction Currency Exponent", .n, .none⟩,
   ⟨0x5F50, txt!"Issuer URL", .ans, .value .ans 0⟩,
   ⟨0x5F53, txt!"International Bank Account Number (IBAN)", .var, .value .an 34⟩,
   ⟨0x5F54, txt!"Bank Identifier Code (BIC)", .var, .value .an 11⟩,
   ⟨0x5F55, txt!"Issuer Country Code (alpha2 format)", .a, .country2⟩,
   ⟨0x5F56, txt!"Issuer Country Code (alpha3 format)", .a, .country3⟩,
   ⟨0x5F57, txt!"Account Type", .n, .account⟩,
   ⟨0x9F01, txt!"Acquirer Identifier", .n, .value .n 11⟩,
   ⟨0x9F02, txt!"Amount, Authorised (Numeric)", .n, .value .n 12⟩,
   ⟨0x9F03, txt!"Amount, Other (Numeric)", .n, .value .n 12⟩,
   ⟨0x9F04, txt!"Amount, Other (Binary)", .b, .amount⟩,
   ⟨0x9F05, txt!"Application Discretionary Data", .b, .none⟩,
   ⟨0x9F06, txt!"Application Identifier (AID) - terminal", .b, .aid⟩,
   ⟨0x9F07, txt!"Application Usage Control", .b, .auc⟩,
   ⟨0x9F08, txt!"Application Version Number", .b, .none⟩,
   ⟨0x9F09, txt!"Application Version Number - terminal", .b, .none⟩,
   ⟨0x9F0A, txt!"Application Selection Registered Proprietary Data (ASRPD)", .b, .asrpd⟩,
   ⟨0x9F0B, txt!"Cardholder Name Extended", .ans, .value .ans 45⟩,
   ⟨0x9F0C, txt!"Issuer Identification Number Extended (IINE)", .n, .value .n 8⟩,
   ⟨0x9F0D, txt!"Issuer Action Code (IAC) - Default", .b, .tvr⟩,
   ⟨0x9F0E, txt!"Issuer Action Code (IAC) - Denial", .b, .tvr⟩,
   ⟨0x9F0F, txt!"Issuer Action Code (IAC) - Online", .b, .tvr⟩,
   ⟨0x9F10, txt!"Issuer Application Data", .b, .iad⟩,
   ⟨0x9F11, txt!"Issuer Code Table Index", .n, .none⟩,
   ⟨0x9F12, txt!"Application Preferred Name", .ans, .value .ans 16⟩,
   ⟨0x9F13, txt!"Last Online Application Transaction Counter (ATC) Register", .b, .none⟩,
   ⟨0x9F14, txt!"Lower Consecutive Offline Limit", .b, .none⟩,
   ⟨0x9F15, txt!"Merchant Category Code (MCC)", .n, .mcc⟩,
   ⟨0x9F16, txt!"Merchant Identifier", .ans, .value .ans 15⟩,
   ⟨0x9F17, txt!"Personal Identification Number (PIN) Try Counter", .b, .none⟩,
   ⟨0x9F18, txt!"Issuer Script Identifier", .b, .none⟩,
   ⟨0x9F19, txt!"Token Requestor ID", .n, .none⟩,
   ⟨0x9F1A, txt!"Terminal Country Code", .n, .countryNum⟩,
   ⟨0x9F1B, txt!"Terminal Floor Limit", .b, .amount⟩,
   ⟨0x9F1C, txt!"Terminal Identification", .an, .value .an 8⟩,
   ⟨0x9F1D, txt!"Terminal Risk Management Data", .b, .trmd⟩,
   ⟨0x9F1E, txt!"Interface Device (IFD) Serial Number", .an, .value .an 8⟩,
   ⟨0x9F1F, txt!"Track 1 Discretionary Data", .ans, .value .ans 0⟩,
   ⟨0x9F20, txt!"Track 2 Discretionary Data", .cn, .value .cn 0⟩,
   ⟨0x9F21, txt!"Transaction Time", .n, .time⟩,
   ⟨0x9F22, txt!"Certification Authority Public Key (CAPK) Index", .b, .none⟩,
   ⟨0x9F23, txt!"Upper Consecutive Offline Limit", .b, .none⟩,
   ⟨0x9F24, txt!"Payment Account Reference (PAR)", .an, .value .an 29⟩,
   ⟨0x9F25, txt!"Last 4 Digits of PAN", .n, .value .n 4⟩,
   ⟨0x9F26, txt!"Application Cryptogram", .b, .none⟩,
   ⟨0x9F27, txt!"Cryptogram Information Data", .b, .cid⟩,
   ⟨0x9F32, txt!"Issuer Public Key Exponent", .b, .none⟩,
   ⟨0x9F33, txt!"Terminal Capabilities", .b, .termCaps⟩,
   ⟨0x9F34, txt!"Cardholder Verification Method (CVM) Results", .b, .cvmResults⟩,
   ⟨0x9F35, txt!"Terminal Type", .n, .termType⟩,
   ⟨0x9F36, txt!"Application Transaction Counter (ATC)", .b, .none⟩,
   ⟨0x9F37, txt!"Unpredictable Number", .b, .none⟩,
   ⟨0x9F38, txt!"Processing Options Data Object List (PDOL)", .dol, .none⟩,
   ⟨0x9F39, txt!"Point-of-Service (POS) Entry Mode", .n, .posEntry⟩,
   ⟨0x9F3A, txt!"Amount, Reference Currency", .b, .amount⟩,
   ⟨0x9F3B, txt!"Application Reference Currency", .n, .refCurrency⟩,
   ⟨0x9F3C, txt!"Transaction Reference Currency", .n, .currency⟩,
   ⟨0x9F3D, txt!"Transaction Reference Currency Exponent", .n, .none⟩,
   ⟨0x9F40, txt!"Additional Terminal Capabilities", .b, .addlCaps⟩,
   ⟨0x9F41, txt!"Transaction Sequence Counter", .n, .value .n 8⟩,
   ⟨0x9F42, txt!"Application Currency Code", .n, .currency⟩,
   ⟨0x9F43, txt!"Application Reference Currency Exponent", .n, .none⟩,
   ⟨0x9F44, txt!"Application Currency Exponent", .n, .none⟩,
   ⟨0x9F45, txt!"Data Authentication Code", .b, .none⟩,
   ⟨0x9F46, txt!"Integrated Circuit Card (ICC) Public Key Certificate", .b, .none⟩,
   ⟨0x9F47, txt!"Integrated Circuit Card (ICC) Public Key Exponent", .b, .none⟩,
   ⟨0x9F48, txt!"Integrated Circuit Card (ICC) Public Key Remainder", .b, .none⟩,
   ⟨0x9F49, txt!"Dynamic Data Authentication Data Object List (DDOL)", .dol, .none⟩,
   ⟨0x9F4A, txt!"Static Data Authentication (SDA) Tag List", .tagList, .none⟩,
   ⟨0x9F4C, txt!"Integrated Circuit Card (ICC) Dynamic Number", .b, .none⟩,
   ⟨0x9F4D, txt!"Log Entry", .b, .none⟩,
   ⟨0x9F4E, txt!"Merchant Name and Location", .ans, .value .ans 0⟩,
   ⟨0x9F6C, txt!"Card Transaction Qualifiers (CTQ)", .b, .ctq⟩,
   ⟨0xBF0C, txt!"File Control Information (FCI) Issuer Discretionary Data", .var, .none⟩]

/-- External tables and local arrays. -/
structure Env where
  /-- `mcc_lookup` -/
  mcc : Nat → Option (List Byte)
  /-- `isocodes_lookup_country_by_alpha2` -/
  country2 : List Byte → Option (List Byte)
  /-- `isocodes_lookup_country_by_alpha3` -/
  country3 : List Byte → Option (List Byte)
  /-- `isocodes_lookup_country_by_numeric` -/
  countryNum : Nat → Option (List Byte)
  /-- `isocodes_lookup_currency_by_numeric` -/
  currency : Nat → Option (List Byte)
  /-- `isocodes_lookup_language_by_alpha2` -/
  language : List Byte → Option (List Byte)
  /-- `cvm_cond_str` of `emv_cvm_list_get_string_list` in each round -/
  locCvm : Nat → List Byte
  /-- `cvm_cond_str` of `emv_cvm_results_get_string_list` -/
  locRes : List Byte
  /-- the local array of `emv_app_reference_currency_get_string_list` in each round -/
  locCur : Nat → List Byte
  /-- the local array of `emv_language_preference_get_string_list` in each round -/
  locLang : Nat → List Byte
  /-- the local array of the CSU description -/
  locArc : List Byte

/-- Length check by format (emv_strings.c:1271-1297): the error, if any. -/
def lengthError (f : Fmt) (max len : Nat) : Option Int :=
  match f with
  | .a | .an | .ans => if len > max then some (-2) else none
  | .cn | .n => if len > (max + 1) / 2 then some (-3) else none
  | _ => some (-4)

/-- "Empty string on error" (e.g. emv_strings.c:1307-1313). -/
def emptyOnError (r : C (Int × List Byte)) : C (Int × List Byte) := do
  let (c, str) ← r
  if c ≠ 0 then do
    let str ← wr str 0 0
    .ok (c, str)
  else .ok (0, str)

/-- The raw copy of the Application Preferred Name (emv_strings.c:1331-1335). -/
def rawCopy (v str : List Byte) : C (Int × List Byte) := do
  let str ← wrs str 0 v
  let str ← wr str v.length 0
  .ok (0, str)

/-- `switch (format)` (emv_strings.c:1305-1369). -/
def byFormat (tag : Nat) (f : Fmt) (v str : List Byte) : C (Int × List Byte) :=
  match f with
  | .a => emptyOnError (Str.formatA v str)
  | .an => emptyOnError (Str.formatAn v str)
  | .ans =>
    if tag = 0x50 then emptyOnError (Str.formatAnsSpace v str)
    else if tag = 0x9F12 then rawCopy v str
    else emptyOnError (Str.formatAnsCcs v str)
  | .cn => emptyOnError (Str.cnGetString v str)
  | .n => emptyOnError (Str.formatNGetString v str)
  | _ => .ok (-6, str)

/-- `emv_tlv_value_get_string` (emv_strings.c:1261-1370). -/
def valueString (tag : Nat) (f : Fmt) (max : Nat) (v str : List Byte) : C (Int × List Byte) :=
  if str.length = 0 then .ok (0, str)
  else if max ≠ 0 then
    match lengthError f max v.length with
    | some c => .ok (c, str)
    | none => if str.length < max + 1 then .ok (-5, str) else byFormat tag f v str
  else byFormat tag f v str

/-- `EMV_PSE`, `EMV_PPSE` (emv_fields.h:32-33). -/
def pse : List Byte := txt!"1PAY.SYS.DDF01"
def ppse : List Byte := txt!"2PAY.SYS.DDF01"

/-- `tlv->length == strlen(s) && strncmp(tlv->value, s, strlen(s))`: true when the name has the
length of `s` and **differs** from it. -/
def differs (v s : List Byte) : C Bool :=
  if v.length = s.length then do
    let x ← slice v 0 s.length
    .ok (decide (x ≠ s))
  else .ok false

/-- `a || b`. -/
def orC (a : Bool) (b : C Bool) : C Bool := if a then .ok true else b

/-- The copy of the name if it fits (emv_strings.c:251-255). -/
def copyName (v str : List Byte) : C (Int × List Byte) :=
  if str.length > v.length then do
    let str ← wrs str 0 v
    let str ← wr str v.length 0
    .ok (0, str)
  else .ok (0, str)

/-- Tag 84 (emv_strings.c:242-257). -/
def dfNameString (v str : List Byte) : C (Int × List Byte) := do
  let a ← differs v pse
  let b ← orC a (differs v ppse)
  if b then copyName v str else Names.aidString v str

/-- `r || (value_str && value_str_len && !value_str[0])` (emv_strings.c:530, 543). -/
def noName (r : Int) (str : List Byte) : C Bool :=
  if r ≠ 0 then .ok true
  else if str.length = 0 then .ok false
  else do
    let c ← rd str 0
    .ok (c == 0)

/-- Tags 5F55 and 5F56 (emv_strings.c:528-533, 541-546). -/
def countryAlpha (n : Nat) (lookup : List Byte → Option (List Byte)) (v str : List Byte) :
    C (Int × List Byte) := do
  let (r, str) ← Names.byAlpha n lookup v str
  let e ← noName r str
  if e then valueString 0x5F55 .a n v str else .ok (0, str)

/-- A function of `tlv->value[0]`; the value is read even without an output
(e.g. emv_strings.c:398-404). -/
def firstByte (g : Byte → List Byte → C (Int × List Byte)) (v str : List Byte) :
    C (Int × List Byte) := do
  let b ← rd v 0
  g b str

/-- The `return` statement of a case. -/
def Handler.run (env : Env) (tag : Nat) : Handler → List Byte → List Byte → C (Int × List Byte)
  | .none => fun _ str => .ok (0, str)
  | .value f max => valueString tag f max
  | .aid => Names.aidString
  | .track2 => Str.track2GetString
  | .amount => Str.amountGetString
  | .aip => Bits.aipList
  | .dfName => dfNameString
  | .capdu => Capdu.emvGetString
  | .arc => Iad.arcString
  | .cvmList => Lists.cvmList env.locCvm
  | .auth => Iad.authList env.locArc
  | .afl => Lists.aflList
  | .tvr => Bits.tvrList
  | .date => Str.dateGetString
  | .time => Str.timeGetString
  | .tsi => Bits.tsiList
  | .txnType => firstByte Names.txnType
  | .countryNum => Names.byNumber env.countryNum
  | .currency => Lists.currencyString env.currency
  | .language => Lists.languageList env.language env.locLang
  | .country2 => countryAlpha 2 env.country2
  | .country3 => countryAlpha 3 env.country3
  | .account => firstByte Names.account
  | .auc => Bits.aucList
  | .asrpd => Lists.asrpdList
  | .iad => Iad.iadList
  | .mcc => Names.byNumber env.mcc
  | .trmd => Bits.trmdList
  | .cid => firstByte Bits.cidList
  | .termCaps => Bits.termCapsList
  | .cvmResults => Lists.cvmResults env.locRes
  | .termType => firstByte Bits.termTypeList
  | .posEntry => firstByte Names.posEntry
  | .refCurrency => Lists.refCurrencyList env.currency env.locCur
  | .addlCaps => Bits.addlTermCapsList
  | .ctq => Bits.ctqList

/-- `struct emv_tlv_info_t` (emv_strings.h:115-119) without the description. -/
structure Info where
  name : Option (List Byte)
  fmt : Fmt
  deriving DecidableEq, Repr

/-- A result with name and format. -/
def named (name : List Byte) (f : Fmt) (r : C (Int × List Byte)) : C (Int × Info × List Byte) := do
  let (c, str) ← r
  .ok (c, ⟨some name, f⟩, str)

/-- The default case (emv_strings.c:1245-1247). -/
def unnamed (str : List Byte) : C (Int × Info × List Byte) := .ok (1, ⟨none, .b⟩, str)

/-- The condition for a Form Factor Indicator (emv_strings.c:1187-1192; constants emv_fields.h:697,
699, 728), after the length was checked. -/
def isFfi (v : List Byte) : C Bool := do
  let b0 ← rd v 0
  let b2 ← rd v 2
  let b3 ← rd v 3
  .ok (decide (b0 &&& 0xE0 = 0x20) && decide (b2 = 0) && decide (b3 = 0))

/-- The condition for Enhanced Contactless Reader Capabilities (emv_strings.c:1207-1219; constants
emv_fields.h:734-762), after the length was checked. -/
def isEnhCaps (v : List Byte) : C Bool := do
  let b0 ← rd v 0
  let b1 ← rd v 1
  let b2 ← rd v 2
  let b3 ← rd v 3
  .ok (decide (b0 &&& 0x20 = 0) && decide (b0 &&& 0x10 ≠ 0) && decide (b0 &&& 0x08 ≠ 0) &&
    decide (b0 &&& 0x03 = 0) && decide (b1 &&& 0x80 ≠ 0) && decide (b1 &&& 0x0F = 0) &&
    decide (b2 &&& 0x3F = 0) && decide (b3 &&& 0x18 = 0) && decide (b3 &&& 0x07 ≠ 0))

/-- Tag 9F6E with four bytes (emv_strings.c:1187-1236). -/
def fourBytes9F6E (v str : List Byte) : C (Int × Info × List Byte) := do
  let ffi ← isFfi v
  if ffi then named txt!"Form Factor Indicator (FFI)" .b (Bits.ffiList v str)
  else do
    let enh ← isEnhCaps v
    if enh then named txt!"Enhanced Contactless Reader Capabilities" .b (Bits.amexEnhList v str)
    else unnamed str

/-- Tag 9F6E (emv_strings.c:1172-1236). -/
def tag9F6E (env : Env) (v str : List Byte) : C (Int × Info × List Byte) :=
  if v.length > 4 ∧ v.length ≤ 32 then
    named txt!"Third Party Data" .b (ThirdParty.getStringList env.countryNum v str)
  else if v.length = 4 then fourBytes9F6E v str
  else unnamed str

/-- The `switch` (emv_strings.c:108-1248). -/
def byTag (env : Env) (tag : Nat) (v str : List Byte) : C (Int × Info × List Byte) :=
  if tag = 0x9F66 then
    if v.length = 4 then named txt!"Terminal Transaction Qualifiers (TTQ)" .b (Bits.ttqList v str)
    else unnamed str
  else if tag = 0x9F6D then
    if v.length = 1 then
      named txt!"Contactless Reader Capabilities" .b (firstByte Names.readerCaps v str)
    else unnamed str
  else if tag = 0x9F6E then tag9F6E env v str
  else
    match table.find? (fun e => e.tag == tag) with
    | some e => named e.name e.fmt (e.handler.run env tag v str)
    | none => unnamed str

/-- `value_str[0] = 0` (emv_strings.c:104-106). -/
def emptied (str : List Byte) : C (List Byte) := if str.length ≠ 0 then wr str 0 0 else .ok str

/-- `emv_tlv_get_info` (emv_strings.c:90-1249): result, name and format, output. -/
def getInfo (env : Env) (tag : Nat) (v str : List Byte) : C (Int × Info × List Byte) := do
  let str ← emptied str
  byTag env tag v str

end Verif.TlvInfo
