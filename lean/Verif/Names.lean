import Verif.Aid
import Verif.Lists

/-!
# Model of the descriptions of single codes

Transaction type, account type, POS entry mode, contactless reader capabilities, merchant
category code, country codes and application identifiers (src/emv_strings.c).

The lookups in the external ISO code and merchant category tables (isocodes_lookup.cpp,
mcc_lookup.cpp) are arbitrary functions.
-/

set_option autoImplicit false

namespace Verif.Names
open Verif Lists

/-- The enumerations: `str` absent, known code copied with `strncpy(str, s, str_len);
str[str_len - 1] = 0;`, or `default: return 1` (emv_strings.c:1914-1951, 2222-2299, 3163-3193). -/
def byCode (text : Byte → Option (List Byte)) (code : Byte) (str : List Byte) :
    C (Int × List Byte) :=
  if str.length = 0 then .ok (0, str)
  else
    match text code with
    | some s => do
      let str ← Capdu.strncpyTerm str s
      .ok (0, str)
    | none => .ok (1, str)

/-- The cases of `emv_transaction_type_get_string` (emv_strings.c:1923-1948; constants
emv_fields.h:49-53). -/
def txnTypeText (b : Byte) : Option (List Byte) :=
  if b = 0x00 then some txt!"Goods and services"
  else if b = 0x01 then some txt!"Cash"
  else if b = 0x09 then some txt!"Cashback"
  else if b = 0x20 then some txt!"Refund"
  else if b = 0x30 then some txt!"Inquiry"
  else none

/-- `emv_transaction_type_get_string` (emv_strings.c:1908-1952). -/
def txnType (b : Byte) (str : List Byte) : C (Int × List Byte) := byCode txnTypeText b str

/-- The cases of `emv_pos_entry_mode_get_string` (emv_strings.c:2231-2294; constants
emv_fields.h:104-116). -/
def posEntryText (b : Byte) : Option (List Byte) :=
  if b = 0x00 then some txt!"Unknown"
  else if b = 0x01 then some txt!"Manual PAN entry"
  else if b = 0x02 then some txt!"Magnetic stripe"
  else if b = 0x03 then some txt!"Optical Code"
  else if b = 0x04 then some txt!"OCR"
  else if b = 0x05 then some txt!"Integrated circuit card (ICC). CVV can be checked."
  else if b = 0x07 then some txt!"Auto entry via contactless EMV"
  else if b = 0x10 then some txt!"Merchant has Cardholder Credentials on File"
  else if b = 0x80 then
    some txt!"Fallback from integrated circuit card (ICC) to magnetic stripe"
  else if b = 0x90 then some txt!"Magnetic stripe as read from track 2. CVV can be checked."
  else if b = 0x91 then some txt!"Auto entry via contactless magnetic stripe"
  else if b = 0x95 then some txt!"Integrated circuit card (ICC). CVV may not be checked."
  else if b = 0x99 then some txt!"Same as original transaction"
  else none

/-- `emv_pos_entry_mode_get_string` (emv_strings.c:2216-2300). -/
def posEntry (b : Byte) (str : List Byte) : C (Int × List Byte) := byCode posEntryText b str

/-- The cases of `emv_account_type_get_string` (emv_strings.c:3170-3189; constants
emv_fields.h:216-219). -/
def accountText (b : Byte) : Option (List Byte) :=
  if b = 0x00 then some txt!"Default"
  else if b = 0x10 then some txt!"Savings"
  else if b = 0x20 then some txt!"Cheque/Debit"
  else if b = 0x30 then some txt!"Credit"
  else none

/-- `emv_account_type_get_string` (emv_strings.c:3157-3194). -/
def account (b : Byte) (str : List Byte) : C (Int × List Byte) := byCode accountText b str

/-- The cases of `emv_amex_cl_reader_caps_get_string` (emv_strings.c:5051-5085; constants
emv_fields.h:686-692). -/
def readerCapsText (b : Byte) : List Byte :=
  let m := b &&& 0xC8
  if m = 0x00 then txt!"Deprecated"
  else if m = 0x40 then txt!"Mag-stripe CVM Not Required"
  else if m = 0x48 then txt!"Mag-stripe CVM Required"
  else if m = 0x80 then txt!"Deprecated - EMV and Mag-stripe"
  else if m = 0xC0 then txt!"EMV and Mag-stripe CVM Not Required"
  else if m = 0xC8 then txt!"EMV and Mag-stripe CVM Required"
  else txt!"Not Available for Use"

/-- `emv_amex_cl_reader_caps_get_string` (emv_strings.c:5038-5087). -/
def readerCaps (b : Byte) (str : List Byte) : C (Int × List Byte) :=
  if str.length = 0 then .ok (0, str)
  else do
    let str ← strncpyTerm1 str (readerCapsText b)
    .ok (0, str)

/-- `emv_mcc_get_string` (emv_strings.c:1954-1996) and `emv_country_numeric_code_get_string`
(emv_strings.c:2962-2998), which have the same body except for the lookup. -/
def byNumber (lookup : Nat → Option (List Byte)) (buf str : List Byte) : C (Int × List Byte) :=
  if buf.length = 0 then .ok (-1, str)
  else if str.length = 0 then .ok (0, str)
  else if buf.length ≠ 2 then .ok (1, str)
  else do
    let (r, v) ← Formats.formatNToUint buf
    if r ≠ 0 then .ok (r, str) else copyLookup (lookup v) str

/-- `emv_country_alpha2_code_get_string` (emv_strings.c:2888-2923) for `n = 2`,
`emv_country_alpha3_code_get_string` (emv_strings.c:2925-2960) for `n = 3`.  The lookup is given
the C string, so up to the first NUL. -/
def byAlpha (n : Nat) (lookup : List Byte → Option (List Byte)) (buf str : List Byte) :
    C (Int × List Byte) :=
  if buf.length = 0 then .ok (-1, str)
  else if str.length = 0 then .ok (0, str)
  else if buf.length ≠ n then .ok (1, str)
  else do
    let code ← slice buf 0 n
    let key ← Capdu.cstr (code ++ [0])
    copyLookup (lookup key) str

/-- The product cases of `emv_aid_get_string` (emv_strings.c:2469-2529). -/
def productText : Aid.Product → Option (List Byte)
  | .visaCreditDebit => some txt!"Visa Credit/Debit"
  | .visaElectron => some txt!"Visa Electron"
  | .visaVpay => some txt!"V Pay"
  | .visaPlus => some txt!"Visa Plus"
  | .visaUsaDebit => some txt!"Visa USA Debit"
  | .mastercardCreditDebit => some txt!"Mastercard Credit/Debit"
  | .mastercardMaestro => some txt!"Maestro"
  | .mastercardCirrus => some txt!"Mastercard Cirrus"
  | .mastercardUsaDebit => some txt!"Mastercard USA Debit"
  | .mastercardMaestroUk => some txt!"Maestro UK"
  | .mastercardTest => some txt!"Mastercard Test Card"
  | .amexCreditDebit => some txt!"American Express Credit/Debit"
  | .amexChinaCreditDebit => some txt!"American Express (China Credit/Debit)"
  | .discoverCard => some txt!"Discover Card"
  | .discoverUsaDebit => some txt!"Discover USA Debit"
  | .discoverZip => some txt!"Discover ZIP"
  | .cbCreditDebit => some txt!"Cartes Bancaires (CB) Credit/Debit"
  | .cbDebit => some txt!"Cartes Bancaires (CB) Debit"
  | .dankortVisadankort => some txt!"Visa/Dankort"
  | .dankortJspeedy => some txt!"Dankort (J/Speedy)"
  | .unionpayDebit => some txt!"UnionPay Debit"
  | .unionpayCredit => some txt!"UnionPay Credit"
  | .unionpayQuasiCredit => some txt!"UnionPay Quasi-credit"
  | .unionpayElectronicCash => some txt!"UnionPay Electronic Cash"
  | .unionpayUsaDebit => some txt!"UnionPay USA Debit"
  | .gimuemoaStandard => some txt!"GIM-UEMOA Standard"
  | .gimuemoaPrepaidOnline => some txt!"GIM-UEMOA Prepaye Online"
  | .gimuemoaClassic => some txt!"GIM-UEMOA Classic"
  | .gimuemoaPrepaidOffline => some txt!"GIM-UEMOA Prepaye Possibile Offline"
  | .gimuemoaRetrait => some txt!"GIM-UEMOA Retrait"
  | .gimuemoaElectronicWallet => some txt!"GIM-UEMOA Porte Monnaie Electronique"
  | .dkGirocard => some txt!"Deutsche Kreditwirtschaft (DK) Girocard"
  | .eftposSavings => some txt!"eftpos (Australia) savings"
  | .eftposCheque => some txt!"eftpos (Australia) cheque"
  | .mirCredit => some txt!"Mir Credit"
  | .mirDebit => some txt!"Mir Debit"
  | .unknown => none

/-- The scheme cases of `emv_aid_get_string` (emv_strings.c:2531-2550). -/
def schemeText : Aid.Scheme → Option (List Byte)
  | .visa => some txt!"Visa"
  | .mastercard => some txt!"Mastercard"
  | .amex => some txt!"American Express"
  | .discover => some txt!"Discover"
  | .cb => some txt!"Cartes Bancaires (CB)"
  | .jcb => some txt!"JCB"
  | .dankort => some txt!"Dankort"
  | .unionpay => some txt!"UnionPay"
  | .gimuemoa => some txt!"GIM-UEMOA"
  | .dk => some txt!"Deutsche Kreditwirtschaft (DK)"
  | .verve => some txt!"Verve"
  | .eftpos => some txt!"eftpos (Australia)"
  | .rupay => some txt!"RuPay"
  | .mir => some txt!"Mir"
  | .meeza => some txt!"Meeza"
  | .unknown => none

/-- The text, if any (emv_strings.c:2469-2555). -/
def aidText (s : Aid.Scheme) (p : Aid.Product) : Option (List Byte) :=
  match productText p with
  | some t => some t
  | none => schemeText s

/-- `emv_aid_get_string` (emv_strings.c:2439-2560). -/
def aidString (aid str : List Byte) : C (Int × List Byte) :=
  if aid.length = 0 then .ok (-1, str)
  else if str.length = 0 then .ok (0, str)
  else if aid.length < 5 ∨ aid.length > 16 then .ok (1, str)
  else do
    let (r, s, p) ← Aid.aidInfo aid
    if r ≠ 0 then .ok (r, str)
    else
      match aidText s p with
      | some t => do
        let str ← strncpyTerm1 str t
        .ok (0, str)
      | none => .ok (1, str)

end Verif.Names
