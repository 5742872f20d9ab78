import Verif.Base

/-! # Model of AID classification in `src/emv_fields.c` -/

set_option autoImplicit false

namespace Verif.Aid
open Verif

/-- `enum emv_card_scheme_t` (emv_fields.h), names only. -/
inductive Scheme where
  | unknown | visa | mastercard | amex | discover | cb | jcb | dankort | unionpay | gimuemoa
  | dk | verve | eftpos | rupay | mir | meeza
  deriving DecidableEq, Repr

/-- `enum emv_card_product_t` (emv_fields.h), names only. -/
inductive Product where
  | unknown | visaCreditDebit | visaElectron | visaVpay | visaPlus | visaUsaDebit
  | mastercardCreditDebit | mastercardMaestro | mastercardCirrus | mastercardUsaDebit
  | mastercardMaestroUk | mastercardTest | amexCreditDebit | amexChinaCreditDebit
  | discoverCard | discoverUsaDebit | discoverZip | cbCreditDebit | cbDebit
  | dankortVisadankort | dankortJspeedy | unionpayDebit | unionpayCredit | unionpayQuasiCredit
  | unionpayElectronicCash | unionpayUsaDebit | gimuemoaStandard | gimuemoaPrepaidOnline
  | gimuemoaClassic | gimuemoaPrepaidOffline | gimuemoaRetrait | gimuemoaElectronicWallet
  | dkGirocard | eftposSavings | eftposCheque | mirCredit | mirDebit
  deriving DecidableEq, Repr

/-- `memcmp(aid + off, ref, sizeof(ref)) == 0`. -/
def memEq (aid : List Byte) (off : Nat) (ref : List Byte) : C Bool := do
  let s ← slice aid off ref.length
  .ok (s == ref)

/-- `emv_aid_match` (emv_fields.c:107-108). -/
def aidMatch (aid ref : List Byte) : C Bool :=
  if ref.length ≤ aid.length then memEq aid 0 ref else .ok false

/-- `emv_pix_match` (emv_fields.c:110-111). -/
def pixMatch (aid pix : List Byte) : C Bool :=
  if 5 + pix.length ≤ aid.length then memEq aid 5 pix else .ok false

/-- An `if / else if` chain over PIX values; `unknown` (the zeroed product) when none
matches. -/
def pixChain (aid : List Byte) : List (List Byte × Product) → C Product
  | [] => .ok .unknown
  | (pix, p) :: rest => do
    if ← pixMatch aid pix then .ok p else pixChain aid rest

/-- `emv_aid_get_info` (emv_fields.c:113-325; byte tables 28-105): return code, scheme,
product.  One `if` per block of the function, in order.  The JCB block (emv_fields.c:222-225)
sets the scheme without returning, so the remaining tests run and the function ends at
`return -1`. -/
def aidInfo (aid : List Byte) : C (Int × Scheme × Product) :=
  if aid.length = 0 then .ok (-1, .unknown, .unknown)
  else if aid.length < 5 ∨ aid.length > 16 then .ok (1, .unknown, .unknown)
  else do
    if ← aidMatch aid [0xA0, 0x00, 0x00, 0x00, 0x03] then
      let p ← pixChain aid
        [([0x10, 0x10], .visaCreditDebit),
         ([0x20, 0x10], .visaElectron),
         ([0x20, 0x20], .visaVpay),
         ([0x80, 0x10], .visaPlus)]
      return (0, .visa, p)
    if ← aidMatch aid [0xA0, 0x00, 0x00, 0x00, 0x98] then
      return (0, .visa, .visaUsaDebit)
    if ← aidMatch aid [0xA0, 0x00, 0x00, 0x00, 0x04] then
      let p ← pixChain aid
        [([0x10, 0x10], .mastercardCreditDebit),
         ([0x30, 0x60], .mastercardMaestro),
         ([0x60, 0x00], .mastercardCirrus),
         ([0x22, 0x03], .mastercardUsaDebit)]
      return (0, .mastercard, p)
    if ← aidMatch aid [0xA0, 0x00, 0x00, 0x00, 0x05] then
      return (0, .mastercard, .mastercardMaestroUk)
    if ← aidMatch aid [0xB0, 0x12, 0x34, 0x56, 0x78] then
      return (0, .mastercard, .mastercardTest)
    if ← aidMatch aid [0xA0, 0x00, 0x00, 0x00, 0x25] then
      return (0, .amex, .amexCreditDebit)
    if ← aidMatch aid [0xA0, 0x00, 0x00, 0x07, 0x90] then
      return (0, .amex, .amexChinaCreditDebit)
    if ← aidMatch aid [0xA0, 0x00, 0x00, 0x01, 0x52] then
      let p ← pixChain aid
        [([0x30, 0x10], .discoverCard),
         ([0x40, 0x10], .discoverUsaDebit)]
      return (0, .discover, p)
    if ← aidMatch aid [0xA0, 0x00, 0x00, 0x03, 0x24] then
      return (0, .discover, .discoverZip)
    if ← aidMatch aid [0xA0, 0x00, 0x00, 0x00, 0x42] then
      let p ← pixChain aid
        [([0x10, 0x10], .cbCreditDebit),
         ([0x20, 0x10], .cbDebit)]
      return (0, .cb, p)
    let jcb ← aidMatch aid [0xA0, 0x00, 0x00, 0x00, 0x65]
    let s := if jcb then Scheme.jcb else Scheme.unknown
    if ← aidMatch aid [0xA0, 0x00, 0x00, 0x01, 0x21] then
      let p ← pixChain aid
        [([0x47, 0x11], .dankortVisadankort),
         ([0x47, 0x12], .dankortJspeedy)]
      return (0, .dankort, p)
    if ← aidMatch aid [0xA0, 0x00, 0x00, 0x03, 0x33] then
      let p ← pixChain aid
        [([0x01, 0x01, 0x01], .unionpayDebit),
         ([0x01, 0x01, 0x02], .unionpayCredit),
         ([0x01, 0x01, 0x03], .unionpayQuasiCredit),
         ([0x01, 0x01, 0x06], .unionpayElectronicCash),
         ([0x01, 0x01, 0x08], .unionpayUsaDebit)]
      return (0, .unionpay, p)
    if ← aidMatch aid [0xA0, 0x00, 0x00, 0x03, 0x37] then
      let p ← pixChain aid
        [([0x10, 0x10, 0x00], .gimuemoaStandard),
         ([0x10, 0x10, 0x01], .gimuemoaPrepaidOnline),
         ([0x10, 0x20, 0x00], .gimuemoaClassic),
         ([0x10, 0x20, 0x01], .gimuemoaPrepaidOffline),
         ([0x30, 0x10, 0x00], .gimuemoaRetrait),
         ([0x60, 0x10, 0x01], .gimuemoaElectronicWallet)]
      return (0, .gimuemoa, p)
    if ← aidMatch aid [0xA0, 0x00, 0x00, 0x03, 0x59, 0x10, 0x10, 0x02, 0x80, 0x01] then
      return (0, .dk, .dkGirocard)
    if ← aidMatch aid [0xA0, 0x00, 0x00, 0x03, 0x71] then
      return (0, .verve, .unknown)
    if ← aidMatch aid [0xA0, 0x00, 0x00, 0x03, 0x84] then
      let p ← pixChain aid
        [([0x10], .eftposSavings),
         ([0x20], .eftposCheque)]
      return (0, .eftpos, p)
    if ← aidMatch aid [0xA0, 0x00, 0x00, 0x05, 0x24] then
      return (0, .rupay, .unknown)
    if ← aidMatch aid [0xA0, 0x00, 0x00, 0x06, 0x58] then
      let p ← pixChain aid
        [([0x10, 0x10], .mirCredit),
         ([0x20, 0x10], .mirDebit)]
      return (0, .mir, p)
    if ← aidMatch aid [0xA0, 0x00, 0x00, 0x07, 0x32] then
      return (0, .meeza, .unknown)
    return (-1, s, .unknown)

end Verif.Aid
