import Verif.Print
import Verif.PrintCard
import Verif.Iso8859
import Verif.Names
import Verif.Hex

/-!
# Model of `main` of `tools/emv-decode.c`

The command line has been parsed (for the argument see `Hex`).  The tables of countries, currencies
and languages are those of `Codes` after one initialisation.  The text of the help is a parameter.
-/

set_option autoImplicit false

namespace Verif.Decode
open Verif

/-- `enum emv_decode_mode_t` (emv-decode.c:48-96), the modes that reach `main`; `iso8859 n` is
`EMV_DECODE_ISO8859_n` for 1 to 15. -/
inductive Mode where
  | none | atr | sw1sw2 | ber | tlv | dol | tagList | mcc | termType | termCaps | addlTermCaps
  | cvmList | cvmResults | tvr | tsi | iad | ttq | ctq | amexClReaderCaps | thirdParty | ffi
  | amexEnh | trmd | iso3166 | iso4217 | iso639 | iso8859 (n : Nat)

/-- The lookup functions: those of `TlvInfo.Env` and the remaining two. -/
structure Tables where
  env : TlvInfo.Env
  currency3 : List Byte → Option (List Byte)
  language3 : List Byte → Option (List Byte)

/-- The contents of the local arrays: `char str[1024]` and `char str[2048]` of `main`, and those of
the functions called. -/
structure Locals where
  str1 : List Byte
  str2 : List Byte
  ber : List Byte
  sw : List Byte
  atr : List Byte
  hist : List Byte
  emv : Nat → List Byte → List Byte

/-- What is written to standard output and to standard error. -/
structure Shown where
  out : List Byte
  err : List Byte
  deriving DecidableEq

/-- `fprintf(stderr, "...\n"); break;`. -/
def complain (s : List Byte) : C Shown := .ok ⟨[], s ++ [0x0A]⟩

/-- The pattern of the cases for fields (e.g. emv-decode.c:517-532): the length is checked, the
field described, and the description printed. -/
def field (ok : Bool) (bad fail : List Byte) (get : C (Int × List Byte)) (tail : List Byte) :
    C Shown :=
  if ok then do
    let (r, str) ← get
    if r ≠ 0 then complain fail
    else do
      let s ← Capdu.cstr str
      .ok ⟨s ++ tail, []⟩
  else complain bad

/-- `data[0]` of data of length 1. -/
def firstByte (f : Byte → C (Int × List Byte)) (data : List Byte) : C (Int × List Byte) := do
  let b ← rd data 0
  f b

/-- `case EMV_DECODE_ATR` (emv-decode.c:442-462). -/
def atr (loc : Locals) (data : List Byte) : C Shown :=
  if data.length < 2 then complain txt!"ATR may not have less than 4 digits (thus 2 bytes)"
  else if data.length > 33 then complain txt!"ATR may not have more than 66 digits (thus 33 bytes)"
  else do
    let r ← Atr.parse data
    match r with
    | .error _ => complain txt!"Failed to parse ATR"
    | .ok info => do
      let s ← PrintCard.atr loc.atr loc.hist info
      .ok ⟨s, []⟩

/-- `case EMV_DECODE_SW1SW2` (emv-decode.c:464-472). -/
def sw1sw2 (loc : Locals) (data : List Byte) : C Shown :=
  if data.length ≠ 2 then complain txt!"SW1SW2 must consist of 4 hex digits"
  else do
    let a ← rd data 0
    let b ← rd data 1
    let s ← PrintCard.sw1sw2 loc.sw a b
    .ok ⟨s, []⟩

/-- `case EMV_DECODE_MCC` (emv-decode.c:494-515). -/
def mcc (t : Tables) (loc : Locals) (data : List Byte) : C Shown :=
  if data.length ≠ 2 then complain txt!"Merchant Category Code (MCC) must be 4-digit numeric code"
  else do
    let (r, str) ← Names.byNumber t.env.mcc data loc.str1
    if r ≠ 0 then complain txt!"Failed to parse Merchant Category Code (MCC)"
    else do
      let c ← rd str 0
      if c = 0 then complain txt!"Unknown"
      else do
        let s ← Capdu.cstr str
        .ok ⟨s ++ [0x0A], []⟩

/-- The digits `strtoul` reads from here on: their value, added to `acc`, and the rest. -/
def digits : List Byte → Nat → Nat × List Byte
  | [], acc => (acc, [])
  | c :: s, acc =>
    if 0x30 ≤ c ∧ c ≤ 0x39 then digits s (acc * 10 + (c.toNat - 0x30)) else (acc, c :: s)

/-- `strtoul(s, &endptr, 10)` converted to `unsigned int` (C11 7.22.1.4), and `endptr`; the values
that do not fit in `unsigned long` are not reached, as the text has at most three characters. -/
def strtoul (s : List Byte) : Nat × List Byte :=
  let t := s.dropWhile Hex.isSpace
  let (neg, u) :=
    match t with
    | 0x2D :: u => (true, u)
    | 0x2B :: u => (false, u)
    | u => (false, u)
  match u with
  | [] => (0, s)
  | c :: _ =>
    if 0x30 ≤ c ∧ c ≤ 0x39 then
      let (n, rest) := digits u 0
      ((if neg then 2 ^ 64 - n else n) % 2 ^ 32, rest)
    else (0, s)

/-- A lookup by letters, and by number when there is no such code (e.g. emv-decode.c:795-809). -/
def byCode (letters : Option (List Byte)) (number : Nat → Option (List Byte)) (arg invalid : List Byte) :
    C Shown :=
  match letters with
  | some s => .ok ⟨s ++ [0x0A], []⟩
  | none =>
    let (n, rest) := strtoul arg
    if arg = [] ∨ rest ≠ [] then complain invalid
    else
      match number n with
      | some s => .ok ⟨s ++ [0x0A], []⟩
      | none => complain txt!"Unknown"

/-- `case EMV_DECODE_ISO3166_1` (emv-decode.c:782-816). -/
def iso3166 (t : Tables) (arg : List Byte) : C Shown :=
  if arg.length ≠ 2 ∧ arg.length ≠ 3 then
    complain txt!"ISO 3166-1 country code must be alpha-2, alpha-3 or 3-digit numeric code"
  else
    byCode (if arg.length = 2 then t.env.country2 arg else t.env.country3 arg) t.env.countryNum arg
      txt!"Invalid ISO 3166-1 country code"

/-- `case EMV_DECODE_ISO4217` (emv-decode.c:818-848). -/
def iso4217 (t : Tables) (arg : List Byte) : C Shown :=
  if arg.length ≠ 3 then
    complain txt!"ISO 4217 currency code must be alpha-3 or 3-digit numeric code"
  else byCode (t.currency3 arg) t.env.currency arg txt!"Invalid ISO 4217 currency code"

/-- `case EMV_DECODE_ISO639` (emv-decode.c:850-871). -/
def iso639 (t : Tables) (arg : List Byte) : C Shown :=
  if arg.length ≠ 2 ∧ arg.length ≠ 3 then
    complain txt!"ISO 639 currency code must be alpha-2 or alpha-3 code"
  else
    match if arg.length = 2 then t.env.language arg else t.language3 arg with
    | some s => .ok ⟨s ++ [0x0A], []⟩
    | none => complain txt!"Unknown"

/-- `case EMV_DECODE_ISO8859_1` and the others (emv-decode.c:873-906). -/
def iso8859 (n : Nat) (data : List Byte) : C Shown :=
  if !Iso8859.isSupported n then complain (txt!"ISO8859-" ++ Lists.decU n ++ txt!" not supported")
  else do
    let (r, utf8) ← Iso8859.toUtf8 n data (List.replicate 2048 0)
    let c ← rd utf8 0
    if r ≠ 0 ∧ c ≠ 0 then complain (txt!"iso8859_to_utf8() failed; r=" ++ Print.decI r)
    else do
      let s ← Capdu.cstr utf8
      .ok ⟨s ++ [0x0A], []⟩

/-- The `switch` of `main` (emv-decode.c:435-915).  `arg` is the argument of the three modes that
take it as it is, `data` that of the others. -/
def decode (t : Tables) (loc : Locals) (help : List Byte) (ignorePadding : Bool) (arg data : List Byte) :
    Mode → C Shown
  | .none => .ok ⟨help, []⟩
  | .atr => atr loc data
  | .sw1sw2 => sw1sw2 loc data
  | .ber => do
    let s ← Print.berBuf loc.ber txt!"  " ignorePadding 0 data
    .ok ⟨s, []⟩
  | .tlv => do
    let s ← Print.emvBuf t.env loc.emv txt!"  " ignorePadding 0 data
    .ok ⟨s, []⟩
  | .dol => do
    let s ← Print.dol txt!"  " 0 data
    .ok ⟨s, []⟩
  | .tagList => do
    let s ← Print.tagList txt!"  " 0 data
    .ok ⟨s, []⟩
  | .mcc => mcc t loc data
  | .termType =>
    field (data.length == 1) txt!"EMV Terminal Type (field 9F35) must be exactly 1 byte"
      txt!"Failed to parse EMV Terminal Type (field 9F35)"
      (firstByte (fun b => Bits.termTypeList b loc.str1) data) []
  | .termCaps =>
    field (data.length == 3) txt!"EMV Terminal Capabilities (field 9F33) must be exactly 3 bytes"
      txt!"Failed to parse EMV Terminal Capabilities (field 9F33)"
      (Bits.termCapsList data loc.str1) []
  | .addlTermCaps =>
    field (data.length == 5)
      txt!"EMV Additional Terminal Capabilities (field 9F40) must be exactly 5 bytes"
      txt!"Failed to parse EMV Additional Terminal Capabilities (field 9F40)"
      (Bits.addlTermCapsList data loc.str1) []
  | .cvmList =>
    field true []
      txt!"Failed to parse EMV Cardholder Verification Method (CVM) List (field 8E)"
      (Lists.cvmList t.env.locCvm data loc.str2) []
  | .cvmResults =>
    field (data.length == 3)
      txt!"EMV Cardholder Verification Method (CVM) Results (field 9F34) must be exactly 3 bytes"
      txt!"Failed to parse EMV Cardholder Verification Method (CVM) Results (field 9F34)"
      (Lists.cvmResults t.env.locRes data loc.str1) []
  | .tvr =>
    field (data.length == 5) txt!"EMV Terminal Verification Results (field 95) must be exactly 5 bytes"
      txt!"Failed to parse EMV Terminal Verification Results (field 95)"
      (Bits.tvrList data loc.str2) []
  | .tsi =>
    field (data.length == 2) txt!"EMV Transaction Status Information (field 9B) must be exactly 2 bytes"
      txt!"Failed to parse EMV Transaction Status Information (field 9B)"
      (Bits.tsiList data loc.str2) []
  | .iad =>
    field (data.length ≤ 32) txt!"EMV Issuer Application Data (field 9F10) may be up to 32 bytes"
      txt!"Failed to parse EMV Issuer Application Data (field 9F10)"
      (Iad.iadList data loc.str2) []
  | .ttq =>
    field (data.length == 4)
      txt!"EMV Terminal Transaction Qualifiers (field 9F66) must be exactly 4 bytes"
      txt!"Failed to parse EMV Terminal Transaction Qualifiers (field 9F66)"
      (Bits.ttqList data loc.str2) []
  | .ctq =>
    field (data.length == 2) txt!"EMV Card Transaction Qualifiers (field 9F6C) must be exactly 2 bytes"
      txt!"Failed to parse EMV Card Transaction Qualifiers (field 9F6C)"
      (Bits.ctqList data loc.str2) []
  | .amexClReaderCaps =>
    field (data.length == 1)
      txt!"Amex Contactless Reader Capabilities (field 9F6D) must be exactly 1 byte"
      txt!"Failed to parse Amex Contactless Reader Capabilities (field 9F6D)"
      (firstByte (fun b => Names.readerCaps b loc.str1) data) [0x0A]
  | .thirdParty =>
    field (5 ≤ data.length && data.length ≤ 32)
      txt!"Mastercard Third Party Data (field 9F6E) must be 5 to 32 bytes"
      txt!"Failed to parse Mastercard Third Party Data (field 9F6E)"
      (ThirdParty.getStringList t.env.countryNum data loc.str2) []
  | .ffi =>
    field (data.length == 4) txt!"Visa Form Factor Indicator (field 9F6E) must be exactly 4 bytes"
      txt!"Failed to parse Visa Form Factor Indicator (field 9F6E)"
      (Bits.ffiList data loc.str2) []
  | .amexEnh =>
    field (data.length == 4)
      txt!"Amex Enhanced Contactless Reader Capabilities (field 9F6E) must be exactly 4 bytes"
      txt!"Failed to parse Amex Enhanced Contactless Reader Capabilities (field 9F6E)"
      (Bits.amexEnhList data loc.str2) []
  | .trmd =>
    field (data.length == 8) txt!"Terminal Risk Management Data (field 9F1D) must be exactly 8 bytes"
      txt!"Failed to parse Terminal Risk Management Data (field 9F1D)"
      (Bits.trmdList data loc.str2) []
  | .iso3166 => iso3166 t arg
  | .iso4217 => iso4217 t arg
  | .iso639 => iso639 t arg
  | .iso8859 n => iso8859 n data

/-- `main` after the command line (emv-decode.c:426-931): the exit status and what is shown.  `r` is
the result of `emv_strings_init`. -/
def main (r : Int) (t : Tables) (loc : Locals) (help : List Byte) (ignorePadding : Bool)
    (arg data : List Byte) (m : Mode) : C (Nat × Shown) :=
  if r < 0 then .ok (2, ⟨[], txt!"Failed to initialise EMV strings" ++ [0x0A]⟩)
  else do
    let s ← decode t loc help ignorePadding arg data m
    .ok (0, ⟨s.out,
      (if r > 0 then txt!"Failed to load iso-codes data or mcc-codes data; currency, country, language or MCC lookups may not be possible" ++ [0x0A] else []) ++ s.err⟩)

end Verif.Decode
