import Verif.Text
import Verif.StrList
import Verif.Fields
import Verif.Capdu

/-!
# Model of the descriptions of repeated structures

`src/emv_strings.c`: CVM List and CVM Results (3196-3558), Application File Locator (2700-2774),
Application Selection Registered Proprietary Data (2562-2628), Application Reference Currency
and Language Preference (3000-3155).  The ISO code tables behind the last two are arbitrary
functions.
-/

set_option autoImplicit false

namespace Verif.Lists
open Verif StrList Fields

/-- The digits written by `%u`, at most `k` of them. -/
def uLoop : Nat → Nat → List Byte → List Byte
  | 0, _, acc => acc
  | k + 1, n, acc =>
    let acc := UInt8.ofNat (0x30 + n % 10) :: acc
    if n < 10 then acc else uLoop k (n / 10) acc

/-- `%u` of a `uint32_t`. -/
def decU (n : Nat) : List Byte := uLoop 10 n []

/-! ## CVM -/

/-- `emv_cvm_code_get_string` (emv_strings.c:3196-3285; constants emv_fields.h:224-243). -/
def cvmCode (cvm : Byte) : List Byte :=
  let c := cvm &&& 0x3F
  if c = 0x00 then txt!"Fail CVM processing"
  else if c = 0x01 then txt!"Plaintext PIN verification performed by ICC"
  else if c = 0x02 then txt!"Enciphered PIN verified online"
  else if c = 0x03 then txt!"Plaintext PIN verification performed by ICC and signature"
  else if c = 0x04 then txt!"Enciphered PIN verification performed by ICC"
  else if c = 0x05 then txt!"Enciphered PIN verification performed by ICC and signature"
  else if c = 0x06 then txt!"Facial biometric verified offline (by ICC)"
  else if c = 0x07 then txt!"Facial biometric verified online"
  else if c = 0x08 then txt!"Finger biometric verified offline (by ICC)"
  else if c = 0x09 then txt!"Finger biometric verified online"
  else if c = 0x0A then txt!"Palm biometric verified offline (by ICC)"
  else if c = 0x0B then txt!"Palm biometric verified online"
  else if c = 0x0C then txt!"Iris biometric verified offline (by ICC)"
  else if c = 0x0D then txt!"Iris biometric verified online"
  else if c = 0x0E then txt!"Voice biometric verified offline (by ICC)"
  else if c = 0x0F then txt!"Voice biometric verified online"
  else if c = 0x1E then txt!"Signature (paper)"
  else if c = 0x1F then txt!"No CVM required"
  else if c = 0x3F then txt!"Invalid CV Rule"
  else txt!"Unknown CVM"

/-- The two formats with an amount (emv_strings.c:3332-3402). -/
def underText (v : Nat) : List Byte :=
  txt!"If transaction is in the application currency and is under " ++ decU v ++ txt!" value"

def overText (v : Nat) : List Byte :=
  txt!"If transaction is in the application currency and is over " ++ decU v ++ txt!" value"

/-- `emv_cvm_cond_code_get_string` (emv_strings.c:3287-3414; constants emv_fields.h:247-256):
`amounts` is `(X, Y)` or NULL; `str` is the output with at least one byte.  A negative result
of `snprintf`, which these formats cannot have, is not modelled, so the result is always 0. -/
def condString (cond : Byte) (amounts : Option (Nat × Nat)) (str : List Byte) : C (List Byte) :=
  if cond = 0x00 then Capdu.strncpyTerm str txt!"Always"
  else if cond = 0x01 then Capdu.strncpyTerm str txt!"If unattended cash"
  else if cond = 0x02 then
    Capdu.strncpyTerm str
      txt!"If not unattended cash and not manual cash and not purchase with cashback"
  else if cond = 0x03 then Capdu.strncpyTerm str txt!"If terminal supports the CVM"
  else if cond = 0x04 then Capdu.strncpyTerm str txt!"If manual cash"
  else if cond = 0x05 then Capdu.strncpyTerm str txt!"If purchase with cashback"
  else if cond = 0x06 then
    match amounts with
    | some (x, _) => Capdu.snprintf str (underText x)
    | none => Capdu.strncpyTerm str
        txt!"If transaction is in the application currency and is under X value"
  else if cond = 0x07 then
    match amounts with
    | some (x, _) => Capdu.snprintf str (overText x)
    | none => Capdu.strncpyTerm str
        txt!"If transaction is in the application currency and is over X value"
  else if cond = 0x08 then
    match amounts with
    | some (_, y) => Capdu.snprintf str (underText y)
    | none => Capdu.strncpyTerm str
        txt!"If transaction is in the application currency and is under Y value"
  else if cond = 0x09 then
    match amounts with
    | some (_, y) => Capdu.snprintf str (overText y)
    | none => Capdu.strncpyTerm str
        txt!"If transaction is in the application currency and is over Y value"
  else Capdu.strncpyTerm str txt!"Unknown condition"

/-- The text of one CV rule (emv_strings.c:3444-3477); `loc` is the previous content of
`cond_str[128]`. -/
def cvmLine (loc : List Byte) (x y : Nat) (r : CvRule) : C (List Byte) := do
  let c ← condString r.cond (some (x, y)) loc
  let c ← Capdu.cstr c
  let proc :=
    if r.cvm &&& 0x40 ≠ 0 then txt!"Apply succeeding CV Rule if this CVM is unsuccessful"
    else txt!"Fail cardholder verification if this CVM is unsuccessful"
  .ok (c ++ txt!"; " ++ cvmCode r.cvm ++ txt!"; " ++ proc)

/-- The loop over the rules (emv_strings.c:3440-3478).  It ends at the end of the list and at an
error alike.  The array is uninitialised in every round: `loc` gives its content for each. -/
def cvmLoop (loc : Nat → List Byte) (x y : Nat) : Nat → List Byte → Itr → C Itr
  | 0, _, _ => .error .nonTerm
  | fuel + 1, itr, it => do
    let (itr', r) ← cvmNext itr
    match r with
    | .eod => .ok it
    | .err _ => .ok it
    | .ok _ e => do
      let s ← cvmLine (loc fuel) x y e
      let it ← emvAdd (some s) it
      cvmLoop loc x y fuel itr' it

/-- `emv_cvm_list_get_string_list` (emv_strings.c:3416-3481). -/
def cvmList (loc : Nat → List Byte) (cvmlist str : List Byte) : C (Int × List Byte) :=
  if cvmlist.length = 0 ∨ str.length = 0 then .ok (-1, str)
  else do
    match ← cvmInit cvmlist with
    | .error c => .ok (c, str)
    | .ok (x, y, itr) => do
      let it ← cvmLoop loc x y (itr.length + 1) itr (init str)
      .ok (0, it.buf)

/-- `switch (cvmresults[2])` (emv_strings.c:3538-3555). -/
def cvmResultText (b : Byte) : List Byte :=
  if b = 0x00 then txt!"CVM Result: Unknown"
  else if b = 0x01 then txt!"CVM Result: Failed"
  else if b = 0x02 then txt!"CVM Result: Successful"
  else txt!"CVM Result: " ++ decU b.toNat

/-- `emv_cvm_results_get_string_list` (emv_strings.c:3483-3558). -/
def cvmResults (loc f str : List Byte) : C (Int × List Byte) :=
  if f.length = 0 then .ok (-1, str)
  else if str.length = 0 then .ok (0, str)
  else if f.length ≠ 3 then .ok (1, str)
  else do
    let b0 ← rd f 0
    let cvm := if b0 = 0x3F then txt!"CVM not performed" else cvmCode b0
    let it ← emvAdd (some (txt!"CVM Performed: " ++ cvm)) (init str)
    let b1 ← rd f 1
    let c ← condString b1 none loc
    let c ← Capdu.cstr c
    let it ← emvAdd (some (txt!"CVM Condition: " ++ c)) it
    let b2 ← rd f 2
    let it ← emvAdd (some (cvmResultText b2)) it
    .ok (0, it.buf)

/-! ## Application File Locator -/

/-- The four formats (emv_strings.c:2727-2764). -/
def aflLine (e : AflEntry) : List Byte :=
  if e.first = e.last then
    if e.oda ≠ 0 then
      txt!"SFI " ++ decU e.sfi.toNat ++ txt!", record " ++ decU e.first.toNat ++ txt!", " ++
        decU e.oda.toNat ++ txt!" record used for offline data authentication"
    else txt!"SFI " ++ decU e.sfi.toNat ++ txt!", record " ++ decU e.first.toNat
  else if e.oda ≠ 0 then
    txt!"SFI " ++ decU e.sfi.toNat ++ txt!", record " ++ decU e.first.toNat ++ txt!" to " ++
      decU e.last.toNat ++ txt!", " ++ decU e.oda.toNat ++ txt!" record" ++
      (if e.oda > 1 then txt!"s" else []) ++ txt!" used for offline data authentication"
  else
    txt!"SFI " ++ decU e.sfi.toNat ++ txt!", record " ++ decU e.first.toNat ++ txt!" to " ++
      decU e.last.toNat

/-- The loop over the entries (emv_strings.c:2725-2765) with its final result. -/
def aflLoop : Nat → List Byte → Itr → C (Int × Itr)
  | 0, _, _ => .error .nonTerm
  | fuel + 1, itr, it => do
    let (itr', r) ← aflNext itr
    match r with
    | .eod => .ok (0, it)
    | .err c => .ok (c, it)
    | .ok _ e => do
      let it ← emvAdd (some (aflLine e)) it
      aflLoop fuel itr' it

/-- `emv_afl_get_string_list` (emv_strings.c:2700-2774). -/
def aflList (afl str : List Byte) : C (Int × List Byte) :=
  if afl.length = 0 ∨ str.length = 0 then .ok (-1, str)
  else if aflInit afl ≠ 0 then .ok (aflInit afl, str)
  else do
    let (c, it) ← aflLoop (afl.length + 1) afl (init str)
    if c < 0 then do
      let buf ← wr it.buf 0 0
      .ok (-c, buf)
    else .ok (0, it.buf)

/-! ## Application Selection Registered Proprietary Data -/

/-- The identifier texts (emv_strings.c:2603-2614; emv_fields.h:168-169). -/
def asrpdText (id : Nat) : List Byte :=
  if id = 0x0001 then txt!"European Cards Stakeholders Group"
  else if id = 0x0003 then txt!"Technical Cooperation ep2 Association"
  else txt!"Unknown ASRPD identifier"

/-- The loop (emv_strings.c:2593-2625); the remaining bytes are the list. -/
def asrpdLoop : Nat → List Byte → Itr → C (Int × Itr)
  | 0, _, _ => .error .nonTerm
  | fuel + 1, a, it =>
    if a.length = 0 then .ok (0, it)
    else if a.length < 3 then .ok (2, it)
    else do
      let a0 ← rd a 0
      let a1 ← rd a 1
      let it ← emvAdd (some (asrpdText (a0.toNat * 256 + a1.toNat))) it
      let a2 ← rd a 2
      let n := 2 + 1 + a2.toNat
      if n > a.length then .ok (3, it)
      else do
        let rest ← suffix a n
        asrpdLoop fuel rest it

/-- `emv_asrpd_get_string_list` (emv_strings.c:2562-2628). -/
def asrpdList (a str : List Byte) : C (Int × List Byte) :=
  if a.length = 0 then .ok (-1, str)
  else if str.length = 0 then .ok (0, str)
  else if a.length < 3 then .ok (1, str)
  else do
    let (c, it) ← asrpdLoop (a.length + 1) a (init str)
    .ok (c, it.buf)

/-! ## Application Reference Currency and Language Preference -/

/-- `strncpy(str, s, str_len - 1); str[str_len - 1] = 0;` (e.g. emv_strings.c:3033-3034). -/
def strncpyTerm1 (str s : List Byte) : C (List Byte) := do
  let n := str.length - 1
  let str ← wrs str 0 (s.take n ++ List.replicate (n - s.length) 0)
  wr str (str.length - 1) 0

/-- The result of a table lookup copied to the output (e.g. emv_strings.c:3025-3036). -/
def copyLookup (o : Option (List Byte)) (str : List Byte) : C (Int × List Byte) :=
  match o with
  | none => do
    let str ← wr str 0 0
    .ok (0, str)
  | some s => do
    let str ← strncpyTerm1 str s
    .ok (0, str)

/-- `emv_currency_numeric_code_get_string` (emv_strings.c:3000-3037). -/
def currencyString (lookup : Nat → Option (List Byte)) (buf str : List Byte) :
    C (Int × List Byte) :=
  if buf.length = 0 then .ok (-1, str)
  else if str.length = 0 then .ok (0, str)
  else if buf.length ≠ 2 then .ok (1, str)
  else do
    let (r, v) ← Formats.formatNToUint buf
    if r ≠ 0 then .ok (r, str) else copyLookup (lookup v) str

/-- `tolower` in the C locale; the argument is an `unsigned char` value. -/
def toLower (b : Byte) : Byte := if 0x41 ≤ b ∧ b ≤ 0x5A then b + 0x20 else b

/-- `emv_language_alpha2_code_get_string` (emv_strings.c:3039-3077).  The table is given the C
string, so up to the first NUL. -/
def languageString (lookup : List Byte → Option (List Byte)) (buf str : List Byte) :
    C (Int × List Byte) :=
  if buf.length = 0 then .ok (-1, str)
  else if str.length = 0 then .ok (0, str)
  else if buf.length ≠ 2 then .ok (1, str)
  else do
    let b0 ← rd buf 0
    let b1 ← rd buf 1
    let key ← Capdu.cstr [toLower b0, toLower b1, 0]
    copyLookup (lookup key) str

/-- The loop over pairs of bytes (emv_strings.c:3100-3115, 3139-3154): `get` fills the local
array, uninitialised in every round, with content `loc i`. -/
def pairLoop (get : List Byte → List Byte → C (Int × List Byte)) (loc : Nat → List Byte)
    (f : List Byte) :
    Nat → Nat → Itr → C (Int × Itr)
  | 0, _, _ => .error .nonTerm
  | fuel + 1, i, it =>
    if ¬ i < f.length then .ok (0, it)
    else do
      let p ← slice f i 2
      let (r, s) ← get p (loc i)
      if r ≠ 0 then .ok (r, it)
      else do
        let c ← rd s 0
        let t ← if c ≠ 0 then Capdu.cstr s else .ok txt!"Unknown"
        let it ← emvAdd (some t) it
        pairLoop get loc f fuel (i + 2) it

/-- The frame of both functions. -/
def pairList (get : List Byte → List Byte → C (Int × List Byte)) (loc : Nat → List Byte)
    (f str : List Byte) : C (Int × List Byte) :=
  if f.length = 0 ∨ str.length = 0 then .ok (-1, str)
  else if f.length % 2 ≠ 0 then .ok (1, str)
  else do
    let (r, it) ← pairLoop get loc f (f.length + 1) 0 (init str)
    .ok (r, it.buf)

/-- `emv_app_reference_currency_get_string_list` (emv_strings.c:3079-3116). -/
def refCurrencyList (lookup : Nat → Option (List Byte)) (loc : Nat → List Byte)
    (f str : List Byte) : C (Int × List Byte) := pairList (currencyString lookup) loc f str

/-- `emv_language_preference_get_string_list` (emv_strings.c:3118-3155). -/
def languageList (lookup : List Byte → Option (List Byte)) (loc : Nat → List Byte)
    (f str : List Byte) : C (Int × List Byte) := pairList (languageString lookup) loc f str

end Verif.Lists
