import Verif.Atr
import Verif.Lists
import Verif.Capdu

/-!
# Model of the ATR descriptions: `iso7816_atr_*_get_string` (src/iso7816.c:736-1186)

The structure described is the `Info` of a successful `iso7816_atr_parse`.  An output is the
list of its previous bytes, of exactly the announced size; the returned `Bool` tells whether the
function returns the output (`true`) or NULL (`false`).  NULL guards are not modelled.  Division
by zero is undefined behaviour like overflow and modelled by `.overflow`.
-/

set_option autoImplicit false

namespace Verif.AtrStr
open Verif Atr Lists

/-- `iso7816_atr_TS_get_string` (iso7816.c:736-747).  Member `TS` is assigned `atr[0]`
(iso7816.c:76), the byte stored at the beginning of the structure. -/
def tsString (info : Info) : C (List Byte) := do
  let ts ← rd info.buf 0
  .ok (if ts = 0x3B then txt!"Direct convention"
    else if ts = 0x3F then txt!"Inverse convention"
    else txt!"Unknown")

/-- Consecutive `r = snprintf(str_ptr, str_len, …); if (r >= str_len) return …; str_ptr += r;
str_len -= r;` as in all functions of this file.  The texts do not depend on the output, so that
they can be listed first.  The result is the sum of the values of `snprintf` up to the end or the
first text that does not fit. -/
def puts : List (List Byte) → List Byte → Nat → C (Nat × List Byte)
  | [], str, pos => .ok (pos, str)
  | s :: r, str, pos => do
    let tail ← suffix str pos
    let tail ← Capdu.snprintf tail s
    let str' := str.take pos ++ tail
    if s.length ≥ str.length - pos then .ok (pos + s.length, str')
    else puts r str' (pos + s.length)

/-- The texts of `iso7816_atr_Yi_write_string` (iso7816.c:749-812) for i of 1 to 4: `add_comma`
is the comma as soon as one of the interface bytes was named.  The `%zu` has one digit. -/
def yiTexts (a b c d : Bool) (i : Nat) : List (List Byte) :=
  let n : List Byte := decU i
  let comma (any : Bool) : List Byte := if any then txt!"," else []
  [txt!"Y" ++ n ++ txt!"="] ++
  (if a then [txt!"TA" ++ n] else []) ++
  (if b then [comma a ++ txt!"TB" ++ n] else []) ++
  (if c then [comma (a || b) ++ txt!"TC" ++ n] else []) ++
  (if d then [comma (a || b || c) ++ txt!"TD" ++ n] else [])

/-- `iso7816_atr_Yi_write_string` (iso7816.c:749-812). -/
def yiWrite (info : Info) (i : Nat) (str : List Byte) : C (Nat × List Byte) :=
  if i < 1 ∨ i > 4 then .ok (0, str)
  else do
    let a ← deref info (·.a) i
    let b ← deref info (·.b) i
    let c ← deref info (·.c) i
    let d ← deref info (·.d) i
    puts (yiTexts a.isSome b.isSome c.isSome d.isSome i) str 0

/-- `iso7816_atr_T0_get_string` (iso7816.c:814-835). -/
def t0String (info : Info) (str : List Byte) : C (Bool × List Byte) := do
  let (r, str) ← yiWrite info 1 str
  if r ≥ str.length then .ok (true, str)
  else do
    let (_, str) ← puts [txt!"; K=" ++ decU info.k] str r
    .ok (true, str)

/-- One `snprintf` to the whole output. -/
def print (text str : List Byte) : C (Bool × List Byte) := do
  let str ← Capdu.snprintf str text
  .ok (true, str)

/-- Text for TA1 (iso7816.c:854-861).  `fmax` is a `float`, one of the constants of
`iso7816_atr_parse_TA1`, which with `%.1f` prints in units and tenths exactly; its product
with 1000000 is a whole number that a `float` represents exactly (the largest is 2·10⁷, all are
multiples of 2⁵ or below 2²⁴). -/
def ta1Text (p : Par) : C (List Byte) :=
  if p.di = 0 then .error .overflow
  else if p.fi / p.di = 0 then .error .overflow
  else .ok (txt!"Fi=" ++ decU p.fi ++ txt!"; Di=" ++ decU p.di ++ txt!"; " ++ decU (p.fi / p.di) ++
    txt!" cycles/ETU @ max " ++ decU (p.fmax10 / 10) ++ txt!"." ++ decU (p.fmax10 % 10) ++
    txt!"MHz; max " ++ decU (p.fmax10 * 100000 / (p.fi / p.di)) ++ txt!" bit/s")

/-- Text for a present TA2 (iso7816.c:869-874). -/
def ta2Text (p : Par) : List Byte :=
  txt!"Specific mode (" ++ (if p.mayChange then txt!"mutable" else txt!"immutable") ++
    txt!"); ETU" ++ (if p.etuImplicit then txt!" is implicit" else txt!"=Fi/Di") ++
    txt!"; protocol T=" ++ decU p.specificProtocol

/-- Clock stop support (iso7816.c:896-902). -/
def clockText (n : Nat) : List Byte :=
  if n = 0 then txt!"Not supported"
  else if n = 1 then txt!"State L"
  else if n = 2 then txt!"State H"
  else if n = 3 then txt!"No preference"
  else []

/-- The texts for the first TA for T=15 (iso7816.c:904-944). -/
def classTexts (p : Par) : List (List Byte) :=
  let a := decide (p.cardClasses &&& 1 ≠ 0)
  let b := decide (p.cardClasses &&& 2 ≠ 0)
  let c := decide (p.cardClasses &&& 4 ≠ 0)
  let comma (any : Bool) : List Byte := if any then txt!", " else []
  [txt!"Clock stop: " ++ clockText p.clockStop ++ txt!"; Class: "] ++
  (if a then [txt!"A (5V)"] else []) ++
  (if b then [comma a ++ txt!"B (3V)"] else []) ++
  (if c then [comma (a || b) ++ txt!"C (1.8V)"] else [])

/-- The protocol of the set numbered `i`, from `*TD[i-1]` (iso7816.c:883-892, 1007-1016,
1085-1094); `none` when the pointer is NULL. -/
def setProtocol (info : Info) (i : Nat) : C (Option Byte) := do
  let d ← deref info (·.d) (i - 1)
  .ok (d.map (· &&& 0x0F))

/-- The part of `iso7816_atr_TAi_get_string` for i of 3 and 4 (iso7816.c:882-956). -/
def taLater (info : Info) (i : Nat) (str : List Byte) : C (Bool × List Byte) := do
  let a ← deref info (·.a) i
  if a.isSome then do
    let t ← setProtocol info i
    match t with
    | none => .ok (false, str)
    | some t =>
      if t = 15 then do
        let (_, str) ← puts (classTexts info.par) str 0
        .ok (true, str)
      else if t = 1 then print (txt!"IFSI=" ++ decU info.par.ifsi) str
      else print txt!"Unimplemented" str
  else print txt!"Unimplemented" str

/-- `iso7816_atr_TAi_get_string` (iso7816.c:837-956). -/
def taString (info : Info) (i : Nat) (str : List Byte) : C (Bool × List Byte) :=
  if i < 1 ∨ i > 4 then .ok (false, str)
  else if i = 1 then do
    let t ← ta1Text info.par
    print t str
  else if i = 2 then do
    let a ← deref info (·.a) 2
    if a.isSome then print (ta2Text info.par) str else print txt!"Negotiable mode" str
  else taLater info i str

/-- Text for the first TB for T=15 (iso7816.c:1020-1032). -/
def spuText : Spu → List Byte
  | .notUsed => txt!"SPU not used"
  | .standard => txt!"Standard usage of SPU"
  | .proprietary => txt!"Proprietary usage of SPU"

/-- The part of `iso7816_atr_TBi_get_string` for i of 3 and 4 (iso7816.c:1006-1050). -/
def tbLater (info : Info) (i : Nat) (str : List Byte) : C (Bool × List Byte) := do
  let b ← deref info (·.b) i
  if b.isSome then do
    let t ← setProtocol info i
    match t with
    | none => .ok (false, str)
    | some t =>
      if t = 15 then print (spuText info.par.spu) str
      else if t = 1 then
        print (txt!"CWT=" ++ decU info.cwt ++ txt!"; BWT=" ++ decU info.bwt) str
      else print txt!"Unimplemented" str
  else print txt!"Unimplemented" str

/-- `iso7816_atr_TBi_get_string` (iso7816.c:958-1050). -/
def tbString (info : Info) (i : Nat) (str : List Byte) : C (Bool × List Byte) :=
  if i < 1 ∨ i > 4 then .ok (false, str)
  else if i = 1 then do
    let b ← deref info (·.b) 1
    if b.isSome ∧ info.par.vppConnected then
      print (txt!"Vpp is connected; Vpp=" ++ decU info.par.vppCourse ++ txt!"mV; Ipp=" ++
        decU info.par.ipp ++ txt!"mA") str
    else print txt!"Vpp is not connected" str
  else if i = 2 then do
    let b1 ← deref info (·.b) 1
    let b2 ← deref info (·.b) 2
    if b1.isSome ∧ b2.isSome ∧ info.par.vppConnected then
      print (txt!"Vpp=" ++ decU info.par.vpp ++ txt!"mV") str
    else print txt!"Vpp is not connected" str
  else tbLater info i str

/-- The part of `iso7816_atr_TCi_get_string` for i of 3 and 4 (iso7816.c:1084-1114). -/
def tcLater (info : Info) (i : Nat) (str : List Byte) : C (Bool × List Byte) := do
  let c ← deref info (·.c) i
  if c.isSome then do
    let t ← setProtocol info i
    match t with
    | none => .ok (false, str)
    | some t =>
      if t = 1 then
        print (if info.par.crc then txt!"Cyclic Redundancy Check (CRC)"
          else txt!"Longitudinal Redundancy Check (LRC)") str
      else print txt!"Unimplemented" str
  else print txt!"Unimplemented" str

/-- `iso7816_atr_TCi_get_string` (iso7816.c:1052-1114). -/
def tcString (info : Info) (i : Nat) (str : List Byte) : C (Bool × List Byte) :=
  if i < 1 ∨ i > 4 then .ok (false, str)
  else if i = 1 then
    print (txt!"N=" ++ decU info.par.n.toNat ++ txt!"; GT=" ++ decU info.gt) str
  else if i = 2 then
    print (txt!"WI=" ++ decU info.par.wi ++ txt!"; WT=" ++ decU info.wt) str
  else tcLater info i str

/-- `iso7816_atr_TDi_get_string` (iso7816.c:1116-1156). -/
def tdString (info : Info) (i : Nat) (str : List Byte) : C (Bool × List Byte) :=
  if i < 1 ∨ i > 4 then .ok (false, str)
  else do
    let d ← deref info (·.d) i
    match d with
    | none => .ok (false, str)
    | some d => do
      let (r, str) ← yiWrite info (i + 1) str
      if r ≥ str.length then .ok (true, str)
      else do
        let t := d &&& 0x0F
        let (_, str) ← puts [if t = 15 then txt!"; Global (T=" ++ decU t.toNat ++ txt!")"
          else txt!"; Protocol T=" ++ decU t.toNat] str r
        .ok (true, str)

/-- `iso7816_atr_T1_get_string` (iso7816.c:1158-1186): `none` for NULL. -/
def t1String (info : Info) : Option (List Byte) :=
  if info.k = 0 then none
  else if info.t1 = 0x00 then some txt!"COMPACT-TLV followed by mandatory status indicator"
  else if info.t1 = 0x10 then some txt!"DIR data reference"
  else if info.t1 = 0x80 then some txt!"COMPACT-TLV including optional status indicator"
  else if info.t1 > 0x80 ∧ info.t1 ≤ 0x8F then some txt!"RFU"
  else some txt!"Proprietary"

end Verif.AtrStr
