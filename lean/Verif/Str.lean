import Verif.Formats
import Verif.App

/-!
# Model of the value conversions in `src/emv_strings.c` (1372-1906, 2843-2887)

Conversions between field values and C strings.  An output string is given by its previous
contents, a list of exactly `str_len` bytes, and an input C string by the object containing
it; `str`, `buf` and `track2` are not NULL (the NULL guards share their return codes with the
zero length guards).  Loop counters of type `unsigned int` are modelled as naturals: they
agree for fields of less than 2^32 bytes.
-/

set_option autoImplicit false

namespace Verif.Str
open Verif

/-! ## Formats a, an and ans -/

/-- Condition of emv_strings.c:1386-1387: A-Z or a-z. -/
def okA (b : Byte) : Bool := (b ≥ 0x41 && b ≤ 0x5A) || (b ≥ 0x61 && b ≤ 0x7A)

/-- Condition of emv_strings.c:1422-1424: 0-9, A-Z or a-z. -/
def okAn (b : Byte) : Bool :=
  (b ≥ 0x30 && b ≤ 0x39) || (b ≥ 0x41 && b ≤ 0x5A) || (b ≥ 0x61 && b ≤ 0x7A)

/-- Condition of emv_strings.c:1460-1463: 0-9, A-Z, a-z or space. -/
def okAnSpace (b : Byte) : Bool :=
  (b ≥ 0x30 && b ≤ 0x39) || (b ≥ 0x41 && b ≤ 0x5A) || (b ≥ 0x61 && b ≤ 0x7A) || b == 0x20

/-- Condition of emv_strings.c:1498: common character set. -/
def okCcs (b : Byte) : Bool := b ≥ 0x20 && b ≤ 0x7F

/-- The `while (buf_len)` loop of the four functions (emv_strings.c:1383-1401, 1419-1438,
1456-1477, 1495-1514) and the NUL termination.  First argument: the remaining input; `pos`
is how far `str` has been advanced. -/
def copyLoop (ok : Byte → Bool) : List Byte → List Byte → Nat → C (Int × List Byte)
  | [], str, pos => do
    let str ← wr str pos 0
    .ok (0, str)
  | b :: buf, str, pos =>
    if ok b then do
      let str ← wr str pos b
      copyLoop ok buf str (pos + 1)
    else .ok (1, str)

/-- Guards (emv_strings.c:1374-1381 etc.) and loop. -/
def copyStr (ok : Byte → Bool) (buf str : List Byte) : C (Int × List Byte) :=
  if buf.length = 0 ∨ str.length = 0 then .ok (-1, str)
  else if str.length < buf.length + 1 then .ok (-2, str)
  else copyLoop ok buf str 0

/-- `emv_format_a_get_string` (emv_strings.c:1372-1406). -/
def formatA (buf str : List Byte) : C (Int × List Byte) := copyStr okA buf str

/-- `emv_format_an_get_string` (emv_strings.c:1408-1443). -/
def formatAn (buf str : List Byte) : C (Int × List Byte) := copyStr okAn buf str

/-- `emv_format_ans_only_space_get_string` (emv_strings.c:1445-1482). -/
def formatAnsSpace (buf str : List Byte) : C (Int × List Byte) := copyStr okAnSpace buf str

/-- `emv_format_ans_ccs_get_string` (emv_strings.c:1484-1519). -/
def formatAnsCcs (buf str : List Byte) : C (Int × List Byte) := copyStr okCcs buf str

/-! ## Compressed numeric and track 2 -/

/-- The loop of `emv_format_cn_get_string` (emv_strings.c:1533-1564) with `bad d` meaning
`digit > 9 && digit != 0xF`, and that of `emv_track2_equivalent_data_get_string`
(emv_strings.c:2863-2884), which has no invalid digits.  Nibble F ends the string. -/
def nibLoop (bad : Byte → Bool) (buf : List Byte) : Nat → Nat → List Byte → C (Int × List Byte)
  | 0, _, _ => .error .nonTerm
  | fuel + 1, i, str =>
    if ¬ i < buf.length then do
      let str ← wr str (buf.length * 2) 0
      .ok (0, str)
    else do
      let b ← rd buf i
      let digit := b >>> 4
      if bad digit then .ok (1, str)
      else if digit = 0xF then do
        let str ← wr str (i * 2) 0
        .ok (0, str)
      else do
        let str ← wr str (i * 2) (0x30 + digit)
        let digit := b &&& 0xF
        if bad digit then .ok (1, str)
        else if digit = 0xF then do
          let str ← wr str (i * 2 + 1) 0
          .ok (0, str)
        else do
          let str ← wr str (i * 2 + 1) (0x30 + digit)
          nibLoop bad buf fuel (i + 1) str

/-- Digits refused by `emv_format_cn_get_string` (emv_strings.c:1538-1542, 1552-1556). -/
def badCn (d : Byte) : Bool := d > 9 && d != 0xF

/-- `emv_format_cn_get_string` (emv_strings.c:1521-1567). -/
def cnGetString (buf str : List Byte) : C (Int × List Byte) :=
  if buf.length = 0 ∨ str.length = 0 then .ok (-1, str)
  else if str.length < buf.length * 2 + 1 then .ok (-2, str)
  else nibLoop badCn buf (buf.length + 1) 0 str

/-- `emv_track2_equivalent_data_get_string` (emv_strings.c:2843-2887): no check of `str_len`
against the length of the field. -/
def track2GetString (track2 str : List Byte) : C (Int × List Byte) :=
  if track2.length = 0 then .ok (-1, str)
  else if str.length = 0 then .ok (0, str)
  else nibLoop (fun _ => false) track2 (track2.length + 1) 0 str

/-! ## Numbers -/

/-- The `while (divider)` loop of `emv_uint_to_str` (emv_strings.c:1599-1622) and the NUL
termination (1624).  `pos` is how far `str` has been advanced, so the C variable `str_len` is
`str.length - pos`.  `digit` is below 10 and so fits its `uint8_t`. -/
def uintLoop : Nat → Nat → Nat → Bool → List Byte → Nat → C (Int × List Byte)
  | 0, _, _, _, _, _ => .error .nonTerm
  | fuel + 1, value, divider, found, str, pos =>
    if divider = 0 then do
      let str ← wr str pos 0
      .ok (0, str)
    else do
      let digit := value / divider
      let emit := decide (digit ≠ 0) || found
      let str ← if emit then wr str pos (0x30 + UInt8.ofNat digit) else .ok str
      let pos := if emit then pos + 1 else pos
      if str.length - pos = 0 then do
        let str ← wr str pos 0
        .ok (-3, str)
      else uintLoop fuel (value % divider) (divider / 10) (emit || found) str pos

/-- `emv_uint_to_str` (emv_strings.c:1582-1627). -/
def uintToStr (value : Nat) (str : List Byte) : C (Int × List Byte) :=
  if str.length < 2 then .ok (-2, str)
  else if value = 0 then do
    let str ← wr str 0 0x30
    let str ← wr str 1 0
    .ok (0, str)
  else uintLoop 11 value 1000000000 false str 0

/-- `emv_format_n_get_string` (emv_strings.c:1569-1580). -/
def formatNGetString (buf str : List Byte) : C (Int × List Byte) := do
  let (r, v) ← Formats.formatNToUint buf
  if r ≠ 0 then .ok (r, str) else uintToStr v str

/-- `emv_amount_get_string` (emv_strings.c:1743-1763). -/
def amountGetString (buf str : List Byte) : C (Int × List Byte) :=
  if buf.length = 0 then .ok (-1, str)
  else if str.length = 0 then .ok (0, str)
  else do
    let (r, v) ← Formats.formatBToUint buf
    if r ≠ 0 then .ok (r, str) else uintToStr v str

/-! ## Packing -/

/-- Condition of emv_strings.c:1643 and 1702 (a `char` above 0x7F is negative or large; it is
not a digit either way). -/
def isDigit (b : Byte) : Bool := b ≥ 0x30 && b ≤ 0x39

/-- The padding of `emv_str_to_format_cn` after an even number of digits
(emv_strings.c:1674-1678): 0xFF up to the end. -/
def padFF : Nat → List Byte → C (List Byte)
  | 0, buf => .ok buf
  | n + 1, buf => do
    let buf ← wr buf (buf.length - (n + 1)) 0xFF
    padFF n buf

/-- The loop of `emv_str_to_format_cn` (emv_strings.c:1638-1663) followed by the padding
(1665-1679).  `pos` is how far `buf` has been advanced. -/
def toCnLoop (str : List Byte) : Nat → Nat → List Byte → Nat → C (Int × List Byte)
  | 0, _, _, _ => .error .nonTerm
  | fuel + 1, i, buf, pos => do
    let c ← rd str i
    if c ≠ 0 ∧ buf.length - pos ≠ 0 then
      if !isDigit c then .ok (1, buf)
      else
        let nibble := c - 0x30
        if i % 2 = 0 then do
          let buf ← wr buf pos (nibble <<< 4)
          toCnLoop str fuel (i + 1) buf pos
        else do
          let old ← rd buf pos
          let buf ← wr buf pos (old ||| (nibble &&& 0x0F))
          toCnLoop str fuel (i + 1) buf (pos + 1)
    else if buf.length - pos ≠ 0 then
      if i % 2 = 1 then do
        let old ← rd buf pos
        let buf ← wr buf pos (old ||| 0x0F)
        let buf ← padFF (buf.length - (pos + 1)) buf
        .ok (0, buf)
      else do
        let buf ← padFF (buf.length - pos) buf
        .ok (0, buf)
    else .ok (0, buf)

/-- `emv_str_to_format_cn` (emv_strings.c:1629-1682). -/
def strToCn (str buf : List Byte) : C (Int × List Byte) :=
  if buf.length = 0 then .ok (-1, buf) else toCnLoop str (str.length + 1) 0 buf 0

/-- The zero padding of `emv_str_to_format_n` (emv_strings.c:1732-1736): the first `n` bytes,
from the last of them. -/
def padZero : Nat → List Byte → C (List Byte)
  | 0, buf => .ok buf
  | n + 1, buf => do
    let buf ← wr buf n 0
    padZero n buf

/-- The loop of `emv_str_to_format_n` (emv_strings.c:1698-1720) followed by the padding
(1722-1737).  `strLen` and `bufLen` are the C variables: the digit read is
`str[strLen - 1]`, the byte written `buf[bufLen - 1]`. -/
def toNLoop (str : List Byte) : Nat → Nat → Nat → List Byte → Nat → C (Int × List Byte)
  | 0, _, _, _, _ => .error .nonTerm
  | fuel + 1, i, strLen, buf, bufLen =>
    if strLen ≠ 0 ∧ bufLen ≠ 0 then do
      let c ← rd str (strLen - 1)
      if !isDigit c then .ok (1, buf)
      else
        let nibble := c - 0x30
        if i % 2 = 0 then do
          let buf ← wr buf (bufLen - 1) nibble
          toNLoop str fuel (i + 1) (strLen - 1) buf bufLen
        else do
          let old ← rd buf (bufLen - 1)
          let buf ← wr buf (bufLen - 1) (old ||| (nibble <<< 4))
          toNLoop str fuel (i + 1) (strLen - 1) buf (bufLen - 1)
    else if bufLen ≠ 0 then do
      let buf ← padZero (if i % 2 = 1 then bufLen - 1 else bufLen) buf
      .ok (0, buf)
    else .ok (0, buf)

/-- `emv_str_to_format_n` (emv_strings.c:1684-1741).  For an empty string the function
computes `str - 1` without using it (1696); that is not modelled. -/
def strToN (str buf : List Byte) : C (Int × List Byte) :=
  if buf.length = 0 then .ok (-1, buf)
  else do
    let n ← App.strlen str
    toNLoop str (n + 1) 0 n buf buf.length

/-! ## Dates and times -/

/-- The digit loop of `emv_date_get_string` (emv_strings.c:1789-1807) and
`emv_time_get_string` (1862-1880): `error` is the code to return. -/
def bcdLoop (buf : List Byte) : Nat → Nat → List Byte → C (Except Int (List Byte))
  | 0, _, _ => .error .nonTerm
  | fuel + 1, i, ds =>
    if ¬ i < buf.length then .ok (.ok ds)
    else do
      let b ← rd buf i
      let digit := b >>> 4
      if digit > 9 then .ok (.error 2)
      else do
        let ds ← wr ds (i * 2) (0x30 + digit)
        let digit := b &&& 0xF
        if digit > 9 then .ok (.error 3)
        else do
          let ds ← wr ds (i * 2 + 1) (0x30 + digit)
          bcdLoop buf fuel (i + 1) ds

/-- `emv_date_get_string` (emv_strings.c:1765-1836) with a local array `date_str` of `n`
bytes (zeroed here; only bytes written before are read). -/
def dateWith (n : Nat) (buf str : List Byte) : C (Int × List Byte) :=
  if buf.length = 0 then .ok (-1, str)
  else if str.length = 0 then .ok (0, str)
  else if buf.length ≠ 3 then .ok (1, str)
  else if str.length < 11 then .ok (-2, str)
  else do
    match ← bcdLoop buf (buf.length + 1) 0 (List.replicate n 0) with
    | .error c => .ok (c, str)
    | .ok ds => do
      let ds ← wr ds (buf.length * 2 + 1) 0
      let str ← wr str 0 0x32
      let str ← wr str 1 0x30
      let y ← slice ds 0 2
      let str ← wrs str 2 y
      let str ← wr str 4 0x2D
      let m ← slice ds 2 2
      let str ← wrs str 5 m
      let str ← wr str 7 0x2D
      let d ← slice ds 4 2
      let str ← wrs str 8 d
      let str ← wr str 10 0
      .ok (0, str)

/-- `emv_date_get_string` as it is: `char date_str[7]` (emv_strings.c:1767). -/
def dateGetString (buf str : List Byte) : C (Int × List Byte) := dateWith 7 buf str

/-- `emv_time_get_string` (emv_strings.c:1838-1906) with a local array `time_str` of `n`
bytes. -/
def timeWith (n : Nat) (buf str : List Byte) : C (Int × List Byte) :=
  if buf.length = 0 then .ok (-1, str)
  else if str.length = 0 then .ok (0, str)
  else if buf.length ≠ 3 then .ok (1, str)
  else if str.length < 9 then .ok (-2, str)
  else do
    match ← bcdLoop buf (buf.length + 1) 0 (List.replicate n 0) with
    | .error c => .ok (c, str)
    | .ok ts => do
      let ts ← wr ts (buf.length * 2 + 1) 0
      let h ← slice ts 0 2
      let str ← wrs str 0 h
      let str ← wr str 2 0x3A
      let m ← slice ts 2 2
      let str ← wrs str 3 m
      let str ← wr str 5 0x3A
      let s ← slice ts 4 2
      let str ← wrs str 6 s
      let str ← wr str 8 0
      .ok (0, str)

/-- `emv_time_get_string` as it is: `char time_str[7]` (emv_strings.c:1840). -/
def timeGetString (buf str : List Byte) : C (Int × List Byte) := timeWith 7 buf str

end Verif.Str
