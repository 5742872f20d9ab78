import Verif.Base

/-!
# Model of the EMV data format conversions (src/emv_tlv.c:302-525)

Output strings and buffers are given as their previous contents, a list of exactly the
capacity the caller states.
-/

set_option autoImplicit false

namespace Verif.Formats
open Verif

/-- Condition of emv_tlv.c:321: non-control character. -/
def keepNonControl (b : Byte) : Bool := (b ≥ 0x20 && b ≤ 0x7E) || b ≥ 0xA0

/-- Condition of emv_tlv.c:356-361: alphanumeric or space. -/
def keepAlnumSpace (b : Byte) : Bool :=
  (b ≥ 0x30 && b ≤ 0x39) || (b ≥ 0x41 && b ≤ 0x5A) || (b ≥ 0x61 && b ≤ 0x7A) || b = 0x20

/-- The loop shared by emv_tlv.c:313-330 and 348-370.  First argument: the remaining
`buf`/`buf_len`; `pos` is how far `str` has been advanced, so the C variable `str_len` is
`str.length - pos`.  Followed by the NUL termination (332, 372). -/
def filterLoop (keep : Byte → Bool) : List Byte → List Byte → Nat → C (List Byte)
  | [], str, pos => wr str pos 0
  | b :: buf, str, pos =>
    if str.length - pos = 1 then wr str pos 0
    else if keep b then do
      let str ← wr str pos b
      filterLoop keep buf str (pos + 1)
    else filterLoop keep buf str pos

/-- Argument guard and loop of both filters; returns the `int` result and `str`. -/
def filterStr (keep : Byte → Bool) (buf str : List Byte) : C (Int × List Byte) :=
  if buf.length = 0 ∨ str.length = 0 then .ok (-1, str)
  else do
    let str ← filterLoop keep buf str 0
    .ok (0, str)

/-- `emv_format_ans_to_non_control_str` (emv_tlv.c:302-335). -/
def ansToNonControlStr (buf str : List Byte) : C (Int × List Byte) :=
  filterStr keepNonControl buf str

/-- `emv_format_ans_to_alnum_space_str` (emv_tlv.c:337-375). -/
def ansToAlnumSpaceStr (buf str : List Byte) : C (Int × List Byte) :=
  filterStr keepAlnumSpace buf str

/-- ASCII digit of emv_tlv.c:404-408. -/
def hexChar (digit : Byte) : Byte := if digit < 0xA then 0x30 + digit else 0x41 + (digit - 0xA)

/-- The `for` loop of `emv_format_b_to_str` (emv_tlv.c:388-412) and the NUL termination
(414).  `pos` as in `filterLoop`. -/
def bToStrLoop (buf : List Byte) : Nat → Nat → List Byte → Nat → C (List Byte)
  | 0, _, _, _ => .error .nonTerm
  | fuel + 1, i, str, pos =>
    if ¬ i < buf.length * 2 then wr str pos 0
    else if str.length - pos = 1 then wr str pos 0
    else do
      let b ← rd buf (i / 2)
      let digit := if i % 2 = 0 then b >>> 4 else b &&& 0x0F
      let str ← wr str pos (hexChar digit)
      bToStrLoop buf fuel (i + 1) str (pos + 1)

/-- `emv_format_b_to_str` (emv_tlv.c:377-418). -/
def bToStr (buf str : List Byte) : C (Int × List Byte) :=
  if buf.length = 0 ∨ str.length = 0 then .ok (-1, str)
  else do
    let str ← bToStrLoop buf (buf.length * 2 + 1) 0 str 0
    .ok (0, str)

/-- The `while (buf_len)` loop of `emv_uint_to_format_n` (emv_tlv.c:432-453).  `value` is
the 32-bit value; `divider` is constantly 10. -/
def toNLoop : Nat → Nat → List Byte → Nat → Nat → C (List Byte)
  | 0, _, buf, bufLen, _ => if bufLen = 0 then .ok buf else .error .nonTerm
  | fuel + 1, value, buf, bufLen, i =>
    if bufLen = 0 then .ok buf
    else do
      let digit : Byte := if value ≠ 0 then UInt8.ofNat (value % 10) else 0
      let value := if value ≠ 0 then value / 10 else value
      if i % 2 = 0 then do
        let buf ← wr buf (bufLen - 1) digit
        toNLoop fuel value buf bufLen (i + 1)
      else do
        let old ← rd buf (bufLen - 1)
        let buf ← wr buf (bufLen - 1) (old ||| (digit <<< 4))
        toNLoop fuel value buf (bufLen - 1) (i + 1)

/-- `emv_uint_to_format_n` (emv_tlv.c:420-456); `none` is the NULL result. -/
def uintToFormatN (value : Nat) (buf : List Byte) : C (Option (List Byte)) :=
  if buf.length = 0 then .ok none
  else do
    let buf ← toNLoop (2 * buf.length) value buf buf.length 0
    .ok (some buf)

/-- The loop of `emv_format_n_to_uint` (emv_tlv.c:466-486); returns the result code and
`*value` (32-bit, wrapping). -/
def nToUintLoop (buf : List Byte) : Nat → Nat → Nat → C (Int × Nat)
  | 0, _, _ => .error .nonTerm
  | fuel + 1, i, value =>
    if ¬ i < buf.length then .ok (0, value)
    else do
      let b ← rd buf i
      let digit := b >>> 4
      if digit > 9 then .ok (1, value)
      else
        let value := (value * 10 + digit.toNat) % 2 ^ 32
        let digit := b &&& 0xF
        if digit > 9 then .ok (2, value)
        else nToUintLoop buf fuel (i + 1) ((value * 10 + digit.toNat) % 2 ^ 32)

/-- `emv_format_n_to_uint` (emv_tlv.c:458-489).  When the guard fires `*value` is not
written; 0 is reported for it here. -/
def formatNToUint (buf : List Byte) : C (Int × Nat) :=
  if buf.length = 0 then .ok (-1, 0) else nToUintLoop buf (buf.length + 1) 0 0

/-- The loop of `emv_uint_to_format_b` (emv_tlv.c:498-502), by recursion on `buf_len`. -/
def toBLoop : Nat → Nat → List Byte → C (List Byte)
  | 0, _, buf => .ok buf
  | bufLen + 1, value, buf => do
    let buf ← wr buf bufLen (UInt8.ofNat (value % 256))
    toBLoop bufLen (value / 256) buf

/-- `emv_uint_to_format_b` (emv_tlv.c:491-505); `none` is the NULL result. -/
def uintToFormatB (value : Nat) (buf : List Byte) : C (Option (List Byte)) :=
  if buf.length = 0 then .ok none
  else do
    let buf ← toBLoop buf.length value buf
    .ok (some buf)

/-- The loop of `emv_format_b_to_uint` (emv_tlv.c:519-522); 32-bit `<< 8`, and `|` is `+`
because the low octet is zero after the shift. -/
def bToUintLoop (buf : List Byte) : Nat → Nat → Nat → C Nat
  | 0, _, _ => .error .nonTerm
  | fuel + 1, i, value =>
    if ¬ i < buf.length then .ok value
    else do
      let b ← rd buf i
      bToUintLoop buf fuel (i + 1) ((value * 256) % 2 ^ 32 + b.toNat)

/-- `emv_format_b_to_uint` (emv_tlv.c:507-525). -/
def formatBToUint (buf : List Byte) : C (Int × Nat) :=
  if buf.length = 0 then .ok (-1, 0)
  else if buf.length > 4 then .ok (-2, 0)
  else do
    let v ← bToUintLoop buf (buf.length + 1) 0 0
    .ok (0, v)

end Verif.Formats
