import Verif.Base

/-!
# Model of `src/iso8825_ber.c`
-/

set_option autoImplicit false

namespace Verif.Ber
open Verif

/-- `struct iso8825_tlv_t` (iso8825_ber.h:107-112).  `length` is `value.length`; the
`value` pointer is represented by the bytes it delimits. -/
structure Tlv where
  tag : Nat
  flags : Byte
  value : List Byte
  deriving DecidableEq, Repr

/-- `ISO8825_BER_TAG_NUMBER_MASK` (iso8825_ber.h:44). -/
def tagNumberMask : Byte := 0x1F
/-- `ISO8825_BER_TAG_HIGH_FORM` (iso8825_ber.h:45). -/
def tagHighForm : Byte := 0x1F
/-- `ISO8825_BER_TAG_HIGH_FORM_MORE` (iso8825_ber.h:46). -/
def tagHighFormMore : Byte := 0x80
/-- `ISO8825_BER_CONSTRUCTED` (iso8825_ber.h:41). -/
def constructedBit : Byte := 0x20
/-- `ISO8825_BER_CLASS_MASK` (iso8825_ber.h:34). -/
def classMask : Byte := 0xC0
/-- `ISO8825_BER_LEN_INDEFINITE_FORM` (iso8825_ber.h:50). -/
def lenIndefinite : Byte := 0x80
/-- `ISO8825_BER_LEN_LONG_FORM` (iso8825_ber.h:51). -/
def lenLongForm : Byte := 0x80
/-- `ISO8825_BER_LEN_LONG_FORM_COUNT_MASK` (iso8825_ber.h:52). -/
def lenCountMask : Byte := 0x7F
/-- `sizeof(unsigned int)` (LP64): the limit of tag octets and of length octets. -/
def sizeofUint : Nat := 4
/-- `ASN1_EOC` (iso8825_ber.h:55). -/
def asn1Eoc : Nat := 0

/-- `*tag <<= 8; *tag |= b` on a 32-bit unsigned (iso8825_ber.c:59-60, 177-178).  `|` is
`+` because the low octet is zero after the shift. -/
def shiftIn (acc : Nat) (b : Byte) : Nat := (acc * 256) % 2 ^ 32 + b.toNat

/-- The `do ... while (1)` loop of `iso8825_ber_tag_decode` (iso8825_ber.c:52-74). -/
def tagLoop (buf : List Byte) : Nat → Nat → Nat → C (Dec Nat)
  | 0, _, _ => .error .nonTerm
  | fuel + 1, offset, tag =>
    if offset ≥ buf.length then .ok (.err (-3))
    else do
      let b ← rd buf offset
      let tag := shiftIn tag b
      let offset := offset + 1
      if b &&& tagHighFormMore = 0 then .ok (.ok offset tag)
      else if offset ≥ sizeofUint then .ok (.err (-4))
      else tagLoop buf fuel offset tag

/-- `iso8825_ber_tag_decode` (iso8825_ber.c:27-82).  The test at 41-43 is dead code
(`len` is non-zero there) and is omitted. -/
def tagDecode (buf : List Byte) : C (Dec Nat) :=
  if buf.length = 0 then .ok .eod
  else do
    let b ← rd buf 0
    if b &&& tagNumberMask = tagHighForm then tagLoop buf sizeofUint 1 b.toNat
    else .ok (.ok 1 b.toNat)

/-- The loop reading long-form length octets (iso8825_ber.c:175-180):
`count` octets from `offset`. -/
def lenLoop (buf : List Byte) : Nat → Nat → Nat → C Nat
  | 0, _, length => .ok length
  | count + 1, offset, length => do
    let b ← rd buf offset
    lenLoop buf count (offset + 1) (shiftIn length b)

/-- The loop looking for end-of-contents (iso8825_ber.c:130-152).  `dec` is the recursive
call; the result is `tlv->length` or the error code. -/
def eocLoop (dec : List Byte → C (Dec Tlv)) (buf : List Byte) (offset : Nat) :
    Nat → Nat → C (Except Int Nat)
  | 0, _ => .error .nonTerm
  | fuel + 1, length => do
    let rest ← suffix buf (offset + length)
    match ← dec rest with
    | .err _ => .ok (.error (-7))
    | .eod => .ok (.error (-8))
    | .ok r inner =>
      if inner.tag = asn1Eoc then .ok (.ok length)
      else eocLoop dec buf offset fuel (length + r)

/-- Common tail of `iso8825_ber_decode` (iso8825_ber.c:189-201). -/
def finish (buf : List Byte) (b0 : Byte) (tag offset length : Nat) : C (Dec Tlv) :=
  if offset + length > buf.length then .ok (.err (-11))
  else do
    let value ← slice buf offset length
    .ok (.ok (offset + length) ⟨tag, b0 &&& (classMask ||| constructedBit), value⟩)

/-- `iso8825_ber_decode` (iso8825_ber.c:84-202); `fuel` bounds the recursion depth
(indefinite-length nesting). -/
def decodeF : Nat → List Byte → C (Dec Tlv)
  | 0, _ => .error .nonTerm
  | fuel + 1, buf =>
    if buf.length = 0 then .ok .eod
    else if buf.length < 2 then .ok (.err (-2))
    else do
      match ← tagDecode buf with
      | .eod => .ok .eod
      | .err c => .ok (.err c)
      | .ok offset tag =>
        if offset ≥ buf.length then .ok (.err (-5))
        else do
          let b0 ← rd buf 0
          let lb ← rd buf offset
          if lb = lenIndefinite then
            let offset := offset + 1
            if b0 &&& constructedBit = 0 then .ok (.err (-6))
            else
              match ← eocLoop (decodeF fuel) buf offset (buf.length + 1) 0 with
              | .error c => .ok (.err c)
              | .ok length => finish buf b0 tag offset length
          else if lb &&& lenLongForm ≠ 0 then
            let count := (lb &&& lenCountMask).toNat
            let offset := offset + 1
            if count > sizeofUint then .ok (.err (-9))
            else if offset + count > buf.length then .ok (.err (-10))
            else do
              let length ← lenLoop buf count offset 0
              finish buf b0 tag (offset + count) length
          else finish buf b0 tag (offset + 1) lb.toNat

/-- `iso8825_ber_decode` with enough fuel for any input (`decode_fuel` proves it). -/
def decode (buf : List Byte) : C (Dec Tlv) := decodeF (buf.length + 1) buf

/-- `iso8825_ber_is_constructed` (iso8825_ber.h:159). -/
def Tlv.isConstructed (t : Tlv) : Bool := t.flags &&& constructedBit ≠ 0

/-- `iso8825_ber_get_class` (iso8825_ber.h:152). -/
def Tlv.cls (t : Tlv) : Byte := t.flags &&& classMask

/-- `iso8825_ber_itr_next` (iso8825_ber.c:248-264): the iterator is the remaining bytes
(`itr->ptr`, `itr->len`); returns the advanced iterator and the result. -/
def itrNext (itr : List Byte) : C (List Byte × Dec Tlv) := do
  match ← decode itr with
  | .ok n t => do
    let rest ← suffix itr n
    .ok (rest, .ok n t)
  | .eod => .ok (itr, .eod)
  | .err c => .ok (itr, .err c)

/-- A caller's `while ((r = iso8825_ber_itr_next(&itr, &tlv)) > 0)` loop (e.g.
emv_tlv.c:251): the objects seen, and the final code (`0` or the error). -/
def iterate : Nat → List Byte → C (List Tlv × Int)
  | 0, _ => .error .nonTerm
  | fuel + 1, itr => do
    let (itr', r) ← itrNext itr
    match r with
    | .eod => .ok ([], 0)
    | .err c => .ok ([], c)
    | .ok _ t => do
      let (ts, c) ← iterate fuel itr'
      .ok (t :: ts, c)

/-- Complete iteration over a buffer. -/
def iterateAll (buf : List Byte) : C (List Tlv × Int) := iterate (buf.length / 2 + 1) buf

/-- Inner `while (len)` loop of `iso8825_ber_oid_decode` (iso8825_ber.c:301-315): one
sub-identifier, accumulated in a `uint32_t` (`<<= 7` then `|=` of seven bits). -/
def subidLoop : List Byte → Nat → Nat × List Byte
  | [], acc => (acc, [])
  | b :: rest, acc =>
    let acc := (acc * 128) % 2 ^ 32 + (b &&& 0x7F).toNat
    if b &&& 0x80 = 0 then (acc, rest) else subidLoop rest acc

/-- Outer `while (len && oid->length < sizeof(oid->value))` loop
(iso8825_ber.c:297-320).  `value` is the 10-element array, `length` is `oid->length`;
`sizeof(oid->value)` is 40 *bytes*. -/
def oidLoop : Nat → List Byte → List Nat → Nat → C (List Nat × Nat)
  | 0, _, _, _ => .error .nonTerm
  | fuel + 1, buf, value, length =>
    if buf.length ≠ 0 ∧ length < 40 then do
      let (subid, rest) := subidLoop buf 0
      let value ← wr value length subid
      oidLoop fuel rest value (length + 1)
    else .ok (value, length)

/-- `iso8825_ber_oid_decode` (iso8825_ber.c:266-323): the return code and, for 0, the
`value` array and `length`.  The array has ten elements (iso8825_ber.h:121-124). -/
def oidDecode (buf : List Byte) : C (Int × List Nat × Nat) :=
  let zero := List.replicate 10 0
  if buf.length = 0 then .ok (-1, zero, 0)
  else if buf.length ≥ 40 then .ok (-2, zero, 0)
  else do
    let b0 ← rd buf 0
    let (v0, v1) :=
      if b0.toNat < 40 then (0, b0.toNat)
      else if b0.toNat < 80 then (1, b0.toNat - 40)
      else (2, b0.toNat - 80)
    let value ← wr zero 0 v0
    let value ← wr value 1 v1
    let rest ← suffix buf 1
    let (value, length) ← oidLoop (buf.length + 1) rest value 2
    .ok (0, value, length)

end Verif.Ber
