import Verif.Base

/-! # Model of `src/iso8859_simple.c` (the build variant without iconv/boost) -/

set_option autoImplicit false

namespace Verif.Iso8859
open Verif

/-- `iso8859_is_supported` (iso8859_simple.c:24-32). -/
def isSupported (codepage : Nat) : Bool := codepage == 1

/-- Condition of iso8859_simple.c:66. -/
def rejected (b : Byte) : Bool := b < 0x20 || (b > 0x7E && b < 0xA0)

/-- The loop and the termination (iso8859_simple.c:54-85).  First argument: the remaining
input; `utf8` is the output object, `idx` is `utf8_idx` (never above `utf8_len`, so the
subtraction at 61 does not wrap). -/
def loop : List Byte → List Byte → Nat → C (Int × List Byte)
  | [], utf8, idx => do
    let utf8 ← wr utf8 idx 0
    .ok (0, utf8)
  | b :: rest, utf8, idx =>
    if b = 0 then do
      let utf8 ← wr utf8 idx 0
      .ok (0, utf8)
    else if utf8.length - idx < 2 then do
      let utf8 ← wr utf8 idx 0
      .ok (0, utf8)
    else if rejected b then .ok (2, utf8)
    else if b < 0x80 then do
      let utf8 ← wr utf8 idx b
      loop rest utf8 (idx + 1)
    else do
      let utf8 ← wr utf8 idx ((0xC0 : Byte) ||| (b >>> 6))
      let utf8 ← wr utf8 (idx + 1) ((0x80 : Byte) ||| (b &&& 0x3F))
      loop rest utf8 (idx + 2)

/-- `iso8859_to_utf8` (iso8859_simple.c:34-88). -/
def toUtf8 (codepage : Nat) (iso utf8 : List Byte) : C (Int × List Byte) :=
  if iso.length = 0 ∨ utf8.length = 0 then .ok (-1, utf8)
  else do
    let utf8 ← wr utf8 0 0
    if !isSupported codepage then .ok (1, utf8)
    else loop iso utf8 0

end Verif.Iso8859
