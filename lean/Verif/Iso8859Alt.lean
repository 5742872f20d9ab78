import Verif.Base

/-!
# Model of `src/iso8859_iconv.c` and `src/iso8859_boost.cpp`

The two build variants that leave the characters to a library; `src/CMakeLists.txt:182` selects boost.  The libraries are
modelled from their documentation: what a byte of a page is in UTF-8 is a parameter, `iconv` stops at the first character
that is not in the page or does not fit, and `boost::locale::conv::to_utf` leaves out characters that are not in the
page.
-/

set_option autoImplicit false

namespace Verif.Iso8859Alt
open Verif

/-- The library. -/
structure Lib where
  /-- it knows ISO 8859 with this number -/
  known : Nat → Bool
  /-- UTF-8 of a byte of a page -/
  char : Nat → Byte → Option (List Byte)

/-- `iso8859_is_supported` (iso8859_iconv.c:27-39, iso8859_boost.cpp:30-42). -/
def isSupported (codepage : Nat) : Bool := !(codepage < 1 || codepage > 15 || codepage == 12)

/-- `iconv`: the bytes written, at most `left` of them, and whether the whole input was converted. -/
def iconv (char : Byte → Option (List Byte)) : List Byte → Nat → List Byte × Bool
  | [], _ => ([], true)
  | b :: rest, left =>
    match char b with
    | none => ([], false)
    | some u =>
      if u.length ≤ left then
        let (o, all) := iconv char rest (left - u.length)
        (u ++ o, all)
      else ([], false)

/-- `iso8859_to_utf8` (iso8859_iconv.c:41-78). -/
def toUtf8Iconv (x : Lib) (codepage : Nat) (iso utf8 : List Byte) : C (Int × List Byte) :=
  if iso.length = 0 ∨ utf8.length = 0 then .ok (-1, utf8)
  else do
    let utf8 ← wr utf8 0 0
    if !isSupported codepage then .ok (1, utf8)
    else if !x.known codepage then .ok (-2, utf8)
    else do
      let r := iconv (x.char codepage) iso utf8.length
      let utf8 ← wrs utf8 0 r.1
      .ok (if r.2 then 0 else 2, utf8)

/-- `strncpy(dst, src, n)` (C11 7.24.2.4): what is written, `src` up to a terminator. -/
def strncpy (src : List Byte) (n : Nat) : List Byte :=
  let s := (src.takeWhile (· ≠ 0)).take n
  s ++ List.replicate (n - s.length) 0

/-- `iso8859_to_utf8` (iso8859_boost.cpp:44-80).  Failures to allocate are not modelled. -/
def toUtf8Boost (x : Lib) (codepage : Nat) (iso utf8 : List Byte) : C (Int × List Byte) :=
  if iso.length = 0 ∨ utf8.length = 0 then .ok (-1, utf8)
  else do
    let utf8 ← wr utf8 0 0
    if !isSupported codepage then .ok (1, utf8)
    else if !x.known codepage then .ok (-2, utf8)
    else
      let str := iso.flatMap fun b => (x.char codepage b).getD []
      if str.length = 0 then .ok (2, utf8)
      else do
        let utf8 ← wrs utf8 0 (strncpy str (utf8.length - 1))
        let utf8 ← wr utf8 (utf8.length - 1) 0
        .ok (0, utf8)

end Verif.Iso8859Alt
