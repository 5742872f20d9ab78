import Verif.Base

/-!
# Model of the input of `tools/emv-decode.c`

A C string is the list of its bytes in front of the terminator; none of them is 0.  The C locale is
in use (the tool does not call `setlocale`).  `isspace` and `isxdigit` of a negative argument are
undefined (C11 7.4p1); `char` is signed, so that is every byte from 80 on.  They are taken to read
outside their table (`oobRead`).
-/

set_option autoImplicit false

namespace Verif.Hex
open Verif

/-- A function of `ctype.h`. -/
def ctype (p : Byte → Bool) (c : Byte) : C Bool :=
  if c < 0x80 then .ok (p c) else .error .oobRead

/-- `isspace` in the C locale (C11 7.4.1.10). -/
def isSpace (c : Byte) : Bool := c == 0x20 || (0x09 ≤ c && c ≤ 0x0D)

/-- `isxdigit` (C11 7.4.1.12). -/
def isXDigit (c : Byte) : Bool :=
  (0x30 ≤ c && c ≤ 0x39) || (0x41 ≤ c && c ≤ 0x46) || (0x61 ≤ c && c ≤ 0x66)

/-- The value `strtoul` gives to one digit. -/
def value (c : Byte) : Byte :=
  if c ≤ 0x39 then c - 0x30 else if c ≤ 0x46 then c - 0x37 else c - 0x57

/-- How the search for two digits ends. -/
inductive Found where
  /-- a character that is neither a space nor a digit -/
  | bad
  /-- the end of the string -/
  | ended
  /-- two digits and what follows them -/
  | two (a b : Byte) (rest : List Byte)

/-- The inner loop (emv-decode.c:353-366); `first` is `str[0]` when `str_idx` is 1. -/
def next : List Byte → Option Byte → C Found
  | [], _ => .ok .ended
  | c :: r, first => do
    let sp ← ctype isSpace c
    if sp then next r first
    else do
      let dg ← ctype isXDigit c
      if ¬ dg then .ok .bad
      else
        match first with
        | none => next r (some c)
        | some a => .ok (.two a c r)

/-- The outer loop (emv-decode.c:348-374): `max` is `max_buf_len`, `n` is `*buf_len`.  The results
are the code, the buffer and `*buf_len`. -/
def loop : Nat → List Byte → List Byte → Nat → C (Int × List Byte × Nat)
  | _, [], buf, n => .ok (0, buf, n)
  | 0, _ :: _, buf, n => .ok (0, buf, n)
  | max + 1, c :: r, buf, n => do
    let f ← next (c :: r) none
    match f with
    | .bad => .ok (-2, buf, n)
    | .ended => .ok (1, buf, n)
    | .two a b rest => do
      let buf ← wr buf n (value a * 16 + value b)
      loop max rest buf (n + 1)

/-- `parse_hex` (emv-decode.c:335-377) with `*buf_len` the size of the buffer. -/
def parseHex (s buf : List Byte) : C (Int × List Byte × Nat) := loop buf.length s buf 0

/-- The rounds of `load_from_file` (emv-decode.c:392-404) over what remains of the file; `got` is
what has been read.  `fread` reads less than a block only at the end of the file, and the end of the
file is reported only then (C11 7.21.8.1).  Read errors and memory shortage are not modelled.
`size` is the size of the buffer. -/
def loadLoop : Nat → List Byte → List Byte → Nat → C (List Byte)
  | 0, _, _, _ => .error .nonTerm
  | fuel + 1, file, got, size =>
    let size := size + 4096
    let block := file.take 4096
    if got.length + block.length ≤ size then
      if block.length < 4096 then .ok (got ++ block)
      else loadLoop fuel (file.drop 4096) (got ++ block) size
    else .error .oobWrite

/-- `load_from_file` (emv-decode.c:380-408). -/
def load (file : List Byte) : C (List Byte) := loadLoop (file.length + 1) file [] 0

/-- What `argp_parser_helper` makes of the argument. -/
inductive Input where
  /-- `data` and `data_len` -/
  | data (v : List Byte)
  /-- `argp_error`: the tool ends with a message -/
  | refused

/-- `ARGP_KEY_ARG` of `argp_parser_helper` (emv-decode.c:200-241) for the modes that take data:
`file` is what standard input delivers, `loc` the contents of the allocated buffer. -/
def input (arg file : List Byte) (loc : Nat → List Byte) : C Input :=
  if arg = [0x2D] then do
    let v ← load file
    if v.length = 0 then .ok .refused else .ok (.data v)
  else if arg.length < 2 then .ok .refused
  else do
    let (r, buf, n) ← parseHex arg (loc ((arg.length + 1) / 2))
    if r ≠ 0 then .ok .refused
    else do
      let v ← slice buf 0 n
      .ok (.data v)

end Verif.Hex
