import Verif.Base

/-!
# Model of the string list builders

`emv_str_list_init`/`emv_str_list_add` (src/emv_strings.c:1998-2050) and
`iso7816_str_list_init`/`iso7816_str_list_add` (src/iso7816_strings.c:34-63).

The iterator is the whole output buffer and the number of bytes by which `ptr` has been
advanced; the C member `len` is the rest of the buffer.
-/

set_option autoImplicit false

namespace Verif.StrList
open Verif

/-- `struct str_itr_t` (emv_strings.c:47-50, iso7816_strings.c:29-32), with its buffer. -/
structure Itr where
  /-- the output buffer -/
  buf : List Byte
  /-- `ptr - buf` -/
  pos : Nat
deriving Repr, DecidableEq

/-- The C member `len`. -/
def Itr.len (it : Itr) : Nat := it.buf.length - it.pos

/-- `emv_str_list_init` (emv_strings.c:1998-2002), `iso7816_str_list_init`
(iso7816_strings.c:34-38). -/
def init (buf : List Byte) : Itr := ⟨buf, 0⟩

/-- Delimiter, advance and termination (emv_strings.c:2041-2049, iso7816_strings.c:53-62). -/
def finish (buf : List Byte) (pos strLen : Nat) : C Itr := do
  let buf ← wr buf (pos + strLen) 0x0A
  let buf ← wr buf (pos + strLen + 1) 0
  .ok ⟨buf, pos + strLen + 1⟩

/-- `emv_str_list_add` (emv_strings.c:2004-2050) for the formatted text `s`, with
`vsnprintf(ptr, str_len_max, ...)` writing as many characters as fit and a NUL and returning
the full length; `none` is a `vsnprintf` error. -/
def emvAdd (s : Option (List Byte)) (it : Itr) : C Itr :=
  if it.len < 3 then .ok it
  else
    let strLenMax := it.len - 1
    match s with
    | none => do
      let buf ← wr it.buf it.pos 0
      .ok { it with buf := buf }
    | some s => do
      let buf ← wrs it.buf it.pos (s.take (strLenMax - 1) ++ [0])
      let strLen := if s.length ≥ strLenMax then strLenMax - 1 else s.length
      finish buf it.pos strLen

/-- `iso7816_str_list_add` (iso7816_strings.c:40-63). -/
def isoAdd (s : List Byte) (it : Itr) : C Itr :=
  if s.length + 2 > it.len then .ok it
  else do
    let buf ← wrs it.buf it.pos s
    finish buf it.pos s.length

/-- A sequence of additions. -/
def addAll (add : List Byte → Itr → C Itr) : List (List Byte) → Itr → C Itr
  | [], it => .ok it
  | s :: ss, it => do
    let it ← add s it
    addAll add ss it

end Verif.StrList
