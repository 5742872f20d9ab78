import Verif.Ber

/-!
# Model of `emv_tlv_parse` (src/emv_tlv.c:240-272)

The destination list is represented by the sequence it denotes (the linked list refines
this by `C08_history`).
-/

set_option autoImplicit false

namespace Verif.TlvParse
open Verif Ber

/-- `emv_tlv_parse` (emv_tlv.c:240-272) appending to the sequence `list`.  `alloc list t`
tells whether memory for pushing `t` is available at that point; a failing push gives -2
(emv_tlv.c:259-262).  `fuel` bounds loop and recursion together. -/
def parseF (alloc : List Tlv → Tlv → Bool) : Nat → List Byte → List Tlv → C (Int × List Tlv)
  | 0, _, _ => .error .nonTerm
  | fuel + 1, buf, list => do
    let (rest, d) ← itrNext buf
    match d with
    | .eod => .ok (0, list)
    | .err _ => .ok (1, list)
    | .ok _ tlv =>
      if tlv.isConstructed then do
        let (r, list) ← parseF alloc fuel tlv.value list
        if r ≠ 0 then .ok (r, list) else parseF alloc fuel rest list
      else
        let new : Tlv := { tlv with flags := 0 }
        if alloc list new then parseF alloc fuel rest (list ++ [new]) else .ok (-2, list)

/-- `emv_tlv_parse` with enough fuel (`parse_fuel`). -/
def parse (alloc : List Tlv → Tlv → Bool) (buf : List Byte) (list : List Tlv) :
    C (Int × List Tlv) := parseF alloc (buf.length + 1) buf list

/-- Memory is always available. -/
def allocOk : List Tlv → Tlv → Bool := fun _ _ => true

end Verif.TlvParse
