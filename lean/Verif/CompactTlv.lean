import Verif.Base

/-! # Model of `src/iso7816_compact_tlv.c` -/

set_option autoImplicit false

namespace Verif.CompactTlv
open Verif

/-- `struct iso7816_compact_tlv_t`; `length` is `value.length`. -/
structure Tlv where
  tag : Byte
  value : List Byte
  deriving DecidableEq, Repr

/-- `iso7816_compact_tlv_decode` (iso7816_compact_tlv.c:24-54).  The test at 38 is dead. -/
def decode (buf : List Byte) : C (Dec Tlv) :=
  if buf.length = 0 then .ok .eod
  else do
    let b ← rd buf 0
    let length := (b &&& 0xF).toNat
    if buf.length - 1 < length then .ok (.err (-3))
    else do
      let value ← slice buf 1 length
      .ok (.ok (length + 1) ⟨b >>> 4, value⟩)

/-- `iso7816_compact_tlv_itr_next` (iso7816_compact_tlv.c:68-88). -/
def itrNext (itr : List Byte) : C (List Byte × Dec Tlv) := do
  match ← decode itr with
  | .ok n t => do
    let rest ← suffix itr n
    .ok (rest, .ok n t)
  | .eod => .ok (itr, .eod)
  | .err c => .ok (itr, .err c)

/-- A caller's loop over the iterator (e.g. tools/print_helpers.c): objects seen and final
code. -/
def iterate : Nat → List Byte → C (List Tlv × Int)
  | 0, _ => .error .nonTerm
  | fuel + 1, itr => do
    let (itr', r) ← itrNext itr
    match r with
    | .eod => .ok ([], 0)
    | .err c => .ok ([], c)
    | .ok _ t => do
      let (ts, c) ← iterate fuel itr'
      .ok (t :: ts, c)

/-- `iso7816_compact_tlv_itr_init` (iso7816_compact_tlv.c:56-66) followed by the loop;
`none` when initialisation fails (empty input). -/
def iterateAll (buf : List Byte) : C (Option (List Tlv × Int)) :=
  if buf.length = 0 then .ok none
  else do
    let r ← iterate (buf.length + 1) buf
    .ok (some r)

end Verif.CompactTlv
