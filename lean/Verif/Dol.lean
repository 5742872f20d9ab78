import Verif.Ber

/-!
# Model of `src/emv_dol.c` (and of `emv_tlv_is_terminal_format_n`)

EMV TLV lists are represented by the sequences they denote (`C08_history`).
-/

set_option autoImplicit false

namespace Verif.Dol
open Verif Ber

/-- `struct emv_dol_entry_t` (emv_dol.h:36-39). -/
structure Entry where
  tag : Nat
  length : Nat
  deriving DecidableEq, Repr

/-- `emv_dol_decode` (emv_dol.c:28-69). -/
def decode (buf : List Byte) : C (Dec Entry) :=
  if buf.length = 0 then .ok .eod
  else if buf.length < 2 then .ok (.err (-2))
  else do
    match ← tagDecode buf with
    | .eod => .ok .eod
    | .err c => .ok (.err c)
    | .ok offset tag =>
      if offset ≥ buf.length then .ok (.err (-5))
      else do
        let b ← rd buf offset
        .ok (.ok (offset + 1) ⟨tag, b.toNat⟩)

/-- `emv_dol_itr_next` (emv_dol.c:83-99); the iterator is the remaining bytes. -/
def itrNext (itr : List Byte) : C (List Byte × Dec Entry) := do
  match ← decode itr with
  | .ok n e => do
    let rest ← suffix itr n
    .ok (rest, .ok n e)
  | .eod => .ok (itr, .eod)
  | .err c => .ok (itr, .err c)

/-- A caller's `while ((r = emv_dol_itr_next(&itr, &entry)) > 0)` loop: the entries seen and
the final code. -/
def iterate : Nat → List Byte → C (List Entry × Int)
  | 0, _ => .error .nonTerm
  | fuel + 1, itr => do
    let (itr', r) ← itrNext itr
    match r with
    | .eod => .ok ([], 0)
    | .err c => .ok ([], c)
    | .ok _ e => do
      let (es, c) ← iterate fuel itr'
      .ok (e :: es, c)

/-- Complete iteration over a DOL. -/
def iterateAll (buf : List Byte) : C (List Entry × Int) := iterate (buf.length / 2 + 1) buf

/-- The loop of `emv_dol_compute_data_length` (emv_dol.c:117-122).  `total` is a (signed)
`int`. -/
def lengthLoop : Nat → List Byte → Nat → C Int
  | 0, _, _ => .error .nonTerm
  | fuel + 1, itr, total => do
    let (itr, r) ← itrNext itr
    match r with
    | .ok _ e =>
      if total + e.length ≥ 2 ^ 31 then .error .overflow
      else lengthLoop fuel itr (total + e.length)
    | .err _ => .ok (-3)
    | .eod => .ok total

/-- `emv_dol_compute_data_length` (emv_dol.c:101-125). -/
def computeDataLength (buf : List Byte) : C Int :=
  if buf.length = 0 then .ok (-1) else lengthLoop (buf.length + 1) buf 0

/-- `emv_tlv_is_terminal_format_n` (emv_tlv.c:274-300; tag values from emv_tags.h). -/
def isTerminalFormatN (tag : Nat) : Bool :=
  match tag with
  | 0x9A | 0x9C | 0x5F2A | 0x5F36 | 0x5F57 | 0x9F01 | 0x9F02 | 0x9F03 | 0x9F15 | 0x9F1A
  | 0x9F21 | 0x9F35 | 0x9F39 | 0x9F3C | 0x9F3D | 0x9F41 => true
  | _ => false

/-- The loop over `sources` (emv_dol.c:163-168): first list having the tag.
`emv_tlv_list_find` returns the first entry with the tag (emv_tlv.c:179-194). -/
def findIn (tag : Nat) : List (List Tlv) → Option Tlv
  | [] => none
  | l :: ls =>
    match l.find? (fun t => t.tag == tag) with
    | some t => some t
    | none => findIn tag ls

/-- The body of the loop after the size check (emv_dol.c:169-216): writes `entry.length`
bytes at `data_ptr` (= `data + pos`). -/
def place (e : Entry) (found : Option Tlv) (data : List Byte) (pos : Nat) : C (List Byte) :=
  match found with
  | none => wrs data pos (List.replicate e.length 0)
  | some tlv =>
    if tlv.value.length = e.length then do
      let v ← slice tlv.value 0 e.length
      wrs data pos v
    else if tlv.value.length > e.length then do
      let offset := if isTerminalFormatN tlv.tag then tlv.value.length - e.length else 0
      let v ← slice tlv.value offset e.length
      wrs data pos v
    else
      let padLen := e.length - tlv.value.length
      if isTerminalFormatN tlv.tag then do
        let data ← wrs data pos (List.replicate padLen 0)
        wrs data (pos + padLen) tlv.value
      else do
        let data ← wrs data pos tlv.value
        wrs data (pos + tlv.value.length) (List.replicate padLen 0)

/-- The `while` loop of `emv_dol_build_data` (emv_dol.c:154-220).  `pos` is
`data_ptr - data`, so `*data_len` is `data.length - pos`.  Result: code, data, `*data_len`. -/
def buildLoop (sources : List (List Tlv)) : Nat → List Byte → List Byte → Nat →
    C (Int × List Byte × Nat)
  | 0, _, _, _ => .error .nonTerm
  | fuel + 1, itr, data, pos => do
    let (itr, r) ← itrNext itr
    match r with
    | .ok _ e =>
      if data.length - pos < e.length then .ok (1, data, data.length - pos)
      else do
        let data ← place e (findIn e.tag sources) data pos
        buildLoop sources fuel itr data (pos + e.length)
    | .err _ => .ok (-5, data, data.length - pos)
    | .eod => .ok (0, data, pos)

/-- `emv_dol_build_data` (emv_dol.c:127-227); the output object has exactly `*data_len`
bytes, its previous contents being `data`. -/
def buildData (dol : List Byte) (sources : List (List Tlv)) (data : List Byte) :
    C (Int × List Byte × Nat) :=
  if dol.length = 0 ∨ sources.length = 0 ∨ data.length = 0 then .ok (-1, data, data.length)
  else buildLoop sources (dol.length + 1) dol data 0

end Verif.Dol
