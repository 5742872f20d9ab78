import Verif.Base

/-! # Model of `src/emv_fields.c`: AFL, CVM List and IAD -/

set_option autoImplicit false

namespace Verif.Fields
open Verif

/-! ## Application File Locator -/

/-- `struct emv_afl_entry_t` (emv_fields.h). -/
structure AflEntry where
  sfi : Byte
  first : Byte
  last : Byte
  oda : Byte
  deriving DecidableEq, Repr

/-- `emv_afl_itr_init` (emv_fields.c:327-349): return code; on 0 the iterator is the whole
field. -/
def aflInit (afl : List Byte) : Int :=
  if afl.length = 0 then -1
  else if afl.length % 4 ≠ 0 then 1
  else if afl.length > 252 then 2
  else 0

/-- `emv_afl_itr_next` (emv_fields.c:351-408): the iterator is the list of remaining bytes.
`afl[2] - afl[1] + 1` is `int` arithmetic on promoted bytes. -/
def aflNext (itr : List Byte) : C (List Byte × Dec AflEntry) :=
  if itr.length = 0 then .ok (itr, .eod)
  else if itr.length % 4 ≠ 0 then .ok (itr, .err (-2))
  else do
    let a0 ← rd itr 0
    if a0 &&& 0x07 ≠ 0 then .ok (itr, .err (-3))
    else if a0 &&& 0xF8 = 0 ∨ a0 &&& 0xF8 = 0xF8 then .ok (itr, .err (-4))
    else do
      let a1 ← rd itr 1
      if a1 = 0 then .ok (itr, .err (-5))
      else do
        let a2 ← rd itr 2
        if a2.toNat < a1.toNat then .ok (itr, .err (-6))
        else do
          let a3 ← rd itr 3
          if (a3.toNat : Int) > (a2.toNat : Int) - a1.toNat + 1 then .ok (itr, .err (-7))
          else do
            let rest ← suffix itr 4
            .ok (rest, .ok 4 ⟨(a0 &&& 0xF8) >>> 3, a1, a2, a3⟩)

/-- A caller's loop over the iterator (e.g. emv_tal.c:917-941): entries seen, final code. -/
def aflIterate : Nat → List Byte → C (List AflEntry × Int)
  | 0, _ => .error .nonTerm
  | fuel + 1, itr => do
    let (itr', r) ← aflNext itr
    match r with
    | .eod => .ok ([], 0)
    | .err c => .ok ([], c)
    | .ok _ e => do
      let (es, c) ← aflIterate fuel itr'
      .ok (e :: es, c)

/-- Initialisation and loop: a non-zero initialisation code is the result. -/
def aflAll (afl : List Byte) : C (List AflEntry × Int) :=
  if aflInit afl ≠ 0 then .ok ([], aflInit afl)
  else aflIterate (afl.length + 1) afl

/-! ## CVM List -/

/-- `struct emv_cv_rule_t`. -/
structure CvRule where
  cvm : Byte
  cond : Byte
  deriving DecidableEq, Repr

/-- The amount loops (emv_fields.c:452-457, 460-465): `X <<= 8; X |= amount[i]` in
`uint32_t`. -/
def beLoop : Nat → List Byte → Nat → Nat → C Nat
  | 0, _, _, acc => .ok acc
  | n + 1, buf, i, acc => do
    let b ← rd buf i
    beLoop n buf (i + 1) ((acc <<< 8) % 2 ^ 32 ||| b.toNat)

/-- `emv_cvmlist_itr_init` (emv_fields.c:410-471): error code, or amounts and the rest. -/
def cvmInit (buf : List Byte) : C (Except Int (Nat × Nat × List Byte)) :=
  if buf.length = 0 then .ok (.error (-1))
  else if buf.length % 2 ≠ 0 then .ok (.error 1)
  else if buf.length < 4 + 4 + 2 then .ok (.error 2)
  else if (buf.length - 4 - 4) % 2 ≠ 0 then .ok (.error 3)
  else if buf.length > 252 then .ok (.error 4)
  else do
    let x ← beLoop 4 buf 0 0
    let rest ← suffix buf 4
    let y ← beLoop 4 rest 0 0
    let itr ← suffix buf 8
    .ok (.ok (x, y, itr))

/-- `emv_cvmlist_itr_next` (emv_fields.c:473-501). -/
def cvmNext (itr : List Byte) : C (List Byte × Dec CvRule) :=
  if itr.length = 0 then .ok (itr, .eod)
  else if itr.length % 2 ≠ 0 then .ok (itr, .err (-2))
  else do
    let a ← rd itr 0
    let b ← rd itr 1
    let rest ← suffix itr 2
    .ok (rest, .ok 2 ⟨a, b⟩)

/-- A caller's loop (e.g. emv_strings.c:3416-3481). -/
def cvmIterate : Nat → List Byte → C (List CvRule × Int)
  | 0, _ => .error .nonTerm
  | fuel + 1, itr => do
    let (itr', r) ← cvmNext itr
    match r with
    | .eod => .ok ([], 0)
    | .err c => .ok ([], c)
    | .ok _ e => do
      let (es, c) ← cvmIterate fuel itr'
      .ok (e :: es, c)

/-- Initialisation and loop: `error` is the initialisation code. -/
def cvmAll (buf : List Byte) : C (Except Int (Nat × Nat × List CvRule × Int)) := do
  match ← cvmInit buf with
  | .error c => .ok (.error c)
  | .ok (x, y, itr) => do
    let (rs, c) ← cvmIterate (itr.length + 1) itr
    .ok (.ok (x, y, rs, c))

/-! ## Issuer Application Data -/

/-- `enum emv_iad_format_t` (emv_fields.h:354-365). -/
inductive IadFormat where
  | invalid | unknown | ccd | mchip4 | mchipAdvance | vsdc0 | vsdc1 | vsdc2 | vsdc3 | vsdc4
  deriving DecidableEq, Repr

/-- C `&&` on conditions that may touch memory. -/
def andC (a b : C Bool) : C Bool := do
  if ← a then b else .ok false

/-- `buf[i]` satisfies `p`. -/
def rdIs (buf : List Byte) (i : Nat) (p : Byte → Bool) : C Bool := do
  let b ← rd buf i
  .ok (p b)

/-- The final part of `emv_iad_get_format` (emv_fields.c:543-567): Visa. -/
def iadVisa (iad : List Byte) : C IadFormat := do
  if ← andC (.ok (decide (7 ≤ iad.length)))
      (andC (rdIs iad 0 (· == 0x06)) (rdIs iad 3 (· == 0x03))) then
    let b ← rd iad 2
    let f := (b &&& 0xF0) >>> 4
    .ok (if f = 0 then .vsdc0 else if f = 1 then .vsdc1 else if f = 3 then .vsdc3 else .invalid)
  else if ← andC (.ok (decide (iad.length = 32)))
      (andC (rdIs iad 0 (· == 0x1F)) (rdIs iad 8 (fun b => b &&& 0xF0 == 0))) then
    let b ← rd iad 1
    let f := (b &&& 0xF0) >>> 4
    .ok (if f = 2 then .vsdc2 else if f = 4 then .vsdc4 else .invalid)
  else .ok .unknown

/-- `emv_iad_get_format` (emv_fields.c:503-567; constants emv_fields.h). -/
def iadFormat (iad : List Byte) : C IadFormat :=
  if iad.length = 0 then .ok .invalid
  else do
    if ← andC (.ok (decide (iad.length = 32)))
        (andC (rdIs iad 0 (· == 0x0F))
        (andC (rdIs iad 1 (fun b => b &&& 0xF0 == 0xA0))
        (andC (rdIs iad 1 (fun b => b &&& 0x0F == 0x05 || b &&& 0x0F == 0x06))
          (rdIs iad 16 (· == 0x0F))))) then
      .ok .ccd
    else if ← andC (.ok (decide (18 ≤ iad.length)))
        (andC (rdIs iad 1 (fun b => b &&& 0xF0 == 0x10))
        (andC (rdIs iad 1 (fun b => b &&& 0x08 == 0))
          (rdIs iad 1 (fun b => b &&& 0x02 == 0)))) then
      if iad.length = 18 then .ok .mchip4
      else if iad.length = 20 ∨ iad.length = 26 ∨ iad.length = 28 then .ok .mchipAdvance
      else iadVisa iad
    else iadVisa iad

end Verif.Fields
