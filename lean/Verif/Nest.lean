import Verif.TlvParse
import Verif.Print
import Verif.ViewerText

/-!
# Recursion on nested data with a stack of limited depth

`iso8825_ber_decode`, `emv_tlv_parse`, the functions that list data (`tools/print_helpers.c`) and
those that build the tree and the marks of the viewer call themselves for nested data.  Here they are
given a number of frames, one for each call of one of them that is active at the same time, and end
with `Fault.stack` when a call finds none left.  Apart from that they are the functions of `Ber`,
`TlvParse`, `Print` and `Viewer`.  Calls of functions that do not call themselves are not counted.
-/

set_option autoImplicit false

namespace Verif.Nest
open Verif Ber

/-- How a run can fail: undefined behaviour, or no frame left for a call. -/
inductive Fault where
  | ub (u : UB)
  | stack
  deriving DecidableEq, Repr

/-- A run with a limited stack. -/
abbrev S (α : Type) : Type := Except Fault α

/-- A part of a run that calls none of the recursive functions. -/
def up {α : Type} : C α → S α
  | .ok a => .ok a
  | .error u => .error (.ub u)

/-- A call, with `frames` free. -/
def call {α : Type} (frames : Nat) (f : Nat → S α) : S α :=
  match frames with
  | 0 => .error .stack
  | n + 1 => f n

/-- The loop looking for end-of-contents (iso8825_ber.c:130-152), see `Ber.eocLoop`. -/
def eocLoop (dec : List Byte → S (Dec Tlv)) (buf : List Byte) (offset : Nat) :
    Nat → Nat → S (Except Int Nat)
  | 0, _ => .error (.ub .nonTerm)
  | fuel + 1, length => do
    let rest ← up (suffix buf (offset + length))
    match ← dec rest with
    | .err _ => .ok (.error (-7))
    | .eod => .ok (.error (-8))
    | .ok r inner =>
      if inner.tag = asn1Eoc then .ok (.ok length)
      else eocLoop dec buf offset fuel (length + r)

/-- `iso8825_ber_decode` (iso8825_ber.c:84-202), see `Ber.decodeF`, when `frames` are free. -/
def decode : Nat → List Byte → S (Dec Tlv)
  | 0, _ => .error .stack
  | frames + 1, buf =>
    if buf.length = 0 then .ok .eod
    else if buf.length < 2 then .ok (.err (-2))
    else do
      match ← up (tagDecode buf) with
      | .eod => .ok .eod
      | .err c => .ok (.err c)
      | .ok offset tag =>
        if offset ≥ buf.length then .ok (.err (-5))
        else do
          let b0 ← up (rd buf 0)
          let lb ← up (rd buf offset)
          if lb = lenIndefinite then
            let offset := offset + 1
            if b0 &&& constructedBit = 0 then .ok (.err (-6))
            else
              match ← eocLoop (decode frames) buf offset (buf.length + 1) 0 with
              | .error c => .ok (.err c)
              | .ok length => up (finish buf b0 tag offset length)
          else if lb &&& lenLongForm ≠ 0 then
            let count := (lb &&& lenCountMask).toNat
            let offset := offset + 1
            if count > sizeofUint then .ok (.err (-9))
            else if offset + count > buf.length then .ok (.err (-10))
            else do
              let length ← up (lenLoop buf count offset 0)
              up (finish buf b0 tag (offset + count) length)
          else up (finish buf b0 tag (offset + 1) lb.toNat)

/-- `iso8825_ber_itr_next` (iso8825_ber.c:248-264), see `Ber.itrNext`. -/
def itrNext (frames : Nat) (itr : List Byte) : S (List Byte × Dec Tlv) := do
  match ← decode frames itr with
  | .ok n t => do
    let rest ← up (suffix itr n)
    .ok (rest, .ok n t)
  | .eod => .ok (itr, .eod)
  | .err c => .ok (itr, .err c)

/-- The loop of `emv_tlv_parse` (emv_tlv.c:251-271), see `TlvParse.parseF`; `frames` are free below
the call it belongs to. -/
def parseF (alloc : List Tlv → Tlv → Bool) : Nat → Nat → List Byte → List Tlv → S (Int × List Tlv)
  | 0, _, _, _ => .error (.ub .nonTerm)
  | fuel + 1, frames, buf, list => do
    let (rest, d) ← itrNext frames buf
    match d with
    | .eod => .ok (0, list)
    | .err _ => .ok (1, list)
    | .ok _ tlv =>
      if tlv.isConstructed then do
        let (r, list) ← call frames (fun n => parseF alloc fuel n tlv.value list)
        if r ≠ 0 then .ok (r, list) else parseF alloc fuel frames rest list
      else
        let new : Tlv := { tlv with flags := 0 }
        if alloc list new then parseF alloc fuel frames rest (list ++ [new]) else .ok (-2, list)

/-- `emv_tlv_parse` (emv_tlv.c:240-272). -/
def parse (alloc : List Tlv → Tlv → Bool) (frames : Nat) (buf : List Byte) (list : List Tlv) :
    S (Int × List Tlv) :=
  call frames (fun n => parseF alloc (buf.length + 1) n buf list)

/-- The loop of `print_ber_buf_internal` and `print_emv_buf_internal` (print_helpers.c:357-461,
518-633), see `Print.walk`. -/
def walk (item : Nat → Tlv → C (List Byte × Option Int)) (pfx : List Byte) (pad : Bool) :
    Nat → Nat → Nat → List Byte → List Byte → Nat → S (List Byte × Nat)
  | 0, _, _, _, _, _ => .error (.ub .nonTerm)
  | fuel + 1, frames, depth, whole, itr, valid => do
    let (itr', d) ← itrNext frames itr
    match d with
    | .eod => .ok ([], valid)
    | .err c => up (Print.ending pfx pad depth whole valid c)
    | .ok r t => do
      let (line, stop) ← up (item depth t)
      if t.isConstructed then do
        let (inner, n) ← call frames (fun k => walk item pfx pad fuel k (depth + 1) t.value t.value 0)
        let valid := valid + (r - t.value.length) + n
        if n < t.value.length then .ok (line ++ inner, valid)
        else do
          let (more, n) ← walk item pfx pad fuel frames depth whole itr' valid
          .ok (line ++ inner ++ more, n)
      else
        match stop with
        | some c => do
          let (more, n) ← up (Print.ending pfx pad depth whole (valid + r) c)
          .ok (line ++ more, n)
        | none => do
          let (more, n) ← walk item pfx pad fuel frames depth whole itr' (valid + r)
          .ok (line ++ more, n)

/-- `print_ber_buf` and `print_emv_buf` (print_helpers.c:463-490, 635-662), see `Print.listing`. -/
def listing (item : Nat → Tlv → C (List Byte × Option Int)) (pfx : List Byte) (pad : Bool)
    (frames depth : Nat) (whole : List Byte) : S (List Byte) := do
  let (text, n) ← call frames (fun k => walk item pfx pad (whole.length + 1) k depth whole whole 0)
  let more ← up (Print.remainder whole n)
  .ok (text ++ more)

/-- The loop of `parseData` and `parseBerData` (emvtreeview.cpp:33-129, emvhighlighter.cpp:62-144),
see `Viewer.parseData`. -/
def parseData {ι : Type} (field : Nat → Nat → Nat → Tlv → C ι) (padding : Nat → Nat → List Byte → ι)
    (pad : Bool) : Nat → Nat → Nat → List Byte → List Byte → Nat → Nat → S (List ι × Nat × Bool)
  | 0, _, _, _, _, _, _ => .error (.ub .nonTerm)
  | fuel + 1, frames, depth, whole, itr, valid, total => do
    let (itr', d) ← itrNext frames itr
    match d with
    | .eod => .ok ([], total, true)
    | .err _ =>
      if pad && Viewer.looksLikePadding whole.length valid then do
        let rest ← up (slice whole valid (whole.length - valid))
        .ok ([padding depth total rest], total + (whole.length - valid), true)
      else .ok ([], total, false)
    | .ok r t => do
      let item ← up (field depth total r t)
      if t.isConstructed then do
        let (inner, total, ok) ← call frames (fun k => parseData field padding pad fuel k (depth + 1)
          t.value t.value 0 (total + (r - t.value.length)))
        if ok then do
          let (more, total, ok) ← parseData field padding pad fuel frames depth whole itr'
            (valid + (r - t.value.length) + t.value.length) total
          .ok (item :: (inner ++ more), total, ok)
        else .ok (item :: inner, total, false)
      else do
        let (more, total, ok) ← parseData field padding pad fuel frames depth whole itr' (valid + r)
          (total + r)
        .ok (item :: more, total, ok)

/-- `print_ber_buf` (print_helpers.c:463-490). -/
def berBuf (loc pfx : List Byte) (pad : Bool) (frames depth : Nat) (v : List Byte) : S (List Byte) :=
  listing (Print.berItem loc pfx) pfx pad frames depth v

/-- `print_emv_buf` (print_helpers.c:635-662). -/
def emvBuf (env : TlvInfo.Env) (loc : Nat → List Byte → List Byte) (pfx : List Byte) (pad : Bool)
    (frames depth : Nat) (v : List Byte) : S (List Byte) :=
  listing (Print.emvItem env loc pfx) pfx pad frames depth v

/-- `EmvTreeView::populateItems` (emvtreeview.cpp:131-149). -/
def populateItems (env : TlvInfo.Env) (frames : Nat) (data : List Byte) (t : Viewer.Tree) :
    S (Viewer.Tree × Nat) := do
  let (items, total, _) ← call frames (fun k => parseData (Viewer.fieldItem env t.decodeFields)
    Viewer.paddingItem t.ignorePadding (data.length + 1) k 0 data data 0 0)
  .ok ({ t with items }, total)

/-- `EmvHighlighter::parseBlocks` (emvhighlighter.cpp:159-239). -/
def parseBlocks (frames : Nat) (blocks : List (List Nat)) (h : Viewer.Highlighter) :
    S (Viewer.Highlighter × List Viewer.BlockData) := do
  let str := (blocks.map Viewer.withoutSpace).flatten
  let hexStrLen ← up (Viewer.hexPrefix str)
  let data := Viewer.fromHex (str.take (Viewer.evenLen hexStrLen))
  let (marks, validBytes, _) ← call frames (fun k => parseData
    (fun _ offset _ t => .ok (Viewer.Mark.tag (offset * 2) (Viewer.tagDigits t.tag)))
    (fun _ offset bytes => Viewer.Mark.padding (offset * 2) (bytes.length * 2))
    h.ignorePadding (data.length + 1) k 0 data data 0 0)
  .ok ({ h with
    berStrLen := some (validBytes * 2)
    tagPositions := marks.filterMap Viewer.Mark.tag?
    paddingPositions := marks.filterMap Viewer.Mark.padding? }, Viewer.blockDatas 0 blocks)

end Verif.Nest
