import Verif.TlvParse
import Verif.Print
import Verif.ViewerText

/-!
# How often data are decoded

The functions that read nested data call `iso8825_ber_decode` for each object, and that function
calls itself to find the end of contents of indefinite length.  Here the calls of
`iso8825_ber_decode` are counted: each of them reads at most ten bytes of its own (identifier and
length octets) and otherwise makes further calls.  Apart from the count the functions are those of
`Ber`, `TlvParse`, `Print` and `Viewer` (`C144_same`).
-/

set_option autoImplicit false

namespace Verif.Work
open Verif Ber

/-- A run: how it ends, and how many calls of `iso8825_ber_decode` it made. -/
structure W (α : Type) where
  res : C α
  calls : Nat

instance : Monad W where
  pure a := ⟨.ok a, 0⟩
  bind x f := match x.res with
    | .ok a => ⟨(f a).res, x.calls + (f a).calls⟩
    | .error e => ⟨.error e, x.calls⟩

/-- A part of a run that decodes nothing. -/
def up {α : Type} (x : C α) : W α := ⟨x, 0⟩

/-- One call. -/
def tick : W Unit := ⟨.ok (), 1⟩

/-- The loop looking for end-of-contents (iso8825_ber.c:130-152), see `Ber.eocLoop`. -/
def eocLoop (dec : List Byte → W (Dec Tlv)) (buf : List Byte) (offset : Nat) :
    Nat → Nat → W (Except Int Nat)
  | 0, _ => up (.error .nonTerm)
  | fuel + 1, length => do
    let rest ← up (suffix buf (offset + length))
    match ← dec rest with
    | .err _ => up (.ok (.error (-7)))
    | .eod => up (.ok (.error (-8)))
    | .ok r inner =>
      if inner.tag = asn1Eoc then up (.ok (.ok length))
      else eocLoop dec buf offset fuel (length + r)

/-- `iso8825_ber_decode` (iso8825_ber.c:84-202), see `Ber.decodeF`. -/
def decodeF : Nat → List Byte → W (Dec Tlv)
  | 0, _ => up (.error .nonTerm)
  | fuel + 1, buf => do
    tick
    if buf.length = 0 then up (.ok .eod)
    else if buf.length < 2 then up (.ok (.err (-2)))
    else do
      match ← up (tagDecode buf) with
      | .eod => up (.ok .eod)
      | .err c => up (.ok (.err c))
      | .ok offset tag =>
        if offset ≥ buf.length then up (.ok (.err (-5)))
        else do
          let b0 ← up (rd buf 0)
          let lb ← up (rd buf offset)
          if lb = lenIndefinite then
            let offset := offset + 1
            if b0 &&& constructedBit = 0 then up (.ok (.err (-6)))
            else
              match ← eocLoop (decodeF fuel) buf offset (buf.length + 1) 0 with
              | .error c => up (.ok (.err c))
              | .ok length => up (finish buf b0 tag offset length)
          else if lb &&& lenLongForm ≠ 0 then
            let count := (lb &&& lenCountMask).toNat
            let offset := offset + 1
            if count > sizeofUint then up (.ok (.err (-9)))
            else if offset + count > buf.length then up (.ok (.err (-10)))
            else do
              let length ← up (lenLoop buf count offset 0)
              up (finish buf b0 tag (offset + count) length)
          else up (finish buf b0 tag (offset + 1) lb.toNat)

/-- `iso8825_ber_decode`, see `Ber.decode`. -/
def decode (buf : List Byte) : W (Dec Tlv) := decodeF (buf.length + 1) buf

/-- `iso8825_ber_itr_next` (iso8825_ber.c:248-264), see `Ber.itrNext`. -/
def itrNext (itr : List Byte) : W (List Byte × Dec Tlv) := do
  match ← decode itr with
  | .ok n t => do
    let rest ← up (suffix itr n)
    up (.ok (rest, .ok n t))
  | .eod => up (.ok (itr, .eod))
  | .err c => up (.ok (itr, .err c))

/-- The loop of `emv_tlv_parse` (emv_tlv.c:251-271), see `TlvParse.parseF`. -/
def parseF (alloc : List Tlv → Tlv → Bool) : Nat → List Byte → List Tlv → W (Int × List Tlv)
  | 0, _, _ => up (.error .nonTerm)
  | fuel + 1, buf, list => do
    let (rest, d) ← itrNext buf
    match d with
    | .eod => up (.ok (0, list))
    | .err _ => up (.ok (1, list))
    | .ok _ tlv =>
      if tlv.isConstructed then do
        let (r, list) ← parseF alloc fuel tlv.value list
        if r ≠ 0 then up (.ok (r, list)) else parseF alloc fuel rest list
      else
        let new : Tlv := { tlv with flags := 0 }
        if alloc list new then parseF alloc fuel rest (list ++ [new]) else up (.ok (-2, list))

/-- `emv_tlv_parse` (emv_tlv.c:240-272). -/
def parse (alloc : List Tlv → Tlv → Bool) (buf : List Byte) (list : List Tlv) : W (Int × List Tlv) :=
  parseF alloc (buf.length + 1) buf list

/-- The loop of `print_ber_buf_internal` and `print_emv_buf_internal` (print_helpers.c:357-461,
518-633), see `Print.walk`. -/
def walk (item : Nat → Tlv → C (List Byte × Option Int)) (pfx : List Byte) (pad : Bool) :
    Nat → Nat → List Byte → List Byte → Nat → W (List Byte × Nat)
  | 0, _, _, _, _ => up (.error .nonTerm)
  | fuel + 1, depth, whole, itr, valid => do
    let (itr', d) ← itrNext itr
    match d with
    | .eod => up (.ok ([], valid))
    | .err c => up (Print.ending pfx pad depth whole valid c)
    | .ok r t => do
      let (line, stop) ← up (item depth t)
      if t.isConstructed then do
        let (inner, n) ← walk item pfx pad fuel (depth + 1) t.value t.value 0
        let valid := valid + (r - t.value.length) + n
        if n < t.value.length then up (.ok (line ++ inner, valid))
        else do
          let (more, n) ← walk item pfx pad fuel depth whole itr' valid
          up (.ok (line ++ inner ++ more, n))
      else
        match stop with
        | some c => do
          let (more, n) ← up (Print.ending pfx pad depth whole (valid + r) c)
          up (.ok (line ++ more, n))
        | none => do
          let (more, n) ← walk item pfx pad fuel depth whole itr' (valid + r)
          up (.ok (line ++ more, n))

/-- `print_ber_buf` and `print_emv_buf` (print_helpers.c:463-490, 635-662), see `Print.listing`. -/
def listing (item : Nat → Tlv → C (List Byte × Option Int)) (pfx : List Byte) (pad : Bool)
    (depth : Nat) (whole : List Byte) : W (List Byte) := do
  let (text, n) ← walk item pfx pad (whole.length + 1) depth whole whole 0
  let more ← up (Print.remainder whole n)
  up (.ok (text ++ more))

/-- The loop of `parseData` and `parseBerData` (emvtreeview.cpp:33-129, emvhighlighter.cpp:62-144),
see `Viewer.parseData`. -/
def parseData {ι : Type} (field : Nat → Nat → Nat → Tlv → C ι) (padding : Nat → Nat → List Byte → ι)
    (pad : Bool) : Nat → Nat → List Byte → List Byte → Nat → Nat → W (List ι × Nat × Bool)
  | 0, _, _, _, _, _ => up (.error .nonTerm)
  | fuel + 1, depth, whole, itr, valid, total => do
    let (itr', d) ← itrNext itr
    match d with
    | .eod => up (.ok ([], total, true))
    | .err _ =>
      if pad && Viewer.looksLikePadding whole.length valid then do
        let rest ← up (slice whole valid (whole.length - valid))
        up (.ok ([padding depth total rest], total + (whole.length - valid), true))
      else up (.ok ([], total, false))
    | .ok r t => do
      let item ← up (field depth total r t)
      if t.isConstructed then do
        let (inner, total, ok) ← parseData field padding pad fuel (depth + 1) t.value t.value 0
          (total + (r - t.value.length))
        if ok then do
          let (more, total, ok) ← parseData field padding pad fuel depth whole itr'
            (valid + (r - t.value.length) + t.value.length) total
          up (.ok (item :: (inner ++ more), total, ok))
        else up (.ok (item :: inner, total, false))
      else do
        let (more, total, ok) ← parseData field padding pad fuel depth whole itr' (valid + r)
          (total + r)
        up (.ok (item :: more, total, ok))

/-- `print_ber_buf` (print_helpers.c:463-490). -/
def berBuf (loc pfx : List Byte) (pad : Bool) (depth : Nat) (v : List Byte) : W (List Byte) :=
  listing (Print.berItem loc pfx) pfx pad depth v

/-- `print_emv_buf` (print_helpers.c:635-662). -/
def emvBuf (env : TlvInfo.Env) (loc : Nat → List Byte → List Byte) (pfx : List Byte) (pad : Bool)
    (depth : Nat) (v : List Byte) : W (List Byte) :=
  listing (Print.emvItem env loc pfx) pfx pad depth v

/-- `EmvTreeView::populateItems` (emvtreeview.cpp:131-149). -/
def populateItems (env : TlvInfo.Env) (data : List Byte) (t : Viewer.Tree) :
    W (Viewer.Tree × Nat) := do
  let (items, total, _) ← parseData (Viewer.fieldItem env t.decodeFields)
    Viewer.paddingItem t.ignorePadding (data.length + 1) 0 data data 0 0
  up (.ok ({ t with items }, total))

/-- `EmvHighlighter::parseBlocks` (emvhighlighter.cpp:159-239). -/
def parseBlocks (blocks : List (List Nat)) (h : Viewer.Highlighter) :
    W (Viewer.Highlighter × List Viewer.BlockData) := do
  let str := (blocks.map Viewer.withoutSpace).flatten
  let hexStrLen ← up (Viewer.hexPrefix str)
  let data := Viewer.fromHex (str.take (Viewer.evenLen hexStrLen))
  let (marks, validBytes, _) ← parseData
    (fun _ offset _ t => .ok (Viewer.Mark.tag (offset * 2) (Viewer.tagDigits t.tag)))
    (fun _ offset bytes => Viewer.Mark.padding (offset * 2) (bytes.length * 2))
    h.ignorePadding (data.length + 1) 0 data data 0 0
  up (.ok ({ h with
    berStrLen := some (validBytes * 2)
    tagPositions := marks.filterMap Viewer.Mark.tag?
    paddingPositions := marks.filterMap Viewer.Mark.padding? }, Viewer.blockDatas 0 blocks))

end Verif.Work
