import Verif.Print

/-!
# Model of the tree view of `viewer/`

`EmvTreeView` and `EmvTreeItem` (viewer/emvtreeview.cpp, viewer/emvtreeitem.cpp).

A tree is the list of its items from top to bottom, each with its depth below the invisible root.
The texts of items are the bytes handed to the conversion from UTF-8 to `QString`; the conversion is
not modelled, nor are fonts, colours and the expansion of items.  The data are shorter than 2^31
bytes.  The depth of the recursion is not limited (the stack is not modelled).
-/

set_option autoImplicit false

namespace Verif.Viewer
open Verif Ber TlvInfo

/-! ## Items -/

/-- An item that is not an `EmvTreeItem`: what is shown below a primitive field. -/
structure Detail where
  text : List Byte
  /-- its children -/
  entries : List (List Byte)
  hidden : Bool
  deriving DecidableEq

/-- `EmvTreeItem` (emvtreeitem.h:32-72). -/
structure Item where
  depth : Nat
  /-- `m_srcOffset` -/
  offset : Nat
  /-- `m_srcLength` -/
  length : Nat
  /-- `m_tagName`, when not empty -/
  name : Option (List Byte)
  constructed : Bool
  /-- `m_simpleFieldStr` -/
  simple : List Byte
  /-- `m_decodedFieldStr` -/
  decoded : List Byte
  /-- the text set -/
  text : List Byte
  /-- the children of an item that is not constructed -/
  details : List Detail
  deriving DecidableEq

/-- `EmvTreeItem::render` (emvtreeitem.cpp:128-150). -/
def Item.render (showDecoded : Bool) (i : Item) : Item :=
  if showDecoded then
    { i with
      text := i.decoded
      details := if i.constructed then i.details
        else i.details.map (fun d => { d with hidden := false }) }
  else
    { i with
      text := i.simple
      details := if i.constructed then i.details
        else i.details.map (fun d => { d with hidden := true }) }

/-- `QByteArray::toHex(' ').toUpper()`. -/
def hexSpaced : List Byte → List Byte
  | [] => []
  | [b] => Bits.hex02 b
  | b :: c :: rest => Bits.hex02 b ++ 0x20 :: hexSpaced (c :: rest)

/-- `valueStrIsList` (emvtreeitem.cpp:201-209).  `qstrnlen` stops at the end of the array. -/
def valueStrIsList (str : List Byte) : C Bool := do
  let c ← rd str 0
  if c = 0 then .ok false
  else do
    let last ← rd str ((str.takeWhile (· ≠ 0)).length - 1)
    .ok (last == 0x0A)

/-- `buildSimpleFieldString` for the text `title` (emvtreeitem.cpp:211-232 and, with the tag as
title, 234-254); `none` is a null pointer. -/
def simpleText (title : List Byte) (length : Nat) (value : Option (List Byte)) : List Byte :=
  match value with
  | some v => title ++ txt!" : [" ++ Lists.decU length ++ txt!"] " ++ hexSpaced v
  | none => title ++ txt!" : [" ++ Lists.decU length ++ txt!"]"

/-- The text `valueStr.constData()` up to its terminator; a `QByteArray` has one after its last
byte. -/
def cText (str : List Byte) : List Byte := str.takeWhile (· ≠ 0)

/-- `buildDecodedFieldString` (emvtreeitem.cpp:256-281). -/
def decodedText (tag : Nat) (info : Info) (str : List Byte) : C (List Byte) :=
  match info.name with
  | some n => do
    let l ← valueStrIsList str
    let c ← rd str 0
    let fieldStr := Print.hexU tag ++ txt!" | " ++ n
    if l = false ∧ c ≠ 0 then
      match info.fmt with
      | .a | .an | .ans => .ok (fieldStr ++ txt!" : \"" ++ cText str ++ txt!"\"")
      | _ => .ok (fieldStr ++ txt!" : " ++ cText str)
    else .ok fieldStr
  | none => .ok (Print.hexU tag)

/-- `buildFieldString` (emvtreeitem.cpp:283-302). -/
def fieldText (tag : Nat) (info : Info) (length : Option Nat) : List Byte :=
  match length with
  | some l => Print.tagText tag info ++ txt!" [" ++ Lists.decU l ++ txt!"]"
  | none => Print.tagText tag info

/-- `QString::trimmed` of a text without white space outside ASCII. -/
def trimmed (s : List Byte) : List Byte :=
  let sp := fun b : Byte => b == 0x20 || (0x09 ≤ b && b ≤ 0x0D)
  ((s.dropWhile sp).reverse.dropWhile sp).reverse

/-- `addValueStringList` (emvtreeitem.cpp:304-332), for a list. -/
def stringList (str : List Byte) : Detail :=
  ⟨trimmed ((str.take (str.length - 1)).takeWhile (· ≠ 0)), [], false⟩

/-- The loop of `addValueDol` (emvtreeitem.cpp:359-379).  An error ends it like the end of the
data. -/
def dolEntries : Nat → List Byte → C (List (List Byte))
  | 0, _ => .error .nonTerm
  | fuel + 1, itr => do
    let (itr', d) ← Dol.itrNext itr
    match d with
    | .ok _ e => do
      let info ← Print.infoNull e.tag e.length
      let more ← dolEntries fuel itr'
      .ok (fieldText e.tag info (some e.length) :: more)
    | _ => .ok []

/-- `addValueDol` (emvtreeitem.cpp:334-382). -/
def dolDetail (v : List Byte) : C Detail := do
  let entries ← dolEntries (v.length + 1) v
  .ok ⟨txt!"Data Object List:", entries, false⟩

/-- The loop of `addValueTagList` (emvtreeitem.cpp:402-425). -/
def tagEntries : Nat → List Byte → C (List (List Byte))
  | 0, _ => .error .nonTerm
  | fuel + 1, rest => do
    let d ← tagDecode rest
    match d with
    | .ok r tag => do
      let info ← Print.infoNull tag 0
      let rest' ← suffix rest r
      let more ← tagEntries fuel rest'
      .ok (fieldText tag info none :: more)
    | _ => .ok []

/-- `addValueTagList` (emvtreeitem.cpp:384-428). -/
def tagDetail (v : List Byte) : C Detail := do
  let entries ← tagEntries (v.length + 1) v
  .ok ⟨txt!"Tag List:", entries, false⟩

/-- `addValueRaw` (emvtreeitem.cpp:430-456). -/
def rawDetail (v : List Byte) : Detail :=
  ⟨txt!"[" ++ Lists.decU v.length ++ txt!"] " ++ hexSpaced v, [], false⟩

/-- What is added below a primitive field after its bytes (emvtreeitem.cpp:188-194). -/
def moreDetails (f : Fmt) (v str : List Byte) : C (List Detail) := do
  let l ← valueStrIsList str
  if l then .ok [stringList str]
  else
    match f with
    | .dol => do
      let d ← dolDetail v
      .ok [d]
    | .tagList => do
      let d ← tagDetail v
      .ok [d]
    | _ => .ok []

/-- The constructor of `EmvTreeItem` for a field, with `setTlv` (emvtreeitem.cpp:79-97, 152-199). -/
def fieldItem (env : Env) (decode : Bool) (depth offset length : Nat) (t : Tlv) : C Item := do
  let (_, info, str) ← getInfo env t.tag t.value (List.replicate 2048 0)
  let decoded ← decodedText t.tag info str
  if t.isConstructed then
    .ok (Item.render decode
      { depth, offset, length, name := info.name, constructed := true
        simple := simpleText (Print.hexU t.tag) t.value.length none
        decoded, text := [], details := [] })
  else do
    let more ← moreDetails info.fmt t.value str
    .ok (Item.render decode
      { depth, offset, length, name := info.name, constructed := false
        simple := simpleText (Print.hexU t.tag) t.value.length (some t.value)
        decoded, text := [], details := rawDetail t.value :: more })

/-- The constructor of `EmvTreeItem` for padding (emvtreeitem.cpp:99-116, called with
emvtreeview.cpp:108-114). -/
def paddingItem (depth offset : Nat) (bytes : List Byte) : Item :=
  let s := simpleText txt!"Padding" bytes.length (some bytes)
  Item.render false
    { depth, offset, length := bytes.length, name := none, constructed := false
      simple := s, decoded := s, text := [], details := [] }

/-! ## The tree -/

/-- `len - validBytes > 0 && (...)` (emvtreeview.cpp:100-106, emvhighlighter.cpp:123-129). -/
def looksLikePadding (len valid : Nat) : Bool :=
  decide (len - valid > 0) &&
    ((decide (len % 8 = 0) && decide (len - valid < 8)) ||
     (decide (len % 16 = 0) && decide (len - valid < 16)))

/-- `parseData` (emvtreeview.cpp:33-129): the items added, `*totalValidBytes` and the result.
`field depth offset length tlv` makes the item of a field, `padding depth offset bytes` that of
padding.  `whole` is the buffer, `itr` what remains of it. -/
def parseData {ι : Type} (field : Nat → Nat → Nat → Tlv → C ι) (padding : Nat → Nat → List Byte → ι)
    (pad : Bool) : Nat → Nat → List Byte → List Byte → Nat → Nat → C (List ι × Nat × Bool)
  | 0, _, _, _, _, _ => .error .nonTerm
  | fuel + 1, depth, whole, itr, valid, total => do
    let (itr', d) ← itrNext itr
    match d with
    | .eod => .ok ([], total, true)
    | .err _ =>
      if pad && looksLikePadding whole.length valid then do
        let rest ← slice whole valid (whole.length - valid)
        .ok ([padding depth total rest], total + (whole.length - valid), true)
      else .ok ([], total, false)
    | .ok r t => do
      let item ← field depth total r t
      if t.isConstructed then do
        let (inner, total, ok) ← parseData field padding pad fuel (depth + 1) t.value t.value 0
          (total + (r - t.value.length))
        if ok then do
          let (more, total, ok) ← parseData field padding pad fuel depth whole itr'
            (valid + (r - t.value.length) + t.value.length) total
          .ok (item :: (inner ++ more), total, ok)
        else .ok (item :: inner, total, false)
      else do
        let (more, total, ok) ← parseData field padding pad fuel depth whole itr' (valid + r)
          (total + r)
        .ok (item :: more, total, ok)

/-- `EmvTreeView` (emvtreeview.h:26-47). -/
structure Tree where
  ignorePadding : Bool
  decodeFields : Bool
  items : List Item
  deriving DecidableEq

/-- `EmvTreeView::populateItems` (emvtreeview.cpp:131-149). -/
def populateItems (env : Env) (data : List Byte) (t : Tree) : C (Tree × Nat) := do
  let (items, total, _) ← parseData (fieldItem env t.decodeFields) paddingItem t.ignorePadding
    (data.length + 1) 0 data data 0 0
  .ok ({ t with items }, total)

/-- `EmvTreeView::setIgnorePadding` (emvtreeview.h:37). -/
def setIgnorePadding (enabled : Bool) (t : Tree) : Tree := { t with ignorePadding := enabled }

/-- `EmvTreeView::setDecodeFields` (emvtreeview.cpp:151-170). -/
def setDecodeFields (enabled : Bool) (t : Tree) : Tree :=
  if t.decodeFields = enabled then t
  else { t with decodeFields := enabled, items := t.items.map (Item.render enabled) }

end Verif.Viewer
