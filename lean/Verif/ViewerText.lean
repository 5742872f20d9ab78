import Verif.Viewer

/-!
# Model of the text of the viewer: parsing and highlighting

`EmvViewerMainWindow::parseData` (viewer/emv-viewer-mainwindow.cpp) and `EmvHighlighter`
(viewer/emvhighlighter.cpp).

A text is a list of blocks (lines), each a list of UTF-16 code units (`Nat`).  The functions of Qt used here
are modelled from their documentation: `simplified`, `remove`, `toPlainText`, `isSpace`, `fromHex`
(for digits only) and `setFormat`.  The text is shorter than 2^31 characters, so that positions do
not wrap.
-/

set_option autoImplicit false

namespace Verif.Viewer
open Verif Ber TlvInfo

/-- `QChar::isSpace`: the separators of Unicode and the control characters 09 to 0D and 85. -/
def isSpace (c : Nat) : Bool :=
  c == 0x20 || (decide (0x09 ≤ c) && decide (c ≤ 0x0D)) || c == 0x85 || c == 0xA0 || c == 0x1680 ||
    (decide (0x2000 ≤ c) && decide (c ≤ 0x200A)) || c == 0x2028 || c == 0x2029 || c == 0x202F ||
    c == 0x205F || c == 0x3000

/-- Every run of white space becomes one space. -/
def squeeze : List Nat → List Nat
  | [] => []
  | c :: cs =>
    if isSpace c then
      match squeeze cs with
      | 0x20 :: rest => 0x20 :: rest
      | rest => 0x20 :: rest
    else c :: squeeze cs

/-- `QString::simplified`. -/
def simplified (s : List Nat) : List Nat :=
  let sp := fun c : Nat => c == 0x20
  (((squeeze s).dropWhile sp).reverse.dropWhile sp).reverse

/-- `str.simplified().remove(' ')`. -/
def withoutSpace (s : List Nat) : List Nat := (simplified s).filter (fun c => !(c == 0x20))

/-- `QPlainTextEdit::toPlainText`: the blocks with line feeds between; line separators become line
feeds and no-break spaces spaces. -/
def toPlainText (blocks : List (List Nat)) : List Nat :=
  ([0x0A].intercalate blocks).map (fun c => if c = 0x2028 then 0x0A else if c = 0xA0 then 0x20 else c)

/-- The digits. -/
def digitVal (c : Nat) : Option Nat :=
  if 0x30 ≤ c ∧ c ≤ 0x39 then some (c - 0x30)
  else if 0x41 ≤ c ∧ c ≤ 0x46 then some (c - 0x37)
  else if 0x61 ≤ c ∧ c ≤ 0x66 then some (c - 0x57)
  else none

/-- `std::isxdigit`.  It is defined for the values of `unsigned char` (and EOF) only; the
implementations look others up outside of their table. -/
def isxdigit (c : Nat) : C Bool :=
  if c > 0xFF then .error .oobRead else .ok (digitVal c).isSome

/-- The loop that ends at the first character that is not a digit
(emv-viewer-mainwindow.cpp:190-196, emvhighlighter.cpp:193-199). -/
def hexPrefix : List Nat → C Nat
  | [] => .ok 0
  | c :: cs => do
    let x ← isxdigit c
    if x then do
      let n ← hexPrefix cs
      .ok (n + 1)
    else .ok 0

/-- `if (validLen & 0x01) validLen -= 1` (emv-viewer-mainwindow.cpp:199-203,
emvhighlighter.cpp:202-206). -/
def evenLen (n : Nat) : Nat := if n % 2 = 1 then n - 1 else n

/-- `QByteArray::fromHex` of an even number of digits. -/
def fromHex : List Nat → List Byte
  | a :: b :: rest =>
    UInt8.ofNat ((digitVal a).getD 0 * 16 + (digitVal b).getD 0) :: fromHex rest
  | _ => []

/-- `EmvViewerMainWindow::parseData` (emv-viewer-mainwindow.cpp:172-221): the tree and the text of
the last item, "Remaining invalid data: " left out. -/
def showText (env : Env) (blocks : List (List Nat)) (t : Tree) :
    C (Tree × Option (List Nat)) := do
  let str := toPlainText blocks
  if str.isEmpty then .ok ({ t with items := [] }, none)
  else do
    let str := withoutSpace str
    let validLen ← hexPrefix str
    let data := fromHex (str.take (evenLen validLen))
    let (t, validBytes) ← populateItems env data t
    .ok (t, if validBytes * 2 < str.length then some (str.drop (validBytes * 2)) else none)

/-! ## The highlighter -/

/-- Colours. -/
inductive Colour where
  | red | blue | darkGray | base00 | white
  deriving DecidableEq

/-- `QTextCharFormat`: weight, foreground and background. -/
structure Format where
  bold : Bool := false
  fg : Option Colour := none
  bg : Option Colour := none
  deriving DecidableEq

/-- emvhighlighter.cpp:265-275. -/
def plainFormat : Format := {}
def invalidFormat : Format := { fg := some .red }
def nonHexFormat : Format := { bold := true, bg := some .red }
def tagFormat : Format := { bold := true, fg := some .blue }
def paddingFormat : Format := { fg := some .darkGray }

/-- `EmvTextBlockUserData` (emvhighlighter.cpp:146-157). -/
structure BlockData where
  startPos : Nat
  length : Nat
  deriving DecidableEq

/-- `EmvHighlighter` (emvhighlighter.h:30-69).  `berStrLen` is not initialised (`none`) until
`parseBlocks`; `strLen` and `hexStrLen` are not read elsewhere. -/
structure Highlighter where
  emphasise : Bool
  ignorePadding : Bool
  selStart : Int
  selCount : Int
  berStrLen : Option Nat
  tagPositions : List (Nat × Nat)
  paddingPositions : List (Nat × Nat)
  deriving DecidableEq

/-- Initial values (emvhighlighter.h:59-68). -/
def newHighlighter : Highlighter := ⟨false, false, -1, 0, none, [], []⟩

/-- The length of a tag in digits (emvhighlighter.cpp:217-232). -/
def tagDigits (tag : Nat) : Nat :=
  if tag ≤ 0xFF then 2 else if tag ≤ 0xFFFF then 4 else if tag ≤ 0xFFFFFF then 6
  else if tag ≤ 0xFFFFFFFF then 8 else 0

/-- The first loop of `parseBlocks` (emvhighlighter.cpp:178-184): what is stored with each block. -/
def blockDatas : Nat → List (List Nat) → List BlockData
  | _, [] => []
  | start, b :: bs => ⟨start, (withoutSpace b).length⟩ :: blockDatas (start + (withoutSpace b).length) bs

/-- A tag or padding found by `parseBerData`. -/
inductive Mark where
  | tag (offset length : Nat)
  | padding (offset length : Nat)
  deriving DecidableEq

def Mark.tag? : Mark → Option (Nat × Nat)
  | .tag o l => some (o, l)
  | .padding _ _ => none

def Mark.padding? : Mark → Option (Nat × Nat)
  | .tag _ _ => none
  | .padding o l => some (o, l)

/-- `EmvHighlighter::parseBlocks` (emvhighlighter.cpp:159-239).  `parseBerData`
(emvhighlighter.cpp:62-144) is the same function as `parseData` of emvtreeview.cpp, with calls of
`tagFunc` and `paddingFunc` in place of the new items. -/
def parseBlocks (blocks : List (List Nat)) (h : Highlighter) :
    C (Highlighter × List BlockData) := do
  let str := (blocks.map withoutSpace).flatten
  let hexStrLen ← hexPrefix str
  let data := fromHex (str.take (evenLen hexStrLen))
  let (marks, validBytes, _) ← parseData
    (fun _ offset _ t => .ok (Mark.tag (offset * 2) (tagDigits t.tag)))
    (fun _ offset bytes => Mark.padding (offset * 2) (bytes.length * 2))
    h.ignorePadding (data.length + 1) 0 data data 0 0
  .ok ({ h with
    berStrLen := some (validBytes * 2)
    tagPositions := marks.filterMap Mark.tag?
    paddingPositions := marks.filterMap Mark.padding? }, blockDatas 0 blocks)

/-- A loop over the characters of a block that counts the digits.  `f digitIdx` is applied to the
format of a digit, `g` to that of another character. -/
def overDigits (f : Nat → Format → Format) (g : Format → Format) :
    Nat → List Nat → List Format → C (List Format)
  | digitIdx, c :: cs, x :: xs => do
    let d ← isxdigit c
    let rest ← overDigits f g (if d then digitIdx + 1 else digitIdx) cs xs
    .ok ((if d then f digitIdx x else g x) :: rest)
  | _, _, _ => .ok []

/-- One loop over the text for each position (emvhighlighter.cpp:315-332, 335-352). -/
def emphasise (new : Format) (startPos : Nat) (text : List Nat) :
    List (Nat × Nat) → List Format → C (List Format)
  | [], xs => .ok xs
  | p :: ps, xs => do
    let xs ← overDigits (fun k x => if p.1 ≤ startPos + k ∧ startPos + k < p.1 + p.2 then new else x) id
      0 text xs
    emphasise new startPos text ps xs

/-- The format of a selected digit (emvhighlighter.cpp:371-376). -/
def selected (x : Format) : Format :=
  { x with bg := some .base00, fg := if x.bold then some .white else x.fg }

/-- Valid, invalid and other characters (emvhighlighter.cpp:277-311). -/
def baseFormats (ber : Nat) (d : BlockData) (text : List Nat) : C (List Format) :=
  let start : List Format := List.replicate text.length plainFormat
  if ber ≥ d.startPos + d.length then .ok start
  else if ber ≤ d.startPos then
    overDigits (fun _ _ => invalidFormat) (fun _ => nonHexFormat) 0 text start
  else
    overDigits (fun k _ => if d.startPos + k < ber then plainFormat else invalidFormat)
      (fun _ => nonHexFormat) 0 text start

/-- Tags and padding (emvhighlighter.cpp:313-353). -/
def emphasised (h : Highlighter) (d : BlockData) (text : List Nat) (xs : List Format) :
    C (List Format) :=
  if h.emphasise then do
    let xs ← emphasise tagFormat d.startPos text h.tagPositions xs
    emphasise paddingFormat d.startPos text h.paddingPositions xs
  else .ok xs

/-- Selected digits (emvhighlighter.cpp:355-381). -/
def selectedFormats (h : Highlighter) (d : BlockData) (text : List Nat) (xs : List Format) :
    C (List Format) :=
  if h.selStart ≥ -1 ∧ h.selCount > 0 then
    overDigits (fun k x => if h.selStart ≤ (d.startPos + k : Nat) ∧
      ((d.startPos + k : Nat) : Int) < h.selStart + h.selCount then selected x else x) id 0 text xs
  else .ok xs

/-- `EmvHighlighter::highlightBlock` (emvhighlighter.cpp:241-382): the formats of the characters of
the block, which are plain before. -/
def highlightBlock (h : Highlighter) (d : Option BlockData) (text : List Nat) : C (List Format) :=
  match d with
  | none => .ok (List.replicate text.length plainFormat)
  | some d =>
    match h.berStrLen with
    | none => .error .uninit
    | some ber => do
      let xs ← baseFormats ber d text
      let xs ← emphasised h d text xs
      selectedFormats h d text xs

end Verif.Viewer
