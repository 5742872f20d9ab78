import Verif.ViewerText

/-!
# Model of the main window of the viewer

`EmvViewerMainWindow` (viewer/emv-viewer-mainwindow.cpp) as the handlers of its signals, and `main`
(viewer/emv-viewer.cpp) as far as it decides what the window starts with.

Of Qt are modelled: a check box signals a change only when its state changes; `rehighlight` calls
`highlightBlock` for each block and makes the text signal a change unless signals are blocked, as
the comments of the code say; when the text changes, the highlighter is called for some blocks
(`touched`), then the text signals the change; a block keeps its data or has none; the delayed
`rehighlight` of a new highlighter (`redraw`).  The geometry, scrolling, the descriptions of tags
and links are not modelled.
-/

set_option autoImplicit false

namespace Verif.Viewer
open Verif Ber TlvInfo

/-- What `descriptionText` shows: the legal text (emv-viewer-mainwindow.cpp:149-170), nothing, or a
name (with its description, which is not modelled). -/
inductive Description where
  | legal
  | empty
  | name (name : List Byte)
  deriving DecidableEq

/-- The widgets of the window (emv-viewer-mainwindow.h:33-66). -/
structure Window where
  /-- the lines of `dataEdit` -/
  blocks : List (List Nat)
  /-- the user data of each -/
  datas : List (Option BlockData)
  /-- the formats of the characters of each -/
  formats : List (List Format)
  tagsBox : Bool
  padBox : Bool
  decodeBox : Bool
  hl : Highlighter
  tree : Tree
  /-- the text behind "Remaining invalid data: " of the last item, if there is this item -/
  rest : Option (List Nat)
  /-- whether `updateTimer` runs -/
  timer : Bool
  shown : Description
  deriving DecidableEq

/-- `QSyntaxHighlighter::rehighlight`, for each block. -/
def highlightAll (h : Highlighter) : List (List Nat) → List (Option BlockData) → C (List (List Format))
  | [], _ => .ok []
  | b :: bs, ds => do
    let x ← highlightBlock h ds.head?.join b
    let xs ← highlightAll h bs ds.tail
    .ok (x :: xs)

/-- `rehighlight()` while signals are blocked. -/
def rehighlight (w : Window) : C Window := do
  let formats ← highlightAll w.hl w.blocks w.datas
  .ok { w with formats }

/-- `EmvViewerMainWindow::parseData` (emv-viewer-mainwindow.cpp:172-221). -/
def refreshTree (env : Env) (w : Window) : C Window := do
  let (tree, rest) ← showText env w.blocks w.tree
  .ok { w with tree, rest }

/-- `on_dataEdit_textChanged` (emv-viewer-mainwindow.cpp:228-242). -/
def onTextChanged (w : Window) : C Window := do
  let (hl, ds) ← parseBlocks w.blocks w.hl
  rehighlight { w with hl, datas := ds.map some, timer := true }

/-- `rehighlight()` while signals are not blocked. -/
def redraw (w : Window) : C Window := do
  let w ← rehighlight w
  onTextChanged w

/-- `on_tagsCheckBox_stateChanged` (emv-viewer-mainwindow.cpp:244-253). -/
def setTags (on : Bool) (w : Window) : C Window :=
  if w.tagsBox = on then .ok w
  else rehighlight { w with tagsBox := on, hl := { w.hl with emphasise := on } }

/-- `on_paddingCheckBox_stateChanged` (emv-viewer-mainwindow.cpp:255-266). -/
def setPadding (env : Env) (on : Bool) (w : Window) : C Window :=
  if w.padBox = on then .ok w
  else do
    let w ← redraw { w with padBox := on, hl := { w.hl with ignorePadding := on } }
    refreshTree env { w with tree := setIgnorePadding on w.tree }

/-- `on_decodeCheckBox_stateChanged` (emv-viewer-mainwindow.cpp:268-271). -/
def setDecode (on : Bool) (w : Window) : Window :=
  if w.decodeBox = on then w
  else { w with decodeBox := on, tree := setDecodeFields on w.tree }

/-- `on_treeView_itemPressed` (emv-viewer-mainwindow.cpp:273-310) for an `EmvTreeItem`. -/
def pressItem (i : Item) (w : Window) : C Window := do
  let w ← rehighlight { w with
    hl := { w.hl with selStart := (i.offset * 2 : Nat), selCount := (i.length * 2 : Nat) } }
  .ok { w with shown := match i.name with
    | some n => .name n
    | none => .empty }

/-- What happens to a window. -/
inductive Event where
  /-- the text becomes `blocks`; block `i` keeps the data of block `kept[i]` of before, if any;
  the blocks `touched` are highlighted before the text signals its change -/
  | edit (blocks : List (List Nat)) (kept : List (Option Nat)) (touched : List Nat)
  | redraw
  | timeout
  | tags (on : Bool)
  | padding (on : Bool)
  | decode (on : Bool)
  /-- the item of this number is pressed; another kind of item if there is none -/
  | press (index : Nat)
  deriving DecidableEq

/-- Some blocks are highlighted before the signal; the formats are replaced by those after it. -/
def touch (h : Highlighter) (blocks : List (List Nat)) (datas : List (Option BlockData)) :
    List Nat → C Unit
  | [] => .ok ()
  | i :: is => do
    let _ ← highlightBlock h (datas[i]?.join) (blocks[i]?.getD [])
    touch h blocks datas is

/-- The data that the blocks of a new text keep. -/
def keepDatas (old : List (Option BlockData)) (kept : List (Option Nat)) : List (Option BlockData) :=
  kept.map (fun k => k.bind (fun i => old[i]?.join))

/-- The slot of a signal. `on_updateTimer_timeout` is emv-viewer-mainwindow.cpp:223-226; the timer
is single shot (45-47). -/
def step (env : Env) (w : Window) : Event → C Window
  | .edit blocks kept touched => do
    touch w.hl blocks (keepDatas w.datas kept) touched
    onTextChanged { w with blocks, datas := keepDatas w.datas kept }
  | .redraw => redraw w
  | .timeout => if w.timer then refreshTree env { w with timer := false } else .ok w
  | .tags on => setTags on w
  | .padding on => setPadding env on w
  | .decode on => .ok (setDecode on w)
  | .press i =>
    match w.tree.items[i]? with
    | some item => pressItem item w
    | none => .ok { w with shown := .legal }

def steps (env : Env) : List Event → Window → C Window
  | [], w => .ok w
  | e :: es, w => do
    let w ← step env w e
    steps env es w

/-! ## Start and end -/

/-- The saved states of the check boxes (`Qt::PartiallyChecked`, which is never saved, is not
modelled). -/
structure Settings where
  tags : Option Bool
  padding : Option Bool
  decode : Option Bool
  deriving DecidableEq

/-- `setupUi` and the constructor up to `loadSettings` (emv-viewer-mainwindow.cpp:43-67): no box is
checked (emv-viewer-mainwindow.ui) and the text is one empty line. -/
def bareWindow : Window :=
  { blocks := [[]], datas := [none], formats := [[]], tagsBox := false, padBox := false
    decodeBox := false, hl := newHighlighter
    tree := setDecodeFields false (setIgnorePadding false ⟨false, true, []⟩)
    rest := none, timer := false, shown := .legal }

/-- A saved state is given to the handler. -/
def loadBox (set : Bool → Window → C Window) (saved : Option Bool) (w : Window) : C Window :=
  match saved with
  | some b => set b w
  | none => .ok w

/-- `loadSettings` (emv-viewer-mainwindow.cpp:90-119). -/
def loadSettings (env : Env) (s : Settings) (w : Window) : C Window := do
  let w ← loadBox setTags s.tags w
  let w ← loadBox (setPadding env) s.padding w
  loadBox (fun b w => .ok (setDecode b w)) s.decode w

/-- `saveSettings` (emv-viewer-mainwindow.cpp:121-147): only checked boxes are saved. -/
def saveSettings (w : Window) : Settings :=
  ⟨if w.tagsBox then some true else none, if w.padBox then some true else none,
   if w.decodeBox then some true else none⟩

/-- The lines of a text (`setPlainText`; only line feeds are modelled). -/
def lines : List Nat → List (List Nat)
  | [] => [[]]
  | c :: cs =>
    if c = 0x0A then [] :: lines cs
    else (c :: (lines cs).headD []) :: (lines cs).tail

/-- `setPlainText` in the constructor (emv-viewer-mainwindow.cpp:73-75). -/
def loadText (env : Env) (data : List Nat) (w : Window) : C Window :=
  if data.isEmpty then .ok w else step env w (.edit (lines data) [] [])

/-- The constructor (emv-viewer-mainwindow.cpp:37-82). -/
def startWindow (env : Env) (s : Settings) (data : List Nat) (decode : Option Bool) : C Window := do
  let w ← loadSettings env s bareWindow
  let w ← loadText env data w
  loadBox (fun b w => .ok (setDecode b w)) decode w

/-- `main` (emv-viewer.cpp:79-90): the text and the state of the check box that the options ask
for. -/
def overrides (ber tlv : List Nat) : List Nat × Option Bool :=
  let x := if ber.isEmpty then ([], none) else (ber, some false)
  if tlv.isEmpty then x else (tlv, some true)

/-- `main` (emv-viewer.cpp:67-97) for the result `r` of `emv_strings_init`: no window when it is
negative. -/
def startViewer (env : Env) (r : Int) (s : Settings) (ber tlv : List Nat) : C (Option Window) :=
  if r < 0 then .ok none
  else do
    let w ← startWindow env s (overrides ber tlv).1 (overrides ber tlv).2
    .ok (some w)

end Verif.Viewer
