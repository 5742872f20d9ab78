import Verif.Base

/-!
# Model of the allocations of `src/emv_tlv.c`, `src/emv_app.c`, `src/emv_tal.c` and `src/emv.c`

The values are left out: everything that decides where the code goes (what `malloc` returns, what the card answers, what
a parser makes of it) is an argument, so that a theorem about all arguments is one about all behaviours, with failing
allocations.  The statements that allocate, release, move and dereference blocks of memory are those of the code, in their
order.  Lists are the sequences of their nodes (their `next` pointers are modelled in `LinkedList.lean`); a function that
searches a list is taken to dereference all of its nodes.
-/

set_option autoImplicit false

namespace Verif.Own
open Verif

/-! ## Memory -/

/-- The allocated blocks; `next` was not handed out yet. -/
structure Heap where
  live : Nat → Bool
  next : Nat

/-- `malloc`, with its success. -/
def malloc (h : Heap) (ok : Bool) : Option Nat × Heap :=
  if ok then (some h.next, ⟨fun a => if a = h.next then true else h.live a, h.next + 1⟩) else (none, h)

/-- `free` of a pointer that is not NULL. -/
def free (h : Heap) (p : Nat) : C Heap :=
  if h.live p then .ok ⟨fun a => if a = p then false else h.live a, h.next⟩ else .error .uaf

/-- Reads of or writes to these blocks. -/
def touch (h : Heap) : List Nat → C Unit
  | [] => .ok ()
  | p :: ps => if h.live p then touch h ps else .error .uaf

/-! ## Fields (`src/emv_tlv.c`) -/

/-- `struct emv_tlv_t` (emv_tlv.h:38-50): where it is and `value`. -/
structure Tlv where
  node : Nat
  value : Nat
  deriving DecidableEq

/-- The blocks of fields. -/
def tlvBlocks (l : List Tlv) : List Nat := l.flatMap fun t => [t.node, t.value]

/-- What the two `malloc` of `emv_tlv_alloc` return. -/
structure Alloc where
  node : Bool
  value : Bool

/-- `emv_tlv_alloc` (emv_tlv.c:52-73). -/
def tlvAlloc (h : Heap) (s : Alloc) : C (Option Tlv × Heap) :=
  match malloc h s.node with
  | (none, h) => .ok (none, h)
  | (some p, h) =>
    match malloc h s.value with
    | (none, h) => do
      let h ← free h p
      .ok (none, h)
    | (some v, h) => .ok (some ⟨p, v⟩, h)

/-- `emv_tlv_free` (emv_tlv.c:75-92) of a field that is in no list. -/
def tlvFree (h : Heap) (t : Tlv) : C Heap := do
  touch h [t.node]
  let h ← free h t.value
  free h t.node

/-- `emv_tlv_list_push` (emv_tlv.c:128-156): the new list and 0, or -2. -/
def tlvPush (h : Heap) (l : List Tlv) (s : Alloc) : C (Int × List Tlv × Heap) := do
  let (t, h) ← tlvAlloc h s
  match t with
  | none => .ok (-2, l, h)
  | some t => do
    touch h (l.getLast?.toList.map (·.node))
    .ok (0, l ++ [t], h)

/-- `emv_tlv_list_clear` (emv_tlv.c:105-126). -/
def tlvClear (h : Heap) : List Tlv → C Heap
  | [] => .ok h
  | t :: l => do
    touch h [t.node]
    let h ← tlvFree h t
    tlvClear h l

/-- `emv_tlv_list_append` (emv_tlv.c:213-238): `other` is empty afterwards. -/
def tlvAppend (h : Heap) (l other : List Tlv) : C (List Tlv × List Tlv) := do
  touch h (l.getLast?.toList.map (·.node))
  .ok (l ++ other, [])

/-- The fields `emv_tlv_parse` finds before it ends, and its result if all of them can be allocated. -/
structure Parse where
  fields : List Alloc
  code : Int

/-- The pushes of `emv_tlv_parse` (emv_tlv.c:240-273), of which those of the recursive calls are part. -/
def pushes (h : Heap) (l : List Tlv) : List Alloc → C (Int × List Tlv × Heap)
  | [] => .ok (0, l, h)
  | s :: ss => do
    let (r, l, h) ← tlvPush h l s
    if r ≠ 0 then .ok (-2, l, h) else pushes h l ss

/-- `emv_tlv_parse` (emv_tlv.c:240-273). -/
def parse (h : Heap) (l : List Tlv) (s : Parse) : C (Int × List Tlv × Heap) := do
  let (r, l, h) ← pushes h l s.fields
  .ok (if r ≠ 0 then r else s.code, l, h)

/-! ## Applications (`src/emv_app.c`) -/

/-- `struct emv_app_t` (emv_app.h:36-79): where it is, `aid` and `tlv_list`. -/
structure App where
  block : Nat
  aid : Tlv
  tlvs : List Tlv

/-- The blocks of an application. -/
def App.blocks (a : App) : List Nat := a.block :: tlvBlocks a.tlvs

/-- The blocks of applications. -/
def appBlocks (l : List App) : List Nat := l.flatMap App.blocks

/-- The end of both constructors with an error (emv_app.c:83-85, 141-143): `emv_app_free` (emv_app.c:267-282) of an
application that is in no list. -/
def release (h : Heap) (block : Nat) (tlvs : List Tlv) : C Heap := do
  touch h [block]
  let h ← tlvClear h tlvs
  free h block

/-- `emv_app_free` (emv_app.c:267-282). -/
def appFree (h : Heap) (a : App) : C Heap := release h a.block a.tlvs

/-- How the construction of an application goes: `malloc`, whether the data is a template (emv_app.c:100-109), its fields,
which of them is the AID, and the codes of the two extractions. -/
structure Create where
  app : Bool
  template : Bool
  parse : Parse
  aid : Option Nat
  name : Int
  priority : Int

/-- `emv_app_create_from_pse`, `emv_app_create_from_fci` (emv_app.c:38-144); `pse` are the fields of the directory, if
there are any. -/
def create (h : Heap) (pse : List Tlv) (s : Create) : C (Option App × Heap) :=
  match malloc h s.app with
  | (none, h) => .ok (none, h)
  | (some p, h) => do
    touch h [p]
    if !s.template then do
      let h ← release h p []
      .ok (none, h)
    else do
      let (r, l, h) ← parse h [] s.parse
      if r ≠ 0 then do
        let h ← release h p l
        .ok (none, h)
      else do
        touch h (tlvBlocks l)
        match s.aid.bind (l[·]?) with
        | none => do
          let h ← release h p l
          .ok (none, h)
        | some aid => do
          touch h (p :: tlvBlocks pse ++ tlvBlocks l ++ tlvBlocks [aid])
          if s.name ≠ 0 ∨ s.priority ≠ 0 then do
            let h ← release h p l
            .ok (none, h)
          else .ok (some ⟨p, aid, l⟩, h)

/-- `emv_app_list_push` (emv_app.c:369-388). -/
def appPush (h : Heap) (l : List App) (a : App) : C (List App) := do
  touch h (l.getLast?.toList.map (·.block))
  touch h [a.block]
  .ok (l ++ [a])

/-- `emv_app_list_clear` (emv_app.c:346-367). -/
def appClear (h : Heap) : List App → C Heap
  | [] => .ok h
  | a :: l => do
    touch h [a.block]
    let h ← appFree h a
    appClear h l

/-- The loop of `emv_app_list_sort_priority` (emv_app.c:512-540) with the places in the sorted list. -/
def sortLoop (h : Heap) (sorted : List App) : List App → List Nat → C (List App)
  | [], _ => .ok sorted
  | a :: l, places => do
    touch h [a.block]
    touch h (sorted.map (·.block))
    sortLoop h (sorted.take (places.headD 0) ++ a :: sorted.drop (places.headD 0)) l places.tail

/-- `emv_app_list_sort_priority` (emv_app.c:500-544). -/
def sort (h : Heap) (l : List App) (places : List Nat) : C (List App) := sortLoop h [] l places

/-! ## Terminal application layer (`src/emv_tal.c`) -/

/-- An element of a record of the directory (emv_tal.c:260-292). -/
inductive Entry
  /-- it is no application template -/
  | other
  /-- an application, and whether it is supported -/
  | app (s : Create) (supported : Bool)

/-- The loop of `emv_tal_parse_aef_record` (emv_tal.c:260-292). -/
def entries (h : Heap) (pse aids : List Tlv) (apps : List App) : List Entry → C (List App × Heap)
  | [] => .ok (apps, h)
  | .other :: es => entries h pse aids apps es
  | .app s supported :: es => do
    let (a, h) ← create h pse s
    match a with
    | none => entries h pse aids apps es
    | some a => do
      touch h (a.block :: tlvBlocks [a.aid] ++ tlvBlocks aids)
      if supported then do
        let apps ← appPush h apps a
        entries h pse aids apps es
      else do
        let h ← appFree h a
        entries h pse aids apps es

/-- A record of the directory (emv_tal.c:152-204). -/
inductive Record
  /-- a status other than 9000 -/
  | unexpected
  /-- its elements, and the code of `emv_tal_parse_aef_record` -/
  | aef (es : List Entry) (code : Int)

/-- How reading the directory goes. -/
structure Pse where
  /-- the code of a return before the answer is parsed, or 0 -/
  early : Int
  fci : Parse
  /-- which field is the SFI -/
  sfi : Option Nat
  /-- it is of one byte -/
  sfiOk : Bool
  records : List Record
  /-- 0 when the card has no more records -/
  last : Int

/-- The loop of `emv_tal_read_pse` (emv_tal.c:152-204). -/
def records (h : Heap) (pse aids : List Tlv) (sfi : Tlv) (last : Int) (apps : List App) :
    List Record → C (Int × List App × Heap)
  | [] => do
    touch h [sfi.node, sfi.value]
    .ok (last, apps, h)
  | .unexpected :: rs => do
    touch h [sfi.node, sfi.value]
    records h pse aids sfi last apps rs
  | .aef es code :: rs => do
    touch h [sfi.node, sfi.value]
    let (apps, h) ← entries h pse aids apps es
    if code < 0 then .ok (code, apps, h) else records h pse aids sfi last apps rs

/-- The part of `emv_tal_read_pse` that ends at `exit` (emv_tal.c:117-208): code, `pse_tlv_list` and `app_list`. -/
def pseBody (h : Heap) (aids : List Tlv) (apps : List App) (s : Pse) : C (Int × List Tlv × List App × Heap) := do
  let (r, pse, h) ← parse h [] s.fci
  if r < 0 then .ok (1, pse, apps, h)
  else do
    touch h (tlvBlocks pse)
    match s.sfi.bind (pse[·]?) with
    | none => .ok (2, pse, apps, h)
    | some sfi => do
      touch h [sfi.node]
      if !s.sfiOk then .ok (3, pse, apps, h)
      else do
        let (r, apps, h) ← records h pse aids sfi s.last apps s.records
        .ok (r, pse, apps, h)

/-- `emv_tal_read_pse` (emv_tal.c:51-216).  Of the codes greater than 0 only the sign is that of the code. -/
def readPse (h : Heap) (aids : List Tlv) (apps : List App) (s : Pse) : C (Int × List App × Heap) :=
  if s.early ≠ 0 then .ok (s.early, apps, h)
  else do
    let (r, pse, apps, h) ← pseBody h aids apps s
    let h ← tlvClear h pse
    if r ≠ 0 then do
      let h ← appClear h apps
      .ok (r, [], h)
    else .ok (r, apps, h)

/-- What comes of one SELECT by `emv_tal_find_supported_apps` (emv_tal.c:315-449). -/
inductive Selected
  /-- it returns with this code -/
  | ends (code : Int)
  /-- it goes on to the next AID -/
  | refused
  /-- an application: its AID is as long as the one looked for, the latter may be a part of it, and it is not blocked -/
  | app (s : Create) (exact part valid : Bool)

/-- `emv_tal_find_supported_apps` (emv_tal.c:297-452); `aids` is from the current AID on.  When there are no more answers
the reader fails. -/
def findApps (h : Heap) (apps : List App) : List Tlv → List Selected → C (Int × List App × Heap)
  | [], _ => .ok (0, apps, h)
  | _ :: _, [] => .ok (-3, apps, h)
  | aid :: aids, s :: ss => do
    touch h [aid.node, aid.value]
    match s with
    | .ends code => .ok (if code = 0 then -3 else code, apps, h)
    | .refused => findApps h apps aids ss
    | .app c exact part valid => do
      let (a, h) ← create h [] c
      match a with
      | none => findApps h apps aids ss
      | some a => do
        touch h [aid.node, a.block, a.aid.node]
        if exact then
          if valid then do
            let apps ← appPush h apps a
            findApps h apps aids ss
          else do
            let h ← appFree h a
            findApps h apps aids ss
        else if part then
          if valid then do
            let apps ← appPush h apps a
            findApps h apps (aid :: aids) ss
          else do
            let h ← appFree h a
            findApps h apps (aid :: aids) ss
        else do
          let h ← appFree h a
          findApps h apps aids ss

/-- How a SELECT by `emv_tal_select_app` goes. -/
structure Select where
  /-- the code of a return before the answer is used, or 0 -/
  early : Int
  app : Create
  /-- the DF name is the AID -/
  same : Bool

/-- `emv_tal_select_app` (emv_tal.c:454-540). -/
def selectApp (h : Heap) (s : Select) : C (Int × Option App × Heap) :=
  if s.early ≠ 0 then .ok (s.early, none, h)
  else do
    let (a, h) ← create h [] s.app
    match a with
    | none => .ok (1, none, h)
    | some a => do
      touch h [a.block, a.aid.node, a.aid.value]
      if !s.same then do
        let h ← appFree h a
        .ok (2, none, h)
      else .ok (0, some a, h)

/-- The formats of an answer to GET PROCESSING OPTIONS. -/
inductive Format
  | one (aip afl : Alloc)
  | two (s : Parse)
  | other

/-- How GET PROCESSING OPTIONS goes. -/
structure Gpo where
  /-- the code of a return before fields are made, or 0 -/
  early : Int
  format : Format
  aip : Bool
  afl : Bool

/-- The fields of the answer (emv_tal.c:621-696): code and `gpo_list`. -/
def gpoFields (h : Heap) : Format → C (Int × List Tlv × Heap)
  | .one aip afl => do
    let (r, l, h) ← tlvPush h [] aip
    if r ≠ 0 then .ok (-1, l, h)
    else do
      let (r, l, h) ← tlvPush h l afl
      .ok (if r ≠ 0 then -1 else 0, l, h)
  | .two s => parse h [] s
  | .other => .ok (0, [], h)

/-- `emv_tal_get_processing_options` (emv_tal.c:542-741). -/
def gpo (h : Heap) (list : List Tlv) (s : Gpo) : C (Int × List Tlv × Heap) :=
  if s.early ≠ 0 then .ok (s.early, list, h)
  else do
    let (r, l, h) ← gpoFields h s.format
    if r ≠ 0 then do
      let h ← tlvClear h l
      .ok (-1, list, h)
    else do
      touch h (tlvBlocks l)
      if !s.aip || !s.afl then do
        let h ← tlvClear h l
        .ok (-7, list, h)
      else do
        let (list, l) ← tlvAppend h list l
        let h ← tlvClear h l
        .ok (0, list, h)

/-- The records `emv_tal_read_afl_records` parses (emv_tal.c:743-944), and its code if all of them can be parsed; 0 stands for
`EMV_TAL_RESULT_ODA_RECORD_INVALID` too, which the caller ignores (emv.c:748-754). -/
structure Afl where
  records : List Parse
  code : Int

/-- `emv_tal_read_sfi_records`, `emv_tal_read_afl_records` (emv_tal.c:743-944). -/
def readAfl (h : Heap) (list : List Tlv) (code : Int) : List Parse → C (Int × List Tlv × Heap)
  | [] => .ok (code, list, h)
  | s :: ss => do
    let (r, list, h) ← parse h list s
    if r ≠ 0 then .ok (-9, list, h) else readAfl h list code ss

/-! ## Kernel (`src/emv.c`) -/

/-- `struct emv_ctx_t` (emv.h:49-121). -/
structure Ctx where
  config : List Tlv
  aids : List Tlv
  params : List Tlv
  selected : Option App
  icc : List Tlv
  terminal : List Tlv

/-- `emv_ctx_init` (emv.c:53-63). -/
def Ctx.init : Ctx := ⟨[], [], [], none, [], []⟩

/-- `emv_app_free` of what may be NULL. -/
def appFreeOpt (h : Heap) : Option App → C Heap
  | none => .ok h
  | some a => appFree h a

/-- `emv_ctx_reset` (emv.c:65-78). -/
def reset (h : Heap) (c : Ctx) : C (Ctx × Heap) := do
  let h ← tlvClear h c.params
  let h ← tlvClear h c.icc
  let h ← tlvClear h c.terminal
  let h ← appFreeOpt h c.selected
  .ok ({ c with params := [], icc := [], terminal := [], selected := none }, h)

/-- `emv_ctx_clear` (emv.c:80-92). -/
def clear (h : Heap) (c : Ctx) : C (Ctx × Heap) := do
  let h ← tlvClear h c.config
  let h ← tlvClear h c.aids
  reset h { c with config := [], aids := [] }

/-- How `emv_build_candidate_list` goes. -/
structure Build where
  pse : Pse
  find : List Selected
  places : List Nat

/-- The search for applications when there are none (emv.c:365-377). -/
def discover (h : Heap) (c : Ctx) (apps : List App) (s : Build) : C (Int × List App × Heap) :=
  if apps.isEmpty then findApps h apps c.aids s.find else .ok (0, apps, h)

/-- `emv_build_candidate_list` (emv.c:334-396). -/
def build (h : Heap) (c : Ctx) (apps : List App) (s : Build) : C (Int × List App × Heap) := do
  let (r, apps, h) ← readPse h c.aids apps s.pse
  if r < 0 then .ok (1, apps, h)
  else do
    let (r, apps, h) ← discover h c apps s
    if r ≠ 0 then .ok (1, apps, h)
    else if apps.isEmpty then .ok (3, apps, h)
    else do
      let apps ← sort h apps s.places
      .ok (0, apps, h)

/-- `emv_select_application` (emv.c:398-488); `long` tells whether the AID has more than 16 bytes. -/
def select (h : Heap) (c : Ctx) (apps : List App) (index : Nat) (long : Bool) (s : Select) :
    C (Int × Ctx × List App × Heap) := do
  let h ← appFreeOpt h c.selected
  let c := { c with selected := none }
  touch h ((apps.take (index + 1)).map (·.block))
  match apps[index]? with
  | none => .ok (-2, c, apps, h)
  | some a => do
    let apps := apps.eraseIdx index
    touch h [a.block, a.aid.node]
    if long then do
      let h ← appFree h a
      .ok (if apps.isEmpty then 3 else 4, c, apps, h)
    else do
      touch h [a.aid.node, a.aid.value]
      let h ← appFree h a
      let (r, sel, h) ← selectApp h s
      let c := { c with selected := sel }
      if r < 0 then .ok (1, c, apps, h)
      else if r > 0 then .ok (if apps.isEmpty then 3 else 4, c, apps, h)
      else .ok (0, c, apps, h)

/-- How `emv_initiate_application_processing` goes. -/
structure Initiate where
  mode : Alloc
  aid : Alloc
  tsi : Alloc
  tvr : Alloc
  /-- the code of a return because of the PDOL, or 0 -/
  pdol : Int
  gpo : Gpo

/-- The terminal data (emv.c:522-586): code and list. -/
def terminalData (h : Heap) (aid : Tlv) (s : Initiate) : C (Int × List Tlv × Heap) := do
  let (r, l, h) ← tlvPush h [] s.mode
  if r ≠ 0 then .ok (-1, l, h)
  else do
    touch h [aid.node, aid.value]
    let (r, l, h) ← tlvPush h l s.aid
    if r ≠ 0 then .ok (-1, l, h)
    else do
      let (r, l, h) ← tlvPush h l s.tsi
      if r ≠ 0 then .ok (-1, l, h)
      else do
        let (r, l, h) ← tlvPush h l s.tvr
        .ok (if r ≠ 0 then -1 else 0, l, h)

/-- `emv_initiate_application_processing` (emv.c:490-709). -/
def initiate (h : Heap) (c : Ctx) (s : Initiate) : C (Int × Ctx × Heap) :=
  match c.selected with
  | none => .ok (-2, c, h)
  | some a => do
    let h ← tlvClear h c.icc
    let h ← tlvClear h c.terminal
    touch h [a.block]
    let (r, terminal, h) ← terminalData h a.aid s
    let c := { c with icc := [], terminal := terminal }
    if r ≠ 0 then .ok (-1, c, h)
    else do
      touch h (a.block :: tlvBlocks a.tlvs ++ tlvBlocks c.params ++ tlvBlocks c.config ++ tlvBlocks c.terminal)
      if s.pdol ≠ 0 then .ok (s.pdol, c, h)
      else do
        let (r, output, h) ← gpo h [] s.gpo
        if r ≠ 0 then do
          let h ← tlvClear h output
          .ok (r, c, h)
        else do
          touch h [a.block]
          let (icc, _) ← tlvAppend h a.tlvs output
          .ok (0, { c with icc := icc, selected := some { a with tlvs := [] } }, h)

/-- How `emv_read_application_data` goes. -/
structure Read where
  /-- the AFL was found -/
  afl : Bool
  read : Afl
  /-- the code for redundant and missing fields, or 0 -/
  check : Int

/-- `emv_read_application_data` (emv.c:711-806). -/
def read (h : Heap) (c : Ctx) (s : Read) : C (Int × Ctx × Heap) := do
  touch h (tlvBlocks c.icc)
  if !s.afl then .ok (1, c, h)
  else do
    let (r, data, h) ← readAfl h [] s.read.code s.read.records
    if r ≠ 0 then do
      let h ← tlvClear h data
      .ok (1, c, h)
    else do
      touch h (tlvBlocks data)
      if s.check ≠ 0 then do
        let h ← tlvClear h data
        .ok (s.check, c, h)
      else do
        let (icc, data) ← tlvAppend h c.icc data
        let h ← tlvClear h data
        .ok (0, { c with icc := icc }, h)

/-! ## Calls -/

/-- The lists the caller fills. -/
inductive Which
  | config
  | aids
  | params

/-- The calls of a program that uses the library, with how they go. -/
inductive Call
  | push (l : Which) (s : Alloc)
  | build (s : Build)
  | select (index : Nat) (long : Bool) (s : Select)
  | initiate (s : Initiate)
  | read (s : Read)
  | dropApps
  | reset
  | clear

/-- The context, the list of applications and the memory. -/
structure World where
  ctx : Ctx
  apps : List App
  heap : Heap

/-- After `emv_ctx_init`, with an empty list of applications. -/
def World.init : World := ⟨Ctx.init, [], ⟨fun _ => false, 0⟩⟩

/-- One call, with its code. -/
def call (w : World) : Call → C (Int × World)
  | .push .config s => do
    let (r, l, h) ← tlvPush w.heap w.ctx.config s
    .ok (r, { w with ctx := { w.ctx with config := l }, heap := h })
  | .push .aids s => do
    let (r, l, h) ← tlvPush w.heap w.ctx.aids s
    .ok (r, { w with ctx := { w.ctx with aids := l }, heap := h })
  | .push .params s => do
    let (r, l, h) ← tlvPush w.heap w.ctx.params s
    .ok (r, { w with ctx := { w.ctx with params := l }, heap := h })
  | .build s => do
    let (r, apps, h) ← build w.heap w.ctx w.apps s
    .ok (r, ⟨w.ctx, apps, h⟩)
  | .select index long s => do
    let (r, c, apps, h) ← select w.heap w.ctx w.apps index long s
    .ok (r, ⟨c, apps, h⟩)
  | .initiate s => do
    let (r, c, h) ← initiate w.heap w.ctx s
    .ok (r, ⟨c, w.apps, h⟩)
  | .read s => do
    let (r, c, h) ← read w.heap w.ctx s
    .ok (r, ⟨c, w.apps, h⟩)
  | .dropApps => do
    let h ← appClear w.heap w.apps
    .ok (0, ⟨w.ctx, [], h⟩)
  | .reset => do
    let (c, h) ← reset w.heap w.ctx
    .ok (0, ⟨c, w.apps, h⟩)
  | .clear => do
    let (c, h) ← clear w.heap w.ctx
    .ok (0, ⟨c, w.apps, h⟩)

/-- A sequence of calls. -/
def calls (w : World) : List Call → C World
  | [] => .ok w
  | k :: ks => do
    let (_, w) ← call w k
    calls w ks

end Verif.Own
