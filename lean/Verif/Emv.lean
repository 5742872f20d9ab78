import Verif.Tal
import Verif.Dol
import Verif.LinkedListHistory

/-!
# Model of the EMV kernel functions of `src/emv.c` (lines 53-97, 334-806)

`emv_atr_parse` (108-332) is in `Atr.lean`.  Lists are the sequences they denote
(`C08_history`, `C35_history`); the card is the script of `Tal.lean`.  The one pointer
whose target moves between lists, `selected_app->aid`, is modelled with the place of the
field it points to (`Loc`); reading it after that field was freed is a use after free.
`alloc` tells whether an allocation for pushing a field onto a list succeeds.
-/

set_option autoImplicit false

namespace Verif.Emv
open Verif Ber TlvParse App Tal

/-- Where the field `selected_app->aid` points to lives. -/
inductive Loc where
  /-- in `selected_app->tlv_list` -/
  | own
  /-- in `ctx->icc` -/
  | icc
  /-- freed -/
  | freed
  deriving DecidableEq, Repr

/-- `ctx->selected_app`; `app.aid` is the field pointed to, if it still exists. -/
structure Sel where
  app : App
  aid : Loc
  deriving DecidableEq, Repr

/-- `struct emv_ctx_t` (emv.h:53-121) without the transport layer. -/
structure Ctx where
  config : List Tlv
  supported : List Tlv
  params : List Tlv
  selected : Option Sel
  icc : List Tlv
  terminal : List Tlv
  deriving DecidableEq, Repr

/-- `emv_ctx_init` (emv.c:53-63). -/
def Ctx.init : Ctx := ⟨[], [], [], none, [], []⟩

/-- `emv_tlv_list_clear(&ctx->icc)`: the fields in it are freed. -/
def Ctx.clearIcc (c : Ctx) : Ctx :=
  { c with icc := [],
           selected := c.selected.map fun s => if s.aid = .icc then { s with aid := .freed } else s }

/-- `emv_ctx_reset` (emv.c:65-78).  `emv_app_free` (emv_app.c:267-282) does not use
`app->aid`. -/
def Ctx.reset (c : Ctx) : Ctx :=
  { ({ c with params := [] } : Ctx).clearIcc with terminal := [], selected := none }

/-- `emv_ctx_clear` (emv.c:80-92). -/
def Ctx.clear (c : Ctx) : Ctx := { c with config := [], supported := [] }.reset

/-- `emv_app_list_sort_priority` on the denoted sequence (`LL.sort`, `C34_sort_partial`).  The
priority is the low nibble of a byte (emv_app.c:243-265), so below 16. -/
def sortApps (apps : List App) : List App := LL.bySort (fun a => Fin.ofNat 16 a.prio) apps

/-- The end of `emv_build_candidate_list` (emv.c:379-396). -/
def finish (apps : List App) (script : List W) : C (Run (Int × List App)) :=
  if apps.isEmpty then fin (3, apps) script else fin (0, sortApps apps) script

/-- `emv_build_candidate_list` (emv.c:334-396). -/
def build (supported : List Tlv) (apps : List App) (script : List W) : C (Run (Int × List App)) :=
  andThen (readPse supported apps script) fun a rest =>
    if a.1 < 0 then fin (if a.1 = -4 then 2 else 1, a.2) rest
    else if a.2.isEmpty then
      andThen (findApps rest supported true a.2) fun a rest =>
        if a.1 ≠ 0 then fin (if a.1 = -4 then 2 else 1, a.2) rest
        else finish a.2 rest
    else finish a.2 rest

/-- Outcome when the current candidate cannot be selected (emv.c:471-480). -/
def tryAgain (apps : List App) : Int := if apps.isEmpty then 3 else 4

/-- `emv_select_application` (emv.c:398-488): code, candidate list, context.  The removed
candidate is freed in all cases. -/
def select (ctx : Ctx) (apps : List App) (index : Nat) (script : List W) :
    C (Run (Int × List App × Ctx)) :=
  let ctx := { ctx with selected := none }
  match apps[index]? with
  | none => fin (-2, apps, ctx) script
  | some a =>
    let apps := apps.eraseIdx index
    if a.aid.value.length > 16 then fin (tryAgain apps, apps, ctx) script
    else
      andThen (selectApp a.aid.value script) fun x rest =>
        if x.1 < 0 then fin (if x.1 = -4 then 2 else 1, apps, ctx) rest
        else if x.1 > 0 then fin (tryAgain apps, apps, ctx) rest
        else fin (0, apps, { ctx with selected := x.2.map fun a => ⟨a, .own⟩ }) rest

/-- Pushes onto a list until one fails: whether all succeeded, and the list. -/
def pushAll (alloc : List Tlv → Tlv → Bool) : List Tlv → List Tlv → Bool × List Tlv
  | list, [] => (true, list)
  | list, t :: ts => if alloc list t then pushAll alloc (list ++ [t]) ts else (false, list)

/-- The initial terminal data (emv.c:525-589). -/
def terminalData (pos : Byte) (aid : List Byte) : List Tlv :=
  [⟨0x9F39, 0, [pos]⟩, ⟨0x9F06, 0, aid⟩, ⟨0x9B, 0, [0, 0]⟩, ⟨0x95, 0, [0, 0, 0, 0, 0]⟩]

/-- The PDOL processing of `emv_initiate_application_processing` (emv.c:596-657): `error` is
the code to return, `none` no data.  `buf` is the previous content of the 255-byte local
`gpo_data_buf`. -/
def gpoData (buf : List Byte) (sources : List (List Tlv)) (tlvs : List Tlv) :
    C (Except Int (Option (List Byte))) :=
  match find tlvs 0x9F38 with
  | none => .ok (.ok none)
  | some pdol => do
    let n ← Dol.computeDataLength pdol.value
    if n < 0 then .ok (.error 1)
    else if n > 255 - 3 then .ok (.error 1)
    else do
      let buf ← wr buf 0 0x83
      let (buf, off) ← (if n < 0x80 then do
          let buf ← wr buf 1 (UInt8.ofNat n.toNat)
          .ok (buf, 2)
        else do
          let buf ← wr buf 1 0x81
          let buf ← wr buf 2 (UInt8.ofNat n.toNat)
          .ok (buf, 3) : C (List Byte × Nat))
      let tail ← suffix buf off
      let (r, tail, len) ← Dol.buildData pdol.value sources tail
      if r ≠ 0 then .ok (.error (-1))
      else do
        let d ← slice (buf.take off ++ tail) 0 (len + off)
        .ok (.ok (some d))

/-- `emv_initiate_application_processing` (emv.c:490-709): code and context. -/
def initiate (alloc : List Tlv → Tlv → Bool) (buf : List Byte) (ctx : Ctx) (pos : Byte)
    (script : List W) : C (Run (Int × Ctx)) :=
  match ctx.selected with
  | none => fin (-2, ctx) script
  | some _ =>
    let ctx := { ctx.clearIcc with terminal := [] }
    match ctx.selected with
    | none => .error .uaf
    | some s =>
      if !alloc [] ⟨0x9F39, 0, [pos]⟩ then fin (-1, ctx) script
      else if s.aid = .freed then .error .uaf
      else
        let (ok, terminal) := pushAll alloc [] (terminalData pos s.app.aid.value)
        let ctx := { ctx with terminal := terminal }
        if !ok then fin (-1, ctx) script
        else do
          match ← gpoData buf [ctx.params, ctx.config, ctx.terminal] s.app.tlvs with
          | .error code => fin (code, ctx) script
          | .ok data =>
            andThen (gpo alloc data [] script) fun g rest =>
              if g.code < 0 then fin (if g.code = -1 ∨ g.code = -2 then -1 else 1, ctx) rest
              else if g.code > 0 then fin (if g.code = 13 then 5 else 1, ctx) rest
              else fin (0, { ctx with icc := s.app.tlvs ++ g.list,
                                      selected := some ⟨{ s.app with tlvs := [] }, .icc⟩ }) rest

/-- `emv_tlv_list_has_duplicate` (emv_tlv.c:196-211, see `C08_hasDup_iff`). -/
def hasDup : List Tlv → Bool
  | [] => false
  | t :: ts => ts.any (fun u => t.tag == u.tag) || hasDup ts

/-- The checks on the fields read (emv.c:758-789). -/
def complete (l : List Tlv) : Bool :=
  l.any (fun t => t.tag == 0x5F24) && l.any (fun t => t.tag == 0x5A) &&
    l.any (fun t => t.tag == 0x8C) && l.any (fun t => t.tag == 0x8D)

/-- `emv_read_application_data` (emv.c:711-806): code and context. -/
def readData (alloc : List Tlv → Tlv → Bool) (ctx : Ctx) (script : List W) : C (Run (Int × Ctx)) :=
  match find ctx.icc 0x94 with
  | none => fin (1, ctx) script
  | some afl =>
    andThen (readAfl alloc afl.value [] script) fun a rest =>
      if a.1 < 0 then fin (if a.1 = -1 ∨ a.1 = -2 then -1 else 1, ctx) rest
      else if a.1 ≠ 0 ∧ a.1 ≠ 14 then fin (1, ctx) rest
      else if hasDup a.2 then fin (1, ctx) rest
      else if !complete a.2 then fin (1, ctx) rest
      else fin (0, { ctx with icc := ctx.icc ++ a.2 }) rest

end Verif.Emv
