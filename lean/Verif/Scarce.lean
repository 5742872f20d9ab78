import Verif.Emv

/-!
# Application selection when memory may run out

The functions of `Tal` and `Emv` that build the candidate list and select an application, with an allocator that may fail at
each call.  In `Tal` and `Emv` these allocations succeed.
-/

set_option autoImplicit false

namespace Verif.Scarce
open Verif Ber TlvParse App Tal Emv

/-- Memory during one call of a constructor of applications: whether there is some for the application
(emv_app.c:47-50, 94-97), and for each field (emv_tlv.c:56-66). -/
structure Mem where
  app : Bool
  fields : List Tlv → Tlv → Bool

/-- Enough memory. -/
def plenty : Mem := ⟨true, allocOk⟩

/-- `emv_app_create_from_pse` (emv_app.c:38-86); `none` is NULL. -/
def createFromPse (m : Mem) (pse : List Tlv) (entry : List Byte) : C (Option App) :=
  if !m.app then .ok none
  else do
    let (r, tlvs) ← parse m.fields entry []
    if r ≠ 0 then .ok none else App.build (some pse) 0x4F tlvs

/-- `emv_app_create_from_fci` (emv_app.c:88-144); `none` is NULL.  An empty FCI is undefined as in `App.createFromFci`. -/
def createFromFci (m : Mem) (fci : List Byte) : C (Option App) :=
  if !m.app then .ok none
  else do
    match ← decode fci with
    | .eod => .error .uninit
    | .err _ => .ok none
    | .ok n t =>
      if n ≠ fci.length then .ok none
      else if t.tag ≠ 0x6F then .ok none
      else do
        let (r, tlvs) ← parse m.fields t.value []
        if r ≠ 0 then .ok none else App.build none 0x84 tlvs

/-- The loop of `emv_tal_parse_aef_record` (emv_tal.c:263-294).  Memory is told by the iterations left, so that each call has
its own. -/
def aefLoop (m : Nat → Mem) (pse supported : List Tlv) : Nat → List Byte → List App → C (List App)
  | 0, _, _ => .error .nonTerm
  | fuel + 1, itr, apps => do
    let (itr', r) ← itrNext itr
    match r with
    | .eod => .ok apps
    | .err _ => .ok apps
    | .ok _ t =>
      if t.tag ≠ 0x61 then aefLoop m pse supported fuel itr' apps
      else do
        match ← createFromPse (m fuel) pse t.value with
        | none => aefLoop m pse supported fuel itr' apps
        | some app =>
          if ← App.isSupported app.aid.value supported then
            aefLoop m pse supported fuel itr' (apps ++ [app])
          else aefLoop m pse supported fuel itr' apps

/-- `emv_tal_parse_aef_record` (emv_tal.c:218-295). -/
def aefRecord (m : Nat → Mem) (pse supported : List Tlv) (data : List Byte) (apps : List App) : C (Int × List App) := do
  match ← decode data with
  | .eod => .ok (7, apps)
  | .err _ => .ok (7, apps)
  | .ok _ t =>
    if t.tag ≠ 0x70 then .ok (8, apps)
    else do
      let apps ← aefLoop m pse supported (t.value.length + 1) t.value apps
      .ok (0, apps)

/-- The record loop of `emv_tal_read_pse` (emv_tal.c:144-201).  Memory is told by the answers left. -/
def pseLoop (m : Nat → Nat → Mem) (pse supported : List Tlv) (sfi : Byte) :
    List W → Byte → List App → C (Run (Int × List App))
  | script, rec, apps =>
    if refusesSfi sfi then fin (-3, []) script
    else
      match script with
      | [] => .ok ([], .pending (.readRecord sfi rec))
      | w :: rest => log (.readRecord sfi rec) w (
          if w.code ≠ 0 then fin (-3, []) rest
          else if w.sw = 0x6A83 then fin (0, apps) rest
          else if w.sw ≠ 0x9000 then pseLoop m pse supported sfi rest (rec + 1) apps
          else do
            let (r, apps) ← aefRecord (m rest.length) pse supported w.data apps
            if r < 0 then fin (r, []) rest
            else pseLoop m pse supported sfi rest (rec + 1) apps)

/-- `emv_tal_read_pse` (emv_tal.c:51-216); `alloc` is for the fields of the directory's FCI. -/
def readPse (alloc : List Tlv → Tlv → Bool) (m : Nat → Nat → Mem) (supported : List Tlv) (apps : List App)
    (script : List W) : C (Run (Int × List App)) :=
  send (refusesName pseName) (.select false pseName) script fun w rest =>
    if w.code ≠ 0 then fin (-3, apps) rest
    else if w.sw = 0x6A81 then fin (-4, apps) rest
    else if w.sw = 0x6A82 then fin (1, apps) rest
    else if w.sw = 0x6283 then fin (2, apps) rest
    else if w.sw ≠ 0x9000 then fin (3, apps) rest
    else do
      let (r, pse) ← parse alloc w.data []
      if r < 0 then fin (4, []) rest
      else
        match find pse 0x88 with
        | none => fin (5, []) rest
        | some t =>
          if t.value.length ≠ 1 then fin (6, []) rest
          else do
            let sfi ← rd t.value 0
            pseLoop m pse supported sfi rest 1 apps

/-- `emv_tal_find_supported_apps` (emv_tal.c:297-452).  Memory is told by the answers left. -/
def findApps (m : Nat → Mem) : List W → List Tlv → Bool → List App → C (Run (Int × List App))
  | script, [], _, apps => fin (0, apps) script
  | script, aid :: aids, first, apps =>
    if refusesName aid.value then fin (-3, apps) script
    else
      match script with
      | [] => .ok ([], .pending (.select (!first) aid.value))
      | w :: rest => log (.select (!first) aid.value) w (
          if w.code ≠ 0 then fin (-3, apps) rest
          else if first ∧ w.sw = 0x6A81 then fin (-4, apps) rest
          else if w.sw ≠ 0x9000 ∧ w.sw ≠ 0x6283 then findApps m rest aids true apps
          else do
            match ← createFromFci (m rest.length) w.data with
            | none => findApps m rest aids true apps
            | some app =>
              let apps' := if w.sw = 0x9000 then apps ++ [app] else apps
              if aid.value.length = app.aid.value.length then findApps m rest aids true apps'
              else if aid.flags = 1 then findApps m rest (aid :: aids) false apps'
              else findApps m rest aids true apps)

/-- `emv_build_candidate_list` (emv.c:334-396). -/
def build (alloc : List Tlv → Tlv → Bool) (m : Nat → Nat → Mem) (f : Nat → Mem) (supported : List Tlv) (apps : List App)
    (script : List W) : C (Run (Int × List App)) :=
  andThen (readPse alloc m supported apps script) fun a rest =>
    if a.1 < 0 then fin (if a.1 = -4 then 2 else 1, a.2) rest
    else if a.2.isEmpty then
      andThen (findApps f rest supported true a.2) fun a rest =>
        if a.1 ≠ 0 then fin (if a.1 = -4 then 2 else 1, a.2) rest
        else Emv.finish a.2 rest
    else Emv.finish a.2 rest

/-- `emv_tal_select_app` (emv_tal.c:454-540). -/
def selectApp (m : Mem) (aid : List Byte) (script : List W) : C (Run (Int × Option App)) :=
  if aid.length < 5 ∨ aid.length > 16 then fin (-2, none) script
  else
    send (refusesName aid) (.select false aid) script fun w rest =>
      if w.code ≠ 0 then fin (-3, none) rest
      else if w.sw ≠ 0x9000 then
        fin (if w.sw = 0x6A81 then -4 else if w.sw = 0x6A82 then 9
          else if w.sw = 0x6283 then 10 else 11, none) rest
      else do
        match ← createFromFci m w.data with
        | none => fin (12, none) rest
        | some app =>
          if app.aid.value.length ≠ aid.length then fin (11, none) rest
          else do
            let a ← slice app.aid.value 0 aid.length
            if a != aid then fin (11, none) rest
            else fin (0, some app) rest

/-- `emv_select_application` (emv.c:398-488). -/
def select (m : Mem) (ctx : Ctx) (apps : List App) (index : Nat) (script : List W) : C (Run (Int × List App × Ctx)) :=
  let ctx := { ctx with selected := none }
  match apps[index]? with
  | none => fin (-2, apps, ctx) script
  | some a =>
    let apps := apps.eraseIdx index
    if a.aid.value.length > 16 then fin (tryAgain apps, apps, ctx) script
    else
      andThen (selectApp m a.aid.value script) fun x rest =>
        if x.1 < 0 then fin (if x.1 = -4 then 2 else 1, apps, ctx) rest
        else if x.1 > 0 then fin (tryAgain apps, apps, ctx) rest
        else fin (0, apps, { ctx with selected := x.2.map fun a => ⟨a, .own⟩ }) rest

end Verif.Scarce
