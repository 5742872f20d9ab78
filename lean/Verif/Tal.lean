import Verif.App
import Verif.Fields

/-!
# Model of the Terminal Application Layer, `src/emv_tal.c`

The transport layer below is an adversary: a script of wrapper results, one per command that
reaches the card.  What the wrappers of `Ttl.lean` send and deliver is the subject of
`C27_select`, `C27_read_record`, `C27_gpo` and `C27_delivers`; their refusal of parameters
without talking to the card is repeated here (`refusesName`, `refusesSfi`, `refusesGpo`).
Debug output is in `Trace.lean` (some of it reads an uninitialised variable, emv_tal.c:243).
-/

set_option autoImplicit false

namespace Verif.Tal
open Verif Ber TlvParse App Fields

/-- What a `emv_ttl_*` wrapper reports: return code, response data, SW1-SW2. -/
structure W where
  code : Int
  data : List Byte
  sw : Nat
  deriving DecidableEq, Repr

/-- A command handed to the card. -/
inductive Cmd where
  | select (next : Bool) (name : List Byte)
  | readRecord (sfi rec : Byte)
  | gpo (data : Option (List Byte))
  deriving DecidableEq, Repr

/-- End of a run: a result with the unused part of the script, or the script ended while
`cmd` was waiting for its answer. -/
inductive Out (α : Type) where
  | done (a : α) (rest : List W)
  | pending (cmd : Cmd)
  deriving DecidableEq, Repr

/-- A run: the exchanges so far, and how it ended. -/
abbrev Run (α : Type) := List (Cmd × W) × Out α

/-- End with a result. -/
def fin {α : Type} (a : α) (rest : List W) : C (Run α) := .ok ([], .done a rest)

/-- Put an exchange before a run. -/
def log {α : Type} (cmd : Cmd) (w : W) (x : C (Run α)) : C (Run α) := do
  let (l, o) ← x
  .ok ((cmd, w) :: l, o)

/-- Sequence two runs. -/
def andThen {α β : Type} (x : C (Run α)) (f : α → List W → C (Run β)) : C (Run β) := do
  match ← x with
  | (l, .done a rest) => do
    let (l', o) ← f a rest
    .ok (l ++ l', o)
  | (l, .pending cmd) => .ok (l, .pending cmd)

/-- Parameters `emv_ttl_select_by_df_name`(`_next`) refuses (emv_ttl.c:448-451, see
`Ttl.select`). -/
def refusesName (name : List Byte) : Bool := name.length < 5 || name.length > 16

/-- Parameters `emv_ttl_read_record` refuses (emv_ttl.c:570-574, see `Ttl.readRecord`). -/
def refusesSfi (sfi : Byte) : Bool := sfi.toNat < 1 || sfi.toNat > 30

/-- Parameters `emv_ttl_get_processing_options` refuses (emv_ttl.c:630-646, see `Ttl.gpo`). -/
def refusesGpo (data : Option (List Byte)) : Bool :=
  match data with
  | some d => d.length < 2 || d.length > 255 || d.head? != some 0x83
  | none => false

/-- One command: refused by the wrapper (code -3, nothing sent) or answered. -/
def send {α : Type} (refused : Bool) (cmd : Cmd) (script : List W) (k : W → List W → C (Run α)) : C (Run α) :=
  if refused then k ⟨-3, [], 0⟩ script
  else
    match script with
    | [] => .ok ([], .pending cmd)
    | w :: rest => log cmd w (k w rest)

/-! ## Records -/

/-- How the loop body of `emv_tal_read_sfi_records` ends for one record. -/
inductive Rec where
  /-- return this code -/
  | stop (code : Int) (list : List Tlv)
  /-- next record; `oda_record_invalid` is set -/
  | spoilt
  /-- next record -/
  | next (list : List Tlv)
  deriving DecidableEq, Repr

/-- The loop body after a successful READ RECORD (emv_tal.c:784-864).  `record` is an
uninitialised local array: an empty record makes `record[0]` an uninitialised read. -/
def record (alloc : List Tlv → Tlv → Bool) (sfi : Byte) (data : List Byte) (list : List Tlv) :
    C Rec :=
  if data.length = 0 then .error .uninit
  else do
    let b ← rd data 0
    if b ≠ 0x70 then
      if sfi.toNat ≥ 1 ∧ sfi.toNat ≤ 10 then .ok (.stop (-10) list) else .ok .spoilt
    else do
      let bad ← if sfi.toNat ≥ 1 ∧ sfi.toNat ≤ 10 then do
          match ← decode data with
          | .ok _ t => .ok (t.tag != 0x70 || decide (t.value.length + 3 < data.length))
          | _ => .ok true
        else .ok false
      if bad then .ok (.stop (-10) list)
      else do
        let (r, list) ← parse alloc data list
        if r < 0 then .ok (.stop (-1) list)
        else if r > 0 then .ok (.stop (-11) list)
        else .ok (.next list)

/-- The record loop of `emv_tal_read_sfi_records` (emv_tal.c:757-879): `rec` is a `uint8_t`
that wraps. -/
def sfiLoop (alloc : List Tlv → Tlv → Bool) (sfi last : Byte) :
    List W → Byte → Bool → List Tlv → C (Run (Int × List Tlv))
  | script, rec, oda, list =>
    if last.toNat < rec.toNat then fin (if oda then 14 else 0, list) script
    else if refusesSfi sfi then fin (-3, list) script
    else
      match script with
      | [] => .ok ([], .pending (.readRecord sfi rec))
      | w :: rest => log (.readRecord sfi rec) w (
          if w.code ≠ 0 then fin (-3, list) rest
          else if w.sw ≠ 0x9000 then fin (-9, list) rest
          else do
            match ← record alloc sfi w.data list with
            | .stop code list => fin (code, list) rest
            | .spoilt => sfiLoop alloc sfi last rest (rec + 1) true list
            | .next list => sfiLoop alloc sfi last rest (rec + 1) oda list)

/-- `emv_tal_read_sfi_records` (emv_tal.c:743-879). -/
def readSfi (alloc : List Tlv → Tlv → Bool) (e : AflEntry) (list : List Tlv) (script : List W) :
    C (Run (Int × List Tlv)) := sfiLoop alloc e.sfi e.last script e.first false list

/-- The loop of `emv_tal_read_afl_records` (emv_tal.c:917-943). -/
def aflLoop (alloc : List Tlv → Tlv → Bool) :
    Nat → List Byte → Bool → List Tlv → List W → C (Run (Int × List Tlv))
  | 0, _, _, _, _ => .error .nonTerm
  | fuel + 1, itr, oda, list, script => do
    let (itr', r) ← aflNext itr
    match r with
    | .eod => fin (if oda then 14 else 0, list) script
    | .err _ => fin (-8, list) script
    | .ok _ e => andThen (readSfi alloc e list script) (fun a rest =>
        if a.1 = 0 then aflLoop alloc fuel itr' oda a.2 rest
        else if a.1 = 14 then aflLoop alloc fuel itr' true a.2 rest
        else (fin a rest))

/-- `emv_tal_read_afl_records` (emv_tal.c:881-944). -/
def readAfl (alloc : List Tlv → Tlv → Bool) (afl : List Byte) (list : List Tlv)
    (script : List W) : C (Run (Int × List Tlv)) :=
  if afl.length = 0 then fin (-2, list) script
  else
    let r := aflInit afl
    if r < 0 then fin (-1, list) script
    else if r > 0 then fin (-8, list) script
    else aflLoop alloc (afl.length + 1) afl false list script

/-! ## GET PROCESSING OPTIONS -/

/-- An output pointer to a field. -/
inductive Ptr where
  | null
  | field (t : Tlv)
  /-- points to a freed field -/
  | dangling
  deriving DecidableEq, Repr

/-- Outputs of `emv_tal_get_processing_options`. -/
structure Gpo where
  code : Int
  list : List Tlv
  aip : Ptr
  afl : Ptr
  deriving DecidableEq, Repr

/-- The fields of the response (emv_tal.c:611-695): `error` is the code to return. -/
def gpoFields (alloc : List Tlv → Tlv → Bool) (data : List Byte) : C (Except Int (List Tlv)) := do
  match ← decode data with
  | .eod => .ok (.error (-6))
  | .err _ => .ok (.error (-6))
  | .ok _ t =>
    if t.tag = 0x80 then
      if t.value.length < 6 ∨ (t.value.length - 2) % 4 ≠ 0 then .ok (.error (-6))
      else do
        let a ← slice t.value 0 2
        let f ← slice t.value 2 (t.value.length - 2)
        if !alloc [] ⟨0x82, 0, a⟩ then .ok (.error (-1))
        else if !alloc [⟨0x82, 0, a⟩] ⟨0x94, 0, f⟩ then .ok (.error (-1))
        else .ok (.ok [⟨0x82, 0, a⟩, ⟨0x94, 0, f⟩])
    else if t.tag = 0x77 then do
      let (r, l) ← parse alloc t.value []
      if r < 0 then .ok (.error (-1))
      else if r > 0 then .ok (.error (-6))
      else .ok (.ok l)
    else .ok (.ok [])

/-- The parameter check of `emv_tal_get_processing_options` (emv_tal.c:563-566). -/
def badGpo (data : Option (List Byte)) : Bool :=
  match data with
  | some d => d.length < 2 || d.length > 255
  | none => false

/-- `emv_tal_get_processing_options` (emv_tal.c:542-741) with non-NULL `aip` and `afl`.
`data` is `none` for NULL.  At `exit` the local list is cleared, so after a failure the
`aip` output set before is left pointing to a freed field (emv_tal.c:706-708, 738-740). -/
def gpo (alloc : List Tlv → Tlv → Bool) (data : Option (List Byte)) (list : List Tlv)
    (script : List W) : C (Run Gpo) :=
  if badGpo data then
    -- the outputs are not touched (emv_tal.c:563-570)
    fin ⟨-2, list, .null, .null⟩ script
  else
    send (refusesGpo data) (.gpo data) script fun w rest =>
      if w.code ≠ 0 then fin ⟨-3, list, .null, .null⟩ rest
      else if w.sw ≠ 0x9000 then
        fin ⟨if w.sw = 0x6985 then 13 else -5, list, .null, .null⟩ rest
      else do
        match ← gpoFields alloc w.data with
        | .error c => fin ⟨c, list, .null, .null⟩ rest
        | .ok l =>
          match find l 0x82 with
          | none => fin ⟨-7, list, .null, .null⟩ rest
          | some a =>
            match find l 0x94 with
            | none => fin ⟨-7, list, .dangling, .null⟩ rest
            | some f => fin ⟨0, list ++ l, .field a, .field f⟩ rest

/-! ## Application selection -/

/-- The loop of `emv_tal_parse_aef_record` (emv_tal.c:263-294). -/
def aefLoop (pse supported : List Tlv) : Nat → List Byte → List App → C (List App)
  | 0, _, _ => .error .nonTerm
  | fuel + 1, itr, apps => do
    let (itr', r) ← itrNext itr
    match r with
    | .eod => .ok apps
    | .err _ => .ok apps
    | .ok _ t =>
      if t.tag ≠ 0x61 then aefLoop pse supported fuel itr' apps
      else do
        match ← createFromPse pse t.value with
        | none => aefLoop pse supported fuel itr' apps
        | some app =>
          if ← App.isSupported app.aid.value supported then
            aefLoop pse supported fuel itr' (apps ++ [app])
          else aefLoop pse supported fuel itr' apps

/-- `emv_tal_parse_aef_record` (emv_tal.c:218-295).  `iso8825_ber_itr_init` (iso8825_ber.c:236-246)
cannot fail here. -/
def aefRecord (pse supported : List Tlv) (data : List Byte) (apps : List App) :
    C (Int × List App) := do
  match ← decode data with
  | .eod => .ok (7, apps)
  | .err _ => .ok (7, apps)
  | .ok _ t =>
    if t.tag ≠ 0x70 then .ok (8, apps)
    else do
      let apps ← aefLoop pse supported (t.value.length + 1) t.value apps
      .ok (0, apps)

/-- The record loop of `emv_tal_read_pse` (emv_tal.c:144-201).  At `exit` a non-zero code
clears the application list. -/
def pseLoop (pse supported : List Tlv) (sfi : Byte) :
    List W → Byte → List App → C (Run (Int × List App))
  | script, rec, apps =>
    if refusesSfi sfi then fin (-3, []) script
    else
      match script with
      | [] => .ok ([], .pending (.readRecord sfi rec))
      | w :: rest => log (.readRecord sfi rec) w (
          if w.code ≠ 0 then fin (-3, []) rest
          else if w.sw = 0x6A83 then fin (0, apps) rest
          else if w.sw ≠ 0x9000 then pseLoop pse supported sfi rest (rec + 1) apps
          else do
            let (r, apps) ← aefRecord pse supported w.data apps
            if r < 0 then fin (r, []) rest
            else pseLoop pse supported sfi rest (rec + 1) apps)

/-- `EMV_PSE` (emv_fields.h:32): "1PAY.SYS.DDF01". -/
def pseName : List Byte :=
  [0x31, 0x50, 0x41, 0x59, 0x2E, 0x53, 0x59, 0x53, 0x2E, 0x44, 0x44, 0x46, 0x30, 0x31]

/-- `emv_tal_read_pse` (emv_tal.c:51-216); memory is assumed available.  The early returns
leave the application list as it is. -/
def readPse (supported : List Tlv) (apps : List App) (script : List W) : C (Run (Int × List App)) :=
  send (refusesName pseName) (.select false pseName) script fun w rest =>
    if w.code ≠ 0 then fin (-3, apps) rest
    else if w.sw = 0x6A81 then fin (-4, apps) rest
    else if w.sw = 0x6A82 then fin (1, apps) rest
    else if w.sw = 0x6283 then fin (2, apps) rest
    else if w.sw ≠ 0x9000 then fin (3, apps) rest
    else do
      let (r, pse) ← parse allocOk w.data []
      if r < 0 then fin (4, []) rest
      else
        match find pse 0x88 with
        | none => fin (5, []) rest
        | some t =>
          if t.value.length ≠ 1 then fin (6, []) rest
          else do
            let sfi ← rd t.value 0
            pseLoop pse supported sfi rest 1 apps

/-- `emv_tal_find_supported_apps` (emv_tal.c:297-452): `first` is `exact_match`.  Recursion
follows the script and, for refused or finished names, the list. -/
def findApps : List W → List Tlv → Bool → List App → C (Run (Int × List App))
  | script, [], _, apps => fin (0, apps) script
  | script, aid :: aids, first, apps =>
    if refusesName aid.value then fin (-3, apps) script
    else
      match script with
      | [] => .ok ([], .pending (.select (!first) aid.value))
      | w :: rest => log (.select (!first) aid.value) w (
          if w.code ≠ 0 then fin (-3, apps) rest
          else if first ∧ w.sw = 0x6A81 then fin (-4, apps) rest
          else if w.sw ≠ 0x9000 ∧ w.sw ≠ 0x6283 then findApps rest aids true apps
          else do
            match ← createFromFci w.data with
            | none => findApps rest aids true apps
            | some app =>
              let apps' := if w.sw = 0x9000 then apps ++ [app] else apps
              if aid.value.length = app.aid.value.length then findApps rest aids true apps'
              else if aid.flags = 1 then findApps rest (aid :: aids) false apps'
              else findApps rest aids true apps)

/-- `emv_tal_select_app` (emv_tal.c:454-540): code and selected application. -/
def selectApp (aid : List Byte) (script : List W) : C (Run (Int × Option App)) :=
  if aid.length < 5 ∨ aid.length > 16 then fin (-2, none) script
  else
    send (refusesName aid) (.select false aid) script fun w rest =>
      if w.code ≠ 0 then fin (-3, none) rest
      else if w.sw ≠ 0x9000 then
        fin (if w.sw = 0x6A81 then -4 else if w.sw = 0x6A82 then 9
          else if w.sw = 0x6283 then 10 else 11, none) rest
      else do
        match ← createFromFci w.data with
        | none => fin (12, none) rest
        | some app =>
          if app.aid.value.length ≠ aid.length then fin (11, none) rest
          else do
            let a ← slice app.aid.value 0 aid.length
            if a != aid then fin (11, none) rest
            else fin (0, some app) rest

end Verif.Tal
