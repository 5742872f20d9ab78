import Verif.TlvParse
import Verif.Formats
import Verif.Iso8859

/-!
# Model of the application objects of `src/emv_app.c` (lines 38-316)

The list operations (318-566) are in `LinkedList.lean`; here lists are the sequences they
denote.  `malloc` is assumed to succeed (a failing one gives NULL, like malformed data).
-/

set_option autoImplicit false

namespace Verif.App
open Verif Ber TlvParse

/-- `struct emv_app_t` (emv_app.h:36-80).  The `aid` pointer (into `tlv_list`) is represented
by the field it points to. -/
structure App where
  aid : Tlv
  name : List Byte
  prio : Nat
  conf : Bool
  tlvs : List Tlv
  deriving DecidableEq, Repr

/-- `emv_tlv_list_find_const` (emv_tlv.c:179-194, emv_tlv.h) on the denoted sequence. -/
def find (l : List Tlv) (tag : Nat) : Option Tlv := l.find? (fun t => t.tag == tag)

/-- `strlen` of a char array. -/
def strlen : List Byte → C Nat
  | [] => .error .oobRead
  | b :: s => if b = 0 then .ok 0 else do
    let n ← strlen s
    .ok (n + 1)

/-- The code table part of `emv_app_extract_display_name` (emv_app.c:161-176). -/
def codeTable (pse : Option (List Tlv)) (tlvs : List Tlv) : C Nat :=
  match find (pse.getD tlvs) 0x9F11 with
  | some t =>
    if t.value.length = 1 then do
      let b ← rd t.value 0
      .ok (if Iso8859.isSupported b.toNat then b.toNat else 0)
    else .ok 0
  | none => .ok 0

/-- The preferred name part (emv_app.c:177-211): whether it was used, and `display_name`.  The
local 17-byte array starts uninitialised; zeros here (its old content is never read,
`C12_non_control`). -/
def preferredName (ct : Nat) (tlvs : List Tlv) (name : List Byte) : C (Bool × List Byte) :=
  if ct = 0 then .ok (false, name)
  else
    match find tlvs 0x9F12 with
    | none => .ok (false, name)
    | some t => do
      let (r, s) ← Formats.ansToNonControlStr t.value (List.replicate 17 0)
      if r = 0 then do
        let n ← strlen s
        let iso ← slice s 0 n
        let (r, name) ← Iso8859.toUtf8 ct iso name
        .ok (r == 0, name)
      else .ok (false, name)

/-- `emv_app_extract_display_name` (emv_app.c:146-241), `app->aid` non-NULL: the code and
`display_name`. -/
def displayName (pse : Option (List Tlv)) (tlvs : List Tlv) (aid : Tlv) (name : List Byte) :
    C (Int × List Byte) := do
  let ct ← codeTable pse tlvs
  let (used, name) ← preferredName ct tlvs name
  if used then .ok (0, name)
  else
    match find tlvs 0x50 with
    | some t => do
      let (_, name) ← Formats.ansToAlnumSpaceStr t.value name
      .ok (0, name)
    | none => Formats.bToStr aid.value name

/-- `emv_app_extract_priority_indicator` (emv_app.c:243-265): priority and confirmation. -/
def priority (tlvs : List Tlv) : C (Nat × Bool) :=
  match find tlvs 0x87 with
  | some t =>
    if t.value.length < 1 then .ok (0, false)
    else do
      let b ← rd t.value 0
      .ok ((b &&& 0x0F).toNat, (b &&& 0x80) ≠ 0)
  | none => .ok (0, false)

/-- The common end of both constructors (emv_app.c:66-79, 124-137). -/
def build (pse : Option (List Tlv)) (aidTag : Nat) (tlvs : List Tlv) : C (Option App) :=
  match find tlvs aidTag with
  | none => .ok none
  | some aid => do
    let (r, name) ← displayName pse tlvs aid (List.replicate 33 0)
    if r ≠ 0 then .ok none
    else do
      let (p, c) ← priority tlvs
      .ok (some ⟨aid, name, p, c, tlvs⟩)

/-- `emv_app_create_from_pse` (emv_app.c:38-86); `none` is NULL. -/
def createFromPse (pse : List Tlv) (entry : List Byte) : C (Option App) := do
  let (r, tlvs) ← parse allocOk entry []
  if r ≠ 0 then .ok none else build (some pse) 0x4F tlvs

/-- `emv_app_create_from_fci` (emv_app.c:88-144); `none` is NULL.  With `fci_len == 0` the
decoder returns 0, which equals `fci_len`, and `tlv.tag` is read uninitialised. -/
def createFromFci (fci : List Byte) : C (Option App) := do
  match ← decode fci with
  | .eod => .error .uninit
  | .err _ => .ok none
  | .ok n t =>
    if n ≠ fci.length then .ok none
    else if t.tag ≠ 0x6F then .ok none
    else do
      let (r, tlvs) ← parse allocOk t.value []
      if r ≠ 0 then .ok none else build none 0x84 tlvs

/-- `emv_app_is_supported` (emv_app.c:284-316); the `memcmp`s compare `tlv->length` bytes. -/
def isSupported (aid : List Byte) : List Tlv → C Bool
  | [] => .ok false
  | t :: rest => do
    let exact ← if t.flags = 0 ∧ t.value.length = aid.length then do
        let a ← slice aid 0 t.value.length
        .ok (t.value == a)
      else .ok false
    if exact then .ok true
    else do
      let part ← if t.flags = 1 ∧ t.value.length ≤ aid.length then do
          let a ← slice aid 0 t.value.length
          .ok (t.value == a)
        else .ok false
      if part then .ok true else isSupported aid rest

end Verif.App
