import Verif.Base

/-!
# Model of the intrusive singly linked lists of `src/emv_tlv.c` and `src/emv_app.c`

Both modules implement the same structure: nodes with a `next` pointer and a list head
with `front` and `back` (emv_tlv.h:38-59, emv_app.h:36-88).  The heap is a finite partial
map from addresses to nodes; a dereference of an address that holds no node is a use after
free.  The payload type `α` stands for the remaining members of the node.

Simplified: the `value` allocation of a TLV node is part of its payload; `malloc` success
is an input (`ok`), as `emv_tlv_alloc` (emv_tlv.c:52-73) releases the node again when the
second allocation fails.
-/

set_option autoImplicit false

namespace Verif.LL
open Verif

/-- A list node: payload and `next` pointer. -/
structure Node (α : Type) where
  val : α
  next : Option Nat

/-- The heap restricted to list nodes; `fresh` is an address not yet handed out. -/
structure Mem (α : Type) where
  cell : Nat → Option (Node α)
  fresh : Nat

/-- `struct emv_tlv_list_t` (emv_tlv.h:56-59), `struct emv_app_list_t` (emv_app.h:85-88). -/
structure Lst where
  front : Option Nat
  back : Option Nat

variable {α : Type}

/-- Function update. -/
def upd {β : Type} (f : Nat → β) (a : Nat) (b : β) : Nat → β := fun x => if x = a then b else f x

/-- Dereference. -/
def Mem.get (m : Mem α) (p : Nat) : C (Node α) :=
  match m.cell p with
  | some n => .ok n
  | none => .error .uaf

/-- `p->next = q`. -/
def Mem.setNext (m : Mem α) (p : Nat) (q : Option Nat) : C (Mem α) := do
  let n ← m.get p
  .ok { m with cell := upd m.cell p (some { n with next := q }) }

/-- Allocate and initialise a node (`emv_tlv_alloc`, emv_tlv.c:52-73; `malloc` + `memset`
of emv_app.c:47-51, 94-98): `next` is NULL. -/
def Mem.alloc (m : Mem α) (v : α) : Mem α × Nat :=
  ({ cell := upd m.cell m.fresh (some ⟨v, none⟩), fresh := m.fresh + 1 }, m.fresh)

/-- `emv_tlv_free` (emv_tlv.c:75-92) / `emv_app_free` (emv_app.c:267-282) of a non-NULL
pointer. -/
def Mem.free (m : Mem α) (p : Nat) : C (Mem α × Int) := do
  let n ← m.get p
  if n.next.isSome then .ok (m, 1)
  else .ok ({ m with cell := upd m.cell p none }, 0)

/-- `EMV_TLV_LIST_INIT` (emv_tlv.h:65), `EMV_APP_LIST_INIT` (emv_app.h:138). -/
def Lst.init : Lst := ⟨none, none⟩

/-- `emv_tlv_list_is_valid` (emv_tlv.c:35-50), `emv_app_list_is_valid`
(emv_app.c:318-333). -/
def Lst.valid (l : Lst) : Bool := l.front.isSome == l.back.isSome

/-- `emv_tlv_list_is_empty` (emv_tlv.c:94-103), `emv_app_list_is_empty`
(emv_app.c:335-344). -/
def isEmpty (l : Lst) : Bool := if !l.valid then true else !l.front.isSome

/-- Linking of a node at the back (emv_tlv.c:146-153, emv_app.c:379-385). -/
def linkBack (m : Mem α) (l : Lst) (a : Nat) : C (Mem α × Lst) :=
  match l.back with
  | some b => do
    let m ← m.setNext b (some a)
    .ok (m, { l with back := some a })
  | none => .ok (m, ⟨some a, some a⟩)

/-- `emv_tlv_list_push` (emv_tlv.c:128-156); `ok` tells whether `emv_tlv_alloc`
succeeds. -/
def tlvPush (m : Mem α) (l : Lst) (v : α) (ok : Bool) : C (Mem α × Lst × Int) :=
  if !l.valid then .ok (m, l, -1)
  else if !ok then .ok (m, l, -2)
  else do
    let (m, a) := m.alloc v
    let (m, l) ← linkBack m l a
    .ok (m, l, 0)

/-- `emv_app_list_push` (emv_app.c:370-389). -/
def push (m : Mem α) (l : Lst) (a : Nat) : C (Mem α × Lst × Int) :=
  if !l.valid then .ok (m, l, -1)
  else do
    let (m, l) ← linkBack m l a
    let m ← m.setNext a none
    .ok (m, l, 0)

/-- `emv_tlv_list_pop` (emv_tlv.c:158-177), `emv_app_list_pop` (emv_app.c:391-409). -/
def pop (m : Mem α) (l : Lst) : C (Mem α × Lst × Option Nat) :=
  if !l.valid then .ok (m, l, none)
  else match l.front with
    | none => .ok (m, l, none)
    | some a => do
      let n ← m.get a
      let l : Lst := if n.next.isSome then ⟨n.next, l.back⟩ else ⟨none, none⟩
      let m ← m.setNext a none
      .ok (m, l, some a)

/-- Loop of `emv_tlv_list_find` (emv_tlv.c:187-191). -/
def findLoop (m : Mem α) (key : α → Bool) : Nat → Option Nat → C (Option Nat)
  | 0, _ => .error .nonTerm
  | _ + 1, none => .ok none
  | fuel + 1, some a => do
    let n ← m.get a
    if key n.val then .ok (some a) else findLoop m key fuel n.next

/-- `emv_tlv_list_find` (emv_tlv.c:179-194); `key` is `tlv->tag == tag`. -/
def find (m : Mem α) (l : Lst) (key : α → Bool) : C (Option Nat) :=
  if !l.valid then .ok none else findLoop m key (m.fresh + 1) l.front

/-- Loops of `emv_tlv_list_has_duplicate` (emv_tlv.c:202-208); the inner loop is
`findLoop` from `tlv->next`. -/
def dupLoop (m : Mem α) (same : α → α → Bool) : Nat → Option Nat → C Bool
  | 0, _ => .error .nonTerm
  | _ + 1, none => .ok false
  | fuel + 1, some a => do
    let n ← m.get a
    match ← findLoop m (same n.val) (m.fresh + 1) n.next with
    | some _ => .ok true
    | none => dupLoop m same fuel n.next

/-- `emv_tlv_list_has_duplicate` (emv_tlv.c:196-211). -/
def hasDup (m : Mem α) (l : Lst) (same : α → α → Bool) : C Bool :=
  if !l.valid then .ok false else dupLoop m same (m.fresh + 1) l.front

/-- `emv_tlv_list_append` (emv_tlv.c:213-238) for two distinct list objects: new `list`,
new `other`, code. -/
def append (m : Mem α) (l o : Lst) : C (Mem α × Lst × Lst × Int) :=
  if !l.valid then .ok (m, l, o, -1)
  else if !o.valid then .ok (m, l, o, -2)
  else do
    let (m, l) ← (match l.back with
      | some b => do
        let m ← m.setNext b o.front
        .ok (m, l)
      | none => .ok (m, { l with front := o.front }) : C (Mem α × Lst))
    let l : Lst := if o.back.isSome then { l with back := o.back } else l
    .ok (m, l, Lst.init, 0)

/-- `emv_tlv_list_append(list, list)`: the same statements (emv_tlv.c:213-238) with both
arguments naming one list object. -/
def appendSelf (m : Mem α) (l : Lst) : C (Mem α × Lst × Int) :=
  if !l.valid then .ok (m, l, -1)
  else do
    let m ← (match l.back with
      | some b => m.setNext b l.front
      | none => .ok m : C (Mem α))
    .ok (m, Lst.init, 0)

/-- Loop of `emv_tlv_list_clear` (emv_tlv.c:113-122) / `emv_app_list_clear`
(emv_app.c:354-363).  The result of the free is asserted to be 0; `assertFail` is reported
as use after free if it is not. -/
def clearLoop : Nat → Mem α → Lst → C (Mem α × Lst)
  | 0, _, _ => .error .nonTerm
  | fuel + 1, m, l =>
    if l.front.isSome then do
      let (m, l, p) ← pop m l
      match p with
      | none => .error .uaf
      | some a => do
        let (m, r) ← m.free a
        if r = 0 then clearLoop fuel m l else .error .uaf
    else .ok (m, l)

/-- `emv_tlv_list_clear` (emv_tlv.c:105-126), `emv_app_list_clear` (emv_app.c:346-368). -/
def clear (m : Mem α) (l : Lst) : C (Mem α × Lst) :=
  if !l.valid then .ok (m, Lst.init) else clearLoop (m.fresh + 1) m l

/-- Loop of `emv_app_list_remove_index` (emv_app.c:421-441). -/
def removeLoop (m : Mem α) (l : Lst) : Nat → Nat → Option Nat → Option Nat →
    C (Mem α × Lst × Option Nat)
  | 0, _, _, _ => .error .nonTerm
  | _ + 1, _, _, none => .ok (m, l, none)
  | fuel + 1, index, prev, some a =>
    match index with
    | 0 =>
      match prev with
      | none => pop m l
      | some p => do
        let n ← m.get a
        let m ← m.setNext p n.next
        let n ← m.get a
        let l : Lst := if n.next.isSome then l else { l with back := some p }
        let m ← m.setNext a none
        .ok (m, l, some a)
    | index + 1 => do
      let n ← m.get a
      removeLoop m l fuel index (some a) n.next

/-- `emv_app_list_remove_index` (emv_app.c:411-444). -/
def removeIndex (m : Mem α) (l : Lst) (index : Nat) : C (Mem α × Lst × Option Nat) :=
  if !l.valid then .ok (m, l, none) else removeLoop m l (m.fresh + 1) index none l.front

/-- `emv_app_list_insert` (emv_app.c:446-475), `pos` and `app` non-NULL. -/
def insert (m : Mem α) (l : Lst) (pos a : Nat) : C (Mem α × Lst × Int) :=
  if !l.valid then .ok (m, l, -1)
  else if l.back = some pos then push m l a
  else do
    let n ← m.get pos
    if n.next.isSome then do
      let m ← m.setNext a n.next
      let m ← m.setNext pos (some a)
      .ok (m, l, 0)
    else .ok (m, l, -4)

/-- `emv_app_list_push_front` (emv_app.c:477-498). -/
def pushFront (m : Mem α) (l : Lst) (a : Nat) : C (Mem α × Lst × Int) :=
  if !l.valid then .ok (m, l, -1)
  else if l.front.isSome then do
    let m ← m.setNext a l.front
    .ok (m, { l with front := some a }, 0)
  else .ok (m, ⟨some a, some a⟩, 0)

/-- The scan for the insertion position in `emv_app_list_sort_priority`
(emv_app.c:521-529): the last node before the first at which the loop breaks. -/
def scan (m : Mem α) (prio : α → Nat) (p : Nat) : Nat → Option Nat → Option Nat → C (Option Nat)
  | 0, _, _ => .error .nonTerm
  | _ + 1, none, pos => .ok pos
  | fuel + 1, some cur, pos => do
    let n ← m.get cur
    if prio n.val = 0 then .ok pos
    else if p ≠ 0 ∧ p < prio n.val then .ok pos
    else scan m prio p fuel n.next (some cur)

/-- The `while` loop of `emv_app_list_sort_priority` (emv_app.c:512-540). -/
def sortLoop (prio : α → Nat) : Nat → Mem α → Lst → Lst → C (Mem α × Lst × Int)
  | 0, _, _, _ => .error .nonTerm
  | fuel + 1, m, l, sorted => do
    let (m, l, p) ← pop m l
    match p with
    | none => .ok (m, sorted, 0)
    | some a => do
      let n ← m.get a
      let pos ← scan m prio (prio n.val) (m.fresh + 1) sorted.front none
      let (m, sorted, r) ← (match pos with
        | some pos => insert m sorted pos a
        | none => pushFront m sorted a : C (Mem α × Lst × Int))
      if r ≠ 0 then do
        let (m, _) ← clear m sorted
        .ok (m, l, -2)
      else sortLoop prio fuel m l sorted

/-- `emv_app_list_sort_priority` (emv_app.c:500-544). -/
def sort (m : Mem α) (l : Lst) (prio : α → Nat) : C (Mem α × Lst × Int) :=
  if !l.valid then .ok (m, l, -1) else sortLoop prio (m.fresh + 1) m l Lst.init

/-- Loop of `emv_app_list_selection_is_required` (emv_app.c:554-563). -/
def selReqLoop (m : Mem α) (conf : α → Bool) : Nat → Option Nat → Nat → C Bool
  | 0, _, _ => .error .nonTerm
  | _ + 1, none, _ => .ok false
  | fuel + 1, some a, count => do
    let n ← m.get a
    if conf n.val then .ok true
    else if count + 1 > 1 then .ok true
    else selReqLoop m conf fuel n.next (count + 1)

/-- `emv_app_list_selection_is_required` (emv_app.c:546-566). -/
def selectionRequired (m : Mem α) (l : Lst) (conf : α → Bool) : C Bool :=
  if !l.valid then .ok false else selReqLoop m conf (m.fresh + 1) l.front 0

end Verif.LL
