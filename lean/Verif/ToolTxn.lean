import Verif.Emv
import Verif.Formats
import Verif.ToolArgs
import Verif.ToolReaders

/-!
# Model of the transaction of `tools/emv-tool.c`

The terminal data (`emv_txn_load_params`, `emv_txn_load_config`, 548-616), the texts of errors and outcomes
(`src/emv.c` 43-51, 94-106) and the part of `main` from building the candidate list to the end of the
transaction (791-908).  Standard output is a sequence of items: texts, and the listings of fields and
candidates, whose text is the subject of `Print.lean` and `PrintCard.lean`.  Standard input is a sequence of
bytes that ends; reading past its end keeps failing.  The card is the script of `Tal.lean`.
-/

set_option autoImplicit false

namespace Verif.ToolTxn
open Verif Ber App Tal Emv

/-! ## Terminal data -/

/-- The members of `struct tm` used, as `localtime` normalises them, not before 1900. -/
structure Tm where
  /-- `tm_year`, years since 1900 -/
  year : Nat
  /-- `tm_mon`, 0 for January -/
  mon : Nat
  /-- `tm_mday` -/
  mday : Nat
  /-- `tm_hour` -/
  hour : Nat
  /-- `tm_min` -/
  min : Nat
  /-- `tm_sec` -/
  sec : Nat
deriving Repr, DecidableEq

/-- Two digits in a `uint8_t` (emv-tool.c:563-568). -/
def bcd (tens ones : Nat) : Byte := UInt8.ofNat ((tens <<< 4) ||| ones)

/-- `emv_date` (emv-tool.c:562-565); `date_offset` is 0. -/
def dateOf (tm : Tm) : List Byte :=
  [bcd ((tm.year / 10) % 10) (tm.year % 10), bcd ((tm.mon + 1) / 10) ((tm.mon + 1) % 10),
   bcd (tm.mday / 10) (tm.mday % 10)]

/-- `emv_time` (emv-tool.c:566-568). -/
def timeOf (tm : Tm) : List Byte :=
  [bcd (tm.hour / 10) (tm.hour % 10), bcd (tm.min / 10) (tm.min % 10), bcd (tm.sec / 10) (tm.sec % 10)]

/-- `emv_tlv_list_push` with its result ignored (emv_tlv.c:128-156): a field that cannot be allocated is left
out. -/
def push (alloc : List Tlv → Tlv → Bool) (list : List Tlv) (t : Tlv) : List Tlv :=
  if alloc list t then list ++ [t] else list

/-- Format n in the first `n` bytes of `buf`: the value for the field. -/
def formatN (value n : Nat) (buf : List Byte) : C (List Byte × List Byte) := do
  match ← Formats.uintToFormatN value (buf.take n) with
  | some out => .ok (out, out ++ buf.drop n)
  | none => .error .oobRead

/-- Format b in the first `n` bytes of `buf`. -/
def formatB (value n : Nat) (buf : List Byte) : C (List Byte × List Byte) := do
  match ← Formats.uintToFormatB value (buf.take n) with
  | some out => .ok (out, out ++ buf.drop n)
  | none => .error .oobRead

/-- `emv_txn_load_params` (emv-tool.c:548-582): the fields pushed, in order.  `buf` is the previous content of
the 6-byte local array. -/
def paramFields (buf : List Byte) (tm : Tm) (counter type amount other : Nat) : C (List Tlv) := do
  let (v1, buf) ← formatN counter 4 buf
  let (v2, buf) ← formatN amount 6 buf
  let (v3, buf) ← formatB amount 4 buf
  let (v4, buf) ← formatN other 6 buf
  let (v5, _) ← formatB other 4 buf
  .ok [⟨0x9F41, 0, v1⟩, ⟨0x9A, 0, dateOf tm⟩, ⟨0x9F21, 0, timeOf tm⟩, ⟨0x5F2A, 0, [0x09, 0x78]⟩,
    ⟨0x5F36, 0, [0x02]⟩, ⟨0x9C, 0, [UInt8.ofNat type]⟩, ⟨0x9F02, 0, v2⟩, ⟨0x81, 0, v3⟩, ⟨0x9F03, 0, v4⟩,
    ⟨0x9F04, 0, v5⟩]

/-- The fields pushed onto `config` (emv-tool.c:586-609). -/
def configFields : List Tlv :=
  [⟨0x9F01, 0, [0x00, 0x01, 0x23, 0x45, 0x67, 0x89]⟩, ⟨0x9F1A, 0, [0x05, 0x28]⟩,
   ⟨0x9F1B, 0, [0x00, 0x00, 0x03, 0xE8]⟩, ⟨0x9F16, 0, txt!"0987654321     "⟩, ⟨0x9F1C, 0, txt!"TID12345"⟩,
   ⟨0x9F1E, 0, txt!"12345678"⟩, ⟨0x9F4E, 0, txt!"ACME Peanuts"⟩, ⟨0x9F33, 0, [0x20, 0xF8, 0xC8]⟩,
   ⟨0x9F35, 0, [0x22]⟩, ⟨0x9F40, 0, [0xFA, 0x00, 0xF0, 0xA3, 0xFF]⟩]

/-- The fields pushed onto `supported_aids` (emv-tool.c:611-615); the flag 1 is `EMV_ASI_PARTIAL_MATCH`. -/
def supportedFields : List Tlv :=
  [⟨0x9F06, 1, [0xA0, 0x00, 0x00, 0x00, 0x03, 0x10]⟩, ⟨0x9F06, 0, [0xA0, 0x00, 0x00, 0x00, 0x03, 0x20, 0x10]⟩,
   ⟨0x9F06, 0, [0xA0, 0x00, 0x00, 0x00, 0x03, 0x20, 0x20]⟩, ⟨0x9F06, 1, [0xA0, 0x00, 0x00, 0x00, 0x04, 0x10]⟩,
   ⟨0x9F06, 1, [0xA0, 0x00, 0x00, 0x00, 0x04, 0x30]⟩]

/-- The context with its data (emv-tool.c:763-780). -/
def load (alloc : List Tlv → Tlv → Bool) (buf : List Byte) (tm : Tm) (o : ToolArgs.Opts) : C Ctx := do
  let ps ← paramFields buf tm 42 o.txnType o.amount o.amountOther
  .ok { Ctx.init with
    config := configFields.foldl (push alloc) []
    supported := supportedFields.foldl (push alloc) []
    params := ps.foldl (push alloc) [] }

/-! ## Texts -/

/-- `emv_error_get_string` (emv.c:43-51; codes emv.h:128-131). -/
def errorString (r : Int) : List Byte :=
  if r = -1 then txt!"Internal error"
  else if r = -2 then txt!"Invalid function parameter"
  else txt!"Unknown error"

/-- `emv_outcome_get_string` (emv.c:94-106; codes emv.h:138-144). -/
def outcomeString (r : Int) : List Byte :=
  if r = 1 then txt!"Card error"
  else if r = 2 then txt!"Card blocked"
  else if r = 3 then txt!"Not accepted"
  else if r = 4 then txt!"Try again"
  else if r = 5 then txt!"Not accepted"
  else txt!"Invalid outcome"

/-- What is printed. -/
inductive Item where
  /-- on standard output -/
  | text (s : List Byte)
  /-- on standard error -/
  | error (s : List Byte)
  /-- `print_emv_tlv_list` -/
  | fields (l : List Tlv)
  /-- `print_emv_app` -/
  | app (a : App)
deriving Repr, DecidableEq

/-- The lines for a result that is not 0 (e.g. emv-tool.c:793-800). -/
def complaint (r : Int) : Item :=
  if r < 0 then .text (txt!"ERROR: " ++ errorString r ++ [0x0A])
  else .text (txt!"OUTCOME: " ++ outcomeString r ++ [0x0A])

/-! ## Choice of the application -/

/-- `fgets(s, 4, stdin)` (C11 7.21.7.2): the characters read and the remaining input, `none` for NULL. -/
def fgets (input : List Byte) : Option (List Byte × List Byte) :=
  match input with
  | [] => none
  | [a] => some ([a], [])
  | [a, b] => if a = 0x0A then some ([a], [b]) else some ([a, b], [])
  | a :: b :: c :: rest =>
    if a = 0x0A then some ([a], b :: c :: rest)
    else if b = 0x0A then some ([a, b], c :: rest)
    else some ([a, b, c], rest)

/-- `sscanf(s, "%u", &input)` (C11 7.21.6.2) of the characters before the first null: the number, `none`
when the result is not 1.  The number of at most three characters always fits; a minus sign negates it as
`unsigned int`. -/
def scan (s : List Byte) : Option Nat :=
  let t := (s.takeWhile (· != 0)).dropWhile Hex.isSpace
  let (neg, u) :=
    match t with
    | 0x2D :: u => (true, u)
    | 0x2B :: u => (false, u)
    | u => (false, u)
  match u with
  | [] => none
  | c :: _ =>
    if ToolArgs.digitOf c < 10 then
      let n := (ToolArgs.digits 10 u 0).1
      some (if neg then (2 ^ 32 - n) % 2 ^ 32 else n)
    else none

/-- Result of the choice. -/
inductive Choice where
  /-- the index and the remaining input -/
  | index (i : Nat) (rest : List Byte)
  /-- the input has ended: the question is repeated forever -/
  | never
deriving Repr, DecidableEq

/-- The answers read until one is valid (emv-tool.c:815-841), with the number of invalid ones.  `continue`
in `do ... while (true)` starts the next round. -/
def choose (count : Nat) : Nat → List Byte → Nat → C (Choice × Nat)
  | 0, _, _ => .error .nonTerm
  | fuel + 1, input, bad =>
    match fgets input with
    | none => .ok (.never, bad)
    | some (s, rest) =>
      match scan s with
      | none => choose count fuel rest (bad + 1)
      | some n =>
        if n = 0 ∨ n > count then choose count fuel rest (bad + 1)
        else .ok (.index (n - 1) rest, bad)

/-- The display name of a candidate, a C string in an array (terminated, `C37_display_name`). -/
def nameOf (a : App) : List Byte := a.name.takeWhile (· != 0)

/-- The question (emv-tool.c:821-826). -/
def question (apps : List App) : List Byte :=
  txt!"\nSelect application:\n" ++
    (apps.zipIdx.flatMap fun (a, i) => Lists.decU (i + 1) ++ txt!" - " ++ nameOf a ++ [0x0A]) ++
    txt!"Enter number: "

/-- The text shown while choosing. -/
def asked (apps : List App) (bad : Nat) (c : Choice) : List Item :=
  (List.replicate bad [Item.text (question apps), .text txt!"Invalid input. Try again.\n"]).flatten ++
    match c with
    | .index _ _ => [.text (question apps)]
    | .never => []

/-! ## Transaction -/

/-- How the transaction ends. -/
inductive How where
  /-- a function reported this code -/
  | code (r : Int)
  /-- no application was selected though selecting succeeded -/
  | missing
  /-- waiting for input that does not come -/
  | stuck
  /-- the application was started (end of the loop), or all data were read (end of the transaction) -/
  | done
deriving Repr, DecidableEq

/-- State at the end. -/
structure End where
  how : How
  ctx : Ctx
  apps : List App
  input : List Byte
  out : List Item
deriving Repr, DecidableEq

/-- `emv_app_list_selection_is_required` (emv_app.c:546-566) on the denoted sequence (see
`LL.selectionRequired`). -/
def required (apps : List App) : Bool := apps.any (·.conf) || apps.length > 1

/-- The index for a round (emv-tool.c:813-847): chosen, or the first. -/
def pick (req : Bool) (apps : List App) (input : List Byte) : C (Choice × Nat) :=
  if req then choose apps.length (input.length + 1) input 0 else .ok (.index 0 input, 0)

/-- `do ... while (true)` (emv-tool.c:812-887).  `mem k` is the content of the local array of
`emv_initiate_application_processing` in a call. -/
def rounds (alloc : List Tlv → Tlv → Bool) (mem : Nat → List Byte) (req : Bool) :
    Nat → Ctx → List App → List Byte → List Item → List W → C (Run End)
  | 0, _, _, _, _, _ => .error .nonTerm
  | fuel + 1, ctx, apps, input, out, script => do
    let (c, bad) ← pick req apps input
    let out := out ++ if req then asked apps bad c else [.text txt!"\nSelect first application:\n"]
    match c with
    | .never => fin ⟨.stuck, ctx, apps, [], out⟩ script
    | .index i input =>
      andThen (select ctx apps i script) fun x rest =>
        let r := x.1
        let apps := x.2.1
        let ctx := x.2.2
        if r < 0 then fin ⟨.code r, ctx, apps, input, out ++ [complaint r]⟩ rest
        else if r > 0 then
          if r = 4 then rounds alloc mem req fuel ctx apps input (out ++ [complaint r]) rest
          else fin ⟨.code r, ctx, apps, input, out ++ [complaint r]⟩ rest
        else if ctx.selected = none then
          fin ⟨.missing, ctx, apps, input, out ++ [.error txt!"selected_app unexpectedly NULL\n"]⟩ rest
        else
          let out := out ++ [.text txt!"\nInitiate application processing:\n"]
          andThen (initiate alloc (mem fuel) ctx 0x05 rest) fun x rest =>
            let r := x.1
            let ctx := x.2
            if r < 0 then fin ⟨.code r, ctx, apps, input, out ++ [complaint r]⟩ rest
            else if r > 0 then
              if r = 5 ∧ ¬ apps.isEmpty then rounds alloc mem req fuel ctx apps input (out ++ [complaint r]) rest
              else fin ⟨.code r, ctx, apps, input, out ++ [complaint r]⟩ rest
            else fin ⟨.done, ctx, apps, input, out⟩ rest

/-- Reading the data (emv-tool.c:889-908). -/
def reading (alloc : List Tlv → Tlv → Bool) (e : End) (script : List W) : C (Run End) :=
  let out := e.out ++ [.text txt!"\nRead application data\n"]
  andThen (readData alloc e.ctx script) fun x rest =>
    if x.1 ≠ 0 then fin ⟨.code x.1, x.2, [], e.input, out ++ [complaint x.1]⟩ rest
    else fin ⟨.done, x.2, [], e.input,
      out ++ [.text txt!"\nICC data:\n", .fields x.2.icc, .text txt!"\nTerminal data\n", .fields x.2.terminal]⟩ rest

/-- From building the candidate list to the terminal data (emv-tool.c:791-908). -/
def transaction (alloc : List Tlv → Tlv → Bool) (mem : Nat → List Byte) (ctx : Ctx) (input : List Byte)
    (script : List W) : C (Run End) :=
  let out := [Item.text txt!"\nBuild candidate list\n"]
  andThen (build ctx.supported [] script) fun x rest =>
    let r := x.1
    let apps := x.2
    if r ≠ 0 then fin ⟨.code r, ctx, apps, input, out ++ [complaint r]⟩ rest
    else
      let out := out ++ [.text txt!"Candidate applications:\n"] ++ apps.map .app ++
        if required apps then [.text txt!"Cardholder selection is required\n"] else []
      andThen (rounds alloc mem (required apps) (apps.length + 1) ctx apps input out rest) fun e rest =>
        if e.how = .done then reading alloc e rest else fin e rest

end Verif.ToolTxn
