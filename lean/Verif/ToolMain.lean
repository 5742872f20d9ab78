import Verif.Atr
import Verif.Codes
import Verif.PcscConn
import Verif.Stack
import Verif.ToolTxn

/-!
# Model of `main` of `tools/emv-tool.c`

From the command line to the end of the program (618-929).  The parts are modelled in `ToolArgs.lean`,
`Codes.lean`, `PcscInit.lean`, `PcscConn.lean`, `ToolReaders.lean`, `Atr.lean`, `ToolTxn.lean`, `Ttl.lean` and
`Stack.lean`.  Not modelled: debug output, the requests for states of readers in the trace, releasing the memory of
the candidate list and the fields at the end, and two messages for failures that cannot occur (`emv_debug_init`,
emv_debug.c:38-49, and `emv_ctx_init` with its arguments, emv.c:53-63, always return 0).  `argp_parse` ends the
program itself when an argument is refused (emv-tool.c:125-264), so its failure is not modelled either.
-/

set_option autoImplicit false

namespace Verif.ToolMain
open Verif Ber Pcsc PcscInit

/-- What is outside of the program. -/
structure World where
  /-- the text of `argp_help` -/
  help : List Byte
  /-- the version of the library -/
  version : List Byte
  /-- files of codes -/
  files : Codes.Lib
  /-- the PC/SC service when the readers are listed -/
  svc : Svc
  /-- the states of the readers for the listing -/
  states : Nat → Option Nat
  /-- what happens while waiting for a card -/
  change : List Nat → Change
  /-- the state of the reader with the card -/
  state : Option Nat
  /-- the PC/SC service when the card is connected -/
  conn : PcscConn.ConnSvc
  /-- the answers of the card to each transmission, `none` for failure -/
  answers : List (Option (List Byte))
  /-- the card can be disconnected -/
  disconnect : Bool
  /-- the current time -/
  tm : ToolTxn.Tm
  /-- standard input -/
  input : List Byte

/-- The content of uninitialised memory, and which allocations of fields succeed. -/
structure Mem where
  /-- an object of a number of bytes -/
  obj : Nat → List Byte
  /-- the handle in `pcsc_reader_populate_features` -/
  card : Nat
  /-- the array in each call of `emv_initiate_application_processing` -/
  pdol : Nat → List Byte
  /-- whether a field can be added to a list -/
  alloc : List Tlv → Tlv → Bool

/-- What happens at the service: while listing readers and releasing the context, and with the card. -/
inductive Ev where
  | svc (e : Event)
  | card (a : PcscConn.Act)
deriving Repr, DecidableEq

/-- How the program ends. -/
inductive Ending where
  /-- with a status -/
  | exit (status : Nat)
  /-- by `std::terminate` -/
  | terminated
  /-- not: the card has not answered -/
  | waiting
  /-- not: the question is repeated forever -/
  | asking
deriving Repr, DecidableEq

/-- A run of the program. -/
structure Result where
  /-- what is printed; while the card has not answered, only up to building the candidate list -/
  out : List ToolTxn.Item
  /-- what happened at the service -/
  trace : List Ev
  /-- the end -/
  ending : Ending
deriving Repr, DecidableEq

/-- The label `pcsc_exit` and the end of `main`, which has no `return` (emv-tool.c:920-929): status 0. -/
def leave (c : Option Ctx) (out : List ToolTxn.Item) (tr : List Ev) : C Result :=
  .ok ⟨out, tr ++ (release c).2.map .svc, .exit 0⟩

/-- The `trx` callback of the tool (emv-tool.c:764-767) for the answers of the card, as `Ttl.lean` sees them; `rx` is
the previous content of the 258 bytes of `rx_buf` (emv_ttl.c:122).  What is received does not depend on what is
sent. -/
def deliver (cn : PcscConn.Conn) (rx : List Byte) : List (Option (List Byte)) → C (List Ttl.Resp)
  | [] => .ok []
  | a :: as => do
    let (r, rx', n, _) ← PcscConn.trx cn a [] rx
    let d ← slice rx' 0 n
    let rest ← deliver cn rx as
    .ok ((if r = 0 then .data d else .fail r) :: rest)

/-- What the transmissions of the transport layer do at the service (`pcsc_reader_trx`, pcsc.c:820-860). -/
def sends (cn : PcscConn.Conn) (log : List (List Byte)) : List PcscConn.Act :=
  log.flatMap fun tx => if cn.protocol = .other then [] else [.sent cn.card cn.protocol tx]

/-- The data shown before the transaction (emv-tool.c:782-789). -/
def shown (ctx : Emv.Ctx) : List ToolTxn.Item :=
  [.text txt!"\nTerminal config:\n", .fields ctx.config, .text txt!"\nSupported AIDs:\n", .fields ctx.supported,
   .text txt!"\nTransaction parameters:\n", .fields ctx.params]

/-- From the terminal data to the end (emv-tool.c:763-929). -/
def transact (w : World) (m : Mem) (o : ToolArgs.Opts) (c : Ctx) (cn : PcscConn.Conn) (out : List ToolTxn.Item)
    (tr : List Ev) : C Result := do
  let ctx ← ToolTxn.load m.alloc (m.obj 6) w.tm o
  let out := out ++ shown ctx
  let script ← deliver cn (m.obj 258) w.answers
  let (log, e) ← Stack.drive (ToolTxn.transaction m.alloc m.pdol ctx w.input) .apdu (script.length + 1) [] script
  let tr := tr ++ (sends cn log).map .card
  match e with
  | .waiting => .ok ⟨out ++ [.text txt!"\nBuild candidate list\n"], tr, .waiting⟩
  | .done _ e _ =>
    let out := out ++ e.out
    match e.how with
    | .stuck => .ok ⟨out, tr, .asking⟩
    | .done =>
      let (r, _, a) := PcscConn.disconnect w.disconnect cn
      leave (some c)
        (out ++ [.text (if r ≠ 0 then txt!"PC/SC reader deactivation failed\n" else txt!"\nCard deactivated\n")])
        (tr ++ a.map .card)
    | _ => leave (some c) out tr

/-- From connecting the card to the ATR (emv-tool.c:724-761). -/
def activate (w : World) (m : Mem) (o : ToolArgs.Opts) (c : Ctx) (out : List ToolTxn.Item) (tr : List Ev) :
    C Result := do
  let (r, cn, a) ← PcscConn.connect w.conn (m.obj 12) .initial
  let tr := tr ++ a.map .card
  if r < 0 then leave (some c) (out ++ [.text txt!"PC/SC reader activation failed\n"]) tr
  else
    let out := out ++ [.text txt!"Card activated\n"]
    if r = CardType.contact.val then
      let (r, atr) := getAtr cn.reader
      if r ≠ 0 then leave (some c) (out ++ [.text txt!"Failed to retrieve ATR\n"]) tr
      else do
        let r ← Atr.emvParse atr
        if r ≠ 0 then leave (some c) (out ++ [ToolTxn.complaint r]) tr
        else transact w m o c cn out tr
    else if r = CardType.contactless.val then
      leave (some c) (out ++ [.text txt!"Contactless not (yet) supported\n"]) tr
    else leave (some c) (out ++ [.text txt!"Unknown card type\n"]) tr

/-- The reader with the card (emv-tool.c:709-722).  Without a reader the name is NULL, and printing it is
undefined. -/
def detected (w : World) (m : Mem) (o : ToolArgs.Opts) (c : Ctx) (idx : Nat) (out : List ToolTxn.Item)
    (tr : List Ev) : C Result :=
  match getReader (some c) idx with
  | none => .error .oobRead
  | some r => do
    let name ← getName c r
    let out := out ++ [.text (txt!"Reader " ++ ToolReaders.decZ idx ++ txt!": " ++ name ++ txt!"; " ++
      (ToolReaders.stateOf w.state).getD txt!"Unknown state" ++ txt!"\nCard detected\n\n")]
    activate w m o c out tr

/-- From the service to waiting for a card (emv-tool.c:681-707). -/
def session (w : World) (m : Mem) (o : ToolArgs.Opts) (out : List ToolTxn.Item) : C Result := do
  let (r, c, e) ← init w.svc m.obj m.card
  let tr := e.map Ev.svc
  if r ≠ 0 then leave c (out ++ [.text txt!"PC/SC initialisation failed\n"]) tr
  else if count c = 0 then leave c (out ++ [.text txt!"No PC/SC readers detected\n"]) tr
  else
    match c with
    | none => .error .oobRead
    | some c => do
      let listing ← ToolReaders.list m.obj c w.states
      let out := out ++ [.text listing, .text txt!"\nPresent card\n"]
      let (r, idx, c) := waitForCard w.change c readerAny
      if r < 0 then leave (some c) (out ++ [.text txt!"PC/SC error\n"]) tr
      else if r > 0 then leave (some c) (out ++ [.text txt!"No card; exiting\n"]) tr
      else detected w m o c idx out tr

/-- The checks of the amounts (emv-tool.c:647-659), which only print: type 0x30 is an inquiry, 0x09 a cashback. -/
def warnings (w : World) (o : ToolArgs.Opts) : List ToolTxn.Item :=
  (if o.txnType ≠ 0x30 ∧ o.amount = 0 then
    [.error txt!"Transaction amount (--txn-amount) argument must be non-zero\n", .text w.help] else []) ++
  if o.txnType = 0x09 ∧ o.amountOther = 0 then
    [.error txt!"Secondary transaction amount (--txn-amount-other) must be non-zero for cashback transaction\n",
     .text w.help]
  else []

/-- `main` after the command line (emv-tool.c:647-929). -/
def start (w : World) (m : Mem) (o : ToolArgs.Opts) : C Result := do
  let out := warnings w o
  match ← Codes.stringsInit w.files o.isocodes o.mcc Codes.fresh with
  | .terminated => .ok ⟨out, [], .terminated⟩
  | .ok (r, _) =>
    if r < 0 then .ok ⟨out ++ [.error txt!"Failed to initialise EMV strings\n"], [], .exit 2⟩
    else
      session w m o (out ++ if r > 0 then
        [.error txt!"Failed to load iso-codes data or mcc-codes data; currency, country, language or MCC lookups may not be possible\n"]
        else [])

/-- `main` (emv-tool.c:618-929) for the options of the tool among the words of the command line; `ToolWords.lean` has
the words.  `argp_error` ends the program with status 64 (`argp_err_exit_status`); no arguments at all is the empty
sequence. -/
def main (w : World) (m : Mem) (args : List ToolArgs.Opt) : C Result :=
  if args = [] then .ok ⟨[.text w.help], [], .exit 1⟩
  else do
    match ← ToolArgs.parse .init args with
    | .refused msg => .ok ⟨[.error msg], [], .exit 64⟩
    | .version => .ok ⟨[.text (w.version ++ [0x0A])], [], .exit 0⟩
    | .set o => start w m o

end Verif.ToolMain
