import Verif.Argp
import Verif.ToolMain

/-!
# Model of the words of the command line of `tools/emv-tool.c`

The options (66-86), and `argp_parse` as `main` calls it (636-646).  The words are found by `argp_parse` of the C library
(`Argp`); the messages of the C library are parameters.
-/

set_option autoImplicit false

namespace Verif.ToolWords
open Verif

/-- The keys of options (emv-tool.c:53-64) and of those the C library adds. -/
inductive Key where
  /-- `EMV_TOOL_PARAM_TXN_TYPE` -/
  | txnType
  /-- `EMV_TOOL_PARAM_TXN_AMOUNT` -/
  | amount
  /-- `EMV_TOOL_PARAM_TXN_AMOUNT_OTHER` -/
  | amountOther
  /-- `EMV_TOOL_PARAM_DEBUG_VERBOSE` -/
  | verbose
  /-- `EMV_TOOL_PARAM_DEBUG_SOURCES_MASK` -/
  | sources
  /-- `EMV_TOOL_PARAM_DEBUG_LEVEL` -/
  | level
  /-- `EMV_TOOL_VERSION` -/
  | version
  /-- `EMV_TOOL_OVERRIDE_ISOCODES_PATH` -/
  | isocodes
  /-- `EMV_TOOL_OVERRIDE_MCC_JSON` -/
  | mccJson
  /-- `--help` or `-?` of the C library -/
  | help
  /-- `--usage` of the C library -/
  | usage
  /-- `--program-name` of the C library, which has an effect on messages only -/
  | programName
  /-- `--HANG` of the C library, which waits -/
  | hang
  deriving DecidableEq

/-- `argp_options` (emv-tool.c:66-86), and the options the C library adds. -/
def options : List (List Byte × Key) :=
  [(txt!"txn-type", .txnType),
   (txt!"txn-amount", .amount),
   (txt!"txn-amount-other", .amountOther),
   (txt!"debug-verbose", .verbose),
   (txt!"debug-source", .sources),
   (txt!"debug-level", .level),
   (txt!"version", .version),
   (txt!"isocodes-path", .isocodes),
   (txt!"mcc-json", .mccJson),
   (txt!"help", .help),
   (txt!"usage", .usage),
   (txt!"program-name", .programName),
   (txt!"HANG", .hang)]

/-- The third column of `argp_options`. -/
def takes : Key → Argp.Takes
  | .verbose | .version | .help | .usage => .nothing
  | .hang => .maybe
  | _ => .value

/-- `argp_config` (emv-tool.c:88-94). -/
def table : Argp.Table Key := ⟨options, takes, .help⟩

/-- What a word stands for. -/
abbrev Item := Argp.Item Key

/-- The C library. -/
structure Lib where
  /-- `POSIXLY_CORRECT` is set -/
  posix : Bool
  /-- the text of `--usage` -/
  usage : List Byte
  /-- what it says about an option it refuses -/
  badOption : List Byte
  /-- what it says about words nobody asked for -/
  tooMany : List Byte

/-- A word is handled, or the program ends. -/
inductive Step where
  | go (o : ToolArgs.Opts)
  | stop (out : List ToolTxn.Item) (status : Nat)
deriving DecidableEq

/-- An option of the tool (emv-tool.c:125-264). -/
def own (w : ToolMain.World) (a : ToolArgs.Opt) (o : ToolArgs.Opts) : C Step := do
  match ← ToolArgs.apply o a with
  | .set o => .ok (.go o)
  | .refused msg => .ok (.stop [.error msg] 64)
  | .version => .ok (.stop [.text (w.version ++ [0x0A])] 0)

/-- An option of the tool with a value; without one `argp_parser_helper` would read from NULL. -/
def valued (w : ToolMain.World) (f : List Byte → ToolArgs.Opt) (v : Option (List Byte)) (o : ToolArgs.Opts) : C Step :=
  match v with
  | some v => own w (f v) o
  | none => .error .oobRead

/-- One word (`argp_parser_helper`, emv-tool.c:125-264).  It does not know `ARGP_KEY_ARG`, so the C library refuses the
words left (emv-tool.c:641). -/
def step (w : ToolMain.World) (x : Lib) (i : Item) (o : ToolArgs.Opts) : C Step :=
  match i with
  | .option .txnType v => valued w .txnType v o
  | .option .amount v => valued w .amount v o
  | .option .amountOther v => valued w .amountOther v o
  | .option .verbose _ => own w .verbose o
  | .option .sources v => valued w .sources v o
  | .option .level v => valued w .level v o
  | .option .version _ => own w .version o
  | .option .isocodes v => valued w .isocodes v o
  | .option .mccJson v => valued w .mcc v o
  | .option .help _ => .ok (.stop [.text w.help] 0)
  | .option .usage _ => .ok (.stop [.text x.usage] 0)
  | .option .programName _ => .ok (.go o)
  | .option .hang _ => .ok (.go o)
  | .bad => .ok (.stop [.error x.badOption] 64)
  | .input _ => .ok (.stop [.error x.tooMany] 64)

/-- All words. -/
def steps (w : ToolMain.World) (x : Lib) : List Item → ToolArgs.Opts → C Step
  | [], o => .ok (.go o)
  | i :: is, o => do
    match ← step w x i o with
    | .stop out n => .ok (.stop out n)
    | .go o => steps w x is o

/-- `main` (emv-tool.c:618-929) with the words of the command line after the name of the program. -/
def run (w : ToolMain.World) (x : Lib) (m : ToolMain.Mem) (words : List (List Byte)) : C ToolMain.Result :=
  if words = [] then .ok ⟨[.text w.help], [], .exit 1⟩
  else do
    match ← steps w x (Argp.order (Argp.items table x.posix words)) .init with
    | .stop out n => .ok ⟨out, [], .exit n⟩
    | .go o => ToolMain.start w m o

end Verif.ToolWords
