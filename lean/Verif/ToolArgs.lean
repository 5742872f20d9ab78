import Verif.Hex
import Verif.PrintCard

/-!
# Model of the command line of `tools/emv-tool.c`

`argp_parser_helper` (125-264) and the static variables it sets (96-122).  Splitting the command line into
options is done by `argp_parse` of the C library (`ToolWords.lean`): here a command line is the sequence of
options it finds, each with its argument, a C string without its terminator.  `argp_error` prints a message
and ends the program.  The program does not call `setlocale`, so the C locale is in use.
-/

set_option autoImplicit false

namespace Verif.ToolArgs
open Verif

/-! ## C library -/

/-- The value of a digit for `strtoul` (C11 7.22.1.4), 99 for other characters. -/
def digitOf (c : Byte) : Nat :=
  if 0x30 ≤ c ∧ c ≤ 0x39 then c.toNat - 0x30
  else if 0x41 ≤ c ∧ c ≤ 0x5A then c.toNat - 0x41 + 10
  else if 0x61 ≤ c ∧ c ≤ 0x7A then c.toNat - 0x61 + 10
  else 99

/-- The digits from here on: their value, added to `acc`, and the rest. -/
def digits (base : Nat) : List Byte → Nat → Nat × List Byte
  | [], acc => (acc, [])
  | c :: s, acc => if digitOf c < base then digits base s (acc * base + digitOf c) else (acc, c :: s)

/-- `strtoul(s, &endptr, base)` (C11 7.22.1.4): value and text at `endptr`.  A prefix `0x` needs a third
character to matter and is left out, as base 16 is used for two characters only. -/
def strtoul (base : Nat) (s : List Byte) : Nat × List Byte :=
  let t := s.dropWhile Hex.isSpace
  let (neg, u) :=
    match t with
    | 0x2D :: u => (true, u)
    | 0x2B :: u => (false, u)
    | u => (false, u)
  match u with
  | [] => (0, s)
  | c :: _ =>
    if digitOf c < base then
      let (n, rest) := digits base u 0
      (if n ≥ 2 ^ 64 then 2 ^ 64 - 1 else if neg then (2 ^ 64 - n) % 2 ^ 64 else n, rest)
    else (0, s)

/-- `tolower` in the C locale. -/
def lower (c : Byte) : Byte := if 0x41 ≤ c ∧ c ≤ 0x5A then c + 0x20 else c

/-- `strcasecmp(a, b) == 0`. -/
def sameText (a b : List Byte) : Bool := a.map lower == b.map lower

/-- `strtok(s, ",")` (C11 7.24.5.8): the token and the text the next call goes on with, `none` for NULL. -/
def strtok (s : List Byte) : Option (List Byte × List Byte) :=
  match s.dropWhile (· == 0x2C) with
  | [] => none
  | c :: t => some ((c :: t).takeWhile (· != 0x2C), ((c :: t).dropWhile (· != 0x2C)).drop 1)

/-! ## Options -/

/-- The static variables (emv-tool.c:96-122). -/
structure Opts where
  /-- `txn_type` -/
  txnType : Nat
  /-- `txn_amount` -/
  amount : Nat
  /-- `txn_amount_other` -/
  amountOther : Nat
  /-- `debug_verbose` -/
  verbose : Bool
  /-- `debug_sources_mask` -/
  mask : Nat
  /-- `debug_level` -/
  level : Nat
  /-- `isocodes_path` -/
  isocodes : Option (List Byte)
  /-- `mcc_json` -/
  mcc : Option (List Byte)
deriving Repr, DecidableEq

/-- Initial values (emv-tool.c:96-122, emv_fields.h: goods and services is 0x00, emv_debug.h:30-46: all sources
is 0xFF, info is 2). -/
def Opts.init : Opts := ⟨0x00, 0, 0, false, 0xFF, 2, none, none⟩

/-- An option (emv-tool.c:54-64). -/
inductive Opt where
  /-- `--txn-type` -/
  | txnType (arg : List Byte)
  /-- `--txn-amount` -/
  | amount (arg : List Byte)
  /-- `--txn-amount-other` -/
  | amountOther (arg : List Byte)
  /-- `--debug-verbose` -/
  | verbose
  /-- `--debug-source` -/
  | sources (arg : List Byte)
  /-- `--debug-level` -/
  | level (arg : List Byte)
  /-- `--version` -/
  | version
  /-- `--isocodes-path` -/
  | isocodes (arg : List Byte)
  /-- `--mcc-json` -/
  | mcc (arg : List Byte)
deriving Repr, DecidableEq

/-- What an option does. -/
inductive Res where
  /-- go on with these values -/
  | set (o : Opts)
  /-- `argp_error`: message, the program ends -/
  | refused (msg : List Byte)
  /-- print the version, the program ends -/
  | version
deriving Repr, DecidableEq

/-- `debug_source_str` (emv-tool.c:103-109). -/
def sourceNames : List (List Byte) := [txt!"TTL", txt!"TAL", txt!"EMV", txt!"APP", txt!"ALL"]

/-- `debug_level_str` (emv-tool.c:111-118). -/
def levelNames : List (List Byte) :=
  [txt!"NONE", txt!"ERROR", txt!"INFO", txt!"CARD", txt!"TRACE", txt!"ALL"]

/-- Transaction type (emv-tool.c:128-147). -/
def setType (o : Opts) (arg : List Byte) : Res :=
  if arg.length ≠ 2 then .refused txt!"Transaction type (--txn-type) argument must be 2 numeric digits"
  else
    let (value, rest) := strtoul 16 arg
    if arg = [] ∨ rest ≠ [] then .refused txt!"Transaction type (--txn-type) argument must be 2 numeric digits"
    else .set { o with txnType := value % 256 }

/-- Amount (emv-tool.c:149-171). -/
def setAmount (o : Opts) (arg : List Byte) : Res :=
  if arg.length = 0 then .refused txt!"Transaction amount (--txn-amount) argument must be numeric digits"
  else
    let (value, rest) := strtoul 10 arg
    if arg = [] ∨ rest ≠ [] then .refused txt!"Transaction amount (--txn-amount) argument must be numeric digits"
    else if value > 0xFFFFFFFF then
      .refused txt!"Transaction amount (--txn-amount) argument must fit in a 32-bit field"
    else .set { o with amount := value }

/-- Secondary amount (emv-tool.c:173-195). -/
def setAmountOther (o : Opts) (arg : List Byte) : Res :=
  if arg.length = 0 then
    .refused txt!"Secondary transaction amount (--txn-amount-other) argument must be numeric digits"
  else
    let (value, rest) := strtoul 10 arg
    if arg = [] ∨ rest ≠ [] then
      .refused txt!"Secondary transaction amount (--txn-amount-other) argument must be numeric digits"
    else if value > 0xFFFFFFFF then
      .refused txt!"Secondary transaction amount (--txn-amount-other) argument must fit in a 32-bit field"
    else .set { o with amountOther := value }

/-- The loop of the debug sources (emv-tool.c:207-226): the mask, or the message. -/
def sourceLoop : Nat → Nat → List Byte → C (Except (List Byte) Nat)
  | 0, _, _ => .error .nonTerm
  | fuel + 1, mask, arg =>
    match strtok arg with
    | none => .ok (.ok mask)
    | some (str, rest) =>
      let i := sourceNames.findIdx (sameText str)
      if i ≥ sourceNames.length then
        .ok (.error (txt!"Unknown debug source (--debug-source) argument \"" ++ str ++ txt!"\""))
      else sourceLoop fuel (mask ||| 1 <<< i) rest

/-- Debug sources (emv-tool.c:202-229). -/
def setSources (o : Opts) (arg : List Byte) : C Res := do
  match ← sourceLoop (arg.length + 1) 0 arg with
  | .ok mask => .ok (.set { o with mask := mask })
  | .error msg => .ok (.refused msg)

/-- Debug level (emv-tool.c:231-242). -/
def setLevel (o : Opts) (arg : List Byte) : Res :=
  let i := levelNames.findIdx (sameText arg)
  if i < levelNames.length then .set { o with level := i }
  else .refused (txt!"Unknown debug level (--debug-level) argument \"" ++ arg ++ txt!"\"")

/-- `argp_parser_helper` (emv-tool.c:125-264). -/
def apply (o : Opts) : Opt → C Res
  | .txnType a => .ok (setType o a)
  | .amount a => .ok (setAmount o a)
  | .amountOther a => .ok (setAmountOther o a)
  | .verbose => .ok (.set { o with verbose := true })
  | .sources a => setSources o a
  | .level a => .ok (setLevel o a)
  | .version => .ok .version
  | .isocodes a => .ok (.set { o with isocodes := some a })
  | .mcc a => .ok (.set { o with mcc := some a })

/-- The options of a command line, one after the other. -/
def parse : Opts → List Opt → C Res
  | o, [] => .ok (.set o)
  | o, a :: l => do
    match ← apply o a with
    | .set o => parse o l
    | r => .ok r

end Verif.ToolArgs
