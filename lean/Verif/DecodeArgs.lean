import Verif.Argp
import Verif.Codes
import Verif.Decode

/-!
# Model of the command line of `tools/emv-decode.c`

The options (107-179), `argp_parser_helper` (195-332) and the beginning and end of `main` (410-434, 917-931);
what lies between is `Decode.main`.  The words of the command line are found by `argp_parse` of the C library
(`Argp`).  The messages of the C library
and the hint it adds to those of the program are parameters.  Failures to allocate are not modelled.
-/

set_option autoImplicit false

namespace Verif.DecodeArgs
open Verif

deriving instance DecidableEq for Decode.Mode

/-! ## Options -/

/-- The keys of options (emv-decode.c:48-96) and of those the C library adds. -/
inductive Key where
  /-- a decoding mode -/
  | mode (m : Decode.Mode)
  /-- `EMV_DECODE_ISO8859_X` -/
  | iso8859x
  /-- `EMV_DECODE_IGNORE_PADDING` -/
  | ignorePadding
  /-- `EMV_DECODE_VERSION` -/
  | version
  /-- `EMV_DECODE_OVERRIDE_ISOCODES_PATH` -/
  | isocodes
  /-- `EMV_DECODE_OVERRIDE_MCC_JSON` -/
  | mccJson
  /-- `--help` or `-?` of the C library -/
  | help
  /-- `--usage` of the C library -/
  | usage
  /-- `--program-name` of the C library, which has an effect on messages only -/
  | programName
  /-- `--HANG` of the C library, which waits -/
  | hang
  deriving DecidableEq

/-- `argp_options` (emv-decode.c:107-179), and the options the C library adds. -/
def options : List (List Byte × Key) :=
  [(txt!"atr", .mode .atr),
   (txt!"sw1sw2", .mode .sw1sw2),
   (txt!"ber", .mode .ber),
   (txt!"tlv", .mode .tlv),
   (txt!"dol", .mode .dol),
   (txt!"tag-list", .mode .tagList),
   (txt!"mcc", .mode .mcc),
   (txt!"9F15", .mode .mcc),
   (txt!"term-type", .mode .termType),
   (txt!"9F35", .mode .termType),
   (txt!"term-caps", .mode .termCaps),
   (txt!"9F33", .mode .termCaps),
   (txt!"addl-term-caps", .mode .addlTermCaps),
   (txt!"9F40", .mode .addlTermCaps),
   (txt!"cvm-list", .mode .cvmList),
   (txt!"8E", .mode .cvmList),
   (txt!"cvm-results", .mode .cvmResults),
   (txt!"9F34", .mode .cvmResults),
   (txt!"tvr", .mode .tvr),
   (txt!"95", .mode .tvr),
   (txt!"tsi", .mode .tsi),
   (txt!"9B", .mode .tsi),
   (txt!"issuer-app-data", .mode .iad),
   (txt!"9F10", .mode .iad),
   (txt!"ttq", .mode .ttq),
   (txt!"9F66", .mode .ttq),
   (txt!"ctq", .mode .ctq),
   (txt!"9F6C", .mode .ctq),
   (txt!"amex-cl-reader-caps", .mode .amexClReaderCaps),
   (txt!"9F6D", .mode .amexClReaderCaps),
   (txt!"mastercard-third-party-data", .mode .thirdParty),
   (txt!"visa-ffi", .mode .ffi),
   (txt!"amex-enh-cl-reader-caps", .mode .amexEnh),
   (txt!"terminal-risk-management-data", .mode .trmd),
   (txt!"9F1D", .mode .trmd),
   (txt!"country", .mode .iso3166),
   (txt!"iso3166-1", .mode .iso3166),
   (txt!"currency", .mode .iso4217),
   (txt!"iso4217", .mode .iso4217),
   (txt!"language", .mode .iso639),
   (txt!"iso639", .mode .iso639),
   (txt!"iso8859-x", .iso8859x),
   (txt!"iso8859-1", .mode (.iso8859 1)),
   (txt!"iso8859-2", .mode (.iso8859 2)),
   (txt!"iso8859-3", .mode (.iso8859 3)),
   (txt!"iso8859-4", .mode (.iso8859 4)),
   (txt!"iso8859-5", .mode (.iso8859 5)),
   (txt!"iso8859-6", .mode (.iso8859 6)),
   (txt!"iso8859-7", .mode (.iso8859 7)),
   (txt!"iso8859-8", .mode (.iso8859 8)),
   (txt!"iso8859-9", .mode (.iso8859 9)),
   (txt!"iso8859-10", .mode (.iso8859 10)),
   (txt!"iso8859-11", .mode (.iso8859 11)),
   (txt!"iso8859-13", .mode (.iso8859 13)),
   (txt!"iso8859-14", .mode (.iso8859 14)),
   (txt!"iso8859-15", .mode (.iso8859 15)),
   (txt!"ignore-padding", .ignorePadding),
   (txt!"version", .version),
   (txt!"isocodes-path", .isocodes),
   (txt!"mcc-json", .mccJson),
   (txt!"help", .help),
   (txt!"usage", .usage),
   (txt!"program-name", .programName),
   (txt!"HANG", .hang)]

/-- The third column of `argp_options`. -/
def takes : Key → Argp.Takes
  | .isocodes | .mccJson | .programName => .value
  | .hang => .maybe
  | _ => .nothing

/-- `argp_config` (emv-decode.c:181-187). -/
def table : Argp.Table Key := ⟨options, takes, .help⟩

/-- What a word stands for. -/
abbrev Item := Argp.Item Key

/-! ## Meaning of the words -/

/-- The content of the local arrays in `TlvInfo.Env`. -/
structure Scratch where
  cvm : Nat → List Byte
  res : List Byte
  cur : Nat → List Byte
  lang : Nat → List Byte
  arc : List Byte

/-- What is outside of the program. -/
structure World where
  /-- `POSIXLY_CORRECT` is set -/
  posix : Bool
  /-- the text of `argp_help` -/
  help : List Byte
  /-- the text of `--usage` -/
  usage : List Byte
  /-- the version of the library -/
  version : List Byte
  /-- what the C library says about an option it refuses -/
  badOption : List Byte
  /-- the text the C library adds to a message -/
  hint : List Byte
  /-- standard input -/
  input : List Byte
  /-- files of codes -/
  files : Codes.Lib
  /-- the content of the local arrays of the functions that look up codes -/
  scratch : Scratch
  /-- the content of local arrays -/
  locals : Decode.Locals
  /-- the content of allocated memory -/
  mem : Nat → List Byte

/-- The answer of a lookup.  Undefined ones do not occur, as the tables are built once (C98_safe_partial); the program
is undefined before if the path is empty. -/
def answer : C (Option (List Byte)) → Option (List Byte)
  | .ok a => a
  | .error _ => none

/-- The lookup functions after initialisation (isocodes_lookup.cpp:518-593, mcc_lookup.cpp:202-211). -/
def World.tables (w : World) (t : Codes.State) : Decode.Tables :=
  ⟨{ mcc := Codes.mccLookup t
     country2 := fun k => answer (Codes.countryByAlpha2 t k)
     country3 := fun k => answer (Codes.countryByAlpha3 t k)
     countryNum := fun n => answer (Codes.countryByNumeric t n)
     currency := fun n => answer (Codes.currencyByNumeric t n)
     language := fun k => answer (Codes.languageByAlpha2 t k)
     locCvm := w.scratch.cvm
     locRes := w.scratch.res
     locCur := w.scratch.cur
     locLang := w.scratch.lang
     locArc := w.scratch.arc },
   fun k => answer (Codes.currencyByAlpha3 t k), fun k => answer (Codes.languageByAlpha3 t k)⟩

/-- How the program ends. -/
inductive Ending where
  | exit (status : Nat) (shown : Decode.Shown)
  /-- an exception nobody catches -/
  | terminated
  deriving DecidableEq

/-- The static variables (emv-decode.c:42-46, 97-102), and what is left of standard input. -/
structure St where
  mode : Decode.Mode
  pad : Bool
  iso : Option (List Byte)
  mcc : Option (List Byte)
  /-- `arg_str`; NULL, which comes with the length 0, is the empty text -/
  arg : List Byte
  /-- `data`; NULL, which comes with the length 0, is the empty list -/
  data : List Byte
  file : List Byte

/-- The static variables at the start. -/
def St.initial (w : World) : St := ⟨.none, false, none, none, [], [], w.input⟩

/-- A word is handled and the next one is to be, or the program ends. -/
inductive Step where
  | go (s : St)
  | stop (e : Ending)

/-- `argp_error`: a message, and the exit status `EX_USAGE`. -/
def refuse (w : World) (msg : List Byte) : Ending := .exit 64 ⟨[], msg ++ w.hint⟩

/-- The data of `INPUT` (emv-decode.c:211-242). -/
def hexInput (w : World) (arg : List Byte) (s : St) : C Step :=
  if arg = txt!"-" then do
    let v ← Hex.load s.file
    if v.length = 0 then .ok (.stop (refuse w txt!"Failed to read INPUT from stdin"))
    else .ok (.go { s with data := v, file := [] })
  else if arg.length < 2 then
    .ok (.stop (refuse w txt!"INPUT must consist of at least 1 byte (thus 2 hex digits)"))
  else do
    let (r, buf, n) ← Hex.parseHex arg (w.mem ((arg.length + 1) / 2))
    if r < 0 then .ok (.stop (refuse w txt!"INPUT must consist of hex digits"))
    else if r > 0 then .ok (.stop (refuse w txt!"INPUT must have even number of hex digits"))
    else do
      let v ← slice buf 0 n
      .ok (.go { s with data := v })

/-- `ARGP_KEY_ARG` (emv-decode.c:200-242). -/
def input (w : World) (arg : List Byte) (s : St) : C Step :=
  if s.mode = .iso3166 ∨ s.mode = .iso4217 ∨ s.mode = .iso639 then .ok (.go { s with arg := arg })
  else hexInput w arg s

/-- The keys of options in `argp_parser_helper` (emv-decode.c:249-328). -/
def option (w : World) (k : Key) (v : Option (List Byte)) (s : St) : Step :=
  match k with
  | .mode m =>
    if s.mode ≠ .none then .stop (refuse w txt!"Only one decoding OPTION may be specified")
    else .go { s with mode := m }
  | .iso8859x =>
    .stop (.exit 0 ⟨txt!"Use --iso8859-x where 'x' is the code page number, for example  --iso8859-5\n", []⟩)
  | .version => .stop (.exit 0 ⟨w.version ++ txt!"\n", []⟩)
  | .ignorePadding => .go { s with pad := true }
  | .isocodes => .go { s with iso := v }
  | .mccJson => .go { s with mcc := v }
  | .help => .stop (.exit 0 ⟨w.help, []⟩)
  | .usage => .stop (.exit 0 ⟨w.usage, []⟩)
  | .programName => .go s
  | .hang => .go s

/-- One word. -/
def step (w : World) (i : Item) (s : St) : C Step :=
  match i with
  | .option k v => .ok (option w k v s)
  | .bad => .ok (.stop (.exit 64 ⟨[], w.badOption⟩))
  | .input a => input w a s

/-- All words; `ARGP_KEY_NO_ARGS` comes at the end if none of them was an input (emv-decode.c:244-247). -/
def steps (w : World) : List Item → Bool → St → C Step
  | [], some?, s => .ok (if some? then .go s else .stop (refuse w txt!"INPUT is missing"))
  | i :: is, some?, s => do
    let r ← step w i s
    match r with
    | .stop e => .ok (.stop e)
    | .go s => steps w is (some? || i.isInput) s

/-- `main` after the command line (emv-decode.c:426-931). -/
def finish (w : World) (s : St) : C Ending := do
  match ← Codes.stringsInit w.files s.iso s.mcc Codes.fresh with
  | .terminated => .ok .terminated
  | .ok (r, t) => do
    let (status, shown) ← Decode.main r (w.tables t) w.locals w.help s.pad s.arg s.data s.mode
    .ok (.exit status shown)

/-- `main` (emv-decode.c:410-931) with the words of the command line after the name of the program. -/
def run (w : World) (words : List (List Byte)) : C Ending :=
  if words = [] then .ok (.exit 1 ⟨w.help, []⟩)
  else do
    match ← steps w (Argp.order (Argp.items table w.posix words)) false (.initial w) with
    | .stop e => .ok e
    | .go s => finish w s

end Verif.DecodeArgs
