import Verif.Print
import Verif.AtrStr
import Verif.IsoStr
import Verif.App

/-!
# Model of the card listings of `tools/print_helpers.c` and of the events of `src/emv_debug.c`

Conventions as in `Print.lean`.  A local array is its contents, threaded through the calls that
write to it.  `%s` of a NULL pointer is undefined behaviour, like reading through it (`oobRead`).
-/

set_option autoImplicit false

namespace Verif.PrintCard
open Verif Atr

/-- `for (...) printf("%02X", buf[i])` (e.g. print_helpers.c:58-60). -/
def hexes (v : List Byte) : List Byte := (v.map Bits.hex02).flatten

/-- A line of dashes, e.g. print_helpers.c:113. -/
def dashes : List Byte := txt!"  ----" ++ [0x0A]

/-- `%s` of the result of a description function: the output, or NULL. -/
def percentS (r : Bool × List Byte) : C (List Byte) :=
  if r.1 then Capdu.cstr r.2 else .error .oobRead

/-! ## ATR -/

/-- The lines for one of TAi, TBi and TCi (print_helpers.c:117-125, 128-136, 139-147): `byte` is
`*TA[i]`, if the pointer is not NULL. -/
def ifByte (name : List Byte) (i : Nat) (byte : Option Byte)
    (f : List Byte → C (Bool × List Byte)) (str : List Byte) : C (List Byte × List Byte) :=
  match byte with
  | some b => do
    let r ← f str
    let s ← percentS r
    .ok (txt!"  " ++ name ++ Lists.decU i ++ txt!" = 0x" ++ Bits.hex02 b ++ txt!": " ++ s ++ [0x0A], r.2)
  | none =>
    if i < 3 then do
      let r ← f str
      let s ← percentS r
      .ok (txt!"  " ++ name ++ Lists.decU i ++ txt!" absent: " ++ s ++ [0x0A], r.2)
    else .ok ([], str)

/-- The line for TDi (print_helpers.c:149-153). -/
def tdByte (i : Nat) (byte : Option Byte) (f : List Byte → C (Bool × List Byte)) (str : List Byte) :
    C (List Byte × List Byte) :=
  match byte with
  | some b => do
    let r ← f str
    let s ← percentS r
    .ok (txt!"  TD" ++ Lists.decU i ++ txt!" = 0x" ++ Bits.hex02 b ++ txt!": " ++ s ++ [0x0A], r.2)
  | none => .ok ([], str)

/-- The body of the loop over the interface bytes (print_helpers.c:107-153). -/
def ifSet (info : Info) (i : Nat) (str : List Byte) : C (List Byte × List Byte) := do
  let a ← deref info (·.a) i
  let b ← deref info (·.b) i
  let c ← deref info (·.c) i
  let d ← deref info (·.d) i
  let sep := if a.isSome ∨ b.isSome ∨ c.isSome ∨ d.isSome ∨ i < 3 then dashes else []
  let (ta, str) ← ifByte txt!"TA" i a (AtrStr.taString info i) str
  let (tb, str) ← ifByte txt!"TB" i b (AtrStr.tbString info i) str
  let (tc, str) ← ifByte txt!"TC" i c (AtrStr.tcString info i) str
  let (td, str) ← tdByte i d (AtrStr.tdString info i) str
  .ok (sep ++ ta ++ tb ++ tc ++ td, str)

/-- The loop (print_helpers.c:106-154): the next number is `i`, `n` iterations remain. -/
def ifSets (info : Info) : Nat → Nat → List Byte → C (List Byte × List Byte)
  | 0, _, str => .ok ([], str)
  | n + 1, i, str => do
    let (t, str) ← ifSet info i str
    let (u, str) ← ifSets info n (i + 1) str
    .ok (t ++ u, str)

/-- `iso7816_compact_tlv_tag_get_string` (iso7816_compact_tlv.c:90-105). -/
def compactTag (tag : Byte) : List Byte :=
  if tag = 0x1 then txt!"Country code"
  else if tag = 0x2 then txt!"Issuer identification number"
  else if tag = 0x3 then txt!"Card service data"
  else if tag = 0x4 then txt!"Initial access data"
  else if tag = 0x5 then txt!"Card issuer data"
  else if tag = 0x6 then txt!"Pre-issuing data"
  else if tag = 0x7 then txt!"Card capabilities"
  else if tag = 0x8 then txt!"Status indicator"
  else if tag = 0xF then txt!"Application identifier (AID)"
  else txt!"Unknown"

/-- `printf("%s%02X", i ? " " : "", value[i])` for i from `i` on (print_helpers.c:222-224). -/
def between : Nat → List Byte → List Byte
  | _, [] => []
  | i, b :: r => (if i ≠ 0 then [0x20] else []) ++ Bits.hex02 b ++ between (i + 1) r

/-- The `switch` (print_helpers.c:227-238).  `pos` is the index of `tlv.value` in the stored ATR:
`tlv.value[0]` is read whatever the length. -/
def objectList (info : Info) (pos : Nat) (t : CompactTlv.Tlv) (str : List Byte) :
    C (Int × List Byte) :=
  if t.tag = 0x3 then do
    let b ← rd info.buf pos
    IsoStr.serviceList b str
  else if t.tag = 0x7 then IsoStr.capsList t.value str
  else .ok (-1, str)

/-- The list below an object (print_helpers.c:240-242). -/
def objectNote (r : Int) (str : List Byte) : C (List Byte) :=
  if r = 0 then Print.strList txt!"  " 2 str else .ok []

/-- The loop of `print_atr_historical_bytes` and what follows it (print_helpers.c:216-247); `pos` is
the index of the next object in the stored ATR, `str` the contents of the local array. -/
def objects (info : Info) : Nat → Nat → List Byte → List Byte → C (List Byte)
  | 0, _, _, _ => .error .nonTerm
  | fuel + 1, pos, itr, str => do
    let (itr', d) ← CompactTlv.itrNext itr
    match d with
    | .eod => .ok []
    | .err _ => .ok (txt!"Failed to parse ATR historical bytes" ++ [0x0A])
    | .ok r t => do
      let head := txt!"  " ++ compactTag t.tag ++ txt!" (0x" ++ [Bits.hexDigit t.tag.toNat] ++
        txt!"): [" ++ Lists.decU t.value.length ++ txt!"] " ++ between 0 t.value ++ [0x0A]
      let (c, str) ← objectList info (pos + 1) t str
      let note ← objectNote c str
      let more ← objects info fuel (pos + r) itr' str
      .ok (head ++ note ++ more)

/-- `%s` of the result of `iso7816_atr_T1_get_string`. -/
def t1Text (info : Info) : C (List Byte) :=
  match AtrStr.t1String info with
  | some s => .ok s
  | none => .error .oobRead

/-- `print_atr_historical_bytes` (print_helpers.c:187-248) for a structure with historical bytes.
`loc` are the contents of the local array. -/
def historicalBytes (loc : List Byte) (info : Info) : C (List Byte) := do
  let s ← t1Text info
  let first := txt!"  T1  = 0x" ++ Bits.hex02 info.t1 ++ txt!": " ++ s ++ [0x0A]
  match info.hist with
  | none => .ok (first ++ txt!"  Historical bytes: (null)" ++ [0x0A])
  | some (o, n) => do
    let h ← slice info.buf o n
    if info.t1 ≠ 0x00 ∧ info.t1 ≠ 0x80 then .ok (first ++ Print.buf txt!"  Historical bytes" h)
    else if n = 0 then .ok (first ++ txt!"Failed to parse ATR historical bytes" ++ [0x0A])
    else do
      let more ← objects info (n + 1) o h loc
      .ok (first ++ more)

/-- The status indicator (print_helpers.c:159-180). -/
def statusLines (info : Info) (str : List Byte) : C (List Byte) :=
  if info.si.isSome then do
    let (lcs, sw1, sw2) := info.stat
    let first := dashes ++ txt!"  LCS = " ++ Bits.hex02 lcs ++ txt!": " ++ IsoStr.lcsString lcs ++ [0x0A]
    if sw1 ≠ 0 ∨ sw2 ≠ 0 then do
      let r ← IsoStr.swString sw1 sw2 str
      let s ← percentS r
      .ok (first ++ txt!"  SW  = " ++ Bits.hex02 sw1 ++ Bits.hex02 sw2 ++ txt!": (" ++ s ++
        txt!")" ++ [0x0A])
    else .ok first
  else .ok []

/-- What is printed for a structure with historical bytes (print_helpers.c:155-181). -/
def cardLines (hloc : List Byte) (info : Info) (str : List Byte) : C (List Byte) :=
  if info.k ≠ 0 then do
    let h ← historicalBytes hloc info
    let s ← statusLines info str
    .ok (dashes ++ h ++ s)
  else .ok []

/-- `print_atr` (print_helpers.c:97-185).  `loc` and `hloc` are the contents of the local arrays of
this function and of `print_atr_historical_bytes`.  Members `TS` and `T0` are the first two bytes
stored; a `TCK` that was not parsed is 0 (iso7816.c:65). -/
def atr (loc hloc : List Byte) (info : Info) : C (List Byte) := do
  let whole ← slice info.buf 0 info.len
  let ts ← rd info.buf 0
  let tsText ← AtrStr.tsString info
  let t0 ← rd info.buf 1
  let r ← AtrStr.t0String info loc
  let t0Text ← percentS r
  let (sets, str) ← ifSets info 4 1 r.2
  let card ← cardLines hloc info str
  .ok (Print.buf txt!"ATR" whole ++
    txt!"  TS  = 0x" ++ Bits.hex02 ts ++ txt!": " ++ tsText ++ [0x0A] ++
    txt!"  T0  = 0x" ++ Bits.hex02 t0 ++ txt!": " ++ t0Text ++ [0x0A] ++
    sets ++ card ++ dashes ++
    txt!"  TCK = 0x" ++ Bits.hex02 (info.tck.getD 0) ++ [0x0A])

/-! ## Commands, responses, status words, applications -/

/-- `print_capdu` (print_helpers.c:250-278). -/
def capdu (loc v : List Byte) : C (List Byte) :=
  if v.length = 0 then .ok (txt!"(null)" ++ [0x0A])
  else do
    let (r, str) ← Capdu.emvGetString v loc
    if r ≠ 0 then .ok (hexes v ++ [0x0A])
    else do
      let s ← Capdu.cstr str
      .ok (hexes v ++ txt!" (" ++ s ++ txt!")" ++ [0x0A])

/-- `print_rapdu` (print_helpers.c:280-314). -/
def rapdu (loc v : List Byte) : C (List Byte) :=
  if v.length = 0 then .ok (txt!"(null)" ++ [0x0A])
  else if v.length < 2 then .ok (hexes v ++ [0x0A])
  else do
    let sw1 ← rd v (v.length - 2)
    let sw2 ← rd v (v.length - 1)
    let (given, str) ← IsoStr.swString sw1 sw2 loc
    if given then do
      let s ← Capdu.cstr str
      if s = [] then .ok (hexes v ++ [0x0A])
      else .ok (hexes v ++ txt!" (" ++ s ++ txt!")" ++ [0x0A])
    else .ok (hexes v ++ [0x0A])

/-- `print_sw1sw2` (print_helpers.c:316-328). -/
def sw1sw2 (loc : List Byte) (sw1 sw2 : Byte) : C (List Byte) := do
  let (given, str) ← IsoStr.swString sw1 sw2 loc
  if given then do
    let s ← Capdu.cstr str
    .ok (txt!"SW1SW2: " ++ Bits.hex02 sw1 ++ Bits.hex02 sw2 ++ txt!" (" ++ s ++ txt!")" ++ [0x0A])
  else .ok (txt!"Failed to parse SW1-SW2 status bytes" ++ [0x0A])

/-- `print_emv_app` (print_helpers.c:827-841). -/
def app (a : App.App) : C (List Byte) := do
  let name ← Capdu.cstr a.name
  .ok (txt!"Application: " ++ hexes a.aid.value ++ txt!", " ++ name ++
    (if a.prio ≠ 0 then txt!", Priority " ++ Lists.decU a.prio else []) ++
    (if a.conf then txt!", Cardholder confirmation required" else []) ++ [0x0A])

/-! ## Events -/

/-- The data of an event by its type (emv_debug.h:51-60); `other` are the types for which the
listing has no case of its own. -/
inductive Data where
  | msg
  | tlv (v : List Byte)
  | atr (info : Info)
  | capdu (v : List Byte)
  | rapdu (v : List Byte)
  | other (v : List Byte)

/-- The local arrays of the functions called. -/
structure Locals where
  atr : List Byte
  historical : List Byte
  apdu : List Byte
  field : Nat → List Byte → List Byte

/-- `print_emv_debug_internal` (print_helpers.c:843-879). -/
def event (env : TlvInfo.Env) (loc : Locals) (str : List Byte) : Data → C (List Byte)
  | .msg => .ok (str ++ [0x0A])
  | .tlv v => do
    let l ← Print.emvBuf env loc.field txt!"  " false 1 v
    .ok (Print.buf str v ++ l)
  | .atr info => atr loc.atr loc.historical info
  | .capdu v => do
    let l ← capdu loc.apdu v
    .ok (str ++ txt!": " ++ l)
  | .rapdu v => do
    let l ← rapdu loc.apdu v
    .ok (str ++ txt!": " ++ l)
  | .other v => .ok (Print.buf str v)

/-- The names of the sources (print_helpers.c:893-913, 932-952). -/
def sourceName (s : Nat) : List Byte :=
  if s = 0x01 then txt!"TTL"
  else if s = 0x02 then txt!"TAL"
  else if s = 0x04 then txt!"EMV"
  else if s = 0x08 then txt!"APP"
  else txt!"???"

/-- The names of the levels (print_helpers.c:954-974). -/
def levelName (l : Nat) : List Byte :=
  if l = 1 then txt!"ERROR"
  else if l = 2 then txt!"INFO"
  else if l = 3 then txt!"CARD"
  else if l = 4 then txt!"TRACE"
  else txt!"????"

/-- `%010u`. -/
def dec010 (n : Nat) : List Byte :=
  List.replicate (10 - (Lists.decU n).length) 0x30 ++ Lists.decU n

/-- `print_emv_debug` (print_helpers.c:881-917). -/
def debug (env : TlvInfo.Env) (loc : Locals) (source : Nat) (str : List Byte) (d : Data) :
    C (List Byte) := do
  let l ← event env loc str d
  .ok (txt!"[" ++ sourceName source ++ txt!"] " ++ l)

/-- `print_emv_debug_verbose` (print_helpers.c:919-978). -/
def debugVerbose (env : TlvInfo.Env) (loc : Locals) (timestamp source level : Nat) (str : List Byte)
    (d : Data) : C (List Byte) := do
  let l ← event env loc str d
  .ok (txt!"[" ++ dec010 timestamp ++ txt!"," ++ sourceName source ++ txt!"," ++ levelName level ++
    txt!"] " ++ l)

/-- The static variables of `emv_debug.c` (34-36); the function pointer only matters by being set. -/
structure Config where
  mask : Nat
  level : Nat
  set : Bool

/-- `emv_debug_internal` (emv_debug.c:51-100), the formatting of the text left out: whether the
function is called.  `source` and `mask` are `unsigned int`. -/
def delivered (c : Config) (source level : Nat) : Bool :=
  if ¬ c.set then false
  else if c.mask &&& source = 0 then false
  else if level > c.level then false
  else true

/-- The text passed on (emv_debug.c:78-85): `vsnprintf` into an array of 1024 bytes. -/
def eventText (loc text : List Byte) : C (List Byte) := do
  let str ← Capdu.snprintf loc text
  Capdu.cstr str

end Verif.PrintCard
