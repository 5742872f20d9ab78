import Verif.TlvInfo
import Verif.Dol
import Verif.Lists

/-!
# Model of the listings of `tools/print_helpers.c`

The output of `printf` is a list of bytes.  The prefix is not NULL; a data pointer is not NULL and
its length is below 2^31 (`int` counts of consumed bytes).  Counts printed with `%zu` are printed
with `%u`.
-/

set_option autoImplicit false

namespace Verif.Print
open Verif Ber TlvInfo

/-- The digits of `%X` in front of `acc`, at most `k` of them. -/
def xLoop : Nat → Nat → List Byte → List Byte
  | 0, _, acc => acc
  | k + 1, n, acc =>
    let acc := Bits.hexDigit (n % 16) :: acc
    if n < 16 then acc else xLoop k (n / 16) acc

/-- `%02X` of an `unsigned int`. -/
def hexU (n : Nat) : List Byte :=
  let d := xLoop 8 n []
  if d.length < 2 then 0x30 :: d else d

/-- `%d`. -/
def decI (c : Int) : List Byte :=
  if c < 0 then 0x2D :: Lists.decU c.natAbs else Lists.decU c.natAbs

/-- `for (i = 0; i < depth; ++i) printf("%s", prefix)` (e.g. print_helpers.c:362-364). -/
def indent (pfx : List Byte) : Nat → List Byte
  | 0 => []
  | d + 1 => pfx ++ indent pfx d

/-- `for (...) printf(" %02X", value[i])` (e.g. print_helpers.c:399-401). -/
def spaced (v : List Byte) : List Byte := (v.map (fun b : Byte => 0x20 :: Bits.hex02 b)).flatten

/-- `print_buf` (print_helpers.c:51-65) with a name. -/
def buf (name v : List Byte) : List Byte :=
  name ++ txt!": " ++ (v.map Bits.hex02).flatten ++ [0x0A]

/-! ## Common walk -/

/-- `(len & 0x7) == 0 && len - valid_bytes < 8 || (len & 0xF) == 0 && len - valid_bytes < 15`
after `valid_bytes < len` (print_helpers.c:431-438, 603-610). -/
def looksLikePadding (len valid : Nat) : Bool :=
  decide (valid < len) &&
    ((decide (len % 8 = 0) && decide (len - valid < 8)) ||
     (decide (len % 16 = 0) && decide (len - valid < 15)))

/-- What follows the loop when the last result was the error `c` (print_helpers.c:429-457,
601-629); `whole` is the buffer of this level. -/
def ending (pfx : List Byte) (pad : Bool) (depth : Nat) (whole : List Byte) (valid : Nat) (c : Int) :
    C (List Byte × Nat) :=
  if pad && looksLikePadding whole.length valid then do
    let rest ← suffix whole valid
    .ok (indent pfx depth ++ txt!"Padding : [" ++ Lists.decU (whole.length - valid) ++ txt!"]" ++
      spaced rest ++ [0x0A], whole.length)
  else .ok (txt!"BER decoding error " ++ decI c, valid)

/-- `print_ber_buf_internal` and `print_emv_buf_internal` (print_helpers.c:339-461, 501-633),
which differ only in what they print for an object: `item depth tlv` is that text (for a
constructed object up to the recursive call) and the error code when the loop is left there.
The result is the text printed and the number of bytes consumed; the results -1, for a NULL
pointer, are not modelled.  `whole` is the buffer, `itr` what remains of it. -/
def walk (item : Nat → Tlv → C (List Byte × Option Int)) (pfx : List Byte) (pad : Bool) :
    Nat → Nat → List Byte → List Byte → Nat → C (List Byte × Nat)
  | 0, _, _, _, _ => .error .nonTerm
  | fuel + 1, depth, whole, itr, valid => do
    let (itr', d) ← itrNext itr
    match d with
    | .eod => .ok ([], valid)
    | .err c => ending pfx pad depth whole valid c
    | .ok r t => do
      let (line, stop) ← item depth t
      if t.isConstructed then do
        let (inner, n) ← walk item pfx pad fuel (depth + 1) t.value t.value 0
        let valid := valid + (r - t.value.length) + n
        if n < t.value.length then .ok (line ++ inner, valid)
        else do
          let (more, n) ← walk item pfx pad fuel depth whole itr' valid
          .ok (line ++ inner ++ more, n)
      else
        match stop with
        | some c => do
          let (more, n) ← ending pfx pad depth whole (valid + r) c
          .ok (line ++ more, n)
        | none => do
          let (more, n) ← walk item pfx pad fuel depth whole itr' (valid + r)
          .ok (line ++ more, n)

/-- One level, from its start. -/
def level (item : Nat → Tlv → C (List Byte × Option Int)) (pfx : List Byte) (pad : Bool)
    (depth : Nat) (whole : List Byte) : C (List Byte × Nat) :=
  walk item pfx pad (whole.length + 1) depth whole whole 0

/-- `print_ber_buf` and `print_emv_buf` after the walk (print_helpers.c:471-489, 643-661). -/
def remainder (whole : List Byte) (n : Nat) : C (List Byte) :=
  if n < whole.length then do
    let rest ← suffix whole n
    .ok (txt!" at offset " ++ decI n ++ txt!"; remaining invalid data:" ++ spaced rest ++ [0x0A])
  else .ok []

/-- `print_ber_buf` and `print_emv_buf` (print_helpers.c:463-490, 635-662). -/
def listing (item : Nat → Tlv → C (List Byte × Option Int)) (pfx : List Byte) (pad : Bool)
    (depth : Nat) (whole : List Byte) : C (List Byte) := do
  let (text, n) ← level item pfx pad depth whole
  let more ← remainder whole n
  .ok (text ++ more)

/-! ## BER -/

/-- `iso8825_ber_is_string` (iso8825_ber.c:204-234; tags iso8825_ber.h:55-82). -/
def isString (tag : Nat) : Bool :=
  [0x07, 0x0C, 0x12, 0x13, 0x14, 0x15, 0x16, 0x17, 0x18, 0x19, 0x1A, 0x1B, 0x1C, 0x1E].contains tag

/-- The copy of a string and what `%s` shows of it (print_helpers.c:403-412); `loc` are the
contents of `str` before. -/
def stringNote (loc v : List Byte) : C (List Byte) :=
  if v.length < loc.length then do
    let str ← wrs loc 0 v
    let str ← wr str v.length 0
    let s ← Capdu.cstr str
    .ok (txt!" \"" ++ s ++ txt!"\"")
  else .ok txt!" \"...\""

/-- The numbers of an object identifier (print_helpers.c:423-427), the first of them being number
`i`. -/
def arcsText : Nat → List Nat → List Byte
  | _, [] => []
  | i, a :: as => (if i ≠ 0 then [0x20] else []) ++ Lists.decU a ++ arcsText (i + 1) as

/-- `oid.value[i]` for `i < oid.length`. -/
def oidValues (value : List Nat) (length : Nat) : C (List Nat) :=
  if length ≤ value.length then .ok (value.take length) else .error .oobRead

/-- An object identifier (print_helpers.c:414-427): the text, or the code with which the loop is
left. -/
def oidNote (v : List Byte) : C (List Byte × Option Int) := do
  let (r, value, length) ← oidDecode v
  if r ≠ 0 then .ok ([], some r)
  else do
    let arcs ← oidValues value length
    .ok (txt!" {" ++ arcsText 0 arcs ++ txt!"}" ++ [0x0A], none)

/-- What follows the bytes of a primitive object (print_helpers.c:403-430). -/
def berNote (loc : List Byte) (t : Tlv) : C (List Byte × Option Int) :=
  if isString t.tag then do
    let s ← stringNote loc t.value
    .ok (s ++ [0x0A], none)
  else if t.tag = 0x06 then oidNote t.value
  else .ok ([0x0A], none)

/-- An object of `print_ber_buf_internal` (print_helpers.c:362-430); `loc` are the contents of the
local array `str`. -/
def berItem (loc pfx : List Byte) (depth : Nat) (t : Tlv) : C (List Byte × Option Int) :=
  let head := indent pfx depth ++ hexU t.tag ++ txt!" : [" ++ Lists.decU t.value.length ++ txt!"]"
  if t.isConstructed then .ok (head ++ [0x0A], none)
  else do
    let (note, stop) ← berNote loc t
    .ok (head ++ spaced t.value ++ note, stop)

/-- `print_ber_buf` (print_helpers.c:463-490). -/
def berBuf (loc pfx : List Byte) (pad : Bool) (depth : Nat) (v : List Byte) : C (List Byte) :=
  listing (berItem loc pfx) pfx pad depth v

/-! ## EMV -/

/-- `str_is_list` (print_helpers.c:41-49). -/
def strIsList (str : List Byte) : C Bool := do
  let s ← Capdu.cstr str
  match s.getLast? with
  | none => .ok false
  | some b => .ok (b == 0x0A)

/-- The tokens of `strtok_r(str, "\n")` (C11 7.24.5.8): the longest pieces without a delimiter,
empty ones skipped; `cur` is the piece being read. -/
def tokens : List Byte → List Byte → List (List Byte)
  | [], cur => if cur = [] then [] else [cur]
  | b :: rest, cur =>
    if b = 0x0A then (if cur = [] then tokens rest [] else cur :: tokens rest [])
    else tokens rest (cur ++ [b])

/-- `print_str_list(str, "\n", prefix, depth, "- ", "\n")` (print_helpers.c:67-95). -/
def strList (pfx : List Byte) (depth : Nat) (str : List Byte) : C (List Byte) := do
  let s ← Capdu.cstr str
  .ok ((tokens s []).map (fun t => indent pfx depth ++ txt!"- " ++ t ++ [0x0A])).flatten

/-- `emv_tlv_get_info(&tlv, &info, NULL, 0)` for a field of `length` bytes of which `tlv.value` is
NULL (emv_strings.c:90-1249): name and format.  Reading through the NULL pointer is `oobRead`: that
happens only for tag 84 (emv_strings.c:248-249); every other case tests the pointer or the output
first. -/
def infoNull (tag length : Nat) : C Info :=
  if tag = 0x9F66 then
    .ok (if length = 4 then ⟨some txt!"Terminal Transaction Qualifiers (TTQ)", .b⟩ else ⟨none, .b⟩)
  else if tag = 0x9F6D then
    .ok (if length = 1 then ⟨some txt!"Contactless Reader Capabilities", .b⟩ else ⟨none, .b⟩)
  else if tag = 0x9F6E then
    .ok (if length > 4 ∧ length ≤ 32 then ⟨some txt!"Third Party Data", .b⟩ else ⟨none, .b⟩)
  else if tag = 0x84 ∧ (length = pse.length ∨ length = ppse.length) then .error .oobRead
  else
    match table.find? (fun e => e.tag == tag) with
    | some e => .ok ⟨some e.name, e.fmt⟩
    | none => .ok ⟨none, .b⟩

/-- `%02X | %s` or `%02X` (e.g. print_helpers.c:780-787). -/
def tagText (tag : Nat) (info : Info) : List Byte :=
  match info.name with
  | some n => hexU tag ++ txt!" | " ++ n
  | none => hexU tag

/-- The loop of `print_emv_dol` (print_helpers.c:769-789). -/
def dolLoop (pfx : List Byte) (depth : Nat) : Nat → List Byte → C (List Byte)
  | 0, _ => .error .nonTerm
  | fuel + 1, itr => do
    let (itr', d) ← Dol.itrNext itr
    match d with
    | .ok _ e => do
      let info ← infoNull e.tag e.length
      let more ← dolLoop pfx depth fuel itr'
      .ok (indent pfx depth ++ tagText e.tag info ++ txt!" [" ++ Lists.decU e.length ++ txt!"]" ++
        [0x0A] ++ more)
    | _ => .ok []

/-- `print_emv_dol` (print_helpers.c:753-790). -/
def dol (pfx : List Byte) (depth : Nat) (v : List Byte) : C (List Byte) := do
  let more ← dolLoop pfx (depth + 1) (v.length + 1) v
  .ok (indent pfx depth ++ txt!"Data Object List:" ++ [0x0A] ++ more)

/-- The loop of `print_emv_tag_list` (print_helpers.c:802-824). -/
def tagLoop (pfx : List Byte) (depth : Nat) : Nat → List Byte → C (List Byte)
  | 0, _ => .error .nonTerm
  | fuel + 1, rest => do
    let d ← tagDecode rest
    match d with
    | .ok r tag => do
      let info ← infoNull tag 0
      let rest' ← suffix rest r
      let more ← tagLoop pfx depth fuel rest'
      .ok (indent pfx depth ++ tagText tag info ++ [0x0A] ++ more)
    | _ => .ok []

/-- `print_emv_tag_list` (print_helpers.c:792-825). -/
def tagList (pfx : List Byte) (depth : Nat) (v : List Byte) : C (List Byte) := do
  let more ← tagLoop pfx (depth + 1) (v.length + 1) v
  .ok (indent pfx depth ++ txt!"Tag List:" ++ [0x0A] ++ more)

/-- `if (info.format == ...) print_emv_...` (print_helpers.c:584-589). -/
def sublist (pfx : List Byte) (depth : Nat) (f : Fmt) (v : List Byte) : C (List Byte) :=
  match f with
  | .dol => dol pfx depth v
  | .tagList => tagList pfx depth v
  | _ => .ok []

/-- The text of a value, in quotes or parentheses (print_helpers.c:590-600). -/
def quoted (f : Fmt) (s : List Byte) : List Byte :=
  match f with
  | .a | .an | .ans => txt!" \"" ++ s ++ txt!"\"" ++ [0x0A]
  | _ => txt!" (" ++ s ++ txt!")" ++ [0x0A]

/-- `if (str_is_list(value_str)) print_str_list(...)` (print_helpers.c:581-583). -/
def items (pfx : List Byte) (depth : Nat) (l : Bool) (str : List Byte) : C (List Byte) :=
  if l then strList pfx depth str else .ok []

/-- What follows the bytes of a primitive field (print_helpers.c:574-600); `depth` is that of the
lines below it. -/
def emvNote (pfx : List Byte) (depth : Nat) (f : Fmt) (v str : List Byte) : C (List Byte) := do
  let c ← rd str 0
  let l ← strIsList str
  if c = 0 ∨ l = true then do
    let a ← items pfx depth l str
    let b ← sublist pfx depth f v
    .ok ([0x0A] ++ a ++ b)
  else do
    let s ← Capdu.cstr str
    .ok (quoted f s)

/-- A field of `print_emv_buf_internal` (print_helpers.c:526-600); `loc tag value` are the contents
of the local array `value_str`. -/
def emvItem (env : Env) (loc : Nat → List Byte → List Byte) (pfx : List Byte) (depth : Nat)
    (t : Tlv) : C (List Byte × Option Int) := do
  let (_, info, str) ← getInfo env t.tag t.value (loc t.tag t.value)
  let head := indent pfx depth ++ tagText t.tag info ++ txt!" : [" ++ Lists.decU t.value.length ++
    txt!"]"
  if t.isConstructed then .ok (head ++ [0x0A], none)
  else do
    let note ← emvNote pfx (depth + 1) info.fmt t.value str
    .ok (head ++ spaced t.value ++ note, none)

/-- `print_emv_buf` (print_helpers.c:635-662). -/
def emvBuf (env : Env) (loc : Nat → List Byte → List Byte) (pfx : List Byte) (pad : Bool)
    (depth : Nat) (v : List Byte) : C (List Byte) :=
  listing (emvItem env loc pfx) pfx pad depth v

/-- `print_emv_tlv_internal` (print_helpers.c:671-737). -/
def emvTlv (env : Env) (loc : Nat → List Byte → List Byte) (pfx : List Byte) (pad : Bool)
    (depth : Nat) (t : Tlv) : C (List Byte) := do
  let (line, _) ← emvItem env loc pfx depth t
  if t.isConstructed then do
    let more ← emvBuf env loc pfx pad (depth + 1) t.value
    .ok (line ++ more)
  else .ok line

/-- `print_emv_tlv_list` (print_helpers.c:744-751); the list is the sequence it denotes. -/
def emvTlvList (env : Env) (loc : Nat → List Byte → List Byte) : List Tlv → C (List Byte)
  | [] => .ok []
  | t :: ts => do
    let a ← emvTlv env loc txt!"  " false 1 t
    let b ← emvTlvList env loc ts
    .ok (a ++ b)

end Verif.Print
