import Verif.PcscInit
import Verif.Lists

/-!
# Model of the reader listing of `tools/emv-tool.c`

`print_pcsc_readers` (288-546) and `pcsc_get_reader_state_string` (266-286).  Standard output is a list of
bytes.  `mem n` is the content of an uninitialised local object of `n` bytes.  Numbers of 16 bits are
little-endian.  What the readers answer when asked for their state is an input.
-/

set_option autoImplicit false

namespace Verif.ToolReaders
open Verif Verif.Pcsc Verif.PcscInit

/-- `%zu`. -/
def decZ (n : Nat) : List Byte := Lists.uLoop 20 n []

/-- A digit of `%x`. -/
def xDigit (n : Nat) : Byte := UInt8.ofNat (if n < 10 then 0x30 + n else 0x57 + n)

/-- `%04x` of a `uint16_t`. -/
def hex04 (n : Nat) : List Byte :=
  [xDigit (n / 4096 % 16), xDigit (n / 256 % 16), xDigit (n / 16 % 16), xDigit (n % 16)]

/-- `pcsc_get_reader_state_string` (emv-tool.c:266-286; constants pcsc.h:69-79); `none` is NULL. -/
def stateString (s : Nat) : Option (List Byte) :=
  if s &&& 0x0008 ≠ 0 then some txt!"Status unavailable"
  else if s &&& 0x0010 ≠ 0 then some txt!"No card"
  else if s &&& 0x0020 ≠ 0 then
    if s &&& 0x0200 ≠ 0 then some txt!"Unresponsive card"
    else if s &&& 0x0400 ≠ 0 then some txt!"Unpowered card"
    else some txt!"Card present"
  else none

/-- `feature_list` (emv-tool.c:315-323; constants pcsc.h:41-44). -/
def featureList : List (Nat × List Byte) :=
  [(0x06, txt!"PIN verification"), (0x07, txt!"PIN modification"), (0x08, txt!"MCT direct"),
   (0x09, txt!"MCT universal")]

/-- Search for a recognised feature (emv-tool.c:325-332). -/
def anyFeature (f : Feat) : List (Nat × List Byte) → C Bool
  | [] => .ok false
  | e :: l => do
    if ← hasFeature f.buf f.bufLen e.1 then .ok true else anyFeature f l

/-- The features (emv-tool.c:338-349); `comma` is `feature_comma`. -/
def features (f : Feat) : Bool → List (Nat × List Byte) → C (List Byte)
  | _, [] => .ok []
  | comma, e :: l => do
    if ← hasFeature f.buf f.bufLen e.1 then do
      let more ← features f true l
      .ok ((if comma then txt!", " else []) ++ e.2 ++ more)
    else features f comma l

/-- The line of the features (emv-tool.c:334-351). -/
def featureLine (f : Feat) : C (List Byte) := do
  if ← anyFeature f featureList then do
    let s ← features f false featureList
    .ok (txt!"\tFeatures: " ++ s ++ [0x0A])
  else .ok []

/-- `property_list` (emv-tool.c:353-362; constants pcsc.h:53-59). -/
def propertyList : List Nat := [0x01, 0x04, 0x05, 0x06, 0x07, 0x0B, 0x0C]

/-- Search for a recognised property (emv-tool.c:364-374). -/
def anyProperty (mem : Nat → List Byte) (f : Feat) : List Nat → C Bool
  | [] => .ok false
  | p :: l => do
    let (r, _, _) ← getProperty f.view p (mem 256)
    if r = 0 then .ok true else anyProperty mem f l

/-- The bytes of an object as a little-endian number. -/
def leNat : List Byte → Nat
  | [] => 0
  | b :: l => b.toNat + 256 * leNat l

/-- A property read into an integer of `n` bytes, zeroed unless it was found with this length, and the
length (e.g. emv-tool.c:404-419). -/
def number (mem : Nat → List Byte) (f : Feat) (p n : Nat) : C (Nat × Nat) := do
  let (r, value, len) ← getProperty f.view p (mem n)
  if r ≠ 0 ∨ len ≠ n then .ok (0, len) else .ok (leNat value, len)

/-- `if (property_comma) printf(", ")` and a text: what is printed and `property_comma`. -/
def item (comma : Bool) (text : Option (List Byte)) : List Byte × Bool :=
  match text with
  | none => ([], comma)
  | some t => ((if comma then txt!", " else []) ++ t, true)

/-- LCD layout (emv-tool.c:382-400). -/
def layout (mem : Nat → List Byte) (f : Feat) : C (Option (List Byte)) := do
  let (r, value, len) ← getProperty f.view 0x01 (mem 2)
  if r = 0 ∧ len = 2 then do
    let a ← rd value 0
    let b ← rd value 1
    if a ≠ 0 ∨ b ≠ 0 then .ok (some (txt!"LCD " ++ Lists.decU a.toNat ++ txt!" x " ++ Lists.decU b.toNat))
    else .ok (some txt!"No LCD")
  else .ok none

/-- LCD characters and lines (emv-tool.c:402-445). -/
def display (mem : Nat → List Byte) (f : Feat) : C (Option (List Byte)) := do
  let (chars, n) ← number mem f 0x04 2
  let (lns, k) ← number mem f 0x05 2
  if (chars ≠ 0 ∧ lns ≠ 0) ∨ n ≠ 0 ∨ k ≠ 0 then
    if chars ≠ 0 ∧ lns ≠ 0 then
      .ok (some (txt!"LCD " ++ Lists.decU chars ++ txt!" x " ++ Lists.decU lns))
    else .ok (some txt!"LCD")
  else .ok none

/-- PIN size (emv-tool.c:447-487). -/
def pinSize (mem : Nat → List Byte) (f : Feat) : C (Option (List Byte)) := do
  let (min, _) ← number mem f 0x06 1
  let (max, _) ← number mem f 0x07 1
  if min ≠ 0 ∨ max ≠ 0 then
    if max ≠ 0 then .ok (some (txt!"PIN size " ++ Lists.decU min ++ txt!"-" ++ Lists.decU max))
    else .ok (some (txt!"PIN size " ++ Lists.decU min ++ txt!"+"))
  else .ok none

/-- USB identification (emv-tool.c:489-525). -/
def usb (mem : Nat → List Byte) (f : Feat) : C (Option (List Byte)) := do
  let (vendor, _) ← number mem f 0x0B 2
  let (product, _) ← number mem f 0x0C 2
  if vendor ≠ 0 ∧ product ≠ 0 then
    .ok (some (txt!"USB device " ++ hex04 vendor ++ txt!":" ++ hex04 product))
  else .ok none

/-- The line of the properties (emv-tool.c:364-528). -/
def propertyLine (mem : Nat → List Byte) (f : Feat) : C (List Byte) := do
  if ← anyProperty mem f propertyList then do
    let t ← layout mem f
    let (a, comma) := item false t
    let t ← display mem f
    let (b, comma) := item comma t
    let t ← pinSize mem f
    let (c, comma) := item comma t
    let t ← usb mem f
    let (d, _) := item comma t
    .ok (txt!"\tProperties: " ++ a ++ b ++ c ++ d ++ [0x0A])
  else .ok []

/-- The state of a reader as text (emv-tool.c:531-538, 718-723); `none` is NULL. -/
def stateOf (svc : Option Nat) : Option (List Byte) :=
  let (r, s) := getState svc 0
  if r = 0 then stateString s else none

/-- One reader (emv-tool.c:307-544); `svc` is its answer when asked for the state. -/
def reader (mem : Nat → List Byte) (c : Ctx) (svc : Option Nat) (i : Nat) (r : Rdr) : C (List Byte) := do
  let name ← getName c r
  let fs ← featureLine r.feat
  let ps ← propertyLine mem r.feat
  .ok (txt!"Reader " ++ decZ i ++ txt!": " ++ name ++ [0x0A] ++ fs ++ ps ++ txt!"\tState: " ++
    (stateOf svc).getD txt!"Unknown" ++ [0x0A])

/-- The readers from `i`, `n` of them (emv-tool.c:300-545). -/
def readers (mem : Nat → List Byte) (c : Ctx) (svc : Nat → Option Nat) : Nat → Nat → C (List Byte)
  | 0, _ => .ok []
  | n + 1, i =>
    match getReader (some c) i with
    | none => readers mem c svc n (i + 1)
    | some r => do
      let s ← reader mem c (svc i) i r
      let more ← readers mem c svc n (i + 1)
      .ok (s ++ more)

/-- `print_pcsc_readers` (emv-tool.c:288-546). -/
def list (mem : Nat → List Byte) (c : Ctx) (svc : Nat → Option Nat) : C (List Byte) :=
  if count (some c) = 0 then .ok []
  else do
    let s ← readers mem c svc (count (some c)) 0
    .ok (txt!"\nPC/SC readers:\n" ++ s)

end Verif.ToolReaders
