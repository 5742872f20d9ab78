import Verif.Bits
import Verif.Lists

/-!
# Model of the ISO 7816 descriptions

`src/iso7816_strings.c`: status words (503-773), life cycle status (775-804), card service data
(806-862) and card capabilities (864-1006).

As in `Bits`, the strings of a list are computed first and then added in order to the output,
which the functions do not read.
-/

set_option autoImplicit false

namespace Verif.IsoStr
open Verif StrList Bits

/-! ## Status words -/

/-- The prefix for SW1 (iso7816_strings.c:554-581); `none` for the unreachable default case. -/
def swPrefix (sw1 : Byte) : Option (List Byte) :=
  if sw1 = 0x62 ∨ sw1 = 0x63 then some txt!"Warning: "
  else if sw1 = 0x64 ∨ sw1 = 0x65 ∨ sw1 = 0x66 then some txt!"Execution error: "
  else if sw1 = 0x67 ∨ sw1 = 0x68 ∨ sw1 = 0x69 ∨ sw1 = 0x6A ∨ sw1 = 0x6B ∨ sw1 = 0x6C ∨
      sw1 = 0x6D ∨ sw1 = 0x6E ∨ sw1 = 0x6F then some txt!"Checking error: "
  else none

/-- A card-originated query, or unknown (iso7816_strings.c:599-606, 632-639). -/
def swQuery (sw2 : Byte) : List Byte :=
  if sw2 ≥ 0x02 ∧ sw2 ≤ 0x80 then
    txt!"Card-originated query of " ++ decText sw2.toNat ++ txt!" bytes"
  else txt!"Unknown"

/-- `switch (SW2)` for SW1 = 62 (iso7816_strings.c:590-609). -/
def sw62 (b : Byte) : List Byte :=
  if b = 0x00 then txt!"State of non-volatile memory is unchanged"
  else if b = 0x81 then txt!"Part of returned data may be corrupted"
  else if b = 0x82 then txt!"End of file or record reached before reading Ne bytes"
  else if b = 0x83 then txt!"Selected file deactivated"
  else if b = 0x84 then
    txt!"File control information not formatted according to ISO 7816-4:2005, 5.3.3"
  else if b = 0x85 then txt!"Selected file in termination state"
  else if b = 0x86 then txt!"No input data available from a sensor on the card"
  else swQuery b

/-- SW1 = 63 (iso7816_strings.c:612-625). -/
def sw63 (b : Byte) : List Byte :=
  if b = 0x00 then txt!"State of non-volatile memory has changed"
  else if b = 0x81 then txt!"File filled up by the last write"
  else if b &&& 0xF0 = 0xC0 then txt!"Counter is " ++ decText (b &&& 0x0F).toNat
  else txt!"Unknown"

/-- SW1 = 64 (iso7816_strings.c:628-642). -/
def sw64 (b : Byte) : List Byte :=
  if b = 0x00 then txt!"State of non-volatile memory is unchanged"
  else if b = 0x01 then txt!"Immediate response required by card"
  else swQuery b

/-- SW1 = 65 (iso7816_strings.c:645-653). -/
def sw65 (b : Byte) : List Byte :=
  if b = 0x00 then txt!"State of non-volatile memory has changed"
  else if b = 0x81 then txt!"Memory failure"
  else txt!"Unknown"

/-- SW1 = 68 (iso7816_strings.c:672-683). -/
def sw68 (b : Byte) : List Byte :=
  if b = 0x00 then txt!"Functions in CLA not supported"
  else if b = 0x81 then txt!"Logical channel not supported"
  else if b = 0x82 then txt!"Secure messaging not supported"
  else if b = 0x83 then txt!"Last command of the chain expected"
  else if b = 0x84 then txt!"Command chaining not supported"
  else txt!"Unknown"

/-- SW1 = 69 (iso7816_strings.c:686-701). -/
def sw69 (b : Byte) : List Byte :=
  if b = 0x00 then txt!"Command not allowed"
  else if b = 0x81 then txt!"Command incompatible with file structure"
  else if b = 0x82 then txt!"Security status not satisfied"
  else if b = 0x83 then txt!"Authentication method blocked"
  else if b = 0x84 then txt!"Reference data not usable"
  else if b = 0x85 then txt!"Conditions of use not satisfied"
  else if b = 0x86 then txt!"Command not allowed (no current EF)"
  else if b = 0x87 then txt!"Expected secure messaging data objects missing"
  else if b = 0x88 then txt!"Incorrect secure messaging data objects"
  else txt!"Unknown"

/-- SW1 = 6A (iso7816_strings.c:704-722). -/
def sw6A (b : Byte) : List Byte :=
  if b = 0x00 then txt!"Wrong parameters P1-P2"
  else if b = 0x80 then txt!"Incorrect parameters in the command data field"
  else if b = 0x81 then txt!"Function not supported"
  else if b = 0x82 then txt!"File or application not found"
  else if b = 0x83 then txt!"Record not found"
  else if b = 0x84 then txt!"Not enough memory space in the file"
  else if b = 0x85 then txt!"Nc inconsistent with TLV structure"
  else if b = 0x86 then txt!"Incorrect parameters P1-P2"
  else if b = 0x87 then txt!"Nc inconsistent with parameters P1-P2"
  else if b = 0x88 then txt!"Referenced data or reference data not found"
  else if b = 0x89 then txt!"File already exists"
  else if b = 0x8A then txt!"DF name already exists"
  else txt!"Unknown"

/-- A single case 00 (iso7816_strings.c:662-669, 725-732, 741-748, 751-758, 761-768). -/
def sw00 (s : List Byte) (b : Byte) : List Byte := if b = 0x00 then s else txt!"Unknown"

/-- The text after the prefix (iso7816_strings.c:590-768); `none`: not reached by any of the `if`s. -/
def swRest (sw1 sw2 : Byte) : Option (List Byte) :=
  if sw1 = 0x62 then some (sw62 sw2)
  else if sw1 = 0x63 then some (sw63 sw2)
  else if sw1 = 0x64 then some (sw64 sw2)
  else if sw1 = 0x65 then some (sw65 sw2)
  else if sw1 = 0x66 then some (txt!"Security error 0x" ++ hex02 sw2)
  else if sw1 = 0x67 then some (sw00 txt!"Wrong length" sw2)
  else if sw1 = 0x68 then some (sw68 sw2)
  else if sw1 = 0x69 then some (sw69 sw2)
  else if sw1 = 0x6A then some (sw6A sw2)
  else if sw1 = 0x6B then some (sw00 txt!"Wrong parameters P1-P2" sw2)
  else if sw1 = 0x6C then
    some (txt!"Wrong Le field (" ++ decText sw2.toNat ++ txt!" data bytes available)")
  else if sw1 = 0x6D then some (sw00 txt!"Instruction code not supported or invalid" sw2)
  else if sw1 = 0x6E then some (sw00 txt!"Class not supported" sw2)
  else if sw1 = 0x6F then some (sw00 txt!"No precise diagnosis" sw2)
  else none

/-- `snprintf` of the prefix, and unless it was cut `snprintf` of the rest at `str_ptr`
(iso7816_strings.c:554-768).  Without rest, `snprintf(str, str_len, "Unknown error")` with the
reduced `str_len` (iso7816_strings.c:771). -/
def swTwo (str pre : List Byte) (rest : Option (List Byte)) : C (List Byte) := do
  let str ← Capdu.snprintf str pre
  if pre.length ≥ str.length then .ok str
  else
    match rest with
    | some s => do
      let tail ← Capdu.snprintf (str.drop pre.length) s
      wrs str pre.length tail
    | none => do
      let head ← Capdu.snprintf (str.take (str.length - pre.length)) txt!"Unknown error"
      wrs str 0 head

/-- `iso7816_sw1sw2_get_string` (iso7816_strings.c:503-773): whether `str` was returned (and not
NULL), and the output. -/
def swString (sw1 sw2 : Byte) (str : List Byte) : C (Bool × List Byte) :=
  if str.length = 0 then .ok (false, str)
  else if sw1 = 0x90 ∧ sw2 = 0x00 then do
    let str ← Capdu.snprintf str txt!"Normal"
    .ok (true, str)
  else if sw1 = 0x61 then do
    let str ← Capdu.snprintf str
      (txt!"Normal: " ++ decText sw2.toNat ++ txt!" data bytes remaining")
    .ok (true, str)
  else if sw1 &&& 0xF0 ≠ 0x60 ∧ sw1 &&& 0xF0 ≠ 0x90 then do
    let str ← Capdu.snprintf str txt!"Invalid"
    .ok (true, str)
  else if sw1 = 0x60 then do
    let str ← Capdu.snprintf str txt!"Invalid"
    .ok (true, str)
  else if (sw1 = 0x67 ∨ sw1 = 0x6B ∨ sw1 = 0x6D ∨ sw1 = 0x6E ∨ sw1 = 0x6F) ∧ sw2 ≠ 0x00 ∨
      sw1 &&& 0xF0 = 0x90 then do
    let str ← Capdu.snprintf str txt!"Proprietary"
    .ok (true, str)
  else
    match swPrefix sw1 with
    | none => .ok (false, str)
    | some pre => do
      let str ← swTwo str pre (swRest sw1 sw2)
      .ok (true, str)

/-! ## Life cycle status -/

/-- `iso7816_lcs_get_string` (iso7816_strings.c:775-804; constants iso7816_strings.h:32-39). -/
def lcsString (b : Byte) : List Byte :=
  if b = 0x00 then txt!"No information given"
  else if b = 0x01 then txt!"Creation state"
  else if b = 0x03 then txt!"Initialisation state"
  else if b &&& 0xFD = 0x05 then txt!"Operational state (activated)"
  else if b &&& 0xFD = 0x04 then txt!"Operational state (deactivated)"
  else if b &&& 0xFC = 0x0C then txt!"Termination state"
  else txt!"Proprietary"

/-! ## Card service data and capabilities -/

/-- Build the string list in the output with `iso7816_str_list_add`. -/
def isoBuild (ls : List (List Byte)) (str : List Byte) : C (List Byte) := do
  let it ← addAll isoAdd ls (init str)
  .ok it.buf

/-- The strings of `iso7816_card_service_data_get_string_list` (iso7816_strings.c:806-862;
constants iso7816_strings.h:42-54), the field being `[card_service_data]`.  The last `switch` has a
case for both values of its one bit, so that its default, which returns -1, is not reached. -/
def service : List Item :=
  [.when (.bit 0 0x80) txt!"Application selection: by full DF name",
   .when (.bit 0 0x40) txt!"Application selection: by partial DF name",
   .when (.bit 0 0x20) txt!"BER-TLV data objects available in EF.DIR",
   .when (.bit 0 0x10) txt!"BER-TLV data objects available in EF.ATR",
   .sel 0 0x0E
      [(0x08, some txt!"EF.DIR and EF.ATR access services: by READ BINARY command (transparent structure)"),
       (0x00, some txt!"EF.DIR and EF.ATR access services: by READ RECORD(S) command (record structure)"),
       (0x04, some txt!"EF.DIR and EF.ATR access services: by GET DATA command (TLV structure)")]
      (some txt!"EF.DIR and EF.ATR access services: Unknown value"),
   .sel 0 0x01 [(0x01, some txt!"Card without MF"), (0x00, some txt!"Card with MF")] none]

/-- `iso7816_card_service_data_get_string_list` (iso7816_strings.c:806-862). -/
def serviceList (b : Byte) (str : List Byte) : C (Int × List Byte) := do
  let ls ← runItems [b] service
  let str ← isoBuild ls str
  .ok (0, str)

/-- First software function byte (iso7816_strings.c:880-903; constants iso7816_strings.h:57-65). -/
def caps1 : List Item :=
  [.when (.bit 0 0x80) txt!"DF selection: by full DF NAME",
   .when (.bit 0 0x40) txt!"DF selection: by partial DF NAME",
   .when (.bit 0 0x20) txt!"DF selection: by path",
   .when (.bit 0 0x10) txt!"DF selection: by file identifier",
   .when (.bit 0 0x08) txt!"DF selection: implicit",
   .when (.bit 0 0x04) txt!"Short EF identifier supported",
   .when (.bit 0 0x02) txt!"Record number supported",
   .when (.bit 0 0x01) txt!"Record identifier supported"]

/-- Data coding byte (iso7816_strings.c:909-945; constants iso7816_strings.h:68-76).  Both
`switch` statements have a case for every value, so that their defaults are not reached. -/
def caps2 : List Item :=
  [.when (.bit 1 0x80) txt!"EFs of TLV structure supported",
   .sel 1 0x60
      [(0x00, some txt!"Behaviour of write functions: one-time write"),
       (0x20, some txt!"Behaviour of write functions: proprietary"),
       (0x40, some txt!"Behaviour of write functions: write OR"),
       (0x60, some txt!"Behaviour of write functions: write AND")]
      none,
   .sel 1 0x10
      [(0x10, some txt!"FF as first byte of BER-TLV tag is valid"),
       (0x00, some txt!"FF as first byte of BER-TLV tag is invalid / padding")]
      none]

/-- Data unit size (iso7816_strings.c:947-963); the local array is large enough for the text. -/
def unitSize (b : Byte) : List (List Byte) :=
  if b &&& 0x0F ≠ 0 then
    [txt!"Data unit size: " ++ Lists.decU (2 ^ ((b &&& 0x0F).toNat - 1)) ++ txt!" bytes"]
  else []

/-- Third byte up to the channel number assignment (iso7816_strings.c:969-991; constants
iso7816_strings.h:80-85); the default of the `switch` is in `caps3Lines`. -/
def caps3 : List Item :=
  [.when (.bit 2 0x80) txt!"Command chaining",
   .when (.bit 2 0x40) txt!"Extended Lc and Le fields",
   .sel 2 0x18
      [(0x10, some txt!"Logical channel number assignment: by the card"),
       (0x08, some txt!"Logical channel number assignment: by the interface device"),
       (0x00, some txt!"No logical channel")]
      none]

/-- Number of channels (iso7816_strings.c:993-1003). -/
def channels (b : Byte) : List (List Byte) :=
  if b &&& 0x07 = 0x07 then [txt!"Maximum number of logical channels: 8 or more"]
  else [txt!"Maximum number of logical channels: " ++ Lists.decU ((b &&& 0x07).toNat + 1)]

/-- The strings of the third byte with the result (iso7816_strings.c:966-1005). -/
def caps3Lines (f : List Byte) : C (Int × List (List Byte)) := do
  let ls ← runItems f caps3
  let b ← rd f 2
  if b &&& 0x18 = 0x18 then .ok (-1, ls) else .ok (0, ls ++ channels b)

/-- The strings of the second and third byte (iso7816_strings.c:905-1005). -/
def caps23Lines (f : List Byte) : C (Int × List (List Byte)) := do
  let ls ← runItems f caps2
  let b ← rd f 1
  if f.length < 3 then .ok (0, ls ++ unitSize b)
  else do
    let (r, ms) ← caps3Lines f
    .ok (r, ls ++ unitSize b ++ ms)

/-- The strings added, with the result (iso7816_strings.c:877-1005). -/
def capsLines (f : List Byte) : C (Int × List (List Byte)) := do
  let ls ← runItems f caps1
  if f.length < 2 then .ok (0, ls)
  else do
    let (r, ms) ← caps23Lines f
    .ok (r, ls ++ ms)

/-- `iso7816_card_capabilities_get_string_list` (iso7816_strings.c:864-1006). -/
def capsList (f str : List Byte) : C (Int × List Byte) :=
  if f.length = 0 then .ok (-1, str)
  else do
    let (r, ls) ← capsLines f
    let str ← isoBuild ls str
    .ok (r, str)

end Verif.IsoStr
