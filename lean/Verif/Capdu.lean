import Verif.Apdu
import Verif.Formats
import Verif.App

/-!
# Model of the command descriptions

`iso7816_capdu_get_string` and its helpers (src/iso7816_strings.c:65-501),
`emv_capdu_get_string` and `emv_capdu_get_data_get_string` (src/emv_strings.c:5941-6041).

A command is the list of exactly `c_apdu_len` bytes.  The helpers for single instructions only
write `str` in one final `snprintf`, so they are modelled as computing the text for it, or
`none` for NULL.
-/

set_option autoImplicit false

namespace Verif.Capdu
open Verif

/-- The bytes of a C string literal. -/
def ascii (s : String) : List Byte := s.toUTF8.toList

/-- `snprintf(str, str_len, ...)` of a text: as much as fits, NUL terminated. -/
def snprintf (str text : List Byte) : C (List Byte) :=
  if str.length = 0 then .ok str else wrs str 0 (text.take (str.length - 1) ++ [0])

/-- `strncpy(str, s, str_len); str[str_len - 1] = 0;` (iso7816_strings.c:497-498,
emv_strings.c:6019-6020), for `str_len > 0`: zero padded copy. -/
def strncpyTerm (str s : List Byte) : C (List Byte) := do
  let str ← wrs str 0 (s.take str.length ++ List.replicate (str.length - s.length) 0)
  wr str (str.length - 1) 0

/-- `%u` of a byte. -/
def dec (b : Byte) : List Byte := ascii (toString b.toNat)

/-- `%02X` of a byte. -/
def hex2 (b : Byte) : List Byte := [Formats.hexChar (b >>> 4), Formats.hexChar (b &&& 0x0F)]

/-- The loop deciding `file_id_printable` (iso7816_strings.c:127-134). -/
def printableLoop (a : List Byte) : Nat → Nat → C Bool
  | 0, _ => .ok true
  | n + 1, i => do
    let d ← rd a (5 + i)
    if d < 0x20 ∨ d > 0x7E then .ok false else printableLoop a n (i + 1)

/-- The loop writing hexadecimal digits (iso7816_strings.c:138-145):
`snprintf(file_id_str + i * 2, sizeof(file_id_str) - 1 - i * 2, "%02X", data[i])`. -/
def hexLoop (a : List Byte) : Nat → Nat → List Byte → C (List Byte)
  | 0, _, fid => .ok fid
  | n + 1, i, fid => do
    let d ← rd a (5 + i)
    let size := fid.length - 1 - i * 2
    let fid ← if size = 0 then .ok fid else wrs fid (i * 2) ((hex2 d).take (size - 1) ++ [0])
    hexLoop a n (i + 1) fid

/-- Value of the C string in an array (as read by `%s`). -/
def cstr (s : List Byte) : C (List Byte) := do
  let n ← App.strlen s
  slice s 0 n

/-- `switch (P2 & ISO7816_SELECT_P2_FILE_OCCURRENCE_MASK)` (iso7816_strings.c:148-170); all
four values are present. -/
def occurrence (p2 : Byte) : List Byte :=
  if p2 &&& 3 = 0 then ascii "first"
  else if p2 &&& 3 = 1 then ascii "last"
  else if p2 &&& 3 = 2 then ascii "next"
  else ascii "previous"

/-- `iso7816_capdu_select_get_string` from the file identifier on (iso7816_strings.c:127-178).
`file_id_str` has ISO7816_CAPDU_DATA_MAX * 2 + 1 = 511 bytes; `Lc` is at most 255. -/
def selectFile (a : List Byte) : C (Option (List Byte)) := do
  let lc ← rd a 4
  let fid := List.replicate 511 0
  let p ← printableLoop a lc.toNat 0
  let fid ← if p then do
      let data ← slice a 5 lc.toNat
      snprintf fid data
    else hexLoop a lc.toNat 0 fid
  let p2 ← rd a 3
  let id ← cstr fid
  .ok (some (ascii "SELECT " ++ occurrence p2 ++ ascii " " ++ id))

/-- `iso7816_capdu_select_get_string` (iso7816_strings.c:65-179). -/
def selectString (a : List Byte) : C (Option (List Byte)) := do
  let c0 ← rd a 0
  let c1 ← rd a 1
  if c0 &&& 0x80 ≠ 0 ∨ c1 ≠ 0xA4 then .ok none
  else
    match ← Apdu.apduCase a with
    | .ok .c2S => do
      let p1 ← rd a 2
      let p2 ← rd a 3
      if p1 = 0 ∧ p2 = 0 then .ok (some (ascii "SELECT Master File")) else .ok none
    | .ok .c4S => do
      let p1 ← rd a 2
      let p2 ← rd a 3
      let lc ← rd a 4
      if p1 = 0 ∧ p2 = 0 then do
        let master ← if lc = 2 then do
            let d0 ← rd a 5
            if d0 = 0x3F then do
              let d1 ← rd a 6
              .ok (decide (d1 = 0))
            else .ok false
          else .ok false
        if master then .ok (some (ascii "SELECT Master File")) else selectFile a
      else selectFile a
    | _ => .ok none

/-- Condition on case and instruction of READ RECORD (iso7816_strings.c:201-223). -/
def readRecordCase (c1 : Byte) : Except Int Apdu.Case → Bool
  | .ok .c2S | .ok .c2E => c1 == 0xB2
  | .ok .c4S | .ok .c4E => c1 == 0xB3
  | _ => false

/-- `iso7816_capdu_read_record_get_string` (iso7816_strings.c:181-311).  `record_str` has 32
bytes, more than any of the three texts. -/
def readRecordString (a : List Byte) : C (Option (List Byte)) := do
  let c0 ← rd a 0
  let c1 ← rd a 1
  if c0 &&& 0x80 ≠ 0 ∨ (c1 ≠ 0xB2 ∧ c1 ≠ 0xB3) then .ok none
  else do
    let k ← Apdu.apduCase a
    if !readRecordCase c1 k then .ok none
    else do
      let p1 ← rd a 2
      let p2 ← rd a 3
      if p1 = 0xFF then .ok none
      else
        let record :=
          if p1 = 0 then ascii "current record"
          else if p2 &&& 4 ≠ 0 then ascii "record number " ++ dec p1
          else ascii "record identifier " ++ dec p1
        let pre := ascii "READ RECORD from short EF " ++ dec (p2 >>> 3) ++ ascii ", "
        if p2 &&& 4 ≠ 0 then
          if p2 &&& 3 = 0 then .ok (some (pre ++ record))
          else if p2 &&& 3 = 1 then
            .ok (some (pre ++ ascii "all records from " ++ record ++ ascii " up to last"))
          else if p2 &&& 3 = 2 then
            .ok (some (pre ++ ascii "all records from the last up to " ++ record))
          else .ok none
        else .ok (some (pre ++ occurrence p2 ++ ascii " occurence of " ++ record))

/-- `iso7816_capdu_put_data_get_string` (iso7816_strings.c:313-403). -/
def putDataString (a : List Byte) : C (Option (List Byte)) := do
  let c0 ← rd a 0
  let c1 ← rd a 1
  if c0 &&& 0x80 ≠ 0 ∨ (c1 ≠ 0xDA ∧ c1 ≠ 0xDB) then .ok none
  else
    match ← Apdu.apduCase a with
    | .ok .c3E => .ok (some (ascii "PUT DATA"))
    | .ok .c3S => do
      let p1 ← rd a 2
      let p2 ← rd a 3
      if c1 &&& 1 = 0 then
        if p1 = 0 ∧ p2 ≥ 0x40 ∧ p2 ≤ 0xFE then
          .ok (some (ascii "PUT DATA for BER-TLV field " ++ hex2 p2))
        else if p1 = 1 then
          .ok (some (ascii "PUT DATA for proprietary identifier " ++ hex2 p2))
        else if p1 = 2 ∧ p2 ≥ 1 ∧ p2 ≤ 0xFE then
          .ok (some (ascii "PUT DATA for SIMPLE-TLV field " ++ hex2 p2))
        else if p1 ≥ 0x40 then
          .ok (some (ascii "PUT DATA for BER-TLV field " ++ hex2 p1 ++ hex2 p2))
        else .ok (some (ascii "PUT DATA"))
      else
        if p1 = 0 ∧ p2 &&& 0xE0 = 0 ∧ p2 &&& 0x1F ≠ 0 ∧ p2 &&& 0x1F ≠ 0x1F then
          .ok (some (ascii "PUT DATA for short EF " ++ dec p2))
        else if p1 = 0x3F ∧ p2 = 0xFF then .ok (some (ascii "PUT DATA for current DF"))
        else do
          let lc ← rd a 4
          if p1 = 0 ∧ p2 = 0 ∧ lc = 0 then .ok (some (ascii "PUT DATA for current EF"))
          else if p1 ≠ 0 ∨ p2 ≠ 0 then
            .ok (some (ascii "PUT DATA for file " ++ hex2 p1 ++ hex2 p2))
          else .ok (some (ascii "PUT DATA"))
    | _ => .ok none

/-- The instructions described by their name only (iso7816_strings.c:438-491). -/
def isoIns (c : Byte) : Option String :=
  match c.toNat with
  | 0x04 => some "DEACTIVATE FILE"
  | 0x0C => some "ERASE RECORD"
  | 0x0E | 0x0F => some "ERASE BINARY"
  | 0x10 => some "PERFORM SCQL OPERATION"
  | 0x12 => some "PERFORM TRANSACTION OPERATION"
  | 0x14 => some "PERFORM USER OPERATION"
  | 0x20 | 0x21 => some "VERIFY"
  | 0x22 => some "MANAGE SECURITY ENVIRONMENT"
  | 0x24 => some "CHANGE REFERENCE DATA"
  | 0x26 => some "DISABLE VERIFICATION REQUIREMENT"
  | 0x28 => some "ENABLE VERIFICATION REQUIREMENT"
  | 0x2A => some "PERFORM SECURITY OPERATION"
  | 0x2C => some "RESET RETRY COUNTER"
  | 0x44 => some "ACTIVATE FILE"
  | 0x46 => some "GENERATE ASYMMETRIC KEY PAIR"
  | 0x70 => some "MANAGE CHANNEL"
  | 0x82 => some "EXTERNAL AUTHENTICATE"
  | 0x84 => some "GET CHALLENGE"
  | 0x86 | 0x87 => some "GENERAL AUTHENTICATE"
  | 0x88 => some "INTERNAL AUTHENTICATE"
  | 0xA0 | 0xA1 => some "SEARCH BINARY"
  | 0xA2 => some "SEARCH RECORD"
  | 0xB0 | 0xB1 => some "READ BINARY"
  | 0xC0 => some "GET RESPONSE"
  | 0xC2 | 0xC3 => some "ENVELOPE"
  | 0xCA | 0xCB => some "GET DATA"
  | 0xD0 | 0xD1 => some "WRITE BINARY"
  | 0xD2 => some "WRITE RECORD"
  | 0xD6 | 0xD7 => some "UPDATE BINARY"
  | 0xDC | 0xDD => some "UPDATE RECORD"
  | 0xE0 => some "CREATE FILE"
  | 0xE2 => some "APPEND RECORD"
  | 0xE4 => some "DELETE FILE"
  | 0xE6 => some "TERMINATE DF"
  | 0xE8 => some "TERMINATE EF"
  | 0xFE => some "TERMINATE CARD USAGE"
  | _ => none

/-- Return of a helper's text: `snprintf` and `str`, or NULL. -/
def finishText (str : List Byte) : Option (List Byte) → C (Bool × List Byte)
  | none => .ok (false, str)
  | some text => do
    let str ← snprintf str text
    .ok (true, str)

/-- `iso7816_capdu_get_string` (iso7816_strings.c:405-501).  The first component tells whether
`str` (rather than NULL) is returned. -/
def isoGetString (a str : List Byte) : C (Bool × List Byte) :=
  if a.length = 0 ∨ str.length = 0 then .ok (false, str)
  else do
    let str ← wr str 0 0
    if str.length < 4 then .ok (false, str)
    else do
      let c0 ← rd a 0
      if c0 = 0xFF then .ok (false, str)
      else if c0 &&& 0x80 ≠ 0 then .ok (false, str)
      else do
        let c1 ← rd a 1
        if c1 = 0xA4 then do
          let t ← selectString a
          finishText str t
        else if c1 = 0xB2 ∨ c1 = 0xB3 then do
          let t ← readRecordString a
          finishText str t
        else if c1 = 0xDA ∨ c1 = 0xDB then do
          let t ← putDataString a
          finishText str t
        else match isoIns c1 with
          | none => .ok (false, str)
          | some s => do
            let str ← strncpyTerm str (ascii s)
            .ok (true, str)

/-- The EMV instructions described by their name only (emv_strings.c:5997-6012). -/
def emvIns (c : Byte) : Option String :=
  match c.toNat with
  | 0x1E => some "APPLICATION BLOCK"
  | 0x18 => some "APPLICATION UNBLOCK"
  | 0x16 => some "CARD BLOCK"
  | 0xAE => some "GENERATE AC"
  | 0xA8 => some "GET PROCESSING OPTIONS"
  | 0x24 => some "PIN CHANGE/UNBLOCK"
  | _ => none

/-- `emv_capdu_get_string` (emv_strings.c:5961-6041), with `emv_capdu_get_data_get_string`
(5941-5959), whose own checks cannot fail here, inlined. -/
def emvGetString (a str : List Byte) : C (Int × List Byte) :=
  if a.length = 0 then .ok (-1, str)
  else if str.length = 0 then .ok (0, str)
  else do
    let str ← wr str 0 0
    if str.length < 4 then .ok (-2, str)
    else do
      let c0 ← rd a 0
      if c0 = 0xFF then .ok (1, str)
      else if c0 &&& 0x80 ≠ 0 then do
        let c1 ← rd a 1
        if c1 = 0xCA then do
          let p1 ← rd a 2
          let p2 ← rd a 3
          let str ← snprintf str (ascii "GET DATA field " ++ hex2 p1 ++ hex2 p2)
          .ok (0, str)
        else match emvIns c1 with
          | none => .ok (2, str)
          | some s => do
            let str ← strncpyTerm str (ascii s)
            .ok (0, str)
      else do
        let (ok, str) ← isoGetString a str
        if ok then .ok (0, str)
        else do
          let str ← wr str 0 0
          .ok (3, str)

end Verif.Capdu
