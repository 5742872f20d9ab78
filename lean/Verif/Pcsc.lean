import Verif.Base

/-!
# Model of the reader queries of the PC/SC wrapper

`src/pcsc.c`: feature list validation and lookup, property lookup, connecting, disconnecting
and the answer-to-reset query.  The PC/SC service itself (`SCard...` functions) is the
environment: its results are inputs here.  `pcsc_init`, reader names and states are in
`Verif/PcscInit.lean`, handles in `Verif/PcscConn.lean`.  Not modelled: trace output.
-/

set_option autoImplicit false

namespace Verif.Pcsc
open Verif

/-! ## Features -/

/-- Size of `PCSC_TLV_STRUCTURE` (pcsc_compat.h:56-62): tag, length and four byte value. -/
def featureSize : Nat := 6

/-- `ntohl` of the value of the structure at `off` (pcsc.c:356). -/
def featureValue (buf : List Byte) (off : Nat) : C Nat := do
  let b0 ← rd buf (off + 2)
  let b1 ← rd buf (off + 3)
  let b2 ← rd buf (off + 4)
  let b3 ← rd buf (off + 5)
  .ok (((b0.toNat * 256 + b1.toNat) * 256 + b2.toNat) * 256 + b3.toNat)

/-- Loop of `pcsc_reader_get_feature` (pcsc.c:354-361) at offset `off`; `bufLen` is
`features.buf_len`. -/
def getFeatureLoop (buf : List Byte) (bufLen feature : Nat) : Nat → Nat → C (Option Nat)
  | 0, _ => .error .nonTerm
  | fuel + 1, off =>
    if off < bufLen then do
      let tag ← rd buf off
      let len ← rd buf (off + 1)
      if tag.toNat = feature ∧ len = 4 then do
        let v ← featureValue buf off
        .ok (some v)
      else getFeatureLoop buf bufLen feature fuel (off + featureSize)
    else .ok none

/-- `pcsc_reader_get_feature` (pcsc.c:338-364): the control code, or `none` for result 1.
`buf` is the array `features.buf`. -/
def getFeature (buf : List Byte) (bufLen feature : Nat) : C (Option Nat) :=
  if bufLen = 0 then .ok none
  else getFeatureLoop buf bufLen feature (bufLen + 1) 0

/-- Loop of `pcsc_reader_has_feature` (pcsc.c:456-462). -/
def hasFeatureLoop (buf : List Byte) (bufLen feature : Nat) : Nat → Nat → C Bool
  | 0, _ => .error .nonTerm
  | fuel + 1, off =>
    if off < bufLen then do
      let tag ← rd buf off
      if tag.toNat = feature then .ok true
      else hasFeatureLoop buf bufLen feature fuel (off + featureSize)
    else .ok false

/-- `pcsc_reader_has_feature` (pcsc.c:442-465). -/
def hasFeature (buf : List Byte) (bufLen feature : Nat) : C Bool :=
  if bufLen = 0 then .ok false
  else hasFeatureLoop buf bufLen feature (bufLen + 1) 0

/-- Loop validating the lengths of the feature list (pcsc.c:230-240). -/
def validLoop (buf : List Byte) (bufLen : Nat) : Nat → Nat → C Bool
  | 0, _ => .error .nonTerm
  | fuel + 1, off =>
    if off < bufLen then do
      let len ← rd buf (off + 1)
      if len ≠ 4 then .ok false else validLoop buf bufLen fuel (off + featureSize)
    else .ok true

/-- Validation of the feature list in `pcsc_reader_populate_features` (pcsc.c:222-240): result
and new `buf_len`, for `bufLen` bytes received. -/
def checkFeatures (buf : List Byte) (bufLen : Nat) : C (Int × Nat) :=
  if bufLen % featureSize ≠ 0 then .ok (-4, 0)
  else do
    let ok ← validLoop buf bufLen (bufLen + 1) 0
    if ok then .ok (0, bufLen) else .ok (-5, bufLen)

/-! ## Properties -/

/-- Outcome of the loop of `pcsc_reader_get_property`: result with value buffer and
`*value_len`, or `none` when the property was not found. -/
abbrev Found := Option (Int × List Byte × Nat)

/-- Loop of `pcsc_reader_get_property` (pcsc.c:485-507): `arr` is the array
`features.properties`, `off` is `tlv` and `n` is `tlv_len`.  Note that `tlv` is advanced
before `tlv[1]` is read again to reduce `tlv_len`, a `size_t`. -/
def propertyLoop (arr : List Byte) (property : Nat) (value : List Byte) :
    Nat → Nat → Nat → C Found
  | 0, _, _ => .error .nonTerm
  | fuel + 1, off, n =>
    if n ≥ 2 then do
      let tag ← rd arr off
      let len ← rd arr (off + 1)
      if tag.toNat = property then
        if len.toNat > n - 2 then .ok (some (-2, value, 0))
        else if len.toNat > value.length then .ok (some (-3, value, 0))
        else do
          let v ← slice arr (off + 2) len.toNat
          let value ← wrs value 0 v
          .ok (some (0, value, len.toNat))
      else do
        let off' := off + 2 + len.toNat
        let len' ← rd arr (off' + 1)
        propertyLoop arr property value fuel off' ((n + 2 ^ 64 - (2 + len'.toNat)) % 2 ^ 64)
    else .ok none

/-- What the reader reported (pcsc.c:55-72): the array of TLV properties with the number of
valid bytes, the PIN properties (the two bytes of `wLcdLayout`) and the display properties
(the two bytes of `wLcdMaxCharacters` and of `wLcdMaxLines`) when available. -/
structure Features where
  /-- `properties` -/
  arr : List Byte
  /-- `properties_len` -/
  len : Nat
  /-- `pin_properties.wLcdLayout` when `pin_properties_len` is not zero -/
  lcdLayout : Option (Byte × Byte)
  /-- `wLcdMaxCharacters` and `wLcdMaxLines` when `display_properties_len` is not zero -/
  lcdMax : Option ((Byte × Byte) × (Byte × Byte))

/-- `memcpy` of a two byte member, with its size check (pcsc.c:513-525 and similar). -/
def putWord (w : Byte × Byte) (err : Int) (value : List Byte) : C (Int × List Byte × Nat) :=
  if value.length < 2 then .ok (err, value, 0)
  else do
    let value ← wrs value 0 [w.1, w.2]
    .ok (0, value, 2)

/-- The part of `pcsc_reader_get_property` after the TLV properties (pcsc.c:509-562). -/
def fallback (f : Features) (property : Nat) (value : List Byte) : C (Int × List Byte × Nat) :=
  match (if property = 0x01 then f.lcdLayout else none) with
  | some w => putWord w (-4) value
  | none =>
    match f.lcdMax with
    | some (chars, lns) =>
      if property = 0x04 then putWord chars (-5) value
      else if property = 0x05 then putWord lns (-6) value
      else .ok (1, value, 0)
    | none => .ok (1, value, 0)

/-- `pcsc_reader_get_property` (pcsc.c:467-563): result, value buffer and `*value_len`, for a
value buffer of exactly `*value_len` bytes. -/
def getProperty (f : Features) (property : Nat) (value : List Byte) :
    C (Int × List Byte × Nat) := do
  match ← propertyLoop f.arr property value (f.arr.length + 1) 0 f.len with
  | some r => .ok r
  | none => fallback f property value

/-! ## Connecting -/

/-- `enum pcsc_card_type_t` (pcsc.h:85-89). -/
inductive CardType
  | unknown
  | contact
  | contactless
deriving Repr, DecidableEq

/-- Value of the enumerator. -/
def CardType.val : CardType → Int
  | .unknown => 0
  | .contact => 1
  | .contactless => 2

/-- The state of `struct pcsc_reader_t` seen by the functions below (pcsc.c:82-94); `atr` is
the first `atr_len` bytes of the array. -/
structure Reader where
  /-- `atr` -/
  atr : List Byte
  /-- `type` -/
  type : CardType
deriving Repr, DecidableEq

/-- What the PC/SC service does when a card is connected.  `status` is the ATR reported by
`SCardStatus` (at most 33 bytes), `none` for failure; `uid` is the answer to the UID request
(at most 12 bytes), `none` for failure of `pcsc_reader_trx`; `disconnect` tells whether
`SCardDisconnect` succeeds if needed. -/
structure Service where
  /-- `SCardConnect` succeeds -/
  connect : Bool
  /-- `SCardStatus` -/
  status : Option (List Byte)
  /-- array contents left by a failing `SCardStatus` -/
  garbage : List Byte
  /-- `pcsc_reader_trx` -/
  uid : Option (List Byte)
  /-- `SCardDisconnect` succeeds -/
  disconnect : Bool

/-- `pcsc_reader_disconnect` (pcsc.c:770-795). -/
def disconnect (ok : Bool) (r : Reader) : Int × Reader :=
  if ok then (0, ⟨[], .unknown⟩) else (-1, r)

/-- Condition on the ATR for asking for the UID (pcsc.c:735-741). -/
def pcscContactless (atr : List Byte) : C Bool :=
  if atr.length > 4 then do
    let b0 ← rd atr 0
    let b1 ← rd atr 1
    let b2 ← rd atr 2
    let b3 ← rd atr 3
    .ok (b0 == 0x3B && b1 &&& 0x80 == 0x80 && b2 == 0x80 && b3 == 0x01 &&
      atr.length == 5 + (b1 &&& 0x0F).toNat)
  else .ok false

/-- `pcsc_reader_internal_get_uid` (pcsc.c:647-698) with a UID buffer of `cap` bytes: result
and UID. -/
def getUid (answer : Option (List Byte)) (cap : Nat) : C (Int × List Byte) :=
  match answer with
  | none => .ok (-1, [])
  | some rx =>
    if rx.length < 2 then .ok (-5, [])
    else do
      let sw1 ← rd rx (rx.length - 2)
      let sw2 ← rd rx (rx.length - 1)
      let n := rx.length - 2
      if sw1 = 0x6A ∧ sw2 = 0x81 then .ok (1, [])
      else if sw1 ≠ 0x90 ∨ sw2 ≠ 0x00 then .ok (-6, [])
      else if cap < n then .ok (-7, [])
      else do
        let uid ← slice rx 0 n
        .ok (0, uid)

/-- `pcsc_reader_connect` (pcsc.c:700-768). -/
def connect (s : Service) (r : Reader) : C (Int × Reader) :=
  if ¬ s.connect then .ok (-1, r)
  else
    match s.status with
    | none =>
      -- atr_len was set to the size of the array before the call
      let (_, r) := disconnect s.disconnect { r with atr := s.garbage }
      .ok (-1, r)
    | some atr => do
      let r := { r with atr := atr }
      if ← pcscContactless atr then do
        let (u, _) ← getUid s.uid 10
        if u < 0 then .ok (u, r)
        else if u > 0 then .ok (CardType.contact.val, { r with type := .contact })
        else .ok (CardType.contactless.val, { r with type := .contactless })
      else .ok (CardType.contact.val, { r with type := .contact })

/-- `pcsc_reader_get_atr` (pcsc.c:797-818): result and ATR. -/
def getAtr (r : Reader) : Int × List Byte :=
  if r.atr.length = 0 then (1, [])
  else if r.type ≠ .contact then (2, [])
  else (0, r.atr)

end Verif.Pcsc
