import Verif.StrList
import Verif.App
import Verif.Names

/-!
# Model of the description of Mastercard third party data

`emv_mastercard_third_party_data_get_string_list` (src/emv_strings.c:5146-5353).

The strings added to the list are computed first and then added in order; in C each is added
as soon as it is known, which makes no difference unless a later read is out of bounds.  The
lookup `isocodes_lookup_country_by_numeric` in the iso-codes data is a parameter `country`.
-/

set_option autoImplicit false

namespace Verif.ThirdParty
open Verif StrList

/-- `emv_mastercard_device_type_map` (emv_strings.c:5092-5133). -/
def deviceTypes : List (List Byte × List Byte) :=
  [(txt!"00", txt!"Card"),
   (txt!"01", txt!"Mobile Phone or Smartphone with Mobile Network Operator (MNO) controlled removable secure element (SIM or UICC) personalized for use with a mobile phone or smartphone"),
   (txt!"02", txt!"Key Fob"),
   (txt!"03", txt!"Watch using a contactless chip or a fixed (non-removable) secure element not controlled by the MNO"),
   (txt!"04", txt!"Mobile Tag"),
   (txt!"05", txt!"Wristband"),
   (txt!"06", txt!"Mobile Phone Case or Sleeve"),
   (txt!"07", txt!"Mobile phone or smartphone with a fixed (non-removable) secure element controlled by the MNO, for example, code division multiple access (CDMA)"),
   (txt!"08", txt!"Removable secure element not controlled by the MNO, for example, memory card personalized for used with a mobile phone or smartphone"),
   (txt!"09", txt!"Mobile Phone or smartphone with a fixed (non-removable) secure element not controlled by the MNO"),
   (txt!"10", txt!"MNO controlled removable secure element (SIM or UICC) personalized for use with a tablet or e-book"),
   (txt!"11", txt!"Tablet or e-book with a fixed (non-removable) secure element controlled by the MNO"),
   (txt!"12", txt!"Removable secure element not controlled by the MNO, for example, memory card personalized for use with a tablet or e-book"),
   (txt!"13", txt!"Tablet or e-book with fixed (non-removable) secure element not controlled by the MNO"),
   (txt!"14", txt!"Mobile phone or smartphone with a payment application running in a host processor"),
   (txt!"15", txt!"Tablet or e-book with a payment application running in a host processor"),
   (txt!"16", txt!"Mobile phone or smartphone with a payment application running in the Trusted Execution Environment (TEE) of a host processor"),
   (txt!"17", txt!"Tablet or e-book with a payment application running in the TEE of a host processor"),
   (txt!"18", txt!"Watch with a payment application running in the TEE of a host processor"),
   (txt!"19", txt!"Watch with a payment application running in a host processor"),
   (txt!"20", txt!"Card"),
   (txt!"21", txt!"Phone (Mobile phone)"),
   (txt!"22", txt!"Tablet/e-reader (Tablet computer or e-reader)"),
   (txt!"23", txt!"Watch/Wristband (Watch or wristband, including a fitness band, smart strap, disposable band, watch add-on, and security/ID band)"),
   (txt!"24", txt!"Sticker"),
   (txt!"25", txt!"PC (PC or laptop)"),
   (txt!"26", txt!"Device Peripheral (Mobile phone case or sleeve)"),
   (txt!"27", txt!"Tag (Key fob or mobile tag)"),
   (txt!"28", txt!"Jewelry (Ring, bracelet, necklace, and cuff links)"),
   (txt!"29", txt!"Fashion Accessory (Handbag, bag charm, and glasses)"),
   (txt!"30", txt!"Garment (Dress)"),
   (txt!"31", txt!"Domestic Appliance (Refrigerator, washing machine)"),
   (txt!"32", txt!"Vehicle (Vehicle, including vehicle attached devices)"),
   (txt!"33", txt!"Media/Gaming Device (Media or gaming device, including a set top box, media player, and television)")]

/-- `emv_mastercard_device_type_get_string` (emv_strings.c:5135-5144). -/
def deviceTypeText (d0 d1 : Byte) : Option (List Byte) :=
  (deviceTypes.find? fun e => e.1 == [d0, d1]).map fun e => e.2

/-- `%s` of the three byte array holding the device type (emv_strings.c:5209-5216). -/
def cstr2 (d0 d1 : Byte) : List Byte := [d0, d1].takeWhile (· ≠ 0)

/-- Fleet card product extension (emv_strings.c:5269-5306); `p` is `tpd_ptr`. -/
def fleet (tpd : List Byte) (p : Nat) : C (List (List Byte)) := do
  let b2 ← rd tpd (p + 2)
  let b3 ← rd tpd (p + 3)
  let b4 ← rd tpd (p + 4)
  .ok ((if b2 = 0x02 then [txt!"Product Restriction Code: Good for fuel only"]
      else if b2 = 0x01 then [txt!"Product Restriction Code: Good for fuel and other products"]
      else if b2 ≠ 0 then [txt!"Product Restriction Code: RFU"] else []) ++
    (if b3 &&& 0x08 ≠ 0 then [txt!"Product Type Code: Prompt for Odometer"] else []) ++
    (if b3 &&& 0x04 ≠ 0 then [txt!"Product Type Code: Prompt for Driver Number"] else []) ++
    (if b3 &&& 0x02 ≠ 0 then [txt!"Product Type Code: Prompt for Vehicle Number"] else []) ++
    (if b3 &&& 0x01 ≠ 0 then [txt!"Product Type Code: Prompt for ID Number"] else []) ++
    (if b3 &&& 0xF0 ≠ 0 then [txt!"Product Type Code: RFU"] else []) ++
    (if b4 = 0x80 then [txt!"Card Type: Driver card"]
      else if b4 = 0x40 then [txt!"Card Type: Vehicle card"]
      else if b4 ≠ 0 then [txt!"Card Type: RFU"] else []))

/-- Concession code (emv_strings.c:5328-5338). -/
def concession (b : Byte) : List Byte :=
  if b = 1 then txt!"Concession Code: 01 - Senior Citizen, potentially eligible for senior citizen discounts"
  else if b = 2 then txt!"Concession Code: 02 - Student, potentially eligible for student-based discounts"
  else if b = 3 then txt!"Concession Code: 03 - Active military and veterans, potentially eligible for service member discounts"
  else if b = 4 then txt!"Concession Code: 04 - Low Income household, potentially eligible for means-based discounts"
  else if b = 5 then txt!"Concession Code: 05 - Disability, eligible for paratransit and other disability discounts"
  else if b = 6 then txt!"Concession Code: 06 - Minor Child, potentially enables free travel for under 16 and young kids"
  else if b = 7 then txt!"Concession Code: 07 - Transit Staff, potentially enables free travel for transit staff"
  else if b = 8 then txt!"Concession Code: 08 - City/Government/Preferred Employees, potentially enables discounted travel for federal and preferred employees"
  else txt!"Concession Code: RFU"

/-- Transit product extension (emv_strings.c:5309-5341). -/
def transit (tpd : List Byte) (p : Nat) : C (List (List Byte)) := do
  let b2 ← rd tpd (p + 2)
  let b3 ← rd tpd (p + 3)
  .ok ((if b2 &&& 0x80 ≠ 0 then [txt!"Transit: Deferred Authorization Not Supported"] else []) ++
    (if b2 &&& 0x7F ≠ 0 then [txt!"Transit: RFU"] else []) ++ [concession b3])

/-- Proprietary data (emv_strings.c:5235-5353), `p` being `tpd_ptr - tpd`, `uid` the unique
identifier and `pre` the strings so far. -/
def proprietary (tpd : List Byte) (uid : Nat) (p : Nat) (pre : List (List Byte)) :
    C (Int × List (List Byte)) := do
  let remaining := tpd.length - p
  let notUsed ← if uid = 0 then do
      let b ← rd tpd p
      .ok (decide (b ≠ 0 ∨ remaining ≠ 1))
    else .ok false
  if notUsed then .ok (1, pre ++ [txt!"Invalid Proprietary Data"])
  else if uid = 3 ∨ uid = 0x8003 then
    if remaining < 2 then .ok (1, pre ++ [txt!"Invalid Proprietary Data"])
    else do
      let b0 ← rd tpd p
      let b1 ← rd tpd (p + 1)
      let product := b0.toNat * 256 + b1.toNat
      if product = 1 then
        if remaining ≠ 8 then
          .ok (1, pre ++ [txt!"Product Identifier: Fleet Card",
            txt!"Invalid Proprietary Data length"])
        else do
          let l ← fleet tpd p
          .ok (0, pre ++ [txt!"Product Identifier: Fleet Card"] ++ l)
      else if product = 2 then
        if remaining ≠ 5 then
          .ok (1, pre ++ [txt!"Product Identifier: Transit",
            txt!"Invalid Proprietary Data length"])
        else do
          let l ← transit tpd p
          .ok (0, pre ++ [txt!"Product Identifier: Transit"] ++ l)
      else .ok (0, pre ++ [txt!"Product Identifier: Unknown"])
  else do
    let b ← rd tpd p
    if b = 0 then .ok (0, pre ++ [txt!"Proprietary Data: Not used"]) else .ok (0, pre)

/-- The string for the country (emv_strings.c:5178-5186). -/
def countryLine (country : Nat → Option (List Byte)) (c0 c1 : Byte) : C (List Byte) := do
  let (r, str) ← Names.byNumber country [c0, c1] (List.replicate 128 0)
  let b ← rd str 0
  if r = 0 ∧ b ≠ 0 then do
    let name ← Capdu.cstr str
    .ok (txt!"Country: " ++ name)
  else .ok (txt!"Country: Unknown")

/-- The strings added by `emv_mastercard_third_party_data_get_string_list` for a field of 5 to
32 bytes, with its result (emv_strings.c:5172-5353). -/
def lines (country : Nat → Option (List Byte)) (tpd : List Byte) :
    C (Int × List (List Byte)) := do
  let c0 ← rd tpd 0
  let c1 ← rd tpd 1
  let country ← countryLine country c0 c1
  let u0 ← rd tpd 2
  let u1 ← rd tpd 3
  let uid := u0.toNat * 256 + u1.toNat
  let unique := if uid = 0 then txt!"Unique Identifier: Proprietary Data not used"
    else if uid = 3 ∨ uid = 0x8003 then txt!"Unique Identifier: Mastercard Product Extension"
    else txt!"Unique Identifier: Unknown"
  if u0 &&& 0x80 = 0 then do
    let d0 ← rd tpd 4
    let d1 ← rd tpd 5
    let device := match deviceTypeText d0 d1 with
      | some t => txt!"Device Type: " ++ cstr2 d0 d1 ++ txt!" - " ++ t
      | none => txt!"Device Type: " ++ cstr2 d0 d1
    if tpd.length < 7 then .ok (1, [country, unique, device])
    else proprietary tpd uid 6 [country, unique, device]
  else if tpd.length < 5 then .ok (1, [country, unique])
  else proprietary tpd uid 4 [country, unique]

/-- `emv_mastercard_third_party_data_get_string_list` (emv_strings.c:5146-5353): result and
output. -/
def getStringList (country : Nat → Option (List Byte)) (tpd : List Byte)
    (str : List Byte) : C (Int × List Byte) :=
  if tpd.length = 0 then .ok (-1, str)
  else if str.length = 0 then .ok (0, str)
  else if tpd.length < 5 ∨ 32 < tpd.length then .ok (1, str)
  else do
    let (r, ls) ← lines country tpd
    let it ← addAll (fun s => emvAdd (some s)) ls (init str)
    .ok (r, it.buf)

end Verif.ThirdParty
