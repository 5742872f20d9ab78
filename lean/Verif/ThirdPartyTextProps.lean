import Verif.ThirdPartyProps
import Verif.ListsLemmas
import Verif.BitsInj

/-! # C101: what is shown for Mastercard third party data -/

set_option autoImplicit false

namespace Verif.ThirdParty
open Verif StrList Formats Bits

/-! ## Specification -/

/-- Device types (M/Chip Requirements, Third Party Data). -/
def devices : List (List Byte × List Byte) :=
  [(txt!"00", txt!"Card"),
   (txt!"01", txt!"Mobile Phone or Smartphone with Mobile Network Operator (MNO) controlled removable secure element (SIM or UICC) personalized for use with a mobile phone or smartphone"),
   (txt!"02", txt!"Key Fob"),
   (txt!"03", txt!"Watch using a contactless chip or a fixed (non-removable) secure element not controlled by the MNO"),
   (txt!"04", txt!"Mobile Tag"),
   (txt!"05", txt!"Wristband"),
   (txt!"06", txt!"Mobile Phone Case or Sleeve"),
   (txt!"07", txt!"Mobile phone or smartphone with a fixed (non-removable) secure element controlled by the MNO, for example, code division multiple access (CDMA)"),
   (txt!"08", txt!"Removable secure element not controlled by the MNO, for example, memory card personalized for used with a mobile phone or smartphone"),
   (txt!"09", txt!"Mobile Phone or smartphone with a fixed (non-removable) secure element not controlled by the MNO"),
   (txt!"10", txt!"MNO controlled removable secure element (SIM or UICC) personalized for use with a tablet or e-book"),
   (txt!"11", txt!"Tablet or e-book with a fixed (non-removable) secure element controlled by the MNO"),
   (txt!"12", txt!"Removable secure element not controlled by the MNO, for example, memory card personalized for use with a tablet or e-book"),
   (txt!"13", txt!"Tablet or e-book with fixed (non-removable) secure element not controlled by the MNO"),
   (txt!"14", txt!"Mobile phone or smartphone with a payment application running in a host processor"),
   (txt!"15", txt!"Tablet or e-book with a payment application running in a host processor"),
   (txt!"16", txt!"Mobile phone or smartphone with a payment application running in the Trusted Execution Environment (TEE) of a host processor"),
   (txt!"17", txt!"Tablet or e-book with a payment application running in the TEE of a host processor"),
   (txt!"18", txt!"Watch with a payment application running in the TEE of a host processor"),
   (txt!"19", txt!"Watch with a payment application running in a host processor"),
   (txt!"20", txt!"Card"),
   (txt!"21", txt!"Phone (Mobile phone)"),
   (txt!"22", txt!"Tablet/e-reader (Tablet computer or e-reader)"),
   (txt!"23", txt!"Watch/Wristband (Watch or wristband, including a fitness band, smart strap, disposable band, watch add-on, and security/ID band)"),
   (txt!"24", txt!"Sticker"),
   (txt!"25", txt!"PC (PC or laptop)"),
   (txt!"26", txt!"Device Peripheral (Mobile phone case or sleeve)"),
   (txt!"27", txt!"Tag (Key fob or mobile tag)"),
   (txt!"28", txt!"Jewelry (Ring, bracelet, necklace, and cuff links)"),
   (txt!"29", txt!"Fashion Accessory (Handbag, bag charm, and glasses)"),
   (txt!"30", txt!"Garment (Dress)"),
   (txt!"31", txt!"Domestic Appliance (Refrigerator, washing machine)"),
   (txt!"32", txt!"Vehicle (Vehicle, including vehicle attached devices)"),
   (txt!"33", txt!"Media/Gaming Device (Media or gaming device, including a set top box, media player, and television)")]

/-- The country, by its number in decimal digits. -/
def countryText (names : Nat → Option (List Byte)) (code : List Byte) : List Byte :=
  match (if code.all (fun b => decide (b.toNat / 16 < 10 ∧ b.toNat % 16 < 10)) then
      names (decNat (nibbles code)) else none) with
  | some (c :: name) => txt!"Country: " ++ (c :: name).take 127
  | _ => txt!"Country: Unknown"

/-- The unique identifier. -/
def uidText (uid : List Byte) : List Byte :=
  txt!"Unique Identifier: " ++
  ([([0, 0], txt!"Proprietary Data not used"), ([0x00, 0x03], txt!"Mastercard Product Extension"),
    ([0x80, 0x03], txt!"Mastercard Product Extension")].lookup uid).getD txt!"Unknown"

/-- The device type, two characters, with its name. -/
def deviceText (device : List Byte) : List Byte :=
  txt!"Device Type: " ++ device.takeWhile (· ≠ 0) ++
    match devices.lookup device with
    | some name => txt!" - " ++ name
    | none => []

/-- Fleet cards (bytes counted from the product identifier on). -/
def fleetRows : List Row :=
  [.value 3 8 1 [(0, none), (1, some txt!"Product Restriction Code: Good for fuel and other products"),
      (2, some txt!"Product Restriction Code: Good for fuel only")] (some txt!"Product Restriction Code: RFU"),
   .set [(4, 4)] txt!"Product Type Code: Prompt for Odometer",
   .set [(4, 3)] txt!"Product Type Code: Prompt for Driver Number",
   .set [(4, 2)] txt!"Product Type Code: Prompt for Vehicle Number",
   .set [(4, 1)] txt!"Product Type Code: Prompt for ID Number",
   .set (bits 4 8 5) txt!"Product Type Code: RFU",
   .value 5 8 1 [(0, none), (0x80, some txt!"Card Type: Driver card"),
      (0x40, some txt!"Card Type: Vehicle card")] (some txt!"Card Type: RFU")]

/-- Transit (bytes counted from the product identifier on). -/
def transitRows : List Row :=
  [.set [(3, 8)] txt!"Transit: Deferred Authorization Not Supported",
   .set (bits 3 7 1) txt!"Transit: RFU",
   .value 4 8 1 [(1, some txt!"Concession Code: 01 - Senior Citizen, potentially eligible for senior citizen discounts"),
      (2, some txt!"Concession Code: 02 - Student, potentially eligible for student-based discounts"),
      (3, some txt!"Concession Code: 03 - Active military and veterans, potentially eligible for service member discounts"),
      (4, some txt!"Concession Code: 04 - Low Income household, potentially eligible for means-based discounts"),
      (5, some txt!"Concession Code: 05 - Disability, eligible for paratransit and other disability discounts"),
      (6, some txt!"Concession Code: 06 - Minor Child, potentially enables free travel for under 16 and young kids"),
      (7, some txt!"Concession Code: 07 - Transit Staff, potentially enables free travel for transit staff"),
      (8, some txt!"Concession Code: 08 - City/Government/Preferred Employees, potentially enables discounted travel for federal and preferred employees")] (some txt!"Concession Code: RFU")]

/-- The lines for proprietary data after the unique identifier `uid`. -/
def propText (uid : List Byte) (prop : List Byte) : List (List Byte) :=
  if uid = [0, 0] then
    if prop = [0] then [txt!"Proprietary Data: Not used"] else [txt!"Invalid Proprietary Data"]
  else if uid = [0x00, 0x03] ∨ uid = [0x80, 0x03] then
    match prop with
    | 0 :: 1 :: _ => txt!"Product Identifier: Fleet Card" ::
        if prop.length = 8 then shown fleetRows prop else [txt!"Invalid Proprietary Data length"]
    | 0 :: 2 :: _ => txt!"Product Identifier: Transit" ::
        if prop.length = 5 then shown transitRows prop else [txt!"Invalid Proprietary Data length"]
    | _ :: _ :: _ => [txt!"Product Identifier: Unknown"]
    | _ => [txt!"Invalid Proprietary Data"]
  else if prop.head? = some 0 then [txt!"Proprietary Data: Not used"]
  else []

/-- All lines: country, unique identifier, device type unless the top bit of the unique identifier is
set, proprietary data. -/
def tpdText (names : Nat → Option (List Byte)) (tpd : List Byte) : List (List Byte) :=
  let uid := (tpd.drop 2).take 2
  let rest := tpd.drop 4
  countryText names (tpd.take 2) :: uidText uid ::
    if (uid.getD 0 0).toNat < 128 then deviceText (rest.take 2) :: propText uid (rest.drop 2)
    else propText uid rest

/-! ## Lemmas -/

theorem devices_eq : deviceTypes = devices := by decide +kernel

theorem find_lookup (l : List (List Byte × List Byte)) (d : List Byte) :
    (l.find? fun e => e.1 == d).map (fun e => e.2) = l.lookup d := by
  induction l with
  | nil => rfl
  | cons e l ih =>
    rw [List.find?_cons, List.lookup_cons]
    by_cases h : e.1 = d
    · simp [h]
    · rw [show (e.1 == d) = false by simpa using h, show (d == e.1) = false by simpa using Ne.symm h]
      exact ih

theorem device_eq (d0 d1 : Byte) : (match deviceTypeText d0 d1 with
      | some t => txt!"Device Type: " ++ cstr2 d0 d1 ++ txt!" - " ++ t
      | none => txt!"Device Type: " ++ cstr2 d0 d1) = deviceText [d0, d1] := by
  have h : deviceTypeText d0 d1 = devices.lookup [d0, d1] := by
    rw [deviceTypeText, find_lookup, devices_eq]
  rw [h, deviceText, cstr2]
  cases devices.lookup [d0, d1] with
  | none => simp only [List.append_nil]
  | some t => simp only [List.append_assoc]

theorem country_eq (names : Nat → Option (List Byte)) (hn : ∀ n s, names n = some s → ∀ b ∈ s, b ≠ 0)
    (c0 c1 : Byte) : countryLine names c0 c1 = .ok (countryText names [c0, c1]) := by
  have h128 : List.replicate 128 (0 : Byte) ≠ [] := by decide
  obtain ⟨x1, x2, -⟩ := Names.C81_number names [c0, c1] (List.replicate 128 0) h128
  have hf : IsFormatN [c0, c1] ↔
      [c0, c1].all (fun b => decide (b.toNat / 16 < 10 ∧ b.toNat % 16 < 10)) = true := by
    simp [IsFormatN, nibbles]
    omega
  rw [countryLine, countryText]
  by_cases h : IsFormatN [c0, c1]
  · rw [x1 rfl h, bind_ok, if_pos (hf.1 h)]
    cases hL : names (decNat (nibbles [c0, c1])) with
    | none =>
      simp only [Names.lookedUp, List.replicate_succ, List.set_cons_zero, rd_cons_zero, bind_ok]
      rw [if_neg (by simp)]
    | some t =>
      obtain ⟨b, r, e, hc⟩ := held_string t
      have hz := hn _ _ hL
      have ht : (t.take 127).takeWhile (· ≠ 0) = t.take 127 := by
        have : ∀ l : List Byte, (∀ b ∈ l, b ≠ 0) → l.takeWhile (· ≠ 0) = l := by
          intro l
          induction l with
          | nil => intro _; rfl
          | cons x l ih =>
            intro h
            rw [List.takeWhile_cons, if_pos (by simpa using h x (by simp)), ih (fun y hy => h y (by simp [hy]))]
        exact this _ (fun b hb => hz b (List.mem_of_mem_take hb))
      simp only [Names.lookedUp, List.length_replicate]
      rw [e, rd_cons_zero, bind_ok]
      cases t with
      | nil =>
        have : b = 0 := by
          have : Names.held 128 [] = 0 :: List.replicate 127 0 := rfl
          rw [this] at e
          exact (List.cons.inj e).1.symm
        rw [if_neg (by simp [this])]
      | cons x t =>
        have : b = x := by
          rw [Names.held, List.take_succ_cons, List.cons_append] at e
          exact (List.cons.inj e).1.symm
        rw [if_pos ⟨by simp, by rw [this]; exact hz x (by simp)⟩, hc, bind_ok, ht]
  · obtain ⟨c, hc, e⟩ := x2 rfl h
    rw [e, bind_ok, if_neg (fun x => h (hf.2 x))]
    simp only [List.replicate_succ, rd_cons_zero, bind_ok]
    rw [if_neg (by simp)]

theorem fleet_b2 : ∀ b : Byte,
    (if b = 0x02 then [txt!"Product Restriction Code: Good for fuel only"]
      else if b = 0x01 then [txt!"Product Restriction Code: Good for fuel and other products"]
      else if b ≠ 0 then [txt!"Product Restriction Code: RFU"] else []) =
    shown (fleetRows.take 1) [0, 0, b] := by decide +kernel

theorem fleet_b3 : ∀ b : Byte,
    (if b &&& 0x08 ≠ 0 then [txt!"Product Type Code: Prompt for Odometer"] else []) ++
    (if b &&& 0x04 ≠ 0 then [txt!"Product Type Code: Prompt for Driver Number"] else []) ++
    (if b &&& 0x02 ≠ 0 then [txt!"Product Type Code: Prompt for Vehicle Number"] else []) ++
    (if b &&& 0x01 ≠ 0 then [txt!"Product Type Code: Prompt for ID Number"] else []) ++
    (if b &&& 0xF0 ≠ 0 then [txt!"Product Type Code: RFU"] else []) =
    shown ((fleetRows.drop 1).take 5) [0, 0, 0, b] := by decide +kernel

theorem fleet_b4 : ∀ b : Byte,
    (if b = 0x80 then [txt!"Card Type: Driver card"]
      else if b = 0x40 then [txt!"Card Type: Vehicle card"]
      else if b ≠ 0 then [txt!"Card Type: RFU"] else []) =
    shown (fleetRows.drop 6) [0, 0, 0, 0, b] := by decide +kernel

theorem fleet_eq (pfx prop : List Byte) (h : prop.length = 8) :
    fleet (pfx ++ prop) pfx.length = .ok (shown fleetRows prop) := by
  have hrd : ∀ i, rd (pfx ++ prop) (pfx.length + i) = rd prop i := rd_append_right pfx prop
  simp only [fleet, hrd]
  match prop, h with
  | [a0, a1, b2, b3, b4, b5, b6, b7], _ =>
    simp only [rd_cons_zero, rd_cons_succ, bind_ok]
    have e : shown fleetRows [a0, a1, b2, b3, b4, b5, b6, b7] =
        shown (fleetRows.take 1) [0, 0, b2] ++ (shown ((fleetRows.drop 1).take 5) [0, 0, 0, b3] ++
          shown (fleetRows.drop 6) [0, 0, 0, 0, b4]) := by
      have : fleetRows = fleetRows.take 1 ++ ((fleetRows.drop 1).take 5 ++ fleetRows.drop 6) := rfl
      rw [this, shown, List.flatMap_append, List.flatMap_append]
      rfl
    rw [e, ← fleet_b2, ← fleet_b3, ← fleet_b4]
    simp only [List.append_assoc]

theorem transit_b2 : ∀ b : Byte,
    (if b &&& 0x80 ≠ 0 then [txt!"Transit: Deferred Authorization Not Supported"] else []) ++
    (if b &&& 0x7F ≠ 0 then [txt!"Transit: RFU"] else []) =
    shown (transitRows.take 2) [0, 0, b] := by decide +kernel

theorem transit_b3 : ∀ b : Byte, [concession b] = shown (transitRows.drop 2) [0, 0, 0, b] := by decide +kernel

theorem transit_eq (pfx prop : List Byte) (h : prop.length = 5) :
    transit (pfx ++ prop) pfx.length = .ok (shown transitRows prop) := by
  have hrd : ∀ i, rd (pfx ++ prop) (pfx.length + i) = rd prop i := rd_append_right pfx prop
  simp only [transit, hrd]
  match prop, h with
  | [a0, a1, b2, b3, b4], _ =>
    simp only [rd_cons_zero, rd_cons_succ, bind_ok]
    have e : shown transitRows [a0, a1, b2, b3, b4] =
        shown (transitRows.take 2) [0, 0, b2] ++ shown (transitRows.drop 2) [0, 0, 0, b3] := by
      have : transitRows = transitRows.take 2 ++ transitRows.drop 2 := rfl
      rw [this, shown, List.flatMap_append]
      rfl
    rw [e, ← transit_b2, ← transit_b3]

theorem uid_iff (u0 u1 : Byte) :
    (u0.toNat * 256 + u1.toNat = 0 ↔ [u0, u1] = [0, 0]) ∧
    ((u0.toNat * 256 + u1.toNat = 3 ∨ u0.toNat * 256 + u1.toNat = 0x8003) ↔
      ([u0, u1] = [0x00, 0x03] ∨ [u0, u1] = [0x80, 0x03])) := by
  constructor
  · rw [product_iff u0 u1 0 (by omega)]
    simp
  · have h0 := u0.toNat_lt
    have h1 := u1.toNat_lt
    have a : ∀ b : Byte, ∀ n : Nat, n < 256 → (b = UInt8.ofNat n ↔ b.toNat = n) := fun b n h => (u8_01 b n h).symm
    have x0 := a u0 0 (by omega)
    have x1 := a u0 0x80 (by omega)
    have x2 := a u1 3 (by omega)
    simp only [List.cons.injEq, and_true]
    rw [show (0 : Byte) = UInt8.ofNat 0 from rfl, show (0x80 : Byte) = UInt8.ofNat 0x80 from rfl,
      show (3 : Byte) = UInt8.ofNat 3 from rfl, x0, x1, x2]
    omega

theorem prop_eq (pfx prop : List Byte) (u0 u1 : Byte) (pre : List (List Byte)) (hne : prop ≠ []) :
    ∃ r, proprietary (pfx ++ prop) (u0.toNat * 256 + u1.toNat) pfx.length pre =
      .ok (r, pre ++ propText [u0, u1] prop) := by
  have hrd : ∀ i, rd (pfx ++ prop) (pfx.length + i) = rd prop i := rd_append_right pfx prop
  have hr0 : rd (pfx ++ prop) pfx.length = rd prop 0 := hrd 0
  have hlen : (pfx ++ prop).length - pfx.length = prop.length := by simp
  obtain ⟨hu0, hu3⟩ := uid_iff u0 u1
  rw [proprietary]
  unfold propText
  simp only [hlen, hr0, hrd]
  match prop, hne with
  | b0 :: rest, _ =>
    simp only [rd_cons_zero, bind_ok]
    by_cases hu : [u0, u1] = [0, 0]
    · rw [if_pos (hu0.2 hu), if_pos hu]
      have hx : ¬ ([u0, u1] = [0x00, 0x03] ∨ [u0, u1] = [0x80, 0x03]) := by rw [hu]; decide
      by_cases hb : b0 :: rest = [0]
      · obtain ⟨rfl, rfl⟩ := List.cons.inj hb
        rw [if_neg (by simp), if_neg (fun h => hx (hu3.1 h)), if_pos rfl, if_pos rfl]
        exact ⟨_, rfl⟩
      · rw [if_pos, if_neg hb]
        · exact ⟨_, rfl⟩
        · rw [decide_eq_true_eq]
          by_cases h0 : b0 = 0
          · right
            intro h1
            apply hb
            rw [h0, List.eq_nil_of_length_eq_zero (l := rest) (by simpa using h1)]
          · exact .inl h0
    · rw [if_neg (fun h => hu (hu0.1 h)), if_neg hu]
      simp only [Bool.false_eq_true, if_false]
      by_cases hx : [u0, u1] = [0x00, 0x03] ∨ [u0, u1] = [0x80, 0x03]
      · rw [if_pos (hu3.2 hx), if_pos hx]
        match rest with
        | [] =>
          rw [if_pos (by simp)]
          refine ⟨1, ?_⟩
          congr 3
          split
          · rename_i e; cases e
          · rename_i e; cases e
          · rename_i e; cases e
          · rfl
        | b1 :: rest =>
          rw [if_neg (by simp)]
          simp only [rd_cons_succ, rd_cons_zero, bind_ok, product_iff b0 b1 1 (by omega),
            product_iff b0 b1 2 (by omega)]
          by_cases h1 : b0 = 0 ∧ b1 = UInt8.ofNat 1
          · rw [if_pos h1]
            obtain ⟨rfl, rfl⟩ := h1
            by_cases h8 : ((0 : Byte) :: UInt8.ofNat 1 :: rest).length = 8
            · rw [if_neg (by simpa using h8), fleet_eq _ _ h8, bind_ok]
              simp only [show UInt8.ofNat 1 = 1 from rfl] at h8 ⊢
              simp only [h8, if_true]
              exact ⟨0, by simp only [List.append_assoc]; rfl⟩
            · rw [if_pos (by simpa using h8)]
              simp only [show UInt8.ofNat 1 = 1 from rfl] at h8 ⊢
              simp only [h8, if_false]
              exact ⟨_, rfl⟩
          · rw [if_neg h1]
            by_cases h2 : b0 = 0 ∧ b1 = UInt8.ofNat 2
            · rw [if_pos h2]
              obtain ⟨rfl, rfl⟩ := h2
              by_cases h5 : ((0 : Byte) :: UInt8.ofNat 2 :: rest).length = 5
              · rw [if_neg (by simpa using h5), transit_eq _ _ h5, bind_ok]
                simp only [show UInt8.ofNat 2 = 2 from rfl] at h5 ⊢
                simp only [h5, if_true]
                exact ⟨0, by simp only [List.append_assoc]; rfl⟩
              · rw [if_pos (by simpa using h5)]
                simp only [show UInt8.ofNat 2 = 2 from rfl] at h5 ⊢
                simp only [h5, if_false]
                exact ⟨_, rfl⟩
            · rw [if_neg h2]
              refine ⟨0, ?_⟩
              congr 2
              split
              · rename_i e; cases e; exact absurd ⟨rfl, rfl⟩ h1
              · rename_i e; cases e; exact absurd ⟨rfl, rfl⟩ h2
              · rfl
              · rename_i h; exact absurd rfl (h _ _ _)
      · rw [if_neg (fun h => hx (hu3.1 h)), if_neg hx]
        by_cases hb : b0 = 0
        · subst hb
          rw [if_pos rfl]
          exact ⟨0, rfl⟩
        · rw [if_neg hb, if_neg (by simpa using hb), List.append_nil]
          exact ⟨_, rfl⟩

theorem uid_eq (u0 u1 : Byte) :
    (if u0.toNat * 256 + u1.toNat = 0 then txt!"Unique Identifier: Proprietary Data not used"
      else if u0.toNat * 256 + u1.toNat = 3 ∨ u0.toNat * 256 + u1.toNat = 0x8003 then
        txt!"Unique Identifier: Mastercard Product Extension"
      else txt!"Unique Identifier: Unknown") = uidText [u0, u1] := by
  have s1 : txt!"Unique Identifier: Proprietary Data not used" = uidText [0, 0] := by decide +kernel
  have s2 : txt!"Unique Identifier: Mastercard Product Extension" = uidText [0, 3] := by decide +kernel
  have s3 : txt!"Unique Identifier: Mastercard Product Extension" = uidText [0x80, 3] := by decide +kernel
  have s4 : txt!"Unique Identifier: Unknown" = txt!"Unique Identifier: " ++ txt!"Unknown" := by decide +kernel
  have h0 := uid_iff u0 u1
  by_cases h1 : [u0, u1] = [0, 0]
  · rw [if_pos (h0.1.2 h1), h1, s1]
  · rw [if_neg (fun h => h1 (h0.1.1 h))]
    by_cases h2 : [u0, u1] = [0x00, 0x03] ∨ [u0, u1] = [0x80, 0x03]
    · rw [if_pos (h0.2.2 h2)]
      rcases h2 with h2 | h2 <;> rw [h2]
      · exact s2
      · exact s3
    · rw [if_neg (fun h => h2 (h0.2.1 h)), s4, uidText]
      obtain ⟨h2, h3⟩ := not_or.mp h2
      rw [List.lookup_cons, show ([u0, u1] == [0, 0]) = false by simpa using h1]
      simp only
      rw [List.lookup_cons, show ([u0, u1] == [0x00, 0x03]) = false by simpa using h2]
      simp only
      rw [List.lookup_cons, show ([u0, u1] == [0x80, 0x03]) = false by simpa using h3]
      rfl

theorem rows_ne (rows : List Row) (h : ∀ r ∈ rows, ∀ s ∈ r.texts, s ≠ []) (f : List Byte) :
    ∀ s ∈ shown rows f, s ≠ [] := by
  intro s hs
  obtain ⟨r, hr, hs⟩ := List.mem_flatMap.mp hs
  rcases Row.shown_texts f r with h1 | ⟨u, hu, h1⟩
  · rw [h1] at hs; cases hs
  · rw [h1, List.mem_singleton] at hs
    rw [hs]
    exact h r hr u hu

theorem prop_ne (u prop : List Byte) : ∀ s ∈ propText u prop, s ≠ [] := by
  have hf := rows_ne fleetRows (by decide +kernel) prop
  have ht := rows_ne transitRows (by decide +kernel) prop
  have one : ∀ t : List Byte, t ≠ [] → ∀ s ∈ [t], s ≠ [] := by
    intro t h s hs; rw [List.mem_singleton.mp hs]; exact h
  have two : ∀ (t : List Byte) (l : List (List Byte)), t ≠ [] → (∀ s ∈ l, s ≠ []) → ∀ s ∈ t :: l, s ≠ [] := by
    intro t l h hl s hs
    rcases List.mem_cons.mp hs with rfl | hs
    · exact h
    · exact hl s hs
  unfold propText
  split
  · split <;> exact one _ (by decide)
  split
  · split
    · refine two _ _ (by decide) ?_
      split
      · exact hf
      · exact one _ (by decide)
    · refine two _ _ (by decide) ?_
      split
      · exact ht
      · exact one _ (by decide)
    · exact one _ (by decide)
    · exact one _ (by decide)
  split
  · exact one _ (by decide)
  · simp

theorem heads_ne (names : Nat → Option (List Byte)) (c u d : List Byte) :
    countryText names c ≠ [] ∧ uidText u ≠ [] ∧ deviceText d ≠ [] := by
  have app : ∀ t l : List Byte, t ≠ [] → t ++ l ≠ [] := fun t l h e => h (List.append_eq_nil_iff.mp e).1
  refine ⟨?_, app _ _ (by decide), app _ _ (app _ _ (by decide))⟩
  unfold countryText
  split
  · exact app _ _ (by decide)
  · decide

/-! ## Properties -/

/-- **C101.**  Data of 5 to 32 bytes without the over-read of C57 are shown by the country, the unique
identifier, the device type unless the top bit of the unique identifier is set, and the proprietary
data; all lines when they fit the output. -/
theorem C101_text_partial (names : Nat → Option (List Byte))
    (hn : ∀ n s, names n = some s → ∀ b ∈ s, b ≠ 0) (c u prop str : List Byte)
    (hc : c.length = 2) (hu : u.length = 2) (hp : prop ≠ []) (hs : str ≠ []) :
    (∀ device, device.length = 2 → (u.getD 0 0).toNat < 128 → (c ++ u ++ device ++ prop).length ≤ 32 →
      ∃ r out, getStringList names (c ++ u ++ device ++ prop) str = .ok (r, out) ∧
        Lists.Shows str (countryText names c :: uidText u :: deviceText device :: propText u prop) out) ∧
    (128 ≤ (u.getD 0 0).toNat → (c ++ u ++ prop).length ≤ 32 →
      ∃ r out, getStringList names (c ++ u ++ prop) str = .ok (r, out) ∧
        Lists.Shows str (countryText names c :: uidText u :: propText u prop) out) := by
  obtain ⟨c0, c1, rfl⟩ : ∃ c0 c1, c = [c0, c1] := by
    match c, hc with
    | [a, b], _ => exact ⟨a, b, rfl⟩
  obtain ⟨u0, u1, rfl⟩ : ∃ u0 u1, u = [u0, u1] := by
    match u, hu with
    | [a, b], _ => exact ⟨a, b, rfl⟩
  have hs' : str.length ≠ 0 := by simpa using hs
  have hp' : 1 ≤ prop.length := List.length_pos_iff.mpr hp
  have huid : (if u0.toNat * 256 + u1.toNat = 0 then txt!"Unique Identifier: Proprietary Data not used"
      else if u0.toNat * 256 + u1.toNat = 3 ∨ u0.toNat * 256 + u1.toNat = 0x8003 then
        txt!"Unique Identifier: Mastercard Product Extension"
      else txt!"Unique Identifier: Unknown") = uidText [u0, u1] := uid_eq u0 u1
  simp only [List.getD_cons_zero]
  constructor
  · intro device hd hlt hlen
    obtain ⟨d0, d1, rfl⟩ : ∃ d0 d1, device = [d0, d1] := by
      match device, hd with
      | [a, b], _ => exact ⟨a, b, rfl⟩
    obtain ⟨r, e⟩ := prop_eq [c0, c1, u0, u1, d0, d1] prop u0 u1
      [countryText names [c0, c1], uidText [u0, u1], deviceText [d0, d1]] hp
    have hl : lines names ([c0, c1] ++ [u0, u1] ++ [d0, d1] ++ prop) =
        .ok (r, countryText names [c0, c1] :: uidText [u0, u1] :: deviceText [d0, d1] ::
          propText [u0, u1] prop) := by
      simp only [List.cons_append, List.nil_append] at hlen e ⊢
      simp only [lines, rd_cons_zero, rd_cons_succ, bind_ok, country_eq names hn, huid,
        if_pos ((u0_high u0).2 hlt)]
      rw [if_neg (by simp; omega)]
      refine Eq.trans ?_ e
      rw [← device_eq]
      rfl
    obtain ⟨n1, n2, n3⟩ := heads_ne names [c0, c1] [u0, u1] [d0, d1]
    obtain ⟨it, e1, e2⟩ := Lists.addAll_shows str
      (countryText names [c0, c1] :: uidText [u0, u1] :: deviceText [d0, d1] :: propText [u0, u1] prop) (by
        intro s hs
        simp only [List.mem_cons] at hs
        rcases hs with rfl | rfl | rfl | hs
        · exact n1
        · exact n2
        · exact n3
        · exact prop_ne _ _ s hs)
    refine ⟨r, it.buf, ?_, e2⟩
    rw [getStringList, if_neg (by simp), if_neg hs', if_neg (by simp at hlen ⊢; omega), hl, bind_ok]
    simp only [e1, bind_ok]
  · intro hge hlen
    obtain ⟨r, e⟩ := prop_eq [c0, c1, u0, u1] prop u0 u1 [countryText names [c0, c1], uidText [u0, u1]] hp
    have hl : lines names ([c0, c1] ++ [u0, u1] ++ prop) =
        .ok (r, countryText names [c0, c1] :: uidText [u0, u1] :: propText [u0, u1] prop) := by
      simp only [List.cons_append, List.nil_append] at hlen e ⊢
      simp only [lines, rd_cons_zero, rd_cons_succ, bind_ok, country_eq names hn, huid]
      rw [if_neg (fun h => by have := (u0_high u0).1 h; omega), if_neg (by simp; omega)]
      exact e
    obtain ⟨n1, n2, -⟩ := heads_ne names [c0, c1] [u0, u1] []
    obtain ⟨it, e1, e2⟩ := Lists.addAll_shows str
      (countryText names [c0, c1] :: uidText [u0, u1] :: propText [u0, u1] prop) (by
        intro s hs
        simp only [List.mem_cons] at hs
        rcases hs with rfl | rfl | hs
        · exact n1
        · exact n2
        · exact prop_ne _ _ s hs)
    refine ⟨r, it.buf, ?_, e2⟩
    rw [getStringList, if_neg (by simp), if_neg hs', if_neg (by simp at hlen ⊢; omega), hl, bind_ok]
    simp only [e1, bind_ok]

/-- **C101** (no proprietary data).  Data that end with the device type are refused as not conforming, and shown by the
country, the unique identifier and the device type, in this order. -/
theorem C101_bare (names : Nat → Option (List Byte)) (hn : ∀ n s, names n = some s → ∀ b ∈ s, b ≠ 0)
    (c0 c1 u0 u1 d0 d1 : Byte) (str : List Byte) (hs : str ≠ []) (hu : u0.toNat < 128) :
    ∃ out, getStringList names [c0, c1, u0, u1, d0, d1] str = .ok (1, out) ∧
      Lists.Shows str [countryText names [c0, c1], uidText [u0, u1], deviceText [d0, d1]] out := by
  have hs' : str.length ≠ 0 := by simpa using hs
  have huid : (if u0.toNat * 256 + u1.toNat = 0 then txt!"Unique Identifier: Proprietary Data not used"
      else if u0.toNat * 256 + u1.toNat = 3 ∨ u0.toNat * 256 + u1.toNat = 0x8003 then
        txt!"Unique Identifier: Mastercard Product Extension"
      else txt!"Unique Identifier: Unknown") = uidText [u0, u1] := uid_eq u0 u1
  have hl : lines names [c0, c1, u0, u1, d0, d1] =
      .ok (1, [countryText names [c0, c1], uidText [u0, u1], deviceText [d0, d1]]) := by
    simp only [lines, rd_cons_zero, rd_cons_succ, bind_ok, country_eq names hn, huid, if_pos ((u0_high u0).2 hu)]
    rw [if_pos (by simp), ← device_eq]
    rfl
  obtain ⟨n1, n2, n3⟩ := heads_ne names [c0, c1] [u0, u1] [d0, d1]
  obtain ⟨it, e1, e2⟩ := Lists.addAll_shows str [countryText names [c0, c1], uidText [u0, u1], deviceText [d0, d1]] (by
    intro s hs
    simp only [List.mem_cons, List.not_mem_nil, or_false] at hs
    rcases hs with rfl | rfl | rfl
    · exact n1
    · exact n2
    · exact n3)
  refine ⟨it.buf, ?_, e2⟩
  rw [getStringList, if_neg (by simp), if_neg hs', if_neg (by simp), hl, bind_ok]
  simp only [e1, bind_ok]

/-- **C101.**  Conforming data are accepted and shown by their lines.  Missing: as in
`C101_text_partial`. -/
theorem C101_conforming_partial (names : Nat → Option (List Byte))
    (hn : ∀ n s, names n = some s → ∀ b ∈ s, b ≠ 0) (tpd str : List Byte) (hs : str ≠ [])
    (hc : Conforms tpd) :
    ∃ out, getStringList names tpd str = .ok (0, out) ∧ Lists.Shows str (tpdText names tpd) out := by
  obtain ⟨h32, c0, c1, u0, u1, d, p, rfl, hd, hp⟩ := id hc
  have hp0 : 1 ≤ p.length := List.length_pos_iff.mpr hp.1
  have hu : ¬ (([c0, c1, u0, u1] ++ d ++ p).length = 5 ∧
      (([c0, c1, u0, u1] ++ d ++ p).getD 2 0).toNat < 128) := by
    rintro ⟨h1, h2⟩
    simp at h1 h2
    rw [if_pos h2] at hd
    omega
  obtain ⟨out, e⟩ := (C57_result_partial names _ str (by simp) hs hu).1 hc
  obtain ⟨x1, x2⟩ := C101_text_partial names hn [c0, c1] [u0, u1] p str rfl rfl hp.1 hs
  refine ⟨out, e, ?_⟩
  by_cases hlt : u0.toNat < 128
  · rw [if_pos hlt] at hd
    obtain ⟨r, out', e', hS⟩ := x1 d hd (by simpa using hlt) (by simpa using h32)
    have : getStringList names ([c0, c1, u0, u1] ++ d ++ p) str = .ok (r, out') := e'
    rw [e] at this
    cases this
    have : tpdText names ([c0, c1, u0, u1] ++ d ++ p) =
        countryText names [c0, c1] :: uidText [u0, u1] :: deviceText d :: propText [u0, u1] p := by
      match d, hd with
      | [d0, d1], _ =>
        simp only [tpdText, List.cons_append, List.nil_append, List.drop_succ_cons, List.drop_zero,
          List.take_succ_cons, List.take_zero, List.getD_cons_zero, if_pos hlt]
    rw [this]
    exact hS
  · rw [if_neg hlt] at hd
    have hd : d = [] := List.eq_nil_of_length_eq_zero hd
    subst hd
    rw [List.append_nil] at e h32 ⊢
    obtain ⟨r, out', e', hS⟩ := x2 (by simpa using hlt) (by simpa using h32)
    have : getStringList names ([c0, c1, u0, u1] ++ p) str = .ok (r, out') := e'
    rw [e] at this
    cases this
    have : tpdText names ([c0, c1, u0, u1] ++ p) =
        countryText names [c0, c1] :: uidText [u0, u1] :: propText [u0, u1] p := by
      simp only [tpdText, List.cons_append, List.nil_append, List.drop_succ_cons, List.drop_zero,
        List.take_succ_cons, List.take_zero, List.getD_cons_zero, if_neg hlt]
    rw [this]
    exact hS

/-- A fleet card of the Netherlands. -/
example : countryText (fun n => if n = 528 then some txt!"Netherlands" else none) [0x05, 0x28] =
      txt!"Country: Netherlands" ∧
    uidText [0x80, 0x03] = txt!"Unique Identifier: Mastercard Product Extension" ∧
    deviceText txt!"05" = txt!"Device Type: 05 - Wristband" ∧
    propText [0x80, 0x03] [0x00, 0x01, 0x02, 0x09, 0x40, 0, 0, 0] =
      [txt!"Product Identifier: Fleet Card", txt!"Product Restriction Code: Good for fuel only",
       txt!"Product Type Code: Prompt for Odometer", txt!"Product Type Code: Prompt for ID Number",
       txt!"Card Type: Vehicle card"] := by
  decide +kernel

end Verif.ThirdParty
