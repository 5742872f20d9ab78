import Verif.DecodeFieldProps
import Verif.ThirdPartyTextProps

/-! # C99: codes and listings the decoder shows -/

set_option autoImplicit false

namespace Verif.Decode
open Verif StrList Bits Formats

/-! ## Merchant category -/

/-- **C99** (Merchant Category Code).  Two bytes of decimal digits are looked up; the name is shown (its
first 1023 bytes), and without a name `Unknown`.  Anything else is refused. -/
theorem C99_mcc (t : Tables) (loc : Locals) (help : List Byte) (pad : Bool) (arg data : List Byte)
    (hl : Sized loc) (ht : TlvInfo.Texts t.env.mcc) :
    (data.length ≠ 2 → decode t loc help pad arg data .mcc =
      .ok ⟨[], txt!"Merchant Category Code (MCC) must be 4-digit numeric code" ++ [0x0A]⟩) ∧
    (data.length = 2 → ¬ IsFormatN data → decode t loc help pad arg data .mcc =
      .ok ⟨[], txt!"Failed to parse Merchant Category Code (MCC)" ++ [0x0A]⟩) ∧
    (data.length = 2 → IsFormatN data →
      (∀ s, t.env.mcc (decNat (nibbles data)) = some s → s ≠ [] →
        decode t loc help pad arg data .mcc = .ok ⟨s.take 1023 ++ [0x0A], []⟩) ∧
      ((t.env.mcc (decNat (nibbles data)) = none ∨ t.env.mcc (decNat (nibbles data)) = some []) →
        decode t loc help pad arg data .mcc = .ok ⟨[], txt!"Unknown" ++ [0x0A]⟩)) := by
  obtain ⟨l1, -⟩ := hl
  have n1 : loc.str1 ≠ [] := by intro h; simp [h] at l1
  obtain ⟨c1, c2, -⟩ := Names.C81_number t.env.mcc data loc.str1 n1
  refine ⟨fun h => ?_, fun h hf => ?_, fun h hf => ⟨fun s hs h0 => ?_, fun hs => ?_⟩⟩
  · simp only [decode, mcc]
    rw [if_pos h]
    rfl
  · obtain ⟨c, hc, e⟩ := c2 h hf
    simp only [decode, mcc]
    rw [if_neg (by simpa using h), e, bind_ok]
    simp only
    rw [if_pos (by omega)]
    rfl
  · have e := c1 h hf
    rw [hs, Names.lookedUp, l1] at e
    obtain ⟨b, r, rfl⟩ := List.exists_cons_of_ne_nil h0
    have hz : ∀ c ∈ (b :: r).take 1023, c ≠ 0 := fun c hc => ht _ _ hs c (List.mem_of_mem_take hc)
    have hr : rd (Names.held 1024 (b :: r)) 0 = .ok b := by simp [Names.held, rd]
    have hcs : Capdu.cstr (Names.held 1024 (b :: r)) = .ok ((b :: r).take 1023) := by
      rw [Names.held]
      obtain ⟨k, hk⟩ : ∃ k, 1024 - min (1024 - 1) (b :: r).length = k + 1 :=
        ⟨1024 - min (1024 - 1) (b :: r).length - 1, by omega⟩
      rw [hk, List.replicate_succ]
      exact Capdu.cstr_spec _ _ hz
    simp only [decode, mcc]
    rw [if_neg (by simpa using h), e, bind_ok]
    simp only
    rw [if_neg (by simp), hr, bind_ok, if_neg (ht _ _ hs b (by simp)), hcs, bind_ok]
  · have e := c1 h hf
    have hr : rd (Names.lookedUp loc.str1 (t.env.mcc (decNat (nibbles data)))) 0 = .ok 0 := by
      rcases hs with hs | hs
      · rw [hs, Names.lookedUp]
        obtain ⟨b, r, hb⟩ := List.exists_cons_of_ne_nil n1
        rw [hb]
        rfl
      · rw [hs, Names.lookedUp, l1, Names.held]
        have : ([] : List Byte).take (1024 - 1) ++ List.replicate (1024 - min (1024 - 1) ([] : List Byte).length) 0
            = 0 :: List.replicate 1023 0 := by
          rw [List.take_nil, List.nil_append, ← List.replicate_succ]
          rfl
        rw [this, rd_cons_zero]
    simp only [decode, mcc]
    rw [if_neg (by simpa using h), e, bind_ok]
    simp only
    rw [if_neg (by simp), hr, bind_ok, if_pos rfl]
    rfl

example : IsFormatN [0x54, 0x11] ∧ decNat (nibbles [0x54, 0x11]) = 5411 := by
  refine ⟨by unfold IsFormatN; decide +kernel, by decide +kernel⟩

/-! ## Third Party Data -/

theorem prop_short (u p : List Byte) : (text (ThirdParty.propText u p)).length ≤ 1000 := by
  have hf := shown_cost ThirdParty.fleetRows p
  have ht := shown_cost ThirdParty.transitRows p
  have cf : (ThirdParty.fleetRows.map cost).sum ≤ 900 := by decide +kernel
  have ct : (ThirdParty.transitRows.map cost).sum ≤ 900 := by decide +kernel
  have hcons : ∀ (a : List Byte) (l : List (List Byte)), (text (a :: l)).length = a.length + 1 + (text l).length := by
    intro a l; simp [text]; omega
  unfold ThirdParty.propText
  split
  · split <;> decide
  split
  · split
    · rw [hcons]
      split
      · have : (txt!"Product Identifier: Fleet Card").length = 30 := by decide
        omega
      · decide
    · rw [hcons]
      split
      · have : (txt!"Product Identifier: Transit").length = 27 := by decide
        omega
      · decide
    · decide
    · decide
  split
  · decide
  · decide

theorem prop_clean (u p : List Byte) : ∀ b ∈ text (ThirdParty.propText u p), b ≠ 0 := by
  have hf := shown_clean ThirdParty.fleetRows p (by decide +kernel)
  have ht := shown_clean ThirdParty.transitRows p (by decide +kernel)
  have one : ∀ (a : List Byte) (l : List (List Byte)), (∀ b ∈ a, b ≠ 0) → (∀ b ∈ text l, b ≠ 0) →
      ∀ b ∈ text (a :: l), b ≠ 0 := by
    intro a l ha hl b hb
    have e : text (a :: l) = a ++ [0x0A] ++ text l := by simp [text]
    rw [e] at hb
    rcases List.mem_append.mp hb with hb | hb
    · rcases List.mem_append.mp hb with hb | hb
      · exact ha b hb
      · rw [List.mem_singleton.mp hb]; decide
    · exact hl b hb
  unfold ThirdParty.propText
  split
  · split <;> exact one _ _ (by decide) (by decide)
  split
  · split
    · refine one _ _ (by decide) ?_
      split
      · exact hf
      · exact one _ _ (by decide) (by decide)
    · refine one _ _ (by decide) ?_
      split
      · exact ht
      · exact one _ _ (by decide) (by decide)
    · exact one _ _ (by decide) (by decide)
    · exact one _ _ (by decide) (by decide)
  split
  · exact one _ _ (by decide) (by decide)
  · decide

theorem country_fits (names : Nat → Option (List Byte)) (hn : TlvInfo.Texts names) (c : List Byte) :
    (ThirdParty.countryText names c).length ≤ 136 ∧ ∀ b ∈ ThirdParty.countryText names c, b ≠ 0 := by
  unfold ThirdParty.countryText
  split
  · next x name h =>
    refine ⟨?_, ?_⟩
    · have : (txt!"Country: ").length = 9 := by decide
      rw [List.length_append, List.length_take, this]
      omega
    · intro b hb
      rcases List.mem_append.mp hb with hb | hb
      · exact (by decide : ∀ b ∈ txt!"Country: ", b ≠ 0) b hb
      · split at h
        · exact hn _ _ h b (List.mem_of_mem_take hb)
        · cases h
  · decide

theorem uid_fits (u : List Byte) :
    (ThirdParty.uidText u).length ≤ 50 ∧ ∀ b ∈ ThirdParty.uidText u, b ≠ 0 := by
  unfold ThirdParty.uidText
  generalize hL : List.lookup u _ = r
  cases r with
  | none => decide
  | some t =>
    simp only [List.lookup_cons] at hL
    split at hL
    · cases hL; decide
    split at hL
    · cases hL; decide
    split at hL
    · cases hL; decide
    · cases hL

theorem device_fits (d : List Byte) (h : d.length = 2) :
    (ThirdParty.deviceText d).length ≤ 300 ∧ ∀ b ∈ ThirdParty.deviceText d, b ≠ 0 := by
  have hall : ThirdParty.devices.all (fun e => decide (e.2.length ≤ 200) && e.2.all (fun b => Nat.blt 0 b.toNat)) = true := by
    decide +kernel
  have hmem : ∀ (l : List (List Byte × List Byte)) (t : List Byte), l.lookup d = some t → ∃ e ∈ l, e.2 = t := by
    intro l t
    induction l with
    | nil => intro h; cases h
    | cons e l ih =>
      rw [List.lookup_cons]
      split
      · intro h; cases h; exact ⟨e, by simp, rfl⟩
      · intro h
        obtain ⟨x, hx, he⟩ := ih h
        exact ⟨x, by simp [hx], he⟩
  have htw : (d.takeWhile (· ≠ 0)).length ≤ 2 := by
    have := (List.takeWhile_sublist (p := fun b : Byte => decide (b ≠ 0)) (l := d)).length_le
    omega
  have hz : ∀ b ∈ d.takeWhile (· ≠ 0), b ≠ 0 := by
    intro b hb
    have := List.all_eq_true.mp (List.all_takeWhile (p := fun b : Byte => decide (b ≠ 0)) (l := d)) b hb
    simpa using this
  have h1 : (txt!"Device Type: ").length = 13 := by decide
  have h2 : (txt!" - ").length = 3 := by decide
  unfold ThirdParty.deviceText
  cases hL : ThirdParty.devices.lookup d with
  | none =>
    refine ⟨by simp only [List.length_append, List.length_nil, h1]; omega, ?_⟩
    intro b hb
    simp only [List.append_nil] at hb
    rcases List.mem_append.mp hb with hb | hb
    · exact (by decide : ∀ b ∈ txt!"Device Type: ", b ≠ 0) b hb
    · exact hz b hb
  | some t =>
    obtain ⟨e, he, rfl⟩ := hmem _ _ hL
    have he := List.all_eq_true.mp hall e he
    simp only [Bool.and_eq_true, decide_eq_true_eq, List.all_eq_true] at he
    refine ⟨by simp only [List.length_append, h1, h2]; omega, ?_⟩
    intro b hb
    rcases List.mem_append.mp hb with hb | hb
    · rcases List.mem_append.mp hb with hb | hb
      · exact (by decide : ∀ b ∈ txt!"Device Type: ", b ≠ 0) b hb
      · exact hz b hb
    · rcases List.mem_append.mp hb with hb | hb
      · exact (by decide : ∀ b ∈ txt!" - ", b ≠ 0) b hb
      · exact blt_ne (he.2 b hb)

/-- Everything that is shown for Third Party Data fits. -/
theorem tpd_fits (names : Nat → Option (List Byte)) (hn : TlvInfo.Texts names) (tpd : List Byte)
    (h : 6 ≤ tpd.length ∨ 128 ≤ (tpd.getD 2 0).toNat) :
    (text (ThirdParty.tpdText names tpd)).length < 2048 ∧
    ∀ s ∈ ThirdParty.tpdText names tpd, ∀ b ∈ s, b ≠ 0 := by
  have hcons : ∀ (a : List Byte) (l : List (List Byte)), (text (a :: l)).length = a.length + 1 + (text l).length := by
    intro a l; simp [text]; omega
  have hin : ∀ (l : List (List Byte)), (∀ b ∈ text l, b ≠ 0) → ∀ s ∈ l, ∀ b ∈ s, b ≠ 0 := by
    intro l h s hs b hb
    exact h b (List.mem_flatten.mpr ⟨s ++ [0x0A], List.mem_map.mpr ⟨s, hs, rfl⟩, by simp [hb]⟩)
  obtain ⟨c1, c2⟩ := country_fits names hn (tpd.take 2)
  obtain ⟨u1, u2⟩ := uid_fits ((tpd.drop 2).take 2)
  have hg : ((tpd.drop 2).take 2).getD 0 0 = tpd.getD 2 0 := by
    simp [List.getD_eq_getElem?_getD, List.getElem?_drop]
  simp only [ThirdParty.tpdText, hg]
  split
  · next hlt =>
    obtain ⟨d1, d2⟩ := device_fits ((tpd.drop 4).take 2) (by simp; omega)
    have p1 := prop_short ((tpd.drop 2).take 2) ((tpd.drop 4).drop 2)
    have p2 := hin _ (prop_clean ((tpd.drop 2).take 2) ((tpd.drop 4).drop 2))
    refine ⟨by rw [hcons, hcons, hcons]; omega, ?_⟩
    intro s hs
    simp only [List.mem_cons] at hs
    rcases hs with rfl | rfl | rfl | hs
    · exact c2
    · exact u2
    · exact d2
    · exact p2 s hs
  · have p1 := prop_short ((tpd.drop 2).take 2) (tpd.drop 4)
    have p2 := hin _ (prop_clean ((tpd.drop 2).take 2) (tpd.drop 4))
    refine ⟨by rw [hcons, hcons]; omega, ?_⟩
    intro s hs
    simp only [List.mem_cons] at hs
    rcases hs with rfl | rfl | hs
    · exact c2
    · exact u2
    · exact p2 s hs

/-- **C99** (Third Party Data).  Data that do not conform are refused, data that conform are shown by the
lines of C101.  Missing: data of five bytes without a top bit (`C99_third_overread`). -/
theorem C99_third_partial (t : Tables) (loc : Locals) (help : List Byte) (pad : Bool)
    (arg data : List Byte) (hl : Sized loc) (ht : TlvInfo.Texts t.env.countryNum) :
    (¬ (5 ≤ data.length ∧ data.length ≤ 32) → decode t loc help pad arg data .thirdParty =
      .ok ⟨[], txt!"Mastercard Third Party Data (field 9F6E) must be 5 to 32 bytes" ++ [0x0A]⟩) ∧
    (5 ≤ data.length → data.length ≤ 32 → ¬ (data.length = 5 ∧ (data.getD 2 0).toNat < 128) →
      ¬ ThirdParty.Conforms data → decode t loc help pad arg data .thirdParty =
        .ok ⟨[], txt!"Failed to parse Mastercard Third Party Data (field 9F6E)" ++ [0x0A]⟩) ∧
    (ThirdParty.Conforms data → decode t loc help pad arg data .thirdParty =
      .ok ⟨text (ThirdParty.tpdText t.env.countryNum data), []⟩) := by
  obtain ⟨-, l2, -⟩ := hl
  have n2 : loc.str2 ≠ [] := by intro h; simp [h] at l2
  refine ⟨fun h => ?_, fun h5 h32 hu hc => ?_, fun hc => ?_⟩
  · simp only [decode]
    rw [field_bad (by simpa using h)]
  · have h0 : data ≠ [] := by intro h; simp [h] at h5
    obtain ⟨out, e⟩ := (ThirdParty.C57_result_partial t.env.countryNum data loc.str2 h0 n2 hu).2 hc
    simp only [decode, h5, h32, decide_true, Bool.and_self]
    rw [field_fail e (by decide)]
  · obtain ⟨out, e, hS⟩ := ThirdParty.C101_conforming_partial t.env.countryNum ht data loc.str2 n2 hc
    obtain ⟨h32, h5, hu⟩ : data.length ≤ 32 ∧ 5 ≤ data.length ∧ (6 ≤ data.length ∨ 128 ≤ (data.getD 2 0).toNat) := by
      obtain ⟨h32, c0, c1, u0, u1, d, p, rfl, hd, hp⟩ := hc
      have hp0 : 1 ≤ p.length := List.length_pos_iff.mpr hp.1
      refine ⟨h32, by simp; omega, ?_⟩
      by_cases hlt : u0.toNat < 128
      · rw [if_pos hlt] at hd
        left; simp; omega
      · right; simpa using hlt
    obtain ⟨f1, f2⟩ := tpd_fits t.env.countryNum ht data hu
    have hs := shows_out hS (by simp [ThirdParty.tpdText]) f2 (by rw [l2]; exact f1)
    simp only [decode, h5, h32, decide_true, Bool.and_self]
    rw [field_ok e hs, List.append_nil]

/-- A card with transit data. -/
example : ThirdParty.Conforms [0x08, 0x26, 0x80, 0x03, 0x00, 0x02, 0x80, 0x02, 0x00] :=
  ⟨by decide, 0x08, 0x26, 0x80, 0x03, [], [0x00, 0x02, 0x80, 0x02, 0x00], rfl, by decide,
    by simp, by simp, fun _ => ⟨by decide, fun h => absurd h (by decide), fun _ => rfl⟩⟩

/-- **C99 is false otherwise**: the decoder reads past the five bytes. -/
theorem C99_third_overread (t : Tables) (loc : Locals) (help : List Byte) (pad : Bool) (arg : List Byte)
    (hl : Sized loc) (c0 c1 u0 u1 x : Byte) (hu : u0.toNat < 128) :
    decode t loc help pad arg [c0, c1, u0, u1, x] .thirdParty = .error .oobRead := by
  obtain ⟨-, l2, -⟩ := hl
  have n2 : loc.str2 ≠ [] := by intro h; simp [h] at l2
  have e := ThirdParty.C57_overread t.env.countryNum c0 c1 u0 u1 x loc.str2 n2 hu
  simp only [decode, List.length_cons, List.length_nil]
  simp only [field, e]
  rfl

/-! ## Listings -/

/-- **C99** (lengths).  Issuer Application Data are of at most 32 bytes, a status word is two bytes and
an ATR 2 to 33 bytes. -/
theorem C99_other_lengths (t : Tables) (loc : Locals) (help : List Byte) (pad : Bool)
    (arg data : List Byte) :
    (32 < data.length → decode t loc help pad arg data .iad =
      .ok ⟨[], txt!"EMV Issuer Application Data (field 9F10) may be up to 32 bytes" ++ [0x0A]⟩) ∧
    (data.length ≠ 2 → decode t loc help pad arg data .sw1sw2 =
      .ok ⟨[], txt!"SW1SW2 must consist of 4 hex digits" ++ [0x0A]⟩) ∧
    (data.length < 2 → decode t loc help pad arg data .atr =
      .ok ⟨[], txt!"ATR may not have less than 4 digits (thus 2 bytes)" ++ [0x0A]⟩) ∧
    (33 < data.length → decode t loc help pad arg data .atr =
      .ok ⟨[], txt!"ATR may not have more than 66 digits (thus 33 bytes)" ++ [0x0A]⟩) := by
  refine ⟨fun h => ?_, fun h => ?_, fun h => ?_, fun h => ?_⟩
  · simp only [decode]
    rw [field_bad (by simpa using h)]
  · simp only [decode, sw1sw2]
    rw [if_pos h]
    rfl
  · simp only [decode, atr]
    rw [if_pos h]
    rfl
  · simp only [decode, atr]
    rw [if_neg (by omega), if_pos h]
    rfl

/-- **C99** (status word). -/
theorem C99_status_word (t : Tables) (loc : Locals) (help : List Byte) (pad : Bool) (arg : List Byte)
    (hl : Sized loc) (a b : Byte) :
    decode t loc help pad arg [a, b] .sw1sw2 = .ok ⟨txt!"SW1SW2: " ++ hexOf [a, b] ++ txt!" (" ++
      IsoStr.swWords (IsoStr.swNum a b) ++ txt!")" ++ [0x0A], []⟩ := by
  obtain ⟨-, -, -, l4, -⟩ := hl
  simp only [decode, sw1sw2]
  rw [if_neg (by simp), rd_cons_zero, bind_ok, rd_cons_succ, rd_cons_zero, bind_ok,
    PrintCard.C96_status loc.sw a b l4, bind_ok]

/-- **C99** (ATR).  A refused ATR is reported; an accepted one is listed as C94 says.  Missing: the
ATRs for which C94 is false. -/
theorem C99_atr_partial (t : Tables) (loc : Locals) (help : List Byte) (pad : Bool) (arg data : List Byte)
    (hl : Sized loc) (h2 : 2 ≤ data.length) (h33 : data.length ≤ 33) :
    (∀ c, Atr.parse data = .ok (.error c) →
      decode t loc help pad arg data .atr = .ok ⟨[], txt!"Failed to parse ATR" ++ [0x0A]⟩) ∧
    (∀ (ts : Byte) (gs : List AtrSpec.Link) (info : Atr.Info) (h : PrintCardSpec.Hist),
      Atr.HasChain data ts gs none → Atr.parse data = .ok (.ok info) → h.WF →
      Atr.historical data gs = h.enc → (∀ t ∈ h.tlvs, PrintCardSpec.Listable t) →
      decode t loc help pad arg data .atr = .ok ⟨PrintCardSpec.atrText data gs h, []⟩) := by
  obtain ⟨-, -, -, -, l5, l6, -⟩ := hl
  refine ⟨fun c e => ?_, fun ts gs info h hc hp hw hh hL => ?_⟩
  · simp only [decode, atr]
    rw [if_neg (by omega), if_neg (by omega), e, bind_ok]
    rfl
  · have e := PrintCard.C94_listing_partial data ts gs info h hc hp hw hh hL loc.atr loc.hist l5 l6
    simp only [decode, atr]
    rw [if_neg (by omega), if_neg (by omega), hp, bind_ok]
    simp only
    rw [e, bind_ok]

/-- **C99** (BER and EMV data).  Data that can be read to their end are listed object by object as C89
and C92 say, with two spaces for each level; other data up to the place where they cannot be read, as
C90 says.  Missing: object identifiers of more than ten numbers, and fields without a defined
description (`C90_overflow`, `C92_undefined`). -/
theorem C99_data_partial (t : Tables) (loc : Locals) (help : List Byte) (pad : Bool) (arg data : List Byte)
    (hl : Sized loc) (ht : TlvInfo.Sane t.env) (hlen : data.length < 2 ^ 31) :
    ((∃ d : PrintSpec.Doc, d.WF pad data.length [] ∧ data = d.enc ∧
        (d.All Print.OidsOk 0 → decode t loc help pad arg data .ber =
          .ok ⟨d.text (PrintSpec.berLine txt!"  ") txt!"  " 0, []⟩) ∧
        (d.All (Print.AllDefined loc.emv) 0 → decode t loc help pad arg data .tlv =
          .ok ⟨d.text (PrintSpec.emvLine t.env loc.emv txt!"  ") txt!"  " 0, []⟩)) ∨
     (∃ p : PrintSpec.Path, p.WF pad data.length ∧ data = p.enc ∧
        (p.All Print.OidsOk 0 → decode t loc help pad arg data .ber =
          .ok ⟨p.text (PrintSpec.berLine txt!"  ") txt!"  " 0 ++ txt!" at offset " ++ Lists.decimal p.offset ++
            txt!"; remaining invalid data:" ++ PrintSpec.spacedHex p.invalid ++ [0x0A], []⟩) ∧
        (p.All (Print.AllDefined loc.emv) 0 → decode t loc help pad arg data .tlv =
          .ok ⟨p.text (PrintSpec.emvLine t.env loc.emv txt!"  ") txt!"  " 0 ++ txt!" at offset " ++
            Lists.decimal p.offset ++ txt!"; remaining invalid data:" ++ PrintSpec.spacedHex p.invalid ++
            [0x0A], []⟩))) := by
  obtain ⟨-, -, l3, -, -, -, l7⟩ := hl
  rcases Print.C90_every_input pad data with ⟨d, hw, e⟩ | ⟨p, hw, e⟩
  · left
    refine ⟨d, hw, e, fun h => ?_, fun h => ?_⟩ <;> subst e
    · simp only [decode]
      rw [Print.C89_listing_partial loc.ber txt!"  " pad 0 d l3 hlen hw h, bind_ok]
    · simp only [decode]
      rw [Print.C92_listing_partial t.env ht loc.emv l7 txt!"  " pad 0 d hlen hw h, bind_ok]
  · right
    refine ⟨p, hw, e, fun h => ?_, fun h => ?_⟩ <;> subst e
    · simp only [decode]
      rw [(Print.C90_error_partial loc.ber txt!"  " pad 0 p l3 hlen hw h).2.2.2, bind_ok]
    · simp only [decode]
      rw [Print.C92_error_partial t.env ht loc.emv l7 txt!"  " pad 0 p hlen hw h, bind_ok]

/-- **C99** (lists).  Data object lists and tag lists are listed as C93 says.  Missing: data object lists
that ask for 14 bytes of field 84 (C93). -/
theorem C99_lists_partial (t : Tables) (loc : Locals) (help : List Byte) (pad : Bool)
    (arg data : List Byte) :
    ((∀ r ∈ PrintSpec.reqs data, ¬ (r.tag = [0x84] ∧ r.len = 14)) →
      decode t loc help pad arg data .dol = .ok ⟨PrintSpec.dolText txt!"  " 0 data, []⟩) ∧
    decode t loc help pad arg data .tagList = .ok ⟨PrintSpec.tagListText txt!"  " 0 data, []⟩ := by
  refine ⟨fun h => ?_, ?_⟩
  · simp only [decode]
    rw [Print.C93_dol_partial _ _ _ h, bind_ok]
  · simp only [decode]
    rw [Print.C93_tags, bind_ok]

end Verif.Decode
