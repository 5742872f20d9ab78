import Verif.ThirdParty
import Verif.StrListProps
import Verif.NamesProps

/-!
# C57: description of Mastercard third party data
-/

set_option autoImplicit false

namespace Verif.ThirdParty
open Verif StrList Formats

/-! ## Specification -/

/-- What may follow the unique identifier `uid` (and the device type): nothing but a zero byte
when no proprietary data is used; a product identifier and data of the size of that product
for a product extension; anything else otherwise. -/
def ProprietaryOk (uid : Nat) (prop : List Byte) : Prop :=
  prop ≠ [] ∧
  (uid = 0 → prop = [0]) ∧
  (uid = 0x0003 ∨ uid = 0x8003 → 2 ≤ prop.length ∧
    ([0, 1] <+: prop → prop.length = 8) ∧ ([0, 2] <+: prop → prop.length = 5))

/-- Third party data: country code, unique identifier, device type unless the top bit of the
unique identifier is set, proprietary data. -/
def Conforms (tpd : List Byte) : Prop :=
  tpd.length ≤ 32 ∧ ∃ c0 c1 u0 u1 : Byte, ∃ device prop : List Byte,
    tpd = [c0, c1, u0, u1] ++ device ++ prop ∧
    device.length = (if u0.toNat < 128 then 2 else 0) ∧
    ProprietaryOk (u0.toNat * 256 + u1.toNat) prop

/-! ## Proofs -/

theorem u0_high : ∀ u : Byte, (u &&& 0x80 = 0) ↔ u.toNat < 128 := by decide +kernel

theorem u8_01 (b : Byte) (n : Nat) (h : n < 256) : b.toNat = n ↔ b = UInt8.ofNat n := by
  constructor
  · intro e; rw [← e]; simp
  · rintro rfl; simp [Nat.mod_eq_of_lt h]

theorem product_iff (b0 b1 : Byte) (n : Nat) (h : n < 256) :
    b0.toNat * 256 + b1.toNat = n ↔ b0 = 0 ∧ b1 = UInt8.ofNat n := by
  have h0 := b0.toNat_lt
  have h1 := b1.toNat_lt
  rw [← u8_01 b1 n h, show (0 : Byte) = UInt8.ofNat 0 from rfl, ← u8_01 b0 0 (by omega)]
  omega

/-- Proprietary data: no undefined behaviour, and result 0 exactly when it conforms. -/
theorem proprietary_spec (pfx prop : List Byte) (uid : Nat) (pre : List (List Byte))
    (hne : prop ≠ []) :
    ∃ r ls, proprietary (pfx ++ prop) uid pfx.length pre = .ok (r, ls) ∧
      (r = 0 ∨ r = 1) ∧ (r = 0 ↔ ProprietaryOk uid prop) ∧ ∃ ls', ls = pre ++ ls' := by
  have hrd : ∀ i, rd (pfx ++ prop) (pfx.length + i) = rd prop i := rd_append_right pfx prop
  have hr0 : rd (pfx ++ prop) pfx.length = rd prop 0 := hrd 0
  have hlen : (pfx ++ prop).length - pfx.length = prop.length := by simp
  rw [proprietary]
  simp only [hlen, hr0, hrd]
  match prop, hne with
  | b0 :: rest, _ =>
    simp only [rd_cons_zero, bind_ok]
    by_cases hu : uid = 0
    · subst hu
      simp only [if_true]
      by_cases hb : b0 ≠ 0 ∨ (b0 :: rest).length ≠ 1
      · rw [if_pos (by simpa using hb)]
        refine ⟨1, _, rfl, .inr rfl, ?_, _, rfl⟩
        simp only [ProprietaryOk]
        constructor
        · intro h; simp at h
        · rintro ⟨-, h, -⟩
          have := h trivial
          rw [this] at hb
          simp at this
          simp [this] at hb
      · rw [if_neg (by simpa using hb)]
        have h1 : b0 = 0 := by
          apply Classical.byContradiction; intro h; exact hb (.inl h)
        have h2 : rest = [] := by
          apply Classical.byContradiction; intro h
          exact hb (.inr (by simpa using h))
        subst h1 h2
        refine ⟨0, _, rfl, .inl rfl, ⟨fun _ => ⟨by simp, fun _ => rfl, by simp⟩, fun _ => rfl⟩, _, rfl⟩
    · simp only [hu, if_false, Bool.false_eq_true]
      by_cases hx : uid = 3 ∨ uid = 0x8003
      · rw [if_pos hx]
        match rest with
        | [] =>
          rw [if_pos (by simp)]
          refine ⟨1, _, rfl, .inr rfl, ?_, _, rfl⟩
          constructor
          · intro h; simp at h
          · rintro ⟨-, -, h⟩; have := (h hx).1; simp at this
        | b1 :: rest =>
          rw [if_neg (by simp)]
          simp only [rd_cons_zero, rd_cons_succ, bind_ok]
          have hpre : ∀ n : Byte, [0, n] <+: b0 :: b1 :: rest ↔ b0 = 0 ∧ b1 = n := by
            intro n
            simp only [List.cons_prefix_cons, List.nil_prefix, and_true]
            constructor <;> rintro ⟨h1, h2⟩ <;> exact ⟨h1.symm, h2.symm⟩
          simp only [ProprietaryOk, hu, hx, hpre, product_iff b0 b1 1 (by omega),
            product_iff b0 b1 2 (by omega)]
          by_cases h1 : b0 = 0 ∧ b1 = UInt8.ofNat 1
          · rw [if_pos h1]
            have h1' : b0 = 0 ∧ b1 = 1 := h1
            have h2' : ¬ (b0 = 0 ∧ b1 = 2) := by
              rintro ⟨-, h⟩; rw [h1'.2] at h; exact absurd h (by decide)
            by_cases h8 : (b0 :: b1 :: rest).length = 8
            · rw [if_neg (by simpa using h8)]
              have : ∃ l, fleet (pfx ++ b0 :: b1 :: rest) pfx.length = .ok l := by
                simp only [List.length_cons] at h8
                simp only [fleet, hrd]
                simp only [rd_eq (buf := b0 :: b1 :: rest) (i := 2) (by simp; omega),
                  rd_eq (buf := b0 :: b1 :: rest) (i := 3) (by simp; omega),
                  rd_eq (buf := b0 :: b1 :: rest) (i := 4) (by simp; omega), bind_ok]
                exact ⟨_, rfl⟩
              obtain ⟨l, e⟩ := this
              rw [e, bind_ok]
              refine ⟨0, _, rfl, .inl rfl, ?_, _, List.append_assoc ..⟩
              exact ⟨fun _ => ⟨by simp, by simp, fun _ => ⟨by simp, fun _ => h8,
                fun h => absurd h h2'⟩⟩, fun _ => rfl⟩
            · rw [if_pos (by simpa using h8)]
              refine ⟨1, _, rfl, .inr rfl, ?_, _, rfl⟩
              constructor
              · intro h; simp at h
              · rintro ⟨-, -, h⟩; exact absurd ((h trivial).2.1 h1') h8
          · rw [if_neg h1]
            have h1' : ¬ (b0 = 0 ∧ b1 = 1) := h1
            by_cases h2 : b0 = 0 ∧ b1 = UInt8.ofNat 2
            · rw [if_pos h2]
              have h2' : b0 = 0 ∧ b1 = 2 := h2
              by_cases h5 : (b0 :: b1 :: rest).length = 5
              · rw [if_neg (by simpa using h5)]
                have : ∃ l, transit (pfx ++ b0 :: b1 :: rest) pfx.length = .ok l := by
                  simp only [List.length_cons] at h5
                  simp only [transit, hrd]
                  simp only [rd_eq (buf := b0 :: b1 :: rest) (i := 2) (by simp; omega),
                    rd_eq (buf := b0 :: b1 :: rest) (i := 3) (by simp; omega), bind_ok]
                  exact ⟨_, rfl⟩
                obtain ⟨l, e⟩ := this
                rw [e, bind_ok]
                refine ⟨0, _, rfl, .inl rfl, ?_, _, List.append_assoc ..⟩
                refine ⟨fun _ => ⟨by simp, by simp, fun _ => ⟨by simp, fun h => absurd h h1',
                  fun _ => h5⟩⟩, fun _ => rfl⟩
              · rw [if_pos (by simpa using h5)]
                refine ⟨1, _, rfl, .inr rfl, ?_, _, rfl⟩
                constructor
                · intro h; simp at h
                · rintro ⟨-, -, h⟩; exact absurd ((h trivial).2.2 h2') h5
            · rw [if_neg h2]
              have h2' : ¬ (b0 = 0 ∧ b1 = 2) := h2
              refine ⟨0, _, rfl, .inl rfl, ?_, _, rfl⟩
              exact ⟨fun _ => ⟨by simp, by simp, fun _ => ⟨by simp, fun h => absurd h h1',
                fun h => absurd h h2'⟩⟩, fun _ => rfl⟩
      · rw [if_neg hx]
        by_cases hb : b0 = 0
        · rw [if_pos hb]
          refine ⟨0, _, rfl, .inl rfl, ⟨fun _ => ⟨by simp, fun h => absurd h hu, fun h => absurd h hx⟩,
            fun _ => rfl⟩, _, rfl⟩
        · rw [if_neg hb]
          refine ⟨0, _, rfl, .inl rfl, ⟨fun _ => ⟨by simp, fun h => absurd h hu, fun h => absurd h hx⟩,
            fun _ => rfl⟩, [], by simp⟩

/-- What is left of a text in an array of 128 bytes. -/
theorem held_string (t : List Byte) : ∃ b rest, Names.held 128 t = b :: rest ∧
    Capdu.cstr (b :: rest) = .ok ((t.take 127).takeWhile (· ≠ 0)) := by
  have e : Names.held 128 t = t.take 127 ++ 0 :: List.replicate (127 - min 127 t.length) 0 := by
    rw [Names.held, show 128 - min (128 - 1) t.length = 127 - min 127 t.length + 1 by omega,
      List.replicate_succ]
  have hc : ∀ (t r : List Byte), Capdu.cstr (t ++ 0 :: r) = .ok (t.takeWhile (· ≠ 0)) := by
    intro t r
    have h : ∃ r', t ++ 0 :: r = t.takeWhile (· ≠ 0) ++ 0 :: r' := by
      induction t with
      | nil => exact ⟨r, rfl⟩
      | cons b t ih =>
        obtain ⟨r', h⟩ := ih
        by_cases hb : b = 0
        · exact ⟨t ++ 0 :: r, by simp [hb]⟩
        · exact ⟨r', by rw [List.takeWhile_cons, if_pos (by simpa using hb), List.cons_append, h]; rfl⟩
    obtain ⟨r', h⟩ := h
    rw [h]
    refine Capdu.cstr_spec _ _ fun b hb => ?_
    have := List.all_eq_true.mp (List.all_takeWhile (p := fun b : Byte => decide (b ≠ 0)) (l := t)) b hb
    simpa using this
  have hc := hc (t.take 127) (List.replicate (127 - min 127 t.length) 0)
  rw [← e] at hc
  cases h : Names.held 128 t with
  | nil => rw [h] at e; cases ht : t.take 127 <;> rw [ht] at e <;> cases e
  | cons b r => exact ⟨b, r, rfl, h ▸ hc⟩

theorem countryLine_ok (country : Nat → Option (List Byte)) (c0 c1 : Byte) :
    ∃ l, countryLine country c0 c1 = .ok l := by
  have h128 : List.replicate 128 (0 : Byte) ≠ [] := by decide
  obtain ⟨x1, x2, -⟩ := Names.C81_number country [c0, c1] (List.replicate 128 0) h128
  rw [countryLine]
  by_cases hf : IsFormatN [c0, c1]
  · rw [x1 rfl hf, bind_ok]
    cases country (decNat (nibbles [c0, c1])) with
    | none => exact ⟨_, rfl⟩
    | some t =>
      obtain ⟨b, r, e, hc⟩ := held_string t
      simp only [Names.lookedUp, List.length_replicate]
      rw [e, rd_cons_zero, bind_ok]
      split
      · rw [hc, bind_ok]; exact ⟨_, rfl⟩
      · exact ⟨_, rfl⟩
  · obtain ⟨c, hc, e⟩ := x2 rfl hf
    rw [e, bind_ok]
    simp only [List.replicate_succ, rd_cons_zero, bind_ok]
    rw [if_neg (by simp)]
    exact ⟨_, rfl⟩

theorem lines_spec (country : Nat → Option (List Byte)) (tpd : List Byte)
    (h5 : 5 ≤ tpd.length) (h32 : tpd.length ≤ 32)
    (hu : ¬ (tpd.length = 5 ∧ (tpd.getD 2 0).toNat < 128)) :
    ∃ r ls, lines country tpd = .ok (r, ls) ∧ (r = 0 ∨ r = 1) ∧ (r = 0 ↔ Conforms tpd) := by
  match tpd, h5 with
  | c0 :: c1 :: u0 :: u1 :: x :: rest, _ =>
    simp only [List.getD_cons_succ, List.getD_cons_zero] at hu
    obtain ⟨cl, hcl⟩ := countryLine_ok country c0 c1
    simp only [lines, rd_cons_zero, rd_cons_succ, bind_ok, hcl]
    by_cases hm : u0 &&& 0x80 = 0
    · rw [if_pos hm]
      have hlt := (u0_high u0).1 hm
      match rest with
      | [] => exact absurd ⟨rfl, hlt⟩ hu
      | y :: rest =>
        simp only [rd_cons_zero, bind_ok]
        match rest with
        | [] =>
          rw [if_pos (by simp)]
          refine ⟨1, _, rfl, .inr rfl, ?_⟩
          constructor
          · intro h; simp at h
          · rintro ⟨-, c0', c1', u0', u1', d, p, e, hd, hp, -⟩
            simp only [List.cons_append, List.nil_append, List.cons.injEq] at e
            obtain ⟨-, -, rfl, rfl, e⟩ := e
            rw [if_pos hlt] at hd
            have := congrArg List.length e
            have := List.length_pos_iff.2 hp
            simp at *
            omega
        | z :: rest =>
          rw [if_neg (by simp)]
          obtain ⟨r, ls, e, h1, h2, -⟩ := proprietary_spec [c0, c1, u0, u1, x, y] (z :: rest)
            (u0.toNat * 256 + u1.toNat) _ (by simp)
          refine ⟨r, ls, e, h1, h2.trans ?_⟩
          constructor
          · intro h
            exact ⟨h32, c0, c1, u0, u1, [x, y], z :: rest, rfl, by simp [hlt], h⟩
          · rintro ⟨-, c0', c1', u0', u1', d, p, e, hd, hp⟩
            simp only [List.cons_append, List.nil_append, List.cons.injEq] at e
            obtain ⟨-, -, rfl, rfl, e⟩ := e
            rw [if_pos hlt] at hd
            match d, hd with
            | [d0, d1], _ =>
              simp only [List.cons_append, List.nil_append, List.cons.injEq] at e
              rw [e.2.2]; exact hp
    · rw [if_neg hm, if_neg (by simp)]
      have hlt : ¬ u0.toNat < 128 := fun h => hm ((u0_high u0).2 h)
      obtain ⟨r, ls, e, h1, h2, -⟩ := proprietary_spec [c0, c1, u0, u1] (x :: rest)
        (u0.toNat * 256 + u1.toNat) _ (by simp)
      refine ⟨r, ls, e, h1, h2.trans ?_⟩
      constructor
      · intro h
        exact ⟨h32, c0, c1, u0, u1, [], x :: rest, rfl, by simp [hlt], h⟩
      · rintro ⟨-, c0', c1', u0', u1', d, p, e, hd, hp⟩
        simp only [List.cons_append, List.nil_append, List.cons.injEq] at e
        obtain ⟨-, -, rfl, rfl, e⟩ := e
        rw [if_neg hlt] at hd
        have : d = [] := List.eq_nil_of_length_eq_zero hd
        subst this
        rw [e]; exact hp

theorem buf_length (buf : List Byte) (ss : List (List Byte)) :
    ∃ it, addAll (fun s => emvAdd (some s)) ss (init buf) = .ok it ∧
      it.buf.length = buf.length := by
  obtain ⟨it, e, h1, h2⟩ := C49_safe buf ss
  refine ⟨it, e, ?_⟩
  by_cases h : 3 ≤ buf.length ∧ ss ≠ []
  · obtain ⟨e1, e2⟩ := h1 h.1 h.2
    rw [e1, strOver_length _ _ e2]
  · rw [h2 ?_]
    by_cases h3 : 3 ≤ buf.length
    · exact .inr (Classical.byContradiction fun hn => h ⟨h3, hn⟩)
    · exact .inl (by omega)

/-- **C57** (partial: all fields but those of five bytes without the top bit of the unique
identifier; see `C57_overread`).  Describing the field reads only the field and writes only
inside the output buffer. -/
theorem C57_safe_partial (country : Nat → Option (List Byte)) (tpd str : List Byte)
    (hu : ¬ (tpd.length = 5 ∧ (tpd.getD 2 0).toNat < 128)) :
    ∃ r out, getStringList country tpd str = .ok (r, out) ∧ out.length = str.length := by
  rw [getStringList]
  split
  · exact ⟨_, _, rfl, rfl⟩
  split
  · exact ⟨_, _, rfl, rfl⟩
  split
  · exact ⟨_, _, rfl, rfl⟩
  · obtain ⟨r, ls, e, -⟩ := lines_spec country tpd (by omega) (by omega) hu
    obtain ⟨it, e', hl⟩ := buf_length str ls
    rw [e, bind_ok]
    simp only [e', bind_ok]
    exact ⟨_, _, rfl, hl⟩

/-- **C57** (partial, same restriction): the field is reported as valid exactly when it
conforms to its format, and as invalid otherwise. -/
theorem C57_result_partial (country : Nat → Option (List Byte)) (tpd str : List Byte)
    (h0 : tpd ≠ []) (hs : str ≠ [])
    (hu : ¬ (tpd.length = 5 ∧ (tpd.getD 2 0).toNat < 128)) :
    (Conforms tpd → ∃ out, getStringList country tpd str = .ok (0, out)) ∧
    (¬ Conforms tpd → ∃ out, getStringList country tpd str = .ok (1, out)) := by
  have h0' : tpd.length ≠ 0 := by simpa using h0
  have hs' : str.length ≠ 0 := by simpa using hs
  rw [getStringList, if_neg h0', if_neg hs']
  by_cases hl : tpd.length < 5 ∨ 32 < tpd.length
  · rw [if_pos hl]
    refine ⟨fun hc => ?_, fun _ => ⟨_, rfl⟩⟩
    obtain ⟨h32, c0, c1, u0, u1, d, p, rfl, hd, hp, -⟩ := hc
    have := List.length_pos_iff.2 hp
    simp at hl h32
    omega
  · rw [if_neg hl]
    obtain ⟨r, ls, e, hr, hc⟩ := lines_spec country tpd (by omega) (by omega) hu
    obtain ⟨it, e', -⟩ := buf_length str ls
    rw [e, bind_ok]
    simp only [e', bind_ok]
    refine ⟨fun h => ⟨it.buf, by rw [hc.2 h]⟩, fun h => ⟨it.buf, ?_⟩⟩
    rcases hr with hr | hr
    · exact absurd (hc.1 hr) h
    · rw [hr]

/-- **C57 fails**: the device type is copied before the length is checked, so every field of
five bytes without the top bit of the unique identifier makes the library read past it. -/
theorem C57_overread (country : Nat → Option (List Byte)) (c0 c1 u0 u1 x : Byte)
    (str : List Byte) (hs : str ≠ []) (hu : u0.toNat < 128) :
    getStringList country [c0, c1, u0, u1, x] str = .error .oobRead := by
  have hs' : str.length ≠ 0 := by simpa using hs
  rw [getStringList, if_neg (by simp), if_neg hs', if_neg (by simp)]
  obtain ⟨cl, hcl⟩ := countryLine_ok country c0 c1
  simp only [lines, rd_cons_zero, rd_cons_succ, bind_ok, hcl, if_pos ((u0_high u0).2 hu)]
  rfl

/-- A fleet card. -/
def fleetCard : List Byte := [0x05, 0x28, 0x80, 0x03, 0x00, 0x01, 0x02, 0x09, 0x40, 0, 0, 0]

example : Conforms fleetCard :=
  ⟨by decide, 0x05, 0x28, 0x80, 0x03, [], [0x00, 0x01, 0x02, 0x09, 0x40, 0, 0, 0], rfl, by decide,
    by simp, by simp, fun _ => ⟨by decide, fun _ => rfl, fun h => absurd h (by decide)⟩⟩

example : ¬ (fleetCard.length = 5 ∧ (fleetCard.getD 2 0).toNat < 128) := by decide

example : lines (fun _ => none) fleetCard = .ok (0, [txt!"Country: Unknown",
    txt!"Unique Identifier: Mastercard Product Extension",
    txt!"Product Identifier: Fleet Card",
    txt!"Product Restriction Code: Good for fuel only",
    txt!"Product Type Code: Prompt for Odometer",
    txt!"Product Type Code: Prompt for ID Number",
    txt!"Card Type: Vehicle card"]) := by decide +kernel

/-- The example of the project's tests: a wristband with transit data missing. -/
example : lines (fun _ => none) [0x08, 0x26, 0x00, 0x00, 0x30, 0x35, 0x00] =
    .ok (0, [txt!"Country: Unknown", txt!"Unique Identifier: Proprietary Data not used",
      txt!"Device Type: 05 - Wristband", txt!"Proprietary Data: Not used"]) := by
  decide +kernel

end Verif.ThirdParty
