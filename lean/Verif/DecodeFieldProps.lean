import Verif.DecodeProps

/-! # C99: the other fields the decoder shows -/

set_option autoImplicit false

namespace Verif.Decode
open Verif StrList Bits Formats BerSpec

/-! ## Flags none of which is set -/

theorem flags_as_they_are (t : Tables) (loc : Locals) (help : List Byte) (pad : Bool)
    (arg data : List Byte) (m : Mode) (name words : List Byte) (n : Nat) (hf : Flags m)
    (hm : fixed m = some (name, n, words)) (hn : data.length = n) (hl : Sized loc)
    (h0 : lines m data = []) :
    decode t loc help pad arg data m =
      (do let s ← Capdu.cstr loc.str2
          .ok ⟨s, []⟩) := by
  obtain ⟨l1, l2, -⟩ := hl
  have n2 : loc.str2 ≠ [] := by intro h; simp [h] at l2
  rcases hf with rfl | rfl | rfl | rfl <;>
    (simp only [fixed, Option.some.injEq, Prod.mk.injEq] at hm; obtain ⟨rfl, rfl, rfl⟩ := hm
     simp only [decode, hn, beq_self_eq_true]) <;> simp only [lines] at h0
  · exact field_none C70_tvr_partial data loc.str2 _ _ n2 hn h0
  · exact field_none C70_tsi_partial data loc.str2 _ _ n2 hn h0
  · exact field_none C70_ctq_partial data loc.str2 _ _ n2 hn h0
  · exact field_none C70_trmd_partial data loc.str2 _ _ n2 hn h0

/-- Local arrays, that for descriptions holding `s`. -/
def holding (s : List Byte) : Locals :=
  ⟨List.replicate 1024 7, s, List.replicate 1024 7, List.replicate 1024 7, List.replicate 1024 7,
   List.replicate 1024 7, fun _ _ => List.replicate 2048 7⟩

/-- **C99 is false for flags none of which is set.**  What is shown then is what happened to be in
memory: it can be any text, and the end of the array may be passed. -/
theorem C99_uninitialised (t : Tables) (help : List Byte) (pad : Bool) (arg : List Byte) (m : Mode)
    (name words : List Byte) (n : Nat) (hf : Flags m) (hm : fixed m = some (name, n, words)) :
    (∀ s : List Byte, (∀ b ∈ s, b ≠ 0) → s.length < 2048 →
      ∃ loc, Sized loc ∧ decode t loc help pad arg (List.replicate n 0) m = .ok ⟨s, []⟩) ∧
    ∃ loc, Sized loc ∧ decode t loc help pad arg (List.replicate n 0) m = .error .oobRead := by
  have h0 : lines m (List.replicate n 0) = [] := by
    rcases hf with rfl | rfl | rfl | rfl <;>
      (simp only [fixed, Option.some.injEq, Prod.mk.injEq] at hm; obtain ⟨rfl, rfl, rfl⟩ := hm) <;>
      decide +kernel
  have hs : ∀ s : List Byte, s.length = 2048 → Sized (holding s) := by
    intro s h
    exact ⟨List.length_replicate .., h, List.length_replicate .., List.length_replicate ..,
      List.length_replicate .., List.length_replicate .., fun _ _ => List.length_replicate ..⟩
  constructor
  · intro s hz hlen
    have e : (s ++ 0 :: List.replicate (2047 - s.length) 0).length = 2048 := by simp; omega
    refine ⟨holding (s ++ 0 :: List.replicate (2047 - s.length) 0), hs _ e, ?_⟩
    rw [flags_as_they_are t _ help pad arg _ m name words n hf hm (List.length_replicate ..) (hs _ e) h0]
    simp only [holding]
    rw [Capdu.cstr_spec s _ hz]
    rfl
  · have e : (List.replicate 2048 (7 : Byte)).length = 2048 := List.length_replicate ..
    refine ⟨holding (List.replicate 2048 7), hs _ e, ?_⟩
    rw [flags_as_they_are t _ help pad arg _ m name words n hf hm (List.length_replicate ..) (hs _ e) h0]
    have : Capdu.cstr (List.replicate 2048 7) = .error .oobRead := by decide +kernel
    simp only [holding]
    rw [this]
    rfl

/-! ## Descriptions that do not fit -/

theorem cstr_over_short (t old s : List Byte) (h : Capdu.cstr (strOver t old) = .ok s) :
    s.length ≤ t.length := by
  have e := (Print.cstr_takeWhile (strOver t old) (by simp [strOver])).1
  rw [e] at h
  injection h with h
  subst h
  have : (strOver t old).takeWhile (fun b : Byte => decide (b ≠ 0)) <+: t := by
    rw [strOver]
    clear e
    generalize old.drop (t.length + 1) = X
    induction t with
    | nil => simp
    | cons b t ih =>
      rw [List.cons_append, List.takeWhile_cons]
      split
      · simpa using ih
      · simp
  exact this.length_le

/-- **C99 is false for Additional Terminal Capabilities of many bits**: the description is cut. -/
theorem C99_truncated (t : Tables) (loc : Locals) (help : List Byte) (pad : Bool) (arg data : List Byte)
    (hn : data.length = 5) (hl : Sized loc) (h : 1024 ≤ (text (lines .addlTermCaps data)).length) :
    ∃ s, decode t loc help pad arg data .addlTermCaps = .ok ⟨s, []⟩ ∧
      s = emvText 1024 (lines .addlTermCaps data) [] ∧
      s ≠ text (lines .addlTermCaps data) ∧ s.length < 1024 := by
  obtain ⟨l1, -⟩ := hl
  have n1 : loc.str1 ≠ [] := by intro h; simp [h] at l1
  obtain ⟨str', e, hs⟩ := C72_addl_term_caps.2 data loc.str1 n1 hn
  obtain ⟨hs, hlt⟩ := shows_cut hs ((C72_lines data).2.1 hn) (by
    intro s hs b hb
    refine shown_clean addlTermCapsRows data (by decide +kernel) b ?_
    simp only [text, List.mem_flatten, List.mem_map]
    exact ⟨_, ⟨s, hs, rfl⟩, by simp [hb]⟩) (by omega)
  rw [l1] at hs hlt
  refine ⟨_, ?_, rfl, fun e => ?_, hlt⟩
  · simp only [decode, hn, beq_self_eq_true]
    rw [field_ok e hs, List.append_nil]
    rfl
  · rw [← e] at h; exact absurd hlt (Nat.not_lt.2 h)

/-- Everything supported. -/
example : 1024 ≤ (text (lines .addlTermCaps [0xFF, 0xFF, 0xFF, 0xFF, 0xFF])).length := by decide +kernel
/-- Nothing of the first two bytes. -/
example : (text (lines .addlTermCaps [0, 0, 0xFF, 0xFF, 0xFF])).length < 1024 := by decide +kernel

/-- **C99** (Terminal Type).  The value 00 is refused. -/
theorem C99_term_type_zero (t : Tables) (loc : Locals) (help : List Byte) (pad : Bool) (arg : List Byte) :
    decode t loc help pad arg [0] .termType =
      .ok ⟨[], txt!"Failed to parse EMV Terminal Type (field 9F35)" ++ [0x0A]⟩ := rfl

/-! ## CVM List -/

theorem clean_decimal {n : Nat} (h : n < 2 ^ 32) : ∀ b ∈ Lists.decimal n, b ≠ 0 :=
  (PrintCard.short_decimal h).2

theorem rule_clean (x y : Nat) (hx : x < 2 ^ 32) (hy : y < 2 ^ 32) (r : Fields.CvRule) :
    ∀ b ∈ Lists.ruleLine x y r, b ≠ 0 := by
  have hm : ∀ c : Byte, ∀ b ∈ Lists.methodText c, b ≠ 0 := by decide +kernel
  have hc : ∀ n, ∀ b ∈ Lists.conditionText (Lists.decimal x) (Lists.decimal y) n, b ≠ 0 := by
    intro n b hb
    have dx := clean_decimal hx
    have dy := clean_decimal hy
    unfold Lists.conditionText at hb
    have lit : ∀ u v w : List Byte, (∀ b ∈ u, b ≠ 0) → (∀ b ∈ v, b ≠ 0) → (∀ b ∈ w, b ≠ 0) →
        ∀ b ∈ u ++ v ++ w, b ≠ 0 := by
      intro u v w hu hv hw b hb
      rw [List.mem_append, List.mem_append] at hb
      rcases hb with (hb | hb) | hb
      · exact hu b hb
      · exact hv b hb
      · exact hw b hb
    split at hb
    all_goals first
      | exact lit _ _ _ (by decide +kernel) dx (by decide +kernel) b hb
      | exact lit _ _ _ (by decide +kernel) dy (by decide +kernel) b hb
      | (revert b; decide +kernel)
  intro b hb
  rw [Lists.ruleLine] at hb
  simp only [List.mem_append] at hb
  rcases hb with (((hb | hb) | hb) | hb) | hb
  · exact hc _ b hb
  · revert b; decide +kernel
  · exact hm _ b hb
  · revert b; decide +kernel
  · split at hb <;> (revert b; decide +kernel)

/-- **C99** (CVM List).  A list of rules is shown rule by rule when that fits the array it is
described in, and cut as C49 says otherwise. -/
theorem C99_cvm_list (t : Tables) (loc : Locals) (help : List Byte) (pad : Bool) (arg x y : List Byte)
    (rs : List Fields.CvRule) (hl : Sized loc) (hc : ∀ i, (t.env.locCvm i).length = 128)
    (hx : x.length = 4) (hy : y.length = 4) (h1 : rs ≠ []) (h2 : rs.length ≤ 122) :
    ∃ s, decode t loc help pad arg (x ++ y ++ Fields.encRules rs) .cvmList = .ok ⟨s, []⟩ ∧
      s = emvText 2048 (rs.map (Lists.ruleLine (beNat x) (beNat y))) [] ∧ s.length < 2048 ∧
      ((text (rs.map (Lists.ruleLine (beNat x) (beNat y)))).length < 2048 →
        s = text (rs.map (Lists.ruleLine (beNat x) (beNat y)))) := by
  obtain ⟨-, l2, -⟩ := hl
  have n2 : loc.str2 ≠ [] := by intro h; simp [h] at l2
  obtain ⟨str', e, hs⟩ := Lists.C73_list t.env.locCvm hc x y hx hy rs h1 h2 loc.str2 n2
  have hne : rs.map (Lists.ruleLine (beNat x) (beNat y)) ≠ [] := by simpa using h1
  have hz : ∀ s ∈ rs.map (Lists.ruleLine (beNat x) (beNat y)), ∀ b ∈ s, b ≠ 0 := by
    intro z hz
    rw [List.mem_map] at hz
    obtain ⟨r, -, rfl⟩ := hz
    exact rule_clean _ _ (by have := beNat_lt x; rw [hx] at this; omega)
      (by have := beNat_lt y; rw [hy] at this; omega) r
  obtain ⟨hs2, hlt⟩ := shows_cut hs hne hz (by omega)
  rw [l2] at hs2 hlt
  refine ⟨_, ?_, rfl, hlt, fun h => ?_⟩
  · simp only [decode]
    rw [field_ok e hs2, List.append_nil]
  · have := shows_out hs hne hz (by rw [l2]; exact h)
    rw [this] at hs2
    injection hs2 with hs2
    exact hs2.symm

/-- **C99** (CVM List).  Anything that is no list of rules is refused. -/
theorem C99_cvm_list_refused (t : Tables) (loc : Locals) (help : List Byte) (pad : Bool)
    (arg data : List Byte) (h : ¬ (10 ≤ data.length ∧ data.length ≤ 252 ∧ data.length % 2 = 0)) :
    decode t loc help pad arg data .cvmList =
      .ok ⟨[], txt!"Failed to parse EMV Cardholder Verification Method (CVM) List (field 8E)" ++ [0x0A]⟩ := by
  obtain ⟨c, hc, e⟩ := Lists.C73_list_refused t.env.locCvm data loc.str2 h
  simp only [decode]
  rw [field_fail e hc]

example : decode ⟨TlvInfo.noTables, fun _ => none, fun _ => none⟩ (holding (List.replicate 2048 7)) [] false []
    ([0, 0, 0, 10] ++ [0, 0, 0, 0] ++ Fields.encRules [⟨0x42, 0x06⟩, ⟨0x1F, 0x03⟩]) .cvmList =
    .ok ⟨txt!"If transaction is in the application currency and is under 10 value; Enciphered PIN verified online; Apply succeeding CV Rule if this CVM is unsuccessful" ++ [0x0A] ++
      txt!"If terminal supports the CVM; No CVM required; Fail cardholder verification if this CVM is unsuccessful" ++ [0x0A], []⟩ := by
  decide +kernel

/-! ## Issuer Application Data -/

/-- No text of the part holds a NUL. -/
def spClean : Iad.Sp → Bool
  | .text s => s.all (fun b => Nat.blt 0 b.toNat)
  | _ => true

/-- No text of the row holds a NUL. -/
def iClean : Iad.IRow → Bool
  | .row r => clean r
  | .line ps => ps.all spClean
  | .lineIf _ ps => ps.all spClean

theorem sp_clean (f : List Byte) (p : Iad.Sp) (h : spClean p = true) : ∀ b ∈ p.shown f, b ≠ 0 := by
  cases p with
  | text s =>
    intro b hb
    exact blt_ne (List.all_eq_true.mp h b hb)
  | hex i =>
    have : ∀ x : Byte, ∀ b ∈ hexOf [x], b ≠ 0 := by decide +kernel
    exact this _
  | num i hi lo =>
    have : bitsVal f i hi lo < 2 ^ 32 := by
      have h1 : (f.getD (i - 1) 0).toNat < 256 := UInt8.toNat_lt _
      rw [bitsVal]
      exact Nat.lt_of_le_of_lt (Nat.le_trans (Nat.mod_le _ _) (Nat.div_le_self _ _)) (by omega)
    exact clean_decimal this
  | num2 i =>
    have : ∀ x : Byte, ∀ b ∈ (if x.toNat < 10 then Lists.decimal 0 else []) ++ Lists.decimal x.toNat,
        b ≠ 0 := by decide +kernel
    exact this _

theorem irow_clean (f : List Byte) (r : Iad.IRow) (h : iClean r = true) :
    ∀ s ∈ r.shown f, ∀ b ∈ s, b ≠ 0 := by
  have one : ∀ ps : List Iad.Sp, ps.all spClean = true → ∀ b ∈ ps.flatMap (Iad.Sp.shown f), b ≠ 0 := by
    intro ps h b hb
    rw [List.mem_flatMap] at hb
    obtain ⟨p, hp, hb⟩ := hb
    exact sp_clean f p (List.all_eq_true.mp h p hp) b hb
  cases r with
  | row r => exact row_clean r f h
  | line ps =>
    intro s hs
    simp only [Iad.IRow.shown, List.mem_singleton] at hs
    subst hs
    exact one ps h
  | lineIf bs ps =>
    intro s hs
    simp only [Iad.IRow.shown] at hs
    split at hs
    · rw [List.mem_singleton] at hs; subst hs; exact one ps h
    · simp at hs

theorem ishown_clean (f : List Byte) (rows : List Iad.IRow) (h : rows.all iClean = true) :
    ∀ s ∈ Iad.ishown rows f, ∀ b ∈ s, b ≠ 0 := by
  intro s hs
  simp only [Iad.ishown, List.mem_flatMap] at hs
  obtain ⟨r, hr, hs⟩ := hs
  exact irow_clean f r (List.all_eq_true.mp h r hr) s hs

theorem ccd_clean : Iad.ccdRows.all iClean = true := by decide +kernel
theorem mchip4_clean :
    (Iad.mchipHeadRows ++ Iad.mchipTailRows ++ Iad.mchip4Rows ++ Iad.mchipEndRows).all iClean = true := by
  decide +kernel
theorem mchipAdv_clean :
    (Iad.mchipHeadRows ++ Iad.mchipTailRows ++ Iad.mchipAdvRows ++ Iad.mchipEndRows).all iClean = true := by
  decide +kernel
theorem visa013_clean : Iad.visa013Rows.all iClean = true := by decide +kernel
theorem visa24_clean : Iad.visa24Rows.all iClean = true := by decide +kernel

theorem iad_clean (iad : List Byte) (fmt : Fields.IadFormat) :
    ∀ s ∈ Iad.iadLines iad fmt, ∀ b ∈ s, b ≠ 0 := by
  have cons : ∀ (s : List Byte) (l : List (List Byte)), s.all (fun b => Nat.blt 0 b.toNat) = true →
      (∀ x ∈ l, ∀ b ∈ x, b ≠ 0) → ∀ x ∈ s :: l, ∀ b ∈ x, b ≠ 0 := by
    intro s l h1 h2 x hx b hb
    rcases List.mem_cons.mp hx with rfl | hx
    · exact blt_ne (List.all_eq_true.mp h1 b hb)
    · exact h2 x hx b hb
  have nil : ∀ x ∈ ([] : List (List Byte)), ∀ b ∈ x, b ≠ 0 := by simp
  cases fmt <;> rw [Iad.iadLines]
  case invalid => exact cons _ _ (by decide +kernel) nil
  case unknown => exact cons _ _ (by decide +kernel) nil
  case ccd => exact cons _ _ (by decide +kernel) (cons _ _ (by decide +kernel) (ishown_clean iad _ ccd_clean))
  case mchip4 => exact cons _ _ (by decide +kernel) (ishown_clean iad _ mchip4_clean)
  case mchipAdvance => exact cons _ _ (by decide +kernel) (ishown_clean iad _ mchipAdv_clean)
  case vsdc0 => exact cons _ _ (by decide +kernel) (cons _ _ (by decide +kernel) (ishown_clean iad _ visa013_clean))
  case vsdc1 => exact cons _ _ (by decide +kernel) (cons _ _ (by decide +kernel) (ishown_clean iad _ visa013_clean))
  case vsdc3 => exact cons _ _ (by decide +kernel) (cons _ _ (by decide +kernel) (ishown_clean iad _ visa013_clean))
  case vsdc2 => exact cons _ _ (by decide +kernel) (cons _ _ (by decide +kernel) (ishown_clean iad _ visa24_clean))
  case vsdc4 => exact cons _ _ (by decide +kernel) (cons _ _ (by decide +kernel) (ishown_clean iad _ visa24_clean))

/-- **C99** (Issuer Application Data).  Data of a known format are shown by the lines of their format
when these fit the array they are made in, and cut otherwise; invalid data are refused.  Missing: CCD
data for which C77 fails (`C77_ccd_upper_wrong`). -/
theorem C99_iad_partial (t : Tables) (loc : Locals) (help : List Byte) (pad : Bool) (arg iad : List Byte)
    (hl : Sized loc) (h0 : iad ≠ []) (h32 : iad.length ≤ 32) (fmt : Fields.IadFormat) (h : Fields.Is iad fmt)
    (hq : fmt = .ccd → bitSet iad (6, 6) = bitSet iad (6, 5)) :
    (fmt = .invalid → decode t loc help pad arg iad .iad =
      .ok ⟨[], txt!"Failed to parse EMV Issuer Application Data (field 9F10)" ++ [0x0A]⟩) ∧
    (fmt ≠ .invalid → ∃ s, decode t loc help pad arg iad .iad = .ok ⟨s, []⟩ ∧
      s = emvText 2048 (Iad.iadLines iad fmt) [] ∧ s.length < 2048 ∧
      ((text (Iad.iadLines iad fmt)).length < 2048 → s = text (Iad.iadLines iad fmt))) := by
  obtain ⟨-, l2, -⟩ := hl
  have n2 : loc.str2 ≠ [] := by intro h; simp [h] at l2
  obtain ⟨str', e, hs⟩ := Iad.C77_iad_partial iad loc.str2 h0 h32 n2 fmt h hq
  have hd : decide (iad.length ≤ 32) = true := by simpa using h32
  constructor
  · intro hi
    simp only [decode, hd]
    rw [if_pos hi] at e
    rw [field_fail e (by decide)]
  · intro hi
    rw [if_neg hi] at e
    have hne : Iad.iadLines iad fmt ≠ [] := by cases fmt <;> simp [Iad.iadLines]
    obtain ⟨hs2, hlt⟩ := shows_cut hs hne (iad_clean iad fmt) (by omega)
    rw [l2] at hs2 hlt
    refine ⟨_, ?_, rfl, hlt, fun h => ?_⟩
    · simp only [decode, hd]
      rw [field_ok e hs2, List.append_nil]
    · have := shows_out hs hne (iad_clean iad fmt) (by rw [l2]; exact h)
      rw [this] at hs2
      injection hs2 with hs2
      exact hs2.symm

/-- Data of M/Chip 4 with every result set, whose description is cut. -/
example : Fields.Is ([0x01, 0x10] ++ List.replicate 16 0xFF) .mchip4 ∧
    2048 ≤ (text (Iad.iadLines ([0x01, 0x10] ++ List.replicate 16 0xFF) .mchip4)).length := by
  refine ⟨by unfold Fields.Is Fields.IsMChip; decide +kernel, by decide +kernel⟩

/-- Data of M/Chip 4 as found in practice. -/
example : Fields.Is [0x01, 0x10, 0xA0, 0x00, 0x01, 0x22, 0x00, 0x00, 0, 0, 0, 0, 0, 0, 0, 0, 0, 0xFF] .mchip4 ∧
    (text (Iad.iadLines [0x01, 0x10, 0xA0, 0x00, 0x01, 0x22, 0x00, 0x00, 0, 0, 0, 0, 0, 0, 0, 0, 0, 0xFF]
      .mchip4)).length < 2048 := by
  refine ⟨by unfold Fields.Is Fields.IsMChip; decide +kernel, by decide +kernel⟩

end Verif.Decode
