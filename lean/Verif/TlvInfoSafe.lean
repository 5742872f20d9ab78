import Verif.TlvInfoProps

/-! # C84: when the description of a field is safe -/

set_option autoImplicit false

namespace Verif.TlvInfo
open Verif Formats BerSpec

/-- What makes a handler safe for a value and an output. -/
def Handler.Safe (tag : Nat) (v str : List Byte) : Handler → Prop
  | .value f max => (tag = 0x9F12 → max ≠ 0) ∧ (f = .n → ¬ (v ≠ [] ∧ IsFormatN v ∧ 2 ≤ str.length ∧
      (max ≠ 0 → max < str.length) ∧ (max ≠ 0 → v.length ≤ (max + 1) / 2) ∧
      str.length ≤ (Str.digits (decNat (nibbles v) % 2 ^ 32)).length))
  | .track2 => ¬ (v ≠ [] ∧ str ≠ [] ∧ str.length ≤ (Str.unpadded v).length)
  | .amount => ¬ (v ≠ [] ∧ v.length ≤ 4 ∧ 2 ≤ str.length ∧
      str.length ≤ (Str.digits (beNat v)).length)
  | .capdu => ¬ (Capdu.EmvOverreads v ∧ 4 ≤ str.length)
  | .date => ¬ (v.length = 3 ∧ IsFormatN v ∧ 11 ≤ str.length)
  | .time => ¬ (v.length = 3 ∧ IsFormatN v ∧ 9 ≤ str.length)
  | .txnType | .account | .cid | .termType | .posEntry => v ≠ []
  | _ => True

theorem handler_fine (env : Env) (he : Sane env) (tag : Nat) (h : Handler) (v str : List Byte)
    (hs : h.Safe tag v str) : Fine (h.run env tag v str) str := by
  obtain ⟨e1, e2, e3, e4, e5, e6, e7⟩ := he
  cases h with
  | none => exact fine_same _ _
  | value f max => exact fine_value tag f max v str hs.1 hs.2
  | aid => exact fine_aid v str
  | track2 => exact fine_track2 v str hs
  | amount => exact fine_amount v str hs
  | aip => exact fine_describe Bits.C70_aip_partial v str
  | dfName => exact fine_dfName v str
  | capdu => exact fine_capdu v str hs
  | arc => exact fine_arc v str
  | cvmList => exact fine_cvmList _ e3 v str
  | auth => exact fine_auth _ v str e7
  | afl => exact fine_afl v str
  | tvr => exact fine_describe Bits.C70_tvr_partial v str
  | date => exact fine_date v str hs
  | time => exact fine_time v str hs
  | tsi => exact fine_describe Bits.C70_tsi_partial v str
  | txnType => exact fine_first (fine_codes Names.C80_txn_type) v str hs
  | countryNum => exact fine_number _ v str
  | currency => exact fine_number _ v str
  | language => exact fine_language _ e2 _ e6 v str
  | country2 => exact fine_country 2 (by decide) _ v str
  | country3 => exact fine_country 3 (by decide) _ v str
  | account => exact fine_first (fine_codes Names.C80_account_type) v str hs
  | auc => exact fine_describe Bits.C70_auc_partial v str
  | asrpd => exact fine_asrpd v str
  | iad => exact fine_iad v str
  | mcc => exact fine_number _ v str
  | trmd => exact fine_describe Bits.C70_trmd_partial v str
  | cid => exact fine_first fine_cid v str hs
  | termCaps => exact fine_describe Bits.C72_term_caps v str
  | cvmResults => exact fine_cvmResults _ e4 v str
  | termType => exact fine_first fine_termType v str hs
  | posEntry => exact fine_first (fine_codes Names.C80_pos_entry_mode) v str hs
  | refCurrency => exact fine_refCurrency _ e1 _ e5 v str
  | addlCaps => exact fine_describe Bits.C72_addl_term_caps v str
  | ctq => exact fine_describe Bits.C70_ctq_partial v str

/-! ## Which tags have which handler -/

/-- The maximum of a numeric field. -/
def Handler.numMax : Handler → Option Nat
  | .value .n max => some max
  | _ => Option.none

theorem tags_of : ∀ e ∈ table,
    (e.tag = 0x9F12 → e.handler = .value .ans 16) ∧
    (e.handler.numMax.all (fun m => decide ((m, e.tag) = (3, 0x5F30) ∨
      m ∈ [4, 6, 8, 11, 12])) = true) ∧
    (e.handler = .track2 → e.tag = 0x57) ∧
    (e.handler = .amount → e.tag ∈ [0x81, 0x9F04, 0x9F1B, 0x9F3A]) ∧
    (e.handler = .capdu → e.tag = 0x86) ∧
    (e.handler = .date → e.tag ∈ [0x9A, 0x5F24, 0x5F25]) ∧
    (e.handler = .time → e.tag = 0x9F21) ∧
    (e.handler ∈ [.txnType, .account, .cid, .termType, .posEntry] →
      e.tag ∈ [0x9C, 0x5F57, 0x9F27, 0x9F35, 0x9F39]) := by decide +kernel

theorem number_fits (m : Nat) (v str : List Byte) (hm : m ∈ [4, 6, 8, 11, 12])
    (hf : IsFormatN v) (hv : v ≠ []) (h1 : m < str.length) (h2 : v.length ≤ (m + 1) / 2) :
    (Str.digits (decNat (nibbles v) % 2 ^ 32)).length < str.length := by
  have hlt := number_lt v hf
  have hmod : decNat (nibbles v) % 2 ^ 32 ≤ decNat (nibbles v) := Nat.mod_le _ _
  have hv' : 0 < v.length := List.length_pos_iff.2 hv
  have h32 := digits32 (decNat (nibbles v))
  have := digits_le (decNat (nibbles v) % 2 ^ 32) (2 * v.length) (by omega) (by omega)
  simp only [List.mem_cons, List.not_mem_nil, or_false] at hm
  omega

theorem entry_safe (e : Entry) (he : e ∈ table) (v str : List Byte)
    (h : ¬ Undefined e.tag v str) :
    e.handler.Safe e.tag v str := by
  obtain ⟨t1, t2, t3, t4, t5, t6, t7, t8⟩ := tags_of e he
  have first : e.handler ∈ [.txnType, .account, .cid, .termType, .posEntry] → v ≠ [] := by
    intro hh hv
    exact h (.inl ⟨t8 hh, hv⟩)
  cases hh : e.handler with
  | value f max =>
    refine ⟨fun ht => ?_, fun hf => ?_⟩
    · rw [t1 ht] at hh; cases hh; decide
    · subst hf
      rintro ⟨hv, hn, hl, hm, hd, hx⟩
      rw [hh] at t2
      simp only [Handler.numMax, Option.all_some, decide_eq_true_eq] at t2
      rcases t2 with t2 | t2
      · obtain ⟨rfl, ht⟩ : max = 3 ∧ e.tag = 0x5F30 := by simpa using t2
        have hm := hm (by decide)
        have hd := hd (by decide)
        have hlt := number_lt v hn
        have hmod : decNat (nibbles v) % 2 ^ 32 ≤ decNat (nibbles v) := Nat.mod_le _ _
        have h4 : 10 ^ (2 * v.length) ≤ 10 ^ 4 := Nat.pow_le_pow_right (by decide) (by omega)
        have hd4 := digits_le (decNat (nibbles v) % 2 ^ 32) 4 (by omega) (by decide)
        refine h (.inr (.inr (.inr (.inr (.inr (.inl ⟨ht, ?_, hn, by omega, ?_⟩))))))
        · apply Classical.byContradiction
          intro h2
          have h2 : 10 ^ (2 * v.length) ≤ 10 ^ 2 := Nat.pow_le_pow_right (by decide) (by omega)
          have := digits_le (decNat (nibbles v) % 2 ^ 32) 2 (by omega) (by decide)
          omega
        · apply Classical.byContradiction
          intro h2
          have := digits_le (decNat (nibbles v) % 2 ^ 32) 3 (by omega) (by decide)
          omega
      · have h0 : max ≠ 0 := by rintro rfl; exact absurd t2 (by decide)
        have := number_fits max v str t2 hn hv (hm h0) (hd h0)
        omega
  | track2 => exact fun hx => h (.inr (.inr (.inr (.inl ⟨t3 hh, hx⟩))))
  | amount => exact fun hx => h (.inr (.inr (.inr (.inr (.inl ⟨t4 hh, hx⟩)))))
  | capdu => exact fun hx => h (.inr (.inr (.inr (.inr (.inr (.inr (.inr ⟨t5 hh, hx⟩)))))))
  | date => exact fun hx => h (.inr (.inl ⟨t6 hh, hx⟩))
  | time => exact fun hx => h (.inr (.inr (.inl ⟨t7 hh, hx⟩)))
  | txnType => exact first (by rw [hh]; decide)
  | account => exact first (by rw [hh]; decide)
  | cid => exact first (by rw [hh]; decide)
  | termType => exact first (by rw [hh]; decide)
  | posEntry => exact first (by rw [hh]; decide)
  | _ => trivial

/-- The function ended without undefined behaviour and only the output was written, which from
three bytes on holds a terminated string. -/
def Ends (r : C (Int × Info × List Byte)) (str : List Byte) : Prop :=
  ∃ c info out, r = .ok (c, info, out) ∧ out.length = str.length ∧ (3 ≤ str.length → 0 ∈ out)

theorem ends_named (n : List Byte) (f : Fmt) (r : C (Int × List Byte)) (str : List Byte)
    (h : Fine r (str.set 0 0)) : Ends (named n f r) str := by
  obtain ⟨c, out, rfl, hl, h0⟩ := h
  refine ⟨c, _, out, rfl, by simpa using hl, fun h3 => h0 (by simpa using h3) ?_⟩
  exact zero_mem_set str (by rintro rfl; simp at h3)

theorem ends_unnamed (str : List Byte) : Ends (unnamed (str.set 0 0)) str :=
  ⟨1, _, _, rfl, by simp, fun h3 => zero_mem_set str (by rintro rfl; simp at h3)⟩

/-- **C84** (partial).  For every tag, every value and every output, the description of a field
reads only the value and writes only the output, which from three bytes on holds a terminated
string.  Missing: the cases of `Undefined`, in which it does not (`C84_undefined`). -/
theorem C84_safe_partial (env : Env) (he : Sane env) (tag : Nat) (v str : List Byte)
    (h : ¬ Undefined tag v str) :
    Ends (getInfo env tag v str) str := by
  by_cases h66 : tag = 0x9F66
  · subst h66
    by_cases hl : v.length = 4
    · rw [(C83_9F66 env v str).1 hl]
      exact ends_named _ _ _ _ (fine_describe Bits.C72_ttq v _)
    · rw [(C83_9F66 env v str).2 hl]; exact ends_unnamed str
  by_cases h6D : tag = 0x9F6D
  · subst h6D
    by_cases hl : v.length = 1
    · match v, hl with
      | [b], _ =>
        rw [(C83_9F6D env [b] str).1 b rfl]
        exact ends_named _ _ _ _ (fine_readerCaps b _)
    · rw [(C83_9F6D env v str).2 hl]; exact ends_unnamed str
  by_cases h6E : tag = 0x9F6E
  · subst h6E
    obtain ⟨c1, c2, c3, c4, c5⟩ := C83_9F6E env str
    by_cases hl : 4 < v.length ∧ v.length ≤ 32
    · rw [c1 v hl.1 hl.2]
      apply ends_named
      by_cases hs : str = []
      · subst hs
        simp only [List.set_nil]
        rw [ThirdParty.getStringList, if_neg (by omega), if_pos (by simp)]
        exact fine_same _ _
      · apply fine_third
        rintro ⟨h5, hb⟩
        exact h (.inr (.inr (.inr (.inr (.inr (.inr (.inl ⟨rfl, h5, hb, hs⟩)))))))
    by_cases hl4 : v.length = 4
    · match v, hl4 with
      | [a, b, c, d], _ =>
        by_cases hv : VisaFfi a c d
        · rw [c2 a b c d hv]; exact ends_named _ _ _ _ (fine_ffi _ _)
        by_cases ha : AmexCaps a b c d
        · rw [c3 a b c d ha]
          exact ends_named _ _ _ _ (fine_describe Bits.C72_amex_enh _ _)
        · rw [c4 a b c d hv ha]; exact ends_unnamed str
    · rw [c5 v (by omega)]; exact ends_unnamed str
  cases hf : table.find? (fun e => e.tag == tag) with
  | none =>
    rw [getInfo_eq, byTag, if_neg h66, if_neg h6D, if_neg h6E, hf]
    exact ends_unnamed str
  | some e =>
    rw [getInfo_entry env tag v str e ⟨h66, h6D, h6E⟩ hf]
    apply ends_named
    have ht : e.tag = tag := by simpa using List.find?_some hf
    have hsafe := entry_safe e (List.mem_of_find?_eq_some hf) v (str.set 0 0)
      (by
        intro hu
        apply h
        rw [ht] at hu
        simpa only [Undefined, List.length_set, ne_eq, List.set_eq_nil_iff] using hu)
    rw [ht] at hsafe
    exact handler_fine env he tag _ v _ hsafe

/-! ## The exceptions are real -/

theorem digits_four (n : Nat) (h : 1000 ≤ n) : 4 ≤ (Str.digits n).length := by
  have p : ∀ m, 0 < (Str.digits m).length := fun m => List.length_pos_iff.2 (Str.digits_ne_nil m)
  rw [Str.digits, if_neg (by omega), Str.digits, if_neg (by omega), Str.digits, if_neg (by omega)]
  have := p (n / 10 / 10 / 10)
  simp only [List.length_append, List.length_cons, List.length_nil]
  omega

theorem entry_handler (env : Env) (tag : Nat) (h : Handler) (v str : List Byte)
    (ht : ¬ Shared tag) (hh : handlerOf tag = some h) :
    ∃ n f, getInfo env tag v str = named n f (h.run env tag v (str.set 0 0)) := by
  obtain ⟨e, he, rfl⟩ := entry_of hh
  exact ⟨e.name, e.fmt, getInfo_entry env tag v str e
    ⟨fun h => ht (.inl h), fun h => ht (.inr (.inl h)), fun h => ht (.inr (.inr h))⟩ he⟩

theorem named_error (n : List Byte) (f : Fmt) (u : UB) : named n f (.error u) = .error u := rfl

/-- **C84 fails** in each of the cases of `Undefined`: an empty value of a field of one byte is read,
correct dates and times overflow a local array, and track 2 data, binary amounts and service codes
can overflow the output; Third Party Data of five bytes and short issuer script commands are read
past their end. -/
theorem C84_undefined (env : Env) (tag : Nat) (v str : List Byte) (h : Undefined tag v str) :
    getInfo env tag v str = .error .oobRead ∨ getInfo env tag v str = .error .oobWrite := by
  have conv : ∀ hd, ¬ Shared tag → handlerOf tag = some hd →
      (hd.run env tag v (str.set 0 0) = .error .oobRead ∨
        hd.run env tag v (str.set 0 0) = .error .oobWrite) →
      getInfo env tag v str = .error .oobRead ∨ getInfo env tag v str = .error .oobWrite := by
    intro hd h1 h2 h3
    obtain ⟨n, f, e⟩ := entry_handler env tag hd v str h1 h2
    rw [e]
    rcases h3 with h3 | h3 <;> rw [h3]
    · exact .inl rfl
    · exact .inr rfl
  have rd0 : rd ([] : List Byte) 0 = .error .oobRead := rfl
  rcases h with ⟨ht, rfl⟩ | ⟨ht, h1, h2, h3⟩ | ⟨rfl, h1, h2, h3⟩ | ⟨rfl, h1, h2, h3⟩ |
    ⟨ht, h1, h2, h3, h4⟩ | ⟨rfl, h1, h2, h3, h4⟩ | ⟨rfl, h1, h2, h3⟩ | ⟨rfl, h1, h2⟩
  · simp only [List.mem_cons, List.not_mem_nil, or_false] at ht
    rcases ht with rfl | rfl | rfl | rfl | rfl
    · exact conv .txnType (by decide) (by decide +kernel) (.inl rfl)
    · exact conv .account (by decide) (by decide +kernel) (.inl rfl)
    · exact conv .cid (by decide) (by decide +kernel) (.inl rfl)
    · exact conv .termType (by decide) (by decide +kernel) (.inl rfl)
    · exact conv .posEntry (by decide) (by decide +kernel) (.inl rfl)
  · have := (Str.C50_overflow v (str.set 0 0) h1 h2).1 (by simpa using h3)
    simp only [List.mem_cons, List.not_mem_nil, or_false] at ht
    rcases ht with rfl | rfl | rfl
    all_goals exact conv .date (by decide) (by decide +kernel) (.inr this)
  · exact conv .time (by decide) (by decide +kernel)
      (.inr ((Str.C50_overflow v (str.set 0 0) h1 h2).2 (by simpa using h3)))
  · exact conv .track2 (by decide) (by decide +kernel)
      (.inr (Str.C54_overflow v (str.set 0 0) h1 (by simpa using h2) (by simpa using h3)))
  · have hv : 0 < v.length := List.length_pos_iff.2 h1
    have hlt : beNat v < 2 ^ 32 := by
      have := beNat_lt v
      have : 256 ^ v.length ≤ 256 ^ 4 := Nat.pow_le_pow_right (by omega) h2
      omega
    have : Str.amountGetString v (str.set 0 0) = .error .oobWrite := by
      rw [Str.amountGetString, if_neg (by omega), if_neg (by simp only [List.length_set]; omega),
        (C11_decode v).1 (by omega) h2, bind_ok]
      exact Str.C53_overflow _ _ hlt (by simpa using h3) (by simpa using h4)
    simp only [List.mem_cons, List.not_mem_nil, or_false] at ht
    rcases ht with rfl | rfl | rfl | rfl
    all_goals exact conv .amount (by decide) (by decide +kernel) (.inr this)
  · apply conv (.value .n 3) (by decide) (by decide +kernel)
    right
    have hv : v ≠ [] := by rintro rfl; simp at h1
    have hlt := number_lt v h2
    rw [h1] at hlt
    have hlt : decNat (nibbles v) < 2 ^ 32 := by omega
    simp only [Handler.run]
    rw [valueString, if_neg (by simp only [List.length_set]; omega), if_pos (by decide),
      show lengthError .n 3 v.length = none by rw [lengthError, if_neg (by omega)]]
    simp only
    rw [if_neg (by simp; omega), byFormat, formatN_uint v _ hv h2, Nat.mod_eq_of_lt hlt,
      Str.C53_overflow _ _ hlt (by simp; omega) (by have := digits_four _ h4; simp; omega)]
    rfl
  · rw [(C83_9F6E env str).1 v (by omega) (by omega)]
    match v, h1 with
    | [c0, c1, u0, u1, x], _ =>
      rw [ThirdParty.C57_overread env.countryNum c0 c1 u0 u1 x (str.set 0 0) (by simpa using h3)
        (by simpa using h2)]
      exact .inl rfl
  · refine conv .capdu (by decide) (by decide +kernel) (.inl ?_)
    have hv : v ≠ [] := by
      rintro rfl
      rcases h1 with h1 | h1
      · exact absurd h1.1 (by decide)
      · exact absurd h1.1 (by decide)
    exact (Capdu.C56_exact v (str.set 0 0) hv (by simpa using h2)).1.2 h1

/-- An output of 129 bytes and no defect in the field are not enough: the date of every
transaction. -/
example : Undefined 0x9A [0x24, 0x12, 0x31] (List.replicate 129 0) := by
  right; left; decide +kernel
example : getInfo noTables 0x9A [0x24, 0x12, 0x31] (List.replicate 129 0) = .error .oobWrite := by
  decide +kernel
example : Sane noTables :=
  ⟨fun _ _ (h : none = some _) => (nomatch h), fun _ _ (h : none = some _) => (nomatch h),
    fun _ => rfl, rfl, fun _ => rfl, fun _ => rfl, rfl⟩
example : ¬ Undefined 0x82 [0x19, 0x80] (List.replicate 129 0) := by
  simp [Undefined]

end Verif.TlvInfo
