import Verif.DecodeLemmas
import Verif.IadProps
import Verif.ThirdPartyProps
import Verif.NamesProps
import Verif.PrintProps
import Verif.PrintEmvProps
import Verif.PrintCardProps
import Verif.PrintEventProps

/-! # C99: what the decoder shows for a field -/

set_option autoImplicit false

namespace Verif.Decode
open Verif StrList Bits Formats

/-! ## Specification -/

/-- The local arrays have their sizes. -/
def Sized (loc : Locals) : Prop :=
  loc.str1.length = 1024 ∧ loc.str2.length = 2048 ∧ loc.ber.length = 1024 ∧ loc.sw.length = 1024 ∧
  loc.atr.length = 1024 ∧ loc.hist.length = 1024 ∧ ∀ t v, (loc.emv t v).length = 2048

/-- The name of the field a mode decodes, its length and that length in words. -/
def fixed : Mode → Option (List Byte × Nat × List Byte)
  | .termType => some (txt!"EMV Terminal Type (field 9F35)", 1, txt!"1 byte")
  | .termCaps => some (txt!"EMV Terminal Capabilities (field 9F33)", 3, txt!"3 bytes")
  | .addlTermCaps => some (txt!"EMV Additional Terminal Capabilities (field 9F40)", 5, txt!"5 bytes")
  | .cvmResults =>
    some (txt!"EMV Cardholder Verification Method (CVM) Results (field 9F34)", 3, txt!"3 bytes")
  | .tvr => some (txt!"EMV Terminal Verification Results (field 95)", 5, txt!"5 bytes")
  | .tsi => some (txt!"EMV Transaction Status Information (field 9B)", 2, txt!"2 bytes")
  | .ttq => some (txt!"EMV Terminal Transaction Qualifiers (field 9F66)", 4, txt!"4 bytes")
  | .ctq => some (txt!"EMV Card Transaction Qualifiers (field 9F6C)", 2, txt!"2 bytes")
  | .amexClReaderCaps => some (txt!"Amex Contactless Reader Capabilities (field 9F6D)", 1, txt!"1 byte")
  | .ffi => some (txt!"Visa Form Factor Indicator (field 9F6E)", 4, txt!"4 bytes")
  | .amexEnh =>
    some (txt!"Amex Enhanced Contactless Reader Capabilities (field 9F6E)", 4, txt!"4 bytes")
  | .trmd => some (txt!"Terminal Risk Management Data (field 9F1D)", 8, txt!"8 bytes")
  | _ => none

/-- The lines that describe such a field, by the tables of C70, C72, C73 and C80. -/
def lines : Mode → List Byte → List (List Byte)
  | .termType, v => shown termTypeRows v
  | .termCaps, v => shown termCapsRows v
  | .addlTermCaps, v => shown addlTermCapsRows v
  | .cvmResults, [a, b, c] => Lists.resultLines a b c
  | .tvr, v => shown tvrRows v
  | .tsi, v => shown tsiRows v
  | .ttq, v => shown ttqRows v
  | .ctq, v => shown ctqRows v
  | .amexClReaderCaps, [b] => [Names.readerCapsName (bitSet [b] (1, 8)) (bitSet [b] (1, 7)) (bitSet [b] (1, 4))]
  | .ffi, v => ffiLines v
  | .amexEnh, v => shown amexEnhRows v
  | .trmd, v => shown trmdRows v
  | _, _ => []

/-- The fields that are only flags. -/
def Flags (m : Mode) : Prop := m = .tvr ∨ m = .tsi ∨ m = .ctq ∨ m = .trmd

/-! ## Fields of fixed length -/

/-- **C99** (length).  A field of any other length is not described. -/
theorem C99_length (t : Tables) (loc : Locals) (help : List Byte) (pad : Bool) (arg data : List Byte)
    (m : Mode) (name words : List Byte) (n : Nat) (hm : fixed m = some (name, n, words))
    (hn : data.length ≠ n) :
    decode t loc help pad arg data m =
      .ok ⟨[], name ++ txt!" must be exactly " ++ words ++ [0x0A]⟩ := by
  cases m <;> simp only [fixed, Option.some.injEq, Prod.mk.injEq, reduceCtorEq] at hm <;>
    obtain ⟨rfl, rfl, rfl⟩ := hm <;>
    (rw [decode, field_bad (by simpa using hn)]; exact congrArg (fun x => Except.ok (Shown.mk [] x)) (by decide))

example : decode ⟨TlvInfo.noTables, fun _ => none, fun _ => none⟩ ⟨[], [], [], [], [], [], fun _ _ => []⟩ [] false []
    [0x12, 0x34] .tvr = .ok ⟨[], txt!"EMV Terminal Verification Results (field 95) must be exactly 5 bytes" ++ [0x0A]⟩ := by
  rfl

theorem result_short (a b c : Byte) : (text (Lists.resultLines a b c)).length < 1024 := by
  have h1 : ∀ a : Byte, (txt!"CVM Performed: " ++
      (if a.toNat = 0x3F then txt!"CVM not performed" else Lists.methodText a)).length < 300 := by
    decide +kernel
  have h2 : ∀ b : Byte, (txt!"CVM Condition: " ++
      Lists.conditionText txt!"X" txt!"Y" b.toNat).length < 300 := by decide +kernel
  have h3 : ∀ c : Byte, (Lists.cvmResultText c).length < 300 := by decide +kernel
  have h1 := h1 a
  have h2 := h2 b
  have h3 := h3 c
  have e : ∀ x y z : List Byte, (text [x, y, z]).length = x.length + y.length + z.length + 3 := by
    intro x y z
    simp [text]
    omega
  rw [Lists.resultLines, ← Lists.cvmResultText_spec, e]
  omega

theorem result_clean (a b c : Byte) : ∀ s ∈ Lists.resultLines a b c, ∀ x ∈ s, x ≠ 0 := by
  have h1 : ∀ a : Byte, ∀ x ∈ txt!"CVM Performed: " ++
      (if a.toNat = 0x3F then txt!"CVM not performed" else Lists.methodText a), x ≠ 0 := by
    decide +kernel
  have h2 : ∀ b : Byte, ∀ x ∈ txt!"CVM Condition: " ++
      Lists.conditionText txt!"X" txt!"Y" b.toNat, x ≠ 0 := by decide +kernel
  have h3 : ∀ c : Byte, ∀ x ∈ Lists.cvmResultText c, x ≠ 0 := by decide +kernel
  intro s hs
  rw [Lists.resultLines, ← Lists.cvmResultText_spec] at hs
  simp only [ List.mem_cons, List.not_mem_nil, or_false] at hs
  rcases hs with rfl | rfl | rfl
  · exact h1 a
  · exact h2 b
  · exact h3 c

theorem fits {rows : List Row} {k : Nat} (f : List Byte) (h : (rows.map cost).sum < k) :
    (text (shown rows f)).length < k := Nat.lt_of_le_of_lt (shown_cost rows f) h

theorem ffi_cases (f : List Byte) :
    ffiLines f = shown ffiRows f ∨ ∃ k, k < 8 ∧ ffiLines f = ffiLines [UInt8.ofNat (k * 32)] ∧ k ≠ 1 := by
  have hk : bitsVal f 1 8 6 < 8 := Nat.mod_lt _ (by decide)
  have e : ∀ k, k < 8 → bitsVal [UInt8.ofNat (k * 32)] 1 8 6 = k := by decide +kernel
  by_cases h1 : bitsVal f 1 8 6 = 1
  · left; simp only [ffiLines, h1]
  · right
    refine ⟨bitsVal f 1 8 6, hk, ?_, h1⟩
    have := e _ hk
    rw [ffiLines, ffiLines, this]
    split <;> first | rfl | omega

theorem ffi_lines (f : List Byte) : ffiLines f ≠ [] ∧ (text (ffiLines f)).length < 2048 ∧
    ∀ x ∈ text (ffiLines f), x ≠ 0 := by
  rcases ffi_cases f with h | ⟨k, hk, h, h1⟩
  · rw [h]
    refine ⟨?_, fits _ (by decide +kernel), shown_clean _ _ (by decide +kernel)⟩
    have h2 : ∀ k, k < 32 → (valText [(0, some txt!"Consumer Payment Device Form Factor: Card"),
       (1, some txt!"Consumer Payment Device Form Factor: Mini-card"),
       (2, some txt!"Consumer Payment Device Form Factor: Non-card Form Factor"),
       (3, some txt!"Consumer Payment Device Form Factor: Consumer mobile phone"),
       (4, some txt!"Consumer Payment Device Form Factor: Wrist-worn device")]
       (some txt!"Consumer Payment Device Form Factor: Unknown") k).toList ≠ [] := by decide +kernel
    rw [ffiRows, shown, List.flatMap_cons, Row.shown]
    intro h0
    exact h2 (bitsVal f 1 5 1) (Nat.mod_lt _ (by decide)) (List.append_eq_nil_iff.1 h0).1
  · rw [h]
    have : ∀ k, k < 8 → k ≠ 1 → ffiLines [UInt8.ofNat (k * 32)] ≠ [] ∧
        (text (ffiLines [UInt8.ofNat (k * 32)])).length < 2048 ∧
        ∀ x ∈ text (ffiLines [UInt8.ofNat (k * 32)]), x ≠ 0 := by decide +kernel
    exact this k hk h1

theorem held_cstr (n : Nat) (t : List Byte) (h : t.length < n - 1) (hz : ∀ b ∈ t, b ≠ 0) :
    Capdu.cstr (Names.held n t) = .ok t := by
  rw [Names.held, List.take_of_length_le (by omega), Nat.min_eq_right (by omega)]
  obtain ⟨k, hk⟩ : ∃ k, n - t.length = k + 1 := ⟨n - t.length - 1, by omega⟩
  rw [hk, List.replicate_succ]
  exact Capdu.cstr_spec t _ hz

/-- **C99** (fields).  A field of the right length is shown by the lines of its table and nothing else.
Missing: fields of flags none of which is set (`C99_uninitialised`), and Additional Terminal
Capabilities whose description does not fit the array it is made in (`C99_truncated`). -/
theorem C99_field_partial (t : Tables) (loc : Locals) (help : List Byte) (pad : Bool)
    (arg data : List Byte) (m : Mode) (name words : List Byte) (n : Nat)
    (hm : fixed m = some (name, n, words)) (hn : data.length = n) (hl : Sized loc)
    (hr : t.env.locRes.length = 128)
    (h0 : m = .termType → data ≠ [0]) (hf : Flags m → lines m data ≠ [])
    (ha : m = .addlTermCaps → (text (lines m data)).length < 1024) :
    decode t loc help pad arg data m = .ok ⟨text (lines m data), []⟩ := by
  obtain ⟨l1, l2, -⟩ := hl
  have n1 : loc.str1 ≠ [] := by intro h; simp [h] at l1
  have n2 : loc.str2 ≠ [] := by intro h; simp [h] at l2
  cases m <;> simp only [fixed, Option.some.injEq, Prod.mk.injEq, reduceCtorEq] at hm <;>
    obtain ⟨rfl, rfl, rfl⟩ := hm <;> simp only [decode, hn, beq_self_eq_true] <;>
    simp only [lines] at hf ha ⊢
  case termType =>
    obtain ⟨b, rfl⟩ : ∃ b, data = [b] := by
      match data, hn with
      | [b], _ => exact ⟨b, rfl⟩
    have hb : b ≠ 0 := fun h => h0 rfl (by rw [h])
    have e := termType_fits b hb loc.str1 (by rw [l1]; exact fits _ (by decide +kernel))
    have := field_ok (bad := txt!"EMV Terminal Type (field 9F35) must be exactly 1 byte")
      (fail := txt!"Failed to parse EMV Terminal Type (field 9F35)") (tail := [])
      (get := firstByte (fun b => termTypeList b loc.str1) [b]) e (cstr_over _ _
        (shown_clean termTypeRows [b] (by decide +kernel)))
    rwa [List.append_nil] at this
  case termCaps =>
    exact field_rows C72_term_caps (by decide +kernel) data loc.str1 _ _ n1 hn
      ((C72_lines data).1 hn) (by rw [l1]; exact fits _ (by decide +kernel))
  case addlTermCaps =>
    exact field_rows C72_addl_term_caps (by decide +kernel) data loc.str1 _ _ n1 hn
      ((C72_lines data).2.1 hn) (by rw [l1]; exact ha trivial)
  case tvr =>
    exact field_rows C70_tvr_partial (by decide +kernel) data loc.str2 _ _ n2 hn
      (hf (by simp [Flags])) (by rw [l2]; exact fits _ (by decide +kernel))
  case tsi =>
    exact field_rows C70_tsi_partial (by decide +kernel) data loc.str2 _ _ n2 hn
      (hf (by simp [Flags])) (by rw [l2]; exact fits _ (by decide +kernel))
  case ctq =>
    exact field_rows C70_ctq_partial (by decide +kernel) data loc.str2 _ _ n2 hn
      (hf (by simp [Flags])) (by rw [l2]; exact fits _ (by decide +kernel))
  case trmd =>
    exact field_rows C70_trmd_partial (by decide +kernel) data loc.str2 _ _ n2 hn
      (hf (by simp [Flags])) (by rw [l2]; exact fits _ (by decide +kernel))
  case ttq =>
    exact field_rows C72_ttq (by decide +kernel) data loc.str2 _ _ n2 hn
      ((C72_lines data).2.2.1) (by rw [l2]; exact fits _ (by decide +kernel))
  case amexEnh =>
    exact field_rows C72_amex_enh (by decide +kernel) data loc.str2 _ _ n2 hn
      ((C72_lines data).2.2.2) (by rw [l2]; exact fits _ (by decide +kernel))
  case ffi =>
    obtain ⟨h1, h2, h3⟩ := ffi_lines data
    obtain ⟨str', e, -, -, -, h⟩ := C72_ffi.2 data loc.str2 n2 hn
    rw [h h1 (by rw [l2]; exact h2)] at e
    rw [field_ok e (cstr_over _ _ h3), List.append_nil]
  case cvmResults =>
    obtain ⟨a, b, c, rfl⟩ : ∃ a b c, data = [a, b, c] := by
      match data, hn with
      | [a, b, c], _ => exact ⟨a, b, c, rfl⟩
    obtain ⟨str', e, h⟩ := (Lists.C73_results t.env.locRes hr).2 a b c loc.str1 n1
    rw [field_ok e (shows_out h (by simp [Lists.resultLines]) (result_clean a b c)
      (by rw [l1]; exact result_short a b c)), List.append_nil]
  case amexClReaderCaps =>
    obtain ⟨b, rfl⟩ : ∃ b, data = [b] := by
      match data, hn with
      | [b], _ => exact ⟨b, rfl⟩
    have e := (Names.C80_reader_caps b loc.str1).2 n1
    have hc : ∀ x y z : Bool, (Names.readerCapsName x y z).length < 1023 ∧
      ∀ c ∈ Names.readerCapsName x y z, c ≠ 0 := by decide +kernel
    have hb : ∀ b : Byte, Names.readerCapsName (b.toNat / 128 % 2 == 1) (b.toNat / 64 % 2 == 1)
        (b.toNat / 8 % 2 == 1) =
        Names.readerCapsName (bitSet [b] (1, 8)) (bitSet [b] (1, 7)) (bitSet [b] (1, 4)) := by
      decide +kernel
    rw [l1, hb] at e
    have := field_ok
      (bad := txt!"Amex Contactless Reader Capabilities (field 9F6D) must be exactly 1 byte")
      (fail := txt!"Failed to parse Amex Contactless Reader Capabilities (field 9F6D)")
      (tail := [0x0A])
      (get := firstByte (fun b => Names.readerCaps b loc.str1) [b]) e
      (held_cstr _ _ (hc _ _ _).1 (hc _ _ _).2)
    rw [text_one]
    exact this

end Verif.Decode
