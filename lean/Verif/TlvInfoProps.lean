import Verif.TlvInfoLemmas

/-! # C82 to C84: the description of any TLV field -/

set_option autoImplicit false

namespace Verif.TlvInfo
open Verif Formats BerSpec

/-! ## Specification -/

/-- The sets of characters of EMV Book 3 section 4.3 and Book 1 section 12.2.4. -/
inductive Kind where
  | letters | alnum | alnumSpace | common | any
  deriving DecidableEq, Repr

/-- Is this character in the set? -/
def Kind.Ok : Kind → Byte → Prop
  | .letters => Str.IsA
  | .alnum => Str.IsAn
  | .alnumSpace => Str.IsAnSpace
  | .common => Str.IsCcs
  | .any => fun _ => True

/-- Fields of characters: tag, characters, maximum number of characters (0: no maximum) according
to EMV Book 3 annex A1. -/
def charFields : List (Nat × Kind × Nat) :=
  [(0x50, .alnumSpace, 16), (0x56, .common, 76), (0x89, .common, 6), (0x5F20, .common, 26),
   (0x5F50, .common, 0), (0x5F53, .alnum, 34), (0x5F54, .alnum, 11), (0x9F0B, .common, 45),
   (0x9F12, .any, 16), (0x9F16, .common, 15), (0x9F1C, .alnum, 8), (0x9F1E, .alnum, 8),
   (0x9F1F, .common, 0), (0x9F24, .alnum, 29), (0x9F4E, .common, 0)]

/-- Fields of compressed numeric digits, with the maximum number of digits. -/
def digitFields : List (Nat × Nat) := [(0x5A, 19), (0x9F20, 0)]

/-- Fields of a number, with the maximum number of digits. -/
def numberFields : List (Nat × Nat) :=
  [(0x42, 6), (0x5F30, 3), (0x9F01, 11), (0x9F02, 12), (0x9F03, 12), (0x9F0C, 8), (0x9F25, 4),
   (0x9F41, 8)]

/-- The tags declared in emv_tags.h with the words of their identifiers there, except those used
for several purposes (9F66, 9F6D and 9F6E). -/
def declared : List (Nat × List (List Byte)) :=
  [(0x42, [txt!"IIN"]),
   (0x4F, [txt!"APPLICATION", txt!"DF", txt!"NAME"]),
   (0x50, [txt!"APPLICATION", txt!"LABEL"]),
   (0x56, [txt!"TRACK1", txt!"DATA"]),
   (0x57, [txt!"TRACK2", txt!"EQUIVALENT", txt!"DATA"]),
   (0x5A, [txt!"APPLICATION", txt!"PAN"]),
   (0x61, [txt!"APPLICATION", txt!"TEMPLATE"]),
   (0x6F, [txt!"FCI", txt!"TEMPLATE"]),
   (0x70, [txt!"DATA", txt!"TEMPLATE"]),
   (0x71, [txt!"ISSUER", txt!"SCRIPT", txt!"TEMPLATE", txt!"1"]),
   (0x72, [txt!"ISSUER", txt!"SCRIPT", txt!"TEMPLATE", txt!"2"]),
   (0x73, [txt!"DIRECTORY", txt!"DISCRETIONARY", txt!"TEMPLATE"]),
   (0x77, [txt!"RESPONSE", txt!"MESSAGE", txt!"TEMPLATE", txt!"FORMAT", txt!"2"]),
   (0x80, [txt!"RESPONSE", txt!"MESSAGE", txt!"TEMPLATE", txt!"FORMAT", txt!"1"]),
   (0x81, [txt!"AMOUNT", txt!"AUTHORISED", txt!"BINARY"]),
   (0x82, [txt!"APPLICATION", txt!"INTERCHANGE", txt!"PROFILE"]),
   (0x83, [txt!"COMMAND", txt!"TEMPLATE"]),
   (0x84, [txt!"DF", txt!"NAME"]),
   (0x86, [txt!"ISSUER", txt!"SCRIPT", txt!"COMMAND"]),
   (0x87, [txt!"APPLICATION", txt!"PRIORITY", txt!"INDICATOR"]),
   (0x88, [txt!"SFI"]),
   (0x89, [txt!"AUTHORISATION", txt!"CODE"]),
   (0x8A, [txt!"AUTHORISATION", txt!"RESPONSE", txt!"CODE"]),
   (0x8C, [txt!"CDOL1"]),
   (0x8D, [txt!"CDOL2"]),
   (0x8E, [txt!"CVM", txt!"LIST"]),
   (0x8F, [txt!"CERTIFICATION", txt!"AUTHORITY", txt!"PUBLIC", txt!"KEY", txt!"INDEX"]),
   (0x90, [txt!"ISSUER", txt!"PUBLIC", txt!"KEY", txt!"CERTIFICATE"]),
   (0x91, [txt!"ISSUER", txt!"AUTHENTICATION", txt!"DATA"]),
   (0x92, [txt!"ISSUER", txt!"PUBLIC", txt!"KEY", txt!"REMAINDER"]),
   (0x93, [txt!"SIGNED", txt!"STATIC", txt!"APPLICATION", txt!"DATA"]),
   (0x94, [txt!"APPLICATION", txt!"FILE", txt!"LOCATOR"]),
   (0x95, [txt!"TERMINAL", txt!"VERIFICATION", txt!"RESULTS"]),
   (0x9A, [txt!"TRANSACTION", txt!"DATE"]),
   (0x9B, [txt!"TRANSACTION", txt!"STATUS", txt!"INFORMATION"]),
   (0x9C, [txt!"TRANSACTION", txt!"TYPE"]),
   (0x9D, [txt!"DDF", txt!"NAME"]),
   (0xA5, [txt!"FCI", txt!"PROPRIETARY", txt!"TEMPLATE"]),
   (0x5F20, [txt!"CARDHOLDER", txt!"NAME"]),
   (0x5F24, [txt!"APPLICATION", txt!"EXPIRATION", txt!"DATE"]),
   (0x5F25, [txt!"APPLICATION", txt!"EFFECTIVE", txt!"DATE"]),
   (0x5F28, [txt!"ISSUER", txt!"COUNTRY", txt!"CODE"]),
   (0x5F2A, [txt!"TRANSACTION", txt!"CURRENCY", txt!"CODE"]),
   (0x5F2D, [txt!"LANGUAGE", txt!"PREFERENCE"]),
   (0x5F30, [txt!"SERVICE", txt!"CODE"]),
   (0x5F34, [txt!"APPLICATION", txt!"PAN", txt!"SEQUENCE", txt!"NUMBER"]),
   (0x5F36, [txt!"TRANSACTION", txt!"CURRENCY", txt!"EXPONENT"]),
   (0x5F50, [txt!"ISSUER", txt!"URL"]),
   (0x5F53, [txt!"IBAN"]),
   (0x5F54, [txt!"BANK", txt!"IDENTIFIER", txt!"CODE"]),
   (0x5F55, [txt!"ISSUER", txt!"COUNTRY", txt!"CODE", txt!"ALPHA2"]),
   (0x5F56, [txt!"ISSUER", txt!"COUNTRY", txt!"CODE", txt!"ALPHA3"]),
   (0x5F57, [txt!"ACCOUNT", txt!"TYPE"]),
   (0x9F01, [txt!"ACQUIRER", txt!"IDENTIFIER"]),
   (0x9F02, [txt!"AMOUNT", txt!"AUTHORISED", txt!"NUMERIC"]),
   (0x9F03, [txt!"AMOUNT", txt!"OTHER", txt!"NUMERIC"]),
   (0x9F04, [txt!"AMOUNT", txt!"OTHER", txt!"BINARY"]),
   (0x9F05, [txt!"APPLICATION", txt!"DISCRETIONARY", txt!"DATA"]),
   (0x9F06, [txt!"AID"]),
   (0x9F07, [txt!"APPLICATION", txt!"USAGE", txt!"CONTROL"]),
   (0x9F08, [txt!"APPLICATION", txt!"VERSION", txt!"NUMBER"]),
   (0x9F09, [txt!"APPLICATION", txt!"VERSION", txt!"NUMBER", txt!"TERMINAL"]),
   (0x9F0A, [txt!"ASRPD"]),
   (0x9F0B, [txt!"CARDHOLDER", txt!"NAME", txt!"EXTENDED"]),
   (0x9F0C, [txt!"IINE"]),
   (0x9F0D, [txt!"ISSUER", txt!"ACTION", txt!"CODE", txt!"DEFAULT"]),
   (0x9F0E, [txt!"ISSUER", txt!"ACTION", txt!"CODE", txt!"DENIAL"]),
   (0x9F0F, [txt!"ISSUER", txt!"ACTION", txt!"CODE", txt!"ONLINE"]),
   (0x9F10, [txt!"ISSUER", txt!"APPLICATION", txt!"DATA"]),
   (0x9F11, [txt!"ISSUER", txt!"CODE", txt!"TABLE", txt!"INDEX"]),
   (0x9F12, [txt!"APPLICATION", txt!"PREFERRED", txt!"NAME"]),
   (0x9F13, [txt!"LAST", txt!"ONLINE", txt!"ATC", txt!"REGISTER"]),
   (0x9F14, [txt!"LOWER", txt!"CONSECUTIVE", txt!"OFFLINE", txt!"LIMIT"]),
   (0x9F15, [txt!"MCC"]),
   (0x9F16, [txt!"MERCHANT", txt!"IDENTIFIER"]),
   (0x9F17, [txt!"PIN", txt!"TRY", txt!"COUNTER"]),
   (0x9F18, [txt!"ISSUER", txt!"SCRIPT", txt!"IDENTIFIER"]),
   (0x9F19, [txt!"TOKEN", txt!"REQUESTOR", txt!"ID"]),
   (0x9F1A, [txt!"TERMINAL", txt!"COUNTRY", txt!"CODE"]),
   (0x9F1B, [txt!"TERMINAL", txt!"FLOOR", txt!"LIMIT"]),
   (0x9F1C, [txt!"TERMINAL", txt!"IDENTIFICATION"]),
   (0x9F1D, [txt!"TERMINAL", txt!"RISK", txt!"MANAGEMENT", txt!"DATA"]),
   (0x9F1E, [txt!"IFD", txt!"SERIAL", txt!"NUMBER"]),
   (0x9F1F, [txt!"TRACK1", txt!"DISCRETIONARY", txt!"DATA"]),
   (0x9F20, [txt!"TRACK2", txt!"DISCRETIONARY", txt!"DATA"]),
   (0x9F21, [txt!"TRANSACTION", txt!"TIME"]),
   (0x9F22, [txt!"CERTIFICATION", txt!"AUTHORITY", txt!"PUBLIC", txt!"KEY", txt!"INDEX"]),
   (0x9F23, [txt!"UPPER", txt!"CONSECUTIVE", txt!"OFFLINE", txt!"LIMIT"]),
   (0x9F24, [txt!"PAYMENT", txt!"ACCOUNT", txt!"REFERENCE"]),
   (0x9F25, [txt!"LAST", txt!"4", txt!"DIGITS", txt!"OF", txt!"PAN"]),
   (0x9F26, [txt!"APPLICATION", txt!"CRYPTOGRAM"]),
   (0x9F27, [txt!"CRYPTOGRAM", txt!"INFORMATION", txt!"DATA"]),
   (0x9F32, [txt!"ISSUER", txt!"PUBLIC", txt!"KEY", txt!"EXPONENT"]),
   (0x9F33, [txt!"TERMINAL", txt!"CAPABILITIES"]),
   (0x9F34, [txt!"CVM", txt!"RESULTS"]),
   (0x9F35, [txt!"TERMINAL", txt!"TYPE"]),
   (0x9F36, [txt!"APPLICATION", txt!"TRANSACTION", txt!"COUNTER"]),
   (0x9F37, [txt!"UNPREDICTABLE", txt!"NUMBER"]),
   (0x9F38, [txt!"PDOL"]),
   (0x9F39, [txt!"POS", txt!"ENTRY", txt!"MODE"]),
   (0x9F3A, [txt!"AMOUNT", txt!"REFERENCE", txt!"CURRENCY"]),
   (0x9F3B, [txt!"APPLICATION", txt!"REFERENCE", txt!"CURRENCY"]),
   (0x9F3C, [txt!"TRANSACTION", txt!"REFERENCE", txt!"CURRENCY"]),
   (0x9F3D, [txt!"TRANSACTION", txt!"REFERENCE", txt!"CURRENCY", txt!"EXPONENT"]),
   (0x9F40, [txt!"ADDITIONAL", txt!"TERMINAL", txt!"CAPABILITIES"]),
   (0x9F41, [txt!"TRANSACTION", txt!"SEQUENCE", txt!"COUNTER"]),
   (0x9F42, [txt!"APPLICATION", txt!"CURRENCY", txt!"CODE"]),
   (0x9F43, [txt!"APPLICATION", txt!"REFERENCE", txt!"CURRENCY", txt!"EXPONENT"]),
   (0x9F44, [txt!"APPLICATION", txt!"CURRENCY", txt!"EXPONENT"]),
   (0x9F45, [txt!"DATA", txt!"AUTHENTICATION", txt!"CODE"]),
   (0x9F46, [txt!"ICC", txt!"PUBLIC", txt!"KEY", txt!"CERTIFICATE"]),
   (0x9F47, [txt!"ICC", txt!"PUBLIC", txt!"KEY", txt!"EXPONENT"]),
   (0x9F48, [txt!"ICC", txt!"PUBLIC", txt!"KEY", txt!"REMAINDER"]),
   (0x9F49, [txt!"DDOL"]),
   (0x9F4A, [txt!"SDA", txt!"TAG", txt!"LIST"]),
   (0x9F4C, [txt!"ICC", txt!"DYNAMIC", txt!"NUMBER"]),
   (0x9F4D, [txt!"LOG", txt!"ENTRY"]),
   (0x9F4E, [txt!"MERCHANT", txt!"NAME", txt!"AND", txt!"LOCATION"]),
   (0x9F6C, [txt!"CTQ"]),
   (0xBF0C, [txt!"FCI", txt!"ISSUER", txt!"DISCRETIONARY", txt!"DATA"])]

/-- A name in upper case without spaces. -/
def squash (s : List Byte) : List Byte :=
  (s.filter (· ≠ 0x20)).map (fun b => if 0x61 ≤ b ∧ b ≤ 0x7A then b - 0x20 else b)

/-- BER: the tag number has a constructed encoding (bit 6 of its leading byte). -/
def Constructed (tag : Nat) : Prop := (if tag < 256 then tag else tag / 256) / 32 % 2 = 1

instance (tag : Nat) : Decidable (Constructed tag) := by unfold Constructed; infer_instance

/-- 9F6E as Visa form factor indicator: version 1, last two bytes zero. -/
def VisaFfi (a c d : Byte) : Prop := a.toNat / 32 = 1 ∧ c = 0 ∧ d = 0

/-- 9F6E as American Express reader capabilities: in byte 1 bit 6 is clear, bits 5 and 4 are set
and bits 2 and 1 are clear; in byte 2 bit 8 is set and bits 4 to 1 are clear; in byte 3 bits 6 to 1
are clear; in byte 4 bits 5 and 4 are clear and bits 3 to 1 are not all clear. -/
def AmexCaps (a b c d : Byte) : Prop :=
  a.toNat / 8 % 8 = 3 ∧ a.toNat % 4 = 0 ∧ 128 ≤ b.toNat ∧ b.toNat % 16 = 0 ∧ c.toNat % 64 = 0 ∧
  d.toNat / 8 % 4 = 0 ∧ d.toNat % 8 ≠ 0

instance (a c d : Byte) : Decidable (VisaFfi a c d) := by unfold VisaFfi; infer_instance
instance (a b c d : Byte) : Decidable (AmexCaps a b c d) := by unfold AmexCaps; infer_instance

/-- The environment: tables of C strings and local arrays of their size. -/
def Sane (env : Env) : Prop :=
  Texts env.currency ∧ Texts env.language ∧ (∀ i, (env.locCvm i).length = 128) ∧
  env.locRes.length = 128 ∧ (∀ i, (env.locCur i).length = 128) ∧
  (∀ i, (env.locLang i).length = 128) ∧ env.locArc.length = 3

/-- When the description of a field runs into undefined behaviour. -/
def Undefined (tag : Nat) (v str : List Byte) : Prop :=
  (tag ∈ [0x9C, 0x5F57, 0x9F27, 0x9F35, 0x9F39] ∧ v = []) ∨
  (tag ∈ [0x9A, 0x5F24, 0x5F25] ∧ v.length = 3 ∧ IsFormatN v ∧ 11 ≤ str.length) ∨
  (tag = 0x9F21 ∧ v.length = 3 ∧ IsFormatN v ∧ 9 ≤ str.length) ∨
  (tag = 0x57 ∧ v ≠ [] ∧ str ≠ [] ∧ str.length ≤ (Str.unpadded v).length) ∨
  (tag ∈ [0x81, 0x9F04, 0x9F1B, 0x9F3A] ∧ v ≠ [] ∧ v.length ≤ 4 ∧ 2 ≤ str.length ∧
    str.length ≤ (Str.digits (beNat v)).length) ∨
  (tag = 0x5F30 ∧ v.length = 2 ∧ IsFormatN v ∧ str.length = 4 ∧ 1000 ≤ decNat (nibbles v)) ∨
  (tag = 0x9F6E ∧ v.length = 5 ∧ (v.getD 2 0).toNat < 128 ∧ str ≠ []) ∨
  (tag = 0x86 ∧ Capdu.EmvOverreads v ∧ 4 ≤ str.length)

/-! ## C82: text -/

theorem head_set (str : List Byte) (h : str ≠ []) : (str.set 0 0).head? = some 0 := by
  match str, h with
  | _ :: _, _ => rfl

theorem value_copy {P : Byte → Prop} {f : List Byte → List Byte → C (Int × List Byte)}
    (h : Str.ValidatingCopy P f) (v str : List Byte) (hs : str ≠ []) :
    (v ≠ [] ∧ v.length < str.length ∧ (∀ b ∈ v, P b) →
      emptyOnError (f v str) = .ok (0, strOver v str)) ∧
    (¬ (v ≠ [] ∧ v.length < str.length ∧ (∀ b ∈ v, P b)) →
      ∃ c out, c ≠ 0 ∧ emptyOnError (f v str) = .ok (c, out) ∧ out.length = str.length ∧
        out.head? = some 0) := by
  refine ⟨fun hv => ?_, fun hv => ?_⟩
  · rw [(h v str).1 hv, emptyOnError_ok]
  · obtain ⟨c, str', hc, hl, e⟩ := (h v str).2 hv
    have hs' : str' ≠ [] := by rintro rfl; exact hs (by simpa using hl.symm)
    exact ⟨c, _, hc, by rw [e, emptyOnError_err c hc _ hs'], by simpa using hl, head_set _ hs'⟩

/-- The format of the code which stands for a set of characters. -/
def Kind.fmt : Kind → Fmt
  | .letters => .a
  | .alnum => .an
  | _ => .ans

/-- The tags which decide between the sets of characters of format `ans`. -/
def Kind.Fits (k : Kind) (tag : Nat) : Prop :=
  (k = .alnumSpace → tag = 0x50) ∧ (k = .any → tag = 0x9F12) ∧
  (k = .common → tag ≠ 0x50 ∧ tag ≠ 0x9F12)

instance (k : Kind) (tag : Nat) : Decidable (k.Fits tag) := by unfold Kind.Fits; infer_instance

/-- Is the field shown? -/
def Accepted (k : Kind) (max : Nat) (v str : List Byte) : Prop :=
  (v ≠ [] ∨ k = .any) ∧ (max ≠ 0 → v.length ≤ max ∧ max < str.length) ∧ v.length < str.length ∧
  ∀ b ∈ v, k.Ok b

theorem value_text (tag : Nat) (k : Kind) (max : Nat) (hk : k.Fits tag) (hm : k = .any → max ≠ 0)
    (v str : List Byte) (hs : str ≠ []) :
    (Accepted k max v str →
      valueString tag k.fmt max v (str.set 0 0) = .ok (0, strOver v str)) ∧
    (¬ Accepted k max v str →
      ∃ c out, c ≠ 0 ∧ valueString tag k.fmt max v (str.set 0 0) = .ok (c, out) ∧
        out.length = str.length ∧ out.head? = some 0) := by
  have hs' : str.set 0 0 ≠ [] := by
    intro h; exact hs (by simpa using congrArg List.length h)
  have hover := strOver_set v str hs
  obtain ⟨va, van, vas, vac⟩ := Str.C55_validation
  have by1 : (v ≠ [] ∨ k = .any) ∧ v.length < str.length ∧ (∀ b ∈ v, k.Ok b) →
      byFormat tag k.fmt v (str.set 0 0) = .ok (0, strOver v str) := by
    intro ⟨h1, h2, h3⟩
    cases k with
    | letters => rw [← hover]; exact (value_copy va v _ hs').1 ⟨by simpa using h1, by simpa using h2, h3⟩
    | alnum => rw [← hover]; exact (value_copy van v _ hs').1 ⟨by simpa using h1, by simpa using h2, h3⟩
    | alnumSpace =>
      rw [← hover, Kind.fmt.eq_def, byFormat, if_pos (hk.1 rfl)]
      exact (value_copy vas v _ hs').1 ⟨by simpa using h1, by simpa using h2, h3⟩
    | common =>
      rw [← hover, Kind.fmt.eq_def, byFormat, if_neg (hk.2.2 rfl).1, if_neg (hk.2.2 rfl).2]
      exact (value_copy vac v _ hs').1 ⟨by simpa using h1, by simpa using h2, h3⟩
    | any =>
      have ht := hk.2.1 rfl
      rw [← hover, Kind.fmt.eq_def, byFormat, if_neg (by omega), if_pos ht]
      rw [← copyName_eq v (str.set 0 0) (by simpa using h2), copyName, if_pos (by simpa using h2)]
      rfl
  have by2 : ¬ ((v ≠ [] ∨ k = .any) ∧ v.length < str.length ∧ (∀ b ∈ v, k.Ok b)) → k ≠ .any →
      ∃ c out, c ≠ 0 ∧ byFormat tag k.fmt v (str.set 0 0) = .ok (c, out) ∧
        out.length = str.length ∧ out.head? = some 0 := by
    intro h hany
    have hl : (str.set 0 0).length = str.length := by simp
    have h' : ¬ (v ≠ [] ∧ v.length < (str.set 0 0).length ∧ (∀ b ∈ v, k.Ok b)) :=
      fun ⟨a, b, c⟩ => h ⟨.inl a, by simpa using b, c⟩
    rw [← hl]
    cases k with
    | letters => exact (value_copy va v _ hs').2 h'
    | alnum => exact (value_copy van v _ hs').2 h'
    | alnumSpace =>
      rw [Kind.fmt.eq_def, byFormat, if_pos (hk.1 rfl)]
      exact (value_copy vas v _ hs').2 h'
    | common =>
      rw [Kind.fmt.eq_def, byFormat, if_neg (hk.2.2 rfl).1, if_neg (hk.2.2 rfl).2]
      exact (value_copy vac v _ hs').2 h'
    | any => exact absurd rfl hany
  have hle : lengthError k.fmt max v.length = if v.length > max then some (-2) else none := by
    cases k <;> rfl
  rw [valueString, if_neg (by simpa using hs), hle]
  by_cases h0 : max = 0
  · rw [if_neg (by omega)]
    refine ⟨fun ⟨h1, _, h3, h4⟩ => by1 ⟨h1, h3, h4⟩, fun h => by2 (fun ⟨h1, h3, h4⟩ =>
      h ⟨h1, fun hc => absurd h0 hc, h3, h4⟩) (fun hc => hm hc h0)⟩
  · rw [if_pos h0]
    by_cases h1 : v.length > max
    · rw [if_pos h1]
      refine ⟨fun ⟨_, h2, _⟩ => by have := h2 h0; omega, fun _ => ⟨-2, _, by decide, rfl, by simp, head_set _ hs⟩⟩
    · rw [if_neg h1]
      simp only
      by_cases h2 : (str.set 0 0).length < max + 1
      · rw [if_pos h2]
        simp only [List.length_set] at h2
        refine ⟨fun ⟨_, h3, _⟩ => by have := h3 h0; omega, fun _ => ⟨-5, _, by decide, rfl, by simp, head_set _ hs⟩⟩
      · rw [if_neg h2]
        simp only [List.length_set] at h2
        refine ⟨fun ⟨h3, _, h4, h5⟩ => by1 ⟨h3, h4, h5⟩, fun h => by2 (fun ⟨h3, h4, h5⟩ =>
          h ⟨h3, fun _ => by omega, h4, h5⟩) (fun hc => ?_)⟩
        subst hc
        exact h ⟨.inr rfl, fun _ => by omega, by omega, fun _ _ => trivial⟩

/-- What the code does for a tag of the main table. -/
def handlerOf (tag : Nat) : Option Handler := (table.find? (fun e => e.tag == tag)).map (·.handler)

theorem entry_of {tag : Nat} {h : Handler} (hh : handlerOf tag = some h) :
    ∃ e, table.find? (fun e => e.tag == tag) = some e ∧ e.handler = h := by
  rw [handlerOf] at hh
  cases hf : table.find? (fun e => e.tag == tag) with
  | none => rw [hf] at hh; cases hh
  | some e => rw [hf] at hh; exact ⟨e, rfl, by simpa using hh⟩

theorem charFields_ok : ∀ r ∈ charFields, (r.1 ≠ 0x9F66 ∧ r.1 ≠ 0x9F6D ∧ r.1 ≠ 0x9F6E) ∧
    handlerOf r.1 = some (.value r.2.1.fmt r.2.2) ∧ r.2.1.Fits r.1 ∧
    (r.2.1 = .any → r.2.2 ≠ 0) := by decide +kernel

/-- **C82** (characters).  A field of characters is shown as it is when all its characters are in
the set of the field, it is not longer than the maximum for the field and the output has room for
the longest possible field; otherwise the result is not zero and the output is an empty string.
The Application Preferred Name (9F12) is shown whatever its characters. -/
theorem C82_text (r : Nat × Kind × Nat) (hr : r ∈ charFields) (env : Env) (v str : List Byte)
    (hs : str ≠ []) :
    (Accepted r.2.1 r.2.2 v str →
      ∃ info, getInfo env r.1 v str = .ok (0, info, strOver v str)) ∧
    (¬ Accepted r.2.1 r.2.2 v str →
      ∃ c info out, c ≠ 0 ∧ getInfo env r.1 v str = .ok (c, info, out) ∧
        out.length = str.length ∧ out.head? = some 0) := by
  obtain ⟨ht, hh, hk, hm⟩ := charFields_ok r hr
  obtain ⟨e, he, hhd⟩ := entry_of hh
  obtain ⟨h1, h2⟩ := value_text r.1 r.2.1 r.2.2 hk hm v str hs
  rw [getInfo_entry env r.1 v str e ht he, hhd]
  simp only [Handler.run]
  refine ⟨fun ha => ?_, fun ha => ?_⟩
  · rw [h1 ha]; exact ⟨_, rfl⟩
  · obtain ⟨c, out, hc, ev, hl, h0⟩ := h2 ha
    rw [ev]; exact ⟨c, _, out, hc, rfl, hl, h0⟩

theorem digitFields_ok : ∀ r ∈ digitFields, (r.1 ≠ 0x9F66 ∧ r.1 ≠ 0x9F6D ∧ r.1 ≠ 0x9F6E) ∧
    handlerOf r.1 = some (.value .cn r.2) := by decide +kernel

/-- **C82** (digits).  The digits of a compressed numeric field are shown, without the padding, when
the output has two characters for each byte and the field is not too long; otherwise the result is
not zero and the output is an empty string. -/
theorem C82_digits (r : Nat × Nat) (hr : r ∈ digitFields) (env : Env) (v str : List Byte)
    (hs : str ≠ []) :
    ((v ≠ [] ∧ (r.2 ≠ 0 → v.length ≤ (r.2 + 1) / 2 ∧ r.2 < str.length) ∧ 2 * v.length < str.length ∧
        ∀ d ∈ Str.unpadded v, d ≤ 9) →
      ∃ info, getInfo env r.1 v str =
        .ok (0, info, strOver ((Str.unpadded v).map Str.digitChar) str)) ∧
    (¬ (v ≠ [] ∧ (r.2 ≠ 0 → v.length ≤ (r.2 + 1) / 2 ∧ r.2 < str.length) ∧
        2 * v.length < str.length ∧ ∀ d ∈ Str.unpadded v, d ≤ 9) →
      ∃ c info out, c ≠ 0 ∧ getInfo env r.1 v str = .ok (c, info, out) ∧
        out.length = str.length ∧ out.head? = some 0) := by
  obtain ⟨ht, hh⟩ := digitFields_ok r hr
  obtain ⟨e, he, hhd⟩ := entry_of hh
  obtain ⟨tag, max⟩ := r
  simp only at *
  rw [getInfo_entry env tag v str e ht he, hhd]
  simp only [Handler.run]
  have hs' : str.set 0 0 ≠ [] := by
    intro h; exact hs (by simpa using congrArg List.length h)
  obtain ⟨g1, g2, g3⟩ := Str.C51_get v (str.set 0 0)
  simp only [List.length_set] at g1 g2 g3
  have by1 : v ≠ [] → 2 * v.length < str.length → (∀ d ∈ Str.unpadded v, d ≤ 9) →
      byFormat tag .cn v (str.set 0 0) =
        .ok (0, strOver ((Str.unpadded v).map Str.digitChar) str) := by
    intro h1 h2 h3
    rw [byFormat, g1 h1 h2 h3, emptyOnError_ok, strOver_set _ _ hs]
  have by2 : ¬ (v ≠ [] ∧ 2 * v.length < str.length ∧ ∀ d ∈ Str.unpadded v, d ≤ 9) →
      ∃ c out, c ≠ 0 ∧ byFormat tag .cn v (str.set 0 0) = .ok (c, out) ∧
        out.length = str.length ∧ out.head? = some 0 := by
    intro h
    rw [byFormat]
    by_cases hc : v = [] ∨ str.length ≤ 2 * v.length
    · obtain ⟨c, hc, ec⟩ := g3 hc
      refine ⟨c, _, by omega, by rw [ec, emptyOnError_err c (by omega) _ hs'], by simp, head_set _ hs'⟩
    · have hv : v ≠ [] := fun hv => hc (.inl hv)
      have hd : ∃ d ∈ Str.unpadded v, 9 < d := by
        apply Classical.byContradiction
        intro hn
        refine h ⟨hv, by omega, fun d hm => ?_⟩
        apply Classical.byContradiction
        intro hx
        exact hn ⟨d, hm, by omega⟩
      obtain ⟨o, hl, eo⟩ := g2 hv (by omega) hd
      have ho : o ≠ [] := by rintro rfl; exact hs (by simpa using hl.symm)
      exact ⟨1, _, by decide, by rw [eo, emptyOnError_err 1 (by decide) _ ho], by simpa using hl,
        head_set _ ho⟩
  have hle : lengthError .cn max v.length = if v.length > (max + 1) / 2 then some (-3) else none := rfl
  rw [valueString, if_neg (by simpa using hs), hle]
  by_cases h0 : max = 0
  · rw [if_neg (by omega)]
    refine ⟨fun ⟨h1, _, h3, h4⟩ => ⟨_, by rw [by1 h1 h3 h4]; rfl⟩, fun h => ?_⟩
    obtain ⟨c, out, hc, ev, hl, h0⟩ := by2 (fun ⟨h1, h3, h4⟩ => h ⟨h1, fun hc => absurd h0 hc, h3, h4⟩)
    rw [ev]; exact ⟨c, _, out, hc, rfl, hl, h0⟩
  · rw [if_pos h0]
    by_cases h1 : v.length > (max + 1) / 2
    · rw [if_pos h1]
      refine ⟨fun ⟨_, h2, _⟩ => by have := h2 h0; omega, fun _ => ⟨-3, _, _, by decide, rfl, by simp, head_set _ hs⟩⟩
    · rw [if_neg h1]
      simp only
      by_cases h2 : (str.set 0 0).length < max + 1
      · rw [if_pos h2]
        simp only [List.length_set] at h2
        refine ⟨fun ⟨_, h3, _⟩ => by have := h3 h0; omega, fun _ => ⟨-5, _, _, by decide, rfl, by simp, head_set _ hs⟩⟩
      · rw [if_neg h2]
        simp only [List.length_set] at h2
        refine ⟨fun ⟨h1, _, h3, h4⟩ => ⟨_, by rw [by1 h1 h3 h4]; rfl⟩, fun h => ?_⟩
        obtain ⟨c, out, hc, ev, hl, h0⟩ := by2 (fun ⟨h1, h3, h4⟩ => h ⟨h1, fun _ => by omega, h3, h4⟩)
        rw [ev]; exact ⟨c, _, out, hc, rfl, hl, h0⟩

theorem numberFields_ok : ∀ r ∈ numberFields, (r.1 ≠ 0x9F66 ∧ r.1 ≠ 0x9F6D ∧ r.1 ≠ 0x9F6E) ∧
    handlerOf r.1 = some (.value .n r.2) ∧ r.2 ≠ 0 ∧
    (r.2 = 3 ∨ 10 ≤ r.2 ∨ r.2 % 2 = 0) ∧ (r.2 = 3 → r.1 = 0x5F30) := by decide +kernel

theorem nibbles_length (v : List Byte) : (nibbles v).length = 2 * v.length := by
  induction v with
  | nil => rfl
  | cons b v ih => simp only [nibbles, List.length_cons, ih]; omega

theorem number_lt (v : List Byte) (h : IsFormatN v) : decNat (nibbles v) < 10 ^ (2 * v.length) := by
  have := Str.decNat_lt (nibbles v) h
  rwa [nibbles_length] at this

theorem digits_le (n k : Nat) (h : n < 10 ^ k) (hk : 0 < k) : (Str.digits n).length ≤ k := by
  obtain ⟨j, rfl⟩ : ∃ j, k = j + 1 := ⟨k - 1, by omega⟩
  exact Str.digits_length j n h

theorem digits32 (n : Nat) : (Str.digits (n % 2 ^ 32)).length ≤ 10 :=
  digits_le _ _ (by have := Nat.mod_lt n (show 0 < 2 ^ 32 by decide); omega) (by decide)

/-- The number shown for a field: always modulo 2^32. -/
theorem number_shown (r : Nat × Nat) (hr : r ∈ numberFields) (env : Env) (v str : List Byte)
    (h1 : v ≠ []) (h2 : IsFormatN v) (h3 : v.length ≤ (r.2 + 1) / 2) (h4 : r.2 < str.length)
    (h5 : r.2 = 3 → decNat (nibbles v) < 1000 ∨ 4 < str.length) :
    ∃ info, getInfo env r.1 v str =
      .ok (0, info, strOver ((Str.digits (decNat (nibbles v) % 2 ^ 32)).map Str.digitChar) str) := by
  obtain ⟨ht, hh, hm, hp, -⟩ := numberFields_ok r hr
  obtain ⟨e, he, hhd⟩ := entry_of hh
  obtain ⟨tag, max⟩ := r
  simp only at *
  have hs : str ≠ [] := by rintro rfl; simp at h4
  have hv : 0 < v.length := List.length_pos_iff.2 h1
  have hlt := number_lt v h2
  have hmod : decNat (nibbles v) % 2 ^ 32 ≤ decNat (nibbles v) := Nat.mod_le _ _
  have hfit : (Str.digits (decNat (nibbles v) % 2 ^ 32)).length < str.length := by
    rcases hp with hp | hp | hp
    · subst hp
      rcases h5 rfl with h5 | h5
      · have := digits_le (decNat (nibbles v) % 2 ^ 32) 3 (by omega) (by decide)
        omega
      · have hl4 : 10 ^ (2 * v.length) ≤ 10 ^ 4 := Nat.pow_le_pow_right (by decide) (by omega)
        have := digits_le (decNat (nibbles v) % 2 ^ 32) 4 (by omega) (by decide)
        omega
    · have := digits32 (decNat (nibbles v)); omega
    · have := digits_le (decNat (nibbles v) % 2 ^ 32) (2 * v.length) (by omega) (by omega)
      omega
  rw [getInfo_entry env tag v str e ht he, hhd]
  simp only [Handler.run]
  rw [valueString, if_neg (by simpa using hs), if_pos hm]
  rw [show lengthError .n max v.length = none by rw [lengthError, if_neg (by omega)]]
  simp only
  rw [if_neg (by simp; omega), byFormat, formatN_uint v _ h1 h2,
    Str.C53_uint_partial _ _ (Nat.mod_lt _ (by decide)) (by simpa using hfit), emptyOnError_ok,
    strOver_set _ _ hs]
  exact ⟨_, rfl⟩

/-- **C82** (numbers, partial).  A numeric field of up to the maximum length whose number is below
2^32 is shown as its number.  Missing: larger numbers (`C82_wraps`), the zeros in front of a number
(`C82_zeros_lost`) and service codes of four digits in an output of four bytes, which overflow it
(`C84_undefined`). -/
theorem C82_number_partial (r : Nat × Nat) (hr : r ∈ numberFields) (env : Env) (v str : List Byte)
    (h1 : v ≠ []) (h2 : IsFormatN v) (h3 : v.length ≤ (r.2 + 1) / 2) (h4 : r.2 < str.length)
    (h5 : r.2 = 3 → decNat (nibbles v) < 1000 ∨ 4 < str.length) (h6 : decNat (nibbles v) < 2 ^ 32) :
    ∃ info, getInfo env r.1 v str =
      .ok (0, info, strOver ((Str.digits (decNat (nibbles v))).map Str.digitChar) str) := by
  obtain ⟨info, e⟩ := number_shown r hr env v str h1 h2 h3 h4 h5
  rw [Nat.mod_eq_of_lt h6] at e
  exact ⟨info, e⟩

/-- **C82** (numbers refused): other nibbles than decimal digits, too long fields and outputs
without room for the maximum number of digits give a result which is not zero and an empty
string. -/
theorem C82_number_refused (r : Nat × Nat) (hr : r ∈ numberFields) (env : Env) (v str : List Byte)
    (hs : str ≠ [])
    (h : v = [] ∨ ¬ IsFormatN v ∨ (r.2 + 1) / 2 < v.length ∨ str.length ≤ r.2) :
    ∃ c info out, c ≠ 0 ∧ getInfo env r.1 v str = .ok (c, info, out) ∧ out.length = str.length ∧
      out.head? = some 0 := by
  obtain ⟨ht, hh, hm, -⟩ := numberFields_ok r hr
  obtain ⟨e, he, hhd⟩ := entry_of hh
  obtain ⟨tag, max⟩ := r
  simp only at *
  have hs' : str.set 0 0 ≠ [] := by
    intro h; exact hs (by simpa using congrArg List.length h)
  rw [getInfo_entry env tag v str e ht he, hhd]
  simp only [Handler.run]
  rw [valueString, if_neg (by simpa using hs), if_pos hm,
    show lengthError .n max v.length = if v.length > (max + 1) / 2 then some (-3) else none from rfl]
  by_cases h1 : v.length > (max + 1) / 2
  · rw [if_pos h1]
    exact ⟨-3, _, _, by decide, rfl, by simp, head_set _ hs⟩
  rw [if_neg h1]
  simp only
  by_cases h2 : (str.set 0 0).length < max + 1
  · rw [if_pos h2]
    exact ⟨-5, _, _, by decide, rfl, by simp, head_set _ hs⟩
  rw [if_neg h2, byFormat]
  simp only [List.length_set] at h2
  have : ∃ c, c ≠ 0 ∧ Str.formatNGetString v (str.set 0 0) = .ok (c, str.set 0 0) := by
    by_cases hv : v = []
    · subst hv; exact formatN_empty _
    · have hf : ¬ IsFormatN v := by
        rcases h with h | h | h | h
        · exact absurd h hv
        · exact h
        · omega
        · omega
      obtain ⟨c, hc, ec⟩ := Str.C53_format_n_refused v (str.set 0 0) hv hf
      exact ⟨c, by omega, ec⟩
  obtain ⟨c, hc, ec⟩ := this
  rw [ec, emptyOnError_err c hc _ hs']
  exact ⟨c, _, _, hc, rfl, by simp, head_set _ hs'⟩

/-- **C82 fails** for numbers of 2^32 and above: they are shown modulo 2^32, with result 0.  So an
amount of 42949672.96 is shown as 0. -/
theorem C82_wraps (env : Env) (v str : List Byte) (hv : v.length = 6) (h : IsFormatN v)
    (hs : 13 ≤ str.length) :
    (∃ info, getInfo env 0x9F02 v str =
      .ok (0, info, strOver ((Str.digits (decNat (nibbles v) % 2 ^ 32)).map Str.digitChar) str)) ∧
    (2 ^ 32 ≤ decNat (nibbles v) →
      decNat (nibbles v) % 2 ^ 32 ≠ decNat (nibbles v)) := by
  refine ⟨number_shown (0x9F02, 12) (by decide) env v str (by rintro rfl; simp at hv) h
    (by simp; omega) (by simp; omega) (by simp), fun hc he => ?_⟩
  have := Nat.mod_lt (decNat (nibbles v)) (show 0 < 2 ^ 32 by decide)
  omega

example : IsFormatN [0x00, 0x42, 0x94, 0x96, 0x72, 0x96] ∧
    decNat (nibbles [0x00, 0x42, 0x94, 0x96, 0x72, 0x96]) % 2 ^ 32 = 0 := by decide +kernel

/-- **C82 fails** for fields whose leading zeros belong to the value: of the last four digits of a
PAN (9F25) fewer are shown whenever the first of them is zero. -/
theorem C82_zeros_lost (env : Env) (v str : List Byte) (hv : v.length = 2) (h : IsFormatN v)
    (h0 : (nibbles v).head? = some 0) (hs : 5 ≤ str.length) :
    ∃ info t, getInfo env 0x9F25 v str = .ok (0, info, strOver t str) ∧ t.length < 4 := by
  obtain ⟨info, e⟩ := number_shown (0x9F25, 4) (by decide) env v str (by rintro rfl; simp at hv) h
    (by simp; omega) (by simp; omega) (by simp)
  refine ⟨info, _, e, ?_⟩
  match v, hv with
  | [a, b], _ =>
    have ha : a.toNat / 16 = 0 := by simpa [nibbles] using h0
    have h1 : a.toNat % 16 ≤ 9 := h _ (by simp [nibbles])
    have h2 : b.toNat / 16 ≤ 9 := h _ (by simp [nibbles])
    have h3 : b.toNat % 16 ≤ 9 := h _ (by simp [nibbles])
    have : decNat (nibbles [a, b]) < 1000 := by
      simp only [nibbles, decNat, List.foldl_cons, List.foldl_nil]; omega
    have := digits_le (decNat (nibbles [a, b]) % 2 ^ 32) 3 (by omega) (by decide)
    rw [List.length_map]; omega

/-- Tables without entries. -/
def noTables : Env :=
  { mcc := fun _ => none, country2 := fun _ => none, country3 := fun _ => none,
    countryNum := fun _ => none, currency := fun _ => none,
    language := fun _ => none, locCvm := fun _ => List.replicate 128 7,
    locRes := List.replicate 128 7, locCur := fun _ => List.replicate 128 7,
    locLang := fun _ => List.replicate 128 7, locArc := [7, 7, 7] }

/-- The part of a result outside the name. -/
def shownBy (r : C (Int × Info × List Byte)) : Option (Int × List Byte) :=
  r.toOption.map (fun x => (x.1, x.2.2))

example : shownBy (getInfo noTables 0x9F1C txt!"TID 0001" (List.replicate 9 7)) =
    some (1, [0, 0x49, 0x44, 7, 7, 7, 7, 7, 7]) := by decide +kernel
example : shownBy (getInfo noTables 0x9F1C txt!"TID00001" (List.replicate 9 7)) =
    some (0, txt!"TID00001" ++ [0]) := by decide +kernel
example : shownBy (getInfo noTables 0x9F1C txt!"TID00001" (List.replicate 8 7)) =
    some (-5, [0, 7, 7, 7, 7, 7, 7, 7]) := by decide +kernel
example : shownBy (getInfo noTables 0x5A [0x47, 0x61, 0x2F] (List.replicate 20 7)) =
    some (0, txt!"47612" ++ 0 :: List.replicate 14 7) := by decide +kernel
example : shownBy (getInfo noTables 0x9F02 [0, 0, 0, 0, 0x12, 0x34] (List.replicate 13 7)) =
    some (0, txt!"1234" ++ 0 :: List.replicate 8 7) := by decide +kernel
example : shownBy (getInfo noTables 0x9F25 [0, 0x42] (List.replicate 5 7)) =
    some (0, txt!"42" ++ [0, 7, 7]) := by decide +kernel

/-! ## C83: names -/

/-- Does a word occur in a text? -/
def occurs (w : List Byte) : List Byte → Bool
  | [] => w.isEmpty
  | b :: s => w.isPrefixOf (b :: s) || occurs w s

theorem occurs_infix (w : List Byte) : ∀ s, occurs w s = true → w <:+: s := by
  intro s
  induction s with
  | nil => intro h; simp [occurs] at h; subst h; exact List.nil_infix
  | cons b s ih =>
    intro h
    rw [occurs, Bool.or_eq_true] at h
    rcases h with h | h
    · exact (List.isPrefixOf_iff_prefix.1 h).isInfix
    · obtain ⟨x, y, e⟩ := ih h
      exact ⟨b :: x, y, by rw [← e]; simp⟩

/-- The name for a tag of the main table. -/
def nameOf (tag : Nat) : Option (List Byte) := (table.find? (fun e => e.tag == tag)).map (·.name)

/-- The tags with several meanings. -/
def Shared (tag : Nat) : Prop := tag = 0x9F66 ∨ tag = 0x9F6D ∨ tag = 0x9F6E

instance (tag : Nat) : Decidable (Shared tag) := by unfold Shared; infer_instance

theorem declared_names : ∀ r ∈ declared,
    ((nameOf r.1).any (fun n => r.2.all (fun w => occurs w (squash n)))) = true ∧
    ¬ Shared r.1 := by decide +kernel

theorem named_inv {n : List Byte} {f : Fmt} {r : C (Int × List Byte)} {c : Int} {info : Info}
    {out : List Byte} (h : named n f r = .ok (c, info, out)) :
    r = .ok (c, out) ∧ info = ⟨some n, f⟩ := by
  rw [named] at h
  cases r with
  | error e => cases h
  | ok q => obtain ⟨c', o'⟩ := q; rw [bind_ok] at h; cases h; exact ⟨rfl, rfl⟩

/-- **C83** (declared tags).  For every tag declared by the library the name contains all the words
of its identifier in emv_tags.h, whatever the value. -/
theorem C83_declared (r : Nat × List (List Byte)) (hr : r ∈ declared) (env : Env)
    (v str : List Byte) (c : Int) (info : Info) (out : List Byte)
    (h : getInfo env r.1 v str = .ok (c, info, out)) :
    ∃ n, info.name = some n ∧ ∀ w ∈ r.2, w <:+: squash n := by
  obtain ⟨h1, h2⟩ := declared_names r hr
  rw [nameOf] at h1
  cases hf : table.find? (fun e => e.tag == r.1) with
  | none => rw [hf] at h1; cases h1
  | some e =>
    rw [hf] at h1
    rw [getInfo_entry env r.1 v str e ⟨fun h => h2 (.inl h), fun h => h2 (.inr (.inl h)),
      fun h => h2 (.inr (.inr h))⟩ hf] at h
    obtain ⟨-, rfl⟩ := named_inv h
    refine ⟨e.name, rfl, fun w hw => ?_⟩
    simp only [Option.map_some, Option.any_some, List.all_eq_true] at h1
    exact occurs_infix w _ (h1 w hw)

/-- **C83** (one name for one tag).  Apart from 9F66, 9F6D and 9F6E, name and format depend on the
tag alone. -/
theorem C83_by_tag (env env' : Env) (tag : Nat) (ht : ¬ Shared tag) (v v' str str' : List Byte)
    (c c' : Int) (info info' : Info) (out out' : List Byte)
    (h : getInfo env tag v str = .ok (c, info, out))
    (h' : getInfo env' tag v' str' = .ok (c', info', out')) : info = info' := by
  rw [getInfo_eq, byTag, if_neg (fun h => ht (.inl h)), if_neg (fun h => ht (.inr (.inl h))),
    if_neg (fun h => ht (.inr (.inr h)))] at h h'
  cases hf : table.find? (fun e => e.tag == tag) with
  | none =>
    rw [hf] at h h'
    cases h; cases h'; rfl
  | some e =>
    rw [hf] at h h'
    rw [(named_inv h).2, (named_inv h').2]

/-- The names as numbers, to compare them quickly. -/
def nameNumbers : List Nat :=
  [2177290877328103292386058905095427690714766298418176271266883170420911714305920553,
   32544442413828565915367857189144398797804069272412146717638953122041200558259630067772773,
   22267811121487017693473397835180577809772,
   26135018271924778927598433377,
   8088396386567673372696161501142796781822525436424451169,
   546005139976363237332364259520697537270484394447616173625148139978182627287014460120446917496361,
   373591877032389937039224985735334551713440953445,
   2294902249453242433642662120041891392075809859653071772744170325560583182679934244407683937381,
   23582281065204809604199595006357252699237,
   1801012801614379521004167479020353903972138429943042613297,
   1801012801614379521004167479020353903972138429943042613298,
   30943582177975807866510664948501145280965315323879513479867302833299289896037,
   2442454752916240432024669581436277259064694256996338324731621135583594255811354674,
   2442454752916240432024669581436277259064694256996338324731621135583594255811354673,
   26915304940997480633855743511369067824252404861966599170764732713,
   32544442413828565915367857189176006516859784228076554060526222591743338180174757426188329,
   89636840117556742064064531478211556453,
   1677066595030753990294376164613394373117608351009509305701,
   107348728276156158507118670882007707588456559504996,
   451644866142749761219852516608564464135512639134058826611496370255982450,
   34312040685705123023984680902341909504473833549455920856513792297,
   5702266355200962282063777522546217914950757,
   26928191512196279297984464643587449594272864178635361181710115941,
   40511060433750881670831058540577702568901142464169606565324456339854893953001424184620030442100522074078811271465,
   40511060433750881670831058540577702568901142464169606565324456339854893953001424184620030442118968818152520823337,
   143924198581564144422651216558311411281058617471011500585147315431985302502226710031331708541432692,
   40520455187686402507256234025811687579193878536257223721269751239764856515262002097044698797946266177796453983608,
   1980234517148440586691313861373546027808996909409764720767658497242213,
   118031174966599975888684406656573929195582363327468858045985889,
   30215980791449593913136503011681305355972243157097754092120597874,
   575686633764014044533698228328792139011988522756020968771138341566510177,
   451644866142749761219852516607690282668988310212894738999618724291824681,
   640445400307441708968369309711594914575651265592388462552507674631115131000720871977,
   112249049632343846050339358578032342117,
   164052169826508317238379791702019646841931580165776495692212827448151174951304225311017,
   112249049632343846050339358578302349413,
   132901673475494546265842839563599350381340087319222743579040111240612182832710292696421,
   181820888374032288114920763970902558264313489762637100078902707617704010772815652508418454386165383305619861529442134357093,
   349860346338669738813852458860768613,
   26920131811067447735062391555762784478539607378879767962915533925,
   105156764886982217715087467014696947662613797275671872432862309,
   1638011600893496066033199915958704996246053989,
   530081149717751850441783245906003970172282592343356844500069,
   1703344095404027289736672518805541971737600869,
   25809897857041590674005124197,
   185795921382155201127813172114387712393407216605111402764833533582178312601941040921083214499940585017301082372996013586883058503673202,
   2276681202263823828290942193087012941936113219784817796647255632342644,
   346862448485388179034700,
   612690055492947896689457557289816015800175350771415001233940086950596643166108738477790433725993,
   106669497242221603918498244993028203125280583732323801107088169,
   557386464595994442223508178235296859709511468280589424463730532406841163862903977001,
   557386464595994442223508178235296859709511468280589424463730532425287907936613528617,
   20236678864861502464123826277,
   1458211162186383743705076407568659187780642162,
   6890318064895355042267070338910481363008615644664317455461614445353,
   6266707773552620931101930966717280987905555396014203689,
   24479327240439925512116917838739378855615186133481769,
   451644866142749761219852516607516067393001306343249845319405958619821153,
   2132832578032668895829547888749822599772827360284538221294876030684421539503013943742928150892,
   410768612839774287949560418027431619677287517334619397713772,
   105156764886982217715087467015041673128486683040520063812789618,
   32544442413828565915367857189257387973724920771253238466863569664460744107768391264002412,
   47563755873831731488720172061310310904779681184613783042639224327250033894402671328818457971516001430721029555038777586204033217404617769,
   1652168773234899770697680305216518830535119324486715073892,
   2632183158413332299491870742198707738710792188794205177745674898125335803605743872045345122983448908023081,
   2177290877328103289093536885858007490856430749974475470458078648700253564380212340,
   8505042489562903473021628460382841761157932617087794806476869721485365620597100,
   8505042489562903473021628460382841761157932617087794806476869721497498869657189,
   7035206256306169980063884820634365460468823504105600097,
   7035206256306169982716904549222741022671926272450651512,
   105156764886982217715087467014921004597937461303865739439074661,
   14212205373653696309203138104215473600269630515412293631386408886851806075635701156794742820343059765246717770606403943739086941915062756722,
   135049689684794536278325382828485254863328836387184324929430644983822379380,
   8150779263480785816298734531140821692990341062432015307926021554985,
   1725994645491341354557411767741515817642714482,
   12374119646250512737194704152195713455769244240656274087942361386909210119567364459870960047737872345246184181622130,
   1801012801614379521004167479020353852007083359431197025650,
   7355346115047242443787079657319158348007748,
   123345297419717221426048658957482500569410512577637,
   481817568045770396195506186552416352977675970932,
   8083557411698587823377645731433647085920988254920339310,
   2275319134197110702787238193041155226535529963176674527966554497315937,
   142653019980734024736136399243283162450249091579098517975213260099785334071265400612210,
   135700773271065349082091395817159713499158311246857221540246625,
   135700773271065354791082166640999237732302189044837767071233121,
   112249049632343846050339358578301300069,
   150958026294520115753883932421928189393813927108026108155072895594408012148,
   142020508252222430346124388190234256018125588849729125941335545052032750121,
   436056528295311939302678453065284906161001218382,
   24483717253194706913802648665070845623256225040982381,
   27746154558869991007023136422447214637202244717347182506410079329,
   118031174966599976223189464889380099046766573901015762734509684,
   123345297419717221426048642008668086293348846495091,
   2414647367229795268834014752861567142327157133972533683801142902822550728905197995165018843533113060783219,
   6686561971416404795358667436133,
   32544442413828565915367857189245150899193948101338569665403926279393536010528548030006057,
   487727092994852309032739865323199934610221983090,
   43989446407965271062566685234218887953429183376946433846546245880190370182986619860144321145070373929,
   9313760146444076773769960562878619113123346687777231342376441928739507361768549,
   105137909925771408727474443809545597592415698983910411921679225,
   451644866142749761219852516608734260996998912691399755404065524589421433,
   582830387779538900042481201431576536888777806018702806703827719231005561,
   2752338688448012564104821255419355802118227071633040801596877759707672715289124206853233143412,
   29577712882078832175595530554371210819075534077340392443523594657353328846195,
   8893285946343061829261492941767328855576039245031036077711650219378,
   410768612839774287949560418026006152325740996218528623191141,
   2132832578032668895829547888753526598021073663509122372025349386642561281525664135730711326324,
   1764237758370116254765048892997785301733851917725040252507559559523956,
   1676689445381015013541563394663718691563074112462397596773,
   48542307285778261308412650099569578702225735379363510364680928091443431466970396653502789762894384189882757309067800971670629,
   2893346982346669513488569861624811810387714825830668828766401296344007937131547728389667854481600772880929509347782260,
   740696827480747395453073884575951823459254995412651220164198731864066031905676218467754970747289798095955673225118377330,
   176817857469978551812676788476891682384673038813638411593843291167833937665159281510484052671008441337261304646192962948137,
   178257969407844807671264694713532176203901351136846617131750325260648629215502613060695565904999284,
   2631483750834986052258109213312138136086755208298808455553081599959121319320084970912665714640949864457586,
   1409979969945315078777,
   124371021476452420292648007766047058472354530249668888023887726,
   7802146436824392927216583213769814874893859565707766646879358581112174237995305,
   199914180939810635034018347746908565337078006380072229774122534088675532000538463013059357043322911754461446851422392301117302387078241]

theorem nameNumbers_eq :
    (table.filter (fun e => e.tag != 0x9F22)).map (fun e => beNat e.name) = nameNumbers := by
  decide +kernel

/-- **C83** (different tags).  No tag has two entries, and different tags have different names,
except that the key index of the card (8F) and that of the terminal (9F22) share one. -/
theorem C83_distinct : (table.map (·.tag)).Nodup ∧
    ((table.filter (fun e => e.tag != 0x9F22)).map (·.name)).Nodup ∧
    nameOf 0x8F = nameOf 0x9F22 := by
  refine ⟨by decide +kernel, ?_, by decide +kernel⟩
  have h : nameNumbers.Nodup := by decide +kernel
  rw [← nameNumbers_eq] at h
  rw [List.Nodup, List.pairwise_map] at h ⊢
  exact h.imp (fun hab e => hab (congrArg beNat e))

theorem declared_tags : table.map (·.tag) = declared.map (·.1) := rfl

/-- **C83** (other tags).  Every other tag is reported with result 1, no name and an empty
string. -/
theorem C83_unknown (env : Env) (tag : Nat) (h : ∀ r ∈ declared, r.1 ≠ tag) (ht : ¬ Shared tag)
    (v str : List Byte) :
    getInfo env tag v str = .ok (1, ⟨none, .b⟩, str.set 0 0) := by
  have hf : table.find? (fun e => e.tag == tag) = none := by
    rw [List.find?_eq_none]
    intro e he
    have hm : e.tag ∈ declared.map (·.1) := by
      rw [← declared_tags]; exact List.mem_map.2 ⟨e, he, rfl⟩
    obtain ⟨r, hr, e1⟩ := List.mem_map.1 hm
    have := h r hr
    simp only [beq_iff_eq]
    omega
  rw [getInfo_eq, byTag, if_neg (fun h => ht (.inl h)), if_neg (fun h => ht (.inr (.inl h))),
    if_neg (fun h => ht (.inr (.inr h))), hf]
  rfl

/-- **C83** (templates).  A field with constructed encoding is named but never shown: the string is
empty, whatever its value. -/
theorem C83_templates (env : Env) (tag : Nat) (hc : Constructed tag) (ht : ¬ Shared tag)
    (v str : List Byte) :
    ∃ c info, getInfo env tag v str = .ok (c, info, str.set 0 0) ∧ (c = 0 ∨ c = 1) ∧
      (c = 1 ↔ info.name = none) := by
  have key : ∀ e ∈ table, Constructed e.tag → e.handler = .none := by decide +kernel
  rw [getInfo_eq, byTag, if_neg (fun h => ht (.inl h)), if_neg (fun h => ht (.inr (.inl h))),
    if_neg (fun h => ht (.inr (.inr h)))]
  cases hf : table.find? (fun e => e.tag == tag) with
  | none => exact ⟨1, _, rfl, .inr rfl, by simp⟩
  | some e =>
    have hm := List.mem_of_find?_eq_some hf
    have ht : e.tag = tag := by simpa using List.find?_some hf
    simp only
    rw [key e hm (by rw [ht]; exact hc)]
    exact ⟨0, _, rfl, .inl rfl, by simp⟩

theorem named_fmt {n : List Byte} {r : C (Int × List Byte)} {c : Int} {info : Info}
    {out : List Byte} (h : named n .b r = .ok (c, info, out)) : info.fmt = .b := by
  rw [(named_inv h).2]

theorem shared_fmt (env : Env) (tag : Nat) (ht : Shared tag) (v str : List Byte) (c : Int)
    (info : Info) (out : List Byte) (h : getInfo env tag v str = .ok (c, info, out)) :
    info.fmt = .b := by
  have un : ∀ s, unnamed s = .ok (c, info, out) → info.fmt = .b := by
    intro s h; cases h; rfl
  rw [getInfo_eq, byTag] at h
  split at h
  · split at h
    · exact named_fmt h
    · exact un _ h
  split at h
  · split at h
    · exact named_fmt h
    · exact un _ h
  split at h
  · rw [tag9F6E] at h
    split at h
    · exact named_fmt h
    split at h
    · rw [fourBytes9F6E] at h
      cases hi : isFfi v with
      | error e => rw [hi] at h; cases h
      | ok b =>
        rw [hi, bind_ok] at h
        cases b
        · simp only [Bool.false_eq_true, if_false] at h
          cases hj : isEnhCaps v with
          | error e => rw [hj] at h; cases h
          | ok b =>
            rw [hj, bind_ok] at h
            cases b
            · exact un _ h
            · exact named_fmt h
        · exact named_fmt h
    · exact un _ h
  · rename_i h1 h2 h3
    rcases ht with ht | ht | ht
    · exact absurd ht h1
    · exact absurd ht h2
    · exact absurd ht h3

/-- **C83** (lists of tags).  The format tells that a field is a data object list for exactly the
fields CDOL1, CDOL2, PDOL and DDOL, and that it is a list of tags for exactly the Static Data
Authentication Tag List, whatever the value. -/
theorem C83_lists (env : Env) (tag : Nat) (v str : List Byte) (c : Int) (info : Info)
    (out : List Byte) (h : getInfo env tag v str = .ok (c, info, out)) :
    (info.fmt = .dol ↔ tag ∈ [0x8C, 0x8D, 0x9F38, 0x9F49]) ∧
    (info.fmt = .tagList ↔ tag = 0x9F4A) := by
  by_cases ht : Shared tag
  · rw [shared_fmt env tag ht v str c info out h]
    rcases ht with rfl | rfl | rfl <;> decide
  rw [getInfo_eq, byTag, if_neg (fun h => ht (.inl h)), if_neg (fun h => ht (.inr (.inl h))),
    if_neg (fun h => ht (.inr (.inr h)))] at h
  have k1 : ∀ e ∈ table, (e.fmt = .dol ↔ e.tag ∈ [0x8C, 0x8D, 0x9F38, 0x9F49]) ∧
      (e.fmt = .tagList ↔ e.tag = 0x9F4A) := by decide +kernel
  have k2 : ∀ t ∈ [0x8C, 0x8D, 0x9F38, 0x9F49, 0x9F4A], ∃ e ∈ table, e.tag = t := by decide +kernel
  cases hf : table.find? (fun e => e.tag == tag) with
  | none =>
    rw [hf] at h
    cases h
    rw [List.find?_eq_none] at hf
    have hx : tag ∉ [0x8C, 0x8D, 0x9F38, 0x9F49, 0x9F4A] := by
      intro hm
      obtain ⟨e, he, e1⟩ := k2 tag hm
      exact hf e he (by simpa using e1)
    simp only [List.mem_cons, List.not_mem_nil, or_false, not_or] at hx
    simp [hx]
  | some e =>
    rw [hf] at h
    rw [(named_inv h).2]
    have ht : e.tag = tag := by simpa using List.find?_some hf
    rw [← ht]
    exact k1 e (List.mem_of_find?_eq_some hf)

/-! ### Tags with several meanings -/

/-- **C83** (9F66): Terminal Transaction Qualifiers for four bytes, otherwise unknown. -/
theorem C83_9F66 (env : Env) (v str : List Byte) :
    (v.length = 4 → getInfo env 0x9F66 v str =
      named txt!"Terminal Transaction Qualifiers (TTQ)" .b (Bits.ttqList v (str.set 0 0))) ∧
    (v.length ≠ 4 → getInfo env 0x9F66 v str = .ok (1, ⟨none, .b⟩, str.set 0 0)) := by
  rw [getInfo_eq, byTag, if_pos rfl]
  exact ⟨fun h => by rw [if_pos h], fun h => by rw [if_neg h]; rfl⟩

/-- **C83** (9F6D): Contactless Reader Capabilities for one byte, otherwise unknown. -/
theorem C83_9F6D (env : Env) (v str : List Byte) :
    (∀ b, v = [b] → getInfo env 0x9F6D v str =
      named txt!"Contactless Reader Capabilities" .b (Names.readerCaps b (str.set 0 0))) ∧
    (v.length ≠ 1 → getInfo env 0x9F6D v str = .ok (1, ⟨none, .b⟩, str.set 0 0)) := by
  rw [getInfo_eq, byTag, if_neg (by decide), if_pos rfl]
  refine ⟨?_, fun h => by rw [if_neg h]; rfl⟩
  rintro b rfl
  rfl

theorem isFfi_eq (a b c d : Byte) : isFfi [a, b, c, d] = .ok (decide (VisaFfi a c d)) := by
  have : ∀ a : Byte, (a &&& 0xE0 = 0x20 ↔ a.toNat / 32 = 1) := by decide +kernel
  simp only [isFfi, rd_cons_zero, rd_cons_succ, bind_ok, this]
  congr 1
  rw [Bool.eq_iff_iff, decide_eq_true_iff]
  simp [VisaFfi, and_assoc]

theorem isEnhCaps_eq (a b c d : Byte) :
    isEnhCaps [a, b, c, d] = .ok (decide (AmexCaps a b c d)) := by
  have h1 : ∀ a : Byte, (decide (a &&& 0x20 = 0) && decide (a &&& 0x10 ≠ 0) &&
      decide (a &&& 0x08 ≠ 0) && decide (a &&& 0x03 = 0)) =
      (decide (a.toNat / 8 % 8 = 3) && decide (a.toNat % 4 = 0)) := by decide +kernel
  have h2 : ∀ b : Byte, decide (b &&& 0x80 ≠ 0) = decide (128 ≤ b.toNat) ∧
      decide (b &&& 0x0F = 0) = decide (b.toNat % 16 = 0) := by decide +kernel
  have h3 : ∀ c : Byte, decide (c &&& 0x3F = 0) = decide (c.toNat % 64 = 0) := by decide +kernel
  have h4 : ∀ d : Byte, decide (d &&& 0x18 = 0) = decide (d.toNat / 8 % 4 = 0) ∧
      decide (d &&& 0x07 ≠ 0) = decide (d.toNat % 8 ≠ 0) := by decide +kernel
  simp only [isEnhCaps, rd_cons_zero, rd_cons_succ, bind_ok, h1, (h2 b).1, (h2 b).2, h3, (h4 d).1,
    (h4 d).2]
  congr 1
  rw [Bool.eq_iff_iff, decide_eq_true_iff]
  simp [AmexCaps, and_assoc]

/-- The two meanings of four bytes exclude each other, so their order does not matter. -/
theorem C83_exclusive (a b c d : Byte) : ¬ (VisaFfi a c d ∧ AmexCaps a b c d) := by
  rintro ⟨⟨h1, -⟩, h2, -⟩
  omega

/-- **C83** (9F6E).  Five to 32 bytes are Third Party Data; four bytes with the version of Visa are
a form factor indicator; four bytes with the mandatory bits of American Express are reader
capabilities; everything else is unknown. -/
theorem C83_9F6E (env : Env) (str : List Byte) :
    (∀ v : List Byte, 4 < v.length → v.length ≤ 32 → getInfo env 0x9F6E v str =
      named txt!"Third Party Data" .b (ThirdParty.getStringList env.countryNum v (str.set 0 0))) ∧
    (∀ a b c d, VisaFfi a c d → getInfo env 0x9F6E [a, b, c, d] str =
      named txt!"Form Factor Indicator (FFI)" .b (Bits.ffiList [a, b, c, d] (str.set 0 0))) ∧
    (∀ a b c d, AmexCaps a b c d → getInfo env 0x9F6E [a, b, c, d] str =
      named txt!"Enhanced Contactless Reader Capabilities" .b
        (Bits.amexEnhList [a, b, c, d] (str.set 0 0))) ∧
    (∀ a b c d, ¬ VisaFfi a c d → ¬ AmexCaps a b c d →
      getInfo env 0x9F6E [a, b, c, d] str = .ok (1, ⟨none, .b⟩, str.set 0 0)) ∧
    (∀ v : List Byte, v.length < 4 ∨ 32 < v.length →
      getInfo env 0x9F6E v str = .ok (1, ⟨none, .b⟩, str.set 0 0)) := by
  have e0 : ∀ v, getInfo env 0x9F6E v str = tag9F6E env v (str.set 0 0) := by
    intro v
    rw [getInfo_eq, byTag, if_neg (by decide), if_neg (by decide), if_pos rfl]
  have e4 : ∀ a b c d, getInfo env 0x9F6E [a, b, c, d] str =
      fourBytes9F6E [a, b, c, d] (str.set 0 0) := by
    intro a b c d
    rw [e0, tag9F6E, if_neg (by simp), if_pos (by simp)]
  refine ⟨fun v h1 h2 => ?_, fun a b c d h => ?_, fun a b c d h => ?_, fun a b c d h1 h2 => ?_,
    fun v h => ?_⟩
  · rw [e0, tag9F6E, if_pos ⟨h1, h2⟩]
  · rw [e4, fourBytes9F6E, isFfi_eq, bind_ok, decide_eq_true h]; rfl
  · rw [e4, fourBytes9F6E, isFfi_eq, bind_ok,
      decide_eq_false (fun h' => C83_exclusive a b c d ⟨h', h⟩), isEnhCaps_eq, bind_ok,
      decide_eq_true h]; rfl
  · rw [e4, fourBytes9F6E, isFfi_eq, bind_ok, decide_eq_false h1, isEnhCaps_eq, bind_ok,
      decide_eq_false h2]; rfl
  · rw [e0, tag9F6E, if_neg (by omega), if_neg (by omega)]; rfl

example : VisaFfi 0x24 0 0 ∧ AmexCaps 0x58 0xE0 0xC0 0x03 ∧ ¬ VisaFfi 0x44 0 0 ∧
    ¬ AmexCaps 0x24 0 0 0 := by decide +kernel

/-! ### Names of dedicated files and countries -/

/-- **C83** (84, partial).  A DF name is shown with the name of its application when it does not
have 14 bytes; the names of the PSE and the PPSE are shown as they are.  Missing: application
identifiers of 14 bytes, see `C83_df_name_raw`. -/
theorem C83_df_name_partial (env : Env) (v str : List Byte) :
    (v.length ≠ 14 → ∃ n, getInfo env 0x84 v str =
      named n .b (Names.aidString v (str.set 0 0))) ∧
    (v = txt!"1PAY.SYS.DDF01" ∨ v = txt!"2PAY.SYS.DDF01" → 14 < str.length →
      ∃ info, getInfo env 0x84 v str = .ok (0, info, strOver v str)) := by
  obtain ⟨e, he, hh⟩ := entry_of (show handlerOf 0x84 = some .dfName by decide +kernel)
  have hb : e.fmt = .b := by
    have : ∀ e ∈ table, e.handler = .dfName → e.fmt = .b := by decide +kernel
    exact this e (List.mem_of_find?_eq_some he) hh
  rw [getInfo_entry env 0x84 v str e (by decide) he, hh, hb]
  simp only [Handler.run, dfName_eq]
  refine ⟨fun h => ⟨e.name, by rw [if_neg h]⟩, fun h hs => ?_⟩
  have hl : v.length = 14 := by rcases h with rfl | rfl <;> decide +kernel
  rw [if_pos hl, copyName_eq v _ (by simp; omega), strOver_set _ _ (by rintro rfl; simp at hs)]
  exact ⟨_, rfl⟩

/-- **C83 fails** for application identifiers of 14 bytes: the comparison with the names of the PSE
and the PPSE is the wrong way round, so the bytes themselves are copied to the output as if they
were characters, and the result is 0. -/
theorem C83_df_name_raw (env : Env) (v str : List Byte) (h : v.length = 14) (hs : 14 < str.length) :
    ∃ info, getInfo env 0x84 v str = .ok (0, info, strOver v str) := by
  obtain ⟨e, he, hh⟩ := entry_of (show handlerOf 0x84 = some .dfName by decide +kernel)
  rw [getInfo_entry env 0x84 v str e (by decide) he, hh]
  simp only [Handler.run, dfName_eq]
  rw [if_pos h, copyName_eq v _ (by simp; omega), strOver_set _ _ (by rintro rfl; simp at hs)]
  exact ⟨_, rfl⟩

/-- A Visa application identifier with a suffix: the name known for it is not shown. -/
example : (Names.aidString ([0xA0, 0, 0, 0, 3, 0x10, 0x10] ++ List.replicate 7 1)
      (List.replicate 15 0)).toOption.map (·.2) =
      some (txt!"Visa Credit/De" ++ [0]) ∧
    shownBy (getInfo noTables 0x84 ([0xA0, 0, 0, 0, 3, 0x10, 0x10] ++ List.replicate 7 1)
      (List.replicate 15 0)) =
      some (0, [0xA0, 0, 0, 0, 3, 0x10, 0x10] ++ List.replicate 7 1 ++ [0]) := by decide +kernel

/-- **C83** (countries by letters): a country which is in the table is shown by its name, any other
code by its letters. -/
theorem C83_country (env : Env) (t : Nat × Nat) (ht : t = (0x5F55, 2) ∨ t = (0x5F56, 3))
    (v str : List Byte) (hv : v.length = t.2) (ha : ∀ b ∈ v, Str.IsA b) (hs : t.2 < str.length) :
    (∀ s, (if t.2 = 2 then env.country2 v else env.country3 v) = some s → s ≠ [] → s.head? ≠ some 0 →
      ∃ info, getInfo env t.1 v str = .ok (0, info, Names.held str.length s)) ∧
    ((if t.2 = 2 then env.country2 v else env.country3 v) = none →
      ∃ info, getInfo env t.1 v str = .ok (0, info, strOver v str)) := by
  have key : ∀ (n : Nat) (lookup : List Byte → Option (List Byte)), 0 < n → v.length = n →
      n < str.length →
      (∀ s, lookup v = some s → s ≠ [] → s.head? ≠ some 0 →
        countryAlpha n lookup v (str.set 0 0) = .ok (0, Names.held str.length s)) ∧
      (lookup v = none → countryAlpha n lookup v (str.set 0 0) = .ok (0, strOver v str)) := by
    intro n lookup hn hvn hsn
    have hs0 : str ≠ [] := by rintro rfl; simp at hsn
    have hs' : str.set 0 0 ≠ [] := by
      intro h; exact hs0 (by simpa using congrArg List.length h)
    have htw : v.takeWhile (· ≠ 0) = v := by
      have hna : ∀ b : Byte, Str.IsA b → b ≠ 0 := by decide +kernel
      have : ∀ l : List Byte, (∀ b ∈ l, Str.IsA b) → l.takeWhile (· ≠ 0) = l := by
        intro l
        induction l with
        | nil => intro _; rfl
        | cons b l ih =>
          intro h
          rw [List.takeWhile_cons_of_pos (by simpa using hna b (h b (by simp))),
            ih (fun b hb => h b (by simp [hb]))]
      exact this v ha
    have ea := (Names.C81_alpha n hn lookup v (str.set 0 0) hs').1 hvn
    rw [htw] at ea
    refine ⟨fun s h1 h2 h3 => ?_, fun h1 => ?_⟩
    · rw [countryAlpha, ea, bind_ok, h1]
      simp only [Names.lookedUp, List.length_set]
      have hlen := Names.held_length str.length s
      have hno : noName 0 (Names.held str.length s) = .ok false := by
        match s, h2 with
        | x :: s, _ =>
          have hx : x ≠ 0 := fun h => h3 (by rw [h]; rfl)
          obtain ⟨m, hm⟩ : ∃ m, str.length = m + 2 := ⟨str.length - 2, by omega⟩
          rw [noName, if_neg (by decide), if_neg (by omega), hm]
          have : Names.held (m + 2) (x :: s) = x :: (s.take m ++
              List.replicate (m + 2 - min (m + 2 - 1) (x :: s).length) 0) := by
            rw [Names.held]; simp
          rw [this, rd_cons_zero, bind_ok]
          simp [hx]
      rw [hno, bind_ok]
      rfl
    · rw [countryAlpha, ea, bind_ok, h1]
      simp only [Names.lookedUp]
      have e2 : (str.set 0 0).set 0 0 = str.set 0 0 := by simp
      have hno : noName 0 (str.set 0 0) = .ok true := by
        rw [noName, if_neg (by decide), if_neg (by simpa using hs0)]
        match str, hs0 with
        | _ :: _, _ => rfl
      rw [e2, hno, bind_ok]
      have ht := (value_text 0x5F55 .letters n (by decide) (by intro h; cases h) v str hs0).1
        ⟨.inl (by rintro rfl; simp at hvn; omega), fun _ => by omega, by omega, ha⟩
      exact ht
  rcases ht with rfl | rfl
  · obtain ⟨e, he, hh⟩ := entry_of (show handlerOf 0x5F55 = some .country2 by decide +kernel)
    obtain ⟨k1, k2⟩ := key 2 env.country2 (by decide) hv hs
    simp only [if_true] at *
    rw [getInfo_entry env 0x5F55 v str e (by decide) he, hh]
    refine ⟨fun s h1 h2 h3 => ⟨_, by rw [Handler.run, k1 s h1 h2 h3]; rfl⟩,
      fun h => ⟨_, by rw [Handler.run, k2 h]; rfl⟩⟩
  · obtain ⟨e, he, hh⟩ := entry_of (show handlerOf 0x5F56 = some .country3 by decide +kernel)
    obtain ⟨k1, k2⟩ := key 3 env.country3 (by decide) hv hs
    simp only [show ¬ (3 : Nat) = 2 by decide, if_false] at *
    rw [getInfo_entry env 0x5F56 v str e (by decide) he, hh]
    refine ⟨fun s h1 h2 h3 => ⟨_, by rw [Handler.run, k1 s h1 h2 h3]; rfl⟩,
      fun h => ⟨_, by rw [Handler.run, k2 h]; rfl⟩⟩

example : shownBy (getInfo noTables 0x5F55 [0x4E, 0x4C] (List.replicate 4 7)) =
    some (0, [0x4E, 0x4C, 0, 7]) := by decide +kernel
example : shownBy (getInfo noTables 0x9F01 [1] []) = some (0, []) := by decide +kernel
example : shownBy (getInfo noTables 0xBF0C [0x9F, 1, 0] [7, 7]) = some (0, [0, 7]) := by decide +kernel
example : shownBy (getInfo noTables 0xDF01 [0x9F, 1, 0] [7, 7]) = some (1, [0, 7]) := by decide +kernel

/-! ## Which description a field gets -/

/-- The field is described by `f`, applied to its value and the emptied output. -/
def Via (env : Env) (tag : Nat) (f : List Byte → List Byte → C (Int × List Byte)) : Prop :=
  ∀ (v str : List Byte) (c : Int) (out : List Byte), f v (str.set 0 0) = .ok (c, out) →
    ∃ info, getInfo env tag v str = .ok (c, info, out)

/-- A description of the first byte of the value. -/
def onFirst (g : Byte → List Byte → C (Int × List Byte)) : List Byte → List Byte → C (Int × List Byte)
  | [], _ => .error .oobRead
  | b :: _, str => g b str

theorem via_of {env : Env} {tag : Nat} {h : Handler} (hh : handlerOf tag = some h)
    (ht : ¬ Shared tag) : Via env tag (h.run env tag) := by
  intro v str c out e
  obtain ⟨en, he, hd⟩ := entry_of hh
  rw [getInfo_entry env tag v str en
    ⟨fun h => ht (.inl h), fun h => ht (.inr (.inl h)), fun h => ht (.inr (.inr h))⟩ he, hd, e]
  exact ⟨_, rfl⟩

theorem via_all (env : Env) (ts : List Nat) (h : Handler) (f : List Byte → List Byte → C (Int × List Byte))
    (hf : ∀ tag, h.run env tag = f) (hh : ∀ t ∈ ts, handlerOf t = some h) (hs : ∀ t ∈ ts, ¬ Shared t) :
    ∀ t ∈ ts, Via env t f := by
  intro t ht
  have := via_of (env := env) (hh t ht) (hs t ht)
  rwa [hf t] at this

theorem firstByte_eq (g : Byte → List Byte → C (Int × List Byte)) : firstByte g = onFirst g := by
  funext v str
  cases v <;> rfl

/-- **C83** (descriptions).  Every field whose value has a description of its own gets exactly that
description: identifiers of applications, track 2, amounts, dates and times, flags, lists, codes. -/
theorem C83_described (env : Env) :
    (∀ t ∈ [0x4F, 0x9F06], Via env t Names.aidString) ∧
    (∀ t ∈ [0x57], Via env t Str.track2GetString) ∧
    (∀ t ∈ [0x81, 0x9F04, 0x9F1B, 0x9F3A], Via env t Str.amountGetString) ∧
    (∀ t ∈ [0x82], Via env t Bits.aipList) ∧
    (∀ t ∈ [0x86], Via env t Capdu.emvGetString) ∧
    (∀ t ∈ [0x8A], Via env t Iad.arcString) ∧
    (∀ t ∈ [0x8E], Via env t (Lists.cvmList env.locCvm)) ∧
    (∀ t ∈ [0x91], Via env t (Iad.authList env.locArc)) ∧
    (∀ t ∈ [0x94], Via env t Lists.aflList) ∧
    (∀ t ∈ [0x95, 0x9F0D, 0x9F0E, 0x9F0F], Via env t Bits.tvrList) ∧
    (∀ t ∈ [0x9A, 0x5F24, 0x5F25], Via env t Str.dateGetString) ∧
    (∀ t ∈ [0x9F21], Via env t Str.timeGetString) ∧
    (∀ t ∈ [0x9B], Via env t Bits.tsiList) ∧
    (∀ t ∈ [0x9C], Via env t (onFirst Names.txnType)) ∧
    (∀ t ∈ [0x5F28, 0x9F1A], Via env t (Names.byNumber env.countryNum)) ∧
    (∀ t ∈ [0x5F2A, 0x9F3C, 0x9F42], Via env t (Lists.currencyString env.currency)) ∧
    (∀ t ∈ [0x5F2D], Via env t (Lists.languageList env.language env.locLang)) ∧
    (∀ t ∈ [0x5F57], Via env t (onFirst Names.account)) ∧
    (∀ t ∈ [0x9F07], Via env t Bits.aucList) ∧
    (∀ t ∈ [0x9F0A], Via env t Lists.asrpdList) ∧
    (∀ t ∈ [0x9F10], Via env t Iad.iadList) ∧
    (∀ t ∈ [0x9F15], Via env t (Names.byNumber env.mcc)) ∧
    (∀ t ∈ [0x9F1D], Via env t Bits.trmdList) ∧
    (∀ t ∈ [0x9F27], Via env t (onFirst Bits.cidList)) ∧
    (∀ t ∈ [0x9F33], Via env t Bits.termCapsList) ∧
    (∀ t ∈ [0x9F34], Via env t (Lists.cvmResults env.locRes)) ∧
    (∀ t ∈ [0x9F35], Via env t (onFirst Bits.termTypeList)) ∧
    (∀ t ∈ [0x9F39], Via env t (onFirst Names.posEntry)) ∧
    (∀ t ∈ [0x9F3B], Via env t (Lists.refCurrencyList env.currency env.locCur)) ∧
    (∀ t ∈ [0x9F40], Via env t Bits.addlTermCapsList) ∧
    (∀ t ∈ [0x9F6C], Via env t Bits.ctqList) := by
  refine ⟨?_, ?_, ?_, ?_, ?_, ?_, ?_, ?_, ?_, ?_, ?_, ?_, ?_, ?_, ?_, ?_, ?_, ?_, ?_, ?_, ?_, ?_, ?_,
    ?_, ?_, ?_, ?_, ?_, ?_, ?_, ?_⟩
  · exact via_all env _ .aid _ (fun _ => rfl) (by decide +kernel) (by decide)
  · exact via_all env _ .track2 _ (fun _ => rfl) (by decide +kernel) (by decide)
  · exact via_all env _ .amount _ (fun _ => rfl) (by decide +kernel) (by decide)
  · exact via_all env _ .aip _ (fun _ => rfl) (by decide +kernel) (by decide)
  · exact via_all env _ .capdu _ (fun _ => rfl) (by decide +kernel) (by decide)
  · exact via_all env _ .arc _ (fun _ => rfl) (by decide +kernel) (by decide)
  · exact via_all env _ .cvmList _ (fun _ => rfl) (by decide +kernel) (by decide)
  · exact via_all env _ .auth _ (fun _ => rfl) (by decide +kernel) (by decide)
  · exact via_all env _ .afl _ (fun _ => rfl) (by decide +kernel) (by decide)
  · exact via_all env _ .tvr _ (fun _ => rfl) (by decide +kernel) (by decide)
  · exact via_all env _ .date _ (fun _ => rfl) (by decide +kernel) (by decide)
  · exact via_all env _ .time _ (fun _ => rfl) (by decide +kernel) (by decide)
  · exact via_all env _ .tsi _ (fun _ => rfl) (by decide +kernel) (by decide)
  · exact via_all env _ .txnType _ (fun _ => firstByte_eq _) (by decide +kernel) (by decide)
  · exact via_all env _ .countryNum _ (fun _ => rfl) (by decide +kernel) (by decide)
  · exact via_all env _ .currency _ (fun _ => rfl) (by decide +kernel) (by decide)
  · exact via_all env _ .language _ (fun _ => rfl) (by decide +kernel) (by decide)
  · exact via_all env _ .account _ (fun _ => firstByte_eq _) (by decide +kernel) (by decide)
  · exact via_all env _ .auc _ (fun _ => rfl) (by decide +kernel) (by decide)
  · exact via_all env _ .asrpd _ (fun _ => rfl) (by decide +kernel) (by decide)
  · exact via_all env _ .iad _ (fun _ => rfl) (by decide +kernel) (by decide)
  · exact via_all env _ .mcc _ (fun _ => rfl) (by decide +kernel) (by decide)
  · exact via_all env _ .trmd _ (fun _ => rfl) (by decide +kernel) (by decide)
  · exact via_all env _ .cid _ (fun _ => firstByte_eq _) (by decide +kernel) (by decide)
  · exact via_all env _ .termCaps _ (fun _ => rfl) (by decide +kernel) (by decide)
  · exact via_all env _ .cvmResults _ (fun _ => rfl) (by decide +kernel) (by decide)
  · exact via_all env _ .termType _ (fun _ => firstByte_eq _) (by decide +kernel) (by decide)
  · exact via_all env _ .posEntry _ (fun _ => firstByte_eq _) (by decide +kernel) (by decide)
  · exact via_all env _ .refCurrency _ (fun _ => rfl) (by decide +kernel) (by decide)
  · exact via_all env _ .addlCaps _ (fun _ => rfl) (by decide +kernel) (by decide)
  · exact via_all env _ .ctq _ (fun _ => rfl) (by decide +kernel) (by decide)

/-- **C83** (fields without description).  Templates, keys, certificates, cryptograms, counters, data
object lists and other binary fields are named and have an empty description. -/
theorem C83_undescribed (env : Env) : ∀ t ∈ [0x61, 0x6F, 0x70, 0x71, 0x72, 0x73, 0x77, 0x80, 0x83, 0x87,
    0x88, 0x8C, 0x8D, 0x8F, 0x90, 0x92, 0x93, 0x9D, 0xA5, 0x5F34, 0x5F36, 0x9F05, 0x9F08, 0x9F09, 0x9F11,
    0x9F13, 0x9F14, 0x9F17, 0x9F18, 0x9F19, 0x9F22, 0x9F23, 0x9F26, 0x9F32, 0x9F36, 0x9F37, 0x9F38,
    0x9F3D, 0x9F43, 0x9F44, 0x9F45, 0x9F46, 0x9F47, 0x9F48, 0x9F49, 0x9F4A, 0x9F4C, 0x9F4D, 0xBF0C],
    Via env t (fun _ str => .ok (0, str)) :=
  via_all env _ .none _ (fun _ => rfl) (by decide +kernel) (by decide)

/-- Every declared field is described by `C82_text`, `C82_digits`, `C82_number_partial`,
`C83_described`, `C83_undescribed`, or is a dedicated file name or a country in letters. -/
example : ∀ r ∈ declared, r.1 ∈ charFields.map (·.1) ++ digitFields.map (·.1) ++ numberFields.map (·.1) ++
    [0x4F, 0x9F06, 0x57, 0x81, 0x9F04, 0x9F1B, 0x9F3A, 0x82, 0x86, 0x8A, 0x8E, 0x91, 0x94, 0x95, 0x9F0D,
     0x9F0E, 0x9F0F, 0x9A, 0x5F24, 0x5F25, 0x9F21, 0x9B, 0x9C, 0x5F28, 0x9F1A, 0x5F2A, 0x9F3C, 0x9F42,
     0x5F2D, 0x5F57, 0x9F07, 0x9F0A, 0x9F10, 0x9F15, 0x9F1D, 0x9F27, 0x9F33, 0x9F34, 0x9F35, 0x9F39,
     0x9F3B, 0x9F40, 0x9F6C, 0x84, 0x5F55, 0x5F56] ++
    [0x61, 0x6F, 0x70, 0x71, 0x72, 0x73, 0x77, 0x80, 0x83, 0x87,
    0x88, 0x8C, 0x8D, 0x8F, 0x90, 0x92, 0x93, 0x9D, 0xA5, 0x5F34, 0x5F36, 0x9F05, 0x9F08, 0x9F09, 0x9F11,
    0x9F13, 0x9F14, 0x9F17, 0x9F18, 0x9F19, 0x9F22, 0x9F23, 0x9F26, 0x9F32, 0x9F36, 0x9F37, 0x9F38,
    0x9F3D, 0x9F43, 0x9F44, 0x9F45, 0x9F46, 0x9F47, 0x9F48, 0x9F49, 0x9F4A, 0x9F4C, 0x9F4D, 0xBF0C] := by
  decide +kernel

end Verif.TlvInfo
