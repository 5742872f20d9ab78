import Verif.Formats
import Verif.BeNat

/-! # Properties of the EMV data format conversions: C09-C13 -/

set_option autoImplicit false

namespace Verif.Formats
open Verif BerSpec

/-! ## Specification -/

/-- Memory of a NUL-terminated string `s` written over the previous contents `old`. -/
def strOver (s old : List Byte) : List Byte := s ++ 0 :: old.drop (s.length + 1)

/-- The decimal digits spelled by a byte string, two nibbles per byte, most significant
first (values above 9 are not decimal digits). -/
def nibbles : List Byte → List Nat
  | [] => []
  | b :: bs => b.toNat / 16 :: b.toNat % 16 :: nibbles bs

/-- Every nibble is a decimal digit (EMV format n). -/
def IsFormatN (bs : List Byte) : Prop := ∀ d ∈ nibbles bs, d ≤ 9

instance (bs : List Byte) : Decidable (IsFormatN bs) := by unfold IsFormatN; infer_instance

/-- The number spelled by decimal digits. -/
def decNat (ds : List Nat) : Nat := ds.foldl (fun a d => a * 10 + d) 0

/-- Characters permitted by EMV Book 4 for the display of 9F12: everything in ISO 8859
except the control characters. -/
def Printable8859 (b : Byte) : Prop := ¬ (b.toNat < 32 ∨ (127 ≤ b.toNat ∧ b.toNat < 160))

/-- Digits, letters and space. -/
def AlnumSpace (b : Byte) : Prop :=
  Char.isAlphanum (Char.ofNat b.toNat) = true ∧ b.toNat < 128 ∨ Char.ofNat b.toNat = ' '

instance (b : Byte) : Decidable (Printable8859 b) := by unfold Printable8859; infer_instance
instance (b : Byte) : Decidable (AlnumSpace b) := by unfold AlnumSpace; infer_instance

/-- The sixteen upper case hexadecimal digits. -/
def hexAlphabet : List Byte := "0123456789ABCDEF".toUTF8.toList

/-- Two hexadecimal digits per byte. -/
def hexOf (bs : List Byte) : List Byte := (nibbles bs).map (fun d => hexAlphabet.getD d 0)

/-- Inverse direction: pairs of hexadecimal digits to bytes. -/
def unhex : List Byte → List Byte
  | a :: b :: rest => UInt8.ofNat (hexAlphabet.idxOf a * 16 + hexAlphabet.idxOf b) :: unhex rest
  | _ => []

/-! ## C12: character filters -/

theorem strOver_length (s old : List Byte) (h : s.length < old.length) :
    (strOver s old).length = old.length := by
  simp [strOver]; omega

theorem wr_over (s t old : List Byte) (b : Byte) (h : s.length < old.length)
    (ht : t = s ++ old.drop s.length) :
    wr t s.length b = .ok (s ++ b :: old.drop (s.length + 1)) := by
  subst ht
  have hl : s.length < (s ++ old.drop s.length).length := by simp; omega
  rw [wr_eq hl]
  congr 1
  rw [List.set_append_right _ _ (Nat.le_refl _)]
  rw [List.drop_eq_getElem_cons h, Nat.sub_self]
  rfl

theorem filterLoop_spec (keep : Byte → Bool) (old : List Byte) : ∀ (buf s str : List Byte),
    s.length < old.length → str = s ++ old.drop s.length →
    filterLoop keep buf str s.length =
      .ok (strOver (s ++ (buf.filter keep).take (old.length - 1 - s.length)) old) := by
  intro buf
  induction buf with
  | nil =>
    intro s str h hs
    simp [filterLoop, wr_over s str old 0 h hs, strOver]
  | cons b buf ih =>
    intro s str h hs
    have hl : str.length = old.length := by subst hs; simp; omega
    unfold filterLoop
    rw [hl]
    split
    · rename_i h1
      rw [wr_over s str old 0 h hs]
      have : old.length - 1 - s.length = 0 := by omega
      simp [this, strOver]
    · rename_i h1
      split
      · rename_i hk
        rw [wr_over s str old b h hs]
        simp only [bind_ok]
        have := ih (s ++ [b]) (s ++ b :: old.drop (s.length + 1)) (by simp; omega) (by simp)
        simp only [List.length_append, List.length_cons, List.length_nil, Nat.zero_add] at this
        rw [this]
        rw [List.filter_cons_of_pos hk]
        obtain ⟨k, hk'⟩ : ∃ k, old.length - 1 - s.length = k + 1 := ⟨old.length - 2 - s.length, by omega⟩
        rw [hk', List.take_succ_cons, show old.length - 1 - (s.length + 1) = k by omega]
        simp
      · rename_i hk
        rw [ih s str h hs, List.filter_cons_of_neg hk]

theorem filterStr_spec (keep : Byte → Bool) (buf str : List Byte) (h : buf ≠ [])
    (hs : str ≠ []) :
    filterStr keep buf str =
      .ok (0, strOver ((buf.filter keep).take (str.length - 1)) str) := by
  have h1 : buf.length ≠ 0 := by simpa using h
  have h2 : str.length ≠ 0 := by simpa using hs
  unfold filterStr
  rw [if_neg (by omega)]
  have := filterLoop_spec keep str buf [] str (by simp; omega) (by simp)
  simp at this
  rw [this]
  rfl

theorem keepNonControl_iff : ∀ b, keepNonControl b = decide (Printable8859 b) := by
  decide +kernel

theorem keepAlnumSpace_iff : ∀ b, keepAlnumSpace b = decide (AlnumSpace b) := by
  decide +kernel

/-- **C12** (non-control filter).  For non-empty input and output the string is exactly the
permitted characters in order, cut at the capacity, NUL terminated; the rest of the output
buffer is untouched. -/
theorem C12_non_control (buf str : List Byte) (h : buf ≠ []) (hs : str ≠ []) :
    ansToNonControlStr buf str =
      .ok (0, strOver ((buf.filter (fun b => decide (Printable8859 b))).take (str.length - 1)) str) := by
  rw [ansToNonControlStr, filterStr_spec _ _ _ h hs, funext keepNonControl_iff]

/-- **C12** (alphanumeric-space filter). -/
theorem C12_alnum_space (buf str : List Byte) (h : buf ≠ []) (hs : str ≠ []) :
    ansToAlnumSpaceStr buf str =
      .ok (0, strOver ((buf.filter (fun b => decide (AlnumSpace b))).take (str.length - 1)) str) := by
  rw [ansToAlnumSpaceStr, filterStr_spec _ _ _ h hs, funext keepAlnumSpace_iff]

/-- **C12** (degenerate arguments).  Empty input or output is refused and nothing is
written. -/
theorem C12_refused (buf str : List Byte) (h : buf = [] ∨ str = []) :
    ansToNonControlStr buf str = .ok (-1, str) ∧ ansToAlnumSpaceStr buf str = .ok (-1, str) := by
  have : buf.length = 0 ∨ str.length = 0 := by simpa using h
  constructor
  · rw [ansToNonControlStr, filterStr, if_pos this]
  · rw [ansToAlnumSpaceStr, filterStr, if_pos this]

/-- What the permitted sets are, spelled out. -/
theorem C12_sets (b : Byte) :
    (Printable8859 b ↔ (0x20 ≤ b.toNat ∧ b.toNat ≤ 0x7E) ∨ 0xA0 ≤ b.toNat) ∧
    (AlnumSpace b ↔ (0x30 ≤ b.toNat ∧ b.toNat ≤ 0x39) ∨ (0x41 ≤ b.toNat ∧ b.toNat ≤ 0x5A) ∨
      (0x61 ≤ b.toNat ∧ b.toNat ≤ 0x7A) ∨ b.toNat = 0x20) := by
  revert b; decide +kernel

example : ansToAlnumSpaceStr [0x56, 0x2D, 0x49, 0x53, 0x41] [9, 9, 9, 9] =
    .ok (0, [0x56, 0x49, 0x53, 0]) := by decide +kernel
example : ansToNonControlStr [0x56, 0x0A, 0xE9] [9, 9, 9, 9, 9] =
    .ok (0, [0x56, 0xE9, 0, 9, 9]) := by decide +kernel

/-! ## C13: hexadecimal -/

theorem nibbles_length (bs : List Byte) : (nibbles bs).length = 2 * bs.length := by
  induction bs with
  | nil => rfl
  | cons b bs ih => simp [nibbles, ih]; omega

theorem hexOf_length (bs : List Byte) : (hexOf bs).length = 2 * bs.length := by
  simp [hexOf, nibbles_length]

theorem nibbles_get (bs : List Byte) : ∀ (i : Nat) (h : i / 2 < bs.length),
    (nibbles bs)[i]? = some (if i % 2 = 0 then bs[i / 2].toNat / 16 else bs[i / 2].toNat % 16) := by
  induction bs with
  | nil => intro i h; simp at h
  | cons b bs ih =>
    intro i h
    match i with
    | 0 => simp [nibbles]
    | 1 => simp [nibbles]
    | i + 2 =>
      have h2 : (i + 2) / 2 = i / 2 + 1 := by omega
      simp only [h2, List.length_cons] at h
      have := ih i (by omega)
      simp only [nibbles, List.getElem?_cons_succ, this]
      simp [h2]

theorem hexChar_hi : ∀ b : Byte, hexChar (b >>> 4) = hexAlphabet.getD (b.toNat / 16) 0 := by
  decide +kernel

theorem hexChar_lo : ∀ b : Byte, hexChar (b &&& 0x0F) = hexAlphabet.getD (b.toNat % 16) 0 := by
  decide +kernel

theorem hexOf_get (bs : List Byte) (i : Nat) (h : i / 2 < bs.length) :
    (hexOf bs)[i]? =
      some (hexChar (if i % 2 = 0 then bs[i / 2] >>> 4 else bs[i / 2] &&& 0x0F)) := by
  rw [hexOf, List.getElem?_map, nibbles_get bs i h]
  split <;> simp [hexChar_hi, hexChar_lo]

theorem bToStrLoop_spec (buf old : List Byte) : ∀ (fuel i : Nat) (str : List Byte),
    2 * buf.length < fuel + i → i ≤ 2 * buf.length → i < old.length →
    str = (hexOf buf).take i ++ old.drop i →
    bToStrLoop buf fuel i str i = .ok (strOver ((hexOf buf).take (old.length - 1)) old) := by
  intro fuel
  induction fuel with
  | zero => intro i str h1 h2; omega
  | succ fuel ih =>
    intro i str h1 h2 h3 hs
    have hlen : ((hexOf buf).take i).length = i := by simp [hexOf_length]; omega
    have hl : str.length = old.length := by subst hs; simp [hexOf_length]; omega
    have hw : ∀ b, wr str i b = .ok ((hexOf buf).take i ++ b :: old.drop (i + 1)) := by
      intro b
      have := wr_over ((hexOf buf).take i) str old b (by omega) (by rw [hlen]; exact hs)
      rwa [hlen] at this
    unfold bToStrLoop
    rw [hl]
    split
    · have hi : i = 2 * buf.length := by omega
      rw [hw]
      have e1 : (hexOf buf).take i = hexOf buf := List.take_of_length_le (by rw [hexOf_length]; omega)
      have e2 : (hexOf buf).take (old.length - 1) = hexOf buf :=
        List.take_of_length_le (by rw [hexOf_length]; omega)
      rw [e1, e2, strOver, hexOf_length, hi]
    · split
      · rw [hw, strOver, show old.length - 1 = i by omega, hlen]
      · rw [rd_eq (by omega)]
        simp only [bind_ok]
        rw [hw]
        simp only [bind_ok]
        apply ih _ _ (by omega) (by omega) (by omega)
        have hg := hexOf_get buf i (by omega)
        rw [List.take_add_one, hg]
        simp

/-- **C13.** The string is the uppercase hexadecimal form, two digits per byte, cut at the
capacity and NUL terminated; the rest of the output is untouched and nothing outside of it
is written. -/
theorem C13_hex (buf str : List Byte) (h : buf ≠ []) (hs : str ≠ []) :
    bToStr buf str = .ok (0, strOver ((hexOf buf).take (str.length - 1)) str) := by
  have h1 : buf.length ≠ 0 := by simpa using h
  have h2 : str.length ≠ 0 := by simpa using hs
  unfold bToStr
  rw [if_neg (by omega), bToStrLoop_spec buf str _ 0 str (by omega) (by omega) (by omega) (by simp)]
  rfl

/-- **C13** (degenerate arguments). -/
theorem C13_refused (buf str : List Byte) (h : buf = [] ∨ str = []) :
    bToStr buf str = .ok (-1, str) := by
  have : buf.length = 0 ∨ str.length = 0 := by simpa using h
  rw [bToStr, if_pos this]

theorem unhex_pair : ∀ b : Byte, UInt8.ofNat (hexAlphabet.idxOf (hexAlphabet.getD (b.toNat / 16) 0) * 16 +
    hexAlphabet.idxOf (hexAlphabet.getD (b.toNat % 16) 0)) = b := by
  decide +kernel

theorem unhex_hexOf (bs : List Byte) : unhex (hexOf bs) = bs := by
  induction bs with
  | nil => rfl
  | cons b bs ih =>
    have : hexOf (b :: bs) = hexAlphabet.getD (b.toNat / 16) 0 ::
        hexAlphabet.getD (b.toNat % 16) 0 :: hexOf bs := rfl
    rw [this, unhex, unhex_pair, ih]

/-- **C13** (inverse).  With room for two digits per byte and the terminator, decoding the
string gives back the bytes. -/
theorem C13_roundtrip (buf str : List Byte) (h : buf ≠ []) (hs : 2 * buf.length < str.length) :
    ∃ s, bToStr buf str = .ok (0, strOver s str) ∧ s.length = 2 * buf.length ∧ unhex s = buf := by
  refine ⟨hexOf buf, ?_, hexOf_length buf, unhex_hexOf buf⟩
  rw [C13_hex buf str h (by intro e; simp [e] at hs)]
  rw [List.take_of_length_le (by rw [hexOf_length]; omega)]

example : bToStr [0xA0, 0x0F] [9, 9, 9, 9, 9, 9] = .ok (0, [0x41, 0x30, 0x30, 0x46, 0, 9]) := by
  decide +kernel
example : bToStr [0xA0, 0x0F] [9, 9, 9] = .ok (0, [0x41, 0x30, 0]) := by decide +kernel

/-! ## C11: format b -/

theorem drop_set_self (buf : List Byte) (k : Nat) (b : Byte) (h : k < buf.length) :
    (buf.set k b).drop k = b :: buf.drop (k + 1) := by
  rw [List.drop_eq_getElem_cons (by simpa using h), List.getElem_set_self,
    List.drop_set_of_lt (by omega)]

theorem toBLoop_spec : ∀ (k v : Nat) (buf : List Byte), k ≤ buf.length →
    ∃ out, toBLoop k v buf = .ok (out ++ buf.drop k) ∧ out.length = k ∧ beNat out = v % 256 ^ k := by
  intro k
  induction k with
  | zero => intro v buf _; exact ⟨[], by simp [toBLoop], rfl, by simp [beNat, Nat.mod_one]⟩
  | succ k ih =>
    intro v buf h
    obtain ⟨out, h1, h2, h3⟩ := ih (v / 256) (buf.set k (UInt8.ofNat (v % 256))) (by simp; omega)
    refine ⟨out ++ [UInt8.ofNat (v % 256)], ?_, by simp [h2], ?_⟩
    · rw [toBLoop, wr_eq (by omega)]
      simp only [bind_ok]
      rw [h1, drop_set_self buf k _ (by omega)]
      simp
    · rw [beNat_snoc', h3, UInt8.toNat_ofNat', Nat.pow_succ 256 k, Nat.mul_comm (256 ^ k) 256,
        Nat.mod_mul]
      simp only [Nat.reducePow, Nat.mod_mod]
      omega

theorem bToUintLoop_spec (buf : List Byte) (h4 : buf.length ≤ 4) : ∀ (fuel i : Nat),
    buf.length < fuel + i → i ≤ buf.length →
    bToUintLoop buf fuel i (beNat (buf.take i)) = .ok (beNat buf) := by
  intro fuel
  induction fuel with
  | zero => intro i h1 h2; omega
  | succ fuel ih =>
    intro i h1 h2
    unfold bToUintLoop
    split
    · rw [List.take_of_length_le (by omega)]
    · rename_i hi
      have hi : i < buf.length := by omega
      rw [rd_eq hi]
      simp only [bind_ok]
      rw [← ih (i + 1) (by omega) (by omega)]
      congr 1
      have hlt := beNat_lt (buf.take i)
      have hle : 256 ^ (buf.take i).length ≤ 256 ^ 3 :=
        Nat.pow_le_pow_right (by omega) (by simp; omega)
      rw [List.take_add_one, List.getElem?_eq_getElem hi, Option.toList_some, beNat_snoc',
        Nat.mod_eq_of_lt (by omega)]

/-- **C11** (encoding).  Any 32-bit value is written as big-endian binary filling the whole
buffer, modulo 256^length. -/
theorem C11_encode (value : Nat) (buf : List Byte) (h : buf ≠ []) :
    ∃ out, uintToFormatB value buf = .ok (some out) ∧ out.length = buf.length ∧
      beNat out = value % 256 ^ buf.length := by
  have h1 : buf.length ≠ 0 := by simpa using h
  obtain ⟨out, e1, e2, e3⟩ := toBLoop_spec buf.length value buf (Nat.le_refl _)
  refine ⟨out, ?_, e2, e3⟩
  rw [uintToFormatB, if_neg h1, e1]
  simp

/-- **C11** (decoding).  One to four bytes give their big-endian value; longer fields are
refused, empty ones too. -/
theorem C11_decode (buf : List Byte) :
    (1 ≤ buf.length → buf.length ≤ 4 → formatBToUint buf = .ok (0, beNat buf)) ∧
    (4 < buf.length → ∃ v, formatBToUint buf = .ok (-2, v)) ∧
    (buf.length = 0 → ∃ v, formatBToUint buf = .ok (-1, v)) := by
  refine ⟨?_, ?_, ?_⟩
  · intro h1 h4
    rw [formatBToUint, if_neg (by omega), if_neg (by omega)]
    have := bToUintLoop_spec buf h4 (buf.length + 1) 0 (by omega) (by omega)
    simp only [List.take_zero, show beNat [] = 0 from rfl] at this
    rw [this]; rfl
  · intro h
    exact ⟨0, by rw [formatBToUint, if_neg (by omega), if_pos h]⟩
  · intro h
    exact ⟨0, by rw [formatBToUint, if_pos h]⟩

/-- **C11** (encode then decode).  In a buffer of 1-4 bytes: the value modulo 256^length,
hence the value itself when it fits. -/
theorem C11_encode_decode (value : Nat) (buf : List Byte) (h1 : 1 ≤ buf.length)
    (h4 : buf.length ≤ 4) :
    ∃ out, uintToFormatB value buf = .ok (some out) ∧
      formatBToUint out = .ok (0, value % 256 ^ buf.length) ∧
      (value < 256 ^ buf.length → formatBToUint out = .ok (0, value)) := by
  obtain ⟨out, e1, e2, e3⟩ := C11_encode value buf (by intro e; simp [e] at h1)
  have := (C11_decode out).1 (by omega) (by omega)
  rw [e3] at this
  refine ⟨out, e1, this, fun hv => by rw [this, Nat.mod_eq_of_lt hv]⟩

/-- **C11** (decode then encode).  Encoding the decoded value in any buffer of the same size
gives back the field. -/
theorem C11_decode_encode (field buf : List Byte) (h1 : 1 ≤ field.length)
    (h4 : field.length ≤ 4) (hl : buf.length = field.length) :
    ∃ v, formatBToUint field = .ok (0, v) ∧ uintToFormatB v buf = .ok (some field) := by
  refine ⟨beNat field, (C11_decode field).1 h1 h4, ?_⟩
  obtain ⟨out, e1, e2, e3⟩ := C11_encode (beNat field) buf (by intro e; simp [e] at hl; omega)
  rw [e1, beNat_inj out field (by omega) ?_]
  rw [e3, hl, Nat.mod_eq_of_lt (beNat_lt field)]

example : uintToFormatB 0x12345 [9, 9, 9, 9] = .ok (some [0, 1, 0x23, 0x45]) ∧
    formatBToUint [0, 1, 0x23, 0x45] = .ok (0, 0x12345) := by decide +kernel

/-! ## C09, C10: format n -/

theorem nibbles_snoc (bs : List Byte) (b : Byte) :
    nibbles (bs ++ [b]) = nibbles bs ++ [b.toNat / 16, b.toNat % 16] := by
  induction bs with
  | nil => rfl
  | cons x bs ih => simp [nibbles, ih]

theorem decNat_snoc2 (ds : List Nat) (a b : Nat) :
    decNat (ds ++ [a, b]) = (decNat ds * 10 + a) * 10 + b := by
  simp [decNat, List.foldl_append]

theorem packed : ∀ hi : Fin 10, ∀ lo : Fin 10,
    (UInt8.ofNat lo.val ||| (UInt8.ofNat hi.val <<< 4)).toNat = hi.val * 16 + lo.val := by
  decide +kernel

theorem packed_nat (hi lo : Nat) (h1 : hi < 10) (h2 : lo < 10) :
    (UInt8.ofNat lo ||| (UInt8.ofNat hi <<< 4)).toNat = hi * 16 + lo :=
  packed ⟨hi, h1⟩ ⟨lo, h2⟩

theorem isFormatN_snoc (bs : List Byte) (b : Byte) (h : IsFormatN bs) (h1 : b.toNat / 16 ≤ 9)
    (h2 : b.toNat % 16 ≤ 9) : IsFormatN (bs ++ [b]) := by
  intro d hd
  rw [nibbles_snoc] at hd
  simp at hd
  rcases hd with hd | hd | hd
  · exact h d hd
  · omega
  · omega

theorem digit_eq (v : Nat) : (if v ≠ 0 then UInt8.ofNat (v % 10) else (0 : Byte)) =
    UInt8.ofNat (v % 10) := by
  split
  · rfl
  · have : v = 0 := by omega
    subst this; rfl

theorem next_eq (v : Nat) : (if v ≠ 0 then v / 10 else v) = v / 10 := by
  split
  · rfl
  · omega

theorem toNLoop_step (fuel v : Nat) (buf : List Byte) (k i : Nat) (h : k < buf.length)
    (hi : i % 2 = 0) :
    toNLoop (fuel + 2) v buf (k + 1) i = toNLoop fuel (v / 10 / 10)
      (buf.set k (UInt8.ofNat (v % 10) ||| (UInt8.ofNat (v / 10 % 10) <<< 4))) k (i + 2) := by
  have e1 : ¬ (i + 1) % 2 = 0 := by omega
  rw [toNLoop]
  simp only [digit_eq, next_eq, Nat.add_one_ne_zero, if_false, hi, if_true, Nat.add_sub_cancel]
  rw [wr_eq h]
  simp only [bind_ok]
  rw [toNLoop]
  simp only [digit_eq, next_eq, Nat.add_one_ne_zero, if_false, e1, Nat.add_sub_cancel]
  rw [rd_eq (by simpa using h)]
  simp only [bind_ok]
  rw [wr_eq (by simpa using h)]
  simp only [bind_ok, List.getElem_set_self, List.set_set]

theorem toNLoop_spec : ∀ (k fuel v : Nat) (buf : List Byte) (i : Nat), k ≤ buf.length →
    fuel = 2 * k → i % 2 = 0 →
    ∃ out, toNLoop fuel v buf k i = .ok (out ++ buf.drop k) ∧ out.length = k ∧
      IsFormatN out ∧ decNat (nibbles out) = v % 100 ^ k := by
  intro k
  induction k with
  | zero =>
    intro fuel v buf i _ hf _
    subst hf
    exact ⟨[], by simp [toNLoop], rfl, by simp [IsFormatN, nibbles],
      by simp [decNat, nibbles, Nat.mod_one]⟩
  | succ k ih =>
    intro fuel v buf i h hf hi
    subst hf
    have hp := packed_nat (v / 10 % 10) (v % 10) (by omega) (by omega)
    obtain ⟨out, h1, h2, h3, h4⟩ := ih (2 * k) (v / 10 / 10)
      (buf.set k (UInt8.ofNat (v % 10) ||| (UInt8.ofNat (v / 10 % 10) <<< 4))) (i + 2)
      (by simp; omega) rfl (by omega)
    refine ⟨out ++ [UInt8.ofNat (v % 10) ||| (UInt8.ofNat (v / 10 % 10) <<< 4)], ?_,
      by simp [h2], ?_, ?_⟩
    · rw [show 2 * (k + 1) = 2 * k + 2 by omega, toNLoop_step _ _ _ _ _ (by omega) hi, h1,
        drop_set_self buf k _ (by omega)]
      simp
    · exact isFormatN_snoc _ _ h3 (by rw [hp]; omega) (by rw [hp]; omega)
    · rw [nibbles_snoc, decNat_snoc2, h4, hp, Nat.pow_succ, Nat.mul_comm (100 ^ k) 100,
        Nat.mod_mul, Nat.div_div_eq_div_mul]
      simp only [Nat.reduceMul]
      omega

theorem hi_bad : ∀ b : Byte, (b >>> 4 > 9 ↔ b.toNat / 16 > 9) ∧ (b >>> 4).toNat = b.toNat / 16 := by
  decide +kernel

theorem lo_bad : ∀ b : Byte, (b &&& 0xF > 9 ↔ b.toNat % 16 > 9) ∧
    (b &&& 0xF).toNat = b.toNat % 16 := by
  decide +kernel

theorem nibbles_append (a b : List Byte) : nibbles (a ++ b) = nibbles a ++ nibbles b := by
  induction a with
  | nil => rfl
  | cons x a ih => simp [nibbles, ih]

theorem nToUintLoop_spec (buf : List Byte) : ∀ (rest : List Byte) (fuel : Nat) (pre : List Byte),
    buf = pre ++ rest → rest.length < fuel →
    (IsFormatN rest → nToUintLoop buf fuel pre.length (decNat (nibbles pre) % 2 ^ 32) =
      .ok (0, decNat (nibbles buf) % 2 ^ 32)) ∧
    (¬ IsFormatN rest → ∃ c v, (c = 1 ∨ c = 2) ∧
      nToUintLoop buf fuel pre.length (decNat (nibbles pre) % 2 ^ 32) = .ok (c, v)) := by
  intro rest
  induction rest with
  | nil =>
    intro fuel pre hb hf
    cases fuel with
    | zero => omega
    | succ fuel =>
      subst hb
      refine ⟨fun _ => ?_, fun h => absurd (by simp [IsFormatN, nibbles]) h⟩
      rw [nToUintLoop, if_pos (by simp)]
      simp
  | cons b rest ih =>
    intro fuel pre hb hf
    cases fuel with
    | zero => omega
    | succ fuel =>
      simp only [List.length_cons] at hf
      have hrd : rd buf pre.length = .ok b := by
        subst hb
        have := rd_append_right pre (b :: rest) 0
        simpa using this
      have hlt : pre.length < buf.length := by subst hb; simp
      obtain ⟨hb1, hb2⟩ := hi_bad b
      obtain ⟨hb3, hb4⟩ := lo_bad b
      have hcons : IsFormatN (b :: rest) ↔ b.toNat / 16 ≤ 9 ∧ b.toNat % 16 ≤ 9 ∧ IsFormatN rest := by
        simp [IsFormatN, nibbles]
      rw [hcons]
      unfold nToUintLoop
      rw [if_neg (by omega), hrd]
      simp only [bind_ok]
      by_cases h1 : b.toNat / 16 > 9
      · rw [if_pos (hb1.mpr h1)]
        exact ⟨fun h => by omega, fun _ => ⟨1, _, Or.inl rfl, rfl⟩⟩
      · rw [if_neg (fun h => h1 (hb1.mp h))]
        by_cases h2 : b.toNat % 16 > 9
        · rw [if_pos (hb3.mpr h2)]
          exact ⟨fun h => by omega, fun _ => ⟨2, _, Or.inr rfl, rfl⟩⟩
        · rw [if_neg (fun h => h2 (hb3.mp h))]
          have hv : ((decNat (nibbles pre) % 2 ^ 32 * 10 + (b >>> 4).toNat) % 2 ^ 32 * 10 +
              (b &&& 0xF).toNat) % 2 ^ 32 = decNat (nibbles (pre ++ [b])) % 2 ^ 32 := by
            rw [nibbles_snoc, decNat_snoc2, hb2, hb4]
            omega
          rw [hv]
          have := ih fuel (pre ++ [b]) (by simp [hb]) (by omega)
          simp only [List.length_append, List.length_cons, List.length_nil, Nat.zero_add] at this
          refine ⟨fun h => this.1 h.2.2, fun h => this.2 (fun h3 => h ⟨by omega, by omega, h3⟩)⟩

/-- **C10, partial.**  Decoding reports a parse error exactly when some nibble is not a
decimal digit, and otherwise returns the number spelled by the digits *modulo 2^32*; so it is
that number whenever it fits in 32 bits.  Missing from the full claim: fields denoting
numbers of 2^32 and above, see `C10_wraps`. -/
theorem C10_decode_partial (buf : List Byte) (h : buf ≠ []) :
    (IsFormatN buf → formatNToUint buf = .ok (0, decNat (nibbles buf) % 2 ^ 32)) ∧
    (IsFormatN buf → decNat (nibbles buf) < 2 ^ 32 →
      formatNToUint buf = .ok (0, decNat (nibbles buf))) ∧
    (¬ IsFormatN buf → ∃ c v, 0 < c ∧ formatNToUint buf = .ok (c, v)) := by
  have h1 : buf.length ≠ 0 := by simpa using h
  have := nToUintLoop_spec buf buf (buf.length + 1) [] (by simp) (by omega)
  simp only [List.length_nil, nibbles, show decNat [] = 0 from rfl, Nat.zero_mod] at this
  have e : formatNToUint buf = nToUintLoop buf (buf.length + 1) 0 0 := by
    rw [formatNToUint, if_neg h1]
  rw [e]
  refine ⟨this.1, fun h2 h3 => by rw [this.1 h2, Nat.mod_eq_of_lt h3], fun h2 => ?_⟩
  obtain ⟨c, v, hc, hv⟩ := this.2 h2
  exact ⟨c, v, by omega, hv⟩

/-- **C10 is false** of the code: a valid five-byte field (the size of many EMV amounts is
six) spelling 4294967296 decodes successfully as 0. -/
theorem C10_wraps : ∃ buf : List Byte, IsFormatN buf ∧ decNat (nibbles buf) = 4294967296 ∧
    formatNToUint buf = .ok (0, 0) :=
  ⟨[0x42, 0x94, 0x96, 0x72, 0x96], by decide +kernel, by decide +kernel, by decide +kernel⟩

/-- **C09** (encoding).  The whole buffer is filled with decimal digits spelling the value
modulo 10^(2 x length), so left padded with zeros. -/
theorem C09_encode (value : Nat) (buf : List Byte) (h : buf ≠ []) :
    ∃ out, uintToFormatN value buf = .ok (some out) ∧ out.length = buf.length ∧
      IsFormatN out ∧ decNat (nibbles out) = value % 10 ^ (2 * buf.length) := by
  have h1 : buf.length ≠ 0 := by simpa using h
  obtain ⟨out, e1, e2, e3, e4⟩ := toNLoop_spec buf.length _ value buf 0 (Nat.le_refl _) rfl rfl
  refine ⟨out, ?_, e2, e3, ?_⟩
  · rw [uintToFormatN, if_neg h1, e1]
    simp
  · rw [e4, Nat.pow_mul]

/-- **C09** (round trip).  Decoding the encoded value gives it modulo 10^(2 x length), hence
the value itself when the buffer has enough digits. -/
theorem C09_roundtrip (value : Nat) (hv : value < 2 ^ 32) (buf : List Byte) (h : buf ≠ []) :
    ∃ out, uintToFormatN value buf = .ok (some out) ∧
      formatNToUint out = .ok (0, value % 10 ^ (2 * buf.length)) ∧
      (value < 10 ^ (2 * buf.length) → formatNToUint out = .ok (0, value)) := by
  obtain ⟨out, e1, e2, e3, e4⟩ := C09_encode value buf h
  have hne : out ≠ [] := by
    intro e; rw [e] at e2; exact h (List.length_eq_zero_iff.mp e2.symm)
  have hlt : decNat (nibbles out) < 2 ^ 32 := by
    rw [e4]; exact Nat.lt_of_le_of_lt (Nat.mod_le _ _) hv
  have := (C10_decode_partial out hne).2.1 e3 hlt
  rw [e4] at this
  exact ⟨out, e1, this, fun h => by rw [this, Nat.mod_eq_of_lt h]⟩

example : uintToFormatN 1234567 [9, 9, 9, 9] = .ok (some [0x01, 0x23, 0x45, 0x67]) ∧
    formatNToUint [0x01, 0x23, 0x45, 0x67] = .ok (0, 1234567) ∧
    uintToFormatN 1234567 [9, 9] = .ok (some [0x45, 0x67]) ∧
    formatNToUint [0x01, 0x2A] = .ok (2, 12) := by decide +kernel

end Verif.Formats
