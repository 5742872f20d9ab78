import Verif.Str
import Verif.FormatsProps

/-! # Properties of the value strings: C50, C53, C54, C55 -/

set_option autoImplicit false

namespace Verif.Str
open Verif Formats BerSpec

/-! ## Specification -/

/-- ASCII letters. -/
def IsA (b : Byte) : Prop := Char.isAlpha (Char.ofNat b.toNat) = true
/-- ASCII letters and digits. -/
def IsAn (b : Byte) : Prop := Char.isAlphanum (Char.ofNat b.toNat) = true
/-- ASCII letters, digits and the space. -/
def IsAnSpace (b : Byte) : Prop := IsAn b ∨ Char.ofNat b.toNat = ' '
/-- The common character set of EMV Book 4, Annex B as the library takes it: rows 2 to 7 of
the code table. -/
def IsCcs (b : Byte) : Prop := 2 ≤ b.toNat / 16 ∧ b.toNat / 16 ≤ 7

/-- The ASCII character of a digit; for nibbles above 9 the following characters `:` to `?`. -/
def digitChar (d : Nat) : Byte := UInt8.ofNat ('0'.toNat + d)

/-- Canonical decimal digits of a number, most significant first. -/
def digits (n : Nat) : List Nat := if n < 10 then [n] else digits (n / 10) ++ [n % 10]

/-! ## C55: character sets -/

theorem copyLoop_spec (ok : Byte → Bool) (old : List Byte) : ∀ (buf s str : List Byte),
    s.length + buf.length < old.length → str = s ++ old.drop s.length →
    ((∀ b ∈ buf, ok b = true) →
      copyLoop ok buf str s.length = .ok (0, strOver (s ++ buf) old)) ∧
    ((∃ b ∈ buf, ok b = false) →
      ∃ str', copyLoop ok buf str s.length = .ok (1, str') ∧ str'.length = old.length) := by
  intro buf
  induction buf with
  | nil =>
    intro s str h hs
    simp only [List.length_nil, Nat.add_zero] at h
    simp [copyLoop, wr_over s str old 0 h hs, strOver]
  | cons b buf ih =>
    intro s str h hs
    simp only [List.length_cons] at h
    have hw := wr_over s str old b (by omega) hs
    have hi := ih (s ++ [b]) (s ++ b :: old.drop (s.length + 1)) (by simp; omega) (by simp)
    simp only [List.length_append, List.length_cons, List.length_nil, Nat.zero_add,
      List.append_assoc, List.cons_append, List.nil_append] at hi
    by_cases hb : ok b = true
    · refine ⟨fun ha => ?_, fun ⟨x, hx, hxb⟩ => ?_⟩
      · rw [copyLoop, if_pos hb, hw, bind_ok]
        exact hi.1 (fun x hx => ha x (List.mem_cons_of_mem _ hx))
      · rw [copyLoop, if_pos hb, hw, bind_ok]
        rcases List.mem_cons.1 hx with rfl | hx
        · rw [hb] at hxb; cases hxb
        · exact hi.2 ⟨x, hx, hxb⟩
    · refine ⟨fun ha => absurd (ha b (List.mem_cons_self ..)) hb, fun _ => ⟨str, ?_, ?_⟩⟩
      · rw [copyLoop, if_neg hb]
      · subst hs; simp; omega

theorem copyStr_spec (ok : Byte → Bool) (buf str : List Byte) :
    (buf ≠ [] ∧ buf.length < str.length ∧ (∀ b ∈ buf, ok b = true) →
      copyStr ok buf str = .ok (0, strOver buf str)) ∧
    (¬ (buf ≠ [] ∧ buf.length < str.length ∧ (∀ b ∈ buf, ok b = true)) →
      ∃ c str', c ≠ 0 ∧ str'.length = str.length ∧ copyStr ok buf str = .ok (c, str')) := by
  have := copyLoop_spec ok str buf [] str
  simp only [List.length_nil, Nat.zero_add, List.drop_zero, List.nil_append,
    forall_const] at this
  refine ⟨fun ⟨h1, h2, h3⟩ => ?_, fun h => ?_⟩
  · have h1 : buf.length ≠ 0 := by simpa using h1
    rw [copyStr, if_neg (by omega), if_neg (by omega)]
    exact (this h2).1 h3
  · rw [copyStr]
    by_cases h1 : buf.length = 0 ∨ str.length = 0
    · exact ⟨-1, str, by decide, rfl, by rw [if_pos h1]⟩
    · by_cases h2 : str.length < buf.length + 1
      · exact ⟨-2, str, by decide, rfl, by rw [if_neg h1, if_pos h2]⟩
      · rw [if_neg h1, if_neg h2]
        have h3 : ∃ b ∈ buf, ok b = false := by
          apply Classical.byContradiction
          intro hn
          refine h ⟨?_, by omega, fun b hb => ?_⟩
          · intro e; simp [e] at h1
          · cases hok : ok b
            · exact absurd ⟨b, hb, hok⟩ hn
            · rfl
        obtain ⟨str', e1, e2⟩ := (this (by omega)).2 h3
        exact ⟨1, str', by decide, e2, e1⟩

/-- A validating copy `f` accepts exactly the non-empty fields which fit with a terminator and
consist of characters in `P`, and then the output is the field, NUL terminated.  Whatever the
input, it stays inside the output. -/
def ValidatingCopy (P : Byte → Prop) (f : List Byte → List Byte → C (Int × List Byte)) : Prop :=
  ∀ buf str,
    (buf ≠ [] ∧ buf.length < str.length ∧ (∀ b ∈ buf, P b) →
      f buf str = .ok (0, strOver buf str)) ∧
    (¬ (buf ≠ [] ∧ buf.length < str.length ∧ (∀ b ∈ buf, P b)) →
      ∃ c str', c ≠ 0 ∧ str'.length = str.length ∧ f buf str = .ok (c, str'))

theorem validatingCopy {P : Byte → Prop} {ok : Byte → Bool} (h : ∀ b, P b ↔ ok b = true) :
    ValidatingCopy P (copyStr ok) := by
  intro buf str
  simp only [h]
  exact copyStr_spec ok buf str

instance (b : Byte) : Decidable (IsA b) := by unfold IsA; infer_instance
instance (b : Byte) : Decidable (IsAn b) := by unfold IsAn; infer_instance
instance (b : Byte) : Decidable (IsAnSpace b) := by unfold IsAnSpace; infer_instance
instance (b : Byte) : Decidable (IsCcs b) := by unfold IsCcs; infer_instance

/-- **C55** for formats a, an, ans (alphanumeric and space) and ans (common character set). -/
theorem C55_validation :
    ValidatingCopy IsA formatA ∧ ValidatingCopy IsAn formatAn ∧
    ValidatingCopy IsAnSpace formatAnsSpace ∧ ValidatingCopy IsCcs formatAnsCcs :=
  ⟨validatingCopy (by decide +kernel), validatingCopy (by decide +kernel),
    validatingCopy (by decide +kernel), validatingCopy (by decide +kernel)⟩

/-- **C55** in one sentence: the return value is zero exactly for the fields of the format that
fit. -/
theorem C55_accept_iff {P : Byte → Prop} {f : List Byte → List Byte → C (Int × List Byte)}
    (hf : ValidatingCopy P f) (buf str : List Byte) :
    (∃ str', f buf str = .ok (0, str')) ↔
      buf ≠ [] ∧ buf.length < str.length ∧ (∀ b ∈ buf, P b) := by
  constructor
  · rintro ⟨str', e⟩
    apply Classical.byContradiction
    intro hn
    obtain ⟨c, s, hc, -, e2⟩ := (hf buf str).2 hn
    rw [e] at e2
    injection e2 with e2
    exact hc (congrArg Prod.fst e2).symm
  · intro h
    exact ⟨_, (hf buf str).1 h⟩

example : formatAn [0x56, 0x31] [9, 9, 9, 9] = .ok (0, [0x56, 0x31, 0, 9]) ∧
    formatAn [0x56, 0x31] [9, 9] = .ok (-2, [9, 9]) ∧
    formatA [0x56, 0x31] [9, 9, 9] = .ok (1, [0x56, 9, 9]) ∧
    IsAn 0x56 ∧ ¬ IsA 0x31 := by decide +kernel

/-! ## Nibble strings -/

/-- The nibbles before the first padding nibble F. -/
def unpadded (bs : List Byte) : List Nat := (nibbles bs).takeWhile (fun d => d != 15)

theorem hi_char : ∀ b : Byte, (0x30 : Byte) + (b >>> 4) = digitChar (b.toNat / 16) ∧
    ((b >>> 4) = 0xF ↔ b.toNat / 16 = 15) ∧ b >>> 4 = UInt8.ofNat (b.toNat / 16) := by
  decide +kernel

theorem lo_char : ∀ b : Byte, (0x30 : Byte) + (b &&& 0xF) = digitChar (b.toNat % 16) ∧
    ((b &&& 0xF) = 0xF ↔ b.toNat % 16 = 15) ∧ b &&& 0xF = UInt8.ofNat (b.toNat % 16) := by
  decide +kernel

theorem unpadded_length (bs : List Byte) : (unpadded bs).length ≤ 2 * bs.length := by
  rw [← nibbles_length]
  exact (List.takeWhile_sublist _).length_le

theorem unpadded_cons (b : Byte) (bs : List Byte) :
    unpadded (b :: bs) =
      if b.toNat / 16 = 15 then []
      else if b.toNat % 16 = 15 then [b.toNat / 16]
      else b.toNat / 16 :: b.toNat % 16 :: unpadded bs := by
  simp only [unpadded, nibbles, List.takeWhile_cons]
  by_cases h1 : b.toNat / 16 = 15
  · simp [h1]
  · by_cases h2 : b.toNat % 16 = 15
    · simp [h1, h2]
    · simp [h1, h2]

/-- What the nibble loop does: with no bad digit the output is the digits, NUL terminated if
they fit; otherwise it writes past the end. -/
theorem nibLoop_spec (bad : Byte → Bool) (buf old : List Byte) :
    ∀ (rest : List Byte) (fuel : Nat) (pre s str : List Byte),
    buf = pre ++ rest → rest.length < fuel → s.length = pre.length * 2 →
    s.length ≤ old.length → str = s ++ old.drop s.length → bad 0xF = false →
    ((∀ d ∈ unpadded rest, bad (UInt8.ofNat d) = false) →
      nibLoop bad buf fuel pre.length str =
        if s.length + (unpadded rest).length < old.length then
          .ok (0, strOver (s ++ (unpadded rest).map digitChar) old)
        else .error .oobWrite) ∧
    ((∃ d ∈ unpadded rest, bad (UInt8.ofNat d) = true) →
      s.length + (unpadded rest).length < old.length →
      ∃ str', nibLoop bad buf fuel pre.length str = .ok (1, str') ∧
        str'.length = old.length) := by
  intro rest
  induction rest with
  | nil =>
    intro fuel pre s str hb hf hs hso hstr hF
    obtain ⟨fuel, rfl⟩ : ∃ f, fuel = f + 1 := ⟨fuel - 1, by simp at hf; omega⟩
    refine ⟨fun _ => ?_, fun ⟨d, hd, _⟩ => by simp [unpadded, nibbles] at hd⟩
    have hbl : buf.length = pre.length := by simp [hb]
    rw [nibLoop, if_pos (by omega), hbl, ← hs]
    simp only [unpadded, nibbles, List.takeWhile_nil, List.length_nil, Nat.add_zero, List.map_nil,
      List.append_nil]
    by_cases h : s.length < old.length
    · rw [if_pos h, wr_over s str old 0 h hstr, bind_ok]; rfl
    · rw [if_neg h]
      have : ¬ s.length < str.length := by subst hstr; simp; omega
      simp [wr, this]
  | cons b rest ih =>
    intro fuel pre s str hb hf hs hso hstr hF
    obtain ⟨fuel, rfl⟩ : ∃ f, fuel = f + 1 := ⟨fuel - 1, by simp at hf; omega⟩
    have hbl : buf.length = pre.length + (rest.length + 1) := by simp [hb]
    have hrd : rd buf pre.length = .ok b := by
      rw [hb]; simpa using rd_append_right pre (b :: rest) 0
    have hlen : str.length = old.length := by subst hstr; simp; omega
    rw [nibLoop, if_neg (by omega), hrd, bind_ok]
    obtain ⟨hc1, hc2, hc3⟩ := hi_char b
    obtain ⟨lc1, lc2, lc3⟩ := lo_char b
    rw [unpadded_cons]
    by_cases h1 : b.toNat / 16 = 15
    · -- padding in the high nibble
      rw [if_pos h1]
      have hnb : bad (b >>> 4) = false := by rw [hc2.2 h1]; exact hF
      simp only [hnb, Bool.false_eq_true, if_false]
      rw [if_pos (hc2.2 h1), ← hs]
      refine ⟨fun _ => ?_, fun ⟨d, hd, _⟩ => by simp at hd⟩
      simp only [List.length_nil, Nat.add_zero, List.map_nil, List.append_nil]
      by_cases h : s.length < old.length
      · rw [if_pos h, wr_over s str old 0 h hstr, bind_ok]; rfl
      · rw [if_neg h]
        have : ¬ s.length < str.length := by omega
        simp [wr, this]
    · rw [if_neg h1]
      have hne : ¬ (b >>> 4 = 0xF) := fun e => h1 (hc2.1 e)
      by_cases hbad : bad (b >>> 4) = true
      · -- bad high nibble
        simp only [hbad, if_true]
        rw [hc3] at hbad
        refine ⟨fun ha => ?_, fun _ _ => ⟨str, rfl, hlen⟩⟩
        exfalso
        have : bad (UInt8.ofNat (b.toNat / 16)) = false := by
          apply ha; split <;> simp
        rw [hbad] at this; cases this
      · have hbadf : bad (b >>> 4) = false := by simpa using hbad
        simp only [hbadf, Bool.false_eq_true, if_false]
        rw [if_neg hne, ← hs, hc1]
        by_cases hroom : s.length < old.length
        · rw [wr_over s str old _ hroom hstr, bind_ok]
          have hs1 : (s ++ [digitChar (b.toNat / 16)]).length = s.length + 1 := by simp
          have hstr1 : s ++ digitChar (b.toNat / 16) :: old.drop (s.length + 1) =
              (s ++ [digitChar (b.toNat / 16)]) ++
                old.drop (s ++ [digitChar (b.toNat / 16)]).length := by simp
          have hlen1 : (s ++ digitChar (b.toNat / 16) :: old.drop (s.length + 1)).length =
              old.length := by simp; omega
          by_cases h2 : b.toNat % 16 = 15
          · rw [if_pos h2]
            have hnb : bad (b &&& 0xF) = false := by rw [lc2.2 h2]; exact hF
            simp only [hnb, Bool.false_eq_true, if_false]
            rw [if_pos (lc2.2 h2)]
            refine ⟨fun _ => ?_, fun ⟨d, hd, hdb⟩ => ?_⟩
            · simp only [List.length_cons, List.length_nil, Nat.zero_add, List.map_cons,
                List.map_nil]
              by_cases h : s.length + 1 < old.length
              · rw [if_pos h, ← hs1, wr_over _ _ old 0 (by rw [hs1]; exact h)
                  (by simp), bind_ok]
                rfl
              · rw [if_neg h]
                have : ¬ s.length + 1 <
                    (s ++ digitChar (b.toNat / 16) :: old.drop (s.length + 1)).length := by
                  rw [hlen1]; exact h
                simp only [wr, if_neg this]
                rfl
            · exfalso
              simp only [List.mem_singleton] at hd
              subst hd
              rw [← hc3, hbadf] at hdb; cases hdb
          · rw [if_neg h2]
            have lne : ¬ (b &&& 0xF = 0xF) := fun e => h2 (lc2.1 e)
            by_cases lbad : bad (b &&& 0xF) = true
            · simp only [lbad, if_true]
              rw [lc3] at lbad
              refine ⟨fun ha => ?_, fun _ _ => ⟨_, rfl, hlen1⟩⟩
              exfalso
              have := ha (b.toNat % 16) (by simp)
              rw [lbad] at this; cases this
            · have lbadf : bad (b &&& 0xF) = false := by simpa using lbad
              simp only [lbadf, Bool.false_eq_true, if_false]
              rw [if_neg lne, lc1]
              by_cases hroom2 : s.length + 1 < old.length
              · rw [← hs1, wr_over _ _ old _ (by rw [hs1]; exact hroom2) (by simp), bind_ok]
                have hp : (pre ++ [b]).length = pre.length + 1 := by simp
                have := ih fuel (pre ++ [b])
                  (s ++ [digitChar (b.toNat / 16)] ++ [digitChar (b.toNat % 16)])
                  (s ++ [digitChar (b.toNat / 16)] ++ [digitChar (b.toNat % 16)] ++
                    old.drop (s ++ [digitChar (b.toNat / 16)] ++
                      [digitChar (b.toNat % 16)]).length)
                  (by simp [hb]) (by simp at hf; omega) (by simp; omega) (by simp; omega) rfl hF
                rw [hp] at this
                have hl2 : (s ++ [digitChar (b.toNat / 16)] ++ [digitChar (b.toNat % 16)]).length
                    = s.length + 2 := by simp
                rw [hl2] at this
                have hx : s ++ [digitChar (b.toNat / 16)] ++ digitChar (b.toNat % 16) ::
                    old.drop ((s ++ [digitChar (b.toNat / 16)]).length + 1) =
                    s ++ [digitChar (b.toNat / 16)] ++ [digitChar (b.toNat % 16)] ++
                    old.drop (s.length + 2) := by simp
                rw [hx]
                refine ⟨fun ha => ?_, fun ⟨d, hd, hdb⟩ hr => ?_⟩
                · rw [this.1 (fun d hd => ha d (by simp [hd]))]
                  simp only [List.length_cons, List.map_cons]
                  have : s.length + 2 + (unpadded rest).length =
                    s.length + ((unpadded rest).length + 1 + 1) := by omega
                  rw [this]
                  simp
                · simp only [List.length_cons] at hr
                  apply this.2 _ (by omega)
                  simp only [List.mem_cons] at hd
                  rcases hd with rfl | rfl | hd
                  · rw [← hc3, hbadf] at hdb; cases hdb
                  · rw [← lc3, lbadf] at hdb; cases hdb
                  · exact ⟨d, hd, hdb⟩
              · refine ⟨fun _ => ?_, fun _ hr => ?_⟩
                · simp only [List.length_cons]
                  rw [if_neg (by omega)]
                  have : ¬ s.length + 1 <
                      (s ++ digitChar (b.toNat / 16) :: old.drop (s.length + 1)).length := by
                    rw [hlen1]; exact hroom2
                  simp only [wr, if_neg this]
                  rfl
                · simp only [List.length_cons] at hr; omega
        · have hw : wr str s.length (digitChar (b.toNat / 16)) = .error .oobWrite := by
            have : ¬ s.length < str.length := by omega
            simp [wr, this]
          rw [hw]
          refine ⟨fun _ => ?_, fun _ hr => by omega⟩
          rw [if_neg (by omega)]
          rfl

/-! ## C54: track 2 -/

/-- **C54** (partial: only when the string fits; the function is given the size of the output
but does not compare it with the length of the field, see `C54_overflow`).  The string is one
character per nibble up to the first F. -/
theorem C54_track2_partial (track2 str : List Byte) (h : track2 ≠ []) (hs : str ≠ [])
    (hfit : (unpadded track2).length < str.length) :
    track2GetString track2 str = .ok (0, strOver ((unpadded track2).map digitChar) str) := by
  have h1 : track2.length ≠ 0 := by simpa using h
  have h2 : str.length ≠ 0 := by simpa using hs
  rw [track2GetString, if_neg h1, if_neg h2]
  have := (nibLoop_spec (fun _ => false) track2 str track2 (track2.length + 1) [] [] str (by simp)
    (by omega) rfl (by simp) (by simp) rfl).1 (fun _ _ => rfl)
  simpa [hfit] using this

/-- Track 2 data is read entirely: a buffer of two characters per byte and the terminator is
always enough. -/
theorem C54_enough (track2 str : List Byte) (h : track2 ≠ [])
    (hfit : 2 * track2.length < str.length) :
    track2GetString track2 str = .ok (0, strOver ((unpadded track2).map digitChar) str) := by
  have := unpadded_length track2
  exact C54_track2_partial track2 str h (by intro e; simp [e] at hfit) (by omega)

/-- **C54 fails**: whenever the string does not fit in a non-empty output, the function writes
past its end. -/
theorem C54_overflow (track2 str : List Byte) (h : track2 ≠ []) (hs : str ≠ [])
    (hfit : str.length ≤ (unpadded track2).length) :
    track2GetString track2 str = .error .oobWrite := by
  have h1 : track2.length ≠ 0 := by simpa using h
  have h2 : str.length ≠ 0 := by simpa using hs
  rw [track2GetString, if_neg h1, if_neg h2]
  have := (nibLoop_spec (fun _ => false) track2 str track2 (track2.length + 1) [] [] str (by simp)
    (by omega) rfl (by simp) (by simp) rfl).1 (fun _ _ => rfl)
  rw [if_neg (by simp; omega)] at this
  simpa using this

/-- Empty field: refused; no output wanted: nothing written. -/
theorem C54_refused (track2 str : List Byte) :
    (track2 = [] → track2GetString track2 str = .ok (-1, str)) ∧
    (track2 ≠ [] → str = [] → track2GetString track2 str = .ok (0, str)) := by
  constructor
  · rintro rfl; rfl
  · rintro h rfl
    have h1 : track2.length ≠ 0 := by simpa using h
    rw [track2GetString, if_neg h1]; rfl

example : track2GetString [0x47, 0x61, 0xD2, 0x5F] [9, 9, 9, 9, 9, 9, 9, 9, 9] =
    .ok (0, [0x34, 0x37, 0x36, 0x31, 0x3D, 0x32, 0x35, 0, 9]) := by decide +kernel
example : track2GetString [0x47, 0x61] [9, 9] = .error .oobWrite := by decide +kernel

/-! ## C53: decimal -/

/-- `k` decimal digits of a number below 10^k, most significant first. -/
def fixedDigits : Nat → Nat → List Nat
  | 0, _ => []
  | k + 1, v => v / 10 ^ k :: fixedDigits k (v % 10 ^ k)

theorem pow10 (k : Nat) : 10 ^ (k + 1) / 10 = 10 ^ k := by
  rw [Nat.pow_succ]; simp

theorem digit_char (d : Nat) : 0x30 + UInt8.ofNat d = digitChar d := by
  apply UInt8.toNat.inj
  simp [digitChar, UInt8.toNat_add]

/-- What the loop leaves: skip leading zeros unless a digit was already emitted. -/
def emitted (found : Bool) (ds : List Nat) : List Nat :=
  if found then ds else ds.dropWhile (fun d => d == 0)

theorem uintLoop_spec (old : List Byte) : ∀ (k : Nat) (v : Nat) (found : Bool) (s str : List Byte),
    s.length < old.length → str = s ++ old.drop s.length →
    uintLoop (k + 1) v (if k = 0 then 0 else 10 ^ (k - 1)) found str s.length =
      if s.length + (emitted found (fixedDigits k v)).length < old.length then
        .ok (0, strOver (s ++ (emitted found (fixedDigits k v)).map digitChar) old)
      else .error .oobWrite := by
  intro k
  induction k with
  | zero =>
    intro v found s str hs hstr
    have : emitted found (fixedDigits 0 v) = [] := by cases found <;> rfl
    rw [this, uintLoop, if_pos (by simp), wr_over s str old 0 hs hstr, if_pos (by simpa using hs)]
    simp [strOver]
  | succ k ih =>
    intro v found s str hs hstr
    have hlen : str.length = old.length := by subst hstr; simp; omega
    have hpos : 10 ^ k ≠ 0 := by have := Nat.pow_pos (n := k) (show 0 < 10 by omega); omega
    rw [if_neg (by omega), uintLoop, show k + 1 - 1 = k by omega, if_neg hpos]
    have hdiv : 10 ^ k / 10 = if k = 0 then 0 else 10 ^ (k - 1) := by
      cases k with
      | zero => simp
      | succ k => simp [pow10]
    rw [fixedDigits, hdiv]
    by_cases he : (decide (v / 10 ^ k ≠ 0) || found) = true
    · simp only [he, if_true, Bool.true_or]
      have hem : emitted found (v / 10 ^ k :: fixedDigits k (v % 10 ^ k)) =
          v / 10 ^ k :: emitted true (fixedDigits k (v % 10 ^ k)) := by
        cases found with
        | true => rfl
        | false =>
          have : v / 10 ^ k ≠ 0 := by simpa using he
          simp [emitted, this]
      rw [hem, digit_char, wr_over s str old _ hs hstr, bind_ok]
      have hl1 : (s ++ digitChar (v / 10 ^ k) :: old.drop (s.length + 1)).length = old.length := by
        simp; omega
      rw [hl1]
      by_cases hroom : old.length - (s.length + 1) = 0
      · rw [if_pos hroom, if_neg (by simp; omega)]
        have : ¬ s.length + 1 < (s ++ digitChar (v / 10 ^ k) :: old.drop (s.length + 1)).length := by
          rw [hl1]; omega
        simp only [wr, if_neg this]
        rfl
      · rw [if_neg hroom]
        have := ih (v % 10 ^ k) true (s ++ [digitChar (v / 10 ^ k)])
          (s ++ digitChar (v / 10 ^ k) :: old.drop (s.length + 1)) (by simp; omega) (by simp)
        simp only [List.length_append, List.length_cons, List.length_nil, Nat.zero_add] at this
        rw [this]
        have e : s.length + 1 + (emitted true (fixedDigits k (v % 10 ^ k))).length =
          s.length + ((emitted true (fixedDigits k (v % 10 ^ k))).length + 1) := by omega
        rw [e]
        simp
    · have hf : found = false := by
        cases found with
        | true => simp at he
        | false => rfl
      have hd : v / 10 ^ k = 0 := by
        apply Classical.byContradiction
        intro hd
        exact he (by simp [hd])
      subst hf
      have he' : (decide (v / 10 ^ k ≠ 0) || false) = false := by simp [hd]
      simp only [he', Bool.false_eq_true, if_false, bind_ok]
      have hroom : ¬ str.length - s.length = 0 := by omega
      rw [if_neg hroom]
      rw [Bool.or_false, ih (v % 10 ^ k) false s str hs hstr]
      have : emitted false (v / 10 ^ k :: fixedDigits k (v % 10 ^ k)) =
          emitted false (fixedDigits k (v % 10 ^ k)) := by
        simp [emitted, hd]
      rw [this]

theorem fixedDigits_snoc : ∀ (k v : Nat), v < 10 ^ (k + 1) →
    fixedDigits (k + 1) v = fixedDigits k (v / 10) ++ [v % 10] := by
  intro k
  induction k with
  | zero => intro v hv; simp [fixedDigits]; omega
  | succ k ih =>
    intro v hv
    rw [fixedDigits, ih _ (Nat.mod_lt _ (Nat.pow_pos (by omega)))]
    rw [fixedDigits]
    have e1 : v / 10 / 10 ^ k = v / 10 ^ (k + 1) := by
      rw [Nat.div_div_eq_div_mul, Nat.pow_succ, Nat.mul_comm]
    have e2 : v % 10 ^ (k + 1) / 10 = v / 10 % 10 ^ k := by
      rw [Nat.pow_succ, Nat.mul_comm, Nat.mod_mul_right_div_self]
    have e3 : v % 10 ^ (k + 1) % 10 = v % 10 := by
      rw [Nat.pow_succ, Nat.mod_mul_left_mod]
    rw [e1, e2, e3]
    rfl

theorem fixedDigits_zero (k : Nat) : fixedDigits k 0 = List.replicate k 0 := by
  induction k with
  | zero => rfl
  | succ k ih => simp [fixedDigits, ih, List.replicate_succ]

theorem dropWhile_zeros (k : Nat) (l : List Nat) :
    (List.replicate k 0 ++ l).dropWhile (fun d => d == 0) = l.dropWhile (fun d => d == 0) := by
  induction k with
  | zero => rfl
  | succ k ih => simp [List.replicate_succ, ih]

theorem digits_ne_nil (v : Nat) : digits v ≠ [] := by
  rw [digits]; split <;> simp

theorem digits_fixed : ∀ (v k : Nat), 0 < v → v < 10 ^ k →
    (fixedDigits k v).dropWhile (fun d => d == 0) = digits v := by
  intro v
  induction v using Nat.strongRecOn with
  | ind v ih =>
    intro k h0 hk
    obtain ⟨k, rfl⟩ : ∃ j, k = j + 1 := by
      cases k with
      | zero => simp at hk; omega
      | succ k => exact ⟨k, rfl⟩
    rw [fixedDigits_snoc k v hk, digits]
    by_cases h10 : v < 10
    · rw [if_pos h10, show v / 10 = 0 by omega, fixedDigits_zero, dropWhile_zeros,
        Nat.mod_eq_of_lt h10]
      have : v ≠ 0 := by omega
      simp [this]
    · rw [if_neg h10]
      have hi := ih (v / 10) (by omega) k (by omega) (by
        rw [Nat.pow_succ] at hk
        exact Nat.div_lt_of_lt_mul (by omega))
      rw [List.dropWhile_append, hi]
      have := digits_ne_nil (v / 10)
      simp [this]

/-- Value and canonicity of the specification `digits`: it spells the number, each digit is
decimal, and there is no leading zero unless the number is zero. -/
theorem digits_spec : ∀ v : Nat, decNat (digits v) = v ∧ (∀ d ∈ digits v, d ≤ 9) ∧
    (v = 0 → digits v = [0]) ∧ (0 < v → (digits v).head? ≠ some 0) := by
  intro v
  induction v using Nat.strongRecOn with
  | ind v ih =>
    rw [digits]
    by_cases h10 : v < 10
    · rw [if_pos h10]
      refine ⟨by simp [decNat], by simp; omega, by intro h; simp [h], by intro h; simp; omega⟩
    · rw [if_neg h10]
      obtain ⟨i1, i2, i3, i4⟩ := ih (v / 10) (by omega)
      refine ⟨?_, ?_, by omega, ?_⟩
      · simp only [decNat, List.foldl_append, List.foldl_cons, List.foldl_nil] at i1 ⊢
        rw [i1]; omega
      · intro d hd
        rcases List.mem_append.1 hd with hd | hd
        · exact i2 d hd
        · simp at hd; omega
      · intro _
        have hne := digits_ne_nil (v / 10)
        rw [List.head?_append, List.head?_eq_some_head hne]
        have := i4 (by omega)
        rw [List.head?_eq_some_head hne] at this
        simpa using this

theorem digits_length : ∀ (k v : Nat), v < 10 ^ (k + 1) → (digits v).length ≤ k + 1 := by
  intro k
  induction k with
  | zero => intro v hv; rw [digits, if_pos (by simpa using hv)]; simp
  | succ k ih =>
    intro v hv
    rw [digits]
    by_cases h10 : v < 10
    · rw [if_pos h10]; simp
    · rw [if_neg h10]
      have := ih (v / 10) (by rw [Nat.pow_succ] at hv; exact Nat.div_lt_of_lt_mul (by omega))
      simp; omega

theorem uintToStr_spec (v : Nat) (str : List Byte) (hv : v < 2 ^ 32) (h2 : 2 ≤ str.length) :
    uintToStr v str =
      if (digits v).length < str.length then .ok (0, strOver ((digits v).map digitChar) str)
      else .error .oobWrite := by
  rw [uintToStr, if_neg (by omega)]
  by_cases h0 : v = 0
  · subst h0
    match str, h2 with
    | a :: b :: rest, _ => simp [wr, digits, strOver, digitChar]
  · rw [if_neg h0]
    have := uintLoop_spec str 10 v false [] str (by simp; omega) (by simp)
    rw [show (if 10 = 0 then 0 else 10 ^ (10 - 1)) = 1000000000 by decide] at this
    rw [show emitted false (fixedDigits 10 v) = digits v from
      digits_fixed v 10 (by omega) (by omega)] at this
    simpa using this

/-- **C53** (partial: only when the output has room for all digits and the terminator; see
`C53_overflow`). -/
theorem C53_uint_partial (v : Nat) (str : List Byte) (hv : v < 2 ^ 32)
    (hfit : (digits v).length < str.length) :
    uintToStr v str = .ok (0, strOver ((digits v).map digitChar) str) := by
  have : 0 < (digits v).length := List.length_pos_iff.2 (digits_ne_nil v)
  rw [uintToStr_spec v str hv (by omega), if_pos hfit]

/-- **C53**: with an output of at least 11 bytes, every 32-bit value is converted. -/
theorem C53_eleven (v : Nat) (str : List Byte) (hv : v < 2 ^ 32) (h : 11 ≤ str.length) :
    uintToStr v str = .ok (0, strOver ((digits v).map digitChar) str) := by
  have := digits_length 9 v (by omega)
  exact C53_uint_partial v str hv (by omega)

/-- **C53**: an output below two bytes is refused. -/
theorem C53_short (v : Nat) (str : List Byte) (h : str.length < 2) :
    uintToStr v str = .ok (-2, str) := by
  rw [uintToStr, if_pos h]

/-- **C53 fails**: whenever the digits and the terminator do not fit in an output of two or
more bytes, the function stores the terminator one byte past the end of the output (and
reports -3). -/
theorem C53_overflow (v : Nat) (str : List Byte) (hv : v < 2 ^ 32) (h2 : 2 ≤ str.length)
    (hfit : str.length ≤ (digits v).length) : uintToStr v str = .error .oobWrite := by
  rw [uintToStr_spec v str hv h2, if_neg (by omega)]

/-- **C53** for amounts: up to four bytes, big endian.  Missing: outputs too small for the digits
(`C53_overflow`). -/
theorem C53_amount_partial (buf str : List Byte) (h1 : 1 ≤ buf.length) (h4 : buf.length ≤ 4)
    (hfit : (digits (beNat buf)).length < str.length) :
    amountGetString buf str = .ok (0, strOver ((digits (beNat buf)).map digitChar) str) := by
  have hv : beNat buf < 2 ^ 32 := by
    have := beNat_lt buf
    have : 256 ^ buf.length ≤ 256 ^ 4 := Nat.pow_le_pow_right (by omega) h4
    omega
  rw [amountGetString, if_neg (by omega), if_neg (by omega), (C11_decode buf).1 h1 h4, bind_ok]
  simpa using C53_uint_partial _ str hv hfit

/-- **C53** for amounts: longer fields are refused with nothing written. -/
theorem C53_amount_refused (buf str : List Byte) (h4 : 4 < buf.length) (hs : str ≠ []) :
    amountGetString buf str = .ok (-2, str) := by
  have : str.length ≠ 0 := by simpa using hs
  obtain ⟨v, e⟩ := (C11_decode buf).2.1 h4
  rw [amountGetString, if_neg (by omega), if_neg this, e, bind_ok]
  simp

/-- **C53** for format n fields whose number fits 32 bits.  Missing: outputs too small for the
digits (`C53_overflow`). -/
theorem C53_format_n_partial (buf str : List Byte) (h : buf ≠ []) (hn : IsFormatN buf)
    (hv : decNat (nibbles buf) < 2 ^ 32)
    (hfit : (digits (decNat (nibbles buf))).length < str.length) :
    formatNGetString buf str =
      .ok (0, strOver ((digits (decNat (nibbles buf))).map digitChar) str) := by
  rw [formatNGetString, (C10_decode_partial buf h).2.1 hn hv, bind_ok]
  simpa using C53_uint_partial _ str hv hfit

/-- **C53** for fields which are not format n: an error, nothing written. -/
theorem C53_format_n_refused (buf str : List Byte) (h : buf ≠ []) (hn : ¬ IsFormatN buf) :
    ∃ c, 0 < c ∧ formatNGetString buf str = .ok (c, str) := by
  obtain ⟨c, v, hc, e⟩ := (C10_decode_partial buf h).2.2 hn
  refine ⟨c, hc, ?_⟩
  rw [formatNGetString, e, bind_ok]
  have : c ≠ 0 := by omega
  simp [this]

example : uintToStr 1050 [9, 9, 9, 9, 9, 9] = .ok (0, [0x31, 0x30, 0x35, 0x30, 0, 9]) ∧
    digits 1050 = [1, 0, 5, 0] := by decide +kernel
example : uintToStr 12 [9, 9] = .error .oobWrite := by decide +kernel
example : amountGetString [0, 0, 4, 0x1A] [9, 9, 9, 9, 9, 9] =
    .ok (0, [0x31, 0x30, 0x35, 0x30, 0, 9]) := by decide +kernel
example : formatNGetString [0x01, 0x23] [9, 9, 9, 9] = .ok (0, [0x31, 0x32, 0x33, 0]) := by
  decide +kernel

/-! ## C50: dates and times -/

/-- `20YY-MM-DD` for the six digits of a date. -/
def dateText : List Nat → List Byte
  | [y1, y0, m1, m0, d1, d0] =>
    [0x32, 0x30, digitChar y1, digitChar y0, 0x2D, digitChar m1, digitChar m0, 0x2D,
      digitChar d1, digitChar d0]
  | _ => []

/-- `hh:mm:ss` for the six digits of a time. -/
def timeText : List Nat → List Byte
  | [h1, h0, m1, m0, s1, s0] =>
    [digitChar h1, digitChar h0, 0x3A, digitChar m1, digitChar m0, 0x3A, digitChar s1,
      digitChar s0]
  | _ => []

theorem hi_dec : ∀ b : Byte, (b >>> 4 > 9 ↔ 9 < b.toNat / 16) ∧ (b &&& 0xF > 9 ↔ 9 < b.toNat % 16) := by
  decide +kernel

theorem bcdLoop3 (a b c : Byte) (n : Nat) (h : 6 ≤ n) :
    (IsFormatN [a, b, c] → bcdLoop [a, b, c] 4 0 (List.replicate n 0) =
      .ok (.ok ((nibbles [a, b, c]).map digitChar ++ List.replicate (n - 6) 0))) ∧
    (¬ IsFormatN [a, b, c] → ∃ e, (e = 2 ∨ e = 3) ∧
      bcdLoop [a, b, c] 4 0 (List.replicate n 0) = .ok (.error e)) := by
  obtain ⟨k, rfl⟩ : ∃ k, n = k + 6 := ⟨n - 6, by omega⟩
  have hw : ∀ (l : List Byte) (i : Nat) (x : Byte), i < l.length →
    wr l i x = .ok (l.set i x) := fun l i x h => wr_eq h
  have e : List.replicate (k + 6) (0 : Byte) = 0 :: 0 :: 0 :: 0 :: 0 :: 0 :: List.replicate k 0 := by
    simp [List.replicate_succ]
  rw [e]
  have ha := hi_char a; have hb := hi_char b; have hc := hi_char c
  have la := lo_char a; have lb := lo_char b; have lc := lo_char c
  have da := hi_dec a; have db := hi_dec b; have dc := hi_dec c
  simp only [bcdLoop, IsFormatN, nibbles, rd_cons_zero, rd_cons_succ, bind_ok, List.length_cons,
    List.length_nil, ha.1, hb.1, hc.1, la.1, lb.1, lc.1, da.1, da.2, db.1, db.2, dc.1, dc.2]
  simp [wr]
  refine ⟨fun a1 a2 b1 b2 c1 c2 => ?_, fun hx => ?_⟩
  · rw [if_neg (by omega), if_neg (by omega), if_neg (by omega), if_neg (by omega),
      if_neg (by omega), if_neg (by omega)]
  · grind

/-- Exact outcome of date stringification with a local array of `n` bytes. -/
theorem dateWith_spec (n : Nat) (a b c : Byte) (str : List Byte) (hs : 11 ≤ str.length)
    (h6 : 6 ≤ n) :
    (IsFormatN [a, b, c] → dateWith n [a, b, c] str =
      if 8 ≤ n then .ok (0, strOver (dateText (nibbles [a, b, c])) str)
      else .error .oobWrite) ∧
    (¬ IsFormatN [a, b, c] → ∃ e, 0 < e ∧ dateWith n [a, b, c] str = .ok (e, str)) := by
  have hb := bcdLoop3 a b c n h6
  have e0 : dateWith n [a, b, c] str = (do
      match ← bcdLoop [a, b, c] 4 0 (List.replicate n 0) with
      | .error c => .ok (c, str)
      | .ok ds => do
        let ds ← wr ds 7 0
        let str ← wr str 0 0x32
        let str ← wr str 1 0x30
        let y ← slice ds 0 2
        let str ← wrs str 2 y
        let str ← wr str 4 0x2D
        let m ← slice ds 2 2
        let str ← wrs str 5 m
        let str ← wr str 7 0x2D
        let d ← slice ds 4 2
        let str ← wrs str 8 d
        let str ← wr str 10 0
        .ok (0, str)) := by
    rw [dateWith, if_neg (by simp), if_neg (by omega), if_neg (by simp), if_neg (by omega)]
    rfl
  rw [e0]
  refine ⟨fun hn => ?_, fun hn => ?_⟩
  · rw [hb.1 hn, bind_ok]
    by_cases h8 : 8 ≤ n
    · rw [if_pos h8]
      obtain ⟨k, rfl⟩ : ∃ k, n = k + 8 := ⟨n - 8, by omega⟩
      match str, hs with
      | x0 :: x1 :: x2 :: x3 :: x4 :: x5 :: x6 :: x7 :: x8 :: x9 :: x10 :: rest, _ =>
        simp [nibbles, wr, wrs, slice, List.replicate_succ, strOver, dateText]
    · rw [if_neg h8]
      have : ¬ 7 < ((nibbles [a, b, c]).map digitChar ++ List.replicate (n - 6) 0).length := by
        simp [nibbles]; omega
      simp only [wr, if_neg this]
      rfl
  · obtain ⟨e, he, hx⟩ := hb.2 hn
    refine ⟨e, by omega, ?_⟩
    rw [hx]; rfl

/-- Exact outcome of time stringification with a local array of `n` bytes. -/
theorem timeWith_spec (n : Nat) (a b c : Byte) (str : List Byte) (hs : 9 ≤ str.length)
    (h6 : 6 ≤ n) :
    (IsFormatN [a, b, c] → timeWith n [a, b, c] str =
      if 8 ≤ n then .ok (0, strOver (timeText (nibbles [a, b, c])) str)
      else .error .oobWrite) ∧
    (¬ IsFormatN [a, b, c] → ∃ e, 0 < e ∧ timeWith n [a, b, c] str = .ok (e, str)) := by
  have hb := bcdLoop3 a b c n h6
  have e0 : timeWith n [a, b, c] str = (do
      match ← bcdLoop [a, b, c] 4 0 (List.replicate n 0) with
      | .error c => .ok (c, str)
      | .ok ts => do
        let ts ← wr ts 7 0
        let h ← slice ts 0 2
        let str ← wrs str 0 h
        let str ← wr str 2 0x3A
        let m ← slice ts 2 2
        let str ← wrs str 3 m
        let str ← wr str 5 0x3A
        let s ← slice ts 4 2
        let str ← wrs str 6 s
        let str ← wr str 8 0
        .ok (0, str)) := by
    rw [timeWith, if_neg (by simp), if_neg (by omega), if_neg (by simp), if_neg (by omega)]
    rfl
  rw [e0]
  refine ⟨fun hn => ?_, fun hn => ?_⟩
  · rw [hb.1 hn, bind_ok]
    by_cases h8 : 8 ≤ n
    · rw [if_pos h8]
      obtain ⟨k, rfl⟩ : ∃ k, n = k + 8 := ⟨n - 8, by omega⟩
      match str, hs with
      | x0 :: x1 :: x2 :: x3 :: x4 :: x5 :: x6 :: x7 :: x8 :: rest, _ =>
        simp [nibbles, wr, wrs, slice, List.replicate_succ, strOver, timeText]
    · rw [if_neg h8]
      have : ¬ 7 < ((nibbles [a, b, c]).map digitChar ++ List.replicate (n - 6) 0).length := by
        simp [nibbles]; omega
      simp only [wr, if_neg this]
      rfl
  · obtain ⟨e, he, hx⟩ := hb.2 hn
    refine ⟨e, by omega, ?_⟩
    rw [hx]; rfl

theorem length_three {buf : List Byte} (h : buf.length = 3) : ∃ a b c, buf = [a, b, c] := by
  match buf, h with
  | [a, b, c], _ => exact ⟨a, b, c, rfl⟩

/-- **C50** (partial: for the functions with their local array enlarged by at least one byte,
`n ≥ 8`; the library declares 7, see `C50_overflow`).  Dates and times of three bytes with
decimal digits are stringified exactly; other nibbles are refused and nothing is written. -/
theorem C50_exact_partial (n : Nat) (hn : 8 ≤ n) (buf str : List Byte) (h3 : buf.length = 3) :
    (11 ≤ str.length → IsFormatN buf →
      dateWith n buf str = .ok (0, strOver (dateText (nibbles buf)) str)) ∧
    (11 ≤ str.length → ¬ IsFormatN buf → ∃ e, 0 < e ∧ dateWith n buf str = .ok (e, str)) ∧
    (9 ≤ str.length → IsFormatN buf →
      timeWith n buf str = .ok (0, strOver (timeText (nibbles buf)) str)) ∧
    (9 ≤ str.length → ¬ IsFormatN buf → ∃ e, 0 < e ∧ timeWith n buf str = .ok (e, str)) := by
  obtain ⟨a, b, c, rfl⟩ := length_three h3
  refine ⟨fun hs hf => ?_, fun hs hf => ?_, fun hs hf => ?_, fun hs hf => ?_⟩
  · rw [(dateWith_spec n a b c str hs (by omega)).1 hf, if_pos hn]
  · exact (dateWith_spec n a b c str hs (by omega)).2 hf
  · rw [(timeWith_spec n a b c str hs (by omega)).1 hf, if_pos hn]
  · exact (timeWith_spec n a b c str hs (by omega)).2 hf

/-- **C50 fails**: every valid date or time stringified into a large enough buffer makes the
library write `date_str[7]` (`time_str[7]`), one past the end of its local array. -/
theorem C50_overflow (buf str : List Byte) (h3 : buf.length = 3) (hf : IsFormatN buf) :
    (11 ≤ str.length → dateGetString buf str = .error .oobWrite) ∧
    (9 ≤ str.length → timeGetString buf str = .error .oobWrite) := by
  obtain ⟨a, b, c, rfl⟩ := length_three h3
  refine ⟨fun hs => ?_, fun hs => ?_⟩
  · rw [dateGetString, (dateWith_spec 7 a b c str hs (by omega)).1 hf]; rfl
  · rw [timeGetString, (timeWith_spec 7 a b c str hs (by omega)).1 hf]; rfl

/-- **C50** for the library as it is, in the cases that return an error: empty fields, other
lengths, small outputs and nibbles above 9 are refused and nothing is written; no output
wanted is fine. -/
theorem C50_refused (buf str : List Byte) :
    (buf = [] → dateGetString buf str = .ok (-1, str) ∧ timeGetString buf str = .ok (-1, str)) ∧
    (buf ≠ [] → str = [] →
      dateGetString buf str = .ok (0, str) ∧ timeGetString buf str = .ok (0, str)) ∧
    (buf ≠ [] → str ≠ [] → buf.length ≠ 3 →
      dateGetString buf str = .ok (1, str) ∧ timeGetString buf str = .ok (1, str)) ∧
    (buf.length = 3 → str ≠ [] → str.length < 11 → dateGetString buf str = .ok (-2, str)) ∧
    (buf.length = 3 → str ≠ [] → str.length < 9 → timeGetString buf str = .ok (-2, str)) ∧
    (buf.length = 3 → 11 ≤ str.length → ¬ IsFormatN buf →
      ∃ e, 0 < e ∧ dateGetString buf str = .ok (e, str)) ∧
    (buf.length = 3 → 9 ≤ str.length → ¬ IsFormatN buf →
      ∃ e, 0 < e ∧ timeGetString buf str = .ok (e, str)) := by
  have hl : ∀ l : List Byte, l ≠ [] → l.length ≠ 0 := fun l h => by simpa using h
  refine ⟨?_, ?_, ?_, ?_, ?_, ?_, ?_⟩
  · rintro rfl; exact ⟨rfl, rfl⟩
  · rintro h rfl
    rw [dateGetString, dateWith, timeGetString, timeWith, if_neg (hl _ h), if_neg (hl _ h)]
    exact ⟨rfl, rfl⟩
  · intro h h2 h3
    rw [dateGetString, dateWith, timeGetString, timeWith, if_neg (hl _ h), if_neg (hl _ h),
      if_neg (hl _ h2), if_neg (hl _ h2), if_pos h3, if_pos h3]
    exact ⟨rfl, rfl⟩
  · intro h3 h2 hs
    rw [dateGetString, dateWith, if_neg (by omega), if_neg (hl _ h2), if_neg (by omega),
      if_pos hs]
  · intro h3 h2 hs
    rw [timeGetString, timeWith, if_neg (by omega), if_neg (hl _ h2), if_neg (by omega),
      if_pos hs]
  · intro h3 hs hf
    obtain ⟨a, b, c, rfl⟩ := length_three h3
    exact (dateWith_spec 7 a b c str hs (by omega)).2 hf
  · intro h3 hs hf
    obtain ⟨a, b, c, rfl⟩ := length_three h3
    exact (timeWith_spec 7 a b c str hs (by omega)).2 hf

example : dateWith 8 [0x26, 0x12, 0x31] (List.replicate 12 9) =
    .ok (0, "2026-12-31".toUTF8.toList ++ [0, 9]) := by decide +kernel
example : timeWith 8 [0x23, 0x59, 0x07] (List.replicate 9 9) =
    .ok (0, "23:59:07".toUTF8.toList ++ [0]) := by decide +kernel
example : dateGetString [0x26, 0x12, 0x31] (List.replicate 12 9) = .error .oobWrite := by
  decide +kernel
example : dateGetString [0x2A, 0x12, 0x31] (List.replicate 12 9) =
    .ok (3, List.replicate 12 9) := by decide +kernel

end Verif.Str
