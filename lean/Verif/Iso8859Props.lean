import Verif.Iso8859
import Verif.FormatsProps

/-! # Properties of the ISO 8859 conversion: C58 -/

set_option autoImplicit false

namespace Verif.Iso8859
open Verif Formats

/-! ## Specification -/

/-- UTF-8 of an ISO 8859-1 text: each byte is the code point of the same number. -/
def utf8 (text : List Byte) : List Byte :=
  text.flatMap fun b => String.utf8EncodeChar (Char.ofNat b.toNat)

/-- The text of a byte string: everything before the first NUL. -/
def text (s : List Byte) : List Byte := s.takeWhile (· ≠ 0)

/-- The longest prefix the code tries to convert: it stops when fewer than two bytes of the
capacity are left. -/
def fit : Nat → List Byte → List Byte
  | _, [] => []
  | cap, b :: rest => if cap < 2 then [] else b :: fit (cap - (utf8 [b]).length) rest

/-! ## Lemmas -/

theorem utf8_low : ∀ b : Byte, b < 0x80 → utf8 [b] = [b] := by decide +kernel
theorem utf8_high : ∀ b : Byte, ¬ b < 0x80 →
    utf8 [b] = [(0xC0 : Byte) ||| (b >>> 6), (0x80 : Byte) ||| (b &&& 0x3F)] := by decide +kernel
theorem rejected_iff : ∀ b : Byte, rejected b = !decide (Printable8859 b) := by decide +kernel
theorem utf8_single : ∀ b : Byte, (utf8 [b]).length = 1 ∨ (utf8 [b]).length = 2 := by
  decide +kernel

theorem utf8_cons (b : Byte) (s : List Byte) : utf8 (b :: s) = utf8 [b] ++ utf8 s := by
  simp [utf8]

theorem fit_prefix : ∀ (cap : Nat) (s : List Byte), fit cap s <+: s := by
  intro cap s
  induction s generalizing cap with
  | nil => simp [fit]
  | cons b s ih =>
    unfold fit
    split
    · exact List.nil_prefix
    · exact List.cons_prefix_cons.mpr ⟨rfl, ih _⟩

theorem fit_length : ∀ (cap : Nat) (s : List Byte), (utf8 (fit cap s)).length ≤ cap := by
  intro cap s
  induction s generalizing cap with
  | nil => simp [fit, utf8]
  | cons b s ih =>
    unfold fit
    split
    · simp [utf8]
    · rw [utf8_cons, List.length_append]
      have := ih (cap - (utf8 [b]).length)
      have := utf8_single b
      omega

theorem fit_all : ∀ (cap : Nat) (s : List Byte), (utf8 s).length < cap → fit cap s = s := by
  intro cap s
  induction s generalizing cap with
  | nil => simp [fit]
  | cons b s ih =>
    intro h
    rw [utf8_cons, List.length_append] at h
    have := utf8_single b
    unfold fit
    rw [if_neg (by omega), ih _ (by omega)]

theorem fit_stop : ∀ (cap : Nat) (s : List Byte),
    fit cap s = s ∨ cap < (utf8 (fit cap s)).length + 2 := by
  intro cap s
  induction s generalizing cap with
  | nil => exact Or.inl rfl
  | cons b s ih =>
    unfold fit
    split
    · exact Or.inr (by omega)
    · rcases ih (cap - (utf8 [b]).length) with h | h
      · exact Or.inl (by rw [h])
      · right
        rw [utf8_cons, List.length_append]
        omega

theorem fit_room : ∀ (cap : Nat) (s q : List Byte), q <+: fit cap s → q ≠ fit cap s →
    (utf8 q).length + 2 ≤ cap := by
  intro cap s
  induction s generalizing cap with
  | nil =>
    intro q h hn
    exact absurd (List.prefix_nil.1 h) hn
  | cons b s ih =>
    intro q
    unfold fit
    split
    · intro h hn
      exact absurd (List.prefix_nil.1 h) hn
    · intro h hn
      cases q with
      | nil => simp [utf8]; omega
      | cons c q =>
        obtain ⟨rfl, h⟩ := List.cons_prefix_cons.mp h
        have := ih (cap - (utf8 [c]).length) q h (by rintro rfl; exact hn rfl)
        rw [utf8_cons, List.length_append]
        omega

/-- Complete behaviour of the loop on printable text. -/
theorem loop_spec : ∀ (iso s old : List Byte), s.length ≤ old.length →
    (∀ b ∈ text iso, Printable8859 b) →
    loop iso (s ++ old.drop s.length) s.length =
      let out := s ++ utf8 (fit (old.length - s.length) (text iso))
      if out.length < old.length then .ok (0, strOver out old) else .error .oobWrite := by
  have fin : ∀ s old : List Byte, s.length ≤ old.length →
      (do let u ← wr (s ++ old.drop s.length) s.length 0; .ok (0, u) : C (Int × List Byte)) =
      if s.length < old.length then .ok (0, strOver s old) else .error .oobWrite := by
    intro s old hs
    split
    · rename_i h
      rw [wr_over s _ old 0 h rfl]
      rfl
    · rename_i h
      unfold wr
      rw [if_neg (by simp; omega)]
      rfl
  intro iso
  induction iso with
  | nil =>
    intro s old hs _
    simp only [loop, text, List.takeWhile_nil, fit, utf8, List.flatMap_nil, List.append_nil]
    exact fin s old hs
  | cons b iso ih =>
    intro s old hs hp
    unfold loop
    by_cases hb : b = 0
    · rw [if_pos hb]
      simp only [text, hb, ne_eq, not_true_eq_false, decide_false, List.takeWhile_cons,
        Bool.false_eq_true, if_false, fit, utf8, List.flatMap_nil, List.append_nil]
      exact fin s old hs
    · have ht : text (b :: iso) = b :: text iso := by simp [text, hb]
      rw [if_neg hb, ht]
      rw [ht] at hp
      have hl : (s ++ old.drop s.length).length = old.length := by simp; omega
      rw [hl]
      unfold fit
      by_cases h2 : old.length - s.length < 2
      · rw [if_pos h2, if_pos h2]
        simp only [utf8, List.flatMap_nil, List.append_nil]
        exact fin s old hs
      · have hpb := hp b (by simp)
        rw [if_neg h2, if_neg (by rw [rejected_iff]; simp [hpb]), if_neg h2, utf8_cons]
        have ih' := fun s' hs' => ih s' old hs' (fun x hx => hp x (by simp [hx]))
        split
        · rename_i hlow
          rw [wr_over s _ old b (by omega) rfl]
          simp only [bind_ok]
          have := ih' (s ++ [b]) (by simp; omega)
          rw [List.length_append, List.length_singleton, List.append_assoc] at this
          rw [show s ++ b :: old.drop (s.length + 1) = s ++ ([b] ++ old.drop (s.length + 1)) from rfl,
            this, utf8_low b hlow]
          simp only [List.append_assoc, List.length_singleton, Nat.sub_sub]
        · rename_i hhigh
          rw [wr_over s _ old _ (by omega) rfl]
          simp only [bind_ok]
          have e2 := wr_over (s ++ [(0xC0 : Byte) ||| (b >>> 6)]) (s ++ ((0xC0 : Byte) ||| (b >>> 6)) :: old.drop (s.length + 1))
            old ((0x80 : Byte) ||| (b &&& 0x3F)) (by simp; omega) (by simp)
          rw [List.length_append, List.length_singleton] at e2
          rw [e2]
          simp only [bind_ok]
          have := ih' (s ++ [(0xC0 : Byte) ||| (b >>> 6), (0x80 : Byte) ||| (b &&& 0x3F)]) (by simp; omega)
          rw [List.length_append] at this
          simp only [List.length_cons, List.length_nil, Nat.zero_add, Nat.reduceAdd] at this
          have e3 : (s ++ [(0xC0 : Byte) ||| (b >>> 6)]) ++ ((0x80 : Byte) ||| (b &&& 0x3F)) :: old.drop (s.length + 1 + 1) =
              (s ++ [(0xC0 : Byte) ||| (b >>> 6), (0x80 : Byte) ||| (b &&& 0x3F)]) ++ old.drop (s.length + 2) := by simp
          rw [e3, this, utf8_high b hhigh]
          simp only [List.append_assoc, List.length_cons, List.length_nil, Nat.sub_sub]

theorem toUtf8_spec (iso old : List Byte) (hi : iso ≠ []) (ho : old ≠ [])
    (hp : ∀ b ∈ text iso, Printable8859 b) :
    toUtf8 1 iso old =
      let p := fit old.length (text iso)
      if (utf8 p).length < old.length then
        .ok (0, utf8 p ++ 0 :: ((0 :: old.tail).drop ((utf8 p).length + 1)))
      else .error .oobWrite := by
  have h1 : iso.length ≠ 0 := by simpa using hi
  have h2 : old.length ≠ 0 := by simpa using ho
  unfold toUtf8
  rw [if_neg (by omega), wr_eq (by omega)]
  simp only [bind_ok]
  rw [if_neg (by decide)]
  have e : old.set 0 0 = 0 :: old.tail := by
    cases old with
    | nil => simp at ho
    | cons a l => rfl
  rw [e]
  have := loop_spec iso [] (0 :: old.tail) (by simp) hp
  have hl : (0 :: old.tail).length = old.length := by simp; omega
  simp only [List.length_nil, List.drop_zero, List.nil_append, Nat.sub_zero, hl] at this
  rw [this]
  rfl

theorem loop_control (b : Byte) (tl : List Byte) (hb0 : b ≠ 0) (hb : ¬ Printable8859 b) :
    ∀ (p s old : List Byte), (∀ x ∈ p, Printable8859 x) →
      s.length + (utf8 p).length + 2 ≤ old.length →
      loop (p ++ b :: tl) (s ++ old.drop s.length) s.length =
        .ok (2, (s ++ utf8 p) ++ old.drop (s ++ utf8 p).length) := by
  intro p
  induction p with
  | nil =>
    intro s old _ hl
    simp only [utf8, List.flatMap_nil, List.length_nil] at hl
    have e : (s ++ old.drop s.length).length = old.length := by simp; omega
    simp only [List.nil_append, utf8, List.flatMap_nil, List.append_nil]
    unfold loop
    rw [if_neg hb0, e, if_neg (by omega), if_pos (by rw [rejected_iff]; simp [hb])]
  | cons c p ih =>
    intro s old hp hl
    rw [utf8_cons, List.length_append] at hl
    have hc := hp c (by simp)
    have hc0 : c ≠ 0 := by rintro rfl; revert hc; decide
    have e : (s ++ old.drop s.length).length = old.length := by simp; omega
    have h12 := utf8_single c
    have ih' := fun s' hs' => ih s' old (fun x hx => hp x (by simp [hx])) hs'
    rw [List.cons_append, utf8_cons]
    unfold loop
    rw [if_neg hc0, e, if_neg (by omega), if_neg (by rw [rejected_iff]; simp [hc])]
    split
    · rename_i hlow
      rw [utf8_low c hlow] at hl ⊢
      rw [wr_over s _ old c (by simp at hl; omega) rfl]
      simp only [bind_ok]
      have := ih' (s ++ [c]) (by simp at hl ⊢; omega)
      rw [List.length_append, List.length_singleton, List.append_assoc] at this
      rw [show s ++ c :: old.drop (s.length + 1) = s ++ ([c] ++ old.drop (s.length + 1)) from rfl, this]
      simp only [List.append_assoc]
    · rename_i hhigh
      rw [utf8_high c hhigh] at hl ⊢
      rw [wr_over s _ old _ (by simp at hl; omega) rfl]
      simp only [bind_ok]
      have e2 := wr_over (s ++ [(0xC0 : Byte) ||| (c >>> 6)]) (s ++ ((0xC0 : Byte) ||| (c >>> 6)) :: old.drop (s.length + 1))
        old ((0x80 : Byte) ||| (c &&& 0x3F)) (by simp at hl ⊢; omega) (by simp)
      rw [List.length_append, List.length_singleton] at e2
      rw [e2]
      simp only [bind_ok]
      have := ih' (s ++ [(0xC0 : Byte) ||| (c >>> 6), (0x80 : Byte) ||| (c &&& 0x3F)]) (by simp at hl ⊢; omega)
      rw [List.length_append] at this
      simp only [List.length_cons, List.length_nil, Nat.zero_add, Nat.reduceAdd] at this
      have e3 : (s ++ [(0xC0 : Byte) ||| (c >>> 6)]) ++ ((0x80 : Byte) ||| (c &&& 0x3F)) :: old.drop (s.length + 1 + 1) =
          (s ++ [(0xC0 : Byte) ||| (c >>> 6), (0x80 : Byte) ||| (c &&& 0x3F)]) ++ old.drop (s.length + 2) := by simp
      rw [e3, this]
      simp only [List.append_assoc]

/-! ## Properties -/

/-- **C58, partial.**  For printable ISO 8859-1 text whose UTF-8 form with its terminator fits,
the conversion succeeds, writes only inside the output, and the output is that UTF-8 form,
NUL terminated.  Missing: text that does not fit, see `C58_truncation_partial` and
`C58_overflow`. -/
theorem C58_whole_partial (iso old : List Byte) (hi : iso ≠ [])
    (hp : ∀ b ∈ text iso, Printable8859 b) (hf : (utf8 (text iso)).length < old.length) :
    ∃ rest, toUtf8 1 iso old = .ok (0, utf8 (text iso) ++ 0 :: rest) ∧
      (utf8 (text iso) ++ 0 :: rest).length = old.length := by
  have ho : old ≠ [] := by intro h; simp [h] at hf
  have h := toUtf8_spec iso old hi ho hp
  simp only [fit_all _ _ hf] at h
  rw [if_pos hf] at h
  refine ⟨_, h, ?_⟩
  simp
  omega

/-- **C58, partial.**  For any printable text and any output size the conversion either writes
one byte past the output (exactly when the last character kept fills it completely), or the
output is the NUL-terminated UTF-8 form of a prefix of the text.  The prefix is the whole text or
ends where fewer than two bytes are left, and not later.  Missing: that no byte is written past the
output, see `C58_overflow`. -/
theorem C58_truncation_partial (iso old : List Byte) (hi : iso ≠ []) (ho : old ≠ [])
    (hp : ∀ b ∈ text iso, Printable8859 b) :
    ∃ p, p <+: text iso ∧ (utf8 p).length ≤ old.length ∧
      (p = text iso ∨ old.length < (utf8 p).length + 2) ∧
      (∀ q, q <+: p → q ≠ p → (utf8 q).length + 2 ≤ old.length) ∧
      ((utf8 p).length < old.length → ∃ rest, toUtf8 1 iso old = .ok (0, utf8 p ++ 0 :: rest) ∧
        (utf8 p ++ 0 :: rest).length = old.length) ∧
      ((utf8 p).length = old.length → toUtf8 1 iso old = .error .oobWrite) := by
  have h := toUtf8_spec iso old hi ho hp
  have h2 : old.length ≠ 0 := by simpa using ho
  refine ⟨fit old.length (text iso), fit_prefix _ _, fit_length _ _, fit_stop _ _, fit_room _ _, ?_, ?_⟩
  · intro hlt
    simp only at h
    rw [if_pos hlt] at h
    refine ⟨_, h, ?_⟩
    simp
    omega
  · intro he
    simp only at h
    rw [if_neg (by omega)] at h
    exact h

/-- **C58 is false**: a two-byte output and one accented letter write the terminator one byte
past the end. -/
theorem C58_overflow : toUtf8 1 [0xE9] [9, 9] = .error .oobWrite := by decide

example : toUtf8 1 [0x41, 0xE9, 0, 0x42] [9, 9, 9, 9, 9] = .ok (0, [0x41, 0xC3, 0xA9, 0, 9]) ∧
    text [0x41, 0xE9, 0, 0x42] = [0x41, 0xE9] := by decide +kernel

/-- **C58** (refusals).  Unsupported code pages and empty arguments are refused. -/
theorem C58_refused (cp : Nat) (iso old : List Byte) :
    (iso = [] ∨ old = [] → toUtf8 cp iso old = .ok (-1, old)) ∧
    (cp ≠ 1 → iso ≠ [] → old ≠ [] → ∃ rest, toUtf8 cp iso old = .ok (1, 0 :: rest)) := by
  constructor
  · intro h
    have : iso.length = 0 ∨ old.length = 0 := by simpa using h
    rw [toUtf8, if_pos this]
  · intro h hi ho
    have h1 : iso.length ≠ 0 := by simpa using hi
    have h2 : old.length ≠ 0 := by simpa using ho
    refine ⟨old.tail, ?_⟩
    unfold toUtf8
    rw [if_neg (by omega), wr_eq (by omega)]
    simp only [bind_ok]
    rw [if_pos (by simp [isSupported, h])]
    cases old with
    | nil => simp at ho
    | cons a l => rfl

/-- **C58** (control characters).  A control character is refused when there is room for it; what is
before it has been written, without a terminator. -/
theorem C58_control (p tl old : List Byte) (b : Byte) (hb0 : b ≠ 0) (hb : ¬ Printable8859 b)
    (hp : ∀ x ∈ p, Printable8859 x) (hl : (utf8 p).length + 2 ≤ old.length) :
    toUtf8 1 (p ++ b :: tl) old = .ok (2, utf8 p ++ (old.set 0 0).drop (utf8 p).length) := by
  unfold toUtf8
  rw [if_neg (by simp; intro h; simp [h] at hl), wr_eq (by omega)]
  simp only [bind_ok]
  rw [if_neg (by decide)]
  have := loop_control b tl hb0 hb p [] (old.set 0 0) hp (by simpa using hl)
  simpa using this

example : toUtf8 1 [0x41, 0xE9, 0x0A, 0x42] [9, 9, 9, 9, 9] = .ok (2, [0x41, 0xC3, 0xA9, 9, 9]) ∧
    ¬ Printable8859 0x0A := by decide +kernel

end Verif.Iso8859
