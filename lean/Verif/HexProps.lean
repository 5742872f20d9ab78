import Verif.Hex
import Verif.Formats
import Verif.Text

/-!
# C97: the input of the decoder is the bytes written

A byte is written as two hexadecimal digits, in capitals or not, with any white space in front of
each digit.
-/

set_option autoImplicit false

namespace Verif.Hex
open Verif

/-- Space, tabulators, line feed, form feed, carriage return. -/
def spaces : List Byte := [0x20, 0x09, 0x0A, 0x0B, 0x0C, 0x0D]

/-- The digits, small letters and capitals. -/
def small : List Byte := txt!"0123456789abcdef"
def capital : List Byte := txt!"0123456789ABCDEF"

/-- `c` is a digit of value `n`. -/
def Digit (c : Byte) (n : Nat) : Prop := small[n]? = some c ∨ capital[n]? = some c

instance (c : Byte) (n : Nat) : Decidable (Digit c n) := by unfold Digit; infer_instance

/-- `s` is a way to write the bytes `v`. -/
inductive Writes : List Byte → List Byte → Prop
  | nil : Writes [] []
  | byte {w₁ w₂ : List Byte} {a b : Byte} {m n : Nat} {s v : List Byte} :
      (∀ c ∈ w₁, c ∈ spaces) → Digit a m → (∀ c ∈ w₂, c ∈ spaces) → Digit b n → Writes s v →
      Writes (w₁ ++ a :: (w₂ ++ b :: s)) (UInt8.ofNat (16 * m + n) :: v)

/-- Characters that are neither spaces nor digits. -/
def Foreign (c : Byte) : Prop := c ∉ spaces ∧ c ∉ small ∧ c ∉ capital

instance (c : Byte) : Decidable (Foreign c) := by unfold Foreign; infer_instance

/-- Every character up to the first that is neither a space nor a digit is ASCII. -/
def Clean (s : List Byte) : Prop :=
  ∀ p c r, s = p ++ c :: r → (∀ d ∈ p, ¬ Foreign d) → c < 0x80

/-! ## Characters -/

theorem isSpace_iff (c : Byte) : isSpace c = true ↔ c ∈ spaces := by
  revert c; decide +kernel

theorem space_ascii (c : Byte) : c ∈ spaces → c < 0x80 := by
  revert c; decide +kernel

theorem isXDigit_not (c : Byte) : c ∉ spaces → (isXDigit c = false ↔ Foreign c) := by
  revert c; decide +kernel

theorem isXDigit_digit (c : Byte) : isXDigit c = true → Digit c (value c).toNat := by
  revert c; decide +kernel

theorem digit_lt {c : Byte} {n : Nat} (h : Digit c n) : n < 16 := by
  rcases h with h | h
  · exact (List.getElem?_eq_some_iff.1 h).1
  · exact (List.getElem?_eq_some_iff.1 h).1

theorem digit_value {c : Byte} {n : Nat} (h : Digit c n) :
    isXDigit c = true ∧ isSpace c = false ∧ c < 0x80 ∧ value c = UInt8.ofNat n := by
  have key : ∀ c : Byte, ∀ n : Fin 16, Digit c n.val →
      isXDigit c = true ∧ isSpace c = false ∧ c < 0x80 ∧ value c = UInt8.ofNat n.val := by
    decide +kernel
  exact key c ⟨n, digit_lt h⟩ h

theorem digit_not_foreign {c : Byte} {n : Nat} (h : Digit c n) : ¬ Foreign c := by
  rintro ⟨-, h1, h2⟩
  rcases h with h | h
  · exact h1 (List.mem_of_getElem? h)
  · exact h2 (List.mem_of_getElem? h)

theorem space_not_foreign {c : Byte} (h : c ∈ spaces) : ¬ Foreign c := fun f => f.1 h

/-! ## Two digits -/

theorem next_spaces (w s : List Byte) (first : Option Byte) (hw : ∀ c ∈ w, c ∈ spaces) :
    next (w ++ s) first = next s first := by
  induction w with
  | nil => rfl
  | cons c w ih =>
    have hc := hw c (by simp)
    have e : next (c :: (w ++ s)) first = next (w ++ s) first := by
      simp [next, ctype, space_ascii c hc, (isSpace_iff c).2 hc]
    rw [List.cons_append, e]
    exact ih (fun d hd => hw d (by simp [hd]))

theorem next_digit (a : Byte) (m : Nat) (s : List Byte) (ha : Digit a m) :
    next (a :: s) none = next s (some a) := by
  obtain ⟨h1, h2, h3, -⟩ := digit_value ha
  simp [next, ctype, h1, h2, h3]

theorem next_second (a b : Byte) (n : Nat) (s : List Byte) (hb : Digit b n) :
    next (b :: s) (some a) = .ok (.two a b s) := by
  obtain ⟨h1, h2, h3, -⟩ := digit_value hb
  simp [next, ctype, h1, h2, h3]

theorem next_foreign (c : Byte) (s : List Byte) (first : Option Byte) (hc : Foreign c)
    (ha : c < 0x80) : next (c :: s) first = .ok .bad := by
  have h1 : isSpace c = false := by
    cases h : isSpace c
    · rfl
    · exact absurd ((isSpace_iff c).1 h) hc.1
  have h2 := (isXDigit_not c hc.1).2 hc
  simp [next, ctype, h1, h2, ha]

/-- A character is a space, a digit or foreign. -/
theorem kinds (c : Byte) : c ∈ spaces ∨ (∃ n, Digit c n) ∨ Foreign c := by
  by_cases h : c ∈ spaces
  · exact .inl h
  · cases hd : isXDigit c
    · exact .inr (.inr ((isXDigit_not c h).1 hd))
    · exact .inr (.inl ⟨_, isXDigit_digit c hd⟩)

/-- What precedes the first character that is not a space. -/
theorem split_spaces (s : List Byte) :
    (∀ c ∈ s, c ∈ spaces) ∨
    ∃ w c r, s = w ++ c :: r ∧ (∀ d ∈ w, d ∈ spaces) ∧ c ∉ spaces := by
  induction s with
  | nil => exact .inl (by simp)
  | cons c s ih =>
    by_cases hc : c ∈ spaces
    · rcases ih with h | ⟨w, d, r, rfl, h1, h2⟩
      · exact .inl (by simp only [List.mem_cons, forall_eq_or_imp]; exact ⟨hc, h⟩)
      · refine .inr ⟨c :: w, d, r, rfl, ?_, h2⟩
        simp only [List.mem_cons, forall_eq_or_imp]
        exact ⟨hc, h1⟩
    · exact .inr ⟨[], c, s, rfl, by simp, hc⟩

/-- The four ways a search ends. -/
inductive Ends (s : List Byte) : Found → Prop
  | bad (p r : List Byte) (c : Byte) : s = p ++ c :: r → Foreign c → Ends s .bad
  | spaces : (∀ c ∈ s, c ∈ Hex.spaces) → Ends s .ended
  | one (w₁ w₂ : List Byte) (a : Byte) (m : Nat) : s = w₁ ++ a :: w₂ → (∀ c ∈ w₁, c ∈ Hex.spaces) →
      Digit a m → (∀ c ∈ w₂, c ∈ Hex.spaces) → Ends s .ended
  | two (w₁ w₂ : List Byte) (a b : Byte) (m n : Nat) (r : List Byte) :
      s = w₁ ++ a :: (w₂ ++ b :: r) → (∀ c ∈ w₁, c ∈ Hex.spaces) → Digit a m →
      (∀ c ∈ w₂, c ∈ Hex.spaces) → Digit b n → Ends s (.two a b r)

theorem next_ends (s : List Byte) (hs : Clean s) : ∃ f, next s none = .ok f ∧ Ends s f := by
  rcases split_spaces s with h | ⟨w, c, r, rfl, hw, hc⟩
  · refine ⟨.ended, ?_, .spaces h⟩
    have := next_spaces s [] none h
    rw [List.append_nil] at this
    rw [this, next]
  · rw [next_spaces w _ none hw]
    rcases kinds c with h | ⟨m, hd⟩ | h
    · exact absurd h hc
    · rw [next_digit c m r hd]
      rcases split_spaces r with h | ⟨w', c', r', rfl, hw', hc'⟩
      · refine ⟨.ended, ?_, .one w r c m rfl hw hd h⟩
        have := next_spaces r [] (some c) h
        rw [List.append_nil] at this
        rw [this, next]
      · rw [next_spaces w' _ _ hw']
        rcases kinds c' with h | ⟨n, hd'⟩ | h
        · exact absurd h hc'
        · exact ⟨_, next_second c c' n r' hd', .two w w' c c' m n r' rfl hw hd hw' hd'⟩
        · refine ⟨_, next_foreign c' r' _ h (hs (w ++ c :: w') c' r' (by simp) ?_),
            .bad (w ++ c :: w') r' c' (by simp) h⟩
          intro d hd'
          simp only [List.mem_append, List.mem_cons] at hd'
          rcases hd' with hd' | rfl | hd'
          · exact space_not_foreign (hw d hd')
          · exact digit_not_foreign hd
          · exact space_not_foreign (hw' d hd')
    · exact ⟨_, next_foreign c r _ h (hs w c r rfl fun d hd => space_not_foreign (hw d hd)),
        .bad w r c rfl h⟩

theorem clean_rest {s w₁ w₂ r : List Byte} {a b : Byte} {m n : Nat} (hs : Clean s)
    (e : s = w₁ ++ a :: (w₂ ++ b :: r)) (h1 : ∀ c ∈ w₁, c ∈ spaces) (ha : Digit a m)
    (h2 : ∀ c ∈ w₂, c ∈ spaces) (hb : Digit b n) : Clean r := by
  intro p c q hr hp
  apply hs (w₁ ++ a :: (w₂ ++ b :: p)) c q (by rw [e, hr]; simp)
  intro d hd
  simp only [List.mem_append, List.mem_cons] at hd
  rcases hd with hd | rfl | hd | rfl | hd
  · exact space_not_foreign (h1 d hd)
  · exact digit_not_foreign ha
  · exact space_not_foreign (h2 d hd)
  · exact digit_not_foreign hb
  · exact hp d hd

theorem byte_value {a b : Byte} {m n : Nat} (ha : Digit a m) (hb : Digit b n) :
    value a * 16 + value b = UInt8.ofNat (16 * m + n) := by
  rw [(digit_value ha).2.2.2, (digit_value hb).2.2.2]
  have key : ∀ m n : Fin 16, UInt8.ofNat m.val * 16 + UInt8.ofNat n.val =
      UInt8.ofNat (16 * m.val + n.val) := by decide +kernel
  exact key ⟨m, digit_lt ha⟩ ⟨n, digit_lt hb⟩

theorem next_consumes {s : List Byte} {first : Option Byte} {a b : Byte} {r : List Byte}
    (h : next s first = .ok (.two a b r)) :
    r.length + (if first.isSome then 1 else 2) ≤ s.length := by
  induction s generalizing first with
  | nil => simp [next] at h
  | cons c s ih =>
    by_cases hc : c < 0x80
    · by_cases hsp : isSpace c = true
      · have e : next (c :: s) first = next s first := by simp [next, ctype, hc, hsp]
        have := ih (e ▸ h)
        simp only [List.length_cons]
        omega
      · by_cases hd : isXDigit c = true
        · cases first with
          | none =>
            have e : next (c :: s) none = next s (some c) := by simp [next, ctype, hc, hsp, hd]
            have := ih (e ▸ h)
            simp at this ⊢
            omega
          | some x =>
            have e : next (c :: s) (some x) = .ok (.two x c s) := by
              simp [next, ctype, hc, hsp, hd]
            rw [e] at h
            injection h with h
            injection h with _ _ h
            subst h
            simp
        · simp [next, ctype, hc, hsp, hd] at h
    · simp [next, ctype, hc] at h

/-! ## The loop -/

theorem loop_writes {s v : List Byte} (h : Writes s v) :
    ∀ (max : Nat) (p old : List Byte), s.length + 1 ≤ 2 * max + 1 →
      p.length + v.length ≤ old.length →
      loop max s (p ++ old.drop p.length) p.length =
        .ok (0, (p ++ v) ++ old.drop (p ++ v).length, (p ++ v).length) := by
  induction h with
  | nil =>
    intro max p old _ _
    rw [loop, List.append_nil]
  | @byte w₁ w₂ a b m n s v hw₁ ha hw₂ hb _ ih =>
    intro max p old hm hl
    simp only [List.length_append, List.length_cons] at hm hl
    obtain ⟨max, rfl⟩ : ∃ k, max = k + 1 := ⟨max - 1, by omega⟩
    have hn : next (w₁ ++ a :: (w₂ ++ b :: s)) none = .ok (.two a b s) := by
      rw [next_spaces w₁ _ _ hw₁, next_digit a m _ ha, next_spaces w₂ _ _ hw₂,
        next_second a b n s hb]
    obtain ⟨c, r, hcr⟩ : ∃ c r, w₁ ++ a :: (w₂ ++ b :: s) = c :: r := by
      cases w₁ with
      | nil => exact ⟨_, _, rfl⟩
      | cons c w => exact ⟨_, _, rfl⟩
    rw [hcr] at hn ⊢
    rw [loop, hn, bind_ok]
    simp only []
    rw [byte_value ha hb, wr_eq (by simp; omega), bind_ok]
    have e : (p ++ old.drop p.length).set p.length (UInt8.ofNat (16 * m + n)) =
        (p ++ [UInt8.ofNat (16 * m + n)]) ++ old.drop (p ++ [UInt8.ofNat (16 * m + n)]).length := by
      rw [List.set_append_right _ _ (by omega), Nat.sub_self]
      obtain ⟨x, xs, hx⟩ : ∃ x xs, old.drop p.length = x :: xs := by
        cases hx : old.drop p.length with
        | nil => have := congrArg List.length hx; simp at this; omega
        | cons x xs => exact ⟨x, xs, rfl⟩
      have : old.drop (p.length + 1) = xs := by
        rw [← List.drop_drop, hx]; rfl
      simp [hx, this]
    rw [e]
    have := ih max (p ++ [UInt8.ofNat (16 * m + n)]) old (by omega) (by simp; omega)
    simp only [List.length_append, List.length_cons, List.length_nil] at this
    simp only [List.append_assoc, List.cons_append, List.nil_append, List.length_append,
      List.length_cons, List.length_nil] at this ⊢
    rw [show p.length + 1 = p.length + (0 + 1) by omega, this]
    have e2 : p.length + (0 + 1) + v.length = p.length + (v.length + 1) := by omega
    rw [e2]

theorem writes_length {s v : List Byte} (h : Writes s v) : 2 * v.length ≤ s.length := by
  induction h with
  | nil => simp
  | byte _ _ _ _ _ ih => simp; omega

/-- The loop on text that writes no bytes. -/
theorem loop_fails (k : Nat) : ∀ (s : List Byte) (max n : Nat) (buf : List Byte), s.length ≤ k →
    Clean s → s.length + 1 ≤ 2 * max + 1 → n + max ≤ buf.length → (¬ ∃ v, Writes s v) →
    ∃ r buf' n', loop max s buf n = .ok (r, buf', n') ∧
      ((∃ c ∈ s, Foreign c) ∧ r = -2 ∨ (¬ ∃ c ∈ s, Foreign c) ∧ r = 1) := by
  induction k with
  | zero =>
    intro s max n buf hk _ _ _ hn
    have : s = [] := List.length_eq_zero_iff.1 (by omega)
    exact absurd ⟨[], this ▸ .nil⟩ hn
  | succ k ih =>
    intro s max n buf hk hs hm hl hn
    cases s with
    | nil => exact absurd ⟨[], .nil⟩ hn
    | cons c r =>
      obtain ⟨max, rfl⟩ : ∃ j, max = j + 1 := ⟨max - 1, by simp at hm; omega⟩
      obtain ⟨f, hf, he⟩ := next_ends (c :: r) hs
      rw [loop, hf, bind_ok]
      cases he with
      | bad p r' d e hd => exact ⟨_, _, _, rfl, .inl ⟨⟨d, by rw [e]; simp, hd⟩, rfl⟩⟩
      | spaces h =>
        refine ⟨_, _, _, rfl, .inr ⟨?_, rfl⟩⟩
        rintro ⟨d, hd, hf⟩
        exact space_not_foreign (h d hd) hf
      | one w₁ w₂ a m e h1 ha h2 =>
        refine ⟨_, _, _, rfl, .inr ⟨?_, rfl⟩⟩
        rintro ⟨d, hd, hf⟩
        rw [e] at hd
        simp only [List.mem_append, List.mem_cons] at hd
        rcases hd with hd | rfl | hd
        · exact space_not_foreign (h1 d hd) hf
        · exact digit_not_foreign ha hf
        · exact space_not_foreign (h2 d hd) hf
      | two w₁ w₂ a b m n' r' e h1 ha h2 hb =>
        simp only []
        have hlen := congrArg List.length e
        simp only [List.length_append, List.length_cons] at hlen hk hm
        rw [wr_eq (by omega), bind_ok]
        obtain ⟨x, y, z, h3, h4⟩ := ih r' max (n + 1) (buf.set n (value a * 16 + value b))
          (by omega) (clean_rest hs e h1 ha h2 hb) (by omega)
          (by simp; omega) (by
            rintro ⟨v, hv⟩
            exact hn ⟨_, e ▸ Writes.byte h1 ha h2 hb hv⟩)
        refine ⟨x, y, z, h3, ?_⟩
        have hiff : (∃ c_1 ∈ c :: r, Foreign c_1) ↔ ∃ d ∈ r', Foreign d := by
          rw [e]
          constructor
          · rintro ⟨d, hd, hx⟩
            simp only [List.mem_append, List.mem_cons] at hd
            rcases hd with hd | rfl | hd | rfl | hd
            · exact absurd hx (space_not_foreign (h1 d hd))
            · exact absurd hx (digit_not_foreign ha)
            · exact absurd hx (space_not_foreign (h2 d hd))
            · exact absurd hx (digit_not_foreign hb)
            · exact ⟨d, hd, hx⟩
          · rintro ⟨d, hd, hf⟩
            exact ⟨d, by simp [hd], hf⟩
        rw [hiff]
        exact h4

/-! ## Properties -/

/-- Text that writes bytes gives these bytes. -/
theorem C97_bytes (s v buf : List Byte) (h : Writes s v) (hb : s.length ≤ 2 * buf.length) :
    parseHex s buf = .ok (0, v ++ buf.drop v.length, v.length) := by
  have := writes_length h
  have := loop_writes h buf.length [] buf (by omega) (by simp; omega)
  simpa [parseHex] using this

example : Writes txt!"9f02 0A" [0x9F, 0x02, 0x0A] := by
  have h := Writes.byte (w₁ := []) (w₂ := []) (a := 0x39) (b := 0x66) (m := 9) (n := 15) (by simp)
    (by decide) (by simp) (by decide)
    (Writes.byte (w₁ := []) (w₂ := []) (a := 0x30) (b := 0x32) (m := 0) (n := 2) (by simp)
      (by decide) (by simp) (by decide)
      (Writes.byte (w₁ := [0x20]) (w₂ := []) (a := 0x30) (b := 0x41) (m := 0) (n := 10) (by decide)
        (by decide) (by simp) (by decide) Writes.nil))
  exact h

/-- All other text is refused: with -2 when it has a character that is neither a space nor a digit,
with 1 otherwise. -/
theorem C97_refused (s buf : List Byte) (hs : Clean s) (h : ¬ ∃ v, Writes s v)
    (hb : s.length ≤ 2 * buf.length) :
    ∃ r buf' n, parseHex s buf = .ok (r, buf', n) ∧
      ((∃ c ∈ s, Foreign c) ∧ r = -2 ∨ (¬ ∃ c ∈ s, Foreign c) ∧ r = 1) :=
  loop_fails s.length s buf.length 0 buf (Nat.le_refl _) hs (by omega) (by omega) h

example : (¬ ∃ v, Writes txt!"9F0" v) ∧ (¬ ∃ v, Writes txt!"9F 0G" v) := by
  constructor
  · rintro ⟨v, h⟩
    have e := C97_bytes _ v [0, 0] h (by decide)
    rw [show parseHex txt!"9F0" [0, 0] = .ok (1, [0x9F, 0], 1) by decide] at e
    simp at e
  · rintro ⟨v, h⟩
    have e := C97_bytes _ v [0, 0, 0] h (by decide)
    rw [show parseHex txt!"9F 0G" [0, 0, 0] = .ok (-2, [0x9F, 0, 0], 1) by decide] at e
    simp at e

/-! ### Every size of the buffer -/

/-- Whatever the text and the size of the buffer, nothing is written outside it, as long as no
character from 80 on is met. -/
theorem loop_safe (max : Nat) : ∀ (s buf : List Byte) (n : Nat), Clean s → n + max ≤ buf.length →
    ∃ r buf' n', loop max s buf n = .ok (r, buf', n') ∧ buf'.length = buf.length ∧
      n ≤ n' ∧ n' ≤ n + max := by
  induction max with
  | zero =>
    intro s buf n _ _
    cases s with
    | nil => exact ⟨0, buf, n, by rw [loop], rfl, by omega, by omega⟩
    | cons c r => exact ⟨0, buf, n, by rw [loop], rfl, by omega, by omega⟩
  | succ max ih =>
    intro s buf n hs hn
    cases s with
    | nil => exact ⟨0, buf, n, by rw [loop], rfl, by omega, by omega⟩
    | cons c r =>
      obtain ⟨f, hf, he⟩ := next_ends (c :: r) hs
      rw [loop, hf, bind_ok]
      cases he with
      | bad => exact ⟨_, _, _, rfl, rfl, by omega, by omega⟩
      | spaces => exact ⟨_, _, _, rfl, rfl, by omega, by omega⟩
      | one => exact ⟨_, _, _, rfl, rfl, by omega, by omega⟩
      | two w₁ w₂ a b m k r' e h1 ha h2 hb =>
        simp only []
        rw [wr_eq (by omega), bind_ok]
        obtain ⟨x, y, z, g1, g2, g3, g4⟩ := ih r' (buf.set n (value a * 16 + value b)) (n + 1)
          (clean_rest hs e h1 ha h2 hb) (by simp; omega)
        exact ⟨x, y, z, g1, by simpa using g2, by omega, by omega⟩

/-- **C97** (any clean text).  Whether or not the text writes bytes, reading it is defined, stays within the buffer
and gives no more bytes than fit.  Missing: texts with bytes above 0x7F (`C97_undefined`). -/
theorem C97_safe_partial (s buf : List Byte) (hs : Clean s) :
    ∃ r buf' n, parseHex s buf = .ok (r, buf', n) ∧ buf'.length = buf.length ∧ n ≤ buf.length := by
  obtain ⟨r, b, n, h1, h2, -, h4⟩ := loop_safe buf.length s buf 0 hs (by omega)
  exact ⟨r, b, n, h1, h2, by omega⟩

example : Clean txt!"9F 0G" ∧ ¬ Clean [0x39, 0xE9] := by
  constructor
  · intro p c r h _
    have : ∀ c ∈ txt!"9F 0G", c < 0x80 := by decide
    exact this c (by rw [h]; simp)
  · intro h
    exact absurd (h [0x39] 0xE9 [] rfl (by decide)) (by decide)

theorem next_undefined (p : List Byte) (c : Byte) (r : List Byte) (first : Option Byte)
    (hc : ¬ c < 0x80) (hp : ∀ d ∈ p, ¬ Foreign d) :
    next (p ++ c :: r) first = .error .oobRead ∨
      ∃ a b q, next (p ++ c :: r) first = .ok (.two a b (q ++ c :: r)) ∧ q.length < p.length ∧
        (∀ d ∈ q, ¬ Foreign d) := by
  induction p generalizing first with
  | nil => exact .inl (by simp [next, ctype, hc])
  | cons d p ih =>
    have hp' : ∀ d ∈ p, ¬ Foreign d := fun x hx => hp x (by simp [hx])
    have lift : ∀ f, (next (p ++ c :: r) f = .error .oobRead ∨
        ∃ a b q, next (p ++ c :: r) f = .ok (.two a b (q ++ c :: r)) ∧ q.length < p.length ∧
          (∀ d ∈ q, ¬ Foreign d)) → next (d :: (p ++ c :: r)) first = next (p ++ c :: r) f →
        (next (d :: p ++ c :: r) first = .error .oobRead ∨
        ∃ a b q, next (d :: p ++ c :: r) first = .ok (.two a b (q ++ c :: r)) ∧
          q.length < (d :: p).length ∧ (∀ d ∈ q, ¬ Foreign d)) := by
      intro f h e
      rw [List.cons_append, e]
      rcases h with h | ⟨a, b, q, h1, h2, h3⟩
      · exact .inl h
      · exact .inr ⟨a, b, q, h1, by simp; omega, h3⟩
    rcases kinds d with h | ⟨n, h⟩ | h
    · exact lift first (ih first hp') (next_spaces [d] _ first (by simpa using h))
    · cases first with
      | none => exact lift (some d) (ih (some d) hp') (next_digit d n _ h)
      | some a =>
        refine .inr ⟨a, d, p, ?_, by simp, hp'⟩
        exact next_second a d n _ h
    · exact absurd h (hp d (by simp))

/-- All other text is undefined: a character from 80 on is given to a function of `ctype.h` as a
negative number. -/
theorem C97_undefined (s buf : List Byte) (hs : ¬ Clean s) (hb : s.length ≤ 2 * buf.length) :
    parseHex s buf = .error .oobRead := by
  have key : ∀ (k max n : Nat) (p : List Byte) (c : Byte) (r buf : List Byte), p.length ≤ k →
      ¬ c < 0x80 → (∀ d ∈ p, ¬ Foreign d) → (p ++ c :: r).length + 1 ≤ 2 * max + 1 →
      n + max ≤ buf.length → loop max (p ++ c :: r) buf n = .error .oobRead := by
    intro k
    induction k with
    | zero =>
      intro max n p c r buf hk hc hp hm hl
      have : p = [] := List.length_eq_zero_iff.1 (by omega)
      subst this
      obtain ⟨max, rfl⟩ : ∃ j, max = j + 1 := ⟨max - 1, by simp at hm; omega⟩
      rcases next_undefined [] c r none hc hp with h | ⟨a, b, q, -, h, -⟩
      · rw [List.nil_append] at h ⊢
        rw [loop, h, bind_error]
      · simp at h
    | succ k ih =>
      intro max n p c r buf hk hc hp hm hl
      obtain ⟨max, rfl⟩ : ∃ j, max = j + 1 := ⟨max - 1, by simp at hm; omega⟩
      obtain ⟨x, xs, hx⟩ : ∃ x xs, p ++ c :: r = x :: xs := by
        cases p with
        | nil => exact ⟨_, _, rfl⟩
        | cons y ys => exact ⟨_, _, rfl⟩
      rcases next_undefined p c r none hc hp with h | ⟨a, b, q, h1, h2, h3⟩
      · rw [hx] at h ⊢
        rw [loop, h, bind_error]
      · have hlen : (q ++ c :: r).length + 2 ≤ (p ++ c :: r).length := by
          exact next_consumes h1
        rw [hx] at h1 hm hlen ⊢
        rw [loop, h1, bind_ok]
        simp only []
        rw [wr_eq (by omega), bind_ok]
        exact ih max (n + 1) q c r _ (by omega) hc h3 (by omega) (by simp; omega)
  have : ∃ p c r, s = p ++ c :: r ∧ (∀ d ∈ p, ¬ Foreign d) ∧ ¬ c < 0x80 := by
    apply Classical.byContradiction
    intro hn
    exact hs fun p c r e hp => Classical.byContradiction fun hc => hn ⟨p, c, r, e, hp, hc⟩
  obtain ⟨p, c, r, rfl, hp, hc⟩ := this
  exact key p.length buf.length 0 p c r buf (Nat.le_refl _) hc hp (by omega) (by omega)

example : parseHex [0x39, 0xE9] [0] = .error .oobRead := by decide

/-! ### Round trip, white space at the end, small buffers -/

/-- The digits of a byte in one of the two alphabets. -/
def digitsOf (alphabet : List Byte) (b : Byte) : List Byte :=
  [alphabet[b.toNat / 16]?.getD 0, alphabet[b.toNat % 16]?.getD 0]

/-- Bytes written in hexadecimal, in either alphabet, are read back. -/
theorem C97_roundtrip (alphabet v buf : List Byte) (ha : alphabet = small ∨ alphabet = capital)
    (hb : v.length ≤ buf.length) :
    parseHex (v.map (digitsOf alphabet)).flatten buf = .ok (0, v ++ buf.drop v.length, v.length) := by
  have hw : ∀ v : List Byte, Writes (v.map (digitsOf alphabet)).flatten v ∧
      (v.map (digitsOf alphabet)).flatten.length = 2 * v.length := by
    intro v
    induction v with
    | nil => exact ⟨.nil, rfl⟩
    | cons b v ih =>
      have h1 : Digit (alphabet[b.toNat / 16]?.getD 0) (b.toNat / 16) := by
        rcases ha with rfl | rfl
        · revert b; decide +kernel
        · revert b; decide +kernel
      have h2 : Digit (alphabet[b.toNat % 16]?.getD 0) (b.toNat % 16) := by
        rcases ha with rfl | rfl
        · revert b; decide +kernel
        · revert b; decide +kernel
      have h3 : UInt8.ofNat (16 * (b.toNat / 16) + b.toNat % 16) = b := by
        rw [Nat.div_add_mod]; simp
      refine ⟨?_, by simp [digitsOf, ih.2]; omega⟩
      have := Writes.byte (w₁ := []) (w₂ := []) (by simp) h1 (by simp) h2 ih.1
      rw [h3] at this
      exact this
  exact C97_bytes _ v buf (hw v).1 (by rw [(hw v).2]; omega)

example : (List.map (digitsOf capital) [0x9F, 0x02]).flatten = txt!"9F02" ∧
    (List.map (digitsOf small) [0x9F, 0x02]).flatten = txt!"9f02" := by decide +kernel

/-- No text that ends in white space writes bytes, so white space after the last digit is refused
as an odd number of digits. -/
theorem C97_trailing_space (s v w buf : List Byte) (h : Writes s v) (hw : ∀ c ∈ w, c ∈ spaces)
    (hn : w ≠ []) (hb : (s ++ w).length ≤ 2 * buf.length) :
    ∃ buf', parseHex (s ++ w) buf = .ok (1, buf', v.length) := by
  have key : ∀ (max n : Nat) (buf : List Byte), (s ++ w).length + 1 ≤ 2 * max + 1 →
      n + max ≤ buf.length → ∃ buf', loop max (s ++ w) buf n = .ok (1, buf', n + v.length) := by
    induction h with
    | nil =>
      intro max n buf hm hl
      obtain ⟨c, r, rfl⟩ : ∃ c r, w = c :: r := List.exists_cons_of_ne_nil hn
      obtain ⟨max, rfl⟩ : ∃ j, max = j + 1 := ⟨max - 1, by simp at hm; omega⟩
      have := next_spaces (c :: r) [] none hw
      rw [List.append_nil] at this
      rw [List.nil_append, loop, this, next, bind_ok]
      exact ⟨_, rfl⟩
    | @byte w₁ w₂ a b m k s v hw₁ ha hw₂ hb' _ ih =>
      intro max n buf hm hl
      simp only [List.length_append, List.length_cons] at hm hl
      obtain ⟨max, rfl⟩ : ∃ j, max = j + 1 := ⟨max - 1, by omega⟩
      have hnx : next (w₁ ++ a :: (w₂ ++ b :: (s ++ w))) none = .ok (.two a b (s ++ w)) := by
        rw [next_spaces w₁ _ _ hw₁, next_digit a m _ ha, next_spaces w₂ _ _ hw₂,
          next_second a b k _ hb']
      have e : w₁ ++ a :: (w₂ ++ b :: s) ++ w = w₁ ++ a :: (w₂ ++ b :: (s ++ w)) := by simp
      rw [e]
      obtain ⟨c, r, hcr⟩ : ∃ c r, w₁ ++ a :: (w₂ ++ b :: (s ++ w)) = c :: r := by
        cases w₁ with
        | nil => exact ⟨_, _, rfl⟩
        | cons c w => exact ⟨_, _, rfl⟩
      rw [hcr] at hnx ⊢
      rw [loop, hnx, bind_ok]
      simp only []
      rw [wr_eq (by omega), bind_ok]
      have hb2 : (s ++ w).length ≤ 2 * max := by simp; omega
      obtain ⟨x, hx⟩ := ih (by
        have : 2 * max ≤ 2 * buf.length := by omega
        simp at hb2 ⊢; simp at hb; omega) max (n + 1) (buf.set n (value a * 16 + value b))
        (by omega) (by simp; omega)
      exact ⟨x, by rw [hx]; simp; omega⟩
  obtain ⟨b, h⟩ := key buf.length 0 buf (by omega) (by omega)
  exact ⟨b, by simpa [parseHex] using h⟩

example : parseHex txt!"9F02 " [0, 0, 0] = .ok (1, [0x9F, 0x02, 0], 2) := by decide

/-- With a buffer too small for it the text is cut without a message. -/
theorem C97_cut : parseHex txt!"9F0206" [0, 0] = .ok (0, [0x9F, 0x02], 2) := by decide

/-! ### The argument of the tool -/

/-- A file is loaded whole, whatever its size. -/
theorem C97_file (file : List Byte) : load file = .ok file := by
  have key : ∀ (fuel : Nat) (file got : List Byte) (size : Nat), file.length < fuel →
      got.length ≤ size → loadLoop fuel file got size = .ok (got ++ file) := by
    intro fuel
    induction fuel with
    | zero => intro file got size h; omega
    | succ fuel ih =>
      intro file got size h hs
      rw [loadLoop]
      rw [if_pos (by simp; omega)]
      by_cases hl : (file.take 4096).length < 4096
      · rw [if_pos hl, List.take_of_length_le (by simp at hl; omega)]
      · rw [if_neg hl, ih _ _ _ (by simp at hl ⊢; omega) (by simp; omega)]
        simp
  have := key (file.length + 1) file [] 0 (by omega) (by simp)
  simpa [load] using this

/-- The argument `-` stands for standard input; any other argument gives the bytes it writes, and is
refused when it writes none. -/
theorem C97_argument (arg file : List Byte) (loc : Nat → List Byte) (hl : ∀ n, (loc n).length = n) :
    (arg = txt!"-" → input arg file loc = .ok (if file = [] then .refused else .data file)) ∧
    (∀ v, arg ≠ [] → Writes arg v → input arg file loc = .ok (.data v)) ∧
    (arg ≠ txt!"-" → Clean arg → (arg = [] ∨ ¬ ∃ v, Writes arg v) →
      input arg file loc = .ok .refused) := by
  refine ⟨?_, ?_, ?_⟩
  · rintro rfl
    rw [input, if_pos (by decide), C97_file, bind_ok]
    by_cases h : file = []
    · subst h; rfl
    · rw [if_neg (by simpa using h), if_neg h]
  · intro v hv h
    have h2 : 2 ≤ arg.length := by
      cases h with
      | nil => exact absurd rfl hv
      | byte => simp; omega
    have h1 : arg ≠ [0x2D] := by rintro rfl; simp at h2
    have := writes_length h
    rw [input, if_neg h1, if_neg (by omega), C97_bytes arg v _ h (by rw [hl]; omega), bind_ok]
    simp only [ne_eq, not_true_eq_false, if_false]
    rw [slice_eq (by simp), bind_ok]
    simp
  · intro h1 hc h
    have h1' : arg ≠ [0x2D] := fun e => h1 (by rw [e]; decide)
    rw [input, if_neg h1']
    by_cases h2 : arg.length < 2
    · rw [if_pos h2]
    · have hn : ¬ ∃ v, Writes arg v := by
        rcases h with rfl | h
        · simp at h2
        · exact h
      rw [if_neg h2]
      obtain ⟨r, b, n, e, hr⟩ := C97_refused arg (loc ((arg.length + 1) / 2)) hc hn (by rw [hl]; omega)
      rw [e, bind_ok]
      simp only []
      rw [if_pos (by rcases hr with ⟨-, rfl⟩ | ⟨-, rfl⟩ <;> decide)]

end Verif.Hex
