import Verif.Lists
import Verif.FieldsProps
import Verif.StrProps
import Verif.CapduProps
import Verif.BitsLemmas

/-! # Specification vocabulary and lemmas for the descriptions of repeated structures -/

set_option autoImplicit false

namespace Verif.Lists
open Verif StrList Fields Formats

/-! ## Vocabulary -/

/-- A number in decimal. -/
def decimal (n : Nat) : List Byte := (Str.digits n).map Str.digitChar

/-! ## Lemmas -/

theorem uLoop_spec : ∀ (k n : Nat) (acc : List Byte), n < 10 ^ (k + 1) →
    uLoop (k + 1) n acc = decimal n ++ acc := by
  intro k
  induction k with
  | zero =>
    intro n acc h
    rw [uLoop]
    rw [if_pos (by omega), decimal, Str.digits, if_pos (by omega), Nat.mod_eq_of_lt (by omega)]
    rfl
  | succ k ih =>
    intro n acc h
    rw [uLoop]
    by_cases h10 : n < 10
    · rw [if_pos h10, decimal, Str.digits, if_pos h10, Nat.mod_eq_of_lt h10]
      rfl
    · rw [if_neg h10, ih _ _ (by rw [Nat.pow_succ] at h; omega)]
      rw [decimal, decimal]
      conv => rhs; rw [Str.digits, if_neg h10]
      simp [Str.digitChar]

theorem decU_spec (n : Nat) (h : n < 2 ^ 32) : decU n = decimal n := by
  rw [decU, uLoop_spec 9 n [] (by omega), List.append_nil]

theorem decimal_ne_zero (n : Nat) : ∀ b ∈ decimal n, b ≠ 0 := by
  intro b hb
  rw [decimal, List.mem_map] at hb
  obtain ⟨d, hd, rfl⟩ := hb
  have h9 := (Str.digits_spec n).2.1 d hd
  have : ∀ d ∈ List.range 10, Str.digitChar d ≠ 0 := by decide
  exact this d (by simp; omega)

theorem decimal_length (n : Nat) (h : n < 2 ^ 32) : (decimal n).length ≤ 10 := by
  rw [decimal, List.length_map]
  exact Str.digits_length 9 n (by omega)

theorem decimal_ne_nil (n : Nat) : decimal n ≠ [] := by
  rw [decimal]
  simpa using Str.digits_ne_nil n

theorem addAll_append (add : List Byte → Itr → C Itr) : ∀ (a b : List (List Byte)) (it : Itr),
    addAll add (a ++ b) it = (addAll add a it >>= addAll add b) := by
  intro a
  induction a with
  | nil => intro b it; rfl
  | cons s a ih =>
    intro b it
    rw [List.cons_append, addAll, addAll]
    cases add s it with
    | error e => rfl
    | ok it' => rw [bind_ok, bind_ok, ih]

/-- Adding non-empty lines to the output. -/
theorem addAll_shows (str : List Byte) (lines : List (List Byte)) (hne : ∀ s ∈ lines, s ≠ []) :
    ∃ it, addAll (fun s => emvAdd (some s)) lines (init str) = .ok it ∧ Shows str lines it.buf := by
  obtain ⟨it, e, h1, h2⟩ := C49_safe str lines
  refine ⟨it, e, ?_, fun h => h2 h.symm, fun h h3 => ⟨_, ⟨rfl, (h1 h3 h).2⟩, (h1 h3 h).1⟩, fun h h3 => ?_⟩
  · have : Bits.build lines str = .ok it.buf := by rw [Bits.build, e, bind_ok]
    exact Bits.build_length _ _ _ this
  · have := Bits.build_fits lines str h hne h3
    rw [Bits.build, e, bind_ok] at this
    exact Except.ok.inj this

/-- A literal or formatted text passed through a local array of 128 bytes. -/
theorem strncpy_cstr (loc s : List Byte) (hl : loc.length = 128) (hs : s.length ≤ 127)
    (hz : ∀ b ∈ s, b ≠ 0) :
    ∃ c, Capdu.strncpyTerm loc s = .ok c ∧ Capdu.cstr c = .ok s := by
  obtain ⟨out, e, -, k, hk⟩ := Capdu.strncpyTerm_spec loc s (by rintro rfl; simp at hl)
  refine ⟨out, e, ?_⟩
  rw [hk, List.take_of_length_le (by omega), List.replicate_succ]
  exact Capdu.cstr_spec s _ hz

theorem snprintf_cstr (loc s : List Byte) (hl : loc.length = 128) (hs : s.length ≤ 127)
    (hz : ∀ b ∈ s, b ≠ 0) :
    ∃ c, Capdu.snprintf loc s = .ok c ∧ Capdu.cstr c = .ok s := by
  refine ⟨_, Capdu.snprintf_spec loc s (by rintro rfl; simp at hl), ?_⟩
  rw [List.take_of_length_le (by omega)]
  exact Capdu.cstr_spec s _ hz

end Verif.Lists
