import Verif.DecodeListProps
import Verif.Iso8859Props

/-! # C100: codes, text, exit status and safety of the decoder -/

set_option autoImplicit false

namespace Verif.Decode
open Verif StrList Bits Formats

/-! ## Specification -/

/-- A decimal digit. -/
def IsDigit (c : Byte) : Prop := 0x30 ≤ c.toNat ∧ c.toNat ≤ 0x39

/-- A number as `strtoul` reads it: spaces, a sign, digits; a minus sign counts down from 2^32. -/
def IsNumber (s : List Byte) (n : Nat) : Prop :=
  ∃ sp sign ds : List Byte, s = sp ++ sign ++ ds ∧ (∀ c ∈ sp, c.toNat = 0x20 ∨ (9 ≤ c.toNat ∧ c.toNat ≤ 13)) ∧
    ds ≠ [] ∧ (∀ c ∈ ds, IsDigit c) ∧
    ((sign = [] ∨ sign = txt!"+") ∧ n = decNat (ds.map fun c => c.toNat - 0x30) ∨
      sign = txt!"-" ∧ n = (2 ^ 32 - decNat (ds.map fun c => c.toNat - 0x30)) % 2 ^ 32)

/-- What is shown for a code: its name; else the name of the number it spells. -/
def Looked (arg : List Byte) (letters : Option (List Byte)) (number : Nat → Option (List Byte))
    (invalid : List Byte) (r : C Shown) : Prop :=
  (∀ s, letters = some s → r = .ok ⟨s ++ [0x0A], []⟩) ∧
  (letters = none →
    (∀ n, IsNumber arg n → ∀ s, number n = some s → r = .ok ⟨s ++ [0x0A], []⟩) ∧
    (∀ n, IsNumber arg n → number n = none → r = .ok ⟨[], txt!"Unknown" ++ [0x0A]⟩) ∧
    ((∀ n, ¬ IsNumber arg n) → r = .ok ⟨[], invalid ++ [0x0A]⟩))

/-! ## Lemmas -/

theorem digits_spec (ds rest : List Byte) (acc : Nat) (h : ∀ c ∈ ds, IsDigit c)
    (hr : ∀ c r, rest = c :: r → ¬ IsDigit c) :
    digits (ds ++ rest) acc = ((ds.map fun c => c.toNat - 0x30).foldl (fun a d => a * 10 + d) acc, rest) := by
  induction ds generalizing acc with
  | nil =>
    cases rest with
    | nil => rfl
    | cons c r =>
      have := hr c r rfl
      simp only [List.nil_append, digits, List.map_nil, List.foldl_nil]
      rw [if_neg]
      rintro ⟨h1, h2⟩
      exact this ⟨by simpa [UInt8.le_iff_toNat_le] using h1, by simpa [UInt8.le_iff_toNat_le] using h2⟩
  | cons d ds ih =>
    obtain ⟨h1, h2⟩ := h d (by simp)
    simp only [List.cons_append, digits, List.map_cons, List.foldl_cons]
    rw [if_pos ⟨by simpa [UInt8.le_iff_toNat_le] using h1, by simpa [UInt8.le_iff_toNat_le] using h2⟩]
    exact ih _ (fun c hc => h c (by simp [hc]))

theorem digits_split (s : List Byte) : ∃ ds rest, s = ds ++ rest ∧ (∀ c ∈ ds, IsDigit c) ∧
    ∀ c r, rest = c :: r → ¬ IsDigit c := by
  induction s with
  | nil => exact ⟨[], [], rfl, by simp, by simp⟩
  | cons c s ih =>
    by_cases h : IsDigit c
    · obtain ⟨ds, rest, e, h1, h2⟩ := ih
      refine ⟨c :: ds, rest, by rw [e]; rfl, ?_, h2⟩
      intro x hx
      rcases List.mem_cons.mp hx with rfl | hx
      · exact h
      · exact h1 x hx
    · exact ⟨[], c :: s, rfl, by simp, by rintro c' r ⟨rfl, rfl⟩; exact h⟩

theorem space_iff : ∀ c : Byte, Hex.isSpace c = true ↔ (c.toNat = 0x20 ∨ (9 ≤ c.toNat ∧ c.toNat ≤ 13)) := by
  decide +kernel

theorem decNat_short (ds : List Byte) (h : ∀ c ∈ ds, IsDigit c) (hl : ds.length ≤ 3) :
    decNat (ds.map fun c => c.toNat - 0x30) < 1000 := by
  match ds, h, hl with
  | [], _, _ => simp [decNat]
  | [a], h, _ =>
    have := h a (by simp)
    simp [decNat, IsDigit] at this ⊢; omega
  | [a, b], h, _ =>
    have h1 := h a (by simp)
    have h2 := h b (by simp)
    simp [decNat, IsDigit] at h1 h2 ⊢; omega
  | [a, b, c], h, _ =>
    have h1 := h a (by simp)
    have h2 := h b (by simp)
    have h3 := h c (by simp)
    simp [decNat, IsDigit] at h1 h2 h3 ⊢; omega

/-- `strtoul` after the spaces. -/
def afterSpace (s t : List Byte) : Nat × List Byte :=
  let (neg, u) :=
    match t with
    | 0x2D :: u => (true, u)
    | 0x2B :: u => (false, u)
    | u => (false, u)
  match u with
  | [] => (0, s)
  | c :: _ =>
    if 0x30 ≤ c ∧ c ≤ 0x39 then
      let (n, rest) := digits u 0
      ((if neg then 2 ^ 64 - n else n) % 2 ^ 32, rest)
    else (0, s)

theorem strtoul_after (s : List Byte) : strtoul s = afterSpace s (s.dropWhile Hex.isSpace) := rfl

/-- `strtoul` after the sign. -/
def afterSign (s : List Byte) (neg : Bool) (u : List Byte) : Nat × List Byte :=
  match u with
  | [] => (0, s)
  | c :: _ =>
    if 0x30 ≤ c ∧ c ≤ 0x39 then
      let (n, rest) := digits u 0
      ((if neg then 2 ^ 64 - n else n) % 2 ^ 32, rest)
    else (0, s)

/-- The sign. -/
def signOf (t : List Byte) : Bool × List Byte :=
  match t with
  | 0x2D :: u => (true, u)
  | 0x2B :: u => (false, u)
  | u => (false, u)

theorem after_plain (s t : List Byte) (h1 : ∀ u, t ≠ 0x2D :: u) (h2 : ∀ u, t ≠ 0x2B :: u) :
    afterSpace s t = afterSign s false t := by
  have e : signOf t = (false, t) := by
    unfold signOf
    split
    · next u => exact absurd rfl (h1 u)
    · next u => exact absurd rfl (h2 u)
    · rfl
  have e2 : afterSpace s t = afterSign s (signOf t).1 (signOf t).2 := rfl
  rw [e2, e]

theorem digit_iff (c : Byte) : (0x30 ≤ c ∧ c ≤ 0x39) ↔ IsDigit c := by
  simp [IsDigit, UInt8.le_iff_toNat_le]

theorem afterSign_ok (s : List Byte) (neg : Bool) (ds : List Byte) (h0 : ds ≠ []) (h : ∀ c ∈ ds, IsDigit c) :
    afterSign s neg ds =
      ((if neg then 2 ^ 64 - decNat (ds.map fun c => c.toNat - 0x30)
        else decNat (ds.map fun c => c.toNat - 0x30)) % 2 ^ 32, []) := by
  obtain ⟨c, r, rfl⟩ := List.exists_cons_of_ne_nil h0
  have e := digits_spec (c :: r) [] 0 h (by simp)
  rw [List.append_nil] at e
  simp only [afterSign]
  rw [if_pos ((digit_iff c).2 (h c (by simp))), e]
  rfl

theorem afterSign_only (s : List Byte) (neg : Bool) (u : List Byte) (n : Nat) (hs : s ≠ [])
    (h : afterSign s neg u = (n, [])) : u ≠ [] ∧ ∀ c ∈ u, IsDigit c := by
  cases u with
  | nil => exact absurd (congrArg Prod.snd h) hs
  | cons c r =>
    refine ⟨by simp, ?_⟩
    simp only [afterSign] at h
    by_cases hc : IsDigit c
    · rw [if_pos ((digit_iff c).2 hc)] at h
      obtain ⟨ds, rest, e, h1, h2⟩ := digits_split (c :: r)
      rw [e, digits_spec ds rest 0 h1 h2] at h
      have : rest = [] := congrArg Prod.snd h
      subst this
      rw [e, List.append_nil]
      exact h1
    · rw [if_neg (fun x => hc ((digit_iff c).1 x))] at h
      exact absurd (congrArg Prod.snd h) hs

theorem dropWhile_space (sp t : List Byte) (h : ∀ c ∈ sp, Hex.isSpace c = true)
    (ht : ∀ c r, t = c :: r → Hex.isSpace c = false) : (sp ++ t).dropWhile Hex.isSpace = t := by
  induction sp with
  | nil =>
    cases t with
    | nil => rfl
    | cons c r => simp [ht c r rfl]
  | cons c sp ih =>
    rw [List.cons_append, List.dropWhile_cons, if_pos (h c (by simp))]
    exact ih (fun x hx => h x (by simp [hx]))

theorem space_split (s : List Byte) : ∃ sp, s = sp ++ s.dropWhile Hex.isSpace ∧
    ∀ c ∈ sp, c.toNat = 0x20 ∨ (9 ≤ c.toNat ∧ c.toNat ≤ 13) := by
  induction s with
  | nil => exact ⟨[], rfl, by simp⟩
  | cons c s ih =>
    rw [List.dropWhile_cons]
    split
    · next h =>
      obtain ⟨sp, e, h1⟩ := ih
      refine ⟨c :: sp, by rw [List.cons_append, ← e], ?_⟩
      intro x hx
      rcases List.mem_cons.mp hx with rfl | hx
      · exact (space_iff x).1 h
      · exact h1 x hx
    · exact ⟨[], rfl, by simp⟩

theorem digit_facts : ∀ c : Byte, (0x30 ≤ c.toNat ∧ c.toNat ≤ 0x39) →
    Hex.isSpace c = false ∧ c ≠ 0x2D ∧ c ≠ 0x2B := by decide +kernel

theorem strtoul_iff (s : List Byte) (h3 : s.length ≤ 3) (h0 : s ≠ []) (n : Nat) :
    IsNumber s n ↔ strtoul s = (n, []) := by
  constructor
  · rintro ⟨sp, sign, ds, rfl, hsp, hd0, hd, hn⟩
    have hv := decNat_short ds hd (by simp at h3; omega)
    obtain ⟨d, r, rfl⟩ := List.exists_cons_of_ne_nil hd0
    obtain ⟨f1, f2, f3⟩ := digit_facts d (hd d (by simp))
    have hsp' : ∀ c ∈ sp, Hex.isSpace c = true := fun c hc => (space_iff c).2 (hsp c hc)
    rw [strtoul_after]
    rcases hn with ⟨rfl | rfl, rfl⟩ | ⟨rfl, rfl⟩
    · have e : (sp ++ [] ++ d :: r).dropWhile Hex.isSpace = d :: r := by
        rw [List.append_nil]
        exact dropWhile_space sp _ hsp' (by rintro c r ⟨rfl, rfl⟩; exact f1)
      rw [e, after_plain _ _ (by rintro u ⟨rfl, rfl⟩; exact f2 rfl) (by rintro u ⟨rfl, rfl⟩; exact f3 rfl),
        afterSign_ok _ _ _ hd0 hd]
      simp only [Bool.false_eq_true, if_false]
      rw [Nat.mod_eq_of_lt (by omega)]
    · have e : (sp ++ txt!"+" ++ d :: r).dropWhile Hex.isSpace = 0x2B :: d :: r := by
        rw [List.append_assoc]
        exact dropWhile_space sp (0x2B :: d :: r) hsp' (by rintro c r ⟨rfl, rfl⟩; decide)
      have e2 : ∀ s, afterSpace s (0x2B :: d :: r) = afterSign s false (d :: r) := fun s => rfl
      rw [e, e2, afterSign_ok _ _ _ hd0 hd]
      simp only [Bool.false_eq_true, if_false]
      rw [Nat.mod_eq_of_lt (by omega)]
    · have e : (sp ++ txt!"-" ++ d :: r).dropWhile Hex.isSpace = 0x2D :: d :: r := by
        rw [List.append_assoc]
        exact dropWhile_space sp (0x2D :: d :: r) hsp' (by rintro c r ⟨rfl, rfl⟩; decide)
      have e2 : ∀ s, afterSpace s (0x2D :: d :: r) = afterSign s true (d :: r) := fun s => rfl
      rw [e, e2, afterSign_ok _ _ _ hd0 hd]
      simp only [if_true]
      congr 1
      omega
  · intro h
    obtain ⟨sp, e, hsp⟩ := space_split s
    rw [strtoul_after] at h
    generalize s.dropWhile Hex.isSpace = t at h e
    by_cases h1 : ∃ u, t = 0x2D :: u
    · obtain ⟨u, rfl⟩ := h1
      have e2 : afterSpace s (0x2D :: u) = afterSign s true u := rfl
      rw [e2] at h
      obtain ⟨hu, hd⟩ := afterSign_only s true u n h0 h
      have hv := decNat_short u hd (by rw [e] at h3; simp at h3; omega)
      rw [afterSign_ok s true u hu hd] at h
      refine ⟨sp, txt!"-", u, by rw [List.append_assoc]; exact e, hsp, hu, hd, .inr ⟨rfl, ?_⟩⟩
      have := congrArg Prod.fst h
      simp only [if_true] at this
      omega
    · by_cases h2 : ∃ u, t = 0x2B :: u
      · obtain ⟨u, rfl⟩ := h2
        have e2 : afterSpace s (0x2B :: u) = afterSign s false u := rfl
        rw [e2] at h
        obtain ⟨hu, hd⟩ := afterSign_only s false u n h0 h
        have hv := decNat_short u hd (by rw [e] at h3; simp at h3; omega)
        rw [afterSign_ok s false u hu hd] at h
        refine ⟨sp, txt!"+", u, by rw [List.append_assoc]; exact e, hsp, hu, hd, .inl ⟨.inr rfl, ?_⟩⟩
        have := congrArg Prod.fst h
        simp only [Bool.false_eq_true, if_false] at this
        omega
      · rw [after_plain s t (fun u hu => h1 ⟨u, hu⟩) (fun u hu => h2 ⟨u, hu⟩)] at h
        obtain ⟨hu, hd⟩ := afterSign_only s false t n h0 h
        have hv := decNat_short t hd (by rw [e] at h3; simp at h3; omega)
        rw [afterSign_ok s false t hu hd] at h
        refine ⟨sp, [], t, by rw [List.append_nil]; exact e, hsp, hu, hd, .inl ⟨.inl rfl, ?_⟩⟩
        have := congrArg Prod.fst h
        simp only [Bool.false_eq_true, if_false] at this
        omega

theorem byCode_looked (arg : List Byte) (letters : Option (List Byte)) (number : Nat → Option (List Byte))
    (invalid : List Byte) (h3 : arg.length ≤ 3) (h0 : arg ≠ []) :
    Looked arg letters number invalid (byCode letters number arg invalid) := by
  refine ⟨fun s h => by rw [h]; rfl, fun h => ?_⟩
  subst h
  obtain ⟨m, rest, hL⟩ : ∃ m rest, strtoul arg = (m, rest) := ⟨_, _, rfl⟩
  have hr : byCode none number arg invalid =
      if rest ≠ [] then complain invalid
      else match number m with
        | some s => .ok ⟨s ++ [0x0A], []⟩
        | none => complain txt!"Unknown" := by
    simp only [byCode, hL, h0, false_or]
    rfl
  rw [hr]
  refine ⟨fun n hn s hs => ?_, fun n hn hs => ?_, fun hn => ?_⟩
  · rw [strtoul_iff arg h3 h0, hL] at hn
    cases hn
    rw [if_neg (by simp), hs]
  · rw [strtoul_iff arg h3 h0, hL] at hn
    cases hn
    rw [if_neg (by simp), hs]
    rfl
  · rw [if_pos]
    · rfl
    · rintro rfl
      exact hn m ((strtoul_iff arg h3 h0 m).2 hL)

/-! ## Codes -/

/-- **C100** (countries).  Two or three characters are looked up as a code of that length, and then as
a number. -/
theorem C100_country (t : Tables) (loc : Locals) (help : List Byte) (pad : Bool) (arg data : List Byte) :
    (arg.length = 2 → Looked arg (t.env.country2 arg) t.env.countryNum txt!"Invalid ISO 3166-1 country code"
      (decode t loc help pad arg data .iso3166)) ∧
    (arg.length = 3 → Looked arg (t.env.country3 arg) t.env.countryNum txt!"Invalid ISO 3166-1 country code"
      (decode t loc help pad arg data .iso3166)) ∧
    (arg.length ≠ 2 → arg.length ≠ 3 → decode t loc help pad arg data .iso3166 =
      .ok ⟨[], txt!"ISO 3166-1 country code must be alpha-2, alpha-3 or 3-digit numeric code" ++ [0x0A]⟩) := by
  refine ⟨fun h => ?_, fun h => ?_, fun h2 h3 => ?_⟩
  · have h0 : arg ≠ [] := by intro e; simp [e] at h
    simp only [decode, iso3166]
    rw [if_neg (by omega), if_pos h]
    exact byCode_looked _ _ _ _ (by omega) h0
  · have h0 : arg ≠ [] := by intro e; simp [e] at h
    simp only [decode, iso3166]
    rw [if_neg (by omega), if_neg (by omega)]
    exact byCode_looked _ _ _ _ (by omega) h0
  · simp only [decode, iso3166]
    rw [if_pos ⟨h2, h3⟩]
    rfl

/-- **C100** (currencies). -/
theorem C100_currency (t : Tables) (loc : Locals) (help : List Byte) (pad : Bool) (arg data : List Byte) :
    (arg.length = 3 → Looked arg (t.currency3 arg) t.env.currency txt!"Invalid ISO 4217 currency code"
      (decode t loc help pad arg data .iso4217)) ∧
    (arg.length ≠ 3 → decode t loc help pad arg data .iso4217 =
      .ok ⟨[], txt!"ISO 4217 currency code must be alpha-3 or 3-digit numeric code" ++ [0x0A]⟩) := by
  refine ⟨fun h => ?_, fun h => ?_⟩
  · have h0 : arg ≠ [] := by intro e; simp [e] at h
    simp only [decode, iso4217]
    rw [if_neg (by omega)]
    exact byCode_looked _ _ _ _ (by omega) h0
  · simp only [decode, iso4217]
    rw [if_pos h]
    rfl

/-- **C100** (languages).  They have no numbers. -/
theorem C100_language (t : Tables) (loc : Locals) (help : List Byte) (pad : Bool) (arg data : List Byte) :
    (∀ s, arg.length = 2 ∧ t.env.language arg = some s ∨ arg.length = 3 ∧ t.language3 arg = some s →
      decode t loc help pad arg data .iso639 = .ok ⟨s ++ [0x0A], []⟩) ∧
    (arg.length = 2 ∧ t.env.language arg = none ∨ arg.length = 3 ∧ t.language3 arg = none →
      decode t loc help pad arg data .iso639 = .ok ⟨[], txt!"Unknown" ++ [0x0A]⟩) ∧
    (arg.length ≠ 2 → arg.length ≠ 3 → decode t loc help pad arg data .iso639 =
      .ok ⟨[], txt!"ISO 639 currency code must be alpha-2 or alpha-3 code" ++ [0x0A]⟩) := by
  refine ⟨fun s h => ?_, fun h => ?_, fun h2 h3 => ?_⟩
  · simp only [decode, iso639]
    rcases h with ⟨h, e⟩ | ⟨h, e⟩
    · rw [if_neg (by omega), if_pos h, e]
    · rw [if_neg (by omega), if_neg (by omega), e]
  · simp only [decode, iso639]
    rcases h with ⟨h, e⟩ | ⟨h, e⟩
    · rw [if_neg (by omega), if_pos h, e]; rfl
    · rw [if_neg (by omega), if_neg (by omega), e]; rfl
  · simp only [decode, iso639]
    rw [if_pos ⟨h2, h3⟩]
    rfl

/-- Numbers may have spaces and a sign. -/
example : IsNumber txt!"840" 840 ∧ IsNumber txt!" +8" 8 ∧ IsNumber txt!"-1" 4294967295 ∧
    ∀ n, ¬ IsNumber txt!"8 4" n := by
  refine ⟨(strtoul_iff _ (by decide) (by decide) _).2 (by decide),
    (strtoul_iff _ (by decide) (by decide) _).2 (by decide),
    (strtoul_iff _ (by decide) (by decide) _).2 (by decide +kernel), fun n h => ?_⟩
  rw [strtoul_iff _ (by decide) (by decide)] at h
  have e : (strtoul txt!"8 4").2 = txt!" 4" := by decide +kernel
  rw [h] at e
  exact absurd e (List.cons_ne_nil _ _).symm

/-! ## Text -/

/-- **C100** (ISO 8859).  The text up to the first NUL is shown in UTF-8, all of it when its UTF-8 has
less than 2048 bytes.  When a control character follows some text it is refused; when the first
character is one, or there is no data, an empty line is shown.  Other code pages are refused.
Missing: text which fills the array, see `C100_text_overflow`. -/
theorem C100_text_partial (t : Tables) (loc : Locals) (help : List Byte) (pad : Bool)
    (arg data : List Byte) :
    ((∀ b ∈ Iso8859.text data, Printable8859 b) → (Iso8859.utf8 (Iso8859.text data)).length < 2048 →
      decode t loc help pad arg data (.iso8859 1) =
        .ok ⟨Iso8859.utf8 (Iso8859.text data) ++ [0x0A], []⟩) ∧
    (∀ b p tl, data = p ++ b :: tl → b ≠ 0 → ¬ Printable8859 b → (∀ x ∈ p, Printable8859 x) →
      (Iso8859.utf8 p).length + 2 ≤ 2048 → decode t loc help pad arg data (.iso8859 1) =
        if p = [] then .ok ⟨[0x0A], []⟩ else .ok ⟨[], txt!"iso8859_to_utf8() failed; r=2" ++ [0x0A]⟩) ∧
    (∀ n, n ≠ 1 → n ≤ 15 → decode t loc help pad arg data (.iso8859 n) =
      .ok ⟨[], txt!"ISO8859-" ++ Lists.decimal n ++ txt!" not supported" ++ [0x0A]⟩) := by
  obtain ⟨z, hrep, hz⟩ : ∃ z, List.replicate 2048 (0 : Byte) = 0 :: z ∧ z.length = 2047 :=
    ⟨_, List.replicate_succ, List.length_replicate⟩
  have hzl : (0 :: z).length = 2048 := by simp only [List.length_cons, hz]
  have hclean : ∀ p : List Byte, (∀ x ∈ p, Printable8859 x) → ∀ x ∈ Iso8859.utf8 p, x ≠ 0 := by
    intro p hp x hx
    obtain ⟨b, hb, hx⟩ := List.mem_flatMap.mp hx
    revert hx
    have : ∀ b : Byte, Printable8859 b → (Iso8859.utf8 [b]).all (· != 0) = true := by decide +kernel
    have h := this b (hp b hb)
    rw [List.all_eq_true] at h
    intro hx
    have := h x (by simpa [Iso8859.utf8] using hx)
    simpa using this
  refine ⟨fun hp hl => ?_, ?_, fun n h1 h15 => ?_⟩
  · by_cases hd : data = []
    · subst hd
      simp only [decode, iso8859]
      rw [if_neg (by decide), hrep, (Iso8859.C58_refused 1 [] (0 :: z)).1 (.inl rfl), bind_ok]
      simp only
      rw [rd_eq (by simp), bind_ok, if_neg (by simp)]
      have := Capdu.cstr_spec [] z (by simp)
      rw [List.nil_append] at this
      rw [this]
      rfl
    · obtain ⟨rest, e, _⟩ := Iso8859.C58_whole_partial data (0 :: z) hd hp
        (by rw [hzl]; exact hl)
      simp only [decode, iso8859]
      rw [if_neg (by decide), hrep, e, bind_ok]
      simp only
      rw [rd_eq (by simp; omega), bind_ok, if_neg (by simp), Capdu.cstr_spec _ _ (hclean _ hp), bind_ok]
  · rintro b p tl rfl h0 hb hp hl
    have e := Iso8859.C58_control p tl (0 :: z) b h0 hb hp (by rw [hzl]; exact hl)
    simp only [decode, iso8859]
    rw [if_neg (by decide), hrep, e, bind_ok]
    simp only
    split
    · next h =>
      subst h
      have e2 : Iso8859.utf8 [] ++ ((0 :: z).set 0 0).drop (Iso8859.utf8 []).length = [] ++ 0 :: z := rfl
      rw [e2, Capdu.cstr_spec [] z (by simp), rd_eq (by simp), bind_ok, if_neg (by simp)]
      rfl
    · next h =>
      have hne : Iso8859.utf8 p ≠ [] := by
        obtain ⟨c, r, rfl⟩ := List.exists_cons_of_ne_nil h
        rw [Iso8859.utf8_cons]
        have := Iso8859.utf8_single c
        intro h
        rw [List.append_eq_nil_iff] at h
        rw [h.1] at this
        simp at this
      obtain ⟨c, r, hc⟩ := List.exists_cons_of_ne_nil hne
      have hc0 := hclean p hp c (by rw [hc]; simp)
      rw [hc, List.cons_append, rd_eq (by simp), bind_ok, if_pos (by simpa using hc0)]
      rfl
  · have : Iso8859.isSupported n = false := by simp [Iso8859.isSupported, h1]
    simp only [decode, iso8859]
    rw [this, if_pos (by simp), Lists.decU_spec n (by omega)]
    simp [complain]

example (t : Tables) (loc : Locals) (help : List Byte) :
    decode t loc help false [] [0x4A, 0xE9] (.iso8859 1) = .ok ⟨[0x4A, 0xC3, 0xA9, 0x0A], []⟩ ∧
    decode t loc help false [] [0x0D, 0x4A] (.iso8859 1) = .ok ⟨[0x0A], []⟩ := by
  refine ⟨?_, ?_⟩
  · rw [(C100_text_partial t loc help false [] [0x4A, 0xE9]).1 (by decide +kernel) (by decide +kernel)]
    have : Iso8859.utf8 (Iso8859.text [0x4A, 0xE9]) = [0x4A, 0xC3, 0xA9] := by decide +kernel
    rw [this]
    rfl
  · rw [(C100_text_partial t loc help false [] [0x0D, 0x4A]).2.1 0x0D [] [0x4A] rfl (by decide) (by decide)
      (by simp) (by decide), if_pos rfl]

/-- **C100 is false for longer text**: when the UTF-8 of the text fills the array exactly, the
terminator is written past it. -/
theorem C100_text_overflow (t : Tables) (loc : Locals) (help : List Byte) (pad : Bool)
    (arg data : List Byte) (h : ∀ b ∈ data, Printable8859 b ∧ 0x80 ≤ b.toNat) (hl : 1024 ≤ data.length) :
    decode t loc help pad arg data (.iso8859 1) = .error .oobWrite := by
  have htext : ∀ d : List Byte, (∀ b ∈ d, Printable8859 b ∧ 0x80 ≤ b.toNat) → Iso8859.text d = d := by
    intro d hd
    have : ∀ d : List Byte, (∀ b ∈ d, b ≠ 0) → Iso8859.text d = d := by
      intro d
      induction d with
      | nil => intro _; rfl
      | cons b d ih =>
        intro h
        have hb := h b (by simp)
        have := ih (fun x hx => h x (by simp [hx]))
        rw [Iso8859.text] at this ⊢
        rw [List.takeWhile_cons, if_pos (by simpa using hb), this]
    refine this d fun b hb => ?_
    rintro rfl
    have := (hd _ hb).2
    simp at this
  have hfit : ∀ (k : Nat) (d : List Byte), (∀ b ∈ d, Printable8859 b ∧ 0x80 ≤ b.toNat) → k ≤ d.length →
      (Iso8859.utf8 (Iso8859.fit (2 * k) d)).length = 2 * k := by
    intro k
    induction k with
    | zero =>
      intro d hd hk
      have := Iso8859.fit_length 0 d
      simpa using this
    | succ k ih =>
      intro d hd hk
      cases d with
      | nil => simp at hk
      | cons b d =>
        have hb : (Iso8859.utf8 [b]).length = 2 := by
          rw [Iso8859.utf8_high b (by have := (hd b (by simp)).2; rw [UInt8.lt_iff_toNat_lt]; simpa using this)]
          rfl
        unfold Iso8859.fit
        rw [if_neg (by omega), Iso8859.utf8_cons, List.length_append, hb,
          show 2 * (k + 1) - 2 = 2 * k by omega,
          ih d (fun x hx => hd x (by simp [hx])) (by simpa using hk)]
        omega
  have h0 : data ≠ [] := by rintro rfl; simp at hl
  have e := Iso8859.toUtf8_spec data (List.replicate 2048 0) h0 (by rw [List.replicate_succ]; exact List.cons_ne_nil _ _)
    (fun b hb => (h b (by rw [htext data h] at hb; exact hb)).1)
  simp only [List.length_replicate] at e
  rw [htext data h, if_neg (by have := hfit 1024 data h hl; simp only [Nat.reduceMul] at this; omega)] at e
  simp only [decode, iso8859]
  rw [if_neg (by decide), e]
  rfl

example : (∀ b ∈ List.replicate 1024 (0xE9 : Byte), Printable8859 b ∧ 0x80 ≤ b.toNat) := by
  intro b hb
  rw [List.eq_of_mem_replicate hb]
  decide

/-! ## Exit status -/

/-- **C100** (exit status).  The status is 2 when the tables are refused, and otherwise 0 whatever is
shown, refusals included.  When tables are missing a warning is shown first. -/
theorem C100_status (t : Tables) (loc : Locals) (help : List Byte) (pad : Bool) (arg data : List Byte)
    (m : Mode) (r : Int) :
    (r < 0 → main r t loc help pad arg data m =
      .ok (2, ⟨[], txt!"Failed to initialise EMV strings" ++ [0x0A]⟩)) ∧
    (∀ s, decode t loc help pad arg data m = .ok s →
      (r = 0 → main r t loc help pad arg data m = .ok (0, s)) ∧
      (0 < r → main r t loc help pad arg data m = .ok (0, ⟨s.out,
        txt!"Failed to load iso-codes data or mcc-codes data; currency, country, language or MCC lookups may not be possible" ++ [0x0A] ++ s.err⟩))) := by
  refine ⟨fun h => ?_, fun s hs => ⟨fun h => ?_, fun h => ?_⟩⟩
  · rw [main, if_pos h]
  · rw [main, if_neg (by omega), hs, bind_ok, if_neg (by omega)]
    rfl
  · rw [main, if_neg (by omega), hs, bind_ok, if_pos h]

end Verif.Decode
