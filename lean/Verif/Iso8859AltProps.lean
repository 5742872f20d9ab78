import Verif.Iso8859Alt
import Verif.Iso8859Props

/-! # C129: conversion to UTF-8 by a library -/

set_option autoImplicit false

namespace Verif.Iso8859Alt
open Verif

/-! ## Specification -/

/-- `out` holds the text `s` and its terminator. -/
def Holds (out s : List Byte) : Prop := ∃ rest, out = s ++ 0 :: rest ∧ 0 ∉ s

/-- The library has these bytes as characters, which are this text. -/
inductive Chars (char : Byte → Option (List Byte)) : List Byte → List Byte → Prop
  | nil : Chars char [] []
  | cons {b : Byte} {u s t : List Byte} : char b = some u → Chars char s t → Chars char (b :: s) (u ++ t)

/-- The pages ISO 8859 has. -/
def Page (n : Nat) : Prop := n ∈ [1, 2, 3, 4, 5, 6, 7, 8, 9, 10, 11, 13, 14, 15]

/-! ## Lemmas -/

theorem supported_iff (n : Nat) : isSupported n = true ↔ Page n := by
  simp only [isSupported, Page, Bool.not_eq_true', Bool.or_eq_false_iff, decide_eq_false_iff_not, beq_eq_false_iff_ne,
    List.mem_cons, List.not_mem_nil, or_false]
  omega

theorem iconv_fits {char : Byte → Option (List Byte)} {s t : List Byte} (h : Chars char s t) :
    ∀ n, t.length ≤ n → iconv char s n = (t, true) := by
  induction h with
  | nil => intro n _; rfl
  | cons hb _ ih =>
    intro n hn
    rw [List.length_append] at hn
    simp only [iconv, hb]
    rw [if_pos (by omega), ih _ (by omega)]

/-- What `iconv` writes are the first characters. -/
theorem iconv_spec (char : Byte → Option (List Byte)) : ∀ (s : List Byte) (n : Nat),
    (iconv char s n).1.length ≤ n ∧ ∃ p q, s = p ++ q ∧ Chars char p (iconv char s n).1 ∧
      ((iconv char s n).2 = true ↔ q = []) ∧
      ∀ b r, q = b :: r → ∀ u, char b = some u → n < (iconv char s n).1.length + u.length := by
  intro s
  induction s with
  | nil => intro n; exact ⟨Nat.zero_le _, [], [], rfl, .nil, by simp [iconv], by simp⟩
  | cons b s ih =>
    intro n
    cases hb : char b with
    | none =>
      simp only [iconv, hb]
      refine ⟨Nat.zero_le _, [], b :: s, rfl, .nil, by simp, ?_⟩
      rintro b' r ⟨rfl, rfl⟩ u hu
      rw [hb] at hu; cases hu
    | some u =>
      by_cases hu : u.length ≤ n
      · obtain ⟨h1, p, q, h2, h3, h4, h5⟩ := ih (n - u.length)
        simp only [iconv, hb, if_pos hu]
        refine ⟨by rw [List.length_append]; omega, b :: p, q, by rw [h2]; rfl, .cons hb h3, h4, ?_⟩
        intro b' r hq u' hu'
        have := h5 b' r hq u' hu'
        rw [List.length_append]
        omega
      · simp only [iconv, hb, if_neg hu]
        refine ⟨Nat.zero_le _, [], b :: s, rfl, .nil, by simp, ?_⟩
        rintro b' r ⟨rfl, rfl⟩ u' hu'
        rw [hb] at hu'
        cases hu'
        simpa using hu

theorem iconv_eq (x : Lib) (cp : Nat) (iso old : List Byte) (hi : iso ≠ []) (ho : old ≠ []) (hp : Page cp)
    (hk : x.known cp = true) : toUtf8Iconv x cp iso old =
      .ok (if (iconv (x.char cp) iso old.length).2 then 0 else 2,
        (iconv (x.char cp) iso old.length).1 ++ (old.set 0 0).drop (iconv (x.char cp) iso old.length).1.length) := by
  have h1 : iso.length ≠ 0 := by simpa using hi
  have h2 : old.length ≠ 0 := by simpa using ho
  have h3 := (iconv_spec (x.char cp) iso old.length).1
  rw [toUtf8Iconv, if_neg (by omega), wr_eq (by omega), bind_ok, (supported_iff cp).mpr hp, hk]
  simp only [Bool.not_true, Bool.false_eq_true, if_false, List.length_set]
  rw [wrs_eq (by rw [List.length_set]; omega)]
  simp

theorem chars_flat {char : Byte → Option (List Byte)} {s t : List Byte} (h : Chars char s t) :
    s.flatMap (fun b => (char b).getD []) = t := by
  induction h with
  | nil => rfl
  | cons hb _ ih => rw [List.flatMap_cons, ih, hb]; rfl

theorem boost_eq (x : Lib) (cp : Nat) (iso old : List Byte) (hi : iso ≠ []) (ho : old ≠ []) (hp : Page cp)
    (hk : x.known cp = true) (ht : iso.flatMap (fun b => (x.char cp b).getD []) ≠ []) : toUtf8Boost x cp iso old =
      .ok (0, ((iso.flatMap fun b => (x.char cp b).getD []).takeWhile (· ≠ 0)).take (old.length - 1) ++
        List.replicate (old.length - (((iso.flatMap fun b => (x.char cp b).getD []).takeWhile (· ≠ 0)).take (old.length - 1)).length) 0) := by
  have h1 : iso.length ≠ 0 := by simpa using hi
  have h2 : old.length ≠ 0 := by simpa using ho
  rw [toUtf8Boost, if_neg (by omega), wr_eq (by omega), bind_ok, (supported_iff cp).mpr hp, hk]
  generalize iso.flatMap (fun b => (x.char cp b).getD []) = t at ht
  simp only [Bool.not_true, Bool.false_eq_true, if_false, List.length_set]
  rw [if_neg (by simpa using ht)]
  have hl : (strncpy t (old.length - 1)).length = old.length - 1 := by
    simp only [strncpy, List.length_append, List.length_replicate]
    have := List.length_take_le (old.length - 1) (t.takeWhile (· ≠ 0))
    omega
  rw [wrs_eq (by rw [List.length_set, hl]; omega), bind_ok]
  have hlen : ((old.set 0 0).take 0 ++ strncpy t (old.length - 1) ++ (old.set 0 0).drop (0 + (strncpy t (old.length - 1)).length)).length = old.length := by
    simp [hl]
    try omega
  rw [wr_eq (by omega), bind_ok, hlen]
  congr 2
  have hd : ((old.set 0 0).drop (0 + (strncpy t (old.length - 1)).length)).length = 1 := by
    rw [List.length_drop, hl, List.length_set]; omega
  obtain ⟨z, hz⟩ := List.length_eq_one_iff.mp hd
  rw [hz, List.take_zero, List.nil_append, List.set_append_right _ _ (by omega)]
  rw [show old.length - 1 - (strncpy t (old.length - 1)).length = 0 by omega]
  simp only [strncpy, List.set_cons_zero, List.append_assoc]
  congr 1
  have : ((t.takeWhile (· ≠ 0)).take (old.length - 1)).length ≤ old.length - 1 := List.length_take_le _ _
  rw [show old.length - ((t.takeWhile (· ≠ 0)).take (old.length - 1)).length =
    (old.length - 1 - ((t.takeWhile (· ≠ 0)).take (old.length - 1)).length) + 1 by omega, List.replicate_succ']

/-! ## C129 -/

/-- **C129** (pages).  Pages 1 to 15 are supported but for 12; others and empty arguments are refused, and so is a page
the library does not know. -/
theorem C129_pages (x : Lib) (cp : Nat) (iso old : List Byte) :
    (isSupported cp = true ↔ Page cp) ∧
    (iso = [] ∨ old = [] → toUtf8Iconv x cp iso old = .ok (-1, old) ∧ toUtf8Boost x cp iso old = .ok (-1, old)) ∧
    (iso ≠ [] → old ≠ [] → ¬ Page cp → toUtf8Iconv x cp iso old = .ok (1, old.set 0 0) ∧
      toUtf8Boost x cp iso old = .ok (1, old.set 0 0)) ∧
    (iso ≠ [] → old ≠ [] → Page cp → x.known cp = false → toUtf8Iconv x cp iso old = .ok (-2, old.set 0 0) ∧
      toUtf8Boost x cp iso old = .ok (-2, old.set 0 0)) := by
  refine ⟨supported_iff cp, fun h => ?_, fun hi ho hp => ?_, fun hi ho hp hk => ?_⟩
  · have : iso.length = 0 ∨ old.length = 0 := by simpa using h
    rw [toUtf8Iconv, toUtf8Boost, if_pos this, if_pos this]
    exact ⟨rfl, rfl⟩
  · have h1 : iso.length ≠ 0 := by simpa using hi
    have h2 : old.length ≠ 0 := by simpa using ho
    have h3 : isSupported cp = false := by
      rw [← Bool.not_eq_true, supported_iff]; exact hp
    rw [toUtf8Iconv, toUtf8Boost, if_neg (by omega), if_neg (by omega), wr_eq (by omega), bind_ok, bind_ok, h3]
    exact ⟨rfl, rfl⟩
  · have h1 : iso.length ≠ 0 := by simpa using hi
    have h2 : old.length ≠ 0 := by simpa using ho
    rw [toUtf8Iconv, toUtf8Boost, if_neg (by omega), if_neg (by omega), wr_eq (by omega), bind_ok, bind_ok,
      (supported_iff cp).mpr hp, hk]
    exact ⟨rfl, rfl⟩

/-- **C129** (boost).  The output is always terminated and inside of the array: it holds the characters the page has up
to a terminator, as many bytes of them as there is space for. -/
theorem C129_boost (x : Lib) (cp : Nat) (iso old : List Byte) (hi : iso ≠ []) (ho : old ≠ []) (hp : Page cp)
    (hk : x.known cp = true) (p q : List Byte) (hs : iso.filter (fun b => (x.char cp b).isSome) = p)
    (hc : Chars (x.char cp) p q) :
    (q = [] → toUtf8Boost x cp iso old = .ok (2, old.set 0 0)) ∧
    (q ≠ [] → ∃ out, toUtf8Boost x cp iso old = .ok (0, out) ∧ out.length = old.length ∧
      Holds out ((q.takeWhile (· ≠ 0)).take (old.length - 1))) := by
  have hq : iso.flatMap (fun b => (x.char cp b).getD []) = q := by
    rw [← chars_flat hc, ← hs]
    clear hs hc hi
    induction iso with
    | nil => rfl
    | cons b s ih =>
      cases hb : x.char cp b with
      | none => rw [List.flatMap_cons, List.filter_cons_of_neg (by simp [hb]), hb]; exact ih
      | some u => rw [List.flatMap_cons, List.filter_cons_of_pos (by simp [hb]), List.flatMap_cons, ih]
  have h2 : old.length ≠ 0 := by simpa using ho
  constructor
  · intro h0
    have h1 : iso.length ≠ 0 := by simpa using hi
    rw [toUtf8Boost, if_neg (by omega), wr_eq (by omega), bind_ok, (supported_iff cp).mpr hp, hk]
    simp only [Bool.not_true, Bool.false_eq_true, if_false, hq, h0, List.length_nil, if_true]
  · intro h0
    rw [← hq] at h0
    refine ⟨_, boost_eq x cp iso old hi ho hp hk h0, ?_, ?_⟩
    · rw [List.length_append, List.length_replicate]
      have := List.length_take_le (old.length - 1) ((iso.flatMap fun b => (x.char cp b).getD []).takeWhile (· ≠ 0))
      omega
    · rw [hq]
      have := List.length_take_le (old.length - 1) (q.takeWhile (· ≠ 0))
      refine ⟨List.replicate (old.length - ((q.takeWhile (· ≠ 0)).take (old.length - 1)).length - 1) 0, ?_, ?_⟩
      · rw [← List.replicate_succ]
        congr 2
        omega
      · intro h
        have := List.mem_of_mem_take h
        have := List.all_takeWhile (p := (· ≠ (0 : Byte))) (l := q)
        rw [List.all_eq_true] at this
        simpa using this 0 (by assumption)

/-- **C129** (iconv).  The whole text is converted exactly if the page has all characters and they fit; otherwise the
code is 2, and what is written are the characters before the first that cannot be.  Nothing is written after them. -/
theorem C129_iconv (x : Lib) (cp : Nat) (iso old : List Byte) (hi : iso ≠ []) (ho : old ≠ []) (hp : Page cp)
    (hk : x.known cp = true) :
    (∀ t, Chars (x.char cp) iso t → t.length ≤ old.length →
      toUtf8Iconv x cp iso old = .ok (0, t ++ (old.set 0 0).drop t.length)) ∧
    ((∀ t, Chars (x.char cp) iso t → old.length < t.length) → ∃ p b r t, iso = p ++ b :: r ∧ Chars (x.char cp) p t ∧
      (∀ u, x.char cp b = some u → old.length < t.length + u.length) ∧ t.length ≤ old.length ∧
      toUtf8Iconv x cp iso old = .ok (2, t ++ (old.set 0 0).drop t.length)) := by
  have e := iconv_eq x cp iso old hi ho hp hk
  constructor
  · intro t hc hl
    rw [e, iconv_fits hc _ hl]
    rfl
  · intro h
    obtain ⟨h1, p, q, h2, h3, h4, h5⟩ := iconv_spec (x.char cp) iso old.length
    cases q with
    | nil =>
      rw [List.append_nil] at h2
      rw [← h2] at h3
      have := h _ h3
      omega
    | cons b r =>
      refine ⟨p, b, r, _, h2, h3, h5 b r rfl, h1, ?_⟩
      rw [e]
      have : (iconv (x.char cp) iso old.length).2 = false := by
        rw [← Bool.not_eq_true, h4]; simp
      rw [this]
      rfl

/-- **C129, partial** (iconv).  Into an array of zeros that is larger than the text, the text is
terminated.  Missing: arrays that were not cleared or that the text fills (`C129_unterminated`). -/
theorem C129_zeroed_partial (x : Lib) (cp : Nat) (iso t : List Byte) (n : Nat) (hi : iso ≠ []) (hp : Page cp)
    (hk : x.known cp = true) (hc : Chars (x.char cp) iso t) (hl : t.length < n) (h0 : 0 ∉ t) :
    ∃ out, toUtf8Iconv x cp iso (List.replicate n 0) = .ok (0, out) ∧ out.length = n ∧ Holds out t := by
  have hn : List.replicate n (0 : Byte) ≠ [] := by
    intro h
    have := congrArg List.length h
    simp at this
    omega
  refine ⟨_, (C129_iconv x cp iso _ hi hn hp hk).1 t hc (by simp; omega), ?_, List.replicate (n - t.length - 1) 0, ?_, h0⟩
  · simp; omega
  · have : (List.replicate n (0 : Byte)).set 0 0 = List.replicate n 0 := by
      cases n with
      | zero => rfl
      | succ n => rfl
    rw [this, List.drop_replicate, ← List.replicate_succ]
    congr 2
    omega

/-- **C129 is false of the code** (iconv).  In an array that was not cleared the text has no terminator but what was
there before, and a text that fills the array has none at all. -/
theorem C129_unterminated (x : Lib) (cp : Nat) (iso old t : List Byte) (hi : iso ≠ []) (ho : old ≠ []) (hp : Page cp)
    (hk : x.known cp = true) (hc : Chars (x.char cp) iso t) (hl : t.length ≤ old.length) (h0 : 0 ∉ t) (ht : t ≠ [])
    (h : t.length = old.length ∨ 0 ∉ old.drop t.length) :
    ∃ out, toUtf8Iconv x cp iso old = .ok (0, out) ∧ 0 ∉ out := by
  refine ⟨_, (C129_iconv x cp iso old hi ho hp hk).1 t hc hl, ?_⟩
  have ht' : t.length ≠ 0 := by simpa using ht
  have hd : (old.set 0 0).drop t.length = old.drop t.length := by
    rw [List.drop_set_of_lt (by omega)]
  rw [hd]
  intro hm
  rcases List.mem_append.mp hm with hm | hm
  · exact h0 hm
  · rcases h with h | h
    · rw [h, List.drop_length] at hm; cases hm
    · exact h hm

/-- **C129** (the same text).  For a printable text of page 1 the three variants agree when it fits into a cleared
array. -/
theorem C129_same (x : Lib) (iso : List Byte) (n : Nat) (hi : iso ≠ []) (hk : x.known 1 = true)
    (hx : ∀ b, x.char 1 b = some (Iso8859.utf8 [b])) (hp : ∀ b ∈ iso, Formats.Printable8859 b)
    (hl : (Iso8859.utf8 iso).length < n) :
    ∃ a b c, toUtf8Iconv x 1 iso (List.replicate n 0) = .ok (0, a) ∧ toUtf8Boost x 1 iso (List.replicate n 0) = .ok (0, b) ∧
      Iso8859.toUtf8 1 iso (List.replicate n 0) = .ok (0, c) ∧ Holds a (Iso8859.utf8 iso) ∧ Holds b (Iso8859.utf8 iso) ∧
      Holds c (Iso8859.utf8 iso) := by
  have hc : ∀ s : List Byte, Chars (x.char 1) s (Iso8859.utf8 s) := by
    intro s
    induction s with
    | nil => exact .nil
    | cons b s ih => rw [Iso8859.utf8_cons]; exact .cons (hx b) ih
  have hz : ∀ b : Byte, Formats.Printable8859 b → 0 ∉ Iso8859.utf8 [b] ∧ b ≠ 0 := by decide +kernel
  have h0 : 0 ∉ Iso8859.utf8 iso := by
    clear hl hi
    induction iso with
    | nil => simp [Iso8859.utf8]
    | cons b s ih =>
      rw [Iso8859.utf8_cons]
      intro h
      rcases List.mem_append.mp h with h | h
      · exact (hz b (hp b (by simp))).1 h
      · exact ih (fun c hc => hp c (by simp [hc])) h
  have hne : Iso8859.utf8 iso ≠ [] := by
    obtain ⟨b, s, rfl⟩ := List.exists_cons_of_ne_nil hi
    rw [Iso8859.utf8_cons]
    intro h
    have := congrArg List.length h
    rw [List.length_append, List.length_nil] at this
    have := Iso8859.utf8_single b
    omega
  have hpg : Page 1 := by simp [Page]
  have hr : List.replicate n (0 : Byte) ≠ [] := by
    intro h
    have := congrArg List.length h
    simp at this
    omega
  obtain ⟨a, ha, -, ha'⟩ := C129_zeroed_partial x 1 iso _ n hi hpg hk (hc iso) hl h0
  obtain ⟨b, hb, -, hb'⟩ := (C129_boost x 1 iso _ hi hr hpg hk iso _ (List.filter_eq_self.mpr fun b _ => by rw [hx]; rfl) (hc iso)).2 hne
  have htx : Iso8859.text iso = iso := by
    unfold Iso8859.text
    have := List.takeWhile_append_of_pos (p := fun b : Byte => decide (b ≠ 0)) (l₁ := iso) (l₂ := [])
      (by intro b hb; simpa using (hz b (hp b hb)).2)
    simpa using this
  obtain ⟨rest, hq, -⟩ := Iso8859.C58_whole_partial iso (List.replicate n 0) hi (by rw [htx]; exact hp) (by rw [htx]; simpa using hl)
  rw [htx] at hq
  refine ⟨a, b, _, ha, hb, hq, ha', ?_, ⟨rest, rfl, h0⟩⟩
  have e1 : (Iso8859.utf8 iso).takeWhile (· ≠ 0) = Iso8859.utf8 iso := by
    have := List.takeWhile_append_of_pos (p := fun b : Byte => decide (b ≠ 0)) (l₁ := Iso8859.utf8 iso) (l₂ := [])
      (by intro b hb; simp; rintro rfl; exact h0 hb)
    simpa using this
  rw [e1, List.take_of_length_le (by simp; omega)] at hb'
  exact hb'

/-- **C129** (names of applications).  A preferred name of at most 16 characters of at most two bytes each fits into
the 33 bytes of the display name, whichever library is used. -/
theorem C129_display (x : Lib) (cp : Nat) (iso t : List Byte) (hi : iso ≠ []) (hp : Page cp) (hk : x.known cp = true)
    (hn : iso.length ≤ 16) (hc : Chars (x.char cp) iso t) (h2 : ∀ b ∈ iso, ∀ u, x.char cp b = some u → u ≠ [] ∧ u.length ≤ 2 ∧ 0 ∉ u) :
    ∃ a b, toUtf8Iconv x cp iso (List.replicate 33 0) = .ok (0, a) ∧ toUtf8Boost x cp iso (List.replicate 33 0) = .ok (0, b) ∧
      Holds a t ∧ Holds b t := by
  have key : t.length ≤ 2 * iso.length ∧ iso.length ≤ t.length ∧ 0 ∉ t ∧ iso.filter (fun b => (x.char cp b).isSome) = iso := by
    clear hi hn
    induction hc with
    | nil => exact ⟨by simp, by simp, by simp, rfl⟩
    | cons hb _ ih =>
      obtain ⟨i1, i2, i3, i4⟩ := ih fun b hb => h2 b (by simp [hb])
      obtain ⟨j1, j2, j3⟩ := h2 _ (by simp) _ hb
      have : 0 < _ := List.length_pos_iff.mpr j1
      refine ⟨by rw [List.length_append, List.length_cons]; omega, by rw [List.length_append, List.length_cons]; omega, ?_, ?_⟩
      · intro h
        rcases List.mem_append.mp h with h | h
        · exact j3 h
        · exact i3 h
      · rw [List.filter_cons_of_pos (by simp [hb]), i4]
  obtain ⟨k1, k2, k3, k4⟩ := key
  have hi' : iso.length ≠ 0 := by simpa using hi
  obtain ⟨a, ha, -, ha'⟩ := C129_zeroed_partial x cp iso t 33 hi hp hk hc (by omega) k3
  obtain ⟨b, hb, -, hb'⟩ := (C129_boost x cp iso (List.replicate 33 0) hi (by simp [List.replicate]) hp hk iso t k4 hc).2
    (by intro h; rw [h] at k2; simp at k2; exact hi k2)
  refine ⟨a, b, ha, hb, ha', ?_⟩
  have e1 : t.takeWhile (· ≠ 0) = t := by
    have := List.takeWhile_append_of_pos (p := fun b : Byte => decide (b ≠ 0)) (l₁ := t) (l₂ := [])
      (by intro b hb; simp; rintro rfl; exact k3 hb)
    simpa using this
  rw [e1, List.take_of_length_le (by simp; omega)] at hb'
  exact hb'

/-! ## Examples -/

/-- Page 1, and page 6 with nothing but ASCII. -/
def latin : Lib := ⟨fun _ => true, fun cp b => if cp = 1 ∨ b < 0x80 then some (Iso8859.utf8 [b]) else none⟩

/-- **C129 is false of the code** (boost).  A text that does not fit is cut inside of a character, where the simple
variant writes past the array (C58_overflow) and iconv refuses. -/
theorem C129_split : toUtf8Boost latin 1 [0xE9] [9, 9] = .ok (0, [0xC3, 0]) ∧
    toUtf8Iconv latin 1 [0x41, 0xE9] [9, 9] = .ok (2, [0x41, 9]) := by decide +kernel

/-- **C129 is false of the code** (differences).  Characters a page does not have are left out by boost and refused by
iconv, and control characters are refused by the simple variant only. -/
theorem C129_differ : toUtf8Boost latin 6 [0x41, 0xFF, 0x42] [0, 0, 0, 0] = .ok (0, [0x41, 0x42, 0, 0]) ∧
    toUtf8Iconv latin 6 [0x41, 0xFF, 0x42] [0, 0, 0, 0] = .ok (2, [0x41, 0, 0, 0]) ∧
    toUtf8Boost latin 1 [0x41, 0x07] [0, 0, 0, 0] = .ok (0, [0x41, 0x07, 0, 0]) ∧
    toUtf8Iconv latin 1 [0x41, 0x07] [0, 0, 0, 0] = .ok (0, [0x41, 0x07, 0, 0]) ∧
    Iso8859.toUtf8 1 [0x41, 0x07] [0, 0, 0, 0] = .ok (2, [0x41, 0, 0, 0]) := by decide +kernel

example : toUtf8Iconv latin 1 [0x41, 0xE9] [9, 9, 9, 9] = .ok (0, [0x41, 0xC3, 0xA9, 9]) ∧
    toUtf8Boost latin 1 [0x41, 0xE9] [9, 9, 9, 9] = .ok (0, [0x41, 0xC3, 0xA9, 0]) := by decide +kernel
example : Chars (latin.char 1) [0x41, 0xE9] [0x41, 0xC3, 0xA9] :=
  .cons (b := 0x41) (u := [0x41]) (by decide +kernel) (.cons (b := 0xE9) (u := [0xC3, 0xA9]) (t := []) (by decide +kernel) .nil)
example : Formats.Printable8859 0xE9 ∧ (∀ b, latin.char 1 b = some (Iso8859.utf8 [b])) := ⟨by decide, fun _ => rfl⟩

end Verif.Iso8859Alt
