import Verif.ToolArgs
import Verif.DecodeCodeProps

/-!
# C108: the command line of the tool
-/

set_option autoImplicit false

namespace Verif.ToolArgs
open Verif

/-! ## Specification -/

/-- The value of a decimal digit. -/
def dec? (c : Byte) : Option Nat := if 0x30 ≤ c.toNat ∧ c.toNat ≤ 0x39 then some (c.toNat - 0x30) else none

/-- The value of a hexadecimal digit. -/
def hex? (c : Byte) : Option Nat :=
  let i := txt!"0123456789abcdef".findIdx (· = c)
  let j := txt!"0123456789ABCDEF".findIdx (· = c)
  if i < 16 then some i else if j < 16 then some j else none

/-- The number some digits spell. -/
def ofDigits (base : Nat) (vs : List Nat) : Nat := vs.foldl (fun a d => a * base + d) 0

/-- The number `strtoul` reads from a text it reads to its end: spaces, a sign, digits; a minus sign counts
down from 2^64, and numbers of more than 64 bits give the largest one. -/
def Number (base : Nat) (val : Byte → Option Nat) (s : List Byte) (n : Nat) : Prop :=
  ∃ (sp sign ds : List Byte) (vs : List Nat), s = sp ++ sign ++ ds ∧
    (∀ c ∈ sp, c.toNat = 0x20 ∨ (9 ≤ c.toNat ∧ c.toNat ≤ 13)) ∧ ds ≠ [] ∧ ds.map val = vs.map some ∧
    (2 ^ 64 ≤ ofDigits base vs ∧ (sign = [] ∨ sign = txt!"+" ∨ sign = txt!"-") ∧ n = 2 ^ 64 - 1 ∨
     ofDigits base vs < 2 ^ 64 ∧
      ((sign = [] ∨ sign = txt!"+") ∧ n = ofDigits base vs ∨
        sign = txt!"-" ∧ n = (2 ^ 64 - ofDigits base vs) % 2 ^ 64))

/-- Names that are the same but for the case of their letters. -/
def SameName (a b : List Byte) : Prop :=
  a.length = b.length ∧ ∀ (i : Nat) (x y : Byte), a[i]? = some x → b[i]? = some y →
    x = y ∨ ∃ l, l < 26 ∧ (x.toNat = 0x41 + l ∧ y.toNat = 0x61 + l ∨ x.toNat = 0x61 + l ∧ y.toNat = 0x41 + l)

/-! ## Numbers -/

theorem digits_spec (base : Nat) (ds rest : List Byte) (vs : List Nat) (acc : Nat)
    (h : ds.map digitOf = vs) (hlt : ∀ v ∈ vs, v < base)
    (hr : ∀ c r, rest = c :: r → ¬ digitOf c < base) :
    digits base (ds ++ rest) acc = (vs.foldl (fun a d => a * base + d) acc, rest) := by
  induction ds generalizing vs acc with
  | nil =>
    subst h
    cases rest with
    | nil => rfl
    | cons c r =>
      simp only [List.nil_append, digits, List.map_nil, List.foldl_nil]
      rw [if_neg (hr c r rfl)]
  | cons d ds ih =>
    subst h
    simp only [List.cons_append, digits, List.map_cons, List.foldl_cons]
    rw [if_pos (hlt _ (by simp))]
    exact ih _ _ rfl fun v hv => hlt v (by simp only [List.map_cons, List.mem_cons]; exact .inr hv)

theorem digits_split (base : Nat) (s : List Byte) : ∃ ds rest, s = ds ++ rest ∧ (∀ c ∈ ds, digitOf c < base) ∧
    ∀ c r, rest = c :: r → ¬ digitOf c < base := by
  induction s with
  | nil => exact ⟨[], [], rfl, by simp, by simp⟩
  | cons c s ih =>
    by_cases h : digitOf c < base
    · obtain ⟨ds, rest, e, h1, h2⟩ := ih
      refine ⟨c :: ds, rest, by rw [e]; rfl, ?_, h2⟩
      intro x hx
      rcases List.mem_cons.mp hx with rfl | hx
      · exact h
      · exact h1 x hx
    · exact ⟨[], c :: s, rfl, by simp, by rintro c' r ⟨rfl, rfl⟩; exact h⟩

/-- `strtoul` after the sign. -/
def afterSign (base : Nat) (s : List Byte) (neg : Bool) (u : List Byte) : Nat × List Byte :=
  match u with
  | [] => (0, s)
  | c :: _ =>
    if digitOf c < base then
      let (n, rest) := digits base u 0
      (if n ≥ 2 ^ 64 then 2 ^ 64 - 1 else if neg then (2 ^ 64 - n) % 2 ^ 64 else n, rest)
    else (0, s)

/-- The sign. -/
def signOf (t : List Byte) : Bool × List Byte :=
  match t with
  | 0x2D :: u => (true, u)
  | 0x2B :: u => (false, u)
  | u => (false, u)

theorem strtoul_after (base : Nat) (s : List Byte) : strtoul base s =
    afterSign base s (signOf (s.dropWhile Hex.isSpace)).1 (signOf (s.dropWhile Hex.isSpace)).2 := rfl

theorem signOf_plain (t : List Byte) (h1 : ∀ u, t ≠ 0x2D :: u) (h2 : ∀ u, t ≠ 0x2B :: u) :
    signOf t = (false, t) := by
  unfold signOf
  split
  · next u => exact absurd rfl (h1 u)
  · next u => exact absurd rfl (h2 u)
  · rfl

theorem afterSign_ok (base : Nat) (s : List Byte) (neg : Bool) (ds : List Byte) (h0 : ds ≠ [])
    (h : ∀ c ∈ ds, digitOf c < base) : afterSign base s neg ds =
      (if ofDigits base (ds.map digitOf) ≥ 2 ^ 64 then 2 ^ 64 - 1
        else if neg then (2 ^ 64 - ofDigits base (ds.map digitOf)) % 2 ^ 64 else ofDigits base (ds.map digitOf), []) := by
  obtain ⟨c, r, rfl⟩ := List.exists_cons_of_ne_nil h0
  have e := digits_spec base (c :: r) [] _ 0 rfl
    (by intro v hv; obtain ⟨x, hx, rfl⟩ := List.mem_map.mp hv; exact h x hx) (by simp)
  rw [List.append_nil] at e
  simp only [afterSign]
  rw [if_pos (h c (by simp)), e]
  rfl

theorem afterSign_only (base : Nat) (s : List Byte) (neg : Bool) (u : List Byte) (n : Nat) (hs : s ≠ [])
    (h : afterSign base s neg u = (n, [])) : u ≠ [] ∧ ∀ c ∈ u, digitOf c < base := by
  cases u with
  | nil => exact absurd (congrArg Prod.snd h) hs
  | cons c r =>
    refine ⟨by simp, ?_⟩
    simp only [afterSign] at h
    by_cases hc : digitOf c < base
    · rw [if_pos hc] at h
      obtain ⟨ds, rest, e, h1, h2⟩ := digits_split base (c :: r)
      rw [e, digits_spec base ds rest _ 0 rfl
        (by intro v hv; obtain ⟨x, hx, rfl⟩ := List.mem_map.mp hv; exact h1 x hx) h2] at h
      have : rest = [] := congrArg Prod.snd h
      subst this
      rw [e, List.append_nil]
      exact h1
    · rw [if_neg hc] at h
      exact absurd (congrArg Prod.snd h) hs

theorem digit_facts : ∀ c : Byte, digitOf c < 16 → Hex.isSpace c = false ∧ c ≠ 0x2D ∧ c ≠ 0x2B := by
  decide +kernel

theorem map_val {base : Nat} {val : Byte → Option Nat}
    (hval : ∀ c, val c = if digitOf c < base then some (digitOf c) else none) (ds : List Byte) (vs : List Nat) :
    ds.map val = vs.map some ↔ (∀ c ∈ ds, digitOf c < base) ∧ vs = ds.map digitOf := by
  induction ds generalizing vs with
  | nil => simp
  | cons c ds ih =>
    cases vs with
    | nil => simp
    | cons v vs =>
      simp only [List.map_cons, List.cons.injEq, ih, List.forall_mem_cons, hval c]
      by_cases h : digitOf c < base
      · rw [if_pos h]
        constructor
        · rintro ⟨h1, h2, h3⟩; exact ⟨⟨h, h2⟩, (Option.some.inj h1).symm, h3⟩
        · rintro ⟨⟨_, h2⟩, h1, h3⟩; exact ⟨by rw [h1], h2, h3⟩
      · rw [if_neg h]
        constructor
        · rintro ⟨h1, _⟩; cases h1
        · rintro ⟨⟨h1, _⟩, _⟩; exact absurd h1 h

theorem strtoul_iff {base : Nat} (hb : base ≤ 16) {val : Byte → Option Nat}
    (hval : ∀ c, val c = if digitOf c < base then some (digitOf c) else none)
    (s : List Byte) (h0 : s ≠ []) (n : Nat) : Number base val s n ↔ strtoul base s = (n, []) := by
  constructor
  · rintro ⟨sp, sign, ds, vs, rfl, hsp, hd0, hm, hn⟩
    obtain ⟨hd, rfl⟩ := (map_val hval ds vs).1 hm
    obtain ⟨d, r, rfl⟩ := List.exists_cons_of_ne_nil hd0
    obtain ⟨f1, f2, f3⟩ := digit_facts d (by have := hd d (by simp); omega)
    have hsp' : ∀ c ∈ sp, Hex.isSpace c = true := fun c hc => (Decode.space_iff c).2 (hsp c hc)
    have e1 : (sp ++ [] ++ d :: r).dropWhile Hex.isSpace = d :: r := by
      rw [List.append_nil]
      exact Decode.dropWhile_space sp _ hsp' (by rintro c r ⟨rfl, rfl⟩; exact f1)
    have e2 : (sp ++ txt!"+" ++ d :: r).dropWhile Hex.isSpace = 0x2B :: d :: r := by
      rw [List.append_assoc]
      exact Decode.dropWhile_space sp (0x2B :: d :: r) hsp' (by rintro c r ⟨rfl, rfl⟩; decide)
    have e3 : (sp ++ txt!"-" ++ d :: r).dropWhile Hex.isSpace = 0x2D :: d :: r := by
      rw [List.append_assoc]
      exact Decode.dropWhile_space sp (0x2D :: d :: r) hsp' (by rintro c r ⟨rfl, rfl⟩; decide)
    have k1 : signOf (d :: r) = (false, d :: r) :=
      signOf_plain _ (by rintro u ⟨rfl, rfl⟩; exact f2 rfl) (by rintro u ⟨rfl, rfl⟩; exact f3 rfl)
    have k2 : signOf (0x2B :: d :: r) = (false, d :: r) := rfl
    have k3 : signOf (0x2D :: d :: r) = (true, d :: r) := rfl
    rw [strtoul_after]
    rcases hn with ⟨h1, rfl | rfl | rfl, rfl⟩ | ⟨h1, ⟨rfl | rfl, rfl⟩ | ⟨rfl, rfl⟩⟩
    · rw [e1, k1, afterSign_ok _ _ _ _ hd0 hd, if_pos h1]
    · rw [e2, k2, afterSign_ok _ _ _ _ hd0 hd, if_pos h1]
    · rw [e3, k3, afterSign_ok _ _ _ _ hd0 hd, if_pos h1]
    · rw [e1, k1, afterSign_ok _ _ _ _ hd0 hd, if_neg (by omega)]; simp
    · rw [e2, k2, afterSign_ok _ _ _ _ hd0 hd, if_neg (by omega)]; simp
    · rw [e3, k3, afterSign_ok _ _ _ _ hd0 hd, if_neg (by omega)]; simp
  · intro h
    obtain ⟨sp, e, hsp⟩ := Decode.space_split s
    rw [strtoul_after] at h
    generalize s.dropWhile Hex.isSpace = t at h e
    have key : ∀ neg sign u, signOf t = (neg, u) → s = sp ++ sign ++ u →
        (neg = true ∧ sign = txt!"-" ∨ neg = false ∧ (sign = [] ∨ sign = txt!"+")) → Number base val s n := by
      intro neg sign u hs he hsg
      rw [hs] at h
      simp only at h
      obtain ⟨hu, hd⟩ := afterSign_only base s neg u n h0 h
      rw [afterSign_ok base s neg u hu hd] at h
      refine ⟨sp, sign, u, u.map digitOf, he, hsp, hu, (map_val hval u _).2 ⟨hd, rfl⟩, ?_⟩
      have hn := congrArg Prod.fst h
      simp only at hn
      by_cases hov : ofDigits base (u.map digitOf) ≥ 2 ^ 64
      · rw [if_pos hov] at hn
        refine .inl ⟨hov, ?_, hn.symm⟩
        rcases hsg with ⟨_, h⟩ | ⟨_, h | h⟩ <;> simp [h]
      · rw [if_neg hov] at hn
        refine .inr ⟨by omega, ?_⟩
        rcases hsg with ⟨hg, hq⟩ | ⟨hg, hq⟩
        · rw [hg, if_pos rfl] at hn; exact .inr ⟨hq, hn.symm⟩
        · rw [hg, if_neg (by decide)] at hn; exact .inl ⟨hq, hn.symm⟩
    by_cases h1 : ∃ u, t = 0x2D :: u
    · obtain ⟨u, rfl⟩ := h1
      exact key true txt!"-" u rfl (by rw [List.append_assoc]; exact e) (.inl ⟨rfl, rfl⟩)
    · by_cases h2 : ∃ u, t = 0x2B :: u
      · obtain ⟨u, rfl⟩ := h2
        exact key false txt!"+" u rfl (by rw [List.append_assoc]; exact e) (.inr ⟨rfl, .inr rfl⟩)
      · exact key false [] t (signOf_plain t (fun u hu => h1 ⟨u, hu⟩) (fun u hu => h2 ⟨u, hu⟩))
          (by rw [List.append_nil]; exact e) (.inr ⟨rfl, .inl rfl⟩)

theorem dec_val : ∀ c : Byte, dec? c = if digitOf c < 10 then some (digitOf c) else none := by decide +kernel

theorem hex_val : ∀ c : Byte, hex? c = if digitOf c < 16 then some (digitOf c) else none := by decide +kernel

/-! ## Names -/

theorem lower_iff : ∀ x y : Byte, lower x = lower y ↔
    (x = y ∨ ∃ l, l < 26 ∧ (x.toNat = 0x41 + l ∧ y.toNat = 0x61 + l ∨ x.toNat = 0x61 + l ∧ y.toNat = 0x41 + l)) := by
  intro x y
  have hl : ∀ x : Byte, (lower x).toNat = if 0x41 ≤ x.toNat ∧ x.toNat ≤ 0x5A then x.toNat + 0x20 else x.toNat := by
    decide +kernel
  rw [← UInt8.toNat_inj, hl, hl, ← UInt8.toNat_inj]
  constructor
  · intro h
    by_cases he : x.toNat = y.toNat
    · exact .inl he
    · right
      split at h <;> split at h
      · omega
      · exact ⟨x.toNat - 0x41, by omega, by omega⟩
      · exact ⟨y.toNat - 0x41, by omega, by omega⟩
      · omega
  · rintro (h | ⟨l, h1, h2⟩)
    · rw [h]
    · split <;> split <;> omega

theorem sameText_iff (a b : List Byte) : sameText a b = true ↔ SameName a b := by
  unfold sameText SameName
  rw [beq_iff_eq]
  constructor
  · intro h
    refine ⟨by simpa using congrArg List.length h, fun i x y hx hy => ?_⟩
    have := congrArg (fun l : List Byte => l[i]?) h
    simp only [List.getElem?_map, hx, hy, Option.map_some, Option.some.injEq] at this
    exact (lower_iff x y).1 this
  · rintro ⟨hl, h⟩
    apply List.ext_getElem?
    intro i
    rw [List.getElem?_map, List.getElem?_map]
    by_cases hi : i < a.length
    · have hx := List.getElem?_eq_getElem hi
      have hy := List.getElem?_eq_getElem (l := b) (i := i) (by omega)
      rw [hx, hy, Option.map_some, Option.map_some, (lower_iff _ _).2 (h i _ _ hx hy)]
    · rw [List.getElem?_eq_none (by omega), List.getElem?_eq_none (by omega)]

/-! ## Lists of names -/

/-- Text before the first comma. -/
theorem strtok_cons (p rest : List Byte) (hp : ∀ c ∈ p, c ≠ 0x2C) (h0 : p ≠ []) (hr : ∀ c r, rest = c :: r → c = 0x2C) :
    strtok (p ++ rest) = some (p, rest.drop 1) := by
  obtain ⟨a, q, rfl⟩ := List.exists_cons_of_ne_nil h0
  have ha := hp a (by simp)
  have e1 : ((a :: q) ++ rest).dropWhile (· == 0x2C) = (a :: q) ++ rest := by
    rw [List.cons_append, List.dropWhile_cons, if_neg (by simpa using ha)]
  have e2 : ∀ l : List Byte, (∀ c ∈ l, c ≠ 0x2C) → (l ++ rest).takeWhile (· != 0x2C) = l ∧
      (l ++ rest).dropWhile (· != 0x2C) = rest := by
    intro l hl
    induction l with
    | nil =>
      cases rest with
      | nil => exact ⟨rfl, rfl⟩
      | cons c r => rw [hr c r rfl]; exact ⟨rfl, rfl⟩
    | cons x l ih =>
      have hx : (x != 0x2C) = true := by simpa using hl x (by simp)
      obtain ⟨i1, i2⟩ := ih fun c hc => hl c (by simp [hc])
      rw [List.cons_append, List.takeWhile_cons, List.dropWhile_cons, if_pos hx, if_pos hx, i1, i2]
      exact ⟨rfl, rfl⟩
  obtain ⟨e3, e4⟩ := e2 (a :: q) hp
  unfold strtok
  rw [e1]
  simp only [List.cons_append] at e3 e4 ⊢
  rw [e3, e4]

theorem strtok_comma (rest : List Byte) : strtok (0x2C :: rest) = strtok rest := by
  unfold strtok
  rw [List.dropWhile_cons, if_pos (by decide)]

/-- Texts separated by commas. -/
def listed (ps : List (List Byte)) : List Byte := List.intercalate txt!"," ps

theorem listed_cons (p q : List Byte) (ps : List (List Byte)) : listed (p :: q :: ps) = p ++ 0x2C :: listed (q :: ps) := by
  simp [listed, List.intercalate]
  rfl

/-- The place of a name. -/
def placeOf (p : List Byte) : Nat := sourceNames.findIdx (sameText p)

theorem sourceLoop_listed (ps : List (List Byte)) (hp : ∀ p ∈ ps, ∀ c ∈ p, c ≠ 0x2C) (fuel mask : Nat)
    (hf : (listed ps).length < fuel) :
    sourceLoop fuel mask (listed ps) = .ok (
      match (ps.filter (· ≠ [])).find? (fun p => placeOf p ≥ sourceNames.length) with
      | some p => .error (txt!"Unknown debug source (--debug-source) argument \"" ++ p ++ txt!"\"")
      | none => .ok ((ps.filter (· ≠ [])).foldl (fun m p => m ||| 1 <<< placeOf p) mask)) := by
  induction ps generalizing fuel mask with
  | nil =>
    obtain ⟨fuel, rfl⟩ : ∃ k, fuel = k + 1 := ⟨fuel - 1, by omega⟩
    rfl
  | cons p ps ih =>
    obtain ⟨fuel, rfl⟩ : ∃ k, fuel = k + 1 := ⟨fuel - 1, by omega⟩
    have hps : ∀ q ∈ ps, ∀ c ∈ q, c ≠ 0x2C := fun q hq => hp q (by simp [hq])
    have hpp := hp p (by simp)
    -- the text after this name
    obtain ⟨rest, e1, e2, e3⟩ : ∃ rest, listed (p :: ps) = p ++ rest ∧ (∀ c r, rest = c :: r → c = 0x2C) ∧
        rest.drop 1 = listed ps := by
      cases ps with
      | nil => exact ⟨[], by simp [listed, List.intercalate], by simp, rfl⟩
      | cons q ps => exact ⟨_, listed_cons p q ps, by rintro c r ⟨rfl, rfl⟩; rfl, rfl⟩
    by_cases h0 : p = []
    · subst h0
      have : sourceLoop (fuel + 1) mask (listed ([] :: ps)) = sourceLoop (fuel + 1) mask (listed ps) := by
        rw [e1, List.nil_append] at *
        cases rest with
        | nil => rw [List.drop_nil] at e3; rw [e3]
        | cons c r =>
          rw [e2 c r rfl] at *
          rw [List.drop_succ_cons, List.drop_zero] at e3
          rw [← e3, sourceLoop, strtok_comma]
          rfl
      rw [this, ih hps (fuel + 1) mask ?_]
      · simp
      · rw [e1] at hf
        rw [← e3, List.length_drop]
        simp only [List.nil_append] at hf
        omega
    · rw [e1, sourceLoop, strtok_cons p rest hpp h0 e2]
      simp only
      have hfil : (p :: ps).filter (· ≠ []) = p :: ps.filter (· ≠ []) := by simp [h0]
      rw [hfil, e3, List.find?_cons, List.foldl_cons]
      by_cases hk : placeOf p ≥ sourceNames.length
      · rw [show sourceNames.findIdx (sameText p) = placeOf p from rfl, if_pos hk]
        simp [hk]
      · rw [show sourceNames.findIdx (sameText p) = placeOf p from rfl, if_neg hk, ih hps]
        · simp [hk]
        · rw [e1, List.length_append] at hf
          rw [← e3, List.length_drop]
          have : 0 < p.length := List.length_pos_iff.mpr h0
          omega

/-- The names of the debug sources. -/
def sources : List (List Byte) := [txt!"TTL", txt!"TAL", txt!"EMV", txt!"APP", txt!"ALL"]

/-- The names of the debug levels. -/
def levels : List (List Byte) := [txt!"NONE", txt!"ERROR", txt!"INFO", txt!"CARD", txt!"TRACE", txt!"ALL"]

theorem findIdx_same (names : List (List Byte)) (hd : (names.map (List.map lower)).Nodup) (p : List Byte) (i : Nat) :
    (names.findIdx (sameText p) = i ∧ i < names.length) ↔ ∃ n, names[i]? = some n ∧ SameName p n := by
  constructor
  · rintro ⟨rfl, h⟩
    exact ⟨_, List.getElem?_eq_getElem h, (sameText_iff _ _).1 (List.findIdx_getElem (w := h))⟩
  · rintro ⟨n, h, hn⟩
    obtain ⟨hi, rfl⟩ := List.getElem?_eq_some_iff.mp h
    refine ⟨?_, hi⟩
    have hs := (sameText_iff _ _).2 hn
    have hle : names.findIdx (sameText p) ≤ i := by
      apply Nat.le_of_not_lt
      intro hlt
      have := List.not_of_lt_findIdx hlt
      rw [hs] at this
      cases this
    have hj : names.findIdx (sameText p) < names.length := by omega
    have h1 : sameText p names[names.findIdx (sameText p)] = true := List.findIdx_getElem (w := hj)
    have h2 : (names.map (List.map lower))[names.findIdx (sameText p)]? = (names.map (List.map lower))[i]? := by
      rw [List.getElem?_map, List.getElem?_map, List.getElem?_eq_getElem hj, List.getElem?_eq_getElem hi]
      simp only [sameText, beq_iff_eq] at h1 hs
      simp only [Option.map_some, ← hs, ← h1]
    exact (List.getElem?_inj (by simpa using hj) hd).1 h2

theorem placeOf_iff (p : List Byte) (i : Nat) :
    (placeOf p = i ∧ i < 5) ↔ ∃ n, sources[i]? = some n ∧ SameName p n :=
  findIdx_same sourceNames (by decide) p i

theorem foldl_or (ps : List (List Byte)) (m i : Nat) :
    (ps.foldl (fun m p => m ||| 1 <<< placeOf p) m).testBit i = true ↔ m.testBit i = true ∨ ∃ p ∈ ps, placeOf p = i := by
  induction ps generalizing m with
  | nil => simp
  | cons p ps ih =>
    rw [List.foldl_cons, ih, Nat.testBit_or, Nat.one_shiftLeft, Nat.testBit_two_pow, Bool.or_eq_true,
      decide_eq_true_eq]
    constructor
    · rintro ((h | h) | ⟨q, h1, h2⟩)
      · exact .inl h
      · exact .inr ⟨p, by simp, h⟩
      · exact .inr ⟨q, by simp [h1], h2⟩
    · rintro (h | ⟨q, h1, h2⟩)
      · exact .inl (.inl h)
      · rcases List.mem_cons.mp h1 with rfl | h1
        · exact .inl (.inr h2)
        · exact .inr ⟨q, h1, h2⟩

theorem not_same_nil (i : Nat) (n : List Byte) (h : sources[i]? = some n) : ¬ SameName [] n := by
  rintro ⟨h1, -⟩
  have hm : n ∈ sources := List.mem_of_getElem? h
  have : ∀ n ∈ sources, n.length = 3 := by decide
  rw [this n hm] at h1
  cases h1

/-! ## C108 -/

/-- **C108** (transaction type).  Two decimal digits give the byte with these digits. -/
theorem C108_type_digits (o : Opts) (a b : Byte) (d e : Nat) (h1 : dec? a = some d) (h2 : dec? b = some e) :
    apply o (.txnType [a, b]) = .ok (.set { o with txnType := 16 * d + e }) := by
  have key : ∀ c : Byte, ∀ v, dec? c = some v → v < 10 ∧ hex? c = some v := by
    intro c v h
    have : ∀ c : Byte, ∀ v, v < 10 → (dec? c = some v → hex? c = some v) := by decide +kernel
    have hv : v < 10 := by
      unfold dec? at h
      split at h
      · have := Option.some.inj h; omega
      · cases h
    exact ⟨hv, this c v hv h⟩
  obtain ⟨d1, d2⟩ := key a d h1
  obtain ⟨e1, e2⟩ := key b e h2
  have hn : Number 16 hex? [a, b] (16 * d + e) :=
    ⟨[], [], [a, b], [d, e], rfl, by simp, by simp, by simp [d2, e2],
      .inr ⟨by simp [ofDigits]; omega, .inl ⟨.inl rfl, by simp [ofDigits]; omega⟩⟩⟩
  rw [strtoul_iff (by decide) hex_val _ (by simp)] at hn
  simp only [apply, setType]
  rw [if_neg (by simp), hn]
  simp only
  rw [if_neg (by simp), Nat.mod_eq_of_lt (by omega)]

/-- **C108** (transaction type).  Accepted are exactly the texts of two characters that `strtoul` reads
completely in base 16; the byte is the low one of the number. -/
theorem C108_type (o : Opts) (arg : List Byte) :
    (∀ n, arg.length = 2 → Number 16 hex? arg n → apply o (.txnType arg) = .ok (.set { o with txnType := n % 256 })) ∧
    ((∀ n, ¬ (arg.length = 2 ∧ Number 16 hex? arg n)) → apply o (.txnType arg) =
      .ok (.refused txt!"Transaction type (--txn-type) argument must be 2 numeric digits")) := by
  simp only [apply, setType]
  constructor
  · intro n h2 hn
    have h0 : arg ≠ [] := by rintro rfl; cases h2
    rw [strtoul_iff (by decide) hex_val _ h0] at hn
    rw [if_neg (by omega), hn]
    simp only
    rw [if_neg (by simp [h0])]
  · intro h
    by_cases h2 : arg.length = 2
    · have h0 : arg ≠ [] := by rintro rfl; cases h2
      rw [if_neg (by omega), if_pos]
      right
      intro hr
      exact h (strtoul 16 arg).1 ⟨h2, (strtoul_iff (by decide) hex_val _ h0 _).2 (by rw [← hr])⟩
    · rw [if_pos h2]

/-- **C108** (disagreement).  Two characters that are not two numeric digits are accepted as transaction type. -/
theorem C108_type_loose (o : Opts) :
    apply o (.txnType txt!"AB") = .ok (.set { o with txnType := 0xAB }) ∧
    apply o (.txnType txt!"-1") = .ok (.set { o with txnType := 0xFF }) ∧
    apply o (.txnType txt!" 5") = .ok (.set { o with txnType := 0x05 }) :=
  ⟨rfl, rfl, rfl⟩

/-- **C108** (amount).  Accepted are exactly the texts that `strtoul` reads completely as a decimal number of
at most 32 bits; others are refused with the reason. -/
theorem C108_amount (o : Opts) (arg : List Byte) :
    (∀ n, Number 10 dec? arg n → n < 2 ^ 32 → apply o (.amount arg) = .ok (.set { o with amount := n })) ∧
    (∀ n, Number 10 dec? arg n → 2 ^ 32 ≤ n → apply o (.amount arg) =
      .ok (.refused txt!"Transaction amount (--txn-amount) argument must fit in a 32-bit field")) ∧
    ((∀ n, ¬ Number 10 dec? arg n) → apply o (.amount arg) =
      .ok (.refused txt!"Transaction amount (--txn-amount) argument must be numeric digits")) := by
  have hne : ∀ n, Number 10 dec? arg n → arg ≠ [] := by
    rintro n ⟨sp, sign, ds, vs, rfl, -, h0, -⟩ h
    simp [h0] at h
  simp only [apply, setAmount]
  refine ⟨fun n hn hl => ?_, fun n hn hl => ?_, fun h => ?_⟩
  · have h0 := hne n hn
    rw [strtoul_iff (by decide) dec_val _ h0] at hn
    rw [if_neg (by simpa using h0), hn]
    simp only
    rw [if_neg (by simp [h0]), if_neg (by omega)]
  · have h0 := hne n hn
    rw [strtoul_iff (by decide) dec_val _ h0] at hn
    rw [if_neg (by simpa using h0), hn]
    simp only
    rw [if_neg (by simp [h0]), if_pos (by omega)]
  · by_cases h0 : arg = []
    · rw [if_pos (by simp [h0])]
    · rw [if_neg (by simpa using h0), if_pos]
      right
      intro hr
      exact h (strtoul 10 arg).1 ((strtoul_iff (by decide) dec_val _ h0 _).2 (by rw [← hr]))

/-- **C108** (secondary amount).  As the amount. -/
theorem C108_amount_other (o : Opts) (arg : List Byte) :
    (∀ n, Number 10 dec? arg n → n < 2 ^ 32 → apply o (.amountOther arg) = .ok (.set { o with amountOther := n })) ∧
    (∀ n, Number 10 dec? arg n → 2 ^ 32 ≤ n → apply o (.amountOther arg) =
      .ok (.refused txt!"Secondary transaction amount (--txn-amount-other) argument must fit in a 32-bit field")) ∧
    ((∀ n, ¬ Number 10 dec? arg n) → apply o (.amountOther arg) =
      .ok (.refused txt!"Secondary transaction amount (--txn-amount-other) argument must be numeric digits")) := by
  have hne : ∀ n, Number 10 dec? arg n → arg ≠ [] := by
    rintro n ⟨sp, sign, ds, vs, rfl, -, h0, -⟩ h
    simp [h0] at h
  simp only [apply, setAmountOther]
  refine ⟨fun n hn hl => ?_, fun n hn hl => ?_, fun h => ?_⟩
  · have h0 := hne n hn
    rw [strtoul_iff (by decide) dec_val _ h0] at hn
    rw [if_neg (by simpa using h0), hn]
    simp only
    rw [if_neg (by simp [h0]), if_neg (by omega)]
  · have h0 := hne n hn
    rw [strtoul_iff (by decide) dec_val _ h0] at hn
    rw [if_neg (by simpa using h0), hn]
    simp only
    rw [if_neg (by simp [h0]), if_pos (by omega)]
  · by_cases h0 : arg = []
    · rw [if_pos (by simp [h0])]
    · rw [if_neg (by simpa using h0), if_pos]
      right
      intro hr
      exact h (strtoul 10 arg).1 ((strtoul_iff (by decide) dec_val _ h0 _).2 (by rw [← hr]))

/-- Digits spell their number. -/
theorem number_digits (ds : List Byte) (vs : List Nat) (h0 : ds ≠ []) (h : ds.map dec? = vs.map some)
    (hl : ofDigits 10 vs < 2 ^ 64) : Number 10 dec? ds (ofDigits 10 vs) :=
  ⟨[], [], ds, vs, rfl, by simp, h0, h, .inr ⟨hl, .inl ⟨.inl rfl, rfl⟩⟩⟩

/-- Digits of more than 32 bits never spell a smaller number. -/
theorem number_large (ds : List Byte) (vs : List Nat) (h0 : ds ≠ []) (h : ds.map dec? = vs.map some)
    (hl : 2 ^ 32 ≤ ofDigits 10 vs) : ∃ n, 2 ^ 32 ≤ n ∧ Number 10 dec? ds n := by
  by_cases hov : ofDigits 10 vs < 2 ^ 64
  · exact ⟨_, hl, number_digits ds vs h0 h hov⟩
  · exact ⟨2 ^ 64 - 1, by decide, [], [], ds, vs, rfl, by simp, h0, h, .inl ⟨by omega, .inl rfl, rfl⟩⟩

/-- **C108** (amounts in digits).  Decimal digits set the amount to the number they spell when it fits in 32
bits, and are refused otherwise, however many there are. -/
theorem C108_amount_digits (o : Opts) (ds : List Byte) (vs : List Nat) (h0 : ds ≠ [])
    (h : ds.map dec? = vs.map some) :
    apply o (.amount ds) = .ok (if ofDigits 10 vs < 2 ^ 32 then .set { o with amount := ofDigits 10 vs }
      else .refused txt!"Transaction amount (--txn-amount) argument must fit in a 32-bit field") ∧
    apply o (.amountOther ds) = .ok (if ofDigits 10 vs < 2 ^ 32 then .set { o with amountOther := ofDigits 10 vs }
      else .refused txt!"Secondary transaction amount (--txn-amount-other) argument must fit in a 32-bit field") := by
  by_cases hl : ofDigits 10 vs < 2 ^ 32
  · rw [if_pos hl, if_pos hl]
    have := number_digits ds vs h0 h (by omega)
    exact ⟨(C108_amount o ds).1 _ this hl, (C108_amount_other o ds).1 _ this hl⟩
  · rw [if_neg hl, if_neg hl]
    obtain ⟨n, h1, h2⟩ := number_large ds vs h0 h (by omega)
    exact ⟨(C108_amount o ds).2.1 n h2 h1, (C108_amount_other o ds).2.1 n h2 h1⟩

example : apply .init (.amount txt!"4294967295") = .ok (.set { Opts.init with amount := 4294967295 }) := rfl

/-- **C108** (disagreement).  Texts that are not numeric digits are accepted as amount, even a negative number
as a positive one. -/
theorem C108_amount_loose (o : Opts) :
    apply o (.amount txt!" +5") = .ok (.set { o with amount := 5 }) ∧
    apply o (.amount txt!"-18446744073709551615") = .ok (.set { o with amount := 1 }) :=
  ⟨rfl, rfl⟩

/-- **C108** (debug sources).  A list of names separated by commas sets the bit of every source named, in any
case of letters and any order, and no other; the first name that is not a source is refused. -/
theorem C108_sources (o : Opts) (ps : List (List Byte)) (hp : ∀ p ∈ ps, ∀ c ∈ p, c ≠ 0x2C) :
    ((∀ p ∈ ps, p ≠ [] → ∃ n ∈ sources, SameName p n) →
      ∃ m, apply o (.sources (List.intercalate txt!"," ps)) = .ok (.set { o with mask := m }) ∧
        ∀ i, m.testBit i = true ↔ ∃ p ∈ ps, ∃ n, sources[i]? = some n ∧ SameName p n) ∧
    (∀ pre p post, ps = pre ++ p :: post → (∀ q ∈ pre, q ≠ [] → ∃ n ∈ sources, SameName q n) → p ≠ [] →
      (∀ n ∈ sources, ¬ SameName p n) → apply o (.sources (List.intercalate txt!"," ps)) =
        .ok (.refused (txt!"Unknown debug source (--debug-source) argument \"" ++ p ++ txt!"\""))) := by
  have hk : ∀ p, (∃ n ∈ sources, SameName p n) ↔ placeOf p < 5 := by
    intro p
    constructor
    · rintro ⟨n, hn, h⟩
      obtain ⟨i, hi⟩ := List.getElem?_of_mem hn
      obtain ⟨rfl, h'⟩ := (placeOf_iff p i).2 ⟨n, hi, h⟩
      exact h'
    · intro h
      obtain ⟨n, h1, h2⟩ := (placeOf_iff p _).1 ⟨rfl, h⟩
      exact ⟨n, List.mem_of_getElem? h1, h2⟩
  have hl := sourceLoop_listed ps hp ((listed ps).length + 1) 0 (by omega)
  simp only [apply, setSources]
  rw [show List.intercalate txt!"," ps = listed ps from rfl, hl, bind_ok]
  constructor
  · intro h
    rw [show (ps.filter (· ≠ [])).find? (fun p => placeOf p ≥ sourceNames.length) = none from by
      rw [List.find?_eq_none]
      intro p hm
      obtain ⟨h1, h2⟩ := List.mem_filter.mp hm
      have := (hk p).1 (h p h1 (by simpa using h2))
      simpa [sourceNames] using this]
    refine ⟨_, rfl, fun i => ?_⟩
    rw [foldl_or, Nat.zero_testBit]
    constructor
    · rintro (h' | ⟨p, hm, rfl⟩)
      · cases h'
      · obtain ⟨h1, h2⟩ := List.mem_filter.mp hm
        exact ⟨p, h1, (placeOf_iff p _).1 ⟨rfl, (hk p).1 (h p h1 (by simpa using h2))⟩⟩
    · rintro ⟨p, h1, n, h2, h3⟩
      right
      refine ⟨p, List.mem_filter.mpr ⟨h1, ?_⟩, ((placeOf_iff p i).2 ⟨n, h2, h3⟩).1⟩
      simp only [ne_eq, decide_not, Bool.not_eq_eq_eq_not, Bool.not_true, decide_eq_false_iff_not]
      rintro rfl
      exact not_same_nil i n h2 h3
  · intro pre p post e h1 h2 h3
    rw [show (ps.filter (· ≠ [])).find? (fun p => placeOf p ≥ sourceNames.length) = some p from by
      rw [List.find?_filter, e, List.find?_append, List.find?_cons]
      rw [show pre.find? (fun a => decide (decide (a ≠ []) = true ∧ decide (placeOf a ≥ sourceNames.length) = true)) = none from by
        rw [List.find?_eq_none]
        intro q hq hc
        simp only [decide_eq_true_eq] at hc
        have := (hk q).1 (h1 q hq hc.1)
        have := hc.2
        simp [sourceNames] at this
        omega]
      have hn : ¬ placeOf p < 5 := fun h => by
        obtain ⟨n, hn, h⟩ := (hk p).2 h
        exact h3 n hn h
      simp [h2, sourceNames, Nat.le_of_not_lt hn]]

/-- **C108** (debug level).  The name of a level, in any case of letters, sets that level; other texts are refused. -/
theorem C108_level (o : Opts) (arg : List Byte) :
    (∀ i n, levels[i]? = some n → SameName arg n → apply o (.level arg) = .ok (.set { o with level := i })) ∧
    ((∀ n ∈ levels, ¬ SameName arg n) → apply o (.level arg) =
      .ok (.refused (txt!"Unknown debug level (--debug-level) argument \"" ++ arg ++ txt!"\""))) := by
  have hf := findIdx_same levelNames (by decide) arg
  simp only [apply, setLevel]
  constructor
  · intro i n h1 h2
    obtain ⟨e, hi⟩ := (hf i).2 ⟨n, h1, h2⟩
    rw [e, if_pos hi]
  · intro h
    rw [if_neg]
    intro hi
    obtain ⟨n, h1, h2⟩ := (hf _).1 ⟨rfl, hi⟩
    exact h n (List.mem_of_getElem? h1) h2

theorem delivered_eq (m l source level : Nat) : PrintCard.delivered ⟨m, l, true⟩ source level =
    (decide (m &&& source ≠ 0) && decide (level ≤ l)) := by
  unfold PrintCard.delivered
  by_cases h1 : m &&& source = 0 <;> by_cases h2 : level ≤ l <;> simp [h1, h2] <;> omega

/-- The events of the sources TTL, TAL, EMV and APP (emv_debug.h:30-37) by place. -/
def sourceBit (i : Nat) : Nat := 2 ^ i

/-- **C108** (debug events; partial: lists that do not name ALL, see `C108_all`).  Shown are exactly the events
of the sources named, up to the level set. -/
theorem C108_events_partial (o : Opts) (ps : List (List Byte)) (hp : ∀ p ∈ ps, ∀ c ∈ p, c ≠ 0x2C)
    (hn : ∀ p ∈ ps, p ≠ [] → ∃ n ∈ sources, SameName p n) :
    ∃ m, apply o (.sources (List.intercalate txt!"," ps)) = .ok (.set { o with mask := m }) ∧
      ∀ i level, i < 4 → (PrintCard.delivered ⟨m, o.level, true⟩ (sourceBit i) level = true ↔
        (∃ p ∈ ps, ∃ n, sources[i]? = some n ∧ SameName p n) ∧ level ≤ o.level) := by
  obtain ⟨m, h1, h2⟩ := (C108_sources o ps hp).1 hn
  refine ⟨m, h1, fun i level hi => ?_⟩
  rw [← h2 i]
  have hb : (m &&& 2 ^ i = 0) ↔ m.testBit i = false := by
    constructor
    · intro h
      have := congrArg (Nat.testBit · i) h
      simpa [Nat.testBit_and, Nat.testBit_two_pow_self] using this
    · intro h
      apply Nat.eq_of_testBit_eq
      intro j
      rw [Nat.testBit_and, Nat.testBit_two_pow, Nat.zero_testBit]
      by_cases hj : i = j
      · subst hj; simp [h]
      · simp [hj]
  rw [delivered_eq, Bool.and_eq_true, decide_eq_true_eq, decide_eq_true_eq, sourceBit, ne_eq, hb]
  simp

/-- **C108** (disagreement).  When ALL is named, in any case of letters, as the only source, no event of any
source is shown, though without the option those of all are. -/
theorem C108_all (o : Opts) (p : List Byte) (hp : SameName p txt!"ALL") :
    ∃ m, apply o (.sources p) = .ok (.set { o with mask := m }) ∧
      ∀ i l level, i < 4 → PrintCard.delivered ⟨m, l, true⟩ (sourceBit i) level = false := by
  have h4 : placeOf p = 4 := ((placeOf_iff p 4).2 ⟨_, rfl, hp⟩).1
  have hc : ∀ c ∈ p, c ≠ 0x2C := by
    rintro c hc rfl
    obtain ⟨i, hi⟩ := List.getElem?_of_mem hc
    have hl : i < p.length := (List.getElem?_eq_some_iff.mp hi).1
    have hy := List.getElem?_eq_getElem (l := txt!"ALL") (i := i) (by rw [← hp.1]; exact hl)
    have := hp.2 i _ _ hi hy
    have hall : ∀ y ∈ txt!"ALL", ¬ ((0x2C : Byte) = y ∨ ∃ l, l < 26 ∧
        ((0x2C : Byte).toNat = 0x41 + l ∧ y.toNat = 0x61 + l ∨ (0x2C : Byte).toNat = 0x61 + l ∧ y.toNat = 0x41 + l)) := by
      intro y hy h
      rcases h with h | ⟨l, hl, h⟩
      · have : (0x2C : Byte) ∉ txt!"ALL" := by decide
        exact this (h ▸ hy)
      · have : (0x2C : Byte).toNat = 44 := rfl
        omega
    exact hall _ (List.mem_of_getElem? hy) this
  have h0 : p ≠ [] := by
    rintro rfl
    exact absurd hp.1 (by decide)
  have hl := sourceLoop_listed [p] (by simpa using hc) ((listed [p]).length + 1) 0 (by omega)
  have e : listed [p] = p := by simp [listed, List.intercalate]
  rw [e] at hl
  refine ⟨16, ?_, ?_⟩
  · simp only [apply, setSources]
    rw [hl, bind_ok]
    simp [h0, h4, sourceNames]
  · intro i l level hi
    have : ∀ i, i < 4 → 16 &&& 2 ^ i = 0 := by decide
    rw [delivered_eq, sourceBit, this i hi]
    rfl

example : ∀ i, i < 4 → PrintCard.delivered ⟨Opts.init.mask, Opts.init.level, true⟩ (sourceBit i) 1 = true := by decide
example : SameName txt!"All" txt!"ALL" := (sameText_iff _ _).1 (by decide)
example : apply .init (.sources txt!"tal,,EMV,TAL") = .ok (.set { Opts.init with mask := 6 }) := by rfl
example : apply .init (.sources txt!"TAL,foo,bar") =
    .ok (.refused txt!"Unknown debug source (--debug-source) argument \"foo\"") := by rfl

/-- What an option that is accepted leaves of the other values. -/
theorem apply_frame (o o' : Opts) (a : Opt) (h : apply o a = .ok (.set o')) :
    ((∀ x, a ≠ .txnType x) → o'.txnType = o.txnType) ∧ ((∀ x, a ≠ .amount x) → o'.amount = o.amount) ∧
    ((∀ x, a ≠ .amountOther x) → o'.amountOther = o.amountOther) ∧ (a ≠ .verbose → o'.verbose = o.verbose) ∧
    ((∀ x, a ≠ .sources x) → o'.mask = o.mask) ∧ ((∀ x, a ≠ .level x) → o'.level = o.level) ∧
    ((∀ x, a ≠ .isocodes x) → o'.isocodes = o.isocodes) ∧ ((∀ x, a ≠ .mcc x) → o'.mcc = o.mcc) ∧
    (∀ x, a = .isocodes x → o'.isocodes = some x) ∧ (∀ x, a = .mcc x → o'.mcc = some x) ∧
    (a = .verbose → o'.verbose = true) ∧ a ≠ .version := by
  cases a with
  | txnType x =>
    simp only [apply, setType] at h
    split at h
    · cases h
    · split at h
      · cases h
      · cases h; simp
  | amount x =>
    simp only [apply, setAmount] at h
    split at h
    · cases h
    · split at h
      · cases h
      · split at h
        · cases h
        · cases h; simp
  | amountOther x =>
    simp only [apply, setAmountOther] at h
    split at h
    · cases h
    · split at h
      · cases h
      · split at h
        · cases h
        · cases h; simp
  | verbose => cases h; simp
  | sources x =>
    simp only [apply, setSources] at h
    cases hs : sourceLoop (x.length + 1) 0 x with
    | error e => rw [hs, bind_error] at h; cases h
    | ok r =>
      rw [hs, bind_ok] at h
      cases r with
      | error m => cases h
      | ok m => cases h; simp
  | level x =>
    simp only [apply, setLevel] at h
    split at h
    · cases h; simp
    · cases h
  | version => cases h
  | isocodes x => cases h; simp
  | mcc x => cases h; simp

theorem parse_append (l l' : List Opt) (o : Opts) : parse o (l ++ l') = (do
    match ← parse o l with
    | .set o => parse o l'
    | r => .ok r) := by
  induction l generalizing o with
  | nil => rfl
  | cons a l ih =>
    rw [List.cons_append, parse, parse]
    cases apply o a with
    | error e => rfl
    | ok r =>
      rw [bind_ok, bind_ok]
      cases r with
      | set o => exact ih o
      | refused m => rfl
      | version => rfl

theorem listed_split (s : List Byte) : ∃ ps : List (List Byte), s = listed ps ∧ ∀ p ∈ ps, ∀ c ∈ p, c ≠ 0x2C := by
  induction s with
  | nil => exact ⟨[], rfl, by simp⟩
  | cons c s ih =>
    obtain ⟨ps, rfl, hp⟩ := ih
    by_cases hc : c = 0x2C
    · subst hc
      cases ps with
      | nil => exact ⟨[[], []], rfl, by simp⟩
      | cons p ps =>
        refine ⟨[] :: p :: ps, (listed_cons [] p ps).symm, ?_⟩
        intro q hq
        rcases List.mem_cons.mp hq with rfl | hq
        · simp
        · exact hp q hq
    · cases ps with
      | nil => exact ⟨[[c]], rfl, by simpa using hc⟩
      | cons p ps =>
        refine ⟨(c :: p) :: ps, ?_, ?_⟩
        · cases ps with
          | nil => simp [listed, List.intercalate]
          | cons q ps => rw [listed_cons, listed_cons]; rfl
        · intro q hq
          rcases List.mem_cons.mp hq with rfl | hq
          · intro x hx
            rcases List.mem_cons.mp hx with rfl | hx
            · exact hc
            · exact hp p (by simp) x hx
          · exact hp q (by simp [hq])

/-- **C108** (defined).  Every option with every argument is defined: it sets values, is refused, or shows the
version. -/
theorem C108_defined (o : Opts) (l : List Opt) : ∃ r, parse o l = .ok r := by
  have ha : ∀ o a, ∃ r, apply o a = .ok r := by
    intro o a
    cases a with
    | sources x =>
      obtain ⟨ps, rfl, hp⟩ := listed_split x
      simp only [apply, setSources]
      rw [sourceLoop_listed ps hp _ _ (Nat.lt_succ_self _), bind_ok]
      split <;> exact ⟨_, rfl⟩
    | _ => exact ⟨_, rfl⟩
  induction l generalizing o with
  | nil => exact ⟨_, rfl⟩
  | cons a l ih =>
    obtain ⟨r, hr⟩ := ha o a
    rw [parse, hr, bind_ok]
    cases r with
    | set o => exact ih o
    | refused m => exact ⟨_, rfl⟩
    | version => exact ⟨_, rfl⟩

/-- What an option does does not depend on the values set before, but for those it leaves. -/
theorem apply_other (o p o' : Opts) (a : Opt) (h : apply o a = .ok (.set o')) :
    ∃ p', apply p a = .ok (.set p') ∧ (∀ x, a = .txnType x → p'.txnType = o'.txnType) ∧
      (∀ x, a = .amount x → p'.amount = o'.amount) ∧ (∀ x, a = .amountOther x → p'.amountOther = o'.amountOther) ∧
      (∀ x, a = .sources x → p'.mask = o'.mask) ∧ (∀ x, a = .level x → p'.level = o'.level) := by
  cases a with
  | txnType x =>
    simp only [apply, setType] at h ⊢
    split at h
    · cases h
    · next h1 =>
      split at h
      · cases h
      · next h2 => cases h; rw [if_neg h1, if_neg h2]; exact ⟨_, rfl, by simp⟩
  | amount x =>
    simp only [apply, setAmount] at h ⊢
    split at h
    · cases h
    · next h1 =>
      split at h
      · cases h
      · next h2 =>
        split at h
        · cases h
        · next h3 => cases h; rw [if_neg h1, if_neg h2, if_neg h3]; exact ⟨_, rfl, by simp⟩
  | amountOther x =>
    simp only [apply, setAmountOther] at h ⊢
    split at h
    · cases h
    · next h1 =>
      split at h
      · cases h
      · next h2 =>
        split at h
        · cases h
        · next h3 => cases h; rw [if_neg h1, if_neg h2, if_neg h3]; exact ⟨_, rfl, by simp⟩
  | verbose => cases h; exact ⟨_, rfl, by simp⟩
  | sources x =>
    simp only [apply, setSources] at h ⊢
    cases hs : sourceLoop (x.length + 1) 0 x with
    | error e => rw [hs, bind_error] at h; cases h
    | ok r =>
      rw [hs, bind_ok] at h
      cases r with
      | error m => cases h
      | ok m => cases h; exact ⟨_, rfl, by simp⟩
  | level x =>
    simp only [apply, setLevel] at h ⊢
    split at h
    · next h1 => cases h; rw [if_pos h1]; exact ⟨_, rfl, by simp⟩
    · cases h
  | version => cases h
  | isocodes x => cases h; exact ⟨_, rfl, by simp⟩
  | mcc x => cases h; exact ⟨_, rfl, by simp⟩

/-- The last option of a kind decides on a value that no other option changes. -/
theorem last_decides {α : Type} (get : Opts → α) (kind : Opt → Prop)
    (hk : ∀ o o' a, apply o a = .ok (.set o') → ¬ kind a → get o' = get o) (o o' : Opts) (l : List Opt)
    (h : parse o l = .ok (.set o')) : (∀ a ∈ l, ¬ kind a) → get o' = get o := by
  induction l generalizing o with
  | nil => intro _; cases h; rfl
  | cons a l ih =>
    intro hn
    rw [parse] at h
    cases ha : apply o a with
    | error e => rw [ha, bind_error] at h; cases h
    | ok r =>
      rw [ha, bind_ok] at h
      cases r with
      | set o1 =>
        rw [ih o1 h fun b hb => hn b (by simp [hb]), hk o o1 a ha (hn a (by simp))]
      | refused m => cases h
      | version => cases h

/-- **C108** (order).  On an accepted command line each value is the one the last option for it sets, whatever
comes before and after; without an option for it, it keeps its default. -/
theorem C108_last (o o' : Opts) (l : List Opt) (h : parse .init l = .ok (.set o')) :
    (∀ pre x post, l = pre ++ .txnType x :: post → (∀ y, .txnType y ∉ post) →
      ∃ p, apply o (.txnType x) = .ok (.set p) ∧ o'.txnType = p.txnType) ∧
    (∀ pre x post, l = pre ++ .amount x :: post → (∀ y, .amount y ∉ post) →
      ∃ p, apply o (.amount x) = .ok (.set p) ∧ o'.amount = p.amount) ∧
    (∀ pre x post, l = pre ++ .amountOther x :: post → (∀ y, .amountOther y ∉ post) →
      ∃ p, apply o (.amountOther x) = .ok (.set p) ∧ o'.amountOther = p.amountOther) ∧
    (∀ pre x post, l = pre ++ .sources x :: post → (∀ y, .sources y ∉ post) →
      ∃ p, apply o (.sources x) = .ok (.set p) ∧ o'.mask = p.mask) ∧
    (∀ pre x post, l = pre ++ .level x :: post → (∀ y, .level y ∉ post) →
      ∃ p, apply o (.level x) = .ok (.set p) ∧ o'.level = p.level) ∧
    ((∀ y, .txnType y ∉ l) → o'.txnType = 0) ∧ ((∀ y, .amount y ∉ l) → o'.amount = 0) ∧
    ((∀ y, .amountOther y ∉ l) → o'.amountOther = 0) ∧ ((∀ y, .sources y ∉ l) → o'.mask = 0xFF) ∧
    ((∀ y, .level y ∉ l) → o'.level = 2) ∧ (o'.verbose = true ↔ .verbose ∈ l) ∧ .version ∉ l := by
  have split : ∀ pre (a : Opt) post, l = pre ++ a :: post → ∃ o1 o2, apply o1 a = .ok (.set o2) ∧
      parse o2 post = .ok (.set o') := by
    intro pre a post e
    rw [e, parse_append] at h
    obtain ⟨r, hr⟩ := C108_defined .init pre
    rw [hr, bind_ok] at h
    cases r with
    | set o1 =>
      simp only [parse] at h
      cases ha : apply o1 a with
      | error e => rw [ha, bind_error] at h; cases h
      | ok r =>
        rw [ha, bind_ok] at h
        cases r with
        | set o2 => exact ⟨o1, o2, ha, h⟩
        | refused m => cases h
        | version => cases h
    | refused m => cases h
    | version => cases h
  refine ⟨?_, ?_, ?_, ?_, ?_, ?_, ?_, ?_, ?_, ?_, ?_, ?_⟩
  · intro pre x post e hn
    obtain ⟨o1, o2, h1, h2⟩ := split pre _ post e
    obtain ⟨p, hp, hp', -⟩ := apply_other o1 o o2 _ h1
    refine ⟨p, hp, ?_⟩
    rw [hp' x rfl]
    exact last_decides Opts.txnType (fun a => ∃ x, a = .txnType x)
      (fun o o' a ha hk => (apply_frame o o' a ha).1 (fun x hx => hk ⟨x, hx⟩)) o2 o' post h2
      (by rintro a ha ⟨y, rfl⟩; exact hn y ha)
  · intro pre x post e hn
    obtain ⟨o1, o2, h1, h2⟩ := split pre _ post e
    obtain ⟨p, hp, -, hp', -⟩ := apply_other o1 o o2 _ h1
    refine ⟨p, hp, ?_⟩
    rw [hp' x rfl]
    exact last_decides Opts.amount (fun a => ∃ x, a = .amount x)
      (fun o o' a ha hk => (apply_frame o o' a ha).2.1 (fun x hx => hk ⟨x, hx⟩)) o2 o' post h2
      (by rintro a ha ⟨y, rfl⟩; exact hn y ha)
  · intro pre x post e hn
    obtain ⟨o1, o2, h1, h2⟩ := split pre _ post e
    obtain ⟨p, hp, -, -, hp', -⟩ := apply_other o1 o o2 _ h1
    refine ⟨p, hp, ?_⟩
    rw [hp' x rfl]
    exact last_decides Opts.amountOther (fun a => ∃ x, a = .amountOther x)
      (fun o o' a ha hk => (apply_frame o o' a ha).2.2.1 (fun x hx => hk ⟨x, hx⟩)) o2 o' post h2
      (by rintro a ha ⟨y, rfl⟩; exact hn y ha)
  · intro pre x post e hn
    obtain ⟨o1, o2, h1, h2⟩ := split pre _ post e
    obtain ⟨p, hp, -, -, -, hp', -⟩ := apply_other o1 o o2 _ h1
    refine ⟨p, hp, ?_⟩
    rw [hp' x rfl]
    exact last_decides Opts.mask (fun a => ∃ x, a = .sources x)
      (fun o o' a ha hk => (apply_frame o o' a ha).2.2.2.2.1 (fun x hx => hk ⟨x, hx⟩)) o2 o' post h2
      (by rintro a ha ⟨y, rfl⟩; exact hn y ha)
  · intro pre x post e hn
    obtain ⟨o1, o2, h1, h2⟩ := split pre _ post e
    obtain ⟨p, hp, -, -, -, -, hp'⟩ := apply_other o1 o o2 _ h1
    refine ⟨p, hp, ?_⟩
    rw [hp' x rfl]
    exact last_decides Opts.level (fun a => ∃ x, a = .level x)
      (fun o o' a ha hk => (apply_frame o o' a ha).2.2.2.2.2.1 (fun x hx => hk ⟨x, hx⟩)) o2 o' post h2
      (by rintro a ha ⟨y, rfl⟩; exact hn y ha)
  · intro hn
    exact last_decides Opts.txnType (fun a => ∃ x, a = .txnType x)
      (fun o o' a ha hk => (apply_frame o o' a ha).1 (fun x hx => hk ⟨x, hx⟩)) .init o' l h
      (by rintro a ha ⟨y, rfl⟩; exact hn y ha)
  · intro hn
    exact last_decides Opts.amount (fun a => ∃ x, a = .amount x)
      (fun o o' a ha hk => (apply_frame o o' a ha).2.1 (fun x hx => hk ⟨x, hx⟩)) .init o' l h
      (by rintro a ha ⟨y, rfl⟩; exact hn y ha)
  · intro hn
    exact last_decides Opts.amountOther (fun a => ∃ x, a = .amountOther x)
      (fun o o' a ha hk => (apply_frame o o' a ha).2.2.1 (fun x hx => hk ⟨x, hx⟩)) .init o' l h
      (by rintro a ha ⟨y, rfl⟩; exact hn y ha)
  · intro hn
    exact last_decides Opts.mask (fun a => ∃ x, a = .sources x)
      (fun o o' a ha hk => (apply_frame o o' a ha).2.2.2.2.1 (fun x hx => hk ⟨x, hx⟩)) .init o' l h
      (by rintro a ha ⟨y, rfl⟩; exact hn y ha)
  · intro hn
    exact last_decides Opts.level (fun a => ∃ x, a = .level x)
      (fun o o' a ha hk => (apply_frame o o' a ha).2.2.2.2.2.1 (fun x hx => hk ⟨x, hx⟩)) .init o' l h
      (by rintro a ha ⟨y, rfl⟩; exact hn y ha)
  · constructor
    · intro hv
      apply Classical.byContradiction
      intro hn
      have := last_decides Opts.verbose (fun a => a = .verbose)
        (fun o o' a ha hk => (apply_frame o o' a ha).2.2.2.1 hk) .init o' l h
        (by rintro a ha rfl; exact hn ha)
      rw [hv] at this
      cases this
    · intro hm
      obtain ⟨pre, post, e⟩ := List.append_of_mem hm
      obtain ⟨o1, o2, h1, h2⟩ := split pre _ post e
      cases h1
      have key : ∀ l o, o.verbose = true → parse o l = .ok (.set o') → o'.verbose = true := by
        intro l
        induction l with
        | nil => intro o hv h; cases h; exact hv
        | cons a l ih =>
          intro o hv h
          rw [parse] at h
          cases ha : apply o a with
          | error e => rw [ha, bind_error] at h; cases h
          | ok r =>
            rw [ha, bind_ok] at h
            cases r with
            | set o3 =>
              refine ih o3 ?_ h
              have f := apply_frame o o3 a ha
              by_cases hav : a = .verbose
              · exact f.2.2.2.2.2.2.2.2.2.2.1 hav
              · rw [f.2.2.2.1 hav]; exact hv
            | refused m => cases h
            | version => cases h
      exact key post _ rfl h2
  · intro hm
    obtain ⟨pre, post, e⟩ := List.append_of_mem hm
    obtain ⟨o1, o2, h1, -⟩ := split pre _ post e
    cases h1

/-- **C108** (refusal).  The first option that is refused ends the program with its message, whatever follows. -/
theorem C108_refused (o o1 : Opts) (pre post : List Opt) (a : Opt) (msg : List Byte)
    (h1 : parse o pre = .ok (.set o1)) (h2 : apply o1 a = .ok (.refused msg)) :
    parse o (pre ++ a :: post) = .ok (.refused msg) := by
  rw [parse_append, h1, bind_ok]
  simp only [parse]
  rw [h2, bind_ok]

example : parse .init [.amount txt!"100", .txnType txt!"09", .amountOther txt!"20", .amount txt!"120"] =
    .ok (.set { Opts.init with txnType := 9, amount := 120, amountOther := 20 }) := by rfl
example : parse .init [.amount txt!"100", .txnType txt!"9", .verbose] =
    .ok (.refused txt!"Transaction type (--txn-type) argument must be 2 numeric digits") := by rfl

end Verif.ToolArgs
