import Verif.ToolTxn
import Verif.ToolArgsProps
import Verif.ListsLemmas

/-!
# C111: the choice of the application
-/

set_option autoImplicit false

namespace Verif.ToolTxn
open Verif Ber App Tal Emv

/-! ## Specification -/

/-- What is read at a time: up to three characters, not beyond a line feed or the end of the input. -/
def Chunk (s rest : List Byte) : Prop :=
  s ≠ [] ∧ s.length ≤ 3 ∧ (0x0A : Byte) ∉ s.dropLast ∧ (s.length = 3 ∨ s.getLast? = some 0x0A ∨ rest = [])

/-- One after the other. -/
def Cut : List (List Byte) → List Byte → Prop
  | [], _ => True
  | s :: l, rest => Chunk s (l.flatten ++ rest) ∧ Cut l rest

/-- The number a text begins with, after spaces and a sign; a minus sign makes it count down from 2^32. -/
def Says (s : List Byte) (n : Nat) : Prop :=
  ∃ (sp sign ds more : List Byte) (vs : List Nat), s = sp ++ sign ++ ds ++ more ∧
    (∀ c ∈ sp, c.toNat = 0x20 ∨ (9 ≤ c.toNat ∧ c.toNat ≤ 13)) ∧ ds ≠ [] ∧ ds.map ToolArgs.dec? = vs.map some ∧
    (∀ c r, more = c :: r → ToolArgs.dec? c = none) ∧
    ((sign = [] ∨ sign = txt!"+") ∧ n = ToolArgs.ofDigits 10 vs ∨
      sign = txt!"-" ∧ n = (2 ^ 32 - ToolArgs.ofDigits 10 vs) % 2 ^ 32)

/-- Not the number of a candidate. -/
def Invalid (count : Nat) (s : List Byte) : Prop := ∀ n, Says s n → n = 0 ∨ count < n

/-! ## Reading -/

theorem fgets_none (input : List Byte) : fgets input = none ↔ input = [] := by
  unfold fgets
  split
  · simp
  · simp
  · split <;> simp
  · split
    · simp
    · split <;> simp

theorem fgets_some (input s rest : List Byte) (h : fgets input = some (s, rest)) :
    input = s ++ rest ∧ Chunk s rest := by
  unfold fgets at h
  split at h
  · cases h
  · cases h; exact ⟨rfl, by simp [Chunk]⟩
  · split at h
    · next ha => cases h; subst ha; exact ⟨rfl, by simp [Chunk]⟩
    · next ha => cases h; exact ⟨rfl, by simpa [Chunk] using fun e => ha e.symm⟩
  · split at h
    · next ha => cases h; subst ha; exact ⟨rfl, by simp [Chunk]⟩
    · next ha =>
      split at h
      · next hb => cases h; subst hb; exact ⟨rfl, by simpa [Chunk] using fun e => ha e.symm⟩
      · next hb => cases h; exact ⟨rfl, by simpa [Chunk] using ⟨fun e => ha e.symm, fun e => hb e.symm⟩⟩

theorem fgets_chunk {s rest : List Byte} (h : Chunk s rest) : fgets (s ++ rest) = some (s, rest) := by
  obtain ⟨h0, h3, hd, hl⟩ := h
  match s, h0, h3, hd, hl with
  | [a], _, _, _, hl =>
    rcases hl with h | h | h
    · simp at h
    · simp only [List.getLast?_singleton, Option.some.injEq] at h
      subst h
      match rest with
      | [] => rfl
      | [_] => rfl
      | _ :: _ :: _ => rfl
    · subst h; rfl
  | [a, b], _, _, hd, hl =>
    have ha : a ≠ 0x0A := by intro e; exact hd (by simp [e])
    rcases hl with h | h | h
    · simp at h
    · have hb : b = 0x0A := by simpa using h
      subst hb
      match rest with
      | [] => simp [fgets, ha]
      | _ :: _ => simp [fgets, ha]
    · subst h; simp [fgets, ha]
  | [a, b, c], _, _, hd, _ =>
    have ha : a ≠ 0x0A := by intro e; exact hd (by simp [e])
    have hb : b ≠ 0x0A := by intro e; exact hd (by simp [e])
    simp [fgets, ha, hb]

/-! ## Numbers -/

/-- `scan` after the sign. -/
def afterSign (neg : Bool) (u : List Byte) : Option Nat :=
  match u with
  | [] => none
  | c :: _ =>
    if ToolArgs.digitOf c < 10 then
      let n := (ToolArgs.digits 10 u 0).1
      some (if neg then (2 ^ 32 - n) % 2 ^ 32 else n)
    else none

theorem scan_after (s : List Byte) : scan s =
    afterSign (ToolArgs.signOf ((s.takeWhile (· != 0)).dropWhile Hex.isSpace)).1
      (ToolArgs.signOf ((s.takeWhile (· != 0)).dropWhile Hex.isSpace)).2 := rfl

theorem afterSign_digits (neg : Bool) (ds more : List Byte) (h0 : ds ≠ []) (h : ∀ c ∈ ds, ToolArgs.digitOf c < 10)
    (hm : ∀ c r, more = c :: r → ¬ ToolArgs.digitOf c < 10) :
    afterSign neg (ds ++ more) = some (if neg then (2 ^ 32 - ToolArgs.ofDigits 10 (ds.map ToolArgs.digitOf)) % 2 ^ 32
      else ToolArgs.ofDigits 10 (ds.map ToolArgs.digitOf)) := by
  have e := ToolArgs.digits_spec 10 ds more _ 0 rfl
    (by intro v hv; obtain ⟨x, hx, rfl⟩ := List.mem_map.mp hv; exact h x hx) hm
  obtain ⟨c, r, rfl⟩ := List.exists_cons_of_ne_nil h0
  simp only [List.cons_append] at e
  simp only [List.cons_append, afterSign]
  rw [if_pos (h c (by simp)), e]
  rfl

theorem takeWhile_split (s : List Byte) : ∃ z, s = s.takeWhile (· != 0) ++ z ∧ ∀ c r, z = c :: r → c = 0 := by
  induction s with
  | nil => exact ⟨[], rfl, by simp⟩
  | cons a s ih =>
    by_cases ha : a = 0
    · subst ha
      refine ⟨0 :: s, rfl, ?_⟩
      rintro c r h
      cases h
      rfl
    · obtain ⟨z, h1, h2⟩ := ih
      refine ⟨z, ?_, h2⟩
      rw [List.takeWhile_cons, if_pos (by simpa using ha), List.cons_append, ← h1]

theorem takeWhile_prefix (a b : List Byte) (h : ∀ c ∈ a, c ≠ 0) :
    (a ++ b).takeWhile (· != 0) = a ++ b.takeWhile (· != 0) := by
  induction a with
  | nil => rfl
  | cons x a ih =>
    rw [List.cons_append, List.takeWhile_cons, if_pos (by simpa using h x (by simp)),
      ih fun c hc => h c (by simp [hc])]
    rfl

theorem nonzero_facts : ∀ c : Byte, (Hex.isSpace c = true → c ≠ 0) ∧ (ToolArgs.digitOf c < 10 → c ≠ 0) := by
  decide +kernel

theorem dec_none : ∀ c : Byte, ToolArgs.dec? c = none ↔ ¬ ToolArgs.digitOf c < 10 := by decide +kernel

theorem scan_iff (s : List Byte) (n : Nat) : scan s = some n ↔ Says s n := by
  rw [scan_after]
  constructor
  · intro h
    obtain ⟨z, e0, hz⟩ := takeWhile_split s
    obtain ⟨sp, e1, hsp⟩ := Decode.space_split (s.takeWhile (· != 0))
    generalize (s.takeWhile (· != 0)).dropWhile Hex.isSpace = t at h e1
    have key : ∀ neg sign u, ToolArgs.signOf t = (neg, u) → t = sign ++ u →
        (neg = true ∧ sign = txt!"-" ∨ neg = false ∧ (sign = [] ∨ sign = txt!"+")) → Says s n := by
      intro neg sign u hs he hsg
      rw [hs] at h
      simp only at h
      obtain ⟨ds, rest, eu, hd, hr⟩ := ToolArgs.digits_split 10 u
      have h0 : ds ≠ [] := by
        rintro rfl
        rw [List.nil_append] at eu
        subst eu
        cases u with
        | nil => cases h
        | cons c r => simp only [afterSign, if_neg (hr c r rfl)] at h; cases h
      rw [eu, afterSign_digits neg ds rest h0 hd hr, Option.some.injEq] at h
      refine ⟨sp, sign, ds, rest ++ z, _, ?_, hsp, h0, (ToolArgs.map_val ToolArgs.dec_val ds _).2 ⟨hd, rfl⟩, ?_, ?_⟩
      · rw [e0, e1, he, eu]; simp
      · intro c r hc
        rw [dec_none]
        cases rest with
        | nil =>
          rw [hz c r hc]; decide
        | cons x y => cases hc; exact hr _ _ rfl
      · rcases hsg with ⟨rfl, hq⟩ | ⟨rfl, hq⟩
        · exact .inr ⟨hq, by simpa using h.symm⟩
        · exact .inl ⟨hq, by simpa using h.symm⟩
    by_cases h1 : ∃ u, t = 0x2D :: u
    · obtain ⟨u, rfl⟩ := h1
      exact key true txt!"-" u rfl rfl (.inl ⟨rfl, rfl⟩)
    · by_cases h2 : ∃ u, t = 0x2B :: u
      · obtain ⟨u, rfl⟩ := h2
        exact key false txt!"+" u rfl rfl (.inr ⟨rfl, .inr rfl⟩)
      · exact key false [] t (ToolArgs.signOf_plain t (fun u hu => h1 ⟨u, hu⟩) (fun u hu => h2 ⟨u, hu⟩))
          rfl (.inr ⟨rfl, .inl rfl⟩)
  · rintro ⟨sp, sign, ds, more, vs, rfl, hsp, h0, hm, hr, hn⟩
    obtain ⟨hd, rfl⟩ := (ToolArgs.map_val ToolArgs.dec_val ds vs).1 hm
    obtain ⟨d, r, rfl⟩ := List.exists_cons_of_ne_nil h0
    obtain ⟨f1, f2, f3⟩ := ToolArgs.digit_facts d (by have := hd d (by simp); omega)
    have hsp' : ∀ c ∈ sp, Hex.isSpace c = true := fun c hc => (Decode.space_iff c).2 (hsp c hc)
    have hr' : ∀ c q, more.takeWhile (· != 0) = c :: q → ¬ ToolArgs.digitOf c < 10 := by
      intro c q hc
      cases more with
      | nil => cases hc
      | cons x y =>
        rw [List.takeWhile_cons] at hc
        split at hc
        · cases hc; exact (dec_none _).1 (hr _ _ rfl)
        · cases hc
    have hsg : ∀ c ∈ sign, c ≠ 0 := by
      rcases hn with ⟨rfl | rfl, -⟩ | ⟨rfl, -⟩ <;> decide
    have e : (sp ++ sign ++ (d :: r) ++ more).takeWhile (· != 0) = sp ++ (sign ++ ((d :: r) ++ more.takeWhile (· != 0))) := by
      rw [takeWhile_prefix _ more ?_]
      · simp
      · intro c hc
        simp only [List.mem_append] at hc
        rcases hc with (hc | hc) | hc
        · exact (nonzero_facts c).1 (hsp' c hc)
        · exact hsg c hc
        · exact (nonzero_facts c).2 (hd c hc)
    rw [e]
    have k1 : ToolArgs.signOf ((d :: r) ++ more.takeWhile (· != 0)) = (false, (d :: r) ++ more.takeWhile (· != 0)) :=
      ToolArgs.signOf_plain _ (by rintro u h; cases h; exact f2 rfl) (by rintro u h; cases h; exact f3 rfl)
    rcases hn with ⟨rfl | rfl, rfl⟩ | ⟨rfl, rfl⟩
    · rw [List.nil_append, Decode.dropWhile_space sp _ hsp' (by rintro c q h; cases h; exact f1), k1]
      simp only
      rw [afterSign_digits false _ _ h0 hd hr']
      rfl
    · rw [Decode.dropWhile_space sp _ hsp' (by rintro c q h; cases h; decide)]
      simp only [List.cons_append, ToolArgs.signOf]
      exact afterSign_digits false (d :: r) _ h0 hd hr'
    · rw [Decode.dropWhile_space sp _ hsp' (by rintro c q h; cases h; decide)]
      simp only [List.cons_append, ToolArgs.signOf]
      exact afterSign_digits true (d :: r) _ h0 hd hr'

/-! ## The choice -/

theorem choose_spec (count fuel : Nat) (input : List Byte) (bad : Nat) (hf : input.length < fuel) :
    ∃ c k, choose count fuel input bad = .ok (c, bad + k) ∧
      match c with
      | .index i rest => ∃ bads s, bads.length = k ∧ input = bads.flatten ++ s ++ rest ∧ Cut (bads ++ [s]) rest ∧
          (∀ b ∈ bads, Invalid count b) ∧ Says s (i + 1) ∧ i < count
      | .never => ∃ bads, bads.length = k ∧ input = bads.flatten ∧ Cut bads [] ∧ ∀ b ∈ bads, Invalid count b := by
  induction fuel generalizing input bad with
  | zero => omega
  | succ fuel ih =>
    rw [choose]
    cases hg : fgets input with
    | none =>
      rw [fgets_none] at hg
      subst hg
      exact ⟨.never, 0, rfl, [], rfl, rfl, trivial, by simp⟩
    | some p =>
      obtain ⟨s, rest⟩ := p
      obtain ⟨rfl, hc⟩ := fgets_some _ _ _ hg
      have hlt : rest.length < fuel := by
        have := List.length_pos_iff.mpr hc.1
        rw [List.length_append] at hf
        omega
      have again : Invalid count s → ∃ c k, choose count fuel rest (bad + 1) = .ok (c, bad + k) ∧
          match c with
          | .index i rest' => ∃ bads s', bads.length = k ∧ s ++ rest = bads.flatten ++ s' ++ rest' ∧ Cut (bads ++ [s']) rest' ∧
              (∀ b ∈ bads, Invalid count b) ∧ Says s' (i + 1) ∧ i < count
          | .never => ∃ bads, bads.length = k ∧ s ++ rest = bads.flatten ∧ Cut bads [] ∧ ∀ b ∈ bads, Invalid count b := by
        intro hi
        obtain ⟨c, k, h1, h2⟩ := ih rest (bad + 1) hlt
        refine ⟨c, k + 1, by rw [h1]; congr 2; omega, ?_⟩
        cases c with
        | index i rest' =>
          obtain ⟨bads, s', l1, l2, l3, l4, l5⟩ := h2
          refine ⟨s :: bads, s', by simp [l1], by rw [l2]; simp, ⟨?_, l3⟩, ?_, l5⟩
          · rw [l2] at hc
            simpa using hc
          · intro b hb
            rcases List.mem_cons.mp hb with rfl | hb
            · exact hi
            · exact l4 b hb
        | never =>
          obtain ⟨bads, l1, l2, l3, l4⟩ := h2
          refine ⟨s :: bads, by simp [l1], by rw [l2]; simp, ⟨?_, l3⟩, ?_⟩
          · rw [l2] at hc
            simpa using hc
          · intro b hb
            rcases List.mem_cons.mp hb with rfl | hb
            · exact hi
            · exact l4 b hb
      simp only
      cases hs : scan s with
      | none =>
        refine again ?_
        intro n hn
        rw [← scan_iff, hs] at hn
        cases hn
      | some n =>
        simp only
        have hn := (scan_iff s n).1 hs
        by_cases hv : n = 0 ∨ n > count
        · rw [if_pos hv]
          refine again ?_
          intro m hm
          rw [← scan_iff, hs, Option.some.injEq] at hm
          subst hm
          exact hv
        · rw [if_neg hv]
          refine ⟨.index (n - 1) rest, 0, rfl, [], s, rfl, rfl, ⟨by simpa using hc, trivial⟩, by simp, ?_, by omega⟩
          rw [show n - 1 + 1 = n by omega]
          exact hn

/-- **C111** (choice).  Whatever is typed: the answers are read in pieces of up to three characters, every piece
that is not the number of a candidate is refused, and the first that is one decides; what follows it stays to be
read.  Only when the input ends without one, no choice is ever made. -/
theorem C111_choice (count : Nat) (input : List Byte) : ∃ c k, choose count (input.length + 1) input 0 = .ok (c, k) ∧
    match c with
    | .index i rest => ∃ bads s, bads.length = k ∧ input = bads.flatten ++ s ++ rest ∧ Cut (bads ++ [s]) rest ∧
        (∀ b ∈ bads, Invalid count b) ∧ Says s (i + 1) ∧ i < count
    | .never => ∃ bads, bads.length = k ∧ input = bads.flatten ∧ Cut bads [] ∧ ∀ b ∈ bads, Invalid count b := by
  obtain ⟨c, k, h1, h2⟩ := choose_spec count (input.length + 1) input 0 (Nat.lt_succ_self _)
  exact ⟨c, k, by rw [h1, Nat.zero_add], h2⟩

/-- More fuel does not matter. -/
theorem choose_fuel (count f1 f2 : Nat) (input : List Byte) (bad : Nat) (h1 : input.length < f1)
    (h2 : input.length < f2) : choose count f1 input bad = choose count f2 input bad := by
  induction f1 generalizing f2 input bad with
  | zero => omega
  | succ f1 ih =>
    obtain ⟨f2, rfl⟩ : ∃ k, f2 = k + 1 := ⟨f2 - 1, by omega⟩
    rw [choose, choose]
    cases hg : fgets input with
    | none => rfl
    | some p =>
      obtain ⟨s, rest⟩ := p
      obtain ⟨rfl, hc⟩ := fgets_some _ _ _ hg
      have := List.length_pos_iff.mpr hc.1
      rw [List.length_append] at h1 h2
      simp only [fun b => ih f2 rest b (by omega) (by omega)]

/-- One piece of input. -/
theorem choose_chunk (count bad : Nat) (s rest : List Byte) (hc : Chunk s rest) :
    (∀ n, Says s n → 1 ≤ n → n ≤ count →
      choose count ((s ++ rest).length + 1) (s ++ rest) bad = .ok (.index (n - 1) rest, bad)) ∧
    (Invalid count s → choose count ((s ++ rest).length + 1) (s ++ rest) bad =
      choose count (rest.length + 1) rest (bad + 1)) := by
  have hlen := List.length_pos_iff.mpr hc.1
  have hf : choose count (s ++ rest).length rest (bad + 1) = choose count (rest.length + 1) rest (bad + 1) :=
    choose_fuel count _ _ rest _ (by rw [List.length_append]; omega) (by omega)
  rw [choose, fgets_chunk hc]
  simp only
  constructor
  · intro n hn h1 h2
    rw [(scan_iff s n).2 hn]
    simp only
    rw [if_neg (by omega)]
  · intro hi
    cases hs : scan s with
    | none => exact hf
    | some n =>
      simp only
      rw [if_pos (hi n ((scan_iff s n).1 hs))]
      exact hf

/-- A line of at most two characters is one piece. -/
theorem line_chunk (l rest : List Byte) (hl : l.length ≤ 2) (hn : (0x0A : Byte) ∉ l) : Chunk (l ++ [0x0A]) rest := by
  refine ⟨by simp, by simp; omega, by rw [List.dropLast_concat]; exact hn, .inr (.inl (by simp))⟩

/-- **C111** (lines).  A line with the number of a candidate, of one or two digits, chooses this candidate, and
nothing but the line is used up.  A line of digits with another number, and a line of up to two characters without
any digit, is refused: the question is repeated and the next line decides. -/
theorem C111_line (count bad : Nat) (l rest : List Byte) (hl : l.length ≤ 2) (hn : (0x0A : Byte) ∉ l) :
    (∀ vs, l ≠ [] → l.map ToolArgs.dec? = vs.map some → 1 ≤ ToolArgs.ofDigits 10 vs → ToolArgs.ofDigits 10 vs ≤ count →
      choose count ((l ++ [0x0A] ++ rest).length + 1) (l ++ [0x0A] ++ rest) bad =
        .ok (.index (ToolArgs.ofDigits 10 vs - 1) rest, bad)) ∧
    ((∃ vs, l ≠ [] ∧ l.map ToolArgs.dec? = vs.map some ∧ (ToolArgs.ofDigits 10 vs = 0 ∨ count < ToolArgs.ofDigits 10 vs)) ∨
        (∀ c ∈ l, ToolArgs.dec? c = none) →
      choose count ((l ++ [0x0A] ++ rest).length + 1) (l ++ [0x0A] ++ rest) bad =
        choose count (rest.length + 1) rest (bad + 1)) := by
  have hc := line_chunk l rest hl hn
  have hs : ∀ vs, l ≠ [] → l.map ToolArgs.dec? = vs.map some → Says (l ++ [0x0A]) (ToolArgs.ofDigits 10 vs) := by
    intro vs h0 hv
    exact ⟨[], [], l, [0x0A], vs, rfl, by simp, h0, hv, by rintro c r h; cases h; decide, .inl ⟨.inl rfl, rfl⟩⟩
  constructor
  · intro vs h0 hv h1 h2
    exact (choose_chunk count bad _ rest hc).1 _ (hs vs h0 hv) h1 h2
  · intro h
    refine (choose_chunk count bad _ rest hc).2 ?_
    intro n hsn
    rcases h with ⟨vs, h0, hv, h⟩ | h
    · have := hs vs h0 hv
      rw [← scan_iff] at this hsn
      rw [this, Option.some.injEq] at hsn
      subst hsn
      exact h
    · obtain ⟨sp, sign, ds, more, vs, e, -, h0, hv, -⟩ := hsn
      obtain ⟨d, r, rfl⟩ := List.exists_cons_of_ne_nil h0
      have hd : d ∈ l ++ [0x0A] := by rw [e]; simp
      have hdn : ToolArgs.dec? d = none := by
        rcases List.mem_append.mp hd with hd | hd
        · exact h d hd
        · rw [List.mem_singleton.mp hd]; decide
      cases vs with
      | nil => simp at hv
      | cons v vs => simp [hdn] at hv

/-- `x`, `9`, an empty line, then `2`: the third refusal is followed by the choice. -/
example : choose 3 100 txt!"x\n9\n\n2\nrest" 0 = .ok (.index 1 txt!"rest", 3) := by decide +kernel

/-- **C111** (disagreement).  Longer lines are not taken as a whole: of 12 candidates, `0012` chooses the first and
leaves `2` for the next question, and `1st` and `+1` choose the first. -/
theorem C111_long (rest : List Byte) (bad : Nat) :
    choose 12 ((txt!"0012\n" ++ rest).length + 1) (txt!"0012\n" ++ rest) bad = .ok (.index 0 (txt!"2\n" ++ rest), bad) ∧
    choose 12 ((txt!"1st\n" ++ rest).length + 1) (txt!"1st\n" ++ rest) bad = .ok (.index 0 (0x0A :: rest), bad) ∧
    choose 12 ((txt!"+1\n" ++ rest).length + 1) (txt!"+1\n" ++ rest) bad = .ok (.index 0 rest, bad) := by
  refine ⟨rfl, rfl, rfl⟩

end Verif.ToolTxn
