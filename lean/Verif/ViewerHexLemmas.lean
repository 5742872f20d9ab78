import Verif.ViewerText
import Verif.ViewerTextSpec
import Verif.ViewerLemmas

/-!
# Lemmas about the text of the viewer: white space and digits
-/

set_option autoImplicit false

namespace Verif.Viewer
open Verif Ber BerSpec PrintSpec ViewerSpec TlvInfo

theorem isSpace_eq (c : Nat) : isSpace c = decide (White c) := by
  unfold isSpace White
  rw [Bool.eq_iff_iff]
  simp only [Bool.or_eq_true, beq_iff_eq, Bool.and_eq_true, decide_eq_true_eq, List.mem_cons,
    List.not_mem_nil, or_false]
  omega

theorem not_white_of {c : Nat} (h : ¬ White c) : c ≠ 0x20 := by
  rintro rfl
  exact h (by decide)

theorem squeeze_filter (s : List Nat) : (squeeze s).filter (fun c => !(c == 0x20)) = ink s := by
  induction s with
  | nil => rfl
  | cons c s ih =>
    unfold squeeze
    rw [isSpace_eq]
    by_cases h : White c
    · simp only [h, decide_true, if_true]
      rw [show ink (c :: s) = ink s from by simp [ink, h], ← ih]
      split
      · rename_i rest he
        rw [he]
      · simp
    · have := not_white_of h
      simp only [h, decide_false, Bool.false_eq_true, if_false]
      rw [show ink (c :: s) = c :: ink s from by simp [ink, h], ← ih]
      simp [this]

theorem filter_dropWhile {α : Type} (p : α → Bool) (l : List α) :
    (l.dropWhile p).filter (fun c => !p c) = l.filter (fun c => !p c) := by
  induction l with
  | nil => rfl
  | cons a l ih =>
    by_cases h : p a
    · simp [List.dropWhile, h, ih]
    · simp [List.dropWhile, h]

theorem withoutSpace_eq (s : List Nat) : withoutSpace s = ink s := by
  unfold withoutSpace simplified
  simp only
  rw [List.filter_reverse, filter_dropWhile (fun c : Nat => c == 0x20), List.filter_reverse,
    List.reverse_reverse, filter_dropWhile (fun c : Nat => c == 0x20), squeeze_filter]

theorem ink_append (a b : List Nat) : ink (a ++ b) = ink a ++ ink b := by simp [ink]

theorem ink_flatten (bs : List (List Nat)) : ink bs.flatten = (bs.map ink).flatten := by
  induction bs with
  | nil => rfl
  | cons b bs ih => simp [ink_append, ih]

theorem ink_intercalate (bs : List (List Nat)) : ink ([0x0A].intercalate bs) = ink bs.flatten := by
  have h0 : ink [0x0A] = [] := by decide
  induction bs with
  | nil => rfl
  | cons b bs ih =>
    cases bs with
    | nil => simp [List.intercalate, List.intersperse]
    | cons c cs =>
      have : [0x0A].intercalate (b :: c :: cs) = b ++ ([0x0A] ++ [0x0A].intercalate (c :: cs)) := by
        simp [List.intercalate, List.intersperse]
      rw [this, ink_append, ink_append, h0, ih]
      simp [ink_append]

theorem ink_map (f : Nat → Nat) (hf : ∀ c, (White c → White (f c)) ∧ (¬ White c → f c = c))
    (s : List Nat) : ink (s.map f) = ink s := by
  induction s with
  | nil => rfl
  | cons c s ih =>
    unfold ink at ih ⊢
    by_cases h : White c
    · simp [h, (hf c).1 h, ih]
    · simp [h, (hf c).2 h, ih]

theorem ink_plain (bs : List (List Nat)) : ink (toPlainText bs) = ink bs.flatten := by
  unfold toPlainText
  rw [ink_map, ink_intercalate]
  intro c
  constructor
  · intro h
    split
    · decide
    · split
      · decide
      · exact h
  · intro h
    split
    · rename_i e; subst e; exact absurd (by decide) h
    · split
      · rename_i e; subst e; exact absurd (by decide) h
      · rfl

theorem plain_empty (bs : List (List Nat)) (h : (toPlainText bs).isEmpty) : ink bs.flatten = [] := by
  rw [← ink_plain, List.isEmpty_iff.mp h]
  rfl

/-! ## Digits -/

theorem digitVal_iff (c n : Nat) : digitVal c = some n ↔ HexDigit c n := by
  unfold digitVal HexDigit
  split
  · simp only [Option.some.injEq]; omega
  · split
    · simp only [Option.some.injEq]; omega
    · split
      · simp only [Option.some.injEq]; omega
      · constructor
        · intro h; cases h
        · intro h; omega

def isD (c : Nat) : Bool := (digitVal c).isSome

theorem isD_iff (c : Nat) : isD c = true ↔ ∃ n, HexDigit c n := by
  unfold isD
  rw [Option.isSome_iff_exists]
  simp only [digitVal_iff]

theorem digit_small {c n : Nat} (h : HexDigit c n) : c ≤ 0xFF := by
  unfold HexDigit at h; omega

theorem digit_ink {c : Nat} (h : isD c = true) : ¬ White c := by
  rw [isD_iff] at h
  obtain ⟨n, h⟩ := h
  unfold HexDigit at h
  unfold White
  simp only [List.mem_cons, List.not_mem_nil, or_false]
  omega

theorem isxdigit_eq (c : Nat) (h : c ≤ 0xFF) : isxdigit c = .ok (isD c) := by
  unfold isxdigit isD
  rw [if_neg (by omega)]

theorem hexPrefix_eq (s : List Nat) (h : Narrow s) : hexPrefix s = .ok (s.takeWhile isD).length := by
  induction s with
  | nil => rfl
  | cons c s ih =>
    unfold hexPrefix
    rw [isxdigit_eq c (h [] c s rfl (by simp))]
    simp only [bind_ok]
    by_cases hd : isD c = true
    · rw [if_pos hd, ih]
      · simp [List.takeWhile, hd]
      · intro u d w e hu
        refine h (c :: u) d w (by simp [e]) ?_
        intro x hx
        rcases List.mem_cons.mp hx with rfl | hx
        · exact (isD_iff _).mp hd
        · exact hu x hx
    · simp [List.takeWhile, hd]

theorem hexPrefix_wide (s : List Nat) (h : ¬ Narrow s) : hexPrefix s = .error .oobRead := by
  induction s with
  | nil => exact absurd (fun u c w e => by simp at e) h
  | cons c s ih =>
    unfold hexPrefix
    by_cases hc : c ≤ 0xFF
    · rw [isxdigit_eq c hc]
      simp only [bind_ok]
      by_cases hd : isD c = true
      · rw [if_pos hd, ih]
        · rfl
        · intro hn
          refine h ?_
          intro u d w e hu
          cases u with
          | nil => simp at e; omega
          | cons x u =>
            simp only [List.cons_append, List.cons.injEq] at e
            exact hn u d w e.2 (fun y hy => hu y (by simp [hy]))
      · exfalso
        refine h ?_
        intro u d w e hu
        cases u with
        | nil => simp at e; omega
        | cons x u =>
          simp only [List.cons_append, List.cons.injEq] at e
          exact absurd ((isD_iff _).mpr (hu x (by simp))) (by rw [← e.1]; exact hd)
    · unfold isxdigit
      rw [if_pos (by omega)]
      rfl

theorem written_digits {ds : List Nat} {data : List Byte} (h : Written ds data) :
    (∀ d ∈ ds, isD d = true) ∧ ds.length = 2 * data.length ∧ fromHex ds = data := by
  induction h with
  | nil => exact ⟨by simp, rfl, rfl⟩
  | cons ha hb hv h ih =>
    rename_i a b x y v ds data
    obtain ⟨h1, h2, h3⟩ := ih
    refine ⟨?_, by simp [h2]; omega, ?_⟩
    · intro d hd
      rcases List.mem_cons.mp hd with rfl | hd
      · exact (isD_iff _).mpr ⟨x, ha⟩
      · rcases List.mem_cons.mp hd with rfl | hd
        · exact (isD_iff _).mpr ⟨y, hb⟩
        · exact h1 d hd
    · unfold fromHex
      rw [(digitVal_iff a x).mpr ha, (digitVal_iff b y).mpr hb, h3]
      simp only [Option.getD_some, List.cons.injEq, and_true]
      apply UInt8.toNat_inj.mp
      have := v.toNat_lt
      rw [UInt8.toNat_ofNat', hv]
      omega

theorem takeWhile_append_all {α : Type} (p : α → Bool) (a b : List α) (h : ∀ x ∈ a, p x = true) :
    (a ++ b).takeWhile p = a ++ b.takeWhile p := by
  induction a with
  | nil => rfl
  | cons x a ih =>
    simp [h x (by simp), ih (fun y hy => h y (by simp [hy]))]

/-- The digits taken are those of the data. -/
theorem begins_take {s : List Nat} {data : List Byte} (h : Begins s data) :
    fromHex (s.take (evenLen (s.takeWhile isD).length)) = data ∧
    evenLen (s.takeWhile isD).length = 2 * data.length ∧ 2 * data.length ≤ s.length ∧
    (∀ d ∈ s.take (2 * data.length), isD d = true) := by
  obtain ⟨ds, rest, rfl, hw, hn⟩ := h
  obtain ⟨h1, h2, h3⟩ := written_digits hw
  have e : evenLen ((ds ++ rest).takeWhile isD).length = 2 * data.length := by
    rw [takeWhile_append_all isD ds rest h1, List.length_append, h2]
    have : (rest.takeWhile isD).length ≤ 1 := by
      match rest, hn with
      | [], _ => simp
      | [a], _ => exact (List.takeWhile_sublist _).length_le
      | a :: b :: more, hn =>
        by_cases ha : isD a = true
        · by_cases hb : isD b = true
          · obtain ⟨x, hx⟩ := (isD_iff a).mp ha
            obtain ⟨y, hy⟩ := (isD_iff b).mp hb
            exact absurd ⟨a, b, x, y, more, rfl, hx, hy⟩ hn
          · simp [List.takeWhile, ha, hb]
        · simp [List.takeWhile, ha]
    unfold evenLen
    split <;> omega
  have et : (ds ++ rest).take (2 * data.length) = ds := by
    rw [← h2]; simp
  refine ⟨by rw [e, et, h3], e, by simp [h2], ?_⟩
  rw [et]
  exact h1

/-- All characters begin with the digits of some data. -/
theorem begins_exists (s : List Nat) : ∃ data, Begins s data := by
  have : ∀ n (s : List Nat), s.length ≤ n → ∃ data, Begins s data := by
    intro n
    induction n with
    | zero =>
      intro s h
      have : s = [] := List.length_eq_zero_iff.mp (by omega)
      subst this
      exact ⟨[], [], [], rfl, .nil, by simp⟩
    | succ n ih =>
      intro s h
      match s, h with
      | [], _ => exact ⟨[], [], [], rfl, .nil, by simp⟩
      | [a], _ => exact ⟨[], [], [a], rfl, .nil, by simp⟩
      | a :: b :: s, h =>
        by_cases hab : (∃ x, HexDigit a x) ∧ ∃ y, HexDigit b y
        · obtain ⟨⟨x, hx⟩, y, hy⟩ := hab
          obtain ⟨data, ds, rest, e, hw, hn⟩ := ih s (by simp at h; omega)
          refine ⟨UInt8.ofNat (16 * x + y) :: data, a :: b :: ds, rest, by simp [e], ?_, hn⟩
          refine .cons hx hy ?_ hw
          rw [UInt8.toNat_ofNat']
          unfold HexDigit at hx hy
          omega
        · refine ⟨[], [], a :: b :: s, rfl, .nil, ?_⟩
          rintro ⟨a', b', x, y, more, e, h1, h2⟩
          cases e
          exact hab ⟨⟨x, h1⟩, y, h2⟩
  exact this s.length s (Nat.le_refl _)

theorem begins_unique {s : List Nat} {data data' : List Byte} (h : Begins s data)
    (h' : Begins s data') : data = data' :=
  (begins_take h).1.symm.trans (begins_take h').1

end Verif.Viewer
