import Verif.Decode
import Verif.BitsProps
import Verif.ListsProps
import Verif.PrintEmvLemmas

/-! # Lemmas on the texts of bit fields -/

set_option autoImplicit false

namespace Verif.Decode
open Verif StrList Bits Formats

/-- The most bytes a row adds. -/
def cost : Row → Nat
  | .set _ s => s.length + 1
  | .clear _ s => s.length + 1
  | .either _ _ s u => max s.length u.length + 1
  | .value _ _ _ vals other =>
    (vals.map (fun p => (p.2.getD []).length)).foldr max ((other.getD []).length) + 1

theorem blt_ne {b : Byte} (h : Nat.blt 0 b.toNat = true) : b ≠ 0 := by
  rintro rfl
  revert h
  decide

/-- No text of the row holds a NUL. -/
def clean : Row → Bool
  | .set _ s => s.all (fun b => Nat.blt 0 b.toNat)
  | .clear _ s => s.all (fun b => Nat.blt 0 b.toNat)
  | .either _ _ s u => s.all (fun b => Nat.blt 0 b.toNat) && u.all (fun b => Nat.blt 0 b.toNat)
  | .value _ _ _ vals other =>
    vals.all (fun p => (p.2.getD []).all (fun b => Nat.blt 0 b.toNat)) && (other.getD []).all (fun b => Nat.blt 0 b.toNat)

theorem text_append (xs ys : List (List Byte)) : text (xs ++ ys) = text xs ++ text ys := by
  simp [text]

theorem text_one (s : List Byte) : text [s] = s ++ [0x0A] := by simp [text]

theorem valText_cost (vals : List (Nat × Option (List Byte))) (other : Option (List Byte)) (n : Nat) :
    ((valText vals other n).getD []).length ≤
      (vals.map (fun p => (p.2.getD []).length)).foldr max ((other.getD []).length) := by
  induction vals with
  | nil => simp [valText]
  | cons p vals ih =>
    obtain ⟨v, s⟩ := p
    simp only [valText, List.map_cons, List.foldr_cons]
    split
    · exact Nat.le_max_left _ _
    · exact Nat.le_trans ih (Nat.le_max_right _ _)

theorem valText_clean (vals : List (Nat × Option (List Byte))) (other : Option (List Byte)) (n : Nat)
    (h : vals.all (fun p => (p.2.getD []).all (fun b => Nat.blt 0 b.toNat)) = true) (ho : (other.getD []).all (fun b => Nat.blt 0 b.toNat) = true) :
    ((valText vals other n).getD []).all (fun b => Nat.blt 0 b.toNat) = true := by
  induction vals with
  | nil => simpa [valText] using ho
  | cons p vals ih =>
    obtain ⟨v, s⟩ := p
    simp only [valText]
    rw [List.all_cons, Bool.and_eq_true] at h
    split
    · exact h.1
    · exact ih h.2

theorem row_cost (r : Row) (f : List Byte) : (text (r.shown f)).length ≤ cost r := by
  cases r with
  | set bs s => simp only [Row.shown, cost]; split <;> simp [text]
  | clear bs s => simp only [Row.shown, cost]; split <;> simp [text]
  | either a b s u =>
    simp only [Row.shown, cost]; split <;> simp [text] <;> omega
  | value a b c vals other =>
    simp only [Row.shown, cost]
    have := valText_cost vals other (bitsVal f a b c)
    cases h : valText vals other (bitsVal f a b c) with
    | none => simp [text]
    | some s => rw [h] at this; simp [text] at this ⊢; omega

theorem shown_cost (rows : List Row) (f : List Byte) :
    (text (shown rows f)).length ≤ (rows.map cost).sum := by
  induction rows with
  | nil => simp [shown, text]
  | cons r rows ih =>
    have e : shown (r :: rows) f = r.shown f ++ shown rows f := by simp [shown]
    rw [e, text_append, List.length_append, List.map_cons, List.sum_cons]
    have := row_cost r f
    omega

theorem row_clean (r : Row) (f : List Byte) (h : clean r = true) : ∀ s ∈ r.shown f, ∀ b ∈ s, b ≠ 0 := by
  have conv : ∀ s : List Byte, s.all (fun b => Nat.blt 0 b.toNat) = true → ∀ b ∈ s, b ≠ 0 := by
    intro s h b hb
    exact blt_ne (List.all_eq_true.mp h b hb)
  cases r with
  | set bs s =>
    simp only [Row.shown]; intro x hx; split at hx
    · rw [List.mem_singleton] at hx; subst hx; exact conv _ h
    · simp at hx
  | clear bs s =>
    simp only [Row.shown]; intro x hx; split at hx
    · simp at hx
    · rw [List.mem_singleton] at hx; subst hx; exact conv _ h
  | either a b s u =>
    simp only [clean, Bool.and_eq_true] at h
    simp only [Row.shown]; intro x hx; split at hx
    · rw [List.mem_singleton] at hx; subst hx; exact conv _ h.1
    · rw [List.mem_singleton] at hx; subst hx; exact conv _ h.2
  | value a b c vals other =>
    simp only [clean, Bool.and_eq_true] at h
    have := valText_clean vals other (bitsVal f a b c) h.1 h.2
    simp only [Row.shown]
    intro x hx
    cases hv : valText vals other (bitsVal f a b c) with
    | none => rw [hv] at hx; simp at hx
    | some s =>
      rw [hv] at hx this
      simp at hx
      subst hx
      exact conv _ this

theorem shown_clean (rows : List Row) (f : List Byte) (h : rows.all clean = true) :
    ∀ b ∈ text (shown rows f), b ≠ 0 := by
  intro b hb
  simp only [text, List.mem_flatten, List.mem_map] at hb
  obtain ⟨_, ⟨s, hs, rfl⟩, hb⟩ := hb
  simp only [shown, List.mem_flatMap] at hs
  obtain ⟨r, hr, hs⟩ := hs
  rcases List.mem_append.mp hb with hb | hb
  · exact row_clean r f (List.all_eq_true.mp h r hr) s hs b hb
  · simp at hb; subst hb; decide

theorem cstr_over (t old : List Byte) (h : ∀ b ∈ t, b ≠ 0) : Capdu.cstr (strOver t old) = .ok t :=
  Capdu.cstr_spec t _ h

/-- Any array in which a NUL is written can be printed. -/
theorem cstr_over_safe (t old : List Byte) : C.Safe (Capdu.cstr (strOver t old)) :=
  ⟨_, (Print.cstr_takeWhile _ (by simp [strOver])).1⟩

theorem field_ok {bad fail : List Byte} {get : C (Int × List Byte)} {tail str s : List Byte}
    (hg : get = .ok (0, str)) (hs : Capdu.cstr str = .ok s) :
    field true bad fail get tail = .ok ⟨s ++ tail, []⟩ := by
  simp only [field, hg, bind_ok, if_true, hs]
  rfl

theorem field_fail {bad fail : List Byte} {get : C (Int × List Byte)} {tail str : List Byte} {r : Int}
    (hg : get = .ok (r, str)) (hr : r ≠ 0) :
    field true bad fail get tail = .ok ⟨[], fail ++ [0x0A]⟩ := by
  simp only [field, hg, bind_ok, if_true]
  rw [if_pos hr]
  rfl

theorem field_bad {bad fail : List Byte} {get : C (Int × List Byte)} {tail : List Byte} {b : Bool}
    (h : b = false) : field b bad fail get tail = .ok ⟨[], bad ++ [0x0A]⟩ := by
  subst h; rfl

/-- Describing a field by rows and printing it. -/
theorem field_rows {g : List Byte → List Byte → C (Int × List Byte)} {n : Nat} {rows : List Row}
    (hd : Describes g n (shown rows)) (hc : rows.all clean = true) (data str bad fail : List Byte)
    (hs : str ≠ []) (hn : data.length = n) (hne : shown rows data ≠ [])
    (hfit : (text (shown rows data)).length < str.length) :
    field true bad fail (g data str) [] = .ok ⟨text (shown rows data), []⟩ := by
  obtain ⟨str', e, -, -, -, h⟩ := hd.2 data str hs hn
  rw [h hne hfit] at e
  rw [field_ok e (cstr_over _ _ (shown_clean rows data hc)), List.append_nil]

/-- The same when there is nothing to describe: the array is printed as it is. -/
theorem field_none {g : List Byte → List Byte → C (Int × List Byte)} {n : Nat}
    {lines : List Byte → List (List Byte)}
    (hd : Describes g n lines) (data str bad fail : List Byte)
    (hs : str ≠ []) (hn : data.length = n) (h0 : lines data = []) :
    field true bad fail (g data str) [] =
      (do let s ← Capdu.cstr str
          .ok ⟨s, []⟩) := by
  obtain ⟨str', e, -, h, -⟩ := hd.2 data str hs hn
  rw [h (.inl h0)] at e
  simp only [field, e, bind_ok, if_true]
  rw [if_neg (by simp)]
  simp

theorem shows_out {str str' : List Byte} {lines : List (List Byte)} (h : Lists.Shows str lines str')
    (hne : lines ≠ []) (hz : ∀ s ∈ lines, ∀ b ∈ s, b ≠ 0) (hfit : (text lines).length < str.length) :
    Capdu.cstr str' = .ok (text lines) := by
  rw [h.2.2.2 hne hfit]
  apply cstr_over
  intro b hb
  simp only [text, List.mem_flatten, List.mem_map] at hb
  obtain ⟨_, ⟨s, hs, rfl⟩, hb⟩ := hb
  rcases List.mem_append.mp hb with hb | hb
  · exact hz s hs b hb
  · simp at hb; subst hb; decide

theorem emvText_clean (n : Nat) : ∀ (lines : List (List Byte)) (acc : List Byte),
    (∀ s ∈ lines, ∀ b ∈ s, b ≠ 0) → (∀ b ∈ acc, b ≠ 0) → ∀ b ∈ emvText n lines acc, b ≠ 0 := by
  intro lines
  induction lines with
  | nil => intro acc _ ha; exact ha
  | cons s lines ih =>
    intro acc hs ha
    rw [emvText]
    have hr : ∀ x ∈ lines, ∀ b ∈ x, b ≠ 0 := fun x hx => hs x (by simp [hx])
    split
    · exact ih acc hr ha
    · refine ih _ hr fun b hb => ?_
      rcases List.mem_append.1 hb with hb | hb
      · exact ha b hb
      · rcases List.mem_append.1 hb with hb | hb
        · exact hs s (by simp) b (List.mem_of_mem_take hb)
        · simp at hb; subst hb; decide

/-- What is printed of a description, cut or not. -/
theorem shows_cut {str str' : List Byte} {lines : List (List Byte)} (h : Lists.Shows str lines str')
    (hne : lines ≠ []) (hz : ∀ s ∈ lines, ∀ b ∈ s, b ≠ 0) (h3 : 3 ≤ str.length) :
    Capdu.cstr str' = .ok (emvText str.length lines []) ∧
      (emvText str.length lines []).length < str.length := by
  obtain ⟨t, ⟨rfl, ht⟩, rfl⟩ := h.2.2.1 hne h3
  exact ⟨cstr_over _ _ (emvText_clean _ _ _ hz (by simp)), ht⟩

end Verif.Decode
