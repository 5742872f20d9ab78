import Verif.ViewerHexLemmas

/-!
# Lemmas about the highlighting of the viewer
-/

set_option autoImplicit false

namespace Verif.Viewer
open Verif Ber BerSpec PrintSpec ViewerSpec TlvInfo

/-- `overDigits` where all characters are below 256. -/
def marked (f : Nat → Format → Format) (g : Format → Format) :
    Nat → List Nat → List Format → List Format
  | k, c :: cs, x :: xs =>
    (if isD c then f k x else g x) :: marked f g (if isD c then k + 1 else k) cs xs
  | _, _, _ => []

theorem overDigits_eq (f : Nat → Format → Format) (g : Format → Format) (text : List Nat) :
    ∀ k xs, (∀ c ∈ text, c ≤ 0xFF) → overDigits f g k text xs = .ok (marked f g k text xs) := by
  induction text with
  | nil => intro k xs _; rfl
  | cons c cs ih =>
    intro k xs h
    cases xs with
    | nil => rfl
    | cons x xs =>
      unfold overDigits marked
      rw [isxdigit_eq c (h c (by simp))]
      simp only [bind_ok]
      rw [ih _ xs (fun d hd => h d (by simp [hd]))]
      rfl

theorem marked_spec (f : Nat → Format → Format) (g : Format → Format) (text : List Nat) :
    ∀ k xs, xs.length = text.length → (marked f g k text xs).length = text.length ∧
      ∀ u c w x, text = u ++ c :: w → xs[u.length]? = some x →
        (marked f g k text xs)[u.length]? = some (if isD c then f (k + u.countP isD) x else g x) := by
  induction text with
  | nil =>
    intro k xs h
    refine ⟨by simp [marked], ?_⟩
    intro u c w x e
    simp at e
  | cons a text ih =>
    intro k xs h
    match xs, h with
    | y :: xs, h =>
      have ih := ih (if isD a then k + 1 else k) xs (by simpa using h)
      refine ⟨by simp [marked, ih.1], ?_⟩
      intro u c w x e hx
      cases u with
      | nil =>
        simp only [List.nil_append, List.cons.injEq] at e
        simp at hx
        simp [marked, e.1, hx]
      | cons b u =>
        simp only [List.cons_append, List.cons.injEq] at e
        have := ih.2 u c w x e.2 (by simpa using hx)
        unfold marked
        simp only [List.length_cons, List.getElem?_cons_succ]
        rw [this, e.1]
        by_cases hb : isD b = true
        · simp [hb, Nat.add_assoc, Nat.add_comm 1]
        · simp [hb]

theorem emphasise_spec (new : Format) (s : Nat) (text : List Nat) (hn : ∀ c ∈ text, c ≤ 0xFF)
    (ps : List (Nat × Nat)) : ∀ xs, xs.length = text.length →
    ∃ ys, emphasise new s text ps xs = .ok ys ∧ ys.length = text.length ∧
      ∀ u c w x, text = u ++ c :: w → xs[u.length]? = some x →
        ys[u.length]? = some (if isD c = true ∧
          ∃ p ∈ ps, p.1 ≤ s + u.countP isD ∧ s + u.countP isD < p.1 + p.2 then new else x) := by
  induction ps with
  | nil =>
    intro xs h
    refine ⟨xs, rfl, h, ?_⟩
    intro u c w x _ hx
    simp [hx]
  | cons p ps ih =>
    intro xs h
    obtain ⟨h1, h2⟩ := marked_spec
      (fun k x => if p.1 ≤ s + k ∧ s + k < p.1 + p.2 then new else x) id text 0 xs h
    obtain ⟨ys, e, hl, hy⟩ := ih _ h1
    refine ⟨ys, ?_, hl, ?_⟩
    · unfold emphasise
      rw [overDigits_eq _ _ _ _ _ hn]
      exact e
    · intro u c w x et hx
      have := h2 u c w x et hx
      rw [hy u c w _ et this]
      simp only [Nat.zero_add, id_eq, List.mem_cons, exists_eq_or_imp, Option.some.injEq]
      by_cases hc : isD c = true
      · simp only [hc, if_true, true_and]
        by_cases hp : p.1 ≤ s + u.countP isD ∧ s + u.countP isD < p.1 + p.2
        · simp [hp]
        · simp only [hp, if_false, false_or]
      · simp [hc]

/-- The format of a character, `k` being the position counted for it. -/
def charFormat (h : Highlighter) (d : BlockData) (ber c k : Nat) : Format :=
  let x :=
    if ber ≥ d.startPos + d.length then plainFormat
    else if isD c then (if k < ber then plainFormat else invalidFormat)
    else nonHexFormat
  let x := if h.emphasise = true ∧ isD c = true ∧
    ∃ p ∈ h.tagPositions, p.1 ≤ k ∧ k < p.1 + p.2 then tagFormat else x
  let x := if h.emphasise = true ∧ isD c = true ∧
    ∃ p ∈ h.paddingPositions, p.1 ≤ k ∧ k < p.1 + p.2 then paddingFormat else x
  if isD c = true ∧ h.selStart ≥ -1 ∧ h.selCount > 0 ∧ h.selStart ≤ (k : Nat) ∧
    (k : Int) < h.selStart + h.selCount then selected x else x

theorem highlight_get (h : Highlighter) (d : BlockData) (ber : Nat) (hb : h.berStrLen = some ber)
    (text : List Nat) (hn : ∀ c ∈ text, c ≤ 0xFF) :
    ∃ ys, highlightBlock h (some d) text = .ok ys ∧ ys.length = text.length ∧
      ∀ u c w, text = u ++ c :: w →
        ys[u.length]? = some (charFormat h d ber c (d.startPos + u.countP isD)) := by
  unfold highlightBlock
  simp only [hb]
  -- the first step
  have s1 : ∃ xs, baseFormats ber d text = .ok xs ∧
      xs.length = text.length ∧ ∀ u c w, text = u ++ c :: w → xs[u.length]? = some
        (if ber ≥ d.startPos + d.length then plainFormat
          else if isD c then (if d.startPos + u.countP isD < ber then plainFormat else invalidFormat)
          else nonHexFormat) := by
    unfold baseFormats
    simp only
    have hr : (List.replicate text.length plainFormat).length = text.length := by simp
    have hg : ∀ (u : List Nat) (c : Nat) (w : List Nat), text = u ++ c :: w →
        (List.replicate text.length plainFormat)[u.length]? = some plainFormat := by
      intro u c w e
      rw [List.getElem?_replicate, if_pos]
      rw [e]; simp
    by_cases h1 : ber ≥ d.startPos + d.length
    · simp only [if_pos h1]
      exact ⟨_, rfl, hr, hg⟩
    · simp only [if_neg h1]
      by_cases h2 : ber ≤ d.startPos
      · simp only [if_pos h2]
        refine ⟨_, overDigits_eq _ _ _ _ _ hn, (marked_spec _ _ _ _ _ hr).1, ?_⟩
        intro u c w e
        rw [(marked_spec _ _ _ _ _ hr).2 u c w _ e (hg u c w e)]
        have : ¬ d.startPos + u.countP isD < ber := by omega
        simp [this]
      · simp only [if_neg h2]
        refine ⟨_, overDigits_eq _ _ _ _ _ hn, (marked_spec _ _ _ _ _ hr).1, ?_⟩
        intro u c w e
        rw [(marked_spec _ _ _ _ _ hr).2 u c w _ e (hg u c w e)]
        simp
  obtain ⟨xs, e1, l1, g1⟩ := s1
  rw [e1]
  simp only [bind_ok]
  -- tags and padding
  have s2 : ∃ ys, emphasised h d text xs =
        .ok ys ∧ ys.length = text.length ∧ ∀ u c w x, text = u ++ c :: w → xs[u.length]? = some x →
        ys[u.length]? = some
          (if h.emphasise = true ∧ isD c = true ∧ ∃ p ∈ h.paddingPositions,
            p.1 ≤ d.startPos + u.countP isD ∧ d.startPos + u.countP isD < p.1 + p.2 then paddingFormat
          else if h.emphasise = true ∧ isD c = true ∧ ∃ p ∈ h.tagPositions,
            p.1 ≤ d.startPos + u.countP isD ∧ d.startPos + u.countP isD < p.1 + p.2 then tagFormat
          else x) := by
    unfold emphasised
    cases he : h.emphasise with
    | false =>
      refine ⟨xs, rfl, l1, ?_⟩
      intro u c w x _ hx
      simp [hx]
    | true =>
      obtain ⟨y1, a1, a2, a3⟩ := emphasise_spec tagFormat d.startPos text hn h.tagPositions xs l1
      obtain ⟨y2, b1, b2, b3⟩ := emphasise_spec paddingFormat d.startPos text hn h.paddingPositions y1 a2
      refine ⟨y2, ?_, b2, ?_⟩
      · simp only [if_true]
        rw [a1]
        exact b1
      · intro u c w x e hx
        rw [b3 u c w _ e (a3 u c w x e hx)]
        simp only [true_and]
  obtain ⟨ys, e2, l2, g2⟩ := s2
  rw [e2]
  simp only [bind_ok]
  unfold selectedFormats
  by_cases hs : h.selStart ≥ -1 ∧ h.selCount > 0
  · rw [if_pos hs, overDigits_eq _ _ _ _ _ hn]
    have := marked_spec (fun k x => if h.selStart ≤ (d.startPos + k : Nat) ∧
          ((d.startPos + k : Nat) : Int) < h.selStart + h.selCount then selected x else x) id text 0 ys l2
    refine ⟨_, rfl, this.1, ?_⟩
    intro u c w e
    rw [this.2 u c w _ e (g2 u c w _ e (g1 u c w e))]
    unfold charFormat
    simp only [Nat.zero_add, id_eq, hs.1, hs.2, true_and]
    congr 1
    by_cases hc : isD c = true
    · simp only [hc, if_true, true_and]
    · simp only [hc, if_false, Bool.false_eq_true, false_and, and_false]
  · rw [if_neg hs]
    refine ⟨_, rfl, l2, ?_⟩
    intro u c w e
    rw [g2 u c w _ e (g1 u c w e)]
    unfold charFormat
    simp only
    congr 1
    rw [if_neg (c := isD c = true ∧ _) (by
      intro hx; exact hs ⟨hx.2.1, hx.2.2.1⟩)]

/-- The position counted for a character, compared with its place: they agree on the digits of the
data, and both are behind them otherwise. -/
theorem place_count (P u w : List Nat) (L : Nat)
    (hs : ∀ d ∈ (P ++ ink u ++ w).take L, isD d = true) :
    (P.length + (ink u).length < L → P.length + u.countP isD = P.length + (ink u).length) ∧
    (L ≤ P.length + (ink u).length → L ≤ P.length + u.countP isD) := by
  have hc : u.countP isD = (ink u).countP isD := by
    unfold ink
    rw [List.countP_filter]
    apply List.countP_congr
    intro x _
    simp only [Bool.and_eq_true, Bool.not_eq_true', decide_eq_false_iff_not]
    exact ⟨fun h => ⟨h, digit_ink h⟩, fun h => h.1⟩
  rw [hc]
  generalize ink u = U at *
  constructor
  · intro h
    congr 1
    apply List.countP_eq_length.mpr
    intro d hd
    apply hs
    rw [List.take_append, List.take_of_length_le (by rw [List.length_append]; omega)]
    simp [hd]
  · intro h
    by_cases hp : L ≤ P.length
    · omega
    · have h1 : (U.take (L - P.length)).countP isD = (U.take (L - P.length)).length := by
        apply List.countP_eq_length.mpr
        intro d hd
        apply hs
        rw [List.take_append, List.take_append, List.take_of_length_le (by omega)]
        simp [hd]
      have h2 : (U.take (L - P.length)).length = L - P.length := by
        rw [List.length_take]; omega
      have h3 : (U.take (L - P.length)).countP isD ≤ U.countP isD :=
        List.Sublist.countP_le (List.take_sublist _ _)
      omega

end Verif.Viewer
