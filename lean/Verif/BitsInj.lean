import Verif.BitsProps

/-!
# C71: different fields have different descriptions
-/

set_option autoImplicit false

namespace Verif.Bits
open Verif StrList Formats

/-! ## Specification -/

/-- Two fields of `n` bytes with the same description (in a zeroed buffer of at least 4096
bytes) agree in every bit which is not in a group of `reserved`; and for each group, some bit
of it is set in one field exactly when some bit of it is set in the other. -/
def Distinguishes (g : List Byte → List Byte → C (Int × List Byte)) (n : Nat)
    (reserved : List (List (Nat × Nat))) : Prop :=
  ∀ (f f' : List Byte) (N : Nat), f.length = n → f'.length = n → 4096 ≤ N →
    g f (List.replicate N 0) = g f' (List.replicate N 0) →
    (∀ B b, 1 ≤ B → B ≤ n → 1 ≤ b → b ≤ 8 → (∀ grp ∈ reserved, (B, b) ∉ grp) →
      bitSet f (B, b) = bitSet f' (B, b)) ∧
    (∀ grp ∈ reserved, grp.any (bitSet f) = grp.any (bitSet f'))

/-- As `Distinguishes`, but nothing is said about the bits `except`. -/
def DistinguishesBut (g : List Byte → List Byte → C (Int × List Byte)) (n : Nat)
    (exc : List (Nat × Nat)) : Prop :=
  ∀ (f f' : List Byte) (N : Nat), f.length = n → f'.length = n → 4096 ≤ N →
    g f (List.replicate N 0) = g f' (List.replicate N 0) →
    ∀ B b, 1 ≤ B → B ≤ n → 1 ≤ b → b ≤ 8 → (B, b) ∉ exc →
      bitSet f (B, b) = bitSet f' (B, b)

/-! ## Text -/

theorem text_cons (s : List Byte) (ss : List (List Byte)) :
    text (s :: ss) = s ++ 0x0A :: text ss := by
  simp [text]

theorem append_sep_inj (c : Byte) : ∀ (s t x y : List Byte), c ∉ s → c ∉ t →
    s ++ c :: x = t ++ c :: y → s = t ∧ x = y := by
  intro s
  induction s with
  | nil =>
    intro t x y _ ht h
    cases t with
    | nil => simpa using h
    | cons a t => simp at h; exact absurd h.1 (by rintro rfl; simp at ht)
  | cons a s ih =>
    intro t x y hs ht h
    cases t with
    | nil => simp at h; exact absurd h.1 (by rintro rfl; simp at hs)
    | cons b t =>
      simp only [List.cons_append, List.cons.injEq] at h
      simp only [List.mem_cons, not_or] at hs ht
      obtain ⟨e1, e2⟩ := ih t x y hs.2 ht.2 h.2
      exact ⟨by rw [h.1, e1], e2⟩

/-- Lines without newlines can be read back from the text. -/
theorem text_inj : ∀ (ss tt : List (List Byte)), (∀ s ∈ ss, (0x0A : Byte) ∉ s) →
    (∀ t ∈ tt, (0x0A : Byte) ∉ t) → text ss = text tt → ss = tt := by
  intro ss
  induction ss with
  | nil =>
    intro tt _ _ h
    cases tt with
    | nil => rfl
    | cons t tt => rw [text_cons] at h; simp [text] at h
  | cons s ss ih =>
    intro tt hs ht h
    cases tt with
    | nil => rw [text_cons] at h; simp [text] at h
    | cons t tt =>
      rw [text_cons, text_cons] at h
      obtain ⟨e1, e2⟩ := append_sep_inj 0x0A s t _ _ (hs s (by simp)) (ht t (by simp)) h
      rw [e1, ih tt (fun x hx => hs x (by simp [hx])) (fun x hx => ht x (by simp [hx])) e2]

theorem mem_text {b : Byte} {ss : List (List Byte)} (h : b ∈ text ss) :
    b = 0x0A ∨ ∃ s ∈ ss, b ∈ s := by
  simp only [text, List.mem_flatten, List.mem_map] at h
  obtain ⟨l, ⟨s, hs, rfl⟩, hb⟩ := h
  simp only [List.mem_append, List.mem_singleton] at hb
  rcases hb with hb | hb
  · exact .inr ⟨s, hs, hb⟩
  · exact .inl hb

/-! ## Rows -/

/-- The texts of a row. -/
def Row.texts : Row → List (List Byte)
  | .set _ s => [s]
  | .clear _ s => [s]
  | .either _ _ s u => [s, u]
  | .value _ _ _ vals other => (vals.map Prod.snd ++ [other]).filterMap id

theorem Row.shown_texts (f : List Byte) (r : Row) :
    r.shown f = [] ∨ ∃ s ∈ r.texts, r.shown f = [s] := by
  cases r with
  | set bs s => simp only [Row.shown, Row.texts]; split <;> simp
  | clear bs s => simp only [Row.shown, Row.texts]; split <;> simp
  | either B b s u => simp only [Row.shown, Row.texts]; split <;> simp
  | value B hi lo vals other =>
    simp only [Row.shown, Row.texts]
    cases h : valText vals other (bitsVal f B hi lo) with
    | none => simp
    | some s =>
      right
      refine ⟨s, ?_, rfl⟩
      simp only [List.mem_filterMap, id]
      refine ⟨some s, ?_, rfl⟩
      rcases valText_mem vals other (bitsVal f B hi lo) with e | ⟨v, hv, e⟩
      · rw [← e, h]; simp
      · rw [h] at e
        simp only [List.mem_append, List.mem_map]
        exact .inl ⟨v, hv, e⟩

theorem Row.mem_texts {f : List Byte} {r : Row} {s : List Byte} (h : s ∈ r.shown f) :
    s ∈ r.texts := by
  rcases r.shown_texts f with e | ⟨t, ht, e⟩
  · rw [e] at h; cases h
  · rw [e, List.mem_singleton] at h; rw [h]; exact ht

/-- A text as one number. -/
def num (s : List Byte) : Nat := s.foldr (fun b n => b.toNat + 256 * n) 0

/-- No text of `r` is a text of one of `rows`. -/
def apart (r : Row) (rows : List Row) : Bool :=
  rows.all fun r' => r'.texts.all fun s => r.texts.all fun t => !(Nat.beq (num s) (num t))

theorem shown_apart (r : Row) (f : List Byte) : ∀ rows, apart r rows = true →
    (shown rows f).filter (fun s => r.texts.contains s) = [] := by
  intro rows h
  rw [List.filter_eq_nil_iff]
  intro s hs hc
  simp only [shown, List.mem_flatMap] at hs
  obtain ⟨r', hr', hs⟩ := hs
  simp only [apart, List.all_eq_true] at h
  have := h r' hr' s (Row.mem_texts hs) s (by simpa using hc)
  simp at this

theorem shown_self (r : Row) (f : List Byte) :
    (r.shown f).filter (fun s => r.texts.contains s) = r.shown f := by
  rw [List.filter_eq_self]
  intro s hs
  simpa using Row.mem_texts hs

/-- What a row shows can be read back from what the table shows. -/
theorem shown_filter (pre post : List Row) (r : Row) (f : List Byte)
    (h1 : apart r pre = true) (h2 : apart r post = true) :
    (shown (pre ++ r :: post) f).filter (fun s => r.texts.contains s) = r.shown f := by
  have e : shown (pre ++ r :: post) f = shown pre f ++ (r.shown f ++ shown post f) := by
    simp [shown]
  rw [e, List.filter_append, List.filter_append, shown_apart r f pre h1, shown_apart r f post h2,
    shown_self]
  simp

/-- Room for all texts of a table. -/
def room (rows : List Row) : Nat := (rows.map fun r => (r.texts.map fun s => s.length + 1).sum).sum

theorem mem_le_sum {l : List Nat} {x : Nat} (h : x ∈ l) : x ≤ l.sum := by
  induction l with
  | nil => cases h
  | cons a l ih =>
    rw [List.sum_cons]
    rcases List.mem_cons.1 h with rfl | h
    · omega
    · have := ih h; omega

theorem text_room (f : List Byte) : ∀ rows : List Row, (text (shown rows f)).length ≤ room rows := by
  intro rows
  induction rows with
  | nil => simp [shown, text]
  | cons r rest ih =>
    have e : text (shown (r :: rest) f) = text (r.shown f) ++ text (shown rest f) := by
      simp [shown, text]
    have hr : (text (r.shown f)).length ≤ (r.texts.map fun s => s.length + 1).sum := by
      rcases r.shown_texts f with h | ⟨s, hs, h⟩
      · rw [h]; simp [text]
      · rw [h]
        have := mem_le_sum (List.mem_map.2 ⟨s, hs, rfl⟩ : s.length + 1 ∈ r.texts.map fun s => s.length + 1)
        simpa [text] using this
    rw [e, List.length_append]
    simp only [room, List.map_cons, List.sum_cons] at ih ⊢
    omega

/-- No text has a NUL or a newline. -/
def clean (rows : List Row) : Bool :=
  rows.all fun r => r.texts.all fun s => !s.contains 0 && !s.contains 0x0A

theorem clean_mem {rows : List Row} {f : List Byte} (h : clean rows = true) {s : List Byte}
    (hs : s ∈ shown rows f) : (0 : Byte) ∉ s ∧ (0x0A : Byte) ∉ s := by
  simp only [shown, List.mem_flatMap] at hs
  obtain ⟨r, hr, hs⟩ := hs
  simp only [clean, List.all_eq_true, Bool.and_eq_true, Bool.not_eq_true',
    List.contains_eq_mem, decide_eq_false_iff_not] at h
  exact h r hr s (Row.mem_texts hs)

/-- The output in a zeroed buffer. -/
theorem zero_out {g : List Byte → List Byte → C (Int × List Byte)} {n : Nat} {rows : List Row}
    (hd : Describes g n (shown rows)) (hroom : room rows < 4096) (f : List Byte) (N : Nat)
    (hf : f.length = n) (hN : 4096 ≤ N) :
    g f (List.replicate N 0) = .ok (0, strOver (text (shown rows f)) (List.replicate N 0)) := by
  have ht := text_room f rows
  obtain ⟨s, e, -, h1, -, h2⟩ := hd.2 f (List.replicate N 0)
    (List.ne_nil_of_length_pos (by simp; omega)) hf
  rw [e]
  by_cases h : shown rows f = []
  · rw [h1 (.inl h), h]
    obtain ⟨M, rfl⟩ : ∃ M, N = M + 1 := ⟨N - 1, by omega⟩
    simp [text, strOver, List.replicate_succ]
  · rw [h2 h (by simp; omega)]

/-- The lines can be read back from the output. -/
theorem lines_eq {g : List Byte → List Byte → C (Int × List Byte)} {n : Nat} {rows : List Row}
    (hd : Describes g n (shown rows)) (hroom : room rows < 4096) (hclean : clean rows = true)
    (f f' : List Byte) (N : Nat) (hf : f.length = n) (hf' : f'.length = n) (hN : 4096 ≤ N)
    (h : g f (List.replicate N 0) = g f' (List.replicate N 0)) :
    shown rows f = shown rows f' := by
  rw [zero_out hd hroom f N hf hN, zero_out hd hroom f' N hf' hN] at h
  have h0 : ∀ f, (0 : Byte) ∉ text (shown rows f) := by
    intro f hm
    rcases mem_text hm with h | ⟨s, hs, hb⟩
    · exact absurd h (by decide)
    · exact (clean_mem hclean hs).1 hb
  have e := (Prod.mk.inj (Except.ok.inj h)).2
  rw [strOver, strOver] at e
  exact text_inj _ _ (fun s hs => (clean_mem hclean hs).2) (fun s hs => (clean_mem hclean hs).2)
    (append_sep_inj 0 _ _ _ _ (h0 f) (h0 f') e).1

/-- The row at some place of the table is told apart from the other rows and satisfies `p`. -/
def someRow (rows : List Row) (p : Row → Bool) : Bool :=
  (List.range rows.length).any fun k =>
    match rows[k]? with
    | some r => p r && apart r (rows.take k) && apart r (rows.drop (k + 1))
    | none => false

theorem someRow_spec (rows : List Row) (p : Row → Bool) (h : someRow rows p = true) :
    ∃ r, p r = true ∧ ∀ f f', shown rows f = shown rows f' → r.shown f = r.shown f' := by
  simp only [someRow, List.any_eq_true, List.mem_range] at h
  obtain ⟨k, hk, h⟩ := h
  rw [List.getElem?_eq_getElem hk] at h
  simp only [Bool.and_eq_true] at h
  refine ⟨rows[k], h.1.1, fun f f' e => ?_⟩
  have hs : rows = rows.take k ++ rows[k] :: rows.drop (k + 1) := by
    rw [← List.drop_eq_getElem_cons hk, List.take_append_drop]
  have h1 := shown_filter _ _ rows[k] f h.1.2 h.2
  have h2 := shown_filter _ _ rows[k] f' h.1.2 h.2
  rw [← hs] at h1 h2
  rw [← h1, ← h2, e]

/-- A row which shows exactly whether a bit of the group is set. -/
def tells (grp : List (Nat × Nat)) : Row → Bool
  | .set bs _ => bs == grp
  | .clear bs _ => bs == grp
  | .either B b s u => [(B, b)] == grp && s != u
  | .value .. => false

theorem tells_spec (grp : List (Nat × Nat)) (r : Row) (h : tells grp r = true) (f f' : List Byte)
    (e : r.shown f = r.shown f') : grp.any (bitSet f) = grp.any (bitSet f') := by
  cases r with
  | set bs s =>
    simp only [tells, beq_iff_eq] at h
    subst h
    simp only [Row.shown] at e
    cases h1 : bs.any (bitSet f) <;> cases h2 : bs.any (bitSet f') <;> simp [h1, h2] at e ⊢
  | clear bs s =>
    simp only [tells, beq_iff_eq] at h
    subst h
    simp only [Row.shown] at e
    cases h1 : bs.any (bitSet f) <;> cases h2 : bs.any (bitSet f') <;> simp [h1, h2] at e ⊢
  | either B b s u =>
    simp only [tells, Bool.and_eq_true, beq_iff_eq, bne_iff_ne] at h
    obtain ⟨h, hne⟩ := h
    subst h
    simp only [Row.shown] at e
    cases h1 : bitSet f (B, b) <;> cases h2 : bitSet f' (B, b) <;> simp [h1, h2] at e ⊢
    · exact absurd e.symm hne
    · exact absurd e hne
  | value B hi lo vals other => simp [tells] at h

/-- All bits of a field of `n` bytes. -/
def allBits (n : Nat) : List (Nat × Nat) := (List.range n).flatMap fun i => bits (i + 1) 8 1

theorem mem_allBits {n B b : Nat} (h1 : 1 ≤ B) (h2 : B ≤ n) (h3 : 1 ≤ b) (h4 : b ≤ 8) :
    (B, b) ∈ allBits n := by
  simp only [allBits, List.mem_flatMap, List.mem_range, bits, List.mem_map]
  exact ⟨B - 1, by omega, 8 - b, by omega, by
    rw [show B - 1 + 1 = B by omega, show 8 - (8 - b) = b by omega]⟩

/-- Every bit outside `exc` has a row of its own, told apart from all others. -/
def ownRows (n : Nat) (rows : List Row) (exc : List (Nat × Nat)) : Bool :=
  (allBits n).all fun q => exc.contains q || someRow rows (tells [q])

theorem distinguishesBut_of {g : List Byte → List Byte → C (Int × List Byte)} {n : Nat}
    {rows : List Row} {exc : List (Nat × Nat)}
    (hd : Describes g n (shown rows)) (hroom : room rows < 4096) (hclean : clean rows = true)
    (hown : ownRows n rows exc = true) : DistinguishesBut g n exc := by
  intro f f' N hf hf' hN h B b h1 h2 h3 h4 hex
  have e := lines_eq hd hroom hclean f f' N hf hf' hN h
  simp only [ownRows, List.all_eq_true, Bool.or_eq_true] at hown
  rcases hown (B, b) (mem_allBits h1 h2 h3 h4) with hc | hc
  · exact absurd (by simpa using hc) hex
  · obtain ⟨r, hr, hs⟩ := someRow_spec rows _ hc
    simpa using tells_spec [(B, b)] r hr f f' (hs f f' e)

theorem distinguishes_of {g : List Byte → List Byte → C (Int × List Byte)} {n : Nat}
    {rows : List Row} {reserved : List (List (Nat × Nat))}
    (hd : Describes g n (shown rows)) (hroom : room rows < 4096) (hclean : clean rows = true)
    (hown : ownRows n rows reserved.flatten = true)
    (hgrp : (reserved.all fun grp => someRow rows (tells grp)) = true) :
    Distinguishes g n reserved := by
  intro f f' N hf hf' hN h
  refine ⟨fun B b h1 h2 h3 h4 hex => ?_, fun grp hg => ?_⟩
  · refine distinguishesBut_of hd hroom hclean hown f f' N hf hf' hN h B b h1 h2 h3 h4 ?_
    intro hm
    obtain ⟨grp, hg, hq⟩ := List.mem_flatten.1 hm
    exact hex grp hg hq
  · have e := lines_eq hd hroom hclean f f' N hf hf' hN h
    simp only [List.all_eq_true] at hgrp
    obtain ⟨r, hr, hs⟩ := someRow_spec rows _ (hgrp grp hg)
    exact tells_spec grp r hr f f' (hs f f' e)

/-! ## C71 -/

/-- **C71** (Terminal Verification Results).  Only the bits reserved for contactless are shown
together. -/
theorem C71_tvr : Distinguishes tvrList 5 [[(5, 4), (5, 1)]] :=
  distinguishes_of C70_tvr_partial (by decide +kernel) (by decide +kernel) (by decide +kernel)
    (by decide +kernel)

/-- **C71** (Transaction Status Information). -/
theorem C71_tsi : Distinguishes tsiList 2 [bits 1 2 1 ++ bits 2 8 1] :=
  distinguishes_of C70_tsi_partial (by decide +kernel) (by decide +kernel) (by decide +kernel)
    (by decide +kernel)

/-- **C71** (Application Interchange Profile). -/
theorem C71_aip : Distinguishes aipList 2 [bits 2 5 2] :=
  distinguishes_of C70_aip_partial (by decide +kernel) (by decide +kernel) (by decide +kernel)
    (by decide +kernel)

/-- **C71** (Application Usage Control). -/
theorem C71_auc : Distinguishes aucList 2 [bits 2 6 1] :=
  distinguishes_of C70_auc_partial (by decide +kernel) (by decide +kernel) (by decide +kernel)
    (by decide +kernel)

/-- **C71** (Card Transaction Qualifiers). -/
theorem C71_ctq : Distinguishes ctqList 2 [bits 2 6 1] :=
  distinguishes_of C70_ctq_partial (by decide +kernel) (by decide +kernel) (by decide +kernel)
    (by decide +kernel)

/-- **C71** (Terminal Risk Management Data). -/
theorem C71_trmd : Distinguishes trmdList 8
    [[(2, 1)] ++ bits 3 5 1 ++ bits 4 6 1 ++ bits 5 8 1 ++ bits 6 8 1 ++ bits 7 8 1 ++
      bits 8 8 1] :=
  distinguishes_of C70_trmd_partial (by decide +kernel) (by decide +kernel) (by decide +kernel)
    (by decide +kernel)

/-- **C71** (Terminal Capabilities). -/
theorem C71_term_caps : Distinguishes termCapsList 3 [bits 1 5 1, [(3, 5), (3, 2), (3, 1)]] :=
  distinguishes_of C72_term_caps (by decide +kernel) (by decide +kernel) (by decide +kernel)
    (by decide +kernel)

/-- **C71** (Additional Terminal Capabilities). -/
theorem C71_addl_term_caps :
    Distinguishes addlTermCapsList 5 [bits 2 7 1, bits 3 4 1, bits 4 4 3] :=
  distinguishes_of C72_addl_term_caps (by decide +kernel) (by decide +kernel) (by decide +kernel)
    (by decide +kernel)

/-- **C71** (Terminal Transaction Qualifiers).  The reserved bits share one text. -/
theorem C71_ttq : DistinguishesBut ttqList 4
    ([(1, 7)] ++ bits 2 5 1 ++ bits 3 6 5 ++ bits 3 3 1 ++ bits 4 7 1) :=
  distinguishesBut_of C72_ttq (by decide +kernel) (by decide +kernel) (by decide +kernel)

/-- **C71** (American Express Enhanced Contactless Reader Capabilities).  The reserved bits
share one text; the kernel version in bits 3 to 1 of byte 4 is not covered here. -/
theorem C71_amex_enh : DistinguishesBut amexEnhList 4
    (bits 1 2 1 ++ bits 2 4 1 ++ bits 3 6 1 ++ bits 4 5 1) :=
  distinguishesBut_of C72_amex_enh (by decide +kernel) (by decide +kernel) (by decide +kernel)

/-- Two fields which differ in one named bit, and two which differ only in reserved bits. -/
example : bitSet [0x80, 0, 0, 0, 0] (1, 8) = true ∧ bitSet [0, 0, 0, 0, 0] (1, 8) = false := by
  decide

example : shown tvrRows [0, 0, 0, 0, 1] = shown tvrRows [0, 0, 0, 0, 8] := by decide +kernel

end Verif.Bits
