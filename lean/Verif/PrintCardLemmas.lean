import Verif.PrintCard
import Verif.PrintCardSpec
import Verif.PrintEmvLemmas

/-! # Lemmas for the listings of an ATR and of status words -/

set_option autoImplicit false

namespace Verif.PrintCard
open Verif Atr AtrSpec AtrStr IsoStr Lists Formats PrintCardSpec Bits

/-! ## Short texts -/

/-- A text of at most `n` bytes without NUL. -/
def Short (n : Nat) (t : List Byte) : Prop := t.length ≤ n ∧ ∀ b ∈ t, b ≠ 0

instance (n : Nat) (t : List Byte) : Decidable (Short n t) := by unfold Short; infer_instance

theorem Short.mono {m n : Nat} {t : List Byte} (h : Short m t) (hle : m ≤ n) : Short n t :=
  ⟨Nat.le_trans h.1 hle, h.2⟩

theorem Short.append {m n : Nat} {s t : List Byte} (hs : Short m s) (ht : Short n t) :
    Short (m + n) (s ++ t) := by
  refine ⟨by rw [List.length_append]; have := hs.1; have := ht.1; omega, ?_⟩
  intro b hb
  rcases List.mem_append.mp hb with h | h
  · exact hs.2 b h
  · exact ht.2 b h

theorem short_decimal {n : Nat} (h : n < 2 ^ 32) : Short 10 (decimal n) :=
  ⟨decimal_length n h, decimal_ne_zero n⟩

theorem short_byte (b : Byte) : Short 10 (decimal b.toNat) :=
  short_decimal (by have := b.toNat_lt; omega)

theorem percentS_written (t str : List Byte) (h : Short 1023 t) (hl : str.length = 1024) :
    percentS (true, written t str) = .ok t := by
  have hne : str ≠ [] := by intro e; rw [e] at hl; simp at hl
  rw [percentS, if_pos rfl, written, if_neg hne, List.take_of_length_le (by have := h.1; omega)]
  exact Capdu.cstr_spec t _ h.2

theorem written_len (t str : List Byte) (hl : str.length = 1024) :
    (written t str).length = 1024 := by rw [written_length, hl]

theorem hexes_eq (v : List Byte) : hexes v = hexOf v := by
  induction v with
  | nil => rfl
  | cons b v ih =>
    have : hexes (b :: v) = hex02 b ++ hexes v := by simp [hexes]
    rw [this, ih, Iad.hex02_hexOf', ← Capdu.hexOf_append]
    rfl

/-! ## Interface bytes -/

theorem ifByte_eq (name : List Byte) (i : Nat) (byte : Option Byte)
    (f : List Byte → C (Bool × List Byte)) (words : List Byte) (hi : i ≤ 4)
    (hf : (byte ≠ none ∨ i ≤ 2) → Short 1023 words ∧ ∀ str, f str = .ok (true, written words str))
    (str : List Byte) (hl : str.length = 1024) :
    ∃ str', ifByte name i byte f str = .ok (optionalLine name i byte words, str') ∧
      str'.length = 1024 := by
  have hd := decU_spec i (by omega)
  cases byte with
  | some b =>
    obtain ⟨hs, h⟩ := hf (.inl (by simp))
    refine ⟨written words str, ?_, written_len _ _ hl⟩
    simp only [ifByte, h, bind_ok, percentS_written words str hs hl, hd, Iad.hex02_hexOf']
    simp [optionalLine, byteLine]
  | none =>
    unfold ifByte
    by_cases h3 : i < 3
    · obtain ⟨hs, h⟩ := hf (.inr (by omega))
      refine ⟨written words str, ?_, written_len _ _ hl⟩
      simp only [if_pos h3]
      rw [h, bind_ok, percentS_written words str hs hl, bind_ok, hd, optionalLine,
        if_pos ⟨rfl, by omega⟩]
    · refine ⟨str, ?_, hl⟩
      simp only [if_neg h3]
      rw [optionalLine, if_neg (by omega)]
      rfl

theorem tdByte_eq (i : Nat) (byte : Option Byte) (f : List Byte → C (Bool × List Byte))
    (words : List Byte) (hi : i ≤ 4)
    (hf : byte ≠ none → Short 1023 words ∧ ∀ str, f str = .ok (true, written words str))
    (str : List Byte) (hl : str.length = 1024) :
    ∃ str', tdByte i byte f str = .ok (byteLine txt!"TD" i byte words, str') ∧
      str'.length = 1024 := by
  cases byte with
  | some b =>
    obtain ⟨hs, h⟩ := hf (by simp)
    refine ⟨written words str, ?_, written_len _ _ hl⟩
    simp only [tdByte, h, bind_ok, percentS_written words str hs hl, decU_spec i (by omega : i < 2 ^ 32),
      Iad.hex02_hexOf']
    have e : txt!"  TD" = txt!"  " ++ txt!"TD" := by decide
    simp [byteLine, e]
  | none => exact ⟨str, rfl, hl⟩

/-- The factors looked up are those of the tables. -/
theorem factors_mem (atr : List Byte) (ts : Byte) (gs : List Link) (td : Option Byte)
    (info : Info) (h : HasChain atr ts gs td) (hp : parse atr = .ok (.ok info)) :
    (((ta gs 1).getD 0x11).toNat % 16, diFor gs) ∈ diTable ∧
    (((ta gs 1).getD 0x11).toNat / 16, (fiFor gs).1, (fiFor gs).2) ∈ fiTable := by
  obtain ⟨v1, v2, _⟩ := C46_values atr ts gs td info h hp
  have e1 : ∀ x ∈ diTable, diTable.lookup x.1 = some x.2 := by decide
  have e2 : ∀ x ∈ fiTable, fiTable.lookup x.1 = some x.2 := by decide
  have h1 := e1 _ v1
  have h2 := e2 _ v2
  simp only at h1 h2
  rw [diFor, fiFor, h1, h2]
  exact ⟨v1, v2⟩

theorem table_short : ∀ x ∈ diTable, ∀ y ∈ fiTable, x.2 ≤ 64 ∧ y.2.1 < 2 ^ 32 ∧ 372 ≤ y.2.1 ∧
    y.2.1 / x.2 < 2 ^ 32 ∧ y.2.2 / 10 < 2 ^ 32 ∧ y.2.2 % 10 < 2 ^ 32 ∧
    y.2.2 * 100000 / (y.2.1 / x.2) < 2 ^ 32 := by decide

theorem short_class : ∀ x : Byte, Short 100 (classText x) := by decide +kernel
theorem short_spu : ∀ x : Byte, Short 100 (spuWords x) := by decide +kernel
theorem short_mode : ∀ x : Byte, Short 100 (modeText (some x)) := by
  intro x
  have hb := x.toNat_lt
  have h1 : ∀ b : Bool, Short 9 (if b then txt!"immutable" else txt!"mutable") := by decide
  have h2 : ∀ b : Bool, Short 12 (if b then txt!" is implicit" else txt!"=Fi/Di") := by decide
  exact ((((((show Short 15 txt!"Specific mode (" by decide).append (h1 _)).append
    (show Short 6 txt!"); ETU" by decide)).append (h2 _)).append
    (show Short 13 txt!"; protocol T=" by decide)).append
    (short_decimal (by omega))).mono (by decide)

theorem short_vpp (o : Option Byte) : Short 100 (vppText o) := by
  cases o with
  | none => decide
  | some x =>
    have hb := x.toNat_lt
    unfold vppText
    simp only
    split
    · decide
    · have h1 : Short 10 (decimal (x.toNat % 32 * 1000)) := short_decimal (by omega)
      have h2 : Short 10 (decimal (match x.toNat / 32 % 4 with
          | 0 => 25
          | 1 => 50
          | _ => 100)) := by split <;> exact short_decimal (by decide)
      have h3 : Short (23 + 10 + 10 + 10 + 2) _ := ((((show Short 23 txt!"Vpp is connected; Vpp="
        by decide).append h1).append (show Short 10 txt!"mV; Ipp=" by decide)).append h2).append
        (show Short 2 txt!"mA" by decide)
      exact h3.mono (by decide)

theorem short_protocol (t : Fin 16) : Short 40 (protocolText t.val) := by
  have := t.isLt
  unfold protocolText
  split
  · decide
  · exact ((show Short 13 txt!"; Protocol T=" by decide).append
      (short_decimal (by omega))).mono (by decide)

theorem short_set (gs : List Link) (td : Option Byte) (i : Nat) (hi : i ≤ 5) :
    Short 100 (setText gs td i) := by
  have h : ∀ i ∈ List.range 6, ∀ a b c d : Bool, Short 100 (txt!"Y" ++ decimal i ++ txt!"=" ++
      listed txt!"," [(a, txt!"TA" ++ decimal i), (b, txt!"TB" ++ decimal i),
        (c, txt!"TC" ++ decimal i), (d, txt!"TD" ++ decimal i)]) := by
    intro i hi
    have e : decimal i = [UInt8.ofNat (0x30 + i)] := by
      have : ∀ i ∈ List.range 6, decU i = [UInt8.ofNat (0x30 + i)] := by decide +kernel
      rw [← decU_spec i (by rw [List.mem_range] at hi; omega)]
      exact this i hi
    rw [e]
    revert i
    decide +kernel
  exact h i (List.mem_range.mpr (by omega)) _ _ _ _

theorem taWords_eq (atr : List Byte) (ts : Byte) (gs : List Link) (td : Option Byte)
    (info : Info) (h : HasChain atr ts gs td) (hp : parse atr = .ok (.ok info)) (i : Nat)
    (h1 : 1 ≤ i) (h4 : i ≤ 4) (hx : ta gs i ≠ none ∨ i ≤ 2) :
    Short 1023 (taWords gs i) ∧
    ∀ str, taString info i str = .ok (true, written (taWords gs i) str) := by
  obtain ⟨m1, m2⟩ := factors_mem atr ts gs td info h hp
  obtain ⟨t1, t2, t3, t4, t5, t6, t7⟩ := table_short _ m1 _ m2
  simp only at t1 t2 t3 t4 t5 t6 t7
  by_cases i1 : i = 1
  · subst i1
    refine ⟨?_, fun str => by
      rw [C88_ta1 atr ts gs td info h hp _ _ _ m1 m2, taWords, if_pos rfl]⟩
    rw [taWords, if_pos rfl]
    exact (((((((((((show Short 3 txt!"Fi=" by decide).append (short_decimal t2)).append
      (show Short 5 txt!"; Di=" by decide)).append (short_decimal (by omega))).append
      (show Short 2 txt!"; " by decide)).append (short_decimal t4)).append
      (show Short 18 txt!" cycles/ETU @ max " by decide)).append (short_decimal t5)).append
      (show Short 1 txt!"." by decide)).append (short_decimal t6)).append
      (show Short 9 txt!"MHz; max " by decide)).append (short_decimal t7) |>.append
      (show Short 6 txt!" bit/s" by decide) |>.mono (by decide)
  by_cases i2 : i = 2
  · subst i2
    refine ⟨?_, fun str => by
      rw [C88_ta2 atr ts gs td info h hp, taWords, if_neg (by omega), if_pos rfl]⟩
    rw [taWords, if_neg (by omega), if_pos rfl]
    cases ta gs 2 with
    | none => decide
    | some x => exact (short_mode x).mono (by decide)
  · have hx : ta gs i ≠ none := by rcases hx with h | h; exact h; omega
    rw [ta] at hx
    cases hl : gs[i - 1]? with
    | none => rw [hl] at hx; exact absurd rfl hx
    | some l =>
      rw [hl] at hx
      obtain ⟨x, hx⟩ := Option.ne_none_iff_exists'.mp hx
      change l.a = some x at hx
      have hs := fun str => (C88_ta atr ts gs td info h hp i (by omega) str).2 l x hl hx
      simp only [taWords, if_neg i1, if_neg i2, hl]
      by_cases n15 : l.nib = 15
      · rw [if_pos n15]
        obtain ⟨y, hy⟩ := lastOf_isSome 15 gs (·.a) i (by omega) l hl n15 x hx
        refine ⟨(short_class _).mono (by decide), fun str => ?_⟩
        rw [(hs str).1 n15, hy]; rfl
      · rw [if_neg n15]
        by_cases n1 : l.nib = 1
        · rw [if_pos n1]
          obtain ⟨y, hy⟩ := lastOf_isSome 1 gs (·.a) i (by omega) l hl n1 x hx
          refine ⟨((show Short 5 txt!"IFSI=" by decide).append (short_byte _)).mono (by decide),
            fun str => ?_⟩
          rw [(hs str).2.1 n1, hy]; rfl
        · rw [if_neg n1]
          exact ⟨by decide, fun str => (hs str).2.2 n15 n1⟩

theorem tbWords_eq (atr : List Byte) (ts : Byte) (gs : List Link) (td : Option Byte)
    (info : Info) (h : HasChain atr ts gs td) (hp : parse atr = .ok (.ok info)) (i : Nat)
    (h1 : 1 ≤ i) (h4 : i ≤ 4) (hx : tb gs i ≠ none ∨ i ≤ 2) :
    Short 1023 (tbWords gs i) ∧
    ∀ str, tbString info i str = .ok (true, written (tbWords gs i) str) := by
  obtain ⟨m1, m2⟩ := factors_mem atr ts gs td info h hp
  obtain ⟨t1, t2, t3, _⟩ := table_short _ m1 _ m2
  simp only at t1 t2 t3
  by_cases i1 : i = 1
  · subst i1
    refine ⟨?_, fun str => by rw [C88_tb1 atr ts gs td info h hp, tbWords, if_pos rfl]⟩
    rw [tbWords, if_pos rfl]
    exact (short_vpp _).mono (by decide)
  by_cases i2 : i = 2
  · subst i2
    refine ⟨?_, fun str => by
      rw [C88_tb2 atr ts gs td info h hp, tbWords, if_neg (by omega), if_pos rfl]
      rfl⟩
    rw [tbWords, if_neg (by omega), if_pos rfl]
    split
    · rename_i x y _ _
      have hb := y.toNat_lt
      exact (((show Short 4 txt!"Vpp=" by decide).append (short_decimal (by omega))).append
        (show Short 2 txt!"mV" by decide)).mono (by decide)
    · decide
  · have hx : tb gs i ≠ none := by rcases hx with h | h; exact h; omega
    rw [tb] at hx
    cases hl : gs[i - 1]? with
    | none => rw [hl] at hx; exact absurd rfl hx
    | some l =>
      rw [hl] at hx
      obtain ⟨x, hx⟩ := Option.ne_none_iff_exists'.mp hx
      change l.b = some x at hx
      have hs := fun str =>
        (C88_tb atr ts gs td info h hp i (by omega) _ _ _ m1 m2 str).2 l x hl hx
      simp only [tbWords, if_neg i1, if_neg i2, hl]
      by_cases n15 : l.nib = 15
      · rw [if_pos n15]
        obtain ⟨y, hy⟩ := lastOf_isSome 15 gs (·.b) i (by omega) l hl n15 x hx
        refine ⟨(short_spu _).mono (by decide), fun str => ?_⟩
        rw [(hs str).1 n15, hy]; rfl
      · rw [if_neg n15]
        by_cases n1 : l.nib = 1
        · rw [if_pos n1]
          obtain ⟨y, hy⟩ := lastOf_isSome 1 gs (·.b) i (by omega) l hl n1 x hx
          refine ⟨?_, fun str => ?_⟩
          · rw [hy]
            have hp15 : 2 ^ (((some y).getD 0).toNat % 16) ≤ 2 ^ 15 :=
              Nat.pow_le_pow_right (by decide) (by omega)
            have hq : 2 ^ (((some y).getD 0).toNat / 16) * 960 * 372 * diFor gs % 2 ^ 32 /
                (fiFor gs).1 ≤ 2 ^ 32 / 372 := by
              refine Nat.le_trans (Nat.div_le_div_left t3 (by decide)) ?_
              exact Nat.div_le_div_right (Nat.le_of_lt (Nat.mod_lt _ (by decide)))
            exact ((((show Short 4 txt!"CWT=" by decide).append
              (short_decimal (by omega))).append (show Short 6 txt!"; BWT=" by decide)).append
              (short_decimal (by omega))).mono (by decide)
          · have := (hs str).2.1 n1
            rw [hy] at this
            rw [hy]
            exact this
        · rw [if_neg n1]
          exact ⟨by decide, fun str => (hs str).2.2 n15 n1⟩

theorem tcWords_eq (atr : List Byte) (ts : Byte) (gs : List Link) (td : Option Byte)
    (info : Info) (h : HasChain atr ts gs td) (hp : parse atr = .ok (.ok info)) (i : Nat)
    (h1 : 1 ≤ i) (h4 : i ≤ 4) (hx : tc gs i ≠ none ∨ i ≤ 2) :
    Short 1023 (tcWords gs i) ∧
    ∀ str, tcString info i str = .ok (true, written (tcWords gs i) str) := by
  obtain ⟨m1, m2⟩ := factors_mem atr ts gs td info h hp
  obtain ⟨t1, _⟩ := table_short _ m1 _ m2
  simp only at t1
  by_cases i1 : i = 1
  · subst i1
    refine ⟨?_, fun str => by rw [C88_tc1 atr ts gs td info h hp, tcWords, if_pos rfl]⟩
    rw [tcWords, if_pos rfl]
    have hb := ((tc gs 1).getD 0).toNat_lt
    refine ((((show Short 2 txt!"N=" by decide).append (short_byte _)).append
      (show Short 5 txt!"; GT=" by decide)).append (short_decimal ?_)).mono (by decide)
    split
    · omega
    · split <;> decide
  by_cases i2 : i = 2
  · subst i2
    refine ⟨?_, fun str => by
      rw [C88_tc2 atr ts gs td info h hp _ m1, tcWords, if_neg (by omega), if_pos rfl]⟩
    rw [tcWords, if_neg (by omega), if_pos rfl]
    have hb := ((tc gs 2).getD 0x0A).toNat_lt
    refine ((((show Short 3 txt!"WI=" by decide).append (short_byte _)).append
      (show Short 5 txt!"; WT=" by decide)).append (short_decimal ?_)).mono (by decide)
    have : ((tc gs 2).getD 0x0A).toNat * 960 * diFor gs ≤ 256 * 960 * 64 :=
      Nat.mul_le_mul (Nat.mul_le_mul_right 960 (by omega)) t1
    omega
  · have hx : tc gs i ≠ none := by rcases hx with h | h; exact h; omega
    rw [tc] at hx
    cases hl : gs[i - 1]? with
    | none => rw [hl] at hx; exact absurd rfl hx
    | some l =>
      rw [hl] at hx
      obtain ⟨x, hx⟩ := Option.ne_none_iff_exists'.mp hx
      change l.c = some x at hx
      have hs := fun str => (C88_tc atr ts gs td info h hp i (by omega) str).2 l x hl hx
      simp only [tcWords, if_neg i1, if_neg i2, hl]
      by_cases n1 : l.nib = 1
      · rw [if_pos n1]
        obtain ⟨y, hy⟩ := lastOf_isSome 1 gs (·.c) i (by omega) l hl n1 x hx
        refine ⟨by split <;> decide, fun str => ?_⟩
        rw [(hs str).1 n1, hy]; rfl
      · rw [if_neg n1]
        exact ⟨by decide, fun str => (hs str).2 n1⟩

theorem tdWords_eq (atr : List Byte) (ts : Byte) (gs : List Link)
    (info : Info) (h : HasChain atr ts gs none) (hp : parse atr = .ok (.ok info)) (i : Nat)
    (h1 : 1 ≤ i) (h4 : i ≤ 4) (hx : Atr.tdByte gs none i ≠ none) :
    Short 1023 (tdWords gs i) ∧
    ∀ str, tdString info i str = .ok (true, written (tdWords gs i) str) := by
  have hl4 : gs.length ≤ 4 := h.2.2.2.1
  cases hl : gs[i]? with
  | none => rw [Atr.tdByte, hl] at hx; simp at hx
  | some l =>
    have hi3 : i ≤ 3 := by
      rcases Nat.lt_or_ge i gs.length with h | h
      · omega
      · rw [List.getElem?_eq_none h] at hl; cases hl
    have ht : tdT gs i = some l.nib := by rw [tdT, hl]; rfl
    rw [tdWords, ht]
    exact ⟨((short_set gs none (i + 1) (by omega)).append (short_protocol _)).mono (by decide),
      fun str => C87_td atr ts gs none info h hp i h1 hi3 l.nib ht str⟩

theorem ifSet_eq (atr : List Byte) (ts : Byte) (gs : List Link)
    (info : Info) (h : HasChain atr ts gs none) (hp : parse atr = .ok (.ok info)) (i : Nat)
    (h1 : 1 ≤ i) (h4 : i ≤ 4) (str : List Byte) (hl : str.length = 1024) :
    ∃ str', ifSet info i str = .ok (setLines gs i, str') ∧ str'.length = 1024 := by
  obtain ⟨d1, d2, d3, d4⟩ := C43_reports atr ts gs none info h hp i h1
  obtain ⟨s1, e1, l1⟩ := ifByte_eq txt!"TA" i (ta gs i) (taString info i) (taWords gs i) h4
    (taWords_eq atr ts gs none info h hp i h1 h4) str hl
  obtain ⟨s2, e2, l2⟩ := ifByte_eq txt!"TB" i (tb gs i) (tbString info i) (tbWords gs i) h4
    (tbWords_eq atr ts gs none info h hp i h1 h4) s1 l1
  obtain ⟨s3, e3, l3⟩ := ifByte_eq txt!"TC" i (tc gs i) (tcString info i) (tcWords gs i) h4
    (tcWords_eq atr ts gs none info h hp i h1 h4) s2 l2
  obtain ⟨s4, e4, l4⟩ := tdByte_eq i (Atr.tdByte gs none i) (tdString info i) (tdWords gs i) h4
    (tdWords_eq atr ts gs info h hp i h1 h4) s3 l3
  refine ⟨s4, ?_, l4⟩
  unfold ifSet
  rw [d1, bind_ok, d2, bind_ok, d3, bind_ok, d4, bind_ok]
  simp only [e1, e2, e3, e4, bind_ok]
  unfold setLines
  have hs : (if (ta gs i).isSome = true ∨ (tb gs i).isSome = true ∨ (tc gs i).isSome = true ∨
      (Atr.tdByte gs none i).isSome = true ∨ i < 3 then dashes else []) =
      (if i ≤ 2 ∨ ta gs i ≠ none ∨ tb gs i ≠ none ∨ tc gs i ≠ none ∨
        Atr.tdByte gs none i ≠ none then rule else []) := by
    have e : ∀ o : Option Byte, o.isSome = true ↔ o ≠ none := by
      intro o; cases o <;> simp
    simp only [e]
    by_cases hc : i ≤ 2 ∨ ta gs i ≠ none ∨ tb gs i ≠ none ∨ tc gs i ≠ none ∨
        Atr.tdByte gs none i ≠ none
    · rw [if_pos hc, if_pos (by
        rcases hc with h | h | h | h | h
        · exact .inr (.inr (.inr (.inr (by omega))))
        · exact .inl h
        · exact .inr (.inl h)
        · exact .inr (.inr (.inl h))
        · exact .inr (.inr (.inr (.inl h))))]
      rfl
    · rw [if_neg hc, if_neg (by
        rintro (h | h | h | h | h)
        · exact hc (.inr (.inl h))
        · exact hc (.inr (.inr (.inl h)))
        · exact hc (.inr (.inr (.inr (.inl h))))
        · exact hc (.inr (.inr (.inr (.inr h))))
        · exact hc (.inl (by omega)))]
  rw [hs]

theorem ifSets_eq (atr : List Byte) (ts : Byte) (gs : List Link)
    (info : Info) (h : HasChain atr ts gs none) (hp : parse atr = .ok (.ok info))
    (str : List Byte) (hl : str.length = 1024) :
    ∃ str', ifSets info 4 1 str = .ok (setLines gs 1 ++ setLines gs 2 ++ setLines gs 3 ++
      setLines gs 4, str') ∧ str'.length = 1024 := by
  obtain ⟨s1, e1, l1⟩ := ifSet_eq atr ts gs info h hp 1 (by omega) (by omega) str hl
  obtain ⟨s2, e2, l2⟩ := ifSet_eq atr ts gs info h hp 2 (by omega) (by omega) s1 l1
  obtain ⟨s3, e3, l3⟩ := ifSet_eq atr ts gs info h hp 3 (by omega) (by omega) s2 l2
  obtain ⟨s4, e4, l4⟩ := ifSet_eq atr ts gs info h hp 4 (by omega) (by omega) s3 l3
  refine ⟨s4, ?_, l4⟩
  simp [ifSets, e1, e2, e3, e4, bind_ok, List.append_assoc]

/-! ## Lines below an object -/

/-- The texts a row may show. -/
def rowTexts : Row → List (List Byte)
  | .set _ s => [s]
  | .clear _ s => [s]
  | .either _ _ s u => [s, u]
  | .value _ _ _ vals other => vals.filterMap (·.2) ++ other.toList

theorem valText_mem (vals : List (Nat × Option (List Byte))) (other : Option (List Byte)) (n : Nat)
    (t : List Byte) (h : valText vals other n = some t) :
    t ∈ vals.filterMap (·.2) ++ other.toList := by
  induction vals with
  | nil => rw [valText] at h; simp [h]
  | cons v vals ih =>
    obtain ⟨k, s⟩ := v
    rw [valText] at h
    by_cases hn : n = k
    · rw [if_pos hn] at h
      subst h
      simp
    · rw [if_neg hn] at h
      have := ih h
      rw [List.mem_append] at this ⊢
      rcases this with h | h
      · left
        rw [List.mem_filterMap] at h ⊢
        obtain ⟨x, hx, he⟩ := h
        exact ⟨x, List.mem_cons_of_mem _ hx, he⟩
      · exact .inr h

theorem rowShown (f : List Byte) (r : Row) :
    r.shown f = [] ∨ ∃ t ∈ rowTexts r, r.shown f = [t] := by
  cases r with
  | set bs s => simp only [Row.shown, rowTexts]; split <;> simp
  | clear bs s => simp only [Row.shown, rowTexts]; split <;> simp
  | either byte bit s u => simp only [Row.shown, rowTexts]; split <;> simp
  | value byte hi lo vals other =>
    simp only [Row.shown, rowTexts]
    cases hv : valText vals other (bitsVal f byte hi lo) with
    | none => simp
    | some t => exact .inr ⟨t, valText_mem _ _ _ _ hv, rfl⟩

/-- At most `m` lines of at most `n` bytes each, none empty, without NUL and newline. -/
def Plain (m n : Nat) (ls : List (List Byte)) : Prop :=
  ls.length ≤ m ∧ ∀ l ∈ ls, l ≠ [] ∧ l.length ≤ n ∧ ∀ b ∈ l, b ≠ 0 ∧ b ≠ 0x0A

theorem Plain.append {a b n : Nat} {x y : List (List Byte)} (hx : Plain a n x) (hy : Plain b n y) :
    Plain (a + b) n (x ++ y) := by
  refine ⟨by rw [List.length_append]; have := hx.1; have := hy.1; omega, ?_⟩
  intro l hl
  rcases List.mem_append.mp hl with h | h
  · exact hx.2 l h
  · exact hy.2 l h

theorem Plain.nil (n : Nat) : Plain 0 n [] := ⟨by simp, by simp⟩

theorem Plain.mono {a b n : Nat} {x : List (List Byte)} (h : Plain a n x) (hle : a ≤ b) :
    Plain b n x := ⟨Nat.le_trans h.1 hle, h.2⟩

theorem plain_rows (rows : List Row) (f : List Byte) (n : Nat)
    (h : ∀ r ∈ rows, ∀ l ∈ rowTexts r, l ≠ [] ∧ l.length ≤ n ∧ ∀ b ∈ l, b ≠ 0 ∧ b ≠ 0x0A) :
    Plain rows.length n (shown rows f) := by
  induction rows with
  | nil => exact Plain.nil n
  | cons r rows ih =>
    have e : shown (r :: rows) f = r.shown f ++ shown rows f := by simp [shown]
    rw [e, List.length_cons, Nat.add_comm]
    refine Plain.append ?_ (ih (fun r hr => h r (List.mem_cons_of_mem _ hr)))
    rcases rowShown f r with hs | ⟨t, ht, hs⟩
    · rw [hs]; exact (Plain.nil n).mono (by decide)
    · rw [hs]
      refine ⟨by simp, ?_⟩
      intro l hl
      rw [List.mem_singleton] at hl
      subst hl
      exact h r List.mem_cons_self _ ht

theorem plain_text {m n : Nat} {ls : List (List Byte)} (h : Plain m n ls) :
    (StrList.text ls).length ≤ m * (n + 1) := by
  have : ∀ ls : List (List Byte), (∀ l ∈ ls, l.length ≤ n) →
      (StrList.text ls).length ≤ ls.length * (n + 1) := by
    intro ls
    induction ls with
    | nil => intro _; simp [StrList.text]
    | cons l ls ih =>
      intro hl
      have e : StrList.text (l :: ls) = l ++ [0x0A] ++ StrList.text ls := by simp [StrList.text]
      rw [e]
      have h1 := hl l List.mem_cons_self
      have h2 := ih (fun l hl' => hl l (List.mem_cons_of_mem _ hl'))
      simp only [List.length_append, List.length_cons, List.length_nil, Nat.add_mul]
      omega
  exact Nat.le_trans (this ls (fun l hl => (h.2 l hl).2.1)) (Nat.mul_le_mul_right _ h.1)

theorem tokens_line : ∀ (l rest cur : List Byte), (∀ b ∈ l, b ≠ 0x0A) → cur ++ l ≠ [] →
    Print.tokens (l ++ 0x0A :: rest) cur = (cur ++ l) :: Print.tokens rest [] := by
  intro l
  induction l with
  | nil =>
    intro rest cur _ h
    rw [List.append_nil] at h ⊢
    rw [List.nil_append, Print.tokens, if_pos rfl, if_neg h]
  | cons b l ih =>
    intro rest cur hb _
    rw [List.cons_append, Print.tokens, if_neg (hb b List.mem_cons_self),
      ih rest (cur ++ [b]) (fun b h => hb b (List.mem_cons_of_mem _ h)) (by simp)]
    simp

theorem tokens_text {m n : Nat} {ls : List (List Byte)} (h : Plain m n ls) :
    Print.tokens (StrList.text ls) [] = ls := by
  have : ∀ ls : List (List Byte), (∀ l ∈ ls, l ≠ [] ∧ ∀ b ∈ l, b ≠ 0x0A) →
      Print.tokens (StrList.text ls) [] = ls := by
    intro ls
    induction ls with
    | nil => intro _; simp [StrList.text, Print.tokens]
    | cons l ls ih =>
      intro hl
      have e : StrList.text (l :: ls) = l ++ 0x0A :: StrList.text ls := by simp [StrList.text]
      obtain ⟨h1, h2⟩ := hl l List.mem_cons_self
      rw [e, tokens_line l _ [] h2 (by simpa using h1),
        ih (fun l hl' => hl l (List.mem_cons_of_mem _ hl'))]
      rfl
  exact this ls (fun l hl => ⟨(h.2 l hl).1, fun b hb => ((h.2 l hl).2.2 b hb).2⟩)

theorem text_ne_zero {m n : Nat} {ls : List (List Byte)} (h : Plain m n ls) :
    ∀ b ∈ StrList.text ls, b ≠ 0 := by
  intro b hb
  simp only [StrList.text, List.mem_flatten, List.mem_map] at hb
  obtain ⟨x, ⟨l, hl, rfl⟩, hx⟩ := hb
  rw [List.mem_append] at hx
  rcases hx with hx | hx
  · exact ((h.2 l hl).2.2 b hx).1
  · rw [List.mem_singleton] at hx
    rw [hx]; decide

theorem note_eq {m n : Nat} {ls : List (List Byte)} (h : Plain m n ls) (str : List Byte) :
    objectNote 0 (strOver (StrList.text ls) str) =
      .ok (ls.map (fun l => txt!"    - " ++ l ++ [0x0A])).flatten := by
  rw [objectNote, if_pos rfl, Print.strList, strOver, Capdu.cstr_spec _ _ (text_ne_zero h), bind_ok,
    tokens_text h]
  rfl

theorem plain_service (f : List Byte) : Plain 6 90 (shown serviceRows f) :=
  plain_rows serviceRows f 90 (by decide +kernel)

theorem plain_unit (f : List Byte) : Plain 1 60 (unitRow f) := by
  unfold unitRow
  split
  · exact (Plain.nil _).mono (by decide)
  · refine ⟨by simp, ?_⟩
    intro l hl
    rw [List.mem_singleton] at hl
    subst hl
    have hv : bitsVal f 2 4 1 < 16 := by rw [bitsVal]; exact Nat.mod_lt _ (by decide)
    have h : ∀ k ∈ List.range 16, 2 ^ k / 2 < 2 ^ 32 ∧
        ∀ b ∈ decU (2 ^ k / 2), b ≠ 0x0A := by decide +kernel
    obtain ⟨h1, h2⟩ := h _ (List.mem_range.mpr hv)
    rw [decU_spec _ h1] at h2
    refine ⟨by simp [decimal_ne_nil], ?_, ?_⟩
    · have := decimal_length _ h1
      simp only [List.length_append]
      exact Nat.le_trans (Nat.add_le_add_right (Nat.add_le_add_left this _) _) (by decide)
    · intro b hb
      simp only [List.mem_append] at hb
      rcases hb with (hb | hb) | hb
      · revert b; decide
      · exact ⟨decimal_ne_zero _ b hb, h2 b hb⟩
      · revert b; decide

theorem plain_channel (f : List Byte) : Plain 1 60 (channelRow f) := by
  unfold channelRow
  split
  · refine ⟨by simp, ?_⟩
    decide +kernel
  · refine ⟨by simp, ?_⟩
    intro l hl
    rw [List.mem_singleton] at hl
    subst hl
    have hv : bitsVal f 3 3 1 < 8 := by rw [bitsVal]; exact Nat.mod_lt _ (by decide)
    have h : ∀ k ∈ List.range 8, ∀ b ∈ decU (k + 1), b ≠ 0x0A := by decide +kernel
    have h2 := h _ (List.mem_range.mpr hv)
    rw [decU_spec _ (by omega)] at h2
    refine ⟨by simp [decimal_ne_nil], ?_, ?_⟩
    · have := decimal_length (bitsVal f 3 3 1 + 1) (by omega)
      simp only [List.length_append]
      exact Nat.le_trans (Nat.add_le_add_left this _) (by decide)
    · intro b hb
      simp only [List.mem_append] at hb
      rcases hb with hb | hb
      · revert b; decide
      · exact ⟨decimal_ne_zero _ b hb, h2 b hb⟩

theorem plain_caps (f : List Byte) : Plain 16 60 (capsText f) := by
  unfold capsText
  have p1 := plain_rows capsRows1 f 60 (by decide +kernel)
  have p2 := plain_rows capsRows2 f 60 (by decide +kernel)
  have p3 := plain_rows capsRows3 f 60 (by decide +kernel)
  refine ((p1.append (b := 4) ?_).append (b := 4) ?_).mono (by decide)
  · split
    · exact (p2.append (plain_unit f)).mono (by decide)
    · exact (Plain.nil _).mono (by decide)
  · split
    · refine p3.append (b := 1) ?_
      split
      · exact (Plain.nil _).mono (by decide)
      · exact plain_channel f
    · exact (Plain.nil _).mono (by decide)

/-! ## Objects -/

theorem between_eq (v : List Byte) : between 0 v = txt!" ".intercalate (v.map (fun b => hexOf [b])) := by
  have h : ∀ (v : List Byte) (i : Nat), i ≠ 0 →
      between i v = (v.map (fun b => 0x20 :: hexOf [b])).flatten := by
    intro v
    induction v with
    | nil => intro i _; rfl
    | cons b v ih =>
      intro i hi
      rw [between, if_pos hi, ih (i + 1) (by omega), Iad.hex02_hexOf']
      simp
  cases v with
  | nil => rfl
  | cons b v =>
    rw [between, if_neg (by simp), h v 1 (by decide), Iad.hex02_hexOf']
    induction v generalizing b with
    | nil => simp [List.intercalate]
    | cons c v ih =>
      have := ih c
      simp only [List.map_cons, List.flatten_cons, List.nil_append, List.intercalate,
        List.intersperse] at this ⊢
      simp [this]
      rfl

theorem tag_text : ∀ b : Byte, b.toNat < 16 →
    compactTag b = (tagNames.lookup b.toNat).getD txt!"Unknown" ∧
    [hexDigit b.toNat] = (hexOf [b]).drop 1 := by decide +kernel

theorem tag_num : ∀ b : Byte, (b = 0x3 ↔ b.toNat = 3) ∧ (b = 0x7 ↔ b.toNat = 7) := by decide +kernel

/-- The list of an object and what is printed of it. -/
theorem object_eq (info : Info) (pos : Nat) (t : CompactTlv.Tlv) (rest str : List Byte)
    (hL : Listable t) (hb : info.buf.drop pos = t.value ++ rest) (hl : str.length = 1024) :
    ∃ c str', objectList info pos t str = .ok (c, str') ∧ str'.length = 1024 ∧
      objectNote c str' = .ok ((objectWords t).map (fun l => txt!"    - " ++ l ++ [0x0A])).flatten := by
  obtain ⟨tag, v⟩ := t
  obtain ⟨h3, h7⟩ := tag_num tag
  obtain ⟨L3, L7⟩ := hL
  simp only at L3 L7 hb
  unfold objectList objectWords
  simp only
  by_cases c3 : tag = 0x3
  · rw [if_pos c3, if_pos (h3.mp c3)]
    match v, L3 (h3.mp c3) with
    | b :: r, _ =>
      have hr : rd info.buf pos = .ok b := by
        have : info.buf[pos]? = some b := by
          rw [← List.head?_drop, hb]; rfl
        obtain ⟨hlt, he⟩ := List.getElem?_eq_some_iff.mp this
        rw [rd_eq hlt, he]
      obtain ⟨str', e, hlen, hfit, _⟩ := C86_service b str
      have hp := plain_service [b]
      have hne : shown serviceRows [b] ≠ [] := by
        intro h0
        have := C86_service_lines b
        rw [h0] at this; simp at this
      have ht := plain_text hp
      refine ⟨0, str', ?_, by omega, ?_⟩
      · rw [hr, bind_ok, e]
      · rw [hfit hne (by omega)]
        exact note_eq hp str
  · rw [if_neg c3, if_neg (fun h => c3 (h3.mpr h))]
    by_cases c7 : tag = 0x7
    · rw [if_pos c7, if_pos (h7.mp c7)]
      by_cases hv : v = []
      · subst hv
        refine ⟨-1, str, C86_no_capabilities str, hl, ?_⟩
        rfl
      · obtain ⟨str', e, hlen, hfit, _⟩ := C86_capabilities v str hv
        have hp := plain_caps v
        have ht := plain_text hp
        have hne := C86_lines v hv (L7 (h7.mp c7))
        by_cases hu : 3 ≤ v.length ∧ bitsVal v 3 5 4 = 3
        · rw [if_pos hu] at e ⊢
          exact ⟨-1, str', e, by omega, rfl⟩
        · rw [if_neg hu] at e ⊢
          rw [if_neg hv]
          refine ⟨0, str', e, by omega, ?_⟩
          rw [hfit hne (by omega)]
          exact note_eq hp str
    · rw [if_neg c7, if_neg (fun h => c7 (h7.mpr h))]
      exact ⟨-1, str, rfl, hl, rfl⟩

theorem objects_eq (info : Info) (ts : List CompactTlv.Tlv) : ∀ (fuel pos : Nat) (rest str : List Byte),
    (∀ t ∈ ts, CompactTlv.WF t ∧ Listable t) → ts.length < fuel →
    info.buf.drop pos = CompactTlv.encAll ts ++ rest → str.length = 1024 →
    objects info fuel pos (CompactTlv.encAll ts) str = .ok (ts.map objectLines).flatten := by
  induction ts with
  | nil =>
    intro fuel pos rest str _ hf _ _
    obtain ⟨n, rfl⟩ : ∃ n, fuel = n + 1 := ⟨fuel - 1, by omega⟩
    rfl
  | cons t ts ih =>
    intro fuel pos rest str hw hf hb hl
    obtain ⟨n, rfl⟩ : ∃ n, fuel = n + 1 := ⟨fuel - 1, by simp only [List.length_cons] at hf; omega⟩
    obtain ⟨hwt, hLt⟩ := hw t List.mem_cons_self
    have e : CompactTlv.encAll (t :: ts) = CompactTlv.enc t ++ CompactTlv.encAll ts := by
      simp [CompactTlv.encAll]
    rw [e, List.append_assoc] at hb
    have hb1 : info.buf.drop (pos + 1) = t.value ++ (CompactTlv.encAll ts ++ rest) := by
      rw [← List.drop_drop, hb, CompactTlv.enc]; rfl
    have hb2 : info.buf.drop (pos + (t.value.length + 1)) = CompactTlv.encAll ts ++ rest := by
      rw [← List.drop_drop, hb]
      have : t.value.length + 1 = (CompactTlv.enc t).length := by simp [CompactTlv.enc]
      rw [this, List.drop_left]
    obtain ⟨c, str', e1, l1, e2⟩ := object_eq info (pos + 1) t _ str hLt hb1 hl
    obtain ⟨n1, n2⟩ := tag_text t.tag hwt.1
    rw [e, objects, CompactTlv.itrNext_enc t hwt, bind_ok]
    simp only
    rw [e1, bind_ok]
    simp only
    rw [e2, bind_ok, ih n _ rest str' (fun t h => hw t (List.mem_cons_of_mem _ h))
      (by simp only [List.length_cons] at hf; omega) hb2 l1, bind_ok, List.map_cons,
      List.flatten_cons, objectLines, n1, n2, between_eq, decU_spec _ (by have := hwt.2; omega)]

end Verif.PrintCard
