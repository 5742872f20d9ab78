import Verif.AtrProps

/-!
# EMV ATR acceptance: property C47

`EmvRules` states the rules of EMV Level 1 Contact Interface 8.3 that `emv_atr_parse` adds
to those of ISO 7816-3, on the links of the interface byte chain.
-/

set_option autoImplicit false

namespace Verif.Atr

open Verif Verif.AtrSpec

/-- EMV Level 1 Contact Interface v1.0, 8.3.3, on interface bytes; `t1` and `t2` are the
protocol types of TD1 and TD2. -/
structure Rules (ta1 tc1 ta2 tc2 ta3 tb3 tc3 : Option Byte) (t1 t2 : Option Nat) : Prop where
  /-- 8.3.3.1, specific mode: TA1 is 11, 12 or 13 -/
  ta1s : ∀ a ∈ ta1, ta2.isSome → 0x11 ≤ a.toNat ∧ a.toNat ≤ 0x13
  /-- 8.3.3.1, negotiable mode: FI at least 1, DI at least 3 -/
  ta1n : ∀ a ∈ ta1, ta2 = none → 1 ≤ a.toNat / 16 ∧ 3 ≤ a.toNat % 16
  /-- 8.3.3.3 -/
  tc1r : ∀ c ∈ tc1, c.toNat = 0 ∨ c.toNat = 255
  /-- 8.3.3.4 -/
  td1r : ∀ t ∈ t1, t = 0 ∨ t = 1
  /-- 8.3.3.5: same protocol as TD1, and not implicit (bit 5) -/
  ta2r : ∀ a ∈ ta2, a.toNat % 16 = t1.getD 0 ∧ a.toNat / 16 % 2 = 0
  /-- 8.3.3.7 -/
  tc2r : ∀ c ∈ tc2, t1.getD 0 = 0 ∧ c.toNat = 10
  /-- 8.3.3.8 for T=0 -/
  td2r : t1.getD 0 = 0 → ∀ t ∈ t2, t = 15
  /-- 8.3.3.8 and 8.3.3.10 for T=1 -/
  td2p : t1.getD 0 = 1 → t2 = some 1
  /-- 8.3.3.9 -/
  ta3r : t1.getD 0 = 1 → ∀ a ∈ ta3, 16 ≤ a.toNat
  /-- 8.3.3.10: TB3 present, BWI at most 4, CWI at most 5 -/
  tb3r : t1.getD 0 = 1 → ∃ b, tb3 = some b ∧ b.toNat / 16 ≤ 4 ∧ b.toNat % 16 ≤ 5
  /-- 8.3.3.11 -/
  tc3r : t1.getD 0 = 1 → ∀ c ∈ tc3, c.toNat = 0

/-- The rules for a chain of interface bytes. -/
def EmvRules (gs : List Link) : Prop :=
  Rules (ta gs 1) (tc gs 1) (ta gs 2) (tc gs 2) (ta gs 3) (tb gs 3) (tc gs 3)
    ((tdT gs 1).map (·.val)) ((tdT gs 2).map (·.val))

/-! ## Lemmas -/

theorem byte_facts : ∀ a : Byte, (a < 0x11 ↔ a.toNat < 17) ∧ (a > 0x13 ↔ 19 < a.toNat) ∧
    (a &&& 0xF0 = 0 ↔ a.toNat / 16 = 0) ∧ (a &&& 0x0F < 3 ↔ a.toNat % 16 < 3) ∧
    (a &&& 0x10 = 0 ↔ a.toNat / 16 % 2 = 0) ∧ (a < 0x10 ↔ a.toNat < 16) ∧
    (a = 0x0A ↔ a.toNat = 10) ∧ (a = 0 ↔ a.toNat = 0) ∧ (a = 0xFF ↔ a.toNat = 255) ∧
    (a &&& 0x0F = 15 ↔ a.toNat % 16 = 15) ∧ (a &&& 0x0F = 1 ↔ a.toNat % 16 = 1) ∧
    ((a &&& 0x0F).toNat = a.toNat % 16) ∧ ((a >>> 4).toNat = a.toNat / 16) := by decide +kernel

theorem checks12_iff (ta1 tc1 td1 ta2 tc2 : Option Byte) (t : Nat) :
    emvChecks12 ta1 tc1 td1 ta2 tc2 = some t ↔
      t = (td1.map (·.toNat % 16)).getD 0 ∧ t ≤ 1 ∧
      (∀ a ∈ ta1, ta2.isSome → (∀ b ∈ ta2, b.toNat / 16 % 2 = 0) →
        0x11 ≤ a.toNat ∧ a.toNat ≤ 0x13) ∧
      (∀ a ∈ ta1, ta2 = none → 1 ≤ a.toNat / 16 ∧ 3 ≤ a.toNat % 16) ∧
      (∀ c ∈ tc1, c.toNat = 0 ∨ c.toNat = 255) ∧
      (∀ a ∈ ta2, a.toNat % 16 = t ∧ a.toNat / 16 % 2 = 0) ∧
      (∀ c ∈ tc2, t = 0 ∧ c.toNat = 10) := by
  unfold emvChecks12
  have ht : protoOf td1 = (td1.map (·.toNat % 16)).getD 0 := by
    cases td1 with
    | none => rfl
    | some d => exact (byte_facts d).2.2.2.2.2.2.2.2.2.2.2.1
  simp only [ht]
  generalize (td1.map (·.toNat % 16)).getD 0 = u
  have h1 : badTA1 ta1 ta2 = false ↔
      (∀ a ∈ ta1, ta2.isSome → (∀ b ∈ ta2, b.toNat / 16 % 2 = 0) →
        0x11 ≤ a.toNat ∧ a.toNat ≤ 0x13) ∧
      (∀ a ∈ ta1, ta2 = none → 1 ≤ a.toNat / 16 ∧ 3 ≤ a.toNat % 16) := by
    unfold badTA1
    cases ta1 with
    | none => simp
    | some a =>
      obtain ⟨f1, f2, f3, f4, f5, _⟩ := byte_facts a
      cases ta2 with
      | none => simp [f3, f4]; omega
      | some b =>
        obtain ⟨_, _, _, _, g5, _⟩ := byte_facts b
        simp [f1, f2, g5]
  have h2 : badTC1 tc1 = false ↔ (∀ c ∈ tc1, c.toNat = 0 ∨ c.toNat = 255) := by
    unfold badTC1
    cases tc1 with
    | none => simp
    | some c =>
      obtain ⟨_, _, _, _, _, _, _, f8, f9, _⟩ := byte_facts c
      simp only [ne_eq, f8, f9, Option.mem_def, Option.some.injEq, forall_eq', Bool.and_eq_false_iff,
        decide_eq_false_iff_not, Classical.not_not]
  have h3 : badTA2 ta2 u = false ↔ (∀ a ∈ ta2, a.toNat % 16 = u ∧ a.toNat / 16 % 2 = 0) := by
    unfold badTA2
    cases ta2 with
    | none => simp
    | some c =>
      obtain ⟨_, _, _, _, f5, _, _, _, _, _, _, f12, _⟩ := byte_facts c
      simp only [ne_eq, f12, f5, Option.mem_def, Option.some.injEq, forall_eq', Bool.or_eq_false_iff,
        decide_eq_false_iff_not, Classical.not_not]
  have h4 : badTC2 tc2 u = false ↔ (∀ c ∈ tc2, u = 0 ∧ c.toNat = 10) := by
    unfold badTC2
    cases tc2 with
    | none => simp
    | some c =>
      obtain ⟨_, _, _, _, _, _, f7, _⟩ := byte_facts c
      simp only [ne_eq, f7, Option.mem_def, Option.some.injEq, forall_eq', Bool.or_eq_false_iff,
        decide_eq_false_iff_not, Classical.not_not]
  generalize badTA1 ta1 ta2 = b1 at *
  generalize badTC1 tc1 = b2 at *
  generalize badTA2 ta2 u = b3 at *
  generalize badTC2 tc2 u = b4 at *
  constructor
  · intro h
    have n1 : b1 = false := by cases b1 <;> simp_all
    have n2 : b2 = false := by cases b2 <;> simp_all
    have nu : ¬ u > 1 := by intro hu; simp [n1, n2, hu] at h
    have n3 : b3 = false := by cases b3 <;> simp_all
    have n4 : b4 = false := by cases b4 <;> simp_all
    simp [n1, n2, n3, n4, nu] at h
    subst h
    exact ⟨rfl, by omega, (h1.mp n1).1, (h1.mp n1).2, h2.mp n2, h3.mp n3, h4.mp n4⟩
  · rintro ⟨rfl, hu, a1, a2, a3, a4, a5⟩
    simp [h1.mpr ⟨a1, a2⟩, h2.mpr a3, h3.mpr a4, h4.mpr a5, Nat.not_lt.mpr hu]

theorem checks3_iff (t : Nat) (td2 ta3 tb3 tc3 : Option Byte) (n : Byte) (cwi : Nat)
    (ht : t ≤ 1) (hn : n.toNat = 0 ∨ n.toNat = 255) :
    emvChecks3 t td2 ta3 tb3 tc3 n cwi = true ↔
      (t = 0 → ∀ d ∈ td2, d.toNat % 16 = 15) ∧
      (t = 1 → (∃ d, td2 = some d ∧ d.toNat % 16 = 1) ∧ (∀ a ∈ ta3, 16 ≤ a.toNat) ∧
        (∃ b, tb3 = some b ∧ b.toNat / 16 ≤ 4 ∧ b.toNat % 16 ≤ 5) ∧
        (∀ c ∈ tc3, c.toNat = 0)) := by
  have hpow : ∀ c : Nat, ¬ 2 ^ (if n ≠ 0 then c else 1) < (if n ≠ 0xFF then n.toNat + 1 else 0) := by
    intro c
    obtain ⟨_, _, _, _, _, _, _, f8, f9, _⟩ := byte_facts n
    rcases hn with h | h
    · rw [if_neg (by simp [f8.mpr h]), if_pos (by rw [f8.mpr h]; decide), h]; decide
    · rw [if_neg (c := n ≠ 0xFF) (by simp [f9.mpr h])]; exact Nat.not_lt_zero _
  have hta : badTA3 ta3 = false ↔ ∀ a ∈ ta3, 16 ≤ a.toNat := by
    unfold badTA3
    cases ta3 with
    | none => simp
    | some a =>
      obtain ⟨_, _, _, _, _, f6, _⟩ := byte_facts a
      simp [f6]
  have htb : badTB3 tb3 n cwi = false ↔ ∃ b, tb3 = some b ∧ b.toNat / 16 ≤ 4 ∧ b.toNat % 16 ≤ 5 := by
    unfold badTB3
    cases tb3 with
    | none => simp
    | some b =>
      obtain ⟨_, _, _, _, _, _, _, _, _, _, _, f12, f13⟩ := byte_facts b
      simp only [f12, f13, Bool.or_eq_false_iff, decide_eq_false_iff_not]
      constructor
      · rintro ⟨⟨h1, h2⟩, _⟩; exact ⟨b, rfl, by omega, by omega⟩
      · rintro ⟨b', e, h1, h2⟩; cases e; exact ⟨⟨by omega, by omega⟩, hpow cwi⟩
  have htc : badTC3 tc3 = false ↔ ∀ c ∈ tc3, c.toNat = 0 := by
    unfold badTC3
    cases tc3 with
    | none => simp
    | some a =>
      obtain ⟨_, _, _, _, _, _, _, f8, _⟩ := byte_facts a
      simp [f8]
  unfold emvChecks3
  generalize badTA3 ta3 = b1 at *
  generalize badTB3 tb3 n cwi = b2 at *
  generalize badTC3 tc3 = b3 at *
  have hb : (!b1 && !b2 && !b3) = true ↔ (∀ a ∈ ta3, 16 ≤ a.toNat) ∧
      (∃ b, tb3 = some b ∧ b.toNat / 16 ≤ 4 ∧ b.toNat % 16 ≤ 5) ∧ (∀ c ∈ tc3, c.toNat = 0) := by
    rw [← hta, ← htb, ← htc]
    cases b1 <;> cases b2 <;> cases b3 <;> simp
  rcases (by omega : t = 0 ∨ t = 1) with rfl | rfl
  · cases td2 with
    | none => simp [badTD2, protoOf]
    | some d =>
      obtain ⟨_, _, _, _, _, _, _, _, _, f10, f11, f12, _⟩ := byte_facts d
      by_cases h15 : d.toNat % 16 = 15
      · have e : d &&& 0x0F = 15 := f10.mpr h15
        have h1 : ¬ protoOf (some d) = 1 := by rw [protoOf, f12, h15]; decide
        rw [if_neg (by simp [badTD2, e]), if_neg h1]
        simp [h15]
      · have e : ¬ d &&& 0x0F = 15 := mt f10.mp h15
        rw [if_pos (by simp [badTD2, e])]
        simp [h15]
  · cases td2 with
    | none => simp [badTD2]
    | some d =>
      obtain ⟨_, _, _, _, _, _, _, _, _, f10, f11, f12, _⟩ := byte_facts d
      by_cases h1 : d.toNat % 16 = 1
      · have e : d &&& 0x0F = 1 := f11.mpr h1
        rw [if_neg (by simp [badTD2, e]), if_pos (by rw [protoOf, f12, h1]), hb]
        simp [h1]
      · have e : ¬ d &&& 0x0F = 1 := mt f11.mp h1
        rw [if_pos (by simp [badTD2, e])]
        simp [h1]

theorem emv_pure (ta1 tc1 td1 ta2 tc2 td2 ta3 tb3 tc3 : Option Byte) (n : Byte) (cwi : Nat)
    (hn : n = tc1.getD 0) (r : C Int)
    (hr : r = match emvChecks12 ta1 tc1 td1 ta2 tc2 with
      | none => .ok 1
      | some t => if emvChecks3 t td2 ta3 tb3 tc3 n cwi then .ok 0 else .ok 1) :
    (r = .ok 0 ∧ Rules ta1 tc1 ta2 tc2 ta3 tb3 tc3 (td1.map (·.toNat % 16)) (td2.map (·.toNat % 16))) ∨
    (r = .ok 1 ∧
      ¬ Rules ta1 tc1 ta2 tc2 ta3 tb3 tc3 (td1.map (·.toNat % 16)) (td2.map (·.toNat % 16))) := by
  have hrule : Rules ta1 tc1 ta2 tc2 ta3 tb3 tc3 (td1.map (·.toNat % 16))
      (td2.map (·.toNat % 16)) ↔ ∃ t, emvChecks12 ta1 tc1 td1 ta2 tc2 = some t ∧
        emvChecks3 t td2 ta3 tb3 tc3 n cwi = true := by
    constructor
    · intro R
      have hle : (td1.map (·.toNat % 16)).getD 0 ≤ 1 := by
        cases td1 with
        | none => simp
        | some d => rcases R.td1r (d.toNat % 16) rfl with h | h <;> simp [h]
      have hn' : n.toNat = 0 ∨ n.toNat = 255 := by
        rw [hn]
        cases htc : tc1 with
        | none => exact Or.inl rfl
        | some c => exact R.tc1r c htc
      refine ⟨_, (checks12_iff ta1 tc1 td1 ta2 tc2 _).mpr ⟨rfl, hle,
        fun a ha h _ => R.ta1s a ha h, R.ta1n, R.tc1r, R.ta2r, R.tc2r⟩, ?_⟩
      rw [checks3_iff _ _ _ _ _ _ _ hle hn']
      refine ⟨fun h0 d hd => R.td2r h0 _ (by rw [hd]; rfl), fun h1 => ⟨?_, R.ta3r h1, R.tb3r h1,
        R.tc3r h1⟩⟩
      have := R.td2p h1
      cases td2 with
      | none => cases this
      | some d => exact ⟨d, rfl, Option.some.inj this⟩
    · rintro ⟨t, h12, h3⟩
      obtain ⟨rfl, hle, a1, a2, a3, a4, a5⟩ := (checks12_iff ta1 tc1 td1 ta2 tc2 t).mp h12
      have hn' : n.toNat = 0 ∨ n.toNat = 255 := by
        rw [hn]
        cases htc : tc1 with
        | none => exact Or.inl rfl
        | some c => exact a3 c htc
      rw [checks3_iff _ _ _ _ _ _ _ hle hn'] at h3
      obtain ⟨h0, h1⟩ := h3
      refine ⟨fun a ha hs => a1 a ha hs (fun b hb => (a4 b hb).2), a2, a3, ?_, a4, a5, ?_, ?_,
        fun h => (h1 h).2.1, fun h => (h1 h).2.2.1, fun h => (h1 h).2.2.2⟩
      · intro t ht
        rw [ht] at hle
        have : t ≤ 1 := hle
        omega
      · intro h t ht
        cases td2 with
        | none => cases ht
        | some d => cases ht; exact h0 h d rfl
      · intro h
        obtain ⟨d, e, hd⟩ := (h1 h).1
        rw [e]; simp [hd]
  rw [hrule, hr]
  cases h12 : emvChecks12 ta1 tc1 td1 ta2 tc2 with
  | none => right; exact ⟨rfl, by rintro ⟨_, h, _⟩; cases h⟩
  | some t =>
    by_cases h3 : emvChecks3 t td2 ta3 tb3 tc3 n cwi = true
    · left; exact ⟨by simp only [h3, if_true], t, rfl, h3⟩
    · right
      refine ⟨by simp only [h3, Bool.false_eq_true, if_false], ?_⟩
      rintro ⟨t', h, h'⟩
      cases h
      exact h3 h'

theorem tdByte_T (gs : List Link) (td : Option Byte) (ht : td.isSome → gs.length = 4) (i : Nat)
    (hi : i ≤ 2) : (tdByte gs td i).map (·.toNat % 16) = (tdT gs i).map (·.val) := by
  unfold tdByte tdT
  cases h : gs[i]? with
  | some l =>
    simp only [Option.map_some]
    rw [← (nibs _).1, (bits _ _ _ _ _).2.2.2.2]
  | none =>
    by_cases he : i = gs.length
    · cases td with
      | none => simp [he]
      | some d => have := ht rfl; omega
    · simp [he]

/-! ## C47 -/

theorem emvParse_pos (atr : List Byte) (h : 0 < atr.length) : emvParse atr = emvRules atr :=
  if_neg (by omega)

/-- What `emv_atr_parse` decides about an ATR with interface byte chain `gs`. -/
theorem C47_decides (atr : List Byte) (ts : Byte) (gs : List Link) (td : Option Byte)
    (h : HasChain atr ts gs td) (hs : C.Safe (parse atr)) :
    (emvParse atr = .ok 0 ↔ (∃ info, parse atr = .ok (.ok info)) ∧ EmvRules gs) ∧
    (emvParse atr = .ok 0 ∨ emvParse atr = .ok 1) := by
  have hemv := emvParse_pos atr (by have := h.1; omega)
  obtain ⟨r, hr⟩ := hs
  match r, hr with
  | .error c, hr =>
    have : emvParse atr = .ok 1 := by rw [hemv, emvRules, hr]; rfl
    rw [this, hr]
    exact ⟨⟨fun h => (by cases h), fun ⟨⟨i, h⟩, _⟩ => (by cases h)⟩, Or.inr rfl⟩
  | .ok info, hr =>
    obtain ⟨a1, _, c1, d1⟩ := C43_reports atr ts gs td info h hr 1 (by omega)
    obtain ⟨a2, _, c2, d2⟩ := C43_reports atr ts gs td info h hr 2 (by omega)
    obtain ⟨a3, b3, c3, _⟩ := C43_reports atr ts gs td info h hr 3 (by omega)
    have hn : info.par.n = (tc gs 1).getD 0 := by
      obtain ⟨_, _, hpar, _⟩ := accepted atr ts gs td info h hr
      rw [hpar]
      exact (setAll_values gs h.2.2.1).2.2.2.1
    have he : emvParse atr = match emvChecks12 (ta gs 1) (tc gs 1) (tdByte gs td 1) (ta gs 2)
        (tc gs 2) with
      | none => .ok 1
      | some t => if emvChecks3 t (tdByte gs td 2) (ta gs 3) (tb gs 3) (tc gs 3) info.par.n
          info.par.cwi then .ok 0 else .ok 1 := by
      rw [hemv, emvRules, hr]
      simp only [bind_ok, a1, c1, d1, a2, c2, d2, a3, b3, c3]
      cases emvChecks12 (ta gs 1) (tc gs 1) (tdByte gs td 1) (ta gs 2) (tc gs 2) <;> rfl
    have hm := emv_pure (ta gs 1) (tc gs 1) (tdByte gs td 1) (ta gs 2) (tc gs 2) (tdByte gs td 2)
      (ta gs 3) (tb gs 3) (tc gs 3) info.par.n info.par.cwi hn _ he
    rw [tdByte_T gs td h.2.2.2.2.1 1 (by omega), tdByte_T gs td h.2.2.2.2.1 2 (by omega)] at hm
    rcases hm with ⟨e, R⟩ | ⟨e, R⟩
    · rw [e]
      exact ⟨⟨fun _ => ⟨⟨info, hr⟩, R⟩, fun _ => rfl⟩, Or.inl rfl⟩
    · rw [e]
      exact ⟨⟨fun h => (by cases h), fun h => absurd h.2 R⟩, Or.inr rfl⟩

/-- **C47**: an ATR accepted by the ISO 7816-3 parser is accepted for EMV exactly when its
interface bytes satisfy the EMV rules, and is otherwise reported as a card error. -/
theorem C47_emv (atr : List Byte) (ts : Byte) (gs : List Link) (td : Option Byte) (info : Info)
    (h : HasChain atr ts gs td) (hp : parse atr = .ok (.ok info)) :
    (EmvRules gs → emvParse atr = .ok 0) ∧ (¬ EmvRules gs → emvParse atr = .ok 1) := by
  obtain ⟨h1, h2⟩ := C47_decides atr ts gs td h ⟨_, hp⟩
  refine ⟨fun hr => h1.mpr ⟨⟨info, hp⟩, hr⟩, fun hr => ?_⟩
  rcases h2 with h2 | h2
  · exact absurd (h1.mp h2).2 hr
  · exact h2

/-- **C47**: an ATR refused by the ISO 7816-3 parser is a card error; only one without any byte
is an invalid parameter. -/
theorem C47_refused (atr : List Byte) (c : Nat) (hp : parse atr = .ok (.error c)) :
    emvParse atr = .ok (if atr = [] then -2 else 1) := by
  cases atr with
  | nil => rfl
  | cons a l => rw [emvParse_pos _ (by simp), emvRules, hp]; rfl

example : emvParse [] = .ok (-2) ∧ emvParse [0x3B] = .ok 1 := by decide +kernel

/-- **C47**: a T=1 ATR accepted for EMV has TB3 with BWI at most 4 and CWI at most 5, and
IFSC in 16..254 if TA3 is present. -/
theorem C47_t1 (atr : List Byte) (ts : Byte) (gs : List Link) (td : Option Byte)
    (h : HasChain atr ts gs td) (hp : emvParse atr = .ok 0) (ht : tdT gs 1 = some 1) :
    (∃ b, tb gs 3 = some b ∧ b.toNat / 16 ≤ 4 ∧ b.toNat % 16 ≤ 5) ∧
    (∀ a ∈ ta gs 3, 16 ≤ a.toNat ∧ a.toNat ≤ 254) := by
  have hs : C.Safe (parse atr) := by
    cases hx : parse atr with
    | ok r => exact ⟨r, rfl⟩
    | error e => rw [emvParse_pos atr (by have := h.1; omega), emvRules, hx] at hp; cases hp
  obtain ⟨⟨info, hi⟩, R⟩ := ((C47_decides atr ts gs td h hs).1).mp hp
  have h1 : ((tdT gs 1).map (·.val)).getD 0 = 1 := by rw [ht]; rfl
  refine ⟨R.tb3r h1, fun a ha => ⟨R.ta3r h1 a ha, ?_⟩⟩
  obtain ⟨_, hok, _⟩ := accepted atr ts gs td info h hi
  have h2 := R.td2p h1
  obtain ⟨_, _, _, _, _, h6, _⟩ := hok
  simp only [ta] at ha
  cases hg : gs[2]? with
  | none => simp [hg] at ha
  | some l =>
    have hl : l ∈ gs.drop 2 := by
      rw [List.mem_iff_getElem?]
      exact ⟨0, by simpa using hg⟩
    have hn : l.nib = 1 := by
      simp only [tdT, hg, Option.map_some, Option.some.injEq] at h2
      exact Fin.ext h2
    have hnz := ((h6 l hl).2.2 hn).1 a (by simpa [hg] using ha)
    have : a.toNat < 256 := UInt8.toNat_lt a
    omega

-- the "basic ATR" for T=1 is accepted; without TB3 it is not
example : emvParse [0x3B, 0xE0, 0x00, 0x00, 0x81, 0x31, 0x20, 0x45, 0x35] = .ok 0 ∧
    emvParse [0x3B, 0xE0, 0x00, 0x00, 0x81, 0x11, 0x20, 0x50] = .ok 1 := by decide +kernel

-- the chain of the basic ATR for T=0, and its acceptance
example : HasChain [0x3B, 0x60, 0x00, 0x00] 0x3B [⟨0, none, some 0, some 0⟩] none ∧
    EmvRules [⟨0, none, some 0, some 0⟩] ∧ emvParse [0x3B, 0x60, 0x00, 0x00] = .ok 0 := by
  refine ⟨⟨by decide, by decide, by decide, by decide, by decide, List.replicate 29 0, by decide⟩,
    ⟨?_, ?_, ?_, ?_, ?_, ?_, ?_, ?_, ?_, ?_, ?_⟩, by decide +kernel⟩ <;> simp [ta, tb, tc, tdT]

/-- A second TB for T=1 (TB4) is not looked at: the ATR is accepted for EMV although the
parameters in force have BWI 9. -/
theorem C47_tb4_unchecked :
    emvParse [0x3B, 0x80, 0x81, 0xA1, 0x45, 0x21, 0x9D, 0x59] = .ok 0 ∧
    ∃ info, parse [0x3B, 0x80, 0x81, 0xA1, 0x45, 0x21, 0x9D, 0x59] = .ok (.ok info) ∧
      info.par.bwi = 9 ∧ info.par.cwi = 13 := ⟨by decide +kernel, witness _ (by decide +kernel)⟩

end Verif.Atr
