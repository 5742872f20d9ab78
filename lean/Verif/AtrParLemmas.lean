import Verif.AtrLemmas

/-! # Lemmas: acceptance and value of the ATR interface parameters -/

set_option autoImplicit false

namespace Verif.Atr
open Verif AtrSpec

/-! ## Tables and single bytes -/

theorem diOf_some : ∀ b : Byte, ∀ d ∈ diOf b, (b.toNat % 16, d) ∈ diTable := by decide +kernel

theorem diOf_none : ∀ b : Byte, diOf b = none ↔ b.toNat % 16 ∉ diTable.map (·.1) := by
  decide +kernel

theorem fiOf_some : ∀ b : Byte, ∀ d ∈ fiOf b, (b.toNat / 16, d) ∈ fiTable := by decide +kernel

theorem fiOf_none : ∀ b : Byte, fiOf b = none ↔ b.toNat / 16 ∉ fiTable.map (·.1) := by
  decide +kernel

theorem tb1_table : ∀ b : Byte, (b &&& 0x1F).toNat = b.toNat % 32 ∧
    ((ippOf b = none) ↔ b.toNat / 32 % 4 = 3) ∧ (b = 0 ↔ b.toNat = 0) := by decide +kernel

theorem nibs : ∀ b : Byte, (b &&& 0x0F).toNat = b.toNat % 16 ∧ (b >>> 4).toNat = b.toNat / 16 ∧
    (b &&& 0x3F).toNat = b.toNat % 64 := by decide +kernel

theorem ff : ∀ x : Byte, (x = 0 ↔ x.toNat = 0) ∧ (x = 255 ↔ x.toNat = 255) := by decide +kernel

/-! ## Parameters after each interface byte -/

theorem pgroup_iff (i : Nat) (pr : Byte) (l : Link) (p q : Par) : pgroup i pr l p = .ok q ↔
    ∃ p1 p2, optf l.a (parseTA i pr) p = .ok p1 ∧ optf l.b (parseTB i pr) p1 = .ok p2 ∧
      optf l.c (parseTC i pr) p2 = .ok q := by
  unfold pgroup
  cases ha : optf l.a (parseTA i pr) p with
  | error e => simp
  | ok p1 =>
    simp only
    cases hb : optf l.b (parseTB i pr) p1 with
    | error e =>
      constructor
      · intro h; cases h
      · rintro ⟨_, _, h, h', _⟩; cases h; rw [hb] at h'; cases h'
    | ok p2 =>
      constructor
      · intro h; exact ⟨p1, p2, rfl, hb, h⟩
      · rintro ⟨_, _, h, h', h2⟩; cases h; rw [hb] at h'; cases h'; exact h2

/-- From one byte to an optional one. -/
theorem optf_iff (o : Option Byte) (f : Byte → Par → Except Nat Par) (ok : Byte → Prop)
    (upd : Byte → Par) (p q : Par)
    (h : ∀ b, f b p = .ok q ↔ ok b ∧ q = upd b) :
    optf o f p = .ok q ↔ (∀ x ∈ o, ok x) ∧ q = (match o with | none => p | some b => upd b) := by
  cases o with
  | none =>
    constructor
    · intro h; cases h; exact ⟨by simp, rfl⟩
    · rintro ⟨_, rfl⟩; rfl
  | some b =>
    simp only [optf, h]
    simp

theorem parseTA1_iff (b : Byte) (p q : Par) : parseTA1 b p = .ok q ↔ okTA1 b ∧
    q = { p with di := (diOf b).getD 0, fi := ((fiOf b).getD (0, 0)).1,
                 fmax10 := ((fiOf b).getD (0, 0)).2 } := by
  have h1 := diOf_none b
  have h2 := fiOf_none b
  unfold parseTA1 okTA1
  cases hd : diOf b with
  | none =>
    constructor
    · intro h; cases h
    · rintro ⟨⟨h, _⟩, _⟩; exact absurd h (h1.mp hd)
  | some d =>
    cases hf : fiOf b with
    | none =>
      constructor
      · intro h; cases h
      · rintro ⟨⟨_, h⟩, _⟩; exact absurd h (h2.mp hf)
    | some f =>
      constructor
      · intro h; cases h
        refine ⟨⟨?_, ?_⟩, rfl⟩
        · exact Classical.byContradiction fun h => by rw [h1.mpr h] at hd; cases hd
        · exact Classical.byContradiction fun h => by rw [h2.mpr h] at hf; cases hf
      · rintro ⟨_, rfl⟩; rfl

/-- Effect of TB1. -/
def updB1 (p : Par) (b : Byte) : Par :=
  if b = 0 then { p with vppConnected := false }
  else { p with vppConnected := true, vppCourse := b.toNat % 32 * 1000,
                vpp := b.toNat % 32 * 1000, ipp := (ippOf b).getD 0 }

theorem parseTB1_iff (b : Byte) (p q : Par) : parseTB1 b p = .ok q ↔ okTB1 b ∧
    q = updB1 p b := by
  obtain ⟨h1, h2, h3⟩ := tb1_table b
  unfold parseTB1 okTB1 updB1
  simp only [h1]
  by_cases hb : b = 0
  · have := h3.mp hb
    rw [if_pos hb, if_pos hb]
    constructor
    · intro h; cases h; exact ⟨Or.inl this, rfl⟩
    · rintro ⟨_, rfl⟩; rfl
  · have hb' : b.toNat ≠ 0 := mt h3.mpr hb
    simp only [if_neg hb]
    by_cases hp : b.toNat % 32 < 5 ∨ b.toNat % 32 > 25
    · rw [if_pos hp]
      constructor
      · intro h; cases h
      · rintro ⟨h, _⟩; omega
    · rw [if_neg hp]
      cases hi : ippOf b with
      | none =>
        have := h2.mp hi
        constructor
        · intro h; cases h
        · rintro ⟨h, _⟩; omega
      | some i =>
        have : b.toNat / 32 % 4 ≠ 3 := by
          intro h; rw [h2.mpr h] at hi; cases hi
        constructor
        · intro h; cases h; exact ⟨by omega, rfl⟩
        · rintro ⟨_, rfl⟩; rfl

theorem parseTC1_iff (b : Byte) (p q : Par) : parseTC1 b p = .ok q ↔ True ∧
    q = { p with n := b } :=
  ⟨fun h => by cases h; exact ⟨trivial, rfl⟩, fun h => by rw [h.2]; rfl⟩

theorem parseTA2_iff (b : Byte) (p q : Par) : parseTA2 b p = .ok q ↔ True ∧
    q = { p with
        specificMode := true
        specificProtocol := b.toNat % 16
        etuImplicit := decide (b &&& 0x10 ≠ 0)
        mayChange := decide (b &&& 0x80 = 0) } := by
  unfold parseTA2
  rw [(nibs b).1]
  exact ⟨fun h => by cases h; exact ⟨trivial, rfl⟩, fun h => by rw [h.2]⟩

theorem parseTB2_iff (b : Byte) (p q : Par) : parseTB2 b p = .ok q ↔
    (p.vppConnected = true ∧ 50 ≤ b.toNat ∧ b.toNat ≤ 250) ∧
    q = { p with vpp := b.toNat * 100 } := by
  unfold parseTB2
  by_cases hv : p.vppConnected = true
  · rw [if_neg (by simp [hv])]
    by_cases hr : b.toNat < 50 ∨ b.toNat > 250
    · rw [if_pos hr]
      constructor
      · intro h; cases h
      · rintro ⟨h, _⟩; omega
    · rw [if_neg hr]
      constructor
      · intro h; cases h; exact ⟨⟨hv, by omega⟩, rfl⟩
      · rintro ⟨_, rfl⟩; rfl
  · rw [if_pos (by simpa using hv)]
    constructor
    · intro h; cases h
    · rintro ⟨h, _⟩; exact absurd h.1 hv

theorem parseTC2_iff (b : Byte) (p q : Par) : parseTC2 b p = .ok q ↔ b ≠ 0 ∧
    q = { p with wi := b.toNat } := by
  unfold parseTC2
  by_cases hb : b = 0
  · rw [if_pos hb]
    constructor
    · intro h; cases h
    · rintro ⟨h, _⟩; exact absurd hb h
  · rw [if_neg hb]
    constructor
    · intro h; cases h; exact ⟨hb, rfl⟩
    · rintro ⟨_, rfl⟩; rfl

/-- Effect of an optional byte. -/
def upd (o : Option Byte) (f : Par → Byte → Par) (p : Par) : Par :=
  match o with
  | none => p
  | some b => f p b

/-- Effect of the first set. -/
def set1 (l : Link) (p : Par) : Par :=
  upd l.c (fun p b => { p with n := b }) (upd l.b updB1 (upd l.a (fun p b =>
    { p with di := (diOf b).getD 0, fi := ((fiOf b).getD (0, 0)).1,
             fmax10 := ((fiOf b).getD (0, 0)).2 }) p))

/-- Effect of the second set. -/
def set2 (l : Link) (p : Par) : Par :=
  upd l.c (fun p b => { p with wi := b.toNat }) (upd l.b (fun p b =>
    { p with vpp := b.toNat * 100 }) (upd l.a (fun p b =>
      { p with
        specificMode := true
        specificProtocol := b.toNat % 16
        etuImplicit := decide (b &&& 0x10 ≠ 0)
        mayChange := decide (b &&& 0x80 = 0) }) p))

theorem pgroup1_iff (pr : Byte) (l : Link) (p q : Par) : pgroup 1 pr l p = .ok q ↔
    (∀ x ∈ l.a, okTA1 x) ∧ (∀ x ∈ l.b, okTB1 x) ∧ q = set1 l p := by
  have eA : parseTA 1 pr = parseTA1 := rfl
  have eB : parseTB 1 pr = parseTB1 := rfl
  have eC : parseTC 1 pr = parseTC1 := rfl
  have hA := fun p q => optf_iff l.a parseTA1 _ _ p q (fun b => parseTA1_iff b p q)
  have hB := fun p q => optf_iff l.b parseTB1 _ _ p q (fun b => parseTB1_iff b p q)
  have hC := fun p q => optf_iff l.c parseTC1 _ _ p q (fun b => parseTC1_iff b p q)
  rw [pgroup_iff, eA, eB, eC]
  constructor
  · rintro ⟨p1, p2, h1, h2, h3⟩
    obtain ⟨a1, rfl⟩ := (hA _ _).mp h1
    obtain ⟨a2, rfl⟩ := (hB _ _).mp h2
    obtain ⟨a3, rfl⟩ := (hC _ _).mp h3
    exact ⟨a1, a2, rfl⟩
  · rintro ⟨a1, a2, rfl⟩
    exact ⟨_, _, (hA _ _).mpr ⟨a1, rfl⟩, (hB _ _).mpr ⟨a2, rfl⟩,
      (hC _ _).mpr ⟨fun _ _ => trivial, rfl⟩⟩

theorem pgroup2_iff (pr : Byte) (l : Link) (p q : Par) : pgroup 2 pr l p = .ok q ↔
    (∀ x ∈ l.b, p.vppConnected = true ∧ 50 ≤ x.toNat ∧ x.toNat ≤ 250) ∧ (∀ x ∈ l.c, x ≠ 0) ∧
      q = set2 l p := by
  have eA : parseTA 2 pr = parseTA2 := rfl
  have eB : parseTB 2 pr = parseTB2 := rfl
  have eC : parseTC 2 pr = parseTC2 := rfl
  have hA := fun p q => optf_iff l.a parseTA2 _ _ p q (fun b => parseTA2_iff b p q)
  have hB := fun p q => optf_iff l.b parseTB2 _ _ p q (fun b => parseTB2_iff b p q)
  have hC := fun p q => optf_iff l.c parseTC2 _ _ p q (fun b => parseTC2_iff b p q)
  rw [pgroup_iff, eA, eB, eC]
  obtain ⟨nib, a, b, c⟩ := l
  constructor
  · rintro ⟨p1, p2, h1, h2, h3⟩
    obtain ⟨a1, rfl⟩ := (hA _ _).mp h1
    obtain ⟨a2, rfl⟩ := (hB _ _).mp h2
    obtain ⟨a3, rfl⟩ := (hC _ _).mp h3
    refine ⟨?_, a3, rfl⟩
    cases a <;> exact a2
  · rintro ⟨a2, a3, rfl⟩
    refine ⟨_, _, (hA _ _).mpr ⟨fun _ _ => trivial, rfl⟩, (hB _ _).mpr ⟨?_, rfl⟩,
      (hC _ _).mpr ⟨a3, rfl⟩⟩
    cases a <;> exact a2

/-! ## Later sets -/

theorem nib_15 : ∀ n : Fin 16, UInt8.ofNat n.val = 15 ↔ n = 15 := by decide +kernel
theorem nib_1 : ∀ n : Fin 16, UInt8.ofNat n.val = 1 ↔ n = 1 := by decide +kernel

/-- Effect of TAi. -/
def updA3 (n : Fin 16) (p : Par) (b : Byte) : Par :=
  if n = 15 then { p with cardClasses := b.toNat % 64, clockStop := (b >>> 6).toNat }
  else if n = 1 then { p with ifsi := b.toNat } else p

/-- Effect of TBi. -/
def updB3 (n : Fin 16) (p : Par) (b : Byte) : Par :=
  if n = 15 then { p with spu :=
    if b ≠ 0 then (if b &&& 0x80 = 0 then .standard else .proprietary) else .notUsed }
  else if n = 1 then { p with cwi := b.toNat % 16, bwi := b.toNat / 16 } else p

/-- Effect of TCi. -/
def updC3 (n : Fin 16) (p : Par) (b : Byte) : Par :=
  if n = 1 then { p with crc := decide (b &&& 0x01 ≠ 0) } else p

theorem parseTAi_iff (n : Fin 16) (b : Byte) (p q : Par) :
    parseTAi (UInt8.ofNat n.val) b p = .ok q ↔
      ((n = 15 → 1 ≤ b.toNat % 64 ∧ b.toNat % 64 ≤ 7) ∧
       (n = 1 → b.toNat ≠ 0 ∧ b.toNat ≠ 255)) ∧ q = updA3 n p b := by
  unfold parseTAi updA3
  obtain ⟨f0, f255⟩ := ff b
  simp only [nib_15, nib_1, (nibs b).2.2]
  by_cases h15 : n = 15
  · have h1 : ¬ n = 1 := by rw [h15]; decide
    simp only [if_pos h15]
    by_cases h : b.toNat % 64 < 1 ∨ b.toNat % 64 > 7
    · rw [if_pos h]
      constructor
      · intro h; cases h
      · rintro ⟨⟨h', _⟩, _⟩; have := h' h15; omega
    · rw [if_neg h]
      constructor
      · intro h; cases h; exact ⟨⟨fun _ => by omega, fun h => absurd h h1⟩, rfl⟩
      · rintro ⟨_, rfl⟩; rfl
  · simp only [if_neg h15]
    by_cases h1 : n = 1
    · simp only [if_pos h1]
      by_cases h : b = 0 ∨ b = 255
      · rw [if_pos h]
        constructor
        · intro h; cases h
        · rintro ⟨⟨_, h'⟩, _⟩
          have := h' h1
          rw [f0, f255] at h
          omega
      · rw [if_neg h]
        rw [f0, f255] at h
        constructor
        · intro h; cases h; exact ⟨⟨fun h => absurd h h15, fun _ => by omega⟩, rfl⟩
        · rintro ⟨_, rfl⟩; rfl
    · simp only [if_neg h1]
      constructor
      · intro h; cases h; exact ⟨⟨fun h => absurd h h15, fun h => absurd h h1⟩, rfl⟩
      · rintro ⟨_, rfl⟩; rfl

theorem parseTBi_iff (n : Fin 16) (b : Byte) (p q : Par) :
    parseTBi (UInt8.ofNat n.val) b p = .ok q ↔
      (n = 1 → b.toNat / 16 ≤ 9) ∧ q = updB3 n p b := by
  unfold parseTBi updB3
  simp only [nib_15, nib_1, (nibs b).1, (nibs b).2.1]
  by_cases h15 : n = 15
  · have h1 : ¬ n = 1 := by rw [h15]; decide
    simp only [if_pos h15]
    constructor
    · intro h; cases h; exact ⟨fun h => absurd h h1, rfl⟩
    · rintro ⟨_, rfl⟩; rfl
  · simp only [if_neg h15]
    by_cases h1 : n = 1
    · simp only [if_pos h1]
      by_cases h : b.toNat / 16 > 9
      · rw [if_pos h]
        constructor
        · intro h; cases h
        · rintro ⟨h', _⟩; have := h' h1; omega
      · rw [if_neg h]
        constructor
        · intro h; cases h; exact ⟨fun _ => by omega, rfl⟩
        · rintro ⟨_, rfl⟩; rfl
    · simp only [if_neg h1]
      constructor
      · intro h; cases h; exact ⟨fun h => absurd h h1, rfl⟩
      · rintro ⟨_, rfl⟩; rfl

theorem parseTCi_iff (n : Fin 16) (b : Byte) (p q : Par) :
    parseTCi (UInt8.ofNat n.val) b p = .ok q ↔ True ∧ q = updC3 n p b := by
  unfold parseTCi updC3
  simp only [nib_1]
  by_cases h1 : n = 1
  · simp only [if_pos h1]
    exact ⟨fun h => by cases h; exact ⟨trivial, rfl⟩, fun h => by rw [h.2]⟩
  · simp only [if_neg h1]
    exact ⟨fun h => by cases h; exact ⟨trivial, rfl⟩, fun h => by rw [h.2]⟩

/-- Effect of a set numbered three or more. -/
def set3 (p : Par) (l : Link) : Par :=
  upd l.c (updC3 l.nib) (upd l.b (updB3 l.nib) (upd l.a (updA3 l.nib) p))

theorem pgroup3_iff (i : Nat) (hi : 3 ≤ i) (l : Link) (p q : Par) :
    pgroup i (UInt8.ofNat l.nib.val) l p = .ok q ↔ okLink3 l ∧ q = set3 p l := by
  obtain ⟨n, a, b, c⟩ := l
  have h1 : i ≠ 1 := by omega
  have h2 : i ≠ 2 := by omega
  have eA : parseTA i (UInt8.ofNat n.val) = parseTAi (UInt8.ofNat n.val) := by
    funext b p; simp only [parseTA, if_neg h1, if_neg h2]
  have eB : parseTB i (UInt8.ofNat n.val) = parseTBi (UInt8.ofNat n.val) := by
    funext b p; simp only [parseTB, if_neg h1, if_neg h2]
  have eC : parseTC i (UInt8.ofNat n.val) = parseTCi (UInt8.ofNat n.val) := by
    funext b p; simp only [parseTC, if_neg h1, if_neg h2]
  have hA := fun p q => optf_iff a _ _ _ p q (fun b => parseTAi_iff n b p q)
  have hB := fun p q => optf_iff b _ _ _ p q (fun b => parseTBi_iff n b p q)
  have hC := fun p q => optf_iff c _ _ _ p q (fun b => parseTCi_iff n b p q)
  rw [pgroup_iff]
  simp only [eA, eB, eC, okLink3]
  constructor
  · rintro ⟨p1, p2, h1, h2, h3⟩
    obtain ⟨a1, rfl⟩ := (hA _ _).mp h1
    obtain ⟨a2, rfl⟩ := (hB _ _).mp h2
    obtain ⟨a3, rfl⟩ := (hC _ _).mp h3
    exact ⟨⟨fun h x hx => (a1 x hx).1 h, fun h => ⟨fun x hx => (a1 x hx).2 h,
      fun x hx => a2 x hx h⟩⟩, rfl⟩
  · rintro ⟨⟨b1, b2⟩, rfl⟩
    exact ⟨_, _, (hA _ _).mpr ⟨fun x hx => ⟨fun h => b1 h x hx, fun h => (b2 h).1 x hx⟩, rfl⟩,
      (hB _ _).mpr ⟨fun x hx h => (b2 h).2 x hx, rfl⟩,
      (hC _ _).mpr ⟨fun _ _ => trivial, rfl⟩⟩

/-! ## The whole chain -/

theorem parseTDi_iff (i : Nat) (hi : 2 ≤ i) (d : Byte) (p q : Par) :
    parseTDi i d p = .ok q ↔ okT (d.toNat % 16) ∧ q = p := by
  unfold parseTDi okT
  simp only [(nibs d).1, if_neg (show ¬ i = 1 by omega)]
  by_cases h : d.toNat % 16 ≠ 0 ∧ d.toNat % 16 ≠ 1 ∧ d.toNat % 16 ≠ 15
  · rw [if_pos h]
    constructor
    · intro h; cases h
    · rintro ⟨h', _⟩; omega
  · rw [if_neg h]
    constructor
    · intro h; cases h; exact ⟨by omega, rfl⟩
    · rintro ⟨_, rfl⟩; rfl

theorem parseTD1_iff (d : Byte) (p q : Par) :
    parseTDi 1 d p = .ok q ↔ (d.toNat % 16 = 0 ∨ d.toNat % 16 = 1) ∧
      q = { p with protocol := d.toNat % 16 } := by
  unfold parseTDi
  simp only [(nibs d).1, if_true]
  by_cases h : d.toNat % 16 ≠ 0 ∧ d.toNat % 16 ≠ 1
  · rw [if_pos h]
    constructor
    · intro h; cases h
    · rintro ⟨h', _⟩; omega
  · rw [if_neg h]
    constructor
    · intro h; cases h; exact ⟨by omega, rfl⟩
    · rintro ⟨_, rfl⟩; rfl

theorem nib_toNat (n : Fin 16) : (UInt8.ofNat n.val).toNat % 16 = n.val := by
  revert n; decide +kernel

theorem pchain_one (i : Nat) (pr : Byte) (l : Link) (td : Option Byte) (p q : Par) :
    pchain i pr [l] td p = .ok q ↔ ∃ p1, pgroup i pr l p = .ok p1 ∧
      optf td (parseTDi i) p1 = .ok q := by
  rw [pchain]
  cases pgroup i pr l p with
  | error e => simp
  | ok p1 => simp

theorem pchain_cons (i : Nat) (pr : Byte) (l l' : Link) (r : List Link) (td : Option Byte)
    (p q : Par) :
    pchain i pr (l :: l' :: r) td p = .ok q ↔ ∃ p1 p2, pgroup i pr l p = .ok p1 ∧
      parseTDi i (UInt8.ofNat l'.nib.val) p1 = .ok p2 ∧
      pchain (i + 1) (UInt8.ofNat l'.nib.val) (l' :: r) td p2 = .ok q := by
  rw [pchain]
  cases pgroup i pr l p with
  | error e => simp
  | ok p1 =>
    simp only
    cases hp : parseTDi i (UInt8.ofNat l'.nib.val) p1 with
    | error e =>
      constructor
      · intro h; cases h
      · rintro ⟨_, _, h, h', _⟩; cases h; rw [hp] at h'; cases h'
    | ok p2 =>
      constructor
      · intro h; exact ⟨p1, p2, rfl, hp, h⟩
      · rintro ⟨_, _, h, h', h2⟩; cases h; rw [hp] at h'; cases h'; exact h2

/-- The sets numbered three and up. -/
theorem pchain3_iff (td : Option Byte) : ∀ (r : List Link) (i : Nat) (l : Link) (p q : Par),
    3 ≤ i → (pchain i (UInt8.ofNat l.nib.val) (l :: r) td p = .ok q ↔
      (∀ x ∈ l :: r, okLink3 x) ∧ (∀ x ∈ r, okT x.nib.val) ∧ (∀ x ∈ td, okT (x.toNat % 16)) ∧
      q = (l :: r).foldl set3 p) := by
  intro r
  induction r with
  | nil =>
    intro i l p q hi
    rw [pchain_one]
    have hT := fun p q => optf_iff td (parseTDi i) _ _ p q
      (fun b => parseTDi_iff i (by omega) b p q)
    constructor
    · rintro ⟨p1, h1, h2⟩
      obtain ⟨a1, rfl⟩ := (pgroup3_iff i hi l p p1).mp h1
      obtain ⟨a2, rfl⟩ := (hT _ _).mp h2
      refine ⟨by simpa using a1, by simp, a2, ?_⟩
      cases td <;> rfl
    · rintro ⟨a1, _, a2, rfl⟩
      refine ⟨_, (pgroup3_iff i hi l p _).mpr ⟨a1 l (by simp), rfl⟩, (hT _ _).mpr ⟨a2, ?_⟩⟩
      cases td <;> rfl
  | cons l' r ih =>
    intro i l p q hi
    rw [pchain_cons]
    constructor
    · rintro ⟨p1, p2, h1, h2, h3⟩
      obtain ⟨a1, rfl⟩ := (pgroup3_iff i hi l p p1).mp h1
      obtain ⟨a2, rfl⟩ := (parseTDi_iff i (by omega) _ _ _).mp h2
      obtain ⟨a3, a4, a5, rfl⟩ := (ih (i + 1) l' _ _ (by omega)).mp h3
      rw [nib_toNat] at a2
      refine ⟨?_, ?_, a5, rfl⟩
      · intro x hx
        rcases List.mem_cons.mp hx with rfl | hx
        · exact a1
        · exact a3 x hx
      · intro x hx
        rcases List.mem_cons.mp hx with rfl | hx
        · exact a2
        · exact a4 x hx
    · rintro ⟨a1, a2, a3, rfl⟩
      refine ⟨_, _, (pgroup3_iff i hi l p _).mpr ⟨a1 l (by simp), rfl⟩,
        (parseTDi_iff i (by omega) _ _ _).mpr ⟨?_, rfl⟩,
        (ih (i + 1) l' _ _ (by omega)).mpr ⟨fun x hx => a1 x (by simp [List.mem_cons.mp hx]),
          fun x hx => a2 x (by simp [hx]), a3, rfl⟩⟩
      rw [nib_toNat]
      exact a2 l' (by simp)

/-- Parameters after a chain. -/
def setAll : List Link → Par → Par
  | [], p => p
  | [l], p => set1 l p
  | l :: l' :: r, p => r.foldl set3 (set2 l' { set1 l p with protocol := l'.nib.val })

theorem set1_vpp (l : Link) (p : Par) (hp : p.vppConnected = true) :
    (set1 l p).vppConnected = true ↔ l.b ≠ some 0 := by
  obtain ⟨n, a, b, c⟩ := l
  have : ∀ p : Par, p.vppConnected = true → ((upd b updB1 p).vppConnected = true ↔ b ≠ some 0) := by
    intro p hp
    cases b with
    | none => simp [upd, hp]
    | some b =>
      by_cases hb : b = 0 <;> simp [upd, updB1, hb]
  cases a <;> cases c <;> exact this _ hp

/-- Acceptance and value of the parameters of a whole chain. -/
theorem pchain_iff (gs : List Link) (td : Option Byte) (q : Par) (hne : gs ≠ [])
    (ht : td.isSome → gs.length = 4) :
    pchain 1 0 gs td defaults = .ok q ↔ OkChain gs td ∧ q = setAll gs defaults := by
  match gs, hne with
  | [l], _ =>
    have : td = none := by
      cases td with
      | none => rfl
      | some d => simp at ht
    subst this
    rw [pchain_one]
    simp only [OkChain, ta, tb, tc, tdT, setAll, optf]
    constructor
    · rintro ⟨p1, h1, h2⟩
      cases h2
      obtain ⟨a1, a2, rfl⟩ := (pgroup1_iff _ _ _ _).mp h1
      exact ⟨⟨by simpa using a1, by simpa using a2, by simp, by simp, by simp, by simp, by simp⟩, rfl⟩
    · rintro ⟨⟨a1, a2, _⟩, rfl⟩
      exact ⟨_, (pgroup1_iff _ _ _ _).mpr ⟨by simpa using a1, by simpa using a2, rfl⟩, rfl⟩
  | [l, l'], _ =>
    have : td = none := by
      cases td with
      | none => rfl
      | some d => simp at ht
    subst this
    rw [pchain_cons]
    simp only [pchain_one, optf]
    have hv := set1_vpp l defaults rfl
    simp only [OkChain, ta, tb, tc, tdT, setAll]
    constructor
    · rintro ⟨p1, p2, h1, h2, p3, h3, h4⟩
      cases h4
      obtain ⟨a1, a2, rfl⟩ := (pgroup1_iff _ _ _ _).mp h1
      obtain ⟨a3, rfl⟩ := (parseTD1_iff _ _ _).mp h2
      obtain ⟨a4, a5, rfl⟩ := (pgroup2_iff _ _ _ _).mp h3
      simp only [nib_toNat] at a3 a4 ⊢
      refine ⟨⟨by simpa using a1, by simpa using a2, ?_, ?_, by simpa using a5, by simp, by simp⟩, rfl⟩
      · simp; omega
      · simp only [hv] at a4; simpa using a4
    · rintro ⟨⟨a1, a2, a3, a4, a5, _⟩, rfl⟩
      refine ⟨_, _, (pgroup1_iff _ _ _ _).mpr ⟨by simpa using a1, by simpa using a2, rfl⟩,
        (parseTD1_iff _ _ _).mpr ⟨?_, rfl⟩, _,
        (pgroup2_iff _ _ _ _).mpr ⟨?_, by simpa using a5, rfl⟩, ?_⟩
      · simp at a3; rw [nib_toNat]; omega
      · simp only [hv]; simpa using a4
      · simp only [nib_toNat, List.foldl_nil]
  | l :: l' :: l'' :: r, _ =>
    rw [pchain_cons]
    simp only [pchain_cons]
    have hv := set1_vpp l defaults rfl
    simp only [OkChain, ta, tb, tc, tdT, setAll]
    constructor
    · rintro ⟨p1, p2, h1, h2, p3, p4, h3, h4, h5⟩
      obtain ⟨a1, a2, rfl⟩ := (pgroup1_iff _ _ _ _).mp h1
      obtain ⟨a3, rfl⟩ := (parseTD1_iff _ _ _).mp h2
      obtain ⟨a4, a5, rfl⟩ := (pgroup2_iff _ _ _ _).mp h3
      obtain ⟨a6, rfl⟩ := (parseTDi_iff 2 (by omega) _ _ _).mp h4
      obtain ⟨a7, a8, a9, rfl⟩ := (pchain3_iff td r 3 l'' _ _ (by omega)).mp h5
      simp only [nib_toNat] at a3 a4 a6 ⊢
      refine ⟨⟨by simpa using a1, by simpa using a2, ?_, ?_, by simpa using a5, ?_, a9⟩, trivial⟩
      · simp; omega
      · simp only [hv] at a4; simpa using a4
      · intro x hx
        refine ⟨?_, a7 x hx⟩
        rcases List.mem_cons.mp hx with rfl | hx
        · exact a6
        · exact a8 x hx
    · rintro ⟨⟨a1, a2, a3, a4, a5, a6, a7⟩, rfl⟩
      refine ⟨_, _, (pgroup1_iff _ _ _ _).mpr ⟨by simpa using a1, by simpa using a2, rfl⟩,
        (parseTD1_iff _ _ _).mpr ⟨?_, rfl⟩, _, _,
        (pgroup2_iff _ _ _ _).mpr ⟨?_, by simpa using a5, rfl⟩,
        (parseTDi_iff 2 (by omega) _ _ _).mpr ⟨?_, rfl⟩,
        (pchain3_iff td r 3 l'' _ _ (by omega)).mpr ⟨fun x hx => (a6 x hx).2,
          fun x hx => (a6 x (by simp [hx])).1, a7, ?_⟩⟩
      · simp at a3; rw [nib_toNat]; omega
      · simp only [hv]; simpa using a4
      · rw [nib_toNat]; exact (a6 l'' (by simp)).1
      · simp only [nib_toNat]

end Verif.Atr
