import Verif.TraceAtr
import Verif.AtrEmvProps

/-!
# The reasons given for refusing an ATR: property C133

`Faults` lists what can be wrong with the interface bytes of an ATR, each with the text an
application is shown, in the order of the bytes in the ATR.
-/

set_option autoImplicit false

namespace Verif.Trace.Atr
open Verif Verif.Atr Verif.AtrSpec

/-! ## Specification -/

/-- What can be wrong (EMV Level 1 Contact Interface v1.0, 8.3.3) and how it is called; `t1` and
`t2` are the protocol types of TD1 and TD2. -/
def Faults (ta1 tc1 ta2 tc2 ta3 tb3 tc3 : Option Byte) (t1 t2 : Option Nat) :
    List (List Byte × Prop) :=
  [ (txt!"TA2 indicates specific mode but TA1 is invalid",
      ∃ a b, ta1 = some a ∧ ta2 = some b ∧ b.toNat / 16 % 2 = 0 ∧ ¬ (0x11 ≤ a.toNat ∧ a.toNat ≤ 0x13)),
    (txt!"TA2 indicates negotiable mode but TA1 is invalid",
      ∃ a, ta1 = some a ∧ ta2 = none ∧ (a.toNat / 16 = 0 ∨ a.toNat % 16 < 3)),
    (txt!"TC1 is invalid", ∃ c, tc1 = some c ∧ c.toNat ≠ 0 ∧ c.toNat ≠ 255),
    (txt!"TD1 protocol is invalid", ∃ t, t1 = some t ∧ t ≠ 0 ∧ t ≠ 1),
    (txt!"TA2 protocol differs from TD1 protocol", ∃ a, ta2 = some a ∧ a.toNat % 16 ≠ t1.getD 0),
    (txt!"TA2 implicit mode is invalid", ∃ a, ta2 = some a ∧ a.toNat / 16 % 2 = 1),
    (txt!"TC2 is not allowed when protocol is not T=0", tc2.isSome ∧ t1.getD 0 ≠ 0),
    (txt!"TC2 for T=0 is invalid", ∃ c, tc2 = some c ∧ c.toNat ≠ 10),
    (txt!"TD2 protocol is invalid", ∃ t, t2 = some t ∧
      ((t1.getD 0 = 0 ∧ t ≠ 15) ∨ (t1.getD 0 = 1 ∧ t ≠ 1))),
    (txt!"TD2 for T=1 is absent", t2 = none ∧ t1.getD 0 = 1),
    (txt!"TA3 for T=1 is invalid", t2 = some 1 ∧ ∃ a, ta3 = some a ∧ a.toNat < 16),
    (txt!"TB3 for T=1 has invalid BWI", t2 = some 1 ∧ ∃ b, tb3 = some b ∧ 4 < b.toNat / 16),
    (txt!"TB3 for T=1 has invalid CWI", t2 = some 1 ∧ ∃ b, tb3 = some b ∧ 5 < b.toNat % 16),
    (txt!"TB3 for T=1 is absent", t2 = some 1 ∧ tb3 = none),
    (txt!"TC3 for T=1 is invalid", t2 = some 1 ∧ ∃ c, tc3 = some c ∧ c.toNat ≠ 0) ]

/-- The faults of a chain of interface bytes. -/
def faults (gs : List Link) : List (List Byte × Prop) :=
  Faults (ta gs 1) (tc gs 1) (ta gs 2) (tc gs 2) (ta gs 3) (tb gs 3) (tc gs 3)
    ((tdT gs 1).map (·.val)) ((tdT gs 2).map (·.val))

/-- `x` is the name of the first of the faults that is there, `none` if there is none. -/
inductive First : List (List Byte × Prop) → Option (List Byte) → Prop where
  | clear : First [] none
  | here {p : Prop} (h : p) (t : List Byte) (l : List (List Byte × Prop)) : First ((t, p) :: l) (some t)
  | later {p : Prop} (h : ¬ p) (t : List Byte) {l : List (List Byte × Prop)} {x : Option (List Byte)}
      (r : First l x) : First ((t, p) :: l) x

/-! ## Lemmas -/

theorem First.append {l m : List (List Byte × Prop)} {a b : Option (List Byte)} (h : First l a)
    (k : First m b) : First (l ++ m) (a.or b) := by
  induction h with
  | clear => simpa using k
  | here h t l => exact .here h t _
  | later h t r ih => exact .later h t ih

theorem First.absent {l : List (List Byte × Prop)} (h : First l none) : ∀ f ∈ l, ¬ f.2 := by
  generalize hx : none = x at h
  induction h with
  | clear => intro f hf; cases hf
  | here h t l => cases hx
  | later h t r ih =>
    intro f hf
    rcases List.mem_cons.mp hf with rfl | hf
    · exact h
    · exact ih hx f hf

theorem First.named {l : List (List Byte × Prop)} {t : List Byte} (h : First l (some t)) :
    ∃ f ∈ l, f.1 = t ∧ f.2 := by
  generalize hx : some t = x at h
  induction h with
  | clear => cases hx
  | here h t' l => cases hx; exact ⟨_, List.mem_cons_self, rfl, h⟩
  | later h t' r ih =>
    obtain ⟨f, hf, e⟩ := ih hx
    exact ⟨f, List.mem_cons_of_mem _ hf, e⟩

theorem First.unique {l : List (List Byte × Prop)} {x y : Option (List Byte)} (h : First l x)
    (k : First l y) : x = y := by
  induction h with
  | clear => cases k; rfl
  | here h t l => cases k with
    | here => rfl
    | later h' => exact absurd h h'
  | later h t r ih => cases k with
    | here h' => exact absurd h' h
    | later _ _ r' => exact ih r'

/-- One check in the form of the code. -/
theorem first_one {p q : Prop} [Decidable p] (t : List Byte) (h : p ↔ q) :
    First [(t, q)] (if p then some t else none) := by
  by_cases hp : p
  · rw [if_pos hp]; exact .here (h.mp hp) _ _
  · rw [if_neg hp]; exact .later (mt h.mpr hp) _ .clear

theorem first_ta1 (ta1 ta2 : Option Byte) : First
    [ (txt!"TA2 indicates specific mode but TA1 is invalid",
      ∃ a b, ta1 = some a ∧ ta2 = some b ∧ b.toNat / 16 % 2 = 0 ∧ ¬ (0x11 ≤ a.toNat ∧ a.toNat ≤ 0x13)),
    (txt!"TA2 indicates negotiable mode but TA1 is invalid",
      ∃ a, ta1 = some a ∧ ta2 = none ∧ (a.toNat / 16 = 0 ∨ a.toNat % 16 < 3)) ] (sayTA1 ta1 ta2) := by
  cases ta1 with
  | none => exact .later (by simp) _ (.later (by simp) _ .clear)
  | some a =>
    obtain ⟨f1, f2, f3, f4, _⟩ := byte_facts a
    cases ta2 with
    | none =>
      refine .later (by simp) _ ?_
      simp only [sayTA1, f3, f4]
      by_cases h : a.toNat / 16 = 0
      · rw [if_pos h]; exact .here ⟨a, rfl, by simp, .inl h⟩ _ _
      · rw [if_neg h]
        exact first_one _ (by simp; omega)
    | some b =>
      obtain ⟨_, _, _, _, g5, _⟩ := byte_facts b
      simp only [sayTA1, f1, f2, g5]
      by_cases h : b.toNat / 16 % 2 = 0 ∧ (a.toNat < 17 ∨ 19 < a.toNat)
      · rw [if_pos h]; exact .here ⟨a, b, rfl, rfl, h.1, by omega⟩ _ _
      · rw [if_neg h]
        refine .later ?_ _ (.later (by simp) _ .clear)
        rintro ⟨a', b', e, e', h1, h2⟩
        cases e; cases e'
        omega

theorem first_tc1 (tc1 : Option Byte) : First
    [(txt!"TC1 is invalid", ∃ c, tc1 = some c ∧ c.toNat ≠ 0 ∧ c.toNat ≠ 255)] (sayTC1 tc1) := by
  cases tc1 with
  | none => exact .later (by simp) _ .clear
  | some c =>
    obtain ⟨_, _, _, _, _, _, _, f8, f9, _⟩ := byte_facts c
    exact first_one _ (by simp [f8, f9])

theorem first_td1 (td1 : Option Byte) : First
    [(txt!"TD1 protocol is invalid", ∃ t, td1.map (·.toNat % 16) = some t ∧ t ≠ 0 ∧ t ≠ 1)]
    (sayTD1 td1) := by
  cases td1 with
  | none => exact .later (by simp) _ .clear
  | some d =>
    refine first_one _ ?_
    have h : d &&& 0x0F > 1 ↔ (d &&& 0x0F).toNat > 1 := UInt8.lt_iff_toNat_lt
    rw [h, (byte_facts d).2.2.2.2.2.2.2.2.2.2.2.1]
    simp; omega

theorem first_ta2 (ta2 : Option Byte) (t : Nat) : First
    [(txt!"TA2 protocol differs from TD1 protocol", ∃ a, ta2 = some a ∧ a.toNat % 16 ≠ t),
     (txt!"TA2 implicit mode is invalid", ∃ a, ta2 = some a ∧ a.toNat / 16 % 2 = 1)] (sayTA2 ta2 t) := by
  cases ta2 with
  | none => exact .later (by simp) _ (.later (by simp) _ .clear)
  | some a =>
    obtain ⟨_, _, _, _, f5, _, _, _, _, _, _, f12, _⟩ := byte_facts a
    simp only [sayTA2, ne_eq, f12, f5]
    by_cases h : a.toNat % 16 = t
    · rw [if_neg (by simp [h])]
      exact .later (by simp [h]) _ (first_one _ (by simp))
    · rw [if_pos h]; exact .here ⟨a, rfl, h⟩ _ _

theorem first_tc2 (tc2 : Option Byte) (t : Nat) : First
    [(txt!"TC2 is not allowed when protocol is not T=0", tc2.isSome ∧ t ≠ 0),
     (txt!"TC2 for T=0 is invalid", ∃ c, tc2 = some c ∧ c.toNat ≠ 10)] (sayTC2 tc2 t) := by
  cases tc2 with
  | none => exact .later (by simp) _ (.later (by simp) _ .clear)
  | some a =>
    obtain ⟨_, _, _, _, _, _, f7, _⟩ := byte_facts a
    simp only [sayTC2, ne_eq, f7]
    by_cases h : t = 0
    · rw [if_neg (by simp [h])]
      exact .later (by simp [h]) _ (first_one _ (by simp))
    · rw [if_pos h]; exact .here ⟨rfl, h⟩ _ _

theorem first_td2 (t : Nat) (td2 : Option Byte) : First
    [(txt!"TD2 protocol is invalid", ∃ u, td2.map (·.toNat % 16) = some u ∧
      ((t = 0 ∧ u ≠ 15) ∨ (t = 1 ∧ u ≠ 1))),
     (txt!"TD2 for T=1 is absent", td2.map (·.toNat % 16) = none ∧ t = 1)] (sayTD2 t td2) := by
  cases td2 with
  | none =>
    refine .later (by simp) _ ?_
    simp only [sayTD2]
    exact first_one _ (by simp)
  | some d =>
    obtain ⟨_, _, _, _, _, _, _, _, _, f10, f11, _⟩ := byte_facts d
    simp only [sayTD2, ne_eq, f10, f11]
    by_cases h : t = 0 ∧ ¬ d.toNat % 16 = 15
    · rw [if_pos h]; exact .here ⟨_, rfl, .inl h⟩ _ _
    · rw [if_neg h]
      by_cases h' : t = 1 ∧ ¬ d.toNat % 16 = 1
      · rw [if_pos h']; exact .here ⟨_, rfl, .inr h'⟩ _ _
      · rw [if_neg h']
        refine .later ?_ _ (.later (by simp) _ .clear)
        rintro ⟨u, e, hu⟩
        cases e
        exact hu.elim h h'

theorem first_t1 (td2 ta3 tb3 tc3 : Option Byte) (n : Byte) (cwi : Nat)
    (hn : n.toNat = 0 ∨ n.toNat = 255) : First
    [(txt!"TA3 for T=1 is invalid", td2.map (·.toNat % 16) = some 1 ∧ ∃ a, ta3 = some a ∧ a.toNat < 16),
     (txt!"TB3 for T=1 has invalid BWI",
        td2.map (·.toNat % 16) = some 1 ∧ ∃ b, tb3 = some b ∧ 4 < b.toNat / 16),
     (txt!"TB3 for T=1 has invalid CWI",
        td2.map (·.toNat % 16) = some 1 ∧ ∃ b, tb3 = some b ∧ 5 < b.toNat % 16),
     (txt!"TB3 for T=1 is absent", td2.map (·.toNat % 16) = some 1 ∧ tb3 = none),
     (txt!"TC3 for T=1 is invalid", td2.map (·.toNat % 16) = some 1 ∧ ∃ c, tc3 = some c ∧ c.toNat ≠ 0)]
    (sayT1 td2 ta3 tb3 tc3 n cwi) := by
  have hpow : ¬ 2 ^ (if n ≠ 0 then cwi else 1) < (if n ≠ 0xFF then n.toNat + 1 else 0) := by
    obtain ⟨_, _, _, _, _, _, _, f8, f9, _⟩ := byte_facts n
    rcases hn with h | h
    · rw [if_neg (by simp [f8.mpr h]), if_pos (by rw [f8.mpr h]; decide), h]; decide
    · rw [if_neg (c := n ≠ 0xFF) (by simp [f9.mpr h])]; exact Nat.not_lt_zero _
  have hp : protoOf td2 = 1 ↔ td2.map (·.toNat % 16) = some 1 := by
    cases td2 with
    | none => simp [protoOf]
    | some d => simp [protoOf, (byte_facts d).2.2.2.2.2.2.2.2.2.2.2.1]
  unfold sayT1
  by_cases h : td2.map (·.toNat % 16) = some 1
  · rw [if_pos (hp.mpr h)]
    simp only [h, true_and]
    refine First.append (l := [_]) (a := sayTA3 ta3) ?_
      (First.append (l := [_, _, _]) (a := sayTB3 tb3 n cwi) ?_ ?_)
    · cases ta3 with
      | none => exact .later (by simp) _ .clear
      | some a => exact first_one _ (by simp [(byte_facts a).2.2.2.2.2.1])
    · cases tb3 with
      | none => exact .later (by simp) _ (.later (by simp) _ (.here rfl _ _))
      | some b =>
        obtain ⟨_, _, _, _, _, _, _, _, _, _, _, f12, f13⟩ := byte_facts b
        simp only [sayTB3, f12, f13, if_neg hpow]
        by_cases h1 : b.toNat / 16 > 4
        · rw [if_pos h1]; exact .here ⟨b, rfl, h1⟩ _ _
        · rw [if_neg h1]
          refine .later (by rintro ⟨b', e, h⟩; cases e; exact h1 h) _ ?_
          by_cases h2 : b.toNat % 16 > 5
          · rw [if_pos h2]; exact .here ⟨b, rfl, h2⟩ _ _
          · rw [if_neg h2]
            exact .later (by rintro ⟨b', e, h⟩; cases e; exact h2 h) _ (.later (by simp) _ .clear)
    · cases tc3 with
      | none => exact .later (by simp) _ .clear
      | some c => exact first_one _ (by simp [(byte_facts c).2.2.2.2.2.2.2.1])
  · rw [if_neg (mt hp.mp h)]
    simp only [h, false_and]
    exact .later id _ (.later id _ (.later id _ (.later id _ (.later id _ .clear))))

theorem say_first (ta1 tc1 td1 ta2 tc2 td2 ta3 tb3 tc3 : Option Byte) (n : Byte) (cwi : Nat)
    (hn : n = tc1.getD 0) :
    First (Faults ta1 tc1 ta2 tc2 ta3 tb3 tc3 (td1.map (·.toNat % 16)) (td2.map (·.toNat % 16)))
      (say ta1 tc1 td1 ta2 tc2 td2 ta3 tb3 tc3 n cwi) := by
  have ht : protoOf td1 = (td1.map (·.toNat % 16)).getD 0 := by
    cases td1 with
    | none => rfl
    | some d => exact (byte_facts d).2.2.2.2.2.2.2.2.2.2.2.1
  unfold say Faults
  rw [← ht]
  by_cases hc : n.toNat = 0 ∨ n.toNat = 255
  · exact First.append (l := [_, _]) (first_ta1 _ _) (First.append (l := [_]) (first_tc1 _)
      (First.append (l := [_]) (first_td1 _) (First.append (l := [_, _]) (first_ta2 _ _)
        (First.append (l := [_, _]) (first_tc2 _ _) (First.append (l := [_, _]) (first_td2 _ _)
          (first_t1 _ _ _ _ _ _ hc))))))
  · have htc : sayTC1 tc1 = some txt!"TC1 is invalid" := by
      cases tc1 with
      | none => exact absurd (by rw [hn]; exact Or.inl rfl) hc
      | some c =>
        obtain ⟨_, _, _, _, _, _, _, f8, f9, _⟩ := byte_facts c
        have hn' : n = c := hn
        subst hn'
        simp only [sayTC1, ne_eq, f8, f9]
        rw [if_pos (by omega)]
    have h1 := first_tc1 tc1
    rw [htc] at h1 ⊢
    refine First.append (l := [_, _]) (first_ta1 _ _) ?_
    cases h1 with
    | here h => exact .here h _ _
    | later _ _ r => cases r

theorem say_bool (ta1 tc1 td1 ta2 tc2 td2 ta3 tb3 tc3 : Option Byte) (n : Byte) (cwi : Nat) :
    (say ta1 tc1 td1 ta2 tc2 td2 ta3 tb3 tc3 n cwi).isNone =
      match emvChecks12 ta1 tc1 td1 ta2 tc2 with
      | none => false
      | some t => emvChecks3 t td2 ta3 tb3 tc3 n cwi := by
  have h1 : badTA1 ta1 ta2 = (sayTA1 ta1 ta2).isSome := by
    unfold badTA1 sayTA1
    split <;> (repeat' split) <;> simp_all
  have h2 : badTC1 tc1 = (sayTC1 tc1).isSome := by
    unfold badTC1 sayTC1
    split <;> (repeat' split) <;> simp_all
  have h3 : decide (protoOf td1 > 1) = (sayTD1 td1).isSome := by
    unfold protoOf sayTD1
    cases td1 with
    | none => rfl
    | some d =>
      have h : d &&& 0x0F > 1 ↔ (d &&& 0x0F).toNat > 1 := UInt8.lt_iff_toNat_lt
      by_cases hd : d &&& 0x0F > 1
      · simp only [if_pos hd]; simpa using h.mp hd
      · simp only [if_neg hd]; simpa using mt h.mpr hd
  have h4 : badTA2 ta2 (protoOf td1) = (sayTA2 ta2 (protoOf td1)).isSome := by
    unfold badTA2 sayTA2
    split <;> (repeat' split) <;> simp_all
  have h5 : badTC2 tc2 (protoOf td1) = (sayTC2 tc2 (protoOf td1)).isSome := by
    unfold badTC2 sayTC2
    split <;> (repeat' split) <;> simp_all
  have h6 : badTD2 (protoOf td1) td2 = (sayTD2 (protoOf td1) td2).isSome := by
    unfold badTD2 sayTD2
    split <;> (repeat' split) <;> simp_all
  have h7 : badTA3 ta3 = (sayTA3 ta3).isSome := by
    unfold badTA3 sayTA3
    split <;> (repeat' split) <;> simp_all
  have h8 : badTB3 tb3 n cwi = (sayTB3 tb3 n cwi).isSome := by
    unfold badTB3 sayTB3
    cases tb3 with
    | none => rfl
    | some b =>
      simp only
      generalize 2 ^ (if n ≠ 0 then cwi else 1) = x
      generalize (if n ≠ 0xFF then n.toNat + 1 else 0) = y
      (repeat' split) <;> simp_all
  have h9 : badTC3 tc3 = (sayTC3 tc3).isSome := by
    unfold badTC3 sayTC3
    split <;> (repeat' split) <;> simp_all
  have h3' : (protoOf td1 > 1) = ((sayTD1 td1).isSome = true) := by
    rw [← h3]; simp
  unfold emvChecks12 say emvChecks3
  simp only [h1, h2, h3', h4, h5]
  cases sayTA1 ta1 ta2 with
  | some t => rfl
  | none =>
  cases sayTC1 tc1 with
  | some t => rfl
  | none =>
  cases sayTD1 td1 with
  | some t => rfl
  | none =>
  cases sayTA2 ta2 (protoOf td1) with
  | some t => rfl
  | none =>
  cases sayTC2 tc2 (protoOf td1) with
  | some t => rfl
  | none =>
  simp only [Option.or, Option.isSome, Bool.false_eq_true, if_false, h6]
  cases sayTD2 (protoOf td1) td2 with
  | some t => rfl
  | none =>
  simp only [Option.isSome, Bool.false_eq_true, if_false, sayT1, h7, h8, h9]
  by_cases hp : protoOf td2 = 1
  · rw [if_pos hp, if_pos hp]
    cases sayTA3 ta3 <;> cases sayTB3 tb3 n cwi <;> cases sayTC3 tc3 <;> rfl
  · rw [if_neg hp, if_neg hp]; rfl

/-! ## C133 -/

/-- **C133** (refinement): with its events `emv_atr_parse` decides as without, and reads the same
memory. -/
theorem C133_same (atr : List Byte) : (run atr).map (·.2) = emvParse atr := by
  unfold run emvParse
  by_cases h0 : atr.length = 0
  · rw [if_pos h0, if_pos h0]; rfl
  · rw [if_neg h0, if_neg h0, emvRules]
    cases hp : parse atr with
    | error e => rfl
    | ok r =>
      cases r with
      | error c => rfl
      | ok info =>
        rw [bind_ok, bind_ok]
        simp only
        unfold judge
        cases deref info (·.a) 1 with | error e => rfl | ok ta1 => ?_
        cases deref info (·.c) 1 with | error e => rfl | ok tc1 => ?_
        cases deref info (·.d) 1 with | error e => rfl | ok td1 => ?_
        cases deref info (·.a) 2 with | error e => rfl | ok ta2 => ?_
        cases deref info (·.c) 2 with | error e => rfl | ok tc2 => ?_
        cases deref info (·.d) 2 with | error e => rfl | ok td2 => ?_
        cases deref info (·.a) 3 with | error e => rfl | ok ta3 => ?_
        cases deref info (·.b) 3 with | error e => rfl | ok tb3 => ?_
        cases deref info (·.c) 3 with | error e => rfl | ok tc3 => ?_
        simp only [bind_ok]
        have h := say_bool ta1 tc1 td1 ta2 tc2 td2 ta3 tb3 tc3 info.par.n info.par.cwi
        cases hs : say ta1 tc1 td1 ta2 tc2 td2 ta3 tb3 tc3 info.par.n info.par.cwi with
        | none =>
          rw [hs] at h
          cases h12 : emvChecks12 ta1 tc1 td1 ta2 tc2 with
          | none => rw [h12] at h; cases h
          | some t => rw [h12] at h; simp only [← h]; rfl
        | some t =>
          rw [hs] at h
          cases h12 : emvChecks12 ta1 tc1 td1 ta2 tc2 with
          | none => rfl
          | some t => rw [h12] at h; simp only [← h]; rfl

/-- **C133**: an ATR that the ISO 7816-3 parser refuses is reported as not parsed, and nothing
else is. -/
theorem C133_refused (atr : List Byte) (c : Nat) (hp : parse atr = .ok (.error c)) :
    run atr = .ok ([.said (error 4 (if atr = [] then txt!"Invalid parameter"
      else txt!"Failed to parse ATR"))], if atr = [] then -2 else 1) := by
  cases atr with
  | nil => rfl
  | cons a l => rw [run, if_neg (by simp), hp]; rfl

/-- **C133**: an ATR that is parsed is shown; if it is refused, then exactly one error follows,
and this names the first of the faults in its interface bytes. -/
theorem C133_reason (atr : List Byte) (ts : Byte) (gs : List Link) (td : Option Byte) (info : Info)
    (h : HasChain atr ts gs td) (hp : parse atr = .ok (.ok info)) :
    (First (faults gs) none ∧ run atr = .ok ([.atr info], 0)) ∨
    ∃ text, First (faults gs) (some text) ∧
      run atr = .ok ([.atr info, .said (error 4 text)], 1) := by
  obtain ⟨a1, _, c1, d1⟩ := C43_reports atr ts gs td info h hp 1 (by omega)
  obtain ⟨a2, _, c2, d2⟩ := C43_reports atr ts gs td info h hp 2 (by omega)
  obtain ⟨a3, b3, c3, _⟩ := C43_reports atr ts gs td info h hp 3 (by omega)
  have hn : info.par.n = (tc gs 1).getD 0 := by
    obtain ⟨_, _, hpar, _⟩ := accepted atr ts gs td info h hp
    rw [hpar]
    exact (setAll_values gs h.2.2.1).2.2.2.1
  have hf := say_first (ta gs 1) (tc gs 1) (tdByte gs td 1) (ta gs 2) (tc gs 2) (tdByte gs td 2)
    (ta gs 3) (tb gs 3) (tc gs 3) info.par.n info.par.cwi hn
  rw [tdByte_T gs td h.2.2.2.2.1 1 (by omega), tdByte_T gs td h.2.2.2.2.1 2 (by omega)] at hf
  have hr : run atr = match say (ta gs 1) (tc gs 1) (tdByte gs td 1) (ta gs 2) (tc gs 2)
        (tdByte gs td 2) (ta gs 3) (tb gs 3) (tc gs 3) info.par.n info.par.cwi with
      | some text => .ok ([.atr info, .said (error 4 text)], 1)
      | none => .ok ([.atr info], 0) := by
    rw [run, if_neg (by have := h.1; omega), hp]
    simp only [bind_ok, judge, a1, c1, d1, a2, c2, d2, a3, b3, c3]
    cases say (ta gs 1) (tc gs 1) (tdByte gs td 1) (ta gs 2) (tc gs 2)
      (tdByte gs td 2) (ta gs 3) (tb gs 3) (tc gs 3) info.par.n info.par.cwi <;> rfl
  rw [hr]
  generalize say (ta gs 1) (tc gs 1) (tdByte gs td 1) (ta gs 2) (tc gs 2)
        (tdByte gs td 2) (ta gs 3) (tb gs 3) (tc gs 3) info.par.n info.par.cwi = x at hf
  cases x with
  | none => exact .inl ⟨hf, rfl⟩
  | some t => exact .inr ⟨t, hf, rfl⟩

/-- **C133**: the reason is true: the ATR has the fault that is named, and so violates the EMV
rules; and an accepted ATR has none of the faults. -/
theorem C133_true (atr : List Byte) (ts : Byte) (gs : List Link) (td : Option Byte) (info : Info)
    (evs : List Ev) (code : Int) (h : HasChain atr ts gs td) (hp : parse atr = .ok (.ok info))
    (hr : run atr = .ok (evs, code)) :
    (∀ text, .said (error 4 text) ∈ evs → ¬ EmvRules gs ∧ ∃ f ∈ faults gs, f.1 = text ∧ f.2) ∧
    (code = 0 → ∀ f ∈ faults gs, ¬ f.2) := by
  have h47 := C47_emv atr ts gs td info h hp
  have hs := C133_same atr
  rw [hr] at hs
  rcases C133_reason atr ts gs td info h hp with ⟨hf, e⟩ | ⟨t, hf, e⟩
  · rw [e] at hr
    cases hr
    exact ⟨fun text ht => by simp at ht, fun _ => hf.absent⟩
  · rw [e] at hr
    cases hr
    refine ⟨fun text ht => ⟨fun R => ?_, ?_⟩, fun h => by cases h⟩
    · have := h47.1 R
      rw [this] at hs
      cases hs
    · have : text = t := by
        have ht' : Ev.said (error 4 text) = .said (error 4 t) := by simpa using ht
        simpa [error] using ht'
      subst this
      exact hf.named

/-- **C133**: the relation of waiting time and guard time for T=1 is never what is wrong: TC1 was
checked before, so that this message cannot be shown. -/
theorem C133_never (atr : List Byte) (evs : List Ev) (code : Int) (hr : run atr = .ok (evs, code)) :
    .said (error 4 txt!"2^CWI < (N + 1) for T=1 is not allowed") ∉ evs := by
  intro hm
  have hs : C.Safe (parse atr) := by
    cases hx : parse atr with
    | ok r => exact ⟨r, rfl⟩
    | error e =>
      unfold run at hr
      split at hr
      · cases hr; simp [error] at hm; exact absurd hm (by decide)
      · rw [hx] at hr; cases hr
  obtain ⟨r, hp⟩ := hs
  cases r with
  | error c =>
    rw [C133_refused atr c hp] at hr
    cases hr
    split at hm <;> simp [error] at hm <;> exact absurd hm (by decide)
  | ok info =>
    have h2 : ¬ (atr.length < 2 ∨ atr.length > 33) := by
      intro hl
      rw [parse, if_pos hl] at hp
      cases hp
    obtain ⟨ts, gs, td, hc⟩ := hasChain_exists atr (by omega) (by omega)
    rcases C133_reason atr ts gs td info hc hp with ⟨_, e⟩ | ⟨t, hf, e⟩
    · rw [e] at hr; cases hr; simp at hm
    · rw [e] at hr
      cases hr
      have : t = txt!"2^CWI < (N + 1) for T=1 is not allowed" := by
        have ht' : Ev.said (error 4 txt!"2^CWI < (N + 1) for T=1 is not allowed") = .said (error 4 t) := by
          simpa using hm
        simpa [error] using ht'.symm
      subst this
      obtain ⟨f, hf, e, _⟩ := hf.named
      simp only [faults, Faults, List.mem_cons, List.not_mem_nil, or_false] at hf
      rcases hf with rfl | rfl | rfl | rfl | rfl | rfl | rfl | rfl | rfl | rfl | rfl | rfl | rfl | rfl | rfl <;>
        (dsimp only at e; exact absurd e (by decide))

-- a T=1 ATR whose TB3 is 6F: BWI and CWI are both too large, BWI is named; and one accepted
example : (run [0x3B, 0xE0, 0x00, 0x00, 0x81, 0x31, 0x20, 0x6F, 0x1F]).toOption.map (fun x => (x.1.drop 1, x.2)) =
      some ([.said (error 4 txt!"TB3 for T=1 has invalid BWI")], 1) ∧
    (run [0x3B, 0xE0, 0x00, 0x00, 0x81, 0x31, 0x20, 0x45, 0x35]).toOption.map (fun x => (x.1.length, x.2)) =
      some (1, 0) ∧
    run [0x3B] = .ok ([.said (error 4 txt!"Failed to parse ATR")], 1) := by decide +kernel

-- the hypotheses of `C133_reason` and a named fault: TC1 is 01
example : HasChain [0x3B, 0x40, 0x01] 0x3B [⟨0, none, none, some 1⟩] none ∧
    First (faults [⟨0, none, none, some 1⟩]) (some txt!"TC1 is invalid") ∧
    (run [0x3B, 0x40, 0x01]).toOption.map (fun x => (x.1.drop 1, x.2)) =
      some ([.said (error 4 txt!"TC1 is invalid")], 1) := by
  refine ⟨⟨by decide, by decide, by decide, by decide, by decide, List.replicate 30 0, by decide⟩, ?_,
    by decide +kernel⟩
  exact .later (by simp [ta]) _ (.later (by simp [ta]) _ (.here ⟨1, by decide, by decide, by decide⟩ _ _))

end Verif.Trace.Atr
