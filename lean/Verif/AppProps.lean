import Verif.App
import Verif.TlvParseProps
import Verif.Iso8859Props

/-! # Properties of application objects: C36, C37 -/

set_option autoImplicit false

namespace Verif.App
open Verif Ber TlvParse Formats

/-! ## C36 -/

/-- The AID matches an entry of the list: equal, or an entry that allows partial matching is a
prefix of it. -/
def Matches (aid : List Byte) (supported : List Tlv) : Prop :=
  ∃ t ∈ supported, (t.flags = 0 ∧ t.value = aid) ∨ (t.flags = 1 ∧ t.value <+: aid)

/-- **C36.**  For every AID and list the check completes without reading out of bounds and
answers exactly whether the AID matches an entry (flags 0: exact match required, 1: partial
match allowed). -/
theorem C36_supported_iff (aid : List Byte) (supported : List Tlv) :
    ∃ b, isSupported aid supported = .ok b ∧ (b = true ↔ Matches aid supported) := by
  induction supported with
  | nil => exact ⟨false, rfl, by simp [Matches]⟩
  | cons t rest ih =>
    obtain ⟨b, hb, hi⟩ := ih
    have hpre : t.value.length ≤ aid.length →
        ((t.value == aid.take t.value.length) = true ↔ t.value <+: aid) := by
      intro h
      rw [beq_iff_eq, List.prefix_iff_eq_take]
    have hcons : Matches aid (t :: rest) ↔
        ((t.flags = 0 ∧ t.value = aid) ∨ (t.flags = 1 ∧ t.value <+: aid)) ∨ Matches aid rest := by
      simp [Matches]
    rw [hcons]
    unfold isSupported
    by_cases h0 : t.flags = 0 ∧ t.value.length = aid.length
    · rw [if_pos h0, slice_eq (by omega)]
      simp only [bind_ok, List.drop_zero]
      have e : aid.take t.value.length = aid := by rw [h0.2, List.take_length]
      rw [e]
      by_cases h1 : t.value = aid
      · rw [if_pos (by simp [h1])]
        exact ⟨true, rfl, by simp [h0.1, h1]⟩
      · rw [if_neg (by simp [h1])]
        have : ¬ (t.flags = 1 ∧ t.value.length ≤ aid.length) := by
          rintro ⟨h, -⟩; rw [h0.1] at h; exact absurd h (by decide)
        rw [if_neg this]
        simp only [bind_ok, Bool.false_eq_true, if_false]
        refine ⟨b, hb, ?_⟩
        rw [hi]
        simp [h0.1, h1]
    · rw [if_neg h0]
      simp only [Bool.false_eq_true, if_false]
      by_cases h1 : t.flags = 1 ∧ t.value.length ≤ aid.length
      · rw [if_pos h1, slice_eq (by omega)]
        simp only [bind_ok, List.drop_zero]
        by_cases h2 : t.value <+: aid
        · rw [if_pos ((hpre h1.2).mpr h2)]
          exact ⟨true, rfl, by simp [h1.1, h2]⟩
        · rw [if_neg (fun h => h2 ((hpre h1.2).mp h))]
          refine ⟨b, hb, ?_⟩
          rw [hi]
          simp [h1.1, h2]
      · rw [if_neg h1]
        refine ⟨b, hb, ?_⟩
        rw [hi]
        have n0 : ¬ (t.flags = 0 ∧ t.value = aid) := fun h => h0 ⟨h.1, by rw [h.2]⟩
        have n1 : ¬ (t.flags = 1 ∧ t.value <+: aid) := fun h => h1 ⟨h.1, h.2.length_le⟩
        simp [n0, n1]

example : isSupported [0xA0, 0, 0, 0, 3, 0x10, 0x10] [⟨0x9F06, 0, [0xA0, 0, 0, 0, 4]⟩,
    ⟨0x9F06, 1, [0xA0, 0, 0, 0, 3]⟩] = .ok true := by decide
example : isSupported [0xA0, 0, 0, 0, 3, 0x10, 0x10] [⟨0x9F06, 0, [0xA0, 0, 0, 0, 3]⟩] =
    .ok false := by decide

/-! ## C37 -/

/-- The value of the first field with this tag. -/
def field (tag : Nat) (tlvs : List Tlv) : Option (List Byte) :=
  (tlvs.filter (fun t => t.tag = tag)).head?.map (·.value)

/-- The issuer code table (9F11), from the directory's FCI if there is one, names ISO 8859-1. -/
def latin1 (pse : Option (List Tlv)) (tlvs : List Tlv) : Prop :=
  field 0x9F11 (match pse with | some l => l | none => tlvs) = some [1]

instance (pse : Option (List Tlv)) (tlvs : List Tlv) : Decidable (latin1 pse tlvs) := by
  unfold latin1; infer_instance

/-- What the cardholder may be shown of the preferred name: up to 16 printable characters, in
UTF-8. -/
def shownPreferred (v : List Byte) : List Byte :=
  Iso8859.utf8 ((v.filter (fun b => decide (Printable8859 b))).take 16)

/-- The text of the display name per EMV Book 1, 12.2.4: preferred name, label, or AID. -/
def shown (pse : Option (List Tlv)) (tlvs : List Tlv) (aid : List Byte) : List Byte :=
  match (if latin1 pse tlvs then (field 0x9F12 tlvs).map shownPreferred else none) with
  | some (c :: s) => c :: s
  | _ =>
    match field 0x50 tlvs with
    | some v => (v.filter (fun b => decide (AlnumSpace b))).take 32
    | none => (hexOf aid).take 32

theorem find_field (l : List Tlv) (tag : Nat) : (find l tag).map (·.value) = field tag l := by
  unfold find field
  have e : (fun t : Tlv => t.tag == tag) = (fun t : Tlv => decide (t.tag = tag)) := by
    funext t; rfl
  rw [e, List.head?_filter]

theorem codeTable_spec (pse : Option (List Tlv)) (tlvs : List Tlv) :
    codeTable pse tlvs = .ok (if latin1 pse tlvs then 1 else 0) := by
  have e : pse.getD tlvs = (match pse with | some l => l | none => tlvs) := by cases pse <;> rfl
  have hl : latin1 pse tlvs ↔ (find (pse.getD tlvs) 0x9F11).map (·.value) = some [1] := by
    rw [find_field, e]
    exact Iff.rfl
  have key : ∀ o : Option Tlv, (match o with
      | some t =>
        if t.value.length = 1 then do
          let b ← rd t.value 0
          .ok (if Iso8859.isSupported b.toNat then b.toNat else 0)
        else .ok 0
      | none => .ok 0 : C Nat) = .ok (if o.map (·.value) = some [1] then 1 else 0) := by
    intro o
    cases o with
    | none => rfl
    | some t =>
      obtain ⟨tag, flags, v⟩ := t
      match v with
      | [] => rfl
      | [b] =>
        simp only [List.length_singleton, if_true, rd_cons_zero, bind_ok, Option.map_some,
          Option.some.injEq, List.cons.injEq, and_true]
        congr 1
        have : ∀ b : Byte, (if Iso8859.isSupported b.toNat = true then b.toNat else 0) =
          if b = 1 then 1 else 0 := by decide +kernel
        exact this b
      | b :: c :: l => simp
  simp only [hl]
  exact key _

theorem strlen_str : ∀ (s rest : List Byte), (∀ b ∈ s, b ≠ 0) →
    strlen (s ++ 0 :: rest) = .ok s.length := by
  intro s rest
  induction s with
  | nil => intro _; simp [strlen]
  | cons b s ih =>
    intro h
    simp only [List.cons_append, strlen]
    rw [if_neg (h b (by simp)), ih (fun x hx => h x (by simp [hx]))]
    rfl

theorem takeWhile_all {p : Byte → Bool} : ∀ s : List Byte, (∀ b ∈ s, p b = true) →
    s.takeWhile p = s := by
  intro s h
  induction s with
  | nil => rfl
  | cons b s ih =>
    rw [List.takeWhile_cons, if_pos (h b (by simp)), ih (fun x hx => h x (by simp [hx]))]

theorem printable_ne_zero (b : Byte) (h : Printable8859 b) : b ≠ 0 := by
  rintro rfl
  exact absurd h (by decide)

theorem utf8_length_le : ∀ s : List Byte, (Iso8859.utf8 s).length ≤ 2 * s.length := by
  intro s
  induction s with
  | nil => simp [Iso8859.utf8]
  | cons b s ih =>
    rw [Iso8859.utf8_cons, List.length_append, List.length_cons]
    have := Iso8859.utf8_single b
    omega

theorem utf8_eq_nil (s : List Byte) : Iso8859.utf8 s = [] ↔ s = [] := by
  cases s with
  | nil => simp [Iso8859.utf8]
  | cons b s =>
    have := Iso8859.utf8_single b
    constructor
    · intro h
      rw [Iso8859.utf8_cons] at h
      have h' := congrArg List.length h
      rw [List.length_append, List.length_nil] at h'
      omega
    · intro h; cases h

/-- Zero-filled 33-byte field holding the text `s`. -/
theorem zeros_drop (n : Nat) : (List.replicate 33 (0 : Byte)).drop n = List.replicate (33 - n) 0 :=
  List.drop_replicate

/-- The preferred name part, complete. -/
theorem preferredName_spec (tlvs : List Tlv) (ct : Nat) (hct : ct = 0 ∨ ct = 1) :
    preferredName ct tlvs (List.replicate 33 0) =
      match (if ct = 1 then (field 0x9F12 tlvs).map shownPreferred else none) with
      | some (c :: s) => .ok (true, (c :: s) ++ 0 :: List.replicate (32 - (c :: s).length) 0)
      | _ => .ok (false, List.replicate 33 0) := by
  unfold preferredName
  rcases hct with rfl | rfl
  · rfl
  · rw [if_neg (by decide), if_pos rfl, ← find_field]
    cases find tlvs 0x9F12 with
    | none => rfl
    | some t =>
      simp only [Option.map_some]
      by_cases hv : t.value = []
      · rw [hv]
        rfl
      · have e17 : List.replicate 17 (0 : Byte) ≠ [] := by simp
        rw [C12_non_control t.value (List.replicate 17 0) hv e17]
        simp only [bind_ok, if_true]
        rw [List.length_replicate]
        generalize hk : (t.value.filter (fun b => decide (Printable8859 b))).take (17 - 1) = k
        have hsp : shownPreferred t.value = Iso8859.utf8 k := by
          rw [← hk]; rfl
        rw [hsp]
        have hkp : ∀ b ∈ k, Printable8859 b := by
          intro b hb
          rw [← hk] at hb
          have := (List.mem_filter.mp (List.mem_of_mem_take hb)).2
          simpa using this
        have hkl : k.length ≤ 16 := by rw [← hk]; simp; omega
        have hk0 : ∀ b ∈ k, b ≠ 0 := fun b hb => printable_ne_zero b (hkp b hb)
        unfold strOver
        rw [strlen_str k _ hk0]
        simp only [bind_ok]
        rw [slice_eq (by simp)]
        simp only [bind_ok, List.drop_zero, List.take_left]
        by_cases hkn : k = []
        · rw [hkn]
          rfl
        · have htext : Iso8859.text k = k := by
            unfold Iso8859.text
            exact takeWhile_all k (fun b hb => by simpa using hk0 b hb)
          have hul := utf8_length_le k
          have hspec := Iso8859.toUtf8_spec k (List.replicate 33 0) hkn (by simp)
            (by rw [htext]; exact hkp)
          rw [htext] at hspec
          have hlt : (Iso8859.utf8 k).length < (List.replicate 33 (0 : Byte)).length := by
            rw [List.length_replicate]; omega
          simp only [Iso8859.fit_all _ _ hlt] at hspec
          rw [if_pos hlt] at hspec
          rw [hspec]
          simp only [bind_ok]
          have hz : (0 :: (List.replicate 33 (0 : Byte)).tail) = List.replicate 33 0 := rfl
          rw [hz, zeros_drop]
          match hu : Iso8859.utf8 k with
          | [] => exact absurd ((utf8_eq_nil k).mp hu) hkn
          | c :: s =>
            simp only
            have : 33 - ((c :: s).length + 1) = 32 - (c :: s).length := by omega
            rw [this]
            rfl

/-- **C37.**  For every combination of fields: extracting the display name reads and writes
only inside its buffers; it fails only when there is no name, no label and an empty AID; and
the 33-byte field then holds the specified text (at most 32 bytes) followed by zeros. -/
theorem C37_display_name (pse : Option (List Tlv)) (tlvs : List Tlv) (aid : Tlv) :
    (shown pse tlvs aid.value).length ≤ 32 ∧
    ∃ r name, displayName pse tlvs aid (List.replicate 33 0) = .ok (r, name) ∧
      name = shown pse tlvs aid.value ++
        List.replicate (33 - (shown pse tlvs aid.value).length) 0 ∧
      (r = 0 ∨ (r = -1 ∧ aid.value = [] ∧ field 0x50 tlvs = none)) := by
  have hzero : ∀ s : List Byte, s.length ≤ 32 → strOver s (List.replicate 33 0) =
      s ++ List.replicate (33 - s.length) 0 := by
    intro s hs
    unfold strOver
    rw [zeros_drop]
    have : 33 - s.length = (33 - (s.length + 1)) + 1 := by omega
    rw [this, List.replicate_succ]
  have e33 : List.replicate 33 (0 : Byte) ≠ [] := by simp
  unfold displayName
  rw [codeTable_spec]
  simp only [bind_ok]
  rw [preferredName_spec tlvs _ (by split <;> simp)]
  have hsw : (if (if latin1 pse tlvs then 1 else 0) = 1 then
      (field 0x9F12 tlvs).map shownPreferred else none) =
      (if latin1 pse tlvs then (field 0x9F12 tlvs).map shownPreferred else none) := by
    split <;> simp_all
  rw [hsw]
  unfold shown
  have hpl : ∀ l, (if latin1 pse tlvs then (field 0x9F12 tlvs).map shownPreferred else none) = some l →
      l.length ≤ 32 := by
    intro l hl
    split at hl
    · cases hf : field 0x9F12 tlvs with
      | none => rw [hf] at hl; cases hl
      | some v =>
        rw [hf] at hl
        cases hl
        have := utf8_length_le ((v.filter (fun b => decide (Printable8859 b))).take 16)
        simp only [shownPreferred]
        simp at this ⊢
        omega
    · cases hl
  generalize (if latin1 pse tlvs then (field 0x9F12 tlvs).map shownPreferred else none) = o at hpl
  have rest : ((match field 0x50 tlvs with
      | some v => (v.filter (fun b => decide (AlnumSpace b))).take 32
      | none => (hexOf aid.value).take 32).length ≤ 32) ∧
    ∃ r name, (match find tlvs 0x50 with
      | some t => do
        let (_, name) ← Formats.ansToAlnumSpaceStr t.value (List.replicate 33 0)
        .ok (0, name)
      | none => Formats.bToStr aid.value (List.replicate 33 0) : C (Int × List Byte)) = .ok (r, name) ∧
      name = (match field 0x50 tlvs with
      | some v => (v.filter (fun b => decide (AlnumSpace b))).take 32
      | none => (hexOf aid.value).take 32) ++
        List.replicate (33 - (match field 0x50 tlvs with
      | some v => (v.filter (fun b => decide (AlnumSpace b))).take 32
      | none => (hexOf aid.value).take 32).length) 0 ∧
      (r = 0 ∨ (r = -1 ∧ aid.value = [] ∧ field 0x50 tlvs = none)) := by
    rw [← find_field]
    cases find tlvs 0x50 with
    | some t =>
      simp only [Option.map_some]
      refine ⟨by simp; omega, 0, ?_⟩
      by_cases hv : t.value = []
      · refine ⟨List.replicate 33 0, ?_, ?_, Or.inl rfl⟩
        · rw [(C12_refused t.value _ (Or.inl hv)).2]; rfl
        · rw [hv]; rfl
      · refine ⟨_, by rw [C12_alnum_space _ _ hv e33]; rfl, ?_, Or.inl rfl⟩
        rw [List.length_replicate]
        exact hzero _ (by simp; omega)
    | none =>
      simp only [Option.map_none]
      refine ⟨by simp; omega, ?_⟩
      by_cases hv : aid.value = []
      · refine ⟨-1, List.replicate 33 0, by rw [C13_refused _ _ (Or.inl hv)], ?_, Or.inr ⟨rfl, hv, trivial⟩⟩
        rw [hv]; rfl
      · refine ⟨0, _, by rw [C13_hex _ _ hv e33], ?_, Or.inl rfl⟩
        rw [List.length_replicate]
        exact hzero _ (by simp; omega)
  match o, hpl with
  | some (c :: s), hpl =>
    have h32 := hpl _ rfl
    refine ⟨h32, 0, _, rfl, ?_, Or.inl rfl⟩
    simp only
    have : 33 - (c :: s).length = (32 - (c :: s).length) + 1 := by omega
    rw [this, List.replicate_succ]
  | some [], _ => exact rest
  | none, _ => exact rest

/-- Priority and confirmation come from the first byte of field 87. -/
theorem C37_priority (tlvs : List Tlv) :
    ∃ p c, priority tlvs = .ok (p, c) ∧ p ≤ 15 ∧
      (∀ b l, field 0x87 tlvs = some (b :: l) → p = b.toNat % 16 ∧ (c = true ↔ 128 ≤ b.toNat)) ∧
      (field 0x87 tlvs = none ∨ field 0x87 tlvs = some [] → p = 0 ∧ c = false) := by
  unfold priority
  rw [← find_field]
  cases find tlvs 0x87 with
  | none => exact ⟨0, false, rfl, by omega, by simp, by simp⟩
  | some t =>
    simp only [Option.map_some]
    match t.value with
    | [] => exact ⟨0, false, rfl, by omega, by simp, by simp⟩
    | b :: l =>
      have h1 : ∀ b : Byte, (b &&& 0x0F).toNat = b.toNat % 16 ∧ (b &&& 0x0F).toNat ≤ 15 ∧
        ((b &&& 0x80) ≠ 0 ↔ 128 ≤ b.toNat) := by decide +kernel
      obtain ⟨a1, a2, a3⟩ := h1 b
      refine ⟨_, _, rfl, a2, ?_, by simp⟩
      intro b' l' h
      cases h
      exact ⟨a1, by simpa using a3⟩

/-- Preferred name "Café" with code table 1; label otherwise. -/
example : displayName none [⟨0x50, 0, [0x56, 0x2E, 0x49]⟩, ⟨0x9F12, 0, [0x43, 0x61, 0x66, 0xE9]⟩,
    ⟨0x9F11, 0, [1]⟩] ⟨0x84, 0, [0xA0]⟩ (List.replicate 33 0) =
    .ok (0, [0x43, 0x61, 0x66, 0xC3, 0xA9] ++ List.replicate 28 0) := by decide +kernel
example : displayName none [⟨0x50, 0, [0x56, 0x2E, 0x49]⟩, ⟨0x9F12, 0, [0x43, 0x61, 0x66, 0xE9]⟩,
    ⟨0x9F11, 0, [2]⟩] ⟨0x84, 0, [0xA0]⟩ (List.replicate 33 0) =
    .ok (0, [0x56, 0x49] ++ List.replicate 31 0) := by decide +kernel

end Verif.App
