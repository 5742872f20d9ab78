import Verif.CompactTlv

/-! # Properties of COMPACT-TLV: C48 -/

set_option autoImplicit false

namespace Verif.CompactTlv
open Verif

/-! ## Specification (ISO 7816-4, 8.1.1.2.3): tag nibble, length nibble, value -/

/-- A 4-bit tag with up to 15 value bytes. -/
def WF (t : Tlv) : Prop := t.tag.toNat < 16 ∧ t.value.length < 16

/-- Its encoding. -/
def enc (t : Tlv) : List Byte := UInt8.ofNat (t.tag.toNat * 16 + t.value.length) :: t.value

/-- Concatenation. -/
def encAll (ts : List Tlv) : List Byte := (ts.map enc).flatten

/-! ## Lemmas -/

theorem nib : ∀ b : Byte, (b &&& 0xF).toNat = b.toNat % 16 ∧ (b >>> 4).toNat = b.toNat / 16 := by
  decide +kernel

theorem enc_length_pos (t : Tlv) : 0 < (enc t).length := by simp [enc]

theorem itrNext_enc (t : Tlv) (h : WF t) (rest : List Byte) :
    itrNext (enc t ++ rest) = .ok (rest, .ok (t.value.length + 1) t) := by
  obtain ⟨h1, h2⟩ := h
  have hb : (UInt8.ofNat (t.tag.toNat * 16 + t.value.length)).toNat =
      t.tag.toNat * 16 + t.value.length := by
    rw [UInt8.toNat_ofNat']; omega
  obtain ⟨e1, e2⟩ := nib (UInt8.ofNat (t.tag.toNat * 16 + t.value.length))
  have e1' : (UInt8.ofNat (t.tag.toNat * 16 + t.value.length) &&& 0xF).toNat = t.value.length := by
    rw [e1, hb]; omega
  have e2' : UInt8.ofNat (t.tag.toNat * 16 + t.value.length) >>> 4 = t.tag := by
    apply UInt8.toNat_inj.mp
    rw [e2, hb]; omega
  have hd : decode (enc t ++ rest) = .ok (.ok (t.value.length + 1) t) := by
    unfold decode enc
    rw [if_neg (by simp)]
    simp only [List.cons_append, rd_cons_zero, bind_ok, e1']
    rw [if_neg (by simp), slice_eq (by simp; omega)]
    simp only [bind_ok, e2', List.drop_succ_cons, List.drop_zero, List.take_left]
  unfold itrNext
  rw [hd]
  simp only [bind_ok]
  rw [suffix_eq (by simp [enc])]
  have e : (enc t ++ rest).drop (t.value.length + 1) = rest := by
    rw [show t.value.length + 1 = (enc t).length by simp [enc], List.drop_left]
  rw [e]; rfl

theorem itrNext_any (buf : List Byte) :
    (buf = [] ∧ itrNext buf = .ok ([], .eod)) ∨
    (buf ≠ [] ∧ itrNext buf = .ok (buf, .err (-3)) ∧
      ∀ (t : Tlv) (rest : List Byte), WF t → buf ≠ enc t ++ rest) ∨
    (∃ t rest, WF t ∧ buf = enc t ++ rest ∧
      itrNext buf = .ok (rest, .ok (t.value.length + 1) t)) := by
  by_cases h : ∃ (t : Tlv) (rest : List Byte), WF t ∧ buf = enc t ++ rest
  · obtain ⟨t, rest, h1, h2⟩ := h
    exact Or.inr (Or.inr ⟨t, rest, h1, h2, by rw [h2]; exact itrNext_enc t h1 rest⟩)
  · have hno : ∀ (t : Tlv) (rest : List Byte), WF t → buf ≠ enc t ++ rest :=
      fun t rest h1 h2 => h ⟨t, rest, h1, h2⟩
    cases buf with
    | nil => exact Or.inl ⟨rfl, rfl⟩
    | cons b buf =>
      refine Or.inr (Or.inl ⟨by simp, ?_, hno⟩)
      obtain ⟨e1, e2⟩ := nib b
      have hb := b.toNat_lt
      have hlt : buf.length < b.toNat % 16 := by
        apply Nat.lt_of_not_le
        intro hle
        refine hno ⟨UInt8.ofNat (b.toNat / 16), buf.take (b.toNat % 16)⟩ (buf.drop (b.toNat % 16))
          ⟨?_, ?_⟩ ?_
        · simp only [UInt8.toNat_ofNat']; omega
        · simp; omega
        · simp only [enc, List.length_take, UInt8.toNat_ofNat', List.cons_append,
            List.take_append_drop, List.cons.injEq, and_true]
          apply UInt8.toNat_inj.mp
          rw [UInt8.toNat_ofNat', Nat.min_eq_left hle]
          omega
      have hd : decode (b :: buf) = .ok (.err (-3)) := by
        unfold decode
        rw [if_neg (by simp)]
        simp only [rd_cons_zero, bind_ok, e1]
        rw [if_pos (by simpa using hlt)]
      rw [itrNext, hd]; rfl

theorem iterate_enc (ts : List Tlv) (h : ∀ t ∈ ts, WF t) : ∀ (fuel : Nat),
    (encAll ts).length < fuel → iterate fuel (encAll ts) = .ok (ts, 0) := by
  induction ts with
  | nil =>
    intro fuel hf
    cases fuel with
    | zero => omega
    | succ fuel => rfl
  | cons t ts ih =>
    intro fuel hf
    have he : encAll (t :: ts) = enc t ++ encAll ts := by simp [encAll]
    have hp := enc_length_pos t
    rw [he] at hf ⊢
    simp at hf
    cases fuel with
    | zero => omega
    | succ fuel =>
      unfold iterate
      rw [itrNext_enc t (h t (by simp))]
      simp only [bind_ok]
      rw [ih (fun x hx => h x (by simp [hx])) fuel (by omega)]
      rfl

theorem iterate_any : ∀ (fuel : Nat) (buf : List Byte), buf.length < fuel →
    ∃ ts rest c, (∀ t ∈ ts, WF t) ∧ buf = encAll ts ++ rest ∧ iterate fuel buf = .ok (ts, c) ∧
      ((rest = [] ∧ c = 0) ∨
       (rest ≠ [] ∧ c = -3 ∧ ∀ (t : Tlv) (tl : List Byte), WF t → rest ≠ enc t ++ tl)) := by
  intro fuel
  induction fuel with
  | zero => intro buf h; omega
  | succ fuel ih =>
    intro buf hf
    unfold iterate
    rcases itrNext_any buf with ⟨h0, h1⟩ | ⟨h0, h1, hno⟩ | ⟨t, rest, ht, hb, h1⟩
    · subst h0
      exact ⟨[], [], 0, by simp, rfl, by rw [h1]; rfl, Or.inl ⟨rfl, rfl⟩⟩
    · exact ⟨[], buf, -3, by simp, by simp [encAll], by rw [h1]; rfl, Or.inr ⟨h0, rfl, hno⟩⟩
    · have hlen := congrArg List.length hb
      have hp := enc_length_pos t
      simp at hlen
      obtain ⟨ts, rest', c, h2, h3, h4, h5⟩ := ih rest (by omega)
      refine ⟨t :: ts, rest', c, ?_, ?_, ?_, h5⟩
      · intro x hx
        rcases List.mem_cons.mp hx with rfl | hx
        · exact ht
        · exact h2 x hx
      · rw [hb, h3]; simp [encAll]
      · rw [h1]
        simp only [bind_ok]
        rw [h4]
        rfl

/-! ## Properties -/

/-- **C48** (round trip).  Iterating any non-empty encoded sequence yields exactly that
sequence, then end-of-data. -/
theorem C48_roundtrip (ts : List Tlv) (h : ∀ t ∈ ts, WF t) (hne : ts ≠ []) :
    iterateAll (encAll ts) = .ok (some (ts, 0)) := by
  have hl : (encAll ts).length ≠ 0 := by
    cases ts with
    | nil => exact absurd rfl hne
    | cons t ts => simp [encAll, enc]
  rw [iterateAll, if_neg hl, iterate_enc ts h _ (Nat.lt_succ_self _)]
  rfl

/-- **C48** (arbitrary input).  Iterating any non-empty byte string terminates in bounds; the
objects reported are exactly those encoded in the consumed prefix; the end is clean exactly
when everything was consumed, else it is an error where no object can start. -/
theorem C48_any (buf : List Byte) (hne : buf ≠ []) :
    ∃ ts rest c, (∀ t ∈ ts, WF t) ∧ buf = encAll ts ++ rest ∧
      iterateAll buf = .ok (some (ts, c)) ∧
      ((rest = [] ∧ c = 0) ∨
       (rest ≠ [] ∧ c = -3 ∧ ∀ (t : Tlv) (tl : List Byte), WF t → rest ≠ enc t ++ tl)) := by
  obtain ⟨ts, rest, c, h1, h2, h3, h4⟩ := iterate_any _ buf (Nat.lt_succ_self _)
  refine ⟨ts, rest, c, h1, h2, ?_, h4⟩
  rw [iterateAll, if_neg (by simpa using hne), h3]
  rfl

/-- **C48** (empty input is refused). -/
theorem C48_empty : iterateAll [] = .ok none := rfl

example : iterateAll [0x31, 0xC0, 0x73, 0xD6, 0x21, 0xC0] =
    .ok (some ([⟨3, [0xC0]⟩, ⟨7, [0xD6, 0x21, 0xC0]⟩], 0)) ∧
    iterateAll [0x31, 0xC0, 0x73, 0xD6] = .ok (some ([⟨3, [0xC0]⟩], -3)) := by decide +kernel

end Verif.CompactTlv
