import Verif.Ber
import Verif.BerSpec

/-! # Helper lemmas about the BER model -/

set_option autoImplicit false

namespace Verif.Ber
open Verif BerSpec

/-! ## Byte facts (complete tables) -/

theorem high_iff : ∀ b : Byte, (b &&& tagNumberMask = tagHighForm) ↔ b.toNat % 32 = 31 := by
  decide +kernel

theorem more_iff : ∀ b : Byte, (b &&& tagHighFormMore = 0) ↔ b.toNat < 128 := by
  decide +kernel

theorem long_iff : ∀ b : Byte, (b &&& lenLongForm = 0) ↔ b.toNat < 128 := by
  decide +kernel

theorem constructed_iff : ∀ b : Byte, (b &&& constructedBit = 0) ↔ b.toNat / 32 % 2 = 0 := by
  decide +kernel

theorem flags_eq : ∀ b : Byte,
    b &&& (classMask ||| constructedBit) = UInt8.ofNat (b.toNat / 32 * 32) := by
  decide +kernel

theorem flags_constructed_iff : ∀ b : Byte,
    ((b &&& (classMask ||| constructedBit)) &&& constructedBit = 0) ↔
      b.toNat / 32 % 2 = 0 := by
  decide +kernel

theorem count_eq : ∀ b : Byte, (b &&& lenCountMask).toNat = b.toNat % 128 := by
  decide +kernel

theorem lenIndefinite_toNat : lenIndefinite.toNat = 128 := rfl

theorem toNat_lt (b : Byte) : b.toNat < 256 := by
  have := b.toNat_lt; omega

/-! ## Safety -/

/-- What any result of decoding `buf` satisfies. -/
def DecOk (buf : List Byte) : Dec Tlv → Prop
  | .eod => buf = []
  | .err c => c < 0
  | .ok n t => ∃ hdr rest, buf = hdr ++ t.value ++ rest ∧ 2 ≤ hdr.length ∧
      n = hdr.length + t.value.length

theorem tagLoop_spec (buf : List Byte) :
    ∀ fuel offset tag, 1 ≤ offset → offset < 4 → 4 ≤ offset + fuel → offset ≤ buf.length →
    ∃ d, tagLoop buf fuel offset tag = .ok d ∧
      match d with
      | .eod => False
      | .err c => c < 0
      | .ok n _ => offset < n ∧ n ≤ buf.length ∧ n ≤ 4 := by
  intro fuel
  induction fuel with
  | zero => intro offset tag h1 h2 h3; omega
  | succ fuel ih =>
    intro offset tag h1 h2 h3 h4
    unfold tagLoop
    by_cases h : offset ≥ buf.length
    · simp [h]
    · simp only [h, if_false]
      rw [rd_eq (by omega)]
      simp only [bind_ok]
      split
      · exact ⟨_, rfl, by simp only; omega⟩
      · split
        · exact ⟨_, rfl, by simp⟩
        · simp only [sizeofUint] at *
          obtain ⟨d, hd, hs⟩ := ih (offset + 1) (shiftIn tag buf[offset]) (by omega) (by omega)
            (by omega) (by omega)
          refine ⟨d, hd, ?_⟩
          cases d <;> simp_all
          omega

theorem tagDecode_spec (buf : List Byte) :
    ∃ d, tagDecode buf = .ok d ∧
      match d with
      | .eod => buf = []
      | .err c => c < 0
      | .ok n _ => 1 ≤ n ∧ n ≤ buf.length ∧ n ≤ 4 := by
  unfold tagDecode
  by_cases h0 : buf.length = 0
  · simp only [h0, if_true]
    exact ⟨_, rfl, List.eq_nil_of_length_eq_zero h0⟩
  · simp only [h0, if_false]
    rw [rd_eq (by omega)]
    simp only [bind_ok]
    split
    · obtain ⟨d, hd, hs⟩ := tagLoop_spec buf 4 1 (buf[0]'(by omega)).toNat (by omega) (by omega)
        (by omega) (by omega)
      refine ⟨d, by simpa [sizeofUint] using hd, ?_⟩
      cases d <;> simp_all
      omega
    · exact ⟨_, rfl, by simp only; omega⟩

theorem lenLoop_spec (buf : List Byte) :
    ∀ count offset length, offset + count ≤ buf.length →
    ∃ l, lenLoop buf count offset length = .ok l := by
  intro count
  induction count with
  | zero => intro offset length _; exact ⟨_, rfl⟩
  | succ count ih =>
    intro offset length h
    unfold lenLoop
    rw [rd_eq (by omega)]
    simp only [bind_ok]
    exact ih _ _ (by omega)

theorem finish_spec (buf : List Byte) (b0 : Byte) (tag offset length : Nat)
    (h2 : 2 ≤ offset) :
    ∃ d, finish buf b0 tag offset length = .ok d ∧ DecOk buf d := by
  unfold finish
  split
  · exact ⟨_, rfl, by simp [DecOk]⟩
  · rename_i h
    rw [slice_eq (by omega)]
    simp only [bind_ok]
    refine ⟨_, rfl, ?_⟩
    refine ⟨buf.take offset, (buf.drop offset).drop length, ?_, ?_, ?_⟩
    · simp only [List.append_assoc, List.take_append_drop]
    · simp; omega
    · simp; omega

theorem eocLoop_spec (dec : List Byte → C (Dec Tlv)) (buf : List Byte) (offset : Nat)
    (hoff : 1 ≤ offset)
    (hdec : ∀ s : List Byte, s.length < buf.length → ∃ d, dec s = .ok d ∧ DecOk s d) :
    ∀ fuel length, offset + length ≤ buf.length → buf.length < offset + length + fuel →
    ∃ r, eocLoop dec buf offset fuel length = .ok r ∧
      match r with
      | .error c => c < 0
      | .ok l => offset + l ≤ buf.length := by
  intro fuel
  induction fuel with
  | zero => intro length h1 h2; omega
  | succ fuel ih =>
    intro length h1 h2
    unfold eocLoop
    rw [suffix_eq h1]
    simp only [bind_ok]
    obtain ⟨d, hd, hs⟩ := hdec (buf.drop (offset + length)) (by simp; omega)
    rw [hd]
    simp only [bind_ok]
    cases d with
    | eod => exact ⟨_, rfl, by simp⟩
    | err c => exact ⟨_, rfl, by simp⟩
    | ok r inner =>
      simp only
      split
      · exact ⟨_, rfl, h1⟩
      · obtain ⟨hdr, rest, he, h2', hn⟩ := hs
        have hl := congrArg List.length he
        simp at hl
        exact ih (length + r) (by omega) (by omega)

theorem decodeF_spec : ∀ fuel (buf : List Byte), buf.length < fuel →
    ∃ d, decodeF fuel buf = .ok d ∧ DecOk buf d := by
  intro fuel
  induction fuel with
  | zero => intro buf h; omega
  | succ fuel ih =>
    intro buf hf
    unfold decodeF
    by_cases h0 : buf.length = 0
    · simp only [h0, if_true]
      exact ⟨_, rfl, List.eq_nil_of_length_eq_zero h0⟩
    simp only [h0, if_false]
    by_cases h1 : buf.length < 2
    · simp only [h1, if_true]
      exact ⟨_, rfl, by simp [DecOk]⟩
    simp only [h1, if_false]
    obtain ⟨d, hd, hs⟩ := tagDecode_spec buf
    rw [hd]
    simp only [bind_ok]
    cases d with
    | eod => exact ⟨_, rfl, hs⟩
    | err c => exact ⟨_, rfl, hs⟩
    | ok offset tag =>
      simp only at hs ⊢
      by_cases h2 : offset ≥ buf.length
      · simp only [h2, if_true]
        exact ⟨_, rfl, by simp [DecOk]⟩
      simp only [h2, if_false]
      rw [rd_eq (i := 0) (by omega), rd_eq (i := offset) (by omega)]
      simp only [bind_ok]
      split
      · split
        · exact ⟨_, rfl, by simp [DecOk]⟩
        · obtain ⟨r, hr, hrs⟩ := eocLoop_spec (decodeF fuel) buf (offset + 1) (by omega)
            (fun s hs => ih s (by omega)) (buf.length + 1) 0 (by omega) (by omega)
          rw [hr]
          simp only [bind_ok]
          cases r with
          | error c => exact ⟨_, rfl, hrs⟩
          | ok l => exact finish_spec _ _ _ _ _ (by omega)
      · split
        · split
          · exact ⟨_, rfl, by simp [DecOk]⟩
          · split
            · exact ⟨_, rfl, by simp [DecOk]⟩
            · obtain ⟨l, hl⟩ := lenLoop_spec buf (buf[offset] &&& lenCountMask).toNat (offset + 1) 0
                (by omega)
              rw [hl]
              exact finish_spec _ _ _ _ _ (by omega)
        · exact finish_spec _ _ _ _ _ (by omega)

theorem decode_spec (buf : List Byte) : ∃ d, decode buf = .ok d ∧ DecOk buf d :=
  decodeF_spec _ buf (by omega)

/-! ## Fuel does not matter -/

theorem eocLoop_congr (dec dec' : List Byte → C (Dec Tlv)) (buf : List Byte) (offset : Nat)
    (hoff : 1 ≤ offset)
    (hd : ∀ s : List Byte, s.length < buf.length → dec s = dec' s) :
    ∀ fuel length, 
    eocLoop dec buf offset fuel length = eocLoop dec' buf offset fuel length := by
  intro fuel
  induction fuel with
  | zero => intros; rfl
  | succ fuel ih =>
    intro length
    unfold eocLoop
    by_cases h : offset + length ≤ buf.length
    · rw [suffix_eq h]
      simp only [bind_ok]
      rw [hd _ (by simp; omega)]
      congr 1
      funext r
      cases r <;> simp [ih]
    · simp [suffix, h]

theorem decodeF_fuel : ∀ fuel fuel' (buf : List Byte), buf.length < fuel → buf.length < fuel' →
    decodeF fuel buf = decodeF fuel' buf := by
  intro fuel
  induction fuel with
  | zero => intro fuel' buf h; omega
  | succ fuel ih =>
    intro fuel' buf h h'
    cases fuel' with
    | zero => omega
    | succ fuel' =>
      unfold decodeF
      have : ∀ offset, 1 ≤ offset → ∀ k l, eocLoop (decodeF fuel) buf offset k l =
          eocLoop (decodeF fuel') buf offset k l := by
        intro offset ho k l
        exact eocLoop_congr _ _ _ _ ho (fun s hs => ih fuel' s (by omega) (by omega)) _ _
      by_cases h0 : buf.length = 0
      · simp [h0]
      simp only [h0, if_false]
      congr 1
      congr 1
      funext d
      cases d with
      | eod => rfl
      | err => rfl
      | ok offset tag =>
        simp only [this (offset + 1) (by omega)]

/-- Depth/length fuel of the model is irrelevant once it exceeds the input length. -/
theorem decode_fuel (fuel : Nat) (buf : List Byte) (h : buf.length < fuel) :
    decodeF fuel buf = decode buf :=
  decodeF_fuel _ _ _ h (by omega)

/-! ## Round trip -/

theorem beNat_snoc (bs : List Byte) (b : Byte) : beNat (bs ++ [b]) = beNat bs * 256 + b.toNat := by
  simp [beNat]

theorem tagDecode_enc {t : List Byte} (ht : IsTag t) (rest : List Byte) :
    tagDecode (t ++ rest) = .ok (.ok t.length (beNat t)) := by
  match t, ht with
  | b :: r, ht =>
    rcases ht with ⟨h, rfl⟩ | ⟨h, hlen, more, last, hr, hm, hl⟩
    · have : ¬ (b &&& tagNumberMask = tagHighForm) := by rw [high_iff]; exact h
      simp [tagDecode, this, beNat]
    · have hb : (b &&& tagNumberMask = tagHighForm) := by rw [high_iff]; exact h
      have hlast : (last &&& tagHighFormMore = 0) := by rw [more_iff]; exact hl
      subst hr
      have hm' : ∀ m ∈ more, ¬ (m &&& tagHighFormMore = 0) := by
        intro m hmm; rw [more_iff]; have := hm m hmm; omega
      have hb' := toNat_lt b
      have hl' := toNat_lt last
      simp [tagDecode, hb, sizeofUint]
      match more, hlen, hm' with
      | [], _, _ =>
        simp [tagLoop, hlast, shiftIn, beNat]; omega
      | [c], _, hm' =>
        have hc := hm' c (by simp)
        have := toNat_lt c
        simp [tagLoop, hlast, hc, shiftIn, beNat, sizeofUint]; omega
      | [c, d], _, hm' =>
        have hc := hm' c (by simp)
        have hd := hm' d (by simp)
        have := toNat_lt c
        have := toNat_lt d
        simp [tagLoop, hlast, hc, hd, shiftIn, beNat, sizeofUint]; omega
      | _ :: _ :: _ :: _, hlen, _ => simp at hlen

theorem lenLoop_enc (pre rest : List Byte) : ∀ (bs : List Byte) (acc : Nat),
    (acc + 1) * 256 ^ bs.length ≤ 4294967296 →
    lenLoop (pre ++ bs ++ rest) bs.length pre.length acc =
      .ok (bs.foldl (fun a b => a * 256 + b.toNat) acc) := by
  intro bs
  induction bs generalizing pre with
  | nil => intros; rfl
  | cons b bs ih =>
    intro acc h
    have hrd : rd (pre ++ b :: bs ++ rest) pre.length = .ok b := by
      have := rd_append_right pre (b :: bs ++ rest) 0
      simpa using this
    have hp : 1 ≤ 256 ^ bs.length := Nat.pow_pos (by omega)
    have hb := toNat_lt b
    have h' : ((acc + 1) * 256) * 256 ^ bs.length ≤ 4294967296 := by
      rw [List.length_cons, Nat.pow_succ, Nat.mul_comm (256 ^ bs.length), ← Nat.mul_assoc] at h
      exact h
    have hacc : (acc + 1) * 256 ≤ 4294967296 :=
      Nat.le_trans (Nat.le_mul_of_pos_right _ hp) h'
    have hs : shiftIn acc b = acc * 256 + b.toNat := by
      unfold shiftIn
      rw [Nat.mod_eq_of_lt (by omega)]
    simp only [List.length_cons, lenLoop, hrd, bind_ok, hs, List.foldl_cons]
    have := ih (pre ++ [b]) (acc * 256 + b.toNat)
      (Nat.le_trans (Nat.mul_le_mul_right _ (by omega)) h')
    simpa using this

theorem isTag_length {t : List Byte} (ht : IsTag t) : 1 ≤ t.length ∧ t.length ≤ 4 := by
  match t, ht with
  | b :: r, ht =>
    rcases ht with ⟨h, rfl⟩ | ⟨h, hlen, more, last, hr, hm, hl⟩
    · simp
    · simp; omega

theorem finish_enc (hdr v rest : List Byte) (b0 : Byte) (tag : Nat) :
    finish (hdr ++ v ++ rest) b0 tag hdr.length v.length =
      .ok (.ok (hdr.length + v.length) ⟨tag, b0 &&& (classMask ||| constructedBit), v⟩) := by
  unfold finish
  rw [if_neg (by simp), slice_eq (by simp)]
  simp

theorem decode_enc {t l v : List Byte} (ht : IsTag t) (hl : LenOctets v.length l)
    (rest : List Byte) :
    decode (t ++ l ++ v ++ rest) =
      .ok (.ok (t.length + l.length + v.length) ⟨beNat t, topBits t, v⟩) := by
  have htl := isTag_length ht
  unfold decode decodeF
  have hll : 1 ≤ l.length := by cases hl <;> simp
  rw [if_neg (by simp only [List.length_append]; omega),
    if_neg (by simp only [List.length_append]; omega)]
  rw [show t ++ l ++ v ++ rest = t ++ (l ++ v ++ rest) by simp, tagDecode_enc ht]
  simp only [bind_ok]
  rw [if_neg (by simp only [List.length_append]; omega)]
  obtain ⟨b0, r0, rfl⟩ : ∃ b r, t = b :: r := by
    cases t with
    | nil => simp at htl
    | cons b r => exact ⟨b, r, rfl⟩
  have hrd0 : rd (b0 :: r0 ++ (l ++ v ++ rest)) 0 = .ok b0 := by simp
  rw [hrd0]
  simp only [bind_ok]
  have htop : topBits (b0 :: r0) = b0 &&& (classMask ||| constructedBit) := by
    rw [flags_eq]; rfl
  rw [htop]
  cases hl with
  | short hlt =>
    have hrd1 : rd (b0 :: r0 ++ ([UInt8.ofNat v.length] ++ v ++ rest)) (b0 :: r0).length =
        .ok (UInt8.ofNat v.length) := by
      have := rd_append_right (b0 :: r0) ([UInt8.ofNat v.length] ++ v ++ rest) 0
      simpa using this
    rw [hrd1]
    simp only [bind_ok]
    have hv : (UInt8.ofNat v.length).toNat = v.length := by
      simp; omega
    have h1 : ¬ UInt8.ofNat v.length = lenIndefinite := by
      intro h; have := congrArg UInt8.toNat h; rw [hv, lenIndefinite_toNat] at this
      omega
    have h2 : UInt8.ofNat v.length &&& lenLongForm = 0 := by
      rw [long_iff, hv]; exact hlt
    rw [if_neg h1, if_neg (by simp [h2]), hv]
    have := finish_enc (b0 :: r0 ++ [UInt8.ofNat v.length]) v rest b0 (beNat (b0 :: r0))
    simpa using this
  | long bs hb1 hb4 hlen =>
    generalize hcb : UInt8.ofNat (128 + bs.length) = cb
    have hv : cb.toNat = 128 + bs.length := by
      rw [← hcb]; simp only [UInt8.toNat_ofNat']; omega
    have hrd1 : rd (b0 :: r0 ++ (cb :: bs ++ v ++ rest)) (b0 :: r0).length =
        .ok cb := by
      have := rd_append_right (b0 :: r0) (cb :: bs ++ v ++ rest) 0
      simpa using this
    rw [hrd1]
    simp only [bind_ok]
    have h1 : ¬ cb = lenIndefinite := by
      intro h; have := congrArg UInt8.toNat h; rw [hv, lenIndefinite_toNat] at this
      omega
    have h2 : ¬ (cb &&& lenLongForm = 0) := by
      rw [long_iff, hv]; omega
    have hcnt : (cb &&& lenCountMask).toNat = bs.length := by
      rw [count_eq, hv]; omega
    rw [if_neg h1, if_pos h2, hcnt]
    rw [if_neg (by simp only [sizeofUint]; omega),
      if_neg (by simp only [List.length_append, List.length_cons]; omega)]
    have hll := lenLoop_enc (b0 :: r0 ++ [cb]) (v ++ rest) bs 0 (by
      have : 256 ^ bs.length ≤ 256 ^ 4 := Nat.pow_le_pow_right (by omega) hb4
      omega)
    have e1 : (b0 :: r0 ++ [cb]) ++ bs ++ (v ++ rest) = b0 :: r0 ++ (cb :: bs ++ v ++ rest) := by simp
    have e2 : (b0 :: r0 ++ [cb]).length = (b0 :: r0).length + 1 := by simp
    rw [e1, e2] at hll
    rw [hll]
    simp only [bind_ok]
    have hbe : List.foldl (fun a (b : Byte) => a * 256 + b.toNat) 0 bs = v.length := by
      exact hlen
    rw [hbe]
    have := finish_enc (b0 :: r0 ++ [cb] ++ bs) v rest b0 (beNat (b0 :: r0))
    have e3 : (b0 :: r0 ++ [cb] ++ bs) ++ v ++ rest = b0 :: r0 ++ (cb :: bs ++ v ++ rest) := by simp
    rw [e3] at this
    have e4 : (b0 :: r0 ++ [cb] ++ bs).length = (b0 :: r0).length + 1 + bs.length := by simp; omega
    rw [e4] at this
    rw [this]
    simp; omega

end Verif.Ber
