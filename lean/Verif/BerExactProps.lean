import Verif.BerInv
import Verif.BerProps

/-! # Exactly what is decoded (C02, C04) -/

set_option autoImplicit false

namespace Verif.Ber
open Verif BerSpec

/-- **C02** (converse).  Whatever is decoded is encoded at the front of the buffer: identifier
octets of the tag reported, with its class and constructed bits, then length octets stating the
length of the value and the value; or, for a constructed object, the indefinite form. -/
theorem C02_accepts (buf : List Byte) (n : Nat) (t : Tlv) (h : decode buf = .ok (.ok n t)) :
    ∃ tag rest, IsTag tag ∧ t.tag = beNat tag ∧ t.flags = topBits tag ∧
      ((∃ len, LenOctets t.value.length len ∧ buf = tag ++ len ++ t.value ++ rest ∧
          n = tag.length + len.length + t.value.length) ∨
       (IsConstructed tag ∧ buf = tag ++ [0x80] ++ t.value ++ rest ∧ rest.head? = some 0 ∧
          n = tag.length + 1 + t.value.length)) := decode_inv h

/-- **C02** (refusal).  Bytes that begin neither with the encoding of an object in definite form
nor with the header of a constructed object in indefinite form are refused. -/
theorem C02_refuses (buf : List Byte) (hne : buf ≠ [])
    (hd : ∀ (o : Obj) rest, o.WF → buf ≠ o.enc ++ rest)
    (hi : ∀ tag rest, IsTag tag → IsConstructed tag → buf ≠ tag ++ [0x80] ++ rest) :
    ∃ c, c < 0 ∧ decode buf = .ok (.err c) := by
  obtain ⟨d, hdec, hs⟩ := C01_decode_safe buf
  cases d with
  | eod => exact absurd hs hne
  | err c => exact ⟨c, hs, hdec⟩
  | ok n t =>
    exfalso
    obtain ⟨tag, rest, ht, _, _, ⟨len, hl, hb, _⟩ | ⟨hc, hb, _, _⟩⟩ := decode_inv hdec
    · exact hd ⟨tag, len, t.value⟩ rest ⟨ht, hl⟩ hb
    · exact hi tag (t.value ++ rest) ht hc (by rw [hb]; simp)

/-- A length longer than the bytes there are; a tag of five octets; a primitive object of
indefinite length. -/
example : decode [0x5A, 0x03, 1, 2] = .ok (.err (-11)) ∧
    decode [0x1F, 0x81, 0x81, 0x81, 0x01, 0x00] = .ok (.err (-4)) ∧
    decode [0x5A, 0x80, 0, 0] = .ok (.err (-6)) := by decide +kernel

/-- The hypotheses of `C02_refuses` are met by the first of them. -/
example : (∀ (o : Obj) rest, o.WF → ([0x5A, 0x03, 1, 2] : List Byte) ≠ o.enc ++ rest) ∧
    (∀ tag rest, IsTag tag → IsConstructed tag →
      ([0x5A, 0x03, 1, 2] : List Byte) ≠ tag ++ [0x80] ++ rest) := by
  constructor
  · intro o rest ho h
    have h1 := C02_roundtrip o ho rest
    rw [← h] at h1
    have h2 : decode [0x5A, 0x03, 1, 2] = .ok (.err (-11)) := by decide +kernel
    rw [h2] at h1
    cases h1
  · intro tag rest ht hc h
    cases tag with
    | nil => exact absurd (isTag_length ht).1 (by simp)
    | cons b r =>
      simp only [List.cons_append, List.cons.injEq] at h
      rw [← h.1] at hc
      exact absurd hc (by simp [IsConstructed])

/-- The contents of an object of indefinite length as the library delimits them: objects one after
another, up to the first that has tag 0. -/
inductive Until : List Byte → List Byte → Prop
  | eoc (r : List Byte) (n : Nat) (t : Tlv) (h : decode r = .ok (.ok n t)) (h0 : t.tag = 0) :
      Until r []
  | item (r : List Byte) (n : Nat) (t : Tlv) (h : decode r = .ok (.ok n t)) (h0 : t.tag ≠ 0)
      (v : List Byte) (hv : Until (r.drop n) v) : Until r (r.take n ++ v)

theorem decode_bound {r : List Byte} {n : Nat} {t : Tlv} (h : decode r = .ok (.ok n t)) :
    2 ≤ n ∧ n ≤ r.length := by
  obtain ⟨d, hd, hs⟩ := C01_decode_safe r
  rw [h] at hd
  cases hd
  obtain ⟨hdr, rest, hb, h2, hn, hle⟩ := hs
  omega

theorem eocLoop_until (dec : List Byte → C (Dec Tlv)) (buf : List Byte) (offset : Nat)
    (hdec : ∀ s : List Byte, s.length < buf.length → dec s = decode s) (hoff : 1 ≤ offset) :
    ∀ fuel length l, eocLoop dec buf offset fuel length = .ok (.ok l) →
      offset + length ≤ buf.length →
      ∃ v, Until (buf.drop (offset + length)) v ∧ l = length + v.length ∧
        v = (buf.drop (offset + length)).take v.length := by
  intro fuel
  induction fuel with
  | zero => intro length l h; simp [eocLoop] at h
  | succ fuel ih =>
    intro length l h hs
    unfold eocLoop at h
    rw [suffix_eq hs] at h
    simp only [bind_ok] at h
    rw [hdec _ (by simp; omega)] at h
    match hd : decode (buf.drop (offset + length)), h with
    | .ok (.ok r inner), h =>
      have hb := decode_bound hd
      simp only [List.length_drop] at hb
      simp only [bind_ok] at h
      split at h
      · rename_i ht
        simp only [Except.ok.injEq] at h
        subst h
        exact ⟨[], .eoc _ _ _ hd ht, by simp, by simp⟩
      · rename_i ht
        obtain ⟨v, hv, hl, he⟩ := ih _ _ h (by omega)
        have e : (buf.drop (offset + length)).drop r = buf.drop (offset + (length + r)) := by
          rw [List.drop_drop, Nat.add_assoc]
        rw [← e] at hv he
        have hlen : ((buf.drop (offset + length)).take r).length = r := by
          simp; omega
        refine ⟨_, .item _ _ _ hd ht v hv, ?_, ?_⟩
        · rw [List.length_append, hlen]; omega
        · rw [List.length_append, hlen, List.take_add, ← he]
    | .ok (.eod), h => simp at h
    | .ok (.err _), h => simp at h
    | .error _, h => simp at h

theorem until_eocLoop (dec : List Byte → C (Dec Tlv)) (buf : List Byte) (offset : Nat)
    (hdec : ∀ s : List Byte, s.length < buf.length → dec s = decode s) (hoff : 1 ≤ offset) :
    ∀ fuel length v, Until (buf.drop (offset + length)) v → offset + length ≤ buf.length →
      buf.length < offset + length + fuel →
      eocLoop dec buf offset fuel length = .ok (.ok (length + v.length)) := by
  intro fuel
  induction fuel with
  | zero => intro length v _ h1 h2; omega
  | succ fuel ih =>
    intro length v h hs hf
    unfold eocLoop
    rw [suffix_eq hs]
    simp only [bind_ok]
    rw [hdec _ (by simp; omega)]
    generalize hr : buf.drop (offset + length) = r at h
    cases h with
    | eoc _ n t hd h0 =>
      rw [hd]
      simp only [bind_ok]
      rw [if_pos (show t.tag = asn1Eoc from h0)]
      simp
    | item _ n t hd h0 v hv =>
      rw [hd]
      have hb := decode_bound hd
      have hrl : r.length = buf.length - (offset + length) := by rw [← hr, List.length_drop]
      simp only [bind_ok]
      rw [if_neg (show ¬ t.tag = asn1Eoc from h0)]
      have e : r.drop n = buf.drop (offset + (length + n)) := by
        rw [← hr, List.drop_drop, Nat.add_assoc]
      rw [ih (length + n) v (e ▸ hv) (by omega) (by omega)]
      rw [List.length_append, List.length_take, Nat.min_eq_left hb.2, Nat.add_assoc]

theorem until_prefix {r v : List Byte} (h : Until r v) : v = r.take v.length := by
  induction h with
  | eoc => simp
  | item r n t hd h0 v hv ih =>
    have hb := decode_bound hd
    have hlen : (r.take n).length = n := by simp; omega
    rw [List.length_append, hlen, List.take_add, ← ih]

/-- **C04** (exact, partial).  The value of an object of indefinite length is exactly the bytes of
the objects after its header, as the library itself decodes them, up to the first with tag 0; it
is refused exactly if there is no such. -/
theorem C04_exact_partial (tag : List Byte) (ht : IsTag tag) (hc : IsConstructed tag)
    (r : List Byte) (n : Nat) (t : Tlv) :
    decode (tag ++ [0x80] ++ r) = .ok (.ok n t) ↔
      ∃ v, Until r v ∧ n = tag.length + 1 + v.length ∧ t = ⟨beNat tag, topBits tag, v⟩ := by
  have htl := isTag_length ht
  generalize hbuf : tag ++ [0x80] ++ r = buf
  have hlen : buf.length = tag.length + 1 + r.length := by rw [← hbuf]; simp; omega
  obtain ⟨b0, r0, hb0⟩ : ∃ b r, tag = b :: r := by
    cases tag with
    | nil => simp at htl
    | cons b r => exact ⟨b, r, rfl⟩
  have hdrop : buf.drop (tag.length + 1 + 0) = r := by
    rw [← hbuf]
    have : tag.length + 1 + 0 = (tag ++ [0x80]).length := by simp
    rw [this, List.drop_left]
  have hdec : ∀ s : List Byte, s.length < buf.length → decodeF buf.length s = decode s :=
    fun s h => decode_fuel _ _ h
  have htag : tagDecode buf = .ok (.ok tag.length (beNat tag)) := by
    have := tagDecode_enc ht ([0x80] ++ r)
    rw [← hbuf, ← this]; simp
  have hrd0 : rd buf 0 = .ok b0 := by rw [← hbuf, hb0]; simp
  have hrd1 : rd buf tag.length = .ok 0x80 := by
    rw [← hbuf]
    have := rd_append_right tag ([0x80] ++ r) 0
    simpa using this
  have hcb : ¬ (b0 &&& constructedBit = 0) := by
    rw [constructed_iff]; rw [hb0] at hc; simp only [IsConstructed] at hc; omega
  have htop : topBits tag = b0 &&& (classMask ||| constructedBit) := by
    rw [flags_eq, hb0]; rfl
  have hmain : decode buf = (do
      match ← eocLoop (decodeF buf.length) buf (tag.length + 1) (buf.length + 1) 0 with
      | .error c => .ok (.err c)
      | .ok length => finish buf b0 (beNat tag) (tag.length + 1) length) := by
    by_cases h2 : buf.length < 2
    · omega
    unfold decode
    rw [decodeF, if_neg (by omega), if_neg h2, htag]
    simp only [bind_ok]
    rw [if_neg (by omega), hrd0, hrd1]
    simp only [bind_ok]
    rw [if_pos (by rfl), if_neg hcb]
    rfl
  have hfin : ∀ v, Until r v → finish buf b0 (beNat tag) (tag.length + 1) v.length =
      .ok (.ok (tag.length + 1 + v.length) ⟨beNat tag, topBits tag, v⟩) := by
    intro v hv
    have hp := until_prefix hv
    have hvl : v.length ≤ r.length := by
      have := congrArg List.length hp
      simp at this
      omega
    unfold finish
    rw [if_neg (by omega), slice_eq (by omega), bind_ok, htop]
    have : (buf.drop (tag.length + 1)).take v.length = v := by
      rw [show buf.drop (tag.length + 1) = r from hdrop, ← hp]
    rw [this]
  rw [hmain]
  constructor
  · intro h
    match he : eocLoop (decodeF buf.length) buf (tag.length + 1) (buf.length + 1) 0, h with
    | .ok (.ok l), h =>
      obtain ⟨v, hv, hl, _⟩ := eocLoop_until _ buf _ hdec (by omega) _ _ _ he (by omega)
      rw [hdrop] at hv
      simp only [bind_ok] at h
      rw [hl, Nat.zero_add, hfin v hv] at h
      cases h
      exact ⟨v, hv, rfl, rfl⟩
    | .ok (.error c), h => simp at h
    | .error u, h => simp at h
  · rintro ⟨v, hv, rfl, rfl⟩
    rw [until_eocLoop _ buf _ hdec (by omega) _ _ v (by rw [hdrop]; exact hv) (by omega)
      (by omega)]
    simp only [bind_ok]
    rw [Nat.zero_add, hfin v hv]

/-- Contents of one object, which is of indefinite length itself: its end-of-contents octets end
both. -/
example : Until [0x30, 0x80, 0x04, 0x00, 0x00, 0x00, 0x04, 0x01, 0xAA, 0x00, 0x00]
    [0x30, 0x80, 0x04, 0x00] :=
  .item _ 4 ⟨0x30, 0x20, [0x04, 0x00]⟩ (by decide +kernel) (by decide) []
    (.eoc _ 2 ⟨0, 0, []⟩ (by decide +kernel) rfl)

end Verif.Ber
