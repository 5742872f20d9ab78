import Verif.BerLemmas
import Verif.BeNat

/-! # What successful tag and object decoding imply about the input -/

set_option autoImplicit false

namespace Verif.Ber
open Verif BerSpec

theorem tagLoop_inv (b : Byte) (buf : List Byte) (hb : b.toNat % 32 = 31) :
    ∀ (fuel : Nat) (mid rest : List Byte) (n tag : Nat), buf = b :: mid ++ rest →
    mid.length ≤ 2 → (∀ m ∈ mid, 128 ≤ m.toNat) →
    tagLoop buf fuel (1 + mid.length) (beNat (b :: mid)) = .ok (.ok n tag) →
    ∃ t rest, IsTag t ∧ buf = t ++ rest ∧ n = t.length ∧ tag = beNat t := by
  intro fuel
  induction fuel with
  | zero => intro mid rest n tag _ _ _ h; simp [tagLoop] at h
  | succ fuel ih =>
    intro mid rest n tag hbuf hmid hm h
    unfold tagLoop at h
    cases rest with
    | nil =>
      rw [if_pos (by subst hbuf; simp; omega)] at h
      simp at h
    | cons c rest =>
      have hlen : buf.length = 1 + mid.length + 1 + rest.length := by subst hbuf; simp; omega
      rw [if_neg (by omega)] at h
      have hrd : rd buf (1 + mid.length) = .ok c := by
        have := rd_append_right (b :: mid) (c :: rest) 0
        subst hbuf
        simpa [Nat.add_comm] using this
      rw [hrd] at h
      simp only [bind_ok] at h
      have hsh : shiftIn (beNat (b :: mid)) c = beNat (b :: (mid ++ [c])) := by
        have e : beNat (b :: (mid ++ [c])) = beNat (b :: mid) * 256 + c.toNat :=
          beNat_snoc (b :: mid) c
        have hb' := toNat_lt b
        have hlt : beNat (b :: mid) * 256 < 4294967296 := by
          have h1 := beNat_lt (b :: mid)
          have h2 : 256 ^ (b :: mid).length ≤ 256 ^ 3 :=
            Nat.pow_le_pow_right (by omega) (by simp; omega)
          omega
        simp only [shiftIn, Nat.reducePow]
        rw [Nat.mod_eq_of_lt hlt, e]
      rw [hsh] at h
      have hbuf' : buf = b :: (mid ++ [c]) ++ rest := by rw [hbuf]; simp
      split at h
      · rename_i hc
        simp only [Except.ok.injEq, Dec.ok.injEq] at h
        refine ⟨b :: (mid ++ [c]), rest, Or.inr ⟨hb, by simp; omega, mid, c, rfl, hm, ?_⟩, hbuf',
          by simp; omega, h.2.symm⟩
        exact (more_iff c).mp hc
      · rename_i hc
        split at h
        · simp at h
        · rename_i h4
          simp only [sizeofUint] at h4
          refine ih (mid ++ [c]) rest n tag hbuf' (by simp; omega) ?_ ?_
          · intro m hm'
            rcases List.mem_append.mp hm' with hm' | hm'
            · exact hm m hm'
            · simp at hm'; subst hm'
              exact Nat.le_of_not_lt (fun hlt => hc ((more_iff m).mpr hlt))
          · rw [← h]; congr 1; simp; omega

/-- Decoded identifier octets are well formed and are a prefix of the input. -/
theorem tagDecode_inv (buf : List Byte) (n tag : Nat) (h : tagDecode buf = .ok (.ok n tag)) :
    ∃ t rest, IsTag t ∧ buf = t ++ rest ∧ n = t.length ∧ tag = beNat t := by
  unfold tagDecode at h
  cases buf with
  | nil => simp at h
  | cons b buf =>
    rw [if_neg (by simp)] at h
    simp only [rd_cons_zero, bind_ok] at h
    split at h
    · rename_i hb
      have hb' := (high_iff b).mp hb
      refine tagLoop_inv b (b :: buf) hb' sizeofUint [] buf n tag (by simp) (by simp) (by simp) ?_
      rw [← h]; congr 1; simp [beNat]
    · rename_i hb
      simp only [Except.ok.injEq, Dec.ok.injEq] at h
      refine ⟨[b], buf, Or.inl ⟨fun e => hb ((high_iff b).mpr e), rfl⟩, rfl, h.1.symm, ?_⟩
      rw [← h.2]; simp [beNat]

theorem finish_inv {buf : List Byte} {b0 : Byte} {tag offset length n : Nat} {t : Tlv}
    (h : finish buf b0 tag offset length = .ok (.ok n t)) :
    offset + length ≤ buf.length ∧ n = offset + length ∧
      t = ⟨tag, b0 &&& (classMask ||| constructedBit), (buf.drop offset).take length⟩ := by
  unfold finish at h
  split at h
  · simp at h
  · rw [slice_eq (by omega)] at h
    simp only [bind_ok, Except.ok.injEq, Dec.ok.injEq] at h
    exact ⟨by omega, h.1.symm, h.2.symm⟩

theorem beNat_zero_head {t : List Byte} (ht : IsTag t) (h : beNat t = 0) : t = [0] := by
  match t, ht with
  | b :: r, ht =>
    rcases ht with ⟨-, rfl⟩ | ⟨hb, -, more, last, hr, -, -⟩
    · have : b.toNat = 0 := by simpa [beNat] using h
      rw [show b = 0 from by apply UInt8.toNat_inj.mp; simpa using this]
    · exfalso
      have e : beNat (b :: r) = b.toNat * 256 ^ r.length + beNat r := by
        have aux : ∀ (l : List Byte) (a : Nat),
            l.foldl (fun a b => a * 256 + b.toNat) a = a * 256 ^ l.length + beNat l := by
          intro l
          induction l with
          | nil => intro a; simp [beNat]
          | cons x l ih =>
            intro a
            have e2 : beNat (x :: l) = x.toNat * 256 ^ l.length + beNat l := by
              unfold beNat
              rw [List.foldl_cons, ih]
              simp [beNat]
            rw [List.foldl_cons, ih, e2, List.length_cons, Nat.pow_succ, Nat.add_mul, Nat.mul_assoc,
              Nat.mul_comm 256, Nat.add_assoc]
        show List.foldl _ _ (b :: r) = _
        rw [List.foldl_cons, aux]
        simp
      have hp : 1 ≤ 256 ^ r.length := Nat.pow_pos (by omega)
      have : 31 * 1 ≤ b.toNat * 256 ^ r.length := Nat.mul_le_mul (by omega) hp
      omega

theorem eocLoop_inv (dec : List Byte → C (Dec Tlv)) (buf : List Byte) (offset : Nat) :
    ∀ fuel length l, eocLoop dec buf offset fuel length = .ok (.ok l) →
    offset + l ≤ buf.length ∧
      ∃ n t, dec (buf.drop (offset + l)) = .ok (.ok n t) ∧ t.tag = 0 := by
  intro fuel
  induction fuel with
  | zero => intro length l h; simp [eocLoop] at h
  | succ fuel ih =>
    intro length l h
    unfold eocLoop at h
    by_cases hs : offset + length ≤ buf.length
    · rw [suffix_eq hs] at h
      simp only [bind_ok] at h
      match hd : dec (buf.drop (offset + length)), h with
      | .ok (.ok r inner), h =>
        simp only [bind_ok] at h
        split at h
        · rename_i ht
          simp only [Except.ok.injEq] at h
          subst h
          exact ⟨hs, r, inner, hd, ht⟩
        · exact ih _ _ h
      | .ok (.eod), h => simp at h
      | .ok (.err _), h => simp at h
      | .error _, h => simp at h
    · simp [suffix, hs] at h

/-- A successfully decoded object is encoded at the front of the buffer, in definite form or in
indefinite form up to something that starts with a zero octet. -/
theorem decodeF_inv : ∀ (fuel : Nat) (buf : List Byte) (n : Nat) (t : Tlv),
    decodeF fuel buf = .ok (.ok n t) →
    ∃ tag rest, IsTag tag ∧ t.tag = beNat tag ∧ t.flags = topBits tag ∧
      ((∃ len, LenOctets t.value.length len ∧ buf = tag ++ len ++ t.value ++ rest ∧
          n = tag.length + len.length + t.value.length) ∨
       (IsConstructed tag ∧ buf = tag ++ [0x80] ++ t.value ++ rest ∧ rest.head? = some 0 ∧
          n = tag.length + 1 + t.value.length)) := by
  intro fuel
  induction fuel with
  | zero => intro buf n t h; simp [decodeF] at h
  | succ fuel ih =>
    intro buf n t h
    unfold decodeF at h
    split at h
    · simp at h
    split at h
    · simp at h
    match hd : tagDecode buf, h with
    | .error _, h => simp at h
    | .ok .eod, h => simp at h
    | .ok (.err _), h => simp at h
    | .ok (.ok offset tagv), h =>
      simp only [bind_ok] at h
      obtain ⟨tag, rest, ht, hbuf, hoff, htag⟩ := tagDecode_inv buf offset tagv hd
      split at h
      · simp at h
      rename_i hlt
      obtain ⟨lb, rest', rfl⟩ : ∃ b r, rest = b :: r := by
        cases rest with
        | nil => simp [hbuf, hoff] at hlt
        | cons b r => exact ⟨b, r, rfl⟩
      obtain ⟨b0, r0, rfl⟩ : ∃ b r, tag = b :: r := by
        cases tag with
        | nil => exact absurd ht (by simp [IsTag])
        | cons b r => exact ⟨b, r, rfl⟩
      have hrd0 : rd buf 0 = .ok b0 := by rw [hbuf]; simp
      have hrd1 : rd buf offset = .ok lb := by
        rw [hbuf, hoff]
        have := rd_append_right (b0 :: r0) (lb :: rest') 0
        simpa using this
      rw [hrd0, hrd1] at h
      simp only [bind_ok] at h
      have htop : topBits (b0 :: r0) = b0 &&& (classMask ||| constructedBit) := by
        rw [flags_eq]; rfl
      have hbl : buf.length = (b0 :: r0).length + (rest'.length + 1) := by rw [hbuf, List.length_append]; rfl
      have hdrop : buf.drop (offset + 1) = rest' := by
        rw [hbuf, hoff, ← List.drop_drop, List.drop_left]; rfl
      split at h
      · rename_i hind
        split at h
        · simp at h
        rename_i hcon
        match he : eocLoop (decodeF fuel) buf (offset + 1) (buf.length + 1) 0, h with
        | .error _, h => simp at h
        | .ok (.error _), h => simp at h
        | .ok (.ok l), h =>
          simp only [bind_ok] at h
          obtain ⟨-, n', t', hn', ht'⟩ := eocLoop_inv _ _ _ _ _ _ he
          obtain ⟨hle, hn, rfl⟩ := finish_inv h
          obtain ⟨tag', rr, hT, hv', -, hor⟩ := ih _ _ _ hn'
          have htz := beNat_zero_head hT (by rw [← hv', ht'])
          rw [hdrop]
          have e1 : buf.drop (offset + 1 + l) = rest'.drop l := by rw [← List.drop_drop, hdrop]
          rw [e1] at hor
          have hlen : l ≤ rest'.length := by
            have : (b0 :: r0).length = offset := hoff.symm
            omega
          have hhead : (rest'.drop l).head? = some 0 := by
            rcases hor with ⟨len, -, hb, -⟩ | ⟨-, hb, -⟩ <;> rw [hb, htz] <;> rfl
          refine ⟨b0 :: r0, rest'.drop l, ht, htag, htop.symm, Or.inr ⟨?_, ?_, hhead, ?_⟩⟩
          · unfold IsConstructed
            have : ¬ b0.toNat / 32 % 2 = 0 := fun e => hcon ((constructed_iff b0).mpr e)
            omega
          · rw [hbuf, hind]
            simp [lenIndefinite]
          · rw [hn, hoff, List.length_take]
            omega
      · rename_i hnind
        split at h
        · rename_i hlong
          split at h
          · simp at h
          rename_i hcnt
          split at h
          · simp at h
          rename_i hfit
          have hlb : 128 ≤ lb.toNat := by
            have : ¬ lb.toNat < 128 := fun e => (by simpa using hlong : ¬ (lb &&& lenLongForm = 0)) ((long_iff lb).mpr e)
            omega
          have hlb2 : lb.toNat ≠ 128 := by
            intro e
            apply hnind
            apply UInt8.toNat_inj.mp
            rw [e, lenIndefinite_toNat]
          have hlt := toNat_lt lb
          rw [count_eq] at hcnt hfit h
          generalize hc : lb.toNat % 128 = count at hcnt hfit h
          have hc1 : 1 ≤ count := by omega
          have hc4 : count ≤ 4 := by simp only [sizeofUint] at hcnt; omega
          have hlen' : count ≤ rest'.length := by
            have : (b0 :: r0).length = offset := hoff.symm
            omega
          have hll := lenLoop_enc (b0 :: r0 ++ [lb]) (rest'.drop count) (rest'.take count) 0 (by
            have : 256 ^ (rest'.take count).length ≤ 256 ^ 4 :=
              Nat.pow_le_pow_right (by omega) (by rw [List.length_take]; omega)
            omega)
          have e1 : (b0 :: r0 ++ [lb]) ++ rest'.take count ++ rest'.drop count = buf := by
            rw [hbuf]; simp
          have e2 : (b0 :: r0 ++ [lb]).length = offset + 1 := by rw [hoff]; simp
          have e3 : (rest'.take count).length = count := by rw [List.length_take]; omega
          rw [e1, e2, e3] at hll
          rw [hll] at h
          simp only [bind_ok] at h
          obtain ⟨hle, hn, rfl⟩ := finish_inv h
          have e4 : buf.drop (offset + 1 + count) = rest'.drop count := by
            rw [← List.drop_drop, hdrop]
          simp only [e4]
          generalize hL : List.foldl (fun a (b : Byte) => a * 256 + b.toNat) 0 (rest'.take count) = L at *
          have e5 : ((rest'.drop count).take L).length = L := by
            rw [List.length_take, List.length_drop]
            have : (b0 :: r0).length = offset := hoff.symm
            omega
          refine ⟨b0 :: r0, (rest'.drop count).drop L, ht, htag, htop.symm,
            Or.inl ⟨lb :: rest'.take count, ?_, ?_, ?_⟩⟩
          · rw [e5]
            have hx := LenOctets.long L (rest'.take count) (by omega) (by omega) hL
            rw [e3] at hx
            have : UInt8.ofNat (128 + count) = lb := by
              apply UInt8.toNat_inj.mp
              rw [UInt8.toNat_ofNat']
              omega
            rwa [this] at hx
          · rw [hbuf]
            simp only [List.append_assoc, List.cons_append, List.take_append_drop]
          · rw [hn, e5, hoff, List.length_cons (a := lb), e3]
            omega
        · rename_i hshort
          have hlb : lb.toNat < 128 := (long_iff lb).mp (by simpa using hshort)
          obtain ⟨hle, hn, rfl⟩ := finish_inv h
          simp only [hdrop]
          have e5 : (rest'.take lb.toNat).length = lb.toNat := by
            rw [List.length_take]
            have : (b0 :: r0).length = offset := hoff.symm
            omega
          refine ⟨b0 :: r0, rest'.drop lb.toNat, ht, htag, htop.symm,
            Or.inl ⟨[lb], ?_, ?_, ?_⟩⟩
          · rw [e5]
            have hx := LenOctets.short lb.toNat hlb
            have : UInt8.ofNat lb.toNat = lb := by
              apply UInt8.toNat_inj.mp
              rw [UInt8.toNat_ofNat']
              omega
            rwa [this] at hx
          · rw [hbuf]
            simp
          · rw [hn, e5, hoff, List.length_singleton]

theorem decode_inv {buf : List Byte} {n : Nat} {t : Tlv} (h : decode buf = .ok (.ok n t)) :
    ∃ tag rest, IsTag tag ∧ t.tag = beNat tag ∧ t.flags = topBits tag ∧
      ((∃ len, LenOctets t.value.length len ∧ buf = tag ++ len ++ t.value ++ rest ∧
          n = tag.length + len.length + t.value.length) ∨
       (IsConstructed tag ∧ buf = tag ++ [0x80] ++ t.value ++ rest ∧ rest.head? = some 0 ∧
          n = tag.length + 1 + t.value.length)) :=
  decodeF_inv _ buf n t h

end Verif.Ber
