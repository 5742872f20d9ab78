import Verif.BerLemmas

/-!
# Properties of the BER decoder: C01-C04, C07
-/

set_option autoImplicit false

namespace Verif.Ber
open Verif BerSpec

/-! ## C01 -/

/-- **C01.** For every byte string, decoding completes without undefined behaviour.
A success of `n` consumed bytes means the buffer is header ++ value ++ rest with
`n` = header + value, header at least two bytes (so `2 ≤ n ≤ len`); end-of-data is
reported only for the empty buffer; everything else is a negative code. -/
theorem C01_decode_safe (buf : List Byte) :
    ∃ d, decode buf = .ok d ∧
      match d with
      | .eod => buf = []
      | .err c => c < 0
      | .ok n t => ∃ hdr rest, buf = hdr ++ t.value ++ rest ∧ 2 ≤ hdr.length ∧
          n = hdr.length + t.value.length ∧ n ≤ buf.length := by
  obtain ⟨d, hd, hs⟩ := decode_spec buf
  refine ⟨d, hd, ?_⟩
  cases d with
  | eod => exact hs
  | err c => exact hs
  | ok n t =>
    obtain ⟨hdr, rest, he, h2, hn⟩ := hs
    refine ⟨hdr, rest, he, h2, hn, ?_⟩
    rw [he]; simp; omega

/-- Tag decoding alone is safe as well, and never consumes more than the buffer. -/
theorem C01_tagDecode_safe (buf : List Byte) :
    ∃ d, tagDecode buf = .ok d ∧
      match d with
      | .eod => buf = []
      | .err c => c < 0
      | .ok n _ => 1 ≤ n ∧ n ≤ buf.length ∧ n ≤ 4 := tagDecode_spec buf

-- non-trivial instances: a success, an indefinite-length success and failures
example : decode [0x6F, 0x03, 0x84, 0x01, 0xAA, 0x99] =
    .ok (.ok 5 ⟨0x6F, 0x60, [0x84, 0x01, 0xAA]⟩) := by decide +kernel
example : decode [0x30, 0x80, 0x04, 0x01, 0xAA, 0x00, 0x00] =
    .ok (.ok 5 ⟨0x30, 0x20, [0x04, 0x01, 0xAA]⟩) := by decide +kernel
example : decode [0x6F, 0x03, 0x84] = .ok (.err (-11)) := by decide +kernel
example : decode [0x9F, 0x81, 0x81, 0x81, 0x01, 0x00] = .ok (.err (-4)) := by decide +kernel

/-! ## C02 -/

/-- **C02.** Definite-form round trip for every tag of 1-4 identifier octets, every
permitted length encoding, every value and every suffix. -/
theorem C02_roundtrip (o : Obj) (h : o.WF) (rest : List Byte) :
    decode (o.enc ++ rest) =
      .ok (.ok o.enc.length ⟨beNat o.tag, topBits o.tag, o.value⟩) := by
  have := decode_enc h.1 h.2 rest
  simpa [Obj.enc, Nat.add_assoc] using this

/-- The constructed flag seen by callers is bit 6 of the first identifier octet. -/
theorem C02_constructed (o : Obj) (h : o.WF) :
    (Tlv.isConstructed ⟨beNat o.tag, topBits o.tag, o.value⟩ = true) ↔ IsConstructed o.tag := by
  obtain ⟨b, r, hb⟩ : ∃ b r, o.tag = b :: r := by
    cases ht : o.tag with
    | nil => have := h.1; rw [ht] at this; exact this.elim
    | cons b r => exact ⟨b, r, rfl⟩
  have h1 := flags_constructed_iff b
  rw [flags_eq b] at h1
  simp only [hb, Tlv.isConstructed, topBits, IsConstructed]
  simp only [ne_eq, decide_not, Bool.not_eq_true', decide_eq_false_iff_not, h1]
  omega

/-- A three-octet tag with a non-minimal two-octet long-form length. -/
example : Obj.WF ⟨[0xBF, 0x81, 0x0C], [0x82, 0x00, 0x02], [0xAA, 0xBB]⟩ :=
  ⟨Or.inr ⟨by decide, by decide, [0x81], 0x0C, by decide, by decide, by decide⟩,
   LenOctets.long 2 [0x00, 0x02] (by decide) (by decide) (by decide)⟩

/-- A one-octet tag with a short-form length. -/
example : Obj.WF ⟨[0x50], [0x04], [0x56, 0x49, 0x53, 0x41]⟩ :=
  ⟨Or.inl ⟨by decide, rfl⟩, LenOctets.short 4 (by decide)⟩

/-! ## C03 -/

/-- The object as the caller sees it. -/
def tlvOf (o : Obj) : Tlv := ⟨beNat o.tag, topBits o.tag, o.value⟩

theorem itrNext_enc (o : Obj) (h : o.WF) (rest : List Byte) :
    itrNext (o.enc ++ rest) = .ok (rest, .ok o.enc.length (tlvOf o)) := by
  unfold itrNext
  rw [C02_roundtrip o h rest]
  simp only [bind_ok]
  rw [suffix_eq (by simp)]
  simp [tlvOf]

theorem itrNext_nil : itrNext [] = .ok ([], .eod) := rfl

theorem lenOctets_length {n : Nat} {l : List Byte} (h : LenOctets n l) : 1 ≤ l.length := by
  cases h <;> simp

theorem enc_length_ge {o : Obj} (h : o.WF) : 2 ≤ o.enc.length := by
  have h1 := isTag_length h.1
  have h2 := lenOctets_length h.2
  simp [Obj.enc]; omega

theorem iterate_enc (os : List Obj) (h : ∀ o ∈ os, o.WF) :
    ∀ fuel, (encAll os).length / 2 + 1 ≤ fuel →
    iterate fuel (encAll os) = .ok (os.map tlvOf, 0) := by
  induction os with
  | nil =>
    intro fuel hf
    cases fuel with
    | zero => simp at hf
    | succ fuel => simp [iterate, encAll, itrNext_nil]
  | cons o os ih =>
    intro fuel hf
    have ho := enc_length_ge (h o (by simp))
    have he : encAll (o :: os) = o.enc ++ encAll os := by simp [encAll]
    rw [he] at hf ⊢
    cases fuel with
    | zero => simp at hf
    | succ fuel =>
      unfold iterate
      rw [itrNext_enc o (h o (by simp))]
      simp only [bind_ok]
      rw [ih (fun o ho => h o (by simp [ho])) fuel (by simp at hf; omega)]
      simp

/-- **C03 (exactness).** Iterating the concatenation of any list of definite-form
encodings yields exactly those objects, in order, then end-of-data. -/
theorem C03_iterate_exact (os : List Obj) (h : ∀ o ∈ os, o.WF) :
    iterateAll (encAll os) = .ok (os.map tlvOf, 0) :=
  iterate_enc os h _ (Nat.le_refl _)

theorem iterate_any : ∀ fuel (buf : List Byte), buf.length / 2 + 1 ≤ fuel →
    ∃ ts c, iterate fuel buf = .ok (ts, c) ∧
      2 * ts.length ≤ buf.length ∧ c ≤ 0 ∧
      ∃ hdrs rest, hdrs.length = ts.length ∧ (∀ h ∈ hdrs, 2 ≤ h.length) ∧
        buf = (List.zipWith (fun h t => h ++ t.value) hdrs ts).flatten ++ rest ∧
        (c = 0 ↔ rest = []) := by
  intro fuel
  induction fuel with
  | zero => intro buf h; omega
  | succ fuel ih =>
    intro buf hf
    obtain ⟨d, hd, hs⟩ := decode_spec buf
    unfold iterate itrNext
    rw [hd]
    cases d with
    | eod =>
      subst hs
      exact ⟨[], 0, rfl, by simp, by simp, [], [], rfl, by simp, rfl, by simp⟩
    | err c =>
      simp only [bind_ok]
      refine ⟨[], c, rfl, by simp, by simp only [DecOk] at hs; omega, [], buf, rfl, by simp, rfl, ?_⟩
      constructor
      · intro h; simp only [DecOk] at hs; omega
      · intro h
        subst h
        have hnil : decode [] = .ok .eod := rfl
        rw [hnil] at hd
        cases hd
    | ok n t =>
      obtain ⟨hdr, rest, he, h2, hn⟩ := hs
      have hl := congrArg List.length he
      simp at hl
      simp only [bind_ok]
      rw [suffix_eq (by omega)]
      simp only [bind_ok]
      have hdrop : buf.drop n = rest := by
        rw [he, hn]
        rw [List.drop_append_of_le_length (by simp)]
        simp
      obtain ⟨ts, c, h1, h3, h4, hdrs, rest', h5, h6, h7, h8⟩ := ih rest (by omega)
      rw [hdrop, h1]
      simp only [bind_ok]
      refine ⟨t :: ts, c, rfl, by simp; omega, h4, hdr :: hdrs, rest', by simp [h5], ?_, ?_, h8⟩
      · intro h hh
        rcases List.mem_cons.mp hh with rfl | hh
        · exact h2
        · exact h6 h hh
      · rw [he]
        conv => lhs; rw [h7]
        simp

/-- **C03 (arbitrary input).** Iterating any byte string completes, yields at most
`len/2` objects, and the objects with their headers tile the consumed prefix of the input
(no byte skipped or read twice); the final code is 0 exactly when every byte was
consumed, otherwise it is negative. -/
theorem C03_iterate_any (buf : List Byte) :
    ∃ ts c, iterateAll buf = .ok (ts, c) ∧
      2 * ts.length ≤ buf.length ∧ c ≤ 0 ∧
      ∃ hdrs rest, hdrs.length = ts.length ∧ (∀ h ∈ hdrs, 2 ≤ h.length) ∧
        buf = (List.zipWith (fun h t => h ++ t.value) hdrs ts).flatten ++ rest ∧
        (c = 0 ↔ rest = []) :=
  iterate_any _ buf (Nat.le_refl _)

example : iterateAll [0x50, 0x01, 0xAA, 0x9F, 0x12, 0x00, 0x87, 0x01, 0x01] =
    .ok ([⟨0x50, 0x40, [0xAA]⟩, ⟨0x9F12, 0x80, []⟩, ⟨0x87, 0x80, [0x01]⟩], 0) := by
  decide +kernel
example : iterateAll [0x50, 0x01, 0xAA, 0x9F] = .ok ([⟨0x50, 0x40, [0xAA]⟩], -2) := by
  decide +kernel

/-! ## C04 -/

theorem eocLoop_enc (t : List Byte) (rest : List Byte) (fuel : Nat) (os : List Obj)
    (h : ∀ o ∈ os, o.WF ∧ beNat o.tag ≠ 0) :
    ∀ (pre : List Byte) (k : Nat) (buf : List Byte),
      buf = t ++ [0x80] ++ pre ++ encAll os ++ [0, 0] ++ rest →
      buf.length < fuel + 1 → os.length < k →
      eocLoop (decodeF fuel) buf (t.length + 1) k pre.length =
        .ok (.ok (pre.length + (encAll os).length)) := by
  induction os with
  | nil =>
    intro pre k buf hb hf hk
    cases k with
    | zero => omega
    | succ k =>
      unfold eocLoop
      have hlen : buf.length = t.length + 1 + pre.length + 2 + rest.length := by
        rw [hb]; simp [encAll]; omega
      rw [suffix_eq (by omega)]
      have hdrop : buf.drop (t.length + 1 + pre.length) = [0, 0] ++ rest := by
        rw [hb]
        have e : t ++ [0x80] ++ pre ++ encAll [] ++ [0, 0] ++ rest =
          (t ++ [0x80] ++ pre) ++ ([0, 0] ++ rest) := by simp [encAll]
        have hl : t.length + 1 + pre.length = (t ++ [0x80] ++ pre).length := by simp; omega
        rw [e, hl, List.drop_left]
      simp only [bind_ok, hdrop]
      rw [decode_fuel _ _ (by simp; omega)]
      have := C02_roundtrip ⟨[0], [0], []⟩ ⟨Or.inl ⟨by decide, rfl⟩, LenOctets.short 0 (by decide)⟩ rest
      simp only [Obj.enc] at this
      simp only [List.append_nil] at this
      rw [show [(0 : Byte), 0] = [0] ++ [0] from rfl, this]
      simp [asn1Eoc, beNat, encAll]
  | cons o os ih =>
    intro pre k buf hb hf hk
    cases k with
    | zero => omega
    | succ k =>
      have ho := h o (by simp)
      have hsplit : encAll (o :: os) = o.enc ++ encAll os := by simp [encAll]
      unfold eocLoop
      have hlen : buf.length = t.length + 1 + pre.length + (encAll (o :: os)).length + 2 +
          rest.length := by
        rw [hb]; simp; omega
      have hge := enc_length_ge ho.1
      rw [suffix_eq (by omega)]
      have hdrop : buf.drop (t.length + 1 + pre.length) =
          o.enc ++ (encAll os ++ [0, 0] ++ rest) := by
        rw [hb, hsplit]
        have e : t ++ [0x80] ++ pre ++ (o.enc ++ encAll os) ++ [0, 0] ++ rest =
          (t ++ [0x80] ++ pre) ++ (o.enc ++ (encAll os ++ [0, 0] ++ rest)) := by simp
        have hl : t.length + 1 + pre.length = (t ++ [0x80] ++ pre).length := by simp; omega
        rw [e, hl, List.drop_left]
      simp only [bind_ok, hdrop]
      rw [decode_fuel _ _ (by
        have := congrArg List.length hdrop
        simp at this ⊢
        omega)]
      rw [C02_roundtrip o ho.1]
      simp only [bind_ok]
      rw [if_neg (show ¬ beNat o.tag = asn1Eoc from ho.2)]
      have := ih (fun o ho => h o (by simp [ho])) (pre ++ o.enc) k buf (by
        rw [hb, hsplit]; simp) hf (by simp at hk; omega)
      simp only [List.length_append] at this
      rw [this, hsplit]
      simp [Nat.add_assoc]

/-- **C04 (partial).** An indefinite-length constructed object whose contents are
definite-form objects (none with tag 0) decodes to exactly those contents: the value ends
at the end-of-contents octets.  What is missing with respect to C04: the
end-of-contents octets themselves are not consumed (`C04_eoc_not_consumed`) and nested
indefinite objects are delimited wrongly (`C04_nested_content_lost`). -/
theorem C04_contents_partial (t : List Byte) (ht : IsTag t) (hc : IsConstructed t)
    (os : List Obj) (h : ∀ o ∈ os, o.WF ∧ beNat o.tag ≠ 0) (rest : List Byte) :
    decode (t ++ [0x80] ++ encAll os ++ [0, 0] ++ rest) =
      .ok (.ok (t.length + 1 + (encAll os).length) ⟨beNat t, topBits t, encAll os⟩) := by
  have htl := isTag_length ht
  have hwf : ∀ o ∈ os, o.WF := fun o ho => (h o ho).1
  generalize hbuf : t ++ [0x80] ++ encAll os ++ [0, 0] ++ rest = buf
  have hlen : buf.length = t.length + 1 + (encAll os).length + 2 + rest.length := by
    rw [← hbuf]; simp; omega
  obtain ⟨b0, r0, hb0⟩ : ∃ b r, t = b :: r := by
    cases t with
    | nil => simp at htl
    | cons b r => exact ⟨b, r, rfl⟩
  unfold decode decodeF
  rw [if_neg (by omega), if_neg (by omega)]
  have htag : tagDecode buf = .ok (.ok t.length (beNat t)) := by
    have := tagDecode_enc ht ([0x80] ++ encAll os ++ [0, 0] ++ rest)
    rw [← hbuf, ← this]; simp
  rw [htag]
  simp only [bind_ok]
  rw [if_neg (by omega)]
  have hrd0 : rd buf 0 = .ok b0 := by rw [← hbuf, hb0]; simp
  have hrd1 : rd buf t.length = .ok 0x80 := by
    rw [← hbuf]
    have := rd_append_right t ([0x80] ++ encAll os ++ [0, 0] ++ rest) 0
    simpa using this
  rw [hrd0, hrd1]
  simp only [bind_ok]
  rw [if_pos (by rfl)]
  have hcb : ¬ (b0 &&& constructedBit = 0) := by
    rw [constructed_iff]; rw [hb0] at hc; simp only [IsConstructed] at hc; omega
  rw [if_neg hcb]
  have hoslen : os.length ≤ (encAll os).length := by
    clear hbuf hlen htag hrd0 hrd1 h
    induction os with
    | nil => simp
    | cons o os ih =>
      have := ih (fun o ho => hwf o (by simp [ho]))
      have := enc_length_ge (hwf o (by simp))
      simp [encAll] at *; omega
  have hloop := eocLoop_enc t rest buf.length os h [] (buf.length + 1) buf
    (by rw [← hbuf]; simp) (by omega) (by omega)
  simp only [List.length_nil, Nat.zero_add] at hloop
  rw [hloop]
  simp only [bind_ok]
  have hfin := finish_enc (t ++ [0x80]) (encAll os) ([0, 0] ++ rest) b0 (beNat t)
  have htop : topBits t = b0 &&& (classMask ||| constructedBit) := by
    rw [flags_eq, hb0]; rfl
  rw [htop]
  have e : t ++ [0x80] ++ encAll os ++ ([0, 0] ++ rest) = buf := by rw [← hbuf]; simp
  rw [e] at hfin
  simpa using hfin

/-- The hypotheses of `C04_contents_partial` are met by a template 70 with two fields. -/
example : IsTag [0x70] ∧ IsConstructed [0x70] ∧
    (∀ o ∈ [(⟨[0x5A], [0x02], [0x12, 0x3F]⟩ : Obj), ⟨[0x5F, 0x24], [0x00], []⟩],
      o.WF ∧ beNat o.tag ≠ 0) := by
  refine ⟨Or.inl ⟨by decide, rfl⟩, by decide, ?_⟩
  intro o ho
  rcases List.mem_cons.mp ho with rfl | ho
  · exact ⟨⟨Or.inl ⟨by decide, rfl⟩, LenOctets.short 2 (by decide)⟩, by decide⟩
  · rw [List.mem_singleton] at ho
    subst ho
    exact ⟨⟨Or.inr ⟨by decide, by decide, [], 0x24, rfl, by decide, by decide⟩,
      LenOctets.short 0 (by decide)⟩, by decide⟩

/-- **C04 is false of the code (1).** After *any* such indefinite-length object the
iterator is left on the object's own end-of-contents octets, and the next iteration
reports them as a spurious sibling (tag 0, empty value). -/
theorem C04_eoc_not_consumed (t : List Byte) (ht : IsTag t) (hc : IsConstructed t)
    (os : List Obj) (h : ∀ o ∈ os, o.WF ∧ beNat o.tag ≠ 0) (rest : List Byte) :
    (∃ n tlv, itrNext (t ++ [0x80] ++ encAll os ++ [0, 0] ++ rest) =
      .ok ([0, 0] ++ rest, .ok n tlv)) ∧
    itrNext ([0, 0] ++ rest) = .ok (rest, .ok 2 ⟨0, 0, []⟩) := by
  constructor
  · have hd := C04_contents_partial t ht hc os h rest
    refine ⟨t.length + 1 + (encAll os).length, ⟨beNat t, topBits t, encAll os⟩, ?_⟩
    unfold itrNext
    rw [hd]
    simp only [bind_ok]
    rw [suffix_eq (by simp; omega)]
    have e : t ++ [0x80] ++ encAll os ++ [0, 0] ++ rest =
        (t ++ [0x80] ++ encAll os) ++ ([0, 0] ++ rest) := by simp
    have hl : t.length + 1 + (encAll os).length = (t ++ [0x80] ++ encAll os).length := by
      simp; omega
    rw [e, hl, List.drop_left]
    rfl
  · have := itrNext_enc ⟨[0], [0], []⟩
      ⟨Or.inl ⟨by decide, rfl⟩, LenOctets.short 0 (by decide)⟩ rest
    simpa [Obj.enc, tlvOf, beNat, topBits] using this

/-- **C04 is false of the code (2).** With an indefinite object nested in another, the
inner end-of-contents octets end the outer object: the outer value below should be
`30 80 04 00 00 00 04 01 AA` but the trailing `04 01 AA` (and more) is left out. -/
theorem C04_nested_content_lost :
    decode [0x30, 0x80, 0x30, 0x80, 0x04, 0x00, 0x00, 0x00, 0x04, 0x01, 0xAA, 0x00, 0x00] =
      .ok (.ok 6 ⟨0x30, 0x20, [0x30, 0x80, 0x04, 0x00]⟩) := by decide +kernel

/-! ## C07 -/

theorem and7f_eq : ∀ b : Byte, (b &&& 0x7F).toNat = b.toNat % 128 := by decide +kernel
theorem and80_iff : ∀ b : Byte, (b &&& 0x80 = 0) ↔ b.toNat < 128 := by decide +kernel

theorem subidLoop_length (buf : List Byte) : ∀ acc, (subidLoop buf acc).2.length ≤ buf.length := by
  induction buf with
  | nil => intro acc; simp [subidLoop]
  | cons b buf ih =>
    intro acc
    unfold subidLoop
    simp only
    split
    · simp
    · have := ih ((acc * 128) % 2 ^ 32 + (b &&& 0x7F).toNat)
      simp only [List.length_cons]; omega

theorem subidLoop_count (buf : List Byte) : ∀ acc,
    subidCount false buf = subidCount true (subidLoop buf acc).2 := by
  induction buf with
  | nil => intro acc; simp [subidLoop, subidCount]
  | cons b buf ih =>
    intro acc
    unfold subidLoop
    simp only [and80_iff]
    split
    · rename_i h; simp [subidCount, h]
    · rename_i h; simp only [subidCount, h]; simpa using ih _

theorem subidLoop_cons_count (b : Byte) (buf : List Byte) (acc : Nat) :
    subidCount true (b :: buf) = 1 + subidCount true (subidLoop (b :: buf) acc).2 := by
  unfold subidLoop
  simp only [and80_iff]
  split
  · rename_i h; simp [subidCount, h]
  · rename_i h
    simp only [subidCount, h]
    simpa using subidLoop_count _ _

theorem subidLoop_cons_lt (b : Byte) (buf : List Byte) (acc : Nat) :
    (subidLoop (b :: buf) acc).2.length ≤ buf.length := by
  unfold subidLoop
  simp only
  split
  · simp
  · exact subidLoop_length _ _

theorem oidLoop_safe_iff : ∀ fuel (buf : List Byte) (value : List Nat) (length : Nat),
    value.length = 10 → length ≤ 10 → length + buf.length < 42 → buf.length < fuel →
    ((∃ v l, oidLoop fuel buf value length = .ok (v, l) ∧ v.length = 10 ∧
        l = length + subidCount true buf ∧ l ≤ 10) ∨
     (oidLoop fuel buf value length = .error .oobWrite ∧ 10 < length + subidCount true buf)) := by
  intro fuel
  induction fuel with
  | zero => intros; omega
  | succ fuel ih =>
    intro buf value length hv hl hb hf
    unfold oidLoop
    cases buf with
    | nil => left; exact ⟨value, length, by simp, hv, by simp [subidCount], hl⟩
    | cons b buf =>
      rw [if_pos ⟨by simp, by omega⟩]
      have hc := subidLoop_cons_count b buf 0
      have hlt := subidLoop_cons_lt b buf 0
      generalize subidLoop (b :: buf) 0 = p at hc hlt ⊢
      obtain ⟨subid, rest⟩ := p
      simp only at hc hlt ⊢
      by_cases h10 : length < 10
      · rw [wr_eq (by omega)]
        simp only [bind_ok]
        have := ih rest (value.set length subid) (length + 1) (by simpa using hv) (by omega)
          (by simp at hb; omega) (by simp at hf; omega)
        rcases this with ⟨v, l, h1, h2, h3, h4⟩ | ⟨h1, h2⟩
        · left; exact ⟨v, l, h1, h2, by omega, h4⟩
        · right; exact ⟨h1, by omega⟩
      · right
        rw [show wr value length subid = .error .oobWrite by simp [wr]; omega]
        exact ⟨rfl, by omega⟩

/-- **C07 (characterisation, `_partial` because it is not "for every input").**  For an
input of 1 to 39 bytes, decoding stays inside the ten-element result array exactly when
the bytes after the first contain at most eight sub-identifiers; otherwise it writes past
the array. -/
theorem C07_oid_in_bounds_partial (b : Byte) (buf : List Byte) (h : buf.length < 39) :
    ((oidDecode (b :: buf)).Safe ↔ subidCount true buf ≤ 8) ∧
    (¬ subidCount true buf ≤ 8 → oidDecode (b :: buf) = .error .oobWrite) := by
  unfold oidDecode
  rw [if_neg (by simp), if_neg (by simp; omega)]
  simp only [rd_cons_zero, bind_ok, suffix_eq (show 1 ≤ (b :: buf).length by simp), List.drop_one,
    List.tail_cons]
  generalize (if b.toNat < 40 then (0, b.toNat) else if b.toNat < 80 then (1, b.toNat - 40)
    else (2, b.toNat - 80)) = p
  obtain ⟨v0, v1⟩ := p
  simp only
  rw [wr_eq (by simp)]
  simp only [bind_ok]
  rw [wr_eq (by simp)]
  simp only [bind_ok]
  have := oidLoop_safe_iff ((b :: buf).length + 1) buf
    (((List.replicate 10 0).set 0 v0).set 1 v1) 2 (by simp) (by omega) (by omega)
    (by simp; omega)
  rcases this with ⟨v, l, h1, h2, h3, h4⟩ | ⟨h1, h2⟩
  · rw [h1]
    refine ⟨⟨fun _ => by omega, fun _ => ⟨_, rfl⟩⟩, fun hh => by omega⟩
  · rw [h1]
    refine ⟨⟨fun ⟨a, ha⟩ => by simp at ha, fun _ => by omega⟩, fun _ => rfl⟩

/-- **C07 is false of the code.**  Ten bytes, an accepted length, overflow the array. -/
theorem C07_oid_overflow :
    oidDecode [0x2A, 1, 2, 3, 4, 5, 6, 7, 8, 9] = .error .oobWrite := by decide +kernel

example : subidCount true [0x86, 0x48, 0x86, 0xF7, 0x0D, 0x01, 0x01, 0x0B] ≤ 8 := by decide

theorem subidLoop_acc (more : List Byte) (last : Byte) (rest : List Byte)
    (hm : ∀ m ∈ more, 128 ≤ m.toNat) (hl : last.toNat < 128) : ∀ acc full : Nat,
    acc = full % 4294967296 →
    subidLoop (more ++ last :: rest) acc =
      ((more ++ [last]).foldl (fun a b => a * 128 + b.toNat % 128) full % 4294967296, rest) := by
  induction more with
  | nil =>
    intro acc full h
    simp only [List.nil_append, subidLoop, and7f_eq, (and80_iff last).mpr hl, if_true,
      List.foldl_cons, List.foldl_nil, Prod.mk.injEq, and_true, Nat.reducePow]
    omega
  | cons m more ih =>
    intro acc full h
    have h128 := hm m (by simp)
    have hne : ¬ (m &&& 0x80 = 0) := by rw [and80_iff]; omega
    simp only [List.cons_append, subidLoop, hne, if_false, List.foldl_cons]
    apply ih (fun x hx => hm x (by simp [hx]))
    rw [and7f_eq]
    simp only [Nat.reducePow]
    omega

theorem subidLoop_enc (arc : Nat) (bs rest : List Byte) (h : IsSubid arc bs)
    (hb : arc < 4294967296) : subidLoop (bs ++ rest) 0 = (arc, rest) := by
  obtain ⟨more, last, rfl, hm, hl, rfl⟩ := h
  have := subidLoop_acc more last rest hm hl 0 0 (by simp)
  rw [Nat.mod_eq_of_lt hb] at this
  simpa using this

theorem oidLoop_enc (arcs : List (Nat × List Byte))
    (h : ∀ a ∈ arcs, IsSubid a.1 a.2 ∧ a.1 < 2 ^ 32) :
    ∀ (fuel : Nat) (done : List Nat) (pad : List Nat),
      (arcs.map Prod.snd).flatten.length < fuel →
      arcs.length ≤ pad.length → done.length + pad.length = 10 →
      oidLoop fuel (arcs.map Prod.snd).flatten (done ++ pad) done.length =
        .ok (done ++ arcs.map Prod.fst ++ pad.drop arcs.length, done.length + arcs.length) := by
  induction arcs with
  | nil =>
    intro fuel done pad hf _ _
    cases fuel with
    | zero => simp at hf
    | succ fuel => simp [oidLoop]
  | cons a arcs ih =>
    intro fuel done pad hf hp h10
    obtain ⟨arc, bs⟩ := a
    have ha := h (arc, bs) (by simp)
    cases fuel with
    | zero => simp at hf
    | succ fuel =>
      cases pad with
      | nil => simp at hp
      | cons p pad =>
        have hbs : 1 ≤ bs.length := by
          obtain ⟨more, last, rfl, _⟩ := ha.1; simp
        unfold oidLoop
        simp only [List.length_cons] at hp h10
        rw [if_pos ⟨by simp; intro hh; simp [hh] at hbs, by omega⟩]
        simp only [List.map_cons, List.flatten_cons]
        rw [subidLoop_enc arc bs _ ha.1 (by simpa using ha.2)]
        simp only
        rw [wr_eq (by simp)]
        simp only [bind_ok]
        have := ih (fun a h' => h a (by simp [h'])) fuel (done ++ [arc]) pad
          (by simp at hf ⊢; omega) (by omega) (by simp; omega)
        simp only [List.length_append, List.length_singleton] at this
        rw [show (done ++ p :: pad).set done.length arc = done ++ [arc] ++ pad by simp, this]
        simp [Nat.add_assoc, Nat.add_comm 1]

/-- **C07 (value, partial).**  A first octet `40·X+Y` (X = 0, 1 with Y < 40, or X = 2)
followed by up to eight arcs below 2^32 decodes to exactly those arcs.  Missing with
respect to C07: larger arcs (a `uint32_t` wraps) and more than eight arcs
(`C07_oid_overflow`). -/
theorem C07_oid_value_partial (x y : Nat)
    (hxy : (x < 2 ∧ y < 40) ∨ (x = 2 ∧ y < 176)) (arcs : List (Nat × List Byte))
    (hn : arcs.length ≤ 8) (h : ∀ a ∈ arcs, IsSubid a.1 a.2 ∧ a.1 < 2 ^ 32)
    (hlen : (arcs.map Prod.snd).flatten.length < 39) :
    ∃ v, oidDecode (UInt8.ofNat (40 * x + y) :: (arcs.map Prod.snd).flatten) =
      .ok (0, v, 2 + arcs.length) ∧ v.take (2 + arcs.length) = x :: y :: arcs.map Prod.fst := by
  have hb : (UInt8.ofNat (40 * x + y)).toNat = 40 * x + y := by
    simp only [UInt8.toNat_ofNat']; omega
  unfold oidDecode
  rw [if_neg (by simp), if_neg (by simp at hlen ⊢; omega)]
  simp only [rd_cons_zero, bind_ok,
    suffix_eq (show 1 ≤ (UInt8.ofNat (40 * x + y) :: (arcs.map Prod.snd).flatten).length by simp),
    List.drop_one, List.tail_cons, hb]
  have hp : (if 40 * x + y < 40 then (0, 40 * x + y) else
      if 40 * x + y < 80 then (1, 40 * x + y - 40) else (2, 40 * x + y - 80)) = (x, y) := by
    split
    · rw [Prod.mk.injEq]; omega
    · split
      · rw [Prod.mk.injEq]; omega
      · rw [Prod.mk.injEq]; omega
  rw [hp]
  simp only
  rw [wr_eq (by simp)]
  simp only [bind_ok]
  rw [wr_eq (by simp)]
  simp only [bind_ok]
  have := oidLoop_enc arcs h ((UInt8.ofNat (40 * x + y) :: (arcs.map Prod.snd).flatten).length + 1)
    [x, y] (List.replicate 8 0) (by simp; omega) (by simp; omega) (by simp)
  have e : ((List.replicate 10 0).set 0 x).set 1 y = [x, y] ++ List.replicate 8 0 := by
    rfl
  rw [e]
  simp only [List.length_cons, List.length_nil] at this
  simp only [List.length_cons]
  rw [this]
  refine ⟨_, rfl, ?_⟩
  simp
  rw [show 2 + arcs.length = arcs.length + 1 + 1 by omega]
  simp

example : IsSubid 113549 [0x86, 0xF7, 0x0D] :=
  ⟨[0x86, 0xF7], 0x0D, rfl, by decide, by decide, by decide⟩

end Verif.Ber
