import Verif.PrintSpec
import Verif.Print
import Verif.IadLemmas

/-! # Lemmas on listings -/

set_option autoImplicit false

namespace Verif.Print
open Verif Ber BerSpec Formats PrintSpec

/-! ## Texts -/

theorem indent_eq (pfx : List Byte) : ∀ d, indent pfx d = indentation pfx d
  | 0 => rfl
  | d + 1 => by rw [indent, indent_eq pfx d]; simp [indentation, List.replicate_succ]

theorem spaced_eq (v : List Byte) : spaced v = spacedHex v := by
  unfold spaced spacedHex
  congr 1
  apply List.map_congr_left
  intro b _
  rw [Iad.hex02_hexOf' b]

theorem decI_eq (c : Int) (h : c.natAbs < 2 ^ 32) : decI c = signed c := by
  unfold decI signed
  rw [Lists.decU_spec _ h]
  split <;> rfl

theorem xLoop_byte (k n : Nat) (b : Byte) (acc : List Byte) (hn : 1 ≤ n) :
    xLoop (k + 2) (n * 256 + b.toNat) acc = xLoop k n (hexOf [b] ++ acc) := by
  have hb : b.toNat < 256 := toNat_lt b
  have e1 : (n * 256 + b.toNat) % 16 = b.toNat % 16 := by omega
  have e2 : (n * 256 + b.toNat) / 16 = n * 16 + b.toNat / 16 := by omega
  have e3 : (n * 16 + b.toNat / 16) % 16 = b.toNat / 16 := by omega
  have e4 : (n * 16 + b.toNat / 16) / 16 = n := by omega
  rw [xLoop]
  rw [if_neg (by omega), e1, e2, xLoop]
  rw [if_neg (by omega), e3, e4]
  have : ∀ b : Byte, Bits.hexDigit (b.toNat / 16) :: [Bits.hexDigit (b.toNat % 16)] = hexOf [b] := by
    decide +kernel
  rw [← this b]
  rfl

theorem xLoop_bytes (bs : List Byte) : ∀ (k n : Nat) (acc : List Byte), 1 ≤ n →
    xLoop (k + 2 * bs.length) (bs.foldl (fun a b => a * 256 + b.toNat) n) acc =
      xLoop k n (hexOf bs ++ acc) := by
  induction bs with
  | nil => intro k n acc _; rfl
  | cons b bs ih =>
    intro k n acc hn
    rw [List.foldl_cons, List.length_cons, show k + 2 * (bs.length + 1) = (k + 2) + 2 * bs.length by omega,
      ih (k + 2) _ acc (by omega), xLoop_byte k n b _ hn, ← List.append_assoc, ← Capdu.hexOf_append]
    rfl

theorem xLoop_more (m k n : Nat) (acc : List Byte) (h : n < 16 ^ (k + 1)) :
    xLoop (k + 1 + m) n acc = xLoop (k + 1) n acc := by
  induction k generalizing n acc with
  | zero =>
    rw [show 0 + 1 + m = m + 1 by omega, xLoop, xLoop]
    rw [if_pos (by simpa using h), if_pos (by simpa using h)]
  | succ k ih =>
    rw [show k + 1 + 1 + m = (k + 1 + m) + 1 by omega, xLoop, xLoop]
    split
    · rfl
    · exact ih _ _ (by rw [Nat.pow_succ] at h; omega)

/-- Identifier octets are shown as they are. -/
theorem hexU_tag (tag : List Byte) (h : IsTag tag) : hexU (beNat tag) = hexOf tag := by
  match tag, h with
  | b :: rest, .inl ⟨_, hr⟩ =>
    subst hr
    have : ∀ b : Byte, hexU b.toNat = hexOf [b] := by decide +kernel
    rw [← this b]
    simp [beNat]
  | b :: rest, .inr ⟨hb, hl, _⟩ =>
    have hlt : b.toNat < 256 := toNat_lt b
    have key : ∀ acc, xLoop 2 b.toNat acc = hexOf [b] ++ acc := by
      intro acc
      have : ∀ b : Byte, 16 ≤ b.toNat →
          Bits.hexDigit (b.toNat / 16) :: [Bits.hexDigit (b.toNat % 16)] = hexOf [b] := by
        decide +kernel
      rw [xLoop]
      rw [if_neg (by omega), xLoop]
      rw [if_pos (by omega), Nat.mod_eq_of_lt (show b.toNat / 16 < 16 by omega),
        ← this b (by omega)]
      rfl
    have e : beNat (b :: rest) = rest.foldl (fun a b => a * 256 + b.toNat) b.toNat := by
      unfold beNat
      rw [List.foldl_cons]
      simp
    have e2 : xLoop 8 (beNat (b :: rest)) [] = hexOf (b :: rest) := by
      rw [e, show 8 = (1 + 1 + (6 - 2 * rest.length)) + 2 * rest.length by omega,
        xLoop_bytes _ _ _ _ (by omega), xLoop_more _ 1 _ _ (by omega), key, List.append_nil,
        ← Capdu.hexOf_append]
      rfl
    unfold hexU
    rw [e2, if_neg]
    simp [hexOf_length]
    omega

/-! ## Error codes -/

theorem tagLoop_code (buf : List Byte) : ∀ fuel offset tag c,
    Ber.tagLoop buf fuel offset tag = .ok (.err c) → c.natAbs ≤ 11 := by
  intro fuel
  induction fuel with
  | zero => intro o t c h; simp [Ber.tagLoop] at h
  | succ fuel ih =>
    intro o t c h
    unfold Ber.tagLoop at h
    split at h
    · simp at h; subst h; decide
    · match hr : rd buf o, h with
      | .error _, h => simp at h
      | .ok b, h =>
        simp only [bind_ok] at h
        split at h
        · simp at h
        · split at h
          · simp at h; subst h; decide
          · exact ih _ _ _ h

theorem tagDecode_code (buf : List Byte) (c : Int) (h : tagDecode buf = .ok (.err c)) :
    c.natAbs ≤ 11 := by
  unfold tagDecode at h
  split at h
  · simp at h
  · match hr : rd buf 0, h with
    | .error _, h => simp at h
    | .ok b, h =>
      simp only [bind_ok] at h
      split at h
      · exact tagLoop_code _ _ _ _ _ h
      · simp at h

theorem eocLoop_code (dec : List Byte → C (Dec Tlv)) (buf : List Byte) (o : Nat) : ∀ fuel l c,
    eocLoop dec buf o fuel l = .ok (.error c) → c.natAbs ≤ 11 := by
  intro fuel
  induction fuel with
  | zero => intro l c h; simp [eocLoop] at h
  | succ fuel ih =>
    intro l c h
    unfold eocLoop at h
    match hs : suffix buf (o + l), h with
    | .error _, h => simp at h
    | .ok s, h =>
      simp only [bind_ok] at h
      match hd : dec s, h with
      | .error _, h => simp at h
      | .ok (.err _), h => simp at h; subst h; decide
      | .ok .eod, h => simp at h; subst h; decide
      | .ok (.ok r i), h =>
        simp only [bind_ok] at h
        split at h
        · simp at h
        · exact ih _ _ h

theorem finish_code {buf : List Byte} {b0 : Byte} {tag offset length : Nat} {c : Int}
    (h : finish buf b0 tag offset length = .ok (.err c)) : c.natAbs ≤ 11 := by
  unfold finish at h
  split at h
  · simp at h; subst h; decide
  · match hs : slice buf offset length, h with
    | .error _, h => simp at h
    | .ok s, h => simp at h

theorem refused_code {buf : List Byte} {c : Int} (h : Refused buf c) : c.natAbs ≤ 11 := by
  unfold Refused decode decodeF at h
  split at h
  · simp at h
  split at h
  · simp at h; subst h; decide
  match hd : tagDecode buf, h with
  | .error _, h => simp at h
  | .ok .eod, h => simp at h
  | .ok (.err c'), h => simp at h; subst h; exact tagDecode_code _ _ hd
  | .ok (.ok o t), h =>
    simp only [bind_ok] at h
    split at h
    · simp at h; subst h; decide
    match h0 : rd buf 0, h1 : rd buf o, h with
    | .error _, _, h => simp at h
    | .ok _, .error _, h => simp at h
    | .ok b0, .ok lb, h =>
      simp only [bind_ok] at h
      split at h
      · split at h
        · simp at h; subst h; decide
        · match he : eocLoop (decodeF buf.length) buf (o + 1) (buf.length + 1) 0, h with
          | .error _, h => simp at h
          | .ok (.error c'), h => simp at h; subst h; exact eocLoop_code _ _ _ _ _ _ he
          | .ok (.ok l), h => exact finish_code h
      · split at h
        · split at h
          · simp at h; subst h; decide
          split at h
          · simp at h; subst h; decide
          match hl : lenLoop buf (lb &&& lenCountMask).toNat (o + 1) 0, h with
          | .error _, h => simp at h
          | .ok l, h => exact finish_code h
        · exact finish_code h

theorem decI_code {buf : List Byte} {c : Int} (h : Refused buf c) : decI c = signed c :=
  decI_eq c (by have := refused_code h; omega)

theorem refused_neg {buf : List Byte} {c : Int} (h : Refused buf c) : buf ≠ [] := by
  rintro rfl
  simp [Refused, decode, decodeF] at h

/-! ## Reading -/

theorem itrNext_reads {hdr tag value rest : List Byte}
    (h : Reads (hdr ++ value ++ rest) hdr tag value) :
    itrNext (hdr ++ value ++ rest) =
      .ok (rest, .ok (hdr.length + value.length) ⟨beNat tag, topBits tag, value⟩) := by
  unfold itrNext
  rw [h.2.2]
  simp only [bind_ok]
  rw [suffix_eq (by simp), ← List.length_append, List.drop_left]
  rfl

theorem itrNext_refused {buf : List Byte} {c : Int} (h : Refused buf c) :
    itrNext buf = .ok (buf, .err c) := by
  unfold itrNext
  rw [h]
  rfl

theorem reads_hdr {buf hdr tag value : List Byte} (h : Reads buf hdr tag value) :
    1 ≤ hdr.length := by
  have h1 := isTag_length h.1
  have h2 := h.2.1.length_le
  omega

theorem reads_definite (o : Obj) (h : o.WF) (rest : List Byte) :
    Reads (o.tag ++ o.len ++ o.value ++ rest) (o.tag ++ o.len) o.tag o.value := by
  refine ⟨h.1, List.prefix_append _ _, ?_⟩
  rw [Ber.decode_enc h.1 h.2 rest]
  simp

theorem reads_split (buf : List Byte) :
    buf = [] ∨ (∃ c, Refused buf c) ∨
      ∃ hdr tag value rest, buf = hdr ++ value ++ rest ∧ Reads buf hdr tag value := by
  obtain ⟨d, hd, hs⟩ := decode_spec buf
  cases d with
  | eod => exact .inl hs
  | err c => exact .inr (.inl ⟨c, hd⟩)
  | ok n t =>
    right; right
    obtain ⟨tag, rest, h1, h2, h3, ⟨len, -, hb, hn⟩ | ⟨-, hb, -, hn⟩⟩ := decode_inv hd
    · refine ⟨tag ++ len, tag, t.value, rest, hb, h1, List.prefix_append _ _, ?_⟩
      rw [hd, hn, ← h2, ← h3]
      simp
    · refine ⟨tag ++ [0x80], tag, t.value, rest, hb, h1, List.prefix_append _ _, ?_⟩
      rw [hd, hn, ← h2, ← h3]
      simp

/-! ## The walk -/

/-- The item of an object is `line`. -/
abbrev Gives (item : Nat → Tlv → C (List Byte × Option Int))
    (line : Nat → List Byte → List Byte → List Byte) (depth : Nat) (tag v : List Byte) : Prop :=
  item depth ⟨beNat tag, topBits tag, v⟩ = .ok (line depth tag v, none)

theorem looksLikePadding_iff (n valid : Nat) :
    looksLikePadding n valid = true ↔ (valid < n ∧ PadRule n (n - valid)) := by
  simp [looksLikePadding, PadRule]

theorem walk_nil (item : Nat → Tlv → C (List Byte × Option Int)) (pfx : List Byte) (pad : Bool)
    (fuel depth : Nat) (whole : List Byte) (valid : Nat) (h : 0 < fuel) :
    walk item pfx pad fuel depth whole [] valid = .ok ([], valid) := by
  obtain ⟨f, rfl⟩ : ∃ f, fuel = f + 1 := ⟨fuel - 1, by omega⟩
  unfold walk
  rw [itrNext_nil]
  rfl

theorem constructed_tlv {tag v : List Byte} (h : IsTag tag) :
    (Tlv.isConstructed ⟨beNat tag, topBits tag, v⟩ = true) ↔ IsConstructed tag :=
  TlvParse.isConstructed_iff h rfl

theorem walk_prim (item : Nat → Tlv → C (List Byte × Option Int))
    (line : Nat → List Byte → List Byte → List Byte) (pfx : List Byte) (pad : Bool)
    (fuel depth : Nat) (whole hdr tag value rest T : List Byte) (valid n : Nat)
    (hr : Reads (hdr ++ value ++ rest) hdr tag value) (hc : ¬ IsConstructed tag)
    (hg : Gives item line depth tag value)
    (hk : walk item pfx pad fuel depth whole rest (valid + (hdr.length + value.length)) = .ok (T, n)) :
    walk item pfx pad (fuel + 1) depth whole (hdr ++ value ++ rest) valid =
      .ok (line depth tag value ++ T, n) := by
  unfold walk
  rw [itrNext_reads hr]
  simp only [bind_ok]
  rw [hg]
  simp only [bind_ok]
  rw [if_neg (by rw [constructed_tlv hr.1]; exact hc), hk]
  rfl

theorem walk_node (item : Nat → Tlv → C (List Byte × Option Int))
    (line : Nat → List Byte → List Byte → List Byte) (pfx : List Byte) (pad : Bool)
    (fuel depth : Nat) (whole hdr tag value rest U T : List Byte) (valid n : Nat)
    (hr : Reads (hdr ++ value ++ rest) hdr tag value) (hc : IsConstructed tag)
    (hg : Gives item line depth tag value)
    (hi : walk item pfx pad fuel (depth + 1) value value 0 = .ok (U, value.length))
    (hk : walk item pfx pad fuel depth whole rest (valid + (hdr.length + value.length)) = .ok (T, n)) :
    walk item pfx pad (fuel + 1) depth whole (hdr ++ value ++ rest) valid =
      .ok (line depth tag value ++ U ++ T, n) := by
  unfold walk
  rw [itrNext_reads hr]
  simp only [bind_ok]
  rw [hg]
  simp only [bind_ok]
  rw [if_pos (by rw [constructed_tlv hr.1]; exact hc), hi]
  simp only [bind_ok]
  rw [if_neg (by omega), show valid + (hdr.length + value.length - value.length) + value.length =
    valid + (hdr.length + value.length) by omega, hk]
  rfl

theorem walk_into (item : Nat → Tlv → C (List Byte × Option Int))
    (line : Nat → List Byte → List Byte → List Byte) (pfx : List Byte) (pad : Bool)
    (fuel depth : Nat) (whole hdr tag value rest U : List Byte) (valid m : Nat)
    (hr : Reads (hdr ++ value ++ rest) hdr tag value) (hc : IsConstructed tag)
    (hg : Gives item line depth tag value)
    (hi : walk item pfx pad fuel (depth + 1) value value 0 = .ok (U, m)) (hm : m < value.length) :
    walk item pfx pad (fuel + 1) depth whole (hdr ++ value ++ rest) valid =
      .ok (line depth tag value ++ U, valid + hdr.length + m) := by
  unfold walk
  rw [itrNext_reads hr]
  simp only [bind_ok]
  rw [hg]
  simp only [bind_ok]
  rw [if_pos (by rw [constructed_tlv hr.1]; exact hc), hi]
  simp only [bind_ok]
  rw [if_pos hm, show valid + (hdr.length + value.length - value.length) + m =
    valid + hdr.length + m by omega]

theorem walk_doc (item : Nat → Tlv → C (List Byte × Option Int))
    (line : Nat → List Byte → List Byte → List Byte) (pfx : List Byte) (pad : Bool) (d : Doc) :
    ∀ (depth : Nat) (whole tail T : List Byte) (valid n : Nat), whole.length < 2 ^ 32 →
    whole.drop valid = d.enc ++ tail → valid ≤ whole.length →
    d.WF pad whole.length tail → d.All (Gives item line) depth →
    (∀ fuel, tail.length < fuel →
      walk item pfx pad fuel depth whole tail (valid + d.enc.length) = .ok (T, n)) →
    ∀ fuel, d.enc.length + tail.length < fuel →
      walk item pfx pad fuel depth whole (d.enc ++ tail) valid =
        .ok (d.text line pfx depth ++ T, n) := by
  induction d with
  | nil =>
    intro depth whole tail T valid n _ _ _ _ _ hk fuel hf
    have := hk fuel (by simp [Doc.enc] at hf; exact hf)
    simpa [Doc.enc, Doc.text] using this
  | padding bytes =>
    intro depth whole tail T valid n hw hd hv hwf _ hk fuel hf
    obtain ⟨hp, rfl, hne, ⟨c, hc⟩, hrule⟩ := hwf
    have h0 := hk 1 (by simp)
    rw [walk_nil _ _ _ _ _ _ _ (by omega)] at h0
    simp only [Except.ok.injEq, Prod.mk.injEq] at h0
    obtain ⟨rfl, rfl⟩ := h0
    obtain ⟨f, rfl⟩ : ∃ f, fuel = f + 1 := ⟨fuel - 1, by omega⟩
    have hl : whole.length - valid = bytes.length := by
      have := congrArg List.length hd
      simpa [Doc.enc] using this
    have hpos : 0 < bytes.length := List.length_pos_iff.mpr hne
    simp only [Doc.enc, List.append_nil] at hd ⊢
    unfold walk
    rw [itrNext_refused hc]
    simp only [bind_ok]
    unfold ending
    rw [if_pos (by
      rw [Bool.and_eq_true, looksLikePadding_iff, hl]
      exact ⟨hp, by omega, hrule⟩), suffix_eq hv, hd, hl]
    simp only [bind_ok]
    rw [Lists.decU_spec _ (by omega), indent_eq, spaced_eq]
    simp only [Doc.text, Except.ok.injEq, Prod.mk.injEq, true_and]
    omega
  | prim hdr tag value rest ih =>
    intro depth whole tail T valid n hw hd hv hwf hall hk fuel hf
    obtain ⟨hr, hc, hwf⟩ := hwf
    obtain ⟨f, rfl⟩ : ∃ f, fuel = f + 1 := ⟨fuel - 1, by omega⟩
    have h1 := reads_hdr hr
    simp only [Doc.enc, List.append_assoc, List.length_append] at hd hf hk ⊢
    have hlen := congrArg List.length hd
    simp only [List.length_drop, List.length_append] at hlen
    have hd' : whole.drop (valid + (hdr.length + value.length)) = rest.enc ++ tail := by
      rw [← List.drop_drop, hd, ← List.append_assoc, ← List.length_append, List.drop_left]
    have := ih depth whole tail T (valid + (hdr.length + value.length)) n hw hd' (by omega) hwf hall.2
      (fun fuel hf => by
        have := hk fuel hf
        rwa [show valid + (hdr.length + (value.length + rest.enc.length)) =
          valid + (hdr.length + value.length) + rest.enc.length by omega] at this) f (by omega)
    have := walk_prim item line pfx pad f depth whole hdr tag value (rest.enc ++ tail) _ valid n
      hr hc hall.1 this
    simpa [Doc.text, List.append_assoc] using this
  | node hdr tag children rest ihc ihr =>
    intro depth whole tail T valid n hw hd hv hwf hall hk fuel hf
    obtain ⟨hr, hc, hwc, hwf⟩ := hwf
    obtain ⟨f, rfl⟩ : ∃ f, fuel = f + 1 := ⟨fuel - 1, by omega⟩
    have h1 := reads_hdr hr
    simp only [Doc.enc, List.append_assoc, List.length_append] at hd hf hk ⊢
    have hlen := congrArg List.length hd
    simp only [List.length_drop, List.length_append] at hlen
    have hd' : whole.drop (valid + (hdr.length + children.enc.length)) = rest.enc ++ tail := by
      rw [← List.drop_drop, hd, ← List.append_assoc, ← List.length_append, List.drop_left]
    have h2 := ihr depth whole tail T (valid + (hdr.length + children.enc.length)) n hw hd' (by omega)
      hwf hall.2.2
      (fun fuel hf => by
        have := hk fuel hf
        rwa [show valid + (hdr.length + (children.enc.length + rest.enc.length)) =
          valid + (hdr.length + children.enc.length) + rest.enc.length by omega] at this) f (by omega)
    have h3 := ihc (depth + 1) children.enc [] [] 0 children.enc.length (by omega) (by simp) (by simp)
      hwc hall.2.1
      (fun fuel hf => by
        rw [walk_nil _ _ _ _ _ _ _ (by omega)]; simp) f (by simp; omega)
    rw [List.append_nil, List.append_nil] at h3
    have := walk_node item line pfx pad f depth whole hdr tag children.enc (rest.enc ++ tail) _ _
      valid n hr hc hall.1 h3 h2
    simpa [Doc.text, List.append_assoc] using this

/-- A complete document. -/
theorem level_doc (item : Nat → Tlv → C (List Byte × Option Int))
    (line : Nat → List Byte → List Byte → List Byte) (pfx : List Byte) (pad : Bool) (d : Doc)
    (depth fuel : Nat) (hw : d.enc.length < 2 ^ 32) (hwf : d.WF pad d.enc.length [])
    (hall : d.All (Gives item line) depth) (hf : d.enc.length < fuel) :
    walk item pfx pad fuel depth d.enc d.enc 0 = .ok (d.text line pfx depth, d.enc.length) := by
  have := walk_doc item line pfx pad d depth d.enc [] [] 0 d.enc.length hw (by simp) (by simp) hwf
    hall (fun fuel hf => by rw [walk_nil _ _ _ _ _ _ _ (by omega)]; simp) fuel (by simpa using hf)
  rwa [List.append_nil, List.append_nil] at this

theorem Path.offset_lt (pad : Bool) (p : Path) : ∀ n, p.WF pad n → p.offset < p.enc.length := by
  induction p with
  | stop d bad c =>
    intro n h
    have := List.length_pos_iff.mpr h.2.1
    simp [Path.offset, Path.enc]
    omega
  | into d hdr tag p after ih =>
    intro n h
    have := ih _ h.2.2.2
    simp [Path.offset, Path.enc]
    omega

theorem walk_path (item : Nat → Tlv → C (List Byte × Option Int))
    (line : Nat → List Byte → List Byte → List Byte) (pfx : List Byte) (pad : Bool) (p : Path) :
    ∀ (depth fuel : Nat), p.enc.length < 2 ^ 32 →
    p.WF pad p.enc.length → p.All (Gives item line) depth → p.enc.length < fuel →
    walk item pfx pad fuel depth p.enc p.enc 0 = .ok (p.text line pfx depth, p.offset) := by
  induction p with
  | stop d bad c =>
    intro depth fuel hw hwf hall hf
    obtain ⟨hwd, hne, href, hnp⟩ := hwf
    have := walk_doc item line pfx pad d depth (d.enc ++ bad) bad
      (txt!"BER decoding error " ++ signed c) 0 d.enc.length hw (by simp) (by simp) hwd hall
      (fun fuel hf => by
        obtain ⟨f, rfl⟩ : ∃ f, fuel = f + 1 := ⟨fuel - 1, by omega⟩
        unfold walk
        rw [itrNext_refused href]
        simp only [bind_ok]
        unfold ending
        rw [if_neg, decI_code href]
        · simp
        · rw [Bool.and_eq_true, looksLikePadding_iff]
          rintro ⟨h1, -, h2⟩
          refine hnp ⟨h1, ?_⟩
          simpa [Path.enc] using h2)
      fuel (by simpa [Path.enc] using hf)
    simpa [Path.enc, Path.text, Path.offset, List.append_assoc] using this
  | into d hdr tag p after ih =>
    intro depth fuel hw hwf hall hf
    obtain ⟨hwd, hr, hc, hwp⟩ := hwf
    obtain ⟨had, hg, hap⟩ := hall
    have hlt := Path.offset_lt pad p _ hwp
    have h1 := reads_hdr hr
    simp only [Path.enc, List.length_append] at hw hf
    have := walk_doc item line pfx pad d depth (d.enc ++ (hdr ++ p.enc ++ after))
      (hdr ++ p.enc ++ after) (line depth tag p.enc ++ p.text line pfx (depth + 1)) 0
      (d.enc.length + hdr.length + p.offset) (by simp; omega) (by simp) (by simp)
      hwd had
      (fun fuel hf => by
        obtain ⟨f, rfl⟩ : ∃ f, fuel = f + 1 := ⟨fuel - 1, by omega⟩
        have := walk_into item line pfx pad f depth (d.enc ++ (hdr ++ p.enc ++ after)) hdr tag p.enc
          after _ (0 + d.enc.length) p.offset hr hc hg
          (ih (depth + 1) f (by omega) hwp hap (by simp at hf; omega)) hlt
        rw [this]
        simp)
      fuel (by simp; omega)
    simpa [Path.enc, Path.text, Path.offset, List.append_assoc] using this

theorem Path.offset_le (p : Path) : p.offset ≤ p.enc.length := by
  induction p with
  | stop d bad c => simp [Path.enc, Path.offset]
  | into d hdr tag p after ih => simp [Path.enc, Path.offset]; omega

theorem Path.drop_offset (p : Path) (h : p.offset ≤ p.enc.length) :
    p.enc.drop p.offset = p.invalid := by
  induction p with
  | stop d bad c => simp [Path.enc, Path.offset, Path.invalid]
  | into d hdr tag p after ih =>
    have h' : p.offset ≤ p.enc.length := Path.offset_le p
    simp only [Path.enc, Path.offset, Path.invalid]
    rw [Nat.add_assoc, ← List.drop_drop, List.drop_left, ← List.drop_drop, List.append_assoc,
      List.drop_left, List.drop_append, ih h', show p.offset - p.enc.length = 0 by omega]
    rfl

theorem listing_doc (item : Nat → Tlv → C (List Byte × Option Int))
    (line : Nat → List Byte → List Byte → List Byte) (pfx : List Byte) (pad : Bool) (d : Doc)
    (depth : Nat) (hw : d.enc.length < 2 ^ 32) (hwf : d.WF pad d.enc.length [])
    (hall : d.All (Gives item line) depth) :
    listing item pfx pad depth d.enc = .ok (d.text line pfx depth) := by
  unfold listing level
  rw [level_doc item line pfx pad d depth _ hw hwf hall (by omega)]
  simp [remainder]

theorem listing_path (item : Nat → Tlv → C (List Byte × Option Int))
    (line : Nat → List Byte → List Byte → List Byte) (pfx : List Byte) (pad : Bool) (p : Path)
    (depth : Nat) (hw : p.enc.length < 2 ^ 32) (hwf : p.WF pad p.enc.length)
    (hall : p.All (Gives item line) depth) :
    listing item pfx pad depth p.enc = .ok (p.text line pfx depth ++ txt!" at offset " ++
      Lists.decimal p.offset ++ txt!"; remaining invalid data:" ++ spacedHex p.invalid ++ [0x0A]) := by
  have hlt := Path.offset_lt pad p _ hwf
  unfold listing level
  rw [walk_path item line pfx pad p depth _ hw hwf hall (by omega)]
  simp only [bind_ok]
  unfold remainder
  rw [if_pos hlt, suffix_eq (by omega), Path.drop_offset p (by omega)]
  simp only [bind_ok]
  rw [spaced_eq, decI_eq _ (by omega), signed, if_neg (by omega), Int.natAbs_natCast]
  simp only [List.append_assoc]

/-! ## Every input is a document or has a path -/

theorem doc_or_path (pad : Bool) : ∀ (k : Nat) (buf : List Byte) (n : Nat), buf.length ≤ k →
    (∃ d : Doc, d.WF pad n [] ∧ buf = d.enc) ∨ (∃ p : Path, p.WF pad n ∧ buf = p.enc) := by
  intro k
  induction k with
  | zero =>
    intro buf n h
    exact .inl ⟨.nil, trivial, by simpa [Doc.enc] using h⟩
  | succ k ih =>
    intro buf n h
    rcases reads_split buf with rfl | ⟨c, hc⟩ | ⟨hdr, tag, value, rest, rfl, hr⟩
    · exact .inl ⟨.nil, trivial, rfl⟩
    · have hne := refused_neg hc
      by_cases hp : pad = true ∧ PadRule n buf.length
      · exact .inl ⟨.padding buf, ⟨hp.1, rfl, hne, ⟨c, hc⟩, hp.2⟩, rfl⟩
      · exact .inr ⟨.stop .nil buf c, ⟨trivial, hne, hc, hp⟩, rfl⟩
    · have h1 := reads_hdr hr
      simp only [List.length_append] at h
      have hrest := ih rest n (by omega)
      by_cases hc : IsConstructed tag
      · rcases ih value value.length (by omega) with ⟨c, hwc, he⟩ | ⟨p, hwp, he⟩
        · subst he
          rcases hrest with ⟨d, hd, rfl⟩ | ⟨p, hp, rfl⟩
          · exact .inl ⟨.node hdr tag c d, ⟨by simpa using hr, hc, hwc, hd⟩, rfl⟩
          · right
            cases p with
            | stop d bad e =>
              exact ⟨.stop (.node hdr tag c d) bad e, ⟨⟨hr, hc, hwc, hp.1⟩, hp.2⟩,
                by simp [Path.enc, Doc.enc]⟩
            | into d hdr' tag' p after =>
              exact ⟨.into (.node hdr tag c d) hdr' tag' p after, ⟨⟨hr, hc, hwc, hp.1⟩, hp.2⟩,
                by simp [Path.enc, Doc.enc]⟩
        · subst he
          exact .inr ⟨.into .nil hdr tag p rest, ⟨trivial, hr, hc, hwp⟩, by simp [Path.enc, Doc.enc]⟩
      · rcases hrest with ⟨d, hd, rfl⟩ | ⟨p, hp, rfl⟩
        · exact .inl ⟨.prim hdr tag value d, ⟨by simpa using hr, hc, hd⟩, rfl⟩
        · right
          cases p with
          | stop d bad e =>
            exact ⟨.stop (.prim hdr tag value d) bad e, ⟨⟨hr, hc, hp.1⟩, hp.2⟩,
              by simp [Path.enc, Doc.enc]⟩
          | into d hdr' tag' p after =>
            exact ⟨.into (.prim hdr tag value d) hdr' tag' p after, ⟨⟨hr, hc, hp.1⟩, hp.2⟩,
              by simp [Path.enc, Doc.enc]⟩

theorem Doc.lift {pad : Bool} {P Q : Nat → List Byte → List Byte → Prop} {d : Doc} :
    ∀ {n : Nat} {tail : List Byte} {depth : Nat}, d.WF pad n tail → d.enc.length < 2 ^ 32 →
    d.All P depth →
    (∀ depth tag v, IsTag tag → v.length < 2 ^ 32 → P depth tag v → Q depth tag v) →
    d.All Q depth := by
  induction d with
  | nil => intros; trivial
  | padding bytes => intros; trivial
  | prim hdr tag value rest ih =>
    intro n tail depth hwf hl hall h
    simp only [Doc.enc, List.length_append] at hl
    exact ⟨h _ _ _ hwf.1.1 (by omega) hall.1, ih hwf.2.2 (by omega) hall.2 h⟩
  | node hdr tag c rest ihc ihr =>
    intro n tail depth hwf hl hall h
    simp only [Doc.enc, List.length_append] at hl
    exact ⟨h _ _ _ hwf.1.1 (by omega) hall.1, ihc hwf.2.2.1 (by omega) hall.2.1 h,
      ihr hwf.2.2.2 (by omega) hall.2.2 h⟩

theorem Path.lift {pad : Bool} {P Q : Nat → List Byte → List Byte → Prop} {p : Path} :
    ∀ {n : Nat} {depth : Nat}, p.WF pad n → p.enc.length < 2 ^ 32 → p.All P depth →
    (∀ depth tag v, IsTag tag → v.length < 2 ^ 32 → P depth tag v → Q depth tag v) →
    p.All Q depth := by
  induction p with
  | stop d bad c =>
    intro n depth hwf hl hall h
    simp only [Path.enc, List.length_append] at hl
    exact Doc.lift hwf.1 (by omega) hall h
  | into d hdr tag p after ih =>
    intro n depth hwf hl hall h
    simp only [Path.enc, List.length_append] at hl
    exact ⟨Doc.lift hwf.1 (by omega) hall.1 h, h _ _ _ hwf.2.1.1 (by omega) hall.2.1,
      ih hwf.2.2.2 (by omega) hall.2.2 h⟩

/-! ## Lines of plain BER -/

theorem takeWhile_split (v : List Byte) :
    (∀ b ∈ v.takeWhile (· ≠ 0), b ≠ 0) ∧ ∀ X, ∃ Y, v ++ 0 :: X = v.takeWhile (· ≠ 0) ++ 0 :: Y := by
  induction v with
  | nil => exact ⟨by simp, fun X => ⟨X, rfl⟩⟩
  | cons b v ih =>
    by_cases hb : b = 0
    · subst hb
      exact ⟨by simp, fun X => ⟨v ++ 0 :: X, by simp⟩⟩
    · rw [List.takeWhile_cons_of_pos (by simpa using hb)]
      refine ⟨?_, fun X => ?_⟩
      · intro c hc
        rcases List.mem_cons.mp hc with rfl | hc
        · exact hb
        · exact ih.1 c hc
      · obtain ⟨Y, hY⟩ := ih.2 X
        exact ⟨Y, by simp [hY]⟩

theorem stringNote_eq (loc v : List Byte) (hl : loc.length = 1024) :
    stringNote loc v = .ok (if v.length < 1024 then txt!" \"" ++ v.takeWhile (· ≠ 0) ++ txt!"\""
      else txt!" \"...\"") := by
  unfold stringNote
  rw [hl]
  split
  · rename_i h
    rw [wrs_eq (by omega)]
    simp only [bind_ok]
    rw [wr_eq (by simp; omega)]
    simp only [bind_ok]
    obtain ⟨h1, h2⟩ := takeWhile_split v
    obtain ⟨x, X, hX⟩ : ∃ x X, loc.drop v.length = x :: X := by
      cases h : loc.drop v.length with
      | nil => have := congrArg List.length h; simp at this; omega
      | cons x X => exact ⟨x, X, rfl⟩
    have e : ((loc.take 0 ++ v ++ loc.drop (0 + v.length)).set v.length 0) = v ++ 0 :: X := by
      simp [hX]
    obtain ⟨Y, hY⟩ := h2 X
    rw [e, hY, Capdu.cstr_spec _ _ h1]
    rfl
  · rfl

theorem subids_arcs (rest : List Byte) : ∀ (pre : List Byte) (acc : Nat),
    (∀ b, rest.getLast? = some b → b.toNat < 128) → (∀ m ∈ pre, 128 ≤ m.toNat) →
    acc = pre.foldl (fun a b => a * 128 + b.toNat % 128) 0 → (rest ≠ [] ∨ pre = []) →
    ∃ arcs : List (Nat × List Byte), pre ++ rest = (arcs.map Prod.snd).flatten ∧
      subids rest acc = arcs.map Prod.fst ∧ ∀ a ∈ arcs, IsSubid a.1 a.2 := by
  induction rest with
  | nil =>
    intro pre acc _ _ _ h
    rcases h with h | rfl
    · exact absurd rfl h
    · exact ⟨[], rfl, rfl, by simp⟩
  | cons b r ih =>
    intro pre acc hlast hpre hacc _
    have hlast' : ∀ c, r.getLast? = some c → c.toNat < 128 := by
      intro c hc
      apply hlast c
      rw [List.getLast?_cons, hc]
      rfl
    by_cases hb : b.toNat < 128
    · obtain ⟨arcs, h1, h2, h3⟩ := ih [] 0 hlast' (by simp) rfl (.inr rfl)
      refine ⟨(acc * 128 + b.toNat, pre ++ [b]) :: arcs, ?_, ?_, ?_⟩
      · simp at h1; simp [h1]
      · rw [subids, if_pos hb, h2]; rfl
      · intro a ha
        rcases List.mem_cons.mp ha with rfl | ha
        · refine ⟨pre, b, rfl, hpre, hb, ?_⟩
          simp only [List.foldl_append, List.foldl_cons, List.foldl_nil, ← hacc]
          rw [Nat.mod_eq_of_lt hb]
        · exact h3 a ha
    · have hne : r ≠ [] := by
        rintro rfl
        exact hb (hlast b rfl)
      obtain ⟨arcs, h1, h2, h3⟩ := ih (pre ++ [b]) (acc * 128 + b.toNat % 128) hlast' (by
        intro m hm
        rcases List.mem_append.mp hm with hm | hm
        · exact hpre m hm
        · simp at hm; subst hm; omega) (by simp [hacc]) (.inl hne)
      refine ⟨arcs, ?_, ?_, h3⟩
      · rw [← h1]; simp
      · rw [subids, if_neg hb, h2]

theorem arcsText_pos (i : Nat) (as : List Nat) (h : ∀ a ∈ as, a < 2 ^ 32) :
    arcsText (i + 1) as = (as.map (fun a => 0x20 :: Lists.decimal a)).flatten := by
  induction as generalizing i with
  | nil => rfl
  | cons a as ih =>
    rw [arcsText, ih (i + 1) (fun x hx => h x (by simp [hx])), Lists.decU_spec a (h a (by simp))]
    simp

theorem spacedNumbers_cons (a : Nat) (as : List Nat) :
    spacedNumbers (a :: as) =
      Lists.decimal a ++ (as.map (fun a => 0x20 :: Lists.decimal a)).flatten := by
  induction as generalizing a with
  | nil => simp [spacedNumbers]
  | cons b as ih => rw [spacedNumbers, ih b]; simp; simp

theorem arcsText_zero (as : List Nat) (h : ∀ a ∈ as, a < 2 ^ 32) :
    arcsText 0 as = spacedNumbers as := by
  cases as with
  | nil => rfl
  | cons a as =>
    rw [arcsText, arcsText_pos 0 as (fun x hx => h x (by simp [hx])),
      Lists.decU_spec a (h a (by simp)), spacedNumbers_cons]
    simp

theorem oidNote_eq (v : List Byte) (h : OidOk v) :
    oidNote v = .ok (txt!" {" ++ spacedNumbers (oidNumbers v) ++ txt!"}" ++ [0x0A], none) := by
  obtain ⟨⟨b, hb, hb128⟩, hlen, hcount, hlt, hlast⟩ := h
  obtain ⟨rest, rfl⟩ : ∃ r, v = b :: r := by
    cases v with
    | nil => simp at hb
    | cons c r => simp at hb; subst hb; exact ⟨r, rfl⟩
  obtain ⟨arcs, h1, h2, h3⟩ := subids_arcs rest [] 0 hlast (by simp) rfl (.inr rfl)
  rw [List.nil_append] at h1
  have hn : oidNumbers (b :: rest) =
      (if b.toNat < 80 then b.toNat / 40 else 2) ::
      (if b.toNat < 80 then b.toNat % 40 else b.toNat - 80) :: arcs.map Prod.fst := by
    rw [← h2, oidNumbers]; split <;> rfl
  rw [hn] at hcount hlt
  simp only [List.length_cons, List.length_map] at hcount
  have := C07_oid_value_partial (if b.toNat < 80 then b.toNat / 40 else 2)
    (if b.toNat < 80 then b.toNat % 40 else b.toNat - 80) (by split <;> omega) arcs (by omega)
    (fun a ha => ⟨h3 a ha, hlt _ (by
      simp only [List.mem_cons, List.mem_map]; exact .inr (.inr ⟨a, ha, rfl⟩))⟩)
    (by rw [← h1]; simp at hlen; omega)
  obtain ⟨w, hw, ht⟩ := this
  have eb : UInt8.ofNat (40 * (if b.toNat < 80 then b.toNat / 40 else 2) +
      (if b.toNat < 80 then b.toNat % 40 else b.toNat - 80)) = b := by
    have : 40 * (if b.toNat < 80 then b.toNat / 40 else 2) +
      (if b.toNat < 80 then b.toNat % 40 else b.toNat - 80) = b.toNat := by split <;> omega
    rw [this]; simp
  rw [eb, ← h1] at hw
  unfold oidNote
  rw [hw]
  simp only [bind_ok, ne_eq, not_true_eq_false, if_false]
  have hl : 2 + arcs.length ≤ w.length := by
    have := congrArg List.length ht
    simp at this
    omega
  unfold oidValues
  rw [if_pos hl, ht]
  simp only [bind_ok]
  rw [← hn, arcsText_zero]
  rw [hn]; exact hlt

theorem beNat_small {tag : List Byte} (h : IsTag tag) (hs : beNat tag < 0x1F) :
    ∃ b, tag = [b] ∧ beNat tag = b.toNat := by
  match tag, h with
  | b :: rest, .inl ⟨_, hr⟩ => subst hr; exact ⟨b, rfl, by simp [beNat]⟩
  | b :: rest, .inr ⟨hb, _, more, last, hr, _⟩ =>
    exfalso
    have : ∀ (l : List Byte) (n : Nat), n ≤ l.foldl (fun a b => a * 256 + b.toNat) n := by
      intro l
      induction l with
      | nil => intro n; exact Nat.le_refl n
      | cons x l ih => intro n; exact Nat.le_trans (by omega) (ih (n * 256 + x.toNat))
    have h2 := this rest b.toNat
    have e : beNat (b :: rest) = rest.foldl (fun a b => a * 256 + b.toNat) b.toNat := by
      unfold beNat
      rw [List.foldl_cons]
      simp
    omega

theorem isString_iff {tag : List Byte} (h : IsTag tag) :
    isString (beNat tag) = true ↔ tag ∈ textTags := by
  have key : ∀ b : Byte, isString b.toNat = true ↔ [b] ∈ textTags := by decide +kernel
  constructor
  · intro hs
    obtain ⟨b, rfl, e⟩ := beNat_small h (by
      simp [isString] at hs
      omega)
    rw [e] at hs
    exact (key b).mp hs
  · intro ht
    have hl : tag.length = 1 := by
      have : ∀ t ∈ textTags, t.length = 1 := by decide
      exact this _ ht
    obtain ⟨b, rfl⟩ := List.length_eq_one_iff.mp hl
    have := (key b).mpr ht
    simpa [beNat] using this

theorem isOid_iff {tag : List Byte} (h : IsTag tag) : beNat tag = 0x06 ↔ tag = [0x06] := by
  constructor
  · intro e
    obtain ⟨b, rfl, e'⟩ := beNat_small h (by omega)
    have : b = 0x06 := UInt8.toNat_inj.mp (by rw [← e', e]; rfl)
    rw [this]
  · rintro rfl
    rfl

/-- Object identifiers are within the limits. -/
def OidsOk (_ : Nat) (tag v : List Byte) : Prop := tag = [0x06] → OidOk v

theorem berItem_eq (loc pfx : List Byte) (depth : Nat) (tag v : List Byte) (hl : loc.length = 1024)
    (ht : IsTag tag) (hv : v.length < 2 ^ 32) (ho : OidsOk depth tag v) :
    berItem loc pfx depth ⟨beNat tag, topBits tag, v⟩ = .ok (berLine pfx depth tag v, none) := by
  unfold berItem berLine
  simp only
  rw [hexU_tag tag ht, Lists.decU_spec _ hv, indent_eq]
  by_cases hc : IsConstructed tag
  · rw [if_pos ((constructed_tlv ht).mpr hc), if_pos hc]
    simp
  · rw [if_neg (by rw [constructed_tlv ht]; exact hc), if_neg hc]
    unfold berNote berRemark
    simp only
    by_cases hs : tag ∈ textTags
    · rw [if_pos ((isString_iff ht).mpr hs), if_pos hs, stringNote_eq loc v hl, spaced_eq]
      simp only [bind_ok, List.append_assoc]
    · rw [if_neg (by rw [isString_iff ht]; exact hs), if_neg hs]
      by_cases h6 : tag = [0x06]
      · rw [if_pos ((isOid_iff ht).mpr h6), if_pos h6, oidNote_eq v (ho h6), spaced_eq]
        simp only [bind_ok, List.append_assoc]
      · rw [if_neg (by rw [isOid_iff ht]; exact h6), if_neg h6, spaced_eq]
        simp only [bind_ok, List.append_assoc, List.nil_append]

end Verif.Print
