import Verif.PrintLemmas

/-! # Listing of BER data: C89, C90, C91 -/

set_option autoImplicit false

namespace Verif.Print
open Verif Ber BerSpec Formats PrintSpec

/-! ## C89 -/

/-- The objects of a forest (C05) in the notation of documents. -/
def docOf : TlvParse.Forest → Doc
  | .nil => .nil
  | .leaf o rest => .prim (o.tag ++ o.len) o.tag o.value (docOf rest)
  | .node tag len children rest => .node (tag ++ len) tag (docOf children) (docOf rest)

theorem docOf_enc (f : TlvParse.Forest) : (docOf f).enc = f.enc := by
  induction f with
  | nil => rfl
  | leaf o rest ih => simp [docOf, Doc.enc, TlvParse.Forest.enc, Obj.enc, ih]
  | node tag len c rest ihc ihr => simp [docOf, Doc.enc, TlvParse.Forest.enc, ihc, ihr]

theorem docOf_wf (pad : Bool) (f : TlvParse.Forest) (hf : f.WF) :
    ∀ n tail, (docOf f).WF pad n tail := by
  induction f with
  | nil => intro n tail; trivial
  | leaf o rest ih =>
    intro n tail
    refine ⟨?_, hf.2.1, ih hf.2.2 n tail⟩
    exact reads_definite o hf.1 _
  | node tag len c rest ihc ihr =>
    intro n tail
    refine ⟨?_, hf.2.1, ihc hf.2.2.2.1 _ _, ihr hf.2.2.2.2 n tail⟩
    exact reads_definite ⟨tag, len, (docOf c).enc⟩ ⟨hf.1, by rw [docOf_enc]; exact hf.2.2.1⟩ _

/-- **C89.**  The listing of a document without bad object identifiers: the lines of its objects in
document order, each object's contents below it and one level deeper, and nothing else. -/
theorem C89_listing_partial (loc pfx : List Byte) (pad : Bool) (depth : Nat) (d : Doc)
    (hl : loc.length = 1024) (hlen : d.enc.length < 2 ^ 31) (hwf : d.WF pad d.enc.length [])
    (hoid : d.All OidsOk depth) :
    berBuf loc pfx pad depth d.enc = .ok (d.text (berLine pfx) pfx depth) :=
  listing_doc _ _ pfx pad d depth (by omega) hwf
    (Doc.lift hwf (by omega) hoid (fun depth tag v ht hv ho => berItem_eq loc pfx depth tag v hl ht hv ho))

/-- **C89.**  The same for any forest of objects in definite form; such documents are read as they
were encoded.  Missing: object identifiers that cannot be shown (`C89_bad_oid`, `C89_joint_arc`). -/
theorem C89_definite_partial (loc pfx : List Byte) (pad : Bool) (depth : Nat) (f : TlvParse.Forest)
    (hl : loc.length = 1024) (hlen : f.enc.length < 2 ^ 31) (hf : f.WF)
    (hoid : (docOf f).All OidsOk depth) :
    berBuf loc pfx pad depth f.enc = .ok ((docOf f).text (berLine pfx) pfx depth) := by
  rw [← docOf_enc] at hlen ⊢
  exact C89_listing_partial loc pfx pad depth _ hl hlen (docOf_wf pad f hf _ _) hoid

/-- **C89 is false of object identifiers that cannot be decoded.**  An empty one ends the listing
of its container, with an error that belongs to no place, while that of the rest goes on: the last
line here is that of the object after the container. -/
theorem C89_bad_oid (loc : List Byte) :
    berBuf loc txt!"  " false 0 [0x30, 0x02, 0x06, 0x00, 0x04, 0x00] =
      .ok (txt!"30 : [2]" ++ [0x0A] ++ txt!"  06 : [0]BER decoding error -104 : [0]" ++ [0x0A]) := by
  rfl

/-- **C89 is false of object identifiers whose first octet is not the only one of its number**:
2.999.3 is shown as 2.56.55.3. -/
theorem C89_joint_arc (loc : List Byte) :
    berBuf loc txt!"  " false 0 [0x06, 0x03, 0x88, 0x37, 0x03] =
      .ok (txt!"06 : [3] 88 37 03 {2 56 55 3}" ++ [0x0A]) := by
  rfl

/-- A sequence of a string, an object identifier and an empty set, followed by a private tag. -/
def sampleForest : TlvParse.Forest :=
  .node [0x30] [0x0B]
    (.leaf ⟨[0x0C], [0x02], [0x48, 0x69]⟩
      (.leaf ⟨[0x06], [0x03], [0x2A, 0x86, 0x48]⟩ (.node [0x31] [0x00] .nil .nil)))
    (.leaf ⟨[0xDF, 0x81, 0x01], [0x81, 0x01], [0xFF]⟩ .nil)

example : sampleForest.WF := by
  refine ⟨.inl ⟨by decide, rfl⟩, by decide, .short 11 (by decide), ⟨⟨.inl ⟨by decide, rfl⟩,
    .short 2 (by decide)⟩, by decide, ⟨⟨.inl ⟨by decide, rfl⟩, .short 3 (by decide)⟩, by decide,
    ⟨.inl ⟨by decide, rfl⟩, by decide, .short 0 (by decide), trivial, trivial⟩⟩⟩,
    ⟨⟨.inr ⟨by decide, by decide, [0x81], 0x01, rfl, by decide, by decide⟩,
      .long 1 [0x01] (by decide) (by decide) rfl⟩, by decide, trivial⟩⟩

example : (docOf sampleForest).All OidsOk 0 := by
  refine ⟨(nomatch ·), ⟨(nomatch ·), (fun _ => ⟨⟨0x2A, rfl, by decide⟩, by decide, by decide,
    by decide, by decide⟩), (nomatch ·), trivial, trivial⟩, (nomatch ·), trivial⟩

example :
    (docOf sampleForest).text (berLine txt!"  ") txt!"  " 0 =
      txt!"30 : [11]" ++ [0x0A] ++ txt!"  0C : [2] 48 69 \"Hi\"" ++ [0x0A] ++
      txt!"  06 : [3] 2A 86 48 {1 2 840}" ++ [0x0A] ++ txt!"  31 : [0]" ++ [0x0A] ++
      txt!"DF8101 : [1] FF" ++ [0x0A] := by decide +kernel

/-! ## C90 -/

/-- **C90.**  Every input is a document or has a first place where no object can be read. -/
theorem C90_every_input (pad : Bool) (buf : List Byte) :
    (∃ d : Doc, d.WF pad buf.length [] ∧ buf = d.enc) ∨
    (∃ p : Path, p.WF pad buf.length ∧ buf = p.enc) :=
  doc_or_path pad buf.length buf buf.length (Nat.le_refl _)

/-- **C90.**  In the latter case the listing is the lines of the objects before that place (including
those that contain it), the code with which the rest of the container is refused, the number of
bytes before that place, and all bytes from there on.  Missing: object identifiers that cannot be
shown (`C89_bad_oid`). -/
theorem C90_error_partial (loc pfx : List Byte) (pad : Bool) (depth : Nat) (p : Path)
    (hl : loc.length = 1024) (hlen : p.enc.length < 2 ^ 31) (hwf : p.WF pad p.enc.length)
    (hoid : p.All OidsOk depth) :
    p.enc.length = p.offset + p.invalid.length ∧ p.enc.drop p.offset = p.invalid ∧
    p.invalid ≠ [] ∧
    berBuf loc pfx pad depth p.enc = .ok (p.text (berLine pfx) pfx depth ++ txt!" at offset " ++
      Lists.decimal p.offset ++ txt!"; remaining invalid data:" ++ spacedHex p.invalid ++ [0x0A]) := by
  have hd := Path.drop_offset p (Path.offset_le p)
  have hlt := Path.offset_lt pad p _ hwf
  have hlen' := congrArg List.length hd
  rw [List.length_drop] at hlen'
  refine ⟨by omega, hd, ?_, listing_path _ _ pfx pad p depth (by omega) hwf
    (Path.lift hwf (by omega) hoid
      (fun depth tag v ht hv ho => berItem_eq loc pfx depth tag v hl ht hv ho))⟩
  intro h
  rw [h] at hlen'
  simp at hlen'
  omega

/-- `tag` with contents `v` is an object in `buf`, at any level. -/
inductive Within : List Byte → List Byte → List Byte → Prop where
  | here (hdr tag v rest : List Byte) (h : Reads (hdr ++ v ++ rest) hdr tag v) :
      Within (hdr ++ v ++ rest) tag v
  | next (hdr tag' v' rest tag v : List Byte) (h : Reads (hdr ++ v' ++ rest) hdr tag' v')
      (hw : Within rest tag v) : Within (hdr ++ v' ++ rest) tag v
  | inside (hdr tag' v' rest tag v : List Byte) (h : Reads (hdr ++ v' ++ rest) hdr tag' v')
      (hc : IsConstructed tag') (hw : Within v' tag v) : Within (hdr ++ v' ++ rest) tag v

/-- Decoding this object identifier stays within its ten numbers. -/
def OidFits (v : List Byte) : Prop := v.length < 40 → subidCount true v.tail ≤ 8

theorem ending_safe (pfx : List Byte) (pad : Bool) (depth : Nat) (whole : List Byte) (valid : Nat)
    (c : Int) (h : valid ≤ whole.length) :
    ∃ T n, ending pfx pad depth whole valid c = .ok (T, n) ∧ valid ≤ n ∧ n ≤ whole.length := by
  unfold ending
  split
  · rw [suffix_eq h]
    exact ⟨_, _, rfl, h, Nat.le_refl _⟩
  · exact ⟨_, _, rfl, Nat.le_refl _, h⟩

theorem walk_safe (item : Nat → Tlv → C (List Byte × Option Int)) (pfx : List Byte) (pad : Bool) :
    ∀ (fuel depth : Nat) (whole itr : List Byte) (valid : Nat), itr.length < fuel →
    valid + itr.length = whole.length →
    (∀ depth tag v, IsTag tag → Within itr tag v →
      (item depth ⟨beNat tag, topBits tag, v⟩).Safe) →
    ∃ T n, walk item pfx pad fuel depth whole itr valid = .ok (T, n) ∧ valid ≤ n ∧
      n ≤ whole.length := by
  intro fuel
  induction fuel with
  | zero => intro _ _ itr _ h; omega
  | succ fuel ih =>
    intro depth whole itr valid hf hv hitem
    unfold walk
    rcases reads_split itr with rfl | ⟨c, hc⟩ | ⟨hdr, tag, value, rest, rfl, hr⟩
    · rw [itrNext_nil]
      exact ⟨_, _, rfl, Nat.le_refl _, by simp at hv; omega⟩
    · rw [itrNext_refused hc]
      simp only [bind_ok]
      exact ending_safe pfx pad depth whole valid c (by omega)
    · rw [itrNext_reads hr]
      have h1 := reads_hdr hr
      simp only [List.length_append] at hf hv
      simp only [bind_ok]
      obtain ⟨⟨line, stop⟩, hi⟩ := hitem depth tag value hr.1 (.here hdr tag value rest hr)
      rw [hi]
      simp only [bind_ok]
      have hnext := ih depth whole rest (valid + (hdr.length + value.length)) (by omega) (by omega)
        (fun depth tag' v' ht hw => hitem depth tag' v' ht (.next hdr tag value rest tag' v' hr hw))
      split
      · rename_i hcon
        have hcon := (constructed_tlv hr.1).mp hcon
        obtain ⟨U, m, hU, -, hm⟩ := ih (depth + 1) value value 0 (by omega) (by omega)
          (fun depth tag' v' ht hw =>
            hitem depth tag' v' ht (.inside hdr tag value rest tag' v' hr hcon hw))
        rw [hU]
        simp only [bind_ok]
        split
        · exact ⟨_, _, rfl, by omega, by omega⟩
        · obtain rfl : m = value.length := by omega
          rw [show valid + (hdr.length + value.length - value.length) + value.length =
            valid + (hdr.length + value.length) by omega]
          obtain ⟨T, n, hT, h2, h3⟩ := hnext
          rw [hT]
          exact ⟨_, _, rfl, by omega, h3⟩
      · cases stop with
        | none =>
          obtain ⟨T, n, hT, h2, h3⟩ := hnext
          simp only
          rw [hT]
          exact ⟨_, _, rfl, by omega, h3⟩
        | some c =>
          obtain ⟨T, n, hT, h2, h3⟩ := ending_safe pfx pad depth whole
            (valid + (hdr.length + value.length)) c (by omega)
          simp only
          rw [hT]
          exact ⟨_, _, rfl, by omega, h3⟩

theorem listing_safe (item : Nat → Tlv → C (List Byte × Option Int)) (pfx : List Byte) (pad : Bool)
    (depth : Nat) (buf : List Byte)
    (h : ∀ depth tag v, IsTag tag → Within buf tag v →
      (item depth ⟨beNat tag, topBits tag, v⟩).Safe) :
    (listing item pfx pad depth buf).Safe := by
  obtain ⟨T, n, hT, -, hn⟩ := walk_safe item pfx pad (buf.length + 1) depth buf buf 0 (by omega)
    (by omega) h
  unfold listing level
  rw [hT]
  simp only [bind_ok]
  unfold remainder
  split
  · rw [suffix_eq hn]
    exact ⟨_, rfl⟩
  · exact ⟨_, rfl⟩

theorem oidDecode_length (v : List Byte) (r : Int) (value : List Nat) (n : Nat)
    (h : oidDecode v = .ok (r, value, n)) : n ≤ value.length := by
  unfold oidDecode at h
  simp only at h
  split at h
  · simp only [Except.ok.injEq, Prod.mk.injEq] at h
    omega
  split at h
  · simp only [Except.ok.injEq, Prod.mk.injEq] at h
    omega
  rename_i h0 h40
  match v, h0, h40, h with
  | b :: buf, h0, h40, h =>
    simp only [rd_cons_zero, bind_ok, suffix_eq (show 1 ≤ (b :: buf).length by simp), List.drop_one,
      List.tail_cons] at h
    revert h
    generalize (if b.toNat < 40 then (0, b.toNat) else if b.toNat < 80 then (1, b.toNat - 40)
      else (2, b.toNat - 80)) = p
    obtain ⟨v0, v1⟩ := p
    simp only
    rw [wr_eq (by simp)]
    simp only [bind_ok]
    rw [wr_eq (by simp)]
    simp only [bind_ok]
    have := oidLoop_safe_iff ((b :: buf).length + 1) buf
      (((List.replicate 10 0).set 0 v0).set 1 v1) 2 (by simp) (by omega)
      (by simp at h40; omega) (by simp; omega)
    rcases this with ⟨w, l, h1, h2, h3, h4⟩ | ⟨h1, h2⟩
    · rw [h1]
      simp only [bind_ok, Except.ok.injEq, Prod.mk.injEq]
      rintro ⟨-, rfl, rfl⟩
      omega
    · rw [h1]
      simp

theorem berItem_safe (loc pfx : List Byte) (depth : Nat) (t : Tlv) (hl : loc.length = 1024)
    (h : t.tag = 0x06 → OidFits t.value) : (berItem loc pfx depth t).Safe := by
  unfold berItem
  simp only
  split
  · exact ⟨_, rfl⟩
  · unfold berNote
    split
    · rw [stringNote_eq loc _ hl]
      exact ⟨_, rfl⟩
    · split
      · rename_i h6
        have hf := h h6
        unfold oidNote
        have hs : (oidDecode t.value).Safe := by
          match hv : t.value with
          | [] => exact ⟨_, rfl⟩
          | b :: r =>
            by_cases h40 : r.length < 39
            · refine (C07_oid_in_bounds_partial b r h40).1.mpr ?_
              have := hf (by rw [hv]; simp; omega)
              rw [hv] at this
              exact this
            · unfold oidDecode
              simp only
              rw [if_neg (by simp), if_pos (by simp; omega)]
              exact ⟨_, rfl⟩
        obtain ⟨⟨r, value, n⟩, hr⟩ := hs
        rw [hr]
        simp only [bind_ok]
        split
        · exact ⟨_, rfl⟩
        · unfold oidValues
          rw [if_pos (oidDecode_length _ _ _ _ hr)]
          exact ⟨_, rfl⟩
      · exact ⟨_, rfl⟩

/-- **C90.**  Whatever the input, the listing ends and touches no memory it may not touch, provided
the object identifiers in it have at most ten numbers.  Missing: longer object identifiers
(`C90_overflow`). -/
theorem C90_safe_partial (loc pfx : List Byte) (pad : Bool) (depth : Nat) (buf : List Byte)
    (hl : loc.length = 1024) (h : ∀ v, Within buf [0x06] v → OidFits v) :
    (berBuf loc pfx pad depth buf).Safe := by
  apply listing_safe
  intro depth tag v ht hw
  apply berItem_safe _ _ _ _ hl
  intro h6
  rw [isOid_iff ht] at h6
  subst h6
  exact h v hw

/-- **C90 is false otherwise**: the listing of an object identifier of eleven numbers writes past
the array for them. -/
theorem C90_overflow (loc pfx : List Byte) (pad : Bool) :
    berBuf loc pfx pad 0 [0x06, 0x0A, 0x2A, 1, 2, 3, 4, 5, 6, 7, 8, 9] = .error .oobWrite := by
  rfl

/-- The second object of a sequence claims more contents than the sequence has. -/
def samplePath : Path :=
  .into .nil [0x30, 0x05] [0x30] (.stop (.prim [0x04, 0x01] [0x04] [0xAA] .nil) [0x02, 0x03] (-11))
    [0x05, 0x00]

example : samplePath.WF false samplePath.enc.length := by
  refine ⟨trivial, ⟨.inl ⟨by decide, rfl⟩, by decide, by decide +kernel⟩, by decide,
    ⟨⟨⟨.inl ⟨by decide, rfl⟩, by decide, by decide +kernel⟩, by decide, trivial⟩, by decide,
      by unfold Refused; decide +kernel, by simp⟩⟩

example (loc : List Byte) : berBuf loc txt!"  " false 0 samplePath.enc =
    .ok (txt!"30 : [5]" ++ [0x0A] ++ txt!"  04 : [1] AA" ++ [0x0A] ++
      txt!"BER decoding error -11 at offset 5; remaining invalid data: 02 03 05 00" ++ [0x0A]) := by
  rfl

/-! ## C91 -/

theorem pkcs7_refused (k : Nat) (h1 : 1 ≤ k) (h2 : k < 15) :
    ∃ c, Refused (List.replicate k (UInt8.ofNat k)) c := by
  have : ∀ k ∈ List.range 15, 1 ≤ k →
      (match decode (List.replicate k (UInt8.ofNat k)) with
        | .ok (.err _) => true
        | _ => false) = true := by decide +kernel
  have := this k (by simpa using h2) h1
  match hd : decode (List.replicate k (UInt8.ofNat k)), this with
  | .ok (.err c), _ => exact ⟨c, hd⟩

/-- The objects, then padding. -/
def padded (bytes : List Byte) : Doc → Doc
  | .nil => .padding bytes
  | .padding b => .padding b
  | .prim hdr tag value rest => .prim hdr tag value (padded bytes rest)
  | .node hdr tag children rest => .node hdr tag children (padded bytes rest)

theorem padded_spec (bytes : List Byte) (hne : bytes ≠ []) (hr : ∃ c, Refused bytes c) (d : Doc) :
    ∀ n, d.WF true n bytes → PadRule n bytes.length →
      (padded bytes d).enc = d.enc ++ bytes ∧ (padded bytes d).WF true n [] ∧
      (∀ P depth, d.All P depth → (padded bytes d).All P depth) ∧
      ∀ line pfx depth, (padded bytes d).text line pfx depth = d.text line pfx depth ++
        (indentation pfx depth ++ txt!"Padding : [" ++ Lists.decimal bytes.length ++ txt!"]" ++
          spacedHex bytes ++ [0x0A]) := by
  induction d with
  | nil =>
    intro n _ hp
    exact ⟨rfl, ⟨rfl, rfl, hne, hr, hp⟩, fun _ _ _ => trivial, fun _ _ _ => rfl⟩
  | padding b =>
    intro n h _
    exact absurd h.2.1 hne
  | prim hdr tag value rest ih =>
    intro n h hp
    obtain ⟨h1, h2, h3, h4⟩ := ih n h.2.2 hp
    refine ⟨by simp [padded, Doc.enc, h1], ⟨?_, h.2.1, h2⟩, fun P depth ha => ⟨ha.1, h3 P depth ha.2⟩,
      fun line pfx depth => by simp [padded, Doc.text, h4]⟩
    have := h.1
    rwa [h1, List.append_nil]
  | node hdr tag c rest ihc ihr =>
    intro n h hp
    obtain ⟨h1, h2, h3, h4⟩ := ihr n h.2.2.2 hp
    refine ⟨by simp [padded, Doc.enc, h1], ⟨?_, h.2.1, h.2.2.1, h2⟩,
      fun P depth ha => ⟨ha.1, ha.2.1, h3 P depth ha.2.2⟩,
      fun line pfx depth => by simp [padded, Doc.text, h4]⟩
    have := h.1
    rwa [h1, List.append_nil]

/-- **C91.**  When padding is to be ignored, `k` bytes `k` (1 ≤ k < 8, or k < 15 after AES) that
complete a multiple of the block are shown as padding after the objects, and nothing is reported as
invalid.  Missing: a whole block of padding (`C91_whole_block`), and method 2 (`C91_method2`). -/
theorem C91_pkcs7_partial (loc pfx : List Byte) (depth : Nat) (f : TlvParse.Forest) (k : Nat)
    (hl : loc.length = 1024) (hlen : f.enc.length < 2 ^ 30) (hf : f.WF)
    (hoid : (docOf f).All OidsOk depth) (hk : 1 ≤ k)
    (hblock : ((f.enc.length + k) % 8 = 0 ∧ k < 8) ∨ ((f.enc.length + k) % 16 = 0 ∧ k < 15)) :
    berBuf loc pfx true depth (f.enc ++ List.replicate k (UInt8.ofNat k)) =
      .ok ((docOf f).text (berLine pfx) pfx depth ++
        (indentation pfx depth ++ txt!"Padding : [" ++ Lists.decimal k ++ txt!"]" ++
          (List.replicate k (0x20 :: hexOf [UInt8.ofNat k])).flatten ++ [0x0A])) := by
  have hne : List.replicate k (UInt8.ofNat k) ≠ [] := by simp; omega
  have hlen2 : (List.replicate k (UInt8.ofNat k)).length = k := by simp
  obtain ⟨h1, h2, h3, h4⟩ := padded_spec _ hne (pkcs7_refused k hk (by omega)) (docOf f)
    (f.enc.length + k) (docOf_wf true f hf _ _) (by rw [hlen2]; exact hblock)
  rw [docOf_enc] at h1
  have hl2 : (padded (List.replicate k (UInt8.ofNat k)) (docOf f)).enc.length = f.enc.length + k := by
    rw [h1]; simp
  rw [← h1, C89_listing_partial loc pfx true depth _ hl (by rw [hl2]; omega) (by rw [hl2]; exact h2)
    (h3 _ _ hoid), h4, hlen2]
  simp only [spacedHex, List.map_replicate]

/-- **C91 is false of a whole block of DES padding**: eight bytes 08 after sixteen bytes of data. -/
theorem C91_whole_block (loc pfx : List Byte) :
    berBuf loc pfx true 0 ([0x04, 0x0E] ++ List.replicate 14 0 ++ List.replicate 8 0x08) =
      .ok (txt!"04 : [14] 00 00 00 00 00 00 00 00 00 00 00 00 00 00" ++ [0x0A] ++
        txt!"BER decoding error -11 at offset 16; remaining invalid data: 08 08 08 08 08 08 08 08" ++
        [0x0A]) := by
  rfl

/-- **C91 is false of ISO 9797-1 padding method 2** (80 followed by zeros): it is listed as
objects. -/
theorem C91_method2 (loc pfx : List Byte) :
    berBuf loc pfx true 0 [0x04, 0x02, 0xAA, 0xBB, 0x80, 0x00, 0x00, 0x00] =
      .ok (txt!"04 : [2] AA BB" ++ [0x0A] ++ txt!"80 : [0]" ++ [0x0A] ++ txt!"00 : [0]" ++
        [0x0A]) := by
  rfl

/-- When padding is not to be ignored, nothing is shown as padding. -/
def noPadding : Doc → Prop
  | .nil => True
  | .padding _ => False
  | .prim _ _ _ rest => noPadding rest
  | .node _ _ children rest => noPadding children ∧ noPadding rest

/-- **C91.**  Without leave to ignore padding no document has any. -/
theorem C91_not_asked (n : Nat) (d : Doc) (tail : List Byte) (h : d.WF false n tail) :
    noPadding d := by
  induction d generalizing n tail with
  | nil => trivial
  | padding b => exact absurd h.1 (by simp)
  | prim hdr tag value rest ih => exact ih _ _ h.2.2
  | node hdr tag c rest ihc ihr => exact ⟨ihc _ _ h.2.2.1, ihr _ _ h.2.2.2⟩

example (loc : List Byte) : berBuf loc [] true 0 [0x04, 0x03, 1, 2, 3, 3, 3, 3] =
    .ok (txt!"04 : [3] 01 02 03" ++ [0x0A] ++ txt!"Padding : [3] 03 03 03" ++ [0x0A]) := by rfl

end Verif.Print
