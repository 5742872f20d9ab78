import Verif.TlvParse
import Verif.BerProps

/-! # Properties of EMV TLV parsing: C05, C06 -/

set_option autoImplicit false

namespace Verif.TlvParse
open Verif Ber BerSpec

/-! ## Specification: forests of BER objects -/

/-- A forest of objects, in first-child / next-sibling form: a primitive object or a
constructed object with its children, followed by the remaining siblings. -/
inductive Forest where
  | nil
  | leaf (o : Obj) (rest : Forest)
  | node (tag len : List Byte) (children rest : Forest)

/-- Its definite-form encoding. -/
def Forest.enc : Forest → List Byte
  | .nil => []
  | .leaf o rest => o.enc ++ rest.enc
  | .node tag len children rest => tag ++ len ++ children.enc ++ rest.enc

/-- Identifier and length octets are proper; primitive objects have a primitive tag and
constructed objects a constructed one. -/
def Forest.WF : Forest → Prop
  | .nil => True
  | .leaf o rest => o.WF ∧ ¬ IsConstructed o.tag ∧ rest.WF
  | .node tag len children rest =>
    IsTag tag ∧ IsConstructed tag ∧ LenOctets children.enc.length len ∧ children.WF ∧ rest.WF

/-- Primitive objects in document order (tag, value; the field flags start at 0). -/
def Forest.leaves : Forest → List Tlv
  | .nil => []
  | .leaf o rest => ⟨beNat o.tag, 0, o.value⟩ :: rest.leaves
  | .node _ _ children rest => children.leaves ++ rest.leaves

/-! ## Lemmas -/

theorem itrNext_spec (buf : List Byte) :
    (∃ d, itrNext buf = .ok (buf, d) ∧ ((d = .eod ∧ buf = []) ∨ ∃ c, d = .err c ∧ c < 0)) ∨
    (∃ n t hdr rest, itrNext buf = .ok (rest, .ok n t) ∧ buf = hdr ++ t.value ++ rest ∧
      2 ≤ hdr.length) := by
  obtain ⟨d, hd, hs⟩ := decode_spec buf
  unfold itrNext
  rw [hd]
  cases d with
  | eod => left; exact ⟨.eod, rfl, Or.inl ⟨rfl, hs⟩⟩
  | err c => left; exact ⟨.err c, rfl, Or.inr ⟨c, rfl, hs⟩⟩
  | ok n t =>
    right
    obtain ⟨hdr, rest, he, h2, hn⟩ := hs
    have hl := congrArg List.length he
    simp at hl
    refine ⟨n, t, hdr, rest, ?_, he, h2⟩
    simp only [bind_ok]
    rw [suffix_eq (by omega)]
    have : buf.drop n = rest := by
      rw [he, hn, ← List.length_append, List.drop_left]
    rw [this]; rfl

/-- What parsing adds: fields with flags 0 whose value is a slice of the input. -/
def FieldOf (buf : List Byte) (t : Tlv) : Prop := t.flags = 0 ∧ t.value <:+: buf

theorem FieldOf.mono {a b : List Byte} (h : a <:+: b) {t : Tlv} (ht : FieldOf a t) : FieldOf b t :=
  ⟨ht.1, ht.2.trans h⟩

theorem parseF_spec (alloc : List Tlv → Tlv → Bool) : ∀ fuel (buf : List Byte) (list : List Tlv),
    buf.length < fuel →
    ∃ r new, parseF alloc fuel buf list = .ok (r, list ++ new) ∧
      (r = 0 ∨ r = 1 ∨ (r = -2 ∧ ∃ t, FieldOf buf t ∧ alloc (list ++ new) t = false)) ∧
      (∀ t ∈ new, FieldOf buf t) := by
  intro fuel
  induction fuel with
  | zero => intro buf list h; omega
  | succ fuel ih =>
    intro buf list hf
    unfold parseF
    rcases itrNext_spec buf with ⟨d, hd, hs⟩ | ⟨n, t, hdr, rest, hd, he, h2⟩
    · rw [hd]
      rcases hs with ⟨rfl, -⟩ | ⟨c, rfl, -⟩
      · exact ⟨0, [], by simp, Or.inl rfl, by simp⟩
      · exact ⟨1, [], by simp, Or.inr (Or.inl rfl), by simp⟩
    · rw [hd]
      simp only [bind_ok]
      have hl := congrArg List.length he
      simp at hl
      have hval : t.value <:+: buf := ⟨hdr, rest, he.symm⟩
      have hrest : rest <:+: buf := ⟨hdr ++ t.value, [], by simp [he]⟩
      split
      · obtain ⟨r1, new1, h1, h3, h4⟩ := ih t.value list (by omega)
        rw [h1]
        simp only [bind_ok]
        split
        · refine ⟨r1, new1, rfl, ?_, fun u hu => (h4 u hu).mono hval⟩
          rcases h3 with h3 | h3 | ⟨h3, u, hu, hau⟩
          · exact Or.inl h3
          · exact Or.inr (Or.inl h3)
          · exact Or.inr (Or.inr ⟨h3, u, hu.mono hval, hau⟩)
        · obtain ⟨r2, new2, h5, h6, h7⟩ := ih rest (list ++ new1) (by omega)
          refine ⟨r2, new1 ++ new2, by rw [h5]; simp, ?_, ?_⟩
          · rcases h6 with h6 | h6 | ⟨h6, u, hu, hau⟩
            · exact Or.inl h6
            · exact Or.inr (Or.inl h6)
            · exact Or.inr (Or.inr ⟨h6, u, hu.mono hrest, by simpa using hau⟩)
          · intro u hu
            rcases List.mem_append.mp hu with hu | hu
            · exact (h4 u hu).mono hval
            · exact (h7 u hu).mono hrest
      · split
        · obtain ⟨r2, new2, h5, h6, h7⟩ := ih rest (list ++ [{ t with flags := 0 }]) (by omega)
          refine ⟨r2, { t with flags := 0 } :: new2, by rw [h5]; simp, ?_, ?_⟩
          · rcases h6 with h6 | h6 | ⟨h6, u, hu, hau⟩
            · exact Or.inl h6
            · exact Or.inr (Or.inl h6)
            · exact Or.inr (Or.inr ⟨h6, u, hu.mono hrest, by simpa using hau⟩)
          · intro u hu
            rcases List.mem_cons.mp hu with rfl | hu
            · exact ⟨rfl, hval⟩
            · exact (h7 u hu).mono hrest
        · rename_i ha
          refine ⟨-2, [], by simp, Or.inr (Or.inr ⟨rfl, { t with flags := 0 }, ⟨rfl, hval⟩, ?_⟩),
            by simp⟩
          simpa using ha

theorem parseF_fuel (alloc : List Tlv → Tlv → Bool) : ∀ fuel fuel' (buf : List Byte)
    (list : List Tlv), buf.length < fuel → buf.length < fuel' →
    parseF alloc fuel buf list = parseF alloc fuel' buf list := by
  intro fuel
  induction fuel with
  | zero => intro fuel' buf list h; omega
  | succ fuel ih =>
    intro fuel' buf list hf hf'
    cases fuel' with
    | zero => omega
    | succ fuel' =>
      unfold parseF
      rcases itrNext_spec buf with ⟨d, hd, hs⟩ | ⟨n, t, hdr, rest, hd, he, h2⟩
      · rw [hd]
        rcases hs with ⟨rfl, -⟩ | ⟨c, rfl, -⟩ <;> rfl
      · rw [hd]
        simp only [bind_ok]
        have hl := congrArg List.length he
        simp at hl
        rw [ih fuel' t.value list (by omega) (by omega)]
        have : ∀ l, parseF alloc fuel rest l = parseF alloc fuel' rest l :=
          fun l => ih fuel' rest l (by omega) (by omega)
        simp only [this]

/-- The model's fuel is irrelevant. -/
theorem parse_fuel (alloc : List Tlv → Tlv → Bool) (fuel : Nat) (buf : List Byte)
    (list : List Tlv) (h : buf.length < fuel) :
    parseF alloc fuel buf list = parse alloc buf list :=
  parseF_fuel alloc _ _ buf list h (Nat.lt_succ_self _)

theorem isConstructed_false (o : Obj) (h : o.WF) (hc : ¬ IsConstructed o.tag) :
    Tlv.isConstructed ⟨beNat o.tag, topBits o.tag, o.value⟩ = false := by
  have := C02_constructed o h
  cases hx : Tlv.isConstructed ⟨beNat o.tag, topBits o.tag, o.value⟩ with
  | false => rfl
  | true => exact absurd (this.mp hx) hc

theorem parseF_enc (f : Forest) (hf : f.WF) : ∀ (fuel : Nat) (list : List Tlv),
    f.enc.length < fuel → parseF allocOk fuel f.enc list = .ok (0, list ++ f.leaves) := by
  induction f with
  | nil =>
    intro fuel list h
    cases fuel with
    | zero => omega
    | succ fuel => simp [parseF, Forest.enc, itrNext_nil, Forest.leaves]
  | leaf o rest ih =>
    intro fuel list h
    obtain ⟨h1, h2, h3⟩ := hf
    have hge := enc_length_ge h1
    simp only [Forest.enc, List.length_append] at h
    cases fuel with
    | zero => omega
    | succ fuel =>
      unfold parseF
      rw [Forest.enc, itrNext_enc o h1]
      simp only [bind_ok, tlvOf, isConstructed_false o h1 h2, Bool.false_eq_true, if_false]
      rw [if_pos (show allocOk _ _ = true from rfl)]
      rw [ih h3 fuel _ (by omega)]
      simp [Forest.leaves]
  | node tag len children rest ihc ihr =>
    intro fuel list h
    obtain ⟨h1, h2, h3, h4, h5⟩ := hf
    have hwf : Obj.WF ⟨tag, len, children.enc⟩ := ⟨h1, h3⟩
    have hge := enc_length_ge hwf
    have htl := isTag_length h1
    simp only [Forest.enc, List.length_append] at h
    have e : (Forest.node tag len children rest).enc =
        Obj.enc ⟨tag, len, children.enc⟩ ++ rest.enc := by simp [Forest.enc, Obj.enc]
    cases fuel with
    | zero => omega
    | succ fuel =>
      rw [e]
      unfold parseF
      rw [itrNext_enc _ hwf]
      simp only [bind_ok, tlvOf]
      rw [if_pos ((C02_constructed ⟨tag, len, children.enc⟩ hwf).mpr h2)]
      rw [ihc h4 fuel list (by omega)]
      simp only [bind_ok, ne_eq, not_true_eq_false, if_false]
      rw [ihr h5 fuel _ (by omega)]
      simp [Forest.leaves]

/-! ## Properties -/

/-- **C05.** Parsing the encoding of any forest succeeds and appends exactly the primitive
leaves in document order after the previous list content. -/
theorem C05_parse_leaves (f : Forest) (hf : f.WF) (list : List Tlv) :
    parse allocOk f.enc list = .ok (0, list ++ f.leaves) :=
  parseF_enc f hf _ list (Nat.lt_succ_self _)

/-- `70 [ 5A 01 12, 61 [ 4F 00 ] ], 50 01 41` is such a forest. -/
def exampleForest : Forest :=
  .node [0x70] [0x07] (.leaf ⟨[0x5A], [0x01], [0x12]⟩
    (.node [0x61] [0x02] (.leaf ⟨[0x4F], [0x00], []⟩ .nil) .nil))
  (.leaf ⟨[0x50], [0x01], [0x41]⟩ .nil)

example : exampleForest.WF ∧ exampleForest.enc =
    [0x70, 0x07, 0x5A, 0x01, 0x12, 0x61, 0x02, 0x4F, 0x00, 0x50, 0x01, 0x41] ∧
    exampleForest.leaves = [⟨0x5A, 0, [0x12]⟩, ⟨0x4F, 0, []⟩, ⟨0x50, 0, [0x41]⟩] := by
  refine ⟨⟨Or.inl ⟨by decide, rfl⟩, by decide, LenOctets.short 7 (by decide),
    ⟨⟨Or.inl ⟨by decide, rfl⟩, LenOctets.short 1 (by decide)⟩, by decide,
      ⟨Or.inl ⟨by decide, rfl⟩, by decide, LenOctets.short 2 (by decide),
        ⟨⟨Or.inl ⟨by decide, rfl⟩, LenOctets.short 0 (by decide)⟩, by decide, trivial⟩,
        trivial⟩⟩,
    ⟨⟨Or.inl ⟨by decide, rfl⟩, LenOctets.short 1 (by decide)⟩, by decide, trivial⟩⟩, rfl, rfl⟩

/-- **C06.** Parsing any byte string completes without undefined behaviour; the previous
content is kept as a prefix; every added field has a value that is a slice of the input;
the outcome is 0, 1 ("malformed") or -2, the last only if memory for pushing some field of
the input was refused. -/
theorem C06_parse_any (alloc : List Tlv → Tlv → Bool) (buf : List Byte) (list : List Tlv) :
    ∃ r new, parse alloc buf list = .ok (r, list ++ new) ∧
      (r = 0 ∨ r = 1 ∨ (r = -2 ∧ ∃ t, t.flags = 0 ∧ t.value <:+: buf ∧
        alloc (list ++ new) t = false)) ∧
      (∀ t ∈ new, t.flags = 0 ∧ t.value <:+: buf) := by
  obtain ⟨r, new, h1, h2, h3⟩ := parseF_spec alloc _ buf list (Nat.lt_succ_self _)
  refine ⟨r, new, h1, ?_, h3⟩
  rcases h2 with h2 | h2 | ⟨h2, t, ht, ha⟩
  · exact Or.inl h2
  · exact Or.inr (Or.inl h2)
  · exact Or.inr (Or.inr ⟨h2, t, ht.1, ht.2, ha⟩)

/-- With memory available the outcome is only 0 or 1. -/
theorem C06_no_internal_error (buf : List Byte) (list : List Tlv) :
    ∃ r new, parse allocOk buf list = .ok (r, list ++ new) ∧ (r = 0 ∨ r = 1) := by
  obtain ⟨r, new, h1, h2, -⟩ := C06_parse_any allocOk buf list
  refine ⟨r, new, h1, ?_⟩
  rcases h2 with h2 | h2 | ⟨-, t, -, -, ha⟩
  · exact Or.inl h2
  · exact Or.inr h2
  · simp [allocOk] at ha

example : parse allocOk [0x70, 0x03, 0x5A, 0x01, 0x12, 0x50, 0x05, 0x41] [⟨0x4F, 0, [1]⟩] =
    .ok (1, [⟨0x4F, 0, [1]⟩, ⟨0x5A, 0, [0x12]⟩]) := by decide +kernel
example : parse (fun l _ => l.length < 1) [0x5A, 0x01, 0x12, 0x50, 0x01, 0x41] [] =
    .ok (-2, [⟨0x5A, 0, [0x12]⟩]) := by decide +kernel

end Verif.TlvParse
