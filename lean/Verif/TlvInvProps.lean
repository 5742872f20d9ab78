import Verif.TlvParseProps
import Verif.BerInv

/-! # What successful decoding and parsing say about the input: C61, C62 -/

set_option autoImplicit false

namespace Verif.TlvParse
open Verif Ber BerSpec

/-! ## C61 -/

/-- **C61.**  Decoding succeeds only on input that starts with an object: either an object in
definite form whose tag, class bits and contents are those reported and whose encoding has the
reported length (and every such input is decoded so), or a constructed object in indefinite
form. -/
theorem C61_decoded_object (buf : List Byte) (n : Nat) (t : Tlv) :
    (decode buf = .ok (.ok n t) →
      (∃ (o : Obj) (rest : List Byte), o.WF ∧ buf = o.enc ++ rest ∧ n = o.enc.length ∧
        t = ⟨beNat o.tag, topBits o.tag, o.value⟩) ∨
      (∃ tag rest, IsTag tag ∧ IsConstructed tag ∧ buf = tag ++ [0x80] ++ t.value ++ rest ∧
        rest.head? = some 0 ∧ t.tag = beNat tag ∧ t.flags = topBits tag)) ∧
    ((∃ (o : Obj) (rest : List Byte), o.WF ∧ buf = o.enc ++ rest ∧ n = o.enc.length ∧
        t = ⟨beNat o.tag, topBits o.tag, o.value⟩) → decode buf = .ok (.ok n t)) := by
  constructor
  · intro h
    obtain ⟨tag, rest, h1, h2, h3, ⟨len, h4, h5, h6⟩ | ⟨h4, h5, h6, -⟩⟩ := decode_inv h
    · refine Or.inl ⟨⟨tag, len, t.value⟩, rest, ⟨h1, h4⟩, h5, ?_, ?_⟩
      · rw [h6]; simp [Obj.enc]; omega
      · cases t; simp_all
    · exact Or.inr ⟨tag, rest, h1, h4, h5, h6, h2, h3⟩
  · rintro ⟨o, rest, hwf, rfl, rfl, rfl⟩
    have := decode_enc hwf.1 hwf.2 rest
    rw [show o.enc ++ rest = o.tag ++ o.len ++ o.value ++ rest from rfl, this]
    simp [Obj.enc]; omega

example : decode [0x9F, 0x33, 0x81, 0x02, 0xAA, 0xBB, 0xCC] = .ok (.ok 6 ⟨0x9F33, 0x80, [0xAA, 0xBB]⟩) := by
  decide +kernel

/-! ## C62 -/

/-- A forest that may also contain indefinite-form nodes.  The code ends the contents of such a
node before the first following zero octet that starts an object, and takes that (the
end-of-contents octets) as the next sibling. -/
inductive XForest where
  | nil
  | leaf (o : Obj) (rest : XForest)
  | node (tag len : List Byte) (children rest : XForest)
  | indef (tag : List Byte) (children rest : XForest)

def XForest.enc : XForest → List Byte
  | .nil => []
  | .leaf o rest => o.enc ++ rest.enc
  | .node tag len children rest => tag ++ len ++ children.enc ++ rest.enc
  | .indef tag children rest => tag ++ [0x80] ++ children.enc ++ rest.enc

def XForest.WF : XForest → Prop
  | .nil => True
  | .leaf o rest => o.WF ∧ ¬ IsConstructed o.tag ∧ rest.WF
  | .node tag len children rest =>
    IsTag tag ∧ IsConstructed tag ∧ LenOctets children.enc.length len ∧ children.WF ∧ rest.WF
  | .indef tag children rest =>
    IsTag tag ∧ IsConstructed tag ∧ children.WF ∧ rest.WF ∧ rest.enc.head? = some 0

/-- Primitive objects in document order. -/
def XForest.leaves : XForest → List Tlv
  | .nil => []
  | .leaf o rest => ⟨beNat o.tag, 0, o.value⟩ :: rest.leaves
  | .node _ _ children rest => children.leaves ++ rest.leaves
  | .indef _ children rest => children.leaves ++ rest.leaves

/-- No indefinite-form node. -/
def XForest.Definite : XForest → Prop
  | .nil => True
  | .leaf _ rest => rest.Definite
  | .node _ _ children rest => children.Definite ∧ rest.Definite
  | .indef _ _ _ => False

theorem isConstructed_iff {t : Tlv} {tag : List Byte} (ht : IsTag tag) (hf : t.flags = topBits tag) :
    t.isConstructed = true ↔ IsConstructed tag := by
  match tag, ht with
  | b :: r, _ =>
    unfold Tlv.isConstructed IsConstructed
    rw [hf]
    simp only [decide_eq_true_eq]
    have : ∀ b : Byte, (UInt8.ofNat (b.toNat / 32 * 32) &&& constructedBit ≠ 0) ↔
        b.toNat / 32 % 2 = 1 := by decide +kernel
    exact this b

theorem parseF_inv (alloc : List Tlv → Tlv → Bool) : ∀ (fuel : Nat) (buf : List Byte)
    (list list' : List Tlv), parseF alloc fuel buf list = .ok (0, list') →
    ∃ f : XForest, f.WF ∧ buf = f.enc ∧ list' = list ++ f.leaves := by
  intro fuel
  induction fuel with
  | zero => intro buf list list' h; simp [parseF] at h
  | succ fuel ih =>
    intro buf list list' h
    unfold parseF at h
    rcases itrNext_spec buf with ⟨d, hd, hor⟩ | ⟨n, t, hdr, rest, hd, hbuf, -⟩
    · rw [hd] at h
      rcases hor with ⟨rfl, rfl⟩ | ⟨c, rfl, -⟩
      · simp only [bind_ok, Except.ok.injEq, Prod.mk.injEq, true_and] at h
        exact ⟨.nil, trivial, rfl, by rw [← h]; simp [XForest.leaves]⟩
      · simp at h
    · rw [hd] at h
      simp only [bind_ok] at h
      -- the decoder's view
      have hdec : decode buf = .ok (.ok n t) ∧ rest = buf.drop n := by
        unfold itrNext at hd
        match hx : decode buf, hd with
        | .error _, hd => simp at hd
        | .ok .eod, hd => simp at hd
        | .ok (.err _), hd => simp at hd
        | .ok (.ok n' t'), hd =>
          simp only [bind_ok] at hd
          unfold suffix at hd
          split at hd
          · simp only [bind_ok, Except.ok.injEq, Prod.mk.injEq, Dec.ok.injEq] at hd
            obtain ⟨h1, h2, h3⟩ := hd
            subst h2 h3
            exact ⟨rfl, h1.symm⟩
          · simp at hd
      obtain ⟨tag, rest', h1, h2, h3, hform⟩ := decode_inv hdec.1
      have hrest : rest' = rest := by
        rw [hdec.2]
        rcases hform with ⟨len, -, hb, hn⟩ | ⟨-, hb, -, hn⟩
        · rw [hb, hn, ← List.length_append, ← List.length_append, List.drop_left]
        · rw [hb, hn]
          have : tag.length + 1 + t.value.length = (tag ++ [0x80] ++ t.value).length := by simp; omega
          rw [this, List.drop_left]
      subst hrest
      have hcon := isConstructed_iff h1 h3
      split at h
      · rename_i hc
        match hp : parseF alloc fuel t.value list, h with
        | .error _, h => simp at h
        | .ok (r, l1), h =>
          simp only [bind_ok] at h
          split at h
          · rename_i hr
            simp only [Except.ok.injEq, Prod.mk.injEq] at h
            exact absurd h.1 hr
          · rename_i hr
            have hr0 : r = 0 := by simpa using hr
            subst hr0
            obtain ⟨f1, hw1, he1, hl1⟩ := ih _ _ _ hp
            obtain ⟨f2, hw2, he2, hl2⟩ := ih _ _ _ h
            rcases hform with ⟨len, hlen, hb, -⟩ | ⟨-, hb, hz, -⟩
            · refine ⟨.node tag len f1 f2, ⟨h1, hcon.mp hc, ?_, hw1, hw2⟩, ?_, ?_⟩
              · rw [← he1]; exact hlen
              · rw [hb, he1, he2]; rfl
              · rw [hl2, hl1]; simp [XForest.leaves]
            · refine ⟨.indef tag f1 f2, ⟨h1, hcon.mp hc, hw1, hw2, ?_⟩, ?_, ?_⟩
              · rw [← he2]; exact hz
              · rw [hb, he1, he2]; rfl
              · rw [hl2, hl1]; simp [XForest.leaves]
      · rename_i hc
        split at h
        · obtain ⟨f2, hw2, he2, hl2⟩ := ih _ _ _ h
          rcases hform with ⟨len, hlen, hb, -⟩ | ⟨hcc, -, -, -⟩
          · refine ⟨.leaf ⟨tag, len, t.value⟩ f2, ⟨⟨h1, hlen⟩, fun hcc => hc (hcon.mpr hcc), hw2⟩,
              ?_, ?_⟩
            · rw [hb, he2]; rfl
            · rw [hl2, h2]; simp [XForest.leaves]
          · exact absurd (hcon.mpr hcc) hc
        · simp at h

/-- **C62.**  Parsing reports success only when the whole input is a sequence of complete
objects; the fields appended are then exactly their primitive objects in document order.  If
all of them are in definite form, the input is a forest of C05. -/
theorem C62_parse_accepts (alloc : List Tlv → Tlv → Bool) (buf : List Byte)
    (list list' : List Tlv) (h : parse alloc buf list = .ok (0, list')) :
    ∃ f : XForest, f.WF ∧ buf = f.enc ∧ list' = list ++ f.leaves :=
  parseF_inv alloc _ buf list list' h

/-- Definite ones are the forests of C05. -/
theorem C62_definite (f : XForest) (hf : f.WF) (hd : f.Definite) :
    ∃ g : Forest, g.WF ∧ g.enc = f.enc ∧ g.leaves = f.leaves := by
  induction f with
  | nil => exact ⟨.nil, trivial, rfl, rfl⟩
  | leaf o rest ih =>
    obtain ⟨g, h1, h2, h3⟩ := ih hf.2.2 hd
    exact ⟨.leaf o g, ⟨hf.1, hf.2.1, h1⟩, by simp [Forest.enc, XForest.enc, h2],
      by simp [Forest.leaves, XForest.leaves, h3]⟩
  | node tag len c rest ihc ihr =>
    obtain ⟨g1, a1, a2, a3⟩ := ihc hf.2.2.2.1 hd.1
    obtain ⟨g2, b1, b2, b3⟩ := ihr hf.2.2.2.2 hd.2
    exact ⟨.node tag len g1 g2, ⟨hf.1, hf.2.1, by rw [a2]; exact hf.2.2.1, a1, b1⟩,
      by simp [Forest.enc, XForest.enc, a2, b2], by simp [Forest.leaves, XForest.leaves, a3, b3]⟩
  | indef tag c rest _ _ => exact absurd hd (by simp [XForest.Definite])

example : parse allocOk [0x70, 0x80, 0x5A, 0x01, 0x12, 0x00, 0x00] [] =
    .ok (0, [⟨0x5A, 0, [0x12]⟩, ⟨0, 0, []⟩]) := by decide +kernel

/-- The tag octets at the start of a buffer are unique. -/
theorem tag_unique {t t' r r' : List Byte} (h : IsTag t) (h' : IsTag t') (e : t ++ r = t' ++ r') :
    t = t' ∧ r = r' := by
  have h1 := tagDecode_enc h r
  rw [e, tagDecode_enc h' r'] at h1
  simp only [Except.ok.injEq, Dec.ok.injEq] at h1
  exact List.append_inj e h1.1.symm

theorem lenOctets_head {n : Nat} {l : List Byte} (h : LenOctets n l) : l.head? ≠ some 0x80 ∧ l ≠ [] := by
  have key : ∀ x y : Byte, x.toNat ≠ y.toNat → x ≠ y := fun x y hn e => hn (by rw [e])
  cases h with
  | short h =>
    refine ⟨fun e => ?_, by simp⟩
    simp only [List.head?_cons, Option.some.injEq] at e
    refine key _ _ ?_ e
    rw [UInt8.toNat_ofNat_of_lt' (by show n < 256; omega)]
    change n ≠ 128
    omega
  | long bs h1 h4 hl =>
    refine ⟨fun e => ?_, by simp⟩
    simp only [List.head?_cons, Option.some.injEq] at e
    refine key _ _ ?_ e
    rw [UInt8.toNat_ofNat_of_lt' (by show 128 + bs.length < 256; omega)]
    change 128 + bs.length ≠ 128
    omega

/-- The first object in definite form is unique, and no object in indefinite form starts in
the same way. -/
theorem object_unique {t l v r t' l' v' r' : List Byte} (ht : IsTag t) (hl : LenOctets v.length l)
    (ht' : IsTag t') (hl' : LenOctets v'.length l') (e : t ++ l ++ v ++ r = t' ++ l' ++ v' ++ r') :
    t = t' ∧ v = v' ∧ r = r' := by
  have h1 := decode_enc ht hl r
  rw [e, decode_enc ht' hl' r'] at h1
  simp only [Except.ok.injEq, Dec.ok.injEq, Tlv.mk.injEq] at h1
  obtain ⟨h2, -, -, h3⟩ := h1
  have he : (t ++ l ++ v).length = (t' ++ l' ++ v').length := by simp; omega
  have h4 := List.append_inj e he
  refine ⟨(tag_unique ht ht' (r := l ++ v) (r' := l' ++ v') (by simpa using h4.1)).1, h3.symm, h4.2⟩

/-- A definite-form forest determines the primitive objects, whatever way its encoding is
read. -/
theorem forest_leaves_unique : ∀ (g : Forest) (f : XForest), g.WF → f.WF → g.enc = f.enc →
    g.leaves = f.leaves := by
  have nonempty : ∀ (t l v r : List Byte), IsTag t → t ++ l ++ v ++ r ≠ [] := by
    intro t l v r ht e
    have h1 := isTag_length ht
    have h2 := congrArg List.length e
    simp only [List.length_append, List.length_nil] at h2
    omega
  have notIndef : ∀ {t l v r t' r' : List Byte}, IsTag t → LenOctets v.length l → IsTag t' →
      t ++ l ++ v ++ r ≠ t' ++ [0x80] ++ r' := by
    intro t l v r t' r' ht hl ht' e
    have h1 := (tag_unique ht ht' (r := l ++ v ++ r) (r' := [0x80] ++ r') (by simpa using e)).2
    obtain ⟨h2, h3⟩ := lenOctets_head hl
    match l, h3 with
    | b :: l, _ => simp at h1 h2; exact h2 h1.1
  intro g
  induction g with
  | nil =>
    intro f _ hf e
    cases f with
    | nil => rfl
    | leaf o rest => exact absurd e.symm (nonempty o.tag o.len o.value _ hf.1.1)
    | node tag len c rest => exact absurd e.symm (nonempty tag len _ _ hf.1)
    | indef tag c rest => exact absurd e.symm (nonempty tag [0x80] _ _ hf.1)
  | leaf o rest ih =>
    intro f hg hf e
    cases f with
    | nil => exact absurd e (nonempty o.tag o.len o.value _ hg.1.1)
    | leaf o' rest' =>
      obtain ⟨h1, h2, h3⟩ := object_unique hg.1.1 hg.1.2 hf.1.1 hf.1.2 e
      simp only [Forest.leaves, XForest.leaves, h1, h2, ih rest' hg.2.2 hf.2.2 h3]
    | node tag len c rest' =>
      obtain ⟨h1, -⟩ := object_unique hg.1.1 hg.1.2 hf.1 hf.2.2.1 e
      exact absurd (h1 ▸ hf.2.1) hg.2.1
    | indef tag c rest' =>
      refine absurd ?_ (notIndef hg.1.1 hg.1.2 hf.1 (r := rest.enc) (r' := c.enc ++ rest'.enc))
      simpa [Forest.enc, XForest.enc, Obj.enc] using e
  | node tag len c rest ihc ihr =>
    intro f hg hf e
    cases f with
    | nil => exact absurd e (nonempty tag len _ _ hg.1)
    | leaf o' rest' =>
      obtain ⟨h1, -⟩ := object_unique hg.1 hg.2.2.1 hf.1.1 hf.1.2 e
      exact absurd (h1 ▸ hg.2.1) hf.2.1
    | node tag' len' c' rest' =>
      obtain ⟨-, h2, h3⟩ := object_unique hg.1 hg.2.2.1 hf.1 hf.2.2.1 e
      simp only [Forest.leaves, XForest.leaves, ihc c' hg.2.2.2.1 hf.2.2.2.1 h2,
        ihr rest' hg.2.2.2.2 hf.2.2.2.2 h3]
    | indef tag' c' rest' =>
      refine absurd ?_ (notIndef hg.1 hg.2.2.1 hf.1 (r := rest.enc) (r' := c'.enc ++ rest'.enc))
      simpa [Forest.enc, XForest.enc] using e

end Verif.TlvParse
