import Verif.PrintProps
import Verif.PrintEmvLemmas

/-! # Documents and first faults are unique (C89, C90) -/

set_option autoImplicit false

namespace Verif.PrintSpec
open Verif Ber BerSpec Formats

/-! ## One object -/

theorem reads_unique {buf hdr tag value hdr' tag' value' : List Byte} (rest rest' : List Byte)
    (e : buf = hdr ++ value ++ rest) (e' : buf = hdr' ++ value' ++ rest')
    (h : Reads buf hdr tag value) (h' : Reads buf hdr' tag' value') :
    hdr = hdr' ∧ tag = tag' ∧ value = value' ∧ rest = rest' := by
  obtain ⟨ht, hp, hd⟩ := h
  obtain ⟨ht', hp', hd'⟩ := h'
  rw [hd] at hd'
  injection hd' with hd'
  injection hd' with hn ht2
  injection ht2 with h1 h2 h3
  subst h3
  have hl : hdr.length = hdr'.length := by omega
  rw [e] at e'
  simp only [List.append_assoc] at e'
  have := List.append_inj e' hl
  exact ⟨this.1, Print.beNat_tag_inj ht ht' h1, rfl, (List.append_cancel_left this.2)⟩

theorem reads_not_refused {buf hdr tag value : List Byte} {c : Int} (h : Reads buf hdr tag value)
    (h' : Refused buf c) : False := by
  have := h.2.2
  rw [h'] at this
  cases this

/-! ## Documents and faults -/

/-- A document, or the way to the first fault. -/
inductive Res where
  | doc (d : Doc)
  | path (p : Path)

def Res.enc : Res → List Byte
  | .doc d => d.enc
  | .path p => p.enc

def Res.WF (pad : Bool) (n : Nat) : Res → Prop
  | .doc d => d.WF pad n []
  | .path p => p.WF pad n

/-- A primitive object in front. -/
def Res.prim (hdr tag value : List Byte) : Res → Res
  | .doc d => .doc (.prim hdr tag value d)
  | .path (.stop d bad c) => .path (.stop (.prim hdr tag value d) bad c)
  | .path (.into d h t p a) => .path (.into (.prim hdr tag value d) h t p a)

/-- A constructed object in front. -/
def Res.node (hdr tag : List Byte) (ch : Doc) : Res → Res
  | .doc d => .doc (.node hdr tag ch d)
  | .path (.stop d bad c) => .path (.stop (.node hdr tag ch d) bad c)
  | .path (.into d h t p a) => .path (.into (.node hdr tag ch d) h t p a)

/-- How a result begins. -/
inductive View (pad : Bool) (n : Nat) : Res → Prop where
  | nil : View pad n (.doc .nil)
  | padding (b : List Byte) (c : Int) (h1 : pad = true) (h2 : b ≠ []) (h3 : Refused b c)
      (h4 : PadRule n b.length) : View pad n (.doc (.padding b))
  | stop (b : List Byte) (c : Int) (h2 : b ≠ []) (h3 : Refused b c)
      (h4 : ¬ (pad = true ∧ PadRule n b.length)) : View pad n (.path (.stop .nil b c))
  | into (hdr tag : List Byte) (p : Path) (a : List Byte)
      (h1 : Reads (hdr ++ p.enc ++ a) hdr tag p.enc) (h2 : IsConstructed tag)
      (h3 : p.WF pad p.enc.length) : View pad n (.path (.into .nil hdr tag p a))
  | prim (hdr tag value : List Byte) (r : Res) (h1 : Reads (hdr ++ value ++ r.enc) hdr tag value)
      (h2 : ¬ IsConstructed tag) (h3 : r.WF pad n) : View pad n (r.prim hdr tag value)
  | node (hdr tag : List Byte) (ch : Doc) (r : Res)
      (h1 : Reads (hdr ++ ch.enc ++ r.enc) hdr tag ch.enc) (h2 : IsConstructed tag)
      (h4 : ch.WF pad ch.enc.length []) (h3 : r.WF pad n) : View pad n (r.node hdr tag ch)

theorem view (pad : Bool) (n : Nat) (r : Res) (h : r.WF pad n) : View pad n r := by
  cases r with
  | doc d =>
    cases d with
    | nil => exact .nil
    | padding b =>
      obtain ⟨h1, -, h2, ⟨c, h3⟩, h4⟩ := h
      exact .padding b c h1 h2 h3 h4
    | prim hdr tag value rest =>
      obtain ⟨h1, h2, h3⟩ := h
      rw [List.append_nil] at h1
      exact View.prim hdr tag value (.doc rest) h1 h2 h3
    | node hdr tag ch rest =>
      obtain ⟨h1, h2, h4, h3⟩ := h
      rw [List.append_nil] at h1
      exact View.node hdr tag ch (.doc rest) h1 h2 h4 h3
  | path p =>
    cases p with
    | stop d bad c =>
      obtain ⟨hd, h2, h3, h4⟩ := h
      cases d with
      | nil => exact .stop bad c h2 h3 h4
      | padding b => exact absurd hd.2.1 h2
      | prim hdr tag value rest =>
        obtain ⟨g1, g2, g3⟩ := hd
        exact View.prim hdr tag value (.path (.stop rest bad c)) g1 g2 ⟨g3, h2, h3, h4⟩
      | node hdr tag ch rest =>
        obtain ⟨g1, g2, g4, g3⟩ := hd
        exact View.node hdr tag ch (.path (.stop rest bad c)) g1 g2 g4 ⟨g3, h2, h3, h4⟩
    | into d hdr' tag' q a =>
      obtain ⟨hd, h2, h3, h4⟩ := h
      cases d with
      | nil => exact .into hdr' tag' q a h2 h3 h4
      | padding b =>
        have h0 := hd.2.1
        have := h2.1
        have hp := h2.2.1
        simp only [List.append_eq_nil_iff] at h0
        rw [h0.1.1, List.prefix_nil] at hp
        rw [hp] at this
        exact absurd this id
      | prim hdr tag value rest =>
        obtain ⟨g1, g2, g3⟩ := hd
        exact View.prim hdr tag value (.path (.into rest hdr' tag' q a)) g1 g2 ⟨g3, h2, h3, h4⟩
      | node hdr tag ch rest =>
        obtain ⟨g1, g2, g4, g3⟩ := hd
        exact View.node hdr tag ch (.path (.into rest hdr' tag' q a)) g1 g2 g4 ⟨g3, h2, h3, h4⟩

theorem prim_enc (hdr tag value : List Byte) (r : Res) :
    (r.prim hdr tag value).enc = hdr ++ value ++ r.enc := by
  cases r with
  | doc d => rfl
  | path p => cases p <;> simp [Res.prim, Res.enc, Path.enc, Doc.enc]

theorem node_enc (hdr tag : List Byte) (ch : Doc) (r : Res) :
    (r.node hdr tag ch).enc = hdr ++ ch.enc ++ r.enc := by
  cases r with
  | doc d => rfl
  | path p => cases p <;> simp [Res.node, Res.enc, Path.enc, Doc.enc]

theorem hdr_pos {buf hdr tag value : List Byte} (h : Reads buf hdr tag value) : 1 ≤ hdr.length := by
  have h1 := (isTag_length h.1).1
  have h2 := h.2.1.length_le
  omega

/-- What the front of a result is: kind 0 nothing, 1 refused bytes, 2 an object. -/
inductive Front (pad : Bool) (n : Nat) (buf : List Byte) : Res → Prop where
  | nil (e : buf = []) : Front pad n buf (.doc .nil)
  | refused (c : Int) (h : Refused buf c) (r : Res)
      (hr : (r = .doc (.padding buf) ∧ pad = true ∧ PadRule n buf.length) ∨
        (r = .path (.stop .nil buf c) ∧ ¬ (pad = true ∧ PadRule n buf.length))) : Front pad n buf r
  | object (hdr tag value rest : List Byte) (e : buf = hdr ++ value ++ rest)
      (h : Reads buf hdr tag value) (r : Res)
      (hr : (¬ IsConstructed tag ∧ ∃ q : Res, r = q.prim hdr tag value ∧ q.WF pad n ∧ q.enc = rest) ∨
        (IsConstructed tag ∧ ∃ (ch : Doc) (q : Res), r = q.node hdr tag ch ∧ q.WF pad n ∧
          q.enc = rest ∧ ch.WF pad value.length [] ∧ ch.enc = value) ∨
        (IsConstructed tag ∧ ∃ p : Path, r = .path (.into .nil hdr tag p rest) ∧
          p.WF pad value.length ∧ p.enc = value)) : Front pad n buf r

theorem front {pad : Bool} {n : Nat} {r : Res} (h : r.WF pad n) : Front pad n r.enc r := by
  cases view pad n r h with
  | nil => exact .nil rfl
  | padding b c h1 h2 h3 h4 => exact .refused c h3 _ (.inl ⟨rfl, h1, h4⟩)
  | stop b c h2 h3 h4 => exact .refused c h3 _ (.inr ⟨rfl, h4⟩)
  | into hdr tag p a h1 h2 h3 =>
    exact .object hdr tag p.enc a rfl h1 _ (.inr (.inr ⟨h2, p, rfl, h3, rfl⟩))
  | prim hdr tag value r h1 h2 h3 =>
    rw [prim_enc]
    exact .object hdr tag value r.enc rfl h1 _ (.inl ⟨h2, r, rfl, h3, rfl⟩)
  | node hdr tag ch r h1 h2 h4 h3 =>
    rw [node_enc]
    exact .object hdr tag ch.enc r.enc rfl h1 _ (.inr (.inl ⟨h2, ch, r, rfl, h3, rfl, h4, rfl⟩))

theorem res_unique (pad : Bool) : ∀ (L n : Nat) (r r' : Res), r.enc.length < L → r.WF pad n →
    r'.WF pad n → r.enc = r'.enc → r = r' := by
  intro L
  induction L with
  | zero => intro n r r' hL; omega
  | succ L ih =>
    intro n r r' hL h h' e
    have f := front h
    have f' := front h'
    rw [← e] at f'
    generalize r.enc = buf at f f' hL
    cases f with
    | nil e0 =>
      cases f' with
      | nil _ => rfl
      | refused c hc => exact absurd e0 (Print.refused_neg hc)
      | object hdr tag value rest e1 h1 =>
        have := hdr_pos h1
        have e1 := congrArg List.length e1
        simp [e0] at e1
        omega
    | refused c hc _ hr =>
      cases f' with
      | nil e0 => exact absurd e0 (Print.refused_neg hc)
      | refused c' hc' _ hr' =>
        have ec : c = c' := by
          have := hc.symm.trans hc'
          injection this with this
          injection this
        subst ec
        rcases hr with ⟨rfl, a, b⟩ | ⟨rfl, a⟩ <;> rcases hr' with ⟨rfl, a', b'⟩ | ⟨rfl, a'⟩
        · rfl
        · exact absurd ⟨a, b⟩ a'
        · exact absurd ⟨a', b'⟩ a
        · rfl
      | object hdr tag value rest e1 h1 => exact (reads_not_refused h1 hc).elim
    | object hdr tag value rest e1 h1 _ hr =>
      cases f' with
      | nil e0 =>
        have := hdr_pos h1
        have e1 := congrArg List.length e1
        simp [e0] at e1
        omega
      | refused c hc => exact (reads_not_refused h1 hc).elim
      | object hdr' tag' value' rest' e2 h2 _ hr' =>
        obtain ⟨rfl, rfl, rfl, rfl⟩ := reads_unique rest rest' e1 e2 h1 h2
        have hp := hdr_pos h1
        have hlen := congrArg List.length e1
        simp only [List.length_append] at hlen
        rcases hr with ⟨hc, q, rfl, hq, eq⟩ | ⟨hc, ch, q, rfl, hq, eq, hch, ech⟩ |
          ⟨hc, p, rfl, hp1, ep⟩ <;>
        rcases hr' with ⟨hc', q', rfl, hq', eq'⟩ | ⟨hc', ch', q', rfl, hq', eq', hch', ech'⟩ |
          ⟨hc', p', rfl, hp1', ep'⟩
        · rw [ih n q q' (by rw [eq]; omega) hq hq' (eq.trans eq'.symm)]
        · exact absurd hc' hc
        · exact absurd hc' hc
        · exact absurd hc hc'
        · rw [ih n q q' (by rw [eq]; omega) hq hq' (eq.trans eq'.symm)]
          have := ih value.length (.doc ch) (.doc ch') (by show ch.enc.length < L; rw [ech]; omega)
            hch hch' (ech.trans ech'.symm)
          cases this
          rfl
        · have := ih value.length (.doc ch) (.path p') (by show ch.enc.length < L; rw [ech]; omega)
            hch hp1' (ech.trans ep'.symm)
          cases this
        · exact absurd hc hc'
        · have := ih value.length (.path p) (.doc ch') (by show p.enc.length < L; rw [ep]; omega)
            hp1 hch' (ep.trans ech'.symm)
          cases this
        · have := ih value.length (.path p) (.path p') (by show p.enc.length < L; rw [ep]; omega)
            hp1 hp1' (ep.trans ep'.symm)
          cases this
          rfl

/-- **C89** (unambiguous).  Bytes are those of at most one document. -/
theorem C89_unique (pad : Bool) (d d' : Doc) (h : d.WF pad d.enc.length [])
    (h' : d'.WF pad d'.enc.length []) (e : d.enc = d'.enc) : d = d' := by
  rw [← e] at h'
  have := res_unique pad (d.enc.length + 1) d.enc.length (.doc d) (.doc d') (Nat.lt_succ_self _) h h' e
  injection this

/-- **C90** (one or the other, and unambiguous).  Bytes which are a document have no first place
where no object can be read, and otherwise there is only one way to such a place: the offset and
the bytes reported do not depend on how the bytes are taken apart. -/
theorem C90_unique (pad : Bool) (p : Path) (h : p.WF pad p.enc.length) :
    (∀ d : Doc, d.WF pad d.enc.length [] → d.enc ≠ p.enc) ∧
    (∀ p' : Path, p'.WF pad p'.enc.length → p'.enc = p.enc → p' = p) := by
  refine ⟨fun d hd e => ?_, fun p' hp' e => ?_⟩
  · rw [e] at hd
    have := res_unique pad (p.enc.length + 1) p.enc.length (.path p) (.doc d) (Nat.lt_succ_self _) h
      hd e.symm
    cases this
  · rw [e] at hp'
    have := res_unique pad (p.enc.length + 1) p.enc.length (.path p) (.path p') (Nat.lt_succ_self _) h
      hp' e.symm
    injection this with this
    exact this.symm

/-- A document with padding, and one whose second object is cut off. -/
example : (Path.stop (.prim [0x04, 0x01] [0x04] [0xAA] .nil) [0x04, 0x02, 0xBB] (-11)).WF false 6 ∧
    (Doc.prim [0x04, 0x01] [0x04] [0xAA] .nil).WF false 3 [] := by
  refine ⟨⟨⟨⟨.inl ⟨by decide, rfl⟩, ⟨[0x01], rfl⟩, ?_⟩, by simp [IsConstructed], trivial⟩, by simp, ?_,
    by simp⟩, ⟨.inl ⟨by decide, rfl⟩, ⟨[0x01], rfl⟩, ?_⟩, by simp [IsConstructed], trivial⟩
  · decide +kernel
  · show decode _ = _
    decide +kernel
  · decide +kernel

end Verif.PrintSpec
