import Verif.MoreLemmas
import Verif.DolProps
import Verif.CompactTlvProps

/-! # C146: more data at the end do not change what was read

Everything here compares the reading of some data with the reading of the same data followed by
others. -/

set_option autoImplicit false

namespace Verif.More

open Verif BerSpec

/-- **C146.**  An object decoded stays the same object, with the same number of bytes, whatever
follows. -/
theorem C146_object (a b : List Byte) (n : Nat) (t : Ber.Tlv)
    (h : Ber.decode a = .ok (.ok n t)) : Ber.decode (a ++ b) = .ok (.ok n t) :=
  decode_append _ a b n t (Nat.lt_succ_self _) h

/- An object of indefinite length; two of the bytes are the end-of-contents. -/
example : Ber.decode [0x30, 0x80, 0x04, 0x01, 0xAA, 0x00, 0x00] = .ok (.ok 5 ⟨0x30, 0x20, [0x04, 0x01, 0xAA]⟩) := by
  decide +kernel

/-- **C146.**  The fields that parsing adds to a list are the first of those that it adds when more
data follow; and if the data can be read to their end, then it is as if the data that follow were
parsed afterwards. -/
theorem C146_list (alloc : List Ber.Tlv → Ber.Tlv → Bool) (a b : List Byte) (list : List Ber.Tlv) :
    ∃ r l r' l', TlvParse.parse alloc a list = .ok (r, l) ∧
      TlvParse.parse alloc (a ++ b) list = .ok (r', l') ∧
      l <+: l' ∧ (r = 0 → TlvParse.parse alloc b l = .ok (r', l')) := by
  obtain ⟨r, new, h1, -⟩ := TlvParse.C06_parse_any alloc a list
  obtain ⟨r', new', h1', -⟩ := TlvParse.C06_parse_any alloc (a ++ b) list
  refine ⟨r, _, r', _, h1, h1', ?_⟩
  obtain ⟨g1, g2⟩ := parseF_append alloc b _ _ _ _ _ _ h1 h1'
  refine ⟨g1, fun h0 => ?_⟩
  obtain ⟨s, news, h2, -⟩ := TlvParse.C06_parse_any alloc b (list ++ new)
  have : ∃ g, TlvParse.parseF alloc g b (list ++ new) = .ok (r', list ++ new') :=
    (g2 h0).elim (fun e => ⟨_, e⟩) id
  obtain ⟨g, hg⟩ := this
  rw [h2, parseF_det _ _ _ _ _ _ _ h2 hg]

/- Data that end within a field, and with the byte that was missing. -/
example : TlvParse.parse TlvParse.allocOk [0x5A, 0x01, 0xAA, 0x9F, 0x02, 0x02, 0xBB] [] =
      .ok (1, [⟨0x5A, 0, [0xAA]⟩]) ∧
    TlvParse.parse TlvParse.allocOk ([0x5A, 0x01, 0xAA, 0x9F, 0x02, 0x02, 0xBB] ++ [0xCC]) [] =
      .ok (0, [⟨0x5A, 0, [0xAA]⟩, ⟨0x9F02, 0, [0xBB, 0xCC]⟩]) := by
  decide +kernel

/-- The elements of one reading are the first of those of another, and are followed by those of a
third if the code is 0. -/
def Begins {α : Type} (x y z : List α × Int) : Prop :=
  x.1 <+: y.1 ∧ (x.2 = 0 → y = (x.1 ++ z.1, z.2))

theorem Begins.cons {α : Type} {x y z : List α × Int} (h : Begins x y z) (e : α) :
    Begins (e :: x.1, x.2) (e :: y.1, y.2) z :=
  ⟨List.cons_prefix_cons.2 ⟨rfl, h.1⟩, fun h0 => by rw [h.2 h0]; rfl⟩

theorem berIterate_append (b : List Byte) (z : List Ber.Tlv × Int) (gz : Nat)
    (hz : Ber.iterate gz b = .ok z) : ∀ fuel fuel' (a : List Byte) x y,
    Ber.iterate fuel a = .ok x → Ber.iterate fuel' (a ++ b) = .ok y → Begins x y z := by
  have det : ∀ fuel fuel' (a : List Byte) x y,
      Ber.iterate fuel a = .ok x → Ber.iterate fuel' a = .ok y → x = y := by
    intro fuel
    induction fuel with
    | zero => intro fuel' a x y h; cases h
    | succ fuel ih =>
      intro fuel' a x y h h'
      cases fuel' with
      | zero => cases h'
      | succ fuel' =>
        unfold Ber.iterate at h h'
        cases hi : Ber.itrNext a with
        | error u => rw [hi] at h; cases h
        | ok w =>
          obtain ⟨rest, d⟩ := w
          rw [hi] at h h'
          simp only [bind_ok] at h h'
          cases d with
          | eod => cases h; cases h'; rfl
          | err c => cases h; cases h'; rfl
          | ok n t =>
            simp only at h h'
            cases hp : Ber.iterate fuel rest with
            | error u => rw [hp] at h; cases h
            | ok p =>
              cases hp' : Ber.iterate fuel' rest with
              | error u => rw [hp'] at h'; cases h'
              | ok p' =>
                have := ih _ _ _ _ hp hp'
                subst this
                rw [hp] at h
                rw [hp'] at h'
                cases h; cases h'; rfl
  intro fuel
  induction fuel with
  | zero => intro fuel' a x y h; cases h
  | succ fuel ih =>
    intro fuel' a x y h h'
    unfold Ber.iterate at h
    cases hi : Ber.itrNext a with
    | error u => rw [hi] at h; cases h
    | ok w =>
      obtain ⟨rest, d⟩ := w
      rw [hi] at h
      simp only [bind_ok] at h
      cases d with
      | eod =>
        cases h
        have := itrNext_eod hi
        subst this
        exact ⟨List.nil_prefix, fun _ => det _ _ _ _ _ h' hz⟩
      | err c =>
        cases h
        refine ⟨List.nil_prefix, fun h0 => ?_⟩
        have h0 : c = 0 := h0
        obtain ⟨d, hd, hs⟩ := Ber.C01_decode_safe a
        unfold Ber.itrNext at hi
        rw [hd] at hi
        cases d with
        | eod => cases hi
        | ok n t =>
          have hb := Ber.decode_bound hd
          simp only [bind_ok] at hi
          rw [suffix_eq (by omega)] at hi
          cases hi
        | err c' =>
          cases hi
          have : c < 0 := hs
          omega
      | ok n t =>
        cases fuel' with
        | zero => cases h'
        | succ fuel' =>
          unfold Ber.iterate at h'
          rw [itrNext_append hi b] at h'
          simp only [bind_ok] at h h'
          cases hp : Ber.iterate fuel rest with
          | error u => rw [hp] at h; cases h
          | ok p =>
            cases hp' : Ber.iterate fuel' (rest ++ b) with
            | error u => rw [hp'] at h'; cases h'
            | ok p' =>
              have := ih _ _ _ _ hp hp'
              rw [hp] at h
              rw [hp'] at h'
              cases h; cases h'
              exact this.cons t

/-- **C146.**  The same for the objects that the iterator of BER data yields. -/
theorem C146_iterate (a b : List Byte) : ∃ x y z, Ber.iterateAll a = .ok x ∧
    Ber.iterateAll (a ++ b) = .ok y ∧ Ber.iterateAll b = .ok z ∧ Begins x y z := by
  have all : ∀ a, ∃ x, Ber.iterateAll a = .ok x := by
    intro a
    obtain ⟨ts, c, h, -⟩ := Ber.iterate_any (a.length / 2 + 1) a (Nat.le_refl _)
    exact ⟨_, h⟩
  obtain ⟨x, hx⟩ := all a
  obtain ⟨y, hy⟩ := all (a ++ b)
  obtain ⟨z, hz⟩ := all b
  exact ⟨x, y, z, hx, hy, hz, berIterate_append b z _ hz _ _ _ _ _ hx hy⟩

example : Ber.iterateAll [0x04, 0x01, 0xAA, 0x04] = .ok ([⟨4, 0, [0xAA]⟩], -2) ∧
    Ber.iterateAll ([0x04, 0x01, 0xAA, 0x04] ++ [0x00]) = .ok ([⟨4, 0, [0xAA]⟩, ⟨4, 0, []⟩], 0) := by
  decide +kernel

/-- **C146.**  The same for the entries of a data object list. -/
theorem C146_dol (a b : List Byte) : ∃ x y z, Dol.iterateAll a = .ok x ∧
    Dol.iterateAll (a ++ b) = .ok y ∧ Dol.iterateAll b = .ok z ∧ Begins x y z := by
  obtain ⟨rs, rest, c, h1, h2, h3, h4⟩ := Dol.iterate_any (a.length / 2 + 1) a (Nat.le_refl _)
  have all : ∀ fuel b, b.length / 2 + 1 ≤ fuel → ∃ x, Dol.iterate fuel b = .ok x := by
    intro fuel b hf
    obtain ⟨_, _, _, -, -, h, -⟩ := Dol.iterate_any fuel b hf
    exact ⟨_, h⟩
  have det : ∀ fuel fuel' (a : List Byte) x y,
      Dol.iterate fuel a = .ok x → Dol.iterate fuel' a = .ok y → x = y := by
    intro fuel
    induction fuel with
    | zero => intro fuel' a x y h; cases h
    | succ fuel ih =>
      intro fuel' a x y h h'
      cases fuel' with
      | zero => cases h'
      | succ fuel' =>
        unfold Dol.iterate at h h'
        cases hi : Dol.itrNext a with
        | error u => rw [hi] at h; cases h
        | ok w =>
          obtain ⟨rest, d⟩ := w
          rw [hi] at h h'
          simp only [bind_ok] at h h'
          cases d with
          | eod => cases h; cases h'; rfl
          | err c => cases h; cases h'; rfl
          | ok n t =>
            simp only at h h'
            cases hp : Dol.iterate fuel rest with
            | error u => rw [hp] at h; cases h
            | ok p =>
              cases hp' : Dol.iterate fuel' rest with
              | error u => rw [hp'] at h'; cases h'
              | ok p' =>
                have := ih _ _ _ _ hp hp'
                subst this
                rw [hp] at h
                rw [hp'] at h'
                cases h; cases h'; rfl
  obtain ⟨y, hy⟩ := all ((a ++ b).length / 2 + 1) (a ++ b) (Nat.le_refl _)
  obtain ⟨z, hz⟩ := all (b.length / 2 + 1) b (Nat.le_refl _)
  refine ⟨_, y, z, h3, hy, hz, ?_⟩
  have step : ∀ (rs : List Dol.Req), (∀ r ∈ rs, r.WF) → ∀ tl w fuel' y g,
      Dol.iterate g tl = .ok w → Dol.iterate fuel' (Dol.encDol rs ++ tl) = .ok y →
      y = (rs.map Dol.entryOf ++ w.1, w.2) := by
    intro rs
    induction rs with
    | nil => intro _ tl w fuel' y g hw hy; exact det _ _ _ _ _ hy hw
    | cons r rs ih =>
      intro hr tl w fuel' y g hw hy
      cases fuel' with
      | zero => cases hy
      | succ fuel' =>
        unfold Dol.iterate at hy
        rw [Dol.encDol_cons, List.append_assoc, Dol.itrNext_enc r (hr r (by simp))] at hy
        simp only [bind_ok] at hy
        cases hp : Dol.iterate fuel' (Dol.encDol rs ++ tl) with
        | error u => rw [hp] at hy; cases hy
        | ok p =>
          have := ih (fun r h => hr r (by simp [h])) tl w fuel' p g hw hp
          subst this
          rw [hp] at hy
          cases hy
          rfl
  obtain ⟨w, hw⟩ := all ((rest ++ b).length / 2 + 1) (rest ++ b) (Nat.le_refl _)
  have e : a ++ b = Dol.encDol rs ++ (rest ++ b) := by rw [h2, List.append_assoc]
  have hy2 := step rs h1 (rest ++ b) w _ y _ hw (e ▸ hy)
  subst hy2
  refine ⟨List.prefix_append _ _, fun h0 => ?_⟩
  have h0 : c = 0 := h0
  rcases h4 with ⟨h5, -⟩ | ⟨-, h5, -⟩
  · subst h5
    have := det _ _ _ _ _ hw hz
    subst this
    rfl
  · omega

/- Tag 9F 1A without its length, and with it. -/
example : Dol.iterateAll [0x9F, 0x37, 0x04, 0x9F, 0x1A] = .ok ([⟨0x9F37, 4⟩], -5) ∧
    Dol.iterateAll ([0x9F, 0x37, 0x04, 0x9F, 0x1A] ++ [0x02]) = .ok ([⟨0x9F37, 4⟩, ⟨0x9F1A, 2⟩], 0) := by
  decide +kernel

/-- **C146.**  The same for the objects of compact-TLV data, of which there must be some. -/
theorem C146_compact (a b : List Byte) (ha : a ≠ []) (hb : b ≠ []) :
    ∃ x y z, CompactTlv.iterateAll a = .ok (some x) ∧
    CompactTlv.iterateAll (a ++ b) = .ok (some y) ∧ CompactTlv.iterateAll b = .ok (some z) ∧
    Begins x y z := by
  have top : ∀ (a : List Byte) x, a ≠ [] → CompactTlv.iterate (a.length + 1) a = .ok x →
      CompactTlv.iterateAll a = .ok (some x) := by
    intro a x ha h
    unfold CompactTlv.iterateAll
    rw [if_neg (by simpa using ha), h]
    rfl
  obtain ⟨rs, rest, c, h1, h2, h3, h4⟩ := CompactTlv.iterate_any (a.length + 1) a (Nat.lt_succ_self _)
  have all : ∀ fuel b, b.length < fuel → ∃ x, CompactTlv.iterate fuel b = .ok x := by
    intro fuel b hf
    obtain ⟨_, _, _, -, -, h, -⟩ := CompactTlv.iterate_any fuel b hf
    exact ⟨_, h⟩
  have det : ∀ fuel fuel' (a : List Byte) x y,
      CompactTlv.iterate fuel a = .ok x → CompactTlv.iterate fuel' a = .ok y → x = y := by
    intro fuel
    induction fuel with
    | zero => intro fuel' a x y h; cases h
    | succ fuel ih =>
      intro fuel' a x y h h'
      cases fuel' with
      | zero => cases h'
      | succ fuel' =>
        unfold CompactTlv.iterate at h h'
        cases hi : CompactTlv.itrNext a with
        | error u => rw [hi] at h; cases h
        | ok w =>
          obtain ⟨rest, d⟩ := w
          rw [hi] at h h'
          simp only [bind_ok] at h h'
          cases d with
          | eod => cases h; cases h'; rfl
          | err c => cases h; cases h'; rfl
          | ok n t =>
            simp only at h h'
            cases hp : CompactTlv.iterate fuel rest with
            | error u => rw [hp] at h; cases h
            | ok p =>
              cases hp' : CompactTlv.iterate fuel' rest with
              | error u => rw [hp'] at h'; cases h'
              | ok p' =>
                have := ih _ _ _ _ hp hp'
                subst this
                rw [hp] at h
                rw [hp'] at h'
                cases h; cases h'; rfl
  obtain ⟨y, hy⟩ := all ((a ++ b).length + 1) (a ++ b) (Nat.lt_succ_self _)
  obtain ⟨z, hz⟩ := all (b.length + 1) b (Nat.lt_succ_self _)
  refine ⟨_, y, z, top _ _ ha h3, top _ _ (by simp [ha]) hy, top _ _ hb hz, ?_⟩
  have step : ∀ (rs : List CompactTlv.Tlv), (∀ r ∈ rs, CompactTlv.WF r) → ∀ tl w fuel' y g,
      CompactTlv.iterate g tl = .ok w → CompactTlv.iterate fuel' (CompactTlv.encAll rs ++ tl) = .ok y →
      y = (rs ++ w.1, w.2) := by
    intro rs
    induction rs with
    | nil => intro _ tl w fuel' y g hw hy; exact det _ _ _ _ _ hy hw
    | cons r rs ih =>
      intro hr tl w fuel' y g hw hy
      cases fuel' with
      | zero => cases hy
      | succ fuel' =>
        unfold CompactTlv.iterate at hy
        rw [show CompactTlv.encAll (r :: rs) = CompactTlv.enc r ++ CompactTlv.encAll rs by simp [CompactTlv.encAll],
          List.append_assoc, CompactTlv.itrNext_enc r (hr r (by simp))] at hy
        simp only [bind_ok] at hy
        cases hp : CompactTlv.iterate fuel' (CompactTlv.encAll rs ++ tl) with
        | error u => rw [hp] at hy; cases hy
        | ok p =>
          have := ih (fun r h => hr r (by simp [h])) tl w fuel' p g hw hp
          subst this
          rw [hp] at hy
          cases hy
          rfl
  obtain ⟨w, hw⟩ := all ((rest ++ b).length + 1) (rest ++ b) (Nat.lt_succ_self _)
  have e : a ++ b = CompactTlv.encAll rs ++ (rest ++ b) := by rw [h2, List.append_assoc]
  have hy2 := step rs h1 (rest ++ b) w _ y _ hw (e ▸ hy)
  subst hy2
  refine ⟨List.prefix_append _ _, fun h0 => ?_⟩
  have h0 : c = 0 := h0
  rcases h4 with ⟨h5, -⟩ | ⟨-, h5, -⟩
  · subst h5
    have := det _ _ _ _ _ hw hz
    subst this
    rfl
  · omega

example : CompactTlv.iterateAll [0x31, 0x80, 0x73, 0x01] = .ok (some ([⟨3, [0x80]⟩], -3)) ∧
    CompactTlv.iterateAll ([0x31, 0x80, 0x73, 0x01] ++ [0x02, 0x03, 0x50]) =
      .ok (some ([⟨3, [0x80]⟩, ⟨7, [1, 2, 3]⟩, ⟨5, []⟩], 0)) := by
  decide +kernel

/-- **C146.**  The rows of the viewer, which does not look for padding, stay as they are, and the
number of bytes that it has read does not decrease. -/
theorem C146_tree (env : TlvInfo.Env) (a b : List Byte) (t : Viewer.Tree) (hp : t.ignorePadding = false)
    (x y : Viewer.Tree) (n m : Nat) (hx : Viewer.populateItems env a t = .ok (x, n))
    (hy : Viewer.populateItems env (a ++ b) t = .ok (y, m)) :
    x.items <+: y.items ∧ n ≤ m := by
  unfold Viewer.populateItems at hx hy
  rw [hp] at hx hy
  generalize hq : Viewer.parseData _ _ false (a.length + 1) 0 a a 0 0 = q at hx
  generalize hq' : Viewer.parseData _ _ false ((a ++ b).length + 1) 0 (a ++ b) (a ++ b) 0 0 = q' at hy
  cases q with
  | error u => cases hx
  | ok q =>
    cases q' with
    | error u => cases hy
    | ok q' =>
      cases hx
      cases hy
      exact parseData_append _ _ b _ _ _ _ _ _ _ _ _ _ _ hq hq'

/- A template whose second field is cut off, and the whole of it. -/
example : ((Viewer.populateItems TlvInfo.noTables [0x5A, 0x01, 0xAA, 0x9F, 0x02, 0x02, 0xBB] ⟨false, false, []⟩).map
      (fun x => (x.1.items.map (fun i => (i.depth, i.offset, i.length)), x.2)) = .ok ([(0, 0, 3)], 3)) ∧
    (Viewer.populateItems TlvInfo.noTables ([0x5A, 0x01, 0xAA, 0x9F, 0x02, 0x02, 0xBB] ++ [0xCC]) ⟨false, false, []⟩).map
      (fun x => (x.1.items.map (fun i => (i.depth, i.offset, i.length)), x.2)) =
        .ok ([(0, 0, 3), (0, 3, 5)], 8) := by
  decide +kernel

/-- **C146.**  Not so when it looks for padding, since what looks like padding depends on where the
data end: a row of padding disappears when a byte is added. -/
theorem C146_padding : ∃ (a b : List Byte) (x y : Viewer.Tree) (n m : Nat),
    Viewer.populateItems TlvInfo.noTables a ⟨true, false, []⟩ = .ok (x, n) ∧
    Viewer.populateItems TlvInfo.noTables (a ++ b) ⟨true, false, []⟩ = .ok (y, m) ∧
    ¬ x.items <+: y.items ∧ m < n := by
  refine ⟨[0x04, 0x03, 1, 2, 3, 3, 3, 3], [0xAA], ?_⟩
  have h1 : (Viewer.populateItems TlvInfo.noTables [0x04, 0x03, 1, 2, 3, 3, 3, 3] ⟨true, false, []⟩).map
      (fun x => (x.1.items.length, x.2)) = .ok (2, 8) := by decide +kernel
  have h2 : (Viewer.populateItems TlvInfo.noTables ([0x04, 0x03, 1, 2, 3, 3, 3, 3] ++ [0xAA])
      ⟨true, false, []⟩).map (fun x => (x.1.items.length, x.2)) = .ok (1, 5) := by decide +kernel
  generalize Viewer.populateItems _ _ _ = p at h1 ⊢
  generalize Viewer.populateItems _ _ _ = q at h2 ⊢
  cases p with
  | error u => cases h1
  | ok p =>
    cases q with
    | error u => cases h2
    | ok q =>
      simp only [Except.map, Except.ok.injEq, Prod.mk.injEq] at h1 h2
      refine ⟨p.1, q.1, p.2, q.2, rfl, rfl, fun hp => ?_, by omega⟩
      have := hp.length_le
      omega

end Verif.More
