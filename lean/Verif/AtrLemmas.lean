import Verif.Atr
import Verif.AtrSpec

/-! # Lemmas about ATR parsing -/

set_option autoImplicit false

namespace Verif.Atr
open Verif AtrSpec

/-- The default parameters are those the parsing functions produce from the default bytes
(iso7816.c:290-318), whatever the structure held before in the members they set. -/
theorem defaults_eq (p : Par) :
    (do
      let p ← parseTA1 0x11 { p with specificMode := false, specificProtocol := 0,
                                     etuImplicit := false, mayChange := false,
                                     spu := .notUsed }
      let p ← parseTB1 0x25 p
      let p ← parseTC1 0x00 p
      let p ← parseTDi 1 0x00 p
      let p ← parseTC2 0x0A p
      let p ← parseTAi 1 0x20 p
      let p ← parseTAi 15 0x01 p
      let p ← parseTBi 1 0x4D p
      parseTCi 1 0x00 p) = .ok defaults := rfl

/-! ## Indicator octets -/

theorem bits : ∀ (n : Fin 16) (a b c d : Bool),
    (indicator n a b c d &&& 0x10 ≠ 0 ↔ a = true) ∧ (indicator n a b c d &&& 0x20 ≠ 0 ↔ b = true) ∧
    (indicator n a b c d &&& 0x40 ≠ 0 ↔ c = true) ∧ (indicator n a b c d &&& 0x80 ≠ 0 ↔ d = true) ∧
    (indicator n a b c d &&& 0x0F).toNat = n.val := by decide +kernel

theorem bits_surj : ∀ x : Byte, ∃ (n : Fin 16) (a b c d : Bool), x = indicator n a b c d := by
  decide +kernel

/-! ## The loop on an encoded chain -/

/-- Parse an optional byte. -/
def optf (o : Option Byte) (f : Byte → Par → Except Nat Par) (p : Par) : Except Nat Par :=
  match o with
  | none => .ok p
  | some b => f b p

/-- The parameters of one link. -/
def pgroup (i : Nat) (proto : Byte) (l : Link) (p : Par) : Except Nat Par :=
  match optf l.a (parseTA i proto) p with
  | .error e => .error e
  | .ok p =>
    match optf l.b (parseTB i proto) p with
    | .error e => .error e
    | .ok p => optf l.c (parseTC i proto) p

theorem rd_drop {buf : List Byte} {i : Nat} {b : Byte} {r : List Byte}
    (h : buf.drop i = b :: r) : rd buf i = .ok b ∧ buf.drop (i + 1) = r := by
  constructor
  · have : buf[i]? = some b := by
      rw [← List.head?_drop, h]; rfl
    simp [rd, this]
  · rw [← List.drop_drop, h]; rfl

theorem field_eq (buf : List Byte) (o : Option Byte) (rest : List Byte) (P : Prop)
    [Decidable P] (hP : P ↔ o.isSome = true) (st : St) (f : Byte → Par → Except Nat Par)
    (h : buf.drop st.idx = o.toList ++ rest) :
    field buf P st f = (match optf o f st.par with
      | .error e => .ok (.error e)
      | .ok p => .ok (.ok (o.map (fun _ => st.idx),
          { st with idx := st.idx + o.toList.length, par := p }))) ∧
    buf.drop (st.idx + o.toList.length) = rest := by
  cases o with
  | none =>
    have : ¬ P := by rw [hP]; simp
    refine ⟨?_, by simpa using h⟩
    simp only [field, if_neg this]
    rfl
  | some b =>
    have hp : P := by rw [hP]; simp
    obtain ⟨h1, h2⟩ := rd_drop (by simpa using h)
    refine ⟨?_, by simpa using h2⟩
    simp only [field, if_pos hp, h1, bind_ok, optf]
    cases f b st.par <;> rfl

/-- The pointers stored for a chain that starts at index `idx`. -/
def ptrsOf : Nat → List Link → Bool → List Ptrs
  | _, [], _ => []
  | idx, l :: r, more =>
    let i1 := idx + 1
    let i2 := i1 + l.a.toList.length
    let i3 := i2 + l.b.toList.length
    let i4 := i3 + l.c.toList.length
    ⟨l.a.map fun _ => i1, l.b.map fun _ => i2, l.c.map fun _ => i3,
      if r = [] then (if more then some i4 else none) else some i4⟩ :: ptrsOf i4 r more

/-- The parameters after a chain; `td` is the octet after the chain when announced. -/
def pchain : Nat → Byte → List Link → Option Byte → Par → Except Nat Par
  | _, _, [], _, p => .ok p
  | i, proto, [l], td, p =>
    match pgroup i proto l p with
    | .error e => .error e
    | .ok p => optf td (parseTDi i) p
  | i, proto, l :: l' :: r, td, p =>
    match pgroup i proto l p with
    | .error e => .error e
    | .ok p =>
      match parseTDi i (UInt8.ofNat l'.nib.val) p with
      | .error e => .error e
      | .ok p => pchain (i + 1) (UInt8.ofNat l'.nib.val) (l' :: r) td p

/-- A protocol type other than T=0 is announced. -/
def needTck (gs : List Link) (td : Option Byte) : Bool :=
  gs.tail.any (fun l => decide (l.nib ≠ 0)) || td.any (fun d => decide (d &&& 0x0F ≠ 0))

theorem parseTDi_nib (i : Nat) (d : Byte) (n : Fin 16) (h : (d &&& 0x0F).toNat = n.val) :
    parseTDi i d = parseTDi i (UInt8.ofNat n.val) := by
  have h2 : ((UInt8.ofNat n.val) &&& 0x0F).toNat = n.val := by
    clear h; revert n; decide +kernel
  funext p
  simp only [parseTDi, h, h2]

theorem nib_ofNat (d : Byte) (n : Fin 16) (h : (d &&& 0x0F).toNat = n.val) :
    d &&& 0x0F = UInt8.ofNat n.val := by
  rw [← h]; simp

/-- One iteration of the loop, up to the TD part. -/
theorem loop_step (buf : List Byte) (l : Link) (more : Bool) (rest : List Byte) (left i : Nat)
    (st : St) (h : buf.drop st.idx = encLink l more ++ rest) :
    loop buf (left + 1) i st =
      (match pgroup i st.protocol l st.par with
      | .error e => .ok (.error e)
      | .ok p =>
        let i4 := st.idx + (encLink l more).length
        let pt := fun d => st.ptrs ++ [⟨l.a.map fun _ => st.idx + 1,
          l.b.map fun _ => st.idx + 1 + l.a.toList.length,
          l.c.map fun _ => st.idx + 1 + l.a.toList.length + l.b.toList.length, d⟩]
        if more then do
          let d ← rd buf i4
          match parseTDi i d p with
          | .error e => .ok (.error e)
          | .ok p =>
            loop buf left (i + 1)
              { idx := i4, protocol := d &&& 0x0F,
                tck := st.tck || decide (d &&& 0x0F ≠ 0), par := p, ptrs := pt (some i4) }
        else .ok (.ok { st with idx := i4, par := p, ptrs := pt none })) ∧
    buf.drop (st.idx + (encLink l more).length) = rest := by
  obtain ⟨nib, a, b, c⟩ := l
  obtain ⟨idx, proto, tck, par, ptrs⟩ := st
  simp only [encLink, List.cons_append] at h
  obtain ⟨h1, h2⟩ := rd_drop h
  obtain ⟨e1, e2, e3, e4, e5⟩ := bits nib a.isSome b.isSome c.isSome more
  generalize indicator nib a.isSome b.isSome c.isSome more = y at *
  have el : (encLink ⟨nib, a, b, c⟩ more).length =
      1 + a.toList.length + b.toList.length + c.toList.length := by
    simp [encLink]; omega
  rw [el]
  simp only [List.append_assoc] at h2
  rw [loop]
  simp only [h1, bind_ok]
  obtain ⟨fa, ha⟩ := field_eq buf a _ (y &&& 0x10 ≠ 0) e1
    ⟨idx + 1, proto, tck, par, ptrs⟩ (parseTA i proto) h2
  rw [fa]
  simp only [pgroup]
  generalize optf a (parseTA i proto) par = xa
  have eidx : idx + 1 + a.toList.length + b.toList.length + c.toList.length =
      idx + (1 + a.toList.length + b.toList.length + c.toList.length) := by omega
  obtain ⟨_, hb⟩ := field_eq buf b _ (y &&& 0x20 ≠ 0) e2
    ⟨idx + 1 + a.toList.length, proto, tck, par, ptrs⟩ (parseTB i proto) ha
  obtain ⟨_, hc⟩ := field_eq buf c _ (y &&& 0x40 ≠ 0) e3
    ⟨idx + 1 + a.toList.length + b.toList.length, proto, tck, par, ptrs⟩ (parseTC i proto) hb
  simp only [eidx] at hc
  refine ⟨?_, hc⟩
  match xa with
  | .error e => rfl
  | .ok pa =>
    simp only [andThen_ok]
    obtain ⟨fb, _⟩ := field_eq buf b _ (y &&& 0x20 ≠ 0) e2
      ⟨idx + 1 + a.toList.length, proto, tck, pa, ptrs⟩ (parseTB i proto) ha
    rw [fb]
    generalize optf b (parseTB i proto) pa = xb
    match xb with
    | .error e => rfl
    | .ok pb =>
      simp only [andThen_ok]
      obtain ⟨fc, _⟩ := field_eq buf c _ (y &&& 0x40 ≠ 0) e3
        ⟨idx + 1 + a.toList.length + b.toList.length, proto, tck, pb, ptrs⟩
        (parseTC i proto) hb
      rw [fc]
      generalize optf c (parseTC i proto) pb = xc
      match xc with
      | .error e => rfl
      | .ok pc =>
        simp only [andThen_ok, eidx]
        by_cases hm : more = true
        · rw [if_pos (e4.mpr hm), if_pos hm]
          generalize rd buf (idx + (1 + a.toList.length + b.toList.length + c.toList.length)) = xd
          match xd with
          | .error e => rfl
          | .ok d => rfl
        · rw [if_neg (mt e4.mp hm), if_neg hm]

theorem ptrsOf_cons (idx : Nat) (l l' : Link) (r : List Link) (more : Bool) :
    ptrsOf idx (l :: l' :: r) more =
      ⟨l.a.map fun _ => idx + 1, l.b.map fun _ => idx + 1 + l.a.toList.length,
       l.c.map fun _ => idx + 1 + l.a.toList.length + l.b.toList.length,
       some (idx + (encLink l true).length)⟩ ::
      ptrsOf (idx + (encLink l true).length) (l' :: r) more := by
  have : idx + 1 + l.a.toList.length + l.b.toList.length + l.c.toList.length =
      idx + (encLink l true).length := by simp [encLink]; omega
  rw [ptrsOf]
  simp only [this]
  rfl

theorem ptrsOf_one (idx : Nat) (l : Link) (more : Bool) :
    ptrsOf idx [l] more =
      [⟨l.a.map fun _ => idx + 1, l.b.map fun _ => idx + 1 + l.a.toList.length,
       l.c.map fun _ => idx + 1 + l.a.toList.length + l.b.toList.length,
       if more then some (idx + (encLink l more).length) else none⟩] := by
  have : idx + 1 + l.a.toList.length + l.b.toList.length + l.c.toList.length =
      idx + (encLink l more).length := by simp [encLink]; omega
  rw [ptrsOf]
  simp only [this]
  rfl

theorem encChain_head (l : Link) (r : List Link) (more : Bool) :
    ∃ x tl, encChain (l :: r) more = x :: tl ∧ (x &&& 0x0F).toNat = l.nib.val := by
  cases r with
  | nil => exact ⟨_, _, rfl, (bits _ _ _ _ _).2.2.2.2⟩
  | cons l' r => exact ⟨_, _, rfl, (bits _ _ _ _ _).2.2.2.2⟩

theorem nib_zero : ∀ n : Fin 16, UInt8.ofNat n.val ≠ 0 ↔ n ≠ 0 := by decide +kernel

/-- The whole loop on an encoded chain. -/
theorem loop_chain (buf : List Byte) (td : Option Byte) (rest : List Byte) :
    ∀ (gs : List Link) (left i : Nat) (st : St), gs ≠ [] → gs.length ≤ left →
    (td.isSome → gs.length = left) →
    buf.drop st.idx = encChain gs td.isSome ++ (td.toList ++ rest) →
    ∃ proto', loop buf left i st =
      (match pchain i st.protocol gs td st.par with
      | .error e => .ok (.error e)
      | .ok p => .ok (.ok
          { idx := st.idx + (encChain gs td.isSome).length
            protocol := proto'
            tck := st.tck || needTck gs td
            par := p
            ptrs := st.ptrs ++ ptrsOf st.idx gs td.isSome })) := by
  intro gs
  induction gs with
  | nil => intro left i st h; exact absurd rfl h
  | cons l r ih =>
    intro left i st _ hl ht h
    cases left with
    | zero => simp at hl
    | succ left =>
    cases r with
    | nil =>
      simp only [encChain] at h
      obtain ⟨e, hd⟩ := loop_step buf l td.isSome _ left i st h
      rw [e]
      simp only [pchain, encChain, ptrsOf_one, needTck, List.tail_cons, List.any_nil,
        Bool.false_or]
      generalize pgroup i st.protocol l st.par = x
      match x with
      | .error e => exact ⟨0, rfl⟩
      | .ok p =>
        cases td with
        | none => exact ⟨st.protocol, by simp [optf]⟩
        | some d =>
          refine ⟨d &&& 0x0F, ?_⟩
          obtain ⟨h1, _⟩ := rd_drop (by simpa using hd)
          simp only [Option.isSome_some, if_true, h1, bind_ok, optf]
          generalize parseTDi i d p = y
          match y with
          | .error e => rfl
          | .ok p =>
            have : left = 0 := by
              have := ht rfl
              simp at this; omega
            subst this
            rfl
    | cons l' r =>
      simp only [encChain, List.append_assoc] at h
      obtain ⟨e, hd⟩ := loop_step buf l true _ left i st h
      obtain ⟨x, tl, hx, hn⟩ := encChain_head l' r td.isSome
      have hrd : rd buf (st.idx + (encLink l true).length) = .ok x := by
        refine (rd_drop (r := tl ++ (td.toList ++ rest)) ?_).1
        rw [hd, hx]; rfl
      rw [e]
      simp only [pchain]
      generalize pgroup i st.protocol l st.par = xg
      match xg with
      | .error e => exact ⟨0, rfl⟩
      | .ok p =>
        simp only [if_true, hrd, bind_ok, parseTDi_nib i x l'.nib hn, nib_ofNat x l'.nib hn]
        generalize parseTDi i (UInt8.ofNat l'.nib.val) p = xt
        match xt with
        | .error e => exact ⟨0, rfl⟩
        | .ok p' =>
          obtain ⟨pr, hpr⟩ := ih left (i + 1)
            { idx := st.idx + (encLink l true).length
              protocol := UInt8.ofNat l'.nib.val
              tck := st.tck || decide (UInt8.ofNat l'.nib.val ≠ 0)
              par := p'
              ptrs := st.ptrs ++ [⟨l.a.map fun _ => st.idx + 1,
                l.b.map fun _ => st.idx + 1 + l.a.toList.length,
                l.c.map fun _ => st.idx + 1 + l.a.toList.length + l.b.toList.length,
                some (st.idx + (encLink l true).length)⟩] }
            (by simp) (by simp at hl ⊢; omega)
            (fun hs => by have := ht hs; simp at this ⊢; omega) hd
          refine ⟨pr, ?_⟩
          simp only [hpr]
          generalize pchain (i + 1) (UInt8.ofNat l'.nib.val) (l' :: r) td p' = xc
          match xc with
          | .error e => rfl
          | .ok q =>
            have hk : ((st.tck || decide (UInt8.ofNat l'.nib.val ≠ 0)) || needTck (l' :: r) td) =
                (st.tck || needTck (l :: l' :: r) td) := by
              have := nib_zero l'.nib
              simp only [needTck, List.tail_cons, List.any_cons, Bool.or_assoc,
                decide_eq_decide.mpr this]
            simp only [hk, ptrsOf_cons, encChain, List.length_append, List.append_assoc,
              List.singleton_append, Nat.add_assoc]

/-- Every sufficiently long byte string starts with an encoded chain of at most `n` links;
only a chain of exactly `n` links may announce a further TD. -/
theorem chain_exists : ∀ (n : Nat) (bytes : List Byte), 0 < n → 4 * n + 1 ≤ bytes.length →
    ∃ (gs : List Link) (td : Option Byte) (rest : List Byte), gs ≠ [] ∧ gs.length ≤ n ∧
      (td.isSome → gs.length = n) ∧
      bytes = encChain gs td.isSome ++ (td.toList ++ rest) := by
  intro n
  induction n with
  | zero => intro bytes h; omega
  | succ n ih =>
    intro bytes _ hl
    have take1 : ∀ (f : Bool) (b : List Byte), 1 ≤ b.length →
        ∃ (o : Option Byte) (r : List Byte), o.isSome = f ∧ b = o.toList ++ r ∧
          b.length ≤ r.length + 1 := by
      intro f b hb
      cases f with
      | false => exact ⟨none, b, rfl, rfl, by omega⟩
      | true =>
        cases b with
        | nil => simp at hb
        | cons x b => exact ⟨some x, b, rfl, rfl, by simp⟩
    cases bytes with
    | nil => simp at hl
    | cons x bytes =>
      obtain ⟨nib, fa, fb, fc, fd, rfl⟩ := bits_surj x
      obtain ⟨a, r1, rfl, e1, l1⟩ := take1 fa bytes (by simp at hl; omega)
      obtain ⟨b, r2, rfl, e2, l2⟩ := take1 fb r1 (by simp at hl; omega)
      obtain ⟨c, r3, rfl, e3, l3⟩ := take1 fc r2 (by simp at hl; omega)
      have hr : 4 * n + 1 ≤ r3.length := by simp at hl; omega
      subst e1; subst e2; subst e3
      cases fd with
      | false =>
        exact ⟨[⟨nib, a, b, c⟩], none, r3, by simp, by simp, by simp,
          by simp [encChain, encLink]⟩
      | true =>
        cases n with
        | zero =>
          cases r3 with
          | nil => simp at hr
          | cons d r3 =>
            exact ⟨[⟨nib, a, b, c⟩], some d, r3, by simp, by simp, by simp,
              by simp [encChain, encLink]⟩
        | succ n =>
          obtain ⟨gs, td, rest, h1, h2, h3, h4⟩ := ih r3 (by omega) hr
          cases gs with
          | nil => exact absurd rfl h1
          | cons l' gs =>
            refine ⟨⟨nib, a, b, c⟩ :: l' :: gs, td, rest, by simp, by simp at h2 ⊢; omega,
              (fun hs => by have := h3 hs; simp at this ⊢; omega), ?_⟩
            rw [h4]
            simp [encChain, encLink]

end Verif.Atr
