import Verif.AtrRunLemmas

/-!
# Properties of ATR parsing: C43, C44, C45, C46 and C66

The specification vocabulary (chains of links, tables, acceptable values) is in AtrSpec.lean.
-/

set_option autoImplicit false

namespace Verif.Atr
open Verif AtrSpec

/-- The 33-byte array the ATR is copied into. -/
def storage (atr : List Byte) : List Byte := atr ++ List.replicate (33 - atr.length) 0

/-- The storage of `atr` holds TS, then the chain `gs` of at most four links; `td` is the
octet of a TD announced by a fourth link. -/
def HasChain (atr : List Byte) (ts : Byte) (gs : List Link) (td : Option Byte) : Prop :=
  2 ≤ atr.length ∧ atr.length ≤ 33 ∧ gs ≠ [] ∧ gs.length ≤ 4 ∧ (td.isSome → gs.length = 4) ∧
  ∃ rest, storage atr = ts :: (encChain gs td.isSome ++ (td.toList ++ rest))

/-- The octet TDi, in terms of the chain: the indicator of link i + 1, or the TD announced
by the last link. -/
def tdByte (gs : List Link) (td : Option Byte) (i : Nat) : Option Byte :=
  match gs[i]? with
  | some l => some (indicator l.nib l.a.isSome l.b.isSome l.c.isSome
      (decide (i + 1 < gs.length) || td.isSome))
  | none => if i = gs.length then td else none

/-! ## Lemmas -/

theorem hasChain_exists (atr : List Byte) (h2 : 2 ≤ atr.length) (h33 : atr.length ≤ 33) :
    ∃ ts gs td, HasChain atr ts gs td := by
  have hl : (storage atr).length = 33 := by simp [storage]; omega
  match hs : storage atr with
  | [] => rw [hs] at hl; simp at hl
  | ts :: r =>
    rw [hs] at hl
    obtain ⟨gs, td, rest, h1, h4, ht, hr⟩ := chain_exists 4 r (by omega) (by simp at hl; omega)
    exact ⟨ts, gs, td, h2, h33, h1, h4, ht, rest, by rw [hs, hr]⟩

theorem computeWt_ok (gs : List Link) (td : Option Byte) (hne : gs ≠ []) (h : OkChain gs td) :
    ∃ w, computeWt (setAll gs defaults) = .ok w := by
  obtain ⟨h1, h2⟩ := setAll_bounds gs td hne h
  have : 2 ^ (setAll gs defaults).bwi ≤ 2 ^ 9 := Nat.pow_le_pow_right (by omega) h2
  rw [computeWt, if_pos ⟨by omega, by omega⟩]
  exact ⟨_, rfl⟩

/-- Outcome of the whole parse on a chain. -/
def ParsePost (atr : List Byte) (ts : Byte) (gs : List Link) (td : Option Byte) :
    C (Except Nat Info) → Prop
  | .error e => e = .oobRead ∧ 1 + (encChain gs td.isSome).length + kOf gs ≤ atr.length ∧
      0 < kOf gs ∧ kOf gs < 4 ∧ (storage atr)[1 + (encChain gs td.isSome).length]? = some 0
  | .ok (.error _) => ¬ ((ts = 0x3B ∨ ts = 0x3F) ∧ OkChain gs td ∧
      Accept (storage atr) atr.length (1 + (encChain gs td.isSome).length) (kOf gs) (needTck gs td))
  | .ok (.ok info) => (ts = 0x3B ∨ ts = 0x3F) ∧ OkChain gs td ∧
      info.par = setAll gs defaults ∧
      computeWt info.par = .ok (info.wt, info.cwt, info.bwt) ∧
      ∃ proto, FinPost (storage atr) atr.length (kOf gs)
        { idx := 1 + (encChain gs td.isSome).length, protocol := proto,
          tck := needTck gs td, par := setAll gs defaults, ptrs := ptrsOf 1 gs td.isSome }
        (computeGt info.par 0) (info.wt, info.cwt, info.bwt) (.ok (.ok info))

theorem parse_post (atr : List Byte) (ts : Byte) (gs : List Link) (td : Option Byte)
    (h : HasChain atr ts gs td) : ParsePost atr ts gs td (parse atr) := by
  obtain ⟨h2, h33, hne, h4, ht, rest, hb⟩ := h
  obtain ⟨pr, hp⟩ := parse_shape atr ts gs td rest h2 h33 hne h4 ht hb
  rw [hp]
  by_cases hts : ts ≠ 0x3B ∧ ts ≠ 0x3F
  · rw [if_pos hts]
    rintro ⟨h | h, _⟩
    · exact hts.1 h
    · exact hts.2 h
  rw [if_neg hts]
  have hts' : ts = 0x3B ∨ ts = 0x3F := by
    by_cases h : ts = 0x3B
    · exact Or.inl h
    · exact Or.inr (Classical.byContradiction fun h' => hts ⟨h, h'⟩)
  generalize hx : pchain 1 0 gs td defaults = x
  match x with
  | .error e =>
    rintro ⟨_, hok, _⟩
    have := (pchain_iff gs td _ hne ht).mpr ⟨hok, rfl⟩
    rw [hx] at this; cases this
  | .ok p =>
    obtain ⟨hok, rfl⟩ := (pchain_iff gs td p hne ht).mp hx
    obtain ⟨w, hw⟩ := computeWt_ok gs td hne hok
    have hl : atr.length ≤ (storage atr).length := by simp [storage]
    have hf := finish_post (storage atr) atr.length (kOf gs)
      { idx := 1 + (encChain gs td.isSome).length, protocol := pr,
        tck := needTck gs td, par := setAll gs defaults, ptrs := ptrsOf 1 gs td.isSome } w hl
      (by simp only; omega) hw
    show ParsePost atr ts gs td (finish (storage atr) atr.length (kOf gs) _)
    generalize finish (storage atr) atr.length (kOf gs) _ = y at hf
    match y, hf with
    | .error e, hf => exact hf
    | .ok (.error c), hf => rintro ⟨_, _, h⟩; exact hf h
    | .ok (.ok info), hf =>
      have e1 : info.par = setAll gs defaults := hf.2.2.2.2.1
      have e2 : (info.wt, info.cwt, info.bwt) = w := hf.2.2.2.2.2.2.1
      refine ⟨hts', hok, e1, by rw [e1, hw, e2], pr, ?_⟩
      rw [e1, e2]
      exact hf

theorem accepted (atr : List Byte) (ts : Byte) (gs : List Link) (td : Option Byte) (info : Info)
    (h : HasChain atr ts gs td) (hp : parse atr = .ok (.ok info)) :
    ParsePost atr ts gs td (.ok (.ok info)) := by
  have := parse_post atr ts gs td h
  rw [hp] at this
  exact this

theorem storage_take (atr : List Byte) (n : Nat) (h : n ≤ atr.length) :
    (storage atr).take n = atr.take n := by
  rw [storage, List.take_append_of_le_length h]

theorem storage_get (atr : List Byte) (n : Nat) (h : n < atr.length) :
    (storage atr)[n]? = atr[n]? := by
  rw [storage, List.getElem?_append_left h]

theorem rd_getElem? {buf : List Byte} {i : Nat} {b : Byte} (h : buf[i]? = some b) :
    rd buf i = .ok b := by simp [rd, h]

theorem drop_get {buf : List Byte} {i : Nat} {b : Byte} {r : List Byte}
    (h : buf.drop i = b :: r) : buf[i]? = some b := by
  rw [← List.head?_drop, h]; rfl

/-- What the stored pointers of one link lead to. -/
theorem ptrs_deref (buf : List Byte) (td : Option Byte) (rest : List Byte) :
    ∀ (gs : List Link) (idx : Nat),
    buf.drop idx = encChain gs td.isSome ++ (td.toList ++ rest) →
    ∀ (j : Nat), (∀ q, (ptrsOf idx gs td.isSome)[j]?.bind (·.a) = some q →
        ∃ b, gs[j]?.bind (·.a) = some b ∧ buf[q]? = some b ∧ q < idx + (encChain gs td.isSome).length) ∧
      ((ptrsOf idx gs td.isSome)[j]?.bind (·.a) = none → gs[j]?.bind (·.a) = none) ∧
      (∀ q, (ptrsOf idx gs td.isSome)[j]?.bind (·.b) = some q →
        ∃ b, gs[j]?.bind (·.b) = some b ∧ buf[q]? = some b ∧ q < idx + (encChain gs td.isSome).length) ∧
      ((ptrsOf idx gs td.isSome)[j]?.bind (·.b) = none → gs[j]?.bind (·.b) = none) ∧
      (∀ q, (ptrsOf idx gs td.isSome)[j]?.bind (·.c) = some q →
        ∃ b, gs[j]?.bind (·.c) = some b ∧ buf[q]? = some b ∧ q < idx + (encChain gs td.isSome).length) ∧
      ((ptrsOf idx gs td.isSome)[j]?.bind (·.c) = none → gs[j]?.bind (·.c) = none) ∧
      (∀ q, (ptrsOf idx gs td.isSome)[j]?.bind (·.d) = some q →
        ∃ b, tdByte gs td (j + 1) = some b ∧ buf[q]? = some b ∧
          (td = none → q < idx + (encChain gs td.isSome).length)) ∧
      ((ptrsOf idx gs td.isSome)[j]?.bind (·.d) = none → tdByte gs td (j + 1) = none ∨ gs = []) := by
  intro gs
  induction gs with
  | nil => intro idx h j; simp [ptrsOf]
  | cons l r ih =>
    intro idx h j
    obtain ⟨more, tl, hm, hlast⟩ : ∃ more tl, encChain (l :: r) td.isSome = encLink l more ++ tl ∧
        ((r = [] ∧ more = td.isSome ∧ tl = []) ∨
         (r ≠ [] ∧ more = true ∧ tl = encChain r td.isSome)) := by
      cases r with
      | nil => exact ⟨td.isSome, [], by simp [encChain], Or.inl ⟨rfl, rfl, rfl⟩⟩
      | cons l' r => exact ⟨true, encChain (l' :: r) td.isSome, rfl, Or.inr ⟨by simp, rfl, rfl⟩⟩
    rw [hm, encLink] at h
    simp only [List.cons_append, List.append_assoc] at h
    obtain ⟨_, d1⟩ := rd_drop h
    have dA : ∀ (o : Option Byte) (i : Nat) (s : List Byte), buf.drop i = o.toList ++ s →
        buf.drop (i + o.toList.length) = s ∧ (∀ b, o = some b → buf[i]? = some b) := by
      intro o i s hs
      cases o with
      | none => exact ⟨by simpa using hs, fun b h => by cases h⟩
      | some x =>
        simp only [Option.toList_some, List.singleton_append] at hs
        refine ⟨(rd_drop hs).2, fun b h => ?_⟩
        cases h; exact drop_get hs
    obtain ⟨d2, a2⟩ := dA l.a _ _ d1
    obtain ⟨d3, a3⟩ := dA l.b _ _ d2
    obtain ⟨d4, a4⟩ := dA l.c _ _ d3
    have hlen : (encChain (l :: r) td.isSome).length =
        1 + l.a.toList.length + l.b.toList.length + l.c.toList.length + tl.length := by
      rw [hm]; simp [encLink]; omega
    cases j with
    | zero =>
      rw [hlen]
      simp only [ptrsOf, List.getElem?_cons_zero, Option.bind_some]
      refine ⟨?_, ?_, ?_, ?_, ?_, ?_, ?_, ?_⟩
      · intro q hq
        obtain ⟨b, hb, rfl⟩ := Option.map_eq_some_iff.mp hq
        refine ⟨b, hb, a2 b hb, ?_⟩
        rw [hb]; simp; omega
      · intro hq; simpa using hq
      · intro q hq
        obtain ⟨b, hb, rfl⟩ := Option.map_eq_some_iff.mp hq
        refine ⟨b, hb, a3 b hb, ?_⟩
        rw [hb]; simp; omega
      · intro hq; simpa using hq
      · intro q hq
        obtain ⟨b, hb, rfl⟩ := Option.map_eq_some_iff.mp hq
        refine ⟨b, hb, a4 b hb, ?_⟩
        rw [hb]; simp; omega
      · intro hq; simpa using hq
      · intro q hq
        rcases hlast with ⟨rfl, hmore, htl⟩ | ⟨hr, _, htl⟩
        · simp only [if_true] at hq
          cases td with
          | none => simp at hq
          | some d =>
            simp only [Option.isSome_some, if_true, Option.some.injEq] at hq
            subst hq
            refine ⟨d, by simp [tdByte], ?_, fun h => by cases h⟩
            rw [htl] at d4
            simp only [List.nil_append, Option.toList_some, List.singleton_append] at d4
            exact drop_get d4
        · rw [if_neg hr] at hq
          simp only [Option.some.injEq] at hq
          subst hq
          match r, hr with
          | l' :: r, _ =>
            obtain ⟨x, tl', hx, hind⟩ : ∃ x tl', encChain (l' :: r) td.isSome = x :: tl' ∧
                x = indicator l'.nib l'.a.isSome l'.b.isSome l'.c.isSome
                  (decide (2 < (l :: l' :: r).length) || td.isSome) := by
              cases r with
              | nil => exact ⟨_, _, rfl, by simp⟩
              | cons l'' r => exact ⟨_, _, rfl, by simp⟩
            refine ⟨x, by rw [tdByte]; simp [hind], ?_, fun _ => ?_⟩
            · rw [htl, hx] at d4
              simp only [List.cons_append] at d4
              exact drop_get d4
            · rw [htl, hx]; simp; omega
      · intro hq
        left
        rcases hlast with ⟨rfl, hmore, htl⟩ | ⟨hr, _, htl⟩
        · simp only [if_true] at hq
          cases td with
          | none => simp [tdByte]
          | some d => simp at hq
        · rw [if_neg hr] at hq; cases hq
    | succ j =>
      rcases hlast with ⟨rfl, hmore, htl⟩ | ⟨hr, _, htl⟩
      · simp [ptrsOf, tdByte]
      · rw [htl] at d4 hlen
        obtain ⟨i1, i2, i3, i4, i5, i6, i7, i8⟩ := ih _ d4 j
        have htdb : tdByte (l :: r) td (j + 1 + 1) = tdByte r td (j + 1) := by
          simp [tdByte]
        simp only [ptrsOf, List.getElem?_cons_succ, htdb]
        rw [hlen]
        refine ⟨?_, i2, ?_, i4, ?_, i6, ?_, ?_⟩
        · intro q hq
          obtain ⟨b, h1, h2, h3⟩ := i1 q hq
          exact ⟨b, h1, h2, by omega⟩
        · intro q hq
          obtain ⟨b, h1, h2, h3⟩ := i3 q hq
          exact ⟨b, h1, h2, by omega⟩
        · intro q hq
          obtain ⟨b, h1, h2, h3⟩ := i5 q hq
          exact ⟨b, h1, h2, by omega⟩
        · intro q hq
          obtain ⟨b, h1, h2, h3⟩ := i7 q hq
          exact ⟨b, h1, h2, fun h => by have := h3 h; omega⟩
        · intro hq
          rcases i8 hq with h | h
          · exact Or.inl h
          · exact absurd h hr

theorem deref_of (info : Info) (sel : Ptrs → Option Nat) (i : Nat) (o : Option Byte)
    (h1 : ∀ q, info.ptrs[i - 1]?.bind sel = some q → ∃ b, o = some b ∧ info.buf[q]? = some b)
    (h2 : info.ptrs[i - 1]?.bind sel = none → o = none) : deref info sel i = .ok o := by
  unfold deref
  cases hx : info.ptrs[i - 1]?.bind sel with
  | none => simp only; rw [h2 hx]
  | some q =>
    obtain ⟨b, e1, e2⟩ := h1 q hx
    simp only [rd_getElem? e2, bind_ok, e1]

/-- Turns a check on a concrete ATR into a statement about an accepted one. -/
theorem witness {x : C (Except Nat Info)} (P : Info → Prop) [DecidablePred P]
    (h : (match x with
      | .ok (.ok i) => decide (P i)
      | _ => false) = true) : ∃ i, x = .ok (.ok i) ∧ P i := by
  match x with
  | .ok (.ok i) => exact ⟨i, rfl, by simpa using h⟩
  | .ok (.error c) => cases h
  | .error e => cases h

/-! ## C43: interface bytes -/

/-- **C43**: every ATR of 2 to 33 bytes has a chain in its storage, and whenever it is
accepted the structure reports for every i exactly the interface bytes TAi, TBi, TCi, TDi of
that chain: the pointer is NULL when the byte is not announced and otherwise leads to it. -/
theorem C43_reports (atr : List Byte) (ts : Byte) (gs : List Link) (td : Option Byte)
    (info : Info) (h : HasChain atr ts gs td) (hp : parse atr = .ok (.ok info)) (i : Nat)
    (hi : 1 ≤ i) :
    deref info (·.a) i = .ok (ta gs i) ∧ deref info (·.b) i = .ok (tb gs i) ∧
    deref info (·.c) i = .ok (tc gs i) ∧ deref info (·.d) i = .ok (tdByte gs td i) := by
  obtain ⟨_, _, _, _, pr, hf⟩ := accepted atr ts gs td info h hp
  obtain ⟨_, hbuf, _, hptrs, _⟩ := hf
  simp only at hptrs
  obtain ⟨h2, h33, hne, h4, ht, rest, hb⟩ := h
  obtain ⟨p1, p2, p3, p4, p5, p6, p7, p8⟩ := ptrs_deref (storage atr) td rest gs 1
    (by rw [hb]; rfl) (i - 1)
  rw [← hptrs, ← hbuf] at *
  rw [Nat.sub_add_cancel hi] at p7 p8
  refine ⟨deref_of _ _ _ _ ?_ p2, deref_of _ _ _ _ ?_ p4, deref_of _ _ _ _ ?_ p6,
    deref_of _ _ _ _ ?_ ?_⟩
  · intro q hq; obtain ⟨b, e1, e2, _⟩ := p1 q hq; exact ⟨b, e1, e2⟩
  · intro q hq; obtain ⟨b, e1, e2, _⟩ := p3 q hq; exact ⟨b, e1, e2⟩
  · intro q hq; obtain ⟨b, e1, e2, _⟩ := p5 q hq; exact ⟨b, e1, e2⟩
  · intro q hq; obtain ⟨b, e1, e2, _⟩ := p7 q hq; exact ⟨b, e1, e2⟩
  · intro hq
    rcases p8 hq with h | h
    · exact h
    · exact absurd h hne

/-- **C43**: the chain exists for every ATR. -/
theorem C43_exists (atr : List Byte) (h2 : 2 ≤ atr.length) (h33 : atr.length ≤ 33) :
    ∃ ts gs td, HasChain atr ts gs td := hasChain_exists atr h2 h33

/-- **C43**: without a TD4, every reported interface byte lies inside the ATR itself, not
merely inside its storage. -/
theorem C43_inside (atr : List Byte) (ts : Byte) (gs : List Link) (info : Info)
    (h : HasChain atr ts gs none) (hp : parse atr = .ok (.ok info)) (j q : Nat)
    (hq : info.ptrs[j]?.bind (·.a) = some q ∨ info.ptrs[j]?.bind (·.b) = some q ∨
      info.ptrs[j]?.bind (·.c) = some q ∨ info.ptrs[j]?.bind (·.d) = some q) :
    q < atr.length := by
  obtain ⟨_, _, _, _, pr, hf⟩ := accepted atr ts gs none info h hp
  obtain ⟨⟨hle, _⟩, hbuf, _, hptrs, _⟩ := hf
  simp only at hptrs hle
  obtain ⟨h2, h33, hne, h4, ht, rest, hb⟩ := h
  obtain ⟨p1, p2, p3, p4, p5, p6, p7, p8⟩ := ptrs_deref (storage atr) none rest gs 1
    (by rw [hb]; rfl) j
  rw [hptrs] at hq
  rcases hq with hq | hq | hq | hq
  · obtain ⟨_, _, _, h⟩ := p1 q hq; omega
  · obtain ⟨_, _, _, h⟩ := p3 q hq; omega
  · obtain ⟨_, _, _, h⟩ := p5 q hq; omega
  · obtain ⟨_, _, _, h⟩ := p7 q hq; have := h rfl; omega

/-- **C43**: parsing an ATR without historical bytes, or with at least four, never leaves
the storage. -/
theorem C43_safe (atr : List Byte) (t0 : Byte) (h0 : atr[1]? = some t0)
    (hk : t0.toNat % 16 = 0 ∨ 4 ≤ t0.toNat % 16) : C.Safe (parse atr) := by
  by_cases hl : atr.length < 2 ∨ atr.length > 33
  · exact ⟨.error 1, by rw [parse, if_pos hl]⟩
  · obtain ⟨ts, gs, td, h⟩ := hasChain_exists atr (by omega) (by omega)
    have hp := parse_post atr ts gs td h
    have hkof : kOf gs = t0.toNat % 16 := by
      obtain ⟨_, _, hne, _, _, rest, hb⟩ := h
      match gs, hne with
      | l :: r, _ =>
        obtain ⟨x, tl, hx, hn⟩ := encChain_head l r td.isSome
        have : (storage atr)[1]? = some x := by rw [hb, hx]; rfl
        rw [storage_get atr 1 (by omega), h0] at this
        cases this
        rw [← (nibs t0).1, hn]; rfl
    generalize parse atr = x at hp
    match x, hp with
    | .error e, hp => obtain ⟨_, _, h1, h2, _⟩ := hp; omega
    | .ok a, _ => exact ⟨a, rfl⟩

/-- A truncated ATR whose third TD announces a TD4 that is not there is accepted, and TD4
is reported at an index outside the ATR (the reason for `td = none` in `C43_inside`). -/
theorem C43_td4_outside :
    ∃ info, parse [0x3B, 0x80, 0x80, 0x80, 0x80] = .ok (.ok info) ∧
      info.ptrs[3]?.bind (·.d) = some 5 := witness _ (by decide +kernel)

-- T0 announces TA1, TC1, TD1; TD1 announces TC2 (T=0): Fi/Di and guard time bytes reported
example : ∃ info, parse [0x3B, 0xD0, 0x18, 0xFF, 0x40, 0x0A] = .ok (.ok info) ∧
    deref info (·.a) 1 = .ok (some 0x18) ∧ deref info (·.b) 1 = .ok none ∧
    deref info (·.c) 2 = .ok (some 0x0A) := witness _ (by decide +kernel)

example : HasChain [0x3B, 0xD0, 0x18, 0xFF, 0x40, 0x0A] 0x3B
    [⟨0, some 0x18, none, some 0xFF⟩, ⟨0, none, none, some 0x0A⟩] none :=
  ⟨by decide, by decide, by decide, by decide, by decide, List.replicate 27 0, by decide⟩

/-! ## C44: historical bytes -/

/-- The historical bytes of a chain in an ATR. -/
def historical (atr : List Byte) (gs : List Link) : List Byte :=
  (atr.drop (1 + (encChain gs false).length)).take (kOf gs)

/-- **C44** (partial): parsing never leaves the storage unless the category byte is 00 and
there are fewer than the three status bytes it promises.  Missing: that exception, where
the property is false (`C44_unsafe`). -/
theorem C44_safe_partial (atr : List Byte)
    (h : ∀ ts gs td, HasChain atr ts gs td → 0 < kOf gs → kOf gs < 4 →
      (storage atr)[1 + (encChain gs td.isSome).length]? ≠ some 0) : C.Safe (parse atr) := by
  by_cases hl : atr.length < 2 ∨ atr.length > 33
  · exact ⟨.error 1, by rw [parse, if_pos hl]⟩
  · obtain ⟨ts, gs, td, hc⟩ := hasChain_exists atr (by omega) (by omega)
    have hp := parse_post atr ts gs td hc
    generalize parse atr = x at hp
    match x, hp with
    | .error e, hp =>
      obtain ⟨_, _, h1, h2, h3⟩ := hp
      exact absurd h3 (h ts gs td hc h1 h2)
    | .ok a, _ => exact ⟨a, rfl⟩

/-- The property is false: three bytes from a card are enough. -/
theorem C44_unsafe : parse [0x3B, 0x01, 0x00] = .error .oobRead := by decide +kernel

/-- **C44**: in an accepted ATR without TD4 the reported historical bytes are the K bytes
after the interface bytes, without the category byte and (category 00) without the three
status bytes; they lie inside the ATR. -/
theorem C44_range (atr : List Byte) (ts : Byte) (gs : List Link) (info : Info)
    (h : HasChain atr ts gs none) (hp : parse atr = .ok (.ok info)) :
    (historical atr gs).length = kOf gs ∧
    (kOf gs = 0 → info.hist = none) ∧
    (∀ t1 r, historical atr gs = t1 :: r → info.t1 = t1 ∧
      ∃ o n, info.hist = some (o, n) ∧ o + n ≤ atr.length ∧
        ((t1 ≠ 0 ∧ (atr.drop o).take n = r) ∨
         (t1 = 0 ∧ ∃ s, s.length = 3 ∧ r = (atr.drop o).take n ++ s))) := by
  obtain ⟨_, _, _, _, pr, hf⟩ := accepted atr ts gs none info h hp
  obtain ⟨⟨hle, hok, _⟩, hbuf, _, hptrs, _, _, _, _, hk0, hkpos, _, _⟩ := hf
  simp only [Option.isSome_none] at hle hkpos hok
  have hlen : (historical atr gs).length = kOf gs := by
    simp [historical]; omega
  refine ⟨hlen, fun h => (hk0 h).1, ?_⟩
  intro t1 r hr
  have hk : kOf gs = r.length + 1 := by rw [← hlen, hr]; rfl
  obtain ⟨e1, e2, e3⟩ := hkpos (by omega)
  rw [historical] at hr
  generalize 1 + (encChain gs false).length = idx at *
  have hlt : idx < atr.length := by omega
  rw [storage_get atr idx hlt] at e1
  have hd : atr.drop idx = atr[idx] :: atr.drop (idx + 1) := List.drop_eq_getElem_cons hlt
  rw [hd, hk, List.take_succ_cons] at hr
  have ht1 : info.t1 = t1 := by
    rw [List.getElem?_eq_getElem hlt, (List.cons.inj hr).1] at e1
    exact (Option.some.inj e1).symm
  have hrr := (List.cons.inj hr).2
  refine ⟨ht1, _, _, e2, ?_, ?_⟩
  · rw [ht1, hk]; split <;> omega
  · rw [ht1] at e3 ⊢
    by_cases h0 : t1 = 0
    · refine Or.inr ⟨h0, r.drop (r.length - 3), ?_, ?_⟩
      · have := e3 h0
        rw [List.length_drop]; omega
      · rw [if_pos h0, hk, show r.length + 1 - 4 = r.length - 3 by omega]
        have : (atr.drop (idx + 1)).take (r.length - 3) = r.take (r.length - 3) := by
          have e := congrArg (List.take (r.length - 3)) hrr
          rw [List.take_take, Nat.min_eq_left (by omega)] at e
          exact e
        rw [this, List.take_append_drop]
    · refine Or.inl ⟨h0, ?_⟩
      rw [if_neg h0, hk, Nat.add_sub_cancel]
      exact hrr

/-- **C44**: whatever the ATR, the reported historical bytes lie inside it. -/
theorem C44_inside (atr : List Byte) (info : Info) (hp : parse atr = .ok (.ok info)) (o n : Nat)
    (ho : info.hist = some (o, n)) : o + n ≤ atr.length := by
  have hl : ¬ (atr.length < 2 ∨ atr.length > 33) := by
    intro h; rw [parse, if_pos h] at hp; cases hp
  obtain ⟨ts, gs, td, h⟩ := hasChain_exists atr (by omega) (by omega)
  obtain ⟨_, _, _, _, pr, hf⟩ := accepted atr ts gs td info h hp
  obtain ⟨⟨hle, _, _⟩, _, _, _, _, _, _, _, hk0, hkpos, _, _⟩ := hf
  simp only at hle hkpos
  rcases Nat.eq_zero_or_pos (kOf gs) with hk | hk
  · rw [(hk0 hk).1] at ho; cases ho
  · obtain ⟨_, e2, e3⟩ := hkpos hk
    rw [e2] at ho
    obtain ⟨rfl, rfl⟩ := Prod.mk.inj (Option.some.inj ho)
    by_cases h0 : info.t1 = 0
    · have := e3 h0
      rw [if_pos h0]; omega
    · rw [if_neg h0]; omega

/-- **C44** (TD4).  With a TD4 it is TD4 that is reported as the category indicator, and the
bytes reported as historical start one byte early. -/
theorem C44_td4 (atr : List Byte) (ts td : Byte) (gs : List Link) (info : Info)
    (h : HasChain atr ts gs (some td)) (hp : parse atr = .ok (.ok info)) (hk : 0 < kOf gs) :
    info.t1 = td ∧ ∃ n, info.hist = some (1 + (encChain gs true).length + 1, n) := by
  obtain ⟨_, _, _, _, pr, hf⟩ := accepted atr ts gs (some td) info h hp
  obtain ⟨_, _, _, _, _, _, _, _, _, hkpos, _, _⟩ := hf
  obtain ⟨_, _, _, _, _, rest, hb⟩ := h
  obtain ⟨e1, e2, _⟩ := hkpos hk
  simp only [Option.isSome_some] at e1 e2 hb
  rw [hb, Nat.add_comm 1, List.getElem?_cons_succ, List.getElem?_append_right (Nat.le_refl _),
    Nat.sub_self] at e1
  exact ⟨(Option.some.inj e1).symm, _, e2⟩

theorem lastSi_eq (ts : List CompactTlv.Tlv) : ∀ si, lastSi si ts =
    (((ts.filter (fun t => t.tag = 8)).map (·.value)).getLast?).or si := by
  induction ts with
  | nil => intro si; rfl
  | cons t ts ih =>
    intro si
    have e : lastSi si (t :: ts) = lastSi (if t.tag = 8 then some t.value else si) ts := rfl
    rw [e, ih]
    by_cases h : t.tag = 8
    · simp only [h, if_true, List.filter_cons, decide_true, List.map_cons, List.getLast?_cons]
      cases ((ts.filter (fun t => t.tag = 8)).map (·.value)).getLast? <;> rfl
    · simp [h]

theorem encAll_inj (ts ts' : List CompactTlv.Tlv) (h : ∀ t ∈ ts, CompactTlv.WF t)
    (h' : ∀ t ∈ ts', CompactTlv.WF t) (e : CompactTlv.encAll ts = CompactTlv.encAll ts') :
    ts = ts' := by
  have e1 := CompactTlv.iterate_enc ts h ((CompactTlv.encAll ts).length + 1) (by omega)
  have e2 := CompactTlv.iterate_enc ts' h' ((CompactTlv.encAll ts).length + 1) (by rw [e]; omega)
  rw [e] at e1 e2
  rw [e1] at e2
  exact (Prod.mk.inj (Except.ok.inj e2)).1

/-- The status indicator (LCS, SW1, SW2) given by `v`: LCS alone, SW1 SW2 alone, or all
three (ISO 7816-4:2005, 8.1.1.3). -/
def StatusIs (v : List Byte) (s : Byte × Byte × Byte) : Prop :=
  (∀ l, v = [l] → s = (l, 0, 0)) ∧ (∀ a b, v = [a, b] → s = (0, a, b)) ∧
  (∀ l a b, v = [l, a, b] → s = (l, a, b))

theorem status_is (v : List Byte) : StatusIs v (status (some v)) :=
  ⟨fun l h => by rw [h]; rfl, fun a b h => by rw [h]; rfl, fun l a b h => by rw [h]; rfl⟩

/-- **C44**: category 00: the status indicator is the last three historical bytes, unless a
COMPACT-TLV status object precedes them. -/
theorem C44_status00 (atr : List Byte) (ts : Byte) (gs : List Link) (info : Info)
    (tlvs : List CompactTlv.Tlv) (s : List Byte) (h : HasChain atr ts gs none)
    (hp : parse atr = .ok (.ok info)) (hw : ∀ t ∈ tlvs, CompactTlv.WF t) (hs : s.length = 3)
    (hh : historical atr gs = 0x00 :: (CompactTlv.encAll tlvs ++ s))
    (hno : ∀ t ∈ tlvs, t.tag ≠ 8) : StatusIs s info.stat := by
  obtain ⟨_, _, _, _, pr, hf⟩ := accepted atr ts gs none info h hp
  obtain ⟨⟨hle, hok, _⟩, _, _, _, _, _, _, _, _, _, ⟨si, hsi, hst, _⟩, _⟩ := hf
  simp only [Option.isSome_none] at hle hsi
  have hst' : ((storage atr).drop (1 + (encChain gs false).length)).take (kOf gs) =
      historical atr gs := by
    rw [historical, storage, List.drop_append_of_le_length (by omega),
      List.take_append_of_le_length (by rw [List.length_drop]; omega)]
  rw [hst', hh] at hsi
  rcases hsi with ⟨h0, _⟩ | ⟨h0, _⟩ | ⟨_, ts', s', w', l', e', rfl⟩
  · exact absurd rfl h0
  · exact absurd h0 (by decide)
  · obtain ⟨ea, eb⟩ := List.append_inj' e' (by omega)
    have := encAll_inj _ _ hw w' ea
    subst this; subst eb
    rw [hst, lastSi_eq, List.filter_eq_nil_iff.mpr (by simpa using hno)]
    exact status_is s

/-- **C44**: category 80: the status indicator is that of the status object (the last one,
when there are several). -/
theorem C44_status80 (atr : List Byte) (ts : Byte) (gs : List Link) (info : Info)
    (tlvs : List CompactTlv.Tlv) (v : List Byte) (h : HasChain atr ts gs none)
    (hp : parse atr = .ok (.ok info)) (hw : ∀ t ∈ tlvs, CompactTlv.WF t)
    (hh : historical atr gs = 0x80 :: CompactTlv.encAll tlvs)
    (hv : ((tlvs.filter (fun t => t.tag = 8)).map (·.value)).getLast? = some v) :
    StatusIs v info.stat := by
  obtain ⟨_, _, _, _, pr, hf⟩ := accepted atr ts gs none info h hp
  obtain ⟨⟨hle, hok, _⟩, _, _, _, _, _, _, _, _, _, ⟨si, hsi, hst, _⟩, _⟩ := hf
  simp only [Option.isSome_none] at hle hsi
  have hst' : ((storage atr).drop (1 + (encChain gs false).length)).take (kOf gs) =
      historical atr gs := by
    rw [historical, storage, List.drop_append_of_le_length (by omega),
      List.take_append_of_le_length (by rw [List.length_drop]; omega)]
  rw [hst', hh] at hsi
  rcases hsi with ⟨_, h0, _⟩ | ⟨_, ts', w', e', rfl⟩ | ⟨h0, _⟩
  · exact absurd rfl h0
  · have := encAll_inj _ _ hw w' e'
    subst this
    rw [hst, lastSi_eq, hv]
    exact status_is v
  · exact absurd h0 (by decide)

-- category 00 with one data object and status bytes 05 90 00; category 80 with a status object
example : ∃ info, parse [0x3B, 0x06, 0x00, 0x31, 0xC0, 0x05, 0x90, 0x00] = .ok (.ok info) ∧
    info.hist = some (3, 2) ∧ info.stat = (0x05, 0x90, 0x00) := witness _ (by decide +kernel)

example : ∃ info, parse [0x3B, 0x05, 0x80, 0x31, 0xC0, 0x81, 0x07] = .ok (.ok info) ∧
    info.hist = some (3, 4) ∧ info.stat = (0x07, 0x00, 0x00) := witness _ (by decide +kernel)

/-! ## C45: checksum -/

/-- Some TD announces a protocol other than T=0. -/
def Announces (gs : List Link) : Prop := ∃ l ∈ gs.tail, l.nib ≠ 0

theorem needTck_iff (gs : List Link) : needTck gs none = true ↔ Announces gs := by
  simp [needTck, Announces]

/-- Index of TCK: right after the historical bytes. -/
def tckPos (gs : List Link) : Nat := 1 + (encChain gs false).length + kOf gs

/-- **C45**, partial: an accepted ATR (without TD4) announcing a protocol other than T=0 has a
TCK inside the ATR, right after the historical bytes, which is the reported one, and the
exclusive or of all bytes from T0 to TCK is zero; without such a protocol no TCK is
reported.  Missing: ATRs with a TD4, for which it is false (`C45_td4_unchecked`). -/
theorem C45_tck_partial (atr : List Byte) (ts : Byte) (gs : List Link) (info : Info)
    (h : HasChain atr ts gs none) (hp : parse atr = .ok (.ok info)) :
    (Announces gs → ∃ t, atr[tckPos gs]? = some t ∧ info.tck = some t ∧
      xorAll ((atr.take (tckPos gs + 1)).drop 1) = 0) ∧
    (¬ Announces gs → info.tck = none) := by
  obtain ⟨_, _, _, _, pr, hf⟩ := accepted atr ts gs none info h hp
  obtain ⟨⟨hle, hok, hx⟩, _, _, _, _, _, _, _, _, _, _, ht⟩ := hf
  simp only [Option.isSome_none] at hle hx ht
  rw [needTck_iff] at hx
  change info.tck = if needTck gs none = true then (storage atr)[tckPos gs]? else none at ht
  change Announces gs → tckPos gs < atr.length ∧
    xorAll (((storage atr).drop 1).take (tckPos gs)) = 0 at hx
  constructor
  · intro ha
    obtain ⟨h1, h2⟩ := hx ha
    rw [if_pos ((needTck_iff gs).mpr ha), storage_get _ _ h1, List.getElem?_eq_getElem h1] at ht
    refine ⟨atr[tckPos gs], List.getElem?_eq_getElem h1, ht, ?_⟩
    rw [← h2, ← storage_take _ _ h1, List.drop_take]
    rfl
  · intro ha
    rw [ht, if_neg (mt (needTck_iff gs).mp ha)]

theorem xor_cancel : ∀ a b : Byte, a ^^^ b = 0 → a = b := by
  intro a b h
  exact UInt8.xor_eq_zero_iff.mp h

theorem foldl_xor (l : List Byte) : ∀ a : Byte, l.foldl (· ^^^ ·) a = a ^^^ xorAll l := by
  induction l with
  | nil => intro a; simp [xorAll]
  | cons x l ih =>
    intro a
    have : xorAll (x :: l) = x ^^^ xorAll l := by
      rw [xorAll, List.foldl_cons, ih]; simp
    rw [List.foldl_cons, ih, this, UInt8.xor_assoc]

theorem xorAll_append (a b : List Byte) : xorAll (a ++ b) = xorAll a ^^^ xorAll b := by
  rw [xorAll, List.foldl_append, foldl_xor]; rfl

theorem xorAll_cons (x : Byte) (l : List Byte) : xorAll (x :: l) = x ^^^ xorAll l := by
  rw [show x :: l = [x] ++ l from rfl, xorAll_append]; simp [xorAll]

/-- Replacing one byte keeps the exclusive or only if it is the same byte. -/
theorem xorAll_set (l : List Byte) (p : Nat) (b : Byte) (hp : p < l.length)
    (h : xorAll l = 0) (h' : xorAll (l.set p b) = 0) : b = l[p] := by
  have e1 : l = l.take p ++ l[p] :: l.drop (p + 1) := by simp
  have e2 : l.set p b = l.take p ++ b :: l.drop (p + 1) := by
    rw [List.set_eq_take_append_cons_drop, if_pos hp]
  rw [e2, xorAll_append, xorAll_cons] at h'
  rw [e1, xorAll_append, xorAll_cons] at h
  have hh := h'.trans h.symm
  have h3 := congrArg (xorAll (l.take p) ^^^ ·) hh
  simp only [← UInt8.xor_assoc, UInt8.xor_self, UInt8.zero_xor] at h3
  have h4 := congrArg (· ^^^ xorAll (l.drop (p + 1))) h3
  simpa only [UInt8.xor_assoc, UInt8.xor_self, UInt8.xor_zero] using h4

/-- **C45**, partial: change any single byte from T0 to TCK of an accepted ATR with a checksum;
if the result is accepted too and has its (checked) TCK at the same place, the byte was
replaced by itself.  Missing: ATRs with a TD4, for which it is false (`C45_td4_unchecked`). -/
theorem C45_corruption_partial (atr : List Byte) (ts ts' : Byte) (gs gs' : List Link) (p : Nat) (b : Byte)
    (info info' : Info) (h : HasChain atr ts gs none) (hp : parse atr = .ok (.ok info))
    (h' : HasChain (atr.set p b) ts' gs' none) (hp' : parse (atr.set p b) = .ok (.ok info'))
    (ha : Announces gs) (ha' : Announces gs') (hpos : tckPos gs' = tckPos gs)
    (h1 : 1 ≤ p) (h2 : p ≤ tckPos gs) : atr.set p b = atr := by
  obtain ⟨t, e1, _, e3⟩ := (C45_tck_partial atr ts gs info h hp).1 ha
  obtain ⟨t', e1', _, e3'⟩ := (C45_tck_partial (atr.set p b) ts' gs' info' h' hp').1 ha'
  rw [hpos] at e3'
  have hlt : tckPos gs < atr.length := by
    rcases Nat.lt_or_ge (tckPos gs) atr.length with h | h
    · exact h
    · rw [List.getElem?_eq_none h] at e1; cases e1
  have es : ((atr.set p b).take (tckPos gs + 1)).drop 1 =
      ((atr.take (tckPos gs + 1)).drop 1).set (p - 1) b := by
    rw [List.take_set, List.drop_set, if_neg (by omega)]
  rw [es] at e3'
  have hl : p - 1 < ((atr.take (tckPos gs + 1)).drop 1).length := by
    simp; omega
  have := xorAll_set _ _ _ hl e3 e3'
  have hb : b = atr[p] := by
    rw [this]
    simp [show p - 1 + 1 = p by omega]
  rw [hb, List.set_getElem_self]

/-- **C45** (TD4).  An accepted ATR with a TD4 which announces a protocol other than T=0: the
byte taken for TCK is the one before it (the last historical byte, or TD4 itself when there are
none), and what is checked is the exclusive or from T0 to that byte. -/
theorem C45_td4 (atr : List Byte) (ts : Byte) (gs : List Link) (td : Byte) (info : Info)
    (h : HasChain atr ts gs (some td)) (hp : parse atr = .ok (.ok info))
    (ha : Announces gs ∨ td.toNat % 16 ≠ 0) :
    let tck := 1 + (encChain gs true ++ [td]).length + kOf gs
    ∃ t, atr[tck - 1]? = some t ∧ info.tck = some t ∧ xorAll ((atr.take tck).drop 1) = 0 := by
  obtain ⟨_, _, _, _, pr, hf⟩ := accepted atr ts gs (some td) info h hp
  obtain ⟨⟨hle, hok, hx⟩, _, _, _, _, _, _, _, _, _, _, ht⟩ := hf
  simp only [Option.isSome_some] at hle hx ht
  have hn : needTck gs (some td) = true := by
    have e0 : td &&& 15 = 0 ↔ td.toNat % 16 = 0 := by
      rw [← (nibs td).1]; exact (ff _).1
    simp only [needTck, Announces] at ha ⊢
    simpa [e0] using ha
  obtain ⟨h1, h2⟩ := hx hn
  rw [hn, if_pos rfl, storage_get _ _ h1, List.getElem?_eq_getElem h1] at ht
  intro tck
  have e : tck = 1 + (encChain gs true).length + kOf gs + 1 := by
    show 1 + (encChain gs true ++ [td]).length + kOf gs = _
    rw [List.length_append, List.length_singleton]; omega
  rw [e, Nat.add_sub_cancel]
  refine ⟨_, List.getElem?_eq_getElem h1, ht, ?_⟩
  rw [← h2, ← storage_take _ _ h1, List.drop_take]
  rfl

/-- **C45 is false** for ATRs with a TD4: this one announces T=1 in TD3 and TD4 and is accepted
without any TCK; and whatever follows, as a TCK or anything else, is not checked. -/
theorem C45_td4_unchecked :
    HasChain [0x3B, 0x80, 0x80, 0x80, 0x81, 0x01] 0x3B [⟨0, none, none, none⟩,
      ⟨0, none, none, none⟩, ⟨0, none, none, none⟩, ⟨1, none, none, none⟩] (some 0x01) ∧
    ∀ rest : List Byte, rest.length ≤ 27 →
      ∃ info, parse ([0x3B, 0x80, 0x80, 0x80, 0x81, 0x01] ++ rest) = .ok (.ok info) := by
  refine ⟨⟨by decide, by decide, by decide, by decide, by decide, List.replicate 27 0, by decide⟩, ?_⟩
  intro rest hr
  have hst : ∃ r', storage ([0x3B, 0x80, 0x80, 0x80, 0x81, 0x01] ++ rest) =
      [0x3B, 0x80, 0x80, 0x80, 0x81, 0x01] ++ r' :=
    ⟨rest ++ List.replicate (33 - ([0x3B, 0x80, 0x80, 0x80, 0x81, 0x01] ++ rest).length) 0, by
      rw [storage, List.append_assoc]⟩
  obtain ⟨r', hr'⟩ := hst
  have hc : HasChain ([0x3B, 0x80, 0x80, 0x80, 0x81, 0x01] ++ rest) 0x3B [⟨0, none, none, none⟩,
      ⟨0, none, none, none⟩, ⟨0, none, none, none⟩, ⟨1, none, none, none⟩] (some 0x01) :=
    ⟨by simp, by simp; omega, by decide, by decide, by decide, r', by rw [hr']; rfl⟩
  have hp := parse_post _ _ _ _ hc
  generalize parse _ = x at hp
  match x, hp with
  | .error e, hp => exact absurd hp.2.2.1 (by decide)
  | .ok (.ok info), _ => exact ⟨info, rfl⟩
  | .ok (.error c), hp =>
    refine absurd ⟨Or.inl rfl, ?_, ?_, ?_, ?_⟩ hp
    · refine ⟨?_, ?_, ?_, ?_, ?_, ?_, ?_⟩ <;> simp [ta, tb, tc, tdT, okT, okLink3]
    · simp [encChain, encLink, kOf]
    · exact trivial
    · intro _
      rw [hr']
      exact ⟨by simp [encChain, encLink, kOf], by
        show xorAll [0x80, 0x80, 0x80, 0x81, 0x01] = 0
        decide⟩

/-- An ATR with a TD4 (T=15), one historical byte and the right TCK is refused, because TD4
is taken for the first historical byte: this is why the theorems above exclude TD4. -/
theorem C45_td4_refused :
    let gs : List Link := [⟨1, none, none, none⟩, ⟨0, none, none, none⟩, ⟨0, none, none, none⟩,
      ⟨0, none, none, none⟩, ⟨15, none, none, none⟩]
    let body := encChain gs false ++ [0x55]
    xorAll (body ++ [0x5B]) = 0 ∧ OkHistorical [0x55] ∧ kOf gs = 1 ∧
    parse (0x3B :: (body ++ [0x5B])) = .ok (.error 8) :=
  ⟨by decide +kernel, Or.inl (by decide), rfl, by decide +kernel⟩

-- T=1 ATR with TCK: accepted; with one bit flipped: refused
example : (∃ info, parse [0x3B, 0x80, 0x80, 0x01, 0x01] = .ok (.ok info) ∧ info.tck = some 0x01) ∧
    parse [0x3B, 0x80, 0x80, 0x01, 0x03] = .ok (.error 8) :=
  ⟨witness _ (by decide +kernel), by decide +kernel⟩

/-! ## C46: timing parameters -/

/-- **C46**: transmission factors, guard times and the T=0 waiting time of every accepted
ATR. -/
theorem C46_values (atr : List Byte) (ts : Byte) (gs : List Link) (td : Option Byte)
    (info : Info) (h : HasChain atr ts gs td) (hp : parse atr = .ok (.ok info)) :
    let ta1 := (ta gs 1).getD 0x11
    let n := ((tc gs 1).getD 0x00).toNat
    let wi := ((tc gs 2).getD 0x0A).toNat
    let t := ((tdT gs 1).getD 0).val
    (ta1.toNat % 16, info.par.di) ∈ diTable ∧
    (ta1.toNat / 16, info.par.fi, info.par.fmax10) ∈ fiTable ∧
    info.par.n.toNat = n ∧ info.par.protocol = t ∧ (t = 0 ∨ t = 1) ∧
    (n ≠ 255 → info.gt = 12 + n ∧ info.cgt = 12 + n) ∧
    (n = 255 → info.cgt = 11 ∧ (t = 0 → info.gt = 12) ∧ (t = 1 → info.gt = 11)) ∧
    info.par.wi = wi ∧ info.wt = wi * 960 * info.par.di := by
  obtain ⟨_, hok, hpar, hwt, pr, hf⟩ := accepted atr ts gs td info h hp
  obtain ⟨_, _, _, _, _, hgt, _⟩ := hf
  obtain ⟨_, _, hne, _⟩ := h
  obtain ⟨v1, v2, v3, v4, v5, v6, _⟩ := setAll_values gs hne
  rw [hpar] at hgt hwt ⊢
  have hdi : (((ta gs 1).getD 0x11).toNat % 16, (setAll gs defaults).di) ∈ diTable := by
    rw [v1]
    cases hta : ta gs 1 with
    | none => decide
    | some x =>
      have := (hok.1 x hta).1
      cases hd : diOf x with
      | none => exact absurd this ((diOf_none x).mp hd)
      | some d => simpa [hd] using diOf_some x d hd
  have hfi : (((ta gs 1).getD 0x11).toNat / 16, (setAll gs defaults).fi,
      (setAll gs defaults).fmax10) ∈ fiTable := by
    rw [v2, v3]
    cases hta : ta gs 1 with
    | none => decide
    | some x =>
      have := (hok.1 x hta).2
      cases hd : fiOf x with
      | none => exact absurd this ((fiOf_none x).mp hd)
      | some d => simpa [hd] using fiOf_some x d hd
  have ht : ((tdT gs 1).getD 0).val = 0 ∨ ((tdT gs 1).getD 0).val = 1 := by
    cases htd : tdT gs 1 with
    | none => exact Or.inl rfl
    | some x => rcases hok.2.2.1 x htd with h | h <;> simp [h]
  have hpt : (setAll gs defaults).protocol = ((tdT gs 1).getD 0).val := by
    rw [v5]; cases tdT gs 1 <;> rfl
  have hn : (setAll gs defaults).n = (tc gs 1).getD 0x00 := v4
  have hwi : (setAll gs defaults).wi = ((tc gs 2).getD 0x0A).toNat := by
    rw [v6]; cases tc gs 2 <;> rfl
  have hdib : (setAll gs defaults).di ≤ 64 := by
    have : ∀ x ∈ diTable, x.2 ≤ 64 := by decide
    exact this _ hdi
  refine ⟨hdi, hfi, by rw [hn], hpt, ht, ?_, ?_, hwi, ?_⟩
  · intro hne
    have : (setAll gs defaults).n ≠ 0xFF := by
      intro h; rw [hn] at h; rw [h] at hne; exact hne rfl
    rw [computeGt, if_pos this, hn] at hgt
    exact Prod.mk.inj hgt
  · intro he
    have : ¬ ((setAll gs defaults).n ≠ 0xFF) := by
      rw [hn]; simp only [ne_eq, Classical.not_not]
      exact UInt8.toNat.inj (by rw [he]; rfl)
    simp only [computeGt, if_neg this, Prod.mk.injEq, hpt] at hgt
    refine ⟨hgt.2, ?_, ?_⟩
    · intro h0; rw [hgt.1, h0]; rfl
    · intro h1; rw [hgt.1, h1]; rfl
  · rw [computeWt] at hwt
    split at hwt
    · have hw := (Prod.mk.inj (Except.ok.inj hwt)).1
      rw [← hw, hwi]
      apply Nat.mod_eq_of_lt
      have : ((tc gs 2).getD 0x0A).toNat < 256 := UInt8.toNat_lt _
      calc ((tc gs 2).getD 0x0A).toNat * 960 * (setAll gs defaults).di
          ≤ 255 * 960 * 64 := Nat.mul_le_mul (Nat.mul_le_mul (by omega) (Nat.le_refl _)) hdib
        _ < 2 ^ 32 := by omega
    · cases hwt

/-- **C46** (partial): T=1 waiting times.  Missing: ATRs with several TBi for T=1 (the last
one is used, not the first: `C46_last_used`), and values for which 2^BWI * 960 * 372 * Di
does not fit 32 bits (`C46_bwt_wraps`). -/
theorem C46_t1_partial (atr : List Byte) (ts : Byte) (gs : List Link) (td : Option Byte)
    (info : Info) (h : HasChain atr ts gs td) (hp : parse atr = .ok (.ok info))
    (hfirst : firstT1 gs (·.b) = lastT1 gs (·.b)) :
    let tb3 := ((firstT1 gs (·.b)).getD 0x4D).toNat
    info.par.cwi = tb3 % 16 ∧ info.par.bwi = tb3 / 16 ∧ tb3 / 16 ≤ 9 ∧
    info.cwt = 11 + 2 ^ (tb3 % 16) ∧
    (2 ^ (tb3 / 16) * 960 * 372 * info.par.di < 2 ^ 32 →
      info.bwt = 11 + 2 ^ (tb3 / 16) * 960 * 372 * info.par.di / info.par.fi) := by
  obtain ⟨_, hok, hpar, hwt, pr, hf⟩ := accepted atr ts gs td info h hp
  have hv := C46_values atr ts gs td info h hp
  obtain ⟨_, _, hne, _⟩ := h
  obtain ⟨_, _, _, _, _, _, v7, v8, _⟩ := setAll_values gs hne
  obtain ⟨b1, b2⟩ := setAll_bounds gs td hne hok
  have hfi := hv.2.1
  rw [hpar] at hwt hfi ⊢
  have ec : (setAll gs defaults).cwi = ((firstT1 gs (·.b)).getD 0x4D).toNat % 16 := by
    rw [v7, hfirst]; cases lastT1 gs (·.b) <;> rfl
  have eb : (setAll gs defaults).bwi = ((firstT1 gs (·.b)).getD 0x4D).toNat / 16 := by
    rw [v8, hfirst]; cases lastT1 gs (·.b) <;> rfl
  rw [computeWt] at hwt
  split at hwt
  · obtain ⟨_, hw⟩ := Prod.mk.inj (Except.ok.inj hwt)
    obtain ⟨hc, hb⟩ := Prod.mk.inj hw
    refine ⟨ec, eb, by rw [← eb]; exact b2, ?_, ?_⟩
    · rw [← hc, ec]
      apply Nat.mod_eq_of_lt
      have : 2 ^ (((firstT1 gs (·.b)).getD 0x4D).toNat % 16) ≤ 2 ^ 15 :=
        Nat.pow_le_pow_right (by omega) (by omega)
      omega
    · intro hlt
      rw [← hb, eb, Nat.mod_eq_of_lt hlt]
      apply Nat.mod_eq_of_lt
      have hf1 : ∀ x ∈ fiTable, 372 ≤ x.2.1 := by decide
      have hf2 := hf1 _ hfi
      simp only at hf2
      have : 2 ^ (((firstT1 gs (·.b)).getD 0x4D).toNat / 16) * 960 * 372 * (setAll gs defaults).di /
          (setAll gs defaults).fi ≤
          2 ^ (((firstT1 gs (·.b)).getD 0x4D).toNat / 16) * 960 * 372 * (setAll gs defaults).di /
          372 := Nat.div_le_div_left hf2 (by omega)
      omega
  · cases hwt

/-- With Di = 64 and BWI = 9 the block waiting time comes out wrong: 8366068 instead of
31457291. -/
theorem C46_bwt_wraps :
    ∃ info, parse [0x3B, 0x90, 0x17, 0x81, 0x21, 0x9D, 0xBA] = .ok (.ok info) ∧
      info.par.di = 64 ∧ info.par.fi = 372 ∧ info.par.bwi = 9 ∧
      info.bwt ≠ 11 + 2 ^ 9 * 960 * 372 * 64 / 372 := witness _ (by decide +kernel)

/-- With TB3 and TB4 both for T=1 the parameters of TB4 are used, although only the first
TB for T=1 carries CWI and BWI. -/
theorem C46_last_used :
    let gs : List Link := [⟨0, none, none, none⟩, ⟨1, none, none, none⟩,
      ⟨1, none, some 0x45, none⟩, ⟨1, none, some 0x23, none⟩]
    HasChain [0x3B, 0x80, 0x81, 0xA1, 0x45, 0x21, 0x23, 0xE7] 0x3B gs none ∧
    firstT1 gs (·.b) = some 0x45 ∧
    ∃ info, parse [0x3B, 0x80, 0x81, 0xA1, 0x45, 0x21, 0x23, 0xE7] = .ok (.ok info) ∧
      info.par.cwi = 3 ∧ info.par.bwi = 2 :=
  ⟨⟨by decide, by decide, by decide, by decide, by decide, 0xE7 :: List.replicate 25 0, by decide⟩,
    by decide, witness _ (by decide +kernel)⟩

-- TA1 = 18: Fi 372, Di 12; TC1 = FF with T=0: guard time 12; TC2 = 0A
example : ∃ info, parse [0x3B, 0xD0, 0x18, 0xFF, 0x40, 0x0A] = .ok (.ok info) ∧
    info.par.fi = 372 ∧ info.par.di = 12 ∧ info.gt = 12 ∧ info.wt = 115200 :=
  witness _ (by decide +kernel)

-- T=1 with TB3 = 45
example : ∃ info, parse [0x3B, 0x80, 0x81, 0x21, 0x45, 0x65] = .ok (.ok info) ∧
    info.cwt = 43 ∧ info.bwt = 15371 := witness _ (by decide +kernel)

/-! ## C66: acceptance -/

/-- An ATR the standard's grammar and reserved values allow: TS, a chain of at most four
links, K historical bytes, TCK when a protocol other than T=0 is announced; anything may
follow. -/
def Acceptable (atr : List Byte) : Prop :=
  ∃ (ts : Byte) (gs : List Link) (hist tail : List Byte),
    atr = ts :: (encChain gs false ++ hist ++ tail) ∧ atr.length ≤ 33 ∧ gs ≠ [] ∧
    gs.length ≤ 4 ∧ (ts = 0x3B ∨ ts = 0x3F) ∧ OkChain gs none ∧ hist.length = kOf gs ∧
    OkHistorical hist ∧
    (Announces gs → ∃ t r, tail = t :: r ∧ xorAll (encChain gs false ++ hist ++ [t]) = 0)

/-- The fourth link announces a TD4. -/
def HasTD4 (atr : List Byte) : Prop :=
  ∃ (ts : Byte) (gs : List Link) (r : List Byte), gs.length = 4 ∧ atr = ts :: (encChain gs true ++ r)

/-- **C66**: without TD4, an ATR is accepted exactly when it is acceptable. -/
theorem C66_accept (atr : List Byte) (h4 : ¬ HasTD4 atr) :
    (∃ info, parse atr = .ok (.ok info)) ↔ Acceptable atr := by
  constructor
  · rintro ⟨info, hp⟩
    have hl : ¬ (atr.length < 2 ∨ atr.length > 33) := by
      intro h; rw [parse, if_pos h] at hp; cases hp
    obtain ⟨ts, gs, td, hc⟩ := hasChain_exists atr (by omega) (by omega)
    obtain ⟨hts, hok, _, _, pr, hf⟩ := accepted atr ts gs td info hc hp
    obtain ⟨⟨hle, hh, hx⟩, _⟩ := hf
    obtain ⟨h2, h33, hne, hl4, ht, rest, hb⟩ := hc
    simp only at hle hh hx
    -- the chain lies inside the ATR
    have hin : atr.take (1 + (encChain gs td.isSome).length) = ts :: encChain gs td.isSome := by
      rw [← storage_take atr _ (by omega), hb, Nat.add_comm, List.take_succ_cons, List.take_left]
    have hatr : atr = ts :: (encChain gs td.isSome ++
        atr.drop (1 + (encChain gs td.isSome).length)) := by
      conv => lhs; rw [← List.take_append_drop (1 + (encChain gs td.isSome).length) atr, hin]
      rfl
    cases td with
    | some d => exact absurd ⟨ts, gs, _, ht rfl, hatr⟩ h4
    | none =>
      simp only [Option.isSome_none] at *
      generalize hr : atr.drop (1 + (encChain gs false).length) = r at *
      have hrl : r.length = atr.length - (1 + (encChain gs false).length) := by
        rw [← hr, List.length_drop]
      have hd : (storage atr).drop (1 + (encChain gs false).length) =
          r ++ List.replicate (33 - atr.length) 0 := by
        rw [storage, List.drop_append_of_le_length (by omega), hr]
      refine ⟨ts, gs, r.take (kOf gs), r.drop (kOf gs), ?_, h33, hne, hl4, hts, hok, ?_, ?_, ?_⟩
      · rw [List.append_assoc, List.take_append_drop]; exact hatr
      · rw [List.length_take]; omega
      · rw [hd, List.take_append_of_le_length (by omega)] at hh; exact hh
      · intro ha
        obtain ⟨x1, x2⟩ := hx ((needTck_iff gs).mpr ha)
        have hlt : kOf gs < r.length := by omega
        refine ⟨r[kOf gs], r.drop (kOf gs + 1), List.drop_eq_getElem_cons hlt, ?_⟩
        rw [← x2]
        congr 1
        have hs : (storage atr).drop 1 = encChain gs false ++ (r ++ List.replicate (33 - atr.length) 0) := by
          obtain ⟨z, hz⟩ : ∃ z, z = List.replicate (33 - atr.length) (0 : Byte) := ⟨_, rfl⟩
          rw [storage, ← hz, hatr]
          simp
        have hst : r.take (kOf gs) ++ [r[kOf gs]] = r.take (kOf gs + 1) := by
          rw [List.take_append_getElem]
        rw [hs, List.append_assoc, hst]
        rw [show 1 + (encChain gs false).length + kOf gs =
          (encChain gs false).length + (kOf gs + 1) by omega, List.take_length_add_append,
          List.take_append_of_le_length (by omega)]
  · rintro ⟨ts, gs, hist, tail, hatr, h33, hne, hl4, hts, hok, hlen, hh, hx⟩
    have h2 : 2 ≤ atr.length := by
      rw [hatr]
      match gs, hne with
      | l :: r, _ =>
        obtain ⟨x, tl, hx, _⟩ := encChain_head l r false
        rw [hx]; simp
    have hc : HasChain atr ts gs none := by
      refine ⟨h2, h33, hne, hl4, by simp, hist ++ tail ++ List.replicate (33 - atr.length) 0, ?_⟩
      obtain ⟨z, hz⟩ : ∃ z, z = List.replicate (33 - atr.length) (0 : Byte) := ⟨_, rfl⟩
      rw [storage, ← hz, hatr]
      simp
    have hp := parse_post atr ts gs none hc
    have hd : (storage atr).drop (1 + (encChain gs false).length) =
        hist ++ (tail ++ List.replicate (33 - atr.length) 0) := by
      obtain ⟨z, hz⟩ : ∃ z, z = List.replicate (33 - atr.length) (0 : Byte) := ⟨_, rfl⟩
      rw [storage, ← hz, hatr, Nat.add_comm]
      simp
    have hal : atr.length = 1 + (encChain gs false).length + hist.length + tail.length := by
      conv => lhs; rw [hatr]
      simp; omega
    have hacc : Accept (storage atr) atr.length (1 + (encChain gs false).length) (kOf gs)
        (needTck gs none) := by
      refine ⟨by omega, ?_, ?_⟩
      · rw [hd, ← hlen, List.take_left]; exact hh
      · intro hn
        obtain ⟨t, r, rfl, hxor⟩ := hx ((needTck_iff gs).mp hn)
        refine ⟨by simp at hal; omega, ?_⟩
        rw [← hxor]
        congr 1
        have hs : (storage atr).drop 1 = (encChain gs false ++ hist ++ [t]) ++
            (r ++ List.replicate (33 - atr.length) 0) := by
          obtain ⟨z, hz⟩ : ∃ z, z = List.replicate (33 - atr.length) (0 : Byte) := ⟨_, rfl⟩
          rw [storage, ← hz, hatr]
          simp
        rw [hs]
        apply List.take_left'
        simp; omega
    generalize parse atr = x at hp
    match x, hp with
    | .error e, hp =>
      obtain ⟨_, _, k1, k2, k3⟩ := hp
      simp only [Option.isSome_none] at k3
      match hist, hlen, hh with
      | [], hlen, _ => simp at hlen; omega
      | t1 :: r, hlen, hh =>
        rw [drop_get (by rw [hd]; rfl)] at k3
        cases k3
        rcases hh with ⟨h0, _⟩ | ⟨h0, _⟩ | ⟨_, ts, s, _, hts, hs3, hr⟩
        · exact absurd rfl h0
        · exact absurd h0 (by decide)
        · rw [hr] at hlen
          have : 0 < (CompactTlv.encAll ts).length := by
            cases ts with
            | nil => exact absurd rfl hts
            | cons t ts => simp [CompactTlv.encAll, CompactTlv.enc]
          simp at hlen; omega
    | .ok (.error c), hp => exact absurd ⟨hts, hok, hacc⟩ hp
    | .ok (.ok info), _ => exact ⟨info, rfl⟩

/-- An ATR with category byte 80 and no objects, or category byte 00 and only the status
bytes, is refused. -/
theorem C66_empty_refused : parse [0x3B, 0x01, 0x80] = .ok (.error 5) ∧
    parse [0x3B, 0x04, 0x00, 0x05, 0x90, 0x00] = .ok (.error 5) := by decide +kernel

example : Acceptable [0x3B, 0x82, 0x80, 0x01, 0x41, 0x42, 0x00] :=
  ⟨0x3B, [⟨2, none, none, none⟩, ⟨0, none, none, none⟩, ⟨1, none, none, none⟩], [0x41, 0x42],
    [0x00], by decide, by decide, by decide, by decide, Or.inl rfl,
    ⟨by simp [ta], by simp [tb], by decide, by simp [tb], by simp [tc],
      by simp [okT, okLink3], by simp⟩, rfl, Or.inl (by decide),
    fun _ => ⟨0x00, [], rfl, by decide⟩⟩

end Verif.Atr
