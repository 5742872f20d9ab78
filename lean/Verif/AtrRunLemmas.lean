import Verif.AtrParLemmas

/-! # Lemmas: the part of ATR parsing after the interface bytes, and the whole parse -/

set_option autoImplicit false

namespace Verif.Atr
open Verif AtrSpec

/-! ## Final parameter values -/

/-- The bytes selected by `sel` in links announced for T=1. -/
def t1sel (r : List Link) (sel : Link → Option Byte) : List Byte :=
  r.filterMap (fun l => if l.nib = 1 then sel l else none)

theorem set3_cwi (p : Par) (l : Link) :
    (set3 p l).cwi = (((if l.nib = 1 then l.b else none).map (·.toNat % 16))).getD p.cwi ∧
    (set3 p l).bwi = (((if l.nib = 1 then l.b else none).map (·.toNat / 16))).getD p.bwi ∧
    (set3 p l).ifsi = (((if l.nib = 1 then l.a else none).map (·.toNat))).getD p.ifsi ∧
    (set3 p l).crc =
      (((if l.nib = 1 then l.c else none).map (fun b => decide (b &&& 0x01 ≠ 0)))).getD p.crc ∧
    (set3 p l).di = p.di ∧ (set3 p l).fi = p.fi ∧ (set3 p l).fmax10 = p.fmax10 ∧
    (set3 p l).n = p.n ∧ (set3 p l).wi = p.wi ∧ (set3 p l).protocol = p.protocol := by
  obtain ⟨n, a, b, c⟩ := l
  by_cases h15 : n = 15
  · have h1 : ¬ n = 1 := by rw [h15]; decide
    cases a <;> cases b <;> cases c <;>
      simp [set3, upd, updA3, updB3, updC3, h15]
  · by_cases h1 : n = 1
    · cases a <;> cases b <;> cases c <;> simp [set3, upd, updA3, updB3, updC3, h1]
    · cases a <;> cases b <;> cases c <;> simp [set3, upd, updA3, updB3, updC3, h1, h15]

/-- A member of the parameters that every later set overwrites with `g` of its byte. -/
theorem fold_last {β : Type} (sel : Link → Option Byte) (g : Byte → β) (get : Par → β)
    (h : ∀ p l, get (set3 p l) = (((if l.nib = 1 then sel l else none).map g)).getD (get p)) :
    ∀ (r : List Link) (p : Par),
      get (r.foldl set3 p) = ((t1sel r sel).getLast?.map g).getD (get p) := by
  intro r
  induction r with
  | nil => intro p; rfl
  | cons l r ih =>
    intro p
    rw [List.foldl_cons, ih, h]
    have e : t1sel (l :: r) sel = (match (if l.nib = 1 then sel l else none) with
        | none => t1sel r sel
        | some b => b :: t1sel r sel) := by
      rw [t1sel, List.filterMap_cons]
      cases (if l.nib = 1 then sel l else none) <;> rfl
    rw [e]
    cases (if l.nib = 1 then sel l else none) with
    | none => rfl
    | some x =>
      simp only [List.getLast?_cons, Option.map_some, Option.getD_some]
      cases (t1sel r sel).getLast? <;> rfl

theorem fold_const {β : Type} (get : Par → β) (h : ∀ p l, get (set3 p l) = get p) :
    ∀ (r : List Link) (p : Par), get (r.foldl set3 p) = get p := by
  intro r
  induction r with
  | nil => intro p; rfl
  | cons l r ih => intro p; rw [List.foldl_cons, ih, h]

theorem set2_same (l : Link) (p : Par) : (set2 l p).di = p.di ∧ (set2 l p).fi = p.fi ∧
    (set2 l p).fmax10 = p.fmax10 ∧ (set2 l p).n = p.n ∧ (set2 l p).protocol = p.protocol ∧
    (set2 l p).cwi = p.cwi ∧ (set2 l p).bwi = p.bwi ∧ (set2 l p).ifsi = p.ifsi ∧
    (set2 l p).crc = p.crc ∧ (set2 l p).wi = (l.c.map (·.toNat)).getD p.wi := by
  obtain ⟨n, a, b, c⟩ := l
  cases a <;> cases b <;> cases c <;> simp [set2, upd]

theorem set1_same (l : Link) (p : Par) : (set1 l p).protocol = p.protocol ∧
    (set1 l p).cwi = p.cwi ∧ (set1 l p).bwi = p.bwi ∧ (set1 l p).ifsi = p.ifsi ∧
    (set1 l p).crc = p.crc ∧ (set1 l p).wi = p.wi ∧
    (set1 l p).n = l.c.getD p.n ∧
    (set1 l p).di = (l.a.map (fun b => (diOf b).getD 0)).getD p.di ∧
    (set1 l p).fi = (l.a.map (fun b => ((fiOf b).getD (0, 0)).1)).getD p.fi ∧
    (set1 l p).fmax10 = (l.a.map (fun b => ((fiOf b).getD (0, 0)).2)).getD p.fmax10 := by
  obtain ⟨n, a, b, c⟩ := l
  cases b with
  | none => cases a <;> cases c <;> simp [set1, upd]
  | some b => by_cases hb : b = 0 <;> cases a <;> cases c <;> simp [set1, upd, updB1, hb]

/-- All parameter values of an accepted chain, in terms of the chain. -/
theorem setAll_values (gs : List Link) (hne : gs ≠ []) :
    let p := setAll gs defaults
    p.di = ((ta gs 1).map (fun b => (diOf b).getD 0)).getD 1 ∧
    p.fi = ((ta gs 1).map (fun b => ((fiOf b).getD (0, 0)).1)).getD 372 ∧
    p.fmax10 = ((ta gs 1).map (fun b => ((fiOf b).getD (0, 0)).2)).getD 50 ∧
    p.n = (tc gs 1).getD 0 ∧
    p.protocol = ((tdT gs 1).map (·.val)).getD 0 ∧
    p.wi = ((tc gs 2).map (·.toNat)).getD 10 ∧
    p.cwi = ((lastT1 gs (·.b)).map (·.toNat % 16)).getD 13 ∧
    p.bwi = ((lastT1 gs (·.b)).map (·.toNat / 16)).getD 4 ∧
    p.ifsi = ((lastT1 gs (·.a)).map (·.toNat)).getD 32 ∧
    p.crc = ((lastT1 gs (·.c)).map (fun b => decide (b &&& 0x01 ≠ 0))).getD false := by
  match gs, hne with
  | [l], _ =>
    obtain ⟨h1, h2, h3, h4, h5, h6, h7, h8, h9, h10⟩ := set1_same l defaults
    simp only [setAll, ta, tc, tdT, lastT1, h1, h2, h3, h4, h5, h6, h7, h8, h9, h10]
    simp [defaults]
  | l :: l' :: r, _ =>
    obtain ⟨h1, h2, h3, h4, h5, h6, h7, h8, h9, h10⟩ := set1_same l defaults
    obtain ⟨q, hq⟩ : ∃ q, q = { set1 l defaults with protocol := l'.nib.val } := ⟨_, rfl⟩
    have q1 : q.di = (set1 l defaults).di := by rw [hq]
    have q2 : q.fi = (set1 l defaults).fi := by rw [hq]
    have q3 : q.fmax10 = (set1 l defaults).fmax10 := by rw [hq]
    have q4 : q.n = (set1 l defaults).n := by rw [hq]
    have q5 : q.protocol = l'.nib.val := by rw [hq]
    have q6 : q.cwi = (set1 l defaults).cwi := by rw [hq]
    have q7 : q.bwi = (set1 l defaults).bwi := by rw [hq]
    have q8 : q.ifsi = (set1 l defaults).ifsi := by rw [hq]
    have q9 : q.crc = (set1 l defaults).crc := by rw [hq]
    have q10 : q.wi = (set1 l defaults).wi := by rw [hq]
    obtain ⟨i1, i2, i3, i4, i5, i6, i7, i8, i9, i10⟩ :=
      set2_same l' q
    have eC := fold_last (·.b) (·.toNat % 16) (·.cwi) (fun p l => (set3_cwi p l).1) r
      (set2 l' q)
    have eB := fold_last (·.b) (·.toNat / 16) (·.bwi) (fun p l => (set3_cwi p l).2.1) r
      (set2 l' q)
    have eI := fold_last (·.a) (·.toNat) (·.ifsi) (fun p l => (set3_cwi p l).2.2.1) r
      (set2 l' q)
    have eR := fold_last (·.c) (fun b => decide (b &&& 0x01 ≠ 0)) (·.crc)
      (fun p l => (set3_cwi p l).2.2.2.1) r
      (set2 l' q)
    have k1 := fold_const (·.di) (fun p l => (set3_cwi p l).2.2.2.2.1) r
      (set2 l' q)
    have k2 := fold_const (·.fi) (fun p l => (set3_cwi p l).2.2.2.2.2.1) r
      (set2 l' q)
    have k3 := fold_const (·.fmax10) (fun p l => (set3_cwi p l).2.2.2.2.2.2.1) r
      (set2 l' q)
    have k4 := fold_const (·.n) (fun p l => (set3_cwi p l).2.2.2.2.2.2.2.1) r
      (set2 l' q)
    have k5 := fold_const (·.wi) (fun p l => (set3_cwi p l).2.2.2.2.2.2.2.2.1) r
      (set2 l' q)
    have k6 := fold_const (·.protocol) (fun p l => (set3_cwi p l).2.2.2.2.2.2.2.2.2) r
      (set2 l' q)
    have es : setAll (l :: l' :: r) defaults = r.foldl set3 (set2 l' q) := by rw [hq]; rfl
    rw [es]
    simp only [eC, eB, eI, eR, k1, k2, k3, k4, k5, k6, i1, i2, i3, i4, i5, i6, i7, i8,
      i9, i10, q1, q2, q3, q4, q5, q6, q7, q8, q9, q10, h2, h3, h4, h5, h6, h7, h8, h9, h10,
      ta, tc, tdT, lastT1, t1sel]
    simp [defaults]

/-- CWI is at most 15 and, in an accepted chain, BWI at most 9. -/
theorem setAll_bounds (gs : List Link) (td : Option Byte) (hne : gs ≠ []) (h : OkChain gs td) :
    (setAll gs defaults).cwi ≤ 15 ∧ (setAll gs defaults).bwi ≤ 9 := by
  obtain ⟨_, _, _, _, _, _, h7, h8, _, _⟩ := setAll_values gs hne
  rw [h7, h8]
  cases hl : lastT1 gs (·.b) with
  | none => simp
  | some x =>
    have hm := List.mem_of_getLast? hl
    obtain ⟨l, hl1, hl2⟩ := List.mem_filterMap.mp hm
    have := (h.2.2.2.2.2.1 l hl1).2.2
    by_cases hn : l.nib = 1
    · rw [if_pos hn] at hl2
      have := (this hn).2 x hl2
      simp only [Option.map_some, Option.getD_some]
      omega
    · rw [if_neg hn] at hl2; cases hl2

/-! ## Historical bytes -/

theorem parseHistorical_ok (h : List Byte) (si : Option (List Byte)) :
    (∃ ts, (∀ t ∈ ts, CompactTlv.WF t) ∧ ts ≠ [] ∧ h = CompactTlv.encAll ts ∧
      parseHistorical h si = .ok (.ok (lastSi si ts))) ∨
    ((¬ ∃ ts, (∀ t ∈ ts, CompactTlv.WF t) ∧ ts ≠ [] ∧ h = CompactTlv.encAll ts) ∧
      ∃ c, parseHistorical h si = .ok (.error c)) := by
  by_cases hex : ∃ ts, (∀ t ∈ ts, CompactTlv.WF t) ∧ ts ≠ [] ∧ h = CompactTlv.encAll ts
  · obtain ⟨ts, h1, h2, rfl⟩ := hex
    refine Or.inl ⟨ts, h1, h2, rfl, ?_⟩
    simp only [parseHistorical, CompactTlv.C48_roundtrip ts h1 h2, bind_ok]
    rfl
  · refine Or.inr ⟨hex, ?_⟩
    by_cases hh : h = []
    · subst hh
      exact ⟨24, rfl⟩
    · obtain ⟨ts, rest, c, h1, h2, h3, h4⟩ := CompactTlv.C48_any h hh
      rcases h4 with ⟨hr, hc⟩ | ⟨hr, hc, _⟩
      · subst hr
        rw [List.append_nil] at h2
        refine absurd ⟨ts, h1, ?_, h2⟩ hex
        intro e; subst e; exact hh h2
      · refine ⟨25, ?_⟩
        subst hc
        simp only [parseHistorical, h3, bind_ok]
        rfl

theorem slice_drop {buf : List Byte} {i n : Nat} {a r : List Byte} (h : buf.drop i = a ++ r)
    (hn : a.length = n) (hi : i ≤ buf.length) : slice buf i n = .ok a := by
  have hl : (buf.drop i).length = a.length + r.length := by rw [h, List.length_append]
  rw [List.length_drop] at hl
  rw [slice_eq (by omega), h, ← hn, List.take_left]

/-- Outcome of the historical byte block on bytes `t1 :: r`. -/
def HistPost (idx : Nat) (t1 : Byte) (r : List Byte) :
    C (Except Nat (Byte × (Nat × Nat) × Option (List Byte))) → Prop
  | .error e => e = .oobRead ∧ t1 = 0 ∧ r.length < 3
  | .ok (.error c) => c = 5 ∧ ¬ OkHistorical (t1 :: r)
  | .ok (.ok (t, (o, n), si)) => OkHistorical (t1 :: r) ∧ t = t1 ∧ o = idx + 1 ∧
      ((t1 ≠ 0 ∧ t1 ≠ 0x80 ∧ n = r.length ∧ si = none) ∨
       (t1 = 0x80 ∧ n = r.length ∧ ∃ ts, (∀ t ∈ ts, CompactTlv.WF t) ∧
          r = CompactTlv.encAll ts ∧ si = lastSi none ts) ∨
       (t1 = 0 ∧ n + 3 = r.length ∧ ∃ ts s, (∀ t ∈ ts, CompactTlv.WF t) ∧ s.length = 3 ∧
          r = CompactTlv.encAll ts ++ s ∧ si = lastSi (some s) ts))

theorem histBlock_post (buf : List Byte) (idx k : Nat) (t1 : Byte) (r rest : List Byte)
    (h : buf.drop idx = t1 :: (r ++ rest)) (hk : r.length + 1 = k) :
    HistPost idx t1 r (histBlock buf idx k) := by
  obtain ⟨h1, h2⟩ := rd_drop h
  have hlen : idx + 1 ≤ buf.length := by
    have : (buf.drop idx).length = (t1 :: (r ++ rest)).length := by rw [h]
    simp at this; omega
  have hk' : k - 1 = r.length := by omega
  simp only [histBlock, h1, bind_ok, hk']
  by_cases c0 : t1 = 0
  · rw [if_pos c0]
    by_cases c3 : r.length < 3
    · rw [if_pos c3]; exact ⟨rfl, c0, c3⟩
    · rw [if_neg c3]
      have hs : r = r.take (r.length - 3) ++ r.drop (r.length - 3) := (List.take_append_drop _ _).symm
      have hsl : (r.drop (r.length - 3)).length = 3 := by simp; omega
      have htl : (r.take (r.length - 3)).length = r.length - 3 := by simp
      generalize r.take (r.length - 3) = a at *
      generalize hb : r.drop (r.length - 3) = b at *
      generalize hn : r.length - 3 = n at *
      have e1 : slice buf (idx + 1 + n) 3 = .ok b := by
        refine slice_drop (r := rest) ?_ hsl ?_
        · rw [← List.drop_drop, h2, hs, ← htl, List.append_assoc, List.drop_left]
        · have : (buf.drop (idx + 1)).length = (r ++ rest).length := by rw [h2]
          simp at this; omega
      have e2 : slice buf (idx + 1) n = .ok a := by
        refine slice_drop (r := b ++ rest) ?_ htl hlen
        rw [h2, hs, List.append_assoc]
      simp only [e1, e2, bind_ok]
      rcases parseHistorical_ok a (some b) with ⟨ts, w1, w2, w3, w4⟩ | ⟨w1, c, w2⟩
      · rw [w4]
        refine ⟨Or.inr (Or.inr ⟨c0, ts, b, w1, w2, hsl, by rw [hs, w3]⟩), rfl, rfl,
          Or.inr (Or.inr ⟨c0, by omega, ts, b, w1, hsl, by rw [hs, w3], rfl⟩)⟩
      · rw [w2]
        refine ⟨rfl, ?_⟩
        rintro (⟨h, _⟩ | ⟨h, _⟩ | ⟨_, ts, s, v1, v2, v3, v4⟩)
        · exact h c0
        · rw [c0] at h; cases h
        · refine w1 ⟨ts, v1, v2, ?_⟩
          rw [hs] at v4
          exact List.append_inj_left' v4 (by omega)
  · rw [if_neg c0]
    by_cases c8 : t1 = 0x80
    · rw [if_pos c8]
      have e1 : slice buf (idx + 1) r.length = .ok r := slice_drop h2 rfl hlen
      simp only [e1, bind_ok]
      rcases parseHistorical_ok r none with ⟨ts, w1, w2, w3, w4⟩ | ⟨w1, c, w2⟩
      · rw [w4]
        exact ⟨Or.inr (Or.inl ⟨c8, ts, w1, w2, w3⟩), rfl, rfl,
          Or.inr (Or.inl ⟨c8, rfl, ts, w1, w3, rfl⟩)⟩
      · rw [w2]
        refine ⟨rfl, ?_⟩
        rintro (⟨_, h⟩ | ⟨_, h⟩ | ⟨h, _⟩)
        · exact h c8
        · exact w1 h
        · exact c0 h
    · rw [if_neg c8]
      exact ⟨Or.inl ⟨c0, c8⟩, rfl, rfl, Or.inl ⟨c0, c8, rfl, rfl⟩⟩

/-! ## Checksum -/

theorem xorFrom_eq (buf : List Byte) (i : Nat) : ∀ (n : Nat), i + n ≤ buf.length →
    xorFrom buf i n = .ok (xorAll ((buf.drop i).take n)) := by
  intro n
  induction n with
  | zero => intro _; rfl
  | succ n ih =>
    intro h
    have hlt : n < (buf.drop i).length := by rw [List.length_drop]; omega
    rw [xorFrom, ih (by omega), bind_ok, rd_eq (by omega), bind_ok]
    rw [List.take_succ_eq_append_getElem hlt, xorAll, xorAll, List.foldl_append]
    simp

/-! ## After the loop -/

/-- Status indicator bytes reported for historical bytes `h`. -/
def siOf (h : List Byte) (si : Option (List Byte)) : Prop :=
  match h with
  | [] => si = none
  | t1 :: r =>
    (t1 ≠ 0 ∧ t1 ≠ 0x80 ∧ si = none) ∨
    (t1 = 0x80 ∧ ∃ ts, (∀ t ∈ ts, CompactTlv.WF t) ∧ r = CompactTlv.encAll ts ∧
      si = lastSi none ts) ∨
    (t1 = 0 ∧ ∃ ts s, (∀ t ∈ ts, CompactTlv.WF t) ∧ s.length = 3 ∧
      r = CompactTlv.encAll ts ++ s ∧ si = lastSi (some s) ts)

/-- What the code requires of the bytes after the interface bytes. -/
def Accept (buf : List Byte) (len idx k : Nat) (tck : Bool) : Prop :=
  idx + k ≤ len ∧ OkHistorical ((buf.drop idx).take k) ∧
  (tck = true → idx + k < len ∧ xorAll ((buf.drop 1).take (idx + k)) = 0)

/-- Outcome of everything after the loop. -/
def FinPost (buf : List Byte) (len k : Nat) (st : St) (gts : Nat × Nat) (wts : Nat × Nat × Nat) :
    C (Except Nat Info) → Prop
  | .error e => e = .oobRead ∧ st.idx + k ≤ len ∧ 0 < k ∧ k < 4 ∧ buf[st.idx]? = some 0
  | .ok (.error _) => ¬ Accept buf len st.idx k st.tck
  | .ok (.ok info) => Accept buf len st.idx k st.tck ∧ info.buf = buf ∧ info.len = len ∧
      info.ptrs = st.ptrs ∧ info.par = st.par ∧ (info.gt, info.cgt) = gts ∧
      (info.wt, info.cwt, info.bwt) = wts ∧ info.k = k ∧
      (k = 0 → info.hist = none ∧ info.t1 = 0) ∧
      (0 < k → buf[st.idx]? = some info.t1 ∧
        info.hist = some (st.idx + 1, if info.t1 = 0 then k - 4 else k - 1) ∧
        (info.t1 = 0 → 4 ≤ k)) ∧
      (∃ si, siOf ((buf.drop st.idx).take k) si ∧ info.stat = status si ∧ info.si = si) ∧
      info.tck = (if st.tck then buf[st.idx + k]? else none)

theorem finish_post (buf : List Byte) (len k : Nat) (st : St) (wts : Nat × Nat × Nat)
    (hlen : len ≤ buf.length) (hidx : 1 ≤ st.idx)
    (hw : computeWt st.par = .ok wts) :
    FinPost buf len k st (computeGt st.par 0) wts (finish buf len k st) := by
  obtain ⟨idx, pr, tck, par, ptrs⟩ := st
  obtain ⟨w1, w2, w3⟩ := wts
  simp only at hidx hw
  simp only [finish, hw, bind_ok]
  by_cases c1 : idx > len
  · rw [if_pos c1]
    rintro ⟨h, _⟩; simp only at h; omega
  rw [if_neg c1]
  by_cases c2 : idx + k > len
  · rw [if_pos c2]
    rintro ⟨h, _⟩; simp only at h; omega
  rw [if_neg c2]
  -- checksum part
  have htck : ∀ (t1 : Byte) (h : Option (Nat × Nat)) (si : Option (List Byte)),
      OkHistorical ((buf.drop idx).take k) → siOf ((buf.drop idx).take k) si →
      (k = 0 → h = none ∧ t1 = 0) →
      (0 < k → buf[idx]? = some t1 ∧ h = some (idx + 1, if t1 = 0 then k - 4 else k - 1) ∧
        (t1 = 0 → 4 ≤ k)) →
      FinPost buf len k ⟨idx, pr, tck, par, ptrs⟩ (computeGt par 0) (w1, w2, w3)
        (if idx + k > len then .ok (.error 6)
         else andThen (tckBlock buf len (idx + k) tck) fun tck =>
            .ok (.ok { buf := buf, len := len, ptrs := ptrs, par := par,
                       gt := (computeGt par 0).1, cgt := (computeGt par 0).2, wt := w1,
                       cwt := w2, bwt := w3, k := k, t1 := t1,
                       hist := h, si := si, stat := status si, tck := tck })) := by
    intro t1 h si hok hsi h0 hpos
    rw [if_neg c2]
    cases tck with
    | false =>
      exact ⟨⟨Nat.not_lt.mp c2, hok, fun h => by cases h⟩, rfl, rfl, rfl, rfl, rfl, rfl, rfl, h0, hpos,
        ⟨si, hsi, rfl, rfl⟩, rfl⟩
    | true =>
      simp only [tckBlock, if_true]
      by_cases c3 : idx + k ≥ len
      · rw [if_pos c3]
        rintro ⟨_, _, h⟩
        have := (h rfl).1
        simp only at this; omega
      · rw [if_neg c3]
        have hr : rd buf (idx + k) = .ok buf[idx + k] := rd_eq (by omega)
        simp only [hr, bind_ok, xorFrom_eq buf 1 (idx + k) (by omega)]
        by_cases c4 : xorAll ((buf.drop 1).take (idx + k)) = 0
        · rw [if_neg (by simpa using c4)]
          refine ⟨⟨Nat.not_lt.mp c2, hok, fun _ => ⟨Nat.not_le.mp c3, c4⟩⟩, rfl, rfl, rfl, rfl, rfl,
            rfl, rfl, h0, hpos, ⟨si, hsi, rfl, rfl⟩, ?_⟩
          have : idx + k < buf.length := by omega
          simp [this]
        · rw [if_pos (by simpa using c4)]
          rintro ⟨_, _, h⟩
          exact c4 (h rfl).2
  by_cases ck : k = 0
  · rw [if_neg (by simpa using ck)]
    simp only [andThen_ok]
    have := htck 0 none none (by rw [ck]; trivial) (by rw [ck]; rfl) (fun _ => ⟨rfl, rfl⟩)
      (fun h => by omega)
    rw [ck] at this ⊢
    exact this
  · rw [if_pos ck]
    have hlt : idx < buf.length := by omega
    have hd : buf.drop idx = buf[idx] :: buf.drop (idx + 1) := List.drop_eq_getElem_cons hlt
    have hk1 : ((buf.drop (idx + 1)).take (k - 1)).length + 1 = k := by
      simp; omega
    have hp := histBlock_post buf idx k buf[idx] ((buf.drop (idx + 1)).take (k - 1))
      ((buf.drop (idx + 1)).drop (k - 1)) (by rw [List.take_append_drop]; exact hd) hk1
    have hh : (buf.drop idx).take k =
        buf[idx] :: (buf.drop (idx + 1)).take (k - 1) := by
      rw [hd]
      obtain ⟨k', rfl⟩ : ∃ k', k = k' + 1 := ⟨k - 1, by omega⟩
      rfl
    have hlen' : ((buf.drop (idx + 1)).take (k - 1)).length = k - 1 := by omega
    generalize hx : histBlock buf idx k = x at hp
    match x, hp with
    | .error e, hp =>
      simp only [andThen_ub]
      obtain ⟨p1, p2, p3⟩ := hp
      refine ⟨p1, by simp only; omega, by omega, by omega, ?_⟩
      simp [hlt, p2]
    | .ok (.error c), hp =>
      simp only [andThen_code]
      rintro ⟨_, h, _⟩
      simp only [hh] at h
      exact hp.2 h
    | .ok (.ok (t, (o, n), si)), hp =>
      obtain ⟨p1, p2, p3, p4⟩ := hp
      simp only [andThen_ok]
      refine htck t (some (o, n)) si (by rw [hh]; exact p1) ?_ (fun h => absurd h ck) ?_
      · rw [hh]
        rcases p4 with ⟨a, b, _, d⟩ | ⟨a, _, b⟩ | ⟨a, _, b⟩
        · exact Or.inl ⟨a, b, d⟩
        · exact Or.inr (Or.inl ⟨a, b⟩)
        · exact Or.inr (Or.inr ⟨a, b⟩)
      · intro _
        refine ⟨by simp [hlt, p2], ?_, ?_⟩
        · rw [p3, p2]
          rcases p4 with ⟨a, _, b, _⟩ | ⟨a, b, _⟩ | ⟨a, b, _⟩
          · rw [if_neg a, b, hlen']
          · rw [if_neg (by rw [a]; decide), b, hlen']
          · rw [if_pos a]
            have : n = k - 4 := by omega
            rw [this]
        · intro h0
          rw [p2] at h0
          rcases p4 with ⟨a, _⟩ | ⟨a, _⟩ | ⟨_, b, _⟩
          · exact absurd h0 a
          · rw [a] at h0; exact absurd h0 (by decide)
          · omega

/-! ## The whole parse -/

/-- `parse` on storage that starts with an encoded chain. -/
theorem parse_shape (atr : List Byte) (ts : Byte) (gs : List Link) (td : Option Byte)
    (rest : List Byte) (h2 : 2 ≤ atr.length) (h33 : atr.length ≤ 33) (hne : gs ≠ [])
    (h4 : gs.length ≤ 4) (ht : td.isSome → gs.length = 4)
    (hb : atr ++ List.replicate (33 - atr.length) 0 =
      ts :: (encChain gs td.isSome ++ (td.toList ++ rest))) :
    ∃ proto', parse atr =
      if ts ≠ 0x3B ∧ ts ≠ 0x3F then .ok (.error 2)
      else match pchain 1 0 gs td defaults with
        | .error e => .ok (.error e)
        | .ok p => finish (atr ++ List.replicate (33 - atr.length) 0) atr.length (kOf gs)
          { idx := 1 + (encChain gs td.isSome).length, protocol := proto',
            tck := needTck gs td, par := p, ptrs := ptrsOf 1 gs td.isSome } := by
  match atr, h2 with
  | a0 :: a1 :: atr, _ =>
    generalize hbuf : (a0 :: a1 :: atr) ++ List.replicate (33 - (a0 :: a1 :: atr).length) 0 = buf at *
    have e0 : a0 = ts := by
      have := hbuf.trans hb; simp at this; exact this.1
    have e1 : (a1 &&& 0x0F).toNat = kOf gs := by
      match gs, hne with
      | l :: r, _ =>
        obtain ⟨x, tl, hx, hn⟩ := encChain_head l r td.isSome
        have := hbuf.trans hb
        rw [hx] at this
        simp at this
        rw [this.2.1, hn]; rfl
    obtain ⟨pr, hpr⟩ := loop_chain buf td rest gs 4 1
      { idx := 1, protocol := 0, tck := false, par := defaults, ptrs := [] } hne h4 ht
      (by rw [hb]; rfl)
    refine ⟨pr, ?_⟩
    rw [parse, if_neg (by omega)]
    simp only [rd_cons_zero, rd_cons_succ, bind_ok, hbuf]
    rw [e0, hpr, e1]
    split
    · rfl
    · simp only [Bool.false_or, List.nil_append]
      cases pchain 1 0 gs td defaults <;> rfl

end Verif.Atr
