import Verif.PrintCardLemmas

/-! # Properties of the listings of an ATR: C94 and C95 -/

set_option autoImplicit false

namespace Verif.PrintCard
open Verif Atr AtrSpec AtrStr IsoStr Lists Formats PrintCardSpec Bits

/-! ## Lemmas -/

theorem storage_split (atr : List Byte) (gs : List Link) (k : Nat)
    (hle : 1 + (encChain gs false).length + k ≤ atr.length) :
    ((storage atr).drop (1 + (encChain gs false).length)).take k =
      (atr.drop (1 + (encChain gs false).length)).take k := by
  rw [storage, List.drop_append_of_le_length (by omega),
    List.take_append_of_le_length (by rw [List.length_drop]; omega)]

theorem status_parts (v : List Byte) : status (some v) = statusParts v := by
  match v with
  | [] => rfl
  | [_] => rfl
  | [_, _] => rfl
  | [_, _, _] => rfl
  | _ :: _ :: _ :: _ :: _ => rfl

/-- What an accepted ATR with historical bytes `h` leaves behind. -/
theorem hist_facts (atr : List Byte) (ts : Byte) (gs : List Link) (info : Info) (h : Hist)
    (hc : HasChain atr ts gs none) (hp : parse atr = .ok (.ok info)) (hw : h.WF)
    (hh : historical atr gs = h.enc) :
    info.k = h.enc.length ∧ info.si = h.status ∧ info.stat = status h.status ∧
    info.buf.length = 33 ∧ info.len = atr.length ∧ info.buf.take atr.length = atr ∧
    (∀ t1 r, h.enc = t1 :: r → info.t1 = t1 ∧ ∃ o rest,
      info.hist = some (o, if t1 = 0 then r.length - 3 else r.length) ∧
      o + r.length ≤ 32 ∧ info.buf.drop o = r ++ rest ∧ (t1 = 0 → 3 ≤ r.length)) := by
  obtain ⟨_, _, _, _, pr, hf⟩ := accepted atr ts gs none info hc hp
  obtain ⟨⟨hle, hok, htck⟩, hbuf, hlen, _, _, _, _, hk, hk0, hkp, ⟨si, hsi, hst, hsi'⟩, _⟩ := hf
  simp only [Option.isSome_none] at hle hok hsi hkp
  have hhl : h.enc.length = kOf gs := by
    rw [← hh, historical, List.length_take, List.length_drop]; omega
  have h33 := hc.2.1
  have hsl : (storage atr).length = 33 := by simp [storage]; omega
  rw [storage_split atr gs _ hle] at hsi hok
  change siOf (historical atr gs) si at hsi
  rw [hh] at hsi
  have hse : si = h.status := by
    match h, hw with
    | .none, _ => exact hsi
    | .free t1 r, ⟨n0, n8⟩ =>
      rcases hsi with ⟨_, _, h⟩ | ⟨h, _⟩ | ⟨h, _⟩
      · exact h
      · exact absurd h n8
      · exact absurd h n0
    | .objects ts, ⟨_, w⟩ =>
      rcases hsi with ⟨_, h, _⟩ | ⟨_, ts', w', e, h⟩ | ⟨h, _⟩
      · exact absurd rfl h
      · rw [h, lastSi_eq, encAll_inj _ _ w w' e]
        simp [Hist.status]
      · exact absurd h (by decide)
    | .withStatus ts s, ⟨_, w, l⟩ =>
      rcases hsi with ⟨h, _⟩ | ⟨h, _⟩ | ⟨_, ts', s', w', l', e, h⟩
      · exact absurd rfl h
      · exact absurd h (by decide)
      · obtain ⟨ea, eb⟩ := List.append_inj' e (by omega)
        rw [h, lastSi_eq, encAll_inj _ _ w w' ea, eb]
        rfl
  refine ⟨by rw [hk, hhl], by rw [hsi', hse], by rw [hst, hse], by rw [hbuf, hsl], hlen, ?_, ?_⟩
  · rw [hbuf, storage_take atr _ (Nat.le_refl _), List.take_length]
  · intro t1 r he
    have hrl : r.length + 1 = kOf gs := by rw [← hhl, he]; rfl
    obtain ⟨ht, hhist, h4⟩ := hkp (by omega)
    have hd : ∃ rest, (storage atr).drop (1 + (encChain gs false).length) = t1 :: (r ++ rest) := by
      refine ⟨((storage atr).drop (1 + (encChain gs false).length)).drop (kOf gs), ?_⟩
      have := List.take_append_drop (kOf gs) ((storage atr).drop (1 + (encChain gs false).length))
      rw [storage_split atr gs _ hle] at this
      change historical atr gs ++ _ = _ at this
      rw [hh, he] at this
      exact this.symm
    obtain ⟨rest, hd⟩ := hd
    have ht1 : info.t1 = t1 := by
      rw [← List.head?_drop, hd] at ht
      exact (Option.some.inj ht).symm
    rw [ht1] at hhist h4
    have hgl : gs.length ≤ 4 := hc.2.2.2.1
    have hcl : ∀ gs : List Link, (encChain gs false).length ≤ 4 * gs.length := by
      have h1 : ∀ (l : Link) (m : Bool), (encLink l m).length ≤ 4 := by
        intro l m
        obtain ⟨n, a, b, c⟩ := l
        cases a <;> cases b <;> cases c <;> simp [encLink]
      intro gs
      induction gs with
      | nil => simp [encChain]
      | cons l r ih =>
        cases r with
        | nil => exact h1 l false
        | cons l' r =>
          rw [encChain, List.length_append]
          have := h1 l true
          simp only [List.length_cons] at ih ⊢
          omega
    have hk15 : kOf gs ≤ 15 := by
      cases gs with
      | nil => simp [kOf]
      | cons l r => have := l.nib.isLt; simp only [kOf]; omega
    have := hcl gs
    refine ⟨ht1, 1 + (encChain gs false).length + 1, rest, ?_, by omega, ?_, ?_⟩
    · rw [hhist]
      congr 2
      by_cases h0 : t1 = 0
      · rw [if_pos h0, if_pos h0]; omega
      · rw [if_neg h0, if_neg h0]; omega
    · rw [hbuf, ← List.drop_drop, hd]; rfl
    · intro h0; have := h4 h0; omega

theorem lcs_eq (b : Byte) : lcsString b = lcsWords b := by
  have h : ∀ b : Byte, lcsString b = lcsWords b := by decide +kernel
  exact h b

theorem short_lookup (n : Nat) : ∀ l : List (Nat × List Byte), (∀ x ∈ l, Short 80 x.2) →
    Short 80 ((l.lookup n).getD txt!"Unknown") := by
  intro l
  induction l with
  | nil => intro _; exact (by decide : Short 80 txt!"Unknown")
  | cons x l ih =>
    intro h
    obtain ⟨k, t⟩ := x
    rw [List.lookup_cons]
    split
    · exact h (k, t) List.mem_cons_self
    · exact ih (fun x hx => h x (List.mem_cons_of_mem _ hx))

theorem hexDigit_ne : ∀ n ∈ List.range 16, hexDigit n ≠ 0 := by decide

theorem short_words (n : Nat) : Short 1023 (swWords n) := by
  have hk : Short 20 (kindText (kindOf n)) := by
    generalize kindOf n = k
    revert k
    have : ∀ k : Kind, Short 20 (kindText k) := by intro k; cases k <;> decide
    exact this
  have hd : Short 100 (detail n) := by
    unfold detail
    cases hn : numbered n with
    | some x =>
      obtain ⟨a, k, b⟩ := x
      have hx : Short 30 a ∧ k < 256 ∧ Short 30 b := by
        unfold numbered at hn
        split at hn
        · cases hn; exact ⟨by decide, Nat.mod_lt _ (by decide), by decide⟩
        split at hn
        · cases hn; exact ⟨by decide, Nat.mod_lt _ (by decide), by decide⟩
        split at hn
        · cases hn; exact ⟨by decide, Nat.lt_trans (Nat.mod_lt _ (by decide)) (by decide), by decide⟩
        split at hn
        · cases hn; exact ⟨by decide, Nat.mod_lt _ (by decide), by decide⟩
        · cases hn
      exact ((hx.1.append (short_decimal (by omega))).append hx.2.2).mono (by decide)
    | none =>
      simp only
      split
      · refine ((show Short 20 txt!"Security error 0x" by decide).append (n := 2) ⟨by simp [hexByte], ?_⟩).mono
          (by decide)
        intro b hb
        simp only [hexByte, List.mem_cons, List.not_mem_nil, or_false] at hb
        have h256 : n % 256 < 256 := Nat.mod_lt _ (by decide)
        rcases hb with rfl | rfl
        · exact hexDigit_ne _ (List.mem_range.mpr (by omega))
        · exact hexDigit_ne _ (List.mem_range.mpr (by omega))
      · split
        · decide
        · exact (short_lookup n fixedMeaning (by decide)).mono (by decide)
  exact (hk.append hd).mono (by decide)

theorem sw_ok (a b : Byte) (str : List Byte) (hl : str.length = 1024) :
    ∃ s, swString a b str = .ok (true, s) ∧ Capdu.cstr s = .ok (swWords (swNum a b)) := by
  have hne : str ≠ [] := by intro e; rw [e] at hl; simp at hl
  have hs := short_words (swNum a b)
  refine ⟨_, C85_status a b str hne, ?_⟩
  rw [List.take_of_length_le (by have := hs.1; omega)]
  exact Capdu.cstr_spec _ _ hs.2

theorem status_eq (info : Info) (v : Option (List Byte)) (h1 : info.si = v)
    (h2 : info.stat = status v) (str : List Byte) (hl : str.length = 1024) :
    statusLines info str = .ok (statusText v) := by
  unfold statusLines statusText
  rw [h1, h2]
  cases v with
  | none => rfl
  | some v =>
    rw [if_pos (by rfl), status_parts]
    rcases hq : statusParts v with ⟨l, a, b⟩
    obtain ⟨s, e1, e2⟩ := sw_ok a b str hl
    simp only [lcs_eq, Iad.hex02_hexOf', hq]
    have hx : hexOf [a, b] = hexOf [a] ++ hexOf [b] := (Capdu.hexOf_append [a] [b])
    by_cases hz : a = 0 ∧ b = 0
    · rw [if_neg (by rintro (h | h); exact h hz.1; exact h hz.2), if_pos hz]
      simp [dashes, rule]
    · rw [if_pos (by
        by_cases h : a = 0
        · exact .inr (fun hb => hz ⟨h, hb⟩)
        · exact .inl h), if_neg hz]
      simp only [e1, bind_ok, percentS, if_true, e2, hx]
      simp [dashes, rule]

theorem category_eq (info : Info) (hk : info.k ≠ 0) : t1Text info = .ok (categoryWords info.t1) := by
  have h : ∀ b : Byte, (if b = 0x00 then txt!"COMPACT-TLV followed by mandatory status indicator"
      else if b = 0x10 then txt!"DIR data reference"
      else if b = 0x80 then txt!"COMPACT-TLV including optional status indicator"
      else if b > 0x80 ∧ b ≤ 0x8F then txt!"RFU" else txt!"Proprietary") = categoryWords b := by
    decide +kernel
  unfold t1Text t1String
  rw [if_neg hk, ← h info.t1]
  clear h
  by_cases c1 : info.t1 = 0x00
  · simp only [if_pos c1]
  simp only [if_neg c1]
  by_cases c2 : info.t1 = 0x10
  · simp only [if_pos c2]
  simp only [if_neg c2]
  by_cases c3 : info.t1 = 0x80
  · simp only [if_pos c3]
  simp only [if_neg c3]
  by_cases c4 : info.t1 > 0x80 ∧ info.t1 ≤ 0x8F
  · simp only [if_pos c4]
  · simp only [if_neg c4]

theorem printBuf_eq (name v : List Byte) :
    Print.buf name v = name ++ txt!": " ++ hexOf v ++ [0x0A] := by
  rw [← hexes_eq]; rfl

theorem encAll_length (ts : List CompactTlv.Tlv) : ts.length ≤ (CompactTlv.encAll ts).length := by
  induction ts with
  | nil => simp
  | cons t ts ih =>
    have e : CompactTlv.encAll (t :: ts) = CompactTlv.enc t ++ CompactTlv.encAll ts := by
      simp [CompactTlv.encAll]
    have := CompactTlv.enc_length_pos t
    rw [e, List.length_append, List.length_cons]
    omega

theorem encAll_pos (ts : List CompactTlv.Tlv) (h : ts ≠ []) : (CompactTlv.encAll ts).length ≠ 0 := by
  have := encAll_length ts
  have := List.length_pos_iff.mpr h
  omega

/-! ## C94: interface bytes -/

/-- **C94** (interface bytes).  For every accepted ATR without TD4 the loop over the interface bytes
prints the specified lines of the sets 1 to 4, whatever the local array holds. -/
theorem C94_interface (atr : List Byte) (ts : Byte) (gs : List Link) (info : Info)
    (h : HasChain atr ts gs none) (hp : parse atr = .ok (.ok info)) (str : List Byte)
    (hl : str.length = 1024) :
    ∃ str', ifSets info 4 1 str = .ok (setLines gs 1 ++ setLines gs 2 ++ setLines gs 3 ++
      setLines gs 4, str') ∧ str'.length = 1024 :=
  ifSets_eq atr ts gs info h hp str hl

/-! ## C95: historical bytes -/

/-- **C95** (every ATR).  The historical bytes of an accepted ATR without TD4 are of one of the
forms listed. -/
theorem C95_every (atr : List Byte) (ts : Byte) (gs : List Link) (info : Info)
    (hc : HasChain atr ts gs none) (hp : parse atr = .ok (.ok info)) :
    ∃ h : Hist, h.WF ∧ historical atr gs = h.enc := by
  obtain ⟨_, _, _, _, pr, hf⟩ := accepted atr ts gs none info hc hp
  obtain ⟨⟨hle, hok, _⟩, _⟩ := hf
  simp only [Option.isSome_none] at hle hok
  rw [storage_split atr gs _ hle] at hok
  change OkHistorical (historical atr gs) at hok
  generalize historical atr gs = b at hok
  match b, hok with
  | [], _ => exact ⟨.none, trivial, rfl⟩
  | t1 :: r, .inl h => exact ⟨.free t1 r, h, rfl⟩
  | t1 :: r, .inr (.inl ⟨h8, ts, w, ne, e⟩) => exact ⟨.objects ts, ⟨ne, w⟩, by rw [h8, e]; rfl⟩
  | t1 :: r, .inr (.inr ⟨h0, ts, s, w, ne, l, e⟩) =>
    exact ⟨.withStatus ts s, ⟨ne, w, l⟩, by rw [h0, e]; rfl⟩

/-- **C95** (only one way).  Historical bytes are of one form only. -/
theorem C95_unique (h h' : Hist) (hw : h.WF) (hw' : h'.WF) (he : h.enc = h'.enc) : h = h' := by
  match h, h', hw, hw', he with
  | .none, .none, _, _, _ => rfl
  | .free t1 r, .free t1' r', _, _, he =>
    simp only [Hist.enc, List.cons.injEq] at he
    rw [he.1, he.2]
  | .objects ts, .objects ts', hw, hw', he =>
    simp only [Hist.enc, List.cons.injEq, true_and] at he
    rw [encAll_inj _ _ hw.2 hw'.2 he]
  | .withStatus ts s, .withStatus ts' s', hw, hw', he =>
    simp only [Hist.enc, List.cons.injEq, true_and] at he
    have h1 := hw.2.2
    have h2 := hw'.2.2
    obtain ⟨ea, eb⟩ := List.append_inj' he (by omega)
    rw [encAll_inj _ _ hw.2.1 hw'.2.1 ea, eb]
  | .free t1 r, .objects ts, hw, _, he =>
    simp only [Hist.enc, List.cons.injEq] at he
    exact absurd he.1 hw.2
  | .free t1 r, .withStatus ts s, hw, _, he =>
    simp only [Hist.enc, List.cons.injEq] at he
    exact absurd he.1 hw.1
  | .objects ts, .free t1 r, _, hw', he =>
    simp only [Hist.enc, List.cons.injEq] at he
    exact absurd he.1.symm hw'.2
  | .withStatus ts s, .free t1 r, _, hw', he =>
    simp only [Hist.enc, List.cons.injEq] at he
    exact absurd he.1.symm hw'.1
  | .objects _, .withStatus _ _, _, _, he =>
    simp [Hist.enc] at he
  | .withStatus _ _, .objects _, _, _, he =>
    simp [Hist.enc] at he

/-- **C95** (partial).  For every accepted ATR without TD4 with historical bytes, whose card service
data are not empty and whose capabilities are not the single byte 00, the lines printed are the
specified ones, whatever the local array holds.  Missing: those two exceptions, for which the
property is false (`C95_empty_service`, `C95_no_lines`). -/
theorem C95_history_partial (atr : List Byte) (ts : Byte) (gs : List Link) (info : Info) (h : Hist)
    (hc : HasChain atr ts gs none) (hp : parse atr = .ok (.ok info)) (hw : h.WF)
    (hh : historical atr gs = h.enc) (hk : kOf gs ≠ 0) (hL : ∀ t ∈ h.tlvs, Listable t)
    (loc : List Byte) (hl : loc.length = 1024) :
    historicalBytes loc info = .ok h.lines := by
  obtain ⟨f1, _, _, f4, _, _, f7⟩ := hist_facts atr ts gs info h hc hp hw hh
  have hkk : info.k ≠ 0 := by
    obtain ⟨_, _, _, _, _, e, _⟩ := accepted_parts atr ts gs none info hc hp
    rw [e]; exact hk
  unfold historicalBytes
  rw [category_eq info hkk, bind_ok]
  simp only [Iad.hex02_hexOf']
  match h, hw, f1, f7, hL with
  | .none, _, f1, _, _ => exact absurd f1 hkk
  | .free t1 r, ⟨n0, n8⟩, _, f7, _ =>
    obtain ⟨e1, o, rest, e2, hle, e3, _⟩ := f7 t1 r rfl
    rw [if_neg n0] at e2
    rw [e2, e1]
    simp only
    rw [slice_eq (by omega), bind_ok, if_pos ⟨n0, n8⟩, e3, List.take_left, printBuf_eq]
    have e : txt!"  Historical bytes: " = txt!"  Historical bytes" ++ txt!": " := by decide
    simp only [Hist.lines, categoryLine, e, List.append_assoc]
  | .objects tl, ⟨ne, w⟩, _, f7, hL =>
    obtain ⟨e1, o, rest, e2, hle, e3, _⟩ := f7 0x80 (CompactTlv.encAll tl) rfl
    rw [if_neg (by decide)] at e2
    have h0 := encAll_pos tl ne
    have h1 := encAll_length tl
    rw [e2, e1]
    simp only
    rw [slice_eq (by omega), bind_ok, if_neg (by decide), if_neg h0]
    rw [show ((info.buf.drop o).take (CompactTlv.encAll tl).length) = CompactTlv.encAll tl by
      rw [e3, List.take_left]]
    rw [objects_eq info tl _ o rest loc (fun t ht => ⟨w t ht, hL t ht⟩) (by omega) e3 hl, bind_ok]
    rfl
  | .withStatus tl s, ⟨ne, w, ls⟩, _, f7, hL =>
    obtain ⟨e1, o, rest, e2, hle, e3, _⟩ := f7 0x00 (CompactTlv.encAll tl ++ s) rfl
    rw [if_pos rfl, List.length_append, ls, Nat.add_sub_cancel] at e2
    rw [List.length_append] at hle
    have h0 := encAll_pos tl ne
    have h1 := encAll_length tl
    rw [List.append_assoc] at e3
    rw [e2, e1]
    simp only
    rw [slice_eq (by omega), bind_ok, if_neg (by decide), if_neg h0]
    rw [show ((info.buf.drop o).take (CompactTlv.encAll tl).length) = CompactTlv.encAll tl by
      rw [e3, List.take_left]]
    rw [objects_eq info tl _ o (s ++ rest) loc (fun t ht => ⟨w t ht, hL t ht⟩) (by omega) e3 hl,
      bind_ok]
    rfl

/-- **C94** (partial).  The whole listing of an accepted ATR without TD4.  Missing: ATRs with TD4,
whose historical bytes are misplaced (`C43_td4_outside`), and the two kinds of objects excluded in
`C95_history_partial`. -/
theorem C94_listing_partial (atr : List Byte) (ts : Byte) (gs : List Link) (info : Info) (h : Hist)
    (hc : HasChain atr ts gs none) (hp : parse atr = .ok (.ok info)) (hw : h.WF)
    (hh : historical atr gs = h.enc) (hL : ∀ t ∈ h.tlvs, Listable t)
    (loc hloc : List Byte) (hl : loc.length = 1024) (hl' : hloc.length = 1024) :
    PrintCard.atr loc hloc info = .ok (atrText atr gs h) := by
  obtain ⟨f1, f2, f3, f4, f5, f6, _⟩ := hist_facts atr ts gs info h hc hp hw hh
  obtain ⟨_, _, _, _, _, hk, _⟩ := accepted_parts atr ts gs none info hc hp
  obtain ⟨k1, k2⟩ := C45_tck_partial atr ts gs info hc hp
  have hlen := hc.1
  have h33 := hc.2.1
  have hb : ∃ x y r, atr = x :: y :: r := by
    match atr, hlen with
    | x :: y :: r, _ => exact ⟨x, y, r, rfl⟩
  have hks : Short 10 (decimal (kOf gs)) := by
    apply short_decimal
    cases gs with
    | nil => simp [kOf]
    | cons l r => have := l.nib.isLt; simp only [kOf]; omega
  have ht0 : Short 1023 (setText gs none 1 ++ (txt!"; K=" ++ decimal (kOf gs))) :=
    ((short_set gs none 1 (by omega)).append
      ((show Short 4 txt!"; K=" by decide).append hks)).mono (by decide)
  obtain ⟨str', e5, l5⟩ := ifSets_eq atr ts gs info hc hp
    (written (setText gs none 1 ++ (txt!"; K=" ++ decimal (kOf gs))) loc) (written_len _ _ hl)
  have hts : AtrStr.tsString info = .ok (if atr.head? = some 0x3B then txt!"Direct convention"
      else txt!"Inverse convention") := by
    rcases C87_ts atr info hp with ⟨a, b⟩ | ⟨a, b⟩
    · rw [← List.head?_eq_getElem?] at a
      rw [b, a, if_pos rfl]
    · rw [← List.head?_eq_getElem?] at a
      rw [b, a, if_neg (by decide)]
  have hcard : cardLines hloc info str' =
      .ok (if kOf gs = 0 then [] else rule ++ h.lines ++ statusText h.status) := by
    unfold cardLines
    rw [hk]
    by_cases h0 : kOf gs = 0
    · rw [if_neg (by omega), if_pos h0]
    · rw [if_pos h0, if_neg h0,
        C95_history_partial atr ts gs info h hc hp hw hh h0 hL hloc hl', bind_ok,
        status_eq info h.status f2 f3 str' l5, bind_ok]
      rfl
  have htck : info.tck.getD 0 = checkByte atr gs := by
    unfold checkByte
    by_cases ha : Announces gs
    · obtain ⟨t, e1, e2, _⟩ := k1 ha
      rw [e2, if_neg, List.getD_eq_getElem?_getD, e1]
      intro hall
      obtain ⟨l, hm, hn⟩ := ha
      rw [List.all_eq_true] at hall
      exact hn (by simpa using hall l hm)
    · rw [k2 ha, if_pos]
      · rfl
      · rw [List.all_eq_true]
        intro l hm
        apply Classical.byContradiction
        intro hn
        exact ha ⟨l, hm, by simpa using hn⟩
  obtain ⟨x, y, r, hxy⟩ := hb
  have r0 : rd info.buf 0 = .ok x := by
    rw [rd_eq (by omega)]
    congr 1
    have : (info.buf.take atr.length)[0]? = some x := by rw [f6, hxy]; rfl
    rw [List.getElem?_take, if_pos (by omega), List.getElem?_eq_getElem (by omega)] at this
    exact Option.some.inj this
  have r1 : rd info.buf 1 = .ok y := by
    rw [rd_eq (by omega)]
    congr 1
    have : (info.buf.take atr.length)[1]? = some y := by rw [f6, hxy]; rfl
    rw [List.getElem?_take, if_pos (by omega), List.getElem?_eq_getElem (by omega)] at this
    exact Option.some.inj this
  unfold PrintCard.atr
  rw [f5, slice_eq (by omega), bind_ok, List.drop_zero, f6, r0, bind_ok, hts, bind_ok, r1, bind_ok,
    C87_t0 atr ts gs none info hc hp loc, bind_ok, percentS_written _ _ ht0 hl, bind_ok, e5]
  simp only [bind_ok]
  rw [hcard, bind_ok, htck, printBuf_eq]
  unfold atrText atrBody
  have hx1 : atr.take 1 = [x] := by rw [hxy]; rfl
  have hx2 : (atr.drop 1).take 1 = [y] := by rw [hxy]; rfl
  have hat : txt!"ATR: " = txt!"ATR" ++ txt!": " := by decide
  simp only [Iad.hex02_hexOf', hx1, hx2, hat, List.append_assoc]
  rfl

/-! ### Safety -/

theorem note_safe (c : Int) (str : List Byte) (h : 0 ∈ str) : ∃ t, objectNote c str = .ok t := by
  unfold objectNote
  split
  · rw [Print.strList, (Print.cstr_takeWhile str h).1]
    exact ⟨_, rfl⟩
  · exact ⟨_, rfl⟩

theorem listed_zero {ls : List (List Byte)} {str str' : List Byte} (h : ListedIn ls str str')
    (hz : 0 ∈ str) : 0 ∈ str' := by
  obtain ⟨_, _, h1, h2⟩ := h
  by_cases hk : StrList.kept str.length ls 0 = []
  · rw [h1 hk]; exact hz
  · rw [(h2 hk).1, strOver]; simp

theorem objects_safe (info : Info) (ts : List CompactTlv.Tlv) : ∀ (fuel pos : Nat) (rest str : List Byte),
    (∀ t ∈ ts, CompactTlv.WF t) → ts.length < fuel →
    info.buf.drop pos = CompactTlv.encAll ts ++ rest →
    pos + (CompactTlv.encAll ts).length < info.buf.length → 0 ∈ str →
    ∃ out, objects info fuel pos (CompactTlv.encAll ts) str = .ok out := by
  induction ts with
  | nil =>
    intro fuel pos rest str _ hf _ _ _
    obtain ⟨n, rfl⟩ : ∃ n, fuel = n + 1 := ⟨fuel - 1, by omega⟩
    exact ⟨_, rfl⟩
  | cons t ts ih =>
    intro fuel pos rest str hw hf hb hlt hz
    obtain ⟨n, rfl⟩ : ∃ n, fuel = n + 1 := ⟨fuel - 1, by simp only [List.length_cons] at hf; omega⟩
    have hwt := hw t List.mem_cons_self
    have e : CompactTlv.encAll (t :: ts) = CompactTlv.enc t ++ CompactTlv.encAll ts := by
      simp [CompactTlv.encAll]
    have ht : (CompactTlv.enc t).length = t.value.length + 1 := by simp [CompactTlv.enc]
    rw [e, List.append_assoc] at hb
    rw [e, List.length_append, ht] at hlt
    have hb2 : info.buf.drop (pos + (t.value.length + 1)) = CompactTlv.encAll ts ++ rest := by
      rw [← List.drop_drop, hb, ← ht, List.drop_left]
    have ho : ∃ c str', objectList info (pos + 1) t str = .ok (c, str') ∧ 0 ∈ str' := by
      unfold objectList
      split
      · rw [rd_eq (by omega), bind_ok]
        obtain ⟨str', e1, e2⟩ := C86_service (info.buf[pos + 1]) str
        exact ⟨0, str', e1, listed_zero e2 hz⟩
      · split
        · by_cases hv : t.value = []
          · rw [hv]; exact ⟨-1, str, C86_no_capabilities str, hz⟩
          · obtain ⟨str', e1, e2⟩ := C86_capabilities t.value str hv
            exact ⟨_, str', e1, listed_zero e2 hz⟩
        · exact ⟨-1, str, rfl, hz⟩
    obtain ⟨c, str', e1, hz'⟩ := ho
    obtain ⟨note, e2⟩ := note_safe c str' hz'
    obtain ⟨out, e3⟩ := ih n _ rest str' (fun t h => hw t (List.mem_cons_of_mem _ h))
      (by simp only [List.length_cons] at hf; omega) hb2 (by omega) hz'
    rw [e, objects, CompactTlv.itrNext_enc t hwt, bind_ok]
    simp only
    rw [e1, bind_ok]
    simp only
    rw [e2, bind_ok, e3, bind_ok]
    exact ⟨_, rfl⟩

/-- **C95** (safety, partial).  Whatever the objects are, listing the historical bytes of an accepted
ATR without TD4 reads nothing outside the stored ATR and nothing outside the local array, provided
that array happens to hold a NUL.  Missing: without that the property is false (`C95_no_lines`). -/
theorem C95_safe_partial (atr : List Byte) (ts : Byte) (gs : List Link) (info : Info)
    (hc : HasChain atr ts gs none) (hp : parse atr = .ok (.ok info)) (hk : kOf gs ≠ 0)
    (loc : List Byte) (hz : 0 ∈ loc) : C.Safe (historicalBytes loc info) := by
  obtain ⟨h, hw, hh⟩ := C95_every atr ts gs info hc hp
  obtain ⟨f1, _, _, f4, _, _, f7⟩ := hist_facts atr ts gs info h hc hp hw hh
  have hkk : info.k ≠ 0 := by
    obtain ⟨_, _, _, _, _, e, _⟩ := accepted_parts atr ts gs none info hc hp
    rw [e]; exact hk
  unfold historicalBytes
  rw [category_eq info hkk, bind_ok]
  match h, hw, f1, f7 with
  | .none, _, f1, _ => exact absurd f1 hkk
  | .free t1 r, ⟨n0, n8⟩, _, f7 =>
    obtain ⟨e1, o, rest, e2, hle, e3, _⟩ := f7 t1 r rfl
    rw [if_neg n0] at e2
    rw [e2, e1]
    simp only
    rw [slice_eq (by omega), bind_ok, if_pos ⟨n0, n8⟩]
    exact ⟨_, rfl⟩
  | .objects tl, ⟨ne, w⟩, _, f7 =>
    obtain ⟨e1, o, rest, e2, hle, e3, _⟩ := f7 0x80 (CompactTlv.encAll tl) rfl
    rw [if_neg (by decide)] at e2
    have h0 := encAll_pos tl ne
    have h1 := encAll_length tl
    rw [e2, e1]
    simp only
    rw [slice_eq (by omega), bind_ok, if_neg (by decide), if_neg h0]
    rw [show ((info.buf.drop o).take (CompactTlv.encAll tl).length) = CompactTlv.encAll tl by
      rw [e3, List.take_left]]
    obtain ⟨out, e4⟩ := objects_safe info tl _ o rest loc w
      (Nat.lt_succ_of_le h1) e3 (by omega) hz
    rw [e4, bind_ok]
    exact ⟨_, rfl⟩
  | .withStatus tl s, ⟨ne, w, ls⟩, _, f7 =>
    obtain ⟨e1, o, rest, e2, hle, e3, _⟩ := f7 0x00 (CompactTlv.encAll tl ++ s) rfl
    rw [if_pos rfl, List.length_append, ls, Nat.add_sub_cancel] at e2
    rw [List.length_append] at hle
    have h0 := encAll_pos tl ne
    have h1 := encAll_length tl
    rw [List.append_assoc] at e3
    rw [e2, e1]
    simp only
    rw [slice_eq (by omega), bind_ok, if_neg (by decide), if_neg h0]
    rw [show ((info.buf.drop o).take (CompactTlv.encAll tl).length) = CompactTlv.encAll tl by
      rw [e3, List.take_left]]
    obtain ⟨out, e4⟩ := objects_safe info tl _ o (s ++ rest) loc w
      (Nat.lt_succ_of_le h1) e3 (by omega) hz
    rw [e4, bind_ok]
    exact ⟨_, rfl⟩

/-- The ATR of a card with three objects. -/
def sampleAtr : List Byte := [0x3B, 0x6E, 0x00, 0x00, 0x80, 0x31, 0x80, 0x66, 0xB0, 0x84, 0x12, 0x01,
  0x6E, 0x01, 0x83, 0x00, 0x90, 0x00]

/-- Its chain. -/
def sampleChain : List Link := [⟨14, none, some 0x00, some 0x00⟩]

/-- Its objects. -/
def sampleHist : Hist := .objects [⟨3, [0x80]⟩, ⟨6, [0xB0, 0x84, 0x12, 0x01, 0x6E, 0x01]⟩,
  ⟨8, [0x00, 0x90, 0x00]⟩]

-- the hypotheses of C94 and C95 hold for it
example : HasChain sampleAtr 0x3B sampleChain none ∧ (∃ info, parse sampleAtr = .ok (.ok info)) ∧
    sampleHist.WF ∧ historical sampleAtr sampleChain = sampleHist.enc ∧ kOf sampleChain ≠ 0 ∧
    ∀ t ∈ sampleHist.tlvs, Listable t := by
  refine ⟨⟨by decide, by decide, by decide, by decide, by decide,
      (sampleAtr.drop 4) ++ List.replicate 15 0, by decide⟩,
    (witness (fun _ => True) (by decide +kernel)).imp (fun _ h => h.1),
    ⟨by decide, ?_⟩, by decide, by decide, ?_⟩
  · unfold CompactTlv.WF; decide
  · unfold Listable; decide

-- and this is what is printed
example : ∃ info, parse sampleAtr = .ok (.ok info) ∧
    (PrintCard.atr (List.replicate 1024 0x55) (List.replicate 1024 0x55) info).toOption =
      some (([txt!"ATR: 3B6E000080318066B08412016E0183009000",
        txt!"  TS  = 0x3B: Direct convention",
        txt!"  T0  = 0x6E: Y1=TB1,TC1; K=14",
        txt!"  ----",
        txt!"  TA1 absent: Fi=372; Di=1; 372 cycles/ETU @ max 5.0MHz; max 13440 bit/s",
        txt!"  TB1 = 0x00: Vpp is not connected",
        txt!"  TC1 = 0x00: N=0; GT=12",
        txt!"  ----",
        txt!"  TA2 absent: Negotiable mode",
        txt!"  TB2 absent: Vpp is not connected",
        txt!"  TC2 absent: WI=10; WT=9600",
        txt!"  ----",
        txt!"  T1  = 0x80: COMPACT-TLV including optional status indicator",
        txt!"  Card service data (0x3): [1] 80",
        txt!"    - Application selection: by full DF name",
        txt!"    - EF.DIR and EF.ATR access services: by READ RECORD(S) command (record structure)",
        txt!"    - Card with MF",
        txt!"  Pre-issuing data (0x6): [6] B0 84 12 01 6E 01",
        txt!"  Status indicator (0x8): [3] 00 90 00",
        txt!"  ----",
        txt!"  LCS = 00: No information given",
        txt!"  SW  = 9000: (Normal)",
        txt!"  ----",
        txt!"  TCK = 0x00"].map (· ++ [0x0A])).flatten) :=
  witness _ (by decide +kernel)

/-! ### Where the property is false -/

/-- **C95 fails** (empty card service data).  Card service data of length zero are described all
the same, by the byte that follows them in the storage: for `3B 02 80 30` a byte outside the ATR,
for `3B 04 80 30 11 C0` the tag of the next object. -/
theorem C95_empty_service :
    (∃ info, parse [0x3B, 0x02, 0x80, 0x30] = .ok (.ok info) ∧
      (historicalBytes (List.replicate 1024 0x55) info).toOption =
        some (([txt!"  T1  = 0x80: COMPACT-TLV including optional status indicator",
          txt!"  Card service data (0x3): [0] ",
          txt!"    - EF.DIR and EF.ATR access services: by READ RECORD(S) command (record structure)",
          txt!"    - Card with MF"].map (· ++ [0x0A])).flatten)) ∧
    (∃ info, parse [0x3B, 0x04, 0x80, 0x30, 0x11, 0xC0] = .ok (.ok info) ∧
      (historicalBytes (List.replicate 1024 0x55) info).toOption =
        some (([txt!"  T1  = 0x80: COMPACT-TLV including optional status indicator",
          txt!"  Card service data (0x3): [0] ",
          txt!"    - BER-TLV data objects available in EF.ATR",
          txt!"    - EF.DIR and EF.ATR access services: by READ RECORD(S) command (record structure)",
          txt!"    - Card without MF",
          txt!"  Country code (0x1): [1] C0"].map (· ++ [0x0A])).flatten)) :=
  ⟨witness _ (by decide +kernel), witness _ (by decide +kernel)⟩

/-- **C95 fails** (capabilities without a line).  For the capabilities 00 the local array is printed
although nothing was written to it: undefined behaviour when it holds no NUL, and the list of the
card service data a second time when those precede. -/
theorem C95_no_lines :
    (∃ info, parse [0x3B, 0x03, 0x80, 0x71, 0x00] = .ok (.ok info) ∧
      historicalBytes (List.replicate 1024 0x55) info = .error .oobRead) ∧
    (∃ info, parse [0x3B, 0x05, 0x80, 0x31, 0x01, 0x71, 0x00] = .ok (.ok info) ∧
      (historicalBytes (List.replicate 1024 0x55) info).toOption =
        some (([txt!"  T1  = 0x80: COMPACT-TLV including optional status indicator",
          txt!"  Card service data (0x3): [1] 01",
          txt!"    - EF.DIR and EF.ATR access services: by READ RECORD(S) command (record structure)",
          txt!"    - Card without MF",
          txt!"  Card capabilities (0x7): [1] 00",
          txt!"    - EF.DIR and EF.ATR access services: by READ RECORD(S) command (record structure)",
          txt!"    - Card without MF"].map (· ++ [0x0A])).flatten)) :=
  ⟨witness _ (by decide +kernel), witness _ (by decide +kernel)⟩

/-- **C94 fails** (check byte).  For an ATR without check byte one is printed. -/
theorem C94_no_check (atr : List Byte) (gs : List Link) (h : Hist) (hn : ¬ Announces gs) :
    ∃ t, atrText atr gs h = t ++ (txt!"  TCK = 0x00" ++ [0x0A]) := by
  have hc : checkByte atr gs = 0 := by
    rw [checkByte, if_pos]
    rw [List.all_eq_true]
    intro l hm
    apply Classical.byContradiction
    intro hx
    exact hn ⟨l, hm, by simpa using hx⟩
  have e : ∀ x : List Byte, x ++ txt!"  TCK = 0x" ++ hexOf [0] ++ [0x0A] =
      x ++ (txt!"  TCK = 0x00" ++ [0x0A]) := by
    intro x
    rw [show txt!"  TCK = 0x00" = txt!"  TCK = 0x" ++ hexOf [0] by decide +kernel]
    simp only [List.append_assoc]
  rw [atrText, hc, e]
  exact ⟨atrBody atr gs h, rfl⟩

end Verif.PrintCard
