import Verif.Tal
import Verif.TlvInvProps
import Verif.FieldsProps

/-! # Specification and lemmas for reading records -/

set_option autoImplicit false

namespace Verif.Tal
open Verif Ber BerSpec TlvParse App Fields

/-! ## Specification -/

/-- The record is acceptable and carries the fields `new`.  SFI 1 to 10: one template 70 that
covers the whole record, whose contents are complete objects with primitive objects `new`.
Other SFIs: complete objects starting with a template 70; or anything else (not empty), which
carries no fields. -/
def Accepted (sfi : Byte) (data : List Byte) (new : List Tlv) : Prop :=
  if 1 ≤ sfi.toNat ∧ sfi.toNat ≤ 10 then
    ∃ (len : List Byte) (f : XForest), f.WF ∧ LenOctets f.enc.length len ∧
      data = [0x70] ++ len ++ f.enc ∧ new = f.leaves
  else
    (data.head? = some 0x70 ∧ ∃ f : XForest, f.WF ∧ data = f.enc ∧ new = f.leaves) ∨
    (data ≠ [] ∧ data.head? ≠ some 0x70 ∧ new = [])

/-- A record as EMV wants it (definite lengths of at most two octets for the template). -/
def Proper (sfi : Byte) (data : List Byte) : Prop :=
  if 1 ≤ sfi.toNat ∧ sfi.toNat ≤ 10 then
    ∃ (len : List Byte) (g : Forest), g.WF ∧ LenOctets g.enc.length len ∧ len.length ≤ 2 ∧
      data = [0x70] ++ len ++ g.enc
  else
    data ≠ [] ∧ (data.head? = some 0x70 → ∃ g : Forest, g.WF ∧ data = g.enc)

/-- All exchanges are successful READ RECORDs with acceptable records; the fields they carry in
order; and whether some record does not start with 70 (which spoils offline data
authentication). -/
inductive Reads : List (Cmd × W) → List Tlv → Bool → Prop where
  | nil : Reads [] [] false
  | cons {sfi rec : Byte} {w : W} {new : List Tlv} {tr : List (Cmd × W)} {fs : List Tlv} {b : Bool}
      (h0 : w.code = 0) (h1 : w.sw = 0x9000) (h2 : Accepted sfi w.data new) (h : Reads tr fs b) :
      Reads ((.readRecord sfi rec, w) :: tr) (new ++ fs) (w.data.head? != some 0x70 || b)

/-- An answer with status 9000 or 6283 that carries no data: the only answers that lead to
undefined behaviour. -/
def Bare (w : W) : Prop := w.code = 0 ∧ (w.sw = 0x9000 ∨ w.sw = 0x6283) ∧ w.data = []

/-- Why reading stops with this code at this answer. -/
def Failing (alloc : List Tlv → Tlv → Bool) (sfi : Byte) (w : W) (code : Int) : Prop :=
  (code = -3 ∧ w.code ≠ 0) ∨
  (code = -9 ∧ w.code = 0 ∧ w.sw ≠ 0x9000) ∨
  ((code = -10 ∨ code = -11) ∧ w.code = 0 ∧ w.sw = 0x9000 ∧ ¬ Proper sfi w.data) ∨
  (code = -1 ∧ ∃ l t, alloc l t = false)

/-- `n` READ RECORD commands with consecutive numbers from `first` (modulo 256). -/
def numbered (sfi first : Byte) (n : Nat) : List Cmd :=
  (List.range n).map fun i => .readRecord sfi (UInt8.ofNat (first.toNat + i))

/-! ## Lemmas -/

theorem numbered_zero (sfi first : Byte) : numbered sfi first 0 = [] := rfl

theorem numbered_succ (sfi first : Byte) (n : Nat) :
    numbered sfi first (n + 1) = .readRecord sfi first :: numbered sfi (first + 1) n := by
  unfold numbered
  rw [List.range_succ_eq_map, List.map_cons, List.map_map]
  congr 1
  · simp
  · apply List.map_congr_left
    intro i _
    simp only [Function.comp, Nat.succ_eq_add_one, Cmd.readRecord.injEq, true_and]
    apply UInt8.toNat_inj.mp
    rw [UInt8.toNat_ofNat', UInt8.toNat_ofNat', UInt8.toNat_add]
    simp
    omega

theorem parseF_alloc (alloc : List Tlv → Tlv → Bool) : ∀ (fuel : Nat) (buf : List Byte)
    (list l : List Tlv) (r : Int), parseF alloc fuel buf list = .ok (r, l) → r ≠ -2 →
    parseF allocOk fuel buf list = .ok (r, l) := by
  intro fuel
  induction fuel with
  | zero => intro buf list l r h _; simp [parseF] at h
  | succ fuel ih =>
    intro buf list l r h hr
    unfold parseF at h ⊢
    match hi : itrNext buf, h with
    | .error _, h => simp at h
    | .ok (rest, .eod), h => exact h
    | .ok (rest, .err _), h => exact h
    | .ok (rest, .ok n t), h =>
      simp only [bind_ok] at h ⊢
      split at h
      · rename_i hc
        rw [if_pos hc]
        match hp : parseF alloc fuel t.value list, h with
        | .error _, h => simp at h
        | .ok (r1, l1), h =>
          simp only [bind_ok] at h
          by_cases h1 : r1 = 0
          · rw [if_neg (by simpa using h1)] at h
            rw [ih _ _ _ _ hp (by omega)]
            simp only [bind_ok]
            rw [if_neg (by simpa using h1)]
            exact ih _ _ _ _ h hr
          · rw [if_pos (by simpa using h1)] at h
            simp only [Except.ok.injEq, Prod.mk.injEq] at h
            rw [ih _ _ _ _ hp (by omega)]
            simp only [bind_ok]
            rw [if_pos (by simpa using h1), h.1, h.2]
      · rename_i hc
        rw [if_neg hc]
        split at h
        · simp only [allocOk, if_true]
          exact ih _ _ _ _ h hr
        · simp only [Except.ok.injEq, Prod.mk.injEq] at h
          exact absurd h.1.symm hr

/-- A successful parse of a buffer that starts with a constructed object. -/
theorem parse_first {alloc : List Tlv → Tlv → Bool} {buf : List Byte} {list l : List Tlv}
    {n : Nat} {t : Tlv} (hd : decode buf = .ok (.ok n t)) (hc : t.isConstructed = true)
    (h : parse alloc buf list = .ok (0, l)) :
    ∃ f1 f2 : XForest, f1.WF ∧ f2.WF ∧ t.value = f1.enc ∧ buf.drop n = f2.enc ∧
      l = list ++ f1.leaves ++ f2.leaves := by
  unfold parse parseF at h
  have hn : n ≤ buf.length := by
    obtain ⟨d, h1, h2⟩ := decode_spec buf
    rw [hd] at h1
    cases h1
    obtain ⟨hdr, rest, he, -, hn⟩ := h2
    rw [hn, he]
    simp
  have hi : itrNext buf = .ok (buf.drop n, .ok n t) := by
    unfold itrNext
    rw [hd]
    simp only [bind_ok]
    rw [suffix_eq hn]
    rfl
  rw [hi] at h
  simp only [bind_ok] at h
  rw [if_pos hc] at h
  match hp : parseF alloc buf.length t.value list, h with
  | .error _, h => simp at h
  | .ok (r1, l1), h =>
    simp only [bind_ok] at h
    split at h
    · rename_i hr
      simp only [Except.ok.injEq, Prod.mk.injEq] at h
      exact absurd h.1 hr
    · rename_i hr
      have hr0 : r1 = 0 := by simpa using hr
      subst hr0
      obtain ⟨f1, a1, a2, a3⟩ := parseF_inv _ _ _ _ _ hp
      obtain ⟨f2, b1, b2, b3⟩ := parseF_inv _ _ _ _ _ h
      exact ⟨f1, f2, a1, b1, a2, b2, by rw [b3, a3]⟩

theorem xforest_length (f : XForest) (hf : f.WF) (h : f.enc ≠ []) : 2 ≤ f.enc.length := by
  cases f with
  | nil => exact absurd rfl h
  | leaf o rest =>
    have := enc_length_ge hf.1
    simp [XForest.enc]
    omega
  | node tag len c rest =>
    have h1 := isTag_length hf.1
    have h2 := lenOctets_length hf.2.2.1
    simp [XForest.enc]
    omega
  | indef tag c rest =>
    have h1 := isTag_length hf.1
    simp [XForest.enc]
    omega

theorem xforest_nil (f : XForest) (hf : f.WF) (h : f.enc = []) : f.leaves = [] := by
  cases f with
  | nil => rfl
  | leaf o r =>
    have h1 := enc_length_ge hf.1
    have h2 := (List.append_eq_nil_iff.mp h).1
    rw [h2] at h1
    simp at h1
  | node t l c r =>
    have h1 := isTag_length hf.1
    have h2 := (List.append_eq_nil_iff.mp (List.append_eq_nil_iff.mp (List.append_eq_nil_iff.mp h).1).1).1
    rw [h2] at h1
    simp at h1
  | indef t c r =>
    have h1 := isTag_length hf.1
    have h2 := (List.append_eq_nil_iff.mp (List.append_eq_nil_iff.mp (List.append_eq_nil_iff.mp h).1).1).1
    rw [h2] at h1
    simp at h1

/-- How a record is handled. -/
def RecPost (alloc : List Tlv → Tlv → Bool) (sfi : Byte) (data : List Byte) (list : List Tlv) :
    Rec → Prop
  | .next list' => data.head? = some 0x70 ∧ ∃ new, list' = list ++ new ∧ Accepted sfi data new
  | .spoilt => data.head? ≠ some 0x70 ∧ Accepted sfi data []
  | .stop code list' => (∃ part, list' = list ++ part ∧ ∀ t ∈ part, FieldOf data t) ∧
      (((code = -10 ∨ code = -11) ∧ ¬ Proper sfi data) ∨ (code = -1 ∧ ∃ l t, alloc l t = false))

theorem record_spec (alloc : List Tlv → Tlv → Bool) (sfi : Byte) (data : List Byte)
    (list : List Tlv) (h0 : data ≠ []) :
    ∃ r, record alloc sfi data list = .ok r ∧ RecPost alloc sfi data list r := by
  have keep : ∃ part, list = list ++ part ∧ ∀ t ∈ part, FieldOf data t := ⟨[], by simp, by simp⟩
  unfold record
  rw [if_neg (by simpa using h0)]
  obtain ⟨b, rest, rfl⟩ : ∃ b r, data = b :: r := by
    cases data with
    | nil => exact absurd rfl h0
    | cons b r => exact ⟨b, r, rfl⟩
  simp only [rd_cons_zero, bind_ok]
  by_cases hb : b = 0x70
  · rw [if_neg (by simpa using hb)]
    subst hb
    by_cases hs : 1 ≤ sfi.toNat ∧ sfi.toNat ≤ 10
    · rw [if_pos hs]
      -- a proper record passes the template test
      have hpass : Proper sfi (0x70 :: rest) → ∃ (n : Nat) (t : Tlv), decode (0x70 :: rest) = .ok (.ok n t) ∧
          t.tag = 0x70 ∧ ¬ t.value.length + 3 < (0x70 :: rest).length ∧
          ∃ g : Forest, g.WF ∧ (0x70 :: rest) = g.enc := by
        intro hp
        unfold Proper at hp
        rw [if_pos hs] at hp
        obtain ⟨len, g, hg, hlen, h2, hd⟩ := hp
        have ht : IsTag [0x70] := Or.inl ⟨by decide, rfl⟩
        have := decode_enc ht hlen []
        rw [List.append_nil, ← hd] at this
        refine ⟨_, _, this, by simp [beNat], ?_, .node [0x70] len g .nil,
          ⟨ht, by decide, hlen, hg, trivial⟩, ?_⟩
        · rw [hd]; simp; omega
        · rw [hd]; simp [Forest.enc]
      obtain ⟨d, hd, hds⟩ := decode_spec (0x70 :: rest)
      rw [hd]
      match d, hd with
      | .eod, hd =>
        refine ⟨.stop (-10) list, rfl, keep, Or.inl ⟨Or.inl rfl, ?_⟩⟩
        intro hp
        obtain ⟨n, t, h1, -⟩ := hpass hp
        rw [hd] at h1; cases h1
      | .err c, hd =>
        refine ⟨.stop (-10) list, rfl, keep, Or.inl ⟨Or.inl rfl, ?_⟩⟩
        intro hp
        obtain ⟨n, t, h1, -⟩ := hpass hp
        rw [hd] at h1; cases h1
      | .ok n t, hd =>
        simp only [bind_ok]
        by_cases hbad : (t.tag != 0x70 || decide (t.value.length + 3 < (0x70 :: rest).length)) = true
        · rw [if_pos hbad]
          refine ⟨.stop (-10) list, rfl, keep, Or.inl ⟨Or.inl rfl, ?_⟩⟩
          intro hp
          obtain ⟨n', t', h1, h2, h3, -⟩ := hpass hp
          rw [hd] at h1; cases h1
          rw [Bool.or_eq_true, decide_eq_true_eq] at hbad
          rcases hbad with hbad | hbad
          · simp [h2] at hbad
          · exact h3 hbad
        · rw [if_neg hbad]
          rw [Bool.or_eq_true, decide_eq_true_eq, not_or] at hbad
          obtain ⟨hbt, hbl⟩ := hbad
          obtain ⟨r, new, hp, hr, hnew⟩ := parseF_spec alloc _ (0x70 :: rest) list (Nat.lt_succ_self _)
          have hp' : parse alloc (0x70 :: rest) list = .ok (r, list ++ new) := hp
          rw [hp']
          simp only [bind_ok]
          rcases hr with rfl | rfl | ⟨rfl, t', -, ha⟩
          · rw [if_neg (by decide), if_neg (by decide)]
            refine ⟨.next _, rfl, rfl, new, rfl, ?_⟩
            unfold Accepted
            rw [if_pos hs]
            obtain ⟨tag, rest', ht, htv, htf, hform⟩ := decode_inv hd
            have htag : tag = [0x70] := by
              match tag, ht with
              | b :: r, ht =>
                have hb : b = 0x70 := by
                  rcases hform with ⟨len, -, hb, -⟩ | ⟨-, hb, -, -⟩ <;>
                    (simp at hb; exact hb.1.symm)
                subst hb
                rcases ht with ⟨-, rfl⟩ | ⟨h31, -⟩
                · rfl
                · exact absurd h31 (by decide)
            subst htag
            have hcon : t.isConstructed = true := (isConstructed_iff ht htf).mpr (by decide)
            obtain ⟨f1, f2, hf1, hf2, e1, e2, e3⟩ := parse_first hd hcon hp'
            have hlen : (0x70 :: rest).length ≤ t.value.length + 3 := by omega
            have hn2 : (0x70 :: rest).length ≤ n + 1 → f2.enc = [] := by
              intro hle
              have hl := congrArg List.length e2
              rw [List.length_drop] at hl
              have := xforest_length f2 hf2
              by_cases hz : f2.enc = []
              · exact hz
              · have := this hz; omega
            have hf2nil := xforest_nil f2 hf2
            rcases hform with ⟨len, hlo, hbuf, hn⟩ | ⟨-, hbuf, hz, hn⟩
            · have hll := lenOctets_length hlo
              have hnn := hn2 (by simp at hn; omega)
              have hrest : rest' = [] := by
                have : (0x70 :: rest).drop n = rest' := by
                  rw [hbuf, hn, ← List.length_append, ← List.length_append, List.drop_left]
                rw [← this, e2, hnn]
              refine ⟨len, f1, hf1, ?_, ?_, ?_⟩
              · rw [← e1]; exact hlo
              · rw [hbuf, hrest, e1]; simp
              · rw [hf2nil hnn, List.append_nil] at e3
                exact List.append_cancel_left e3
            · exfalso
              have hnn := hn2 (by simp at hn; omega)
              have : (0x70 :: rest).drop n = rest' := by
                have e : [(0x70 : Byte)].length + 1 + t.value.length =
                    ([(0x70 : Byte)] ++ [0x80] ++ t.value).length := by simp; omega
                rw [hbuf, hn, e, List.drop_left]
              rw [← this, e2, hnn] at hz
              simp at hz
          · rw [if_neg (by decide), if_pos (by decide)]
            refine ⟨.stop (-11) (list ++ new), rfl, ⟨new, rfl, hnew⟩, Or.inl ⟨Or.inr rfl, ?_⟩⟩
            intro hpr
            obtain ⟨-, -, -, -, -, g, hg, he⟩ := hpass hpr
            have h1 := parseF_alloc alloc _ _ _ _ _ hp (by decide)
            have h2 := C05_parse_leaves g hg list
            rw [← he] at h2
            unfold parse at h2
            rw [h1] at h2
            simp at h2
          · rw [if_pos (by decide)]
            exact ⟨.stop (-1) (list ++ new), rfl, ⟨new, rfl, hnew⟩, Or.inr ⟨rfl, _, _, ha⟩⟩
    · rw [if_neg hs]
      simp only [Bool.false_eq_true, if_false]
      obtain ⟨r, new, hp, hr, hnew⟩ := parseF_spec alloc _ (0x70 :: rest) list (Nat.lt_succ_self _)
      have hp' : parse alloc (0x70 :: rest) list = .ok (r, list ++ new) := hp
      rw [hp']
      simp only [bind_ok]
      rcases hr with rfl | rfl | ⟨rfl, t', -, ha⟩
      · rw [if_neg (by decide), if_neg (by decide)]
        refine ⟨.next _, rfl, rfl, new, rfl, ?_⟩
        unfold Accepted
        rw [if_neg hs]
        obtain ⟨f, hf, he, hl⟩ := C62_parse_accepts alloc _ _ _ hp'
        exact Or.inl ⟨rfl, f, hf, he, List.append_cancel_left hl⟩
      · rw [if_neg (by decide), if_pos (by decide)]
        refine ⟨.stop (-11) (list ++ new), rfl, ⟨new, rfl, hnew⟩, Or.inl ⟨Or.inr rfl, ?_⟩⟩
        intro hpr
        unfold Proper at hpr
        rw [if_neg hs] at hpr
        obtain ⟨g, hg, he⟩ := hpr.2 rfl
        have h1 := parseF_alloc alloc _ _ _ _ _ hp (by decide)
        have h2 := C05_parse_leaves g hg list
        rw [← he] at h2
        unfold parse at h2
        rw [h1] at h2
        simp at h2
      · rw [if_pos (by decide)]
        exact ⟨.stop (-1) (list ++ new), rfl, ⟨new, rfl, hnew⟩, Or.inr ⟨rfl, _, _, ha⟩⟩
  · rw [if_pos (by simpa using hb)]
    have hh : (b :: rest).head? ≠ some 0x70 := by simpa using hb
    by_cases hs : 1 ≤ sfi.toNat ∧ sfi.toNat ≤ 10
    · rw [if_pos hs]
      refine ⟨.stop (-10) list, rfl, keep, Or.inl ⟨Or.inl rfl, ?_⟩⟩
      intro hp
      unfold Proper at hp
      rw [if_pos hs] at hp
      obtain ⟨len, g, -, -, -, hd⟩ := hp
      simp at hd
      exact hb hd.1
    · rw [if_neg hs]
      refine ⟨.spoilt, rfl, hh, ?_⟩
      unfold Accepted
      rw [if_neg hs]
      exact Or.inr ⟨by simp, hh, rfl⟩

/-- How reading a range of records ends. -/
def SfiPost (alloc : List Tlv → Tlv → Bool) (sfi last : Byte) (script : List W) (rec : Byte)
    (oda : Bool) (list : List Tlv) : C (Run (Int × List Tlv)) → Prop
  | .error e => e = .uninit ∧ ∃ tr fs b w post, Reads tr fs b ∧
      script = tr.map (·.2) ++ w :: post ∧ w.code = 0 ∧ w.sw = 0x9000 ∧ w.data = [] ∧
      ∃ c, tr.map (·.1) ++ [c] = numbered sfi rec (tr.length + 1) ∧
        (last.toNat < 255 → rec.toNat + tr.length ≤ last.toNat)
  | .ok (tr, .pending c) => tr.map (·.2) = script ∧ (∃ fs b, Reads tr fs b) ∧
      tr.map (·.1) ++ [c] = numbered sfi rec (tr.length + 1) ∧
      (last.toNat < 255 → rec.toNat + tr.length ≤ last.toNat)
  | .ok (tr, .done (code, list') rest) => script = tr.map (·.2) ++ rest ∧
      tr.map (·.1) = numbered sfi rec tr.length ∧
      ((last.toNat < 255 ∧ rec.toNat + tr.length = last.toNat + 1 ∧
        ∃ fs b, Reads tr fs b ∧ list' = list ++ fs ∧ code = if oda || b then 14 else 0) ∨
       (last.toNat < 255 → rec.toNat + tr.length ≤ last.toNat + 1) ∧
        ∃ good fs b rc w part, tr = good ++ [(.readRecord sfi rc, w)] ∧ Reads good fs b ∧
          list' = list ++ fs ++ part ∧ (∀ t ∈ part, FieldOf w.data t) ∧ Failing alloc sfi w code)

theorem sfiPost_cons {alloc : List Tlv → Tlv → Bool} {sfi last : Byte} {w : W} {rest : List W}
    {rec : Byte} {oda : Bool} {list new : List Tlv} {x : C (Run (Int × List Tlv))}
    (hle : rec.toNat ≤ last.toNat)
    (h0 : w.code = 0) (h1 : w.sw = 0x9000) (h2 : Accepted sfi w.data new)
    (h : SfiPost alloc sfi last rest (rec + 1) (oda || w.data.head? != some 0x70) (list ++ new) x) :
    SfiPost alloc sfi last (w :: rest) rec oda list (log (.readRecord sfi rec) w x) := by
  have hlast : last.toNat < 256 := toNat_lt last
  have hstep : rec.toNat < 255 → (rec + 1).toNat = rec.toNat + 1 := by
    intro h
    rw [UInt8.toNat_add]
    simp
    omega
  match x, h with
  | .error e, h =>
    obtain ⟨he, tr, fs, b, w', post, a1, a2, a3, a4, a5, c, a6, a7⟩ := h
    refine ⟨he, _, _, _, w', post, .cons h0 h1 h2 a1 (rec := rec), by simp [a2], a3, a4, a5, c, ?_, ?_⟩
    · rw [List.map_cons, List.cons_append, a6, List.length_cons, numbered_succ _ _ (tr.length + 1)]
    · intro hl
      have := a7 hl
      rw [hstep (by omega)] at this
      rw [List.length_cons]
      omega
  | .ok (tr, .pending c), h =>
    obtain ⟨a1, ⟨fs, b, a2⟩, a3, a4⟩ := h
    refine ⟨by simp [a1], ⟨_, _, .cons h0 h1 h2 a2⟩, ?_, ?_⟩
    · rw [List.map_cons, List.cons_append, a3, List.length_cons, numbered_succ _ _ (tr.length + 1)]
    · intro hl
      have := a4 hl
      rw [hstep (by omega)] at this
      rw [List.length_cons]
      omega
  | .ok (tr, .done (code, list') rest'), h =>
    obtain ⟨a1, a2, a3⟩ := h
    refine ⟨by simp [a1], ?_, ?_⟩
    · rw [List.map_cons, a2, List.length_cons, numbered_succ]
    · rcases a3 with ⟨b1, b2, fs, b, b3, b4, b5⟩ | ⟨b1, good, fs, b, c, w', part, b2, b3, b4, b5, b6⟩
      · refine Or.inl ⟨b1, ?_, _, _, .cons h0 h1 h2 b3, by rw [b4]; simp, ?_⟩
        · rw [hstep (by omega)] at b2
          rw [List.length_cons]
          omega
        · rw [b5, Bool.or_assoc]
      · refine Or.inr ⟨?_, _, _, _, c, w', part, by rw [b2, List.cons_append],
          .cons h0 h1 h2 b3, by rw [b4]; simp, b5, b6⟩
        intro hl
        have := b1 hl
        rw [hstep (by omega)] at this
        rw [List.length_cons]
        omega

theorem sfiPost_stop {alloc : List Tlv → Tlv → Bool} {sfi last : Byte} {w : W} {rest : List W}
    {rec : Byte} {oda : Bool} {list part : List Tlv} {code : Int}
    (hle : rec.toNat ≤ last.toNat) (hp : ∀ t ∈ part, FieldOf w.data t)
    (hf : Failing alloc sfi w code) :
    SfiPost alloc sfi last (w :: rest) rec oda list
      (log (.readRecord sfi rec) w (fin (code, list ++ part) rest)) := by
  refine ⟨rfl, ?_, Or.inr ⟨?_, [], [], false, _, w, part, rfl, .nil, by simp, hp, hf⟩⟩
  · rw [List.length_singleton, numbered_succ]; rfl
  · intro _; simp; omega

theorem sfiLoop_spec (alloc : List Tlv → Tlv → Bool) (sfi last : Byte)
    (hs1 : 1 ≤ sfi.toNat) (hs2 : sfi.toNat ≤ 30) :
    ∀ (script : List W) (rec : Byte) (oda : Bool) (list : List Tlv), rec.toNat ≤ last.toNat + 1 →
    SfiPost alloc sfi last script rec oda list (sfiLoop alloc sfi last script rec oda list) := by
  intro script
  have hlast : last.toNat < 256 := toNat_lt last
  have href : refusesSfi sfi = false := by
    simp [refusesSfi]; omega
  induction script with
  | nil =>
    intro rec oda list hle
    unfold sfiLoop
    by_cases hlt : last.toNat < rec.toNat
    · rw [if_pos hlt]
      have hr := toNat_lt rec
      exact ⟨rfl, rfl, Or.inl ⟨by omega, by simp; omega, [], false, .nil, by simp, by simp⟩⟩
    · rw [if_neg hlt, href]
      simp only [Bool.false_eq_true, if_false]
      refine ⟨rfl, ⟨[], false, .nil⟩, ?_, fun _ => by simp; omega⟩
      rw [List.length_nil, numbered_succ]; rfl
  | cons w rest ih =>
    intro rec oda list hle
    unfold sfiLoop
    by_cases hlt : last.toNat < rec.toNat
    · rw [if_pos hlt]
      have hr := toNat_lt rec
      exact ⟨rfl, rfl, Or.inl ⟨by omega, by simp; omega, [], false, .nil, by simp, by simp⟩⟩
    · rw [if_neg hlt, href]
      simp only [Bool.false_eq_true, if_false]
      have hnext : (rec + 1).toNat ≤ last.toNat + 1 := by
        rw [UInt8.toNat_add]
        simp
        omega
      by_cases h0 : w.code = 0
      · rw [if_neg (by simpa using h0)]
        by_cases h1 : w.sw = 0x9000
        · rw [if_neg (by simpa using h1)]
          by_cases hd : w.data = []
          · have : record alloc sfi w.data list = .error .uninit := by
              unfold record; rw [if_pos (by simp [hd])]
            rw [this]
            exact ⟨rfl, [], [], false, w, rest, .nil, rfl, h0, h1, hd, .readRecord sfi rec,
              by rw [List.length_nil, numbered_succ]; rfl, fun _ => by simp; omega⟩
          · obtain ⟨r, hr, hpost⟩ := record_spec alloc sfi w.data list hd
            rw [hr]
            simp only [bind_ok]
            match r, hpost with
            | .next list', ⟨hh, new, hl, hacc⟩ =>
              subst hl
              have := ih (rec + 1) oda (list ++ new) hnext
              apply sfiPost_cons (by omega) h0 h1 hacc
              simpa [hh] using this
            | .spoilt, ⟨hh, hacc⟩ =>
              have := ih (rec + 1) true list hnext
              apply sfiPost_cons (by omega) h0 h1 hacc
              rw [List.append_nil]
              have e : (oda || w.data.head? != some 0x70) = true := by simp [hh]
              rw [e]
              exact this
            | .stop code list', ⟨⟨part, hl, hpart⟩, hor⟩ =>
              subst hl
              apply sfiPost_stop (by omega) hpart
              rcases hor with ⟨ha, hb⟩ | hb
              · exact Or.inr (Or.inr (Or.inl ⟨ha, h0, h1, hb⟩))
              · exact Or.inr (Or.inr (Or.inr hb))
        · rw [if_pos (by simpa using h1)]
          have := sfiPost_stop (alloc := alloc) (sfi := sfi) (w := w) (rest := rest) (oda := oda)
            (list := list) (part := []) (code := -9) (rec := rec) (last := last) (by omega) (by simp)
            (Or.inr (Or.inl ⟨rfl, h0, h1⟩))
          simpa using this
      · rw [if_pos (by simpa using h0)]
        have := sfiPost_stop (alloc := alloc) (sfi := sfi) (w := w) (rest := rest) (oda := oda)
          (list := list) (part := []) (code := -3) (rec := rec) (last := last) (by omega) (by simp)
          (Or.inl ⟨rfl, h0⟩)
        simpa using this

theorem reads_append {tr tr' : List (Cmd × W)} {fs fs' : List Tlv} {b b' : Bool}
    (h : Reads tr fs b) (h' : Reads tr' fs' b') : Reads (tr ++ tr') (fs ++ fs') (b || b') := by
  induction h with
  | nil => simpa using h'
  | cons h0 h1 h2 _ ih =>
    rw [List.append_assoc, Bool.or_assoc]
    exact .cons h0 h1 h2 ih

/-- The READ RECORD commands the entries of an AFL ask for. -/
def commands (es : List AflEntry) : List Cmd :=
  es.flatMap fun e => numbered e.sfi e.first (e.last.toNat + 1 - e.first.toNat)

/-- No entry ends at record 255. -/
def Bounded (es : List AflEntry) : Prop := ∀ e ∈ es, e.last.toNat < 255

/-- How reading the records of an AFL ends. -/
def AflPost (alloc : List Tlv → Tlv → Bool) (afl : List Byte) (script : List W) (oda : Bool)
    (list : List Tlv) : C (Run (Int × List Tlv)) → Prop
  | .error e => e = .uninit ∧ ∃ tr fs b w post, Reads tr fs b ∧
      script = tr.map (·.2) ++ w :: post ∧ w.code = 0 ∧ w.sw = 0x9000 ∧ w.data = [] ∧
      ∃ c es rest, (∀ e ∈ es, AflEntry.WF e) ∧ afl = encAfl es ++ rest ∧
        (Bounded es → tr.map (·.1) ++ [c] <+: commands es)
  | .ok (tr, .pending c) => tr.map (·.2) = script ∧ (∃ fs b, Reads tr fs b) ∧
      ∃ es rest, (∀ e ∈ es, AflEntry.WF e) ∧ afl = encAfl es ++ rest ∧
        (Bounded es → tr.map (·.1) ++ [c] <+: commands es)
  | .ok (tr, .done (code, list') rest) => script = tr.map (·.2) ++ rest ∧
      ∃ es more, (∀ e ∈ es, AflEntry.WF e) ∧ afl = encAfl es ++ more ∧
      ((more = [] ∧ Bounded es ∧ tr.map (·.1) = commands es ∧
          ∃ fs b, Reads tr fs b ∧ list' = list ++ fs ∧ code = if oda || b then 14 else 0) ∨
       (more ≠ [] ∧ ¬ StartsWF more ∧ Bounded es ∧ tr.map (·.1) = commands es ∧
          ∃ fs b, Reads tr fs b ∧ list' = list ++ fs ∧ code = -8) ∨
       ((Bounded es → tr.map (·.1) <+: commands es) ∧
          ∃ good fs b sfi rc w part, tr = good ++ [(.readRecord sfi rc, w)] ∧ Reads good fs b ∧
            list' = list ++ fs ++ part ∧ (∀ t ∈ part, FieldOf w.data t) ∧
            Failing alloc sfi w code))

theorem numbered_prefix (sfi first : Byte) {m n : Nat} (h : m ≤ n) :
    numbered sfi first m <+: numbered sfi first n := by
  unfold numbered
  apply List.IsPrefix.map
  obtain ⟨k, rfl⟩ := Nat.exists_eq_add_of_le h
  rw [List.range_add]
  exact List.prefix_append _ _

theorem failing_code {alloc : List Tlv → Tlv → Bool} {sfi : Byte} {w : W} {code : Int}
    (h : Failing alloc sfi w code) : code ≠ 0 ∧ code ≠ 14 := by
  rcases h with ⟨h, -⟩ | ⟨h, -⟩ | ⟨h | h, -⟩ | ⟨h, -⟩ <;> omega

theorem commands_cons (e : AflEntry) (es : List AflEntry) : commands (e :: es) =
    numbered e.sfi e.first (e.last.toNat + 1 - e.first.toNat) ++ commands es := by
  simp [commands]

theorem aflLoop_spec (alloc : List Tlv → Tlv → Bool) :
    ∀ (fuel : Nat) (itr : List Byte) (oda : Bool) (list : List Tlv) (script : List W),
    itr.length % 4 = 0 → itr.length < fuel →
    AflPost alloc itr script oda list (aflLoop alloc fuel itr oda list script) := by
  intro fuel
  induction fuel with
  | zero => intro itr _ _ _ _ h; omega
  | succ fuel ih =>
    intro itr oda list script hm hf
    unfold aflLoop
    rcases aflNext_any itr hm with ⟨h1, h2⟩ | ⟨h1, h2, c, hc, h3⟩ | ⟨e, rest, h1, h2, h3, h4⟩
    · rw [h2]
      subst h1
      exact ⟨rfl, [], [], by simp, rfl, Or.inl ⟨rfl, by simp [Bounded], rfl, [], false, .nil,
        by simp, by simp⟩⟩
    · rw [h3]
      exact ⟨rfl, [], itr, by simp, rfl, Or.inr (Or.inl ⟨h1, h2, by simp [Bounded], rfl, [], false,
        .nil, by simp, rfl⟩)⟩
    · rw [h4]
      simp only [bind_ok]
      have hlen : rest.length < fuel := by
        rw [h2] at hf; simp [AflEntry.enc] at hf; omega
      have hone : ∀ x ∈ [e], AflEntry.WF x := by simpa using h1
      have hafl : itr = encAfl [e] ++ rest := by rw [h2]; simp [encAfl]
      have hcmd : commands [e] = numbered e.sfi e.first (e.last.toNat + 1 - e.first.toNat) := by
        simp [commands]
      have hs := sfiLoop_spec alloc e.sfi e.last h1.1 h1.2.1 script e.first false list
        (by have := h1.2.2.2.1; omega)
      unfold readSfi
      match sfiLoop alloc e.sfi e.last script e.first false list, hs with
      | .error er, ⟨a0, tr, fs, b, w, post, a1, a2, a3, a4, a5, c, a6, a7⟩ =>
        refine ⟨a0, tr, fs, b, w, post, a1, a2, a3, a4, a5, c, [e], rest, hone, hafl, ?_⟩
        intro hb
        have := a7 (hb e (by simp))
        rw [a6, hcmd]
        exact numbered_prefix _ _ (by omega)
      | .ok (tr, .pending c), ⟨a1, a2, a3, a4⟩ =>
        refine ⟨a1, a2, [e], rest, hone, hafl, ?_⟩
        intro hb
        have := a4 (hb e (by simp))
        rw [a3, hcmd]
        exact numbered_prefix _ _ (by omega)
      | .ok (tr, .done (code, list') rest'), ⟨a1, a2, a3⟩ =>
        rcases a3 with ⟨b1, b2, fs, b, b3, b4, b5⟩ | ⟨b1, good, fs, b, rc, w, part, b2, b3, b4, b5, b6⟩
        · -- all records read: the loop goes on
          have hcode : code = 0 ∨ code = 14 := by rw [b5]; cases b <;> simp
          have htr : tr.map (·.1) = numbered e.sfi e.first (e.last.toNat + 1 - e.first.toNat) := by
            rw [a2]; congr 1; omega
          have ih' := ih rest (oda || b) list' rest' h3 hlen
          have hstep : andThen (.ok (tr, .done (code, list') rest')) (fun a rest_1 =>
              if a.1 = 0 then aflLoop alloc fuel rest oda a.2 rest_1
              else if a.1 = 14 then aflLoop alloc fuel rest true a.2 rest_1
              else fin a rest_1) = (do
                let (l', o) ← aflLoop alloc fuel rest (oda || b) list' rest'
                .ok (tr ++ l', o)) := by
            simp only [andThen, bind_ok]
            cases b with
            | false =>
              have : code = 0 := by rw [b5]; rfl
              rw [if_pos this, Bool.or_false]
            | true =>
              have : code = 14 := by rw [b5]; rfl
              rw [if_neg (by omega), if_pos this, Bool.or_true]
          rw [hstep]
          match aflLoop alloc fuel rest (oda || b) list' rest', ih' with
          | .error er, ⟨c1, tr', fs', b', w', post, c2, c3, c4, c5, c6, c, es, more, c7, c8, c9⟩ =>
            refine ⟨c1, _, _, _, w', post, reads_append b3 c2, by rw [a1, c3]; simp, c4, c5, c6, c,
              e :: es, more, ?_, ?_, ?_⟩
            · intro x hx
              rcases List.mem_cons.mp hx with rfl | hx
              · exact h1
              · exact c7 x hx
            · rw [h2, c8, encAfl_cons, List.append_assoc]
            · intro hb
              rw [commands_cons, List.map_append, htr, List.append_assoc]
              exact (List.prefix_append_right_inj _).mpr (c9 (fun x hx => hb x (by simp [hx])))
          | .ok (tr', .pending c), ⟨c1, ⟨fs', b', c2⟩, es, more, c3, c4, c5⟩ =>
            refine ⟨by rw [a1, ← c1]; simp, ⟨_, _, reads_append b3 c2⟩, e :: es, more, ?_, ?_, ?_⟩
            · intro x hx
              rcases List.mem_cons.mp hx with rfl | hx
              · exact h1
              · exact c3 x hx
            · rw [h2, c4, encAfl_cons, List.append_assoc]
            · intro hb
              rw [commands_cons, List.map_append, htr, List.append_assoc]
              exact (List.prefix_append_right_inj _).mpr (c5 (fun x hx => hb x (by simp [hx])))
          | .ok (tr', .done (code', list'') rest''), ⟨c1, es, more, c2, c3, c4⟩ =>
            refine ⟨by rw [a1, c1]; simp, e :: es, more, ?_, ?_, ?_⟩
            · intro x hx
              rcases List.mem_cons.mp hx with rfl | hx
              · exact h1
              · exact c2 x hx
            · rw [h2, c3, encAfl_cons, List.append_assoc]
            · have hbnd : Bounded es → Bounded (e :: es) := by
                intro hb x hx
                rcases List.mem_cons.mp hx with rfl | hx
                · exact b1
                · exact hb x hx
              rcases c4 with ⟨d1, d2, d3, fs', b', d4, d5, d6⟩ | ⟨d0, d1, d2, d3, fs', b', d4, d5, d6⟩ |
                ⟨d1, good, fs', b', sfi, rc, w, part, d2, d3, d4, d5, d6⟩
              · refine Or.inl ⟨d1, hbnd d2, ?_, _, _, reads_append b3 d4, ?_, ?_⟩
                · rw [List.map_append, htr, d3, commands_cons]
                · rw [d5, b4, List.append_assoc]
                · rw [d6, Bool.or_assoc]
              · refine Or.inr (Or.inl ⟨d0, d1, hbnd d2, ?_, _, _, reads_append b3 d4, ?_, d6⟩)
                · rw [List.map_append, htr, d3, commands_cons]
                · rw [d5, b4, List.append_assoc]
              · refine Or.inr (Or.inr ⟨?_, tr ++ good, _, _, sfi, rc, w, part, ?_,
                  reads_append b3 d3, ?_, d5, d6⟩)
                · intro hb
                  rw [commands_cons, List.map_append, htr]
                  exact (List.prefix_append_right_inj _).mpr (d1 (fun x hx => hb x (by simp [hx])))
                · rw [d2, List.append_assoc]
                · rw [d4, b4]; simp
        · have hne := failing_code b6
          simp only [andThen, bind_ok]
          rw [if_neg hne.1, if_neg hne.2]
          refine ⟨by rw [List.append_nil]; exact a1, [e], rest, hone, hafl, Or.inr (Or.inr ⟨?_, good, fs, b, e.sfi, rc, w,
            part, by rw [List.append_nil]; exact b2, b3, b4, b5, b6⟩)⟩
          intro hb
          have := b1 (hb e (by simp))
          rw [List.append_nil, a2, hcmd]
          exact numbered_prefix _ _ (by omega)

end Verif.Tal
