import Verif.Fields
import Verif.BeNat

/-! # Properties of AFL, CVM List and IAD: C18, C19, C21 -/

set_option autoImplicit false

namespace Verif.Fields
open Verif

/-! ## C18: specification (EMV 4.4 Book 3, 10.2 and 7.5) -/

/-- SFI 1 to 30, records start at 1, the last is not before the first, and no more records
take part in offline data authentication than there are records. -/
def AflEntry.WF (e : AflEntry) : Prop :=
  1 ≤ e.sfi.toNat ∧ e.sfi.toNat ≤ 30 ∧ 1 ≤ e.first.toNat ∧ e.first.toNat ≤ e.last.toNat ∧
  e.oda.toNat ≤ e.last.toNat + 1 - e.first.toNat

instance (e : AflEntry) : Decidable e.WF := by unfold AflEntry.WF; infer_instance

/-- SFI in the five most significant bits, then the record numbers. -/
def AflEntry.enc (e : AflEntry) : List Byte :=
  [UInt8.ofNat (e.sfi.toNat * 8), e.first, e.last, e.oda]

/-- Concatenation. -/
def encAfl (es : List AflEntry) : List Byte := (es.map AflEntry.enc).flatten

theorem sfi_facts : ∀ s : Byte, 1 ≤ s.toNat → s.toNat ≤ 30 →
    UInt8.ofNat (s.toNat * 8) &&& 0x07 = 0 ∧ ¬ (UInt8.ofNat (s.toNat * 8) &&& 0xF8 = 0) ∧
    ¬ (UInt8.ofNat (s.toNat * 8) &&& 0xF8 = 0xF8) ∧
    (UInt8.ofNat (s.toNat * 8) &&& 0xF8) >>> 3 = s := by decide +kernel

theorem sfi_inv : ∀ b : Byte, b &&& 0x07 = 0 → ¬ (b &&& 0xF8 = 0) → ¬ (b &&& 0xF8 = 0xF8) →
    1 ≤ ((b &&& 0xF8) >>> 3).toNat ∧ ((b &&& 0xF8) >>> 3).toNat ≤ 30 ∧
    UInt8.ofNat (((b &&& 0xF8) >>> 3).toNat * 8) = b := by decide +kernel

theorem aflNext_enc (e : AflEntry) (h : e.WF) (rest : List Byte) (hr : rest.length % 4 = 0) :
    aflNext (e.enc ++ rest) = .ok (rest, .ok 4 e) := by
  obtain ⟨h1, h2, h3, h4, h5⟩ := h
  obtain ⟨f1, f2, f3, f4⟩ := sfi_facts e.sfi h1 h2
  unfold aflNext AflEntry.enc
  generalize UInt8.ofNat (e.sfi.toNat * 8) = b at *
  rw [if_neg (by simp), if_neg (by simp; omega)]
  simp only [List.cons_append, List.nil_append, rd_cons_zero, rd_cons_succ, bind_ok]
  have hf : ¬ e.first = 0 := by intro h; rw [h] at h3; simp at h3
  rw [if_neg (by simp [f1]), if_neg (by simp [f2, f3]), if_neg hf, if_neg (by omega),
    if_neg (by omega), suffix_eq (by simp), f4]
  rfl

/-- The first four bytes are a well-formed entry. -/
def StartsWF (afl : List Byte) : Prop := ∃ e rest, AflEntry.WF e ∧ afl = e.enc ++ rest

theorem aflNext_any (itr : List Byte) (hm : itr.length % 4 = 0) :
    (itr = [] ∧ aflNext itr = .ok ([], .eod)) ∨
    (itr ≠ [] ∧ ¬ StartsWF itr ∧ ∃ c, c < 0 ∧ aflNext itr = .ok (itr, .err c)) ∨
    (∃ e rest, AflEntry.WF e ∧ itr = e.enc ++ rest ∧ rest.length % 4 = 0 ∧
      aflNext itr = .ok (rest, .ok 4 e)) := by
  by_cases hs : StartsWF itr
  · obtain ⟨e, rest, h1, h2⟩ := hs
    have hr : rest.length % 4 = 0 := by
      rw [h2] at hm; simp [AflEntry.enc] at hm; omega
    exact Or.inr (Or.inr ⟨e, rest, h1, h2, hr, by rw [h2]; exact aflNext_enc e h1 rest hr⟩)
  · match itr, hm, hs with
    | [], _, _ => exact Or.inl ⟨rfl, rfl⟩
    | a0 :: a1 :: a2 :: a3 :: rest, hm, hs =>
      refine Or.inr (Or.inl ⟨by simp, hs, ?_⟩)
      have hl : ¬ (a0 :: a1 :: a2 :: a3 :: rest).length = 0 := by simp
      unfold aflNext
      rw [if_neg hl, if_neg (by simpa using hm)]
      simp only [rd_cons_zero, rd_cons_succ, bind_ok]
      split
      · exact ⟨_, by decide, rfl⟩
      · rename_i c1
        split
        · exact ⟨_, by decide, rfl⟩
        · rename_i c2
          split
          · exact ⟨_, by decide, rfl⟩
          · rename_i c3
            split
            · exact ⟨_, by decide, rfl⟩
            · rename_i c4
              split
              · exact ⟨_, by decide, rfl⟩
              · rename_i c5
                exfalso
                apply hs
                have c1' : a0 &&& 0x07 = 0 := by simpa using c1
                have c2' := not_or.mp c2
                obtain ⟨g1, g2, g3⟩ := sfi_inv a0 c1' c2'.1 c2'.2
                have c3' : a1.toNat ≠ 0 := by
                  intro h; exact c3 (UInt8.toNat_inj.mp (by rw [h]; rfl))
                refine ⟨⟨(a0 &&& 0xF8) >>> 3, a1, a2, a3⟩, rest, ⟨g1, g2, ?_, ?_, ?_⟩, ?_⟩
                · show 1 ≤ a1.toNat; omega
                · show a1.toNat ≤ a2.toNat; omega
                · show a3.toNat ≤ a2.toNat + 1 - a1.toNat; omega
                · simp only [AflEntry.enc]; rw [g3]; rfl
    | [_], hm, _ => simp at hm
    | [_, _], hm, _ => simp at hm
    | [_, _, _], hm, _ => simp at hm

theorem encAfl_cons (e : AflEntry) (es : List AflEntry) :
    encAfl (e :: es) = e.enc ++ encAfl es := by simp [encAfl]

theorem encAfl_length (es : List AflEntry) : (encAfl es).length = 4 * es.length := by
  induction es with
  | nil => rfl
  | cons e es ih => rw [encAfl_cons]; simp [AflEntry.enc, ih]; omega

theorem aflIterate_enc (es : List AflEntry) (h : ∀ e ∈ es, e.WF) :
    ∀ fuel, es.length < fuel → aflIterate fuel (encAfl es) = .ok (es, 0) := by
  induction es with
  | nil =>
    intro fuel hf
    match fuel, hf with
    | fuel + 1, _ => rfl
  | cons e es ih =>
    intro fuel hf
    match fuel, hf with
    | fuel + 1, hf =>
      rw [encAfl_cons, aflIterate, aflNext_enc e (h e (by simp)) _ (by rw [encAfl_length]; omega)]
      simp only [bind_ok]
      rw [ih (fun e' he => h e' (by simp [he])) fuel (by simp at hf; omega)]
      rfl

/-- **C18** (well-formed).  Iterating a well-formed AFL (1 to 63 entries) yields all its
entries in order and then end of data. -/
theorem C18_roundtrip (es : List AflEntry) (h : ∀ e ∈ es, e.WF) (h0 : es ≠ [])
    (h1 : es.length ≤ 63) : aflAll (encAfl es) = .ok (es, 0) := by
  have hl := encAfl_length es
  have hp : es.length ≠ 0 := by simpa using h0
  have hi : aflInit (encAfl es) = 0 := by
    unfold aflInit
    rw [if_neg (by omega), if_neg (by omega), if_neg (by omega)]
  unfold aflAll
  rw [if_neg (by simp [hi])]
  exact aflIterate_enc es h _ (by omega)

example : aflAll [0x08, 1, 2, 0, 0x10, 1, 3, 1] = .ok ([⟨1, 1, 2, 0⟩, ⟨2, 1, 3, 1⟩], 0) := by
  decide

theorem aflIterate_any : ∀ (fuel : Nat) (itr : List Byte), itr.length % 4 = 0 →
    itr.length < fuel → ∃ es rest c, aflIterate fuel itr = .ok (es, c) ∧
      (∀ e ∈ es, AflEntry.WF e) ∧ itr = encAfl es ++ rest ∧
      ((c = 0 ∧ rest = []) ∨ (c < 0 ∧ rest ≠ [] ∧ ¬ StartsWF rest)) := by
  intro fuel
  induction fuel with
  | zero => intro itr _ h; omega
  | succ fuel ih =>
    intro itr hm hf
    rcases aflNext_any itr hm with ⟨h1, h2⟩ | ⟨h1, h2, c, hc, h3⟩ | ⟨e, rest, h1, h2, h3, h4⟩
    · subst h1
      exact ⟨[], [], 0, rfl, by simp, rfl, Or.inl ⟨rfl, rfl⟩⟩
    · refine ⟨[], itr, c, ?_, by simp, rfl, Or.inr ⟨hc, h1, h2⟩⟩
      rw [aflIterate, h3]; rfl
    · obtain ⟨es, rest', c, i1, i2, i3, i4⟩ := ih rest h3
        (by rw [h2] at hf; simp [AflEntry.enc] at hf; omega)
      refine ⟨e :: es, rest', c, ?_, ?_, ?_, i4⟩
      · rw [aflIterate, h4]; simp only [bind_ok]; rw [i1]; rfl
      · intro e' he
        rcases List.mem_cons.mp he with he | he
        · rw [he]; exact h1
        · exact i2 e' he
      · rw [h2, i3, encAfl_cons, List.append_assoc]

theorem enc_inj {e e' : AflEntry} {a b : List Byte} (h : e.WF) (h' : e'.WF)
    (he : e.enc ++ a = e'.enc ++ b) : e = e' ∧ a = b := by
  simp only [AflEntry.enc, List.cons_append, List.nil_append, List.cons.injEq] at he
  obtain ⟨e1, e2, e3, e4, e5⟩ := he
  obtain ⟨_, _, _, f4⟩ := sfi_facts e.sfi h.1 h.2.1
  obtain ⟨_, _, _, f4'⟩ := sfi_facts e'.sfi h'.1 h'.2.1
  refine ⟨?_, e5⟩
  cases e; cases e'
  simp only at *
  rw [e1, f4'] at f4
  subst f4
  simp [e2, e3, e4]

theorem encAfl_inj {es : List AflEntry} : ∀ {es' : List AflEntry} {rest : List Byte},
    (∀ e ∈ es, e.WF) → (∀ e ∈ es', e.WF) → encAfl es = encAfl es' ++ rest → rest ≠ [] →
    StartsWF rest := by
  induction es with
  | nil =>
    intro es' rest _ _ h hr
    simp [encAfl] at h
    exact absurd h.2 hr
  | cons e es ih =>
    intro es' rest h h' he hr
    cases es' with
    | nil =>
      refine ⟨e, encAfl es, h e (by simp), ?_⟩
      rw [← encAfl_cons, he]; rfl
    | cons e' es' =>
      rw [encAfl_cons, encAfl_cons, List.append_assoc] at he
      obtain ⟨-, h2⟩ := enc_inj (h e (by simp)) (h' e' (by simp)) he
      exact ih (fun x hx => h x (by simp [hx])) (fun x hx => h' x (by simp [hx])) h2 hr

/-- **C18** (any input).  Parsing any byte string stops without leaving the field.  Either the
length is refused (empty, not a multiple of 4, or above 252), or the entries reported are
well-formed and encode a prefix of the field, and what follows is either nothing (end of data)
or does not start with a well-formed entry (error).  End of data is reached exactly for the
well-formed AFLs. -/
theorem C18_any (afl : List Byte) :
    ∃ es c, aflAll afl = .ok (es, c) ∧
      (∀ e ∈ es, AflEntry.WF e) ∧
      (∃ rest, afl = encAfl es ++ rest ∧
        ((c = 0 ∧ rest = []) ∨
         (c < 0 ∧ rest ≠ [] ∧ ¬ StartsWF rest) ∨
         (es = [] ∧ c ≠ 0 ∧ (afl = [] ∨ afl.length % 4 ≠ 0 ∨ afl.length > 252)))) ∧
      (c = 0 ↔ ∃ es' : List AflEntry, es' ≠ [] ∧ es'.length ≤ 63 ∧ (∀ e ∈ es', AflEntry.WF e) ∧
        afl = encAfl es') := by
  have hback : ∀ es' : List AflEntry, es' ≠ [] → es'.length ≤ 63 → (∀ e ∈ es', AflEntry.WF e) →
      afl = encAfl es' → ∀ es c, aflAll afl = .ok (es, c) → c = 0 := by
    intro es' h1 h2 h3 h4 es c h
    rw [h4, C18_roundtrip es' h3 h1 h2] at h
    simp only [Except.ok.injEq, Prod.mk.injEq] at h
    exact h.2.symm
  have hrefuse : ∀ c : Int, aflAll afl = .ok ([], c) → c ≠ 0 →
      (afl = [] ∨ afl.length % 4 ≠ 0 ∨ afl.length > 252) →
      ∃ es c, aflAll afl = .ok (es, c) ∧
      (∀ e ∈ es, AflEntry.WF e) ∧
      (∃ rest, afl = encAfl es ++ rest ∧
        ((c = 0 ∧ rest = []) ∨
         (c < 0 ∧ rest ≠ [] ∧ ¬ StartsWF rest) ∨
         (es = [] ∧ c ≠ 0 ∧ (afl = [] ∨ afl.length % 4 ≠ 0 ∨ afl.length > 252)))) ∧
      (c = 0 ↔ ∃ es' : List AflEntry, es' ≠ [] ∧ es'.length ≤ 63 ∧ (∀ e ∈ es', AflEntry.WF e) ∧
        afl = encAfl es') := by
    intro c h hc hl
    refine ⟨[], c, h, by simp, ⟨afl, rfl, Or.inr (Or.inr ⟨rfl, hc, hl⟩)⟩, ?_⟩
    constructor
    · intro h'; exact absurd h' hc
    · rintro ⟨es', h1, h2, h3, h4⟩
      exact hback es' h1 h2 h3 h4 _ _ h
  by_cases c0 : afl.length = 0
  · have hi : aflInit afl = -1 := by rw [aflInit, if_pos c0]
    exact hrefuse (-1) (by unfold aflAll; rw [if_pos (by rw [hi]; decide), hi]) (by decide)
      (Or.inl (by simpa using c0))
  by_cases c1 : afl.length % 4 ≠ 0
  · have hi : aflInit afl = 1 := by rw [aflInit, if_neg c0, if_pos c1]
    exact hrefuse 1 (by unfold aflAll; rw [if_pos (by rw [hi]; decide), hi]) (by decide)
      (Or.inr (Or.inl c1))
  by_cases c2 : afl.length > 252
  · have hi : aflInit afl = 2 := by rw [aflInit, if_neg c0, if_neg c1, if_pos c2]
    exact hrefuse 2 (by unfold aflAll; rw [if_pos (by rw [hi]; decide), hi]) (by decide)
      (Or.inr (Or.inr c2))
  have hi : aflInit afl = 0 := by rw [aflInit, if_neg c0, if_neg c1, if_neg c2]
  obtain ⟨es, rest, c, i1, i2, i3, i4⟩ := aflIterate_any (afl.length + 1) afl (by omega) (by omega)
  have hall : aflAll afl = .ok (es, c) := by
    unfold aflAll; rw [if_neg (by simp [hi]), i1]
  refine ⟨es, c, hall, i2, ⟨rest, i3, ?_⟩, ?_⟩
  · rcases i4 with h | h
    · exact Or.inl h
    · exact Or.inr (Or.inl h)
  · constructor
    · intro h
      rcases i4 with ⟨_, hr⟩ | ⟨hc, _⟩
      · rw [hr, List.append_nil] at i3
        have hl := encAfl_length es
        rw [← i3] at hl
        exact ⟨es, by rintro rfl; simp at hl; simp [hl] at c0, by omega, i2, i3⟩
      · omega
    · rintro ⟨es', h1, h2, h3, h4⟩
      exact hback es' h1 h2 h3 h4 _ _ hall

/-- The outcome is unique, so together with `C18_any` the well-formed prefix is exact. -/
example : aflAll [0x08, 1, 2, 0, 0x10, 3, 1, 1] = .ok ([⟨1, 1, 2, 0⟩], -6) := by decide

/-! ## C19: CVM List (EMV 4.4 Book 3, 10.5) -/

open BerSpec in
theorem beLoop_four (a b c d : Byte) (rest : List Byte) :
    beLoop 4 (a :: b :: c :: d :: rest) 0 0 = .ok (beNat [a, b, c, d]) := by
  have ha := a.toNat_lt; have hb := b.toNat_lt; have hc := c.toNat_lt; have hd := d.toNat_lt
  have key : ∀ x y : Nat, x < 2 ^ 24 → y < 256 → (x <<< 8) % 2 ^ 32 ||| y = x * 256 + y := by
    intro x y hx hy
    rw [Nat.mod_eq_of_lt (by rw [Nat.shiftLeft_eq]; omega)]
    have hy' : y < 2 ^ 8 := hy
    rw [← Nat.shiftLeft_add_eq_or_of_lt hy', Nat.shiftLeft_eq]
  simp only [beLoop, rd_cons_zero, rd_cons_succ, bind_ok]
  rw [key 0 a.toNat (by omega) ha, key _ b.toNat (by omega) hb, key _ c.toNat (by omega) hc,
    key _ d.toNat (by omega) hd]
  simp only [beNat, List.foldl]

/-- Concatenated CV rules. -/
def encRules (rs : List CvRule) : List Byte := (rs.map (fun r => [r.cvm, r.cond])).flatten

theorem encRules_cons (r : CvRule) (rs : List CvRule) :
    encRules (r :: rs) = r.cvm :: r.cond :: encRules rs := by simp [encRules]

theorem encRules_length (rs : List CvRule) : (encRules rs).length = 2 * rs.length := by
  induction rs with
  | nil => rfl
  | cons r rs ih => rw [encRules_cons]; simp [ih]; omega

theorem cvmIterate_enc (rs : List CvRule) : ∀ fuel, rs.length < fuel →
    cvmIterate fuel (encRules rs) = .ok (rs, 0) := by
  induction rs with
  | nil =>
    intro fuel hf
    match fuel, hf with
    | fuel + 1, _ => rfl
  | cons r rs ih =>
    intro fuel hf
    match fuel, hf with
    | fuel + 1, hf =>
      have hn : cvmNext (encRules (r :: rs)) = .ok (encRules rs, .ok 2 r) := by
        rw [encRules_cons]
        unfold cvmNext
        have hl := encRules_length rs
        rw [if_neg (by simp), if_neg (by simp; omega)]
        simp only [rd_cons_zero, rd_cons_succ, bind_ok]
        rw [suffix_eq (by simp)]
        rfl
      rw [cvmIterate, hn]
      simp only [bind_ok]
      rw [ih fuel (by simp at hf; omega)]
      rfl

theorem exists_rules : ∀ (n : Nat) (b : List Byte), b.length = 2 * n →
    ∃ rs : List CvRule, b = encRules rs ∧ rs.length = n := by
  intro n
  induction n with
  | zero => intro b h; exact ⟨[], by simpa [encRules] using h, rfl⟩
  | succ n ih =>
    intro b h
    match b, h with
    | x :: y :: b, h =>
      obtain ⟨rs, h1, h2⟩ := ih b (by simp at h; omega)
      exact ⟨⟨x, y⟩ :: rs, by rw [encRules_cons, h1], by simp [h2]⟩
    | [_], h => simp at h; omega

open BerSpec in
/-- **C19** (accepted).  A CVM List of amounts X, Y (4 bytes each) and 1 to 122 CV rules is
parsed into the big-endian amounts and exactly those rules in order. -/
theorem C19_accept (x y : List Byte) (hx : x.length = 4) (hy : y.length = 4) (rs : List CvRule)
    (h1 : rs ≠ []) (h2 : rs.length ≤ 122) :
    cvmAll (x ++ y ++ encRules rs) = .ok (.ok (beNat x, beNat y, rs, 0)) := by
  have hp : rs.length ≠ 0 := by simpa using h1
  match x, hx, y, hy with
  | [a, b, c, d], _, [e, f, g, h], _ =>
    have hl := encRules_length rs
    have hlen : ([a, b, c, d] ++ [e, f, g, h] ++ encRules rs).length = 8 + 2 * rs.length := by
      simp [hl]; omega
    have hi : cvmInit ([a, b, c, d] ++ [e, f, g, h] ++ encRules rs) =
        .ok (.ok (beNat [a, b, c, d], beNat [e, f, g, h], encRules rs)) := by
      unfold cvmInit
      rw [if_neg (by omega), if_neg (by omega), if_neg (by omega), if_neg (by omega),
        if_neg (by omega)]
      rw [suffix_eq (by omega), suffix_eq (by omega)]
      simp only [List.cons_append, List.nil_append, List.drop_succ_cons, List.drop_zero, bind_ok,
        beLoop_four]
    unfold cvmAll
    rw [hi]
    simp only [bind_ok]
    rw [cvmIterate_enc rs _ (by omega)]
    rfl

/-- **C19** (shape and rejection).  Every other length is rejected with an error code, and
every string of an accepted length (10 to 252, even) has the shape of `C19_accept`. -/
theorem C19_reject (b : List Byte) :
    (¬ (10 ≤ b.length ∧ b.length ≤ 252 ∧ b.length % 2 = 0) ∧
      ∃ c, c ≠ 0 ∧ cvmAll b = .ok (.error c)) ∨
    (∃ x y rs, b = x ++ y ++ encRules rs ∧ x.length = 4 ∧ y.length = 4 ∧ rs ≠ [] ∧
      rs.length ≤ 122) := by
  by_cases h : 10 ≤ b.length ∧ b.length ≤ 252 ∧ b.length % 2 = 0
  · obtain ⟨h1, h2, h3⟩ := h
    right
    obtain ⟨rs, r1, r2⟩ := exists_rules ((b.length - 8) / 2) (b.drop 8) (by simp; omega)
    refine ⟨b.take 4, (b.drop 4).take 4, rs, ?_, by simp; omega, by simp; omega, ?_, by omega⟩
    · rw [← r1, List.append_assoc]
      have : (b.drop 4).take 4 ++ b.drop 8 = b.drop 4 := by
        rw [show b.drop 8 = (b.drop 4).drop 4 by simp, List.take_append_drop]
      rw [this, List.take_append_drop]
    · rintro rfl; simp at r2; omega
  · left
    refine ⟨h, ?_⟩
    have key : ∃ c, c ≠ 0 ∧ cvmInit b = .ok (.error c) := by
      unfold cvmInit
      by_cases c0 : b.length = 0
      · exact ⟨-1, by decide, by rw [if_pos c0]⟩
      by_cases c1 : b.length % 2 ≠ 0
      · exact ⟨1, by decide, by rw [if_neg c0, if_pos c1]⟩
      by_cases c2 : b.length < 4 + 4 + 2
      · exact ⟨2, by decide, by rw [if_neg c0, if_neg c1, if_pos c2]⟩
      · exact ⟨4, by decide, by
          rw [if_neg c0, if_neg c1, if_neg c2, if_neg (by omega), if_pos (by omega)]⟩
    obtain ⟨c, hc, hi⟩ := key
    exact ⟨c, hc, by rw [cvmAll, hi]; rfl⟩

example : cvmAll [0, 0, 0, 100, 0, 0, 1, 0, 0x42, 0x01, 0x1F, 0x00] =
    .ok (.ok (100, 256, [⟨0x42, 1⟩, ⟨0x1F, 0⟩], 0)) := by decide

/-! ## C21: IAD (EMV 4.4 Book 3 C9; M/Chip; VCPS Appendix M) -/

/-- Byte `i` of the field, counted from 1 as the specifications do. -/
def byteAt (iad : List Byte) (i : Nat) : Nat := (iad.getD (i - 1) 0).toNat

/-- Common Core Definitions, format code 'A', cryptogram version 5 or 6. -/
def IsCcd (iad : List Byte) : Prop :=
  iad.length = 32 ∧ byteAt iad 1 = 0x0F ∧ (byteAt iad 2 = 0xA5 ∨ byteAt iad 2 = 0xA6) ∧
  byteAt iad 17 = 0x0F

/-- M/Chip: the CVN is 1x with x one of 0, 1, 4, 5; length 18, 20, 26 or 28. -/
def IsMChip (iad : List Byte) : Prop :=
  (iad.length = 18 ∨ iad.length = 20 ∨ iad.length = 26 ∨ iad.length = 28) ∧
  (byteAt iad 2 = 0x10 ∨ byteAt iad 2 = 0x11 ∨ byteAt iad 2 = 0x14 ∨ byteAt iad 2 = 0x15)

/-- Visa IAD format 0/1/3: length byte 6, CVR length byte 3. -/
def IsVisa013 (iad : List Byte) : Prop :=
  7 ≤ iad.length ∧ byteAt iad 1 = 6 ∧ byteAt iad 4 = 3

/-- Visa IAD format 2/4. -/
def IsVisa24 (iad : List Byte) : Prop :=
  iad.length = 32 ∧ byteAt iad 1 = 0x1F ∧ byteAt iad 9 < 16

/-- The documented meaning of each format.  Where the M/Chip and Visa descriptions overlap,
M/Chip wins. -/
def Is (iad : List Byte) : IadFormat → Prop
  | .ccd => IsCcd iad
  | .mchip4 => IsMChip iad ∧ iad.length = 18
  | .mchipAdvance => IsMChip iad ∧ iad.length ≠ 18
  | .vsdc0 => IsVisa013 iad ∧ ¬ IsMChip iad ∧ byteAt iad 3 / 16 = 0
  | .vsdc1 => IsVisa013 iad ∧ ¬ IsMChip iad ∧ byteAt iad 3 / 16 = 1
  | .vsdc3 => IsVisa013 iad ∧ ¬ IsMChip iad ∧ byteAt iad 3 / 16 = 3
  | .vsdc2 => IsVisa24 iad ∧ byteAt iad 2 / 16 = 2
  | .vsdc4 => IsVisa24 iad ∧ byteAt iad 2 / 16 = 4
  | .invalid => iad = [] ∨
      (IsVisa013 iad ∧ ¬ IsMChip iad ∧ byteAt iad 3 / 16 ∉ [0, 1, 3]) ∨
      (IsVisa24 iad ∧ byteAt iad 2 / 16 ∉ [2, 4])
  | .unknown => iad ≠ [] ∧ ¬ IsCcd iad ∧ ¬ IsMChip iad ∧ ¬ IsVisa013 iad ∧ ¬ IsVisa24 iad

theorem rdIs_eq {iad : List Byte} {i : Nat} (h : i < iad.length) (p : Byte → Bool) :
    rdIs iad i p = .ok (p (iad.getD i 0)) := by
  simp [rdIs, rd_eq h, List.getD_eq_getElem?_getD, h]

theorem rd_getD {iad : List Byte} {i : Nat} (h : i < iad.length) :
    rd iad i = .ok (iad.getD i 0) := by
  simp [rd_eq h, List.getD_eq_getElem?_getD, h]

theorem andC_ok (a : Bool) (b : C Bool) : andC (.ok a) b = if a then b else .ok false := by
  cases a <;> rfl

theorem masks : ∀ b : Byte,
    ((b &&& 0xF0 == 0xA0) = true ↔ b.toNat / 16 = 10) ∧
    ((b &&& 0x0F == 0x05 || b &&& 0x0F == 0x06) = true ↔ (b.toNat % 16 = 5 ∨ b.toNat % 16 = 6)) ∧
    ((b &&& 0xF0 == 0x10) = true ↔ b.toNat / 16 = 1) ∧
    ((b &&& 0x08 == 0) = true ↔ b.toNat / 8 % 2 = 0) ∧
    ((b &&& 0x02 == 0) = true ↔ b.toNat / 2 % 2 = 0) ∧
    ((b &&& 0xF0 == 0) = true ↔ b.toNat < 16) ∧
    ((b &&& 0xF0) >>> 4).toNat = b.toNat / 16 := by decide +kernel

theorem byte_eq (b : Byte) (k : Byte) : (b == k) = true ↔ b.toNat = k.toNat := by
  rw [beq_iff_eq, ← UInt8.toNat_inj]

theorem nib_eq (b : Byte) (k : Byte) : (b &&& 0xF0) >>> 4 = k ↔ b.toNat / 16 = k.toNat := by
  rw [← UInt8.toNat_inj, (masks b).2.2.2.2.2.2]

theorem iadVisa_is (iad : List Byte) (h0 : iad ≠ []) (hc : ¬ IsCcd iad) (hm : ¬ IsMChip iad) :
    ∃ f, iadVisa iad = .ok f ∧ Is iad f := by
  unfold iadVisa
  by_cases h1 : IsVisa013 iad
  · obtain ⟨l, b1, b4⟩ := id h1
    have hcond : andC (.ok (decide (7 ≤ iad.length)))
        (andC (rdIs iad 0 (· == 0x06)) (rdIs iad 3 (· == 0x03))) = .ok true := by
      rw [rdIs_eq (by omega), rdIs_eq (by omega)]
      have e1 : (iad.getD 0 0 == 0x06) = true := (byte_eq _ _).mpr b1
      have e2 : (iad.getD 3 0 == 0x03) = true := (byte_eq _ _).mpr b4
      simp only [andC_ok, l, e1, e2, decide_true, if_true]
    rw [hcond]
    simp only [bind_ok, if_true]
    rw [rd_getD (by omega)]
    simp only [bind_ok]
    refine ⟨_, rfl, ?_⟩
    have hb : byteAt iad 3 = (iad.getD 2 0).toNat := rfl
    simp only [nib_eq]
    split
    · rename_i c; exact ⟨h1, hm, by rw [hb]; simpa using c⟩
    · split
      · rename_i c; exact ⟨h1, hm, by rw [hb]; simpa using c⟩
      · split
        · rename_i c; exact ⟨h1, hm, by rw [hb]; simpa using c⟩
        · rename_i c0 c1 c3
          refine Or.inr (Or.inl ⟨h1, hm, ?_⟩)
          rw [hb]
          simp only [List.mem_cons, List.not_mem_nil, or_false, not_or]
          exact ⟨c0, c1, c3⟩
  · have hcond : andC (.ok (decide (7 ≤ iad.length)))
        (andC (rdIs iad 0 (· == 0x06)) (rdIs iad 3 (· == 0x03))) = .ok false := by
      by_cases l : 7 ≤ iad.length
      · rw [rdIs_eq (by omega), rdIs_eq (by omega)]
        simp only [andC_ok, l, decide_true, if_true]
        split
        · rename_i e1
          congr 1
          apply Bool.eq_false_iff.mpr
          intro e2
          exact h1 ⟨l, (byte_eq _ _).mp e1, (byte_eq _ _).mp e2⟩
        · rfl
      · simp [andC_ok, l]
    rw [hcond]
    simp only [bind_ok, Bool.false_eq_true, if_false]
    by_cases h2 : IsVisa24 iad
    · obtain ⟨l, b1, b9⟩ := id h2
      have hcond : andC (.ok (decide (iad.length = 32)))
          (andC (rdIs iad 0 (· == 0x1F)) (rdIs iad 8 (fun b => b &&& 0xF0 == 0))) = .ok true := by
        rw [rdIs_eq (by omega), rdIs_eq (by omega)]
        have e1 : (iad.getD 0 0 == 0x1F) = true := (byte_eq _ _).mpr b1
        have e2 : (iad.getD 8 0 &&& 0xF0 == 0) = true := (masks _).2.2.2.2.2.1.mpr b9
        simp only [andC_ok, l, e1, e2, decide_true, if_true]
      rw [hcond]
      simp only [bind_ok, if_true]
      rw [rd_getD (by omega)]
      simp only [bind_ok]
      refine ⟨_, rfl, ?_⟩
      have hb : byteAt iad 2 = (iad.getD 1 0).toNat := rfl
      simp only [nib_eq]
      split
      · rename_i c; exact ⟨h2, by rw [hb]; simpa using c⟩
      · split
        · rename_i c; exact ⟨h2, by rw [hb]; simpa using c⟩
        · rename_i c0 c1
          refine Or.inr (Or.inr ⟨h2, ?_⟩)
          rw [hb]
          simp only [List.mem_cons, List.not_mem_nil, or_false, not_or]
          exact ⟨c0, c1⟩
    · have hcond : andC (.ok (decide (iad.length = 32)))
          (andC (rdIs iad 0 (· == 0x1F)) (rdIs iad 8 (fun b => b &&& 0xF0 == 0))) = .ok false := by
        by_cases l : iad.length = 32
        · rw [rdIs_eq (by omega), rdIs_eq (by omega)]
          simp only [andC_ok, l, decide_true, if_true]
          split
          · rename_i e1
            congr 1
            apply Bool.eq_false_iff.mpr
            intro e2
            exact h2 ⟨l, (byte_eq _ _).mp e1, (masks _).2.2.2.2.2.1.mp e2⟩
          · rfl
        · simp [andC_ok, l]
      rw [hcond]
      exact ⟨_, rfl, h0, hc, hm, h1, h2⟩

/-- The bit tests of the code mean CVN 10, 11, 14 or 15. -/
theorem mchip_cvn : ∀ b : Byte, ((b &&& 0xF0 == 0x10) = true ∧ (b &&& 0x08 == 0) = true ∧
    (b &&& 0x02 == 0) = true) ↔
    (b.toNat = 0x10 ∨ b.toNat = 0x11 ∨ b.toNat = 0x14 ∨ b.toNat = 0x15) := by decide +kernel

/-- The bit tests of the code mean CCI A5 or A6. -/
theorem ccd_cci : ∀ b : Byte, ((b &&& 0xF0 == 0xA0) = true ∧
    (b &&& 0x0F == 0x05 || b &&& 0x0F == 0x06) = true) ↔ (b.toNat = 0xA5 ∨ b.toNat = 0xA6) := by
  decide +kernel

theorem ccd_cond (iad : List Byte) :
    ∃ r, andC (.ok (decide (iad.length = 32)))
        (andC (rdIs iad 0 (· == 0x0F))
        (andC (rdIs iad 1 (fun b => b &&& 0xF0 == 0xA0))
        (andC (rdIs iad 1 (fun b => b &&& 0x0F == 0x05 || b &&& 0x0F == 0x06))
          (rdIs iad 16 (· == 0x0F))))) = .ok r ∧ (r = true ↔ IsCcd iad) := by
  by_cases l : iad.length = 32
  · rw [rdIs_eq (by omega), rdIs_eq (by omega), rdIs_eq (by omega), rdIs_eq (by omega)]
    refine ⟨(iad.getD 0 0 == 0x0F) && ((iad.getD 1 0 &&& 0xF0 == 0xA0) &&
      ((iad.getD 1 0 &&& 0x0F == 0x05 || iad.getD 1 0 &&& 0x0F == 0x06) &&
        (iad.getD 16 0 == 0x0F))), ?_, ?_⟩
    · simp only [andC_ok, l, decide_true, if_true]
      cases (iad.getD 0 0 == 0x0F) <;> cases (iad.getD 1 0 &&& 0xF0 == 0xA0) <;>
        cases (iad.getD 1 0 &&& 0x0F == 0x05 || iad.getD 1 0 &&& 0x0F == 0x06) <;> rfl
    · simp only [Bool.and_eq_true]
      have h1 := byte_eq (iad.getD 0 0) 0x0F
      have h2 := ccd_cci (iad.getD 1 0)
      have h3 := byte_eq (iad.getD 16 0) 0x0F
      constructor
      · rintro ⟨a, b, c, d⟩
        exact ⟨l, h1.mp a, h2.mp ⟨b, c⟩, h3.mp d⟩
      · rintro ⟨_, a, b, c⟩
        exact ⟨h1.mpr a, (h2.mpr b).1, (h2.mpr b).2, h3.mpr c⟩
  · refine ⟨false, by simp [andC_ok, l], ?_⟩
    constructor
    · intro h; simp at h
    · rintro ⟨h, _⟩; exact absurd h l

theorem mchip_cond (iad : List Byte) :
    ∃ r, andC (.ok (decide (18 ≤ iad.length)))
        (andC (rdIs iad 1 (fun b => b &&& 0xF0 == 0x10))
        (andC (rdIs iad 1 (fun b => b &&& 0x08 == 0))
          (rdIs iad 1 (fun b => b &&& 0x02 == 0)))) = .ok r ∧
      (r = true ↔ (18 ≤ iad.length ∧ (byteAt iad 2 = 0x10 ∨ byteAt iad 2 = 0x11 ∨
        byteAt iad 2 = 0x14 ∨ byteAt iad 2 = 0x15))) := by
  by_cases l : 18 ≤ iad.length
  · rw [rdIs_eq (by omega), rdIs_eq (by omega), rdIs_eq (by omega)]
    refine ⟨(iad.getD 1 0 &&& 0xF0 == 0x10) && ((iad.getD 1 0 &&& 0x08 == 0) &&
      (iad.getD 1 0 &&& 0x02 == 0)), ?_, ?_⟩
    · simp only [andC_ok, l, decide_true, if_true]
      cases (iad.getD 1 0 &&& 0xF0 == 0x10) <;> cases (iad.getD 1 0 &&& 0x08 == 0) <;> rfl
    · simp only [Bool.and_eq_true]
      have h2 := mchip_cvn (iad.getD 1 0)
      constructor
      · intro h; exact ⟨l, h2.mp h⟩
      · intro h; exact h2.mpr h.2
  · refine ⟨false, by simp [andC_ok, l], ?_⟩
    constructor
    · intro h; simp at h
    · rintro ⟨h, _⟩; exact absurd h l

theorem iadFormat_is (iad : List Byte) : ∃ f, iadFormat iad = .ok f ∧ Is iad f := by
  unfold iadFormat
  by_cases h0 : iad.length = 0
  · exact ⟨.invalid, by rw [if_pos h0], Or.inl (by simpa using h0)⟩
  have hne : iad ≠ [] := by simpa using h0
  rw [if_neg h0]
  obtain ⟨r, hr, hri⟩ := ccd_cond iad
  rw [hr]
  simp only [bind_ok]
  cases r with
  | true => exact ⟨_, rfl, hri.mp rfl⟩
  | false =>
    have hc : ¬ IsCcd iad := fun h => by have := hri.mpr h; simp at this
    simp only [Bool.false_eq_true, if_false]
    obtain ⟨q, hq, hqi⟩ := mchip_cond iad
    rw [hq]
    simp only [bind_ok]
    cases q with
    | false =>
      simp only [Bool.false_eq_true, if_false]
      refine iadVisa_is iad hne hc ?_
      rintro ⟨hl, hb⟩
      have := hqi.mpr ⟨by omega, hb⟩
      simp at this
    | true =>
      obtain ⟨hl, hb⟩ := hqi.mp rfl
      simp only [if_true]
      by_cases l18 : iad.length = 18
      · rw [if_pos l18]
        exact ⟨_, rfl, ⟨Or.inl l18, hb⟩, l18⟩
      · rw [if_neg l18]
        by_cases ladv : iad.length = 20 ∨ iad.length = 26 ∨ iad.length = 28
        · rw [if_pos ladv]
          exact ⟨_, rfl, ⟨Or.inr ladv, hb⟩, l18⟩
        · rw [if_neg ladv]
          refine iadVisa_is iad hne hc ?_
          rintro ⟨hl', -⟩
          omega

theorem Is_unique (iad : List Byte) (f g : IadFormat) (hf : Is iad f) (hg : Is iad g) : f = g := by
  have x1 : ¬ (IsCcd iad ∧ IsMChip iad) := by
    rintro ⟨⟨_, _⟩, ⟨_, _⟩⟩; omega
  have x2 : ¬ (IsCcd iad ∧ IsVisa013 iad) := by
    rintro ⟨⟨_, h, _⟩, ⟨_, h', _⟩⟩; omega
  have x3 : ¬ (IsCcd iad ∧ IsVisa24 iad) := by
    rintro ⟨⟨_, h, _⟩, ⟨_, h', _⟩⟩; omega
  have x4 : ¬ (IsMChip iad ∧ IsVisa24 iad) := by
    rintro ⟨⟨h, _⟩, ⟨h', _⟩⟩; omega
  have x5 : ¬ (IsVisa013 iad ∧ IsVisa24 iad) := by
    rintro ⟨⟨_, h, _⟩, ⟨_, h', _⟩⟩; omega
  have e1 : iad = [] → ¬ IsCcd iad := by rintro rfl ⟨h, _⟩; simp at h
  have e2 : iad = [] → ¬ IsMChip iad := by rintro rfl ⟨h, _⟩; simp at h
  have e3 : iad = [] → ¬ IsVisa013 iad := by rintro rfl ⟨h, _⟩; simp at h
  have e4 : iad = [] → ¬ IsVisa24 iad := by rintro rfl ⟨h, _⟩; simp at h
  cases f <;> cases g <;> simp only [Is] at hf hg <;> first | rfl | (exfalso; grind)

/-- **C21**.  Every string is assigned exactly one format without reading outside of it: the
format reported is the one and only format whose documented description the string meets. -/
theorem C21_format (iad : List Byte) :
    ∃ f, iadFormat iad = .ok f ∧ ∀ g, Is iad g ↔ g = f := by
  obtain ⟨f, h1, h2⟩ := iadFormat_is iad
  refine ⟨f, h1, fun g => ⟨fun hg => Is_unique iad g f hg h2, ?_⟩⟩
  rintro rfl; exact h2

example : iadFormat [0x06, 0x01, 0x12, 0x03, 0xA0, 0, 0] = .ok .vsdc1 := by decide
example : iadFormat (0x0F :: 0xA5 :: (List.replicate 14 0 ++ 0x0F :: List.replicate 15 0)) =
    .ok .ccd := by decide
example : iadFormat (0 :: 0x14 :: List.replicate 24 0) = .ok .mchipAdvance := by decide

end Verif.Fields
