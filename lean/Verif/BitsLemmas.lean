import Verif.Bits
import Verif.StrListProps

/-!
# Specification vocabulary for descriptions of bit fields, and lemmas

EMV numbers the bytes of a field from 1 (first) and the bits of a byte from 8 (most significant)
to 1.  A description is specified as a table of `Row`s in that numbering.
-/

set_option autoImplicit false

namespace Verif.Bits
open Verif StrList Formats

/-! ## Specification vocabulary -/

/-- Bit `q.2` (8 to 1) of byte `q.1` (from 1) of the field is set. -/
def bitSet (f : List Byte) (q : Nat × Nat) : Bool :=
  decide ((f.getD (q.1 - 1) 0).toNat / 2 ^ (q.2 - 1) % 2 = 1)

/-- The number in bits `hi` to `lo` of byte `byte` of the field. -/
def bitsVal (f : List Byte) (byte hi lo : Nat) : Nat :=
  (f.getD (byte - 1) 0).toNat / 2 ^ (lo - 1) % 2 ^ (hi + 1 - lo)

/-- Bits `hi` to `lo` of byte `byte`. -/
def bits (byte hi lo : Nat) : List (Nat × Nat) :=
  ((List.range (hi + 1 - lo)).map fun k => (byte, hi - k))

/-- One row of a specified table. -/
inductive Row where
  /-- the text is shown when at least one of these bits is set -/
  | set (bs : List (Nat × Nat)) (s : List Byte)
  /-- the text is shown when all of these bits are clear -/
  | clear (bs : List (Nat × Nat)) (s : List Byte)
  /-- one text when the bit is set, another when it is clear -/
  | either (byte bit : Nat) (s u : List Byte)
  /-- a text by the number in some bits -/
  | value (byte hi lo : Nat) (vals : List (Nat × Option (List Byte))) (other : Option (List Byte))
deriving DecidableEq

/-- The text of a value. -/
def valText (vals : List (Nat × Option (List Byte))) (other : Option (List Byte)) (n : Nat) :
    Option (List Byte) :=
  match vals with
  | [] => other
  | (v, s) :: rest => if n = v then s else valText rest other n

/-- The texts shown for one row. -/
def Row.shown (f : List Byte) : Row → List (List Byte)
  | .set bs s => if bs.any (bitSet f) then [s] else []
  | .clear bs s => if bs.any (bitSet f) then [] else [s]
  | .either byte bit s u => if bitSet f (byte, bit) then [s] else [u]
  | .value byte hi lo vals other => (valText vals other (bitsVal f byte hi lo)).toList

/-- The texts shown for a table. -/
def shown (rows : List Row) (f : List Byte) : List (List Byte) := rows.flatMap (Row.shown f)

/-! ## From statements to rows -/

/-- The bits of a mask, from the most significant. -/
def maskBits (m : Byte) : List Nat := [7, 6, 5, 4, 3, 2, 1, 0].filter fun k => m.toNat.testBit k

/-- The bits of which at least one must be set for a condition to hold, if it is of that form
and looks only at bytes of a field of `n` bytes. -/
def setBits (n : Nat) : Test → Option (List (Nat × Nat))
  | .bit i m => if i < n then some ((maskBits m).map fun k => (i + 1, k + 1)) else none
  | .or a b => do .some ((← setBits n a) ++ (← setBits n b))
  | _ => none

/-- The bits which must all be clear for a condition to hold, if it is of that form. -/
def clearBits (n : Nat) : Test → Option (List (Nat × Nat))
  | .not t => setBits n t
  | .and a b => do .some ((← clearBits n a) ++ (← clearBits n b))
  | _ => none

/-- The mask of bits `hi` to `lo`. -/
def rangeMask (hi lo : Nat) : Byte := UInt8.ofNat (2 ^ hi - 2 ^ (lo - 1))

/-- A mask as a range of bits. -/
def maskRange (m : Byte) : Option (Nat × Nat) :=
  match maskBits m with
  | [] => none
  | k :: _ =>
    let lo := (maskBits m).getLastD 0
    if rangeMask (k + 1) (lo + 1) = m then some (k + 1, lo + 1) else none

/-- The row of a statement. -/
def rowOf (n : Nat) : Item → Option Row
  | .when t s =>
    match setBits n t with
    | some bs => some (.set bs s)
    | none =>
      match clearBits n t with
      | some bs => some (.clear bs s)
      | none => none
  | .ite (.bit i m) s u =>
    match maskBits m with
    | [k] => if i < n then some (.either (i + 1) (k + 1) s u) else none
    | _ => none
  | .sel i m cases d =>
    match maskRange m with
    | some (hi, lo) =>
      if i < n ∧ ∀ c ∈ cases, c.1.toNat % 2 ^ (lo - 1) = 0 then
        some (.value (i + 1) hi lo (cases.map fun c => (c.1.toNat / 2 ^ (lo - 1), c.2)) d)
      else none
    | none => none
  | _ => none

/-- The rows of a table of statements. -/
def rowsOf (n : Nat) : List Item → Option (List Row)
  | [] => some []
  | it :: rest =>
    match rowOf n it, rowsOf n rest with
    | some r, some rs => some (r :: rs)
    | _, _ => none

/-! ## Lemmas -/

theorem rd_getD {f : List Byte} {i : Nat} (h : i < f.length) : rd f i = .ok (f.getD i 0) := by
  rw [rd_eq h, List.getD_eq_getElem?_getD, List.getElem?_eq_getElem h]
  rfl

theorem mask_ne_zero (b m : Byte) :
    decide (b &&& m ≠ 0) = (maskBits m).any fun k => decide (b.toNat / 2 ^ k % 2 = 1) := by
  rw [Bool.eq_iff_iff]
  simp only [decide_eq_true_eq, List.any_eq_true, maskBits, List.mem_filter]
  constructor
  · intro h
    apply Classical.byContradiction
    intro hn
    apply h
    apply UInt8.toNat_inj.1
    apply Nat.eq_of_testBit_eq
    intro k
    rw [UInt8.toNat_and, Nat.testBit_and]
    simp only [UInt8.toNat_zero, Nat.zero_testBit]
    by_cases hk : k < 8
    · cases h1 : m.toNat.testBit k with
      | false => simp
      | true =>
        cases h2 : b.toNat.testBit k with
        | false => simp
        | true =>
          exfalso; apply hn
          refine ⟨k, ⟨?_, h1⟩, ?_⟩
          · match k, hk with
            | 0, _ | 1, _ | 2, _ | 3, _ | 4, _ | 5, _ | 6, _ | 7, _ => simp
          · rw [Nat.testBit_eq_decide_div_mod_eq] at h2
            simpa using h2
    · have : b.toNat.testBit k = false := by
        apply Nat.testBit_lt_two_pow
        have := b.toNat_lt
        calc b.toNat < 2 ^ 8 := this
          _ ≤ 2 ^ k := Nat.pow_le_pow_right (by omega) (by omega)
      simp [this]
  · rintro ⟨k, ⟨-, h1⟩, h2⟩ h0
    have h3 := congrArg (fun x : Byte => x.toNat.testBit k) h0
    simp only [UInt8.toNat_and, Nat.testBit_and, h1, Bool.and_true, UInt8.toNat_zero,
      Nat.zero_testBit] at h3
    rw [Nat.testBit_eq_decide_div_mod_eq] at h3
    simp at h3
    omega

theorem setBits_run (n : Nat) (f : List Byte) (hf : n ≤ f.length) :
    ∀ (t : Test) (bs : List (Nat × Nat)), setBits n t = some bs →
      t.run f = .ok (bs.any (bitSet f)) := by
  intro t
  induction t with
  | yes => intro bs h; simp [setBits] at h
  | eq i m v => intro bs h; simp [setBits] at h
  | not t ih => intro bs h; simp [setBits] at h
  | and a b iha ihb => intro bs h; simp [setBits] at h
  | bit i m =>
    intro bs h
    rw [setBits] at h
    by_cases hi : i < n
    · rw [if_pos hi] at h
      cases h
      rw [Test.run, rd_getD (by omega), bind_ok, mask_ne_zero]
      simp [List.any_map, Function.comp_def, bitSet]
    · rw [if_neg hi] at h; cases h
  | or a b iha ihb =>
    intro bs h
    rw [setBits] at h
    cases ha : setBits n a with
    | none => rw [ha] at h; cases h
    | some x =>
      cases hb : setBits n b with
      | none => rw [ha, hb] at h; cases h
      | some y =>
        rw [ha, hb] at h
        cases h
        rw [Test.run, iha x ha, bind_ok, ihb y hb, List.any_append]
        cases x.any (bitSet f) <;> simp

theorem clearBits_run (n : Nat) (f : List Byte) (hf : n ≤ f.length) :
    ∀ (t : Test) (bs : List (Nat × Nat)), clearBits n t = some bs →
      t.run f = .ok (!bs.any (bitSet f)) := by
  intro t
  induction t with
  | yes => intro bs h; simp [clearBits] at h
  | eq i m v => intro bs h; simp [clearBits] at h
  | bit i m => intro bs h; simp [clearBits] at h
  | or a b iha ihb => intro bs h; simp [clearBits] at h
  | not t ih =>
    intro bs h
    rw [clearBits] at h
    rw [Test.run, setBits_run n f hf t bs h, bind_ok]
  | and a b iha ihb =>
    intro bs h
    rw [clearBits] at h
    cases ha : clearBits n a with
    | none => rw [ha] at h; cases h
    | some x =>
      cases hb : clearBits n b with
      | none => rw [ha, hb] at h; cases h
      | some y =>
        rw [ha, hb] at h
        cases h
        rw [Test.run, iha x ha, bind_ok, ihb y hb, List.any_append]
        cases x.any (bitSet f) <;> simp

theorem rangeMask_and : ∀ hi ∈ List.range 9, ∀ lo ∈ List.range 9, ∀ b : Byte,
    1 ≤ lo → lo ≤ hi →
    (b &&& rangeMask hi lo).toNat = b.toNat / 2 ^ (lo - 1) % 2 ^ (hi + 1 - lo) * 2 ^ (lo - 1) := by
  decide +kernel

theorem maskRange_bounds : ∀ m : Byte, ∀ q ∈ (maskRange m).toList,
    1 ≤ q.2 ∧ q.2 ≤ q.1 ∧ q.1 ≤ 8 ∧ rangeMask q.1 q.2 = m := by
  decide +kernel

theorem sel_val (hi lo : Nat) (h1 : 1 ≤ lo) (h2 : lo ≤ hi) (h3 : hi ≤ 8) (b : Byte)
    (d : Option (List Byte)) :
    ∀ (cases : List (Byte × Option (List Byte))),
      (∀ c ∈ cases, c.1.toNat % 2 ^ (lo - 1) = 0) →
      selText cases d (b &&& rangeMask hi lo) =
        valText (cases.map fun c => (c.1.toNat / 2 ^ (lo - 1), c.2)) d
          (b.toNat / 2 ^ (lo - 1) % 2 ^ (hi + 1 - lo)) := by
  intro cases
  induction cases with
  | nil => intro _; rfl
  | cons c cs ih =>
    intro h
    obtain ⟨v, s⟩ := c
    rw [List.map_cons, selText, valText, ih (fun c hc => h c (by simp [hc]))]
    have hv := h (v, s) (by simp)
    simp only at hv
    have hm := rangeMask_and hi (by simp; omega) lo (by simp; omega) b h1 h2
    have hp : 0 < 2 ^ (lo - 1) := Nat.pos_of_ne_zero (by simp)
    have : b &&& rangeMask hi lo = v ↔
        b.toNat / 2 ^ (lo - 1) % 2 ^ (hi + 1 - lo) = v.toNat / 2 ^ (lo - 1) := by
      rw [← UInt8.toNat_inj, hm]
      generalize b.toNat / 2 ^ (lo - 1) % 2 ^ (hi + 1 - lo) = x
      generalize 2 ^ (lo - 1) = p at hp hv
      constructor
      · intro e; rw [← e, Nat.mul_div_cancel _ hp]
      · intro e; rw [e]; exact Nat.div_mul_cancel (Nat.dvd_of_mod_eq_zero hv)
    by_cases hb : b &&& rangeMask hi lo = v
    · rw [if_pos hb, if_pos (this.1 hb)]
    · rw [if_neg hb, if_neg (fun h => hb (this.2 h))]

theorem rowOf_run (n : Nat) (f : List Byte) (hf : n ≤ f.length) (it : Item) (r : Row)
    (h : rowOf n it = some r) : it.run f = .ok (r.shown f) := by
  cases it with
  | always s => simp [rowOf] at h
  | fmt t ps => simp [rowOf] at h
  | «when» t s =>
    rw [rowOf] at h
    cases h1 : setBits n t with
    | some bs =>
      rw [h1] at h; cases h
      rw [Item.run, setBits_run n f hf t bs h1, bind_ok, Row.shown]
    | none =>
      rw [h1] at h
      cases h2 : clearBits n t with
      | some bs =>
        rw [h2] at h; cases h
        rw [Item.run, clearBits_run n f hf t bs h2, bind_ok, Row.shown]
        cases bs.any (bitSet f) <;> simp
      | none => rw [h2] at h; cases h
  | ite t s u =>
    cases t with
    | bit i m =>
      rw [rowOf] at h
      split at h
      next k hk =>
        by_cases hi : i < n
        · rw [if_pos hi] at h
          cases h
          rw [Item.run, Test.run, rd_getD (by omega), bind_ok, bind_ok, mask_ne_zero, hk, Row.shown]
          simp [bitSet]
        · rw [if_neg hi] at h; cases h
      next => cases h
    | _ => simp [rowOf] at h
  | sel i m cases d =>
    rw [rowOf] at h
    cases hm : maskRange m with
    | none => rw [hm] at h; cases h
    | some q =>
      obtain ⟨hi, lo⟩ := q
      rw [hm] at h
      simp only at h
      split at h
      next hc =>
        cases h
        obtain ⟨b1, b2, b3, b4⟩ := maskRange_bounds m (hi, lo) (by simp [hm])
        simp only at b1 b2 b3 b4
        rw [Item.run, rd_getD (by omega), bind_ok, Row.shown, ← b4, sel_val hi lo b1 b2 b3 _ d _ hc.2]
        rfl
      next => cases h

theorem rowsOf_run (n : Nat) (f : List Byte) (hf : n ≤ f.length) :
    ∀ (items : List Item) (rows : List Row), rowsOf n items = some rows →
      runItems f items = .ok (shown rows f) := by
  intro items
  induction items with
  | nil => intro rows h; cases h; rfl
  | cons it rest ih =>
    intro rows h
    rw [rowsOf] at h
    split at h
    next r rs h1 h2 =>
      cases h
      rw [runItems, rowOf_run n f hf it r h1, bind_ok, ih rs h2, bind_ok]
      rfl
    next => cases h

/-- The text built from some lines. -/
theorem build_spec (ls : List (List Byte)) (str : List Byte) :
    ∃ str', build ls str = .ok str' ∧
      (3 ≤ str.length → ls ≠ [] → str' = strOver (emvText str.length ls []) str ∧
        (emvText str.length ls []).length < str.length) ∧
      (str.length < 3 ∨ ls = [] → str' = str) := by
  obtain ⟨it, e, h1, h2⟩ := C49_safe str ls
  exact ⟨it.buf, by rw [build, e, bind_ok], h1, h2⟩

theorem build_length (ls : List (List Byte)) (str str' : List Byte)
    (h : build ls str = .ok str') : str'.length = str.length := by
  obtain ⟨s, e, h1, h2⟩ := build_spec ls str
  rw [h] at e; cases e
  by_cases hc : 3 ≤ str.length ∧ ls ≠ []
  · obtain ⟨e1, hl⟩ := h1 hc.1 hc.2
    rw [e1, strOver_length _ _ hl]
  · rw [h2]
    by_cases hl : ls = []
    · exact .inr hl
    · left; apply Classical.byContradiction; intro h3; exact hc ⟨by omega, hl⟩

theorem build_fits (ls : List (List Byte)) (str : List Byte) (hne : ls ≠ [])
    (hs : ∀ s ∈ ls, s ≠ []) (h : (text ls).length < str.length) :
    build ls str = .ok (strOver (text ls) str) := by
  obtain ⟨s, e, h1, h2⟩ := build_spec ls str
  have hl : 3 ≤ str.length := by
    obtain ⟨x, xs, rfl⟩ := List.exists_cons_of_ne_nil hne
    have := List.length_pos_iff.2 (hs x (by simp))
    simp [text] at h
    omega
  rw [e, (h1 hl hne).1, emvText_fits _ _ [] hs (by simpa using h)]
  simp

end Verif.Bits

namespace Verif.Lists
open Verif StrList Formats

/-- `str'` is the output `str` after some lines were shown in it: only the output was written.
Without lines, or if it has fewer than three bytes, it is as it was; otherwise it is a NUL
terminated text: exactly the lines if they fit, else each line is cut to the space left for it
and lines for which there are fewer than three bytes left are not shown (`emvText`). -/
def Shows (str : List Byte) (lines : List (List Byte)) (str' : List Byte) : Prop :=
  str'.length = str.length ∧
  (lines = [] ∨ str.length < 3 → str' = str) ∧
  (lines ≠ [] → 3 ≤ str.length → ∃ t, (t = emvText str.length lines [] ∧ t.length < str.length) ∧
    str' = strOver t str) ∧
  (lines ≠ [] → (text lines).length < str.length → str' = strOver (text lines) str)

end Verif.Lists
