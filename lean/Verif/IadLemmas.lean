import Verif.Iad
import Verif.ListsLemmas

/-! # Specification vocabulary and lemmas for the descriptions with numbers in them -/

set_option autoImplicit false

namespace Verif.Iad
open Verif StrList Bits Formats Lists

/-! ## Specification vocabulary -/

/-- A part of a line. -/
inductive Sp where
  /-- fixed text -/
  | text (s : List Byte)
  /-- the byte in two hexadecimal digits -/
  | hex (byte : Nat)
  /-- the number in bits `hi` to `lo` of the byte, in decimal -/
  | num (byte hi lo : Nat)
  /-- the byte in decimal, with a leading zero if it is below ten -/
  | num2 (byte : Nat)
deriving DecidableEq

/-- The text of a part of a line. -/
def Sp.shown (f : List Byte) : Sp → List Byte
  | .text s => s
  | .hex byte => hexOf [f.getD (byte - 1) 0]
  | .num byte hi lo => decimal (bitsVal f byte hi lo)
  | .num2 byte =>
    (if (f.getD (byte - 1) 0).toNat < 10 then decimal 0 else []) ++
      decimal (f.getD (byte - 1) 0).toNat

/-- One row of a specified table. -/
inductive IRow where
  /-- a row without numbers -/
  | row (r : Row)
  /-- a line always shown -/
  | line (ps : List Sp)
  /-- a line shown when at least one of these bits is set -/
  | lineIf (bs : List (Nat × Nat)) (ps : List Sp)
deriving DecidableEq

/-- The texts shown for one row. -/
def IRow.shown (f : List Byte) : IRow → List (List Byte)
  | .row r => r.shown f
  | .line ps => [ps.flatMap (Sp.shown f)]
  | .lineIf bs ps => if bs.any (bitSet f) then [ps.flatMap (Sp.shown f)] else []

/-- The texts shown for a table. -/
def ishown (rows : List IRow) (f : List Byte) : List (List Byte) := rows.flatMap (IRow.shown f)

/-! ## From statements to rows -/

/-- The part of a line of a piece of a format. -/
def spOf (n : Nat) : Piece → Option Sp
  | .lit s => some (.text s)
  | .hex i m => if i < n ∧ m = 0xFF then some (.hex (i + 1)) else none
  | .dec i m s =>
    match maskRange m with
    | some (hi, lo) => if i < n ∧ lo = s + 1 then some (.num (i + 1) hi lo) else none
    | none => none
  | .dec2 i m => if i < n ∧ m = 0xFF then some (.num2 (i + 1)) else none

/-- The parts of a format. -/
def spsOf (n : Nat) : List Piece → Option (List Sp)
  | [] => some []
  | p :: ps =>
    match spOf n p, spsOf n ps with
    | some r, some rs => some (r :: rs)
    | _, _ => none

/-- The row of a statement. -/
def irowOf (n : Nat) : Item → Option IRow
  | .fmt .yes ps => (spsOf n ps).map .line
  | .fmt t ps =>
    match setBits n t, spsOf n ps with
    | some bs, some sp => some (.lineIf bs sp)
    | _, _ => none
  | .when (.eq i m v) s => (rowOf n (.sel i m [(v, some s)] none)).map .row
  | it => (rowOf n it).map .row

/-- The rows of a table of statements. -/
def irowsOf (n : Nat) : List Item → Option (List IRow)
  | [] => some []
  | it :: rest =>
    match irowOf n it, irowsOf n rest with
    | some r, some rs => some (r :: rs)
    | _, _ => none

/-! ## Lemmas -/

theorem hex02_hexOf : ∀ b : Byte, hex02 (b &&& 0xFF) = hexOf [b] := by decide +kernel

theorem hex02_hexOf' : ∀ b : Byte, hex02 b = hexOf [b] := by decide +kernel

theorem decText_uLoop : ∀ n ∈ List.range 256, decText n = uLoop 3 n [] := by decide +kernel

theorem decText_decimal (n : Nat) (h : n < 256) : decText n = decimal n := by
  rw [decText_uLoop n (by simpa using h), uLoop_spec 2 n [] (by omega), List.append_nil]

theorem decText2_decimal (n : Nat) (h : n < 256) :
    decText2 n = (if n < 10 then decimal 0 else []) ++ decimal n := by
  rw [decText2]
  split
  · rw [decText_decimal n h]
    have : decimal 0 = [0x30] := by rw [decimal, Str.digits]; rfl
    rw [this]; rfl
  · rw [decText_decimal n h]; rfl

theorem and_ff : ∀ b : Byte, b &&& 0xFF = b := by decide +kernel

theorem spOf_run (n : Nat) (f : List Byte) (hf : n ≤ f.length) (p : Piece) (r : Sp)
    (h : spOf n p = some r) : p.run f = .ok (r.shown f) := by
  cases p with
  | lit s => cases h; rfl
  | hex i m =>
    rw [spOf] at h
    split at h
    next hc =>
      cases h
      rw [Piece.run, rd_getD (by omega), bind_ok, hc.2, hex02_hexOf]
      rfl
    next => cases h
  | dec i m s =>
    rw [spOf] at h
    cases hm : maskRange m with
    | none => rw [hm] at h; cases h
    | some q =>
      obtain ⟨hi, lo⟩ := q
      rw [hm] at h
      simp only at h
      split at h
      next hc =>
        cases h
        obtain ⟨b1, b2, b3, b4⟩ := maskRange_bounds m (hi, lo) (by simp [hm])
        simp only at b1 b2 b3 b4
        rw [Piece.run, rd_getD (by omega), bind_ok]
        have hlt := (f.getD i 0 &&& m).toNat_lt
        have hd : (f.getD i 0 &&& m).toNat / 2 ^ s ≤ (f.getD i 0 &&& m).toNat := Nat.div_le_self _ _
        rw [decText_decimal _ (by omega), ← b4,
          rangeMask_and hi (by simp; omega) lo (by simp; omega) _ b1 b2, hc.2]
        simp only [Nat.add_sub_cancel, Sp.shown, bitsVal]
        rw [Nat.mul_div_cancel _ (Nat.pos_of_ne_zero (by simp))]
      next => cases h
  | dec2 i m =>
    rw [spOf] at h
    split at h
    next hc =>
      cases h
      rw [Piece.run, rd_getD (by omega), bind_ok, hc.2, and_ff,
        decText2_decimal _ (UInt8.toNat_lt _)]
      rfl
    next => cases h

theorem spsOf_run (n : Nat) (f : List Byte) (hf : n ≤ f.length) :
    ∀ (ps : List Piece) (rs : List Sp), spsOf n ps = some rs →
      runPieces f ps = .ok (rs.flatMap (Sp.shown f)) := by
  intro ps
  induction ps with
  | nil => intro rs h; cases h; rfl
  | cons p ps ih =>
    intro rs h
    rw [spsOf] at h
    split at h
    next r rs h1 h2 =>
      cases h
      rw [runPieces, spOf_run n f hf p r h1, bind_ok, ih rs h2, bind_ok]
      rfl
    next => cases h

theorem irowOf_run (n : Nat) (f : List Byte) (hf : n ≤ f.length) (it : Item) (r : IRow)
    (h : irowOf n it = some r) : it.run f = .ok (r.shown f) := by
  have hrow : ∀ it', (rowOf n it').map IRow.row = some r → it'.run f = .ok (r.shown f) := by
    intro it' h'
    cases hr : rowOf n it' with
    | none => rw [hr] at h'; cases h'
    | some q =>
      rw [hr] at h'
      cases h'
      exact rowOf_run n f hf it' q hr
  have hfmt : ∀ t ps, (match setBits n t, spsOf n ps with
      | some bs, some sp => some (IRow.lineIf bs sp)
      | _, _ => none) = some r → (Item.fmt t ps).run f = .ok (r.shown f) := by
    intro t ps h'
    split at h'
    next bs sp h1 h2 =>
      cases h'
      rw [Item.run, setBits_run n f hf t bs h1, bind_ok]
      cases hb : bs.any (bitSet f) with
      | true => rw [if_pos rfl, spsOf_run n f hf ps sp h2, bind_ok, IRow.shown, if_pos hb]
      | false => simp [IRow.shown, hb]
    next => cases h'
  cases it with
  | always s => exact hrow _ h
  | ite t s u => exact hrow _ h
  | sel i m cs d => exact hrow _ h
  | «when» t s =>
    cases t with
    | eq i m v =>
      have := hrow _ h
      rw [← this, Item.run, Item.run, Test.run]
      cases rd f i with
      | error e => rfl
      | ok b =>
        simp only [bind_ok, selText]
        by_cases hb : b &&& m = v
        · simp [hb]
        · simp [hb]
    | yes => exact hrow _ h
    | bit i m => exact hrow _ h
    | not t => exact hrow _ h
    | or a b => exact hrow _ h
    | and a b => exact hrow _ h
  | fmt t ps =>
    cases t with
    | yes =>
      rw [irowOf] at h
      cases hs : spsOf n ps with
      | none => rw [hs] at h; cases h
      | some sp =>
        rw [hs] at h
        cases h
        rw [Item.run, Test.run, bind_ok, if_pos rfl, spsOf_run n f hf ps sp hs]
        rfl
    | eq i m v => exact hfmt _ _ h
    | bit i m => exact hfmt _ _ h
    | not t => exact hfmt _ _ h
    | or a b => exact hfmt _ _ h
    | and a b => exact hfmt _ _ h

theorem irowsOf_run (n : Nat) (f : List Byte) (hf : n ≤ f.length) :
    ∀ (items : List Item) (rows : List IRow), irowsOf n items = some rows →
      runItems f items = .ok (ishown rows f) := by
  intro items
  induction items with
  | nil => intro rows h; cases h; rfl
  | cons it rest ih =>
    intro rows h
    rw [irowsOf] at h
    split at h
    next r rs h1 h2 =>
      cases h
      rw [runItems, irowOf_run n f hf it r h1, bind_ok, ih rs h2, bind_ok]
      rfl
    next => cases h

/-- Replacing a row by one which shows the same. -/
theorem ishown_set (f : List Byte) (r : IRow) : ∀ (rows : List IRow) (k : Nat),
    (∀ q ∈ rows[k]?, r.shown f = q.shown f) → ishown (rows.set k r) f = ishown rows f := by
  intro rows
  induction rows with
  | nil => intro k _; simp
  | cons q rows ih =>
    intro k h
    cases k with
    | zero =>
      have := h q (by simp)
      simp [ishown, this]
    | succ k =>
      have := ih k (by simpa using h)
      simp only [ishown] at this
      simp only [ishown, List.set_cons_succ, List.flatMap_cons, this]

theorem build_shows (str : List Byte) (lines : List (List Byte)) (hne : ∀ s ∈ lines, s ≠ []) :
    ∃ str', build lines str = .ok str' ∧ Shows str lines str' := by
  obtain ⟨it, e, h⟩ := addAll_shows str lines hne
  exact ⟨it.buf, by rw [build, e, bind_ok], h⟩

/-- The row shows no empty text. -/
def irowOk : IRow → Bool
  | .row (.set _ s) => !s.isEmpty
  | .row (.clear _ s) => !s.isEmpty
  | .row (.either _ _ s u) => !s.isEmpty && !u.isEmpty
  | .row (.value _ _ _ vals other) =>
    vals.all (fun v => v.2 != some []) && other != some []
  | .line (.text s :: _) => !s.isEmpty
  | .lineIf _ (.text s :: _) => !s.isEmpty
  | _ => false

theorem valText_mem (vals : List (Nat × Option (List Byte))) (other : Option (List Byte))
    (n : Nat) (s : List Byte) (h : valText vals other n = some s) :
    other = some s ∨ ∃ v ∈ vals, v.2 = some s := by
  induction vals with
  | nil => exact .inl h
  | cons v vals ih =>
    obtain ⟨k, t⟩ := v
    rw [valText] at h
    split at h
    · exact .inr ⟨(k, t), by simp, h⟩
    · rcases ih h with h | ⟨v, hv, e⟩
      · exact .inl h
      · exact .inr ⟨v, by simp [hv], e⟩

theorem irow_ne (f : List Byte) (r : IRow) (h : irowOk r = true) : ∀ s ∈ r.shown f, s ≠ [] := by
  intro s hs e
  subst e
  unfold irowOk at h
  split at h
  · simp only [IRow.shown, Row.shown] at hs
    split at hs <;> simp at hs
    subst hs; simp at h
  · simp only [IRow.shown, Row.shown] at hs
    split at hs <;> simp at hs
    subst hs; simp at h
  · simp only [IRow.shown, Row.shown] at hs
    split at hs <;> simp at hs <;> subst hs <;> simp at h
  · next byte hi lo vals other =>
    simp only [IRow.shown, Row.shown, Option.mem_toList] at hs
    simp only [Bool.and_eq_true, List.all_eq_true, bne_iff_ne, ne_eq] at h
    rcases valText_mem _ _ _ _ hs with h' | ⟨v, hv, e⟩
    · exact h.2 h'
    · exact h.1 v hv e
  · simp [IRow.shown, Sp.shown] at hs
    simp [hs.1] at h
  · simp only [IRow.shown] at hs
    split at hs <;> simp [Sp.shown] at hs
    simp [hs.1] at h
  · cases h

theorem ishown_ne (f : List Byte) (rows : List IRow) (h : rows.all irowOk = true) :
    ∀ s ∈ ishown rows f, s ≠ [] := by
  intro s hs
  rw [ishown, List.mem_flatMap] at hs
  obtain ⟨r, hr, hs⟩ := hs
  exact irow_ne f r (List.all_eq_true.1 h r hr) s hs

end Verif.Iad
