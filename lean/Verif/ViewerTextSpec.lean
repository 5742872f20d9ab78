import Verif.ViewerSpec

/-!
# Specification of the text of the viewer

A text is a list of lines of characters.  Its data are the bytes written in hexadecimal at its
start, white space left out.
-/

set_option autoImplicit false

namespace Verif.ViewerSpec
open Verif Ber BerSpec PrintSpec Formats

/-- White space of Unicode. -/
def White (c : Nat) : Prop :=
  c ∈ [0x09, 0x0A, 0x0B, 0x0C, 0x0D, 0x20, 0x85, 0xA0, 0x1680, 0x2000, 0x2001, 0x2002, 0x2003, 0x2004,
    0x2005, 0x2006, 0x2007, 0x2008, 0x2009, 0x200A, 0x2028, 0x2029, 0x202F, 0x205F, 0x3000]

instance (c : Nat) : Decidable (White c) := by unfold White; infer_instance

/-- The characters that are not white space. -/
def ink (s : List Nat) : List Nat := s.filter (fun c => !decide (White c))

/-- `c` is the hexadecimal digit of value `n`, in capitals or not. -/
def HexDigit (c n : Nat) : Prop :=
  (n < 10 ∧ c = 0x30 + n) ∨ (10 ≤ n ∧ n < 16 ∧ (c = 0x41 + (n - 10) ∨ c = 0x61 + (n - 10)))

/-- `digits` are two digits for each byte. -/
inductive Written : List Nat → List Byte → Prop where
  | nil : Written [] []
  | cons {a b x y : Nat} {v : Byte} {digits : List Nat} {bytes : List Byte}
      (ha : HexDigit a x) (hb : HexDigit b y) (hv : v.toNat = 16 * x + y) (h : Written digits bytes) :
      Written (a :: b :: digits) (v :: bytes)

/-- The characters `s` begin with the digits of `data`, and not with those of more data. -/
def Begins (s : List Nat) (data : List Byte) : Prop :=
  ∃ digits rest, s = digits ++ rest ∧ Written digits data ∧
    ¬ ∃ a b x y more, rest = a :: b :: more ∧ HexDigit a x ∧ HexDigit b y

/-- The characters up to and including the first that is not a digit are below 256. -/
def Narrow (s : List Nat) : Prop :=
  ∀ u c w, s = u ++ c :: w → (∀ d ∈ u, ∃ n, HexDigit d n) → c ≤ 0xFF

/-- How a character appears. -/
inductive Look where
  | plain | invalid | notHex | tag | padding
  deriving DecidableEq

/-- `p` is the place of a digit of one of the bytes from `offset` on. -/
def InBytes (p offset length : Nat) : Prop := offset ≤ p / 2 ∧ p / 2 < offset + length

/-- How the character `c` with `p` characters before it (white space apart) appears, when the data
have the rows `rs` and `n` bytes are read. -/
inductive Appears (emphasise : Bool) (rs : List Row) (n : Nat) (c p : Nat) : Look → Prop where
  | notHex (h : 2 * n ≤ p) (hc : ¬ ∃ x, HexDigit c x) : Appears emphasise rs n c p .notHex
  | invalid (h : 2 * n ≤ p) (hc : ∃ x, HexDigit c x) : Appears emphasise rs n c p .invalid
  | tag (he : emphasise = true) (h : p < 2 * n) (r : Row) (hr : r ∈ rs) (tag v : List Byte)
      (hw : r.what = .field tag v) (hp : InBytes p r.offset tag.length) :
      Appears emphasise rs n c p .tag
  | padding (he : emphasise = true) (h : p < 2 * n) (r : Row) (hr : r ∈ rs) (b : List Byte)
      (hw : r.what = .padding b) (hp : InBytes p r.offset r.length) :
      Appears emphasise rs n c p .padding
  | plain (h : p < 2 * n)
      (hn : emphasise = true → ∀ r ∈ rs, match r.what with
        | .field tag _ => ¬ InBytes p r.offset tag.length
        | .padding _ => ¬ InBytes p r.offset r.length) :
      Appears emphasise rs n c p .plain

end Verif.ViewerSpec
