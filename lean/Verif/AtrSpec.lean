import Verif.CompactTlvProps

/-!
# Specification vocabulary for Answer-To-Reset bytes (ISO 7816-3:2006, 8.2)

An ATR is TS, then a chain of links.  A link is one octet whose low half is a number (K in
T0, the protocol type T in TDi) and whose high half says which of TA, TB, TC and TD follow;
then come the announced TA, TB, TC; an announced TD is the octet of the next link.  After
the chain come K historical bytes and, when required, the check byte TCK.

Nothing in this file refers to the parser.
-/

set_option autoImplicit false

namespace Verif.AtrSpec
open Verif

/-- One link of the chain: the number in the low half of T0/TDi and the interface bytes TA,
TB, TC of the set it announces. -/
structure Link where
  nib : Fin 16
  a : Option Byte
  b : Option Byte
  c : Option Byte
  deriving DecidableEq, Repr

/-- The octet T0 or TDi: low half `n`, high half one bit per announced interface byte. -/
def indicator (n : Fin 16) (a b c d : Bool) : Byte :=
  UInt8.ofNat (n.val + (if a then 16 else 0) + (if b then 32 else 0) + (if c then 64 else 0)
    + (if d then 128 else 0))

/-- The octets of one link; `more` tells whether it announces a further TD. -/
def encLink (l : Link) (more : Bool) : List Byte :=
  indicator l.nib l.a.isSome l.b.isSome l.c.isSome more ::
    (l.a.toList ++ l.b.toList ++ l.c.toList)

/-- The octets of a chain; `more` tells whether the last link announces a further TD (whose
octet is not part of the chain). -/
def encChain : List Link → Bool → List Byte
  | [], _ => []
  | [l], more => encLink l more
  | l :: l' :: r, more => encLink l true ++ encChain (l' :: r) more

/-- Interface byte TAi (i from 1). -/
def ta (gs : List Link) (i : Nat) : Option Byte := gs[i - 1]?.bind (·.a)
/-- Interface byte TBi. -/
def tb (gs : List Link) (i : Nat) : Option Byte := gs[i - 1]?.bind (·.b)
/-- Interface byte TCi. -/
def tc (gs : List Link) (i : Nat) : Option Byte := gs[i - 1]?.bind (·.c)
/-- Protocol type T announced by TDi. -/
def tdT (gs : List Link) (i : Nat) : Option (Fin 16) := gs[i]?.map (·.nib)
/-- K, the number of historical bytes. -/
def kOf (gs : List Link) : Nat := match gs with
  | [] => 0
  | l :: _ => l.nib.val

/-- Bit rate adjustment factors: DI, Di (ISO 7816-3:2006 table 8). -/
def diTable : List (Nat × Nat) :=
  [(1, 1), (2, 2), (3, 4), (4, 8), (5, 16), (6, 32), (7, 64), (8, 12), (9, 20)]

/-- Clock rate conversion: FI, Fi, maximum frequency in 100 kHz (ISO 7816-3:2006 table 7). -/
def fiTable : List (Nat × Nat × Nat) :=
  [(0, 372, 40), (1, 372, 50), (2, 558, 60), (3, 744, 80), (4, 1116, 120), (5, 1488, 160),
   (6, 1860, 200), (9, 512, 50), (10, 768, 75), (11, 1024, 100), (12, 1536, 150),
   (13, 2048, 200)]

/-- TA1 uses no reserved value. -/
def okTA1 (x : Byte) : Prop :=
  x.toNat % 16 ∈ diTable.map (·.1) ∧ x.toNat / 16 ∈ fiTable.map (·.1)

/-- TB1 is zero, or PI1 is 5 to 25 and II is not reserved. -/
def okTB1 (x : Byte) : Prop :=
  x.toNat = 0 ∨ (5 ≤ x.toNat % 32 ∧ x.toNat % 32 ≤ 25 ∧ x.toNat / 32 % 4 ≠ 3)

/-- No interface byte of a set numbered three or more uses a reserved value: the class
indicator of T=15 is 1 to 7; for T=1, IFSI is not 00 or FF and BWI is at most 9. -/
def okLink3 (l : Link) : Prop :=
  (l.nib = 15 → ∀ x ∈ l.a, 1 ≤ x.toNat % 64 ∧ x.toNat % 64 ≤ 7) ∧
  (l.nib = 1 → (∀ x ∈ l.a, x.toNat ≠ 0 ∧ x.toNat ≠ 255) ∧ (∀ x ∈ l.b, x.toNat / 16 ≤ 9))

/-- Protocol types allowed in TD2 and later. -/
def okT (t : Nat) : Prop := t = 0 ∨ t = 1 ∨ t = 15

/-- All interface bytes of the chain are acceptable; `td` is a TD octet announced by the
last link and not part of the chain, if any. -/
def OkChain (gs : List Link) (td : Option Byte) : Prop :=
  (∀ x ∈ ta gs 1, okTA1 x) ∧ (∀ x ∈ tb gs 1, okTB1 x) ∧
  (∀ t ∈ tdT gs 1, t = 0 ∨ t = 1) ∧
  (∀ x ∈ tb gs 2, tb gs 1 ≠ some 0 ∧ 50 ≤ x.toNat ∧ x.toNat ≤ 250) ∧
  (∀ x ∈ tc gs 2, x ≠ 0) ∧
  (∀ l ∈ gs.drop 2, okT l.nib.val ∧ okLink3 l) ∧
  (∀ x ∈ td, okT (x.toNat % 16))

/-- The last of the bytes selected by `sel` in the links numbered 3 and up whose protocol
type is 1. -/
def lastT1 (gs : List Link) (sel : Link → Option Byte) : Option Byte :=
  ((gs.drop 2).filterMap (fun l => if l.nib = 1 then sel l else none)).getLast?

/-- The first of the bytes selected by `sel` in the links numbered 3 and up whose protocol
type is 1 (this is the one ISO 7816-3:2006, 11.4 gives a meaning to). -/
def firstT1 (gs : List Link) (sel : Link → Option Byte) : Option Byte :=
  ((gs.drop 2).filterMap (fun l => if l.nib = 1 then sel l else none)).head?

/-- Exclusive or of a byte string. -/
def xorAll (l : List Byte) : Byte := l.foldl (· ^^^ ·) 0

/-- The historical bytes `T1 :: …` are acceptable: free format, or COMPACT-TLV objects
(T1 = 80), or COMPACT-TLV objects followed by three status bytes (T1 = 00). -/
def OkHistorical (h : List Byte) : Prop :=
  match h with
  | [] => True
  | t1 :: r =>
    (t1 ≠ 0x00 ∧ t1 ≠ 0x80) ∨
    (t1 = 0x80 ∧ ∃ ts, (∀ t ∈ ts, CompactTlv.WF t) ∧ ts ≠ [] ∧ r = CompactTlv.encAll ts) ∨
    (t1 = 0x00 ∧ ∃ ts s, (∀ t ∈ ts, CompactTlv.WF t) ∧ ts ≠ [] ∧ s.length = 3 ∧
      r = CompactTlv.encAll ts ++ s)

end Verif.AtrSpec
