import Verif.Base

/-!
# Specification of BER encodings (ISO 8825-1 / X.690), independent of the model

Written arithmetically (no masks) and as an *encoder*, so that it shares nothing with
the decoder of `Ber.lean`.
-/

set_option autoImplicit false

namespace Verif.BerSpec
open Verif

/-- Big-endian value of a byte string. -/
def beNat (bs : List Byte) : Nat := bs.foldl (fun a b => a * 256 + b.toNat) 0

/-- Identifier octets (X.690 8.1.2) of at most four octets: one octet with a tag number
below 31, or a leading octet with number bits 31 followed by 1-3 octets all but the last
of which have bit 8 set. -/
def IsTag : List Byte → Prop
  | [] => False
  | b :: rest =>
    (b.toNat % 32 ≠ 31 ∧ rest = []) ∨
    (b.toNat % 32 = 31 ∧ rest.length ≤ 3 ∧
      ∃ more last, rest = more ++ [last] ∧ (∀ m ∈ more, 128 ≤ m.toNat) ∧ last.toNat < 128)

/-- Definite length octets (X.690 8.1.3.4, 8.1.3.5): short form, or long form with one to
four subsequent octets (not necessarily minimal). -/
inductive LenOctets : Nat → List Byte → Prop where
  | short (l : Nat) (h : l < 128) : LenOctets l [UInt8.ofNat l]
  | long (l : Nat) (bs : List Byte) (h1 : 1 ≤ bs.length) (h4 : bs.length ≤ 4)
      (hl : beNat bs = l) : LenOctets l (UInt8.ofNat (128 + bs.length) :: bs)

/-- Class and primitive/constructed bits: the three most significant bits of the first
identifier octet. -/
def topBits (tag : List Byte) : Byte :=
  match tag with
  | [] => 0
  | b :: _ => UInt8.ofNat (b.toNat / 32 * 32)

/-- Bit 6 of the first identifier octet: constructed. -/
def IsConstructed (tag : List Byte) : Prop :=
  match tag with
  | [] => False
  | b :: _ => b.toNat / 32 % 2 = 1

instance (tag : List Byte) : Decidable (IsConstructed tag) := by
  cases tag <;> unfold IsConstructed <;> infer_instance

/-- An object in definite form: identifier octets, length octets, contents. -/
structure Obj where
  tag : List Byte
  len : List Byte
  value : List Byte

/-- The object is encodable: proper identifier octets, and length octets stating the
length of the contents. -/
def Obj.WF (o : Obj) : Prop := IsTag o.tag ∧ LenOctets o.value.length o.len

/-- Its encoding. -/
def Obj.enc (o : Obj) : List Byte := o.tag ++ o.len ++ o.value

/-- Concatenated encodings. -/
def encAll (os : List Obj) : List Byte := (os.map Obj.enc).flatten

/-! ## Object identifiers (X.690 8.19) -/

/-- Base-128 octets of a sub-identifier, seven bits each: all but the last octet have
bit 8 set (not necessarily minimal). -/
def IsSubid (arc : Nat) (bs : List Byte) : Prop :=
  ∃ more last, bs = more ++ [last] ∧ (∀ m ∈ more, 128 ≤ m.toNat) ∧ last.toNat < 128 ∧
    arc = bs.foldl (fun a b => a * 128 + b.toNat % 128) 0

/-- Number of sub-identifiers started in a byte string: one per octet that begins one
(the first octet, and each octet following one with bit 8 clear). -/
def subidCount : Bool → List Byte → Nat
  | _, [] => 0
  | starting, b :: rest => (if starting then 1 else 0) + subidCount (decide (b.toNat < 128)) rest

end Verif.BerSpec
