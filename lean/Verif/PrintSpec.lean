import Verif.TlvInvProps
import Verif.ListsLemmas
import Verif.FormatsProps

/-!
# Specification of the listings of BER and EMV data

A document is a tree of objects; its listing is the lines of the objects in document order, each
indented by its depth.  Decoding of a single object is the subject of C01, C02, C04 and C61; here
`Reads` says that `iso8825_ber_decode` reads a given object at the front of a buffer.
-/

set_option autoImplicit false

namespace Verif.PrintSpec
open Verif Ber BerSpec Formats

/-- Bytes in hexadecimal, a space before each. -/
def spacedHex (v : List Byte) : List Byte := (v.map (fun b : Byte => 0x20 :: hexOf [b])).flatten

/-- `pfx` once per level. -/
def indentation (pfx : List Byte) (depth : Nat) : List Byte := (List.replicate depth pfx).flatten

/-- An integer in decimal. -/
def signed (c : Int) : List Byte :=
  if c < 0 then txt!"-" ++ Lists.decimal c.natAbs else Lists.decimal c.natAbs

/-- At the front of `buf` is an object with identifier octets `tag`, identifier and length octets
`hdr`, and contents `value`. -/
def Reads (buf hdr tag value : List Byte) : Prop :=
  IsTag tag ∧ tag <+: hdr ∧
    decode buf = .ok (.ok (hdr.length + value.length) ⟨beNat tag, topBits tag, value⟩)

/-- Decoding `buf` fails with code `c`. -/
def Refused (buf : List Byte) (c : Int) : Prop := decode buf = .ok (.err c)

/-- The last `k` of `n` bytes count as padding: less than a DES block or an AES block. -/
def PadRule (n k : Nat) : Prop := (n % 8 = 0 ∧ k < 8) ∨ (n % 16 = 0 ∧ k < 15)

/-- Objects one after the other; padding may end them. -/
inductive Doc where
  | nil
  | padding (bytes : List Byte)
  | prim (hdr tag value : List Byte) (rest : Doc)
  | node (hdr tag : List Byte) (children rest : Doc)

def Doc.enc : Doc → List Byte
  | .nil => []
  | .padding bytes => bytes
  | .prim hdr _ value rest => hdr ++ value ++ rest.enc
  | .node hdr _ children rest => hdr ++ children.enc ++ rest.enc

/-- The bytes of the document, followed by `tail`, are read as the document says.  `n` is the
number of bytes of the container; `pad` whether padding is allowed for. -/
def Doc.WF (pad : Bool) : Nat → Doc → List Byte → Prop
  | _, .nil, _ => True
  | n, .padding bytes, tail =>
    pad = true ∧ tail = [] ∧ bytes ≠ [] ∧ (∃ c, Refused bytes c) ∧ PadRule n bytes.length
  | n, .prim hdr tag value rest, tail =>
    Reads (hdr ++ value ++ (rest.enc ++ tail)) hdr tag value ∧ ¬ IsConstructed tag ∧
      rest.WF pad n tail
  | n, .node hdr tag children rest, tail =>
    Reads (hdr ++ children.enc ++ (rest.enc ++ tail)) hdr tag children.enc ∧ IsConstructed tag ∧
      children.WF pad children.enc.length [] ∧ rest.WF pad n tail

/-- `P depth tag value` holds of every object. -/
def Doc.All (P : Nat → List Byte → List Byte → Prop) : Nat → Doc → Prop
  | _, .nil => True
  | _, .padding _ => True
  | depth, .prim _ tag value rest => P depth tag value ∧ rest.All P depth
  | depth, .node _ tag children rest =>
    P depth tag children.enc ∧ children.All P (depth + 1) ∧ rest.All P depth

/-- The lines, in document order. -/
def Doc.text (line : Nat → List Byte → List Byte → List Byte) (pfx : List Byte) :
    Nat → Doc → List Byte
  | _, .nil => []
  | depth, .padding bytes =>
    indentation pfx depth ++ txt!"Padding : [" ++ Lists.decimal bytes.length ++ txt!"]" ++
      spacedHex bytes ++ [0x0A]
  | depth, .prim _ tag value rest => line depth tag value ++ rest.text line pfx depth
  | depth, .node _ tag children rest =>
    line depth tag children.enc ++ children.text line pfx (depth + 1) ++ rest.text line pfx depth

/-- The way to the first place where no object can be read: `d` are the objects before it, either
in the same container or in the same container as the object that contains it. -/
inductive Path where
  | stop (d : Doc) (bad : List Byte) (c : Int)
  | into (d : Doc) (hdr tag : List Byte) (p : Path) (after : List Byte)

def Path.enc : Path → List Byte
  | .stop d bad _ => d.enc ++ bad
  | .into d hdr _ p after => d.enc ++ (hdr ++ p.enc ++ after)

/-- `bad`, the rest of its container, is refused with `c`, and is not padding. -/
def Path.WF (pad : Bool) : Nat → Path → Prop
  | n, .stop d bad c =>
    d.WF pad n bad ∧ bad ≠ [] ∧ Refused bad c ∧ ¬ (pad = true ∧ PadRule n bad.length)
  | n, .into d hdr tag p after =>
    d.WF pad n (hdr ++ p.enc ++ after) ∧ Reads (hdr ++ p.enc ++ after) hdr tag p.enc ∧
      IsConstructed tag ∧ p.WF pad p.enc.length

def Path.All (P : Nat → List Byte → List Byte → Prop) : Nat → Path → Prop
  | depth, .stop d _ _ => d.All P depth
  | depth, .into d _ tag p _ => d.All P depth ∧ P depth tag p.enc ∧ p.All P (depth + 1)

/-- The lines up to there, and the code. -/
def Path.text (line : Nat → List Byte → List Byte → List Byte) (pfx : List Byte) :
    Nat → Path → List Byte
  | depth, .stop d _ c => d.text line pfx depth ++ txt!"BER decoding error " ++ signed c
  | depth, .into d _ tag p _ =>
    d.text line pfx depth ++ line depth tag p.enc ++ p.text line pfx (depth + 1)

/-- The number of bytes before that place. -/
def Path.offset : Path → Nat
  | .stop d _ _ => d.enc.length
  | .into d hdr _ p _ => d.enc.length + hdr.length + p.offset

/-- The refused bytes and all that follows them. -/
def Path.invalid : Path → List Byte
  | .stop _ bad _ => bad
  | .into _ _ _ p after => p.invalid ++ after

/-! ## Lines of plain BER -/

/-- The universal types shown as text (X.680: object descriptor, character strings, times). -/
def textTags : List (List Byte) :=
  [[0x07], [0x0C], [0x12], [0x13], [0x14], [0x15], [0x16], [0x17], [0x18], [0x19], [0x1A], [0x1B],
   [0x1C], [0x1E]]

/-- Numbers of seven-bit groups; all but the last octet of a number have bit 8 set. -/
def subids : List Byte → Nat → List Nat
  | [], _ => []
  | b :: rest, acc =>
    if b.toNat < 128 then (acc * 128 + b.toNat) :: subids rest 0
    else subids rest (acc * 128 + b.toNat % 128)

/-- The numbers of an object identifier whose first two are in the first octet. -/
def oidNumbers : List Byte → List Nat
  | [] => []
  | b :: rest =>
    if b.toNat < 80 then b.toNat / 40 :: b.toNat % 40 :: subids rest 0
    else 2 :: (b.toNat - 80) :: subids rest 0

/-- An object identifier within the limits of the implementation: 1 to 39 octets, the first two
numbers in the first octet (40·X + Y below 128), at most ten numbers, all below 2^32, none cut
off. -/
def OidOk (v : List Byte) : Prop :=
  (∃ b, v.head? = some b ∧ b.toNat < 128) ∧ v.length < 40 ∧ (oidNumbers v).length ≤ 10 ∧ (∀ n ∈ oidNumbers v, n < 2 ^ 32) ∧
    (∀ b, v.tail.getLast? = some b → b.toNat < 128)

/-- Numbers with spaces between. -/
def spacedNumbers : List Nat → List Byte
  | [] => []
  | [n] => Lists.decimal n
  | n :: ns => Lists.decimal n ++ [0x20] ++ spacedNumbers ns

/-- What is added to the bytes of a primitive object. -/
def berRemark (tag v : List Byte) : List Byte :=
  if tag ∈ textTags then
    (if v.length < 1024 then txt!" \"" ++ v.takeWhile (· ≠ 0) ++ txt!"\"" else txt!" \"...\"")
  else if tag = [0x06] then txt!" {" ++ spacedNumbers (oidNumbers v) ++ txt!"}"
  else []

/-- The line of an object: tag, length, and for a primitive object the bytes and the remark. -/
def berLine (pfx : List Byte) (depth : Nat) (tag v : List Byte) : List Byte :=
  indentation pfx depth ++ hexOf tag ++ txt!" : [" ++ Lists.decimal v.length ++ txt!"]" ++
    (if IsConstructed tag then [] else spacedHex v ++ berRemark tag v) ++ [0x0A]

end Verif.PrintSpec
