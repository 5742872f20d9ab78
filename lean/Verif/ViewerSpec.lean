import Verif.PrintEmvSpec

/-!
# Specification of the tree view

The bytes are read as a document, or up to the first place where no object can be read (`Doc`,
`Path` of C89 and C90, with the padding rule of the viewer).  A row stands for an object or for
padding: where it is, how deep, and what it holds.
-/

set_option autoImplicit false

namespace Verif.ViewerSpec
open Verif Ber BerSpec PrintSpec Formats

/-- The last `k` of `n` bytes count as padding: less than a DES block or an AES block. -/
def PadRule (n k : Nat) : Prop := (n % 8 = 0 ∧ k < 8) ∨ (n % 16 = 0 ∧ k < 16)

/-- The bytes of the document, followed by `tail`, are read as the document says.  `n` is the
number of bytes of the container; `pad` whether padding is allowed for. -/
def Fits (pad : Bool) : Nat → Doc → List Byte → Prop
  | _, .nil, _ => True
  | n, .padding bytes, tail =>
    pad = true ∧ tail = [] ∧ bytes ≠ [] ∧ (∃ c, Refused bytes c) ∧ PadRule n bytes.length
  | n, .prim hdr tag value rest, tail =>
    Reads (hdr ++ value ++ (rest.enc ++ tail)) hdr tag value ∧ ¬ IsConstructed tag ∧
      Fits pad n rest tail
  | n, .node hdr tag children rest, tail =>
    Reads (hdr ++ children.enc ++ (rest.enc ++ tail)) hdr tag children.enc ∧ IsConstructed tag ∧
      Fits pad children.enc.length children [] ∧ Fits pad n rest tail

/-- `bad`, the rest of its container, is refused with `c`, and is not padding. -/
def Leads (pad : Bool) : Nat → Path → Prop
  | n, .stop d bad c =>
    Fits pad n d bad ∧ bad ≠ [] ∧ Refused bad c ∧ ¬ (pad = true ∧ PadRule n bad.length)
  | n, .into d hdr tag p after =>
    Fits pad n d (hdr ++ p.enc ++ after) ∧ Reads (hdr ++ p.enc ++ after) hdr tag p.enc ∧
      IsConstructed tag ∧ Leads pad p.enc.length p

/-- What a row stands for. -/
inductive What where
  | field (tag value : List Byte)
  | padding (bytes : List Byte)
  deriving DecidableEq

structure Row where
  depth : Nat
  /-- number of bytes of the data in front of it -/
  offset : Nat
  /-- number of its bytes -/
  length : Nat
  what : What
  deriving DecidableEq

/-- The rows of a document that starts at `offset`. -/
def rows : Nat → Nat → Doc → List Row
  | _, _, .nil => []
  | depth, offset, .padding bytes => [⟨depth, offset, bytes.length, .padding bytes⟩]
  | depth, offset, .prim hdr tag value rest =>
    ⟨depth, offset, (hdr ++ value).length, .field tag value⟩ ::
      rows depth (offset + (hdr ++ value).length) rest
  | depth, offset, .node hdr tag children rest =>
    ⟨depth, offset, (hdr ++ children.enc).length, .field tag children.enc⟩ ::
      (rows (depth + 1) (offset + hdr.length) children ++
        rows depth (offset + (hdr ++ children.enc).length) rest)

/-- The rows up to the first place where no object can be read. -/
def rowsTo : Nat → Nat → Path → List Row
  | depth, offset, .stop d _ _ => rows depth offset d
  | depth, offset, .into d hdr tag p _ =>
    rows depth offset d ++
      (⟨depth, offset + d.enc.length, (hdr ++ p.enc).length, .field tag p.enc⟩ ::
        rowsTo (depth + 1) (offset + d.enc.length + hdr.length) p)

/-- How data are read: as a document, or up to a place where they cannot be read. -/
inductive Reading (pad : Bool) (data : List Byte) : List Row → Nat → Bool → Prop where
  | whole (d : Doc) (h : Fits pad data.length d []) (he : data = d.enc) :
      Reading pad data (rows 0 0 d) data.length true
  | upTo (p : Path) (h : Leads pad data.length p) (he : data = p.enc) :
      Reading pad data (rowsTo 0 0 p) p.offset false

/-- The bytes that belong to a row alone: all but the contents of a constructed field. -/
def Row.own (r : Row) : Nat :=
  match r.what with
  | .field tag v => if IsConstructed tag then r.length - v.length else r.length
  | .padding _ => r.length

/-- The rows follow one another, from `lo` to `hi`. -/
def Consecutive : Nat → List Row → Nat → Prop
  | lo, [], hi => lo = hi
  | lo, r :: rs, hi => r.offset = lo ∧ Consecutive (lo + r.own) rs hi

/-- The bytes of `data` from `r.offset` on are those the row stands for: identifier octets, length
octets that give the length of the contents or are those of the indefinite form, and contents; or
padding. -/
def Located (data : List Byte) (r : Row) : Prop :=
  match r.what with
  | .field tag v => IsTag tag ∧ ∃ len rest,
      data.drop r.offset = tag ++ len ++ v ++ rest ∧ r.length = tag.length + len.length + v.length ∧
      (LenOctets v.length len ∨ (IsConstructed tag ∧ len = [0x80]))
  | .padding bytes => bytes ≠ [] ∧ r.length = bytes.length ∧ ∃ rest, data.drop r.offset = bytes ++ rest

/-! ## Texts -/

/-- Bytes in hexadecimal with spaces between. -/
def hexText (v : List Byte) : List Byte := [0x20].intercalate (v.map (fun b => hexOf [b]))

/-- Length and bytes. -/
def counted (v : List Byte) : List Byte := txt!"[" ++ Lists.decimal v.length ++ txt!"] " ++ hexText v

/-- The array for the description of a field: 2048 zeros. -/
def blank : Nat → List Byte → List Byte := fun _ _ => List.replicate 2048 0

/-- The plain text of a field: tag and length, and the bytes unless it is constructed. -/
def plainText (tag v : List Byte) : List Byte :=
  hexOf tag ++ txt!" : " ++
    (if IsConstructed tag then txt!"[" ++ Lists.decimal v.length ++ txt!"]" else counted v)

/-- The text of a field with its name, and its value unless that is a list. -/
def namedText (k : Known) (tag : List Byte) : List Byte :=
  titled tag k.name ++
    (if k.name = none ∨ k.shown = [] ∨ k.shown.getLast? = some 0x0A then []
     else if k.fmt ∈ [TlvInfo.Fmt.a, .an, .ans] then txt!" : \"" ++ k.shown ++ txt!"\""
     else txt!" : " ++ k.shown)

def isWhite (b : Byte) : Bool := b ∈ [0x20, 0x09, 0x0A, 0x0B, 0x0C, 0x0D]

/-- `t` is `s` without white space at its ends. -/
def Trimmed (s t : List Byte) : Prop :=
  ∃ a b, s = a ++ t ++ b ∧ (∀ c ∈ a, isWhite c) ∧ (∀ c ∈ b, isWhite c) ∧
    (∀ c, t.head? = some c → ¬ isWhite c) ∧ (∀ c, t.getLast? = some c → ¬ isWhite c)

end Verif.ViewerSpec
