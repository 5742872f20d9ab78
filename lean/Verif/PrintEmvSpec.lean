import Verif.PrintSpec
import Verif.TlvInfoProps
import Verif.DolProps

/-!
# Specification of the listings of EMV data

What is known about a field is what `emv_tlv_get_info` says about it (C82, C83, C84).
-/

set_option autoImplicit false

namespace Verif.PrintSpec
open Verif Ber BerSpec Formats TlvInfo

/-- What `emv_tlv_get_info` says about a field: name, format, and the string it delivers. -/
structure Known where
  name : Option (List Byte)
  fmt : Fmt
  shown : List Byte

/-- The output array is 2048 bytes of any contents. -/
def known (env : Env) (loc : Nat → List Byte → List Byte) (tag v : List Byte) : Known :=
  match getInfo env (beNat tag) v (loc (beNat tag) v) with
  | .ok (_, info, out) => ⟨info.name, info.fmt, out.takeWhile (· ≠ 0)⟩
  | .error _ => ⟨none, .b, []⟩

/-- Tag, and name if there is one. -/
def titled (tag : List Byte) (name : Option (List Byte)) : List Byte :=
  hexOf tag ++ (match name with
    | some n => txt!" | " ++ n
    | none => [])

/-- The pieces between newlines. -/
def pieces (s : List Byte) : List (List Byte) :=
  s.foldr (fun b acc =>
    if b = 0x0A then [] :: acc
    else match acc with
      | [] => [[b]]
      | l :: ls => (b :: l) :: ls) [[]]

/-- One line with a bullet for each piece that is not empty. -/
def bullets (pfx : List Byte) (depth : Nat) (s : List Byte) : List Byte :=
  (((pieces s).filter (· ≠ [])).map
    (fun l => indentation pfx depth ++ txt!"- " ++ l ++ [0x0A])).flatten

/-! ## Lists of tags -/

/-- Up to `k` further identifier octets. -/
def moreOctets : Nat → List Byte → Option (List Byte × List Byte)
  | 0, _ => none
  | _ + 1, [] => none
  | k + 1, c :: r =>
    if c.toNat < 128 then some ([c], r)
    else match moreOctets k r with
      | some (t, r') => some (c :: t, r')
      | none => none

/-- Identifier octets at the front, and what follows them. -/
def tagOctets : List Byte → Option (List Byte × List Byte)
  | [] => none
  | b :: r =>
    if b.toNat % 32 ≠ 31 then some ([b], r)
    else match moreOctets 3 r with
      | some (t, r') => some (b :: t, r')
      | none => none

/-- The complete entries at the front of a data object list. -/
def reqsIn : Nat → List Byte → List Dol.Req
  | 0, _ => []
  | k + 1, v =>
    match tagOctets v with
    | some (t, l :: rest) => ⟨t, l⟩ :: reqsIn k rest
    | _ => []

/-- The complete entries at the front of a data object list. -/
def reqs (v : List Byte) : List Dol.Req := reqsIn v.length v

/-- The complete tags at the front of a list of tags. -/
def tagsIn : Nat → List Byte → List (List Byte)
  | 0, _ => []
  | k + 1, v =>
    match tagOctets v with
    | some (t, rest) => t :: tagsIn k rest
    | none => []

/-- The complete tags at the front of a list of tags. -/
def tags (v : List Byte) : List (List Byte) := tagsIn v.length v

/-- The name of a field that is asked for with `len` bytes.  The three tags of several meanings
have a name only for the length that decides. -/
def nameFor (tag : List Byte) (len : Nat) : Option (List Byte) :=
  if tag = [0x9F, 0x66] then
    (if len = 4 then some txt!"Terminal Transaction Qualifiers (TTQ)" else none)
  else if tag = [0x9F, 0x6D] then
    (if len = 1 then some txt!"Contactless Reader Capabilities" else none)
  else if tag = [0x9F, 0x6E] then
    (if len > 4 ∧ len ≤ 32 then some txt!"Third Party Data" else none)
  else nameOf (beNat tag)

/-- The listing of a data object list. -/
def dolText (pfx : List Byte) (depth : Nat) (v : List Byte) : List Byte :=
  indentation pfx depth ++ txt!"Data Object List:" ++ [0x0A] ++
    ((reqs v).map (fun r => indentation pfx (depth + 1) ++ titled r.tag (nameFor r.tag r.len.toNat) ++
      txt!" [" ++ Lists.decimal r.len.toNat ++ txt!"]" ++ [0x0A])).flatten

/-- The listing of a list of tags. -/
def tagListText (pfx : List Byte) (depth : Nat) (v : List Byte) : List Byte :=
  indentation pfx depth ++ txt!"Tag List:" ++ [0x0A] ++
    ((tags v).map (fun t => indentation pfx (depth + 1) ++ titled t (nameFor t 0) ++ [0x0A])).flatten

/-! ## Lines -/

/-- The lines below a field that is a list. -/
def below (pfx : List Byte) (depth : Nat) (f : Fmt) (v : List Byte) : List Byte :=
  match f with
  | .dol => dolText pfx depth v
  | .tagList => tagListText pfx depth v
  | _ => []

/-- What follows the bytes of a primitive field: a string in quotes when the field is text, else in
parentheses; a list on lines of its own. -/
def emvRemark (pfx : List Byte) (depth : Nat) (k : Known) (v : List Byte) : List Byte :=
  if k.shown = [] then [0x0A] ++ below pfx depth k.fmt v
  else if k.shown.getLast? = some 0x0A then
    [0x0A] ++ bullets pfx depth k.shown ++ below pfx depth k.fmt v
  else if k.fmt ∈ [Fmt.a, Fmt.an, Fmt.ans] then txt!" \"" ++ k.shown ++ txt!"\"" ++ [0x0A]
  else txt!" (" ++ k.shown ++ txt!")" ++ [0x0A]

/-- The lines of a field. -/
def emvLine (env : Env) (loc : Nat → List Byte → List Byte) (pfx : List Byte) (depth : Nat)
    (tag v : List Byte) : List Byte :=
  indentation pfx depth ++ titled tag (known env loc tag v).name ++ txt!" : [" ++
    Lists.decimal v.length ++ txt!"]" ++
    (if IsConstructed tag then [0x0A]
     else spacedHex v ++ emvRemark pfx (depth + 1) (known env loc tag v) v)

/-- Nothing in the field makes its listing undefined: its description is defined (C84), and a data
object list does not ask for 14 bytes of tag 84. -/
def Defined (loc : Nat → List Byte → List Byte) (tag v : List Byte) : Prop :=
  ¬ Undefined (beNat tag) v (loc (beNat tag) v) ∧
  (tag ∈ [[0x8C], [0x8D], [0x9F, 0x38], [0x9F, 0x49]] →
    ∀ r ∈ reqs v, ¬ (r.tag = [0x84] ∧ r.len = 14))

end Verif.PrintSpec
