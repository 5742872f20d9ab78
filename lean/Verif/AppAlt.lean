import Verif.App
import Verif.Iso8859Alt

/-!
# Model of `emv_app_extract_display_name` (`src/emv_app.c:146-241`) with any variant of ISO 8859

`App.displayName` is the one built with `src/iso8859_simple.c`; here the variant is a parameter.
-/

set_option autoImplicit false

namespace Verif.AppAlt
open Verif Ber App

/-- The two functions of `src/iso8859.h` as built. -/
structure Conv where
  isSupported : Nat → Bool
  toUtf8 : Nat → List Byte → List Byte → C (Int × List Byte)

/-- `src/iso8859_simple.c`. -/
def simple : Conv := ⟨Iso8859.isSupported, Iso8859.toUtf8⟩

/-- `src/iso8859_iconv.c`. -/
def iconv (x : Iso8859Alt.Lib) : Conv := ⟨Iso8859Alt.isSupported, Iso8859Alt.toUtf8Iconv x⟩

/-- `src/iso8859_boost.cpp`. -/
def boost (x : Iso8859Alt.Lib) : Conv := ⟨Iso8859Alt.isSupported, Iso8859Alt.toUtf8Boost x⟩

/-- The code table part (emv_app.c:161-176). -/
def codeTable (c : Conv) (pse : Option (List Tlv)) (tlvs : List Tlv) : C Nat :=
  match find (pse.getD tlvs) 0x9F11 with
  | some t =>
    if t.value.length = 1 then do
      let b ← rd t.value 0
      .ok (if c.isSupported b.toNat then b.toNat else 0)
    else .ok 0
  | none => .ok 0

/-- The preferred name part (emv_app.c:177-211), as `App.preferredName`. -/
def preferredName (c : Conv) (ct : Nat) (tlvs : List Tlv) (name : List Byte) : C (Bool × List Byte) :=
  if ct = 0 then .ok (false, name)
  else
    match find tlvs 0x9F12 with
    | none => .ok (false, name)
    | some t => do
      let (r, s) ← Formats.ansToNonControlStr t.value (List.replicate 17 0)
      if r = 0 then do
        let n ← strlen s
        let iso ← slice s 0 n
        let (r, name) ← c.toUtf8 ct iso name
        .ok (r == 0, name)
      else .ok (false, name)

/-- `emv_app_extract_display_name` (emv_app.c:146-241), `app->aid` non-NULL. -/
def displayName (c : Conv) (pse : Option (List Tlv)) (tlvs : List Tlv) (aid : Tlv) (name : List Byte) :
    C (Int × List Byte) := do
  let ct ← codeTable c pse tlvs
  let (used, name) ← preferredName c ct tlvs name
  if used then .ok (0, name)
  else
    match find tlvs 0x50 with
    | some t => do
      let (_, name) ← Formats.ansToAlnumSpaceStr t.value name
      .ok (0, name)
    | none => Formats.bToStr aid.value name

end Verif.AppAlt
