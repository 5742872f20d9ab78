import Verif.Base

/-! # Model of `src/iso7816_apdu.h` -/

set_option autoImplicit false

namespace Verif.Apdu
open Verif

/-- `enum iso7816_apdu_case_t` (iso7816_apdu.h:74-82), in declaration order. -/
inductive Case where
  | c1 | c2S | c2E | c3S | c3E | c4S | c4E
  deriving DecidableEq, Repr

/-- `iso7816_apdu_case` (iso7816_apdu.h:91-138).  `.error` carries the negative code. -/
def apduCase (a : List Byte) : C (Except Int Case) :=
  if a.length < 4 then .ok (.error (-1))
  else if a.length = 4 then .ok (.ok .c1)
  else if a.length = 5 then .ok (.ok .c2S)
  else do
    let c5 ← rd a 4
    if c5 ≠ 0 then
      if 5 + c5.toNat = a.length then .ok (.ok .c3S)
      else if 6 + c5.toNat = a.length then .ok (.ok .c4S)
      else .ok (.error (-2))
    else if a.length = 7 then .ok (.ok .c2E)
    else if a.length > 7 then do
      let c6 ← rd a 6
      let c7 ← rd a 7
      let c6c7 := c6.toNat * 256 + c7.toNat
      if c6c7 ≠ 0 then
        if 7 + c6c7 = a.length then .ok (.ok .c3E)
        else if 9 + c6c7 = a.length then .ok (.ok .c4E)
        else .ok (.error (-2))
      else .ok (.error (-2))
    else .ok (.error (-2))

/-- `iso7816_sw1sw2_is_success` (iso7816_apdu.h:197). -/
def swIsSuccess (sw1 sw2 : Byte) : Bool := sw1 == 0x90 && sw2 == 0x00
/-- `iso7816_sw1sw2_is_normal` (iso7816_apdu.h:206). -/
def swIsNormal (sw1 sw2 : Byte) : Bool := swIsSuccess sw1 sw2 || sw1 == 0x61
/-- `iso7816_sw1sw2_is_warning` (iso7816_apdu.h:215). -/
def swIsWarning (sw1 _sw2 : Byte) : Bool := sw1 == 0x62 || sw1 == 0x63
/-- `iso7816_sw1sw2_is_error` (iso7816_apdu.h:224). -/
def swIsError (sw1 sw2 : Byte) : Bool := !swIsNormal sw1 sw2 && !swIsWarning sw1 sw2

end Verif.Apdu
