import Verif.Trace
import Verif.Atr

/-!
# Model of the debug events of `emv_atr_parse` (`src/emv.c`, lines 108-332)

`Atr.emvParse` again, with the calls of `emv_debug_error` and `emv_debug_atr_info`.  Each check
is a function that gives the text of its error, or `none`.  Events of level TRACE are left out.
-/

set_option autoImplicit false

namespace Verif.Trace.Atr
open Verif Verif.Atr

/-- An event of `emv_atr_parse`: a message (`error`), or the parsed ATR, whose data is the
structure `iso7816_atr_info_t` (emv_debug.h:171, source EMV, level CARD, type ATR). -/
inductive Ev where
  | said (e : Event)
  | atr (info : Info)
  deriving DecidableEq, Repr

/-- The TA1 checks (emv.c:153-176). -/
def sayTA1 (ta1 ta2 : Option Byte) : Option (List Byte) := match ta1, ta2 with
  | some a, some b =>
    if b &&& 0x10 = 0 ∧ (a < 0x11 ∨ a > 0x13) then
      some txt!"TA2 indicates specific mode but TA1 is invalid" else none
  | some a, none =>
    if a &&& 0xF0 = 0 then some txt!"TA2 indicates negotiable mode but TA1 is invalid"
    else if a &&& 0x0F < 3 then some txt!"TA2 indicates negotiable mode but TA1 is invalid"
    else none
  | none, _ => none

/-- The TC1 check (emv.c:183-189). -/
def sayTC1 (tc1 : Option Byte) : Option (List Byte) := match tc1 with
  | some c => if c ≠ 0x00 ∧ c ≠ 0xFF then some txt!"TC1 is invalid" else none
  | none => none

/-- The TD1 check (emv.c:193-200). -/
def sayTD1 (td1 : Option Byte) : Option (List Byte) := match td1 with
  | some d => if d &&& 0x0F > 1 then some txt!"TD1 protocol is invalid" else none
  | none => none

/-- The TA2 checks (emv.c:204-221). -/
def sayTA2 (ta2 : Option Byte) (t : Nat) : Option (List Byte) := match ta2 with
  | some a =>
    if (a &&& 0x0F).toNat ≠ t then some txt!"TA2 protocol differs from TD1 protocol"
    else if a &&& 0x10 ≠ 0 then some txt!"TA2 implicit mode is invalid"
    else none
  | none => none

/-- The TC2 checks (emv.c:227-239). -/
def sayTC2 (tc2 : Option Byte) (t : Nat) : Option (List Byte) := match tc2 with
  | some c =>
    if t ≠ 0 then some txt!"TC2 is not allowed when protocol is not T=0"
    else if c ≠ 0x0A then some txt!"TC2 for T=0 is invalid"
    else none
  | none => none

/-- The TD2 checks (emv.c:243-269). -/
def sayTD2 (t : Nat) (td2 : Option Byte) : Option (List Byte) := match td2 with
  | some d =>
    if t = 0 ∧ d &&& 0x0F ≠ 15 then some txt!"TD2 protocol is invalid"
    else if t = 1 ∧ d &&& 0x0F ≠ 1 then some txt!"TD2 protocol is invalid"
    else none
  | none => if t = 1 then some txt!"TD2 for T=1 is absent" else none

/-- The TA3 check (emv.c:275-282). -/
def sayTA3 (ta3 : Option Byte) : Option (List Byte) := match ta3 with
  | some a => if a < 0x10 then some txt!"TA3 for T=1 is invalid" else none
  | none => none

/-- The TB3 checks (emv.c:286-314). -/
def sayTB3 (tb3 : Option Byte) (n : Byte) (cwi : Nat) : Option (List Byte) := match tb3 with
  | some b =>
    if (b >>> 4).toNat > 4 then some txt!"TB3 for T=1 has invalid BWI"
    else if (b &&& 0x0F).toNat > 5 then some txt!"TB3 for T=1 has invalid CWI"
    else if 2 ^ (if n ≠ 0 then cwi else 1) < (if n ≠ 0xFF then n.toNat + 1 else 0) then
      some txt!"2^CWI < (N + 1) for T=1 is not allowed"
    else none
  | none => some txt!"TB3 for T=1 is absent"

/-- The TC3 check (emv.c:318-324). -/
def sayTC3 (tc3 : Option Byte) : Option (List Byte) := match tc3 with
  | some c => if c ≠ 0x00 then some txt!"TC3 for T=1 is invalid" else none
  | none => none

/-- The checks for T=1 (emv.c:272-325). -/
def sayT1 (td2 ta3 tb3 tc3 : Option Byte) (n : Byte) (cwi : Nat) : Option (List Byte) :=
  if protoOf td2 = 1 then (sayTA3 ta3).or ((sayTB3 tb3 n cwi).or (sayTC3 tc3)) else none

/-- All checks in order (emv.c:151-325): the first error. -/
def say (ta1 tc1 td1 ta2 tc2 td2 ta3 tb3 tc3 : Option Byte) (n : Byte) (cwi : Nat) :
    Option (List Byte) :=
  (sayTA1 ta1 ta2).or ((sayTC1 tc1).or ((sayTD1 td1).or ((sayTA2 ta2 (protoOf td1)).or
    ((sayTC2 tc2 (protoOf td1)).or ((sayTD2 (protoOf td1) td2).or
      (sayT1 td2 ta3 tb3 tc3 n cwi))))))

/-- The checks of a parsed ATR (emv.c:134-332). -/
def judge (info : Info) : C (List Ev × Int) := do
  let ta1 ← deref info (·.a) 1
  let tc1 ← deref info (·.c) 1
  let td1 ← deref info (·.d) 1
  let ta2 ← deref info (·.a) 2
  let tc2 ← deref info (·.c) 2
  let td2 ← deref info (·.d) 2
  let ta3 ← deref info (·.a) 3
  let tb3 ← deref info (·.b) 3
  let tc3 ← deref info (·.c) 3
  match say ta1 tc1 td1 ta2 tc2 td2 ta3 tb3 tc3 info.par.n info.par.cwi with
  | some text => .ok ([.atr info, .said (error 4 text)], 1)
  | none => .ok ([.atr info], 0)

/-- `emv_atr_parse` (emv.c:108-332) with its events; `EMV_DEBUG_SOURCE` is EMV (emv.c:30). -/
def run (atr : List Byte) : C (List Ev × Int) :=
  if atr.length = 0 then .ok ([.said (error 4 txt!"Invalid parameter")], -2)
  else do
    match ← parse atr with
    | .error _ => .ok ([.said (error 4 txt!"Failed to parse ATR")], 1)
    | .ok info => judge info

end Verif.Trace.Atr
