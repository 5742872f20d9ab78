import Verif.Trace
import Verif.PrintCard

/-!
# What `emv-tool` prints of the debug events

The events of `Trace.lean` through `emv_debug_internal` (emv_debug.c:51-100) to the function set in
emv-tool.c:670-674, `print_emv_debug` or `print_emv_debug_verbose` (`PrintCard.lean`).
-/

set_option autoImplicit false

namespace Verif.Trace
open Verif

/-- The memory of one event: the local arrays of the functions called while it is printed, that of
`emv_debug_internal` (emv_debug.c:62), and the time (emv_debug.c:87-97). -/
structure Scratch where
  loc : PrintCard.Locals
  text : List Byte
  time : Nat

/-- The cases of `print_emv_debug_internal` (print_helpers.c:843-879) by the type of the event
(emv_debug.h:51-60).  The events of `Trace.lean` are never of type ATR (4). -/
def dataOf (e : Event) : PrintCard.Data :=
  if e.kind = 1 then .msg
  else if e.kind = 3 then .tlv e.data
  else if e.kind = 5 then .capdu e.data
  else if e.kind = 6 then .rapdu e.data
  else .other e.data

/-- One event (emv_debug.c:51-100, emv-tool.c:670-674). -/
def printed (cfg : PrintCard.Config) (verbose : Bool) (env : TlvInfo.Env) (m : Scratch)
    (e : Event) : C (List Byte) :=
  if PrintCard.delivered cfg e.source e.level then do
    let str ← PrintCard.eventText m.text e.text
    if verbose then PrintCard.debugVerbose env m.loc m.time e.source e.level str (dataOf e)
    else PrintCard.debug env m.loc e.source str (dataOf e)
  else .ok []

/-- The events in turn, each with its memory. -/
def output (cfg : PrintCard.Config) (verbose : Bool) (env : TlvInfo.Env) :
    List (Event × Scratch) → C (List Byte)
  | [] => .ok []
  | (e, m) :: l => do
    let a ← printed cfg verbose env m e
    let b ← output cfg verbose env l
    .ok (a ++ b)

end Verif.Trace
