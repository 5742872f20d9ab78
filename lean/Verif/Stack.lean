import Verif.Ttl
import Verif.Tal

/-!
# The application layer over the transport layer

`Tal.lean` and what is built on it run against the results of the `emv_ttl_*` wrappers.  Here the wrappers of
`Ttl.lean` give these results, so the whole runs against the bytes the card reader delivers.
-/

set_option autoImplicit false

namespace Verif.Stack
open Verif Tal

/-- The wrapper for a command, as called in emv_tal.c:74, 158, 325, 346, 476, 581 and 766 with arrays of
`EMV_RAPDU_DATA_MAX` = 256 bytes (emv_ttl.h:38). -/
def wrapper (mode : Ttl.Mode) : Cmd → List Ttl.Resp → C (List (List Byte) × Ttl.WOutcome)
  | .select next name, script => Ttl.select (if next then 0x02 else 0x00) mode name 256 script
  | .readRecord sfi rec, script => Ttl.readRecord mode sfi rec 256 script
  | .gpo data, script => Ttl.gpo mode data 256 script

/-- End of a run over the transport layer: a result with the exchanges and the unused answers, or the reader has
not answered yet. -/
inductive Ending (α : Type) where
  | done (tr : List (Cmd × W)) (a : α) (rest : List Ttl.Resp)
  | waiting
deriving Repr

/-- A function of the application layer over the transport layer: everything transmitted, and the end.  `ws` are
the results of the wrappers so far; when the function waits for the answer to a command, the wrapper is called, and
it goes on with its result. -/
def drive {α : Type} (prog : List W → C (Run α)) (mode : Ttl.Mode) :
    Nat → List W → List Ttl.Resp → C (List (List Byte) × Ending α)
  | 0, _, _ => .error .nonTerm
  | fuel + 1, ws, script => do
    match ← prog ws with
    | (tr, .done a _) => .ok ([], .done tr a script)
    | (_, .pending cmd) => do
      match ← wrapper mode cmd script with
      | (log, .pending) => .ok (log, .waiting)
      | (log, .done d rest) => do
        let (log', o) ← drive prog mode fuel (ws ++ [⟨d.code, d.data, d.sw⟩]) rest
        .ok (log ++ log', o)

end Verif.Stack
