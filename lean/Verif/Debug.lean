import Verif.PrintCard

/-!
# Model of `src/emv_debug.c`: initialisation, time and delivery of debug events
-/

set_option autoImplicit false

namespace Verif.Debug
open Verif

/-- The static variables (emv_debug.c:34-36); `func` tells the functions of the application
apart, `none` is NULL. -/
structure State where
  mask : Nat
  level : Nat
  func : Option Nat
  deriving DecidableEq, Repr

/-- The initial values (emv_debug.c:34-36). -/
def State.start : State := ⟨0, 0, none⟩

/-- What `emv_debug_init` (emv_debug.c:38-49) leaves; it always returns 0. -/
def init (mask level : Nat) (func : Option Nat) (_ : State) : State := ⟨mask, level, func⟩

/-- `(uint32_t)((t.tv_sec * 1000000) + (t.tv_nsec / 1000))` (emv_debug.c:96-97), `time_t` and
`long` of 64 bits. -/
def timestamp (sec nsec : Int) : C Nat :=
  let us := sec * 1000000
  if us < -(2 ^ 63) ∨ 2 ^ 63 ≤ us then .error .overflow
  else
    let sum := us + Int.tdiv nsec 1000
    if sum < -(2 ^ 63) ∨ 2 ^ 63 ≤ sum then .error .overflow
    else .ok (sum % 2 ^ 32).toNat

/-- An event as its macro passes it on (emv_debug.h:131-220): source, level and type, the text
after its conversions, and the data; with it the time of the clock (emv_debug.c:87-94) and the
content of the local array (emv_debug.c:62). -/
structure Event where
  source : Nat
  level : Nat
  kind : Nat
  text : List Byte
  data : List Byte
  sec : Int
  nsec : Int
  str : List Byte

/-- The arguments of a call of the function of the application (emv_debug.c:99). -/
structure Call where
  func : Nat
  time : Nat
  source : Nat
  level : Nat
  kind : Nat
  text : List Byte
  data : List Byte
  deriving DecidableEq, Repr

/-- `emv_debug_internal` (emv_debug.c:51-100). -/
def internal (s : State) (e : Event) : C (List Call) :=
  match s.func with
  | none => .ok []
  | some f =>
    if s.mask &&& e.source = 0 then .ok []
    else if e.level > s.level then .ok []
    else do
      let text ← PrintCard.eventText e.str e.text
      let time ← timestamp e.sec e.nsec
      .ok [⟨f, time, e.source, e.level, e.kind, text, e.data⟩]

/-- What a program does with the module. -/
inductive Op where
  | init (mask level : Nat) (func : Option Nat)
  | emit (e : Event)

/-- The calls of the application's functions in a run of the program. -/
def run : State → List Op → C (List Call)
  | _, [] => .ok []
  | s, .init m l f :: ops => run (init m l f s) ops
  | s, .emit e :: ops => do
    let a ← internal s e
    let b ← run s ops
    .ok (a ++ b)

end Verif.Debug
