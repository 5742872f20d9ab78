import Verif.Base
import Verif.Text

/-!
# Model of the words of a command line

The words are found by `argp_parse` of the C library, modelled from its documentation (The GNU C Library Reference
Manual, "Parsing Program Options"): long options may be abbreviated, the only option of one letter is `-?`, and options
may follow other words unless the environment variable `POSIXLY_CORRECT` is set.  Used by `tools/emv-decode.c` (420) and
`tools/emv-tool.c` (641).
-/

set_option autoImplicit false

namespace Verif.Argp
open Verif

/-- Whether an option has an argument. -/
inductive Takes where
  | nothing | value | maybe
  deriving DecidableEq

/-- The options of a program (`struct argp_option`), with those the C library adds. -/
structure Table (K : Type) where
  options : List (List Byte × K)
  takes : K → Takes
  /-- the key of `-?` -/
  help : K

variable {K : Type} [DecidableEq K]

/-- The option with a name, which may be abbreviated if all options it may stand for are the same
(`getopt_long` of the C library). -/
def find (T : Table K) (name : List Byte) : Option K :=
  match T.options.find? (fun o => o.1 == name) with
  | some o => some o.2
  | none =>
    match (T.options.filter (fun o => name.isPrefixOf o.1)).map (·.2) with
    | [] => none
    | k :: ks => if ks.all (· == k) then some k else none

/-- What a word of the command line stands for. -/
inductive Item (K : Type) where
  | option (k : K) (value : Option (List Byte))
  /-- an option the C library refuses -/
  | bad
  | input (arg : List Byte)

/-- A long option; `w` is the word without the dashes, `next` the word after it.  `true` if this is used up. -/
def long (T : Table K) (w : List Byte) (next : Option (List Byte)) : Item K × Bool :=
  let name := w.takeWhile (· != 0x3D)
  let value := if 0x3D ∈ w then some (w.drop (name.length + 1)) else none
  match find T name with
  | none => (.bad, false)
  | some k =>
    match T.takes k, value with
    | .nothing, none => (.option k none, false)
    | .nothing, some _ => (.bad, false)
    | .value, some v => (.option k (some v), false)
    | .value, none =>
      match next with
      | some v => (.option k (some v), true)
      | none => (.bad, false)
    | .maybe, v => (.option k v, false)

/-- The words one after the other.  `-?` is the only option of one letter.  `posix`: the first word that is no option
ends the options. -/
def items (T : Table K) (posix : Bool) : List (List Byte) → List (Item K)
  | [] => []
  | w :: ws =>
    if w = txt!"--" then ws.map .input
    else if txt!"--" <+: w then
      match ws with
      | [] => [(long T (w.drop 2) none).1]
      | v :: vs =>
        match long T (w.drop 2) (some v) with
        | (i, true) => i :: items T posix vs
        | (i, false) => i :: items T posix (v :: vs)
    else if txt!"-" <+: w ∧ w ≠ txt!"-" then
      (if txt!"-?" <+: w then .option T.help none else .bad) :: items T posix ws
    else if posix then (w :: ws).map .input
    else .input w :: items T posix ws

/-- Not an option. -/
def Item.isInput : Item K → Bool
  | .input _ => true
  | _ => false

/-- The order in which words are handled: options come first. -/
def order (is : List (Item K)) : List (Item K) := is.filter (! ·.isInput) ++ is.filter (·.isInput)

end Verif.Argp
