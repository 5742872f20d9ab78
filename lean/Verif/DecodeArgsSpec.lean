import Verif.ArgpProps
import Verif.DecodeArgs
import Verif.HexProps

/-! # Specification of the command line of `emv-decode` -/

set_option autoImplicit false

namespace Verif.DecodeArgs
open Argp (inputsOf optionsOf)

/-- `name` stands for the option `k`. -/
abbrev Means (name : List Byte) (k : Key) : Prop := Argp.Means table name k

/-- The words of a command line and what they stand for. -/
abbrev Line (posix : Bool) (ws : List (List Byte)) (is : List Item) : Prop := Argp.Line table posix ws is

/-- The decoding modes asked for. -/
def modesOf (is : List Item) : List Decode.Mode :=
  is.filterMap fun | .option (.mode m) _ => some m | _ => none

/-- The directories of codes given. -/
def isoOf (is : List Item) : List (List Byte) := is.filterMap fun | .option .isocodes v => v | _ => none

/-- The files of categories given. -/
def mccOf (is : List Item) : List (List Byte) := is.filterMap fun | .option .mccJson v => v | _ => none

/-- Padding is to be ignored. -/
def paddingOf (is : List Item) : Bool := is.any fun | .option .ignorePadding _ => true | _ => false

/-- An option that neither is refused nor ends the program by itself. -/
def Quiet : Item → Prop
  | .option k _ => k ≠ .iso8859x ∧ k ≠ .version ∧ k ≠ .help ∧ k ≠ .usage
  | .bad => False
  | .input _ => True

/-- What the options that end the program show. -/
def says (w : World) : Key → Option (List Byte)
  | .iso8859x => some txt!"Use --iso8859-x where 'x' is the code page number, for example  --iso8859-5\n"
  | .version => some (w.version ++ txt!"\n")
  | .help => some w.help
  | .usage => some w.usage
  | _ => none

/-- The modes that take their input as it is. -/
def Verbatim (m : Decode.Mode) : Prop := m = .iso3166 ∨ m = .iso4217 ∨ m = .iso639

/-- Data given by inputs: with `file` on standard input and the data `d`, the inputs leave `file'` there and give
the data `d'`. -/
inductive Gives : List Byte → List Byte → List (List Byte) → List Byte → List Byte → Prop
  | nil (file d : List Byte) : Gives file d [] file d
  | hex {file d a v file' d' : List Byte} {is : List (List Byte)} :
      a ≠ [] → Hex.Writes a v → Gives file v is file' d' → Gives file d (a :: is) file' d'
  | stdin {file d file' d' : List Byte} {is : List (List Byte)} :
      file ≠ [] → Gives [] file is file' d' → Gives file d (txt!"-" :: is) file' d'

/-- Why an input is refused when `file` is left on standard input. -/
inductive Wrong (file : List Byte) : List Byte → List Byte → Prop
  | stdin : file = [] → Wrong file txt!"-" txt!"Failed to read INPUT from stdin"
  | short {a : List Byte} : a ≠ txt!"-" → a.length < 2 →
      Wrong file a txt!"INPUT must consist of at least 1 byte (thus 2 hex digits)"
  | digits {a : List Byte} : 2 ≤ a.length → Hex.Clean a → (∃ c ∈ a, Hex.Foreign c) →
      Wrong file a txt!"INPUT must consist of hex digits"
  | odd {a : List Byte} : 2 ≤ a.length → (¬ ∃ c ∈ a, Hex.Foreign c) → (¬ ∃ v, Hex.Writes a v) →
      Wrong file a txt!"INPUT must have even number of hex digits"

/-- Allocated memory has the size asked for. -/
def Fits (w : World) : Prop := ∀ n, (w.mem n).length = n

/-- The local arrays have their sizes. -/
def Scratch.Sized (s : Scratch) : Prop :=
  (∀ i, (s.cvm i).length = 128) ∧ s.res.length = 128 ∧ (∀ i, (s.cur i).length = 128) ∧
  (∀ i, (s.lang i).length = 128) ∧ s.arc.length = 3

/-- Decoding with the settings found: the tables are read first. -/
def Decodes (w : World) (iso mcc : Option (List Byte)) (pad : Bool) (arg data : List Byte) (m : Decode.Mode)
    (res : C Ending) : Prop :=
  (Codes.stringsInit w.files iso mcc Codes.fresh = .ok .terminated → res = .ok .terminated) ∧
  (∀ e, Codes.stringsInit w.files iso mcc Codes.fresh = .error e → res = .error e) ∧
  ∀ r t, Codes.stringsInit w.files iso mcc Codes.fresh = .ok (.ok (r, t)) →
    (r < 0 → res = .ok (.exit 2 ⟨[], txt!"Failed to initialise EMV strings\n"⟩)) ∧
    (0 ≤ r →
      (∀ e, Decode.decode (w.tables t) w.locals w.help pad arg data m = .error e → res = .error e) ∧
      ∀ s, Decode.decode (w.tables t) w.locals w.help pad arg data m = .ok s →
        (r = 0 → res = .ok (.exit 0 s)) ∧
        (0 < r → res = .ok (.exit 0 ⟨s.out, txt!"Failed to load iso-codes data or mcc-codes data; currency, country, language or MCC lookups may not be possible\n" ++ s.err⟩)))

end Verif.DecodeArgs
