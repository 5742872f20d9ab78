import Verif.Text
import Verif.Base

/-!
# Model of `src/isocodes_lookup.cpp`, `src/mcc_lookup.cpp` and `emv_strings_init`

What these get from other libraries is a parameter: the documents read from files by json-c, the
text json-c gives for a value that is not a string, `json_object_get_int64` and `std::stoul`.
Memory shortage is not modelled.

A `std::vector` is its elements, its capacity and the number of times its storage was allocated.
A reference to an element is the number of the storage and the index; using it when the storage has
been replaced is use of freed memory.  `reserve` allocates exactly what is asked for and `push_back`
doubles the capacity when it is exhausted (libstdc++).
-/

set_option autoImplicit false

namespace Verif.Codes
open Verif

/-- A JSON value of json-c; `other` is a number or a truth value.  The members of an object have
different names and are in the order of the document. -/
inductive Json where
  | null
  | other (n : Nat)
  | str (s : List Byte)
  | arr (l : List Json)
  | obj (fields : List (List Byte × Json))

/-- What is used of other libraries. -/
structure Lib where
  /-- `json_object_from_file`; `none` is NULL, also for a document `null` -/
  file : List Byte → Option Json
  /-- `json_object_get_string` of values other than strings, without the terminator -/
  text : Json → List Byte
  /-- `json_object_get_int64` -/
  int64 : Json → Int
  /-- `std::stoul`; `none` when it throws -/
  stoul : List Byte → Option Nat
  /-- `ISOCODES_JSON_PATH` and `MCC_JSON_INSTALL_PATH`; the former is not empty -/
  isoPath : List Byte
  mccPath : List Byte

/-- The bytes of a C string. -/
def upToNul (s : List Byte) : List Byte := s.takeWhile (· ≠ 0)

/-- `json_object_object_get`: NULL when there is no such member or it is `null`. -/
def member (fields : List (List Byte × Json)) (key : List Byte) : Option Json :=
  match fields.find? (fun f => f.1 == key) with
  | some (_, .null) => none
  | some (_, j) => some j
  | none => none

/-- `json_object_get_string`. -/
def string (lib : Lib) : Json → List Byte
  | .str s => upToNul s
  | j => upToNul (lib.text j)

/-- A member as a string, e.g. isocodes_lookup.cpp:91-98. -/
def stringMember (lib : Lib) (fields : List (List Byte × Json)) (key : List Byte) :
    Option (List Byte) :=
  (member fields key).map (string lib)

/-- `isocodes_country_t`, `isocodes_currency_t` and `isocodes_language_t`
(isocodes_lookup.cpp:42-69) in one; members not in the structure are empty. -/
structure Entry where
  name : List Byte
  alpha2 : List Byte
  alpha3 : List Byte
  numeric : List Byte
  deriving DecidableEq

/-- `country_list_append` (isocodes_lookup.cpp:72-134): what is appended. -/
def countryEntry (lib : Lib) (f : List (List Byte × Json)) : Option Entry := do
  let name ← stringMember lib f txt!"name"
  let a2 ← stringMember lib f txt!"alpha_2"
  let a3 ← stringMember lib f txt!"alpha_3"
  let num ← stringMember lib f txt!"numeric"
  some ⟨name, a2, a3, num⟩

/-- `currency_list_append` (isocodes_lookup.cpp:136-186). -/
def currencyEntry (lib : Lib) (f : List (List Byte × Json)) : Option Entry := do
  let name ← stringMember lib f txt!"name"
  let a3 ← stringMember lib f txt!"alpha_3"
  let num ← stringMember lib f txt!"numeric"
  some ⟨name, [], a3, num⟩

/-- `language_list_append` (isocodes_lookup.cpp:188-238). -/
def languageEntry (lib : Lib) (f : List (List Byte × Json)) : Option Entry := do
  let name ← stringMember lib f txt!"name"
  let a2 := (stringMember lib f txt!"alpha_2").getD []
  let a3 ← stringMember lib f txt!"alpha_3"
  some ⟨name, a2, a3, []⟩

/-- Whether the visit of the members of an element goes on after the first of them
(isocodes_lookup.cpp:276-283, mcc_lookup.cpp:123-130): a string makes json-c leave the element
(`JSON_C_VISIT_RETURN_POP`), anything else is an error. -/
def firstIsString : List (List Byte × Json) → Bool
  | [] => true
  | (_, .str _) :: _ => true
  | _ :: _ => false

/-- `json_c_visit` with `json_array_visit_userfunc` (isocodes_lookup.cpp:240-284,
mcc_lookup.cpp:87-131) over the elements of an array; `add` is the function passed as `userarg`,
`none` when it returns false.  The result is the state and whether the visit succeeded; what was
added before an error remains. -/
def visit {σ : Type} (add : σ → List (List Byte × Json) → Option σ) : List Json → σ → Bool × σ
  | [], s => (true, s)
  | .obj fields :: rest, s =>
    match add s fields with
    | none => (false, s)
    | some s => if firstIsString fields then visit add rest s else (false, s)
  | _ :: _, s => (false, s)

/-- `std::vector`. -/
structure Vec where
  elems : List Entry
  cap : Nat
  gen : Nat

/-- `reserve`. -/
def Vec.reserve (v : Vec) (n : Nat) : Vec := if n > v.cap then ⟨v.elems, n, v.gen + 1⟩ else v

/-- `push_back`. -/
def Vec.push (v : Vec) (e : Entry) : Vec :=
  if v.elems.length < v.cap then ⟨v.elems ++ [e], v.cap, v.gen⟩
  else ⟨v.elems ++ [e], max (2 * v.cap) 1, v.gen + 1⟩

/-- A reference to an element. -/
structure Ref where
  gen : Nat
  index : Nat

/-- `std::map` with references as values. -/
abbrev Map (κ : Type) := List (κ × Ref)

/-- `emplace`: nothing is done when the key is there already. -/
def emplace {κ : Type} [BEq κ] (m : Map κ) (k : κ) (r : Ref) : Map κ :=
  if m.any (fun e => e.1 == k) then m else m ++ [(k, r)]

/-- The loops building the maps (e.g. isocodes_lookup.cpp:329-332): `i` is the index of the next
element; elements without a key are passed over. -/
def fill {κ : Type} [BEq κ] (key : Entry → Option κ) (gen : Nat) : Nat → List Entry → Map κ → Map κ
  | _, [], m => m
  | i, e :: es, m =>
    match key e with
    | none => fill key gen (i + 1) es m
    | some k => fill key gen (i + 1) es (emplace m k ⟨gen, i⟩)

/-- The loop building a map by number (isocodes_lookup.cpp:339-342): `none` when `std::stoul` throws
in the `noexcept` function. -/
def fillNum (stoul : List Byte → Option Nat) (gen : Nat) :
    Nat → List Entry → Map Nat → Option (Map Nat)
  | _, [], m => some m
  | i, e :: es, m =>
    match stoul e.numeric with
    | none => none
    | some n => fillNum stoul gen (i + 1) es (emplace m (n % 2 ^ 32) ⟨gen, i⟩)

/-- A list with its maps (isocodes_lookup.cpp:48-69). -/
structure Table where
  vec : Vec
  alpha2 : Map (List Byte)
  alpha3 : Map (List Byte)
  numeric : Map Nat

/-- The array a document has under a key (e.g. isocodes_lookup.cpp:309-320); `none` when it is
missing, not an array or empty. -/
def arrayOf (root : Json) (key : List Byte) : Option (List Json) :=
  match root with
  | .obj fields =>
    match fields.find? (fun f => f.1 == key) with
    | some (_, .arr l) => if l.length = 0 then none else some l
    | _ => none
  | _ => none

/-- The list after `reserve` and the visit (e.g. isocodes_lookup.cpp:322-326). -/
def load (entry : List (List Byte × Json) → Option Entry) (l : List Json) (v : Vec) : Bool × Vec :=
  visit (fun v f => (entry f).map v.push) l (v.reserve l.length)

/-- The result of a function that may end the program by an exception. -/
inductive Ret (α : Type) where
  | ok (a : α)
  | terminated

/-- `build_country_list` (isocodes_lookup.cpp:286-345). -/
def buildCountry (lib : Lib) (root : Json) (t : Table) : Ret (Bool × Table) :=
  match arrayOf root txt!"3166-1" with
  | none => .ok (false, t)
  | some l =>
    let (ok, v) := load (countryEntry lib) l t.vec
    if ok then
      match fillNum lib.stoul v.gen 0 v.elems t.numeric with
      | none => .terminated
      | some num =>
        .ok (true, ⟨v, fill (fun e => some e.alpha2) v.gen 0 v.elems t.alpha2,
          fill (fun e => some e.alpha3) v.gen 0 v.elems t.alpha3, num⟩)
    else .ok (false, { t with vec := v })

/-- `build_currency_list` (isocodes_lookup.cpp:347-399). -/
def buildCurrency (lib : Lib) (root : Json) (t : Table) : Ret (Bool × Table) :=
  match arrayOf root txt!"4217" with
  | none => .ok (false, t)
  | some l =>
    let (ok, v) := load (currencyEntry lib) l t.vec
    if ok then
      match fillNum lib.stoul v.gen 0 v.elems t.numeric with
      | none => .terminated
      | some num =>
        .ok (true, ⟨v, t.alpha2, fill (fun e => some e.alpha3) v.gen 0 v.elems t.alpha3, num⟩)
    else .ok (false, { t with vec := v })

/-- The key of a language in its first map (isocodes_lookup.cpp:442-446). -/
def language2 (e : Entry) : Option (List Byte) := if e.alpha2 = [] then none else some e.alpha2

/-- `build_language_list` (isocodes_lookup.cpp:401-455). -/
def buildLanguage (lib : Lib) (root : Json) (t : Table) : Ret (Bool × Table) :=
  match arrayOf root txt!"639-2" with
  | none => .ok (false, t)
  | some l =>
    let (ok, v) := load (languageEntry lib) l t.vec
    if ok then
      .ok (true, ⟨v, fill language2 v.gen 0 v.elems t.alpha2,
        fill (fun e => some e.alpha3) v.gen 0 v.elems t.alpha3, t.numeric⟩)
    else .ok (false, { t with vec := v })

/-- The static variables of both files. -/
structure State where
  country : Table
  currency : Table
  language : Table
  mcc : List (Nat × List Byte)

/-- Their values when the program starts. -/
def fresh : State :=
  let t : Table := ⟨⟨[], 0, 0⟩, [], [], []⟩
  ⟨t, t, t, []⟩

/-- The directory with a final slash (isocodes_lookup.cpp:464-471); `back()` of an empty string is
undefined. -/
def directory (path : List Byte) : C (List Byte) :=
  match path.getLast? with
  | none => .error .oobRead
  | some b => .ok (if b = 0x2F then path else path ++ [0x2F])

/-- One of the three stages of `isocodes_init` (e.g. isocodes_lookup.cpp:473-485): the result 0, or
the code with which the function returns. -/
def stage (lib : Lib) (name : List Byte) (missing bad : Int)
    (build : Json → Table → Ret (Bool × Table)) (t : Table) : Ret (Int × Table) :=
  match lib.file name with
  | none => .ok (missing, t)
  | some root =>
    match build root t with
    | .terminated => .terminated
    | .ok (ok, t) => .ok (if ok then 0 else bad, t)

/-- `isocodes_init` (isocodes_lookup.cpp:457-516); `path` is `none` for NULL. -/
def isoInit (lib : Lib) (path : Option (List Byte)) (s : State) : C (Ret (Int × State)) := do
  let dir ← directory (path.getD lib.isoPath)
  match stage lib (dir ++ txt!"iso_3166-1.json") 1 (-1) (buildCountry lib) s.country with
  | .terminated => .ok .terminated
  | .ok (r, t) =>
    let s := { s with country := t }
    if r ≠ 0 then .ok (.ok (r, s))
    else
      match stage lib (dir ++ txt!"iso_4217.json") 2 (-2) (buildCurrency lib) s.currency with
      | .terminated => .ok .terminated
      | .ok (r, t) =>
        let s := { s with currency := t }
        if r ≠ 0 then .ok (.ok (r, s))
        else
          match stage lib (dir ++ txt!"iso_639-2.json") 3 (-3) (buildLanguage lib) s.language with
          | .terminated => .ok .terminated
          | .ok (r, t) => .ok (.ok (r, { s with language := t }))

/-- `mcc_map[n] = text`. -/
def assign (m : List (Nat × List Byte)) (n : Nat) (text : List Byte) : List (Nat × List Byte) :=
  (n, text) :: m.filter (fun e => e.1 ≠ n)

/-- `mcc_map_add` (mcc_lookup.cpp:41-85); the number is converted to `unsigned int`. -/
def mccAdd (lib : Lib) (m : List (Nat × List Byte)) (f : List (List Byte × Json)) :
    Option (List (Nat × List Byte)) := do
  let j ← member f txt!"mcc"
  if lib.int64 j ≤ 0 then none
  else do
    let text ← stringMember lib f txt!"edited_description"
    some (assign m ((lib.int64 j).toNat % 2 ^ 32) text)

/-- `build_mcc_list` and `mcc_init` (mcc_lookup.cpp:133-200). -/
def mccInit (lib : Lib) (path : Option (List Byte)) (m : List (Nat × List Byte)) :
    Int × List (Nat × List Byte) :=
  match lib.file (path.getD lib.mccPath) with
  | none => (1, m)
  | some (.arr l) =>
    if l.length = 0 then (-1, m)
    else
      let (ok, m) := visit (mccAdd lib) l m
      (if ok then 0 else -1, m)
  | some _ => (-1, m)

/-- `emv_strings_init` (emv_strings.c:73-88). -/
def stringsInit (lib : Lib) (iso mcc : Option (List Byte)) (s : State) : C (Ret (Int × State)) := do
  let r ← isoInit lib iso s
  match r with
  | .terminated => .ok .terminated
  | .ok (r, s) =>
    if r ≠ 0 then .ok (.ok (r, s))
    else
      let (r, m) := mccInit lib mcc s.mcc
      .ok (.ok (r, { s with mcc := m }))

/-! ## Lookups -/

/-- `itr->second.name.c_str()`: the name through a reference. -/
def name (v : Vec) (r : Ref) : C (List Byte) :=
  if r.gen = v.gen then
    match v.elems[r.index]? with
    | some e => .ok e.name
    | none => .error .oobRead
  else .error .uaf

/-- The lookup functions (isocodes_lookup.cpp:518-593): `none` is NULL. -/
def lookup {κ : Type} [BEq κ] (v : Vec) (m : Map κ) (k : κ) : C (Option (List Byte)) :=
  match m.find? (fun e => e.1 == k) with
  | none => .ok none
  | some (_, r) => do
    let n ← name v r
    .ok (some n)

/-- `isocodes_lookup_country_by_alpha2` (isocodes_lookup.cpp:518-527). -/
def countryByAlpha2 (s : State) (k : List Byte) := lookup s.country.vec s.country.alpha2 k

/-- `isocodes_lookup_country_by_alpha3` (isocodes_lookup.cpp:529-538). -/
def countryByAlpha3 (s : State) (k : List Byte) := lookup s.country.vec s.country.alpha3 k

/-- `isocodes_lookup_country_by_numeric` (isocodes_lookup.cpp:540-549). -/
def countryByNumeric (s : State) (k : Nat) := lookup s.country.vec s.country.numeric k

/-- `isocodes_lookup_currency_by_alpha3` (isocodes_lookup.cpp:551-560). -/
def currencyByAlpha3 (s : State) (k : List Byte) := lookup s.currency.vec s.currency.alpha3 k

/-- `isocodes_lookup_currency_by_numeric` (isocodes_lookup.cpp:562-571). -/
def currencyByNumeric (s : State) (k : Nat) := lookup s.currency.vec s.currency.numeric k

/-- `isocodes_lookup_language_by_alpha2` (isocodes_lookup.cpp:573-582). -/
def languageByAlpha2 (s : State) (k : List Byte) := lookup s.language.vec s.language.alpha2 k

/-- `isocodes_lookup_language_by_alpha3` (isocodes_lookup.cpp:584-593). -/
def languageByAlpha3 (s : State) (k : List Byte) := lookup s.language.vec s.language.alpha3 k

/-- `mcc_lookup` (mcc_lookup.cpp:202-211). -/
def mccLookup (s : State) (n : Nat) : Option (List Byte) :=
  (s.mcc.find? (fun e => e.1 == n)).map (·.2)

end Verif.Codes
