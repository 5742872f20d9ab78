import Verif.IsoStr
import Verif.BitsLemmas
import Verif.IadLemmas
import Verif.CapduProps

/-! # C85, C86: status words, life cycle, card service data and capabilities in words -/

set_option autoImplicit false

namespace Verif.IsoStr
open Verif StrList Bits Formats Lists

/-! ## Specification: status words (ISO 7816-4, 5.1.3, tables 5 and 6) -/

/-- The kind of a status word. -/
inductive Kind where
  | normal | invalid | proprietary | warning | execution | checking
  deriving DecidableEq, Repr

/-- Status words are numbers of 16 bits, SW1 first. -/
def swNum (sw1 sw2 : Byte) : Nat := sw1.toNat * 256 + sw2.toNat

/-- The kind of a status word by its number. -/
def kindOf (n : Nat) : Kind :=
  if n = 0x9000 ∨ n / 256 = 0x61 then .normal
  else if n / 4096 = 9 then .proprietary
  else if n / 4096 ≠ 6 ∨ n / 256 = 0x60 then .invalid
  else if n ∈ [0x6700, 0x6B00, 0x6D00, 0x6E00, 0x6F00] then .checking
  else if n / 256 ∈ [0x67, 0x6B, 0x6D, 0x6E, 0x6F] then .proprietary
  else if n / 256 ≤ 0x63 then .warning
  else if n / 256 ≤ 0x66 then .execution
  else .checking

/-- The words for a kind. -/
def kindText : Kind → List Byte
  | .normal => txt!"Normal"
  | .invalid => txt!"Invalid"
  | .proprietary => txt!"Proprietary"
  | .warning => txt!"Warning: "
  | .execution => txt!"Execution error: "
  | .checking => txt!"Checking error: "

/-- Status words with a fixed meaning. -/
def fixedMeaning : List (Nat × List Byte) :=
  [(0x6200, txt!"State of non-volatile memory is unchanged"),
   (0x6281, txt!"Part of returned data may be corrupted"),
   (0x6282, txt!"End of file or record reached before reading Ne bytes"),
   (0x6283, txt!"Selected file deactivated"),
   (0x6284, txt!"File control information not formatted according to ISO 7816-4:2005, 5.3.3"),
   (0x6285, txt!"Selected file in termination state"),
   (0x6286, txt!"No input data available from a sensor on the card"),
   (0x6300, txt!"State of non-volatile memory has changed"),
   (0x6381, txt!"File filled up by the last write"),
   (0x6400, txt!"State of non-volatile memory is unchanged"),
   (0x6401, txt!"Immediate response required by card"),
   (0x6500, txt!"State of non-volatile memory has changed"),
   (0x6581, txt!"Memory failure"),
   (0x6700, txt!"Wrong length"),
   (0x6800, txt!"Functions in CLA not supported"),
   (0x6881, txt!"Logical channel not supported"),
   (0x6882, txt!"Secure messaging not supported"),
   (0x6883, txt!"Last command of the chain expected"),
   (0x6884, txt!"Command chaining not supported"),
   (0x6900, txt!"Command not allowed"),
   (0x6981, txt!"Command incompatible with file structure"),
   (0x6982, txt!"Security status not satisfied"),
   (0x6983, txt!"Authentication method blocked"),
   (0x6984, txt!"Reference data not usable"),
   (0x6985, txt!"Conditions of use not satisfied"),
   (0x6986, txt!"Command not allowed (no current EF)"),
   (0x6987, txt!"Expected secure messaging data objects missing"),
   (0x6988, txt!"Incorrect secure messaging data objects"),
   (0x6A00, txt!"Wrong parameters P1-P2"),
   (0x6A80, txt!"Incorrect parameters in the command data field"),
   (0x6A81, txt!"Function not supported"),
   (0x6A82, txt!"File or application not found"),
   (0x6A83, txt!"Record not found"),
   (0x6A84, txt!"Not enough memory space in the file"),
   (0x6A85, txt!"Nc inconsistent with TLV structure"),
   (0x6A86, txt!"Incorrect parameters P1-P2"),
   (0x6A87, txt!"Nc inconsistent with parameters P1-P2"),
   (0x6A88, txt!"Referenced data or reference data not found"),
   (0x6A89, txt!"File already exists"),
   (0x6A8A, txt!"DF name already exists"),
   (0x6B00, txt!"Wrong parameters P1-P2"),
   (0x6D00, txt!"Instruction code not supported or invalid"),
   (0x6E00, txt!"Class not supported"),
   (0x6F00, txt!"No precise diagnosis")]

/-- Two hexadecimal digits. -/
def hexByte (n : Nat) : List Byte := [hexDigit (n / 16), hexDigit (n % 16)]

/-- Status words that carry a number, with the number. -/
def numbered (n : Nat) : Option (List Byte × Nat × List Byte) :=
  if n / 256 = 0x61 then some (txt!": ", n % 256, txt!" data bytes remaining")
  else if 0x6202 ≤ n ∧ n ≤ 0x6280 ∨ 0x6402 ≤ n ∧ n ≤ 0x6480 then
    some (txt!"Card-originated query of ", n % 256, txt!" bytes")
  else if 0x63C0 ≤ n ∧ n ≤ 0x63CF then some (txt!"Counter is ", n % 16, [])
  else if n / 256 = 0x6C then
    some (txt!"Wrong Le field (", n % 256, txt!" data bytes available)")
  else none

/-- What is said about a status word after its kind. -/
def detail (n : Nat) : List Byte :=
  match numbered n with
  | some (a, k, b) => a ++ decimal k ++ b
  | none =>
    if n / 256 = 0x66 then txt!"Security error 0x" ++ hexByte (n % 256)
    else if kindOf n ∈ [.normal, .invalid, .proprietary] then []
    else (fixedMeaning.lookup n).getD txt!"Unknown"

/-- The words for a status word. -/
def swWords (n : Nat) : List Byte := kindText (kindOf n) ++ detail n

/-! ## Lemmas -/

theorem over_twice (a t str : List Byte) :
    a ++ strOver t ((strOver a str).drop a.length) = strOver (a ++ t) str := by
  have e : (strOver a str).drop a.length = 0 :: str.drop (a.length + 1) := by simp [strOver]
  rw [e, strOver, strOver]
  simp [List.drop_drop, Nat.add_comm, Nat.add_left_comm, Nat.add_assoc]

theorem wrs_tail (buf a t : List Byte) (h : buf = a ++ t) (s : List Byte) (hs : s.length = t.length) :
    wrs buf a.length s = .ok (a ++ s) := by
  subst h
  rw [wrs_eq (by simp; omega)]
  simp [hs]

theorem swTwo_spec (str pre s : List Byte) (h : str ≠ []) :
    swTwo str pre (some s) = .ok (strOver ((pre ++ s).take (str.length - 1)) str) := by
  have h1 : 0 < str.length := List.length_pos_iff.2 h
  rw [swTwo, Capdu.snprintf_spec _ _ h, bind_ok]
  have hl : (strOver (pre.take (str.length - 1)) str).length = str.length :=
    strOver_length _ _ (by rw [List.length_take]; omega)
  rw [hl]
  by_cases hp : str.length ≤ pre.length
  · rw [if_pos hp, List.take_append_of_le_length (by omega)]
  · rw [if_neg hp]
    have ht : pre.take (str.length - 1) = pre := List.take_of_length_le (by omega)
    rw [ht] at hl ⊢
    have hd : ((strOver pre str).drop pre.length).length = str.length - pre.length := by
      rw [List.length_drop, hl]
    simp only
    rw [Capdu.snprintf_spec _ _ (by intro h0; rw [h0] at hd; simp at hd; omega), bind_ok, hd]
    have hsl : (s.take (str.length - pre.length - 1)).length ≤ str.length - pre.length - 1 :=
      List.length_take_le ..
    rw [wrs_tail _ pre ((strOver pre str).drop pre.length) (by simp [strOver]) _
      (strOver_length _ _ (by omega)), over_twice]
    rw [List.take_append, ht]
    congr 4
    omega

theorem hex02_hexByte (b : Byte) : hex02 b = hexByte b.toNat := rfl

/-- The text of one status word for which a prefix is written. -/
def twoText (sw1 sw2 : Byte) : Option (List Byte) := do
  let p ← swPrefix sw1
  let r ← swRest sw1 sw2
  return p ++ r

/-- Status words 6X. -/
def sixText (sw1 sw2 : Byte) : Option (List Byte) :=
  if sw1 = 0x60 then some txt!"Invalid"
  else if sw1 = 0x61 then some (txt!"Normal: " ++ decText sw2.toNat ++ txt!" data bytes remaining")
  else if (sw1 = 0x67 ∨ sw1 = 0x6B ∨ sw1 = 0x6D ∨ sw1 = 0x6E ∨ sw1 = 0x6F) ∧ sw2 ≠ 0x00 then
    some txt!"Proprietary"
  else twoText sw1 sw2

/-- The specified words with the other rendering of decimal numbers, to compute with. -/
def wordsC (n : Nat) : List Byte :=
  kindText (kindOf n) ++
  match numbered n with
  | some (a, k, b) => a ++ decText k ++ b
  | none =>
    if n / 256 = 0x66 then txt!"Security error 0x" ++ hexByte (n % 256)
    else if kindOf n ∈ [.normal, .invalid, .proprietary] then []
    else (fixedMeaning.lookup n).getD txt!"Unknown"

theorem wordsC_eq (n : Nat) : wordsC n = swWords n := by
  unfold wordsC swWords detail
  have h : ∀ x, numbered n = some x → x.2.1 < 256 := by
    intro x hx
    unfold numbered at hx
    split at hx
    · cases hx; exact Nat.mod_lt _ (by decide)
    split at hx
    · cases hx; exact Nat.mod_lt _ (by decide)
    split at hx
    · cases hx; exact Nat.lt_of_lt_of_le (Nat.mod_lt _ (by decide)) (by decide)
    split at hx
    · cases hx; exact Nat.mod_lt _ (by decide)
    · cases hx
  match he : numbered n with
  | none => rfl
  | some (a, k, b) =>
    have := h _ he
    simp only
    rw [Iad.decText_decimal k this]

theorem six_words : ∀ sw1 ∈ [(0x60 : Byte), 0x61, 0x62, 0x63, 0x64, 0x65, 0x66, 0x67, 0x68, 0x69,
    0x6A, 0x6B, 0x6C, 0x6D, 0x6E, 0x6F], ∀ sw2 : Byte,
    sixText sw1 sw2 = some (wordsC (swNum sw1 sw2)) := by decide +kernel

theorem high_six : ∀ b : Byte, b.toNat / 16 = 6 → b ∈ [(0x60 : Byte), 0x61, 0x62, 0x63, 0x64, 0x65,
    0x66, 0x67, 0x68, 0x69, 0x6A, 0x6B, 0x6C, 0x6D, 0x6E, 0x6F] := by decide +kernel

theorem high_mask : ∀ b : Byte, (b &&& 0xF0 = 0x60 ↔ b.toNat / 16 = 6) ∧
    (b &&& 0xF0 = 0x90 ↔ b.toNat / 16 = 9) := by decide +kernel

/-! ## Status words -/

/-- **C85** (status words).  Every status word has words, and they are exactly those of the
specification, cut to the output and NUL terminated; the rest of the output stays as it was. -/
theorem C85_status (sw1 sw2 : Byte) (str : List Byte) (h : str ≠ []) :
    swString sw1 sw2 str =
      .ok (true, strOver ((swWords (swNum sw1 sw2)).take (str.length - 1)) str) := by
  have h1 : str.length ≠ 0 := by simpa using h
  rw [swString, if_neg h1]
  have hb1 := sw1.toNat_lt
  have hb2 := sw2.toNat_lt
  have hm := high_mask sw1
  by_cases h6 : sw1.toNat / 16 = 6
  · have hx := six_words sw1 (high_six sw1 h6) sw2
    rw [wordsC_eq, sixText] at hx
    have n90 : ¬ (sw1 = 0x90 ∧ sw2 = 0) := by
      rintro ⟨rfl, -⟩; revert h6; decide
    rw [if_neg n90]
    by_cases a61 : sw1 = 0x61
    · rw [if_pos a61, Capdu.snprintf_spec _ _ h, bind_ok]
      rw [if_neg (by rw [a61]; decide), if_pos a61] at hx
      rw [Option.some.inj hx]
    rw [if_neg a61, if_neg (fun hh => hh.1 (hm.1.2 h6))]
    by_cases a60 : sw1 = 0x60
    · rw [if_pos a60, Capdu.snprintf_spec _ _ h, bind_ok]
      rw [if_pos a60] at hx
      rw [Option.some.inj hx]
    rw [if_neg a60]
    rw [if_neg a60, if_neg a61] at hx
    have n9 : ¬ sw1 &&& 0xF0 = 0x90 := by rw [hm.2]; omega
    by_cases ap : (sw1 = 0x67 ∨ sw1 = 0x6B ∨ sw1 = 0x6D ∨ sw1 = 0x6E ∨ sw1 = 0x6F) ∧ sw2 ≠ 0x00
    · rw [if_pos (.inl ap), Capdu.snprintf_spec _ _ h, bind_ok]
      rw [if_pos ap] at hx
      rw [Option.some.inj hx]
    rw [if_neg (fun hh => hh.elim ap n9)]
    rw [if_neg ap, twoText] at hx
    match swPrefix sw1, swRest sw1 sw2, hx with
    | none, _, hx => cases hx
    | some p, none, hx => cases hx
    | some p, some r, hx =>
      change some (p ++ r) = _ at hx
      show (do let str ← swTwo str p (some r); Except.ok (true, str)) = _
      rw [swTwo_spec _ _ _ h, bind_ok, ← Option.some.inj hx]
  · have hn : swNum sw1 sw2 / 4096 = sw1.toNat / 16 := by unfold swNum; omega
    have hn2 : swNum sw1 sw2 / 256 = sw1.toNat := by unfold swNum; omega
    have nnum : numbered (swNum sw1 sw2) = none := by
      unfold numbered
      rw [if_neg (by omega), if_neg (by omega), if_neg (by omega), if_neg (by omega)]
    have n66 : ¬ swNum sw1 sw2 / 256 = 0x66 := by omega
    have n61 : ¬ sw1 = 0x61 := by rintro rfl; exact h6 (by decide)
    have n60 : ¬ sw1 = 0x60 := by rintro rfl; exact h6 (by decide)
    have d : kindOf (swNum sw1 sw2) ∈ [Kind.normal, Kind.invalid, Kind.proprietary] →
        swWords (swNum sw1 sw2) = kindText (kindOf (swNum sw1 sw2)) := by
      intro hk
      unfold swWords detail
      rw [nnum]
      simp only
      rw [if_neg n66, if_pos hk, List.append_nil]
    by_cases a : sw1 = 0x90 ∧ sw2 = 0
    · have hk : kindOf (swNum sw1 sw2) = .normal := by
        unfold kindOf; rw [if_pos (.inl (by rw [a.1, a.2]; rfl))]
      rw [if_pos a, Capdu.snprintf_spec _ _ h, bind_ok, d (by rw [hk]; decide), hk]
      rfl
    have a' : ¬ swNum sw1 sw2 = 0x9000 := by
      intro e
      apply a
      unfold swNum at e
      constructor
      · apply UInt8.toNat_inj.1; show sw1.toNat = 0x90; omega
      · apply UInt8.toNat_inj.1; show sw2.toNat = 0; omega
    rw [if_neg a, if_neg n61]
    by_cases h9 : sw1.toNat / 16 = 9
    · have hk : kindOf (swNum sw1 sw2) = .proprietary := by
        unfold kindOf; rw [if_neg (by omega), if_pos (by omega)]
      rw [if_neg (fun hh => hh.2 (hm.2.2 h9)), if_neg n60, if_pos (.inr (hm.2.2 h9)),
        Capdu.snprintf_spec _ _ h, bind_ok, d (by rw [hk]; decide), hk]
      rfl
    · have hk : kindOf (swNum sw1 sw2) = .invalid := by
        unfold kindOf; rw [if_neg (by omega), if_neg (by omega), if_pos (by omega)]
      rw [if_pos ⟨fun hh => h6 (hm.1.1 hh), fun hh => h9 (hm.2.1 hh)⟩,
        Capdu.snprintf_spec _ _ h, bind_ok, d (by rw [hk]; decide), hk]
      rfl

example : swString 0x6A 0x82 (List.replicate 60 1) =
    .ok (true, strOver txt!"Checking error: File or application not found" (List.replicate 60 1)) := by
  decide +kernel

example : swString 0x63 0xC2 (List.replicate 60 1) =
    .ok (true, strOver txt!"Warning: Counter is 2" (List.replicate 60 1)) := by decide +kernel

/-- **C85** (no output).  Without room for a terminator nothing is written and no text is
returned. -/
theorem C85_no_output (sw1 sw2 : Byte) : swString sw1 sw2 [] = .ok (false, []) := by
  rw [swString, if_pos (show ([] : List Byte).length = 0 from rfl)]

/-! ## Specification: life cycle status, card service data and capabilities (ISO 7816-4, 5.3.3.2
and 8.1.1.2) -/

/-- Life cycle status by its bits, most significant first; `none` is an arbitrary bit. -/
def lcsRows : List (List (Option Bool) × List Byte) :=
  let o := some false
  let i := some true
  let x : Option Bool := none
  [([o, o, o, o, o, o, o, o], txt!"No information given"),
   ([o, o, o, o, o, o, o, i], txt!"Creation state"),
   ([o, o, o, o, o, o, i, i], txt!"Initialisation state"),
   ([o, o, o, o, o, i, x, i], txt!"Operational state (activated)"),
   ([o, o, o, o, o, i, x, o], txt!"Operational state (deactivated)"),
   ([o, o, o, o, i, i, x, x], txt!"Termination state")]

/-- A byte fits a pattern of bits. -/
def Fits (b : Byte) (p : List (Option Bool)) : Prop :=
  ∀ k < 8, ∀ v, p[k]? = some (some v) → b.toNat.testBit (7 - k) = v

/-- Card service data. -/
def serviceRows : List Row :=
  [.set [(1, 8)] txt!"Application selection: by full DF name",
   .set [(1, 7)] txt!"Application selection: by partial DF name",
   .set [(1, 6)] txt!"BER-TLV data objects available in EF.DIR",
   .set [(1, 5)] txt!"BER-TLV data objects available in EF.ATR",
   .value 1 4 2
      [(4, some txt!"EF.DIR and EF.ATR access services: by READ BINARY command (transparent structure)"),
       (0, some txt!"EF.DIR and EF.ATR access services: by READ RECORD(S) command (record structure)"),
       (2, some txt!"EF.DIR and EF.ATR access services: by GET DATA command (TLV structure)")]
      (some txt!"EF.DIR and EF.ATR access services: Unknown value"),
   .value 1 1 1 [(1, some txt!"Card without MF"), (0, some txt!"Card with MF")] none]

/-- First byte of the card capabilities. -/
def capsRows1 : List Row :=
  [.set [(1, 8)] txt!"DF selection: by full DF NAME",
   .set [(1, 7)] txt!"DF selection: by partial DF NAME",
   .set [(1, 6)] txt!"DF selection: by path",
   .set [(1, 5)] txt!"DF selection: by file identifier",
   .set [(1, 4)] txt!"DF selection: implicit",
   .set [(1, 3)] txt!"Short EF identifier supported",
   .set [(1, 2)] txt!"Record number supported",
   .set [(1, 1)] txt!"Record identifier supported"]

/-- Second byte without the data unit size. -/
def capsRows2 : List Row :=
  [.set [(2, 8)] txt!"EFs of TLV structure supported",
   .value 2 7 6
      [(0, some txt!"Behaviour of write functions: one-time write"),
       (1, some txt!"Behaviour of write functions: proprietary"),
       (2, some txt!"Behaviour of write functions: write OR"),
       (3, some txt!"Behaviour of write functions: write AND")]
      none,
   .value 2 5 5
      [(1, some txt!"FF as first byte of BER-TLV tag is valid"),
       (0, some txt!"FF as first byte of BER-TLV tag is invalid / padding")]
      none]

/-- Third byte without the number of channels. -/
def capsRows3 : List Row :=
  [.set [(3, 8)] txt!"Command chaining",
   .set [(3, 7)] txt!"Extended Lc and Le fields",
   .value 3 5 4
      [(2, some txt!"Logical channel number assignment: by the card"),
       (1, some txt!"Logical channel number assignment: by the interface device"),
       (0, some txt!"No logical channel")]
      none]

/-- The data unit size is two to the power of bits 4 to 1 of the second byte, in half bytes; zero
is not described. -/
def unitRow (f : List Byte) : List (List Byte) :=
  if bitsVal f 2 4 1 = 0 then []
  else [txt!"Data unit size: " ++ decimal (2 ^ bitsVal f 2 4 1 / 2) ++ txt!" bytes"]

/-- The maximum number of channels is one more than bits 3 to 1 of the third byte. -/
def channelRow (f : List Byte) : List (List Byte) :=
  if bitsVal f 3 3 1 + 1 = 8 then [txt!"Maximum number of logical channels: 8 or more"]
  else [txt!"Maximum number of logical channels: " ++ decimal (bitsVal f 3 3 1 + 1)]

/-- The lines for card capabilities; bytes after the third are not described. -/
def capsText (f : List Byte) : List (List Byte) :=
  shown capsRows1 f ++
  (if 2 ≤ f.length then shown capsRows2 f ++ unitRow f else []) ++
  (if 3 ≤ f.length then
    shown capsRows3 f ++ (if bitsVal f 3 5 4 = 3 then [] else channelRow f) else [])

/-- Lines in an output: only the output is written; when there is room for all lines it holds them,
NUL terminated; in any case it holds the lines that fit behind those kept before them, each
complete, and is as before when there is none. -/
def ListedIn (ls : List (List Byte)) (str str' : List Byte) : Prop :=
  str'.length = str.length ∧
  (ls ≠ [] → (text ls).length < str.length → str' = strOver (text ls) str) ∧
  (kept str.length ls 0 = [] → str' = str) ∧
  (kept str.length ls 0 ≠ [] → str' = strOver (text (kept str.length ls 0)) str ∧
    (text (kept str.length ls 0)).length < str.length)

/-! ## Lemmas -/

theorem isoBuild_spec (ls : List (List Byte)) (str : List Byte) :
    ∃ str', isoBuild ls str = .ok str' ∧ ListedIn ls str str' := by
  obtain ⟨it, e, h1, h2⟩ := C49_iso_safe str ls
  refine ⟨it.buf, by rw [isoBuild, e, bind_ok], ?_, ?_, h1, h2⟩
  · by_cases h : kept str.length ls 0 = []
    · rw [h1 h]
    · rw [(h2 h).1, strOver_length _ _ (h2 h).2]
  · intro h0 hfit
    obtain ⟨it', e', h'⟩ := C49_iso_exact str ls h0 hfit
    rw [e] at e'
    cases e'
    exact h'

theorem unit_bits : ∀ b : Byte, (b &&& 0x0F).toNat = b.toNat % 16 ∧
    (b &&& 0x0F = 0 ↔ b.toNat % 16 = 0) := by decide +kernel

theorem chan_bits : ∀ b : Byte, (b &&& 0x07).toNat = b.toNat % 8 ∧
    (b &&& 0x07 = 0x07 ↔ b.toNat % 8 = 7) ∧
    (b &&& 0x18 = 0x18 ↔ b.toNat / 8 % 4 = 3) := by decide +kernel

theorem unit_pow (k : Nat) (h : k < 16) (h0 : k ≠ 0) :
    2 ^ (k - 1) = 2 ^ k / 2 ∧ 2 ^ (k - 1) < 2 ^ 32 := by
  obtain ⟨j, rfl⟩ : ∃ j, k = j + 1 := ⟨k - 1, by omega⟩
  refine ⟨?_, Nat.pow_lt_pow_right (by decide) (by omega)⟩
  rw [Nat.pow_succ]
  simp

theorem unitSize_eq (f : List Byte) : unitSize (f.getD 1 0) = unitRow f := by
  have h := unit_bits (f.getD 1 0)
  have hv : bitsVal f 2 4 1 = (f.getD 1 0).toNat % 16 := by simp [bitsVal]
  unfold unitSize unitRow
  rw [hv]
  by_cases h0 : (f.getD 1 0).toNat % 16 = 0
  · rw [if_neg (fun hh => hh (h.2.2 h0)), if_pos h0]
  · obtain ⟨e1, e2⟩ := unit_pow _ (Nat.mod_lt (f.getD 1 0).toNat (by decide)) h0
    rw [if_pos (fun hh => h0 (h.2.1 hh)), if_neg h0, h.1, decU_spec _ e2, e1]

theorem channels_eq (f : List Byte) : channels (f.getD 2 0) = channelRow f := by
  have h := chan_bits (f.getD 2 0)
  have hv : bitsVal f 3 3 1 = (f.getD 2 0).toNat % 8 := by simp [bitsVal]
  unfold channels channelRow
  rw [hv]
  by_cases h7 : (f.getD 2 0).toNat % 8 = 7
  · rw [if_pos (h.2.1.2 h7), if_pos (by omega)]
  · rw [if_neg (fun hh => h7 (h.2.1.1 hh)), if_neg (by omega), h.1, decU_spec _ (by omega)]

theorem capsLines_spec (f : List Byte) (h : f ≠ []) :
    capsLines f = .ok (if 3 ≤ f.length ∧ bitsVal f 3 5 4 = 3 then -1 else 0, capsText f) := by
  have h0 : 1 ≤ f.length := List.length_pos_iff.2 h
  rw [capsLines, rowsOf_run 1 f h0 caps1 capsRows1 rfl, bind_ok]
  unfold capsText
  by_cases h2 : f.length < 2
  · rw [if_pos h2, if_neg (by omega), if_neg (by omega), if_neg (by omega)]
    simp
  · rw [if_neg h2, caps23Lines, rowsOf_run 2 f (by omega) caps2 capsRows2 rfl, bind_ok,
      rd_getD (by omega), bind_ok, unitSize_eq]
    rw [if_pos (show 2 ≤ f.length by omega)]
    by_cases h3 : f.length < 3
    · rw [if_pos h3, if_neg (by omega), if_neg (by omega)]
      simp [bind_ok]
    · rw [if_neg h3, caps3Lines, rowsOf_run 3 f (by omega) caps3 capsRows3 rfl, bind_ok,
        rd_getD (by omega), bind_ok, channels_eq]
      have hv : bitsVal f 3 5 4 = (f.getD 2 0).toNat / 8 % 4 := by simp [bitsVal]
      have hc := (chan_bits (f.getD 2 0)).2.2
      rw [← hv] at hc
      rw [if_pos (show 3 ≤ f.length by omega)]
      by_cases h5 : bitsVal f 3 5 4 = 3
      · rw [if_pos (hc.2 h5), if_pos ⟨by omega, h5⟩, if_pos h5]
        simp [bind_ok]
      · rw [if_neg (fun hh => h5 (hc.1 hh)), if_neg (fun hh => h5 hh.2), if_neg h5]
        simp [bind_ok]

/-! ## Properties -/

/-- `Fits` as a computation. -/
def fitsB (b : Byte) (p : List (Option Bool)) : Bool :=
  (List.range 8).all fun k =>
    match p[k]? with
    | some (some v) => b.toNat.testBit (7 - k) == v
    | _ => true

theorem fitsB_iff (b : Byte) (p : List (Option Bool)) : fitsB b p = true ↔ Fits b p := by
  unfold Fits fitsB
  rw [List.all_eq_true]
  constructor
  · intro h k hk v hv
    have := h k (List.mem_range.2 hk)
    rw [hv] at this
    simpa using this
  · intro h k hk
    have := h k (List.mem_range.1 hk)
    split
    · rename_i v hv
      simpa using this v hv
    · rfl

/-- **C86** (life cycle status).  The words of a status are those of the only pattern it fits,
and `Proprietary` exactly for statuses that fit none. -/
theorem C86_life_cycle (b : Byte) :
    (∀ r ∈ lcsRows, Fits b r.1 → lcsString b = r.2) ∧
    ((∀ r ∈ lcsRows, ¬ Fits b r.1) ↔ lcsString b = txt!"Proprietary") := by
  have h : ∀ b : Byte, (∀ r ∈ lcsRows, fitsB b r.1 = true → lcsString b = r.2) ∧
      ((∀ r ∈ lcsRows, ¬ fitsB b r.1 = true) ↔ lcsString b = txt!"Proprietary") := by
    decide +kernel
  simpa only [fitsB_iff] using h b

example : lcsString 0x07 = txt!"Operational state (activated)" := by decide

/-- **C86** (card service data).  Any card service data gives code 0 and the lines its bits
stand for. -/
theorem C86_service (b : Byte) (str : List Byte) :
    ∃ str', serviceList b str = .ok (0, str') ∧ ListedIn (shown serviceRows [b]) str str' := by
  obtain ⟨str', e, h⟩ := isoBuild_spec (shown serviceRows [b]) str
  refine ⟨str', ?_, h⟩
  rw [serviceList, rowsOf_run 1 [b] (by simp) service serviceRows rfl, bind_ok, e, bind_ok]

/-- **C86** (card service data): there is always a line on access and one on the master file. -/
theorem C86_service_lines (b : Byte) : 2 ≤ (shown serviceRows [b]).length := by
  have h : ∀ b : Byte, 2 ≤ (shown serviceRows [b]).length := by decide +kernel
  exact h b

/-- **C86** (card capabilities).  Capabilities of at least one byte give the lines of their
first three bytes as far as present, with code 0, or -1 for the undefined channel assignment. -/
theorem C86_capabilities (f str : List Byte) (h : f ≠ []) :
    ∃ str', capsList f str =
        .ok (if 3 ≤ f.length ∧ bitsVal f 3 5 4 = 3 then -1 else 0, str') ∧
      ListedIn (capsText f) str str' := by
  obtain ⟨str', e, hl⟩ := isoBuild_spec (capsText f) str
  refine ⟨str', ?_, hl⟩
  have h0 : f.length ≠ 0 := by simpa using h
  rw [capsList, if_neg h0, capsLines_spec f h, bind_ok]
  simp only [e, bind_ok]

/-- **C86**: empty capabilities are refused and the output left as it was. -/
theorem C86_no_capabilities (str : List Byte) : capsList [] str = .ok (-1, str) := rfl

/-- **C86** (no line, no string).  The one byte capabilities 00 are accepted, but have no line:
the output is left as it was, so an output not initialised by the caller holds no string. -/
theorem C86_no_lines (str : List Byte) : capsList [0x00] str = .ok (0, str) := rfl

/-- **C86** (no line, no string, exactly).  This is the only such value. -/
theorem C86_lines (f : List Byte) (h : f ≠ []) (h1 : f ≠ [0x00]) : capsText f ≠ [] := by
  have h0 : 1 ≤ f.length := List.length_pos_iff.2 h
  have r2 : ∀ b : Byte, shown capsRows2 [0, b] ≠ [] := by decide +kernel
  have r1 : ∀ b : Byte, b ≠ 0 → shown capsRows1 [b] ≠ [] := by decide +kernel
  match f, h0 with
  | [a], _ =>
    intro e
    unfold capsText at e
    simp only [List.append_eq_nil_iff] at e
    exact r1 a (by rintro rfl; exact h1 rfl) e.1.1
  | a :: b :: rest, _ =>
    intro e
    unfold capsText at e
    simp only [List.append_eq_nil_iff] at e
    have e2 := e.1.2
    rw [if_pos (by simp), List.append_eq_nil_iff] at e2
    exact r2 b e2.1

example : capsText [0x80, 0x21, 0x8D] =
    [txt!"DF selection: by full DF NAME", txt!"Behaviour of write functions: proprietary",
     txt!"FF as first byte of BER-TLV tag is invalid / padding", txt!"Data unit size: 1 bytes",
     txt!"Command chaining", txt!"Logical channel number assignment: by the interface device",
     txt!"Maximum number of logical channels: 6"] := by decide +kernel

end Verif.IsoStr
