import Verif.AtrStrProps
import Verif.IsoStrProps
import Verif.CompactTlvProps
import Verif.PrintSpec

/-!
# Specification of the listings of an ATR and of status words

The words for the bytes of an ATR are those of C85 to C88.
-/

set_option autoImplicit false

namespace Verif.PrintCardSpec
open Verif Atr AtrSpec AtrStr IsoStr Lists Formats

/-- A line that separates groups. -/
def rule : List Byte := txt!"  ----" ++ [0x0A]

/-! ## Interface bytes -/

/-- The factor Di TA1 stands for. -/
def diFor (gs : List Link) : Nat := (diTable.lookup (((ta gs 1).getD 0x11).toNat % 16)).getD 0

/-- Fi and the frequency (in 100 kHz) TA1 stands for. -/
def fiFor (gs : List Link) : Nat × Nat :=
  (fiTable.lookup (((ta gs 1).getD 0x11).toNat / 16)).getD (0, 0)

/-- Words for TAi. -/
def taWords (gs : List Link) (i : Nat) : List Byte :=
  if i = 1 then
    rateText (fiFor gs).1 (diFor gs) (fiFor gs).2 ((fiFor gs).1 / diFor gs)
      ((fiFor gs).2 * 100000 / ((fiFor gs).1 / diFor gs))
  else if i = 2 then modeText (ta gs 2)
  else match gs[i - 1]? with
    | none => []
    | some l =>
      if l.nib = 15 then classText ((lastOf 15 gs (·.a)).getD 0)
      else if l.nib = 1 then txt!"IFSI=" ++ decimal ((lastOf 1 gs (·.a)).getD 0).toNat
      else txt!"Unimplemented"

/-- Words for TBi. -/
def tbWords (gs : List Link) (i : Nat) : List Byte :=
  if i = 1 then vppText (tb gs 1)
  else if i = 2 then
    match tb gs 1, tb gs 2 with
    | some _, some y => txt!"Vpp=" ++ decimal (y.toNat * 100) ++ txt!"mV"
    | _, _ => txt!"Vpp is not connected"
  else match gs[i - 1]? with
    | none => []
    | some l =>
      if l.nib = 15 then spuWords ((lastOf 15 gs (·.b)).getD 0)
      else if l.nib = 1 then
        let y := ((lastOf 1 gs (·.b)).getD 0).toNat
        txt!"CWT=" ++ decimal (11 + 2 ^ (y % 16)) ++ txt!"; BWT=" ++
          decimal (11 + 2 ^ (y / 16) * 960 * 372 * diFor gs % 2 ^ 32 / (fiFor gs).1)
      else txt!"Unimplemented"

/-- Words for TCi. -/
def tcWords (gs : List Link) (i : Nat) : List Byte :=
  if i = 1 then
    let n := ((tc gs 1).getD 0x00).toNat
    txt!"N=" ++ decimal n ++ txt!"; GT=" ++
      decimal (if n ≠ 255 then 12 + n else if tdT gs 1 = some 1 then 11 else 12)
  else if i = 2 then
    let wi := ((tc gs 2).getD 0x0A).toNat
    txt!"WI=" ++ decimal wi ++ txt!"; WT=" ++ decimal (wi * 960 * diFor gs)
  else match gs[i - 1]? with
    | none => []
    | some l =>
      if l.nib = 1 then
        (if ((lastOf 1 gs (·.c)).getD 0).toNat % 2 = 1 then txt!"Cyclic Redundancy Check (CRC)"
          else txt!"Longitudinal Redundancy Check (LRC)")
      else txt!"Unimplemented"

/-- Words for TDi. -/
def tdWords (gs : List Link) (i : Nat) : List Byte :=
  setText gs none (i + 1) ++ protocolText ((tdT gs i).getD 0).val

/-- The line of an interface byte, if it is there. -/
def byteLine (name : List Byte) (i : Nat) (byte : Option Byte) (words : List Byte) : List Byte :=
  match byte with
  | some b => txt!"  " ++ name ++ decimal i ++ txt!" = 0x" ++ hexOf [b] ++ txt!": " ++ words ++ [0x0A]
  | none => []

/-- The line of an interface byte; of the first two sets the defaults for absent ones are listed
too. -/
def optionalLine (name : List Byte) (i : Nat) (byte : Option Byte) (words : List Byte) : List Byte :=
  if byte = none ∧ i ≤ 2 then txt!"  " ++ name ++ decimal i ++ txt!" absent: " ++ words ++ [0x0A]
  else byteLine name i byte words

/-- The lines of the interface bytes numbered `i`. -/
def setLines (gs : List Link) (i : Nat) : List Byte :=
  (if i ≤ 2 ∨ ta gs i ≠ none ∨ tb gs i ≠ none ∨ tc gs i ≠ none ∨ tdByte gs none i ≠ none
    then rule else []) ++
  optionalLine txt!"TA" i (ta gs i) (taWords gs i) ++
  optionalLine txt!"TB" i (tb gs i) (tbWords gs i) ++
  optionalLine txt!"TC" i (tc gs i) (tcWords gs i) ++
  byteLine txt!"TD" i (tdByte gs none i) (tdWords gs i)

/-! ## Historical bytes -/

/-- Historical bytes: none, of free format, COMPACT-TLV objects, or such objects followed by a
status indicator. -/
inductive Hist where
  | none
  | free (t1 : Byte) (r : List Byte)
  | objects (ts : List CompactTlv.Tlv)
  | withStatus (ts : List CompactTlv.Tlv) (s : List Byte)

/-- The bytes. -/
def Hist.enc : Hist → List Byte
  | .none => []
  | .free t1 r => t1 :: r
  | .objects ts => 0x80 :: CompactTlv.encAll ts
  | .withStatus ts s => 0x00 :: (CompactTlv.encAll ts ++ s)

/-- Well-formed. -/
def Hist.WF : Hist → Prop
  | .none => True
  | .free t1 _ => t1 ≠ 0x00 ∧ t1 ≠ 0x80
  | .objects ts => ts ≠ [] ∧ ∀ t ∈ ts, CompactTlv.WF t
  | .withStatus ts s => ts ≠ [] ∧ (∀ t ∈ ts, CompactTlv.WF t) ∧ s.length = 3

/-- The objects. -/
def Hist.tlvs : Hist → List CompactTlv.Tlv
  | .objects ts => ts
  | .withStatus ts _ => ts
  | _ => []

/-- The status indicator: that of the last status object, else the three bytes at the end. -/
def Hist.status : Hist → Option (List Byte)
  | .objects ts => ((ts.filter (fun t => t.tag = 8)).map (·.value)).getLast?
  | .withStatus ts s => (((ts.filter (fun t => t.tag = 8)).map (·.value)).getLast?).or (some s)
  | _ => Option.none

/-- Names of the objects (ISO 7816-4:2005, 8.1.1.2). -/
def tagNames : List (Nat × List Byte) :=
  [(1, txt!"Country code"), (2, txt!"Issuer identification number"), (3, txt!"Card service data"),
   (4, txt!"Initial access data"), (5, txt!"Card issuer data"), (6, txt!"Pre-issuing data"),
   (7, txt!"Card capabilities"), (8, txt!"Status indicator"),
   (15, txt!"Application identifier (AID)")]

/-- What an object says, line by line. -/
def objectWords (t : CompactTlv.Tlv) : List (List Byte) :=
  if t.tag.toNat = 3 then
    (match t.value with
      | b :: _ => Bits.shown serviceRows [b]
      | [] => [])
  else if t.tag.toNat = 7 then
    (if 3 ≤ t.value.length ∧ Bits.bitsVal t.value 3 5 4 = 3 then []
     else if t.value = [] then [] else capsText t.value)
  else []

/-- The lines of an object. -/
def objectLines (t : CompactTlv.Tlv) : List Byte :=
  txt!"  " ++ (tagNames.lookup t.tag.toNat).getD txt!"Unknown" ++ txt!" (0x" ++
    (hexOf [t.tag]).drop 1 ++ txt!"): [" ++ decimal t.value.length ++ txt!"] " ++
    txt!" ".intercalate (t.value.map (fun b => hexOf [b])) ++ [0x0A] ++
  ((objectWords t).map (fun l => txt!"    - " ++ l ++ [0x0A])).flatten

/-- What the category indicator says. -/
def categoryWords (t1 : Byte) : List Byte :=
  if t1.toNat = 0 then txt!"COMPACT-TLV followed by mandatory status indicator"
  else if t1.toNat = 0x10 then txt!"DIR data reference"
  else if t1.toNat = 0x80 then txt!"COMPACT-TLV including optional status indicator"
  else if t1.toNat / 16 = 8 then txt!"RFU" else txt!"Proprietary"

/-- The line of the category indicator. -/
def categoryLine (t1 : Byte) : List Byte :=
  txt!"  T1  = 0x" ++ hexOf [t1] ++ txt!": " ++ categoryWords t1 ++ [0x0A]

/-- The lines of the historical bytes. -/
def Hist.lines : Hist → List Byte
  | .none => []
  | .free t1 r => categoryLine t1 ++ txt!"  Historical bytes: " ++ hexOf r ++ [0x0A]
  | .objects ts => categoryLine 0x80 ++ (ts.map objectLines).flatten
  | .withStatus ts _ => categoryLine 0x00 ++ (ts.map objectLines).flatten

/-- Words for a life cycle status. -/
def lcsWords (b : Byte) : List Byte :=
  ((lcsRows.find? (fun r => fitsB b r.1)).map (·.2)).getD txt!"Proprietary"

/-- Life cycle status and status word of a status indicator, zero when it has none. -/
def statusParts : List Byte → Byte × Byte × Byte
  | [l] => (l, 0, 0)
  | [a, b] => (0, a, b)
  | [l, a, b] => (l, a, b)
  | _ => (0, 0, 0)

/-- The lines of the status indicator; a status word 0000 is left out. -/
def statusText (v : Option (List Byte)) : List Byte :=
  match v with
  | none => []
  | some v =>
    let (l, a, b) := statusParts v
    rule ++ txt!"  LCS = " ++ hexOf [l] ++ txt!": " ++ lcsWords l ++ [0x0A] ++
      (if a = 0 ∧ b = 0 then [] else
        txt!"  SW  = " ++ hexOf [a, b] ++ txt!": (" ++ swWords (swNum a b) ++ txt!")" ++ [0x0A])

/-! ## The whole listing -/

/-- The check byte, zero when the ATR has none. -/
def checkByte (atr : List Byte) (gs : List Link) : Byte :=
  if gs.tail.all (fun l => l.nib = 0) then 0 else atr.getD (tckPos gs) 0

/-- The listing of an ATR up to the check byte. -/
def atrBody (atr : List Byte) (gs : List Link) (h : Hist) : List Byte :=
  txt!"ATR: " ++ hexOf atr ++ [0x0A] ++
  txt!"  TS  = 0x" ++ hexOf (atr.take 1) ++ txt!": " ++
    (if atr.head? = some 0x3B then txt!"Direct convention" else txt!"Inverse convention") ++ [0x0A] ++
  txt!"  T0  = 0x" ++ hexOf ((atr.drop 1).take 1) ++ txt!": " ++ setText gs none 1 ++
    txt!"; K=" ++ decimal (kOf gs) ++ [0x0A] ++
  setLines gs 1 ++ setLines gs 2 ++ setLines gs 3 ++ setLines gs 4 ++
  (if kOf gs = 0 then [] else rule ++ h.lines ++ statusText h.status) ++ rule

/-- The listing of an ATR. -/
def atrText (atr : List Byte) (gs : List Link) (h : Hist) : List Byte :=
  atrBody atr gs h ++ txt!"  TCK = 0x" ++ hexOf [checkByte atr gs] ++ [0x0A]

/-- Card service data are there, and capabilities are not the single byte 00. -/
def Listable (t : CompactTlv.Tlv) : Prop :=
  (t.tag.toNat = 3 → t.value ≠ []) ∧ (t.tag.toNat = 7 → t.value ≠ [0x00])

end Verif.PrintCardSpec
