import Verif.CompactTlv

/-!
# Model of ATR parsing: `iso7816_atr_parse` (src/iso7816.c) and `emv_atr_parse` (src/emv.c)

The ATR is copied into a zero-initialised array of 33 bytes inside `struct
iso7816_atr_info_t`; interface bytes are recorded as pointers into that array, modelled as
indexes.  A non-zero return code makes the rest of the structure meaningless to callers, so
the model keeps the structure only for return code 0.
-/

set_option autoImplicit false

namespace Verif.Atr
open Verif

/-- Result of a parsing step: undefined behaviour, a non-zero return code, or a value. -/
abbrev R (α : Type) := C (Except Nat α)

/-- `if (r) return r;` followed by the rest of the function. -/
def andThen {α β : Type} (x : C (Except Nat α)) (k : α → C (Except Nat β)) :
    C (Except Nat β) :=
  match x with
  | .error e => .error e
  | .ok (.error c) => .ok (.error c)
  | .ok (.ok a) => k a

@[simp] theorem andThen_ok {α β : Type} (a : α) (k : α → C (Except Nat β)) :
    andThen (.ok (.ok a)) k = k a := rfl

@[simp] theorem andThen_code {α β : Type} (c : Nat) (k : α → C (Except Nat β)) :
    andThen (.ok (.error c) : R α) k = .ok (.error c) := rfl

@[simp] theorem andThen_ub {α β : Type} (e : UB) (k : α → C (Except Nat β)) :
    andThen (.error e : R α) k = .error e := rfl

/-- Use of the SPU contact (iso7816.h, `enum iso7816_spu_t`). -/
inductive Spu where
  | notUsed | standard | proprietary
  deriving DecidableEq, Repr

/-- The decoded parameters: members `global`, `protocol_T0`, `protocol_T1` of `struct
iso7816_atr_info_t` (iso7816.h).  `fmax10` is `fmax` in units of 100 kHz (the C member is a
`float` only ever assigned the constants of table 7). -/
structure Par where
  di : Nat
  fi : Nat
  fmax10 : Nat
  vppConnected : Bool
  vpp : Nat
  vppCourse : Nat
  ipp : Nat
  n : Byte
  protocol : Nat
  specificMode : Bool
  specificProtocol : Nat
  etuImplicit : Bool
  mayChange : Bool
  cardClasses : Nat
  clockStop : Nat
  spu : Spu
  wi : Nat
  ifsi : Nat
  cwi : Nat
  bwi : Nat
  crc : Bool
  deriving DecidableEq, Repr

/-- Values after `memset` and `iso7816_atr_populate_default_parameters`
(iso7816.c:271-319), the latter being calls of the parsing functions below with the default
bytes; `defaults_eq` in AtrLemmas.lean shows that these calls produce this structure. -/
def defaults : Par :=
  { di := 1, fi := 372, fmax10 := 50, vppConnected := true, vpp := 5000, vppCourse := 5000,
    ipp := 50, n := 0, protocol := 0, specificMode := false, specificProtocol := 0,
    etuImplicit := false, mayChange := false, cardClasses := 1, clockStop := 0,
    spu := .notUsed, wi := 10, ifsi := 32, cwi := 13, bwi := 4, crc := false }

/-- The `switch (DI)` of `iso7816_atr_parse_TA1` (iso7816.c:327-340). -/
def diOf (b : Byte) : Option Nat :=
  match b &&& 0x0F with
  | 0x01 => some 1
  | 0x02 => some 2
  | 0x03 => some 4
  | 0x04 => some 8
  | 0x05 => some 16
  | 0x06 => some 32
  | 0x07 => some 64
  | 0x08 => some 12
  | 0x09 => some 20
  | _ => none

/-- The `switch (FI)` of `iso7816_atr_parse_TA1` (iso7816.c:343-359): Fi and fmax. -/
def fiOf (b : Byte) : Option (Nat × Nat) :=
  match b &&& 0xF0 with
  | 0x00 => some (372, 40)
  | 0x10 => some (372, 50)
  | 0x20 => some (558, 60)
  | 0x30 => some (744, 80)
  | 0x40 => some (1116, 120)
  | 0x50 => some (1488, 160)
  | 0x60 => some (1860, 200)
  | 0x90 => some (512, 50)
  | 0xA0 => some (768, 75)
  | 0xB0 => some (1024, 100)
  | 0xC0 => some (1536, 150)
  | 0xD0 => some (2048, 200)
  | _ => none

/-- `iso7816_atr_parse_TA1` (iso7816.c:321-362). -/
def parseTA1 (b : Byte) (p : Par) : Except Nat Par :=
  match diOf b with
  | none => .error 10
  | some di =>
    match fiOf b with
    | none => .error 11
    | some (fi, fmax) => .ok { p with di := di, fi := fi, fmax10 := fmax }

/-- The `switch (II)` of `iso7816_atr_parse_TB1` (iso7816.c:391-397). -/
def ippOf (b : Byte) : Option Nat :=
  match b &&& 0x60 with
  | 0x00 => some 25
  | 0x20 => some 50
  | 0x40 => some 100
  | _ => none

/-- `iso7816_atr_parse_TB1` (iso7816.c:364-400). -/
def parseTB1 (b : Byte) (p : Par) : Except Nat Par :=
  let pi1 := (b &&& 0x1F).toNat
  if b = 0 then .ok { p with vppConnected := false }
  else if pi1 < 5 ∨ pi1 > 25 then .error 12
  else
    match ippOf b with
    | none => .error 13
    | some ipp =>
      .ok { p with vppConnected := true, vppCourse := pi1 * 1000, vpp := pi1 * 1000, ipp := ipp }

/-- `iso7816_atr_parse_TC1` (iso7816.c:402-409). -/
def parseTC1 (b : Byte) (p : Par) : Except Nat Par := .ok { p with n := b }

/-- `iso7816_atr_parse_TDi` (iso7816.c:411-437). -/
def parseTDi (i : Nat) (b : Byte) (p : Par) : Except Nat Par :=
  let t := (b &&& 0x0F).toNat
  if i = 1 then
    if t ≠ 0 ∧ t ≠ 1 then .error 14
    else .ok { p with protocol := t }
  else if t ≠ 0 ∧ t ≠ 1 ∧ t ≠ 15 then .error 15
  else .ok p

/-- `iso7816_atr_parse_TA2` (iso7816.c:439-454). -/
def parseTA2 (b : Byte) (p : Par) : Except Nat Par :=
  .ok { p with
    specificMode := true
    specificProtocol := (b &&& 0x0F).toNat
    etuImplicit := decide (b &&& 0x10 ≠ 0)
    mayChange := decide (b &&& 0x80 = 0) }

/-- `iso7816_atr_parse_TB2` (iso7816.c:456-474). -/
def parseTB2 (b : Byte) (p : Par) : Except Nat Par :=
  if ¬ p.vppConnected then .error 16
  else if b.toNat < 50 ∨ b.toNat > 250 then .error 17
  else .ok { p with vpp := b.toNat * 100 }

/-- `iso7816_atr_parse_TC2` (iso7816.c:476-490). -/
def parseTC2 (b : Byte) (p : Par) : Except Nat Par :=
  if b = 0 then .error 18 else .ok { p with wi := b.toNat }

/-- `iso7816_atr_parse_TAi` (iso7816.c:492-530); return code 20 is unreachable because the
indicator has two bits. -/
def parseTAi (protocol : Byte) (b : Byte) (p : Par) : Except Nat Par :=
  if protocol = 15 then
    let y := (b &&& 0x3F).toNat
    if y < 1 ∨ y > 7 then .error 19
    else .ok { p with cardClasses := y, clockStop := (b >>> 6).toNat }
  else if protocol = 1 then
    if b = 0x00 ∨ b = 0xFF then .error 21
    else .ok { p with ifsi := b.toNat }
  else .ok p

/-- `iso7816_atr_parse_TBi` (iso7816.c:532-574); return code 22 is unreachable because CWI
has four bits. -/
def parseTBi (protocol : Byte) (b : Byte) (p : Par) : Except Nat Par :=
  if protocol = 15 then
    .ok { p with spu :=
      if b ≠ 0 then (if b &&& 0x80 = 0 then .standard else .proprietary) else .notUsed }
  else if protocol = 1 then
    if (b >>> 4).toNat > 9 then .error 23
    else .ok { p with cwi := (b &&& 0x0F).toNat, bwi := (b >>> 4).toNat }
  else .ok p

/-- `iso7816_atr_parse_TCi` (iso7816.c:576-589). -/
def parseTCi (protocol : Byte) (b : Byte) (p : Par) : Except Nat Par :=
  if protocol = 1 then .ok { p with crc := decide (b &&& 0x01 ≠ 0) } else .ok p

/-- The `switch (i)` choosing the function for TAi (iso7816.c:99-106). -/
def parseTA (i : Nat) (protocol b : Byte) (p : Par) : Except Nat Par :=
  if i = 1 then parseTA1 b p else if i = 2 then parseTA2 b p else parseTAi protocol b p

/-- The `switch (i)` choosing the function for TBi (iso7816.c:115-122). -/
def parseTB (i : Nat) (protocol b : Byte) (p : Par) : Except Nat Par :=
  if i = 1 then parseTB1 b p else if i = 2 then parseTB2 b p else parseTBi protocol b p

/-- The `switch (i)` choosing the function for TCi (iso7816.c:131-138). -/
def parseTC (i : Nat) (protocol b : Byte) (p : Par) : Except Nat Par :=
  if i = 1 then parseTC1 b p else if i = 2 then parseTC2 b p else parseTCi protocol b p

/-- The pointers `TA[i]`, `TB[i]`, `TC[i]`, `TD[i]` for one i. -/
structure Ptrs where
  a : Option Nat
  b : Option Nat
  c : Option Nat
  d : Option Nat
  deriving DecidableEq, Repr

/-- Local variables and filled-in part of the structure during the interface byte loop. -/
structure St where
  idx : Nat
  protocol : Byte
  tck : Bool
  par : Par
  ptrs : List Ptrs
  deriving DecidableEq, Repr

/-- One of the three blocks "if the bit is set, store the pointer, parse the byte"
(iso7816.c:95-110, 111-126, 127-142). -/
def field (buf : List Byte) (present : Prop) [Decidable present] (st : St)
    (f : Byte → Par → Except Nat Par) : C (Except Nat (Option Nat × St)) :=
  if present then do
    let b ← rd buf st.idx
    match f b st.par with
    | .error c => .ok (.error c)
    | .ok p => .ok (.ok (some st.idx, { st with idx := st.idx + 1, par := p }))
  else .ok (.ok (none, st))

/-- The loop over the interface bytes (iso7816.c:91-166): `left` iterations remain, the
current one has number `i`. -/
def loop (buf : List Byte) : Nat → Nat → St → C (Except Nat St)
  | 0, _, st => .ok (.ok st)
  | left + 1, i, st => do
    let y ← rd buf st.idx
    andThen (field buf (y &&& 0x10 ≠ 0) { st with idx := st.idx + 1 }
      (parseTA i st.protocol)) fun (a, st) =>
    andThen (field buf (y &&& 0x20 ≠ 0) st (parseTB i st.protocol)) fun (b, st) =>
    andThen (field buf (y &&& 0x40 ≠ 0) st (parseTC i st.protocol)) fun (c, st) =>
    if y &&& 0x80 ≠ 0 then do
      let d ← rd buf st.idx
      match parseTDi i d st.par with
      | .error e => .ok (.error e)
      | .ok p =>
        loop buf left (i + 1)
          { st with
            protocol := d &&& 0x0F
            tck := st.tck || decide (d &&& 0x0F ≠ 0)
            par := p
            ptrs := st.ptrs ++ [⟨a, b, c, some st.idx⟩] }
    else .ok (.ok { st with ptrs := st.ptrs ++ [⟨a, b, c, none⟩] })

/-- `iso7816_compute_gt` (iso7816.c:591-661): guard time and T=1 character guard time.  The
two branches for T=15 present/absent assign the same expression and are merged. -/
def computeGt (p : Par) (gt0 : Nat) : Nat × Nat :=
  if p.n ≠ 0xFF then (12 + p.n.toNat, 12 + p.n.toNat)
  else
    let gt := if p.protocol = 0 then 12 else gt0
    let gt := if p.protocol = 1 then 11 else gt
    (gt, 11)

/-- `iso7816_compute_wt` (iso7816.c:663-709): WT, CWT and BWT in `unsigned int` arithmetic.
`(1 << BWI) * 960 * 372` is `int` arithmetic; it cannot overflow for BWI at most 9 (the
parser admits no other value), which the model makes explicit. -/
def computeWt (p : Par) : C (Nat × Nat × Nat) :=
  if 2 ^ p.bwi * 960 * 372 < 2 ^ 31 ∧ p.cwi < 31 then
    .ok (p.wi * 960 * p.di % 2 ^ 32, (11 + 2 ^ p.cwi) % 2 ^ 32,
      (11 + (2 ^ p.bwi * 960 * 372 * p.di % 2 ^ 32) / p.fi) % 2 ^ 32)
  else .error .overflow

/-- The structure after a successful parse.  `stat` is the extracted status indicator (LCS,
SW1, SW2; zero when not set), `si` the status indicator bytes it comes from (`none` when the pointer
is NULL), `hist` the offset and length of the historical bytes. -/
structure Info where
  buf : List Byte
  len : Nat
  ptrs : List Ptrs
  par : Par
  gt : Nat
  cgt : Nat
  wt : Nat
  cwt : Nat
  bwt : Nat
  k : Nat
  t1 : Byte
  hist : Option (Nat × Nat)
  si : Option (List Byte)
  stat : Byte × Byte × Byte
  tck : Option Byte
  deriving DecidableEq, Repr

/-- The loop of `iso7816_atr_parse_historical_bytes` (iso7816.c:723-729): the last status
indicator object (tag 8) replaces what was there. -/
def lastSi (si : Option (List Byte)) (ts : List CompactTlv.Tlv) : Option (List Byte) :=
  ts.foldl (fun s t => if t.tag = 8 then some t.value else s) si

/-- `iso7816_atr_parse_historical_bytes` (iso7816.c:711-735); `si` are the status indicator
bytes known so far. -/
def parseHistorical (h : List Byte) (si : Option (List Byte)) :
    C (Except Nat (Option (List Byte))) := do
  match ← CompactTlv.iterateAll h with
  | none => .ok (.error 24)
  | some (ts, c) =>
    if c ≠ 0 then .ok (.error 25) else .ok (.ok (lastSi si ts))

/-- The historical byte block (iso7816.c:181-218), entered with `k ≠ 0`: category byte,
offset and length of the historical bytes, status indicator bytes.  With T1 = 0 the length
is decreased by three in `size_t` arithmetic; when fewer than three bytes are there the
wrapped length makes the pointer computed next lie outside the array (undefined behaviour;
the following COMPACT-TLV loop then runs past the end). -/
def histBlock (buf : List Byte) (idx k : Nat) :
    C (Except Nat (Byte × (Nat × Nat) × Option (List Byte))) := do
  let t1 ← rd buf idx
  let off := idx + 1
  let len := k - 1
  if t1 = 0x00 then
    if len < 3 then .error .oobRead
    else do
      let si ← slice buf (off + (len - 3)) 3
      let h ← slice buf off (len - 3)
      match ← parseHistorical h (some si) with
      | .error _ => .ok (.error 5)
      | .ok si => .ok (.ok (t1, (off, len - 3), si))
  else if t1 = 0x80 then do
    let h ← slice buf off len
    match ← parseHistorical h none with
    | .error _ => .ok (.error 5)
    | .ok si => .ok (.ok (t1, (off, len), si))
  else .ok (.ok (t1, (off, len), none))

/-- The checksum loop (iso7816.c:236-240): XOR of `atr[i], …, atr[i + n - 1]`. -/
def xorFrom (buf : List Byte) (i : Nat) : Nat → C Byte
  | 0 => .ok 0
  | n + 1 => do
    let x ← xorFrom buf i n
    let b ← rd buf (i + n)
    .ok (x ^^^ b)

/-- Extraction of the status indicator by length (iso7816.c:247-266); other lengths leave
it zero. -/
def status : Option (List Byte) → Byte × Byte × Byte
  | some [l] => (l, 0, 0)
  | some [a, b] => (0, a, b)
  | some [l, a, b] => (l, a, b)
  | _ => (0, 0, 0)

/-- The checksum block (iso7816.c:226-245). -/
def tckBlock (buf : List Byte) (len idx : Nat) (mandatory : Bool) :
    C (Except Nat (Option Byte)) :=
  if mandatory then
    if idx ≥ len then .ok (.error 7)
    else do
      let t ← rd buf idx
      let x ← xorFrom buf 1 idx
      if x ≠ 0 then .ok (.error 8) else .ok (.ok (some t))
  else .ok (.ok none)

/-- Everything after the interface byte loop (iso7816.c:168-268). -/
def finish (buf : List Byte) (len k : Nat) (st : St) : C (Except Nat Info) := do
  let (gt, cgt) := computeGt st.par 0
  let (wt, cwt, bwt) ← computeWt st.par
  if st.idx > len then .ok (.error 3)
  else if st.idx + k > len then .ok (.error 4)
  else
    andThen
      (if k ≠ 0 then
        andThen (histBlock buf st.idx k) fun (t1, h, si) =>
          .ok (.ok (t1, some h, si, st.idx + k))
       else .ok (.ok (0, none, none, st.idx)))
      fun (t1, h, si, idx) =>
        if idx > len then .ok (.error 6)
        else
          andThen (tckBlock buf len idx st.tck) fun tck =>
            .ok (.ok { buf := buf, len := len, ptrs := st.ptrs, par := st.par, gt := gt,
                       cgt := cgt, wt := wt, cwt := cwt, bwt := bwt, k := k, t1 := t1,
                       hist := h, si := si, stat := status si, tck := tck })

/-- `iso7816_atr_parse` (iso7816.c:45-269); the NULL checks are not modelled. -/
def parse (atr : List Byte) : C (Except Nat Info) :=
  if atr.length < 2 ∨ atr.length > 33 then .ok (.error 1)
  else do
    let buf := atr ++ List.replicate (33 - atr.length) 0
    let ts ← rd atr 0
    if ts ≠ 0x3B ∧ ts ≠ 0x3F then .ok (.error 2)
    else do
      let t0 ← rd atr 1
      andThen
        (loop buf 4 1 { idx := 1, protocol := 0, tck := false, par := defaults, ptrs := [] })
        (finish buf atr.length (t0 &&& 0x0F).toNat)

/-- `*TA[i]` for a pointer stored in the structure (`none`: the pointer is NULL). -/
def deref (info : Info) (sel : Ptrs → Option Nat) (i : Nat) : C (Option Byte) :=
  match info.ptrs[i - 1]?.bind sel with
  | none => .ok none
  | some p => do .ok (some (← rd info.buf p))

/-- The TA1 check of `emv_atr_parse` (emv.c:153-176): `true` for a card error. -/
def badTA1 (ta1 ta2 : Option Byte) : Bool := match ta1, ta2 with
  | some a, some b => decide (b &&& 0x10 = 0) && (decide (a < 0x11) || decide (a > 0x13))
  | some a, none => decide (a &&& 0xF0 = 0) || decide (a &&& 0x0F < 3)
  | none, _ => false

/-- The TC1 check of `emv_atr_parse` (emv.c:183-189). -/
def badTC1 (tc1 : Option Byte) : Bool := match tc1 with
  | some c => decide (c ≠ 0x00) && decide (c ≠ 0xFF)
  | none => false

/-- A protocol type from TD, T=0 when it is absent (emv.c:112-113, 199, 260). -/
def protoOf (td : Option Byte) : Nat := match td with
  | some d => (d &&& 0x0F).toNat
  | none => 0

/-- The TA2 check of `emv_atr_parse` (emv.c:204-221). -/
def badTA2 (ta2 : Option Byte) (t : Nat) : Bool := match ta2 with
  | some a => decide ((a &&& 0x0F).toNat ≠ t) || decide (a &&& 0x10 ≠ 0)
  | none => false

/-- The TC2 check of `emv_atr_parse` (emv.c:227-239). -/
def badTC2 (tc2 : Option Byte) (t : Nat) : Bool := match tc2 with
  | some c => decide (t ≠ 0) || decide (c ≠ 0x0A)
  | none => false

/-- The TA1, TC1, TD1, TA2 and TC2 checks of `emv_atr_parse` in order (emv.c:151-239): the
TD1 protocol, or `none` for a card error. -/
def emvChecks12 (ta1 tc1 td1 ta2 tc2 : Option Byte) : Option Nat :=
  if badTA1 ta1 ta2 then none else if badTC1 tc1 then none else if protoOf td1 > 1 then none
  else if badTA2 ta2 (protoOf td1) then none else if badTC2 tc2 (protoOf td1) then none
  else some (protoOf td1)

/-- The TD2 check of `emv_atr_parse` (emv.c:243-269). -/
def badTD2 (t : Nat) (td2 : Option Byte) : Bool := match td2 with
  | some d =>
    (decide (t = 0) && decide (d &&& 0x0F ≠ 15)) || (decide (t = 1) && decide (d &&& 0x0F ≠ 1))
  | none => decide (t = 1)

/-- The TA3 check of `emv_atr_parse` (emv.c:275-282). -/
def badTA3 (ta3 : Option Byte) : Bool := match ta3 with
  | some a => decide (a < 0x10)
  | none => false

/-- The TB3 check of `emv_atr_parse` (emv.c:286-314).  `pow_2_CWI < (N + 1)` compares
`unsigned int` with `int`: the right side is converted to unsigned, here `N + 1` is never
negative. -/
def badTB3 (tb3 : Option Byte) (n : Byte) (cwi : Nat) : Bool := match tb3 with
  | some b =>
    decide ((b >>> 4).toNat > 4) || decide ((b &&& 0x0F).toNat > 5) ||
      decide (2 ^ (if n ≠ 0 then cwi else 1) < if n ≠ 0xFF then n.toNat + 1 else 0)
  | none => true

/-- The TC3 check of `emv_atr_parse` (emv.c:318-324). -/
def badTC3 (tc3 : Option Byte) : Bool := match tc3 with
  | some c => decide (c ≠ 0x00)
  | none => false

/-- The TD2, TA3, TB3 and TC3 checks of `emv_atr_parse` in order (emv.c:241-325): `true` for
acceptance. -/
def emvChecks3 (t : Nat) (td2 ta3 tb3 tc3 : Option Byte) (n : Byte) (cwi : Nat) : Bool :=
  if badTD2 t td2 then false
  else if protoOf td2 = 1 then !badTA3 ta3 && !badTB3 tb3 n cwi && !badTC3 tc3
  else true

/-- The part of `emv_atr_parse` after its check of the parameters (emv.c:121-332): 0, or
1 = `EMV_OUTCOME_CARD_ERROR`. -/
def emvRules (atr : List Byte) : C Int := do
  match ← parse atr with
  | .error _ => .ok 1
  | .ok info => do
    let ta1 ← deref info (·.a) 1
    let tc1 ← deref info (·.c) 1
    let td1 ← deref info (·.d) 1
    let ta2 ← deref info (·.a) 2
    let tc2 ← deref info (·.c) 2
    let td2 ← deref info (·.d) 2
    let ta3 ← deref info (·.a) 3
    let tb3 ← deref info (·.b) 3
    let tc3 ← deref info (·.c) 3
    match emvChecks12 ta1 tc1 td1 ta2 tc2 with
    | none => .ok 1
    | some t =>
      if emvChecks3 t td2 ta3 tb3 tc3 info.par.n info.par.cwi then .ok 0 else .ok 1

/-- `emv_atr_parse` (emv.c:108-332): 0, 1 = `EMV_OUTCOME_CARD_ERROR`, or
-2 = `EMV_ERROR_INVALID_PARAMETER` (emv.c:115-119; a NULL pointer is not modelled). -/
def emvParse (atr : List Byte) : C Int :=
  if atr.length = 0 then .ok (-2) else emvRules atr

end Verif.Atr
