import Verif.Apdu

/-! # Model of `src/emv_ttl.c`: the exchange loop and the command wrappers -/

set_option autoImplicit false

namespace Verif.Ttl
open Verif Apdu

/-- `enum emv_cardreader_mode_t` (emv_ttl.h); the unknown mode (emv_ttl.c:114-117) is not
modelled. -/
inductive Mode where
  | apdu | tpdu
  deriving DecidableEq, Repr

/-- What the card reader's `trx` callback produces: an error code, or the bytes received.
The reader honours the 258-byte capacity of `rx_buf`; the theorems do not need that. -/
inductive Resp where
  | fail (r : Int)
  | data (rx : List Byte)
  deriving DecidableEq, Repr

/-- Where `tx_buf` points: into the C-APDU at an offset, or at `c_tpdu_header`. -/
inductive Tx where
  | capdu (off len : Nat)
  | header
  deriving DecidableEq, Repr

/-- Local variables of `emv_ttl_trx` (emv_ttl.c:41-55) and its outputs.  `hdr` is `[]` while
`c_tpdu_header` is uninitialised, so any use of it is an out-of-bounds access.
`dataOff` is `c_tpdu_data - c_apdu`, `none` for NULL.  `rpos` is `r_apdu_ptr - r_apdu`. -/
structure St where
  hdr : List Byte
  tx : Tx
  dataOff : Option Nat
  rbuf : List Byte
  rpos : Nat
  rlen : Nat
  sw : Nat
  deriving DecidableEq, Repr

/-- The exchange is over: return code, buffer, `*r_apdu_len`, `*sw1sw2`. -/
structure Done where
  code : Int
  rbuf : List Byte
  rlen : Nat
  sw : Nat
  deriving DecidableEq, Repr

/-- The `tx_buf_len` bytes at `tx_buf`, read by the card reader (emv_ttl.c:132-134). -/
def txBytes (capdu : List Byte) (st : St) : C (List Byte) :=
  match st.tx with
  | .capdu off len => slice capdu off len
  | .header => slice st.hdr 0 5

/-- `*(tx_buf + 1)` (emv_ttl.c:147). -/
def txIns (capdu : List Byte) (st : St) : C Byte :=
  match st.tx with
  | .capdu off _ => rd capdu (off + 1)
  | .header => rd st.hdr 1

/-- `memcpy(c_tpdu_header, tx_buf, 4)` (emv_ttl.c:405): the four bytes copied.  When `tx_buf`
is `c_tpdu_header` itself the copy is taken to be a no-op. -/
def txFour (capdu : List Byte) (st : St) : C (List Byte) :=
  match st.tx with
  | .capdu off _ => slice capdu off 4
  | .header => slice st.hdr 0 4

/-- End the exchange with an error code, leaving the outputs as they are. -/
def St.fail (st : St) (code : Int) : Done := ⟨code, st.rbuf, st.rlen, st.sw⟩

/-- `memcpy(r_apdu, rx_buf, 1); *r_apdu_len = 1; return code` (emv_ttl.c:187-189 etc.). -/
def St.failByte (st : St) (b : Byte) (code : Int) : C (St ⊕ Done) := do
  let rbuf ← wrs st.rbuf 0 [b]
  .ok (.inr ⟨code, rbuf, 1, st.sw⟩)

/-- Cases 2 and 4 (emv_ttl.c:270-272 etc.). -/
def isCase24 (c : Case) : Bool := c == .c2S || c == .c4S

/-- A single procedure byte (emv_ttl.c:180-252). -/
def procByte (capdu : List Byte) (c : Case) (st : St) (ins pb : Byte) : C (St ⊕ Done) :=
  if pb = 0x60 then st.failByte pb 3
  else if pb = ins then
    match st.dataOff with
    | none => st.failByte pb 4
    | some off => do
      let lc ← rd st.hdr 4
      .ok (.inl { st with tx := .capdu off lc.toNat, dataOff := none })
  else if pb = ins ^^^ 0xFF then
    match st.dataOff with
    | none => st.failByte pb 5
    | some off =>
      let off' := off + 1
      let next :=
        if c = .c3S ∧ off' ≥ capdu.length then none
        else if c = .c4S ∧ off' ≥ capdu.length - 1 then none
        else some off'
      .ok (.inl { st with tx := .capdu off 1, dataOff := next })
  else st.failByte pb 6

/-- The copy of response data (emv_ttl.c:316-374): `.inr` ends the exchange.  `skip` is 1 in
TPDU mode (leading INS byte) and 0 in APDU mode. -/
def copyData (c : Case) (st : St) (rx : List Byte) (skip : Nat) (badCase short : Int) :
    C (St ⊕ Done) :=
  if !isCase24 c then .ok (.inr (st.fail badCase))
  else if st.rlen < rx.length - skip then .ok (.inr (st.fail short))
  else do
    let n := rx.length - skip - 2
    let d ← slice rx skip n
    let rbuf ← wrs st.rbuf st.rpos d
    .ok (.inl { st with rbuf := rbuf, rpos := st.rpos + n, rlen := st.rlen - n })

/-- Response data handling for both modes (emv_ttl.c:315-374). -/
def takeData (mode : Mode) (c : Case) (st : St) (ins : Byte) (rx : List Byte) : C (St ⊕ Done) :=
  match mode with
  | .tpdu =>
    if rx.length > 3 then
      if !isCase24 c then .ok (.inr (st.fail 9))
      else do
        let b ← rd rx 0
        if b ≠ ins then .ok (.inr (st.fail 10))
        else copyData c st rx 1 9 (-4)
    else .ok (.inl st)
  | .apdu =>
    if rx.length > 2 then copyData c st rx 0 11 (-5)
    else .ok (.inl st)

/-- What to do after the response data (emv_ttl.c:376-419). -/
inductive Next where
  | getResponse | updateLe | finish
  deriving DecidableEq, Repr

/-- The `switch (SW1)` (emv_ttl.c:263-312): error code, or new `*sw1sw2` and what follows. -/
def status (c : Case) (sw : Nat) (rxLen : Nat) (sw1 sw2 : Byte) : Except Int (Nat × Next) :=
  if sw1 = 0x61 then
    if !isCase24 c then .error 7 else .ok (sw, .getResponse)
  else if sw1 = 0x6C then
    if !isCase24 c then .error 8 else .ok (sw, .updateLe)
  else if sw = 0 then
    if c = .c4S ∧ rxLen = 2 ∧ swIsWarning sw1 sw2 = true then
      .ok (sw1.toNat * 256 + sw2.toNat, .getResponse)
    else .ok (sw1.toNat * 256 + sw2.toNat, .finish)
  else .ok (sw, .finish)

/-- Le of GET RESPONSE (emv_ttl.c:377-387). -/
def getResponseLe (sw1 sw2 : Byte) : Byte :=
  if sw1 = 0x61 ∨ (sw1 = 0x62 ∧ 0x02 ≤ sw2.toNat ∧ sw2.toNat ≤ 0x80) then sw2 else 0

/-- The end of the loop body (emv_ttl.c:376-421). -/
def proceed (capdu : List Byte) (st : St) (sw1 sw2 : Byte) : Next → C (St ⊕ Done)
  | .getResponse =>
    .ok (.inl { st with hdr := [0x00, 0xC0, 0x00, 0x00, getResponseLe sw1 sw2], tx := .header })
  | .updateLe => do
    let h ← txFour capdu st
    .ok (.inl { st with hdr := h ++ [sw2], tx := .header })
  | .finish => do
    let rbuf ← wrs st.rbuf st.rpos [UInt8.ofNat (st.sw / 256), UInt8.ofNat (st.sw % 256)]
    .ok (.inr ⟨0, rbuf, st.rpos + 2, st.sw⟩)

/-- A response with status bytes (emv_ttl.c:254-421). -/
def statusResp (capdu : List Byte) (mode : Mode) (c : Case) (st : St) (ins : Byte)
    (rx : List Byte) (sw1 sw2 : Byte) : C (St ⊕ Done) :=
  match status c st.sw rx.length sw1 sw2 with
  | .error code => .ok (.inr (st.fail code))
  | .ok (sw, nxt) => do
    match ← takeData mode c { st with sw := sw } ins rx with
    | .inr d => .ok (.inr d)
    | .inl st' => proceed capdu st' sw1 sw2 nxt

/-- One turn of the loop after the transmission (emv_ttl.c:132-421). -/
def step (capdu : List Byte) (mode : Mode) (c : Case) (st : St) : Resp → C (St ⊕ Done)
  | .fail r => .ok (.inr (st.fail (if r = 0 then 1 else r)))
  | .data rx =>
    if rx.length = 0 then .ok (.inr (st.fail 1))
    else do
      let ins ← txIns capdu st
      if rx.length = 1 then
        let pb ← rd rx 0
        if c = .c1 then .ok (.inr ⟨2, st.rbuf, 0, st.sw⟩)
        else procByte capdu c st ins pb
      else do
        let sw1 ← rd rx (rx.length - 2)
        let sw2 ← rd rx (rx.length - 1)
        if c = .c1 then
          if rx.length ≠ 2 then .ok (.inr ⟨2, st.rbuf, 0, st.sw⟩)
          else do
            let rbuf ← wrs st.rbuf 0 rx
            .ok (.inr ⟨0, rbuf, 2, sw1.toNat * 256 + sw2.toNat⟩)
        else statusResp capdu mode c st ins rx sw1 sw2

/-- Outcome of an exchange against a finite script of card answers. -/
inductive Outcome where
  /-- the function returned; the answers not used -/
  | done (d : Done) (rest : List Resp)
  /-- the function waits for another answer -/
  | pending
  deriving DecidableEq, Repr

/-- The `do ... while (true)` loop (emv_ttl.c:122-423): everything transmitted, and the
outcome. -/
def run (capdu : List Byte) (mode : Mode) (c : Case) :
    List Resp → St → C (List (List Byte) × Outcome)
  | [], st => do
    let t ← txBytes capdu st
    .ok ([t], .pending)
  | r :: rs, st => do
    let t ← txBytes capdu st
    match ← step capdu mode c st r with
    | .inr d => .ok ([t], .done d rs)
    | .inl st' => do
      let (log, o) ← run capdu mode c rs st'
      .ok (t :: log, o)

/-- Initial state (emv_ttl.c:79-120). -/
def initSt (capdu : List Byte) (mode : Mode) (c : Case) (rbuf : List Byte) : C St :=
  match mode with
  | .apdu => .ok ⟨[], .capdu 0 capdu.length, none, rbuf, 0, rbuf.length, 0⟩
  | .tpdu => do
    let hdr ← if c = .c1 then do
        let h ← slice capdu 0 4
        .ok (h ++ [0])
      else slice capdu 0 5
    .ok ⟨hdr, .header, if c = .c3S ∨ c = .c4S then some 5 else none, rbuf, 0, rbuf.length, 0⟩

/-- `emv_ttl_trx` (emv_ttl.c:32-424).  `rbuf` is the previous content of the caller's buffer,
whose size is `*r_apdu_len`. -/
def trx (mode : Mode) (capdu rbuf : List Byte) (script : List Resp) :
    C (List (List Byte) × Outcome) := do
  if capdu.length = 0 ∨ rbuf.length = 0 then
    return ([], .done ⟨-1, rbuf, rbuf.length, 0⟩ script)
  match ← apduCase capdu with
  | .ok c =>
    if c = .c1 ∨ c = .c2S ∨ c = .c3S ∨ c = .c4S then
      let st ← initSt capdu mode c rbuf
      run capdu mode c script st
    else .ok ([], .done ⟨-2, rbuf, rbuf.length, 0⟩ script)
  | .error _ => .ok ([], .done ⟨-2, rbuf, rbuf.length, 0⟩ script)

/-! ## Command wrappers -/

/-- Result of a wrapper: return code, response data (on 0) and `*sw1sw2`. -/
structure WDone where
  code : Int
  data : List Byte
  sw : Nat
  deriving DecidableEq, Repr

/-- Outcome of a wrapper. -/
inductive WOutcome where
  | done (d : WDone) (rest : List Resp)
  | pending
  deriving DecidableEq, Repr

/-- The common tail of the wrappers (emv_ttl.c:463-484 etc.): exchange with a 258-byte local
buffer, then copy all but SW1-SW2 to the caller, whose capacity is `cap`.  The local buffer
starts uninitialised; it is modelled as zeros, which `C25_exchange` shows to be irrelevant.
`short`/`big` are the codes of the two checks. -/
def exchange (mode : Mode) (capdu : List Byte) (cap : Nat) (short big : Int)
    (script : List Resp) : C (List (List Byte) × WOutcome) := do
  let (log, o) ← trx mode capdu (List.replicate 258 0) script
  match o with
  | .pending => .ok (log, .pending)
  | .done d rest =>
    if d.code ≠ 0 then .ok (log, .done ⟨d.code, [], d.sw⟩ rest)
    else if d.rlen < 2 then .ok (log, .done ⟨short, [], d.sw⟩ rest)
    else if d.rlen - 2 > cap then .ok (log, .done ⟨big, [], d.sw⟩ rest)
    else do
      let data ← slice d.rbuf 0 (d.rlen - 2)
      .ok (log, .done ⟨0, data, d.sw⟩ rest)

/-- Refused before any exchange; `*sw1sw2` is left alone (0 here). -/
def refuse (code : Int) (script : List Resp) : C (List (List Byte) × WOutcome) :=
  .ok ([], .done ⟨code, [], 0⟩ script)

/-- A case 4S structure with Lc, data and Le = 0 (emv_ttl.c:452-461; iso7816_apdu.h:175-190):
the bytes handed to `emv_ttl_trx`.  `data_len` is truncated to `uint8_t` in Lc, and the
structure holds 256 bytes after Lc. -/
def build4S (cla ins p1 p2 : Byte) (data : List Byte) : C (List Byte) := do
  let lc := UInt8.ofNat data.length
  let d ← slice data 0 lc.toNat
  if lc.toNat + 1 ≤ 256 then .ok ([cla, ins, p1, p2, lc] ++ d ++ [0x00]) else .error .oobWrite

/-- `emv_ttl_select_by_df_name` (emv_ttl.c:426-485, `p2 = 0x00`) and
`emv_ttl_select_by_df_name_next` (emv_ttl.c:487-546, `p2 = 0x02`).  `cap` is `*fci_len`. -/
def select (p2 : Byte) (mode : Mode) (df : List Byte) (cap : Nat) (script : List Resp) :
    C (List (List Byte) × WOutcome) :=
  if cap = 0 then refuse (-1) script
  else if cap < 256 then refuse (-2) script
  else if df.length < 0x05 ∨ df.length > 0x10 then refuse (-3) script
  else do
    let capdu ← build4S 0x00 0xA4 0x04 p2 df
    exchange mode capdu cap (-4) (-5) script

/-- `emv_ttl_read_record` (emv_ttl.c:548-606). -/
def readRecord (mode : Mode) (sfi rec : Byte) (cap : Nat) (script : List Resp) :
    C (List (List Byte) × WOutcome) :=
  if cap = 0 then refuse (-1) script
  else if cap < 256 then refuse (-2) script
  else if sfi.toNat < 0x01 ∨ sfi.toNat > 0x1E then refuse (-3) script
  else exchange mode [0x00, 0xB2, rec, (sfi <<< 3) ||| 0x04, 0x00] cap (-4) (-5) script

/-- `emv_ttl_get_processing_options` (emv_ttl.c:608-689); `data = none` for NULL. -/
def gpo (mode : Mode) (data : Option (List Byte)) (cap : Nat) (script : List Resp) :
    C (List (List Byte) × WOutcome) :=
  if cap = 0 then refuse (-1) script
  else if cap < 256 then refuse (-2) script
  else do
    match data with
    | some d =>
      if d.length < 2 ∨ d.length > 255 then refuse (-3) script
      else do
        let b ← rd d 0
        if b ≠ 0x83 then refuse (-4) script
        else do
          let capdu ← build4S 0x80 0xA8 0x00 0x00 d
          exchange mode capdu cap (-5) (-6) script
    | none => do
      let capdu ← build4S 0x80 0xA8 0x00 0x00 [0x83, 0x00]
      exchange mode capdu cap (-5) (-6) script

end Verif.Ttl
