import Verif.Pcsc

/-!
# Model of connections and data exchange of the PC/SC wrapper

`src/pcsc.c`: connecting a reader, exchanging data and disconnecting, with the handle and the protocol.
`Verif/Pcsc.lean` models connecting as far as the card type and the ATR are concerned; here the use of the
handle is added (`connect_refines` in the properties relates the two).  The PC/SC service is the
environment.  Not modelled: trace output on standard error.
-/

set_option autoImplicit false

namespace Verif.PcscConn
open Verif Verif.Pcsc

/-- `DWORD protocol`: `SCARD_PROTOCOL_T0`, `SCARD_PROTOCOL_T1`, or any other value such as
`SCARD_PROTOCOL_UNDEFINED`. -/
inductive Protocol
  | t0
  | t1
  | other
deriving Repr, DecidableEq

/-- What happens at the service. -/
inductive Act
  /-- `SCardConnect` succeeded with a handle -/
  | opened (card : Nat)
  /-- `SCardDisconnect` succeeded for a handle -/
  | closed (card : Nat)
  /-- `SCardTransmit` -/
  | sent (card : Nat) (p : Protocol) (tx : List Byte)
deriving Repr, DecidableEq

/-- The members of `struct pcsc_reader_t` for connections (pcsc.c:84-94). -/
structure Conn where
  /-- `card` -/
  card : Nat
  /-- `protocol` -/
  protocol : Protocol
  /-- `atr` and `type` -/
  reader : Reader
deriving Repr, DecidableEq

/-- `pcsc_reader_trx` (pcsc.c:820-860): the result, the receive buffer and `*rx_buf_len`, and what
happens.  `answer` is the answer of the card, `none` for failure. -/
def trx (c : Conn) (answer : Option (List Byte)) (tx rx : List Byte) :
    C (Int × List Byte × Nat × List Act) :=
  if c.protocol = .other then .ok (-1, rx, rx.length, [])
  else
    match answer with
    | none => .ok (-1, rx, rx.length, [.sent c.card c.protocol tx])
    | some a => do
      let rx' ← wrs rx 0 a
      .ok (0, rx', a.length, [.sent c.card c.protocol tx])

/-- `pcsc_reader_disconnect` (pcsc.c:770-795); `ok` tells whether `SCardDisconnect` succeeds. -/
def disconnect (ok : Bool) (c : Conn) : Int × Conn × List Act :=
  if ok then (0, ⟨0, .other, ⟨[], .unknown⟩⟩, [.closed c.card]) else (-1, c, [])

/-- What the service does when a card is connected. -/
structure ConnSvc where
  /-- `SCardConnect`: handle and protocol, `none` for failure -/
  connect : Option (Nat × Protocol)
  /-- what a failing `SCardConnect` leaves in the handle and protocol, `none` for no change -/
  failWrite : Option (Nat × Protocol)
  /-- the protocol after `SCardStatus` -/
  protocol : Protocol
  /-- `SCardStatus`: the ATR (at most 33 bytes), `none` for failure -/
  status : Option (List Byte)
  /-- array contents left by a failing `SCardStatus` -/
  garbage : List Byte
  /-- answer to the UID request (at most 12 bytes), `none` for failure -/
  uid : Option (List Byte)
  /-- `SCardDisconnect` succeeds -/
  disconnect : Bool

/-- The UID request (pcsc.c:657). -/
def uidRequest : List Byte := [0xFF, 0xCA, 0x00, 0x00, 0x00]

/-- `pcsc_reader_connect` (pcsc.c:700-768) with `pcsc_reader_internal_get_uid` (pcsc.c:647-698), whose local
`rx_buf` holds `rx`. -/
def connect (s : ConnSvc) (rx : List Byte) (c : Conn) : C (Int × Conn × List Act) :=
  match s.connect with
  | none =>
    match s.failWrite with
    | none => .ok (-1, c, [])
    | some (h, p) => .ok (-1, { c with card := h, protocol := p }, [])
  | some (h, _) =>
    let c := { c with card := h, protocol := s.protocol }
    match s.status with
    | none =>
      let (_, c, e) := disconnect s.disconnect { c with reader := { c.reader with atr := s.garbage } }
      .ok (-1, c, .opened h :: e)
    | some atr => do
      let c := { c with reader := { c.reader with atr := atr } }
      if ← pcscContactless atr then do
        let (r, rx, n, e) ← trx c s.uid uidRequest rx
        let answer ← slice rx 0 n
        let (u, _) ← getUid (if r = 0 then some answer else none) 10
        if u < 0 then .ok (u, c, .opened h :: e)
        else if u > 0 then
          .ok (CardType.contact.val, { c with reader := { c.reader with type := .contact } }, .opened h :: e)
        else
          .ok (CardType.contactless.val, { c with reader := { c.reader with type := .contactless } }, .opened h :: e)
      else .ok (CardType.contact.val, { c with reader := { c.reader with type := .contact } }, [.opened h])

/-- Calls of an application on one reader. -/
inductive Op
  | connect (s : ConnSvc) (rx : List Byte)
  | disconnect (ok : Bool)
  | trx (answer : Option (List Byte)) (tx rx : List Byte)

/-- A sequence of calls: the connection at the end and what happened. -/
def run : List Op → Conn → C (Conn × List Act)
  | [], c => .ok (c, [])
  | .connect s rx :: ops, c => do
    let (_, c, e) ← connect s rx c
    let (c, es) ← run ops c
    .ok (c, e ++ es)
  | .disconnect ok :: ops, c => do
    let (_, c, e) := disconnect ok c
    let (c, es) ← run ops c
    .ok (c, e ++ es)
  | .trx answer tx rx :: ops, c => do
    let (_, _, _, e) ← trx c answer tx rx
    let (c, es) ← run ops c
    .ok (c, e ++ es)

/-- After `pcsc_init` (pcsc.c:146). -/
def Conn.initial : Conn := ⟨0, .other, ⟨[], .unknown⟩⟩

end Verif.PcscConn
