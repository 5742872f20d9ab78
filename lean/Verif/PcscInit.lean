import Verif.Pcsc
import Verif.Capdu

/-!
# Model of the reader management of the PC/SC wrapper

`src/pcsc.c`: setting up and releasing the context, the list of readers, asking each reader for its
features, and waiting for a card.  The PC/SC service (`SCard...` functions) is the
environment: its answers are inputs, and what is asked of it is recorded as a trace.  Allocation is
taken to succeed.  Not modelled: trace output on standard error.
-/

set_option autoImplicit false

namespace Verif.PcscInit
open Verif Verif.Pcsc

/-! ## Trace -/

/-- The objects allocated by `pcsc_init` (pcsc.c:45-55). -/
inductive Block
  | ctx
  | strings
  | readers
  | states
deriving Repr, DecidableEq

/-- What happens at the boundary of the library. -/
inductive Event
  /-- `malloc`, `calloc` -/
  | alloc (b : Block)
  /-- `free` -/
  | free (b : Block)
  /-- `SCardEstablishContext` -/
  | establish
  /-- `SCardReleaseContext` -/
  | release
  /-- `SCardListReaders` -/
  | list
  /-- `SCardConnect(SCARD_SHARE_DIRECT)` to the reader of a name -/
  | connect (name : List Byte)
  /-- `SCardControl` with a handle and a control code -/
  | control (card code : Nat)
  /-- `SCardDisconnect(SCARD_LEAVE_CARD)` of a handle -/
  | disconnect (card : Nat)
deriving Repr, DecidableEq

/-! ## Environment -/

/-- Answer to `SCardControl`: the bytes received, or a failure and what it leaves in the length. -/
inductive Ctl
  | ok (data : List Byte)
  | fail (len : Nat)
deriving Repr, DecidableEq

/-- What a reader answers. -/
structure ReaderSvc where
  /-- the handle, `none` for failure -/
  connect : Option Nat
  /-- what a failing `SCardConnect` writes to the handle, `none` when it writes nothing -/
  failHandle : Option Nat
  /-- feature request -/
  features : Ctl
  /-- IFD PIN properties -/
  pin : Ctl
  /-- IFD display properties -/
  display : Ctl
  /-- TLV properties -/
  props : Ctl

/-- What the service answers to `pcsc_init`. -/
structure Svc where
  /-- `SCardEstablishContext` succeeds -/
  establish : Bool
  /-- first `SCardListReaders`: size of the list, `none` for failure -/
  size : Option Nat
  /-- second `SCardListReaders`: the bytes written, `none` for failure -/
  list : Option (List Byte)
  /-- the readers by position -/
  reader : Nat → ReaderSvc

/-! ## Features -/

/-- `struct pcsc_reader_features_t` (pcsc.c:57-74).  The arrays hold 264 (`PCSC_MAX_BUFFER_SIZE`), 4, 4
and 264 bytes. -/
structure Feat where
  /-- `buf` -/
  buf : List Byte
  /-- `buf_len` -/
  bufLen : Nat
  /-- `pin_properties` -/
  pin : List Byte
  /-- `pin_properties_len` -/
  pinLen : Nat
  /-- `display_properties` -/
  display : List Byte
  /-- `display_properties_len` -/
  displayLen : Nat
  /-- `properties` -/
  props : List Byte
  /-- `properties_len` -/
  propsLen : Nat
deriving Repr, DecidableEq

/-- After `memset` of the readers (pcsc.c:146). -/
def Feat.zero : Feat :=
  ⟨List.replicate 264 0, 0, List.replicate 4 0, 0, List.replicate 4 0, 0, List.replicate 264 0, 0⟩

/-- `SCardControl` into an array: success, array and length. -/
def Ctl.into : Ctl → List Byte → C (Bool × List Byte × Nat)
  | .ok data, arr => do
    let arr ← wrs arr 0 data
    .ok (true, arr, data.length)
  | .fail len, arr => .ok (false, arr, len)

/-- `CM_IOCTL_GET_FEATURE_REQUEST` (pcsc_compat.h:38-40) with the control codes of PCSC-Lite. -/
def featureRequest : Nat := 0x42000000 + 3400

/-- The TLV properties and the end of `pcsc_reader_populate_features` (pcsc.c:297-322): result,
features and requests. -/
def askProps (s : ReaderSvc) (card : Nat) (f : Feat) : C (Int × Feat × List Event) := do
  match ← getFeature f.buf f.bufLen 0x12 with
  | none => .ok (0, f, [])
  | some code => do
    let (ok, arr, len) ← s.props.into f.props
    let f := { f with props := arr, propsLen := len }
    .ok (if ok then 0 else -13, f, [.control card code])

/-- The display properties and what follows (pcsc.c:271-322). -/
def askDisplay (s : ReaderSvc) (card : Nat) (f : Feat) : C (Int × Feat × List Event) := do
  match ← getFeature f.buf f.bufLen 0x11 with
  | none => askProps s card f
  | some code => do
    let (ok, arr, len) ← s.display.into f.display
    let f := { f with display := arr, displayLen := len }
    if ¬ ok then .ok (-10, f, [.control card code])
    else if len ≠ 4 then .ok (-11, { f with displayLen := 0 }, [.control card code])
    else do
      let (r, f, e) ← askProps s card f
      .ok (r, f, .control card code :: e)

/-- The PIN properties and what follows (pcsc.c:245-322). -/
def askPin (s : ReaderSvc) (card : Nat) (f : Feat) : C (Int × Feat × List Event) := do
  match ← getFeature f.buf f.bufLen 0x0A with
  | none => askDisplay s card f
  | some code => do
    let (ok, arr, len) ← s.pin.into f.pin
    let f := { f with pin := arr, pinLen := len }
    if ¬ ok then .ok (-7, f, [.control card code])
    else if len ≠ 4 then .ok (-8, { f with pinLen := 0 }, [.control card code])
    else do
      let (r, f, e) ← askDisplay s card f
      .ok (r, f, .control card code :: e)

/-- The feature request and what follows (pcsc.c:204-322). -/
def askFeatures (s : ReaderSvc) (card : Nat) (f : Feat) : C (Int × Feat × List Event) := do
  let (ok, arr, len) ← s.features.into f.buf
  let f := { f with buf := arr, bufLen := len }
  if ¬ ok then .ok (-3, f, [.control card featureRequest])
  else do
    let (r, len) ← checkFeatures f.buf f.bufLen
    let f := { f with bufLen := len }
    if r < 0 then .ok (r, f, [.control card featureRequest])
    else do
      let (r, f, e) ← askPin s card f
      .ok (r, f, .control card featureRequest :: e)

/-- `pcsc_reader_populate_features` (pcsc.c:177-336) for the reader of a name; `card` is the content of
the uninitialised handle, which is disconnected even when connecting failed. -/
def populate (s : ReaderSvc) (card : Nat) (name : List Byte) : C (Int × Feat × List Event) :=
  match s.connect with
  | none => .ok (-2, .zero, [.connect name, .disconnect (s.failHandle.getD card)])
  | some card => do
    let (r, f, e) ← askFeatures s card .zero
    .ok (r, f, .connect name :: e ++ [.disconnect card])

/-- The features as `Pcsc.getProperty` sees them. -/
def Feat.view (f : Feat) : Features :=
  ⟨f.props, f.propsLen,
   if f.pinLen = 0 then none else some (f.pin.getD 0 0, f.pin.getD 1 0),
   if f.displayLen = 0 then none else
     some ((f.display.getD 0 0, f.display.getD 1 0), (f.display.getD 2 0, f.display.getD 3 0))⟩

/-! ## Context -/

/-- `struct pcsc_reader_t` (pcsc.c:76-94) as far as `pcsc_init` fills it; `name` points into the reader
strings. -/
structure Rdr where
  /-- `name` -/
  name : Nat
  /-- `features` -/
  feat : Feat
deriving Repr, DecidableEq

/-- `struct pcsc_t` (pcsc.c:45-55); `count` and the readers with their states, `none` before their
allocation.  Each state is `dwCurrentState`. -/
structure Ctx where
  /-- `reader_strings` -/
  strings : Option (List Byte)
  /-- `readers` -/
  readers : Option (List Rdr)
  /-- `reader_states` -/
  states : Option (List Nat)
deriving Repr, DecidableEq

/-- `pcsc_release` (pcsc.c:366-400): new value of `*ctx` and what happens. -/
def release : Option Ctx → Option Ctx × List Event
  | none => (none, [])
  | some c => (none, .release ::
      (if c.strings.isSome then [.free .strings] else []) ++
      (if c.readers.isSome then [.free .readers] else []) ++
      (if c.states.isSome then [.free .states] else []) ++ [.free .ctx])

/-- Counting loop (pcsc.c:135-141) from offset `off`: the offsets of the names. -/
def names (strings : List Byte) : Nat → Nat → C (List Nat)
  | 0, _ => .error .nonTerm
  | fuel + 1, off => do
    let b ← rd strings off
    if b = 0 then .ok []
    else do
      let rest ← suffix strings off
      let n ← App.strlen rest
      let more ← names strings fuel (off + n + 1)
      .ok (off :: more)

/-- Populating loop (pcsc.c:167-170): the readers from position `i` and what happens. -/
def populateAll (s : Svc) (card : Nat) (strings : List Byte) : Nat → List Nat → C (List Rdr × List Event)
  | _, [] => .ok ([], [])
  | i, off :: offs => do
    let rest ← suffix strings off
    let name ← Capdu.cstr rest
    let (_, f, e) ← populate (s.reader i) card name
    let (rs, es) ← populateAll s card strings (i + 1) offs
    .ok (⟨off, f⟩ :: rs, e ++ es)

/-- `SCARD_STATE_UNAWARE`, `SCARD_STATE_IGNORE`, `SCARD_STATE_EMPTY` and `SCARD_STATE_PRESENT`. -/
def stUnaware : Nat := 0x0000
/-- See `stUnaware`. -/
def stIgnore : Nat := 0x0001
/-- See `stUnaware`. -/
def stEmpty : Nat := 0x0010
/-- See `stUnaware`. -/
def stPresent : Nat := 0x0020

/-- `pcsc_init` (pcsc.c:101-175): result, context and what happens.  `mem` is the content of freshly
allocated memory by size, `card` that of the uninitialised handle.  The second pass over the names
(pcsc.c:147-152) computes the same offsets and is not repeated here. -/
def init (s : Svc) (mem : Nat → List Byte) (card : Nat) : C (Int × Option Ctx × List Event) :=
  let fail (c : Ctx) (e : List Event) : C (Int × Option Ctx × List Event) :=
    .ok (-1, (release (some c)).1, e ++ (release (some c)).2)
  if ¬ s.establish then fail ⟨none, none, none⟩ [.alloc .ctx, .establish]
  else
    match s.size with
    | none => fail ⟨none, none, none⟩ [.alloc .ctx, .establish, .list]
    | some n =>
      match s.list with
      | none => fail ⟨some (mem n), none, none⟩ [.alloc .ctx, .establish, .list, .alloc .strings, .list]
      | some bytes => do
        let strings ← wrs (mem n) 0 bytes
        let offs ← names strings (n + 1) 0
        let (rs, e) ← populateAll s card strings 0 offs
        .ok (0, some ⟨some strings, some rs, some (rs.map fun _ => stUnaware)⟩,
          [.alloc .ctx, .establish, .list, .alloc .strings, .list, .alloc .readers, .alloc .states] ++ e)

/-- `pcsc_get_reader_count` (pcsc.c:402-412); `none` is NULL. -/
def count : Option Ctx → Nat
  | none => 0
  | some c => (c.readers.getD []).length

/-- `pcsc_get_reader` (pcsc.c:414-428). -/
def getReader : Option Ctx → Nat → Option Rdr
  | none, _ => none
  | some c, idx => if idx ≥ (c.readers.getD []).length then none else (c.readers.getD [])[idx]?

/-- `pcsc_reader_get_name` (pcsc.c:430-440): the C string. -/
def getName (c : Ctx) (r : Rdr) : C (List Byte) := do
  let rest ← suffix (c.strings.getD []) r.name
  Capdu.cstr rest

/-! ## Waiting -/

/-- Answer to `SCardGetStatusChange`: the event states by reader, a timeout, or failure. -/
inductive Change
  | states (l : List Nat)
  | timeout
  | fail
deriving Repr, DecidableEq

/-- `PCSC_READER_ANY` (pcsc.h:80). -/
def readerAny : Nat := 0xFFFFFFFF

/-- Preparation of the reader states (pcsc.c:610-616) for `n` readers. -/
def watch (n idx : Nat) : List Nat :=
  (List.range n).map fun i => if idx = readerAny ∨ idx = i then stEmpty else stIgnore

/-- Search for the first reader with a card (pcsc.c:635-640). -/
def firstPresent : List Nat → Nat → Option Nat
  | [], _ => none
  | st :: l, i => if st &&& stPresent ≠ 0 then some i else firstPresent l (i + 1)

/-- `pcsc_wait_for_card` (pcsc.c:599-645): result, `*idx` and context.  `svc` answers for the states
passed to it.  `*idx` is a `size_t` of 64 bits. -/
def waitForCard (svc : List Nat → Change) (c : Ctx) (idx : Nat) : Int × Nat × Ctx :=
  let st := watch (c.readers.getD []).length idx
  let c := { c with states := some st }
  match svc st with
  | .timeout => (1, idx, c)
  | .fail => (-1, idx, c)
  | .states l =>
    match firstPresent l 0 with
    | some i => (0, i, c)
    | none => (1, 2 ^ 64 - 1, c)

/-- `pcsc_reader_get_state` (pcsc.c:565-597): result and `*state`; `svc` is the event state, `none` for
failure.  `*state` is an `unsigned int`, the event state a `DWORD` of 64 bits. -/
def getState (svc : Option Nat) (state : Nat) : Int × Nat :=
  match svc with
  | none => (-1, state)
  | some s => (0, s % 2 ^ 32)

end Verif.PcscInit
