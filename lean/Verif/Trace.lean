import Verif.Emv
import Verif.Ttl
import Verif.Print

/-!
# Model of the debug events of `src/emv_ttl.c`, `src/emv_tal.c` and `src/emv.c` (lines 334-806)

Each function of `Ttl.lean`, `Tal.lean` and `Emv.lean` again, now with the calls of the macros
`emv_debug_error`, `emv_debug_info`, `emv_debug_info_data`, `emv_debug_info_tlv`,
`emv_debug_apdu`, `emv_debug_capdu`, `emv_debug_ctpdu`, `emv_debug_rtpdu` and `emv_debug_rapdu`
(emv_debug.h:131-220) between the messages exchanged with the card.  Events of level TRACE
(`emv_debug_trace_msg`, `emv_debug_trace_data`), which show lines of source and addresses, and
the events of `emv_atr_parse` (see `TraceAtr.lean`) are left out.  `EMV_DEBUG_ENABLED` is always defined
(src/CMakeLists.txt:294).  Which events reach the application is `PrintCard.delivered`; the texts
here are shorter than the 1024 bytes of `PrintCard.eventText`.
-/

set_option autoImplicit false

namespace Verif.Trace
open Verif Ber TlvParse App Fields Tal

/-- An event: source, level and type (emv_debug.h:31-60), text and data. -/
structure Event where
  source : Nat
  level : Nat
  kind : Nat
  text : List Byte
  data : List Byte
  deriving DecidableEq, Repr

/-- `emv_debug_error` (emv_debug.h:131). -/
def error (source : Nat) (text : List Byte) : Event := ⟨source, 1, 1, text, []⟩

/-- `emv_debug_info` (emv_debug.h:138). -/
def info (source : Nat) (text : List Byte) : Event := ⟨source, 2, 1, text, []⟩

/-- `emv_debug_info_data` (emv_debug.h:147). -/
def infoData (source : Nat) (text data : List Byte) : Event := ⟨source, 2, 2, text, data⟩

/-- `emv_debug_info_tlv` (emv_debug.h:156). -/
def infoTlv (source : Nat) (text data : List Byte) : Event := ⟨source, 2, 3, text, data⟩

/-- `emv_debug_apdu` (emv_debug.h:184). -/
def apdu (text : List Byte) : Event := ⟨1, 3, 1, text, []⟩

/-- `emv_debug_capdu` (emv_debug.h:191). -/
def capduEv (data : List Byte) : Event := ⟨1, 3, 5, txt!"C-APDU", data⟩

/-- `emv_debug_rapdu` (emv_debug.h:198). -/
def rapduEv (data : List Byte) : Event := ⟨1, 3, 6, txt!"R-APDU", data⟩

/-- `emv_debug_ctpdu` (emv_debug.h:213). -/
def ctpduEv (data : List Byte) : Event := ⟨1, 3, 7, txt!"C-TPDU", data⟩

/-- `emv_debug_rtpdu` (emv_debug.h:220). -/
def rtpduEv (data : List Byte) : Event := ⟨1, 3, 8, txt!"R-TPDU", data⟩

/-! ## The exchange loop -/

namespace Ttl
open Verif.Ttl Apdu

/-- What happens during an exchange: an event, a transmission, an answer of the card reader. -/
inductive Entry where
  | said (e : Event)
  | sent (tx : List Byte)
  | got (r : Resp)
  deriving DecidableEq, Repr

/-- `Ttl.proceed` (emv_ttl.c:376-421) with its event. -/
def proceed (capdu : List Byte) (st : St) (sw1 sw2 : Byte) : Next → C (List Entry × (St ⊕ Done))
  | .getResponse =>
    .ok ([], .inl { st with hdr := [0x00, 0xC0, 0x00, 0x00, getResponseLe sw1 sw2], tx := .header })
  | .updateLe => do
    let h ← txFour capdu st
    .ok ([], .inl { st with hdr := h ++ [sw2], tx := .header })
  | .finish => do
    let rbuf ← wrs st.rbuf st.rpos [UInt8.ofNat (st.sw / 256), UInt8.ofNat (st.sw % 256)]
    let r ← slice rbuf 0 (st.rpos + 2)
    .ok ([.said (rapduEv r)], .inr ⟨0, rbuf, st.rpos + 2, st.sw⟩)

/-- `Ttl.statusResp` (emv_ttl.c:254-421) with its event. -/
def statusResp (capdu : List Byte) (mode : Mode) (c : Case) (st : St) (ins : Byte)
    (rx : List Byte) (sw1 sw2 : Byte) : C (List Entry × (St ⊕ Done)) :=
  match status c st.sw rx.length sw1 sw2 with
  | .error code => .ok ([], .inr (st.fail code))
  | .ok (sw, nxt) => do
    match ← takeData mode c { st with sw := sw } ins rx with
    | .inr d => .ok ([], .inr d)
    | .inl st' => proceed capdu st' sw1 sw2 nxt

/-- A step of an exchange without event. -/
def quiet (x : C (St ⊕ Done)) : C (List Entry × (St ⊕ Done)) := do
  let r ← x
  .ok ([], r)

/-- `Ttl.step` (emv_ttl.c:132-421) with its events. -/
def step (capdu : List Byte) (mode : Mode) (c : Case) (st : St) :
    Resp → C (List Entry × (St ⊕ Done))
  | .fail r =>
    .ok (if r = 0 then [.said (error 1 txt!"No response")] else [],
      .inr (st.fail (if r = 0 then 1 else r)))
  | .data rx =>
    if rx.length = 0 then .ok ([.said (error 1 txt!"No response")], .inr (st.fail 1))
    else do
      let (l, r) ← (do
        let ins ← txIns capdu st
        if rx.length = 1 then
          let pb ← rd rx 0
          if c = .c1 then .ok ([], .inr ⟨2, st.rbuf, 0, st.sw⟩)
          else quiet (procByte capdu c st ins pb)
        else do
          let sw1 ← rd rx (rx.length - 2)
          let sw2 ← rd rx (rx.length - 1)
          if c = .c1 then
            if rx.length ≠ 2 then .ok ([], .inr ⟨2, st.rbuf, 0, st.sw⟩)
            else do
              let rbuf ← wrs st.rbuf 0 rx
              let r ← slice rbuf 0 2
              .ok ([.said (rapduEv r)], .inr ⟨0, rbuf, 2, sw1.toNat * 256 + sw2.toNat⟩)
          else statusResp capdu mode c st ins rx sw1 sw2 : C (List Entry × (St ⊕ Done)))
      .ok (.said (rtpduEv rx) :: l, r)

/-- The loop (emv_ttl.c:122-423) with its events. -/
def run (capdu : List Byte) (mode : Mode) (c : Case) : List Resp → St → C (List Entry × Outcome)
  | [], st => do
    let t ← txBytes capdu st
    .ok ([.said (ctpduEv t), .sent t], .pending)
  | r :: rs, st => do
    let t ← txBytes capdu st
    match ← step capdu mode c st r with
    | (l, .inr d) => .ok (.said (ctpduEv t) :: .sent t :: .got r :: l, .done d rs)
    | (l, .inl st') => do
      let (l', o) ← run capdu mode c rs st'
      .ok (.said (ctpduEv t) :: .sent t :: .got r :: (l ++ l'), o)

/-- The text for the case of the C-APDU (emv_ttl.c:74-77). -/
def caseText (c : Case) : List Byte :=
  if c = .c1 then txt!"APDU case 1"
  else if c = .c2S then txt!"APDU case 2S"
  else if c = .c3S then txt!"APDU case 3S"
  else txt!"APDU case 4S"

/-- `emv_ttl_trx` (emv_ttl.c:32-424) with its events. -/
def trx (mode : Mode) (capdu rbuf : List Byte) (script : List Resp) : C (List Entry × Outcome) := do
  if capdu.length = 0 ∨ rbuf.length = 0 then
    return ([], .done ⟨-1, rbuf, rbuf.length, 0⟩ script)
  match ← apduCase capdu with
  | .ok c =>
    if c = .c1 ∨ c = .c2S ∨ c = .c3S ∨ c = .c4S then
      let st ← initSt capdu mode c rbuf
      let (l, o) ← run capdu mode c script st
      .ok (.said (capduEv capdu) :: .said (apdu (caseText c)) :: l, o)
    else
      .ok ([.said (capduEv capdu), .said (error 1 txt!"Unknown APDU case")],
        .done ⟨-2, rbuf, rbuf.length, 0⟩ script)
  | .error _ =>
    .ok ([.said (capduEv capdu), .said (error 1 txt!"Unknown APDU case")],
      .done ⟨-2, rbuf, rbuf.length, 0⟩ script)

end Ttl

/-! ## Runs with events -/

/-- What happens above the wrappers of `emv_ttl.c`: an event, or a command with its answer. -/
inductive Entry where
  | said (e : Event)
  | did (cmd : Cmd) (w : W)
  deriving DecidableEq, Repr

/-- A run with events: as `Tal.Run`. -/
abbrev Tr (α : Type) := List Entry × Out α

/-- End with a result. -/
def fin {α : Type} (a : α) (rest : List W) : C (Tr α) := .ok ([], .done a rest)

/-- Put events before a run. -/
def says {α : Type} (es : List Event) (x : C (Tr α)) : C (Tr α) := do
  let (l, o) ← x
  .ok (es.map Entry.said ++ l, o)

/-- Put an exchange before a run. -/
def did {α : Type} (cmd : Cmd) (w : W) (x : C (Tr α)) : C (Tr α) := do
  let (l, o) ← x
  .ok (.did cmd w :: l, o)

/-- Sequence two runs. -/
def andThen {α β : Type} (x : C (Tr α)) (f : α → List W → C (Tr β)) : C (Tr β) := do
  match ← x with
  | (l, .done a rest) => do
    let (l', o) ← f a rest
    .ok (l ++ l', o)
  | (l, .pending cmd) => .ok (l, .pending cmd)

/-- `Tal.send` for runs with events. -/
def send {α : Type} (refused : Bool) (cmd : Cmd) (script : List W)
    (k : W → List W → C (Tr α)) : C (Tr α) :=
  if refused then k ⟨-3, [], 0⟩ script
  else
    match script with
    | [] => .ok ([], .pending cmd)
    | w :: rest => did cmd w (k w rest)

/-- The four digits of `%04X` for a `uint16_t`. -/
def hex04 (n : Nat) : List Byte :=
  [Bits.hexDigit (n / 4096 % 16), Bits.hexDigit (n / 256 % 16), Bits.hexDigit (n / 16 % 16),
    Bits.hexDigit (n % 16)]

/-- `emv_debug_error("TTL failure")` (e.g. emv_tal.c:80). -/
def ttlFailure : Event := error 2 txt!"TTL failure"

/-- `emv_debug_error("Internal error")` (e.g. emv_tal.c:256). -/
def internal : Event := error 2 txt!"Internal error"

/-! ## Records -/

/-- The check of the record template with its events (emv_tal.c:811-847); `oda` is
`oda_record_invalid`. -/
def template (sfi : Byte) (data : List Byte) (oda : Bool) : C (List Event × Bool) :=
  if sfi.toNat ≥ 1 ∧ sfi.toNat ≤ 10 then do
    match ← decode data with
    | .ok _ t =>
      if t.tag ≠ 0x70 then
        .ok ([error 2 (txt!"Invalid record template tag 0x" ++ Print.hexU t.tag)], true)
      else if t.value.length + 3 < data.length then
        .ok ([error 2 (txt!"Invalid record template length " ++ Lists.decU t.value.length)], true)
      else
        .ok (if oda then []
          else [info 2 txt!"Record template content used for offline data authentication"], false)
    | _ => .ok ([error 2 txt!"Failed to parse record template"], true)
  else
    .ok (if oda then [] else [info 2 txt!"Record used verbatim for offline data authentication"],
      false)

/-- `Tal.record` (emv_tal.c:784-864) with its events. -/
def record (alloc : List Tlv → Tlv → Bool) (sfi : Byte) (data : List Byte) (oda : Bool)
    (list : List Tlv) : C (List Event × Rec) :=
  if data.length = 0 then .error .uninit
  else do
    let b ← rd data 0
    if b ≠ 0x70 then
      if sfi.toNat ≥ 1 ∧ sfi.toNat ≤ 10 then
        .ok ([error 2 (txt!"Invalid record for SFI " ++ Lists.decU sfi.toNat)], .stop (-10) list)
      else
        .ok ([error 2 txt!"Offline data authentication not possible due to invalid record"],
          .spoilt)
    else do
      let (es, bad) ← template sfi data oda
      if bad then .ok (es, .stop (-10) list)
      else do
        let (r, list) ← parse alloc data list
        if r < 0 then .ok (es ++ [internal], .stop (-1) list)
        else if r > 0 then
          .ok (es ++ [error 2 txt!"Failed to parse application data record"], .stop (-11) list)
        else .ok (es, .next list)

/-- `emv_debug_info("READ RECORD from SFI %u, record %u", ...)` (emv_tal.c:765). -/
def readEv (sfi rec : Byte) : Event :=
  info 2 (txt!"READ RECORD from SFI " ++ Lists.decU sfi.toNat ++ txt!", record " ++
    Lists.decU rec.toNat)

/-- `Tal.sfiLoop` (emv_tal.c:757-879) with its events. -/
def sfiLoop (alloc : List Tlv → Tlv → Bool) (sfi last : Byte) :
    List W → Byte → Bool → List Tlv → C (Tr (Int × List Tlv))
  | script, rec, oda, list =>
    if last.toNat < rec.toNat then fin (if oda then 14 else 0, list) script
    else says [readEv sfi rec] (
      if refusesSfi sfi then says [ttlFailure] (fin (-3, list) script)
      else
        match script with
        | [] => .ok ([], .pending (.readRecord sfi rec))
        | w :: rest => did (.readRecord sfi rec) w (
            if w.code ≠ 0 then says [ttlFailure] (fin (-3, list) rest)
            else if w.sw ≠ 0x9000 then
              says [error 2 txt!"Failed to READ RECORD"] (fin (-9, list) rest)
            else do
              match ← record alloc sfi w.data oda list with
              | (es, .stop code list) => says es (fin (code, list) rest)
              | (es, .spoilt) => says es (sfiLoop alloc sfi last rest (rec + 1) true list)
              | (es, .next list) => says es (sfiLoop alloc sfi last rest (rec + 1) oda list)))

/-- `Tal.readSfi` (emv_tal.c:743-879) with its events. -/
def readSfi (alloc : List Tlv → Tlv → Bool) (e : AflEntry) (list : List Tlv) (script : List W) :
    C (Tr (Int × List Tlv)) := sfiLoop alloc e.sfi e.last script e.first false list

/-- `Tal.aflLoop` (emv_tal.c:917-943) with its events. -/
def aflLoop (alloc : List Tlv → Tlv → Bool) :
    Nat → List Byte → Bool → List Tlv → List W → C (Tr (Int × List Tlv))
  | 0, _, _, _, _ => .error .nonTerm
  | fuel + 1, itr, oda, list, script => do
    let (itr', r) ← aflNext itr
    match r with
    | .eod => fin (if oda then 14 else 0, list) script
    | .err _ => says [error 2 txt!"AFL parse error"] (fin (-8, list) script)
    | .ok _ e => andThen (readSfi alloc e list script) (fun a rest =>
        if a.1 = 0 then aflLoop alloc fuel itr' oda a.2 rest
        else if a.1 = 14 then aflLoop alloc fuel itr' true a.2 rest
        else (fin a rest))

/-- `emv_tal_read_afl_records` (emv_tal.c:881-944) with its events. -/
def readAfl (alloc : List Tlv → Tlv → Bool) (afl : List Byte) (list : List Tlv)
    (script : List W) : C (Tr (Int × List Tlv)) :=
  if afl.length = 0 then fin (-2, list) script
  else
    let r := aflInit afl
    if r < 0 then says [internal] (fin (-1, list) script)
    else if r > 0 then says [error 2 txt!"Invalid AFL"] (fin (-8, list) script)
    else aflLoop alloc (afl.length + 1) afl false list script

/-! ## GET PROCESSING OPTIONS -/

/-- `Tal.gpoFields` (emv_tal.c:611-695) with its events. -/
def gpoFields (alloc : List Tlv → Tlv → Bool) (data : List Byte) :
    C (List Event × Except Int (List Tlv)) := do
  match ← decode data with
  | .eod => .ok ([error 2 txt!"Failed to parse GPO response"], .error (-6))
  | .err _ => .ok ([error 2 txt!"Failed to parse GPO response"], .error (-6))
  | .ok _ t =>
    if t.tag = 0x80 then
      if t.value.length < 6 ∨ (t.value.length - 2) % 4 ≠ 0 then
        .ok ([error 2 (txt!"Invalid GPO response format 1 length of " ++
          Lists.decU t.value.length)], .error (-6))
      else do
        let a ← slice t.value 0 2
        let f ← slice t.value 2 (t.value.length - 2)
        let es := [infoData 2 txt!"AIP" a, infoData 2 txt!"AFL" f]
        if !alloc [] ⟨0x82, 0, a⟩ then .ok (es ++ [internal], .error (-1))
        else if !alloc [⟨0x82, 0, a⟩] ⟨0x94, 0, f⟩ then .ok (es ++ [internal], .error (-1))
        else .ok (es, .ok [⟨0x82, 0, a⟩, ⟨0x94, 0, f⟩])
    else if t.tag = 0x77 then do
      let (r, l) ← parse alloc t.value []
      if r < 0 then .ok ([internal], .error (-1))
      else if r > 0 then
        .ok ([error 2 txt!"Failed to parse GPO response format 2"], .error (-6))
      else .ok ([], .ok l)
    else .ok ([], .ok [])

/-- `emv_debug_info_data("GET PROCESSING OPTIONS", data, data_len)` (emv_tal.c:580). -/
def gpoEv (data : Option (List Byte)) : Event :=
  infoData 2 txt!"GET PROCESSING OPTIONS" (data.getD [])

/-- `emv_tal_get_processing_options` (emv_tal.c:542-741) with its events. -/
def gpo (alloc : List Tlv → Tlv → Bool) (data : Option (List Byte)) (list : List Tlv)
    (script : List W) : C (Tr Gpo) :=
  if badGpo data then fin ⟨-2, list, .null, .null⟩ script
  else says [gpoEv data] (
    send (refusesGpo data) (.gpo data) script fun w rest =>
      if w.code ≠ 0 then says [ttlFailure] (fin ⟨-3, list, .null, .null⟩ rest)
      else if w.sw ≠ 0x9000 then
        if w.sw = 0x6985 then
          says [info 2 txt!"Conditions of use not satisfied"] (fin ⟨13, list, .null, .null⟩ rest)
        else
          says [error 2 (txt!"SW1SW2=0x" ++ hex04 w.sw)] (fin ⟨-5, list, .null, .null⟩ rest)
      else says [infoTlv 2 txt!"GPO response" w.data] (do
        match ← gpoFields alloc w.data with
        | (es, .error c) => says es (fin ⟨c, list, .null, .null⟩ rest)
        | (es, .ok l) => says es (
          match find l 0x82 with
          | none =>
            says [error 2 txt!"AIP not found in GPO response"] (fin ⟨-7, list, .null, .null⟩ rest)
          | some a =>
            match find l 0x94 with
            | none =>
              says [error 2 txt!"AFL not found in GPO response"]
                (fin ⟨-7, list, .dangling, .null⟩ rest)
            | some f => fin ⟨0, list ++ l, .field a, .field f⟩ rest)))

/-! ## Application selection -/

/-- `Tal.aefLoop` (emv_tal.c:263-294) with its events. -/
def aefLoop (pse supported : List Tlv) :
    Nat → List Byte → List App → C (List Event × List App)
  | 0, _, _ => .error .nonTerm
  | fuel + 1, itr, apps => do
    let (itr', r) ← itrNext itr
    match r with
    | .eod => .ok ([], apps)
    | .err _ => .ok ([], apps)
    | .ok _ t =>
      if t.tag ≠ 0x61 then do
        let (es, apps) ← aefLoop pse supported fuel itr' apps
        .ok (error 2 (txt!"Unexpected data element 0x" ++ Print.hexU t.tag ++
          txt!" in AEF template") :: es, apps)
      else do
        match ← createFromPse pse t.value with
        | none => do
          let (es, apps) ← aefLoop pse supported fuel itr' apps
          .ok (error 2 txt!"Invalid Application Template content" :: es, apps)
        | some app =>
          if ← App.isSupported app.aid.value supported then do
            let (es, apps) ← aefLoop pse supported fuel itr' (apps ++ [app])
            .ok (info 2 txt!"Application is supported" :: es, apps)
          else do
            let (es, apps) ← aefLoop pse supported fuel itr' apps
            .ok (info 2 txt!"Application is not supported" :: es, apps)

/-- `emv_tal_parse_aef_record` (emv_tal.c:218-295) with its events.  The message for a record
without template shows `tlv.tag` of the uninitialised local variable `tlv` (emv_tal.c:229, 243),
whose content is the parameter `junk`. -/
def aefRecord (junk : Nat) (pse supported : List Tlv) (data : List Byte) (apps : List App) :
    C (List Event × Int × List App) := do
  match ← decode data with
  | .eod => .ok ([error 2 txt!"Failed to parse PSE AEF record"], 7, apps)
  | .err _ => .ok ([error 2 txt!"Failed to parse PSE AEF record"], 7, apps)
  | .ok _ t =>
    if t.tag ≠ 0x70 then
      .ok ([error 2 (txt!"Unexpected data element 0x" ++ Print.hexU junk ++
        txt!" in PSE AEF record")], 8, apps)
    else do
      let (es, apps) ← aefLoop pse supported (t.value.length + 1) t.value apps
      .ok (es, 0, apps)

/-- `Tal.pseLoop` (emv_tal.c:144-201) with its events.  `junk` is the content of the
uninitialised variable for each record, told apart by the number of answers still to come. -/
def pseLoop (junk : Nat → Nat) (pse supported : List Tlv) (sfi : Byte) :
    List W → Byte → List App → C (Tr (Int × List App))
  | script, rec, apps =>
    if refusesSfi sfi then says [ttlFailure] (fin (-3, []) script)
    else
      match script with
      | [] => .ok ([], .pending (.readRecord sfi rec))
      | w :: rest => did (.readRecord sfi rec) w (
          if w.code ≠ 0 then says [ttlFailure] (fin (-3, []) rest)
          else if w.sw = 0x6A83 then says [info 2 txt!"No more PSE records"] (fin (0, apps) rest)
          else if w.sw ≠ 0x9000 then
            says [error 2 txt!"Unexpected PSE record error"]
              (pseLoop junk pse supported sfi rest (rec + 1) apps)
          else says [infoTlv 2 txt!"AEF" w.data] (do
            let (es, r, apps) ← aefRecord (junk rest.length) pse supported w.data apps
            if r < 0 then
              says (es ++ [error 2 txt!"Unknown PSE AEF record error"]) (fin (r, []) rest)
            else if r > 0 then
              says (es ++ [error 2 txt!"Invalid PSE AEF record"])
                (pseLoop junk pse supported sfi rest (rec + 1) apps)
            else says es (pseLoop junk pse supported sfi rest (rec + 1) apps)))

/-- `emv_tal_read_pse` (emv_tal.c:51-216) with its events. -/
def readPse (junk : Nat → Nat) (supported : List Tlv) (apps : List App) (script : List W) :
    C (Tr (Int × List App)) :=
  says [info 2 (txt!"SELECT " ++ pseName)] (
  send (refusesName pseName) (.select false pseName) script fun w rest =>
    if w.code ≠ 0 then says [ttlFailure] (fin (-3, apps) rest)
    else if w.sw = 0x6A81 then
      says [error 2 txt!"Card blocked or SELECT not supported"] (fin (-4, apps) rest)
    else if w.sw = 0x6A82 then says [info 2 txt!"PSE not found"] (fin (1, apps) rest)
    else if w.sw = 0x6283 then says [error 2 txt!"PSE is blocked"] (fin (2, apps) rest)
    else if w.sw ≠ 0x9000 then says [error 2 txt!"Failed to SELECT PSE"] (fin (3, apps) rest)
    else says [infoTlv 2 txt!"FCI" w.data] (do
      let (r, pse) ← parse allocOk w.data []
      if r < 0 then says [error 2 txt!"Failed to parse FCI"] (fin (4, []) rest)
      else
        match find pse 0x88 with
        | none => says [error 2 txt!"Failed to find SFI for PSE records"] (fin (5, []) rest)
        | some t =>
          if t.value.length ≠ 1 then
            says [error 2 txt!"Invalid SFI length or value for PSE records"] (fin (6, []) rest)
          else do
            let sfi ← rd t.value 0
            pseLoop junk pse supported sfi rest 1 apps))

/-- The announcements of SELECT (emv_tal.c:324, 345, 475). -/
def selectEv (first : Bool) (aid : List Byte) : Event :=
  infoData 2 (if first then txt!"SELECT application" else txt!"SELECT next application") aid

/-- `emv_tal_find_supported_apps` (emv_tal.c:297-452) with its events. -/
def findApps : List W → List Tlv → Bool → List App → C (Tr (Int × List App))
  | script, [], _, apps => fin (0, apps) script
  | script, aid :: aids, first, apps => says [selectEv first aid.value] (
    if refusesName aid.value then says [ttlFailure] (fin (-3, apps) script)
    else
      match script with
      | [] => .ok ([], .pending (.select (!first) aid.value))
      | w :: rest => did (.select (!first) aid.value) w (
          if w.code ≠ 0 then says [ttlFailure] (fin (-3, apps) rest)
          else if first ∧ w.sw = 0x6A81 then
            says [error 2 txt!"Card blocked or SELECT not supported"] (fin (-4, apps) rest)
          else if w.sw ≠ 0x9000 ∧ w.sw ≠ 0x6283 then
            says [if w.sw = 0x6A82 then info 2 txt!"Application not found"
              else error 2 (txt!"Unexpected SELECT status 0x" ++ hex04 w.sw)]
              (findApps rest aids true apps)
          else says [infoTlv 2 txt!"FCI" w.data] (do
            match ← createFromFci w.data with
            | none => findApps rest aids true apps
            | some app =>
              let apps' := if w.sw = 0x9000 then apps ++ [app] else apps
              if aid.value.length = app.aid.value.length then
                says [if w.sw = 0x9000 then info 2 txt!"Application is supported: exact match"
                  else info 2 txt!"Application is blocked"] (findApps rest aids true apps')
              else if aid.flags = 1 then
                says [if w.sw = 0x9000 then info 2 txt!"Application is supported: partial match"
                  else info 2 txt!"Application is blocked"]
                  (findApps rest (aid :: aids) false apps')
              else
                says [info 2 txt!"Application is not supported: partial match not allowed"]
                  (findApps rest aids true apps))))

/-- `emv_tal_select_app` (emv_tal.c:454-540) with its events.  The text for another status ends
with a line feed (emv_tal.c:506). -/
def selectApp (aid : List Byte) (script : List W) : C (Tr (Int × Option App)) :=
  if aid.length < 5 ∨ aid.length > 16 then fin (-2, none) script
  else says [selectEv true aid] (
    send (refusesName aid) (.select false aid) script fun w rest =>
      if w.code ≠ 0 then says [ttlFailure] (fin (-3, none) rest)
      else if w.sw ≠ 0x9000 then
        if w.sw = 0x6A81 then
          says [error 2 txt!"Card blocked or SELECT not supported"] (fin (-4, none) rest)
        else if w.sw = 0x6A82 then says [info 2 txt!"Application not found"] (fin (9, none) rest)
        else if w.sw = 0x6283 then says [info 2 txt!"Application is blocked"] (fin (10, none) rest)
        else says [error 2 (txt!"SW1SW2=0x" ++ hex04 w.sw ++ [0x0A])] (fin (11, none) rest)
      else says [infoTlv 2 txt!"FCI" w.data] (do
        match ← createFromFci w.data with
        | none => says [error 2 txt!"Failed to parse application FCI"] (fin (12, none) rest)
        | some app =>
          if app.aid.value.length ≠ aid.length then
            says [error 2 txt!"DF Name mismatch"] (fin (11, none) rest)
          else do
            let a ← slice app.aid.value 0 aid.length
            if a != aid then says [error 2 txt!"DF Name mismatch"] (fin (11, none) rest)
            else fin (0, some app) rest))

/-! ## The kernel -/

/-- `Emv.finish` (emv.c:379-396) with its event. -/
def finish (apps : List App) (script : List W) : C (Tr (Int × List App)) :=
  if apps.isEmpty then says [info 4 txt!"Candidate list empty"] (fin (3, apps) script)
  else fin (0, Emv.sortApps apps) script

/-- `emv_build_candidate_list` (emv.c:334-396) with its events. -/
def build (junk : Nat → Nat) (supported : List Tlv) (apps : List App) (script : List W) :
    C (Tr (Int × List App)) :=
  says [info 4 txt!"SELECT Payment System Environment (PSE)"] (
  andThen (readPse junk supported apps script) fun a rest =>
    if a.1 < 0 then
      says [error 4 txt!"Failed to read PSE; terminate session"]
        (fin (if a.1 = -4 then 2 else 1, a.2) rest)
    else
      says (if a.1 > 0 then [info 4 txt!"Failed to process PSE; continue session"] else []) (
        if a.2.isEmpty then
          says [info 4 txt!"Discover list of AIDs"] (
          andThen (findApps rest supported true a.2) fun a rest =>
            if a.1 ≠ 0 then
              says [error 4 txt!"Failed to find supported AIDs; terminate session"]
                (fin (if a.1 = -4 then 2 else 1, a.2) rest)
            else finish a.2 rest)
        else finish a.2 rest))

/-- The label `try_again` (emv.c:471-480) with its event. -/
def tryAgain (ctx : Emv.Ctx) (apps : List App) (script : List W) :
    C (Tr (Int × List App × Emv.Ctx)) :=
  if apps.isEmpty then says [info 4 txt!"Candidate list empty"] (fin (3, apps, ctx) script)
  else fin (4, apps, ctx) script

/-- `emv_select_application` (emv.c:398-488) with its events. -/
def select (ctx : Emv.Ctx) (apps : List App) (index : Nat) (script : List W) :
    C (Tr (Int × List App × Emv.Ctx)) :=
  let ctx := { ctx with selected := none }
  match apps[index]? with
  | none => says [error 4 txt!"Invalid parameter"] (fin (-2, apps, ctx) script)
  | some a =>
    let apps := apps.eraseIdx index
    if a.aid.value.length > 16 then tryAgain ctx apps script
    else
      andThen (selectApp a.aid.value script) fun x rest =>
        if x.1 < 0 then
          says [error 4 txt!"Error during application selection; terminate session"]
            (fin (if x.1 = -4 then 2 else 1, apps, ctx) rest)
        else if x.1 > 0 then
          says [info 4 txt!"Failed to select application; continue session"]
            (tryAgain ctx apps rest)
        else fin (0, apps, { ctx with selected := x.2.map fun a => ⟨a, .own⟩ }) rest

/-- `Emv.gpoData` (emv.c:596-657) with its events. -/
def gpoData (buf : List Byte) (sources : List (List Tlv)) (tlvs : List Tlv) :
    C (List Event × Except Int (Option (List Byte))) :=
  match find tlvs 0x9F38 with
  | none => .ok ([], .ok none)
  | some pdol => do
    let found := infoData 4 txt!"PDOL found" pdol.value
    let n ← Dol.computeDataLength pdol.value
    if n < 0 then .ok ([found, error 4 txt!"Failed to compute PDOL data length"], .error 1)
    else if n > 255 - 3 then
      .ok ([found, error 4 (txt!"Invalid PDOL data length of " ++ Lists.decU n.toNat)], .error 1)
    else do
      let buf ← wr buf 0 0x83
      let (buf, off) ← (if n < 0x80 then do
          let buf ← wr buf 1 (UInt8.ofNat n.toNat)
          .ok (buf, 2)
        else do
          let buf ← wr buf 1 0x81
          let buf ← wr buf 2 (UInt8.ofNat n.toNat)
          .ok (buf, 3) : C (List Byte × Nat))
      let tail ← suffix buf off
      let (r, tail, len) ← Dol.buildData pdol.value sources tail
      if r ≠ 0 then .ok ([found, error 4 txt!"Failed to build PDOL data"], .error (-1))
      else do
        let d ← slice (buf.take off ++ tail) 0 (len + off)
        .ok ([found], .ok (some d))

/-- `emv_initiate_application_processing` (emv.c:490-709) with its events. -/
def initiate (alloc : List Tlv → Tlv → Bool) (buf : List Byte) (ctx : Emv.Ctx) (pos : Byte)
    (script : List W) : C (Tr (Int × Emv.Ctx)) :=
  match ctx.selected with
  | none => says [error 4 txt!"Invalid parameter"] (fin (-2, ctx) script)
  | some _ =>
    let ctx := { ctx.clearIcc with terminal := [] }
    match ctx.selected with
    | none => .error .uaf
    | some s =>
      if !alloc [] ⟨0x9F39, 0, [pos]⟩ then
        says [error 4 txt!"Internal error"] (fin (-1, ctx) script)
      else if s.aid = .freed then .error .uaf
      else
        let (ok, terminal) := Emv.pushAll alloc [] (Emv.terminalData pos s.app.aid.value)
        let ctx := { ctx with terminal := terminal }
        if !ok then says [error 4 txt!"Internal error"] (fin (-1, ctx) script)
        else do
          match ← gpoData buf [ctx.params, ctx.config, ctx.terminal] s.app.tlvs with
          | (es, .error code) => says es (fin (code, ctx) script)
          | (es, .ok data) => says es (
            andThen (gpo alloc data [] script) fun g rest =>
              if g.code < 0 then
                says [error 4 txt!"Error during application processing; terminate session"]
                  (fin (if g.code = -1 ∨ g.code = -2 then -1 else 1, ctx) rest)
              else if g.code > 0 then
                says [info 4 txt!"Failed to initiate application processing"]
                  (fin (if g.code = 13 then 5 else 1, ctx) rest)
              else fin (0, { ctx with icc := s.app.tlvs ++ g.list,
                                      selected := some ⟨{ s.app with tlvs := [] }, .icc⟩ }) rest)

/-- `emv_read_application_data` (emv.c:711-806) with its events. -/
def readData (alloc : List Tlv → Tlv → Bool) (ctx : Emv.Ctx) (script : List W) :
    C (Tr (Int × Emv.Ctx)) :=
  match find ctx.icc 0x94 with
  | none => says [error 4 txt!"AFL not found"] (fin (1, ctx) script)
  | some afl =>
    andThen (readAfl alloc afl.value [] script) fun a rest =>
      if a.1 < 0 then
        says [error 4 txt!"Error reading application data"]
          (fin (if a.1 = -1 ∨ a.1 = -2 then -1 else 1, ctx) rest)
      else if a.1 ≠ 0 ∧ a.1 ≠ 14 then
        says [error 4 txt!"Failed to read application data"] (fin (1, ctx) rest)
      else if Emv.hasDup a.2 then
        says [error 4 txt!"Application data contains redundant fields"] (fin (1, ctx) rest)
      else if !Emv.complete a.2 then
        says [error 4 txt!"Mandatory field not found"] (fin (1, ctx) rest)
      else fin (0, { ctx with icc := ctx.icc ++ a.2 }) rest

end Verif.Trace
