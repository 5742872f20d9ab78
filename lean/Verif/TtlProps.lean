import Verif.TtlSafe

/-! # Properties of the Terminal Transport Layer: C23, C24, C25, C26, C27 -/

set_option autoImplicit false

namespace Verif.Ttl
open Verif Apdu

/-! ## C23 and C25 -/

/-- **C23**.  For every command, reader mode and card behaviour, with a response buffer of at
least two bytes, the exchange never writes outside that buffer (no out-of-bounds write occurs;
the buffer keeps its size) and the reported length never exceeds its capacity. -/
theorem C23_response_buffer (mode : Mode) (capdu rbuf : List Byte) (script : List Resp)
    (h : 2 ≤ rbuf.length) :
    trx mode capdu rbuf script ≠ .error .oobWrite ∧
    ∀ log d rest, trx mode capdu rbuf script = .ok (log, .done d rest) →
      d.rbuf.length = rbuf.length ∧ d.rlen ≤ rbuf.length := by
  have hp := trx_post mode capdu rbuf script h
  constructor
  · intro he
    rw [he] at hp
    cases hp
  · intro log d rest he
    rw [he] at hp
    obtain ⟨u, -, -, h1 | ⟨c, -, h2⟩⟩ := hp
    · exact ⟨by rw [h1.2.2.1], by rw [h1.2.2.2]; exact Nat.le_refl _⟩
    · exact ⟨h2.len, h2.rlen⟩

/-- Two rounds of 61xx fill a 6-byte buffer exactly. -/
example : trx .apdu [0x00, 0xB2, 1, 0x0C, 0] (List.replicate 6 0)
    [.data [1, 2, 0x61, 2], .data [3, 4, 0x90, 0x00]] =
    .ok ([[0x00, 0xB2, 1, 0x0C, 0], [0, 0xC0, 0, 0, 2]],
      .done ⟨0, [1, 2, 3, 4, 0x90, 0x00], 6, 0x9000⟩ []) := by decide

/-- With a one-byte buffer even a plain case 1 answer overflows, so the bound of two is
needed. -/
theorem C23_two_needed :
    trx .apdu [0x00, 0x44, 0, 0] [0] [.data [0x90, 0x00]] = .error .oobWrite := by decide

/-- **C25**.  Whenever an exchange succeeds, the answers it used form a prefix of what the card
sent, one per transmission; the response is the data of all of them in order followed by the
reported status; `*sw1sw2` is that status; and for commands without response data (case 1
and 3) there is no data. -/
theorem C25_exchange (mode : Mode) (capdu rbuf : List Byte) (script : List Resp)
    (h : 2 ≤ rbuf.length) (log : List (List Byte)) (d : Done) (rest : List Resp)
    (he : trx mode capdu rbuf script = .ok (log, .done d rest)) (h0 : d.code = 0) :
    ∃ used s1 s2, script = used ++ rest ∧ log.length = used.length ∧
      reported used = some (s1, s2) ∧ d.sw = s1.toNat * 256 + s2.toNat ∧
      d.rbuf.take d.rlen = allData mode used ++ [s1, s2] ∧
      (apduCase capdu = .ok (.ok .c1) ∨ apduCase capdu = .ok (.ok .c3S) →
        allData mode used = []) := by
  have hp := trx_post mode capdu rbuf script h
  rw [he] at hp
  obtain ⟨u, e1, e2, h1 | ⟨c, hc, h2⟩⟩ := hp
  · omega
  · obtain ⟨s1, s2, f1, f2, -, f4, f5⟩ := h2.ok h0
    refine ⟨u, s1, s2, e1, e2, f1, f2, f4, ?_⟩
    intro hcase
    apply f5
    rcases hcase with e | e
    · rw [e] at hc; cases hc; rfl
    · rw [e] at hc; cases hc; rfl

/-- A warning before the response data is the status that is reported (case 4). -/
example : trx .apdu [0x00, 0xA4, 4, 0, 1, 7, 0] (List.replicate 8 0)
    [.data [0x62, 0x83], .data [1, 2, 0x90, 0x00]] =
    .ok ([[0x00, 0xA4, 4, 0, 1, 7, 0], [0, 0xC0, 0, 0, 0]],
      .done ⟨0, [1, 2, 0x62, 0x83, 0, 0, 0, 0], 4, 0x6283⟩ []) := by decide
example : reported [.data [0x62, 0x83], .data [1, 2, 0x90, 0x00]] = some (0x62, 0x83) := by decide
example : reported [.data [0x61, 2], .data [1, 2, 0x90, 0x00]] = some (0x90, 0x00) := by decide

/-! ## C24 -/

/-- **C24, partial.**  In APDU mode, for commands without data (case 1 and 2), and in TPDU
mode against a card that sends no single procedure bytes: for every card behaviour nothing is
read out of bounds, and what is transmitted is the command (its 5-byte header in TPDU mode)
followed only by GET RESPONSE commands and repetitions of the command header with a new length.
Missing: TPDU exchanges with procedure bytes, see `C24_ack_partial` and the counterexamples. -/
theorem C24_headers_partial (mode : Mode) (capdu rbuf : List Byte) (script : List Resp)
    (h : 2 ≤ rbuf.length)
    (hd : mode = .apdu ∨ capdu.length ≤ 5 ∨ ∀ r ∈ script, ¬ OneByte r) :
    ∃ log o, trx mode capdu rbuf script = .ok (log, o) ∧
      (log = [] ∨ ∃ rest, log = firstTx mode capdu :: rest ∧
        ∀ t ∈ rest, GetResponse t ∨ Reissue capdu t) := by
  rcases trx_headers (rbuf := rbuf) hd with ⟨e, he⟩ | hr
  · exact absurd he (apduCase_safe _ _)
  · exact hr.ok h

example : trx .tpdu [0x00, 0xB2, 1, 0x0C, 0] (List.replicate 8 0)
    [.data [0x6C, 2], .data [0xB2, 7, 8, 0x90, 0x00]] =
    .ok ([[0x00, 0xB2, 1, 0x0C, 0], [0x00, 0xB2, 1, 0x0C, 2]],
      .done ⟨0, [7, 8, 0x90, 0x00, 0, 0, 0, 0], 4, 0x9000⟩ []) := by decide

/-- **C24, partial.**  The regular TPDU exchange of a command with at least two bytes after Lc:
the card acknowledges the header with INS and then answers anything, as long as the very next
answer is not 6Cxx.  Nothing is read out of bounds, and what is transmitted is the header, the
command data exactly, and then only GET RESPONSE commands and repetitions of the header.
Missing: cards that ask for the data byte by byte or repeat the acknowledgement, and data of a
single byte; these are false (below). -/
theorem C24_ack_partial (capdu : List Byte) (cla ins p1 p2 : Byte) (data tail rbuf : List Byte)
    (w : WithData capdu cla ins p1 p2 data tail) (h2 : 2 ≤ data.length + tail.length)
    (h : 2 ≤ rbuf.length) (script : List Resp)
    (h6c : ∀ r rs, script = r :: rs → ¬ Is6C r) :
    ∃ log o, trx .tpdu capdu rbuf (.data [ins] :: script) = .ok (log, o) ∧
      ∃ rest, log = [cla, ins, p1, p2, UInt8.ofNat data.length] :: rest ∧
        (rest = [] ∨ ∃ more, rest = data :: more ∧ ∀ t ∈ more, GetResponse t ∨ Reissue capdu t) := by
  have hc := w.case
  have hl : capdu.length = 5 + data.length + tail.length := by rw [w.bytes]; simp; omega
  have hn : (UInt8.ofNat data.length).toNat = data.length := by
    simp
    exact w.short
  have hfirst : firstTx .tpdu capdu = [cla, ins, p1, p2, UInt8.ofNat data.length] := by
    rw [w.bytes]; rfl
  have hdata : slice capdu 5 data.length = .ok data := by
    rw [slice_eq (by omega), w.bytes]
    simp
  apply RunOk.ok h (Q := fun log => ∃ rest, log = [cla, ins, p1, p2, UInt8.ofNat data.length] :: rest ∧
        (rest = [] ∨ ∃ more, rest = data :: more ∧ ∀ t ∈ more, GetResponse t ∨ Reissue capdu t))
  unfold trx
  rw [if_neg (by omega), hc]
  simp only [bind_ok]
  rw [if_pos (by split <;> simp)]
  obtain ⟨st, e1, e2, e3, e4, e5, e6⟩ := initSt_first (mode := .tpdu) (rbuf := rbuf) hc
  obtain ⟨e6, e7⟩ := e6 rfl
  rw [e1]
  simp only [bind_ok]
  have hoff : st.dataOff = some 5 := by
    rw [e5, if_pos]
    refine ⟨rfl, ?_⟩
    split <;> simp
  have hins : txIns capdu st = .ok ins := by
    unfold txIns
    rw [e7]
    simp only
    rw [e6, hfirst]
    rfl
  have hlc : rd st.hdr 4 = .ok (UInt8.ofNat data.length) := by
    rw [e6, hfirst]
    rfl
  generalize hcc : (if tail = [] then Case.c3S else Case.c4S) = c
  have hne : c ≠ .c1 := by
    rw [← hcc]; split <;> simp
  unfold run
  rw [e2, hfirst]
  simp only [bind_ok]
  unfold step
  simp only
  rw [if_neg (by simp), hins]
  simp only [bind_ok]
  rw [if_pos (by rfl), rd_cons_zero]
  simp only [bind_ok]
  rw [if_neg hne]
  unfold procByte
  split
  · unfold St.failByte wrs
    split
    · exact ⟨[], rfl, Or.inl rfl⟩
    · exact fun h => by cases h
  · rw [if_pos rfl, hoff, hlc]
    simp only [bind_ok, hn]
    have := run_first (mode := .tpdu) (c := c) (capdu := capdu) (by omega)
      { st with tx := .capdu 5 data.length, dataOff := none } data (by exact hdata)
      (⟨_, rd_eq (by omega)⟩) script (Or.inl rfl) (Or.inr h6c)
    generalize run capdu .tpdu c script _ = x at this
    match x, this with
    | .error e, this => exact this
    | .ok (log, o), ⟨more, m1, m2⟩ => exact ⟨log, rfl, Or.inr ⟨more, m1, m2⟩⟩

/-- The hypotheses are met by a SELECT in TPDU mode. -/
example : WithData [0x00, 0xA4, 4, 0, 2, 0xA0, 0x01, 0] 0x00 0xA4 4 0 [0xA0, 0x01] [0] :=
  ⟨rfl, by simp, by decide, by decide⟩
example : trx .tpdu [0x00, 0xA4, 4, 0, 2, 0xA0, 0x01, 0] (List.replicate 4 0)
    [.data [0xA4], .data [0x61, 2], .data [0xC0, 5, 6, 0x90, 0x00]] =
    .ok ([[0x00, 0xA4, 4, 0, 2], [0xA0, 0x01], [0, 0xC0, 0, 0, 2]],
      .done ⟨0, [5, 6, 0x90, 0x00], 4, 0x9000⟩ []) := by decide

/-- **C24 is false**: TPDU mode, one byte of command data, a card that behaves by the book.
After sending the data byte the code looks for the INS byte one past the data: out of bounds
(emv_ttl.c:175-178 with tx_buf pointing at the data). -/
theorem C24_overread :
    trx .tpdu [0x00, 0xDA, 0, 0, 1, 0x55] [0, 0] [.data [0xDA], .data [0x90, 0x00]] =
      .error .oobRead := by decide

/-- **C24 is false**: a card that answers 61FF to the SELECT header and then acknowledges the
GET RESPONSE makes the terminal send 255 bytes from its command buffer: out of bounds. -/
theorem C24_leak :
    trx .tpdu [0x00, 0xA4, 4, 0, 2, 0xA0, 0x01, 0] (List.replicate 4 0)
      [.data [0x61, 0xFF], .data [0xC0]] = .error .oobRead := by decide

/-- **C24 is false**: single-byte requests.  The card asks for one byte (complement of INS);
the procedure byte after that is compared with the second command data byte instead of INS. -/
theorem C24_wrong_ins :
    trx .tpdu [0x00, 0xA4, 4, 0, 2, 0xA0, 0x01, 0] (List.replicate 4 0)
      [.data [0x5B], .data [0x5B]] =
    .ok ([[0x00, 0xA4, 4, 0, 2], [0xA0]], .done ⟨6, [0x5B, 0, 0, 0], 1, 0⟩ []) := by decide

/-- **C24 is false**: 6Cxx after the command data was sent repeats data bytes as a header. -/
theorem C24_data_as_header :
    trx .tpdu [0x00, 0xA4, 4, 0, 4, 0xA0, 0, 0, 1, 0] (List.replicate 4 0)
      [.data [0xA4], .data [0x6C, 2]] =
    .ok ([[0x00, 0xA4, 4, 0, 4], [0xA0, 0, 0, 1], [0xA0, 0, 0, 1, 2]], .pending) := by decide

/-! ## C26 -/

/-- **C26, partial.**  If the exchange still waits after using up a card script, then apart
from 61xx and 6Cxx answers the script has at most one answer more than the command has bytes
after its header.  So every exchange ends unless the card keeps answering 61xx or 6Cxx.
Missing: a bound on those answers; there is none, see `C26_endless`. -/
theorem C26_terminates_partial (mode : Mode) (capdu rbuf : List Byte) (script : List Resp)
    (log : List (List Byte)) (h : trx mode capdu rbuf script = .ok (log, .pending)) :
    script.length ≤ script.countP wantsMore + 1 + (capdu.length - 5) := by
  unfold trx at h
  split at h
  · cases h
  · cases hc : apduCase capdu with
    | error e => rw [hc] at h; cases h
    | ok r =>
      rw [hc] at h
      simp only [bind_ok] at h
      cases r with
      | error code => cases h
      | ok c =>
        simp only at h
        split at h
        · rename_i hcc
          obtain ⟨h4, h1, h2, h3⟩ := apduCase_len hc
          obtain ⟨st, e1, -, -, -, e5, -⟩ := initSt_first (mode := mode) (rbuf := rbuf) hc
          rw [e1] at h
          simp only [bind_ok] at h
          have hb : OffOk capdu st := by
            intro o ho
            rw [e5] at ho
            split at ho
            · rename_i hm
              cases ho
              obtain ⟨lc, -, hz, l3, l4⟩ := h3 hm.2
              have : lc.toNat ≠ 0 := fun h => hz (UInt8.toNat_inj.mp h)
              rcases hm.2 with hm | hm
              · have := l3 hm; omega
              · have := l4 hm; omega
            · cases ho
          have := run_turns hcc script st hb (by
            intro hc12
            rw [e5, if_neg]
            rintro ⟨-, h⟩
            rcases hc12 with rfl | rfl <;> simp at h) log h
          have ht : turns capdu st ≤ 1 + (capdu.length - 5) := by
            unfold turns
            rw [e5]
            by_cases g : mode = .tpdu ∧ (c = .c3S ∨ c = .c4S)
            · rw [if_pos g]; simp only; split <;> omega
            · rw [if_neg g]; simp only; split <;> omega
          omega
        · cases h

/-- The hypothesis is met: after `61 02` the code waits for the answer to GET RESPONSE. -/
example : trx .apdu [0x00, 0xB2, 1, 0x0C, 0] (List.replicate 8 0) [.data [0x61, 2]] =
    .ok ([[0x00, 0xB2, 1, 0x0C, 0], [0, 0xC0, 0, 0, 2]], .pending) := by decide

/-- **C26 is false**: a card that answers `61 00` for ever keeps a READ RECORD busy for ever
(any number of answers, any buffer). -/
theorem C26_endless (rbuf : List Byte) (h : rbuf ≠ []) (n : Nat) :
    ∃ log, trx .apdu [0x00, 0xB2, 1, 0x0C, 0] rbuf (List.replicate n (.data [0x61, 0x00])) =
      .ok (log, .pending) := by
  have hl : rbuf.length ≠ 0 := fun h' => h (List.eq_nil_of_length_eq_zero h')
  unfold trx
  rw [if_neg (by simp [h])]
  have hc : apduCase [0x00, 0xB2, 1, 0x0C, 0] = .ok (.ok .c2S) := by decide
  rw [hc]
  simp only [bind_ok]
  rw [if_pos (by simp)]
  cases n with
  | zero => exact ⟨_, rfl⟩
  | succ n =>
    have e2 : ∀ rl, step [0x00, 0xB2, 1, 0x0C, 0] .apdu .c2S
        ⟨[], .capdu 0 5, none, rbuf, 0, rl, 0⟩ (.data [0x61, 0x00]) =
        .ok (.inl ⟨[0x00, 0xC0, 0x00, 0x00, 0x00], .header, none, rbuf, 0, rl, 0⟩) := fun _ => rfl
    have e1 : ∀ rl, txBytes [0x00, 0xB2, 1, 0x0C, 0] ⟨[], .capdu 0 5, none, rbuf, 0, rl, 0⟩ =
        .ok [0x00, 0xB2, 1, 0x0C, 0] := fun _ => rfl
    refine ⟨[0x00, 0xB2, 1, 0x0C, 0] :: List.replicate (n + 1) [0x00, 0xC0, 0x00, 0x00, 0x00], ?_⟩
    rw [List.replicate_succ]
    unfold run
    have e0 : initSt [0x00, 0xB2, 1, 0x0C, 0] .apdu .c2S rbuf =
        .ok ⟨[], .capdu 0 5, none, rbuf, 0, rbuf.length, 0⟩ := rfl
    rw [e0, bind_ok, e1, bind_ok, e2, bind_ok]
    simp only
    rw [run_endless, bind_ok]

/-! ## C27 -/

/-- **C27** for SELECT (first or next occurrence): a name outside 5..16 bytes or a response
buffer under 256 bytes is refused without talking to the card; otherwise the exchange is that
of exactly the command `00 A4 04 P2 Lc name 00`, a case 4 command, and the caller gets the
response without its status. -/
theorem C27_select (p2 : Byte) (mode : Mode) (df : List Byte) (cap : Nat) (script : List Resp) :
    (cap < 256 ∨ df.length < 5 ∨ 16 < df.length →
      ∃ code < 0, select p2 mode df cap script = .ok ([], .done ⟨code, [], 0⟩ script)) ∧
    (256 ≤ cap → 5 ≤ df.length → df.length ≤ 16 →
      apduCase ([0x00, 0xA4, 0x04, p2, UInt8.ofNat df.length] ++ df ++ [0x00]) = .ok (.ok .c4S) ∧
      select p2 mode df cap script =
        stripped (trx mode ([0x00, 0xA4, 0x04, p2, UInt8.ofNat df.length] ++ df ++ [0x00])
          (List.replicate 258 0) script)) := by
  constructor
  · intro h
    unfold select
    by_cases h1 : cap = 0
    · exact ⟨-1, by decide, by rw [if_pos h1]; rfl⟩
    · by_cases h2 : cap < 256
      · exact ⟨-2, by decide, by rw [if_neg h1, if_pos h2]; rfl⟩
      · exact ⟨-3, by decide, by rw [if_neg h1, if_neg h2, if_pos (by omega)]; rfl⟩
  · intro h1 h2 h3
    constructor
    · have w : WithData ([0x00, 0xA4, 0x04, p2, UInt8.ofNat df.length] ++ df ++ [0x00])
          0x00 0xA4 0x04 p2 df [0x00] :=
        ⟨rfl, by intro h; rw [h] at h2; simp at h2, by omega, by simp⟩
      simpa using w.case
    · unfold select
      rw [if_neg (by omega), if_neg (by omega), if_neg (by omega), build4S_eq _ _ _ _ _ (by omega),
        bind_ok, exchange_eq _ _ _ _ _ _ h1]

/-- **C27** for READ RECORD: SFI outside 1..30 or a small buffer is refused; otherwise the
command is exactly `00 B2 rec (SFI*8+4) 00`, case 2. -/
theorem C27_read_record (mode : Mode) (sfi rec : Byte) (cap : Nat) (script : List Resp) :
    (cap < 256 ∨ sfi.toNat < 1 ∨ 30 < sfi.toNat →
      ∃ code < 0, readRecord mode sfi rec cap script = .ok ([], .done ⟨code, [], 0⟩ script)) ∧
    (256 ≤ cap → 1 ≤ sfi.toNat → sfi.toNat ≤ 30 →
      apduCase [0x00, 0xB2, rec, UInt8.ofNat (sfi.toNat * 8 + 4), 0x00] = .ok (.ok .c2S) ∧
      readRecord mode sfi rec cap script =
        stripped (trx mode [0x00, 0xB2, rec, UInt8.ofNat (sfi.toNat * 8 + 4), 0x00]
          (List.replicate 258 0) script)) := by
  constructor
  · intro h
    unfold readRecord
    by_cases h1 : cap = 0
    · exact ⟨-1, by decide, by rw [if_pos h1]; rfl⟩
    · by_cases h2 : cap < 256
      · exact ⟨-2, by decide, by rw [if_neg h1, if_pos h2]; rfl⟩
      · exact ⟨-3, by decide, by rw [if_neg h1, if_neg h2, if_pos (by omega)]; rfl⟩
  · intro h1 h2 h3
    constructor
    · unfold apduCase
      simp
    · have e : ∀ s : Byte, s.toNat ≤ 30 → (s <<< 3) ||| 0x04 = UInt8.ofNat (s.toNat * 8 + 4) := by
        decide +kernel
      unfold readRecord
      rw [if_neg (by omega), if_neg (by omega), if_neg (by omega), exchange_eq _ _ _ _ _ _ h1,
        e sfi h3]

/-- **C27** for GET PROCESSING OPTIONS: data that is not 2..255 bytes starting with 83, or a
small buffer, is refused; otherwise the command is exactly `80 A8 00 00 Lc data 00`, with
`83 00` in place of absent data, case 4. -/
theorem C27_gpo (mode : Mode) (data : Option (List Byte)) (cap : Nat) (script : List Resp) :
    (cap < 256 ∨ (∃ d, data = some d ∧ (d.length < 2 ∨ 255 < d.length ∨ d.head? ≠ some 0x83)) →
      ∃ code < 0, gpo mode data cap script = .ok ([], .done ⟨code, [], 0⟩ script)) ∧
    (∀ d, 256 ≤ cap → data.getD [0x83, 0x00] = d → 2 ≤ d.length → d.length ≤ 255 →
      d.head? = some 0x83 →
      apduCase ([0x80, 0xA8, 0x00, 0x00, UInt8.ofNat d.length] ++ d ++ [0x00]) = .ok (.ok .c4S) ∧
      gpo mode data cap script =
        stripped (trx mode ([0x80, 0xA8, 0x00, 0x00, UInt8.ofNat d.length] ++ d ++ [0x00])
          (List.replicate 258 0) script)) := by
  constructor
  · intro h
    unfold gpo
    by_cases h1 : cap = 0
    · exact ⟨-1, by decide, by rw [if_pos h1]; rfl⟩
    · by_cases h2 : cap < 256
      · exact ⟨-2, by decide, by rw [if_neg h1, if_pos h2]; rfl⟩
      · obtain h | ⟨d, rfl, h⟩ := h
        · omega
        · by_cases h3 : d.length < 2 ∨ d.length > 255
          · exact ⟨-3, by decide, by rw [if_neg h1, if_neg h2]; simp only; rw [if_pos h3]; rfl⟩
          · refine ⟨-4, by decide, ?_⟩
            rw [if_neg h1, if_neg h2]
            simp only
            rw [if_neg h3]
            match d, h3, h with
            | [], h3, _ => exact absurd (by simp) h3
            | b :: l, h3, h =>
              rw [rd_cons_zero, bind_ok, if_pos]
              · rfl
              · intro hb
                rw [hb] at h
                simp at h h3
                omega
  · rintro d h1 hd h2 h3 h4
    constructor
    · have w : WithData ([0x80, 0xA8, 0x00, 0x00, UInt8.ofNat d.length] ++ d ++ [0x00])
          0x80 0xA8 0x00 0x00 d [0x00] :=
        ⟨rfl, by intro h; rw [h] at h2; simp at h2, by omega, by simp⟩
      simpa using w.case
    · unfold gpo
      rw [if_neg (by omega), if_neg (by omega)]
      cases data with
      | none =>
        simp only [Option.getD_none] at hd
        subst hd
        simp only
        rw [build4S_eq _ _ _ _ _ (by simp), bind_ok, exchange_eq _ _ _ _ _ _ h1]
      | some d' =>
        simp only [Option.getD_some] at hd
        subst hd
        simp only
        rw [if_neg (by omega)]
        match d', h2, h3, h4 with
        | b :: l, h2, h3, h4 =>
          simp only [List.head?_cons, Option.some.injEq] at h4
          rw [rd_cons_zero, bind_ok, if_neg (by simp [h4]), build4S_eq _ _ _ _ _ h3, bind_ok,
            exchange_eq _ _ _ _ _ _ h1]

/-- What a successful wrapper call delivers: all response data of the exchange in order and
the reported status; at most 256 bytes. -/
theorem C27_delivers (mode : Mode) (capdu : List Byte) (script : List Resp)
    (log : List (List Byte)) (w : WDone) (rest : List Resp)
    (h : stripped (trx mode capdu (List.replicate 258 0) script) = .ok (log, .done w rest))
    (h0 : w.code = 0) :
    ∃ used s1 s2, script = used ++ rest ∧ log.length = used.length ∧
      w.data = allData mode used ∧ w.data.length ≤ 256 ∧
      reported used = some (s1, s2) ∧ w.sw = s1.toNat * 256 + s2.toNat := by
  have hx := C25_exchange mode capdu (List.replicate 258 0) script two_le_258
  have hb := C23_response_buffer mode capdu (List.replicate 258 0) script two_le_258
  generalize trx mode capdu (List.replicate 258 0) script = x at h hx hb
  match x, h, hx, hb with
  | .ok (log', .done d rest'), h, hx, hb =>
    simp only [stripped] at h
    split at h
    · rename_i hd
      cases h
      obtain ⟨used, s1, s2, e1, e2, e3, e4, e5, -⟩ := hx _ _ _ rfl hd
      obtain ⟨b1, b2⟩ := hb.2 _ _ _ rfl
      simp only [List.length_replicate] at b1 b2
      have hlen : d.rlen = (allData mode used).length + 2 := by
        have := congrArg List.length e5
        simp at this
        omega
      refine ⟨used, s1, s2, e1, e2, ?_, ?_, e3, e4⟩
      · show d.rbuf.take (d.rlen - 2) = _
        have e : d.rlen - 2 = (allData mode used).length := by omega
        rw [e]
        have := congrArg (List.take (allData mode used).length) e5
        rw [List.take_take, List.take_left, Nat.min_eq_left (by omega)] at this
        exact this
      · show (d.rbuf.take (d.rlen - 2)).length ≤ 256
        simp
        omega
    · rename_i hd
      cases h
      exact absurd h0 hd

set_option maxRecDepth 4000 in
example : select 0x00 .apdu [0xA0, 0, 0, 0, 3] 256 [.data [0x6F, 0, 0x90, 0x00]] =
    .ok ([[0x00, 0xA4, 4, 0, 5, 0xA0, 0, 0, 0, 3, 0]], .done ⟨0, [0x6F, 0], 0x9000⟩ []) := by
  decide
set_option maxRecDepth 4000 in
example : readRecord .apdu 1 2 256 [.data [0x70, 0, 0x90, 0x00]] =
    .ok ([[0x00, 0xB2, 2, 0x0C, 0]], .done ⟨0, [0x70, 0], 0x9000⟩ []) := by decide
set_option maxRecDepth 4000 in
example : gpo .apdu none 256 [.data [0x80, 0, 0x90, 0x00]] =
    .ok ([[0x80, 0xA8, 0, 0, 2, 0x83, 0, 0]], .done ⟨0, [0x80, 0], 0x9000⟩ []) := by decide

end Verif.Ttl
