import Verif.TraceReason
import Verif.TraceTtl

/-! # Properties of the debug events (C132) -/

set_option autoImplicit false

namespace Verif.Trace
open Verif Ber TlvParse App Fields Tal

/-! ## The exchange with the card reader -/

/-- The names of the four short cases of ISO 7816-3. -/
def caseName : Apdu.Case → List Byte
  | .c1 => txt!"APDU case 1"
  | .c2S => txt!"APDU case 2S"
  | .c3S => txt!"APDU case 3S"
  | .c4S => txt!"APDU case 4S"
  | _ => []

/-- An answer of the reader and what is said of it: an error of the transport layer, or its bytes as a
response TPDU. -/
def answer : Verif.Ttl.Resp → List Ttl.Entry
  | .fail 0 => [.said ⟨1, 1, 1, txt!"No response", []⟩]
  | .fail _ => []
  | .data [] => [.said ⟨1, 1, 1, txt!"No response", []⟩]
  | .data rx => [.said ⟨1, 3, 8, txt!"R-TPDU", rx⟩]

/-- What is said before the bytes `t` are sent, and the sending: source, level and type of a command TPDU. -/
def transmission (t : List Byte) : List Ttl.Entry := [.said ⟨1, 3, 7, txt!"C-TPDU", t⟩, .sent t]

/-- The last entries: the response if one is handed to the caller, or the transmission that waits for its
answer. -/
def lastly (log : List (List Byte)) : Verif.Ttl.Outcome → List Ttl.Entry
  | .done d _ => if d.code = 0 then [.said ⟨1, 3, 6, txt!"R-APDU", d.rbuf.take d.rlen⟩] else []
  | .pending => log.getLast?.elim [] transmission

theorem exchange_events (mode : Verif.Ttl.Mode) (capdu rbuf : List Byte)
    (script : List Verif.Ttl.Resp) (c : Apdu.Case) (log : List (List Byte))
    (o : Verif.Ttl.Outcome) (hc : capdu ≠ []) (hr : rbuf ≠ [])
    (hcase : Apdu.apduCase capdu = .ok (.ok c)) (hs : c = .c1 ∨ c = .c2S ∨ c = .c3S ∨ c = .c4S)
    (h : Verif.Ttl.trx mode capdu rbuf script = .ok (log, o)) :
    Ttl.trx mode capdu rbuf script =
      .ok (.said (capduEv capdu) :: .said (apdu (caseName c)) ::
        ((log.zip script).flatMap Ttl.turn ++ Ttl.close log o), o) := by
  have h0 : ¬ (capdu.length = 0 ∨ rbuf.length = 0) := by
    simp [hc, hr]
  unfold Verif.Ttl.trx at h
  unfold Ttl.trx
  rw [if_neg h0] at h ⊢
  simp only [hcase, bind_ok, if_pos hs] at h ⊢
  cases hi : Verif.Ttl.initSt capdu mode c rbuf with
  | error e => rw [hi] at h; cases h
  | ok st =>
    rw [hi] at h
    simp only [bind_ok] at h ⊢
    rw [(Ttl.run_eq capdu mode c script st).1, h]
    rcases hs with rfl | rfl | rfl | rfl <;> rfl

/-- The events of `emv_ttl_trx` for any command of one of the short cases and any card reader:
first the command and its case; then for every transmission the bytes about to be sent, and after
the answer its bytes ("No response" if it is empty, nothing if the reader fails); at the end the
response handed to the caller, exactly if the call returns 0.  `log` are the transmissions of the
function without events, so the events do not change what it does. -/
theorem C132_exchange (mode : Verif.Ttl.Mode) (capdu rbuf : List Byte)
    (script : List Verif.Ttl.Resp) (c : Apdu.Case) (log : List (List Byte))
    (o : Verif.Ttl.Outcome) (hc : capdu ≠ []) (hr : rbuf ≠ [])
    (hcase : Apdu.apduCase capdu = .ok (.ok c)) (hs : c = .c1 ∨ c = .c2S ∨ c = .c3S ∨ c = .c4S)
    (h : Verif.Ttl.trx mode capdu rbuf script = .ok (log, o)) :
    Ttl.trx mode capdu rbuf script =
      .ok (.said ⟨1, 3, 5, txt!"C-APDU", capdu⟩ :: .said ⟨1, 3, 1, caseName c, []⟩ ::
        ((log.zip script).flatMap (fun p => transmission p.1 ++ Ttl.Entry.got p.2 :: answer p.2) ++ lastly log o), o) := by
  rw [exchange_events mode capdu rbuf script c log o hc hr hcase hs h]
  have h1 : (fun p : List Byte × Verif.Ttl.Resp => transmission p.1 ++ Ttl.Entry.got p.2 :: answer p.2) = Ttl.turn := by
    funext p
    obtain ⟨t, r⟩ := p
    cases r with
    | fail n =>
      by_cases h : n = 0
      · subst h; rfl
      · simp only [Ttl.turn, Ttl.heard, if_neg h, answer]; rfl
    | data rx => cases rx <;> rfl
  have h2 : lastly log o = Ttl.close log o := by
    cases o with
    | done d rest => rfl
    | pending => simp only [lastly, Ttl.close]; cases log.getLast? <;> rfl
  rw [h1, h2]; rfl

/-- A command of no short case: the command, and that its case is not known. -/
theorem C132_refused (mode : Verif.Ttl.Mode) (capdu rbuf : List Byte)
    (script : List Verif.Ttl.Resp) (hc : capdu ≠ []) (hr : rbuf ≠ [])
    (h : Verif.Ttl.trx mode capdu rbuf script =
      .ok ([], .done ⟨-2, rbuf, rbuf.length, 0⟩ script)) :
    Ttl.trx mode capdu rbuf script =
      .ok ([.said ⟨1, 3, 5, txt!"C-APDU", capdu⟩, .said ⟨1, 1, 1, txt!"Unknown APDU case", []⟩],
        .done ⟨-2, rbuf, rbuf.length, 0⟩ script) := by
  have h0 : ¬ (capdu.length = 0 ∨ rbuf.length = 0) := by
    simp [hc, hr]
  unfold Verif.Ttl.trx at h
  unfold Ttl.trx
  rw [if_neg h0] at h ⊢
  cases hcase : Apdu.apduCase capdu with
  | error e => rw [hcase] at h; cases h
  | ok q =>
    simp only [hcase, bind_ok] at h ⊢
    cases q with
    | error e => rfl
    | ok c =>
      simp only at h ⊢
      split at h
      · cases hi : Verif.Ttl.initSt capdu mode c rbuf with
        | error e => rw [hi] at h; cases h
        | ok st =>
          rw [hi] at h
          exact absurd rfl ((Ttl.run_eq capdu mode c script st).2 _ _ h)
      · rw [if_neg ‹_›]; rfl

example : Ttl.trx .tpdu [0x00, 0xB2, 0x01, 0x0C, 0x00] (List.replicate 258 0)
    [.data [0x6C, 0x03], .data [0xB2, 0x70, 0x01, 0x5A, 0x90, 0x00]] =
    .ok ([.said (capduEv [0x00, 0xB2, 0x01, 0x0C, 0x00]), .said (apdu txt!"APDU case 2S"),
      .said (ctpduEv [0x00, 0xB2, 0x01, 0x0C, 0x00]), .sent [0x00, 0xB2, 0x01, 0x0C, 0x00],
      .got (.data [0x6C, 0x03]), .said (rtpduEv [0x6C, 0x03]),
      .said (ctpduEv [0x00, 0xB2, 0x01, 0x0C, 0x03]), .sent [0x00, 0xB2, 0x01, 0x0C, 0x03],
      .got (.data [0xB2, 0x70, 0x01, 0x5A, 0x90, 0x00]),
      .said (rtpduEv [0xB2, 0x70, 0x01, 0x5A, 0x90, 0x00]),
      .said (rapduEv [0x70, 0x01, 0x5A, 0x90, 0x00])],
      .done ⟨0, [0x70, 0x01, 0x5A, 0x90, 0x00] ++ List.replicate 253 0, 5, 0x9000⟩ []) := by
  decide +kernel

/-! ## The calls of the kernel -/

/-- The events do not change what the calls do: leaving them out gives the calls of `Emv`. -/
theorem C132_same (junk : Nat → Nat) (supported : List Tlv) (ctx : Emv.Ctx) (apps : List App)
    (index : Nat) (alloc : List Tlv → Tlv → Bool) (buf : List Byte) (pos : Byte)
    (script : List W) :
    erase (build junk supported apps script) = Emv.build supported apps script ∧
    erase (select ctx apps index script) = Emv.select ctx apps index script ∧
    erase (initiate alloc buf ctx pos script) = Emv.initiate alloc buf ctx pos script ∧
    erase (readData alloc ctx script) = Emv.readData alloc ctx script :=
  ⟨erase_build _ _ _ _, erase_select _ _ _ _, erase_initiate _ _ _ _ _, erase_readData _ _ _⟩

/-- Every command sent or waiting for its answer comes directly after the event naming it.
With `dir`, records may be read without. -/
def Announced {α : Type} (dir : Bool) (l : List Entry) (o : Out α) : Prop :=
  (∀ pre cmd w post, l = pre ++ Entry.did cmd w :: post →
    (dir = true ∧ ∃ sfi rec, cmd = .readRecord sfi rec) ∨
      ∃ pre' e, pre = pre' ++ [Entry.said e] ∧ Announces e cmd) ∧
  (∀ cmd, o = .pending cmd →
    (dir = true ∧ ∃ sfi rec, cmd = .readRecord sfi rec) ∨
      ∃ pre' e, l = pre' ++ [Entry.said e] ∧ Announces e cmd)

/-- Every event with encoded data (type TLV) comes directly after the answer whose data it
shows. -/
def Shown (l : List Entry) : Prop :=
  ∀ pre e post, l = pre ++ Entry.said e :: post → e.kind = 3 →
    ∃ pre' cmd w, pre = pre' ++ [Entry.did cmd w] ∧ e.data = w.data ∧ w.code = 0 ∧
      (w.sw = 0x9000 ∨ w.sw = 0x6283)

theorem told {α : Type} {S : Event → Prop} {dir : Bool} {x : C (Tr α)} (h : Good S dir none x)
    {l : List Entry} {o : Out α} (e : x = .ok (l, o)) : Announced dir l o ∧ Shown l := by
  have hc := h l o e
  refine ⟨⟨fun pre cmd w post hl => ?_, fun cmd ho => ?_⟩, fun pre ev post hl hk => ?_⟩
  · rw [hl, List.append_assoc] at hc
    have := chain_split (pre := pre) hc
    simp only [Option.or_none] at this
    rcases this with h | ⟨ev, hp, ha⟩
    · exact Or.inl h
    · obtain ⟨pre', hp'⟩ := List.getLast?_eq_some_iff.mp hp
      exact Or.inr ⟨pre', ev, hp', ha⟩
  · subst ho
    have := chain_split (pre := l) hc
    simp only [Option.or_none] at this
    rcases this with h | ⟨ev, hp, ha⟩
    · exact Or.inl h
    · obtain ⟨pre', hp'⟩ := List.getLast?_eq_some_iff.mp hp
      exact Or.inr ⟨pre', ev, hp', ha⟩
  · rw [hl, List.append_assoc] at hc
    have := chain_split (pre := pre) hc
    simp only [Option.or_none] at this
    obtain ⟨cmd, w, hp, h1, h2, h3⟩ := this.2 hk
    obtain ⟨pre', hp'⟩ := List.getLast?_eq_some_iff.mp hp
    exact ⟨pre', cmd, w, hp', h1, h2, h3⟩

/-- Building the candidate list: every SELECT is announced with the name selected, and data shown
are those of the answer.  Missing: reading the directory is not announced (`C132_directory`). -/
theorem C132_build_partial (junk : Nat → Nat) (supported : List Tlv) (apps : List App)
    (script : List W) (l : List Entry) (o : Out (Int × List App))
    (h : build junk supported apps script = .ok (l, o)) : Announced true l o ∧ Shown l :=
  told (good_build _ _ _ _) h

/-- The other calls: every command is announced, and data shown are those of the answer. -/
theorem C132_announced (ctx : Emv.Ctx) (apps : List App) (index : Nat)
    (alloc : List Tlv → Tlv → Bool) (buf : List Byte) (pos : Byte) (script : List W) :
    (∀ l o, select ctx apps index script = .ok (l, o) → Announced false l o ∧ Shown l) ∧
    (∀ l o, initiate alloc buf ctx pos script = .ok (l, o) → Announced false l o ∧ Shown l) ∧
    (∀ l o, readData alloc ctx script = .ok (l, o) → Announced false l o ∧ Shown l) :=
  ⟨fun _ _ h => told (good_select _ _ _ _) h, fun _ _ h => told (good_initiate _ _ _ _ _) h,
    fun _ _ h => told (good_readData _ _ _) h⟩

/-- The FCI of a PSE whose directory is file 1, as in the examples. -/
def pseFci : List Byte :=
  [0x6F, 0x15, 0x84, 0x0E] ++ pseName ++ [0xA5, 0x03, 0x88, 0x01, 0x01]

/-- Records of the directory are read without announcement. -/
theorem C132_directory : ∃ l o,
    build (fun _ => 0) [] [] [⟨0, pseFci, 0x9000⟩, ⟨0, [], 0x6A83⟩] = .ok (l, o) ∧
      ¬ Announced false l o := by
  refine ⟨[.said (info 4 txt!"SELECT Payment System Environment (PSE)"),
      .said (info 2 (txt!"SELECT " ++ pseName)), .did (.select false pseName) ⟨0, pseFci, 0x9000⟩,
      .said (infoTlv 2 txt!"FCI" pseFci), .did (.readRecord 1 1) ⟨0, [], 0x6A83⟩,
      .said (info 2 txt!"No more PSE records"), .said (info 4 txt!"Discover list of AIDs"),
      .said (info 4 txt!"Candidate list empty")], .done (3, []) [], by decide +kernel, ?_⟩
  intro h
  have := h.1 [.said (info 4 txt!"SELECT Payment System Environment (PSE)"),
      .said (info 2 (txt!"SELECT " ++ pseName)), .did (.select false pseName) ⟨0, pseFci, 0x9000⟩,
      .said (infoTlv 2 txt!"FCI" pseFci)] _ _ _ rfl
  rcases this with ⟨h, _⟩ | ⟨pre', e, hp, ha⟩
  · cases h
  · have hl := congrArg List.getLast? hp
    simp only [List.getLast?_append, List.getLast?_singleton, Option.some_or] at hl
    have : e = infoTlv 2 txt!"FCI" pseFci := by simpa using hl.symm
    subst this
    exact absurd ha.2 (by decide +kernel)

/-- A call that fails says why: its last event is an event of the kernel, an error unless the
result is one of the outcomes "not accepted", "try again" and "GPO not accepted", which have
their own texts.  A call that returns 0 reports no error of the kernel.  Missing: an application
whose AID has more than 16 bytes is passed over in silence while others remain
(`C132_silent`). -/
theorem C132_reasons_partial (junk : Nat → Nat) (supported : List Tlv) (ctx : Emv.Ctx)
    (apps : List App) (index : Nat) (alloc : List Tlv → Tlv → Bool) (buf : List Byte) (pos : Byte)
    (script : List W)
    (h16 : ∀ a, apps[index]? = some a → a.aid.value.length > 16 → apps.eraseIdx index = []) :
    Expl (·.1) (build junk supported apps script) ∧
    Expl (·.1) (select ctx apps index script) ∧
    Expl (·.1) (initiate alloc buf ctx pos script) ∧
    Expl (·.1) (readData alloc ctx script) :=
  ⟨expl_build _ _ _ _, expl_select _ _ _ _ (fun a ha hl => by rw [h16 a ha hl]; rfl),
    expl_initiate _ _ _ _ _, expl_readData _ _ _⟩

/-- The call that is passed over in silence: outcome "try again" and no event at all. -/
theorem C132_silent (ctx : Emv.Ctx) (apps : List App) (index : Nat) (script : List W) (a : App)
    (ha : apps[index]? = some a) (hl : a.aid.value.length > 16) (hr : apps.eraseIdx index ≠ []) :
    select ctx apps index script =
      .ok ([], .done (4, apps.eraseIdx index, { ctx with selected := none }) script) := by
  unfold select
  simp only [ha, if_pos hl, tryAgain]
  rw [if_neg (by simpa using hr)]
  rfl

example : select Emv.Ctx.init
    [⟨⟨0x84, 0, List.replicate 17 0xA0⟩, [], 0, false, []⟩, ⟨⟨0x84, 0, [0xA0, 0, 0, 0, 3]⟩, [], 0, false, []⟩]
    0 [] = .ok ([], .done (4, [⟨⟨0x84, 0, [0xA0, 0, 0, 0, 3]⟩, [], 0, false, []⟩], Emv.Ctx.init) []) := by
  decide +kernel

/-- A successful selection: the announcement with the name of the candidate, SELECT, and its FCI;
nothing else. -/
theorem C132_selected (ctx : Emv.Ctx) (apps : List App) (index : Nat) (script : List W)
    (l : List Entry) (apps' : List App) (ctx' : Emv.Ctx) (rest : List W)
    (h : select ctx apps index script = .ok (l, .done (0, apps', ctx') rest)) :
    ∃ a w, apps[index]? = some a ∧ script = w :: rest ∧ l =
      [.said ⟨2, 2, 2, txt!"SELECT application", a.aid.value⟩, .did (.select false a.aid.value) w,
        .said ⟨2, 2, 3, txt!"FCI", w.data⟩] := by
  unfold select at h
  cases ha : apps[index]? with
  | none =>
    simp only [ha] at h
    obtain ⟨l', h, _⟩ := says_inv h
    cases h
  | some a =>
    simp only [ha] at h
    split at h
    · unfold tryAgain at h
      split at h
      · obtain ⟨l', h, _⟩ := says_inv h
        cases h
      · cases h
    · cases hs : selectApp a.aid.value script with
      | error u => rw [hs] at h; cases h
      | ok q =>
        obtain ⟨l1, o⟩ := q
        rw [hs] at h
        cases o with
        | pending cmd => cases h
        | done x r1 =>
          simp only [andThen, bind_ok] at h
          split at h
          · by_cases h4 : x.1 = -4 <;> simp [h4, says, fin] at h
          · split at h
            · unfold tryAgain at h
              split at h <;> cases h
            · have hx : x.1 = 0 := by omega
              simp only [fin, bind_ok, List.append_nil] at h
              cases h
              refine ⟨a, ?_⟩
              unfold selectApp at hs
              split at hs
              · cases hs; simp at hx
              · obtain ⟨l2, hs, hl2⟩ := says_inv hs
                unfold send at hs
                split at hs
                · replace hs := (if_pos (by decide : (-3 : Int) ≠ 0)).symm.trans hs
                  obtain ⟨l3, hs, _⟩ := says_inv hs
                  cases hs; simp at hx
                · cases script with
                  | nil => cases hs
                  | cons w r =>
                    obtain ⟨l3, hs, hl3⟩ := did_inv hs
                    simp only at hs
                    split at hs
                    · obtain ⟨l4, hs, _⟩ := says_inv hs
                      cases hs; simp at hx
                    · split at hs
                      · repeat' split at hs
                        all_goals (obtain ⟨l4, hs, _⟩ := says_inv hs; cases hs; simp at hx)
                      · obtain ⟨l4, hs, hl4⟩ := says_inv hs
                        cases hf : createFromFci w.data with
                        | error u => rw [hf] at hs; cases hs
                        | ok b =>
                          rw [hf] at hs
                          simp only [bind_ok] at hs
                          cases b with
                          | none =>
                            obtain ⟨l5, hs, _⟩ := says_inv hs
                            cases hs; simp at hx
                          | some app =>
                            simp only at hs
                            split at hs
                            · obtain ⟨l5, hs, _⟩ := says_inv hs
                              cases hs; simp at hx
                            · cases hc : slice app.aid.value 0 a.aid.value.length with
                              | error u => rw [hc] at hs; cases hs
                              | ok d =>
                                rw [hc] at hs
                                simp only [bind_ok] at hs
                                split at hs
                                · obtain ⟨l5, hs, _⟩ := says_inv hs
                                  cases hs; simp at hx
                                · cases hs
                                  refine ⟨w, rfl, rfl, ?_⟩
                                  rw [hl2, hl3, hl4]; rfl

/-- The FCI of an application with AID A000000003, as in the examples. -/
def appFci : List Byte := [0x6F, 0x09, 0x84, 0x05, 0xA0, 0x00, 0x00, 0x00, 0x03, 0xA5, 0x00]

example : ∃ apps' ctx', select Emv.Ctx.init [⟨⟨0x84, 0, [0xA0, 0, 0, 0, 3]⟩, [], 0, false, []⟩] 0
    [⟨0, appFci, 0x9000⟩] = .ok ([.said (infoData 2 txt!"SELECT application" [0xA0, 0, 0, 0, 3]),
      .did (.select false [0xA0, 0, 0, 0, 3]) ⟨0, appFci, 0x9000⟩,
      .said (infoTlv 2 txt!"FCI" appFci)], .done (0, apps', ctx') []) :=
  ⟨[], _, rfl⟩

/-- An application initiated with success: no error of any source is reported. -/
theorem C132_initiated (alloc : List Tlv → Tlv → Bool) (buf : List Byte) (ctx : Emv.Ctx)
    (pos : Byte) (script : List W) (l : List Entry) (ctx' : Emv.Ctx) (rest : List W)
    (h : initiate alloc buf ctx pos script = .ok (l, .done (0, ctx') rest)) :
    ∀ e, Entry.said e ∈ l → e.level ≠ 1 :=
  clean_initiate alloc buf ctx pos script l (0, ctx') rest h rfl

/-- The context of the examples: an application with AID A000000003 and no PDOL is selected. -/
def exCtx : Emv.Ctx :=
  { Emv.Ctx.init with selected := some ⟨⟨⟨0x84, 0, [0xA0, 0, 0, 0, 3]⟩, [], 0, false, []⟩, .own⟩ }

example : ∃ ctx', initiate allocOk (List.replicate 255 0) exCtx 5
    [⟨0, [0x80, 0x06, 0x18, 0x00, 0x08, 0x01, 0x01, 0x00], 0x9000⟩] =
    .ok ([.said (infoData 2 txt!"GET PROCESSING OPTIONS" []),
      .did (.gpo none) ⟨0, [0x80, 0x06, 0x18, 0x00, 0x08, 0x01, 0x01, 0x00], 0x9000⟩,
      .said (infoTlv 2 txt!"GPO response" [0x80, 0x06, 0x18, 0x00, 0x08, 0x01, 0x01, 0x00]),
      .said (infoData 2 txt!"AIP" [0x18, 0x00]), .said (infoData 2 txt!"AFL" [0x08, 0x01, 0x01, 0x00])],
      .done (0, ctx') []) := by
  exact ⟨_, rfl⟩

/-- Reading application data that are refused: announced, and explained at the end. -/
example : readData allocOk { Emv.Ctx.init with icc := [⟨0x94, 0, [0x08, 0x01, 0x01, 0x00]⟩] }
    [⟨0, [0x70, 0x03, 0x5A, 0x01, 0x12], 0x9000⟩] =
    .ok ([.said (info 2 txt!"READ RECORD from SFI 1, record 1"),
      .did (.readRecord 1 1) ⟨0, [0x70, 0x03, 0x5A, 0x01, 0x12], 0x9000⟩,
      .said (info 2 txt!"Record template content used for offline data authentication"),
      .said (error 4 txt!"Mandatory field not found")],
      .done (1, { Emv.Ctx.init with icc := [⟨0x94, 0, [0x08, 0x01, 0x01, 0x00]⟩] }) []) := by
  decide +kernel

/-! ## Uninitialised memory in a message -/

/-- The message for a record of the directory without template shows, instead of the tag found,
the content of a variable that has not been set. -/
theorem C132_leak (junk : Nat) (pse supported : List Tlv) (data : List Byte) (apps : List App)
    (n : Nat) (t : Tlv) (hd : decode data = .ok (.ok n t)) (ht : t.tag ≠ 0x70) :
    aefRecord junk pse supported data apps =
      .ok ([error 2 (txt!"Unexpected data element 0x" ++ Print.hexU junk ++
        txt!" in PSE AEF record")], 8, apps) := by
  unfold aefRecord
  simp only [hd, bind_ok, if_pos ht]

/-- Hence the same card and terminal give different events: here for a record with tag 77 and
two contents of the memory. -/
theorem C132_leaks : ∃ script, ∀ junk : Nat, junk = 0x6F ∨ junk = 0xDEADBEEF → ∃ l,
    build (fun _ => junk) [] [] script = .ok (l, .done (3, []) []) ∧
      Entry.said (error 2 (txt!"Unexpected data element 0x" ++
        (if junk = 0x6F then txt!"6F" else txt!"DEADBEEF") ++ txt!" in PSE AEF record")) ∈ l := by
  refine ⟨[⟨0, pseFci, 0x9000⟩, ⟨0, [0x77, 0x00], 0x9000⟩, ⟨0, [], 0x6A83⟩], fun junk hj => ?_⟩
  have hall : ∀ t : List Byte, ∀ l : List Entry, l = [.said (info 4 txt!"SELECT Payment System Environment (PSE)"),
      .said (info 2 (txt!"SELECT " ++ pseName)), .did (.select false pseName) ⟨0, pseFci, 0x9000⟩,
      .said (infoTlv 2 txt!"FCI" pseFci), .did (.readRecord 1 1) ⟨0, [0x77, 0x00], 0x9000⟩,
      .said (infoTlv 2 txt!"AEF" [0x77, 0x00]),
      .said (error 2 (txt!"Unexpected data element 0x" ++ t ++ txt!" in PSE AEF record")),
      .said (error 2 txt!"Invalid PSE AEF record"), .did (.readRecord 1 2) ⟨0, [], 0x6A83⟩,
      .said (info 2 txt!"No more PSE records"), .said (info 4 txt!"Discover list of AIDs"),
      .said (info 4 txt!"Candidate list empty")] → Entry.said (error 2
        (txt!"Unexpected data element 0x" ++ t ++ txt!" in PSE AEF record")) ∈ l := by
    intro t l hl; subst hl; simp
  rcases hj with rfl | rfl
  · exact ⟨_, by decide +kernel, hall txt!"6F" _ rfl⟩
  · exact ⟨_, by decide +kernel, hall txt!"DEADBEEF" _ rfl⟩

end Verif.Trace
