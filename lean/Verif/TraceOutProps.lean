import Verif.TraceProps
import Verif.TraceOut
import Verif.PrintEventProps

/-! # The debug output of a transaction (C136) -/

set_option autoImplicit false

namespace Verif.Trace
open Verif Ber TlvParse App Fields Tal Formats

/-! ## Specification -/

/-- The local arrays have their sizes, and the time is a 32-bit number. -/
structure Scratch.Sized (m : Scratch) : Prop where
  apdu : m.loc.apdu.length = 1024
  field : ∀ t v, (m.loc.field t v).length = 2048
  text : m.text.length = 1024
  time : m.time < 2 ^ 32

/-- The event is asked for: a function is set, the source is selected and the level not above the
one asked for. -/
def Wanted (cfg : PrintCard.Config) (e : Event) : Prop :=
  cfg.set = true ∧ (∃ k, cfg.mask.testBit k = true ∧ e.source.testBit k = true) ∧
    e.level ≤ cfg.level

/-- What stands before an event: its source, or its time, source and level. -/
def lead (verbose : Bool) (m : Scratch) (e : Event) : List Byte :=
  if verbose then
    txt!"[" ++ PrintCard.padded m.time ++ txt!"," ++
      (PrintCard.sources.lookup e.source).getD txt!"???" ++ txt!"," ++
      (PrintCard.levels.lookup e.level).getD txt!"????" ++ txt!"] "
  else txt!"[" ++ (PrintCard.sources.lookup e.source).getD txt!"???" ++ txt!"] "

/-- What is printed of an event: a message as it is; data in hexadecimal; fields in hexadecimal
and their listing (C92); a command and a response as in C96. -/
def Body (env : TlvInfo.Env) (m : Scratch) (e : Event) (b : List Byte) : Prop :=
  (e.kind = 1 ∧ b = e.text ++ [0x0A]) ∨
  (e.kind = 2 ∧ b = e.text ++ txt!": " ++ hexOf e.data ++ [0x0A]) ∨
  (e.kind = 3 ∧ ∃ l, Print.emvBuf env m.loc.field txt!"  " false 1 e.data = .ok l ∧
    b = e.text ++ txt!": " ++ hexOf e.data ++ [0x0A] ++ l) ∨
  (e.kind = 5 ∧ ∃ l, PrintCard.capdu m.loc.apdu e.data = .ok l ∧ b = e.text ++ txt!": " ++ l) ∨
  (e.kind = 6 ∧ b = e.text ++ txt!": " ++ PrintCard.rapduText e.data) ∨
  ((e.kind = 7 ∨ e.kind = 8) ∧ b = e.text ++ txt!": " ++ hexOf e.data ++ [0x0A])

/-- The output for the events: in turn, for those asked for what stands before and what is printed,
for others nothing. -/
def Lines (cfg : PrintCard.Config) (verbose : Bool) (env : TlvInfo.Env) :
    List (Event × Scratch) → List Byte → Prop
  | [], out => out = []
  | (e, m) :: l, out => ∃ a rest, out = a ++ rest ∧ Lines cfg verbose env l rest ∧
      (Wanted cfg e → ∃ b, Body env m e b ∧ a = lead verbose m e ++ b) ∧
      (¬ Wanted cfg e → a = [])

/-- The events of a run. -/
def events (l : List Entry) : List Event := l.filterMap fun
  | .said e => some e
  | .did _ _ => none

/-- The events of an exchange. -/
def Ttl.events (l : List Ttl.Entry) : List Event := l.filterMap fun
  | .said e => some e
  | _ => none

/-- All fields of an answer have a description that is defined (C84). -/
def Describable (loc : Nat → List Byte → List Byte) (data : List Byte) : Prop :=
  data.length < 2 ^ 31 ∧ ∀ tag v, Print.Within data tag v → PrintSpec.Defined loc tag v

/-! ## Single events -/

theorem wanted_iff (cfg : PrintCard.Config) (e : Event) :
    PrintCard.delivered cfg e.source e.level = true ↔ Wanted cfg e := PrintCard.C96_delivery _ _ _

/-- What is needed of an event to be printed. -/
def Sound (env : TlvInfo.Env) (cfg : PrintCard.Config) (p : Event × Scratch) : Prop :=
  (∀ b ∈ p.1.text, b ≠ 0) ∧ p.1.text.length ≤ 1023 ∧ p.2.Sized ∧
  (p.1.kind = 1 ∨ p.1.kind = 2 ∨ (p.1.kind = 3 ∧ (Wanted cfg p.1 →
      TlvInfo.Sane env ∧ Describable p.2.loc.field p.1.data)) ∨
    (p.1.kind = 5 ∧ 4 ≤ p.1.data.length) ∨ p.1.kind = 6 ∨ p.1.kind = 7 ∨ p.1.kind = 8)

theorem event_body (env : TlvInfo.Env) (cfg : PrintCard.Config) (p : Event × Scratch)
    (h : Sound env cfg p) (hw : Wanted cfg p.1) :
    ∃ b, Body env p.2 p.1 b ∧ PrintCard.event env p.2.loc p.1.text (dataOf p.1) = .ok b := by
  obtain ⟨e, m⟩ := p
  obtain ⟨-, -, hs, hk⟩ := h
  simp only at hk hw hs ⊢
  rcases hk with hk | hk | ⟨hk, hd⟩ | ⟨hk, hd⟩ | hk | hk | hk
  · exact ⟨_, .inl ⟨hk, rfl⟩, by simp [dataOf, hk, PrintCard.event]⟩
  · exact ⟨_, .inr (.inl ⟨hk, rfl⟩), by simp [dataOf, hk, PrintCard.event, PrintCard.printBuf_eq]⟩
  · obtain ⟨he, hl, hd⟩ := hd hw
    obtain ⟨l, hl⟩ := Print.C92_safe_partial env he m.loc.field hs.field txt!"  " false 1 e.data hl hd
    exact ⟨_, .inr (.inr (.inl ⟨hk, l, hl, rfl⟩)),
      by simp [dataOf, hk, PrintCard.event, PrintCard.printBuf_eq, hl, bind_ok]⟩
  · have hne : e.data ≠ [] := by intro h; rw [h] at hd; simp at hd
    have hno : ¬ Capdu.EmvOverreads e.data := by
      unfold Capdu.EmvOverreads; omega
    obtain ⟨r, s, _, t, rest, _, _, hc⟩ :=
      (PrintCard.C96_command_partial m.loc.apdu e.data hs.apdu hne).2 hno
    exact ⟨_, .inr (.inr (.inr (.inl ⟨hk, _, hc, rfl⟩))),
      by simp [dataOf, hk, PrintCard.event, hc, bind_ok]⟩
  · exact ⟨_, .inr (.inr (.inr (.inr (.inl ⟨hk, rfl⟩)))),
      by simp [dataOf, hk, PrintCard.event, PrintCard.C96_response _ _ hs.apdu, bind_ok]⟩
  · exact ⟨_, .inr (.inr (.inr (.inr (.inr ⟨.inl hk, rfl⟩)))),
      by simp [dataOf, hk, PrintCard.event, PrintCard.printBuf_eq]⟩
  · exact ⟨_, .inr (.inr (.inr (.inr (.inr ⟨.inr hk, rfl⟩)))),
      by simp [dataOf, hk, PrintCard.event, PrintCard.printBuf_eq]⟩

theorem printed_sound (env : TlvInfo.Env) (cfg : PrintCard.Config) (verbose : Bool)
    (p : Event × Scratch) (h : Sound env cfg p) (hw : Wanted cfg p.1) :
    ∃ b, Body env p.2 p.1 b ∧ printed cfg verbose env p.2 p.1 = .ok (lead verbose p.2 p.1 ++ b) := by
  obtain ⟨b, hb, he⟩ := event_body env cfg p h hw
  refine ⟨b, hb, ?_⟩
  have ht : p.1.text.take 1023 = p.1.text := List.take_of_length_le h.2.1
  unfold printed
  rw [if_pos ((wanted_iff _ _).mpr hw), PrintCard.C96_text _ _ h.2.2.1.text h.1, bind_ok, ht]
  unfold lead
  cases verbose with
  | true =>
    have hp : PrintCard.dec010 p.2.time = PrintCard.padded p.2.time := by
      rw [PrintCard.dec010, Lists.decU_spec _ h.2.2.1.time]; rfl
    simp only [if_true]
    rw [PrintCard.debugVerbose, he, bind_ok, (PrintCard.C96_names _).1, (PrintCard.C96_names _).2, hp]
  | false =>
    rw [if_neg (by decide), if_neg (by decide), PrintCard.debug, he, bind_ok,
      (PrintCard.C96_names _).1]

theorem printed_unwanted (env : TlvInfo.Env) (cfg : PrintCard.Config) (verbose : Bool)
    (m : Scratch) (e : Event) (hw : ¬ Wanted cfg e) : printed cfg verbose env m e = .ok [] := by
  unfold printed
  rw [if_neg (fun h => hw ((wanted_iff _ _).mp h))]

/-- The output for events that can be printed. -/
theorem output_sound (env : TlvInfo.Env) (cfg : PrintCard.Config) (verbose : Bool) :
    ∀ es : List (Event × Scratch), (∀ p ∈ es, Sound env cfg p) →
      ∃ out, output cfg verbose env es = .ok out ∧ Lines cfg verbose env es out
  | [], _ => ⟨[], rfl, rfl⟩
  | (e, m) :: es, h => by
    obtain ⟨rest, hr, hl⟩ := output_sound env cfg verbose es (fun p hp => h p (by simp [hp]))
    by_cases hw : Wanted cfg e
    · obtain ⟨b, hb, hp⟩ := printed_sound env cfg verbose (e, m) (h _ (by simp)) hw
      exact ⟨_, by rw [output, hp, bind_ok, hr, bind_ok], _, rest, rfl, hl,
        fun _ => ⟨b, hb, rfl⟩, fun h => absurd hw h⟩
    · exact ⟨_, by rw [output, printed_unwanted env cfg verbose m e hw, bind_ok, hr, bind_ok], [],
        rest, rfl, hl, fun h => absurd h hw, fun _ => rfl⟩

/-! ## The exchange -/

/-- What is needed of an event of an exchange to be printed. -/
def Simple (e : Event) : Prop := (∀ b ∈ e.text, b ≠ 0) ∧ e.text.length ≤ 1023 ∧
  (e.kind = 1 ∨ (e.kind = 5 ∧ 4 ≤ e.data.length) ∨ e.kind = 6 ∨ e.kind = 7 ∨ e.kind = 8)

theorem events_append (a b : List Ttl.Entry) : Ttl.events (a ++ b) = Ttl.events a ++ Ttl.events b :=
  List.filterMap_append

theorem events_flat (l : List (List Byte × Verif.Ttl.Resp)) :
    ∀ e ∈ Ttl.events (l.flatMap Ttl.turn), Simple e := by
  induction l with
  | nil => intro e he; cases he
  | cons p l ih =>
    intro e he
    rw [List.flatMap_cons, events_append, List.mem_append] at he
    rcases he with he | he
    · obtain ⟨t, r⟩ := p
      have hno : Simple (error 1 txt!"No response") := ⟨by decide, by decide, .inl rfl⟩
      have htx : ∀ t, Simple (ctpduEv t) := fun t =>
        ⟨by show ∀ b ∈ txt!"C-TPDU", b ≠ 0; decide, by show (txt!"C-TPDU").length ≤ 1023; decide,
          .inr (.inr (.inr (.inl rfl)))⟩
      have hrx : ∀ t, Simple (rtpduEv t) := fun t =>
        ⟨by show ∀ b ∈ txt!"R-TPDU", b ≠ 0; decide, by show (txt!"R-TPDU").length ≤ 1023; decide,
          .inr (.inr (.inr (.inr rfl)))⟩
      unfold Ttl.turn Ttl.heard at he
      cases r with
      | fail r =>
        by_cases h0 : r = 0
        · simp only [if_pos h0] at he
          simp [Ttl.events] at he
          rcases he with rfl | rfl
          · exact htx _
          · exact hno
        · simp only [if_neg h0] at he
          simp [Ttl.events] at he
          subst he
          exact htx _
      | data rx =>
        by_cases h0 : rx = []
        · simp only [if_pos h0] at he
          simp [Ttl.events] at he
          rcases he with rfl | rfl
          · exact htx _
          · exact hno
        · simp only [if_neg h0] at he
          simp [Ttl.events] at he
          rcases he with rfl | rfl
          · exact htx _
          · exact hrx _
    · exact ih e he

theorem events_close (log : List (List Byte)) (o : Verif.Ttl.Outcome) :
    ∀ e ∈ Ttl.events (Ttl.close log o), Simple e := by
  intro e he
  unfold Ttl.close Ttl.ending at he
  cases o with
  | done d rest =>
    simp only at he
    split at he
    · simp [Ttl.events] at he
      subst he
      exact ⟨by show ∀ b ∈ txt!"R-APDU", b ≠ 0; decide, by show (txt!"R-APDU").length ≤ 1023; decide,
        .inr (.inr (.inl rfl))⟩
    · cases he
  | pending =>
    simp only at he
    split at he
    · simp [Ttl.events] at he
      subst he
      exact ⟨by show ∀ b ∈ txt!"C-TPDU", b ≠ 0; decide, by show (txt!"C-TPDU").length ≤ 1023; decide,
        .inr (.inr (.inr (.inl rfl)))⟩
    · cases he

/-- The events of an exchange can be printed. -/
theorem exchange_simple (mode : Verif.Ttl.Mode) (capdu rbuf : List Byte)
    (script : List Verif.Ttl.Resp) (hc : 4 ≤ capdu.length) (l : List Ttl.Entry)
    (o : Verif.Ttl.Outcome) (h : Ttl.trx mode capdu rbuf script = .ok (l, o)) :
    ∀ e ∈ Ttl.events l, Simple e := by
  have hcap : Simple (capduEv capdu) :=
    ⟨by show ∀ b ∈ txt!"C-APDU", b ≠ 0; decide, by show (txt!"C-APDU").length ≤ 1023; decide,
      .inr (.inl ⟨rfl, hc⟩)⟩
  have hunk : Simple (error 1 txt!"Unknown APDU case") := ⟨by decide, by decide, .inl rfl⟩
  have hcase : ∀ c, Simple (apdu (Ttl.caseText c)) := by
    intro c
    refine ⟨?_, ?_, .inl rfl⟩ <;> cases c <;> decide
  unfold Ttl.trx at h
  split at h
  · cases h; intro e he; cases he
  · obtain ⟨q, hq, h⟩ := Ttl.bind_inv h
    cases q with
    | error u =>
      cases h
      intro e he
      simp [Ttl.events] at he
      rcases he with rfl | rfl
      · exact hcap
      · exact hunk
    | ok c =>
      simp only at h
      split at h
      · obtain ⟨st, hst, h⟩ := Ttl.bind_inv h
        obtain ⟨⟨l', o'⟩, hr, h⟩ := Ttl.bind_inv h
        cases h
        rw [(Ttl.run_eq capdu mode c script st).1] at hr
        obtain ⟨⟨log, o''⟩, hr', hr⟩ := Ttl.bind_inv hr
        cases hr
        intro e he
        have : e = capduEv capdu ∨ e = apdu (Ttl.caseText c) ∨
            e ∈ Ttl.events ((log.zip script).flatMap Ttl.turn ++ Ttl.close log o') := by
          simpa [Ttl.events] using he
        rcases this with rfl | rfl | he
        · exact hcap
        · exact hcase c
        · rw [events_append, List.mem_append] at he
          exact he.elim (events_flat _ e) (events_close _ _ e)
      · cases h
        intro e he
        simp [Ttl.events] at he
        rcases he with rfl | rfl
        · exact hcap
        · exact hunk

/-- **C136** (exchange).  The output for the events of the exchange of any command of at least four
bytes, whatever the card reader answers: the lines of the events asked for, in order. -/
theorem C136_exchange (env : TlvInfo.Env) (cfg : PrintCard.Config) (verbose : Bool)
    (mode : Verif.Ttl.Mode) (capdu rbuf : List Byte) (script : List Verif.Ttl.Resp)
    (hc : 4 ≤ capdu.length) (l : List Ttl.Entry) (o : Verif.Ttl.Outcome)
    (h : Ttl.trx mode capdu rbuf script = .ok (l, o)) (es : List (Event × Scratch))
    (he : es.map (·.1) = Ttl.events l) (hm : ∀ p ∈ es, p.2.Sized) :
    ∃ out, output cfg verbose env es = .ok out ∧ Lines cfg verbose env es out := by
  refine output_sound env cfg verbose es fun p hp => ?_
  have hs := exchange_simple mode capdu rbuf script hc l o h p.1 (by
    rw [← he]; exact List.mem_map_of_mem hp)
  refine ⟨hs.1, hs.2.1, hm p hp, ?_⟩
  rcases hs.2.2 with h | h | h | h | h
  · exact .inl h
  · exact .inr (.inr (.inr (.inl h)))
  · exact .inr (.inr (.inr (.inr (.inl h))))
  · exact .inr (.inr (.inr (.inr (.inr (.inl h)))))
  · exact .inr (.inr (.inr (.inr (.inr (.inr h)))))

/-! ## The calls of the kernel -/

/-- The answer of a run to which an event belongs. -/
theorem answered {α : Type} {x : C (Tr α)} {S : Event → Prop} {dir : Bool} (hx : Good S dir none x)
    {l : List Entry} {o : Out α} (h : x = .ok (l, o)) (e : Event) (he : e ∈ events l) :
    S e ∧ (e.kind = 3 → ∃ cmd w, Entry.did cmd w ∈ l ∧ e.data = w.data) := by
  have hm : Entry.said e ∈ l := by
    unfold events at he
    rw [List.mem_filterMap] at he
    obtain ⟨y, hy, he⟩ := he
    cases y with
    | said e' => cases he; exact hy
    | did cmd w => cases he
  refine ⟨chain_mem (hx l o h) e (by simp [hm]), fun hk => ?_⟩
  obtain ⟨pre, post, hl⟩ := List.append_of_mem hm
  obtain ⟨pre', cmd, w, hp, hd, -⟩ := (told hx h).2 pre e post hl hk
  exact ⟨cmd, w, by rw [hl, hp]; simp, hd⟩

/-- The output of a run. -/
theorem run_output {α : Type} {x : C (Tr α)} {dir : Bool} (hx : Good Any dir none x)
    (env : TlvInfo.Env) (cfg : PrintCard.Config) (verbose : Bool) (l : List Entry) (o : Out α)
    (h : x = .ok (l, o)) (es : List (Event × Scratch)) (he : es.map (·.1) = events l)
    (hm : ∀ p ∈ es, p.2.Sized)
    (hd : cfg.level < 2 ∨ TlvInfo.Sane env ∧
      ∀ cmd w, Entry.did cmd w ∈ l → ∀ p ∈ es, Describable p.2.loc.field w.data) :
    ∃ out, output cfg verbose env es = .ok out ∧ Lines cfg verbose env es out := by
  refine output_sound env cfg verbose es fun p hp => ?_
  obtain ⟨⟨-, hk, ht, hn⟩, hw⟩ := answered hx h p.1 (by rw [← he]; exact List.mem_map_of_mem hp)
  refine ⟨fun b hb => ?_, by simpa using hn, hm p hp, ?_⟩
  · have := List.all_eq_true.mp ht b hb
    simpa using this
  · rcases plain_kind hk with h1 | h1 | ⟨h1, h2⟩
    · exact .inl h1
    · exact .inr (.inl h1)
    · refine .inr (.inr (.inl ⟨h1, fun hwant => ?_⟩))
      rcases hd with hd | ⟨hs, hd⟩
      · have := hwant.2.2
        omega
      · obtain ⟨cmd, w, hl, hw⟩ := hw h1
        rw [hw]
        exact ⟨hs, hd cmd w hl p hp⟩

/-- **C136** (errors only).  Below the level INFO the output of each call of the kernel is defined
whatever the card answers: the lines of the errors, in order. -/
theorem C136_errors (env : TlvInfo.Env) (cfg : PrintCard.Config) (hcfg : cfg.level < 2)
    (verbose : Bool) (junk : Nat → Nat) (supported : List Tlv) (ctx : Emv.Ctx) (apps : List App)
    (index : Nat) (alloc : List Tlv → Tlv → Bool) (buf : List Byte) (pos : Byte) (script : List W)
    (l : List Entry)
    (h : (∃ o, build junk supported apps script = .ok (l, o)) ∨
      (∃ o, select ctx apps index script = .ok (l, o)) ∨
      (∃ o, initiate alloc buf ctx pos script = .ok (l, o)) ∨
      (∃ o, readData alloc ctx script = .ok (l, o)))
    (es : List (Event × Scratch)) (he : es.map (·.1) = events l) (hm : ∀ p ∈ es, p.2.Sized) :
    ∃ out, output cfg verbose env es = .ok out ∧ Lines cfg verbose env es out := by
  rcases h with ⟨o, h⟩ | ⟨o, h⟩ | ⟨o, h⟩ | ⟨o, h⟩
  · exact run_output (good_build _ _ _ _) env cfg verbose l o h es he hm (.inl hcfg)
  · exact run_output (dir := false) (good_select _ _ _ _) env cfg verbose l o h es he hm (.inl hcfg)
  · exact run_output (dir := false) (good_initiate _ _ _ _ _) env cfg verbose l o h es he hm
      (.inl hcfg)
  · exact run_output (dir := false) (good_readData _ _ _) env cfg verbose l o h es he hm (.inl hcfg)

/-- **C136** (calls).  At any level the output of each call of the kernel is the lines of the events
asked for, in order.  Missing: answers with fields whose description is not defined
(`C136_undefined`). -/
theorem C136_calls_partial (env : TlvInfo.Env) (hs : TlvInfo.Sane env) (cfg : PrintCard.Config)
    (verbose : Bool) (junk : Nat → Nat) (supported : List Tlv) (ctx : Emv.Ctx) (apps : List App)
    (index : Nat) (alloc : List Tlv → Tlv → Bool) (buf : List Byte) (pos : Byte) (script : List W)
    (l : List Entry)
    (h : (∃ o, build junk supported apps script = .ok (l, o)) ∨
      (∃ o, select ctx apps index script = .ok (l, o)) ∨
      (∃ o, initiate alloc buf ctx pos script = .ok (l, o)) ∨
      (∃ o, readData alloc ctx script = .ok (l, o)))
    (es : List (Event × Scratch)) (he : es.map (·.1) = events l) (hm : ∀ p ∈ es, p.2.Sized)
    (hd : ∀ cmd w, Entry.did cmd w ∈ l → ∀ p ∈ es, Describable p.2.loc.field w.data) :
    ∃ out, output cfg verbose env es = .ok out ∧ Lines cfg verbose env es out := by
  have hd' := Or.inr (a := cfg.level < 2) (And.intro hs hd)
  rcases h with ⟨o, h⟩ | ⟨o, h⟩ | ⟨o, h⟩ | ⟨o, h⟩
  · exact run_output (good_build _ _ _ _) env cfg verbose l o h es he hm hd'
  · exact run_output (dir := false) (good_select _ _ _ _) env cfg verbose l o h es he hm hd'
  · exact run_output (dir := false) (good_initiate _ _ _ _ _) env cfg verbose l o h es he hm hd'
  · exact run_output (dir := false) (good_readData _ _ _) env cfg verbose l o h es he hm hd'

/-! ## Undefined output -/

/-- Memory of the examples. -/
def exScratch : Scratch :=
  ⟨⟨List.replicate 1024 0x55, List.replicate 1024 0x55, List.replicate 1024 0x55,
    fun _ _ => List.replicate 2048 0x55⟩, List.replicate 1024 0x55, 12⟩

/-- The settings of `emv-tool` without options (emv-tool.c:101-118). -/
def toolDefault : PrintCard.Config := ⟨0xFF, 2, true⟩

theorem output_error (cfg : PrintCard.Config) (verbose : Bool) (env : TlvInfo.Env)
    (a : List (Event × Scratch)) (e : Event) (m : Scratch) (b : List (Event × Scratch))
    (out : List Byte) (u : UB) (ha : output cfg verbose env a = .ok out)
    (hb : printed cfg verbose env m e = .error u) :
    output cfg verbose env (a ++ (e, m) :: b) = .error u := by
  induction a generalizing out with
  | nil => rw [List.nil_append, output, hb]; rfl
  | cons p a ih =>
    obtain ⟨e', m'⟩ := p
    rw [output] at ha
    obtain ⟨x, hx, ha⟩ := Ttl.bind_inv ha
    obtain ⟨y, hy, ha⟩ := Ttl.bind_inv ha
    rw [List.cons_append, output, hx, bind_ok, ih y hy]
    rfl

/-- **C136 is false of other answers**: with the settings of `emv-tool` without options the output
of a selection is undefined when the card answers with an empty Transaction Type (9C 00) instead of
an FCI, whatever the memory; the selection itself is refused. -/
theorem C136_undefined (env : TlvInfo.Env) (verbose : Bool) :
    ∃ (apps : List App) (script : List W) (l : List Entry) (apps' : List App) (ctx' : Emv.Ctx),
      select Emv.Ctx.init apps 0 script = .ok (l, .done (3, apps', ctx') []) ∧
      ∀ es : List (Event × Scratch), es.map (·.1) = events l → (∀ p ∈ es, p.2.Sized) →
        ∃ u, output toolDefault verbose env es = .error u := by
  refine ⟨[⟨⟨0x84, 0, [0xA0, 0, 0, 0, 3]⟩, [], 0, false, []⟩], [⟨0, [0x9C, 0x00], 0x9000⟩],
    [.said (infoData 2 txt!"SELECT application" [0xA0, 0, 0, 0, 3]),
      .did (.select false [0xA0, 0, 0, 0, 3]) ⟨0, [0x9C, 0x00], 0x9000⟩,
      .said (infoTlv 2 txt!"FCI" [0x9C, 0x00]),
      .said (error 2 txt!"Failed to parse application FCI"),
      .said (info 4 txt!"Failed to select application; continue session"),
      .said (info 4 txt!"Candidate list empty")], [], Emv.Ctx.init, by decide +kernel,
      fun es he hm => ?_⟩
  match es, he with
  | (e1, m1) :: (e2, m2) :: rest, he =>
    simp only [List.map_cons, events, List.filterMap_cons, List.cons.injEq] at he
    obtain ⟨rfl, rfl, -⟩ := he
    have h1 := hm _ (List.mem_cons_self ..)
    have h2 := hm (infoTlv 2 txt!"FCI" [0x9C, 0x00], m2) (by simp)
    obtain ⟨out, ho, -⟩ := output_sound env toolDefault verbose
      [(infoData 2 txt!"SELECT application" [0xA0, 0, 0, 0, 3], m1)] (by
        intro p hp
        simp only [List.mem_singleton] at hp
        subst hp
        exact ⟨by show ∀ b ∈ txt!"SELECT application", b ≠ 0; decide,
          by show (txt!"SELECT application").length ≤ 1023; decide, h1, .inr (.inl rfl)⟩)
    have hu : ∃ u, PrintCard.event env m2.loc txt!"FCI" (.tlv [0x9C, 0x00]) = .error u := by
      rcases Print.C92_undefined env m2.loc.field txt!"  " false 1 [0x9C, 0x00] [0x9C] [] []
        ⟨.inl ⟨by decide, rfl⟩, by decide, by decide +kernel⟩ (.inl ⟨by decide, rfl⟩) with h | h
      · exact ⟨_, by rw [PrintCard.event]; simp only [List.append_nil] at h; rw [h]; rfl⟩
      · exact ⟨_, by rw [PrintCard.event]; simp only [List.append_nil] at h; rw [h]; rfl⟩
    obtain ⟨u, hu⟩ := hu
    refine ⟨u, output_error toolDefault verbose env
      [(infoData 2 txt!"SELECT application" [0xA0, 0, 0, 0, 3], m1)] _ m2 rest out u ho ?_⟩
    unfold printed
    rw [if_pos (by decide), PrintCard.C96_text _ _ h2.text (by decide), bind_ok]
    cases verbose with
    | true => simp only [if_true]; rw [PrintCard.debugVerbose]; exact congrArg (· >>= _) hu
    | false =>
      rw [if_neg (by decide), PrintCard.debug]; exact congrArg (· >>= _) hu

/-! ## Selection of events -/

/-- **C136** (nothing asked for).  Events that are not asked for print nothing, whatever they are and
whatever the memory holds; in particular nothing is printed before a function is set or at the
level NONE. -/
theorem C136_quiet (cfg : PrintCard.Config) (verbose : Bool) (env : TlvInfo.Env) :
    ∀ es : List (Event × Scratch), (∀ p ∈ es, ¬ Wanted cfg p.1) → output cfg verbose env es = .ok []
  | [], _ => rfl
  | (e, m) :: es, h => by
    rw [output, printed_unwanted env cfg verbose m e (h (e, m) (by simp)), bind_ok,
      C136_quiet cfg verbose env es (fun p hp => h p (by simp [hp]))]
    rfl

/-- **C136** (more is asked for).  Asking for more only adds lines: the output for the events asked
for is that of the wider settings when the others are left out. -/
theorem C136_wider (cfg cfg' : PrintCard.Config) (verbose : Bool) (env : TlvInfo.Env)
    (hset : cfg.set = true → cfg'.set = true) (hlevel : cfg.level ≤ cfg'.level)
    (hmask : ∀ k, cfg.mask.testBit k = true → cfg'.mask.testBit k = true)
    (sel : Event → Bool) (hsel : ∀ e, sel e = true ↔ Wanted cfg e) (es : List (Event × Scratch)) :
    output cfg verbose env es = output cfg' verbose env (es.filter fun p => sel p.1) := by
  induction es with
  | nil => rfl
  | cons p es ih =>
    obtain ⟨e, m⟩ := p
    by_cases hw : Wanted cfg e
    · have hw' : Wanted cfg' e := by
        obtain ⟨h1, ⟨k, h2, h3⟩, h4⟩ := hw
        exact ⟨hset h1, ⟨k, hmask k h2, h3⟩, by omega⟩
      rw [List.filter_cons_of_pos (p := fun p : Event × Scratch => sel p.1) ((hsel e).mpr hw)]
      simp only [output]
      rw [ih]
      unfold printed
      rw [if_pos ((wanted_iff _ _).mpr hw), if_pos ((wanted_iff _ _).mpr hw')]
    · rw [List.filter_cons_of_neg (p := fun p : Event × Scratch => sel p.1)
        (fun h => hw ((hsel e).mp h)), output,
        printed_unwanted env cfg verbose m e hw, bind_ok, ih]
      cases output cfg' verbose env (es.filter fun p => sel p.1) <;> rfl

/-! ## Examples -/

theorem exScratch_sized : exScratch.Sized :=
  ⟨List.length_replicate .., fun _ _ => List.length_replicate .., List.length_replicate ..,
    by decide⟩

/-- The exchange of a record with C-TPDU and R-TPDU, all levels, and the same with time and
level. -/
example :
    (output ⟨0xFF, 3, true⟩ false TlvInfo.noTables ([capduEv [0x00, 0xB2, 0x01, 0x0C, 0x00],
      apdu txt!"APDU case 2S", ctpduEv [0x00, 0xB2, 0x01, 0x0C, 0x00], rtpduEv [0x6A, 0x83],
      rapduEv [0x6A, 0x83]].map fun e => (e, exScratch))).toOption =
    some (txt!"[TTL] C-APDU: 00B2010C00 (READ RECORD from short EF 1, record number 1)" ++ [0x0A] ++
      txt!"[TTL] APDU case 2S" ++ [0x0A] ++ txt!"[TTL] C-TPDU: 00B2010C00" ++ [0x0A] ++
      txt!"[TTL] R-TPDU: 6A83" ++ [0x0A] ++
      txt!"[TTL] R-APDU: 6A83 (Checking error: Record not found)" ++ [0x0A]) ∧
    (output ⟨0x01, 3, true⟩ true TlvInfo.noTables ([apdu txt!"APDU case 2S", error 2 txt!"TTL failure"].map
      fun e => (e, exScratch))).toOption =
    some (txt!"[0000000012,TTL,CARD] APDU case 2S" ++ [0x0A]) := by
  constructor <;> decide +kernel

theorem within_inv {buf tag v rest : List Byte} {n : Nat} {t : Tlv} (h : Print.Within buf tag v)
    (hi : itrNext buf = .ok (rest, .ok n t)) :
    (BerSpec.beNat tag = t.tag ∧ v = t.value) ∨ Print.Within rest tag v ∨
      (t.isConstructed = true ∧ Print.Within t.value tag v) := by
  cases h with
  | here hdr tag v r h =>
    rw [Print.itrNext_reads h] at hi
    cases hi
    exact .inl ⟨rfl, rfl⟩
  | next hdr tag' v' r tag v h hw =>
    rw [Print.itrNext_reads h] at hi
    cases hi
    exact .inr (.inl hw)
  | inside hdr tag' v' r tag v h hc hw =>
    rw [Print.itrNext_reads h] at hi
    cases hi
    exact .inr (.inr ⟨(Print.constructed_tlv h.1).mpr hc, hw⟩)

theorem within_nil {tag v : List Byte} (h : Print.Within [] tag v) : False := by
  have hb : ∀ b, Print.Within b tag v → b ≠ [] := by
    intro b h hn
    cases h with
    | here hdr tag v r h =>
      have := Print.itrNext_reads h
      rw [hn] at this
      cases this
    | next hdr tag' v' r tag v h hw =>
      have := Print.itrNext_reads h
      rw [hn] at this
      cases this
    | inside hdr tag' v' r tag v h hc hw =>
      have := Print.itrNext_reads h
      rw [hn] at this
      cases this
  exact hb _ h rfl

/-- The FCI of the examples can be described, whatever the memory. -/
theorem appFci_describable (loc : Nat → List Byte → List Byte) : Describable loc appFci := by
  refine ⟨by decide, fun tag v h => ?_⟩
  have key : (BerSpec.beNat tag = 0x6F ∧ v.length = 9) ∨
      (BerSpec.beNat tag = 0x84 ∧ v = [0xA0, 0, 0, 0, 3]) ∨ (BerSpec.beNat tag = 0xA5 ∧ v = []) := by
    rcases within_inv h (rest := []) (n := 11)
      (t := ⟨0x6F, 0x60, [0x84, 0x05, 0xA0, 0, 0, 0, 3, 0xA5, 0]⟩) (by decide +kernel) with
      ⟨h1, h2⟩ | h | ⟨-, h⟩
    · exact .inl ⟨h1, by rw [h2]; rfl⟩
    · exact (within_nil h).elim
    · rcases within_inv h (rest := [0xA5, 0]) (n := 7) (t := ⟨0x84, 0x80, [0xA0, 0, 0, 0, 3]⟩)
        (by decide +kernel) with h | h | ⟨hc, -⟩
      · exact .inr (.inl h)
      · rcases within_inv h (rest := []) (n := 2) (t := ⟨0xA5, 0xA0, []⟩) (by decide +kernel) with
          h | h | ⟨-, h⟩
        · exact .inr (.inr h)
        · exact (within_nil h).elim
        · exact (within_nil h).elim
      · exact absurd hc (by decide)
  have hno : ∀ t ∈ [[0x8C], [0x8D], [0x9F, 0x38], [0x9F, 0x49]],
      BerSpec.beNat t ∉ [0x6F, 0x84, 0xA5] := by decide
  refine ⟨?_, fun ht => ?_⟩
  · unfold TlvInfo.Undefined
    rcases key with ⟨h1, h2⟩ | ⟨h1, h2⟩ | ⟨h1, h2⟩ <;> simp [h1, h2]
  · have := hno tag ht
    rcases key with ⟨h1, h2⟩ | ⟨h1, h2⟩ | ⟨h1, h2⟩ <;> simp [h1] at this

/-- A selection with the settings of `emv-tool`: by the theorem the output is defined for any memory
and tables; for the memory of the examples it is as follows. -/
example (env : TlvInfo.Env) (hs : TlvInfo.Sane env) (verbose : Bool) (es : List (Event × Scratch))
    (he : es.map (·.1) = [infoData 2 txt!"SELECT application" [0xA0, 0, 0, 0, 3],
      infoTlv 2 txt!"FCI" appFci]) (hm : ∀ p ∈ es, p.2.Sized) :
    ∃ out, output toolDefault verbose env es = .ok out ∧ Lines toolDefault verbose env es out :=
  C136_calls_partial env hs toolDefault verbose (fun _ => 0) [] Emv.Ctx.init
    [⟨⟨0x84, 0, [0xA0, 0, 0, 0, 3]⟩, [], 0, false, []⟩] 0 allocOk [] 0 [⟨0, appFci, 0x9000⟩]
    [.said (infoData 2 txt!"SELECT application" [0xA0, 0, 0, 0, 3]),
      .did (.select false [0xA0, 0, 0, 0, 3]) ⟨0, appFci, 0x9000⟩,
      .said (infoTlv 2 txt!"FCI" appFci)] (.inr (.inl ⟨_, rfl⟩)) es he hm
    (by
      intro cmd w hd p _
      simp only [List.mem_cons, List.not_mem_nil, or_false, reduceCtorEq, false_or, Entry.did.injEq] at hd
      rw [hd.2]
      exact appFci_describable _)

example : (output toolDefault false TlvInfo.noTables
    ([infoData 2 txt!"SELECT application" [0xA0, 0, 0, 0, 3], infoTlv 2 txt!"FCI" appFci].map
      fun e => (e, exScratch))).toOption =
    some (txt!"[TAL] SELECT application: A000000003" ++ [0x0A] ++
      txt!"[TAL] FCI: 6F098405A000000003A500" ++ [0x0A] ++
      txt!"  6F | File Control Information (FCI) Template : [9]" ++ [0x0A] ++
      txt!"    84 | Dedicated File (DF) Name : [5] A0 00 00 00 03 (Visa)" ++ [0x0A] ++
      txt!"    A5 | File Control Information (FCI) Proprietary Template : [0]" ++ [0x0A]) := by
  decide +kernel

end Verif.Trace
