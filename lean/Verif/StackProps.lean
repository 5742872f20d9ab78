import Verif.StackLemmas
import Verif.ToolFlowProps
import Verif.TtlProps
import Verif.TtlTrace

/-!
# C113: the transaction and the bytes exchanged
-/

set_option autoImplicit false

namespace Verif.Stack
open Verif Ber BerSpec TlvParse App Tal Emv Fields Ttl

/-! ## Specification -/

/-- The command APDU (EMV 4.4 Book 1, 11.2 and 11.3; Book 3, 6.5.8): SELECT by name, first or only or next
occurrence; READ RECORD of a file; GET PROCESSING OPTIONS, by default with an empty template. -/
def apdu : Cmd → List Byte
  | .select next name =>
    [0x00, 0xA4, 0x04, if next then 0x02 else 0x00, UInt8.ofNat name.length] ++ name ++ [0x00]
  | .readRecord sfi rec => [0x00, 0xB2, rec, UInt8.ofNat (sfi.toNat * 8 + 4), 0x00]
  | .gpo data =>
    [0x80, 0xA8, 0x00, 0x00, UInt8.ofNat (data.getD [0x83, 0x00]).length] ++ data.getD [0x83, 0x00] ++ [0x00]

/-- The transmission after `t` was answered by `rx`, which ends in `s1 s2`. -/
def FollowUp (t rx : List Byte) (s1 s2 : Byte) (u : List Byte) : Prop :=
  (s1 = 0x61 ∧ u = [0x00, 0xC0, 0x00, 0x00, s2]) ∨
  (s1 = 0x6C ∧ u = t.take 4 ++ [s2]) ∨
  (rx.length = 2 ∧ (s1 = 0x62 ∨ s1 = 0x63) ∧
    u = [0x00, 0xC0, 0x00, 0x00, if s1 = 0x62 ∧ 0x02 ≤ s2.toNat ∧ s2.toNat ≤ 0x80 then s2 else 0])

/-- The transmissions for a command, each answered before the next is made. -/
structure Sent (cmd : Cmd) (script : List Resp) (log : List (List Byte)) : Prop where
  first : log.head? = some (apdu cmd)
  next : ∀ i t u, log[i]? = some t → log[i + 1]? = some u → ∀ rx s1 s2, script[i]? = some (.data rx) →
    statusOf (.data rx) = some (s1, s2) → FollowUp t rx s1 s2 u

/-- A command with its result: what was transmitted and answered. -/
structure Exchange (cmd : Cmd) (w : W) (used : List Resp) (log : List (List Byte)) : Prop where
  sent : Sent cmd used log
  answered : log.length = used.length
  result : w.code = 0 → ∃ s1 s2, w.data = allData .apdu used ∧ w.data.length ≤ 256 ∧
    reported used = some (s1, s2) ∧ w.sw = s1.toNat * 256 + s2.toNat
  failed : w.code ≠ 0 → w.data = []

/-- Commands one after the other. -/
inductive Trace : List (Cmd × W) → List Resp → List (List Byte) → Prop where
  | nil : Trace [] [] []
  | cons {cmd : Cmd} {w : W} {u us : List Resp} {l ls : List (List Byte)} {tr : List (Cmd × W)}
      (h : Exchange cmd w u l) (t : Trace tr us ls) : Trace ((cmd, w) :: tr) (u ++ us) (l ++ ls)

/-! ## One command -/

theorem wrapper_eq (cmd : Cmd) (h : Fit cmd) (script : List Resp) :
    wrapper .apdu cmd script = stripped (trx .apdu (apdu cmd) (List.replicate 258 0) script) := by
  cases cmd with
  | select next name => exact ((C27_select _ .apdu name 256 script).2 (by omega) h.1 h.2).2
  | readRecord sfi rec => exact ((C27_read_record .apdu sfi rec 256 script).2 (by omega) h.1 h.2).2
  | gpo data =>
    refine ((C27_gpo .apdu data 256 script).2 _ (by omega) rfl ?_ ?_ ?_).2
    all_goals
      cases data with
      | none => decide
      | some d =>
        have := h d rfl
        first | exact this.1 | exact this.2.1 | exact this.2.2

theorem four_apdu (cmd : Cmd) : 4 ≤ (apdu cmd).length := by
  cases cmd <;> simp [apdu] <;> omega

theorem apdu_case (cmd : Cmd) (h : Fit cmd) : Apdu.apduCase (apdu cmd) = .ok (.ok .c4S) ∨ Apdu.apduCase (apdu cmd) = .ok (.ok .c2S) := by
  cases cmd with
  | select next name => exact .inl ((C27_select _ .apdu name 256 []).2 (by omega) h.1 h.2).1
  | readRecord sfi rec => exact .inr ((C27_read_record .apdu sfi rec 256 []).2 (by omega) h.1 h.2).1
  | gpo data =>
    refine .inl ((C27_gpo .apdu data 256 []).2 _ (by omega) rfl ?_ ?_ ?_).1
    all_goals
      cases data with
      | none => decide
      | some d =>
        have := h d rfl
        first | exact this.1 | exact this.2.1 | exact this.2.2

theorem run_length {capdu : List Byte} {mode : Mode} {c : Apdu.Case} {script : List Resp} :
    ∀ {st : St} {log : List (List Byte)} {o : Outcome}, run capdu mode c script st = .ok (log, o) →
      log ≠ [] ∧ (o = .pending → log.length = script.length + 1) := by
  induction script with
  | nil =>
    intro st log o h
    unfold run at h
    cases ht : txBytes capdu st with
    | error e => rw [ht] at h; cases h
    | ok t => rw [ht] at h; cases h; simp
  | cons r rs ih =>
    intro st log o h
    unfold run at h
    cases ht : txBytes capdu st with
    | error e => rw [ht] at h; cases h
    | ok t =>
      rw [ht, bind_ok] at h
      match hs : step capdu mode c st r with
      | .error e => rw [hs] at h; cases h
      | .ok (.inr d) => rw [hs] at h; cases h; simp
      | .ok (.inl st') =>
        rw [hs, bind_ok] at h
        simp only at h
        match hr : run capdu mode c rs st' with
        | .error e => rw [hr] at h; cases h
        | .ok (log', o') =>
          rw [hr, bind_ok] at h
          cases h
          refine ⟨by simp, fun hp => ?_⟩
          rw [List.length_cons, (ih hr).2 hp, List.length_cons]

theorem trx_run' (cmd : Cmd) (h : Fit cmd) (script : List Resp) :
    ∃ c st, trx .apdu (apdu cmd) (List.replicate 258 0) script = run (apdu cmd) .apdu c script st := by
  have h4 := four_apdu cmd
  unfold trx
  rw [if_neg (by rw [List.length_replicate]; omega)]
  rcases apdu_case cmd h with e | e <;> rw [e] <;> exact ⟨_, _, rfl⟩

theorem wrapper_spec (cmd : Cmd) (h : Fit cmd) (script : List Resp) :
    ∃ log o, wrapper .apdu cmd script = .ok (log, o) ∧
      (o = .pending ∧ Sent cmd script log ∧ log.length = script.length + 1 ∨
       ∃ d used rest, o = .done d rest ∧ script = used ++ rest ∧ used ≠ [] ∧
        Exchange cmd ⟨d.code, d.data, d.sw⟩ used log) := by
  rw [wrapper_eq cmd h]
  obtain ⟨log, o, hx, hlog⟩ := C24_headers_partial .apdu (apdu cmd) (List.replicate 258 0) script two_le_258 (.inl rfl)
  obtain ⟨c, st, hrun⟩ := trx_run' cmd h script
  rw [hrun] at hx
  obtain ⟨hne, hpend⟩ := run_length hx
  rw [← hrun] at hx
  have hsent : Sent cmd script log := by
    rcases hlog with rfl | ⟨more, rfl, hmore⟩
    · exact absurd rfl hne
    · refine ⟨rfl, fun i t u ht hu rx s1 s2 hr hs => ?_⟩
      have ht4 : 4 ≤ t.length := by
        have := List.mem_of_getElem? ht
        rcases List.mem_cons.mp this with rfl | hm
        · exact four_apdu cmd
        · rcases hmore t hm with ⟨le, rfl⟩ | ⟨le, rfl⟩
          · simp
          · have := four_apdu cmd
            rw [List.length_append, List.length_take]
            omega
      obtain ⟨f1, f2, f3⟩ := C24_follow_up _ _ _ _ _ _ hx i t u rx s1 s2 ht hu hr hs
      by_cases h61 : s1 = 0x61
      · exact .inl ⟨h61, f1 h61⟩
      · by_cases h6c : s1 = 0x6C
        · exact .inr (.inl ⟨h6c, f2 h6c ht4⟩)
        · obtain ⟨-, g1, g2, g3⟩ := f3 h61 h6c
          exact .inr (.inr ⟨g1, g2, g3⟩)
  rw [hx]
  cases o with
  | pending => exact ⟨log, .pending, rfl, .inl ⟨rfl, hsent, hpend rfl⟩⟩
  | done d rest =>
    have hp := trx_post .apdu (apdu cmd) (List.replicate 258 0) script two_le_258
    rw [hx] at hp
    obtain ⟨used, hu, hl, -⟩ := hp
    have hul : used ≠ [] := by
      rintro rfl
      exact hne (List.length_eq_zero_iff.mp hl)
    have hs' : Sent cmd used log := by
      refine ⟨hsent.first, fun i t u ht hu' rx s1 s2 hr hs => hsent.next i t u ht hu' rx s1 s2 ?_ hs⟩
      rw [hu, List.getElem?_append_left (List.getElem?_eq_some_iff.mp hr).1]
      exact hr
    by_cases h0 : d.code = 0
    · have e : stripped (.ok (log, .done d rest)) = .ok (log, .done ⟨0, d.rbuf.take (d.rlen - 2), d.sw⟩ rest) := if_pos h0
      refine ⟨log, _, e, .inr ⟨_, used, rest, rfl, hu, hul, hs', hl, fun _ => ?_, fun h => absurd rfl h⟩⟩
      obtain ⟨used', s1, s2, g1, g2, g3, g4, g5, g6⟩ := C27_delivers .apdu (apdu cmd) script log _ rest (by rw [hx]; exact e) rfl
      have : used' = used := List.append_cancel_right (g1.symm.trans hu)
      subst this
      exact ⟨s1, s2, g3, g4, g5, g6⟩
    · have e : stripped (.ok (log, .done d rest)) = .ok (log, .done ⟨d.code, [], d.sw⟩ rest) := if_neg h0
      exact ⟨log, _, e, .inr ⟨_, used, rest, rfl, hu, hul, hs', hl, fun h => absurd h h0, fun _ => rfl⟩⟩

/-! ## Driving -/

/-- The end of a run over the transport layer after the exchanges `p`. -/
def DrivePost {α : Type} (prog : List W → C (Run α)) (p : List (Cmd × W)) (script : List Resp) :
    C (List (List Byte) × Ending α) → Prop
  | .error e => ∃ tr us ls rest, Trace tr us ls ∧ script = us ++ rest ∧ prog ((p ++ tr).map (·.2)) = .error e
  | .ok (log, .waiting) => ∃ tr us ls cmd more l, Trace tr us ls ∧ script = us ++ more ∧ log = ls ++ l ∧
      prog ((p ++ tr).map (·.2)) = .ok (p ++ tr, .pending cmd) ∧ Sent cmd more l ∧ l.length = more.length + 1
  | .ok (log, .done tr a rest) => ∃ tr' us, tr = p ++ tr' ∧ Trace tr' us log ∧ script = us ++ rest ∧
      prog (tr.map (·.2)) = .ok (tr, .done a [])

theorem drive_spec {α : Type} (prog : List W → C (Run α)) (hon : Online prog) (fuel : Nat) :
    ∀ p script, script.length < fuel → Starts p (prog (p.map (·.2))) →
      DrivePost prog p script (drive prog .apdu fuel (p.map (·.2)) script) := by
  induction fuel with
  | zero => intro p script h; omega
  | succ fuel ih =>
    intro p script hf hst
    unfold drive
    have ho := hon (p.map (·.2))
    unfold OnlineAt at ho
    generalize hx : prog (p.map (·.2)) = x at hst ho
    match x, hst, ho with
    | .error e, _, _ => exact ⟨[], [], [], script, .nil, rfl, by rw [List.append_nil]; exact hx⟩
    | .ok (tr, .done a rest), hst, ho =>
      obtain ⟨t, rfl⟩ := hst
      have hl := congrArg List.length ho.1
      simp only [List.length_map, List.length_append] at hl
      have ht : t = [] := List.length_eq_zero_iff.mp (by omega)
      have hr : rest = [] := List.length_eq_zero_iff.mp (by omega)
      subst ht hr
      rw [List.append_nil] at hx
      exact ⟨[], [], rfl, .nil, rfl, by rw [List.append_nil]; exact hx⟩
    | .ok (tr, .pending cmd), hst, ho =>
      obtain ⟨t, rfl⟩ := hst
      obtain ⟨ho1, hfit, ho2⟩ := ho
      have hl := congrArg List.length ho1
      simp only [List.length_map, List.length_append] at hl
      have ht : t = [] := List.length_eq_zero_iff.mp (by omega)
      subst ht
      rw [List.append_nil] at hx ho2
      obtain ⟨log, o, hw, ⟨rfl, h1, h2⟩ | ⟨d, used, rest, rfl, rfl, hne, he⟩⟩ := wrapper_spec cmd hfit script
      · simp only [bind_ok, hw]
        exact ⟨[], [], [], cmd, script, log, .nil, rfl, rfl, by rw [List.append_nil]; exact hx, h1, h2⟩
      · simp only [bind_ok, hw]
        have hnx := ho2 ⟨d.code, d.data, d.sw⟩ []
        have hn := List.length_pos_iff.mpr hne
        have := ih (p ++ [(cmd, ⟨d.code, d.data, d.sw⟩)]) rest (by rw [List.length_append] at hf; omega)
          (by rw [List.map_append]; exact hnx)
        rw [List.map_append] at this
        simp only [List.map_cons, List.map_nil] at this
        generalize drive prog .apdu fuel (p.map (·.2) ++ [⟨d.code, d.data, d.sw⟩]) rest = y at this
        match y, this with
        | .error e, ⟨tr, us, ls, rest', k1, k2, k3⟩ =>
          exact ⟨(cmd, ⟨d.code, d.data, d.sw⟩) :: tr, used ++ us, log ++ ls, rest', .cons he k1,
            by rw [k2, List.append_assoc], by rw [← k3]; simp⟩
        | .ok (log', .waiting), ⟨tr, us, ls, cmd', more, l, k1, k2, k3, k4, k5⟩ =>
          refine ⟨(cmd, ⟨d.code, d.data, d.sw⟩) :: tr, used ++ us, log ++ ls, cmd', more, l, .cons he k1,
            by rw [k2, List.append_assoc], by rw [k3, List.append_assoc], ?_, k5⟩
          simpa using k4
        | .ok (log', .done tr a rest'), ⟨tr', us, k1, k2, k3, k4⟩ =>
          exact ⟨(cmd, ⟨d.code, d.data, d.sw⟩) :: tr', used ++ us, by rw [k1]; simp, .cons he k2,
            by rw [k3, List.append_assoc], k4⟩

theorem starts_nil {α : Type} (x : C (Run α)) : Starts [] x := by
  match x with
  | .error _ => trivial
  | .ok (tr, _) => exact List.nil_prefix

attribute [local irreducible] drive DrivePost in
/-- **C113** (kernel).  Each function of the kernel over the bytes of the reader does what it does over the results of
commands, and these are exchanged as `Trace` says: what C37 to C42 and C63 state holds of the bytes. -/
theorem C113_kernel (script : List Resp) :
    (∀ supported apps, DrivePost (Emv.build supported apps) [] script
      (drive (Emv.build supported apps) .apdu (script.length + 1) [] script)) ∧
    (∀ ctx apps i, DrivePost (Emv.select ctx apps i) [] script
      (drive (Emv.select ctx apps i) .apdu (script.length + 1) [] script)) ∧
    (∀ alloc buf ctx pos, DrivePost (Emv.initiate alloc buf ctx pos) [] script
      (drive (Emv.initiate alloc buf ctx pos) .apdu (script.length + 1) [] script)) ∧
    (∀ alloc ctx, DrivePost (Emv.readData alloc ctx) [] script
      (drive (Emv.readData alloc ctx) .apdu (script.length + 1) [] script)) :=
  ⟨fun _ _ => drive_spec _ (online_build _ _) _ [] _ (Nat.lt_succ_self _) (starts_nil _),
   fun _ _ _ => drive_spec _ (online_select _ _ _) _ [] _ (Nat.lt_succ_self _) (starts_nil _),
   fun _ _ _ _ => drive_spec _ (online_initiate _ _ _ _) _ [] _ (Nat.lt_succ_self _) (starts_nil _),
   fun _ _ => drive_spec _ (online_readData _ _) _ [] _ (Nat.lt_succ_self _) (starts_nil _)⟩

theorem trace_mem {tr : List (Cmd × W)} {us : List Resp} {ls : List (List Byte)} (h : Trace tr us ls) :
    ∀ x ∈ tr, ∃ u l, Exchange x.1 x.2 u l ∧ u <:+: us := by
  induction h with
  | nil => intro x hx; cases hx
  | @cons _ _ u0 _ _ _ _ he _ ih =>
    intro x hx
    rcases List.mem_cons.mp hx with rfl | hx
    · exact ⟨_, _, he, [], _, rfl⟩
    · obtain ⟨u, l, h1, a, b, h2⟩ := ih x hx
      exact ⟨u, l, h1, u0 ++ a, b, by rw [← h2]; simp⟩

theorem trace_small {tr : List (Cmd × W)} {us : List Resp} {ls : List (List Byte)} (h : Trace tr us ls) :
    ∀ w ∈ tr.map (·.2), w.data.length < 2 ^ 24 := by
  intro w hw
  obtain ⟨x, hx, rfl⟩ := List.mem_map.mp hw
  obtain ⟨u, l, he, -⟩ := trace_mem h x hx
  by_cases h0 : x.2.code = 0
  · obtain ⟨-, -, -, h1, -⟩ := he.result h0
    omega
  · rw [he.failed h0]
    decide

/-- Success is reported, but none of the answers carries data. -/
def NoData (used : List Resp) : Prop :=
  allData .apdu used = [] ∧ (reported used = some (0x90, 0x00) ∨ reported used = some (0x62, 0x83))

theorem bare_empty {cmd : Cmd} {w : W} {u : List Resp} {l : List (List Byte)} (he : Exchange cmd w u l) (hb : Bare w) :
    NoData u := by
  obtain ⟨h0, h1, h2⟩ := hb
  obtain ⟨s1, s2, h3, -, h4, h5⟩ := he.result h0
  refine ⟨by rw [← h3, h2], ?_⟩
  have a := s1.toNat_lt
  have b := s2.toNat_lt
  rw [h4]
  rcases h1 with h1 | h1
  · left
    rw [h5] at h1
    have e1 : s1 = 0x90 := UInt8.toNat_inj.mp (by change s1.toNat = 144; omega)
    have e2 : s2 = 0x00 := UInt8.toNat_inj.mp (by change s2.toNat = 0; omega)
    rw [e1, e2]
  · right
    rw [h5] at h1
    have e1 : s1 = 0x62 := UInt8.toNat_inj.mp (by change s1.toNat = 98; omega)
    have e2 : s2 = 0x83 := UInt8.toNat_inj.mp (by change s2.toNat = 131; omega)
    rw [e1, e2]

/-- How a transaction over the reader ends. -/
def BytesPost (alloc : List Tlv → Tlv → Bool) (ctx : Ctx) (input : List Byte) (script : List Resp) :
    C (List (List Byte) × Ending ToolTxn.End) → Prop
  | .error _ => ∃ tr us ls rest, Trace tr us ls ∧ script = us ++ rest ∧ ∃ used, used <:+: us ∧ NoData used
  | .ok (log, .waiting) => ∃ tr us ls cmd more l, Trace tr us ls ∧ script = us ++ more ∧ log = ls ++ l ∧
      Sent cmd more l ∧ l.length = more.length + 1
  | .ok (log, .done tr e rest) => ∃ us, Trace tr us log ∧ script = us ++ rest ∧
      ToolTxn.TxnPost alloc ctx input (tr.map (·.2)) (.ok (tr, .done e []))

/-- The transaction of the tool over a reader in APDU mode. -/
def overReader (alloc : List Tlv → Tlv → Bool) (mem : Nat → List Byte) (ctx : Ctx) (input : List Byte)
    (script : List Resp) : C (List (List Byte) × Ending ToolTxn.End) :=
  drive (ToolTxn.transaction alloc mem ctx input) .apdu (script.length + 1) [] script

attribute [local irreducible] ToolTxn.transaction in
/-- **C113.**  For every terminal data, every input and every sequence of answers of the reader, byte by byte: the
transaction is a sequence of commands, each transmitted as its APDU and the follow-ups the card asks for, answered in
turn, with the data and status of its answers as result.  It ends as C110 says, or waits for the reader, or a command
was answered with success and without data. -/
theorem C113_bytes (alloc : List Tlv → Tlv → Bool) (mem : Nat → List Byte) (hmem : ∀ n, (mem n).length = 255)
    (ctx : Ctx) (input : List Byte) (script : List Resp) :
    BytesPost alloc ctx input script (overReader alloc mem ctx input script) := by
  unfold overReader
  have := drive_spec (ToolTxn.transaction alloc mem ctx input) (online_transaction alloc mem ctx input)
    (script.length + 1) [] script (Nat.lt_succ_self _) (starts_nil _)
  simp only [List.map_nil] at this
  generalize drive (ToolTxn.transaction alloc mem ctx input) .apdu (script.length + 1) [] script = y at this
  match y, this with
  | .error e, ⟨tr, us, ls, rest, k1, k2, k3⟩ =>
    refine ⟨tr, us, ls, rest, k1, k2, ?_⟩
    rw [List.nil_append] at k3
    have hp := ToolTxn.C110_transaction alloc mem hmem ctx input (tr.map (·.2)) (trace_small k1)
    rw [k3] at hp
    obtain ⟨w, hw, hb⟩ := hp
    obtain ⟨x, hx, rfl⟩ := List.mem_map.mp hw
    obtain ⟨u, l, he, hu⟩ := trace_mem k1 x hx
    exact ⟨u, hu, bare_empty he hb⟩
  | .ok (log, .waiting), ⟨tr, us, ls, cmd, more, l, k1, k2, k3, _, k4, k5⟩ =>
    exact ⟨tr, us, ls, cmd, more, l, k1, k2, k3, k4, k5⟩
  | .ok (log, .done tr e rest), ⟨tr', us, k0, k1, k2, k3⟩ =>
    rw [List.nil_append] at k0
    subst k0
    refine ⟨us, k1, k2, ?_⟩
    have hp := ToolTxn.C110_transaction alloc mem hmem ctx input (tr.map (·.2)) (trace_small k1)
    rw [k3] at hp
    exact hp

attribute [local irreducible] overReader in
/-- **C113**, partial.  No card leads to undefined behaviour, as long as success comes with data.  Missing: other
cards (`C29_empty_record`). -/
theorem C113_safe_partial (alloc : List Tlv → Tlv → Bool) (mem : Nat → List Byte) (hmem : ∀ n, (mem n).length = 255)
    (ctx : Ctx) (input : List Byte) (script : List Resp) (hne : ∀ used, used <:+: script → ¬ NoData used) :
    C.Safe (overReader alloc mem ctx input script) := by
  have := C113_bytes alloc mem hmem ctx input script
  generalize overReader alloc mem ctx input script = y at this
  match y, this with
  | .ok y, _ => exact ⟨y, rfl⟩
  | .error e, ⟨tr, us, ls, rest, k1, k2, used, ⟨a, b, k3⟩, k4⟩ =>
    exact absurd k4 (hne used ⟨a, b ++ rest, by rw [k2, ← k3]; simp⟩)

attribute [local irreducible] overReader in
/-- **C113** (success).  When a transaction over the reader is completed, the fields shown are those in the bytes the
reader delivered: the answers used are those to the commands in order, and the transaction is completed with their
data. -/
theorem C113_success (alloc : List Tlv → Tlv → Bool) (mem : Nat → List Byte) (hmem : ∀ n, (mem n).length = 255)
    (ctx : Ctx) (input : List Byte) (script : List Resp) (log : List (List Byte)) (tr : List (Cmd × W))
    (e : ToolTxn.End) (rest : List Resp) (h : overReader alloc mem ctx input script = .ok (log, .done tr e rest))
    (hd : e.how = .done) :
    ∃ us, script = us ++ rest ∧ Trace tr us log ∧ ToolTxn.Completed ctx input (tr.map (·.2)) tr e := by
  have hp := C113_bytes alloc mem hmem ctx input script
  rw [h] at hp
  obtain ⟨us, h1, h2, h3⟩ := hp
  exact ⟨us, h2, h1, ToolTxn.completed (trace_small h1) h3 hd⟩

/-- What is transmitted, and how it ends, for examples. -/
def seen (x : C (List (List Byte) × Ending ToolTxn.End)) : Option (List (List Byte) × ToolTxn.How) :=
  match x with
  | .ok (log, .done _ e _) => some (log, e.how)
  | _ => none

/-- A card with one application; the FCI is fetched by GET RESPONSE, the record repeated with the right length. -/
example :
    let a : List Byte := [0xA0, 0, 0, 0, 4]
    let fci : List Byte := [0x6F, 0x07, 0x84, 0x05, 0xA0, 0, 0, 0, 4]
    let gpo : List Byte := [0x77, 0x0A, 0x82, 0x02, 0x39, 0, 0x94, 4, 8, 1, 1, 0]
    let rec1 : List Byte := [0x70, 13, 0x5A, 1, 0x12, 0x5F, 0x24, 1, 0x31, 0x8C, 1, 0x9A, 0x8D, 1, 0x8A]
    let ctx : Ctx := { Ctx.init with supported := [⟨0x9F06, 0, a⟩] }
    seen (overReader (fun _ _ => true) (fun _ => List.replicate 255 0) ctx []
      [.data [0x6A, 0x82], .data (fci ++ [0x90, 0]), .data [0x61, 9], .data (fci ++ [0x90, 0]), .data (gpo ++ [0x90, 0]),
       .data [0x6C, 15], .data (rec1 ++ [0x90, 0])]) =
    some ([[0, 0xA4, 4, 0, 14] ++ pseName ++ [0], [0, 0xA4, 4, 0, 5] ++ a ++ [0],
      [0, 0xA4, 4, 0, 5] ++ a ++ [0], [0, 0xC0, 0, 0, 9], [0x80, 0xA8, 0, 0, 2, 0x83, 0, 0],
      [0, 0xB2, 1, 0x0C, 0], [0, 0xB2, 1, 0x0C, 15]], .done) := by
  decide +kernel

end Verif.Stack
