import Verif.PcscConn
import Verif.PcscProps

/-!
# Connections and data exchange (C105)
-/

set_option autoImplicit false

namespace Verif.PcscConn
open Verif Verif.Pcsc

/-! ## Specification -/

/-- The open handles after what happened. -/
def liveAfter : List Nat → List Act → List Nat
  | live, [] => live
  | live, .opened h :: es => liveAfter (h :: live) es
  | live, .closed h :: es => liveAfter (live.erase h) es
  | live, .sent _ _ _ :: es => liveAfter live es

/-- Everything is sent over an open handle by a protocol the service knows. -/
def Proper : List Nat → List Act → Prop
  | _, [] => True
  | live, .opened h :: es => Proper (h :: live) es
  | live, .closed h :: es => Proper (live.erase h) es
  | live, .sent h p _ :: es => h ∈ live ∧ p ≠ .other ∧ Proper live es

/-- Answers fit the buffers they are received in. -/
def Op.Fits : Op → Prop
  | .connect s rx => rx.length = 12 ∧ ∀ a, s.uid = some a → a.length ≤ 12
  | .disconnect _ => True
  | .trx answer _ rx => ∀ a, answer = some a → a.length ≤ rx.length

/-- A failing `SCardConnect` leaves handle and protocol alone. -/
def Op.Keeps : Op → Prop
  | .connect s _ => s.failWrite = none
  | _ => True

/-! ## Lemmas -/

theorem proper_append (a b : List Act) : ∀ live, Proper live (a ++ b) ↔ Proper live a ∧ Proper (liveAfter live a) b := by
  induction a with
  | nil => intro live; simp [Proper, liveAfter]
  | cons x a ih =>
    intro live
    cases x <;> simp [Proper, liveAfter, ih, and_assoc]

theorem trx_ok (c : Conn) (answer : Option (List Byte)) (tx rx : List Byte)
    (h : ∀ a, answer = some a → a.length ≤ rx.length) :
    ∃ r rx' n e, trx c answer tx rx = .ok (r, rx', n, e) ∧ rx'.length = rx.length ∧ n ≤ rx.length ∧
      (c.protocol = .other → r = -1 ∧ e = [] ∧ rx' = rx ∧ n = rx.length) ∧
      (c.protocol ≠ .other → e = [.sent c.card c.protocol tx] ∧ (answer = none → r = -1 ∧ rx' = rx ∧ n = rx.length) ∧
        ∀ a, answer = some a → r = 0 ∧ n = a.length ∧ rx' = a ++ rx.drop a.length) := by
  unfold trx
  by_cases hp : c.protocol = .other
  · rw [if_pos hp]
    exact ⟨_, _, _, _, rfl, rfl, Nat.le_refl _, fun _ => ⟨rfl, rfl, rfl, rfl⟩, fun h => absurd hp h⟩
  · rw [if_neg hp]
    cases answer with
    | none =>
      exact ⟨_, _, _, _, rfl, rfl, Nat.le_refl _, fun h => absurd h hp,
        fun _ => ⟨rfl, fun _ => ⟨rfl, rfl, rfl⟩, fun a e => (by cases e)⟩⟩
    | some a =>
      have hl := h a rfl
      simp only [wrs_eq (show 0 + a.length ≤ rx.length by omega), bind_ok]
      exact ⟨_, _, _, _, rfl, by simp; omega, hl, fun h => absurd h hp,
        fun _ => ⟨rfl, fun e => (by cases e), fun a' e => (by cases e; exact ⟨rfl, rfl, by simp⟩)⟩⟩

theorem contactless_total (atr : List Byte) : ∃ b, pcscContactless atr = .ok b := by
  unfold pcscContactless
  split
  · next h =>
    rw [rd_eq (by omega), rd_eq (by omega), rd_eq (by omega), rd_eq (by omega)]
    exact ⟨_, rfl⟩
  · exact ⟨_, rfl⟩

theorem getUid_total (answer : Option (List Byte)) (cap : Nat) : ∃ r, getUid answer cap = .ok r := by
  unfold getUid
  split
  · exact ⟨_, rfl⟩
  · next rx =>
    split
    · exact ⟨_, rfl⟩
    · next h =>
      rw [rd_eq (by omega), rd_eq (by omega)]
      simp only [bind_ok]
      split
      · exact ⟨_, rfl⟩
      split
      · exact ⟨_, rfl⟩
      split
      · exact ⟨_, rfl⟩
      · rw [slice_eq (by omega)]; exact ⟨_, rfl⟩

/-- Connecting is what `Pcsc.connect` says of the card type and the ATR. -/
theorem connect_spec (s : ConnSvc) (rx : List Byte) (c : Conn) (hf : (Op.connect s rx).Fits) :
    ∃ r c' e, connect s rx c = .ok (r, c', e) ∧
      Pcsc.connect ⟨s.connect.isSome, s.status, s.garbage, if s.protocol = .other then none else s.uid, s.disconnect⟩
        c.reader = .ok (r, c'.reader) ∧
      (s.connect = none → e = [] ∧ (s.failWrite = none → c' = c)) ∧
      (∀ h p, s.connect = some (h, p) →
        (e = [.opened h, .closed h] ∧ c'.protocol = .other ∧ s.status = none ∧ s.disconnect = true) ∨
        (c'.card = h ∧ (s.status = none → s.disconnect = false) ∧
          (e = [.opened h] ∨ (c'.protocol ≠ .other ∧ e = [.opened h, .sent h c'.protocol uidRequest])))) := by
  obtain ⟨hrx, huid⟩ := hf
  unfold connect Pcsc.connect
  cases hc : s.connect with
  | none =>
    cases hw : s.failWrite with
    | none =>
      exact ⟨_, _, _, rfl, by simp, fun _ => ⟨rfl, fun _ => rfl⟩, fun h p e => (by cases e)⟩
    | some w =>
      exact ⟨_, _, _, rfl, by simp, fun _ => ⟨rfl, fun e => (by cases e)⟩, fun h p e => (by cases e)⟩
  | some w =>
    obtain ⟨h, p⟩ := w
    simp only [Option.isSome_some, not_true_eq_false, if_false]
    cases hst : s.status with
    | none =>
      cases hd : s.disconnect with
      | true =>
        exact ⟨_, _, _, rfl, rfl, fun e => (by cases e), fun h' p' e => (by cases e; exact .inl ⟨rfl, rfl, rfl, rfl⟩)⟩
      | false =>
        exact ⟨_, _, _, rfl, rfl, fun e => (by cases e), fun h' p' e => (by cases e; exact .inr ⟨rfl, fun _ => rfl, .inl rfl⟩)⟩
    | some atr =>
      obtain ⟨b, hb⟩ := contactless_total atr
      simp only [hb, bind_ok]
      cases b with
      | false =>
        exact ⟨_, _, _, rfl, rfl, fun e => (by cases e), fun h' p' e => (by cases e; exact .inr ⟨rfl, fun e => (by cases e), .inl rfl⟩)⟩
      | true =>
        simp only [if_true]
        obtain ⟨r, rx', n, e, e1, e2, e3, e4, e5⟩ := trx_ok
          ⟨h, s.protocol, { c.reader with atr := atr }⟩ s.uid uidRequest rx (by
            intro a ha; rw [hrx]; exact huid a ha)
        simp only [e1, bind_ok]
        rw [slice_eq (by omega)]
        simp only [bind_ok]
        have hans : (if r = 0 then some ((rx'.drop 0).take n) else none) =
            (if s.protocol = .other then none else s.uid) := by
          by_cases hp : s.protocol = .other
          · obtain ⟨rfl, -, -, -⟩ := e4 hp
            rw [if_pos hp]; rfl
          · rw [if_neg hp]
            obtain ⟨-, h1, h2⟩ := e5 hp
            cases hu : s.uid with
            | none => rw [(h1 hu).1]; rfl
            | some a =>
              obtain ⟨rfl, rfl, rfl⟩ := h2 a hu
              simp
        rw [hans]
        obtain ⟨u, hu⟩ := getUid_total (if s.protocol = .other then none else s.uid) 10
        rw [hu]
        simp only [bind_ok]
        have hev : (Act.opened h :: e = [.opened h] ∨
            (s.protocol ≠ .other ∧ Act.opened h :: e = [.opened h, .sent h s.protocol uidRequest])) := by
          by_cases hp : s.protocol = .other
          · rw [(e4 hp).2.1]; exact .inl rfl
          · rw [(e5 hp).1]; exact .inr ⟨hp, rfl⟩
        split
        · exact ⟨_, _, _, rfl, rfl, fun e => (by cases e), fun h' p' e => (by cases e; exact .inr ⟨rfl, fun e => (by cases e), hev⟩)⟩
        split
        · exact ⟨_, _, _, rfl, rfl, fun e => (by cases e), fun h' p' e => (by cases e; exact .inr ⟨rfl, fun e => (by cases e), hev⟩)⟩
        · exact ⟨_, _, _, rfl, rfl, fun e => (by cases e), fun h' p' e => (by cases e; exact .inr ⟨rfl, fun e => (by cases e), hev⟩)⟩

/-! ## Properties -/

/-- **C105** (all histories).  Whatever calls are made in whatever order and whatever the service answers,
data are sent only over a handle that was opened and is not closed, by protocol T=0 or T=1.  Missing:
services that overwrite the handle when connecting fails (`C105_stale_handle`). -/
theorem C105_live_partial (ops : List Op) (hf : ∀ o ∈ ops, o.Fits) (hk : ∀ o ∈ ops, o.Keeps) :
    ∃ c es, run ops .initial = .ok (c, es) ∧ Proper [] es ∧
      (c.protocol ≠ .other → c.card ∈ liveAfter [] es) := by
  suffices H : ∀ (ops : List Op) (c : Conn) (live : List Nat), (∀ o ∈ ops, o.Fits) → (∀ o ∈ ops, o.Keeps) →
      (c.protocol ≠ .other → c.card ∈ live) →
      ∃ c' es, run ops c = .ok (c', es) ∧ Proper live es ∧ (c'.protocol ≠ .other → c'.card ∈ liveAfter live es) from
    H ops .initial [] hf hk (fun h => absurd rfl h)
  clear hf hk ops
  intro ops
  induction ops with
  | nil => intro c live _ _ hi; exact ⟨c, [], rfl, trivial, hi⟩
  | cons o ops ih =>
    intro c live hf hk hi
    have hstep : ∃ c1 e, Proper live e ∧ (c1.protocol ≠ .other → c1.card ∈ liveAfter live e) ∧
        run (o :: ops) c = (do let (c', es) ← run ops c1; .ok (c', e ++ es)) := by
      cases o with
      | connect s rx =>
        obtain ⟨r, c1, e, e1, -, e2, e3⟩ := connect_spec s rx c (hf _ (by simp))
        refine ⟨c1, e, ?_, ?_, by rw [run, e1]; rfl⟩
        · cases hc : s.connect with
          | none => rw [(e2 hc).1]; trivial
          | some w =>
            rcases e3 w.1 w.2 hc with ⟨rfl, -⟩ | ⟨-, -, h | ⟨h1, h2⟩⟩
            · trivial
            · rw [h]; trivial
            · rw [h2]; exact ⟨by simp, h1, trivial⟩
        · intro hp
          cases hc : s.connect with
          | none =>
            obtain ⟨rfl, h2⟩ := e2 hc
            rw [h2 (hk (.connect s rx) (by simp))] at hp ⊢
            exact hi hp
          | some w =>
            rcases e3 w.1 w.2 hc with ⟨-, h, -⟩ | ⟨h, -, h' | ⟨h1, h2⟩⟩
            · exact absurd h hp
            · rw [h', h]; simp [liveAfter]
            · rw [h2, h]; simp [liveAfter]
      | disconnect ok =>
        cases ok with
        | true => exact ⟨⟨0, .other, ⟨[], .unknown⟩⟩, [.closed c.card], trivial, fun h => absurd rfl h, rfl⟩
        | false => exact ⟨c, [], trivial, hi, rfl⟩
      | trx answer tx rx =>
        obtain ⟨r, rx', n, e, e1, -, -, e4, e5⟩ := trx_ok c answer tx rx (hf (.trx answer tx rx) (by simp))
        refine ⟨c, e, ?_, ?_, by rw [run, e1]; rfl⟩
        · by_cases hp : c.protocol = .other
          · rw [(e4 hp).2.1]; trivial
          · rw [(e5 hp).1]; exact ⟨hi hp, hp, trivial⟩
        · intro hp
          rw [(e5 hp).1]
          exact hi hp
    obtain ⟨c1, e, h1, h2, h3⟩ := hstep
    obtain ⟨c', es, i1, i2, i3⟩ := ih c1 (liveAfter live e) (fun o ho => hf o (by simp [ho]))
      (fun o ho => hk o (by simp [ho])) h2
    refine ⟨c', e ++ es, by rw [h3, i1]; rfl, (proper_append _ _ _).mpr ⟨h1, i2⟩, ?_⟩
    have : ∀ (a b : List Act) live, liveAfter live (a ++ b) = liveAfter (liveAfter live a) b := by
      intro a b
      induction a with
      | nil => intro _; rfl
      | cons x a ih => intro live; cases x <;> simp [liveAfter, ih]
    rw [this]
    exact i3

/-- A contact card is connected, asked and disconnected; then nothing is sent. -/
example : run [.connect ⟨some (7, .t1), none, .t1, some [0x3B, 0x00], [], none, true⟩ (List.replicate 12 0),
      .trx (some [0x90, 0x00]) [0x00, 0xA4, 0x04, 0x00] [0, 0, 0], .disconnect true,
      .trx (some [0x90, 0x00]) [0x00, 0xA4, 0x04, 0x00] [0, 0, 0]] .initial =
    .ok (.initial, [.opened 7, .sent 7 .t1 [0x00, 0xA4, 0x04, 0x00], .closed 7]) := by decide

/-- **C105 is false otherwise**: when the service overwrites the handle of an open connection in a failing
attempt to connect again, the next data are sent to a handle that was never opened. -/
theorem C105_stale_handle : ∃ ops c es, (∀ o ∈ ops, o.Fits) ∧ run ops .initial = .ok (c, es) ∧ ¬ Proper [] es :=
  ⟨[.connect ⟨some (7, .t1), none, .t1, some [0x3B, 0x00], [], none, true⟩ (List.replicate 12 0),
    .connect ⟨none, some (0, .t1), .t1, none, [], none, true⟩ (List.replicate 12 0),
    .trx none [0x00, 0xA4, 0x04, 0x00] []], ⟨0, .t1, ⟨[0x3B, 0x00], .contact⟩⟩,
    [.opened 7, .sent 0 .t1 [0x00, 0xA4, 0x04, 0x00]],
    by simp [Op.Fits], by decide, by simp [Proper]⟩

/-- **C105** (exchange).  Over a connection exactly the bytes given are sent, once; a failure leaves the
receive buffer and its length, an answer is received completely with its length. -/
theorem C105_exchange (c : Conn) (answer : Option (List Byte)) (tx rx : List Byte)
    (h : ∀ a, answer = some a → a.length ≤ rx.length) :
    ∃ r rx' n e, trx c answer tx rx = .ok (r, rx', n, e) ∧
      (c.protocol = .other → r = -1 ∧ e = []) ∧
      (c.protocol ≠ .other → e = [.sent c.card c.protocol tx] ∧
        (answer = none → r = -1 ∧ rx' = rx ∧ n = rx.length) ∧
        ∀ a, answer = some a → r = 0 ∧ n = a.length ∧ rx'.length = rx.length ∧ rx'.take n = a ∧
          rx'.drop n = rx.drop n) := by
  obtain ⟨r, rx', n, e, e1, e2, -, e4, e5⟩ := trx_ok c answer tx rx h
  refine ⟨r, rx', n, e, e1, fun hp => ⟨(e4 hp).1, (e4 hp).2.1⟩, fun hp => ⟨(e5 hp).1, (e5 hp).2.1, ?_⟩⟩
  intro a ha
  obtain ⟨rfl, rfl, rfl⟩ := (e5 hp).2.2 a ha
  exact ⟨rfl, rfl, e2, by simp, by simp⟩

/-- **C105** (failing to connect).  When the card cannot be connected, or its status cannot be read and it
can be disconnected, no handle is left open.  Missing: failing requests of the UID
(`C105_left_connected`). -/
theorem C105_failed_partial (s : ConnSvc) (rx : List Byte) (c : Conn) (hf : (Op.connect s rx).Fits)
    (h : s.connect = none ∨ (s.status = none ∧ s.disconnect = true)) :
    ∃ r c' e, connect s rx c = .ok (r, c', e) ∧ r < 0 ∧ ∀ live, liveAfter live e = live := by
  obtain ⟨r, c', e, e1, e2, e3, e4⟩ := connect_spec s rx c hf
  refine ⟨r, c', e, e1, ?_, ?_⟩
  · unfold Pcsc.connect at e2
    cases hc : s.connect with
    | none =>
      simp [hc] at e2
      omega
    | some w =>
      obtain ⟨h1, h2⟩ := h.resolve_left (by simp [hc])
      simp [hc, h1, h2, Pcsc.disconnect] at e2
      omega
  · intro live
    cases hc : s.connect with
    | none => rw [(e3 hc).1]; rfl
    | some w =>
      obtain ⟨h1, h2⟩ := h.resolve_left (by simp [hc])
      rcases e4 w.1 w.2 hc with ⟨rfl, -⟩ | ⟨-, h3, -⟩
      · simp [liveAfter]
      · rw [h3 h1] at h2; cases h2

/-- **C105** (what connecting sends).  Whatever the service answers, connecting sends nothing or the one request for the
UID of a contactless card, FF CA 00 00 00 of PC/SC part 3, over the connection just made. -/
theorem C105_connect (s : ConnSvc) (rx : List Byte) (c : Conn) (hf : (Op.connect s rx).Fits) :
    ∃ r c' e, connect s rx c = .ok (r, c', e) ∧ ∀ h p tx, Act.sent h p tx ∈ e →
      tx = [0xFF, 0xCA, 0x00, 0x00, 0x00] ∧ p = c'.protocol ∧ e = [.opened h, .sent h p tx] := by
  obtain ⟨r, c', e, e1, -, e3, e4⟩ := connect_spec s rx c hf
  refine ⟨r, c', e, e1, fun h p tx hm => ?_⟩
  cases hc : s.connect with
  | none => rw [(e3 hc).1] at hm; cases hm
  | some w =>
    rcases e4 w.1 w.2 hc with ⟨rfl, -⟩ | ⟨-, -, rfl | ⟨-, rfl⟩⟩
    · simp at hm
    · simp at hm
    · simp only [List.mem_cons, reduceCtorEq, List.not_mem_nil, or_false, false_or, Act.sent.injEq] at hm
      obtain ⟨rfl, rfl, rfl⟩ := hm
      exact ⟨rfl, rfl, rfl⟩

/-- **C105 is false otherwise**: when a contactless card does not answer the UID request, connecting fails
but the card stays connected. -/
theorem C105_left_connected : ∃ s rx c' e, (Op.connect s rx).Fits ∧ s.disconnect = true ∧
    connect s rx .initial = .ok (-1, c', e) ∧ liveAfter [] e = [7] :=
  ⟨⟨some (7, .t1), none, .t1, some [0x3B, 0x80, 0x80, 0x01, 0x01], [], none, true⟩, List.replicate 12 0, _, _,
    by simp [Op.Fits], rfl, rfl, by decide⟩

end Verif.PcscConn
