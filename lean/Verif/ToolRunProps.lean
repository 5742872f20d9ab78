import Verif.ToolMainProps

/-!
# C114: what a run of `emv-tool` sends, shows and leaves behind
-/

set_option autoImplicit false

namespace Verif.ToolMain
open Verif Ber Pcsc PcscInit PcscConn

/-! ## Specification -/

/-- The bytes sent to the card and the connection they are sent over. -/
def sentOver (acts : List Act) : List (Nat × Protocol × List Byte) :=
  acts.filterMap fun | .sent h p tx => some (h, p, tx) | _ => none

/-- The connections made. -/
def openings (acts : List Act) : List Nat := acts.filterMap fun | .opened h => some h | _ => none

/-- What is printed when a reader has a card. -/
def cardText (w : World) (i : Nat) (name : List Byte) : List Byte :=
  txt!"Reader " ++ Lists.decimal i ++ txt!": " ++ name ++ txt!"; " ++
    ((w.state.map (· % 2 ^ 32)).bind ToolReaders.stateText).getD txt!"Unknown state" ++ txt!"\nCard detected\n\n"

/-- The program got to the PC/SC service with these options, after printing `pre`. -/
def Prepared (w : World) (args : List ToolArgs.Opt) (o : ToolArgs.Opts) : Prop :=
  args ≠ [] ∧ ToolArgs.parse .init args = .ok (.set o) ∧
    ∃ r st, Codes.stringsInit w.files o.isocodes o.mcc Codes.fresh = .ok (.ok (r, st)) ∧ 0 ≤ r

/-- The transaction of a run: the data it starts with, the bytes sent, and its end. -/
def Runs (w : World) (m : Mem) (o : ToolArgs.Opts) (ctx : Emv.Ctx) (log : List (List Byte))
    (e : Stack.Ending ToolTxn.End) : Prop :=
  ToolTxn.load m.alloc (m.obj 6) w.tm o = .ok ctx ∧
    Stack.overReader m.alloc m.pdol ctx w.input (w.answers.map (received w.conn.protocol)) = .ok (log, e)

/-! ## Theorems -/

theorem emvParse_code {atr : List Byte} {k : Int} (hne : atr ≠ []) (h : Atr.emvParse atr = .ok k) : k = 0 ∨ k = 1 := by
  rw [Atr.emvParse_pos atr (List.length_pos_iff.mpr hne)] at h
  unfold Atr.emvRules at h
  obtain ⟨x, -, h⟩ := bind_inv h
  cases x with
  | error e => cases h; exact .inr rfl
  | ok info =>
    iterate 9 obtain ⟨_, -, h⟩ := bind_inv h
    split at h
    · cases h; exact .inr rfl
    · split at h <;> cases h
      · exact .inl rfl
      · exact .inr rfl

/-- Which message a failing transaction ends with. -/
theorem last_message {alloc : List Tlv → Tlv → Bool} {ctx : Emv.Ctx} {input : List Byte} {script rest : List Tal.W}
    {tr : List (Tal.Cmd × Tal.W)} {e : ToolTxn.End} (hp : ToolTxn.TxnPost alloc ctx input script (.ok (tr, .done e rest)))
    (h1 : e.how ≠ .stuck) (h2 : e.how ≠ .done) :
    ∃ r s body, e.how = .code r ∧ r ≠ 0 ∧ (r, s) ∈ ToolTxn.codes ∧ e.out = body ++ [.text s] := by
  obtain ⟨-, tr0, r, apps, rest0, -, -, ⟨hr, h3, -, s, hs, hout⟩ | ⟨-, req, e1, tr1, tr2, rest1, -, hrd, -, hcase⟩⟩ := hp
  · exact ⟨r, s, [_], h3, hr, hs, hout⟩
  · rcases hcase with ⟨h4, -, rfl⟩ | ⟨-, r2, -, ⟨hr, h3, s, hs, hout⟩ | ⟨-, h3, -⟩⟩
    · obtain ⟨-, -, -, left, input', picks, tr1', shown, -, ⟨h3, -⟩ | ⟨i, k, a, t, text, how, -, -, -, -, hout, hhow, hl, -⟩⟩ := hrd
      · exact absurd h3 h1
      · have key : ∀ r s pre, how = some r → r ≠ 0 → (r, s) ∈ ToolTxn.codes → text = pre ++ [.text s] →
            ∃ r s body, e.how = .code r ∧ r ≠ 0 ∧ (r, s) ∈ ToolTxn.codes ∧ e.out = body ++ [.text s] := by
          intro r s pre h5 h6 h7 h8
          rw [h8, ← List.append_assoc] at hout
          exact ⟨r, s, _, by rw [hhow, h5], h6, h7, hout⟩
        rcases hl with ⟨h5, -, -, h6⟩ | ⟨h5, -, h6⟩ | ⟨h5, -, h6⟩ | ⟨w1, fci, more, tx, -, -, h6, ⟨h5, -, -, rfl⟩ | ⟨h5, -, rfl⟩ | ⟨h5, -, rfl⟩ | ⟨h5, -⟩⟩
        · exact key 3 _ [] h5 (by decide) (by decide) h6
        · exact key 2 _ [] h5 (by decide) (by decide) h6
        · exact key 1 _ [] h5 (by decide) (by decide) h6
        · exact key 5 _ [_] h5 (by decide) (by decide) h6
        · exact key 1 _ [_] h5 (by decide) (by decide) h6
        · exact key (-1) _ [_] h5 (by decide) (by decide) h6
        · rw [h5] at hhow; exact absurd hhow h2
    · exact ⟨r2, s, e1.out ++ [.text txt!"\nRead application data\n"], h3, hr, hs, by rw [hout]; simp⟩
    · exact absurd h3 h2

/-- The run did not end with the card deactivated. -/
def NotDone (res : Result) : Prop := res.ending = .exit 0 → res.out.getLast? ≠ some (.text txt!"\nCard deactivated\n")

theorem notDone {res : Result} {pre tail : List ToolTxn.Item} {x : ToolTxn.Item} (ho : res.out = pre ++ tail)
    (ht : tail.getLast? = some x) (hx : x ≠ .text txt!"\nCard deactivated\n") : NotDone res := by
  intro _ h
  rw [ho, List.getLast?_append, ht] at h
  injection h with h
  exact hx h

attribute [local irreducible] Stack.overReader in
/-- What is done with the card in a run after the command line. -/
theorem session_card (w : World) (m : Mem) (hf : Fits w m) (o : ToolArgs.Opts) (out : List ToolTxn.Item) (res : Result)
    (h : Session w m o out res) :
    (cardOf res.trace = [] ∧ NotDone res) ∨
    ∃ hd p, w.conn.connect = some (hd, p) ∧
      ((cardOf res.trace = [.opened hd, .closed hd] ∧ NotDone res ∧ w.conn.status = none) ∨
       ∃ first log last, cardOf res.trace = .opened hd :: first ++ log.map (.sent hd w.conn.protocol) ++ last ∧
        (first = [] ∨ (w.conn.protocol ≠ .other ∧ first = [.sent hd w.conn.protocol uidRequest])) ∧
        ((log = [] ∧ last = [] ∧ NotDone res) ∨ ∃ atr ctx log' e, Contact w.conn atr ∧ Atr.emvParse atr = .ok 0 ∧
          ToolTxn.load m.alloc (m.obj 6) w.tm o = .ok ctx ∧
          Stack.overReader m.alloc m.pdol ctx w.input (w.answers.map (received w.conn.protocol)) = .ok (log', e) ∧
          log = (if w.conn.protocol = .other then [] else log') ∧
          ((∃ tr x rest, e = .done tr x rest ∧ x.how = .done ∧ w.disconnect = true ∧ last = [.closed hd] ∧
              res.ending = .exit 0 ∧ res.out.getLast? = some (.text txt!"\nCard deactivated\n")) ∨
            (last = [] ∧ NotDone res)))) := by
  obtain ⟨r, c, e, -, ⟨-, h, ho⟩ | ⟨c0, listing, k, idx, c', -, -, -, -, -, ⟨-, h, ho⟩ | ⟨-, rd, name, acts, -, -, hg, ha⟩⟩⟩ := h
  · left
    refine ⟨by rw [h, cardOf_append, cardOf_svc, cardOf_svc]; rfl, ?_⟩
    rcases ho with ⟨-, ho⟩ | ⟨-, -, ho⟩
    · exact notDone ho rfl (by decide)
    · exact notDone ho rfl (by decide)
  · left
    refine ⟨by rw [h, cardOf_append, cardOf_svc, cardOf_svc]; rfl, ?_⟩
    rcases ho with ⟨-, ho⟩ | ⟨-, ho⟩
    · exact notDone (x := .text txt!"PC/SC error\n") ho rfl (by decide)
    · exact notDone (x := .text txt!"No card; exiting\n") ho rfl (by decide)
  have hacts : cardOf res.trace = acts := by
    rcases hg with ⟨-, h⟩ | ⟨-, h⟩
    · rw [h, cardOf_append, cardOf_append, cardOf_svc, cardOf_svc, cardOf_card]; simp
    · rw [h, cardOf_append, cardOf_svc, cardOf_card]; rfl
  rw [hacts]
  obtain ⟨r, cn, a, h1, ha⟩ := ha
  obtain ⟨s1, s2, s3, s4, s5, s6⟩ := connected_spec w m hf r cn a h1
  have hfail : r < 0 → acts = a ∧ NotDone res := by
    intro hr
    rcases ha with ⟨-, -, h2, ho⟩ | ⟨h2, -⟩ | ⟨h2, -⟩ | ⟨h2, -⟩ | ⟨h2, -⟩
    · exact ⟨h2, notDone ho rfl (by decide)⟩
    all_goals omega
  cases hc : w.conn.connect with
  | none =>
    obtain ⟨rfl, hr⟩ := s5 hc
    exact .inl (hfail hr)
  | some x =>
    obtain ⟨hd, p⟩ := x
    refine .inr ⟨hd, p, rfl, ?_⟩
    rcases s6 hd p hc with ⟨rfl, hst, hr⟩ | ⟨k1, k2, k3⟩
    · exact .inl ⟨(hfail hr).1, (hfail hr).2, hst⟩
    · right
      obtain ⟨first, hfirst, hfst⟩ : ∃ first, a = .opened hd :: first ∧
          (first = [] ∨ (w.conn.protocol ≠ .other ∧ first = [.sent hd w.conn.protocol uidRequest])) := by
        rcases k3 with rfl | ⟨h2, rfl⟩
        · exact ⟨[], rfl, .inl rfl⟩
        · rw [k2] at h2 ⊢
          exact ⟨_, rfl, .inr ⟨h2, rfl⟩⟩
      have hpl : acts = a → acts = .opened hd :: first ++ ([] : List (List Byte)).map (.sent hd w.conn.protocol) ++ [] := by
        rintro rfl
        rw [hfirst]; simp
      rcases ha with ⟨-, -, he, ho⟩ | ⟨-, -, -, he, ho⟩ | ⟨rfl, hg0, k, hk, ⟨hk0, -, he, ho⟩ | ⟨rfl, acts', he, ht⟩⟩ | ⟨-, -, he, ho⟩ | ⟨-, -, -, -, he, ho⟩
      · exact ⟨first, [], [], hpl he, hfst, .inl ⟨rfl, rfl, notDone ho rfl (by decide)⟩⟩
      · exact ⟨first, [], [], hpl he, hfst, .inl ⟨rfl, rfl, notDone ho rfl (by decide)⟩⟩
      · have hne : (getAtr cn.reader).2 ≠ [] := by
          obtain ⟨atr, hct⟩ := s2.mp rfl
          have hn : atr ≠ [] := fun e => (s4 atr hct).2.1 e hg0
          rw [(s4 atr hct).2.2 hn]; exact hn
        obtain rfl : k = 1 := by rcases emvParse_code hne hk with h | h; exact absurd h hk0; exact h
        exact ⟨first, [], [], hpl he, hfst, .inl ⟨rfl, rfl, notDone ho rfl (by decide)⟩⟩
      · obtain ⟨ctx, script, log, en, t1, t2, t3, t4⟩ := ht
        obtain ⟨atr, hct⟩ := s2.mp rfl
        obtain ⟨-, b1, b2⟩ := s4 atr hct
        have hne : atr ≠ [] := fun h => b1 h hg0
        rw [b2 hne] at hk
        rw [deliver_eq _ _ _ (by rw [hf.obj]; exact hf.answers)] at t2
        injection t2 with t2
        rw [k2] at t2
        subst t2
        have hb := Stack.C113_bytes m.alloc m.pdol hf.pdol ctx w.input (w.answers.map (received w.conn.protocol))
        rw [t3] at hb
        have hsend : sends cn log = (if w.conn.protocol = .other then [] else log).map (.sent hd w.conn.protocol) := by
          rw [sends_eq, k1, k2]
          split <;> rfl
        obtain ⟨last, hl1, hl2⟩ : ∃ last, acts' = sends cn log ++ last ∧
            ((∃ tr x rest, en = .done tr x rest ∧ x.how = .done ∧ w.disconnect = true ∧ last = [.closed hd] ∧
              res.ending = .exit 0 ∧ res.out.getLast? = some (.text txt!"\nCard deactivated\n")) ∨
            (last = [] ∧ NotDone res)) := by
          rcases t4 with ⟨-, h5, h4, -⟩ | ⟨tr, x, rest, rfl, ⟨-, h5, h4, -⟩ | ⟨h0, h3, h4, ho⟩ | ⟨h5, h6, -, h4, ho⟩⟩
          · exact ⟨[], by rw [h4]; simp, .inr ⟨rfl, fun h => by rw [h5] at h; cases h⟩⟩
          · exact ⟨[], by rw [h4]; simp, .inr ⟨rfl, fun h => by rw [h5] at h; cases h⟩⟩
          · cases hdis : w.disconnect with
            | true =>
              rw [hdis, k1] at h4
              rw [hdis] at ho
              exact ⟨_, h4, .inl ⟨tr, x, rest, rfl, h0, rfl, rfl, h3, by rw [ho, List.getLast?_append]; rfl⟩⟩
            | false =>
              rw [hdis] at h4 ho
              exact ⟨_, h4, .inr ⟨rfl, notDone ho rfl (by decide)⟩⟩
          · obtain ⟨us, -, -, hp⟩ := hb
            obtain ⟨r, s, body, -, -, hs, hx⟩ := last_message hp h5 h6
            rw [hx, ← List.append_assoc] at ho
            refine ⟨[], by rw [h4]; simp, .inr ⟨rfl, notDone ho rfl ?_⟩⟩
            have : ∀ e ∈ ToolTxn.codes, e.2 ≠ txt!"\nCard deactivated\n" := by decide
            intro e
            injection e with e
            exact this _ hs e
        refine ⟨first, _, last, ?_, hfst, .inr ⟨atr, ctx, log, en, hct, hk, t1, t3, rfl, hl2⟩⟩
        rw [he, hl1, hfirst, hsend]
        simp
      · exact ⟨first, [], [], hpl he, hfst, .inl ⟨rfl, rfl, notDone ho rfl (by decide)⟩⟩
      · exact ⟨first, [], [], hpl he, hfst, .inl ⟨rfl, rfl, notDone ho rfl (by decide)⟩⟩

/-- What is done with the card in any run. -/
theorem main_card (w : World) (m : Mem) (hf : Fits w m) (args : List ToolArgs.Opt) (res : Result)
    (h : main w m args = .ok res) :
    (cardOf res.trace = [] ∧ ((∃ o, Prepared w args o) → NotDone res)) ∨
    ∃ hd p, w.conn.connect = some (hd, p) ∧
      ((cardOf res.trace = [.opened hd, .closed hd] ∧ NotDone res ∧ w.conn.status = none) ∨
       ∃ first log last, cardOf res.trace = .opened hd :: first ++ log.map (.sent hd w.conn.protocol) ++ last ∧
         (first = [] ∨ (w.conn.protocol ≠ .other ∧ first = [.sent hd w.conn.protocol uidRequest])) ∧
         ((log = [] ∧ last = [] ∧ NotDone res) ∨ ∃ o atr ctx log' e, Prepared w args o ∧ Contact w.conn atr ∧
           Atr.emvParse atr = .ok 0 ∧ Runs w m o ctx log' e ∧ log = (if w.conn.protocol = .other then [] else log') ∧
           ((∃ tr x rest, e = .done tr x rest ∧ x.how = .done ∧ w.disconnect = true ∧ last = [.closed hd] ∧
               res.ending = .exit 0 ∧ res.out.getLast? = some (.text txt!"\nCard deactivated\n")) ∨
            (last = [] ∧ NotDone res)))) := by
  have hprep : ∀ x, ToolArgs.parse .init args = .ok x → (∀ o, x ≠ .set o) → ¬ ∃ o, Prepared w args o := by
    rintro x hx hn ⟨o, -, ho, -⟩
    rw [hx] at ho
    cases ho
    exact hn o rfl
  rcases main_inv _ _ _ _ h with ⟨h0, rfl⟩ | ⟨p, h0, hp, ⟨msg, rfl, rfl⟩ | ⟨rfl, rfl⟩ | ⟨o, s, rfl, hs, ⟨rfl, rfl⟩ | ⟨r, st, rfl, ⟨hr, rfl⟩ | ⟨hr, extra, -, hs', -⟩⟩⟩⟩
  · exact .inl ⟨rfl, fun ⟨o, h, _⟩ => absurd h0 h⟩
  · exact .inl ⟨rfl, fun h => absurd h (hprep _ hp fun o h => by cases h)⟩
  · exact .inl ⟨rfl, fun h => absurd h (hprep _ hp fun o h => by cases h)⟩
  · exact .inl ⟨rfl, fun _ h => by cases h⟩
  · exact .inl ⟨rfl, fun _ h => by cases h⟩
  rcases session_card _ _ hf _ _ _ hs' with ⟨h1, h1'⟩ | ⟨hd, p, h1, h2 | ⟨first, log, last, h2, h3, h4 | ⟨atr, ctx, log', e, h4, h5, h6, h7, h8, h9⟩⟩⟩
  · exact .inl ⟨h1, fun _ => h1'⟩
  · exact .inr ⟨hd, p, h1, .inl h2⟩
  · exact .inr ⟨hd, p, h1, .inr ⟨first, log, last, h2, h3, .inl h4⟩⟩
  · exact .inr ⟨hd, p, h1, .inr ⟨first, log, last, h2, h3, .inr ⟨o, atr, ctx, log', e, ⟨h0, hp, r, st, hs, hr⟩, h4, h5, ⟨h6, h7⟩, h8, h9⟩⟩⟩

/-- **C114** (sending).  At most one connection to a card is made.  Everything is sent over it while it is open, by the
protocol the card was found to have, which is T=0 or T=1. -/
theorem C114_sent (w : World) (m : Mem) (hf : Fits w m) (args : List ToolArgs.Opt) (res : Result)
    (h : main w m args = .ok res) :
    (openings (cardOf res.trace)).length ≤ 1 ∧ Proper [] (cardOf res.trace) ∧
    ∀ hd p tx, (hd, p, tx) ∈ sentOver (cardOf res.trace) →
      p = w.conn.protocol ∧ ∃ q, w.conn.connect = some (hd, q) := by
  have hopen : ∀ (hd : Nat) (l : List (List Byte)) (p : Protocol), openings (l.map (.sent hd p)) = [] := by
    intro hd l p
    induction l with
    | nil => rfl
    | cons x l ih => exact ih
  have hsent : ∀ (hd : Nat) (l : List (List Byte)) (p : Protocol), sentOver (l.map (.sent hd p)) = l.map fun x => (hd, p, x) := by
    intro hd l p
    induction l with
    | nil => rfl
    | cons x l ih => exact congrArg (_ :: ·) ih
  rcases main_card w m hf args res h with ⟨h1, -⟩ | ⟨hd, q, hq, ⟨h1, -⟩ | ⟨first, log, last, h1, h2, h3⟩⟩
  · rw [h1]; exact ⟨Nat.zero_le _, trivial, fun _ _ _ hm => absurd hm (by simp [sentOver])⟩
  · rw [h1]; exact ⟨Nat.le_refl _, by simp [Proper], fun _ _ _ hm => absurd hm (by simp [sentOver])⟩
  · rw [h1]
    have hlast : last = [] ∨ last = [.closed hd] := by
      rcases h3 with ⟨-, h3, -⟩ | ⟨-, -, -, -, -, -, -, -, -, -, ⟨-, -, -, -, -, -, h3, -⟩ | ⟨h3, -⟩⟩
      · exact .inl h3
      · exact .inr h3
      · exact .inl h3
    have hlog : log ≠ [] → w.conn.protocol ≠ .other := by
      rcases h3 with ⟨h3, -⟩ | ⟨-, -, -, log', -, -, -, -, -, h3, -⟩
      · intro h; exact absurd h3 h
      · intro h hp; rw [if_pos hp] at h3; exact absurd h3 h
    have hrest : ∀ (live : List Nat), Proper live last := by
      intro live
      rcases hlast with rfl | rfl <;> trivial
    have hlog' : ∀ live : List Nat, hd ∈ live → Proper live (log.map (.sent hd w.conn.protocol) ++ last) := by
      intro live hl
      by_cases he : log = []
      · rw [he]; exact hrest _
      · exact proper_sends hd _ (hlog he) log live hl last (hrest _)
    refine ⟨?_, ?_, ?_⟩
    · have e1 : openings (.opened hd :: first ++ log.map (.sent hd w.conn.protocol) ++ last) =
          hd :: openings first ++ openings (log.map (.sent hd w.conn.protocol)) ++ openings last := by
        simp [openings]
      rw [e1, hopen]
      rcases h2 with rfl | ⟨-, rfl⟩ <;> rcases hlast with rfl | rfl <;> simp [openings]
    · rw [List.append_assoc, List.cons_append]
      change Proper [hd] _
      rcases h2 with rfl | ⟨hp, rfl⟩
      · exact hlog' _ (by simp)
      · exact ⟨by simp, hp, hlog' _ (by simp)⟩
    · intro h' p tx hm
      have e1 : sentOver (.opened hd :: first ++ log.map (.sent hd w.conn.protocol) ++ last) =
          sentOver first ++ (log.map fun x => (hd, w.conn.protocol, x)) ++ sentOver last := by
        rw [← hsent]; simp [sentOver]
      rw [e1] at hm
      simp only [List.mem_append, List.mem_map] at hm
      rcases hm with (hm | ⟨x, -, hm⟩) | hm
      · rcases h2 with rfl | ⟨-, rfl⟩
        · cases hm
        · cases List.mem_singleton.mp hm
          exact ⟨rfl, q, hq⟩
      · cases hm; exact ⟨rfl, q, hq⟩
      · rcases hlast with rfl | rfl <;> simp [sentOver] at hm

attribute [local irreducible] Stack.overReader in
/-- **C114** (commands).  Apart from the request for a UID, which is sent first and once, something is sent to a card
only when it is a contact card and its ATR is accepted.  Then it is commands of the transaction: those answered by the
bytes received, in order, and perhaps one more. -/
theorem C114_commands (w : World) (m : Mem) (hf : Fits w m) (args : List ToolArgs.Opt) (res : Result)
    (h : main w m args = .ok res) :
    ∃ first log, (sentOver (cardOf res.trace)).map (·.2.2) = first ++ log ∧ (first = [] ∨ first = [uidRequest]) ∧
      (log = [] ∨ ∃ atr tr us ls more l, Contact w.conn atr ∧ Atr.emvParse atr = .ok 0 ∧
        w.answers.map (received w.conn.protocol) = us ++ more ∧ Stack.Trace tr us ls ∧ log = ls ++ l ∧
        (l = [] ∨ ∃ cmd, Stack.Sent cmd more l)) := by
  have hsent : ∀ (hd : Nat) (l : List (List Byte)) (p : Protocol), (sentOver (l.map (.sent hd p))).map (·.2.2) = l := by
    intro hd l p
    induction l with
    | nil => rfl
    | cons x l ih => exact congrArg (x :: ·) ih
  rcases main_card w m hf args res h with ⟨h1, -⟩ | ⟨hd, q, hq, ⟨h1, -⟩ | ⟨first, log, last, h1, h2, h3⟩⟩
  · rw [h1]; exact ⟨[], [], rfl, .inl rfl, .inl rfl⟩
  · rw [h1]; exact ⟨[], [], rfl, .inl rfl, .inl rfl⟩
  · rw [h1]
    have hlast : last = [] ∨ last = [.closed hd] := by
      rcases h3 with ⟨-, h3, -⟩ | ⟨-, -, -, -, -, -, -, -, -, -, ⟨-, -, -, -, -, -, h3, -⟩ | ⟨h3, -⟩⟩
      · exact .inl h3
      · exact .inr h3
      · exact .inl h3
    have e1 : (sentOver (.opened hd :: first ++ log.map (.sent hd w.conn.protocol) ++ last)).map (·.2.2) =
        (sentOver first).map (·.2.2) ++ log := by
      have : sentOver (.opened hd :: first ++ log.map (.sent hd w.conn.protocol) ++ last) =
          sentOver first ++ sentOver (log.map (.sent hd w.conn.protocol)) ++ sentOver last := by
        simp [sentOver]
      rw [this, List.map_append, List.map_append, hsent]
      rcases hlast with rfl | rfl <;> simp [sentOver]
    refine ⟨_, log, e1, ?_, ?_⟩
    · rcases h2 with rfl | ⟨-, rfl⟩
      · exact .inl rfl
      · exact .inr rfl
    · rcases h3 with ⟨h3, -⟩ | ⟨o, atr, ctx, log', e, -, h4, h5, ⟨-, h7⟩, h8, -⟩
      · exact .inl h3
      · by_cases hp : w.conn.protocol = .other
        · rw [if_pos hp] at h8; exact .inl h8
        · right
          rw [if_neg hp] at h8
          subst h8
          have hb := Stack.C113_bytes m.alloc m.pdol hf.pdol ctx w.input (w.answers.map (received w.conn.protocol))
          rw [h7] at hb
          match e, hb with
          | .waiting, ⟨tr, us, ls, cmd, more, l, k1, k2, k3, k4, _⟩ =>
            exact ⟨atr, tr, us, ls, more, l, h4, h5, k2, k1, k3, .inr ⟨cmd, k4⟩⟩
          | .done tr x rest, ⟨us, k1, k2, _⟩ =>
            exact ⟨atr, tr, us, log, rest, [], h4, h5, k2, k1, by simp, .inl rfl⟩

/-- How the program ends after the transaction, and what is printed from then on: the output of the transaction, and a
line about the card when it is completed.  A transaction that fails has printed the text of a code last. -/
def Concluded (w : World) (e : Stack.Ending ToolTxn.End) (out : List ToolTxn.Item) (ending : Ending) : Prop :=
  match e with
  | .waiting => ending = .waiting
  | .done _ x _ =>
    (x.how = .stuck ∧ ending = .asking ∧ out = x.out) ∨
    (x.how = .done ∧ ending = .exit 0 ∧ out = x.out ++ [.text (if w.disconnect then txt!"\nCard deactivated\n"
      else txt!"PC/SC reader deactivation failed\n")]) ∨
    (ending = .exit 0 ∧ out = x.out ∧ ∃ r s body, x.how = .code r ∧ r ≠ 0 ∧ (r, s) ∈ ToolTxn.codes ∧
      out = body ++ [.text s])

/-- What is printed once a card is found, and how the program ends. -/
def CardPart (w : World) (m : Mem) (o : ToolArgs.Opts) (tail : List ToolTxn.Item) (ending : Ending) : Prop :=
  (Contactless w.conn → ending = .exit 0 ∧
    tail = [.text txt!"Card activated\n", .text txt!"Contactless not (yet) supported\n"]) ∧
  (¬ Contactless w.conn → (∀ atr, ¬ Contact w.conn atr) → ending = .exit 0 ∧
    tail = [.text txt!"PC/SC reader activation failed\n"]) ∧
  ∀ atr, Contact w.conn atr →
    (atr = [] → ending = .exit 0 ∧ tail = [.text txt!"Card activated\n", .text txt!"Failed to retrieve ATR\n"]) ∧
    (atr ≠ [] → Atr.emvParse atr ≠ .ok 0 → ending = .exit 0 ∧
      tail = [.text txt!"Card activated\n", .text txt!"OUTCOME: Card error\n"]) ∧
    (atr ≠ [] → Atr.emvParse atr = .ok 0 → ∃ ctx log e, Runs w m o ctx log e ∧
      ∃ out, tail = [.text txt!"Card activated\n", .text txt!"\nTerminal config:\n", .fields ctx.config,
          .text txt!"\nSupported AIDs:\n", .fields ctx.supported, .text txt!"\nTransaction parameters:\n",
          .fields ctx.params] ++ out ∧
        Concluded w e out ending)

attribute [local irreducible] Stack.overReader in
theorem activated_part (w : World) (m : Mem) (hf : Fits w m) (o : ToolArgs.Opts) (out : List ToolTxn.Item)
    (acts : List Act) (res : Result) (h : Activated w m o out acts res) :
    ∃ tail, res.out = out ++ tail ∧ CardPart w m o tail res.ending := by
  obtain ⟨r, cn, a, h1, ha⟩ := h
  obtain ⟨s1, s2, s3, s4, s5, s6⟩ := connected_spec w m hf r cn a h1
  have uniq : ∀ atr atr', Contact w.conn atr → Contact w.conn atr' → atr = atr' := by
    intro atr atr' h h'
    have := h.2.1.symm.trans h'.2.1
    cases this; rfl
  rcases ha with ⟨hr, he, -, ho⟩ | ⟨rfl, hg, he, -, ho⟩ | ⟨rfl, hg, k, hk, ⟨hk0, he, -, ho⟩ | ⟨rfl, acts', -, ht⟩⟩ | ⟨rfl, he, -, ho⟩ | ⟨h0, h1', h2', -⟩
  · refine ⟨_, ho, fun h => ?_, fun _ _ => ⟨he, rfl⟩, fun atr h => ?_⟩
    · have := s1.mpr h; omega
    · have := s2.mpr ⟨atr, h⟩; omega
  · refine ⟨_, ho, fun h => ?_, fun _ h => ?_, fun atr h => ⟨fun _ => ⟨he, rfl⟩, fun h0 => ?_, fun h0 => ?_⟩⟩
    · have := s1.mpr h; omega
    · obtain ⟨atr, h'⟩ := s2.mp rfl; exact absurd h' (h atr)
    · rw [(s4 atr h).2.2 h0] at hg; exact absurd rfl hg
    · rw [(s4 atr h).2.2 h0] at hg; exact absurd rfl hg
  · have hne : (getAtr cn.reader).2 ≠ [] := by
      obtain ⟨atr, hct⟩ := s2.mp rfl
      have hn : atr ≠ [] := fun e => (s4 atr hct).2.1 e hg
      rw [(s4 atr hct).2.2 hn]; exact hn
    obtain rfl : k = 1 := by rcases emvParse_code hne hk with h | h; exact absurd h hk0; exact h
    refine ⟨_, ho, fun h => ?_, fun _ h => ?_, fun atr h => ⟨fun h0 => ?_, fun h0 _ => ⟨he, rfl⟩, fun h0 h' => ?_⟩⟩
    · have := s1.mpr h; omega
    · obtain ⟨atr, h'⟩ := s2.mp rfl; exact absurd h' (h atr)
    · exact absurd hg ((s4 atr h).2.1 h0)
    · rw [(s4 atr h).2.2 h0] at hk; simp only at hk; rw [hk] at h'; cases h'
  · obtain ⟨ctx, script, log, en, t1, t2, t3, t4⟩ := ht
    obtain ⟨atr, hct⟩ := s2.mp rfl
    obtain ⟨k2, b1, b2⟩ := s4 atr hct
    have hne : atr ≠ [] := fun h => b1 h hg
    rw [deliver_eq _ _ _ (by rw [hf.obj]; exact hf.answers)] at t2
    injection t2 with t2
    rw [k2] at t2
    subst t2
    have hb := Stack.C113_bytes m.alloc m.pdol hf.pdol ctx w.input (w.answers.map (received w.conn.protocol))
    rw [t3] at hb
    obtain ⟨tail, o1, o2⟩ : ∃ tail, res.out = out ++ tail ∧ ∃ o', tail = [.text txt!"Card activated\n"] ++ shown ctx ++ o' ∧
        Concluded w en o' res.ending := by
      rcases t4 with ⟨rfl, h3, -, h4⟩ | ⟨tr, x, rest, rfl, ⟨h3, h4, -, h5⟩ | ⟨h3, h4, -, h5⟩ | ⟨h3, h3', h4, -, h5⟩⟩
      · exact ⟨_, by rw [h4, List.append_assoc, List.append_assoc], _, by rw [List.append_assoc], h3⟩
      · exact ⟨_, by rw [h5, List.append_assoc, List.append_assoc], _, by rw [List.append_assoc], .inl ⟨h3, h4, rfl⟩⟩
      · exact ⟨_, by rw [h5, List.append_assoc, List.append_assoc, List.append_assoc], _, by rw [List.append_assoc],
          .inr (.inl ⟨h3, h4, rfl⟩)⟩
      · obtain ⟨us, -, -, hp⟩ := hb
        exact ⟨_, by rw [h5, List.append_assoc, List.append_assoc], _, by rw [List.append_assoc],
          .inr (.inr ⟨h4, rfl, last_message hp h3 h3'⟩)⟩
    refine ⟨tail, o1, fun h => ?_, fun _ h => ?_, fun atr' h => ?_⟩
    · have := s1.mpr h; omega
    · exact absurd hct (h atr)
    · obtain rfl := uniq _ _ hct h
      refine ⟨fun h0 => absurd h0 hne, fun h0 h' => ?_, fun h0 h' => ⟨ctx, log, en, ⟨t1, t3⟩, ?_⟩⟩
      · rw [b2 hne] at hk; exact absurd hk h'
      · obtain ⟨o', q1, q2⟩ := o2
        exact ⟨o', q1, q2⟩
  · refine ⟨_, ho, fun _ => ⟨he, rfl⟩, fun h _ => ?_, fun atr h => ?_⟩
    · exact absurd (s1.mp rfl) h
    · have := s2.mpr ⟨atr, h⟩; omega
  · omega

/-- What is printed before the service is asked: each complaint in its case, and the usage. -/
def Preface (w : World) (o : ToolArgs.Opts) (pre : List ToolTxn.Item) : Prop :=
  (.error txt!"Transaction amount (--txn-amount) argument must be non-zero\n" ∈ pre ↔ o.txnType ≠ 0x30 ∧ o.amount = 0) ∧
  (.error txt!"Secondary transaction amount (--txn-amount-other) must be non-zero for cashback transaction\n" ∈ pre ↔
    o.txnType = 0x09 ∧ o.amountOther = 0) ∧
  (.error txt!"Failed to load iso-codes data or mcc-codes data; currency, country, language or MCC lookups may not be possible\n" ∈ pre ↔
    ∃ r st, Codes.stringsInit w.files o.isocodes o.mcc Codes.fresh = .ok (.ok (r, st)) ∧ 0 < r) ∧
  ∀ s, .text s ∈ pre → s = w.help

/-- The service lists the readers `ns`; reader `i` has the features `fs i` and the properties `es i`. -/
structure Lists (w : World) (ns : List (List Byte)) (fs : Nat → List (Byte × Byte × Byte × Byte × Byte))
    (es : Nat → List (Byte × List Byte)) : Prop where
  up : w.svc.establish = true
  list : ∃ n rest, w.svc.size = some n ∧ w.svc.list = some (multi ns ++ rest) ∧ (multi ns ++ rest).length ≤ n
  names : Names ns
  few : ns.length < 2 ^ 64
  readers : ∀ i, ToolReaders.Describes (w.svc.reader i) (fs i) (es i)

/-- What is printed about the readers. -/
def listing (w : World) (ns : List (List Byte)) (fs : Nat → List (Byte × Byte × Byte × Byte × Byte))
    (es : Nat → List (Byte × List Byte)) : List Byte :=
  txt!"\nPC/SC readers:\n" ++ ns.zipIdx.flatMap fun (n, i) => ToolReaders.readerText i n
    (fun x => (fs i).any fun e => e.1.toNat = x) (ToolReaders.propsOf (w.svc.reader i) (fs i) (es i))
    ((w.states i).map (· % 2 ^ 32))

theorem preface_cases (p q r : Prop) [Decidable p] [Decidable q] [Decidable r] (a b c help : List Byte) (n1 : a ≠ b)
    (n2 : a ≠ c) (n3 : b ≠ c) :
    let l := ((if p then [ToolTxn.Item.error a, .text help] else []) ++ if q then [.error b, .text help] else []) ++
      if r then [.error c] else []
    (.error a ∈ l ↔ p) ∧ (.error b ∈ l ↔ q) ∧ (.error c ∈ l ↔ r) ∧ ∀ s, .text s ∈ l → s = help := by
  have n1' := n1.symm
  have n2' := n2.symm
  have n3' := n3.symm
  by_cases h1 : p <;> by_cases h2 : q <;> by_cases h3 : r <;> simp [h1, h2, h3, n1, n2, n3, n1', n2', n3']

theorem preface (w : World) (o : ToolArgs.Opts) (r : Int) (st : _)
    (hs : Codes.stringsInit w.files o.isocodes o.mcc Codes.fresh = .ok (.ok (r, st))) :
    Preface w o (warnings w o ++ if r > 0 then [.error txt!"Failed to load iso-codes data or mcc-codes data; currency, country, language or MCC lookups may not be possible\n"] else []) := by
  have hr : (∃ r st, Codes.stringsInit w.files o.isocodes o.mcc Codes.fresh = .ok (.ok (r, st)) ∧ 0 < r) ↔ 0 < r := by
    rw [hs]
    constructor
    · rintro ⟨r', st', e, h⟩; cases e; exact h
    · intro h; exact ⟨r, st, rfl, h⟩
  unfold Preface
  rw [hr]
  unfold warnings
  have n1 : txt!"Transaction amount (--txn-amount) argument must be non-zero\n" ≠
    txt!"Secondary transaction amount (--txn-amount-other) must be non-zero for cashback transaction\n" := by decide
  have n2 : txt!"Transaction amount (--txn-amount) argument must be non-zero\n" ≠
    txt!"Failed to load iso-codes data or mcc-codes data; currency, country, language or MCC lookups may not be possible\n" := by
    decide
  have n3 : txt!"Secondary transaction amount (--txn-amount-other) must be non-zero for cashback transaction\n" ≠
    txt!"Failed to load iso-codes data or mcc-codes data; currency, country, language or MCC lookups may not be possible\n" := by
    decide
  generalize txt!"Transaction amount (--txn-amount) argument must be non-zero\n" = a at *
  generalize txt!"Secondary transaction amount (--txn-amount-other) must be non-zero for cashback transaction\n" = b at *
  generalize txt!"Failed to load iso-codes data or mcc-codes data; currency, country, language or MCC lookups may not be possible\n" = c at *
  exact preface_cases _ _ _ a b c w.help n1 n2 n3

attribute [local irreducible] Stack.overReader in
/-- **C114** (course).  What is printed and how the program ends, by what it meets: complaints about the options and
files; no service, no readers; the list of the readers and the request for a card; an error, nothing, or no card; and
for the first reader with a card its name and state, followed by what depends on the card (`CardPart`). -/
theorem C114_course (w : World) (m : Mem) (hf : Fits w m) (args : List ToolArgs.Opt) (res : Result)
    (h : main w m args = .ok res) (o : ToolArgs.Opts) (ho : Prepared w args o) :
    ∃ pre, Preface w o pre ∧
    (w.svc.establish = false ∨ w.svc.size = none ∨ w.svc.list = none →
      res.ending = .exit 0 ∧ res.out = pre ++ [.text txt!"PC/SC initialisation failed\n"]) ∧
    ∀ ns fs es, Lists w ns fs es →
      (ns = [] → res.ending = .exit 0 ∧ res.out = pre ++ [.text txt!"No PC/SC readers detected\n"]) ∧
      (ns ≠ [] → Honest ns.length w.change →
        (w.change (List.replicate ns.length stEmpty) = .fail → res.ending = .exit 0 ∧
          res.out = pre ++ [.text (listing w ns fs es), .text txt!"\nPresent card\n", .text txt!"PC/SC error\n"]) ∧
        (w.change (List.replicate ns.length stEmpty) = .timeout → res.ending = .exit 0 ∧
          res.out = pre ++ [.text (listing w ns fs es), .text txt!"\nPresent card\n", .text txt!"No card; exiting\n"]) ∧
        ∀ l, w.change (List.replicate ns.length stEmpty) = .states l →
          ((∀ (i x : Nat), l[i]? = some x → x.testBit 5 = false) → res.ending = .exit 0 ∧
            res.out = pre ++ [.text (listing w ns fs es), .text txt!"\nPresent card\n", .text txt!"No card; exiting\n"]) ∧
          ∀ (i x : Nat), l[i]? = some x → x.testBit 5 = true → (∀ (j y : Nat), j < i → l[j]? = some y → y.testBit 5 = false) →
            ∃ name tail, ns[i]? = some name ∧
              res.out = pre ++ [.text (listing w ns fs es), .text txt!"\nPresent card\n", .text (cardText w i name)] ++ tail ∧
              CardPart w m o tail res.ending) := by
  obtain ⟨h0, hp, r, st, hs, hr⟩ := ho
  rcases main_inv _ _ _ _ h with ⟨h0', -⟩ | ⟨p, -, hp', hcase⟩
  · exact absurd h0' h0
  rw [hp] at hp'
  cases hp'
  rcases hcase with ⟨msg, h1, -⟩ | ⟨h1, -⟩ | ⟨o', s', h1, hs', hcase⟩
  · cases h1
  · cases h1
  cases h1
  rw [hs] at hs'
  cases hs'
  rcases hcase with ⟨h1, -⟩ | ⟨r', st', h1, ⟨hr', -⟩ | ⟨-, extra, -, hses, rfl⟩⟩
  · cases h1
  · cases h1; omega
  cases h1
  refine ⟨_, preface w o r st hs, ?_, ?_⟩
  · intro hfail
    obtain ⟨e, hi, -⟩ := C102_failure w.svc m.obj m.card hfail
    obtain ⟨r1, c1, e1, h1, hcase⟩ := hses
    rw [hi] at h1
    cases h1
    rcases hcase with ⟨he, -, ⟨-, ho⟩ | ⟨h1, -⟩⟩ | ⟨_, _, _, _, _, h1, -⟩
    · exact ⟨he, ho⟩
    · cases h1
    · cases h1
  · intro ns fs es hl
    obtain ⟨n, rest, l1, l2, l3⟩ := hl.list
    obtain ⟨c, e, i1, i2, -, i4, i5⟩ := C102_readers w.svc m.obj m.card n ns rest hl.up l1 l2 (hf.obj n) l3 hl.names
      fun i => (hl.readers i).1
    obtain ⟨c2, e2, j1, j2⟩ := ToolReaders.C106_tool_partial w.svc m.obj m.obj m.card n ns rest fs es w.states hl.up l1 l2
      (hf.obj n) hf.obj l3 hl.names hl.few hl.readers
    rw [i1] at j1
    cases j1
    obtain ⟨r1, c1, e1, h1, hcase⟩ := hses
    rw [i1] at h1
    cases h1
    rcases hcase with ⟨he, -, ⟨h1, -⟩ | ⟨-, hc, ho⟩⟩ | ⟨c0, lst, k, idx, c', -, hc0, hc, hlst, hw, hcase⟩
    · exact absurd rfl h1
    · have : ns = [] := by rw [i2] at hc; exact List.length_eq_zero_iff.mp hc
      subst this
      exact ⟨fun _ => ⟨he, ho⟩, fun h => absurd rfl h⟩
    · cases hc0
      have hne : ns ≠ [] := by
        intro h; rw [i2, h] at hc; exact hc rfl
      refine ⟨fun h => absurd h hne, fun _ hon => ?_⟩
      rw [j2, if_neg hne] at hlst
      have hlst' : lst = listing w ns fs es := by injection hlst with h; exact h.symm
      subst hlst'
      obtain ⟨rs, hrs⟩ : ∃ rs, c.readers = some rs := by
        cases hq : c.readers with
        | none => simp [count, hq] at hc
        | some rs => exact ⟨rs, rfl⟩
      have hlen : rs.length = ns.length := by simpa [count, hrs] using i2
      obtain ⟨r', idx', c'', sts, w1, w2, w3, w4, w5, w6, w7, w8⟩ := C104_wait w.change c rs hrs readerAny (by rw [hlen]; exact hon)
      rw [hw] at w1
      cases w1
      have hsts : sts = List.replicate ns.length stEmpty := by
        apply List.ext_getElem?
        intro i
        by_cases hi : i < ns.length
        · rw [(w5 i (by omega)).1 (.inl rfl), List.getElem?_replicate, if_pos hi]
        · rw [List.getElem?_eq_none (by omega), List.getElem?_eq_none (by simp; omega)]
      subst hsts
      rcases hcase with ⟨he, -, ho⟩ | ⟨hk, rd, name, acts, g1, g2, -, hact⟩
      · refine ⟨fun hx => ?_, fun hx => ?_, fun l hx => ⟨fun hx' => ?_, fun i x hi hb => ?_⟩⟩
        · have := (w7 hx).1
          rcases ho with ⟨-, ho⟩ | ⟨hk, -⟩
          · exact ⟨he, ho⟩
          · omega
        · have := (w6 hx).1
          rcases ho with ⟨hk, -⟩ | ⟨-, ho⟩
          · omega
          · exact ⟨he, ho⟩
        · have := (w8 l hx).2.1 hx'
          rcases ho with ⟨hk, -⟩ | ⟨-, ho⟩
          · omega
          · exact ⟨he, ho⟩
        · have := (w8 l hx).1 ⟨i, x, hi, hb⟩
          rcases ho with ⟨hk, -⟩ | ⟨hk, -⟩ <;> omega
      · subst hk
        refine ⟨fun hx => ?_, fun hx => ?_, fun l hx => ⟨fun hx' => ?_, fun i x hi hb hj => ?_⟩⟩
        · have := (w7 hx).1; omega
        · have := (w6 hx).1; omega
        · have := (w8 l hx).2.1 hx'; omega
        · obtain ⟨q1, -, ⟨y, q2, q3⟩, q4⟩ := (w8 l hx).2.2 rfl
          obtain rfl : i = idx := by
            rcases Nat.lt_trichotomy i idx with h | h | h
            · rw [q4 i x h hi] at hb; cases hb
            · exact h
            · rw [hj idx y h q2] at q3; cases q3
          rw [hlen] at q1
          obtain ⟨rd', d1, d2, -⟩ := i4 i q1
          have hc' : c' = { c with states := some (watch (c.readers.getD []).length readerAny) } := by
            rw [← wait_ctx w.change, hw]
          have hrd : rd = rd' := by
            have : getReader (some c') i = getReader (some c) i := by rw [hc']; rfl
            rw [g1, d1] at this; cases this; rfl
          subst hrd
          have hnm : name = ns[i] := by
            have : getName c' rd = getName c rd := by rw [hc']; rfl
            rw [g2, d2] at this; cases this; rfl
          subst hnm
          obtain ⟨tail, t1, t2⟩ := activated_part w m hf o _ acts res hact
          refine ⟨ns[i], tail, List.getElem?_eq_getElem q1, ?_, t2⟩
          rw [t1]
          have : foundText w i ns[i] = cardText w i ns[i] := by
            unfold foundText cardText
            rw [ToolReaders.decZ_spec i (by have := hl.few; omega), ToolReaders.stateOf_eq]
          rw [this]

attribute [local irreducible] Stack.overReader in
/-- **C114** (success).  The program says at the end that the card is deactivated only if it is: a contact card with an
accepted ATR was connected, the transaction was completed with the bytes it answered, the fields shown are those in its
answers, and the card was disconnected. -/
theorem C114_success (w : World) (m : Mem) (hf : Fits w m) (args : List ToolArgs.Opt) (res : Result)
    (h : main w m args = .ok res) (o : ToolArgs.Opts) (ho : Prepared w args o) (he : res.ending = .exit 0)
    (hd : res.out.getLast? = some (.text txt!"\nCard deactivated\n")) :
    ∃ atr ctx log tr x us rest hdl q first, Contact w.conn atr ∧ Atr.emvParse atr = .ok 0 ∧
      ToolTxn.load m.alloc (m.obj 6) w.tm o = .ok ctx ∧ w.answers.map (received w.conn.protocol) = us ++ rest ∧
      Stack.Trace tr us log ∧ ToolTxn.Completed ctx w.input (tr.map (·.2)) tr x ∧
      w.conn.connect = some (hdl, q) ∧ w.disconnect = true ∧
      cardOf res.trace = .opened hdl :: first ++
        (if w.conn.protocol = .other then [] else log.map (.sent hdl w.conn.protocol)) ++ [.closed hdl] ∧
      (first = [] ∨ first = [.sent hdl w.conn.protocol uidRequest]) ∧
      liveAfter [] (cardOf res.trace) = [] := by
  rcases main_card w m hf args res h with ⟨-, h1⟩ | ⟨hdl, q, hq, ⟨-, h1, -⟩ | ⟨first, log, last, h1, h2, ⟨-, -, h3⟩ | ⟨o', atr, ctx, log', e, ho', h4, h5, ⟨h6, h7⟩, h8, ⟨tr, x, rest, rfl, h9, h10, rfl, -, -⟩ | ⟨-, h3⟩⟩⟩⟩
  · exact absurd hd (h1 ⟨o, ho⟩ he)
  · exact absurd hd (h1 he)
  · exact absurd hd (h3 he)
  · have ho2 := ho.2.1
    rw [ho'.2.1] at ho2
    cases ho2
    obtain ⟨us, k1, k2, k3⟩ := Stack.C113_success m.alloc m.pdol hf.pdol ctx w.input _ log' tr x rest h7 h9
    have e1 : log.map (Act.sent hdl w.conn.protocol) =
        if w.conn.protocol = .other then [] else log'.map (.sent hdl w.conn.protocol) := by
      rw [h8]; split <;> rfl
    refine ⟨atr, ctx, log', tr, x, us, rest, hdl, q, first, h4, h5, h6, k1, k2, k3, hq, h10, by rw [h1, e1], ?_, ?_⟩
    · rcases h2 with h2 | ⟨-, h2⟩
      · exact .inl h2
      · exact .inr h2
    · rw [h1, List.append_assoc, List.cons_append]
      change liveAfter [hdl] _ = []
      rcases h2 with rfl | ⟨-, rfl⟩
      · rw [List.nil_append, liveAfter_sends]; simp [liveAfter]
      · change liveAfter [hdl] (log.map _ ++ _) = []
        rw [liveAfter_sends]; simp [liveAfter]
  · exact absurd hd (h3 he)

/-- **C114** (disconnecting, partial).  After a run that ends with the message that the card is deactivated nothing is
connected.  Missing: every other run in which a card was connected, see `C114_left_connected`. -/
theorem C114_disconnected_partial (w : World) (m : Mem) (hf : Fits w m) (args : List ToolArgs.Opt) (res : Result)
    (h : main w m args = .ok res) (o : ToolArgs.Opts) (ho : Prepared w args o) (he : res.ending = .exit 0)
    (hd : res.out.getLast? = some (.text txt!"\nCard deactivated\n") ∨ w.conn.connect = none) :
    liveAfter [] (cardOf res.trace) = [] := by
  rcases hd with hd | hc
  · obtain ⟨_, _, _, _, _, _, _, _, _, _, -, -, -, -, -, -, -, -, -, -, h⟩ := C114_success w m hf args res h o ho he hd
    exact h
  · rcases main_card w m hf args res h with ⟨h1, -⟩ | ⟨hdl, q, hq, -⟩
    · rw [h1]; rfl
    · rw [hc] at hq; cases hq

/-- **C114** (disagreement).  In every other run that gets to know the ATR of a card the card is still connected when
the program ends: contactless cards, cards without an accepted ATR, transactions that fail. -/
theorem C114_left_connected (w : World) (m : Mem) (hf : Fits w m) (args : List ToolArgs.Opt) (res : Result)
    (h : main w m args = .ok res) (hs : w.conn.status ≠ none) (hdl : Nat) (hop : hdl ∈ openings (cardOf res.trace))
    (hd : res.out.getLast? ≠ some (.text txt!"\nCard deactivated\n")) :
    liveAfter [] (cardOf res.trace) = [hdl] := by
  rcases main_card w m hf args res h with ⟨h1, -⟩ | ⟨hd', q, hq, ⟨-, -, h1⟩ | ⟨first, log, last, h1, h2, h3⟩⟩
  · rw [h1] at hop; cases hop
  · exact absurd h1 hs
  · have hlast : last = [] := by
      rcases h3 with ⟨-, h3, -⟩ | ⟨-, -, -, -, -, -, -, -, -, -, ⟨-, -, -, -, -, -, -, -, h3⟩ | ⟨h3, -⟩⟩
      · exact h3
      · exact absurd h3 hd
      · exact h3
    subst hlast
    rw [h1] at hop ⊢
    have hopen : ∀ (l : List (List Byte)), openings (l.map (.sent hd' w.conn.protocol)) = [] := by
      intro l
      induction l with
      | nil => rfl
      | cons x l ih => exact ih
    have e1 : openings (.opened hd' :: first ++ log.map (.sent hd' w.conn.protocol) ++ []) = [hd'] := by
      have : openings (.opened hd' :: first ++ log.map (.sent hd' w.conn.protocol) ++ []) =
          hd' :: openings first ++ openings (log.map (.sent hd' w.conn.protocol)) := by simp [openings]
      rw [this, hopen]
      rcases h2 with rfl | ⟨-, rfl⟩ <;> rfl
    rw [e1, List.mem_singleton] at hop
    subst hop
    rw [List.append_assoc, List.cons_append]
    change liveAfter [hdl] _ = [hdl]
    rcases h2 with rfl | ⟨-, rfl⟩
    · rw [List.nil_append, liveAfter_sends]; rfl
    · change liveAfter [hdl] (log.map _ ++ _) = [hdl]
      rw [liveAfter_sends]; rfl

theorem emvParse_safe (atr : List Byte) (h : C.Safe (Atr.parse atr)) : C.Safe (Atr.emvParse atr) := by
  by_cases hl : atr.length < 2 ∨ atr.length > 33
  · by_cases h0 : atr.length = 0
    · exact ⟨-2, if_pos h0⟩
    · refine ⟨1, ?_⟩
      rw [Atr.emvParse, if_neg h0, Atr.emvRules, Atr.parse, if_pos hl]; rfl
  · obtain ⟨ts, gs, td, hc⟩ := Atr.hasChain_exists atr (by omega) (by omega)
    rcases (Atr.C47_decides atr ts gs td hc h).2 with h | h <;> exact ⟨_, h⟩

attribute [local irreducible] Stack.overReader in
/-- **C114** (defined behaviour, partial).  No run leaves its memory or goes on forever when the service and the card
behave.  Missing: an empty path of the ISO codes, readers that describe themselves otherwise than `Describes` (see
`C106_reader_partial`), ATRs that are read past their end (`C44_unsafe`), and answers of the card without data where
data are required (`NoData`, see `C110_safe_partial`). -/
theorem C114_safe_partial (w : World) (m : Mem) (hf : Fits w m) (args : List ToolArgs.Opt) (htm : ToolTxn.Valid w.tm)
    (hiso : ∀ o, ToolArgs.parse .init args = .ok (.set o) → o.isocodes.getD w.files.isoPath ≠ [])
    (hsvc : (w.svc.establish = false ∨ w.svc.size = none ∨ w.svc.list = none) ∨
      ∃ ns fs es, Lists w ns fs es ∧ Honest ns.length w.change)
    (hatr : ∀ atr, Contact w.conn atr → C.Safe (Atr.parse atr))
    (hans : ∀ used, used <:+: w.answers.map (received w.conn.protocol) → ¬ Stack.NoData used) :
    C.Safe (main w m args) := by
  unfold main start
  split
  · exact ⟨_, rfl⟩
  obtain ⟨p, hp⟩ := ToolArgs.C108_defined .init args
  rw [hp, bind_ok]
  match p, hp with
  | .refused msg, _ => exact ⟨_, rfl⟩
  | .version, _ => exact ⟨_, rfl⟩
  | .set o, hp =>
  simp only
  have hses : ∀ out, C.Safe (session w m o out) := by
    intro out
    unfold session
    rcases hsvc with hfail | ⟨ns, fs, es, hl, hon⟩
    · obtain ⟨e, hi, -⟩ := C102_failure w.svc m.obj m.card hfail
      rw [hi, bind_ok]
      exact ⟨_, rfl⟩
    · obtain ⟨n, rest, l1, l2, l3⟩ := hl.list
      obtain ⟨c, e, i1, i2, -, i4, i5⟩ := C102_readers w.svc m.obj m.card n ns rest hl.up l1 l2 (hf.obj n) l3 hl.names
        fun i => (hl.readers i).1
      obtain ⟨c2, e2, j1, j2⟩ := ToolReaders.C106_tool_partial w.svc m.obj m.obj m.card n ns rest fs es w.states hl.up l1 l2
        (hf.obj n) hf.obj l3 hl.names hl.few hl.readers
      rw [i1] at j1
      cases j1
      rw [i1, bind_ok]
      simp only
      rw [if_neg (by simp)]
      split
      · exact ⟨_, rfl⟩
      next hc =>
      obtain ⟨rs, hrs⟩ : ∃ rs, c.readers = some rs := by
        cases hq : c.readers with
        | none => simp [count, hq] at hc
        | some rs => exact ⟨rs, rfl⟩
      have hlen : rs.length = ns.length := by simpa [count, hrs] using i2
      obtain ⟨k, idx, c', sts, w1, w2, w3, w4, w5, w6, w7, w8⟩ := C104_wait w.change c rs hrs readerAny (by rw [hlen]; exact hon)
      rw [j2, bind_ok, w1]
      simp only
      split
      · exact ⟨_, rfl⟩
      next hk1 =>
      split
      · exact ⟨_, rfl⟩
      next hk2 =>
      have hk : k = 0 := by omega
      have hidx : idx < ns.length := by
        cases hx : w.change sts with
        | fail => have := (w7 hx).1; omega
        | timeout => have := (w6 hx).1; omega
        | states l => rw [← hlen]; exact ((w8 l hx).2.2 hk).1
      obtain ⟨rd, d1, d2, -⟩ := i4 idx hidx
      have hc' : c' = { c with states := some (watch (c.readers.getD []).length readerAny) } := by
        rw [← wait_ctx w.change, w1]
      have g1 : getReader (some c') idx = some rd := by rw [← d1, hc']; rfl
      have g2 : getName c' rd = .ok ns[idx] := by rw [← d2, hc']; rfl
      unfold detected
      rw [g1]
      simp only
      rw [g2, bind_ok]
      unfold activate
      obtain ⟨r, cn, a, e0, -⟩ := connect_spec w.conn (m.obj 12) .initial ⟨hf.obj 12, hf.uid⟩
      obtain ⟨s1, s2, s3, s4, s5, s6⟩ := connected_spec w m hf r cn a e0
      rw [e0, bind_ok]
      simp only
      split
      · exact ⟨_, rfl⟩
      split
      · next hr =>
        obtain ⟨atr, hct⟩ := s2.mp hr
        obtain ⟨k2, b1, b2⟩ := s4 atr hct
        split
        · exact ⟨_, rfl⟩
        next hg =>
        have hne : atr ≠ [] := fun h => hg (b1 h)
        obtain ⟨kk, hkk⟩ := emvParse_safe atr (hatr atr hct)
        rw [b2 hne]
        simp only
        rw [hkk, bind_ok]
        split
        · exact ⟨_, rfl⟩
        unfold transact
        obtain ⟨r1, r2, r3⟩ := ToolTxn.opts_range _ _ args hp (by decide)
        obtain ⟨ctx, ps, cfg, hld, -⟩ := ToolTxn.C109_load m.alloc (m.obj 6) (hf.obj 6) w.tm htm o r1 r2 r3
        rw [hld, bind_ok, deliver_eq _ _ _ (by rw [hf.obj]; exact hf.answers), bind_ok, k2]
        obtain ⟨⟨log, en⟩, hov⟩ := Stack.C113_safe_partial m.alloc m.pdol hf.pdol ctx w.input _ hans
        have hov' : Stack.drive (ToolTxn.transaction m.alloc m.pdol ctx w.input) .apdu
            ((w.answers.map (received w.conn.protocol)).length + 1) [] (w.answers.map (received w.conn.protocol)) =
            .ok (log, en) := by
          rw [← hov, Stack.overReader]
        rw [hov', bind_ok]
        match en with
        | .waiting => exact ⟨_, rfl⟩
        | .done tr x rest =>
          simp only
          cases x.how <;> exact ⟨_, rfl⟩
      · split <;> exact ⟨_, rfl⟩
  rcases Codes.C98_safe_partial w.files o.isocodes o.mcc (hiso o hp) with h | ⟨r, st, h, -⟩
  · rw [h, bind_ok]; exact ⟨_, rfl⟩
  · rw [h, bind_ok]
    simp only
    split
    · exact ⟨_, rfl⟩
    · exact hses _

/-! ## Examples -/

/-- A reader without features holding a card with one application; no files of codes. -/
def desk : World where
  help := txt!"usage"
  version := txt!"1"
  files := ⟨fun _ => none, fun _ => [], fun _ => 0, fun _ => none, txt!"/iso", txt!"/mcc"⟩
  svc := ⟨true, some 6, some txt!"Desk\x00\x00", fun _ => ⟨some 7, none, .ok [], .ok [], .ok [], .ok []⟩⟩
  states := fun _ => some 0x10
  change := fun st => if st = [0x10] then .states [0x22] else .timeout
  state := some 0x22
  conn := ⟨some (5, .t0), none, .t0, some [0x3B, 0x60, 0x00, 0x00], [], none, true⟩
  answers := []
  disconnect := true
  tm := ⟨126, 10, 16, 13, 30, 0⟩
  input := []

/-- Memory for the examples. -/
def ram : Mem := ⟨fun n => List.replicate n 0xCC, 0, fun _ => List.replicate 255 0xCC, fun _ _ => true⟩

/-- A card with one application: no payment system environment, and of the supported names only the second. -/
def answering : World :=
  let fci : List Byte := [0x6F, 0x09, 0x84, 0x07, 0xA0, 0, 0, 0, 3, 0x20, 0x10]
  let gpo : List Byte := [0x77, 0x0A, 0x82, 0x02, 0x39, 0, 0x94, 4, 8, 1, 1, 0]
  let record : List Byte := [0x70, 13, 0x5A, 1, 0x12, 0x5F, 0x24, 1, 0x31, 0x8C, 1, 0x9A, 0x8D, 1, 0x8A]
  { desk with answers := [[0x6A, 0x82], [0x6A, 0x82], fci ++ [0x90, 0], [0x6A, 0x82], [0x6A, 0x82], [0x6A, 0x82],
      fci ++ [0x90, 0], gpo ++ [0x90, 0], record ++ [0x90, 0]].map some }

/-- The end, the last line and what is done with the card, for examples. -/
def summary (x : C Result) : Option (Ending × Option ToolTxn.Item × List Act) :=
  match x with
  | .ok r => some (r.ending, r.out.getLast?, cardOf r.trace)
  | .error _ => none

example : Fits answering ram where
  obj := fun n => List.length_replicate
  pdol := fun n => List.length_replicate
  uid := fun a h => by cases h
  answers := by
    have : ∀ a ∈ answering.answers, (a.getD []).length ≤ 258 := by decide
    intro a d h e
    have := this a h
    rwa [e] at this

example : Lists answering [txt!"Desk"] (fun _ => []) (fun _ => []) where
  up := rfl
  list := ⟨6, [], rfl, by decide, by decide⟩
  names := by unfold Names; decide
  few := by decide
  readers := fun i => ⟨⟨Nat.zero_le _, Nat.zero_le _, Nat.zero_le _, Nat.zero_le _⟩, rfl, rfl, .inl rfl, .inl rfl, .inl ⟨rfl, rfl⟩,
    by unfold SmallValues; decide, by decide, fun pre p v post e => by cases pre <;> cases e⟩

example : Honest 1 answering.change := by
  intro st l h hl
  change (if st = [0x10] then Change.states [0x22] else .timeout) = _ at h
  split at h
  · next hst =>
    subst hst
    cases h
    refine ⟨rfl, fun i hi x hx => ?_⟩
    match i with
    | 0 => cases hi
    | i + 1 => cases hx
  · cases h

example : Contact answering.conn [0x3B, 0x60, 0x00, 0x00] := by
  refine ⟨by decide, rfl, ?_⟩
  rintro ⟨t0, hist, tck, h, -⟩
  simp at h

example : Prepared answering [.amount txt!"100"] { ToolArgs.Opts.init with amount := 100 } :=
  ⟨by simp, rfl, 1, _, rfl, by decide⟩

/-- A completed transaction: the card is connected, the commands are sent, and the card is disconnected. -/
example : summary (main answering ram [.amount txt!"100"]) = some (.exit 0, some (.text txt!"\nCard deactivated\n"),
    [.opened 5] ++ [[0, 0xA4, 4, 0, 14] ++ Tal.pseName ++ [0], [0, 0xA4, 4, 0, 6, 0xA0, 0, 0, 0, 3, 0x10, 0],
      [0, 0xA4, 4, 0, 7, 0xA0, 0, 0, 0, 3, 0x20, 0x10, 0], [0, 0xA4, 4, 0, 7, 0xA0, 0, 0, 0, 3, 0x20, 0x20, 0],
      [0, 0xA4, 4, 0, 6, 0xA0, 0, 0, 0, 4, 0x10, 0], [0, 0xA4, 4, 0, 6, 0xA0, 0, 0, 0, 4, 0x30, 0],
      [0, 0xA4, 4, 0, 7, 0xA0, 0, 0, 0, 3, 0x20, 0x10, 0], [0x80, 0xA8, 0, 0, 2, 0x83, 0, 0],
      [0, 0xB2, 1, 0x0C, 0]].map (.sent 5 .t0) ++ [.closed 5]) := by
  decide +kernel

/-- A contactless card, a card with a refused ATR and one without applications are left connected. -/
example :
    summary (main { answering with conn := { desk.conn with
        status := some [0x3B, 0x81, 0x80, 0x01, 0x80, 0x80], uid := some [1, 2, 3, 4, 0x90, 0x00] } } ram [.amount txt!"100"]) =
      some (.exit 0, some (.text txt!"Contactless not (yet) supported\n"), [.opened 5, .sent 5 .t0 uidRequest]) ∧
    summary (main { answering with conn := { desk.conn with status := some [0x3C, 0x60, 0x00, 0x00] } } ram [.amount txt!"100"]) =
      some (.exit 0, some (.text txt!"OUTCOME: Card error\n"), [.opened 5]) ∧
    (summary (main { desk with answers := List.replicate 6 (some [0x6A, 0x82]) } ram [.amount txt!"100"])).map
        (fun s => (s.1, s.2.1, s.2.2.getLast?)) =
      some (.exit 0, some (.text txt!"OUTCOME: Not accepted\n"), some (.sent 5 .t0 [0, 0xA4, 4, 0, 6, 0xA0, 0, 0, 0, 4, 0x30, 0])) := by
  decide +kernel

/-- A card that does not answer, and a transaction without an amount. -/
example :
    (summary (main desk ram [.amount txt!"100"])).map (·.1) = some .waiting ∧
    (match main { desk with svc := { desk.svc with establish := false } } ram [.verbose] with
      | .ok r => some (r.out.take 2, r.out.getLast?, r.ending)
      | .error _ => none) =
      some ([.error txt!"Transaction amount (--txn-amount) argument must be non-zero\n", .text txt!"usage"],
        some (.text txt!"PC/SC initialisation failed\n"), .exit 0) := by
  decide +kernel

end Verif.ToolMain
