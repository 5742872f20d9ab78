import Verif.AtrEmvProps
import Verif.CodesProps
import Verif.PcscConnProps
import Verif.StackProps
import Verif.ToolMain
import Verif.ToolReadersProps

/-!
# C114: the run of `emv-tool`
-/

set_option autoImplicit false

namespace Verif.ToolMain
open Verif Ber Pcsc PcscInit PcscConn

/-! ## Specification -/

/-- What happened with the context and the readers. -/
def serviceOf (tr : List Ev) : List Event := tr.filterMap fun | .svc e => some e | .card _ => none

/-- What happened with the card. -/
def cardOf (tr : List Ev) : List Act := tr.filterMap fun | .svc _ => none | .card a => some a

/-- The program has ended. -/
def Ended (r : Result) : Prop := r.ending ≠ .waiting ∧ r.ending ≠ .asking

/-- The service honours the sizes of the buffers for the card, and objects have their sizes. -/
structure Fits (w : World) (m : Mem) : Prop where
  obj : ∀ n, (m.obj n).length = n
  pdol : ∀ n, (m.pdol n).length = 255
  uid : ∀ a, w.conn.uid = some a → a.length ≤ 12
  answers : ∀ a d, a ∈ w.answers → a = some d → d.length ≤ 258

/-- A contactless card: it has the ATR readers make up for such cards, and a UID. -/
def Contactless (s : ConnSvc) : Prop :=
  s.connect ≠ none ∧ ∃ atr uid, s.status = some atr ∧ ContactlessAtr atr ∧ s.protocol ≠ .other ∧
    s.uid = some (uid ++ [0x90, 0x00]) ∧ uid.length ≤ 10

/-- A contact card with an ATR: another ATR, or the request for the UID is refused. -/
def Contact (s : ConnSvc) (atr : List Byte) : Prop :=
  s.connect ≠ none ∧ s.status = some atr ∧
    (ContactlessAtr atr → s.protocol ≠ .other ∧ ∃ d, s.uid = some (d ++ [0x6A, 0x81]))

/-- What the transport layer receives: nothing over another protocol than T=0 or T=1. -/
def received (p : Protocol) : Option (List Byte) → Ttl.Resp
  | none => .fail (-1)
  | some d => if p = .other then .fail (-1) else .data d

/-! ## Lemmas -/

theorem bind_inv {α β : Type} {x : C α} {f : α → C β} {b : β} (h : (x >>= f) = .ok b) : ∃ a, x = .ok a ∧ f a = .ok b := by
  match x, h with
  | .ok a, h => exact ⟨a, rfl, h⟩

theorem serviceOf_append (a b : List Ev) : serviceOf (a ++ b) = serviceOf a ++ serviceOf b := List.filterMap_append

theorem cardOf_append (a b : List Ev) : cardOf (a ++ b) = cardOf a ++ cardOf b := List.filterMap_append

theorem serviceOf_svc (l : List Event) : serviceOf (l.map .svc) = l := by
  induction l with
  | nil => rfl
  | cons e l ih => exact congrArg (e :: ·) ih

theorem serviceOf_card (l : List Act) : serviceOf (l.map .card) = [] := by
  induction l with
  | nil => rfl
  | cons e l ih => exact ih

theorem cardOf_svc (l : List Event) : cardOf (l.map .svc) = [] := by
  induction l with
  | nil => rfl
  | cons e l ih => exact ih

theorem cardOf_card (l : List Act) : cardOf (l.map .card) = l := by
  induction l with
  | nil => rfl
  | cons e l ih => exact congrArg (e :: ·) ih

/-- Everything after `tr`: what is done with the card, and the release when the program ends. -/
def Goes (c : Ctx) (tr : List Ev) (acts : List Act) (res : Result) : Prop :=
  (res.ending = .exit 0 ∧ res.trace = tr ++ acts.map .card ++ (release (some c)).2.map .svc) ∨
  ((res.ending = .waiting ∨ res.ending = .asking) ∧ res.trace = tr ++ acts.map .card)

/-- The transaction part of a run. -/
def Transacted (w : World) (m : Mem) (o : ToolArgs.Opts) (cn : Conn) (out : List ToolTxn.Item) (acts : List Act)
    (res : Result) : Prop :=
  ∃ ctx script log e, ToolTxn.load m.alloc (m.obj 6) w.tm o = .ok ctx ∧
    deliver cn (m.obj 258) w.answers = .ok script ∧
    Stack.overReader m.alloc m.pdol ctx w.input script = .ok (log, e) ∧
    ((e = .waiting ∧ res.ending = .waiting ∧ acts = sends cn log ∧
        res.out = out ++ shown ctx ++ [.text txt!"\nBuild candidate list\n"]) ∨
      ∃ tr x rest, e = .done tr x rest ∧
        ((x.how = .stuck ∧ res.ending = .asking ∧ acts = sends cn log ∧ res.out = out ++ shown ctx ++ x.out) ∨
         (x.how = .done ∧ res.ending = .exit 0 ∧
           acts = sends cn log ++ (if w.disconnect then [.closed cn.card] else []) ∧
           res.out = out ++ shown ctx ++ x.out ++ [.text (if w.disconnect then txt!"\nCard deactivated\n"
             else txt!"PC/SC reader deactivation failed\n")]) ∨
         (x.how ≠ .stuck ∧ x.how ≠ .done ∧ res.ending = .exit 0 ∧ acts = sends cn log ∧
           res.out = out ++ shown ctx ++ x.out)))

attribute [local irreducible] Stack.drive ToolTxn.transaction in
theorem transact_inv (w : World) (m : Mem) (o : ToolArgs.Opts) (c : Ctx) (cn : Conn) (out : List ToolTxn.Item)
    (tr : List Ev) (res : Result) (h : transact w m o c cn out tr = .ok res) :
    ∃ acts, Goes c tr acts res ∧ Transacted w m o cn out acts res := by
  unfold transact at h
  obtain ⟨ctx, h1, h⟩ := bind_inv h
  obtain ⟨script, h2, h⟩ := bind_inv h
  obtain ⟨⟨log, e⟩, h3, h⟩ := bind_inv h
  refine ?_
  match e, h with
  | .waiting, h =>
    injection h with h
    subst h
    exact ⟨sends cn log, .inr ⟨.inl rfl, rfl⟩, ctx, script, log, _, h1, h2, h3, .inl ⟨rfl, rfl, rfl, rfl⟩⟩
  | .done t x rest, h =>
    simp only at h
    cases hh : x.how with
    | stuck =>
      simp only [hh] at h
      injection h with h
      subst h
      exact ⟨sends cn log, .inr ⟨.inr rfl, rfl⟩, ctx, script, log, _, h1, h2, h3,
        .inr ⟨t, x, rest, rfl, .inl ⟨hh, rfl, rfl, rfl⟩⟩⟩
    | done =>
      simp only [hh, leave] at h
      injection h with h
      subst h
      refine ⟨sends cn log ++ (if w.disconnect then [.closed cn.card] else []), .inl ⟨rfl, ?_⟩, ctx, script, log, _, h1, h2, h3,
        .inr ⟨t, x, rest, rfl, .inr (.inl ⟨hh, rfl, rfl, ?_⟩)⟩⟩
      · cases w.disconnect <;> simp [PcscConn.disconnect]
      · cases w.disconnect <;> simp [PcscConn.disconnect]
    | code r =>
      simp only [hh, leave] at h
      injection h with h
      subst h
      exact ⟨sends cn log, .inl ⟨rfl, rfl⟩, ctx, script, log, _, h1, h2, h3,
        .inr ⟨t, x, rest, rfl, .inr (.inr ⟨by simp [hh], by simp [hh], rfl, rfl, rfl⟩)⟩⟩
    | missing =>
      simp only [hh, leave] at h
      injection h with h
      subst h
      exact ⟨sends cn log, .inl ⟨rfl, rfl⟩, ctx, script, log, _, h1, h2, h3,
        .inr ⟨t, x, rest, rfl, .inr (.inr ⟨by simp [hh], by simp [hh], rfl, rfl, rfl⟩)⟩⟩

/-- The part of a run with the card. -/
def Activated (w : World) (m : Mem) (o : ToolArgs.Opts) (out : List ToolTxn.Item) (acts : List Act) (res : Result) : Prop :=
  ∃ r cn a, connect w.conn (m.obj 12) .initial = .ok (r, cn, a) ∧
    ((r < 0 ∧ res.ending = .exit 0 ∧ acts = a ∧ res.out = out ++ [.text txt!"PC/SC reader activation failed\n"]) ∨
     (r = 1 ∧ (getAtr cn.reader).1 ≠ 0 ∧ res.ending = .exit 0 ∧ acts = a ∧
       res.out = out ++ [.text txt!"Card activated\n", .text txt!"Failed to retrieve ATR\n"]) ∨
     (r = 1 ∧ (getAtr cn.reader).1 = 0 ∧ ∃ k, Atr.emvParse (getAtr cn.reader).2 = .ok k ∧
       ((k ≠ 0 ∧ res.ending = .exit 0 ∧ acts = a ∧
          res.out = out ++ [.text txt!"Card activated\n", ToolTxn.complaint k]) ∨
        (k = 0 ∧ ∃ acts', acts = a ++ acts' ∧ Transacted w m o cn (out ++ [.text txt!"Card activated\n"]) acts' res))) ∨
     (r = 2 ∧ res.ending = .exit 0 ∧ acts = a ∧
       res.out = out ++ [.text txt!"Card activated\n", .text txt!"Contactless not (yet) supported\n"]) ∨
     (0 ≤ r ∧ r ≠ 1 ∧ r ≠ 2 ∧ res.ending = .exit 0 ∧ acts = a ∧
       res.out = out ++ [.text txt!"Card activated\n", .text txt!"Unknown card type\n"]))

attribute [local irreducible] transact in
theorem activate_inv (w : World) (m : Mem) (o : ToolArgs.Opts) (c : Ctx) (out : List ToolTxn.Item)
    (tr : List Ev) (res : Result) (h : activate w m o c out tr = .ok res) :
    ∃ acts, Goes c tr acts res ∧ Activated w m o out acts res := by
  unfold activate at h
  obtain ⟨⟨r, cn, a⟩, h1, h⟩ := bind_inv h
  simp only at h
  have hgo : ∀ (x : List ToolTxn.Item), leave (some c) x (tr ++ a.map .card) = .ok res →
      res.ending = .exit 0 ∧ res.out = x ∧ Goes c tr a res := by
    intro x h
    injection h with h
    subst h
    exact ⟨rfl, rfl, .inl ⟨rfl, rfl⟩⟩
  split at h
  · next hr =>
    obtain ⟨e1, e2, e3⟩ := hgo _ h
    exact ⟨a, e3, r, cn, a, h1, .inl ⟨hr, e1, rfl, e2⟩⟩
  next hr =>
  split at h
  · next hr1 =>
    have hr1 : r = 1 := hr1
    subst hr1
    split at h
    · next hg =>
      obtain ⟨e1, e2, e3⟩ := hgo _ h
      exact ⟨a, e3, 1, cn, a, h1, .inr (.inl ⟨rfl, hg, e1, rfl, by rw [e2, List.append_assoc]; rfl⟩)⟩
    next hg =>
    have hg : (getAtr cn.reader).1 = 0 := Classical.byContradiction hg
    obtain ⟨k, h2, h⟩ := bind_inv h
    split at h
    · next hk =>
      obtain ⟨e1, e2, e3⟩ := hgo _ h
      exact ⟨a, e3, 1, cn, a, h1, .inr (.inr (.inl ⟨rfl, hg, k, h2, .inl ⟨hk, e1, rfl, by rw [e2, List.append_assoc]; rfl⟩⟩))⟩
    next hk =>
    have hk : k = 0 := Classical.byContradiction hk
    obtain ⟨acts, g, t⟩ := transact_inv _ _ _ _ _ _ _ _ h
    refine ⟨a ++ acts, ?_, 1, cn, a, h1, .inr (.inr (.inl ⟨rfl, hg, k, h2, .inr ⟨hk, acts, rfl, t⟩⟩))⟩
    rcases g with ⟨g1, g2⟩ | ⟨g1, g2⟩
    · exact .inl ⟨g1, by rw [g2]; simp⟩
    · exact .inr ⟨g1, by rw [g2]; simp⟩
  next hr1 =>
  split at h
  · next hr2 =>
    obtain ⟨e1, e2, e3⟩ := hgo _ h
    exact ⟨a, e3, r, cn, a, h1, .inr (.inr (.inr (.inl ⟨hr2, e1, rfl, by rw [e2, List.append_assoc]; rfl⟩)))⟩
  · next hr2 =>
    obtain ⟨e1, e2, e3⟩ := hgo _ h
    exact ⟨a, e3, r, cn, a, h1, .inr (.inr (.inr (.inr ⟨by omega, hr1, hr2, e1, rfl, by rw [e2, List.append_assoc]; rfl⟩)))⟩

/-- The text for the reader with the card. -/
def foundText (w : World) (idx : Nat) (name : List Byte) : List Byte :=
  txt!"Reader " ++ ToolReaders.decZ idx ++ txt!": " ++ name ++ txt!"; " ++
    (ToolReaders.stateOf w.state).getD txt!"Unknown state" ++ txt!"\nCard detected\n\n"

/-- A run after the command line. -/
def Session (w : World) (m : Mem) (o : ToolArgs.Opts) (out : List ToolTxn.Item) (res : Result) : Prop :=
  ∃ r c e, init w.svc m.obj m.card = .ok (r, c, e) ∧
    ((res.ending = .exit 0 ∧ res.trace = e.map .svc ++ (release c).2.map .svc ∧
        ((r ≠ 0 ∧ res.out = out ++ [.text txt!"PC/SC initialisation failed\n"]) ∨
         (r = 0 ∧ count c = 0 ∧ res.out = out ++ [.text txt!"No PC/SC readers detected\n"]))) ∨
     ∃ c0 listing k idx c', r = 0 ∧ c = some c0 ∧ count c ≠ 0 ∧ ToolReaders.list m.obj c0 w.states = .ok listing ∧
       waitForCard w.change c0 readerAny = (k, idx, c') ∧
       ((res.ending = .exit 0 ∧ res.trace = e.map .svc ++ (release (some c')).2.map .svc ∧
          ((k < 0 ∧ res.out = out ++ [.text listing, .text txt!"\nPresent card\n", .text txt!"PC/SC error\n"]) ∨
           (0 < k ∧ res.out = out ++ [.text listing, .text txt!"\nPresent card\n", .text txt!"No card; exiting\n"]))) ∨
        (k = 0 ∧ ∃ rd name acts, getReader (some c') idx = some rd ∧ getName c' rd = .ok name ∧
          Goes c' (e.map .svc) acts res ∧
          Activated w m o (out ++ [.text listing, .text txt!"\nPresent card\n", .text (foundText w idx name)]) acts res)))

attribute [local irreducible] activate in
theorem session_inv (w : World) (m : Mem) (o : ToolArgs.Opts) (out : List ToolTxn.Item) (res : Result)
    (h : session w m o out = .ok res) : Session w m o out res := by
  unfold session at h
  obtain ⟨⟨r, c, e⟩, h1, h⟩ := bind_inv h
  simp only at h
  split at h
  · next hr =>
    injection h with h
    subst h
    exact ⟨r, c, e, h1, .inl ⟨rfl, rfl, .inl ⟨hr, rfl⟩⟩⟩
  next hr =>
  have hr : r = 0 := Classical.byContradiction hr
  split at h
  · next hc =>
    injection h with h
    subst h
    exact ⟨r, c, e, h1, .inl ⟨rfl, rfl, .inr ⟨hr, hc, rfl⟩⟩⟩
  next hc =>
  cases c with
  | none => cases h
  | some c0 =>
    obtain ⟨listing, h2, h⟩ := bind_inv h
    generalize hw : waitForCard w.change c0 readerAny = x at h
    obtain ⟨k, idx, c'⟩ := x
    simp only at h
    refine ⟨r, some c0, e, h1, .inr ⟨c0, listing, k, idx, c', hr, rfl, hc, h2, hw, ?_⟩⟩
    split at h
    · next hk =>
      injection h with h
      subst h
      exact .inl ⟨rfl, rfl, .inl ⟨hk, by simp⟩⟩
    next hk =>
    split at h
    · next hk2 =>
      injection h with h
      subst h
      exact .inl ⟨rfl, rfl, .inr ⟨hk2, by simp⟩⟩
    next hk2 =>
    right
    refine ⟨by omega, ?_⟩
    unfold detected at h
    cases hg : getReader (some c') idx with
    | none => rw [hg] at h; cases h
    | some rd =>
      rw [hg] at h
      obtain ⟨name, h3, h⟩ := bind_inv h
      obtain ⟨acts, g, t⟩ := activate_inv _ _ _ _ _ _ _ h
      refine ⟨rd, name, acts, rfl, h3, g, ?_⟩
      simpa [foundText] using t

/-- A run of the program. -/
def Started (w : World) (m : Mem) (args : List ToolArgs.Opt) (res : Result) : Prop :=
  (args = [] ∧ res = ⟨[.text w.help], [], .exit 1⟩) ∨
  ∃ p, args ≠ [] ∧ ToolArgs.parse .init args = .ok p ∧
    ((∃ msg, p = .refused msg ∧ res = ⟨[.error msg], [], .exit 64⟩) ∨
     (p = .version ∧ res = ⟨[.text (w.version ++ [0x0A])], [], .exit 0⟩) ∨
     ∃ o s, p = .set o ∧ Codes.stringsInit w.files o.isocodes o.mcc Codes.fresh = .ok s ∧
       ((s = .terminated ∧ res = ⟨warnings w o, [], .terminated⟩) ∨
        ∃ r st, s = .ok (r, st) ∧
          ((r < 0 ∧ res = ⟨warnings w o ++ [.error txt!"Failed to initialise EMV strings\n"], [], .exit 2⟩) ∨
           (0 ≤ r ∧ ∃ extra, session w m o (warnings w o ++ extra) = .ok res ∧
             Session w m o (warnings w o ++ extra) res ∧
             extra = if r > 0 then [.error txt!"Failed to load iso-codes data or mcc-codes data; currency, country, language or MCC lookups may not be possible\n"] else []))))

attribute [local irreducible] session in
theorem main_inv (w : World) (m : Mem) (args : List ToolArgs.Opt) (res : Result) (h : main w m args = .ok res) :
    Started w m args res := by
  unfold main start at h
  split at h
  · next ha =>
    injection h with h
    exact .inl ⟨ha, h.symm⟩
  next ha =>
  obtain ⟨p, h1, h⟩ := bind_inv h
  refine .inr ⟨p, ha, h1, ?_⟩
  cases p with
  | refused msg =>
    injection h with h
    exact .inl ⟨msg, rfl, h.symm⟩
  | version =>
    injection h with h
    exact .inr (.inl ⟨rfl, h.symm⟩)
  | set o =>
    obtain ⟨s, h2, h⟩ := bind_inv h
    refine .inr (.inr ⟨o, s, rfl, h2, ?_⟩)
    cases s with
    | terminated =>
      injection h with h
      exact .inl ⟨rfl, h.symm⟩
    | ok x =>
      obtain ⟨r, st⟩ := x
      simp only at h
      refine .inr ⟨r, st, rfl, ?_⟩
      split at h
      · next hr =>
        injection h with h
        exact .inl ⟨hr, h.symm⟩
      · next hr => exact .inr ⟨by omega, _, h, session_inv _ _ _ _ _ h, rfl⟩

/-! ## The context -/

/-- Not about memory or the context. -/
def Quiet : Event → Prop
  | .connect _ | .control _ _ | .disconnect _ => True
  | _ => False

theorem askProps_quiet (s : ReaderSvc) (card : Nat) (f f' : Feat) (r : Int) (e : List Event)
    (h : askProps s card f = .ok (r, f', e)) : ∀ x ∈ e, Quiet x := by
  unfold askProps at h
  obtain ⟨g, -, h⟩ := bind_inv h
  cases g with
  | none => cases h; simp
  | some code =>
    obtain ⟨⟨ok, arr, len⟩, -, h⟩ := bind_inv h
    injection h with h
    simp only [Prod.mk.injEq] at h
    rw [← h.2.2]
    simp [Quiet]

theorem askDisplay_quiet (s : ReaderSvc) (card : Nat) (f f' : Feat) (r : Int) (e : List Event)
    (h : askDisplay s card f = .ok (r, f', e)) : ∀ x ∈ e, Quiet x := by
  unfold askDisplay at h
  obtain ⟨g, -, h⟩ := bind_inv h
  cases g with
  | none => exact askProps_quiet _ _ _ _ _ _ h
  | some code =>
    obtain ⟨⟨ok, arr, len⟩, -, h⟩ := bind_inv h
    simp only at h
    split at h
    · cases h; simp [Quiet]
    split at h
    · cases h; simp [Quiet]
    obtain ⟨⟨r', f1, e'⟩, h1, h⟩ := bind_inv h
    cases h
    intro x hx
    rcases List.mem_cons.mp hx with rfl | hx
    · trivial
    · exact askProps_quiet _ _ _ _ _ _ h1 x hx

theorem askPin_quiet (s : ReaderSvc) (card : Nat) (f f' : Feat) (r : Int) (e : List Event)
    (h : askPin s card f = .ok (r, f', e)) : ∀ x ∈ e, Quiet x := by
  unfold askPin at h
  obtain ⟨g, -, h⟩ := bind_inv h
  cases g with
  | none => exact askDisplay_quiet _ _ _ _ _ _ h
  | some code =>
    obtain ⟨⟨ok, arr, len⟩, -, h⟩ := bind_inv h
    simp only at h
    split at h
    · cases h; simp [Quiet]
    split at h
    · cases h; simp [Quiet]
    obtain ⟨⟨r', f1, e'⟩, h1, h⟩ := bind_inv h
    cases h
    intro x hx
    rcases List.mem_cons.mp hx with rfl | hx
    · trivial
    · exact askDisplay_quiet _ _ _ _ _ _ h1 x hx

theorem populate_quiet (s : ReaderSvc) (card : Nat) (name : List Byte) (f : Feat) (r : Int) (e : List Event)
    (h : populate s card name = .ok (r, f, e)) : ∀ x ∈ e, Quiet x := by
  unfold populate at h
  cases hc : s.connect with
  | none =>
    rw [hc] at h
    cases h
    simp [Quiet]
  | some hd =>
    rw [hc] at h
    obtain ⟨⟨r1, f1, e1⟩, h1, h⟩ := bind_inv h
    cases h
    have : ∀ x ∈ e1, Quiet x := by
      unfold askFeatures at h1
      obtain ⟨⟨ok, arr, len⟩, -, h1⟩ := bind_inv h1
      simp only at h1
      split at h1
      · cases h1; simp [Quiet]
      obtain ⟨⟨r2, len2⟩, -, h1⟩ := bind_inv h1
      simp only at h1
      split at h1
      · cases h1; simp [Quiet]
      obtain ⟨⟨r3, f3, e3⟩, h3, h1⟩ := bind_inv h1
      cases h1
      intro x hx
      rcases List.mem_cons.mp hx with rfl | hx
      · trivial
      · exact askPin_quiet _ _ _ _ _ _ h3 x hx
    intro x hx
    simp only [List.mem_append, List.mem_cons, List.not_mem_nil, or_false] at hx
    rcases hx with (rfl | hx) | rfl
    · trivial
    · exact this x hx
    · trivial

theorem populateAll_quiet (s : Svc) (card : Nat) (strings : List Byte) : ∀ (offs : List Nat) (i : Nat) (rs : List Rdr)
    (e : List Event), populateAll s card strings i offs = .ok (rs, e) → ∀ x ∈ e, Quiet x := by
  intro offs
  induction offs with
  | nil => intro i rs e h; cases h; simp
  | cons off offs ih =>
    intro i rs e h
    unfold populateAll at h
    obtain ⟨rest, -, h⟩ := bind_inv h
    obtain ⟨name, -, h⟩ := bind_inv h
    obtain ⟨⟨r, f, e1⟩, h1, h⟩ := bind_inv h
    obtain ⟨⟨rs', e2⟩, h2, h⟩ := bind_inv h
    cases h
    intro x hx
    rcases List.mem_append.mp hx with hx | hx
    · exact populate_quiet _ _ _ _ _ _ h1 x hx
    · exact ih _ _ _ h2 x hx

theorem ledger_quiet (e : List Event) (h : ∀ x ∈ e, Quiet x) (live : List Block) : ledger live e = some live := by
  induction e with
  | nil => rfl
  | cons x e ih =>
    have hx := h x (by simp)
    have := ih fun y hy => h y (by simp [hy])
    cases x <;> first | exact absurd hx id | exact this

theorem release_quiet (e : List Event) (h : ∀ x ∈ e, Quiet x) : Event.release ∉ e := fun hm => h _ hm

/-- What setting up does with memory and the context, whatever the service. -/
theorem init_trace (s : Svc) (mem : Nat → List Byte) (card : Nat) (r : Int) (c : Option Ctx) (e : List Event)
    (h : init s mem card = .ok (r, c, e)) :
    (r = -1 ∧ c = none ∧ ledger [] e = some [] ∧ e.count .release = 1 ∧ e.count .establish = 1) ∨
    (r = 0 ∧ ∃ strings rs, c = some ⟨some strings, some rs, some (rs.map fun _ => stUnaware)⟩ ∧
      ledger [] e = some [.states, .readers, .strings, .ctx] ∧ e.count .release = 0 ∧ e.count .establish = 1) := by
  unfold init at h
  simp only at h
  split at h
  · cases h; left; decide
  split at h
  · cases h; left; decide
  split at h
  · cases h; left; simp [release, ledger]
  · obtain ⟨strings, -, h⟩ := bind_inv h
    obtain ⟨offs, -, h⟩ := bind_inv h
    obtain ⟨⟨rs, e'⟩, h1, h⟩ := bind_inv h
    cases h
    have hq := populateAll_quiet _ _ _ _ _ _ _ h1
    right
    refine ⟨rfl, strings, rs, rfl, ?_, ?_, ?_⟩
    · change ledger [.states, .readers, .strings, .ctx] e' = _
      exact ledger_quiet _ hq _
    · rw [List.count_append, List.count_eq_zero.mpr (release_quiet _ hq)]; rfl
    · rw [List.count_append, List.count_eq_zero.mpr fun hm : Event.establish ∈ e' => hq _ hm]; rfl

/-! ## The card -/

theorem connect_protocol (s : ConnSvc) (rx : List Byte) (c c' : Conn) (r : Int) (e : List Act) (hd : Nat) (p : Protocol)
    (hc : s.connect = some (hd, p)) (h : connect s rx c = .ok (r, c', e)) :
    c'.protocol = s.protocol ∨ (s.status = none ∧ e = [.opened hd, .closed hd]) := by
  unfold PcscConn.connect at h
  rw [hc] at h
  cases hs' : s.status with
  | none =>
    simp only [hs'] at h
    cases hd : s.disconnect with
    | true => rw [hd] at h; cases h; exact .inr ⟨rfl, rfl⟩
    | false => rw [hd] at h; cases h; exact .inl rfl
  | some atr =>
    left
    simp only [hs'] at h
    obtain ⟨b, -, h⟩ := bind_inv h
    cases b with
    | false => cases h; rfl
    | true =>
      simp only [if_true] at h
      obtain ⟨⟨r1, rx1, n1, e1⟩, -, h⟩ := bind_inv h
      obtain ⟨ans, -, h⟩ := bind_inv h
      obtain ⟨⟨u, uid⟩, -, h⟩ := bind_inv h
      simp only at h
      split at h
      · cases h; rfl
      split at h <;> cases h <;> rfl

theorem connect_atr (s : ConnSvc) (rx : List Byte) (c c' : Conn) (r : Int) (e : List Act) (atr : List Byte)
    (hc : s.connect ≠ none) (hs : s.status = some atr) (h : connect s rx c = .ok (r, c', e)) : c'.reader.atr = atr := by
  unfold PcscConn.connect at h
  cases hc' : s.connect with
  | none => exact absurd hc' hc
  | some x =>
    rw [hc'] at h
    simp only [hs] at h
    obtain ⟨b, -, h⟩ := bind_inv h
    cases b with
    | false => cases h; rfl
    | true =>
      simp only [if_true] at h
      obtain ⟨⟨r1, rx1, n1, e1⟩, -, h⟩ := bind_inv h
      obtain ⟨ans, -, h⟩ := bind_inv h
      obtain ⟨⟨u, uid⟩, -, h⟩ := bind_inv h
      simp only at h
      split at h
      · cases h; rfl
      split at h <;> cases h <;> rfl

theorem connected_spec (w : World) (m : Mem) (hf : Fits w m) (r : Int) (cn : Conn) (a : List Act)
    (h : connect w.conn (m.obj 12) .initial = .ok (r, cn, a)) :
    (r = 2 ↔ Contactless w.conn) ∧ (r = 1 ↔ ∃ atr, Contact w.conn atr) ∧ (r = 2 ∨ r = 1 ∨ r < 0) ∧
    (∀ atr, Contact w.conn atr → cn.protocol = w.conn.protocol ∧ ((atr = [] → (getAtr cn.reader).1 ≠ 0) ∧
      (atr ≠ [] → getAtr cn.reader = (0, atr)))) ∧
    (w.conn.connect = none → a = [] ∧ r < 0) ∧
    (∀ hd p, w.conn.connect = some (hd, p) →
      (a = [.opened hd, .closed hd] ∧ w.conn.status = none ∧ r < 0) ∨
      (cn.card = hd ∧ cn.protocol = w.conn.protocol ∧
        (a = [.opened hd] ∨ (cn.protocol ≠ .other ∧ a = [.opened hd, .sent hd cn.protocol uidRequest])))) := by
  obtain ⟨r', cn', a', e0, e1, e2, e3⟩ := connect_spec w.conn (m.obj 12) .initial ⟨hf.obj 12, hf.uid⟩
  rw [h] at e0
  cases e0
  obtain ⟨res, rd, k0, k1, k2, k3⟩ := C69_type ⟨w.conn.connect.isSome, w.conn.status, w.conn.garbage,
    if w.conn.protocol = .other then none else w.conn.uid, w.conn.disconnect⟩ Conn.initial.reader
  rw [e1] at k0
  cases k0
  have hcon : w.conn.connect.isSome = true ↔ w.conn.connect ≠ none := by cases w.conn.connect <;> simp
  have huid : ∀ x, (if w.conn.protocol = .other then none else w.conn.uid) = some x ↔
      w.conn.protocol ≠ .other ∧ w.conn.uid = some x := by
    intro x
    by_cases hp : w.conn.protocol = .other <;> simp [hp]
  simp only [hcon, huid] at k1 k2
  have k1' : r = 2 ↔ Contactless w.conn := by
    rw [k1]
    constructor
    · rintro ⟨a1, atr, uid, a2, a3, ⟨a4, a5⟩, a6⟩; exact ⟨a1, atr, uid, a2, a3, a4, a5, a6⟩
    · rintro ⟨a1, atr, uid, a2, a3, a4, a5, a6⟩; exact ⟨a1, atr, uid, a2, a3, ⟨a4, a5⟩, a6⟩
  have k2' : r = 1 ↔ ∃ atr, Contact w.conn atr := by
    rw [k2]
    constructor
    · rintro ⟨a1, atr, a2, a3⟩
      refine ⟨atr, a1, a2, fun hx => ?_⟩
      obtain ⟨d, a4, a5⟩ := a3 hx
      exact ⟨a4, d, a5⟩
    · rintro ⟨atr, a1, a2, a3⟩
      refine ⟨a1, atr, a2, fun hx => ?_⟩
      obtain ⟨a4, d, a5⟩ := a3 hx
      exact ⟨d, a4, a5⟩
  refine ⟨k1', k2', k3, ?_, ?_, ?_⟩
  · intro atr hct
    have hr := k2'.mpr ⟨atr, hct⟩
    refine ⟨?_, ?_⟩
    · cases hc : w.conn.connect with
      | none => exact absurd hc hct.1
      | some x =>
        rcases connect_protocol _ _ _ _ _ _ _ _ hc h with hx | ⟨hx, -⟩
        · exact hx
        · rw [hct.2.1] at hx; cases hx
    obtain ⟨atr', b1, b2⟩ := (C69_atr _ _ _ _ e1).1 hr
    simp only [hct.2.1, Option.some.injEq] at b1
    subst b1
    refine ⟨fun h0 => ?_, b2⟩
    subst h0
    have := connect_atr w.conn (m.obj 12) .initial cn r a [] hct.1 hct.2.1 h
    simp [getAtr, this]
  · intro hn
    refine ⟨(e2 hn).1, ?_⟩
    rcases k3 with h2 | h1 | h3
    · exact absurd hn (k1'.mp h2).1
    · obtain ⟨atr, hct⟩ := k2'.mp h1
      exact absurd hn hct.1
    · exact h3
  · intro hd p hc
    rcases e3 hd p hc with ⟨b1, -, b3, -⟩ | ⟨b1, -, b3⟩
    · left
      refine ⟨b1, b3, ?_⟩
      rcases k3 with h2 | h1 | h3
      · obtain ⟨-, atr, _, h4, -⟩ := k1'.mp h2
        rw [b3] at h4; cases h4
      · obtain ⟨atr, -, h4, -⟩ := k2'.mp h1
        rw [b3] at h4; cases h4
      · exact h3
    · rcases connect_protocol _ _ _ _ _ _ _ _ hc h with hx | ⟨-, hx⟩
      · exact .inr ⟨b1, hx, b3⟩
      · rcases b3 with b3 | ⟨-, b3⟩ <;> rw [hx] at b3 <;> simp at b3

theorem deliver_eq (cn : Conn) (rx : List Byte) (as : List (Option (List Byte)))
    (h : ∀ a d, a ∈ as → a = some d → d.length ≤ rx.length) :
    deliver cn rx as = .ok (as.map (received cn.protocol)) := by
  induction as with
  | nil => rfl
  | cons a as ih =>
    have ih := ih fun x d hx => h x d (by simp [hx])
    obtain ⟨r, rx', n, e, e1, e2, e3, e4, e5⟩ := trx_ok cn a [] rx fun d hd => h a d (by simp) hd
    unfold deliver
    rw [e1, bind_ok]
    simp only
    rw [slice_eq (by omega), bind_ok, ih, bind_ok]
    congr 2
    by_cases hp : cn.protocol = .other
    · obtain ⟨rfl, -⟩ := e4 hp
      cases a <;> simp [received, hp]
    · obtain ⟨-, k1, k2⟩ := e5 hp
      cases a with
      | none => obtain ⟨rfl, -⟩ := k1 rfl; simp [received]
      | some d =>
        obtain ⟨rfl, rfl, rfl⟩ := k2 d rfl
        simp [received, hp]

theorem sends_eq (cn : Conn) (log : List (List Byte)) :
    sends cn log = if cn.protocol = .other then [] else log.map (.sent cn.card cn.protocol) := by
  unfold sends
  split
  · simp
  · induction log with
    | nil => rfl
    | cons t l ih => simp [ih]

/-! ## C114 -/

theorem release_count (c : Ctx) : (release (some c)).2.count .release = 1 := by
  obtain ⟨x, y, z⟩ := c
  cases x <;> cases y <;> cases z <;> rfl

theorem release_count0 (c : Option Ctx) : (release c).2.count .establish = 0 := by
  cases c with
  | none => rfl
  | some c =>
    obtain ⟨x, y, z⟩ := c
    cases x <;> cases y <;> cases z <;> rfl

theorem wait_ctx (svc : List Nat → Change) (c : Ctx) (idx : Nat) :
    (waitForCard svc c idx).2.2 = { c with states := some (watch (c.readers.getD []).length idx) } := by
  unfold waitForCard
  dsimp only
  split
  · rfl
  · rfl
  · split <;> rfl

/-- A run that ended after the service was asked: what happened with the context. -/
theorem session_ctx (w : World) (m : Mem) (o : ToolArgs.Opts) (out : List ToolTxn.Item) (res : Result)
    (h : Session w m o out res) : ∃ (c : Option Ctx) (e : List Event) (acts : List Act),
      ((res.ending = .exit 0 ∧ res.trace = e.map .svc ++ acts.map .card ++ (release c).2.map .svc) ∨
        ((res.ending = .waiting ∨ res.ending = .asking) ∧ res.trace = e.map .svc ++ acts.map .card)) ∧
      ledger [] (e ++ (release c).2) = some [] ∧ (e ++ (release c).2).count .release = 1 ∧
      (e ++ (release c).2).count .establish = 1 ∧ (acts ≠ [] → .release ∉ e) := by
  obtain ⟨r, c, e, h1, h⟩ := h
  have ht := init_trace _ _ _ _ _ _ h1
  have key : ∀ c1 : Option Ctx, (∀ x, c = some x → ∃ y, c1 = some y ∧ y.strings = x.strings ∧ y.readers = x.readers ∧
      y.states.isSome = x.states.isSome) → (c = none → c1 = none) →
      ledger [] (e ++ (release c1).2) = some [] ∧ (e ++ (release c1).2).count .release = 1 ∧
      (e ++ (release c1).2).count .establish = 1 := by
    intro c1 hs hn
    rcases ht with ⟨-, rfl, a1, a2, a3⟩ | ⟨-, st, rs, rfl, a1, a2, a3⟩
    · rw [hn rfl]
      simp only [release, List.append_nil]
      exact ⟨a1, a2, a3⟩
    · obtain ⟨y, rfl, b1, b2, b3⟩ := hs _ rfl
      refine ⟨?_, ?_, ?_⟩
      · rw [ledger_append _ _ _ _ a1]
        obtain ⟨y1, y2, y3⟩ := y
        simp only at b1 b2 b3
        subst b1 b2
        cases y3 with
        | none => cases b3
        | some y3 => rfl
      · rw [List.count_append, a2, release_count]
      · rw [List.count_append, a3, release_count0]
  rcases h with ⟨g1, g2, -⟩ | ⟨c0, listing, k, idx, c', rfl, rfl, -, -, hw, h⟩
  · refine ⟨c, e, [], .inl ⟨g1, by rw [g2]; simp⟩, (key c (fun x hx => ⟨x, hx, rfl, rfl, rfl⟩) id).1,
      (key c (fun x hx => ⟨x, hx, rfl, rfl, rfl⟩) id).2.1, (key c (fun x hx => ⟨x, hx, rfl, rfl, rfl⟩) id).2.2, fun h => absurd rfl h⟩
  · have hc' : c' = { c0 with states := some (watch (c0.readers.getD []).length readerAny) } := by
      rw [← wait_ctx w.change, hw]
    have hk := key (some c') (by
      intro x hx
      cases hx
      refine ⟨c', rfl, by rw [hc'], by rw [hc'], ?_⟩
      rcases ht with ⟨a1, -⟩ | ⟨-, st, rs, a2, -⟩
      · cases a1
      · cases a2; rw [hc']; rfl) (fun h => by cases h)
    have hnr : Event.release ∉ e := by
      rcases ht with ⟨a1, -⟩ | ⟨-, st, rs, -, -, a2, -⟩
      · cases a1
      · exact List.count_eq_zero.mp a2
    rcases h with ⟨g1, g2, -⟩ | ⟨-, rd, name, acts, -, -, g, -⟩
    · exact ⟨some c', e, [], .inl ⟨g1, by rw [g2]; simp⟩, hk.1, hk.2.1, hk.2.2, fun h => absurd rfl h⟩
    · exact ⟨some c', e, acts, g, hk.1, hk.2.1, hk.2.2, fun _ => hnr⟩

/-- **C114** (resources).  However the program ends: everything allocated for the readers is freed, once; the context
of the service is released as often as it is established, at most once; and nothing is done with a card after that. -/
theorem C114_released (w : World) (m : Mem) (args : List ToolArgs.Opt) (res : Result) (h : main w m args = .ok res)
    (he : Ended res) :
    ledger [] (serviceOf res.trace) = some [] ∧
    (serviceOf res.trace).count .release = (serviceOf res.trace).count .establish ∧
    (serviceOf res.trace).count .establish ≤ 1 ∧
    ∀ a b, res.trace = a ++ .svc .release :: b → cardOf b = [] := by
  have triv : res.trace = [] → ledger [] (serviceOf res.trace) = some [] ∧
      (serviceOf res.trace).count .release = (serviceOf res.trace).count .establish ∧
      (serviceOf res.trace).count .establish ≤ 1 ∧ ∀ a b, res.trace = a ++ .svc .release :: b → cardOf b = [] := by
    intro e
    rw [e]
    exact ⟨rfl, rfl, by decide, fun a b h => by cases a <;> cases h⟩
  rcases main_inv _ _ _ _ h with ⟨-, rfl⟩ | ⟨p, -, -, ⟨msg, -, rfl⟩ | ⟨-, rfl⟩ | ⟨o, s, -, -, ⟨-, rfl⟩ | ⟨r, st, -, ⟨-, rfl⟩ | ⟨-, extra, -, hs, -⟩⟩⟩⟩
  · exact triv rfl
  · exact triv rfl
  · exact triv rfl
  · exact triv rfl
  · exact triv rfl
  · obtain ⟨c, e, acts, h1, h2, h3, h4, h5⟩ := session_ctx _ _ _ _ _ hs
    rcases h1 with ⟨-, h1⟩ | ⟨h1, -⟩
    · have hsv : serviceOf res.trace = e ++ (release c).2 := by
        rw [h1, serviceOf_append, serviceOf_append, serviceOf_svc, serviceOf_card, serviceOf_svc, List.append_nil]
      rw [hsv]
      refine ⟨h2, by rw [h3, h4], by rw [h4]; exact Nat.le_refl _, ?_⟩
      intro a b hab
      rw [h1] at hab
      cases ha : acts with
      | nil =>
        rw [ha] at hab
        have : cardOf (a ++ .svc .release :: b) = [] := by
          rw [← hab, cardOf_append, cardOf_append, cardOf_svc, cardOf_svc]; rfl
        rw [cardOf_append] at this
        exact (List.append_eq_nil_iff.mp this).2
      | cons x xs =>
        have hne := h5 (by rw [ha]; simp)
        have hnot : Ev.svc .release ∉ e.map Ev.svc ++ acts.map Ev.card := by
          simp only [List.mem_append, List.mem_map, not_or, not_exists, not_and]
          exact ⟨fun y hy e => by cases e; exact hne hy, fun y _ e => by cases e⟩
        rcases List.append_eq_append_iff.mp hab with ⟨a', g1, g2⟩ | ⟨c', g1, g2⟩
        · have hb : ∃ z, (release c).2.map Ev.svc = a' ++ .svc .release :: b ∧ z = 0 := ⟨0, g2, rfl⟩
          have : cardOf ((release c).2.map Ev.svc) = [] := cardOf_svc _
          rw [g2, cardOf_append] at this
          exact (List.append_eq_nil_iff.mp this).2
        · cases c' with
          | nil =>
            rw [List.nil_append] at g2
            have : cardOf ((release c).2.map Ev.svc) = [] := cardOf_svc _
            rw [← g2] at this
            exact this
          | cons y ys =>
            injection g2 with g2 g3
            exact absurd (by rw [g1]; simp [← g2]) hnot
    · rcases h1 with h1 | h1
      · exact absurd h1 he.1
      · exact absurd h1 he.2

/-- **C114** (status).  The status is 1 without arguments, 64 when an argument is refused, 2 when the codes cannot be
loaded and otherwise 0. -/
theorem C114_status (w : World) (m : Mem) (args : List ToolArgs.Opt) (res : Result) (h : main w m args = .ok res) (n : Nat)
    (hn : res.ending = .exit n) :
    (args = [] ∧ n = 1) ∨
    (args ≠ [] ∧ (∃ msg, ToolArgs.parse .init args = .ok (.refused msg) ∧ res.out = [.error msg]) ∧ n = 64) ∨
    (args ≠ [] ∧ ToolArgs.parse .init args = .ok .version ∧ n = 0) ∨
    ∃ o r st, args ≠ [] ∧ ToolArgs.parse .init args = .ok (.set o) ∧
      Codes.stringsInit w.files o.isocodes o.mcc Codes.fresh = .ok (.ok (r, st)) ∧ n = if r < 0 then 2 else 0 := by
  rcases main_inv _ _ _ _ h with ⟨h0, rfl⟩ | ⟨p, h0, hp, ⟨msg, rfl, rfl⟩ | ⟨rfl, rfl⟩ | ⟨o, s, rfl, hs, ⟨-, rfl⟩ | ⟨r, st, rfl, ⟨hr, rfl⟩ | ⟨hr, extra, -, hs', -⟩⟩⟩⟩
  · cases hn; exact .inl ⟨h0, rfl⟩
  · cases hn; exact .inr (.inl ⟨h0, ⟨msg, hp, rfl⟩, rfl⟩)
  · cases hn; exact .inr (.inr (.inl ⟨h0, hp, rfl⟩))
  · cases hn
  · cases hn; exact .inr (.inr (.inr ⟨o, r, st, h0, hp, hs, by rw [if_pos hr]⟩))
  · refine .inr (.inr (.inr ⟨o, r, st, h0, hp, hs, ?_⟩))
    rw [if_neg (by omega)]
    obtain ⟨c, e, acts, h1, -⟩ := session_ctx _ _ _ _ _ hs'
    rcases h1 with ⟨h1, -⟩ | ⟨h1 | h1, -⟩
    · rw [hn] at h1; cases h1; rfl
    · rw [hn] at h1; cases h1
    · rw [hn] at h1; cases h1

theorem liveAfter_sends (h : Nat) (p : Protocol) (log : List (List Byte)) (live : List Nat) (rest : List Act) :
    liveAfter live (log.map (.sent h p) ++ rest) = liveAfter live rest := by
  induction log with
  | nil => rfl
  | cons t l ih => exact ih

theorem proper_sends (h : Nat) (p : Protocol) (hp : p ≠ .other) (log : List (List Byte)) (live : List Nat) (hl : h ∈ live)
    (rest : List Act) (hr : Proper live rest) : Proper live (log.map (.sent h p) ++ rest) := by
  induction log with
  | nil => exact hr
  | cons t l ih => exact ⟨hl, hp, ih⟩

end Verif.ToolMain
