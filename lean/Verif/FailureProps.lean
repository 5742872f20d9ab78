import Verif.ToolTxn
import Verif.StackLemmas
import Verif.Text

/-!
# C154: a failure of the reader or of an exchange ends the transaction
-/

set_option autoImplicit false

namespace Verif.Failure
open Verif Ber TlvParse App Tal Emv Stack

/-! ## Specification -/

/-- A run in which an exchange that fails is the last, and the result then satisfies `P`. -/
def Stops {α : Type} (P : α → Prop) (x : C (Run α)) : Prop :=
  ∀ tr o, x = .ok (tr, o) → (∀ y ∈ tr, y.2.code = 0) ∨
    ∃ pre y a rest, tr = pre ++ [y] ∧ (∀ z ∈ pre, z.2.code = 0) ∧ y.2.code ≠ 0 ∧ o = .done a rest ∧ P a

/-- The transaction has ended with the outcome "card error", and this is the last line printed. -/
def CardError (e : ToolTxn.End) : Prop :=
  e.how = .code 1 ∧ e.out.getLast? = some (.text txt!"OUTCOME: Card error\n")

/-! ## Lemmas -/

variable {α β : Type}

theorem stops_fin (P : α → Prop) (a : α) (rest : List W) : Stops P (fin a rest) := by
  intro tr o h
  cases h
  exact .inl (fun y hy => by cases hy)

theorem stops_pending (P : α → Prop) (c : Cmd) : Stops P (.ok ([], .pending c) : C (Run α)) := by
  intro tr o h
  cases h
  exact .inl (fun y hy => by cases hy)

theorem stops_error (P : α → Prop) (e : UB) : Stops P (.error e : C (Run α)) := by
  intro tr o h
  cases h

theorem stops_log {P : α → Prop} {x : C (Run α)} (c : Cmd) (w : W) (hw : w.code = 0) (h : Stops P x) :
    Stops P (log c w x) := by
  intro tr o e
  unfold log at e
  cases x with
  | error u => cases e
  | ok x =>
    obtain ⟨t, o'⟩ := x
    cases e
    rcases h _ _ rfl with h | ⟨pre, y, a, rest, rfl, h1, h2, h3, h4⟩
    · exact .inl (fun y hy => by
        rcases List.mem_cons.1 hy with rfl | hy
        · exact hw
        · exact h y hy)
    · exact .inr ⟨(c, w) :: pre, y, a, rest, rfl, fun z hz => by
        rcases List.mem_cons.1 hz with rfl | hz
        · exact hw
        · exact h1 z hz, h2, h3, h4⟩

theorem stops_failed {P : α → Prop} (c : Cmd) (w : W) (a : α) (rest : List W) (ha : P a) :
    Stops P (log c w (fin a rest)) := by
  intro tr o e
  cases e
  by_cases hw : w.code = 0
  · exact .inl (fun y hy => by
      rcases List.mem_cons.1 hy with rfl | hy
      · exact hw
      · cases hy)
  · exact .inr ⟨[], (c, w), a, rest, rfl, (fun z hz => by cases hz), hw, rfl, ha⟩

theorem stops_bind {P : α → Prop} {γ : Type} (c : C γ) (k : γ → C (Run α)) (h : ∀ v, Stops P (k v)) :
    Stops P (c >>= k) := by
  cases c with
  | error e => exact stops_error _ _
  | ok v => exact h v

theorem stops_then {P : α → Prop} {Q : β → Prop} {x : C (Run α)} {f : α → List W → C (Run β)} (hx : Stops P x)
    (hf : ∀ a rest, Stops Q (f a rest)) (hp : ∀ a rest, P a → ∃ b, f a rest = fin b rest ∧ Q b) :
    Stops Q (andThen x f) := by
  intro tr o e
  unfold andThen at e
  cases x with
  | error u => cases e
  | ok x =>
    obtain ⟨t, o'⟩ := x
    rcases hx _ _ rfl with h | ⟨pre, y, a, rest, rfl, h1, h2, rfl, h4⟩
    · cases o' with
      | pending c => cases e; exact .inl h
      | done a rest =>
        simp only [bind_ok] at e
        cases hfa : f a rest with
        | error u => rw [hfa] at e; cases e
        | ok z =>
          obtain ⟨t2, o2⟩ := z
          rw [hfa] at e
          cases e
          rcases hf a rest _ _ hfa with g | ⟨pre, y, b, rest', rfl, g1, g2, g3, g4⟩
          · exact .inl (fun y hy => by
              rcases List.mem_append.1 hy with hy | hy
              · exact h y hy
              · exact g y hy)
          · exact .inr ⟨t ++ pre, y, b, rest', by simp, fun z hz => by
              rcases List.mem_append.1 hz with hz | hz
              · exact h z hz
              · exact g1 z hz, g2, g3, g4⟩
    · obtain ⟨b, hb, hq⟩ := hp a rest h4
      simp only [bind_ok, hb, fin, List.append_nil] at e
      cases e
      exact .inr ⟨pre, y, b, rest, rfl, h1, h2, rfl, hq⟩

theorem stops_sfi (alloc : List Tlv → Tlv → Bool) (sfi last : Byte) : ∀ (script : List W) (rec : Byte) (oda : Bool)
    (list : List Tlv), Stops (fun a => a.1 = -3) (sfiLoop alloc sfi last script rec oda list) := by
  intro script
  induction script with
  | nil =>
    intro rec oda list
    unfold sfiLoop
    split
    · exact stops_fin _ _ _
    · split
      · exact stops_fin _ _ _
      · exact stops_pending _ _
  | cons w rest ih =>
    intro rec oda list
    unfold sfiLoop
    split
    · exact stops_fin _ _ _
    · split
      · exact stops_fin _ _ _
      · by_cases hw : w.code = 0
        · refine stops_log _ _ hw ?_
          rw [if_neg (by simp [hw])]
          split
          · exact stops_fin _ _ _
          · refine stops_bind _ _ fun v => ?_
            cases v with
            | stop code list => exact stops_fin _ _ _
            | spoilt => exact ih _ _ _
            | next list => exact ih _ _ _
        · try dsimp only
          rw [if_pos hw]
          exact stops_failed _ _ _ _ rfl

theorem stops_afl (alloc : List Tlv → Tlv → Bool) : ∀ (fuel : Nat) (itr : List Byte) (oda : Bool) (list : List Tlv)
    (script : List W), Stops (fun a => a.1 = -3) (aflLoop alloc fuel itr oda list script) := by
  intro fuel
  induction fuel with
  | zero => intro itr oda list script; exact stops_error _ _
  | succ fuel ih =>
    intro itr oda list script
    unfold aflLoop
    refine stops_bind _ _ fun v => ?_
    obtain ⟨itr', r⟩ := v
    cases r with
    | eod => exact stops_fin _ _ _
    | err _ => exact stops_fin _ _ _
    | ok _ e =>
      refine stops_then (stops_sfi alloc e.sfi e.last script e.first false list) (fun a rest => ?_) (fun a rest h => ?_)
      · try dsimp only
        split
        · exact ih _ _ _ _
        · split
          · exact ih _ _ _ _
          · exact stops_fin _ _ _
      · have h : a.1 = -3 := h
        refine ⟨a, ?_, h⟩
        try dsimp only
        rw [if_neg (by omega), if_neg (by omega)]

theorem stops_readData (alloc : List Tlv → Tlv → Bool) (ctx : Ctx) (script : List W) :
    Stops (fun a => a.1 = 1) (readData alloc ctx script) := by
  unfold readData
  cases find ctx.icc 0x94 with
  | none => exact stops_fin _ _ _
  | some afl =>
    refine stops_then (P := fun a => a.1 = -3) ?_ (fun a rest => ?_) (fun a rest h => ?_)
    · unfold readAfl
      try dsimp only
      split
      · exact stops_fin _ _ _
      · split
        · exact stops_fin _ _ _
        · split
          · exact stops_fin _ _ _
          · exact stops_afl _ _ _ _ _ _
    · try dsimp only
      repeat' split
      all_goals exact stops_fin _ _ _
    · have h : a.1 = -3 := h
      exact ⟨(1, ctx), by (try dsimp only); rw [if_pos (by omega), if_neg (by omega)], rfl⟩

theorem stops_gpo (alloc : List Tlv → Tlv → Bool) (data : Option (List Byte)) (script : List W) :
    Stops (fun a => a.code = -3) (gpo alloc data [] script) := by
  unfold gpo
  split
  · exact stops_fin _ _ _
  · unfold send
    have hk : ∀ (w : W) (rest : List W), w.code = 0 → Stops (fun a : Gpo => a.code = -3)
        (if w.sw ≠ 0x9000 then fin ⟨if w.sw = 0x6985 then 13 else -5, [], .null, .null⟩ rest
          else do
            match ← gpoFields alloc w.data with
            | .error c => fin ⟨c, [], .null, .null⟩ rest
            | .ok l =>
              match find l 0x82 with
              | none => fin ⟨-7, [], .null, .null⟩ rest
              | some a =>
                match find l 0x94 with
                | none => fin ⟨-7, [], .dangling, .null⟩ rest
                | some f => fin ⟨0, [] ++ l, .field a, .field f⟩ rest) := by
      intro w rest hw
      split
      · exact stops_fin _ _ _
      · refine stops_bind _ _ fun v => ?_
        cases v with
        | error c => exact stops_fin _ _ _
        | ok l =>
          try dsimp only
          repeat' split
          all_goals exact stops_fin _ _ _
    split
    · try dsimp only
      rw [if_pos (by decide)]
      exact stops_fin _ _ _
    · cases script with
      | nil => exact stops_pending _ _
      | cons w rest =>
        try dsimp only
        by_cases hw : w.code = 0
        · refine stops_log _ _ hw ?_
          rw [if_neg (by simp [hw])]
          exact hk w rest hw
        · try dsimp only
          rw [if_pos hw]
          exact stops_failed _ _ _ _ rfl

theorem stops_initiate (alloc : List Tlv → Tlv → Bool) (buf : List Byte) (ctx : Ctx) (pos : Byte) (script : List W) :
    Stops (fun a => a.1 = 1) (initiate alloc buf ctx pos script) := by
  unfold initiate
  split
  · exact stops_fin _ _ _
  · try dsimp only
    split
    · exact stops_error _ _
    · split
      · exact stops_fin _ _ _
      · split
        · exact stops_error _ _
        · split
          · exact stops_fin _ _ _
          · refine stops_bind _ _ fun v => ?_
            cases v with
            | error c => exact stops_fin _ _ _
            | ok data =>
              refine stops_then (stops_gpo alloc data script) (fun a rest => ?_) (fun a rest h => ?_)
              · try dsimp only
                repeat' split
                all_goals exact stops_fin _ _ _
              · have h : a.code = -3 := h
                exact ⟨_, by (try dsimp only); rw [if_pos (by omega), if_neg (by omega)], rfl⟩

theorem stops_pseLoop (pse supported : List Tlv) (sfi : Byte) : ∀ (script : List W) (rec : Byte) (apps : List App),
    Stops (fun a => a.1 = -3) (pseLoop pse supported sfi script rec apps) := by
  intro script
  induction script with
  | nil =>
    intro rec apps
    unfold pseLoop
    split
    · exact stops_fin _ _ _
    · exact stops_pending _ _
  | cons w rest ih =>
    intro rec apps
    unfold pseLoop
    split
    · exact stops_fin _ _ _
    · by_cases hw : w.code = 0
      · refine stops_log _ _ hw ?_
        rw [if_neg (by simp [hw])]
        split
        · exact stops_fin _ _ _
        · split
          · exact ih _ _
          · refine stops_bind _ _ fun v => ?_
            try dsimp only
            split
            · exact stops_fin _ _ _
            · exact ih _ _
      · try dsimp only
        rw [if_pos hw]
        exact stops_failed _ _ _ _ rfl

theorem stops_readPse (supported : List Tlv) (apps : List App) (script : List W) :
    Stops (fun a => a.1 = -3) (readPse supported apps script) := by
  unfold readPse send
  rw [show refusesName pseName = false by decide]
  simp only [Bool.false_eq_true, if_false]
  cases script with
  | nil => exact stops_pending _ _
  | cons w rest =>
    try dsimp only
    by_cases hw : w.code = 0
    · refine stops_log _ _ hw ?_
      rw [if_neg (by simp [hw])]
      split
      · exact stops_fin _ _ _
      · split
        · exact stops_fin _ _ _
        · split
          · exact stops_fin _ _ _
          · split
            · exact stops_fin _ _ _
            · refine stops_bind _ _ fun v => ?_
              try dsimp only
              split
              · exact stops_fin _ _ _
              · split
                · exact stops_fin _ _ _
                · split
                  · exact stops_fin _ _ _
                  · exact stops_bind _ _ fun sfi => stops_pseLoop _ _ _ _ _ _
    · try dsimp only
      rw [if_pos hw]
      exact stops_failed _ _ _ _ rfl

theorem stops_findApps : ∀ (script : List W) (aids : List Tlv) (first : Bool) (apps : List App),
    Stops (fun a => a.1 = -3) (findApps script aids first apps) := by
  intro script
  induction script with
  | nil =>
    intro aids first apps
    cases aids with
    | nil => unfold findApps; exact stops_fin _ _ _
    | cons t aids =>
      unfold findApps
      split
      · exact stops_fin _ _ _
      · exact stops_pending _ _
  | cons w rest ih =>
    intro aids first apps
    cases aids with
    | nil => unfold findApps; exact stops_fin _ _ _
    | cons t aids =>
      unfold findApps
      split
      · exact stops_fin _ _ _
      · by_cases hw : w.code = 0
        · refine stops_log _ _ hw ?_
          rw [if_neg (by simp [hw])]
          split
          · exact stops_fin _ _ _
          · split
            · exact ih _ _ _
            · refine stops_bind _ _ fun v => ?_
              cases v with
              | none => exact ih _ _ _
              | some app =>
                try dsimp only
                split
                · exact ih _ _ _
                · split
                  · exact ih _ _ _
                  · exact ih _ _ _
        · try dsimp only
          rw [if_pos hw]
          exact stops_failed _ _ _ _ rfl

theorem stops_finish {P : Int × List App → Prop} (apps : List App) (rest : List W) : Stops P (Emv.finish apps rest) := by
  unfold Emv.finish
  split <;> exact stops_fin _ _ _

theorem stops_build (supported : List Tlv) (apps : List App) (script : List W) :
    Stops (fun a => a.1 = 1) (Emv.build supported apps script) := by
  unfold Emv.build
  refine stops_then (stops_readPse supported apps script) (fun a rest => ?_) (fun a rest h => ?_)
  · try dsimp only
    split
    · exact stops_fin _ _ _
    · split
      · refine stops_then (stops_findApps rest supported true a.2) (fun a rest => ?_) (fun a rest h => ?_)
        · try dsimp only
          split
          · exact stops_fin _ _ _
          · exact stops_finish _ _
        · have h : a.1 = -3 := h
          exact ⟨_, by (try dsimp only); rw [if_pos (by omega), if_neg (by omega)], rfl⟩
      · exact stops_finish _ _
  · have h : a.1 = -3 := h
    exact ⟨_, by (try dsimp only); rw [if_pos (by omega), if_neg (by omega)], rfl⟩

theorem stops_selectApp (aid : List Byte) (script : List W) : Stops (fun a => a.1 = -3) (selectApp aid script) := by
  unfold selectApp
  split
  · exact stops_fin _ _ _
  · unfold send
    split
    · try dsimp only
      rw [if_pos (by decide)]
      exact stops_fin _ _ _
    · cases script with
      | nil => exact stops_pending _ _
      | cons w rest =>
        try dsimp only
        by_cases hw : w.code = 0
        · refine stops_log _ _ hw ?_
          rw [if_neg (by simp [hw])]
          split
          · exact stops_fin _ _ _
          · refine stops_bind _ _ fun v => ?_
            cases v with
            | none => exact stops_fin _ _ _
            | some app =>
              try dsimp only
              split
              · exact stops_fin _ _ _
              · refine stops_bind _ _ fun v => ?_
                split <;> exact stops_fin _ _ _
        · try dsimp only
          rw [if_pos hw]
          exact stops_failed _ _ _ _ rfl

theorem stops_select (ctx : Ctx) (apps : List App) (i : Nat) (script : List W) :
    Stops (fun a => a.1 = 1) (select ctx apps i script) := by
  unfold select
  try dsimp only
  split
  · exact stops_fin _ _ _
  · split
    · exact stops_fin _ _ _
    · refine stops_then (stops_selectApp _ script) (fun a rest => ?_) (fun a rest h => ?_)
      · try dsimp only
        repeat' split
        all_goals exact stops_fin _ _ _
      · have h : a.1 = -3 := h
        exact ⟨_, by (try dsimp only); rw [if_pos (by omega), if_neg (by omega)], rfl⟩

theorem card_error {r : Int} (h : r = 1) (ctx : Ctx) (apps : List App) (input : List Byte) (out : List ToolTxn.Item) :
    CardError ⟨.code r, ctx, apps, input, out ++ [ToolTxn.complaint r]⟩ := by
  subst h
  exact ⟨rfl, by rw [List.getLast?_concat]; exact congrArg some (by decide +kernel)⟩

theorem stops_rounds (alloc : List Tlv → Tlv → Bool) (mem : Nat → List Byte) (req : Bool) : ∀ (fuel : Nat) (ctx : Ctx)
    (apps : List App) (input : List Byte) (out : List ToolTxn.Item) (script : List W),
    Stops CardError (ToolTxn.rounds alloc mem req fuel ctx apps input out script) := by
  intro fuel
  induction fuel with
  | zero => intro ctx apps input out script; exact stops_error _ _
  | succ fuel ih =>
    intro ctx apps input out script
    unfold ToolTxn.rounds
    refine stops_bind _ _ fun v => ?_
    obtain ⟨c, bad⟩ := v
    cases c with
    | never => exact stops_fin _ _ _
    | index i input =>
      refine stops_then (stops_select ctx apps i script) (fun a rest => ?_) (fun a rest h => ?_)
      · try dsimp only
        split
        · exact stops_fin _ _ _
        · split
          · split
            · exact ih _ _ _ _ _
            · exact stops_fin _ _ _
          · split
            · exact stops_fin _ _ _
            · refine stops_then (stops_initiate alloc _ _ 5 rest) (fun b rest => ?_) (fun b rest h => ?_)
              · try dsimp only
                split
                · exact stops_fin _ _ _
                · split
                  · split
                    · exact ih _ _ _ _ _
                    · exact stops_fin _ _ _
                  · exact stops_fin _ _ _
              · have h : b.1 = 1 := h
                exact ⟨_, by (try dsimp only); rw [if_neg (by omega), if_pos (by omega), if_neg (by omega)], card_error h _ _ _ _⟩
      · have h : a.1 = 1 := h
        exact ⟨_, by (try dsimp only); rw [if_neg (by omega), if_pos (by omega), if_neg (by omega)], card_error h _ _ _ _⟩

theorem stops_reading (alloc : List Tlv → Tlv → Bool) (e : ToolTxn.End) (script : List W) :
    Stops CardError (ToolTxn.reading alloc e script) := by
  unfold ToolTxn.reading
  refine stops_then (stops_readData alloc e.ctx script) (fun a rest => ?_) (fun a rest h => ?_)
  · split <;> exact stops_fin _ _ _
  · have h : a.1 = 1 := h
    exact ⟨_, by rw [if_pos (by omega)], card_error h _ _ _ _⟩

theorem stops_transaction (alloc : List Tlv → Tlv → Bool) (mem : Nat → List Byte) (ctx : Ctx) (input : List Byte)
    (script : List W) : Stops CardError (ToolTxn.transaction alloc mem ctx input script) := by
  unfold ToolTxn.transaction
  refine stops_then (stops_build ctx.supported [] script) (fun a rest => ?_) (fun a rest h => ?_)
  · try dsimp only
    split
    · exact stops_fin _ _ _
    · refine stops_then (stops_rounds alloc mem _ _ _ _ _ _ rest) (fun e rest => ?_) (fun e rest h => ?_)
      · split
        · exact stops_reading _ _ _
        · exact stops_fin _ _ _
      · exact ⟨e, by rw [if_neg (by rw [h.1]; simp)], h⟩
  · have h : a.1 = 1 := h
    exact ⟨_, by (try dsimp only); rw [if_pos (by omega)], card_error h _ _ _ _⟩

/-! ### Over a reader -/

/-- What a failure among the answers does to a command. -/
def Hit (us : List Ttl.Resp) (r : Int) (rest : List Ttl.Resp) (n : Nat) (code : Int) (left : List Ttl.Resp) : Prop :=
  (∃ us2, us2 <:+ us ∧ left = us2 ++ .fail r :: rest ∧ n + us2.length = us.length) ∨
  (left = rest ∧ code ≠ 0 ∧ n = us.length + 1)

theorem run_fail (capdu : List Byte) (mode : Ttl.Mode) (c : Apdu.Case) (r : Int) (rest : List Ttl.Resp) :
    ∀ (us : List Ttl.Resp) (st : Ttl.St) (l : List (List Byte)) (o : Ttl.Outcome),
      Ttl.run capdu mode c (us ++ .fail r :: rest) st = .ok (l, o) →
      ∃ d left, o = .done d left ∧ Hit us r rest l.length d.code left := by
  intro us
  induction us with
  | nil =>
    intro st l o h
    simp only [List.nil_append] at h
    unfold Ttl.run at h
    cases ht : Ttl.txBytes capdu st with
    | error e => rw [ht] at h; cases h
    | ok t =>
      rw [ht] at h
      cases h
      refine ⟨_, _, rfl, .inr ⟨rfl, ?_, rfl⟩⟩
      show (if r = 0 then 1 else r) ≠ 0
      split <;> omega
  | cons u us ih =>
    intro st l o h
    simp only [List.cons_append] at h
    unfold Ttl.run at h
    cases ht : Ttl.txBytes capdu st with
    | error e => rw [ht] at h; cases h
    | ok t =>
      rw [ht, bind_ok] at h
      match hs : Ttl.step capdu mode c st u with
      | .error e => rw [hs] at h; cases h
      | .ok (.inr d) =>
        rw [hs] at h
        cases h
        exact ⟨_, _, rfl, .inl ⟨us, List.suffix_cons _ _, rfl, by simp; omega⟩⟩
      | .ok (.inl st') =>
        rw [hs, bind_ok] at h
        simp only at h
        match hr : Ttl.run capdu mode c (us ++ .fail r :: rest) st' with
        | .error e => rw [hr] at h; cases h
        | .ok (l', o') =>
          rw [hr, bind_ok] at h
          cases h
          obtain ⟨d, left, rfl, hh⟩ := ih st' l' o' hr
          refine ⟨d, left, rfl, ?_⟩
          rcases hh with ⟨us2, h1, h2, h3⟩ | ⟨h1, h2, h3⟩
          · exact .inl ⟨us2, h1.trans (List.suffix_cons _ _), h2, by simp; omega⟩
          · exact .inr ⟨h1, h2, by simp; omega⟩

theorem hit_none (us : List Ttl.Resp) (r : Int) (rest : List Ttl.Resp) (code : Int) :
    Hit us r rest 0 code (us ++ .fail r :: rest) :=
  .inl ⟨us, List.suffix_refl _, rfl, by omega⟩

theorem trx_fail (mode : Ttl.Mode) (capdu rbuf : List Byte) (us : List Ttl.Resp) (r : Int) (rest : List Ttl.Resp)
    (l : List (List Byte)) (o : Ttl.Outcome) (h : Ttl.trx mode capdu rbuf (us ++ .fail r :: rest) = .ok (l, o)) :
    ∃ d left, o = .done d left ∧ Hit us r rest l.length d.code left := by
  unfold Ttl.trx at h
  split at h
  · cases h
    exact ⟨_, _, rfl, hit_none _ _ _ _⟩
  · cases hc : Apdu.apduCase capdu with
    | error e => rw [hc] at h; cases h
    | ok v =>
      rw [hc, bind_ok] at h
      cases v with
      | error x =>
        cases h
        exact ⟨_, _, rfl, hit_none _ _ _ _⟩
      | ok c =>
        simp only at h
        split at h
        · cases hi : Ttl.initSt capdu mode c rbuf with
          | error e => rw [hi] at h; cases h
          | ok st =>
            rw [hi, bind_ok] at h
            exact run_fail capdu mode c r rest us st l o h
        · cases h
          exact ⟨_, _, rfl, hit_none _ _ _ _⟩

theorem exchange_fail (mode : Ttl.Mode) (capdu : List Byte) (cap : Nat) (short big : Int) (us : List Ttl.Resp) (r : Int)
    (rest : List Ttl.Resp) (l : List (List Byte)) (o : Ttl.WOutcome)
    (h : Ttl.exchange mode capdu cap short big (us ++ .fail r :: rest) = .ok (l, o)) :
    ∃ d left, o = .done d left ∧ Hit us r rest l.length d.code left := by
  unfold Ttl.exchange at h
  match hx : Ttl.trx mode capdu (List.replicate 258 0) (us ++ .fail r :: rest) with
  | .error e => rw [hx] at h; cases h
  | .ok (l', o') =>
    rw [hx, bind_ok] at h
    obtain ⟨d, left, rfl, hh⟩ := trx_fail _ _ _ _ _ _ _ _ hx
    simp only at h
    split at h
    · cases h
      exact ⟨_, _, rfl, hh⟩
    · next h0 =>
      have hh : ∀ code, Hit us r rest l'.length code left := fun code => by
        rcases hh with hh | ⟨-, h1, -⟩
        · exact .inl hh
        · exact absurd h1 h0
      split at h
      · cases h
        exact ⟨_, _, rfl, hh _⟩
      · split at h
        · cases h
          exact ⟨_, _, rfl, hh _⟩
        · cases hs : slice d.rbuf 0 (d.rlen - 2) with
          | error e => rw [hs] at h; cases h
          | ok data =>
            rw [hs] at h
            cases h
            exact ⟨_, _, rfl, hh _⟩

theorem refuse_fail (code : Int) (us : List Ttl.Resp) (r : Int) (rest : List Ttl.Resp) (l : List (List Byte))
    (o : Ttl.WOutcome) (h : Ttl.refuse code (us ++ .fail r :: rest) = .ok (l, o)) :
    ∃ d left, o = .done d left ∧ Hit us r rest l.length d.code left := by
  cases h
  exact ⟨_, _, rfl, hit_none _ _ _ _⟩

theorem bind_inv {γ δ : Type} {c : C γ} {k : γ → C δ} {v : δ} (h : (c >>= k) = .ok v) : ∃ x, c = .ok x ∧ k x = .ok v := by
  cases c with
  | error e => cases h
  | ok x => exact ⟨x, rfl, h⟩

theorem wrapper_fail (mode : Ttl.Mode) (cmd : Cmd) (us : List Ttl.Resp) (r : Int) (rest : List Ttl.Resp)
    (l : List (List Byte)) (o : Ttl.WOutcome) (h : wrapper mode cmd (us ++ .fail r :: rest) = .ok (l, o)) :
    ∃ d left, o = .done d left ∧ Hit us r rest l.length d.code left := by
  cases cmd with
  | select next name =>
    simp only [wrapper, Ttl.select] at h
    rw [if_neg (by omega), if_neg (by omega)] at h
    split at h
    · exact refuse_fail _ _ _ _ _ _ h
    · obtain ⟨x, -, h⟩ := bind_inv h
      exact exchange_fail _ _ _ _ _ _ _ _ _ _ h
  | readRecord sfi rec =>
    simp only [wrapper, Ttl.readRecord] at h
    rw [if_neg (by omega), if_neg (by omega)] at h
    split at h
    · exact refuse_fail _ _ _ _ _ _ h
    · exact exchange_fail _ _ _ _ _ _ _ _ _ _ h
  | gpo data =>
    simp only [wrapper, Ttl.gpo] at h
    rw [if_neg (by omega), if_neg (by omega)] at h
    cases data with
    | none =>
      obtain ⟨x, -, h⟩ := bind_inv h
      exact exchange_fail _ _ _ _ _ _ _ _ _ _ h
    | some d =>
      simp only at h
      split at h
      · exact refuse_fail _ _ _ _ _ _ h
      · obtain ⟨b, -, h⟩ := bind_inv h
        split at h
        · exact refuse_fail _ _ _ _ _ _ h
        · obtain ⟨x, -, h⟩ := bind_inv h
          exact exchange_fail _ _ _ _ _ _ _ _ _ _ h

theorem drive_fail {P : α → Prop} (prog : List W → C (Run α)) (hon : Online prog) (hst : ∀ s, Stops P (prog s))
    (mode : Ttl.Mode) (r : Int) (rest : List Ttl.Resp) : ∀ (fuel : Nat) (ws : List W) (us : List Ttl.Resp)
    (l : List (List Byte)) (en : Ending α), drive prog mode fuel ws (us ++ .fail r :: rest) = .ok (l, en) →
    (∃ tr a us2, us2 <:+ us ∧ en = .done tr a (us2 ++ .fail r :: rest)) ∨
    (∃ tr a, en = .done tr a rest ∧ P a ∧ l.length = us.length + 1) := by
  intro fuel
  induction fuel with
  | zero => intro ws us l en h; cases h
  | succ fuel ih =>
    intro ws us l en h
    unfold drive at h
    obtain ⟨⟨tr, o⟩, hp, h⟩ := bind_inv h
    cases o with
    | done a _ =>
      cases h
      exact .inl ⟨tr, a, us, List.suffix_refl _, rfl⟩
    | pending cmd =>
      simp only at h
      obtain ⟨⟨l1, o1⟩, hw, h⟩ := bind_inv h
      obtain ⟨d, left, rfl, hh⟩ := wrapper_fail _ _ _ _ _ _ _ hw
      simp only at h
      obtain ⟨⟨l2, en2⟩, hd, h⟩ := bind_inv h
      cases h
      rcases hh with ⟨us2, h1, rfl, h3⟩ | ⟨rfl, h2, h3⟩
      · rcases ih _ _ _ _ hd with ⟨tr, a, us3, g1, g2⟩ | ⟨tr, a, g1, g2, g3⟩
        · exact .inl ⟨tr, a, us3, g1.trans h1, g2⟩
        · exact .inr ⟨tr, a, g1, g2, by rw [List.length_append]; show l1.length + l2.length = _; omega⟩
      · have ho := hon ws
        unfold OnlineAt at ho
        rw [hp] at ho
        have hs := ho.2.2 ⟨d.code, d.data, d.sw⟩ []
        cases fuel with
        | zero => cases hd
        | succ fuel =>
          unfold drive at hd
          obtain ⟨⟨tr', o'⟩, hp', hd⟩ := bind_inv hd
          rw [hp'] at hs
          obtain ⟨t, rfl⟩ := hs
          rcases hst _ _ _ hp' with hz | ⟨pre, y, a, rest', -, -, -, rfl, hP⟩
          · exact absurd (hz (cmd, ⟨d.code, d.data, d.sw⟩) (by simp)) h2
          · cases hd
            exact .inr ⟨_, a, rfl, hP, by simp; omega⟩

/-! ## Property -/

/-- **C154.**  Whatever the card, the terminal data and the input: once an exchange with the card fails, no further
command is sent, and the transaction ends with the outcome "card error", which is the last line printed. -/
theorem C154_stops (alloc : List Tlv → Tlv → Bool) (mem : Nat → List Byte) (ctx : Ctx) (input : List Byte) (script : List W)
    (tr : List (Cmd × W)) (o : Out ToolTxn.End) (h : ToolTxn.transaction alloc mem ctx input script = .ok (tr, o))
    (i : Nat) (cmd : Cmd) (w : W) (hi : tr[i]? = some (cmd, w)) (hw : w.code ≠ 0) :
    i + 1 = tr.length ∧ ∃ e rest, o = .done e rest ∧ CardError e := by
  rcases stops_transaction alloc mem ctx input script tr o h with hz | ⟨pre, y, e, rest, rfl, h1, h2, h3, h4⟩
  · exact absurd (hz _ (List.mem_of_getElem? hi)) hw
  · refine ⟨?_, e, rest, h3, h4⟩
    have hlt := (List.getElem?_eq_some_iff.mp hi).1
    rw [List.length_append, List.length_singleton] at hlt ⊢
    rcases Nat.lt_or_ge i pre.length with hl | hl
    · rw [List.getElem?_append_left hl] at hi
      exact absurd (h1 _ (List.mem_of_getElem? hi)) hw
    · omega

/-- **C154** (functions).  The same of each function of the kernel: the failed exchange is its last, and the outcome is 1. -/
theorem C154_kernel (alloc : List Tlv → Tlv → Bool) (buf : List Byte) (ctx : Ctx) (supported : List Tlv) (apps : List App)
    (n : Nat) (pos : Byte) (script : List W) :
    Stops (fun a => a.1 = 1) (Emv.build supported apps script) ∧ Stops (fun a => a.1 = 1) (select ctx apps n script) ∧
    Stops (fun a => a.1 = 1) (initiate alloc buf ctx pos script) ∧ Stops (fun a => a.1 = 1) (readData alloc ctx script) :=
  ⟨stops_build _ _ _, stops_select _ _ _ _, stops_initiate _ _ _ _ _, stops_readData _ _ _⟩

attribute [local irreducible] ToolTxn.transaction in
/-- **C154** (reader).  When the reader fails to transmit, in APDU or TPDU mode: unless the transaction had ended before,
nothing is transmitted any more (as many transmissions as answers, the failure included), and it ends with the outcome
"card error", whatever the reader would have answered afterwards. -/
theorem C154_reader (alloc : List Tlv → Tlv → Bool) (mem : Nat → List Byte) (ctx : Ctx) (input : List Byte) (mode : Ttl.Mode)
    (us : List Ttl.Resp) (r : Int) (rest : List Ttl.Resp) (fuel : Nat) (l : List (List Byte)) (en : Ending ToolTxn.End)
    (h : drive (ToolTxn.transaction alloc mem ctx input) mode fuel [] (us ++ .fail r :: rest) = .ok (l, en)) :
    (∃ tr e us2, us2 <:+ us ∧ en = .done tr e (us2 ++ .fail r :: rest)) ∨
    (∃ tr e, en = .done tr e rest ∧ CardError e ∧ l.length = us.length + 1) :=
  drive_fail _ (online_transaction alloc mem ctx input) (fun s => stops_transaction alloc mem ctx input s) mode r rest
    fuel [] us l en h

/-- The second record cannot be read. -/
example :
    let a : List Byte := [0xA0, 0, 0, 0, 4]
    let fci : List Byte := [0x6F, 0x07, 0x84, 0x05, 0xA0, 0, 0, 0, 4]
    let gpo : List Byte := [0x77, 0x0A, 0x82, 0x02, 0x39, 0, 0x94, 4, 8, 1, 2, 0]
    let ctx : Ctx := { Ctx.init with supported := [⟨0x9F06, 0, a⟩] }
    (drive (ToolTxn.transaction (fun _ _ => true) (fun _ => List.replicate 255 0) ctx []) .apdu 9 []
      ([.data [0x6A, 0x82], .data (fci ++ [0x90, 0]), .data [0x61, 9], .data (fci ++ [0x90, 0]), .data (gpo ++ [0x90, 0]),
        .data [0x70, 3, 0x5A, 1, 0x12, 0x90, 0]] ++ .fail (-2) :: [.data [0x70, 0, 0x90, 0]])).map (fun x => (x.1.length, match x.2 with
      | .done tr e rest => some (tr.map (fun y => decide (y.2.code = 0)), decide (e.how = .code 1), rest.length)
      | .waiting => none)) =
    .ok (7, some ([true, true, true, true, true, false], true, 1)) := by
  decide +kernel

end Verif.Failure
