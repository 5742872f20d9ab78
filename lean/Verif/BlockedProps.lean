import Verif.ToolTxn
import Verif.Text

/-!
# C157: a blocked card is left alone
-/

set_option autoImplicit false

namespace Verif.Blocked
open Verif Ber TlvParse App Tal Emv

/-! ## Specification -/

/-- The card answers SELECT (first or only occurrence) with 6A81: it is blocked, or does not support the command. -/
def Refusal : Cmd × W → Prop
  | (.select false _, w) => w.code = 0 ∧ w.sw = 0x6A81
  | _ => False

/-- A run in which such an exchange is the last, and the result then satisfies `P`. -/
def Stops {α : Type} (P : α → Prop) (x : C (Run α)) : Prop :=
  ∀ tr o, x = .ok (tr, o) → (∀ y ∈ tr, ¬ Refusal y) ∨
    ∃ pre y a rest, tr = pre ++ [y] ∧ (∀ z ∈ pre, ¬ Refusal z) ∧ Refusal y ∧ o = .done a rest ∧ P a

/-- The transaction has ended with the outcome "card blocked", and this is the last line printed. -/
def CardBlocked (e : ToolTxn.End) : Prop :=
  e.how = .code 2 ∧ e.out.getLast? = some (.text txt!"OUTCOME: Card blocked\n")

/-! ## Lemmas -/

variable {α β : Type}

theorem stops_fin (P : α → Prop) (a : α) (rest : List W) : Stops P (fin a rest) := by
  intro tr o h
  cases h
  exact .inl (fun y hy => by cases hy)

theorem stops_pending (P : α → Prop) (c : Cmd) : Stops P (.ok ([], .pending c) : C (Run α)) := by
  intro tr o h
  cases h
  exact .inl (fun y hy => by cases hy)

theorem stops_error (P : α → Prop) (e : UB) : Stops P (.error e : C (Run α)) := by
  intro tr o h
  cases h

theorem stops_log {P : α → Prop} {x : C (Run α)} (c : Cmd) (w : W) (hw : ¬ Refusal (c, w)) (h : Stops P x) :
    Stops P (log c w x) := by
  intro tr o e
  unfold log at e
  cases x with
  | error u => cases e
  | ok x =>
    obtain ⟨t, o'⟩ := x
    cases e
    rcases h _ _ rfl with h | ⟨pre, y, a, rest, rfl, h1, h2, h3, h4⟩
    · exact .inl (fun y hy => by
        rcases List.mem_cons.1 hy with rfl | hy
        · exact hw
        · exact h y hy)
    · exact .inr ⟨(c, w) :: pre, y, a, rest, rfl, fun z hz => by
        rcases List.mem_cons.1 hz with rfl | hz
        · exact hw
        · exact h1 z hz, h2, h3, h4⟩

theorem stops_failed {P : α → Prop} (c : Cmd) (w : W) (a : α) (rest : List W) (ha : P a) :
    Stops P (log c w (fin a rest)) := by
  intro tr o e
  cases e
  by_cases hw : ¬ Refusal (c, w)
  · exact .inl (fun y hy => by
      rcases List.mem_cons.1 hy with rfl | hy
      · exact hw
      · cases hy)
  · exact .inr ⟨[], (c, w), a, rest, rfl, (fun z hz => by cases hz), Classical.not_not.1 hw, rfl, ha⟩

theorem stops_bind {P : α → Prop} {γ : Type} (c : C γ) (k : γ → C (Run α)) (h : ∀ v, Stops P (k v)) :
    Stops P (c >>= k) := by
  cases c with
  | error e => exact stops_error _ _
  | ok v => exact h v

theorem stops_then {P : α → Prop} {Q : β → Prop} {x : C (Run α)} {f : α → List W → C (Run β)} (hx : Stops P x)
    (hf : ∀ a rest, Stops Q (f a rest)) (hp : ∀ a rest, P a → ∃ b, f a rest = fin b rest ∧ Q b) :
    Stops Q (andThen x f) := by
  intro tr o e
  unfold andThen at e
  cases x with
  | error u => cases e
  | ok x =>
    obtain ⟨t, o'⟩ := x
    rcases hx _ _ rfl with h | ⟨pre, y, a, rest, rfl, h1, h2, rfl, h4⟩
    · cases o' with
      | pending c => cases e; exact .inl h
      | done a rest =>
        simp only [bind_ok] at e
        cases hfa : f a rest with
        | error u => rw [hfa] at e; cases e
        | ok z =>
          obtain ⟨t2, o2⟩ := z
          rw [hfa] at e
          cases e
          rcases hf a rest _ _ hfa with g | ⟨pre, y, b, rest', rfl, g1, g2, g3, g4⟩
          · exact .inl (fun y hy => by
              rcases List.mem_append.1 hy with hy | hy
              · exact h y hy
              · exact g y hy)
          · exact .inr ⟨t ++ pre, y, b, rest', by simp, fun z hz => by
              rcases List.mem_append.1 hz with hz | hz
              · exact h z hz
              · exact g1 z hz, g2, g3, g4⟩
    · obtain ⟨b, hb, hq⟩ := hp a rest h4
      simp only [bind_ok, hb, fin, List.append_nil] at e
      cases e
      exact .inr ⟨pre, y, b, rest, rfl, h1, h2, rfl, hq⟩

theorem stops_weak {P Q : α → Prop} {x : C (Run α)} (h : Stops P x) (hpq : ∀ a, P a → Q a) : Stops Q x := by
  intro tr o e
  rcases h tr o e with h | ⟨pre, y, a, rest, h1, h2, h3, h4, h5⟩
  · exact .inl h
  · exact .inr ⟨pre, y, a, rest, h1, h2, h3, h4, hpq a h5⟩

theorem stops_sfi (alloc : List Tlv → Tlv → Bool) (sfi last : Byte) : ∀ (script : List W) (rec : Byte) (oda : Bool)
    (list : List Tlv), Stops (fun _ => False) (sfiLoop alloc sfi last script rec oda list) := by
  intro script
  induction script with
  | nil =>
    intro rec oda list
    unfold sfiLoop
    split
    · exact stops_fin _ _ _
    · split
      · exact stops_fin _ _ _
      · exact stops_pending _ _
  | cons w rest ih =>
    intro rec oda list
    unfold sfiLoop
    split
    · exact stops_fin _ _ _
    · split
      · exact stops_fin _ _ _
      · refine stops_log _ _ (fun h => h) ?_
        split
        · exact stops_fin _ _ _
        · split
          · exact stops_fin _ _ _
          · refine stops_bind _ _ fun v => ?_
            cases v with
            | stop code list => exact stops_fin _ _ _
            | spoilt => exact ih _ _ _
            | next list => exact ih _ _ _

theorem stops_afl (alloc : List Tlv → Tlv → Bool) : ∀ (fuel : Nat) (itr : List Byte) (oda : Bool) (list : List Tlv)
    (script : List W), Stops (fun _ => False) (aflLoop alloc fuel itr oda list script) := by
  intro fuel
  induction fuel with
  | zero => intro itr oda list script; exact stops_error _ _
  | succ fuel ih =>
    intro itr oda list script
    unfold aflLoop
    refine stops_bind _ _ fun v => ?_
    obtain ⟨itr', r⟩ := v
    cases r with
    | eod => exact stops_fin _ _ _
    | err _ => exact stops_fin _ _ _
    | ok _ e =>
      refine stops_then (stops_sfi alloc e.sfi e.last script e.first false list) (fun a rest => ?_) (fun a rest h => h.elim)
      split
      · exact ih _ _ _ _
      · split
        · exact ih _ _ _ _
        · exact stops_fin _ _ _

theorem stops_readData (alloc : List Tlv → Tlv → Bool) (ctx : Ctx) (script : List W) :
    Stops (fun _ => False) (readData alloc ctx script) := by
  unfold readData
  cases find ctx.icc 0x94 with
  | none => exact stops_fin _ _ _
  | some afl =>
    refine stops_then (P := fun _ => False) ?_ (fun a rest => ?_) (fun a rest h => h.elim)
    · unfold readAfl
      dsimp only
      split
      · exact stops_fin _ _ _
      · split
        · exact stops_fin _ _ _
        · split
          · exact stops_fin _ _ _
          · exact stops_afl _ _ _ _ _ _
    · repeat' split
      all_goals exact stops_fin _ _ _

theorem stops_gpo (alloc : List Tlv → Tlv → Bool) (data : Option (List Byte)) (script : List W) :
    Stops (fun _ => False) (gpo alloc data [] script) := by
  unfold gpo
  split
  · exact stops_fin _ _ _
  · unfold send
    split
    · dsimp only
      rw [if_pos (by decide)]
      exact stops_fin _ _ _
    · cases script with
      | nil => exact stops_pending _ _
      | cons w rest =>
        refine stops_log _ _ (fun h => h) ?_
        dsimp only
        split
        · exact stops_fin _ _ _
        · split
          · exact stops_fin _ _ _
          · refine stops_bind _ _ fun v => ?_
            cases v with
            | error c => exact stops_fin _ _ _
            | ok l =>
              dsimp only
              repeat' split
              all_goals exact stops_fin _ _ _

theorem stops_initiate (alloc : List Tlv → Tlv → Bool) (buf : List Byte) (ctx : Ctx) (pos : Byte) (script : List W) :
    Stops (fun _ => False) (initiate alloc buf ctx pos script) := by
  unfold initiate
  split
  · exact stops_fin _ _ _
  · dsimp only
    split
    · exact stops_error _ _
    · split
      · exact stops_fin _ _ _
      · split
        · exact stops_error _ _
        · split
          · exact stops_fin _ _ _
          · refine stops_bind _ _ fun v => ?_
            cases v with
            | error c => exact stops_fin _ _ _
            | ok data =>
              refine stops_then (stops_gpo alloc data script) (fun a rest => ?_) (fun a rest h => h.elim)
              repeat' split
              all_goals exact stops_fin _ _ _

theorem stops_pseLoop (pse supported : List Tlv) (sfi : Byte) : ∀ (script : List W) (rec : Byte) (apps : List App),
    Stops (fun _ => False) (pseLoop pse supported sfi script rec apps) := by
  intro script
  induction script with
  | nil =>
    intro rec apps
    unfold pseLoop
    split
    · exact stops_fin _ _ _
    · exact stops_pending _ _
  | cons w rest ih =>
    intro rec apps
    unfold pseLoop
    split
    · exact stops_fin _ _ _
    · refine stops_log _ _ (fun h => h) ?_
      split
      · exact stops_fin _ _ _
      · split
        · exact stops_fin _ _ _
        · split
          · exact ih _ _
          · refine stops_bind _ _ fun v => ?_
            dsimp only
            split
            · exact stops_fin _ _ _
            · exact ih _ _

theorem stops_readPse (supported : List Tlv) (apps : List App) (script : List W) :
    Stops (fun a => a.1 = -4) (readPse supported apps script) := by
  unfold readPse send
  rw [show refusesName pseName = false by decide]
  simp only [Bool.false_eq_true, if_false]
  cases script with
  | nil => exact stops_pending _ _
  | cons w rest =>
    dsimp only
    by_cases hw : Refusal (.select false pseName, w)
    · have hw' : w.code = 0 ∧ w.sw = 0x6A81 := hw
      rw [if_neg (by simp [hw'.1]), if_pos hw'.2]
      exact stops_failed _ _ _ _ rfl
    · refine stops_log _ _ hw ?_
      split
      · exact stops_fin _ _ _
      · split
        · exact stops_fin _ _ _
        · split
          · exact stops_fin _ _ _
          · split
            · exact stops_fin _ _ _
            · split
              · exact stops_fin _ _ _
              · refine stops_bind _ _ fun v => ?_
                try dsimp only
                split
                · exact stops_fin _ _ _
                · split
                  · exact stops_fin _ _ _
                  · split
                    · exact stops_fin _ _ _
                    · exact stops_bind _ _ fun sfi => stops_weak (stops_pseLoop _ _ _ _ _ _) (fun _ h => h.elim)

theorem stops_findApps : ∀ (script : List W) (aids : List Tlv) (first : Bool) (apps : List App),
    Stops (fun a => a.1 = -4) (findApps script aids first apps) := by
  intro script
  induction script with
  | nil =>
    intro aids first apps
    cases aids with
    | nil => unfold findApps; exact stops_fin _ _ _
    | cons t aids =>
      unfold findApps
      split
      · exact stops_fin _ _ _
      · exact stops_pending _ _
  | cons w rest ih =>
    intro aids first apps
    cases aids with
    | nil => unfold findApps; exact stops_fin _ _ _
    | cons t aids =>
      unfold findApps
      split
      · exact stops_fin _ _ _
      · by_cases hw : Refusal (.select (!first) t.value, w)
        · cases first with
          | false => exact hw.elim
          | true =>
            have hw' : w.code = 0 ∧ w.sw = 0x6A81 := hw
            dsimp only
            rw [if_neg (by simp [hw'.1]), if_pos ⟨rfl, hw'.2⟩]
            exact stops_failed _ _ _ _ rfl
        · refine stops_log _ _ hw ?_
          split
          · exact stops_fin _ _ _
          · split
            · exact stops_fin _ _ _
            · split
              · exact ih _ _ _
              · refine stops_bind _ _ fun v => ?_
                cases v with
                | none => exact ih _ _ _
                | some app =>
                  dsimp only
                  split
                  · exact ih _ _ _
                  · split
                    · exact ih _ _ _
                    · exact ih _ _ _

theorem stops_finish {P : Int × List App → Prop} (apps : List App) (rest : List W) : Stops P (Emv.finish apps rest) := by
  unfold Emv.finish
  split <;> exact stops_fin _ _ _

theorem stops_build (supported : List Tlv) (apps : List App) (script : List W) :
    Stops (fun a => a.1 = 2) (Emv.build supported apps script) := by
  unfold Emv.build
  refine stops_then (stops_readPse supported apps script) (fun a rest => ?_) (fun a rest h => ?_)
  · split
    · exact stops_fin _ _ _
    · split
      · refine stops_then (stops_findApps rest supported true a.2) (fun a rest => ?_) (fun a rest h => ?_)
        · split
          · exact stops_fin _ _ _
          · exact stops_finish _ _
        · have h : a.1 = -4 := h
          exact ⟨_, by rw [if_pos (by omega), if_pos h], rfl⟩
      · exact stops_finish _ _
  · have h : a.1 = -4 := h
    exact ⟨_, by rw [if_pos (by omega), if_pos h], rfl⟩

theorem stops_selectApp (aid : List Byte) (script : List W) : Stops (fun a => a.1 = -4) (selectApp aid script) := by
  unfold selectApp
  split
  · exact stops_fin _ _ _
  · unfold send
    split
    · dsimp only
      rw [if_pos (by decide)]
      exact stops_fin _ _ _
    · cases script with
      | nil => exact stops_pending _ _
      | cons w rest =>
        dsimp only
        by_cases hw : Refusal (.select false aid, w)
        · have hw' : w.code = 0 ∧ w.sw = 0x6A81 := hw
          rw [if_neg (by simp [hw'.1]), if_pos (by simp [hw'.2])]
          exact stops_failed _ _ _ _ (by simp [hw'.2])
        · refine stops_log _ _ hw ?_
          split
          · exact stops_fin _ _ _
          · split
            · exact stops_fin _ _ _
            · refine stops_bind _ _ fun v => ?_
              cases v with
              | none => exact stops_fin _ _ _
              | some app =>
                dsimp only
                split
                · exact stops_fin _ _ _
                · refine stops_bind _ _ fun v => ?_
                  split <;> exact stops_fin _ _ _

theorem stops_select (ctx : Ctx) (apps : List App) (i : Nat) (script : List W) :
    Stops (fun a => a.1 = 2) (select ctx apps i script) := by
  unfold select
  dsimp only
  split
  · exact stops_fin _ _ _
  · split
    · exact stops_fin _ _ _
    · refine stops_then (stops_selectApp _ script) (fun a rest => ?_) (fun a rest h => ?_)
      · repeat' split
        all_goals exact stops_fin _ _ _
      · have h : a.1 = -4 := h
        exact ⟨_, by rw [if_pos (by omega), if_pos h], rfl⟩

theorem card_blocked {r : Int} (h : r = 2) (ctx : Ctx) (apps : List App) (input : List Byte) (out : List ToolTxn.Item) :
    CardBlocked ⟨.code r, ctx, apps, input, out ++ [ToolTxn.complaint r]⟩ := by
  subst h
  exact ⟨rfl, by rw [List.getLast?_concat]; exact congrArg some (by decide +kernel)⟩

theorem stops_rounds (alloc : List Tlv → Tlv → Bool) (mem : Nat → List Byte) (req : Bool) : ∀ (fuel : Nat) (ctx : Ctx)
    (apps : List App) (input : List Byte) (out : List ToolTxn.Item) (script : List W),
    Stops CardBlocked (ToolTxn.rounds alloc mem req fuel ctx apps input out script) := by
  intro fuel
  induction fuel with
  | zero => intro ctx apps input out script; exact stops_error _ _
  | succ fuel ih =>
    intro ctx apps input out script
    unfold ToolTxn.rounds
    refine stops_bind _ _ fun v => ?_
    obtain ⟨c, bad⟩ := v
    cases c with
    | never => exact stops_fin _ _ _
    | index i input =>
      refine stops_then (stops_select ctx apps i script) (fun a rest => ?_) (fun a rest h => ?_)
      · try dsimp only
        split
        · exact stops_fin _ _ _
        · split
          · split
            · exact ih _ _ _ _ _
            · exact stops_fin _ _ _
          · split
            · exact stops_fin _ _ _
            · refine stops_then (stops_initiate alloc _ _ 5 rest) (fun b rest => ?_) (fun b rest h => h.elim)
              · try dsimp only
                split
                · exact stops_fin _ _ _
                · split
                  · split
                    · exact ih _ _ _ _ _
                    · exact stops_fin _ _ _
                  · exact stops_fin _ _ _
      · have h : a.1 = 2 := h
        exact ⟨_, by (try dsimp only); rw [if_neg (by omega), if_pos (by omega), if_neg (by omega)], card_blocked h _ _ _ _⟩

theorem stops_reading (alloc : List Tlv → Tlv → Bool) (e : ToolTxn.End) (script : List W) :
    Stops CardBlocked (ToolTxn.reading alloc e script) := by
  unfold ToolTxn.reading
  refine stops_then (stops_readData alloc e.ctx script) (fun a rest => ?_) (fun a rest h => h.elim)
  split <;> exact stops_fin _ _ _

theorem stops_transaction (alloc : List Tlv → Tlv → Bool) (mem : Nat → List Byte) (ctx : Ctx) (input : List Byte)
    (script : List W) : Stops CardBlocked (ToolTxn.transaction alloc mem ctx input script) := by
  unfold ToolTxn.transaction
  refine stops_then (stops_build ctx.supported [] script) (fun a rest => ?_) (fun a rest h => ?_)
  · try dsimp only
    split
    · exact stops_fin _ _ _
    · refine stops_then (stops_rounds alloc mem _ _ _ _ _ _ rest) (fun e rest => ?_) (fun e rest h => ?_)
      · split
        · exact stops_reading _ _ _
        · exact stops_fin _ _ _
      · exact ⟨e, by rw [if_neg (by rw [h.1]; simp)], h⟩
  · have h : a.1 = 2 := h
    exact ⟨_, by (try dsimp only); rw [if_pos (by omega)], card_blocked h _ _ _ _⟩

/-! ## Property -/

/-- **C157.**  Whatever the card, the terminal data and the input: once the card answers 6A81 to the selection of the
directory or of an application, no further command is sent, and the transaction ends with the outcome "card blocked",
which is the last line printed. -/
theorem C157_blocked (alloc : List Tlv → Tlv → Bool) (mem : Nat → List Byte) (ctx : Ctx) (input : List Byte)
    (script : List W) (tr : List (Cmd × W)) (o : Out ToolTxn.End)
    (h : ToolTxn.transaction alloc mem ctx input script = .ok (tr, o)) (i : Nat) (name : List Byte) (w : W)
    (hi : tr[i]? = some (.select false name, w)) (h0 : w.code = 0) (hw : w.sw = 0x6A81) :
    i + 1 = tr.length ∧ ∃ e rest, o = .done e rest ∧ CardBlocked e := by
  have hr : Refusal (.select false name, w) := ⟨h0, hw⟩
  rcases stops_transaction alloc mem ctx input script tr o h with hz | ⟨pre, y, e, rest, rfl, h1, h2, h3, h4⟩
  · exact absurd hr (hz _ (List.mem_of_getElem? hi))
  · refine ⟨?_, e, rest, h3, h4⟩
    have hlt := (List.getElem?_eq_some_iff.mp hi).1
    rw [List.length_append, List.length_singleton] at hlt ⊢
    rcases Nat.lt_or_ge i pre.length with hl | hl
    · rw [List.getElem?_append_left hl] at hi
      exact absurd hr (h1 _ (List.mem_of_getElem? hi))
    · omega

/-- **C157** (functions).  Building the candidate list and selecting an application: the refusal is the last exchange, and the
outcome is 2. -/
theorem C157_kernel (ctx : Ctx) (supported : List Tlv) (apps : List App) (n : Nat) (script : List W) :
    Stops (fun a => a.1 = 2) (Emv.build supported apps script) ∧ Stops (fun a => a.1 = 2) (select ctx apps n script) :=
  ⟨stops_build _ _ _, stops_select _ _ _ _⟩

/-- The second candidate leads to the refusal; the first was not found, and a third is left. -/
example :
    let aids : List Tlv := [⟨0x9F06, 0, [0xA0, 0, 0, 0, 4]⟩, ⟨0x9F06, 0, [0xA0, 0, 0, 0, 5]⟩, ⟨0x9F06, 0, [0xA0, 0, 0, 0, 6]⟩]
    let fci : Byte → List Byte := fun n => [0x6F, 0x07, 0x84, 0x05, 0xA0, 0, 0, 0, n]
    (ToolTxn.transaction (fun _ _ => true) (fun _ => List.replicate 255 0) { Ctx.init with supported := aids } txt!"1\n1\n1\n"
      [⟨0, [], 0x6A82⟩, ⟨0, fci 4, 0x9000⟩, ⟨0, fci 5, 0x9000⟩, ⟨0, fci 6, 0x9000⟩, ⟨0, [], 0x6A82⟩, ⟨0, [], 0x6A81⟩,
       ⟨0, fci 6, 0x9000⟩]).map (fun x => (x.1.length, match x.2 with
      | .done e rest => some (e.how, e.apps.length, rest.length)
      | .pending _ => none)) = .ok (6, some (.code 2, 1, 1)) := by
  decide +kernel

end Verif.Blocked
