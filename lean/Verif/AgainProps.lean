import Verif.ToolTxn
import Verif.CompleteProps

/-!
# C150: nothing of an earlier transaction gets into the next one
-/

set_option autoImplicit false

namespace Verif.Again
open Verif Ber TlvParse App Tal Fields Emv Dol

/-! ## Specification -/

/-- Two contexts with the same configuration, supported applications and parameters, whatever the fields of the card, the
terminal data and the selected application of each. -/
def Same (c d : Ctx) : Prop := c.config = d.config ∧ c.supported = d.supported ∧ c.params = d.params

/-- Two runs that make the same exchanges and end alike: with results that agree, before the same command, or with the same
error. -/
def Alike {α : Type} (Q : α → α → Prop) (x y : C (Run α)) : Prop :=
  (∃ tr a b rest, x = .ok (tr, .done a rest) ∧ y = .ok (tr, .done b rest) ∧ Q a b) ∨
  (∃ tr cmd, x = .ok (tr, .pending cmd) ∧ y = .ok (tr, .pending cmd)) ∨
  ∃ e, x = .error e ∧ y = .error e

/-- Calls of an application for one context. -/
inductive Call where
  | reset
  | build
  | select (index : Nat)
  | initiate (buf : List Byte) (pos : Byte)
  | read

/-- An application makes its calls in order and gives up after the first that does not return zero.  The result is the code
of each call, the context and the candidates. -/
def session (alloc : List Tlv → Tlv → Bool) : List Call → Ctx → List App → List W → C (Run (List Int × Ctx × List App))
  | [], c, apps, script => fin ([], c, apps) script
  | .reset :: calls, c, apps, script =>
    andThen (session alloc calls c.reset apps script) fun x rest => fin (0 :: x.1, x.2) rest
  | .build :: calls, c, _, script =>
    andThen (Emv.build c.supported [] script) fun x rest =>
      if x.1 ≠ 0 then fin ([x.1], c, x.2) rest
      else andThen (session alloc calls c x.2 rest) fun y rest => fin (0 :: y.1, y.2) rest
  | .select i :: calls, c, apps, script =>
    andThen (Emv.select c apps i script) fun x rest =>
      if x.1 ≠ 0 then fin ([x.1], x.2.2, x.2.1) rest
      else andThen (session alloc calls x.2.2 x.2.1 rest) fun y rest => fin (0 :: y.1, y.2) rest
  | .initiate buf pos :: calls, c, apps, script =>
    andThen (Emv.initiate alloc buf c pos script) fun x rest =>
      if x.1 ≠ 0 then fin ([x.1], x.2, apps) rest
      else andThen (session alloc calls x.2 apps rest) fun y rest => fin (0 :: y.1, y.2) rest
  | .read :: calls, c, apps, script =>
    andThen (Emv.readData alloc c script) fun x rest =>
      if x.1 ≠ 0 then fin ([x.1], x.2, apps) rest
      else andThen (session alloc calls x.2 apps rest) fun y rest => fin (0 :: y.1, y.2) rest

/-- What has been done before: nothing, an application was selected, or one was initiated (or all was reset). -/
inductive Done where
  | nothing | selected | initiated

/-- Every initiation comes after a selection and every reading after an initiation. -/
def InOrder : Done → List Call → Prop
  | _, [] => True
  | _, .reset :: calls => InOrder .initiated calls
  | s, .build :: calls => InOrder s calls
  | .nothing, .select _ :: calls => InOrder .selected calls
  | s, .select _ :: calls => InOrder s calls
  | .nothing, .initiate _ _ :: _ => False
  | _, .initiate _ _ :: calls => InOrder .initiated calls
  | .initiated, .read :: calls => InOrder .initiated calls
  | _, .read :: _ => False

/-- What then is known of two contexts. -/
def Agree : Done → Ctx → Ctx → Prop
  | .nothing, c, d => Same c d
  | .selected, c, d => Same c d ∧ c.selected = d.selected
  | .initiated, c, d => c = d

/-- Whether an application is initiated, or all is reset. -/
def Call.renews : Call → Bool
  | .reset | .initiate _ _ => true
  | _ => false

/-- Contexts that an application has after any number of transactions, complete or not, that began with `c`. -/
inductive Used (alloc : List Tlv → Tlv → Bool) (c : Ctx) : Ctx → Prop where
  | start : Used alloc c c
  | again {d : Ctx} (h : Used alloc c d) (mem : Nat → List Byte) (input : List Byte) (script rest : List W)
      (tr : List (Cmd × W)) (e : ToolTxn.End) (he : ToolTxn.transaction alloc mem d input script = .ok (tr, .done e rest)) :
      Used alloc c e.ctx

/-- What holds of the result of a run. -/
def Ends {α : Type} (P : α → Prop) (x : C (Run α)) : Prop := ∀ tr a rest, x = .ok (tr, .done a rest) → P a

/-! ## Lemmas -/

theorem Same.refl (c : Ctx) : Same c c := ⟨rfl, rfl, rfl⟩

theorem alike_refl {α : Type} {Q : α → α → Prop} (hQ : ∀ a, Q a a) (x : C (Run α)) : Alike Q x x := by
  match x with
  | .ok (tr, .done a rest) => exact Or.inl ⟨tr, a, a, rest, rfl, rfl, hQ a⟩
  | .ok (tr, .pending cmd) => exact Or.inr (Or.inl ⟨tr, cmd, rfl, rfl⟩)
  | .error e => exact Or.inr (Or.inr ⟨e, rfl, rfl⟩)

theorem alike_fin {α : Type} {Q : α → α → Prop} {a b : α} (h : Q a b) (rest : List W) : Alike Q (fin a rest) (fin b rest) :=
  Or.inl ⟨[], a, b, rest, rfl, rfl, h⟩

theorem alike_andThen {α β : Type} {P : α → α → Prop} {Q : β → β → Prop} {x y : C (Run α)} {f g : α → List W → C (Run β)}
    (h : Alike P x y) (hk : ∀ a b rest, P a b → Alike Q (f a rest) (g b rest)) : Alike Q (andThen x f) (andThen y g) := by
  rcases h with ⟨tr, a, b, rest, rfl, rfl, hp⟩ | ⟨tr, cmd, rfl, rfl⟩ | ⟨e, rfl, rfl⟩
  · simp only [andThen, bind_ok]
    rcases hk a b rest hp with ⟨tr', a', b', rest', h1, h2, hq⟩ | ⟨tr', cmd, h1, h2⟩ | ⟨e, h1, h2⟩
    · rw [h1, h2]
      exact Or.inl ⟨tr ++ tr', a', b', rest', rfl, rfl, hq⟩
    · rw [h1, h2]
      exact Or.inr (Or.inl ⟨tr ++ tr', cmd, rfl, rfl⟩)
    · rw [h1, h2]
      exact Or.inr (Or.inr ⟨e, rfl, rfl⟩)
  · exact Or.inr (Or.inl ⟨tr, cmd, rfl, rfl⟩)
  · exact Or.inr (Or.inr ⟨e, rfl, rfl⟩)

theorem alike_imp {α : Type} {P Q : α → α → Prop} {x y : C (Run α)} (h : Alike P x y) (hpq : ∀ a b, P a b → Q a b) :
    Alike Q x y := by
  rcases h with ⟨tr, a, b, rest, h1, h2, hp⟩ | h | h
  · exact Or.inl ⟨tr, a, b, rest, h1, h2, hpq _ _ hp⟩
  · exact Or.inr (Or.inl h)
  · exact Or.inr (Or.inr h)

/-- Selecting in two contexts: the same code, candidates and selected application; the rest stays. -/
theorem select_alike (c d : Ctx) (h : Same c d) (apps : List App) (i : Nat) (script : List W) :
    Alike (fun x y => x.1 = y.1 ∧ x.2.1 = y.2.1 ∧ Same x.2.2 y.2.2 ∧ x.2.2.selected = y.2.2.selected ∧
      (c = d → x.2.2 = y.2.2)) (Emv.select c apps i script) (Emv.select d apps i script) := by
  obtain ⟨h1, h2, h3⟩ := h
  have hs : Same { c with selected := none } { d with selected := none } := ⟨h1, h2, h3⟩
  unfold Emv.select
  cases apps[i]? with
  | none => exact alike_fin ⟨rfl, rfl, hs, rfl, fun h => by rw [h]⟩ _
  | some a =>
    simp only
    by_cases hl : a.aid.value.length > 16
    · rw [if_pos hl, if_pos hl]
      exact alike_fin ⟨rfl, rfl, hs, rfl, fun h => by rw [h]⟩ _
    rw [if_neg hl, if_neg hl]
    refine alike_andThen (alike_refl (Q := Eq) (fun _ => rfl) _) ?_
    rintro x _ rest rfl
    by_cases c1 : x.1 < 0
    · rw [if_pos c1, if_pos c1]
      exact alike_fin ⟨rfl, rfl, hs, rfl, fun h => by rw [h]⟩ _
    rw [if_neg c1, if_neg c1]
    by_cases c2 : x.1 > 0
    · rw [if_pos c2, if_pos c2]
      exact alike_fin ⟨rfl, rfl, hs, rfl, fun h => by rw [h]⟩ _
    rw [if_neg c2, if_neg c2]
    exact alike_fin ⟨rfl, rfl, ⟨h1, h2, h3⟩, rfl, fun h => by rw [h]⟩ _

/-- Initiating in two contexts with the same application selected is the same. -/
theorem initiate_same (alloc : List Tlv → Tlv → Bool) (buf : List Byte) (c d : Ctx) (h : Same c d)
    (hs : c.selected = d.selected) (hn : c.selected ≠ none) (pos : Byte) (script : List W) :
    Emv.initiate alloc buf c pos script = Emv.initiate alloc buf d pos script := by
  obtain ⟨cfg, sup, par, sel, icc, term⟩ := c
  obtain ⟨cfg', sup', par', sel', icc', term'⟩ := d
  obtain ⟨h1, h2, h3⟩ := h
  change cfg = cfg' at h1
  change sup = sup' at h2
  change par = par' at h3
  change sel = sel' at hs
  subst h1 h2 h3 hs
  cases sel with
  | none => exact absurd rfl hn
  | some s => rfl

theorem initiate_alike (alloc : List Tlv → Tlv → Bool) (buf : List Byte) (c d : Ctx) (h : Same c d)
    (hs : c.selected = d.selected) (pos : Byte) (script : List W) :
    Alike (fun x y => x.1 = y.1 ∧ Same x.2 y.2 ∧ (x.1 = 0 → x.2 = y.2) ∧ (c.selected ≠ none → x.2 = y.2))
      (Emv.initiate alloc buf c pos script) (Emv.initiate alloc buf d pos script) := by
  by_cases hn : c.selected = none
  · unfold Emv.initiate
    rw [hs] at hn
    simp only [hs, hn]
    exact alike_fin ⟨rfl, h, fun h => absurd h (by simp), fun h => absurd rfl h⟩ _
  · rw [initiate_same alloc buf c d h hs hn]
    exact alike_refl (fun a => ⟨rfl, Same.refl _, fun _ => rfl, fun _ => rfl⟩) _

theorem Same.symm {c d : Ctx} (h : Same c d) : Same d c := ⟨h.1.symm, h.2.1.symm, h.2.2.symm⟩

theorem Same.trans {c d e : Ctx} (h : Same c d) (h' : Same d e) : Same c e :=
  ⟨h.1.trans h'.1, h.2.1.trans h'.2.1, h.2.2.trans h'.2.2⟩

theorem ends_fin {α : Type} {P : α → Prop} {a : α} (h : P a) (rest : List W) : Ends P (fin a rest) := by
  intro tr b r hb
  cases hb
  exact h

theorem ends_andThen {α β : Type} {P : α → Prop} {Q : β → Prop} {x : C (Run α)} {f : α → List W → C (Run β)}
    (h : Ends P x) (hk : ∀ a rest, P a → Ends Q (f a rest)) : Ends Q (andThen x f) := by
  intro tr b r hb
  match x, h, hb with
  | .error e, _, hb => cases hb
  | .ok (t, .pending cmd), _, hb => cases hb
  | .ok (t, .done a rest), h, hb =>
    simp only [andThen, bind_ok] at hb
    match hf : f a rest, hb with
    | .error e, hb => cases hb
    | .ok (t', .pending cmd), hb => cases hb
    | .ok (t', .done b' r'), hb =>
      cases hb
      exact hk a rest (h _ _ _ rfl) _ _ _ hf

theorem ends_any {α : Type} (x : C (Run α)) : Ends (fun _ => True) x := fun _ _ _ _ => trivial

theorem select_ends (c : Ctx) (apps : List App) (i : Nat) (script : List W) :
    Ends (fun x => Same c x.2.2 ∧ x.2.2.icc = c.icc ∧ x.2.2.terminal = c.terminal) (Emv.select c apps i script) := by
  unfold Emv.select
  cases apps[i]? with
  | none => exact ends_fin ⟨Same.refl _, rfl, rfl⟩ _
  | some a =>
    simp only
    split
    · exact ends_fin ⟨Same.refl _, rfl, rfl⟩ _
    · refine ends_andThen (ends_any _) fun x rest _ => ?_
      split
      · exact ends_fin ⟨Same.refl _, rfl, rfl⟩ _
      split
      · exact ends_fin ⟨Same.refl _, rfl, rfl⟩ _
      · exact ends_fin ⟨Same.refl _, rfl, rfl⟩ _

theorem initiate_ends (alloc : List Tlv → Tlv → Bool) (buf : List Byte) (c : Ctx) (pos : Byte) (script : List W) :
    Ends (fun x => Same c x.2) (Emv.initiate alloc buf c pos script) := by
  unfold Emv.initiate
  cases hc : c.selected with
  | none => exact ends_fin (by exact ⟨rfl, rfl, rfl⟩) _
  | some s =>
    simp only [Ctx.clearIcc, hc, Option.map_some]
    by_cases c1 : (!alloc [] ⟨0x9F39, 0, [pos]⟩) = true
    · rw [if_pos c1]
      exact ends_fin (by exact ⟨rfl, rfl, rfl⟩) _
    rw [if_neg c1]
    generalize (if s.aid = .icc then { s with aid := .freed } else s) = s'
    by_cases c2 : s'.aid = .freed
    · rw [if_pos c2]
      intro tr a rest h; cases h
    rw [if_neg c2]
    obtain ⟨ok, terminal⟩ := pushAll alloc [] (terminalData pos s'.app.aid.value)
    simp only
    by_cases c3 : (!ok) = true
    · rw [if_pos c3]
      exact ends_fin (by exact ⟨rfl, rfl, rfl⟩) _
    rw [if_neg c3]
    match gpoData buf [c.params, c.config, terminal] s'.app.tlvs with
    | .error e => intro tr a rest h; cases h
    | .ok (.error code) => exact ends_fin (by exact ⟨rfl, rfl, rfl⟩) _
    | .ok (.ok data) =>
      simp only [bind_ok]
      refine ends_andThen (ends_any _) fun x rest _ => ?_
      split
      · exact ends_fin (by exact ⟨rfl, rfl, rfl⟩) _
      split
      · exact ends_fin (by exact ⟨rfl, rfl, rfl⟩) _
      · exact ends_fin (by exact ⟨rfl, rfl, rfl⟩) _

theorem read_ends (alloc : List Tlv → Tlv → Bool) (c : Ctx) (script : List W) :
    Ends (fun x => Same c x.2) (Emv.readData alloc c script) := by
  unfold Emv.readData
  cases find c.icc 0x94 with
  | none => exact ends_fin (by exact ⟨rfl, rfl, rfl⟩) _
  | some afl =>
    refine ends_andThen (ends_any _) fun x rest _ => ?_
    split
    · exact ends_fin (by exact ⟨rfl, rfl, rfl⟩) _
    split
    · exact ends_fin (by exact ⟨rfl, rfl, rfl⟩) _
    split
    · exact ends_fin (by exact ⟨rfl, rfl, rfl⟩) _
    split
    · exact ends_fin (by exact ⟨rfl, rfl, rfl⟩) _
    · exact ends_fin (by exact ⟨rfl, rfl, rfl⟩) _

theorem rounds_ends (alloc : List Tlv → Tlv → Bool) (mem : Nat → List Byte) (req : Bool) : ∀ (fuel : Nat) (c : Ctx)
    (apps : List App) (input : List Byte) (out : List ToolTxn.Item) (script : List W),
    Ends (fun x => Same c x.ctx) (ToolTxn.rounds alloc mem req fuel c apps input out script)
  | 0, _, _, _, _, _ => by intro tr a rest h; cases h
  | fuel + 1, c, apps, input, out, script => by
    unfold ToolTxn.rounds
    match ToolTxn.pick req apps input with
    | .error e => intro tr a rest h; cases h
    | .ok (.never, bad) => exact ends_fin (by exact ⟨rfl, rfl, rfl⟩) _
    | .ok (.index i input, bad) =>
      simp only [bind_ok]
      refine ends_andThen (select_ends c apps i script) fun x rest hx => ?_
      split
      · exact ends_fin (by exact hx.1) _
      split
      · split
        · intro tr a rest h
          exact hx.1.trans (rounds_ends alloc mem req fuel _ _ _ _ _ tr a rest h)
        · exact ends_fin (by exact hx.1) _
      split
      · exact ends_fin (by exact hx.1) _
      refine ends_andThen (initiate_ends alloc (mem fuel) x.2.2 0x05 rest) fun y rest hy => ?_
      have hy' := hx.1.trans hy
      split
      · exact ends_fin (by exact hy') _
      split
      · split
        · intro tr a rest h
          exact hy'.trans (rounds_ends alloc mem req fuel _ _ _ _ _ tr a rest h)
        · exact ends_fin (by exact hy') _
      · exact ends_fin (by exact hy') _

theorem transaction_ends (alloc : List Tlv → Tlv → Bool) (mem : Nat → List Byte) (c : Ctx) (input : List Byte)
    (script : List W) : Ends (fun x => Same c x.ctx) (ToolTxn.transaction alloc mem c input script) := by
  unfold ToolTxn.transaction
  refine ends_andThen (ends_any _) fun x rest _ => ?_
  simp only
  split
  · exact ends_fin (by exact ⟨rfl, rfl, rfl⟩) _
  refine ends_andThen (rounds_ends alloc mem _ _ c _ _ _ _) fun e rest he => ?_
  split
  · refine ends_andThen (read_ends alloc e.ctx rest) fun y rest hy => ?_
    split
    · exact ends_fin (by exact (he.trans hy)) _
    · exact ends_fin (by exact (he.trans hy)) _
  · exact ends_fin (by exact he) _

/-! ## Theorems -/

/-- **C150** (calls).  Two contexts with the same configuration, supported applications and parameters, but with whatever
fields, terminal data and selected application earlier transactions left there.  Any calls in order give the same codes
and the same candidates and send the card the same commands, whatever it answers; and once an application has been
initiated (or all was reset) and no call has failed, the two contexts are the same in all respects. -/
theorem C150_calls (alloc : List Tlv → Tlv → Bool) (calls : List Call) (hc : InOrder .nothing calls) (c d : Ctx)
    (h : Same c d) (apps : List App) (script : List W) :
    Alike (fun x y => x.1 = y.1 ∧ x.2.2 = y.2.2 ∧ Same x.2.1 y.2.1 ∧
        ((∀ k ∈ x.1, k = 0) → calls.any Call.renews = true → x.2.1 = y.2.1))
      (session alloc calls c apps script) (session alloc calls d apps script) := by
  suffices hg : ∀ (calls : List Call) (s : Done), InOrder s calls → ∀ (c d : Ctx), Agree s c d → ∀ apps script,
      Alike (fun x y => x.1 = y.1 ∧ x.2.2 = y.2.2 ∧ Same x.2.1 y.2.1 ∧
          ((∀ k ∈ x.1, k = 0) → calls.any Call.renews = true → x.2.1 = y.2.1))
        (session alloc calls c apps script) (session alloc calls d apps script) from hg calls .nothing hc c d h apps script
  intro calls
  induction calls with
  | nil =>
    intro s _ c d h apps script
    refine alike_fin ⟨rfl, rfl, ?_, fun _ h => absurd h (by simp)⟩ _
    cases s with
    | nothing => exact h
    | selected => exact h.1
    | initiated => cases h; exact Same.refl _
  | cons call calls ih =>
    intro s hs c d h apps script
    have hsame : Same c d := by
      cases s with
      | nothing => exact h
      | selected => exact h.1
      | initiated => cases h; exact Same.refl _
    -- the rest of the calls, after one that succeeded
    have next : ∀ (s' : Done) (c' d' : Ctx) (apps' : List App) (rest : List W), InOrder s' calls → Agree s' c' d' →
        (call.renews = true → c' = d') →
        Alike (fun x y => x.1 = y.1 ∧ x.2.2 = y.2.2 ∧ Same x.2.1 y.2.1 ∧
            ((∀ k ∈ x.1, k = 0) → (call :: calls).any Call.renews = true → x.2.1 = y.2.1))
          (andThen (session alloc calls c' apps' rest) fun y rest => fin ((0 : Int) :: y.1, y.2) rest)
          (andThen (session alloc calls d' apps' rest) fun y rest => fin ((0 : Int) :: y.1, y.2) rest) := by
      intro s' c' d' apps' rest ho ha he
      by_cases hr : call.renews = true
      · rw [he hr]
        exact alike_refl (fun _ => ⟨rfl, rfl, Same.refl _, fun _ _ => rfl⟩) _
      · refine alike_andThen (ih s' ho c' d' ha apps' rest) ?_
        rintro a b rest ⟨h1, h2, h3, h4⟩
        refine alike_fin ⟨by simp [h1], h2, h3, fun hk hany => ?_⟩ _
        rw [List.any_cons] at hany
        simp only [hr, Bool.false_or] at hany
        exact h4 (fun k hk' => hk k (List.mem_cons_of_mem _ hk')) hany
    by_cases hinit : c = d
    · subst hinit
      exact alike_refl (fun _ => ⟨rfl, rfl, Same.refl _, fun _ _ => rfl⟩) _
    cases call with
    | reset =>
      have he : c.reset = d.reset := by
        obtain ⟨h1, h2, h3⟩ := hsame
        simp [Ctx.reset, Ctx.clearIcc, h1, h2]
      have hs' : InOrder .initiated calls := by cases s <;> exact hs
      simp only [session]
      exact next .initiated _ _ _ _ hs' he (fun _ => he)
    | build =>
      have hs' : InOrder s calls := by cases s <;> exact hs
      simp only [session, hsame.2.1]
      refine alike_andThen (alike_refl (Q := Eq) (fun _ => rfl) _) ?_
      rintro x _ rest rfl
      by_cases hx : x.1 ≠ 0
      · rw [if_pos hx, if_pos hx]
        exact alike_fin ⟨rfl, rfl, hsame, fun hk _ => absurd (hk _ (by simp)) hx⟩ _
      · rw [if_neg hx, if_neg hx]
        exact next s c d _ _ hs' h (fun h => absurd h (by simp [Call.renews]))
    | select i =>
      simp only [session]
      refine alike_andThen (select_alike c d hsame apps i script) ?_
      rintro x y rest ⟨h1, h2, h3, h4, h5⟩
      rw [← h1, ← h2]
      by_cases hx : x.1 ≠ 0
      · rw [if_pos hx, if_pos hx]
        exact alike_fin ⟨rfl, rfl, h3, fun hk _ => absurd (hk _ (by simp)) hx⟩ _
      · rw [if_neg hx, if_neg hx]
        cases s with
        | nothing => exact next .selected _ _ _ _ hs ⟨h3, h4⟩ (fun h => absurd h (by simp [Call.renews]))
        | selected => exact next .selected _ _ _ _ hs ⟨h3, h4⟩ (fun h => absurd h (by simp [Call.renews]))
        | initiated => exact absurd h hinit
    | initiate buf pos =>
      cases s with
      | nothing => exact absurd hs id
      | initiated => exact absurd h hinit
      | selected =>
        simp only [session]
        refine alike_andThen (initiate_alike alloc buf c d hsame h.2 pos script) ?_
        rintro x y rest ⟨h1, h2, h3, -⟩
        rw [← h1]
        by_cases hx : x.1 ≠ 0
        · rw [if_pos hx, if_pos hx]
          exact alike_fin ⟨rfl, rfl, h2, fun hk _ => absurd (hk _ (by simp)) hx⟩ _
        · rw [if_neg hx, if_neg hx]
          have he := h3 (by simpa using hx)
          exact next .initiated _ _ _ _ hs he (fun _ => he)
    | read =>
      cases s with
      | nothing => exact absurd hs id
      | selected => exact absurd hs id
      | initiated => exact absurd h hinit

/-- **C150** (emv-tool).  A transaction of emv-tool in the two contexts is the same: exchanges, choice, output and end; after
a complete one the contexts are the same too. -/
theorem C150_tool (alloc : List Tlv → Tlv → Bool) (mem : Nat → List Byte) (c d : Ctx) (h : Same c d) (input : List Byte)
    (script : List W) :
    Alike (fun x y => x.how = y.how ∧ x.apps = y.apps ∧ x.input = y.input ∧ x.out = y.out ∧ Same x.ctx y.ctx ∧
        (x.how = .done → x.ctx = y.ctx))
      (ToolTxn.transaction alloc mem c input script) (ToolTxn.transaction alloc mem d input script) := by
  have hr : ∀ (req : Bool) (fuel : Nat) (c d : Ctx), Same c d → ∀ apps input out script,
      Alike (fun x y => x.how = y.how ∧ x.apps = y.apps ∧ x.input = y.input ∧ x.out = y.out ∧ Same x.ctx y.ctx ∧
          (x.how = .done → x.ctx = y.ctx))
        (ToolTxn.rounds alloc mem req fuel c apps input out script)
        (ToolTxn.rounds alloc mem req fuel d apps input out script) := by
    intro req fuel
    induction fuel with
    | zero => intro c d _ apps input out script; exact Or.inr (Or.inr ⟨_, rfl, rfl⟩)
    | succ fuel ih =>
      intro c d h apps input out script
      unfold ToolTxn.rounds
      cases hp : ToolTxn.pick req apps input with
      | error e => exact Or.inr (Or.inr ⟨e, rfl, rfl⟩)
      | ok v =>
        obtain ⟨ch, bad⟩ := v
        simp only [bind_ok]
        cases ch with
        | never => exact alike_fin ⟨rfl, rfl, rfl, rfl, h, fun h => absurd h (by simp)⟩ _
        | index i input =>
          simp only
          refine alike_andThen (select_alike c d h apps i script) ?_
          rintro x y rest ⟨h1, h2, h3, h4, -⟩
          rw [← h1, ← h2, ← h4]
          by_cases c1 : x.1 < 0
          · rw [if_pos c1, if_pos c1]
            exact alike_fin ⟨rfl, rfl, rfl, rfl, h3, fun h => absurd h (by simp)⟩ _
          rw [if_neg c1, if_neg c1]
          by_cases c2 : x.1 > 0
          · rw [if_pos c2, if_pos c2]
            by_cases c3 : x.1 = 4
            · rw [if_pos c3, if_pos c3]
              exact ih _ _ h3 _ _ _ _
            · rw [if_neg c3, if_neg c3]
              exact alike_fin ⟨rfl, rfl, rfl, rfl, h3, fun h => absurd h (by simp)⟩ _
          rw [if_neg c2, if_neg c2]
          by_cases c3 : x.2.2.selected = none
          · rw [if_pos c3, if_pos c3]
            exact alike_fin ⟨rfl, rfl, rfl, rfl, h3, fun h => absurd h (by simp)⟩ _
          rw [if_neg c3, if_neg c3]
          refine alike_andThen (initiate_alike alloc (mem fuel) x.2.2 y.2.2 h3 h4 0x05 rest) ?_
          rintro x' y' rest ⟨k1, -, -, k2⟩
          rw [← k1, ← k2 c3]
          by_cases c4 : x'.1 < 0
          · rw [if_pos c4]
            exact alike_refl (fun _ => ⟨rfl, rfl, rfl, rfl, Same.refl _, fun _ => rfl⟩) _
          rw [if_neg c4]
          exact alike_refl (fun _ => ⟨rfl, rfl, rfl, rfl, Same.refl _, fun _ => rfl⟩) _
  unfold ToolTxn.transaction
  rw [h.2.1]
  refine alike_andThen (alike_refl (Q := Eq) (fun _ => rfl) _) ?_
  rintro x _ rest rfl
  simp only
  by_cases hx : x.1 ≠ 0
  · rw [if_pos hx, if_pos hx]
    exact alike_fin ⟨rfl, rfl, rfl, rfl, h, fun h => absurd h (by simp)⟩ _
  rw [if_neg hx, if_neg hx]
  refine alike_andThen (hr _ _ c d h _ _ _ _) ?_
  rintro ⟨how, ctx, apps, input, out⟩ ⟨how', ctx', apps', input', out'⟩ rest ⟨h1, h2, h3, h4, h5, h6⟩
  change how = how' at h1
  change apps = apps' at h2
  change input = input' at h3
  change out = out' at h4
  change Same ctx ctx' at h5
  change how = .done → ctx = ctx' at h6
  subst h1 h2 h3 h4
  by_cases hd : how = .done
  · rw [h6 hd]
    exact alike_refl (fun _ => ⟨rfl, rfl, rfl, rfl, Same.refl _, fun _ => rfl⟩) _
  · rw [if_neg hd, if_neg hd]
    exact alike_fin ⟨rfl, rfl, rfl, rfl, h5, fun h => absurd h hd⟩ _

/-- **C150** (any number of transactions).  A transaction after any number of others, with other cards and complete or not,
is the same as the first one in a new context would be. -/
theorem C150_again (alloc : List Tlv → Tlv → Bool) (mem : Nat → List Byte) (c d : Ctx) (h : Used alloc c d)
    (input : List Byte) (script : List W) :
    Alike (fun x y => x.how = y.how ∧ x.apps = y.apps ∧ x.input = y.input ∧ x.out = y.out ∧ Same x.ctx y.ctx ∧
        (x.how = .done → x.ctx = y.ctx))
      (ToolTxn.transaction alloc mem ⟨c.config, c.supported, c.params, none, [], []⟩ input script)
      (ToolTxn.transaction alloc mem d input script) := by
  have hs : Same c d := by
    induction h with
    | start => exact Same.refl _
    | again h mem input script rest tr e he ih => exact ih.trans (transaction_ends alloc mem _ input script tr e rest he)
  exact C150_tool alloc mem ⟨c.config, c.supported, c.params, none, [], []⟩ d hs input script

/-- **C150** (how long they stay).  The fields of the earlier card and the earlier terminal data stay in the context
until the next initiation: `emv_select_application` leaves them whatever it returns. -/
theorem C150_kept (c d : Ctx) (apps apps' : List App) (i : Nat) (code : Int) (script rest : List W) (tr : List (Cmd × W))
    (h : Emv.select c apps i script = .ok (tr, .done (code, apps', d) rest)) : d.icc = c.icc ∧ d.terminal = c.terminal :=
  (select_ends c apps i script tr _ rest h).2

/-- **C150** (order needed).  Calls that are not in order: reading after selecting another application, without initiating
it, takes the AFL of the earlier one. -/
theorem C150_order (c : Ctx) (es : List AflEntry) (hwf : ∀ e ∈ es, AflEntry.WF e) (hne : es ≠ []) (hlen : es.length ≤ 63)
    (hb : Bounded es) (hafl : field 0x94 c.icc = some (encAfl es)) (tr : List (Cmd × W)) (fs : List Tlv)
    (hcm : tr.map (·.1) = commands es) (ha : Answered tr fs) (hs : Sufficient fs) (m : Search.CardApp) (hm : m.WF)
    (hbl : m.blocked = false) (apps : List App) (i : Nat) (a : App) (hi : apps[i]? = some a) (hn : a.aid.value = m.name)
    (hl : 5 ≤ m.name.length ∧ m.name.length ≤ 16) (w : W) (hw : Search.Answer (some m) w) (rest : List W) :
    ∃ d apps', session allocOk [.select i, .read] c apps (w :: (tr.map (·.2) ++ rest)) =
      .ok ((.select false m.name, w) :: tr, .done ([0, 0], d, apps') rest) ∧ d.icc = c.icc ++ fs := by
  obtain ⟨b, -, hsel⟩ := Search.select_answer c apps i a hi (by rw [hn]; exact hl) m hm w (tr.map (·.2) ++ rest) hw
    (by rw [hn]; exact List.prefix_rfl)
  rw [if_pos ⟨hbl, hn⟩, hn] at hsel
  have hread := C40_complete allocOk (fun _ _ => rfl) { c with selected := some ⟨b, .own⟩ } es hwf hne hlen hb hafl tr fs hcm
    ha hs rest
  refine ⟨{ c with selected := some ⟨b, .own⟩, icc := c.icc ++ fs }, apps.eraseIdx i, ?_, rfl⟩
  simp only [session, andThen, hsel, bind_ok]
  rw [if_neg (by simp)]
  simp only [hread, bind_ok]
  rw [if_neg (by simp)]
  simp [fin]

/-! ## Examples -/

/-- The calls of a whole transaction, twice, are in order; reading without initiating is not. -/
example : InOrder .nothing ([.build, .select 0, .initiate [] 5, .read] ++ [.build, .select 0, .select 1, .initiate [] 5, .read]) ∧
    ¬ InOrder .nothing [.build, .select 0, .read] ∧ InOrder .nothing [.reset, .build, .select 0, .initiate [] 5] := by
  simp [InOrder]

/-- Two contexts that agree, one with the fields of an earlier card and its application. -/
example : Same ⟨[⟨0x9F1A, 0, [2, 0x46]⟩], [⟨0x9F06, 1, [0xA0, 0, 0, 0, 3]⟩], [], none, [], []⟩
    ⟨[⟨0x9F1A, 0, [2, 0x46]⟩], [⟨0x9F06, 1, [0xA0, 0, 0, 0, 3]⟩], [],
      some ⟨⟨⟨0x84, 0, [0xA0, 0, 0, 0, 4]⟩, [], 0, false, []⟩, .icc⟩, [⟨0x5A, 0, [1, 2]⟩], [⟨0x95, 0, [0, 0, 0, 0, 0]⟩]⟩ :=
  ⟨rfl, rfl, rfl⟩

/-- A context after a transaction with a card that has nothing for the terminal. -/
example : ∃ d : Ctx, Used allocOk Ctx.init d ∧ ∃ tr e rest, ToolTxn.transaction allocOk (fun _ => []) Ctx.init []
    [⟨0, [], 0x6A82⟩] = .ok (tr, .done e rest) ∧ e.ctx = d ∧ tr.length = 1 := by
  refine ⟨_, .again .start (fun _ => []) [] [⟨0, [], 0x6A82⟩] [] [(.select false pseName, ⟨0, [], 0x6A82⟩)] _ rfl, _, _, _,
    rfl, rfl, rfl⟩

/-- An AFL of an earlier application, as `C150_order` has it. -/
example : ∃ (c : Ctx) (es : List AflEntry), (∀ e ∈ es, AflEntry.WF e) ∧ es ≠ [] ∧ es.length ≤ 63 ∧ Bounded es ∧
    field 0x94 c.icc = some (encAfl es) ∧ ∃ tr fs, tr.map (·.1) = commands es ∧ Answered tr fs ∧ Sufficient fs := by
  obtain ⟨es, h1, h2, h3, h4, h5, h6⟩ := (Search.plain_good Ctx.init).records
  exact ⟨⟨[], [], [], none, [⟨0x82, 0, [0x39, 0]⟩, ⟨0x94, 0, [0x08, 1, 2, 0]⟩], []⟩, es, h1, h2, h3, h4, h5, _, _, h6,
    (Search.plain_good Ctx.init).answers, (Search.plain_good Ctx.init).enough⟩

end Verif.Again
