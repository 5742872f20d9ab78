import Verif.Emv
import Verif.TalSelectProps
import Verif.LinkedListProps

/-!
# Properties of candidate list building and application selection (C39, C42)
-/

set_option autoImplicit false

namespace Verif.Emv
open Verif Ber BerSpec TlvParse App Tal

/-! ## C39 -/

/-- The answer's data is one template 6F with the fields `fields`, of which the first 84 is
`name`. -/
def Fci (data name : List Byte) (fields : List Tlv) : Prop :=
  ∃ (len : List Byte) (f : XForest), f.WF ∧ LenOctets f.enc.length len ∧
    data = [0x6F] ++ len ++ f.enc ∧ fields = f.leaves ∧ field 0x84 f.leaves = some name

/-- A well-formed answer (definite lengths) naming `name`. -/
def ProperFci (data name : List Byte) : Prop :=
  ∃ (len : List Byte) (g : Forest), g.WF ∧ LenOctets g.enc.length len ∧
    data = [0x6F] ++ len ++ g.enc ∧ field 0x84 g.leaves = some name

/-- How selecting an application by its AID ends. -/
def SelPost (aid : List Byte) (script : List W) : C (Run (Int × Option App)) → Prop
  | .error e => e = .uninit ∧ ∃ w rest, script = w :: rest ∧ w.code = 0 ∧ w.sw = 0x9000 ∧ w.data = []
  | .ok (tr, .pending c) => tr = [] ∧ script = [] ∧ c = .select false aid
  | .ok (tr, .done (code, o) rest) =>
    (code = -2 ∧ o = none ∧ tr = [] ∧ rest = script ∧ (aid.length < 5 ∨ 16 < aid.length)) ∨
    ∃ w, tr = [(.select false aid, w)] ∧ script = w :: rest ∧
      ((code = 0 ∧ w.code = 0 ∧ w.sw = 0x9000 ∧ ∃ a, o = some a ∧ a.aid.value = aid ∧
          a.aid ∈ a.tlvs ∧ a.aid.tag = 0x84 ∧ Fci w.data aid a.tlvs) ∨
       (o = none ∧ code = -3 ∧ w.code ≠ 0) ∨
       (o = none ∧ code = -4 ∧ w.code = 0 ∧ w.sw = 0x6A81) ∨
       (o = none ∧ 0 < code ∧ w.code = 0 ∧ w.sw ≠ 0x6A81 ∧
          (w.sw = 0x9000 → ¬ ProperFci w.data aid)))

theorem selectApp_spec (aid : List Byte) (script : List W) :
    SelPost aid script (selectApp aid script) := by
  unfold selectApp
  split
  · rename_i h
    simp only [fin, SelPost]
    exact Or.inl ⟨trivial, trivial, trivial, trivial, h⟩
  · rename_i hlen
    have hr : refusesName aid = false := by
      simp only [refusesName, Bool.or_eq_false_iff, decide_eq_false_iff_not]; omega
    simp only [send, hr, Bool.false_eq_true, if_false]
    match script with
    | [] => exact ⟨rfl, rfl, rfl⟩
    | w :: rest =>
      have hstop : ∀ code : Int, ((code = -3 ∧ w.code ≠ 0) ∨ (code = -4 ∧ w.code = 0 ∧ w.sw = 0x6A81) ∨
          (0 < code ∧ w.code = 0 ∧ w.sw ≠ 0x6A81 ∧ (w.sw = 0x9000 → ¬ ProperFci w.data aid))) →
          SelPost aid (w :: rest) (log (.select false aid) w (fin (code, none) rest)) := by
        intro code h
        simp only [fin, log, bind_ok, SelPost]
        refine Or.inr ⟨w, rfl, rfl, Or.inr ?_⟩
        rcases h with h | h | h
        · exact Or.inl ⟨trivial, h⟩
        · exact Or.inr (Or.inl ⟨trivial, h⟩)
        · exact Or.inr (Or.inr ⟨trivial, h⟩)
      simp only
      by_cases h0 : w.code = 0
      · rw [if_neg (by simp [h0])]
        by_cases h1 : w.sw = 0x9000
        · rw [if_neg (by simp [h1])]
          by_cases hd : w.data = []
          · simp only [hd]
            exact ⟨rfl, w, rest, rfl, h0, h1, hd⟩
          · obtain ⟨r, e, hs, hc⟩ := createFromFci_spec w.data hd
            simp only [e, bind_ok]
            match r, hs, hc with
            | none, hs, hc =>
              refine hstop 12 (Or.inr (Or.inr ⟨by decide, h0, by rw [h1]; decide, fun _ hp => ?_⟩))
              obtain ⟨len, g, g1, g2, g3, g4⟩ := hp
              have hne : aid ≠ [] := by intro e; subst e; simp at hlen
              obtain ⟨a, ha, -⟩ := hc g len aid g1 g2 g3 g4 hne
              cases ha
            | some a, hs, hc =>
              simp only
              obtain ⟨hn, hm, ht, len, f, f1, f2, f3, f4, f5, -⟩ := hs a rfl
              have hbad : a.aid.value ≠ aid →
                  SelPost aid (w :: rest) (log (.select false aid) w (fin (11, none) rest)) := by
                intro hv
                refine hstop 11 (Or.inr (Or.inr ⟨by decide, h0, by rw [h1]; decide, fun _ hp => ?_⟩))
                obtain ⟨len, g, g1, g2, g3, g4⟩ := hp
                have hne : aid ≠ [] := by intro e; subst e; simp at hlen
                obtain ⟨a', ha, hv', -⟩ := hc g len aid g1 g2 g3 g4 hne
                cases ha
                exact hv hv'
              by_cases hl : a.aid.value.length = aid.length
              · rw [if_neg (by simp [hl]), slice_eq (by omega)]
                simp only [bind_ok]
                have he : (List.take aid.length (List.drop 0 a.aid.value)) = a.aid.value := by
                  rw [List.drop_zero, ← hl, List.take_length]
                rw [he]
                by_cases hv : a.aid.value = aid
                · rw [if_neg (by simp [hv])]
                  simp only [fin, log, bind_ok, SelPost]
                  refine Or.inr ⟨w, rfl, rfl, Or.inl ⟨trivial, h0, h1, a, rfl, hv, hm, ht, len, f, f1, f2, f3, f4, ?_⟩⟩
                  rw [(find_some f5).2.2, hv]
                · rw [if_pos (by simp [hv])]; exact hbad hv
              · rw [if_pos hl]
                exact hbad (fun e => hl (by rw [e]))
        · rw [if_pos h1]
          refine hstop _ ?_
          by_cases h2 : w.sw = 0x6A81
          · simp [h2, h0]
          · right; right
            refine ⟨?_, h0, h2, fun h => absurd h h1⟩
            rw [if_neg h2]
            split
            · decide
            · split <;> decide
      · rw [if_pos h0]
        exact hstop _ (Or.inl ⟨rfl, h0⟩)

/-- **C39.**  For every candidate list, index and card: an index past the end is refused and
changes nothing in the list.  Otherwise exactly that candidate leaves the list, the others
keep their order, at most one SELECT (for its AID) is sent, and
* success (0) means the card answered 9000 with an FCI naming that very AID, and the selected
  application has exactly the fields of that FCI;
* after any other result no application is selected: 3 (stop) exactly when no candidate is
  left, 4 (try again) otherwise - because the card rejected the AID or answered with something
  else, or the AID is too long; 2 because the card is blocked; 1 because the exchange failed or
  the AID is too short to be sent. -/
theorem C39_select (ctx : Ctx) (apps : List App) (i : Nat) (script : List W)
    (tr : List (Cmd × W)) (r : Int) (apps' : List App) (ctx' : Ctx) (rest : List W)
    (h : select ctx apps i script = .ok (tr, .done (r, apps', ctx') rest)) :
    script = tr.map (·.2) ++ rest ∧
    ((apps.length ≤ i ∧ r = -2 ∧ apps' = apps ∧ ctx'.selected = none ∧ tr = []) ∨
     ∃ a, apps[i]? = some a ∧ apps' = apps.take i ++ apps.drop (i + 1) ∧
      ((r = 0 ∧ ∃ w s, tr = [(.select false a.aid.value, w)] ∧ w.code = 0 ∧ w.sw = 0x9000 ∧
          ctx'.selected = some s ∧ s.app.aid.value = a.aid.value ∧ s.app.aid ∈ s.app.tlvs ∧
          s.aid = .own ∧ Fci w.data a.aid.value s.app.tlvs) ∨
       (ctx'.selected = none ∧
        (((r = 3 ∧ apps' = [] ∨ r = 4 ∧ apps' ≠ []) ∧
            (16 < a.aid.value.length ∧ tr = [] ∨
             ∃ w, tr = [(.select false a.aid.value, w)] ∧ w.code = 0 ∧ w.sw ≠ 0x6A81 ∧
              (w.sw = 0x9000 → ¬ ProperFci w.data a.aid.value))) ∨
         (r = 2 ∧ ∃ w, tr = [(.select false a.aid.value, w)] ∧ w.code = 0 ∧ w.sw = 0x6A81) ∨
         (r = 1 ∧ (a.aid.value.length < 5 ∧ tr = [] ∨
            ∃ w, tr = [(.select false a.aid.value, w)] ∧ w.code ≠ 0)))))) := by
  unfold select at h
  simp only at h
  cases ha : apps[i]? with
  | none =>
    rw [ha] at h
    simp only [fin, Except.ok.injEq, Prod.mk.injEq, Out.done.injEq] at h
    obtain ⟨rfl, ⟨rfl, rfl, rfl⟩, rfl⟩ := h
    exact ⟨rfl, Or.inl ⟨List.getElem?_eq_none_iff.mp ha, rfl, rfl, rfl, rfl⟩⟩
  | some a =>
    rw [ha] at h
    simp only at h
    have htry : ∀ l : List App, (tryAgain l = 3 ∧ l = []) ∨ (tryAgain l = 4 ∧ l ≠ []) := by
      intro l; cases l <;> simp [tryAgain]
    rw [← List.eraseIdx_eq_take_drop_succ]
    by_cases hl : a.aid.value.length > 16
    · rw [if_pos hl] at h
      simp only [fin, Except.ok.injEq, Prod.mk.injEq, Out.done.injEq] at h
      obtain ⟨rfl, ⟨rfl, rfl, rfl⟩, rfl⟩ := h
      exact ⟨rfl, Or.inr ⟨a, rfl, rfl, Or.inr ⟨rfl, Or.inl ⟨htry _, Or.inl ⟨hl, rfl⟩⟩⟩⟩⟩
    · rw [if_neg hl] at h
      have hp := selectApp_spec a.aid.value script
      generalize selectApp a.aid.value script = y at hp h
      match y, hp with
      | .error e, hp => cases h
      | .ok (tr', .pending c), hp => cases h
      | .ok (tr', .done (code, o) rest'), hp =>
        simp only [andThen, bind_ok] at h
        rcases hp with ⟨rfl, rfl, rfl, rfl, hb⟩ | ⟨w, rfl, rfl, hq⟩
        · rw [if_pos (by decide)] at h
          simp only [fin, bind_ok, Except.ok.injEq, Prod.mk.injEq, Out.done.injEq, List.nil_append] at h
          obtain ⟨rfl, ⟨rfl, rfl, rfl⟩, rfl⟩ := h
          exact ⟨rfl, Or.inr ⟨a, rfl, rfl, Or.inr ⟨rfl, Or.inr (Or.inr ⟨by decide, Or.inl ⟨by omega, rfl⟩⟩)⟩⟩⟩
        · rcases hq with ⟨rfl, h0, h1, b, rfl, hv, hm, ht, hf⟩ | ⟨rfl, rfl, h0⟩ | ⟨rfl, rfl, h0, h1⟩ |
            ⟨rfl, hc, h0, h1, h2⟩
          · rw [if_neg (by decide), if_neg (by decide)] at h
            simp only [fin, bind_ok, Except.ok.injEq, Prod.mk.injEq, Out.done.injEq,
              List.append_nil] at h
            obtain ⟨rfl, ⟨rfl, rfl, rfl⟩, rfl⟩ := h
            exact ⟨rfl, Or.inr ⟨a, rfl, rfl, Or.inl ⟨rfl, w, ⟨b, .own⟩, rfl, h0, h1, rfl, hv, hm, rfl, hf⟩⟩⟩
          · rw [if_pos (by decide)] at h
            simp only [fin, bind_ok, Except.ok.injEq, Prod.mk.injEq, Out.done.injEq,
              List.append_nil] at h
            obtain ⟨rfl, ⟨rfl, rfl, rfl⟩, rfl⟩ := h
            exact ⟨rfl, Or.inr ⟨a, rfl, rfl, Or.inr ⟨rfl, Or.inr (Or.inr ⟨by decide, Or.inr ⟨w, rfl, h0⟩⟩)⟩⟩⟩
          · rw [if_pos (by decide)] at h
            simp only [fin, bind_ok, Except.ok.injEq, Prod.mk.injEq, Out.done.injEq,
              List.append_nil] at h
            obtain ⟨rfl, ⟨rfl, rfl, rfl⟩, rfl⟩ := h
            exact ⟨rfl, Or.inr ⟨a, rfl, rfl, Or.inr ⟨rfl, Or.inr (Or.inl ⟨by decide, w, rfl, h0, h1⟩)⟩⟩⟩
          · rw [if_neg (by omega), if_pos hc] at h
            simp only [fin, bind_ok, Except.ok.injEq, Prod.mk.injEq, Out.done.injEq,
              List.append_nil] at h
            obtain ⟨rfl, ⟨rfl, rfl, rfl⟩, rfl⟩ := h
            exact ⟨rfl, Or.inr ⟨a, rfl, rfl, Or.inr ⟨rfl, Or.inl ⟨htry _, Or.inr ⟨w, rfl, h0, h1, h2⟩⟩⟩⟩⟩

/-- **C39** (completeness).  A card that answers with a well-formed FCI naming the candidate
gets it selected. -/
theorem C39_select_proper (ctx : Ctx) (apps : List App) (i : Nat) (a : App) (ha : apps[i]? = some a)
    (hl : 5 ≤ a.aid.value.length ∧ a.aid.value.length ≤ 16) (data : List Byte)
    (hd : ProperFci data a.aid.value) (rest : List W) :
    ∃ s, select ctx apps i (⟨0, data, 0x9000⟩ :: rest) =
      .ok ([(.select false a.aid.value, ⟨0, data, 0x9000⟩)],
        .done (0, apps.eraseIdx i, { ctx with selected := some s }) rest) ∧
      s.app.aid.value = a.aid.value := by
  have hp := selectApp_spec a.aid.value (⟨0, data, 0x9000⟩ :: rest)
  unfold select
  simp only [ha]
  rw [if_neg (by omega)]
  generalize selectApp a.aid.value (⟨0, data, 0x9000⟩ :: rest) = y at hp
  match y, hp with
  | .error e, hp =>
    obtain ⟨-, w, rest', e, -, -, h3⟩ := hp
    cases e
    obtain ⟨len, g, -, -, h, -⟩ := hd
    change data = [] at h3
    rw [h3] at h
    simp at h
  | .ok (tr', .pending c), hp => obtain ⟨-, h, -⟩ := hp; cases h
  | .ok (tr', .done (code, o) rest'), hp =>
    rcases hp with ⟨rfl, rfl, rfl, rfl, hb⟩ | ⟨w, rfl, e, hp⟩
    · omega
    · cases e
      rcases hp with ⟨rfl, h0, h1, b, rfl, hv, hm, ht, hf⟩ | ⟨rfl, rfl, h0⟩ | ⟨rfl, rfl, h0, h1⟩ |
            ⟨rfl, hc, h0, h1, h2⟩
      · exact ⟨⟨b, .own⟩, rfl, hv⟩
      · exact absurd rfl h0
      · simp at h1
      · exact absurd hd (h2 rfl)

/-- `n` consecutive selections that all ask to try again. -/
inductive Retries : Nat → List App → List App → Prop where
  | none (apps : List App) : Retries 0 apps apps
  | again {n : Nat} {ctx ctx' : Ctx} {apps apps' apps'' : List App} {i : Nat} {script rest : List W}
      {tr : List (Cmd × W)} (h : select ctx apps i script = .ok (tr, .done (4, apps', ctx') rest))
      (hr : Retries n apps' apps'') : Retries (n + 1) apps apps''

/-- **C39** (termination).  However the card answers and whatever the caller selects, each "try
again" uses up one candidate; after at most (number of candidates - 1) of them the answer is
another one. -/
theorem C39_retries {n : Nat} {apps apps' : List App} (h : Retries n apps apps') :
    n + apps'.length = apps.length ∧ (n ≠ 0 → apps' ≠ []) := by
  induction h with
  | none apps => simp
  | @again n _ _ _ _ _ _ _ _ _ h hr ih =>
    obtain ⟨-, ⟨-, h, -⟩ | ⟨a, ha, rfl, ⟨h, -⟩ | ⟨-, ⟨⟨h, -⟩ | ⟨-, h⟩, -⟩ | ⟨h, -⟩ | ⟨h, -⟩⟩⟩⟩ :=
      C39_select _ _ _ _ _ _ _ _ _ h
    all_goals try (simp at h; done)
    have hi := (List.getElem?_eq_some_iff.mp ha).1
    obtain ⟨ih1, ih2⟩ := ih
    simp only [List.length_append, List.length_take, List.length_drop] at ih1
    refine ⟨by omega, fun _ => ?_⟩
    rcases Nat.eq_zero_or_pos n with hn | hn
    · subst hn
      cases hr
      exact h
    · exact ih2 (by omega)

/-- Two candidates; the card rejects the first and selects the second. -/
example :
    let a : App := ⟨⟨0x4F, 0, [0xA0, 0, 0, 0, 3]⟩, [], 1, false, []⟩
    let b : App := ⟨⟨0x4F, 0, [0xA0, 0, 0, 0, 4]⟩, [], 2, false, []⟩
    (select .init [a, b] 0 [⟨0, [], 0x6A82⟩]).toOption.map (fun r => match r.2 with
      | .done (c, l, x) _ => (c, l, x.selected.isSome) | _ => (1, [], true)) = some (4, [b], false) ∧
    (select .init [b] 0 [⟨0, [0x6F, 0x07, 0x84, 0x05, 0xA0, 0, 0, 0, 4], 0x9000⟩]).toOption.map
      (fun r => match r.2 with
      | .done (c, l, x) _ => (c, l, x.selected.isSome) | _ => (1, [], false)) = some (0, [], true) := by
  decide +kernel

/-! ## C42 -/

/-- The card refused a SELECT (of a first or only occurrence) with 6A81. -/
def Blocked (x : Cmd × W) : Prop := x.2.code = 0 ∧ x.2.sw = 0x6A81 ∧ ∃ name, x.1 = .select false name

/-- The exchange failed. -/
def Failed (x : Cmd × W) : Prop := x.2.code ≠ 0

/-- Neither. -/
def Fine (x : Cmd × W) : Prop := x.2.code = 0 ∧ ¬ Blocked x

/-- How finding applications by the list of AIDs ends. -/
def FindCode (aids : List Tlv) (apps : List App) (script : List W) : C (Run (Int × List App)) → Prop
  | .error e => e = .uninit ∧ ∃ w ∈ script, Bare w
  | .ok (tr, .pending _) => script = tr.map (·.2)
  | .ok (tr, .done (code, apps') rest) => script = tr.map (·.2) ++ rest ∧
    (∀ a ∈ apps', a ∈ apps ∨ a.prio ≤ 15) ∧
    ((code = 0 ∧ ∀ x ∈ tr, Fine x) ∨
     ∃ good, (∀ x ∈ good, Fine x) ∧
      ((code = -4 ∧ ∃ x, tr = good ++ [x] ∧ Blocked x) ∨
       (code = -3 ∧ ∃ x, tr = good ++ [x] ∧ Failed x) ∨
       (code = -3 ∧ tr = good ∧ ∃ aid ∈ aids, refusesName aid.value = true)))

theorem findCode_log {aids aids' : List Tlv} {apps apps' : List App} {c : Cmd} {w : W}
    {script : List W} {x : C (Run (Int × List App))} (hsub : ∀ t ∈ aids', t ∈ aids)
    (happ : ∀ a ∈ apps', a ∈ apps ∨ a.prio ≤ 15) (hg : Fine (c, w))
    (h : FindCode aids' apps' script x) : FindCode aids apps (w :: script) (log c w x) := by
  match x, h with
  | .error _, ⟨h, v, hv, hd⟩ => exact ⟨h, v, by simp [hv], hd⟩
  | .ok (tr, .pending _), h => simp only [log, bind_ok, FindCode] at h ⊢; simp [h]
  | .ok (tr, .done (code, apps'') rest), ⟨h1, h2, h3⟩ =>
    simp only [log, bind_ok, FindCode]
    refine ⟨by simp [h1], fun a ha => ?_, ?_⟩
    · rcases h2 a ha with h | h
      · exact happ a h
      · exact Or.inr h
    · rcases h3 with ⟨rfl, h3⟩ | ⟨good, hgood, h3⟩
      · refine Or.inl ⟨rfl, fun y hy => ?_⟩
        rcases List.mem_cons.mp hy with rfl | hy
        · exact hg
        · exact h3 y hy
      · refine Or.inr ⟨(c, w) :: good, fun y hy => ?_, ?_⟩
        · rcases List.mem_cons.mp hy with rfl | hy
          · exact hg
          · exact hgood y hy
        · rcases h3 with ⟨rfl, y, rfl, hy⟩ | ⟨rfl, y, rfl, hy⟩ | ⟨rfl, rfl, aid, ha, hr⟩
          · exact Or.inl ⟨rfl, y, rfl, hy⟩
          · exact Or.inr (Or.inl ⟨rfl, y, rfl, hy⟩)
          · exact Or.inr (Or.inr ⟨rfl, rfl, aid, hsub _ ha, hr⟩)

theorem findApps_code (script : List W) : ∀ (aids : List Tlv) (first : Bool) (apps : List App),
    FindCode aids apps script (findApps script aids first apps) := by
  have hnil : ∀ script first apps, FindCode [] apps script (findApps script [] first apps) := by
    intro script first apps
    unfold findApps
    exact ⟨rfl, fun a ha => Or.inl ha, Or.inl ⟨rfl, by simp⟩⟩
  have href : ∀ (aid : Tlv) (aids : List Tlv) script apps, refusesName aid.value = true →
      FindCode (aid :: aids) apps script (fin (-3, apps) script) := by
    intro aid aids script apps hr
    exact ⟨rfl, fun a ha => Or.inl ha, Or.inr ⟨[], by simp, Or.inr (Or.inr ⟨rfl, rfl, aid, by simp, hr⟩)⟩⟩
  induction script with
  | nil =>
    intro aids first apps
    cases aids with
    | nil => exact hnil _ _ _
    | cons aid aids =>
      unfold findApps
      by_cases hr : refusesName aid.value = true
      · rw [if_pos hr]; exact href _ _ _ _ hr
      · rw [if_neg hr]; exact rfl
  | cons w rest ih =>
    intro aids first apps
    cases aids with
    | nil => exact hnil _ _ _
    | cons aid aids =>
      unfold findApps
      by_cases hr : refusesName aid.value = true
      · rw [if_pos hr]; exact href _ _ _ _ hr
      · rw [if_neg hr]
        simp only
        by_cases h0 : w.code ≠ 0
        · rw [if_pos h0]
          refine ⟨rfl, fun a ha => Or.inl ha, Or.inr ⟨[], by simp, Or.inr (Or.inl ⟨rfl, _, rfl, h0⟩)⟩⟩
        · rw [if_neg h0]
          have h0 : w.code = 0 := by simpa using h0
          by_cases h1 : first = true ∧ w.sw = 0x6A81
          · rw [if_pos h1]
            refine ⟨rfl, fun a ha => Or.inl ha, Or.inr ⟨[], by simp, Or.inl ⟨rfl, _, rfl, h0, h1.2, aid.value, ?_⟩⟩⟩
            rw [h1.1]; rfl
          · rw [if_neg h1]
            have hfine : Fine (.select (!first) aid.value, w) := by
              refine ⟨h0, fun ⟨_, hb, name, hn⟩ => h1 ⟨?_, hb⟩⟩
              cases first
              · simp at hn
              · rfl
            have next : ∀ aids' f apps', (∀ t ∈ aids', t ∈ aid :: aids) → (∀ a ∈ apps', a ∈ apps ∨ a.prio ≤ 15) →
                FindCode (aid :: aids) apps (w :: rest)
                  (log (.select (!first) aid.value) w (findApps rest aids' f apps')) :=
              fun aids' f apps' h1 h2 => findCode_log h1 h2 hfine (ih aids' f apps')
            have htl : ∀ t ∈ aids, t ∈ aid :: aids := fun t ht => by simp [ht]
            by_cases h2 : w.sw ≠ 0x9000 ∧ w.sw ≠ 0x6283
            · rw [if_pos h2]; exact next _ _ _ htl (fun a ha => Or.inl ha)
            · rw [if_neg h2]
              by_cases hd : w.data = []
              · have : createFromFci w.data = .error .uninit := by rw [hd]; rfl
                rw [this]
                exact ⟨rfl, w, by simp, h0, by by_cases h : w.sw = 0x9000 <;> simp_all, hd⟩
              · obtain ⟨r, r1, r2, -⟩ := createFromFci_spec w.data hd
                rw [r1]
                simp only [bind_ok]
                cases r with
                | none => exact next _ _ _ htl (fun a ha => Or.inl ha)
                | some app =>
                  simp only
                  obtain ⟨-, -, -, -, -, -, -, -, -, -, hprio⟩ := r2 app rfl
                  have hnew : ∀ a ∈ (if w.sw = 0x9000 then apps ++ [app] else apps),
                      a ∈ apps ∨ a.prio ≤ 15 := by
                    intro a ha
                    split at ha
                    · rcases List.mem_append.mp ha with ha | ha
                      · exact Or.inl ha
                      · rw [List.mem_singleton.mp ha]; exact Or.inr hprio
                    · exact Or.inl ha
                  split
                  · exact next _ _ _ htl hnew
                  · split
                    · exact next _ _ _ (fun t ht => ht) hnew
                    · exact next _ _ _ htl (fun a ha => Or.inl ha)

/-- The answer to SELECT PSE names a file identifier that cannot be read (not 1 to 30). -/
def BadDirectory (x : Cmd × W) : Prop :=
  x.1 = .select false pseName ∧ x.2.sw = 0x9000 ∧ ∃ r pse sfi,
    parse allocOk x.2.data [] = .ok (r, pse) ∧ field 0x88 pse = some [sfi] ∧ refusesSfi sfi = true

/-- How reading the directory ends, in terms of outcomes. -/
theorem readPse_code (supported : List Tlv) (apps : List App) (script : List W)
    (tr : List (Cmd × W)) (code : Int) (apps' : List App) (rest : List W)
    (h : readPse supported apps script = .ok (tr, .done (code, apps') rest)) :
    script = tr.map (·.2) ++ rest ∧ (∀ a ∈ apps', a ∈ apps ∨ a.prio ≤ 15) ∧
    ((0 ≤ code ∧ ∀ x ∈ tr, Fine x) ∨
     ∃ good x, tr = good ++ [x] ∧ (∀ x ∈ good, Fine x) ∧
      ((code = -4 ∧ Blocked x) ∨ (code = -3 ∧ Failed x) ∨ (code = -3 ∧ Fine x ∧ BadDirectory x))) := by
  rcases readPse_cases supported apps script with ⟨o, h1, h2, -⟩ | ⟨w, rest', code', apps'', h1, h2, -, h4, h5⟩ |
    ⟨w, rest', pse, sfi, h1, h2, h3, ⟨r, h4⟩, h5, h6, h7⟩
  · rw [h1, h2] at h; cases h
  · rw [h2] at h
    cases h
    subst h1
    refine ⟨rfl, fun a ha => ?_, ?_⟩
    · rcases h4 with rfl | rfl
      · exact Or.inl ha
      · cases ha
    · rcases h5 with ⟨rfl, h⟩ | ⟨rfl, h⟩ | ⟨rfl, h0, h1, -, hb⟩ | ⟨h, h0, h1⟩
      · exact Or.inr ⟨[], _, rfl, by simp, Or.inr (Or.inl ⟨rfl, h⟩)⟩
      · exact Or.inr ⟨[], _, rfl, by simp, Or.inl ⟨rfl, h.1, h.2, pseName, rfl⟩⟩
      · refine Or.inr ⟨[], _, rfl, by simp, Or.inr (Or.inr ⟨rfl, ⟨h0, fun hb => ?_⟩, rfl, h1, hb⟩)⟩
        rw [hb.2.1] at h1
        exact absurd h1 (by decide)
      · refine Or.inl ⟨by omega, ?_⟩
        simp only [List.mem_singleton, forall_eq]
        exact ⟨h0, fun hb => h1 hb.2.1⟩
  · rw [h7] at h
    subst h1
    have hp := pseLoop_spec pse supported sfi h6 rest' 1 apps
    generalize pseLoop pse supported sfi rest' 1 apps = y at hp h
    match y, hp with
    | .ok (tr', .pending c), hp => cases h
    | .ok (tr', .done (code', l) rest''), hp =>
      simp only [log, bind_ok, Except.ok.injEq, Prod.mk.injEq, Out.done.injEq] at h
      obtain ⟨rfl, ⟨rfl, rfl⟩, rfl⟩ := h
      obtain ⟨p1, p2, good, last, p3, p4, p5⟩ := hp
      subst p1
      have hhead : Fine (.select false pseName, w) := by
        refine ⟨h2, fun hb => ?_⟩
        rw [hb.2.1] at h3
        exact absurd h3 (by decide)
      have hrd : ∀ x ∈ tr', ¬ Blocked x := by
        intro x hx ⟨_, _, name, hn⟩
        have : x.1 ∈ tr'.map (·.1) := List.mem_map_of_mem hx
        rw [p2] at this
        simp only [numbered, List.mem_map] at this
        obtain ⟨k, -, hk⟩ := this
        rw [hn] at hk
        cases hk
      refine ⟨by simp, ?_, ?_⟩
      · intro a ha
        rcases p5 with ⟨-, -, rfl⟩ | ⟨-, -, -, rfl⟩
        · cases ha
        · rcases List.mem_append.mp ha with ha | ha
          · exact Or.inl ha
          · right
            obtain ⟨x, -, hx⟩ := List.mem_flatMap.mp ha
            unfold added at hx
            split at hx
            · obtain ⟨t, -, ht⟩ := List.mem_filterMap.mp hx
              obtain ⟨-, hc, -⟩ := made_some ht
              obtain ⟨r, r1, r2, -⟩ := createFromPse_spec pse t.value
              rw [hc] at r1
              cases r1
              obtain ⟨f, -, -, -, -, hp⟩ := r2 a rfl
              exact hp
            · cases hx
      · obtain ⟨g, l, e1, e2, e3⟩ := List.map_eq_append_iff.mp p3
        obtain ⟨y, l', e4, e5, e6⟩ := List.map_eq_cons_iff.mp e3
        have : l' = [] := by simpa using e6
        subst this e4 e1
        have hgood : ∀ x ∈ (Cmd.select false pseName, w) :: g, Fine x := by
          intro x hx
          rcases List.mem_cons.mp hx with rfl | hx
          · exact hhead
          · exact ⟨(p4 _ (by rw [← e2]; exact List.mem_map_of_mem hx)).1, hrd x (by simp [hx])⟩
        rcases p5 with ⟨rfl, hc, -⟩ | ⟨rfl, hc, hs, -⟩
        · exact Or.inr ⟨(.select false pseName, w) :: g, y, rfl, hgood, Or.inr (Or.inl ⟨rfl, by
            unfold Failed; rw [e5]; exact hc⟩)⟩
        · refine Or.inl ⟨by decide, fun x hx => ?_⟩
          rw [← List.cons_append] at hx
          rcases List.mem_append.mp hx with hx | hx
          · exact hgood x hx
          · rw [List.mem_singleton.mp hx]
            exact ⟨by rw [e5]; exact hc, hrd y (by simp)⟩

/-- Priority order: 1 first, 15 last, none (0) after all. -/
def rankOf (a : App) : Nat := if a.prio = 0 then 16 else a.prio

/-- What `build` reports. -/
def BuildPost (supported : List Tlv) (tr : List (Cmd × W)) (r : Int) (apps : List App) : Prop :=
  (r = 0 ∧ apps ≠ [] ∧ apps.Pairwise (fun a b => rankOf a ≤ rankOf b) ∧ ∀ x ∈ tr, Fine x) ∨
  (r = 3 ∧ apps = [] ∧ ∀ x ∈ tr, Fine x) ∨
  (∃ good, (∀ x ∈ good, Fine x) ∧
    ((r = 2 ∧ ∃ x, tr = good ++ [x] ∧ Blocked x) ∨
     (r = 1 ∧ ∃ x, tr = good ++ [x] ∧ (Failed x ∨ Fine x ∧ BadDirectory x)) ∨
     (r = 1 ∧ tr = good ∧ ∃ aid ∈ supported, refusesName aid.value = true)))

theorem sortApps_spec (apps : List App) (h : ∀ a ∈ apps, a.prio ≤ 15) :
    (sortApps apps).Perm apps ∧ (sortApps apps).Pairwise (fun a b => rankOf a ≤ rankOf b) := by
  have hp : (sortApps apps).Perm apps := LL.bySort_perm _ _
  refine ⟨hp, ?_⟩
  refine List.Pairwise.imp_of_mem ?_ (LL.bySort_sorted (fun a : App => Fin.ofNat 16 a.prio) apps)
  intro a b ha hb hab
  have h1 := h a (hp.mem_iff.mp ha)
  have h2 := h b (hp.mem_iff.mp hb)
  simp only [LL.rank, Fin.ofNat, rankOf] at hab ⊢
  rw [Nat.mod_eq_of_lt (by omega), Nat.mod_eq_of_lt (by omega)] at hab
  exact hab

theorem finish_spec (apps : List App) (h : ∀ a ∈ apps, a.prio ≤ 15) (script : List W) :
    ∃ r apps', finish apps script = .ok ([], .done (r, apps') script) ∧ apps'.Perm apps ∧
      ((r = 0 ∧ apps' ≠ [] ∧ apps'.Pairwise (fun a b => rankOf a ≤ rankOf b)) ∨ (r = 3 ∧ apps' = [])) := by
  unfold finish
  cases apps with
  | nil => exact ⟨3, [], rfl, List.Perm.refl _, Or.inr ⟨rfl, rfl⟩⟩
  | cons a l =>
    obtain ⟨h1, h2⟩ := sortApps_spec (a :: l) h
    refine ⟨0, sortApps (a :: l), rfl, h1, Or.inl ⟨rfl, ?_, h2⟩⟩
    intro e
    rw [e] at h1
    exact absurd (List.nil_perm.mp h1) (by simp)

/-- **C42.**  For every card (starting from an empty or earlier list): building the candidate list succeeds
only with a non-empty list in priority order; "not accepted" only with an empty list; and in
both cases no exchange failed and no SELECT was refused as blocked.  A failed exchange ends the
run with "card error", a blocked card with "card blocked", whatever was found before.  "Card
error" has only two other causes: an unreadable directory identifier, and a supported AID that
cannot be sent. -/
theorem C42_outcome (supported : List Tlv) (apps0 : List App) (happs0 : ∀ a ∈ apps0, a.prio ≤ 15)
    (script : List W) (tr : List (Cmd × W)) (r : Int) (apps : List App) (rest : List W)
    (h : build supported apps0 script = .ok (tr, .done (r, apps) rest)) :
    script = tr.map (·.2) ++ rest ∧ BuildPost supported tr r apps := by
  unfold build at h
  cases hr : readPse supported apps0 script with
  | error e => rw [hr] at h; cases h
  | ok x =>
    rw [hr] at h
    match x, hr, h with
    | (tr1, .pending c), hr, h => cases h
    | (tr1, .done (code, apps1) rest1), hr, h =>
      obtain ⟨p1, p2, p3⟩ := readPse_code _ _ _ _ _ _ _ hr
      subst p1
      have hprio : ∀ a ∈ apps1, a.prio ≤ 15 := by
        intro a ha
        rcases p2 a ha with h | h
        · exact happs0 a h
        · exact h
      simp only [andThen, bind_ok] at h
      by_cases hneg : code < 0
      · rw [if_pos hneg] at h
        simp only [fin, bind_ok, Except.ok.injEq, Prod.mk.injEq, Out.done.injEq, List.append_nil] at h
        obtain ⟨rfl, ⟨rfl, rfl⟩, rfl⟩ := h
        refine ⟨rfl, Or.inr (Or.inr ?_)⟩
        rcases p3 with ⟨p3, -⟩ | ⟨good, x, rfl, hg, ⟨rfl, hx⟩ | ⟨rfl, hx⟩ | ⟨rfl, hx, hx'⟩⟩
        · omega
        · exact ⟨good, hg, Or.inl ⟨by simp, x, rfl, hx⟩⟩
        · exact ⟨good, hg, Or.inr (Or.inl ⟨by simp, x, rfl, Or.inl hx⟩)⟩
        · exact ⟨good, hg, Or.inr (Or.inl ⟨by simp, x, rfl, Or.inr ⟨hx, hx'⟩⟩)⟩
      · rw [if_neg hneg] at h
        have hfine : ∀ x ∈ tr1, Fine x := by
          rcases p3 with ⟨-, p3⟩ | ⟨good, x, -, -, ⟨rfl, -⟩ | ⟨rfl, -⟩ | ⟨rfl, -⟩⟩
          · exact p3
          all_goals omega
        cases apps1 with
        | cons a l =>
          simp only [List.isEmpty_cons, Bool.false_eq_true, if_false] at h
          obtain ⟨r', l', f1, f2, f3⟩ := finish_spec (a :: l) hprio rest1
          rw [f1] at h
          simp only [bind_ok, Except.ok.injEq, Prod.mk.injEq, Out.done.injEq, List.append_nil] at h
          obtain ⟨rfl, ⟨rfl, rfl⟩, rfl⟩ := h
          refine ⟨rfl, ?_⟩
          rcases f3 with ⟨rfl, h1, h2⟩ | ⟨rfl, h1⟩
          · exact Or.inl ⟨rfl, h1, h2, hfine⟩
          · exact Or.inr (Or.inl ⟨rfl, h1, hfine⟩)
        | nil =>
          simp only [List.isEmpty_nil, if_true] at h
          have hp := findApps_code rest1 supported true []
          generalize findApps rest1 supported true [] = y at hp h
          match y, hp with
          | .error e, hp => cases h
          | .ok (tr2, .pending c), hp => cases h
          | .ok (tr2, .done (code2, apps2) rest2), ⟨q1, q2, q3⟩ =>
            subst q1
            have hprio2 : ∀ a ∈ apps2, a.prio ≤ 15 := by
              intro a ha
              rcases q2 a ha with h | h
              · cases h
              · exact h
            simp only [bind_ok] at h
            rcases q3 with ⟨rfl, q3⟩ | ⟨good, hg, q3⟩
            · have hall : ∀ x ∈ tr1 ++ tr2, Fine x := by
                intro x hx
                rcases List.mem_append.mp hx with hx | hx
                · exact hfine x hx
                · exact q3 x hx
              simp only [ne_eq, not_true_eq_false, if_false] at h
              obtain ⟨r', l', f1, f2, f3⟩ := finish_spec apps2 hprio2 rest2
              rw [f1] at h
              simp only [bind_ok, Except.ok.injEq, Prod.mk.injEq, Out.done.injEq, List.append_nil] at h
              obtain ⟨rfl, ⟨rfl, rfl⟩, rfl⟩ := h
              refine ⟨by simp, ?_⟩
              rcases f3 with ⟨rfl, h1, h2⟩ | ⟨rfl, h1⟩
              · exact Or.inl ⟨rfl, h1, h2, hall⟩
              · exact Or.inr (Or.inl ⟨rfl, h1, hall⟩)
            · have hall : ∀ x ∈ tr1 ++ good, Fine x := by
                intro x hx
                rcases List.mem_append.mp hx with hx | hx
                · exact hfine x hx
                · exact hg x hx
              have hc : code2 ≠ 0 := by
                rcases q3 with ⟨rfl, -⟩ | ⟨rfl, -⟩ | ⟨rfl, -⟩ <;> decide
              rw [if_pos hc] at h
              simp only [fin, bind_ok, Except.ok.injEq, Prod.mk.injEq, Out.done.injEq, List.append_nil] at h
              obtain ⟨rfl, ⟨rfl, rfl⟩, rfl⟩ := h
              refine ⟨by simp, Or.inr (Or.inr ⟨tr1 ++ good, hall, ?_⟩)⟩
              rcases q3 with ⟨rfl, x, rfl, hx⟩ | ⟨rfl, x, rfl, hx⟩ | ⟨rfl, rfl, hx⟩
              · exact Or.inl ⟨by simp, x, by simp, hx⟩
              · exact Or.inr (Or.inl ⟨by simp, x, by simp, Or.inl hx⟩)
              · exact Or.inr (Or.inr ⟨by simp, rfl, hx⟩)

/-- **C42** (blocked and failed).  The outcome is "card blocked" exactly when some SELECT was
refused with 6A81; and any failed exchange gives "card error". -/
theorem C42_blocked_iff (supported : List Tlv) (apps0 : List App) (happs0 : ∀ a ∈ apps0, a.prio ≤ 15)
    (script : List W) (tr : List (Cmd × W)) (r : Int) (apps : List App) (rest : List W)
    (h : build supported apps0 script = .ok (tr, .done (r, apps) rest)) :
    (r = 2 ↔ ∃ x ∈ tr, Blocked x) ∧ ((∃ x ∈ tr, Failed x) → r = 1) := by
  obtain ⟨-, hp⟩ := C42_outcome _ _ happs0 _ _ _ _ _ h
  have hfb : ∀ x, Failed x → ¬ Blocked x := fun x hf hb => hf hb.1
  have hff : ∀ x, Fine x → ¬ Failed x := fun x hf hb => hb hf.1
  rcases hp with ⟨rfl, -, -, hp⟩ | ⟨rfl, -, hp⟩ | ⟨good, hg, ⟨rfl, x, rfl, hx⟩ | ⟨rfl, x, rfl, hx⟩ | ⟨rfl, rfl, hx⟩⟩
  · exact ⟨⟨fun h => absurd h (by decide), fun ⟨x, hx, hb⟩ => absurd hb (hp x hx).2⟩,
      fun ⟨x, hx, hb⟩ => absurd hb (hff x (hp x hx))⟩
  · exact ⟨⟨fun h => absurd h (by decide), fun ⟨x, hx, hb⟩ => absurd hb (hp x hx).2⟩,
      fun ⟨x, hx, hb⟩ => absurd hb (hff x (hp x hx))⟩
  · refine ⟨⟨fun _ => ⟨x, by simp, hx⟩, fun _ => rfl⟩, fun ⟨y, hy, hb⟩ => ?_⟩
    rcases List.mem_append.mp hy with hy | hy
    · exact absurd hb (hff y (hg y hy))
    · rw [List.mem_singleton.mp hy] at hb
      exact absurd hx (hfb x hb)
  · refine ⟨⟨fun h => absurd h (by decide), fun ⟨y, hy, hb⟩ => ?_⟩, fun _ => rfl⟩
    rcases List.mem_append.mp hy with hy | hy
    · exact absurd hb (hg y hy).2
    · rw [List.mem_singleton.mp hy] at hb
      rcases hx with hx | hx
      · exact absurd hb (hfb x hx)
      · exact absurd hb hx.1.2
  · exact ⟨⟨fun h => absurd h (by decide), fun ⟨x, hx, hb⟩ => absurd hb (hg x hx).2⟩, fun _ => rfl⟩

/-- Building the candidate list runs into undefined behaviour only with a card that answers
SELECT with 9000 or 6283 and no data (`C32_find_empty_fci`). -/
theorem C42_safe (supported : List Tlv) (apps : List App) (script : List W)
    (hne : ∀ w ∈ script, ¬ Bare w) : C.Safe (build supported apps script) := by
  unfold build
  obtain ⟨⟨x, hx⟩, -⟩ := C32_pse_sound supported apps script
  rw [hx]
  match x, hx with
  | (tr, .pending c), hx => exact ⟨_, rfl⟩
  | (tr, .done (code, apps1) rest), hx =>
    obtain ⟨p1, -⟩ := readPse_code _ _ _ _ _ _ _ hx
    have hfin : ∀ l (s : List W), ∃ x, finish l s = .ok x := by
      intro l s; unfold finish; split <;> exact ⟨_, rfl⟩
    simp only [andThen, bind_ok]
    split
    · exact ⟨_, rfl⟩
    · split
      · have hp := findApps_code rest supported true apps1
        generalize findApps rest supported true apps1 = y at hp
        match y, hp with
        | .error e, ⟨_, w, hw, hd⟩ => exact absurd hd (hne w (by rw [p1]; simp [hw]))
        | .ok (tr2, .pending c), hp => exact ⟨_, rfl⟩
        | .ok (tr2, .done (code2, apps2) rest2), hp =>
          simp only [bind_ok]
          split
          · exact ⟨_, rfl⟩
          · obtain ⟨x, hx⟩ := hfin apps2 rest2
            rw [hx]
            exact ⟨_, rfl⟩
      · obtain ⟨x, hx⟩ := hfin apps1 rest
        rw [hx]
        exact ⟨_, rfl⟩

/-- No PSE, then the application is found by its AID. -/
example : (build [⟨0x9F06, 0, [0xA0, 0, 0, 0, 3]⟩] [] [⟨0, [], 0x6A82⟩,
      ⟨0, [0x6F, 0x07, 0x84, 0x05, 0xA0, 0, 0, 0, 3], 0x9000⟩]).toOption.map (fun r => match r.2 with
      | .done (c, l) _ => (c, l.map (fun a => a.aid.value)) | _ => (1, [])) =
    some (0, [[0xA0, 0, 0, 0, 3]]) := by decide +kernel

end Verif.Emv
