import Verif.TraceChain

/-! # Lemmas on the last event of a call of the kernel -/

set_option autoImplicit false

namespace Verif.Trace
open Verif Ber TlvParse App Fields Tal

/-- What a call of the kernel that returns `c`, not 0, says at last. -/
def Reason (c : Int) (e : Event) : Prop :=
  e.source = 4 ∧
  (if c = 3 then e.level = 2 ∧ e.text = txt!"Candidate list empty"
   else if c = 4 then e.level = 2 ∧ e.text = txt!"Failed to select application; continue session"
   else if c = 5 then e.level = 2 ∧ e.text = txt!"Failed to initiate application processing"
   else e.level = 1)

/-- A call that does not return 0 says why at last; one that returns 0 reports no error of the
kernel. -/
def Expl {α : Type} (code : α → Int) (x : C (Tr α)) : Prop :=
  ∀ l a rest, x = .ok (l, .done a rest) →
    (code a ≠ 0 → ∃ e, l.getLast? = some (.said e) ∧ Reason (code a) e) ∧
    (code a = 0 → ∀ e, Entry.said e ∈ l → ¬ (e.source = 4 ∧ e.level = 1))

variable {α β : Type} {code : α → Int}

theorem expl_fin {a : α} {rest : List W} (h : code a = 0) : Expl code (fin a rest) := by
  intro l b r e
  cases e
  exact ⟨fun hc => absurd h hc, fun _ e he => by cases he⟩

theorem expl_last {a : α} {rest : List W} {ev : Event} (h : code a ≠ 0) (hr : Reason (code a) ev) :
    Expl code (says [ev] (fin a rest)) := by
  intro l b r e
  cases e
  exact ⟨fun _ => ⟨ev, rfl, hr⟩, fun hc => absurd hc h⟩

theorem expl_says {es : List Event} {x : C (Tr α)}
    (hs : ∀ e ∈ es, ¬ (e.source = 4 ∧ e.level = 1)) (h : Expl code x) :
    Expl code (says es x) := by
  intro l a rest e
  cases x with
  | error u => cases e
  | ok q =>
    obtain ⟨l', o⟩ := q
    cases e
    obtain ⟨h1, h2⟩ := h _ _ _ rfl
    refine ⟨fun hc => ?_, fun hc e he => ?_⟩
    · obtain ⟨ev, hl, hr⟩ := h1 hc
      exact ⟨ev, by simp [List.getLast?_append, hl], hr⟩
    · simp only [List.mem_append, List.mem_map, Entry.said.injEq, exists_eq_right] at he
      rcases he with he | he
      · exact hs e he
      · exact h2 hc e he

theorem expl_error {u : UB} : Expl code (.error u : C (Tr α)) := by
  intro l a rest e; cases e

theorem expl_bind {x : C β} {f : β → C (Tr α)} (h : ∀ b, x = .ok b → Expl code (f b)) :
    Expl code (x >>= f) := by
  intro l a rest e
  cases x with
  | error u => cases e
  | ok b => exact h b rfl l a rest e

theorem expl_ite {c : Prop} [Decidable c] {x y : C (Tr α)} (hx : c → Expl code x)
    (hy : ¬ c → Expl code y) : Expl code (if c then x else y) := by
  split
  · exact hx ‹_›
  · exact hy ‹_›

theorem expl_andThen {dir : Bool} {x : C (Tr β)} {f : β → List W → C (Tr α)}
    (hx : Good Tal' dir none x)
    (hf : ∀ a rest l, x = .ok (l, .done a rest) → Expl code (f a rest)) :
    Expl code (andThen x f) := by
  intro l a rest e
  cases x with
  | error u => cases e
  | ok q =>
    obtain ⟨l1, o⟩ := q
    cases o with
    | pending cmd => cases e
    | done b r1 =>
      simp only [andThen, bind_ok] at e
      cases hq : f b r1 with
      | error u => rw [hq] at e; cases e
      | ok q =>
        obtain ⟨l2, o2⟩ := q
        rw [hq] at e
        cases e
        obtain ⟨h1, h2⟩ := hf b r1 l1 rfl _ _ _ hq
        refine ⟨fun hc => ?_, fun hc e he => ?_⟩
        · obtain ⟨ev, hl, hr⟩ := h1 hc
          exact ⟨ev, by simp [List.getLast?_append, hl], hr⟩
        · simp only [List.mem_append] at he
          rcases he with he | he
          · have h4 := chain_mem (hx _ _ rfl) e (by simp [he])
            rintro ⟨h4', _⟩
            exact absurd (h4.1.symm.trans h4') (by decide)
          · exact h2 hc e he

theorem quiet1 {e : Event} (h : ¬ (e.source = 4 ∧ e.level = 1)) :
    ∀ e' ∈ [e], ¬ (e'.source = 4 ∧ e'.level = 1) := by
  simpa using h

/-! ## The calls -/

theorem expl_finish (apps : List App) (script : List W) :
    Expl (·.1) (finish apps script) := by
  unfold finish
  exact expl_ite (fun _ => expl_last (by simp) ⟨rfl, rfl, rfl⟩) (fun _ => expl_fin rfl)

theorem expl_two (c : Int) (apps : List App) (script : List W) (text : List Byte) :
    Expl (·.1) (says [error 4 text] (fin ((if c = -4 then 2 else 1 : Int), apps) script)) := by
  by_cases h : c = -4
  · rw [if_pos h]; exact expl_last (by simp) ⟨rfl, rfl⟩
  · rw [if_neg h]; exact expl_last (by simp) ⟨rfl, rfl⟩

theorem expl_build (junk : Nat → Nat) (supported : List Tlv) (apps : List App)
    (script : List W) : Expl (·.1) (build junk supported apps script) := by
  unfold build
  refine expl_says (quiet1 (by decide)) ?_
  refine expl_andThen (good_readPse _ _ _ _) fun a rest l _ => ?_
  refine expl_ite (fun _ => expl_two _ _ _ _) (fun _ => ?_)
  refine expl_says ?_ ?_
  · split <;> simp [info]
  refine expl_ite (fun _ => ?_) (fun _ => expl_finish _ _)
  refine expl_says (quiet1 (by decide)) ?_
  refine expl_andThen (dir := true) (good_findApps _ _ _ _) fun a rest l _ => ?_
  exact expl_ite (fun _ => expl_two _ _ _ _) (fun _ => expl_finish _ _)

theorem expl_select (ctx : Emv.Ctx) (apps : List App) (index : Nat) (script : List W)
    (h16 : ∀ a, apps[index]? = some a → a.aid.value.length > 16 → (apps.eraseIdx index).isEmpty) :
    Expl (·.1) (select ctx apps index script) := by
  unfold select
  cases ha : apps[index]? with
  | none => exact expl_last (by simp) ⟨rfl, rfl⟩
  | some a =>
    refine expl_ite (fun hl => ?_) (fun _ => ?_)
    · unfold tryAgain
      rw [if_pos (h16 a ha hl)]
      exact expl_last (by simp) ⟨rfl, rfl, rfl⟩
    · refine expl_andThen (dir := false) (good_selectApp _ _) fun x rest l _ => ?_
      refine expl_ite (fun _ => ?_) (fun _ => ?_)
      · by_cases h : x.1 = -4
        · rw [if_pos h]; exact expl_last (by simp) ⟨rfl, rfl⟩
        · rw [if_neg h]; exact expl_last (by simp) ⟨rfl, rfl⟩
      · refine expl_ite (fun _ => ?_) (fun _ => expl_fin rfl)
        unfold tryAgain
        by_cases he : (apps.eraseIdx index).isEmpty = true
        · rw [if_pos he]
          exact expl_says (quiet1 (by decide)) (expl_last (by simp) ⟨rfl, rfl, rfl⟩)
        · rw [if_neg he]
          exact expl_last (by simp) ⟨rfl, rfl, rfl⟩

theorem gpoFields_code {alloc : List Tlv → Tlv → Bool} {data : List Byte} {es : List Event}
    {c : Int} (h : gpoFields alloc data = .ok (es, .error c)) : c < 0 := by
  unfold gpoFields at h
  cases hd : decode data with
  | error u => rw [hd] at h; cases h
  | ok d =>
    rw [hd] at h
    simp only [bind_ok] at h
    cases d with
    | eod => cases h; decide
    | err n => cases h; decide
    | ok n t =>
      simp only at h
      split at h
      · split at h
        · cases h; decide
        · cases h1 : slice t.value 0 2 with
          | error u => rw [h1] at h; cases h
          | ok a =>
            rw [h1] at h
            simp only [bind_ok] at h
            cases h2 : slice t.value 2 (t.value.length - 2) with
            | error u => rw [h2] at h; cases h
            | ok f =>
              rw [h2] at h
              simp only [bind_ok] at h
              repeat' split at h
              all_goals first | (cases h; decide) | cases h
      · split at h
        · cases hp : parse alloc t.value [] with
          | error u => rw [hp] at h; cases h
          | ok q =>
            rw [hp] at h
            simp only [bind_ok] at h
            repeat' split at h
            all_goals first | (cases h; decide) | cases h
        · cases h

theorem says_inv {α : Type} {es : List Event} {x : C (Tr α)} {l : List Entry} {o : Out α}
    (h : says es x = .ok (l, o)) : ∃ l', x = .ok (l', o) ∧ l = es.map Entry.said ++ l' := by
  cases x with
  | error u => cases h
  | ok q => cases h; exact ⟨_, rfl, rfl⟩

theorem did_inv {α : Type} {cmd : Cmd} {w : W} {x : C (Tr α)} {l : List Entry} {o : Out α}
    (h : did cmd w x = .ok (l, o)) : ∃ l', x = .ok (l', o) ∧ l = .did cmd w :: l' := by
  cases x with
  | error u => cases h
  | ok q => cases h; exact ⟨_, rfl, rfl⟩

theorem gpo_code {alloc : List Tlv → Tlv → Bool} {data : Option (List Byte)} {list : List Tlv}
    {script : List W} {l : List Entry} {g : Gpo} {rest : List W}
    (h : gpo alloc data list script = .ok (l, .done g rest)) (hg : 0 < g.code) : g.code = 13 := by
  unfold gpo at h
  split at h
  · cases h; simp at hg
  obtain ⟨l, h, _⟩ := says_inv h
  unfold send at h
  split at h
  · replace h := (if_pos (by decide : (-3 : Int) ≠ 0)).symm.trans h
    obtain ⟨l, h, _⟩ := says_inv h
    cases h; simp at hg
  cases script with
  | nil => cases h
  | cons w rest' =>
    obtain ⟨l, h, _⟩ := did_inv h
    simp only at h
    split at h
    · obtain ⟨l, h, _⟩ := says_inv h
      cases h; simp at hg
    split at h
    · split at h
      · obtain ⟨l, h, _⟩ := says_inv h
        cases h; rfl
      · obtain ⟨l, h, _⟩ := says_inv h
        cases h; simp at hg
    obtain ⟨l, h, _⟩ := says_inv h
    cases hf : gpoFields alloc w.data with
    | error u => rw [hf] at h; cases h
    | ok q =>
      obtain ⟨es, r⟩ := q
      rw [hf] at h
      simp only [bind_ok] at h
      cases r with
      | error c =>
        obtain ⟨l, h, _⟩ := says_inv h
        cases h
        have := gpoFields_code hf
        simp only at hg
        omega
      | ok fl =>
        obtain ⟨l, h, _⟩ := says_inv h
        cases ha : find fl 0x82 with
        | none =>
          rw [ha] at h
          obtain ⟨l, h, _⟩ := says_inv h
          cases h; simp at hg
        | some a =>
          rw [ha] at h
          simp only at h
          cases hb : find fl 0x94 with
          | none =>
            rw [hb] at h
            obtain ⟨l, h, _⟩ := says_inv h
            cases h; simp at hg
          | some f => rw [hb] at h; cases h; simp at hg

theorem expl_initiate (alloc : List Tlv → Tlv → Bool) (buf : List Byte) (ctx : Emv.Ctx)
    (pos : Byte) (script : List W) : Expl (·.1) (initiate alloc buf ctx pos script) := by
  unfold initiate
  cases ctx.selected with
  | none => exact expl_last (by simp) ⟨rfl, rfl⟩
  | some s0 =>
    simp only
    cases ctx.clearIcc.selected with
    | none => exact expl_error
    | some s =>
      refine expl_ite (fun _ => expl_last (by simp) ⟨rfl, rfl⟩) (fun _ => ?_)
      refine expl_ite (fun _ => expl_error) (fun _ => ?_)
      refine expl_ite (fun _ => expl_last (by simp) ⟨rfl, rfl⟩) (fun _ => ?_)
      refine expl_bind fun b hb => ?_
      obtain ⟨es, r⟩ := b
      obtain ⟨k1, k2, k3⟩ := gpoData_events hb
      cases r with
      | error c =>
        obtain ⟨hc1, e, hl, he⟩ := k3 c rfl
        intro l a rest hh
        obtain ⟨l', hh, hl'⟩ := says_inv hh
        cases hh
        refine ⟨fun _ => ⟨e, ?_, ?_⟩, fun hc => ?_⟩
        · rw [hl', List.append_nil, List.getLast?_map, hl]; rfl
        · refine ⟨(k1 e (List.mem_of_getLast? hl)).1.1, ?_⟩
          rcases hc1 with rfl | rfl <;> exact he
        · rcases hc1 with rfl | rfl <;> cases hc
      | ok data =>
        refine expl_says (fun e he h => k2 data rfl e he h.2) ?_
        refine expl_andThen (dir := false) (good_gpo _ _ _ _) fun g rest l hg => ?_
        refine expl_ite (fun _ => ?_) (fun _ => ?_)
        · by_cases h : g.code = -1 ∨ g.code = -2
          · rw [if_pos h]; exact expl_last (by simp) ⟨rfl, rfl⟩
          · rw [if_neg h]; exact expl_last (by simp) ⟨rfl, rfl⟩
        · refine expl_ite (fun hp => ?_) (fun _ => expl_fin rfl)
          rw [if_pos (gpo_code hg hp)]
          exact expl_last (by simp) ⟨rfl, rfl, rfl⟩

theorem expl_readData (alloc : List Tlv → Tlv → Bool) (ctx : Emv.Ctx) (script : List W) :
    Expl (·.1) (readData alloc ctx script) := by
  unfold readData
  cases find ctx.icc 0x94 with
  | none => exact expl_last (by simp) ⟨rfl, rfl⟩
  | some afl =>
    refine expl_andThen (dir := false) (good_readAfl _ _ _ _) fun a rest l _ => ?_
    refine expl_ite (fun _ => ?_) (fun _ => ?_)
    · by_cases h : a.1 = -1 ∨ a.1 = -2
      · rw [if_pos h]; exact expl_last (by simp) ⟨rfl, rfl⟩
      · rw [if_neg h]; exact expl_last (by simp) ⟨rfl, rfl⟩
    refine expl_ite (fun _ => expl_last (by simp) ⟨rfl, rfl⟩) (fun _ => ?_)
    refine expl_ite (fun _ => expl_last (by simp) ⟨rfl, rfl⟩) (fun _ => ?_)
    exact expl_ite (fun _ => expl_last (by simp) ⟨rfl, rfl⟩) (fun _ => expl_fin rfl)

/-! ## Calls without errors -/

/-- A run whose result has code 0 reports no error at all. -/
def Clean {α : Type} (code : α → Int) (x : C (Tr α)) : Prop :=
  ∀ l a rest, x = .ok (l, .done a rest) → code a = 0 → ∀ e, Entry.said e ∈ l → e.level ≠ 1

theorem clean_end {es : List Event} {a : α} {rest : List W} (h : code a ≠ 0) :
    Clean code (says es (fin a rest)) := by
  intro l b r e hc
  obtain ⟨l', e, _⟩ := says_inv e
  cases e
  exact absurd hc h

theorem clean_fin {a : α} {rest : List W} : Clean code (fin a rest) := by
  intro l b r e _ ev he
  cases e
  cases he

theorem clean_says {es : List Event} {x : C (Tr α)} (hs : ∀ e ∈ es, e.level ≠ 1)
    (h : Clean code x) : Clean code (says es x) := by
  intro l a rest e hc ev he
  obtain ⟨l', e, hl⟩ := says_inv e
  rw [hl] at he
  simp only [List.mem_append, List.mem_map, Entry.said.injEq, exists_eq_right] at he
  rcases he with he | he
  · exact hs ev he
  · exact h _ _ _ e hc ev he

theorem clean_did {cmd : Cmd} {w : W} {x : C (Tr α)} (h : Clean code x) :
    Clean code (did cmd w x) := by
  intro l a rest e hc ev he
  obtain ⟨l', e, hl⟩ := did_inv e
  rw [hl] at he
  simp only [List.mem_cons, reduceCtorEq, false_or] at he
  exact h _ _ _ e hc ev he

theorem clean_error {u : UB} : Clean code (.error u : C (Tr α)) := by
  intro l a rest e; cases e

theorem clean_bind {x : C β} {f : β → C (Tr α)} (h : ∀ b, x = .ok b → Clean code (f b)) :
    Clean code (x >>= f) := by
  intro l a rest e
  cases x with
  | error u => cases e
  | ok b => exact h b rfl l a rest e

theorem clean_ite {c : Prop} [Decidable c] {x y : C (Tr α)} (hx : c → Clean code x)
    (hy : ¬ c → Clean code y) : Clean code (if c then x else y) := by
  split
  · exact hx ‹_›
  · exact hy ‹_›

theorem clean_andThen {code' : β → Int} {x : C (Tr β)} {f : β → List W → C (Tr α)}
    (hx : Clean code' x) (hf : ∀ b rest, Clean code (f b rest))
    (hz : ∀ b rest l a r, f b rest = .ok (l, .done a r) → code a = 0 → code' b = 0) :
    Clean code (andThen x f) := by
  intro l a rest e hc ev he
  cases x with
  | error u => cases e
  | ok q =>
    obtain ⟨l1, o⟩ := q
    cases o with
    | pending cmd => cases e
    | done b r1 =>
      simp only [andThen, bind_ok] at e
      cases hq : f b r1 with
      | error u => rw [hq] at e; cases e
      | ok q =>
        obtain ⟨l2, o2⟩ := q
        rw [hq] at e
        cases e
        simp only [List.mem_append] at he
        rcases he with he | he
        · exact hx _ _ _ rfl (hz _ _ _ _ _ hq hc) ev he
        · exact hf _ _ _ _ _ hq hc ev he

theorem gpoFields_clean {alloc : List Tlv → Tlv → Bool} {data : List Byte} {es : List Event}
    {l : List Tlv} (h : gpoFields alloc data = .ok (es, .ok l)) : ∀ e ∈ es, e.level ≠ 1 := by
  unfold gpoFields at h
  cases hd : decode data with
  | error u => rw [hd] at h; cases h
  | ok d =>
    rw [hd] at h
    simp only [bind_ok] at h
    cases d with
    | eod => cases h
    | err n => cases h
    | ok n t =>
      simp only at h
      split at h
      · split at h
        · cases h
        · cases h1 : slice t.value 0 2 with
          | error u => rw [h1] at h; cases h
          | ok a =>
            rw [h1] at h
            simp only [bind_ok] at h
            cases h2 : slice t.value 2 (t.value.length - 2) with
            | error u => rw [h2] at h; cases h
            | ok f =>
              rw [h2] at h
              simp only [bind_ok] at h
              repeat' split at h
              all_goals (cases h; try simp [infoData])
      · split at h
        · cases hp : parse alloc t.value [] with
          | error u => rw [hp] at h; cases h
          | ok q =>
            rw [hp] at h
            simp only [bind_ok] at h
            repeat' split at h
            all_goals (cases h; try simp)
        · cases h; simp

theorem clean_gpo (alloc : List Tlv → Tlv → Bool) (data : Option (List Byte)) (list : List Tlv)
    (script : List W) : Clean Gpo.code (gpo alloc data list script) := by
  unfold gpo
  refine clean_ite (fun _ => clean_fin) (fun _ => clean_says (by simp [gpoEv, infoData]) ?_)
  unfold send
  refine clean_ite (fun _ => ?_) (fun _ => ?_)
  · show Clean Gpo.code (if (-3 : Int) ≠ 0 then _ else _)
    rw [if_pos (by decide)]
    exact clean_end (by simp)
  cases script with
  | nil => intro l a rest e; cases e
  | cons w rest =>
    refine clean_did ?_
    refine clean_ite (fun _ => clean_end (by simp)) (fun _ => ?_)
    refine clean_ite (fun _ => clean_ite (fun _ => clean_end (by simp))
      (fun _ => clean_end (by simp))) (fun _ => ?_)
    refine clean_says (by simp [infoTlv]) ?_
    refine clean_bind fun b hb => ?_
    obtain ⟨es, r⟩ := b
    cases r with
    | error c => exact clean_end (by have := gpoFields_code hb; simp only; omega)
    | ok l =>
      refine clean_says (gpoFields_clean hb) ?_
      cases find l 0x82 with
      | none => exact clean_end (by simp)
      | some a =>
        cases find l 0x94 with
        | none => exact clean_end (by simp)
        | some f => exact clean_fin

theorem clean_initiate (alloc : List Tlv → Tlv → Bool) (buf : List Byte) (ctx : Emv.Ctx)
    (pos : Byte) (script : List W) : Clean (·.1) (initiate alloc buf ctx pos script) := by
  unfold initiate
  cases ctx.selected with
  | none => exact clean_end (by simp)
  | some s0 =>
    simp only
    cases ctx.clearIcc.selected with
    | none => exact clean_error
    | some s =>
      refine clean_ite (fun _ => clean_end (by simp)) (fun _ => ?_)
      refine clean_ite (fun _ => clean_error) (fun _ => ?_)
      refine clean_ite (fun _ => clean_end (by simp)) (fun _ => ?_)
      refine clean_bind fun b hb => ?_
      obtain ⟨es, r⟩ := b
      obtain ⟨_, k2, k3⟩ := gpoData_events hb
      cases r with
      | error c =>
        refine clean_end ?_
        obtain ⟨h | h, _⟩ := k3 c rfl <;> simp [h]
      | ok data =>
        refine clean_says (k2 data rfl) ?_
        refine clean_andThen (code' := Gpo.code) (clean_gpo _ _ _ _) (fun g rest => ?_)
          (fun g rest l a r hg ha => ?_)
        · refine clean_ite (fun _ => clean_end ?_) (fun _ => clean_ite (fun _ => clean_end ?_)
            (fun _ => clean_fin))
          · split <;> simp
          · split <;> simp
        · split at hg
          · obtain ⟨_, hg, _⟩ := says_inv hg
            by_cases h : g.code = -1 ∨ g.code = -2 <;> simp only [h, fin, if_true, if_false] at hg <;>
              (cases hg; simp at ha)
          · split at hg
            · obtain ⟨_, hg, _⟩ := says_inv hg
              by_cases h : g.code = 13 <;> simp only [h, fin, if_true, if_false] at hg <;>
                (cases hg; simp at ha)
            · omega

end Verif.Trace
