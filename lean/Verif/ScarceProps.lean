import Verif.Scarce
import Verif.MemoryProps

/-!
# C158: lack of memory while applications are found and selected
-/

set_option autoImplicit false

namespace Verif.Scarce
open Verif Ber TlvParse App Tal Emv

/-! ## Specification -/

/-- `y` is the run `x` - the same commands, code and answers left - but for applications missing from its list; the order
is kept. -/
def Fewer (x y : C (Run (Int × List App))) : Prop :=
  match x with
  | .error _ => True
  | .ok (tr, .pending c) => y = .ok (tr, .pending c)
  | .ok (tr, .done a rest) => ∃ l, y = .ok (tr, .done (a.1, l) rest) ∧ l.Sublist a.2

/-! ## Lemmas -/

theorem fewer_fin (c : Int) {l l' : List App} (rest : List W) (h : l'.Sublist l) : Fewer (fin (c, l) rest) (fin (c, l') rest) :=
  ⟨l', rfl, h⟩

theorem fewer_log {x y : C (Run (Int × List App))} (c : Cmd) (w : W) (h : Fewer x y) : Fewer (log c w x) (log c w y) := by
  match x, h with
  | .error _, _ => trivial
  | .ok (tr, .pending p), h =>
    have h : y = .ok (tr, .pending p) := h
    subst h
    exact rfl
  | .ok (tr, .done a rest), ⟨l, e, hs⟩ =>
    subst e
    exact ⟨l, rfl, hs⟩

/-- A directory entry with limited memory: the same application or none. -/
theorem createFromPse_lacks (m : Mem) (pse : List Tlv) (entry : List Byte) :
    createFromPse m pse entry = App.createFromPse pse entry ∨ createFromPse m pse entry = .ok none := by
  unfold createFromPse App.createFromPse
  split
  · exact .inr rfl
  · rcases Memory.parse_lacks m.fields entry [] with e | ⟨l, e⟩
    · rw [e]; exact .inl rfl
    · rw [e]; exact .inr rfl

/-- An FCI with limited memory: the same application or none. -/
theorem createFromFci_lacks (m : Mem) (fci : List Byte) :
    createFromFci m fci = App.createFromFci fci ∨ createFromFci m fci = .ok none := by
  unfold createFromFci App.createFromFci
  split
  · exact .inr rfl
  · match decode fci with
    | .error e => exact .inl rfl
    | .ok .eod => exact .inl rfl
    | .ok (.err _) => exact .inl rfl
    | .ok (.ok n t) =>
      simp only [bind_ok]
      split
      · exact .inl rfl
      · split
        · exact .inl rfl
        · rcases Memory.parse_lacks m.fields t.value [] with e | ⟨l, e⟩
          · rw [e]; exact .inl rfl
          · rw [e]; exact .inr rfl

theorem aefLoop_fewer (m : Nat → Mem) (pse supported : List Tlv) : ∀ (fuel : Nat) (itr : List Byte) (l' l b : List App),
    l'.Sublist l → Tal.aefLoop pse supported fuel itr l = .ok b →
    ∃ b', aefLoop m pse supported fuel itr l' = .ok b' ∧ b'.Sublist b := by
  intro fuel
  induction fuel with
  | zero => intro itr l' l b _ h; cases h
  | succ fuel ih =>
    intro itr l' l b hs h
    unfold Tal.aefLoop at h
    unfold aefLoop
    match hi : itrNext itr with
    | .error e => rw [hi] at h; cases h
    | .ok (itr', .eod) => rw [hi] at h; cases h; exact ⟨l', rfl, hs⟩
    | .ok (itr', .err _) => rw [hi] at h; cases h; exact ⟨l', rfl, hs⟩
    | .ok (itr', .ok n t) =>
      rw [hi] at h
      simp only [bind_ok] at h ⊢
      by_cases ht : t.tag ≠ 0x61
      · rw [if_pos ht] at h ⊢
        exact ih _ _ _ _ hs h
      · rw [if_neg ht] at h ⊢
        match hc : App.createFromPse pse t.value with
        | .error e => rw [hc] at h; cases h
        | .ok none =>
          rw [hc] at h
          have e : createFromPse (m fuel) pse t.value = .ok none := by
            rcases createFromPse_lacks (m fuel) pse t.value with e | e
            · rw [e, hc]
            · exact e
          rw [e]
          exact ih _ _ _ _ hs h
        | .ok (some app) =>
          rw [hc] at h
          simp only [bind_ok] at h
          match hq : App.isSupported app.aid.value supported with
          | .error e => rw [hq] at h; cases h
          | .ok q =>
            rw [hq] at h
            simp only [bind_ok] at h
            rcases createFromPse_lacks (m fuel) pse t.value with e | e
            · rw [e, hc]
              simp only [bind_ok, hq]
              cases q with
              | true => exact ih _ _ _ _ (hs.append (List.Sublist.refl _)) h
              | false => exact ih _ _ _ _ hs h
            · rw [e]
              simp only [bind_ok]
              cases q with
              | true => exact ih _ _ _ _ (hs.trans (List.sublist_append_left _ _)) h
              | false => exact ih _ _ _ _ hs h

theorem aefRecord_fewer (m : Nat → Mem) (pse supported : List Tlv) (data : List Byte) (l' l : List App) (r : Int)
    (b : List App) (hs : l'.Sublist l) (h : Tal.aefRecord pse supported data l = .ok (r, b)) :
    ∃ b', aefRecord m pse supported data l' = .ok (r, b') ∧ b'.Sublist b := by
  unfold Tal.aefRecord at h
  unfold aefRecord
  match hd : decode data with
  | .error e => rw [hd] at h; cases h
  | .ok .eod => rw [hd] at h; cases h; exact ⟨l', rfl, hs⟩
  | .ok (.err _) => rw [hd] at h; cases h; exact ⟨l', rfl, hs⟩
  | .ok (.ok n t) =>
    rw [hd] at h
    simp only [bind_ok] at h ⊢
    by_cases ht : t.tag ≠ 0x70
    · rw [if_pos ht] at h ⊢; cases h; exact ⟨l', rfl, hs⟩
    · rw [if_neg ht] at h ⊢
      match hl : Tal.aefLoop pse supported (t.value.length + 1) t.value l with
      | .error e => rw [hl] at h; cases h
      | .ok c =>
        rw [hl] at h
        cases h
        obtain ⟨b', e, hb⟩ := aefLoop_fewer m pse supported _ _ _ _ _ hs hl
        exact ⟨b', by rw [e]; rfl, hb⟩

theorem pseLoop_fewer (m : Nat → Nat → Mem) (pse supported : List Tlv) (sfi : Byte) : ∀ (script : List W) (rec : Byte)
    (l' l : List App), l'.Sublist l →
    Fewer (Tal.pseLoop pse supported sfi script rec l) (pseLoop m pse supported sfi script rec l') := by
  intro script
  induction script with
  | nil =>
    intro rec l' l hs
    unfold Tal.pseLoop pseLoop
    split
    · exact fewer_fin _ _ (List.Sublist.refl _)
    · exact rfl
  | cons w rest ih =>
    intro rec l' l hs
    unfold Tal.pseLoop pseLoop
    split
    · exact fewer_fin _ _ (List.Sublist.refl _)
    · refine fewer_log _ _ ?_
      split
      · exact fewer_fin _ _ (List.Sublist.refl _)
      · split
        · exact fewer_fin _ _ hs
        · split
          · exact ih _ _ _ hs
          · match hr : Tal.aefRecord pse supported w.data l with
            | .error e => exact trivial
            | .ok (r, b) =>
              obtain ⟨b', e, hb⟩ := aefRecord_fewer (m rest.length) pse supported w.data l' l r b hs hr
              rw [e]
              simp only [bind_ok]
              split
              · exact fewer_fin _ _ (List.Sublist.refl _)
              · exact ih _ _ _ hb

theorem fewer_refl (x : C (Run (Int × List App))) : Fewer x x := by
  match x with
  | .error _ => trivial
  | .ok (tr, .pending c) => exact rfl
  | .ok (tr, .done a rest) => exact ⟨a.2, rfl, List.Sublist.refl _⟩

/-! ## With enough memory these are the functions of `Tal` and `Emv` -/

theorem createFromPse_plenty (pse : List Tlv) (entry : List Byte) : createFromPse plenty pse entry = App.createFromPse pse entry :=
  rfl

theorem createFromFci_plenty (fci : List Byte) : createFromFci plenty fci = App.createFromFci fci := rfl

theorem aefLoop_plenty (pse supported : List Tlv) : ∀ (fuel : Nat) (itr : List Byte) (l : List App),
    aefLoop (fun _ => plenty) pse supported fuel itr l = Tal.aefLoop pse supported fuel itr l := by
  intro fuel
  induction fuel with
  | zero => intro itr l; rfl
  | succ fuel ih =>
    intro itr l
    unfold aefLoop Tal.aefLoop
    simp only [createFromPse_plenty, ih]
    rfl

theorem pseLoop_plenty (pse supported : List Tlv) (sfi : Byte) : ∀ (script : List W) (rec : Byte) (l : List App),
    pseLoop (fun _ _ => plenty) pse supported sfi script rec l = Tal.pseLoop pse supported sfi script rec l := by
  intro script
  induction script with
  | nil => intro rec l; unfold pseLoop Tal.pseLoop; rfl
  | cons w rest ih =>
    intro rec l
    unfold pseLoop Tal.pseLoop
    simp only [aefRecord, Tal.aefRecord, aefLoop_plenty, ih]
    rfl

theorem findApps_plenty : ∀ (script : List W) (aids : List Tlv) (first : Bool) (l : List App),
    findApps (fun _ => plenty) script aids first l = Tal.findApps script aids first l := by
  intro script
  induction script with
  | nil => intro aids first l; cases aids <;> (unfold findApps Tal.findApps; rfl)
  | cons w rest ih =>
    intro aids first l
    cases aids with
    | nil => unfold findApps Tal.findApps; rfl
    | cons aid aids =>
      unfold findApps Tal.findApps
      simp only [createFromFci_plenty, ih]
      rfl

/-- The applications of a finished run are of `l` or were built from an answer to one of its commands. -/
def From (l : List App) (x : C (Run (Int × List App))) : Prop :=
  match x with
  | .ok (tr, .done a _) => ∀ app ∈ a.2, app ∈ l ∨ ∃ e ∈ tr, App.createFromFci e.2.data = .ok (some app)
  | _ => True

theorem from_fin (c : Int) (l : List App) (rest : List W) : From l (fin (c, l) rest) := fun _ h => .inl h

theorem from_log {l l' : List App} {x : C (Run (Int × List App))} (c : Cmd) (w : W)
    (hl : ∀ app ∈ l', app ∈ l ∨ App.createFromFci w.data = .ok (some app)) (h : From l' x) : From l (log c w x) := by
  match x, h with
  | .error _, _ => trivial
  | .ok (tr, .pending p), _ => trivial
  | .ok (tr, .done a rest), h =>
    intro app ha
    rcases h app ha with h1 | ⟨e, he, h1⟩
    · rcases hl app h1 with h2 | h2
      · exact .inl h2
      · exact .inr ⟨(c, w), List.mem_cons_self, h2⟩
    · exact .inr ⟨e, List.mem_cons_of_mem _ he, h1⟩

theorem findApps_from (m : Nat → Mem) : ∀ (script : List W) (aids : List Tlv) (first : Bool) (l : List App),
    From l (findApps m script aids first l) := by
  intro script
  induction script with
  | nil =>
    intro aids first l
    cases aids with
    | nil => unfold findApps; exact from_fin _ _ _
    | cons aid aids =>
      unfold findApps
      split
      · exact from_fin _ _ _
      · trivial
  | cons w rest ih =>
    intro aids first l
    cases aids with
    | nil => unfold findApps; exact from_fin _ _ _
    | cons aid aids =>
      unfold findApps
      split
      · exact from_fin _ _ _
      · dsimp only
        split
        · exact from_log _ _ (fun _ h => .inl h) (from_fin _ _ _)
        · split
          · exact from_log _ _ (fun _ h => .inl h) (from_fin _ _ _)
          · split
            · exact from_log _ _ (fun _ h => .inl h) (ih _ _ _)
            · match hc : createFromFci (m rest.length) w.data with
              | .error e => trivial
              | .ok none =>
                simp only [bind_ok]
                exact from_log _ _ (fun _ h => .inl h) (ih _ _ _)
              | .ok (some app) =>
                simp only [bind_ok]
                have hg : App.createFromFci w.data = .ok (some app) := by
                  rcases createFromFci_lacks (m rest.length) w.data with e | e
                  · rw [← e, hc]
                  · rw [hc] at e; cases e
                have hl : ∀ a ∈ (if w.sw = 0x9000 then l ++ [app] else l), a ∈ l ∨ App.createFromFci w.data = .ok (some a) := by
                  intro a ha
                  split at ha
                  · rcases List.mem_append.1 ha with h | h
                    · exact .inl h
                    · rw [List.mem_singleton.1 h]; exact .inr hg
                  · exact .inl ha
                split
                · exact from_log _ _ hl (ih _ _ _)
                · split
                  · exact from_log _ _ hl (ih _ _ _)
                  · exact from_log _ _ (fun _ h => .inl h) (ih _ _ _)

theorem selectApp_lacks (m : Mem) (aid : List Byte) (script : List W) :
    selectApp m aid script = Tal.selectApp aid script ∨
    ∃ w rest, script = w :: rest ∧ w.code = 0 ∧ w.sw = 0x9000 ∧
      selectApp m aid script = .ok ([(.select false aid, w)], .done (12, none) rest) := by
  unfold selectApp Tal.selectApp
  split
  · exact .inl rfl
  · unfold send
    split
    · exact .inl rfl
    · cases script with
      | nil => exact .inl rfl
      | cons w rest =>
        dsimp only
        by_cases hw : w.code ≠ 0
        · rw [if_pos hw, if_pos hw]; exact .inl rfl
        · rw [if_neg hw, if_neg hw]
          by_cases hsw : w.sw ≠ 0x9000
          · rw [if_pos hsw, if_pos hsw]; exact .inl rfl
          · rw [if_neg hsw, if_neg hsw]
            rcases createFromFci_lacks m w.data with e | e
            · rw [e]; exact .inl rfl
            · rw [e]
              exact .inr ⟨w, rest, rfl, by omega, by omega, rfl⟩

/-- All results of a finished run satisfy `P`. -/
def Ends {α : Type} (P : α → Prop) (x : C (Run α)) : Prop :=
  ∀ tr a rest, x = .ok (tr, .done a rest) → P a

theorem ends_fin {α : Type} {P : α → Prop} {a : α} (rest : List W) (h : P a) : Ends P (fin a rest) := by
  intro tr b r e
  cases e
  exact h

theorem ends_then {α β : Type} {P : β → Prop} {x : C (Run α)} {f : α → List W → C (Run β)}
    (h : ∀ a rest, Ends P (f a rest)) : Ends P (andThen x f) := by
  intro tr b r e
  unfold andThen at e
  match x with
  | .error _ => cases e
  | .ok (t, .pending c) => cases e
  | .ok (t, .done a rest) =>
    simp only [bind_ok] at e
    match hf : f a rest with
    | .error _ => rw [hf] at e; cases e
    | .ok (t2, .pending c) => rw [hf] at e; cases e
    | .ok (t2, .done b' r') =>
      rw [hf] at e
      cases e
      exact h a rest _ _ _ hf

/-! ## Property -/

/-- **C158** (the model).  With enough memory the functions are those of the other claims. -/
theorem C158_plenty (supported : List Tlv) (apps : List App) (script : List W) (ctx : Ctx) (index : Nat) :
    build allocOk (fun _ _ => plenty) (fun _ => plenty) supported apps script = Emv.build supported apps script ∧
    select plenty ctx apps index script = Emv.select ctx apps index script := by
  constructor
  · unfold build Emv.build
    have hr : readPse allocOk (fun _ _ => plenty) supported apps script = Tal.readPse supported apps script := by
      unfold readPse Tal.readPse
      have hp : @pseLoop (fun _ _ => plenty) = @Tal.pseLoop := by
        funext pse supported sfi script rec l
        exact pseLoop_plenty pse supported sfi script rec l
      rw [hp]
      rfl
    have hf : @findApps (fun _ => plenty) = @Tal.findApps := by
      funext script aids first l
      exact findApps_plenty script aids first l
    rw [hr, hf]
  · rfl

/-- **C158** (the directory), partial: that an application is missing is not reported (`C158_lost`).  Whatever allocations fail,
the directory is read with the same commands and the same code, and the applications are those with unlimited memory, in the
same order, but for some missing; or memory lacks for the FCI of the directory, and then there is no list and code 4. -/
theorem C158_directory_partial (alloc : List Tlv → Tlv → Bool) (m : Nat → Nat → Mem) (supported : List Tlv)
    (apps : List App) (script : List W) :
    Fewer (Tal.readPse supported apps script) (readPse alloc m supported apps script) ∨
    ∃ w rest, script = w :: rest ∧ w.code = 0 ∧ w.sw = 0x9000 ∧
      readPse alloc m supported apps script = .ok ([(.select false pseName, w)], .done (4, []) rest) := by
  unfold readPse Tal.readPse send
  by_cases hn : refusesName pseName = true
  · rw [if_pos hn, if_pos hn]; exact .inl (fewer_refl _)
  · rw [if_neg hn, if_neg hn]
    cases script with
    | nil => exact .inl rfl
    | cons w rest =>
      dsimp only
      by_cases hw : w.code ≠ 0
      · rw [if_pos hw, if_pos hw]; exact .inl (fewer_refl _)
      · rw [if_neg hw, if_neg hw]
        by_cases h1 : w.sw = 0x6A81
        · rw [if_pos h1, if_pos h1]; exact .inl (fewer_refl _)
        rw [if_neg h1, if_neg h1]
        by_cases h2 : w.sw = 0x6A82
        · rw [if_pos h2, if_pos h2]; exact .inl (fewer_refl _)
        rw [if_neg h2, if_neg h2]
        by_cases h3 : w.sw = 0x6283
        · rw [if_pos h3, if_pos h3]; exact .inl (fewer_refl _)
        rw [if_neg h3, if_neg h3]
        by_cases h4 : w.sw ≠ 0x9000
        · rw [if_pos h4, if_pos h4]; exact .inl (fewer_refl _)
        rw [if_neg h4, if_neg h4]
        rcases Memory.parse_lacks alloc w.data [] with e | ⟨l, e⟩
        · rw [e]
          refine .inl (fewer_log _ _ ?_)
          match parse allocOk w.data [] with
          | .error u => trivial
          | .ok (r, pse) =>
            simp only [bind_ok]
            split
            · exact fewer_refl _
            · cases find pse 0x88 with
              | none => exact fewer_refl _
              | some t =>
                dsimp only
                split
                · exact fewer_refl _
                · match rd t.value 0 with
                  | .error u => trivial
                  | .ok sfi =>
                    simp only [bind_ok]
                    exact pseLoop_fewer m pse supported sfi rest 1 apps apps (List.Sublist.refl _)
        · rw [e]
          exact .inr ⟨w, rest, rfl, by omega, by omega, rfl⟩

/-- **C158** (the search), partial as above: whatever allocations fail, no application is made up.  Each is what an answer of
the card to one of the commands gives with unlimited memory. -/
theorem C158_search_partial (m : Nat → Mem) (script : List W) (supported : List Tlv) (tr : List (Cmd × W)) (c : Int)
    (l : List App) (rest : List W) (h : findApps m script supported true [] = .ok (tr, .done (c, l) rest)) :
    ∀ app ∈ l, ∃ e ∈ tr, App.createFromFci e.2.data = .ok (some app) := by
  intro app ha
  have hf := findApps_from m script supported true []
  rw [h] at hf
  rcases hf app ha with h1 | h1
  · cases h1
  · exact h1

/-- **C158** (selection), partial: that memory was lacking is not reported (`C158_never`).  The selection is that with
unlimited memory, or the same command is sent, answered with success, and the application is taken off the list and none is
selected. -/
theorem C158_selection_partial (m : Mem) (ctx : Ctx) (apps : List App) (index : Nat) (script : List W) :
    select m ctx apps index script = Emv.select ctx apps index script ∨
    ∃ a w rest, apps[index]? = some a ∧ script = w :: rest ∧ w.code = 0 ∧ w.sw = 0x9000 ∧
      select m ctx apps index script = .ok ([(.select false a.aid.value, w)],
        .done (if apps.length = 1 then 3 else 4, apps.eraseIdx index, { ctx with selected := none }) rest) := by
  unfold select Emv.select
  dsimp only
  match ha : apps[index]? with
  | none => exact .inl rfl
  | some a =>
    dsimp only
    split
    · exact .inl rfl
    · rcases selectApp_lacks m a.aid.value script with e | ⟨w, rest, hs, h1, h2, e⟩
      · rw [e]; exact .inl rfl
      · refine .inr ⟨a, w, rest, rfl, hs, h1, h2, ?_⟩
        rw [e]
        have hi : index < apps.length := (List.getElem?_eq_some_iff.1 ha).1
        have ht : tryAgain (apps.eraseIdx index) = if apps.length = 1 then 3 else 4 := by
          unfold tryAgain
          have hl := List.length_eraseIdx_of_lt hi
          by_cases h1 : apps.length = 1
          · rw [if_pos h1, if_pos (by rw [List.isEmpty_iff_length_eq_zero]; omega)]
          · rw [if_neg h1, if_neg (by rw [List.isEmpty_iff_length_eq_zero]; omega)]
        simp [andThen, bind_ok, fin, ht]

/-- **C158 is false of the code.**  Whatever allocations fail, building the list and selecting never return -1: the outcome
is 0, 1, 2 or 3, for selection also 4, or -2 for an index that is not of the list. -/
theorem C158_never (alloc : List Tlv → Tlv → Bool) (m : Nat → Nat → Mem) (f : Nat → Mem) (supported : List Tlv)
    (apps : List App) (script : List W) (n : Mem) (ctx : Ctx) (index : Nat) :
    Ends (fun a => 0 ≤ a.1 ∧ a.1 ≤ 3) (build alloc m f supported apps script) ∧
    Ends (fun a => 0 ≤ a.1 ∧ a.1 ≤ 4 ∨ a.1 = -2 ∧ apps.length ≤ index) (select n ctx apps index script) := by
  have hfinish : ∀ (l : List App) (rest : List W), Ends (fun a => 0 ≤ a.1 ∧ a.1 ≤ 3) (Emv.finish l rest) := by
    intro l rest
    unfold Emv.finish
    split
    · exact ends_fin _ ⟨by show (0 : Int) ≤ 3; decide, by show (3 : Int) ≤ 3; decide⟩
    · exact ends_fin _ ⟨by show (0 : Int) ≤ 0; decide, by show (0 : Int) ≤ 3; decide⟩
  constructor
  · refine ends_then fun a rest => ?_
    split
    · refine ends_fin _ ?_
      show 0 ≤ (if a.1 = -4 then (2 : Int) else 1) ∧ (if a.1 = -4 then (2 : Int) else 1) ≤ 3
      split <;> decide
    · split
      · refine ends_then fun b rest => ?_
        split
        · refine ends_fin _ ?_
          show 0 ≤ (if b.1 = -4 then (2 : Int) else 1) ∧ (if b.1 = -4 then (2 : Int) else 1) ≤ 3
          split <;> decide
        · exact hfinish _ _
      · exact hfinish _ _
  · have ht : ∀ l : List App, 0 ≤ tryAgain l ∧ tryAgain l ≤ 4 := by
      intro l
      unfold tryAgain
      split <;> decide
    unfold select
    dsimp only
    match ha : apps[index]? with
    | none => exact ends_fin _ (.inr ⟨rfl, List.getElem?_eq_none_iff.1 ha⟩)
    | some a =>
      dsimp only
      split
      · exact ends_fin _ (.inl (ht _))
      · refine ends_then fun x rest => ?_
        split
        · refine ends_fin _ (.inl ?_)
          show 0 ≤ (if x.1 = -4 then (2 : Int) else 1) ∧ (if x.1 = -4 then (2 : Int) else 1) ≤ 4
          split <;> decide
        · split
          · exact ends_fin _ (.inl (ht _))
          · exact ends_fin _ (.inl ⟨Int.le_refl 0, by show (0 : Int) ≤ 4; decide⟩)

/-- A directory with two applications: the AIDs of the list built, with its code. -/
def twoApps (m : Nat → Nat → Mem) : C (Option (Int × List (List Byte))) :=
  let fci : List Byte := [0x6F, 5, 0xA5, 3, 0x88, 1, 1]
  let rec1 : List Byte := [0x70, 18, 0x61, 7, 0x4F, 5, 0xA0, 0, 0, 0, 4, 0x61, 7, 0x4F, 5, 0xA0, 0, 0, 0, 3]
  (build allocOk m (fun _ => plenty) [⟨0x9F06, 0, [0xA0, 0, 0, 0, 4]⟩, ⟨0x9F06, 0, [0xA0, 0, 0, 0, 3]⟩] []
    [⟨0, fci, 0x9000⟩, ⟨0, rec1, 0x9000⟩, ⟨0, [], 0x6A83⟩]).map fun x =>
      match x.2 with
      | .done a _ => some (a.1, a.2.map (·.aid.value))
      | .pending _ => none

/-- **C158 is false of the code** (an application lost).  When there is no memory for the first of two applications of the
directory, the list has the second only, and the outcome is success. -/
theorem C158_lost : ∃ m, twoApps (fun _ _ => plenty) = .ok (some (0, [[0xA0, 0, 0, 0, 3], [0xA0, 0, 0, 0, 4]])) ∧
    twoApps m = .ok (some (0, [[0xA0, 0, 0, 0, 3]])) :=
  ⟨fun _ k => if k = 18 then ⟨false, allocOk⟩ else plenty, by decide +kernel⟩

/-- **C158 is false of the code** (an application passed over).  The card has selected the application, but there is no
memory for its data: the outcome is 4, to try another application; with one candidate it is 3, not accepted. -/
theorem C158_passed_over :
    let a : App := ⟨⟨0x4F, 0, [0xA0, 0, 0, 0, 4]⟩, [], 0, false, []⟩
    let fci : List Byte := [0x6F, 0x07, 0x84, 0x05, 0xA0, 0, 0, 0, 4]
    let run := fun m apps => (select m Ctx.init apps 0 [⟨0, fci, 0x9000⟩]).map fun x =>
      match x.2 with
      | .done r _ => some (r.1, r.2.2.selected.isSome)
      | .pending _ => none
    run plenty [a, a] = .ok (some (0, true)) ∧ run ⟨true, fun _ _ => false⟩ [a, a] = .ok (some (4, false)) ∧
      run ⟨false, allocOk⟩ [a] = .ok (some (3, false)) := by
  decide +kernel

/-- The number of commands of a run, its code and the AIDs of its list. -/
def view (r : C (Run (Int × List App))) : C (Option (Nat × Int × List (List Byte))) :=
  r.map fun x => match x.2 with
    | .done a _ => some (x.1.length, a.1, a.2.map (·.aid.value))
    | .pending _ => none

/-- The search with memory for the second application only, and the FCI of the directory without memory. -/
example :
    view (findApps (fun k => if k = 1 then ⟨false, allocOk⟩ else plenty)
      [⟨0, [0x6F, 0x07, 0x84, 0x05, 0xA0, 0, 0, 0, 4], 0x9000⟩, ⟨0, [0x6F, 0x07, 0x84, 0x05, 0xA0, 0, 0, 0, 3], 0x9000⟩]
      [⟨0x9F06, 0, [0xA0, 0, 0, 0, 4]⟩, ⟨0x9F06, 0, [0xA0, 0, 0, 0, 3]⟩] true []) =
        .ok (some (2, 0, [[0xA0, 0, 0, 0, 3]])) ∧
    view (readPse (fun _ _ => false) (fun _ _ => plenty) [] [] [⟨0, [0x6F, 5, 0xA5, 3, 0x88, 1, 1], 0x9000⟩]) =
      .ok (some (1, 4, [])) := by
  constructor <;> decide +kernel

end Verif.Scarce
