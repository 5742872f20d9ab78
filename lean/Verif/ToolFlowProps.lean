import Verif.ToolChoiceProps
import Verif.ToolTxnProps
import Verif.EmvHistoryProps

/-!
# C110, C111, C112: the transaction of the tool
-/

set_option autoImplicit false

namespace Verif.ToolTxn
open Verif Ber BerSpec TlvParse App Tal Emv Fields

/-! ## C112: texts -/

/-- The codes of `emv.h` and their texts. -/
def codes : List (Int × List Byte) :=
  [(-2, txt!"ERROR: Invalid function parameter\n"), (-1, txt!"ERROR: Internal error\n"), (1, txt!"OUTCOME: Card error\n"),
   (2, txt!"OUTCOME: Card blocked\n"), (3, txt!"OUTCOME: Not accepted\n"), (4, txt!"OUTCOME: Try again\n"),
   (5, txt!"OUTCOME: Not accepted\n")]

theorem select_code {ctx : Ctx} {apps : List App} {i : Nat} {script rest : List W} {tr : List (Cmd × W)} {r : Int}
    {apps' : List App} {ctx' : Ctx} (h : select ctx apps i script = .ok (tr, .done (r, apps', ctx') rest)) :
    r = -2 ∨ r = 0 ∨ r = 1 ∨ r = 2 ∨ r = 3 ∨ r = 4 := by
  obtain ⟨-, ⟨-, h, -⟩ | ⟨-, -, -, ⟨h, -⟩ | ⟨-, ⟨⟨h, -⟩ | ⟨h, -⟩, -⟩ | ⟨h, -⟩ | ⟨h, -⟩⟩⟩⟩ :=
    C39_select _ _ _ _ _ _ _ _ _ h
  all_goals omega

theorem gpoData_code {buf : List Byte} {sources : List (List Tlv)} {tlvs : List Tlv} {c : Int}
    (h : gpoData buf sources tlvs = .ok (.error c)) : c = 1 ∨ c = -1 := by
  unfold gpoData at h
  split at h
  · cases h
  · next pdol _ =>
    cases hn : Dol.computeDataLength pdol.value with
    | error e => rw [hn, bind_error] at h; cases h
    | ok n =>
      rw [hn, bind_ok] at h
      split at h
      · cases h; exact .inl rfl
      · split at h
        · cases h; exact .inl rfl
        · generalize (wr buf 0 0x83) = x at h
          cases x with
          | error e => rw [bind_error] at h; cases h
          | ok b =>
            rw [bind_ok] at h
            generalize (if n < 0x80 then _ else _ : C (List Byte × Nat)) = x at h
            cases x with
            | error e => rw [bind_error] at h; cases h
            | ok b =>
              rw [bind_ok] at h
              obtain ⟨b, off⟩ := b
              simp only at h
              generalize suffix b off = x at h
              cases x with
              | error e => rw [bind_error] at h; cases h
              | ok t =>
                rw [bind_ok] at h
                generalize Dol.buildData pdol.value sources t = x at h
                cases x with
                | error e => rw [bind_error] at h; cases h
                | ok y =>
                  rw [bind_ok] at h
                  obtain ⟨r, tail, len⟩ := y
                  simp only at h
                  split at h
                  · cases h; exact .inr rfl
                  · generalize slice _ _ _ = x at h
                    cases x with
                    | error e => rw [bind_error] at h; cases h
                    | ok y => rw [bind_ok] at h; cases h

theorem initiate_code {alloc : List Tlv → Tlv → Bool} {buf : List Byte} {ctx ctx' : Ctx} {pos : Byte}
    {script rest : List W} {tr : List (Cmd × W)} {r : Int}
    (h : initiate alloc buf ctx pos script = .ok (tr, .done (r, ctx') rest)) :
    r = -2 ∨ r = -1 ∨ r = 0 ∨ r = 1 ∨ r = 5 := by
  unfold initiate at h
  split at h
  · simp only [fin, Except.ok.injEq, Prod.mk.injEq, Out.done.injEq] at h
    omega
  · simp only at h
    split at h
    · cases h
    · next s hs =>
      split at h
      · simp only [fin, Except.ok.injEq, Prod.mk.injEq, Out.done.injEq] at h
        omega
      · split at h
        · cases h
        · split at h
          · simp only [fin, Except.ok.injEq, Prod.mk.injEq, Out.done.injEq] at h
            omega
          · generalize hg : gpoData _ _ _ = g at h
            cases g with
            | error e => rw [bind_error] at h; cases h
            | ok g =>
              rw [bind_ok] at h
              cases g with
              | error c =>
                have := gpoData_code hg
                simp only [fin, Except.ok.injEq, Prod.mk.injEq, Out.done.injEq] at h
                omega
              | ok data =>
                simp only at h
                generalize gpo alloc data [] script = y at h
                match y, h with
                | .error e, h => cases h
                | .ok (_, .pending _), h => cases h
                | .ok (t, .done g rest'), h =>
                  simp only [andThen, bind_ok] at h
                  split at h
                  · simp only [fin, bind_ok, Except.ok.injEq, Prod.mk.injEq, Out.done.injEq] at h
                    split at h <;> omega
                  · split at h
                    · simp only [fin, bind_ok, Except.ok.injEq, Prod.mk.injEq, Out.done.injEq] at h
                      split at h <;> omega
                    · simp only [fin, bind_ok, Except.ok.injEq, Prod.mk.injEq, Out.done.injEq] at h
                      omega

theorem readData_code {alloc : List Tlv → Tlv → Bool} {ctx ctx' : Ctx}
    {script rest : List W} {tr : List (Cmd × W)} {r : Int}
    (h : readData alloc ctx script = .ok (tr, .done (r, ctx') rest)) : r = -1 ∨ r = 0 ∨ r = 1 := by
  by_cases h0 : r = 0
  · exact .inr (.inl h0)
  · obtain ⟨-, h⟩ := C40_failure _ _ _ _ _ _ _ h h0
    rcases h with ⟨h, -⟩ | ⟨-, h, -⟩ | ⟨h, -⟩ | ⟨_, _, _, _, _, _, _, -, -, -, h⟩ | ⟨h, -⟩
    · exact .inr (.inr h)
    · rcases h with h | h
      · exact .inr (.inr h)
      · exact .inl h
    · exact .inr (.inr h)
    · split at h
      · exact .inl h
      · exact .inr (.inr h)
    · exact .inr (.inr h)

/-- **C112.**  Whatever the card answers and whatever the state, each call that does not succeed gives a code that
has a text in the list; "Unknown error" and "Invalid outcome" are never shown. -/
theorem C112_texts (r : Int) :
    (∀ s, (r, s) ∈ codes → complaint r = .text s) ∧
    (∀ supported apps apps' script tr rest, (∀ a ∈ apps, App.prio a ≤ 15) →
      Emv.build supported apps script = .ok (tr, .done (r, apps') rest) → r ≠ 0 → ∃ s, (r, s) ∈ codes) ∧
    (∀ ctx ctx' apps apps' i script tr rest,
      select ctx apps i script = .ok (tr, .done (r, apps', ctx') rest) → r ≠ 0 → ∃ s, (r, s) ∈ codes) ∧
    (∀ alloc buf ctx ctx' pos script tr rest,
      initiate alloc buf ctx pos script = .ok (tr, .done (r, ctx') rest) → r ≠ 0 → ∃ s, (r, s) ∈ codes) ∧
    (∀ alloc ctx ctx' script tr rest,
      readData alloc ctx script = .ok (tr, .done (r, ctx') rest) → r ≠ 0 → ∃ s, (r, s) ∈ codes) := by
  have key : r = -2 ∨ r = -1 ∨ r = 1 ∨ r = 2 ∨ r = 3 ∨ r = 4 ∨ r = 5 → ∃ s, (r, s) ∈ codes := by
    rintro (rfl | rfl | rfl | rfl | rfl | rfl | rfl)
    · exact ⟨_, .head _⟩
    · exact ⟨_, .tail _ (.head _)⟩
    · exact ⟨_, .tail _ (.tail _ (.head _))⟩
    · exact ⟨_, .tail _ (.tail _ (.tail _ (.head _)))⟩
    · exact ⟨_, .tail _ (.tail _ (.tail _ (.tail _ (.head _))))⟩
    · exact ⟨_, .tail _ (.tail _ (.tail _ (.tail _ (.tail _ (.head _)))))⟩
    · exact ⟨_, .tail _ (.tail _ (.tail _ (.tail _ (.tail _ (.tail _ (.head _))))))⟩
  refine ⟨?_, ?_, ?_, ?_, ?_⟩
  · intro s hs
    simp only [codes, List.mem_cons, Prod.mk.injEq, List.not_mem_nil, or_false] at hs
    rcases hs with ⟨rfl, rfl⟩ | ⟨rfl, rfl⟩ | ⟨rfl, rfl⟩ | ⟨rfl, rfl⟩ | ⟨rfl, rfl⟩ | ⟨rfl, rfl⟩ | ⟨rfl, rfl⟩ <;> decide
  · intro supported apps apps' script tr rest ha h h0
    refine key ?_
    obtain ⟨-, ⟨h, -⟩ | ⟨h, -⟩ | ⟨-, -, ⟨h, -⟩ | ⟨h, -⟩ | ⟨h, -⟩⟩⟩ := C42_outcome _ _ ha _ _ _ _ _ h <;> omega
  · intro ctx ctx' apps apps' i script tr rest h h0
    have := select_code h
    exact key (by omega)
  · intro alloc buf ctx ctx' pos script tr rest h h0
    have := initiate_code h
    exact key (by omega)
  · intro alloc ctx ctx' script tr rest h h0
    have := readData_code h
    exact key (by omega)

example : complaint 2 = .text txt!"OUTCOME: Card blocked\n" ∧ complaint (-1) = .text txt!"ERROR: Internal error\n" := by
  decide

/-! ## C110: the rounds -/

/-- The question: the candidates, numbered from 1, with their names. -/
def Question (apps : List App) (q : List Byte) : Prop :=
  ∃ lines : List (List Byte), lines.length = apps.length ∧
    (∀ i a, apps[i]? = some a → ∃ name more, a.name = name ++ more ∧ 0 ∉ name ∧ (more = [] ∨ more.head? = some 0) ∧
      lines[i]? = some (Lists.decimal (i + 1) ++ txt!" - " ++ name ++ txt!"\n")) ∧
    q = txt!"\nSelect application:\n" ++ lines.flatten ++ txt!"Enter number: "

/-- What is shown for a choice with `k` refused answers. -/
def prompts (req : Bool) (apps : List App) (k : Nat) : List Item :=
  if req then (List.replicate k [Item.text (question apps), .text txt!"Invalid input. Try again.\n"]).flatten ++
    [.text (question apps)]
  else [.text txt!"\nSelect first application:\n"]

/-- The choice: of the first candidate, or by the input after `k` refused answers. -/
def Chosen (req : Bool) (count : Nat) (input : List Byte) (i k : Nat) (rest : List Byte) : Prop :=
  (req = false ∧ i = 0 ∧ k = 0 ∧ rest = input) ∨
  (req = true ∧ ∃ bads s, bads.length = k ∧ input = bads.flatten ++ s ++ rest ∧ Cut (bads ++ [s]) rest ∧
    (∀ b ∈ bads, Invalid count b) ∧ Says s (i + 1))

/-- The card does not select the application. -/
def Refused (a : App) (t : List (Cmd × W)) : Prop :=
  (16 < a.aid.value.length ∧ t = []) ∨
  ∃ w, t = [(.select false a.aid.value, w)] ∧ w.code = 0 ∧ w.sw ≠ 0x6A81 ∧
    (w.sw = 0x9000 → ¬ ProperFci w.data a.aid.value)

/-- The card selects the application with these fields. -/
def Selected (a : App) (w : W) (fci : List Tlv) : Prop := w.code = 0 ∧ w.sw = 0x9000 ∧ Fci w.data a.aid.value fci

/-- The card selects the application and then declines the transaction. -/
def Declined (ctx : Ctx) (a : App) (t : List (Cmd × W)) : Prop :=
  ∃ w1 fci data w2, t = [(.select false a.aid.value, w1), (.gpo data, w2)] ∧ Selected a w1 fci ∧
    Requested ctx (terminalData 0x05 a.aid.value) fci data ∧ w2.code = 0 ∧ w2.sw = 0x6985

/-- The rounds that ask for another choice: candidates and input before and after, the candidates tried, the
exchanges and what is shown. -/
inductive Tries (ctx : Ctx) (req : Bool) : List App → List Byte → List App → List Byte → List App →
    List (Cmd × W) → List Item → Prop where
  | none (apps : List App) (input : List Byte) : Tries ctx req apps input apps input [] [] []
  | refused {apps left : List App} {input input' input'' : List Byte} {i k : Nat} {a : App} {t tr : List (Cmd × W)}
      {picks : List App} {shown : List Item}
      (hc : Chosen req apps.length input i k input') (ha : apps[i]? = some a) (hr : Refused a t)
      (hl : apps.take i ++ apps.drop (i + 1) ≠ [])
      (h : Tries ctx req (apps.take i ++ apps.drop (i + 1)) input' left input'' picks tr shown) :
      Tries ctx req apps input left input'' (a :: picks) (t ++ tr)
        (prompts req apps k ++ [.text txt!"OUTCOME: Try again\n"] ++ shown)
  | declined {apps left : List App} {input input' input'' : List Byte} {i k : Nat} {a : App} {t tr : List (Cmd × W)}
      {picks : List App} {shown : List Item}
      (hc : Chosen req apps.length input i k input') (ha : apps[i]? = some a) (hr : Declined ctx a t)
      (hl : apps.take i ++ apps.drop (i + 1) ≠ [])
      (h : Tries ctx req (apps.take i ++ apps.drop (i + 1)) input' left input'' picks tr shown) :
      Tries ctx req apps input left input'' (a :: picks) (t ++ tr)
        (prompts req apps k ++ [.text txt!"\nInitiate application processing:\n", .text txt!"OUTCOME: Not accepted\n"] ++ shown)

/-- The last round: how it ends, with which exchanges and which text.  `none` is a started application. -/
def Last (alloc : List Tlv → Tlv → Bool) (ctx : Ctx) (a : App) (left : List App) (how : Option Int)
    (t : List (Cmd × W)) (shown : List Item) : Prop :=
  (how = some 3 ∧ left = [] ∧ Refused a t ∧ shown = [.text txt!"OUTCOME: Not accepted\n"]) ∨
  (how = some 2 ∧ (∃ w, t = [(.select false a.aid.value, w)] ∧ w.code = 0 ∧ w.sw = 0x6A81) ∧
    shown = [.text txt!"OUTCOME: Card blocked\n"]) ∨
  (how = some 1 ∧ (a.aid.value.length < 5 ∧ t = [] ∨ ∃ w, t = [(.select false a.aid.value, w)] ∧ w.code ≠ 0) ∧
    shown = [.text txt!"OUTCOME: Card error\n"]) ∨
  (∃ w1 fci more text, Selected a w1 fci ∧ t = (.select false a.aid.value, w1) :: more ∧
    shown = .text txt!"\nInitiate application processing:\n" :: text ∧
    ((how = some 5 ∧ left = [] ∧ Declined ctx a t ∧ text = [.text txt!"OUTCOME: Not accepted\n"]) ∨
     (how = some 1 ∧ (more = [] ∧ BadPdol fci ∨ ∃ data w2 reason, more = [(.gpo data, w2)] ∧
        Requested ctx (terminalData 0x05 a.aid.value) fci data ∧ GpoFailing alloc w2 reason ∧ reason ≠ 13 ∧ reason ≠ -1) ∧
      text = [.text txt!"OUTCOME: Card error\n"]) ∨
     (how = some (-1) ∧ (∃ l t, alloc l t = false) ∧ text = [.text txt!"ERROR: Internal error\n"]) ∨
     (how = none ∧ (∃ data w2 opts, more = [(.gpo data, w2)] ∧ w2.code = 0 ∧ w2.sw = 0x9000 ∧ Carries w2.data opts ∧
        Requested ctx (terminalData 0x05 a.aid.value) fci data ∧ field 0x82 opts ≠ none ∧ field 0x94 opts ≠ none) ∧
      text = [])))

/-- A started application: by these two calls. -/
def Started (alloc : List Tlv → Tlv → Bool) (ctx ctx' : Ctx) (a : App) (t : List (Cmd × W)) : Prop :=
  ∃ c0 c1 apps i buf s1 r1 s2 r2 w1 data w2, c0.config = ctx.config ∧ c0.params = ctx.params ∧ apps[i]? = some a ∧
    buf.length = 255 ∧ t = [(.select false a.aid.value, w1), (.gpo data, w2)] ∧
    Emv.select c0 apps i s1 = .ok ([(.select false a.aid.value, w1)], .done (0, apps.eraseIdx i, c1) r1) ∧
    Emv.initiate alloc buf c1 0x05 s2 = .ok ([(.gpo data, w2)], .done (0, ctx') r2)

/-- How the rounds end. -/
def RoundsPost (alloc : List Tlv → Tlv → Bool) (ctx : Ctx) (req : Bool) (apps : List App) (input : List Byte)
    (out : List Item) (script : List W) : C (Run End) → Prop
  | .error _ => ∃ w ∈ script, Bare w
  | .ok (_, .pending _) => True
  | .ok (tr, .done e rest) => script = tr.map (·.2) ++ rest ∧ e.ctx.config = ctx.config ∧ e.ctx.params = ctx.params ∧
    ∃ left input' picks tr1 shown, Tries ctx req apps input left input' picks tr1 shown ∧
     ((e.how = .stuck ∧ req = true ∧ tr = tr1 ∧ e.apps = left ∧ ∃ bads, input' = bads.flatten ∧ Cut bads [] ∧
        (∀ b ∈ bads, Invalid left.length b) ∧
        e.out = out ++ shown ++
          (List.replicate bads.length [Item.text (question left), .text txt!"Invalid input. Try again.\n"]).flatten) ∨
      ∃ i k a t text how, Chosen req left.length input' i k e.input ∧ left[i]? = some a ∧
        e.apps = left.take i ++ left.drop (i + 1) ∧ tr = tr1 ++ t ∧ e.out = out ++ shown ++ prompts req left k ++ text ∧
        e.how = (match how with | some r => .code r | none => .done) ∧ Last alloc ctx a e.apps how t text ∧
        (how = none → Started alloc ctx e.ctx a t))

theorem select_error {ctx : Ctx} {apps : List App} {i : Nat} {script : List W} {e : UB}
    (h : Emv.select ctx apps i script = .error e) : ∃ w ∈ script, Bare w := by
  unfold select at h
  simp only at h
  split at h
  · cases h
  · next a _ =>
    split at h
    · cases h
    · have hp := selectApp_spec a.aid.value script
      generalize selectApp a.aid.value script = y at hp h
      match y, hp with
      | .error e, ⟨_, w, rest, k1, k2, k3, k4⟩ => exact ⟨w, by rw [k1]; simp, k2, .inl k3, k4⟩
      | .ok (_, .pending _), _ => cases h
      | .ok (_, .done x _), _ =>
        simp only [andThen, bind_ok] at h
        split at h
        · cases h
        · split at h <;> cases h

theorem post_again {alloc : List Tlv → Tlv → Bool} {ctx : Ctx} {req : Bool} {apps apps' : List App}
    {input input' : List Byte} {out pre : List Item} {script rest : List W} {t : List (Cmd × W)} {a : App}
    (hs : script = t.map (·.2) ++ rest)
    (hstep : ∀ left input'' picks tr shown, Tries ctx req apps' input' left input'' picks tr shown →
      Tries ctx req apps input left input'' (a :: picks) (t ++ tr) (pre ++ shown)) (x : C (Run End))
    (h : RoundsPost alloc ctx req apps' input' (out ++ pre) rest x) :
    RoundsPost alloc ctx req apps input out script (x >>= fun p => .ok (t ++ p.1, p.2)) := by
  match x, h with
  | .error e, ⟨w, hw, hb⟩ => exact ⟨w, by rw [hs]; simp [hw], hb⟩
  | .ok (_, .pending _), _ => trivial
  | .ok (tr, .done e r), ⟨h1, h2, h3, left, input'', picks, tr1, shown, ht, hend⟩ =>
    rw [bind_ok]
    refine ⟨by rw [hs, h1]; simp, h2, h3, left, input'', a :: picks, t ++ tr1, pre ++ shown, hstep _ _ _ _ _ ht, ?_⟩
    rcases hend with ⟨e1, e2, e3, e4, bads, e5, e6, e7, e8⟩ | ⟨i, k, b, t', text, how, e1, e2, e3, e4, e5, e6⟩
    · exact .inl ⟨e1, e2, by rw [e3], e4, bads, e5, e6, e7, by rw [e8]; simp⟩
    · exact .inr ⟨i, k, b, t', text, how, e1, e2, e3, by rw [e4]; simp, by rw [e5]; simp, e6⟩

theorem take_choice (req : Bool) (apps : List App) (h0 : apps ≠ []) (input : List Byte) :
    ∃ c k, pick req apps input = .ok (c, k) ∧
      match c with
      | .index i rest => Chosen req apps.length input i k rest ∧ i < apps.length
      | .never => req = true ∧ ∃ bads, bads.length = k ∧ input = bads.flatten ∧ Cut bads [] ∧
          ∀ b ∈ bads, Invalid apps.length b := by
  cases req with
  | false =>
    exact ⟨.index 0 input, 0, rfl, .inl ⟨rfl, rfl, rfl, rfl⟩, List.length_pos_iff.mpr h0⟩
  | true =>
    obtain ⟨c, k, h1, h2⟩ := C111_choice apps.length input
    refine ⟨c, k, h1, ?_⟩
    cases c with
    | index i rest =>
      obtain ⟨bads, s, l1, l2, l3, l4, l5, l6⟩ := h2
      exact ⟨.inr ⟨rfl, bads, s, l1, l2, l3, l4, l5⟩, l6⟩
    | never => exact ⟨rfl, h2⟩

theorem rounds_spec (alloc : List Tlv → Tlv → Bool) (mem : Nat → List Byte) (hmem : ∀ n, (mem n).length = 255)
    (req : Bool) (ctx0 : Ctx) (fuel : Nat) : ∀ (ctx : Ctx) (apps : List App) (input : List Byte) (out : List Item)
      (script : List W), apps ≠ [] → apps.length ≤ fuel → (∀ w ∈ script, w.data.length < 2 ^ 24) →
      ctx.config = ctx0.config → ctx.params = ctx0.params →
      RoundsPost alloc ctx0 req apps input out script (rounds alloc mem req fuel ctx apps input out script) := by
  induction fuel with
  | zero =>
    intro ctx apps input out script h0 hf
    exact absurd (List.length_eq_zero_iff.mp (by omega)) h0
  | succ fuel ih =>
    intro ctx apps input out script h0 hf hsm hcfg hpar
    obtain ⟨c, k, hc, hcp⟩ := take_choice req apps h0 input
    rw [rounds, hc, bind_ok]
    simp only
    cases c with
    | never =>
      obtain ⟨rfl, bads, l1, l2, l3, l4⟩ := hcp
      refine ⟨rfl, hcfg, hpar, apps, input, [], [], [], .none _ _, .inl ⟨rfl, rfl, rfl, rfl, bads, l2, l3, l4, ?_⟩⟩
      simp [asked, l1]
    | index i input' =>
      obtain ⟨hch, hi⟩ := hcp
      have hout : (if req then asked apps k (.index i input') else [.text txt!"\nSelect first application:\n"]) =
          prompts req apps k := by
        unfold prompts asked
        rfl
      rw [hout]
      simp only
      cases hsel : select ctx apps i script with
      | error e => exact select_error hsel
      | ok y =>
        match y, hsel with
        | (_, .pending _), _ => trivial
        | (t, .done (r, apps', ctx') rest), hsel =>
          have hset := select_setup hsel
          obtain ⟨hs, ⟨h, -⟩ | ⟨a, ha, happs, hcase⟩⟩ := C39_select _ _ _ _ _ _ _ _ _ hsel
          · omega
          · rcases hcase with ⟨rfl, w, sel, rfl, hw0, hw1, hse, hsv, hsm', hso, hfci⟩ | ⟨hnone, hcase⟩
            · -- selected
              have hwsm : w.data.length < 2 ^ 24 := hsm w (by rw [hs]; simp)
              have hpd : ∀ v, field 0x9F38 sel.app.tlvs = some v → v.length < 2 ^ 24 := by
                intro v hv
                obtain ⟨t, ht, rfl⟩ := find_of_field hv
                have := (fci_fields hfci t (find_some ht).1).2.length_le
                omega
              have hreq : ∀ data, Requested ctx' (terminalData 0x05 sel.app.aid.value) sel.app.tlvs data →
                  Requested ctx0 (terminalData 0x05 a.aid.value) sel.app.tlvs data := by
                intro data h
                simpa [Requested, hset.1, hset.2, hcfg, hpar, hsv] using h
              have hp := C63_initiate alloc (mem fuel) (hmem fuel) ctx' sel hse hso hpd 0x05 rest
              have hsel' : Selected a w sel.app.tlvs := ⟨hw0, hw1, hfci⟩
              simp only [andThen, bind_ok]
              rw [if_neg (by decide), if_neg (by decide), if_neg (by rw [hse]; simp)]
              cases hin : initiate alloc (mem fuel) ctx' 0x05 rest with
              | error e => rw [hin] at hp; exact hp.elim
              | ok y =>
                match y, hin with
                | (_, .pending _), _ => trivial
                | (t2, .done (r2, ctx2) rest2), hin =>
                  rw [hin] at hp
                  obtain ⟨p1, p2, p3, -, p4⟩ := hp
                  simp only [bind_ok]
                  have done : ∀ (how : Option Int) (text : List Item),
                      Last alloc ctx0 a apps' how ((.select false a.aid.value, w) :: t2)
                        (.text txt!"\nInitiate application processing:\n" :: text) →
                      (how = none → Started alloc ctx0 ctx2 a ((.select false a.aid.value, w) :: t2)) →
                      RoundsPost alloc ctx0 req apps input out script
                      (.ok ([(.select false a.aid.value, w)] ++ (t2 ++ []),
                        .done (⟨(match how with | some r => .code r | none => .done), ctx2, apps', input',
                          out ++ prompts req apps k ++ [.text txt!"\nInitiate application processing:\n"] ++ text⟩ : End) rest2)) := by
                    intro how text hl hst
                    refine ⟨by rw [hs, p1]; simp, by rw [p3, hset.2, hcfg], by rw [p2, hset.1, hpar], apps, input, [], [], [],
                      .none _ _, .inr ⟨i, k, a, _, _, how, hch, ha, happs, by simp, by simp, rfl, hl, hst⟩⟩
                  have again : t2.length = 1 → Declined ctx0 a ([(.select false a.aid.value, w)] ++ t2) → apps' ≠ [] →
                      RoundsPost alloc ctx0 req apps input out script
                        (rounds alloc mem req fuel ctx2 apps' input'
                          (out ++ prompts req apps k ++ [.text txt!"\nInitiate application processing:\n"] ++ [complaint 5]) rest2 >>=
                        fun p => .ok ([(.select false a.aid.value, w)] ++ t2 ++ p.1, p.2)) := by
                    intro _ hd hne
                    refine post_again (a := a) (apps' := apps') (input' := input') (rest := rest2)
                      (pre := prompts req apps k ++ [.text txt!"\nInitiate application processing:\n", complaint 5])
                      (by rw [hs, p1]; simp) ?_ _ ?_
                    · intro left input'' picks tr shown h
                      subst happs
                      exact .declined hch ha hd hne h
                    · have := ih ctx2 apps' input' (out ++ (prompts req apps k ++
                        [.text txt!"\nInitiate application processing:\n", complaint 5])) rest2 hne ?_ ?_
                        (by rw [p3, hset.2, hcfg]) (by rw [p2, hset.1, hpar])
                      · simpa using this
                      · rw [happs, List.length_append, List.length_take, List.length_drop]; omega
                      · intro w hw; exact hsm w (by rw [hs, p1]; simp [hw])
                  rcases p4 with ⟨rfl, data, w2, fields, q1, rfl, q2, q3, q4, q5, q6, q7, q8, q9⟩ | ⟨hne, -, -, -, hq⟩
                  · rw [if_neg (by decide), if_neg (by decide)]
                    have := done none [] (.inr (.inr (.inr ⟨w, _, _, _, hsel', rfl, rfl, .inr (.inr (.inr ⟨rfl,
                      ⟨data, w2, fields, rfl, q2, q3, q4, hreq _ q1, q5, q6⟩, rfl⟩))⟩)))
                      (fun _ => ⟨ctx, ctx', apps, i, mem fuel, script, rest, rest, rest2, w, data, w2, hcfg, hpar, ha, hmem fuel,
                        rfl, ?_, hin⟩)
                    · simpa [fin] using this
                    · rw [hsel, happs, List.eraseIdx_eq_take_drop_succ]
                  · rcases hq with ⟨rfl, rfl, hb⟩ | ⟨rfl, hal⟩ | ⟨data, w2, q1, rfl, ⟨rfl, q2, q3⟩ | ⟨rfl, reason, q2, q3, q4⟩⟩
                    · rw [if_neg (by decide), if_pos (by decide), if_neg (by simp)]
                      exact done (some 1) [complaint 1] (.inr (.inr (.inr ⟨w, _, _, _, hsel', rfl, rfl, .inr (.inl ⟨rfl,
                        .inl ⟨rfl, hb⟩, rfl⟩)⟩))) (by simp)
                    · rw [if_pos (by decide)]
                      exact done (some (-1)) [complaint (-1)] (.inr (.inr (.inr ⟨w, _, _, _, hsel', rfl, rfl, .inr (.inr (.inl ⟨rfl,
                        hal, rfl⟩))⟩))) (by simp)
                    · have hd : Declined ctx0 a [(.select false a.aid.value, w), (.gpo data, w2)] :=
                        ⟨w, _, data, w2, rfl, hsel', hreq _ q1, q2, q3⟩
                      rw [if_neg (by decide), if_pos (by decide)]
                      by_cases he : apps' = []
                      · rw [if_neg (by simp [he])]
                        exact done (some 5) [complaint 5] (.inr (.inr (.inr ⟨w, _, _, _, hsel', rfl, rfl, .inl ⟨rfl,
                          he, hd, rfl⟩⟩))) (by simp)
                      · rw [if_pos (by simp [he])]
                        have := again rfl hd he
                        generalize rounds alloc mem req fuel ctx2 apps' input' _ rest2 = x at this
                        cases x with
                        | error e => exact this
                        | ok x => exact this
                    · rw [if_neg (by decide), if_pos (by decide), if_neg (by simp)]
                      exact done (some 1) [complaint 1] (.inr (.inr (.inr ⟨w, _, _, _, hsel', rfl, rfl, .inr (.inl ⟨rfl,
                        .inr ⟨data, w2, reason, rfl, hreq _ q1, q2, q3, q4⟩, rfl⟩)⟩))) (by simp)
            · -- not selected
              have done : ∀ code : Int, r = code → code ≠ 0 → code ≠ 4 → Last alloc ctx0 a apps' (some code) t
                  [complaint code] → RoundsPost alloc ctx0 req apps input out script
                    (.ok (t ++ [], .done (⟨.code r, ctx', apps', input', out ++ prompts req apps k ++ [complaint r]⟩ : End) rest)) := by
                intro code hr h1 h2 hl
                subst hr
                refine ⟨by rw [List.append_nil]; exact hs, by rw [hset.2, hcfg], by rw [hset.1, hpar], apps, input, [], [], [],
                  .none _ _, .inr ⟨i, k, a, t, [complaint r], some r, hch, ha, happs, by simp, by simp, rfl, hl, by simp⟩⟩
              simp only [andThen, bind_ok]
              rcases hcase with ⟨⟨rfl, he⟩ | ⟨rfl, hne⟩, href⟩ | ⟨rfl, w, ht, h1, h2⟩ | ⟨rfl, herr⟩
              · rw [if_neg (by decide), if_pos (by decide), if_neg (by decide)]
                exact done 3 rfl (by decide) (by decide) (.inl ⟨rfl, he, href, rfl⟩)
              · rw [if_neg (by decide), if_pos (by decide), if_pos (by decide)]
                refine post_again (a := a) (apps' := apps') (input' := input')
                  (pre := prompts req apps k ++ [complaint 4]) hs ?_ _ ?_
                · intro left input'' picks tr shown h
                  subst happs
                  exact .refused hch ha href hne h
                · rw [← List.append_assoc]
                  refine ih _ _ _ _ _ hne ?_ ?_ (by rw [hset.2, hcfg]) (by rw [hset.1, hpar])
                  · rw [happs, List.length_append, List.length_take, List.length_drop]; omega
                  · intro w hw; exact hsm w (by rw [hs]; simp [hw])
              · rw [if_neg (by decide), if_pos (by decide), if_neg (by decide)]
                exact done 2 rfl (by decide) (by decide) (.inr (.inl ⟨rfl, ⟨w, ht, h1, h2⟩, rfl⟩))
              · rw [if_neg (by decide), if_pos (by decide), if_neg (by decide)]
                exact done 1 rfl (by decide) (by decide) (.inr (.inr (.inl ⟨rfl, herr, rfl⟩)))

/-- **C110** (each once).  However the card answers and whatever is typed, in the rounds that ask for another
choice every candidate is tried at most once: the candidates tried and those left are the candidates there were, and
the applications the card is asked to select are, in order, among those tried. -/
theorem C110_once {ctx : Ctx} {req : Bool} {apps left picks : List App} {input input' : List Byte}
    {tr : List (Cmd × W)} {shown : List Item} (h : Tries ctx req apps input left input' picks tr shown) :
    (picks ++ left).Perm apps ∧
    (tr.filterMap fun x => match x.1 with | .select _ n => some n | _ => none).Sublist (picks.map (·.aid.value)) ∧
    ∃ used, input = used ++ input' := by
  have step : ∀ {apps : List App} {i : Nat} {a : App}, apps[i]? = some a → ∀ {l : List App},
      l.Perm (apps.take i ++ apps.drop (i + 1)) → (a :: l).Perm apps := by
    intro apps i a ha l hl
    obtain ⟨hi, rfl⟩ := List.getElem?_eq_some_iff.mp ha
    have h1 : apps.take i ++ apps[i] :: apps.drop (i + 1) = apps := by
      rw [List.getElem_cons_drop, List.take_append_drop]
    have h2 := List.perm_middle (a := apps[i]) (l₁ := apps.take i) (l₂ := apps.drop (i + 1))
    rw [h1] at h2
    exact (hl.cons _).trans h2.symm
  have used : ∀ {req n input i k rest}, Chosen req n input i k rest → ∃ u, input = u ++ rest := by
    rintro req n input i k rest (⟨-, -, -, rfl⟩ | ⟨-, bads, s, -, e, -⟩)
    · exact ⟨[], rfl⟩
    · exact ⟨_, e⟩
  induction h with
  | none apps input => exact ⟨List.Perm.refl _, List.Sublist.refl _, [], rfl⟩
  | refused hc ha hr hl h ih =>
    obtain ⟨i1, i2, u', i3⟩ := ih
    obtain ⟨u, hu⟩ := used hc
    refine ⟨step ha i1, ?_, u ++ u', by rw [hu, i3, List.append_assoc]⟩
    rw [List.filterMap_append, List.map_cons]
    rcases hr with ⟨-, rfl⟩ | ⟨w, rfl, -⟩
    · exact i2.cons _
    · exact i2.cons_cons _
  | declined hc ha hr hl h ih =>
    obtain ⟨i1, i2, u', i3⟩ := ih
    obtain ⟨u, hu⟩ := used hc
    refine ⟨step ha i1, ?_, u ++ u', by rw [hu, i3, List.append_assoc]⟩
    rw [List.filterMap_append, List.map_cons]
    obtain ⟨w1, fci, data, w2, rfl, -⟩ := hr
    exact i2.cons_cons _

theorem question_lines (apps : List App) : ∀ n, n + apps.length < 2 ^ 32 →
    ∃ lines : List (List Byte), lines.length = apps.length ∧
    (∀ i a, apps[i]? = some a → ∃ name more, a.name = name ++ more ∧ 0 ∉ name ∧ (more = [] ∨ more.head? = some 0) ∧
      lines[i]? = some (Lists.decimal (n + i + 1) ++ txt!" - " ++ name ++ txt!"\n")) ∧
    ((apps.zipIdx n).flatMap fun (a, i) => Lists.decU (i + 1) ++ txt!" - " ++ nameOf a ++ [0x0A]) = lines.flatten := by
  induction apps with
  | nil => intro n _; exact ⟨[], rfl, by simp, rfl⟩
  | cons b apps ih =>
    intro n hn
    rw [List.length_cons] at hn
    obtain ⟨lines, h1, h2, h3⟩ := ih (n + 1) (by omega)
    refine ⟨(Lists.decU (n + 1) ++ txt!" - " ++ nameOf b ++ [0x0A]) :: lines, by simp [h1], ?_, ?_⟩
    · intro i a ha
      cases i with
      | zero =>
        simp only [List.getElem?_cons_zero, Option.some.injEq] at ha
        subst ha
        obtain ⟨z, e, hz⟩ := takeWhile_split b.name
        refine ⟨nameOf b, z, e, ?_, ?_, ?_⟩
        · intro h
          have : ∀ (l : List Byte), 0 ∉ l.takeWhile (· != 0) := by
            intro l
            induction l with
            | nil => simp
            | cons x l ih =>
              rw [List.takeWhile_cons]
              split
              · next hx =>
                intro hm
                rcases List.mem_cons.mp hm with hm | hm
                · rw [← hm] at hx; cases hx
                · exact ih hm
              · simp
          exact this _ h
        · cases z with
          | nil => exact .inl rfl
          | cons c r => rw [hz c r rfl]; exact .inr rfl
        · rw [List.getElem?_cons_zero, Lists.decU_spec _ (by omega)]
          rfl
      | succ i =>
        rw [List.getElem?_cons_succ] at ha
        obtain ⟨name, more, e1, e2, e3, e4⟩ := h2 i a ha
        refine ⟨name, more, e1, e2, e3, ?_⟩
        rw [List.getElem?_cons_succ, e4]
        congr 6
        omega
    · rw [List.zipIdx_cons, List.flatMap_cons, h3]
      rfl

/-- **C111** (question).  The question lists every candidate with its number, counted from 1, and its name. -/
theorem C111_question (apps : List App) (h : apps.length < 2 ^ 32) : Question apps (question apps) := by
  obtain ⟨lines, h1, h2, h3⟩ := question_lines apps 0 (by omega)
  refine ⟨lines, h1, ?_, by rw [question, h3]⟩
  intro i a ha
  have := h2 i a ha
  rw [Nat.zero_add] at this
  exact this

example : question [⟨⟨0x4F, 0, [0xA0]⟩, txt!"VISA" ++ [0, 0], 1, false, []⟩, ⟨⟨0x4F, 0, [0xA1]⟩, txt!"Maestro" ++ [0], 1, false, []⟩] =
    txt!"\nSelect application:\n1 - VISA\n2 - Maestro\nEnter number: " := by decide +kernel

/-- What is shown before the rounds. -/
def header (apps : List App) (req : Bool) : List Item :=
  [.text txt!"\nBuild candidate list\n", .text txt!"Candidate applications:\n"] ++ apps.map .app ++
    if req then [.text txt!"Cardholder selection is required\n"] else []

/-- How the transaction ends: when the candidate list cannot be built, in a round, or after reading the data. -/
def TxnPost (alloc : List Tlv → Tlv → Bool) (ctx : Ctx) (input : List Byte) (script : List W) : C (Run End) → Prop
  | .error _ => ∃ w ∈ script, Bare w
  | .ok (_, .pending _) => True
  | .ok (tr, .done e rest) => script = tr.map (·.2) ++ rest ∧
    ∃ tr0 r apps rest0, Emv.build ctx.supported [] script = .ok (tr0, .done (r, apps) rest0) ∧
    BuildPost ctx.supported tr0 r apps ∧
    ((r ≠ 0 ∧ e.how = .code r ∧ tr = tr0 ∧ ∃ s, (r, s) ∈ codes ∧ e.out = [.text txt!"\nBuild candidate list\n", .text s]) ∨
     (r = 0 ∧ ∃ (req : Bool) (e1 : End) (tr1 tr2 : List (Cmd × W)) (rest1 : List W),
      (req = true ↔ (∃ a ∈ apps, App.conf a = true) ∨ 1 < apps.length) ∧
      RoundsPost alloc ctx req apps input (header apps req) rest0 (.ok (tr1, .done e1 rest1)) ∧
      tr = tr0 ++ tr1 ++ tr2 ∧
      ((e1.how ≠ .done ∧ tr2 = [] ∧ e = e1) ∨
       (e1.how = .done ∧ ∃ r2, readData alloc e1.ctx rest1 = .ok (tr2, .done (r2, e.ctx) rest) ∧
        ((r2 ≠ 0 ∧ e.how = .code r2 ∧ ∃ s, (r2, s) ∈ codes ∧
            e.out = e1.out ++ [.text txt!"\nRead application data\n", .text s]) ∨
         (r2 = 0 ∧ e.how = .done ∧ e.out = e1.out ++ [.text txt!"\nRead application data\n", .text txt!"\nICC data:\n",
            .fields e.ctx.icc, .text txt!"\nTerminal data\n", .fields e.ctx.terminal]))))))

theorem readData_error {alloc : List Tlv → Tlv → Bool} {ctx : Ctx} {script : List W} {e : UB}
    (h : readData alloc ctx script = .error e) : ∃ w ∈ script, Bare w := by
  apply Classical.byContradiction
  intro hno
  have hne : ∀ w ∈ script, ¬ Bare w := fun w hw hb => hno ⟨w, hw, hb⟩
  have : C.Safe (readData alloc ctx script) := by
    unfold readData
    split
    · exact ⟨_, rfl⟩
    · rename_i afl _
      obtain ⟨y, hy⟩ := C29_safe alloc afl.value [] script hne
      rw [hy]
      match y with
      | (_, .pending _) => exact ⟨_, rfl⟩
      | (_, .done x _) =>
        simp only [andThen, bind_ok]
        split
        · exact ⟨_, rfl⟩
        · split
          · exact ⟨_, rfl⟩
          · split
            · exact ⟨_, rfl⟩
            · split <;> exact ⟨_, rfl⟩
  obtain ⟨x, hx⟩ := this
  rw [hx] at h
  cases h

theorem readData_script {alloc : List Tlv → Tlv → Bool} {ctx ctx' : Ctx} {script rest : List W} {tr : List (Cmd × W)}
    {r : Int} (h : readData alloc ctx script = .ok (tr, .done (r, ctx') rest)) : script = tr.map (·.2) ++ rest := by
  unfold readData at h
  split at h
  · simp only [fin, Except.ok.injEq, Prod.mk.injEq, Out.done.injEq] at h
    obtain ⟨rfl, -, rfl⟩ := h
    rfl
  · next afl _ =>
    have key : ∀ t l x, readAfl alloc afl.value [] script = .ok (t, .done x l) → script = t.map (·.2) ++ l := by
      intro t l x hx
      rcases readAfl_spec alloc afl.value [] script with ⟨c, -, h1, -⟩ | ⟨-, -, -, hp⟩
      · rw [h1] at hx; cases hx; rfl
      · rw [hx] at hp; exact hp.1
    generalize readAfl alloc afl.value [] script = y at h key
    match y with
    | .error e => cases h
    | .ok (_, .pending _) => cases h
    | .ok (t, .done x l) =>
      have e := key t l x rfl
      simp only [andThen, bind_ok] at h
      split at h
      · simp only [fin, bind_ok, Except.ok.injEq, Prod.mk.injEq, Out.done.injEq, List.append_nil] at h
        rw [← h.1, ← h.2.2]; exact e
      · split at h
        · simp only [fin, bind_ok, Except.ok.injEq, Prod.mk.injEq, Out.done.injEq, List.append_nil] at h
          rw [← h.1, ← h.2.2]; exact e
        · split at h
          · simp only [fin, bind_ok, Except.ok.injEq, Prod.mk.injEq, Out.done.injEq, List.append_nil] at h
            rw [← h.1, ← h.2.2]; exact e
          · split at h <;>
            · simp only [fin, bind_ok, Except.ok.injEq, Prod.mk.injEq, Out.done.injEq, List.append_nil] at h
              rw [← h.1, ← h.2.2]; exact e

/-- **C110.**  For every terminal data, every input and every card (no single answer of 16 MB or more), the
transaction ends as `TxnPost` says: undefined behaviour needs an answer with success and no data; the candidates are
those of the built list; each round tries the chosen one; a refused or declined candidate leads to another round as
long as one is left; every other outcome ends the transaction with its text; after a started application its data are
read and shown. -/
theorem C110_transaction (alloc : List Tlv → Tlv → Bool) (mem : Nat → List Byte) (hmem : ∀ n, (mem n).length = 255)
    (ctx : Ctx) (input : List Byte) (script : List W) (hsm : ∀ w ∈ script, w.data.length < 2 ^ 24) :
    TxnPost alloc ctx input script (transaction alloc mem ctx input script) := by
  unfold transaction
  simp only
  cases hb : Emv.build ctx.supported [] script with
  | error e =>
    apply Classical.byContradiction
    intro hno
    obtain ⟨x, hx⟩ := C42_safe ctx.supported [] script fun w hw hb => hno ⟨w, hw, hb⟩
    rw [hb] at hx
    cases hx
  | ok y =>
    match y, hb with
    | (_, .pending _), _ => trivial
    | (tr0, .done (r, apps) rest0), hb =>
      obtain ⟨hs, hpost⟩ := C42_outcome _ _ (by simp) _ _ _ _ _ hb
      simp only [andThen, bind_ok]
      by_cases h0 : r = 0
      · subst h0
        rw [if_neg (by simp)]
        have hne : apps ≠ [] := by
          rcases hpost with ⟨-, h, -⟩ | ⟨h, -⟩ | ⟨-, -, ⟨h, -⟩ | ⟨h, -⟩ | ⟨h, -⟩⟩
          · exact h
          all_goals omega
        have hr := rounds_spec alloc mem hmem (required apps) ctx (apps.length + 1) ctx apps input
          (header apps (required apps)) rest0 hne (by omega) (fun w hw => hsm w (by rw [hs]; simp [hw])) rfl rfl
        have hh : [Item.text txt!"\nBuild candidate list\n"] ++ [Item.text txt!"Candidate applications:\n"] ++ apps.map .app ++
            (if required apps then [Item.text txt!"Cardholder selection is required\n"] else []) =
            header apps (required apps) := rfl
        rw [hh]
        generalize rounds alloc mem (required apps) (apps.length + 1) ctx apps input (header apps (required apps)) rest0 = x
          at hr
        match x, hr with
        | .error e, ⟨w, hw, hb⟩ => exact ⟨w, by rw [hs]; simp [hw], hb⟩
        | .ok (_, .pending _), _ => trivial
        | .ok (tr1, .done e1 rest1), hr =>
          have hs1 := hr.1
          simp only [bind_ok]
          have hreq : required apps = true ↔ (∃ a ∈ apps, App.conf a = true) ∨ 1 < apps.length := by
            simp [required]
          by_cases hd : e1.how = .done
          · rw [if_pos hd]
            unfold reading
            simp only
            cases hrd : readData alloc e1.ctx rest1 with
            | error e =>
              obtain ⟨w, hw, hb⟩ := readData_error hrd
              exact ⟨w, by rw [hs, hs1]; simp [hw], hb⟩
            | ok z =>
              match z, hrd with
              | (_, .pending _), _ => trivial
              | (tr2, .done (r2, ctx2) rest2), hrd =>
                have hrs : rest1 = tr2.map (·.2) ++ rest2 := readData_script hrd
                simp only [andThen, bind_ok]
                by_cases h2 : r2 = 0
                · subst h2
                  rw [if_neg (by simp)]
                  refine ⟨by rw [hs, hs1, hrs]; simp, tr0, 0, apps, rest0, hb, hpost, .inr ⟨rfl, _, e1, tr1, tr2, rest1,
                    hreq, hr, by simp, .inr ⟨hd, 0, hrd, .inr ⟨rfl, rfl, by simp⟩⟩⟩⟩
                · rw [if_pos h2]
                  obtain ⟨s, hcs⟩ := (C112_texts r2).2.2.2.2 _ _ _ _ _ _ hrd h2
                  refine ⟨by rw [hs, hs1, hrs]; simp, tr0, 0, apps, rest0, hb, hpost, .inr ⟨rfl, _, e1, tr1, tr2, rest1,
                    hreq, hr, by simp, .inr ⟨hd, r2, hrd, .inl ⟨h2, rfl, s, hcs, ?_⟩⟩⟩⟩
                  rw [(C112_texts r2).1 s hcs]
                  simp
          · rw [if_neg hd]
            refine ⟨by rw [hs, hs1]; simp, tr0, 0, apps, rest0, hb, hpost, .inr ⟨rfl, _, e1, tr1, [], rest1,
              hreq, hr, by simp, .inl ⟨hd, rfl, rfl⟩⟩⟩
      · rw [if_pos h0]
        obtain ⟨s, hcs⟩ := (C112_texts r).2.1 _ _ _ _ _ _ (by simp) hb h0
        refine ⟨by rw [hs]; simp, tr0, r, apps, rest0, hb, hpost, .inl ⟨h0, rfl, by simp, s, hcs, ?_⟩⟩
        rw [(C112_texts r).1 s hcs]
        rfl

/-- **C110** (safety), partial: without answers of success and no data.  With terminal data loaded as the tool does, no card that answers every success with data
leads to undefined behaviour, and the rounds end: only waiting for input may go on forever. -/
theorem C110_safe_partial (alloc : List Tlv → Tlv → Bool) (mem : Nat → List Byte) (hmem : ∀ n, (mem n).length = 255)
    (buf : List Byte) (hb : buf.length = 6) (tm : Tm) (htm : Valid tm) (l : List ToolArgs.Opt) (o : ToolArgs.Opts)
    (ho : ToolArgs.parse .init l = .ok (.set o)) (input : List Byte) (script : List W)
    (hsm : ∀ w ∈ script, w.data.length < 2 ^ 24) (hne : ∀ w ∈ script, ¬ Bare w) :
    ∃ c, load alloc buf tm o = .ok c ∧ C.Safe (transaction alloc mem c input script) := by
  obtain ⟨r1, r2, r3⟩ := opts_range _ _ l ho (by decide)
  obtain ⟨c, -, -, hc, -⟩ := C109_load alloc buf hb tm htm o r1 r2 r3
  refine ⟨c, hc, ?_⟩
  have := C110_transaction alloc mem hmem c input script hsm
  cases hx : transaction alloc mem c input script with
  | ok x => exact ⟨x, rfl⟩
  | error e =>
    rw [hx] at this
    obtain ⟨w, hw, hb⟩ := this
    exact absurd hb (hne w hw)

/-- A completed transaction: one of the candidates was selected, started and read.  The exchanges are those of the
candidate list, of the rounds before, and then SELECT of this candidate, GET PROCESSING OPTIONS with the data it asks
for and the records its AFL lists; what is shown at the end is exactly the fields of the card's answers in order, and
the terminal data. -/
def Completed (ctx : Ctx) (input : List Byte) (script : List W) (tr : List (Cmd × W)) (e : End) : Prop :=
  ∃ tr0 apps rest0, Emv.build ctx.supported [] script = .ok (tr0, .done (0, apps) rest0) ∧
    BuildPost ctx.supported tr0 0 apps ∧
  ∃ req left input' picks tr1 shown a w1 data w2 tr2,
    (req = true ↔ (∃ a ∈ apps, App.conf a = true) ∨ 1 < apps.length) ∧
    Tries ctx req apps input left input' picks tr1 shown ∧ a ∈ left ∧ (∃ others, (picks ++ a :: others).Perm apps) ∧
    tr = tr0 ++ tr1 ++ [(.select false a.aid.value, w1), (.gpo data, w2)] ++ tr2 ∧
  ∃ fci opts fs b es, Fci w1.data a.aid.value fci ∧ Carries w2.data opts ∧ Reads tr2 fs b ∧
    (∀ e ∈ es, AflEntry.WF e) ∧ tr2.map (·.1) = commands es ∧ field 0x94 (fci ++ opts) = some (encAfl es) ∧
    Sufficient fs ∧ Requested ctx (terminalData 0x05 a.aid.value) fci data ∧
    e.out.drop (e.out.length - 4) = [.text txt!"\nICC data:\n", .fields (fci ++ opts ++ fs),
      .text txt!"\nTerminal data\n", .fields (terminalData 0x05 a.aid.value)]

theorem completed {alloc : List Tlv → Tlv → Bool} {ctx : Ctx} {input : List Byte} {script : List W}
    (hsm : ∀ w ∈ script, w.data.length < 2 ^ 24) {tr : List (Cmd × W)} {e : End} {rest : List W}
    (hp : TxnPost alloc ctx input script (.ok (tr, .done e rest))) (hd : e.how = .done) :
    Completed ctx input script tr e := by
  obtain ⟨hs, tr0, r, apps, rest0, hb, hbp, ⟨-, h1, -⟩ | ⟨rfl, req, e1, tr1, tr2, rest1, hreq, hr, htr, hcase⟩⟩ := hp
  · rw [hd] at h1; cases h1
  · rcases hcase with ⟨h1, -, rfl⟩ | ⟨hd1, r2, hrd, ⟨-, h1, -⟩ | ⟨rfl, -, hout⟩⟩
    · exact absurd hd h1
    · rw [hd] at h1; cases h1
    · obtain ⟨hs1, hcfg, hpar, left, input', picks, tr1', shown, ht, hend⟩ := hr
      rcases hend with ⟨h1, -⟩ | ⟨i, k, a, t, text, how, hch, ha, happs, htr1, hout1, hhow, hlast, hst⟩
      · rw [hd1] at h1; cases h1
      · have hn : how = none := by
          cases how with
          | none => rfl
          | some x => rw [hd1] at hhow; cases hhow
        obtain ⟨c0, c1, apps', i', buf, s1, q1, s2, q2, w1, data, w2, k1, k2, k3, k4, rfl, k5, k6⟩ := hst hn
        have hw1 : w1.data.length < 2 ^ 24 := by
          apply hsm w1
          have hmem1 : w1 ∈ tr.map (·.2) := by rw [htr, htr1]; simp
          rw [hs]
          exact List.mem_append_left _ hmem1
        obtain ⟨fci, opts, fs, b, es, m1, m2, m3, m4, m5, m6, -, -, m7, m8, m9, m10⟩ :=
          C65_transaction (c0 := c0) (c1 := c1) (c2 := e1.ctx) (c3 := e.ctx) (a := a) (w1 := w1) (w2 := w2) (data := data)
            (tr := tr2) (pos := 0x05)
            ⟨⟨apps', i', s1, q1, k3, k5⟩, ⟨alloc, buf, s2, q2, k4, k6⟩, ⟨alloc, rest1, rest, hrd⟩⟩ hw1
        have ham : a ∈ left := List.mem_of_getElem? ha
        refine ⟨tr0, apps, rest0, hb, hbp, req, left, input', picks, tr1', shown, a, w1, data, w2, tr2, hreq, ht, ham, ?_, ?_,
          fci, opts, fs, b, es, m1, m2, m3, m4, m5, m6, m7, ?_, ?_⟩
        · obtain ⟨l1, l2, rfl⟩ := List.append_of_mem ham
          exact ⟨l1 ++ l2, ((List.perm_middle (a := a)).symm.append_left picks).trans (C110_once ht).1⟩
        · rw [htr, htr1]; simp
        · simpa [Requested, k1, k2] using m8
        · rw [hout, m9, m10]
          simp

/-- **C110** (success).  A transaction that ends without a code is completed. -/
theorem C110_success (alloc : List Tlv → Tlv → Bool) (mem : Nat → List Byte) (hmem : ∀ n, (mem n).length = 255)
    (ctx : Ctx) (input : List Byte) (script : List W) (hsm : ∀ w ∈ script, w.data.length < 2 ^ 24)
    (tr : List (Cmd × W)) (e : End) (rest : List W)
    (h : transaction alloc mem ctx input script = .ok (tr, .done e rest)) (hd : e.how = .done) :
    Completed ctx input script tr e := by
  have hp := C110_transaction alloc mem hmem ctx input script hsm
  rw [h] at hp
  exact completed hsm hp hd

/-- **C110**, false otherwise: when the cardholder must choose and the input has ended, the question is asked forever,
whatever the card and the terminal data. -/
theorem C110_stuck (alloc : List Tlv → Tlv → Bool) (mem : Nat → List Byte) (ctx : Ctx) (script rest0 : List W)
    (tr0 : List (Cmd × W)) (apps : List App)
    (hb : Emv.build ctx.supported [] script = .ok (tr0, .done (0, apps) rest0))
    (h2 : 1 < apps.length ∨ ∃ a ∈ apps, App.conf a = true) :
    ∃ e, transaction alloc mem ctx [] script = .ok (tr0, .done e rest0) ∧ e.how = .stuck := by
  have hr : required apps = true := by
    rcases h2 with h | ⟨a, ha, hc⟩
    · simp [required, h]
    · simp only [required, Bool.or_eq_true, List.any_eq_true]
      exact .inl ⟨a, ha, hc⟩
  refine ⟨⟨.stuck, ctx, apps, [], header apps true ++ asked apps 0 .never⟩, ?_, rfl⟩
  unfold transaction
  rw [hb]
  simp only [andThen, bind_ok, ne_eq, not_true_eq_false, if_false, hr]
  simp [rounds, pick, choose, fgets, fin, header]

/-- The result of a call, for examples. -/
def runOf (x : C (Run End)) : Option (List Cmd × End) :=
  match x with
  | .ok (tr, .done e _) => some (tr.map (·.1), e)
  | _ => none

/-- A card with two candidates: the cardholder enters `9`, then `2`, which the card refuses, then `1`. -/
example :
    let a : List Byte := [0xA0, 0, 0, 0, 4]
    let b : List Byte := [0xA0, 0, 0, 0, 3]
    let fciA : List Byte := [0x6F, 0x07, 0x84, 0x05, 0xA0, 0, 0, 0, 4]
    let fciB : List Byte := [0x6F, 0x07, 0x84, 0x05, 0xA0, 0, 0, 0, 3]
    let gpo : List Byte := [0x77, 0x0A, 0x82, 0x02, 0x39, 0, 0x94, 4, 8, 1, 1, 0]
    let rec1 : List Byte := [0x70, 13, 0x5A, 1, 0x12, 0x5F, 0x24, 1, 0x31, 0x8C, 1, 0x9A, 0x8D, 1, 0x8A]
    let ctx : Ctx := { Ctx.init with supported := [⟨0x9F06, 0, a⟩, ⟨0x9F06, 0, b⟩] }
    let script : List W := [⟨0, [], 0x6A82⟩, ⟨0, fciA, 0x9000⟩, ⟨0, fciB, 0x9000⟩, ⟨0, fciA, 0x6A82⟩, ⟨0, fciB, 0x9000⟩,
      ⟨0, gpo, 0x9000⟩, ⟨0, rec1, 0x9000⟩]
    (runOf (transaction (fun _ _ => true) (fun _ => List.replicate 255 0) ctx txt!"9\n2\n1\n" script)).map
      (fun x => (x.1.drop 3, x.2.how, x.2.out.drop 5)) =
    some ([.select false a, .select false b, .gpo none, .readRecord 1 1], .done, [
      .text txt!"\nSelect application:\n1 - A000000003\n2 - A000000004\nEnter number: ",
      .text txt!"Invalid input. Try again.\n",
      .text txt!"\nSelect application:\n1 - A000000003\n2 - A000000004\nEnter number: ",
      .text txt!"OUTCOME: Try again\n",
      .text txt!"\nSelect application:\n1 - A000000003\nEnter number: ",
      .text txt!"\nInitiate application processing:\n", .text txt!"\nRead application data\n", .text txt!"\nICC data:\n",
      .fields [⟨0x84, 0, b⟩, ⟨0x82, 0, [0x39, 0]⟩, ⟨0x94, 0, [8, 1, 1, 0]⟩, ⟨0x5A, 0, [0x12]⟩, ⟨0x5F24, 0, [0x31]⟩,
        ⟨0x8C, 0, [0x9A]⟩, ⟨0x8D, 0, [0x8A]⟩],
      .text txt!"\nTerminal data\n", .fields (terminalData 0x05 b)]) := by
  decide +kernel

end Verif.ToolTxn
