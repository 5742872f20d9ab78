import Verif.CompleteDirProps
import Verif.AgainProps

/-!
# C153: an application that cannot be used does not keep the others from being used
-/

set_option autoImplicit false

namespace Verif.Search
open Verif Ber BerSpec TlvParse App Tal Fields Emv Dol

/-! ## Specification -/

/-- Rounds in which the application chosen cannot be used, up to the candidates that are left.  The card refuses SELECT (with
any status but 6A81), or it selects the application and answers 6985 to GET PROCESSING OPTIONS. -/
inductive Unusable (ctx : Ctx) (req : Bool) : List App → List Byte → List (Cmd × W) → List App → List Byte → Prop where
  | none {apps : List App} {input : List Byte} : Unusable ctx req apps input [] apps input
  | refused {apps apps' : List App} {input input1 input' : List Byte} {tr : List (Cmd × W)} (i bad : Nat) (a : App) (w : W)
      (hp : ToolTxn.pick req apps input = .ok (.index i input1, bad)) (ha : apps[i]? = some a)
      (hl : 5 ≤ a.aid.value.length ∧ a.aid.value.length ≤ 16) (h0 : w.code = 0) (h1 : w.sw ≠ 0x9000) (h2 : w.sw ≠ 0x6A81)
      (hne : apps.eraseIdx i ≠ []) (t : Unusable ctx req (apps.eraseIdx i) input1 tr apps' input') :
      Unusable ctx req apps input ((.select false a.aid.value, w) :: tr) apps' input'
  | unsatisfied {apps apps' : List App} {input input1 input' : List Byte} {tr : List (Cmd × W)} (i bad : Nat) (a : App)
      (w g : W) (m : CardApp) (data : Option (List Byte))
      (hp : ToolTxn.pick req apps input = .ok (.index i input1, bad)) (ha : apps[i]? = some a)
      (hl : 5 ≤ m.name.length ∧ m.name.length ≤ 16) (hm : m.WF) (hb : m.blocked = false) (hn : a.aid.value = m.name)
      (hw : Answer (some m) w) (hd : Requested ctx (terminalData 5 m.name) m.body.leaves data)
      (hs : ∀ v, field 0x9F38 m.body.leaves = some v → v.length ≤ 255) (h0 : g.code = 0) (h1 : g.sw = 0x6985)
      (hne : apps.eraseIdx i ≠ []) (t : Unusable ctx req (apps.eraseIdx i) input1 tr apps' input') :
      Unusable ctx req apps input ((.select false m.name, w) :: (.gpo data, g) :: tr) apps' input'

/-! ## Lemmas -/

theorem select_refused (ctx : Ctx) (apps : List App) (i : Nat) (a : App) (ha : apps[i]? = some a)
    (hl : 5 ≤ a.aid.value.length ∧ a.aid.value.length ≤ 16) (w : W) (h0 : w.code = 0) (h1 : w.sw ≠ 0x9000)
    (h2 : w.sw ≠ 0x6A81) (hne : apps.eraseIdx i ≠ []) (rest : List W) :
    select ctx apps i (w :: rest) =
      .ok ([(.select false a.aid.value, w)], .done (4, apps.eraseIdx i, { ctx with selected := none }) rest) := by
  unfold select
  simp only [ha]
  rw [if_neg (by omega)]
  unfold selectApp send andThen
  rw [if_neg (by omega), if_neg (by simp [refusesName]; omega)]
  simp only
  rw [if_neg (by simp [h0]), if_pos h1, if_neg h2]
  have ht : tryAgain (apps.eraseIdx i) = 4 := by
    unfold tryAgain
    cases h : apps.eraseIdx i with
    | nil => exact absurd h hne
    | cons => rfl
  have hpos : 0 < (if w.sw = 0x6A82 then (9 : Int) else if w.sw = 0x6283 then 10 else 11) := by
    split
    · decide
    · split <;> decide
  simp only [fin, log, bind_ok]
  rw [if_neg (by omega), if_pos hpos, ht]
  rfl

theorem initiate_unsatisfied (buf : List Byte) (ctx : Ctx) (s : Sel) (hs : ctx.selected = some s)
    (ho : s.aid = .own) (data : Option (List Byte)) (pos : Byte)
    (hdata : Requested ctx (terminalData pos s.app.aid.value) s.app.tlvs data)
    (hlen : ∀ v, field 0x9F38 s.app.tlvs = some v → v.length < 2 ^ 24) (hbuf : buf.length = 255) (g : W)
    (h0 : g.code = 0) (h1 : g.sw = 0x6985) (rest : List W) :
    ∃ ctx', initiate allocOk buf ctx pos (g :: rest) = .ok ([(.gpo data, g)], .done (5, ctx') rest) ∧ Again.Same ctx ctx' := by
  obtain ⟨cfg, sup, par, sel, icc, term⟩ := ctx
  change sel = some s at hs
  subst hs
  have hclr : Ctx.clearIcc ⟨cfg, sup, par, some s, icc, term⟩ = ⟨cfg, sup, par, some s, [], term⟩ := by
    simp [Ctx.clearIcc, ho]
  have hd : gpoData buf [par, cfg, terminalData pos s.app.aid.value] s.app.tlvs = .ok (.ok data) ∧
      refusesGpo data = false := by
    rcases hdata with ⟨h1, rfl⟩ | ⟨rs, h1, h2, h3, h4, rfl⟩
    · refine ⟨?_, rfl⟩
      rw [← find_field] at h1
      cases hfd : find s.app.tlvs 0x9F38 with
      | none => simp [gpoData, hfd]
      | some t => rw [hfd] at h1; cases h1
    · refine ⟨gpoData_valid buf hbuf _ (by simp) s.app.tlvs rs h1 h2 h3 (hlen _ h3) h4, ?_⟩
      exact (template83_accepted (by rw [dolData_length]; exact h4)).2
  have hpar : ¬ badGpo data = true := by
    have hd := hd.2
    cases data with
    | none => simp [badGpo]
    | some d => simp [refusesGpo] at hd; simp [badGpo]; omega
  have hgpo : gpo allocOk data [] (g :: rest) = .ok ([(.gpo data, g)], .done ⟨13, [], .null, .null⟩ rest) := by
    unfold gpo
    rw [if_neg hpar]
    unfold send
    rw [hd.2]
    simp only [Bool.false_eq_true, if_false]
    rw [if_neg (by simp [h0]), if_pos (by simp [h1]), if_pos h1]
    rfl
  refine ⟨⟨cfg, sup, par, some s, [], terminalData pos s.app.aid.value⟩, ?_, rfl, rfl, rfl⟩
  unfold initiate
  simp only [hclr]
  rw [if_neg (by simp [allocOk]), if_neg (by simp [ho])]
  rcases pushAll_spec allocOk (terminalData pos s.app.aid.value) [] with hp | ⟨⟨l, t, h⟩, -⟩
  · rw [hp]
    simp only [Bool.not_true, Bool.false_eq_true, if_false, List.nil_append, hd.1, bind_ok]
    rw [hgpo]
    rfl
  · cases h

theorem requested_same {c d : Ctx} (h : Again.Same c d) {t l : List Tlv} {data : Option (List Byte)}
    (hr : Requested c t l data) : Requested d t l data := by
  obtain ⟨h1, -, h3⟩ := h
  unfold Requested at hr ⊢
  rw [← h1, ← h3]
  exact hr

theorem good_same {c d : Ctx} (h : Again.Same c d) {m : CardApp} {data : Option (List Byte)} {g : W} {opts : List Tlv}
    {tr : List (Cmd × W)} {fs : List Tlv} (hg : Good c m data g opts tr fs) : Good d m data g opts tr fs :=
  ⟨hg.name, requested_same h hg.pdol, hg.short, hg.options, hg.noAfl, hg.records, hg.answers, hg.enough⟩

/-- The rounds with applications that cannot be used lead to a round with the candidates left. -/
theorem rounds_unusable (mem : Nat → List Byte) (hmem : ∀ k, (mem k).length = 255) (ctx0 : Ctx) (req : Bool)
    {apps apps' : List App} {input input' : List Byte} {tr : List (Cmd × W)} (h : Unusable ctx0 req apps input tr apps' input') :
    ∀ (fuel : Nat) (ctx : Ctx) (out : List ToolTxn.Item) (script : List W), apps.length < fuel → Again.Same ctx0 ctx →
      ∃ fuel' ctx' out', apps'.length < fuel' ∧ Again.Same ctx0 ctx' ∧
        ToolTxn.rounds allocOk mem req fuel ctx apps input out (tr.map (·.2) ++ script) =
          (do
            let (l, o) ← ToolTxn.rounds allocOk mem req fuel' ctx' apps' input' out' script
            .ok (tr ++ l, o)) := by
  induction h with
  | none =>
    intro fuel ctx out script hf hs
    refine ⟨fuel, ctx, out, hf, hs, ?_⟩
    simp only [List.map_nil, List.nil_append]
    cases ToolTxn.rounds allocOk mem req fuel ctx _ _ out script with
    | error e => rfl
    | ok x => rfl
  | @refused apps apps' input input1 input' tr i bad a w hp ha hl h0 h1 h2 hne t ih =>
    intro fuel ctx out script hf hs
    match fuel, hf with
    | fuel + 1, hf =>
      have hi : i < apps.length := (List.getElem?_eq_some_iff.1 ha).1
      obtain ⟨fuel', ctx', out', f1, f2, f3⟩ := ih fuel { ctx with selected := none }
        (out ++ (if req then ToolTxn.asked apps bad (.index i input1) else [.text txt!"\nSelect first application:\n"]) ++
          [ToolTxn.complaint 4]) script
        (by rw [List.length_eraseIdx_of_lt hi]; omega) hs
      refine ⟨fuel', ctx', out', f1, f2, ?_⟩
      conv => lhs; unfold ToolTxn.rounds
      simp only [hp, bind_ok, List.map_cons, List.cons_append]
      rw [select_refused ctx apps i a ha hl w h0 h1 h2 hne]
      simp only [andThen, bind_ok]
      rw [if_neg (by decide), if_pos (by decide), if_pos trivial, f3]
      cases ToolTxn.rounds allocOk mem req fuel' ctx' apps' input' out' script with
      | error e => rfl
      | ok x => rfl
  | @unsatisfied apps apps' input input1 input' tr i bad a w g m data hp ha hl hm hb hn hw hd hsh h0 h1 hne t ih =>
    intro fuel ctx out script hf hs
    match fuel, hf with
    | fuel + 1, hf =>
      have hi : i < apps.length := (List.getElem?_eq_some_iff.1 ha).1
      obtain ⟨b, hk, hsel⟩ := select_answer ctx apps i a ha (by rw [hn]; exact hl) m hm w
        (g :: (tr.map (·.2) ++ script)) hw (by rw [hn]; exact List.prefix_rfl)
      rw [if_pos ⟨hb, hn⟩, hn] at hsel
      have k1 : b.aid.value = m.name := congrArg (·.1) hk
      have k2 : b.tlvs = m.body.leaves := congrArg (·.2) hk
      obtain ⟨ctx1, hini, hsame⟩ := initiate_unsatisfied (mem fuel) { ctx with selected := some ⟨b, .own⟩ } ⟨b, .own⟩ rfl rfl
        data 5 (by rw [k1, k2]; exact requested_same (d := { ctx with selected := some ⟨b, .own⟩ }) hs hd)
        (by rw [k2]; exact fun v hv => Nat.lt_of_le_of_lt (hsh v hv) (by decide)) (hmem _) g h0 h1 (tr.map (·.2) ++ script)
      have hs1 : Again.Same ctx0 ctx1 := ⟨hs.1.trans hsame.1, hs.2.1.trans hsame.2.1, hs.2.2.trans hsame.2.2⟩
      obtain ⟨fuel', ctx', out', f1, f2, f3⟩ := ih fuel ctx1
        (out ++ (if req then ToolTxn.asked apps bad (.index i input1) else [.text txt!"\nSelect first application:\n"]) ++
          [.text txt!"\nInitiate application processing:\n"] ++ [ToolTxn.complaint 5]) script
        (by rw [List.length_eraseIdx_of_lt hi]; omega) hs1
      refine ⟨fuel', ctx', out', f1, f2, ?_⟩
      conv => lhs; unfold ToolTxn.rounds
      simp only [hp, bind_ok, List.map_cons, List.cons_append]
      rw [hsel]
      simp only [andThen, bind_ok]
      rw [if_neg (by decide), if_neg (by decide), if_neg (by simp), hini]
      simp only [bind_ok]
      rw [if_neg (by decide), if_pos (by decide), if_pos ⟨trivial, by simpa using hne⟩, f3]
      cases ToolTxn.rounds allocOk mem req fuel' ctx' apps' input' out' script with
      | error e => rfl
      | ok x => rfl

/-! ## Theorems -/

/-- **C153.**  A transaction in which the applications chosen first cannot be used (in any number, for either reason), and then
one that answers properly is chosen: it ends with the data of this one.  The commands are those of building the list, one
SELECT or a SELECT and a GET PROCESSING OPTIONS for each of the others, and those of this one; of the others no field is kept. -/
theorem C153_others (ctx : Ctx) (mem : Nat → List Byte) (hmem : ∀ k, (mem k).length = 255) (apps apps' : List App)
    (input input1 input' : List Byte) (tr0 tr1 : List (Cmd × W)) (script : List W)
    (h1 : Unusable ctx (ToolTxn.required apps) apps input tr1 apps' input1) (m : CardApp) (hm : m.WF) (hb : m.blocked = false)
    (data : Option (List Byte)) (g : W) (opts : List Tlv) (tr : List (Cmd × W)) (fs : List Tlv)
    (h : Good ctx m data g opts tr fs) (i bad : Nat) (a : App) (ha : apps'[i]? = some a) (hn : a.aid.value = m.name)
    (hpick : ToolTxn.pick (ToolTxn.required apps) apps' input1 = .ok (.index i input', bad)) (w : W)
    (hw : Answer (some m) w) (rest : List W)
    (hbuild : Emv.build ctx.supported [] script =
      .ok (tr0, .done (0, apps) (tr1.map (·.2) ++ (w :: g :: (tr.map (·.2) ++ rest))))) :
    ∃ e out, ToolTxn.transaction allocOk mem ctx input script =
        .ok (tr0 ++ tr1 ++ ((.select false m.name, w) :: (.gpo data, g) :: tr), .done e rest) ∧
      e.how = .done ∧ e.input = input' ∧
      e.ctx.icc = m.body.leaves ++ opts ++ fs ∧ e.ctx.terminal = terminalData 5 m.name ∧
      e.out = out ++ [.text txt!"\nICC data:\n", .fields (m.body.leaves ++ opts ++ fs),
        .text txt!"\nTerminal data\n", .fields (terminalData 5 m.name)] := by
  unfold ToolTxn.transaction
  simp only [hbuild, andThen, bind_ok]
  rw [if_neg (by simp)]
  obtain ⟨fuel, ctx', out', f1, f2, f3⟩ := rounds_unusable mem hmem ctx (ToolTxn.required apps) h1 (apps.length + 1) ctx
    ([ToolTxn.Item.text txt!"\nBuild candidate list\n"] ++ [ToolTxn.Item.text txt!"Candidate applications:\n"] ++ apps.map .app ++
      (if ToolTxn.required apps then [ToolTxn.Item.text txt!"Cardholder selection is required\n"] else []))
    (w :: g :: (tr.map (·.2) ++ rest)) (Nat.lt_succ_self _) ⟨rfl, rfl, rfl⟩
  match fuel, f1 with
  | fuel + 1, _ =>
    obtain ⟨ctx1, ctx2, ctx3, g1, g2, g3, g4, -, -, -, g5, g6, -⟩ := C149_calls ctx' m hm hb data g opts tr fs
      (good_same f2 h) (mem fuel) (hmem _) apps' i a ha hn w hw rest
    rw [f3]
    unfold ToolTxn.rounds
    simp only [hpick, bind_ok, g1, andThen]
    rw [if_neg (by simp), if_neg (by simp), if_neg g2]
    simp only [g3, bind_ok]
    rw [if_neg (by simp), if_neg (by simp)]
    simp only [fin, bind_ok, if_true, ToolTxn.reading, g4, andThen]
    rw [if_neg (by simp)]
    simp only [bind_ok, g5, g6]
    exact ⟨_, _, congrArg (fun t => Except.ok (t, _)) (by simp), rfl, rfl, g5, g6, rfl⟩

/-- The names selected. -/
def selected : List (Cmd × W) → List (List Byte)
  | [] => []
  | (.select _ name, _) :: tr => name :: selected tr
  | _ :: tr => selected tr

theorem erase_perm {α : Type} (l : List α) (i : Nat) (a : α) (h : l[i]? = some a) : l.Perm (a :: l.eraseIdx i) := by
  induction l generalizing i with
  | nil => cases h
  | cons b l ih =>
    cases i with
    | zero => cases h; exact .refl _
    | succ i => exact ((ih i h).cons b).trans (.swap _ _ _)

/-- **C153** (each once).  The applications tried and those left are the candidates: none is tried twice, none is lost. -/
theorem C153_once (ctx : Ctx) (req : Bool) (apps apps' : List App) (input input' : List Byte) (tr : List (Cmd × W))
    (h : Unusable ctx req apps input tr apps' input') :
    (apps.map (·.aid.value)).Perm (selected tr ++ apps'.map (·.aid.value)) := by
  induction h with
  | none => exact .refl _
  | refused i bad a w hp ha hl h0 h1 h2 hne t ih =>
    exact ((erase_perm _ i a ha).map _).trans (ih.cons _)
  | unsatisfied i bad a w g m data hp ha hl hm hb hn hw hd hs h0 h1 hne t ih =>
    have := ((erase_perm _ i a ha).map (fun a : App => a.aid.value)).trans (ih.cons _)
    simp only [hn] at this
    exact this

/-- **C153** (none).  If the last candidate is refused like all others, the transaction ends with the outcome that the card is
not accepted, after each candidate was selected once. -/
theorem C153_none (ctx : Ctx) (mem : Nat → List Byte) (hmem : ∀ k, (mem k).length = 255) (apps : List App)
    (input input1 input' : List Byte) (tr0 tr1 : List (Cmd × W)) (script : List W) (a : App)
    (h1 : Unusable ctx (ToolTxn.required apps) apps input tr1 [a] input1)
    (hl : 5 ≤ a.aid.value.length ∧ a.aid.value.length ≤ 16) (bad : Nat)
    (hpick : ToolTxn.pick (ToolTxn.required apps) [a] input1 = .ok (.index 0 input', bad)) (w : W)
    (hw0 : w.code = 0) (hw1 : w.sw ≠ 0x9000) (hw2 : w.sw ≠ 0x6A81) (rest : List W)
    (hbuild : Emv.build ctx.supported [] script = .ok (tr0, .done (0, apps) (tr1.map (·.2) ++ (w :: rest)))) :
    ∃ e, ToolTxn.transaction allocOk mem ctx input script =
        .ok (tr0 ++ tr1 ++ [(.select false a.aid.value, w)], .done e rest) ∧ e.how = .code 3 ∧ e.ctx.selected = none ∧
      (selected (tr1 ++ [(.select false a.aid.value, w)])).Perm (apps.map (·.aid.value)) := by
  have hperm : (selected (tr1 ++ [(.select false a.aid.value, w)])).Perm (apps.map (·.aid.value)) := by
    have hs : ∀ tr : List (Cmd × W), selected (tr ++ [(.select false a.aid.value, w)]) = selected tr ++ [a.aid.value] := by
      intro tr
      induction tr with
      | nil => rfl
      | cons x tr ih =>
        obtain ⟨c, v⟩ := x
        cases c <;> simp [selected, ih]
    rw [hs]
    exact (C153_once ctx _ _ _ _ _ _ h1).symm
  unfold ToolTxn.transaction
  simp only [hbuild, andThen, bind_ok]
  rw [if_neg (by simp)]
  obtain ⟨fuel, ctx', out', f1, f2, f3⟩ := rounds_unusable mem hmem ctx (ToolTxn.required apps) h1 (apps.length + 1) ctx
    ([ToolTxn.Item.text txt!"\nBuild candidate list\n"] ++ [ToolTxn.Item.text txt!"Candidate applications:\n"] ++ apps.map .app ++
      (if ToolTxn.required apps then [ToolTxn.Item.text txt!"Cardholder selection is required\n"] else []))
    (w :: rest) (Nat.lt_succ_self _) ⟨rfl, rfl, rfl⟩
  match fuel, f1 with
  | fuel + 1, _ =>
    have hsel : select ctx' [a] 0 (w :: rest) =
        .ok ([(.select false a.aid.value, w)], .done (3, [], { ctx' with selected := none }) rest) := by
      unfold select
      simp only [List.getElem?_cons_zero, List.eraseIdx_cons_zero]
      rw [if_neg (by omega)]
      unfold selectApp send andThen
      rw [if_neg (by omega), if_neg (by simp [refusesName]; omega)]
      simp only
      rw [if_neg (by simp [hw0]), if_pos hw1, if_neg hw2]
      have hpos : 0 < (if w.sw = 0x6A82 then (9 : Int) else if w.sw = 0x6283 then 10 else 11) := by
        split
        · decide
        · split <;> decide
      simp only [fin, log, bind_ok]
      rw [if_neg (by omega), if_pos hpos]
      rfl
    rw [f3]
    unfold ToolTxn.rounds
    simp only [hpick, bind_ok, hsel, andThen]
    rw [if_neg (by decide), if_pos (by decide), if_neg (by decide)]
    simp only [fin, bind_ok]
    rw [if_neg (by simp)]
    exact ⟨_, congrArg (fun t => Except.ok (t, _)) (by simp), rfl, rfl, hperm⟩

/-! ## Examples -/

/-- Three candidates: the card does not find the first, and does not want the second to be used. -/
theorem two_unusable (ctx : Ctx) (a b c : App) (ha : a.aid.value = [0xA0, 0, 0, 0, 4, 0x10, 0x10])
    (hb : b.aid.value = [0xA0, 0, 0, 0, 3, 0x20, 0x10]) :
    Unusable ctx true [a, b, c] txt!"1\n1\n1\n"
      [(.select false [0xA0, 0, 0, 0, 4, 0x10, 0x10], ⟨0, [], 0x6A82⟩),
       (.select false [0xA0, 0, 0, 0, 3, 0x20, 0x10], ⟨0, (plain [0xA0, 0, 0, 0, 3, 0x20, 0x10] false).data, 0x9000⟩),
       (.gpo none, ⟨0, [], 0x6985⟩)] [c] txt!"1\n" := by
  rw [← ha]
  refine .refused 0 0 a _ (input1 := txt!"1\n1\n") ?_ rfl (by rw [ha]; decide) rfl (by decide) (by decide) (by simp) ?_
  · show ToolTxn.choose 3 7 txt!"1\n1\n1\n" 0 = _
    decide +kernel
  · refine .unsatisfied 0 0 b _ _ (plain [0xA0, 0, 0, 0, 3, 0x20, 0x10] false) none (input1 := txt!"1\n") ?_ rfl (by simp [plain])
      (plain_wf _ _ (by simp) (by simp)) rfl hb ⟨rfl, rfl, rfl⟩ (.inl ⟨by decide, rfl⟩) ?_ rfl rfl (by simp) .none
    · show ToolTxn.choose 2 5 txt!"1\n1\n" 0 = _
      decide +kernel
    · exact fun v hv => absurd (hv.symm.trans (by decide : field 0x9F38
        (plain [0xA0, 0, 0, 0, 3, 0x20, 0x10] false).body.leaves = none)) (by simp)

/-- The third is refused, too. -/
example (ctx : Ctx) (a b c : App) (ha : a.aid.value = [0xA0, 0, 0, 0, 4, 0x10, 0x10])
    (hb : b.aid.value = [0xA0, 0, 0, 0, 3, 0x20, 0x10]) : ∃ tr1,
    ToolTxn.required [a, b, c] = true ∧ Unusable ctx (ToolTxn.required [a, b, c]) [a, b, c] txt!"1\n1\n1\n" tr1 [c] txt!"1\n" ∧
    ToolTxn.pick (ToolTxn.required [a, b, c]) [c] txt!"1\n" = .ok (.index 0 [], 0) ∧
    selected tr1 = [a.aid.value, b.aid.value] := by
  have hr : ToolTxn.required [a, b, c] = true := by simp [ToolTxn.required]
  refine ⟨_, hr, by rw [hr]; exact two_unusable ctx a b c ha hb, ?_, by rw [ha, hb]; rfl⟩
  rw [hr]
  show ToolTxn.choose 1 3 txt!"1\n" 0 = _
  decide +kernel

/-- A whole transaction with the directory `pages`: the first candidate is not found, the second is not to be used, the third
is read. -/
example : (ToolTxn.transaction allocOk (fun _ => List.replicate 255 0) { Ctx.init with supported := terminal } txt!"2\n2\n1\n"
    (⟨0, [0x88, 1, 1], 0x9000⟩ :: (pages.map (fun r => ⟨0, r.enc, 0x9000⟩) ++ ⟨0, [], 0x6A83⟩ ::
      [⟨0, [], 0x6A82⟩, ⟨0, (plain [0xA0, 0, 0, 0, 4, 0x10, 0x10] false).data, 0x9000⟩, ⟨0, [], 0x6985⟩,
       ⟨0, (plain [0xA0, 0, 0, 0, 3, 0x10, 0x10] false).data, 0x9000⟩, ⟨0, [0x80, 6, 0x39, 0, 0x08, 1, 2, 0], 0x9000⟩,
       ⟨0, [0x70, 10] ++ record1.enc, 0x9000⟩, ⟨0, [0x70, 6] ++ record2.enc, 0x9000⟩]))).map
      (fun x => (x.1.length, match x.2 with
        | .done e _ => some (decide (e.how = .done), e.ctx.icc.map (·.tag))
        | .pending _ => none)) =
    .ok (11, some (true, [0x84, 0x82, 0x94, 0x5A, 0x5F24, 0x8C, 0x8D])) := by
  decide +kernel

end Verif.Search
