import Verif.SearchProps

/-!
# C148: the directory and the list of AIDs lead to the same candidates, each of which can be selected

The card is the one of C147; if it has a directory, that lists its applications.
-/

set_option autoImplicit false

namespace Verif.Search
open Verif Ber BerSpec TlvParse App Tal Fields

/-! ## Specification -/

/-- The directory lists the names of the applications that are not blocked, in any order. -/
def Lists (records : List Record) (card : List CardApp) : Prop :=
  ∀ name, (∃ r ∈ records, ∃ e ∈ r.entries, e.aid = name) ↔ ∃ m ∈ card, m.blocked = false ∧ m.name = name

/-! ## Lemmas -/

theorem separate_eq {card : List CardApp} (hs : Separate card) {a b : CardApp} (ha : a ∈ card) (hb : b ∈ card)
    (h : a.name <+: b.name) : a = b := by
  induction card with
  | nil => cases ha
  | cons x card ih =>
    obtain ⟨h1, h2⟩ := List.pairwise_cons.1 hs
    rcases List.mem_cons.1 ha with e | ha'
    · rcases List.mem_cons.1 hb with e' | hb'
      · rw [e, e']
      · subst e
        exact absurd h (h1 b hb').1
    · rcases List.mem_cons.1 hb with e' | hb'
      · subst e'
        exact absurd h (h1 a ha').2
      · exact ih h2 ha' hb'

/-- The card answers the whole name of an application with that application. -/
theorem find_name {card : List CardApp} (hs : Separate card) {m : CardApp} (hm : m ∈ card) :
    card.find? (Begins m.name) = some m := by
  cases hf : card.find? (Begins m.name) with
  | none =>
    have := List.find?_eq_none.1 hf m hm
    exact absurd (begins_iff.2 List.prefix_rfl) this
  | some x =>
    have h1 := begins_iff.1 (List.find?_some hf)
    rw [separate_eq hs hm (List.mem_of_find?_eq_some hf) h1]

/-- Selecting a name when the card answers with the application `x`. -/
theorem select_answer (ctx : Emv.Ctx) (apps : List App) (i : Nat) (a : App) (ha : apps[i]? = some a)
    (hl : 5 ≤ a.aid.value.length ∧ a.aid.value.length ≤ 16) (x : CardApp) (hx : x.WF) (w : W) (rest : List W)
    (hw : Answer (some x) w) (hp : a.aid.value <+: x.name) :
    ∃ b : App, (b.aid.value, b.tlvs) = Kept x ∧ Emv.select ctx apps i (w :: rest) =
      .ok ([(.select false a.aid.value, w)], .done
        (if x.blocked = false ∧ a.aid.value = x.name then
            (0, apps.eraseIdx i, { ctx with selected := some ⟨b, .own⟩ })
          else (Emv.tryAgain (apps.eraseIdx i), apps.eraseIdx i, { ctx with selected := none })) rest) := by
  obtain ⟨hcode, hd, hsw⟩ := hw
  obtain ⟨b, hcr, hk⟩ := created hx hd
  have hname : b.aid.value = x.name := congrArg (·.1) hk
  refine ⟨b, hk, ?_⟩
  unfold Emv.select
  simp only [ha]
  rw [if_neg (by omega)]
  unfold selectApp send andThen
  rw [if_neg (by omega), if_neg (by simp [refusesName]; omega)]
  simp only
  rw [if_neg (by simp [hcode])]
  cases hb : x.blocked with
  | true =>
    rw [hb] at hsw
    have hsw : w.sw = 0x6283 := hsw
    rw [if_pos (by simp [hsw])]
    simp [hsw, fin, log]
  | false =>
    rw [hb] at hsw
    have hsw : w.sw = 0x9000 := hsw
    rw [if_neg (by simp [hsw]), hcr]
    simp only [bind_ok, hname]
    by_cases he : a.aid.value = x.name
    · rw [if_neg (by rw [he]; simp), slice_eq (by rw [he]; omega)]
      simp only [bind_ok, List.drop_zero]
      rw [if_neg (by rw [he]; simp), if_pos ⟨by simp, he⟩]
      simp [fin, log]
    · have hne : x.name.length ≠ a.aid.value.length := fun e => he (hp.eq_of_length e.symm)
      rw [if_pos hne, if_neg (fun h => he h.2)]
      simp [fin, log]

/-! ## Theorems -/

/-- **C148** (selection), partial.  A candidate that is an application of the card is selected with the fields of its
file control information, unless it is blocked: then the outcome is to try the others, or that there are none.  Missing:
cards on which a name begins another one (`C148_refused`). -/
theorem C148_selected_partial (card : List CardApp) (hc : ∀ m ∈ card, m.WF) (hs : Separate card) (m : CardApp)
    (hm : m ∈ card) (hl : 5 ≤ m.name.length ∧ m.name.length ≤ 16) (ctx ctx' : Emv.Ctx) (apps apps' : List App) (i : Nat)
    (a : App) (ha : apps[i]? = some a) (hn : a.aid.value = m.name) (left : List CardApp) (script rest : List W)
    (tr : List (Cmd × W)) (r : Int)
    (h : Emv.select ctx apps i script = .ok (tr, .done (r, apps', ctx') rest)) (ht : Talk card left tr) :
    apps' = apps.eraseIdx i ∧
    (m.blocked = false → r = 0 ∧ ∃ b, ctx' = { ctx with selected := some ⟨b, .own⟩ } ∧
      (b.aid.value, b.tlvs) = Kept m) ∧
    (m.blocked = true → ctx' = { ctx with selected := none } ∧ r = if apps' = [] then 3 else 4) := by
  have hal : 5 ≤ a.aid.value.length ∧ a.aid.value.length ≤ 16 := by rw [hn]; exact hl
  cases script with
  | nil =>
    unfold Emv.select at h
    simp only [ha] at h
    rw [if_neg (by omega)] at h
    unfold selectApp send andThen at h
    rw [if_neg (by omega), if_neg (by simp [refusesName]; omega)] at h
    simp [bind_ok] at h
  | cons w rs =>
    have htr : ∃ tr', tr = (.select false a.aid.value, w) :: tr' := by
      unfold Emv.select at h
      simp only [ha] at h
      rw [if_neg (by omega)] at h
      unfold selectApp send at h
      rw [if_neg (by omega), if_neg (by simp [refusesName]; omega)] at h
      simp only at h
      generalize (if w.code ≠ 0 then fin (-3, none) rs else _ : C (Run (Int × Option App))) = y at h
      cases y with
      | error e => cases h
      | ok y =>
        obtain ⟨l, o⟩ := y
        unfold andThen log at h
        cases o with
        | pending c => simp [bind_ok] at h
        | done x rr =>
          simp only [bind_ok] at h
          generalize (if x.fst < 0 then _ else _ : C (Run (Int × List App × Emv.Ctx))) = z at h
          cases z with
          | error e => cases h
          | ok z =>
            simp only [bind_ok, Except.ok.injEq, Prod.mk.injEq] at h
            exact ⟨_, h.1.symm⟩
    obtain ⟨tr', htr⟩ := htr
    subst htr
    have hans : Answer (card.find? (Begins a.aid.value)) w := ht.1
    rw [hn, find_name hs hm] at hans
    obtain ⟨b, hk, he⟩ := select_answer ctx apps i a ha (by rw [hn]; exact hl) m (hc m hm) w rs hans
      (by rw [hn]; exact List.prefix_rfl)
    rw [he] at h
    cases hb : m.blocked with
    | false =>
      rw [hb, if_pos ⟨rfl, hn⟩] at h
      simp only [Except.ok.injEq, Prod.mk.injEq, Out.done.injEq] at h
      obtain ⟨-, ⟨h1, h2, h3⟩, -⟩ := h
      exact ⟨h2.symm, fun _ => ⟨h1.symm, b, h3.symm, hk⟩, fun h => by cases h⟩
    | true =>
      rw [hb, if_neg (by simp)] at h
      simp only [Except.ok.injEq, Prod.mk.injEq, Out.done.injEq] at h
      obtain ⟨-, ⟨h1, h2, h3⟩, -⟩ := h
      refine ⟨h2.symm, fun h => absurd h (by simp), fun _ => ⟨h3.symm, ?_⟩⟩
      rw [← h1, ← h2]
      unfold Emv.tryAgain
      cases apps.eraseIdx i <;> rfl

/-- **C148** (selection), a disagreement.  A candidate is refused when the card has an application with a longer name
before it. -/
theorem C148_refused (long short : CardApp) (hl : long.WF) (hp : short.name <+: long.name)
    (hn : short.name ≠ long.name) (hs : 5 ≤ short.name.length ∧ short.name.length ≤ 16) (ctx : Emv.Ctx)
    (apps : List App) (i : Nat) (a : App) (ha : apps[i]? = some a) (haid : a.aid.value = short.name) (w : W)
    (rest : List W) (ht : Talk [long, short] [] [(.select false short.name, w)]) :
    ∃ r, Emv.select ctx apps i (w :: rest) =
      .ok ([(.select false short.name, w)], .done (r, apps.eraseIdx i, { ctx with selected := none }) rest) ∧
      (r = 3 ∨ r = 4) := by
  have hans : Answer ([long, short].find? (Begins short.name)) w := ht.1
  rw [List.find?_cons_of_pos (begins_iff.2 hp)] at hans
  obtain ⟨b, -, he⟩ := select_answer ctx apps i a ha (by rw [haid]; exact hs) long hl w rest hans (by rw [haid]; exact hp)
  rw [if_neg (fun h => hn (by rw [← haid]; exact h.2)), haid] at he
  refine ⟨_, he, ?_⟩
  unfold Emv.tryAgain
  split
  · exact .inl rfl
  · exact .inr rfl

/-- **C148** (same candidates), partial.  With the directory of the card, and without, the candidate list of a
transaction has the same AIDs, and the outcome is the same.  Missing: as before; for entries that are neither exact nor
partial the two differ. -/
theorem C148_same_partial (card : List CardApp) (hc : ∀ m ∈ card, m.WF) (hs : Separate card)
    (supported : List Tlv) (ha : ∀ t ∈ supported, 5 ≤ t.value.length ∧ t.value.length ≤ 16)
    (hfl : ∀ t ∈ supported, t.flags = 0 ∨ t.flags = 1)
    -- with the directory
    (fci : Forest) (hfci : fci.WF) (sfi : Byte) (hsf : 1 ≤ sfi.toNat ∧ sfi.toNat ≤ 30)
    (hsfi : field 0x88 fci.leaves = some [sfi]) (records : List Record) (hr : ∀ r ∈ records, r.WF)
    (hlist : Lists records card) (last : W) (hl0 : last.code = 0) (hl1 : last.sw = 0x6A83) (script1 rest1 : List W)
    (r1 : Int) (apps1 : List App) (tr1 : List (Cmd × W))
    (h1 : Emv.build supported [] (⟨0, fci.enc, 0x9000⟩ ::
      (records.map (fun r => ⟨0, r.enc, 0x9000⟩) ++ last :: script1)) = .ok (tr1, .done (r1, apps1) rest1))
    (ht1 : Talk card [] (tr1.drop (records.length + 2)))
    -- without
    (w : W) (hw : w.code = 0 ∧ w.sw ≠ 0x6A81 ∧ w.sw ≠ 0x9000) (script2 rest2 : List W) (r2 : Int) (apps2 : List App)
    (x : Cmd × W) (tr2 : List (Cmd × W))
    (h2 : Emv.build supported [] (w :: script2) = .ok (x :: tr2, .done (r2, apps2) rest2)) (ht2 : Talk card [] tr2) :
    r1 = r2 ∧ ∀ name, (∃ a ∈ apps1, a.aid.value = name) ↔ ∃ a ∈ apps2, a.aid.value = name := by
  obtain ⟨-, p2, e2⟩ := C147_candidates_partial card hc hs supported ha w hw script2 rest2 r2 apps2 x tr2 h2 ht2
  have m2 : ∀ name, (∃ a ∈ apps2, a.aid.value = name) ↔
      ∃ m ∈ card, m.blocked = false ∧ m.name = name ∧ Matches name supported := by
    intro name
    have mm : ∀ v, v ∈ apps2.map (fun a => (a.aid.value, a.tlvs)) ↔ _ := fun v => p2.mem_iff
    constructor
    · rintro ⟨a, haa, hn⟩
      have := (mm (a.aid.value, a.tlvs)).1 (List.mem_map.2 ⟨a, haa, rfl⟩)
      obtain ⟨m, hm, hk⟩ := List.mem_map.1 this
      obtain ⟨t, ht, hm⟩ := List.mem_flatMap.1 hm
      obtain ⟨hm, hb⟩ := List.mem_filter.1 hm
      simp only [Bool.and_eq_true, Bool.not_eq_true'] at hb
      have hmn : m.name = name := by rw [← hn]; exact congrArg (·.1) hk
      refine ⟨m, hm, hb.2, hmn, t, ht, ?_⟩
      rw [← hmn]
      have hme := hb.1
      unfold Meets at hme
      simp only [Bool.or_eq_true, beq_iff_eq, Bool.and_eq_true] at hme
      rcases hme with h | h
      · rcases hfl t ht with f | f
        · exact .inl ⟨f, h.symm⟩
        · exact .inr ⟨f, by rw [h]; exact List.prefix_rfl⟩
      · exact .inr ⟨h.1, begins_iff.1 h.2⟩
    · rintro ⟨m, hm, hb, hn, t, ht, hmt⟩
      have hme : Meets t m = true := by
        unfold Meets
        rcases hmt with h | h
        · simp [hn, h.2]
        · rw [← hn] at h
          simp [h.1, begins_iff.2 h.2]
      have : Kept m ∈ apps2.map (fun a => (a.aid.value, a.tlvs)) :=
        (mm _).2 (List.mem_map.2 ⟨m, List.mem_flatMap.2 ⟨t, ht, List.mem_filter.2 ⟨hm, by simp [hme, hb]⟩⟩, rfl⟩)
      obtain ⟨a, haa, hk⟩ := List.mem_map.1 this
      exact ⟨a, haa, by rw [← hn]; exact congrArg (·.1) hk⟩
  obtain ⟨trp, new, hp, hnew⟩ := C32_pse_exact supported [] fci hfci sfi hsf hsfi records hr last hl0 hl1 script1
  rw [List.nil_append] at hp
  have mn : ∀ name, (∃ a ∈ new, a.aid.value = name) ↔
      ∃ m ∈ card, m.blocked = false ∧ m.name = name ∧ Matches name supported := by
    intro name
    have e : (∃ a ∈ new, a.aid.value = name) ↔
        ∃ e ∈ (records.flatMap (·.entries)).filter (fun e => decide (Matches e.aid supported)), e.aid = name := by
      have := congrArg (List.map (·.1)) hnew
      rw [List.map_map, List.map_map] at this
      have hmem : ∀ v, v ∈ new.map (fun a => a.aid.value) ↔
          v ∈ ((records.flatMap (·.entries)).filter (fun e => decide (Matches e.aid supported))).map (fun e => e.aid) := by
        intro v
        exact iff_of_eq (congrArg (v ∈ ·) this)
      have := hmem name
      simpa only [List.mem_map] using this
    rw [e]
    have hl := hlist name
    constructor
    · rintro ⟨en, hen, hn⟩
      obtain ⟨h3, h4⟩ := List.mem_filter.1 hen
      obtain ⟨rc, h5, h6⟩ := List.mem_flatMap.1 h3
      obtain ⟨m, hm, hb, hmn⟩ := hl.1 ⟨rc, h5, en, h6, hn⟩
      exact ⟨m, hm, hb, hmn, by rw [← hn]; exact of_decide_eq_true h4⟩
    · rintro ⟨m, hm, hb, hmn, hma⟩
      obtain ⟨rc, h5, en, h6, hn⟩ := hl.2 ⟨m, hm, hb, hmn⟩
      exact ⟨en, List.mem_filter.2 ⟨List.mem_flatMap.2 ⟨rc, h5, h6⟩, decide_eq_true (by rw [hn]; exact hma)⟩, hn⟩
  have same : ∀ (l : List App), (∀ a, a ∈ l ↔ a ∈ new) → ∀ name,
      (∃ a ∈ l, a.aid.value = name) ↔ ∃ a ∈ apps2, a.aid.value = name := by
    intro l hl name
    rw [m2, ← mn]
    constructor
    · rintro ⟨a, h, e⟩; exact ⟨a, (hl a).1 h, e⟩
    · rintro ⟨a, h, e⟩; exact ⟨a, (hl a).2 h, e⟩
  have empty : new = [] ↔ apps2 = [] := by
    have hh := same new (fun _ => Iff.rfl)
    constructor
    · intro h
      rw [h] at hh
      cases apps2 with
      | nil => rfl
      | cons a l => obtain ⟨b, hb, -⟩ := (hh a.aid.value).2 ⟨a, by simp, rfl⟩; cases hb
    · intro h
      rw [h] at hh
      cases new with
      | nil => rfl
      | cons a l => obtain ⟨b, hb, -⟩ := (hh a.aid.value).1 ⟨a, by simp, rfl⟩; cases hb
  have hlen : trp.length = records.length + 2 := by
    have := (C33_order supported [] _ trp 0 new script1 hp).1
    have := congrArg List.length this
    simp only [List.length_cons, List.length_append, List.length_map] at this
    omega
  unfold Emv.build andThen at h1
  rw [hp] at h1
  simp only [bind_ok] at h1
  rw [if_neg (by omega)] at h1
  by_cases he : new.isEmpty = true
  · have en : new = [] := List.isEmpty_iff.1 he
    rw [if_pos he] at h1
    cases hfa : findApps script1 supported true new with
    | error e => rw [hfa] at h1; cases h1
    | ok y =>
      obtain ⟨tr', o⟩ := y
      rw [hfa] at h1
      cases o with
      | pending c => simp [bind_ok] at h1
      | done a rs =>
        obtain ⟨code', apps'⟩ := a
        simp only [bind_ok] at h1
        have key : ∃ rr, (if code' ≠ 0 then fin (if code' = -4 then 2 else 1, apps') rs else Emv.finish apps' rs) =
            .ok ([], .done rr rs) := by
          by_cases h1 : code' ≠ 0
          · exact ⟨_, by rw [if_pos h1]; rfl⟩
          · rw [if_neg h1]
            unfold Emv.finish
            split <;> exact ⟨_, rfl⟩
        obtain ⟨rr, hk⟩ := key
        rw [hk] at h1
        simp only [bind_ok, List.append_nil, Except.ok.injEq, Prod.mk.injEq, Out.done.injEq] at h1
        obtain ⟨htr, hrr, hrs⟩ := h1
        rw [← htr, ← hlen, List.drop_left] at ht1
        obtain ⟨hz, more, hn, hm⟩ := C147_all_partial card hc hs supported ha new apps' script1 rs code' tr' hfa ht1
        have hmore : more = [] := by
          have := p2.symm.length_eq
          rw [← hm, List.length_map, List.length_map, empty.1 en] at this
          exact List.length_eq_zero_iff.1 this
        rw [en, hmore] at hn
        subst hz hn
        rw [if_neg (by simp)] at hk
        have hk : rr = (3, []) := by
          simp only [Emv.finish, List.append_nil, List.isEmpty_nil, if_true, fin, Except.ok.injEq, Prod.mk.injEq,
            Out.done.injEq, true_and, and_true] at hk
          exact hk.symm
        rw [hk] at hrr
        obtain ⟨q1, q2⟩ := Prod.mk.inj hrr
        refine ⟨by rw [e2, if_pos (empty.1 en), q1], ?_⟩
        rw [← q2, empty.1 en]
        intro name
        exact Iff.rfl
  · rw [if_neg he] at h1
    simp only [Emv.finish, he, if_false, fin, bind_ok, Except.ok.injEq, Prod.mk.injEq, Out.done.injEq,
      Bool.false_eq_true] at h1
    obtain ⟨-, ⟨q1, q2⟩, -⟩ := h1
    have hne : ¬ apps2 = [] := fun h => he (by rw [empty.2 h]; rfl)
    refine ⟨by rw [e2, if_neg hne, q1], ?_⟩
    rw [← q2]
    exact same _ (fun a => (LL.bySort_perm _ _).mem_iff)

/-! ## Examples -/

/-- A directory entry with just the AID. -/
def listed (name : List Byte) : Entry := ⟨[UInt8.ofNat (name.length + 2)], .leaf ⟨[0x4F], [UInt8.ofNat name.length], name⟩ .nil⟩

theorem listed_wf (name : List Byte) (h : name ≠ []) (hl : name.length ≤ 16) : (listed name).WF := by
  refine ⟨⟨⟨Or.inl ⟨by decide, rfl⟩, .short name.length (by omega)⟩, by simp [IsConstructed], trivial⟩, ?_, name, h, ?_⟩
  · have : (listed name).body.enc.length = name.length + 2 := by
      simp [listed, Forest.enc, Obj.enc]
    rw [this]
    exact .short _ (by omega)
  · simp [listed, Forest.leaves, field, beNat]

/-- The directory of `wallet`: two records, in another order. -/
def pages : List Record :=
  [⟨[22], [listed [0xA0, 0, 0, 0, 4, 0x10, 0x10], listed [0xA0, 0, 0, 0, 3, 0x20, 0x10]]⟩,
   ⟨[11], [listed [0xA0, 0, 0, 0, 3, 0x10, 0x10]]⟩]

example : ∀ r ∈ pages, r.WF := by
  intro r hr
  simp only [pages, List.mem_cons, List.not_mem_nil, or_false] at hr
  rcases hr with rfl | rfl
  · refine ⟨fun e he => ?_, .short 22 (by decide)⟩
    simp only [List.mem_cons, List.not_mem_nil, or_false] at he
    rcases he with rfl | rfl <;> exact listed_wf _ (by simp) (by simp)
  · refine ⟨fun e he => ?_, .short 11 (by decide)⟩
    simp only [List.mem_cons, List.not_mem_nil, or_false] at he
    subst he
    exact listed_wf _ (by simp) (by simp)

example : Lists pages wallet := by
  intro name
  have e : ∀ n : List Byte, (listed n).aid = n := fun n => by
    simp [listed, Entry.aid, Forest.leaves, field, beNat]
  simp only [pages, wallet, plain, List.mem_cons, List.not_mem_nil, or_false, exists_eq_or_imp, exists_eq_left, e,
    true_and, Bool.true_eq_false, false_and]
  constructor
  · rintro ((h | h) | h) <;> simp [h]
  · rintro (h | h | h) <;> simp [h]

/-- Number of commands, outcome and AIDs of the candidates. -/
def outcome (x : Run (Int × List App)) : Nat × Option (Int × List (List Byte)) :=
  (x.1.length, match x.2 with
    | .done a _ => some (a.1, a.2.map (·.aid.value))
    | .pending _ => none)

/-- With the directory: three candidates, no more commands than its records.  (Those
without priority are put in reverse order, see C34.) -/
example : (Emv.build terminal [] (⟨0, [0x88, 1, 1], 0x9000⟩ ::
    (pages.map (fun r => ⟨0, r.enc, 0x9000⟩) ++ ⟨0, [], 0x6A83⟩ :: []))).map outcome =
    .ok (4, some (0, [[0xA0, 0, 0, 0, 3, 0x10, 0x10], [0xA0, 0, 0, 0, 3, 0x20, 0x10],
      [0xA0, 0, 0, 0, 4, 0x10, 0x10]])) := by
  decide +kernel

/-- One of them is selected. -/
example (ctx : Emv.Ctx) (apps : List App) (a : App) (ha : apps[1]? = some a)
    (hn : a.aid.value = [0xA0, 0, 0, 0, 3, 0x20, 0x10]) (rest : List W) :
    ∃ b ctx', Emv.select ctx apps 1 (⟨0, (plain [0xA0, 0, 0, 0, 3, 0x20, 0x10] false).data, 0x9000⟩ :: rest) =
      .ok (b, .done (0, apps.eraseIdx 1, ctx') rest) := by
  obtain ⟨b, -, h⟩ := select_answer ctx apps 1 a ha (by rw [hn]; decide) (plain [0xA0, 0, 0, 0, 3, 0x20, 0x10] false)
    (plain_wf _ _ (by simp) (by simp)) ⟨0, (plain [0xA0, 0, 0, 0, 3, 0x20, 0x10] false).data, 0x9000⟩ rest
    ⟨rfl, rfl, rfl⟩ (by rw [hn]; exact List.prefix_rfl)
  rw [if_pos ⟨rfl, hn⟩] at h
  exact ⟨_, _, h⟩

end Verif.Search
