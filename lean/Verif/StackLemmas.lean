import Verif.Stack
import Verif.ToolTxn

/-!
# Functions of the application layer use answers one after the other

A function of the application layer reads its script from the front, and what it has done does not depend on the
answers it has not yet received.
-/

set_option autoImplicit false

namespace Verif.Stack
open Verif Ber TlvParse App Tal Emv Fields

/-- A run that begins with these exchanges. -/
def Starts {α : Type} (p : List (Cmd × W)) : C (Run α) → Prop
  | .error _ => True
  | .ok (tr, _) => p <+: tr

/-- Parameters the wrappers accept. -/
def Fit : Cmd → Prop
  | .select _ name => 5 ≤ name.length ∧ name.length ≤ 16
  | .readRecord sfi _ => 1 ≤ sfi.toNat ∧ sfi.toNat ≤ 30
  | .gpo data => ∀ d, data = some d → 2 ≤ d.length ∧ d.length ≤ 255 ∧ d.head? = some 0x83

theorem fit_name {next : Bool} {name : List Byte} (h : refusesName name = false) : Fit (.select next name) := by
  simp only [refusesName, Bool.or_eq_false_iff, decide_eq_false_iff_not] at h
  exact ⟨by omega, by omega⟩

theorem fit_sfi {sfi rec : Byte} (h : ¬ refusesSfi sfi = true) : Fit (.readRecord sfi rec) := by
  simp only [refusesSfi, Bool.or_eq_true, decide_eq_true_eq] at h
  exact ⟨by omega, by omega⟩

theorem fit_gpo {data : Option (List Byte)} (h : refusesGpo data = false) : Fit (.gpo data) := by
  rintro d rfl
  simp only [refusesGpo, Bool.or_eq_false_iff, decide_eq_false_iff_not, bne_eq_false_iff_eq] at h
  exact ⟨by omega, by omega, h.2⟩

/-- One answer after the other, for a script. -/
def OnlineAt {α : Type} (f : List W → C (Run α)) (s : List W) : Prop :=
  match f s with
  | .error e => ∀ more, f (s ++ more) = .error e
  | .ok (tr, .done a rest) => s = tr.map (·.2) ++ rest ∧ ∀ more, f (s ++ more) = .ok (tr, .done a (rest ++ more))
  | .ok (tr, .pending cmd) => s = tr.map (·.2) ∧ Fit cmd ∧ ∀ w more, Starts (tr ++ [(cmd, w)]) (f (s ++ w :: more))

theorem online_fin {α : Type} (a : α) (s : List W) : OnlineAt (fun s => fin a s) s :=
  ⟨rfl, fun _ => rfl⟩

theorem online_error {α : Type} (e : UB) (s : List W) : OnlineAt (fun _ => (.error e : C (Run α))) s :=
  fun _ => rfl

theorem online_bind {α β : Type} (c : C β) (g : β → List W → C (Run α)) (s : List W)
    (h : ∀ y, c = .ok y → OnlineAt (g y) s) : OnlineAt (fun s => c >>= fun y => g y s) s := by
  cases c with
  | error e => exact fun _ => rfl
  | ok y => exact h y rfl

theorem log_ok {α : Type} (cmd : Cmd) (w : W) (l : List (Cmd × W)) (o : Out α) :
    log cmd w (.ok (l, o)) = .ok ((cmd, w) :: l, o) := rfl

theorem log_error {α : Type} (cmd : Cmd) (w : W) (e : UB) :
    log cmd w (.error e : C (Run α)) = .error e := rfl

theorem starts_log {α : Type} {p : List (Cmd × W)} {x : C (Run α)} (cmd : Cmd) (w : W) (h : Starts p x) :
    Starts ((cmd, w) :: p) (log cmd w x) := by
  match x, h with
  | .error _, _ => trivial
  | .ok (tr, _), h => exact (List.prefix_cons_inj _).mpr h

/-- The command of a function that begins with `log`. -/
theorem online_ask {α : Type} (cmd : Cmd) (k : W → List W → C (Run α)) (f : List W → C (Run α))
    (hfit : Fit cmd) (h0 : f [] = .ok ([], .pending cmd)) (h1 : ∀ w rest, f (w :: rest) = log cmd w (k w rest)) (s : List W)
    (h : ∀ w rest, s = w :: rest → OnlineAt (k w) rest) : OnlineAt f s := by
  cases s with
  | nil =>
    unfold OnlineAt
    rw [h0]
    refine ⟨rfl, hfit, fun w more => ?_⟩
    rw [List.nil_append, List.nil_append, h1]
    match k w more with
    | .error _ => trivial
    | .ok (tr, _) => exact ⟨tr, rfl⟩
  | cons w rest =>
    have := h w rest rfl
    unfold OnlineAt at this ⊢
    rw [h1]
    simp only [List.cons_append, h1]
    generalize k w rest = x at this
    match x, this with
    | .error e, hk =>
      intro more
      rw [hk more]
      rfl
    | .ok (tr, .done a rest'), hk =>
      rw [log_ok]
      refine ⟨by rw [hk.1]; rfl, fun more => ?_⟩
      rw [hk.2 more]
      rfl
    | .ok (tr, .pending c), hk =>
      rw [log_ok]
      refine ⟨by rw [hk.1]; rfl, hk.2.1, fun w' more => ?_⟩
      exact starts_log _ _ (hk.2.2 w' more)

theorem online_send {α : Type} (refused : Bool) (cmd : Cmd) (k : W → List W → C (Run α)) (s : List W)
    (hfit : refused = false → Fit cmd) (h0 : refused = true → OnlineAt (k ⟨-3, [], 0⟩) s) (h : ∀ w rest, s = w :: rest → OnlineAt (k w) rest) :
    OnlineAt (fun s => send refused cmd s k) s := by
  cases refused with
  | true => exact h0 rfl
  | false => exact online_ask cmd k _ (hfit rfl) rfl (fun _ _ => rfl) s h

theorem online_andThen {α β : Type} (x : List W → C (Run α)) (f : α → List W → C (Run β)) (s : List W)
    (h : OnlineAt x s) (hf : ∀ tr a rest, x s = .ok (tr, .done a rest) → OnlineAt (f a) rest) :
    OnlineAt (fun s => andThen (x s) f) s := by
  unfold OnlineAt at h ⊢
  simp only
  generalize hx : x s = y at h hf
  match y, h with
  | .error e, h =>
    intro more
    rw [h more]
    rfl
  | .ok (tr, .pending cmd), h =>
    refine ⟨h.1, h.2.1, fun w more => ?_⟩
    have := h.2.2 w more
    match x (s ++ w :: more), this with
    | .error _, _ => trivial
    | .ok (tr', .pending _), hp => exact hp
    | .ok (tr', .done a rest), hp =>
      simp only [andThen, bind_ok]
      match f a rest with
      | .error _ => trivial
      | .ok (l, _) => exact hp.trans (List.prefix_append _ _)
  | .ok (tr, .done a rest), h =>
    have hk := hf tr a rest rfl
    unfold OnlineAt at hk
    simp only [andThen, bind_ok]
    generalize f a rest = z at hk
    match z, hk with
    | .error e, hk =>
      intro more
      rw [h.2 more]
      simp only [bind_ok, hk more]
      rfl
    | .ok (tr', .done b rest'), hk =>
      refine ⟨by rw [h.1, hk.1]; simp, fun more => ?_⟩
      rw [h.2 more]
      simp only [bind_ok, hk.2 more]
    | .ok (tr', .pending cmd), hk =>
      refine ⟨by rw [h.1, hk.1]; simp, hk.2.1, fun w more => ?_⟩
      rw [h.2 (w :: more)]
      simp only [bind_ok]
      have := hk.2.2 w more
      match f a (rest ++ w :: more), this with
      | .error _, _ => trivial
      | .ok (l, _), hp =>
        change (tr ++ tr') ++ [(cmd, w)] <+: tr ++ l
        rw [List.append_assoc]
        exact (List.prefix_append_right_inj tr).mpr hp

/-! ## The functions -/

theorem online_ite {α : Type} {p : Prop} [Decidable p] {f g : List W → C (Run α)} {s : List W}
    (hf : p → OnlineAt f s) (hg : ¬ p → OnlineAt g s) : OnlineAt (fun s => if p then f s else g s) s := by
  by_cases h : p
  · simp only [if_pos h]; exact hf h
  · simp only [if_neg h]; exact hg h

/-- Every script. -/
def Online {α : Type} (f : List W → C (Run α)) : Prop := ∀ s, OnlineAt f s

theorem sfiLoop_eq (alloc : List Tlv → Tlv → Bool) (sfi last : Byte) (s : List W) (rec : Byte) (oda : Bool)
    (list : List Tlv) : sfiLoop alloc sfi last s rec oda list =
    if last.toNat < rec.toNat then fin (if oda then 14 else 0, list) s
    else if refusesSfi sfi then fin (-3, list) s
    else send false (.readRecord sfi rec) s fun w rest =>
      if w.code ≠ 0 then fin (-3, list) rest
      else if w.sw ≠ 0x9000 then fin (-9, list) rest
      else record alloc sfi w.data list >>= fun y =>
        match y with
        | .stop code list => fin (code, list) rest
        | .spoilt => sfiLoop alloc sfi last rest (rec + 1) true list
        | .next list => sfiLoop alloc sfi last rest (rec + 1) oda list := by
  cases s <;> rw [sfiLoop.eq_def] <;> rfl

theorem online_sfiLoop (alloc : List Tlv → Tlv → Bool) (sfi last : Byte) (n : Nat) :
    ∀ s, s.length < n → ∀ rec oda list, OnlineAt (fun s => sfiLoop alloc sfi last s rec oda list) s := by
  induction n with
  | zero => intro s h; omega
  | succ n ih =>
    intro s hs rec oda list
    simp only [sfiLoop_eq alloc sfi last _ rec]
    refine online_ite (fun _ => online_fin _ _) fun _ => online_ite (fun _ => online_fin _ _) fun hq =>
      online_send _ _ _ _ (fun _ => fit_sfi hq) (fun h => by cases h) fun w rest hr => ?_
    have hl : rest.length < n := by rw [hr, List.length_cons] at hs; omega
    refine online_ite (fun _ => online_fin _ _) fun _ => online_ite (fun _ => online_fin _ _) fun _ =>
      online_bind _ _ _ fun y _ => ?_
    cases y with
    | stop code list => exact online_fin _ _
    | spoilt => exact ih rest hl _ _ _
    | next list => exact ih rest hl _ _ _

theorem online_aflLoop (alloc : List Tlv → Tlv → Bool) (fuel : Nat) :
    ∀ itr oda list, Online (aflLoop alloc fuel itr oda list) := by
  induction fuel with
  | zero => intro itr oda list s; exact fun _ => rfl
  | succ fuel ih =>
    intro itr oda list s
    refine online_bind (aflNext itr) (fun x s => match x.2 with
      | .eod => fin (if oda then 14 else 0, list) s
      | .err _ => fin (-8, list) s
      | .ok _ e => andThen (readSfi alloc e list s) (fun a rest =>
        if a.1 = 0 then aflLoop alloc fuel x.1 oda a.2 rest
        else if a.1 = 14 then aflLoop alloc fuel x.1 true a.2 rest
        else (fin a rest))) s fun y _ => ?_
    obtain ⟨itr', r⟩ := y
    cases r with
    | eod => exact online_fin _ _
    | err _ => exact online_fin _ _
    | ok n e =>
      refine online_andThen _ _ _ (online_sfiLoop alloc e.sfi e.last _ s (Nat.lt_succ_self _) _ _ _) fun tr a rest _ => ?_
      exact online_ite (fun _ => ih _ _ _ _) fun _ => online_ite (fun _ => ih _ _ _ _) fun _ => online_fin _ _

theorem online_readAfl (alloc : List Tlv → Tlv → Bool) (afl : List Byte) (list : List Tlv) :
    Online (readAfl alloc afl list) := fun _ =>
  online_ite (fun _ => online_fin _ _) fun _ => online_ite (fun _ => online_fin _ _) fun _ =>
    online_ite (fun _ => online_fin _ _) fun _ => online_aflLoop _ _ _ _ _ _

theorem online_readData (alloc : List Tlv → Tlv → Bool) (ctx : Ctx) : Online (readData alloc ctx) := by
  intro s
  unfold readData
  cases find ctx.icc 0x94 with
  | none => exact online_fin _ _
  | some afl =>
    exact online_andThen _ _ _ (online_readAfl _ _ _ _) fun tr a rest _ =>
      online_ite (fun _ => online_fin _ _) fun _ => online_ite (fun _ => online_fin _ _) fun _ =>
      online_ite (fun _ => online_fin _ _) fun _ => online_ite (fun _ => online_fin _ _) fun _ => online_fin _ _

theorem online_gpo (alloc : List Tlv → Tlv → Bool) (data : Option (List Byte)) (list : List Tlv) :
    Online (gpo alloc data list) := by
  intro s
  have h : ∀ (w : W) (rest : List W), OnlineAt (fun rest =>
      if w.code ≠ 0 then fin (⟨-3, list, .null, .null⟩ : Gpo) rest
      else if w.sw ≠ 0x9000 then
        fin ⟨if w.sw = 0x6985 then 13 else -5, list, .null, .null⟩ rest
      else do
        match ← gpoFields alloc w.data with
        | .error c => fin ⟨c, list, .null, .null⟩ rest
        | .ok l =>
          match find l 0x82 with
          | none => fin ⟨-7, list, .null, .null⟩ rest
          | some a =>
            match find l 0x94 with
            | none => fin ⟨-7, list, .dangling, .null⟩ rest
            | some f => fin ⟨0, list ++ l, .field a, .field f⟩ rest) rest := by
    intro w rest
    refine online_ite (fun _ => online_fin _ _) fun _ => online_ite (fun _ => online_fin _ _) fun _ =>
      online_bind _ _ _ fun y _ => ?_
    cases y with
    | error c => exact online_fin _ _
    | ok l =>
      dsimp only
      cases find l 0x82 with
      | none => exact online_fin _ _
      | some a =>
        dsimp only
        cases find l 0x94 <;> exact online_fin _ _
  exact online_ite (fun _ => online_fin _ _) fun _ => online_send _ _ _ _ fit_gpo (fun _ => h _ _) fun w rest _ => h _ _

theorem online_initiate (alloc : List Tlv → Tlv → Bool) (buf : List Byte) (ctx : Ctx) (pos : Byte) :
    Online (initiate alloc buf ctx pos) := by
  intro s
  unfold initiate
  cases ctx.selected with
  | none => exact online_fin _ _
  | some _ =>
    dsimp only
    cases ctx.clearIcc.selected with
    | none => exact online_error _ _
    | some sel =>
      refine online_ite (fun _ => online_fin _ _) fun _ => online_ite (fun _ => online_error _ _) fun _ =>
        online_ite (fun _ => online_fin _ _) fun _ => online_bind _ _ _ fun y _ => ?_
      cases y with
      | error c => exact online_fin _ _
      | ok data =>
        exact online_andThen _ _ _ (online_gpo _ _ _ _) fun tr g rest _ =>
          online_ite (fun _ => online_fin _ _) fun _ => online_ite (fun _ => online_fin _ _) fun _ => online_fin _ _

theorem online_selectApp (aid : List Byte) : Online (selectApp aid) := by
  intro s
  have h : ∀ (w : W) (rest : List W), OnlineAt (fun rest =>
      if w.code ≠ 0 then fin ((-3, none) : Int × Option App) rest
      else if w.sw ≠ 0x9000 then
        fin (if w.sw = 0x6A81 then -4 else if w.sw = 0x6A82 then 9
          else if w.sw = 0x6283 then 10 else 11, none) rest
      else do
        match ← createFromFci w.data with
        | none => fin (12, none) rest
        | some app =>
          if app.aid.value.length ≠ aid.length then fin (11, none) rest
          else do
            let a ← slice app.aid.value 0 aid.length
            if a != aid then fin (11, none) rest
            else fin (0, some app) rest) rest := by
    intro w rest
    refine online_ite (fun _ => online_fin _ _) fun _ => online_ite (fun _ => online_fin _ _) fun _ =>
      online_bind _ _ _ fun y _ => ?_
    cases y with
    | none => exact online_fin _ _
    | some app =>
      exact online_ite (fun _ => online_fin _ _) fun _ => online_bind _ _ _ fun y _ =>
        online_ite (fun _ => online_fin _ _) fun _ => online_fin _ _
  exact online_ite (fun _ => online_fin _ _) fun _ => online_send _ _ _ _ fit_name (fun _ => h _ _) fun w rest _ => h _ _

theorem online_select (ctx : Ctx) (apps : List App) (i : Nat) : Online (Emv.select ctx apps i) := by
  intro s
  unfold Emv.select
  dsimp only
  cases apps[i]? with
  | none => exact online_fin _ _
  | some a =>
    exact online_ite (fun _ => online_fin _ _) fun _ => online_andThen _ _ _ (online_selectApp _ _) fun tr x rest _ =>
      online_ite (fun _ => online_fin _ _) fun _ => online_ite (fun _ => online_fin _ _) fun _ => online_fin _ _

theorem pseLoop_eq (pse supported : List Tlv) (sfi : Byte) (s : List W) (rec : Byte) (apps : List App) :
    pseLoop pse supported sfi s rec apps =
    if refusesSfi sfi then fin (-3, []) s
    else send false (.readRecord sfi rec) s fun w rest =>
      if w.code ≠ 0 then fin (-3, []) rest
      else if w.sw = 0x6A83 then fin (0, apps) rest
      else if w.sw ≠ 0x9000 then pseLoop pse supported sfi rest (rec + 1) apps
      else aefRecord pse supported w.data apps >>= fun y =>
        if y.1 < 0 then fin (y.1, []) rest else pseLoop pse supported sfi rest (rec + 1) y.2 := by
  cases s <;> rw [pseLoop.eq_def] <;> rfl

theorem online_pseLoop (pse supported : List Tlv) (sfi : Byte) (n : Nat) :
    ∀ s, s.length < n → ∀ rec apps, OnlineAt (fun s => pseLoop pse supported sfi s rec apps) s := by
  induction n with
  | zero => intro s h; omega
  | succ n ih =>
    intro s hs rec apps
    simp only [pseLoop_eq pse supported sfi _ rec]
    refine online_ite (fun _ => online_fin _ _) fun hq =>
      online_send _ _ _ _ (fun _ => fit_sfi hq) (fun h => by cases h) fun w rest hr => ?_
    have hl : rest.length < n := by rw [hr, List.length_cons] at hs; omega
    exact online_ite (fun _ => online_fin _ _) fun _ => online_ite (fun _ => online_fin _ _) fun _ =>
      online_ite (fun _ => ih rest hl _ _) fun _ =>
      online_bind _ _ _ fun y _ => online_ite (fun _ => online_fin _ _) fun _ => ih rest hl _ _

theorem online_readPse (supported : List Tlv) (apps : List App) : Online (readPse supported apps) := by
  intro s
  unfold readPse
  refine online_send _ _ _ _ fit_name (fun h => by cases h) fun w rest _ => ?_
  refine online_ite (fun _ => online_fin _ _) fun _ => online_ite (fun _ => online_fin _ _) fun _ =>
    online_ite (fun _ => online_fin _ _) fun _ => online_ite (fun _ => online_fin _ _) fun _ =>
    online_ite (fun _ => online_fin _ _) fun _ => online_bind _ _ _ fun y _ => online_ite (fun _ => online_fin _ _) fun _ => ?_
  cases find y.2 0x88 with
  | none => exact online_fin _ _
  | some t =>
    exact online_ite (fun _ => online_fin _ _) fun _ => online_bind _ _ _ fun sfi _ =>
      online_pseLoop _ _ _ _ _ (Nat.lt_succ_self _) _ _

theorem findApps_eq (s : List W) (aid : Tlv) (aids : List Tlv) (first : Bool) (apps : List App) :
    findApps s (aid :: aids) first apps =
    if refusesName aid.value then fin (-3, apps) s
    else send false (.select (!first) aid.value) s fun w rest =>
      if w.code ≠ 0 then fin (-3, apps) rest
      else if first ∧ w.sw = 0x6A81 then fin (-4, apps) rest
      else if w.sw ≠ 0x9000 ∧ w.sw ≠ 0x6283 then findApps rest aids true apps
      else createFromFci w.data >>= fun y =>
        match y with
        | none => findApps rest aids true apps
        | some app =>
          if aid.value.length = app.aid.value.length then findApps rest aids true (if w.sw = 0x9000 then apps ++ [app] else apps)
          else if aid.flags = 1 then findApps rest (aid :: aids) false (if w.sw = 0x9000 then apps ++ [app] else apps)
          else findApps rest aids true apps := by
  cases s <;> rw [findApps.eq_def] <;> rfl

theorem online_findApps (n : Nat) :
    ∀ s, s.length < n → ∀ aids first apps, OnlineAt (fun s => findApps s aids first apps) s := by
  induction n with
  | zero => intro s h; omega
  | succ n ih =>
    intro s hs aids first apps
    cases aids with
    | nil =>
      have : (fun s => findApps s [] first apps) = fun s => fin (0, apps) s := by
        funext s; rw [findApps.eq_def]
      rw [this]
      exact online_fin _ _
    | cons aid aids =>
      simp only [findApps_eq _ aid aids first apps]
      refine online_ite (fun _ => online_fin _ _) fun hq =>
        online_send _ _ _ _ (fun _ => fit_name (by simpa using hq)) (fun h => by cases h) fun w rest hr => ?_
      have hl : rest.length < n := by rw [hr, List.length_cons] at hs; omega
      refine online_ite (fun _ => online_fin _ _) fun _ => online_ite (fun _ => online_fin _ _) fun _ =>
        online_ite (fun _ => ih rest hl _ _ _) fun _ => online_bind _ _ _ fun y _ => ?_
      cases y with
      | none => exact ih rest hl _ _ _
      | some app =>
        exact online_ite (fun _ => ih rest hl _ _ _) fun _ => online_ite (fun _ => ih rest hl _ _ _) fun _ => ih rest hl _ _ _

theorem online_build (supported : List Tlv) (apps : List App) : Online (Emv.build supported apps) := by
  intro s
  have hfin : ∀ (l : List App) s, OnlineAt (fun s => finish l s) s := fun l s =>
    online_ite (fun _ => online_fin _ _) fun _ => online_fin _ _
  exact online_andThen _ _ _ (online_readPse _ _ _) fun tr a rest _ =>
    online_ite (fun _ => online_fin _ _) fun _ => online_ite (fun _ =>
      online_andThen _ _ _ (online_findApps _ _ (Nat.lt_succ_self _) _ _ _) fun tr a rest _ =>
        online_ite (fun _ => online_fin _ _) fun _ => hfin _ _) fun _ => hfin _ _

theorem online_rounds (alloc : List Tlv → Tlv → Bool) (mem : Nat → List Byte) (req : Bool) (fuel : Nat) :
    ∀ ctx apps input out, Online (ToolTxn.rounds alloc mem req fuel ctx apps input out) := by
  induction fuel with
  | zero => intro ctx apps input out s; exact fun _ => rfl
  | succ fuel ih =>
    intro ctx apps input out s
    change OnlineAt (fun s => ToolTxn.rounds alloc mem req (fuel + 1) ctx apps input out s) s
    simp only [ToolTxn.rounds.eq_2]
    refine online_bind _ _ _ fun y _ => ?_
    obtain ⟨c, bad⟩ := y
    cases c with
    | never => exact online_fin _ _
    | index i input =>
      refine online_andThen _ _ _ (online_select _ _ _ _) fun tr x rest _ =>
        online_ite (fun _ => online_fin _ _) fun _ => online_ite (fun _ =>
          online_ite (fun _ => ih _ _ _ _ _) fun _ => online_fin _ _) fun _ =>
        online_ite (fun _ => online_fin _ _) fun _ =>
        online_andThen _ _ _ (online_initiate _ _ _ _ _) fun tr x rest _ =>
          online_ite (fun _ => online_fin _ _) fun _ => online_ite (fun _ =>
            online_ite (fun _ => ih _ _ _ _ _) fun _ => online_fin _ _) fun _ => online_fin _ _

/-- The transaction of the tool asks one command after the other. -/
theorem online_transaction (alloc : List Tlv → Tlv → Bool) (mem : Nat → List Byte) (ctx : Ctx) (input : List Byte) :
    Online (ToolTxn.transaction alloc mem ctx input) := by
  intro s
  unfold ToolTxn.transaction
  exact online_andThen _ _ _ (online_build _ _ _) fun tr x rest _ =>
    online_ite (fun _ => online_fin _ _) fun _ =>
      online_andThen _ _ _ (online_rounds _ _ _ _ _ _ _ _ _) fun tr e rest _ =>
        online_ite (fun _ => online_andThen _ _ _ (online_readData _ _ _) fun tr x rest _ =>
          online_ite (fun _ => online_fin _ _) fun _ => online_fin _ _) fun _ => online_fin _ _

end Verif.Stack
