import Verif.Trace

/-! # Lemmas: leaving out the events of a run gives the run without events -/

set_option autoImplicit false

namespace Verif.Trace
open Verif Ber TlvParse App Fields Tal

/-- The exchange of an entry, if it is one. -/
def Entry.exchange? : Entry → Option (Cmd × W)
  | .said _ => none
  | .did cmd w => some (cmd, w)

/-- A run without its events. -/
def erase {α : Type} (x : C (Tr α)) : C (Run α) := do
  let (l, o) ← x
  .ok (l.filterMap Entry.exchange?, o)

theorem filterMap_said (es : List Event) :
    (es.map Entry.said).filterMap Entry.exchange? = [] := by
  induction es with
  | nil => rfl
  | cons e es ih => simp [Entry.exchange?]

@[simp] theorem erase_fin {α : Type} (a : α) (rest : List W) :
    erase (fin a rest) = Tal.fin a rest := rfl

@[simp] theorem erase_says {α : Type} (es : List Event) (x : C (Tr α)) :
    erase (says es x) = erase x := by
  cases x with
  | error e => rfl
  | ok p => simp only [erase, says, bind_ok, List.filterMap_append, filterMap_said, List.nil_append]

@[simp] theorem erase_did {α : Type} (cmd : Cmd) (w : W) (x : C (Tr α)) :
    erase (did cmd w x) = Tal.log cmd w (erase x) := by
  cases x with
  | error e => rfl
  | ok p => rfl

@[simp] theorem erase_andThen {α β : Type} (x : C (Tr α)) (f : α → List W → C (Tr β)) :
    erase (andThen x f) = Tal.andThen (erase x) (fun a rest => erase (f a rest)) := by
  cases x with
  | error e => rfl
  | ok p =>
    obtain ⟨l, o⟩ := p
    cases o with
    | pending cmd => rfl
    | done a rest =>
      simp only [andThen, erase, Tal.andThen, bind_ok]
      cases f a rest with
      | error e => rfl
      | ok q => simp [List.filterMap_append]

@[simp] theorem erase_bind {α β : Type} (x : C β) (f : β → C (Tr α)) :
    erase (x >>= f) = x >>= fun b => erase (f b) := by
  cases x <;> rfl

@[simp] theorem erase_error {α : Type} (e : UB) : erase (.error e : C (Tr α)) = .error e := rfl

@[simp] theorem erase_pending {α : Type} (cmd : Cmd) :
    erase (.ok ([], .pending cmd) : C (Tr α)) = .ok ([], .pending cmd) := rfl

theorem erase_ite {α : Type} (p : Prop) [Decidable p] (x y : C (Tr α)) :
    erase (if p then x else y) = if p then erase x else erase y := by
  split <;> rfl

theorem erase_send {α : Type} (refused : Bool) (cmd : Cmd) (script : List W)
    (k : W → List W → C (Tr α)) :
    erase (send refused cmd script k) =
      Tal.send refused cmd script (fun w rest => erase (k w rest)) := by
  unfold send Tal.send
  rw [erase_ite]
  cases script <;> simp

theorem record_eq (alloc : List Tlv → Tlv → Bool) (sfi : Byte) (data : List Byte) (oda : Bool)
    (list : List Tlv) :
    (do let p ← record alloc sfi data oda list; .ok p.2) = Tal.record alloc sfi data list := by
  unfold record Tal.record template
  split
  · rfl
  · cases rd data 0 with
    | error e => rfl
    | ok b =>
      simp only [bind_ok]
      split
      · split <;> rfl
      · by_cases hs : sfi.toNat ≥ 1 ∧ sfi.toNat ≤ 10
        · simp only [if_pos hs]
          cases decode data with
          | error e => rfl
          | ok d =>
            cases d with
            | eod => rfl
            | err n => rfl
            | ok n t =>
              simp only [bind_ok]
              by_cases ht : t.tag = 0x70
              · by_cases hl : t.value.length + 3 < data.length
                · simp [ht, hl]
                · simp only [ht, ne_eq, not_true_eq_false, if_false, hl, decide_false, bne_self_eq_false,
                    Bool.or_self, bind_ok, Bool.false_eq_true]
                  cases parse alloc data list with
                  | error e => rfl
                  | ok q =>
                    simp only [bind_ok]
                    repeat' split
                    all_goals rfl
              · simp [ht]
        · simp only [if_neg hs, bind_ok, Bool.false_eq_true, if_false]
          cases parse alloc data list with
          | error e => rfl
          | ok q =>
            simp only [bind_ok]
            repeat' split
            all_goals rfl

theorem erase_sfiLoop (alloc : List Tlv → Tlv → Bool) (sfi last : Byte) :
    ∀ (script : List W) (rec : Byte) (oda : Bool) (list : List Tlv),
      erase (sfiLoop alloc sfi last script rec oda list) =
        Tal.sfiLoop alloc sfi last script rec oda list := by
  intro script
  induction script with
  | nil =>
    intro rec oda list
    rw [sfiLoop, Tal.sfiLoop]
    simp [erase_ite]
  | cons w rest ih =>
    intro rec oda list
    rw [sfiLoop, Tal.sfiLoop]
    simp only [erase_ite, erase_says, erase_did, erase_fin, erase_bind, ← record_eq alloc sfi w.data oda list]
    congr 3
    split
    · rfl
    · split
      · rfl
      · cases record alloc sfi w.data oda list with
        | error e => rfl
        | ok p =>
          obtain ⟨es, r⟩ := p
          cases r <;> simp [ih]

theorem erase_aflLoop (alloc : List Tlv → Tlv → Bool) :
    ∀ (fuel : Nat) (itr : List Byte) (oda : Bool) (list : List Tlv) (script : List W),
      erase (aflLoop alloc fuel itr oda list script) =
        Tal.aflLoop alloc fuel itr oda list script := by
  intro fuel
  induction fuel with
  | zero => intros; rfl
  | succ n ih =>
    intro itr oda list script
    rw [aflLoop, Tal.aflLoop, erase_bind]
    cases aflNext itr with
    | error e => rfl
    | ok p =>
      obtain ⟨itr', r⟩ := p
      cases r with
      | eod => simp
      | err n => simp
      | ok k e =>
        simp only [bind_ok, erase_andThen, readSfi, erase_sfiLoop, Tal.readSfi, erase_ite, ih, erase_fin]

theorem erase_readAfl (alloc : List Tlv → Tlv → Bool) (afl : List Byte) (list : List Tlv)
    (script : List W) :
    erase (readAfl alloc afl list script) = Tal.readAfl alloc afl list script := by
  unfold readAfl Tal.readAfl
  simp only [erase_ite, erase_fin, erase_says, erase_aflLoop]

theorem gpoFields_eq (alloc : List Tlv → Tlv → Bool) (data : List Byte) :
    (do let p ← gpoFields alloc data; .ok p.2) = Tal.gpoFields alloc data := by
  unfold gpoFields Tal.gpoFields
  cases decode data with
  | error e => rfl
  | ok d =>
    cases d with
    | eod => rfl
    | err n => rfl
    | ok n t =>
      simp only [bind_ok]
      by_cases h : t.tag = 0x80
      · simp only [if_pos h]
        split
        · rfl
        · cases slice t.value 0 2 with
          | error e => rfl
          | ok a =>
            simp only [bind_ok]
            cases slice t.value 2 (t.value.length - 2) with
            | error e => rfl
            | ok f =>
              simp only [bind_ok]
              repeat' split
              all_goals rfl
      · simp only [if_neg h]
        split
        · cases parse alloc t.value [] with
          | error e => rfl
          | ok q =>
            simp only [bind_ok]
            repeat' split
            all_goals rfl
        · rfl

theorem erase_gpo (alloc : List Tlv → Tlv → Bool) (data : Option (List Byte)) (list : List Tlv)
    (script : List W) : erase (gpo alloc data list script) = Tal.gpo alloc data list script := by
  unfold gpo Tal.gpo
  simp only [erase_ite, erase_fin, erase_says, erase_send, erase_bind]
  congr 2
  funext w rest
  split
  · rfl
  · split
    · split <;> rfl
    · rw [← gpoFields_eq]
      cases gpoFields alloc w.data with
      | error e => rfl
      | ok p =>
        obtain ⟨es, r⟩ := p
        cases r with
        | error c => simp
        | ok l =>
          simp only [bind_ok, erase_says]
          cases find l 0x82 with
          | none => simp
          | some a => cases find l 0x94 <;> simp

theorem aefLoop_eq (pse supported : List Tlv) :
    ∀ (fuel : Nat) (itr : List Byte) (apps : List App),
      (do let p ← aefLoop pse supported fuel itr apps; .ok p.2) =
        Tal.aefLoop pse supported fuel itr apps := by
  intro fuel
  induction fuel with
  | zero => intros; rfl
  | succ n ih =>
    intro itr apps
    rw [aefLoop, Tal.aefLoop]
    cases itrNext itr with
    | error e => rfl
    | ok p =>
      obtain ⟨itr', r⟩ := p
      cases r with
      | eod => rfl
      | err n => rfl
      | ok k t =>
        simp only [bind_ok]
        by_cases h : t.tag ≠ 0x61
        · simp only [if_pos h, ← ih]
          cases aefLoop pse supported n itr' apps <;> rfl
        · simp only [if_neg h]
          cases createFromPse pse t.value with
          | error e => rfl
          | ok a =>
            cases a with
            | none =>
              simp only [bind_ok, ← ih]
              cases aefLoop pse supported n itr' apps <;> rfl
            | some app =>
              simp only [bind_ok]
              cases App.isSupported app.aid.value supported with
              | error e => rfl
              | ok b =>
                cases b with
                | true =>
                  simp only [bind_ok, if_true, ← ih]
                  cases aefLoop pse supported n itr' (apps ++ [app]) <;> rfl
                | false =>
                  simp only [bind_ok, Bool.false_eq_true, if_false, ← ih]
                  cases aefLoop pse supported n itr' apps <;> rfl

theorem aefRecord_eq (junk : Nat) (pse supported : List Tlv) (data : List Byte) (apps : List App) :
    (do let p ← aefRecord junk pse supported data apps; .ok p.2) =
      Tal.aefRecord pse supported data apps := by
  unfold aefRecord Tal.aefRecord
  cases decode data with
  | error e => rfl
  | ok d =>
    cases d with
    | eod => rfl
    | err n => rfl
    | ok n t =>
      simp only [bind_ok]
      split
      · rfl
      · rw [← aefLoop_eq]
        cases aefLoop pse supported (t.value.length + 1) t.value apps <;> rfl

theorem erase_pseLoop (junk : Nat → Nat) (pse supported : List Tlv) (sfi : Byte) :
    ∀ (script : List W) (rec : Byte) (apps : List App),
      erase (pseLoop junk pse supported sfi script rec apps) =
        Tal.pseLoop pse supported sfi script rec apps := by
  intro script
  induction script with
  | nil =>
    intro rec apps
    rw [pseLoop, Tal.pseLoop]
    simp [erase_ite]
  | cons w rest ih =>
    intro rec apps
    rw [pseLoop, Tal.pseLoop]
    simp only [erase_ite, erase_says, erase_did, erase_fin, erase_bind, ih,
      ← aefRecord_eq (junk rest.length)]
    congr 5
    cases aefRecord (junk rest.length) pse supported w.data apps with
    | error e => rfl
    | ok p =>
      obtain ⟨es, r, apps'⟩ := p
      simp only [bind_ok]
      split
      · rfl
      · split <;> rfl

theorem erase_readPse (junk : Nat → Nat) (supported : List Tlv) (apps : List App)
    (script : List W) :
    erase (readPse junk supported apps script) = Tal.readPse supported apps script := by
  unfold readPse Tal.readPse
  simp only [erase_says, erase_send]
  congr 1
  funext w rest
  simp only [erase_ite, erase_says, erase_fin, erase_bind]
  congr 5
  cases parse allocOk w.data [] with
  | error e => rfl
  | ok q =>
    obtain ⟨r, pse⟩ := q
    simp only [bind_ok]
    split
    · rfl
    · cases find pse 0x88 with
      | none => simp
      | some t => simp only [erase_ite, erase_says, erase_fin, erase_bind, erase_pseLoop]

theorem erase_findApps : ∀ (script : List W) (aids : List Tlv) (first : Bool) (apps : List App),
    erase (findApps script aids first apps) = Tal.findApps script aids first apps := by
  intro script
  induction script with
  | nil =>
    intro aids first apps
    cases aids with
    | nil => rw [findApps, Tal.findApps]; rfl
    | cons aid aids => rw [findApps, Tal.findApps]; simp [erase_ite]
  | cons w rest ih =>
    intro aids first apps
    cases aids with
    | nil => rw [findApps, Tal.findApps]; rfl
    | cons aid aids =>
      rw [findApps, Tal.findApps]
      simp only [erase_ite, erase_says, erase_did, erase_fin, erase_bind, ih]
      congr 5
      cases createFromFci w.data with
      | error e => rfl
      | ok a =>
        cases a with
        | none => simp [ih]
        | some app => simp only [bind_ok, erase_ite, erase_says, ih]

theorem erase_selectApp (aid : List Byte) (script : List W) :
    erase (selectApp aid script) = Tal.selectApp aid script := by
  unfold selectApp Tal.selectApp
  simp only [erase_ite, erase_fin, erase_says, erase_send, erase_bind]
  congr 2
  funext w rest
  split
  · rfl
  · split
    · repeat' split
      all_goals rfl
    · cases createFromFci w.data with
      | error e => rfl
      | ok a =>
        cases a with
        | none => simp
        | some app => simp only [bind_ok, erase_ite, erase_says, erase_fin, erase_bind]

theorem erase_finish (apps : List App) (script : List W) :
    erase (finish apps script) = Emv.finish apps script := by
  unfold finish Emv.finish
  simp only [erase_ite, erase_fin, erase_says]

theorem erase_build (junk : Nat → Nat) (supported : List Tlv) (apps : List App)
    (script : List W) :
    erase (build junk supported apps script) = Emv.build supported apps script := by
  unfold build Emv.build
  simp only [erase_ite, erase_fin, erase_says, erase_andThen, erase_readPse, erase_findApps,
    erase_finish]

theorem erase_tryAgain (ctx : Emv.Ctx) (apps : List App) (script : List W) :
    erase (tryAgain ctx apps script) = Tal.fin (Emv.tryAgain apps, apps, ctx) script := by
  unfold tryAgain Emv.tryAgain
  rw [erase_ite]
  split <;> simp

theorem erase_select (ctx : Emv.Ctx) (apps : List App) (index : Nat) (script : List W) :
    erase (select ctx apps index script) = Emv.select ctx apps index script := by
  unfold select Emv.select
  cases apps[index]? with
  | none => simp
  | some a =>
    simp only [erase_ite, erase_fin, erase_says, erase_andThen, erase_selectApp, erase_tryAgain]

theorem gpoData_eq (buf : List Byte) (sources : List (List Tlv)) (tlvs : List Tlv) :
    (do let p ← gpoData buf sources tlvs; .ok p.2) = Emv.gpoData buf sources tlvs := by
  unfold gpoData Emv.gpoData
  cases find tlvs 0x9F38 with
  | none => rfl
  | some pdol =>
    simp only
    cases Dol.computeDataLength pdol.value with
    | error e => rfl
    | ok n =>
      simp only [bind_ok]
      split
      · rfl
      · split
        · rfl
        · cases wr buf 0 0x83 with
          | error e => rfl
          | ok buf =>
            simp only [bind_ok]
            generalize ((if n < 0x80 then do
                let buf ← wr buf 1 (UInt8.ofNat n.toNat)
                .ok (buf, 2)
              else do
                let buf ← wr buf 1 0x81
                let buf ← wr buf 2 (UInt8.ofNat n.toNat)
                .ok (buf, 3) : C (List Byte × Nat))) = hd
            cases hd with
            | error e => rfl
            | ok p =>
              obtain ⟨buf, off⟩ := p
              simp only [bind_ok]
              cases suffix buf off with
              | error e => rfl
              | ok tail =>
                simp only [bind_ok]
                cases Dol.buildData pdol.value sources tail with
                | error e => rfl
                | ok q =>
                  obtain ⟨r, tail, len⟩ := q
                  simp only [bind_ok]
                  split
                  · rfl
                  · cases slice (buf.take off ++ tail) 0 (len + off) <;> rfl

theorem erase_initiate (alloc : List Tlv → Tlv → Bool) (buf : List Byte) (ctx : Emv.Ctx)
    (pos : Byte) (script : List W) :
    erase (initiate alloc buf ctx pos script) = Emv.initiate alloc buf ctx pos script := by
  unfold initiate Emv.initiate
  cases ctx.selected with
  | none => simp
  | some s0 =>
    simp only
    cases ctx.clearIcc.selected with
    | none => rfl
    | some s =>
      simp only [erase_ite, erase_fin, erase_says, erase_bind, erase_error, ← gpoData_eq]
      congr 3
      cases gpoData buf _ s.app.tlvs with
      | error e => rfl
      | ok p =>
        obtain ⟨es, r⟩ := p
        cases r with
        | error c => simp
        | ok data =>
          simp only [bind_ok, erase_says, erase_andThen, erase_gpo, erase_ite, erase_fin]

theorem erase_readData (alloc : List Tlv → Tlv → Bool) (ctx : Emv.Ctx) (script : List W) :
    erase (readData alloc ctx script) = Emv.readData alloc ctx script := by
  unfold readData Emv.readData
  cases find ctx.icc 0x94 with
  | none => simp
  | some afl =>
    simp only [erase_andThen, erase_readAfl, erase_ite, erase_fin, erase_says]

end Verif.Trace
