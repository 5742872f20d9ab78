import Verif.TraceCause
import Verif.TraceProps
import Verif.EmvGpoProps
import Verif.LinkedListProps

/-! # The reasons reported are the reasons (C134) -/

set_option autoImplicit false

namespace Verif.Trace
open Verif Ber TlvParse App Fields Tal

/-- The functions of the Terminal Application Layer that fail say at last why, in the words that
belong to their result, and the status, length or number they show is that of the last answer. -/
theorem C134_cause (junk : Nat → Nat) (supported : List Tlv) (apps : List App) (aid : List Byte)
    (alloc : List Tlv → Tlv → Bool) (data : Option (List Byte)) (afl : List Byte)
    (list : List Tlv) (script : List W) :
    Why (·.1) none (readPse junk supported apps script) ∧
    Why (·.1) none (findApps script supported true apps) ∧
    Why (·.1) none (selectApp aid script) ∧
    Why Gpo.code none (gpo alloc data list script) ∧
    Why (·.1) none (readAfl alloc afl list script) :=
  ⟨why_readPse _ _ _ _, why_findApps _ _ _ _ _, why_selectApp _ _, why_gpo _ _ _ _,
    why_readAfl _ _ _ _⟩

example : ∃ l, selectApp [0xA0, 0, 0, 0, 3] [⟨0, [], 0x6985⟩] = .ok (l, .done (11, none) []) ∧
    l.getLast? = some (.said (error 2 txt!"SW1SW2=0x6985\n")) := by
  exact ⟨_, rfl, by decide +kernel⟩

example : ∃ l, readAfl allocOk [0x08, 0x01, 0x01, 0x00] []
    [⟨0, [0x70, 0x01, 0x5A, 0x00, 0x00], 0x9000⟩] = .ok (l, .done (-10, []) []) ∧
    l.getLast? = some (.said (error 2 txt!"Invalid record template length 1")) := by
  exact ⟨_, rfl, by decide +kernel⟩

theorem sfiLoop_code (alloc : List Tlv → Tlv → Bool) (sfi last : Byte) :
    ∀ (script : List W) (rec : Byte) (oda : Bool) (list : List Tlv) (l : List Entry) (c : Int)
      (list' : List Tlv) (rest : List W),
      sfiLoop alloc sfi last script rec oda list = .ok (l, .done (c, list') rest) → c ≠ -8 := by
  intro script
  induction script with
  | nil =>
    intro rec oda list l c list' rest h
    rw [sfiLoop] at h
    split at h
    · cases h; cases oda <;> decide
    · obtain ⟨l1, h1, rfl⟩ := says_inv h
      split at h1
      · obtain ⟨l2, h2, rfl⟩ := says_inv h1
        cases h2
        decide
      · cases h1
  | cons w rest' ih =>
    intro rec oda list l c list' rest h
    rw [sfiLoop] at h
    split at h
    · cases h; cases oda <;> decide
    · obtain ⟨l1, h1, rfl⟩ := says_inv h
      split at h1
      · obtain ⟨l2, h2, rfl⟩ := says_inv h1
        cases h2
        decide
      obtain ⟨l2, h2, rfl⟩ := did_inv h1
      split at h2
      · obtain ⟨l3, h3, rfl⟩ := says_inv h2
        cases h3
        decide
      split at h2
      · obtain ⟨l3, h3, rfl⟩ := says_inv h2
        cases h3
        decide
      obtain ⟨⟨es, r⟩, hr, h3⟩ := Ttl.bind_inv h2
      cases r with
      | stop code lst =>
        obtain ⟨l4, h4, rfl⟩ := says_inv h3
        cases h4
        exact (record_stop hr).2.2
      | spoilt =>
        obtain ⟨l4, h4, rfl⟩ := says_inv h3
        exact ih _ _ _ _ _ _ _ h4
      | next lst =>
        obtain ⟨l4, h4, rfl⟩ := says_inv h3
        exact ih _ _ _ _ _ _ _ h4

theorem aflLoop_entry (alloc : List Tlv → Tlv → Bool) :
    ∀ (fuel : Nat) (itr : List Byte) (oda : Bool) (list : List Tlv) (script : List W)
      (l : List Entry) (list' : List Tlv) (rest : List W),
      aflLoop alloc fuel itr oda list script = .ok (l, .done (-8, list') rest) →
      l.getLast? = some (.said (error 2 txt!"AFL parse error")) := by
  intro fuel
  induction fuel with
  | zero => intro itr oda list script l list' rest h; cases h
  | succ n ih =>
    intro itr oda list script l list' rest h
    rw [aflLoop] at h
    obtain ⟨⟨itr', r⟩, _, h⟩ := Ttl.bind_inv h
    cases r with
    | eod => cases oda <;> cases h
    | err k =>
      obtain ⟨l2, h2, rfl⟩ := says_inv h
      cases h2
      rfl
    | ok k e =>
      obtain ⟨l1, ⟨c1, b⟩, r1, l2, h2, h3, rfl⟩ := andThen_inv h
      simp only at h3
      split at h3
      · simp [List.getLast?_append, ih _ _ _ _ _ _ _ h3]
      split at h3
      · simp [List.getLast?_append, ih _ _ _ _ _ _ _ h3]
      · cases h3
        exact absurd rfl (sfiLoop_code _ _ _ _ _ _ _ _ _ _ _ h2)

/-- Of the two errors on an AFL, one says that its length is not allowed, the other that an entry
is not. -/
theorem C134_afl (alloc : List Tlv → Tlv → Bool) (afl : List Byte) (list : List Tlv)
    (script : List W) (l : List Entry) (list' : List Tlv) (rest : List W)
    (h : readAfl alloc afl list script = .ok (l, .done (-8, list') rest)) :
    l.getLast? = some (.said (error 2 (if afl.length % 4 ≠ 0 ∨ 252 < afl.length
      then txt!"Invalid AFL" else txt!"AFL parse error"))) := by
  unfold readAfl at h
  split at h
  · cases h
  rename_i g0
  simp only at h
  unfold aflInit at h
  rw [if_neg g0] at h
  by_cases h4 : afl.length % 4 ≠ 0
  · simp only [if_pos h4] at h
    cases h
    rw [if_pos (Or.inl h4)]
    rfl
  by_cases h252 : afl.length > 252
  · simp only [if_neg h4, if_pos h252] at h
    cases h
    rw [if_pos (Or.inr h252)]
    rfl
  · simp only [if_neg h4, if_neg h252] at h
    rw [if_neg (by omega)]
    exact aflLoop_entry _ _ _ _ _ _ _ _ _ h

example : ∃ l, readAfl allocOk [0x08, 0x02, 0x01, 0x00] [] [] = .ok (l, .done (-8, []) []) ∧
    l.getLast? = some (.said (error 2 txt!"AFL parse error")) := by
  exact ⟨_, rfl, rfl⟩

/-! ## The calls of the kernel -/

/-- The last event of the Terminal Application Layer. -/
def lastTal : List Entry → Option Event
  | [] => none
  | .said e :: l => (lastTal l).or (if e.source = 2 then some e else none)
  | .did _ _ :: l => lastTal l

theorem lastTal_append : ∀ (l l' : List Entry), lastTal (l ++ l') = (lastTal l').or (lastTal l)
  | [], l' => by simp [lastTal]
  | .did _ _ :: l, l' => lastTal_append l l'
  | .said e :: l, l' => by
    simp only [List.cons_append, lastTal, lastTal_append l l', Option.or_assoc]

theorem lastTal_kernel (es : List Event) (h : ∀ e ∈ es, e.source = 4) :
    lastTal (es.map Entry.said) = none := by
  induction es with
  | nil => rfl
  | cons e es ih =>
    simp only [List.map_cons, lastTal, ih (fun e' he => h e' (by simp [he])), Option.none_or]
    rw [if_neg]
    rw [h e (by simp)]
    decide

theorem lastTal_last {l : List Entry} {e : Event} (h : l.getLast? = some (.said e))
    (hs : e.source = 2) : lastTal l = some e := by
  obtain ⟨l', rfl⟩ := List.getLast?_eq_some_iff.mp h
  rw [lastTal_append]
  simp [lastTal, hs]

/-- The last event of the Terminal Application Layer in `l` explains the result `c`. -/
def Explained (c : Int) (l : List Entry) : Prop :=
  ∃ e, lastTal l = some e ∧ Cause c (lastAnswer l) e.level e.text

theorem explained {β : Type} {code : β → Int} {x : C (Tr β)} (hw : ∀ q, Why code q x)
    {l : List Entry} {a : β} {r : List W} (hx : x = .ok (l, .done a r)) (h0 : code a ≠ 0)
    (h14 : code a ≠ 14) (h2 : code a ≠ -2) (pre : List Entry) (es : List Event)
    (hes : ∀ e ∈ es, e.source = 4) :
    Explained (code a) (pre ++ (l ++ es.map Entry.said)) := by
  obtain ⟨e, hl, hs, hc⟩ := hw (lastAnswer pre) _ _ _ hx h0 h14 h2
  refine ⟨e, ?_, ?_⟩
  · rw [lastTal_append, lastTal_append, lastTal_kernel es hes, lastTal_last hl hs]; rfl
  · have : lastAnswer (es.map Entry.said) = none := by
      have := lastAnswer_said es []
      rwa [List.append_nil] at this
    rw [lastAnswer_append, lastAnswer_append, this]
    simpa using hc

/-! ### The results possible -/

/-- Every result of the run satisfies `P`. -/
def Ends {α : Type} (P : α → Prop) (x : C (Tr α)) : Prop :=
  ∀ l a rest, x = .ok (l, .done a rest) → P a

section
variable {α β : Type} {P : α → Prop}

theorem ends_fin {a : α} {rest : List W} (h : P a) : Ends P (fin a rest) := by
  intro l b r e; cases e; exact h

theorem ends_says {es : List Event} {x : C (Tr α)} (h : Ends P x) : Ends P (says es x) := by
  intro l a rest e
  obtain ⟨l', e', _⟩ := says_inv e
  exact h _ _ _ e'

theorem ends_did {cmd : Cmd} {w : W} {x : C (Tr α)} (h : Ends P x) : Ends P (did cmd w x) := by
  intro l a rest e
  obtain ⟨l', e', _⟩ := did_inv e
  exact h _ _ _ e'

theorem ends_error {u : UB} : Ends P (.error u : C (Tr α)) := by
  intro l a rest e; cases e

theorem ends_pending {cmd : Cmd} : Ends P (.ok ([], .pending cmd) : C (Tr α)) := by
  intro l a rest e; cases e

theorem ends_bind {x : C β} {f : β → C (Tr α)} (h : ∀ b, x = .ok b → Ends P (f b)) :
    Ends P (x >>= f) := by
  intro l a rest e
  cases x with
  | error u => cases e
  | ok b => exact h b rfl l a rest e

theorem ends_ite {c : Prop} [Decidable c] {x y : C (Tr α)} (hx : c → Ends P x)
    (hy : ¬ c → Ends P y) : Ends P (if c then x else y) := by
  split
  · exact hx ‹_›
  · exact hy ‹_›

theorem ends_send {refused : Bool} {cmd : Cmd} {script : List W} {k : W → List W → C (Tr α)}
    (h : ∀ w rest, Ends P (k w rest)) : Ends P (send refused cmd script k) := by
  unfold send
  refine ends_ite (fun _ => h _ _) (fun _ => ?_)
  cases script with
  | nil => exact ends_pending
  | cons w rest => exact ends_did (h w rest)

end

theorem ends_selectApp (aid : List Byte) (script : List W) (h : 5 ≤ aid.length ∧ aid.length ≤ 16) :
    Ends (fun a : Int × Option App => a.1 ≠ 14 ∧ a.1 ≠ -2) (selectApp aid script) := by
  unfold selectApp
  rw [if_neg (by omega)]
  refine ends_says (ends_send fun w rest => ?_)
  refine ends_ite (fun _ => ends_says (ends_fin (by decide))) (fun _ => ?_)
  refine ends_ite (fun _ => ?_) (fun _ => ends_says ?_)
  · repeat' refine ends_ite (fun _ => ends_says (ends_fin (by decide))) (fun _ => ?_)
    exact ends_says (ends_fin (by decide))
  refine ends_bind fun b _ => ?_
  cases b with
  | none => exact ends_says (ends_fin (by decide))
  | some app =>
    refine ends_ite (fun _ => ends_says (ends_fin (by decide))) (fun _ => ?_)
    refine ends_bind fun a _ => ?_
    exact ends_ite (fun _ => ends_says (ends_fin (by decide))) (fun _ => ends_fin (by simp))

theorem ends_pseLoop (junk : Nat → Nat) (pse supported : List Tlv) (sfi : Byte) :
    ∀ (script : List W) (rec : Byte) (apps : List App),
      Ends (fun a : Int × List App => a.1 ≠ 14 ∧ a.1 ≠ -2)
        (pseLoop junk pse supported sfi script rec apps) := by
  intro script
  induction script with
  | nil =>
    intro rec apps
    rw [pseLoop]
    exact ends_ite (fun _ => ends_says (ends_fin (by decide))) (fun _ => ends_pending)
  | cons w rest ih =>
    intro rec apps
    rw [pseLoop]
    refine ends_ite (fun _ => ends_says (ends_fin (by decide))) (fun _ => ends_did ?_)
    refine ends_ite (fun _ => ends_says (ends_fin (by decide))) (fun hc => ?_)
    refine ends_ite (fun _ => ends_says (ends_fin (by simp))) (fun _ => ?_)
    refine ends_ite (fun _ => ends_says (ih _ _)) (fun hw => ends_says ?_)
    refine ends_bind fun b hb => ?_
    obtain ⟨es, r, apps'⟩ := b
    have hr := aefRecord_code hb
    refine ends_ite (fun h => absurd h (by omega)) (fun _ => ?_)
    exact ends_ite (fun _ => ends_says (ih _ _)) (fun _ => ends_says (ih _ _))

theorem ends_readPse (junk : Nat → Nat) (supported : List Tlv) (apps : List App)
    (script : List W) : Ends (fun a : Int × List App => a.1 ≠ 14 ∧ a.1 ≠ -2)
      (readPse junk supported apps script) := by
  unfold readPse
  refine ends_says (ends_send fun w rest => ?_)
  repeat' refine ends_ite (fun _ => ends_says (ends_fin (by simp))) (fun _ => ?_)
  refine ends_says (ends_bind fun b hb => ?_)
  obtain ⟨r, pse⟩ := b
  refine ends_ite (fun _ => ends_says (ends_fin (by simp))) (fun _ => ?_)
  cases find pse 0x88 with
  | none => exact ends_says (ends_fin (by simp))
  | some t =>
    refine ends_ite (fun _ => ends_says (ends_fin (by simp))) (fun _ => ?_)
    exact ends_bind fun sfi _ => ends_pseLoop _ _ _ _ _ _ _

theorem ends_findApps : ∀ (script : List W) (aids : List Tlv) (first : Bool) (apps : List App),
    Ends (fun a : Int × List App => a.1 = 0 ∨ a.1 = -3 ∨ a.1 = -4)
      (findApps script aids first apps) := by
  intro script
  induction script with
  | nil =>
    intro aids first apps
    cases aids with
    | nil => rw [findApps]; exact ends_fin (by simp)
    | cons aid aids =>
      rw [findApps]
      exact ends_says (ends_ite (fun _ => ends_says (ends_fin (by simp))) (fun _ => ends_pending))
  | cons w rest ih =>
    intro aids first apps
    cases aids with
    | nil => rw [findApps]; exact ends_fin (by simp)
    | cons aid aids =>
      rw [findApps]
      refine ends_says (ends_ite (fun _ => ends_says (ends_fin (by simp))) (fun _ => ends_did ?_))
      refine ends_ite (fun _ => ends_says (ends_fin (by simp))) (fun hc => ?_)
      refine ends_ite (fun h1 => ends_says (ends_fin (by simp))) (fun _ => ?_)
      refine ends_ite (fun _ => ends_says (ih _ _ _)) (fun _ => ends_says ?_)
      refine ends_bind fun b hb => ?_
      cases b with
      | none => exact ih _ _ _
      | some app =>
        refine ends_ite (fun _ => ends_says (ih _ _ _)) (fun _ => ?_)
        exact ends_ite (fun _ => ends_says (ih _ _ _)) (fun _ => ends_says (ih _ _ _))

theorem ends_gpo (alloc : List Tlv → Tlv → Bool) (data : Option (List Byte)) (list : List Tlv)
    (script : List W) : Ends (fun g : Gpo => g.code ≤ 0 ∨ g.code = 13)
      (gpo alloc data list script) := by
  intro l a rest h
  rcases Int.lt_or_le 0 a.code with h0 | h0
  · exact Or.inr (gpo_code h h0)
  · exact Or.inl h0

theorem ends_gpo2 (alloc : List Tlv → Tlv → Bool) (data : Option (List Byte)) (list : List Tlv)
    (script : List W) (h : badGpo data = false) : Ends (fun g : Gpo => g.code ≠ -2)
      (gpo alloc data list script) := by
  unfold gpo
  rw [if_neg (by simp [h])]
  refine ends_says (ends_send fun w rest => ?_)
  refine ends_ite (fun _ => ends_says (ends_fin (by simp))) (fun _ => ?_)
  refine ends_ite (fun _ => ends_ite (fun _ => ends_says (ends_fin (by simp)))
    (fun _ => ends_says (ends_fin (by simp)))) (fun _ => ends_says ?_)
  refine ends_bind fun b hb => ?_
  obtain ⟨es, r⟩ := b
  cases r with
  | error c =>
    obtain ⟨e, _, _, hc⟩ := why_fields (cmd := .gpo data) hb
    refine ends_says (ends_fin ?_)
    intro h2
    simp only at h2
    subst h2
    cases hc
  | ok l =>
    refine ends_says ?_
    cases find l 0x82 with
    | none => exact ends_says (ends_fin (by simp))
    | some a =>
      cases find l 0x94 with
      | none => exact ends_says (ends_fin (by simp))
      | some f => exact ends_fin (by simp)

/-- Selecting an application: what the layer below reported decides the result. -/
theorem C134_select (ctx : Emv.Ctx) (apps : List App) (index : Nat) (script : List W)
    (a : App) (ha : apps[index]? = some a) (h5 : 5 ≤ a.aid.value.length)
    (h16 : a.aid.value.length ≤ 16) (l : List Entry) (r : Int) (x : List App × Emv.Ctx)
    (rest : List W) (h : select ctx apps index script = .ok (l, .done (r, x) rest))
    (hr : r ≠ 0) :
    ∃ c, Explained c l ∧
      r = (if c = -4 then 2 else if c < 0 then 1 else if apps.length = 1 then 3 else 4) := by
  unfold select at h
  simp only [ha] at h
  rw [if_neg (by omega)] at h
  obtain ⟨l1, b, r1, l2, hx, hf, rfl⟩ := andThen_inv h
  obtain ⟨h14, h2⟩ := ends_selectApp _ _ ⟨h5, h16⟩ _ _ _ hx
  have hlen : index < apps.length := by
    rcases List.getElem?_eq_some_iff.mp ha with ⟨h, _⟩; exact h
  have hemp : (apps.eraseIdx index).isEmpty = true ↔ apps.length = 1 := by
    rw [List.isEmpty_iff_length_eq_zero, List.length_eraseIdx_of_lt hlen]; omega
  have key : ∀ es : List Event, (∀ e ∈ es, e.source = 4) → b.1 ≠ 0 →
      Explained b.1 (l1 ++ es.map Entry.said) := fun es hes h0 =>
    explained (fun _ => why_selectApp _ _) hx h0 h14 h2 [] es hes
  by_cases hneg : b.1 < 0
  · rw [if_pos hneg] at hf
    by_cases h4 : b.1 = -4
    · simp only [h4, if_true] at hf
      cases hf
      exact ⟨b.1, key [_] (by simp [error]) (by omega), by simp [h4]⟩
    · simp only [h4, if_false] at hf
      cases hf
      exact ⟨b.1, key [_] (by simp [error]) (by omega), by simp [h4, hneg]⟩
  · rw [if_neg hneg] at hf
    by_cases hpos : b.1 > 0
    · rw [if_pos hpos] at hf
      unfold tryAgain at hf
      have h4 : b.1 ≠ -4 := by omega
      by_cases he : (apps.eraseIdx index).isEmpty = true
      · simp only [he, if_true] at hf
        cases hf
        exact ⟨b.1, key [_, _] (by simp [info]) (by omega), by simp [h4, hneg, hemp.mp he]⟩
      · rw [if_neg he] at hf
        cases hf
        exact ⟨b.1, key [_] (by simp [info]) (by omega), by simp [h4, hneg, mt hemp.mpr he]⟩
    · rw [if_neg hpos] at hf
      cases hf
      exact absurd rfl hr

example : ∃ l x, select Emv.Ctx.init [⟨⟨0x84, 0, [0xA0, 0, 0, 0, 3]⟩, [], 0, false, []⟩] 0
    [⟨0, [], 0x6985⟩] = .ok (l, .done (3, x) []) ∧ lastTal l =
      some (error 2 txt!"SW1SW2=0x6985\n") := by
  exact ⟨_, _, rfl, by decide +kernel⟩

/-- Building the candidate list: if it fails (results 1 and 2) the last report of the layer below
is the reason. -/
theorem C134_build (junk : Nat → Nat) (supported : List Tlv) (apps : List App) (script : List W)
    (l : List Entry) (r : Int) (x : List App) (rest : List W)
    (h : build junk supported apps script = .ok (l, .done (r, x) rest)) (hr : r ≠ 0) (h3 : r ≠ 3) :
    ∃ c, c < 0 ∧ Explained c l ∧ r = (if c = -4 then 2 else 1) := by
  unfold build at h
  obtain ⟨l0, h', rfl⟩ := says_inv h
  obtain ⟨l1, b, r1, l2, hx, hf, rfl⟩ := andThen_inv h'
  obtain ⟨h14, h2⟩ := ends_readPse _ _ _ _ _ _ _ hx
  have fin_no : ∀ apps rest' l r x rest, finish apps rest' = .ok (l, .done (r, x) rest) →
      r = 0 ∨ r = 3 := by
    intro apps rest' l r x rest h
    unfold finish at h
    split at h
    · obtain ⟨_, h, _⟩ := says_inv h; cases h; exact Or.inr rfl
    · cases h; exact Or.inl rfl
  by_cases hneg : b.1 < 0
  · rw [if_pos hneg] at hf
    have hexp := explained (fun _ => why_readPse _ _ _ _) hx (by omega) h14 h2
      [.said (info 4 txt!"SELECT Payment System Environment (PSE)")]
      [error 4 txt!"Failed to read PSE; terminate session"] (by simp [error])
    by_cases h4 : b.1 = -4
    · simp only [h4, if_true] at hf
      cases hf
      exact ⟨b.1, hneg, hexp, by simp [h4]⟩
    · simp only [h4, if_false] at hf
      cases hf
      exact ⟨b.1, hneg, hexp, by simp [h4]⟩
  · rw [if_neg hneg] at hf
    obtain ⟨l3, hf3, rfl⟩ := says_inv hf
    split at hf3
    · obtain ⟨l4, hf4, rfl⟩ := says_inv hf3
      obtain ⟨l5, b', r2, l6, hx', hf', rfl⟩ := andThen_inv hf4
      by_cases h0 : b'.1 = 0
      · rw [if_neg (by simpa using h0)] at hf'
        rcases fin_no _ _ _ _ _ _ hf' with h | h <;> omega
      · rw [if_pos h0] at hf'
        have hc := ends_findApps _ _ _ _ _ _ _ hx'
        have hexp := fun pre => explained (fun _ => why_findApps _ _ _ _ _) hx' h0 (by omega)
          (by omega) pre [error 4 txt!"Failed to find supported AIDs; terminate session"]
          (by simp [error])
        by_cases h4 : b'.1 = -4
        · simp only [h4, if_true] at hf'
          cases hf'
          refine ⟨b'.1, by omega, ?_, by simp [h4]⟩
          rw [← List.append_assoc, ← List.append_assoc, ← List.append_assoc]
          exact hexp _
        · simp only [h4, if_false] at hf'
          cases hf'
          refine ⟨b'.1, by omega, ?_, by simp [h4]⟩
          rw [← List.append_assoc, ← List.append_assoc, ← List.append_assoc]
          exact hexp _
    · rcases fin_no _ _ _ _ _ _ hf3 with h | h <;> omega

example : ∃ l x, build (fun _ => 0) [⟨0x84, 0, [0xA0, 0, 0, 0, 3]⟩] []
    [⟨0, [], 0x6A82⟩, ⟨0, [], 0x6A81⟩] = .ok (l, .done (2, x) []) ∧ lastTal l =
      some (error 2 txt!"Card blocked or SELECT not supported") := by
  exact ⟨_, _, rfl, by decide +kernel⟩

/-- Initiating an application: either the kernel refuses without asking the card, or what the
layer below reported decides the result. -/
theorem C134_initiate (alloc : List Tlv → Tlv → Bool) (buf : List Byte) (ctx : Emv.Ctx)
    (pos : Byte) (script : List W) (l : List Entry) (r : Int) (ctx' : Emv.Ctx) (rest : List W)
    (hbuf : buf.length = 255)
    (hlen : ∀ s v, ctx.selected = some s → field 0x9F38 s.app.tlvs = some v → v.length < 2 ^ 24)
    (h : initiate alloc buf ctx pos script = .ok (l, .done (r, ctx') rest)) (hr : r ≠ 0) :
    (∀ x ∈ l, ∃ e, x = .said e ∧ e.source = 4) ∨
    ∃ c, Explained c l ∧ r = (if c = 13 then 5 else if c = -1 then -1 else 1) := by
  unfold initiate at h
  have one : ∀ (es : List Event), (∀ e ∈ es, e.source = 4) →
      ∀ x ∈ es.map Entry.said ++ [], ∃ e, x = .said e ∧ e.source = 4 := by
    intro es hes x hx
    simp only [List.append_nil, List.mem_map] at hx
    obtain ⟨e, he, rfl⟩ := hx
    exact ⟨e, rfl, hes e he⟩
  cases hs : ctx.selected with
  | none =>
    rw [hs] at h
    cases h
    exact Or.inl (one [_] (by simp [error]))
  | some s0 =>
    rw [hs] at h
    simp only at h
    cases hs' : ctx.clearIcc.selected with
    | none => rw [hs'] at h; cases h
    | some s =>
      rw [hs'] at h
      simp only at h
      have hpdol : ∀ v, field 0x9F38 s.app.tlvs = some v → v.length < 2 ^ 24 := by
        have happ : s.app = s0.app := by
          simp only [Emv.Ctx.clearIcc, hs, Option.map_some, Option.some.injEq] at hs'
          rw [← hs']; split <;> rfl
        rw [happ]
        exact fun v => hlen s0 v hs
      split at h
      · cases h; exact Or.inl (one [_] (by simp [error]))
      split at h
      · cases h
      split at h
      · cases h; exact Or.inl (one [_] (by simp [error]))
      obtain ⟨b, hb, h⟩ := Ttl.bind_inv h
      obtain ⟨es, q⟩ := b
      have hes : ∀ e ∈ es, e.source = 4 := fun e he => ((gpoData_events hb).1 e he).1.1
      cases q with
      | error c => cases h; exact Or.inl (one es hes)
      | ok data =>
        obtain ⟨l0, h0, rfl⟩ := says_inv h
        obtain ⟨l1, g, r1, l2, hx, hf, rfl⟩ := andThen_inv h0
        have hbad : badGpo data = false := by
          have he := gpoData_eq buf
            [ctx.params, ctx.config, (Emv.pushAll alloc [] (Emv.terminalData pos s.app.aid.value)).2]
            s.app.tlvs
          have hb' : gpoData buf [ctx.params, ctx.config,
              (Emv.pushAll alloc [] (Emv.terminalData pos s.app.aid.value)).2] s.app.tlvs =
              .ok (es, .ok data) := hb
          rw [hb'] at he
          simp only [bind_ok] at he
          rcases Emv.C17_gpo_data buf hbuf [ctx.params, ctx.config,
              (Emv.pushAll alloc [] (Emv.terminalData pos s.app.aid.value)).2] (by simp)
              s.app.tlvs hpdol with
            ⟨_, h⟩ | ⟨_, _, h, _⟩ | ⟨_, _, _, _, _, h, _, h', _⟩
          · rw [h] at he; cases he; rfl
          · rw [h] at he; cases he
          · rw [h] at he; cases he; exact h'
        have hne : g.code ≠ -2 := ends_gpo2 _ _ _ _ hbad _ _ _ hx
        have hg := ends_gpo _ _ _ _ _ _ _ hx
        have hexp := fun h0 es' hes' => explained (fun _ => why_gpo _ _ _ _) hx h0
          (by omega) hne (es.map Entry.said) es' hes'
        by_cases hneg : g.code < 0
        · rw [if_pos hneg] at hf
          refine Or.inr ⟨g.code, ?_⟩
          by_cases h1 : g.code = -1
          · simp only [h1, true_or, if_true] at hf
            cases hf
            exact ⟨hexp (by omega) [_] (by simp [error]), by simp [h1]⟩
          · simp only [h1, hne, or_self, if_false] at hf
            cases hf
            exact ⟨hexp (by omega) [_] (by simp [error]), by
              rw [if_neg (by omega), if_neg h1]⟩
        · rw [if_neg hneg] at hf
          by_cases hpos : g.code > 0
          · have h13 : g.code = 13 := by omega
            refine Or.inr ⟨g.code, ?_⟩
            simp only [h13, if_true] at hf
            cases hf
            exact ⟨hexp (by omega) [_] (by simp [info]), by simp [h13]⟩
          · rw [if_neg hpos] at hf
            cases hf
            exact absurd rfl hr

example : ∃ l ctx', initiate allocOk (List.replicate 255 0) exCtx 5
    [⟨0, [0x80, 0x05, 0x18, 0x00, 0x08, 0x01, 0x01], 0x9000⟩] = .ok (l, .done (1, ctx') []) ∧
    lastTal l = some (error 2 txt!"Invalid GPO response format 1 length of 5") := by
  exact ⟨_, _, rfl, by decide +kernel⟩

/-- The results of reading records. -/
abbrev ReadCode (a : Int × List Tlv) : Prop := a.1 = 0 ∨ a.1 = 14 ∨ (a.1 < 0 ∧ a.1 ≠ -2)

theorem ends_sfiLoop (alloc : List Tlv → Tlv → Bool) (sfi last : Byte) :
    ∀ (script : List W) (rec : Byte) (oda : Bool) (list : List Tlv),
      Ends ReadCode (sfiLoop alloc sfi last script rec oda list) := by
  intro script
  induction script with
  | nil =>
    intro rec oda list
    rw [sfiLoop]
    refine ends_ite (fun _ => ends_fin (by cases oda <;> simp [ReadCode])) (fun _ => ends_says ?_)
    exact ends_ite (fun _ => ends_says (ends_fin (by simp [ReadCode]))) (fun _ => ends_pending)
  | cons w rest ih =>
    intro rec oda list
    rw [sfiLoop]
    refine ends_ite (fun _ => ends_fin (by cases oda <;> simp [ReadCode])) (fun _ => ends_says ?_)
    refine ends_ite (fun _ => ends_says (ends_fin (by simp [ReadCode]))) (fun _ => ends_did ?_)
    refine ends_ite (fun _ => ends_says (ends_fin (by simp [ReadCode]))) (fun _ => ?_)
    refine ends_ite (fun _ => ends_says (ends_fin (by simp [ReadCode]))) (fun _ => ?_)
    refine ends_bind fun b hb => ?_
    obtain ⟨es, r⟩ := b
    cases r with
    | stop code list => exact ends_says (ends_fin (Or.inr (Or.inr (record_code hb))))
    | spoilt => exact ends_says (ih _ _ _)
    | next list => exact ends_says (ih _ _ _)

theorem ends_andThen {α β : Type} {P : α → Prop} {Q : β → Prop} {x : C (Tr β)}
    {f : β → List W → C (Tr α)} (hx : Ends Q x) (hf : ∀ b rest, Q b → Ends P (f b rest)) :
    Ends P (andThen x f) := by
  intro l a rest h
  obtain ⟨l1, b, r1, l2, hx', hf', _⟩ := andThen_inv h
  exact hf b r1 (hx _ _ _ hx') _ _ _ hf'

theorem ends_aflLoop (alloc : List Tlv → Tlv → Bool) :
    ∀ (fuel : Nat) (itr : List Byte) (oda : Bool) (list : List Tlv) (script : List W),
      Ends ReadCode (aflLoop alloc fuel itr oda list script) := by
  intro fuel
  induction fuel with
  | zero => intros; exact ends_error
  | succ n ih =>
    intro itr oda list script
    rw [aflLoop]
    refine ends_bind fun b hb => ?_
    obtain ⟨itr', r⟩ := b
    cases r with
    | eod => exact ends_fin (by cases oda <;> simp [ReadCode])
    | err n => exact ends_says (ends_fin (by simp [ReadCode]))
    | ok k e =>
      refine ends_andThen (ends_sfiLoop _ _ _ _ _ _ _) fun a rest ha => ?_
      exact ends_ite (fun _ => ih _ _ _ _) (fun _ => ends_ite (fun _ => ih _ _ _ _)
        (fun _ => ends_fin ha))

theorem ends_readAfl (alloc : List Tlv → Tlv → Bool) (afl : List Byte) (list : List Tlv)
    (script : List W) (h : afl ≠ []) : Ends ReadCode (readAfl alloc afl list script) := by
  unfold readAfl
  rw [if_neg (by simpa using h)]
  refine ends_ite (fun _ => ends_says (ends_fin (by simp [ReadCode]))) (fun _ => ?_)
  exact ends_ite (fun _ => ends_says (ends_fin (by simp [ReadCode]))) (fun _ => ends_aflLoop _ _ _ _ _ _)

/-- Reading application data: if it fails, the kernel found no AFL or an empty one, or found the
data redundant or incomplete, or the last report of the layer below is the reason. -/
theorem C134_read (alloc : List Tlv → Tlv → Bool) (ctx : Emv.Ctx) (script : List W)
    (l : List Entry) (r : Int) (ctx' : Emv.Ctx) (rest : List W)
    (h : readData alloc ctx script = .ok (l, .done (r, ctx') rest)) (hr : r ≠ 0) :
    (field 0x94 ctx.icc = none ∨ field 0x94 ctx.icc = some []) ∨
    (∃ e, l.getLast? = some (.said e) ∧ r = 1 ∧
      (e = error 4 txt!"Application data contains redundant fields" ∨
        e = error 4 txt!"Mandatory field not found")) ∨
    ∃ c, c < 0 ∧ Explained c l ∧ r = (if c = -1 then -1 else 1) := by
  rw [← find_field]
  unfold readData at h
  cases hf : find ctx.icc 0x94 with
  | none => exact Or.inl (Or.inl rfl)
  | some afl =>
    rw [hf] at h
    by_cases hv : afl.value = []
    · exact Or.inl (Or.inr (by simp [hv]))
    refine Or.inr ?_
    simp only at h
    obtain ⟨l1, b, r1, l2, hx, hg, rfl⟩ := andThen_inv h
    have hcode := ends_readAfl _ _ _ _ hv _ _ _ hx
    by_cases hneg : b.1 < 0
    · rw [if_pos hneg] at hg
      have h2 : b.1 ≠ -2 := by rcases hcode with h | h | h <;> omega
      have hexp := explained (fun _ => why_readAfl _ _ _ _) hx (by omega) (by omega) h2 []
        [error 4 txt!"Error reading application data"] (by simp [error])
      refine Or.inr ⟨b.1, hneg, ?_⟩
      by_cases h1 : b.1 = -1
      · simp only [h1, true_or, if_true] at hg
        cases hg
        exact ⟨hexp, by simp [h1]⟩
      · simp only [h1, h2, or_self, if_false] at hg
        cases hg
        exact ⟨hexp, by simp [h1]⟩
    · rw [if_neg hneg] at hg
      rw [if_neg (by rcases hcode with h | h | h <;> omega)] at hg
      refine Or.inl ?_
      split at hg
      · obtain ⟨l3, hg3, rfl⟩ := says_inv hg
        cases hg3
        exact ⟨_, by simp, rfl, Or.inl rfl⟩
      · split at hg
        · obtain ⟨l3, hg3, rfl⟩ := says_inv hg
          cases hg3
          exact ⟨_, by simp, rfl, Or.inr rfl⟩
        · cases hg
          exact absurd rfl hr

example : ∃ l ctx', readData allocOk
    { Emv.Ctx.init with icc := [⟨0x94, 0, [0x08, 0x01, 0x01, 0x00]⟩] } [⟨0, [0x77, 0x00], 0x9000⟩] =
      .ok (l, .done (1, ctx') []) ∧
    lastTal l = some (error 2 txt!"Invalid record for SFI 1") := by
  exact ⟨_, _, rfl, by decide +kernel⟩

/-! ## The candidates -/

/-- What is said directly after the answer to a SELECT of an application the terminal supports. -/
def Verdict (next : Bool) (w : W) (e : Event) : Prop :=
  if w.code ≠ 0 then e = error 2 txt!"TTL failure"
  else if w.sw = 0x9000 ∨ w.sw = 0x6283 then e = infoTlv 2 txt!"FCI" w.data
  else if w.sw = 0x6A82 then e = info 2 txt!"Application not found"
  else if w.sw = 0x6A81 ∧ next = false then
    e = error 2 txt!"Card blocked or SELECT not supported"
  else ∃ t, e = error 2 (txt!"Unexpected SELECT status 0x" ++ t) ∧ Hex4 t (w.sw % 65536)

/-- Every answered SELECT is followed by its verdict. -/
def Judged : List Entry → Prop
  | [] => True
  | .said _ :: l => Judged l
  | .did cmd w :: l => (∀ next name, cmd = .select next name →
      ∃ e l', l = .said e :: l' ∧ Verdict next w e) ∧ Judged l

theorem judged_said (es : List Event) (l : List Entry) :
    Judged (es.map Entry.said ++ l) ↔ Judged l := by
  induction es with
  | nil => rfl
  | cons e es ih => exact ih

theorem judged_at : ∀ {pre : List Entry} {next : Bool} {name : List Byte} {w : W}
    {post : List Entry}, Judged (pre ++ .did (.select next name) w :: post) →
    ∃ e l', post = .said e :: l' ∧ Verdict next w e
  | [], _, _, _, _, h => h.1 _ _ rfl
  | .said _ :: pre, _, _, _, _, h => judged_at (pre := pre) h
  | .did _ _ :: pre, _, _, _, _, h => judged_at (pre := pre) h.2

theorem judged_findApps : ∀ (script : List W) (aids : List Tlv) (first : Bool) (apps : List App)
    (l : List Entry) (o : Out (Int × List App)),
    findApps script aids first apps = .ok (l, o) → Judged l := by
  have step : ∀ (next : Bool) (name : List Byte) (w : W) (e : Event) (x : C (Tr (Int × List App)))
      (l : List Entry) (o : Out (Int × List App)), Verdict next w e →
      (∀ l o, x = .ok (l, o) → Judged l) →
      did (.select next name) w (says [e] x) = .ok (l, o) → Judged l := by
    intro next name w e x l o hv hx h
    obtain ⟨l1, h1, rfl⟩ := did_inv h
    obtain ⟨l2, h2, rfl⟩ := says_inv h1
    refine ⟨fun next' name' hc => ?_, (judged_said [e] l2).mpr (hx _ _ h2)⟩
    cases hc
    exact ⟨e, l2, rfl, hv⟩
  have hfin : ∀ (a : Int × List App) (rest : List W) (l : List Entry) (o : Out (Int × List App)),
      fin a rest = .ok (l, o) → Judged l := by
    intro a rest l o h; cases h; trivial
  have hsay : ∀ (es : List Event) (x : C (Tr (Int × List App))) (l : List Entry)
      (o : Out (Int × List App)), (∀ l o, x = .ok (l, o) → Judged l) →
      says es x = .ok (l, o) → Judged l := by
    intro es x l o hx h
    obtain ⟨l', h', rfl⟩ := says_inv h
    exact (judged_said es l').mpr (hx _ _ h')
  intro script
  induction script with
  | nil =>
    intro aids first apps l o h
    cases aids with
    | nil => rw [findApps] at h; exact hfin _ _ _ _ h
    | cons aid aids =>
      rw [findApps] at h
      refine hsay _ _ _ _ (fun l o h => ?_) h
      split at h
      · exact hsay _ _ _ _ (hfin _ _) h
      · cases h; trivial
  | cons w rest ih =>
    intro aids first apps l o h
    cases aids with
    | nil => rw [findApps] at h; exact hfin _ _ _ _ h
    | cons aid aids =>
      rw [findApps] at h
      refine hsay _ _ _ _ (fun l o h => ?_) h
      split at h
      · exact hsay _ _ _ _ (hfin _ _) h
      by_cases hc : w.code ≠ 0
      · rw [if_pos hc] at h
        exact step _ _ _ _ _ _ _ (by unfold Verdict; rw [if_pos hc]; rfl) (hfin _ _) h
      rw [if_neg hc] at h
      by_cases h1 : first = true ∧ w.sw = 0x6A81
      · rw [if_pos h1] at h
        refine step _ _ _ _ _ _ _ ?_ (hfin _ _) h
        unfold Verdict
        rw [if_neg hc, if_neg (by omega), if_neg (by omega), if_pos ⟨h1.2, by simp [h1.1]⟩]
      rw [if_neg h1] at h
      by_cases h2 : w.sw ≠ 0x9000 ∧ w.sw ≠ 0x6283
      · rw [if_pos h2] at h
        refine step _ _ _ _ _ _ _ ?_ (ih _ _ _) h
        unfold Verdict
        rw [if_neg hc, if_neg (by omega)]
        by_cases h3 : w.sw = 0x6A82
        · rw [if_pos h3, if_pos h3]
        · rw [if_neg h3, if_neg h3, if_neg (by rintro ⟨ha, hb⟩; exact h1 ⟨by simpa using hb, ha⟩)]
          exact ⟨_, rfl, hex04_spec _⟩
      rw [if_neg h2] at h
      refine step _ _ _ _ _ _ _ ?_ (fun l o h => ?_) h
      · unfold Verdict
        rw [if_neg hc, if_pos (by omega)]
      obtain ⟨b, _, h⟩ := Ttl.bind_inv h
      cases b with
      | none => exact ih _ _ _ _ _ h
      | some app =>
        simp only at h
        split at h
        · exact hsay _ _ _ _ (ih _ _ _) h
        split at h
        · exact hsay _ _ _ _ (ih _ _ _) h
        · exact hsay _ _ _ _ (ih _ _ _) h

/-- Looking for the applications the terminal supports: directly after every answer the verdict
on it is reported. -/
theorem C134_verdict (script : List W) (aids : List Tlv) (apps : List App) (l : List Entry)
    (o : Out (Int × List App)) (h : findApps script aids true apps = .ok (l, o))
    (pre post : List Entry) (next : Bool) (name : List Byte) (w : W)
    (hl : l = pre ++ .did (.select next name) w :: post) :
    ∃ e post', post = .said e :: post' ∧ Verdict next w e :=
  judged_at (hl ▸ judged_findApps _ _ _ _ _ _ h)

example : findApps [⟨0, [], 0x6999⟩] [⟨0x84, 0, [0xA0, 0, 0, 0, 3]⟩] true [] =
    .ok ([.said (infoData 2 txt!"SELECT application" [0xA0, 0, 0, 0, 3]),
      .did (.select false [0xA0, 0, 0, 0, 3]) ⟨0, [], 0x6999⟩,
      .said (error 2 txt!"Unexpected SELECT status 0x6999")], .done (0, []) []) := by
  rfl

/-- The event reports an application to be supported. -/
def supports : Entry → Bool
  | .said e => e.level = 2 && (e.text = txt!"Application is supported" ||
      e.text = txt!"Application is supported: exact match" ||
      e.text = txt!"Application is supported: partial match")
  | .did _ _ => false

/-- A run that does not fail has added to `n` applications as many as were reported. -/
def Counted (n : Nat) (x : C (Tr (Int × List App))) : Prop :=
  ∀ l a rest, x = .ok (l, .done a rest) → 0 ≤ a.1 → a.2.length = n + l.countP supports

theorem counted_fin {n : Nat} {a : Int × List App} {rest : List W}
    (h : 0 ≤ a.1 → a.2.length = n) : Counted n (fin a rest) := by
  intro l b r e h0
  cases e
  simpa using h h0

theorem counted_says {n : Nat} {es : List Event} {x : C (Tr (Int × List App))}
    (h : Counted (n + (es.map Entry.said).countP supports) x) : Counted n (says es x) := by
  intro l a rest e h0
  obtain ⟨l', e', rfl⟩ := says_inv e
  rw [h _ _ _ e' h0, List.countP_append]
  omega

theorem counted_say0 {n : Nat} {e : Event} {x : C (Tr (Int × List App))}
    (he : supports (.said e) = false) (h : Counted n x) : Counted n (says [e] x) := by
  refine counted_says ?_
  simpa [he] using h

theorem counted_did {n : Nat} {cmd : Cmd} {w : W} {x : C (Tr (Int × List App))}
    (h : Counted n x) : Counted n (did cmd w x) := by
  intro l a rest e h0
  obtain ⟨l', e', rfl⟩ := did_inv e
  rw [h _ _ _ e' h0]
  rfl

theorem counted_ite {n : Nat} {c : Prop} [Decidable c] {x y : C (Tr (Int × List App))}
    (hx : c → Counted n x) (hy : ¬ c → Counted n y) : Counted n (if c then x else y) := by
  split
  · exact hx ‹_›
  · exact hy ‹_›

theorem counted_bind {n : Nat} {β : Type} {x : C β} {f : β → C (Tr (Int × List App))}
    (h : ∀ b, x = .ok b → Counted n (f b)) : Counted n (x >>= f) := by
  intro l a rest e
  cases x with
  | error u => cases e
  | ok b => exact h b rfl l a rest e

theorem counted_pending {n : Nat} {cmd : Cmd} :
    Counted n (.ok ([], .pending cmd) : C (Tr (Int × List App))) := by
  intro l a rest e; cases e

theorem selectEv_no (first : Bool) (aid : List Byte) :
    supports (.said (selectEv first aid)) = false := by
  cases first
  · exact (by decide : supports (.said (info 2 txt!"SELECT next application")) = false)
  · exact (by decide : supports (.said (info 2 txt!"SELECT application")) = false)

theorem fci_no (d : List Byte) : supports (.said (infoTlv 2 txt!"FCI" d)) = false :=
  (by decide : supports (.said (info 2 txt!"FCI")) = false)

theorem more {apps : List App} {app : App} {e : Event} {x : C (Tr (Int × List App))}
    (he : supports (.said e) = true) (h : Counted (apps ++ [app]).length x) :
    Counted (apps.length + ([e].map Entry.said).countP supports) x := by
  simpa [he] using h

theorem counted_findApps : ∀ (script : List W) (aids : List Tlv) (first : Bool)
    (apps : List App), Counted apps.length (findApps script aids first apps) := by
  intro script
  induction script with
  | nil =>
    intro aids first apps
    cases aids with
    | nil => rw [findApps]; exact counted_fin fun _ => rfl
    | cons aid aids =>
      rw [findApps]
      refine counted_say0 (selectEv_no _ _) ?_
      exact counted_ite (fun _ => counted_say0 (by decide) (counted_fin (by simp)))
        (fun _ => counted_pending)
  | cons w rest ih =>
    intro aids first apps
    cases aids with
    | nil => rw [findApps]; exact counted_fin fun _ => rfl
    | cons aid aids =>
      rw [findApps]
      refine counted_say0 (selectEv_no _ _) ?_
      refine counted_ite (fun _ => counted_say0 (by decide) (counted_fin (by simp)))
        (fun _ => counted_did ?_)
      refine counted_ite (fun _ => counted_say0 (by decide) (counted_fin (by simp))) (fun _ => ?_)
      refine counted_ite (fun _ => counted_say0 (by decide) (counted_fin (by simp))) (fun _ => ?_)
      refine counted_ite (fun _ => counted_say0 ?_ (ih _ _ _)) (fun hs => ?_)
      · split
        · decide
        · simp [supports, error]
      refine counted_say0 (fci_no _) ?_
      refine counted_bind fun b hb => ?_
      cases b with
      | none => exact ih _ _ _
      | some app =>
        simp only
        by_cases h9 : w.sw = 0x9000
        · simp only [h9, if_true]
          refine counted_ite (fun _ => ?_) (fun _ => counted_ite (fun _ => ?_)
            (fun _ => counted_say0 (by decide) (ih _ _ _)))
          · exact counted_says (more (by decide) (ih _ _ (apps ++ [app])))
          · exact counted_says (more (by decide) (ih _ _ (apps ++ [app])))
        · simp only [h9, if_false]
          refine counted_ite (fun _ => ?_) (fun _ => counted_ite (fun _ => ?_)
            (fun _ => counted_say0 (by decide) (ih _ _ _)))
          · exact counted_say0 (by decide) (ih _ _ _)
          · exact counted_say0 (by decide) (ih _ _ _)

theorem count_aefLoop (pse supported : List Tlv) :
    ∀ (fuel : Nat) (itr : List Byte) (apps : List App) (es : List Event) (r : List App),
      aefLoop pse supported fuel itr apps = .ok (es, r) →
      r.length = apps.length + (es.map Entry.said).countP supports := by
  intro fuel
  induction fuel with
  | zero => intro _ _ _ _ h; cases h
  | succ n ih =>
    intro itr apps es r h
    rw [aefLoop] at h
    obtain ⟨⟨itr', d⟩, _, h⟩ := Ttl.bind_inv h
    have rec_ok : ∀ (ev : Event) (apps' : List App),
        (do let (es, apps) ← aefLoop pse supported n itr' apps'
            .ok (ev :: es, apps) : C (List Event × List App)) = .ok (es, r) →
        r.length = apps'.length + ((es.map Entry.said).countP supports -
          (if supports (.said ev) then 1 else 0)) ∧
        (if supports (.said ev) then 1 else 0) ≤ (es.map Entry.said).countP supports := by
      intro ev apps' h
      obtain ⟨⟨es', r'⟩, hr, h⟩ := Ttl.bind_inv h
      cases h
      have := ih _ _ _ _ hr
      simp only [List.map_cons, List.countP_cons]
      constructor <;> omega
    cases d with
    | eod => cases h; simp
    | err n => cases h; simp
    | ok k t =>
      simp only at h
      split at h
      · have := rec_ok _ _ h
        rw [show supports (.said (error 2 _)) = false from rfl] at this
        simpa using this
      · obtain ⟨a, _, h⟩ := Ttl.bind_inv h
        cases a with
        | none =>
          have := rec_ok _ _ h
          rw [show supports (.said (error 2 _)) = false from rfl] at this
          simpa using this
        | some app =>
          obtain ⟨b, _, h⟩ := Ttl.bind_inv h
          cases b with
          | true =>
            have := rec_ok _ _ h
            rw [show supports (.said (info 2 txt!"Application is supported")) = true by decide] at this
            simp only [if_true, List.length_append, List.length_singleton] at this
            omega
          | false =>
            have := rec_ok _ _ h
            rw [show supports (.said (info 2 txt!"Application is not supported")) = false by decide]
              at this
            simpa using this

theorem count_aefRecord {junk : Nat} {pse supported : List Tlv} {data : List Byte}
    {apps : List App} {es : List Event} {r : Int} {apps' : List App}
    (h : aefRecord junk pse supported data apps = .ok (es, r, apps')) :
    apps'.length = apps.length + (es.map Entry.said).countP supports := by
  unfold aefRecord at h
  obtain ⟨d, _, h⟩ := Ttl.bind_inv h
  cases d with
  | eod => cases h; rfl
  | err n => cases h; rfl
  | ok n t =>
    simp only at h
    split at h
    · cases h; rfl
    · obtain ⟨⟨es', r'⟩, hl, h⟩ := Ttl.bind_inv h
      cases h
      exact count_aefLoop _ _ _ _ _ _ _ hl

theorem counted_pseLoop (junk : Nat → Nat) (pse supported : List Tlv) (sfi : Byte) :
    ∀ (script : List W) (rec : Byte) (apps : List App),
      Counted apps.length (pseLoop junk pse supported sfi script rec apps) := by
  intro script
  induction script with
  | nil =>
    intro rec apps
    rw [pseLoop]
    exact counted_ite (fun _ => counted_say0 (by decide) (counted_fin (by simp)))
      (fun _ => counted_pending)
  | cons w rest ih =>
    intro rec apps
    rw [pseLoop]
    refine counted_ite (fun _ => counted_say0 (by decide) (counted_fin (by simp)))
      (fun _ => counted_did ?_)
    refine counted_ite (fun _ => counted_say0 (by decide) (counted_fin (by simp))) (fun hc => ?_)
    refine counted_ite (fun _ => counted_say0 (by decide) (counted_fin fun _ => rfl)) (fun _ => ?_)
    refine counted_ite (fun _ => counted_say0 (by decide) (ih _ _)) (fun hw => ?_)
    refine counted_say0 (by exact (by decide : supports (.said (info 2 txt!"AEF")) = false)) ?_
    refine counted_bind fun b hb => ?_
    obtain ⟨es, r, apps'⟩ := b
    have hr := aefRecord_code hb
    have hn := count_aefRecord hb
    refine counted_ite (fun h => absurd h (by omega)) (fun _ => ?_)
    refine counted_ite (fun _ => counted_says ?_) (fun _ => counted_says ?_)
    · have h0 : supports (.said (error 2 txt!"Invalid PSE AEF record")) = false := by decide
      rw [List.map_append, List.countP_append, ← Nat.add_assoc, ← hn]
      simpa [h0] using ih (rec + 1) apps'
    · rw [← hn]; exact ih _ _

theorem counted_readPse (junk : Nat → Nat) (supported : List Tlv) (script : List W) :
    Counted 0 (readPse junk supported [] script) := by
  unfold readPse
  refine counted_say0 (by decide +kernel) ?_
  unfold send
  refine counted_ite (fun _ => ?_) (fun _ => ?_)
  · show Counted 0 (if (-3 : Int) ≠ 0 then _ else _)
    rw [if_pos (by decide)]
    exact counted_say0 (by decide) (counted_fin (by simp))
  cases script with
  | nil => exact counted_pending
  | cons w rest =>
    refine counted_did ?_
    simp only
    repeat' refine counted_ite (fun _ => counted_say0 (by decide) (counted_fin (by simp))) (fun _ => ?_)
    refine counted_say0 (fci_no _) (counted_bind fun b hb => ?_)
    obtain ⟨r, pse⟩ := b
    refine counted_ite (fun _ => counted_say0 (by decide) (counted_fin (by simp))) (fun _ => ?_)
    cases find pse 0x88 with
    | none => exact counted_say0 (by decide) (counted_fin (by simp))
    | some t =>
      refine counted_ite (fun _ => counted_say0 (by decide) (counted_fin (by simp))) (fun _ => ?_)
      exact counted_bind fun sfi _ => counted_pseLoop _ _ _ _ _ _ []

/-- The candidate list has as many applications as were reported to be supported. -/
theorem C134_candidates (junk : Nat → Nat) (supported : List Tlv) (script : List W)
    (l : List Entry) (r : Int) (x : List App) (rest : List W)
    (h : build junk supported [] script = .ok (l, .done (r, x) rest)) (hr : r = 0 ∨ r = 3) :
    x.length = l.countP supports := by
  unfold build at h
  obtain ⟨l0, h', rfl⟩ := says_inv h
  obtain ⟨l1, b, r1, l2, hx, hf, rfl⟩ := andThen_inv h'
  have hfin : ∀ apps rest' l r x rest, finish apps rest' = .ok (l, .done (r, x) rest) →
      x.length = apps.length ∧ l.countP supports = 0 := by
    intro apps rest' l r x rest h
    unfold finish at h
    split at h
    · obtain ⟨_, h', rfl⟩ := says_inv h; cases h'; exact ⟨rfl, by decide⟩
    · cases h; exact ⟨(LL.bySort_perm _ _).length_eq, rfl⟩
  have hp : ([info 4 txt!"SELECT Payment System Environment (PSE)"].map Entry.said).countP
      supports = 0 := by decide
  rw [List.countP_append, List.countP_append, hp]
  by_cases hneg : b.1 < 0
  · rw [if_pos hneg] at hf
    obtain ⟨_, hf, _⟩ := says_inv hf
    by_cases h4 : b.1 = -4
    · rw [if_pos h4] at hf; cases hf; omega
    · rw [if_neg h4] at hf; cases hf; omega
  · rw [if_neg hneg] at hf
    have hc := counted_readPse _ _ _ _ _ _ hx (by omega)
    obtain ⟨l3, hf3, rfl⟩ := says_inv hf
    have hq : ((if b.1 > 0 then [info 4 txt!"Failed to process PSE; continue session"]
        else []).map Entry.said).countP supports = 0 := by split <;> decide
    rw [List.countP_append, hq]
    split at hf3
    · rename_i he
      have hb0 : b.2.length = 0 := by simpa using he
      obtain ⟨l4, hf4, rfl⟩ := says_inv hf3
      obtain ⟨l5, b', r2, l6, hx', hf', rfl⟩ := andThen_inv hf4
      have hd : ([info 4 txt!"Discover list of AIDs"].map Entry.said).countP supports = 0 := by
        decide
      rw [List.countP_append, List.countP_append, hd]
      have he' := ends_findApps _ _ _ _ _ _ _ hx'
      by_cases h0 : b'.1 = 0
      · rw [if_neg (by simpa using h0)] at hf'
        have h1 := counted_findApps _ _ _ _ _ _ _ hx' (by omega)
        have h2 := hfin _ _ _ _ _ _ hf'
        omega
      · rw [if_pos h0] at hf'
        obtain ⟨_, hf', _⟩ := says_inv hf'
        by_cases h4 : b'.1 = -4
        · rw [if_pos h4] at hf'; cases hf'; omega
        · rw [if_neg h4] at hf'; cases hf'; omega
    · have h2 := hfin _ _ _ _ _ _ hf3
      omega

example : ∃ l x, build (fun _ => 0) [⟨0x84, 0, [0xA0, 0, 0, 0, 3]⟩] []
    [⟨0, [], 0x6A82⟩, ⟨0, appFci, 0x9000⟩] = .ok (l, .done (0, [x]) []) ∧
    Entry.said (info 2 txt!"Application is supported: exact match") ∈ l :=
  ⟨_, _, rfl, by decide +kernel⟩

end Verif.Trace
