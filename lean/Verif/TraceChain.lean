import Verif.TraceErase

/-! # Lemmas on what precedes the commands and the data in a run with events -/

set_option autoImplicit false

namespace Verif.Trace
open Verif Ber TlvParse App Fields Tal

/-- The event names the command: SELECT with the name of the file, READ RECORD with the numbers,
GET PROCESSING OPTIONS with the data. -/
def Announces (e : Event) : Cmd → Prop
  | .select next name =>
    (e.level = 2 ∧ e.data = name ∧
      e.text = (if next then txt!"SELECT next application" else txt!"SELECT application")) ∨
    (e.level = 2 ∧ next = false ∧ e.text = txt!"SELECT " ++ name)
  | .readRecord sfi rec =>
    e.level = 2 ∧ e.text = txt!"READ RECORD from SFI " ++ Lists.decU sfi.toNat ++ txt!", record " ++
      Lists.decU rec.toNat
  | .gpo data => e.level = 2 ∧ e.text = txt!"GET PROCESSING OPTIONS" ∧ e.data = data.getD []

/-- An entry may follow `prev`: a command follows its announcement (`dir` allows records to be
read without), data shown are those of the answer just received; events satisfy `S`. -/
def Fits (S : Event → Prop) (dir : Bool) (prev : Option Entry) : Entry → Prop
  | .did cmd _ =>
    (dir = true ∧ ∃ sfi rec, cmd = .readRecord sfi rec) ∨
      ∃ e, prev = some (.said e) ∧ Announces e cmd
  | .said e => S e ∧ (e.kind = 3 → ∃ cmd w, prev = some (.did cmd w) ∧ e.data = w.data ∧
      w.code = 0 ∧ (w.sw = 0x9000 ∨ w.sw = 0x6283))

/-- Every entry fits the one before it. -/
def Chain (S : Event → Prop) (dir : Bool) : Option Entry → List Entry → Prop
  | _, [] => True
  | p, x :: l => Fits S dir p x ∧ Chain S dir (some x) l

/-- The command waiting for its answer. -/
def waiting {α : Type} : Out α → List Entry
  | .done _ _ => []
  | .pending cmd => [.did cmd ⟨0, [], 0⟩]

/-- `Chain` for all the entries of a run and the command waiting. -/
def Good {α : Type} (S : Event → Prop) (dir : Bool) (p : Option Entry) (x : C (Tr α)) : Prop :=
  ∀ l o, x = .ok (l, o) → Chain S dir p (l ++ waiting o)

variable {S : Event → Prop} {dir : Bool} {p : Option Entry}

theorem chain_none {l : List Entry} (h : Chain S dir none l) : Chain S dir p l := by
  cases l with
  | nil => trivial
  | cons x l =>
    refine ⟨?_, h.2⟩
    cases x with
    | said e =>
      refine ⟨h.1.1, fun hk => ?_⟩
      obtain ⟨_, _, h, _⟩ := h.1.2 hk
      cases h
    | did cmd w =>
      cases h.1 with
      | inl h => exact Or.inl h
      | inr h => obtain ⟨_, h, _⟩ := h; cases h

theorem chain_append : ∀ {l l' : List Entry} {p : Option Entry}, Chain S dir p l →
    Chain S dir none l' → Chain S dir p (l ++ l')
  | [], _, _, _, h => chain_none h
  | _ :: _, _, _, h, h' => ⟨h.1, chain_append h.2 h'⟩

theorem chain_left : ∀ {l l' : List Entry} {p : Option Entry}, Chain S dir p (l ++ l') →
    Chain S dir p l
  | [], _, _, _ => trivial
  | _ :: _, _, _, h => ⟨h.1, chain_left h.2⟩

theorem chain_mono {S' : Event → Prop} (hS : ∀ e, S e → S' e) :
    ∀ {l : List Entry} {p : Option Entry}, Chain S dir p l → Chain S' dir p l
  | [], _, _ => trivial
  | x :: _, _, h => by
    refine ⟨?_, chain_mono hS h.2⟩
    cases x with
    | said e => exact ⟨hS _ h.1.1, h.1.2⟩
    | did cmd w => exact h.1

theorem chain_said : ∀ (es : List Event) {l : List Entry} {p : Option Entry},
    (∀ e ∈ es, S e ∧ e.kind ≠ 3) → Chain S dir none l →
    Chain S dir p (es.map Entry.said ++ l)
  | [], _, _, _, h => chain_none h
  | e :: es, _, _, hs, h =>
    ⟨⟨(hs e (by simp)).1, fun hk => absurd hk (hs e (by simp)).2⟩,
      chain_said es (fun e' he => hs e' (by simp [he])) h⟩

theorem chain_mem : ∀ {l : List Entry} {p : Option Entry}, Chain S dir p l →
    ∀ e, Entry.said e ∈ l → S e
  | [], _, _, e, h => by cases h
  | x :: l, _, h, e, hm => by
    cases hm with
    | head => exact h.1.1
    | tail _ hm => exact chain_mem h.2 e hm

/-- What a chain says of an entry inside. -/
theorem chain_split : ∀ {pre : List Entry} {x : Entry} {post : List Entry} {p : Option Entry},
    Chain S dir p (pre ++ x :: post) → Fits S dir (pre.getLast?.or p) x
  | [], _, _, _, h => by simpa using h.1
  | a :: pre, x, post, p, h => by
    have := chain_split (pre := pre) h.2
    cases pre with
    | nil => simpa using this
    | cons b pre =>
      rw [List.getLast?_cons_cons]
      cases hl : (b :: pre).getLast? with
      | none => simp at hl
      | some y => rw [hl] at this; exact this

theorem good_none {α : Type} {x : C (Tr α)} (h : Good S dir none x) : Good S dir p x :=
  fun l o e => chain_none (h l o e)

theorem good_mono {α : Type} {S' : Event → Prop} (hS : ∀ e, S e → S' e) {x : C (Tr α)}
    (h : Good S dir p x) : Good S' dir p x := fun l o e => chain_mono hS (h l o e)

theorem good_fin {α : Type} (a : α) (rest : List W) : Good S dir p (fin a rest) := by
  intro l o h; cases h; trivial

theorem good_error {α : Type} (e : UB) : Good S dir p (.error e : C (Tr α)) := by
  intro l o h; cases h

theorem good_says {α : Type} (es : List Event) {x : C (Tr α)} (hs : ∀ e ∈ es, S e ∧ e.kind ≠ 3)
    (h : Good S dir none x) : Good S dir p (says es x) := by
  intro l o e
  cases x with
  | error u => cases e
  | ok q =>
    cases e
    rw [List.append_assoc]
    exact chain_said es hs (h _ _ rfl)

theorem good_say1 {α : Type} (e : Event) {x : C (Tr α)} (hs : S e) (hk : e.kind ≠ 3)
    (h : Good S dir (some (.said e)) x) : Good S dir p (says [e] x) := by
  intro l o e
  cases x with
  | error u => cases e
  | ok q =>
    cases e
    exact ⟨⟨hs, fun h => absurd h hk⟩, h _ _ rfl⟩

theorem good_show {α : Type} (s : Nat) (t : List Byte) (cmd : Cmd) (w : W) {x : C (Tr α)}
    (hs : S (infoTlv s t w.data)) (hc : w.code = 0) (hw : w.sw = 0x9000 ∨ w.sw = 0x6283)
    (h : Good S dir none x) :
    Good S dir (some (.did cmd w)) (says [infoTlv s t w.data] x) := by
  intro l o e
  cases x with
  | error u => cases e
  | ok q =>
    cases e
    exact ⟨⟨hs, fun _ => ⟨cmd, w, rfl, rfl, hc, hw⟩⟩, chain_none (h _ _ rfl)⟩

theorem good_did {α : Type} (cmd : Cmd) (w : W) {x : C (Tr α)}
    (hp : (dir = true ∧ ∃ sfi rec, cmd = .readRecord sfi rec) ∨
      ∃ e, p = some (.said e) ∧ Announces e cmd)
    (h : Good S dir (some (.did cmd w)) x) : Good S dir p (did cmd w x) := by
  intro l o e
  cases x with
  | error u => cases e
  | ok q =>
    cases e
    exact ⟨hp, h _ _ rfl⟩

theorem good_pending {α : Type} (cmd : Cmd)
    (hp : (dir = true ∧ ∃ sfi rec, cmd = .readRecord sfi rec) ∨
      ∃ e, p = some (.said e) ∧ Announces e cmd) :
    Good S dir p (.ok ([], .pending cmd) : C (Tr α)) := by
  intro l o e
  cases e
  exact ⟨hp, trivial⟩

theorem good_andThen {α β : Type} {x : C (Tr α)} {f : α → List W → C (Tr β)}
    (h : Good S dir p x) (hf : ∀ a rest, Good S dir none (f a rest)) :
    Good S dir p (andThen x f) := by
  intro l o e
  cases x with
  | error u => cases e
  | ok q =>
    obtain ⟨l1, o1⟩ := q
    cases o1 with
    | pending cmd => cases e; exact h _ _ rfl
    | done a rest =>
      simp only [andThen, bind_ok] at e
      cases hq : f a rest with
      | error u => rw [hq] at e; cases e
      | ok q =>
        rw [hq] at e
        cases e
        rw [List.append_assoc]
        have := h _ _ rfl
        simp only [waiting, List.append_nil] at this
        exact chain_append this (hf a rest _ _ hq)

theorem good_bind {α β : Type} {x : C β} {f : β → C (Tr α)}
    (h : ∀ b, x = .ok b → Good S dir p (f b)) : Good S dir p (x >>= f) := by
  intro l o e
  cases x with
  | error u => cases e
  | ok b => exact h b rfl l o e

theorem good_ite {α : Type} {c : Prop} [Decidable c] {x y : C (Tr α)}
    (hx : c → Good S dir p x) (hy : ¬ c → Good S dir p y) :
    Good S dir p (if c then x else y) := by
  split
  · exact hx ‹_›
  · exact hy ‹_›

theorem good_send {α : Type} (refused : Bool) (cmd : Cmd) (script : List W)
    (k : W → List W → C (Tr α))
    (hp : ∃ e, p = some (.said e) ∧ Announces e cmd)
    (h0 : Good S dir none (k ⟨-3, [], 0⟩ script))
    (h : ∀ w rest, Good S dir (some (.did cmd w)) (k w rest)) :
    Good S dir p (send refused cmd script k) := by
  unfold send
  refine good_ite (fun _ => good_none h0) (fun _ => ?_)
  cases script with
  | nil => exact good_pending _ (Or.inr hp)
  | cons w rest => exact good_did _ _ (Or.inr hp) (h w rest)

/-- The text has no NUL and at most `n` bytes. -/
def Clear (n : Nat) (t : List Byte) : Prop := t.all (· != 0) = true ∧ t.length ≤ n

/-- The type is message, data or field, and fields are for the level INFO. -/
def plainKind (kind level : Nat) : Bool :=
  Nat.ble 1 kind && Nat.ble kind 3 && (!Nat.beq kind 3 || Nat.beq level 2)

/-- A message, data or a field, with a text that has no NUL and fits into 1024 bytes. -/
def Plain (e : Event) : Prop := plainKind e.kind e.level = true ∧ e.text.all (· != 0) = true ∧
  Nat.ble e.text.length 1023 = true

theorem plain_kind {kind level : Nat} (h : plainKind kind level = true) :
    kind = 1 ∨ kind = 2 ∨ (kind = 3 ∧ level = 2) := by
  unfold plainKind at h
  simp only [Bool.and_eq_true, Nat.ble_eq, Bool.or_eq_true, Bool.not_eq_true', Nat.beq_eq] at h
  obtain ⟨⟨h1, h2⟩, h3⟩ := h
  rcases h3 with h3 | h3
  · have : kind ≠ 3 := Nat.ne_of_beq_eq_false h3
    omega
  · omega

theorem clear_append {a b : Nat} {t u : List Byte} (ht : Clear a t) (hu : Clear b u) :
    Clear (a + b) (t ++ u) := by
  refine ⟨?_, ?_⟩
  · rw [List.all_append, ht.1, hu.1]; rfl
  · have h1 := ht.2
    have h2 := hu.2
    rw [List.length_append]; omega

theorem clear_uLoop : ∀ (k n : Nat) (acc : List Byte) (a : Nat), Clear a acc →
    Clear (a + k) (Lists.uLoop k n acc)
  | 0, _, _, _, h => h
  | k + 1, n, acc, a, h => by
    have hd : ∀ m, m < 10 → ((UInt8.ofNat (0x30 + m) : Byte) != 0) = true := by decide
    have h' : Clear (a + 1) ((UInt8.ofNat (0x30 + n % 10) : Byte) :: acc) := by
      refine ⟨?_, ?_⟩
      · rw [List.all_cons, h.1, hd _ (by omega)]; rfl
      · have := h.2
        simp; omega
    rw [Lists.uLoop]
    split
    · exact ⟨h'.1, by have := h'.2; omega⟩
    · have := clear_uLoop k (n / 10) _ _ h'
      exact ⟨this.1, by have := this.2; omega⟩

theorem clear_decU (n : Nat) : Clear 10 (Lists.decU n) :=
  clear_uLoop 10 n [] 0 ⟨rfl, Nat.le_refl _⟩

theorem digit_ne : ∀ m, m < 16 → (Bits.hexDigit m != 0) = true := by decide

theorem clear_xLoop : ∀ (k n : Nat) (acc : List Byte) (a : Nat), Clear a acc →
    Clear (a + k) (Print.xLoop k n acc)
  | 0, _, _, _, h => h
  | k + 1, n, acc, a, h => by
    have h' : Clear (a + 1) (Bits.hexDigit (n % 16) :: acc) := by
      refine ⟨?_, ?_⟩
      · rw [List.all_cons, h.1, digit_ne _ (by omega)]; rfl
      · have := h.2
        simp; omega
    rw [Print.xLoop]
    split
    · exact ⟨h'.1, by have := h'.2; omega⟩
    · have := clear_xLoop k (n / 16) _ _ h'
      exact ⟨this.1, by have := this.2; omega⟩

theorem clear_hexU (n : Nat) : Clear 8 (Print.hexU n) := by
  have h := clear_xLoop 8 n [] 0 ⟨rfl, Nat.le_refl _⟩
  unfold Print.hexU
  simp only
  split
  · refine ⟨?_, ?_⟩
    · rw [List.all_cons, h.1]; rfl
    · simp; omega
  · exact h

theorem clear_hex04 (n : Nat) : Clear 4 (hex04 n) := by
  refine ⟨?_, Nat.le_refl _⟩
  simp only [hex04, List.all_cons, List.all_nil, digit_ne _ (Nat.mod_lt _ (by decide : 0 < 16)),
    Bool.and_true]

theorem plain_mk {e : Event} {n : Nat} (hk : plainKind e.kind e.level = true) (ht : Clear n e.text)
    (hn : n ≤ 1023) : Plain e :=
  ⟨hk, ht.1, Nat.ble_eq.mpr (by have := ht.2; omega)⟩

/-- The events of the Terminal Application Layer. -/
abbrev Tal' (e : Event) : Prop := e.source = 2 ∧ Plain e

/-- An event as `Tal'` that is no field. -/
abbrev Tal2 (e : Event) : Prop := Tal' e ∧ e.kind ≠ 3

theorem good_tal {α : Type} (e : Event) {x : C (Tr α)} (h : Tal2 e)
    (hx : Good Tal' dir (some (.said e)) x) : Good Tal' dir p (says [e] x) := good_say1 e h.1 h.2 hx

/-- Closes `Tal2` of an event of the source. -/
macro "tal" : tactic => `(tactic| first
  | exact ⟨⟨rfl, rfl, rfl, rfl⟩, Nat.ne_of_beq_eq_false rfl⟩
  | exact ⟨⟨rfl, plain_mk rfl (clear_append (a := 200) ⟨rfl, Nat.le_of_ble_eq_true rfl⟩
      (clear_decU _)) (by decide)⟩, Nat.ne_of_beq_eq_false rfl⟩
  | exact ⟨⟨rfl, plain_mk rfl (clear_append (a := 200) ⟨rfl, Nat.le_of_ble_eq_true rfl⟩
      (clear_hexU _)) (by decide)⟩, Nat.ne_of_beq_eq_false rfl⟩
  | exact ⟨⟨rfl, plain_mk rfl (clear_append (a := 200) ⟨rfl, Nat.le_of_ble_eq_true rfl⟩
      (clear_hex04 _)) (by decide)⟩, Nat.ne_of_beq_eq_false rfl⟩
  | exact ⟨⟨rfl, plain_mk rfl (clear_append (clear_append (a := 200)
      ⟨rfl, Nat.le_of_ble_eq_true rfl⟩ (clear_hexU _)) (b := 200) ⟨rfl, Nat.le_of_ble_eq_true rfl⟩)
      (by decide)⟩, Nat.ne_of_beq_eq_false rfl⟩
  | exact ⟨⟨rfl, plain_mk rfl (clear_append (clear_append (a := 200)
      ⟨rfl, Nat.le_of_ble_eq_true rfl⟩ (clear_hex04 _)) (b := 200) ⟨rfl, Nat.le_of_ble_eq_true rfl⟩)
      (by decide)⟩, Nat.ne_of_beq_eq_false rfl⟩
  | exact ⟨⟨rfl, plain_mk rfl (clear_append (clear_append (clear_append (a := 200)
      ⟨rfl, Nat.le_of_ble_eq_true rfl⟩ (clear_decU _)) (b := 200) ⟨rfl, Nat.le_of_ble_eq_true rfl⟩)
      (clear_decU _)) (by decide)⟩, Nat.ne_of_beq_eq_false rfl⟩)

/-- Closes `Tal2` of the events of a list. -/
macro "tals" : tactic => `(tactic| (
  intro e he
  simp only [List.mem_cons, List.not_mem_nil, or_false, List.mem_append] at he
  first
  | done
  | exact he.elim
  | (subst he; tal)
  | (rcases he with he | he <;> subst he <;> tal)
  | (rcases he with (he | he) | he <;> subst he <;> tal)))

theorem template_kinds {sfi : Byte} {data : List Byte} {oda bad : Bool} {es : List Event}
    (h : template sfi data oda = .ok (es, bad)) : ∀ e ∈ es, Tal2 e := by
  unfold template at h
  split at h
  · cases hd : decode data with
    | error u => rw [hd] at h; cases h
    | ok d =>
      rw [hd] at h
      simp only [bind_ok] at h
      repeat' split at h
      all_goals (cases h; tals)
  · cases h
    split <;> tals

theorem record_kinds {alloc : List Tlv → Tlv → Bool} {sfi : Byte} {data : List Byte} {oda : Bool}
    {list : List Tlv} {es : List Event} {r : Rec}
    (h : record alloc sfi data oda list = .ok (es, r)) : ∀ e ∈ es, Tal2 e := by
  unfold record at h
  split at h
  · cases h
  · cases hb : rd data 0 with
    | error u => rw [hb] at h; cases h
    | ok b =>
      rw [hb] at h
      simp only [bind_ok] at h
      split at h
      · split at h
        all_goals (cases h; tals)
      · cases ht : template sfi data oda with
        | error u => rw [ht] at h; cases h
        | ok q =>
          obtain ⟨es', bad⟩ := q
          have hk := template_kinds ht
          rw [ht] at h
          simp only [bind_ok] at h
          split at h
          · cases h; exact hk
          · cases hp : parse alloc data list with
            | error u => rw [hp] at h; cases h
            | ok q =>
              rw [hp] at h
              simp only [bind_ok] at h
              repeat' split at h
              all_goals cases h
              · intro e he
                simp only [List.mem_append, List.mem_singleton] at he
                rcases he with he | he
                · exact hk e he
                · rw [he]; tal
              · intro e he
                simp only [List.mem_append, List.mem_singleton] at he
                rcases he with he | he
                · exact hk e he
                · rw [he]; tal
              · exact hk

theorem single {P : Event → Prop} {e : Event} (h : P e) : ∀ e' ∈ [e], P e' := by
  simpa using h

theorem good_sfiLoop (alloc : List Tlv → Tlv → Bool) (sfi last : Byte) :
    ∀ (script : List W) (rec : Byte) (oda : Bool) (list : List Tlv),
      Good Tal' dir none (sfiLoop alloc sfi last script rec oda list) := by
  intro script
  induction script with
  | nil =>
    intro rec oda list
    rw [sfiLoop]
    refine good_ite (fun _ => good_fin _ _) (fun _ => ?_)
    refine good_tal _ (by tal) ?_
    refine good_ite (fun _ => good_says _ (single (by tal)) (good_fin _ _)) (fun _ => ?_)
    exact good_pending _ (Or.inr ⟨_, rfl, rfl, rfl⟩)
  | cons w rest ih =>
    intro rec oda list
    rw [sfiLoop]
    refine good_ite (fun _ => good_fin _ _) (fun _ => ?_)
    refine good_tal _ (by tal) ?_
    refine good_ite (fun _ => good_says _ (single (by tal)) (good_fin _ _)) (fun _ => ?_)
    refine good_did _ _ (Or.inr ⟨_, rfl, rfl, rfl⟩) ?_
    refine good_ite (fun _ => good_says _ (single (by tal)) (good_fin _ _)) (fun _ => ?_)
    refine good_ite (fun _ => good_says _ (single (by tal)) (good_fin _ _)) (fun _ => ?_)
    refine good_bind fun b hb => ?_
    obtain ⟨es, r⟩ := b
    have hk := record_kinds hb
    cases r with
    | stop code list => exact good_says _ hk (good_fin _ _)
    | spoilt => exact good_says _ hk (ih _ _ _)
    | next list => exact good_says _ hk (ih _ _ _)

theorem good_aflLoop (alloc : List Tlv → Tlv → Bool) :
    ∀ (fuel : Nat) (itr : List Byte) (oda : Bool) (list : List Tlv) (script : List W),
      Good Tal' dir none (aflLoop alloc fuel itr oda list script) := by
  intro fuel
  induction fuel with
  | zero => intros; exact good_error _
  | succ n ih =>
    intro itr oda list script
    rw [aflLoop]
    refine good_bind fun b hb => ?_
    obtain ⟨itr', r⟩ := b
    cases r with
    | eod => exact good_fin _ _
    | err n => exact good_says _ (single (by tal)) (good_fin _ _)
    | ok k e =>
      refine good_andThen (good_sfiLoop _ _ _ _ _ _ _) fun a rest => ?_
      exact good_ite (fun _ => ih _ _ _ _) (fun _ => good_ite (fun _ => ih _ _ _ _)
        (fun _ => good_fin _ _))

theorem good_readAfl (alloc : List Tlv → Tlv → Bool) (afl : List Byte) (list : List Tlv)
    (script : List W) : Good Tal' dir none (readAfl alloc afl list script) := by
  unfold readAfl
  refine good_ite (fun _ => good_fin _ _) (fun _ => ?_)
  refine good_ite (fun _ => good_says _ (single (by tal)) (good_fin _ _)) (fun _ => ?_)
  refine good_ite (fun _ => good_says _ (single (by tal)) (good_fin _ _)) (fun _ => ?_)
  exact good_aflLoop _ _ _ _ _ _

theorem gpoFields_kinds {alloc : List Tlv → Tlv → Bool} {data : List Byte} {es : List Event}
    {r : Except Int (List Tlv)} (h : gpoFields alloc data = .ok (es, r)) :
    ∀ e ∈ es, Tal2 e := by
  unfold gpoFields at h
  cases hd : decode data with
  | error u => rw [hd] at h; cases h
  | ok d =>
    rw [hd] at h
    simp only [bind_ok] at h
    cases d with
    | eod => cases h; tals
    | err n => cases h; tals
    | ok n t =>
      simp only at h
      split at h
      · split at h
        · cases h; tals
        · cases h1 : slice t.value 0 2 with
          | error u => rw [h1] at h; cases h
          | ok a =>
            rw [h1] at h
            simp only [bind_ok] at h
            cases h2 : slice t.value 2 (t.value.length - 2) with
            | error u => rw [h2] at h; cases h
            | ok f =>
              rw [h2] at h
              simp only [bind_ok] at h
              repeat' split at h
              all_goals
                cases h
                intro e he
                simp only [List.mem_cons, List.not_mem_nil, or_false, List.mem_append] at he
              · rcases he with (he | he) | he <;> subst he
                · tal
                · tal
                · tal
              · rcases he with (he | he) | he <;> subst he <;> tal
              · rcases he with he | he <;> subst he <;> tal
      · split at h
        · cases hp : parse alloc t.value [] with
          | error u => rw [hp] at h; cases h
          | ok q =>
            rw [hp] at h
            simp only [bind_ok] at h
            repeat' split at h
            all_goals (cases h; tals)
        · cases h; tals

theorem good_gpo (alloc : List Tlv → Tlv → Bool) (data : Option (List Byte)) (list : List Tlv)
    (script : List W) : Good Tal' dir none (gpo alloc data list script) := by
  unfold gpo
  refine good_ite (fun _ => good_fin _ _) (fun _ => ?_)
  refine good_tal _ (by tal) ?_
  refine good_send _ _ _ _ ⟨_, rfl, rfl, rfl, rfl⟩ ?_ fun w rest => ?_
  · rw [if_pos (by decide)]
    exact good_says _ (single (by tal)) (good_fin _ _)
  · refine good_ite (fun _ => good_says _ (single (by tal)) (good_fin _ _)) (fun hc => ?_)
    refine good_ite (fun _ => good_ite
      (fun _ => good_says _ (single (by tal)) (good_fin _ _))
      (fun _ => good_says _ (single (by tal)) (good_fin _ _))) (fun hw => ?_)
    refine good_show _ _ _ _ ⟨rfl, rfl, rfl, rfl⟩ (by omega) (Or.inl (by omega)) ?_
    refine good_bind fun b hb => ?_
    obtain ⟨es, r⟩ := b
    have hk := gpoFields_kinds hb
    cases r with
    | error c => exact good_says _ hk (good_fin _ _)
    | ok l =>
      refine good_says _ hk ?_
      cases find l 0x82 with
      | none => exact good_says _ (single (by tal)) (good_fin _ _)
      | some a =>
        cases find l 0x94 with
        | none => exact good_says _ (single (by tal)) (good_fin _ _)
        | some f => exact good_fin _ _

theorem cons_kinds {e : Event} {es : List Event} (h : Tal2 e)
    (hs : ∀ e ∈ es, Tal2 e) :
    ∀ e' ∈ e :: es, Tal2 e' := by
  intro e' he
  cases he with
  | head => exact h
  | tail _ he => exact hs e' he

theorem aefLoop_kinds (pse supported : List Tlv) :
    ∀ (fuel : Nat) (itr : List Byte) (apps : List App) (es : List Event) (r : List App),
      aefLoop pse supported fuel itr apps = .ok (es, r) → ∀ e ∈ es, Tal2 e := by
  intro fuel
  induction fuel with
  | zero => intro _ _ _ _ h; cases h
  | succ n ih =>
    intro itr apps es r h
    rw [aefLoop] at h
    cases hi : itrNext itr with
    | error u => rw [hi] at h; cases h
    | ok p =>
      obtain ⟨itr', d⟩ := p
      rw [hi] at h
      simp only [bind_ok] at h
      have rec_ok : ∀ (ev : Event) (apps' : List App), Tal2 ev →
          (do let (es, apps) ← aefLoop pse supported n itr' apps'
              .ok (ev :: es, apps) : C (List Event × List App)) = .ok (es, r) →
          ∀ e ∈ es, Tal2 e := by
        intro ev apps' hev h
        cases hr : aefLoop pse supported n itr' apps' with
        | error u => rw [hr] at h; cases h
        | ok q =>
          rw [hr] at h
          cases h
          exact cons_kinds hev (ih _ _ _ _ hr)
      cases d with
      | eod => cases h; tals
      | err n => cases h; tals
      | ok k t =>
        simp only at h
        split at h
        · exact rec_ok _ _ (by tal) h
        · cases hc : createFromPse pse t.value with
          | error u => rw [hc] at h; cases h
          | ok a =>
            rw [hc] at h
            cases a with
            | none => exact rec_ok _ _ (by tal) h
            | some app =>
              simp only [bind_ok] at h
              cases hs : App.isSupported app.aid.value supported with
              | error u => rw [hs] at h; cases h
              | ok b =>
                rw [hs] at h
                cases b with
                | true => exact rec_ok _ _ (by tal) h
                | false => exact rec_ok _ _ (by tal) h

theorem aefRecord_kinds {junk : Nat} {pse supported : List Tlv} {data : List Byte}
    {apps : List App} {es : List Event} {r : Int × List App}
    (h : aefRecord junk pse supported data apps = .ok (es, r)) :
    ∀ e ∈ es, Tal2 e := by
  unfold aefRecord at h
  cases hd : decode data with
  | error u => rw [hd] at h; cases h
  | ok d =>
    rw [hd] at h
    simp only [bind_ok] at h
    cases d with
    | eod => cases h; tals
    | err n => cases h; tals
    | ok n t =>
      simp only at h
      split at h
      · cases h; tals
      · cases hl : aefLoop pse supported (t.value.length + 1) t.value apps with
        | error u => rw [hl] at h; cases h
        | ok q =>
          rw [hl] at h
          cases h
          exact aefLoop_kinds _ _ _ _ _ _ _ hl

theorem snoc_kinds {e : Event} {es : List Event} (h : Tal2 e)
    (hs : ∀ e ∈ es, Tal2 e) :
    ∀ e' ∈ es ++ [e], Tal2 e' := by
  intro e' he
  simp only [List.mem_append, List.mem_singleton] at he
  rcases he with he | he
  · exact hs e' he
  · rw [he]; exact h

theorem good_pseLoop (junk : Nat → Nat) (pse supported : List Tlv) (sfi : Byte) :
    ∀ (script : List W) (rec : Byte) (apps : List App),
      Good Tal' true none (pseLoop junk pse supported sfi script rec apps) := by
  intro script
  induction script with
  | nil =>
    intro rec apps
    rw [pseLoop]
    refine good_ite (fun _ => good_says _ (single (by tal)) (good_fin _ _)) (fun _ => ?_)
    exact good_pending _ (Or.inl ⟨rfl, _, _, rfl⟩)
  | cons w rest ih =>
    intro rec apps
    rw [pseLoop]
    refine good_ite (fun _ => good_says _ (single (by tal)) (good_fin _ _)) (fun _ => ?_)
    refine good_did _ _ (Or.inl ⟨rfl, _, _, rfl⟩) ?_
    refine good_ite (fun _ => good_says _ (single (by tal)) (good_fin _ _)) (fun hc => ?_)
    refine good_ite (fun _ => good_says _ (single (by tal)) (good_fin _ _)) (fun _ => ?_)
    refine good_ite (fun _ => good_says _ (single (by tal)) (ih _ _)) (fun hw => ?_)
    refine good_show _ _ _ _ ⟨rfl, rfl, rfl, rfl⟩ (by omega) (Or.inl (by omega)) ?_
    refine good_bind fun b hb => ?_
    obtain ⟨es, r, apps'⟩ := b
    have hk := aefRecord_kinds hb
    refine good_ite (fun _ => good_says _ (snoc_kinds (by tal) hk) (good_fin _ _))
      (fun _ => ?_)
    exact good_ite (fun _ => good_says _ (snoc_kinds (by tal) hk) (ih _ _))
      (fun _ => good_says _ hk (ih _ _))

theorem good_readPse (junk : Nat → Nat) (supported : List Tlv) (apps : List App)
    (script : List W) : Good Tal' true none (readPse junk supported apps script) := by
  unfold readPse
  refine good_tal _ (by tal) ?_
  refine good_send _ _ _ _ ⟨_, rfl, Or.inr ⟨rfl, rfl, rfl⟩⟩ ?_ fun w rest => ?_
  · rw [if_pos (by decide)]
    exact good_says _ (single (by tal)) (good_fin _ _)
  · refine good_ite (fun _ => good_says _ (single (by tal)) (good_fin _ _)) (fun hc => ?_)
    refine good_ite (fun _ => good_says _ (single (by tal)) (good_fin _ _)) (fun _ => ?_)
    refine good_ite (fun _ => good_says _ (single (by tal)) (good_fin _ _)) (fun _ => ?_)
    refine good_ite (fun _ => good_says _ (single (by tal)) (good_fin _ _)) (fun _ => ?_)
    refine good_ite (fun _ => good_says _ (single (by tal)) (good_fin _ _)) (fun hw => ?_)
    refine good_show _ _ _ _ ⟨rfl, rfl, rfl, rfl⟩ (by omega) (Or.inl (by omega)) ?_
    refine good_bind fun b hb => ?_
    obtain ⟨r, pse⟩ := b
    refine good_ite (fun _ => good_says _ (single (by tal)) (good_fin _ _)) (fun _ => ?_)
    cases find pse 0x88 with
    | none => exact good_says _ (single (by tal)) (good_fin _ _)
    | some t =>
      refine good_ite (fun _ => good_says _ (single (by tal)) (good_fin _ _)) (fun _ => ?_)
      exact good_bind fun sfi _ => good_pseLoop _ _ _ _ _ _ _

theorem good_findApps : ∀ (script : List W) (aids : List Tlv) (first : Bool) (apps : List App),
    Good Tal' dir none (findApps script aids first apps) := by
  intro script
  induction script with
  | nil =>
    intro aids first apps
    cases aids with
    | nil => rw [findApps]; exact good_fin _ _
    | cons aid aids =>
      rw [findApps]
      refine good_tal _ (by cases first <;> tal) ?_
      refine good_ite (fun _ => good_says _ (single (by tal)) (good_fin _ _)) (fun _ => ?_)
      exact good_pending _ (Or.inr ⟨_, rfl, Or.inl ⟨rfl, rfl, by cases first <;> rfl⟩⟩)
  | cons w rest ih =>
    intro aids first apps
    cases aids with
    | nil => rw [findApps]; exact good_fin _ _
    | cons aid aids =>
      rw [findApps]
      refine good_tal _ (by cases first <;> tal) ?_
      refine good_ite (fun _ => good_says _ (single (by tal)) (good_fin _ _)) (fun _ => ?_)
      refine good_did _ _ (Or.inr ⟨_, rfl, Or.inl ⟨rfl, rfl, by cases first <;> rfl⟩⟩) ?_
      refine good_ite (fun _ => good_says _ (single (by tal)) (good_fin _ _)) (fun hc => ?_)
      refine good_ite (fun _ => good_says _ (single (by tal)) (good_fin _ _)) (fun _ => ?_)
      refine good_ite (fun _ => good_says _ (single ?_) (ih _ _ _)) (fun hw => ?_)
      · split <;> tal
      refine good_show _ _ _ _ ⟨rfl, rfl, rfl, rfl⟩ (by omega) (by omega) ?_
      refine good_bind fun b hb => ?_
      cases b with
      | none => exact ih _ _ _
      | some app =>
        refine good_ite (fun _ => good_says _ (single ?_) (ih _ _ _)) (fun _ => ?_)
        · split <;> tal
        refine good_ite (fun _ => good_says _ (single ?_) (ih _ _ _)) (fun _ => ?_)
        · split <;> tal
        exact good_says _ (single (by tal)) (ih _ _ _)

theorem good_selectApp (aid : List Byte) (script : List W) :
    Good Tal' dir none (selectApp aid script) := by
  unfold selectApp
  refine good_ite (fun _ => good_fin _ _) (fun _ => ?_)
  refine good_tal _ (by tal) ?_
  refine good_send _ _ _ _ ⟨_, rfl, Or.inl ⟨rfl, rfl, rfl⟩⟩ ?_ fun w rest => ?_
  · rw [if_pos (by decide)]
    exact good_says _ (single (by tal)) (good_fin _ _)
  · refine good_ite (fun _ => good_says _ (single (by tal)) (good_fin _ _)) (fun hc => ?_)
    refine good_ite (fun _ => ?_) (fun hw => ?_)
    · repeat' refine good_ite (fun _ => good_says _ (single (by tal)) (good_fin _ _)) (fun _ => ?_)
      exact good_says _ (single (by tal)) (good_fin _ _)
    refine good_show _ _ _ _ ⟨rfl, rfl, rfl, rfl⟩ (by omega) (Or.inl (by omega)) ?_
    refine good_bind fun b hb => ?_
    cases b with
    | none => exact good_says _ (single (by tal)) (good_fin _ _)
    | some app =>
      refine good_ite (fun _ => good_says _ (single (by tal)) (good_fin _ _)) (fun _ => ?_)
      refine good_bind fun a _ => ?_
      exact good_ite (fun _ => good_says _ (single (by tal)) (good_fin _ _))
        (fun _ => good_fin _ _)

/-! ## The kernel -/

/-- The events of the Terminal Application Layer and the kernel. -/
abbrev Any (e : Event) : Prop := (e.source = 2 ∨ e.source = 4) ∧ Plain e

theorem any_of_tal (e : Event) (h : Tal' e) : Any e := ⟨Or.inl h.1, h.2⟩

theorem good_finish (apps : List App) (script : List W) :
    Good Any dir none (finish apps script) := by
  unfold finish
  exact good_ite (fun _ => good_says _ (single ⟨⟨Or.inr rfl, rfl, rfl, rfl⟩, by decide⟩) (good_fin _ _))
    (fun _ => good_fin _ _)

theorem good_build (junk : Nat → Nat) (supported : List Tlv) (apps : List App)
    (script : List W) : Good Any true none (build junk supported apps script) := by
  unfold build
  refine good_says _ (single ⟨⟨Or.inr rfl, rfl, rfl, rfl⟩, by decide⟩) ?_
  refine good_andThen (good_mono any_of_tal (good_readPse _ _ _ _)) fun a rest => ?_
  refine good_ite (fun _ => good_says _ (single ⟨⟨Or.inr rfl, rfl, rfl, rfl⟩, by decide⟩) (good_fin _ _))
    (fun _ => ?_)
  refine good_says _ ?_ ?_
  · split
    · exact single ⟨⟨Or.inr rfl, rfl, rfl, rfl⟩, by decide⟩
    · simp
  refine good_ite (fun _ => ?_) (fun _ => good_finish _ _)
  refine good_says _ (single ⟨⟨Or.inr rfl, rfl, rfl, rfl⟩, by decide⟩) ?_
  refine good_andThen (good_mono any_of_tal (good_findApps _ _ _ _)) fun a rest => ?_
  exact good_ite (fun _ => good_says _ (single ⟨⟨Or.inr rfl, rfl, rfl, rfl⟩, by decide⟩) (good_fin _ _))
    (fun _ => good_finish _ _)

theorem good_tryAgain (ctx : Emv.Ctx) (apps : List App) (script : List W) :
    Good Any dir none (tryAgain ctx apps script) := by
  unfold tryAgain
  exact good_ite (fun _ => good_says _ (single ⟨⟨Or.inr rfl, rfl, rfl, rfl⟩, by decide⟩) (good_fin _ _))
    (fun _ => good_fin _ _)

theorem good_select (ctx : Emv.Ctx) (apps : List App) (index : Nat) (script : List W) :
    Good Any dir none (select ctx apps index script) := by
  unfold select
  cases apps[index]? with
  | none => exact good_says _ (single ⟨⟨Or.inr rfl, rfl, rfl, rfl⟩, by decide⟩) (good_fin _ _)
  | some a =>
    refine good_ite (fun _ => good_tryAgain _ _ _) (fun _ => ?_)
    refine good_andThen (good_mono any_of_tal (good_selectApp _ _)) fun x rest => ?_
    refine good_ite (fun _ => good_says _ (single ⟨⟨Or.inr rfl, rfl, rfl, rfl⟩, by decide⟩) (good_fin _ _))
      (fun _ => ?_)
    exact good_ite (fun _ => good_says _ (single ⟨⟨Or.inr rfl, rfl, rfl, rfl⟩, by decide⟩) (good_tryAgain _ _ _))
      (fun _ => good_fin _ _)

theorem gpoData_events {buf : List Byte} {sources : List (List Tlv)} {tlvs : List Tlv}
    {es : List Event} {r : Except Int (Option (List Byte))}
    (h : gpoData buf sources tlvs = .ok (es, r)) :
    (∀ e ∈ es, (e.source = 4 ∧ Plain e) ∧ e.kind ≠ 3) ∧
    (∀ d, r = .ok d → ∀ e ∈ es, e.level ≠ 1) ∧
    (∀ c, r = .error c → (c = 1 ∨ c = -1) ∧ ∃ e, es.getLast? = some e ∧ e.level = 1) := by
  unfold gpoData at h
  cases hf : find tlvs 0x9F38 with
  | none => rw [hf] at h; cases h; simp
  | some pdol =>
    rw [hf] at h
    simp only at h
    cases hc : Dol.computeDataLength pdol.value with
    | error u => rw [hc] at h; cases h
    | ok n =>
      rw [hc] at h
      simp only [bind_ok] at h
      split at h
      · cases h; exact ⟨by tals, by simp [infoData, error], by simp [infoData, error]⟩
      · split at h
        · cases h; exact ⟨by tals, by simp [infoData, error], by simp [infoData, error]⟩
        · cases hw : wr buf 0 0x83 with
          | error u => rw [hw] at h; cases h
          | ok buf =>
            rw [hw] at h
            simp only [bind_ok] at h
            revert h
            generalize ((if n < 0x80 then do
                let buf ← wr buf 1 (UInt8.ofNat n.toNat)
                .ok (buf, 2)
              else do
                let buf ← wr buf 1 0x81
                let buf ← wr buf 2 (UInt8.ofNat n.toNat)
                .ok (buf, 3) : C (List Byte × Nat))) = hd
            intro h
            cases hd with
            | error u => cases h
            | ok p =>
              obtain ⟨buf, off⟩ := p
              simp only [bind_ok] at h
              cases hs : suffix buf off with
              | error u => rw [hs] at h; cases h
              | ok tail =>
                rw [hs] at h
                simp only [bind_ok] at h
                cases hb : Dol.buildData pdol.value sources tail with
                | error u => rw [hb] at h; cases h
                | ok q =>
                  obtain ⟨r', tail, len⟩ := q
                  rw [hb] at h
                  simp only [bind_ok] at h
                  split at h
                  · cases h; exact ⟨by tals, by simp [infoData, error], by simp [infoData, error]⟩
                  · cases hl : slice (buf.take off ++ tail) 0 (len + off) with
                    | error u => rw [hl] at h; cases h
                    | ok d => rw [hl] at h; cases h; exact ⟨by tals, by simp [infoData], by simp⟩

theorem good_initiate (alloc : List Tlv → Tlv → Bool) (buf : List Byte) (ctx : Emv.Ctx)
    (pos : Byte) (script : List W) :
    Good Any dir none (initiate alloc buf ctx pos script) := by
  unfold initiate
  cases ctx.selected with
  | none => exact good_says _ (single ⟨⟨Or.inr rfl, rfl, rfl, rfl⟩, by decide⟩) (good_fin _ _)
  | some s0 =>
    simp only
    cases ctx.clearIcc.selected with
    | none => exact good_error _
    | some s =>
      refine good_ite (fun _ => good_says _ (single ⟨⟨Or.inr rfl, rfl, rfl, rfl⟩, by decide⟩) (good_fin _ _))
        (fun _ => ?_)
      refine good_ite (fun _ => good_error _) (fun _ => ?_)
      refine good_ite (fun _ => good_says _ (single ⟨⟨Or.inr rfl, rfl, rfl, rfl⟩, by decide⟩) (good_fin _ _))
        (fun _ => ?_)
      refine good_bind fun b hb => ?_
      obtain ⟨es, r⟩ := b
      have hk : ∀ e ∈ es, Any e ∧ e.kind ≠ 3 := fun e he =>
        ⟨⟨Or.inr ((gpoData_events hb).1 e he).1.1, ((gpoData_events hb).1 e he).1.2⟩,
          ((gpoData_events hb).1 e he).2⟩
      cases r with
      | error c => exact good_says _ hk (good_fin _ _)
      | ok data =>
        refine good_says _ hk ?_
        refine good_andThen (good_mono any_of_tal (good_gpo _ _ _ _)) fun g rest => ?_
        refine good_ite (fun _ => good_says _ (single ⟨⟨Or.inr rfl, rfl, rfl, rfl⟩, by decide⟩) (good_fin _ _))
          (fun _ => ?_)
        exact good_ite (fun _ => good_says _ (single ⟨⟨Or.inr rfl, rfl, rfl, rfl⟩, by decide⟩) (good_fin _ _))
          (fun _ => good_fin _ _)

theorem good_readData (alloc : List Tlv → Tlv → Bool) (ctx : Emv.Ctx) (script : List W) :
    Good Any dir none (readData alloc ctx script) := by
  unfold readData
  cases find ctx.icc 0x94 with
  | none => exact good_says _ (single ⟨⟨Or.inr rfl, rfl, rfl, rfl⟩, by decide⟩) (good_fin _ _)
  | some afl =>
    refine good_andThen (good_mono any_of_tal (good_readAfl _ _ _ _)) fun a rest => ?_
    refine good_ite (fun _ => good_says _ (single ⟨⟨Or.inr rfl, rfl, rfl, rfl⟩, by decide⟩) (good_fin _ _))
      (fun _ => ?_)
    refine good_ite (fun _ => good_says _ (single ⟨⟨Or.inr rfl, rfl, rfl, rfl⟩, by decide⟩) (good_fin _ _))
      (fun _ => ?_)
    refine good_ite (fun _ => good_says _ (single ⟨⟨Or.inr rfl, rfl, rfl, rfl⟩, by decide⟩) (good_fin _ _))
      (fun _ => ?_)
    exact good_ite (fun _ => good_says _ (single ⟨⟨Or.inr rfl, rfl, rfl, rfl⟩, by decide⟩) (good_fin _ _))
      (fun _ => good_fin _ _)

end Verif.Trace
