import Verif.StackLemmas
import Verif.Text

/-!
# C156: lack of memory is reported, never hidden
-/

set_option autoImplicit false

namespace Verif.Memory
open Verif Ber TlvParse App Tal Emv Stack

/-! ## Specification -/

/-- `y` is the run `x`, or it stops earlier: what it did is the beginning of what `x` does, and its result satisfies `P`. -/
def Lacks {α : Type} (P : α → Prop) (x y : C (Run α)) : Prop :=
  y = x ∨ ∃ tr a rest, y = .ok (tr, .done a rest) ∧ P a ∧
    match x with
    | .error _ => True
    | .ok (tr', _) => tr <+: tr'

/-- The transaction has ended with the internal error -1, and this is the last line printed. -/
def Internal (e : ToolTxn.End) : Prop :=
  e.how = .code (-1) ∧ e.out.getLast? = some (.text txt!"ERROR: Internal error\n")

/-! ## Lemmas -/

variable {α β : Type}

theorem lacks_refl (P : α → Prop) (x : C (Run α)) : Lacks P x x := .inl rfl

theorem lacks_now {P : α → Prop} (x : C (Run α)) (a : α) (rest : List W) (h : P a) : Lacks P x (fin a rest) := by
  refine .inr ⟨[], a, rest, rfl, h, ?_⟩
  match x with
  | .error _ => trivial
  | .ok (tr', _) => exact List.nil_prefix

theorem lacks_log {P : α → Prop} {x y : C (Run α)} (c : Cmd) (w : W) (h : Lacks P x y) : Lacks P (log c w x) (log c w y) := by
  rcases h with rfl | ⟨tr, a, rest, rfl, hp, hs⟩
  · exact .inl rfl
  · refine .inr ⟨(c, w) :: tr, a, rest, rfl, hp, ?_⟩
    match x, hs with
    | .error _, _ => trivial
    | .ok (tr', _), hs => exact List.cons_prefix_cons.2 ⟨rfl, hs⟩

theorem lacks_bind {P : α → Prop} {γ : Type} (c : C γ) (f g : γ → C (Run α)) (h : ∀ v, Lacks P (f v) (g v)) :
    Lacks P (c >>= f) (c >>= g) := by
  cases c with
  | error e => exact .inl rfl
  | ok v => exact h v

theorem lacks_then {P : α → Prop} {Q : β → Prop} {x y : C (Run α)} {f g : α → List W → C (Run β)} (h : Lacks P x y)
    (hf : ∀ a rest, Lacks Q (f a rest) (g a rest)) (hp : ∀ a rest, P a → ∃ b, g a rest = fin b rest ∧ Q b) :
    Lacks Q (andThen x f) (andThen y g) := by
  unfold andThen
  rcases h with rfl | ⟨tr, a, rest, rfl, h1, h2⟩
  · match y with
    | .error e => exact .inl rfl
    | .ok (tr, .pending c) => exact .inl rfl
    | .ok (tr, .done a rest) =>
      simp only [bind_ok]
      rcases hf a rest with e | ⟨tr2, b, rest2, e, h1, h2⟩
      · rw [e]; exact .inl rfl
      · rw [e]
        refine .inr ⟨tr ++ tr2, b, rest2, rfl, h1, ?_⟩
        match hx : f a rest with
        | .error u => trivial
        | .ok (t, o) =>
          rw [hx] at h2
          exact (List.prefix_append_right_inj tr).2 h2
  · obtain ⟨b, e, hq⟩ := hp a rest h1
    simp only [bind_ok, e, fin, List.append_nil]
    refine .inr ⟨tr, b, rest, rfl, hq, ?_⟩
    match x, h2 with
    | .error u, _ => trivial
    | .ok (tr', .pending c), h2 => exact h2
    | .ok (tr', .done a' rest'), h2 =>
      simp only [bind_ok]
      match f a' rest' with
      | .error u => trivial
      | .ok (t, o) => exact h2.trans (List.prefix_append _ _)

/-- Parsing with limited memory: the same, or -2. -/
theorem parseF_lacks (alloc : List Tlv → Tlv → Bool) : ∀ (fuel : Nat) (buf : List Byte) (list : List Tlv),
    parseF alloc fuel buf list = parseF allocOk fuel buf list ∨ ∃ l, parseF alloc fuel buf list = .ok (-2, l) := by
  intro fuel
  induction fuel with
  | zero => intro buf list; exact .inl rfl
  | succ fuel ih =>
    intro buf list
    unfold parseF
    match itrNext buf with
    | .error e => exact .inl rfl
    | .ok (rest, .eod) => exact .inl rfl
    | .ok (rest, .err _) => exact .inl rfl
    | .ok (rest, .ok _ tlv) =>
      simp only [bind_ok]
      by_cases hc : tlv.isConstructed = true
      · rw [if_pos hc, if_pos hc]
        rcases ih tlv.value list with e | ⟨l, e⟩
        · rw [e]
          match parseF allocOk fuel tlv.value list with
          | .error u => exact .inl rfl
          | .ok (r, l) =>
            simp only [bind_ok]
            by_cases hr : r ≠ 0
            · rw [if_pos hr, if_pos hr]; exact .inl rfl
            · rw [if_neg hr, if_neg hr]; exact ih rest l
        · rw [e]
          exact .inr ⟨l, rfl⟩
      · rw [if_neg hc, if_neg hc, if_pos (show allocOk _ _ = true from rfl)]
        by_cases ha : alloc list { tlv with flags := 0 } = true
        · rw [if_pos ha]; exact ih rest _
        · rw [if_neg ha]; exact .inr ⟨list, rfl⟩

theorem parse_lacks (alloc : List Tlv → Tlv → Bool) (buf : List Byte) (list : List Tlv) :
    parse alloc buf list = parse allocOk buf list ∨ ∃ l, parse alloc buf list = .ok (-2, l) :=
  parseF_lacks _ _ _ _

/-- A record: the same, or the end with -1. -/
theorem record_lacks (alloc : List Tlv → Tlv → Bool) (sfi : Byte) (data : List Byte) (list : List Tlv) :
    record alloc sfi data list = record allocOk sfi data list ∨ ∃ l, record alloc sfi data list = .ok (.stop (-1) l) := by
  rcases parse_lacks alloc data list with e | ⟨l, e⟩
  · left
    unfold record
    rw [e]
  · unfold record
    rw [e]
    split
    · exact .inl rfl
    · match rd data 0 with
      | .error u => exact .inl rfl
      | .ok b =>
        simp only [bind_ok]
        split
        · exact .inl rfl
        · by_cases h10 : sfi.toNat ≥ 1 ∧ sfi.toNat ≤ 10
          · rw [if_pos h10, if_pos h10]
            match decode data with
            | .error u => exact .inl rfl
            | .ok .eod => exact .inl rfl
            | .ok (.err _) => exact .inl rfl
            | .ok (.ok _ t) =>
              simp only [bind_ok]
              split
              · exact .inl rfl
              · exact .inr ⟨l, rfl⟩
          · rw [if_neg h10, if_neg h10]
            exact .inr ⟨l, rfl⟩

theorem sfi_lacks (alloc : List Tlv → Tlv → Bool) (sfi last : Byte) : ∀ (script : List W) (rec : Byte) (oda : Bool)
    (list : List Tlv), Lacks (fun a => a.1 = -1) (sfiLoop allocOk sfi last script rec oda list)
      (sfiLoop alloc sfi last script rec oda list) := by
  intro script
  induction script with
  | nil =>
    intro rec oda list
    unfold sfiLoop
    exact .inl rfl
  | cons w rest ih =>
    intro rec oda list
    unfold sfiLoop
    split
    · exact .inl rfl
    · split
      · exact .inl rfl
      · refine lacks_log _ _ ?_
        split
        · exact .inl rfl
        · split
          · exact .inl rfl
          · rcases record_lacks alloc sfi w.data list with e | ⟨l, e⟩
            · rw [e]
              refine lacks_bind _ _ _ fun v => ?_
              cases v with
              | stop code list => exact .inl rfl
              | spoilt => exact ih _ _ _
              | next list => exact ih _ _ _
            · rw [e]
              exact lacks_now _ _ _ rfl

theorem afl_lacks (alloc : List Tlv → Tlv → Bool) : ∀ (fuel : Nat) (itr : List Byte) (oda : Bool) (list : List Tlv)
    (script : List W), Lacks (fun a => a.1 = -1) (aflLoop allocOk fuel itr oda list script)
      (aflLoop alloc fuel itr oda list script) := by
  intro fuel
  induction fuel with
  | zero => intro itr oda list script; exact .inl rfl
  | succ fuel ih =>
    intro itr oda list script
    unfold aflLoop
    refine lacks_bind _ _ _ fun v => ?_
    obtain ⟨itr', r⟩ := v
    cases r with
    | eod => exact .inl rfl
    | err _ => exact .inl rfl
    | ok _ e =>
      refine lacks_then (sfi_lacks alloc e.sfi e.last script e.first false list) (fun a rest => ?_) (fun a rest h => ?_)
      · split
        · exact ih _ _ _ _
        · split
          · exact ih _ _ _ _
          · exact .inl rfl
      · have h : a.1 = -1 := h
        exact ⟨a, by rw [if_neg (by omega), if_neg (by omega)], h⟩

theorem readData_lacks (alloc : List Tlv → Tlv → Bool) (ctx : Ctx) (script : List W) :
    Lacks (fun a => a.1 = -1 ∧ a.2 = ctx) (readData allocOk ctx script) (readData alloc ctx script) := by
  unfold readData
  cases find ctx.icc 0x94 with
  | none => exact .inl rfl
  | some afl =>
    refine lacks_then (P := fun a => a.1 = -1) ?_ (fun a rest => .inl rfl) (fun a rest h => ?_)
    · unfold readAfl
      dsimp only
      split
      · exact .inl rfl
      · split
        · exact .inl rfl
        · split
          · exact .inl rfl
          · exact afl_lacks _ _ _ _ _ _
    · have h : a.1 = -1 := h
      exact ⟨(-1, ctx), by rw [if_pos (by omega), if_pos (by omega)], rfl, rfl⟩

theorem gpoFields_lacks (alloc : List Tlv → Tlv → Bool) (data : List Byte) :
    gpoFields alloc data = gpoFields allocOk data ∨ gpoFields alloc data = .ok (.error (-1)) := by
  unfold gpoFields
  match decode data with
  | .error e => exact .inl rfl
  | .ok .eod => exact .inl rfl
  | .ok (.err _) => exact .inl rfl
  | .ok (.ok _ t) =>
    simp only [bind_ok]
    split
    · split
      · exact .inl rfl
      · match slice t.value 0 2 with
        | .error e => exact .inl rfl
        | .ok a =>
          match slice t.value 2 (t.value.length - 2) with
          | .error e => exact .inl rfl
          | .ok f =>
            simp only [bind_ok, allocOk]
            cases alloc [] ⟨0x82, 0, a⟩
            · exact .inr rfl
            · cases alloc [⟨0x82, 0, a⟩] ⟨0x94, 0, f⟩
              · exact .inr rfl
              · exact .inl rfl
    · split
      · rcases parse_lacks alloc t.value [] with e | ⟨l, e⟩
        · rw [e]; exact .inl rfl
        · rw [e]; exact .inr rfl
      · exact .inl rfl

theorem gpo_lacks (alloc : List Tlv → Tlv → Bool) (data : Option (List Byte)) (script : List W) :
    Lacks (fun a => a.code = -1) (gpo allocOk data [] script) (gpo alloc data [] script) := by
  unfold gpo
  split
  · exact .inl rfl
  · unfold send
    split
    · exact .inl rfl
    · cases script with
      | nil => exact .inl rfl
      | cons w rest =>
        refine lacks_log _ _ ?_
        dsimp only
        split
        · exact .inl rfl
        · split
          · exact .inl rfl
          · rcases gpoFields_lacks alloc w.data with e | e
            · rw [e]; exact .inl rfl
            · rw [e]; exact lacks_now _ _ _ rfl

theorem pushAll_lacks (alloc : List Tlv → Tlv → Bool) : ∀ (ts list : List Tlv),
    pushAll alloc list ts = pushAll allocOk list ts ∨ (pushAll alloc list ts).1 = false := by
  intro ts
  induction ts with
  | nil => intro list; exact .inl rfl
  | cons t ts ih =>
    intro list
    unfold pushAll
    rw [if_pos (show allocOk _ _ = true from rfl)]
    split
    · exact ih _
    · exact .inr rfl

theorem initiate_lacks (alloc : List Tlv → Tlv → Bool) (buf : List Byte) (ctx : Ctx) (pos : Byte) (script : List W) :
    Lacks (fun a => a.1 = -1 ∧ a.2.icc = []) (initiate allocOk buf ctx pos script) (initiate alloc buf ctx pos script) := by
  unfold initiate
  split
  · exact .inl rfl
  · dsimp only
    split
    · exact .inl rfl
    · next s hs =>
      by_cases ha : alloc [] ⟨0x9F39, 0, [pos]⟩ = true
      · rw [if_neg (show ¬ (!allocOk [] (⟨0x9F39, 0, [pos]⟩ : Tlv)) = true by simp [allocOk]),
          if_neg (show ¬ (!alloc [] (⟨0x9F39, 0, [pos]⟩ : Tlv)) = true by simp [ha])]
        split
        · exact .inl rfl
        · rcases pushAll_lacks alloc (terminalData pos s.app.aid.value) [] with e | e
          · rw [e]
            split
            · exact .inl rfl
            · refine lacks_bind _ _ _ fun v => ?_
              cases v with
              | error c => exact .inl rfl
              | ok data =>
                refine lacks_then (gpo_lacks alloc data script) (fun a rest => .inl rfl) (fun a rest h => ?_)
                have h : a.code = -1 := h
                exact ⟨_, by rw [if_pos (by omega), if_pos (by omega)], rfl, rfl⟩
          · rw [e]
            rw [if_pos (show (!false) = true from rfl)]
            exact lacks_now _ _ _ ⟨rfl, rfl⟩
      · rw [if_neg (show ¬ (!allocOk [] (⟨0x9F39, 0, [pos]⟩ : Tlv)) = true by simp [allocOk]),
          if_pos (show (!alloc [] (⟨0x9F39, 0, [pos]⟩ : Tlv)) = true by simp [ha])]
        exact lacks_now _ _ _ ⟨rfl, rfl⟩

theorem internal {r : Int} (h : r = -1) (ctx : Ctx) (apps : List App) (input : List Byte) (out : List ToolTxn.Item) :
    Internal ⟨.code r, ctx, apps, input, out ++ [ToolTxn.complaint r]⟩ := by
  subst h
  exact ⟨rfl, by rw [List.getLast?_concat]; exact congrArg some (by decide +kernel)⟩

theorem rounds_lacks (alloc : List Tlv → Tlv → Bool) (mem : Nat → List Byte) (req : Bool) : ∀ (fuel : Nat) (ctx : Ctx)
    (apps : List App) (input : List Byte) (out : List ToolTxn.Item) (script : List W),
    Lacks Internal (ToolTxn.rounds allocOk mem req fuel ctx apps input out script)
      (ToolTxn.rounds alloc mem req fuel ctx apps input out script) := by
  intro fuel
  induction fuel with
  | zero => intro ctx apps input out script; exact .inl rfl
  | succ fuel ih =>
    intro ctx apps input out script
    unfold ToolTxn.rounds
    refine lacks_bind _ _ _ fun v => ?_
    obtain ⟨c, bad⟩ := v
    cases c with
    | never => exact .inl rfl
    | index i input =>
      refine lacks_then (P := fun _ => False) (.inl rfl) (fun a rest => ?_) (fun a rest h => h.elim)
      dsimp only
      split
      · exact .inl rfl
      · split
        · split
          · exact ih _ _ _ _ _
          · exact .inl rfl
        · split
          · exact .inl rfl
          · refine lacks_then (initiate_lacks alloc _ _ 5 rest) (fun b rest => ?_) (fun b rest h => ?_)
            · split
              · exact .inl rfl
              · split
                · split
                  · exact ih _ _ _ _ _
                  · exact .inl rfl
                · exact .inl rfl
            · have h : b.1 = -1 := h.1
              exact ⟨_, by rw [if_pos (by omega)], internal h _ _ _ _⟩

theorem reading_lacks (alloc : List Tlv → Tlv → Bool) (e : ToolTxn.End) (script : List W) :
    Lacks Internal (ToolTxn.reading allocOk e script) (ToolTxn.reading alloc e script) := by
  unfold ToolTxn.reading
  refine lacks_then (readData_lacks alloc e.ctx script) (fun a rest => .inl rfl) (fun a rest h => ?_)
  have h : a.1 = -1 := h.1
  exact ⟨_, by rw [if_pos (by omega)], internal h _ _ _ _⟩

/-! ## Property -/

/-- **C156** (functions).  Initiation and reading with any behaviour of the allocator: the same as with unlimited memory, or
the commands until memory ran out and the code -1; no data of the card are then added to the context. -/
theorem C156_kernel (alloc : List Tlv → Tlv → Bool) (buf : List Byte) (ctx : Ctx) (pos : Byte) (script : List W) :
    Lacks (fun a => a.1 = -1 ∧ a.2.icc = []) (initiate allocOk buf ctx pos script) (initiate alloc buf ctx pos script) ∧
    Lacks (fun a => a.1 = -1 ∧ a.2 = ctx) (readData allocOk ctx script) (readData alloc ctx script) :=
  ⟨initiate_lacks _ _ _ _ _, readData_lacks _ _ _⟩

/-- **C156.**  Whatever the card, the terminal data and the input, and whenever memory runs out: the transaction is the same
as with unlimited memory, or it ends after a part of its commands with the internal error, which is the last line
printed. -/
theorem C156_transaction (alloc : List Tlv → Tlv → Bool) (mem : Nat → List Byte) (ctx : Ctx) (input : List Byte)
    (script : List W) : Lacks Internal (ToolTxn.transaction allocOk mem ctx input script)
      (ToolTxn.transaction alloc mem ctx input script) := by
  unfold ToolTxn.transaction
  refine lacks_then (P := fun _ => False) (.inl rfl) (fun a rest => ?_) (fun a rest h => h.elim)
  dsimp only
  split
  · exact .inl rfl
  · refine lacks_then (rounds_lacks alloc mem _ _ _ _ _ _ rest) (fun e rest => ?_) (fun e rest h => ?_)
    · split
      · exact reading_lacks _ _ _
      · exact .inl rfl
    · exact ⟨e, by rw [if_neg (by rw [h.1]; simp)], h⟩

/-- **C156** (success).  A transaction that is completed has the data it would have with unlimited memory. -/
theorem C156_success (alloc : List Tlv → Tlv → Bool) (mem : Nat → List Byte) (ctx : Ctx) (input : List Byte)
    (script : List W) (tr : List (Cmd × W)) (e : ToolTxn.End) (rest : List W)
    (h : ToolTxn.transaction alloc mem ctx input script = .ok (tr, .done e rest)) (he : e.how ≠ .code (-1)) :
    ToolTxn.transaction allocOk mem ctx input script = .ok (tr, .done e rest) := by
  rcases C156_transaction alloc mem ctx input script with e' | ⟨tr', a, rest', e', hp, -⟩
  · rw [← e', h]
  · rw [h] at e'
    cases e'
    exact absurd hp.1 he

/-- Memory for six fields of the card: it runs out in the record. -/
example :
    let a : List Byte := [0xA0, 0, 0, 0, 4]
    let fci : List Byte := [0x6F, 0x07, 0x84, 0x05, 0xA0, 0, 0, 0, 4]
    let gpo : List Byte := [0x77, 0x0A, 0x82, 0x02, 0x39, 0, 0x94, 4, 8, 1, 1, 0]
    let rec1 : List Byte := [0x70, 13, 0x5A, 1, 0x12, 0x5F, 0x24, 1, 0x31, 0x8C, 1, 0x9A, 0x8D, 1, 0x8A]
    let ctx : Ctx := { Ctx.init with supported := [⟨0x9F06, 0, a⟩] }
    let run := fun alloc => (ToolTxn.transaction alloc (fun _ => List.replicate 255 0) ctx []
      [⟨0, [], 0x6A82⟩, ⟨0, fci, 0x9000⟩, ⟨0, fci, 0x9000⟩, ⟨0, gpo, 0x9000⟩, ⟨0, rec1, 0x9000⟩]).map (fun x =>
        (x.1.length, match x.2 with
          | .done e _ => some (e.how, e.ctx.icc.length)
          | .pending _ => none))
    run allocOk = .ok (5, some (.done, 7)) ∧ run (fun l t => !(l.length == 3 && t.tag == 0x8D)) = .ok (5, some (.code (-1), 3)) ∧
      run (fun l _ => l.length < 1) = .ok (3, some (.code (-1), 0)) := by
  decide +kernel

end Verif.Memory
