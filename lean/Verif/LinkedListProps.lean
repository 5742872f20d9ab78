import Verif.LinkedListHistory
import Verif.Ber

/-!
# Properties of the EMV TLV list and the application list: C08, C34, C35, C38
-/

set_option autoImplicit false

namespace Verif.LL
open Verif Ber

/-! ## C08 -/

/-- Calls of the TLV list API (emv_tlv.h). -/
inductive TlvOp where
  /-- `emv_tlv_list_push`; `ok`: memory available -/
  | push (i : Nat) (t : Tlv) (ok : Bool)
  /-- `emv_tlv_list_pop`; the client keeps the node -/
  | pop (i : Nat)
  /-- `emv_tlv_free` of a node obtained by pop -/
  | free (k : Nat)
  /-- `emv_tlv_list_append` of two different lists -/
  | append (i j : Nat) (h : i ≠ j)
  | clear (i : Nat)
  | isEmpty (i : Nat)
  | find (i tag : Nat)
  | hasDup (i : Nat)

def TlvOp.toOp : TlvOp → Op Tlv
  | .push i t ok => .tlvPush i t ok
  | .pop i => .pop i
  | .free k => .free k
  | .append i j h => .append i j h
  | .clear i => .clear i
  | .isEmpty i => .isEmpty i
  | .find i tag => .find i (fun t => t.tag == tag)
  | .hasDup i => .hasDup i (fun t u => t.tag == u.tag)

/-- **C08.** Every history of TLV list calls, from empty lists, runs without undefined
behaviour, returns exactly what the same calls on sequences return, and ends in a
well-formed world denoting the resulting sequences (`Rep`: proper lists, no sharing, no
leaked node, popped nodes detached). -/
theorem C08_history (ops : List TlvOp) :
    ∃ w, run World.init (ops.map TlvOp.toOp) =
        .ok (w, (specRun Spec.init (ops.map TlvOp.toOp)).2) ∧
      Rep w (specRun Spec.init (ops.map TlvOp.toOp)).1 :=
  run_refines _ rep_init

/-- C08 from any well-formed state, one call at a time. -/
theorem C08_step {w : World Tlv} {s : Spec Tlv} (h : Rep w s) (op : TlvOp) :
    ∃ w', step w op.toOp = .ok (w', (specStep s op.toOp).2) ∧ Rep w' (specStep s op.toOp).1 :=
  step_refines h _

/-- The duplicate check answers whether some tag occurs at two positions. -/
theorem C08_hasDup_iff {w : World Tlv} {s : Spec Tlv} (h : Rep w s) (i : Nat) :
    ∃ b, hasDup w.mem (w.lists i) (fun t u => t.tag == u.tag) = .ok b ∧
      (b = true ↔ ∃ p q : Nat, p < q ∧ ∃ t u : Tlv, (s.seqs i)[p]? = some t ∧ (s.seqs i)[q]? = some u ∧
        t.tag = u.tag) := by
  obtain ⟨seg, hs, hi, hv, hh⟩ := h
  refine ⟨_, hasDup_spec (hi.lists i) hi.bounded _, ?_⟩
  rw [dupVals_iff, hv, decide_eq_true_eq, List.pairwise_iff_getElem]
  constructor
  · intro hn
    simp only [Classical.not_forall] at hn
    obtain ⟨p, q, hp, hq, hpq, hne⟩ := hn
    refine ⟨p, q, hpq, _, _, List.getElem?_eq_getElem hp, List.getElem?_eq_getElem hq, ?_⟩
    simpa using hne
  · intro ⟨p, q, hpq, t, u, hp, hq, he⟩ hall
    obtain ⟨hp1, hp2⟩ := List.getElem?_eq_some_iff.mp hp
    obtain ⟨hq1, hq2⟩ := List.getElem?_eq_some_iff.mp hq
    have := hall p q hp1 hq1 hpq
    rw [hp2, hq2] at this
    simp [he] at this

/-- Outside the property's precondition: appending a list to *itself* empties it and leaks
every node (all `next` pointers now form a cycle nobody points to). -/
theorem C08_self_append_loses {w : World Tlv} {s : Spec Tlv} (h : Rep w s) (i : Nat) :
    ∃ m', appendSelf w.mem (w.lists i) = .ok (m', Lst.init, 0) := by
  obtain ⟨seg, hs, hi, hv, hh⟩ := h
  unfold appendSelf
  rw [(hi.lists i).valid]
  simp only [Bool.not_true, Bool.false_eq_true, if_false]
  cases hb : (w.lists i).back with
  | none => exact ⟨w.mem, rfl⟩
  | some b =>
    have hbk := (hi.lists i).back
    rw [hb] at hbk
    have hmem := List.mem_of_getLast? hbk.symm
    cases hc : w.mem.cell b with
    | none => exact absurd hc (seg_ne_none (hi.lists i).chain hmem)
    | some n => obtain ⟨v, q⟩ := n; simp only [setNext_eq hc, bind_ok]; exact ⟨_, rfl⟩

/-- A concrete history: push two, duplicate check, append, find, pop, free. -/
example :
    (specRun Spec.init ([TlvOp.push 0 ⟨0x5A, 0, [1]⟩ true, .push 0 ⟨0x5A, 0, [2]⟩ true,
      .hasDup 0, .push 1 ⟨0x50, 0, []⟩ true, .append 1 0 (by decide), .find 1 0x5A, .isEmpty 0,
      .pop 1, .free 0].map TlvOp.toOp)).2 =
    [.code 0, .code 0, .bool true, .code 0, .code 0, .val (some ⟨0x5A, 0, [1]⟩), .bool true,
      .val (some ⟨0x50, 0, []⟩), .code 0] := by decide +kernel

/-! ## C34 -/

variable {α : Type}

/-- Sorting rank: priorities 1-15 ascending, "no priority" last. -/
def rank (p : Fin 16) : Nat := if p.val = 0 then 16 else p.val

theorem bySort_perm (prio : α → Fin 16) (xs : List α) : (bySort prio xs).Perm xs := by
  have h : ∀ (n k : Nat) (ys : List α),
      ((List.range' k n).flatMap (fun p => ys.filter (fun v => (prio v).val == p))).Perm
        (ys.filter (fun v => decide (k ≤ (prio v).val ∧ (prio v).val < k + n))) := by
    intro n
    induction n with
    | zero =>
      intro k ys
      have : ys.filter (fun v => decide (k ≤ (prio v).val ∧ (prio v).val < k + 0)) = [] := by
        rw [List.filter_eq_nil_iff]; intro a _; simp
      rw [this]; exact List.Perm.refl _
    | succ n ih =>
      intro k ys
      rw [List.range'_succ, List.flatMap_cons]
      refine List.Perm.trans (List.Perm.append_left _ (ih (k + 1) ys)) ?_
      have hsplit : ∀ zs : List α,
          (zs.filter (fun v => (prio v).val == k) ++
            zs.filter (fun v => decide (k + 1 ≤ (prio v).val ∧ (prio v).val < k + 1 + n))).Perm
          (zs.filter (fun v => decide (k ≤ (prio v).val ∧ (prio v).val < k + (n + 1)))) := by
        intro zs
        induction zs with
        | nil => exact List.Perm.refl _
        | cons z zs ihz =>
          by_cases h1 : (prio z).val = k
          · have h2 : decide (k + 1 ≤ (prio z).val ∧ (prio z).val < k + 1 + n) = false := by
              simp; omega
            have h3 : decide (k ≤ (prio z).val ∧ (prio z).val < k + (n + 1)) = true := by
              simp; omega
            simp only [List.filter_cons, h1, beq_self_eq_true, if_true, List.cons_append]
            rw [h1] at h2 h3
            simp only [h2, h3, Bool.false_eq_true, if_false, if_true]
            exact List.Perm.cons _ ihz
          · have h1' : ((prio z).val == k) = false := by simpa using h1
            by_cases h2 : k + 1 ≤ (prio z).val ∧ (prio z).val < k + 1 + n
            · have h3 : decide (k ≤ (prio z).val ∧ (prio z).val < k + (n + 1)) = true := by
                simp; omega
              simp only [List.filter_cons, h1', Bool.false_eq_true, if_false, h2,
                if_true, h3]
              simp only [true_and]
              exact List.Perm.trans List.perm_middle (List.Perm.cons _ ihz)
            · have h3 : decide (k ≤ (prio z).val ∧ (prio z).val < k + (n + 1)) = false := by
                simp; omega
              simp only [List.filter_cons, h1', Bool.false_eq_true, if_false, h2, decide_false, h3]
              exact ihz
      exact hsplit ys
  have h1 := h 15 1 xs
  unfold bySort
  refine List.Perm.trans (List.Perm.append h1 (List.reverse_perm _)) ?_
  have e1 : xs.filter (fun v => decide (1 ≤ (prio v).val ∧ (prio v).val < 1 + 15)) =
      xs.filter (fun v => !((prio v).val == 0)) := by
    apply List.filter_congr
    intro v _
    have := (prio v).isLt
    by_cases h0 : (prio v).val = 0
    · simp [h0]
    · have h0' : ((prio v).val == 0) = false := by simpa using h0
      rw [h0']; simp; omega
  rw [e1]
  exact List.Perm.trans List.perm_append_comm (List.filter_append_perm _ xs)

theorem pairwise_buckets (prio : α → Fin 16) (xs : List α) : ∀ (n k : Nat), 1 ≤ k → k + n ≤ 16 →
    (buckets prio (List.range' k n) xs).Pairwise (fun v w => (prio v).val ≤ (prio w).val) := by
  intro n
  induction n with
  | zero => intro k _ _; exact List.Pairwise.nil
  | succ n ih =>
    intro k hk hkn
    have e : buckets prio (List.range' k (n + 1)) xs =
        xs.filter (fun v => (prio v).val == k) ++ buckets prio (List.range' (k + 1) n) xs := by
      simp [buckets, List.range'_succ]
    rw [e, List.pairwise_append]
    refine ⟨?_, ih (k + 1) (by omega) (by omega), ?_⟩
    · have : ∀ (ys : List α), (∀ y ∈ ys, (prio y).val = k) →
          ys.Pairwise (fun v w => (prio v).val ≤ (prio w).val) := by
        intro ys
        induction ys with
        | nil => intro _; exact List.Pairwise.nil
        | cons y ys ihy =>
          intro h
          rw [List.pairwise_cons]
          refine ⟨fun z hz => ?_, ihy (fun z hz => h z (by simp [hz]))⟩
          rw [h y (by simp), h z (by simp [hz])]; exact Nat.le_refl _
      apply this
      intro y hy
      simpa using (List.mem_filter.mp hy).2
    · intro a ha b hb
      have h1 : (prio a).val = k := by simpa using (List.mem_filter.mp ha).2
      have h2 := (mem_buckets hb).1
      simp only [List.mem_range'_1] at h2
      omega

theorem bySort_sorted (prio : α → Fin 16) (xs : List α) :
    (bySort prio xs).Pairwise (fun v w => rank (prio v) ≤ rank (prio w)) := by
  unfold bySort
  change (buckets prio _ xs ++ _).Pairwise _
  rw [List.pairwise_append]
  refine ⟨?_, ?_, ?_⟩
  · have h := pairwise_buckets prio xs 15 1 (by omega) (by omega)
    refine List.Pairwise.imp_of_mem ?_ h
    intro a b ha hb hab
    have h1 := (mem_buckets ha).1
    have h2 := (mem_buckets hb).1
    simp only [List.mem_range'_1] at h1 h2
    simp only [rank]
    rw [if_neg (by omega), if_neg (by omega)]
    exact hab
  · have : ∀ ys : List α, (∀ y ∈ ys, (prio y).val = 0) →
        ys.Pairwise (fun v w => rank (prio v) ≤ rank (prio w)) := by
      intro ys
      induction ys with
      | nil => intro _; exact List.Pairwise.nil
      | cons y ys ihy =>
        intro h
        rw [List.pairwise_cons]
        refine ⟨fun z hz => ?_, ihy (fun z hz => h z (by simp [hz]))⟩
        simp [rank, h y (by simp), h z (by simp [hz])]
    apply this
    intro y hy
    simp at hy
    exact hy.2 ▸ rfl
  · intro a _ b hb
    simp at hb
    have := (prio a).isLt
    have hb0 : (prio b).val = 0 := hb.2 ▸ rfl
    simp only [rank, hb0, if_true]
    split <;> omega

theorem filter_bySort (prio : α → Fin 16) (xs : List α) (p : Nat) (hp : p ≠ 0) :
    (bySort prio xs).filter (fun v => (prio v).val == p) =
      xs.filter (fun v => (prio v).val == p) := by
  by_cases hlt : p < 16
  · have hr : List.range' 1 15 = List.range' 1 (p - 1) ++ p :: List.range' (p + 1) (15 - p) := by
      have h1 : List.range' 1 (p - 1) ++ List.range' (1 + 1 * (p - 1)) (16 - p) =
          List.range' 1 15 := by
        rw [List.range'_append]; congr 1; omega
      rw [← h1]
      congr 1
      have h2 : 16 - p = (15 - p) + 1 := by omega
      rw [h2, List.range'_succ]
      have h3 : 1 + 1 * (p - 1) = p := by omega
      rw [h3]
    have hnil : ∀ ps : List Nat, p ∉ ps →
        (buckets prio ps xs).filter (fun v => (prio v).val == p) = [] := by
      intro ps hps
      rw [List.filter_eq_nil_iff]
      intro a ha he
      have := (mem_buckets ha).1
      rw [beq_iff_eq] at he
      exact hps (he ▸ this)
    unfold bySort
    change (buckets prio _ xs ++ _).filter _ = _
    rw [hr]
    have e : buckets prio (List.range' 1 (p - 1) ++ p :: List.range' (p + 1) (15 - p)) xs =
        buckets prio (List.range' 1 (p - 1)) xs ++ (xs.filter (fun v => (prio v).val == p) ++
          buckets prio (List.range' (p + 1) (15 - p)) xs) := by
      simp [buckets, List.flatMap_append]
    rw [e]
    simp only [List.filter_append]
    rw [hnil _ (by simp; omega), hnil _ (by simp; omega)]
    have e2 : ((xs.filter (fun v => (prio v).val == 0)).reverse).filter
        (fun v => (prio v).val == p) = [] := by
      rw [List.filter_eq_nil_iff]
      intro a ha he
      simp at ha
      rw [beq_iff_eq] at he
      have : (prio a).val = 0 := ha.2 ▸ rfl
      omega
    rw [e2]
    simp
  · have : ∀ ys : List α, ys.filter (fun v => (prio v).val == p) = [] := by
      intro ys
      rw [List.filter_eq_nil_iff]
      intro a _ he
      rw [beq_iff_eq] at he
      have := (prio a).isLt
      omega
    rw [this, this]

theorem filter_bySort_zero (prio : α → Fin 16) (xs : List α) :
    (bySort prio xs).filter (fun v => (prio v).val == 0) =
      (xs.filter (fun v => (prio v).val == 0)).reverse := by
  unfold bySort
  change (buckets prio _ xs ++ _).filter _ = _
  rw [List.filter_append]
  have : (buckets prio (List.range' 1 15) xs).filter (fun v => (prio v).val == 0) = [] := by
    rw [List.filter_eq_nil_iff]
    intro a ha he
    have := (mem_buckets ha).1
    rw [beq_iff_eq] at he
    simp only [List.mem_range'_1] at this
    omega
  rw [this, List.nil_append, List.filter_reverse, List.filter_filter]
  simp

/-- **C34 (partial).** Sorting any candidate list succeeds and gives a permutation in
ascending priority with "no priority" last, in which applications of equal non-zero
priority keep their order.  Missing with respect to C34: the order of the applications
without priority is *reversed* (last conjunct), see `C34_zero_priority_unstable`. -/
theorem C34_sort_partial {w : World α} {s : Spec α} (h : Rep w s) (i : Nat)
    (prio : α → Fin 16) :
    ∃ w' out, step w (.sort i prio) = .ok (w', .code 0) ∧
      Rep w' ⟨upd s.seqs i out, s.held⟩ ∧
      out.Perm (s.seqs i) ∧
      out.Pairwise (fun v w => rank (prio v) ≤ rank (prio w)) ∧
      (∀ p, p ≠ 0 → out.filter (fun v => (prio v).val == p) =
        (s.seqs i).filter (fun v => (prio v).val == p)) ∧
      out.filter (fun v => (prio v).val == 0) =
        ((s.seqs i).filter (fun v => (prio v).val == 0)).reverse := by
  obtain ⟨w', h1, h2⟩ := step_refines h (.sort i prio)
  exact ⟨w', bySort prio (s.seqs i), h1, h2, bySort_perm _ _, bySort_sorted _ _,
    filter_bySort _ _, filter_bySort_zero _ _⟩

/-- **C34 is false of the code.** Two applications without priority indicator leave the
sort in the opposite order. -/
theorem C34_zero_priority_unstable :
    ∃ w w', run (World.init : World Nat) [.new 10, .push 0 0, .new 20, .push 0 0] =
        .ok (w, [.none, .code 0, .none, .code 0]) ∧
      run w [.sort 0 (fun _ => 0), .pop 0, .pop 0] =
        .ok (w', [.code 0, .val (some 20), .val (some 10)]) := by
  obtain ⟨w, h1, h2⟩ := run_refines [Op.new 10, .push 0 0, .new 20, .push 0 0] rep_init
  obtain ⟨w', h3, -⟩ := run_refines [Op.sort 0 (fun _ => 0), .pop 0, .pop 0] h2
  exact ⟨w, w', h1, h3⟩

example : bySort (fun v : Nat × Fin 16 => v.2) [(1, 0), (2, 3), (3, 1), (4, 3), (5, 0)] =
    [(3, 1), (2, 3), (4, 3), (5, 0), (1, 0)] := by decide +kernel

/-! ## C35 -/

/-- Calls on application lists (emv_app.h), including the two static helpers. -/
inductive AppOp (α : Type) where
  | new (v : α)
  | push (i k : Nat)
  | pushFront (i k : Nat)
  | insert (i n k : Nat)
  | pop (i : Nat)
  | remove (i n : Nat)
  | free (k : Nat)
  | clear (i : Nat)
  | isEmpty (i : Nat)
  | sort (i : Nat) (prio : α → Fin 16)
  | selReq (i : Nat) (conf : α → Bool)

def AppOp.toOp : AppOp α → Op α
  | .new v => .new v
  | .push i k => .push i k
  | .pushFront i k => .pushFront i k
  | .insert i n k => .insert i n k
  | .pop i => .pop i
  | .remove i n => .remove i n
  | .free k => .free k
  | .clear i => .clear i
  | .isEmpty i => .isEmpty i
  | .sort i prio => .sort i prio
  | .selReq i conf => .selReq i conf

/-- **C35 (history).** Every history of application list calls behaves like the same
history on sequences. -/
theorem C35_history (ops : List (AppOp α)) :
    ∃ w, run World.init (ops.map AppOp.toOp) =
        .ok (w, (specRun Spec.init (ops.map AppOp.toOp)).2) ∧
      Rep w (specRun Spec.init (ops.map AppOp.toOp)).1 :=
  run_refines _ rep_init

/-- **C35 (removal).** Removing index `n` returns the `n`-th application and leaves the
others in order; an index past the end changes nothing; either way a later push lands at
the end. -/
theorem C35_remove {w : World α} {s : Spec α} (h : Rep w s) (i n : Nat) :
    (∀ v, (s.seqs i)[n]? = some v → ∃ w', step w (.remove i n) = .ok (w', .val (some v)) ∧
      Rep w' ⟨upd s.seqs i ((s.seqs i).take n ++ (s.seqs i).drop (n + 1)), s.held ++ [v]⟩) ∧
    ((s.seqs i).length ≤ n → ∃ w', step w (.remove i n) = .ok (w', .val none) ∧ Rep w' s) := by
  obtain ⟨w', h1, h2⟩ := step_refines h (.remove i n)
  constructor
  · intro v hv
    simp only [specStep, hv] at h1 h2
    rw [List.eraseIdx_eq_take_drop_succ] at h2
    exact ⟨w', h1, h2⟩
  · intro hn
    have : (s.seqs i)[n]? = none := by rw [List.getElem?_eq_none_iff]; exact hn
    simp only [specStep, this] at h1 h2
    exact ⟨w', h1, h2⟩

theorem C35_push_after {w : World α} {s : Spec α} (h : Rep w s) (i k : Nat) (v : α)
    (hk : s.held[k]? = some v) :
    ∃ w', step w (.push i k) = .ok (w', .code 0) ∧
      Rep w' ⟨upd s.seqs i (s.seqs i ++ [v]), s.held.eraseIdx k⟩ := by
  obtain ⟨w', h1, h2⟩ := step_refines h (.push i k)
  simp only [specStep, hk] at h1 h2
  exact ⟨w', h1, h2⟩

/-- Three applications, remove the last, push a new one, remove past the end. -/
example : (specRun Spec.init ([AppOp.new 1, .push 0 0, .new 2, .push 0 0, .new 3, .push 0 0,
      .remove 0 2, .new 4, .push 0 1, .remove 0 7, .pop 0, .pop 0, .pop 0].map
      (AppOp.toOp (α := Nat)))).2 =
    [.none, .code 0, .none, .code 0, .none, .code 0, .val (some 3), .none, .code 0, .val none,
     .val (some 1), .val (some 2), .val (some 4)] := by decide +kernel

/-! ## C38 -/

/-- **C38.** Cardholder selection is required exactly when the candidate list has more than
one application, or its only application requires confirmation. -/
theorem C38_selection_required {w : World α} {s : Spec α} (h : Rep w s) (i : Nat)
    (conf : α → Bool) :
    ∃ b, step w (.selReq i conf) = .ok (w, .bool b) ∧
      (b = true ↔ 1 < (s.seqs i).length ∨ ∃ v, s.seqs i = [v] ∧ conf v = true) := by
  obtain ⟨seg, hs, hi, hv, hh⟩ := h
  refine ⟨_, by simp only [step, selectionRequired_spec (hi.lists i) hi.bounded, bind_ok]; rfl, ?_⟩
  have hlen : (seg i).length = (s.seqs i).length := by rw [← hv]; simp
  rw [hv, hlen]
  match hsq : s.seqs i with
  | [] => simp
  | [v] => simp
  | v :: u :: vs => simp

example : (specStep ⟨fun _ => [7], []⟩ (.selReq 0 (fun v : Nat => v == 7))).2 = .bool true := by
  decide

end Verif.LL
