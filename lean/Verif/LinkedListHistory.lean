import Verif.LinkedListLemmas

/-!
# Histories of list operations

A world with any number of list objects and a client holding the nodes it popped or
created; each operation calls the modelled functions.  The specification (`Spec`,
`specStep`) knows only mathematical sequences.
-/

set_option autoImplicit false

namespace Verif.LL
open Verif

variable {α : Type}

/-- Memory, list objects (indexed by number) and node pointers held by the client. -/
structure World (α : Type) where
  mem : Mem α
  lists : Nat → Lst
  held : List Nat

/-- Nothing allocated, all lists statically initialised. -/
def World.init : World α := ⟨⟨fun _ => none, 0⟩, fun _ => Lst.init, []⟩

/-- Client calls.  `k` selects a held node, `n` a position in a list. -/
inductive Op (α : Type) where
  | tlvPush (i : Nat) (v : α) (ok : Bool)
  | new (v : α)
  | push (i k : Nat)
  | pushFront (i k : Nat)
  | insert (i n k : Nat)
  | pop (i : Nat)
  | remove (i n : Nat)
  | free (k : Nat)
  | append (i j : Nat) (h : i ≠ j)
  | clear (i : Nat)
  | isEmpty (i : Nat)
  | find (i : Nat) (key : α → Bool)
  | hasDup (i : Nat) (same : α → α → Bool)
  | sort (i : Nat) (prio : α → Fin 16)
  | selReq (i : Nat) (conf : α → Bool)

/-- What the client observes. -/
inductive Out (α : Type) where
  | none
  | code (c : Int)
  | val (v : Option α)
  | bool (b : Bool)
  deriving DecidableEq, Repr

/-- Address of the `n`-th node (client walking `next` pointers). -/
def nth (m : Mem α) : Nat → Option Nat → C (Option Nat)
  | _, none => .ok none
  | 0, some a => .ok (some a)
  | n + 1, some a => do
    let nd ← m.get a
    nth m n nd.next

/-- Payload behind a possibly NULL pointer. -/
def derefOpt (m : Mem α) : Option Nat → C (Option α)
  | none => .ok none
  | some a => do
    let n ← m.get a
    .ok (some n.val)

/-- One client call on the concrete world. -/
def step (w : World α) : Op α → C (World α × Out α)
  | .tlvPush i v ok => do
    let (m, l, r) ← tlvPush w.mem (w.lists i) v ok
    .ok (⟨m, upd w.lists i l, w.held⟩, .code r)
  | .new v =>
    let (m, a) := w.mem.alloc v
    .ok (⟨m, w.lists, w.held ++ [a]⟩, .none)
  | .push i k =>
    match w.held[k]? with
    | none => .ok (w, .none)
    | some a => do
      let (m, l, r) ← push w.mem (w.lists i) a
      .ok (⟨m, upd w.lists i l, w.held.eraseIdx k⟩, .code r)
  | .pushFront i k =>
    match w.held[k]? with
    | none => .ok (w, .none)
    | some a => do
      let (m, l, r) ← pushFront w.mem (w.lists i) a
      .ok (⟨m, upd w.lists i l, w.held.eraseIdx k⟩, .code r)
  | .insert i n k =>
    match w.held[k]? with
    | none => .ok (w, .none)
    | some a => do
      match ← nth w.mem n (w.lists i).front with
      | none => .ok (w, .none)
      | some pos => do
        let (m, l, r) ← insert w.mem (w.lists i) pos a
        .ok (⟨m, upd w.lists i l, w.held.eraseIdx k⟩, .code r)
  | .pop i => do
    let (m, l, p) ← pop w.mem (w.lists i)
    let v ← derefOpt m p
    .ok (⟨m, upd w.lists i l, w.held ++ p.toList⟩, .val v)
  | .remove i n => do
    let (m, l, p) ← removeIndex w.mem (w.lists i) n
    let v ← derefOpt m p
    .ok (⟨m, upd w.lists i l, w.held ++ p.toList⟩, .val v)
  | .free k =>
    match w.held[k]? with
    | none => .ok (w, .none)
    | some a => do
      let (m, r) ← w.mem.free a
      .ok (⟨m, w.lists, w.held.eraseIdx k⟩, .code r)
  | .append i j _ => do
    let (m, l, o, r) ← append w.mem (w.lists i) (w.lists j)
    .ok (⟨m, upd (upd w.lists i l) j o, w.held⟩, .code r)
  | .clear i => do
    let (m, l) ← clear w.mem (w.lists i)
    .ok (⟨m, upd w.lists i l, w.held⟩, .none)
  | .isEmpty i => .ok (w, .bool (isEmpty (w.lists i)))
  | .find i key => do
    let p ← find w.mem (w.lists i) key
    let v ← derefOpt w.mem p
    .ok (w, .val v)
  | .hasDup i same => do
    let b ← hasDup w.mem (w.lists i) same
    .ok (w, .bool b)
  | .sort i prio => do
    let (m, l, r) ← sort w.mem (w.lists i) (fun v => (prio v).val)
    .ok (⟨m, upd w.lists i l, w.held⟩, .code r)
  | .selReq i conf => do
    let b ← selectionRequired w.mem (w.lists i) conf
    .ok (w, .bool b)

/-- A history of client calls. -/
def run : World α → List (Op α) → C (World α × List (Out α))
  | w, [] => .ok (w, [])
  | w, op :: ops => do
    let (w, o) ← step w op
    let (w, os) ← run w ops
    .ok (w, o :: os)

/-! ## Specification: sequences -/

/-- The lists as sequences, and the payloads held by the client. -/
structure Spec (α : Type) where
  seqs : Nat → List α
  held : List α

def Spec.init : Spec α := ⟨fun _ => [], []⟩

/-- Counting-sort order: priority 1 first, ..., 15, each class in original order; then
priority 0 in reverse order (what the code does; see C34). -/
def bySort (prio : α → Fin 16) (xs : List α) : List α :=
  ((List.range' 1 15).flatMap fun p => xs.filter (fun v => (prio v).val == p)) ++
    (xs.filter (fun v => (prio v).val == 0)).reverse

/-- One client call on sequences. -/
def specStep (s : Spec α) : Op α → Spec α × Out α
  | .tlvPush i v ok =>
    if ok then (⟨upd s.seqs i (s.seqs i ++ [v]), s.held⟩, .code 0) else (s, .code (-2))
  | .new v => (⟨s.seqs, s.held ++ [v]⟩, .none)
  | .push i k =>
    match s.held[k]? with
    | none => (s, .none)
    | some v => (⟨upd s.seqs i (s.seqs i ++ [v]), s.held.eraseIdx k⟩, .code 0)
  | .pushFront i k =>
    match s.held[k]? with
    | none => (s, .none)
    | some v => (⟨upd s.seqs i (v :: s.seqs i), s.held.eraseIdx k⟩, .code 0)
  | .insert i n k =>
    match s.held[k]? with
    | none => (s, .none)
    | some v =>
      if n < (s.seqs i).length then
        (⟨upd s.seqs i ((s.seqs i).take (n + 1) ++ v :: (s.seqs i).drop (n + 1)),
          s.held.eraseIdx k⟩, .code 0)
      else (s, .none)
  | .pop i =>
    match s.seqs i with
    | [] => (s, .val none)
    | v :: vs => (⟨upd s.seqs i vs, s.held ++ [v]⟩, .val (some v))
  | .remove i n =>
    match (s.seqs i)[n]? with
    | none => (s, .val none)
    | some v => (⟨upd s.seqs i ((s.seqs i).eraseIdx n), s.held ++ [v]⟩, .val (some v))
  | .free k =>
    match s.held[k]? with
    | none => (s, .none)
    | some _ => (⟨s.seqs, s.held.eraseIdx k⟩, .code 0)
  | .append i j _ =>
    (⟨upd (upd s.seqs i (s.seqs i ++ s.seqs j)) j [], s.held⟩, .code 0)
  | .clear i => (⟨upd s.seqs i [], s.held⟩, .none)
  | .isEmpty i => (s, .bool (s.seqs i).isEmpty)
  | .find i key => (s, .val ((s.seqs i).find? key))
  | .hasDup i same =>
    (s, .bool (decide ¬ (s.seqs i).Pairwise (fun v w => same v w = false)))
  | .sort i prio => (⟨upd s.seqs i (bySort prio (s.seqs i)), s.held⟩, .code 0)
  | .selReq i conf => (s, .bool ((s.seqs i).any conf || decide (1 < (s.seqs i).length)))

def specRun : Spec α → List (Op α) → Spec α × List (Out α)
  | s, [] => (s, [])
  | s, op :: ops =>
    let (s, o) := specStep s op
    let (s, os) := specRun s ops
    (s, o :: os)

/-! ## Invariant -/

/-- Well-formedness of the world, with the nodes of each list (`seg`) and the held nodes
(`hs`) made explicit: every list object is a proper list, lists share no node with each
other or with the client, held nodes are detached, and every allocated node is reachable
(no leak). -/
structure Inv (w : World α) (seg : Nat → List (Nat × α)) (hs : List (Nat × α)) : Prop where
  lists : ∀ i, IsList w.mem (w.lists i) (seg i)
  held : w.held = addrs hs
  detached : ∀ x ∈ hs, w.mem.cell x.1 = some ⟨x.2, none⟩
  heldNodup : (addrs hs).Nodup
  disj : ∀ i j, i ≠ j → ∀ a ∈ addrs (seg i), a ∉ addrs (seg j)
  heldDisj : ∀ i, ∀ a ∈ addrs (seg i), a ∉ addrs hs
  noLeak : ∀ a, w.mem.cell a ≠ none → a ∈ addrs hs ∨ ∃ i, a ∈ addrs (seg i)
  bounded : Bounded w.mem

/-- The world represents the sequences. -/
def Rep (w : World α) (s : Spec α) : Prop :=
  ∃ seg hs, Inv w seg hs ∧ (∀ i, vals (seg i) = s.seqs i) ∧ vals hs = s.held

theorem rep_init : Rep (World.init : World α) Spec.init :=
  ⟨fun _ => [], [], ⟨fun _ => IsList.init _, rfl, by simp, by simp, by simp, by simp,
    by simp [World.init], by simp [Bounded, World.init]⟩, fun _ => rfl, rfl⟩

theorem Inv.fresh_none {w : World α} {seg : Nat → List (Nat × α)} {hs : List (Nat × α)}
    (h : Inv w seg hs) : w.mem.cell w.mem.fresh = none := by
  cases hc : w.mem.cell w.mem.fresh with
  | none => rfl
  | some n => have := h.bounded w.mem.fresh (by simp [hc]); omega

theorem Inv.held_ne_none {w : World α} {seg : Nat → List (Nat × α)} {hs : List (Nat × α)}
    (h : Inv w seg hs) {a : Nat} (ha : a ∈ addrs hs) : w.mem.cell a ≠ none := by
  obtain ⟨x, hx, rfl⟩ := List.mem_map.mp ha
  simp [h.detached x hx]

/-- Updating one list and the held nodes. -/
theorem Inv.update {w : World α} {seg : Nat → List (Nat × α)} {hs : List (Nat × α)}
    (h : Inv w seg hs) (i : Nat) {m' : Mem α} {l' : Lst} {zs hs' : List (Nat × α)}
    (hl : IsList m' l' zs)
    (hcell : ∀ a, a ∉ addrs (seg i) → a ∉ addrs hs → a ≠ w.mem.fresh →
      m'.cell a = w.mem.cell a)
    (hdet : ∀ x ∈ hs', m'.cell x.1 = some ⟨x.2, none⟩)
    (hnd : (addrs hs').Nodup)
    (hdis : ∀ a ∈ addrs zs, a ∉ addrs hs')
    (hsrc : ∀ a, a ∈ addrs zs ∨ a ∈ addrs hs' →
      a ∈ addrs (seg i) ∨ a ∈ addrs hs ∨ a = w.mem.fresh)
    (hleak : ∀ a, a ∈ addrs (seg i) ∨ a ∈ addrs hs ∨ a = w.mem.fresh →
      m'.cell a ≠ none → a ∈ addrs zs ∨ a ∈ addrs hs')
    (hb : Bounded m') :
    Inv ⟨m', upd w.lists i l', addrs hs'⟩ (upd seg i zs) hs' := by
  have hother : ∀ j, j ≠ i → ∀ a ∈ addrs (seg j),
      a ∉ addrs (seg i) ∧ a ∉ addrs hs ∧ a ≠ w.mem.fresh := by
    intro j hj a ha
    refine ⟨h.disj j i hj a ha, h.heldDisj j a ha, ?_⟩
    intro he
    exact seg_ne_none (h.lists j).chain ha (he ▸ h.fresh_none)
  have hnot : ∀ j, j ≠ i → ∀ a ∈ addrs (seg j), a ∉ addrs zs ∧ a ∉ addrs hs' := by
    intro j hj a ha
    obtain ⟨h1, h2, h3⟩ := hother j hj a ha
    constructor
    · intro hz
      rcases hsrc a (Or.inl hz) with h' | h' | h'
      · exact h1 h'
      · exact h2 h'
      · exact h3 h'
    · intro hz
      rcases hsrc a (Or.inr hz) with h' | h' | h'
      · exact h1 h'
      · exact h2 h'
      · exact h3 h'
  refine ⟨?_, rfl, hdet, hnd, ?_, ?_, ?_, hb⟩
  · intro j
    by_cases hj : j = i
    · subst hj; simpa [upd_same] using hl
    · simp only [upd_other _ _ hj]
      apply (h.lists j).frame
      intro a ha
      obtain ⟨h1, h2, h3⟩ := hother j hj a ha
      exact hcell a h1 h2 h3
  · intro j k hjk a ha
    by_cases hj : j = i
    · subst hj
      rw [upd_same] at ha
      rw [upd_other _ _ (Ne.symm hjk)]
      intro hk
      exact (hnot k (Ne.symm hjk) a hk).1 ha
    · rw [upd_other _ _ hj] at ha
      by_cases hk : k = i
      · subst hk; rw [upd_same]; exact (hnot j hj a ha).1
      · rw [upd_other _ _ hk]; exact h.disj j k hjk a ha
  · intro j a ha
    by_cases hj : j = i
    · subst hj; rw [upd_same] at ha; exact hdis a ha
    · rw [upd_other _ _ hj] at ha; exact (hnot j hj a ha).2
  · intro a ha
    by_cases hF : a ∈ addrs (seg i) ∨ a ∈ addrs hs ∨ a = w.mem.fresh
    · rcases hleak a hF ha with h' | h'
      · exact Or.inr ⟨i, by rw [upd_same]; exact h'⟩
      · exact Or.inl h'
    · simp only [not_or] at hF
      simp only at ha
      rw [hcell a hF.1 hF.2.1 hF.2.2] at ha
      rcases h.noLeak a ha with h' | ⟨j, h'⟩
      · exact absurd h' hF.2.1
      · by_cases hj : j = i
        · subst hj; exact absurd h' hF.1
        · exact Or.inr ⟨j, by rw [upd_other _ _ hj]; exact h'⟩

theorem bounded_of_same {m m' : Mem α} {S : List Nat} (hb : Bounded m) (hs : SameOut m m' S)
    (hS : ∀ a ∈ S, m.cell a ≠ none) : Bounded m' := by
  intro a ha
  rw [hs.2]
  by_cases hm : a ∈ S
  · exact hb a (hS a hm)
  · rw [hs.1 a hm] at ha; exact hb a ha

theorem vals_upd {seg : Nat → List (Nat × α)} {seqs : Nat → List α}
    (h : ∀ i, vals (seg i) = seqs i) (i : Nat) {zs : List (Nat × α)} {vs : List α}
    (hz : vals zs = vs) : ∀ j, vals (upd seg i zs j) = upd seqs i vs j := by
  intro j
  by_cases hj : j = i
  · subst hj; simp [upd_same, hz]
  · simp [upd_other _ _ hj, h j]

/-- Taking a held node. -/
theorem held_split {hs : List (Nat × α)} {k : Nat} {v : α} (hk : (vals hs)[k]? = some v) :
    ∃ a pre post, hs = pre ++ (a, v) :: post ∧ (addrs hs)[k]? = some a ∧
      vals (pre ++ post) = (vals hs).eraseIdx k ∧ addrs (pre ++ post) = (addrs hs).eraseIdx k ∧
      pre.length = k := by
  have hlt : k < hs.length := by
    have := (List.getElem?_eq_some_iff.mp hk).1
    simpa using this
  have hget : (hs[k]'hlt).2 = v := by
    have := (List.getElem?_eq_some_iff.mp hk).2
    simpa [vals] using this
  refine ⟨(hs[k]'hlt).1, hs.take k, hs.drop (k + 1), ?_, ?_, ?_, ?_, ?_⟩
  · have : ((hs[k]'hlt).1, v) = hs[k]'hlt := by rw [← hget]
    rw [this, List.getElem_cons_drop, List.take_append_drop]
  · simp [addrs, hlt]
  · simp [vals, List.eraseIdx_eq_take_drop_succ]
  · simp [addrs, List.eraseIdx_eq_take_drop_succ]
  · simp; omega

theorem held_none {hs : List (Nat × α)} {k : Nat} (hk : (vals hs)[k]? = none) :
    (addrs hs)[k]? = none := by
  simpa [vals, addrs] using hk

theorem nth_spec (m : Mem α) : ∀ (xs : List (Nat × α)) (p : Option Nat) (n : Nat),
    Seg m.cell p xs none → nth m n p = .ok (addrs xs)[n]?
  | [], p, n, hc => by
    simp only [Seg] at hc; subst hc; cases n <;> simp [nth]
  | (a, v) :: xs, p, n, ⟨hp, r, hr, hc⟩ => by
    subst hp
    cases n with
    | zero => simp [nth]
    | succ n => simp [nth, get_eq hr, nth_spec m xs r n hc]

theorem derefOpt_some {m : Mem α} {a : Nat} {v : α} {q : Option Nat}
    (h : m.cell a = some ⟨v, q⟩) : derefOpt m (some a) = .ok (some v) := by
  simp [derefOpt, get_eq h]

theorem dupVals_iff (same : α → α → Bool) (vs : List α) :
    dupVals same vs = decide ¬ vs.Pairwise (fun v w => same v w = false) := by
  induction vs with
  | nil => simp [dupVals]
  | cons v vs ih =>
    simp only [dupVals, List.pairwise_cons, ih, decide_not]
    by_cases h1 : ∀ w ∈ vs, same v w = false
    · have : vs.any (same v) = false := by
        rw [List.any_eq_false]; intro w hw; simp [h1 w hw]
      simp only [this, Bool.false_or]
      congr 1
      simp only [decide_eq_decide]
      exact ⟨fun h => ⟨h1, h⟩, fun h => h.2⟩
    · have : vs.any (same v) = true := by
        rw [List.any_eq_true]
        simp only [Classical.not_forall] at h1
        obtain ⟨w, hw, hne⟩ := h1
        exact ⟨w, hw, by simpa using hne⟩
      simp only [this, Bool.true_or]
      symm
      simp only [Bool.not_eq_true', decide_eq_false_iff_not]
      exact fun h => h1 h.1

/-! ## Counting-sort order -/

theorem takeWhile_split {f : α → Bool} {A B : List α} (hA : ∀ a ∈ A, f a = true)
    (hB : ∀ b ∈ B, f b = false) :
    (A ++ B).takeWhile f = A ∧ (A ++ B).dropWhile f = B := by
  rw [List.takeWhile_append_of_pos (by simpa using hA), List.dropWhile_append_of_pos (by simpa using hA)]
  cases B with
  | nil => simp
  | cons b B => simp [hB b (by simp)]

/-- Elements of priority `p` for `p` in `ps`, by class. -/
def buckets (prio : α → Fin 16) (ps : List Nat) (xs : List α) : List α :=
  ps.flatMap fun p => xs.filter (fun v => (prio v).val == p)

theorem mem_buckets {prio : α → Fin 16} {ps : List Nat} {xs : List α} {v : α}
    (h : v ∈ buckets prio ps xs) : (prio v).val ∈ ps ∧ v ∈ xs := by
  simp only [buckets, List.mem_flatMap, List.mem_filter, beq_iff_eq] at h
  obtain ⟨p, hp, hv, he⟩ := h
  exact ⟨he ▸ hp, hv⟩

theorem buckets_snoc_notin {prio : α → Fin 16} {ps : List Nat} {xs : List α} {v : α}
    (h : (prio v).val ∉ ps) : buckets prio ps (xs ++ [v]) = buckets prio ps xs := by
  induction ps with
  | nil => rfl
  | cons p ps ih =>
    simp only [List.mem_cons, not_or] at h
    simp only [buckets, List.flatMap_cons] at ih ⊢
    rw [ih h.2]
    simp [List.filter_append, h.1]

theorem insertSeq_bySort (prio : α → Fin 16) (xs : List α) (v : α) :
    insertSeq (fun v => (prio v).val) v (bySort prio xs) = bySort prio (xs ++ [v]) := by
  have hlt := (prio v).isLt
  by_cases h0 : (prio v).val = 0
  · have hs := takeWhile_split (f := keep (fun v => (prio v).val) (prio v).val)
      (A := buckets prio (List.range' 1 15) xs)
      (B := (xs.filter (fun v => (prio v).val == 0)).reverse)
      (by
        intro a ha
        have := (mem_buckets ha).1
        simp only [List.mem_range'_1] at this
        simp [keep, h0]; omega)
      (by
        intro b hb
        simp at hb
        simp [keep, hb.2])
    unfold insertSeq
    change List.takeWhile _ (buckets prio _ xs ++ _) ++ _ :: List.dropWhile _ (buckets prio _ xs ++ _) = _
    rw [hs.1, hs.2]
    unfold bySort
    change _ = buckets prio _ (xs ++ [v]) ++ _
    rw [buckets_snoc_notin (by simp [h0])]
    simp [List.filter_append, h0]
  · generalize hp : (prio v).val = p at *
    have hr : List.range' 1 15 = List.range' 1 (p - 1) ++ p :: List.range' (p + 1) (15 - p) := by
      have h1 : List.range' 1 (p - 1) ++ List.range' (1 + 1 * (p - 1)) (16 - p) = List.range' 1 15 := by
        rw [List.range'_append]; congr 1; omega
      rw [← h1]
      congr 1
      have h2 : 16 - p = (15 - p) + 1 := by omega
      rw [h2, List.range'_succ]
      have h3 : 1 + 1 * (p - 1) = p := by omega
      rw [h3]
    have hb : ∀ ys, buckets prio (List.range' 1 15) ys =
        (buckets prio (List.range' 1 (p - 1)) ys ++ ys.filter (fun v => (prio v).val == p)) ++
          buckets prio (List.range' (p + 1) (15 - p)) ys := by
      intro ys; rw [hr]; simp [buckets, List.flatMap_append]
    have hs := takeWhile_split (f := keep (fun v => (prio v).val) p)
      (A := buckets prio (List.range' 1 (p - 1)) xs ++ xs.filter (fun v => (prio v).val == p))
      (B := buckets prio (List.range' (p + 1) (15 - p)) xs ++
        (xs.filter (fun v => (prio v).val == 0)).reverse)
      (by
        intro a ha
        rcases List.mem_append.mp ha with ha | ha
        · have := (mem_buckets ha).1
          simp only [List.mem_range'_1] at this
          simp [keep, h0]; omega
        · simp only [List.mem_filter, beq_iff_eq] at ha
          simp [keep, ha.2, h0])
      (by
        intro b hb
        rcases List.mem_append.mp hb with hb | hb
        · have := (mem_buckets hb).1
          simp only [List.mem_range'_1] at this
          simp [keep, h0]; omega
        · simp at hb
          simp [keep, hb.2])
    unfold insertSeq bySort
    change List.takeWhile _ (buckets prio _ xs ++ _) ++ _ :: List.dropWhile _ (buckets prio _ xs ++ _)
      = buckets prio _ (xs ++ [v]) ++ _
    simp only [hp]
    rw [hb xs, hb (xs ++ [v]), List.append_assoc (_ ++ _) (buckets _ _ xs), hs.1, hs.2]
    rw [buckets_snoc_notin (by simp [hp]; omega), buckets_snoc_notin (by simp [hp]; omega)]
    simp [List.filter_append, hp, h0]

theorem foldl_insertSeq (prio : α → Fin 16) (xs : List α) : ∀ ys,
    xs.foldl (fun acc v => insertSeq (fun v => (prio v).val) v acc) (bySort prio ys) =
      bySort prio (ys ++ xs) := by
  induction xs with
  | nil => intro ys; simp
  | cons x xs ih =>
    intro ys
    rw [List.foldl_cons, insertSeq_bySort, ih]
    simp

/-! ## Refinement -/

/-- A held node moves into list `i`. -/
theorem Inv.take {w : World α} {seg : Nat → List (Nat × α)} {pre post : List (Nat × α)}
    {a : Nat} {v : α} (hi : Inv w seg (pre ++ (a, v) :: post)) (i : Nat) {m' : Mem α} {l' : Lst}
    {zs : List (Nat × α)} (hl : IsList m' l' zs)
    (hz : ∀ b, b ∈ addrs zs ↔ b ∈ addrs (seg i) ∨ b = a)
    (hs : SameOut w.mem m' (a :: addrs (seg i))) :
    Inv ⟨m', upd w.lists i l', addrs (pre ++ post)⟩ (upd seg i zs) (pre ++ post) := by
  have hah : a ∈ addrs (pre ++ (a, v) :: post) := by simp
  have hn := hi.heldNodup
  simp only [addrs_append, addrs_cons, List.nodup_append, List.nodup_cons, List.mem_cons] at hn
  have hsub : ∀ b ∈ addrs (pre ++ post), b ∈ addrs (pre ++ (a, v) :: post) ∧ b ≠ a := by
    simp only [addrs_append, addrs_cons, List.mem_append, List.mem_cons]
    intro b hb
    rcases hb with hb | hb
    · exact ⟨Or.inl hb, fun hba => hn.2.2 b hb a (Or.inl rfl) hba⟩
    · exact ⟨Or.inr (Or.inr hb), fun hba => hn.2.1.1 (hba ▸ hb)⟩
  have hmem : ∀ b, b ∈ a :: addrs (seg i) → w.mem.cell b ≠ none := by
    intro b hb
    rcases List.mem_cons.mp hb with rfl | hb
    · exact hi.held_ne_none hah
    · exact seg_ne_none (hi.lists i).chain hb
  apply hi.update i hl
  · intro b hb hbh _
    apply hs.1 b
    simp only [List.mem_cons, not_or]
    exact ⟨fun he => hbh (he ▸ hah), hb⟩
  · intro x hx
    have hx' : x ∈ pre ++ (a, v) :: post := by
      rcases List.mem_append.mp hx with h | h <;> simp [h]
    rw [hs.1 x.1, hi.detached x hx']
    simp only [List.mem_cons, not_or]
    exact ⟨(hsub x.1 (mem_addrs hx)).2, fun hm => hi.heldDisj i _ hm (mem_addrs hx')⟩
  · simp only [addrs_append, List.nodup_append]
    exact ⟨hn.1, hn.2.1.2, fun x hx y hy => hn.2.2 x hx y (Or.inr hy)⟩
  · intro b hb hbm
    obtain ⟨hbs, hba⟩ := hsub b hbm
    rcases (hz b).mp hb with hb | hb
    · exact hi.heldDisj i b hb hbs
    · exact hba hb
  · intro b hb
    rcases hb with hb | hb
    · rcases (hz b).mp hb with hb | rfl
      · exact Or.inl hb
      · exact Or.inr (Or.inl hah)
    · exact Or.inr (Or.inl (hsub b hb).1)
  · intro b hb hbn
    rcases hb with hb | hb | rfl
    · exact Or.inl ((hz b).mpr (Or.inl hb))
    · simp only [addrs_append, addrs_cons, List.mem_append, List.mem_cons] at hb
      rcases hb with hb | hb | hb
      · exact Or.inr (by simp [hb])
      · exact Or.inl ((hz b).mpr (Or.inr hb))
      · exact Or.inr (by simp [hb])
    · exfalso
      rw [hs.1 _ (fun hm => hmem _ hm hi.fresh_none), hi.fresh_none] at hbn
      exact hbn rfl
  · exact bounded_of_same hi.bounded hs hmem

/-- A node of list `i` becomes held. -/
theorem Inv.give {w : World α} {seg : Nat → List (Nat × α)} {hs : List (Nat × α)}
    {a : Nat} {v : α} (hi : Inv w seg hs) (i : Nat) {m' : Mem α} {l' : Lst}
    {zs : List (Nat × α)} (hl : IsList m' l' zs)
    (hz : ∀ b, b ∈ addrs (seg i) ↔ b ∈ addrs zs ∨ b = a) (haz : a ∉ addrs zs)
    (hca : m'.cell a = some ⟨v, none⟩)
    (hsame : SameOut w.mem m' (addrs (seg i))) :
    Inv ⟨m', upd w.lists i l', addrs (hs ++ [(a, v)])⟩ (upd seg i zs) (hs ++ [(a, v)]) := by
  have hai : a ∈ addrs (seg i) := (hz a).mpr (Or.inr rfl)
  have hah : a ∉ addrs hs := hi.heldDisj i a hai
  apply hi.update i hl
  · intro b hb _ _
    exact hsame.1 b hb
  · intro x hx
    rcases List.mem_append.mp hx with hx | hx
    · rw [hsame.1 x.1 (fun hm => hi.heldDisj i _ hm (mem_addrs hx)), hi.detached x hx]
    · simp at hx; subst hx; exact hca
  · simp only [addrs_append, addrs_cons, addrs_nil, List.nodup_append]
    refine ⟨hi.heldNodup, by simp, ?_⟩
    intro b hb c hc he
    simp at hc; subst hc; subst he; exact hah hb
  · intro b hb
    simp only [addrs_append, addrs_cons, addrs_nil, List.mem_append, List.mem_singleton, not_or]
    exact ⟨hi.heldDisj i b ((hz b).mpr (Or.inl hb)), fun he => haz (he ▸ hb)⟩
  · intro b hb
    simp only [addrs_append, addrs_cons, addrs_nil, List.mem_append, List.mem_singleton] at hb
    rcases hb with hb | hb | rfl
    · exact Or.inl ((hz b).mpr (Or.inl hb))
    · exact Or.inr (Or.inl hb)
    · exact Or.inl hai
  · intro b hb hbn
    simp only [addrs_append, addrs_cons, addrs_nil, List.mem_append, List.mem_singleton]
    rcases hb with hb | hb | rfl
    · rcases (hz b).mp hb with h | h
      · exact Or.inl h
      · exact Or.inr (Or.inr h)
    · exact Or.inr (Or.inl hb)
    · exfalso
      rw [hsame.1 _ (fun hm => seg_ne_none (hi.lists i).chain hm hi.fresh_none),
        hi.fresh_none] at hbn
      exact hbn rfl
  · exact bounded_of_same hi.bounded hsame (fun b hb => seg_ne_none (hi.lists i).chain hb)

/-- List `i` is rearranged, possibly freeing nodes; held nodes untouched. -/
theorem Inv.rearrange {w : World α} {seg : Nat → List (Nat × α)} {hs : List (Nat × α)}
    (hi : Inv w seg hs) (i : Nat) {m' : Mem α} {l' : Lst}
    {zs : List (Nat × α)} (hl : IsList m' l' zs)
    (hz : ∀ b ∈ addrs zs, b ∈ addrs (seg i))
    (hfree : ∀ b ∈ addrs (seg i), b ∈ addrs zs ∨ m'.cell b = none)
    (hsame : SameOut w.mem m' (addrs (seg i))) :
    Inv ⟨m', upd w.lists i l', w.held⟩ (upd seg i zs) hs := by
  rw [hi.held]
  apply hi.update i hl
  · intro b hb _ _
    exact hsame.1 b hb
  · intro x hx
    rw [hsame.1 x.1 (fun hm => hi.heldDisj i _ hm (mem_addrs hx)), hi.detached x hx]
  · exact hi.heldNodup
  · intro b hb
    exact hi.heldDisj i b (hz b hb)
  · intro b hb
    rcases hb with hb | hb
    · exact Or.inl (hz b hb)
    · exact Or.inr (Or.inl hb)
  · intro b hb hbn
    rcases hb with hb | hb | rfl
    · rcases hfree b hb with h | h
      · exact Or.inl h
      · exact absurd h hbn
    · exact Or.inr hb
    · exfalso
      rw [hsame.1 _ (fun hm => seg_ne_none (hi.lists i).chain hm hi.fresh_none),
        hi.fresh_none] at hbn
      exact hbn rfl
  · exact bounded_of_same hi.bounded hsame (fun b hb => seg_ne_none (hi.lists i).chain hb)

theorem SameOut.mono {m m' : Mem α} {S T : List Nat} (h : SameOut m m' S)
    (hst : ∀ a ∈ S, a ∈ T) : SameOut m m' T :=
  ⟨fun a ha => h.1 a (fun hm => ha (hst a hm)), h.2⟩

theorem rep_step_tlvPush {w : World α} {s : Spec α} (h : Rep w s) (i : Nat) (v : α) (ok : Bool) :
    ∃ w', step w (.tlvPush i v ok) = .ok (w', (specStep s (.tlvPush i v ok)).2) ∧
      Rep w' (specStep s (.tlvPush i v ok)).1 := by
  obtain ⟨seg, hs, hi, hv, hh⟩ := h
  cases ok with
  | false =>
    refine ⟨⟨w.mem, upd w.lists i (w.lists i), w.held⟩, ?_, seg, hs, ?_, hv, hh⟩
    · simp [step, specStep, tlvPush, (hi.lists i).valid]
    · have : upd w.lists i (w.lists i) = w.lists := by
        funext j; unfold upd; split <;> simp_all
      rw [this]; exact hi
  | true =>
    obtain ⟨m', l', h1, h2, h3, h4⟩ := tlvPush_spec (hi.lists i) hi.bounded v
    refine ⟨⟨m', upd w.lists i l', w.held⟩, ?_, upd seg i (seg i ++ [(w.mem.fresh, v)]), hs, ?_,
      ?_, hh⟩
    · simp [step, specStep, h1]
    · rw [hi.held]
      have hfh : w.mem.fresh ∉ addrs hs := fun hm => hi.held_ne_none hm hi.fresh_none
      apply hi.update i h2
      · intro a ha _ hf
        exact h3 a (by simp [hf, ha])
      · intro x hx
        rw [h3 x.1, hi.detached x hx]
        simp only [List.mem_cons, not_or]
        refine ⟨?_, fun hm => hi.heldDisj i _ hm (mem_addrs hx)⟩
        intro he
        exact hfh (he ▸ mem_addrs hx)
      · exact hi.heldNodup
      · intro a ha
        simp only [addrs_append, addrs_cons, addrs_nil, List.mem_append, List.mem_singleton] at ha
        rcases ha with ha | rfl
        · exact hi.heldDisj i a ha
        · exact hfh
      · intro a ha
        simp only [addrs_append, addrs_cons, addrs_nil, List.mem_append, List.mem_singleton] at ha
        rcases ha with (ha | ha) | ha
        · exact Or.inl ha
        · exact Or.inr (Or.inr ha)
        · exact Or.inr (Or.inl ha)
      · intro a ha _
        simp only [addrs_append, addrs_cons, addrs_nil, List.mem_append, List.mem_singleton]
        rcases ha with ha | ha | ha
        · exact Or.inl (Or.inl ha)
        · exact Or.inr ha
        · exact Or.inl (Or.inr ha)
      · intro a ha
        rw [h4]
        by_cases hf : a = w.mem.fresh
        · omega
        · by_cases hm : a ∈ addrs (seg i)
          · have := hi.bounded a (seg_ne_none (hi.lists i).chain hm); omega
          · rw [h3 a (by simp [hf, hm])] at ha
            have := hi.bounded a ha; omega
    · exact vals_upd hv i (by simp [hv])

theorem rep_step_new {w : World α} {s : Spec α} (h : Rep w s) (v : α) :
    ∃ w', step w (.new v) = .ok (w', (specStep s (.new v)).2) ∧
      Rep w' (specStep s (.new v)).1 := by
  obtain ⟨seg, hs, hi, hv, hh⟩ := h
  refine ⟨_, rfl, seg, hs ++ [(w.mem.fresh, v)], ?_, hv, by simp [specStep, hh]⟩
  have hfh : w.mem.fresh ∉ addrs hs := fun hm => hi.held_ne_none hm hi.fresh_none
  have hfs : ∀ i, w.mem.fresh ∉ addrs (seg i) :=
    fun i hm => seg_ne_none (hi.lists i).chain hm hi.fresh_none
  refine ⟨?_, by simp [hi.held], ?_, ?_, hi.disj, ?_, ?_, ?_⟩
  · intro i
    refine (hi.lists i).frame ?_
    intro a ha
    refine upd_other _ _ ?_
    intro he
    exact hfs i (he ▸ ha)
  · intro x hx
    simp only
    rcases List.mem_append.mp hx with hx | hx
    · rw [upd_other]
      · exact hi.detached x hx
      · intro he
        exact hfh (he ▸ mem_addrs hx)
    · simp at hx; subst hx; simp [upd_same]
  · simp only [addrs_append, addrs_cons, addrs_nil, List.nodup_append]
    refine ⟨hi.heldNodup, by simp, ?_⟩
    intro a ha b hb he
    simp at hb; subst hb; subst he; exact hfh ha
  · intro i a ha
    simp only [addrs_append, addrs_cons, addrs_nil, List.mem_append, List.mem_singleton, not_or]
    refine ⟨hi.heldDisj i a ha, ?_⟩
    intro he
    exact hfs i (he ▸ ha)
  · intro a ha
    simp only at ha
    by_cases hf : a = w.mem.fresh
    · left; simp [hf]
    · rw [upd_other _ _ hf] at ha
      rcases hi.noLeak a ha with h' | h'
      · left; simp [h']
      · exact Or.inr h'
  · intro a ha
    simp only at ha ⊢
    by_cases hf : a = w.mem.fresh
    · omega
    · rw [upd_other _ _ hf] at ha
      have := hi.bounded a ha; omega

theorem rep_step_free {w : World α} {s : Spec α} (h : Rep w s) (k : Nat) :
    ∃ w', step w (.free k) = .ok (w', (specStep s (.free k)).2) ∧
      Rep w' (specStep s (.free k)).1 := by
  obtain ⟨seg, hs, hi, hv, hh⟩ := h
  cases hk : s.held[k]? with
  | none =>
    have hk' := held_none (hh ▸ hk)
    refine ⟨w, by simp [step, specStep, hk, hi.held, hk'], ?_⟩
    simp only [specStep, hk]
    exact ⟨seg, hs, hi, hv, hh⟩
  | some v =>
    rw [← hh] at hk
    obtain ⟨a, pre, post, he, hka, hve, hae, -⟩ := held_split hk
    rw [hh] at hk
    have hdet : w.mem.cell a = some ⟨v, none⟩ := hi.detached (a, v) (by simp [he])
    refine ⟨⟨{ w.mem with cell := upd w.mem.cell a none }, w.lists, w.held.eraseIdx k⟩, ?_, ?_⟩
    · simp [step, specStep, hk, hi.held, hka, free_spec hdet]
    · simp only [specStep, hk]
      refine ⟨seg, pre ++ post, ?_, hv, by rw [hve, hh]⟩
      rw [hi.held, ← hae]
      have hn := hi.heldNodup
      rw [he] at hn
      simp only [addrs_append, addrs_cons, List.nodup_append, List.nodup_cons, List.mem_cons] at hn
      have hah : a ∈ addrs hs := by rw [he]; simp
      have hsub : ∀ b ∈ addrs (pre ++ post), b ∈ addrs hs ∧ b ≠ a := by
        rw [he]
        simp only [addrs_append, addrs_cons, List.mem_append, List.mem_cons]
        intro b hb
        rcases hb with hb | hb
        · exact ⟨Or.inl hb, fun hba => hn.2.2 b hb a (Or.inl rfl) hba⟩
        · exact ⟨Or.inr (Or.inr hb), fun hba => hn.2.1.1 (hba ▸ hb)⟩
      refine ⟨?_, rfl, ?_, ?_, hi.disj, ?_, ?_, ?_⟩
      · intro i
        refine (hi.lists i).frame ?_
        intro b hb
        refine upd_other _ _ ?_
        intro heq
        exact hi.heldDisj i b hb (heq ▸ hah)
      · intro x hx
        have hx' : x ∈ hs := by
          rw [he]; rcases List.mem_append.mp hx with h | h <;> simp [h]
        simp only
        rw [upd_other _ _ (hsub x.1 (mem_addrs hx)).2]
        exact hi.detached x hx'
      · simp only [addrs_append, List.nodup_append]
        exact ⟨hn.1, hn.2.1.2, fun x hx y hy => hn.2.2 x hx y (Or.inr hy)⟩
      · intro i b hb hm
        exact hi.heldDisj i b hb (hsub b hm).1
      · intro b hb
        simp only at hb
        by_cases hba : b = a
        · subst hba; rw [upd_same] at hb; exact absurd rfl hb
        · rw [upd_other _ _ hba] at hb
          rcases hi.noLeak b hb with h' | h'
          · rw [he] at h'
            simp only [addrs_append, addrs_cons, List.mem_append, List.mem_cons] at h' ⊢
            rcases h' with h' | h' | h'
            · exact Or.inl (Or.inl h')
            · exact absurd h' hba
            · exact Or.inl (Or.inr h')
          · exact Or.inr h'
      · intro b hb
        simp only at hb ⊢
        by_cases hba : b = a
        · subst hba; rw [upd_same] at hb; exact absurd rfl hb
        · rw [upd_other _ _ hba] at hb; exact hi.bounded b hb

theorem rep_step_append {w : World α} {s : Spec α} (h : Rep w s) (i j : Nat) (hij : i ≠ j) :
    ∃ w', step w (.append i j hij) = .ok (w', (specStep s (.append i j hij)).2) ∧
      Rep w' (specStep s (.append i j hij)).1 := by
  obtain ⟨seg, hs, hi, hv, hh⟩ := h
  obtain ⟨m', l', h1, h2, h3⟩ := append_spec (hi.lists i) (hi.lists j) (hi.disj i j hij)
  refine ⟨⟨m', upd (upd w.lists i l') j Lst.init, w.held⟩, ?_,
    upd (upd seg i (seg i ++ seg j)) j [], hs, ?_, ?_, hh⟩
  · simp [step, specStep, h1]
  · have hsi : ∀ k, k ≠ i → ∀ a ∈ addrs (seg k), m'.cell a = w.mem.cell a :=
      fun k hk a ha => h3.1 a (hi.disj k i hk a ha)
    refine ⟨?_, hi.held, ?_, hi.heldNodup, ?_, ?_, ?_, ?_⟩
    · intro k
      by_cases hkj : k = j
      · subst hkj; simp only [upd_same]; exact IsList.init _
      · simp only [upd_other _ _ hkj]
        by_cases hki : k = i
        · subst hki; simpa [upd_same] using h2
        · simp only [upd_other _ _ hki]
          exact (hi.lists k).frame (hsi k hki)
    · intro x hx
      rw [h3.1 x.1 (fun hm => hi.heldDisj i _ hm (mem_addrs hx))]
      exact hi.detached x hx
    · intro k k' hkk a ha
      by_cases hkj : k = j
      · subst hkj; simp [upd_same] at ha
      · rw [upd_other _ _ hkj] at ha
        by_cases hkj' : k' = j
        · subst hkj'; simp [upd_same]
        · rw [upd_other _ _ hkj']
          by_cases hki : k = i
          · subst hki
            rw [upd_same] at ha
            rw [upd_other _ _ (Ne.symm hkk)]
            simp only [addrs_append, List.mem_append] at ha
            rcases ha with ha | ha
            · exact hi.disj k k' hkk a ha
            · exact hi.disj j k' (Ne.symm hkj') a ha
          · rw [upd_other _ _ hki] at ha
            by_cases hki' : k' = i
            · subst hki'
              rw [upd_same]
              simp only [addrs_append, List.mem_append, not_or]
              exact ⟨hi.disj k k' hkk a ha, hi.disj k j hkj a ha⟩
            · rw [upd_other _ _ hki']; exact hi.disj k k' hkk a ha
    · intro k a ha
      by_cases hkj : k = j
      · subst hkj; simp [upd_same] at ha
      · rw [upd_other _ _ hkj] at ha
        by_cases hki : k = i
        · subst hki
          rw [upd_same] at ha
          simp only [addrs_append, List.mem_append] at ha
          rcases ha with ha | ha
          · exact hi.heldDisj k a ha
          · exact hi.heldDisj j a ha
        · rw [upd_other _ _ hki] at ha; exact hi.heldDisj k a ha
    · intro a ha
      have hne : w.mem.cell a ≠ none := by
        by_cases hm : a ∈ addrs (seg i)
        · exact seg_ne_none (hi.lists i).chain hm
        · simp only at ha; rw [h3.1 a hm] at ha; exact ha
      rcases hi.noLeak a hne with h' | ⟨k, h'⟩
      · exact Or.inl h'
      · right
        by_cases hk : k = i ∨ k = j
        · refine ⟨i, ?_⟩
          rw [upd_other _ _ hij, upd_same]
          simp only [addrs_append, List.mem_append]
          rcases hk with rfl | rfl
          · exact Or.inl h'
          · exact Or.inr h'
        · simp only [not_or] at hk
          exact ⟨k, by rw [upd_other _ _ hk.2, upd_other _ _ hk.1]; exact h'⟩
    · exact bounded_of_same hi.bounded h3 (fun b hb => seg_ne_none (hi.lists i).chain hb)
  · intro k
    simp only [specStep]
    by_cases hkj : k = j
    · subst hkj; simp [upd_same]
    · rw [upd_other _ _ hkj, upd_other _ _ hkj]
      by_cases hki : k = i
      · subst hki; simp [upd_same, hv]
      · rw [upd_other _ _ hki, upd_other _ _ hki]; exact hv k

/-- Every operation behaves as on sequences. -/
theorem step_refines {w : World α} {s : Spec α} (h : Rep w s) (op : Op α) :
    ∃ w', step w op = .ok (w', (specStep s op).2) ∧ Rep w' (specStep s op).1 := by
  cases op with
  | tlvPush i v ok => exact rep_step_tlvPush h i v ok
  | new v => exact rep_step_new h v
  | free k => exact rep_step_free h k
  | append i j hij => exact rep_step_append h i j hij
  | push i k =>
    obtain ⟨seg, hs, hi, hv, hh⟩ := h
    cases hk : s.held[k]? with
    | none =>
      have hk' := held_none (hh ▸ hk)
      refine ⟨w, by simp [step, specStep, hk, hi.held, hk'], ?_⟩
      simp only [specStep, hk]
      exact ⟨seg, hs, hi, hv, hh⟩
    | some v =>
      rw [← hh] at hk
      obtain ⟨a, pre, post, he, hka, hve, hae, -⟩ := held_split hk
      rw [hh] at hk
      have hdet : w.mem.cell a = some ⟨v, none⟩ := hi.detached (a, v) (by simp [he])
      have hai : a ∉ addrs (seg i) := fun hm => hi.heldDisj i a hm (by simp [he])
      obtain ⟨m', l', h1, h2, h3⟩ := push_spec (hi.lists i) hdet hai
      refine ⟨⟨m', upd w.lists i l', w.held.eraseIdx k⟩, ?_, ?_⟩
      · simp [step, specStep, hk, hi.held, hka, h1]
      · simp only [specStep, hk]
        refine ⟨upd seg i (seg i ++ [(a, v)]), pre ++ post, ?_, vals_upd hv i (by simp [hv]),
          by rw [hve, hh]⟩
        rw [hi.held, ← hae]
        subst he
        exact hi.take i h2 (by simp) (h3.mono (fun b hb => by simp [hb]))
  | pushFront i k =>
    obtain ⟨seg, hs, hi, hv, hh⟩ := h
    cases hk : s.held[k]? with
    | none =>
      have hk' := held_none (hh ▸ hk)
      refine ⟨w, by simp [step, specStep, hk, hi.held, hk'], ?_⟩
      simp only [specStep, hk]
      exact ⟨seg, hs, hi, hv, hh⟩
    | some v =>
      rw [← hh] at hk
      obtain ⟨a, pre, post, he, hka, hve, hae, -⟩ := held_split hk
      rw [hh] at hk
      have hdet : w.mem.cell a = some ⟨v, none⟩ := hi.detached (a, v) (by simp [he])
      have hai : a ∉ addrs (seg i) := fun hm => hi.heldDisj i a hm (by simp [he])
      obtain ⟨m', l', h1, h2, h3⟩ := pushFront_spec (hi.lists i) hdet hai
      refine ⟨⟨m', upd w.lists i l', w.held.eraseIdx k⟩, ?_, ?_⟩
      · simp [step, specStep, hk, hi.held, hka, h1]
      · simp only [specStep, hk]
        refine ⟨upd seg i ((a, v) :: seg i), pre ++ post, ?_, vals_upd hv i (by simp [hv]),
          by rw [hve, hh]⟩
        rw [hi.held, ← hae]
        subst he
        exact hi.take i h2 (by intro b; simp [or_comm]) h3
  | insert i n k =>
    obtain ⟨seg, hs, hi, hv, hh⟩ := h
    cases hk : s.held[k]? with
    | none =>
      have hk' := held_none (hh ▸ hk)
      refine ⟨w, by simp [step, specStep, hk, hi.held, hk'], ?_⟩
      simp only [specStep, hk]
      exact ⟨seg, hs, hi, hv, hh⟩
    | some v =>
      rw [← hh] at hk
      obtain ⟨a, pre, post, he, hka, hve, hae, -⟩ := held_split hk
      rw [hh] at hk
      have hdet : w.mem.cell a = some ⟨v, none⟩ := hi.detached (a, v) (by simp [he])
      have hai : a ∉ addrs (seg i) := fun hm => hi.heldDisj i a hm (by simp [he])
      have hnth := nth_spec w.mem (seg i) (w.lists i).front n (hi.lists i).chain
      by_cases hn : n < (s.seqs i).length
      · have hn' : n < (vals (seg i)).length := by rw [hv]; exact hn
        obtain ⟨p, pr, po, hep, hpa, -, -, hpl⟩ :=
          held_split (List.getElem?_eq_getElem hn' : (vals (seg i))[n]? = _)
        generalize (vals (seg i))[n] = pv at hep
        have hli := hi.lists i
        have hai2 := hai
        rw [hep] at hli hai2
        obtain ⟨m', l', h1, h2, h3⟩ := insert_spec hli hdet hai2
        refine ⟨⟨m', upd w.lists i l', w.held.eraseIdx k⟩, ?_, ?_⟩
        · simp [step, specStep, hk, hi.held, hka, hnth, hpa, h1, hn]
        · simp only [specStep, hk, hn, if_true]
          refine ⟨upd seg i (pr ++ (p, pv) :: (a, v) :: po), pre ++ post, ?_,
            vals_upd hv i ?_, by rw [hve, hh]⟩
          · rw [hi.held, ← hae]
            subst he
            refine hi.take i h2 ?_ (by rw [hep]; exact h3)
            intro b
            rw [hep]
            simp only [addrs_append, addrs_cons, List.mem_append, List.mem_cons]
            constructor
            · rintro (h | h | h | h)
              · exact Or.inl (Or.inl h)
              · exact Or.inl (Or.inr (Or.inl h))
              · exact Or.inr h
              · exact Or.inl (Or.inr (Or.inr h))
            · rintro ((h | h | h) | h)
              · exact Or.inl h
              · exact Or.inr (Or.inl h)
              · exact Or.inr (Or.inr (Or.inr h))
              · exact Or.inr (Or.inr (Or.inl h))
          · rw [← hv i, hep]
            have e1 : vals (pr ++ (p, pv) :: po) = (vals pr ++ [pv]) ++ vals po := by simp
            have e2 : n + 1 = (vals pr ++ [pv]).length := by simp [hpl]
            rw [e1, e2, List.take_left, List.drop_left]
            simp
      · have hno : (addrs (seg i))[n]? = none := by
          rw [List.getElem?_eq_none_iff]
          have : (vals (seg i)).length = (s.seqs i).length := by rw [hv]
          simp at this ⊢; omega
        refine ⟨w, by simp [step, specStep, hk, hi.held, hka, hnth, hno, hn], ?_⟩
        simp only [specStep, hk, hn, if_false]
        exact ⟨seg, hs, hi, hv, hh⟩
  | pop i =>
    obtain ⟨seg, hs, hi, hv, hh⟩ := h
    have hli := hi.lists i
    cases hsg : seg i with
    | nil =>
      have hsi : s.seqs i = [] := by rw [← hv, hsg]; rfl
      rw [hsg] at hli
      refine ⟨⟨w.mem, upd w.lists i (w.lists i), w.held⟩, ?_, ?_⟩
      · simp [step, specStep, pop_nil hli, derefOpt, hsi]
      · have : upd w.lists i (w.lists i) = w.lists := by
          funext j; unfold upd; split <;> simp_all
        rw [this]
        simp only [specStep, hsi]
        exact ⟨seg, hs, hi, hv, hh⟩
    | cons x xs =>
      obtain ⟨a, v⟩ := x
      have hsi : s.seqs i = v :: vals xs := by rw [← hv, hsg]; rfl
      rw [hsg] at hli
      obtain ⟨m', l', h1, h2, h3, h4⟩ := pop_cons hli
      refine ⟨⟨m', upd w.lists i l', w.held ++ [a]⟩, ?_, ?_⟩
      · simp [step, specStep, h1, derefOpt_some h3, hsi]
      · simp only [specStep, hsi]
        refine ⟨upd seg i xs, hs ++ [(a, v)], ?_, vals_upd hv i rfl, by simp [hh]⟩
        have hnd := hli.nodup
        simp only [addrs_cons, List.nodup_cons] at hnd
        have e : w.held ++ [a] = addrs (hs ++ [(a, v)]) := by simp [hi.held]
        rw [e]
        exact hi.give i h2 (by intro b; simp [hsg, or_comm]) hnd.1 h3
          (h4.mono (by intro b hb; simp at hb; simp [hsg, hb]))
  | remove i n =>
    obtain ⟨seg, hs, hi, hv, hh⟩ := h
    cases hn : (s.seqs i)[n]? with
    | none =>
      have hlen : (seg i).length ≤ n := by
        rw [← hv, List.getElem?_eq_none_iff] at hn; simpa using hn
      refine ⟨⟨w.mem, upd w.lists i (w.lists i), w.held⟩, ?_, ?_⟩
      · simp [step, specStep, removeIndex_past (hi.lists i) hi.bounded hlen, derefOpt, hn]
      · have : upd w.lists i (w.lists i) = w.lists := by
          funext j; unfold upd; split <;> simp_all
        rw [this]
        simp only [specStep, hn]
        exact ⟨seg, hs, hi, hv, hh⟩
    | some v =>
      obtain ⟨a, pr, po, hep, hpa, hve, -, hpl⟩ := held_split (hv i ▸ hn : (vals (seg i))[n]? = some v)
      have hli := hi.lists i
      rw [hep] at hli
      obtain ⟨m', l', h1, h2, h3, h4⟩ := removeIndex_spec hli hi.bounded
      rw [hpl] at h1
      refine ⟨⟨m', upd w.lists i l', w.held ++ [a]⟩, ?_, ?_⟩
      · simp [step, specStep, h1, derefOpt_some h3, hn]
      · simp only [specStep, hn]
        refine ⟨upd seg i (pr ++ po), hs ++ [(a, v)], ?_, vals_upd hv i (by rw [hve, hv]),
          by simp [hh]⟩
        have hnd := hli.nodup
        simp only [addrs_append, addrs_cons, List.nodup_append, List.nodup_cons,
          List.mem_cons] at hnd
        have e : w.held ++ [a] = addrs (hs ++ [(a, v)]) := by simp [hi.held]
        rw [e]
        refine hi.give i h2 ?_ ?_ h3 (by rw [hep]; exact h4)
        · intro b
          rw [hep]
          simp only [addrs_append, addrs_cons, List.mem_append, List.mem_cons]
          constructor
          · rintro (h | h | h)
            · exact Or.inl (Or.inl h)
            · exact Or.inr h
            · exact Or.inl (Or.inr h)
          · rintro ((h | h) | h)
            · exact Or.inl h
            · exact Or.inr (Or.inr h)
            · exact Or.inr (Or.inl h)
        · simp only [addrs_append, List.mem_append, not_or]
          exact ⟨fun hm => hnd.2.2 a hm a (Or.inl rfl) rfl, hnd.2.1.1⟩
  | clear i =>
    obtain ⟨seg, hs, hi, hv, hh⟩ := h
    obtain ⟨m', l', h1, h2, h3, h4⟩ := clear_spec (hi.lists i) hi.bounded
    refine ⟨⟨m', upd w.lists i l', w.held⟩, by simp [step, specStep, h1], upd seg i [], hs, ?_,
      vals_upd hv i rfl, hh⟩
    exact hi.rearrange i h2 (by simp) (fun b hb => Or.inr (h3 b hb)) h4
  | isEmpty i =>
    obtain ⟨seg, hs, hi, hv, hh⟩ := h
    refine ⟨w, ?_, seg, hs, hi, hv, hh⟩
    simp only [step, specStep, isEmpty_spec (hi.lists i), ← hv]
    congr 3
    cases seg i <;> rfl
  | find i key =>
    obtain ⟨seg, hs, hi, hv, hh⟩ := h
    refine ⟨w, ?_, seg, hs, hi, hv, hh⟩
    simp only [step, specStep, find_spec (hi.lists i) hi.bounded, bind_ok]
    have e : (s.seqs i).find? key = ((seg i).find? (fun x => key x.2)).map Prod.snd := by
      rw [← hv, vals, List.find?_map]; rfl
    rw [e]
    cases hf : (seg i).find? (fun x => key x.2) with
    | none => rfl
    | some x =>
      obtain ⟨q, hq⟩ := seg_mem _ _ (hi.lists i).chain x (List.mem_of_find?_eq_some hf)
      simp [derefOpt_some hq]
  | hasDup i same =>
    obtain ⟨seg, hs, hi, hv, hh⟩ := h
    refine ⟨w, ?_, seg, hs, hi, hv, hh⟩
    simp only [step, specStep, hasDup_spec (hi.lists i) hi.bounded, bind_ok, dupVals_iff, hv]
  | sort i prio =>
    obtain ⟨seg, hs, hi, hv, hh⟩ := h
    obtain ⟨m', l', zs, h1, h2, h3, h4, h5⟩ :=
      sort_spec (fun v => (prio v).val) (hi.lists i) hi.bounded
    refine ⟨⟨m', upd w.lists i l', w.held⟩, by simp [step, specStep, h1], upd seg i zs, hs, ?_,
      vals_upd hv i ?_, hh⟩
    · exact hi.rearrange i h2 (fun b hb => (h4 b).mp hb) (fun b hb => Or.inl ((h4 b).mpr hb)) h5
    · rw [h3, hv]
      have := foldl_insertSeq prio (s.seqs i) []
      rw [show bySort prio [] = [] from rfl, List.nil_append] at this
      exact this
  | selReq i conf =>
    obtain ⟨seg, hs, hi, hv, hh⟩ := h
    refine ⟨w, ?_, seg, hs, hi, hv, hh⟩
    have : (seg i).length = (s.seqs i).length := by rw [← hv]; simp
    simp only [step, specStep, selectionRequired_spec (hi.lists i) hi.bounded, bind_ok, hv, this]

theorem run_refines : ∀ (ops : List (Op α)) {w : World α} {s : Spec α}, Rep w s →
    ∃ w', run w ops = .ok (w', (specRun s ops).2) ∧ Rep w' (specRun s ops).1
  | [], w, s, h => ⟨w, rfl, h⟩
  | op :: ops, w, s, h => by
    obtain ⟨w1, h1, h2⟩ := step_refines h op
    obtain ⟨w2, h3, h4⟩ := run_refines ops h2
    refine ⟨w2, ?_, h4⟩
    simp [run, h1, h3, specRun]

end Verif.LL
