import Verif.LinkedList

/-! # Linked lists: what one heap-allocated list denotes, and each operation's effect -/

set_option autoImplicit false

namespace Verif.LL
open Verif

variable {α : Type}

/-- From pointer `p` the `next` pointers spell exactly the nodes `xs` (address and
payload) and then reach `q`. -/
def Seg (h : Nat → Option (Node α)) : Option Nat → List (Nat × α) → Option Nat → Prop
  | p, [], q => p = q
  | p, (a, v) :: xs, q => p = some a ∧ ∃ r, h a = some ⟨v, r⟩ ∧ Seg h r xs q

/-- Addresses of a node sequence. -/
def addrs (xs : List (Nat × α)) : List Nat := xs.map Prod.fst

/-- Payloads of a node sequence. -/
def vals (xs : List (Nat × α)) : List α := xs.map Prod.snd

/-- The list object `l` holds exactly the nodes `xs`: `front` starts the chain, which ends
with NULL, `back` is its last node, and no node occurs twice. -/
structure IsList (m : Mem α) (l : Lst) (xs : List (Nat × α)) : Prop where
  chain : Seg m.cell l.front xs none
  back : l.back = (addrs xs).getLast?
  nodup : (addrs xs).Nodup

/-- Nothing changed outside the addresses `S`. -/
def SameOut (m m' : Mem α) (S : List Nat) : Prop :=
  (∀ a, a ∉ S → m'.cell a = m.cell a) ∧ m'.fresh = m.fresh

/-- Every allocated address has been handed out. -/
def Bounded (m : Mem α) : Prop := ∀ a, m.cell a ≠ none → a < m.fresh

@[simp] theorem addrs_nil : addrs ([] : List (Nat × α)) = [] := rfl
@[simp] theorem addrs_cons (x : Nat × α) (xs) : addrs (x :: xs) = x.1 :: addrs xs := rfl
@[simp] theorem addrs_append (xs ys : List (Nat × α)) : addrs (xs ++ ys) = addrs xs ++ addrs ys := by
  simp [addrs]
@[simp] theorem vals_nil : vals ([] : List (Nat × α)) = [] := rfl
@[simp] theorem vals_cons (x : Nat × α) (xs) : vals (x :: xs) = x.2 :: vals xs := rfl
@[simp] theorem vals_append (xs ys : List (Nat × α)) : vals (xs ++ ys) = vals xs ++ vals ys := by
  simp [vals]
@[simp] theorem vals_length (xs : List (Nat × α)) : (vals xs).length = xs.length := by simp [vals]
@[simp] theorem addrs_length (xs : List (Nat × α)) : (addrs xs).length = xs.length := by simp [addrs]

theorem mem_addrs {x : Nat × α} {xs : List (Nat × α)} (h : x ∈ xs) : x.1 ∈ addrs xs :=
  List.mem_map_of_mem h

theorem upd_same {β : Type} (f : Nat → β) (a : Nat) (b : β) : upd f a b a = b := by simp [upd]
theorem upd_other {β : Type} (f : Nat → β) {a x : Nat} (b : β) (h : x ≠ a) :
    upd f a b x = f x := by simp [upd, h]

theorem get_eq {m : Mem α} {a : Nat} {n : Node α} (h : m.cell a = some n) : m.get a = .ok n := by
  simp [Mem.get, h]

theorem setNext_eq {m : Mem α} {a : Nat} {v : α} {r : Option Nat} (h : m.cell a = some ⟨v, r⟩)
    (q : Option Nat) :
    m.setNext a q = .ok { m with cell := upd m.cell a (some ⟨v, q⟩) } := by
  simp [Mem.setNext, get_eq h]

theorem seg_frame {h h' : Nat → Option (Node α)} {q : Option Nat} :
    ∀ (xs : List (Nat × α)) (p : Option Nat),
    (∀ a ∈ addrs xs, h' a = h a) → Seg h p xs q → Seg h' p xs q
  | [], p, _, hc => hc
  | (a, v) :: xs, p, hs, ⟨hp, r, hr, hc⟩ =>
    ⟨hp, r, by rw [hs a (by simp)]; exact hr, seg_frame xs r (fun b hb => hs b (by simp [hb])) hc⟩

theorem seg_append {h : Nat → Option (Node α)} {q : Option Nat} :
    ∀ (xs ys : List (Nat × α)) (p : Option Nat),
    Seg h p (xs ++ ys) q ↔ ∃ r, Seg h p xs r ∧ Seg h r ys q
  | [], ys, p => by simp [Seg]
  | (a, v) :: xs, ys, p => by
    simp only [List.cons_append, Seg]
    constructor
    · intro ⟨hp, r, hr, hc⟩
      obtain ⟨s, h1, h2⟩ := (seg_append xs ys r).mp hc
      exact ⟨s, ⟨hp, r, hr, h1⟩, h2⟩
    · intro ⟨s, ⟨hp, r, hr, h1⟩, h2⟩
      exact ⟨hp, r, hr, (seg_append xs ys r).mpr ⟨s, h1, h2⟩⟩

theorem IsList.frame {m m' : Mem α} {l : Lst} {xs : List (Nat × α)} (h : IsList m l xs)
    (hs : ∀ a ∈ addrs xs, m'.cell a = m.cell a) : IsList m' l xs :=
  ⟨seg_frame xs _ hs h.chain, h.back, h.nodup⟩

theorem IsList.init (m : Mem α) : IsList m Lst.init [] := ⟨rfl, rfl, by simp⟩

theorem IsList.valid {m : Mem α} {l : Lst} {xs : List (Nat × α)} (h : IsList m l xs) :
    l.valid = true := by
  have hb := h.back
  have hc := h.chain
  cases xs with
  | nil => simp only [Seg] at hc; simp [Lst.valid, hc, hb]
  | cons x xs =>
    obtain ⟨a, v⟩ := x
    simp only [Seg] at hc
    simp [Lst.valid, hc.1, hb]

theorem seg_mem {h : Nat → Option (Node α)} {q : Option Nat} :
    ∀ (xs : List (Nat × α)) (p : Option Nat),
    Seg h p xs q → ∀ x ∈ xs, ∃ r, h x.1 = some ⟨x.2, r⟩
  | [], _, _, x, hx => by simp at hx
  | (a, v) :: xs, p, ⟨_, r, hr, hc⟩, x, hx => by
    rcases List.mem_cons.mp hx with rfl | hx
    · exact ⟨r, hr⟩
    · exact seg_mem xs r hc x hx

theorem seg_ne_none {h : Nat → Option (Node α)} {xs : List (Nat × α)} {p q : Option Nat}
    (hc : Seg h p xs q) {a : Nat} (ha : a ∈ addrs xs) : h a ≠ none := by
  obtain ⟨x, hx, rfl⟩ := List.mem_map.mp ha
  obtain ⟨r, hr⟩ := seg_mem xs p hc x hx
  simp [hr]

theorem nodup_length_le : ∀ (n : Nat) (l : List Nat), l.Nodup → (∀ x ∈ l, x < n) → l.length ≤ n
  | 0, l, _, h => by
    cases l with
    | nil => simp
    | cons a l => have := h a (by simp); omega
  | n + 1, l, hn, h => by
    have h1 : (l.erase n).Nodup := hn.erase n
    have h2 : ∀ x ∈ l.erase n, x < n := by
      intro x hx
      have h3 := h x (List.mem_of_mem_erase hx)
      have h4 : x ≠ n := by
        intro he
        subst he
        exact hn.not_mem_erase hx
      omega
    have h5 := nodup_length_le n _ h1 h2
    have h6 : l.length ≤ (l.erase n).length + 1 := by
      rw [List.length_erase]; split <;> omega
    omega

theorem IsList.length_le {m : Mem α} {l : Lst} {xs : List (Nat × α)} (h : IsList m l xs)
    (hb : Bounded m) : xs.length ≤ m.fresh := by
  have := nodup_length_le m.fresh (addrs xs) h.nodup
    (fun a ha => hb a (seg_ne_none h.chain ha))
  simpa using this

theorem getLast?_cons_or (b : Nat) (l : List Nat) (prev : Option Nat) :
    (b :: l).getLast?.or prev = l.getLast?.or (some b) := by
  rw [List.getLast?_cons]
  cases l.getLast? <;> simp

theorem back_isSome {m : Mem α} {l : Lst} {xs : List (Nat × α)} (h : IsList m l xs) :
    l.back.isSome = !xs.isEmpty := by
  rw [h.back]
  cases xs <;> simp

/-! ## Operations -/

theorem isEmpty_spec {m : Mem α} {l : Lst} {xs : List (Nat × α)} (h : IsList m l xs) :
    isEmpty l = xs.isEmpty := by
  unfold isEmpty
  rw [h.valid]
  have hc := h.chain
  cases xs with
  | nil => simp only [Seg] at hc; simp [hc]
  | cons x xs => obtain ⟨a, v⟩ := x; simp only [Seg] at hc; simp [hc.1]

theorem linkBack_spec {m : Mem α} {l : Lst} {xs : List (Nat × α)} (h : IsList m l xs)
    {a : Nat} {v : α} (ha : m.cell a = some ⟨v, none⟩) (hd : a ∉ addrs xs) :
    ∃ m' l', linkBack m l a = .ok (m', l') ∧ IsList m' l' (xs ++ [(a, v)]) ∧
      SameOut m m' (addrs xs) := by
  unfold linkBack
  have hb := h.back
  have hnd : (addrs (xs ++ [(a, v)])).Nodup := by
    simp only [addrs_append, addrs_cons, addrs_nil]
    rw [List.nodup_append]
    refine ⟨h.nodup, by simp, ?_⟩
    intro b hb c hc
    simp at hc; subst hc
    intro he; subst he; exact hd hb
  rcases List.eq_nil_or_concat xs with rfl | ⟨ys, ⟨b, w⟩, rfl⟩
  · simp at hb
    rw [hb]
    refine ⟨m, ⟨some a, some a⟩, rfl, ⟨⟨rfl, none, ha, rfl⟩, by simp, hnd⟩, fun _ _ => rfl, rfl⟩
  · rw [List.concat_eq_append] at *
    have hb' : l.back = some b := by rw [hb]; simp
    rw [hb']
    obtain ⟨r, h1, hr, s, h2, h3⟩ := (seg_append ys _ _).mp h.chain
    simp only [Seg] at h3
    rw [h3] at h2
    simp only [setNext_eq h2, bind_ok]
    have hab : a ≠ b := by intro he; subst he; simp at hd
    have hnb : b ∉ addrs ys := by
      have := h.nodup
      simp only [addrs_append, addrs_cons, addrs_nil] at this
      rw [List.nodup_append] at this
      intro hmem
      exact this.2.2 b hmem b (by simp) rfl
    refine ⟨_, _, rfl, ⟨?_, by simp, hnd⟩, ?_, rfl⟩
    · rw [seg_append]
      refine ⟨some a, ?_, rfl, none, by simp [upd_other, hab, ha], rfl⟩
      rw [seg_append]
      refine ⟨r, seg_frame ys _ ?_ h1, hr, some a, by simp [upd_same], rfl⟩
      intro c hc
      exact upd_other _ _ (by intro he; subst he; exact hnb hc)
    · intro c hc
      exact upd_other _ _ (by intro he; subst he; simp at hc)

theorem push_spec {m : Mem α} {l : Lst} {xs : List (Nat × α)} (h : IsList m l xs)
    {a : Nat} {v : α} (ha : m.cell a = some ⟨v, none⟩) (hd : a ∉ addrs xs) :
    ∃ m' l', push m l a = .ok (m', l', 0) ∧ IsList m' l' (xs ++ [(a, v)]) ∧
      SameOut m m' (addrs xs) := by
  obtain ⟨m', l', h1, h2, h3⟩ := linkBack_spec h ha hd
  unfold push
  rw [h.valid, h1]
  have ha' : m'.cell a = some ⟨v, none⟩ := by rw [h3.1 a hd, ha]
  simp only [Bool.not_true, Bool.false_eq_true, if_false, bind_ok, setNext_eq ha']
  refine ⟨_, _, rfl, h2.frame ?_, ?_, h3.2⟩
  · intro b _
    by_cases hb : b = a
    · subst hb; simp [upd_same, ha']
    · simp [upd_other, hb]
  · intro b hb
    by_cases hba : b = a
    · subst hba; simp [upd_same, ha]
    · simp [upd_other, hba, h3.1 b hb]

theorem tlvPush_spec {m : Mem α} {l : Lst} {xs : List (Nat × α)} (h : IsList m l xs)
    (hb : Bounded m) (v : α) :
    ∃ m' l', tlvPush m l v true = .ok (m', l', 0) ∧
      IsList m' l' (xs ++ [(m.fresh, v)]) ∧
      (∀ a, a ∉ m.fresh :: addrs xs → m'.cell a = m.cell a) ∧ m'.fresh = m.fresh + 1 := by
  unfold tlvPush
  rw [h.valid]
  simp only [Bool.not_true, Bool.false_eq_true, if_false, Mem.alloc]
  have hfresh : m.cell m.fresh = none := by
    cases hc : m.cell m.fresh with
    | none => rfl
    | some n => have := hb m.fresh (by simp [hc]); omega
  have hd : m.fresh ∉ addrs xs := fun hm => seg_ne_none h.chain hm hfresh
  have hl : IsList ({ cell := upd m.cell m.fresh (some ⟨v, none⟩), fresh := m.fresh + 1 } : Mem α)
      l xs := h.frame (fun a ha => upd_other _ _ (fun he => hd (he ▸ ha)))
  obtain ⟨m', l', h1, h2, h3⟩ := linkBack_spec hl (a := m.fresh) (v := v) (by simp [upd_same]) hd
  rw [h1]
  refine ⟨m', l', rfl, h2, ?_, h3.2⟩
  intro a ha
  simp only [List.mem_cons, not_or] at ha
  rw [h3.1 a ha.2]
  exact upd_other _ _ ha.1

theorem pop_nil {m : Mem α} {l : Lst} (h : IsList m l []) : pop m l = .ok (m, l, none) := by
  unfold pop
  have hc := h.chain
  simp only [Seg] at hc
  simp [h.valid, hc]

theorem pop_cons {m : Mem α} {l : Lst} {a : Nat} {v : α} {xs : List (Nat × α)}
    (h : IsList m l ((a, v) :: xs)) :
    ∃ m' l', pop m l = .ok (m', l', some a) ∧ IsList m' l' xs ∧
      m'.cell a = some ⟨v, none⟩ ∧ SameOut m m' [a] := by
  unfold pop
  rw [h.valid]
  obtain ⟨hp, r, hr, hc⟩ := h.chain
  have hnd := h.nodup
  simp only [addrs_cons, List.nodup_cons] at hnd
  simp only [Bool.not_true, Bool.false_eq_true, if_false, hp, get_eq hr, bind_ok, setNext_eq hr]
  refine ⟨_, _, rfl, ?_, by simp [upd_same], ?_, rfl⟩
  · have hfr : Seg (upd m.cell a (some ⟨v, none⟩)) r xs none :=
      seg_frame xs r (fun b hb => upd_other _ _ (fun he => hnd.1 (he ▸ hb))) hc
    cases xs with
    | nil =>
      simp only [Seg] at hc
      subst hc
      exact IsList.init _
    | cons y ys =>
      obtain ⟨b, w⟩ := y
      have hrb : r = some b := hc.1
      subst hrb
      refine ⟨hfr, ?_, hnd.2⟩
      have := h.back
      simp only [Option.isSome_some, if_true]
      rw [this]; simp
  · intro b hb
    simp at hb
    exact upd_other _ _ hb

theorem free_spec {m : Mem α} {a : Nat} {v : α} (h : m.cell a = some ⟨v, none⟩) :
    m.free a = .ok ({ m with cell := upd m.cell a none }, 0) := by
  simp [Mem.free, get_eq h]

theorem findLoop_spec (m : Mem α) (key : α → Bool) : ∀ (xs : List (Nat × α)) (p : Option Nat)
    (fuel : Nat), Seg m.cell p xs none → xs.length < fuel →
    findLoop m key fuel p = .ok ((xs.find? (fun x => key x.2)).map Prod.fst)
  | [], p, fuel, hc, hf => by
    simp only [Seg] at hc
    subst hc
    cases fuel with
    | zero => omega
    | succ fuel => rfl
  | (a, v) :: xs, p, fuel, ⟨hp, r, hr, hc⟩, hf => by
    cases fuel with
    | zero => omega
    | succ fuel =>
      subst hp
      simp only [findLoop, get_eq hr, bind_ok]
      by_cases hk : key v
      · simp [hk]
      · have := findLoop_spec m key xs r fuel hc (by simp at hf; omega)
        simp [hk, this]

theorem find_spec {m : Mem α} {l : Lst} {xs : List (Nat × α)} (h : IsList m l xs)
    (hb : Bounded m) (key : α → Bool) :
    find m l key = .ok ((xs.find? (fun x => key x.2)).map Prod.fst) := by
  unfold find
  rw [h.valid]
  have := h.length_le hb
  simpa using findLoop_spec m key xs l.front (m.fresh + 1) h.chain (by omega)

/-- Some payload is `same` as a later one. -/
def dupVals (same : α → α → Bool) : List α → Bool
  | [] => false
  | v :: vs => vs.any (same v) || dupVals same vs

theorem dupLoop_spec (m : Mem α) (same : α → α → Bool) :
    ∀ (xs : List (Nat × α)) (p : Option Nat) (fuel : Nat),
    Seg m.cell p xs none → xs.length < fuel → xs.length ≤ m.fresh →
    dupLoop m same fuel p = .ok (dupVals same (vals xs))
  | [], p, fuel, hc, hf, _ => by
    simp only [Seg] at hc
    subst hc
    cases fuel with
    | zero => omega
    | succ fuel => rfl
  | (a, v) :: xs, p, fuel, ⟨hp, r, hr, hc⟩, hf, hm => by
    cases fuel with
    | zero => omega
    | succ fuel =>
      subst hp
      simp only [List.length_cons] at hf hm
      simp only [dupLoop, get_eq hr, bind_ok,
        findLoop_spec m (same v) xs r (m.fresh + 1) hc (by omega)]
      have ih := dupLoop_spec m same xs r fuel hc (by omega) (by omega)
      cases hfi : xs.find? (fun x => same v x.2) with
      | none =>
        have hany : (vals xs).any (same v) = false := by
          rw [List.find?_eq_none] at hfi
          rw [List.any_eq_false]
          intro w hw
          obtain ⟨x, hx, rfl⟩ := List.mem_map.mp hw
          simpa using hfi x hx
        simp [ih, dupVals, hany]
      | some x =>
        have hany : (vals xs).any (same v) = true := by
          have h1 := List.find?_some hfi
          have h2 := List.mem_of_find?_eq_some hfi
          rw [List.any_eq_true]
          exact ⟨x.2, List.mem_map_of_mem h2, h1⟩
        simp [dupVals, hany]

theorem hasDup_spec {m : Mem α} {l : Lst} {xs : List (Nat × α)} (h : IsList m l xs)
    (hb : Bounded m) (same : α → α → Bool) :
    hasDup m l same = .ok (dupVals same (vals xs)) := by
  unfold hasDup
  rw [h.valid]
  have := h.length_le hb
  simpa using dupLoop_spec m same xs l.front (m.fresh + 1) h.chain (by omega) this

theorem append_spec {m : Mem α} {l o : Lst} {xs ys : List (Nat × α)} (h : IsList m l xs)
    (ho : IsList m o ys) (hd : ∀ a ∈ addrs xs, a ∉ addrs ys) :
    ∃ m' l', append m l o = .ok (m', l', Lst.init, 0) ∧ IsList m' l' (xs ++ ys) ∧
      SameOut m m' (addrs xs) := by
  unfold append
  rw [h.valid, ho.valid]
  simp only [Bool.not_true, Bool.false_eq_true, if_false]
  have hnd : (addrs (xs ++ ys)).Nodup := by
    rw [addrs_append, List.nodup_append]
    exact ⟨h.nodup, ho.nodup, fun a ha b hb he => hd a ha (he ▸ hb)⟩
  have hb := h.back
  have hob := ho.back
  rcases List.eq_nil_or_concat xs with rfl | ⟨zs, ⟨b, w⟩, rfl⟩
  · simp at hb
    rw [hb]
    simp only [bind_ok]
    refine ⟨m, _, rfl, ⟨?_, ?_, hnd⟩, fun _ _ => rfl, rfl⟩
    · split <;> simpa using ho.chain
    · rw [back_isSome ho]
      cases ys with
      | nil => simp
      | cons y ys => simpa using hob
  · rw [List.concat_eq_append] at *
    have hb' : l.back = some b := by rw [hb]; simp
    rw [hb']
    obtain ⟨r, h1, hr, s, h2, h3⟩ := (seg_append zs _ _).mp h.chain
    simp only [Seg] at h3
    rw [h3] at h2
    simp only [setNext_eq h2, bind_ok]
    have hnb : b ∉ addrs zs := by
      have := h.nodup
      simp only [addrs_append, addrs_cons, addrs_nil] at this
      rw [List.nodup_append] at this
      intro hmem
      exact this.2.2 b hmem b (by simp) rfl
    have hby : b ∉ addrs ys := hd b (by simp)
    refine ⟨_, _, rfl, ⟨?_, ?_, hnd⟩, ?_, rfl⟩
    · have : Seg (upd m.cell b (some ⟨w, o.front⟩)) l.front (zs ++ [(b, w)] ++ ys) none := by
        rw [seg_append]
        refine ⟨o.front, ?_, seg_frame ys _ ?_ ho.chain⟩
        · rw [seg_append]
          refine ⟨r, seg_frame zs _ ?_ h1, hr, o.front, by simp [upd_same], rfl⟩
          intro c hc
          exact upd_other _ _ (by intro he; subst he; exact hnb hc)
        · intro c hc
          exact upd_other _ _ (by intro he; subst he; exact hby hc)
      split <;> simpa using this
    · rw [back_isSome ho]
      cases ys with
      | nil => simp [hb']
      | cons y ys => simp [List.getLast?_append, hob, List.getLast?_cons]
    · intro c hc
      exact upd_other _ _ (by intro he; subst he; simp at hc)

theorem clearLoop_spec : ∀ (xs : List (Nat × α)) (m : Mem α) (l : Lst) (fuel : Nat),
    IsList m l xs → xs.length < fuel →
    ∃ m' l', clearLoop fuel m l = .ok (m', l') ∧ IsList m' l' [] ∧
      (∀ a ∈ addrs xs, m'.cell a = none) ∧ SameOut m m' (addrs xs)
  | [], m, l, fuel, h, hf => by
    cases fuel with
    | zero => omega
    | succ fuel =>
      have hc := h.chain
      simp only [Seg] at hc
      refine ⟨m, l, by simp [clearLoop, hc], h, by simp, fun _ _ => rfl, rfl⟩
  | (a, v) :: xs, m, l, fuel, h, hf => by
    cases fuel with
    | zero => omega
    | succ fuel =>
      obtain ⟨m1, l1, h1, h2, h3, h4⟩ := pop_cons h
      have hfront : l.front.isSome = true := by simp [h.chain.1]
      have hnd := h.nodup
      simp only [addrs_cons, List.nodup_cons] at hnd
      simp only [clearLoop, hfront, if_true, h1, bind_ok, free_spec h3]
      have hl : IsList ({ m1 with cell := upd m1.cell a none } : Mem α) l1 xs :=
        h2.frame (fun b hb => upd_other _ _ (fun he => hnd.1 (he ▸ hb)))
      obtain ⟨m', l', h5, h6, h7, h8⟩ := clearLoop_spec xs _ l1 fuel hl (by simp at hf; omega)
      refine ⟨m', l', h5, h6, ?_, ?_, ?_⟩
      · intro b hb
        simp only [addrs_cons, List.mem_cons] at hb
        rcases hb with rfl | hb
        · rw [h8.1 b hnd.1]; simp [upd_same]
        · exact h7 b hb
      · intro b hb
        simp only [addrs_cons, List.mem_cons, not_or] at hb
        rw [h8.1 b hb.2, ← h4.1 b (by simp [hb.1])]
        exact upd_other _ _ hb.1
      · rw [h8.2, ← h4.2]

theorem clear_spec {m : Mem α} {l : Lst} {xs : List (Nat × α)} (h : IsList m l xs)
    (hb : Bounded m) :
    ∃ m' l', clear m l = .ok (m', l') ∧ IsList m' l' [] ∧
      (∀ a ∈ addrs xs, m'.cell a = none) ∧ SameOut m m' (addrs xs) := by
  unfold clear
  rw [h.valid]
  have := h.length_le hb
  simpa using clearLoop_spec xs m l (m.fresh + 1) h (by omega)

theorem removeLoop_past (m : Mem α) (l : Lst) : ∀ (xs : List (Nat × α)) (p : Option Nat)
    (fuel index : Nat) (prev : Option Nat), Seg m.cell p xs none → xs.length < fuel →
    xs.length ≤ index → removeLoop m l fuel index prev p = .ok (m, l, none)
  | [], p, fuel, index, prev, hc, hf, hi => by
    simp only [Seg] at hc
    subst hc
    cases fuel with
    | zero => omega
    | succ fuel => rfl
  | (a, v) :: xs, p, fuel, index, prev, ⟨hp, r, hr, hc⟩, hf, hi => by
    subst hp
    simp only [List.length_cons] at hf hi
    cases fuel with
    | zero => omega
    | succ fuel =>
      cases index with
      | zero => omega
      | succ index =>
        simp only [removeLoop, get_eq hr, bind_ok]
        exact removeLoop_past m l xs r fuel index (some a) hc (by omega) (by omega)

/-- The loop reaches the node at `index` with `prev` its predecessor. -/
theorem removeLoop_reach (m : Mem α) (l : Lst) (a : Nat) (v : α) (post : List (Nat × α)) :
    ∀ (pre : List (Nat × α)) (p : Option Nat) (fuel : Nat) (prev : Option Nat),
    Seg m.cell p (pre ++ (a, v) :: post) none → pre.length < fuel →
    ∃ fuel', removeLoop m l fuel pre.length prev p =
      removeLoop m l (fuel' + 1) 0 ((addrs pre).getLast?.or prev) (some a)
  | [], p, fuel, prev, hc, hf => by
    obtain ⟨hp, _⟩ := hc
    subst hp
    cases fuel with
    | zero => omega
    | succ fuel => exact ⟨fuel, rfl⟩
  | (b, w) :: pre, p, fuel, prev, ⟨hp, r, hr, hc⟩, hf => by
    subst hp
    simp only [List.length_cons] at hf
    cases fuel with
    | zero => omega
    | succ fuel =>
      obtain ⟨fuel', ih⟩ := removeLoop_reach m l a v post pre r fuel (some b) hc (by omega)
      refine ⟨fuel', ?_⟩
      rw [List.length_cons, addrs_cons, getLast?_cons_or, ← ih]
      simp only [removeLoop, get_eq hr, bind_ok]

theorem removeIndex_spec {m : Mem α} {l : Lst} {pre post : List (Nat × α)} {a : Nat} {v : α}
    (h : IsList m l (pre ++ (a, v) :: post)) (hb : Bounded m) :
    ∃ m' l', removeIndex m l pre.length = .ok (m', l', some a) ∧
      IsList m' l' (pre ++ post) ∧ m'.cell a = some ⟨v, none⟩ ∧
      SameOut m m' (addrs (pre ++ (a, v) :: post)) := by
  unfold removeIndex
  rw [h.valid]
  simp only [Bool.not_true, Bool.false_eq_true, if_false]
  have hlen := h.length_le hb
  simp at hlen
  obtain ⟨fuel', hr⟩ := removeLoop_reach m l a v post pre l.front (m.fresh + 1) none h.chain
    (by omega)
  rw [hr]
  rcases List.eq_nil_or_concat pre with rfl | ⟨zs, ⟨b, w⟩, rfl⟩
  · obtain ⟨m', l', h1, h2, h3, h4⟩ := pop_cons (by simpa using h)
    refine ⟨m', l', by simpa [removeLoop] using h1, by simpa using h2, h3, ?_, h4.2⟩
    intro c hc
    exact h4.1 c (by simp at hc; simp [hc.1])
  · rw [List.concat_eq_append] at *
    have hlast : ((addrs (zs ++ [(b, w)])).getLast?.or none) = some b := by simp
    rw [hlast]
    obtain ⟨r, h1, h2⟩ := (seg_append _ _ _).mp h.chain
    obtain ⟨s, h3, hs, t, h4, h5⟩ := (seg_append _ _ _).mp h1
    simp only [Seg] at h5
    subst h5
    obtain ⟨hra, q, hq, hpost⟩ := h2
    subst hra
    have hnd := h.nodup
    simp only [addrs_append, addrs_cons, addrs_nil] at hnd
    have hnd' := hnd
    rw [List.nodup_append, List.nodup_append] at hnd'
    obtain ⟨⟨nzs, -, nzb⟩, nap, nx⟩ := hnd'
    rw [List.nodup_cons] at nap
    have hab : a ≠ b := by
      intro he; subst he
      exact nx a (by simp) a (by simp) rfl
    have haz : a ∉ addrs zs := fun hm => nx a (by simp [hm]) a (by simp) rfl
    have hbz : b ∉ addrs zs := fun hm => nzb b hm b (by simp) rfl
    have hbp : b ∉ addrs post := fun hm => nx b (by simp) b (by simp [hm]) rfl
    have hq' : (upd m.cell b (some ⟨w, q⟩)) a = some ⟨v, q⟩ := by rw [upd_other _ _ hab, hq]
    simp only [removeLoop, get_eq hq, bind_ok, setNext_eq h4]
    rw [get_eq (show ({ m with cell := upd m.cell b (some ⟨w, q⟩) } : Mem α).cell a = _ from hq')]
    simp only [bind_ok]
    rw [setNext_eq (show ({ m with cell := upd m.cell b (some ⟨w, q⟩) } : Mem α).cell a = _ from hq')]
    simp only [bind_ok]
    refine ⟨_, _, rfl, ⟨?_, ?_, ?_⟩, by simp [upd_same], ?_, rfl⟩
    · have : Seg (upd (upd m.cell b (some ⟨w, q⟩)) a (some ⟨v, none⟩)) l.front
          (zs ++ [(b, w)] ++ post) none := by
        rw [seg_append]
        refine ⟨q, ?_, seg_frame post _ ?_ hpost⟩
        · rw [seg_append]
          refine ⟨s, seg_frame zs _ ?_ h3, hs, q, ?_, rfl⟩
          · intro c hc
            rw [upd_other _ _ (by intro he; subst he; exact haz hc),
              upd_other _ _ (by intro he; subst he; exact hbz hc)]
          · rw [upd_other _ _ (Ne.symm hab), upd_same]
        · intro c hc
          rw [upd_other _ _ (by intro he; subst he; exact nap.1 hc),
            upd_other _ _ (by intro he; subst he; exact hbp hc)]
      split <;> simpa using this
    · have hbk := h.back
      cases post with
      | nil =>
        simp only [Seg] at hpost
        subst hpost
        simp
      | cons y post =>
        obtain ⟨c, x⟩ := y
        have : q = some c := hpost.1
        subst this
        simp only [Option.isSome_some, if_true]
        rw [hbk]
        simp [List.getLast?_append]
    · simp only [addrs_append, addrs_cons, addrs_nil]
      rw [List.nodup_append, List.nodup_append]
      refine ⟨⟨nzs, by simp, nzb⟩, nap.2, ?_⟩
      intro x hx y hy
      exact nx x hx y (by simp [hy])
    · intro c hc
      simp only [addrs_append, addrs_cons, addrs_nil, List.mem_append, List.mem_cons, not_or] at hc
      simp only
      rw [upd_other _ _ hc.2.1, upd_other _ _ hc.1.2.1]

theorem removeIndex_past {m : Mem α} {l : Lst} {xs : List (Nat × α)} (h : IsList m l xs)
    (hb : Bounded m) {index : Nat} (hi : xs.length ≤ index) :
    removeIndex m l index = .ok (m, l, none) := by
  unfold removeIndex
  rw [h.valid]
  have := h.length_le hb
  simpa using removeLoop_past m l xs l.front (m.fresh + 1) index none h.chain (by omega) hi

theorem insert_spec {m : Mem α} {l : Lst} {pre post : List (Nat × α)} {p : Nat} {pv : α}
    (h : IsList m l (pre ++ (p, pv) :: post)) {a : Nat} {v : α}
    (ha : m.cell a = some ⟨v, none⟩) (hd : a ∉ addrs (pre ++ (p, pv) :: post)) :
    ∃ m' l', insert m l p a = .ok (m', l', 0) ∧
      IsList m' l' (pre ++ (p, pv) :: (a, v) :: post) ∧
      SameOut m m' (a :: addrs (pre ++ (p, pv) :: post)) := by
  unfold insert
  rw [h.valid]
  simp only [Bool.not_true, Bool.false_eq_true, if_false]
  cases post with
  | nil =>
    have hbk : l.back = some p := by rw [h.back]; simp
    rw [if_pos hbk]
    obtain ⟨m', l', h1, h2, h3⟩ := push_spec h ha hd
    refine ⟨m', l', h1, by simpa using h2, ?_, h3.2⟩
    intro c hc
    exact h3.1 c (by simp only [List.mem_cons, not_or] at hc; exact hc.2)
  | cons y post =>
    obtain ⟨c, x⟩ := y
    have hnd := h.nodup
    simp only [addrs_append, addrs_cons] at hnd hd
    have hnd' := hnd
    rw [List.nodup_append] at hnd'
    obtain ⟨npre, npp, nx⟩ := hnd'
    rw [List.nodup_cons] at npp
    have hbk : ¬ l.back = some p := by
      rw [h.back]
      intro he
      have he' := List.mem_of_getLast? (l := c :: addrs post) (by simpa using he)
      exact npp.1 he'
    rw [if_neg hbk]
    obtain ⟨r, h1, hr, q, hq, hpost⟩ := (seg_append _ _ _).mp h.chain
    have hqc : q = some c := hpost.1
    simp only [get_eq hq, bind_ok, hqc, Option.isSome_some, if_true, setNext_eq ha]
    have hap : a ≠ p := by intro he; subst he; simp at hd
    have hq' : (upd m.cell a (some ⟨v, some c⟩)) p = some ⟨pv, q⟩ := by
      rw [upd_other _ _ (Ne.symm hap), hq]
    rw [setNext_eq (show ({ m with cell := upd m.cell a (some ⟨v, some c⟩) } : Mem α).cell p = _ from hq')]
    simp only [bind_ok]
    have hppre : p ∉ addrs pre := fun hm => nx p hm p (by simp) rfl
    refine ⟨_, _, rfl, ⟨?_, ?_, ?_⟩, ?_, rfl⟩
    · rw [seg_append]
      refine ⟨r, seg_frame pre _ ?_ h1, hr, some a, by simp [upd_same], rfl, some c, ?_,
        seg_frame _ _ ?_ (hqc ▸ hpost)⟩
      · intro d hdm
        have e1 : d ≠ p := by intro he; subst he; exact hppre hdm
        have e2 : d ≠ a := by intro he; subst he; simp [hdm] at hd
        simp only
        rw [upd_other _ _ e1, upd_other _ _ e2]
      · simp only
        rw [upd_other _ _ hap, upd_same]
      · intro d hdm
        have e1 : d ≠ p := by intro he; subst he; exact npp.1 hdm
        have e2 : d ≠ a := by
          intro he; subst he
          simp only [addrs_cons, List.mem_cons] at hdm
          simp only [List.mem_append, List.mem_cons, not_or] at hd
          rcases hdm with h | h
          · exact hd.2.2.1 h
          · exact hd.2.2.2 h
        simp only
        rw [upd_other _ _ e1, upd_other _ _ e2]
    · simp only [h.back]; simp [List.getLast?_append]
    · simp only [addrs_append, addrs_cons]
      simp only [List.mem_append, List.mem_cons, not_or] at hd
      rw [List.nodup_append]
      refine ⟨npre, ?_, ?_⟩
      · rw [List.nodup_cons, List.nodup_cons]
        refine ⟨?_, ?_, npp.2⟩
        · simp only [List.mem_cons, not_or]
          refine ⟨Ne.symm hap, ?_⟩
          simpa using npp.1
        · simp [hd.2.2]
      · intro u hu w hw he
        subst he
        simp only [List.mem_cons] at hw
        rcases hw with rfl | rfl | hw
        · exact hppre hu
        · exact hd.1 hu
        · exact nx u hu u (by simp [hw]) rfl
    · intro d hdm
      simp only [addrs_append, addrs_cons, List.mem_cons, List.mem_append, not_or] at hdm
      simp only
      rw [upd_other _ _ hdm.2.2.1, upd_other _ _ hdm.1]

theorem pushFront_spec {m : Mem α} {l : Lst} {xs : List (Nat × α)} (h : IsList m l xs)
    {a : Nat} {v : α} (ha : m.cell a = some ⟨v, none⟩) (hd : a ∉ addrs xs) :
    ∃ m' l', pushFront m l a = .ok (m', l', 0) ∧ IsList m' l' ((a, v) :: xs) ∧
      SameOut m m' (a :: addrs xs) := by
  unfold pushFront
  rw [h.valid]
  simp only [Bool.not_true, Bool.false_eq_true, if_false]
  have hc := h.chain
  cases xs with
  | nil =>
    simp only [Seg] at hc
    simp only [hc, Option.isSome_none, Bool.false_eq_true, if_false]
    exact ⟨m, _, rfl, ⟨⟨rfl, none, ha, rfl⟩, by simp, by simp⟩, fun _ _ => rfl, rfl⟩
  | cons y ys =>
    obtain ⟨b, w⟩ := y
    have hf : l.front = some b := hc.1
    simp only [hf, Option.isSome_some, if_true, setNext_eq ha, bind_ok]
    refine ⟨_, _, rfl, ⟨⟨rfl, some b, by simp [upd_same], ?_⟩, ?_, ?_⟩, ?_, rfl⟩
    · apply seg_frame _ _ ?_ (hf ▸ hc)
      intro c hcm
      exact upd_other _ _ (by intro he; subst he; exact hd hcm)
    · simp [h.back]
    · rw [addrs_cons, List.nodup_cons]; exact ⟨hd, h.nodup⟩
    · intro c hcm
      simp only [List.mem_cons, not_or] at hcm
      exact upd_other _ _ hcm.1

theorem seg_front_isSome {h : Nat → Option (Node α)} {p : Option Nat} {xs : List (Nat × α)}
    (hc : Seg h p xs none) : p.isSome = !xs.isEmpty := by
  cases xs with
  | nil => simp only [Seg] at hc; simp [hc]
  | cons x xs => obtain ⟨a, v⟩ := x; simp only [Seg] at hc; simp [hc.1]

/-- Scanning goes past this payload when inserting priority `p`. -/
def keep (prio : α → Nat) (p : Nat) (v : α) : Bool :=
  decide (prio v ≠ 0) && !decide (p ≠ 0 ∧ p < prio v)

theorem scan_spec (m : Mem α) (prio : α → Nat) (p : Nat) : ∀ (xs : List (Nat × α))
    (q : Option Nat) (fuel : Nat) (pos : Option Nat), Seg m.cell q xs none → xs.length < fuel →
    scan m prio p fuel q pos =
      .ok ((addrs (xs.takeWhile (fun x => keep prio p x.2))).getLast?.or pos)
  | [], q, fuel, pos, hc, hf => by
    simp only [Seg] at hc
    subst hc
    cases fuel with
    | zero => omega
    | succ fuel => simp [scan]
  | (a, v) :: xs, q, fuel, pos, ⟨hq, r, hr, hc⟩, hf => by
    subst hq
    cases fuel with
    | zero => omega
    | succ fuel =>
      simp only [List.length_cons] at hf
      simp only [scan, get_eq hr, bind_ok]
      by_cases h0 : prio v = 0
      · simp [h0, keep]
      · by_cases h1 : p ≠ 0 ∧ p < prio v
        · simp [h0, h1, keep]
        · rw [if_neg h0, if_neg h1, scan_spec m prio p xs r fuel (some a) hc (by omega)]
          have hk : keep prio p v = true := by
            simp only [keep, Bool.and_eq_true, decide_eq_true_eq, Bool.not_eq_true',
              decide_eq_false_iff_not]
            exact ⟨h0, h1⟩
          rw [List.takeWhile_cons]
          simp only [hk, if_true, addrs_cons]
          rw [getLast?_cons_or]

/-- Insert before the first payload at which scanning stops. -/
def insertSeq (prio : α → Nat) (v : α) (xs : List α) : List α :=
  xs.takeWhile (keep prio (prio v)) ++ v :: xs.dropWhile (keep prio (prio v))

theorem vals_takeWhile (f : α → Bool) (xs : List (Nat × α)) :
    vals (xs.takeWhile (fun x => f x.2)) = (vals xs).takeWhile f := by
  induction xs with
  | nil => rfl
  | cons x xs ih => simp only [List.takeWhile_cons, vals_cons]; split <;> simp [ih]

theorem vals_dropWhile (f : α → Bool) (xs : List (Nat × α)) :
    vals (xs.dropWhile (fun x => f x.2)) = (vals xs).dropWhile f := by
  induction xs with
  | nil => rfl
  | cons x xs ih => simp only [List.dropWhile_cons, vals_cons]; split <;> simp [ih]

theorem sortLoop_spec (prio : α → Nat) : ∀ (xs ys : List (Nat × α)) (m : Mem α) (l sorted : Lst)
    (fuel : Nat), IsList m l xs → IsList m sorted ys → (∀ a ∈ addrs xs, a ∉ addrs ys) →
    Bounded m → xs.length < fuel →
    ∃ m' l' zs, sortLoop prio fuel m l sorted = .ok (m', l', 0) ∧ IsList m' l' zs ∧
      vals zs = (vals xs).foldl (fun acc v => insertSeq prio v acc) (vals ys) ∧
      (∀ a, a ∈ addrs zs ↔ a ∈ addrs xs ∨ a ∈ addrs ys) ∧
      SameOut m m' (addrs xs ++ addrs ys)
  | [], ys, m, l, sorted, fuel, hl, hs, hd, hb, hf => by
    cases fuel with
    | zero => omega
    | succ fuel =>
      refine ⟨m, sorted, ys, ?_, hs, rfl, by simp, fun _ _ => rfl, rfl⟩
      simp [sortLoop, pop_nil hl]
  | (a, v) :: xs, ys, m, l, sorted, fuel, hl, hs, hd, hb, hf => by
    cases fuel with
    | zero => omega
    | succ fuel =>
      simp only [List.length_cons] at hf
      obtain ⟨m1, l1, h1, h2, h3, h4⟩ := pop_cons hl
      have hnd := hl.nodup
      simp only [addrs_cons, List.nodup_cons] at hnd
      have hay : a ∉ addrs ys := hd a (by simp)
      have hs1 : IsList m1 sorted ys :=
        hs.frame (fun b hbm => h4.1 b (by simp; intro he; subst he; exact hay hbm))
      have hb1 : Bounded m1 := by
        intro b hbn
        rw [h4.2]
        by_cases hba : b = a
        · subst hba
          apply hb b
          exact seg_ne_none hl.chain (by simp)
        · apply hb b; rw [← h4.1 b (by simp [hba])]; exact hbn
      have hlen := hs1.length_le hb1
      simp only [sortLoop, h1, bind_ok, get_eq h3]
      rw [scan_spec m1 prio (prio v) ys sorted.front (m1.fresh + 1) none hs1.chain (by omega)]
      simp only [bind_ok]
      -- insertion
      let f : Nat × α → Bool := fun x => keep prio (prio v) x.2
      have hsplit : ys.takeWhile f ++ ys.dropWhile f = ys := List.takeWhile_append_dropWhile
      have hins : ∃ m2 s2, (match ((addrs (ys.takeWhile f)).getLast?.or none) with
          | some pos => insert m1 sorted pos a
          | none => pushFront m1 sorted a : C (Mem α × Lst × Int)) = .ok (m2, s2, 0) ∧
          IsList m2 s2 (ys.takeWhile f ++ (a, v) :: ys.dropWhile f) ∧
          SameOut m1 m2 (a :: addrs ys) := by
        rcases List.eq_nil_or_concat (ys.takeWhile f) with ht | ⟨zs, ⟨b, w⟩, ht⟩
        · rw [ht] at hsplit
          simp only [ht, addrs_nil, List.getLast?_nil, Option.none_or]
          obtain ⟨m2, s2, h5, h6, h7⟩ := pushFront_spec hs1 h3 hay
          refine ⟨m2, s2, h5, ?_, h7⟩
          simp only [List.nil_append] at hsplit ⊢
          rw [hsplit]; exact h6
        · rw [List.concat_eq_append] at ht
          rw [ht] at hsplit ⊢
          have hlast : ((addrs (zs ++ [(b, w)])).getLast?.or none) = some b := by simp
          rw [hlast]
          have hs2 : IsList m1 sorted (zs ++ (b, w) :: ys.dropWhile f) := by
            have : zs ++ (b, w) :: ys.dropWhile f = ys := by simpa using hsplit
            rw [this]; exact hs1
          have hay2 : a ∉ addrs (zs ++ (b, w) :: ys.dropWhile f) := by
            have : zs ++ (b, w) :: ys.dropWhile f = ys := by simpa using hsplit
            rw [this]; exact hay
          obtain ⟨m2, s2, h5, h6, h7⟩ := insert_spec hs2 h3 hay2
          have e : zs ++ (b, w) :: ys.dropWhile f = ys := by simpa using hsplit
          rw [e] at h7
          exact ⟨m2, s2, h5, by simpa using h6, h7⟩
      obtain ⟨m2, s2, h5, h6, h7⟩ := hins
      change ∃ m' l' zs, (do
        let (m, sorted, r) ← (match ((addrs (ys.takeWhile f)).getLast?.or none) with
          | some pos => insert m1 sorted pos a
          | none => pushFront m1 sorted a : C (Mem α × Lst × Int))
        if r ≠ 0 then do
          let (m, _) ← clear m sorted
          .ok (m, l1, -2)
        else sortLoop prio fuel m l1 sorted) = Except.ok (m', l', 0) ∧ _
      rw [h5]
      simp only [bind_ok, ne_eq, not_true_eq_false, if_false]
      have hmem : ∀ b, b ∈ addrs (ys.takeWhile f ++ (a, v) :: ys.dropWhile f) ↔ b = a ∨ b ∈ addrs ys := by
        intro b
        have : b ∈ addrs ys ↔ b ∈ addrs (ys.takeWhile f ++ ys.dropWhile f) := by rw [hsplit]
        rw [this]
        simp only [addrs_append, addrs_cons, List.mem_append, List.mem_cons]
        constructor
        · rintro (h | h | h)
          · exact Or.inr (Or.inl h)
          · exact Or.inl h
          · exact Or.inr (Or.inr h)
        · rintro (h | h | h)
          · exact Or.inr (Or.inl h)
          · exact Or.inl h
          · exact Or.inr (Or.inr h)
      have hd2 : ∀ b ∈ addrs xs, b ∉ a :: addrs ys := by
        intro b hbm
        simp only [List.mem_cons, not_or]
        exact ⟨fun he => hnd.1 (he ▸ hbm), hd b (by simp [hbm])⟩
      have hl2 : IsList m2 l1 xs := h2.frame (fun b hbm => h7.1 b (hd2 b hbm))
      have hb2 : Bounded m2 := by
        intro b hbn
        rw [h7.2]
        by_cases hba : b ∈ a :: addrs ys
        · apply hb1 b
          rcases List.mem_cons.mp hba with rfl | hby
          · simp [h3]
          · exact seg_ne_none hs1.chain hby
        · apply hb1 b; rw [← h7.1 b hba]; exact hbn
      obtain ⟨m', l', zs, h8, h9, h10, h11, h12⟩ :=
        sortLoop_spec prio xs _ m2 l1 s2 fuel hl2 h6
          (fun b hbm hm => hd2 b hbm (by simpa using (hmem b).mp hm)) hb2 (by omega)
      refine ⟨m', l', zs, h8, h9, ?_, ?_, ?_, ?_⟩
      · rw [h10]
        simp only [vals_append, vals_cons, List.foldl_cons, insertSeq]
        rw [show vals (ys.takeWhile f) = _ from vals_takeWhile _ ys,
          show vals (ys.dropWhile f) = _ from vals_dropWhile _ ys]
      · intro b
        rw [h11 b, hmem b]
        simp only [addrs_cons, List.mem_cons]
        constructor
        · rintro (h | h | h)
          · exact Or.inl (Or.inr h)
          · exact Or.inl (Or.inl h)
          · exact Or.inr h
        · rintro ((h | h) | h)
          · exact Or.inr (Or.inl h)
          · exact Or.inl h
          · exact Or.inr (Or.inr h)
      · intro b hbm
        simp only [addrs_cons, List.cons_append, List.mem_cons, List.mem_append, not_or] at hbm
        rw [h12.1 b, h7.1 b, h4.1 b]
        · simp [hbm.1]
        · simp [hbm.1, hbm.2.2]
        · simp only [List.mem_append, not_or]
          refine ⟨hbm.2.1, ?_⟩
          rw [hmem b]; simp [hbm.1, hbm.2.2]
      · rw [h12.2, h7.2, h4.2]

theorem sort_spec {m : Mem α} {l : Lst} {xs : List (Nat × α)} (prio : α → Nat)
    (h : IsList m l xs) (hb : Bounded m) :
    ∃ m' l' zs, sort m l prio = .ok (m', l', 0) ∧ IsList m' l' zs ∧
      vals zs = (vals xs).foldl (fun acc v => insertSeq prio v acc) [] ∧
      (∀ a, a ∈ addrs zs ↔ a ∈ addrs xs) ∧ SameOut m m' (addrs xs) := by
  unfold sort
  rw [h.valid]
  have hlen := h.length_le hb
  obtain ⟨m', l', zs, h1, h2, h3, h4, h5⟩ := sortLoop_spec prio xs [] m l Lst.init (m.fresh + 1)
    h (IsList.init m) (by simp) hb (by omega)
  refine ⟨m', l', zs, by simpa using h1, h2, h3, by simpa using h4, by simpa using h5⟩

theorem selReqLoop_spec (m : Mem α) (conf : α → Bool) : ∀ (xs : List (Nat × α)) (p : Option Nat)
    (fuel count : Nat), Seg m.cell p xs none → xs.length < fuel →
    selReqLoop m conf fuel p count =
      .ok (xs.any (fun x => conf x.2) || decide (xs ≠ [] ∧ 1 < xs.length + count))
  | [], p, fuel, count, hc, hf => by
    simp only [Seg] at hc
    subst hc
    cases fuel with
    | zero => omega
    | succ fuel => simp [selReqLoop]
  | (a, v) :: xs, p, fuel, count, ⟨hp, r, hr, hc⟩, hf => by
    subst hp
    simp only [List.length_cons] at hf
    cases fuel with
    | zero => omega
    | succ fuel =>
      simp only [selReqLoop, get_eq hr, bind_ok]
      by_cases h1 : conf v = true
      · simp [h1]
      · by_cases h2 : count + 1 > 1
        · rw [if_neg h1, if_pos h2]
          have : decide ((a, v) :: xs ≠ [] ∧ 1 < ((a, v) :: xs).length + count) = true := by
            simp; omega
          rw [this]; simp
        · rw [if_neg h1, if_neg h2, selReqLoop_spec m conf xs r fuel (count + 1) hc (by omega)]
          cases xs with
          | nil => simp [h1]; omega
          | cons y ys =>
            have e : ys.length + 1 + (count + 1) = ys.length + 1 + 1 + count := by omega
            simp [h1, e]

theorem selectionRequired_spec {m : Mem α} {l : Lst} {xs : List (Nat × α)} (h : IsList m l xs)
    (hb : Bounded m) (conf : α → Bool) :
    selectionRequired m l conf = .ok ((vals xs).any conf || decide (1 < xs.length)) := by
  unfold selectionRequired
  rw [h.valid]
  have := h.length_le hb
  have h1 := selReqLoop_spec m conf xs l.front (m.fresh + 1) 0 h.chain (by omega)
  simp only [Bool.not_true, Bool.false_eq_true, if_false, h1]
  cases xs with
  | nil => simp
  | cons y ys => simp [vals, List.any_map, Function.comp_def]

end Verif.LL
