import Verif.Own

/-! # C131: every block of memory has one owner -/

set_option autoImplicit false

namespace Verif.Own
open Verif

/-! ## Specification -/

/-- The allocated blocks are exactly these, each of them once. -/
def Owns (h : Heap) (ids : List Nat) : Prop :=
  (∀ a, ids.count a = if h.live a = true then 1 else 0) ∧ ∀ a, h.live a = true → a < h.next

/-- The blocks that can be reached from the context. -/
def Ctx.blocks (c : Ctx) : List Nat :=
  tlvBlocks c.config ++ tlvBlocks c.aids ++ tlvBlocks c.params ++ appBlocks c.selected.toList ++ tlvBlocks c.icc ++
    tlvBlocks c.terminal

/-- The blocks that can be reached from the context and the list of applications. -/
def World.blocks (w : World) : List Nat := w.ctx.blocks ++ appBlocks w.apps

/-- Whether processing of the selected application was initiated, after a call with this code. -/
def initiated (before : Bool) : Call → Int → Bool
  | .initiate _, r => before || r == 0
  | .select .., _ => false
  | .reset, _ => false
  | .clear, _ => false
  | _, _ => before

/-- Processing of an application is not initiated again once it was initiated. -/
def Once : Bool → World → List Call → Prop
  | _, _, [] => True
  | before, w, k :: ks =>
    (∀ s, k = .initiate s → before = false) ∧
    ∀ r w', call w k = .ok (r, w') → Once (initiated before k r) w' ks

/-! ## Lemmas -/

theorem Owns.congr {h : Heap} {ids ids' : List Nat} (o : Owns h ids) (e : ∀ a, ids'.count a = ids.count a) : Owns h ids' :=
  ⟨fun a => by rw [e, o.1], o.2⟩

theorem Owns.live {h : Heap} {ids : List Nat} (o : Owns h ids) {p : Nat} (hp : p ∈ ids) : h.live p = true := by
  have h1 := o.1 p
  have h2 := List.count_pos_iff.mpr hp
  cases hl : h.live p with
  | true => rfl
  | false => rw [hl] at h1; simp at h1; omega

theorem tlvBlocks_cons (t : Tlv) (l : List Tlv) : tlvBlocks (t :: l) = [t.node] ++ [t.value] ++ tlvBlocks l := rfl
theorem tlvBlocks_nil : tlvBlocks [] = [] := rfl
theorem tlvBlocks_append (l l' : List Tlv) : tlvBlocks (l ++ l') = tlvBlocks l ++ tlvBlocks l' := List.flatMap_append
theorem appBlocks_cons (x : App) (l : List App) : appBlocks (x :: l) = [x.block] ++ tlvBlocks x.tlvs ++ appBlocks l := rfl
theorem appBlocks_nil : appBlocks [] = [] := rfl
theorem appBlocks_append (l l' : List App) : appBlocks (l ++ l') = appBlocks l ++ appBlocks l' := List.flatMap_append

theorem mem_tlvBlocks {l : List Tlv} {t : Tlv} (h : t ∈ l) : t.node ∈ tlvBlocks l ∧ t.value ∈ tlvBlocks l :=
  ⟨List.mem_flatMap.mpr ⟨t, h, by simp⟩, List.mem_flatMap.mpr ⟨t, h, by simp⟩⟩

theorem mem_appBlocks {l : List App} {x : App} (h : x ∈ l) : x.block ∈ appBlocks l ∧ ∀ p ∈ tlvBlocks x.tlvs, p ∈ appBlocks l :=
  ⟨List.mem_flatMap.mpr ⟨x, h, by simp [App.blocks]⟩, fun p hp => List.mem_flatMap.mpr ⟨x, h, by simp [App.blocks, hp]⟩⟩

/-- Counting of blocks. -/
macro "count" : tactic => `(tactic| (
  intro a
  simp only [Ctx.blocks, World.blocks, tlvBlocks_cons, tlvBlocks_append, tlvBlocks_nil, appBlocks_cons, appBlocks_append,
    appBlocks_nil, Option.toList_some, Option.toList_none, List.count_append, List.count_nil, List.count_cons,
    List.append_nil, List.nil_append]
  try omega))

theorem touch_ok {h : Heap} {ids : List Nat} (o : Owns h ids) : ∀ ps : List Nat, (∀ p ∈ ps, p ∈ ids) → touch h ps = .ok () := by
  intro ps
  induction ps with
  | nil => intro _; rfl
  | cons p ps ih =>
    intro hp
    rw [touch, if_pos (o.live (hp p (by simp)))]
    exact ih fun q hq => hp q (by simp [hq])

theorem malloc_ok {h : Heap} {F : List Nat} (o : Owns h F) (ok : Bool) :
    ∃ p h', malloc h ok = (p, h') ∧ p.isSome = ok ∧ Owns h' (p.toList ++ F) := by
  cases ok with
  | false => exact ⟨none, h, rfl, rfl, o⟩
  | true =>
    refine ⟨some h.next, _, rfl, rfl, fun a => ?_, fun a ha => ?_⟩
    · have h1 := o.1 a
      rw [Option.toList_some, List.count_append, List.count_singleton]
      by_cases ha : a = h.next
      · subst ha
        have : h.live h.next = false := by
          rw [← Bool.not_eq_true]
          intro hl
          have := o.2 _ hl
          omega
        rw [this] at h1
        simp [h1]
      · simp only [ha, if_false, h1]
        have : (h.next == a) = false := by simp; omega
        simp [this]
    · by_cases ha' : a = h.next
      · subst ha'; exact Nat.lt_succ_self _
      · simp only [ha', if_false] at ha
        exact Nat.lt_succ_of_lt (o.2 a ha)

theorem free_ok {h : Heap} {F : List Nat} {p : Nat} (o : Owns h (p :: F)) : ∃ h', free h p = .ok h' ∧ Owns h' F := by
  refine ⟨_, if_pos (o.live (by simp)), fun a => ?_, fun a ha => ?_⟩
  · have h1 := o.1 a
    rw [List.count_cons] at h1
    by_cases ha : a = p
    · subst ha
      have : h.live a = true := o.live (by simp)
      rw [this] at h1
      simp at h1 ⊢
      simpa using h1
    · have : (p == a) = false := by simp; omega
      rw [this] at h1
      simp only [ha, if_false]
      simpa using h1
  · by_cases ha' : a = p
    · simp [ha'] at ha
    · simp only [ha', if_false] at ha
      exact o.2 a ha

theorem tlvAlloc_ok {h : Heap} {F : List Nat} (o : Owns h F) (s : Alloc) :
    ∃ t h', tlvAlloc h s = .ok (t, h') ∧ Owns h' (tlvBlocks t.toList ++ F) := by
  obtain ⟨p, h1, e1, i1, o1⟩ := malloc_ok o s.node
  unfold tlvAlloc
  rw [e1]
  cases p with
  | none => exact ⟨none, h1, rfl, o1⟩
  | some p =>
    obtain ⟨v, h2, e2, i2, o2⟩ := malloc_ok o1 s.value
    simp only [e2]
    cases v with
    | none =>
      obtain ⟨h3, e3, o3⟩ := free_ok (p := p) (F := F) o2
      exact ⟨none, h3, by simp only [e3, bind_ok], o3⟩
    | some v =>
      exact ⟨some ⟨p, v⟩, h2, rfl, o2.congr (by count)⟩

theorem tlvFree_ok {h : Heap} {F : List Nat} {t : Tlv} (o : Owns h (tlvBlocks [t] ++ F)) :
    ∃ h', tlvFree h t = .ok h' ∧ Owns h' F := by
  obtain ⟨h1, e1, o1⟩ := free_ok (p := t.value) (F := [t.node] ++ F) (o.congr (by count))
  obtain ⟨h2, e2, o2⟩ := free_ok (p := t.node) (F := F) o1
  exact ⟨h2, by rw [tlvFree, touch_ok o [t.node] (by simp [tlvBlocks]), bind_ok, e1, bind_ok, e2], o2⟩

theorem tlvClear_ok {F : List Nat} : ∀ (l : List Tlv) {h : Heap}, Owns h (tlvBlocks l ++ F) →
    ∃ h', tlvClear h l = .ok h' ∧ Owns h' F := by
  intro l
  induction l with
  | nil => intro h o; exact ⟨h, rfl, o⟩
  | cons t l ih =>
    intro h o
    obtain ⟨h1, e1, o1⟩ := tlvFree_ok (t := t) (F := tlvBlocks l ++ F) (o.congr (by count))
    obtain ⟨h2, e2, o2⟩ := ih o1
    exact ⟨h2, by rw [tlvClear, touch_ok o [t.node] (by simp [tlvBlocks]), bind_ok, e1, bind_ok, e2], o2⟩

theorem last_mem {l : List Tlv} {p : Nat} (h : p ∈ l.getLast?.toList.map (·.node)) : p ∈ tlvBlocks l := by
  obtain ⟨t, ht, rfl⟩ := List.mem_map.mp h
  exact (mem_tlvBlocks (List.mem_of_getLast? (Option.mem_toList.mp ht))).1

theorem tlvPush_ok {h : Heap} {l : List Tlv} {F : List Nat} (o : Owns h (tlvBlocks l ++ F)) (s : Alloc) :
    ∃ r l' h', tlvPush h l s = .ok (r, l', h') ∧ Owns h' (tlvBlocks l' ++ F) := by
  obtain ⟨t, h1, e1, o1⟩ := tlvAlloc_ok o s
  unfold tlvPush
  rw [e1, bind_ok]
  cases t with
  | none => exact ⟨-2, l, h1, rfl, o1⟩
  | some t =>
    refine ⟨0, l ++ [t], h1, ?_, o1.congr (by count)⟩
    simp only
    rw [touch_ok o1 _ (fun p hp => by simp [last_mem hp]), bind_ok]

theorem pushes_ok {F : List Nat} : ∀ (ss : List Alloc) {h : Heap} {l : List Tlv}, Owns h (tlvBlocks l ++ F) →
    ∃ r l' h', pushes h l ss = .ok (r, l', h') ∧ Owns h' (tlvBlocks l' ++ F) := by
  intro ss
  induction ss with
  | nil => intro h l o; exact ⟨0, l, h, rfl, o⟩
  | cons s ss ih =>
    intro h l o
    obtain ⟨r, l1, h1, e1, o1⟩ := tlvPush_ok o s
    rw [pushes, e1, bind_ok]
    by_cases hr : r ≠ 0
    · exact ⟨-2, l1, h1, if_pos hr, o1⟩
    · obtain ⟨r2, l2, h2, e2, o2⟩ := ih o1
      exact ⟨r2, l2, h2, by simp only [if_neg hr, e2], o2⟩

theorem parse_ok {h : Heap} {l : List Tlv} {F : List Nat} (o : Owns h (tlvBlocks l ++ F)) (s : Parse) :
    ∃ r l' h', parse h l s = .ok (r, l', h') ∧ Owns h' (tlvBlocks l' ++ F) := by
  obtain ⟨r, l1, h1, e1, o1⟩ := pushes_ok s.fields o
  exact ⟨_, l1, h1, by rw [parse, e1, bind_ok], o1⟩

theorem release_ok {h : Heap} {F : List Nat} {p : Nat} {l : List Tlv} (o : Owns h (p :: tlvBlocks l ++ F)) :
    ∃ h', release h p l = .ok h' ∧ Owns h' F := by
  obtain ⟨h1, e1, o1⟩ := tlvClear_ok l (F := p :: F) (o.congr (by count))
  obtain ⟨h2, e2, o2⟩ := free_ok o1
  exact ⟨h2, by rw [release, touch_ok o [p] (by simp), bind_ok, e1, bind_ok, e2], o2⟩

theorem appFree_ok {h : Heap} {F : List Nat} {x : App} (o : Owns h (appBlocks [x] ++ F)) :
    ∃ h', appFree h x = .ok h' ∧ Owns h' F := release_ok (o.congr (by count))

theorem create_ok {h : Heap} {F : List Nat} (o : Owns h F) (pse : List Tlv) (hp : ∀ p ∈ tlvBlocks pse, p ∈ F) (s : Create) :
    ∃ x h', create h pse s = .ok (x, h') ∧ Owns h' (appBlocks x.toList ++ F) ∧ ∀ y, x = some y → y.aid ∈ y.tlvs := by
  obtain ⟨p, h1, e1, i1, o1⟩ := malloc_ok o s.app
  unfold create
  rw [e1]
  cases p with
  | none => exact ⟨none, h1, rfl, o1, by simp⟩
  | some p =>
    simp only
    rw [touch_ok o1 [p] (by simp), bind_ok]
    cases s.template with
    | false =>
      obtain ⟨h2, e2, o2⟩ := release_ok (l := []) (p := p) (F := F) o1
      exact ⟨none, h2, by simp [e2, bind_ok], o2, by simp⟩
    | true =>
      obtain ⟨r, l, h2, e2, o2⟩ := parse_ok (l := []) (F := p :: F) o1 s.parse
      simp only [Bool.not_true, Bool.false_eq_true, if_false, e2, bind_ok]
      have o2' : Owns h2 (p :: tlvBlocks l ++ F) := o2.congr (by count)
      obtain ⟨h3, e3, o3⟩ := release_ok o2'
      by_cases hr : r ≠ 0
      · exact ⟨none, h3, by simp only [if_pos hr, e3, bind_ok], o3, by simp⟩
      · simp only [if_neg hr]
        rw [touch_ok o2' _ (fun q hq => by simp [hq]), bind_ok]
        cases ha : s.aid.bind (l[·]?) with
        | none => exact ⟨none, h3, by simp only [e3, bind_ok], o3, by simp⟩
        | some aid =>
          have hm : aid ∈ l := by
            obtain ⟨i, _, hi⟩ := Option.bind_eq_some_iff.mp ha
            exact List.mem_of_getElem? hi
          have hb := mem_tlvBlocks hm
          simp only
          rw [touch_ok o2' _ (fun q hq => by
            simp only [List.cons_append, List.mem_cons, List.mem_append, tlvBlocks, List.flatMap_cons, List.flatMap_nil,
              List.append_nil, List.not_mem_nil, or_false] at hq ⊢
            rcases hq with hq | (hq | hq) | hq | hq
            · exact .inl hq
            · exact .inr (.inr (hp q hq))
            · exact .inr (.inl hq)
            · rw [hq]; exact .inr (.inl hb.1)
            · rw [hq]; exact .inr (.inl hb.2)), bind_ok]
          by_cases hn : s.name ≠ 0 ∨ s.priority ≠ 0
          · exact ⟨none, h3, by simp only [if_pos hn, e3, bind_ok], o3, by simp⟩
          · refine ⟨some ⟨p, aid, l⟩, h2, by rw [if_neg hn], o2'.congr (by count), ?_⟩
            intro y hy
            cases hy
            exact hm

theorem lastApp_mem {l : List App} {p : Nat} (h : p ∈ l.getLast?.toList.map (·.block)) : p ∈ appBlocks l := by
  obtain ⟨t, ht, rfl⟩ := List.mem_map.mp h
  exact (mem_appBlocks (List.mem_of_getLast? (Option.mem_toList.mp ht))).1

theorem appPush_ok {h : Heap} {F : List Nat} {l : List App} {x : App} (o : Owns h F) (hl : ∀ p ∈ appBlocks l, p ∈ F)
    (hx : x.block ∈ F) : appPush h l x = .ok (l ++ [x]) := by
  rw [appPush, touch_ok o _ (fun p hp => hl p (lastApp_mem hp)), bind_ok, touch_ok o _ (by simpa using hx), bind_ok]

theorem appClear_ok {F : List Nat} : ∀ (l : List App) {h : Heap}, Owns h (appBlocks l ++ F) →
    ∃ h', appClear h l = .ok h' ∧ Owns h' F := by
  intro l
  induction l with
  | nil => intro h o; exact ⟨h, rfl, o⟩
  | cons t l ih =>
    intro h o
    obtain ⟨h1, e1, o1⟩ := appFree_ok (x := t) (F := appBlocks l ++ F) (o.congr (by count))
    obtain ⟨h2, e2, o2⟩ := ih o1
    exact ⟨h2, by rw [appClear, touch_ok o [t.block] (by simp [appBlocks, App.blocks]), bind_ok, e1, bind_ok, e2], o2⟩

/-- The applications of a list know where their AID is. -/
def Aids (l : List App) : Prop := ∀ x ∈ l, x.aid ∈ x.tlvs

theorem sortLoop_ok {h : Heap} {F : List Nat} : ∀ (l sorted : List App) (places : List Nat),
    Owns h (appBlocks l ++ appBlocks sorted ++ F) → Aids l → Aids sorted →
    ∃ l', sortLoop h sorted l places = .ok l' ∧ Owns h (appBlocks l' ++ F) ∧ Aids l' := by
  intro l
  induction l with
  | nil => intro sorted places o _ hs; exact ⟨sorted, rfl, o, hs⟩
  | cons x l ih =>
    intro sorted places o hl hs
    obtain ⟨l', e, o', h'⟩ := ih (sorted.take (places.headD 0) ++ x :: sorted.drop (places.headD 0)) places.tail
      (o.congr (by
        have : appBlocks sorted = appBlocks (sorted.take (places.headD 0)) ++ appBlocks (sorted.drop (places.headD 0)) := by
          rw [← appBlocks_append, List.take_append_drop]
        rw [this]
        count))
      (fun y hy => hl y (by simp [hy]))
      (by
        intro y hy
        rcases List.mem_append.mp hy with hy | hy
        · exact hs y (List.mem_of_mem_take hy)
        · rcases List.mem_cons.mp hy with rfl | hy
          · exact hl y (by simp)
          · exact hs y (List.mem_of_mem_drop hy))
    refine ⟨l', ?_, o', h'⟩
    rw [sortLoop, touch_ok o [x.block] (by simp [appBlocks, App.blocks]), bind_ok,
      touch_ok o _ (fun p hp => by
        obtain ⟨y, hy, rfl⟩ := List.mem_map.mp hp
        simp [(mem_appBlocks hy).1]), bind_ok]
    exact e

theorem entries_ok {F : List Nat} (pse aids : List Tlv) (hp : ∀ p ∈ tlvBlocks pse, p ∈ F) (ha : ∀ p ∈ tlvBlocks aids, p ∈ F) :
    ∀ (es : List Entry) {h : Heap} {apps : List App}, Owns h (appBlocks apps ++ F) → Aids apps →
    ∃ apps' h', entries h pse aids apps es = .ok (apps', h') ∧ Owns h' (appBlocks apps' ++ F) ∧ Aids apps' := by
  intro es
  induction es with
  | nil => intro h apps o hi; exact ⟨apps, h, rfl, o, hi⟩
  | cons e es ih =>
    intro h apps o hi
    cases e with
    | other => exact ih o hi
    | app s supported =>
      obtain ⟨x, h1, e1, o1, i1⟩ := create_ok o pse (fun p hq => by simp [hp p hq]) s
      rw [entries, e1, bind_ok]
      cases x with
      | none => exact ih o1 hi
      | some x =>
        have hb := mem_tlvBlocks (i1 x rfl)
        simp only
        rw [touch_ok o1 _ (fun q hq => by
          simp [tlvBlocks_cons, tlvBlocks_nil] at hq
          rcases hq with rfl | rfl | rfl | hq
          · simp [appBlocks_cons]
          · simp [appBlocks_cons, hb.1]
          · simp [appBlocks_cons, hb.2]
          · simp [ha q hq]), bind_ok]
        cases supported with
        | true =>
          rw [if_pos rfl, appPush_ok o1 (fun p hq => by simp [hq]) (by simp [appBlocks_cons]), bind_ok]
          refine ih (o1.congr (by count)) ?_
          intro y hy
          rcases List.mem_append.mp hy with hy | hy
          · exact hi y hy
          · rw [List.mem_singleton.mp hy]; exact i1 x rfl
        | false =>
          obtain ⟨h2, e2, o2⟩ := appFree_ok o1
          rw [if_neg (by simp), e2, bind_ok]
          exact ih o2 hi

theorem records_ok {F : List Nat} (pse aids : List Tlv) (sfi : Tlv) (last : Int) (hp : ∀ p ∈ tlvBlocks pse, p ∈ F)
    (ha : ∀ p ∈ tlvBlocks aids, p ∈ F) (hs : sfi ∈ pse) :
    ∀ (rs : List Record) {h : Heap} {apps : List App}, Owns h (appBlocks apps ++ F) → Aids apps →
    ∃ r apps' h', records h pse aids sfi last apps rs = .ok (r, apps', h') ∧ Owns h' (appBlocks apps' ++ F) ∧ Aids apps' := by
  have hsf : ∀ (apps : List App), ∀ p ∈ [sfi.node, sfi.value], p ∈ appBlocks apps ++ F := by
    intro apps p hq
    have hb := mem_tlvBlocks hs
    simp only [List.mem_cons, List.not_mem_nil, or_false] at hq
    rcases hq with rfl | rfl
    · simp [hp _ hb.1]
    · simp [hp _ hb.2]
  intro rs
  induction rs with
  | nil =>
    intro h apps o hi
    exact ⟨last, apps, h, by rw [records, touch_ok o _ (hsf apps), bind_ok], o, hi⟩
  | cons r rs ih =>
    intro h apps o hi
    cases r with
    | unexpected =>
      rw [records, touch_ok o _ (hsf apps), bind_ok]
      exact ih o hi
    | aef es code =>
      obtain ⟨apps1, h1, e1, o1, i1⟩ := entries_ok pse aids hp ha es o hi
      rw [records, touch_ok o _ (hsf apps), bind_ok, e1, bind_ok]
      by_cases hc : code < 0
      · exact ⟨code, apps1, h1, if_pos hc, o1, i1⟩
      · simp only [if_neg hc]
        exact ih o1 i1

theorem pseBody_ok {F : List Nat} (aids : List Tlv) (ha : ∀ p ∈ tlvBlocks aids, p ∈ F) (s : Pse) {h : Heap} {apps : List App}
    (o : Owns h (appBlocks apps ++ F)) (hi : Aids apps) :
    ∃ r pse apps' h', pseBody h aids apps s = .ok (r, pse, apps', h') ∧ Owns h' (tlvBlocks pse ++ (appBlocks apps' ++ F)) ∧
      Aids apps' := by
  obtain ⟨r, pse, h1, e1, o1⟩ := parse_ok (l := []) (F := appBlocks apps ++ F) o s.fci
  rw [pseBody, e1, bind_ok]
  by_cases hr : r < 0
  · exact ⟨1, pse, apps, h1, if_pos hr, o1, hi⟩
  · simp only [if_neg hr]
    rw [touch_ok o1 _ (fun p hq => by simp [hq]), bind_ok]
    cases hf : s.sfi.bind (pse[·]?) with
    | none => exact ⟨2, pse, apps, h1, rfl, o1, hi⟩
    | some sfi =>
      have hm : sfi ∈ pse := by
        obtain ⟨i, _, hi⟩ := Option.bind_eq_some_iff.mp hf
        exact List.mem_of_getElem? hi
      simp only
      rw [touch_ok o1 _ (fun p hq => by simp only [List.mem_singleton] at hq; subst hq; simp [(mem_tlvBlocks hm).1]), bind_ok]
      cases s.sfiOk with
      | false => exact ⟨3, pse, apps, h1, rfl, o1, hi⟩
      | true =>
        obtain ⟨r2, apps2, h2, e2, o2, i2⟩ := records_ok (F := tlvBlocks pse ++ F) pse aids sfi s.last
          (fun p hq => by simp [hq]) (fun p hq => by simp [ha p hq]) hm s.records (o1.congr (by count)) hi
        exact ⟨r2, pse, apps2, h2, by simp [e2, bind_ok], o2.congr (by count), i2⟩

theorem aids_nil : Aids [] := fun _ h => nomatch h

theorem readPse_ok {F : List Nat} (aids : List Tlv) (ha : ∀ p ∈ tlvBlocks aids, p ∈ F) (s : Pse) {h : Heap} {apps : List App}
    (o : Owns h (appBlocks apps ++ F)) (hi : Aids apps) :
    ∃ r apps' h', readPse h aids apps s = .ok (r, apps', h') ∧ Owns h' (appBlocks apps' ++ F) ∧ Aids apps' := by
  unfold readPse
  by_cases he : s.early ≠ 0
  · exact ⟨_, apps, h, if_pos he, o, hi⟩
  · rw [if_neg he]
    obtain ⟨r, pse, apps1, h1, e1, o1, i1⟩ := pseBody_ok aids ha s o hi
    obtain ⟨h2, e2, o2⟩ := tlvClear_ok pse o1
    simp only [e1, bind_ok, e2]
    by_cases hr : r ≠ 0
    · obtain ⟨h3, e3, o3⟩ := appClear_ok apps1 o2
      exact ⟨r, [], h3, by simp only [if_pos hr, e3, bind_ok], o3, aids_nil⟩
    · exact ⟨r, apps1, h2, by simp only [if_neg hr], o2, i1⟩

theorem aids_snoc {l : List App} {x : App} (hl : Aids l) (hx : x.aid ∈ x.tlvs) : Aids (l ++ [x]) := by
  intro y hy
  rcases List.mem_append.mp hy with hy | hy
  · exact hl y hy
  · rw [List.mem_singleton.mp hy]; exact hx

theorem findApps_ok {F : List Nat} : ∀ (ss : List Selected) (aids : List Tlv) {h : Heap} {apps : List App},
    (∀ p ∈ tlvBlocks aids, p ∈ F) → Owns h (appBlocks apps ++ F) → Aids apps →
    ∃ r apps' h', findApps h apps aids ss = .ok (r, apps', h') ∧ Owns h' (appBlocks apps' ++ F) ∧ Aids apps' := by
  intro ss
  induction ss with
  | nil =>
    intro aids h apps ha o hi
    cases aids with
    | nil => exact ⟨0, apps, h, rfl, o, hi⟩
    | cons aid aids => exact ⟨-3, apps, h, rfl, o, hi⟩
  | cons s ss ih =>
    intro aids h apps ha o hi
    cases aids with
    | nil => exact ⟨0, apps, h, rfl, o, hi⟩
    | cons aid aids =>
      have ha' : ∀ p ∈ tlvBlocks aids, p ∈ F := fun p hq => ha p (by simp [tlvBlocks_cons, hq])
      have hb := mem_tlvBlocks (l := aid :: aids) (t := aid) (by simp)
      have ht : touch h [aid.node, aid.value] = .ok () := touch_ok o _ (fun p hq => by
        simp only [List.mem_cons, List.not_mem_nil, or_false] at hq
        rcases hq with rfl | rfl
        · simp [ha _ hb.1]
        · simp [ha _ hb.2])
      cases s with
      | ends code => exact ⟨_, apps, h, by rw [findApps, ht, bind_ok], o, hi⟩
      | refused =>
        rw [findApps, ht, bind_ok]
        exact ih aids ha' o hi
      | app c exact part valid =>
        obtain ⟨x, h1, e1, o1, i1⟩ := create_ok o [] (by simp [tlvBlocks]) c
        rw [findApps, ht, bind_ok, e1, bind_ok]
        cases x with
        | none => exact ih aids ha' o1 hi
        | some x =>
          have hx := mem_tlvBlocks (i1 x rfl)
          have hpush : appPush h1 apps x = .ok (apps ++ [x]) :=
            appPush_ok o1 (fun p hq => by simp [hq]) (by simp [appBlocks_cons])
          have o1' : Owns h1 (appBlocks (apps ++ [x]) ++ F) := o1.congr (by count)
          have hi' := aids_snoc hi (i1 x rfl)
          obtain ⟨h2, e2, o2⟩ := appFree_ok o1
          simp only
          rw [touch_ok o1 _ (fun p hq => by
            simp only [List.mem_cons, List.not_mem_nil, or_false] at hq
            rcases hq with rfl | rfl | rfl
            · simp [ha _ hb.1]
            · simp [appBlocks_cons]
            · simp [appBlocks_cons, hx.1]), bind_ok]
          cases exact <;> cases part <;> cases valid <;>
            simp only [Bool.false_eq_true, if_false, if_true, hpush, e2, bind_ok] <;>
            first
              | exact ih aids ha' o1' hi'
              | exact ih aids ha' o2 hi
              | exact ih (aid :: aids) ha o1' hi'
              | exact ih (aid :: aids) ha o2 hi

theorem selectApp_ok {F : List Nat} {h : Heap} (o : Owns h F) (s : Select) :
    ∃ r x h', selectApp h s = .ok (r, x, h') ∧ Owns h' (appBlocks x.toList ++ F) ∧ ∀ y, x = some y → y.aid ∈ y.tlvs := by
  unfold selectApp
  by_cases he : s.early ≠ 0
  · exact ⟨_, none, h, if_pos he, o, by simp⟩
  · rw [if_neg he]
    obtain ⟨x, h1, e1, o1, i1⟩ := create_ok o [] (by simp [tlvBlocks]) s.app
    simp only [e1, bind_ok]
    cases x with
    | none => exact ⟨1, none, h1, rfl, o1, by simp⟩
    | some x =>
      have hx := mem_tlvBlocks (i1 x rfl)
      simp only
      rw [touch_ok o1 _ (fun p hq => by
        simp only [List.mem_cons, List.not_mem_nil, or_false] at hq
        rcases hq with rfl | rfl | rfl
        · simp [appBlocks_cons]
        · simp [appBlocks_cons, hx.1]
        · simp [appBlocks_cons, hx.2]), bind_ok]
      cases s.same with
      | false =>
        obtain ⟨h2, e2, o2⟩ := appFree_ok o1
        exact ⟨2, none, h2, by simp [e2, bind_ok], o2, by simp⟩
      | true => exact ⟨0, some x, h1, rfl, o1, i1⟩

theorem gpoFields_ok {F : List Nat} {h : Heap} (o : Owns h F) (s : Format) :
    ∃ r l h', gpoFields h s = .ok (r, l, h') ∧ Owns h' (tlvBlocks l ++ F) := by
  cases s with
  | one aip afl =>
    obtain ⟨r, l, h1, e1, o1⟩ := tlvPush_ok (l := []) o aip
    rw [gpoFields, e1, bind_ok]
    by_cases hr : r ≠ 0
    · exact ⟨-1, l, h1, if_pos hr, o1⟩
    · obtain ⟨r2, l2, h2, e2, o2⟩ := tlvPush_ok o1 afl
      exact ⟨_, l2, h2, by simp only [if_neg hr, e2, bind_ok]; rfl, o2⟩
  | two s => exact parse_ok (l := []) o s
  | other => exact ⟨0, [], h, rfl, o⟩

theorem tlvAppend_ok {F : List Nat} {h : Heap} {l other : List Tlv} (o : Owns h F) (hl : ∀ p ∈ tlvBlocks l, p ∈ F) :
    tlvAppend h l other = .ok (l ++ other, []) := by
  rw [tlvAppend, touch_ok o _ (fun p hp => hl p (last_mem hp)), bind_ok]

theorem gpo_ok {F : List Nat} {h : Heap} {list : List Tlv} (o : Owns h (tlvBlocks list ++ F)) (s : Gpo) :
    ∃ r l h', gpo h list s = .ok (r, l, h') ∧ Owns h' (tlvBlocks l ++ F) := by
  unfold gpo
  by_cases he : s.early ≠ 0
  · exact ⟨_, list, h, if_pos he, o⟩
  · rw [if_neg he]
    obtain ⟨r, l, h1, e1, o1⟩ := gpoFields_ok o s.format
    obtain ⟨h2, e2, o2⟩ := tlvClear_ok l o1
    simp only [e1, bind_ok]
    by_cases hr : r ≠ 0
    · exact ⟨-1, list, h2, by simp only [if_pos hr, e2, bind_ok], o2⟩
    · simp only [if_neg hr]
      rw [touch_ok o1 _ (fun p hp => by simp [hp]), bind_ok]
      by_cases hf : (!s.aip || !s.afl) = true
      · exact ⟨-7, list, h2, by simp only [if_pos hf, e2, bind_ok], o2⟩
      · rw [if_neg hf, tlvAppend_ok o1 (fun p hp => by simp [hp]), bind_ok]
        exact ⟨0, list ++ l, h1, rfl, o1.congr (by count)⟩

theorem readAfl_ok {F : List Nat} (code : Int) : ∀ (ss : List Parse) {h : Heap} {l : List Tlv}, Owns h (tlvBlocks l ++ F) →
    ∃ r l' h', readAfl h l code ss = .ok (r, l', h') ∧ Owns h' (tlvBlocks l' ++ F) := by
  intro ss
  induction ss with
  | nil => intro h l o; exact ⟨code, l, h, rfl, o⟩
  | cons s ss ih =>
    intro h l o
    obtain ⟨r, l1, h1, e1, o1⟩ := parse_ok o s
    rw [readAfl, e1, bind_ok]
    by_cases hr : r ≠ 0
    · exact ⟨-9, l1, h1, if_pos hr, o1⟩
    · simp only [if_neg hr]
      exact ih o1

theorem appFreeOpt_ok {F : List Nat} {h : Heap} {x : Option App} (o : Owns h (appBlocks x.toList ++ F)) :
    ∃ h', appFreeOpt h x = .ok h' ∧ Owns h' F := by
  cases x with
  | none => exact ⟨h, rfl, o⟩
  | some x => exact appFree_ok o

theorem reset_ok {F : List Nat} {h : Heap} {c : Ctx} (o : Owns h (c.blocks ++ F)) :
    ∃ h', reset h c = .ok ({ c with params := [], icc := [], terminal := [], selected := none }, h') ∧
      Owns h' (tlvBlocks c.config ++ tlvBlocks c.aids ++ F) := by
  obtain ⟨h1, e1, o1⟩ := tlvClear_ok c.params (F := tlvBlocks c.icc ++ (tlvBlocks c.terminal ++
    (appBlocks c.selected.toList ++ (tlvBlocks c.config ++ tlvBlocks c.aids ++ F)))) (o.congr (by count))
  obtain ⟨h2, e2, o2⟩ := tlvClear_ok c.icc o1
  obtain ⟨h3, e3, o3⟩ := tlvClear_ok c.terminal o2
  obtain ⟨h4, e4, o4⟩ := appFreeOpt_ok o3
  exact ⟨h4, by rw [reset, e1, bind_ok, e2, bind_ok, e3, bind_ok, e4, bind_ok], o4⟩

theorem clear_ok {F : List Nat} {h : Heap} {c : Ctx} (o : Owns h (c.blocks ++ F)) :
    ∃ h', clear h c = .ok (Ctx.init, h') ∧ Owns h' F := by
  obtain ⟨h1, e1, o1⟩ := tlvClear_ok c.config (F := tlvBlocks c.aids ++ ({ c with config := [], aids := [] } : Ctx).blocks ++ F)
    (o.congr (by count))
  obtain ⟨h2, e2, o2⟩ := tlvClear_ok c.aids (F := ({ c with config := [], aids := [] } : Ctx).blocks ++ F) (o1.congr (by count))
  obtain ⟨h3, e3, o3⟩ := reset_ok o2
  exact ⟨h3, by rw [clear, e1, bind_ok, e2, bind_ok, e3]; rfl, o3⟩

theorem build_ok {h : Heap} {c : Ctx} {apps : List App} (o : Owns h (c.blocks ++ appBlocks apps)) (hi : Aids apps) (s : Build) :
    ∃ r apps' h', build h c apps s = .ok (r, apps', h') ∧ Owns h' (c.blocks ++ appBlocks apps') ∧ Aids apps' := by
  have ha : ∀ p ∈ tlvBlocks c.aids, p ∈ c.blocks := fun p hp => by simp [Ctx.blocks, hp]
  obtain ⟨r, apps1, h1, e1, o1, i1⟩ := readPse_ok c.aids ha s.pse (o.congr (ids' := appBlocks apps ++ c.blocks) (by count)) hi
  rw [build, e1, bind_ok]
  by_cases hr : r < 0
  · exact ⟨1, apps1, h1, if_pos hr, o1.congr (by count), i1⟩
  · simp only [if_neg hr]
    have key : ∃ r apps2 h2, discover h1 c apps1 s = .ok (r, apps2, h2) ∧ Owns h2 (appBlocks apps2 ++ c.blocks) ∧ Aids apps2 := by
      unfold discover
      by_cases he : apps1.isEmpty = true
      · rw [if_pos he]
        exact findApps_ok s.find c.aids ha o1 i1
      · exact ⟨0, apps1, h1, if_neg he, o1, i1⟩
    obtain ⟨r2, apps2, h2, e2, o2, i2⟩ := key
    rw [e2, bind_ok]
    by_cases hr2 : r2 ≠ 0
    · exact ⟨1, apps2, h2, by simp only [if_pos hr2], o2.congr (by count), i2⟩
    · simp only [if_neg hr2]
      by_cases he : apps2.isEmpty = true
      · exact ⟨3, apps2, h2, if_pos he, o2.congr (by count), i2⟩
      · rw [if_neg he]
        obtain ⟨apps3, e3, o3, i3⟩ := sortLoop_ok apps2 [] s.places (F := c.blocks) (o2.congr (by count)) i2 aids_nil
        exact ⟨0, apps3, h2, by rw [sort, e3, bind_ok], o3.congr (by count), i3⟩

theorem select_ok {h : Heap} {c : Ctx} {apps : List App} (o : Owns h (c.blocks ++ appBlocks apps)) (hi : Aids apps) (index : Nat)
    (long : Bool) (s : Select) :
    ∃ r c' apps' h', select h c apps index long s = .ok (r, c', apps', h') ∧ Owns h' (c'.blocks ++ appBlocks apps') ∧
      Aids apps' ∧ ∀ y, c'.selected = some y → y.aid ∈ y.tlvs := by
  obtain ⟨h1, e1, o1⟩ := appFreeOpt_ok (x := c.selected) (F := ({ c with selected := none } : Ctx).blocks ++ appBlocks apps)
    (o.congr (by count))
  rw [select, e1, bind_ok]
  simp only
  rw [touch_ok o1 _ (fun p hp => by
    obtain ⟨y, hy, rfl⟩ := List.mem_map.mp hp
    simp [(mem_appBlocks (List.mem_of_mem_take hy)).1]), bind_ok]
  cases hx : apps[index]? with
  | none => exact ⟨-2, _, apps, h1, rfl, o1, hi, by simp⟩
  | some x =>
    have hm : x ∈ apps := List.mem_of_getElem? hx
    have hc : ∀ a, (appBlocks apps).count a = (appBlocks [x]).count a + (appBlocks (apps.eraseIdx index)).count a := by
      intro a
      have hlt : index < apps.length := (List.getElem?_eq_some_iff.mp hx).1
      have hd : apps.drop index = x :: apps.drop (index + 1) := by
        rw [List.drop_eq_getElem_cons hlt]
        congr 1
        exact (List.getElem?_eq_some_iff.mp hx).2
      have hsplit : apps = apps.take index ++ x :: apps.drop (index + 1) := by
        rw [← hd, List.take_append_drop]
      rw [List.eraseIdx_eq_take_drop_succ, appBlocks_append, List.count_append]
      conv => lhs; rw [hsplit, appBlocks_append, List.count_append, ← List.singleton_append, appBlocks_append, List.count_append]
      omega
    have hi2 : Aids (apps.eraseIdx index) := fun y hy => hi y (List.mem_of_mem_eraseIdx hy)
    have ha := mem_tlvBlocks (hi x hm)
    have hb := mem_appBlocks hm
    have o1' : Owns h1 (appBlocks [x] ++ (({ c with selected := none } : Ctx).blocks ++ appBlocks (apps.eraseIdx index))) :=
      o1.congr (by
        intro a
        have := hc a
        simp only [List.count_append] at this ⊢
        omega)
    obtain ⟨h2, e2, o2⟩ := appFree_ok o1'
    simp only
    rw [touch_ok o1 _ (fun p hp => by
      simp only [List.mem_cons, List.not_mem_nil, or_false] at hp
      rcases hp with rfl | rfl
      · simp [hb.1]
      · simp [hb.2 _ ha.1]), bind_ok]
    cases long with
    | true => exact ⟨_, _, _, h2, by simp only [if_true, e2, bind_ok]; rfl, o2, hi2, by simp⟩
    | false =>
      rw [if_neg (by simp), touch_ok o1 _ (fun p hp => by
        simp only [List.mem_cons, List.not_mem_nil, or_false] at hp
        rcases hp with rfl | rfl
        · simp [hb.2 _ ha.1]
        · simp [hb.2 _ ha.2]), bind_ok, e2, bind_ok]
      obtain ⟨r, y, h3, e3, o3, i3⟩ := selectApp_ok o2 s
      rw [e3, bind_ok]
      have o3' : Owns h3 (({ c with selected := y } : Ctx).blocks ++ appBlocks (apps.eraseIdx index)) := o3.congr (by count)
      by_cases h1r : r < 0
      · exact ⟨1, _, _, h3, by simp only [if_pos h1r], o3', hi2, i3⟩
      · by_cases h2r : r > 0
        · exact ⟨_, _, _, h3, by simp only [if_neg h1r, if_pos h2r]; rfl, o3', hi2, i3⟩
        · exact ⟨0, _, _, h3, by simp only [if_neg h1r, if_neg h2r], o3', hi2, i3⟩

theorem terminalData_ok {F : List Nat} {h : Heap} {aid : Tlv} (o : Owns h F) (ha : ∀ p ∈ [aid.node, aid.value], p ∈ F) (s : Initiate) :
    ∃ r l h', terminalData h aid s = .ok (r, l, h') ∧ Owns h' (tlvBlocks l ++ F) := by
  obtain ⟨r1, l1, h1, e1, o1⟩ := tlvPush_ok (l := []) o s.mode
  rw [terminalData, e1, bind_ok]
  by_cases c1 : r1 ≠ 0
  · exact ⟨-1, l1, h1, if_pos c1, o1⟩
  · obtain ⟨r2, l2, h2, e2, o2⟩ := tlvPush_ok o1 s.aid
    simp only [if_neg c1]
    rw [touch_ok o1 _ (fun p hp => by simp only [List.mem_append]; exact .inr (ha p hp)), bind_ok, e2, bind_ok]
    by_cases c2 : r2 ≠ 0
    · exact ⟨-1, l2, h2, if_pos c2, o2⟩
    · obtain ⟨r3, l3, h3, e3, o3⟩ := tlvPush_ok o2 s.tsi
      simp only [if_neg c2, e3, bind_ok]
      by_cases c3 : r3 ≠ 0
      · exact ⟨-1, l3, h3, if_pos c3, o3⟩
      · obtain ⟨r4, l4, h4, e4, o4⟩ := tlvPush_ok o3 s.tvr
        exact ⟨_, l4, h4, by simp only [if_neg c3, e4, bind_ok]; rfl, o4⟩

theorem initiate_ok {h : Heap} {c : Ctx} {F : List Nat} (o : Owns h (c.blocks ++ F))
    (hs : ∀ y, c.selected = some y → y.aid ∈ y.tlvs) (s : Initiate) :
    ∃ r c' h', initiate h c s = .ok (r, c', h') ∧ Owns h' (c'.blocks ++ F) ∧
      (r ≠ 0 → ∀ y, c'.selected = some y → y.aid ∈ y.tlvs) := by
  obtain ⟨config, aids, params, sel, icc, term⟩ := c
  unfold initiate
  cases sel with
  | none => exact ⟨-2, _, h, rfl, o, fun _ => hs⟩
  | some x =>
    have hsel := hs x rfl
    have ha := mem_tlvBlocks hsel
    obtain ⟨h1, e1, o1⟩ := tlvClear_ok icc (F := tlvBlocks term ++ ((Ctx.mk config aids params (some x) [] []).blocks ++ F))
      (o.congr (by count))
    obtain ⟨h2, e2, o2⟩ := tlvClear_ok term o1
    have hblk : ∀ p ∈ appBlocks [x], p ∈ (Ctx.mk config aids params (some x) [] []).blocks ++ F := by
      intro p hp
      simp only [Ctx.blocks, Option.toList_some, List.mem_append]
      exact .inl (.inl (.inl (.inr hp)))
    obtain ⟨r3, l3, h3, e3, o3⟩ := terminalData_ok (aid := x.aid) o2 (fun p hp => hblk p (by
      simp only [List.mem_cons, List.not_mem_nil, or_false] at hp
      rcases hp with rfl | rfl
      · exact (mem_appBlocks (l := [x]) (by simp)).2 _ ha.1
      · exact (mem_appBlocks (l := [x]) (by simp)).2 _ ha.2)) s
    simp only [e1, e2, bind_ok]
    rw [touch_ok o2 [x.block] (fun p hp => hblk p (by simp only [List.mem_singleton] at hp; subst hp; simp [appBlocks_cons])),
      bind_ok, e3, bind_ok]
    have o3' : Owns h3 ((Ctx.mk config aids params (some x) [] l3).blocks ++ F) := o3.congr (by count)
    have hblk3 : ∀ p ∈ appBlocks [x], p ∈ (Ctx.mk config aids params (some x) [] l3).blocks ++ F := by
      intro p hp
      simp only [Ctx.blocks, Option.toList_some, List.mem_append]
      exact .inl (.inl (.inl (.inr hp)))
    by_cases c3 : r3 ≠ 0
    · exact ⟨-1, _, h3, by simp only [if_pos c3], o3', fun _ => hs⟩
    · simp only [if_neg c3]
      rw [touch_ok o3' _ (fun p hp => by
        simp only [List.cons_append, List.mem_cons, List.mem_append] at hp
        rcases hp with hp | ((hp | hp) | hp) | hp
        · exact hblk3 p (by subst hp; simp [appBlocks_cons])
        · exact hblk3 p (by simp [appBlocks_cons, hp])
        · simp [Ctx.blocks, hp]
        · simp [Ctx.blocks, hp]
        · simp [Ctx.blocks, hp]), bind_ok]
      by_cases c4 : s.pdol ≠ 0
      · exact ⟨s.pdol, _, h3, by simp only [if_pos c4], o3', fun _ => hs⟩
      · simp only [if_neg c4]
        obtain ⟨r5, l5, h5, e5, o5⟩ := gpo_ok (list := []) (F := (Ctx.mk config aids params (some x) [] l3).blocks ++ F) o3' s.gpo
        rw [e5, bind_ok]
        by_cases c5 : r5 ≠ 0
        · obtain ⟨h6, e6, o6⟩ := tlvClear_ok l5 o5
          exact ⟨r5, _, h6, by simp only [if_pos c5, e6, bind_ok], o6, fun _ => hs⟩
        · simp only [if_neg c5]
          have hb5 : ∀ p ∈ appBlocks [x], p ∈ tlvBlocks l5 ++ ((Ctx.mk config aids params (some x) [] l3).blocks ++ F) :=
            fun p hp => List.mem_append.mpr (.inr (hblk3 p hp))
          rw [touch_ok o5 _ (fun p hp => hb5 p (by simp only [List.mem_singleton] at hp; subst hp; simp [appBlocks_cons])), bind_ok,
            tlvAppend_ok o5 (fun p hp => hb5 p (by simp [appBlocks_cons, hp])), bind_ok]
          refine ⟨0, _, h5, rfl, o5.congr ?_, fun h => absurd rfl h⟩
          count

theorem read_ok {h : Heap} {c : Ctx} {F : List Nat} (o : Owns h (c.blocks ++ F)) (s : Read) :
    ∃ r c' h', read h c s = .ok (r, c', h') ∧ Owns h' (c'.blocks ++ F) ∧ c'.selected = c.selected := by
  rw [read, touch_ok o _ (fun p hp => by simp [Ctx.blocks, hp]), bind_ok]
  cases s.afl with
  | false => exact ⟨1, c, h, rfl, o, rfl⟩
  | true =>
    obtain ⟨r, l, h1, e1, o1⟩ := readAfl_ok (l := []) (F := c.blocks ++ F) s.read.code s.read.records o
    obtain ⟨h2, e2, o2⟩ := tlvClear_ok l o1
    simp only [Bool.not_true, Bool.false_eq_true, if_false, e1, bind_ok]
    by_cases hr : r ≠ 0
    · exact ⟨1, c, h2, by simp only [if_pos hr, e2, bind_ok], o2, rfl⟩
    · simp only [if_neg hr]
      rw [touch_ok o1 _ (fun p hp => by simp [hp]), bind_ok]
      by_cases hc : s.check ≠ 0
      · exact ⟨s.check, c, h2, by simp only [if_pos hc, e2, bind_ok], o2, rfl⟩
      · rw [if_neg hc, tlvAppend_ok o1 (fun p hp => by simp [Ctx.blocks, hp]), bind_ok]
        exact ⟨0, { c with icc := c.icc ++ l }, h1, rfl, o1.congr (by count), rfl⟩

/-- What holds between calls. -/
def Inv (w : World) (done : Bool) : Prop :=
  Owns w.heap w.blocks ∧ Aids w.apps ∧ (done = false → ∀ y, w.ctx.selected = some y → y.aid ∈ y.tlvs)

theorem call_ok {w : World} {done : Bool} (i : Inv w done) (k : Call) (hk : ∀ s, k = .initiate s → done = false) :
    ∃ r w', call w k = .ok (r, w') ∧ Inv w' (initiated done k r) := by
  obtain ⟨o, ha, hs⟩ := i
  cases k with
  | push l s =>
    cases l with
    | config =>
      obtain ⟨r, l, h1, e1, o1⟩ := tlvPush_ok (l := w.ctx.config) (F := (Ctx.mk [] w.ctx.aids w.ctx.params w.ctx.selected w.ctx.icc w.ctx.terminal).blocks ++ appBlocks w.apps)
        (o.congr (by count)) s
      exact ⟨r, ⟨⟨l, w.ctx.aids, w.ctx.params, w.ctx.selected, w.ctx.icc, w.ctx.terminal⟩, w.apps, h1⟩, by rw [call, e1, bind_ok], o1.congr (by count), ha, hs⟩
    | aids =>
      obtain ⟨r, l, h1, e1, o1⟩ := tlvPush_ok (l := w.ctx.aids) (F := (Ctx.mk w.ctx.config [] w.ctx.params w.ctx.selected w.ctx.icc w.ctx.terminal).blocks ++ appBlocks w.apps)
        (o.congr (by count)) s
      exact ⟨r, ⟨⟨w.ctx.config, l, w.ctx.params, w.ctx.selected, w.ctx.icc, w.ctx.terminal⟩, w.apps, h1⟩, by rw [call, e1, bind_ok], o1.congr (by count), ha, hs⟩
    | params =>
      obtain ⟨r, l, h1, e1, o1⟩ := tlvPush_ok (l := w.ctx.params) (F := (Ctx.mk w.ctx.config w.ctx.aids [] w.ctx.selected w.ctx.icc w.ctx.terminal).blocks ++ appBlocks w.apps)
        (o.congr (by count)) s
      exact ⟨r, ⟨⟨w.ctx.config, w.ctx.aids, l, w.ctx.selected, w.ctx.icc, w.ctx.terminal⟩, w.apps, h1⟩, by rw [call, e1, bind_ok], o1.congr (by count), ha, hs⟩
  | build s =>
    obtain ⟨r, apps, h1, e1, o1, i1⟩ := build_ok o ha s
    exact ⟨r, ⟨w.ctx, apps, h1⟩, by rw [call, e1, bind_ok], o1, i1, hs⟩
  | select index long s =>
    obtain ⟨r, c, apps, h1, e1, o1, i1, j1⟩ := select_ok o ha index long s
    exact ⟨r, ⟨c, apps, h1⟩, by rw [call, e1, bind_ok], o1, i1, fun _ => j1⟩
  | initiate s =>
    have hd := hk s rfl
    obtain ⟨r, c, h1, e1, o1, j1⟩ := initiate_ok (F := appBlocks w.apps) o (hs hd) s
    refine ⟨r, ⟨c, w.apps, h1⟩, by rw [call, e1, bind_ok], o1, ha, fun h => j1 ?_⟩
    rintro rfl
    simp [initiated] at h
  | read s =>
    obtain ⟨r, c, h1, e1, o1, j1⟩ := read_ok (F := appBlocks w.apps) o s
    exact ⟨r, ⟨c, w.apps, h1⟩, by rw [call, e1, bind_ok], o1, ha, fun h => by rw [j1]; exact hs h⟩
  | dropApps =>
    obtain ⟨h1, e1, o1⟩ := appClear_ok w.apps (F := w.ctx.blocks) (o.congr (by count))
    exact ⟨0, ⟨w.ctx, [], h1⟩, by rw [call, e1, bind_ok], o1.congr (by count), aids_nil, hs⟩
  | reset =>
    obtain ⟨h1, e1, o1⟩ := reset_ok (F := appBlocks w.apps) o
    exact ⟨0, ⟨⟨w.ctx.config, w.ctx.aids, [], none, [], []⟩, w.apps, h1⟩, by rw [call, e1, bind_ok], o1.congr (by count), ha, fun _ => by simp⟩
  | clear =>
    obtain ⟨h1, e1, o1⟩ := clear_ok (F := appBlocks w.apps) o
    exact ⟨0, ⟨Ctx.init, w.apps, h1⟩, by rw [call, e1, bind_ok], o1, ha, fun _ => by simp [Ctx.init]⟩

theorem calls_ok : ∀ (ks : List Call) {w : World} {done : Bool}, Inv w done → Once done w ks →
    ∃ w' done', calls w ks = .ok w' ∧ Inv w' done' := by
  intro ks
  induction ks with
  | nil => intro w done i _; exact ⟨w, done, rfl, i⟩
  | cons k ks ih =>
    intro w done i hp
    obtain ⟨r, w1, e1, i1⟩ := call_ok i k hp.1
    obtain ⟨w2, d2, e2, i2⟩ := ih i1 (hp.2 r w1 e1)
    exact ⟨w2, d2, by simp only [calls, e1, bind_ok, e2], i2⟩

theorem inv_init : Inv World.init false :=
  ⟨⟨fun _ => rfl, fun _ h => nomatch h⟩, aids_nil, fun _ _ h => nomatch h⟩

/-! ## C131 -/

/-- **C131, partial.**  After any sequence of calls, whatever `malloc` and the card do, no block was used or released after
it was released, and each allocated block can be reached from the context or the list of applications in exactly one
way.  Missing: calls that initiate processing of an application once more after it was initiated, for which it is false
(`C131_again`). -/
theorem C131_owned_partial (ks : List Call) (h : Once false World.init ks) :
    ∃ w, calls World.init ks = .ok w ∧ (∀ p, w.heap.live p = true ↔ p ∈ w.blocks) ∧ w.blocks.Nodup := by
  obtain ⟨w, d, e, i⟩ := calls_ok ks inv_init h
  refine ⟨w, e, fun p => ⟨fun hp => ?_, i.1.live⟩, ?_⟩
  · have := i.1.1 p
    rw [hp] at this
    exact List.count_pos_iff.mp (by simp [this])
  · rw [List.nodup_iff_count]
    intro p
    rw [i.1.1 p]
    split <;> omega

theorem calls_append : ∀ (ks ks' : List Call) (w : World), calls w (ks ++ ks') = (do
    let w ← calls w ks
    calls w ks') := by
  intro ks
  induction ks with
  | nil => intro ks' w; rfl
  | cons k ks ih =>
    intro ks' w
    rw [List.cons_append, calls, calls]
    cases call w k with
    | error e => rfl
    | ok x => exact ih ks' x.2

/-- **C131, partial** (nothing is left).  When a program ends with `emv_ctx_clear` and
`emv_app_list_clear`, in either order, nothing is allocated any more.  Missing: as in
`C131_owned_partial`. -/
theorem C131_released_partial (ks : List Call) (h : Once false World.init ks) (last : List Call)
    (hl : last = [.clear, .dropApps] ∨ last = [.dropApps, .clear]) :
    ∃ w, calls World.init (ks ++ last) = .ok w ∧ ∀ p, w.heap.live p = false := by
  obtain ⟨w, d, e, i⟩ := calls_ok ks inv_init h
  rw [calls_append, e, bind_ok]
  have fin : ∀ h' : Heap, Owns h' [] → ∀ p, h'.live p = false := by
    intro h' o p
    have := o.1 p
    rw [← Bool.not_eq_true]
    intro hp
    rw [hp] at this
    simp at this
  rcases hl with rfl | rfl
  · obtain ⟨h1, e1, o1⟩ := clear_ok (F := appBlocks w.apps) i.1
    obtain ⟨h2, e2, o2⟩ := appClear_ok w.apps (F := []) (o1.congr (by count))
    exact ⟨⟨Ctx.init, [], h2⟩, by simp only [calls, call, e1, e2, bind_ok], fin h2 o2⟩
  · obtain ⟨h1, e1, o1⟩ := appClear_ok w.apps (F := w.ctx.blocks) (i.1.congr (by count))
    obtain ⟨h2, e2, o2⟩ := clear_ok (c := w.ctx) (F := []) (o1.congr (by count))
    exact ⟨⟨Ctx.init, [], h2⟩, by simp only [calls, call, e1, e2, bind_ok], fin h2 o2⟩

/-- **C131** (retrying).  Initiating the processing of an application may be tried again after it failed: the
application keeps its fields then. -/
theorem C131_retry (w : World) (i : Inv w false) (s : Initiate) (r : Int) (w' : World) (e : call w (.initiate s) = .ok (r, w'))
    (hr : r ≠ 0) : Inv w' false := by
  obtain ⟨r1, w1, e1, i1⟩ := call_ok i (.initiate s) (fun _ _ => rfl)
  rw [e] at e1
  cases e1
  have : initiated false (.initiate s) r = false := by simp [initiated, hr]
  rw [this] at i1
  exact i1

/-! ## Examples -/

/-- Both allocations succeed. -/
def good : Alloc := ⟨true, true⟩
/-- An application with three fields, the second of which is the AID. -/
def visa : Create := ⟨true, true, ⟨[good, good, good], 0⟩, some 1, 0, 0⟩
/-- One supported AID, for which the card has an application. -/
def shop : List Call :=
  [.push .aids good, .push .config good, .push .params ⟨true, false⟩, .build ⟨⟨5, ⟨[], 0⟩, none, true, [], 0⟩, [.app visa true false true], []⟩,
    .select 0 false ⟨0, visa, true⟩]
/-- GET PROCESSING OPTIONS succeeds. -/
def start : Initiate := ⟨good, good, good, good, 0, ⟨0, .one good good, true, true⟩⟩

/-- **C131 is false of the code** (again).  When processing is initiated for an application that was initiated before,
its AID was released with the data of the card and is read. -/
theorem C131_again : calls World.init (shop ++ [.initiate start, .initiate start]) = .error .uaf := by rfl

example : Once false World.init (shop ++ [.initiate start, .read ⟨true, ⟨[⟨[good, ⟨false, true⟩], 0⟩], 0⟩, 0⟩]) := by
  refine ⟨by simp, fun r w h => ⟨by simp, fun r w h => ⟨by simp, fun r w h => ⟨by simp, fun r w h => ⟨by simp, fun r w h =>
    ⟨fun s hs => rfl, fun r w h => ⟨by simp, fun r w h => trivial⟩⟩⟩⟩⟩⟩⟩
example : ((calls World.init (shop ++ [.initiate start])).toOption.map fun w => w.blocks.length) = some 23 := by decide +kernel

end Verif.Own
