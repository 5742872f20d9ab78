import Verif.ToolFlowProps
import Verif.TlvInvProps
import Verif.StrPackProps

/-!
# Runs with changed results (lemmas for C145)
-/

set_option autoImplicit false

namespace Verif.Tells
open Verif Ber BerSpec TlvParse App Tal Emv Fields Dol ToolTxn Formats

/-- The same run with `f` of its result: the same exchanges, the same command waiting, the same rest. -/
def mapRun {α β : Type} (f : α → β) : C (Run α) → C (Run β)
  | .error e => .error e
  | .ok (tr, .pending c) => .ok (tr, .pending c)
  | .ok (tr, .done a rest) => .ok (tr, .done (f a) rest)

theorem mapRun_fin {α β : Type} (f : α → β) (a : α) (rest : List W) : mapRun f (fin a rest) = fin (f a) rest := rfl

/-- Changing the result of a sequence is changing the result of its second part. -/
theorem mapRun_andThen {α β γ : Type} (f : β → γ) (x : C (Run α)) (g : α → List W → C (Run β)) :
    mapRun f (andThen x g) = andThen x (fun a rest => mapRun f (g a rest)) := by
  match x with
  | .error e => rfl
  | .ok (tr, .pending c) => rfl
  | .ok (tr, .done a rest) =>
    simp only [andThen, bind_ok]
    cases g a rest with
    | error e => rfl
    | ok y =>
      match y with
      | (_, .pending _) => rfl
      | (_, .done _ _) => rfl

/-- Continuing a run with a changed result. -/
theorem andThen_mapRun {α β γ : Type} (f : α → β) (x : C (Run α)) (g : β → List W → C (Run γ)) :
    andThen (mapRun f x) g = andThen x (fun a rest => g (f a) rest) := by
  match x with
  | .error e => rfl
  | .ok (tr, .pending c) => rfl
  | .ok (tr, .done a rest) => rfl

/-- Continuations matter only at the results reached. -/
theorem andThen_congr {α β : Type} {x : C (Run α)} {g g' : α → List W → C (Run β)}
    (h : ∀ tr a rest, x = .ok (tr, .done a rest) → g a rest = g' a rest) : andThen x g = andThen x g' := by
  match x, h with
  | .error e, _ => rfl
  | .ok (tr, .pending c), _ => rfl
  | .ok (tr, .done a rest), h => simp only [andThen, bind_ok, h tr a rest rfl]

/-- The context with other transaction parameters and another configuration. -/
def setData (p c : List Tlv) (x : Ctx) : Ctx := { x with params := p, config := c }

/-- Selecting an application does not use them. -/
theorem select_setData (p c : List Tlv) (ctx : Ctx) (apps : List App) (i : Nat) (script : List W) :
    select (setData p c ctx) apps i script =
      mapRun (fun x => (x.1, x.2.1, setData p c x.2.2)) (select ctx apps i script) := by
  unfold select
  simp only
  cases apps[i]? with
  | none => rfl
  | some a =>
    simp only
    split
    · rfl
    · rw [mapRun_andThen]
      refine andThen_congr fun tr x rest _ => ?_
      split
      · rfl
      · split <;> rfl

/-- Neither does reading the data. -/
theorem readData_setData (p c : List Tlv) (alloc : List Tlv → Tlv → Bool) (ctx : Ctx) (script : List W) :
    readData alloc (setData p c ctx) script =
      mapRun (fun x => (x.1, setData p c x.2)) (readData alloc ctx script) := by
  unfold readData
  have : (setData p c ctx).icc = ctx.icc := rfl
  rw [this]
  cases find ctx.icc 0x94 with
  | none => rfl
  | some afl =>
    simp only
    rw [mapRun_andThen]
    refine andThen_congr fun tr x rest _ => ?_
    repeat' split
    all_goals rfl

theorem dolData_congr {sources sources' : List (List Tlv)} {rs : List Req}
    (h : ∀ r ∈ rs, fieldData sources r = fieldData sources' r) : dolData sources rs = dolData sources' rs := by
  unfold dolData
  rw [List.map_congr_left h]

/-- A DOL has one list of entries. -/
theorem dol_unique : ∀ {rs qs : List Req}, (∀ r ∈ rs, r.WF) → (∀ r ∈ qs, r.WF) → encDol rs = encDol qs → rs = qs := by
  intro rs
  induction rs with
  | nil =>
    intro qs _ _ h
    cases qs with
    | nil => rfl
    | cons q qs => simp [encDol] at h
  | cons r rs ih =>
    intro qs hr hq h
    cases qs with
    | nil => simp [encDol] at h
    | cons q qs =>
      have h1 : r.tag ++ (r.len :: encDol rs) = q.tag ++ (q.len :: encDol qs) := by
        simpa [encDol] using h
      obtain ⟨ht, h2⟩ := tag_unique (hr r (by simp)) (hq q (by simp)) h1
      simp only [List.cons.injEq] at h2
      rw [ih (fun r h => hr r (by simp [h])) (fun r h => hq r (by simp [h])) h2.2]
      cases r
      cases q
      simp only at ht h2
      rw [ht, h2.1]

/-- The data for GET PROCESSING OPTIONS depend on the sources only through the bytes of the entries. -/
theorem gpoData_congr (buf buf' : List Byte) (hbuf : buf.length = 255) (hbuf' : buf'.length = 255)
    (sources sources' : List (List Tlv)) (hs : sources ≠ []) (hs' : sources' ≠ []) (tlvs : List Tlv)
    (hlen : ∀ v, field 0x9F38 tlvs = some v → v.length < 2 ^ 24)
    (h : ∀ rs : List Req, (∀ r ∈ rs, r.WF) → field 0x9F38 tlvs = some (encDol rs) →
      ∀ r ∈ rs, fieldData sources r = fieldData sources' r) :
    gpoData buf' sources' tlvs = gpoData buf sources tlvs := by
  rcases C17_gpo_data buf hbuf sources hs tlvs hlen with ⟨a1, a2⟩ | ⟨v, a1, a2, a3⟩ | ⟨rs, a1, a2, a3, a4, a5, -⟩
  all_goals
    rcases C17_gpo_data buf' hbuf' sources' hs' tlvs hlen with ⟨b1, b2⟩ | ⟨w, b1, b2, b3⟩ | ⟨qs, b1, b2, b3, b4, b5, -⟩
  all_goals try rw [a1] at b1
  all_goals try rw [a1] at b3
  all_goals try rw [a3] at b1
  all_goals try rw [a3] at b3
  all_goals try (cases b1; done)
  all_goals try (cases b3; done)
  · rw [a2, b2]
  · rw [a2, b2]
  · cases b3
    rcases a3 qs b1 rfl with rfl | h'
    · exact absurd rfl b2
    · omega
  · cases b1
    rcases b3 rs a1 rfl with rfl | h'
    · exact absurd rfl a2
    · omega
  · cases dol_unique a1 b1 (Option.some.inj b3)
    rw [a5, b5, dolData_congr (h rs a1 a3)]

theorem pushAll_ok {alloc : List Tlv → Tlv → Bool} : ∀ {ts l l' : List Tlv},
    pushAll alloc l ts = (true, l') → l' = l ++ ts := by
  intro ts
  induction ts with
  | nil => intro l l' h; simp only [pushAll, Prod.mk.injEq] at h; simp [← h.2]
  | cons t ts ih =>
    intro l l' h
    unfold pushAll at h
    split at h
    · rw [ih h]; simp
    · cases h

/-- Entries have fixed lengths: equal data have equal parts. -/
theorem dolData_inj {sources sources' : List (List Tlv)} : ∀ {rs : List Req},
    dolData sources rs = dolData sources' rs → ∀ r ∈ rs, fieldData sources r = fieldData sources' r := by
  intro rs
  induction rs with
  | nil => intro _ r hr; cases hr
  | cons q rs ih =>
    intro h r hr
    simp only [dolData, List.map_cons, List.flatten_cons] at h
    obtain ⟨h1, h2⟩ := List.append_inj h (by rw [fieldData_length, fieldData_length])
    rcases List.mem_cons.mp hr with rfl | hr
    · exact h1
    · exact ih h2 r hr

theorem template83_inj {d d' : List Byte} (hl : d.length = d'.length) (h : template83 d = template83 d') : d = d' := by
  unfold template83 at h
  rw [hl] at h
  exact List.append_cancel_left h

theorem decNat_inj : ∀ (a b : List Nat), a.length = b.length → (∀ d ∈ a, d ≤ 9) → (∀ d ∈ b, d ≤ 9) → decNat a = decNat b →
    a = b := by
  have snoc : ∀ (l : List Nat) (d : Nat), decNat (l ++ [d]) = decNat l * 10 + d := by
    intro l d
    simp [decNat]
  have main : ∀ (n : Nat) (a b : List Nat), a.length = n → b.length = n → (∀ d ∈ a, d ≤ 9) → (∀ d ∈ b, d ≤ 9) →
      decNat a = decNat b → a = b := by
    intro n
    induction n with
    | zero =>
      intro a b ha hb _ _ _
      rw [List.length_eq_zero_iff.mp ha, List.length_eq_zero_iff.mp hb]
    | succ n ih =>
      intro a b ha hb ha9 hb9 h
      have hae : a ≠ [] := by intro e; simp [e] at ha
      have hbe : b ≠ [] := by intro e; simp [e] at hb
      rw [← List.dropLast_concat_getLast hae, ← List.dropLast_concat_getLast hbe] at h ⊢
      rw [snoc, snoc] at h
      have h1 := ha9 _ (List.getLast_mem hae)
      have h2 := hb9 _ (List.getLast_mem hbe)
      rw [ih a.dropLast b.dropLast (by simp [ha]) (by simp [hb]) (fun d hd => ha9 d (List.dropLast_subset _ hd))
        (fun d hd => hb9 d (List.dropLast_subset _ hd)) (by omega)]
      have : a.getLast hae = b.getLast hbe := by omega
      rw [this]
  intro a b hl ha hb h
  exact main b.length a b hl rfl ha hb h

theorem numeric_unique {v v' : Option (List Byte)} {len n : Nat} (h : Numeric v len n) (h' : Numeric v' len n) : v = v' := by
  obtain ⟨b, rfl, h1, h2, h3⟩ := h
  obtain ⟨b', rfl, h1', h2', h3'⟩ := h'
  have hn : ∀ l : List Byte, (nibbles l).length = 2 * l.length := by
    intro l
    induction l with
    | nil => rfl
    | cons x l ih => simp [nibbles, ih]; omega
  rw [Str.nibbles_inj b b' (decNat_inj _ _ (by rw [hn, hn]; omega) h2 h2' (by omega))]

theorem binary_unique {v v' : Option (List Byte)} {len n : Nat} (h : Binary v len n) (h' : Binary v' len n) : v = v' := by
  obtain ⟨b, rfl, h1, h2⟩ := h
  obtain ⟨b', rfl, h1', h2'⟩ := h'
  rw [beNat_inj b b' (by omega) (by omega)]

theorem field_none {fs : List Tlv} {tag : Nat} (h : tag ∉ fs.map (·.tag)) : field tag fs = none := by
  rw [← find_field, find, List.find?_eq_none.mpr]
  · rfl
  · intro t ht e
    exact h (List.mem_map.mpr ⟨t, ht, by simpa using e⟩)

end Verif.Tells
