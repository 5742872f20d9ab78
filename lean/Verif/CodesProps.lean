import Verif.Codes
import Verif.TlvInfoLemmas

/-!
# C98: codes are looked up in the documents

A document is an array of objects, possibly under a key.  What it says is the list of its entries;
a code is looked up in that list.
-/

set_option autoImplicit false

namespace Verif.Codes
open Verif

/-! ## Specification -/

/-- `t` is what C sees of the text `s`. -/
def CString (s t : List Byte) : Prop := 0 ∉ t ∧ (s = t ∨ ∃ r, s = t ++ 0 :: r)

/-- Member `k` of an object reads `t`. -/
def Reads (lib : Lib) (f : List (List Byte × Json)) (k t : List Byte) : Prop :=
  ∃ j, (k, j) ∈ f ∧ j ≠ .null ∧
    ((∃ s, j = .str s ∧ CString s t) ∨ ((∀ s, j ≠ .str s) ∧ CString (lib.text j) t))

/-- Member `k` is missing or null. -/
def Lacks (f : List (List Byte × Json)) (k : List Byte) : Prop := ∀ j, (k, j) ∈ f → j = .null

/-- The members have different names, and the first is a string. -/
def Proper (f : List (List Byte × Json)) : Prop :=
  (f.map (·.1)).Nodup ∧ ∃ k s r, f = (k, .str s) :: r

/-- An element of the list of countries. -/
def Country (lib : Lib) (j : Json) (e : Entry) : Prop :=
  ∃ f, j = .obj f ∧ Proper f ∧ Reads lib f txt!"name" e.name ∧ Reads lib f txt!"alpha_2" e.alpha2 ∧
    Reads lib f txt!"alpha_3" e.alpha3 ∧ Reads lib f txt!"numeric" e.numeric

/-- An element of the list of currencies. -/
def Currency (lib : Lib) (j : Json) (e : Entry) : Prop :=
  ∃ f, j = .obj f ∧ Proper f ∧ Reads lib f txt!"name" e.name ∧ e.alpha2 = [] ∧
    Reads lib f txt!"alpha_3" e.alpha3 ∧ Reads lib f txt!"numeric" e.numeric

/-- An element of the list of languages; the code of two letters may be missing. -/
def Language (lib : Lib) (j : Json) (e : Entry) : Prop :=
  ∃ f, j = .obj f ∧ Proper f ∧ Reads lib f txt!"name" e.name ∧
    (Reads lib f txt!"alpha_2" e.alpha2 ∨ Lacks f txt!"alpha_2" ∧ e.alpha2 = []) ∧
    Reads lib f txt!"alpha_3" e.alpha3 ∧ e.numeric = []

/-- An element of the list of merchant categories; a number that does not fit in 32 bits is
reduced. -/
def Category (lib : Lib) (j : Json) (e : Nat × List Byte) : Prop :=
  ∃ f m, j = .obj f ∧ Proper f ∧ (txt!"mcc", m) ∈ f ∧ m ≠ .null ∧ 0 < lib.int64 m ∧
    lib.int64 m % 2 ^ 32 = e.1 ∧ Reads lib f txt!"edited_description" e.2

/-- An element with the number and text of a merchant category, whatever its first member is. -/
def Numbering (lib : Lib) (j : Json) (e : Nat × List Byte) : Prop :=
  ∃ f m, j = .obj f ∧ (txt!"mcc", m) ∈ f ∧ m ≠ .null ∧ 0 < lib.int64 m ∧
    lib.int64 m % 2 ^ 32 = e.1 ∧ Reads lib f txt!"edited_description" e.2

/-- `l` are elements that say `es`. -/
def All {α : Type} (p : Json → α → Prop) : List Json → List α → Prop
  | [], [] => True
  | j :: l, e :: es => p j e ∧ All p l es
  | _, _ => False

/-- A document with the list `l` under the key `k`. -/
def Under (root : Json) (k : List Byte) (l : List Json) : Prop :=
  l ≠ [] ∧ ∃ f, root = .obj f ∧ (f.map (·.1)).Nodup ∧ (k, .arr l) ∈ f

/-- The members of each object have different names, as json-c sees to. -/
def Distinct (l : List Json) : Prop := ∀ f, .obj f ∈ l → (f.map (·.1)).Nodup

/-- A file in directory `d`, with a list under `k` whose elements say `es`. -/
def Says (lib : Lib) (p : Json → Entry → Prop) (file k : List Byte) (es : List Entry) : Prop :=
  ∃ root l, lib.file file = some root ∧ Under root k l ∧ All p l es

/-- A file that is there and does not say anything. -/
def Bad (lib : Lib) (p : Json → Entry → Prop) (file k : List Byte) : Prop :=
  ∃ root, lib.file file = some root ∧ (∀ es, ¬ Says lib p file k es) ∧
    ∀ f l, root = .obj f → (f.map (·.1)).Nodup ∧ ((k, .arr l) ∈ f → Distinct l)

/-- The file of merchant categories. -/
def SaysMcc (lib : Lib) (file : List Byte) (es : List (Nat × List Byte)) : Prop :=
  ∃ l, lib.file file = some (.arr l) ∧ l ≠ [] ∧ All (Category lib) l es

/-- A file that is there and is not a list of merchant categories. -/
def BadMcc (lib : Lib) (file : List Byte) : Prop :=
  ∃ root, lib.file file = some root ∧ (∀ es, ¬ SaysMcc lib file es) ∧
    ∀ l, root = .arr l → Distinct l

/-- The name of the first entry with a code. -/
def firstName (p : Entry → Bool) (es : List Entry) : Option (List Byte) := (es.find? p).map (·.name)

/-- The text of the last category with a number. -/
def lastText (n : Nat) (es : List (Nat × List Byte)) : Option (List Byte) :=
  (es.reverse.find? (fun e => e.1 == n)).map (·.2)

/-! ## Members -/

theorem cstring_iff (s t : List Byte) : CString s t ↔ t = upToNul s := by
  constructor
  · rintro ⟨h0, rfl | ⟨r, rfl⟩⟩
    · have := List.takeWhile_append_of_pos (p := fun b : Byte => decide (b ≠ 0)) (l₁ := s) (l₂ := [])
        (by
          intro b hb
          simp only [decide_eq_true_eq]
          rintro rfl
          exact h0 hb)
      simpa [upToNul] using this.symm
    · rw [upToNul, List.takeWhile_append_of_pos]
      · simp
      · intro b hb
        simp only [decide_eq_true_eq]
        rintro rfl
        exact h0 hb
  · rintro rfl
    constructor
    · intro h
      have := List.all_takeWhile (p := fun b : Byte => decide (b ≠ 0)) (l := s)
      rw [List.all_eq_true] at this
      have := this 0 h
      simp at this
    · induction s with
      | nil => exact .inl rfl
      | cons b s ih =>
        by_cases hb : b = 0
        · subst hb
          exact .inr ⟨s, by simp [upToNul]⟩
        · rw [upToNul, List.takeWhile_cons_of_pos (by simpa using hb)]
          rcases ih with h | ⟨r, h⟩
          · left
            rw [upToNul] at h
            rw [← h]
          · right
            refine ⟨r, ?_⟩
            rw [upToNul] at h
            rw [List.cons_append, ← h]

theorem find_mem {β : Type} (f : List (List Byte × β)) (k : List Byte) (j : β)
    (hn : (f.map (·.1)).Nodup) : f.find? (fun e => e.1 == k) = some (k, j) ↔ (k, j) ∈ f := by
  constructor
  · exact List.mem_of_find?_eq_some
  · induction f with
    | nil => simp
    | cons e f ih =>
      intro h
      rw [List.map_cons, List.nodup_cons] at hn
      rw [List.find?_cons]
      by_cases he : e.1 = k
      · have : e = (k, j) := by
          rcases List.mem_cons.1 h with h | h
          · exact h.symm
          · exact absurd (he ▸ List.mem_map.2 ⟨_, h, rfl⟩) hn.1
        subst this
        simp
      · have h' : (k, j) ∈ f := by
          rcases List.mem_cons.1 h with h | h
          · exact absurd (h ▸ rfl) he
          · exact h
        rw [show (e.1 == k) = false by simpa using he]
        exact ih hn.2 h'

theorem member_iff (f : List (List Byte × Json)) (k : List Byte) (j : Json)
    (hn : (f.map (·.1)).Nodup) : member f k = some j ↔ (k, j) ∈ f ∧ j ≠ .null := by
  unfold member
  cases h : f.find? (fun e => e.1 == k) with
  | none =>
    constructor
    · intro h; exact absurd h (by simp)
    · rintro ⟨h1, -⟩
      rw [(find_mem f k j hn).2 h1] at h
      exact absurd h (by simp)
  | some e =>
    obtain ⟨k', j'⟩ := e
    have hk : k' = k := by
      have := List.find?_some h
      simpa using this
    subst hk
    have hm := (find_mem f k' j' hn).1 h
    constructor
    · intro h2
      cases j' <;> simp at h2 <;> subst h2 <;> exact ⟨hm, by simp⟩
    · rintro ⟨h1, h2⟩
      have := (find_mem f k' j hn).2 h1
      rw [h] at this
      injection this with this
      injection this with _ this
      subst this
      cases j' <;> simp at h2 ⊢

theorem stringMember_iff (lib : Lib) (f : List (List Byte × Json)) (k t : List Byte)
    (hn : (f.map (·.1)).Nodup) : stringMember lib f k = some t ↔ Reads lib f k t := by
  unfold stringMember Reads
  simp only [Option.map_eq_some_iff, member_iff f k _ hn]
  constructor
  · rintro ⟨j, ⟨h1, h2⟩, h3⟩
    refine ⟨j, h1, h2, ?_⟩
    cases j with
    | str s => exact .inl ⟨s, rfl, (cstring_iff _ _).2 h3.symm⟩
    | null => exact absurd rfl h2
    | other n => exact .inr ⟨by simp, (cstring_iff _ _).2 h3.symm⟩
    | arr l => exact .inr ⟨by simp, (cstring_iff _ _).2 h3.symm⟩
    | obj l => exact .inr ⟨by simp, (cstring_iff _ _).2 h3.symm⟩
  · rintro ⟨j, h1, h2, h3⟩
    refine ⟨j, ⟨h1, h2⟩, ?_⟩
    cases j with
    | str s =>
      rcases h3 with ⟨s', h3, h4⟩ | ⟨h3, -⟩
      · injection h3 with h3
        subst h3
        exact ((cstring_iff _ _).1 h4).symm
      · exact absurd rfl (h3 s)
    | null => exact absurd rfl h2
    | other n =>
      rcases h3 with ⟨s', h3, -⟩ | ⟨-, h4⟩
      · exact absurd h3 (by simp)
      · exact ((cstring_iff _ _).1 h4).symm
    | arr n =>
      rcases h3 with ⟨s', h3, -⟩ | ⟨-, h4⟩
      · exact absurd h3 (by simp)
      · exact ((cstring_iff _ _).1 h4).symm
    | obj n =>
      rcases h3 with ⟨s', h3, -⟩ | ⟨-, h4⟩
      · exact absurd h3 (by simp)
      · exact ((cstring_iff _ _).1 h4).symm

theorem stringMember_none (lib : Lib) (f : List (List Byte × Json)) (k : List Byte)
    (hn : (f.map (·.1)).Nodup) : stringMember lib f k = none ↔ Lacks f k := by
  unfold stringMember
  rw [Option.map_eq_none_iff]
  constructor
  · intro h j hj
    apply Classical.byContradiction
    intro hne
    rw [(member_iff f k j hn).2 ⟨hj, hne⟩] at h
    exact absurd h (by simp)
  · intro h
    cases hm : member f k with
    | none => rfl
    | some j =>
      have := (member_iff f k j hn).1 hm
      exact absurd (h j this.1) this.2

theorem firstIsString_iff (f : List (List Byte × Json)) (h : f ≠ []) :
    firstIsString f = true ↔ ∃ k s r, f = (k, .str s) :: r := by
  cases f with
  | nil => exact absurd rfl h
  | cons e r =>
    obtain ⟨k, j⟩ := e
    cases j <;> simp [firstIsString]

theorem country_entry (lib : Lib) (f : List (List Byte × Json)) (e : Entry)
    (hn : (f.map (·.1)).Nodup) :
    countryEntry lib f = some e ↔ Reads lib f txt!"name" e.name ∧ Reads lib f txt!"alpha_2" e.alpha2 ∧
    Reads lib f txt!"alpha_3" e.alpha3 ∧ Reads lib f txt!"numeric" e.numeric := by
  simp only [← stringMember_iff lib f _ _ hn, countryEntry, Option.bind_eq_bind,
    Option.bind_eq_some_iff]
  constructor
  · rintro ⟨a, h1, b, h2, c, h3, d, h4, h5⟩
    injection h5 with h5
    subst h5
    exact ⟨h1, h2, h3, h4⟩
  · rintro ⟨h1, h2, h3, h4⟩
    exact ⟨_, h1, _, h2, _, h3, _, h4, rfl⟩

theorem currency_entry (lib : Lib) (f : List (List Byte × Json)) (e : Entry)
    (hn : (f.map (·.1)).Nodup) :
    currencyEntry lib f = some e ↔ Reads lib f txt!"name" e.name ∧ e.alpha2 = [] ∧
    Reads lib f txt!"alpha_3" e.alpha3 ∧ Reads lib f txt!"numeric" e.numeric := by
  simp only [← stringMember_iff lib f _ _ hn, currencyEntry, Option.bind_eq_bind,
    Option.bind_eq_some_iff]
  constructor
  · rintro ⟨a, h1, c, h3, d, h4, h5⟩
    injection h5 with h5
    subst h5
    exact ⟨h1, rfl, h3, h4⟩
  · rintro ⟨h1, h2, h3, h4⟩
    refine ⟨_, h1, _, h3, _, h4, ?_⟩
    rw [← h2]

theorem language_entry (lib : Lib) (f : List (List Byte × Json)) (e : Entry)
    (hn : (f.map (·.1)).Nodup) :
    languageEntry lib f = some e ↔ Reads lib f txt!"name" e.name ∧
    (Reads lib f txt!"alpha_2" e.alpha2 ∨ Lacks f txt!"alpha_2" ∧ e.alpha2 = []) ∧
    Reads lib f txt!"alpha_3" e.alpha3 ∧ e.numeric = [] := by
  simp only [← stringMember_iff lib f _ _ hn, ← stringMember_none lib f _ hn, languageEntry,
    Option.bind_eq_bind, Option.bind_eq_some_iff]
  constructor
  · rintro ⟨a, h1, c, h3, h5⟩
    injection h5 with h5
    subst h5
    refine ⟨h1, ?_, h3, rfl⟩
    cases h : stringMember lib f txt!"alpha_2" with
    | none => exact .inr ⟨rfl, rfl⟩
    | some x => exact .inl rfl
  · rintro ⟨h1, h2, h3, h4⟩
    refine ⟨_, h1, _, h3, ?_⟩
    rcases h2 with h2 | ⟨h2, h5⟩
    · rw [h2, ← h4]; rfl
    · rw [h2]
      obtain ⟨a, b, c, d⟩ := e
      simp only at h4 h5
      subst h4 h5
      rfl

/-! ## Lists -/

/-- The visit of elements that say `es`. -/
theorem visit_all {σ α : Type} (p : Json → α → Prop)
    (add : σ → List (List Byte × Json) → Option σ) (f : σ → α → σ)
    (h : ∀ j a, p j a → ∃ fs, j = .obj fs ∧ firstIsString fs = true ∧ ∀ s, add s fs = some (f s a))
    (l : List Json) (es : List α) (s : σ) (hl : All p l es) :
    visit add l s = (true, es.foldl f s) := by
  induction l generalizing es s with
  | nil =>
    cases es with
    | nil => rfl
    | cons e es => exact absurd hl (by simp [All])
  | cons j l ih =>
    cases es with
    | nil => exact absurd hl (by simp [All])
    | cons e es =>
      obtain ⟨h1, h2⟩ := hl
      obtain ⟨fs, rfl, h3, h4⟩ := h j e h1
      rw [visit, h4]
      simp only []
      rw [if_pos h3, ih es _ h2, List.foldl_cons]

/-- The visit of anything else fails. -/
theorem visit_fails {σ α : Type} (p : Json → α → Prop)
    (add : σ → List (List Byte × Json) → Option σ)
    (h : ∀ fs, (fs.map (·.1)).Nodup → firstIsString fs = true → ∀ s s', add s fs = some s' →
      ∃ a, p (.obj fs) a)
    (l : List Json) (s : σ) (hn : Distinct l) (hl : ¬ ∃ es, All p l es) : (visit add l s).1 = false := by
  induction l generalizing s with
  | nil => exact absurd ⟨[], trivial⟩ hl
  | cons j l ih =>
    cases j with
    | obj fs =>
      rw [visit]
      cases hs : add s fs with
      | none => rfl
      | some s' =>
        simp only []
        by_cases hf : firstIsString fs = true
        · rw [if_pos hf]
          apply ih _ (fun fs h => hn fs (by simp [h]))
          rintro ⟨es, hes⟩
          obtain ⟨a, ha⟩ := h fs (hn fs (by simp)) hf s s' hs
          exact hl ⟨a :: es, ha, hes⟩
        · rw [if_neg hf]
    | null => rfl
    | other n => rfl
    | str s => rfl
    | arr l => rfl

theorem all_length {α : Type} {p : Json → α → Prop} {l : List Json} {es : List α} (h : All p l es) :
    l.length = es.length := by
  induction l generalizing es with
  | nil =>
    cases es with
    | nil => rfl
    | cons e es => exact absurd h (by simp [All])
  | cons j l ih =>
    cases es with
    | nil => exact absurd h (by simp [All])
    | cons e es => simp [ih h.2]

theorem push_all (es : List Entry) (v : Vec) (h : v.elems.length + es.length ≤ v.cap) :
    es.foldl Vec.push v = ⟨v.elems ++ es, v.cap, v.gen⟩ := by
  induction es generalizing v with
  | nil => simp
  | cons e es ih =>
    simp only [List.length_cons] at h
    rw [List.foldl_cons, Vec.push, if_pos (by omega), ih _ (by simp; omega)]
    simp

/-- Whatever the capacity: the elements, and whether the storage is replaced. -/
theorem push_any (es : List Entry) (v : Vec) :
    (es.foldl Vec.push v).elems = v.elems ++ es ∧ v.gen ≤ (es.foldl Vec.push v).gen := by
  induction es generalizing v with
  | nil => simp
  | cons e es ih =>
    rw [List.foldl_cons]
    obtain ⟨h1, h2⟩ := ih (v.push e)
    have : (v.push e).elems = v.elems ++ [e] ∧ v.gen ≤ (v.push e).gen := by
      unfold Vec.push
      split <;> simp
    exact ⟨by rw [h1, this.1]; simp, by omega⟩

theorem push_full (e : Entry) (es : List Entry) (v : Vec) (h : v.cap ≤ v.elems.length) :
    v.gen < ((e :: es).foldl Vec.push v).gen := by
  rw [List.foldl_cons]
  have := (push_any es (v.push e)).2
  have : (v.push e).gen = v.gen + 1 := by rw [Vec.push, if_neg (by omega)]
  omega

/-! ## Maps -/

section maps
variable {κ : Type} [BEq κ] [LawfulBEq κ]

theorem emplace_find (m : Map κ) (k k' : κ) (r : Ref) :
    (emplace m k r).find? (fun e => e.1 == k') =
      match m.find? (fun e => e.1 == k') with
      | some x => some x
      | none => if k == k' then some (k, r) else none := by
  unfold emplace
  by_cases h : m.any (fun e => e.1 == k) = true
  · rw [if_pos h]
    cases hf : m.find? (fun e => e.1 == k') with
    | some x => rfl
    | none =>
      have : k ≠ k' := by
        rintro rfl
        rw [List.any_eq_true] at h
        obtain ⟨x, hx, hx2⟩ := h
        exact absurd hx2 (by simpa using List.find?_eq_none.1 hf x hx)
      simp [this]
  · rw [if_neg h, List.find?_append]
    cases hf : m.find? (fun e => e.1 == k') with
    | some x => rfl
    | none =>
      by_cases hk : k = k'
      · subst hk; simp
      · simp [hk]

/-- The first element with a key. -/
def indexOf (key : Entry → Option κ) (k : κ) : Nat → List Entry → Option Nat
  | _, [] => none
  | i, e :: es => if key e == some k then some i else indexOf key k (i + 1) es

theorem fill_find (key : Entry → Option κ) (gen : Nat) (k : κ) (es : List Entry) (i : Nat)
    (m : Map κ) :
    (fill key gen i es m).find? (fun e => e.1 == k) =
      match m.find? (fun e => e.1 == k) with
      | some x => some x
      | none => (indexOf key k i es).map (fun j => (k, ⟨gen, j⟩)) := by
  induction es generalizing i m with
  | nil => rw [fill, indexOf]; cases m.find? (fun e => e.1 == k) <;> rfl
  | cons e es ih =>
    rw [fill, indexOf]
    cases hk : key e with
    | none => simp only [ih]; simp
    | some k' =>
      simp only [ih, emplace_find]
      cases m.find? (fun e => e.1 == k) with
      | some x => rfl
      | none =>
        by_cases h : k' = k
        · subst h; simp
        · simp [h]

theorem indexOf_some (key : Entry → Option κ) (k : κ) (es : List Entry) (i : Nat) :
    match indexOf key k i es with
    | none => es.find? (fun e => key e == some k) = none
    | some j => ∃ e, i ≤ j ∧ es[j - i]? = some e ∧ es.find? (fun e => key e == some k) = some e := by
  induction es generalizing i with
  | nil => simp [indexOf]
  | cons e es ih =>
    rw [indexOf]
    by_cases h : (key e == some k) = true
    · rw [if_pos h]
      exact ⟨e, by omega, by simp, by rw [List.find?_cons, h]⟩
    · rw [if_neg h]
      have h' : (key e == some k) = false := by simpa using h
      have := ih (i + 1)
      cases hi : indexOf key k (i + 1) es with
      | none =>
        rw [hi] at this
        simp only [] at this ⊢
        rw [List.find?_cons, h']
        exact this
      | some j =>
        rw [hi] at this
        obtain ⟨x, h1, h2, h3⟩ := this
        refine ⟨x, by omega, ?_, by rw [List.find?_cons, h']; exact h3⟩
        rw [show j - i = (j - (i + 1)) + 1 by omega, List.getElem?_cons_succ]
        exact h2

/-- A lookup in a map built for the elements of a vector. -/
theorem lookup_fill (key : Entry → Option κ) (es : List Entry) (cap gen : Nat) (k : κ) :
    lookup ⟨es, cap, gen⟩ (fill key gen 0 es []) k =
      .ok (firstName (fun e => key e == some k) es) := by
  unfold lookup
  rw [fill_find]
  simp only [List.find?_nil]
  have := indexOf_some key k es 0
  cases h : indexOf key k 0 es with
  | none =>
    rw [h] at this
    simp only [Option.map_none, firstName]
    rw [this]; rfl
  | some j =>
    rw [h] at this
    obtain ⟨e, -, h2, h3⟩ := this
    simp only [Nat.sub_zero] at h2
    simp only [Option.map_some, name, if_pos, h2, bind_ok, firstName, h3]

end maps

theorem fillNum_fill (stoul : List Byte → Option Nat) (gen : Nat) (es : List Entry) (i : Nat)
    (m : Map Nat) (h : ∀ e ∈ es, (stoul e.numeric).isSome) :
    fillNum stoul gen i es m =
      some (fill (fun e => (stoul e.numeric).map (· % 2 ^ 32)) gen i es m) := by
  induction es generalizing i m with
  | nil => rfl
  | cons e es ih =>
    obtain ⟨n, hn⟩ := Option.isSome_iff_exists.1 (h e (by simp))
    rw [fillNum, fill, hn]
    simp only [Option.map_some]
    exact ih _ _ (fun x hx => h x (by simp [hx]))

/-! ## One table -/

/-- What makes up a kind of table. -/
structure Kind (lib : Lib) where
  entry : List (List Byte × Json) → Option Entry
  rel : Json → Entry → Prop
  iff : ∀ j e, rel j e ↔ ∃ f, j = .obj f ∧ Proper f ∧ entry f = some e
  nil : entry [] = none

def countryKind (lib : Lib) : Kind lib where
  entry := countryEntry lib
  rel := Country lib
  iff j e := by
    constructor
    · rintro ⟨f, h1, h2, h3⟩
      exact ⟨f, h1, h2, (country_entry lib f e h2.1).2 h3⟩
    · rintro ⟨f, h1, h2, h3⟩
      exact ⟨f, h1, h2, (country_entry lib f e h2.1).1 h3⟩
  nil := rfl

def currencyKind (lib : Lib) : Kind lib where
  entry := currencyEntry lib
  rel := Currency lib
  iff j e := by
    constructor
    · rintro ⟨f, h1, h2, h3⟩
      exact ⟨f, h1, h2, (currency_entry lib f e h2.1).2 h3⟩
    · rintro ⟨f, h1, h2, h3⟩
      exact ⟨f, h1, h2, (currency_entry lib f e h2.1).1 h3⟩
  nil := rfl

def languageKind (lib : Lib) : Kind lib where
  entry := languageEntry lib
  rel := Language lib
  iff j e := by
    constructor
    · rintro ⟨f, h1, h2, h3⟩
      exact ⟨f, h1, h2, (language_entry lib f e h2.1).2 h3⟩
    · rintro ⟨f, h1, h2, h3⟩
      exact ⟨f, h1, h2, (language_entry lib f e h2.1).1 h3⟩
  nil := rfl

theorem proper_ne {f : List (List Byte × Json)} (h : Proper f) : f ≠ [] := by
  rintro rfl
  obtain ⟨-, k, s, r, h⟩ := h
  exact absurd h (by simp)

theorem load_all {lib : Lib} (K : Kind lib) (l : List Json) (es : List Entry) (v : Vec)
    (h : All K.rel l es) :
    load K.entry l v = (true, es.foldl Vec.push (v.reserve l.length)) := by
  unfold load
  apply visit_all K.rel _ _ _ l es _ h
  intro j e hj
  obtain ⟨f, rfl, h2, h3⟩ := (K.iff j e).1 hj
  refine ⟨f, rfl, (firstIsString_iff f (proper_ne h2)).2 h2.2, fun s => by rw [h3]; rfl⟩

theorem load_fresh {lib : Lib} (K : Kind lib) (l : List Json) (es : List Entry) (hl : l ≠ [])
    (h : All K.rel l es) : load K.entry l ⟨[], 0, 0⟩ = (true, ⟨es, es.length, 1⟩) := by
  have hlen := all_length h
  have : 0 < l.length := List.length_pos_iff.mpr hl
  rw [load_all K l es _ h, Vec.reserve, if_pos (by simpa using this), push_all _ _ (by simp [hlen])]
  simp [hlen]

theorem load_full {lib : Lib} (K : Kind lib) (l : List Json) (es : List Entry) (v : Vec) (hl : l ≠ [])
    (h : All K.rel l es) (hv : v.cap ≤ v.elems.length) :
    ∃ v', load K.entry l v = (true, v') ∧ v.gen < v'.gen := by
  refine ⟨_, load_all K l es _ h, ?_⟩
  cases es with
  | nil =>
    have := all_length h
    have : 0 < l.length := List.length_pos_iff.mpr hl
    simp_all
  | cons e es =>
    unfold Vec.reserve
    split
    · have := (push_any (e :: es) ⟨v.elems, l.length, v.gen + 1⟩).2
      simp only [] at this
      omega
    · exact push_full e es v hv

theorem load_fails {lib : Lib} (K : Kind lib) (l : List Json) (v : Vec) (hn : Distinct l)
    (h : ¬ ∃ es, All K.rel l es) : (load K.entry l v).1 = false := by
  unfold load
  apply visit_fails K.rel _ _ l _ hn h
  intro fs hnd hf s s' hs
  rw [Option.map_eq_some_iff] at hs
  obtain ⟨e, he, -⟩ := hs
  have : fs ≠ [] := by
    rintro rfl
    rw [K.nil] at he
    exact absurd he (by simp)
  exact ⟨e, (K.iff _ _).2 ⟨fs, rfl, ⟨hnd, (firstIsString_iff fs this).1 hf⟩, he⟩⟩

theorem arrayOf_iff (f : List (List Byte × Json)) (k : List Byte) (l : List Json)
    (hn : (f.map (·.1)).Nodup) : arrayOf (.obj f) k = some l ↔ l ≠ [] ∧ (k, .arr l) ∈ f := by
  unfold arrayOf
  simp only []
  constructor
  · intro h
    split at h
    · rename_i x y hf
      have hk : x = k := by simpa using List.find?_some hf
      subst hk
      split at h
      · exact absurd h (by simp)
      · rename_i h0
        injection h with h
        subst h
        exact ⟨fun e => h0 (by simp [e]), List.mem_of_find?_eq_some hf⟩
    · exact absurd h (by simp)
  · rintro ⟨h1, h2⟩
    rw [(find_mem f k _ hn).2 h2]
    simp only []
    rw [if_neg]
    intro h
    exact h1 (List.eq_nil_of_length_eq_zero h)

theorem arrayOf_under {root : Json} {k : List Byte} {l : List Json} (h : Under root k l) :
    arrayOf root k = some l := by
  obtain ⟨h1, f, rfl, h2, h3⟩ := h
  exact (arrayOf_iff f k l h2).2 ⟨h1, h3⟩

/-- What a bad file leads to. -/
theorem bad_array {lib : Lib} (K : Kind lib) (file k : List Byte) (h : Bad lib K.rel file k) :
    ∃ root, lib.file file = some root ∧
      ∀ l, arrayOf root k = some l → ∀ v, (load K.entry l v).1 = false := by
  obtain ⟨root, h1, h2, h3⟩ := h
  refine ⟨root, h1, ?_⟩
  intro l hl v
  cases root with
  | obj f =>
    obtain ⟨hn, -⟩ := h3 f l rfl
    have hl' := (arrayOf_iff f k l hn).1 hl
    refine load_fails K l v ((h3 f l rfl).2 hl'.2) ?_
    rintro ⟨es, hes⟩
    exact h2 es ⟨_, l, h1, ⟨hl'.1, f, rfl, hn, hl'.2⟩, hes⟩
  | null => simp [arrayOf] at hl
  | other n => simp [arrayOf] at hl
  | str n => simp [arrayOf] at hl
  | arr n => simp [arrayOf] at hl

def noTable : Table := ⟨⟨[], 0, 0⟩, [], [], []⟩

/-- The numbers of all entries are read and fit. -/
def Numbered (lib : Lib) (es : List Entry) : Prop :=
  ∀ e ∈ es, ∃ n, lib.stoul e.numeric = some n ∧ n < 2 ^ 32

def numKey (lib : Lib) (e : Entry) : Option Nat := (lib.stoul e.numeric).map (· % 2 ^ 32)

def countryTable (lib : Lib) (es : List Entry) : Table :=
  ⟨⟨es, es.length, 1⟩, fill (fun e => some e.alpha2) 1 0 es [], fill (fun e => some e.alpha3) 1 0 es [],
    fill (numKey lib) 1 0 es []⟩

def currencyTable (lib : Lib) (es : List Entry) : Table :=
  ⟨⟨es, es.length, 1⟩, [], fill (fun e => some e.alpha3) 1 0 es [], fill (numKey lib) 1 0 es []⟩

def languageTable (es : List Entry) : Table :=
  ⟨⟨es, es.length, 1⟩, fill language2 1 0 es [], fill (fun e => some e.alpha3) 1 0 es [], []⟩

theorem numbered_some {lib : Lib} {es : List Entry} (h : Numbered lib es) :
    ∀ e ∈ es, (lib.stoul e.numeric).isSome := by
  intro e he
  obtain ⟨n, hn, -⟩ := h e he
  rw [hn]; rfl

theorem country_good {lib : Lib} {file : List Byte} {es : List Entry}
    (h : Says lib (Country lib) file txt!"3166-1" es) (hn : Numbered lib es) :
    stage lib file 1 (-1) (buildCountry lib) noTable = .ok (0, countryTable lib es) := by
  obtain ⟨root, l, h1, h2, h3⟩ := h
  rw [stage, h1]
  simp only []
  rw [buildCountry, arrayOf_under h2]
  have hL : load (countryEntry lib) l ⟨[], 0, 0⟩ = _ := load_fresh (countryKind lib) l es h2.1 h3
  simp only [noTable, hL, if_true, fillNum_fill _ _ _ _ _ (numbered_some hn)]
  rfl

theorem currency_good {lib : Lib} {file : List Byte} {es : List Entry}
    (h : Says lib (Currency lib) file txt!"4217" es) (hn : Numbered lib es) :
    stage lib file 2 (-2) (buildCurrency lib) noTable = .ok (0, currencyTable lib es) := by
  obtain ⟨root, l, h1, h2, h3⟩ := h
  rw [stage, h1]
  simp only []
  rw [buildCurrency, arrayOf_under h2]
  have hL : load (currencyEntry lib) l ⟨[], 0, 0⟩ = _ := load_fresh (currencyKind lib) l es h2.1 h3
  simp only [noTable, hL, if_true, fillNum_fill _ _ _ _ _ (numbered_some hn)]
  rfl

theorem language_good {lib : Lib} {file : List Byte} {es : List Entry}
    (h : Says lib (Language lib) file txt!"639-2" es) :
    stage lib file 3 (-3) (buildLanguage lib) noTable = .ok (0, languageTable es) := by
  obtain ⟨root, l, h1, h2, h3⟩ := h
  rw [stage, h1]
  simp only []
  rw [buildLanguage, arrayOf_under h2]
  have hL : load (languageEntry lib) l ⟨[], 0, 0⟩ = _ := load_fresh (languageKind lib) l es h2.1 h3
  simp only [noTable, hL, if_true]
  rfl

/-- A file that is missing or bad leaves the maps alone. -/
theorem country_bad {lib : Lib} {file : List Byte} (t : Table)
    (h : Bad lib (Country lib) file txt!"3166-1") :
    ∃ v, stage lib file 1 (-1) (buildCountry lib) t = .ok (-1, { t with vec := v }) := by
  obtain ⟨root, h1, h2⟩ := bad_array (countryKind lib) _ _ h
  rw [stage, h1]
  simp only [buildCountry]
  cases ha : arrayOf root txt!"3166-1" with
  | none => exact ⟨t.vec, rfl⟩
  | some l =>
    have := h2 l ha t.vec
    simp only [countryKind] at this
    simp only [this]
    exact ⟨_, rfl⟩

theorem currency_bad {lib : Lib} {file : List Byte} (t : Table)
    (h : Bad lib (Currency lib) file txt!"4217") :
    ∃ v, stage lib file 2 (-2) (buildCurrency lib) t = .ok (-2, { t with vec := v }) := by
  obtain ⟨root, h1, h2⟩ := bad_array (currencyKind lib) _ _ h
  rw [stage, h1]
  simp only [buildCurrency]
  cases ha : arrayOf root txt!"4217" with
  | none => exact ⟨t.vec, rfl⟩
  | some l =>
    have := h2 l ha t.vec
    simp only [currencyKind] at this
    simp only [this]
    exact ⟨_, rfl⟩

theorem language_bad {lib : Lib} {file : List Byte} (t : Table)
    (h : Bad lib (Language lib) file txt!"639-2") :
    ∃ v, stage lib file 3 (-3) (buildLanguage lib) t = .ok (-3, { t with vec := v }) := by
  obtain ⟨root, h1, h2⟩ := bad_array (languageKind lib) _ _ h
  rw [stage, h1]
  simp only [buildLanguage]
  cases ha : arrayOf root txt!"639-2" with
  | none => exact ⟨t.vec, rfl⟩
  | some l =>
    have := h2 l ha t.vec
    simp only [languageKind] at this
    simp only [this]
    exact ⟨_, rfl⟩

/-! ## Merchant categories -/

theorem category_add {lib : Lib} {j : Json} {e : Nat × List Byte} (h : Category lib j e) :
    ∃ f, j = .obj f ∧ firstIsString f = true ∧
      ∀ m, mccAdd lib m f = some (assign m e.1 e.2) := by
  obtain ⟨f, m, rfl, h1, h2, h3, h4, h6, h7⟩ := h
  refine ⟨f, rfl, (firstIsString_iff f (proper_ne h1)).2 h1.2, fun s => ?_⟩
  rw [mccAdd, (member_iff f _ m h1.1).2 ⟨h2, h3⟩]
  simp only [Option.bind_eq_bind, Option.bind_some]
  rw [if_neg (by omega), (stringMember_iff lib f _ _ h1.1).2 h7]
  simp only [Option.bind_some]
  have : (lib.int64 m).toNat % 2 ^ 32 = e.1 := by omega
  rw [this]

theorem assign_find (m : List (Nat × List Byte)) (n k : Nat) (t : List Byte) :
    ((assign m n t).find? (fun e => e.1 == k)).map (·.2) =
      if n = k then some t else (m.find? (fun e => e.1 == k)).map (·.2) := by
  unfold assign
  by_cases h : n = k
  · subst h; simp
  · rw [List.find?_cons, show (n == k) = false by simpa using h, if_neg h]
    simp only []
    rw [List.find?_filter]
    congr 1
    congr 1
    funext e
    by_cases he : e.1 = k
    · subst he; simp; omega
    · simp [he]

theorem assign_all (es : List (Nat × List Byte)) (m : List (Nat × List Byte)) (k : Nat) :
    ((es.foldl (fun m e => assign m e.1 e.2) m).find? (fun e => e.1 == k)).map (·.2) =
      match lastText k es with
      | some t => some t
      | none => (m.find? (fun e => e.1 == k)).map (·.2) := by
  induction es generalizing m with
  | nil => rfl
  | cons e es ih =>
    rw [List.foldl_cons, ih, assign_find]
    unfold lastText
    rw [List.reverse_cons, List.find?_append]
    cases es.reverse.find? (fun e => e.1 == k) with
    | some x => rfl
    | none =>
      by_cases h : e.1 = k
      · simp [h]
      · simp [h]

theorem mcc_good {lib : Lib} {path : Option (List Byte)} {es : List (Nat × List Byte)}
    (h : SaysMcc lib (path.getD lib.mccPath) es) :
    ∃ m, mccInit lib path [] = (0, m) ∧
      ∀ n, (m.find? (fun e => e.1 == n)).map (·.2) = lastText n es := by
  obtain ⟨l, h1, h2, h3⟩ := h
  have hv := visit_all (Category lib) (mccAdd lib) (fun m e => assign m e.1 e.2)
    (fun j a hj => category_add hj) l es [] h3
  refine ⟨es.foldl (fun m e => assign m e.1 e.2) [], ?_, ?_⟩
  · rw [mccInit, h1]
    simp only []
    rw [if_neg (fun h => h2 (List.eq_nil_of_length_eq_zero h)), hv]
    rfl
  · intro n
    rw [assign_all]
    cases lastText n es <;> rfl

/-! ## Lookups in the tables -/

theorem first_some {κ : Type} [BEq κ] [LawfulBEq κ] (key : Entry → κ) (k : κ) (es : List Entry) :
    firstName (fun e => some (key e) == some k) es = firstName (fun e => key e == k) es := by
  unfold firstName
  congr 2

theorem find_congr {p q : Entry → Bool} (es : List Entry) (h : ∀ e ∈ es, p e = q e) :
    es.find? p = es.find? q := by
  induction es with
  | nil => rfl
  | cons e es ih =>
    rw [List.find?_cons, List.find?_cons, h e (by simp), ih (fun x hx => h x (by simp [hx]))]

theorem lookup_num {lib : Lib} {es : List Entry} (h : Numbered lib es) (n : Nat) :
    lookup ⟨es, es.length, 1⟩ (fill (numKey lib) 1 0 es []) n =
      .ok (firstName (fun e => lib.stoul e.numeric == some n) es) := by
  rw [lookup_fill]
  unfold firstName
  rw [find_congr]
  intro e he
  obtain ⟨m, h1, h2⟩ := h e he
  rw [numKey, h1, Option.map_some, Nat.mod_eq_of_lt h2]

theorem lookup_language (es : List Entry) (k : List Byte) :
    lookup ⟨es, es.length, 1⟩ (fill language2 1 0 es []) k =
      .ok (firstName (fun e => e.alpha2 == k && e.alpha2 != []) es) := by
  rw [lookup_fill]
  unfold firstName
  rw [find_congr]
  intro e he
  unfold language2
  by_cases h : e.alpha2 = []
  · rw [if_pos h, h]; simp
  · rw [if_neg h]; simp [h]

/-- What the tables answer about countries. -/
def Countries (lib : Lib) (s : State) (es : List Entry) : Prop :=
  (∀ k, countryByAlpha2 s k = .ok (firstName (fun e => e.alpha2 == k) es)) ∧
  (∀ k, countryByAlpha3 s k = .ok (firstName (fun e => e.alpha3 == k) es)) ∧
  ∀ n, countryByNumeric s n = .ok (firstName (fun e => lib.stoul e.numeric == some n) es)

/-- What they answer about currencies. -/
def Currencies (lib : Lib) (s : State) (es : List Entry) : Prop :=
  (∀ k, currencyByAlpha3 s k = .ok (firstName (fun e => e.alpha3 == k) es)) ∧
  ∀ n, currencyByNumeric s n = .ok (firstName (fun e => lib.stoul e.numeric == some n) es)

/-- What they answer about languages. -/
def Languages (s : State) (es : List Entry) : Prop :=
  (∀ k, languageByAlpha2 s k = .ok (firstName (fun e => e.alpha2 == k && e.alpha2 != []) es)) ∧
  ∀ k, languageByAlpha3 s k = .ok (firstName (fun e => e.alpha3 == k) es)

/-- What they answer about merchant categories. -/
def Categories (s : State) (es : List (Nat × List Byte)) : Prop :=
  ∀ n, mccLookup s n = lastText n es

theorem countries_table {lib : Lib} {es : List Entry} (h : Numbered lib es) (s : State)
    (hs : s.country = countryTable lib es) : Countries lib s es := by
  refine ⟨fun k => ?_, fun k => ?_, fun n => ?_⟩
  · rw [countryByAlpha2, hs]
    exact lookup_fill (fun e => some e.alpha2) es es.length 1 k
  · rw [countryByAlpha3, hs]
    exact lookup_fill (fun e => some e.alpha3) es es.length 1 k
  · rw [countryByNumeric, hs]
    exact lookup_num h n

theorem currencies_table {lib : Lib} {es : List Entry} (h : Numbered lib es) (s : State)
    (hs : s.currency = currencyTable lib es) : Currencies lib s es := by
  refine ⟨fun k => ?_, fun n => ?_⟩
  · rw [currencyByAlpha3, hs]
    exact lookup_fill (fun e => some e.alpha3) es es.length 1 k
  · rw [currencyByNumeric, hs]
    exact lookup_num h n

theorem languages_table (es : List Entry) (s : State)
    (hs : s.language = languageTable es) : Languages s es := by
  refine ⟨fun k => ?_, fun k => ?_⟩
  · rw [languageByAlpha2, hs]
    exact lookup_language es k
  · rw [languageByAlpha3, hs]
    exact lookup_fill (fun e => some e.alpha3) es es.length 1 k

theorem countries_none {lib : Lib} (s : State) (v : Vec) (hs : s.country = { noTable with vec := v }) :
    Countries lib s [] := by
  refine ⟨fun k => ?_, fun k => ?_, fun n => ?_⟩
  · rw [countryByAlpha2, hs]; rfl
  · rw [countryByAlpha3, hs]; rfl
  · rw [countryByNumeric, hs]; rfl

theorem currencies_none {lib : Lib} (s : State) (v : Vec)
    (hs : s.currency = { noTable with vec := v }) : Currencies lib s [] := by
  refine ⟨fun k => ?_, fun n => ?_⟩
  · rw [currencyByAlpha3, hs]; rfl
  · rw [currencyByNumeric, hs]; rfl

theorem languages_none (s : State) (v : Vec) (hs : s.language = { noTable with vec := v }) :
    Languages s [] := by
  refine ⟨fun k => ?_, fun k => ?_⟩
  · rw [languageByAlpha2, hs]; rfl
  · rw [languageByAlpha3, hs]; rfl

/-- The directory of a path: a slash is added when the path does not end with one. -/
def Directory (path dir : List Byte) : Prop :=
  (∃ q, path = q ++ [0x2F] ∧ dir = path) ∨ (∃ q b, path = q ++ [b] ∧ b ≠ 0x2F ∧ dir = path ++ [0x2F])

theorem directory_ok {path dir : List Byte} (h : Directory path dir) : directory path = .ok dir := by
  rcases h with ⟨q, rfl, rfl⟩ | ⟨q, b, rfl, h, rfl⟩
  · simp [directory]
  · simp [directory, h]

/-! ## Theorems -/

/-- **C98.** Initialised once with documents of the expected form, the library answers each lookup
with the name of the first country, currency or language with the code, or the text of the last
merchant category with the number, and with NULL when there is none. -/
theorem C98_lookup (lib : Lib) (iso mcc : Option (List Byte)) (d : List Byte)
    (cs us ls : List Entry) (ms : List (Nat × List Byte))
    (hd : Directory (iso.getD lib.isoPath) d)
    (hc : Says lib (Country lib) (d ++ txt!"iso_3166-1.json") txt!"3166-1" cs)
    (hu : Says lib (Currency lib) (d ++ txt!"iso_4217.json") txt!"4217" us)
    (hl : Says lib (Language lib) (d ++ txt!"iso_639-2.json") txt!"639-2" ls)
    (hm : SaysMcc lib (mcc.getD lib.mccPath) ms)
    (hnc : Numbered lib cs) (hnu : Numbered lib us) :
    ∃ s, stringsInit lib iso mcc fresh = .ok (.ok (0, s)) ∧
      Countries lib s cs ∧ Currencies lib s us ∧ Languages s ls ∧ Categories s ms := by
  obtain ⟨m, hm1, hm2⟩ := mcc_good hm
  refine ⟨⟨countryTable lib cs, currencyTable lib us, languageTable ls, m⟩, ?_,
    countries_table hnc _ rfl, currencies_table hnu _ rfl, languages_table _ _ rfl, hm2⟩
  have h1 := country_good hc hnc
  have h2 := currency_good hu hnu
  have h3 := language_good hl
  simp only [noTable] at h1 h2 h3
  simp only [stringsInit, isoInit, directory_ok hd, bind_ok, fresh, h1, h2, h3, hm1, ne_eq,
    not_true_eq_false, if_false]

/-- **C98.** When the file of countries is missing (1) or not of the expected form (-1), nothing is
known. -/
theorem C98_countries_refused (lib : Lib) (iso mcc : Option (List Byte)) (d : List Byte) (r : Int)
    (hd : Directory (iso.getD lib.isoPath) d)
    (h : r = 1 ∧ lib.file (d ++ txt!"iso_3166-1.json") = none ∨
      r = -1 ∧ Bad lib (Country lib) (d ++ txt!"iso_3166-1.json") txt!"3166-1") :
    ∃ s, stringsInit lib iso mcc fresh = .ok (.ok (r, s)) ∧
      Countries lib s [] ∧ Currencies lib s [] ∧ Languages s [] ∧ Categories s [] := by
  have : ∃ v, stage lib (d ++ txt!"iso_3166-1.json") 1 (-1) (buildCountry lib) noTable =
      .ok (r, { noTable with vec := v }) ∧ r ≠ 0 := by
    rcases h with ⟨rfl, h⟩ | ⟨rfl, h⟩
    · exact ⟨_, by rw [stage, h], by decide⟩
    · obtain ⟨v, h⟩ := country_bad noTable h
      exact ⟨v, h, by decide⟩
  obtain ⟨v, hv, hr⟩ := this
  refine ⟨⟨{ noTable with vec := v }, noTable, noTable, []⟩, ?_, countries_none _ v rfl,
    currencies_none _ _ rfl, languages_none _ _ rfl, fun _ => rfl⟩
  simp only [noTable] at hv
  simp only [stringsInit, isoInit, directory_ok hd, bind_ok, fresh, hv, ne_eq, hr,
    not_false_eq_true, if_true]
  rfl

/-- **C98.** When the file of currencies is missing (2) or not of the expected form (-2), only
countries are known. -/
theorem C98_currencies_refused (lib : Lib) (iso mcc : Option (List Byte)) (d : List Byte) (r : Int)
    (cs : List Entry) (hd : Directory (iso.getD lib.isoPath) d)
    (hc : Says lib (Country lib) (d ++ txt!"iso_3166-1.json") txt!"3166-1" cs)
    (hnc : Numbered lib cs)
    (h : r = 2 ∧ lib.file (d ++ txt!"iso_4217.json") = none ∨
      r = -2 ∧ Bad lib (Currency lib) (d ++ txt!"iso_4217.json") txt!"4217") :
    ∃ s, stringsInit lib iso mcc fresh = .ok (.ok (r, s)) ∧
      Countries lib s cs ∧ Currencies lib s [] ∧ Languages s [] ∧ Categories s [] := by
  have : ∃ v, stage lib (d ++ txt!"iso_4217.json") 2 (-2) (buildCurrency lib) noTable =
      .ok (r, { noTable with vec := v }) ∧ r ≠ 0 := by
    rcases h with ⟨rfl, h⟩ | ⟨rfl, h⟩
    · exact ⟨_, by rw [stage, h], by decide⟩
    · obtain ⟨v, h⟩ := currency_bad noTable h
      exact ⟨v, h, by decide⟩
  obtain ⟨v, hv, hr⟩ := this
  have h1 := country_good hc hnc
  refine ⟨⟨countryTable lib cs, { noTable with vec := v }, noTable, []⟩, ?_, countries_table hnc _ rfl,
    currencies_none _ v rfl, languages_none _ _ rfl, fun _ => rfl⟩
  simp only [noTable] at hv h1
  simp only [stringsInit, isoInit, directory_ok hd, bind_ok, fresh, h1, hv, ne_eq, hr,
    not_false_eq_true, not_true_eq_false, if_false, if_true]
  rfl

/-- **C98.** When the file of languages is missing (3) or not of the expected form (-3), neither
languages nor merchant categories are known. -/
theorem C98_languages_refused (lib : Lib) (iso mcc : Option (List Byte)) (d : List Byte) (r : Int)
    (cs us : List Entry) (hd : Directory (iso.getD lib.isoPath) d)
    (hc : Says lib (Country lib) (d ++ txt!"iso_3166-1.json") txt!"3166-1" cs)
    (hnc : Numbered lib cs)
    (hu : Says lib (Currency lib) (d ++ txt!"iso_4217.json") txt!"4217" us)
    (hnu : Numbered lib us)
    (h : r = 3 ∧ lib.file (d ++ txt!"iso_639-2.json") = none ∨
      r = -3 ∧ Bad lib (Language lib) (d ++ txt!"iso_639-2.json") txt!"639-2") :
    ∃ s, stringsInit lib iso mcc fresh = .ok (.ok (r, s)) ∧
      Countries lib s cs ∧ Currencies lib s us ∧ Languages s [] ∧ Categories s [] := by
  have : ∃ v, stage lib (d ++ txt!"iso_639-2.json") 3 (-3) (buildLanguage lib) noTable =
      .ok (r, { noTable with vec := v }) ∧ r ≠ 0 := by
    rcases h with ⟨rfl, h⟩ | ⟨rfl, h⟩
    · exact ⟨_, by rw [stage, h], by decide⟩
    · obtain ⟨v, h⟩ := language_bad noTable h
      exact ⟨v, h, by decide⟩
  obtain ⟨v, hv, hr⟩ := this
  have h1 := country_good hc hnc
  have h2 := currency_good hu hnu
  refine ⟨⟨countryTable lib cs, currencyTable lib us, { noTable with vec := v }, []⟩, ?_,
    countries_table hnc _ rfl, currencies_table hnu _ rfl, languages_none _ v rfl, fun _ => rfl⟩
  simp only [noTable] at hv h1 h2
  simp only [stringsInit, isoInit, directory_ok hd, bind_ok, fresh, h1, h2, hv, ne_eq, hr,
    not_false_eq_true, not_true_eq_false, if_false, if_true]
  rfl

/-- `es` is what the elements up to the first one which is no merchant category say: those before it,
and that one too when all that is wrong with it is its first member. -/
def UpToBad (lib : Lib) (l : List Json) (es : List (Nat × List Byte)) : Prop :=
  ∃ pre j post es0, l = pre ++ j :: post ∧ All (Category lib) pre es0 ∧ (∀ e, ¬ Category lib j e) ∧
    ((∀ e, ¬ Numbering lib j e) ∧ es = es0 ∨ ∃ e, Numbering lib j e ∧ es = es0 ++ [e])

theorem mccAdd_some {lib : Lib} {f : List (List Byte × Json)} (hn : (f.map (·.1)).Nodup)
    {m m' : List (Nat × List Byte)} (h : mccAdd lib m f = some m') :
    ∃ e, Numbering lib (.obj f) e ∧ m' = assign m e.1 e.2 ∧
      (firstIsString f = true → Category lib (.obj f) e) := by
  rw [mccAdd] at h
  simp only [Option.bind_eq_bind, Option.bind_eq_some_iff] at h
  obtain ⟨j, hj, hs⟩ := h
  split at hs
  · exact absurd hs (by simp)
  · rename_i h0
    rw [Option.bind_eq_some_iff] at hs
    obtain ⟨t, ht, hm⟩ := hs
    have hj' := (member_iff f _ j hn).1 hj
    have hne : f ≠ [] := by
      rintro rfl
      exact absurd hj'.1 (by simp)
    have hr := (stringMember_iff lib f _ _ hn).1 ht
    exact ⟨((lib.int64 j).toNat % 2 ^ 32, t),
      ⟨f, j, rfl, hj'.1, hj'.2, by omega, by simp only []; omega, hr⟩, (Option.some.inj hm).symm,
      fun hf => ⟨f, j, rfl, ⟨hn, (firstIsString_iff f hne).1 hf⟩, hj'.1, hj'.2, by omega,
        by simp only []; omega, hr⟩⟩

theorem mccAdd_none {lib : Lib} {f : List (List Byte × Json)} (hn : (f.map (·.1)).Nodup)
    {m : List (Nat × List Byte)} (h : mccAdd lib m f = none) (e : Nat × List Byte) :
    ¬ Numbering lib (.obj f) e := by
  rintro ⟨f', j, hf, h2, h3, h4, h6, h7⟩
  cases hf
  rw [mccAdd, (member_iff f _ j hn).2 ⟨h2, h3⟩] at h
  simp only [Option.bind_eq_bind, Option.bind_some] at h
  rw [if_neg (by omega), (stringMember_iff lib f _ _ hn).2 h7] at h
  cases h

theorem category_numbering {lib : Lib} {j : Json} {e : Nat × List Byte} (h : Category lib j e) :
    Numbering lib j e := by
  obtain ⟨f, m, h0, h1, h2, h3, h4, h5, h6⟩ := h
  exact ⟨f, m, h0, h2, h3, h4, h5, h6⟩

/-- What the visit of a list with an element which is no merchant category leaves. -/
theorem visit_upToBad {lib : Lib} (l : List Json) : ∀ (m : List (Nat × List Byte)), Distinct l →
    (¬ ∃ es, All (Category lib) l es) →
    ∃ es, UpToBad lib l es ∧
      visit (mccAdd lib) l m = (false, es.foldl (fun m e => assign m e.1 e.2) m) := by
  induction l with
  | nil => intro m _ h; exact absurd ⟨[], trivial⟩ h
  | cons j l ih =>
    intro m hd h
    have stop : (∀ e, ¬ Numbering lib j e) → UpToBad lib (j :: l) [] := fun hx =>
      ⟨[], j, l, [], rfl, trivial, fun e he => hx e (category_numbering he), .inl ⟨hx, rfl⟩⟩
    have other : (∀ f, j ≠ .obj f) → ∀ e, ¬ Numbering lib j e := by
      rintro hx e ⟨f, _, hf, _⟩
      exact hx f hf
    cases j with
    | obj f =>
      have hn := hd f (by simp)
      rw [visit]
      cases hs : mccAdd lib m f with
      | none => exact ⟨[], stop (mccAdd_none hn hs), rfl⟩
      | some m' =>
        obtain ⟨e, he, hm, hc⟩ := mccAdd_some hn hs
        simp only []
        by_cases hf : firstIsString f = true
        · rw [if_pos hf]
          obtain ⟨es, ⟨pre, j, post, es0, h1, h2, h3, h4⟩, hv⟩ := ih m' (fun f h => hd f (by simp [h])) (by
            rintro ⟨es, hes⟩
            exact h ⟨e :: es, hc hf, hes⟩)
          refine ⟨e :: es, ⟨.obj f :: pre, j, post, e :: es0, by rw [h1]; rfl, ⟨hc hf, h2⟩, h3, ?_⟩, ?_⟩
          · rcases h4 with ⟨h4, h5⟩ | ⟨x, h4, h5⟩
            · exact .inl ⟨h4, by rw [h5]⟩
            · exact .inr ⟨x, h4, by rw [h5]; rfl⟩
          · rw [hv, List.foldl_cons, hm]
        · rw [if_neg hf]
          refine ⟨[e], ⟨[], .obj f, l, [], rfl, trivial, ?_, .inr ⟨e, he, rfl⟩⟩, by rw [hm]; rfl⟩
          rintro x ⟨f', m', hx, hp, _⟩
          cases hx
          exact hf ((firstIsString_iff f (proper_ne hp)).2 hp.2)
    | null => exact ⟨[], stop (other (by simp)), rfl⟩
    | other n => exact ⟨[], stop (other (by simp)), rfl⟩
    | str n => exact ⟨[], stop (other (by simp)), rfl⟩
    | arr n => exact ⟨[], stop (other (by simp)), rfl⟩

theorem mcc_bad {lib : Lib} {path : Option (List Byte)}
    (h : BadMcc lib (path.getD lib.mccPath)) : ∃ m', mccInit lib path [] = (-1, m') ∧
      ∃ es, (∀ n, (m'.find? (fun e => e.1 == n)).map (·.2) = lastText n es) ∧
        (es ≠ [] → ∃ l, lib.file (path.getD lib.mccPath) = some (.arr l) ∧ UpToBad lib l es) ∧
        (∀ l, lib.file (path.getD lib.mccPath) = some (.arr l) → l ≠ [] → UpToBad lib l es) := by
  obtain ⟨root, h1, h2, h3⟩ := h
  rw [mccInit, h1]
  have none : ∀ n, ((([] : List (Nat × List Byte)).find? (fun e => e.1 == n)).map (·.2)) = lastText n [] :=
    fun _ => rfl
  cases root with
  | arr l =>
    simp only []
    by_cases hl : l.length = 0
    · rw [if_pos hl]
      refine ⟨_, rfl, [], none, fun h => absurd rfl h, fun l' h' hn => ?_⟩
      cases h'
      exact absurd (List.eq_nil_of_length_eq_zero hl) hn
    · rw [if_neg hl]
      obtain ⟨es, hu, hv⟩ := visit_upToBad l [] (h3 l rfl) (by
        rintro ⟨es, hes⟩
        exact h2 es ⟨l, h1, fun h => hl (by rw [h]; rfl), hes⟩)
      rw [hv]
      refine ⟨_, rfl, es, fun n => ?_, fun _ => ⟨l, rfl, hu⟩, fun l' h' _ => by cases h'; exact hu⟩
      rw [assign_all]
      cases lastText n es <;> rfl
  | null => exact ⟨_, rfl, [], none, fun h => absurd rfl h, fun l h => by cases h⟩
  | other n => exact ⟨_, rfl, [], none, fun h => absurd rfl h, fun l h => by cases h⟩
  | str n => exact ⟨_, rfl, [], none, fun h => absurd rfl h, fun l h => by cases h⟩
  | obj n => exact ⟨_, rfl, [], none, fun h => absurd rfl h, fun l h => by cases h⟩

/-- **C98.** When only the file of merchant categories is missing (1) or not of the expected form
(-1), the rest is known.  Of a missing file, and of one which is no list, no category is known; of a
list exactly those up to the first element which is none (`C98_half`). -/
theorem C98_categories_refused (lib : Lib) (iso mcc : Option (List Byte)) (d : List Byte) (r : Int)
    (cs us ls : List Entry) (hd : Directory (iso.getD lib.isoPath) d)
    (hc : Says lib (Country lib) (d ++ txt!"iso_3166-1.json") txt!"3166-1" cs)
    (hnc : Numbered lib cs)
    (hu : Says lib (Currency lib) (d ++ txt!"iso_4217.json") txt!"4217" us)
    (hnu : Numbered lib us)
    (hl : Says lib (Language lib) (d ++ txt!"iso_639-2.json") txt!"639-2" ls)
    (h : r = 1 ∧ lib.file (mcc.getD lib.mccPath) = none ∨
      r = -1 ∧ BadMcc lib (mcc.getD lib.mccPath)) :
    ∃ s es, stringsInit lib iso mcc fresh = .ok (.ok (r, s)) ∧
      Countries lib s cs ∧ Currencies lib s us ∧ Languages s ls ∧ Categories s es ∧
      (es ≠ [] → ∃ l, lib.file (mcc.getD lib.mccPath) = some (.arr l) ∧ UpToBad lib l es) ∧
      (∀ l, lib.file (mcc.getD lib.mccPath) = some (.arr l) → l ≠ [] → UpToBad lib l es) := by
  have : ∃ m, mccInit lib mcc [] = (r, m) ∧
      ∃ es, (∀ n, (m.find? (fun e => e.1 == n)).map (·.2) = lastText n es) ∧
        (es ≠ [] → ∃ l, lib.file (mcc.getD lib.mccPath) = some (.arr l) ∧ UpToBad lib l es) ∧
        (∀ l, lib.file (mcc.getD lib.mccPath) = some (.arr l) → l ≠ [] → UpToBad lib l es) := by
    rcases h with ⟨rfl, h⟩ | ⟨rfl, h⟩
    · refine ⟨[], by rw [mccInit, h], [], fun _ => rfl, fun h => absurd rfl h, fun l hl => ?_⟩
      rw [h] at hl; cases hl
    · exact mcc_bad h
  obtain ⟨m, hm, es, he, hk⟩ := this
  have h1 := country_good hc hnc
  have h2 := currency_good hu hnu
  have h3 := language_good hl
  refine ⟨⟨countryTable lib cs, currencyTable lib us, languageTable ls, m⟩, es, ?_,
    countries_table hnc _ rfl, currencies_table hnu _ rfl, languages_table _ _ rfl, he, hk⟩
  simp only [noTable] at h1 h2 h3
  simp only [stringsInit, isoInit, directory_ok hd, bind_ok, fresh, h1, h2, h3, hm, ne_eq,
    not_true_eq_false, if_false]

/-! ### Any documents -/

/-- Every reference is to an element that is there. -/
def Live {κ : Type} (v : Vec) (m : Map κ) : Prop :=
  ∀ e ∈ m, e.2.gen = v.gen ∧ e.2.index < v.elems.length

theorem lookup_live {κ : Type} [BEq κ] (v : Vec) (m : Map κ) (k : κ) (h : Live v m) :
    (lookup v m k).Safe := by
  unfold lookup
  cases hf : m.find? (fun e => e.1 == k) with
  | none => exact ⟨_, rfl⟩
  | some e =>
    obtain ⟨k', r⟩ := e
    obtain ⟨h1, h2⟩ := h _ (List.mem_of_find?_eq_some hf)
    simp only [] at h1 h2
    simp only [name, if_pos h1, List.getElem?_eq_getElem h2, bind_ok]
    exact ⟨_, rfl⟩

theorem emplace_live {κ : Type} [BEq κ] (v : Vec) (m : Map κ) (k : κ) (r : Ref) (h : Live v m)
    (hr : r.gen = v.gen ∧ r.index < v.elems.length) : Live v (emplace m k r) := by
  unfold emplace
  split
  · exact h
  · intro e he
    rcases List.mem_append.1 he with he | he
    · exact h e he
    · have : e = (k, r) := by simpa using he
      subst this
      exact hr

theorem fill_live {κ : Type} [BEq κ] (key : Entry → Option κ) (v : Vec) (es : List Entry) (i : Nat)
    (m : Map κ) (hi : i + es.length ≤ v.elems.length) (h : Live v m) :
    Live v (fill key v.gen i es m) := by
  induction es generalizing i m with
  | nil => exact h
  | cons e es ih =>
    simp only [List.length_cons] at hi
    rw [fill]
    split
    · exact ih _ _ (by omega) h
    · exact ih _ _ (by omega) (emplace_live v m _ _ h ⟨rfl, by simp only []; omega⟩)

theorem fillNum_live (stoul : List Byte → Option Nat) (v : Vec) (es : List Entry) (i : Nat)
    (m m' : Map Nat) (hi : i + es.length ≤ v.elems.length) (h : Live v m)
    (hm : fillNum stoul v.gen i es m = some m') : Live v m' := by
  induction es generalizing i m with
  | nil =>
    injection hm with hm
    exact hm ▸ h
  | cons e es ih =>
    simp only [List.length_cons] at hi
    rw [fillNum] at hm
    split at hm
    · exact absurd hm (by simp)
    · exact ih _ _ (by omega) (emplace_live v m _ _ h ⟨rfl, by simp only []; omega⟩) hm

def TableLive (t : Table) : Prop :=
  Live t.vec t.alpha2 ∧ Live t.vec t.alpha3 ∧ Live t.vec t.numeric

theorem live_nil {κ : Type} (v : Vec) : Live v ([] : Map κ) := fun _ h => absurd h (by simp)

theorem country_live (lib : Lib) (root : Json) (b : Bool) (t : Table)
    (h : buildCountry lib root noTable = .ok (b, t)) : TableLive t := by
  rw [buildCountry] at h
  split at h
  · injection h with h; injection h with _ h
    subst h
    exact ⟨live_nil _, live_nil _, live_nil _⟩
  · rename_i l hl
    simp only [noTable] at h
    obtain ⟨ok, v, hL⟩ : ∃ ok v, load (countryEntry lib) l ⟨[], 0, 0⟩ = (ok, v) := ⟨_, _, rfl⟩
    simp only [hL] at h
    split at h
    · split at h
      · exact absurd h (by simp)
      · rename_i num hnum
        injection h with h; injection h with _ h
        subst h
        exact ⟨fill_live _ _ _ _ _ (by simp) (live_nil _), fill_live _ _ _ _ _ (by simp) (live_nil _),
          fillNum_live _ _ _ _ _ _ (by simp) (live_nil _) hnum⟩
    · injection h with h; injection h with _ h
      subst h
      exact ⟨live_nil _, live_nil _, live_nil _⟩

theorem currency_live (lib : Lib) (root : Json) (b : Bool) (t : Table)
    (h : buildCurrency lib root noTable = .ok (b, t)) : TableLive t := by
  rw [buildCurrency] at h
  split at h
  · injection h with h; injection h with _ h
    subst h
    exact ⟨live_nil _, live_nil _, live_nil _⟩
  · rename_i l hl
    simp only [noTable] at h
    obtain ⟨ok, v, hL⟩ : ∃ ok v, load (currencyEntry lib) l ⟨[], 0, 0⟩ = (ok, v) := ⟨_, _, rfl⟩
    simp only [hL] at h
    split at h
    · split at h
      · exact absurd h (by simp)
      · rename_i num hnum
        injection h with h; injection h with _ h
        subst h
        exact ⟨live_nil _, fill_live _ _ _ _ _ (by simp) (live_nil _),
          fillNum_live _ _ _ _ _ _ (by simp) (live_nil _) hnum⟩
    · injection h with h; injection h with _ h
      subst h
      exact ⟨live_nil _, live_nil _, live_nil _⟩

theorem language_live (lib : Lib) (root : Json) (b : Bool) (t : Table)
    (h : buildLanguage lib root noTable = .ok (b, t)) : TableLive t := by
  rw [buildLanguage] at h
  split at h
  · injection h with h; injection h with _ h
    subst h
    exact ⟨live_nil _, live_nil _, live_nil _⟩
  · rename_i l hl
    simp only [noTable] at h
    obtain ⟨ok, v, hL⟩ : ∃ ok v, load (languageEntry lib) l ⟨[], 0, 0⟩ = (ok, v) := ⟨_, _, rfl⟩
    simp only [hL] at h
    split at h
    · injection h with h; injection h with _ h
      subst h
      exact ⟨fill_live _ _ _ _ _ (by simp) (live_nil _), fill_live _ _ _ _ _ (by simp) (live_nil _),
        live_nil _⟩
    · injection h with h; injection h with _ h
      subst h
      exact ⟨live_nil _, live_nil _, live_nil _⟩

theorem stage_live (lib : Lib) (file : List Byte) (a b r : Int)
    (build : Json → Table → Ret (Bool × Table)) (t : Table)
    (hb : ∀ root ok t, build root noTable = .ok (ok, t) → TableLive t)
    (h : stage lib file a b build noTable = .ok (r, t)) : TableLive t := by
  rw [stage] at h
  split at h
  · injection h with h; injection h with _ h
    subst h
    exact ⟨live_nil _, live_nil _, live_nil _⟩
  · split at h
    · exact absurd h (by simp)
    · rename_i hx
      injection h with h; injection h with _ h
      subst h
      exact hb _ _ _ hx

/-- Every lookup is defined. -/
def AllSafe (s : State) : Prop :=
  (∀ k, (countryByAlpha2 s k).Safe) ∧ (∀ k, (countryByAlpha3 s k).Safe) ∧
  (∀ n, (countryByNumeric s n).Safe) ∧ (∀ k, (currencyByAlpha3 s k).Safe) ∧
  (∀ n, (currencyByNumeric s n).Safe) ∧ (∀ k, (languageByAlpha2 s k).Safe) ∧
  ∀ k, (languageByAlpha3 s k).Safe

theorem allSafe_of (s : State) (h1 : TableLive s.country) (h2 : TableLive s.currency)
    (h3 : TableLive s.language) : AllSafe s :=
  ⟨fun _ => lookup_live _ _ _ h1.1, fun _ => lookup_live _ _ _ h1.2.1,
   fun _ => lookup_live _ _ _ h1.2.2, fun _ => lookup_live _ _ _ h2.2.1,
   fun _ => lookup_live _ _ _ h2.2.2, fun _ => lookup_live _ _ _ h3.1,
   fun _ => lookup_live _ _ _ h3.2.1⟩

theorem noTable_live : TableLive noTable := ⟨live_nil _, live_nil _, live_nil _⟩

theorem iso_live (lib : Lib) (path : Option (List Byte)) (h : path.getD lib.isoPath ≠ []) :
    isoInit lib path fresh = .ok .terminated ∨
    ∃ r s, isoInit lib path fresh = .ok (.ok (r, s)) ∧ TableLive s.country ∧ TableLive s.currency ∧
      TableLive s.language := by
  obtain ⟨d, hd⟩ : ∃ d, directory (path.getD lib.isoPath) = .ok d := by
    unfold directory
    cases hg : (path.getD lib.isoPath).getLast? with
    | none => exact absurd (List.getLast?_eq_none_iff.1 hg) h
    | some b => exact ⟨_, rfl⟩
  simp only [isoInit, hd, bind_ok]
  have hf : fresh = ⟨noTable, noTable, noTable, []⟩ := rfl
  rw [hf]
  simp only []
  cases h1 : stage lib (d ++ txt!"iso_3166-1.json") 1 (-1) (buildCountry lib) noTable with
  | terminated => exact .inl rfl
  | ok x =>
    obtain ⟨r1, t1⟩ := x
    have l1 := stage_live lib _ _ _ _ _ _ (country_live lib) h1
    simp only []
    by_cases hr1 : r1 = 0
    · rw [if_neg (by simpa using hr1)]
      cases h2 : stage lib (d ++ txt!"iso_4217.json") 2 (-2) (buildCurrency lib) noTable with
      | terminated => exact .inl rfl
      | ok x =>
        obtain ⟨r2, t2⟩ := x
        have l2 := stage_live lib _ _ _ _ _ _ (currency_live lib) h2
        simp only []
        by_cases hr2 : r2 = 0
        · rw [if_neg (by simpa using hr2)]
          cases h3 : stage lib (d ++ txt!"iso_639-2.json") 3 (-3) (buildLanguage lib) noTable with
          | terminated => exact .inl rfl
          | ok x =>
            obtain ⟨r3, t3⟩ := x
            exact .inr ⟨_, _, rfl, l1, l2, stage_live lib _ _ _ _ _ _ (language_live lib) h3⟩
        · rw [if_pos hr2]
          exact .inr ⟨_, _, rfl, l1, l2, noTable_live⟩
    · rw [if_pos hr1]
      exact .inr ⟨_, _, rfl, l1, noTable_live, noTable_live⟩

/-- **C98**, safety.  Whatever the documents: initialised once with a path that is not empty, the
library either ends the program or answers every lookup.  What is missing: an empty path, and a
second initialisation; neither is safe (`C98_empty_path`, `C98_again`). -/
theorem C98_safe_partial (lib : Lib) (iso mcc : Option (List Byte)) (h : iso.getD lib.isoPath ≠ []) :
    stringsInit lib iso mcc fresh = .ok .terminated ∨
    ∃ r s, stringsInit lib iso mcc fresh = .ok (.ok (r, s)) ∧ AllSafe s := by
  unfold stringsInit
  rcases iso_live lib iso h with h | ⟨r, s, h, h1, h2, h3⟩
  · left; rw [h]; rfl
  · right
    simp only [h, bind_ok]
    by_cases hr : r = 0
    · rw [if_neg (by simpa using hr)]
      exact ⟨_, _, rfl, allSafe_of _ h1 h2 h3⟩
    · rw [if_pos hr]
      exact ⟨_, _, rfl, allSafe_of _ h1 h2 h3⟩

/-- **C98**, the code is not safe: an empty path is undefined behaviour. -/
theorem C98_empty_path (lib : Lib) (mcc : Option (List Byte)) (s : State) :
    stringsInit lib (some []) mcc s = .error .oobRead := rfl

/-- **C98**, the code is not safe: a country or currency whose number is not a number ends the
program. -/
theorem C98_terminated (lib : Lib) (iso mcc : Option (List Byte)) (d : List Byte) (cs : List Entry)
    (e : Entry) (hd : Directory (iso.getD lib.isoPath) d)
    (hc : Says lib (Country lib) (d ++ txt!"iso_3166-1.json") txt!"3166-1" cs)
    (he : e ∈ cs) (hn : lib.stoul e.numeric = none) :
    stringsInit lib iso mcc fresh = .ok .terminated := by
  obtain ⟨root, l, h1, h2, h3⟩ := hc
  have hL : load (countryEntry lib) l ⟨[], 0, 0⟩ = _ := load_fresh (countryKind lib) l cs h2.1 h3
  have hF : ∀ (es : List Entry) (i : Nat) (m : Map Nat), e ∈ es →
      fillNum lib.stoul 1 i es m = none := by
    intro es
    induction es with
    | nil => intro i m h; exact absurd h (by simp)
    | cons x es ih =>
      intro i m h
      rw [fillNum]
      rcases List.mem_cons.1 h with rfl | h
      · rw [hn]
      · split
        · rfl
        · exact ih _ _ h
  have hs : stage lib (d ++ txt!"iso_3166-1.json") 1 (-1) (buildCountry lib) noTable = .terminated := by
    rw [stage, h1]
    simp only []
    rw [buildCountry, arrayOf_under h2]
    simp only [noTable, hL, if_true, hF cs 0 [] he]
  simp only [noTable] at hs
  simp only [stringsInit, isoInit, directory_ok hd, bind_ok, fresh, hs]

/-- The table of countries after an initialisation that returned. -/
theorem init_country (lib : Lib) (iso mcc : Option (List Byte)) (d : List Byte) (s s' : State) (r : Int)
    (hd : directory (iso.getD lib.isoPath) = .ok d)
    (h : stringsInit lib iso mcc s = .ok (.ok (r, s'))) :
    ∃ r1, stage lib (d ++ txt!"iso_3166-1.json") 1 (-1) (buildCountry lib) s.country =
      .ok (r1, s'.country) := by
  simp only [stringsInit, isoInit, hd, bind_ok] at h
  cases h1 : stage lib (d ++ txt!"iso_3166-1.json") 1 (-1) (buildCountry lib) s.country with
  | terminated =>
    rw [h1] at h
    simp only [bind_ok] at h
    exact absurd h (by simp)
  | ok x =>
    obtain ⟨r1, t1⟩ := x
    refine ⟨r1, ?_⟩
    rw [h1] at h
    simp only [] at h
    have key : s'.country = t1 := by
      by_cases hr1 : r1 = 0
      · rw [if_neg (by simpa using hr1)] at h
        cases h2 : stage lib (d ++ txt!"iso_4217.json") 2 (-2) (buildCurrency lib) s.currency with
        | terminated =>
          rw [h2] at h
          simp only [bind_ok] at h
          exact absurd h (by simp)
        | ok x =>
          obtain ⟨r2, t2⟩ := x
          rw [h2] at h
          simp only [] at h
          by_cases hr2 : r2 = 0
          · rw [if_neg (by simpa using hr2)] at h
            cases h3 : stage lib (d ++ txt!"iso_639-2.json") 3 (-3) (buildLanguage lib) s.language with
            | terminated =>
              rw [h3] at h
              simp only [bind_ok] at h
              exact absurd h (by simp)
            | ok x =>
              obtain ⟨r3, t3⟩ := x
              rw [h3] at h
              simp only [bind_ok] at h
              split at h
              · injection h with h; injection h with h; injection h with _ h; rw [← h]
              · injection h with h; injection h with h; injection h with _ h; rw [← h]
          · rw [if_pos hr2] at h
            simp only [bind_ok] at h
            rw [if_pos hr2] at h
            injection h with h; injection h with h; injection h with _ h; rw [← h]
      · rw [if_pos hr1] at h
        simp only [bind_ok] at h
        rw [if_pos hr1] at h
        injection h with h; injection h with h; injection h with _ h; rw [← h]
    rw [key]

/-- A reference that was there before stays. -/
theorem lookup_stale {κ : Type} [BEq κ] [LawfulBEq κ] (key : Entry → κ) (es : List Entry) (v : Vec)
    (hv : 1 < v.gen) (e : Entry) (he : e ∈ es) :
    lookup v (fill (fun e => some (key e)) v.gen 0 v.elems (fill (fun e => some (key e)) 1 0 es []))
      (key e) = .error .uaf := by
  unfold lookup
  rw [fill_find, fill_find]
  simp only [List.find?_nil]
  have := indexOf_some (fun e => some (key e)) (key e) es 0
  cases h : indexOf (fun e => some (key e)) (key e) 0 es with
  | none =>
    rw [h] at this
    simp only [List.find?_eq_none] at this
    exact absurd (this e he) (by simp)
  | some j =>
    have h1 : (1 = v.gen) = False := by simp; omega
    simp only [Option.map_some, name, h1, if_false, bind_error]

/-- **C98**, the code is not safe: when the library is initialised again, looking up any country that
was known before uses freed memory. -/
theorem C98_again (lib lib' : Lib) (iso mcc iso' mcc' : Option (List Byte)) (d d' : List Byte)
    (cs cs' : List Entry) (hd : Directory (iso.getD lib.isoPath) d)
    (hc : Says lib (Country lib) (d ++ txt!"iso_3166-1.json") txt!"3166-1" cs)
    (hnc : Numbered lib cs) (hd' : Directory (iso'.getD lib'.isoPath) d')
    (hc' : Says lib' (Country lib') (d' ++ txt!"iso_3166-1.json") txt!"3166-1" cs')
    (r r' : Int) (s s' : State) (h1 : stringsInit lib iso mcc fresh = .ok (.ok (r, s)))
    (h2 : stringsInit lib' iso' mcc' s = .ok (.ok (r', s')))
    (e : Entry) (he : e ∈ cs) :
    countryByAlpha2 s' e.alpha2 = .error .uaf ∧ countryByAlpha3 s' e.alpha3 = .error .uaf := by
  have hs : s.country = countryTable lib cs := by
    obtain ⟨r1, hr⟩ := init_country lib iso mcc d fresh s r (directory_ok hd) h1
    rw [show fresh.country = noTable from rfl, country_good hc hnc] at hr
    injection hr with hr
    injection hr with _ hr
    exact hr.symm
  obtain ⟨root, l, b1, b2, b3⟩ := hc'
  obtain ⟨r2, hr⟩ := init_country lib' iso' mcc' d' s s' r' (directory_ok hd') h2
  obtain ⟨v, hL, hv⟩ := load_full (countryKind lib') l cs' ⟨cs, cs.length, 1⟩ b2.1 b3 (by simp)
  simp only [countryKind] at hL
  simp only [stage, b1, buildCountry, arrayOf_under b2, hs, countryTable, hL, if_true] at hr
  cases hn : fillNum lib'.stoul v.gen 0 v.elems (fill (numKey lib) 1 0 cs []) with
  | none =>
    rw [hn] at hr
    exact absurd hr (by simp)
  | some num =>
    rw [hn] at hr
    simp only [] at hr
    injection hr with hr
    injection hr with _ hr
    simp only [] at hv
    rw [countryByAlpha2, countryByAlpha3, ← hr]
    exact ⟨lookup_stale (·.alpha2) cs v hv e he, lookup_stale (·.alpha3) cs v hv e he⟩

/-! ### Names are C strings -/

/-- A state some initialisations lead to. -/
inductive Reachable : State → Prop where
  | fresh : Reachable fresh
  | init (lib : Lib) (iso mcc : Option (List Byte)) (s s' : State) (r : Int) (h : Reachable s)
      (hs : stringsInit lib iso mcc s = .ok (.ok (r, s'))) : Reachable s'

theorem upToNul_clean (s : List Byte) : 0 ∉ upToNul s := ((cstring_iff s _).2 rfl).1

theorem string_clean (lib : Lib) (j : Json) : 0 ∉ string lib j := by
  cases j <;> exact upToNul_clean _

theorem stringMember_clean (lib : Lib) (f : List (List Byte × Json)) (k t : List Byte)
    (h : stringMember lib f k = some t) : 0 ∉ t := by
  rw [stringMember, Option.map_eq_some_iff] at h
  obtain ⟨j, -, rfl⟩ := h
  exact string_clean lib j

/-- What adding preserves the visit preserves. -/
theorem visit_inv {σ : Type} (P : σ → Prop) (add : σ → List (List Byte × Json) → Option σ)
    (h : ∀ s f s', P s → add s f = some s' → P s') (l : List Json) (s : σ) (hs : P s) :
    P (visit add l s).2 := by
  induction l generalizing s with
  | nil => exact hs
  | cons j l ih =>
    cases j with
    | obj f =>
      rw [visit]
      cases ha : add s f with
      | none => exact hs
      | some s' =>
        simp only []
        split
        · exact ih _ (h _ _ _ hs ha)
        · exact h _ _ _ hs ha
    | null => exact hs
    | other n => exact hs
    | str n => exact hs
    | arr n => exact hs

def CleanVec (v : Vec) : Prop := ∀ e ∈ v.elems, 0 ∉ e.name

theorem load_clean (entry : List (List Byte × Json) → Option Entry)
    (he : ∀ f e, entry f = some e → 0 ∉ e.name) (l : List Json) (v : Vec) (hv : CleanVec v) :
    CleanVec (load entry l v).2 := by
  unfold load
  apply visit_inv CleanVec
  · intro v f v' h h1
    rw [Option.map_eq_some_iff] at h1
    obtain ⟨e, h1, rfl⟩ := h1
    have : (v.push e).elems = v.elems ++ [e] := by unfold Vec.push; split <;> rfl
    intro x hx
    rw [this] at hx
    rcases List.mem_append.1 hx with hx | hx
    · exact h x hx
    · have : x = e := by simpa using hx
      subst this
      exact he f x h1
  · have : (v.reserve l.length).elems = v.elems := by unfold Vec.reserve; split <;> rfl
    intro x hx
    rw [this] at hx
    exact hv x hx

theorem countryEntry_clean (lib : Lib) (f : List (List Byte × Json)) (e : Entry)
    (h : countryEntry lib f = some e) : 0 ∉ e.name := by
  simp only [countryEntry, Option.bind_eq_bind, Option.bind_eq_some_iff] at h
  obtain ⟨a, h1, b, -, c, -, d, -, h5⟩ := h
  injection h5 with h5
  subst h5
  exact stringMember_clean lib f _ _ h1

theorem currencyEntry_clean (lib : Lib) (f : List (List Byte × Json)) (e : Entry)
    (h : currencyEntry lib f = some e) : 0 ∉ e.name := by
  simp only [currencyEntry, Option.bind_eq_bind, Option.bind_eq_some_iff] at h
  obtain ⟨a, h1, b, -, c, -, h5⟩ := h
  injection h5 with h5
  subst h5
  exact stringMember_clean lib f _ _ h1

theorem languageEntry_clean (lib : Lib) (f : List (List Byte × Json)) (e : Entry)
    (h : languageEntry lib f = some e) : 0 ∉ e.name := by
  simp only [languageEntry, Option.bind_eq_bind, Option.bind_eq_some_iff] at h
  obtain ⟨a, h1, b, -, h5⟩ := h
  injection h5 with h5
  subst h5
  exact stringMember_clean lib f _ _ h1

theorem country_clean (lib : Lib) (root : Json) (b : Bool) (t t' : Table) (ht : CleanVec t.vec)
    (h : buildCountry lib root t = .ok (b, t')) : CleanVec t'.vec := by
  rw [buildCountry] at h
  split at h
  · injection h with h; injection h with _ h
    exact h ▸ ht
  · rename_i l hl
    have hc := load_clean (countryEntry lib) (countryEntry_clean lib) l t.vec ht
    obtain ⟨ok, v, hL⟩ : ∃ ok v, load (countryEntry lib) l t.vec = (ok, v) := ⟨_, _, rfl⟩
    rw [hL] at hc
    simp only [hL] at h
    split at h
    · split at h
      · exact absurd h (by simp)
      · injection h with h; injection h with _ h
        exact h ▸ hc
    · injection h with h; injection h with _ h
      exact h ▸ hc

theorem currency_clean (lib : Lib) (root : Json) (b : Bool) (t t' : Table) (ht : CleanVec t.vec)
    (h : buildCurrency lib root t = .ok (b, t')) : CleanVec t'.vec := by
  rw [buildCurrency] at h
  split at h
  · injection h with h; injection h with _ h
    exact h ▸ ht
  · rename_i l hl
    have hc := load_clean (currencyEntry lib) (currencyEntry_clean lib) l t.vec ht
    obtain ⟨ok, v, hL⟩ : ∃ ok v, load (currencyEntry lib) l t.vec = (ok, v) := ⟨_, _, rfl⟩
    rw [hL] at hc
    simp only [hL] at h
    split at h
    · split at h
      · exact absurd h (by simp)
      · injection h with h; injection h with _ h
        exact h ▸ hc
    · injection h with h; injection h with _ h
      exact h ▸ hc

theorem language_clean (lib : Lib) (root : Json) (b : Bool) (t t' : Table) (ht : CleanVec t.vec)
    (h : buildLanguage lib root t = .ok (b, t')) : CleanVec t'.vec := by
  rw [buildLanguage] at h
  split at h
  · injection h with h; injection h with _ h
    exact h ▸ ht
  · rename_i l hl
    have hc := load_clean (languageEntry lib) (languageEntry_clean lib) l t.vec ht
    obtain ⟨ok, v, hL⟩ : ∃ ok v, load (languageEntry lib) l t.vec = (ok, v) := ⟨_, _, rfl⟩
    rw [hL] at hc
    simp only [hL] at h
    split at h
    · injection h with h; injection h with _ h
      exact h ▸ hc
    · injection h with h; injection h with _ h
      exact h ▸ hc

theorem stage_clean (lib : Lib) (file : List Byte) (a b r : Int)
    (build : Json → Table → Ret (Bool × Table)) (t t' : Table)
    (hb : ∀ root ok t t', CleanVec t.vec → build root t = .ok (ok, t') → CleanVec t'.vec)
    (ht : CleanVec t.vec) (h : stage lib file a b build t = .ok (r, t')) : CleanVec t'.vec := by
  rw [stage] at h
  split at h
  · injection h with h; injection h with _ h
    exact h ▸ ht
  · split at h
    · exact absurd h (by simp)
    · rename_i hx
      injection h with h; injection h with _ h
      exact h ▸ hb _ _ _ _ ht hx

def CleanState (s : State) : Prop :=
  CleanVec s.country.vec ∧ CleanVec s.currency.vec ∧ CleanVec s.language.vec ∧ ∀ e ∈ s.mcc, 0 ∉ e.2

theorem iso_clean (lib : Lib) (iso : Option (List Byte)) (s s' : State) (r : Int) (hs : CleanState s)
    (h : isoInit lib iso s = .ok (.ok (r, s'))) : CleanState s' := by
  rw [isoInit] at h
  cases hd : directory (iso.getD lib.isoPath) with
  | error e => rw [hd, bind_error] at h; exact absurd h (by simp)
  | ok d =>
    rw [hd, bind_ok] at h
    obtain ⟨c1, c2, c3, c4⟩ := hs
    split at h
    · exact absurd h (by simp)
    · rename_i r1 t1 h1
      have l1 := stage_clean lib _ _ _ _ _ _ _ (country_clean lib) c1 h1
      simp only [] at h
      split at h
      · injection h with h; injection h with h; injection h with _ h
        subst h
        exact ⟨l1, c2, c3, c4⟩
      · split at h
        · exact absurd h (by simp)
        · rename_i r2 t2 h2
          have l2 := stage_clean lib _ _ _ _ _ _ _ (currency_clean lib) c2 h2
          split at h
          · injection h with h; injection h with h; injection h with _ h
            subst h
            exact ⟨l1, l2, c3, c4⟩
          · split at h
            · exact absurd h (by simp)
            · rename_i r3 t3 h3
              have l3 := stage_clean lib _ _ _ _ _ _ _ (language_clean lib) c3 h3
              injection h with h; injection h with h; injection h with _ h
              subst h
              exact ⟨l1, l2, l3, c4⟩

theorem mccAdd_clean (lib : Lib) (m : List (Nat × List Byte)) (f : List (List Byte × Json))
    (m' : List (Nat × List Byte)) (hm : ∀ e ∈ m, 0 ∉ e.2) (h : mccAdd lib m f = some m') :
    ∀ e ∈ m', 0 ∉ e.2 := by
  rw [mccAdd] at h
  simp only [Option.bind_eq_bind, Option.bind_eq_some_iff] at h
  obtain ⟨j, -, h⟩ := h
  split at h
  · exact absurd h (by simp)
  · rw [Option.bind_eq_some_iff] at h
    obtain ⟨t, ht, h⟩ := h
    injection h with h
    subst h
    intro e he
    rcases List.mem_cons.1 he with rfl | he
    · exact stringMember_clean lib f _ _ ht
    · exact hm e (List.mem_filter.1 he).1

theorem mccInit_clean (lib : Lib) (path : Option (List Byte)) (m : List (Nat × List Byte))
    (hm : ∀ e ∈ m, 0 ∉ e.2) : ∀ e ∈ (mccInit lib path m).2, 0 ∉ e.2 := by
  rw [mccInit]
  split
  · exact hm
  · split
    · exact hm
    · exact visit_inv (fun m : List (Nat × List Byte) => ∀ e ∈ m, 0 ∉ e.2) (mccAdd lib)
        (fun m f m' => mccAdd_clean lib m f m') _ m hm
  · exact hm

theorem reachable_clean (s : State) (h : Reachable s) : CleanState s := by
  induction h with
  | fresh => exact ⟨fun _ h => absurd h (by simp [fresh]), fun _ h => absurd h (by simp [fresh]),
      fun _ h => absurd h (by simp [fresh]), fun _ h => absurd h (by simp [fresh])⟩
  | init lib iso mcc s s' r h hs ih =>
    rw [stringsInit] at hs
    cases hi : isoInit lib iso s with
    | error e => rw [hi, bind_error] at hs; exact absurd hs (by simp)
    | ok x =>
      rw [hi, bind_ok] at hs
      cases x with
      | terminated => exact absurd hs (by simp)
      | ok y =>
        obtain ⟨r1, s1⟩ := y
        have h1 := iso_clean lib iso s s1 r1 ih hi
        simp only [] at hs
        split at hs
        · injection hs with hs; injection hs with hs; injection hs with _ hs
          exact hs ▸ h1
        · injection hs with hs; injection hs with hs; injection hs with _ hs
          subst hs
          exact ⟨h1.1, h1.2.1, h1.2.2.1, mccInit_clean lib mcc s1.mcc h1.2.2.2⟩

theorem lookup_clean {κ : Type} [BEq κ] (v : Vec) (m : Map κ) (k : κ) (t : List Byte)
    (hv : CleanVec v) (h : lookup v m k = .ok (some t)) : 0 ∉ t := by
  unfold lookup at h
  cases hf : m.find? (fun e => e.1 == k) with
  | none =>
    rw [hf] at h
    simp only [] at h
    injection h with h
    exact absurd h (by simp)
  | some x =>
    rw [hf] at h
    simp only [name] at h
    split at h
    · split at h
      · rename_i e he
        rw [bind_ok] at h
        injection h with h
        injection h with h
        subst h
        exact hv e (List.mem_of_getElem? he)
      · exact absurd h (by simp [bind_error])
    · exact absurd h (by simp [bind_error])

/-- **C98.** Whatever the documents and however often the library is initialised, a name a lookup
returns has no NUL inside. -/
theorem C98_names (s : State) (h : Reachable s) (k : List Byte) (n : Nat) (t : List Byte)
    (ht : countryByAlpha2 s k = .ok (some t) ∨ countryByAlpha3 s k = .ok (some t) ∨
      countryByNumeric s n = .ok (some t) ∨ currencyByAlpha3 s k = .ok (some t) ∨
      currencyByNumeric s n = .ok (some t) ∨ languageByAlpha2 s k = .ok (some t) ∨
      languageByAlpha3 s k = .ok (some t) ∨ mccLookup s n = some t) : 0 ∉ t := by
  obtain ⟨h1, h2, h3, h4⟩ := reachable_clean s h
  rcases ht with ht | ht | ht | ht | ht | ht | ht | ht
  · exact lookup_clean _ _ _ _ h1 ht
  · exact lookup_clean _ _ _ _ h1 ht
  · exact lookup_clean _ _ _ _ h1 ht
  · exact lookup_clean _ _ _ _ h2 ht
  · exact lookup_clean _ _ _ _ h2 ht
  · exact lookup_clean _ _ _ _ h3 ht
  · exact lookup_clean _ _ _ _ h3 ht
  · rw [mccLookup, Option.map_eq_some_iff] at ht
    obtain ⟨e, he, rfl⟩ := ht
    exact h4 e (List.mem_of_find?_eq_some he)

/-- **C98.** The tables of one initialisation are tables of C strings, as the descriptions of fields
(C82 to C84, C92) take them to be. -/
theorem C98_tables (lib : Lib) (iso mcc : Option (List Byte)) (h : iso.getD lib.isoPath ≠ []) (r : Int)
    (s : State) (hs : stringsInit lib iso mcc fresh = .ok (.ok (r, s))) :
    ∃ (country2 country3 language currency3 language3 : List Byte → Option (List Byte))
      (countryNum currency : Nat → Option (List Byte)),
      (∀ k, countryByAlpha2 s k = .ok (country2 k)) ∧ (∀ k, countryByAlpha3 s k = .ok (country3 k)) ∧
      (∀ k, languageByAlpha2 s k = .ok (language k)) ∧
      (∀ n, countryByNumeric s n = .ok (countryNum n)) ∧
      (∀ n, currencyByNumeric s n = .ok (currency n)) ∧
      (∀ k, currencyByAlpha3 s k = .ok (currency3 k)) ∧ (∀ k, languageByAlpha3 s k = .ok (language3 k)) ∧
      TlvInfo.Texts currency3 ∧ TlvInfo.Texts language3 ∧
      TlvInfo.Texts country2 ∧ TlvInfo.Texts country3 ∧ TlvInfo.Texts language ∧
      TlvInfo.Texts countryNum ∧ TlvInfo.Texts currency ∧ TlvInfo.Texts (mccLookup s) := by
  have hr : Reachable s := .init lib iso mcc fresh s r .fresh hs
  have ha : AllSafe s := by
    rcases C98_safe_partial lib iso mcc h with h1 | ⟨r1, s1, h1, h2⟩
    · rw [h1] at hs
      injection hs with hs
      exact absurd hs (by simp)
    · rw [h1] at hs
      injection hs with hs
      injection hs with hs
      injection hs with _ hs
      exact hs ▸ h2
  obtain ⟨a1, a2, a3, a4, a5, a6, a7⟩ := ha
  have conv : ∀ {κ : Type} (f : κ → C (Option (List Byte))), (∀ k, (f k).Safe) →
      ∃ g : κ → Option (List Byte), ∀ k, f k = .ok (g k) := by
    intro κ f hf
    exact ⟨fun k => (hf k).choose, fun k => (hf k).choose_spec⟩
  obtain ⟨g1, b1⟩ := conv _ a1
  obtain ⟨g2, b2⟩ := conv _ a2
  obtain ⟨g3, b3⟩ := conv _ a6
  obtain ⟨g4, b4⟩ := conv _ a3
  obtain ⟨g5, b5⟩ := conv _ a5
  obtain ⟨g6, b6⟩ := conv _ a4
  obtain ⟨g7, b7⟩ := conv _ a7
  refine ⟨g1, g2, g3, g6, g7, g4, g5, b1, b2, b3, b4, b5, b6, b7, ?_, ?_, ?_, ?_, ?_, ?_, ?_, ?_⟩ <;>
    intro k t ht b hb h0 <;> subst h0
  · exact C98_names s hr k 0 t (by simp [b6, ht]) hb
  · exact C98_names s hr k 0 t (by simp [b7, ht]) hb
  · exact C98_names s hr k 0 t (.inl ((b1 k).trans (by rw [ht]))) hb
  · exact C98_names s hr k 0 t (.inr (.inl ((b2 k).trans (by rw [ht])))) hb
  · exact C98_names s hr k 0 t (by simp [b3, ht]) hb
  · exact C98_names s hr [] k t (by simp [b4, ht]) hb
  · exact C98_names s hr [] k t (by simp [b5, ht]) hb
  · exact C98_names s hr [] k t (by simp [ht]) hb

/-! ### A concrete case -/

namespace Sample

def nl : List (List Byte × Json) :=
  [(txt!"alpha_2", .str txt!"NL"), (txt!"alpha_3", .str txt!"NLD"), (txt!"name", .str txt!"Netherlands"),
   (txt!"numeric", .str txt!"528")]
def eur : List (List Byte × Json) :=
  [(txt!"alpha_3", .str txt!"EUR"), (txt!"name", .str txt!"Euro"), (txt!"numeric", .str txt!"978")]
def nld : List (List Byte × Json) := [(txt!"alpha_3", .str txt!"nld"), (txt!"name", .str txt!"Dutch")]
def shop : List (List Byte × Json) :=
  [(txt!"edited_description", .str txt!"Grocery"), (txt!"mcc", .other 5411)]

/-- A library with one entry of each kind. -/
def lib : Lib where
  file p :=
    if p = txt!"/iso_3166-1.json" then some (.obj [(txt!"3166-1", .arr [.obj nl])])
    else if p = txt!"/iso_4217.json" then some (.obj [(txt!"4217", .arr [.obj eur])])
    else if p = txt!"/iso_639-2.json" then some (.obj [(txt!"639-2", .arr [.obj nld])])
    else if p = txt!"m" then some (.arr [.obj shop])
    else none
  text _ := []
  int64
    | .other n => n
    | _ => 0
  stoul s := if s = txt!"528" then some 528 else if s = txt!"978" then some 978 else none
  isoPath := txt!"/"
  mccPath := txt!"m"

def netherlands : Entry := ⟨txt!"Netherlands", txt!"NL", txt!"NLD", txt!"528"⟩
def euro : Entry := ⟨txt!"Euro", [], txt!"EUR", txt!"978"⟩
def dutch : Entry := ⟨txt!"Dutch", [], txt!"nld", []⟩

theorem reads {f : List (List Byte × Json)} {k s : List Byte} (h : (k, .str s) ∈ f) (h0 : 0 ∉ s) :
    Reads lib f k s := ⟨_, h, by simp, .inl ⟨s, rfl, h0, .inl rfl⟩⟩

theorem countries : Says lib (Country lib) txt!"/iso_3166-1.json" txt!"3166-1" [netherlands] :=
  ⟨_, [.obj nl], by rfl, ⟨by simp, _, rfl, by simp, by simp⟩,
    ⟨nl, rfl, ⟨by decide +kernel, _, _, _, rfl⟩, reads (by simp [nl, netherlands]) (by decide +kernel),
      reads (by simp [nl, netherlands]) (by decide +kernel),
      reads (by simp [nl, netherlands]) (by decide +kernel),
      reads (by simp [nl, netherlands]) (by decide +kernel)⟩, trivial⟩

theorem currencies : Says lib (Currency lib) txt!"/iso_4217.json" txt!"4217" [euro] :=
  ⟨_, [.obj eur], by rfl, ⟨by simp, _, rfl, by simp, by simp⟩,
    ⟨eur, rfl, ⟨by decide +kernel, _, _, _, rfl⟩, reads (by simp [eur, euro]) (by decide +kernel), rfl,
      reads (by simp [eur, euro]) (by decide +kernel),
      reads (by simp [eur, euro]) (by decide +kernel)⟩, trivial⟩

theorem languages : Says lib (Language lib) txt!"/iso_639-2.json" txt!"639-2" [dutch] :=
  ⟨_, [.obj nld], by rfl, ⟨by simp, _, rfl, by simp, by simp⟩,
    ⟨nld, rfl, ⟨by decide +kernel, _, _, _, rfl⟩, reads (by simp [nld, dutch]) (by decide +kernel),
      .inr ⟨by
        intro j hj
        simp only [nld, List.mem_cons, List.not_mem_nil, or_false, Prod.mk.injEq] at hj
        rcases hj with ⟨h, -⟩ | ⟨h, -⟩ <;> exact absurd h (by decide +kernel), rfl⟩,
      reads (by simp [nld, dutch]) (by decide +kernel), rfl⟩, trivial⟩

theorem categories : SaysMcc lib txt!"m" [(5411, txt!"Grocery")] :=
  ⟨[.obj shop], by rfl, by simp,
    ⟨shop, .other 5411, rfl, ⟨by decide +kernel, _, _, _, rfl⟩, by simp [shop], by simp, by decide,
      by decide, reads (by simp [shop]) (by decide +kernel)⟩, trivial⟩

theorem slash : Directory (Option.none.getD lib.isoPath) txt!"/" := .inl ⟨[], by rfl, by rfl⟩

theorem numbered1 : Numbered lib [netherlands] := by
  intro e he
  have : e = netherlands := by simpa using he
  subst this
  exact ⟨528, by rfl, by decide⟩

theorem numbered2 : Numbered lib [euro] := by
  intro e he
  have : e = euro := by simpa using he
  subst this
  exact ⟨978, by rfl, by decide⟩

/-- The hypotheses of `C98_lookup` are met; country 528 is known, language "" is not. -/
example : ∃ s, stringsInit lib none none fresh = .ok (.ok (0, s)) ∧
    countryByNumeric s 528 = .ok (some txt!"Netherlands") ∧ languageByAlpha2 s [] = .ok none ∧
    languageByAlpha3 s txt!"nld" = .ok (some txt!"Dutch") ∧ mccLookup s 5411 = some txt!"Grocery" ∧
    mccLookup s 1 = none := by
  obtain ⟨s, h, ⟨-, -, hc⟩, -, ⟨hl, hl3⟩, hm⟩ := C98_lookup lib none none txt!"/" _ _ _ _ slash countries
    currencies languages categories numbered1 numbered2
  exact ⟨s, h, by rw [hc]; decide +kernel, by rw [hl]; decide +kernel, by rw [hl3]; decide +kernel,
    by rw [hm]; decide +kernel, by rw [hm]; decide +kernel⟩

/-- The hypotheses of `C98_again` are met. -/
example : ∃ s s', stringsInit lib none none fresh = .ok (.ok (0, s)) ∧
    stringsInit lib none none s = .ok (.ok (0, s')) ∧ countryByAlpha2 s' txt!"NL" = .error .uaf := by
  obtain ⟨s, h, -⟩ := C98_lookup lib none none txt!"/" _ _ _ _ slash countries
    currencies languages categories numbered1 numbered2
  have h' : ∃ s', stringsInit lib none none s = .ok (.ok (0, s')) := by
    have e : ∀ x, stringsInit lib none none fresh = .ok (.ok (0, x)) →
        ∃ s', stringsInit lib none none x = .ok (.ok (0, s')) := by
      intro x hx
      injection hx with hx
      injection hx with hx
      injection hx with _ hx
      exact hx ▸ ⟨_, rfl⟩
    exact e s h
  obtain ⟨s', h'⟩ := h'
  exact ⟨s, s', h, h', (C98_again lib lib none none none none txt!"/" txt!"/" _ _ slash countries
    numbered1 slash countries 0 0 s s' h h' netherlands (by simp)).1⟩

/-- The hypotheses of `C98_countries_refused` are met: a document that is an empty object. -/
example : Bad { lib with file := fun _ => some (.obj []) } (Country lib) [] txt!"3166-1" :=
  ⟨_, rfl, by
    rintro es ⟨root, l, h, ⟨-, f, hf, -, hm⟩, -⟩
    injection h with h
    rw [hf] at h
    injection h with h
    rw [← h] at hm
    exact absurd hm (by simp), by
    intro f l h
    injection h with h
    rw [← h]
    simp⟩

/-- The same library with a list of merchant categories whose second element is none. -/
def libHalf : Lib :=
  { lib with file := fun p => if p = txt!"m" then some (.arr [.obj shop, .null]) else lib.file p }

end Sample

/-- **C98 is false** for the merchant categories: of a document that is refused, the categories before
the element at fault are known all the same. -/
theorem C98_half : ∃ lib s, BadMcc lib lib.mccPath ∧
    stringsInit lib none none fresh = .ok (.ok (-1, s)) ∧ mccLookup s 5411 = some txt!"Grocery" := by
  refine ⟨Sample.libHalf, _, ⟨.arr [.obj Sample.shop, .null], by rfl, ?_, ?_⟩, rfl, by decide +kernel⟩
  · rintro es ⟨l, h, -, ha⟩
    have e : Sample.libHalf.file Sample.libHalf.mccPath = some (.arr [.obj Sample.shop, .null]) := by rfl
    rw [e] at h
    injection h with h
    injection h with h
    subst h
    match es, ha with
    | _ :: _ :: _, ⟨_, ⟨_, _, h, _⟩, _⟩ => cases h
  · intro l h f hf
    injection h with h
    subst h
    simp only [List.mem_cons, List.not_mem_nil, or_false] at hf
    rcases hf with hf | hf
    · injection hf with hf; subst hf; decide +kernel
    · cases hf

end Verif.Codes
