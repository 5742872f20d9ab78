import Verif.Argp

/-! # Words of a command line: specification, and that every command line has one reading -/

set_option autoImplicit false

namespace Verif.Argp
open Verif

variable {K : Type}

/-- `name` stands for the option `k`: it is its name, or begins the names of this option and of no other. -/
def Means (T : Table K) (name : List Byte) (k : K) : Prop :=
  (name, k) ∈ T.options ∨
  (∀ k', (name, k') ∉ T.options) ∧ (∃ n, (n, k) ∈ T.options ∧ name <+: n) ∧
    ∀ n k', (n, k') ∈ T.options → name <+: n → k' = k

/-- The words of a command line and what they stand for, one after the other. -/
inductive Line (T : Table K) (posix : Bool) : List (List Byte) → List (Item K) → Prop
  | nil : Line T posix [] []
  /-- a word without a dash at its start, or only a dash -/
  | input {a : List Byte} {ws : List (List Byte)} {is : List (Item K)} :
      posix = false → a = txt!"-" ∨ ¬ txt!"-" <+: a → Line T posix ws is → Line T posix (a :: ws) (.input a :: is)
  /-- with `POSIXLY_CORRECT` everything from such a word on -/
  | last {a : List Byte} (ws : List (List Byte)) :
      posix = true → a = txt!"-" ∨ ¬ txt!"-" <+: a → Line T posix (a :: ws) ((a :: ws).map .input)
  /-- everything after two dashes -/
  | rest (ws : List (List Byte)) : Line T posix (txt!"--" :: ws) (ws.map .input)
  /-- `--name` -/
  | plain {name : List Byte} {k : K} {ws : List (List Byte)} {is : List (Item K)} :
      Means T name k → 0x3D ∉ name → T.takes k ≠ .value → Line T posix ws is →
      Line T posix ((txt!"--" ++ name) :: ws) (.option k none :: is)
  /-- `--name=value` -/
  | joined {name v : List Byte} {k : K} {ws : List (List Byte)} {is : List (Item K)} :
      Means T name k → 0x3D ∉ name → T.takes k ≠ .nothing → Line T posix ws is →
      Line T posix ((txt!"--" ++ name ++ txt!"=" ++ v) :: ws) (.option k (some v) :: is)
  /-- `--name value` -/
  | apart {name v : List Byte} {k : K} {ws : List (List Byte)} {is : List (Item K)} :
      Means T name k → 0x3D ∉ name → T.takes k = .value → Line T posix ws is →
      Line T posix ((txt!"--" ++ name) :: v :: ws) (.option k (some v) :: is)
  /-- `-?` -/
  | question {a : List Byte} {ws : List (List Byte)} {is : List (Item K)} :
      txt!"-?" <+: a → Line T posix ws is → Line T posix (a :: ws) (.option T.help none :: is)
  /-- another option of one letter -/
  | letter {a : List Byte} {ws : List (List Byte)} {is : List (Item K)} :
      txt!"-" <+: a → a ≠ txt!"-" → ¬ txt!"-?" <+: a → ¬ txt!"--" <+: a → Line T posix ws is →
      Line T posix (a :: ws) (.bad :: is)
  /-- `--name` that stands for nothing -/
  | unknown {name : List Byte} {ws : List (List Byte)} {is : List (Item K)} :
      name ≠ [] → (¬ ∃ k, Means T name k) → 0x3D ∉ name → Line T posix ws is → Line T posix ((txt!"--" ++ name) :: ws) (.bad :: is)
  /-- `--name=value` that stands for nothing -/
  | unknownValue {name v : List Byte} {ws : List (List Byte)} {is : List (Item K)} :
      (¬ ∃ k, Means T name k) → 0x3D ∉ name → Line T posix ws is →
      Line T posix ((txt!"--" ++ name ++ txt!"=" ++ v) :: ws) (.bad :: is)
  /-- a value for an option that takes none -/
  | needless {name v : List Byte} {k : K} {ws : List (List Byte)} {is : List (Item K)} :
      Means T name k → 0x3D ∉ name → T.takes k = .nothing → Line T posix ws is →
      Line T posix ((txt!"--" ++ name ++ txt!"=" ++ v) :: ws) (.bad :: is)
  /-- no value for an option that takes one -/
  | missing {name : List Byte} {k : K} :
      Means T name k → 0x3D ∉ name → T.takes k = .value → Line T posix [txt!"--" ++ name] [.bad]

/-- The inputs among the items. -/
def inputsOf (is : List (Item K)) : List (List Byte) := is.filterMap fun | .input a => some a | _ => none

/-- The options among the items. -/
def optionsOf (is : List (Item K)) : List (Item K) := is.filter fun | .input _ => false | _ => true

/-- A table without two options of the same name, in which no name at all stands for nothing. -/
def Table.Proper [DecidableEq K] (T : Table K) : Prop := (T.options.map (·.1)).Nodup ∧ find T [] = none

variable [DecidableEq K] {T : Table K}

/-! ## Names of options -/

omit [DecidableEq K] in
theorem key_unique : ∀ (l : List (List Byte × K)), (l.map (·.1)).Nodup → ∀ {n : List Byte} {k k' : K},
    (n, k) ∈ l → (n, k') ∈ l → k = k' := by
  intro l
  induction l with
  | nil => intro _ n k k' h; simp at h
  | cons o l ih =>
    intro hd n k k' h h'
    rw [List.map_cons, List.nodup_cons] at hd
    have out : ∀ k, (n, k) ∈ l → n ∈ l.map (·.1) := fun k hk => List.mem_map.mpr ⟨_, hk, rfl⟩
    rcases List.mem_cons.mp h with e | h <;> rcases List.mem_cons.mp h' with e' | h'
    · rw [← e'] at e; exact congrArg Prod.snd e
    · exact absurd (out _ h') (by rw [← e] at hd; exact hd.1)
    · exact absurd (out _ h) (by rw [← e'] at hd; exact hd.1)
    · exact ih hd.2 h h'

theorem find_means (hT : T.Proper) (name : List Byte) (k : K) : find T name = some k ↔ Means T name k := by
  unfold find
  cases hf : T.options.find? (fun o => o.1 == name) with
  | some o =>
    have hm := List.mem_of_find?_eq_some hf
    have hn : o.1 = name := by simpa using List.find?_some hf
    have ho : (name, o.2) ∈ T.options := by rw [← hn]; exact hm
    simp only [Option.some.injEq]
    constructor
    · rintro rfl; exact .inl ho
    · rintro (h | ⟨h, -⟩)
      · exact key_unique T.options hT.1 ho h
      · exact absurd ho (h _)
  | none =>
    have hno : ∀ k', (name, k') ∉ T.options := by
      intro k' h
      have := List.find?_eq_none.mp hf _ h
      simp at this
    have hmem : ∀ k', k' ∈ (T.options.filter (fun o => name.isPrefixOf o.1)).map (·.2) ↔
        ∃ n, (n, k') ∈ T.options ∧ name <+: n := by
      intro k'
      simp only [List.mem_map, List.mem_filter, List.isPrefixOf_iff_prefix]
      constructor
      · rintro ⟨⟨n, _⟩, ⟨h1, h2⟩, rfl⟩; exact ⟨n, h1, h2⟩
      · rintro ⟨n, h1, h2⟩; exact ⟨(n, k'), ⟨h1, h2⟩, rfl⟩
    cases hl : (T.options.filter (fun o => name.isPrefixOf o.1)).map (·.2) with
    | nil =>
      simp only [reduceCtorEq, false_iff]
      rintro (h | ⟨-, h, -⟩)
      · exact hno _ h
      · have := (hmem k).mpr h
        rw [hl] at this; simp at this
    | cons x xs =>
      rw [hl] at hmem
      simp only []
      split
      · rename_i hall
        simp only [List.all_eq_true, beq_iff_eq] at hall
        simp only [Option.some.injEq]
        have hx : ∀ k', k' ∈ x :: xs → k' = x := by
          intro k' h
          rcases List.mem_cons.mp h with h | h
          · exact h
          · exact hall _ h
        constructor
        · rintro rfl
          exact .inr ⟨hno, (hmem x).mp (by simp), fun n k' h1 h2 => hx _ ((hmem k').mpr ⟨n, h1, h2⟩)⟩
        · rintro (h | ⟨-, h, -⟩)
          · exact absurd h (hno _)
          · exact (hx _ ((hmem k).mpr h)).symm
      · rename_i hall
        simp only [reduceCtorEq, false_iff]
        rintro (h | ⟨-, -, h⟩)
        · exact hno _ h
        · apply hall
          simp only [List.all_eq_true, beq_iff_eq]
          intro k' hk'
          obtain ⟨n, h1, h2⟩ := (hmem k').mp (by simp [hk'])
          obtain ⟨n', h1', h2'⟩ := (hmem x).mp (by simp)
          rw [h n k' h1 h2, h n' x h1' h2']

theorem means_nonempty (hT : T.Proper) {name : List Byte} {k : K} (h : Means T name k) : name ≠ [] := by
  rintro rfl
  have := (find_means hT [] k).mpr h
  rw [hT.2] at this
  cases this

/-! ## Words -/

theorem take_name {name v : List Byte} (h : 0x3D ∉ name) :
    (name ++ txt!"=" ++ v).takeWhile (· != 0x3D) = name := by
  rw [List.append_assoc, List.takeWhile_append_of_pos (by
    intro c hc; simp only [bne_iff_ne, ne_eq]; rintro rfl; exact h hc)]
  have : (txt!"=" ++ v).takeWhile (· != 0x3D) = [] := by
    rw [show txt!"=" = [0x3D] by decide]; simp
  rw [this, List.append_nil]

theorem take_plain {name : List Byte} (h : 0x3D ∉ name) : name.takeWhile (· != 0x3D) = name := by
  have := List.takeWhile_append_of_pos (p := (· != 0x3D)) (l₁ := name) (l₂ := []) (by
    intro c hc; simp only [bne_iff_ne, ne_eq]; rintro rfl; exact h hc)
  simpa using this

theorem equals_mem (name v : List Byte) : (0x3D : Byte) ∈ name ++ txt!"=" ++ v := by
  have : (0x3D : Byte) ∈ txt!"=" := by decide
  simp [this]

theorem drop_name (name v : List Byte) : (name ++ txt!"=" ++ v).drop (name.length + 1) = v := by
  rw [show name.length + 1 = (name ++ txt!"=").length by simp [show (txt!"=").length = 1 by decide]]
  exact List.drop_left

theorem items_cons (posix : Bool) (w : List Byte) (ws : List (List Byte)) : items T posix (w :: ws) =
    if w = txt!"--" then ws.map .input
    else if txt!"--" <+: w then
      match ws with
      | [] => [(long T (w.drop 2) none).1]
      | v :: vs =>
        match long T (w.drop 2) (some v) with
        | (i, true) => i :: items T posix vs
        | (i, false) => i :: items T posix (v :: vs)
    else if txt!"-" <+: w ∧ w ≠ txt!"-" then
      (if txt!"-?" <+: w then .option T.help none else .bad) :: items T posix ws
    else if posix then (w :: ws).map .input
    else .input w :: items T posix ws := by
  cases ws <;> exact items.eq_def ..

/-- A word of a long option. -/
theorem items_long (posix : Bool) (body : List Byte) (ws : List (List Byte)) (hb : body ≠ []) :
    items T posix ((txt!"--" ++ body) :: ws) =
      match ws with
      | [] => [(long T body none).1]
      | v :: vs =>
        match long T body (some v) with
        | (i, true) => i :: items T posix vs
        | (i, false) => i :: items T posix (v :: vs) := by
  have h1 : txt!"--" ++ body ≠ txt!"--" := by simpa using hb
  have h2 : txt!"--" <+: txt!"--" ++ body := List.prefix_append _ _
  have h3 : (txt!"--" ++ body).drop 2 = body := List.drop_left (l₁ := txt!"--")
  rw [items_cons posix, if_neg h1, if_pos h2, h3]

/-- The next word is used up only by an option that takes a value. -/
theorem items_long_one (posix : Bool) (body : List Byte) (ws : List (List Byte)) (hb : body ≠ []) (i : Item K)
    (h : ∀ n, long T body n = (i, false)) : items T posix ((txt!"--" ++ body) :: ws) = i :: items T posix ws := by
  rw [items_long posix body ws hb]
  cases ws with
  | nil => simp only [h, items]
  | cons v vs => simp only [h]

theorem items_input (posix : Bool) {a : List Byte} (ws : List (List Byte)) (h : a = txt!"-" ∨ ¬ txt!"-" <+: a) :
    items T posix (a :: ws) = if posix then (a :: ws).map .input else .input a :: items T posix ws := by
  have h0 : txt!"-" <+: txt!"--" := by decide
  have h1 : a ≠ txt!"--" := by
    rintro rfl
    rcases h with h | h
    · revert h; decide
    · exact h h0
  have h2 : ¬ txt!"--" <+: a := by
    intro h'
    rcases h with rfl | h
    · revert h'; decide
    · exact h (h0.trans h')
  have h3 : ¬ (txt!"-" <+: a ∧ a ≠ txt!"-") := by
    rintro ⟨h4, h5⟩
    rcases h with h | h
    · exact h5 h
    · exact h h4
  rw [items_cons posix, if_neg h1, if_neg h2, if_neg h3]

theorem items_letter (posix : Bool) {a : List Byte} (ws : List (List Byte)) (h1 : txt!"-" <+: a) (h2 : a ≠ txt!"-")
    (h3 : ¬ txt!"--" <+: a) :
    items T posix (a :: ws) = (if txt!"-?" <+: a then .option T.help none else .bad) :: items T posix ws := by
  have h4 : a ≠ txt!"--" := by rintro rfl; exact h3 List.prefix_rfl
  rw [items_cons posix, if_neg h4, if_neg h3, if_pos ⟨h1, h2⟩]

theorem question_prefix {a : List Byte} (h : txt!"-?" <+: a) :
    txt!"-" <+: a ∧ a ≠ txt!"-" ∧ ¬ txt!"--" <+: a := by
  obtain ⟨r, rfl⟩ := h
  have e1 : txt!"-?" = [0x2D, 0x3F] := by decide
  have e2 : txt!"-" = [0x2D] := by decide
  have e3 : txt!"--" = [0x2D, 0x2D] := by decide
  rw [e1, e2, e3]
  simp [List.cons_prefix_cons]

theorem long_plain {name : List Byte} (h : 0x3D ∉ name) (n : Option (List Byte)) :
    long T name n = match find T name with
      | none => (.bad, false)
      | some k =>
        match T.takes k with
        | .nothing => (.option k none, false)
        | .value =>
          match n with
          | some v => (.option k (some v), true)
          | none => (.bad, false)
        | .maybe => (.option k none, false) := by
  unfold long
  simp only [take_plain h, if_neg h]
  cases find T name with
  | none => rfl
  | some k => simp only []; cases T.takes k <;> rfl

theorem long_joined {name : List Byte} (h : 0x3D ∉ name) (v : List Byte) (n : Option (List Byte)) :
    long T (name ++ txt!"=" ++ v) n = match find T name with
      | none => (.bad, false)
      | some k =>
        match T.takes k with
        | .nothing => (.bad, false)
        | _ => (.option k (some v), false) := by
  unfold long
  simp only [take_name h, if_pos (equals_mem name v), drop_name]
  cases find T name with
  | none => rfl
  | some k => simp only []; cases T.takes k <;> rfl

theorem joined_ne (name v : List Byte) : name ++ txt!"=" ++ v ≠ [] := by
  intro h
  have := equals_mem name v
  rw [h] at this
  simp at this

theorem line_items (hT : T.Proper) {posix : Bool} {ws : List (List Byte)} {is : List (Item K)} (h : Line T posix ws is) : items T posix ws = is := by
  induction h with
  | nil => rfl
  | input hp ha _ ih => subst hp; rw [items_input false _ ha, ih]; rfl
  | last ws hp ha => subst hp; rw [items_input true _ ha]; rfl
  | rest ws => rw [items_cons posix, if_pos rfl]
  | plain hm he ht _ ih =>
    rw [items_long_one posix _ _ (means_nonempty hT hm), ih]
    intro n
    rw [long_plain he, (find_means hT _ _).mpr hm]
    simp only []
    rename_i k _ _ _
    cases hk : T.takes k <;> simp_all
  | joined hm he ht _ ih =>
    rw [List.append_assoc, List.append_assoc, ← List.append_assoc _ (txt!"=")]
    rw [items_long_one posix _ _ (joined_ne _ _), ih]
    intro n
    rw [long_joined he, (find_means hT _ _).mpr hm]
    simp only []
  | apart hm he ht _ ih =>
    rw [items_long posix _ _ (means_nonempty hT hm)]
    simp only [long_plain he, (find_means hT _ _).mpr hm, ht, ih]
  | question hq _ ih =>
    obtain ⟨h1, h2, h3⟩ := question_prefix hq
    rw [items_letter posix _ h1 h2 h3, if_pos hq, ih]
  | letter h1 h2 hq h3 _ ih => rw [items_letter posix _ h1 h2 h3, if_neg hq, ih]
  | unknown hn hm he _ ih =>
    rw [items_long_one posix _ _ hn, ih]
    intro n
    rw [long_plain he]
    cases hf : find T _ with
    | none => rfl
    | some k => exact absurd ⟨k, (find_means hT _ _).mp hf⟩ hm
  | unknownValue hm he _ ih =>
    rw [List.append_assoc, List.append_assoc, ← List.append_assoc _ (txt!"=")]
    rw [items_long_one posix _ _ (joined_ne _ _), ih]
    intro n
    rw [long_joined he]
    cases hf : find T _ with
    | none => rfl
    | some k => exact absurd ⟨k, (find_means hT _ _).mp hf⟩ hm
  | needless hm he ht _ ih =>
    rw [List.append_assoc, List.append_assoc, ← List.append_assoc _ (txt!"=")]
    rw [items_long_one posix _ _ (joined_ne _ _), ih]
    intro n
    rw [long_joined he, (find_means hT _ _).mpr hm]
    simp only [ht]
  | missing hm he ht =>
    rw [items_long posix _ _ (means_nonempty hT hm)]
    simp only [long_plain he, (find_means hT _ _).mpr hm, ht]

theorem split_equals (body : List Byte) : 0x3D ∉ body ∨
    ∃ name v, 0x3D ∉ name ∧ body = name ++ txt!"=" ++ v := by
  by_cases h : (0x3D : Byte) ∈ body
  · right
    obtain ⟨name, v, rfl, hn⟩ := List.eq_append_cons_of_mem h
    exact ⟨name, v, hn, by rw [show txt!"=" = [0x3D] by decide]; simp⟩
  · exact .inl h

omit [DecidableEq K] in
theorem line_total (posix : Bool) : ∀ (n : Nat) (ws : List (List Byte)), ws.length ≤ n → ∃ is, Line T posix ws is := by
  intro n
  induction n with
  | zero =>
    intro ws h
    have : ws = [] := List.length_eq_zero_iff.mp (by omega)
    subst this
    exact ⟨_, .nil⟩
  | succ n ih =>
    intro ws h
    cases ws with
    | nil => exact ⟨_, .nil⟩
    | cons a ws =>
      obtain ⟨is, hl⟩ := ih ws (by simpa using h)
      by_cases h1 : a = txt!"-" ∨ ¬ txt!"-" <+: a
      · cases hp : posix with
        | false => subst hp; exact ⟨_, .input rfl h1 hl⟩
        | true => exact ⟨_, .last ws rfl h1⟩
      · have h2 : a ≠ txt!"-" := fun e => h1 (.inl e)
        have h3 : txt!"-" <+: a := Classical.byContradiction fun e => h1 (.inr e)
        by_cases h4 : txt!"--" <+: a
        · obtain ⟨body, rfl⟩ := h4
          by_cases hb : body = []
          · subst hb
            rw [List.append_nil]
            exact ⟨_, .rest ws⟩
          · rcases split_equals body with he | ⟨name, v, he, rfl⟩
            · by_cases hm : ∃ k, Means T body k
              · obtain ⟨k, hk⟩ := hm
                by_cases ht : T.takes k = .value
                · cases ws with
                  | nil => exact ⟨_, .missing hk he ht⟩
                  | cons v vs =>
                    obtain ⟨is, hl⟩ := ih vs (by simp at h; omega)
                    exact ⟨_, .apart hk he ht hl⟩
                · exact ⟨_, .plain hk he ht hl⟩
              · exact ⟨_, .unknown hb hm he hl⟩
            · rw [← List.append_assoc, ← List.append_assoc]
              by_cases hm : ∃ k, Means T name k
              · obtain ⟨k, hk⟩ := hm
                by_cases ht : T.takes k = .nothing
                · exact ⟨_, .needless hk he ht hl⟩
                · exact ⟨_, .joined hk he ht hl⟩
              · exact ⟨_, .unknownValue hm he hl⟩
        · by_cases h5 : txt!"-?" <+: a
          · exact ⟨_, .question h5 hl⟩
          · exact ⟨_, .letter h3 h2 h5 h4 hl⟩

/-- Every command line has exactly one reading, and this is the one the C library goes by. -/
theorem reading (hT : T.Proper) (posix : Bool) (ws : List (List Byte)) :
    (∃ is, Line T posix ws is) ∧ ∀ is, Line T posix ws is ↔ items T posix ws = is := by
  obtain ⟨is, h⟩ := line_total (T := T) posix _ ws (Nat.le_refl _)
  refine ⟨⟨is, h⟩, fun is' => ⟨line_items hT, fun e => ?_⟩⟩
  rw [← e, line_items hT h]
  exact h

omit [DecidableEq K] in
theorem order_eq (is : List (Item K)) : order is = optionsOf is ++ (inputsOf is).map .input := by
  unfold order optionsOf inputsOf
  congr 1
  · congr 1
    funext i
    cases i <;> rfl
  · induction is with
    | nil => rfl
    | cons i is ih => cases i <;> simp_all [Item.isInput]

omit [DecidableEq K] in
theorem order_mem {is : List (Item K)} {i : Item K} (h : i ∈ order is) : i ∈ is := by
  unfold order at h
  rcases List.mem_append.mp h with h | h
  · exact (List.mem_filter.mp h).1
  · exact (List.mem_filter.mp h).1

omit [DecidableEq K] in
/-- An option that takes a value has one. -/
theorem line_value (hh : T.takes T.help ≠ .value) {posix : Bool} {ws : List (List Byte)} {is : List (Item K)}
    (h : Line T posix ws is) : ∀ k v, .option k v ∈ is → T.takes k = .value → ∃ a, v = some a := by
  have inputs : ∀ (ws : List (List Byte)) (k : K) (v : Option (List Byte)), .option k v ∉ ws.map (Item.input (K := K)) := by
    intro ws k v h
    obtain ⟨a, -, h⟩ := List.mem_map.mp h
    cases h
  induction h with
  | nil => intro k v h; cases h
  | rest ws => intro k v h; exact absurd h (inputs _ _ _)
  | last ws => intro k v h; exact absurd h (inputs _ _ _)
  | plain hm he ht _ ih =>
    intro k v h hk
    rcases List.mem_cons.mp h with h | h
    · cases h; exact absurd hk ht
    · exact ih k v h hk
  | joined hm he ht _ ih =>
    intro k v h hk
    rcases List.mem_cons.mp h with h | h
    · cases h; exact ⟨_, rfl⟩
    · exact ih k v h hk
  | apart hm he ht _ ih =>
    intro k v h hk
    rcases List.mem_cons.mp h with h | h
    · cases h; exact ⟨_, rfl⟩
    · exact ih k v h hk
  | question hq _ ih =>
    intro k v h hk
    rcases List.mem_cons.mp h with h | h
    · cases h; exact absurd hk hh
    · exact ih k v h hk
  | input _ _ _ ih => intro k v h hk; rcases List.mem_cons.mp h with h | h; cases h; exact ih k v h hk
  | letter _ _ _ _ _ ih => intro k v h hk; rcases List.mem_cons.mp h with h | h; cases h; exact ih k v h hk
  | unknown _ _ _ _ ih => intro k v h hk; rcases List.mem_cons.mp h with h | h; cases h; exact ih k v h hk
  | unknownValue _ _ _ ih => intro k v h hk; rcases List.mem_cons.mp h with h | h; cases h; exact ih k v h hk
  | needless _ _ _ _ ih => intro k v h hk; rcases List.mem_cons.mp h with h | h; cases h; exact ih k v h hk
  | missing _ _ _ => intro k v h hk; rcases List.mem_cons.mp h with h | h; cases h; cases h

omit [DecidableEq K] in
/-- An option that takes no value has none. -/
theorem line_none {posix : Bool} {ws : List (List Byte)} {is : List (Item K)}
    (h : Line T posix ws is) : ∀ k v, .option k v ∈ is → T.takes k = .nothing → v = none := by
  have inputs : ∀ (ws : List (List Byte)) (k : K) (v : Option (List Byte)), .option k v ∉ ws.map (Item.input (K := K)) := by
    intro ws k v h
    obtain ⟨a, -, h⟩ := List.mem_map.mp h
    cases h
  induction h with
  | nil => intro k v h; cases h
  | rest ws => intro k v h; exact absurd h (inputs _ _ _)
  | last ws => intro k v h; exact absurd h (inputs _ _ _)
  | plain hm he ht _ ih =>
    intro k v h hk
    rcases List.mem_cons.mp h with h | h
    · cases h; rfl
    · exact ih k v h hk
  | joined hm he ht _ ih =>
    intro k v h hk
    rcases List.mem_cons.mp h with h | h
    · cases h; exact absurd hk ht
    · exact ih k v h hk
  | apart hm he ht _ ih =>
    intro k v h hk
    rcases List.mem_cons.mp h with h | h
    · cases h; rw [ht] at hk; cases hk
    · exact ih k v h hk
  | question hq _ ih =>
    intro k v h hk
    rcases List.mem_cons.mp h with h | h
    · cases h; rfl
    · exact ih k v h hk
  | input _ _ _ ih => intro k v h hk; rcases List.mem_cons.mp h with h | h; cases h; exact ih k v h hk
  | letter _ _ _ _ _ ih => intro k v h hk; rcases List.mem_cons.mp h with h | h; cases h; exact ih k v h hk
  | unknown _ _ _ _ ih => intro k v h hk; rcases List.mem_cons.mp h with h | h; cases h; exact ih k v h hk
  | unknownValue _ _ _ ih => intro k v h hk; rcases List.mem_cons.mp h with h | h; cases h; exact ih k v h hk
  | needless _ _ _ _ ih => intro k v h hk; rcases List.mem_cons.mp h with h | h; cases h; exact ih k v h hk
  | missing _ _ _ => intro k v h hk; rcases List.mem_cons.mp h with h | h; cases h; cases h

end Verif.Argp
