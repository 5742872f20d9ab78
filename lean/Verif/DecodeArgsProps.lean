import Verif.DecodeArgsSpec

/-! # C125, C126: the command line of `emv-decode` -/

set_option autoImplicit false

namespace Verif.DecodeArgs
open Argp (inputsOf optionsOf order_eq order_mem)

/-! ## Names of options -/

theorem proper : table.Proper := ⟨by decide +kernel, by decide +kernel⟩

theorem find_means (name : List Byte) (k : Key) : Argp.find table name = some k ↔ Means name k :=
  Argp.find_means proper name k

theorem line_items {posix : Bool} {ws : List (List Byte)} {is : List Item} (h : Line posix ws is) :
    Argp.items table posix ws = is := Argp.line_items proper h

/-- **C125** (words).  Every command line has exactly one reading, and this is the one the program goes by. -/
theorem C125_reading (posix : Bool) (ws : List (List Byte)) :
    (∃ is, Line posix ws is) ∧ ∀ is, Line posix ws is ↔ Argp.items table posix ws = is :=
  Argp.reading proper posix ws

/-- `--9F33 E0F8C8`, `--currency=`, abbreviations, and a path before and after the input. -/
example : Argp.items table false [txt!"--tag", txt!"5A", txt!"--isocodes-path", txt!"--x", txt!"--mcc-json=/a=b", txt!"--", txt!"--tlv"] =
    [.option (.mode .tagList) none, .input txt!"5A", .option .isocodes (some txt!"--x"),
     .option .mccJson (some txt!"/a=b"), .input txt!"--tlv"] := by rfl

/-- The options of emv-decode followed by a value. -/
def valued : List (List Byte) :=
  [txt!"isocodes-path", txt!"mcc-json", txt!"program-name"]

/-- **C125** (values).  Exactly these options take the next word, whatever it is, for their value, and may have it after `=` instead;
at the end of the command line they are refused.  No other option takes the next word; and only `--HANG` may have a
value after `=`. -/
theorem C125_values (posix : Bool) (name v : List Byte) (k : Key) (ws : List (List Byte)) (is : List Item)
    (hk : (name, k) ∈ options) (h : Line posix ws is) :
    (name ∈ valued → Line posix ((txt!"--" ++ name) :: v :: ws) (.option k (some v) :: is) ∧
      Line posix ((txt!"--" ++ name ++ txt!"=" ++ v) :: ws) (.option k (some v) :: is) ∧
      Line posix [txt!"--" ++ name] [.bad]) ∧
    (name ∉ valued → Line posix ((txt!"--" ++ name) :: ws) (.option k none :: is) ∧
      Line posix ((txt!"--" ++ name ++ txt!"=" ++ v) :: ws)
        ((if name = txt!"HANG" then .option k (some v) else .bad) :: is)) := by
  have all : ∀ o ∈ options, 0x3D ∉ o.1 ∧ (o.1 ∈ valued → takes o.2 = .value) ∧
      (o.1 ∉ valued → takes o.2 = if o.1 = txt!"HANG" then .maybe else .nothing) := by decide +kernel
  obtain ⟨he, h1, h2⟩ := all _ hk
  have hm : Argp.Means table name k := .inl hk
  constructor
  · intro hv
    have ht : table.takes k = .value := h1 hv
    exact ⟨.apart hm he ht h, .joined hm he (by rw [ht]; decide) h, .missing hm he ht⟩
  · intro hv
    have ht : table.takes k = if name = txt!"HANG" then .maybe else .nothing := h2 hv
    by_cases hh : name = txt!"HANG"
    · rw [if_pos hh] at ht
      rw [if_pos hh]
      exact ⟨.plain hm he (by rw [ht]; decide) h, .joined hm he (by rw [ht]; decide) h⟩
    · rw [if_neg hh] at ht
      rw [if_neg hh]
      exact ⟨.plain hm he (by rw [ht]; decide) h, .needless hm he ht h⟩

example : (txt!"program-name", Key.programName) ∈ options ∧ txt!"program-name" ∈ valued ∧ txt!"version" ∉ valued := by
  decide +kernel

/-! ## Options -/

/-- The static variables after options. -/
def After (w : World) (os : List Item) (s : St) : Prop :=
  s.mode = (modesOf os).getLast?.getD .none ∧ s.pad = paddingOf os ∧ s.iso = (isoOf os).getLast? ∧
  s.mcc = (mccOf os).getLast? ∧ s.arg = [] ∧ s.data = [] ∧ s.file = w.input

/-- An option with a value has it. -/
def Valued : Item → Prop
  | .option k v => takes k = .value → v.isSome
  | _ => True

theorem items_valued {posix : Bool} {ws : List (List Byte)} {is : List Item} (h : Line posix ws is) : ∀ i ∈ is, Valued i := by
  have cons : ∀ (i : Item) (is : List Item), Valued i → (∀ i ∈ is, Valued i) → ∀ j ∈ i :: is, Valued j := by
    intro i is h1 h2 j hj
    rcases List.mem_cons.mp hj with rfl | hj
    · exact h1
    · exact h2 j hj
  induction h with
  | nil => simp
  | rest ws => intro i hi; obtain ⟨a, -, rfl⟩ := List.mem_map.mp hi; trivial
  | plain hm he ht _ ih => exact cons _ _ (fun h => absurd h ht) ih
  | joined hm he ht _ ih => exact cons _ _ (fun _ => rfl) ih
  | apart hm he ht _ ih => exact cons _ _ (fun _ => rfl) ih
  | question hq _ ih => exact cons _ _ (fun h => by cases h) ih
  | input _ _ _ ih => exact cons _ _ trivial ih
  | last ws => intro i hi; obtain ⟨a, -, rfl⟩ := List.mem_map.mp hi; trivial
  | letter _ _ _ _ _ ih => exact cons _ _ trivial ih
  | unknown _ _ _ _ ih => exact cons _ _ trivial ih
  | unknownValue _ _ _ ih => exact cons _ _ trivial ih
  | needless _ _ _ _ ih => exact cons _ _ trivial ih
  | missing _ _ _ => exact cons _ _ trivial (by simp)

/-- Handling one more quiet option. -/
theorem step_quiet {w : World} {os : List Item} {s : St} (h : After w os s) (o : Item) (hi : o.isInput = false)
    (hq : Quiet o) (hv : Valued o) (hm : (modesOf (os ++ [o])).length ≤ 1) :
    ∃ s', step w o s = .ok (.go s') ∧ After w (os ++ [o]) s' := by
  obtain ⟨h1, h2, h3, h4, h5, h6, h7⟩ := h
  cases o with
  | input a => simp [Argp.Item.isInput] at hi
  | bad => exact absurd hq id
  | option k v =>
    obtain ⟨q1, q2, q3, q4⟩ := hq
    have app1 : ∀ a b : List Item, modesOf (a ++ b) = modesOf a ++ modesOf b := fun _ _ => List.filterMap_append
    have app2 : ∀ a b : List Item, isoOf (a ++ b) = isoOf a ++ isoOf b := fun _ _ => List.filterMap_append
    have app3 : ∀ a b : List Item, mccOf (a ++ b) = mccOf a ++ mccOf b := fun _ _ => List.filterMap_append
    have app4 : ∀ a b : List Item, paddingOf (a ++ b) = (paddingOf a || paddingOf b) := fun _ _ => List.any_append
    simp only [step, After, app1, app2, app3, app4]
    cases k with
    | mode m =>
      have : modesOf os = [] := by
        rw [app1] at hm
        simp only [modesOf, List.filterMap_cons, List.length_append, List.filterMap_nil, List.length_cons, List.length_nil] at hm
        exact List.length_eq_zero_iff.mp (by unfold modesOf; omega)
      rw [this] at h1 ⊢
      refine ⟨_, by rw [option, if_neg (by simpa using h1)], ?_⟩
      simp [modesOf, isoOf, mccOf, paddingOf] at *
      simp [*]
    | iso8859x => exact absurd rfl q1
    | version => exact absurd rfl q2
    | help => exact absurd rfl q3
    | usage => exact absurd rfl q4
    | ignorePadding =>
      refine ⟨_, rfl, ?_⟩
      simp [modesOf, isoOf, mccOf, paddingOf] at *
      simp [*]
    | isocodes =>
      obtain ⟨x, rfl⟩ := Option.isSome_iff_exists.mp (hv rfl)
      refine ⟨_, rfl, ?_⟩
      simp [modesOf, isoOf, mccOf, paddingOf] at *
      simp [*]
    | mccJson =>
      obtain ⟨x, rfl⟩ := Option.isSome_iff_exists.mp (hv rfl)
      refine ⟨_, rfl, ?_⟩
      simp [modesOf, isoOf, mccOf, paddingOf] at *
      simp [*]
    | programName =>
      refine ⟨_, rfl, ?_⟩
      simp [modesOf, isoOf, mccOf, paddingOf] at *
      simp [*]
    | hang =>
      refine ⟨_, rfl, ?_⟩
      simp [modesOf, isoOf, mccOf, paddingOf] at *
      simp [*]

theorem modes_prefix {a b : List Item} (h : (modesOf (a ++ b)).length ≤ 1) : (modesOf a).length ≤ 1 := by
  rw [show modesOf (a ++ b) = modesOf a ++ modesOf b from List.filterMap_append] at h
  simp at h
  omega

theorem steps_options {w : World} (rest : List Item) (b : Bool) : ∀ (os pre : List Item) (s : St), After w pre s →
    (∀ o ∈ os, o.isInput = false) → (∀ o ∈ os, Quiet o) → (∀ o ∈ os, Valued o) →
    (modesOf (pre ++ os)).length ≤ 1 →
    ∃ s', After w (pre ++ os) s' ∧ steps w (os ++ rest) b s = steps w rest b s' := by
  intro os
  induction os with
  | nil => intro pre s h _ _ _ _; exact ⟨s, by simpa using h, rfl⟩
  | cons o os ih =>
    intro pre s h h1 h2 h3 h4
    have e : pre ++ o :: os = pre ++ [o] ++ os := by simp
    rw [e] at h4 ⊢
    obtain ⟨s', hs, ha⟩ := step_quiet h o (h1 o (by simp)) (h2 o (by simp)) (h3 o (by simp)) (modes_prefix h4)
    obtain ⟨s'', ha', hs'⟩ := ih _ s' ha (fun x hx => h1 x (by simp [hx])) (fun x hx => h2 x (by simp [hx]))
      (fun x hx => h3 x (by simp [hx])) h4
    refine ⟨s'', ha', ?_⟩
    rw [List.cons_append, steps, hs, bind_ok]
    simp only [h1 o (by simp), Bool.or_false]
    exact hs'

theorem after_initial (w : World) : After w [] (.initial w) := ⟨rfl, rfl, rfl, rfl, rfl, rfl, rfl⟩

/-! ## Inputs -/

theorem writes_two {a v : List Byte} (h : Hex.Writes a v) (h0 : a ≠ []) : 2 ≤ a.length := by
  cases h with
  | nil => exact absurd rfl h0
  | byte => simp; omega

theorem not_verbatim {m : Decode.Mode} (h : ¬ Verbatim m) : ¬ (m = .iso3166 ∨ m = .iso4217 ∨ m = .iso639) := h

theorem input_hex {w : World} (hw : Fits w) {s : St} (hm : ¬ Verbatim s.mode) {a v : List Byte} (h0 : a ≠ [])
    (h : Hex.Writes a v) : input w a s = .ok (.go { s with data := v }) := by
  have h2 := writes_two h h0
  have hd : a ≠ txt!"-" := by rintro rfl; revert h2; decide
  have hl := Hex.writes_length h
  rw [input, if_neg (not_verbatim hm), hexInput, if_neg hd, if_neg (by omega),
    Hex.C97_bytes a v _ h (by rw [hw]; omega), bind_ok]
  simp only [Int.lt_irrefl, if_false, gt_iff_lt]
  rw [slice_eq (by simp), bind_ok]
  simp

theorem input_stdin {w : World} {s : St} (hm : ¬ Verbatim s.mode) (h0 : s.file ≠ []) :
    input w txt!"-" s = .ok (.go { s with data := s.file, file := [] }) := by
  rw [input, if_neg (not_verbatim hm), hexInput, if_pos rfl, Hex.C97_file, bind_ok, if_neg (by simpa using h0)]

theorem foreign_free_clean {a : List Byte} (h : ¬ ∃ c ∈ a, Hex.Foreign c) : Hex.Clean a := by
  have key : ∀ c : Byte, ¬ Hex.Foreign c → c < 0x80 := by decide +kernel
  intro p c r e _
  exact key c fun hf => h ⟨c, by rw [e]; simp, hf⟩

theorem writes_no_foreign {a v : List Byte} (h : Hex.Writes a v) : ¬ ∃ c ∈ a, Hex.Foreign c := by
  have d : ∀ (c : Byte) (n : Nat), Hex.Digit c n → ¬ Hex.Foreign c := by
    rintro c n (h | h) hf
    · exact hf.2.1 (List.mem_of_getElem? h)
    · exact hf.2.2 (List.mem_of_getElem? h)
  induction h with
  | nil => simp
  | byte h1 ha h2 hb _ ih =>
    rintro ⟨c, hc, hf⟩
    simp only [List.mem_append, List.mem_cons] at hc
    rcases hc with hc | rfl | hc | rfl | hc
    · exact hf.1 (h1 c hc)
    · exact d _ _ ha hf
    · exact hf.1 (h2 c hc)
    · exact d _ _ hb hf
    · exact ih ⟨c, hc, hf⟩

theorem input_wrong {w : World} (hw : Fits w) {s : St} (hm : ¬ Verbatim s.mode) {a msg : List Byte}
    (h : Wrong s.file a msg) : input w a s = .ok (.stop (refuse w msg)) := by
  rw [input, if_neg (not_verbatim hm), hexInput]
  cases h with
  | stdin h0 => rw [if_pos rfl, h0, Hex.C97_file, bind_ok, if_pos (by rfl)]
  | short hd h2 => rw [if_neg hd, if_pos h2]
  | digits h2 hc hf =>
    have hd : a ≠ txt!"-" := by rintro rfl; revert h2; decide
    obtain ⟨r, b, n, e, hr⟩ := Hex.C97_refused a (w.mem ((a.length + 1) / 2)) hc
      (fun ⟨v, hv⟩ => writes_no_foreign hv hf) (by rw [hw]; omega)
    rw [if_neg hd, if_neg (by omega), e, bind_ok]
    rcases hr with ⟨-, rfl⟩ | ⟨hn, -⟩
    · rfl
    · exact absurd hf hn
  | odd h2 hf hn =>
    have hd : a ≠ txt!"-" := by rintro rfl; revert h2; decide
    obtain ⟨r, b, n, e, hr⟩ := Hex.C97_refused a (w.mem ((a.length + 1) / 2)) (foreign_free_clean hf) hn
      (by rw [hw]; omega)
    rw [if_neg hd, if_neg (by omega), e, bind_ok]
    rcases hr with ⟨h, -⟩ | ⟨-, rfl⟩
    · exact absurd h hf
    · rfl

theorem steps_inputs {w : World} (hw : Fits w) (rest : List Item) {file d file' d' : List Byte} {is : List (List Byte)}
    (h : Gives file d is file' d') : ∀ (b : Bool) (s : St), ¬ Verbatim s.mode → s.file = file → s.data = d →
    steps w (is.map .input ++ rest) b s = steps w rest (b || !is.isEmpty) { s with data := d', file := file' } := by
  induction h with
  | nil file d =>
    rintro b s _ rfl rfl
    simp
  | hex h0 hv _ ih =>
    rintro b s hm rfl rfl
    rw [List.map_cons, List.cons_append, steps, step, input_hex hw hm h0 hv, bind_ok]
    simp only [Argp.Item.isInput, Bool.or_true]
    rename_i v _ _ _ _
    rw [ih true { s with data := v } hm rfl rfl]
    simp
  | stdin h0 _ ih =>
    rintro b s hm rfl rfl
    rw [List.map_cons, List.cons_append, steps, step, input_stdin hm h0, bind_ok]
    simp only [Argp.Item.isInput, Bool.or_true]
    rw [ih true { s with data := s.file, file := [] } hm rfl rfl]
    simp

theorem steps_verbatim {w : World} : ∀ (is : List (List Byte)) (a : List Byte) (b : Bool) (s : St), Verbatim s.mode →
    steps w ((is ++ [a]).map .input) b s = .ok (.go { s with arg := a }) := by
  intro is
  induction is with
  | nil =>
    intro a b s hm
    rw [List.nil_append, List.map_cons, steps, step, input, if_pos (show s.mode = .iso3166 ∨ s.mode = .iso4217 ∨ s.mode = .iso639 from hm), bind_ok]
    simp [steps, Argp.Item.isInput]
  | cons x is ih =>
    intro a b s hm
    rw [List.cons_append, List.map_cons, steps, step, input, if_pos (show s.mode = .iso3166 ∨ s.mode = .iso4217 ∨ s.mode = .iso639 from hm), bind_ok]
    simp only [Argp.Item.isInput, Bool.or_true]
    exact ih a true { s with arg := x } hm

/-! ## C125 -/

/-- Command lines in the default order of options and inputs. -/
theorem run_steps {w : World} {ws : List (List Byte)} {is : List Item} (h : Line w.posix ws is)
    (h0 : ws ≠ []) :
    (∀ e, steps w (optionsOf is ++ (inputsOf is).map .input) false (.initial w) = .ok (.stop e) → run w ws = .ok e) ∧
    (∀ s, steps w (optionsOf is ++ (inputsOf is).map .input) false (.initial w) = .ok (.go s) →
      run w ws = finish w s) := by
  rw [run, if_neg h0, line_items h, order_eq]
  exact ⟨fun e he => by rw [he, bind_ok], fun s hs => by rw [hs, bind_ok]⟩

theorem modes_options (is : List Item) : modesOf (optionsOf is) = modesOf is := by
  induction is with
  | nil => rfl
  | cons i is ih =>
    cases i with
    | input a => simpa [modesOf, optionsOf] using ih
    | bad => simpa [modesOf, optionsOf] using ih
    | option k v => cases k <;> simpa [modesOf, optionsOf] using ih

theorem iso_options (is : List Item) : isoOf (optionsOf is) = isoOf is := by
  induction is with
  | nil => rfl
  | cons i is ih =>
    cases i with
    | input a => simpa [isoOf, optionsOf] using ih
    | bad => simpa [isoOf, optionsOf] using ih
    | option k v => cases k <;> cases v <;> simpa [isoOf, optionsOf] using ih

theorem mcc_options (is : List Item) : mccOf (optionsOf is) = mccOf is := by
  induction is with
  | nil => rfl
  | cons i is ih =>
    cases i with
    | input a => simpa [mccOf, optionsOf] using ih
    | bad => simpa [mccOf, optionsOf] using ih
    | option k v => cases k <;> cases v <;> simpa [mccOf, optionsOf] using ih

theorem padding_options (is : List Item) : paddingOf (optionsOf is) = paddingOf is := by
  induction is with
  | nil => rfl
  | cons i is ih =>
    cases i with
    | input a => simpa [paddingOf, optionsOf] using ih
    | bad => simpa [paddingOf, optionsOf] using ih
    | option k v => cases k <;> simp_all [paddingOf, optionsOf]

theorem options_no_input (is : List Item) : ∀ o ∈ optionsOf is, o.isInput = false := by
  intro o ho
  have := (List.mem_filter.mp ho).2
  cases o <;> simp_all [Argp.Item.isInput]

theorem options_mem {is : List Item} {o : Item} (h : o ∈ optionsOf is) : o ∈ is := (List.mem_filter.mp h).1

/-- The end of a run that decodes. -/
theorem finish_decodes (w : World) (s : St) : Decodes w s.iso s.mcc s.pad s.arg s.data s.mode (finish w s) := by
  unfold finish
  refine ⟨fun h => ?_, fun e h => ?_, fun r t h => ⟨fun hr => ?_, fun hr => ⟨fun e he => ?_, fun sh hs => ⟨fun hr => ?_, fun hr => ?_⟩⟩⟩⟩
  · rw [h, bind_ok]
  · rw [h, bind_error]
  · rw [h, bind_ok]
    simp only [Decode.main, if_pos hr, bind_ok]
    rfl
  · rw [h, bind_ok]
    simp only [Decode.main, if_neg (show ¬ r < 0 by omega), he, bind_error]
  · rw [h, bind_ok]
    subst hr
    simp only [Decode.main, Int.lt_irrefl, if_false, hs, bind_ok, gt_iff_lt]
    rfl
  · rw [h, bind_ok]
    simp only [Decode.main, if_neg (show ¬ r < 0 by omega), hs, bind_ok, gt_iff_lt, if_pos hr]
    rfl

theorem line_nil {posix : Bool} {ws : List (List Byte)} {is : List Item} (h : Line posix ws is) (h0 : is ≠ []) : ws ≠ [] := by
  rintro rfl
  have := line_items h
  exact h0 (by rw [← this]; rfl)

/-- The state after all options when none of them ends the program. -/
theorem all_options {w : World} {ws : List (List Byte)} {is : List Item} (h : Line w.posix ws is)
    (hq : ∀ i ∈ is, Quiet i) (hm : (modesOf is).length ≤ 1) (rest : List Item) :
    ∃ s, s.mode = (modesOf is).getLast?.getD .none ∧ s.pad = paddingOf is ∧ s.iso = (isoOf is).getLast? ∧
      s.mcc = (mccOf is).getLast? ∧ s.arg = [] ∧ s.data = [] ∧ s.file = w.input ∧
      steps w (optionsOf is ++ rest) false (.initial w) = steps w rest false s := by
  obtain ⟨s, ⟨h1, h2, h3, h4, h5, h6, h7⟩, hs⟩ := steps_options rest false (optionsOf is) [] (.initial w) (after_initial w)
    (options_no_input is) (fun o ho => hq o (options_mem ho)) (fun o ho => items_valued h o (options_mem ho))
    (by rw [List.nil_append, modes_options]; exact hm)
  rw [List.nil_append, modes_options] at h1
  rw [List.nil_append, padding_options] at h2
  rw [List.nil_append, iso_options] at h3
  rw [List.nil_append, mcc_options] at h4
  exact ⟨s, h1, h2, h3, h4, h5, h6, h7, hs⟩

/-- **C125** (data).  With one decoding option for data, the data the last input stands for are decoded, wherever the
option stands.  Earlier inputs have to be data as well. -/
theorem C125_data (w : World) (hw : Fits w) (ws : List (List Byte)) (is : List Item)
    (h : Line w.posix ws is) (hq : ∀ i ∈ is, Quiet i) (m : Decode.Mode) (hm : modesOf is = [m]) (hv : ¬ Verbatim m)
    (file data : List Byte) (h0 : inputsOf is ≠ []) (hd : Gives w.input [] (inputsOf is) file data) :
    Decodes w (isoOf is).getLast? (mccOf is).getLast? (paddingOf is) [] data m (run w ws) := by
  have hn : ws ≠ [] := line_nil h (by rintro rfl; simp [inputsOf] at h0)
  obtain ⟨s, h1, h2, h3, h4, h5, h6, h7, hs⟩ := all_options (w := w) h hq (by simp [hm]) ((inputsOf is).map .input)
  rw [hm] at h1
  have h1' : s.mode = m := h1
  have e := steps_inputs hw [] hd false s (by rw [h1']; exact hv) h7 h6
  rw [List.append_nil] at e
  have hb : (false || !(inputsOf is).isEmpty) = true := by
    cases hi : inputsOf is with
    | nil => exact absurd hi h0
    | cons => rfl
  rw [hb] at e
  rw [(run_steps h hn).2 _ (hs.trans e)]
  have := finish_decodes w { s with data := data, file := file }
  simp only [h1', h2, h3, h4, h5] at this ⊢
  exact this

/-- **C125** (codes).  With one of the options that look up a code, the last input is looked up as it is. -/
theorem C125_code (w : World) (ws : List (List Byte)) (is : List Item)
    (h : Line w.posix ws is) (hq : ∀ i ∈ is, Quiet i) (m : Decode.Mode) (hm : modesOf is = [m]) (hv : Verbatim m)
    (as : List (List Byte)) (a : List Byte) (ha : inputsOf is = as ++ [a]) :
    Decodes w (isoOf is).getLast? (mccOf is).getLast? (paddingOf is) a [] m (run w ws) := by
  have hn : ws ≠ [] := line_nil h (by rintro rfl; simp [inputsOf] at ha)
  obtain ⟨s, h1, h2, h3, h4, h5, h6, h7, hs⟩ := all_options (w := w) h hq (by simp [hm]) ((inputsOf is).map .input)
  rw [hm] at h1
  have h1' : s.mode = m := h1
  have e := steps_verbatim (w := w) as a false s (by rw [h1']; exact hv)
  rw [← ha] at e
  rw [(run_steps h hn).2 _ (hs.trans e)]
  have := finish_decodes w { s with arg := a }
  simp only [h1', h2, h3, h4, h6] at this ⊢
  exact this

/-- **C125** (no decoding option).  Then the help is shown, but only after the input was read and found to be data. -/
theorem C125_help (w : World) (hw : Fits w) (ws : List (List Byte)) (is : List Item)
    (h : Line w.posix ws is) (hq : ∀ i ∈ is, Quiet i) (hm : modesOf is = [])
    (file data : List Byte) (h0 : inputsOf is ≠ []) (hd : Gives w.input [] (inputsOf is) file data) (r : Int)
    (t : Codes.State)
    (ht : Codes.stringsInit w.files (isoOf is).getLast? (mccOf is).getLast? Codes.fresh = .ok (.ok (r, t)))
    (hr : r = 0) : run w ws = .ok (.exit 0 ⟨w.help, []⟩) := by
  have hn : ws ≠ [] := line_nil h (by rintro rfl; simp [inputsOf] at h0)
  obtain ⟨s, h1, h2, h3, h4, h5, h6, h7, hs⟩ := all_options (w := w) h hq (by simp [hm]) ((inputsOf is).map .input)
  rw [hm] at h1
  have h1' : s.mode = .none := h1
  have e := steps_inputs hw [] hd false s (by rw [h1']; rintro (h | h | h) <;> cases h) h7 h6
  rw [List.append_nil] at e
  have hb : (false || !(inputsOf is).isEmpty) = true := by
    cases hi : inputsOf is with
    | nil => exact absurd hi h0
    | cons => rfl
  rw [hb] at e
  rw [(run_steps h hn).2 _ (hs.trans e)]
  have := finish_decodes w { s with data := data, file := file }
  simp only [h1', h2, h3, h4, h5] at this ⊢
  exact ((this.2.2 r t ht).2 (by omega)).2 _ rfl |>.1 hr

/-- **C125** (first option that ends the program).  Before anything is read or decoded, the first option which is
refused, shows a text or is a second decoding option ends the program, whatever comes after it and wherever the inputs
are. -/
theorem C125_ended (w : World) (ws : List (List Byte)) (is pre post : List Item) (o : Item)
    (h : Line w.posix ws is) (he : optionsOf is = pre ++ o :: post) (hq : ∀ i ∈ pre, Quiet i)
    (hm : (modesOf pre).length ≤ 1) :
    (∀ m v, o = .option (.mode m) v → modesOf pre ≠ [] → (∀ m ∈ modesOf pre, m ≠ .none) →
      run w ws = .ok (.exit 64 ⟨[], txt!"Only one decoding OPTION may be specified" ++ w.hint⟩)) ∧
    (∀ k v t, o = .option k v → says w k = some t → run w ws = .ok (.exit 0 ⟨t, []⟩)) ∧
    (o = .bad → run w ws = .ok (.exit 64 ⟨[], w.badOption⟩)) := by
  have hn : ws ≠ [] := line_nil h (by rintro rfl; simp [optionsOf] at he)
  have hmem : ∀ x ∈ pre, x ∈ optionsOf is := fun x hx => by rw [he]; simp [hx]
  obtain ⟨s, ha, hs⟩ := steps_options (o :: post ++ (inputsOf is).map .input) false pre [] (.initial w) (after_initial w)
    (fun x hx => options_no_input is x (hmem x hx)) hq (fun x hx => items_valued h x (options_mem (hmem x hx)))
    (by simpa using hm)
  rw [← List.append_assoc, ← he] at hs
  have stop : ∀ e, step w o s = .ok (.stop e) → run w ws = .ok e := by
    intro e h'
    apply (run_steps h hn).1
    rw [hs, List.cons_append, steps, h', bind_ok]
  refine ⟨?_, ?_, ?_⟩
  · rintro m v rfl h1 h2
    apply stop
    have : s.mode ≠ .none := by
      rw [ha.1, List.nil_append]
      cases hl : (modesOf pre).getLast? with
      | none => exact absurd (List.getLast?_eq_none_iff.mp hl) h1
      | some m => exact h2 m (List.mem_of_getLast? hl)
    rw [step, option, if_pos this]
    rfl
  · rintro k v t rfl h1
    apply stop
    cases k <;> simp only [says, reduceCtorEq, Option.some.injEq] at h1 <;> subst h1 <;> rfl
  · rintro rfl
    exact stop _ rfl

/-- No option is the mode `none`. -/
theorem C125_modes (posix : Bool) (ws : List (List Byte)) (is : List Item) (h : Line posix ws is) :
    ∀ m ∈ modesOf is, m ≠ .none ∧ m ≠ .iso8859 12 := by
  have key : ∀ o ∈ options, ∀ m, o.2 = .mode m → m ≠ .none ∧ m ≠ .iso8859 12 := by
    intro o ho m hm
    have : ∀ o ∈ options, o.2 ≠ .mode .none ∧ o.2 ≠ .mode (.iso8859 12) := by decide +kernel
    exact ⟨fun e => (this o ho).1 (by rw [hm, e]), fun e => (this o ho).2 (by rw [hm, e])⟩
  have hmeans : ∀ (name : List Byte) (m : Decode.Mode), Means name (.mode m) → m ≠ .none ∧ m ≠ .iso8859 12 := by
    rintro name m (h | ⟨-, ⟨n, h, -⟩, -⟩)
    · exact key _ h m rfl
    · exact key _ h m rfl
  have cons : ∀ (i : Item) (is : List Item), (∀ m v, i = .option (.mode m) v → m ≠ .none ∧ m ≠ .iso8859 12) →
      (∀ m ∈ modesOf is, m ≠ .none ∧ m ≠ .iso8859 12) → ∀ m ∈ modesOf (i :: is), m ≠ .none ∧ m ≠ .iso8859 12 := by
    intro i is h1 h2 m hm
    rw [show i :: is = [i] ++ is from rfl, show modesOf ([i] ++ is) = modesOf [i] ++ modesOf is from List.filterMap_append] at hm
    rcases List.mem_append.mp hm with hm | hm
    · cases i with
      | option k v =>
        cases k <;> simp [modesOf] at hm
        subst hm
        exact h1 _ _ rfl
      | _ => simp [modesOf] at hm
    · exact h2 m hm
  induction h with
  | nil => simp [modesOf]
  | rest ws => intro m hm; obtain ⟨a, ha, hm⟩ := List.mem_filterMap.mp hm; obtain ⟨x, -, rfl⟩ := List.mem_map.mp ha; simp at hm
  | plain hm he ht _ ih => exact cons _ _ (fun m v e => by injection e with e1; subst e1; exact hmeans _ _ hm) ih
  | joined hm he ht _ ih => exact cons _ _ (fun m v e => by injection e with e1; subst e1; exact hmeans _ _ hm) ih
  | apart hm he ht _ ih => exact cons _ _ (fun m v e => by injection e with e1; subst e1; exact hmeans _ _ hm) ih
  | question hq _ ih => exact cons _ _ (fun m v e => by injection e with e1; cases e1) ih
  | input _ _ _ ih => exact cons _ _ (fun m v e => by cases e) ih
  | last ws => intro m hm; obtain ⟨a, ha, hm⟩ := List.mem_filterMap.mp hm; obtain ⟨x, -, rfl⟩ := List.mem_map.mp ha; simp at hm
  | letter _ _ _ _ _ ih => exact cons _ _ (fun m v e => by cases e) ih
  | unknown _ _ _ _ ih => exact cons _ _ (fun m v e => by cases e) ih
  | unknownValue _ _ _ ih => exact cons _ _ (fun m v e => by cases e) ih
  | needless _ _ _ _ ih => exact cons _ _ (fun m v e => by cases e) ih
  | missing _ _ _ => exact cons _ _ (fun m v e => by cases e) (by simp [modesOf])

/-- **C125** (inputs that are refused).  The first input that is not data is refused, unless a code is looked up; and
so is a command line without input. -/
theorem C125_refused (w : World) (hw : Fits w) (ws : List (List Byte)) (is : List Item)
    (h : Line w.posix ws is) (hq : ∀ i ∈ is, Quiet i) (hm : (modesOf is).length ≤ 1) :
    (∀ (pre post : List (List Byte)) (a file d msg : List Byte), inputsOf is = pre ++ a :: post →
      (∀ m ∈ modesOf is, ¬ Verbatim m) → Gives w.input [] pre file d → Wrong file a msg →
      run w ws = .ok (.exit 64 ⟨[], msg ++ w.hint⟩)) ∧
    (ws ≠ [] → inputsOf is = [] → run w ws = .ok (.exit 64 ⟨[], txt!"INPUT is missing" ++ w.hint⟩)) := by
  obtain ⟨s, h1, h2, h3, h4, h5, h6, h7, hs⟩ := all_options (w := w) h hq hm ((inputsOf is).map .input)
  constructor
  · intro pre post a file d msg hi hv hd hwr
    have hn : ws ≠ [] := line_nil h (by rintro rfl; simp [inputsOf] at hi)
    have hv' : ¬ Verbatim s.mode := by
      rw [h1]
      cases hl : (modesOf is).getLast? with
      | none => rintro (h | h | h) <;> cases h
      | some m => exact hv m (List.mem_of_getLast? hl)
    apply (run_steps h hn).1
    rw [hs, hi, List.map_append, List.map_cons, steps_inputs hw _ hd false s hv' h7 h6, steps, step,
      input_wrong hw (by exact hv') hwr, bind_ok]
    rfl
  · intro hn hi
    apply (run_steps h hn).1
    rw [hs, hi]
    rfl

/-- **C125** (order).  Only the order of the options among themselves and of the inputs among themselves counts. -/
theorem C125_order (w : World) (ws ws' : List (List Byte)) (is is' : List Item)
    (h : Line w.posix ws is) (h' : Line w.posix ws' is') (ho : optionsOf is = optionsOf is') (hi : inputsOf is = inputsOf is')
    (h0 : ws ≠ []) (h0' : ws' ≠ []) : run w ws = run w ws' := by
  rw [run, run, if_neg h0, if_neg h0', line_items h, line_items h', order_eq, order_eq, ho, hi]

/-- **C125** (no words).  Then the help is shown, and the status is 1. -/
theorem C125_nothing (w : World) : run w [] = .ok (.exit 1 ⟨w.help, []⟩) := rfl

end Verif.DecodeArgs
