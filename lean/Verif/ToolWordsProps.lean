import Verif.ArgpProps
import Verif.ToolRunProps
import Verif.ToolWords

/-! # C128: the words of the command line of the tool -/

set_option autoImplicit false

namespace Verif.ToolWords
open Argp (inputsOf optionsOf)
open ToolMain (bind_inv)

/-! ## Specification -/

/-- The words of a command line and what they stand for. -/
abbrev Line (posix : Bool) (ws : List (List Byte)) (is : List Item) : Prop := Argp.Line table posix ws is

/-- The option of the tool a word is, with its value. -/
inductive Stands : Item → ToolArgs.Opt → Prop
  | txnType (v : List Byte) : Stands (.option .txnType (some v)) (.txnType v)
  | amount (v : List Byte) : Stands (.option .amount (some v)) (.amount v)
  | amountOther (v : List Byte) : Stands (.option .amountOther (some v)) (.amountOther v)
  | verbose : Stands (.option .verbose none) .verbose
  | sources (v : List Byte) : Stands (.option .sources (some v)) (.sources v)
  | level (v : List Byte) : Stands (.option .level (some v)) (.level v)
  | version : Stands (.option .version none) .version
  | isocodes (v : List Byte) : Stands (.option .isocodes (some v)) (.isocodes v)
  | mcc (v : List Byte) : Stands (.option .mccJson (some v)) (.mcc v)

/-- The options of the tool among some options; two of the C library have no effect. -/
inductive Given : List Item → List ToolArgs.Opt → Prop
  | nil : Given [] []
  | own {i : Item} {a : ToolArgs.Opt} {is : List Item} {l : List ToolArgs.Opt} :
      Stands i a → Given is l → Given (i :: is) (a :: l)
  | name {v : Option (List Byte)} {is : List Item} {l : List ToolArgs.Opt} :
      Given is l → Given (.option .programName v :: is) l
  | hang {v : Option (List Byte)} {is : List Item} {l : List ToolArgs.Opt} :
      Given is l → Given (.option .hang v :: is) l

/-- Options that end the program, with what it prints and its status. -/
inductive Ends (w : ToolMain.World) (x : Lib) (o : ToolArgs.Opts) : Item → List ToolTxn.Item → Nat → Prop
  | bad : Ends w x o .bad [.error x.badOption] 64
  | help (v : Option (List Byte)) : Ends w x o (.option .help v) [.text w.help] 0
  | usage (v : Option (List Byte)) : Ends w x o (.option .usage v) [.text x.usage] 0
  | version : Ends w x o (.option .version none) [.text (w.version ++ txt!"\n")] 0
  | refused {i : Item} {a : ToolArgs.Opt} {msg : List Byte} : Stands i a → ToolArgs.apply o a = .ok (.refused msg) →
      Ends w x o i [.error msg] 64

/-- The directories of codes given. -/
def isoOf (l : List ToolArgs.Opt) : List (List Byte) := l.filterMap fun | .isocodes v => some v | _ => none

/-- The files of categories given. -/
def mccOf (l : List ToolArgs.Opt) : List (List Byte) := l.filterMap fun | .mcc v => some v | _ => none

/-! ## Lemmas -/

theorem proper : table.Proper := by
  constructor
  · decide +kernel
  · decide +kernel

theorem step_stands {w : ToolMain.World} {x : Lib} {i : Item} {a : ToolArgs.Opt} (h : Stands i a) (o : ToolArgs.Opts) :
    step w x i o = own w a o := by
  cases h <;> rfl

theorem steps_given {w : ToolMain.World} {x : Lib} {is : List Item} {l : List ToolArgs.Opt} (h : Given is l)
    (rest : List Item) : ∀ {o o' : ToolArgs.Opts}, ToolArgs.parse o l = .ok (.set o') →
    steps w x (is ++ rest) o = steps w x rest o' := by
  induction h with
  | nil => intro o o' h; cases h; rfl
  | own hs _ ih =>
    intro o o' h
    rw [List.cons_append, steps, step_stands hs, own]
    rw [ToolArgs.parse] at h
    obtain ⟨r, h1, h⟩ := bind_inv h
    rw [h1, bind_ok]
    cases r with
    | set p => simp only [bind_ok]; exact ih h
    | refused msg => cases h
    | version => cases h
  | name _ ih => intro o o' h; rw [List.cons_append, steps, step, bind_ok]; exact ih h
  | hang _ ih => intro o o' h; rw [List.cons_append, steps, step, bind_ok]; exact ih h

theorem step_ends {w : ToolMain.World} {x : Lib} {o : ToolArgs.Opts} {i : Item} {out : List ToolTxn.Item} {n : Nat}
    (h : Ends w x o i out n) : step w x i o = .ok (.stop out n) := by
  cases h with
  | bad => rfl
  | help v => rfl
  | usage v => rfl
  | version => rfl
  | refused hs ha => rw [step_stands hs, own, ha, bind_ok]

/-- Options one after the other: all are accepted, or one of them ends the program. -/
theorem given_or (w : ToolMain.World) (x : Lib) : ∀ (is : List Item), (∀ i ∈ is, i.isInput = false) →
    (∀ k v, .option k v ∈ is → takes k = .value → ∃ a, v = some a) →
    (∀ k v, .option k v ∈ is → takes k = .nothing → v = none) → ∀ o : ToolArgs.Opts,
    (∃ l o', Given is l ∧ ToolArgs.parse o l = .ok (.set o')) ∨
    ∃ pre i post l o' out n, is = pre ++ i :: post ∧ Given pre l ∧ ToolArgs.parse o l = .ok (.set o') ∧
      Ends w x o' i out n := by
  intro is
  induction is with
  | nil => intro _ _ _ o; exact .inl ⟨[], o, .nil, rfl⟩
  | cons i is ih =>
    intro h1 h2 h3 o
    have ih' := ih (fun j hj => h1 j (by simp [hj])) (fun k v hk => h2 k v (by simp [hk])) (fun k v hk => h3 k v (by simp [hk]))
    have stop : ∀ out n, Ends w x o i out n → ∃ pre j post l o' out n, i :: is = pre ++ j :: post ∧ Given pre l ∧
        ToolArgs.parse o l = .ok (.set o') ∧ Ends w x o' j out n :=
      fun out n h => ⟨[], i, is, [], o, out, n, rfl, .nil, rfl, h⟩
    have skip : (∀ js l, Given js l → Given (i :: js) l) → (∃ l o', Given (i :: is) l ∧ ToolArgs.parse o l = .ok (.set o')) ∨
        ∃ pre j post l o' out n, i :: is = pre ++ j :: post ∧ Given pre l ∧
          ToolArgs.parse o l = .ok (.set o') ∧ Ends w x o' j out n := by
      intro hg
      rcases ih' o with ⟨l, o', g, e⟩ | ⟨pre, j, post, l, o', out, n, rfl, g, e, he⟩
      · exact .inl ⟨l, o', hg _ _ g, e⟩
      · exact .inr ⟨i :: pre, j, post, l, o', out, n, rfl, hg _ _ g, e, he⟩
    have mine : ∀ a, Stands i a → (∃ l o', Given (i :: is) l ∧ ToolArgs.parse o l = .ok (.set o')) ∨
        ∃ pre j post l o' out n, i :: is = pre ++ j :: post ∧ Given pre l ∧
          ToolArgs.parse o l = .ok (.set o') ∧ Ends w x o' j out n := by
      intro a hs
      obtain ⟨r, hr⟩ := ToolArgs.C108_defined o [a]
      rw [ToolArgs.parse] at hr
      obtain ⟨q, hq, hr⟩ := bind_inv hr
      cases q with
      | set p =>
        rcases ih' p with ⟨l, o', g, e⟩ | ⟨pre, j, post, l, o', out, n, rfl, g, e, he⟩
        · exact .inl ⟨a :: l, o', .own hs g, by rw [ToolArgs.parse, hq, bind_ok]; exact e⟩
        · exact .inr ⟨i :: pre, j, post, a :: l, o', out, n, rfl, .own hs g,
            by rw [ToolArgs.parse, hq, bind_ok]; exact e, he⟩
      | refused msg => exact .inr (stop _ _ (.refused hs hq))
      | version =>
        cases hs with
        | version => exact .inr (stop _ _ .version)
        | sources v =>
          rw [ToolArgs.apply, ToolArgs.setSources] at hq
          obtain ⟨z, -, hq⟩ := bind_inv hq
          cases z <;> cases hq
        | txnType v => simp only [ToolArgs.apply, ToolArgs.setType] at hq; split at hq <;> (try split at hq) <;> cases hq
        | amount v => simp only [ToolArgs.apply, ToolArgs.setAmount] at hq; split at hq <;> (try split at hq) <;> (try split at hq) <;> cases hq
        | amountOther v => simp only [ToolArgs.apply, ToolArgs.setAmountOther] at hq; split at hq <;> (try split at hq) <;> (try split at hq) <;> cases hq
        | verbose => cases hq
        | level v => simp only [ToolArgs.apply, ToolArgs.setLevel] at hq; split at hq <;> cases hq
        | isocodes v => cases hq
        | mcc v => cases hq
    cases i with
    | input a => have := h1 (.input a) (by simp); cases this
    | bad => exact .inr (stop _ _ .bad)
    | option k v =>
      have hv := h2 k v (by simp)
      have hn := h3 k v (by simp)
      cases k with
      | txnType => obtain ⟨a, rfl⟩ := hv rfl; exact mine _ (.txnType a)
      | amount => obtain ⟨a, rfl⟩ := hv rfl; exact mine _ (.amount a)
      | amountOther => obtain ⟨a, rfl⟩ := hv rfl; exact mine _ (.amountOther a)
      | verbose => obtain rfl := hn rfl; exact mine _ .verbose
      | sources => obtain ⟨a, rfl⟩ := hv rfl; exact mine _ (.sources a)
      | level => obtain ⟨a, rfl⟩ := hv rfl; exact mine _ (.level a)
      | version => obtain rfl := hn rfl; exact mine _ .version
      | isocodes => obtain ⟨a, rfl⟩ := hv rfl; exact mine _ (.isocodes a)
      | mccJson => obtain ⟨a, rfl⟩ := hv rfl; exact mine _ (.mcc a)
      | help => exact .inr (stop _ _ (.help v))
      | usage => exact .inr (stop _ _ (.usage v))
      | programName => exact skip fun _ _ => .name
      | hang => exact skip fun _ _ => .hang

theorem run_line (w : ToolMain.World) (x : Lib) (m : ToolMain.Mem) {ws : List (List Byte)} {is : List Item}
    (h : Line x.posix ws is) (h0 : ws ≠ []) : run w x m ws =
      (steps w x (optionsOf is ++ (inputsOf is).map .input) .init).bind fun
        | .stop out n => .ok ⟨out, [], .exit n⟩
        | .go o => ToolMain.start w m o := by
  rw [run, if_neg h0, Argp.line_items proper h, Argp.order_eq]
  rfl

/-! ## C128 -/

/-- **C128** (reading).  Every command line is read in exactly one way. -/
theorem C128_reading (posix : Bool) (ws : List (List Byte)) : ∃ is, Line posix ws is ∧ ∀ is', Line posix ws is' → is' = is := by
  obtain ⟨is, h⟩ := (Argp.reading proper posix ws).1
  exact ⟨is, h, fun is' h' => by rw [← Argp.line_items proper h, ← Argp.line_items proper h']⟩

/-- **C128** (names).  Each option is found by its full name, with its value in the same word or in the next one. -/
theorem C128_names (posix : Bool) (n v : List Byte) (k : Key) (h : (n, k) ∈ options) (ws : List (List Byte))
    (is : List Item) (hl : Line posix ws is) :
    (takes k = .value → Line posix ((txt!"--" ++ n ++ txt!"=" ++ v) :: ws) (.option k (some v) :: is) ∧
      Line posix ((txt!"--" ++ n) :: v :: ws) (.option k (some v) :: is)) ∧
    (takes k = .nothing → Line posix ((txt!"--" ++ n) :: ws) (.option k none :: is)) := by
  have hm : Argp.Means table n k := .inl h
  have he : (0x3D : Byte) ∉ n := by
    have : ∀ o ∈ options, (0x3D : Byte) ∉ o.1 := by decide +kernel
    exact this _ h
  refine ⟨fun hk => ⟨.joined hm he (by rw [show table.takes k = takes k from rfl, hk]; decide) hl, .apart hm he hk hl⟩,
    fun hk => .plain hm he (by rw [show table.takes k = takes k from rfl, hk]; decide) hl⟩

/-- **C128** (accepted).  When all words are options and accepted, the program goes on with their values. -/
theorem C128_accepted (w : ToolMain.World) (x : Lib) (m : ToolMain.Mem) (ws : List (List Byte)) (is : List Item)
    (h : Line x.posix ws is) (h0 : ws ≠ []) (l : List ToolArgs.Opt) (o : ToolArgs.Opts) (hg : Given (optionsOf is) l)
    (hp : ToolArgs.parse .init l = .ok (.set o)) (hi : inputsOf is = []) :
    run w x m ws = ToolMain.start w m o := by
  rw [run_line w x m h h0, steps_given hg _ hp, hi]
  rfl

/-- **C128** (other words).  When the options are accepted but another word is there, wherever it stands, the program
ends with a message and status 64, and nothing has been done. -/
theorem C128_other_words (w : ToolMain.World) (x : Lib) (m : ToolMain.Mem) (ws : List (List Byte)) (is : List Item)
    (h : Line x.posix ws is) (l : List ToolArgs.Opt) (o : ToolArgs.Opts) (hg : Given (optionsOf is) l)
    (hp : ToolArgs.parse .init l = .ok (.set o)) (hi : inputsOf is ≠ []) :
    run w x m ws = .ok ⟨[.error x.tooMany], [], .exit 64⟩ := by
  have h0 : ws ≠ [] := by
    rintro rfl
    rw [← Argp.line_items proper h] at hi
    exact hi rfl
  rw [run_line w x m h h0, steps_given hg _ hp]
  obtain ⟨a, r, e⟩ := List.exists_cons_of_ne_nil hi
  rw [e]
  rfl

/-- **C128** (ending).  The first option that is refused, shows a text or is unknown ends the program. -/
theorem C128_ending (w : ToolMain.World) (x : Lib) (m : ToolMain.Mem) (ws : List (List Byte)) (is : List Item)
    (h : Line x.posix ws is) (pre post : List Item) (i : Item) (hs : optionsOf is = pre ++ i :: post)
    (l : List ToolArgs.Opt) (o : ToolArgs.Opts) (hg : Given pre l) (hp : ToolArgs.parse .init l = .ok (.set o))
    (out : List ToolTxn.Item) (n : Nat) (he : Ends w x o i out n) :
    run w x m ws = .ok ⟨out, [], .exit n⟩ := by
  have h0 : ws ≠ [] := by
    rintro rfl
    rw [← Argp.line_items proper h] at hs
    simp [optionsOf, Argp.items] at hs
  rw [run_line w x m h h0, hs, List.append_assoc, steps_given hg _ hp, List.cons_append, steps, step_ends he]
  rfl

/-- **C128** (no others).  These are all command lines. -/
theorem C128_cases (w : ToolMain.World) (x : Lib) (ws : List (List Byte)) (is : List Item) (h : Line x.posix ws is) :
    (∃ l o, Given (optionsOf is) l ∧ ToolArgs.parse .init l = .ok (.set o)) ∨
    ∃ pre i post l o out n, optionsOf is = pre ++ i :: post ∧ Given pre l ∧ ToolArgs.parse .init l = .ok (.set o) ∧
      Ends w x o i out n := by
  refine given_or w x (optionsOf is) ?_ ?_ ?_ .init
  · intro i hi
    have := (List.mem_filter.mp hi).2
    cases i <;> simp_all [Argp.Item.isInput]
  · intro k v hk ht
    exact Argp.line_value (T := table) (by decide) h k v (List.mem_filter.mp hk).1 ht
  · intro k v hk ht
    exact Argp.line_none (T := table) h k v (List.mem_filter.mp hk).1 ht

/-- **C128** (nothing).  Without any words the help is shown and the status is 1. -/
theorem C128_nothing (w : ToolMain.World) (x : Lib) (m : ToolMain.Mem) :
    run w x m [] = .ok ⟨[.text w.help], [], .exit 1⟩ := rfl

theorem apply_paths {o o' : ToolArgs.Opts} {a : ToolArgs.Opt} (h : ToolArgs.apply o a = .ok (.set o')) :
    o'.isocodes = (isoOf [a]).getLast?.or o.isocodes ∧ o'.mcc = (mccOf [a]).getLast?.or o.mcc := by
  cases a with
  | txnType x =>
    simp only [ToolArgs.apply, ToolArgs.setType] at h
    split at h
    · cases h
    · split at h <;> cases h
      exact ⟨rfl, rfl⟩
  | amount x =>
    simp only [ToolArgs.apply, ToolArgs.setAmount] at h
    split at h
    · cases h
    · split at h
      · cases h
      · split at h <;> cases h
        exact ⟨rfl, rfl⟩
  | amountOther x =>
    simp only [ToolArgs.apply, ToolArgs.setAmountOther] at h
    split at h
    · cases h
    · split at h
      · cases h
      · split at h <;> cases h
        exact ⟨rfl, rfl⟩
  | verbose => cases h; exact ⟨rfl, rfl⟩
  | sources x =>
    simp only [ToolArgs.apply, ToolArgs.setSources] at h
    obtain ⟨r, -, h⟩ := bind_inv h
    cases r <;> cases h
    exact ⟨rfl, rfl⟩
  | level x =>
    simp only [ToolArgs.apply, ToolArgs.setLevel] at h
    split at h <;> cases h
    exact ⟨rfl, rfl⟩
  | version => cases h
  | isocodes x => cases h; exact ⟨rfl, rfl⟩
  | mcc x => cases h; exact ⟨rfl, rfl⟩

theorem parse_paths : ∀ (l : List ToolArgs.Opt) {o o' : ToolArgs.Opts}, ToolArgs.parse o l = .ok (.set o') →
    o'.isocodes = (isoOf l).getLast?.or o.isocodes ∧ o'.mcc = (mccOf l).getLast?.or o.mcc := by
  intro l
  induction l with
  | nil => intro o o' h; cases h; exact ⟨rfl, rfl⟩
  | cons a l ih =>
    intro o o' h
    rw [ToolArgs.parse] at h
    obtain ⟨r, h1, h⟩ := bind_inv h
    cases r with
    | set p =>
      obtain ⟨i1, i2⟩ := ih h
      obtain ⟨j1, j2⟩ := apply_paths h1
      have e1 : isoOf (a :: l) = isoOf [a] ++ isoOf l := List.filterMap_append (l := [a])
      have e2 : mccOf (a :: l) = mccOf [a] ++ mccOf l := List.filterMap_append (l := [a])
      rw [i1, i2, j1, j2, e1, e2, List.getLast?_append, List.getLast?_append, Option.or_assoc, Option.or_assoc]
      exact ⟨rfl, rfl⟩
    | refused msg => cases h
    | version => cases h

/-- **C128** (paths).  The codes are read from the last directory and the last file given, by default from those of the
library. -/
theorem C128_paths (l : List ToolArgs.Opt) (o : ToolArgs.Opts) (h : ToolArgs.parse .init l = .ok (.set o)) :
    o.isocodes = (isoOf l).getLast? ∧ o.mcc = (mccOf l).getLast? := by
  obtain ⟨h1, h2⟩ := parse_paths l h
  exact ⟨by rw [h1]; exact Option.or_none, by rw [h2]; exact Option.or_none⟩

theorem given_iso {is : List Item} {l : List ToolArgs.Opt} (h : Given is l) : ∀ v ∈ isoOf l, .option .isocodes (some v) ∈ is := by
  induction h with
  | nil => intro v hv; cases hv
  | own hs _ ih =>
    intro v hv
    cases hs with
    | isocodes u =>
      rcases List.mem_cons.mp hv with rfl | hv
      · exact List.mem_cons_self
      · exact List.mem_cons_of_mem _ (ih v hv)
    | _ => exact List.mem_cons_of_mem _ (ih v hv)
  | name _ ih => intro v hv; exact List.mem_cons_of_mem _ (ih v hv)
  | hang _ ih => intro v hv; exact List.mem_cons_of_mem _ (ih v hv)

/-- **C128** (the rest of the run).  A command line either ends the program before anything is done, or the run is that
of `C114` for options with the same values. -/
theorem C128_run (w : ToolMain.World) (x : Lib) (m : ToolMain.Mem) (ws : List (List Byte)) (is : List Item)
    (h : Line x.posix ws is) :
    (∃ out n, run w x m ws = .ok ⟨out, [], .exit n⟩ ∧ n ∈ [0, 1, 64]) ∨
    (inputsOf is = [] ∧ ∃ l args, Given (optionsOf is) l ∧ args ≠ [] ∧
      ToolArgs.parse .init args = ToolArgs.parse .init l ∧ run w x m ws = ToolMain.main w m args) := by
  by_cases h0 : ws = []
  · subst h0; exact .inl ⟨_, 1, rfl, by simp⟩
  rcases C128_cases w x ws is h with ⟨l, o, hg, hp⟩ | ⟨pre, i, post, l, o, out, n, hs, hg, hp, he⟩
  · by_cases hi : inputsOf is = []
    · refine .inr ⟨hi, l, if l = [] then [.txnType txt!"00"] else l, hg, ?_, ?_, ?_⟩
      · split
        · simp
        · assumption
      · split
        · next hl => subst hl; rfl
        · rfl
      · rw [C128_accepted w x m ws is h h0 l o hg hp hi, ToolMain.main]
        by_cases hl : l = []
        · subst hl; cases hp; rfl
        · rw [if_neg hl, if_neg hl, hp, bind_ok]
    · exact .inl ⟨_, 64, C128_other_words w x m ws is h l o hg hp hi, by simp⟩
  · refine .inl ⟨out, n, C128_ending w x m ws is h pre post i hs l o hg hp out n he, ?_⟩
    cases he <;> simp

/-- **C128** (what it leaves).  However the program ends, the memory for the readers is freed and the context of the
service released. -/
theorem C128_released (w : ToolMain.World) (x : Lib) (m : ToolMain.Mem) (ws : List (List Byte)) (res : ToolMain.Result)
    (h : run w x m ws = .ok res) (he : ToolMain.Ended res) :
    PcscInit.ledger [] (ToolMain.serviceOf res.trace) = some [] ∧
    (ToolMain.serviceOf res.trace).count .release = (ToolMain.serviceOf res.trace).count .establish ∧
    (ToolMain.serviceOf res.trace).count .establish ≤ 1 := by
  obtain ⟨is, hl, -⟩ := C128_reading x.posix ws
  rcases C128_run w x m ws is hl with ⟨out, n, e, -⟩ | ⟨-, l, args, -, -, -, e⟩
  · rw [h] at e
    cases e
    exact ⟨rfl, rfl, Nat.zero_le _⟩
  · rw [h] at e
    obtain ⟨h1, h2, h3, -⟩ := ToolMain.C114_released w m args res e.symm he
    exact ⟨h1, h2, h3⟩

/-- **C128** (defined).  Nothing undefined happens under the conditions of `C114_safe_partial`.
Missing: everything else, see there and `C128_path`. -/
theorem C128_safe_partial (w : ToolMain.World) (x : Lib) (m : ToolMain.Mem) (hf : ToolMain.Fits w m)
    (htm : ToolTxn.Valid w.tm) (ws : List (List Byte)) (is : List Item) (h : Line x.posix ws is)
    (hiso : w.files.isoPath ≠ []) (hpath : .option .isocodes (some []) ∉ is)
    (hsvc : (w.svc.establish = false ∨ w.svc.size = none ∨ w.svc.list = none) ∨
      ∃ ns fs es, ToolMain.Lists w ns fs es ∧ PcscInit.Honest ns.length w.change)
    (hatr : ∀ atr, ToolMain.Contact w.conn atr → C.Safe (Atr.parse atr))
    (hans : ∀ used, used <:+: w.answers.map (ToolMain.received w.conn.protocol) → ¬ Stack.NoData used) :
    C.Safe (run w x m ws) := by
  rcases C128_run w x m ws is h with ⟨out, n, e, -⟩ | ⟨-, l, args, hg, -, hp, e⟩
  · exact ⟨_, e⟩
  · rw [e]
    refine ToolMain.C114_safe_partial w m hf args htm ?_ hsvc hatr hans
    intro o ho
    rw [hp] at ho
    rw [(C128_paths l o ho).1]
    cases hq : (isoOf l).getLast? with
    | none => exact hiso
    | some v =>
      rintro rfl
      exact hpath (List.mem_filter.mp (given_iso hg _ (List.mem_of_getLast? hq))).1

/-- **C128** (disagreement).  An empty directory of codes makes the program read before the start of the text. -/
theorem C128_path (w : ToolMain.World) (x : Lib) (m : ToolMain.Mem) :
    run w x m [txt!"--isocodes-path="] = .error .oobRead := by
  have hl : Line x.posix [txt!"--isocodes-path="] [.option .isocodes (some [])] :=
    .joined (name := txt!"isocodes-path") (v := []) (.inl (by decide +kernel)) (by decide) (by decide) .nil
  rw [C128_accepted w x m _ _ hl (by simp) [.isocodes []] _ (.own (.isocodes []) .nil) rfl rfl]
  rfl

/-! ## Examples -/

/-- A C library. -/
def libc : Lib := ⟨false, txt!"Usage: emv-tool", txt!"unrecognized option", txt!"Too many arguments"⟩

/-- Abbreviated options, and values in both forms. -/
theorem amountLine : Line false [txt!"--txn-amount", txt!"100", txt!"--debug-v", txt!"--txn-t=00"]
    [.option .amount (some txt!"100"), .option .verbose none, .option .txnType (some txt!"00")] :=
  .apart (name := txt!"txn-amount") (k := .amount) (.inl (by decide +kernel)) (by decide) (by decide)
    (.plain (name := txt!"debug-v") (k := .verbose) ((Argp.find_means proper _ _).mp (by decide +kernel)) (by decide) (by decide)
      (.joined (name := txt!"txn-t") (v := txt!"00") (k := .txnType) ((Argp.find_means proper _ _).mp (by decide +kernel)) (by decide) (by decide) .nil))

example : Given (optionsOf [.option .amount (some txt!"100"), .option .verbose none, .option .txnType (some txt!"00")])
    [.amount txt!"100", .verbose, .txnType txt!"00"] := .own (.amount _) (.own .verbose (.own (.txnType _) .nil))

/-- A transaction from the words to the end. -/
example : ToolMain.summary (run ToolMain.answering libc ToolMain.ram
      [txt!"--txn-amount", txt!"100", txt!"--debug-v", txt!"--txn-t=00"]) =
    ToolMain.summary (ToolMain.main ToolMain.answering ToolMain.ram [.amount txt!"100"]) := by
  decide +kernel

/-- A word that is no option, and options that end the program before it. -/
example : run ToolMain.answering libc ToolMain.ram [txt!"100", txt!"--txn-amount", txt!"100"] =
    .ok ⟨[.error txt!"Too many arguments"], [], .exit 64⟩ := by rfl
example : run ToolMain.answering libc ToolMain.ram [txt!"100", txt!"--txn-amount", txt!"1x", txt!"--help"] =
    .ok ⟨[.error txt!"Transaction amount (--txn-amount) argument must be numeric digits"], [], .exit 64⟩ := by rfl
example : run ToolMain.answering libc ToolMain.ram [txt!"--txn-amount", txt!"1", txt!"-?", txt!"--txn-amount=x"] =
    .ok ⟨[.text txt!"usage"], [], .exit 0⟩ := by rfl

/-- `--txn-a` may be either amount. -/
example : run ToolMain.answering libc ToolMain.ram [txt!"--txn-a", txt!"100"] =
    .ok ⟨[.error txt!"unrecognized option"], [], .exit 64⟩ := by rfl

/-- The last paths given. -/
example : ToolArgs.parse .init [.isocodes txt!"/a", .mcc txt!"/b", .isocodes txt!"/c"] =
    .ok (.set { ToolArgs.Opts.init with isocodes := some txt!"/c", mcc := some txt!"/b" }) := by rfl

/-- The options of emv-tool followed by a value. -/
def valuedNames : List (List Byte) :=
  [txt!"txn-type", txt!"txn-amount", txt!"txn-amount-other", txt!"debug-source", txt!"debug-level", txt!"isocodes-path",
   txt!"mcc-json", txt!"program-name"]

/-- **C128** (values).  Exactly these options take the next word, whatever it is, for their value, and may have it after `=` instead;
at the end of the command line they are refused.  No other option takes the next word; and only `--HANG` may have a
value after `=`. -/
theorem C128_values (posix : Bool) (name v : List Byte) (k : Key) (ws : List (List Byte)) (is : List Item)
    (hk : (name, k) ∈ options) (h : Line posix ws is) :
    (name ∈ valuedNames → Line posix ((txt!"--" ++ name) :: v :: ws) (.option k (some v) :: is) ∧
      Line posix ((txt!"--" ++ name ++ txt!"=" ++ v) :: ws) (.option k (some v) :: is) ∧
      Line posix [txt!"--" ++ name] [.bad]) ∧
    (name ∉ valuedNames → Line posix ((txt!"--" ++ name) :: ws) (.option k none :: is) ∧
      Line posix ((txt!"--" ++ name ++ txt!"=" ++ v) :: ws)
        ((if name = txt!"HANG" then .option k (some v) else .bad) :: is)) := by
  have all : ∀ o ∈ options, 0x3D ∉ o.1 ∧ (o.1 ∈ valuedNames → takes o.2 = .value) ∧
      (o.1 ∉ valuedNames → takes o.2 = if o.1 = txt!"HANG" then .maybe else .nothing) := by decide +kernel
  obtain ⟨he, h1, h2⟩ := all _ hk
  have hm : Argp.Means table name k := .inl hk
  constructor
  · intro hv
    have ht : table.takes k = .value := h1 hv
    exact ⟨.apart hm he ht h, .joined hm he (by rw [ht]; decide) h, .missing hm he ht⟩
  · intro hv
    have ht : table.takes k = if name = txt!"HANG" then .maybe else .nothing := h2 hv
    by_cases hh : name = txt!"HANG"
    · rw [if_pos hh] at ht
      rw [if_pos hh]
      exact ⟨.plain hm he (by rw [ht]; decide) h, .joined hm he (by rw [ht]; decide) h⟩
    · rw [if_neg hh] at ht
      rw [if_neg hh]
      exact ⟨.plain hm he (by rw [ht]; decide) h, .needless hm he ht h⟩

example : (txt!"program-name", Key.programName) ∈ options ∧ txt!"program-name" ∈ valuedNames ∧ txt!"version" ∉ valuedNames := by
  decide +kernel

/-- What the options with a value are for. -/
def meanings (v : List Byte) : List (List Byte × ToolArgs.Opt) :=
  [(txt!"txn-type", .txnType v), (txt!"txn-amount", .amount v), (txt!"txn-amount-other", .amountOther v),
   (txt!"debug-source", .sources v), (txt!"debug-level", .level v), (txt!"isocodes-path", .isocodes v),
   (txt!"mcc-json", .mcc v)]

/-- **C128** (meaning).  Before other options that are accepted, an option with a value, in the same word or in the next
one, sets that value and no other: the program goes on with the values that all of them set. -/
theorem C128_meaning (w : ToolMain.World) (x : Lib) (m : ToolMain.Mem) (ws : List (List Byte)) (is : List Item)
    (h : Line x.posix ws is) (l : List ToolArgs.Opt) (hg : Given (optionsOf is) l) (hi : inputsOf is = [])
    (name v : List Byte) (a : ToolArgs.Opt) (ha : (name, a) ∈ meanings v) (o : ToolArgs.Opts)
    (hp : ToolArgs.parse .init (a :: l) = .ok (.set o)) :
    run w x m ((txt!"--" ++ name ++ txt!"=" ++ v) :: ws) = ToolMain.start w m o ∧
    run w x m ((txt!"--" ++ name) :: v :: ws) = ToolMain.start w m o := by
  have key : ∃ k, (name, k) ∈ options ∧ name ∈ valuedNames ∧ Stands (.option k (some v)) a := by
    simp only [meanings, List.mem_cons, Prod.mk.injEq, List.not_mem_nil, or_false] at ha
    rcases ha with ⟨rfl, rfl⟩ | ⟨rfl, rfl⟩ | ⟨rfl, rfl⟩ | ⟨rfl, rfl⟩ | ⟨rfl, rfl⟩ | ⟨rfl, rfl⟩ | ⟨rfl, rfl⟩
    · exact ⟨.txnType, by decide +kernel, by decide +kernel, .txnType v⟩
    · exact ⟨.amount, by decide +kernel, by decide +kernel, .amount v⟩
    · exact ⟨.amountOther, by decide +kernel, by decide +kernel, .amountOther v⟩
    · exact ⟨.sources, by decide +kernel, by decide +kernel, .sources v⟩
    · exact ⟨.level, by decide +kernel, by decide +kernel, .level v⟩
    · exact ⟨.isocodes, by decide +kernel, by decide +kernel, .isocodes v⟩
    · exact ⟨.mccJson, by decide +kernel, by decide +kernel, .mcc v⟩
  obtain ⟨k, hk, hn, hs⟩ := key
  obtain ⟨h1, h2, -⟩ := (C128_values x.posix name v k ws is hk h).1 hn
  have hg' : Given (optionsOf (.option k (some v) :: is)) (a :: l) := .own hs hg
  exact ⟨C128_accepted w x m _ _ h2 (by simp) _ o hg' hp hi, C128_accepted w x m _ _ h1 (by simp) _ o hg' hp hi⟩

/-- **C128** (verbose).  `--debug-verbose` turns on exactly that. -/
theorem C128_verbose (w : ToolMain.World) (x : Lib) (m : ToolMain.Mem) (ws : List (List Byte)) (is : List Item)
    (h : Line x.posix ws is) (l : List ToolArgs.Opt) (hg : Given (optionsOf is) l) (hi : inputsOf is = [])
    (o : ToolArgs.Opts) (hp : ToolArgs.parse .init (.verbose :: l) = .ok (.set o)) :
    run w x m (txt!"--debug-verbose" :: ws) = ToolMain.start w m o := by
  have hk : (txt!"debug-verbose", Key.verbose) ∈ options := by decide +kernel
  obtain ⟨h1, -⟩ := (C128_values x.posix txt!"debug-verbose" [] .verbose ws is hk h).2 (by decide +kernel)
  exact C128_accepted w x m _ _ h1 (by simp) (.verbose :: l) o (.own .verbose hg) hp hi

/-- **C128** (texts).  `--help`, `--usage` and `--version` show these texts, whatever follows. -/
theorem C128_texts (w : ToolMain.World) (x : Lib) (m : ToolMain.Mem) (ws : List (List Byte)) (is : List Item)
    (h : Line x.posix ws is) :
    run w x m (txt!"--help" :: ws) = .ok ⟨[.text w.help], [], .exit 0⟩ ∧
    run w x m (txt!"--usage" :: ws) = .ok ⟨[.text x.usage], [], .exit 0⟩ ∧
    run w x m (txt!"--version" :: ws) = .ok ⟨[.text (w.version ++ txt!"\n")], [], .exit 0⟩ := by
  have key : ∀ name k out, (name, k) ∈ options → name ∉ valuedNames → Ends w x .init (.option k none) out 0 →
      (∀ is, optionsOf (.option k none :: is) = .option k none :: optionsOf is) →
      run w x m ((txt!"--" ++ name) :: ws) = .ok ⟨out, [], .exit 0⟩ := by
    intro name k out hk hn he ho
    obtain ⟨h1, -⟩ := (C128_values x.posix name [] k ws is hk h).2 hn
    exact C128_ending w x m _ _ h1 [] _ _ (ho is) [] _ .nil rfl out 0 he
  exact ⟨key txt!"help" .help _ (by decide +kernel) (by decide +kernel) (.help _) (fun _ => rfl),
    key txt!"usage" .usage _ (by decide +kernel) (by decide +kernel) (.usage _) (fun _ => rfl),
    key txt!"version" .version _ (by decide +kernel) (by decide +kernel) .version (fun _ => rfl)⟩

/- The two amounts of a purchase with cash. -/
example : (txt!"txn-amount-other", ToolArgs.Opt.amountOther txt!"20") ∈ meanings txt!"20" ∧
    ToolArgs.parse .init [.amountOther txt!"20", .amount txt!"120"] =
      .ok (.set { ToolArgs.Opts.init with amount := 120, amountOther := 20 }) := by
  decide +kernel

end Verif.ToolWords
