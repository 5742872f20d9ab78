import Verif.DecodeSafeProps

/-! # C126: options, exit status and answers of `emv-decode` -/

set_option autoImplicit false

namespace Verif.DecodeArgs
open Argp (inputsOf optionsOf order_eq order_mem)
open Decode

/-! ## Options -/

/-- **C126** (names).  Each option is found by its full name, whatever other names begin with it. -/
theorem C126_names (n : List Byte) (k : Key) (h : (n, k) ∈ options) (k' : Key) : Means n k' ↔ k' = k := by
  constructor
  · rintro (h' | ⟨h', -⟩)
    · exact Argp.key_unique options proper.1 h' h
    · exact absurd h (h' k)
  · rintro rfl
    exact .inl h

/-- A name of two or four hexadecimal digits, as fields have. -/
def FieldName (n : List Byte) : Prop :=
  (n.length = 2 ∨ n.length = 4) ∧ ∀ c ∈ n, 0x30 ≤ c ∧ c ≤ 0x39 ∨ 0x41 ≤ c ∧ c ≤ 0x46

instance (n : List Byte) : Decidable (FieldName n) := inferInstanceAs (Decidable (_ ∧ _))

/-- **C126** (fields).  An option with the number of a field decodes that field: too long a value is refused with a
message that names the field by this number, or the merchant category. -/
theorem C126_fields : ∀ o ∈ options, FieldName o.1 →
    ∃ m msg, o.2 = .mode m ∧ (∀ t loc help pad arg, decode t loc help pad arg (List.replicate 33 0) m = .ok ⟨[], msg⟩) ∧
      (txt!"(field " ++ o.1 ++ txt!")" <:+: msg ∨ o.1 = txt!"9F15" ∧ txt!"Merchant Category Code (MCC)" <+: msg) := by
  have h : ∀ o ∈ options, FieldName o.1 → o ∈
      [(txt!"9F15", Key.mode .mcc), (txt!"9F35", .mode .termType), (txt!"9F33", .mode .termCaps),
       (txt!"9F40", .mode .addlTermCaps), (txt!"8E", .mode .cvmList), (txt!"9F34", .mode .cvmResults),
       (txt!"95", .mode .tvr), (txt!"9B", .mode .tsi), (txt!"9F10", .mode .iad), (txt!"9F66", .mode .ttq),
       (txt!"9F6C", .mode .ctq), (txt!"9F6D", .mode .amexClReaderCaps), (txt!"9F1D", .mode .trmd)] := by
    decide +kernel
  intro o ho hf
  have := h o ho hf
  simp only [List.mem_cons, List.not_mem_nil, or_false] at this
  rcases this with rfl | rfl | rfl | rfl | rfl | rfl | rfl | rfl | rfl | rfl | rfl | rfl | rfl
  · exact ⟨_, _, rfl, fun _ _ _ _ _ => rfl, .inr (by decide +kernel)⟩
  rotate_left 3
  · exact ⟨_, _, rfl, fun t loc help pad arg => C99_cvm_list_refused t loc help pad arg _ (by simp),
      .inl (by decide +kernel)⟩
  all_goals exact ⟨_, _, rfl, fun _ _ _ _ _ => rfl, .inl (by decide +kernel)⟩

/-- There are thirteen such options. -/
example : (options.filter (fun o => decide (FieldName o.1))).length = 13 := by decide +kernel

/-- **C126** (other names).  An option with the number of a field and one in words stand for the same mode. -/
theorem C126_words : ∀ p ∈ [(txt!"9F15", txt!"mcc"), (txt!"9F35", txt!"term-type"), (txt!"9F33", txt!"term-caps"),
      (txt!"9F40", txt!"addl-term-caps"), (txt!"8E", txt!"cvm-list"), (txt!"9F34", txt!"cvm-results"),
      (txt!"95", txt!"tvr"), (txt!"9B", txt!"tsi"), (txt!"9F10", txt!"issuer-app-data"), (txt!"9F66", txt!"ttq"),
      (txt!"9F6C", txt!"ctq"), (txt!"9F6D", txt!"amex-cl-reader-caps"),
      (txt!"9F1D", txt!"terminal-risk-management-data"), (txt!"iso3166-1", txt!"country"),
      (txt!"iso4217", txt!"currency"), (txt!"iso639", txt!"language")],
    ∀ (k : Key), Means p.1 k ↔ Means p.2 k := by
  have h : ∀ p ∈ [(txt!"9F15", txt!"mcc"), (txt!"9F35", txt!"term-type"), (txt!"9F33", txt!"term-caps"),
      (txt!"9F40", txt!"addl-term-caps"), (txt!"8E", txt!"cvm-list"), (txt!"9F34", txt!"cvm-results"),
      (txt!"95", txt!"tvr"), (txt!"9B", txt!"tsi"), (txt!"9F10", txt!"issuer-app-data"), (txt!"9F66", txt!"ttq"),
      (txt!"9F6C", txt!"ctq"), (txt!"9F6D", txt!"amex-cl-reader-caps"),
      (txt!"9F1D", txt!"terminal-risk-management-data"), (txt!"iso3166-1", txt!"country"),
      (txt!"iso4217", txt!"currency"), (txt!"iso639", txt!"language")], Argp.find table p.1 = Argp.find table p.2 := by decide +kernel
  intro p hp k
  rw [← find_means, ← find_means, h p hp]

theorem digits_long (n : Nat) (h : 100 ≤ n) : 3 ≤ (Lists.decimal n).length := by
  rw [Lists.decimal, List.length_map, Str.digits, if_neg (by omega), Str.digits, if_neg (by omega), Str.digits]
  split <;> simp

theorem no_long_page : ∀ o ∈ options, txt!"iso8859-" <+: o.1 → o.1.length ≤ 10 := by decide +kernel

/-- **C126** (code pages).  `--iso8859-n` selects page n; there are such options for 1 to 15 without 12, and for no
other number. -/
theorem C126_pages (n : Nat) (k : Key) :
    Means (txt!"iso8859-" ++ Lists.decimal n) k ↔ k = .mode (.iso8859 n) ∧ 1 ≤ n ∧ n ≤ 15 ∧ n ≠ 12 := by
  by_cases h : n < 100
  · have key : ∀ n < 100, Argp.find table (txt!"iso8859-" ++ Lists.decimal n) =
        if 1 ≤ n ∧ n ≤ 15 ∧ n ≠ 12 then some (.mode (.iso8859 n)) else none := by decide +kernel
    rw [← find_means, key n h]
    split
    · rename_i h'
      simp [h', eq_comm]
    · rename_i h'
      simp [h']
  · constructor
    · intro hm
      have : ∃ n', (n', k) ∈ options ∧ txt!"iso8859-" ++ Lists.decimal n <+: n' := by
        rcases hm with h' | ⟨-, h', -⟩
        · exact ⟨_, h', List.prefix_refl _⟩
        · exact h'
      obtain ⟨n', h1, h2⟩ := this
      have h3 := no_long_page _ h1 ((List.prefix_append _ _).trans h2)
      have h4 := h2.length_le
      have h5 := digits_long n (by omega)
      have h6 : (txt!"iso8859-").length = 8 := rfl
      simp only [List.length_append, h6] at h4 h3
      omega
    · rintro ⟨-, h', h'', -⟩
      omega

/-! ## Exit status -/

theorem input_stop {w : World} {a : List Byte} {s : St} {e : Ending} (h : input w a s = .ok (.stop e)) :
    ∃ msg, e = .exit 64 ⟨[], msg⟩ := by
  unfold input at h
  split at h
  · cases h
  · unfold hexInput at h
    split at h
    · cases hl : Hex.load s.file with
      | error x => rw [hl] at h; cases h
      | ok v =>
        rw [hl, bind_ok] at h
        split at h
        · cases h; exact ⟨_, rfl⟩
        · cases h
    · split at h
      · cases h; exact ⟨_, rfl⟩
      · cases hp : Hex.parseHex a (w.mem ((a.length + 1) / 2)) with
        | error x => rw [hp] at h; cases h
        | ok v =>
          obtain ⟨r, buf, n⟩ := v
          rw [hp, bind_ok] at h
          simp only at h
          split at h
          · cases h; exact ⟨_, rfl⟩
          · split at h
            · cases h; exact ⟨_, rfl⟩
            · cases hs : slice buf 0 n with
              | error x => rw [hs] at h; cases h
              | ok v => rw [hs, bind_ok] at h; cases h

theorem step_stop {w : World} {i : Item} {s : St} {e : Ending} (h : step w i s = .ok (.stop e)) :
    (∃ msg, e = .exit 64 ⟨[], msg⟩) ∨ ∃ k v t, i = .option k v ∧ says w k = some t ∧ e = .exit 0 ⟨t, []⟩ := by
  cases i with
  | bad => cases h; exact .inl ⟨_, rfl⟩
  | input a => exact .inl (input_stop h)
  | option k v =>
    simp only [step, Except.ok.injEq] at h
    cases k with
    | mode m =>
      rw [option] at h
      split at h
      · cases h; exact .inl ⟨_, rfl⟩
      · cases h
    | iso8859x => cases h; exact .inr ⟨_, _, _, rfl, rfl, rfl⟩
    | version => cases h; exact .inr ⟨_, _, _, rfl, rfl, rfl⟩
    | help => cases h; exact .inr ⟨_, _, _, rfl, rfl, rfl⟩
    | usage => cases h; exact .inr ⟨_, _, _, rfl, rfl, rfl⟩
    | _ => cases h

theorem steps_stop {w : World} : ∀ (is : List Item) (b : Bool) (s : St) (e : Ending),
    steps w is b s = .ok (.stop e) →
    (∃ msg, e = .exit 64 ⟨[], msg⟩) ∨ ∃ k v t, .option k v ∈ is ∧ says w k = some t ∧ e = .exit 0 ⟨t, []⟩ := by
  intro is
  induction is with
  | nil =>
    intro b s e h
    cases b with
    | true => cases h
    | false => cases h; exact .inl ⟨_, rfl⟩
  | cons i is ih =>
    intro b s e h
    rw [steps] at h
    cases hs : step w i s with
    | error x => rw [hs] at h; cases h
    | ok r =>
      rw [hs, bind_ok] at h
      cases r with
      | stop e' =>
        cases h
        rcases step_stop hs with h | ⟨k, v, t, rfl, h⟩
        · exact .inl h
        · exact .inr ⟨k, v, t, by simp, h⟩
      | go s' =>
        rcases ih _ _ _ h with h | ⟨k, v, t, hm, h⟩
        · exact .inl h
        · exact .inr ⟨k, v, t, by simp [hm], h⟩

/-- The ways the program ends. -/
theorem run_cases {w : World} {ws : List (List Byte)} {st : Nat} {sh : Shown} (h : run w ws = .ok (.exit st sh)) :
    (ws = [] ∧ st = 1 ∧ sh = ⟨w.help, []⟩) ∨
    (ws ≠ [] ∧ st = 64 ∧ sh.out = []) ∨
    (ws ≠ [] ∧ st = 0 ∧ sh.err = [] ∧ ∃ k v, .option k v ∈ Argp.items table w.posix ws ∧ says w k = some sh.out) ∨
    (ws ≠ [] ∧ ∃ s r t, Codes.stringsInit w.files s.iso s.mcc Codes.fresh = .ok (.ok (r, t)) ∧
      steps w (Argp.order (Argp.items table w.posix ws)) false (.initial w) = .ok (.go s) ∧
      (r < 0 ∧ st = 2 ∧ sh = ⟨[], txt!"Failed to initialise EMV strings\n"⟩ ∨ 0 ≤ r ∧ st = 0)) := by
  unfold run at h
  split at h
  · rename_i hw
    cases h
    exact .inl ⟨hw, rfl, rfl⟩
  · rename_i hw
    right
    cases hs : steps w (Argp.order (Argp.items table w.posix ws)) false (.initial w) with
    | error e => rw [hs] at h; cases h
    | ok r =>
      rw [hs, bind_ok] at h
      cases r with
      | stop e =>
        cases h
        rcases steps_stop _ _ _ _ hs with ⟨m, h⟩ | ⟨k, v, t, hm, ht, h⟩
        · cases h; exact .inl ⟨hw, rfl, rfl⟩
        · cases h; exact .inr (.inl ⟨hw, rfl, rfl, k, v, order_mem hm, ht⟩)
      | go s =>
        refine .inr (.inr ⟨hw, s, ?_⟩)
        simp only [finish] at h
        cases hi : Codes.stringsInit w.files s.iso s.mcc Codes.fresh with
        | error e => rw [hi] at h; cases h
        | ok x =>
          rw [hi, bind_ok] at h
          cases x with
          | terminated => cases h
          | ok x =>
            obtain ⟨r, t⟩ := x
            refine ⟨r, t, rfl, rfl, ?_⟩
            simp only [Decode.main] at h
            split at h
            · rename_i hr
              cases h
              exact .inl ⟨hr, rfl, rfl⟩
            · rename_i hr
              cases hd : decode (w.tables t) w.locals w.help s.pad s.arg s.data s.mode with
              | error e => rw [hd] at h; cases h
              | ok x =>
                rw [hd, bind_ok] at h
                cases h
                exact .inr ⟨by omega, rfl⟩

/-- **C126** (exit status).  Wherever the program exits, the status is 1 for a command line without words only, 64 for
one that is refused, 2 when the tables are refused, and else 0, even if the data could not be decoded.  Nothing is
written to standard output unless the status is 0 or 1. -/
theorem C126_status (w : World) (ws : List (List Byte)) (st : Nat) (sh : Shown) (h : run w ws = .ok (.exit st sh)) :
    (st = 0 ∨ st = 1 ∨ st = 2 ∨ st = 64) ∧ (st = 1 ↔ ws = []) ∧ (st ≠ 0 → st ≠ 1 → sh.out = []) := by
  rcases run_cases h with ⟨rfl, rfl, rfl⟩ | ⟨h1, rfl, h2⟩ | ⟨h1, rfl, h2⟩ | ⟨h1, s, r, t, -, -, h2⟩
  · simp
  · simp [h1, h2]
  · simp [h1]
  · rcases h2 with ⟨-, rfl, rfl⟩ | ⟨-, rfl⟩ <;> simp [h1]

theorem input_paths {w : World} {a : List Byte} {s s' : St} (h : input w a s = .ok (.go s')) :
    s'.iso = s.iso ∧ s'.mcc = s.mcc := by
  unfold input at h
  split at h
  · cases h; exact ⟨rfl, rfl⟩
  · unfold hexInput at h
    split at h
    · cases hl : Hex.load s.file with
      | error x => rw [hl] at h; cases h
      | ok v =>
        rw [hl, bind_ok] at h
        split at h
        · cases h
        · cases h; exact ⟨rfl, rfl⟩
    · split at h
      · cases h
      · cases hp : Hex.parseHex a (w.mem ((a.length + 1) / 2)) with
        | error x => rw [hp] at h; cases h
        | ok v =>
          obtain ⟨r, buf, n⟩ := v
          rw [hp, bind_ok] at h
          simp only at h
          split at h
          · cases h
          · split at h
            · cases h
            · cases hs : slice buf 0 n with
              | error x => rw [hs] at h; cases h
              | ok v => rw [hs, bind_ok] at h; cases h; exact ⟨rfl, rfl⟩

/-- The paths are those of the command line. -/
def Paths (is : List Item) (s : St) : Prop :=
  (s.iso = none ∨ ∃ p ∈ isoOf is, s.iso = some p) ∧ (s.mcc = none ∨ ∃ p ∈ mccOf is, s.mcc = some p)

theorem step_paths {w : World} {is : List Item} {i : Item} (hi : i ∈ is) {s s' : St} (hs : Paths is s)
    (h : step w i s = .ok (.go s')) : Paths is s' := by
  cases i with
  | bad => cases h
  | input a =>
    obtain ⟨h1, h2⟩ := input_paths h
    rw [Paths, h1, h2]
    exact hs
  | option k v =>
    simp only [step, Except.ok.injEq] at h
    cases k with
    | mode m =>
      rw [option] at h
      split at h
      · cases h
      · cases h; exact hs
    | isocodes =>
      cases h
      refine ⟨?_, hs.2⟩
      cases v with
      | none => exact .inl rfl
      | some p => exact .inr ⟨p, List.mem_filterMap.mpr ⟨_, hi, rfl⟩, rfl⟩
    | mccJson =>
      cases h
      refine ⟨hs.1, ?_⟩
      cases v with
      | none => exact .inl rfl
      | some p => exact .inr ⟨p, List.mem_filterMap.mpr ⟨_, hi, rfl⟩, rfl⟩
    | iso8859x => cases h
    | version => cases h
    | help => cases h
    | usage => cases h
    | _ => cases h; exact hs

theorem steps_paths {w : World} {is : List Item} : ∀ (js : List Item) (b : Bool) (s s' : St), (∀ j ∈ js, j ∈ is) →
    Paths is s → steps w js b s = .ok (.go s') → Paths is s' := by
  intro js
  induction js with
  | nil =>
    intro b s s' _ hs h
    cases b with
    | true => cases h; exact hs
    | false => cases h
  | cons j js ih =>
    intro b s s' hj hs h
    rw [steps] at h
    cases he : step w j s with
    | error x => rw [he] at h; cases h
    | ok r =>
      rw [he, bind_ok] at h
      cases r with
      | stop e' => cases h
      | go s₁ => exact ih _ _ _ (fun x hx => hj x (by simp [hx])) (step_paths (hj j (by simp)) hs he) h

/-- **C126** (status 2).  It means that the files of codes at one of the paths given, or else at the usual ones, were
refused. -/
theorem C126_refused (w : World) (ws : List (List Byte)) (is : List Item) (hl : Line w.posix ws is) (sh : Shown)
    (h : run w ws = .ok (.exit 2 sh)) :
    ∃ iso mcc r t, Codes.stringsInit w.files iso mcc Codes.fresh = .ok (.ok (r, t)) ∧ r < 0 ∧
      (iso = none ∨ ∃ p ∈ isoOf is, iso = some p) ∧ (mcc = none ∨ ∃ p ∈ mccOf is, mcc = some p) := by
  rcases run_cases h with ⟨-, h, -⟩ | ⟨-, h, -⟩ | ⟨-, h, -⟩ | ⟨-, s, r, t, h1, h2, h3⟩
  · cases h
  · cases h
  · cases h
  · rcases h3 with ⟨h3, -⟩ | ⟨-, h3⟩
    · rw [line_items hl] at h2
      obtain ⟨p1, p2⟩ := steps_paths (is := is) _ _ _ _ (fun j hj => order_mem hj) ⟨.inl rfl, .inl rfl⟩ h2
      exact ⟨s.iso, s.mcc, r, t, h1, h3, p1, p2⟩
    · cases h3

/-! ## Answers -/

/-- The documents found by the command line say `cs`, `us`, `ls` and `ms`. -/
def Documents (w : World) (is : List Item) (cs us ls : List Codes.Entry) (ms : List (Nat × List Byte)) : Prop :=
  ∃ d, Codes.Directory ((isoOf is).getLast?.getD w.files.isoPath) d ∧
    Codes.Says w.files (Codes.Country w.files) (d ++ txt!"iso_3166-1.json") txt!"3166-1" cs ∧
    Codes.Says w.files (Codes.Currency w.files) (d ++ txt!"iso_4217.json") txt!"4217" us ∧
    Codes.Says w.files (Codes.Language w.files) (d ++ txt!"iso_639-2.json") txt!"639-2" ls ∧
    Codes.SaysMcc w.files ((mccOf is).getLast?.getD w.files.mccPath) ms ∧
    Codes.Numbered w.files cs ∧ Codes.Numbered w.files us

theorem tables_say {w : World} {is : List Item} {cs us ls : List Codes.Entry} {ms : List (Nat × List Byte)}
    (h : Documents w is cs us ls ms) :
    ∃ t, Codes.stringsInit w.files (isoOf is).getLast? (mccOf is).getLast? Codes.fresh = .ok (.ok (0, t)) ∧
      (w.tables t).env.country2 = (fun k => Codes.firstName (fun e => e.alpha2 == k) cs) ∧
      (w.tables t).env.country3 = (fun k => Codes.firstName (fun e => e.alpha3 == k) cs) ∧
      (w.tables t).env.countryNum = (fun n => Codes.firstName (fun e => w.files.stoul e.numeric == some n) cs) ∧
      (w.tables t).currency3 = (fun k => Codes.firstName (fun e => e.alpha3 == k) us) ∧
      (w.tables t).env.currency = (fun n => Codes.firstName (fun e => w.files.stoul e.numeric == some n) us) ∧
      (w.tables t).env.language = (fun k => Codes.firstName (fun e => e.alpha2 == k && e.alpha2 != []) ls) ∧
      (w.tables t).language3 = (fun k => Codes.firstName (fun e => e.alpha3 == k) ls) ∧
      (w.tables t).env.mcc = (fun n => Codes.lastText n ms) := by
  obtain ⟨d, hd, hc, hu, hl, hm, h1, h2⟩ := h
  obtain ⟨t, ht, ⟨c1, c2, c3⟩, ⟨u1, u2⟩, ⟨l1, l2⟩, m1⟩ :=
    Codes.C98_lookup w.files _ _ d cs us ls ms hd hc hu hl hm h1 h2
  refine ⟨t, ht, ?_, ?_, ?_, ?_, ?_, ?_, ?_, ?_⟩ <;> funext k <;> simp only [World.tables]
  · rw [c1]; rfl
  · rw [c2]; rfl
  · rw [c3]; rfl
  · rw [u1]; rfl
  · rw [u2]; rfl
  · rw [l1]; rfl
  · rw [l2]; rfl
  · exact m1 k

/-- A word that names a code, after at most one of the decoding options. -/
def Asks (posix : Bool) (ws : List (List Byte)) (is : List Item) (m : Mode) (a : List Byte) : Prop :=
  Line posix ws is ∧ (∀ i ∈ is, Quiet i) ∧ modesOf is = [m] ∧ (inputsOf is).getLast? = some a

theorem asked {w : World} {ws : List (List Byte)} {is : List Item} {m : Mode} {a : List Byte}
    (h : Asks w.posix ws is m a) (hv : Verbatim m) {t : Codes.State} {s : Shown}
    (ht : Codes.stringsInit w.files (isoOf is).getLast? (mccOf is).getLast? Codes.fresh = .ok (.ok (0, t)))
    (hs : decode (w.tables t) w.locals w.help (paddingOf is) a [] m = .ok s) : run w ws = .ok (.exit 0 s) := by
  obtain ⟨h1, h2, h3, h4⟩ := h
  obtain ⟨as, e⟩ := List.getLast?_eq_some_iff.mp h4
  obtain ⟨-, -, h⟩ := C125_code w ws is h1 h2 m h3 hv as a e
  exact ((h 0 t ht).2 (by omega)).2 s hs |>.1 rfl

/-- **C126** (countries).  With one option for countries and documents of the expected form, the name of the first
country with the code is shown, or of the first with the number. -/
theorem C126_country (w : World) (ws : List (List Byte)) (is : List Item) (a : List Byte)
    (h : Asks w.posix ws is .iso3166 a) (cs us ls : List Codes.Entry) (ms : List (Nat × List Byte))
    (hd : Documents w is cs us ls ms) (hl : a.length = 2 ∨ a.length = 3) :
    ∃ s, run w ws = .ok (.exit 0 s) ∧
      Looked a (if a.length = 2 then Codes.firstName (fun e => e.alpha2 == a) cs
        else Codes.firstName (fun e => e.alpha3 == a) cs)
        (fun n => Codes.firstName (fun e => w.files.stoul e.numeric == some n) cs)
        txt!"Invalid ISO 3166-1 country code" (.ok s) := by
  obtain ⟨t, ht, c1, c2, c3, -⟩ := tables_say hd
  obtain ⟨s, hs⟩ : C.Safe (decode (w.tables t) w.locals w.help (paddingOf is) a [] .iso3166) := by
    simp only [decode, iso3166]
    split
    · exact ⟨_, rfl⟩
    · exact byCode_safe _ _ _ _
  refine ⟨s, asked h (.inl rfl) ht hs, ?_⟩
  obtain ⟨g1, g2, -⟩ := C100_country (w.tables t) w.locals w.help (paddingOf is) a []
  rw [hs, c1, c3] at g1
  rw [hs, c2, c3] at g2
  split
  · exact g1 (by assumption)
  · exact g2 (by omega)

/-- **C126** (currencies). -/
theorem C126_currency (w : World) (ws : List (List Byte)) (is : List Item) (a : List Byte)
    (h : Asks w.posix ws is .iso4217 a) (cs us ls : List Codes.Entry) (ms : List (Nat × List Byte))
    (hd : Documents w is cs us ls ms) (hl : a.length = 3) :
    ∃ s, run w ws = .ok (.exit 0 s) ∧
      Looked a (Codes.firstName (fun e => e.alpha3 == a) us)
        (fun n => Codes.firstName (fun e => w.files.stoul e.numeric == some n) us)
        txt!"Invalid ISO 4217 currency code" (.ok s) := by
  obtain ⟨t, ht, -, -, -, c1, c2, -⟩ := tables_say hd
  obtain ⟨s, hs⟩ : C.Safe (decode (w.tables t) w.locals w.help (paddingOf is) a [] .iso4217) := by
    simp only [decode, iso4217]
    split
    · exact ⟨_, rfl⟩
    · exact byCode_safe _ _ _ _
  refine ⟨s, asked h (.inr (.inl rfl)) ht hs, ?_⟩
  obtain ⟨g1, -⟩ := C100_currency (w.tables t) w.locals w.help (paddingOf is) a []
  rw [hs, c1, c2] at g1
  exact g1 hl

/-- **C126** (languages). -/
theorem C126_language (w : World) (ws : List (List Byte)) (is : List Item) (a : List Byte)
    (h : Asks w.posix ws is .iso639 a) (cs us ls : List Codes.Entry) (ms : List (Nat × List Byte))
    (hd : Documents w is cs us ls ms) (hl : a.length = 2 ∨ a.length = 3) :
    run w ws = .ok (.exit 0
      (match Codes.firstName (fun e => if a.length = 2 then e.alpha2 == a else e.alpha3 == a) ls with
        | some s => ⟨s ++ txt!"\n", []⟩
        | none => ⟨[], txt!"Unknown\n"⟩)) := by
  obtain ⟨t, ht, -, -, -, -, -, c1, c2, -⟩ := tables_say hd
  refine asked h (.inr (.inr rfl)) ht ?_
  obtain ⟨g1, g2, -⟩ := C100_language (w.tables t) w.locals w.help (paddingOf is) a []
  rw [c1, c2] at g1 g2
  have e : (if a.length = 2 then Codes.firstName (fun e => e.alpha2 == a && e.alpha2 != []) ls
      else Codes.firstName (fun e => e.alpha3 == a) ls) =
      Codes.firstName (fun e => if a.length = 2 then e.alpha2 == a else e.alpha3 == a) ls := by
    by_cases h2 : a.length = 2
    · simp only [h2, if_true]
      congr 1
      funext e
      by_cases h3 : e.alpha2 = a
      · rw [h3]
        have : a ≠ [] := by rintro rfl; simp at h2
        simp [this]
      · simp [h3]
    · simp only [h2, if_false]
  rw [← e]
  rcases hl with h2 | h3
  · rw [if_pos h2]
    cases hf : Codes.firstName (fun e => e.alpha2 == a && e.alpha2 != []) ls with
    | some s => exact g1 s (.inl ⟨h2, hf⟩)
    | none => exact g2 (.inl ⟨h2, hf⟩)
  · rw [if_neg (by omega)]
    cases hf : Codes.firstName (fun e => e.alpha3 == a) ls with
    | some s => exact g1 s (.inr ⟨h3, hf⟩)
    | none => exact g2 (.inr ⟨h3, hf⟩)

/-- **C126** (merchant categories).  The four digits are looked up as a number; of a text of 1024 or more characters
the first 1023 are shown. -/
theorem C126_mcc (w : World) (hw : Fits w) (hsz : Sized w.locals) (hsc : w.scratch.Sized)
    (ws : List (List Byte)) (is : List Item) (a data : List Byte)
    (h : Line w.posix ws is) (hq : ∀ i ∈ is, Quiet i) (hm : modesOf is = [.mcc]) (hi : inputsOf is = [a]) (h0 : a ≠ [])
    (ha : Hex.Writes a data) (cs us ls : List Codes.Entry) (ms : List (Nat × List Byte))
    (hd : Documents w is cs us ls ms) (h2 : data.length = 2) (hf : Formats.IsFormatN data) :
    run w ws = .ok (.exit 0
      (match Codes.lastText (Formats.decNat (Formats.nibbles data)) ms with
        | none | some [] => ⟨[], txt!"Unknown\n"⟩
        | some s => ⟨s.take 1023 ++ txt!"\n", []⟩)) := by
  obtain ⟨t, ht, -, -, -, -, -, -, -, c⟩ := tables_say hd
  have hdec := C125_data w hw ws is h hq .mcc hm (by rintro (h | h | h) <;> cases h) w.input data (by simp [hi])
    (by rw [hi]; exact .hex h0 ha (.nil _ _))
  obtain ⟨-, -, g⟩ := C99_mcc (w.tables t) w.locals w.help (paddingOf is) [] data hsz (tables_sane hsc ht).2.1
  obtain ⟨g1, g2⟩ := g h2 hf
  rw [c] at g1 g2
  refine ((hdec.2.2 0 t ht).2 (by omega)).2 _ ?_ |>.1 rfl
  cases hx : Codes.lastText (Formats.decNat (Formats.nibbles data)) ms with
  | none => exact g2 (.inl hx)
  | some s =>
    cases s with
    | nil => exact g2 (.inr hx)
    | cons b s => exact g1 _ hx (by simp)

/-! ## Runs in a concrete world -/

namespace Sample

/-- A world with one country, currency, language and merchant category. -/
def world : World :=
  { posix := false, help := txt!"HELP", usage := txt!"USAGE", version := txt!"1.2", badOption := txt!"BAD",
    hint := txt!"HINT", input := [0x9F, 0x33, 0x03, 0xE0, 0xF8, 0xC8], files := Codes.Sample.lib,
    scratch := ⟨fun _ => List.replicate 128 7, List.replicate 128 7, fun _ => List.replicate 128 7,
      fun _ => List.replicate 128 7, [7, 7, 7]⟩,
    locals := holding (List.replicate 2048 7), mem := fun n => List.replicate n 7 }

theorem world_fits : Fits world := fun _ => List.length_replicate ..

theorem world_documents : Documents world [.input txt!"NL", .option (.mode .iso3166) none]
    [Codes.Sample.netherlands] [Codes.Sample.euro] [Codes.Sample.dutch] [(5411, txt!"Grocery")] :=
  ⟨txt!"/", Codes.Sample.slash, Codes.Sample.countries, Codes.Sample.currencies, Codes.Sample.languages,
    Codes.Sample.categories, Codes.Sample.numbered1, Codes.Sample.numbered2⟩

end Sample

open Sample

/-- The option may follow the input, and may be abbreviated. -/
example : run world [txt!"NL", txt!"--country"] = .ok (.exit 0 ⟨txt!"Netherlands\n", []⟩) ∧
    run world [txt!"--cou", txt!"528"] = .ok (.exit 0 ⟨txt!"Netherlands\n", []⟩) ∧
    run world [txt!"--country", txt!"XX"] = .ok (.exit 0 ⟨[], txt!"Invalid ISO 3166-1 country code\n"⟩) ∧
    run world [txt!"--c", txt!"NL"] = .ok (.exit 64 ⟨[], txt!"BAD"⟩) := by
  decide +kernel

/-- The hypotheses of `C126_country` are met. -/
example : Asks false [txt!"NL", txt!"--country"] [.input txt!"NL", .option (.mode .iso3166) none] .iso3166 txt!"NL" := by
  refine ⟨.input rfl (.inr (by decide)) (.plain (name := txt!"country") (.inl (by decide +kernel)) (by decide) (by decide) .nil),
    ?_, rfl, rfl⟩
  intro i hi
  simp only [List.mem_cons, List.not_mem_nil, or_false] at hi
  rcases hi with rfl | rfl
  · trivial
  · exact ⟨by simp, by simp, by simp, by simp⟩

/-- Data, from the command line and from standard input; the last input counts. -/
example : run world [txt!"--95", txt!"0000008000"] =
      .ok (.exit 0 ⟨txt!"Transaction exceeds floor limit\n", []⟩) ∧
    run world [txt!"--mcc", txt!"54 11"] = .ok (.exit 0 ⟨txt!"Grocery\n", []⟩) ∧
    run world [txt!"0000", txt!"--mcc", txt!"5411"] = .ok (.exit 0 ⟨txt!"Grocery\n", []⟩) ∧
    run world [txt!"--9F35", txt!"-"] =
      .ok (.exit 0 ⟨[], txt!"EMV Terminal Type (field 9F35) must be exactly 1 byte\n"⟩) := by
  decide +kernel

/-- Inputs that are refused, or that come without an option. -/
example : run world [txt!"--mcc", txt!"5"] =
      .ok (.exit 64 ⟨[], txt!"INPUT must consist of at least 1 byte (thus 2 hex digits)HINT"⟩) ∧
    run world [txt!"--mcc", txt!"541"] = .ok (.exit 64 ⟨[], txt!"INPUT must have even number of hex digitsHINT"⟩) ∧
    run world [txt!"--mcc", txt!"-", txt!"-"] = .ok (.exit 64 ⟨[], txt!"Failed to read INPUT from stdinHINT"⟩) ∧
    run world [txt!"--mcc"] = .ok (.exit 64 ⟨[], txt!"INPUT is missingHINT"⟩) ∧
    run world [txt!"5411"] = .ok (.exit 0 ⟨txt!"HELP", []⟩) ∧
    run world [txt!"XY"] = .ok (.exit 64 ⟨[], txt!"INPUT must consist of hex digitsHINT"⟩) := by
  decide +kernel

/-- Options that end the program. -/
example : run world [txt!"XY", txt!"--mcc", txt!"--version", txt!"--tlv"] = .ok (.exit 0 ⟨txt!"1.2\n", []⟩) ∧
    run world [txt!"--mcc", txt!"--tlv", txt!"--version"] =
      .ok (.exit 64 ⟨[], txt!"Only one decoding OPTION may be specifiedHINT"⟩) ∧
    run world [txt!"--mcc=5411"] = .ok (.exit 64 ⟨[], txt!"BAD"⟩) ∧
    run world [txt!"--mcc-json=none", txt!"--mcc", txt!"5411"] = .ok (.exit 0 ⟨[], txt!"Failed to load iso-codes data or mcc-codes data; currency, country, language or MCC lookups may not be possible\nUnknown\n"⟩) := by
  decide +kernel

/-- The reading of `C125_reading` depends on the environment: with `POSIXLY_CORRECT` the first word that is no option
ends the options, so that a code before its option is taken for data, and the option for another input. -/
theorem C125_posix :
    run { world with posix := true } [txt!"NL", txt!"--country"] =
      .ok (.exit 64 ⟨[], txt!"INPUT must consist of hex digitsHINT"⟩) ∧
    run { world with posix := true } [txt!"0000", txt!"--mcc", txt!"5411"] =
      .ok (.exit 64 ⟨[], txt!"INPUT must consist of hex digitsHINT"⟩) ∧
    run { world with posix := true } [txt!"--country", txt!"NL"] = .ok (.exit 0 ⟨txt!"Netherlands\n", []⟩) := by
  decide +kernel

/-! ## C127: what is undefined -/

/-- **C127, the code is not safe**: an empty path for the tables is undefined behaviour. -/
theorem C127_path (w : World) (a : List Byte) (h : a = txt!"-" ∨ ¬ txt!"-" <+: a) :
    run w [txt!"--country", txt!"--isocodes-path=", a] = .error .oobRead := by
  have hl : Line w.posix [txt!"--country", txt!"--isocodes-path=", a]
      [.option (.mode .iso3166) none, .option .isocodes (some []), .input a] := by
    refine .plain (name := txt!"country") (.inl (by decide +kernel)) (by decide) (by decide)
      (.joined (name := txt!"isocodes-path") (v := []) (.inl (by decide +kernel)) (by decide) (by decide) ?_)
    cases w.posix with
    | true => exact .last [] rfl h
    | false => exact .input rfl h .nil
  rw [run, if_neg (by simp), line_items hl]
  rfl

/-- **C127, the code is not safe**: a character outside of ASCII before any that is neither digit nor space is
undefined behaviour, as for `isxdigit` (C97). -/
theorem C127_letter (w : World) (hw : Fits w) (ws : List (List Byte)) (is : List Item)
    (h : Line w.posix ws is) (hq : ∀ i ∈ is, Quiet i) (hm : (modesOf is).length ≤ 1) (hv : ∀ m ∈ modesOf is, ¬ Verbatim m)
    (a : List Byte) (ha : inputsOf is = [a]) (h2 : 2 ≤ a.length) (hc : ¬ Hex.Clean a) :
    run w ws = .error .oobRead := by
  have hn : ws ≠ [] := line_nil h (by rintro rfl; simp [inputsOf] at ha)
  obtain ⟨s, h1, -, -, -, -, -, -, hs⟩ := all_options (w := w) h hq hm ((inputsOf is).map .input)
  have hv' : ¬ Verbatim s.mode := by
    rw [h1]
    cases hl : (modesOf is).getLast? with
    | none => rintro (h | h | h) <;> cases h
    | some m => exact hv m (List.mem_of_getLast? hl)
  have hi : input w a s = .error .oobRead := by
    rw [input, if_neg (not_verbatim hv'), hexInput, if_neg (by rintro rfl; exact absurd h2 (by decide)), if_neg (by omega),
      Hex.C97_undefined a _ hc (by rw [hw]; omega), bind_error]
  have e : steps w (optionsOf is ++ (inputsOf is).map .input) false (.initial w) = .error .oobRead := by
    rw [hs, ha]
    show steps w [.input a] false s = _
    rw [steps, step, hi, bind_error]
  rw [run, if_neg hn, line_items h, order_eq, e, bind_error]

/-- **C127, the code is not safe**: of Terminal Verification Results without any bit set, an array is shown to which
nothing was written, and there may be no end to it. -/
theorem C127_flags : ∃ loc, Sized loc ∧ run { world with locals := loc } [txt!"--tvr", txt!"0000000000"] =
    .error .oobRead :=
  ⟨holding (List.replicate 2048 7), ⟨by decide +kernel, by decide +kernel, by decide +kernel, by decide +kernel,
    by decide +kernel, by decide +kernel, fun _ _ => List.length_replicate ..⟩, by decide +kernel⟩

/-- The hypotheses of `C127_letter` are met. -/
example : run world [txt!"--mcc", [0xC3, 0xA9]] = .error .oobRead := by decide +kernel

/-- The hypotheses of `C127_safe_partial` are met. -/
example : C.Safe (run world [txt!"--mcc", txt!"5411"]) := by
  refine C127_safe_partial world world_fits ⟨by decide +kernel, by decide +kernel, by decide +kernel, by decide +kernel,
    by decide +kernel, by decide +kernel, fun _ _ => List.length_replicate ..⟩
    ⟨fun _ => List.length_replicate .., List.length_replicate .., fun _ => List.length_replicate ..,
      fun _ => List.length_replicate .., rfl⟩ (by decide +kernel) _ _
    (.plain (name := txt!"mcc") (k := .mode .mcc) (.inl (by decide +kernel)) (by decide) (by decide) (.input rfl (.inr (by decide)) .nil))
    ?_ (by intro p hp; cases hp) ?_
  · intro a ha
    simp only [inputsOf, List.filterMap_cons, List.filterMap_nil, List.mem_cons, List.not_mem_nil, or_false] at ha
    subst ha
    exact foreign_free_clean (by decide +kernel)
  · intro m hm v _
    simp only [modesOf, List.filterMap_cons, List.filterMap_nil, List.mem_cons, List.not_mem_nil, or_false] at hm
    subst hm
    trivial

end Verif.DecodeArgs
