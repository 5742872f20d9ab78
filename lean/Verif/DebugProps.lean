import Verif.Debug
import Verif.PrintEventProps

/-! # Times and delivery of debug events (C139) -/

set_option autoImplicit false

namespace Verif.Debug
open Verif

/-! ## Specification -/

/-- A time of the clock: seconds before the year 292000 and nanoseconds. -/
def Clock (sec nsec : Int) : Prop :=
  0 ≤ sec ∧ sec < 9223372036854 ∧ 0 ≤ nsec ∧ nsec < 1000000000

/-- The microseconds of a time. -/
def micros (sec nsec : Int) : Nat := ((sec * 1000000000 + nsec) / 1000).toNat

/-- The event can be emitted: the time is one, the array has its size, and the text is a string. -/
structure Event.Sane (e : Event) : Prop where
  clock : Clock e.sec e.nsec
  size : e.str.length = 1024
  text : ∀ b ∈ e.text, b ≠ 0

/-- What the last initialisation among `ops` asked for; without one, `s`. -/
def latest (s : State) (ops : List Op) : State :=
  ((ops.filterMap fun
    | .init m l f => some ⟨m, l, f⟩
    | .emit _ => none).getLast?).getD s

/-- The call for an event: none if no function is set, the source is not selected, or the level
is above the one asked for. -/
inductive Told (s : State) (e : Event) : List Call → Prop
  | silent (h : s.func = none ∨ (∀ k, ¬ (s.mask.testBit k = true ∧ e.source.testBit k = true)) ∨
      s.level < e.level) : Told s e []
  | call (f k : Nat) (hf : s.func = some f) (hm : s.mask.testBit k = true)
      (hs : e.source.testBit k = true) (hl : e.level ≤ s.level) :
      Told s e [⟨f, micros e.sec e.nsec % 2 ^ 32, e.source, e.level, e.kind, e.text.take 1023,
        e.data⟩]

/-! ## Times -/

/-- The time of an event is that of the clock in microseconds, modulo 2^32. -/
theorem C139_time (sec nsec : Int) (h : Clock sec nsec) :
    timestamp sec nsec = .ok (micros sec nsec % 2 ^ 32) := by
  obtain ⟨h1, h2, h3, h4⟩ := h
  unfold timestamp micros
  have hd : Int.tdiv nsec 1000 = nsec / 1000 := Int.tdiv_eq_ediv_of_nonneg h3
  simp only [hd]
  rw [if_neg (by omega), if_neg (by omega)]
  congr 1
  omega

example : Clock 1700000000 123456789 ∧ timestamp 1700000000 123456789 = .ok 404759104 := by
  exact ⟨by unfold Clock; omega, by decide +kernel⟩

/-- Times of which the product does not fit are undefined. -/
theorem C139_far (sec nsec : Int) (h : 9223372036855 ≤ sec) :
    timestamp sec nsec = .error .overflow := by
  unfold timestamp
  rw [if_pos (by omega)]

/-- The time between two events less than 2^32 microseconds (71 minutes) apart is the difference
of their times modulo 2^32. -/
theorem C139_elapsed (s1 n1 s2 n2 : Int) (h1 : Clock s1 n1) (h2 : Clock s2 n2) (t1 t2 : Nat)
    (e1 : timestamp s1 n1 = .ok t1) (e2 : timestamp s2 n2 = .ok t2)
    (hle : micros s1 n1 ≤ micros s2 n2) (hlt : micros s2 n2 - micros s1 n1 < 2 ^ 32) :
    (t2 + 2 ^ 32 - t1) % 2 ^ 32 = micros s2 n2 - micros s1 n1 := by
  rw [C139_time _ _ h1] at e1
  rw [C139_time _ _ h2] at e2
  cases e1
  cases e2
  omega

/-- Later events have later times as long as no multiple of 2^32 microseconds is between them. -/
theorem C139_order_partial (s1 n1 s2 n2 : Int) (h1 : Clock s1 n1) (h2 : Clock s2 n2)
    (t1 t2 : Nat) (e1 : timestamp s1 n1 = .ok t1) (e2 : timestamp s2 n2 = .ok t2)
    (hle : micros s1 n1 ≤ micros s2 n2)
    (hw : micros s1 n1 / 2 ^ 32 = micros s2 n2 / 2 ^ 32) : t1 ≤ t2 := by
  rw [C139_time _ _ h1] at e1
  rw [C139_time _ _ h2] at e2
  cases e1
  cases e2
  omega

/-- A later event may have an earlier time. -/
theorem C139_wraps : ¬ ∀ (s1 n1 s2 n2 : Int) (t1 t2 : Nat), Clock s1 n1 → Clock s2 n2 →
    micros s1 n1 ≤ micros s2 n2 → timestamp s1 n1 = .ok t1 → timestamp s2 n2 = .ok t2 →
    t1 ≤ t2 := by
  intro h
  exact absurd (h 4294 967295000 4294 967296000 4294967295 0 (by unfold Clock; omega)
    (by unfold Clock; omega) (by decide) (by decide +kernel) (by decide +kernel)) (by decide)

example : ∃ t1 t2, timestamp 4294 967295000 = .ok t1 ∧ timestamp 4295 0 = .ok t2 ∧
    (t2 + 2 ^ 32 - t1) % 2 ^ 32 = 32705 ∧ t2 < t1 := ⟨_, _, rfl, rfl, by decide +kernel⟩

/-- A time is printed with exactly ten digits. -/
theorem C139_width (n : Nat) (h : n < 2 ^ 32) : (PrintCard.padded n).length = 10 := by
  have : (Lists.decimal n).length ≤ 10 :=
    Lists.decimal_length n h
  simp only [PrintCard.padded, List.length_append, List.length_replicate]
  omega

/-! ## Delivery -/

theorem internal_told (s : State) (e : Event) (he : e.Sane) :
    ∃ l, internal s e = .ok l ∧ Told s e l := by
  unfold internal
  have hd := PrintCard.C96_delivery ⟨s.mask, s.level, true⟩ e.source e.level
  unfold PrintCard.delivered at hd
  cases hf : s.func with
  | none => exact ⟨[], rfl, .silent (Or.inl hf)⟩
  | some f =>
    simp only
    by_cases hm : s.mask &&& e.source = 0
    · rw [if_pos hm]
      refine ⟨[], rfl, .silent (Or.inr (Or.inl ?_))⟩
      intro k hk
      by_cases hl : e.level ≤ s.level
      · have := hd.mpr ⟨rfl, ⟨k, hk⟩, hl⟩
        simp [hm] at this
      · have := congrArg (fun n => n.testBit k) hm
        simp [hk.1, hk.2] at this
    · rw [if_neg hm]
      by_cases hl : e.level > s.level
      · rw [if_pos hl]
        exact ⟨[], rfl, .silent (Or.inr (Or.inr hl))⟩
      · rw [if_neg hl]
        obtain ⟨_, ⟨k, hk1, hk2⟩, _⟩ := hd.mp (by simp [hm]; omega)
        rw [PrintCard.C96_text _ _ he.size he.text, bind_ok, C139_time _ _ he.clock, bind_ok]
        exact ⟨_, rfl, .call f k hf hk1 hk2 (by omega)⟩

theorem latest_init (s : State) (m l : Nat) (f : Option Nat) (ops : List Op) :
    latest s (.init m l f :: ops) = latest ⟨m, l, f⟩ ops := by
  unfold latest
  simp only [List.filterMap_cons]
  cases h : (ops.filterMap fun
    | Op.init m l f => some (⟨m, l, f⟩ : State)
    | .emit _ => none) with
  | nil => rfl
  | cons a t => simp [List.getLast?_cons]

theorem latest_emit (s : State) (e : Event) (ops : List Op) :
    latest s (.emit e :: ops) = latest s ops := rfl

/-- The calls in a run of a program: for every event, in order, the call that the last
initialisation before it asks for. -/
inductive Calls (s : State) : List Op → List Op → List Call → Prop
  | done (pre : List Op) : Calls s pre [] []
  | init (pre ops : List Op) (m l : Nat) (f : Option Nat) (calls : List Call)
      (h : Calls s (pre ++ [.init m l f]) ops calls) : Calls s pre (.init m l f :: ops) calls
  | emit (pre ops : List Op) (e : Event) (new calls : List Call)
      (hn : Told (latest s pre) e new) (h : Calls s (pre ++ [.emit e]) ops calls) :
      Calls s pre (.emit e :: ops) (new ++ calls)

theorem latest_append (s : State) : ∀ (pre : List Op) (op : List Op),
    latest s (pre ++ op) = latest (latest s pre) op
  | [], op => by simp [latest]
  | .init m l f :: pre, op => by
    rw [List.cons_append, latest_init, latest_init, latest_append]
  | .emit e :: pre, op => by
    rw [List.cons_append, latest_emit, latest_emit, latest_append]

theorem run_calls (s : State) : ∀ (ops pre : List Op), (∀ e, .emit e ∈ ops → e.Sane) →
    ∃ calls, run (latest s pre) ops = .ok calls ∧ Calls s pre ops calls
  | [], pre, _ => ⟨[], rfl, .done pre⟩
  | .init m l f :: ops, pre, h => by
    obtain ⟨calls, hr, hc⟩ := run_calls s ops (pre ++ [.init m l f])
      (fun e he => h e (by simp [he]))
    refine ⟨calls, ?_, .init _ _ _ _ _ _ hc⟩
    rw [latest_append] at hr
    exact hr
  | .emit e :: ops, pre, h => by
    obtain ⟨calls, hr, hc⟩ := run_calls s ops (pre ++ [.emit e])
      (fun e he => h e (by simp [he]))
    obtain ⟨new, hn, ht⟩ := internal_told (latest s pre) e (h e (by simp))
    rw [latest_append] at hr
    refine ⟨new ++ calls, ?_, .emit _ _ _ _ _ ht hc⟩
    rw [run, hn, bind_ok, show run (latest s pre) ops = _ from hr, bind_ok]

/-- Every program is told exactly the events it asked for by its last initialisation, in their
order, with their time, source, level, type, text and data. -/
theorem C139_calls (ops : List Op) (h : ∀ e, .emit e ∈ ops → e.Sane) :
    ∃ calls, run State.start ops = .ok calls ∧ Calls State.start [] ops calls :=
  run_calls State.start ops [] h

/-- Before the first initialisation, and after one without function, nothing is called. -/
theorem C139_silent (s : State) (hs : s.func = none) : ∀ (ops : List Op),
    (∀ m l f, .init m l f ∈ ops → f = none) → run s ops = .ok []
  | [], _ => rfl
  | .init m l f :: ops, h => by
    rw [run]
    exact C139_silent _ (h m l f (by simp)) ops (fun m l f hm => h m l f (by simp [hm]))
  | .emit e :: ops, h => by
    rw [run, C139_silent s hs ops (fun m l f hm => h m l f (by simp [hm]))]
    unfold internal
    rw [hs]
    rfl

/-- Two initialisations: the second selects another source and function. -/
example : run State.start
    [.emit ⟨2, 1, 1, txt!"lost", [], 0, 0, List.replicate 1024 7⟩, .init 2 2 (some 1),
      .emit ⟨2, 1, 1, txt!"first", [], 0, 5000, List.replicate 1024 7⟩,
      .emit ⟨2, 3, 1, txt!"card", [], 0, 0, List.replicate 1024 7⟩, .init 4 3 (some 9),
      .emit ⟨2, 1, 1, txt!"other", [], 0, 0, List.replicate 1024 7⟩,
      .emit ⟨4, 3, 2, txt!"second", [1, 2], 1, 0, List.replicate 1024 7⟩] =
    .ok [⟨1, 5, 2, 1, 1, txt!"first", []⟩, ⟨9, 1000000, 4, 3, 2, txt!"second", [1, 2]⟩] := by
  decide +kernel

end Verif.Debug
