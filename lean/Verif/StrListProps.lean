import Verif.StrList
import Verif.FormatsProps

/-! # Properties of the string list builders: C49 -/

set_option autoImplicit false

namespace Verif.StrList
open Verif Formats

/-! ## Specification -/

/-- A list of strings as text: each string followed by a newline. -/
def text (ss : List (List Byte)) : List Byte := (ss.map (fun s => s ++ [0x0A])).flatten

/-- The text kept by the first builder in a buffer of `n` bytes: each string is cut to what is
left, and nothing is added once fewer than three bytes are left. -/
def emvText (n : Nat) : List (List Byte) → List Byte → List Byte
  | [], acc => acc
  | s :: ss, acc =>
    if n - acc.length < 3 then emvText n ss acc
    else emvText n ss (acc ++ (s.take (n - acc.length - 2) ++ [0x0A]))

/-- The text kept by the second builder: strings that do not fit are skipped. -/
def isoText (n : Nat) : List (List Byte) → List Byte → List Byte
  | [], acc => acc
  | s :: ss, acc =>
    if s.length + 2 > n - acc.length then isoText n ss acc
    else isoText n ss (acc ++ (s ++ [0x0A]))

/-- The lines the second builder keeps when `u` bytes of `n` are in use: each line which, with its
newline and a terminator, fits behind the ones kept before it. -/
def kept (n : Nat) : List (List Byte) → Nat → List (List Byte)
  | [], _ => []
  | s :: ss, u =>
    if u + s.length + 2 ≤ n then s :: kept n ss (u + s.length + 1) else kept n ss u

/-- The state after some text was written over the previous contents `old`: the text, NUL
terminated, inside the buffer, with the iterator at the terminator. -/
def Holds (old acc : List Byte) (it : Itr) : Prop :=
  acc.length < old.length ∧ it = ⟨strOver acc old, acc.length⟩

/-- The state before any addition. -/
def Start (old : List Byte) (it : Itr) : Prop := it = ⟨old, 0⟩

/-- The buffer is the untouched one, or holds the text. -/
def State (old acc : List Byte) (it : Itr) : Prop :=
  Holds old acc it ∨ (acc = [] ∧ Start old it)

/-! ## One addition -/

theorem state_buf {old acc : List Byte} {it : Itr} (h : State old acc it) :
    it.pos = acc.length ∧ it.buf.length = old.length ∧ acc.length ≤ old.length ∧
    it.len = old.length - acc.length ∧
    ∃ old' : List Byte, old'.length = old.length ∧ old'.drop (acc.length + 1) = old.drop (acc.length + 1) ∧
      it.buf = acc ++ old'.drop acc.length := by
  rcases h with ⟨h1, rfl⟩ | ⟨rfl, rfl⟩
  · refine ⟨rfl, strOver_length _ _ h1, by omega, ?_, ?_⟩
    · simp [Itr.len, strOver_length _ _ h1]
    · refine ⟨strOver acc old, strOver_length _ _ h1, ?_, ?_⟩
      · rw [strOver, List.drop_append]
        simp
      · simp [strOver]
  · refine ⟨rfl, rfl, by simp, by simp [Itr.len], old, rfl, rfl, by simp⟩

theorem finish_spec (old acc s : List Byte) (b : List Byte)
    (h : acc.length + s.length + 1 < old.length)
    (hl : b.length = old.length) (ht : b.take (acc.length + s.length) = acc ++ s)
    (hd : b.drop (acc.length + s.length + 2) = old.drop (acc.length + s.length + 2)) :
    finish b acc.length s.length =
      .ok ⟨strOver (acc ++ (s ++ [0x0A])) old, (acc ++ (s ++ [0x0A])).length⟩ := by
  have hb : b = (acc ++ s) ++ b.drop (acc ++ s).length := by
    conv => lhs; rw [← List.take_append_drop (acc.length + s.length) b, ht]
    simp
  have e1 := wr_over (acc ++ s) b b 0x0A (by simp; omega) hb
  have e2 := wr_over (acc ++ s ++ [0x0A]) ((acc ++ s) ++ 0x0A :: b.drop ((acc ++ s).length + 1)) b 0
    (by simp; omega) (by simp [Nat.add_assoc])
  simp only [List.length_append, List.length_cons, List.length_nil, Nat.zero_add] at e1 e2
  rw [finish, e1, bind_ok, e2, bind_ok, hd]
  simp [strOver, Nat.add_assoc]

/-- One addition to the first builder. -/
theorem emvAdd_spec (old acc s : List Byte) (it : Itr) (h : State old acc it) :
    (old.length - acc.length < 3 → emvAdd (some s) it = .ok it) ∧
    (3 ≤ old.length - acc.length → ∃ it',
      emvAdd (some s) it = .ok it' ∧
      Holds old (acc ++ (s.take (old.length - acc.length - 2) ++ [0x0A])) it') := by
  obtain ⟨hp, hbl, hle, hlen, old', ho1, ho2, hb⟩ := state_buf h
  refine ⟨fun h3 => ?_, fun h3 => ?_⟩
  · rw [emvAdd, if_pos (by omega)]
  · rw [emvAdd, if_neg (by omega)]
    simp only [hlen, hp]
    have ht : s.take (old.length - acc.length - 1 - 1) = s.take (old.length - acc.length - 2) := by
      congr 1
    rw [ht]
    have hsl : (s.take (old.length - acc.length - 2)).length =
        if s.length ≥ old.length - acc.length - 1 then old.length - acc.length - 1 - 1
        else s.length := by
      rw [List.length_take]; split <;> omega
    have htl : (s.take (old.length - acc.length - 2)).length ≤ old.length - acc.length - 2 :=
      List.length_take_le ..
    rw [← hsl]
    generalize s.take (old.length - acc.length - 2) = t at htl ⊢
    have hw := wrs_over acc old' (t ++ [0]) (by simp; omega)
    rw [hb, hw, bind_ok]
    rw [finish_spec old acc t _ (by omega)
      (by simp; omega)
      (by
        have e : acc ++ (t ++ [0]) ++ old'.drop (acc ++ (t ++ [0])).length =
            (acc ++ t) ++ ([0] ++ old'.drop (acc ++ (t ++ [0])).length) := by simp
        rw [e]
        exact List.take_left' (by simp))
      (by
        rw [List.drop_append]
        simp only [List.length_append, List.length_cons, List.length_nil, Nat.zero_add,
          List.drop_drop]
        rw [List.drop_eq_nil_of_le (by simp; omega), List.nil_append]
        have := congrArg (List.drop (t.length + 1)) ho2
        simp only [List.drop_drop] at this
        have e1 : acc.length + (t.length + 1) + (acc.length + t.length + 2 -
          (acc.length + (t.length + 1))) = acc.length + 1 + (t.length + 1) := by omega
        have e2 : acc.length + t.length + 2 = acc.length + 1 + (t.length + 1) := by omega
        rw [e1, e2]
        exact this)]
    refine ⟨_, rfl, ?_, rfl⟩
    simp; omega

/-- One addition to the second builder. -/
theorem isoAdd_spec (old acc s : List Byte) (it : Itr) (h : State old acc it) :
    (old.length - acc.length < s.length + 2 → isoAdd s it = .ok it) ∧
    (s.length + 2 ≤ old.length - acc.length → ∃ it',
      isoAdd s it = .ok it' ∧ Holds old (acc ++ (s ++ [0x0A])) it') := by
  obtain ⟨hp, hbl, hle, hlen, old', ho1, ho2, hb⟩ := state_buf h
  refine ⟨fun h3 => ?_, fun h3 => ?_⟩
  · rw [isoAdd, if_pos (by omega)]
  · rw [isoAdd, if_neg (by omega)]
    simp only [hp]
    have hw := wrs_over acc old' s (by omega)
    rw [hb, hw, bind_ok]
    rw [finish_spec old acc s _ (by omega) (by simp; omega)
      (List.take_left' (by simp))
      (by
        rw [List.drop_append]
        simp only [List.length_append, List.drop_drop]
        rw [List.drop_eq_nil_of_le (by simp), List.nil_append]
        have := congrArg (List.drop (s.length + 1)) ho2
        simp only [List.drop_drop] at this
        have e1 : acc.length + s.length + (acc.length + s.length + 2 -
          (acc.length + s.length)) = acc.length + 1 + (s.length + 1) := by omega
        have e2 : acc.length + s.length + 2 = acc.length + 1 + (s.length + 1) := by omega
        rw [e1, e2]
        exact this)]
    refine ⟨_, rfl, ?_, rfl⟩
    simp; omega

/-! ## Any sequence of additions -/

theorem emv_all (old : List Byte) : ∀ (ss : List (List Byte)) (acc : List Byte) (it : Itr),
    State old acc it → ∃ it', addAll (fun s => emvAdd (some s)) ss it = .ok it' ∧
      State old (emvText old.length ss acc) it' := by
  intro ss
  induction ss with
  | nil => intro acc it h; exact ⟨it, rfl, h⟩
  | cons s ss ih =>
    intro acc it h
    obtain ⟨h1, h2⟩ := emvAdd_spec old acc s it h
    rw [addAll, emvText]
    by_cases h3 : old.length - acc.length < 3
    · rw [h1 h3, bind_ok, if_pos h3]
      exact ih acc it h
    · obtain ⟨it', e, hh⟩ := h2 (by omega)
      rw [e, bind_ok, if_neg h3]
      exact ih _ it' (.inl hh)

theorem iso_all (old : List Byte) : ∀ (ss : List (List Byte)) (acc : List Byte) (it : Itr),
    State old acc it → (acc = [] → it.buf = old) → ∃ it', addAll isoAdd ss it = .ok it' ∧
      State old (isoText old.length ss acc) it' ∧
      (isoText old.length ss acc = [] → it'.buf = old) := by
  intro ss
  induction ss with
  | nil => intro acc it h h0; exact ⟨it, rfl, h, h0⟩
  | cons s ss ih =>
    intro acc it h h0
    obtain ⟨h1, h2⟩ := isoAdd_spec old acc s it h
    rw [addAll, isoText]
    by_cases h3 : s.length + 2 > old.length - acc.length
    · rw [h1 h3, bind_ok, if_pos h3]
      exact ih acc it h h0
    · obtain ⟨it', e, hh⟩ := h2 (by omega)
      rw [e, bind_ok, if_neg h3]
      exact ih _ it' (.inl hh) (fun h => absurd h (by simp))

theorem isoText_kept (n : Nat) : ∀ (ss : List (List Byte)) (acc : List Byte),
    isoText n ss acc = acc ++ text (kept n ss acc.length) := by
  intro ss
  induction ss with
  | nil => intro acc; simp [isoText, kept, text]
  | cons s ss ih =>
    intro acc
    rw [isoText, kept]
    by_cases h : acc.length + s.length + 2 ≤ n
    · rw [if_neg (by omega), if_pos h, ih]
      simp [text, Nat.add_assoc]
    · rw [if_pos (by omega), if_neg h, ih]

theorem text_nil {ss : List (List Byte)} : text ss = [] ↔ ss = [] := by
  cases ss <;> simp [text]

theorem emvText_fits (n : Nat) : ∀ (ss : List (List Byte)) (acc : List Byte),
    (∀ s ∈ ss, s ≠ []) → (acc ++ text ss).length < n → emvText n ss acc = acc ++ text ss := by
  intro ss
  induction ss with
  | nil => intro acc _ _; simp [emvText, text]
  | cons s ss ih =>
    intro acc hne hf
    have hs : 0 < s.length := List.length_pos_iff.2 (hne s (by simp))
    have ht : text (s :: ss) = s ++ [0x0A] ++ text ss := by simp [text]
    rw [ht] at hf ⊢
    simp only [List.length_append, List.length_cons, List.length_nil] at hf
    rw [emvText, if_neg (by omega), List.take_of_length_le (by omega),
      ih _ (fun x hx => hne x (by simp [hx])) (by simp; omega)]
    simp

theorem isoText_fits (n : Nat) : ∀ (ss : List (List Byte)) (acc : List Byte),
    (acc ++ text ss).length < n → isoText n ss acc = acc ++ text ss := by
  intro ss
  induction ss with
  | nil => intro acc _; simp [isoText, text]
  | cons s ss ih =>
    intro acc hf
    have ht : text (s :: ss) = s ++ [0x0A] ++ text ss := by simp [text]
    rw [ht] at hf ⊢
    simp only [List.length_append, List.length_cons, List.length_nil] at hf
    rw [isoText, if_neg (by omega), ih _ (by simp; omega)]
    simp

theorem emvText_full (n : Nat) (acc : List Byte) (h : n - acc.length < 3) :
    ∀ ss, emvText n ss acc = acc := by
  intro ss
  induction ss with
  | nil => rfl
  | cons s ss ih => rw [emvText, if_pos h, ih]

/-- **C49** (safety and termination, first builder).  Any sequence of additions to a buffer
stays inside it.  Afterwards the buffer holds a text, NUL terminated, or (when it has fewer
than three bytes, or nothing was added) was not touched. -/
theorem C49_safe (buf : List Byte) (ss : List (List Byte)) :
    ∃ it, addAll (fun s => emvAdd (some s)) ss (init buf) = .ok it ∧
      (3 ≤ buf.length → ss ≠ [] →
        it.buf = strOver (emvText buf.length ss []) buf ∧
        (emvText buf.length ss []).length < buf.length) ∧
      (buf.length < 3 ∨ ss = [] → it.buf = buf) := by
  obtain ⟨it, e, hst⟩ := emv_all buf ss [] (init buf) (.inr ⟨rfl, rfl⟩)
  refine ⟨it, e, fun h3 hne => ?_, fun h => ?_⟩
  · obtain ⟨s, ss', rfl⟩ := List.exists_cons_of_ne_nil hne
    obtain ⟨it1, e1, hh⟩ := (emvAdd_spec buf [] s (init buf) (.inr ⟨rfl, rfl⟩)).2 (by simpa using h3)
    rw [addAll, e1, bind_ok] at e
    rw [emvText, if_neg (by simp; omega)] at hst ⊢
    rcases hst with ⟨hl, rfl⟩ | ⟨he, -⟩
    · exact ⟨rfl, hl⟩
    · exfalso
      have : ∀ (ss : List (List Byte)) (acc : List Byte), acc ≠ [] →
          emvText buf.length ss acc ≠ [] := by
        intro ss
        induction ss with
        | nil => intro acc h; exact h
        | cons x ss ih =>
          intro acc h
          rw [emvText]
          split
          · exact ih acc h
          · exact ih _ (by simp)
      exact this ss' _ (by simp) he
  · rcases h with h | rfl
    · have : emvText buf.length ss [] = [] := emvText_full _ _ (by simpa using h) ss
      rw [this] at hst
      rcases hst with ⟨hl, rfl⟩ | ⟨-, rfl⟩
      · -- an empty text cannot have been written
        have hnoop : ∀ ss, addAll (fun s => emvAdd (some s)) ss (init buf) = .ok (init buf) := by
          intro ss
          induction ss with
          | nil => rfl
          | cons x ss ih =>
            rw [addAll, emvAdd, if_pos (by simpa [Itr.len, init] using h), bind_ok, ih]
        rw [hnoop] at e
        injection e with e
        rw [← e]; rfl
      · rfl
    · rw [addAll] at e
      injection e with e
      rw [← e]; rfl

/-- **C49** (partial, first builder: for non-empty strings; an empty string needs one byte more
than its newline and terminator, `C49_empty_string_skipped`).  Everything that fits is kept
exactly. -/
theorem C49_exact_partial (buf : List Byte) (ss : List (List Byte)) (hne : ∀ s ∈ ss, s ≠ [])
    (h0 : ss ≠ []) (hfit : (text ss).length < buf.length) :
    ∃ it, addAll (fun s => emvAdd (some s)) ss (init buf) = .ok it ∧
      it.buf = strOver (text ss) buf := by
  obtain ⟨it, e, h1, -⟩ := C49_safe buf ss
  refine ⟨it, e, ?_⟩
  have h3 : 3 ≤ buf.length := by
    obtain ⟨s, ss', rfl⟩ := List.exists_cons_of_ne_nil h0
    have : 0 < s.length := List.length_pos_iff.2 (hne s (by simp))
    simp [text] at hfit
    omega
  rw [(h1 h3 h0).1, emvText_fits _ ss [] hne (by simpa using hfit)]
  simp

/-- **C49** (first builder, overflow).  The first string which does not fit is cut to the space
left for it (at least one character is kept, then newline and terminator fill the buffer), and
whatever is added after it changes nothing. -/
theorem C49_truncated (buf : List Byte) (ss : List (List Byte)) (s : List Byte)
    (rest : List (List Byte)) (hne : ∀ x ∈ ss, x ≠ [])
    (h3 : (text ss).length + 3 ≤ buf.length) (hno : buf.length < (text ss).length + s.length + 2) :
    ∃ it, addAll (fun s => emvAdd (some s)) (ss ++ s :: rest) (init buf) = .ok it ∧
      it.buf = text ss ++ s.take (buf.length - (text ss).length - 2) ++ [0x0A, 0] := by
  obtain ⟨it, e, h1, -⟩ := C49_safe buf (ss ++ s :: rest)
  refine ⟨it, e, ?_⟩
  rw [(h1 (by omega) (by simp)).1]
  have happ : ∀ (a b : List (List Byte)) (acc : List Byte),
      emvText buf.length (a ++ b) acc = emvText buf.length b (emvText buf.length a acc) := by
    intro a
    induction a with
    | nil => intro b acc; rfl
    | cons x a ih =>
      intro b acc
      rw [List.cons_append, emvText, emvText]
      split <;> exact ih b _
  rw [happ, emvText_fits _ ss [] hne (by simp; omega), emvText, if_neg (by simp; omega)]
  have hl : (s.take (buf.length - (text ss).length - 2)).length =
      buf.length - (text ss).length - 2 := by
    rw [List.length_take]; omega
  rw [emvText_full _ _ (by simp; omega)]
  simp only [List.nil_append, strOver, List.append_assoc, List.append_cancel_left_eq,
    List.cons_append, List.cons.injEq, true_and]
  apply List.drop_eq_nil_of_le
  simp
  omega

/-- **C49** (first builder): a full list is not changed by further additions. -/
theorem C49_full_unchanged (it : Itr) (s : List Byte) (h : it.len < 3) :
    emvAdd (some s) it = .ok it := by
  rw [emvAdd, if_pos h]

/-- **C49 fails** for empty strings: one which fits exactly is dropped. -/
theorem C49_empty_string_skipped : ∃ buf ss, (text ss).length < buf.length ∧
    ∃ it, addAll (fun s => emvAdd (some s)) ss (init buf) = .ok it ∧
      it.buf ≠ strOver (text ss) buf :=
  ⟨[9, 9], [[]], by decide, ⟨[9, 9], 0⟩, by decide, by decide⟩

/-- **C49 fails** for buffers of one or two bytes: the caller's buffer is left as it was, so
without a terminator. -/
theorem C49_not_terminated (a b : Byte) (ss : List (List Byte)) :
    addAll (fun s => emvAdd (some s)) ss (init [a, b]) = .ok ⟨[a, b], 0⟩ := by
  induction ss with
  | nil => rfl
  | cons s ss ih =>
    rw [addAll, emvAdd, if_pos (by simp [Itr.len, init]), bind_ok]
    exact ih

/-- **C49** (second builder).  Any sequence of additions stays inside the buffer; afterwards
the buffer holds, NUL terminated, exactly the strings that fitted when they were added, or was
not touched because none of them did. -/
theorem C49_iso_safe (buf : List Byte) (ss : List (List Byte)) :
    ∃ it, addAll isoAdd ss (init buf) = .ok it ∧
      (kept buf.length ss 0 = [] → it.buf = buf) ∧
      (kept buf.length ss 0 ≠ [] → it.buf = strOver (text (kept buf.length ss 0)) buf ∧
        (text (kept buf.length ss 0)).length < buf.length) := by
  obtain ⟨it, e, hst, h0⟩ := iso_all buf ss [] (init buf) (.inr ⟨rfl, rfl⟩) (fun _ => rfl)
  have hk := isoText_kept buf.length ss []
  simp only [List.nil_append, List.length_nil] at hk
  rw [hk] at hst h0
  refine ⟨it, e, fun h => h0 (text_nil.2 h), fun h => ?_⟩
  rcases hst with ⟨hl, rfl⟩ | ⟨he, rfl⟩
  · exact ⟨rfl, hl⟩
  · exact absurd (text_nil.1 he) h

theorem kept_all (n : Nat) : ∀ (ss : List (List Byte)) (u : Nat),
    u + (text ss).length < n → kept n ss u = ss := by
  intro ss
  induction ss with
  | nil => intro u _; rfl
  | cons s ss ih =>
    intro u h
    have ht : text (s :: ss) = s ++ [0x0A] ++ text ss := by simp [text]
    simp only [ht, List.length_append, List.length_cons, List.length_nil] at h
    rw [kept, if_pos (by omega), ih _ (by omega)]

/-- **C49** (second builder, exactness).  Everything that fits is kept exactly. -/
theorem C49_iso_exact (buf : List Byte) (ss : List (List Byte)) (h0 : ss ≠ [])
    (hfit : (text ss).length < buf.length) :
    ∃ it, addAll isoAdd ss (init buf) = .ok it ∧ it.buf = strOver (text ss) buf := by
  obtain ⟨it, e, -, h1⟩ := C49_iso_safe buf ss
  rw [kept_all _ _ _ (by omega)] at h1
  exact ⟨it, e, (h1 h0).1⟩

/-- **C49** (second builder, overflow).  A string which does not fit leaves the list as it
was. -/
theorem C49_iso_unchanged (it : Itr) (s : List Byte) (h : it.len < s.length + 2) :
    isoAdd s it = .ok it := by
  rw [isoAdd, if_pos h]

example : addAll (fun s => emvAdd (some s)) [[0x41, 0x42], [0x43]] (init (List.replicate 7 9)) =
    .ok ⟨[0x41, 0x42, 0x0A, 0x43, 0x0A, 0, 9], 5⟩ := by decide
example : addAll (fun s => emvAdd (some s)) [[0x41, 0x42], [0x43, 0x44, 0x45], [0x46]]
    (init (List.replicate 7 9)) = .ok ⟨[0x41, 0x42, 0x0A, 0x43, 0x44, 0x0A, 0], 6⟩ := by decide
example : addAll isoAdd [[0x41, 0x42], [0x43, 0x44, 0x45], [0x46]] (init (List.replicate 6 9)) =
    .ok ⟨[0x41, 0x42, 0x0A, 0x46, 0x0A, 0], 5⟩ := by decide

end Verif.StrList
