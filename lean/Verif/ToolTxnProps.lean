import Verif.ToolTxn
import Verif.ToolArgsProps
import Verif.FormatsProps
import Verif.AppProps
import Verif.ListsLemmas

/-!
# C109, C111: the terminal data of the tool and the choice of the application
-/

set_option autoImplicit false

namespace Verif.ToolTxn
open Verif Ber BerSpec App Tal Emv Formats

/-! ## C109: terminal data -/

/-- A field of `len` bytes of decimal digits that spell `n`. -/
def Numeric (v : Option (List Byte)) (len n : Nat) : Prop :=
  ∃ b, v = some b ∧ b.length = len ∧ IsFormatN b ∧ decNat (nibbles b) = n

/-- A field of `len` bytes that are the number `n`, most significant first. -/
def Binary (v : Option (List Byte)) (len n : Nat) : Prop :=
  ∃ b, v = some b ∧ b.length = len ∧ beNat b = n

/-- Dates and times as `localtime` gives them. -/
def Valid (tm : Tm) : Prop :=
  tm.mon < 12 ∧ 1 ≤ tm.mday ∧ tm.mday ≤ 31 ∧ tm.hour < 24 ∧ tm.min < 60 ∧ tm.sec ≤ 60

theorem bcd_toNat {t o : Nat} (ht : t ≤ 9) (ho : o ≤ 9) : (bcd t o).toNat = t * 16 + o := by
  unfold bcd
  rw [← Nat.shiftLeft_add_eq_or_of_lt (by omega : o < 2 ^ 4), Nat.shiftLeft_eq, UInt8.toNat_ofNat']
  omega

theorem bcd_three (t1 o1 t2 o2 t3 o3 : Nat) (h : t1 ≤ 9 ∧ o1 ≤ 9 ∧ t2 ≤ 9 ∧ o2 ≤ 9 ∧ t3 ≤ 9 ∧ o3 ≤ 9) :
    Numeric (some [bcd t1 o1, bcd t2 o2, bcd t3 o3]) 3
      ((t1 * 10 + o1) * 10000 + (t2 * 10 + o2) * 100 + (t3 * 10 + o3)) := by
  obtain ⟨h1, h2, h3, h4, h5, h6⟩ := h
  refine ⟨_, rfl, rfl, ?_, ?_⟩
  · simp only [IsFormatN, nibbles, bcd_toNat h1 h2, bcd_toNat h3 h4, bcd_toNat h5 h6, List.mem_cons,
      List.not_mem_nil, or_false]
    omega
  · simp only [nibbles, bcd_toNat h1 h2, bcd_toNat h3 h4, bcd_toNat h5 h6, decNat, List.foldl_cons, List.foldl_nil]
    omega

theorem formatN_spec (value n : Nat) (buf : List Byte) (hn : 0 < n) (hb : n ≤ buf.length) :
    ∃ v buf', formatN value n buf = .ok (v, buf') ∧ buf'.length = buf.length ∧ v.length = n ∧ IsFormatN v ∧
      decNat (nibbles v) = value % 10 ^ (2 * n) := by
  have hl : (buf.take n).length = n := by rw [List.length_take]; omega
  obtain ⟨out, e1, e2, e3, e4⟩ := C09_encode value (buf.take n)
    (by intro e; rw [e] at hl; simp at hl; omega)
  rw [hl] at e2 e4
  refine ⟨out, out ++ buf.drop n, ?_, ?_, e2, e3, e4⟩
  · rw [formatN, e1, bind_ok]
  · rw [List.length_append, List.length_drop]; omega

theorem formatB_spec (value n : Nat) (buf : List Byte) (hn : 0 < n) (hb : n ≤ buf.length) :
    ∃ v buf', formatB value n buf = .ok (v, buf') ∧ buf'.length = buf.length ∧ v.length = n ∧
      beNat v = value % 256 ^ n := by
  have hl : (buf.take n).length = n := by rw [List.length_take]; omega
  obtain ⟨out, e1, e2, e3⟩ := C11_encode value (buf.take n)
    (by intro e; rw [e] at hl; simp at hl; omega)
  rw [hl] at e2 e3
  refine ⟨out, out ++ buf.drop n, ?_, ?_, e2, e3⟩
  · rw [formatB, e1, bind_ok]
  · rw [List.length_append, List.length_drop]; omega

/-- The transaction parameters for these values. -/
structure Params (fs : List Tlv) (tm : Tm) (counter type amount other : Nat) : Prop where
  tags : fs.map (·.tag) = [0x9F41, 0x9A, 0x9F21, 0x5F2A, 0x5F36, 0x9C, 0x9F02, 0x81, 0x9F03, 0x9F04]
  flags : ∀ t ∈ fs, t.flags = 0
  counter : Numeric (field 0x9F41 fs) 4 counter
  date : Numeric (field 0x9A fs) 3 ((1900 + tm.year) % 100 * 10000 + (tm.mon + 1) * 100 + tm.mday)
  time : Numeric (field 0x9F21 fs) 3 (tm.hour * 10000 + tm.min * 100 + tm.sec)
  currency : Numeric (field 0x5F2A fs) 2 978
  exponent : Numeric (field 0x5F36 fs) 1 2
  type : ∃ b : Byte, field 0x9C fs = some [b] ∧ b.toNat = type
  amount : Numeric (field 0x9F02 fs) 6 amount ∧ Binary (field 0x81 fs) 4 amount
  other : Numeric (field 0x9F03 fs) 6 other ∧ Binary (field 0x9F04 fs) 4 other

/-- **C109** (parameters).  Whatever the date, time, type and amounts, the transaction parameters are exactly
these fields, each once: sequence counter, date as YYMMDD, time as HHMMSS, currency 978 with two decimals, type,
and both amounts in decimal and in binary. -/
theorem C109_params (buf : List Byte) (hb : buf.length = 6) (tm : Tm) (htm : Valid tm)
    (counter type amount other : Nat) (hc : counter < 10 ^ 8) (ht : type < 256) (ha : amount < 2 ^ 32)
    (ho : other < 2 ^ 32) :
    ∃ fs, paramFields buf tm counter type amount other = .ok fs ∧ Params fs tm counter type amount other := by
  obtain ⟨v1, b1, e1, l1, n1, f1, d1⟩ := formatN_spec counter 4 buf (by omega) (by omega)
  obtain ⟨v2, b2, e2, l2, n2, f2, d2⟩ := formatN_spec amount 6 b1 (by omega) (by omega)
  obtain ⟨v3, b3, e3, l3, n3, d3⟩ := formatB_spec amount 4 b2 (by omega) (by omega)
  obtain ⟨v4, b4, e4, l4, n4, f4, d4⟩ := formatN_spec other 6 b3 (by omega) (by omega)
  obtain ⟨v5, b5, e5, l5, n5, d5⟩ := formatB_spec other 4 b4 (by omega) (by omega)
  have hp : paramFields buf tm counter type amount other = .ok [⟨0x9F41, 0, v1⟩, ⟨0x9A, 0, dateOf tm⟩,
      ⟨0x9F21, 0, timeOf tm⟩, ⟨0x5F2A, 0, [0x09, 0x78]⟩,
      ⟨0x5F36, 0, [0x02]⟩, ⟨0x9C, 0, [UInt8.ofNat type]⟩, ⟨0x9F02, 0, v2⟩, ⟨0x81, 0, v3⟩, ⟨0x9F03, 0, v4⟩,
      ⟨0x9F04, 0, v5⟩] := by
    unfold paramFields
    rw [e1, bind_ok]
    simp only
    rw [e2, bind_ok]
    simp only
    rw [e3, bind_ok]
    simp only
    rw [e4, bind_ok]
    simp only
    rw [e5, bind_ok]
  obtain ⟨t1, t2, t3, t4, t5, t6⟩ := htm
  refine ⟨_, hp, ?_⟩
  constructor
  · rfl
  · simp
  · exact ⟨v1, rfl, n1, f1, by rw [d1]; exact Nat.mod_eq_of_lt hc⟩
  · have := bcd_three ((tm.year / 10) % 10) (tm.year % 10) ((tm.mon + 1) / 10) ((tm.mon + 1) % 10)
      (tm.mday / 10) (tm.mday % 10) (by omega)
    have e : (1900 + tm.year) % 100 * 10000 + (tm.mon + 1) * 100 + tm.mday =
        (tm.year / 10 % 10 * 10 + tm.year % 10) * 10000 + ((tm.mon + 1) / 10 * 10 + (tm.mon + 1) % 10) * 100 +
        (tm.mday / 10 * 10 + tm.mday % 10) := by omega
    rw [e]
    exact this
  · have := bcd_three (tm.hour / 10) (tm.hour % 10) (tm.min / 10) (tm.min % 10)
      (tm.sec / 10) (tm.sec % 10) (by omega)
    have e : tm.hour * 10000 + tm.min * 100 + tm.sec =
        (tm.hour / 10 * 10 + tm.hour % 10) * 10000 + (tm.min / 10 * 10 + tm.min % 10) * 100 +
        (tm.sec / 10 * 10 + tm.sec % 10) := by omega
    rw [e]
    exact this
  · exact ⟨_, rfl, rfl, by decide, by decide⟩
  · exact ⟨_, rfl, rfl, by decide, by decide⟩
  · exact ⟨_, rfl, by rw [UInt8.toNat_ofNat']; omega⟩
  · exact ⟨⟨v2, rfl, n2, f2, by rw [d2]; exact Nat.mod_eq_of_lt (by omega)⟩,
      ⟨v3, rfl, n3, by rw [d3]; exact Nat.mod_eq_of_lt (by omega)⟩⟩
  · exact ⟨⟨v4, rfl, n4, f4, by rw [d4]; exact Nat.mod_eq_of_lt (by omega)⟩,
      ⟨v5, rfl, n5, by rw [d5]; exact Nat.mod_eq_of_lt (by omega)⟩⟩

/-- 16 November 2026, 11:50:07, 1234 with 99 other. -/
example : Valid ⟨126, 10, 16, 11, 50, 7⟩ ∧ paramFields (List.replicate 6 0xEE) ⟨126, 10, 16, 11, 50, 7⟩ 42 0x09 1234 99 =
    .ok [⟨0x9F41, 0, [0, 0, 0, 0x42]⟩, ⟨0x9A, 0, [0x26, 0x11, 0x16]⟩, ⟨0x9F21, 0, [0x11, 0x50, 0x07]⟩,
      ⟨0x5F2A, 0, [0x09, 0x78]⟩, ⟨0x5F36, 0, [2]⟩, ⟨0x9C, 0, [9]⟩, ⟨0x9F02, 0, [0, 0, 0, 0, 0x12, 0x34]⟩,
      ⟨0x81, 0, [0, 0, 4, 0xD2]⟩, ⟨0x9F03, 0, [0, 0, 0, 0, 0, 0x99]⟩, ⟨0x9F04, 0, [0, 0, 0, 99]⟩] := by
  unfold Valid; decide +kernel

theorem push_sublist (alloc : List Tlv → Tlv → Bool) (fs l : List Tlv) :
    ∃ r, fs.foldl (push alloc) l = l ++ r ∧ r.Sublist fs := by
  induction fs generalizing l with
  | nil => exact ⟨[], by simp, List.Sublist.refl _⟩
  | cons t fs ih =>
    rw [List.foldl_cons, push]
    split
    · obtain ⟨r, h1, h2⟩ := ih (l ++ [t])
      exact ⟨t :: r, by rw [h1]; simp, h2.cons_cons t⟩
    · obtain ⟨r, h1, h2⟩ := ih l
      exact ⟨r, h1, h2.cons t⟩

theorem push_all (fs l : List Tlv) : fs.foldl (push fun _ _ => true) l = l ++ fs := by
  induction fs generalizing l with
  | nil => simp
  | cons t fs ih => rw [List.foldl_cons, push, if_pos rfl, ih]; simp

/-- The terminal configuration: every field, with what it says. -/
def Config (fs : List Tlv) : Prop :=
  fs.map (·.tag) = [0x9F01, 0x9F1A, 0x9F1B, 0x9F16, 0x9F1C, 0x9F1E, 0x9F4E, 0x9F33, 0x9F35, 0x9F40] ∧
  Numeric (field 0x9F01 fs) 6 123456789 ∧ Numeric (field 0x9F1A fs) 2 528 ∧ Binary (field 0x9F1B fs) 4 1000 ∧
  -- ans, padded with spaces to 15 characters
  (∃ v, field 0x9F16 fs = some v ∧ v = txt!"0987654321" ++ List.replicate 5 0x20) ∧
  field 0x9F1C fs = some txt!"TID12345" ∧ field 0x9F1E fs = some txt!"12345678" ∧
  field 0x9F4E fs = some txt!"ACME Peanuts" ∧ Numeric (field 0x9F35 fs) 1 22 ∧
  (∃ a b c : Byte, field 0x9F33 fs = some [a, b, c] ∧
    -- chip with contacts only; every method of verification; SDA, DDA and CDA, no card capture
    a.toNat = 2 ^ 5 ∧ b.toNat = 2 ^ 7 + 2 ^ 6 + 2 ^ 5 + 2 ^ 4 + 2 ^ 3 ∧ c.toNat = 2 ^ 7 + 2 ^ 6 + 2 ^ 3) ∧
  -- every transaction type except administrative and deposit; every key; every print and display, all of ISO 8859
  (∃ a b c d e : Byte, field 0x9F40 fs = some [a, b, c, d, e] ∧ a.toNat = 2 ^ 8 - 1 - 2 ^ 2 - 2 ^ 0 ∧ b.toNat = 0 ∧
    c.toNat = 2 ^ 7 + 2 ^ 6 + 2 ^ 5 + 2 ^ 4 ∧ d.toNat = 2 ^ 7 + 2 ^ 5 + 2 ^ 1 + 2 ^ 0 ∧ e.toNat = 2 ^ 8 - 1)

/-- **C109** (terminal).  Everything the kernel is given: the parameters for the options of the command line and
the sequence counter 42, the configuration, and nothing selected or read yet.  A field for which there is no
memory is left out; the others keep their values and order. -/
theorem C109_load (alloc : List Tlv → Tlv → Bool) (buf : List Byte) (hb : buf.length = 6) (tm : Tm) (htm : Valid tm)
    (o : ToolArgs.Opts) (ht : o.txnType < 256) (ha : o.amount < 2 ^ 32) (ho : o.amountOther < 2 ^ 32) :
    ∃ c ps cfg, load alloc buf tm o = .ok c ∧ Params ps tm 42 o.txnType o.amount o.amountOther ∧ Config cfg ∧
      c.params.Sublist ps ∧ c.config.Sublist cfg ∧ c.selected = none ∧ c.icc = [] ∧ c.terminal = [] ∧
      ((∀ l t, alloc l t = true) → c.params = ps ∧ c.config = cfg) := by
  obtain ⟨ps, e, hp⟩ := C109_params buf hb tm htm 42 o.txnType o.amount o.amountOther (by omega) ht ha ho
  refine ⟨_, ps, configFields, by rw [load, e, bind_ok], hp, ?_, ?_, ?_, rfl, rfl, rfl, ?_⟩
  · refine ⟨rfl, ⟨_, rfl, rfl, by decide, by decide⟩, ⟨_, rfl, rfl, by decide, by decide⟩, ⟨_, rfl, rfl, by decide⟩,
      ⟨_, rfl, by decide⟩, rfl, rfl, rfl, ⟨_, rfl, rfl, by decide, by decide⟩,
      ⟨_, _, _, rfl, by decide, by decide, by decide⟩,
      ⟨_, _, _, _, _, rfl, by decide, by decide, by decide, by decide, by decide⟩⟩
  · obtain ⟨r, h1, h2⟩ := push_sublist alloc ps []
    simp only [h1, List.nil_append]
    exact h2
  · obtain ⟨r, h1, h2⟩ := push_sublist alloc configFields []
    simp only [h1, List.nil_append]
    exact h2
  · intro hal
    have : alloc = fun _ _ => true := by funext l t; exact hal l t
    subst this
    simp only [push_all, List.nil_append]
    trivial

/-- **C109** (applications).  With enough memory, the applications the tool supports are exactly Visa (every AID
that begins with A00000000310), Visa Electron (A0000000032010 only), V Pay (A0000000032020 only), Mastercard
(A00000000410 and longer) and Maestro (A00000000430 and longer).  Without, none is added. -/
theorem C109_supported (alloc : List Tlv → Tlv → Bool) (buf : List Byte) (tm : Tm) (o : ToolArgs.Opts) (c : Ctx)
    (h : load alloc buf tm o = .ok c) (aid : List Byte) :
    ∃ b, isSupported aid c.supported = .ok b ∧
      (b = true → [0xA0, 0, 0, 0, 0x03, 0x10] <+: aid ∨ aid = [0xA0, 0, 0, 0, 0x03, 0x20, 0x10] ∨
        aid = [0xA0, 0, 0, 0, 0x03, 0x20, 0x20] ∨ [0xA0, 0, 0, 0, 0x04, 0x10] <+: aid ∨
        [0xA0, 0, 0, 0, 0x04, 0x30] <+: aid) ∧
      ((∀ l t, alloc l t = true) → [0xA0, 0, 0, 0, 0x03, 0x10] <+: aid ∨ aid = [0xA0, 0, 0, 0, 0x03, 0x20, 0x10] ∨
        aid = [0xA0, 0, 0, 0, 0x03, 0x20, 0x20] ∨ [0xA0, 0, 0, 0, 0x04, 0x10] <+: aid ∨
        [0xA0, 0, 0, 0, 0x04, 0x30] <+: aid → b = true) := by
  have hs : c.supported = supportedFields.foldl (push alloc) [] := by
    unfold load at h
    cases hp : paramFields buf tm 42 o.txnType o.amount o.amountOther with
    | error e => rw [hp] at h; cases h
    | ok ps => rw [hp, bind_ok] at h; cases h; rfl
  have hm : Matches aid supportedFields ↔ ([0xA0, 0, 0, 0, 0x03, 0x10] <+: aid ∨ aid = [0xA0, 0, 0, 0, 0x03, 0x20, 0x10] ∨
        aid = [0xA0, 0, 0, 0, 0x03, 0x20, 0x20] ∨ [0xA0, 0, 0, 0, 0x04, 0x10] <+: aid ∨
        [0xA0, 0, 0, 0, 0x04, 0x30] <+: aid) := by
    constructor
    · rintro ⟨t, ht, hv⟩
      simp only [supportedFields, List.mem_cons, List.not_mem_nil, or_false] at ht
      rcases ht with rfl | rfl | rfl | rfl | rfl <;> simp at hv
      · exact .inl hv
      · exact .inr (.inl hv.symm)
      · exact .inr (.inr (.inl hv.symm))
      · exact .inr (.inr (.inr (.inl hv)))
      · exact .inr (.inr (.inr (.inr hv)))
    · rintro (h | h | h | h | h)
      · exact ⟨_, .head _, .inr ⟨rfl, h⟩⟩
      · exact ⟨_, .tail _ (.head _), .inl ⟨rfl, h.symm⟩⟩
      · exact ⟨_, .tail _ (.tail _ (.head _)), .inl ⟨rfl, h.symm⟩⟩
      · exact ⟨_, .tail _ (.tail _ (.tail _ (.head _))), .inr ⟨rfl, h⟩⟩
      · exact ⟨_, .tail _ (.tail _ (.tail _ (.tail _ (.head _)))), .inr ⟨rfl, h⟩⟩
  obtain ⟨b, hb, hi⟩ := C36_supported_iff aid c.supported
  refine ⟨b, hb, ?_, ?_⟩
  · intro h
    obtain ⟨t, ht, hv⟩ := hi.1 h
    rw [hs] at ht
    obtain ⟨r, h1, h2⟩ := push_sublist alloc supportedFields []
    rw [h1, List.nil_append] at ht
    exact hm.1 ⟨t, h2.mem ht, hv⟩
  · intro hal hA
    have : alloc = fun _ _ => true := by funext l t; exact hal l t
    subst this
    rw [push_all, List.nil_append] at hs
    rw [hs] at hi
    exact hi.2 (hm.2 hA)

/-- Visa is supported, Visa Interlink (A0000000033010) is not. -/
example : (load (fun _ _ => true) (List.replicate 6 0) ⟨126, 10, 16, 11, 50, 7⟩ .init).toOption.map (fun c =>
    ((isSupported [0xA0, 0, 0, 0, 0x03, 0x10, 0x10] c.supported).toOption,
     (isSupported [0xA0, 0, 0, 0, 0x03, 0x30, 0x10] c.supported).toOption)) = some (some true, some false) := by
  decide +kernel

/-- The values of the options are in range. -/
theorem opts_range (o o' : ToolArgs.Opts) (l : List ToolArgs.Opt) (h : ToolArgs.parse o l = .ok (.set o'))
    (ho : o.txnType < 256 ∧ o.amount < 2 ^ 32 ∧ o.amountOther < 2 ^ 32) :
    o'.txnType < 256 ∧ o'.amount < 2 ^ 32 ∧ o'.amountOther < 2 ^ 32 := by
  induction l generalizing o with
  | nil => cases h; exact ho
  | cons a l ih =>
    rw [ToolArgs.parse] at h
    cases ha : ToolArgs.apply o a with
    | error e => rw [ha, bind_error] at h; cases h
    | ok r =>
      rw [ha, bind_ok] at h
      cases r with
      | refused m => cases h
      | version => cases h
      | set o1 =>
        refine ih o1 h ?_
        cases a <;> simp only [ToolArgs.apply] at ha
        case txnType x =>
          simp only [ToolArgs.setType] at ha
          split at ha
          · cases ha
          · split at ha
            · cases ha
            · cases ha; exact ⟨Nat.mod_lt _ (by omega), ho.2⟩
        case amount x =>
          simp only [ToolArgs.setAmount] at ha
          split at ha
          · cases ha
          · split at ha
            · cases ha
            · split at ha
              · cases ha
              · cases ha; exact ⟨ho.1, Nat.lt_of_not_le (by assumption), ho.2.2⟩
        case amountOther x =>
          simp only [ToolArgs.setAmountOther] at ha
          split at ha
          · cases ha
          · split at ha
            · cases ha
            · split at ha
              · cases ha
              · cases ha; exact ⟨ho.1, ho.2.1, Nat.lt_of_not_le (by assumption)⟩
        case sources x =>
          simp only [ToolArgs.setSources] at ha
          cases hs : ToolArgs.sourceLoop (x.length + 1) 0 x with
          | error e => rw [hs, bind_error] at ha; cases ha
          | ok y =>
            rw [hs, bind_ok] at ha
            cases y <;> cases ha
            exact ho
        case level x =>
          simp only [ToolArgs.setLevel] at ha
          split at ha <;> cases ha
          exact ho
        all_goals (cases ha <;> exact ho)

/-- **C109** (command line).  On a command line that is accepted, an amount given in digits that fits 32 bits is
the amount both amount fields have, and a type given in two digits is the one byte of the type field. -/
theorem C109_command_line (l : List ToolArgs.Opt) (o : ToolArgs.Opts)
    (h : ToolArgs.parse .init l = .ok (.set o)) (buf : List Byte) (hb : buf.length = 6) (tm : Tm) (htm : Valid tm) :
    ∃ c, load (fun _ _ => true) buf tm o = .ok c ∧
    (∀ pre post ds vs, l = pre ++ .amount ds :: post → (∀ y, .amount y ∉ post) → ds ≠ [] → ds.map ToolArgs.dec? = vs.map some →
      ToolArgs.ofDigits 10 vs < 2 ^ 32 →
      Numeric (field 0x9F02 c.params) 6 (ToolArgs.ofDigits 10 vs) ∧ Binary (field 0x81 c.params) 4 (ToolArgs.ofDigits 10 vs)) ∧
    (∀ pre post a b d e, l = pre ++ .txnType [a, b] :: post → (∀ y, .txnType y ∉ post) → ToolArgs.dec? a = some d →
      ToolArgs.dec? b = some e → Numeric (field 0x9C c.params) 1 (10 * d + e)) := by
  obtain ⟨r1, r2, r3⟩ := opts_range _ _ l h (by decide)
  obtain ⟨c, ps, cfg, hl, hp, -, -, -, -, -, -, hall⟩ := C109_load (fun _ _ => true) buf hb tm htm o r1 r2 r3
  obtain ⟨rfl, -⟩ := hall fun _ _ => rfl
  obtain ⟨k1, k2, -⟩ := ToolArgs.C108_last .init o l h
  refine ⟨c, hl, ?_, ?_⟩
  · intro pre post ds vs e1 e2 e3 e4 e5
    obtain ⟨p, hp1, hp2⟩ := k2 pre ds post e1 e2
    have := (ToolArgs.C108_amount_digits .init ds vs e3 e4).1
    rw [if_pos e5, hp1] at this
    cases this
    have := hp.amount
    rw [hp2] at this
    exact this
  · intro pre post a b d e e1 e2 e3 e4
    obtain ⟨p, hp1, hp2⟩ := k1 pre _ post e1 e2
    have := ToolArgs.C108_type_digits .init a b d e e3 e4
    rw [hp1] at this
    cases this
    obtain ⟨x, hx1, hx2⟩ := hp.type
    rw [hp2] at hx2
    simp only at hx2
    have hd : ∀ c v, ToolArgs.dec? c = some v → v ≤ 9 := by
      intro c v h
      unfold ToolArgs.dec? at h
      split at h
      · have := Option.some.inj h; omega
      · cases h
    have h1 := hd _ _ e3
    have h2 := hd _ _ e4
    refine ⟨[x], hx1, rfl, ?_, ?_⟩
    · simp only [IsFormatN, nibbles, hx2, List.mem_cons, List.not_mem_nil, or_false]
      omega
    · simp only [nibbles, hx2, decNat, List.foldl_cons, List.foldl_nil]
      omega

example : ToolArgs.parse .init [.amount txt!"1", .txnType txt!"09", .amount txt!"1234"] =
    .ok (.set { ToolArgs.Opts.init with txnType := 9, amount := 1234 }) := rfl

end Verif.ToolTxn
