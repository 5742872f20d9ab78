import Verif.PrintCardProps
import Verif.PrintEmvProps

/-! # Properties of the listings of APDUs, applications and events: C96 -/

set_option autoImplicit false

namespace Verif.PrintCard
open Verif Formats Lists IsoStr PrintCardSpec

/-! ## Specification -/

/-- A text in parentheses after a space, when there is one. -/
def remark : List Byte → List Byte
  | [] => []
  | t => txt!" (" ++ t ++ txt!")"

/-- The listing of a response. -/
def rapduText (v : List Byte) : List Byte :=
  match v.reverse with
  | [] => txt!"(null)" ++ [0x0A]
  | [b] => hexOf [b] ++ [0x0A]
  | sw2 :: sw1 :: _ => hexOf v ++ remark (swWords (swNum sw1 sw2)) ++ [0x0A]

/-- The names of event sources. -/
def sources : List (Nat × List Byte) :=
  [(1, txt!"TTL"), (2, txt!"TAL"), (4, txt!"EMV"), (8, txt!"APP")]

/-- The names of event levels. -/
def levels : List (Nat × List Byte) :=
  [(1, txt!"ERROR"), (2, txt!"INFO"), (3, txt!"CARD"), (4, txt!"TRACE")]

/-- A number in decimal with at least ten digits. -/
def padded (n : Nat) : List Byte := List.replicate (10 - (decimal n).length) 0x30 ++ decimal n

/-! ## C96: APDUs and applications -/

theorem words_ne (n : Nat) : swWords n ≠ [] := by
  have : ∀ k : Kind, kindText k ≠ [] := by intro k; cases k <;> decide
  intro h
  exact this _ (List.append_eq_nil_iff.mp h).1

/-- **C96** (responses).  Every response is listed in hexadecimal, with the words for its status word
when it has one, whatever the local array holds. -/
theorem C96_response (loc v : List Byte) (hl : loc.length = 1024) :
    rapdu loc v = .ok (rapduText v) := by
  by_cases h0 : v = []
  · subst h0; rfl
  by_cases h1 : v.length = 1
  · match v, h1 with
    | [b], _ => rw [rapdu, if_neg (by simp), if_pos (by simp), hexes_eq]; rfl
  have h2 : 2 ≤ v.length := by have := List.length_pos_iff.mpr h0; omega
  have hr : ∃ sw2 sw1 r, v.reverse = sw2 :: sw1 :: r := by
    match hv : v.reverse with
    | [] => exact absurd (List.reverse_eq_nil_iff.mp hv) h0
    | [b] => have := congrArg List.length hv; simp at this; omega
    | a :: b :: r => exact ⟨a, b, r, rfl⟩
  obtain ⟨sw2, sw1, r, hr⟩ := hr
  have hv : v = r.reverse ++ [sw1, sw2] := by
    have := congrArg List.reverse hr
    simpa using this
  have r1 : rd v (v.length - 2) = .ok sw1 := by
    rw [rd_eq (by omega)]
    congr 1
    simp [hv]
  have r2 : rd v (v.length - 1) = .ok sw2 := by
    rw [rd_eq (by omega)]
    congr 1
    simp [hv]
  obtain ⟨s, e1, e2⟩ := sw_ok sw1 sw2 loc hl
  have hne := words_ne (swNum sw1 sw2)
  rw [rapdu, if_neg (by omega), if_neg (by omega), r1, bind_ok, r2, bind_ok, e1, bind_ok]
  simp only [if_true]
  rw [e2, bind_ok, if_neg hne, rapduText, hr, hexes_eq]
  cases hw : swWords (swNum sw1 sw2) with
  | nil => exact absurd hw hne
  | cons a b => simp [remark, hw]

example : rapdu (List.replicate 1024 0x55) [0x6A, 0x82] =
    .ok (txt!"6A82 (Checking error: File or application not found)" ++ [0x0A]) ∧
    rapdu (List.replicate 1024 0x55) [0x70] = .ok (txt!"70" ++ [0x0A]) := by
  constructor <;> rw [C96_response _ _ (List.length_replicate ..)] <;>
    exact congrArg Except.ok (by decide +kernel)

/-- **C96** (status words).  Every status word is listed with its words. -/
theorem C96_status (loc : List Byte) (sw1 sw2 : Byte) (hl : loc.length = 1024) :
    sw1sw2 loc sw1 sw2 = .ok (txt!"SW1SW2: " ++ hexOf [sw1, sw2] ++ txt!" (" ++
      swWords (swNum sw1 sw2) ++ txt!")" ++ [0x0A]) := by
  obtain ⟨s, e1, e2⟩ := sw_ok sw1 sw2 loc hl
  have hx : hexOf [sw1, sw2] = hexOf [sw1] ++ hexOf [sw2] := Capdu.hexOf_append [sw1] [sw2]
  rw [sw1sw2, e1, bind_ok]
  simp only [if_true]
  rw [e2, bind_ok, hx, Iad.hex02_hexOf', Iad.hex02_hexOf']
  simp only [List.append_assoc]

example : sw1sw2 (List.replicate 1024 0x55) 0x63 0xC2 =
    .ok (txt!"SW1SW2: 63C2 (Warning: Counter is 2)" ++ [0x0A]) := by
  rw [C96_status _ _ _ (List.length_replicate ..)]
  exact congrArg Except.ok (by decide +kernel)

/-- **C96** (commands).  A command is listed in hexadecimal, with the string made for it if one was
made, exactly unless it is one of the short commands of C56 that are read past their end. -/
theorem C96_command_partial (loc v : List Byte) (hl : loc.length = 1024) (h0 : v ≠ []) :
    (Capdu.EmvOverreads v ↔ capdu loc v = .error .oobRead) ∧
    (¬ Capdu.EmvOverreads v → ∃ r s, Capdu.emvGetString v loc = .ok (r, s) ∧
      ∃ t rest, s = t ++ 0 :: rest ∧ (∀ b ∈ t, b ≠ 0) ∧
      capdu loc v = .ok (hexOf v ++ (if r = 0 then txt!" (" ++ t ++ txt!")" else []) ++ [0x0A])) := by
  have hn : v.length ≠ 0 := by simpa using h0
  obtain ⟨x1, x2, _⟩ := Capdu.C56_exact v loc h0 (by omega)
  have hgood : ¬ Capdu.EmvOverreads v → ∃ r s, Capdu.emvGetString v loc = .ok (r, s) ∧
      ∃ t rest, s = t ++ 0 :: rest ∧ (∀ b ∈ t, b ≠ 0) ∧
      capdu loc v = .ok (hexOf v ++ (if r = 0 then txt!" (" ++ t ++ txt!")" else []) ++ [0x0A]) := by
    intro h
    obtain ⟨r, s, e, _, hz⟩ := x2 h
    obtain ⟨c1, rest, c2⟩ := Print.cstr_takeWhile s hz
    refine ⟨r, s, e, s.takeWhile (· ≠ 0), rest, c2, ?_, ?_⟩
    · intro b hb
      have := List.all_eq_true.mp (List.all_takeWhile (p := fun b : Byte => decide (b ≠ 0)) (l := s)) b hb
      simpa using this
    · rw [capdu, if_neg hn, e, bind_ok]
      simp only
      by_cases hr : r = 0
      · rw [if_neg (by simpa using hr), if_pos hr, c1, bind_ok, hexes_eq]
        simp only [List.append_assoc]
      · rw [if_pos hr, if_neg hr, hexes_eq]
        simp
  refine ⟨⟨fun h => ?_, fun h => ?_⟩, hgood⟩
  · rw [capdu, if_neg hn, x1.mpr h]
    rfl
  · apply Classical.byContradiction
    intro hx
    obtain ⟨_, _, _, _, _, _, _, e⟩ := hgood hx
    rw [h] at e; cases e

example : (capdu (List.replicate 1024 0x55) [0x00, 0xB2, 0x01, 0x0C, 0x00]).toOption =
    some (txt!"00B2010C00 (READ RECORD from short EF 1, record number 1)" ++ [0x0A]) ∧
    (capdu (List.replicate 1024 0x55) [0x00]).toOption = none ∧
    capdu (List.replicate 1024 0x55) [] = .ok (txt!"(null)" ++ [0x0A]) := by
  refine ⟨by decide +kernel, by decide +kernel, rfl⟩

/-- **C96** (applications).  An application is listed with its identifier, its display name, its
priority unless that is zero, and whether the cardholder must confirm. -/
theorem C96_application (a : App.App) (name rest : List Byte) (hn : a.name = name ++ 0 :: rest)
    (hz : ∀ b ∈ name, b ≠ 0) (hp : a.prio < 2 ^ 32) :
    app a = .ok (txt!"Application: " ++ hexOf a.aid.value ++ txt!", " ++ name ++
      (if a.prio = 0 then [] else txt!", Priority " ++ decimal a.prio) ++
      (if a.conf then txt!", Cardholder confirmation required" else []) ++ [0x0A]) := by
  rw [app, hn, Capdu.cstr_spec name rest hz, bind_ok, hexes_eq, decU_spec _ hp]
  by_cases h : a.prio = 0
  · rw [if_neg (by simpa using h), if_pos h]
  · rw [if_pos h, if_neg h]

example : app ⟨⟨0x4F, 0, [0xA0, 0, 0, 0, 3, 0x10, 0x10]⟩, txt!"VISA" ++ [0, 9, 9], 1, true, []⟩ =
    .ok (txt!"Application: A0000000031010, VISA, Priority 1, Cardholder confirmation required" ++
      [0x0A]) := by
  rw [C96_application _ txt!"VISA" [9, 9] rfl (by decide) (by decide)]
  exact congrArg Except.ok (by decide +kernel)

/-! ## C96: events -/

/-- **C96** (delivery).  An event reaches the function set exactly when one was set, some bit of the
source is selected, and the level is not above the one configured. -/
theorem C96_delivery (c : Config) (source level : Nat) :
    delivered c source level = true ↔
      c.set = true ∧ (∃ k, c.mask.testBit k = true ∧ source.testBit k = true) ∧ level ≤ c.level := by
  have hm : c.mask &&& source = 0 ↔ ¬ ∃ k, c.mask.testBit k = true ∧ source.testBit k = true := by
    constructor
    · rintro h ⟨k, h1, h2⟩
      have := congrArg (fun n => n.testBit k) h
      simp [h1, h2] at this
    · intro h
      apply Nat.eq_of_testBit_eq
      intro k
      rw [Nat.testBit_and, Nat.zero_testBit]
      cases h1 : c.mask.testBit k with
      | false => rfl
      | true =>
        cases h2 : source.testBit k with
        | false => rfl
        | true => exact absurd ⟨k, h1, h2⟩ h
  unfold delivered
  by_cases h1 : c.set = true
  · rw [if_neg (by simpa using h1)]
    by_cases h2 : c.mask &&& source = 0
    · rw [if_pos h2]
      simp only [Bool.false_eq_true, false_iff]
      rintro ⟨_, h, _⟩
      exact hm.mp h2 h
    · rw [if_neg h2]
      have h2' : ∃ k, c.mask.testBit k = true ∧ source.testBit k = true :=
        Classical.byContradiction (fun h => h2 (hm.mpr h))
      by_cases h3 : level > c.level
      · rw [if_pos h3]
        simp only [Bool.false_eq_true, false_iff]
        rintro ⟨_, _, h⟩
        omega
      · rw [if_neg h3]
        exact ⟨fun _ => ⟨h1, h2', by omega⟩, fun _ => rfl⟩
  · rw [if_pos h1]
    simp only [Bool.false_eq_true, false_iff]
    rintro ⟨h, _⟩
    exact h1 h

example : delivered ⟨0x05, 3, true⟩ 0x04 3 = true ∧ delivered ⟨0x05, 3, true⟩ 0x02 1 = false ∧
    delivered ⟨0x05, 3, true⟩ 0x04 4 = false ∧ delivered ⟨0x05, 3, false⟩ 0x04 3 = false := by decide

/-- **C96** (text).  The text passed on is the formatted one, cut to 1023 bytes. -/
theorem C96_text (loc text : List Byte) (hl : loc.length = 1024) (hz : ∀ b ∈ text, b ≠ 0) :
    eventText loc text = .ok (text.take 1023) := by
  have hne : loc ≠ [] := by intro e; rw [e] at hl; simp at hl
  rw [eventText, Capdu.snprintf_spec loc text hne, bind_ok, hl]
  exact Capdu.cstr_spec _ _ (fun b hb => hz b (List.mem_of_mem_take hb))

/-- **C96** (names).  Sources and levels are named by the tables. -/
theorem C96_names (n : Nat) :
    sourceName n = (sources.lookup n).getD txt!"???" ∧
    levelName n = (levels.lookup n).getD txt!"????" := by
  constructor
  · unfold sourceName sources
    simp only [List.lookup_cons, List.lookup_nil]
    by_cases h1 : n = 1
    · subst h1; rfl
    by_cases h2 : n = 2
    · subst h2; rfl
    by_cases h4 : n = 4
    · subst h4; rfl
    by_cases h8 : n = 8
    · subst h8; rfl
    simp [show (n == 1) = false by simpa using h1, show (n == 2) = false by simpa using h2,
      show (n == 4) = false by simpa using h4, show (n == 8) = false by simpa using h8, h1, h2, h4, h8]
  · unfold levelName levels
    simp only [List.lookup_cons, List.lookup_nil]
    by_cases h1 : n = 1
    · subst h1; rfl
    by_cases h2 : n = 2
    · subst h2; rfl
    by_cases h3 : n = 3
    · subst h3; rfl
    by_cases h4 : n = 4
    · subst h4; rfl
    simp [show (n == 1) = false by simpa using h1, show (n == 2) = false by simpa using h2,
      show (n == 3) = false by simpa using h3, show (n == 4) = false by simpa using h4, h1, h2, h3, h4]

/-- **C96** (events).  An event is printed after its source, or its time, source and level: a message
as text, data that are not understood in hexadecimal, a response with its status word. -/
theorem C96_events (env : TlvInfo.Env) (loc : Locals) (t s l : Nat) (ht : t < 2 ^ 32)
    (str v out : List Byte) (d : Data) (hl : loc.apdu.length = 1024)
    (hd : (d = .msg ∧ out = str ++ [0x0A]) ∨
      (d = .other v ∧ out = str ++ txt!": " ++ hexOf v ++ [0x0A]) ∨
      (d = .rapdu v ∧ out = str ++ txt!": " ++ rapduText v)) :
    debug env loc s str d =
      .ok (txt!"[" ++ (sources.lookup s).getD txt!"???" ++ txt!"] " ++ out) ∧
    debugVerbose env loc t s l str d =
      .ok (txt!"[" ++ padded t ++ txt!"," ++ (sources.lookup s).getD txt!"???" ++ txt!"," ++
        (levels.lookup l).getD txt!"????" ++ txt!"] " ++ out) := by
  have he : event env loc str d = .ok out := by
    rcases hd with ⟨rfl, rfl⟩ | ⟨rfl, rfl⟩ | ⟨rfl, rfl⟩
    · rfl
    · rw [event, printBuf_eq]
    · rw [event, C96_response _ _ hl, bind_ok]
  have hp : dec010 t = padded t := by rw [dec010, decU_spec t ht]; rfl
  rw [debug, debugVerbose, he, bind_ok, bind_ok, (C96_names s).1, (C96_names l).2, hp]
  exact ⟨rfl, rfl⟩

/-- **C96** (ATR events).  The event of an ATR prints the listing of C94.  Missing: the ATRs for
which C94 is missing. -/
theorem C96_atr_partial (env : TlvInfo.Env) (loc : Locals) (s : Nat) (str atr : List Byte) (ts : Byte)
    (gs : List AtrSpec.Link) (info : Atr.Info) (h : Hist)
    (hc : Atr.HasChain atr ts gs none) (hp : Atr.parse atr = .ok (.ok info)) (hw : h.WF)
    (hh : Atr.historical atr gs = h.enc) (hL : ∀ t ∈ h.tlvs, Listable t)
    (hl : loc.atr.length = 1024) (hl' : loc.historical.length = 1024) :
    debug env loc s str (.atr info) =
      .ok (txt!"[" ++ (sources.lookup s).getD txt!"???" ++ txt!"] " ++ atrText atr gs h) := by
  rw [debug, event, C94_listing_partial atr ts gs info h hc hp hw hh hL _ _ hl hl', bind_ok,
    (C96_names s).1]

/-- **C96** (data events).  The event of EMV data prints them in hexadecimal and then their listing
(C92), each field one step deep; no padding is expected.  Missing: fields whose description is not
defined (`C92_undefined`). -/
theorem C96_data_partial (env : TlvInfo.Env) (he : TlvInfo.Sane env) (loc : Locals) (s : Nat)
    (str v : List Byte) (hl : ∀ t v, (loc.field t v).length = 2048) (hv : v.length < 2 ^ 31) :
    (∃ d : PrintSpec.Doc, d.WF false v.length [] ∧ v = d.enc ∧
      (d.All (Print.AllDefined loc.field) 1 → debug env loc s str (.tlv v) =
        .ok (txt!"[" ++ (sources.lookup s).getD txt!"???" ++ txt!"] " ++
          (str ++ txt!": " ++ hexOf v ++ [0x0A] ++
            d.text (PrintSpec.emvLine env loc.field txt!"  ") txt!"  " 1)))) ∨
    (∃ p : PrintSpec.Path, p.WF false v.length ∧ v = p.enc ∧
      (p.All (Print.AllDefined loc.field) 1 → debug env loc s str (.tlv v) =
        .ok (txt!"[" ++ (sources.lookup s).getD txt!"???" ++ txt!"] " ++
          (str ++ txt!": " ++ hexOf v ++ [0x0A] ++
            (p.text (PrintSpec.emvLine env loc.field txt!"  ") txt!"  " 1 ++
              txt!" at offset " ++ Lists.decimal p.offset ++ txt!"; remaining invalid data:" ++
              PrintSpec.spacedHex p.invalid ++ [0x0A]))))) := by
  rcases Print.C90_every_input false v with ⟨d, hw, e⟩ | ⟨p, hw, e⟩
  · refine .inl ⟨d, hw, e, fun h => ?_⟩
    subst e
    rw [debug, event, Print.C92_listing_partial env he loc.field hl txt!"  " false 1 d hv hw h, bind_ok,
      bind_ok, (C96_names s).1, printBuf_eq]
  · refine .inr ⟨p, hw, e, fun h => ?_⟩
    subst e
    rw [debug, event, Print.C92_error_partial env he loc.field hl txt!"  " false 1 p hv hw h, bind_ok,
      bind_ok, (C96_names s).1, printBuf_eq]

/-- **C96** (command events). -/
theorem C96_command_event (env : TlvInfo.Env) (loc : Locals) (s : Nat) (str v l : List Byte)
    (h : capdu loc.apdu v = .ok l) :
    debug env loc s str (.capdu v) =
      .ok (txt!"[" ++ (sources.lookup s).getD txt!"???" ++ txt!"] " ++ (str ++ txt!": " ++ l)) := by
  rw [debug, event, h, bind_ok, bind_ok, (C96_names s).1]

example (env : TlvInfo.Env) (loc : Locals) (str : List Byte) :
    debug env loc 4 str (.capdu []) = .ok (txt!"[EMV] " ++ (str ++ txt!": (null)" ++ [0x0A])) := by
  rw [C96_command_event env loc 4 str [] (txt!"(null)" ++ [0x0A]) rfl]
  have e1 : txt!"[EMV] " = txt!"[" ++ txt!"EMV" ++ txt!"] " := by decide
  have e2 : txt!": (null)" = txt!": " ++ txt!"(null)" := by decide
  have e3 : sources.lookup 4 = some txt!"EMV" := by decide
  rw [e1, e2, e3]
  simp

end Verif.PrintCard
