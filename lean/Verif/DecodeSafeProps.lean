import Verif.DecodeArgsProps
import Verif.DecodeFieldProps
import Verif.DecodeListProps
import Verif.DecodeCodeProps
import Verif.CodesProps

/-! # C126, C127: options, exit status and memory of `emv-decode` -/

set_option autoImplicit false

namespace Verif.DecodeArgs
open Argp (inputsOf optionsOf order_eq order_mem)
open Decode StrList

/-! ## C127: every mode -/

/-- The data for which decoding is defined: for flags some flag is set; third party data of five bytes have the top
bit of the unique identifier; data object lists do not ask for 14 bytes of field 84; object identifiers have at most
ten numbers; fields in EMV data have a defined description; text has at most 1023 bytes; and the ATR is refused, or its
historical bytes can be listed. -/
def Benign (loc : Locals) (data : List Byte) : Mode → Prop
  | .tvr => data.length = 5 → lines .tvr data ≠ []
  | .tsi => data.length = 2 → lines .tsi data ≠ []
  | .ctq => data.length = 2 → lines .ctq data ≠ []
  | .trmd => data.length = 8 → lines .trmd data ≠ []
  | .thirdParty => ¬ (data.length = 5 ∧ (data.getD 2 0).toNat < 128)
  | .dol => ∀ r ∈ PrintSpec.reqs data, ¬ (r.tag = [0x84] ∧ r.len = 14)
  | .ber => ∀ v, Print.Within data [0x06] v → Print.OidFits v
  | .tlv => data.length < 2 ^ 31 ∧ ∀ tag v, Print.Within data tag v → PrintSpec.Defined loc.emv tag v
  | .iso8859 n => n ≤ 15 ∧ (n = 1 → data.length ≤ 1023)
  | .atr => 2 ≤ data.length → data.length ≤ 33 → (∃ c, Atr.parse data = .ok (.error c)) ∨
      ∃ (ts : Byte) (gs : List AtrSpec.Link) (info : Atr.Info) (h : PrintCardSpec.Hist),
        Atr.HasChain data ts gs none ∧ Atr.parse data = .ok (.ok info) ∧ h.WF ∧ Atr.historical data gs = h.enc ∧
        ∀ t ∈ h.tlvs, PrintCardSpec.Listable t
  | _ => True

/-- Tables of C strings, and local arrays of their size. -/
def SaneTables (t : Tables) : Prop :=
  TlvInfo.Sane t.env ∧ TlvInfo.Texts t.env.mcc ∧ TlvInfo.Texts t.env.countryNum

theorem iad_terminated (iad str : List Byte) (hs : str ≠ []) :
    ∃ c str', Iad.iadList iad str = .ok (c, str') ∧ (c = 0 → 3 ≤ str.length → C.Safe (Capdu.cstr str')) := by
  by_cases h0 : iad = []
  · subst h0; exact ⟨-1, str, rfl, fun h => by simp at h⟩
  have n0 : iad.length ≠ 0 := by simpa using h0
  have ns : str.length ≠ 0 := by simpa using hs
  by_cases h32 : iad.length > 32
  · exact ⟨1, str, by rw [Iad.iadList, if_neg n0, if_neg ns, if_pos h32], fun h => by simp at h⟩
  obtain ⟨fmt, e, hg⟩ := Fields.C21_format iad
  have hfmt := (hg fmt).2 rfl
  have hstr : ∃ c ls, Iad.iadStrings iad fmt = .ok (c, ls) ∧ ls ≠ [] ∧ ∀ s ∈ ls, s ≠ [] := by
    by_cases hc : fmt = .ccd
    · subst hc
      obtain ⟨l, b1, b2, b17⟩ := hfmt
      have hrun : Iad.runAll iad [Iad.ccdDki, Iad.ccdCvr] =
          .ok (Iad.ishown ((Iad.ccdRows.drop 1).set 15 Iad.ccdWrong) iad) :=
        Iad.irowsOf_run 32 iad (by omega) _ _ Iad.ccd_rows
      have hne := Iad.ishown_ne iad ((Iad.ccdRows.drop 1).set 15 Iad.ccdWrong) (by decide +kernel)
      rw [Iad.iadStrings, Iad.ccdAppend, Fields.rdIs_eq (by omega), Fields.rdIs_eq (by omega)]
      have hb1 : iad.getD 0 0 = 0x0F := UInt8.toNat_inj.1 b1
      have hb17 : iad.getD 16 0 = 0x0F := UInt8.toNat_inj.1 b17
      have cons : ∀ (a : List Byte) (ls : List (List Byte)), a ≠ [] → (∀ s ∈ ls, s ≠ []) → ∀ s ∈ a :: ls, s ≠ [] := by
        intro a ls ha hl s hs
        rcases List.mem_cons.1 hs with rfl | hs
        · exact ha
        · exact hl s hs
      simp only [hb1, hb17, Fields.andC_ok, l, decide_true, if_true, beq_self_eq_true, bind_ok, hrun,
        Fields.rd_getD (show 1 < iad.length by omega), Iad.prefixed]
      split
      · exact ⟨_, _, rfl, by simp, cons _ _ (by decide) (cons _ _ (by decide) (cons _ _ (by decide) hne))⟩
      · split
        · exact ⟨_, _, rfl, by simp, cons _ _ (by decide) (cons _ _ (by decide) (cons _ _ (by decide) hne))⟩
        · exact ⟨_, _, rfl, by simp, cons _ _ (by decide) (cons _ _ (by decide) (cons _ _ (by decide) (by simp)))⟩
    · exact ⟨_, _, Iad.iadStrings_lines iad fmt hfmt (fun h => absurd h hc),
        by cases fmt <;> simp [Iad.iadLines], Iad.iadLines_ne iad fmt⟩
  obtain ⟨c, ls, e2, h1, h2⟩ := hstr
  obtain ⟨str', e3, hsh⟩ := Iad.build_shows str ls h2
  refine ⟨c, str', ?_, fun _ hlen => ?_⟩
  · rw [Iad.iadList, if_neg n0, if_neg ns, if_neg h32, e, bind_ok, e2, bind_ok]
    simp only [e3, bind_ok]
  · obtain ⟨u, hu, e4⟩ := hsh.2.2.1 h1 (by omega)
    rw [e4]
    exact cstr_over_safe u str

theorem fixed_safe (t : Tables) (ht : SaneTables t) (loc : Locals) (hl : Sized loc) (help : List Byte) (pad : Bool)
    (arg data : List Byte) (m : Mode) (name words : List Byte) (n : Nat) (hm : fixed m = some (name, n, words))
    (hf : Flags m → data.length = n → lines m data ≠ []) : C.Safe (decode t loc help pad arg data m) := by
  by_cases hn : data.length = n
  · by_cases h0 : m = .termType ∧ data = [0]
    · obtain ⟨rfl, rfl⟩ := h0
      exact ⟨_, C99_term_type_zero t loc help pad arg⟩
    · by_cases ha : m = .addlTermCaps ∧ 1024 ≤ (text (lines .addlTermCaps data)).length
      · obtain ⟨rfl, ha⟩ := ha
        simp only [fixed, Option.some.injEq, Prod.mk.injEq] at hm
        obtain ⟨s, e, -⟩ := C99_truncated t loc help pad arg data (by rw [hn, ← hm.2.1]) hl ha
        exact ⟨_, e⟩
      · exact ⟨_, C99_field_partial t loc help pad arg data m name words n hm hn hl ht.1.2.2.2.1
          (fun e h => h0 ⟨e, h⟩) (fun h => hf h hn)
          (fun e => by subst e; exact Nat.lt_of_not_le fun h => ha ⟨rfl, h⟩)⟩
  · exact ⟨_, C99_length t loc help pad arg data m name words n hm hn⟩

theorem even_rules : ∀ (n : Nat) (l : List Byte), l.length = 2 * n → ∃ rs : List Fields.CvRule, rs.length = n ∧ l = Fields.encRules rs := by
  intro n
  induction n with
  | zero =>
    intro l h
    have : l = [] := List.length_eq_zero_iff.mp (by omega)
    subst this
    exact ⟨[], rfl, rfl⟩
  | succ n ih =>
    intro l h
    match l, h with
    | a :: b :: l, h =>
      obtain ⟨rs, h1, rfl⟩ := ih l (by simp at h; omega)
      exact ⟨⟨a, b⟩ :: rs, by simp [h1], rfl⟩

theorem cvm_safe (t : Tables) (ht : SaneTables t) (loc : Locals) (hl : Sized loc) (help : List Byte) (pad : Bool)
    (arg data : List Byte) : C.Safe (decode t loc help pad arg data .cvmList) := by
  by_cases h : 10 ≤ data.length ∧ data.length ≤ 252 ∧ data.length % 2 = 0
  · obtain ⟨rs, h1, h2⟩ := even_rules ((data.length - 8) / 2) (data.drop 8) (by simp; omega)
    have e : data = data.take 4 ++ (data.drop 4).take 4 ++ Fields.encRules rs := by
      rw [← h2, List.append_assoc, show data.drop 8 = (data.drop 4).drop 4 by rw [List.drop_drop],
        List.take_append_drop, List.take_append_drop]
    obtain ⟨s, hs, -⟩ := C99_cvm_list t loc help pad arg (data.take 4) ((data.drop 4).take 4) rs hl ht.1.2.2.1
      (by simp; omega) (by simp; omega) (by rintro rfl; simp at h1; omega) (by omega)
    rw [← e] at hs
    exact ⟨_, hs⟩
  · exact ⟨_, C99_cvm_list_refused t loc help pad arg data h⟩

theorem iad_safe (t : Tables) (loc : Locals) (hl : Sized loc) (help : List Byte) (pad : Bool)
    (arg data : List Byte) : C.Safe (decode t loc help pad arg data .iad) := by
  obtain ⟨-, l2, -⟩ := hl
  by_cases h : data.length ≤ 32
  · obtain ⟨c, str', e, hs⟩ := iad_terminated data loc.str2 (by intro h; simp [h] at l2)
    have hd : decide (data.length ≤ 32) = true := by simpa using h
    simp only [decode, hd]
    by_cases hc : c = 0
    · subst hc
      obtain ⟨s, hs⟩ := hs rfl (by omega)
      exact ⟨_, field_ok e hs⟩
    · exact ⟨_, field_fail e hc⟩
  · exact ⟨_, (C99_other_lengths t loc help pad arg data).1 (by omega)⟩

theorem mcc_safe (t : Tables) (ht : SaneTables t) (loc : Locals) (hl : Sized loc) (help : List Byte) (pad : Bool)
    (arg data : List Byte) : C.Safe (decode t loc help pad arg data .mcc) := by
  obtain ⟨h1, h2, h3⟩ := C99_mcc t loc help pad arg data hl ht.2.1
  by_cases hn : data.length = 2
  · by_cases hf : Formats.IsFormatN data
    · obtain ⟨h4, h5⟩ := h3 hn hf
      cases hm : t.env.mcc (Formats.decNat (Formats.nibbles data)) with
      | none => exact ⟨_, h5 (.inl hm)⟩
      | some s =>
        by_cases h0 : s = []
        · exact ⟨_, h5 (.inr (by rw [hm, h0]))⟩
        · exact ⟨_, h4 s hm h0⟩
    · exact ⟨_, h2 hn hf⟩
  · exact ⟨_, h1 hn⟩

theorem byCode_safe (l : Option (List Byte)) (n : Nat → Option (List Byte)) (arg inv : List Byte) :
    C.Safe (byCode l n arg inv) := by
  unfold byCode complain
  split
  · exact ⟨_, rfl⟩
  · split
    split
    · exact ⟨_, rfl⟩
    · split <;> exact ⟨_, rfl⟩

theorem utf8_length (l : List Byte) : (Iso8859.utf8 l).length ≤ 2 * l.length := by
  have key : ∀ b : Byte, (String.utf8EncodeChar (Char.ofNat b.toNat)).length ≤ 2 := by decide +kernel
  induction l with
  | nil => simp [Iso8859.utf8]
  | cons b l ih =>
    have := key b
    rw [Iso8859.utf8, List.flatMap_cons, List.length_append, List.length_cons]
    have e : (l.flatMap fun b => String.utf8EncodeChar (Char.ofNat b.toNat)) = Iso8859.utf8 l := rfl
    rw [e]
    omega

theorem text_split : ∀ data : List Byte, (∀ b ∈ Iso8859.text data, Formats.Printable8859 b) ∨
    ∃ p b tl, data = p ++ b :: tl ∧ b ≠ 0 ∧ ¬ Formats.Printable8859 b ∧ ∀ x ∈ p, Formats.Printable8859 x := by
  intro data
  induction data with
  | nil => left; simp [Iso8859.text]
  | cons c data ih =>
    by_cases h0 : c = 0
    · left; simp [Iso8859.text, h0]
    · by_cases hc : Formats.Printable8859 c
      · rcases ih with ih | ⟨p, b, tl, rfl, h1, h2, h3⟩
        · left
          intro b hb
          rw [Iso8859.text, List.takeWhile_cons_of_pos (by simpa using h0)] at hb
          rcases List.mem_cons.mp hb with rfl | hb
          · exact hc
          · exact ih b hb
        · right
          refine ⟨c :: p, b, tl, rfl, h1, h2, fun x hx => ?_⟩
          rcases List.mem_cons.mp hx with rfl | hx
          · exact hc
          · exact h3 x hx
      · exact .inr ⟨[], c, data, rfl, h0, hc, by simp⟩

theorem text_safe (t : Tables) (loc : Locals) (help : List Byte) (pad : Bool) (arg data : List Byte) (n : Nat)
    (hn : n ≤ 15) (h : n = 1 → data.length ≤ 1023) : C.Safe (decode t loc help pad arg data (.iso8859 n)) := by
  obtain ⟨h1, h2, h3⟩ := C100_text_partial t loc help pad arg data
  by_cases h0 : n = 1
  · subst h0
    have hl := h rfl
    rcases text_split data with hp | ⟨p, b, tl, e, hb, hnp, hp⟩
    · have := utf8_length (Iso8859.text data)
      have hle : (Iso8859.text data).length ≤ data.length := (List.takeWhile_prefix _).length_le
      exact ⟨_, h1 hp (by omega)⟩
    · have := utf8_length p
      have hle : p.length ≤ data.length := by rw [e]; simp
      have e2 := h2 b p tl e hb hnp hp (by omega)
      split at e2 <;> exact ⟨_, e2⟩
  · exact ⟨_, h3 n h0 hn⟩

/-- **C127** (decoding).  Whatever the mode and the data, decoding stays within memory and ends if
the data are `Benign`.  Missing: data that are not `Benign`, for which the listings themselves are
undefined (`C127_flags`). -/
theorem C127_decode_partial (t : Tables) (ht : SaneTables t) (loc : Locals) (hl : Sized loc) (help : List Byte)
    (pad : Bool) (arg data : List Byte) (m : Mode) (hb : Benign loc data m) :
    C.Safe (decode t loc help pad arg data m) := by
  have fx : ∀ name n words, fixed m = some (name, n, words) → ¬ Flags m → C.Safe (decode t loc help pad arg data m) :=
    fun name n words h hf => fixed_safe t ht loc hl help pad arg data m name words n h (fun h => absurd h hf)
  have fl : ∀ name n words, fixed m = some (name, n, words) → (data.length = n → lines m data ≠ []) →
      C.Safe (decode t loc help pad arg data m) :=
    fun name n words h hf => fixed_safe t ht loc hl help pad arg data m name words n h (fun _ => hf)
  cases m with
  | none => exact ⟨_, rfl⟩
  | atr =>
    by_cases h2 : data.length < 2
    · exact ⟨_, (C99_other_lengths t loc help pad arg data).2.2.1 h2⟩
    · by_cases h33 : 33 < data.length
      · exact ⟨_, (C99_other_lengths t loc help pad arg data).2.2.2 h33⟩
      · obtain ⟨e1, e2⟩ := C99_atr_partial t loc help pad arg data hl (by omega) (by omega)
        rcases hb (by omega) (by omega) with ⟨c, hc⟩ | ⟨ts, gs, info, h, a1, a2, a3, a4, a5⟩
        · exact ⟨_, e1 c hc⟩
        · exact ⟨_, e2 ts gs info h a1 a2 a3 a4 a5⟩
  | sw1sw2 =>
    by_cases h2 : data.length = 2
    · match data, h2 with
      | [a, b], _ => exact ⟨_, C99_status_word t loc help pad arg hl a b⟩
    · exact ⟨_, (C99_other_lengths t loc help pad arg data).2.1 h2⟩
  | ber =>
    obtain ⟨s, hs⟩ := Print.C90_safe_partial loc.ber txt!"  " pad 0 data hl.2.2.1 hb
    exact ⟨_, by rw [decode, hs, bind_ok]⟩
  | tlv =>
    obtain ⟨s, hs⟩ := Print.C92_safe_partial t.env ht.1 loc.emv hl.2.2.2.2.2.2 txt!"  " pad 0 data hb.1 hb.2
    exact ⟨_, by rw [decode, hs, bind_ok]⟩
  | dol => exact ⟨_, (C99_lists_partial t loc help pad arg data).1 hb⟩
  | tagList => exact ⟨_, (C99_lists_partial t loc help pad arg data).2⟩
  | mcc => exact mcc_safe t ht loc hl help pad arg data
  | termType => exact fx _ _ _ rfl (by simp [Flags])
  | termCaps => exact fx _ _ _ rfl (by simp [Flags])
  | addlTermCaps => exact fx _ _ _ rfl (by simp [Flags])
  | cvmList => exact cvm_safe t ht loc hl help pad arg data
  | cvmResults => exact fx _ _ _ rfl (by simp [Flags])
  | tvr => exact fl _ _ _ rfl hb
  | tsi => exact fl _ _ _ rfl hb
  | iad => exact iad_safe t loc hl help pad arg data
  | ttq => exact fx _ _ _ rfl (by simp [Flags])
  | ctq => exact fl _ _ _ rfl hb
  | amexClReaderCaps => exact fx _ _ _ rfl (by simp [Flags])
  | thirdParty =>
    obtain ⟨h1, h2, h3⟩ := C99_third_partial t loc help pad arg data hl ht.2.2
    by_cases h : 5 ≤ data.length ∧ data.length ≤ 32
    · by_cases hc : ThirdParty.Conforms data
      · exact ⟨_, h3 hc⟩
      · exact ⟨_, h2 h.1 h.2 hb hc⟩
    · exact ⟨_, h1 h⟩
  | ffi => exact fx _ _ _ rfl (by simp [Flags])
  | amexEnh => exact fx _ _ _ rfl (by simp [Flags])
  | trmd => exact fl _ _ _ rfl hb
  | iso3166 =>
    simp only [decode, iso3166]
    split
    · exact ⟨_, rfl⟩
    · exact byCode_safe _ _ _ _
  | iso4217 =>
    simp only [decode, iso4217]
    split
    · exact ⟨_, rfl⟩
    · exact byCode_safe _ _ _ _
  | iso639 =>
    simp only [decode, iso639]
    split
    · exact ⟨_, rfl⟩
    · split <;> exact ⟨_, rfl⟩
  | iso8859 n => exact text_safe t loc help pad arg data n hb.1 hb.2

/-! ## C127: runs -/

/-- `v` are the data an input stands for. -/
def Source (w : World) (as : List (List Byte)) (v : List Byte) : Prop :=
  ∃ a ∈ as, Hex.Writes a v ∨ a = txt!"-" ∧ v = w.input

/-- What holds between the words. -/
def Kept (w : World) (is : List Item) (seen : Bool) (s : St) : Prop :=
  (s.mode = .none ∨ s.mode ∈ modesOf is) ∧ (s.iso = none ∨ ∃ p ∈ isoOf is, s.iso = some p) ∧
  (s.file = w.input ∨ s.file = []) ∧ (seen = true → ¬ Verbatim s.mode → Source w (inputsOf is) s.data)

/-- An input that is no code to look up either gives data or ends the program. -/
theorem hex_cases {w : World} (hw : Fits w) {s : St} (hm : ¬ Verbatim s.mode) {a : List Byte} (hc : Hex.Clean a) :
    (∃ e, input w a s = .ok (.stop e)) ∨ (∃ v, Hex.Writes a v ∧ input w a s = .ok (.go { s with data := v })) ∨
    (a = txt!"-" ∧ s.file ≠ [] ∧ input w a s = .ok (.go { s with data := s.file, file := [] })) := by
  by_cases hd : a = txt!"-"
  · subst hd
    by_cases h0 : s.file = []
    · exact .inl ⟨_, input_wrong hw hm (.stdin h0)⟩
    · exact .inr (.inr ⟨rfl, h0, input_stdin hm h0⟩)
  · by_cases h2 : a.length < 2
    · exact .inl ⟨_, input_wrong hw hm (.short hd h2)⟩
    · by_cases hv : ∃ v, Hex.Writes a v
      · obtain ⟨v, hv⟩ := hv
        exact .inr (.inl ⟨v, hv, input_hex hw hm (by rintro rfl; simp at h2) hv⟩)
      · by_cases hf : ∃ c ∈ a, Hex.Foreign c
        · exact .inl ⟨_, input_wrong hw hm (.digits (by omega) hc hf)⟩
        · exact .inl ⟨_, input_wrong hw hm (.odd (by omega) hf hv)⟩

theorem step_kept {w : World} (hw : Fits w) {is : List Item} {seen : Bool} {s : St} (hk : Kept w is seen s) (i : Item)
    (hi : i ∈ is) (hv : Valued i) (hc : ∀ a ∈ inputsOf is, Hex.Clean a) :
    (∃ e, step w i s = .ok (.stop e)) ∨ ∃ s', step w i s = .ok (.go s') ∧ Kept w is (seen || i.isInput) s' := by
  obtain ⟨k1, k2, k3, k4⟩ := hk
  cases i with
  | bad => exact .inl ⟨_, rfl⟩
  | input a =>
    have ha : a ∈ inputsOf is := List.mem_filterMap.mpr ⟨_, hi, rfl⟩
    by_cases hm : Verbatim s.mode
    · right
      refine ⟨{ s with arg := a }, ?_, k1, k2, k3, fun _ h => absurd hm h⟩
      rw [step, input, if_pos (show s.mode = .iso3166 ∨ s.mode = .iso4217 ∨ s.mode = .iso639 from hm)]
    · rcases hex_cases hw hm (hc a ha) with h | ⟨v, h1, h2⟩ | ⟨h0, h1, h2⟩
      · exact .inl h
      · exact .inr ⟨_, h2, k1, k2, k3, fun _ _ => ⟨a, ha, .inl h1⟩⟩
      · have : s.file = w.input := by
          rcases k3 with h | h
          · exact h
          · exact absurd h h1
        exact .inr ⟨_, h2, k1, k2, .inr rfl, fun _ _ => ⟨a, ha, .inr ⟨h0, this⟩⟩⟩
  | option k v =>
    simp only [step, Argp.Item.isInput, Bool.or_false]
    cases k with
    | mode m =>
      by_cases h : s.mode = .none
      · right
        refine ⟨{ s with mode := m }, by rw [option, if_neg (by simpa using h)],
          .inr (List.mem_filterMap.mpr ⟨_, hi, rfl⟩), k2, k3, fun h1 _ => k4 h1 ?_⟩
        rw [h]
        rintro (h | h | h) <;> cases h
      · exact .inl ⟨_, by rw [option, if_pos h]⟩
    | iso8859x => exact .inl ⟨_, rfl⟩
    | version => exact .inl ⟨_, rfl⟩
    | help => exact .inl ⟨_, rfl⟩
    | usage => exact .inl ⟨_, rfl⟩
    | ignorePadding => exact .inr ⟨_, rfl, k1, k2, k3, k4⟩
    | isocodes =>
      obtain ⟨x, rfl⟩ := Option.isSome_iff_exists.mp (hv rfl)
      exact .inr ⟨_, rfl, k1, .inr ⟨x, List.mem_filterMap.mpr ⟨_, hi, rfl⟩, rfl⟩, k3, k4⟩
    | mccJson => exact .inr ⟨_, rfl, k1, k2, k3, k4⟩
    | programName => exact .inr ⟨_, rfl, k1, k2, k3, k4⟩
    | hang => exact .inr ⟨_, rfl, k1, k2, k3, k4⟩

theorem steps_kept {w : World} (hw : Fits w) {is : List Item} (hc : ∀ a ∈ inputsOf is, Hex.Clean a)
    (hv : ∀ i ∈ is, Valued i) : ∀ (js : List Item) (seen : Bool) (s : St), (∀ j ∈ js, j ∈ is) → Kept w is seen s →
    (∃ e, steps w js seen s = .ok (.stop e)) ∨ ∃ s', steps w js seen s = .ok (.go s') ∧ Kept w is true s' := by
  intro js
  induction js with
  | nil =>
    intro seen s _ hk
    cases seen with
    | false => exact .inl ⟨_, rfl⟩
    | true => exact .inr ⟨s, rfl, hk⟩
  | cons j js ih =>
    intro seen s hj hk
    rcases step_kept hw hk j (hj j (by simp)) (hv j (hj j (by simp))) hc with ⟨e, h⟩ | ⟨s', h, hk'⟩
    · exact .inl ⟨e, by rw [steps, h, bind_ok]⟩
    · rcases ih _ s' (fun x hx => hj x (by simp [hx])) hk' with ⟨e, h'⟩ | ⟨s'', h', hk''⟩
      · exact .inl ⟨e, by rw [steps, h, bind_ok]; exact h'⟩
      · exact .inr ⟨s'', by rw [steps, h, bind_ok]; exact h', hk''⟩

theorem tables_sane {w : World} (ht : w.scratch.Sized) {iso mcc : Option (List Byte)} {r : Int} {t : Codes.State}
    (h : Codes.stringsInit w.files iso mcc Codes.fresh = .ok (.ok (r, t))) : SaneTables (w.tables t) := by
  have hr : Codes.Reachable t := .init w.files iso mcc Codes.fresh t r .fresh h
  have key : ∀ {x : C (Option (List Byte))} {s : List Byte}, answer x = some s → x = .ok (some s) := by
    intro x s hx
    cases x with
    | ok a => cases hx; rfl
    | error e => cases hx
  have hn : ∀ {s : List Byte}, 0 ∉ s → ∀ b ∈ s, b ≠ 0 := fun h b hb e => h (e ▸ hb)
  obtain ⟨h1, h2, h3, h4, h5⟩ := ht
  refine ⟨⟨?_, ?_, h1, h2, h3, h4, h5⟩, ?_, ?_⟩
  · exact fun n s hs => hn (Codes.C98_names t hr [] n s (by simp [key hs]))
  · exact fun k s hs => hn (Codes.C98_names t hr k 0 s (by simp [key hs]))
  · exact fun n s hs => hn (Codes.C98_names t hr [] n s (by simp [show Codes.mccLookup t n = some s from hs]))
  · exact fun n s hs => hn (Codes.C98_names t hr [] n s (by simp [key hs]))

/-- **C127.**  Whatever the command line, the program stays within memory and ends.  Missing: inputs with characters
that are not ASCII before any that is neither digit nor space (`C127_letter`), an empty path for the tables
(`C127_path`), and data which are not `Benign` (`C127_flags`). -/
theorem C127_safe_partial (w : World) (hw : Fits w) (hl : Sized w.locals) (ht : w.scratch.Sized)
    (hp : w.files.isoPath ≠ []) (ws : List (List Byte)) (is : List Item) (h : Line w.posix ws is)
    (hc : ∀ a ∈ inputsOf is, Hex.Clean a) (hi : ∀ p ∈ isoOf is, p ≠ [])
    (hb : ∀ m ∈ modesOf is, ∀ v, Source w (inputsOf is) v → Benign w.locals v m) : C.Safe (run w ws) := by
  unfold run
  split
  · exact ⟨_, rfl⟩
  · rw [line_items h]
    rcases steps_kept hw hc (items_valued h) (Argp.order is) false (.initial w) (fun j hj => order_mem hj)
      ⟨.inl rfl, .inl rfl, .inl rfl, by simp⟩ with ⟨e, hs⟩ | ⟨s, hs, k1, k2, -, k4⟩
    · exact ⟨e, by rw [hs, bind_ok]⟩
    · rw [hs, bind_ok]
      have hiso : s.iso.getD w.files.isoPath ≠ [] := by
        rcases k2 with e | ⟨p, hp', e⟩
        · rw [e]; exact hp
        · rw [e]; exact hi p hp'
      simp only [finish]
      rcases Codes.C98_safe_partial w.files s.iso s.mcc hiso with e | ⟨r, t, e, -⟩
      · exact ⟨_, by rw [e, bind_ok]⟩
      · have hben : Benign w.locals s.data s.mode := by
          rcases k1 with e | e
          · rw [e]; trivial
          · by_cases hv : Verbatim s.mode
            · rcases hv with h | h | h <;> rw [h] <;> trivial
            · exact hb _ e _ (k4 rfl hv)
        obtain ⟨sh, hs⟩ := C127_decode_partial (w.tables t) (tables_sane ht e) w.locals hl w.help s.pad s.arg s.data s.mode hben
        rw [e, bind_ok]
        simp only [Decode.main]
        split
        · exact ⟨_, rfl⟩
        · rw [hs]
          exact ⟨_, rfl⟩

end Verif.DecodeArgs
