import Verif.Capdu
import Verif.AppProps
import Verif.ApduProps

/-! # Properties of the command descriptions: C56, C67 -/

set_option autoImplicit false

namespace Verif.Capdu
open Verif Formats

/-! ## Text output -/

theorem snprintf_spec (str text : List Byte) (h : str ≠ []) :
    snprintf str text = .ok (strOver (text.take (str.length - 1)) str) := by
  have h1 : str.length ≠ 0 := by simpa using h
  have hl : (text.take (str.length - 1)).length ≤ str.length - 1 := List.length_take_le ..
  rw [snprintf, if_neg h1, wrs_eq (by simp; omega)]
  simp [strOver]

theorem strncpyTerm_spec (str s : List Byte) (h : str ≠ []) :
    ∃ out, strncpyTerm str s = .ok out ∧ out.length = str.length ∧
      ∃ k, out = s.take (str.length - 1) ++ List.replicate (k + 1) 0 := by
  have h1 : str.length ≠ 0 := by simpa using h
  have hl : (s.take str.length ++ List.replicate (str.length - s.length) (0 : Byte)).length =
      str.length := by simp; omega
  rw [strncpyTerm, wrs_eq (by omega)]
  simp only [List.take_zero, List.nil_append, Nat.zero_add, hl, List.drop_length,
    List.append_nil, bind_ok]
  rw [wr_eq (by omega)]
  refine ⟨_, rfl, by rw [List.length_set, hl], ?_⟩
  by_cases hs : s.length < str.length
  · refine ⟨str.length - s.length - 1, ?_⟩
    rw [List.take_of_length_le (by omega), List.take_of_length_le (by omega),
      List.set_append_right _ _ (by omega), show str.length - s.length - 1 + 1 =
        str.length - s.length by omega]
    congr 1
    apply List.ext_getElem
    · simp
    · intro i h1 h2
      simp
  · refine ⟨0, ?_⟩
    have : str.length - s.length = 0 := by omega
    rw [this]
    simp only [List.replicate_zero, List.append_nil, List.replicate_succ]
    have e : s.take str.length = s.take (str.length - 1) ++ [s[str.length - 1]'(by omega)] := by
      rw [List.take_append_getElem]
      congr 1
      omega
    rw [e, List.set_append_right _ _ (by simp; omega)]
    have : str.length - 1 - (s.take (str.length - 1)).length = 0 := by simp; omega
    rw [this]
    rfl

theorem cstr_spec (s X : List Byte) (h : ∀ b ∈ s, b ≠ 0) : cstr (s ++ 0 :: X) = .ok s := by
  rw [cstr, App.strlen_str s X h, bind_ok, slice_eq (by simp)]
  simp

/-! ## Command forms -/

theorem case_4S {a : List Byte} (h : Apdu.apduCase a = .ok (.ok .c4S)) :
    ∃ hd lc data le, a = hd ++ lc :: data ++ [le] ∧ hd.length = 4 ∧ data.length = lc.toNat ∧
      data ≠ [] := by
  obtain ⟨r, e, hr⟩ := Apdu.C22_sound_partial a
  rw [h] at e
  injection e with e
  obtain ⟨hd, b, hl, hwf, -, ha, hc⟩ := hr .c4S e.symm (by decide) (by decide)
  cases b with
  | shortDataLe lc data le =>
    exact ⟨hd, lc, data, le, by rw [ha]; simp [Apdu.Body.enc], hl, hwf.1.symm, hwf.2⟩
  | _ => cases hc

theorem case_3S {a : List Byte} (h : Apdu.apduCase a = .ok (.ok .c3S)) : 5 < a.length := by
  obtain ⟨r, e, hr⟩ := Apdu.C22_sound_partial a
  rw [h] at e
  injection e with e
  obtain ⟨hd, b, hl, hwf, -, ha, hc⟩ := hr .c3S e.symm (by decide) (by decide)
  cases b with
  | shortData lc data =>
    have := List.length_pos_iff.2 hwf.2
    rw [ha]; simp [Apdu.Body.enc]; omega
  | _ => cases hc

theorem case_safe (a : List Byte) : ∃ r, Apdu.apduCase a = .ok r := by
  obtain ⟨r, e, -⟩ := Apdu.C22_sound_partial a
  exact ⟨r, e⟩

theorem rd_safe {a : List Byte} {i : Nat} (h : i < a.length) : ∃ b, rd a i = .ok b :=
  ⟨_, rd_eq h⟩

/-! ## SELECT -/

/-- Printable ASCII. -/
def Printable (b : Byte) : Prop := 0x20 ≤ b.toNat ∧ b.toNat ≤ 0x7E

instance (b : Byte) : Decidable (Printable b) := by unfold Printable; infer_instance

/-- How a file identifier is shown: as text if printable, otherwise in hexadecimal. -/
def fileId (data : List Byte) : List Byte :=
  if ∀ b ∈ data, Printable b then data else hexOf data

/-- Occurrence names. -/
def occurrenceText (p2 : Byte) : List Byte :=
  ascii (["first", "last", "next", "previous"].getD (p2.toNat % 4) "")

theorem occurrence_eq : ∀ p2 : Byte, occurrence p2 = occurrenceText p2 := by decide +kernel

theorem notPrintable : ∀ d : Byte, (d < 0x20 ∨ d > 0x7E) ↔ ¬ Printable d := by decide +kernel

theorem printableLoop_spec (a post : List Byte) : ∀ (rest hd pre : List Byte),
    a = hd ++ pre ++ rest ++ post → hd.length = 5 →
    printableLoop a rest.length pre.length = .ok (decide (∀ b ∈ rest, Printable b)) := by
  intro rest
  induction rest with
  | nil => intro hd pre _ _; simp [printableLoop]
  | cons d rest ih =>
    intro hd pre ha h5
    have hr : rd a (5 + pre.length) = .ok d := by
      have := rd_append_right (hd ++ pre) (d :: rest ++ post) 0
      simp only [List.length_append, h5, Nat.add_zero] at this
      rw [ha, List.append_assoc _ (d :: rest), this]
      simp
    rw [List.length_cons, printableLoop, hr, bind_ok]
    have hp := notPrintable d
    by_cases hd1 : Printable d
    · rw [if_neg (fun h => hp.1 h hd1)]
      have := ih hd (pre ++ [d]) (by rw [ha]; simp) h5
      simp only [List.length_append, List.length_cons, List.length_nil, Nat.zero_add] at this
      rw [this]
      congr 1
      simp [hd1]
    · rw [if_pos (hp.2 hd1)]
      congr 1
      simp [hd1]

theorem hex2_eq : ∀ b : Byte, hex2 b = hexOf [b] := by decide +kernel

theorem hexOf_append (a b : List Byte) : hexOf (a ++ b) = hexOf a ++ hexOf b := by
  simp [hexOf, nibbles_append]

theorem hexOf_ne_zero (bs : List Byte) : ∀ b ∈ hexOf bs, b ≠ 0 := by
  have h1 : ∀ d, d < 16 → hexAlphabet.getD d 0 ≠ 0 := by decide +kernel
  have h2 : ∀ bs, ∀ d ∈ nibbles bs, d < 16 := by
    intro bs
    induction bs with
    | nil => simp [nibbles]
    | cons b bs ih =>
      intro d hd
      simp only [nibbles, List.mem_cons] at hd
      have := UInt8.toNat_lt b
      rcases hd with rfl | rfl | hd
      · omega
      · omega
      · exact ih d hd
  intro b hb
  obtain ⟨d, hd, rfl⟩ := List.mem_map.1 hb
  exact h1 d (h2 bs d hd)

theorem hexLoop_spec (a post : List Byte) : ∀ (rest hd pre fid : List Byte),
    a = hd ++ pre ++ rest ++ post → hd.length = 5 → fid.length = 511 →
    pre.length + rest.length ≤ 255 →
    (∃ X, fid = (hexOf pre).take 509 ++ X ∧ (pre ≠ [] → ∃ Y, X = 0 :: Y)) →
    ∃ X, hexLoop a rest.length pre.length fid = .ok ((hexOf (pre ++ rest)).take 509 ++ X) ∧
      (pre ++ rest ≠ [] → ∃ Y, X = 0 :: Y) := by
  intro rest
  induction rest with
  | nil =>
    intro hd pre fid _ _ _ _ ⟨X, hX, hY⟩
    exact ⟨X, by simp [hexLoop, hX], by simpa using hY⟩
  | cons d rest ih =>
    intro hd pre fid ha h5 hf hn ⟨X, hX, _⟩
    simp only [List.length_cons] at hn
    have hr : rd a (5 + pre.length) = .ok d := by
      have := rd_append_right (hd ++ pre) (d :: rest ++ post) 0
      simp only [List.length_append, h5, Nat.add_zero] at this
      rw [ha, List.append_assoc _ (d :: rest), this]
      simp
    have hhl := hexOf_length pre
    have htk : (hexOf pre).take 509 = hexOf pre := List.take_of_length_le (by omega)
    rw [htk] at hX
    have hXl : X.length = 511 - 2 * pre.length := by
      have := congrArg List.length hX
      rw [hf, List.length_append, hhl] at this; omega
    have hw : wrs fid (pre.length * 2)
        ((hex2 d).take (511 - 1 - pre.length * 2 - 1) ++ [0]) =
        .ok ((hexOf (pre ++ [d])).take 509 ++
          0 :: X.drop ((hex2 d).take (511 - 1 - pre.length * 2 - 1) ++ [0]).length) := by
      have hl2 : ((hex2 d).take (511 - 1 - pre.length * 2 - 1) ++ [0]).length ≤ X.length := by
        rw [hXl]; simp [hex2]; omega
      rw [wrs_eq (by rw [hf]; omega)]
      congr 1
      have e1 : fid.take (pre.length * 2) = hexOf pre := by
        rw [hX]; exact List.take_left' (by omega)
      have e2 : fid.drop (pre.length * 2 +
          ((hex2 d).take (511 - 1 - pre.length * 2 - 1) ++ [0]).length) =
          X.drop ((hex2 d).take (511 - 1 - pre.length * 2 - 1) ++ [0]).length := by
        rw [hX, List.drop_append, List.drop_eq_nil_of_le (by omega), List.nil_append]
        congr 1; omega
      rw [e1, e2, hexOf_append, ← hex2_eq, List.take_append,
        List.take_of_length_le (show (hexOf pre).length ≤ 509 by omega)]
      have e3 : 509 - (hexOf pre).length = 511 - 1 - pre.length * 2 - 1 := by omega
      rw [e3]
      simp
    rw [List.length_cons, hexLoop, hr, bind_ok]
    simp only [hf]
    rw [if_neg (by omega), hw, bind_ok]
    have := ih hd (pre ++ [d]) _ (by rw [ha]; simp) h5 (by
      have := congrArg (fun r => match r with | .ok l => l.length | .error _ => 0) hw
      simp only at this
      rw [← this, wrs_eq (by
        rw [hf]; simp [hex2]; omega)]
      simp [hf, hex2]; omega) (by simp; omega) ⟨_, rfl, fun _ => ⟨_, rfl⟩⟩
    simpa using this

/-- The file identifier as shown by the library: the text is cut to 509 digits. -/
def shownFileId (data : List Byte) : List Byte :=
  if ∀ b ∈ data, Printable b then data else (hexOf data).take 509

theorem selectFile_spec (hd data : List Byte) (lc le : Byte) (h4 : hd.length = 4)
    (hlc : data.length = lc.toNat) (hne : data ≠ []) :
    selectFile (hd ++ lc :: data ++ [le]) =
      .ok (some (ascii "SELECT " ++ occurrenceText (hd.getD 3 0) ++ ascii " " ++
        shownFileId data)) := by
  have hlt := UInt8.toNat_lt lc
  have ha : hd ++ lc :: data ++ [le] = (hd ++ [lc]) ++ [] ++ data ++ [le] := by simp
  have h5 : (hd ++ [lc]).length = 5 := by simp [h4]
  have hr4 : rd (hd ++ lc :: data ++ [le]) 4 = .ok lc := by
    have := rd_append_right hd (lc :: data ++ [le]) 0
    rw [h4, Nat.add_zero] at this
    rw [List.append_assoc, this]
    simp
  have hr3 : rd (hd ++ lc :: data ++ [le]) 3 = .ok (hd.getD 3 0) := by
    rw [List.append_assoc, rd_append_left (by omega), rd_eq (by omega)]
    congr 1
    rw [List.getD_eq_getElem?_getD, List.getElem?_eq_getElem (by omega)]
    rfl
  rw [selectFile, hr4, bind_ok]
  have hp := printableLoop_spec _ [le] data (hd ++ [lc]) [] ha h5
  rw [List.length_nil, hlc] at hp
  rw [hp, bind_ok]
  rw [shownFileId]
  generalize hz : List.replicate 511 (0 : Byte) = z
  have hzl : z.length = 511 := by rw [← hz, List.length_replicate]
  clear hz
  by_cases hpr : ∀ b ∈ data, Printable b
  · rw [if_pos hpr, decide_eq_true hpr]
    have hs : slice (hd ++ lc :: data ++ [le]) 5 lc.toNat = .ok data := by
      rw [slice_eq (by simp; omega), ← hlc, ha]
      congr 1
      rw [List.append_nil, List.append_assoc, ← h5, List.drop_left', List.take_left']
      · rfl
      · rfl
    rw [hs]
    simp only [bind_ok]
    rw [if_pos trivial, snprintf_spec _ _ (by intro h; rw [h] at hzl; simp at hzl)]
    simp only [bind_ok, hr3, hzl]
    rw [List.take_of_length_le (by omega), strOver, cstr_spec, bind_ok, occurrence_eq]
    intro b hb h0
    have := (hpr b hb).1
    rw [h0] at this
    simp at this
  · rw [if_neg hpr, decide_eq_false hpr]
    obtain ⟨X, e, hY⟩ := hexLoop_spec _ [le] data (hd ++ [lc]) [] z ha h5
      hzl (by simp; omega) ⟨z, by simp [hexOf, nibbles], by simp⟩
    obtain ⟨Y, rfl⟩ := hY (by simpa using hne)
    rw [List.length_nil, hlc] at e
    rw [if_neg (by decide), e]
    simp only [bind_ok, hr3, List.nil_append]
    rw [cstr_spec _ _ (fun b hb => hexOf_ne_zero data b (List.mem_of_mem_take hb)), bind_ok,
      occurrence_eq]

/-! ## Safety of the helpers -/

theorem selectString_safe (a : List Byte) (h : 4 ≤ a.length) : ∃ t, selectString a = .ok t := by
  rw [selectString, rd_eq (i := 0) (by omega), bind_ok, rd_eq (i := 1) (by omega), bind_ok]
  split
  · exact ⟨_, rfl⟩
  · obtain ⟨r, hr⟩ := case_safe a
    rw [hr, bind_ok]
    match r, hr with
    | .ok .c2S, _ =>
      simp only [rd_eq (buf := a) (i := 2) (by omega), rd_eq (buf := a) (i := 3) (by omega), bind_ok]
      split <;> exact ⟨_, rfl⟩
    | .ok .c4S, hr =>
      obtain ⟨hd, lc, data, le, rfl, h4, hlc, hne⟩ := case_4S hr
      have hdl := List.length_pos_iff.2 hne
      have hl : (hd ++ lc :: data ++ [le]).length = 6 + data.length := by simp; omega
      have hf := selectFile_spec hd data lc le h4 hlc hne
      have hr4 : rd (hd ++ lc :: data ++ [le]) 4 = .ok lc := by
        have := rd_append_right hd (lc :: data ++ [le]) 0
        rw [h4, Nat.add_zero] at this
        rw [List.append_assoc, this]
        simp
      simp only [hr4, rd_eq (buf := hd ++ lc :: data ++ [le]) (i := 2) (by omega),
        rd_eq (buf := hd ++ lc :: data ++ [le]) (i := 3) (by omega),
        rd_eq (buf := hd ++ lc :: data ++ [le]) (i := 5) (by omega), bind_ok]
      split
      · split
        · rename_i h2
          have : data.length = 2 := by rw [hlc, h2]; rfl
          simp only [rd_eq (buf := hd ++ lc :: data ++ [le]) (i := 6) (by omega), bind_ok]
          have key : ∀ b : Bool, ∃ t, (if b then .ok (some (ascii "SELECT Master File"))
              else selectFile (hd ++ lc :: data ++ [le])) = .ok t := by
            intro b; cases b
            · exact ⟨_, hf⟩
            · exact ⟨_, rfl⟩
          split
          · exact key _
          · exact key false
        · exact ⟨_, hf⟩
      · exact ⟨_, hf⟩
    | .ok .c1, _ | .ok .c2E, _ | .ok .c3S, _ | .ok .c3E, _ | .ok .c4E, _ | .error _, _ =>
      exact ⟨_, rfl⟩

theorem readRecordString_safe (a : List Byte) (h : 4 ≤ a.length) :
    ∃ t, readRecordString a = .ok t := by
  obtain ⟨r, hr⟩ := case_safe a
  simp only [readRecordString, rd_eq (buf := a) (i := 0) (by omega),
    rd_eq (buf := a) (i := 1) (by omega), rd_eq (buf := a) (i := 2) (by omega),
    rd_eq (buf := a) (i := 3) (by omega), bind_ok, hr]
  split
  · exact ⟨_, rfl⟩
  · split
    · exact ⟨_, rfl⟩
    · split
      · exact ⟨_, rfl⟩
      · split
        · split
          · exact ⟨_, rfl⟩
          · split
            · exact ⟨_, rfl⟩
            · split <;> exact ⟨_, rfl⟩
        · exact ⟨_, rfl⟩

theorem putDataString_safe (a : List Byte) (h : 4 ≤ a.length) :
    ∃ t, putDataString a = .ok t := by
  obtain ⟨r, hr⟩ := case_safe a
  simp only [putDataString, rd_eq (buf := a) (i := 0) (by omega),
    rd_eq (buf := a) (i := 1) (by omega), rd_eq (buf := a) (i := 2) (by omega),
    rd_eq (buf := a) (i := 3) (by omega), bind_ok, hr]
  split
  · exact ⟨_, rfl⟩
  · match r, hr with
    | .ok .c3S, hr =>
      have := case_3S hr
      simp only [rd_eq (buf := a) (i := 4) (by omega), bind_ok]
      split
      · split
        · exact ⟨_, rfl⟩
        · split
          · exact ⟨_, rfl⟩
          · split
            · exact ⟨_, rfl⟩
            · split <;> exact ⟨_, rfl⟩
      · split
        · exact ⟨_, rfl⟩
        · split
          · exact ⟨_, rfl⟩
          · split
            · exact ⟨_, rfl⟩
            · split <;> exact ⟨_, rfl⟩
    | .ok .c3E, _ | .ok .c1, _ | .ok .c2S, _ | .ok .c2E, _ | .ok .c4S, _ | .ok .c4E, _
    | .error _, _ => exact ⟨_, rfl⟩

/-! ## C56 -/

theorem zero_mem_strOver (s old : List Byte) : (0 : Byte) ∈ strOver s old := by simp [strOver]

/-- Output of a description: the size is unchanged and there is a terminator. -/
def Described (str : List Byte) (s : List Byte) : Prop := s.length = str.length ∧ (0 : Byte) ∈ s

theorem finishText_spec (str : List Byte) (hz : (0 : Byte) ∈ str) (t : Option (List Byte)) :
    ∃ r s, finishText str t = .ok (r, s) ∧ Described str s := by
  have hne : str ≠ [] := by intro h; simp [h] at hz
  have h1 : 0 < str.length := List.length_pos_iff.2 hne
  cases t with
  | none => exact ⟨_, _, rfl, rfl, hz⟩
  | some t =>
    rw [finishText, snprintf_spec _ _ hne]
    refine ⟨_, _, rfl, strOver_length _ _ ?_, zero_mem_strOver _ _⟩
    have : (t.take (str.length - 1)).length ≤ str.length - 1 := List.length_take_le ..
    omega

theorem strncpy_described (str s : List Byte) (hne : str ≠ []) :
    ∃ out, strncpyTerm str s = .ok out ∧ Described str out := by
  obtain ⟨out, e, hl, k, hk⟩ := strncpyTerm_spec str s hne
  exact ⟨out, e, hl, by rw [hk]; simp⟩

theorem wr0_described (str : List Byte) (hne : str ≠ []) :
    ∃ s, wr str 0 0 = .ok s ∧ Described str s := by
  cases str with
  | nil => exact absurd rfl hne
  | cons b str => exact ⟨0 :: str, rfl, rfl, by simp⟩

theorem iso_safe (a str : List Byte) (h : 4 ≤ a.length) (hs : str ≠ []) :
    ∃ r s, isoGetString a str = .ok (r, s) ∧ Described str s := by
  have hsl : str.length ≠ 0 := by simpa using hs
  obtain ⟨s0, e0, hl0, hz0⟩ := wr0_described str hs
  have hne0 : s0 ≠ [] := by intro h; simp [h] at hz0
  rw [isoGetString, if_neg (by omega), e0, bind_ok]
  simp only [rd_eq (buf := a) (i := 0) (by omega), rd_eq (buf := a) (i := 1) (by omega), bind_ok]
  have hd0 : Described str s0 := ⟨hl0, hz0⟩
  have ht : ∀ t, ∃ r s, finishText s0 t = .ok (r, s) ∧ Described str s := by
    intro t
    obtain ⟨r, s, e, h1, h2⟩ := finishText_spec s0 hz0 t
    exact ⟨r, s, e, by rw [h1, hl0], h2⟩
  split
  · exact ⟨_, _, rfl, hd0⟩
  · split
    · exact ⟨_, _, rfl, hd0⟩
    · split
      · exact ⟨_, _, rfl, hd0⟩
      · split
        · obtain ⟨t, e⟩ := selectString_safe a h
          rw [e, bind_ok]; exact ht t
        · split
          · obtain ⟨t, e⟩ := readRecordString_safe a h
            rw [e, bind_ok]; exact ht t
          · split
            · obtain ⟨t, e⟩ := putDataString_safe a h
              rw [e, bind_ok]; exact ht t
            · split
              · exact ⟨_, _, rfl, hd0⟩
              · rename_i x _
                obtain ⟨out, e, h1, h2⟩ := strncpy_described s0 (ascii x) hne0
                rw [e, bind_ok]
                exact ⟨_, _, rfl, by rw [h1, hl0], h2⟩

theorem emv_safe (a str : List Byte) (h : 4 ≤ a.length) (hs : str ≠ []) :
    ∃ r s, emvGetString a str = .ok (r, s) ∧ Described str s := by
  have hsl : str.length ≠ 0 := by simpa using hs
  obtain ⟨s0, e0, hl0, hz0⟩ := wr0_described str hs
  have hne0 : s0 ≠ [] := by intro h; simp [h] at hz0
  rw [emvGetString, if_neg (by omega), if_neg hsl, e0, bind_ok]
  simp only [rd_eq (buf := a) (i := 0) (by omega), rd_eq (buf := a) (i := 1) (by omega),
    rd_eq (buf := a) (i := 2) (by omega), rd_eq (buf := a) (i := 3) (by omega), bind_ok]
  have hd0 : Described str s0 := ⟨hl0, hz0⟩
  split
  · exact ⟨_, _, rfl, hd0⟩
  · split
    · exact ⟨_, _, rfl, hd0⟩
    · split
      · split
        · rw [snprintf_spec _ _ hne0, bind_ok]
          refine ⟨_, _, rfl, ?_, zero_mem_strOver _ _⟩
          rw [strOver_length, hl0]
          have : 0 < s0.length := List.length_pos_iff.2 hne0
          exact Nat.lt_of_le_of_lt (List.length_take_le ..) (by omega)
        · split
          · exact ⟨_, _, rfl, hd0⟩
          · rename_i x _
            obtain ⟨out, e, h1, h2⟩ := strncpy_described s0 (ascii x) hne0
            rw [e, bind_ok]
            exact ⟨_, _, rfl, by rw [h1, hl0], h2⟩
      · obtain ⟨r, s, e, h1, h2⟩ := iso_safe a s0 h hne0
        rw [e, bind_ok]
        cases r with
        | true => exact ⟨_, _, rfl, by rw [h1, hl0], h2⟩
        | false =>
          obtain ⟨s2, e2, h3, h4⟩ := wr0_described s (by intro h; simp [h] at h2)
          simp only [Bool.false_eq_true, if_false, e2, bind_ok]
          exact ⟨_, _, rfl, by rw [h3, h1, hl0], h4⟩

/-- **C56** (partial: commands of at least the four header bytes; see `C56_short_overread`).
Describing any such command reads only the command, writes only inside the output and leaves
it NUL terminated. -/
theorem C56_safe_partial (a str : List Byte) (h : 4 ≤ a.length) :
    (∃ r s, emvGetString a str = .ok (r, s) ∧ s.length = str.length ∧
      (str ≠ [] → (0 : Byte) ∈ s)) ∧
    (∃ r s, isoGetString a str = .ok (r, s) ∧ s.length = str.length ∧
      (str ≠ [] → (0 : Byte) ∈ s)) := by
  by_cases hs : str = []
  · subst hs
    refine ⟨⟨0, [], ?_, rfl, by simp⟩, ⟨false, [], ?_, rfl, by simp⟩⟩
    · rw [emvGetString, if_neg (by omega), if_pos (by simp)]
    · rw [isoGetString, if_pos (.inr rfl)]
  · obtain ⟨r, s, e, h1, h2⟩ := emv_safe a str h hs
    obtain ⟨r', s', e', h1', h2'⟩ := iso_safe a str h hs
    exact ⟨⟨r, s, e, h1, fun _ => h2⟩, ⟨r', s', e', h1', fun _ => h2'⟩⟩

/-- **C56** for empty commands. -/
theorem C56_empty (str : List Byte) :
    emvGetString [] str = .ok (-1, str) ∧ isoGetString [] str = .ok (false, str) :=
  ⟨rfl, rfl⟩

/-- **C56 fails**: the length check uses the size of the output instead of that of the command
(emv_strings.c:5975, iso7816_strings.c:422), so any one byte command of a valid class makes
the library read past it. -/
theorem C56_short_overread (c0 : Byte) (hc : c0 ≠ 0xFF) (str : List Byte) (hs : 4 ≤ str.length) :
    emvGetString [c0] str = .error .oobRead ∧
    (c0 &&& 0x80 = 0 → isoGetString [c0] str = .error .oobRead) := by
  match str, hs with
  | x :: rest, hs =>
    have hl : ¬ (0 :: rest : List Byte).length < 4 := by simpa using hs
    have e0 : wr (x :: rest) 0 0 = .ok (0 :: rest) := rfl
    have er : rd [c0] 1 = .error .oobRead := rfl
    have ei : ∀ y, c0 &&& 0x80 = 0 → isoGetString [c0] (y :: rest) = .error .oobRead := by
      intro y h8
      have : ¬ ([c0].length = 0 ∨ (y :: rest).length = 0) := by simp
      rw [isoGetString, if_neg this]
      simp only [show wr (y :: rest) 0 0 = .ok (0 :: rest) from rfl, bind_ok, if_neg hl,
        rd_cons_zero, if_neg hc, h8, ne_eq, not_true, if_false, er]
      rfl
    refine ⟨?_, ei x⟩
    rw [emvGetString, if_neg (by simp), if_neg (by simp), e0]
    simp only [bind_ok, if_neg hl, rd_cons_zero, if_neg hc]
    by_cases h8 : c0 &&& 0x80 = 0
    · simp only [h8, ne_eq, not_true, if_false, ei 0 h8]
      rfl
    · simp only [h8, ne_eq, not_false_iff, if_true, er]
      rfl

/-- Commands whose description reads past them (output of four bytes or more): a single class byte,
and proprietary GET DATA commands without both parameters. -/
def EmvOverreads (a : List Byte) : Prop :=
  (a.length = 1 ∧ (a.getD 0 0).toNat ≠ 255) ∨
  ((a.length = 2 ∨ a.length = 3) ∧ 128 ≤ (a.getD 0 0).toNat ∧ (a.getD 0 0).toNat ≠ 255 ∧
    (a.getD 1 0).toNat = 0xCA)

/-- The same for interindustry commands alone. -/
def IsoOverreads (a : List Byte) : Prop := a.length = 1 ∧ (a.getD 0 0).toNat < 128

theorem texts_short (a : List Byte) (h2 : 2 ≤ a.length) (h4 : a.length < 4) :
    (∃ t, selectString a = .ok t) ∧ (∃ t, readRecordString a = .ok t) ∧
    (∃ t, putDataString a = .ok t) := by
  have hc : Apdu.apduCase a = .ok (.error (-1)) := by rw [Apdu.apduCase, if_pos h4]
  refine ⟨?_, ?_, ?_⟩
  · rw [selectString, rd_eq (by omega), bind_ok, rd_eq (by omega), bind_ok, hc]
    split <;> exact ⟨_, rfl⟩
  · rw [readRecordString, rd_eq (by omega), bind_ok, rd_eq (by omega), bind_ok, hc]
    split <;> exact ⟨_, rfl⟩
  · rw [putDataString, rd_eq (by omega), bind_ok, rd_eq (by omega), bind_ok, hc]
    split <;> exact ⟨_, rfl⟩

theorem texts_safe (a : List Byte) (h2 : 2 ≤ a.length) :
    (∃ t, selectString a = .ok t) ∧ (∃ t, readRecordString a = .ok t) ∧
    (∃ t, putDataString a = .ok t) := by
  by_cases h4 : a.length < 4
  · exact texts_short a h2 h4
  · exact ⟨selectString_safe a (by omega), readRecordString_safe a (by omega),
      putDataString_safe a (by omega)⟩

theorem class_bits : ∀ b : Byte, (b &&& 0x80 ≠ 0 ↔ 128 ≤ b.toNat) ∧ (b = 0xFF ↔ b.toNat = 255) ∧
    (b = 0xCA ↔ b.toNat = 0xCA) := by decide +kernel

theorem iso_exact (a str : List Byte) (hu : ¬ IsoOverreads a) (ha : a ≠ []) (hs : str ≠ []) :
    ∃ r s, isoGetString a str = .ok (r, s) ∧ Described str s := by
  have hsl : str.length ≠ 0 := by simpa using hs
  have hal : 0 < a.length := List.length_pos_iff.2 ha
  obtain ⟨s0, e0, hl0, hz0⟩ := wr0_described str hs
  have hne0 : s0 ≠ [] := by intro h; simp [h] at hz0
  have hd0 : Described str s0 := ⟨hl0, hz0⟩
  have ht : ∀ t, ∃ r s, finishText s0 t = .ok (r, s) ∧ Described str s := by
    intro t
    obtain ⟨r, s, e, h1, h2⟩ := finishText_spec s0 hz0 t
    exact ⟨r, s, e, by rw [h1, hl0], h2⟩
  rw [isoGetString, if_neg (by omega), e0, bind_ok]
  split
  · exact ⟨_, _, rfl, hd0⟩
  rw [rd_eq (by omega), bind_ok]
  split
  · exact ⟨_, _, rfl, hd0⟩
  split
  · exact ⟨_, _, rfl, hd0⟩
  rename_i h8
  have h2 : 2 ≤ a.length := by
    apply Classical.byContradiction
    intro hc
    refine hu ⟨by omega, ?_⟩
    match a, ha with
    | b :: _, _ =>
      have := (class_bits b).1
      simp only [List.getElem_cons_zero] at h8
      simp only [List.getD_cons_zero]
      apply Classical.byContradiction
      intro hc
      exact h8 (this.2 (by omega))
  obtain ⟨⟨t1, e1⟩, ⟨t2, e2⟩, ⟨t3, e3⟩⟩ := texts_safe a h2
  rw [rd_eq (by omega), bind_ok]
  split
  · rw [e1, bind_ok]; exact ht t1
  split
  · rw [e2, bind_ok]; exact ht t2
  split
  · rw [e3, bind_ok]; exact ht t3
  split
  · exact ⟨_, _, rfl, hd0⟩
  · rename_i x _
    obtain ⟨out, e, h1, h2⟩ := strncpy_described s0 (ascii x) hne0
    rw [e, bind_ok]
    exact ⟨_, _, rfl, by rw [h1, hl0], h2⟩

theorem emv_exact (a str : List Byte) (hu : ¬ EmvOverreads a) (ha : a ≠ []) (hs : str ≠ []) :
    ∃ r s, emvGetString a str = .ok (r, s) ∧ Described str s := by
  have hsl : str.length ≠ 0 := by simpa using hs
  have hal : 0 < a.length := List.length_pos_iff.2 ha
  by_cases h4 : 4 ≤ a.length
  · exact emv_safe a str h4 hs
  obtain ⟨s0, e0, hl0, hz0⟩ := wr0_described str hs
  have hne0 : s0 ≠ [] := by intro h; simp [h] at hz0
  have hd0 : Described str s0 := ⟨hl0, hz0⟩
  rw [emvGetString, if_neg (by omega), if_neg hsl, e0, bind_ok]
  split
  · exact ⟨_, _, rfl, hd0⟩
  rw [rd_eq hal, bind_ok]
  split
  · exact ⟨_, _, rfl, hd0⟩
  rename_i hff
  have hff' : (a.getD 0 0).toNat ≠ 255 := by
    match a, ha with
    | b :: _, _ => exact fun h => hff ((class_bits b).2.1.2 h)
  have h2 : 2 ≤ a.length := by
    apply Classical.byContradiction
    intro hc
    exact hu (.inl ⟨by omega, hff'⟩)
  split
  · rename_i h8
    rw [rd_eq (by omega), bind_ok]
    split
    · rename_i hca
      exfalso
      refine hu (.inr ⟨by omega, ?_, hff', ?_⟩)
      · match a, ha with
        | b :: _, _ => exact (class_bits b).1.1 h8
      · match a, h2 with
        | _ :: b :: _, _ => exact (class_bits b).2.2.1 hca
    · split
      · exact ⟨_, _, rfl, hd0⟩
      · rename_i x _
        obtain ⟨out, e, h1, h2⟩ := strncpy_described s0 (ascii x) hne0
        rw [e, bind_ok]
        exact ⟨_, _, rfl, by rw [h1, hl0], h2⟩
  · obtain ⟨r, s, e, h1, h2⟩ := iso_exact a s0 (fun h => by have := h.1; omega) ha hne0
    rw [e, bind_ok]
    cases r with
    | true => exact ⟨_, _, rfl, by rw [h1, hl0], h2⟩
    | false =>
      obtain ⟨s2, e2, h3, h4⟩ := wr0_described s (by intro h; simp [h] at h2)
      simp only [Bool.false_eq_true, if_false, e2, bind_ok]
      exact ⟨_, _, rfl, by rw [h3, h1, hl0], h4⟩

/-- **C56** (exactly).  With an output of four bytes or more the description of a command reads past
the command precisely for the commands of `EmvOverreads` and `IsoOverreads`; for every other command
it reads only the command, writes only inside the output and leaves it terminated. -/
theorem C56_exact (a str : List Byte) (ha : a ≠ []) (hs : 4 ≤ str.length) :
    (emvGetString a str = .error .oobRead ↔ EmvOverreads a) ∧
    (¬ EmvOverreads a → ∃ r s, emvGetString a str = .ok (r, s) ∧ Described str s) ∧
    (isoGetString a str = .error .oobRead ↔ IsoOverreads a) ∧
    (¬ IsoOverreads a → ∃ r s, isoGetString a str = .ok (r, s) ∧ Described str s) := by
  have hs0 : str ≠ [] := by rintro rfl; simp at hs
  refine ⟨⟨fun h => ?_, fun h => ?_⟩, fun h => emv_exact a str h ha hs0,
    ⟨fun h => ?_, fun h => ?_⟩, fun h => iso_exact a str h ha hs0⟩
  · apply Classical.byContradiction
    intro hn
    obtain ⟨r, s, e, -⟩ := emv_exact a str hn ha hs0
    rw [h] at e; cases e
  · rcases h with ⟨h1, h2⟩ | ⟨h1, h2, h3, h4⟩
    · match a, h1 with
      | [c0], _ =>
        exact (C56_short_overread c0 (fun h => h2 ((class_bits c0).2.1.1 h)) str hs).1
    · have key : ∀ (c0 c1 : Byte) (rest : List Byte), a = c0 :: c1 :: rest → rest.length < 2 →
          emvGetString a str = .error .oobRead := by
        intro c0 c1 rest ea hr
        subst ea
        simp only [List.getD_cons_zero, List.getD_cons_succ] at h2 h3 h4
        match str, hs with
        | x :: s, hs =>
          have hl : ¬ (0 :: s : List Byte).length < 4 := by simpa using hs
          rw [emvGetString, if_neg (by simp), if_neg (by simp),
            show wr (x :: s) 0 0 = .ok (0 :: s) from rfl, bind_ok, if_neg hl, rd_cons_zero, bind_ok,
            if_neg (fun h => h3 ((class_bits c0).2.1.1 h)), if_pos ((class_bits c0).1.2 h2),
            rd_cons_succ, rd_cons_zero, bind_ok, if_pos ((class_bits c1).2.2.2 h4)]
          match rest, hr with
          | [], _ => rfl
          | [_], _ => rfl
      match a, h1 with
      | [c0, c1], _ => exact key c0 c1 [] rfl (by simp)
      | [c0, c1, c2], _ => exact key c0 c1 [c2] rfl (by simp)
      | [], h1 => simp at h1
      | [_], h1 => simp at h1
      | _ :: _ :: _ :: _ :: _, h1 => simp at h1
  · apply Classical.byContradiction
    intro hn
    obtain ⟨r, s, e, -⟩ := iso_exact a str hn ha hs0
    rw [h] at e; cases e
  · obtain ⟨h1, h2⟩ := h
    match a, h1 with
    | [c0], _ =>
      simp only [List.getD_cons_zero] at h2
      have h80 := (class_bits c0).1
      have hff := (class_bits c0).2.1
      refine (C56_short_overread c0 (fun h => by have := hff.1 h; omega) str hs).2 ?_
      apply Classical.byContradiction
      intro hc
      have := h80.1 hc
      omega

example : EmvOverreads [0x80, 0xCA, 0x9F] ∧ ¬ EmvOverreads [0x80, 0xAE] ∧ ¬ EmvOverreads [0, 0xA4] ∧
    ¬ EmvOverreads [0x80, 0xCA, 0x9F, 0x36] := by
  simp [EmvOverreads]

/-! ## C67: SELECT -/

theorem isoGetString_select (hd data : List Byte) (lc le : Byte) (str : List Byte)
    (h4 : hd.length = 4) (h0 : hd.getD 0 0 &&& 0x80 = 0) (h1 : hd.getD 1 0 = 0xA4)
    (hlc : data.length = lc.toNat) (hne : data ≠ [])
    (hm : ¬ (hd.getD 2 0 = 0 ∧ hd.getD 3 0 = 0 ∧ data = [0x3F, 0x00])) (hs : 4 ≤ str.length) :
    isoGetString (hd ++ lc :: data ++ [le]) str =
      .ok (true, strOver ((ascii "SELECT " ++ occurrenceText (hd.getD 3 0) ++ ascii " " ++
        shownFileId data).take (str.length - 1)) str) := by
  match hd, h4 with
  | [c0, c1, p1, p2], _ =>
    simp only [List.getD_cons_zero, List.getD_cons_succ] at h0 h1 hm
    subst h1
    have hcase : Apdu.apduCase ([c0, 0xA4, p1, p2] ++ lc :: data ++ [le]) = .ok (.ok .c4S) := by
      have := Apdu.C22_recognise_partial [c0, 0xA4, p1, p2] rfl (.shortDataLe lc data le)
        ⟨hlc.symm, hne⟩ trivial
      simpa [Apdu.Body.enc, Apdu.Body.case] using this
    have hf := selectFile_spec [c0, 0xA4, p1, p2] data lc le rfl hlc hne
    have hff : c0 ≠ 0xFF := by intro h; rw [h] at h0; exact absurd h0 (by decide)
    have hsel : selectString ([c0, 0xA4, p1, p2] ++ lc :: data ++ [le]) =
        selectFile ([c0, 0xA4, p1, p2] ++ lc :: data ++ [le]) := by
      rw [selectString, hcase]
      simp only [List.cons_append, List.nil_append, rd_cons_zero, rd_cons_succ, bind_ok]
      rw [if_neg (by simp [h0])]
      by_cases hp : p1 = 0 ∧ p2 = 0
      · rw [if_pos hp]
        match data, hlc, hne, hm with
        | [d0], hlc, _, _ =>
          have : lc ≠ 2 := by intro h; rw [h] at hlc; simp at hlc
          simp [this]
        | [d0, d1], hlc, _, hm =>
          have hx : ¬ (d0 = 0x3F ∧ d1 = 0) := by
            rintro ⟨rfl, rfl⟩; exact hm ⟨hp.1, hp.2, rfl⟩
          by_cases h2 : lc = 2
          · by_cases h3 : d0 = 0x3F
            · have : ¬ d1 = 0 := fun h => hx ⟨h3, h⟩
              simp [h2, h3, this]
            · simp [h2, h3]
          · simp [h2]
        | d0 :: d1 :: d2 :: ds, hlc, _, _ =>
          have : lc ≠ 2 := by intro h; rw [h] at hlc; simp at hlc
          simp [this]
      · rw [if_neg hp]
    rw [hf] at hsel
    match str, hs with
    | x :: rest, hs =>
      have hl : ¬ (0 :: rest : List Byte).length < 4 := by simpa using hs
      rw [isoGetString, if_neg (by simp), show wr (x :: rest) 0 0 = .ok (0 :: rest) from rfl,
        bind_ok, if_neg hl]
      simp only [hsel]
      simp only [List.cons_append, List.nil_append, rd_cons_zero, rd_cons_succ, bind_ok,
        if_neg hff, h0, ne_eq, not_true, if_false, if_true]
      rw [finishText, snprintf_spec _ _ (by simp), bind_ok]
      simp [strOver]

/-- **C67** (partial: identifiers that are printable or shorter than 255 bytes; see
`C67_last_digit_lost`).  A SELECT command by name or identifier is described as the selected
occurrence and the identifier: as text when all of it is printable, otherwise in hexadecimal. -/
theorem C67_select_partial (hd data : List Byte) (lc le : Byte) (str : List Byte)
    (h4 : hd.length = 4) (h0 : hd.getD 0 0 &&& 0x80 = 0) (h1 : hd.getD 1 0 = 0xA4)
    (hlc : data.length = lc.toNat) (hne : data ≠ [])
    (hm : ¬ (hd.getD 2 0 = 0 ∧ hd.getD 3 0 = 0 ∧ data = [0x3F, 0x00])) (hs : 4 ≤ str.length)
    (hok : (∀ b ∈ data, Printable b) ∨ data.length < 255) :
    isoGetString (hd ++ lc :: data ++ [le]) str =
      .ok (true, strOver ((ascii "SELECT " ++ occurrenceText (hd.getD 3 0) ++ ascii " " ++
        fileId data).take (str.length - 1)) str) := by
  rw [isoGetString_select hd data lc le str h4 h0 h1 hlc hne hm hs]
  have : shownFileId data = fileId data := by
    rw [shownFileId, fileId]
    by_cases hp : ∀ b ∈ data, Printable b
    · rw [if_pos hp, if_pos hp]
    · rw [if_neg hp, if_neg hp]
      rcases hok with h | h
      · exact absurd h hp
      · exact List.take_of_length_le (by rw [hexOf_length]; omega)
  rw [this]

/-- **C67**: the master file. -/
theorem C67_master_file (c0 le : Byte) (str : List Byte) (h0 : c0 &&& 0x80 = 0)
    (hs : 4 ≤ str.length) :
    isoGetString [c0, 0xA4, 0, 0, 2, 0x3F, 0, le] str =
      .ok (true, strOver ((ascii "SELECT Master File").take (str.length - 1)) str) ∧
    isoGetString [c0, 0xA4, 0, 0, le] str =
      .ok (true, strOver ((ascii "SELECT Master File").take (str.length - 1)) str) := by
  have hff : c0 ≠ 0xFF := by intro h; rw [h] at h0; exact absurd h0 (by decide)
  match str, hs with
  | x :: rest, hs =>
    have hl : ¬ (0 :: rest : List Byte).length < 4 := by simpa using hs
    constructor
    · rw [isoGetString, if_neg (by simp), show wr (x :: rest) 0 0 = .ok (0 :: rest) from rfl,
        bind_ok, if_neg hl]
      simp only [rd_cons_zero, rd_cons_succ, bind_ok, if_neg hff, h0, ne_eq, not_true, if_false,
        if_true, selectString, Apdu.apduCase]
      simp [finishText, snprintf_spec, strOver]
    · rw [isoGetString, if_neg (by simp), show wr (x :: rest) 0 0 = .ok (0 :: rest) from rfl,
        bind_ok, if_neg hl]
      simp only [rd_cons_zero, rd_cons_succ, bind_ok, if_neg hff, h0, ne_eq, not_true, if_false,
        if_true, selectString, Apdu.apduCase]
      simp [finishText, snprintf_spec, strOver]

/-- **C67 fails** for 255 byte identifiers that are not printable: the last hexadecimal digit is
missing. -/
theorem C67_last_digit_lost (hd data : List Byte) (le : Byte) (str : List Byte)
    (h4 : hd.length = 4) (h0 : hd.getD 0 0 &&& 0x80 = 0) (h1 : hd.getD 1 0 = 0xA4)
    (hlen : data.length = 255) (hnp : ¬ ∀ b ∈ data, Printable b) (hs : 4 ≤ str.length) :
    isoGetString (hd ++ 255 :: data ++ [le]) str =
      .ok (true, strOver ((ascii "SELECT " ++ occurrenceText (hd.getD 3 0) ++ ascii " " ++
        (fileId data).dropLast).take (str.length - 1)) str) := by
  have hne : data ≠ [] := by intro h; simp [h] at hlen
  rw [isoGetString_select hd data 255 le str h4 h0 h1 hlen hne
    (by rintro ⟨-, -, h⟩; rw [h] at hlen; simp at hlen) hs]
  rw [shownFileId, if_neg hnp, fileId, if_neg hnp, List.dropLast_eq_take, hexOf_length, hlen]

example : isoGetString ([0x00, 0xA4, 0x04, 0x00] ++ 2 :: [0xA0, 0x01] ++ [0]) (List.replicate 40 9) =
    .ok (true, strOver (ascii "SELECT first A001") (List.replicate 40 9)) := by decide +kernel
example : emvGetString ([0x00, 0xA4, 0x04, 0x02] ++ 3 :: (ascii "1PA") ++ [0]) (List.replicate 40 9) =
    .ok (0, strOver (ascii "SELECT next 1PA") (List.replicate 40 9)) := by decide +kernel
example : emvGetString [0x00, 0xB2, 0x01, 0x14, 0x00] (List.replicate 60 9) =
    .ok (0, strOver (ascii "READ RECORD from short EF 2, record number 1")
      (List.replicate 60 9)) := by decide +kernel
example : emvGetString [0x80, 0xCA, 0x9F, 0x36, 0x00] (List.replicate 30 9) =
    .ok (0, strOver (ascii "GET DATA field 9F36") (List.replicate 30 9)) := by decide +kernel

end Verif.Capdu
