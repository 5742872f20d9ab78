import Verif.AppAlt
import Verif.AppProps
import Verif.Iso8859AltProps

/-! # C130: the display name with the libraries of characters -/

set_option autoImplicit false

namespace Verif.AppAlt
open Ber App Formats
open Iso8859Alt (Lib Page Chars Holds)

/-! ## Specification -/

/-- The page of ISO 8859 the issuer code table (9F11) names, from the directory's FCI if there is one. -/
def pageOf (pse : Option (List Tlv)) (tlvs : List Tlv) : Option Nat :=
  match field 0x9F11 (match pse with | some l => l | none => tlvs) with
  | some [b] => if b.toNat ∈ [1, 2, 3, 4, 5, 6, 7, 8, 9, 10, 11, 13, 14, 15] then some b.toNat else none
  | _ => none

/-- Up to 16 characters of a preferred name. -/
def letters (v : List Byte) : List Byte := (v.filter (fun b => decide (Printable8859 b))).take 16

/-- The preferred name in its page, if there are both and the library knows the page. -/
def preferred (x : Lib) (pse : Option (List Tlv)) (tlvs : List Tlv) : Option (Nat × List Byte) :=
  match pageOf pse tlvs, field 0x9F12 tlvs with
  | some cp, some v => if x.known cp then some (cp, letters v) else none
  | _, _ => none

/-- The text of the label, or of the AID if there is no label. -/
def fallback (tlvs : List Tlv) (aid : List Byte) : List Byte :=
  match field 0x50 tlvs with
  | some v => (v.filter (fun b => decide (AlnumSpace b))).take 32
  | none => (hexOf aid).take 32

/-- The characters a page has among these. -/
def inPage (x : Lib) (cp : Nat) (s : List Byte) : List Byte := s.flatMap fun b => (x.char cp b).getD []

/-- The text shown with boost: the characters of the preferred name its page has, as many bytes as fit, or else the label
or AID. -/
def shownBoost (x : Lib) (pse : Option (List Tlv)) (tlvs : List Tlv) (aid : List Byte) : List Byte :=
  match (preferred x pse tlvs).map (fun p => inPage x p.1 p.2) with
  | some (c :: s) => (c :: s).take 32
  | _ => fallback tlvs aid

/-- The library has no terminator in its characters but the terminator. -/
def Clean (x : Lib) : Prop := ∀ cp b u, b ≠ 0 → x.char cp b = some u → 0 ∉ u

/-! ## Lemmas -/

theorem codeTable_spec (c : Conv) (hc : c.isSupported = Iso8859Alt.isSupported) (pse : Option (List Tlv)) (tlvs : List Tlv) :
    codeTable c pse tlvs = .ok ((pageOf pse tlvs).getD 0) := by
  have e : pse.getD tlvs = (match pse with | some l => l | none => tlvs) := by cases pse <;> rfl
  unfold codeTable pageOf
  rw [← find_field, ← e, hc]
  cases find (pse.getD tlvs) 0x9F11 with
  | none => rfl
  | some t =>
    obtain ⟨tag, flags, v⟩ := t
    match v with
    | [] => rfl
    | [b] =>
      simp only [List.length_singleton, if_true, rd_cons_zero, bind_ok, Option.map_some]
      by_cases h : b.toNat ∈ [1, 2, 3, 4, 5, 6, 7, 8, 9, 10, 11, 13, 14, 15]
      · rw [if_pos h, if_pos ((Iso8859Alt.supported_iff _).mpr h)]; rfl
      · rw [if_neg h, if_neg (fun h' => h ((Iso8859Alt.supported_iff _).mp h'))]; rfl
    | b :: c :: l => simp

theorem pageOf_page {pse : Option (List Tlv)} {tlvs : List Tlv} {cp : Nat} (h : pageOf pse tlvs = some cp) : Page cp := by
  unfold pageOf at h
  split at h
  · split at h
    · rename_i h'
      cases h
      exact h'
    · cases h
  · cases h

theorem letters_spec (v : List Byte) : (∀ b ∈ letters v, Printable8859 b) ∧ (letters v).length ≤ 16 := by
  refine ⟨fun b hb => ?_, List.length_take_le _ _⟩
  have := (List.mem_filter.mp (List.mem_of_mem_take hb)).2
  simpa using this

/-- Up to the conversion, the preferred name is the same with all variants. -/
theorem preferredName_eq (c : Conv) (cp : Nat) (hcp : cp ≠ 0) (tlvs : List Tlv) (name : List Byte)
    (hnil : c.toUtf8 cp [] name = .ok (-1, name)) :
    preferredName c cp tlvs name =
      match field 0x9F12 tlvs with
      | none => .ok (false, name)
      | some v => (do
        let (r, name) ← c.toUtf8 cp (letters v) name
        .ok (r == 0, name) : C (Bool × List Byte)) := by
  unfold preferredName
  rw [if_neg hcp, ← find_field]
  cases find tlvs 0x9F12 with
  | none => rfl
  | some t =>
    simp only [Option.map_some]
    by_cases hv : t.value = []
    · rw [hv, show letters [] = [] from rfl, hnil]
      rfl
    · have e17 : List.replicate 17 (0 : Byte) ≠ [] := by simp
      rw [C12_non_control t.value (List.replicate 17 0) hv e17]
      simp only [bind_ok, if_true]
      rw [List.length_replicate]
      have hk : (t.value.filter (fun b => decide (Printable8859 b))).take (17 - 1) = letters t.value := rfl
      rw [hk]
      have hk0 : ∀ b ∈ letters t.value, b ≠ 0 := fun b hb => printable_ne_zero b ((letters_spec t.value).1 b hb)
      unfold strOver
      rw [strlen_str _ _ hk0]
      simp only [bind_ok]
      rw [slice_eq (by simp)]
      simp only [bind_ok, List.drop_zero, List.take_left]

/-- Without a preferred name. -/
theorem rest_spec (tlvs : List Tlv) (aid : Tlv) : (fallback tlvs aid.value).length ≤ 32 ∧
    ∃ r, (match find tlvs 0x50 with
      | some t => do
        let (_, name) ← Formats.ansToAlnumSpaceStr t.value (List.replicate 33 0)
        .ok (0, name)
      | none => Formats.bToStr aid.value (List.replicate 33 0) : C (Int × List Byte)) =
        .ok (r, fallback tlvs aid.value ++ List.replicate (33 - (fallback tlvs aid.value).length) 0) ∧
      (r = 0 ∨ (r = -1 ∧ aid.value = [] ∧ field 0x50 tlvs = none)) := by
  obtain ⟨h1, r, name, h2, h3, h4⟩ := C37_display_name (some []) tlvs aid
  have e : shown (some []) tlvs aid.value = fallback tlvs aid.value := rfl
  rw [e] at h1 h3
  exact ⟨h1, r, by rw [← h3]; exact h2, h4⟩

theorem clean_inPage {x : Lib} (hx : Clean x) (cp : Nat) : ∀ s : List Byte, (∀ b ∈ s, Printable8859 b) → 0 ∉ inPage x cp s := by
  intro s hs h
  obtain ⟨b, hb, hm⟩ := List.mem_flatMap.mp h
  cases hc : x.char cp b with
  | none => rw [hc] at hm; cases hm
  | some u =>
    rw [hc] at hm
    exact hx cp b u (printable_ne_zero b (hs b hb)) hc hm

/-! ## C130 -/

/-- **C130** (simple).  With the simple variant it is the name of C37. -/
theorem C130_simple (pse : Option (List Tlv)) (tlvs : List Tlv) (aid : Tlv) (name : List Byte) :
    displayName simple pse tlvs aid name = App.displayName pse tlvs aid name := rfl

/-- **C130** (boost).  For every combination of fields the display name is the specified text, at most 32 bytes of it,
followed by zeros. -/
theorem C130_boost (x : Lib) (hx : Clean x) (pse : Option (List Tlv)) (tlvs : List Tlv) (aid : Tlv) :
    (shownBoost x pse tlvs aid.value).length ≤ 32 ∧
    ∃ r, displayName (boost x) pse tlvs aid (List.replicate 33 0) = .ok (r, shownBoost x pse tlvs aid.value ++
        List.replicate (33 - (shownBoost x pse tlvs aid.value).length) 0) ∧
      (r = 0 ∨ (r = -1 ∧ aid.value = [] ∧ field 0x50 tlvs = none)) := by
  obtain ⟨f1, r, f2, f3⟩ := rest_spec tlvs aid
  have e33 : List.replicate 33 (0 : Byte) ≠ [] := by simp
  have key : ∃ used, preferredName (boost x) ((pageOf pse tlvs).getD 0) tlvs (List.replicate 33 0) =
      .ok (used, if used then shownBoost x pse tlvs aid.value ++
        List.replicate (33 - (shownBoost x pse tlvs aid.value).length) 0 else List.replicate 33 0) ∧
      (used = true → (shownBoost x pse tlvs aid.value).length ≤ 32) ∧
      (used = false → shownBoost x pse tlvs aid.value = fallback tlvs aid.value) := by
    unfold shownBoost preferred
    cases hp : pageOf pse tlvs with
    | none => exact ⟨false, rfl, by simp, fun _ => rfl⟩
    | some cp =>
      have hpg := pageOf_page hp
      have hcp : cp ≠ 0 := by rintro rfl; simp [Page] at hpg
      rw [Option.getD_some, preferredName_eq (boost x) cp hcp tlvs _ ((Iso8859Alt.C129_pages x cp [] _).2.1 (.inl rfl)).2]
      cases hf : field 0x9F12 tlvs with
      | none => exact ⟨false, rfl, by simp, fun _ => rfl⟩
      | some v =>
        simp only
        cases hk : x.known cp with
        | false =>
          simp only [Bool.false_eq_true, if_false, Option.map_none]
          by_cases hl : letters v = []
          · refine ⟨false, ?_, by simp, fun _ => trivial⟩
            rw [hl, show (boost x).toUtf8 = Iso8859Alt.toUtf8Boost x from rfl, ((Iso8859Alt.C129_pages x cp [] _).2.1 (.inl rfl)).2]
            rfl
          · refine ⟨false, ?_, by simp, fun _ => trivial⟩
            rw [show (boost x).toUtf8 = Iso8859Alt.toUtf8Boost x from rfl,
              ((Iso8859Alt.C129_pages x cp (letters v) _).2.2.2 hl e33 hpg hk).2]
            rfl
        | true =>
          simp only [if_true, Option.map_some]
          rw [show (boost x).toUtf8 = Iso8859Alt.toUtf8Boost x from rfl]
          by_cases hl : letters v = []
          · refine ⟨false, ?_, by simp, fun _ => ?_⟩
            · rw [hl, ((Iso8859Alt.C129_pages x cp [] _).2.1 (.inl rfl)).2]
              rfl
            · rw [hl]; rfl
          · have hc : ∀ s : List Byte, Chars (x.char cp) (s.filter fun b => (x.char cp b).isSome) (inPage x cp s) := by
              intro s
              induction s with
              | nil => exact .nil
              | cons b s ih =>
                cases hb : x.char cp b with
                | none =>
                  rw [List.filter_cons_of_neg (by simp [hb]), inPage, List.flatMap_cons, hb]
                  exact ih
                | some u =>
                  rw [List.filter_cons_of_pos (by simp [hb]), inPage, List.flatMap_cons, hb]
                  exact .cons hb ih
            obtain ⟨b1, b2⟩ := Iso8859Alt.C129_boost x cp (letters v) (List.replicate 33 0) hl e33 hpg hk _ _ rfl (hc (letters v))
            have h0 := clean_inPage hx cp (letters v) (letters_spec v).1
            cases hq : inPage x cp (letters v) with
            | nil => exact ⟨false, by rw [b1 hq]; rfl, by simp, fun _ => rfl⟩
            | cons c s =>
              have hne : (letters v).flatMap (fun b => (x.char cp b).getD []) ≠ [] := by
                show inPage x cp (letters v) ≠ []
                rw [hq]; simp
              have e := Iso8859Alt.boost_eq x cp (letters v) (List.replicate 33 0) hl e33 hpg hk hne
              refine ⟨true, ?_, fun _ => List.length_take_le _ _, by simp⟩
              rw [e, bind_ok]
              rw [show (letters v).flatMap (fun b => (x.char cp b).getD []) = c :: s from hq]
              rw [takeWhile_all (p := (· ≠ 0)) (c :: s) (by intro b hb; simp; rintro rfl; exact h0 (hq ▸ hb))]
              simp only [List.length_replicate, if_true]
              rfl
  obtain ⟨used, k1, k2, k3⟩ := key
  unfold displayName
  rw [codeTable_spec (boost x) rfl, bind_ok, k1, bind_ok]
  cases used with
  | true => exact ⟨k2 rfl, 0, rfl, .inl rfl⟩
  | false =>
    rw [k3 rfl]
    exact ⟨f1, r, f2, f3⟩

/-- **C130** (whole names).  With boost a preferred name all characters of which are in the page, with at most two bytes
each, is shown in full. -/
theorem C130_whole (x : Lib) (pse : Option (List Tlv)) (tlvs : List Tlv) (aid : List Byte) (cp : Nat) (s t : List Byte)
    (hp : preferred x pse tlvs = some (cp, s)) (hc : Chars (x.char cp) s t) (ht : t ≠ [])
    (h2 : ∀ b ∈ s, ∀ u, x.char cp b = some u → u.length ≤ 2) : shownBoost x pse tlvs aid = t := by
  have hs : s.length ≤ 16 := by
    unfold preferred at hp
    split at hp
    · split at hp
      · cases hp; exact (letters_spec _).2
      · cases hp
    · cases hp
  have hl : t.length ≤ 2 * s.length := by
    clear hp hs ht
    induction hc with
    | nil => simp
    | cons hb _ ih =>
      have := ih fun b hb => h2 b (by simp [hb])
      have := h2 _ (by simp) _ hb
      rw [List.length_append, List.length_cons]
      omega
  unfold shownBoost
  rw [hp, Option.map_some, show inPage x cp s = t from Iso8859Alt.chars_flat hc]
  obtain ⟨c, r, rfl⟩ := List.exists_cons_of_ne_nil ht
  exact List.take_of_length_le (by omega)

/-- **C130, partial** (iconv).  A preferred name all characters of which are in the page, and which fits with its
terminator, is shown in full; without a preferred name it is the label or AID. -/
theorem C130_iconv_partial (x : Lib) (pse : Option (List Tlv)) (tlvs : List Tlv) (aid : Tlv) :
    (∀ cp s t, preferred x pse tlvs = some (cp, s) → Chars (x.char cp) s t → s ≠ [] → t.length ≤ 32 →
      displayName (iconv x) pse tlvs aid (List.replicate 33 0) = .ok (0, t ++ List.replicate (33 - t.length) 0)) ∧
    (preferred x pse tlvs = none → ∃ r, displayName (iconv x) pse tlvs aid (List.replicate 33 0) =
        .ok (r, fallback tlvs aid.value ++ List.replicate (33 - (fallback tlvs aid.value).length) 0) ∧
      (r = 0 ∨ (r = -1 ∧ aid.value = [] ∧ field 0x50 tlvs = none))) := by
  have e33 : List.replicate 33 (0 : Byte) ≠ [] := by simp
  have hcv : (iconv x).toUtf8 = Iso8859Alt.toUtf8Iconv x := rfl
  constructor
  · intro cp s t hp hc hs hl
    unfold preferred at hp
    cases hpg : pageOf pse tlvs with
    | none => rw [hpg] at hp; cases hp
    | some cp' =>
      cases hf : field 0x9F12 tlvs with
      | none => rw [hpg, hf] at hp; cases hp
      | some v =>
        rw [hpg, hf] at hp
        cases hk : x.known cp' with
        | false => simp [hk] at hp
        | true =>
          simp only [hk, if_true, Option.some.injEq, Prod.mk.injEq] at hp
          obtain ⟨rfl, rfl⟩ := hp
          have hpage := pageOf_page hpg
          have hcp : cp' ≠ 0 := by rintro rfl; simp [Page] at hpage
          have e := (Iso8859Alt.C129_iconv x cp' (letters v) (List.replicate 33 0) hs e33 hpage hk).1 t hc (by simp; omega)
          unfold displayName
          rw [codeTable_spec (iconv x) rfl, bind_ok, hpg, Option.getD_some,
            preferredName_eq (iconv x) cp' hcp tlvs _ ((Iso8859Alt.C129_pages x cp' [] _).2.1 (.inl rfl)).1, hf]
          simp only [hcv, e, bind_ok]
          show Except.ok ((0 : Int), t ++ (List.replicate 33 (0 : Byte)).drop t.length) = _
          rw [zeros_drop]
  · intro hp
    obtain ⟨_, r, f2, f3⟩ := rest_spec tlvs aid
    refine ⟨r, ?_, f3⟩
    have key : preferredName (iconv x) ((pageOf pse tlvs).getD 0) tlvs (List.replicate 33 0) = .ok (false, List.replicate 33 0) := by
      unfold preferred at hp
      cases hpg : pageOf pse tlvs with
      | none => rfl
      | some cp =>
        have hpage := pageOf_page hpg
        have hcp : cp ≠ 0 := by rintro rfl; simp [Page] at hpage
        rw [Option.getD_some, preferredName_eq (iconv x) cp hcp tlvs _ ((Iso8859Alt.C129_pages x cp [] _).2.1 (.inl rfl)).1]
        cases hf : field 0x9F12 tlvs with
        | none => rfl
        | some v =>
          rw [hpg, hf] at hp
          cases hk : x.known cp with
          | true => simp [hk] at hp
          | false =>
            simp only [hcv]
            by_cases hl : letters v = []
            · rw [hl, ((Iso8859Alt.C129_pages x cp [] _).2.1 (.inl rfl)).1]; rfl
            · rw [((Iso8859Alt.C129_pages x cp (letters v) _).2.2.2 hl e33 hpage hk).1]; rfl
    unfold displayName
    rw [codeTable_spec (iconv x) rfl, bind_ok, key, bind_ok]
    exact f2

/-- Page 11, Thai. -/
def thai : Lib := ⟨fun _ => true, fun cp b =>
  if b < 0x80 then some [b]
  else if cp = 11 ∧ 0xA1 ≤ b ∧ b ≤ 0xDA then some [0xE0, 0xB8 + (b - 0xA0) / 64, 0x80 + (b - 0xA0) % 64]
  else none⟩

/-- An application with a preferred name of this many Thai letters and an empty label. -/
def named (n : Nat) : List Tlv := [⟨0x9F11, 0, [11]⟩, ⟨0x9F12, 0, List.replicate n 0xA1⟩, ⟨0x50, 0, []⟩]

/-- **C130 is false of the code** (long names).  Eleven Thai letters take 33 bytes.  With boost the last one is cut inside
of the letter; with iconv the display name has no terminator, and neither does the name of an application with twelve
letters and an empty label. -/
theorem C130_thai (aid : Tlv) :
    displayName (boost thai) none (named 11) aid (List.replicate 33 0) =
      .ok (0, (List.replicate 10 [0xE0, 0xB8, 0x81]).flatten ++ [0xE0, 0xB8, 0]) ∧
    displayName (iconv thai) none (named 11) aid (List.replicate 33 0) =
      .ok (0, (List.replicate 11 [0xE0, 0xB8, 0x81]).flatten) ∧
    displayName (iconv thai) none (named 12) aid (List.replicate 33 0) =
      .ok (0, (List.replicate 11 [0xE0, 0xB8, 0x81]).flatten) := ⟨rfl, rfl, rfl⟩

example : Clean thai := by
  intro cp b u hb hu h
  have key : ∀ b : Byte, b ≠ 0 → (0 : Byte) ∉ [b] ∧
      (0xA1 ≤ b → b ≤ 0xDA → (0 : Byte) ∉ [0xE0, 0xB8 + (b - 0xA0) / 64, 0x80 + (b - 0xA0) % 64]) := by decide +kernel
  simp only [thai] at hu
  split at hu
  · cases hu; exact (key b hb).1 h
  · split at hu
    · rename_i h'
      cases hu
      exact (key b hb).2 h'.2.1 h'.2.2 h
    · cases hu

example : displayName (boost thai) none (named 2) ⟨0x84, 0, [0xA0, 0]⟩ (List.replicate 33 0) =
    .ok (0, [0xE0, 0xB8, 0x81, 0xE0, 0xB8, 0x81] ++ List.replicate 27 0) := by decide +kernel
example : preferred thai none (named 2) = some (11, [0xA1, 0xA1]) := by decide +kernel

end Verif.AppAlt
