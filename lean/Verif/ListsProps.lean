import Verif.ListsLemmas

/-!
# C73 to C76: descriptions of repeated structures
-/

set_option autoImplicit false

namespace Verif.Lists
open Verif StrList Fields Formats

/-! ## C73: CVM List and CVM Results -/

/-- CVM codes (EMV Book 3, table 43): bits 6 to 1 of the first byte of a CV rule. -/
def cvmTable : List (Nat × List Byte) := [
  (0b000000, txt!"Fail CVM processing"),
  (0b000001, txt!"Plaintext PIN verification performed by ICC"),
  (0b000010, txt!"Enciphered PIN verified online"),
  (0b000011, txt!"Plaintext PIN verification performed by ICC and signature"),
  (0b000100, txt!"Enciphered PIN verification performed by ICC"),
  (0b000101, txt!"Enciphered PIN verification performed by ICC and signature"),
  (0b000110, txt!"Facial biometric verified offline (by ICC)"),
  (0b000111, txt!"Facial biometric verified online"),
  (0b001000, txt!"Finger biometric verified offline (by ICC)"),
  (0b001001, txt!"Finger biometric verified online"),
  (0b001010, txt!"Palm biometric verified offline (by ICC)"),
  (0b001011, txt!"Palm biometric verified online"),
  (0b001100, txt!"Iris biometric verified offline (by ICC)"),
  (0b001101, txt!"Iris biometric verified online"),
  (0b001110, txt!"Voice biometric verified offline (by ICC)"),
  (0b001111, txt!"Voice biometric verified online"),
  (0b011110, txt!"Signature (paper)"),
  (0b011111, txt!"No CVM required"),
  (0b111111, txt!"Invalid CV Rule")]

/-- The text of a CVM code. -/
def methodText (cvm : Byte) : List Byte :=
  ((cvmTable.find? (fun p => p.1 == cvm.toNat % 64)).map (·.2)).getD txt!"Unknown CVM"

/-- CVM condition codes (EMV Book 3, table 44), with the two amounts as texts. -/
def conditionText (tx ty : List Byte) (cond : Nat) : List Byte :=
  match cond with
  | 0 => txt!"Always"
  | 1 => txt!"If unattended cash"
  | 2 => txt!"If not unattended cash and not manual cash and not purchase with cashback"
  | 3 => txt!"If terminal supports the CVM"
  | 4 => txt!"If manual cash"
  | 5 => txt!"If purchase with cashback"
  | 6 => txt!"If transaction is in the application currency and is under " ++ tx ++ txt!" value"
  | 7 => txt!"If transaction is in the application currency and is over " ++ tx ++ txt!" value"
  | 8 => txt!"If transaction is in the application currency and is under " ++ ty ++ txt!" value"
  | 9 => txt!"If transaction is in the application currency and is over " ++ ty ++ txt!" value"
  | _ => txt!"Unknown condition"

/-- The line of a CV rule in a list with amounts `x` and `y`. -/
def ruleLine (x y : Nat) (r : CvRule) : List Byte :=
  conditionText (decimal x) (decimal y) r.cond.toNat ++ txt!"; " ++ methodText r.cvm ++ txt!"; " ++
    (if r.cvm.toNat / 64 % 2 = 1 then txt!"Apply succeeding CV Rule if this CVM is unsuccessful"
     else txt!"Fail cardholder verification if this CVM is unsuccessful")

theorem cvmCode_spec : ∀ b : Byte, cvmCode b = methodText b := by decide +kernel

theorem apply_spec : ∀ b : Byte, (b &&& 0x40 ≠ 0) ↔ b.toNat / 64 % 2 = 1 := by decide +kernel

theorem conditionText_other (tx ty : List Byte) (n : Nat) (h : 10 ≤ n) :
    conditionText tx ty n = txt!"Unknown condition" := by
  match n, h with
  | n + 10, _ => rfl

theorem condString_spec (cond : Byte) (amounts : Option (Nat × Nat)) (loc : List Byte)
    (hl : loc.length = 128) (ha : ∀ x y, amounts = some (x, y) → x < 2 ^ 32 ∧ y < 2 ^ 32) :
    ∃ c, condString cond amounts loc = .ok c ∧
      Capdu.cstr c = .ok (conditionText
        (match amounts with | some (x, _) => decimal x | none => txt!"X")
        (match amounts with | some (_, y) => decimal y | none => txt!"Y") cond.toNat) := by
  have lit : ∀ s : List Byte, s.length ≤ 127 → (∀ b ∈ s, b ≠ 0) →
      ∃ c, Capdu.strncpyTerm loc s = .ok c ∧ Capdu.cstr c = .ok s :=
    fun s => strncpy_cstr loc s hl
  have under : ∀ v, v < 2 ^ 32 → ∃ c, Capdu.snprintf loc (underText v) = .ok c ∧
      Capdu.cstr c = .ok (txt!"If transaction is in the application currency and is under " ++
        decimal v ++ txt!" value") := by
    intro v hv
    rw [underText, decU_spec v hv]
    have := decimal_length v hv
    apply snprintf_cstr loc _ hl
    · simp only [List.length_append, bytesOfNum_length]; omega
    · intro b hb
      simp only [List.mem_append] at hb
      rcases hb with (hb | hb) | hb
      · revert b; decide +kernel
      · exact decimal_ne_zero v b hb
      · revert b; decide +kernel
  have over : ∀ v, v < 2 ^ 32 → ∃ c, Capdu.snprintf loc (overText v) = .ok c ∧
      Capdu.cstr c = .ok (txt!"If transaction is in the application currency and is over " ++
        decimal v ++ txt!" value") := by
    intro v hv
    rw [overText, decU_spec v hv]
    have := decimal_length v hv
    apply snprintf_cstr loc _ hl
    · simp only [List.length_append, bytesOfNum_length]; omega
    · intro b hb
      simp only [List.mem_append] at hb
      rcases hb with (hb | hb) | hb
      · revert b; decide +kernel
      · exact decimal_ne_zero v b hb
      · revert b; decide +kernel
  unfold condString
  by_cases h : cond = 0x00
  · rw [if_pos h, h]; exact lit _ (by decide +kernel) (by decide +kernel)
  by_cases h1 : cond = 0x01
  · rw [if_neg h, if_pos h1, h1]; exact lit _ (by decide +kernel) (by decide +kernel)
  by_cases h2 : cond = 0x02
  · rw [if_neg h, if_neg h1, if_pos h2, h2]; exact lit _ (by decide +kernel) (by decide +kernel)
  by_cases h3 : cond = 0x03
  · rw [if_neg h, if_neg h1, if_neg h2, if_pos h3, h3]
    exact lit _ (by decide +kernel) (by decide +kernel)
  by_cases h4 : cond = 0x04
  · rw [if_neg h, if_neg h1, if_neg h2, if_neg h3, if_pos h4, h4]
    exact lit _ (by decide +kernel) (by decide +kernel)
  by_cases h5 : cond = 0x05
  · rw [if_neg h, if_neg h1, if_neg h2, if_neg h3, if_neg h4, if_pos h5, h5]
    exact lit _ (by decide +kernel) (by decide +kernel)
  by_cases h6 : cond = 0x06
  · rw [if_neg h, if_neg h1, if_neg h2, if_neg h3, if_neg h4, if_neg h5, if_pos h6, h6]
    match amounts, ha with
    | some (x, y), ha => exact under x (ha x y rfl).1
    | none, _ => exact lit _ (by decide +kernel) (by decide +kernel)
  by_cases h7 : cond = 0x07
  · rw [if_neg h, if_neg h1, if_neg h2, if_neg h3, if_neg h4, if_neg h5, if_neg h6, if_pos h7, h7]
    match amounts, ha with
    | some (x, y), ha => exact over x (ha x y rfl).1
    | none, _ => exact lit _ (by decide +kernel) (by decide +kernel)
  by_cases h8 : cond = 0x08
  · rw [if_neg h, if_neg h1, if_neg h2, if_neg h3, if_neg h4, if_neg h5, if_neg h6, if_neg h7,
      if_pos h8, h8]
    match amounts, ha with
    | some (x, y), ha => exact under y (ha x y rfl).2
    | none, _ => exact lit _ (by decide +kernel) (by decide +kernel)
  by_cases h9 : cond = 0x09
  · rw [if_neg h, if_neg h1, if_neg h2, if_neg h3, if_neg h4, if_neg h5, if_neg h6, if_neg h7,
      if_neg h8, if_pos h9, h9]
    match amounts, ha with
    | some (x, y), ha => exact over y (ha x y rfl).2
    | none, _ => exact lit _ (by decide +kernel) (by decide +kernel)
  rw [if_neg h, if_neg h1, if_neg h2, if_neg h3, if_neg h4, if_neg h5, if_neg h6, if_neg h7,
    if_neg h8, if_neg h9, conditionText_other]
  · exact lit _ (by decide +kernel) (by decide +kernel)
  · have key : ∀ b : Byte, ¬ (b = 0 ∨ b = 1 ∨ b = 2 ∨ b = 3 ∨ b = 4 ∨ b = 5 ∨ b = 6 ∨
        b = 7 ∨ b = 8 ∨ b = 9) → 10 ≤ b.toNat := by decide +kernel
    exact key cond (by simp only [not_or]; exact ⟨h, h1, h2, h3, h4, h5, h6, h7, h8, h9⟩)

theorem cvmLine_spec (loc : List Byte) (hl : loc.length = 128) (x y : Nat) (hx : x < 2 ^ 32)
    (hy : y < 2 ^ 32) (r : CvRule) : cvmLine loc x y r = .ok (ruleLine x y r) := by
  obtain ⟨c, e1, e2⟩ := condString_spec r.cond (some (x, y)) loc hl
    (fun a b h => by cases h; exact ⟨hx, hy⟩)
  rw [cvmLine, e1, bind_ok, e2, bind_ok]
  simp only [apply_spec, cvmCode_spec]
  rfl

theorem cvmLoop_spec (loc : Nat → List Byte) (hl : ∀ i, (loc i).length = 128) (x y : Nat) (hx : x < 2 ^ 32)
    (hy : y < 2 ^ 32) (rs : List CvRule) : ∀ (fuel : Nat) (it : Itr), rs.length < fuel →
    cvmLoop loc x y fuel (encRules rs) it =
      addAll (fun s => emvAdd (some s)) (rs.map (ruleLine x y)) it := by
  induction rs with
  | nil =>
    intro fuel it hf
    match fuel, hf with
    | fuel + 1, _ => rfl
  | cons r rs ih =>
    intro fuel it hf
    match fuel, hf with
    | fuel + 1, hf =>
      have hn : cvmNext (encRules (r :: rs)) = .ok (encRules rs, .ok 2 r) := by
        rw [encRules_cons]
        unfold cvmNext
        have hl := encRules_length rs
        rw [if_neg (by simp), if_neg (by simp; omega)]
        simp only [rd_cons_zero, rd_cons_succ, bind_ok]
        rw [suffix_eq (by simp)]
        rfl
      rw [cvmLoop, hn, bind_ok]
      simp only
      rw [cvmLine_spec _ (hl _) x y hx hy, bind_ok, List.map_cons, addAll]
      cases emvAdd (some (ruleLine x y r)) it with
      | error e => rfl
      | ok it' =>
        rw [bind_ok, bind_ok]
        exact ih fuel it' (by simp at hf; omega)

theorem append_ne_nil_mid (a b c d e : List Byte) (h : b ≠ []) : a ++ b ++ c ++ d ++ e ≠ [] := by
  simp [h]

theorem ruleLine_ne (x y : Nat) (r : CvRule) : ruleLine x y r ≠ [] :=
  append_ne_nil_mid _ _ _ _ _ (by decide)

open BerSpec in
theorem cvmInit_enc (x y : List Byte) (hx : x.length = 4) (hy : y.length = 4) (rs : List CvRule)
    (h1 : rs ≠ []) (h2 : rs.length ≤ 122) :
    cvmInit (x ++ y ++ encRules rs) = .ok (.ok (beNat x, beNat y, encRules rs)) := by
  have hp : rs.length ≠ 0 := by simpa using h1
  match x, hx, y, hy with
  | [a, b, c, d], _, [e, f, g, h], _ =>
    have hl := encRules_length rs
    have hlen : ([a, b, c, d] ++ [e, f, g, h] ++ encRules rs).length = 8 + 2 * rs.length := by
      simp [hl]; omega
    unfold cvmInit
    rw [if_neg (by omega), if_neg (by omega), if_neg (by omega), if_neg (by omega),
      if_neg (by omega)]
    rw [suffix_eq (by omega), suffix_eq (by omega)]
    simp only [List.cons_append, List.nil_append, List.drop_succ_cons, List.drop_zero, bind_ok,
      beLoop_four]

open BerSpec in
theorem beNat_four (x : List Byte) (hx : x.length = 4) : beNat x < 2 ^ 32 := by
  match x, hx with
  | [a, b, c, d], _ =>
    have := a.toNat_lt
    have := b.toNat_lt
    have := c.toNat_lt
    have := d.toNat_lt
    simp only [beNat, List.foldl]
    omega

open BerSpec in
/-- **C73** (CVM List).  A list of two amounts and 1 to 122 rules is described by one line per
rule, in order, with the condition (amounts in decimal), the method and what to do when it is
unsuccessful; whatever the local array contained. -/
theorem C73_list (loc : Nat → List Byte) (hl : ∀ i, (loc i).length = 128) (x y : List Byte) (hx : x.length = 4)
    (hy : y.length = 4) (rs : List CvRule) (h1 : rs ≠ []) (h2 : rs.length ≤ 122)
    (str : List Byte) (hs : str ≠ []) :
    ∃ str', cvmList loc (x ++ y ++ encRules rs) str = .ok (0, str') ∧
      Shows str (rs.map (ruleLine (beNat x) (beNat y))) str' := by
  obtain ⟨it, e, hsh⟩ := addAll_shows str (rs.map (ruleLine (beNat x) (beNat y))) (by
    intro s h
    rw [List.mem_map] at h
    obtain ⟨r, -, rfl⟩ := h
    exact ruleLine_ne _ _ r)
  refine ⟨it.buf, ?_, hsh⟩
  rw [cvmList, if_neg (by simp [hx, hs]), cvmInit_enc x y hx hy rs h1 h2,
    bind_ok]
  simp only
  rw [cvmLoop_spec loc hl _ _ (beNat_four x hx) (beNat_four y hy) rs _ _
    (by rw [encRules_length]; omega), e, bind_ok]

/-- **C73** (CVM List, other lengths).  Any other length is refused with an error code, and the
output is left as it was; nothing outside the field is read for any input. -/
theorem C73_list_refused (loc : Nat → List Byte) (b str : List Byte)
    (h : ¬ (10 ≤ b.length ∧ b.length ≤ 252 ∧ b.length % 2 = 0)) :
    ∃ c, c ≠ 0 ∧ cvmList loc b str = .ok (c, str) := by
  by_cases h0 : b.length = 0 ∨ str.length = 0
  · exact ⟨-1, by decide, by rw [cvmList, if_pos h0]⟩
  · rcases C19_reject b with ⟨-, c, hc, e⟩ | ⟨x, y, rs, rfl, hx, hy, h1, h2⟩
    · refine ⟨c, hc, ?_⟩
      rw [cvmList, if_neg h0]
      unfold cvmAll at e
      cases hi : cvmInit b with
      | error u => rw [hi] at e; cases e
      | ok q =>
        rw [hi, bind_ok] at e
        cases q with
        | error c' => cases e; rfl
        | ok p =>
          obtain ⟨x, y, itr⟩ := p
          simp only at e
          cases hc : cvmIterate (itr.length + 1) itr with
          | error u => rw [hc] at e; cases e
          | ok q => rw [hc, bind_ok] at e; cases e
    · exfalso; apply h
      have := encRules_length rs
      have : 0 < rs.length := List.length_pos_iff.2 h1
      simp only [List.length_append]
      omega

/-- A list of two rules. -/
example : ((cvmList (fun _ => List.replicate 128 0x55) [0, 0, 0, 100, 0, 0, 1, 0, 0x42, 0x06, 0x1F, 0x00]
    (List.replicate 400 0x55))).toOption.map (fun p => (p.1, p.2.takeWhile (· ≠ 0))) =
    some (0, txt!"If transaction is in the application currency and is under 100 value; Enciphered PIN verified online; Apply succeeding CV Rule if this CVM is unsuccessful\nAlways; No CVM required; Fail cardholder verification if this CVM is unsuccessful\n") := by
  decide +kernel

/-- The lines for CVM Results (EMV Book 4, annex A4). -/
def resultLines (a b c : Byte) : List (List Byte) := [
  txt!"CVM Performed: " ++ (if a.toNat = 0x3F then txt!"CVM not performed" else methodText a),
  txt!"CVM Condition: " ++ conditionText txt!"X" txt!"Y" b.toNat,
  txt!"CVM Result: " ++ (match c.toNat with
    | 0 => txt!"Unknown"
    | 1 => txt!"Failed"
    | 2 => txt!"Successful"
    | n => decimal n)]

theorem cvmResultText_spec (c : Byte) : cvmResultText c = txt!"CVM Result: " ++ (match c.toNat with
    | 0 => txt!"Unknown"
    | 1 => txt!"Failed"
    | 2 => txt!"Successful"
    | n => decimal n) := by
  rw [cvmResultText]
  by_cases h0 : c = 0x00
  · rw [if_pos h0, h0]; decide +kernel
  by_cases h1 : c = 0x01
  · rw [if_neg h0, if_pos h1, h1]; decide +kernel
  by_cases h2 : c = 0x02
  · rw [if_neg h0, if_neg h1, if_pos h2, h2]; decide +kernel
  rw [if_neg h0, if_neg h1, if_neg h2, decU_spec _ (by have := c.toNat_lt; omega)]
  have : ∀ c : Byte, ¬ c = 0 → ¬ c = 1 → ¬ c = 2 → 3 ≤ c.toNat := by decide +kernel
  have h3 := this c h0 h1 h2
  generalize c.toNat = n at *
  match n, h3 with
  | n + 3, _ => rfl

/-- **C73** (CVM Results).  Exactly three bytes are described, by three lines; other lengths are
refused and the output left as it was. -/
theorem C73_results (loc : List Byte) (hl : loc.length = 128) :
    (∀ f str : List Byte, f ≠ [] → str ≠ [] → f.length ≠ 3 → cvmResults loc f str = .ok (1, str)) ∧
    (∀ (a b c : Byte) (str : List Byte), str ≠ [] →
      ∃ str', cvmResults loc [a, b, c] str = .ok (0, str') ∧ Shows str (resultLines a b c) str') := by
  refine ⟨fun f str hf hs h3 => ?_, fun a b c str hs => ?_⟩
  · rw [cvmResults, if_neg (by simpa using hf), if_neg (by simpa using hs), if_pos h3]
  · obtain ⟨it, e, hsh⟩ := addAll_shows str (resultLines a b c) (by
      intro s h
      simp only [resultLines, List.mem_cons, List.not_mem_nil, or_false] at h
      have : ∀ x y : List Byte, x ≠ [] → x ++ y ≠ [] := by intro x y h; simp [h]
      rcases h with rfl | rfl | rfl <;> exact this _ _ (by decide))
    refine ⟨it.buf, ?_, hsh⟩
    obtain ⟨d, e1, e2⟩ := condString_spec b none loc hl (by simp)
    have ha : (if a = 0x3F then txt!"CVM not performed" else cvmCode a) =
        (if a.toNat = 0x3F then txt!"CVM not performed" else methodText a) := by
      have : ∀ a : Byte, a = 0x3F ↔ a.toNat = 0x3F := by decide +kernel
      simp only [this a, cvmCode_spec]
    rw [cvmResults, if_neg (by simp), if_neg (by simpa using hs), if_neg (by simp)]
    simp only [rd_cons_zero, rd_cons_succ, bind_ok]
    rw [e1, ha]
    simp only [resultLines, addAll] at e
    rw [← cvmResultText_spec] at e
    cases h1 : emvAdd (some (txt!"CVM Performed: " ++
        (if a.toNat = 0x3F then txt!"CVM not performed" else methodText a))) (init str) with
    | error u => rw [h1] at e; cases e
    | ok it1 =>
      rw [h1, bind_ok] at e
      rw [bind_ok, bind_ok, e2, bind_ok]
      simp only
      cases h2 : emvAdd (some (txt!"CVM Condition: " ++ conditionText txt!"X" txt!"Y" b.toNat)) it1 with
      | error u => rw [h2] at e; cases e
      | ok it2 =>
        rw [h2, bind_ok] at e
        rw [bind_ok]
        cases h3 : emvAdd (some (cvmResultText c)) it2 with
        | error u => rw [h3] at e; cases e
        | ok it3 =>
          rw [h3, bind_ok] at e
          cases e
          rfl

example : ((cvmResults (List.replicate 128 0x55) [0x3F, 0x07, 0x05] (List.replicate 200 0x55))).toOption.map
    (fun p => (p.1, p.2.takeWhile (· ≠ 0))) =
    some (0, txt!"CVM Performed: CVM not performed\nCVM Condition: If transaction is in the application currency and is over X value\nCVM Result: 5\n") := by
  decide +kernel

/-! ## C74: Application File Locator -/

/-- The line of one entry: short file identifier, record or range of records, and how many of
them take part in offline data authentication. -/
def recordLine (e : AflEntry) : List Byte :=
  txt!"SFI " ++ decimal e.sfi.toNat ++ txt!", record " ++ decimal e.first.toNat ++
    (if e.first.toNat < e.last.toNat then txt!" to " ++ decimal e.last.toNat else []) ++
    (match e.oda.toNat with
     | 0 => []
     | 1 => txt!", 1 record used for offline data authentication"
     | n => txt!", " ++ decimal n ++ txt!" records used for offline data authentication")

theorem decimal_one : decimal 1 = [0x31] := by
  rw [decimal, Str.digits, if_pos (by decide)]; rfl

theorem recordLine_ne (e : AflEntry) : recordLine e ≠ [] := by
  unfold recordLine
  simp only [List.append_assoc]
  intro h
  rw [List.append_eq_nil_iff] at h
  exact absurd h.1 (by decide)

theorem aflLine_spec (e : AflEntry) (h : e.WF) : aflLine e = recordLine e := by
  obtain ⟨-, -, h1, h2, h3⟩ := h
  have hd : ∀ b : Byte, decU b.toNat = decimal b.toNat := fun b =>
    decU_spec _ (by have := b.toNat_lt; omega)
  have hgt : (e.oda > 1) ↔ 1 < e.oda.toNat := by
    rw [gt_iff_lt, UInt8.lt_iff_toNat_lt]; rfl
  have hz : e.oda = 0 ↔ e.oda.toNat = 0 := by
    constructor
    · intro h; rw [h]; rfl
    · intro h; exact UInt8.toNat_inj.1 h
  have hf : e.first = e.last ↔ e.first.toNat = e.last.toNat := UInt8.toNat_inj.symm
  have one : txt!", " ++ ([0x31] ++ txt!" record used for offline data authentication") =
      txt!", 1 record used for offline data authentication" := by decide +kernel
  have one' : txt!", " ++ ([0x31] ++ (txt!" record" ++ ([] ++
      txt!" used for offline data authentication"))) =
      txt!", 1 record used for offline data authentication" := by decide +kernel
  have many : txt!" record" ++ (txt!"s" ++ txt!" used for offline data authentication") =
      txt!" records used for offline data authentication" := by decide +kernel
  unfold aflLine recordLine
  simp only [hd, hgt, hz, hf, ne_eq]
  generalize e.oda.toNat = n at *
  by_cases c1 : e.first.toNat = e.last.toNat
  · rw [if_pos c1, if_neg (show ¬ e.first.toNat < e.last.toNat by omega)]
    match n, h3 with
    | 0, _ => rw [if_neg (by simp)]; simp only [List.append_nil]
    | 1, _ =>
      rw [if_pos (by simp), decimal_one]
      simp only [List.append_assoc, List.nil_append, one]
    | n + 2, h3 => omega
  · rw [if_neg c1, if_pos (show e.first.toNat < e.last.toNat by omega)]
    match n, h3 with
    | 0, _ => rw [if_neg (by simp)]; simp only [List.append_nil, List.append_assoc]
    | 1, _ =>
      rw [if_pos (by simp), decimal_one, if_neg (by omega)]
      simp only [List.append_assoc, one']
    | n + 2, _ =>
      rw [if_pos (by simp), if_pos (by omega)]
      simp only [List.append_assoc, many]

theorem aflLoop_spec : ∀ (fuel : Nat) (a : List Byte) (es : List AflEntry) (c : Int) (it : Itr),
    aflIterate fuel a = .ok (es, c) →
    aflLoop fuel a it = (addAll (fun s => emvAdd (some s)) (es.map aflLine) it >>=
      fun it => .ok (c, it)) := by
  intro fuel
  induction fuel with
  | zero => intro a es c it h; cases h
  | succ fuel ih =>
    intro a es c it h
    rw [aflIterate] at h
    rw [aflLoop]
    cases hn : aflNext a with
    | error u => rw [hn] at h; cases h
    | ok p =>
      obtain ⟨a', r⟩ := p
      rw [hn, bind_ok] at h
      rw [bind_ok]
      cases r with
      | eod => cases h; rfl
      | err c' => cases h; rfl
      | ok n e =>
        simp only at h ⊢
        cases hi : aflIterate fuel a' with
        | error u => rw [hi] at h; cases h
        | ok p =>
          obtain ⟨es', c'⟩ := p
          rw [hi, bind_ok] at h
          cases h
          rw [List.map_cons, addAll]
          cases emvAdd (some (aflLine e)) it with
          | error u => rfl
          | ok it' =>
            rw [bind_ok, bind_ok]
            exact ih a' es' _ it' hi

/-- **C74** (accepted).  The encoding of 1 to 63 well-formed entries is described by one line per
entry, in order. -/
theorem C74_accept (es : List AflEntry) (h : ∀ e ∈ es, e.WF) (h0 : es ≠ []) (h1 : es.length ≤ 63)
    (str : List Byte) (hs : str ≠ []) :
    ∃ str', aflList (encAfl es) str = .ok (0, str') ∧ Shows str (es.map recordLine) str' := by
  have hm : es.map aflLine = es.map recordLine :=
    List.map_congr_left (fun e he => aflLine_spec e (h e he))
  obtain ⟨it, e, hsh⟩ := addAll_shows str (es.map recordLine) (by
    intro s h
    rw [List.mem_map] at h
    obtain ⟨r, -, rfl⟩ := h
    exact recordLine_ne r)
  refine ⟨it.buf, ?_, hsh⟩
  have hr := C18_roundtrip es h h0 h1
  rw [aflAll] at hr
  have hl := encAfl_length es
  have hp : es.length ≠ 0 := by simpa using h0
  by_cases hi : aflInit (encAfl es) ≠ 0
  · rw [if_pos hi] at hr; simp only [Except.ok.injEq, Prod.mk.injEq] at hr; exact absurd hr.2 hi
  · rw [if_neg hi] at hr
    rw [aflList, if_neg (by rw [hl]; simp [hs]; omega), if_neg hi,
      aflLoop_spec _ _ _ _ _ hr, hm, e, bind_ok, bind_ok]
    simp only
    rw [if_neg (by omega)]

/-- **C74** (refused).  Anything else gives a non-zero code; and then the output is either as it
was (a length that is not a multiple of 4 from 4 to 252) or it is the empty text.  For no input is
anything outside the field read. -/
theorem C74_refused (afl str : List Byte) (hs : str ≠ [])
    (h : ¬ ∃ es : List AflEntry, es ≠ [] ∧ es.length ≤ 63 ∧ (∀ e ∈ es, AflEntry.WF e) ∧
      afl = encAfl es) :
    ∃ c str', c ≠ 0 ∧ aflList afl str = .ok (c, str') ∧
      (((afl = [] ∨ afl.length % 4 ≠ 0 ∨ afl.length > 252) ∧ str' = str) ∨
       (afl ≠ [] ∧ afl.length % 4 = 0 ∧ afl.length ≤ 252 ∧ 0 < c ∧ str'.length = str.length ∧
        str'.head? = some 0)) := by
  obtain ⟨es, c, e, hw, ⟨rest, hr, hcases⟩, hiff⟩ := C18_any afl
  have hc : c ≠ 0 := fun hc => h (hiff.1 hc)
  unfold aflList
  by_cases h0 : afl.length = 0 ∨ str.length = 0
  · have ha : afl = [] := by
      rcases h0 with h0 | h0
      · simpa using h0
      · exact absurd h0 (by simpa using hs)
    exact ⟨-1, str, by decide, by rw [if_pos h0], .inl ⟨.inl ha, rfl⟩⟩
  · rw [aflAll] at e
    by_cases hi : aflInit afl ≠ 0
    · refine ⟨aflInit afl, str, hi, by rw [if_neg h0, if_pos hi], .inl ⟨?_, rfl⟩⟩
      unfold aflInit at hi
      by_cases a1 : afl.length = 0
      · exact absurd (Or.inl a1) h0
      · rw [if_neg a1] at hi
        by_cases a2 : afl.length % 4 ≠ 0
        · exact .inr (.inl a2)
        · rw [if_neg a2] at hi
          by_cases a3 : afl.length > 252
          · exact .inr (.inr a3)
          · rw [if_neg a3] at hi; exact absurd rfl hi
    · rw [if_neg hi] at e
      have hneg : ¬ (afl = [] ∨ afl.length % 4 ≠ 0 ∨ afl.length > 252) := by
        have hi' : aflInit afl = 0 := Decidable.not_not.1 hi
        unfold aflInit at hi'
        intro hh
        rcases hh with hh | hh | hh
        · subst hh; cases hi'
        · by_cases a1 : afl.length = 0
          · exact hh (by rw [a1])
          · rw [if_neg a1, if_pos hh] at hi'; cases hi'
        · rw [if_neg (by omega)] at hi'
          by_cases a2 : afl.length % 4 ≠ 0
          · rw [if_pos a2] at hi'; cases hi'
          · rw [if_neg a2, if_pos hh] at hi'; cases hi'
      have hlt : c < 0 := by
        rcases hcases with hh | hh | hh
        · exact absurd hh.1 hc
        · exact hh.1
        · exact absurd hh.2.2 hneg
      obtain ⟨it, e', hsh⟩ := addAll_shows str (es.map aflLine) (by
        intro s h
        rw [List.mem_map] at h
        obtain ⟨r, hr, rfl⟩ := h
        rw [aflLine_spec r (hw r hr)]
        exact recordLine_ne r)
      have hlen := hsh.1
      have hpos : 0 < it.buf.length := by
        rw [hlen]; exact List.length_pos_iff.2 hs
      refine ⟨-c, it.buf.set 0 0, by omega, ?_, .inr ⟨?_, ?_, ?_, by omega, by simpa using hlen, ?_⟩⟩
      · rw [if_neg h0, if_neg hi, aflLoop_spec _ _ _ _ _ e, e', bind_ok, bind_ok]
        simp only
        rw [if_pos hlt, wr_eq hpos, bind_ok]
      · intro hh; exact hneg (.inl hh)
      · exact Decidable.not_not.1 (fun hh => hneg (.inr (.inl hh)))
      · exact Nat.not_lt.1 (fun hh => hneg (.inr (.inr hh)))
      · cases hb : it.buf with
        | nil => rw [hb] at hpos; simp at hpos
        | cons a l => rfl

/-- Two entries; and a third that is malformed. -/
example : (aflList [0x08, 1, 1, 1, 0x10, 2, 5, 3] (List.replicate 200 0x55)).toOption.map
    (fun p => (p.1, p.2.takeWhile (· ≠ 0))) =
    some (0, txt!"SFI 1, record 1, 1 record used for offline data authentication\nSFI 2, record 2 to 5, 3 records used for offline data authentication\n") ∧
    (aflList [0x08, 1, 1, 1, 0x10, 0, 5, 3] (List.replicate 200 0x55)).toOption.map
    (fun p => (p.1, p.2.takeWhile (· ≠ 0))) = some (5, []) := by
  decide +kernel

/-! ## C75: Application Selection Registered Proprietary Data -/

/-- One entry: identifier and data of at most 255 bytes. -/
structure Asrpd where
  hi : Byte
  lo : Byte
  data : List Byte

/-- Identifier, length, data. -/
def Asrpd.enc (e : Asrpd) : List Byte := e.hi :: e.lo :: UInt8.ofNat e.data.length :: e.data

/-- The concatenation of entries. -/
def encAsrpd (es : List Asrpd) : List Byte := (es.map Asrpd.enc).flatten

/-- The line for an entry. -/
def asrpdName (hi lo : Byte) : List Byte :=
  if (hi, lo) = (0x00, 0x01) then txt!"European Cards Stakeholders Group"
  else if (hi, lo) = (0x00, 0x03) then txt!"Technical Cooperation ep2 Association"
  else txt!"Unknown ASRPD identifier"

theorem asrpdText_spec (hi lo : Byte) : asrpdText (hi.toNat * 256 + lo.toNat) = asrpdName hi lo := by
  have hl := lo.toNat_lt
  have key : ∀ k : Byte, (hi.toNat * 256 + lo.toNat = k.toNat) ↔ (hi, lo) = (0x00, k) := by
    intro k
    have hk := k.toNat_lt
    rw [Prod.mk.injEq, ← UInt8.toNat_inj, ← UInt8.toNat_inj]
    show _ ↔ hi.toNat = 0 ∧ _
    omega
  have k1 : hi.toNat * 256 + lo.toNat = 0x0001 ↔ _ := key 0x01
  have k3 : hi.toNat * 256 + lo.toNat = 0x0003 ↔ _ := key 0x03
  unfold asrpdText asrpdName
  by_cases h1 : (hi, lo) = (0x00, 0x01)
  · rw [if_pos h1, if_pos (k1.2 h1)]
  · rw [if_neg h1, if_neg (fun h => h1 (k1.1 h))]
    by_cases h3 : (hi, lo) = (0x00, 0x03)
    · rw [if_pos h3, if_pos (k3.2 h3)]
    · rw [if_neg h3, if_neg (fun h => h3 (k3.1 h))]

theorem asrpdName_ne (hi lo : Byte) : asrpdName hi lo ≠ [] := by
  unfold asrpdName
  split
  · decide
  · split <;> decide

/-- The line for an entry whose data is cut off. -/
def cutOff : List Byte → List (List Byte)
  | hi :: lo :: _ :: _ => [asrpdName hi lo]
  | _ => []

theorem cutOff_ne (rest : List Byte) : ∀ s ∈ cutOff rest, s ≠ [] := by
  match rest with
  | [] => simp [cutOff]
  | [_] => simp [cutOff]
  | [_, _] => simp [cutOff]
  | x :: y :: _ :: _ =>
    intro s hs
    simp only [cutOff, List.mem_singleton] at hs
    rw [hs]
    exact asrpdName_ne x y

/-- What the loop does to any input. -/
theorem asrpdLoop_any : ∀ (fuel : Nat) (a : List Byte), a.length < fuel →
    ∃ (es : List Asrpd) (rest : List Byte) (last : List (List Byte)) (c : Int),
      (∀ e ∈ es, e.data.length ≤ 255) ∧ a = encAsrpd es ++ rest ∧
      last = cutOff rest ∧
      ((c = 0 ∧ rest = [] ∧ last = []) ∨
       (0 < c ∧ rest ≠ [] ∧
        ¬ ∃ (e : Asrpd) (r : List Byte), e.data.length ≤ 255 ∧ rest = e.enc ++ r)) ∧
      ∀ it, asrpdLoop fuel a it = (addAll (fun s => emvAdd (some s))
        (es.map (fun e => asrpdName e.hi e.lo) ++ last) it >>= fun it => .ok (c, it)) := by
  intro fuel
  induction fuel with
  | zero => intro a h; omega
  | succ fuel ih =>
    intro a hf
    match a, hf with
    | [], _ =>
      exact ⟨[], [], [], 0, by simp, rfl, rfl, .inl ⟨rfl, rfl, rfl⟩, fun it => rfl⟩
    | [x], _ =>
      refine ⟨[], [x], [], 2, by simp, rfl, rfl, .inr ⟨by decide, by simp, ?_⟩, fun it => rfl⟩
      rintro ⟨e, r, -, h⟩
      simp [Asrpd.enc] at h
    | [x, y], _ =>
      refine ⟨[], [x, y], [], 2, by simp, rfl, rfl, .inr ⟨by decide, by simp, ?_⟩, fun it => rfl⟩
      rintro ⟨e, r, -, h⟩
      simp [Asrpd.enc] at h
    | x :: y :: z :: tl, hf =>
      have hz := z.toNat_lt
      have hrun : ∀ it, asrpdLoop (fuel + 1) (x :: y :: z :: tl) it =
          (emvAdd (some (asrpdName x y)) it >>= fun it =>
            if 2 + 1 + z.toNat > (x :: y :: z :: tl).length then .ok (3, it)
            else (suffix (x :: y :: z :: tl) (2 + 1 + z.toNat) >>= fun rest =>
              asrpdLoop fuel rest it)) := by
        intro it
        rw [asrpdLoop, if_neg (by simp), if_neg (by simp)]
        simp only [rd_cons_zero, rd_cons_succ, bind_ok, asrpdText_spec]
      by_cases hn : 2 + 1 + z.toNat > (x :: y :: z :: tl).length
      · refine ⟨[], x :: y :: z :: tl, [asrpdName x y], 3, by simp, rfl, rfl,
          .inr ⟨by decide, by simp, ?_⟩, ?_⟩
        · rintro ⟨e, r, he, h⟩
          simp only [Asrpd.enc, List.cons_append, List.cons.injEq] at h
          obtain ⟨-, -, h3, h4⟩ := h
          rw [h3, h4] at hn
          simp only [List.length_cons, List.length_append, UInt8.toNat_ofNat'] at hn
          omega
        · intro it
          rw [hrun it]
          simp only [List.map_nil, List.nil_append, addAll]
          cases emvAdd (some (asrpdName x y)) it with
          | error u => rfl
          | ok it' =>
            simp only [bind_ok]
            rw [if_pos hn]
      · have hle : z.toNat ≤ tl.length := by simp at hn; omega
        obtain ⟨es, rest, last, c, h1, h2, h3, h4, h5⟩ := ih (tl.drop z.toNat) (by
          simp only [List.length_drop]; simp only [List.length_cons] at hf; omega)
        refine ⟨⟨x, y, tl.take z.toNat⟩ :: es, rest, last, c, ?_, ?_, h3, h4, ?_⟩
        · intro e he
          rcases List.mem_cons.1 he with rfl | he
          · simp only [List.length_take]; omega
          · exact h1 e he
        · rw [encAsrpd, List.map_cons, List.flatten_cons, List.append_assoc]
          rw [encAsrpd] at h2
          rw [← h2, Asrpd.enc]
          simp only [List.length_take, Nat.min_eq_left hle, UInt8.ofNat_toNat, List.cons_append,
            List.take_append_drop]
        · intro it
          rw [hrun it, List.map_cons, List.cons_append, addAll]
          cases emvAdd (some (asrpdName x y)) it with
          | error u => rfl
          | ok it' =>
            simp only [bind_ok]
            rw [if_neg hn, suffix_eq (by omega), bind_ok, show 2 + 1 + z.toNat = z.toNat + 1 + 1 + 1 by omega]
            simp only [List.drop_succ_cons]
            exact h5 it'

/-- Entries are read unambiguously. -/
theorem encAsrpd_unique : ∀ (es es' : List Asrpd) (rest : List Byte),
    (∀ e ∈ es, e.data.length ≤ 255) → (∀ e ∈ es', e.data.length ≤ 255) →
    encAsrpd es = encAsrpd es' ++ rest →
    (rest = [] ∨ ¬ ∃ (e : Asrpd) (r : List Byte), e.data.length ≤ 255 ∧ rest = e.enc ++ r) →
    rest = [] ∧ es = es' := by
  intro es
  induction es with
  | nil =>
    intro es' rest _ _ h _
    cases es' with
    | nil => exact ⟨by simpa [encAsrpd] using h.symm, rfl⟩
    | cons e es' => simp [encAsrpd, Asrpd.enc] at h
  | cons e es ih =>
    intro es' rest h1 h2 h hr
    cases es' with
    | nil =>
      rcases hr with hr | hr
      · subst hr; simp [encAsrpd, Asrpd.enc] at h
      · exfalso
        apply hr
        exact ⟨e, encAsrpd es, h1 e (by simp), by simpa [encAsrpd] using h.symm⟩
    | cons e' es' =>
      have l1 := h1 e (by simp)
      have l2 := h2 e' (by simp)
      simp only [encAsrpd, List.map_cons, List.flatten_cons, Asrpd.enc, List.cons_append,
        List.cons.injEq, List.append_assoc] at h
      obtain ⟨a1, a2, a3, a4⟩ := h
      have hlen : e.data.length = e'.data.length := by
        have := congrArg UInt8.toNat a3
        simp only [UInt8.toNat_ofNat'] at this
        omega
      obtain ⟨b1, b2⟩ := List.append_inj a4 hlen
      obtain ⟨c1, c2⟩ := ih es' rest (fun x hx => h1 x (by simp [hx])) (fun x hx => h2 x (by simp [hx]))
        b2 hr
      refine ⟨c1, ?_⟩
      cases e; cases e'
      simp_all

/-- **C75** (accepted).  A sequence of one or more entries is described by one line per entry, in
order. -/
theorem C75_accept (es : List Asrpd) (h : ∀ e ∈ es, e.data.length ≤ 255) (h0 : es ≠ [])
    (str : List Byte) (hs : str ≠ []) :
    ∃ str', asrpdList (encAsrpd es) str = .ok (0, str') ∧
      Shows str (es.map (fun e => asrpdName e.hi e.lo)) str' := by
  obtain ⟨es', rest, last, c, h1, h2, h3, h4, h5⟩ := asrpdLoop_any ((encAsrpd es).length + 1)
    (encAsrpd es) (by omega)
  obtain ⟨hr, rfl⟩ := encAsrpd_unique es es' rest h h1 h2 (by
    rcases h4 with h4 | h4
    · exact .inl h4.2.1
    · exact .inr h4.2.2)
  obtain ⟨rfl, -, rfl⟩ : c = 0 ∧ rest = [] ∧ last = [] := by
    rcases h4 with h4 | h4
    · exact h4
    · exact absurd hr h4.2.1
  obtain ⟨it, e, hsh⟩ := addAll_shows str (es.map (fun e => asrpdName e.hi e.lo)) (by
    intro s h
    rw [List.mem_map] at h
    obtain ⟨r, -, rfl⟩ := h
    exact asrpdName_ne _ _)
  have hlen : 3 ≤ (encAsrpd es).length := by
    cases es with
    | nil => exact absurd rfl h0
    | cons e es => simp [encAsrpd, Asrpd.enc]
  refine ⟨it.buf, ?_, hsh⟩
  rw [asrpdList, if_neg (by omega), if_neg (by simpa using hs), if_neg (by omega), h5,
    List.append_nil, e, bind_ok, bind_ok]

/-- **C75** (refused).  Anything else gives a non-zero code; what is shown are the lines of the
entries up to the first place where none is complete, and then the line of the one that is cut
off, if it has its identifier and length; nothing outside the field is read. -/
theorem C75_refused (a str : List Byte) (hs : str ≠ [])
    (h : ¬ ∃ es : List Asrpd, es ≠ [] ∧ (∀ e ∈ es, e.data.length ≤ 255) ∧ a = encAsrpd es) :
    ∃ c str', c ≠ 0 ∧ asrpdList a str = .ok (c, str') ∧
    ∃ es rest, (∀ e ∈ es, e.data.length ≤ 255) ∧ a = encAsrpd es ++ rest ∧
      (¬ ∃ (e : Asrpd) (r : List Byte), e.data.length ≤ 255 ∧ rest = e.enc ++ r) ∧
      Shows str (es.map (fun e => asrpdName e.hi e.lo) ++ cutOff rest) str' := by
  unfold asrpdList
  have none : Shows str [] str := ⟨rfl, fun _ => rfl, fun h => absurd rfl h, fun h => absurd rfl h⟩
  have few : a.length < 3 → ∃ es rest, (∀ e ∈ es, e.data.length ≤ 255) ∧ a = encAsrpd es ++ rest ∧
      (¬ ∃ (e : Asrpd) (r : List Byte), e.data.length ≤ 255 ∧ rest = e.enc ++ r) ∧
      Shows str (es.map (fun e => asrpdName e.hi e.lo) ++ cutOff rest) str := by
    intro h3
    refine ⟨[], a, by simp, rfl, ?_, ?_⟩
    · rintro ⟨e, r, -, rfl⟩
      simp [Asrpd.enc] at h3
      omega
    · match a, h3 with
      | [], _ => exact none
      | [_], _ => exact none
      | [_, _], _ => exact none
  by_cases h0 : a.length = 0
  · exact ⟨-1, str, by decide, by rw [if_pos h0], few (by omega)⟩
  rw [if_neg h0, if_neg (by simpa using hs)]
  by_cases h3 : a.length < 3
  · exact ⟨1, str, by decide, by rw [if_pos h3], few h3⟩
  rw [if_neg h3]
  obtain ⟨es, rest, last, c, h1, h2, h4, h5, h6⟩ := asrpdLoop_any (a.length + 1) a (by omega)
  subst h4
  obtain ⟨it, e, hsh⟩ := addAll_shows str (es.map (fun e => asrpdName e.hi e.lo) ++ cutOff rest) (by
    intro s h
    rcases List.mem_append.1 h with h | h
    · rw [List.mem_map] at h
      obtain ⟨r, -, rfl⟩ := h
      exact asrpdName_ne _ _
    · exact cutOff_ne rest s h)
  rcases h5 with h5 | h5
  · exfalso
    apply h
    refine ⟨es, ?_, h1, by rw [h2, h5.2.1, List.append_nil]⟩
    rintro rfl
    rw [h2, h5.2.1] at h0
    exact h0 rfl
  · exact ⟨c, it.buf, by omega, by rw [h6, e, bind_ok, bind_ok], es, rest, h1, h2, h5.2.2, hsh⟩

/-- Two entries, the second empty; and an entry whose data is cut off. -/
example : (asrpdList [0, 1, 2, 9, 9, 0, 3, 0] (List.replicate 100 0x55)).toOption.map
    (fun p => (p.1, p.2.takeWhile (· ≠ 0))) =
    some (0, txt!"European Cards Stakeholders Group\nTechnical Cooperation ep2 Association\n") ∧
    (asrpdList [0, 1, 4, 9, 9] (List.replicate 100 0x55)).toOption.map
    (fun p => (p.1, p.2.takeWhile (· ≠ 0))) =
    some (3, txt!"European Cards Stakeholders Group\n") := by
  decide +kernel

/-! ## C76: Application Reference Currency and Language Preference -/

/-- What is shown for the result of a table lookup. -/
def shownName (o : Option (List Byte)) : List Byte :=
  match o with
  | none => txt!"Unknown"
  | some [] => txt!"Unknown"
  | some s => s.take 127

/-- The bytes of the pairs. -/
def flat (ps : List (Byte × Byte)) : List Byte := (ps.map (fun p => [p.1, p.2])).flatten

/-- What the loops do with the local array. -/
def pairText (s : List Byte) : C (List Byte) := do
  let c ← rd s 0
  if c ≠ 0 then Capdu.cstr s else .ok txt!"Unknown"

theorem flat_cons (p : Byte × Byte) (ps : List (Byte × Byte)) :
    flat (p :: ps) = p.1 :: p.2 :: flat ps := rfl

theorem flat_length (ps : List (Byte × Byte)) : (flat ps).length = 2 * ps.length := by
  induction ps with
  | nil => rfl
  | cons p ps ih => rw [flat_cons]; simp only [List.length_cons, ih]; omega

theorem flat_append (a b : List (Byte × Byte)) : flat (a ++ b) = flat a ++ flat b := by
  simp [flat]

theorem exists_flat : ∀ (n : Nat) (f : List Byte), f.length = 2 * n → ∃ ps, f = flat ps := by
  intro n
  induction n with
  | zero => intro f h; exact ⟨[], by simpa [flat] using h⟩
  | succ n ih =>
    intro f h
    match f, h with
    | a :: b :: f, h =>
      obtain ⟨ps, e⟩ := ih f (by simp at h; omega)
      exact ⟨(a, b) :: ps, by rw [flat_cons, ← e]⟩

theorem copyLookup_spec (o : Option (List Byte)) (ho : ∀ s, o = some s → ∀ b ∈ s, b ≠ 0)
    (loc : List Byte) (hl : loc.length = 128) :
    ∃ s, copyLookup o loc = .ok (0, s) ∧ pairText s = .ok (shownName o) := by
  match o, ho with
  | none, _ =>
    refine ⟨loc.set 0 0, by rw [copyLookup, wr_eq (by omega), bind_ok], ?_⟩
    match loc, hl with
    | a :: l, _ => rfl
  | some t, ho =>
    have hnz : ∀ b ∈ t.take 127, b ≠ 0 := fun b hb => ho t rfl b (List.mem_of_mem_take hb)
    have e : strncpyTerm1 loc t = .ok (t.take 127 ++ 0 :: List.replicate (127 - t.length) 0) := by
      unfold strncpyTerm1
      simp only [hl]
      have hlen : (t.take 127 ++ List.replicate (127 - t.length) (0 : Byte)).length = 127 := by
        simp only [List.length_append, List.length_take, List.length_replicate]; omega
      rw [wrs_eq (by simp only [Nat.reduceSub]; omega), bind_ok]
      have hx : ∃ x, loc.drop 127 = [x] := by
        have : (loc.drop 127).length = 1 := by simp [hl]
        match loc.drop 127, this with
        | [x], _ => exact ⟨x, rfl⟩
      obtain ⟨x, hx⟩ := hx
      simp only [List.take_zero, List.nil_append, Nat.zero_add, hlen, hx]
      generalize hg : t.take 127 ++ List.replicate (127 - t.length) (0 : Byte) = g at *
      rw [wr_eq (by simp [hlen])]
      congr 1
      rw [List.length_append, hlen]
      simp only [List.length_singleton, Nat.add_sub_cancel]
      have hset : ∀ (n : Nat), n = g.length → (g ++ [x]).set n 0 = g ++ [0] := by
        intro n hn
        subst hn
        rw [List.set_append_right _ _ (Nat.le_refl _), Nat.sub_self]
        rfl
      rw [hset 127 hlen.symm, ← hg, List.append_assoc]
      congr 1
      show List.replicate (127 - t.length) (0 : Byte) ++ List.replicate 1 0 = _
      rw [List.replicate_append_replicate, List.replicate_succ]
    refine ⟨_, by rw [copyLookup, e, bind_ok], ?_⟩
    match t, hnz with
    | [], _ => rfl
    | a :: t, hnz =>
      have ha : a ≠ 0 := hnz a (by simp)
      unfold pairText
      rw [show ((a :: t).take 127) = a :: t.take 126 by rfl, List.cons_append, rd_cons_zero, bind_ok,
        if_pos ha, ← List.cons_append]
      exact Capdu.cstr_spec _ _ hnz

theorem pairLoop_good (get : List Byte → List Byte → C (Int × List Byte)) (loc : Nat → List Byte)
    (line : Byte × Byte → List Byte) (post : List Byte) : ∀ (ps : List (Byte × Byte)),
    (∀ p ∈ ps, ∀ i, ∃ s, get [p.1, p.2] (loc i) = .ok (0, s) ∧ pairText s = .ok (line p)) →
    ∀ (done : List Byte) (fuel : Nat) (it : Itr),
    pairLoop get loc (done ++ (flat ps ++ post)) (fuel + ps.length) done.length it =
      (addAll (fun s => emvAdd (some s)) (ps.map line) it >>= fun it =>
        pairLoop get loc (done ++ (flat ps ++ post)) fuel (done.length + 2 * ps.length) it) := by
  intro ps
  induction ps with
  | nil => intro _ done fuel it; rfl
  | cons p ps ih =>
    intro h done fuel it
    obtain ⟨s, e1, e2⟩ := h p (by simp) done.length
    rw [show fuel + (p :: ps).length = (fuel + ps.length) + 1 by simp; omega, pairLoop,
      if_neg (by rw [flat_cons]; simp), slice_eq (by rw [flat_cons]; simp)]
    rw [flat_cons, List.cons_append, List.cons_append]
    simp only [List.drop_left, List.take_succ_cons, List.take_zero, bind_ok, e1]
    rw [if_neg (by simp), List.map_cons, addAll]
    rw [pairText] at e2
    cases hc : rd s 0 with
    | error u => rw [hc] at e2; cases e2
    | ok c =>
      rw [hc, bind_ok] at e2
      rw [bind_ok]
      have key : ∀ (b : Prop) [Decidable b] (x y : C (List Byte)) (k : List Byte → C (Int × Itr)),
          (if b then x >>= k else y >>= k) = ((if b then x else y) >>= k) := by
        intro b _ x y k; split <;> rfl
      have k2 := key (c ≠ 0) (Capdu.cstr s) (.ok txt!"Unknown") (fun t =>
        emvAdd (some t) it >>= fun it => pairLoop get loc (done ++ p.fst :: p.snd :: (flat ps ++ post))
          (fuel + ps.length) (done.length + 2) it)
      rw [e2] at k2
      refine k2.trans ?_
      rw [bind_ok]
      cases emvAdd (some (line p)) it with
      | error u => rfl
      | ok it' =>
        rw [bind_ok, bind_ok]
        have := ih (fun q hq => h q (by simp [hq])) (done ++ [p.1, p.2]) fuel it'
        simp only [List.append_assoc, List.cons_append, List.nil_append, List.length_append,
          List.length_cons, List.length_nil] at this ⊢
        rw [this]
        congr 1
        funext it2
        congr 1
        omega

theorem shownName_ne (o : Option (List Byte)) : shownName o ≠ [] := by
  match o with
  | none => show txt!"Unknown" ≠ []; decide
  | some [] => show txt!"Unknown" ≠ []; decide
  | some (a :: t) => show (a :: t).take 127 ≠ []; simp

/-- All pairs can be named. -/
theorem pairList_good (get : List Byte → List Byte → C (Int × List Byte)) (loc : Nat → List Byte)
    (line : Byte × Byte → List Byte) (hne : ∀ p, line p ≠ []) (ps : List (Byte × Byte))
    (h : ∀ p ∈ ps, ∀ i, ∃ s, get [p.1, p.2] (loc i) = .ok (0, s) ∧ pairText s = .ok (line p))
    (h0 : ps ≠ []) (str : List Byte) (hs : str ≠ []) :
    ∃ str', pairList get loc (flat ps) str = .ok (0, str') ∧ Shows str (ps.map line) str' := by
  obtain ⟨it, e, hsh⟩ := addAll_shows str (ps.map line) (by
    intro s h
    rw [List.mem_map] at h
    obtain ⟨p, -, rfl⟩ := h
    exact hne p)
  refine ⟨it.buf, ?_, hsh⟩
  have hl := flat_length ps
  have hp : ps.length ≠ 0 := by simpa using h0
  have hgood := pairLoop_good get loc line [] ps h [] (ps.length + 1) (init str)
  simp only [List.append_nil, List.nil_append, List.length_nil] at hgood
  rw [pairList, if_neg (by rw [hl]; simp [hs]; omega), if_neg (by omega),
    show (flat ps).length + 1 = ps.length + 1 + ps.length by omega, hgood, e, bind_ok, pairLoop,
    if_pos (by omega), bind_ok]

/-- The first pair that cannot be named ends the description with its code. -/
theorem pairList_bad (get : List Byte → List Byte → C (Int × List Byte)) (loc : Nat → List Byte)
    (line : Byte × Byte → List Byte) (hne : ∀ p, line p ≠ []) (ps : List (Byte × Byte))
    (bad : Byte × Byte) (post : List (Byte × Byte)) (c : Int) (hc : c ≠ 0)
    (h : ∀ p ∈ ps, ∀ i, ∃ s, get [p.1, p.2] (loc i) = .ok (0, s) ∧ pairText s = .ok (line p))
    (hb : ∀ i, ∃ s, get [bad.1, bad.2] (loc i) = .ok (c, s)) (str : List Byte) (hs : str ≠ []) :
    ∃ str', pairList get loc (flat (ps ++ bad :: post)) str = .ok (c, str') ∧
      Shows str (ps.map line) str' := by
  obtain ⟨it, e, hsh⟩ := addAll_shows str (ps.map line) (by
    intro s h
    rw [List.mem_map] at h
    obtain ⟨p, -, rfl⟩ := h
    exact hne p)
  refine ⟨it.buf, ?_, hsh⟩
  have hl := flat_length (ps ++ bad :: post)
  have hl' := flat_length ps
  have hgood := pairLoop_good get loc line (flat (bad :: post)) ps h []
    (ps.length + 2 * post.length + 3) (init str)
  simp only [List.nil_append, List.length_nil, Nat.zero_add] at hgood
  simp only [List.length_append, List.length_cons] at hl
  obtain ⟨s, hb⟩ := hb (2 * ps.length)
  rw [pairList, if_neg (by rw [hl]; simp [hs]), if_neg (by omega),
    show (flat (ps ++ bad :: post)).length + 1 = ps.length + 2 * post.length + 3 + ps.length by omega,
    flat_append, hgood, e, bind_ok, pairLoop, if_neg (by simp [hl', flat_cons]),
    slice_eq (by simp [hl', flat_cons])]
  rw [← hl', List.drop_left, flat_cons]
  rw [← hl'] at hb
  simp only [List.take_succ_cons, List.take_zero, bind_ok, hb]
  rw [if_pos hc, bind_ok]

/-- A currency code as the four decimal digits of two bytes. -/
def currencyLine (lookup : Nat → Option (List Byte)) (p : Byte × Byte) : List Byte :=
  shownName (lookup (decNat (nibbles [p.1, p.2])))

theorem currency_get (lookup : Nat → Option (List Byte))
    (hlk : ∀ v s, lookup v = some s → ∀ b ∈ s, b ≠ 0) (p : Byte × Byte) (loc : List Byte)
    (hl : loc.length = 128) :
    (IsFormatN [p.1, p.2] → ∃ s, currencyString lookup [p.1, p.2] loc = .ok (0, s) ∧
      pairText s = .ok (currencyLine lookup p)) := by
  intro hn
  have hlt : decNat (nibbles [p.1, p.2]) < 2 ^ 32 := by
    have := p.1.toNat_lt
    have := p.2.toNat_lt
    simp only [nibbles, decNat, List.foldl]
    omega
  have := (C10_decode_partial [p.1, p.2] (by simp)).2.1 hn hlt
  rw [currencyString, if_neg (by simp), if_neg (by omega), if_neg (by simp), this, bind_ok]
  simp only
  rw [if_neg (by simp)]
  exact copyLookup_spec _ (hlk _) loc hl

/-- **C76** (currencies, accepted).  For any table of currencies: pairs of bytes that are all
four decimal digits are described by one line each, the name of the currency or "Unknown". -/
theorem C76_currency (lookup : Nat → Option (List Byte))
    (hlk : ∀ v s, lookup v = some s → ∀ b ∈ s, b ≠ 0) (loc : Nat → List Byte)
    (hl : ∀ i, (loc i).length = 128) (ps : List (Byte × Byte)) (h0 : ps ≠ [])
    (h : ∀ p ∈ ps, IsFormatN [p.1, p.2]) (str : List Byte) (hs : str ≠ []) :
    ∃ str', refCurrencyList lookup loc (flat ps) str = .ok (0, str') ∧
      Shows str (ps.map (currencyLine lookup)) str' :=
  pairList_good _ loc _ (fun _ => shownName_ne _) ps
    (fun p hp i => currency_get lookup hlk p (loc i) (hl i) (h p hp)) h0 str hs

/-- **C76** (currencies, refused).  The first pair that is not decimal ends the description with a
non-zero code; the lines of the pairs before it are in the output. -/
theorem C76_currency_refused (lookup : Nat → Option (List Byte))
    (hlk : ∀ v s, lookup v = some s → ∀ b ∈ s, b ≠ 0) (loc : Nat → List Byte)
    (hl : ∀ i, (loc i).length = 128) (ps : List (Byte × Byte)) (bad : Byte × Byte)
    (post : List (Byte × Byte)) (h : ∀ p ∈ ps, IsFormatN [p.1, p.2])
    (hb : ¬ IsFormatN [bad.1, bad.2]) (str : List Byte) (hs : str ≠ []) :
    ∃ c str', 0 < c ∧ refCurrencyList lookup loc (flat (ps ++ bad :: post)) str = .ok (c, str') ∧
      Shows str (ps.map (currencyLine lookup)) str' := by
  obtain ⟨c, v, hc, e⟩ := (C10_decode_partial [bad.1, bad.2] (by simp)).2.2 hb
  obtain ⟨str', e', hsh⟩ := pairList_bad (currencyString lookup) loc (currencyLine lookup)
    (fun _ => shownName_ne _) ps bad post c (by omega)
    (fun p hp i => currency_get lookup hlk p (loc i) (hl i) (h p hp)) (fun i => by
      refine ⟨loc i, ?_⟩
      rw [currencyString, if_neg (by simp), if_neg (by have := hl i; omega), if_neg (by simp), e,
        bind_ok]
      simp only
      rw [if_pos (by omega)]) str hs
  exact ⟨c, str', hc, e', hsh⟩

/-- A letter in lower case. -/
def lower (b : Byte) : Byte := if 65 ≤ b.toNat ∧ b.toNat ≤ 90 then UInt8.ofNat (b.toNat + 32) else b

/-- The language of a pair, looked up in lower case (up to a NUL byte). -/
def languageLine (lookup : List Byte → Option (List Byte)) (p : Byte × Byte) : List Byte :=
  shownName (lookup ([lower p.1, lower p.2].takeWhile (· ≠ 0)))

theorem toLower_spec : ∀ b : Byte, toLower b = lower b := by decide +kernel

theorem cstr_key (a b : Byte) : Capdu.cstr [a, b, 0] = .ok ([a, b].takeWhile (· ≠ 0)) := by
  by_cases ha : a = 0
  · subst ha; exact Capdu.cstr_spec [] [b, 0] (by simp)
  · by_cases hb : b = 0
    · subst hb
      rw [List.takeWhile_cons_of_pos (by simpa using ha), List.takeWhile_cons_of_neg (by simp)]
      exact Capdu.cstr_spec [a] [0] (by simpa using ha)
    · rw [List.takeWhile_cons_of_pos (by simpa using ha), List.takeWhile_cons_of_pos (by simpa using hb)]
      exact Capdu.cstr_spec [a, b] [] (by simp [ha, hb])

/-- **C76** (languages).  For any table of languages: pairs of bytes are described by one line
each, the name of the language, whatever the case of the letters, or "Unknown". -/
theorem C76_language (lookup : List Byte → Option (List Byte))
    (hlk : ∀ v s, lookup v = some s → ∀ b ∈ s, b ≠ 0) (loc : Nat → List Byte)
    (hl : ∀ i, (loc i).length = 128) (ps : List (Byte × Byte)) (h0 : ps ≠ [])
    (str : List Byte) (hs : str ≠ []) :
    ∃ str', languageList lookup loc (flat ps) str = .ok (0, str') ∧
      Shows str (ps.map (languageLine lookup)) str' := by
  refine pairList_good _ loc _ (fun _ => shownName_ne _) ps (fun p _ i => ?_) h0 str hs
  rw [languageString, if_neg (by simp), if_neg (by have := hl i; omega), if_neg (by simp)]
  simp only [rd_cons_zero, rd_cons_succ, bind_ok, toLower_spec, cstr_key]
  exact copyLookup_spec _ (hlk _) (loc i) (hl i)

/-- **C76** (odd lengths).  A field that is not made of pairs is refused, and the output left as it
was. -/
theorem C76_odd (lc : Nat → Option (List Byte)) (ll : List Byte → Option (List Byte))
    (loc : Nat → List Byte) (f str : List Byte) (h : f.length % 2 = 1 ∨ f = [] ∨ str = []) :
    (∃ c, c ≠ 0 ∧ refCurrencyList lc loc f str = .ok (c, str)) ∧
    (∃ c, c ≠ 0 ∧ languageList ll loc f str = .ok (c, str)) := by
  have key : ∀ get, ∃ c, c ≠ 0 ∧ pairList get loc f str = .ok (c, str) := by
    intro get
    rw [pairList]
    by_cases h0 : f.length = 0 ∨ str.length = 0
    · exact ⟨-1, by decide, by rw [if_pos h0]⟩
    · rw [if_neg h0]
      have : f.length % 2 ≠ 0 := by
        rcases h with h | h | h
        · omega
        · subst h; simp at h0
        · subst h; simp at h0
      exact ⟨1, by decide, by rw [if_pos this]⟩
  exact ⟨key _, key _⟩

/-- Every field of even length is made of pairs, so the theorems above cover all fields. -/
theorem flat_total (f : List Byte) (h : f.length % 2 = 0) : ∃ ps, f = flat ps :=
  exists_flat (f.length / 2) f (by omega)

/-- Languages "en", "DE" and one that is not in the table. -/
example : (languageList (fun k => if k = txt!"en" then some txt!"English"
      else if k = txt!"de" then some txt!"German" else none) (fun _ => List.replicate 128 0x55)
    txt!"enDExx" (List.replicate 60 0x55)).toOption.map (fun p => (p.1, p.2.takeWhile (· ≠ 0))) =
    some (0, txt!"English\nGerman\nUnknown\n") := by decide +kernel

/-- A known currency followed by a pair that is not decimal. -/
example : (refCurrencyList (fun k => if k = 978 then some txt!"Euro" else none)
      (fun _ => List.replicate 128 0x55) [0x09, 0x78, 0x0A, 0x00]
      (List.replicate 60 0x55)).toOption.map (fun p => (p.1, p.2.takeWhile (· ≠ 0))) =
    some (2, txt!"Euro\n") := by decide +kernel

end Verif.Lists
