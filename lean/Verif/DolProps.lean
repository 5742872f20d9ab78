import Verif.Dol
import Verif.BerInv

/-! # Properties of Data Object Lists: C14, C15, C16 -/

set_option autoImplicit false

namespace Verif.Dol
open Verif BerSpec Ber

/-! ## Specification (EMV 4.4 Book 3, 5.4) -/

/-- A DOL entry as written by an issuer: identifier octets and requested length. -/
structure Req where
  tag : List Byte
  len : Byte

/-- Proper identifier octets. -/
def Req.WF (r : Req) : Prop := IsTag r.tag

/-- Concatenated entries. -/
def encDol (rs : List Req) : List Byte := (rs.map (fun r => r.tag ++ [r.len])).flatten

/-- The entry as the caller of the iterator sees it. -/
def entryOf (r : Req) : Entry := ⟨beNat r.tag, r.len.toNat⟩

/-- Sum of requested lengths. -/
def sumLen (rs : List Req) : Nat := (rs.map (fun r => r.len.toNat)).sum

/-- Fields of source 'Terminal' and format 'n' (EMV 4.4 Book 3, Annex A1): Transaction Date,
Type, Currency Code, Currency Exponent, Account Type, Acquirer Identifier, Amount Authorised
and Other (numeric), Merchant Category Code, Terminal Country Code, Transaction Time,
Terminal Type, POS Entry Mode, Reference Currency Code and Exponent, Sequence Counter. -/
def numericTerminalTags : List Nat :=
  [0x9A, 0x9C, 0x5F2A, 0x5F36, 0x5F57, 0x9F01, 0x9F02, 0x9F03, 0x9F15, 0x9F1A, 0x9F21, 0x9F35,
   0x9F39, 0x9F3C, 0x9F3D, 0x9F41]

/-- Fit a known value to `n` bytes: numeric fields keep/pad on the left of the number
(rightmost bytes kept, zeros in front), others keep the leftmost bytes, zeros behind. -/
def fit (numeric : Bool) (n : Nat) (v : List Byte) : List Byte :=
  if numeric then List.replicate (n - v.length) 0 ++ v.drop (v.length - n)
  else v.take n ++ List.replicate (n - v.length) 0

/-- The value the terminal has for a tag: first source first, first occurrence. -/
def lookup (sources : List (List Tlv)) (tag : Nat) : Option (List Byte) :=
  (sources.flatten.find? (fun t => t.tag == tag)).map (fun t => t.value)

/-- The bytes for one entry. -/
def fieldData (sources : List (List Tlv)) (r : Req) : List Byte :=
  match lookup sources (beNat r.tag) with
  | none => List.replicate r.len.toNat 0
  | some v => fit (numericTerminalTags.contains (beNat r.tag)) r.len.toNat v

/-- The bytes for the whole DOL. -/
def dolData (sources : List (List Tlv)) (rs : List Req) : List Byte :=
  (rs.map (fieldData sources)).flatten

/-! ## C14 -/

theorem decode_enc (r : Req) (h : r.WF) (rest : List Byte) :
    decode (r.tag ++ [r.len] ++ rest) = .ok (.ok (r.tag.length + 1) (entryOf r)) := by
  have hl := isTag_length h
  unfold decode
  rw [if_neg (by simp), if_neg (by simp; omega)]
  rw [List.append_assoc, tagDecode_enc h]
  simp only [bind_ok]
  rw [if_neg (by simp)]
  have := rd_append_right r.tag ([r.len] ++ rest) 0
  simp only [Nat.add_zero] at this
  rw [this]
  rfl

theorem itrNext_enc (r : Req) (h : r.WF) (rest : List Byte) :
    itrNext (r.tag ++ [r.len] ++ rest) = .ok (rest, .ok (r.tag.length + 1) (entryOf r)) := by
  unfold itrNext
  rw [decode_enc r h]
  simp only [bind_ok]
  rw [suffix_eq (by simp)]
  have e : (r.tag ++ [r.len] ++ rest).drop (r.tag.length + 1) = rest := by
    rw [show r.tag.length + 1 = (r.tag ++ [r.len]).length by simp, List.drop_left]
  rw [e]; rfl

/-- Any outcome of decoding one entry. -/
theorem itrNext_any (buf : List Byte) :
    (buf = [] ∧ itrNext buf = .ok ([], .eod)) ∨
    (∃ c, c < 0 ∧ itrNext buf = .ok (buf, .err c) ∧
      ∀ (r : Req) (rest : List Byte), r.WF → buf ≠ r.tag ++ [r.len] ++ rest) ∨
    (∃ r rest, Req.WF r ∧ buf = r.tag ++ [r.len] ++ rest ∧
      itrNext buf = .ok (rest, .ok (r.tag.length + 1) (entryOf r))) := by
  by_cases h : ∃ (r : Req) (rest : List Byte), r.WF ∧ buf = r.tag ++ [r.len] ++ rest
  · obtain ⟨r, rest, h1, h2⟩ := h
    exact Or.inr (Or.inr ⟨r, rest, h1, h2, by rw [h2]; exact itrNext_enc r h1 rest⟩)
  · have hno : ∀ (r : Req) (rest : List Byte), r.WF → buf ≠ r.tag ++ [r.len] ++ rest := by
      intro r rest h1 h2
      exact h ⟨r, rest, h1, h2⟩
    by_cases h0 : buf = []
    · subst h0; exact Or.inl ⟨rfl, rfl⟩
    · refine Or.inr (Or.inl ?_)
      have hl : buf.length ≠ 0 := by simpa using h0
      suffices ∃ c, c < 0 ∧ decode buf = .ok (.err c) by
        obtain ⟨c, hc, hd⟩ := this
        exact ⟨c, hc, by rw [itrNext, hd]; rfl, hno⟩
      unfold decode
      rw [if_neg hl]
      by_cases h2 : buf.length < 2
      · exact ⟨-2, by omega, by rw [if_pos h2]⟩
      · rw [if_neg h2]
        obtain ⟨d, hd, hs⟩ := tagDecode_spec buf
        rw [hd]
        simp only [bind_ok]
        cases d with
        | eod => exact absurd hs h0
        | err c => exact ⟨c, hs, rfl⟩
        | ok n tag =>
          obtain ⟨t, rest, ht, hb, hn, -⟩ := tagDecode_inv buf n tag hd
          simp only
          cases rest with
          | nil => exact ⟨-5, by omega, by rw [if_pos (by rw [hb]; simp; omega)]⟩
          | cons l rest => exact absurd (by simp [hb]) (hno ⟨t, l⟩ rest ht)

theorem encDol_cons (r : Req) (rs : List Req) :
    encDol (r :: rs) = r.tag ++ [r.len] ++ encDol rs := by simp [encDol]

/-- Every byte string splits into well-formed entries and a rest that is empty or does not
start with an entry; iteration reports exactly that. -/
theorem iterate_any : ∀ (fuel : Nat) (buf : List Byte), buf.length / 2 + 1 ≤ fuel →
    ∃ rs rest c, (∀ r ∈ rs, Req.WF r) ∧ buf = encDol rs ++ rest ∧
      iterate fuel buf = .ok (rs.map entryOf, c) ∧
      ((rest = [] ∧ c = 0) ∨
       (rest ≠ [] ∧ c < 0 ∧ ∀ (r : Req) (tl : List Byte), r.WF → rest ≠ r.tag ++ [r.len] ++ tl)) := by
  intro fuel
  induction fuel with
  | zero => intro buf h; omega
  | succ fuel ih =>
    intro buf hf
    unfold iterate
    rcases itrNext_any buf with ⟨h0, h1⟩ | ⟨c, hc, h1, hno⟩ | ⟨r, rest, hr, hb, h1⟩
    · subst h0
      exact ⟨[], [], 0, by simp, rfl, by rw [h1]; rfl, Or.inl ⟨rfl, rfl⟩⟩
    · refine ⟨[], buf, c, by simp, by simp [encDol], by rw [h1]; rfl, Or.inr ⟨?_, hc, hno⟩⟩
      intro e; subst e
      have : itrNext [] = .ok ([], .eod) := rfl
      rw [this] at h1
      cases h1
    · have hl := isTag_length hr
      have hlen := congrArg List.length hb
      simp at hlen
      obtain ⟨rs, rest', c, h2, h3, h4, h5⟩ := ih rest (by omega)
      refine ⟨r :: rs, rest', c, ?_, ?_, ?_, h5⟩
      · intro x hx
        rcases List.mem_cons.mp hx with rfl | hx
        · exact hr
        · exact h2 x hx
      · rw [hb, h3, encDol_cons]; simp
      · rw [h1]
        simp only [bind_ok]
        rw [h4]
        rfl

theorem iterate_enc (rs : List Req) (h : ∀ r ∈ rs, r.WF) : ∀ (fuel : Nat),
    (encDol rs).length / 2 + 1 ≤ fuel → iterate fuel (encDol rs) = .ok (rs.map entryOf, 0) := by
  induction rs with
  | nil =>
    intro fuel hf
    cases fuel with
    | zero => omega
    | succ fuel => rfl
  | cons r rs ih =>
    intro fuel hf
    have hr := h r (by simp)
    have hl := isTag_length hr
    rw [encDol_cons] at hf ⊢
    simp at hf
    cases fuel with
    | zero => omega
    | succ fuel =>
      unfold iterate
      rw [itrNext_enc r hr]
      simp only [bind_ok]
      rw [ih (fun x hx => h x (by simp [hx])) fuel (by omega)]
      rfl

/-- **C14** (round trip).  Iterating the encoding of any list of (tag, length) pairs yields
exactly those pairs in order, then end-of-data. -/
theorem C14_roundtrip (rs : List Req) (h : ∀ r ∈ rs, r.WF) :
    iterateAll (encDol rs) = .ok (rs.map entryOf, 0) :=
  iterate_enc rs h _ (Nat.le_refl _)

/-- **C14** (arbitrary input).  Iteration of any byte string terminates in bounds.  The
entries reported are exactly those encoded in the consumed prefix; iteration ends with 0
exactly when everything was consumed, and otherwise with an error at a position where no
entry starts. -/
theorem C14_any (buf : List Byte) :
    ∃ rs rest c, (∀ r ∈ rs, Req.WF r) ∧ buf = encDol rs ++ rest ∧
      iterateAll buf = .ok (rs.map entryOf, c) ∧
      ((rest = [] ∧ c = 0) ∨
       (rest ≠ [] ∧ c < 0 ∧ ∀ (r : Req) (tl : List Byte), r.WF → rest ≠ r.tag ++ [r.len] ++ tl)) :=
  iterate_any _ buf (Nat.le_refl _)

/-- PDOL `9F38`-style content `9F66 04, 9A 03` and its first half are such inputs. -/
example : Req.WF ⟨[0x9F, 0x66], 4⟩ ∧ Req.WF ⟨[0x9A], 3⟩ :=
  ⟨Or.inr ⟨by decide, by decide, [], 0x66, rfl, by simp, by decide⟩, Or.inl ⟨by decide, rfl⟩⟩
example : iterateAll [0x9F, 0x66, 0x04, 0x9A, 0x03] = .ok ([⟨0x9F66, 4⟩, ⟨0x9A, 3⟩], 0) ∧
    iterateAll [0x9A, 0x03, 0x9F, 0x66] = .ok ([⟨0x9A, 3⟩], -5) := by decide +kernel

/-! ## C15: length -/

theorem sumLen_cons (r : Req) (rs : List Req) : sumLen (r :: rs) = r.len.toNat + sumLen rs := by
  simp [sumLen]

theorem sumLen_le (rs : List Req) (h : ∀ r ∈ rs, Req.WF r) :
    2 * sumLen rs ≤ 255 * (encDol rs).length := by
  induction rs with
  | nil => simp [sumLen]
  | cons r rs ih =>
    have hl := isTag_length (h r (by simp))
    have hb := r.len.toNat_lt
    have := ih (fun x hx => h x (by simp [hx]))
    rw [sumLen_cons, encDol_cons]
    simp
    omega

theorem lengthLoop_spec (rest : List Byte)
    (hrest : rest = [] ∨ ∀ (r : Req) (tl : List Byte), r.WF → rest ≠ r.tag ++ [r.len] ++ tl) :
    ∀ (rs : List Req) (fuel total : Nat), (∀ r ∈ rs, Req.WF r) → rs.length < fuel →
    total + sumLen rs < 2 ^ 31 →
    lengthLoop fuel (encDol rs ++ rest) total =
      .ok (if rest = [] then ((total + sumLen rs : Nat) : Int) else -3) := by
  intro rs
  induction rs with
  | nil =>
    intro fuel total _ hf _
    cases fuel with
    | zero => omega
    | succ fuel =>
      unfold lengthLoop
      simp only [encDol, List.map_nil, List.flatten_nil, List.nil_append]
      rcases itrNext_any rest with ⟨h0, h1⟩ | ⟨c, hc, h1, hno⟩ | ⟨r, tl, hr, hb, h1⟩
      · subst h0; rw [h1]; simp [sumLen]
      · rw [h1]
        have : rest ≠ [] := by
          intro e; subst e
          have : itrNext [] = .ok ([], .eod) := rfl
          rw [this] at h1
          cases h1
        simp [this]
      · rcases hrest with h | h
        · subst h
          have := isTag_length hr
          have := congrArg List.length hb
          simp at this
        · exact absurd hb (h r tl hr)
  | cons r rs ih =>
    intro fuel total hwf hf ht
    cases fuel with
    | zero => omega
    | succ fuel =>
      rw [sumLen_cons] at ht
      unfold lengthLoop
      rw [encDol_cons, List.append_assoc, itrNext_enc r (hwf r (by simp))]
      simp only [bind_ok, entryOf]
      rw [if_neg (by omega), ih fuel _ (fun x hx => hwf x (by simp [hx]))
        (by simp at hf; omega) (by omega), sumLen_cons]
      simp only [Nat.add_assoc]

theorem length_le_enc (rs : List Req) : rs.length ≤ (encDol rs).length := by
  induction rs with
  | nil => simp [encDol]
  | cons r rs ih => rw [encDol_cons]; simp; omega

/-- **C15** (length).  For any non-empty DOL (of less than 2^24 bytes, beyond which the `int`
total could overflow) the computed data length is the sum of the requested lengths. -/
theorem C15_length (rs : List Req) (h : ∀ r ∈ rs, r.WF) (hne : rs ≠ [])
    (hlen : (encDol rs).length < 2 ^ 24) :
    computeDataLength (encDol rs) = .ok (sumLen rs : Int) := by
  have h1 := length_le_enc rs
  have h2 : rs.length ≠ 0 := by simpa using hne
  have h3 := sumLen_le rs h
  rw [computeDataLength, if_neg (by omega)]
  have := lengthLoop_spec [] (Or.inl rfl) rs ((encDol rs).length + 1) 0 h (by omega) (by omega)
  simpa using this

/-- **C15** (invalid DOL).  A byte string that is not the encoding of a DOL is reported as an
error, never as a length. -/
theorem C15_length_invalid (buf : List Byte) (hlen : buf.length < 2 ^ 24)
    (h : ∀ rs : List Req, (∀ r ∈ rs, r.WF) → buf ≠ encDol rs) :
    computeDataLength buf = .ok (-3) := by
  obtain ⟨rs, rest, c, h1, h2, h3, h4⟩ := C14_any buf
  have hrest : rest ≠ [] := by
    intro e; subst e
    exact h rs h1 (by simpa using h2)
  rcases h4 with ⟨h4, -⟩ | ⟨-, -, h4⟩
  · exact absurd h4 hrest
  have hl := congrArg List.length h2
  simp at hl
  have h5 := length_le_enc rs
  have h6 := sumLen_le rs h1
  have hbuf : buf.length ≠ 0 := by
    intro e
    have : rest.length = 0 := by omega
    exact hrest (List.length_eq_zero_iff.mp this)
  rw [computeDataLength, if_neg hbuf]
  have := lengthLoop_spec rest (Or.inr h4) rs (buf.length + 1) 0 h1 (by omega) (by omega)
  rw [← h2, if_neg hrest] at this
  exact this

/-! ## C15, C16: building -/

theorem isTerminalFormatN_eq (tag : Nat) :
    isTerminalFormatN tag = numericTerminalTags.contains tag := by
  unfold isTerminalFormatN
  split
  case h_17 =>
    rename_i h
    symm
    simp only [numericTerminalTags, List.contains_eq_mem, decide_eq_false_iff_not,
      List.mem_cons, List.not_mem_nil, or_false]
    intro hx
    simp_all
  all_goals rfl

theorem findIn_eq (tag : Nat) (sources : List (List Tlv)) :
    findIn tag sources = sources.flatten.find? (fun t => t.tag == tag) := by
  induction sources with
  | nil => rfl
  | cons l ls ih =>
    simp only [findIn, List.flatten_cons, List.find?_append]
    cases l.find? (fun t => t.tag == tag) with
    | none => simp [ih]
    | some t => rfl

theorem findIn_tag {tag : Nat} {sources : List (List Tlv)} {t : Tlv}
    (h : findIn tag sources = some t) : t.tag = tag := by
  rw [findIn_eq] at h
  have := List.find?_some h
  simpa using this

theorem fit_length (num : Bool) (n : Nat) (v : List Byte) : (fit num n v).length = n := by
  unfold fit
  split <;> simp <;> omega

theorem fieldData_length (sources : List (List Tlv)) (r : Req) :
    (fieldData sources r).length = r.len.toNat := by
  unfold fieldData
  split
  · simp
  · exact fit_length _ _ _

theorem place_spec (sources : List (List Tlv)) (r : Req) (s old : List Byte)
    (h : s.length + r.len.toNat ≤ old.length) :
    place (entryOf r) (findIn (entryOf r).tag sources) (s ++ old.drop s.length) s.length =
      .ok ((s ++ fieldData sources r) ++ old.drop (s ++ fieldData sources r).length) := by
  have hfl := fieldData_length sources r
  have hlook : lookup sources (beNat r.tag) =
      (findIn (entryOf r).tag sources).map (fun t => t.value) := by
    rw [findIn_eq]; rfl
  unfold place
  cases hf : findIn (entryOf r).tag sources with
  | none =>
    rw [hf] at hlook
    have hfd : fieldData sources r = List.replicate r.len.toNat 0 := by
      unfold fieldData; rw [hlook]; rfl
    simp only [entryOf]
    rw [hfd]
    exact wrs_over s old _ (by simpa using h)
  | some tlv =>
    have htag := findIn_tag hf
    rw [hf] at hlook
    have hfd : fieldData sources r =
        fit (numericTerminalTags.contains (beNat r.tag)) r.len.toNat tlv.value := by
      unfold fieldData; rw [hlook]; rfl
    have hnum : isTerminalFormatN tlv.tag = numericTerminalTags.contains (beNat r.tag) := by
      rw [isTerminalFormatN_eq, htag]; rfl
    simp only [entryOf, hnum]
    generalize numericTerminalTags.contains (beNat r.tag) = num at *
    have hw : ∀ v, v = fieldData sources r →
        wrs (s ++ old.drop s.length) s.length v =
          .ok ((s ++ fieldData sources r) ++ old.drop (s ++ fieldData sources r).length) := by
      intro v hv
      subst hv
      exact wrs_over s old _ (by omega)
    split
    · rename_i heq
      rw [slice_eq (by omega)]
      simp only [bind_ok]
      apply hw
      rw [hfd, fit, heq]
      simp
      intro _
      exact List.take_of_length_le (by omega)
    · split
      · rename_i hne hgt
        have : r.len.toNat - tlv.value.length = 0 := by omega
        cases num with
        | true =>
          simp only [if_true]
          rw [slice_eq (by omega)]
          simp only [bind_ok]
          apply hw
          rw [hfd, fit]
          simp only [if_true, this, List.replicate_zero, List.nil_append]
          apply List.take_of_length_le
          simp; omega
        | false =>
          simp only [Bool.false_eq_true, if_false]
          rw [slice_eq (by omega)]
          simp only [bind_ok]
          apply hw
          rw [hfd, fit]
          simp [this]
      · rename_i hne hgt
        have hz : tlv.value.length - r.len.toNat = 0 := by omega
        cases num with
        | true =>
          simp only [if_true]
          rw [wrs_over s old _ (by simp; omega)]
          simp only [bind_ok]
          have := wrs_over (s ++ List.replicate (r.len.toNat - tlv.value.length) 0) old tlv.value
            (by simp; omega)
          have e : (s ++ List.replicate (r.len.toNat - tlv.value.length) (0 : Byte)).length =
            s.length + (r.len.toNat - tlv.value.length) := by simp
          rw [← e, this, hfd, fit]
          simp [hz]
        | false =>
          simp only [Bool.false_eq_true, if_false]
          rw [wrs_over s old _ (by omega)]
          simp only [bind_ok]
          have := wrs_over (s ++ tlv.value) old
            (List.replicate (r.len.toNat - tlv.value.length) 0) (by simp; omega)
          have e : (s ++ tlv.value).length = s.length + tlv.value.length := by simp
          rw [← e, this, hfd, fit]
          simp only [Bool.false_eq_true, if_false]
          rw [List.take_of_length_le (by omega)]
          simp

theorem dolData_cons (sources : List (List Tlv)) (r : Req) (rs : List Req) :
    dolData sources (r :: rs) = fieldData sources r ++ dolData sources rs := by simp [dolData]

theorem dolData_length (sources : List (List Tlv)) (rs : List Req) :
    (dolData sources rs).length = sumLen rs := by
  induction rs with
  | nil => rfl
  | cons r rs ih => rw [dolData_cons, sumLen_cons, List.length_append, ih, fieldData_length]

theorem buildLoop_spec (sources : List (List Tlv)) (old rest : List Byte)
    (hrest : rest = [] ∨ ∀ (r : Req) (tl : List Byte), r.WF → rest ≠ r.tag ++ [r.len] ++ tl) :
    ∀ (rs : List Req) (fuel : Nat) (s : List Byte), (∀ r ∈ rs, Req.WF r) → rs.length < fuel →
    s.length ≤ old.length →
    (s.length + sumLen rs ≤ old.length →
      let out := s ++ dolData sources rs
      buildLoop sources fuel (encDol rs ++ rest) (s ++ old.drop s.length) s.length =
        .ok (if rest = [] then (0, out ++ old.drop out.length, out.length)
          else (-5, out ++ old.drop out.length, old.length - out.length))) ∧
    (old.length < s.length + sumLen rs →
      ∃ pre, (∃ r post, rs = pre ++ r :: post ∧ old.length < s.length + sumLen pre + r.len.toNat) ∧
      s.length + sumLen pre ≤ old.length ∧
      let out := s ++ dolData sources pre
      buildLoop sources fuel (encDol rs ++ rest) (s ++ old.drop s.length) s.length =
        .ok (1, out ++ old.drop out.length, old.length - out.length)) := by
  intro rs
  induction rs with
  | nil =>
    intro fuel s _ hf hs
    cases fuel with
    | zero => omega
    | succ fuel =>
      refine ⟨fun _ => ?_, fun h => by simp [sumLen] at h; omega⟩
      unfold buildLoop
      simp only [encDol, List.map_nil, List.flatten_nil, List.nil_append, dolData,
        List.append_nil]
      rcases itrNext_any rest with ⟨h0, h1⟩ | ⟨c, hc, h1, hno⟩ | ⟨r, tl, hr, hb, h1⟩
      · subst h0; rw [h1]; simp
      · rw [h1]
        have hne : rest ≠ [] := by
          intro e; subst e
          have : itrNext [] = .ok ([], .eod) := rfl
          rw [this] at h1
          cases h1
        have hl : (s ++ old.drop s.length).length = old.length := by simp; omega
        simp only [bind_ok, hl, if_neg hne]
      · rcases hrest with h | h
        · subst h
          have := isTag_length hr
          have := congrArg List.length hb
          simp at this
        · exact absurd hb (h r tl hr)
  | cons r rs ih =>
    intro fuel s hwf hf hs
    cases fuel with
    | zero => omega
    | succ fuel =>
      have hl : (s ++ old.drop s.length).length = old.length := by simp; omega
      have hfl := fieldData_length sources r
      have hstep : s.length + r.len.toNat ≤ old.length →
          buildLoop sources (fuel + 1) (encDol (r :: rs) ++ rest) (s ++ old.drop s.length) s.length =
          buildLoop sources fuel (encDol rs ++ rest)
            ((s ++ fieldData sources r) ++ old.drop (s ++ fieldData sources r).length)
            (s ++ fieldData sources r).length := by
        intro hle
        conv => lhs; unfold buildLoop
        rw [encDol_cons, List.append_assoc, itrNext_enc r (hwf r (by simp))]
        simp only [bind_ok, hl]
        rw [if_neg (by simp only [entryOf]; omega), place_spec sources r s old hle]
        simp only [bind_ok]
        congr 1
        simp [entryOf, hfl]
      have hih := ih fuel (s ++ fieldData sources r) (fun x hx => hwf x (by simp [hx]))
        (by simp at hf; omega)
      constructor
      · intro hle
        rw [sumLen_cons] at hle
        have := (hih (by simp; omega)).1 (by simp [hfl]; omega)
        rw [hstep (by omega)]
        rw [dolData_cons, ← List.append_assoc]
        exact this
      · intro hgt
        rw [sumLen_cons] at hgt
        by_cases hle : s.length + r.len.toNat ≤ old.length
        · obtain ⟨pre, hp, hpl, heq⟩ := (hih (by simp; omega)).2 (by simp [hfl]; omega)
          refine ⟨r :: pre, ?_, ?_, ?_⟩
          · obtain ⟨x, t, ht, hx⟩ := hp
            exact ⟨x, t, by simp [← ht], by rw [sumLen_cons]; simp [hfl] at hx; omega⟩
          · rw [sumLen_cons]; simp [hfl] at hpl; omega
          · rw [hstep hle, dolData_cons, ← List.append_assoc]
            exact heq
        · refine ⟨[], ⟨r, rs, rfl, by simp [sumLen]; omega⟩, by simp [sumLen]; omega, ?_⟩
          unfold buildLoop
          rw [encDol_cons, List.append_assoc, itrNext_enc r (hwf r (by simp))]
          simp only [bind_ok, hl]
          rw [if_pos (by simp only [entryOf]; omega)]
          simp [dolData]

/-- **C16** (and the success part of C15).  For any non-empty DOL, sources and output buffer
of at least the sum of the requested lengths, building succeeds; the output is exactly the
concatenation, in DOL order, of the data prescribed for each entry, the reported length is
the sum, and the rest of the buffer is untouched. -/
theorem C16_build (rs : List Req) (h : ∀ r ∈ rs, r.WF) (hne : rs ≠ [])
    (sources : List (List Tlv)) (hs : sources ≠ []) (data : List Byte) (hd : data ≠ [])
    (hcap : sumLen rs ≤ data.length) :
    buildData (encDol rs) sources data =
      .ok (0, dolData sources rs ++ data.drop (sumLen rs), sumLen rs) := by
  have h1 := length_le_enc rs
  have h2 : rs.length ≠ 0 := by simpa using hne
  have h3 : sources.length ≠ 0 := by simpa using hs
  have h4 : data.length ≠ 0 := by simpa using hd
  rw [buildData, if_neg (by omega)]
  have := (buildLoop_spec sources data [] (Or.inl rfl) rs ((encDol rs).length + 1) [] h (by omega)
    (by simp)).1 (by simpa using hcap)
  simpa [dolData_length] using this

/-- **C15** (build succeeds for the computed length).  If the computed length of *any* byte
string is a length `n ≤` capacity, building succeeds, reports exactly `n`, and leaves the
bytes beyond `n` untouched. -/
theorem C15_build_ok (dol : List Byte) (hlen : dol.length < 2 ^ 24) (n : Nat)
    (hn : computeDataLength dol = .ok (n : Int))
    (sources : List (List Tlv)) (hs : sources ≠ []) (data : List Byte) (hd : data ≠ [])
    (hcap : n ≤ data.length) :
    ∃ out, out.length = n ∧ buildData dol sources data = .ok (0, out ++ data.drop n, n) := by
  by_cases hv : ∃ rs : List Req, (∀ r ∈ rs, r.WF) ∧ dol = encDol rs
  · obtain ⟨rs, h1, h2⟩ := hv
    subst h2
    have hne : rs ≠ [] := by
      intro e; subst e
      have : computeDataLength (encDol []) = .ok (-1) := rfl
      rw [this] at hn
      simp only [Except.ok.injEq] at hn
      omega
    have hl := C15_length rs h1 hne hlen
    rw [hn] at hl
    simp only [Except.ok.injEq, Int.natCast_inj] at hl
    subst hl
    exact ⟨dolData sources rs, dolData_length _ _, C16_build rs h1 hne sources hs data hd hcap⟩
  · have := C15_length_invalid dol hlen (fun rs h1 h2 => hv ⟨rs, h1, h2⟩)
    rw [hn] at this
    simp only [Except.ok.injEq] at this
    omega

/-- **C15** (buffer too small).  With a smaller (non-empty) buffer the outcome is 1; what was
written is the data of the entries before the first that does not fit, nothing else changed, and
the size reported is what remained. -/
theorem C15_too_small (rs : List Req) (h : ∀ r ∈ rs, r.WF) (hne : rs ≠ [])
    (sources : List (List Tlv)) (hs : sources ≠ []) (data : List Byte) (hd : data ≠ [])
    (hcap : data.length < sumLen rs) :
    ∃ pre r post, rs = pre ++ r :: post ∧ sumLen pre ≤ data.length ∧
      data.length < sumLen pre + r.len.toNat ∧
      buildData (encDol rs) sources data =
        .ok (1, dolData sources pre ++ data.drop (sumLen pre), data.length - sumLen pre) := by
  have h1 := length_le_enc rs
  have h2 : rs.length ≠ 0 := by simpa using hne
  have h3 : sources.length ≠ 0 := by simpa using hs
  have h4 : data.length ≠ 0 := by simpa using hd
  rw [buildData, if_neg (by omega)]
  obtain ⟨pre, ⟨r, post, hp, hr⟩, hpl, heq⟩ := (buildLoop_spec sources data [] (Or.inl rfl) rs
    ((encDol rs).length + 1) [] h (by omega) (by simp)).2 (by simpa using hcap)
  refine ⟨pre, r, post, hp, by simpa using hpl, by simpa using hr, ?_⟩
  simpa [dolData_length] using heq

/-- **C15** (any input is safe).  Whatever the DOL bytes, sources and buffer, building
completes without undefined behaviour, never changes the size of the buffer, and the outcome
is success, "too small" or an error. -/
theorem C15_build_any (dol : List Byte) (sources : List (List Tlv)) (data : List Byte) :
    ∃ c data' n, buildData dol sources data = .ok (c, data', n) ∧ data'.length = data.length ∧
      n ≤ data.length ∧ (c = 0 ∨ c = 1 ∨ c = -1 ∨ c = -5) := by
  unfold buildData
  split
  · exact ⟨-1, data, data.length, rfl, rfl, Nat.le_refl _, by simp⟩
  · obtain ⟨rs, rest, c, h1, h2, -, h4⟩ := C14_any dol
    have hl := congrArg List.length h2
    simp at hl
    have h5 := length_le_enc rs
    have hrest : rest = [] ∨ ∀ (r : Req) (tl : List Byte), r.WF → rest ≠ r.tag ++ [r.len] ++ tl := by
      rcases h4 with h4 | h4
      · exact Or.inl h4.1
      · exact Or.inr h4.2.2
    have hb := buildLoop_spec sources data rest hrest rs (dol.length + 1) [] h1 (by omega) (by simp)
    rw [← h2] at hb
    simp only [List.length_nil, List.nil_append, List.drop_zero, Nat.zero_add] at hb
    by_cases hc : sumLen rs ≤ data.length
    · have := hb.1 hc
      rw [this]
      by_cases hr : rest = []
      · rw [if_pos hr]
        exact ⟨_, _, _, rfl, by simp [dolData_length]; omega, by rw [dolData_length]; exact hc, by simp⟩
      · rw [if_neg hr]
        exact ⟨_, _, _, rfl, by simp [dolData_length]; omega, by omega, by simp⟩
    · obtain ⟨pre, -, hpl, heq⟩ := hb.2 (by omega)
      rw [heq]
      exact ⟨_, _, _, rfl, by simp [dolData_length]; omega, by omega, by simp⟩

/-- Amount 9F02 requested in 4 bytes (numeric: rightmost), 9F1E in 4 (padded right), unknown
9F99 zeroed, 9A from the first source. -/
example : buildData [0x9F, 0x02, 0x04, 0x9F, 0x1E, 0x04, 0x9F, 0x19, 0x01, 0x9A, 0x03]
    [[⟨0x9F02, 0, [0, 0, 0, 0, 0x12, 0x34]⟩, ⟨0x9A, 0, [0x26, 1, 2]⟩],
     [⟨0x9F1E, 0, [0x41, 0x42]⟩, ⟨0x9A, 0, [9, 9, 9]⟩]] (List.replicate 13 0xFF) =
    .ok (0, [0, 0, 0x12, 0x34, 0x41, 0x42, 0, 0, 0, 0x26, 1, 2, 0xFF], 12) := by decide +kernel

end Verif.Dol
