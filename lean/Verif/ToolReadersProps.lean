import Verif.ToolReaders
import Verif.PcscInitProps
import Verif.PcscProps
import Verif.ListsLemmas

/-!
# C106, C107: the reader listing of the tool
-/

set_option autoImplicit false

namespace Verif.ToolReaders
open Verif Verif.Pcsc Verif.PcscInit

/-! ## Specification -/

/-- Asking the reader for property `p` gives `v` to every buffer large enough and fails for others;
for `none` it always fails. -/
def Knows (f : Feat) (p : Nat) : Option (List Byte) → Prop
  | some v => ∀ value : List Byte,
      (v.length ≤ value.length → getProperty f.view p value = .ok (0, v ++ value.drop v.length, v.length)) ∧
      (value.length < v.length → ∃ e, e ≠ 0 ∧ getProperty f.view p value = .ok (e, value, 0))
  | none => ∀ value : List Byte, ∃ e, e ≠ 0 ∧ getProperty f.view p value = .ok (e, value, 0)

/-- The properties of a reader by number. -/
abbrev Props := Nat → Option (List Byte)

/-- A number of one byte, 0 when it is not known. -/
def byteOf : Option (List Byte) → Nat
  | some [a] => a.toNat
  | _ => 0

/-- A number of two bytes, the least significant first, 0 when it is not known. -/
def wordOf : Option (List Byte) → Nat
  | some [a, b] => a.toNat + 256 * b.toNat
  | _ => 0

/-- A value of one or two bytes. -/
def isShort : Option (List Byte) → Bool
  | some v => v.length = 1 ∨ v.length = 2
  | none => false

/-- A hexadecimal digit. -/
def hexDigits : List Byte := txt!"0123456789abcdef"

/-- Four hexadecimal digits. -/
def hexWord (n : Nat) : List Byte :=
  [n / 4096, n / 256 % 16, n / 16 % 16, n % 16].map fun d => hexDigits.getD d 0

/-- What the LCD layout says. -/
def layoutItem (k : Props) : List (List Byte) :=
  match k 0x01 with
  | some [a, b] =>
    if a = 0 ∧ b = 0 then [txt!"No LCD"]
    else [txt!"LCD " ++ Lists.decimal a.toNat ++ txt!" x " ++ Lists.decimal b.toNat]
  | _ => []

/-- What the numbers of characters and lines say. -/
def displayItem (k : Props) : List (List Byte) :=
  if wordOf (k 0x04) ≠ 0 ∧ wordOf (k 0x05) ≠ 0 then
    [txt!"LCD " ++ Lists.decimal (wordOf (k 0x04)) ++ txt!" x " ++ Lists.decimal (wordOf (k 0x05))]
  else if isShort (k 0x04) ∨ isShort (k 0x05) then [txt!"LCD"] else []

/-- What the PIN sizes say. -/
def pinItem (k : Props) : List (List Byte) :=
  if byteOf (k 0x07) ≠ 0 then
    [txt!"PIN size " ++ Lists.decimal (byteOf (k 0x06)) ++ txt!"-" ++ Lists.decimal (byteOf (k 0x07))]
  else if byteOf (k 0x06) ≠ 0 then [txt!"PIN size " ++ Lists.decimal (byteOf (k 0x06)) ++ txt!"+"]
  else []

/-- What the USB identification says. -/
def usbItem (k : Props) : List (List Byte) :=
  if wordOf (k 0x0B) ≠ 0 ∧ wordOf (k 0x0C) ≠ 0 then
    [txt!"USB device " ++ hexWord (wordOf (k 0x0B)) ++ txt!":" ++ hexWord (wordOf (k 0x0C))]
  else []

/-- Items separated by commas. -/
def commas (l : List (List Byte)) : List Byte := List.intercalate txt!", " l

/-- The line of the properties; none when no property is known. -/
def propertyText (k : Props) : List Byte :=
  if [0x01, 0x04, 0x05, 0x06, 0x07, 0x0B, 0x0C].all (fun p => (k p).isNone) then []
  else txt!"\tProperties: " ++ commas (layoutItem k ++ displayItem k ++ pinItem k ++ usbItem k) ++ [0x0A]

/-- The names of features. -/
def featureNames : List (Nat × List Byte) :=
  [(6, txt!"PIN verification"), (7, txt!"PIN modification"), (8, txt!"MCT direct"), (9, txt!"MCT universal")]

/-- The line of the features; none when there is no feature with a name. -/
def featureText (has : Nat → Bool) : List Byte :=
  match featureNames.filter fun e => has e.1 with
  | [] => []
  | l => txt!"\tFeatures: " ++ commas (l.map (·.2)) ++ [0x0A]

/-- The text of a state. -/
def stateText (s : Nat) : Option (List Byte) :=
  if s.testBit 3 then some txt!"Status unavailable"
  else if s.testBit 4 then some txt!"No card"
  else if ¬ s.testBit 5 then none
  else if s.testBit 9 then some txt!"Unresponsive card"
  else if s.testBit 10 then some txt!"Unpowered card"
  else some txt!"Card present"

/-- The lines of reader `i`. -/
def readerText (i : Nat) (name : List Byte) (has : Nat → Bool) (k : Props) (state : Option Nat) : List Byte :=
  txt!"Reader " ++ Lists.decimal i ++ txt!": " ++ name ++ txt!"\n" ++ featureText has ++ propertyText k ++
    txt!"\tState: " ++ (state.bind stateText).getD txt!"Unknown" ++ txt!"\n"

/-! ## Lemmas -/

theorem and_bit (s k : Nat) : (s &&& 2 ^ k ≠ 0) ↔ s.testBit k = true := by
  constructor
  · intro h
    obtain ⟨i, hi⟩ := Nat.exists_testBit_of_ne_zero h
    rw [Nat.testBit_and, Nat.testBit_two_pow, Bool.and_eq_true, decide_eq_true_eq] at hi
    rw [hi.2]; exact hi.1
  · intro h e
    have := congrArg (Nat.testBit · k) e
    rw [Nat.testBit_and, Nat.testBit_two_pow_self, h] at this
    simp at this

/-- **C107** (state text). -/
theorem stateString_eq (s : Nat) : stateString s = stateText s := by
  unfold stateString stateText
  rw [show (0x0008 : Nat) = 2 ^ 3 from rfl, show (0x0010 : Nat) = 2 ^ 4 from rfl,
    show (0x0020 : Nat) = 2 ^ 5 from rfl, show (0x0200 : Nat) = 2 ^ 9 from rfl,
    show (0x0400 : Nat) = 2 ^ 10 from rfl]
  simp only [and_bit]
  by_cases h5 : s.testBit 5 = true <;> simp [h5]

theorem decZ_spec (n : Nat) (h : n < 2 ^ 64) : decZ n = Lists.decimal n := by
  rw [decZ, Lists.uLoop_spec 19 n [] (by omega), List.append_nil]

theorem hex04_spec (n : Nat) (h : n < 65536) : hex04 n = hexWord n := by
  have hd : ∀ d, d < 16 → xDigit d = hexDigits.getD d 0 := by decide
  rw [hex04, hexWord, hd _ (by omega), hd _ (by omega), hd _ (by omega), hd _ (by omega)]
  simp only [List.map_cons, List.map_nil]
  rw [Nat.mod_eq_of_lt (show n / 4096 < 16 by omega)]

/-- Items, each after a comma. -/
def rest (l : List (List Byte)) : List Byte := l.flatMap (txt!", " ++ ·)

theorem commas_cons (x : List Byte) (l : List (List Byte)) : commas (x :: l) = x ++ rest l := by
  unfold commas
  induction l generalizing x with
  | nil => simp [List.intercalate, rest]
  | cons y l ih =>
    have : List.intercalate txt!", " (x :: y :: l) = x ++ txt!", " ++ List.intercalate txt!", " (y :: l) := by
      simp [List.intercalate]
    rw [this, ih]
    simp [rest]

/-- Items printed with the flag for commas. -/
def after (comma : Bool) (l : List (List Byte)) : List Byte := if comma then rest l else commas l

theorem after_append (comma : Bool) (l l' : List (List Byte)) :
    after comma (l ++ l') = after comma l ++ after (comma || !l.isEmpty) l' := by
  cases comma with
  | true => simp [after, rest]
  | false =>
    cases l with
    | nil => simp [after, commas, List.intercalate]
    | cons x l =>
      simp only [after, List.cons_append, commas_cons, Bool.false_or, List.isEmpty_cons, Bool.not_false, if_true]
      simp [rest]

theorem item_eq (comma : Bool) (t : Option (List Byte)) :
    item comma t = (after comma t.toList, comma || !t.toList.isEmpty) := by
  cases t with
  | none => cases comma <;> simp [item, after, rest, commas, List.intercalate]
  | some t => cases comma <;> simp [item, after, rest, commas_cons]

theorem anyFeature_eq (f : Feat) (has : Nat → Bool) (h : ∀ x, hasFeature f.buf f.bufLen x = .ok (has x))
    (l : List (Nat × List Byte)) : anyFeature f l = .ok (l.any fun e => has e.1) := by
  induction l with
  | nil => rfl
  | cons e l ih =>
    rw [anyFeature, h, bind_ok]
    cases he : has e.1 <;> simp [he, ih]

theorem features_eq (f : Feat) (has : Nat → Bool) (h : ∀ x, hasFeature f.buf f.bufLen x = .ok (has x))
    (l : List (Nat × List Byte)) : ∀ comma,
    features f comma l = .ok (after comma ((l.filter fun e => has e.1).map (·.2))) := by
  induction l with
  | nil => intro comma; cases comma <;> simp [features, after, rest, commas, List.intercalate]
  | cons e l ih =>
    intro comma
    rw [features, h, bind_ok]
    cases he : has e.1 with
    | false => simp [he, ih]
    | true =>
      simp only [he, if_true, ih, bind_ok, List.filter_cons_of_pos, List.map_cons]
      cases comma <;> simp [after, commas_cons, rest]

theorem featureLine_eq (f : Feat) (has : Nat → Bool) (h : ∀ x, hasFeature f.buf f.bufLen x = .ok (has x)) :
    featureLine f = .ok (featureText has) := by
  rw [featureLine, anyFeature_eq f has h, bind_ok, features_eq f has h]
  unfold featureText
  rw [show featureNames = featureList from rfl]
  cases hl : featureList.filter fun e => has e.1 with
  | nil =>
    rw [if_neg]
    rw [List.any_eq_true]
    rintro ⟨e, he, h⟩
    have : e ∈ featureList.filter fun e => has e.1 := by simp [he, h]
    rw [hl] at this; cases this
  | cons e l =>
    have : e ∈ featureList.filter fun e => has e.1 := by rw [hl]; simp
    rw [if_pos (by rw [List.any_eq_true]; exact ⟨e, by simpa using this⟩), bind_ok]
    rfl

section
variable {mem : Nat → List Byte} {f : Feat} {k : Props}

theorem anyProperty_eq (hm : ∀ n, (mem n).length = n) (h : ∀ p ∈ propertyList, Knows f p (k p))
    (hk : ∀ p v, k p = some v → v.length ≤ 256) (l : List Nat) (hl : ∀ p ∈ l, p ∈ propertyList) :
    anyProperty mem f l = .ok (!l.all fun p => (k p).isNone) := by
  induction l with
  | nil => rfl
  | cons p l ih =>
    rw [anyProperty]
    have hp := h p (hl p (by simp))
    cases hv : k p with
    | none =>
      rw [hv] at hp
      obtain ⟨e, he, h1⟩ := hp (mem 256)
      rw [h1, bind_ok]
      simp only
      rw [if_neg he, ih fun q hq => hl q (by simp [hq])]
      simp [hv]
    | some v =>
      rw [hv] at hp
      rw [(hp (mem 256)).1 (by rw [hm]; exact hk p v hv), bind_ok]
      simp [hv]

theorem number_eq (hm : ∀ n, (mem n).length = n) {p n : Nat} {o : Option (List Byte)} (h : Knows f p o) :
    number mem f p n = .ok (match o with
      | some v => if v.length = n then (leNat v, n) else if v.length < n then (0, v.length) else (0, 0)
      | none => (0, 0)) := by
  rw [number]
  cases o with
  | none =>
    obtain ⟨e, he, h1⟩ := h (mem n)
    rw [h1, bind_ok]
    simp only
    rw [if_pos (.inl he)]
  | some v =>
    by_cases hlt : n < v.length
    · obtain ⟨e, he, h1⟩ := (h (mem n)).2 (by rw [hm]; exact hlt)
      rw [h1, bind_ok]
      simp only
      rw [if_pos (.inl he), if_neg (by omega), if_neg (by omega)]
    · rw [(h (mem n)).1 (by rw [hm]; omega), bind_ok]
      simp only
      by_cases he : v.length = n
      · rw [if_neg (by simp [he]), if_pos he, he, List.drop_eq_nil_of_le (by rw [hm]; exact Nat.le_refl _),
          List.append_nil]
      · rw [if_pos (.inr he), if_neg he, if_pos (by omega)]

theorem word_eq (hm : ∀ n, (mem n).length = n) {p : Nat} {o : Option (List Byte)} (h : Knows f p o) :
    ∃ n, number mem f p 2 = .ok (wordOf o, n) ∧ (n ≠ 0 ↔ isShort o = true) := by
  rw [number_eq hm h]
  match o with
  | none => exact ⟨0, rfl, by simp [isShort]⟩
  | some [] => exact ⟨0, rfl, by simp [isShort]⟩
  | some [a] => exact ⟨1, rfl, by simp [isShort]⟩
  | some [a, b] => exact ⟨2, by simp [leNat, wordOf], by simp [isShort]⟩
  | some (a :: b :: c :: l) => exact ⟨0, by simp [wordOf], by simp [isShort]⟩

theorem byte_eq (hm : ∀ n, (mem n).length = n) {p : Nat} {o : Option (List Byte)} (h : Knows f p o) :
    ∃ n, number mem f p 1 = .ok (byteOf o, n) := by
  rw [number_eq hm h]
  match o with
  | none => exact ⟨0, rfl⟩
  | some [] => exact ⟨0, rfl⟩
  | some [a] => exact ⟨1, by simp [leNat, byteOf]⟩
  | some (a :: b :: l) => exact ⟨0, by simp [byteOf]⟩

theorem wordOf_lt (o : Option (List Byte)) : wordOf o < 65536 := by
  unfold wordOf
  split
  · next a b => have := a.toNat_lt; have := b.toNat_lt; omega
  · decide

theorem byteOf_lt (o : Option (List Byte)) : byteOf o < 256 := by
  unfold byteOf
  split
  · next a => exact a.toNat_lt
  · decide

theorem layout_eq (hm : ∀ n, (mem n).length = n) (h : Knows f 0x01 (k 0x01)) :
    ∃ t, layout mem f = .ok t ∧ t.toList = layoutItem k := by
  unfold layout layoutItem
  generalize k 1 = o at h
  match o with
  | none =>
    obtain ⟨e, he, h1⟩ := h (mem 2)
    refine ⟨none, ?_, rfl⟩
    rw [h1, bind_ok]
    simp only
    rw [if_neg (by simp [he])]
  | some v =>
    by_cases hv : v.length = 2
    · obtain ⟨a, b, rfl⟩ : ∃ a b, v = [a, b] := by
        match v, hv with
        | [a, b], _ => exact ⟨a, b, rfl⟩
      rw [(h (mem 2)).1 (by rw [hm]; exact Nat.le_refl _), bind_ok]
      simp only [List.length_cons, List.length_nil]
      rw [if_pos (by simp)]
      simp only [List.cons_append, rd_cons_zero, rd_cons_succ, bind_ok]
      by_cases hz : a = 0 ∧ b = 0
      · rw [if_neg (by simp [hz.1, hz.2]), if_pos hz]
        exact ⟨_, rfl, rfl⟩
      · rw [if_pos (by
          by_cases h0 : a = 0
          · exact .inr fun h => hz ⟨h0, h⟩
          · exact .inl h0), if_neg hz]
        have := a.toNat_lt
        have := b.toNat_lt
        exact ⟨_, rfl, by rw [Lists.decU_spec _ (by omega), Lists.decU_spec _ (by omega)]; rfl⟩
    · refine ⟨none, ?_, ?_⟩
      · by_cases hlt : 2 < v.length
        · obtain ⟨e, he, h1⟩ := (h (mem 2)).2 (by rw [hm]; exact hlt)
          rw [h1, bind_ok]
          simp only
          rw [if_neg (by simp [he])]
        · rw [(h (mem 2)).1 (by rw [hm]; omega), bind_ok]
          simp only
          rw [if_neg (by simp [hv])]
      · split
        · next h => cases h; simp at hv
        · rfl

theorem display_eq (hm : ∀ n, (mem n).length = n) (h4 : Knows f 0x04 (k 0x04)) (h5 : Knows f 0x05 (k 0x05)) :
    ∃ t, display mem f = .ok t ∧ t.toList = displayItem k := by
  obtain ⟨n, e4, i4⟩ := word_eq hm h4
  obtain ⟨m, e5, i5⟩ := word_eq hm h5
  unfold display displayItem
  simp only [e4, e5, bind_ok]
  have l4 := wordOf_lt (k 4)
  have l5 := wordOf_lt (k 5)
  by_cases hc : wordOf (k 4) ≠ 0 ∧ wordOf (k 5) ≠ 0
  · rw [if_pos (.inl hc), if_pos hc, if_pos hc, Lists.decU_spec _ (by omega), Lists.decU_spec _ (by omega)]
    exact ⟨_, rfl, rfl⟩
  · rw [if_neg hc, if_neg hc]
    by_cases hs : isShort (k 4) = true ∨ isShort (k 5) = true
    · rw [if_pos (.inr (by rw [i4, i5]; exact hs)), if_pos hs]
      exact ⟨_, rfl, rfl⟩
    · rw [if_neg (by rw [i4, i5]; simp only [hc, hs, or_self, not_false_eq_true]), if_neg hs]
      exact ⟨_, rfl, rfl⟩

theorem pinSize_eq (hm : ∀ n, (mem n).length = n) (h6 : Knows f 0x06 (k 0x06)) (h7 : Knows f 0x07 (k 0x07)) :
    ∃ t, pinSize mem f = .ok t ∧ t.toList = pinItem k := by
  obtain ⟨n, e6⟩ := byte_eq hm h6
  obtain ⟨m, e7⟩ := byte_eq hm h7
  unfold pinSize pinItem
  simp only [e6, e7, bind_ok]
  have l6 := byteOf_lt (k 6)
  have l7 := byteOf_lt (k 7)
  rw [Lists.decU_spec _ (by omega), Lists.decU_spec _ (by omega)]
  by_cases h7 : byteOf (k 7) = 0
  · by_cases h6 : byteOf (k 6) = 0
    · exact ⟨none, by simp [h6, h7], by simp [h6, h7]⟩
    · exact ⟨some (txt!"PIN size " ++ Lists.decimal (byteOf (k 6)) ++ txt!"+"), by simp [h6, h7], by simp [h6, h7]⟩
  · exact ⟨_, by rw [if_pos (.inr h7), if_pos h7], by rw [if_pos h7]; rfl⟩

theorem usb_eq (hm : ∀ n, (mem n).length = n) (hv : Knows f 0x0B (k 0x0B)) (hp : Knows f 0x0C (k 0x0C)) :
    ∃ t, usb mem f = .ok t ∧ t.toList = usbItem k := by
  obtain ⟨n, e1, -⟩ := word_eq hm hv
  obtain ⟨m, e2, -⟩ := word_eq hm hp
  unfold usb usbItem
  simp only [e1, e2, bind_ok]
  rw [hex04_spec _ (wordOf_lt _), hex04_spec _ (wordOf_lt _)]
  by_cases h : wordOf (k 0x0B) ≠ 0 ∧ wordOf (k 0x0C) ≠ 0
  · rw [if_pos h, if_pos h]; exact ⟨_, rfl, rfl⟩
  · rw [if_neg h, if_neg h]; exact ⟨_, rfl, rfl⟩

theorem propertyLine_eq (hm : ∀ n, (mem n).length = n) (h : ∀ p ∈ propertyList, Knows f p (k p))
    (hk : ∀ p v, k p = some v → v.length ≤ 256) :
    propertyLine mem f = .ok (propertyText k) := by
  unfold propertyLine propertyText
  rw [anyProperty_eq hm h hk propertyList (fun _ h => h), bind_ok]
  rw [show [0x01, 0x04, 0x05, 0x06, 0x07, 0x0B, 0x0C] = propertyList from rfl]
  cases hall : propertyList.all fun p => (k p).isNone with
  | true => rfl
  | false =>
    obtain ⟨t1, e1, i1⟩ := layout_eq hm (h 0x01 (by decide))
    obtain ⟨t2, e2, i2⟩ := display_eq hm (h 0x04 (by decide)) (h 0x05 (by decide))
    obtain ⟨t3, e3, i3⟩ := pinSize_eq hm (h 0x06 (by decide)) (h 0x07 (by decide))
    obtain ⟨t4, e4, i4⟩ := usb_eq hm (h 0x0B (by decide)) (h 0x0C (by decide))
    simp only [Bool.not_false, if_true, e1, e2, e3, e4, bind_ok, item_eq, i1, i2, i3, i4]
    rw [if_neg (by simp)]
    have he : ∀ a b : List (List Byte), (!(a ++ b).isEmpty) = (!a.isEmpty || !b.isEmpty) := by
      intro a b; cases a <;> simp
    have hc : commas (layoutItem k ++ displayItem k ++ pinItem k ++ usbItem k) =
        after false (layoutItem k ++ displayItem k ++ pinItem k ++ usbItem k) := rfl
    rw [hc, after_append, after_append, after_append]
    simp only [he, Bool.false_or, Bool.or_assoc, List.append_assoc]

end

theorem stateOf_eq (svc : Option Nat) : stateOf svc = (svc.map (· % 2 ^ 32)).bind stateText := by
  cases svc with
  | none => rfl
  | some s => simp [stateOf, getState, stateString_eq]

theorem reader_eq {mem : Nat → List Byte} {c : Ctx} {r : Rdr} {name : List Byte} {has : Nat → Bool} {k : Props}
    {i : Nat} (svc : Option Nat) (hm : ∀ n, (mem n).length = n) (hi : i < 2 ^ 64) (hn : getName c r = .ok name)
    (hf : ∀ x, hasFeature r.feat.buf r.feat.bufLen x = .ok (has x))
    (h : ∀ p ∈ propertyList, Knows r.feat p (k p)) (hk : ∀ p v, k p = some v → v.length ≤ 256) :
    reader mem c svc i r = .ok (readerText i name has k (svc.map (· % 2 ^ 32))) := by
  rw [reader, hn, bind_ok, featureLine_eq _ has hf, bind_ok, propertyLine_eq hm h hk, bind_ok, decZ_spec _ hi,
    stateOf_eq]
  rfl

/-! ## C106, C107 -/

/-- The properties the listing uses. -/
def recognised : List Nat := [0x01, 0x04, 0x05, 0x06, 0x07, 0x0B, 0x0C]

/-- **C106** (listing).  For readers with the names `ns`, of which reader `i` has the features `has i` and
the properties `ks i`, and for any state each of them reports, the listing is a heading and the lines of
every reader in order; without readers nothing is printed. -/
theorem C106_listing (mem : Nat → List Byte) (c : Ctx) (ns : List (List Byte)) (has : Nat → Nat → Bool)
    (ks : Nat → Props) (svc : Nat → Option Nat) (hm : ∀ n, (mem n).length = n)
    (hlt : ns.length < 2 ^ 64) (hc : count (some c) = ns.length)
    (hr : ∀ (i : Nat) (h : i < ns.length), ∃ r, getReader (some c) i = some r ∧ getName c r = .ok ns[i] ∧
      (∀ x, hasFeature r.feat.buf r.feat.bufLen x = .ok (has i x)) ∧ ∀ p ∈ recognised, Knows r.feat p (ks i p))
    (hk : ∀ i p v, ks i p = some v → v.length ≤ 256) :
    list mem c svc = .ok (if ns = [] then [] else txt!"\nPC/SC readers:\n" ++
      ns.zipIdx.flatMap fun (n, i) => readerText i n (has i) (ks i) ((svc i).map (· % 2 ^ 32))) := by
  rw [list, hc]
  by_cases h0 : ns = []
  · subst h0; rfl
  rw [if_neg (by simpa using h0), if_neg h0]
  suffices h : ∀ (l pre : List (List Byte)), ns = pre ++ l → readers mem c svc l.length pre.length =
      .ok ((l.zipIdx pre.length).flatMap fun (n, i) => readerText i n (has i) (ks i) ((svc i).map (· % 2 ^ 32))) by
    have := h ns [] rfl
    rw [List.length_nil] at this
    rw [this, bind_ok]
  intro l
  induction l with
  | nil => intro pre _; rfl
  | cons n l ih =>
    intro pre e
    have hi : pre.length < ns.length := by rw [e]; simp
    obtain ⟨r, r1, r2, r3, r4⟩ := hr pre.length hi
    have hn : ns[pre.length] = n := by
      have : ns[pre.length]? = some n := by rw [e]; simp
      rw [List.getElem?_eq_getElem hi] at this
      exact Option.some.inj this
    rw [hn] at r2
    have := ih (pre ++ [n]) (by rw [e]; simp)
    rw [List.length_append, List.length_cons, List.length_nil] at this
    rw [List.length_cons, readers, r1]
    simp only
    rw [reader_eq (svc pre.length) hm (by omega) r2 r3 r4 (hk pre.length), bind_ok, this, bind_ok]
    simp

/-- A description of two bytes that the reader lists as feature `x` and answers by four bytes. -/
def answered (fs : List (Byte × Byte × Byte × Byte × Byte)) (x : Nat) (a : Ctl) : Option (Byte × Byte × Byte × Byte) :=
  if codeOf fs x = none then none
  else match a with
    | .ok [a, b, c, d] => some (a, b, c, d)
    | _ => none

/-- The property `p` of a reader: from its property list, from the PIN properties, or from the display
properties. -/
def propertyOf (pin display : Option (Byte × Byte × Byte × Byte)) (es : List (Byte × List Byte)) (p : Byte) :
    Option (List Byte) :=
  match es.find? fun e => e.1 = p with
  | some e => some e.2
  | none =>
    if p = 0x01 then pin.map fun d => [d.1, d.2.1]
    else if p = 0x04 then display.map fun d => [d.1, d.2.1]
    else if p = 0x05 then display.map fun d => [d.2.2.1, d.2.2.2]
    else none

/-- Property lists the library can read: see `C59_misparsed` and `C59_absent_overread`. -/
def Readable (es : List (Byte × List Byte)) : Prop :=
  SmallValues es ∧
  (∀ e, es.head? = some e → (encProps es).length + e.2.length + 2 ≤ 264) ∧
  ∀ pre p v post, es = pre ++ (p, v) :: post → ∀ e, pre.head? = some e →
    v.length ≤ (encProps post).length + e.2.length

theorem knows_readable (es : List (Byte × List Byte)) (hes : Readable es) (f : Feat)
    (hlen : f.propsLen = (encProps es).length)
    (harr : es ≠ [] → f.props = encProps es ++ List.replicate (264 - (encProps es).length) 0)
    (pin display : Option (Byte × Byte × Byte × Byte))
    (hp : f.view.lcdLayout = pin.map fun d => (d.1, d.2.1))
    (hd : f.view.lcdMax = display.map fun d => ((d.1, d.2.1), (d.2.2.1, d.2.2.2)))
    (p : Byte) (hp0 : p ≠ 0) : Knows f p.toNat (propertyOf pin display es p) := by
  obtain ⟨h1, h2, h3⟩ := hes
  have hlt : (encProps es).length < 2 ^ 32 := by
    cases es with
    | nil => decide
    | cons e es => have := h2 e rfl; omega
  have hview : es ≠ [] → f.view = readerWith es (List.replicate (264 - (encProps es).length) 0) f.view.lcdLayout
      f.view.lcdMax := by
    intro hne
    rw [readerWith, ← harr hne, ← hlen]
    rfl
  unfold propertyOf
  cases hfind : es.find? fun e => e.1 = p with
  | some e =>
    obtain ⟨q, v⟩ := e
    obtain ⟨hq, pre, post, he, hpre⟩ := List.find?_eq_some_iff_append.mp hfind
    simp only [decide_eq_true_eq] at hq
    subst hq
    have hpre' : ∀ e ∈ pre, e.1 ≠ q := fun e he => by simpa using hpre e he
    have hne : es ≠ [] := by rw [he]; simp
    have hok : pre = [] ∨ v.length ≤ (encProps post).length + ((pre ++ (q, v) :: post).head (by simp)).2.length := by
      cases pre with
      | nil => exact .inl rfl
      | cons e pre =>
        right
        exact h3 _ _ _ _ he e rfl
    intro value
    rw [hview hne]
    subst he
    refine ⟨fun h => C59_lookup_partial pre post q v _ _ _ value h1 hpre' hlt hok h,
      fun h => ⟨-3, by decide, C59_too_small_partial pre post q v _ _ _ value h1 hpre' hlt hok h⟩⟩
  | none =>
    have hno : ∀ e ∈ es, e.1 ≠ p := by
      intro e he
      have := List.find?_eq_none.mp hfind e he
      simpa using this
    have hfb : ∀ value, getProperty f.view p.toNat value =
        getProperty ⟨[], 0, f.view.lcdLayout, f.view.lcdMax⟩ p.toNat value := by
      intro value
      by_cases hne : es = []
      · subst hne
        have hl : f.view.len = 0 := hlen
        have key : ∀ arr, getProperty ⟨arr, 0, f.view.lcdLayout, f.view.lcdMax⟩ p.toNat value =
            fallback ⟨[], 0, f.view.lcdLayout, f.view.lcdMax⟩ p.toNat value := by
          intro arr
          rw [getProperty, propertyLoop, if_neg (by simp), bind_ok]
          rfl
        rw [key, ← key f.view.arr, ← hl]
      · rw [hview hne]
        exact C59_absent_partial es p _ _ _ value h1 hno hp0 hlt (fun e he => by have := h2 e he; omega)
    obtain ⟨-, -, -⟩ := C59_fallback [] 0 p.toNat f.view.lcdLayout f.view.lcdMax [] (by decide)
    have hdesc : ∀ n : Nat, n < 256 → ((p.toNat = n) ↔ p = UInt8.ofNat n) := by
      intro n hn
      constructor
      · intro h; subst h; simp
      · intro h; rw [h]; simp [Nat.mod_eq_of_lt hn]
    have hw : ∀ (w : Option (Byte × Byte)), described p.toNat f.view.lcdLayout f.view.lcdMax = w →
        Knows f p.toNat (w.map fun w => [w.1, w.2]) := by
      intro w hw
      cases w with
      | none =>
        intro value
        rw [hfb]
        exact ⟨1, by decide, (C59_fallback [] 0 p.toNat _ _ value (by decide)).2.2 hw⟩
      | some w =>
        intro value
        rw [hfb]
        have := C59_fallback [] 0 p.toNat f.view.lcdLayout f.view.lcdMax value (by decide)
        refine ⟨fun h => this.1 w hw h, fun h => ?_⟩
        obtain ⟨e, he, h'⟩ := this.2.1 w hw h
        exact ⟨e, by omega, h'⟩
    have := hw _ rfl
    rw [hp, hd] at this
    simp only [described, hdesc 1 (by decide), hdesc 4 (by decide), hdesc 5 (by decide)] at this
    have e1 : UInt8.ofNat 1 = 0x01 := rfl
    have e4 : UInt8.ofNat 4 = 0x04 := rfl
    have e5 : UInt8.ofNat 5 = 0x05 := rfl
    rw [e1, e4, e5] at this
    simp only
    by_cases q1 : p = 0x01
    · rw [if_pos q1] at this ⊢; cases pin <;> exact this
    · rw [if_neg q1] at this ⊢
      by_cases q4 : p = 0x04
      · rw [if_pos q4] at this ⊢; cases display <;> exact this
      · rw [if_neg q4] at this ⊢
        by_cases q5 : p = 0x05
        · rw [if_pos q5] at this ⊢; cases display <;> exact this
        · rw [if_neg q5] at this ⊢; exact this

/-- A reader that lists the features `fs` and the properties `es` and answers every request for a listed
description in full. -/
def Describes (s : ReaderSvc) (fs : List (Byte × Byte × Byte × Byte × Byte)) (es : List (Byte × List Byte)) : Prop :=
  s.Sound ∧ s.connect.isSome ∧ s.features = .ok (encFeatures fs) ∧
  (codeOf fs 0x0A = none ∨ ∃ d, s.pin = .ok d ∧ d.length = 4) ∧
  (codeOf fs 0x11 = none ∨ ∃ d, s.display = .ok d ∧ d.length = 4) ∧
  (codeOf fs 0x12 = none ∧ es = [] ∨ codeOf fs 0x12 ≠ none ∧ s.props = .ok (encProps es)) ∧ Readable es

/-- The properties of such a reader by number. -/
def propsOf (s : ReaderSvc) (fs : List (Byte × Byte × Byte × Byte × Byte)) (es : List (Byte × List Byte)) : Props :=
  fun p => propertyOf (answered fs 0x0A s.pin) (answered fs 0x11 s.display) es (UInt8.ofNat p)

theorem answered_view (fs : List (Byte × Byte × Byte × Byte × Byte)) (x : Nat) (a : Ctl) (l : List Byte) (n : Nat)
    (ha : codeOf fs x = none ∨ ∃ d, a = .ok d ∧ d.length = 4) (h0 : codeOf fs x = none → n = 0)
    (h1 : codeOf fs x ≠ none → ∀ d, a = .ok d → d.length = 4 → n = 4 ∧ l = d) :
    (if n = 0 then none else some (l.getD 0 0, l.getD 1 0, l.getD 2 0, l.getD 3 0)) = answered fs x a := by
  unfold answered
  by_cases hc : codeOf fs x = none
  · rw [if_pos hc, if_pos (h0 hc)]
  · obtain ⟨d, rfl, hd⟩ := ha.resolve_left hc
    obtain ⟨rfl, rfl⟩ := h1 hc d rfl hd
    rw [if_neg hc, if_neg (by decide)]
    match l, hd with
    | [a, b, c, e], _ => rfl

/-- **C106** (what a reader says).  A reader that answers its requests has exactly the features it lists,
and every property used by the listing is the one of its property list, or else of the PIN properties or
the display properties.  Missing: readers that fail a request for a listed description (`C103_lost`), and
property lists the library misreads (`C59_misparsed`, `C59_absent_overread`). -/
theorem C106_reader_partial (s : ReaderSvc) (card : Nat) (name : List Byte)
    (fs : List (Byte × Byte × Byte × Byte × Byte)) (es : List (Byte × List Byte)) (h : Describes s fs es) :
    ∃ r f e, populate s card name = .ok (r, f, e) ∧
      (∀ x, hasFeature f.buf f.bufLen x = .ok (fs.any fun e => e.1.toNat = x)) ∧
      ∀ p ∈ recognised, Knows f p (propsOf s fs es p) := by
  obtain ⟨h1, h2, h3, h4, h5, h6, h7⟩ := h
  obtain ⟨hd, hd'⟩ := Option.isSome_iff_exists.mp h2
  obtain ⟨r, f, e, k1, k2, k3, k4, -, k6⟩ := C103_known_partial s card hd name fs h1 hd' h3
  obtain ⟨d1, d2, -, d4⟩ := k6 h4
  obtain ⟨p1, p2, -, -⟩ := d4 h5
  refine ⟨r, f, e, k1, k2, fun p hp => ?_⟩
  have hpin := answered_view fs 0x0A s.pin f.pin f.pinLen h4 k3 k4
  have hdis := answered_view fs 0x11 s.display f.display f.displayLen h5 d1 d2
  have hlt : p < 256 ∧ p ≠ 0 := by
    simp only [recognised, List.mem_cons, List.not_mem_nil, or_false] at hp
    omega
  have hlen : f.propsLen = (encProps es).length := by
    rcases h6 with ⟨a, rfl⟩ | ⟨a, b⟩
    · exact p1 a
    · exact (p2 a _ b).1
  have harr : es ≠ [] → f.props = encProps es ++ List.replicate (264 - (encProps es).length) 0 := by
    intro hne
    rcases h6 with ⟨a, rfl⟩ | ⟨a, b⟩
    · exact absurd rfl hne
    · exact (p2 a _ b).2
  have := knows_readable es h7 f hlen harr (answered fs 0x0A s.pin) (answered fs 0x11 s.display)
    (by rw [← hpin, Feat.view]; by_cases h : f.pinLen = 0 <;> simp [h])
    (by rw [← hdis, Feat.view]; by_cases h : f.displayLen = 0 <;> simp [h])
    (UInt8.ofNat p) (by
      intro e
      have := congrArg UInt8.toNat e
      rw [UInt8.toNat_ofNat', Nat.mod_eq_of_lt hlt.1] at this
      exact hlt.2 this)
  rw [UInt8.toNat_ofNat', Nat.mod_eq_of_lt hlt.1] at this
  exact this

/-- No property is longer than 256 bytes. -/
theorem propsOf_le (s : ReaderSvc) (fs : List (Byte × Byte × Byte × Byte × Byte)) (es : List (Byte × List Byte))
    (h : Describes s fs es) (p : Nat) (v : List Byte) (hv : propsOf s fs es p = some v) : v.length ≤ 256 := by
  obtain ⟨-, -, -, -, -, -, h1, -, -⟩ := h
  unfold propsOf propertyOf at hv
  split at hv
  · rename_i e he
    obtain rfl := Option.some.inj hv
    have := h1 e (List.mem_of_find?_eq_some he)
    omega
  · split at hv
    · obtain ⟨d, -, rfl⟩ := Option.map_eq_some_iff.mp hv; simp
    · split at hv
      · obtain ⟨d, -, rfl⟩ := Option.map_eq_some_iff.mp hv; simp
      · split at hv
        · obtain ⟨d, -, rfl⟩ := Option.map_eq_some_iff.mp hv; simp
        · cases hv

/-- **C106** (end to end).  When the service lists the readers `ns` and reader `i` lists the features
`fs i` and the properties `es i`, what is printed after initialisation are the lines of each reader with
its name, features, properties and current state.  Missing: as in `C106_reader_partial`. -/
theorem C106_tool_partial (s : Svc) (mem mem' : Nat → List Byte) (card n : Nat) (ns : List (List Byte))
    (rest : List Byte) (fs : Nat → List (Byte × Byte × Byte × Byte × Byte)) (es : Nat → List (Byte × List Byte))
    (svc : Nat → Option Nat)
    (h1 : s.establish = true) (h2 : s.size = some n) (h3 : s.list = some (multi ns ++ rest))
    (hm : (mem n).length = n) (hm' : ∀ n, (mem' n).length = n) (hfit : (multi ns ++ rest).length ≤ n)
    (hn : Names ns) (hlt : ns.length < 2 ^ 64) (hs : ∀ i, Describes (s.reader i) (fs i) (es i)) :
    ∃ c e, init s mem card = .ok (0, some c, e) ∧
      list mem' c svc = .ok (if ns = [] then [] else txt!"\nPC/SC readers:\n" ++
        ns.zipIdx.flatMap fun (n, i) => readerText i n (fun x => (fs i).any fun e => e.1.toNat = x)
          (propsOf (s.reader i) (fs i) (es i)) ((svc i).map (· % 2 ^ 32))) := by
  obtain ⟨c, e, i1, i2, -, i4, -⟩ := C102_readers s mem card n ns rest h1 h2 h3 hm hfit hn fun i => (hs i).1
  refine ⟨c, e, i1, C106_listing mem' c ns (fun i x => (fs i).any fun e => e.1.toNat = x) (fun i => propsOf (s.reader i) (fs i) (es i)) svc hm' hlt i2 ?_
    fun i => propsOf_le _ _ _ (hs i)⟩
  intro i hi
  obtain ⟨r, r1, r2, res, ev, r3⟩ := i4 i hi
  obtain ⟨_, f, _, f1, f2, f3⟩ := C106_reader_partial (s.reader i) card ns[i] (fs i) (es i) (hs i)
  rw [r3] at f1
  obtain ⟨-, rfl, -⟩ : _ ∧ r.feat = f ∧ _ := by simpa using f1
  exact ⟨r, r1, r2, f2, f3⟩

/-- A reader with a display of two lines, PIN entry and a USB identification. -/
def pinpad : ReaderSvc :=
  ⟨some 7, none, .ok (encFeatures [(6, 0x42, 0, 0, 6), (0x0A, 0x42, 0, 0, 0x0A), (0x12, 0x42, 0, 0, 0x12)]),
    .ok [16, 2, 7, 0], .fail 0, .ok (encProps [(0x0B, [0xE6, 0x08]), (0x0C, [0x3A, 0x34]), (0x06, [4]), (0x07, [12])])⟩

example : Describes pinpad [(6, 0x42, 0, 0, 6), (0x0A, 0x42, 0, 0, 0x0A), (0x12, 0x42, 0, 0, 0x12)]
    [(0x0B, [0xE6, 0x08]), (0x0C, [0x3A, 0x34]), (0x06, [4]), (0x07, [12])] := by
  refine ⟨⟨by unfold Ctl.Sound pinpad; decide, by unfold Ctl.Sound pinpad; decide, by unfold Ctl.Sound pinpad; decide,
    by unfold Ctl.Sound pinpad; decide⟩, rfl, rfl, .inr ⟨_, rfl, rfl⟩, .inl (by decide), .inr ⟨by decide, rfl⟩,
    by unfold SmallValues; decide, by simp [encProps, encProp], ?_⟩
  intro pre p v post e x hx
  have hv : (p, v) ∈ [(0x0B, [0xE6, 0x08]), (0x0C, [0x3A, 0x34]), (0x06, [4]), (0x07, [(12 : Byte)])] := by
    rw [e]; simp
  have hl : v.length ≤ 2 := by
    simp only [List.mem_cons, List.not_mem_nil, or_false, Prod.mk.injEq] at hv
    rcases hv with h | h | h | h <;> simp [h.2]
  cases pre with
  | nil => cases hx
  | cons y pre =>
    obtain rfl := Option.some.inj hx
    obtain ⟨rfl, -⟩ := List.cons.inj e
    simp only [List.length_cons, List.length_nil]
    omega

example : (do
    let (_, f, _) ← populate pinpad 0 txt!"ACS"
    list (fun n => List.replicate n 0xFF) ⟨some (multi [txt!"ACS"]), some [⟨0, f⟩], none⟩ fun _ => some 0x10022) =
    .ok txt!"\nPC/SC readers:\nReader 0: ACS\n\tFeatures: PIN verification\n\tProperties: LCD 16 x 2, PIN size 4-12, USB device 08e6:343a\n\tState: Card present\n" := by
  decide +kernel

/-- **C106** (disagreement).  A reader whose property list ends in the USB product is listed without its
USB identification when the first property has a value of one byte. -/
theorem C106_omitted : ∃ (s : ReaderSvc), s.props = .ok (encProps [(0x06, [4]), (0x0B, [0xE6, 0x08]), (0x0C, [0x3A, 0x34])]) ∧
    (do
      let (_, f, _) ← populate s 0 txt!"ACS"
      propertyLine (fun n => List.replicate n 0xFF) f) = .ok txt!"\tProperties: PIN size 4+\n" :=
  ⟨⟨some 7, none, .ok (encFeatures [(0x12, 0x42, 0, 0, 0x12)]), .fail 0, .fail 0, _⟩, rfl, by decide +kernel⟩

/-- **C106** (disagreement).  A reader without a display can be listed with both “No LCD” and “LCD”. -/
theorem C106_contradiction : ∃ (k : Props), k 0x01 = some [0, 0] ∧ k 0x04 = some [0, 0] ∧ k 0x05 = some [0, 0] ∧
    propertyText k = txt!"\tProperties: No LCD, LCD\n" :=
  ⟨fun p => if p ∈ [0x01, 0x04, 0x05] then some [0, 0] else none, by decide, by decide, by decide, by decide +kernel⟩

/-- **C107** (state text).  Unavailable before empty before present, and for a present card unresponsive
before unpowered; otherwise there is no text.  Other bits do not matter. -/
theorem C107_state (s : Nat) : stateString s = stateText s := stateString_eq s

/-- **C107** (no answer).  A state that cannot be obtained is shown as unknown, like a state without text. -/
theorem C107_unknown (mem : Nat → List Byte) (c : Ctx) (r : Rdr) (i : Nat) (svc : Option Nat) :
    (svc = none ∨ ∃ s, svc = some s ∧ ∀ k ∈ [3, 4, 5], s.testBit k = false) →
    reader mem c svc i r = reader mem c none i r := by
  intro h
  rcases h with rfl | ⟨s, rfl, hb⟩
  · rfl
  · have : stateOf (some s) = stateOf none := by
      rw [stateOf_eq, stateOf_eq]
      simp only [Option.map_some, Option.bind_some, Option.map_none, Option.bind_none, stateText]
      have : ∀ k, k < 32 → (s % 2 ^ 32).testBit k = s.testBit k := by
        intro k hk
        rw [Nat.testBit_mod_two_pow]; simp [hk]
      rw [this 3 (by decide), this 4 (by decide), this 5 (by decide), hb 3 (by simp), hb 4 (by simp), hb 5 (by simp)]
      rfl
    rw [reader, reader, this]

example : stateText 0x0222 = some txt!"Unresponsive card" := by decide
example : stateText 0x0032 = some txt!"No card" := by decide

end Verif.ToolReaders
