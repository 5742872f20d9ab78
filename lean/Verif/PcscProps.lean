import Verif.Pcsc

/-!
# C59, C68, C69: queries to the card reader
-/

set_option autoImplicit false

namespace Verif.Pcsc
open Verif

/-! ## C59: properties -/

/-- Encoding of a property: tag, length, value (PC/SC Part 10, 2.6.14). -/
def encProp (e : Byte × List Byte) : List Byte := e.1 :: UInt8.ofNat e.2.length :: e.2

/-- Encoding of a list of properties. -/
def encProps (es : List (Byte × List Byte)) : List Byte := es.flatMap encProp

/-- Values of at most 255 bytes. -/
def SmallValues (es : List (Byte × List Byte)) : Prop := ∀ e ∈ es, e.2.length < 256

theorem encProps_cons (e : Byte × List Byte) (es : List (Byte × List Byte)) :
    encProps (e :: es) = e.1 :: UInt8.ofNat e.2.length :: (e.2 ++ encProps es) := by
  simp [encProps, encProp]

theorem encProps_cons_length (e : Byte × List Byte) (es : List (Byte × List Byte)) :
    (encProps (e :: es)).length = 2 + e.2.length + (encProps es).length := by
  simp [encProps_cons]; omega

theorem ofNat_toNat {n : Nat} (h : n < 256) : (UInt8.ofNat n).toNat = n := by
  simp [Nat.mod_eq_of_lt h]

/-- First matching element reached at its place in the list, with `d` bytes too many or too
few counted. -/
theorem propertyLoop_match (dn junk : List Byte) (p : Byte) (v : List Byte)
    (post : List (Byte × List Byte)) (value : List Byte) (fuel n d : Nat)
    (hv : v.length < 256) (hn : n + v.length = (encProps ((p, v) :: post)).length + d) :
    propertyLoop (dn ++ (encProps ((p, v) :: post) ++ junk)) p.toNat value (fuel + 1) dn.length n =
      .ok (some (if v.length > (encProps post).length + d then (-2, value, 0)
        else if v.length > value.length then (-3, value, 0)
        else (0, v ++ value.drop v.length, v.length))) := by
  rw [encProps_cons_length] at hn
  simp only at hn
  have hl := ofNat_toNat hv
  rw [propertyLoop, if_pos (by omega)]
  have r0 : rd (dn ++ (encProps ((p, v) :: post) ++ junk)) dn.length = .ok p := by
    have := rd_append_right dn (encProps ((p, v) :: post) ++ junk) 0
    rw [Nat.add_zero] at this
    rw [this, encProps_cons]; rfl
  have r1 : rd (dn ++ (encProps ((p, v) :: post) ++ junk)) (dn.length + 1) =
      .ok (UInt8.ofNat v.length) := by
    rw [rd_append_right, encProps_cons]; rfl
  rw [r0, bind_ok, r1, bind_ok, if_pos rfl, hl, show n - 2 = (encProps post).length + d by omega]
  split
  · rfl
  split
  · rfl
  · have hs : slice (dn ++ (encProps ((p, v) :: post) ++ junk)) (dn.length + 2) v.length =
        .ok v := by
      rw [slice_eq (by simp [encProps_cons]; omega)]
      rw [← List.drop_drop, List.drop_left, encProps_cons]
      simp
    rw [hs, bind_ok, wrs_eq (by omega), bind_ok]
    simp

/-- Elements that do not match are passed over, keeping the miscount. -/
theorem propertyLoop_skip (junk : List Byte) (p : Byte) (value : List Byte) (d : Nat)
    (hd : d < 256) (c : Byte × List Byte) (post : List (Byte × List Byte)) :
    ∀ (pre : List (Byte × List Byte)) (dn : List Byte) (fuel n : Nat),
      SmallValues (pre ++ c :: post) →
      (∀ e ∈ pre, e.1 ≠ p) →
      (encProps (pre ++ c :: post)).length < 2 ^ 32 →
      n + ((pre ++ c :: post).head (by simp)).2.length =
        (encProps (pre ++ c :: post)).length + d →
      ∃ n', n' + c.2.length = (encProps (c :: post)).length + d ∧
        propertyLoop (dn ++ (encProps (pre ++ c :: post) ++ junk)) p.toNat value
          (pre.length + fuel) dn.length n =
        propertyLoop ((dn ++ encProps pre) ++ (encProps (c :: post) ++ junk)) p.toNat value
          fuel (dn ++ encProps pre).length n' := by
  intro pre
  induction pre with
  | nil =>
    intro dn fuel n _ _ _ hn
    exact ⟨n, hn, by simp [encProps]⟩
  | cons e pre ih =>
    intro dn fuel n hs hne hlt hn
    obtain ⟨t, w⟩ := e
    simp only [List.cons_append, List.head_cons] at hn hs hlt ⊢
    have hw : w.length < 256 := hs (t, w) (by simp)
    have ht : t ≠ p := hne (t, w) (by simp)
    rw [encProps_cons_length] at hn hlt
    have ht' : t.toNat ≠ p.toNat := fun h => ht (UInt8.toNat_inj.1 h)
    rw [show (_ :: pre : List (Byte × List Byte)).length + fuel = (pre.length + fuel) + 1 by
      simp; omega, propertyLoop, if_pos (by simp only at hn; omega)]
    obtain ⟨e2, rest', hrest⟩ : ∃ e2 rest', pre ++ c :: post = e2 :: rest' :=
      List.exists_cons_of_ne_nil (by simp)
    rw [hrest] at hs hlt hn ⊢
    have hw2 : e2.2.length < 256 := hs e2 (by simp)
    have r0 : rd (dn ++ (encProps ((t, w) :: e2 :: rest') ++ junk)) dn.length = .ok t := by
      have := rd_append_right dn (encProps ((t, w) :: e2 :: rest') ++ junk) 0
      rw [Nat.add_zero] at this
      rw [this, encProps_cons]; rfl
    have r1 : rd (dn ++ (encProps ((t, w) :: e2 :: rest') ++ junk)) (dn.length + 1) =
        .ok (UInt8.ofNat w.length) := by
      rw [rd_append_right, encProps_cons]; rfl
    have harr : dn ++ (encProps ((t, w) :: e2 :: rest') ++ junk) =
        (dn ++ encProp (t, w)) ++ (encProps (e2 :: rest') ++ junk) := by
      simp [encProps, encProp]
    have hoff : dn.length + 2 + w.length = (dn ++ encProp (t, w)).length := by
      simp [encProp]; omega
    rw [r0, bind_ok, r1, bind_ok, if_neg ht', ofNat_toNat hw]
    simp only [hoff]
    rw [harr]
    have r2 : rd ((dn ++ encProp (t, w)) ++ (encProps (e2 :: rest') ++ junk))
        ((dn ++ encProp (t, w)).length + 1) = .ok (UInt8.ofNat e2.2.length) := by
      rw [rd_append_right, encProps_cons]; rfl
    rw [r2, bind_ok, ofNat_toNat hw2]
    simp only at hn
    have hel := encProps_cons_length e2 rest'
    have hmod : (n + 2 ^ 64 - (2 + e2.2.length)) % 2 ^ 64 = n - (2 + e2.2.length) := by
      rw [show n + 2 ^ 64 - (2 + e2.2.length) = (n - (2 + e2.2.length)) + 2 ^ 64 by omega,
        Nat.add_mod_right, Nat.mod_eq_of_lt (by omega)]
    rw [hmod]
    obtain ⟨n', h1, h2⟩ := ih (dn ++ encProp (t, w)) fuel (n - (2 + e2.2.length))
      (by rw [hrest]; intro x hx; exact hs x (List.mem_cons_of_mem _ hx))
      (by intro x hx; exact hne x (by simp [hx])) (by rw [hrest]; omega)
      (by simp only [List.head_cons, hrest]; omega)
    refine ⟨n', h1, ?_⟩
    rw [hrest] at h2
    rw [h2]
    simp [encProps]

/-- A well-formed property list `es`, possibly followed by other bytes of the array. -/
def readerWith (es : List (Byte × List Byte)) (junk : List Byte)
    (lcd : Option (Byte × Byte)) (max : Option ((Byte × Byte) × (Byte × Byte))) : Features :=
  ⟨encProps es ++ junk, (encProps es).length, lcd, max⟩

theorem encProps_length_ge (es : List (Byte × List Byte)) : 2 * es.length ≤ (encProps es).length := by
  induction es with
  | nil => simp
  | cons e es ih => rw [encProps_cons_length]; simp; omega

/-- Lookup of a property that is in the list, in general. -/
theorem getProperty_present (pre post : List (Byte × List Byte)) (p : Byte) (v junk : List Byte)
    (lcd : Option (Byte × Byte)) (max : Option ((Byte × Byte) × (Byte × Byte))) (value : List Byte)
    (hs : SmallValues (pre ++ (p, v) :: post)) (hp : ∀ e ∈ pre, e.1 ≠ p)
    (hlt : (encProps (pre ++ (p, v) :: post)).length < 2 ^ 32) :
    getProperty (readerWith (pre ++ (p, v) :: post) junk lcd max) p.toNat value =
      .ok (if v.length > (encProps post).length + ((pre ++ (p, v) :: post).head (by simp)).2.length
        then (-2, value, 0)
        else if v.length > value.length then (-3, value, 0)
        else (0, v ++ value.drop v.length, v.length)) := by
  rw [getProperty]
  simp only [readerWith]
  have hge := encProps_length_ge (pre ++ (p, v) :: post)
  obtain ⟨fuel, hf⟩ : ∃ fuel, (encProps (pre ++ (p, v) :: post) ++ junk).length + 1 =
      pre.length + (fuel + 1) := by
    refine ⟨(encProps (pre ++ (p, v) :: post) ++ junk).length - pre.length, ?_⟩
    simp only [List.length_append, List.length_cons] at hge ⊢
    omega
  obtain ⟨n', h1, h2⟩ := propertyLoop_skip junk p value
    ((pre ++ (p, v) :: post).head (by simp)).2.length
    (hs _ (List.head_mem _)) (p, v) post pre [] (fuel + 1)
    (encProps (pre ++ (p, v) :: post)).length hs hp hlt rfl
  rw [hf]
  rw [List.nil_append, List.length_nil, List.nil_append] at h2
  rw [h2, propertyLoop_match _ _ _ _ _ _ _ _ _ (hs (p, v) (by simp)) h1]
  rfl

/-- **C59** (partial: only when the property is the first one, or its value is no longer than
the first one's together with what follows it; see `C59_misparsed`).  The value of the first
property with the requested tag is returned, whatever follows the list in memory. -/
theorem C59_lookup_partial (pre post : List (Byte × List Byte)) (p : Byte) (v junk : List Byte)
    (lcd : Option (Byte × Byte)) (max : Option ((Byte × Byte) × (Byte × Byte))) (value : List Byte)
    (hs : SmallValues (pre ++ (p, v) :: post)) (hp : ∀ e ∈ pre, e.1 ≠ p)
    (hlt : (encProps (pre ++ (p, v) :: post)).length < 2 ^ 32)
    (hok : pre = [] ∨ v.length ≤ (encProps post).length +
      ((pre ++ (p, v) :: post).head (by simp)).2.length)
    (hv : v.length ≤ value.length) :
    getProperty (readerWith (pre ++ (p, v) :: post) junk lcd max) p.toNat value =
      .ok (0, v ++ value.drop v.length, v.length) := by
  rw [getProperty_present pre post p v junk lcd max value hs hp hlt, if_neg, if_neg (by omega)]
  rcases hok with rfl | h
  · simp
  · omega

/-- **C59** (partial, as before): a value buffer that is too small is reported and left as it
was. -/
theorem C59_too_small_partial (pre post : List (Byte × List Byte)) (p : Byte) (v junk : List Byte)
    (lcd : Option (Byte × Byte)) (max : Option ((Byte × Byte) × (Byte × Byte))) (value : List Byte)
    (hs : SmallValues (pre ++ (p, v) :: post)) (hp : ∀ e ∈ pre, e.1 ≠ p)
    (hlt : (encProps (pre ++ (p, v) :: post)).length < 2 ^ 32)
    (hok : pre = [] ∨ v.length ≤ (encProps post).length +
      ((pre ++ (p, v) :: post).head (by simp)).2.length)
    (hv : value.length < v.length) :
    getProperty (readerWith (pre ++ (p, v) :: post) junk lcd max) p.toNat value =
      .ok (-3, value, 0) := by
  rw [getProperty_present pre post p v junk lcd max value hs hp hlt, if_neg, if_pos (by omega)]
  rcases hok with rfl | h
  · simp
  · omega

/-- **C59 fails** in all other cases: a well-formed property is reported as malformed. -/
theorem C59_misparsed (pre post : List (Byte × List Byte)) (p : Byte) (v junk : List Byte)
    (lcd : Option (Byte × Byte)) (max : Option ((Byte × Byte) × (Byte × Byte))) (value : List Byte)
    (hs : SmallValues (pre ++ (p, v) :: post)) (hp : ∀ e ∈ pre, e.1 ≠ p)
    (hlt : (encProps (pre ++ (p, v) :: post)).length < 2 ^ 32)
    (hbad : (encProps post).length + ((pre ++ (p, v) :: post).head (by simp)).2.length <
      v.length) :
    getProperty (readerWith (pre ++ (p, v) :: post) junk lcd max) p.toNat value =
      .ok (-2, value, 0) := by
  rw [getProperty_present pre post p v junk lcd max value hs hp hlt, if_pos (by omega)]

/-- **C59 fails** for every property that is not in a (non-empty) list: the library reads past
the end of the list. -/
theorem C59_absent_overread (es : List (Byte × List Byte)) (p : Byte)
    (lcd : Option (Byte × Byte)) (max : Option ((Byte × Byte) × (Byte × Byte))) (value : List Byte)
    (hne : es ≠ []) (hs : SmallValues es) (hp : ∀ e ∈ es, e.1 ≠ p)
    (hlt : (encProps es).length < 2 ^ 32) :
    getProperty (readerWith es [] lcd max) p.toNat value = .error .oobRead := by
  obtain ⟨pre, c, rfl⟩ : ∃ pre c, es = pre ++ [c] :=
    ⟨es.dropLast, es.getLast hne, (List.dropLast_concat_getLast hne).symm⟩
  rw [getProperty]
  simp only [readerWith]
  have hge := encProps_length_ge (pre ++ [c])
  obtain ⟨fuel, hf⟩ : ∃ fuel, (encProps (pre ++ [c]) ++ []).length + 1 =
      pre.length + (fuel + 1) := by
    refine ⟨(encProps (pre ++ [c]) ++ []).length - pre.length, ?_⟩
    simp only [List.length_append, List.length_cons, List.length_nil] at hge ⊢
    omega
  obtain ⟨n', h1, h2⟩ := propertyLoop_skip [] p value ((pre ++ [c]).head (by simp)).2.length
    (hs _ (List.head_mem _)) c [] pre [] (fuel + 1)
    (encProps (pre ++ [c])).length hs (fun e he => hp e (by simp [he])) hlt rfl
  rw [hf]
  rw [List.nil_append, List.length_nil, List.nil_append] at h2
  have hc : c.2.length < 256 := hs c (by simp)
  have hcp : c.1.toNat ≠ p.toNat := fun h => hp c (by simp) (UInt8.toNat_inj.1 h)
  rw [encProps_cons_length] at h1
  rw [h2, propertyLoop, if_pos (by simp [encProps] at h1; omega)]
  have r0 : rd (encProps pre ++ (encProps [c] ++ [])) (encProps pre).length = .ok c.1 := by
    have := rd_append_right (encProps pre) (encProps [c] ++ []) 0
    rw [Nat.add_zero] at this
    rw [this, encProps_cons]; rfl
  have r1 : rd (encProps pre ++ (encProps [c] ++ [])) ((encProps pre).length + 1) =
      .ok (UInt8.ofNat c.2.length) := by
    rw [rd_append_right, encProps_cons]; rfl
  have r2 : rd (encProps pre ++ (encProps [c] ++ [])) ((encProps pre).length + 2 + c.2.length + 1) =
      .error .oobRead := by
    have : (encProps pre ++ (encProps [c] ++ [])).length =
        (encProps pre).length + 2 + c.2.length := by
      simp [encProps, encProp]; omega
    rw [rd, List.getElem?_eq_none (by omega)]
  rw [r0, bind_ok, r1, bind_ok, if_neg hcp, ofNat_toNat hc]
  simp only [r2]
  rfl

/-- In zeros the loop ends without finding anything. -/
theorem propertyLoop_zeros (p : Nat) (hp : p ≠ 0) (value : List Byte) : ∀ (fuel : Nat) (dn : List Byte) (m n : Nat),
    n + 2 ≤ m → n < fuel → n < 2 ^ 32 →
    propertyLoop (dn ++ List.replicate m 0) p value fuel dn.length n = .ok none := by
  intro fuel
  induction fuel with
  | zero => intro dn m n _ h; omega
  | succ fuel ih =>
    intro dn m n hm hf hn
    rw [propertyLoop]
    by_cases h2 : n ≥ 2
    · have hr : ∀ i, i < m → rd (dn ++ List.replicate m 0) (dn.length + i) = .ok 0 := by
        intro i hi
        rw [rd_append_right, rd, List.getElem?_replicate, if_pos hi]
      have r0 := hr 0 (by omega)
      rw [Nat.add_zero] at r0
      rw [if_pos h2, r0, bind_ok, hr 1 (by omega), bind_ok, if_neg (fun h => hp h.symm)]
      simp only
      rw [show dn.length + 2 + (0 : Byte).toNat + 1 = dn.length + 3 from rfl, hr 3 (by omega), bind_ok]
      have hd : dn ++ List.replicate m (0 : Byte) = (dn ++ [0, 0]) ++ List.replicate (m - 2) 0 := by
        obtain ⟨k, rfl⟩ : ∃ k, m = k + 2 := ⟨m - 2, by omega⟩
        simp [List.replicate_succ]
      rw [show (n + 2 ^ 64 - (2 + (0 : Byte).toNat)) % 2 ^ 64 = n - 2 by
        rw [show (0 : Byte).toNat = 0 from rfl]; omega, hd]
      rw [show dn.length + 2 + (0 : Byte).toNat = (dn ++ [0, 0]).length by simp]
      exact ih (dn ++ [0, 0]) (m - 2) (n - 2) (by omega) (by omega) (by omega)
    · rw [if_neg h2]

/-- **C59** (partial: room for the overread, see `C59_absent_overread`).  A property that is not in the list
is looked for in the descriptions, provided the rest of the array is zero and at least two bytes longer than
the value of the first property. -/
theorem C59_absent_partial (es : List (Byte × List Byte)) (p : Byte) (m : Nat)
    (lcd : Option (Byte × Byte)) (max : Option ((Byte × Byte) × (Byte × Byte))) (value : List Byte)
    (hs : SmallValues es) (hp : ∀ e ∈ es, e.1 ≠ p) (hp0 : p ≠ 0)
    (hlt : (encProps es).length < 2 ^ 32) (hm : ∀ e, es.head? = some e → e.2.length + 2 ≤ m) :
    getProperty (readerWith es (List.replicate m 0) lcd max) p.toNat value =
      getProperty ⟨[], 0, lcd, max⟩ p.toNat value := by
  have hnil : getProperty ⟨[], 0, lcd, max⟩ p.toNat value = fallback ⟨[], 0, lcd, max⟩ p.toNat value := by
    rw [getProperty, propertyLoop, if_neg (by simp), bind_ok]
  have hfb : ∀ arr len, fallback ⟨arr, len, lcd, max⟩ p.toNat value = fallback ⟨[], 0, lcd, max⟩ p.toNat value :=
    fun _ _ => rfl
  suffices h : propertyLoop (encProps es ++ List.replicate m 0) p.toNat value
      ((encProps es ++ List.replicate m 0).length + 1) 0 (encProps es).length = .ok none by
    rw [hnil, getProperty]
    simp only [readerWith, h, bind_ok]
    exact hfb _ _
  by_cases hne : es = []
  · subst hne
    rw [propertyLoop, if_neg (by decide)]
  obtain ⟨pre, c, rfl⟩ : ∃ pre c, es = pre ++ [c] :=
    ⟨es.dropLast, es.getLast hne, (List.dropLast_concat_getLast hne).symm⟩
  have hd2 : ((pre ++ [c]).head (by simp)).2.length + 2 ≤ m := hm _ (List.head?_eq_some_head _)
  have hge := encProps_length_ge (pre ++ [c])
  have hel : 2 + c.2.length ≤ (encProps (pre ++ [c])).length := by
    rw [encProps, List.flatMap_append, List.length_append]
    simp [encProp]; omega
  obtain ⟨fuel, hf, hfu⟩ : ∃ fuel, (encProps (pre ++ [c]) ++ List.replicate m 0).length + 1 =
      pre.length + (fuel + 1) ∧ m ≤ fuel := by
    refine ⟨(encProps (pre ++ [c]) ++ List.replicate m 0).length - pre.length, ?_, ?_⟩ <;>
    · simp only [List.length_append, List.length_cons, List.length_nil, List.length_replicate] at hge ⊢
      omega
  obtain ⟨n', h1, h2⟩ := propertyLoop_skip (List.replicate m 0) p value ((pre ++ [c]).head (by simp)).2.length
    (hs _ (List.head_mem _)) c [] pre [] (fuel + 1)
    (encProps (pre ++ [c])).length hs (fun e he => hp e (by simp [he])) hlt rfl
  rw [hf]
  rw [List.nil_append, List.length_nil, List.nil_append] at h2
  have hd256 : ((pre ++ [c]).head (by simp)).2.length < 256 := hs _ (List.head_mem _)
  generalize ((pre ++ [c]).head (by simp)).2.length = d at *
  have hc : c.2.length < 256 := hs c (by simp)
  have hcp : c.1.toNat ≠ p.toNat := fun h => hp c (by simp) (UInt8.toNat_inj.1 h)
  rw [encProps_cons_length] at h1
  have h1' : n' = 2 + d := by simp [encProps] at h1; omega
  rw [h2, propertyLoop, if_pos (by omega)]
  have r0 : rd (encProps pre ++ (encProps [c] ++ List.replicate m 0)) (encProps pre).length = .ok c.1 := by
    have := rd_append_right (encProps pre) (encProps [c] ++ List.replicate m 0) 0
    rw [Nat.add_zero] at this
    rw [this, encProps_cons]; rfl
  have r1 : rd (encProps pre ++ (encProps [c] ++ List.replicate m 0)) ((encProps pre).length + 1) =
      .ok (UInt8.ofNat c.2.length) := by
    rw [rd_append_right, encProps_cons]; rfl
  have harr : encProps pre ++ (encProps [c] ++ List.replicate m 0) =
      (encProps pre ++ encProps [c]) ++ List.replicate m 0 := by simp
  have hoff : (encProps pre).length + 2 + c.2.length = (encProps pre ++ encProps [c]).length := by
    simp [encProps, encProp]; omega
  rw [r0, bind_ok, r1, bind_ok, if_neg hcp, ofNat_toNat hc]
  simp only
  rw [hoff, harr, rd_append_right, rd, List.getElem?_replicate, if_pos (by omega), bind_ok]
  rw [show (n' + 2 ^ 64 - (2 + (0 : Byte).toNat)) % 2 ^ 64 = d by
    rw [show (0 : Byte).toNat = 0 from rfl]; omega]
  exact propertyLoop_zeros p.toNat (fun h => hp0 (UInt8.toNat_inj.1 h)) value _ _ _ _ hd2 (by omega) (by omega)

/-- What is returned for a property from the PIN and display descriptions of the reader. -/
def described (property : Nat) (lcd : Option (Byte × Byte))
    (max : Option ((Byte × Byte) × (Byte × Byte))) : Option (Byte × Byte) :=
  if property = 1 then lcd
  else if property = 4 then max.map Prod.fst
  else if property = 5 then max.map Prod.snd
  else none

/-- **C59**: without property list, the LCD properties come from the PIN and display
descriptions, and other properties are not found. -/
theorem C59_fallback (arr : List Byte) (len property : Nat) (lcd : Option (Byte × Byte))
    (max : Option ((Byte × Byte) × (Byte × Byte))) (value : List Byte) (h : len < 2) :
    (∀ w, described property lcd max = some w → 2 ≤ value.length →
      getProperty ⟨arr, len, lcd, max⟩ property value =
        .ok (0, [w.1, w.2] ++ value.drop 2, 2)) ∧
    (∀ w, described property lcd max = some w → value.length < 2 →
      ∃ e, e < 0 ∧ getProperty ⟨arr, len, lcd, max⟩ property value = .ok (e, value, 0)) ∧
    (described property lcd max = none →
      getProperty ⟨arr, len, lcd, max⟩ property value = .ok (1, value, 0)) := by
  have hg : getProperty ⟨arr, len, lcd, max⟩ property value =
      fallback ⟨arr, len, lcd, max⟩ property value := by
    rw [getProperty]
    simp only [propertyLoop]
    rw [if_neg (by omega), bind_ok]
  have hput : ∀ (w : Byte × Byte) (e : Int), 2 ≤ value.length →
      putWord w e value = .ok (0, [w.1, w.2] ++ value.drop 2, 2) := by
    intro w e hv
    rw [putWord, if_neg (by omega), wrs_eq (by simpa using hv), bind_ok]
    simp
  have hsmall : ∀ (w : Byte × Byte) (e : Int), value.length < 2 →
      putWord w e value = .ok (e, value, 0) := by
    intro w e hv
    rw [putWord, if_pos hv]
  rw [hg]
  simp only [fallback, described]
  by_cases h1 : property = 1
  · subst h1
    cases lcd <;> cases max <;> simp_all <;> exact fun _ => ⟨_, by decide, rfl⟩
  · by_cases h4 : property = 4
    · subst h4
      cases lcd <;> cases max <;> simp_all <;> exact fun _ => ⟨_, by decide, rfl⟩
    · by_cases h5 : property = 5
      · subst h5
        cases lcd <;> cases max <;> simp_all <;> exact fun _ => ⟨_, by decide, rfl⟩
      · cases lcd <;> cases max <;> simp_all

example : getProperty (readerWith [(0x0B, [1, 2]), (0x06, [4]), (0x0C, [3, 4])] [7, 7] none none)
    0x0C [0, 0, 0] = .ok (0, [3, 4, 0], 2) := by decide +kernel
example : getProperty (readerWith [(0x06, [4]), (0x08, [3, 4, 5, 6])] [7, 7] none none)
    0x08 [0, 0, 0, 0] = .ok (-2, [0, 0, 0, 0], 0) := by decide +kernel
example : getProperty (readerWith [(0x06, [4]), (0x07, [12])] (List.replicate 4 0) (some (0x10, 0x02)) none)
    0x01 [9, 9] = .ok (0, [0x10, 0x02], 2) := by decide +kernel
example : SmallValues [(0x06, [4]), (0x0C, [3, 4])] := by
  intro e he; simp at he; rcases he with rfl | rfl <;> decide

/-! ## C68: features -/

/-- A feature with its control code as the reader reports it: tag, length 4, big-endian code. -/
def encFeature (f : Byte × Byte × Byte × Byte × Byte) : List Byte :=
  [f.1, 4, f.2.1, f.2.2.1, f.2.2.2.1, f.2.2.2.2]

/-- Control code of a feature. -/
def code (f : Byte × Byte × Byte × Byte × Byte) : Nat :=
  f.2.1.toNat * 2 ^ 24 + f.2.2.1.toNat * 2 ^ 16 + f.2.2.2.1.toNat * 2 ^ 8 + f.2.2.2.2.toNat

/-- A feature list of the reader. -/
def encFeatures (fs : List (Byte × Byte × Byte × Byte × Byte)) : List Byte := fs.flatMap encFeature

theorem encFeatures_length (fs : List (Byte × Byte × Byte × Byte × Byte)) :
    (encFeatures fs).length = 6 * fs.length := by
  induction fs with
  | nil => rfl
  | cons f fs ih => simp [encFeatures, encFeature] at ih ⊢; omega

theorem getFeatureLoop_spec (junk : List Byte) (feature : Nat) :
    ∀ (fs : List (Byte × Byte × Byte × Byte × Byte)) (dn : List Byte) (fuel bufLen : Nat),
      bufLen = dn.length + 6 * fs.length → fs.length < fuel →
      getFeatureLoop (dn ++ (encFeatures fs ++ junk)) bufLen feature fuel dn.length =
        .ok ((fs.find? fun f => f.1.toNat = feature).map code) := by
  intro fs
  induction fs with
  | nil =>
    intro dn fuel bufLen hb hf
    obtain ⟨fuel, rfl⟩ : ∃ k, fuel = k + 1 := ⟨fuel - 1, by simp at hf; omega⟩
    rw [getFeatureLoop, if_neg (by simp at hb; omega)]
    rfl
  | cons f fs ih =>
    intro dn fuel bufLen hb hf
    obtain ⟨fuel, rfl⟩ : ∃ k, fuel = k + 1 := ⟨fuel - 1, by simp at hf; omega⟩
    simp only [List.length_cons] at hb hf
    have harr : ∀ i, rd (dn ++ (encFeatures (f :: fs) ++ junk)) (dn.length + i) =
        rd (encFeatures (f :: fs) ++ junk) i := rd_append_right dn _
    have harr0 : rd (dn ++ (encFeatures (f :: fs) ++ junk)) dn.length =
        rd (encFeatures (f :: fs) ++ junk) 0 := harr 0
    have he : encFeatures (f :: fs) ++ junk = f.1 :: 4 :: f.2.1 :: f.2.2.1 :: f.2.2.2.1 ::
        f.2.2.2.2 :: (encFeatures fs ++ junk) := by simp [encFeatures, encFeature]
    rw [getFeatureLoop, if_pos (by omega)]
    simp only [harr, harr0, featureValue]
    simp only [he, rd_cons_zero, rd_cons_succ, bind_ok, and_true]
    by_cases ht : f.1.toNat = feature
    · rw [if_pos ht, List.find?_cons_of_pos (by simpa using ht)]
      simp [code]
      omega
    · rw [if_neg ht, List.find?_cons_of_neg (by simpa using ht)]
      have := ih (dn ++ encFeature f) fuel bufLen (by simp [encFeature]; omega) (by omega)
      rw [← this]
      simp [encFeature, featureSize]

theorem hasFeatureLoop_spec (buf : List Byte) (feature k : Nat) (hb : k * 6 ≤ buf.length) :
    ∀ (m i fuel : Nat), i + m = k → m < fuel →
      ∃ b, hasFeatureLoop buf (k * 6) feature fuel (i * 6) = .ok b ∧
        (b = true ↔ ∃ j, i ≤ j ∧ j < k ∧ (buf.getD (j * 6) 0).toNat = feature) := by
  intro m
  induction m with
  | zero =>
    intro i fuel hi hf
    obtain ⟨fuel, rfl⟩ : ∃ k, fuel = k + 1 := ⟨fuel - 1, by omega⟩
    rw [hasFeatureLoop, if_neg (by omega)]
    refine ⟨false, rfl, ?_⟩
    simp
    intro j h1 h2; omega
  | succ m ih =>
    intro i fuel hi hf
    obtain ⟨fuel, rfl⟩ : ∃ k, fuel = k + 1 := ⟨fuel - 1, by omega⟩
    rw [hasFeatureLoop, if_pos (by omega), rd_eq (by omega), bind_ok]
    have hget : buf.getD (i * 6) 0 = buf[i * 6]'(by omega) := by
      rw [List.getD_eq_getElem?_getD, List.getElem?_eq_getElem (by omega)]; rfl
    by_cases ht : (buf[i * 6]'(by omega)).toNat = feature
    · rw [if_pos ht]
      exact ⟨true, rfl, by simpa using ⟨i, Nat.le_refl _, by omega, by rw [List.getElem?_eq_getElem (by omega)]; simpa using ht⟩⟩
    · rw [if_neg ht]
      obtain ⟨b, e, hb'⟩ := ih (i + 1) fuel (by omega) (by omega)
      rw [show i * 6 + featureSize = (i + 1) * 6 by simp [featureSize]; omega]
      refine ⟨b, e, hb'.trans ?_⟩
      constructor
      · rintro ⟨j, h1, h2, h3⟩; exact ⟨j, by omega, h2, h3⟩
      · rintro ⟨j, h1, h2, h3⟩
        refine ⟨j, ?_, h2, h3⟩
        rcases Nat.lt_or_ge i j with h | h
        · omega
        · have : j = i := by omega
          subst this
          rw [hget] at h3; exact absurd h3 ht

theorem validLoop_spec (buf : List Byte) (k : Nat) (hb : k * 6 ≤ buf.length) :
    ∀ (m i fuel : Nat), i + m = k → m < fuel →
      ∃ b, validLoop buf (k * 6) fuel (i * 6) = .ok b ∧
        (b = true ↔ ∀ j, i ≤ j → j < k → buf.getD (j * 6 + 1) 0 = 4) := by
  intro m
  induction m with
  | zero =>
    intro i fuel hi hf
    obtain ⟨fuel, rfl⟩ : ∃ k, fuel = k + 1 := ⟨fuel - 1, by omega⟩
    rw [validLoop, if_neg (by omega)]
    refine ⟨true, rfl, ?_⟩
    simp
    intro j h1 h2; omega
  | succ m ih =>
    intro i fuel hi hf
    obtain ⟨fuel, rfl⟩ : ∃ k, fuel = k + 1 := ⟨fuel - 1, by omega⟩
    rw [validLoop, if_pos (by omega), rd_eq (by omega), bind_ok]
    have hget : buf.getD (i * 6 + 1) 0 = buf[i * 6 + 1]'(by omega) := by
      rw [List.getD_eq_getElem?_getD, List.getElem?_eq_getElem (by omega)]; rfl
    by_cases ht : buf[i * 6 + 1]'(by omega) = 4
    · rw [if_neg (by simpa using ht)]
      obtain ⟨b, e, hb'⟩ := ih (i + 1) fuel (by omega) (by omega)
      rw [show i * 6 + featureSize = (i + 1) * 6 by simp [featureSize]; omega]
      refine ⟨b, e, hb'.trans ?_⟩
      constructor
      · intro h j h1 h2
        rcases Nat.lt_or_ge i j with h3 | h3
        · exact h j (by omega) h2
        · have : j = i := by omega
          subst this
          rw [hget, ht]
      · intro h j h1 h2; exact h j (by omega) h2
    · rw [if_pos ht]
      refine ⟨false, rfl, ?_⟩
      simp only [Bool.false_eq_true, false_iff]
      intro h
      exact ht (by rw [← hget]; exact h i (Nat.le_refl _) (by omega))

/-- **C68** (any bytes).  For whatever the reader reported, the check of the feature list and
feature queries read only the list; a list that is no sequence of six byte entries is refused
and then has no features; otherwise a feature is available exactly when an entry has its tag,
and the list is valid exactly when every entry has a four byte value. -/
theorem C68_any (received junk : List Byte) (feature : Nat) :
    ∃ r len b, checkFeatures (received ++ junk) received.length = .ok (r, len) ∧
      hasFeature (received ++ junk) len feature = .ok b ∧
      len ≤ received.length ∧
      (received.length % 6 ≠ 0 → r = -4 ∧ b = false) ∧
      (received.length % 6 = 0 →
        (b = true ↔ ∃ j, j * 6 < received.length ∧ (received.getD (j * 6) 0).toNat = feature) ∧
        (r = 0 ↔ ∀ j, j * 6 < received.length → received.getD (j * 6 + 1) 0 = 4)) := by
  by_cases hm : received.length % 6 = 0
  · obtain ⟨k, hk⟩ : ∃ k, received.length = k * 6 := ⟨received.length / 6, by omega⟩
    have hb : k * 6 ≤ (received ++ junk).length := by simp; omega
    have hget : ∀ i, i < received.length → (received ++ junk).getD i 0 = received.getD i 0 := by
      intro i hi
      simp [List.getD_eq_getElem?_getD, List.getElem?_append_left hi]
    obtain ⟨ok, e1, h1⟩ := validLoop_spec (received ++ junk) k hb k 0 (k * 6 + 1) (by omega) (by omega)
    obtain ⟨b, e2, h2⟩ := hasFeatureLoop_spec (received ++ junk) feature k hb k 0 (k * 6 + 1)
      (by omega) (by omega)
    rw [Nat.zero_mul] at e1 e2
    have eh : ∃ b, hasFeature (received ++ junk) received.length feature = .ok b ∧
        (b = true ↔ ∃ j, 0 ≤ j ∧ j < k ∧ ((received ++ junk).getD (j * 6) 0).toNat = feature) := by
      rw [hasFeature, hk]
      by_cases h0 : k * 6 = 0
      · rw [if_pos h0]
        refine ⟨false, rfl, ?_⟩
        simp only [Bool.false_eq_true, false_iff]
        rintro ⟨j, _, h, -⟩
        omega
      · rw [if_neg h0]
        exact ⟨b, e2, h2⟩
    obtain ⟨b, e2, h2⟩ := eh
    refine ⟨if ok then 0 else -5, received.length, b, ?_, e2, Nat.le_refl _,
      fun h => absurd hm h, fun _ => ⟨?_, ?_⟩⟩
    · rw [checkFeatures, if_neg (by simpa [featureSize] using hm), hk, e1, bind_ok]
      cases ok <;> rfl
    · rw [h2]
      constructor
      · rintro ⟨j, -, h, h'⟩
        exact ⟨j, by omega, by rw [← hget _ (by omega)]; exact h'⟩
      · rintro ⟨j, h, h'⟩
        exact ⟨j, by omega, by omega, by rw [hget _ (by omega)]; exact h'⟩
    · constructor
      · intro h j hj
        cases ok with
        | false => simp at h
        | true =>
          rw [← hget _ (by omega)]
          exact h1.1 rfl j (by omega) (by omega)
      · intro h
        rw [if_pos]
        exact h1.2 fun j _ hj => by rw [hget _ (by omega)]; exact h j (by omega)
  · refine ⟨-4, 0, false, ?_, rfl, by omega, fun _ => ⟨rfl, rfl⟩, fun h => absurd h hm⟩
    rw [checkFeatures, if_pos (by simpa [featureSize] using hm)]

/-- **C68** (well-formed lists).  The list is accepted, and the control code used for a
feature is the one of the first entry with its tag. -/
theorem C68_control_code (fs : List (Byte × Byte × Byte × Byte × Byte)) (junk : List Byte)
    (feature : Nat) :
    checkFeatures (encFeatures fs ++ junk) (encFeatures fs).length =
      .ok (0, (encFeatures fs).length) ∧
    getFeature (encFeatures fs ++ junk) (encFeatures fs).length feature =
      .ok ((fs.find? fun f => f.1.toNat = feature).map code) := by
  have hl := encFeatures_length fs
  constructor
  · obtain ⟨r, len, b, e, -, -, -, h⟩ := C68_any (encFeatures fs) junk feature
    have h6 : (encFeatures fs).length % 6 = 0 := by omega
    have hall : ∀ j, j * 6 < (encFeatures fs).length → (encFeatures fs).getD (j * 6 + 1) 0 = 4 := by
      clear h e hl h6
      induction fs with
      | nil => intro j hj; simp [encFeatures] at hj
      | cons f fs ih =>
        intro j hj
        cases j with
        | zero => simp [encFeatures, encFeature]
        | succ j =>
          have he : encFeatures (f :: fs) = [f.1, 4, f.2.1, f.2.2.1, f.2.2.2.1, f.2.2.2.2] ++
            encFeatures fs := by simp [encFeatures, encFeature]
          rw [he] at hj ⊢
          have := ih j (by simp at hj; omega)
          rw [List.getD_eq_getElem?_getD, List.getElem?_append_right (by simp; omega),
            ← List.getD_eq_getElem?_getD]
          rw [show (j + 1) * 6 + 1 - _ = j * 6 + 1 by simp; omega]
          exact this
    have hr : r = 0 := (h h6).2.2 hall
    rw [checkFeatures, if_neg (by simp [featureSize]; omega)] at e ⊢
    subst hr
    generalize validLoop (encFeatures fs ++ junk) (encFeatures fs).length
      ((encFeatures fs).length + 1) 0 = x at e ⊢
    cases x with
    | error u => cases e
    | ok ok => cases ok
               · simp [bind_ok] at e
               · rfl
  · rw [getFeature]
    split
    · rename_i h0
      have : fs = [] := List.eq_nil_of_length_eq_zero (by omega)
      subst this; rfl
    · have := getFeatureLoop_spec junk feature fs [] ((encFeatures fs).length + 1)
        (encFeatures fs).length (by simpa using hl) (by omega)
      simpa using this

/-- **C68**: a list refused because of an entry with another length still counts afterwards
(the length is only reset for the other error), so its features are reported as available. -/
theorem C68_refused_still_listed : ∃ received, ∃ len,
    checkFeatures received received.length = .ok (-5, len) ∧
    hasFeature received len 0x06 = .ok true :=
  ⟨[0x06, 3, 0, 0, 0, 0], 6, by decide, by decide⟩

example : getFeature (encFeatures [(6, 0x42, 0, 0x0D, 0x48), (9, 1, 2, 3, 4)] ++ [1, 2]) 12 9 =
    .ok (some 0x01020304) := by decide +kernel

/-! ## C69: card type and ATR -/

/-- The ATR form that PC/SC readers make up for contactless cards (PC/SC Part 3, 3.1.3.2.3.1):
3B 8n 80 01, n bytes and a check byte, where the upper half of the second byte only has to
have its top bit set. -/
def ContactlessAtr (atr : List Byte) : Prop :=
  ∃ (t0 : Byte) (hist : List Byte) (tck : Byte), atr = [0x3B, t0, 0x80, 0x01] ++ hist ++ [tck] ∧
    128 ≤ t0.toNat ∧ hist.length = t0.toNat % 16

theorem t0_high : ∀ b : Byte, (b &&& 0x80 == 0x80) = decide (128 ≤ b.toNat) := by decide +kernel
theorem t0_low : ∀ b : Byte, (b &&& 0x0F).toNat = b.toNat % 16 := by decide +kernel

theorem pcscContactless_spec (atr : List Byte) :
    ∃ b, pcscContactless atr = .ok b ∧ (b = true ↔ ContactlessAtr atr) := by
  rw [pcscContactless]
  split
  · rename_i h
    match atr, h with
    | b0 :: b1 :: b2 :: b3 :: b4 :: rest, _ =>
      simp only [rd_cons_zero, rd_cons_succ, bind_ok]
      refine ⟨_, rfl, ?_⟩
      rw [t0_high, t0_low]
      simp only [Bool.and_eq_true, beq_iff_eq, decide_eq_true_eq]
      constructor
      · rintro ⟨⟨⟨⟨rfl, h1⟩, rfl⟩, rfl⟩, hl⟩
        refine ⟨b1, (b4 :: rest).dropLast, (b4 :: rest).getLast (by simp), ?_, h1, ?_⟩
        · rw [List.append_assoc, List.dropLast_concat_getLast]; rfl
        · simp only [List.length_cons, List.length_dropLast] at hl ⊢; omega
      · rintro ⟨t0, hist, tck, e, h1, h2⟩
        simp only [List.cons_append, List.nil_append, List.cons.injEq] at e
        obtain ⟨rfl, rfl, rfl, rfl, e⟩ := e
        have := congrArg List.length e
        simp only [List.length_cons, List.length_append, List.length_nil] at this ⊢
        exact ⟨⟨⟨⟨trivial, h1⟩, trivial⟩, trivial⟩, by omega⟩
  · rename_i h
    refine ⟨false, rfl, ?_⟩
    simp only [Bool.false_eq_true, false_iff]
    rintro ⟨t0, hist, tck, rfl, -, -⟩
    simp at h

theorem getUid_spec (answer : Option (List Byte)) (cap : Nat) :
    ∃ r uid, getUid answer cap = .ok (r, uid) ∧
      (r = 0 ↔ ∃ u, answer = some (u ++ [0x90, 0x00]) ∧ u.length ≤ cap) ∧
      (0 < r ↔ ∃ d, answer = some (d ++ [0x6A, 0x81])) := by
  cases answer with
  | none => exact ⟨-1, [], rfl, by simp, by simp⟩
  | some rx =>
    rw [getUid]
    simp only
    split
    · rename_i h
      refine ⟨-5, [], rfl, ?_, ?_⟩
      · simp only [Option.some.injEq]
        constructor
        · intro h; simp at h
        · rintro ⟨u, rfl, -⟩; simp at h; omega
      · constructor
        · intro h; simp at h
        · rintro ⟨d, e⟩; simp only [Option.some.injEq] at e; subst e; simp at h; omega
    · rename_i h
      obtain ⟨d, s1, s2, rfl⟩ : ∃ d s1 s2, rx = d ++ [s1, s2] := by
        refine ⟨rx.take (rx.length - 2), rx[rx.length - 2]'(by omega), rx[rx.length - 1]'(by omega), ?_⟩
        have h1 := List.take_append_drop (rx.length - 2) rx
        have h2 : rx.drop (rx.length - 2) = [rx[rx.length - 2]'(by omega), rx[rx.length - 1]'(by omega)] := by
          apply List.ext_getElem
          · simp; omega
          · intro i hi1 hi2
            simp at hi2
            match i, hi2 with
            | 0, _ => simp
            | 1, _ => simp; congr 1; omega
        rw [← h2, h1]
      have hl : (d ++ [s1, s2]).length = d.length + 2 := by simp
      rw [hl]
      have r1 : rd (d ++ [s1, s2]) (d.length + 2 - 2) = .ok s1 := by
        have := rd_append_right d [s1, s2] 0
        simpa using this
      have r2 : rd (d ++ [s1, s2]) (d.length + 2 - 1) = .ok s2 := by
        have := rd_append_right d [s1, s2] 1
        simpa using this
      rw [r1, bind_ok, r2, bind_ok]
      have inj : ∀ (x : List Byte) (a b : Byte), (d ++ [s1, s2] = x ++ [a, b]) ↔
          x = d ∧ s1 = a ∧ s2 = b := by
        intro x a b
        constructor
        · intro e
          have := List.append_inj' e rfl
          obtain ⟨h1, h2⟩ := this
          simp at h2
          exact ⟨h1.symm, h2.1, h2.2⟩
        · rintro ⟨rfl, rfl, rfl⟩; rfl
      simp only [Option.some.injEq, inj, show d.length + 2 - 2 = d.length by omega]
      split
      · rename_i h6
        refine ⟨1, [], rfl, ?_, ?_⟩
        · simp [h6]
        · simp [h6]
      split
      · rename_i h6 h9
        refine ⟨-6, [], rfl, ?_, ?_⟩
        · simp; intro ha hb; simp [ha, hb] at h9
        · simp; intro ha hb; exact h6 ⟨ha, hb⟩
      · rename_i h6 h9
        have h9' : s1 = 0x90 ∧ s2 = 0x00 := by
          constructor
          · apply Classical.byContradiction; intro h; exact h9 (.inl h)
          · apply Classical.byContradiction; intro h; exact h9 (.inr h)
        split
        · rename_i hc
          refine ⟨-7, [], rfl, ?_, ?_⟩
          · simp; intro _ _; exact hc
          · simp; intro ha hb; exact h6 ⟨ha, hb⟩
        · rename_i hc
          rw [slice_eq (by simp), bind_ok]
          refine ⟨0, d, by simp, ?_, ?_⟩
          · simp [h9']; omega
          · simp; intro ha hb; exact h6 ⟨ha, hb⟩

/-- **C69** (card type).  Connecting never reads outside what the service delivered.  It
reports a contactless card exactly when the ATR has the form readers make up for contactless
cards and the UID request is answered with a UID of at most ten bytes and 9000; a contact card
exactly when the ATR has another form or the request is refused with 6A81; otherwise it
fails. -/
theorem C69_type (s : Service) (r : Reader) :
    ∃ res r', connect s r = .ok (res, r') ∧
      (res = 2 ↔ s.connect = true ∧ ∃ atr uid, s.status = some atr ∧ ContactlessAtr atr ∧
        s.uid = some (uid ++ [0x90, 0x00]) ∧ uid.length ≤ 10) ∧
      (res = 1 ↔ s.connect = true ∧ ∃ atr, s.status = some atr ∧
        (ContactlessAtr atr → ∃ d, s.uid = some (d ++ [0x6A, 0x81]))) ∧
      (res = 2 ∨ res = 1 ∨ res < 0) := by
  rw [connect]
  cases hc : s.connect with
  | false => exact ⟨-1, r, by simp, by simp, by simp, by simp⟩
  | true =>
    cases hst : s.status with
    | none => exact ⟨-1, _, by simp; rfl, by simp, by simp, by simp⟩
    | some atr =>
      obtain ⟨b, e, hb⟩ := pcscContactless_spec atr
      simp only [not_true, if_false, e, bind_ok, Option.some.injEq, true_and]
      cases b with
      | false =>
        have hn : ¬ ContactlessAtr atr := fun h => by simpa using hb.2 h
        refine ⟨1, _, rfl, ?_, ?_, by simp⟩
        · simp only [show ((1 : Int) = 2) = False by simp, false_iff]
          rintro ⟨a, u, rfl, h, -⟩; exact hn h
        · simp only [true_iff]
          exact ⟨atr, rfl, fun h => absurd h hn⟩
      | true =>
        have hy := hb.1 rfl
        obtain ⟨u, uid, e2, h0, h1⟩ := getUid_spec s.uid 10
        simp only [if_true, e2, bind_ok]
        by_cases hneg : u < 0
        · rw [if_pos hneg]
          refine ⟨u, _, rfl, ?_, ?_, by omega⟩
          · constructor
            · intro h; omega
            · rintro ⟨a, w, rfl, -, hw, hl⟩
              have := h0.2 ⟨w, hw, hl⟩
              omega
          · constructor
            · intro h; omega
            · rintro ⟨a, rfl, h⟩
              have := h1.2 (h hy)
              omega
        · rw [if_neg hneg]
          by_cases hpos : u > 0
          · rw [if_pos hpos]
            obtain ⟨d, hd⟩ := h1.1 hpos
            refine ⟨1, _, rfl, ?_, ?_, by simp⟩
            · simp only [show ((1 : Int) = 2) = False by simp, false_iff]
              rintro ⟨a, w, rfl, -, hw, -⟩
              rw [hd] at hw
              simp only [Option.some.injEq] at hw
              have := (List.append_inj' hw rfl).2
              simp at this
            · simp only [true_iff]
              exact ⟨atr, rfl, fun _ => ⟨d, hd⟩⟩
          · rw [if_neg hpos]
            have hz : u = 0 := by omega
            obtain ⟨uid, ha, hl⟩ := h0.1 hz
            refine ⟨2, _, rfl, ?_, ?_, by simp⟩
            · simp only [true_iff]
              exact ⟨atr, uid, rfl, hy, ha, hl⟩
            · simp only [show ((2 : Int) = 1) = False by simp, false_iff]
              rintro ⟨a, rfl, h⟩
              obtain ⟨d, hd⟩ := h hy
              rw [ha] at hd
              simp only [Option.some.injEq] at hd
              have := (List.append_inj' hd rfl).2
              simp at this

/-- **C69** (ATR).  After a successful connection the ATR is available exactly for contact
cards, and is the one reported by the reader; after a successful disconnection there is
none. -/
theorem C69_atr (s : Service) (r r' : Reader) (res : Int) (h : connect s r = .ok (res, r')) :
    (res = 1 → ∃ atr, s.status = some atr ∧ (atr ≠ [] → getAtr r' = (0, atr))) ∧
    (res = 2 → (getAtr r').1 ≠ 0) ∧
    (getAtr (disconnect true r').2).1 ≠ 0 := by
  refine ⟨?_, ?_, by simp [disconnect, getAtr]⟩
  all_goals
    intro hr
    subst hr
    rw [connect] at h
    cases hc : s.connect with
    | false => simp [hc] at h
    | true =>
      cases hst : s.status with
      | none => simp [hc, hst] at h
      | some atr =>
        obtain ⟨b, e, hb⟩ := pcscContactless_spec atr
        obtain ⟨u, uid, e2, -⟩ := getUid_spec s.uid 10
        simp only [hc, hst, not_true, if_false, e, bind_ok, e2] at h
        cases b with
        | false =>
          simp [CardType.val] at h
          try (subst h; exact ⟨atr, rfl, fun hne => by simp [getAtr, hne]⟩)
        | true =>
          simp only [if_true] at h
          split at h
          · simp only [Except.ok.injEq, Prod.mk.injEq] at h; omega
          split at h
          · simp [CardType.val] at h
            try (subst h; exact ⟨atr, rfl, fun hne => by simp [getAtr, hne]⟩)
          · simp [CardType.val] at h
            try (subst h; simp [getAtr]; split <;> simp)

/-- **C69 fails** after a failed connection: the type of the previous card is kept although
the ATR is replaced, so the artificial ATR of a contactless card is delivered as if it were
that of a contact card. -/
theorem C69_stale_type : ∃ (s1 s2 : Service) (r1 r2 : Reader) (atr : List Byte),
    connect s1 ⟨[], .unknown⟩ = .ok (1, r1) ∧ connect s2 r1 = .ok (-6, r2) ∧
    ContactlessAtr atr ∧ s2.status = some atr ∧ getAtr r2 = (0, atr) :=
  ⟨⟨true, some [0x3B, 0x00], [], none, true⟩,
   ⟨true, some [0x3B, 0x80, 0x80, 0x01, 0x01], [], some [0x69, 0x00], true⟩,
   ⟨[0x3B, 0x00], .contact⟩, ⟨[0x3B, 0x80, 0x80, 0x01, 0x01], .contact⟩,
   [0x3B, 0x80, 0x80, 0x01, 0x01], by decide, by decide,
   ⟨0x80, [], 0x01, rfl, by decide, rfl⟩, rfl, by decide⟩

example : connect ⟨true, some [0x3B, 0x81, 0x80, 0x01, 0x55, 0xD5], [], some [4, 5, 6, 7, 0x90, 0],
    true⟩ ⟨[], .unknown⟩ = .ok (2, ⟨[0x3B, 0x81, 0x80, 0x01, 0x55, 0xD5], .contactless⟩) := by
  decide
example : ContactlessAtr [0x3B, 0x81, 0x80, 0x01, 0x55, 0xD5] :=
  ⟨0x81, [0x55], 0xD5, rfl, by decide, rfl⟩

end Verif.Pcsc
