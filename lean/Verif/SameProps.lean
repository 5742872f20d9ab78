import Verif.SameLemmas
import Verif.ViewerWindowProps
import Verif.PrintProps

/-!
# Descriptions do not depend on what was in memory (C142)

The arrays that the code declares without a value (`loc` and the fields `loc…` of `Env`) and the
output of `emv_tlv_get_info` have any contents before; two runs of the same code with the same tables
and data, but other such contents, are compared.  `Tables env env'` says that the tables are the same.
-/

set_option autoImplicit false

namespace Verif.Same
open Verif Ber BerSpec TlvInfo Print PrintSpec ViewerSpec Viewer Formats

/-- **C142.**  The result, name, format and text of a description do not depend on what the output and
the local arrays held before: a description that is defined (C84) is the same with others. -/
theorem C142_description (env env' : Env) (he : Sane env) (he' : Sane env') (ht : Tables env env')
    (tag : Nat) (v str str' : List Byte) (hl : str.length = str'.length) (h3 : 3 ≤ str.length)
    (code : Int) (info : Info) (out : List Byte) (h : getInfo env tag v str = .ok (code, info, out)) :
    ∃ out' text rest rest', getInfo env' tag v str' = .ok (code, info, out') ∧
      (0 ∉ text) ∧ out = text ++ 0 :: rest ∧ out' = text ++ 0 :: rest' := by
  obtain ⟨o', e', hs, z, z'⟩ := info_le env env' he he' ht tag v str str' hl h3 h
  obtain ⟨-, X, hX⟩ := cstr_takeWhile out z
  obtain ⟨-, X', hX'⟩ := cstr_takeWhile o' z'
  refine ⟨o', out.takeWhile (· ≠ 0), X, X', e', ?_, hX, by rw [hs]; exact hX'⟩
  intro h
  have : ∀ l : List Byte, 0 ∉ l.takeWhile (· ≠ 0) := by
    intro l
    induction l with
    | nil => simp
    | cons a l ih =>
      rw [List.takeWhile_cons]
      split
      · rename_i h; simp at h ih ⊢; exact ⟨fun e => h e.symm, ih⟩
      · simp
  exact this _ h

/-- **C142.**  A listing of EMV data that is defined is the same whatever the arrays held before. -/
theorem C142_listing (env env' : Env) (he : Sane env) (he' : Sane env') (ht : Tables env env')
    (loc loc' : Nat → List Byte → List Byte) (hl : ∀ t v, (loc t v).length = 2048)
    (hl' : ∀ t v, (loc' t v).length = 2048) (pfx : List Byte) (pad : Bool) (depth : Nat) (data text : List Byte)
    (h : emvBuf env loc pfx pad depth data = .ok text) : emvBuf env' loc' pfx pad depth data = .ok text :=
  (listing_le (fun d t => emvItem_le env env' he he' ht loc loc' hl hl' pfx d t) pfx pad depth data).imp text h

/-- **C142.**  So is the listing of a list of fields. -/
theorem C142_fields (env env' : Env) (he : Sane env) (he' : Sane env') (ht : Tables env env')
    (loc loc' : Nat → List Byte → List Byte) (hl : ∀ t v, (loc t v).length = 2048)
    (hl' : ∀ t v, (loc' t v).length = 2048) (fields : List Tlv) (text : List Byte)
    (h : emvTlvList env loc fields = .ok text) : emvTlvList env' loc' fields = .ok text :=
  (emvTlvList_le env env' he he' ht loc loc' hl hl' fields).imp text h

/-- **C142.**  The listing of BER data is the same whatever the array for strings held before. -/
theorem C142_ber (loc loc' : List Byte) (hl : loc.length = loc'.length) (pfx : List Byte) (pad : Bool) (depth : Nat)
    (data : List Byte) : berBuf loc pfx pad depth data = berBuf loc' pfx pad depth data := by
  rw [berBuf, berBuf, berItem_two loc loc' hl]

/-- **C142.**  What a window of the viewer shows after any events is the same whatever the local arrays
held before. -/
theorem C142_viewer (env env' : Env) (he : Sane env) (he' : Sane env') (ht : Tables env env') (r : Int)
    (s : Settings) (ber tlv : List Nat) (events : List Event) (w w' : Window)
    (h : startViewer env r s ber tlv = .ok (some w)) (h' : steps env events w = .ok w') :
    startViewer env' r s ber tlv = .ok (some w) ∧ steps env' events w = .ok w' :=
  ⟨(start_le env env' he he' ht r s ber tlv).imp _ h, (steps_le env env' he he' ht events w).imp _ h'⟩

/-- **C142.**  The viewer and the listing know the same of a field: its name, its format and the text of
its description. -/
theorem C142_agree (env env' : Env) (he : Sane env) (he' : Sane env') (ht : Tables env env')
    (loc : Nat → List Byte → List Byte) (hl : ∀ t v, (loc t v).length = 2048) (tag v : List Byte)
    (h : ¬ Undefined (beNat tag) v (blank (beNat tag) v)) : known env' loc tag v = known env blank tag v := by
  have hb : (blank (beNat tag) v).length = 2048 := List.length_replicate
  obtain ⟨c, i, o, o', e, e', hs, -⟩ := info_two env env' he he' ht (beNat tag) v (blank (beNat tag) v)
    (loc (beNat tag) v) (by rw [hb, hl]) (by rw [hb]; omega) h
  unfold known
  rw [e, e']
  simp only [hs]

/-! ## Cases -/

/-- Other contents of the local arrays. -/
def otherArrays : Env :=
  { noTables with
    locCvm := fun i => List.replicate 128 (UInt8.ofNat i), locRes := List.replicate 128 0x41
    locCur := fun _ => List.replicate 128 0x42, locLang := fun _ => List.replicate 128 0, locArc := [1, 2, 3] }

theorem sane_noTables : Sane noTables :=
  ⟨fun _ _ (h : none = some _) => (nomatch h), fun _ _ (h : none = some _) => (nomatch h),
    fun _ => rfl, rfl, fun _ => rfl, fun _ => rfl, rfl⟩

theorem sane_other : Sane otherArrays :=
  ⟨fun _ _ (h : none = some _) => (nomatch h), fun _ _ (h : none = some _) => (nomatch h),
    fun _ => List.length_replicate, rfl, fun _ => rfl, fun _ => rfl, rfl⟩

example : Tables noTables otherArrays := ⟨rfl, rfl, rfl, rfl, rfl, rfl⟩

/-- CVM Results: the condition is written into a local array. -/
example : (shownBy (getInfo noTables 0x9F34 [0x1E, 0x03, 0x00] (List.replicate 100 7))).map (fun x => x.2.take 60) =
    some (txt!"CVM Performed: Signature (paper)" ++ [0x0A] ++ txt!"CVM Condition: If terminal ") := by decide +kernel
example : (shownBy (getInfo otherArrays 0x9F34 [0x1E, 0x03, 0x00] (List.replicate 100 0x58))).map (fun x => x.2.take 60) =
    some (txt!"CVM Performed: Signature (paper)" ++ [0x0A] ++ txt!"CVM Condition: If terminal ") := by decide +kernel

example : emvBuf otherArrays (fun t _ => List.replicate 2048 (UInt8.ofNat t)) txt!"  " false 0
      [0x9F, 0x42, 0x02, 0x09, 0x78, 0x8A, 0x02, 0x30, 0x30] =
    emvBuf noTables (fun _ _ => List.replicate 2048 0) txt!"  " false 0
      [0x9F, 0x42, 0x02, 0x09, 0x78, 0x8A, 0x02, 0x30, 0x30] := by decide +kernel

end Verif.Same
