import Verif.TlvInfoSame
import Verif.PrintEmvLemmas
import Verif.ViewerWindow

/-!
# Lemmas: listings and windows do not depend on what was in memory
-/

set_option autoImplicit false

namespace Verif.Same
open Verif Ber BerSpec TlvInfo Print PrintSpec Viewer Formats

/-- If the first run ends, the second ends alike. -/
structure Le {α : Type} (r r' : C α) : Prop where
  imp : ∀ x, r = .ok x → r' = .ok x

theorem le_refl {α : Type} (r : C α) : Le r r := ⟨fun _ h => h⟩

theorem le_bind {α β : Type} {r r' : C α} {f f' : α → C β} (h : Le r r') (hf : ∀ a, Le (f a) (f' a)) :
    Le (r >>= f) (r' >>= f') := by
  constructor
  intro x hx
  obtain ⟨a, ha, hx⟩ := okBind hx
  rw [h.imp a ha, bind_ok]
  exact (hf a).imp x hx

/-- The lookup tables are the same; the local arrays may differ. -/
def Tables (env env' : Env) : Prop :=
  env.mcc = env'.mcc ∧ env.country2 = env'.country2 ∧ env.country3 = env'.country3 ∧
  env.countryNum = env'.countryNum ∧ env.currency = env'.currency ∧ env.language = env'.language

theorem undefined_len {tag : Nat} {v s s' : List Byte} (h : s.length = s'.length) (hu : Undefined tag v s) :
    Undefined tag v s' := by
  have hn : s ≠ [] ↔ s' ≠ [] := by rw [← List.length_pos_iff, ← List.length_pos_iff, h]
  unfold Undefined at *
  rw [h, hn] at hu
  exact hu

theorem info_two (env env' : Env) (he : Sane env) (he' : Sane env') (ht : Tables env env') (tag : Nat)
    (v s s' : List Byte) (hl : s.length = s'.length) (h3 : 3 ≤ s.length) (hu : ¬ Undefined tag v s) :
    ∃ c i o o', getInfo env tag v s = .ok (c, i, o) ∧ getInfo env' tag v s' = .ok (c, i, o') ∧
      o.takeWhile (· ≠ 0) = o'.takeWhile (· ≠ 0) ∧ 0 ∈ o ∧ 0 ∈ o' := by
  obtain ⟨c, i, o, e, -, z⟩ := C84_safe_partial env he tag v s hu
  obtain ⟨c', i', o', e', -, z'⟩ := C84_safe_partial env' he' tag v s' (fun h => hu (undefined_len hl.symm h))
  have two : Two (s.set 0 0) (s'.set 0 0) := by
    refine ⟨by simpa using hl, ?_, ?_, by simpa using h3⟩
    · match s, h3 with
      | _ :: _, _ => rfl
    · match s', (hl ▸ h3 : 3 ≤ s'.length) with
      | _ :: _, _ => rfl
  have q := e
  have q' := e'
  rw [getInfo_eq] at q q'
  obtain ⟨rfl, rfl, hs⟩ := same_tag env env' he he' ht tag v two q q'
  exact ⟨c, i, o, o', e, e', hs, z h3, z' (by omega)⟩

theorem info_le (env env' : Env) (he : Sane env) (he' : Sane env') (ht : Tables env env') (tag : Nat)
    (v s s' : List Byte) (hl : s.length = s'.length) (h3 : 3 ≤ s.length) {c : Int} {i : Info} {o : List Byte}
    (h : getInfo env tag v s = .ok (c, i, o)) :
    ∃ o', getInfo env' tag v s' = .ok (c, i, o') ∧ o.takeWhile (· ≠ 0) = o'.takeWhile (· ≠ 0) ∧ 0 ∈ o ∧ 0 ∈ o' := by
  have hu : ¬ Undefined tag v s := by
    intro hu
    rcases C84_undefined env tag v s hu with e | e <;> rw [h] at e <;> cases e
  obtain ⟨c', i', o1, o2, e1, e2, r⟩ := info_two env env' he he' ht tag v s s' hl h3 hu
  rw [h] at e1; cases e1
  exact ⟨o2, e2, r⟩

/-! ## Listings -/

theorem cstr_two {o o' : List Byte} (h : o.takeWhile (· ≠ 0) = o'.takeWhile (· ≠ 0)) (h0 : 0 ∈ o) (h0' : 0 ∈ o') :
    Capdu.cstr o = Capdu.cstr o' ∧ rd o 0 = rd o' 0 := by
  obtain ⟨e, X, hX⟩ := cstr_takeWhile o h0
  obtain ⟨e', X', hX'⟩ := cstr_takeWhile o' h0'
  refine ⟨by rw [e, e', h], ?_⟩
  rw [hX, hX', ← h]
  cases o.takeWhile (· ≠ 0) <;> rfl

theorem emvNote_two {o o' : List Byte} (h : o.takeWhile (· ≠ 0) = o'.takeWhile (· ≠ 0)) (h0 : 0 ∈ o) (h0' : 0 ∈ o')
    (pfx : List Byte) (depth : Nat) (f : Fmt) (v : List Byte) :
    emvNote pfx depth f v o = emvNote pfx depth f v o' := by
  obtain ⟨e, r⟩ := cstr_two h h0 h0'
  simp only [emvNote, items, strIsList, strList, e, r]

theorem emvItem_le (env env' : Env) (he : Sane env) (he' : Sane env') (ht : Tables env env')
    (loc loc' : Nat → List Byte → List Byte) (hl : ∀ t v, (loc t v).length = 2048)
    (hl' : ∀ t v, (loc' t v).length = 2048) (pfx : List Byte) (depth : Nat) (t : Tlv) :
    Le (emvItem env loc pfx depth t) (emvItem env' loc' pfx depth t) := by
  constructor
  intro x hx
  rw [emvItem] at hx ⊢
  obtain ⟨⟨c, i, o⟩, hg, hx⟩ := okBind hx
  obtain ⟨o', hg', hs, z, z'⟩ := info_le env env' he he' ht _ _ _ (loc' t.tag t.value) (by rw [hl, hl']) (by rw [hl]; omega) hg
  rw [hg', bind_ok]
  simp only at hx ⊢
  rw [← emvNote_two hs z z']
  exact hx

theorem walk_le {item item' : Nat → Tlv → C (List Byte × Option Int)} (h : ∀ d t, Le (item d t) (item' d t))
    (pfx : List Byte) (pad : Bool) : ∀ (fuel depth : Nat) (whole itr : List Byte) (valid : Nat),
    Le (walk item pfx pad fuel depth whole itr valid) (walk item' pfx pad fuel depth whole itr valid) := by
  intro fuel
  induction fuel with
  | zero => intro _ _ _ _; exact le_refl _
  | succ fuel ih =>
    intro depth whole itr valid
    rw [walk, walk]
    refine le_bind (le_refl _) fun ⟨itr', d⟩ => ?_
    match d with
    | .eod => exact le_refl _
    | .err c => exact le_refl _
    | .ok r t =>
      refine le_bind (h depth t) fun ⟨line, stop⟩ => ?_
      simp only
      split
      · refine le_bind (ih ..) fun ⟨inner, n⟩ => ?_
        simp only
        split
        · exact le_refl _
        · exact le_bind (ih ..) fun _ => le_refl _
      · match stop with
        | some c => exact le_refl _
        | none => exact le_bind (ih ..) fun _ => le_refl _

theorem listing_le {item item' : Nat → Tlv → C (List Byte × Option Int)} (h : ∀ d t, Le (item d t) (item' d t))
    (pfx : List Byte) (pad : Bool) (depth : Nat) (v : List Byte) :
    Le (listing item pfx pad depth v) (listing item' pfx pad depth v) :=
  le_bind (walk_le h pfx pad ..) fun _ => le_refl _

theorem emvTlv_le (env env' : Env) (he : Sane env) (he' : Sane env') (ht : Tables env env')
    (loc loc' : Nat → List Byte → List Byte) (hl : ∀ t v, (loc t v).length = 2048)
    (hl' : ∀ t v, (loc' t v).length = 2048) (pfx : List Byte) (pad : Bool) (depth : Nat) (t : Tlv) :
    Le (emvTlv env loc pfx pad depth t) (emvTlv env' loc' pfx pad depth t) := by
  rw [emvTlv, emvTlv]
  refine le_bind (emvItem_le env env' he he' ht loc loc' hl hl' ..) fun _ => ?_
  simp only
  split
  · exact le_bind (listing_le (fun d t => emvItem_le env env' he he' ht loc loc' hl hl' pfx d t) ..) fun _ => le_refl _
  · exact le_refl _

theorem emvTlvList_le (env env' : Env) (he : Sane env) (he' : Sane env') (ht : Tables env env')
    (loc loc' : Nat → List Byte → List Byte) (hl : ∀ t v, (loc t v).length = 2048)
    (hl' : ∀ t v, (loc' t v).length = 2048) (ts : List Tlv) :
    Le (emvTlvList env loc ts) (emvTlvList env' loc' ts) := by
  induction ts with
  | nil => exact le_refl _
  | cons t ts ih =>
    exact le_bind (emvTlv_le env env' he he' ht loc loc' hl hl' ..) fun _ => le_bind ih fun _ => le_refl _

theorem stringNote_two (loc loc' v : List Byte) (hl : loc.length = loc'.length) :
    stringNote loc v = stringNote loc' v := by
  rw [stringNote, stringNote, hl]
  split
  · rename_i h
    rw [wrs_eq (by omega), wrs_eq (by omega), bind_ok, bind_ok, wr_eq (by simp; omega), wr_eq (by simp; omega),
      bind_ok, bind_ok]
    have key : ∀ l : List Byte, v.length < l.length → ∃ X,
        (l.take 0 ++ v ++ l.drop (0 + v.length)).set v.length 0 = v ++ 0 :: X := by
      intro l h
      refine ⟨(l.drop (v.length + 1)), ?_⟩
      rw [List.take_zero, List.nil_append, Nat.zero_add, List.set_append_right _ _ (by omega), Nat.sub_self]
      have : l.drop v.length = l[v.length] :: l.drop (v.length + 1) := List.drop_eq_getElem_cons h
      rw [this]; rfl
    obtain ⟨X, hX⟩ := key loc (by omega)
    obtain ⟨X', hX'⟩ := key loc' h
    rw [hX, hX', (cstr_two (o := v ++ 0 :: X) (o' := v ++ 0 :: X') ?_ (by simp) (by simp)).1]
    have : ∀ r : List Byte, List.takeWhile (· ≠ 0) (v ++ 0 :: r) = List.takeWhile (· ≠ 0) v := by
      intro r
      clear hX hX' h key
      induction v with
      | nil => simp
      | cons b t ih => simp only [List.cons_append, List.takeWhile_cons, ih]
    rw [this, this]
  · rfl

theorem berItem_two (loc loc' : List Byte) (hl : loc.length = loc'.length) : berItem loc = berItem loc' := by
  funext pfx depth t
  simp only [berItem, berNote, stringNote_two loc loc' _ hl]

/-! ## Windows -/

theorem valueStr_two {o o' : List Byte} (h : o.takeWhile (· ≠ 0) = o'.takeWhile (· ≠ 0)) (h0 : 0 ∈ o) (h0' : 0 ∈ o') :
    valueStrIsList o = valueStrIsList o' := by
  obtain ⟨-, r⟩ := cstr_two h h0 h0'
  rw [valueStrIsList, valueStrIsList, r, ← h]
  obtain ⟨-, X, hX⟩ := cstr_takeWhile o h0
  obtain ⟨-, X', hX'⟩ := cstr_takeWhile o' h0'
  rw [← h] at hX'
  have : rd o ((o.takeWhile (· ≠ 0)).length - 1) = rd o' ((o.takeWhile (· ≠ 0)).length - 1) := by
    generalize o.takeWhile (· ≠ 0) = w at *
    rw [hX, hX']
    cases w with
    | nil => rfl
    | cons a w =>
      have key : ∀ X : List Byte, (a :: w ++ 0 :: X)[w.length]? = (a :: w)[w.length]? := fun X =>
        List.getElem?_append_left (by simp)
      simp only [rd, List.length_cons, Nat.add_sub_cancel, key]
  rw [this]

theorem stringList_two {o o' : List Byte} (h : o.takeWhile (· ≠ 0) = o'.takeWhile (· ≠ 0)) (h0 : 0 ∈ o) (h0' : 0 ∈ o') :
    stringList o = stringList o' := by
  have key : ∀ o : List Byte, 0 ∈ o → (o.take (o.length - 1)).takeWhile (· ≠ 0) = o.takeWhile (· ≠ 0) := by
    intro o
    induction o with
    | nil => simp
    | cons a o ih =>
      intro h
      cases o with
      | nil => simp at h; subst h; rfl
      | cons b o =>
        by_cases ha : a = 0
        · subst ha; simp
        · have := ih (by simpa [Ne.symm ha] using h)
          simp only [List.length_cons, Nat.add_sub_cancel, List.take_succ_cons, List.takeWhile_cons] at this ⊢
          rw [this]
  rw [stringList, stringList, key o h0, key o' h0', h]

theorem more_two {o o' : List Byte} (h : o.takeWhile (· ≠ 0) = o'.takeWhile (· ≠ 0)) (h0 : 0 ∈ o) (h0' : 0 ∈ o')
    (f : Fmt) (v : List Byte) : moreDetails f v o = moreDetails f v o' := by
  simp only [moreDetails, valueStr_two h h0 h0', stringList_two h h0 h0']

theorem decoded_two {o o' : List Byte} (h : o.takeWhile (· ≠ 0) = o'.takeWhile (· ≠ 0)) (h0 : 0 ∈ o) (h0' : 0 ∈ o')
    (tag : Nat) (i : Info) : decodedText tag i o = decodedText tag i o' := by
  simp only [decodedText, valueStr_two h h0 h0', (cstr_two h h0 h0').2, cText, h]

theorem fieldItem_le (env env' : Env) (he : Sane env) (he' : Sane env') (ht : Tables env env') (decode : Bool)
    (depth offset length : Nat) (t : Tlv) :
    Le (fieldItem env decode depth offset length t) (fieldItem env' decode depth offset length t) := by
  constructor
  intro x hx
  rw [fieldItem] at hx ⊢
  obtain ⟨⟨c, i, o⟩, hg, hx⟩ := okBind hx
  obtain ⟨o', hg', hs, z, z'⟩ := info_le env env' he he' ht _ _ _ (List.replicate 2048 0) rfl
    (by rw [List.length_replicate]; omega) hg
  rw [hg', bind_ok]
  simp only at hx ⊢
  rw [← decoded_two hs z z', ← more_two hs z z']
  exact hx

theorem parse_le {ι : Type} {field field' : Nat → Nat → Nat → Tlv → C ι}
    (h : ∀ a b c t, Le (field a b c t) (field' a b c t)) (padding : Nat → Nat → List Byte → ι) (pad : Bool) :
    ∀ (fuel depth : Nat) (whole itr : List Byte) (valid total : Nat),
      Le (parseData field padding pad fuel depth whole itr valid total)
        (parseData field' padding pad fuel depth whole itr valid total) := by
  intro fuel
  induction fuel with
  | zero => intro _ _ _ _ _; exact le_refl _
  | succ fuel ih =>
    intro depth whole itr valid total
    rw [parseData, parseData]
    refine le_bind (le_refl _) fun ⟨itr', d⟩ => ?_
    match d with
    | .eod => exact le_refl _
    | .err c => exact le_refl _
    | .ok r t =>
      refine le_bind (h ..) fun item => ?_
      split
      · refine le_bind (ih ..) fun ⟨inner, n, ok⟩ => ?_
        simp only
        split
        · exact le_bind (ih ..) fun _ => le_refl _
        · exact le_refl _
      · exact le_bind (ih ..) fun _ => le_refl _

section
variable (env env' : Env) (he : Sane env) (he' : Sane env') (ht : Tables env env')
include he he' ht

theorem populate_le (data : List Byte) (t : Tree) : Le (populateItems env data t) (populateItems env' data t) :=
  le_bind (parse_le (fun a b c x => fieldItem_le env env' he he' ht _ a b c x) ..) fun _ => le_refl _

theorem showText_le (blocks : List (List Nat)) (t : Tree) : Le (showText env blocks t) (showText env' blocks t) := by
  rw [showText, showText]
  simp only
  split
  · exact le_refl _
  · exact le_bind (le_refl _) fun _ => le_bind (populate_le env env' he he' ht ..) fun _ => le_refl _

theorem refresh_le (w : Window) : Le (refreshTree env w) (refreshTree env' w) :=
  le_bind (showText_le env env' he he' ht ..) fun _ => le_refl _

theorem padding_le (on : Bool) (w : Window) : Le (setPadding env on w) (setPadding env' on w) := by
  rw [setPadding, setPadding]
  split
  · exact le_refl _
  · exact le_bind (le_refl _) fun _ => refresh_le env env' he he' ht _

theorem step_le (w : Window) (e : Event) : Le (step env w e) (step env' w e) := by
  cases e with
  | timeout =>
    rw [step, step]
    split
    · exact refresh_le env env' he he' ht _
    · exact le_refl _
  | padding on => exact padding_le env env' he he' ht on w
  | _ => exact le_refl _

theorem steps_le (es : List Event) : ∀ w, Le (steps env es w) (steps env' es w) := by
  induction es with
  | nil => intro w; exact le_refl _
  | cons e es ih => intro w; exact le_bind (step_le env env' he he' ht w e) fun w => ih w

theorem start_le (r : Int) (s : Settings) (ber tlv : List Nat) :
    Le (startViewer env r s ber tlv) (startViewer env' r s ber tlv) := by
  rw [startViewer, startViewer]
  split
  · exact le_refl _
  · refine le_bind ?_ fun _ => le_refl _
    rw [startWindow, startWindow]
    refine le_bind ?_ fun w => le_bind ?_ fun _ => le_refl _
    · unfold loadSettings
      refine le_bind (le_refl _) fun w => le_bind ?_ fun _ => le_refl _
      cases s.padding with
      | none => exact le_refl (.ok w)
      | some b => exact padding_le env env' he he' ht b w
    · rw [loadText, loadText]
      split
      · exact le_refl _
      · exact step_le env env' he he' ht w _

end

end Verif.Same
