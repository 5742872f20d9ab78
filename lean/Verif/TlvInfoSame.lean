import Verif.TlvInfoSafe

/-!
# Lemmas: descriptions do not depend on what was in memory

Two runs of `emv_tlv_get_info` (src/emv_strings.c:90-1249) with outputs of the same size and other previous
contents, of these and of the local arrays.
-/

set_option autoImplicit false

namespace Verif.TlvInfo
open Verif Formats StrList Lists BerSpec

/-- The C string in an array. -/
def shown (s : List Byte) : List Byte := s.takeWhile (· ≠ 0)

/-- Two outputs that are empty strings. -/
structure Two (s s' : List Byte) : Prop where
  len : s.length = s'.length
  fst : s.head? = some 0
  snd : s'.head? = some 0
  three : 3 ≤ s.length

/-- Two runs that end give the same code and text. -/
def Same (r r' : C (Int × List Byte)) : Prop :=
  ∀ c o c' o', r = .ok (c, o) → r' = .ok (c', o') → c = c' ∧ shown o = shown o'

theorem shown_head {s : List Byte} (h : s.head? = some 0) : shown s = [] := by
  match s, h with
  | a :: l, h => simp at h; simp [shown, h]

theorem shown_over (t s : List Byte) : shown (strOver t s) = shown t := by
  induction t with
  | nil => simp [shown, strOver]
  | cons a t ih =>
    simp only [shown, strOver, List.cons_append, List.takeWhile_cons, List.length_cons] at ih ⊢
    split
    · congr 1
      have : ∀ r : List Byte, List.takeWhile (· ≠ 0) (t ++ 0 :: r) = List.takeWhile (· ≠ 0) t := by
        intro r
        clear ih
        induction t with
        | nil => simp
        | cons b t ih => simp only [List.cons_append, List.takeWhile_cons, ih]
      exact this _
    · rfl

theorem same_of {c : Int} {o o' : List Byte} (h : shown o = shown o') : Same (.ok (c, o)) (.ok (c, o')) := by
  intro c1 o1 c2 o2 h1 h2
  cases h1; cases h2; exact ⟨rfl, h⟩

theorem same_same {s s' : List Byte} (h : Two s s') (c : Int) : Same (.ok (c, s)) (.ok (c, s')) :=
  same_of (by rw [shown_head h.fst, shown_head h.snd])

theorem same_over (c : Int) (t s s' : List Byte) : Same (.ok (c, strOver t s)) (.ok (c, strOver t s')) :=
  same_of (by rw [shown_over, shown_over])

theorem same_set {s s' : List Byte} (h : s ≠ []) (h' : s' ≠ []) (c : Int) :
    Same (.ok (c, s.set 0 0)) (.ok (c, s'.set 0 0)) := by
  apply same_of
  match s, s', h, h' with
  | _ :: _, _ :: _, _, _ => simp [shown]

theorem same_held {s s' : List Byte} (h : s.length = s'.length) (c : Int) (t : List Byte) :
    Same (.ok (c, Names.held s.length t)) (.ok (c, Names.held s'.length t)) := by
  rw [h]; exact same_of rfl

theorem same_error_left (u : UB) (r : C (Int × List Byte)) : Same (.error u) r := by
  intro _ _ _ _ h; cases h

theorem same_error_right (u : UB) (r : C (Int × List Byte)) : Same r (.error u) := by
  intro _ _ _ _ _ h; cases h

namespace Two

variable {s s' : List Byte} (h : Two s s')
include h

theorem ne : s ≠ [] := by intro e; have := h.three; rw [e] at this; simp at this

theorem ne' : s' ≠ [] := by
  intro e; have h3 := h.three; have := h.len; rw [this, e] at h3; simp at h3

theorem three' : 3 ≤ s'.length := by have := h.three; have := h.len; omega

theorem pos : ¬ s.length = 0 := by have := h.three; omega

theorem pos' : ¬ s'.length = 0 := by have := h.three'; omega

theorem set : Two (s.set 0 0) (s'.set 0 0) := by
  refine ⟨by simpa using h.len, ?_, ?_, by simpa using h.three⟩
  · have := h.ne
    match s, this with
    | _ :: _, _ => rfl
  · have := h.ne'
    match s', this with
    | _ :: _, _ => rfl

end Two

theorem same_shows {s s' : List Byte} (h : Two s s') (c : Int) {ls : List (List Byte)} {o o' : List Byte}
    (h1 : Shows s ls o) (h2 : Shows s' ls o') : Same (.ok (c, o)) (.ok (c, o')) := by
  by_cases hl : ls = []
  · rw [h1.2.1 (.inl hl), h2.2.1 (.inl hl)]; exact same_same h c
  · obtain ⟨t, ⟨e, -⟩, e'⟩ := h1.2.2.1 hl h.three
    obtain ⟨u, ⟨f, -⟩, f'⟩ := h2.2.2.1 hl h.three'
    rw [e', f', e, f, h.len]
    exact same_over _ _ _ _

theorem same_build {s s' : List Byte} (h : Two s s') (ls : List (List Byte)) {o o' : List Byte}
    (h1 : Bits.build ls s = .ok o) (h2 : Bits.build ls s' = .ok o') : shown o = shown o' := by
  obtain ⟨a, e, e1, e2⟩ := Bits.build_spec ls s
  obtain ⟨b, f, f1, f2⟩ := Bits.build_spec ls s'
  rw [h1] at e; cases e
  rw [h2] at f; cases f
  by_cases hl : ls = []
  · rw [e2 (.inr hl), f2 (.inr hl), shown_head h.fst, shown_head h.snd]
  · rw [(e1 h.three hl).1, (f1 h.three' hl).1, h.len, shown_over, shown_over]

/-- A function that builds lines which do not depend on the output. -/
theorem same_builds {s s' : List Byte} (h : Two s s') (ls : C (Int × List (List Byte))) :
    Same (ls >>= fun q => Bits.build q.2 s >>= fun o => .ok (q.1, o))
      (ls >>= fun q => Bits.build q.2 s' >>= fun o => .ok (q.1, o)) := by
  cases ls with
  | error u => exact same_error_left _ _
  | ok q =>
    rw [bind_ok, bind_ok]
    cases h1 : Bits.build q.2 s with
    | error u => exact same_error_left _ _
    | ok o =>
      cases h2 : Bits.build q.2 s' with
      | error u => exact same_error_right _ _
      | ok o' => exact same_of (same_build h _ h1 h2)

theorem same_builds' {s s' : List Byte} (h : Two s s') (ls : C (List (List Byte))) (c : Int) :
    Same (ls >>= fun l => Bits.build l s >>= fun o => .ok (c, o))
      (ls >>= fun l => Bits.build l s' >>= fun o => .ok (c, o)) := by
  cases ls with
  | error u => exact same_error_left _ _
  | ok l => exact same_builds h (.ok (c, l))

theorem same_describe (strict : Bool) (n : Nat) (items : List Bits.Item) (f : List Byte) {s s' : List Byte}
    (h : Two s s') : Same (Bits.describe strict n items f s) (Bits.describe strict n items f s') := by
  rw [Bits.describe, Bits.describe]
  split
  · exact same_same h _
  rw [if_neg h.pos, if_neg h.pos']
  split
  · exact same_same h _
  · exact same_builds' h _ 0

theorem same_ffi (f : List Byte) {s s' : List Byte} (h : Two s s') :
    Same (Bits.ffiList f s) (Bits.ffiList f s') := by
  rw [Bits.ffiList, Bits.ffiList]
  split
  · exact same_same h _
  rw [if_neg h.pos, if_neg h.pos']
  split
  · exact same_same h _
  · exact same_builds' h _ 0

theorem same_termType (b : Byte) {s s' : List Byte} (h : Two s s') :
    Same (Bits.termTypeList b s) (Bits.termTypeList b s') := by
  rw [Bits.termTypeList, Bits.termTypeList]
  split
  · exact same_same h _
  · exact same_describe _ _ _ _ h

theorem same_aid (a : List Byte) {s s' : List Byte} (h : Two s s') :
    Same (Names.aidString a s) (Names.aidString a s') := by
  rw [Names.aidString, Names.aidString]
  split
  · exact same_same h _
  rw [if_neg h.pos, if_neg h.pos']
  split
  · exact same_same h _
  cases Aid.aidInfo a with
  | error u => exact same_error_left _ _
  | ok q =>
    rw [bind_ok, bind_ok]
    obtain ⟨r, x, p⟩ := q
    simp only
    split
    · exact same_same h _
    · cases Names.aidText x p with
      | none => exact same_same h _
      | some t =>
        simp only [Names.strncpyTerm1_held s t h.ne, Names.strncpyTerm1_held s' t h.ne', bind_ok]
        exact same_held h.len _ _

theorem same_codes {g : Byte → List Byte → C (Int × List Byte)} {t : Names.Table} (hg : Names.NamesCodes g t)
    (b : Byte) {s s' : List Byte} (h : Two s s') : Same (g b s) (g b s') := by
  obtain ⟨-, h2, h3⟩ := hg b s
  obtain ⟨-, h2', h3'⟩ := hg b s'
  cases hn : t.name b.toNat with
  | none => rw [h2 h.ne hn, h2' h.ne' hn]; exact same_same h _
  | some n => rw [h3 n h.ne hn, h3' n h.ne' hn]; exact same_held h.len _ _

theorem same_readerCaps (b : Byte) {s s' : List Byte} (h : Two s s') :
    Same (Names.readerCaps b s) (Names.readerCaps b s') := by
  rw [(Names.C80_reader_caps b s).2 h.ne, (Names.C80_reader_caps b s').2 h.ne']
  exact same_held h.len _ _

theorem same_lookedUp (c : Int) (o : Option (List Byte)) {s s' : List Byte} (h : Two s s') :
    Same (.ok (c, Names.lookedUp s o)) (.ok (c, Names.lookedUp s' o)) := by
  cases o with
  | none => exact same_set h.ne h.ne' _
  | some t => exact same_held h.len _ _

theorem same_number (lookup : Nat → Option (List Byte)) (v : List Byte) {s s' : List Byte} (h : Two s s') :
    Same (Names.byNumber lookup v s) (Names.byNumber lookup v s') := by
  obtain ⟨h1, -⟩ := Names.C81_number lookup v s h.ne
  obtain ⟨h1', -⟩ := Names.C81_number lookup v s' h.ne'
  by_cases hl : v.length = 2 ∧ IsFormatN v
  · rw [h1 hl.1 hl.2, h1' hl.1 hl.2]; exact same_lookedUp _ _ h
  rw [Names.byNumber, Names.byNumber]
  split
  · exact same_same h _
  rw [if_neg h.pos, if_neg h.pos']
  split
  · exact same_same h _
  cases hn : formatNToUint v with
  | error u => exact same_error_left _ _
  | ok q =>
    rw [bind_ok, bind_ok]
    simp only
    split
    · exact same_same h _
    · rename_i hv hv2 hr
      obtain ⟨-, h2, -⟩ := Names.C81_number lookup v s h.ne
      have hv2 : v.length = 2 := Classical.byContradiction hv2
      obtain ⟨c, hc, e⟩ := h2 hv2 (fun hf => hl ⟨hv2, hf⟩)
      exfalso
      rw [Names.byNumber, if_neg hv, if_neg h.pos, if_neg (by simp [hv2]), hn, bind_ok] at e
      simp only [if_neg hr] at e
      cases hk : lookup q.2 <;> rw [hk, copyLookup] at e
      · rw [wr_eq (by have := h.three; omega), bind_ok] at e; injection e with e; injection e with e1 e2; omega
      · rw [Names.strncpyTerm1_held s _ h.ne, bind_ok] at e; injection e with e; injection e with e1 e2; omega

theorem noName_same {c : Int} {o o' : List Byte} (hl : o.length = o'.length) (h : shown o = shown o') :
    noName c o = noName c o' := by
  rw [noName, noName]
  split
  · rfl
  match o, o', hl, h with
  | [], [], _, _ => rfl
  | a :: o, b :: o', _, h =>
    have : (a == 0) = (b == 0) := by
      by_cases ha : a = 0 <;> by_cases hb : b = 0 <;> simp_all [shown]
    simp only [List.length_cons, Nat.succ_ne_zero, if_false]
    exact congrArg Except.ok this

/-! ## Texts and numbers -/

theorem copyLoop_code (ok : Byte → Bool) : ∀ (v s s' : List Byte) (i : Nat) (c c' : Int) (o o' : List Byte),
    Str.copyLoop ok v s i = .ok (c, o) → Str.copyLoop ok v s' i = .ok (c', o') → c = c' := by
  intro v
  induction v with
  | nil =>
    intro s s' i c c' o o' h h'
    rw [Str.copyLoop] at h h'
    cases h1 : wr s i 0 <;> rw [h1] at h <;> cases h
    cases h2 : wr s' i 0 <;> rw [h2] at h' <;> cases h'
    rfl
  | cons b v ih =>
    intro s s' i c c' o o' h h'
    rw [Str.copyLoop] at h h'
    by_cases hb : ok b = true
    · rw [if_pos hb] at h h'
      cases h1 : wr s i b with
      | error u => rw [h1] at h; cases h
      | ok a =>
        cases h2 : wr s' i b with
        | error u => rw [h2] at h'; cases h'
        | ok a' =>
          rw [h1, bind_ok] at h
          rw [h2, bind_ok] at h'
          exact ih a a' _ _ _ _ _ h h'
    · rw [if_neg hb] at h h'
      cases h; cases h'; rfl

theorem copyStr_code (ok : Byte → Bool) (v s s' : List Byte) (hl : s.length = s'.length) {c c' : Int} {o o' : List Byte}
    (h : Str.copyStr ok v s = .ok (c, o)) (h' : Str.copyStr ok v s' = .ok (c', o')) : c = c' := by
  rw [Str.copyStr] at h h'
  rw [← hl] at h'
  split at h
  · rename_i h1
    rw [if_pos h1] at h'
    cases h; cases h'; rfl
  rename_i h1
  rw [if_neg h1] at h'
  split at h
  · rename_i h2
    rw [if_pos h2] at h'
    cases h; cases h'; rfl
  · rename_i h2
    rw [if_neg h2] at h'
    exact copyLoop_code ok v s s' 0 c c' o o' h h'

theorem same_copy (ok : Byte → Bool) {P : Byte → Prop} (hP : Str.ValidatingCopy P (Str.copyStr ok)) (v : List Byte)
    {s s' : List Byte} (h : Two s s') :
    Same (emptyOnError (Str.copyStr ok v s)) (emptyOnError (Str.copyStr ok v s')) := by
  by_cases hv : v ≠ [] ∧ v.length < s.length ∧ ∀ b ∈ v, P b
  · rw [(hP v s).1 hv, (hP v s').1 (h.len ▸ hv)]
    exact same_over _ _ _ _
  · obtain ⟨c, o, hc, hl, e⟩ := (hP v s).2 hv
    obtain ⟨c', o', hc', hl', e'⟩ := (hP v s').2 (h.len ▸ hv)
    have := copyStr_code ok v s s' h.len e e'
    subst this
    have n1 : o ≠ [] := by rintro rfl; exact h.ne (by simpa using hl.symm)
    have n2 : o' ≠ [] := by rintro rfl; exact h.ne' (by simpa using hl'.symm)
    rw [e, e', emptyOnError_err c hc _ n1, emptyOnError_err c hc _ n2]
    exact same_set n1 n2 c

theorem same_cn (v : List Byte) {s s' : List Byte} (h : Two s s') :
    Same (emptyOnError (Str.cnGetString v s)) (emptyOnError (Str.cnGetString v s')) := by
  obtain ⟨h1, h2, h3⟩ := Str.C51_get v s
  obtain ⟨h1', h2', h3'⟩ := Str.C51_get v s'
  have hl := h.len
  by_cases hr : v = [] ∨ s.length ≤ 2 * v.length
  · obtain ⟨c, hc, e⟩ := h3 hr
    obtain ⟨c', hc', e'⟩ := h3' (hl ▸ hr)
    have : c = c' := by
      rw [Str.cnGetString] at e e'
      rw [← hl] at e'
      split at e
      · rename_i k
        rw [if_pos k] at e'
        cases e; cases e'; rfl
      rename_i k
      rw [if_neg k] at e'
      rw [if_pos (by rcases hr with rfl | hr; exact absurd (.inl rfl) k; omega)] at e e'
      cases e; cases e'; rfl
    subst this
    rw [e, e', emptyOnError_err c (by omega) _ h.ne, emptyOnError_err c (by omega) _ h.ne']
    exact same_set h.ne h.ne' c
  · have hv : v ≠ [] := fun h => hr (.inl h)
    by_cases hd : ∀ d ∈ Str.unpadded v, d ≤ 9
    · rw [h1 hv (by omega) hd, h1' hv (by omega) hd]
      exact same_over _ _ _ _
    · have : ∃ d ∈ Str.unpadded v, 9 < d := by
        apply Classical.byContradiction
        intro hc
        exact hd (fun d hm => by
          apply Classical.byContradiction
          intro hx
          exact hc ⟨d, hm, by omega⟩)
      obtain ⟨o, k, e⟩ := h2 hv (by omega) this
      obtain ⟨o', k', e'⟩ := h2' hv (by omega) this
      have n1 : o ≠ [] := by rintro rfl; exact h.ne (by simpa using k.symm)
      have n2 : o' ≠ [] := by rintro rfl; exact h.ne' (by simpa using k'.symm)
      rw [e, e', emptyOnError_err 1 (by decide) _ n1, emptyOnError_err 1 (by decide) _ n2]
      exact same_set n1 n2 1

theorem same_uint (n : Nat) (hn : n < 2 ^ 32) {s s' : List Byte} (h : Two s s') :
    Same (Str.uintToStr n s) (Str.uintToStr n s') := by
  have hl := h.len
  by_cases hd : (Str.digits n).length < s.length
  · rw [Str.C53_uint_partial n s hn hd, Str.C53_uint_partial n s' hn (hl ▸ hd)]
    exact same_over _ _ _ _
  · rw [Str.C53_overflow n s hn (by have := h.three; omega) (by omega)]
    exact same_error_left _ _

theorem same_n (v : List Byte) {s s' : List Byte} (h : Two s s') :
    Same (emptyOnError (Str.formatNGetString v s)) (emptyOnError (Str.formatNGetString v s')) := by
  by_cases hv : v ≠ [] ∧ IsFormatN v
  · rw [formatN_uint v s hv.1 hv.2, formatN_uint v s' hv.1 hv.2]
    have hn := Nat.mod_lt (decNat (nibbles v)) (show 2 ^ 32 > 0 by decide)
    by_cases hd : (Str.digits (decNat (nibbles v) % 2 ^ 32)).length < s.length
    · rw [Str.C53_uint_partial _ s hn hd, Str.C53_uint_partial _ s' hn (h.len ▸ hd)]
      exact same_over _ _ _ _
    · rw [Str.C53_overflow _ s hn (by have := h.three; omega) (by omega)]
      exact same_error_left _ _
  · have key : ∃ c, c ≠ 0 ∧ ∀ t, Str.formatNGetString v t = .ok (c, t) := by
      by_cases h0 : v = []
      · subst h0; exact ⟨-1, by decide, fun _ => rfl⟩
      · obtain ⟨c, hc, e⟩ := Str.C53_format_n_refused v [] h0 (fun hf => hv ⟨h0, hf⟩)
        refine ⟨c, by omega, fun t => ?_⟩
        rw [Str.formatNGetString] at e ⊢
        cases hn : formatNToUint v with
        | error u => rw [hn] at e; cases e
        | ok q =>
          rw [hn, bind_ok] at e
          rw [bind_ok]
          simp only at e ⊢
          split at e
          · rename_i hr
            injection e with e; injection e with e1 e2
            rw [if_pos hr, e1]
          · rw [Str.C53_short _ _ (by decide)] at e
            injection e with e; injection e with e1 e2
            omega
    obtain ⟨c, hc, e⟩ := key
    rw [e, e, emptyOnError_err c hc _ h.ne, emptyOnError_err c hc _ h.ne']
    exact same_set h.ne h.ne' c

theorem same_amount (v : List Byte) {s s' : List Byte} (h : Two s s') :
    Same (Str.amountGetString v s) (Str.amountGetString v s') := by
  rw [Str.amountGetString, Str.amountGetString]
  split
  · exact same_same h _
  rename_i nv
  rw [if_neg h.pos, if_neg h.pos']
  by_cases h4 : v.length ≤ 4
  · have hlt : beNat v < 2 ^ 32 := by
      have := beNat_lt v
      have : 256 ^ v.length ≤ 256 ^ 4 := Nat.pow_le_pow_right (by omega) h4
      omega
    rw [(C11_decode v).1 (by omega) h4, bind_ok, bind_ok]
    exact same_uint _ hlt h
  · obtain ⟨x, e⟩ := (C11_decode v).2.1 (by omega)
    rw [e, bind_ok, bind_ok]
    exact same_same h _

theorem rawCopy_eq (v s : List Byte) (h : v.length < s.length) : rawCopy v s = .ok (0, strOver v s) := by
  have := copyName_eq v s h
  rw [copyName, if_pos h] at this
  exact this

theorem rawCopy_long (v s : List Byte) (h : s.length ≤ v.length) : ∃ u, rawCopy v s = .error u := by
  rw [rawCopy]
  by_cases hl : s.length = v.length
  · rw [wrs_eq (by omega), bind_ok]
    refine ⟨.oobWrite, ?_⟩
    rw [wr, if_neg (by simp; omega)]
    rfl
  · refine ⟨.oobWrite, ?_⟩
    rw [wrs, if_neg (by omega)]
    rfl

theorem same_raw (v : List Byte) {s s' : List Byte} (h : Two s s') : Same (rawCopy v s) (rawCopy v s') := by
  by_cases hl : v.length < s.length
  · rw [rawCopy_eq v s hl, rawCopy_eq v s' (h.len ▸ hl)]; exact same_over _ _ _ _
  · obtain ⟨u, e⟩ := rawCopy_long v s (by omega)
    rw [e]; exact same_error_left _ _

theorem same_value (tag : Nat) (f : Fmt) (max : Nat) (v : List Byte) {s s' : List Byte} (h : Two s s') :
    Same (valueString tag f max v s) (valueString tag f max v s') := by
  obtain ⟨va, van, vas, vac⟩ := Str.C55_validation
  have key : Same (byFormat tag f v s) (byFormat tag f v s') := by
    cases f with
    | a => exact same_copy _ va v h
    | an => exact same_copy _ van v h
    | ans =>
      rw [byFormat, byFormat]
      split
      · exact same_copy _ vas v h
      split
      · exact same_raw v h
      · exact same_copy _ vac v h
    | cn => exact same_cn v h
    | n => exact same_n v h
    | _ => exact same_same h _
  rw [valueString, valueString, if_neg h.pos, if_neg h.pos', h.len]
  split
  · split
    · exact same_same h _
    · split
      · exact same_same h _
      · exact key
  · exact key

theorem same_alpha (n : Nat) (hn : 0 < n) (lookup : List Byte → Option (List Byte)) (v : List Byte) {s s' : List Byte}
    (h : Two s s') : Same (countryAlpha n lookup v s) (countryAlpha n lookup v s') := by
  obtain ⟨h1, h2, h3⟩ := Names.C81_alpha n hn lookup v s h.ne
  obtain ⟨h1', h2', h3'⟩ := Names.C81_alpha n hn lookup v s' h.ne'
  rw [countryAlpha, countryAlpha]
  by_cases hl : v.length = n
  · rw [h1 hl, h1' hl, bind_ok, bind_ok]
    cases lookup (v.takeWhile (· ≠ 0)) with
    | none =>
      simp only [Names.lookedUp]
      rw [noName_same (o := s.set 0 0) (o' := s'.set 0 0) (by simpa using h.len)
        (by rw [shown_head h.set.fst, shown_head h.set.snd])]
      cases noName 0 (s'.set 0 0) with
      | error u => exact same_error_left _ _
      | ok b =>
        rw [bind_ok, bind_ok]
        cases b
        · exact same_same h.set _
        · exact same_value _ _ _ _ h.set
    | some t =>
      simp only [Names.lookedUp, h.len]
      exact fun c o c' o' e e' => by rw [e] at e'; cases e'; exact ⟨rfl, rfl⟩
  · have hb : ∃ c, Names.byAlpha n lookup v s = .ok (c, s) ∧ Names.byAlpha n lookup v s' = .ok (c, s') := by
      by_cases hv : v = []
      · exact ⟨-1, h2 hv, h2' hv⟩
      · exact ⟨1, h3 hv hl, h3' hv hl⟩
    obtain ⟨c, e, e'⟩ := hb
    rw [e, e', bind_ok, bind_ok]
    simp only
    rw [noName_same h.len (by rw [shown_head h.fst, shown_head h.snd])]
    cases noName c s' with
    | error u => exact same_error_left _ _
    | ok b =>
      rw [bind_ok, bind_ok]
      cases b
      · exact same_same h _
      · exact same_value _ _ _ _ h

theorem same_first {g : Byte → List Byte → C (Int × List Byte)} {s s' : List Byte}
    (hg : ∀ b, Same (g b s) (g b s')) (v : List Byte) : Same (firstByte g v s) (firstByte g v s') := by
  rw [firstByte, firstByte]
  cases rd v 0 with
  | error u => exact same_error_left _ _
  | ok b => exact hg b

theorem same_track2 (v : List Byte) {s s' : List Byte} (h : Two s s') :
    Same (Str.track2GetString v s) (Str.track2GetString v s') := by
  by_cases hv : v = []
  · rw [(Str.C54_refused v s).1 hv, (Str.C54_refused v s').1 hv]; exact same_same h _
  by_cases hf : (Str.unpadded v).length < s.length
  · rw [Str.C54_track2_partial v s hv h.ne hf, Str.C54_track2_partial v s' hv h.ne' (h.len ▸ hf)]
    exact same_over _ _ _ _
  · rw [Str.C54_overflow v s hv h.ne (by omega)]
    exact same_error_left _ _

theorem same_dfName (v : List Byte) {s s' : List Byte} (h : Two s s') : Same (dfNameString v s) (dfNameString v s') := by
  rw [dfName_eq, dfName_eq]
  split
  · by_cases hl : v.length < s.length
    · rw [copyName_eq v s hl, copyName_eq v s' (h.len ▸ hl)]; exact same_over _ _ _ _
    · rw [copyName_short v s (by omega), copyName_short v s' (by rw [← h.len]; omega)]; exact same_same h _
  · exact same_aid v h

theorem okBind {α β : Type} {x : C α} {f : α → C β} {b : β} (h : (x >>= f) = .ok b) : ∃ a, x = .ok a ∧ f a = .ok b := by
  match x, h with
  | .ok a, h => exact ⟨a, rfl, h⟩

theorem date_code {v s : List Byte} {c : Int} {o : List Byte} (h3 : v.length = 3) (hk : 11 ≤ s.length) (hc : 0 < c)
    (h : Str.dateGetString v s = .ok (c, o)) :
    Str.bcdLoop v (v.length + 1) 0 (List.replicate 7 0) = .ok (.error c) := by
  rw [Str.dateGetString, Str.dateWith, if_neg (by omega), if_neg (by omega), if_neg (by omega), if_neg (by omega)] at h
  obtain ⟨q, hq, h⟩ := okBind h
  match q, h with
  | .error c', h => cases h; exact hq
  | .ok ds, h =>
    obtain ⟨_, _, h⟩ := okBind h
    obtain ⟨_, _, h⟩ := okBind h
    obtain ⟨_, _, h⟩ := okBind h
    obtain ⟨_, _, h⟩ := okBind h
    obtain ⟨_, _, h⟩ := okBind h
    obtain ⟨_, _, h⟩ := okBind h
    obtain ⟨_, _, h⟩ := okBind h
    obtain ⟨_, _, h⟩ := okBind h
    obtain ⟨_, _, h⟩ := okBind h
    obtain ⟨_, _, h⟩ := okBind h
    obtain ⟨_, _, h⟩ := okBind h
    obtain ⟨_, _, h⟩ := okBind h
    injection h with h; injection h with h _
    omega

theorem time_code {v s : List Byte} {c : Int} {o : List Byte} (h3 : v.length = 3) (hk : 9 ≤ s.length) (hc : 0 < c)
    (h : Str.timeGetString v s = .ok (c, o)) :
    Str.bcdLoop v (v.length + 1) 0 (List.replicate 7 0) = .ok (.error c) := by
  rw [Str.timeGetString, Str.timeWith, if_neg (by omega), if_neg (by omega), if_neg (by omega), if_neg (by omega)] at h
  obtain ⟨q, hq, h⟩ := okBind h
  match q, h with
  | .error c', h => cases h; exact hq
  | .ok ds, h =>
    obtain ⟨_, _, h⟩ := okBind h
    obtain ⟨_, _, h⟩ := okBind h
    obtain ⟨_, _, h⟩ := okBind h
    obtain ⟨_, _, h⟩ := okBind h
    obtain ⟨_, _, h⟩ := okBind h
    obtain ⟨_, _, h⟩ := okBind h
    obtain ⟨_, _, h⟩ := okBind h
    obtain ⟨_, _, h⟩ := okBind h
    obtain ⟨_, _, h⟩ := okBind h
    obtain ⟨_, _, h⟩ := okBind h
    injection h with h; injection h with h _
    omega

theorem same_date (v : List Byte) {s s' : List Byte} (h : Two s s') :
    Same (Str.dateGetString v s) (Str.dateGetString v s') := by
  obtain ⟨h1, h2, h3, h4, -, h6, -⟩ := Str.C50_refused v s
  obtain ⟨h1', h2', h3', h4', -, h6', -⟩ := Str.C50_refused v s'
  have hl := h.len
  by_cases hv : v = []
  · rw [(h1 hv).1, (h1' hv).1]; exact same_same h _
  by_cases h3v : v.length = 3
  · by_cases hk : s.length < 11
    · rw [h4 h3v h.ne hk, h4' h3v h.ne' (by omega)]; exact same_same h _
    · by_cases hf : IsFormatN v
      · rw [(Str.C50_overflow v s h3v hf).1 (by omega)]; exact same_error_left _ _
      · obtain ⟨c, hc, e⟩ := h6 h3v (by omega) hf
        obtain ⟨c', hc', e'⟩ := h6' h3v (by omega) hf
        have a := date_code h3v (by omega) hc e
        rw [date_code h3v (by omega) hc' e'] at a
        cases a
        rw [e, e']; exact same_same h _
  · rw [(h3 hv h.ne h3v).1, (h3' hv h.ne' h3v).1]; exact same_same h _

theorem same_time (v : List Byte) {s s' : List Byte} (h : Two s s') :
    Same (Str.timeGetString v s) (Str.timeGetString v s') := by
  obtain ⟨h1, h2, h3, -, h4, -, h6⟩ := Str.C50_refused v s
  obtain ⟨h1', h2', h3', -, h4', -, h6'⟩ := Str.C50_refused v s'
  have hl := h.len
  by_cases hv : v = []
  · rw [(h1 hv).2, (h1' hv).2]; exact same_same h _
  by_cases h3v : v.length = 3
  · by_cases hk : s.length < 9
    · rw [h4 h3v h.ne hk, h4' h3v h.ne' (by omega)]; exact same_same h _
    · by_cases hf : IsFormatN v
      · rw [(Str.C50_overflow v s h3v hf).2 (by omega)]; exact same_error_left _ _
      · obtain ⟨c, hc, e⟩ := h6 h3v (by omega) hf
        obtain ⟨c', hc', e'⟩ := h6' h3v (by omega) hf
        have a := time_code h3v (by omega) hc e
        rw [time_code h3v (by omega) hc' e'] at a
        cases a
        rw [e, e']; exact same_same h _
  · rw [(h3 hv h.ne h3v).2, (h3' hv h.ne' h3v).2]; exact same_same h _

theorem same_arc (arc : List Byte) {s s' : List Byte} (h : Two s s') :
    Same (Iad.arcString arc s) (Iad.arcString arc s') := by
  have hl := h.len
  have h3 := h.three
  by_cases ha : arc.length = 2 ∧ (∀ b ∈ arc, Str.IsAn b)
  · rw [Iad.C79_shown arc s ha.1 ha.2 h3, Iad.C79_shown arc s' ha.1 ha.2 h.three', hl]
    exact same_over _ _ _ _
  rw [Iad.arcString, Iad.arcString, if_neg h.pos, if_neg h.pos']
  split
  · exact same_same h _
  rename_i h0
  rw [wr_eq (by omega), wr_eq (by omega), bind_ok, bind_ok]
  have l1 : ¬ (s.set 0 0).length < 3 := by rw [List.length_set]; omega
  have l2 : ¬ (s'.set 0 0).length < 3 := by rw [List.length_set]; omega
  rw [if_neg l1, if_neg l2]
  split
  · exact same_same h.set _
  rename_i h2
  have h2 : arc.length = 2 := Classical.byContradiction h2
  rw [slice_eq (by omega), bind_ok, bind_ok]
  have : (arc.drop 0).take 2 = arc := by rw [List.drop_zero, List.take_of_length_le (by omega)]
  rw [this]
  have hn : ¬ (arc ≠ [] ∧ arc.length < (s.set 0 0).length ∧ ∀ b ∈ arc, Str.IsAn b) := fun hx => ha ⟨h2, hx.2.2⟩
  have hn' : ¬ (arc ≠ [] ∧ arc.length < (s'.set 0 0).length ∧ ∀ b ∈ arc, Str.IsAn b) := fun hx => ha ⟨h2, hx.2.2⟩
  obtain ⟨c, o, hc, l, e⟩ := (Str.C55_validation.2.1 arc (s.set 0 0)).2 hn
  obtain ⟨c', o', hc', l', e'⟩ := (Str.C55_validation.2.1 arc (s'.set 0 0)).2 hn'
  have : c = c' := copyStr_code _ arc _ _ h.set.len e e'
  subst this
  simp only [List.length_set] at l l'
  rw [e, e', bind_ok, bind_ok]
  simp only [ne_eq, hc, not_false_eq_true, if_true]
  rw [wr_eq (by omega), wr_eq (by omega), bind_ok, bind_ok]
  exact same_set (by intro e; rw [e] at l; simp at l; omega) (by intro e; rw [e] at l'; simp at l'; omega) c

/-! ## Lists -/

theorem same_iad (v : List Byte) {s s' : List Byte} (h : Two s s') : Same (Iad.iadList v s) (Iad.iadList v s') := by
  rw [Iad.iadList, Iad.iadList, if_neg h.pos, if_neg h.pos']
  split
  · exact same_same h _
  split
  · exact same_same h _
  cases Fields.iadFormat v with
  | error u => exact same_error_left _ _
  | ok f => exact same_builds h (Iad.iadStrings v f)

theorem same_third (country : Nat → Option (List Byte)) (v : List Byte) {s s' : List Byte} (h : Two s s') :
    Same (ThirdParty.getStringList country v s) (ThirdParty.getStringList country v s') := by
  rw [ThirdParty.getStringList, ThirdParty.getStringList, if_neg h.pos, if_neg h.pos']
  split
  · exact same_same h _
  split
  · exact same_same h _
  cases ThirdParty.lines country v with
  | error u => exact same_error_left _ _
  | ok q =>
    obtain ⟨r, ls⟩ := q
    rw [bind_ok, bind_ok]
    simp only
    cases h1 : addAll (fun s => emvAdd (some s)) ls (init s) with
    | error u => exact same_error_left _ _
    | ok i =>
      cases h2 : addAll (fun s => emvAdd (some s)) ls (init s') with
      | error u => exact same_error_right _ _
      | ok i' =>
        exact same_of (same_build h ls (by rw [Bits.build, h1, bind_ok]) (by rw [Bits.build, h2, bind_ok]))

theorem same_auth (loc loc' : List Byte) (hl : loc.length = 3) (hl' : loc'.length = 3) (v : List Byte)
    {s s' : List Byte} (h : Two s s') : Same (Iad.authList loc v s) (Iad.authList loc' v s') := by
  rw [Iad.authList, Iad.authList, if_neg h.pos, if_neg h.pos']
  split
  · exact same_same h _
  split
  · exact same_same h _
  rename_i h8
  have hrun := Iad.irowsOf_run 4 ((v.drop 4).take 4) (by simp; omega) _ _ Iad.csu_rows
  rw [Iad.authStrings_lines loc v hl (by omega) (by omega) _ hrun,
    Iad.authStrings_lines loc' v hl' (by omega) (by omega) _ hrun]
  exact same_builds' h _ 0

theorem same_cvmList (loc loc' : Nat → List Byte) (hl : ∀ i, (loc i).length = 128) (hl' : ∀ i, (loc' i).length = 128)
    (v : List Byte) {s s' : List Byte} (h : Two s s') : Same (cvmList loc v s) (cvmList loc' v s') := by
  rcases Fields.C19_reject v with ⟨hn, -⟩ | ⟨x, y, rs, rfl, hx, hy, h1, h2⟩
  · obtain ⟨c, hc, e⟩ := C73_list_refused loc v s hn
    obtain ⟨c', hc', e'⟩ := C73_list_refused loc' v s' hn
    have : c = c' := by
      rw [cvmList] at e e'
      by_cases h0 : v.length = 0
      · rw [if_pos (.inl h0)] at e e'
        injection e with e; injection e with e _
        injection e' with e'; injection e' with e' _
        omega
      rw [if_neg (fun hx => hx.elim h0 h.pos)] at e
      rw [if_neg (fun hx => hx.elim h0 h.pos')] at e'
      obtain ⟨q, hq, e⟩ := okBind e
      rw [hq, bind_ok] at e'
      match q, e, e' with
      | .error k, e, e' =>
        injection e with e; injection e with e _
        injection e' with e'; injection e' with e' _
        omega
      | .ok (a, b, t), e, e' =>
        obtain ⟨_, _, e⟩ := okBind e
        injection e with e; injection e with e _
        omega
    subst this
    rw [e, e']; exact same_same h _
  · obtain ⟨o, e, a⟩ := C73_list loc hl x y hx hy rs h1 h2 s h.ne
    obtain ⟨o', e', a'⟩ := C73_list loc' hl' x y hx hy rs h1 h2 s' h.ne'
    rw [e, e']; exact same_shows h _ a a'

theorem same_cvmResults (loc loc' : List Byte) (hl : loc.length = 128) (hl' : loc'.length = 128) (v : List Byte)
    {s s' : List Byte} (h : Two s s') : Same (cvmResults loc v s) (cvmResults loc' v s') := by
  obtain ⟨h1, h2⟩ := C73_results loc hl
  obtain ⟨h1', h2'⟩ := C73_results loc' hl'
  by_cases h0 : v = []
  · subst h0; exact same_same h _
  by_cases h3 : v.length = 3
  · match v, h3 with
    | [a, b, c], _ =>
      obtain ⟨o, e, x⟩ := h2 a b c s h.ne
      obtain ⟨o', e', x'⟩ := h2' a b c s' h.ne'
      rw [e, e']; exact same_shows h _ x x'
  · rw [h1 v s h0 h.ne h3, h1' v s' h0 h.ne' h3]; exact same_same h _

/-- Two string lists with the same text. -/
def Alike (n : Nat) (i i' : Itr) : Prop :=
  ∃ old old' acc, old.length = n ∧ old'.length = n ∧ old.head? = some 0 ∧ old'.head? = some 0 ∧
    State old acc i ∧ State old' acc i'

theorem alike_shown {n : Nat} {i i' : Itr} (h : Alike n i i') : shown i.buf = shown i'.buf := by
  obtain ⟨old, old', acc, -, -, h0, h0', s, s'⟩ := h
  have key : ∀ {old i}, old.head? = some 0 → State old acc i → shown i.buf = shown acc := by
    intro old i h0 hs
    rcases hs with ⟨-, rfl⟩ | ⟨rfl, rfl⟩
    · exact shown_over _ _
    · exact shown_head h0
  rw [key h0 s, key h0' s']

theorem alike_add {n : Nat} {i i' j j' : Itr} (h : Alike n i i') (t : List Byte) (h1 : emvAdd (some t) i = .ok j)
    (h2 : emvAdd (some t) i' = .ok j') : Alike n j j' := by
  obtain ⟨old, old', acc, l, l', h0, h0', s, s'⟩ := h
  obtain ⟨a1, a2⟩ := emvAdd_spec old acc t i s
  obtain ⟨b1, b2⟩ := emvAdd_spec old' acc t i' s'
  rw [l] at a1 a2
  rw [l'] at b1 b2
  by_cases hn : n - acc.length < 3
  · rw [a1 hn] at h1; cases h1
    rw [b1 hn] at h2; cases h2
    exact ⟨old, old', acc, l, l', h0, h0', s, s'⟩
  · obtain ⟨x, e, hx⟩ := a2 (by omega)
    obtain ⟨y, e', hy⟩ := b2 (by omega)
    rw [e] at h1; cases h1
    rw [e'] at h2; cases h2
    exact ⟨old, old', _, l, l', h0, h0', .inl hx, .inl hy⟩

theorem alike_init {s s' : List Byte} (h : Two s s') : Alike s.length (init s) (init s') :=
  ⟨s, s', [], rfl, h.len.symm, h.fst, h.snd, .inr ⟨rfl, rfl⟩, .inr ⟨rfl, rfl⟩⟩

theorem same_aflLoop (n : Nat) : ∀ (fuel : Nat) (v : List Byte) (i i' : Itr) (c c' : Int) (j j' : Itr),
    Alike n i i' → aflLoop fuel v i = .ok (c, j) → aflLoop fuel v i' = .ok (c', j') → c = c' ∧ Alike n j j' := by
  intro fuel
  induction fuel with
  | zero => intro v i i' c c' j j' _ h; cases h
  | succ fuel ih =>
    intro v i i' c c' j j' hi h h'
    rw [aflLoop] at h h'
    obtain ⟨⟨v', r⟩, hq, h⟩ := okBind h
    rw [hq, bind_ok] at h'
    match r, h, h' with
    | .eod, h, h' => cases h; cases h'; exact ⟨rfl, hi⟩
    | .err k, h, h' => cases h; cases h'; exact ⟨rfl, hi⟩
    | .ok _ e, h, h' =>
      obtain ⟨a, ha, h⟩ := okBind h
      obtain ⟨b, hb, h'⟩ := okBind h'
      exact ih v' a b c c' j j' (alike_add hi _ ha hb) h h'

theorem same_afl (v : List Byte) {s s' : List Byte} (h : Two s s') : Same (aflList v s) (aflList v s') := by
  rw [aflList, aflList]
  by_cases h0 : v.length = 0
  · rw [if_pos (.inl h0), if_pos (.inl h0)]; exact same_same h _
  rw [if_neg (show ¬ (v.length = 0 ∨ s.length = 0) from fun hx => hx.elim h0 h.pos),
    if_neg (show ¬ (v.length = 0 ∨ s'.length = 0) from fun hx => hx.elim h0 h.pos')]
  split
  · exact same_same h _
  intro c o c' o' e e'
  obtain ⟨⟨k, i⟩, hk, e⟩ := okBind e
  obtain ⟨⟨k', i'⟩, hk', e'⟩ := okBind e'
  obtain ⟨rfl, ha⟩ := same_aflLoop _ _ _ _ _ _ _ _ _ (alike_init h) hk hk'
  simp only at e e'
  split at e
  · rename_i hc
    rw [if_pos hc] at e'
    obtain ⟨b, hb, e⟩ := okBind e
    obtain ⟨b', hb', e'⟩ := okBind e'
    cases e; cases e'
    refine ⟨rfl, ?_⟩
    have key : ∀ {x y : List Byte}, wr x 0 0 = .ok y → shown y = [] := by
      intro x y hx
      match x, hx with
      | a :: x, hx => rw [wr_eq (by simp)] at hx; cases hx; simp [shown]
    rw [key hb, key hb']
  · rename_i hc
    rw [if_neg hc] at e'
    cases e; cases e'
    exact ⟨rfl, alike_shown ha⟩

theorem same_asrpdLoop (n : Nat) : ∀ (fuel : Nat) (v : List Byte) (i i' : Itr) (c c' : Int) (j j' : Itr),
    Alike n i i' → asrpdLoop fuel v i = .ok (c, j) → asrpdLoop fuel v i' = .ok (c', j') → c = c' ∧ Alike n j j' := by
  intro fuel
  induction fuel with
  | zero => intro v i i' c c' j j' _ h; cases h
  | succ fuel ih =>
    intro v i i' c c' j j' hi h h'
    rw [asrpdLoop] at h h'
    split at h
    · rename_i hc
      rw [if_pos hc] at h'
      cases h; cases h'; exact ⟨rfl, hi⟩
    rename_i hc
    rw [if_neg hc] at h'
    split at h
    · rename_i hc
      rw [if_pos hc] at h'
      cases h; cases h'; exact ⟨rfl, hi⟩
    rename_i hc
    rw [if_neg hc] at h'
    obtain ⟨a0, q0, h⟩ := okBind h
    rw [q0, bind_ok] at h'
    obtain ⟨a1, q1, h⟩ := okBind h
    rw [q1, bind_ok] at h'
    obtain ⟨x, hx, h⟩ := okBind h
    obtain ⟨y, hy, h'⟩ := okBind h'
    obtain ⟨a2, q2, h⟩ := okBind h
    rw [q2, bind_ok] at h'
    have hxy := alike_add hi _ hx hy
    simp only at h h'
    split at h
    · rename_i hc
      rw [if_pos hc] at h'
      cases h; cases h'; exact ⟨rfl, hxy⟩
    rename_i hc
    rw [if_neg hc] at h'
    obtain ⟨rest, qr, h⟩ := okBind h
    rw [qr, bind_ok] at h'
    exact ih rest x y c c' j j' hxy h h'

theorem same_asrpd (v : List Byte) {s s' : List Byte} (h : Two s s') : Same (asrpdList v s) (asrpdList v s') := by
  rw [asrpdList, asrpdList, if_neg h.pos, if_neg h.pos']
  split
  · exact same_same h _
  split
  · exact same_same h _
  intro c o c' o' e e'
  obtain ⟨⟨k, i⟩, hk, e⟩ := okBind e
  obtain ⟨⟨k', i'⟩, hk', e'⟩ := okBind e'
  obtain ⟨rfl, ha⟩ := same_asrpdLoop _ _ _ _ _ _ _ _ _ (alike_init h) hk hk'
  cases e; cases e'
  exact ⟨rfl, alike_shown ha⟩

/-- A function that fills a local array. -/
def Fills (get : List Byte → List Byte → C (Int × List Byte)) : Prop :=
  ∀ p (l l' : List Byte) c c' o o', l.length = 128 → l'.length = 128 → get p l = .ok (c, o) → get p l' = .ok (c', o') →
    c = c' ∧ (c = 0 → o = o' ∨ (o.head? = some 0 ∧ o'.head? = some 0))

theorem same_pairLoop {get : List Byte → List Byte → C (Int × List Byte)} (hg : Fills get) (loc loc' : Nat → List Byte)
    (hl : ∀ i, (loc i).length = 128) (hl' : ∀ i, (loc' i).length = 128) (f : List Byte) (n : Nat) :
    ∀ (fuel k : Nat) (i i' : Itr) (c c' : Int) (j j' : Itr), Alike n i i' →
      pairLoop get loc f fuel k i = .ok (c, j) → pairLoop get loc' f fuel k i' = .ok (c', j') → c = c' ∧ Alike n j j' := by
  intro fuel
  induction fuel with
  | zero => intro k i i' c c' j j' _ h; cases h
  | succ fuel ih =>
    intro k i i' c c' j j' hi h h'
    rw [pairLoop] at h h'
    split at h
    · rename_i hc
      rw [if_pos hc] at h'
      cases h; cases h'; exact ⟨rfl, hi⟩
    rename_i hc
    rw [if_neg hc] at h'
    obtain ⟨p, qp, h⟩ := okBind h
    rw [qp, bind_ok] at h'
    obtain ⟨⟨r, s⟩, hs, h⟩ := okBind h
    obtain ⟨⟨r', s'⟩, hs', h'⟩ := okBind h'
    obtain ⟨rfl, ht⟩ := hg p _ _ _ _ _ _ (hl k) (hl' k) hs hs'
    simp only at h h'
    split at h
    · rename_i hc
      rw [if_pos hc] at h'
      cases h; cases h'; exact ⟨rfl, hi⟩
    rename_i hr
    rw [if_neg hr] at h'
    have hr : r = 0 := Classical.byContradiction hr
    have key : ∀ {l : List Byte} {i j : Itr} {c : Int} {loc : Nat → List Byte},
        (do let b ← rd l 0
            let t ← if b ≠ 0 then Capdu.cstr l else .ok txt!"Unknown"
            let it ← emvAdd (some t) i
            pairLoop get loc f fuel (k + 2) it) = .ok (c, j) →
        ∃ b t x, rd l 0 = .ok b ∧ (if b ≠ 0 then Capdu.cstr l else .ok txt!"Unknown") = .ok t ∧
          emvAdd (some t) i = .ok x ∧ pairLoop get loc f fuel (k + 2) x = .ok (c, j) := by
      intro l i j c loc h
      obtain ⟨b, hb, h⟩ := okBind h
      split at h
      · rename_i hz
        obtain ⟨t, ht, h⟩ := okBind h
        obtain ⟨x, hx, h⟩ := okBind h
        exact ⟨b, t, x, hb, by rw [if_pos hz, ht], hx, h⟩
      · rename_i hz
        rw [bind_ok] at h
        obtain ⟨x, hx, h⟩ := okBind h
        exact ⟨b, _, x, hb, by rw [if_neg hz], hx, h⟩
    obtain ⟨b, t, x, hb, q, hx, h⟩ := key h
    obtain ⟨b', t', y, hb', q', hy, h'⟩ := key h'
    have : t = t' := by
      rcases ht hr with rfl | ⟨z, z'⟩
      · rw [hb] at hb'; cases hb'
        rw [q] at q'; cases q'; rfl
      · have : ∀ {x : List Byte} {b : Byte}, x.head? = some 0 → rd x 0 = .ok b → b = 0 := by
          intro x b hx hr
          match x, hx, hr with
          | a :: x, hx, hr => simp at hx; cases hr; exact hx
        rw [this z hb, if_neg (by decide)] at q
        rw [this z' hb', if_neg (by decide)] at q'
        cases q; cases q'; rfl
    subst this
    exact ih _ x y c c' j j' (alike_add hi _ hx hy) h h'

theorem same_pairs {get : List Byte → List Byte → C (Int × List Byte)} (hg : Fills get) (loc loc' : Nat → List Byte)
    (hl : ∀ i, (loc i).length = 128) (hl' : ∀ i, (loc' i).length = 128) (f : List Byte) {s s' : List Byte}
    (h : Two s s') : Same (pairList get loc f s) (pairList get loc' f s') := by
  rw [pairList, pairList]
  by_cases h0 : f.length = 0
  · rw [if_pos (.inl h0), if_pos (.inl h0)]; exact same_same h _
  rw [if_neg (show ¬ (f.length = 0 ∨ s.length = 0) from fun hx => hx.elim h0 h.pos),
    if_neg (show ¬ (f.length = 0 ∨ s'.length = 0) from fun hx => hx.elim h0 h.pos')]
  split
  · exact same_same h _
  intro c o c' o' e e'
  obtain ⟨⟨k, i⟩, hk, e⟩ := okBind e
  obtain ⟨⟨k', i'⟩, hk', e'⟩ := okBind e'
  obtain ⟨rfl, ha⟩ := same_pairLoop hg loc loc' hl hl' f _ _ _ _ _ _ _ _ _ (alike_init h) hk hk'
  cases e; cases e'
  exact ⟨rfl, alike_shown ha⟩

theorem copyLookup_same (o : Option (List Byte)) {l l' : List Byte} (hl : l.length = 128) (hl' : l'.length = 128)
    {c c' : Int} {x x' : List Byte} (h : copyLookup o l = .ok (c, x)) (h' : copyLookup o l' = .ok (c', x')) :
    c = c' ∧ (c = 0 → x = x' ∨ (x.head? = some 0 ∧ x'.head? = some 0)) := by
  have n1 : l ≠ [] := by rintro rfl; simp at hl
  have n2 : l' ≠ [] := by rintro rfl; simp at hl'
  cases o with
  | none =>
    rw [copyLookup, wr_eq (by omega), bind_ok] at h h'
    cases h; cases h'
    refine ⟨rfl, fun _ => .inr ?_⟩
    match l, l', n1, n2 with
    | _ :: _, _ :: _, _, _ => exact ⟨rfl, rfl⟩
  | some t =>
    rw [copyLookup, Names.strncpyTerm1_held _ _ n1, bind_ok] at h
    rw [copyLookup, Names.strncpyTerm1_held _ _ n2, bind_ok] at h'
    cases h; cases h'
    exact ⟨rfl, fun _ => .inl (by rw [hl, hl'])⟩

theorem fills_currency (lookup : Nat → Option (List Byte)) : Fills (currencyString lookup) := by
  intro p l l' c c' o o' hl hl' h h'
  rw [currencyString] at h h'
  split at h
  · rename_i hc
    rw [if_pos hc] at h'
    cases h; cases h'; exact ⟨rfl, fun h => by cases h⟩
  rename_i hc
  rw [if_neg hc] at h'
  rw [if_neg (by omega)] at h h'
  split at h
  · rename_i hc
    rw [if_pos hc] at h'
    cases h; cases h'; exact ⟨rfl, fun h => by cases h⟩
  rename_i hc
  rw [if_neg hc] at h'
  obtain ⟨⟨r, v⟩, hq, h⟩ := okBind h
  rw [hq, bind_ok] at h'
  simp only at h h'
  split at h
  · rename_i hc
    rw [if_pos hc] at h'
    cases h; cases h'; exact ⟨rfl, fun h => absurd h hc⟩
  rename_i hc
  rw [if_neg hc] at h'
  exact copyLookup_same _ hl hl' h h'

theorem fills_language (lookup : List Byte → Option (List Byte)) : Fills (languageString lookup) := by
  intro p l l' c c' o o' hl hl' h h'
  rw [languageString] at h h'
  split at h
  · rename_i hc
    rw [if_pos hc] at h'
    cases h; cases h'; exact ⟨rfl, fun h => by cases h⟩
  rename_i hc
  rw [if_neg hc] at h'
  rw [if_neg (by omega)] at h h'
  split at h
  · rename_i hc
    rw [if_pos hc] at h'
    cases h; cases h'; exact ⟨rfl, fun h => by cases h⟩
  rename_i hc
  rw [if_neg hc] at h'
  obtain ⟨a, q0, h⟩ := okBind h
  rw [q0, bind_ok] at h'
  obtain ⟨b, q1, h⟩ := okBind h
  rw [q1, bind_ok] at h'
  obtain ⟨k, q2, h⟩ := okBind h
  rw [q2, bind_ok] at h'
  exact copyLookup_same _ hl hl' h h'

/-! ## Commands -/

theorem snprintf_shown {s s' o o' : List Byte} (t : List Byte) (hl : s.length = s'.length) (h0 : s ≠ [])
    (h : Capdu.snprintf s t = .ok o) (h' : Capdu.snprintf s' t = .ok o') : shown o = shown o' := by
  have key : ∀ {s o : List Byte}, s ≠ [] → Capdu.snprintf s t = .ok o → o = strOver (t.take (s.length - 1)) s := by
    intro s o h0 h
    have : 0 < s.length := List.length_pos_iff.2 h0
    rw [Capdu.snprintf, if_neg (by omega), wrs_eq (by simp; omega)] at h
    cases h
    simp [strOver]
  rw [key h0 h, key (by intro e; apply h0; rw [e] at hl; simpa using hl) h', shown_over, shown_over, hl]

theorem finish_same {s s' : List Byte} (h : Two s s') (t : Option (List Byte)) {g g' : Bool} {o o' : List Byte}
    (e : Capdu.finishText s t = .ok (g, o)) (e' : Capdu.finishText s' t = .ok (g', o')) :
    g = g' ∧ shown o = shown o' := by
  cases t with
  | none => cases e; cases e'; exact ⟨rfl, by rw [shown_head h.fst, shown_head h.snd]⟩
  | some t =>
    rw [Capdu.finishText] at e e'
    obtain ⟨x, hx, e⟩ := okBind e
    obtain ⟨x', hx', e'⟩ := okBind e'
    cases e; cases e'
    exact ⟨rfl, snprintf_shown t h.len h.ne hx hx'⟩

theorem same_iso (a : List Byte) {s s' : List Byte} (h : Two s s') {g g' : Bool} {o o' : List Byte}
    (e : Capdu.isoGetString a s = .ok (g, o)) (e' : Capdu.isoGetString a s' = .ok (g', o')) :
    g = g' ∧ shown o = shown o' := by
  have hl := h.len
  have h3 := h.three
  have h2 := h.set
  have none_ : ∀ {s s' : List Byte}, Two s s' → shown s = shown s' := fun h => by
    rw [shown_head h.fst, shown_head h.snd]
  rw [Capdu.isoGetString] at e e'
  by_cases h0 : a.length = 0
  · rw [if_pos (.inl h0)] at e e'; cases e; cases e'; exact ⟨rfl, none_ h⟩
  rw [if_neg (fun hx => hx.elim h0 h.pos), wr_eq (by omega), bind_ok] at e
  rw [if_neg (fun hx => hx.elim h0 h.pos'), wr_eq (by omega), bind_ok] at e'
  rw [← h2.len] at e'
  split at e
  · rename_i hc; rw [if_pos hc] at e'; cases e; cases e'; exact ⟨rfl, none_ h2⟩
  rename_i hc
  rw [if_neg hc] at e'
  obtain ⟨c0, q0, e⟩ := okBind e
  rw [q0, bind_ok] at e'
  split at e
  · rename_i hc; rw [if_pos hc] at e'; cases e; cases e'; exact ⟨rfl, none_ h2⟩
  rename_i hc
  rw [if_neg hc] at e'
  split at e
  · rename_i hc; rw [if_pos hc] at e'; cases e; cases e'; exact ⟨rfl, none_ h2⟩
  rename_i hc
  rw [if_neg hc] at e'
  obtain ⟨c1, q1, e⟩ := okBind e
  rw [q1, bind_ok] at e'
  split at e
  · rename_i hc; rw [if_pos hc] at e'
    obtain ⟨t, qt, e⟩ := okBind e
    rw [qt, bind_ok] at e'
    exact finish_same h2 t e e'
  rename_i hc
  rw [if_neg hc] at e'
  split at e
  · rename_i hc; rw [if_pos hc] at e'
    obtain ⟨t, qt, e⟩ := okBind e
    rw [qt, bind_ok] at e'
    exact finish_same h2 t e e'
  rename_i hc
  rw [if_neg hc] at e'
  split at e
  · rename_i hc; rw [if_pos hc] at e'
    obtain ⟨t, qt, e⟩ := okBind e
    rw [qt, bind_ok] at e'
    exact finish_same h2 t e e'
  rename_i hc
  rw [if_neg hc] at e'
  cases hi : Capdu.isoIns c1 with
  | none => rw [hi] at e e'; cases e; cases e'; exact ⟨rfl, none_ h2⟩
  | some t =>
    rw [hi] at e e'
    simp only at e e'
    rw [Names.strncpyTerm_held _ _ h2.ne, bind_ok] at e
    rw [Names.strncpyTerm_held _ _ h2.ne', bind_ok] at e'
    cases e; cases e'
    exact ⟨rfl, by rw [h2.len]⟩

theorem same_capdu (a : List Byte) {s s' : List Byte} (h : Two s s') :
    Same (Capdu.emvGetString a s) (Capdu.emvGetString a s') := by
  have hl := h.len
  have h3 := h.three
  have h2 := h.set
  rw [Capdu.emvGetString, Capdu.emvGetString, if_neg h.pos, if_neg h.pos']
  split
  · exact same_same h _
  rw [wr_eq (by omega), wr_eq (by omega), bind_ok, bind_ok, ← h2.len]
  split
  · exact same_same h2 _
  cases rd a 0 with
  | error u => exact same_error_left _ _
  | ok c0 =>
  rw [bind_ok, bind_ok]
  split
  · exact same_same h2 _
  split
  · cases rd a 1 with
    | error u => exact same_error_left _ _
    | ok c1 =>
    rw [bind_ok, bind_ok]
    split
    · cases rd a 2 with
      | error u => exact same_error_left _ _
      | ok p1 =>
      cases rd a 3 with
      | error u => exact same_error_left _ _
      | ok p2 =>
      rw [bind_ok, bind_ok, bind_ok, bind_ok]
      intro c o c' o' e e'
      obtain ⟨x, hx, e⟩ := okBind e
      obtain ⟨x', hx', e'⟩ := okBind e'
      cases e; cases e'
      exact ⟨rfl, snprintf_shown _ h2.len h2.ne hx hx'⟩
    · cases Capdu.emvIns c1 with
      | none => exact same_same h2 _
      | some t =>
        simp only
        rw [Names.strncpyTerm_held _ _ h2.ne, Names.strncpyTerm_held _ _ h2.ne', bind_ok, bind_ok]
        exact same_held h2.len _ _
  · intro c o c' o' e e'
    obtain ⟨⟨g, x⟩, hx, e⟩ := okBind e
    obtain ⟨⟨g', x'⟩, hx', e'⟩ := okBind e'
    obtain ⟨rfl, hs⟩ := same_iso a h2 hx hx'
    simp only at e e'
    cases g with
    | true => cases e; cases e'; exact ⟨rfl, hs⟩
    | false =>
      simp only [Bool.false_eq_true, if_false] at e e'
      obtain ⟨b, hb, e⟩ := okBind e
      obtain ⟨b', hb', e'⟩ := okBind e'
      cases e; cases e'
      refine ⟨rfl, ?_⟩
      have key : ∀ {x y : List Byte}, wr x 0 0 = .ok y → shown y = [] := by
        intro x y hx
        match x, hx with
        | a :: x, hx => rw [wr_eq (by simp)] at hx; cases hx; simp [shown]
      rw [key hb, key hb']

/-! ## All fields -/

theorem same_run (env env' : Env) (he : Sane env) (he' : Sane env')
    (ht : env.mcc = env'.mcc ∧ env.country2 = env'.country2 ∧ env.country3 = env'.country3 ∧
      env.countryNum = env'.countryNum ∧ env.currency = env'.currency ∧ env.language = env'.language)
    (tag : Nat) (hd : Handler) (v : List Byte) {s s' : List Byte} (h : Two s s') :
    Same (hd.run env tag v s) (hd.run env' tag v s') := by
  obtain ⟨e1, e2, e3, e4, e5, e6, e7⟩ := he
  obtain ⟨f1, f2, f3, f4, f5, f6, f7⟩ := he'
  obtain ⟨t1, t2, t3, t4, t5, t6⟩ := ht
  cases hd with
  | none => exact same_same h _
  | value f max => exact same_value tag f max v h
  | aid => exact same_aid v h
  | track2 => exact same_track2 v h
  | amount => exact same_amount v h
  | aip => exact same_describe _ _ _ v h
  | dfName => exact same_dfName v h
  | capdu => exact same_capdu v h
  | arc => exact same_arc v h
  | cvmList => exact same_cvmList _ _ e3 f3 v h
  | auth => exact same_auth _ _ e7 f7 v h
  | afl => exact same_afl v h
  | tvr => exact same_describe _ _ _ v h
  | date => exact same_date v h
  | time => exact same_time v h
  | tsi => exact same_describe _ _ _ v h
  | txnType => exact same_first (fun b => same_codes Names.C80_txn_type b h) v
  | countryNum => simp only [Handler.run, t4]; exact same_number _ v h
  | currency => simp only [Handler.run, t5]; exact same_number _ v h
  | language => simp only [Handler.run, t6]; exact same_pairs (fills_language _) _ _ e6 f6 v h
  | country2 => simp only [Handler.run, t2]; exact same_alpha 2 (by decide) _ v h
  | country3 => simp only [Handler.run, t3]; exact same_alpha 3 (by decide) _ v h
  | account => exact same_first (fun b => same_codes Names.C80_account_type b h) v
  | auc => exact same_describe _ _ _ v h
  | asrpd => exact same_asrpd v h
  | iad => exact same_iad v h
  | mcc => simp only [Handler.run, t1]; exact same_number _ v h
  | trmd => exact same_describe _ _ _ v h
  | cid => exact same_first (fun b => same_describe _ _ _ [b] h) v
  | termCaps => exact same_describe _ _ _ v h
  | cvmResults => exact same_cvmResults _ _ e4 f4 v h
  | termType => exact same_first (fun b => same_termType b h) v
  | posEntry => exact same_first (fun b => same_codes Names.C80_pos_entry_mode b h) v
  | refCurrency => simp only [Handler.run, t5]; exact same_pairs (fills_currency _) _ _ e5 f5 v h
  | addlCaps => exact same_describe _ _ _ v h
  | ctq => exact same_describe _ _ _ v h

theorem same_named {n : List Byte} {f : Fmt} {r r' : C (Int × List Byte)} (h : Same r r') {c c' : Int} {i i' : Info}
    {o o' : List Byte} (e : named n f r = .ok (c, i, o)) (e' : named n f r' = .ok (c', i', o')) :
    c = c' ∧ i = i' ∧ shown o = shown o' := by
  rw [named] at e e'
  obtain ⟨⟨a, b⟩, q, e⟩ := okBind e
  obtain ⟨⟨a', b'⟩, q', e'⟩ := okBind e'
  cases e; cases e'
  obtain ⟨h1, h2⟩ := h _ _ _ _ q q'
  exact ⟨h1, rfl, h2⟩

theorem same_unnamed {s s' : List Byte} (h : Two s s') {c c' : Int} {i i' : Info} {o o' : List Byte}
    (e : unnamed s = .ok (c, i, o)) (e' : unnamed s' = .ok (c', i', o')) : c = c' ∧ i = i' ∧ shown o = shown o' := by
  cases e; cases e'
  exact ⟨rfl, rfl, by rw [shown_head h.fst, shown_head h.snd]⟩

theorem same_tag (env env' : Env) (he : Sane env) (he' : Sane env')
    (ht : env.mcc = env'.mcc ∧ env.country2 = env'.country2 ∧ env.country3 = env'.country3 ∧
      env.countryNum = env'.countryNum ∧ env.currency = env'.currency ∧ env.language = env'.language)
    (tag : Nat) (v : List Byte) {s s' : List Byte} (h : Two s s') {c c' : Int} {i i' : Info} {o o' : List Byte}
    (e : byTag env tag v s = .ok (c, i, o)) (e' : byTag env' tag v s' = .ok (c', i', o')) :
    c = c' ∧ i = i' ∧ shown o = shown o' := by
  rw [byTag] at e e'
  by_cases a1 : tag = 0x9F66
  · rw [if_pos a1] at e e'
    by_cases b : v.length = 4
    · rw [if_pos b] at e e'; exact same_named (same_describe _ _ _ v h) e e'
    · rw [if_neg b] at e e'; exact same_unnamed h e e'
  rw [if_neg a1] at e e'
  by_cases a2 : tag = 0x9F6D
  · rw [if_pos a2] at e e'
    by_cases b : v.length = 1
    · rw [if_pos b] at e e'; exact same_named (same_first (fun b => same_readerCaps b h) v) e e'
    · rw [if_neg b] at e e'; exact same_unnamed h e e'
  rw [if_neg a2] at e e'
  by_cases a3 : tag = 0x9F6E
  · rw [if_pos a3, tag9F6E] at e e'
    by_cases b : v.length > 4 ∧ v.length ≤ 32
    · rw [if_pos b] at e e'
      rw [ht.2.2.2.1] at e
      exact same_named (same_third _ v h) e e'
    rw [if_neg b] at e e'
    by_cases b : v.length = 4
    · rw [if_pos b, fourBytes9F6E] at e e'
      obtain ⟨f, hf, e⟩ := okBind e
      rw [hf, bind_ok] at e'
      cases f with
      | true => exact same_named (same_ffi v h) e e'
      | false =>
        simp only [Bool.false_eq_true, if_false] at e e'
        obtain ⟨f, hf, e⟩ := okBind e
        rw [hf, bind_ok] at e'
        cases f with
        | true => exact same_named (same_describe _ _ _ v h) e e'
        | false => exact same_unnamed h e e'
    · rw [if_neg b] at e e'; exact same_unnamed h e e'
  rw [if_neg a3] at e e'
  cases hf : table.find? (fun e => e.tag == tag) with
  | none => rw [hf] at e e'; exact same_unnamed h e e'
  | some en => rw [hf] at e e'; exact same_named (same_run env env' he he' ht tag _ v h) e e'

end Verif.TlvInfo
