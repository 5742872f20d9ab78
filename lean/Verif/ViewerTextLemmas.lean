import Verif.ViewerLemmas

/-! # Lemmas on the texts of the tree view -/

set_option autoImplicit false

namespace Verif.Viewer
open Verif Ber BerSpec PrintSpec ViewerSpec Print TlvInfo Formats

theorem hexSpaced_eq : ∀ v : List Byte, hexSpaced v = hexText v
  | [] => rfl
  | [b] => by
    simp [hexSpaced, hexText, List.intercalate, Iad.hex02_hexOf' b]
  | b :: c :: rest => by
    have ih := hexSpaced_eq (c :: rest)
    rw [hexSpaced, ih, Iad.hex02_hexOf' b]
    simp [hexText, List.intercalate]

theorem head_takeWhile (str : List Byte) (h : 0 ∈ str) :
    ∃ c, rd str 0 = .ok c ∧ (c = 0 ↔ str.takeWhile (· ≠ 0) = []) := by
  obtain ⟨-, X, hX⟩ := cstr_takeWhile str h
  cases hk : str.takeWhile (· ≠ 0) with
  | nil => rw [hX, hk]; exact ⟨0, rfl, by simp⟩
  | cons b s =>
    rw [hX, hk]
    refine ⟨b, rfl, ?_⟩
    simp only [List.cons_ne_nil, iff_false]
    apply (takeWhile_split str).1
    rw [hk]
    simp

theorem valueStrIsList_eq (str : List Byte) (h : 0 ∈ str) :
    valueStrIsList str = .ok (decide ((str.takeWhile (· ≠ 0)).getLast? = some 0x0A)) := by
  obtain ⟨-, X, hX⟩ := cstr_takeWhile str h
  obtain ⟨c, hc, h0⟩ := head_takeWhile str h
  unfold valueStrIsList
  rw [hc]
  simp only [bind_ok]
  by_cases hz : c = 0
  · rw [if_pos hz, h0.mp hz]
    rfl
  · rw [if_neg hz]
    have hne : str.takeWhile (· ≠ 0) ≠ [] := fun e => hz (h0.mpr e)
    have hpos := List.length_pos_iff.mpr hne
    have : rd str ((str.takeWhile (· ≠ 0)).length - 1) = .ok ((str.takeWhile (· ≠ 0)).getLast hne) := by
      conv => lhs; arg 1; rw [hX]
      rw [rd_append_left (by omega), rd_eq (by omega), List.getLast_eq_getElem]
    rw [this]
    simp only [bind_ok, List.getLast?_eq_some_getLast hne, Option.some.injEq, Except.ok.injEq]
    rfl

theorem decodedText_eq (k : Known) (tag str : List Byte) (ht : IsTag tag) (h : 0 ∈ str)
    (hs : str.takeWhile (· ≠ 0) = k.shown) :
    decodedText (beNat tag) ⟨k.name, k.fmt⟩ str = .ok (namedText k tag) := by
  obtain ⟨c, hc, h0⟩ := head_takeWhile str h
  unfold decodedText namedText titled
  cases hn : k.name with
  | none => simp [hexU_tag tag ht]
  | some n =>
    simp only
    rw [valueStrIsList_eq str h, hc, hs]
    rw [hs] at h0
    simp only [bind_ok, reduceCtorEq, false_or, cText, hs, hexU_tag tag ht]
    by_cases h1 : k.shown = []
    · rw [if_neg (by rintro ⟨-, h⟩; exact h (h0.mpr h1)), if_pos (.inl h1)]
      simp
    · by_cases h2 : k.shown.getLast? = some 0x0A
      · rw [if_neg (by rintro ⟨h, -⟩; simp [h2] at h), if_pos (.inr h2)]
        simp
      · rw [if_pos ⟨by simpa using h2, fun h => h1 (h0.mp h)⟩, if_neg (by
          rintro (h | h)
          · exact h1 h
          · exact h2 h)]
        cases k.fmt <;> simp

theorem dropWhile_split (p : Byte → Bool) (s : List Byte) :
    ∃ a, s = a ++ s.dropWhile p ∧ (∀ c ∈ a, p c) ∧ ∀ c, (s.dropWhile p).head? = some c → ¬ p c := by
  induction s with
  | nil => exact ⟨[], by simp⟩
  | cons b s ih =>
    by_cases hb : p b = true
    · obtain ⟨a, h1, h2, h3⟩ := ih
      rw [List.dropWhile_cons_of_pos hb]
      exact ⟨b :: a, by simpa using h1, by simpa [hb] using h2, h3⟩
    · rw [List.dropWhile_cons_of_neg (by simpa using hb)]
      exact ⟨[], by simp, by simp, by simpa using hb⟩

theorem white_eq (b : Byte) : (b == 0x20 || (0x09 ≤ b && b ≤ 0x0D)) = isWhite b := by
  revert b
  decide +kernel

/-- White space is removed at both ends, and there only. -/
theorem trimmed_spec (s : List Byte) : Trimmed s (trimmed s) := by
  have e : trimmed s = ((s.dropWhile isWhite).reverse.dropWhile isWhite).reverse := by
    unfold trimmed
    simp only [white_eq]
  obtain ⟨a, h1, h2, h3⟩ := dropWhile_split isWhite s
  obtain ⟨b, h4, h5, h6⟩ := dropWhile_split isWhite (s.dropWhile isWhite).reverse
  have h7 : s.dropWhile isWhite = trimmed s ++ b.reverse := by
    rw [e, ← List.reverse_append, ← h4, List.reverse_reverse]
  refine ⟨a, b.reverse, ?_, h2, by simpa using h5, ?_, ?_⟩
  · rw [List.append_assoc, ← h7, ← h1]
  · intro c hc
    apply h3
    rw [h7]
    cases ht : trimmed s with
    | nil => rw [ht] at hc; simp at hc
    | cons x xs => rw [ht] at hc; simpa using hc
  · intro c hc
    apply h6
    rw [e] at hc
    simpa using hc

theorem takeWhile_take (str : List Byte) (h : 0 ∈ str) :
    (str.take (str.length - 1)).takeWhile (· ≠ 0) = str.takeWhile (· ≠ 0) := by
  induction str with
  | nil => rfl
  | cons b s ih =>
    by_cases hb : b = 0
    · subst hb
      cases s <;> simp
    · have h0 : 0 ∈ s := by
        rcases List.mem_cons.mp h with e | h
        · exact absurd e.symm hb
        · exact h
      have hp : 0 < s.length := List.length_pos_of_mem h0
      rw [show (b :: s).length - 1 = (s.length - 1) + 1 by simp; omega, List.take_succ_cons,
        List.takeWhile_cons_of_pos (by simpa using hb), List.takeWhile_cons_of_pos (by simpa using hb),
        ih h0]

theorem dolEntries_eq : ∀ (k fuel : Nat) (v : List Byte), v.length ≤ k → v.length < fuel →
    (∀ r ∈ reqsIn k v, ¬ (r.tag = [0x84] ∧ r.len = 14)) →
    dolEntries fuel v = .ok ((reqsIn k v).map (fun r => titled r.tag (nameFor r.tag r.len.toNat) ++
      txt!" [" ++ Lists.decimal r.len.toNat ++ txt!"]")) := by
  intro k
  induction k with
  | zero =>
    intro fuel v hk hf h
    obtain ⟨f, rfl⟩ : ∃ f, fuel = f + 1 := ⟨fuel - 1, by omega⟩
    obtain rfl : v = [] := by simpa using hk
    rfl
  | succ k ih =>
    intro fuel v hk hf h
    obtain ⟨f, rfl⟩ : ∃ f, fuel = f + 1 := ⟨fuel - 1, by omega⟩
    unfold dolEntries
    by_cases hs : ∃ t l rest, tagOctets v = some (t, l :: rest)
    · obtain ⟨t, l, rest, hs⟩ := hs
      rw [reqsIn, hs] at h ⊢
      rw [dolNext_some hs]
      simp only [bind_ok]
      obtain ⟨h1, h2⟩ := tagOctets_some hs
      have hl := congrArg List.length h2
      have hl1 := isTag_length h1
      simp only [List.length_append, List.length_cons] at hl
      obtain ⟨fm, hfm⟩ := infoNull_eq t l.toNat h1 (by
        have := h ⟨t, l⟩ (by simp)
        rintro ⟨a, b⟩
        exact this ⟨a, UInt8.toNat_inj.mp (by simpa using b)⟩)
      rw [hfm]
      simp only [bind_ok]
      rw [ih f rest (by omega) (by omega) (fun r hr => h r (by simp [hr]))]
      simp only [bind_ok, fieldText]
      rw [tagText_eq t h1, Lists.decU_spec _ (by have := toNat_lt l; omega)]
      simp
    · have hs' : ∀ t l rest, tagOctets v ≠ some (t, l :: rest) :=
        fun t l rest e => hs ⟨t, l, rest, e⟩
      have he : reqsIn (k + 1) v = [] := by
        rw [reqsIn]
        split
        · rename_i t l rest e
          exact absurd e (hs' t l rest)
        · rfl
      obtain ⟨d, hd, hn⟩ := dolNext_none hs'
      rw [he, hd]
      match d, hn with
      | .eod, _ => rfl
      | .err c, _ => rfl
      | .ok n x, hn => exact absurd rfl (hn n x)

theorem tagEntries_eq : ∀ (k fuel : Nat) (v : List Byte), v.length ≤ k → v.length < fuel →
    tagEntries fuel v = .ok ((tagsIn k v).map (fun t => titled t (nameFor t 0))) := by
  intro k
  induction k with
  | zero =>
    intro fuel v hk hf
    obtain ⟨f, rfl⟩ : ∃ f, fuel = f + 1 := ⟨fuel - 1, by omega⟩
    obtain rfl : v = [] := by simpa using hk
    rfl
  | succ k ih =>
    intro fuel v hk hf
    obtain ⟨f, rfl⟩ : ∃ f, fuel = f + 1 := ⟨fuel - 1, by omega⟩
    unfold tagEntries
    rcases tagDecode_octets v with ⟨t, rest, ho, ht, hv, hd⟩ | ⟨ho, d, hd, hn⟩
    · rw [tagsIn, ho, hd]
      simp only [bind_ok]
      obtain ⟨fm, hfm⟩ := infoNull_eq t 0 ht (by simp)
      have hl := congrArg List.length hv
      have hl1 := isTag_length ht
      simp only [List.length_append] at hl
      rw [hfm]
      simp only [bind_ok]
      rw [suffix_eq (by omega)]
      simp only [bind_ok]
      have hdr : v.drop t.length = rest := by rw [hv, List.drop_left]
      rw [hdr, ih f rest (by omega) (by omega)]
      simp only [bind_ok, fieldText]
      rw [tagText_eq t ht]
      simp
    · rw [tagsIn, ho, hd]
      match d, hn with
      | .eod, _ => rfl
      | .err c, _ => rfl
      | .ok n x, hn => exact absurd rfl (hn n x)

end Verif.Viewer
