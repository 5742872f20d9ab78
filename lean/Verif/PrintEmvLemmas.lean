import Verif.PrintEmvSpec
import Verif.PrintProps
import Verif.TlvInfoSafe

/-! # Lemmas on the listing of EMV data -/

set_option autoImplicit false

namespace Verif.Print
open Verif Ber BerSpec Formats PrintSpec TlvInfo

/-! ## Identifier octets -/

theorem moreOctets_some : ∀ (k : Nat) (r t r' : List Byte), moreOctets k r = some (t, r') →
    r = t ++ r' ∧ t.length ≤ k ∧
      ∃ more last, t = more ++ [last] ∧ (∀ m ∈ more, 128 ≤ m.toNat) ∧ last.toNat < 128
  | 0, r, t, r', h => by simp [moreOctets] at h
  | k + 1, [], t, r', h => by simp [moreOctets] at h
  | k + 1, c :: r, t, r', h => by
    unfold moreOctets at h
    split at h
    · rename_i hc
      simp only [Option.some.injEq, Prod.mk.injEq] at h
      obtain ⟨rfl, rfl⟩ := h
      exact ⟨rfl, by simp, [], c, rfl, by simp, hc⟩
    · rename_i hc
      split at h
      · rename_i t1 r1 h1
        simp only [Option.some.injEq, Prod.mk.injEq] at h
        obtain ⟨rfl, rfl⟩ := h
        obtain ⟨rfl, h2, more, last, rfl, h3, h4⟩ := moreOctets_some k r t1 r1 h1
        refine ⟨rfl, by simp at h2 ⊢; omega, c :: more, last, rfl, ?_, h4⟩
        intro m hm
        rcases List.mem_cons.mp hm with rfl | hm
        · omega
        · exact h3 m hm
      · simp at h

theorem moreOctets_enc (more : List Byte) : ∀ (k : Nat) (last : Byte) (rest : List Byte),
    more.length < k → (∀ m ∈ more, 128 ≤ m.toNat) → last.toNat < 128 →
    moreOctets k (more ++ [last] ++ rest) = some (more ++ [last], rest) := by
  induction more with
  | nil =>
    intro k last rest hk _ hl
    obtain ⟨k, rfl⟩ : ∃ j, k = j + 1 := ⟨k - 1, by simp at hk; omega⟩
    simp [moreOctets, hl]
  | cons c more ih =>
    intro k last rest hk hm hl
    obtain ⟨k, rfl⟩ : ∃ j, k = j + 1 := ⟨k - 1, by simp at hk; omega⟩
    have hc := hm c (by simp)
    have := ih k last rest (by simp at hk; omega) (fun m h => hm m (by simp [h])) hl
    simp only [List.append_assoc, List.cons_append] at this ⊢
    unfold moreOctets
    rw [if_neg (by omega), this]

theorem tagOctets_some {v t rest : List Byte} (h : tagOctets v = some (t, rest)) :
    IsTag t ∧ v = t ++ rest := by
  cases v with
  | nil => simp [tagOctets] at h
  | cons b r =>
    rw [tagOctets] at h
    split at h
    · rename_i hb
      simp only [Option.some.injEq, Prod.mk.injEq] at h
      obtain ⟨rfl, rfl⟩ := h
      exact ⟨.inl ⟨hb, rfl⟩, rfl⟩
    · rename_i hb
      split at h
      · rename_i t1 r1 h1
        simp only [Option.some.injEq, Prod.mk.injEq] at h
        obtain ⟨rfl, rfl⟩ := h
        obtain ⟨rfl, h2, h3⟩ := moreOctets_some 3 r t1 r1 h1
        exact ⟨.inr ⟨by omega, h2, h3⟩, rfl⟩
      · simp at h

theorem tagOctets_enc {t : List Byte} (h : IsTag t) (rest : List Byte) :
    tagOctets (t ++ rest) = some (t, rest) := by
  match t, h with
  | b :: r, .inl ⟨hb, hr⟩ =>
    subst hr
    simp [tagOctets, hb]
  | b :: r, .inr ⟨hb, hl, more, last, hr, hm, hlast⟩ =>
    subst hr
    have := moreOctets_enc more 3 last rest (by simp at hl; omega) hm hlast
    unfold tagOctets
    simp only [List.cons_append]
    rw [if_neg (by omega), this]

theorem tagDecode_octets (v : List Byte) :
    (∃ t rest, tagOctets v = some (t, rest) ∧ IsTag t ∧ v = t ++ rest ∧
      tagDecode v = .ok (.ok t.length (beNat t))) ∨
    (tagOctets v = none ∧ ∃ d, tagDecode v = .ok d ∧ ∀ n x, d ≠ .ok n x) := by
  cases h : tagOctets v with
  | some p =>
    obtain ⟨t, rest⟩ := p
    obtain ⟨h1, h2⟩ := tagOctets_some h
    left
    refine ⟨t, rest, rfl, h1, h2, ?_⟩
    rw [h2, tagDecode_enc h1]
  | none =>
    right
    refine ⟨rfl, ?_⟩
    obtain ⟨d, hd, -⟩ := tagDecode_spec v
    refine ⟨d, hd, ?_⟩
    rintro n x rfl
    obtain ⟨t, rest, h1, h2, -, -⟩ := tagDecode_inv v n x hd
    rw [h2, tagOctets_enc h1] at h
    simp at h

/-! ## Names -/

theorem beNat_tag_inj {a b : List Byte} (ha : IsTag a) (hb : IsTag b) (h : beNat a = beNat b) :
    a = b := by
  have h1 := hexU_tag a ha
  rw [h, hexU_tag b hb] at h1
  have := congrArg unhex h1
  rw [unhex_hexOf, unhex_hexOf] at this
  exact this.symm

theorem tag_eq_iff {tag t : List Byte} (ht : IsTag tag) (h : IsTag t) :
    beNat tag = beNat t ↔ tag = t := ⟨beNat_tag_inj ht h, fun e => by rw [e]⟩

theorem isTag_9F (b : Byte) (h : b.toNat < 128) : IsTag [0x9F, b] :=
  .inr ⟨by decide, by simp, [], b, rfl, by simp, h⟩

theorem isTag_one (b : Byte) (h : b.toNat % 32 ≠ 31) : IsTag [b] := .inl ⟨h, rfl⟩

/-- The name of an entry of a list; nothing but tag 84 with 14 bytes reads through the missing
value. -/
theorem infoNull_eq (tag : List Byte) (len : Nat) (ht : IsTag tag)
    (h : ¬ (tag = [0x84] ∧ len = 14)) :
    ∃ f, infoNull (beNat tag) len = .ok ⟨nameFor tag len, f⟩ := by
  have e1 := tag_eq_iff ht (isTag_9F 0x66 (by decide))
  have e2 := tag_eq_iff ht (isTag_9F 0x6D (by decide))
  have e3 := tag_eq_iff ht (isTag_9F 0x6E (by decide))
  have e4 := tag_eq_iff ht (isTag_one 0x84 (by decide))
  have n1 : beNat [0x9F, 0x66] = 0x9F66 := rfl
  have n2 : beNat [0x9F, 0x6D] = 0x9F6D := rfl
  have n3 : beNat [0x9F, 0x6E] = 0x9F6E := rfl
  have n4 : beNat [0x84] = 0x84 := rfl
  rw [n1] at e1; rw [n2] at e2; rw [n3] at e3; rw [n4] at e4
  unfold infoNull nameFor
  by_cases h1 : tag = [0x9F, 0x66]
  · rw [if_pos (e1.mpr h1), if_pos h1]
    split <;> exact ⟨_, rfl⟩
  rw [if_neg (fun x => h1 (e1.mp x)), if_neg h1]
  by_cases h2 : tag = [0x9F, 0x6D]
  · rw [if_pos (e2.mpr h2), if_pos h2]
    split <;> exact ⟨_, rfl⟩
  rw [if_neg (fun x => h2 (e2.mp x)), if_neg h2]
  by_cases h3 : tag = [0x9F, 0x6E]
  · rw [if_pos (e3.mpr h3), if_pos h3]
    split <;> exact ⟨_, rfl⟩
  rw [if_neg (fun x => h3 (e3.mp x)), if_neg h3, if_neg]
  · unfold nameOf
    cases table.find? (fun e => e.tag == beNat tag) with
    | none => exact ⟨_, rfl⟩
    | some e => exact ⟨_, rfl⟩
  · rintro ⟨h4, h5⟩
    refine h ⟨e4.mp h4, ?_⟩
    have p1 : pse.length = 14 := rfl
    have p2 : ppse.length = 14 := rfl
    omega

theorem tagText_eq (tag : List Byte) (ht : IsTag tag) (info : Info) :
    tagText (beNat tag) info = titled tag info.name := by
  unfold tagText titled
  rw [hexU_tag tag ht]
  cases info.name <;> simp

/-! ## Lists of tags -/

theorem dolNext_some {v t rest : List Byte} {l : Byte} (h : tagOctets v = some (t, l :: rest)) :
    Dol.itrNext v = .ok (rest, .ok (t.length + 1) ⟨beNat t, l.toNat⟩) := by
  obtain ⟨h1, h2⟩ := tagOctets_some h
  have := Dol.itrNext_enc ⟨t, l⟩ h1 rest
  rw [h2]
  simpa [Dol.entryOf] using this

theorem dolNext_none {v : List Byte} (h : ∀ t l rest, tagOctets v ≠ some (t, l :: rest)) :
    ∃ d, Dol.itrNext v = .ok (v, d) ∧ ∀ n e, d ≠ .ok n e := by
  unfold Dol.itrNext Dol.decode
  by_cases h0 : v.length = 0
  · rw [if_pos h0]
    exact ⟨.eod, rfl, by simp⟩
  rw [if_neg h0]
  by_cases h1 : v.length < 2
  · rw [if_pos h1]
    exact ⟨.err (-2), rfl, by simp⟩
  rw [if_neg h1]
  rcases tagDecode_octets v with ⟨t, rest, ho, ht, hv, hd⟩ | ⟨ho, d, hd, hn⟩
  · cases rest with
    | nil =>
      rw [hd]
      simp only [bind_ok]
      rw [if_pos (by rw [hv]; simp)]
      exact ⟨.err (-5), rfl, by simp⟩
    | cons l rest => exact absurd ho (h t l rest)
  · rw [hd]
    match d, hn with
    | .eod, _ => exact ⟨.eod, rfl, by simp⟩
    | .err c, _ => exact ⟨.err c, rfl, by simp⟩
    | .ok n x, hn => exact absurd rfl (hn n x)

theorem dolLoop_eq (pfx : List Byte) (depth : Nat) : ∀ (k fuel : Nat) (v : List Byte),
    v.length ≤ k → v.length < fuel → (∀ r ∈ reqsIn k v, ¬ (r.tag = [0x84] ∧ r.len = 14)) →
    dolLoop pfx depth fuel v =
      .ok ((reqsIn k v).map (fun r => indentation pfx depth ++ titled r.tag (nameFor r.tag r.len.toNat) ++
        txt!" [" ++ Lists.decimal r.len.toNat ++ txt!"]" ++ [0x0A])).flatten := by
  intro k
  induction k with
  | zero =>
    intro fuel v hk hf h
    obtain ⟨f, rfl⟩ : ∃ f, fuel = f + 1 := ⟨fuel - 1, by omega⟩
    obtain rfl : v = [] := by simpa using hk
    rfl
  | succ k ih =>
    intro fuel v hk hf h
    obtain ⟨f, rfl⟩ : ∃ f, fuel = f + 1 := ⟨fuel - 1, by omega⟩
    unfold dolLoop
    by_cases hs : ∃ t l rest, tagOctets v = some (t, l :: rest)
    · obtain ⟨t, l, rest, hs⟩ := hs
      rw [reqsIn, hs] at h ⊢
      rw [dolNext_some hs]
      simp only [bind_ok]
      obtain ⟨h1, h2⟩ := tagOctets_some hs
      have hl := congrArg List.length h2
      have hl1 := isTag_length h1
      simp only [List.length_append, List.length_cons] at hl
      obtain ⟨fm, hfm⟩ := infoNull_eq t l.toNat h1 (by
        have := h ⟨t, l⟩ (by simp)
        rintro ⟨a, b⟩
        exact this ⟨a, UInt8.toNat_inj.mp (by simpa using b)⟩)
      rw [hfm]
      simp only [bind_ok]
      rw [ih f rest (by omega) (by omega) (fun r hr => h r (by simp [hr])), tagText_eq t h1, indent_eq,
        Lists.decU_spec _ (by have := toNat_lt l; omega)]
      simp
    · have hs' : ∀ t l rest, tagOctets v ≠ some (t, l :: rest) :=
        fun t l rest e => hs ⟨t, l, rest, e⟩
      have he : reqsIn (k + 1) v = [] := by
        rw [reqsIn]
        split
        · rename_i t l rest e
          exact absurd e (hs' t l rest)
        · rfl
      obtain ⟨d, hd, hn⟩ := dolNext_none hs'
      rw [he, hd]
      match d, hn with
      | .eod, _ => rfl
      | .err c, _ => rfl
      | .ok n x, hn => exact absurd rfl (hn n x)

theorem dol_eq (pfx : List Byte) (depth : Nat) (v : List Byte)
    (h : ∀ r ∈ reqs v, ¬ (r.tag = [0x84] ∧ r.len = 14)) :
    dol pfx depth v = .ok (dolText pfx depth v) := by
  unfold dol dolText
  rw [dolLoop_eq pfx (depth + 1) v.length _ v (Nat.le_refl _) (by omega) h, indent_eq]
  rfl

theorem tagLoop_eq (pfx : List Byte) (depth : Nat) : ∀ (k fuel : Nat) (v : List Byte),
    v.length ≤ k → v.length < fuel →
    tagLoop pfx depth fuel v =
      .ok ((tagsIn k v).map (fun t => indentation pfx depth ++ titled t (nameFor t 0) ++
        [0x0A])).flatten := by
  intro k
  induction k with
  | zero =>
    intro fuel v hk hf
    obtain ⟨f, rfl⟩ : ∃ f, fuel = f + 1 := ⟨fuel - 1, by omega⟩
    obtain rfl : v = [] := by simpa using hk
    rfl
  | succ k ih =>
    intro fuel v hk hf
    obtain ⟨f, rfl⟩ : ∃ f, fuel = f + 1 := ⟨fuel - 1, by omega⟩
    unfold tagLoop
    rcases tagDecode_octets v with ⟨t, rest, ho, ht, hv, hd⟩ | ⟨ho, d, hd, hn⟩
    · rw [tagsIn, ho, hd]
      simp only [bind_ok]
      obtain ⟨fm, hfm⟩ := infoNull_eq t 0 ht (by simp)
      have hl := congrArg List.length hv
      have hl1 := isTag_length ht
      simp only [List.length_append] at hl
      rw [hfm]
      simp only [bind_ok]
      rw [suffix_eq (by omega)]
      simp only [bind_ok]
      have hdr : v.drop t.length = rest := by rw [hv, List.drop_left]
      rw [hdr, ih f rest (by omega) (by omega), tagText_eq t ht, indent_eq]
      simp
    · rw [tagsIn, ho, hd]
      match d, hn with
      | .eod, _ => rfl
      | .err c, _ => rfl
      | .ok n x, hn => exact absurd rfl (hn n x)

theorem tagList_eq (pfx : List Byte) (depth : Nat) (v : List Byte) :
    tagList pfx depth v = .ok (tagListText pfx depth v) := by
  unfold tagList tagListText
  rw [tagLoop_eq pfx (depth + 1) v.length _ v (Nat.le_refl _) (by omega), indent_eq]
  rfl

/-! ## Strings -/

theorem tokens_eq (s : List Byte) : ∀ cur : List Byte, (∀ b ∈ cur, b ≠ 0x0A) →
    tokens s cur = (match pieces s with
      | [] => []
      | l :: ls => ((cur ++ l) :: ls)).filter (· ≠ []) := by
  have hne : ∀ s, pieces s ≠ [] := by
    intro s
    cases s with
    | nil => simp [pieces]
    | cons b s =>
      simp only [pieces, List.foldr_cons]
      split
      · simp
      · split <;> simp
  induction s with
  | nil =>
    intro cur _
    simp [tokens, pieces]
    by_cases hc : cur = [] <;> simp [hc]
  | cons b s ih =>
    intro cur hcur
    obtain ⟨l, ls, hl⟩ : ∃ l ls, pieces s = l :: ls := by
      cases h : pieces s with
      | nil => exact absurd h (hne s)
      | cons l ls => exact ⟨l, ls, rfl⟩
    have hp : pieces (b :: s) = if b = 0x0A then [] :: pieces s else (b :: l) :: ls := by
      show (if b = 0x0A then [] :: pieces s else match pieces s with
        | [] => [[b]]
        | l :: ls => (b :: l) :: ls) = _
      rw [hl]
    rw [tokens, hp]
    by_cases hb : b = 0x0A
    · rw [if_pos hb, if_pos hb]
      have h0 := ih [] (by simp)
      rw [hl] at h0 ⊢
      simp only [List.nil_append, List.append_nil] at h0 ⊢
      rw [h0]
      by_cases hc : cur = []
      · simp [hc]
      · rw [if_neg hc, List.filter_cons_of_pos (a := cur) (by simpa using hc)]
    · rw [if_neg hb, if_neg hb, ih (cur ++ [b]) (by
        intro c hc
        rcases List.mem_append.mp hc with hc | hc
        · exact hcur c hc
        · simp at hc; subst hc; exact hb), hl]
      simp

theorem tokens_pieces (s : List Byte) : tokens s [] = (pieces s).filter (· ≠ []) := by
  rw [tokens_eq s [] (by simp)]
  cases pieces s <;> rfl

theorem cstr_takeWhile (str : List Byte) (h : 0 ∈ str) :
    Capdu.cstr str = .ok (str.takeWhile (· ≠ 0)) ∧
    ∃ X, str = str.takeWhile (· ≠ 0) ++ 0 :: X := by
  have : ∃ X, str = str.takeWhile (· ≠ 0) ++ 0 :: X := by
    induction str with
    | nil => simp at h
    | cons b s ih =>
      by_cases hb : b = 0
      · subst hb
        exact ⟨s, by simp⟩
      · obtain ⟨X, hX⟩ := ih (by
          rcases List.mem_cons.mp h with e | h
          · exact absurd e.symm hb
          · exact h)
        refine ⟨X, ?_⟩
        rw [List.takeWhile_cons_of_pos (by simpa using hb)]
        simp only [List.cons_append, List.cons.injEq, true_and]
        exact hX
  obtain ⟨X, hX⟩ := this
  refine ⟨?_, X, hX⟩
  have := Capdu.cstr_spec (str.takeWhile (· ≠ 0)) X (takeWhile_split str).1
  rwa [← hX] at this

theorem strIsList_eq (str : List Byte) (h : 0 ∈ str) :
    strIsList str = .ok (decide ((str.takeWhile (· ≠ 0)).getLast? = some 0x0A)) := by
  unfold strIsList
  rw [(cstr_takeWhile str h).1]
  simp only [bind_ok]
  cases (str.takeWhile (· ≠ 0)).getLast? with
  | none => rfl
  | some b =>
    simp only [Option.some.injEq, Except.ok.injEq]
    by_cases hb : b = 0x0A <;> simp [hb]

theorem emvNote_eq (pfx : List Byte) (depth : Nat) (k : Known) (v str : List Byte) (h : 0 ∈ str)
    (hs : str.takeWhile (· ≠ 0) = k.shown) (hsub : sublist pfx depth k.fmt v = .ok (below pfx depth k.fmt v)) :
    emvNote pfx depth k.fmt v str = .ok (emvRemark pfx depth k v) := by
  obtain ⟨hc, X, hX⟩ := cstr_takeWhile str h
  have h0 : ∃ c, rd str 0 = .ok c ∧ (c = 0 ↔ k.shown = []) := by
    rw [hs] at hX
    cases hk : k.shown with
    | nil => rw [hX, hk]; exact ⟨0, rfl, by simp⟩
    | cons b s =>
      rw [hX, hk]
      refine ⟨b, rfl, ?_⟩
      simp only [List.cons_ne_nil, iff_false]
      apply (takeWhile_split str).1
      rw [hs, hk]
      simp
  obtain ⟨c, hr, hc0⟩ := h0
  unfold emvNote emvRemark
  rw [hr, strIsList_eq str h, hs]
  simp only [bind_ok]
  by_cases h1 : k.shown = []
  · rw [if_pos (.inl (hc0.mpr h1)), if_pos h1, hsub]
    simp [items, h1]
  · rw [if_neg h1]
    by_cases h2 : k.shown.getLast? = some 0x0A
    · rw [if_pos (.inr (by simpa using h2)), if_pos h2, hsub]
      unfold items strList bullets
      rw [if_pos (by simpa using h2), hc, hs]
      simp only [bind_ok]
      rw [tokens_pieces, indent_eq]
    · rw [if_neg (by
        rintro (h | h)
        · exact h1 (hc0.mp h)
        · exact h2 (by simpa using h)), if_neg h2, hc, hs]
      simp only [bind_ok]
      cases k.fmt <;> simp [quoted]

theorem sublist_eq (pfx : List Byte) (depth : Nat) (f : Fmt) (v : List Byte)
    (h : f = .dol → ∀ r ∈ reqs v, ¬ (r.tag = [0x84] ∧ r.len = 14)) :
    sublist pfx depth f v = .ok (below pfx depth f v) := by
  cases f with
  | dol => exact dol_eq pfx depth v (h rfl)
  | tagList => exact tagList_eq pfx depth v
  | _ => rfl

theorem emvItem_eq (env : Env) (he : Sane env) (loc : Nat → List Byte → List Byte)
    (hl : ∀ t v, (loc t v).length = 2048) (pfx : List Byte) (depth : Nat) (tag v : List Byte)
    (ht : IsTag tag) (hv : v.length < 2 ^ 32) (hd : Defined loc tag v) :
    emvItem env loc pfx depth ⟨beNat tag, topBits tag, v⟩ =
      .ok (emvLine env loc pfx depth tag v, none) := by
  obtain ⟨c, info, out, hg, hlen, h0⟩ := C84_safe_partial env he (beNat tag) v (loc (beNat tag) v) hd.1
  have h0 := h0 (by rw [hl]; decide)
  have hk : known env loc tag v = ⟨info.name, info.fmt, out.takeWhile (· ≠ 0)⟩ := by
    unfold known; rw [hg]
  unfold emvItem emvLine
  simp only
  rw [hg, hk]
  simp only [bind_ok]
  rw [tagText_eq tag ht, Lists.decU_spec _ hv, indent_eq]
  by_cases hc : IsConstructed tag
  · rw [if_pos ((constructed_tlv ht).mpr hc), if_pos hc]
  · rw [if_neg (by rw [constructed_tlv ht]; exact hc), if_neg hc]
    rw [emvNote_eq pfx (depth + 1) ⟨info.name, info.fmt, out.takeWhile (· ≠ 0)⟩ v out h0 rfl]
    · simp only [bind_ok, List.append_assoc, spaced_eq]
    · apply sublist_eq
      intro hf
      apply hd.2
      have := (C83_lists env (beNat tag) v _ c info out hg).1.mp hf
      have e1 := tag_eq_iff ht (isTag_one 0x8C (by decide))
      have e2 := tag_eq_iff ht (isTag_one 0x8D (by decide))
      have e3 := tag_eq_iff ht (isTag_9F 0x38 (by decide))
      have e4 := tag_eq_iff ht (isTag_9F 0x49 (by decide))
      have n1 : beNat [0x8C] = 0x8C := rfl
      have n2 : beNat [0x8D] = 0x8D := rfl
      have n3 : beNat [0x9F, 0x38] = 0x9F38 := rfl
      have n4 : beNat [0x9F, 0x49] = 0x9F49 := rfl
      rw [n1] at e1; rw [n2] at e2; rw [n3] at e3; rw [n4] at e4
      simp only [List.mem_cons, List.not_mem_nil, or_false] at this ⊢
      rwa [e1, e2, e3, e4] at this

end Verif.Print
