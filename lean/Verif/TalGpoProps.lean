import Verif.TalReadLemmas
import Verif.AppProps

/-! # Properties of GET PROCESSING OPTIONS: C31 -/

set_option autoImplicit false

namespace Verif.Tal
open Verif Ber BerSpec TlvParse App

/-! ## Specification -/

/-- `data` starts with one object with this tag octet and these contents (definite form, or
indefinite form ended by a zero octet). -/
def StartsWith (tag : Byte) (data contents : List Byte) : Prop :=
  (∃ len rest, LenOctets contents.length len ∧ data = [tag] ++ len ++ contents ++ rest) ∨
  (∃ rest, data = [tag] ++ [0x80] ++ contents ++ 0 :: rest)

/-- The response carries these fields.  Format 1 (tag 80): two bytes of AIP and one or more
4-byte AFL entries.  Format 2 (tag 77): complete objects. -/
def Carries (data : List Byte) (fields : List Tlv) : Prop :=
  (∃ aip afl len rest, LenOctets (aip ++ afl).length len ∧ data = [0x80] ++ len ++ (aip ++ afl) ++ rest ∧
    aip.length = 2 ∧ afl.length % 4 = 0 ∧
    4 ≤ afl.length ∧ fields = [⟨0x82, 0, aip⟩, ⟨0x94, 0, afl⟩]) ∨
  (∃ f : XForest, f.WF ∧ StartsWith 0x77 data f.enc ∧ fields = f.leaves)

/-- A response in definite form that obeys the formats (possibly without AIP or AFL). -/
def ProperGpo (data : List Byte) : Prop :=
  (∃ aip afl len rest, LenOctets (aip ++ afl).length len ∧ data = [0x80] ++ len ++ (aip ++ afl) ++ rest ∧
    aip.length = 2 ∧ afl.length % 4 = 0 ∧ 4 ≤ afl.length) ∨
  (∃ (g : Forest) (len rest : List Byte), g.WF ∧ LenOctets g.enc.length len ∧
    data = [0x77] ++ len ++ g.enc ++ rest)

/-- Why GET PROCESSING OPTIONS fails with this code at this answer. -/
def GpoFailing (alloc : List Tlv → Tlv → Bool) (w : W) (code : Int) : Prop :=
  (code = -3 ∧ w.code ≠ 0) ∨
  (code = 13 ∧ w.code = 0 ∧ w.sw = 0x6985) ∨
  (code = -5 ∧ w.code = 0 ∧ w.sw ≠ 0x9000 ∧ w.sw ≠ 0x6985) ∨
  (code = -6 ∧ w.code = 0 ∧ w.sw = 0x9000 ∧ ¬ ProperGpo w.data) ∨
  (code = -7 ∧ w.code = 0 ∧ w.sw = 0x9000 ∧
    ((w.data.head? ≠ some 0x77 ∧ w.data.head? ≠ some 0x80) ∨
     ∃ fields, Carries w.data fields ∧ (field 0x82 fields = none ∨ field 0x94 fields = none))) ∨
  (code = -1 ∧ ∃ l t, alloc l t = false)

/-! ## Lemmas -/

theorem foldl_ge (l : List Byte) : ∀ a : Nat, a ≤ l.foldl (fun a b => a * 256 + b.toNat) a := by
  induction l with
  | nil => intro a; exact Nat.le_refl a
  | cons x l ih => intro a; rw [List.foldl_cons]; have := ih (a * 256 + x.toNat); omega

theorem isTag_single {tag : List Byte} (ht : IsTag tag) (b : Byte) (h : beNat tag = b.toNat) :
    tag = [b] := by
  have hb := toNat_lt b
  match tag, ht with
  | c :: rest, ht =>
    rcases ht with ⟨-, rfl⟩ | ⟨h31, -, more, last, rfl, -, -⟩
    · simp only [beNat, List.foldl] at h
      rw [UInt8.toNat_inj.mp (by omega : c.toNat = b.toNat)]
    · exfalso
      rw [← List.cons_append, beNat_snoc'] at h
      have : c.toNat ≤ beNat (c :: more) := by
        unfold beNat
        rw [List.foldl_cons]
        have := foldl_ge more (0 * 256 + c.toNat)
        omega
      omega

/-- The first object of a response determines it. -/
theorem decode_startsWith {data : List Byte} {n : Nat} {t : Tlv} {b : Byte}
    (h : decode data = .ok (.ok n t)) (ht : t.tag = b.toNat) : StartsWith b data t.value := by
  obtain ⟨tag, rest, h1, h2, -, h3⟩ := decode_inv h
  have := isTag_single h1 b (by rw [← h2, ht])
  subst this
  rcases h3 with ⟨len, a, b, -⟩ | ⟨-, a, b, -⟩
  · exact Or.inl ⟨len, rest, a, b⟩
  · cases rest with
    | nil => simp at b
    | cons x rest =>
      simp at b
      subst b
      exact Or.inr ⟨rest, a⟩

theorem decode_prim {data : List Byte} {n : Nat} {t : Tlv} {b : Byte}
    (h : decode data = .ok (.ok n t)) (ht : t.tag = b.toNat) (hc : ¬ IsConstructed [b]) :
    ∃ len rest, LenOctets t.value.length len ∧ data = [b] ++ len ++ t.value ++ rest := by
  obtain ⟨tag, rest, h1, h2, -, h3⟩ := decode_inv h
  have := isTag_single h1 b (by rw [← h2, ht])
  subst this
  rcases h3 with ⟨len, a, b, -⟩ | ⟨h, -⟩
  · exact ⟨len, rest, a, b⟩
  · exact absurd h hc

theorem decode_head {data : List Byte} {n : Nat} {t : Tlv} {b : Byte}
    (h : decode data = .ok (.ok n t)) (hs : b.toNat % 32 ≠ 31) (hd : data.head? = some b) :
    t.tag = b.toNat := by
  obtain ⟨tag, rest, h1, h2, -, h3⟩ := decode_inv h
  match tag, h1 with
  | c :: r, h1 =>
    have hc : c = b := by
      rcases h3 with ⟨len, -, e, -⟩ | ⟨-, e, -⟩ <;> (rw [e] at hd; simpa using hd)
    subst hc
    rcases h1 with ⟨-, rfl⟩ | ⟨h31, -⟩
    · rw [h2]; simp [beNat]
    · exact absurd h31 hs

def FieldsPost (alloc : List Tlv → Tlv → Bool) (data : List Byte) : Except Int (List Tlv) → Prop
  | .ok l => Carries data l ∨ (l = [] ∧ data.head? ≠ some 0x77 ∧ data.head? ≠ some 0x80)
  | .error c => (c = -6 ∧ ¬ ProperGpo data) ∨ (c = -1 ∧ ∃ l t, alloc l t = false)

theorem proper_decode {data : List Byte} (h : ProperGpo data) :
    ∃ n t, decode data = .ok (.ok n t) ∧
      ((t.tag = 0x80 ∧ ¬ (t.value.length < 6 ∨ (t.value.length - 2) % 4 ≠ 0)) ∨
       (t.tag = 0x77 ∧ ∃ g : Forest, g.WF ∧ t.value = g.enc)) := by
  rcases h with ⟨aip, afl, len, rest, h1, rfl, h3, h4, h5⟩ | ⟨g, len, rest, h1, h2, rfl⟩
  · exact ⟨_, _, decode_enc (t := [0x80]) (Or.inl ⟨by decide, rfl⟩) h1 rest, Or.inl ⟨by simp [beNat], by simp; omega⟩⟩
  · exact ⟨_, _, decode_enc (t := [0x77]) (Or.inl ⟨by decide, rfl⟩) h2 rest, Or.inr ⟨by simp [beNat], g, h1, rfl⟩⟩

theorem gpoFields_spec (alloc : List Tlv → Tlv → Bool) (data : List Byte) :
    ∃ r, gpoFields alloc data = .ok r ∧ FieldsPost alloc data r := by
  unfold gpoFields
  obtain ⟨d, hd, -⟩ := decode_spec data
  rw [hd]
  simp only [bind_ok]
  match d, hd with
  | .eod, hd =>
    refine ⟨_, rfl, Or.inl ⟨rfl, fun hp => ?_⟩⟩
    obtain ⟨n, t, h1, -⟩ := proper_decode hp
    rw [hd] at h1; cases h1
  | .err c, hd =>
    refine ⟨_, rfl, Or.inl ⟨rfl, fun hp => ?_⟩⟩
    obtain ⟨n, t, h1, -⟩ := proper_decode hp
    rw [hd] at h1; cases h1
  | .ok n t, hd =>
    simp only
    by_cases h80 : t.tag = 0x80
    · rw [if_pos h80]
      by_cases hl : t.value.length < 6 ∨ (t.value.length - 2) % 4 ≠ 0
      · rw [if_pos hl]
        refine ⟨_, rfl, Or.inl ⟨rfl, fun hp => ?_⟩⟩
        obtain ⟨n', t', h1, h2⟩ := proper_decode hp
        rw [hd] at h1; cases h1
        rcases h2 with ⟨-, h2⟩ | ⟨h2, -⟩
        · exact h2 hl
        · rw [h80] at h2; exact absurd h2 (by decide)
      · rw [if_neg hl, slice_eq (by omega), slice_eq (by omega)]
        simp only [bind_ok]
        by_cases ha : (!alloc [] ⟨0x82, 0, (t.value.drop 0).take 2⟩) = true
        · rw [if_pos ha]
          exact ⟨_, rfl, Or.inr ⟨rfl, _, _, by simpa using ha⟩⟩
        · rw [if_neg ha]
          by_cases hb : (!alloc [⟨0x82, 0, (t.value.drop 0).take 2⟩]
              ⟨0x94, 0, (t.value.drop 2).take (t.value.length - 2)⟩) = true
          · rw [if_pos hb]
            exact ⟨_, rfl, Or.inr ⟨rfl, _, _, by simpa using hb⟩⟩
          · rw [if_neg hb]
            refine ⟨_, rfl, Or.inl (Or.inl ?_)⟩
            obtain ⟨len, rest, hlen, hdat⟩ := decode_prim hd (b := 0x80) h80 (by decide)
            have e : t.value = t.value.take 2 ++ (t.value.drop 2).take (t.value.length - 2) := by
              have : (t.value.drop 2).take (t.value.length - 2) = t.value.drop 2 := by
                apply List.take_of_length_le; simp
              rw [this, List.take_append_drop]
            refine ⟨t.value.take 2, (t.value.drop 2).take (t.value.length - 2), len, rest, ?_, ?_, ?_, ?_, ?_, ?_⟩
            · rw [← e]; exact hlen
            · rw [← e]; exact hdat
            · simp; omega
            · simp; omega
            · simp; omega
            · simp
    · rw [if_neg h80]
      by_cases h77 : t.tag = 0x77
      · rw [if_pos h77]
        obtain ⟨r, new, hp, hr, -⟩ := parseF_spec alloc _ t.value [] (Nat.lt_succ_self _)
        have hp' : parse alloc t.value [] = .ok (r, [] ++ new) := hp
        rw [hp']
        simp only [bind_ok]
        rcases hr with rfl | rfl | ⟨rfl, t', -, ha⟩
        · rw [if_neg (by decide), if_neg (by decide)]
          refine ⟨_, rfl, Or.inl (Or.inr ?_)⟩
          obtain ⟨f, f1, f2, f3⟩ := C62_parse_accepts alloc _ _ _ hp'
          refine ⟨f, f1, ?_, ?_⟩
          · rw [← f2]; exact decode_startsWith hd (b := 0x77) h77
          · simpa using f3
        · rw [if_neg (by decide), if_pos (by decide)]
          refine ⟨_, rfl, Or.inl ⟨rfl, fun hpr => ?_⟩⟩
          obtain ⟨n', t', h1, h2⟩ := proper_decode hpr
          rw [hd] at h1; cases h1
          rcases h2 with ⟨h2, -⟩ | ⟨-, g, g1, g2⟩
          · rw [h77] at h2; exact absurd h2 (by decide)
          · have e1 := parseF_alloc alloc _ _ _ _ _ hp (by decide)
            have e2 := C05_parse_leaves g g1 []
            rw [← g2] at e2
            unfold parse at e2
            rw [e1] at e2
            simp at e2
        · rw [if_pos (by decide)]
          exact ⟨_, rfl, Or.inr ⟨rfl, _, _, ha⟩⟩
      · rw [if_neg h77]
        refine ⟨_, rfl, Or.inr ⟨rfl, ?_, ?_⟩⟩
        · intro h; exact h77 (decode_head hd (by decide) h)
        · intro h; exact h80 (decode_head hd (by decide) h)

/-- The first field with this tag. -/
theorem find_some {l : List Tlv} {tag : Nat} {t : Tlv} (h : find l tag = some t) :
    t ∈ l ∧ t.tag = tag ∧ field tag l = some t.value := by
  refine ⟨List.mem_of_find?_eq_some h, ?_, ?_⟩
  · simpa using List.find?_some h
  · rw [← find_field, h]; rfl

theorem find_none {l : List Tlv} {tag : Nat} (h : find l tag = none) : field tag l = none := by
  rw [← find_field, h]; rfl

/-! ## Properties -/

/-- How GET PROCESSING OPTIONS ends. -/
def GpoPost (alloc : List Tlv → Tlv → Bool) (data : Option (List Byte)) (list : List Tlv)
    (script : List W) : Run Gpo → Prop
  | (tr, .pending c) => tr = [] ∧ c = .gpo data ∧ script = []
  | (tr, .done g rest) =>
    (tr = [] ∧ rest = script ∧ g.list = list ∧ g.aip = .null ∧ g.afl = .null ∧
      (g.code = -2 ∨ g.code = -3) ∧
      ∃ d, data = some d ∧ (d.length < 2 ∨ d.length > 255 ∨ d.head? ≠ some 0x83)) ∨
    ∃ w, tr = [(.gpo data, w)] ∧ script = w :: rest ∧
      ((g.code = 0 ∧ w.code = 0 ∧ w.sw = 0x9000 ∧ ∃ fields a f, Carries w.data fields ∧
          g.list = list ++ fields ∧ g.aip = .field a ∧ g.afl = .field f ∧
          a ∈ fields ∧ f ∈ fields ∧ a.tag = 0x82 ∧ f.tag = 0x94 ∧
          field 0x82 fields = some a.value ∧ field 0x94 fields = some f.value) ∨
       (GpoFailing alloc w g.code ∧ g.list = list ∧ g.afl = .null ∧
          (g.aip = .null ∨ g.aip = .dangling ∧ g.code = -7 ∧
            ∃ fields, Carries w.data fields ∧ field 0x82 fields ≠ none ∧ field 0x94 fields = none)))

theorem gpo_spec (alloc : List Tlv → Tlv → Bool) (data : Option (List Byte)) (list : List Tlv)
    (script : List W) :
    ∃ r, gpo alloc data list script = .ok r ∧ GpoPost alloc data list script r := by
  unfold gpo
  by_cases h1 : badGpo data = true
  · rw [if_pos h1]
    refine ⟨_, rfl, Or.inl ⟨rfl, rfl, rfl, rfl, rfl, Or.inl rfl, ?_⟩⟩
    cases data with
    | none => simp [badGpo] at h1
    | some d =>
      simp [badGpo] at h1
      refine ⟨d, rfl, ?_⟩
      rcases h1 with h | h
      · exact Or.inl h
      · exact Or.inr (Or.inl h)
  · rw [if_neg h1]
    unfold send
    by_cases h2 : refusesGpo data = true
    · rw [if_pos h2]
      simp only
      rw [if_pos (by decide)]
      refine ⟨_, rfl, Or.inl ⟨rfl, rfl, rfl, rfl, rfl, Or.inr rfl, ?_⟩⟩
      cases data with
      | none => simp [refusesGpo] at h2
      | some d =>
        simp [badGpo] at h1
        simp [refusesGpo] at h2
        refine ⟨d, rfl, ?_⟩
        rcases h2 with (h | h) | h
        · omega
        · omega
        · exact Or.inr (Or.inr h)
    · rw [if_neg h2]
      cases script with
      | nil => exact ⟨_, rfl, rfl, rfl, rfl⟩
      | cons w rest =>
        simp only
        by_cases h3 : w.code ≠ 0
        · rw [if_pos h3]
          exact ⟨_, rfl, Or.inr ⟨w, rfl, rfl, Or.inr ⟨Or.inl ⟨rfl, h3⟩, rfl, rfl, Or.inl rfl⟩⟩⟩
        · rw [if_neg h3]
          have h3 : w.code = 0 := by simpa using h3
          by_cases h4 : w.sw ≠ 0x9000
          · rw [if_pos h4]
            refine ⟨_, rfl, Or.inr ⟨w, rfl, rfl, Or.inr ⟨?_, rfl, rfl, Or.inl rfl⟩⟩⟩
            by_cases h5 : w.sw = 0x6985
            · exact Or.inr (Or.inl ⟨by simp [h5], h3, h5⟩)
            · exact Or.inr (Or.inr (Or.inl ⟨by simp [h5], h3, h4, h5⟩))
          · rw [if_neg h4]
            have h4 : w.sw = 0x9000 := by simpa using h4
            obtain ⟨r, hr, hp⟩ := gpoFields_spec alloc w.data
            rw [hr]
            simp only [bind_ok]
            match r, hp with
            | .error c, hp =>
              refine ⟨_, rfl, Or.inr ⟨w, rfl, rfl, Or.inr ⟨?_, rfl, rfl, Or.inl rfl⟩⟩⟩
              rcases hp with ⟨h, h'⟩ | ⟨h, h'⟩
              · exact Or.inr (Or.inr (Or.inr (Or.inl ⟨h, h3, h4, h'⟩)))
              · exact Or.inr (Or.inr (Or.inr (Or.inr (Or.inr ⟨h, h'⟩))))
            | .ok l, hp =>
              simp only
              have hmiss : field 0x82 l = none ∨ field 0x94 l = none → GpoFailing alloc w (-7) := by
                intro hm
                refine Or.inr (Or.inr (Or.inr (Or.inr (Or.inl ⟨rfl, h3, h4, ?_⟩))))
                rcases hp with hp | ⟨-, hp⟩
                · exact Or.inr ⟨l, hp, hm⟩
                · exact Or.inl hp
              cases ha : find l 0x82 with
              | none =>
                exact ⟨_, rfl, Or.inr ⟨w, rfl, rfl, Or.inr ⟨hmiss (Or.inl (find_none ha)), rfl, rfl, Or.inl rfl⟩⟩⟩
              | some a =>
                simp only
                have hcar : Carries w.data l := by
                  rcases hp with hp | ⟨rfl, -⟩
                  · exact hp
                  · simp [find] at ha
                obtain ⟨a1, a2, a3⟩ := find_some ha
                cases hf : find l 0x94 with
                | none =>
                  refine ⟨_, rfl, Or.inr ⟨w, rfl, rfl, Or.inr ⟨hmiss (Or.inr (find_none hf)), rfl, rfl, Or.inr ⟨rfl, rfl, l, hcar, ?_, find_none hf⟩⟩⟩⟩
                  rw [a3]; simp
                | some f =>
                  obtain ⟨f1, f2, f3⟩ := find_some hf
                  exact ⟨_, rfl, Or.inr ⟨w, rfl, rfl, Or.inl ⟨rfl, h3, h4, l, a, f, hcar, rfl, rfl, rfl, a1, f1, a2, f2, a3, f3⟩⟩⟩

/-- **C31** (success).  GET PROCESSING OPTIONS never runs into undefined behaviour; when it
succeeds, exactly one command was sent and answered 9000 with a response in one of the two
formats; the fields it carries were appended to the list; and the AIP and AFL reported are the
first fields 82 and 94 among them. -/
theorem C31_success (alloc : List Tlv → Tlv → Bool) (data : Option (List Byte)) (list : List Tlv)
    (script : List W) : C.Safe (gpo alloc data list script) ∧
    ∀ tr g rest, gpo alloc data list script = .ok (tr, .done g rest) → g.code = 0 →
    ∃ w fields a f, tr = [(.gpo data, w)] ∧ script = w :: rest ∧ w.code = 0 ∧ w.sw = 0x9000 ∧
      Carries w.data fields ∧ g.list = list ++ fields ∧ g.aip = .field a ∧ g.afl = .field f ∧
      a ∈ fields ∧ f ∈ fields ∧ a.tag = 0x82 ∧ f.tag = 0x94 ∧
      field 0x82 fields = some a.value ∧ field 0x94 fields = some f.value := by
  obtain ⟨r, hr, hp⟩ := gpo_spec alloc data list script
  refine ⟨⟨r, hr⟩, ?_⟩
  intro tr g rest h h0
  rw [hr] at h
  cases h
  rcases hp with ⟨-, -, -, -, -, hc, -⟩ | ⟨w, h1, h2, ⟨-, h3, h4, fields, a, f, h5⟩ | ⟨hf, -⟩⟩
  · omega
  · exact ⟨w, fields, a, f, h1, h2, h3, h4, h5⟩
  · rw [h0] at hf
    simp [GpoFailing] at hf

theorem gpo_format2 (data : Option (List Byte)) (hdata : refusesGpo data = false)
    (list : List Tlv) (rest : List W) (aip afl : List Byte)
    (g : Forest) (hg : g.WF) (len2 junk2 : List Byte) (hl2 : LenOctets g.enc.length len2)
    (ha : field 0x82 g.leaves = some aip) (hf : field 0x94 g.leaves = some afl) :
    gpo allocOk data list (⟨0, [0x77] ++ len2 ++ g.enc ++ junk2, 0x9000⟩ :: rest) =
      .ok ([(.gpo data, ⟨0, [0x77] ++ len2 ++ g.enc ++ junk2, 0x9000⟩)],
        .done ⟨0, list ++ g.leaves, .field ⟨0x82, 0, aip⟩, .field ⟨0x94, 0, afl⟩⟩ rest) := by
  have hpar : ¬ badGpo data = true := by
    cases data with
    | none => simp [badGpo]
    | some d => simp [refusesGpo] at hdata; simp [badGpo]; omega
  have leaf0 : ∀ f : Forest, ∀ t ∈ f.leaves, t.flags = 0 := by
    intro f
    induction f with
    | nil => simp [Forest.leaves]
    | leaf o r ih =>
      intro t ht
      rcases List.mem_cons.mp ht with rfl | ht
      · rfl
      · exact ih t ht
    | node tag len c r ihc ihr =>
      intro t ht
      rcases List.mem_append.mp ht with ht | ht
      · exact ihc t ht
      · exact ihr t ht
  have hfind : ∀ tag v, field tag g.leaves = some v → find g.leaves tag = some ⟨tag, 0, v⟩ := by
    intro tag v hv
    cases hx : find g.leaves tag with
    | none => rw [find_none hx] at hv; cases hv
    | some t =>
      obtain ⟨m, e1, e2⟩ := find_some hx
      rw [hv] at e2
      have e3 := leaf0 g t m
      obtain ⟨t1, t2, t3⟩ := t
      simp at e1 e2 e3
      rw [e1, e2, e3]
  unfold gpo
  rw [if_neg hpar]
  unfold send
  rw [hdata]
  simp only [Bool.false_eq_true, if_false]
  rw [if_neg (by simp), if_neg (by simp)]
  unfold gpoFields
  rw [decode_enc (t := [0x77]) (Or.inl ⟨by decide, rfl⟩) hl2 junk2]
  simp only [bind_ok]
  rw [if_neg (by decide), if_pos (by decide), C05_parse_leaves g hg []]
  simp only [bind_ok, List.nil_append]
  rw [if_neg (by decide), if_neg (by decide)]
  simp only [bind_ok]
  rw [hfind _ _ ha, hfind _ _ hf]
  rfl

/-- **C31** (format independence).  A format 1 response and any format 2 response whose first
fields 82 and 94 have the same values both succeed and report the same AIP and AFL. -/
theorem C31_format_independent (data : Option (List Byte)) (hdata : refusesGpo data = false)
    (list : List Tlv) (rest : List W)
    (aip afl len1 junk1 : List Byte) (h1 : aip.length = 2) (h2 : afl.length % 4 = 0) (h3 : 4 ≤ afl.length)
    (hl1 : LenOctets (aip ++ afl).length len1)
    (g : Forest) (hg : g.WF) (len2 junk2 : List Byte) (hl2 : LenOctets g.enc.length len2)
    (ha : field 0x82 g.leaves = some aip) (hf : field 0x94 g.leaves = some afl) :
    gpo allocOk data list (⟨0, [0x80] ++ len1 ++ (aip ++ afl) ++ junk1, 0x9000⟩ :: rest) =
      .ok ([(.gpo data, ⟨0, [0x80] ++ len1 ++ (aip ++ afl) ++ junk1, 0x9000⟩)],
        .done ⟨0, list ++ [⟨0x82, 0, aip⟩, ⟨0x94, 0, afl⟩], .field ⟨0x82, 0, aip⟩, .field ⟨0x94, 0, afl⟩⟩ rest) ∧
    gpo allocOk data list (⟨0, [0x77] ++ len2 ++ g.enc ++ junk2, 0x9000⟩ :: rest) =
      .ok ([(.gpo data, ⟨0, [0x77] ++ len2 ++ g.enc ++ junk2, 0x9000⟩)],
        .done ⟨0, list ++ g.leaves, .field ⟨0x82, 0, aip⟩, .field ⟨0x94, 0, afl⟩⟩ rest) := by
  have hpar : ¬ badGpo data = true := by
    cases data with
    | none => simp [badGpo]
    | some d => simp [refusesGpo] at hdata; simp [badGpo]; omega
  constructor
  · unfold gpo
    rw [if_neg hpar]
    unfold send
    rw [hdata]
    simp only [Bool.false_eq_true, if_false]
    rw [if_neg (by simp), if_neg (by simp)]
    unfold gpoFields
    rw [decode_enc (t := [0x80]) (Or.inl ⟨by decide, rfl⟩) hl1 junk1]
    simp only [bind_ok]
    rw [if_pos (by decide), if_neg (by simp; omega), slice_eq (by simp; omega), slice_eq (by simp; omega)]
    have e1 : ((aip ++ afl).drop 0).take 2 = aip := by rw [List.drop_zero, ← h1, List.take_left]
    have e2 : ((aip ++ afl).drop 2).take ((aip ++ afl).length - 2) = afl := by
      rw [← h1, List.drop_left, List.length_append, Nat.add_sub_cancel_left, List.take_length]
    rw [e1, e2]
    rfl
  · exact gpo_format2 data hdata list rest aip afl g hg len2 junk2 hl2 ha hf

/-- **C31** (failure), partial.  When it fails the code says why, the list is unchanged and no
AFL is reported; no AIP is reported either, unless the response carries an AIP but no AFL.
Missing: that case, for which the claim is false (`C31_dangling_aip`). -/
theorem C31_failure_partial (alloc : List Tlv → Tlv → Bool) (data : Option (List Byte))
    (list : List Tlv) (script : List W) (tr : List (Cmd × W)) (g : Gpo) (rest : List W)
    (h : gpo alloc data list script = .ok (tr, .done g rest)) (hc : g.code ≠ 0) :
    g.list = list ∧ g.afl = .null ∧
    (g.aip = .null ∨ g.code = -7 ∧ ∃ w fields, tr = [(.gpo data, w)] ∧ Carries w.data fields ∧
      field 0x82 fields ≠ none ∧ field 0x94 fields = none) ∧
    ((tr = [] ∧ (g.code = -2 ∨ g.code = -3) ∧
      ∃ d, data = some d ∧ (d.length < 2 ∨ d.length > 255 ∨ d.head? ≠ some 0x83)) ∨
     ∃ w, tr = [(.gpo data, w)] ∧ GpoFailing alloc w g.code) := by
  obtain ⟨r, hr, hp⟩ := gpo_spec alloc data list script
  rw [hr] at h
  cases h
  rcases hp with ⟨h1, -, h2, h3, h4, h5, h6⟩ | ⟨w, h1, h2, ⟨h3, -⟩ | ⟨h3, h4, h5, h6⟩⟩
  · exact ⟨h2, h4, Or.inl h3, Or.inl ⟨h1, h5, h6⟩⟩
  · exact absurd h3 hc
  · refine ⟨h4, h5, ?_, Or.inr ⟨w, h1, h3⟩⟩
    rcases h6 with h6 | ⟨-, h7, fields, h8, h9⟩
    · exact Or.inl h6
    · exact Or.inr ⟨h7, w, fields, h1, h8, h9⟩

/-- **C31**, false for a response with an AIP and no AFL: the call fails with -7 but the AIP
output is set, to a field that has been freed. -/
theorem C31_dangling_aip : gpo allocOk none [] [⟨0, [0x77, 0x04, 0x82, 0x02, 0x39, 0x00], 0x9000⟩] =
    .ok ([(.gpo none, ⟨0, [0x77, 0x04, 0x82, 0x02, 0x39, 0x00], 0x9000⟩)],
      .done ⟨-7, [], .dangling, .null⟩ []) := by decide +kernel

/-- Same AIP and AFL in both formats, with an extra field in format 2. -/
example : gpo allocOk none [] [⟨0, [0x80, 0x06, 0x39, 0x00, 0x08, 1, 1, 0], 0x9000⟩] =
    .ok ([(.gpo none, ⟨0, [0x80, 0x06, 0x39, 0x00, 0x08, 1, 1, 0], 0x9000⟩)],
      .done ⟨0, [⟨0x82, 0, [0x39, 0x00]⟩, ⟨0x94, 0, [0x08, 1, 1, 0]⟩], .field ⟨0x82, 0, [0x39, 0x00]⟩,
        .field ⟨0x94, 0, [0x08, 1, 1, 0]⟩⟩ []) := by decide +kernel
example : (gpo allocOk none [] [⟨0, [0x77, 0x0D, 0x94, 0x04, 0x08, 1, 1, 0, 0x5A, 0x01, 0x12,
      0x82, 0x02, 0x39, 0x00], 0x9000⟩]).toOption.map (·.2) =
    some (.done ⟨0, [⟨0x94, 0, [0x08, 1, 1, 0]⟩, ⟨0x5A, 0, [0x12]⟩, ⟨0x82, 0, [0x39, 0x00]⟩],
      .field ⟨0x82, 0, [0x39, 0x00]⟩, .field ⟨0x94, 0, [0x08, 1, 1, 0]⟩⟩ []) := by decide +kernel

end Verif.Tal
