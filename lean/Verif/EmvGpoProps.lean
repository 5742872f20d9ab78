import Verif.Emv
import Verif.DolProps
import Verif.TalGpoProps

/-!
# Properties of the GET PROCESSING OPTIONS data (C17)
-/

set_option autoImplicit false

namespace Verif.Emv
open Verif Ber TlvParse App Tal Dol

/-- The data a PDOL calls for: template 83 with the BER length of the PDOL data, then the PDOL
data. -/
def template83 (data : List Byte) : List Byte :=
  [0x83] ++ (if data.length < 128 then [UInt8.ofNat data.length]
    else [0x81, UInt8.ofNat data.length]) ++ data

theorem template83_length {data : List Byte} (h : data.length ≤ 252) :
    2 ≤ (template83 data).length ∧ (template83 data).length ≤ 255 := by
  unfold template83
  split <;> simp <;> omega

theorem template83_accepted {data : List Byte} (h : data.length ≤ 252) :
    badGpo (some (template83 data)) = false ∧ refusesGpo (some (template83 data)) = false := by
  have hl := template83_length h
  have hh : (template83 data).head? = some 0x83 := by simp [template83]
  constructor
  · simp only [badGpo, Bool.or_eq_false_iff, decide_eq_false_iff_not]; omega
  · simp only [refusesGpo, hh, Bool.or_eq_false_iff, decide_eq_false_iff_not]
    refine ⟨⟨by omega, by omega⟩, by simp⟩

theorem gpoData_valid (buf : List Byte) (hbuf : buf.length = 255) (sources : List (List Tlv))
    (hs : sources ≠ []) (tlvs : List Tlv) (rs : List Req) (h : ∀ r ∈ rs, r.WF) (hne : rs ≠ [])
    (hp : field 0x9F38 tlvs = some (encDol rs)) (hlen : (encDol rs).length < 2 ^ 24)
    (hcap : sumLen rs ≤ 252) :
    gpoData buf sources tlvs = .ok (.ok (some (template83 (dolData sources rs)))) := by
  have hdl := dolData_length sources rs
  unfold gpoData
  rw [← find_field] at hp
  cases hf : find tlvs 0x9F38 with
  | none => rw [hf] at hp; cases hp
  | some pdol =>
    rw [hf] at hp
    simp only [Option.map_some, Option.some.injEq] at hp
    simp only [hp, C15_length rs h hne hlen, bind_ok]
    rw [if_neg (by omega), if_neg (by omega)]
    match buf, hbuf with
    | b0 :: b1 :: b2 :: buf, hbuf =>
      simp only [List.length_cons] at hbuf
      have e1 : wr (b0 :: b1 :: b2 :: buf) 0 0x83 = .ok (0x83 :: b1 :: b2 :: buf) := rfl
      simp only [e1, bind_ok]
      by_cases hn : sumLen rs < 128
      · rw [if_pos (by omega)]
        have e2 : ∀ x, wr (0x83 :: b1 :: b2 :: buf) 1 x = .ok (0x83 :: x :: b2 :: buf) := fun x => rfl
        simp only [e2, bind_ok, Int.toNat_natCast]
        rw [suffix_eq (by simp)]
        simp only [bind_ok, List.drop_succ_cons, List.drop_zero]
        rw [C16_build rs h hne sources hs _ (by simp) (by simp; omega)]
        simp only [bind_ok, ne_eq, not_true_eq_false, if_false]
        rw [slice_eq (by simp; omega)]
        simp only [bind_ok, Except.ok.injEq, Option.some.injEq, template83, hdl, hn, if_true]
        rw [List.drop_zero]
        simp only [List.take_succ_cons, List.take_zero, List.cons_append, List.nil_append]
        rw [List.take_left' hdl]
      · rw [if_neg (by omega)]
        have e2 : ∀ x, wr (0x83 :: b1 :: b2 :: buf) 1 x = .ok (0x83 :: x :: b2 :: buf) := fun x => rfl
        have e3 : ∀ x, wr (0x83 :: 0x81 :: b2 :: buf) 2 x = .ok (0x83 :: 0x81 :: x :: buf) := fun x => rfl
        simp only [e2, e3, bind_ok, Int.toNat_natCast]
        rw [suffix_eq (by simp)]
        simp only [bind_ok, List.drop_succ_cons, List.drop_zero]
        rw [C16_build rs h hne sources hs _ (by intro e; subst e; simp at hbuf) (by omega)]
        simp only [bind_ok, ne_eq, not_true_eq_false, if_false]
        rw [slice_eq (by simp; omega)]
        simp only [bind_ok, Except.ok.injEq, Option.some.injEq, template83, hdl, hn, if_false]
        rw [List.drop_zero]
        simp only [List.take_succ_cons, List.take_zero, List.cons_append, List.nil_append]
        rw [List.take_left' hdl]

/-- **C17.**  For every field list of the selected application (with a PDOL of less than 2^24
bytes) and every terminal data: without PDOL there is no data; a PDOL that is not a list of
complete entries, or asks for more than 252 bytes, is a card error; for every other PDOL the
data is built - never an internal error - and is the template 83 with the exact BER length and
the requested data.  It is at most 255 bytes and is accepted by the layers below.  What was in
the buffer before does not matter. -/
theorem C17_gpo_data (buf : List Byte) (hbuf : buf.length = 255) (sources : List (List Tlv))
    (hs : sources ≠ []) (tlvs : List Tlv)
    (hlen : ∀ v, field 0x9F38 tlvs = some v → v.length < 2 ^ 24) :
    (field 0x9F38 tlvs = none ∧ gpoData buf sources tlvs = .ok (.ok none)) ∨
    (∃ v, field 0x9F38 tlvs = some v ∧ gpoData buf sources tlvs = .ok (.error 1) ∧
      ∀ rs : List Req, (∀ r ∈ rs, r.WF) → v = encDol rs → rs = [] ∨ 252 < sumLen rs) ∨
    (∃ rs : List Req, (∀ r ∈ rs, r.WF) ∧ rs ≠ [] ∧ field 0x9F38 tlvs = some (encDol rs) ∧
      sumLen rs ≤ 252 ∧
      gpoData buf sources tlvs = .ok (.ok (some (template83 (dolData sources rs)))) ∧
      (template83 (dolData sources rs)).length ≤ 255 ∧
      badGpo (some (template83 (dolData sources rs))) = false ∧
      refusesGpo (some (template83 (dolData sources rs))) = false) := by
  cases hv : field 0x9F38 tlvs with
  | none =>
    refine Or.inl ⟨rfl, ?_⟩
    rw [← find_field] at hv
    cases hf : find tlvs 0x9F38 with
    | none => simp [gpoData, hf]
    | some t => rw [hf] at hv; cases hv
  | some v =>
    have hlv := hlen v hv
    by_cases hok : ∃ rs : List Req, (∀ r ∈ rs, r.WF) ∧ v = encDol rs ∧ rs ≠ [] ∧ sumLen rs ≤ 252
    · obtain ⟨rs, h1, h2, h3, h4⟩ := hok
      subst h2
      have hd : (dolData sources rs).length ≤ 252 := by rw [dolData_length]; exact h4
      exact Or.inr (Or.inr ⟨rs, h1, h3, rfl, h4,
        gpoData_valid buf hbuf sources hs tlvs rs h1 h3 hv hlv h4, (template83_length hd).2,
        template83_accepted hd⟩)
    · refine Or.inr (Or.inl ⟨v, rfl, ?_, ?_⟩)
      · rw [← find_field] at hv
        unfold gpoData
        cases hf : find tlvs 0x9F38 with
        | none => rw [hf] at hv; cases hv
        | some t =>
          rw [hf] at hv
          simp only [Option.map_some, Option.some.injEq] at hv
          simp only [hv]
          by_cases hd : ∃ rs : List Req, (∀ r ∈ rs, r.WF) ∧ v = encDol rs
          · obtain ⟨rs, h1, h2⟩ := hd
            subst h2
            by_cases h3 : rs = []
            · subst h3; rfl
            · have : ¬ sumLen rs ≤ 252 := fun h => hok ⟨rs, h1, rfl, h3, h⟩
              rw [C15_length rs h1 h3 hlv]
              simp only [bind_ok]
              rw [if_neg (by omega), if_pos (by omega)]
          · rw [C15_length_invalid v hlv (fun rs h e => hd ⟨rs, h, e⟩)]
            rfl
      · intro rs h1 h2
        by_cases h3 : rs = []
        · exact Or.inl h3
        · exact Or.inr (by have : ¬ sumLen rs ≤ 252 := fun h => hok ⟨rs, h1, h2, h3, h⟩; omega)

/-- PDOL `9F66 04, 9F02 06, 5F2A 02`: the amount is known. -/
example : (gpoData (List.replicate 255 0xFF) [[⟨0x9F02, 0, [0, 0, 0, 0, 0x12, 0x34]⟩], []]
      [⟨0x84, 0, [0xA0, 0, 0, 0, 3]⟩, ⟨0x9F38, 0, [0x9F, 0x66, 4, 0x9F, 0x02, 6, 0x5F, 0x2A, 2]⟩]).toOption =
    some (.ok (some [0x83, 12, 0, 0, 0, 0, 0, 0, 0, 0, 0x12, 0x34, 0, 0])) := by decide +kernel

/-- The long form: 128 bytes of data are announced by 81 80. -/
theorem C17_long_form : template83 (List.replicate 128 0) =
    [0x83, 0x81, 0x80] ++ List.replicate 128 0 := by decide +kernel

end Verif.Emv
