import Verif.Emv
import Verif.TalReadProps
import Verif.TalGpoProps

/-!
# Properties of reading application data (C40)
-/

set_option autoImplicit false

namespace Verif.Emv
open Verif Ber BerSpec TlvParse App Tal Fields

/-- Fields without redundancy and with expiry date (5F24), PAN (5A), CDOL1 (8C) and CDOL2 (8D). -/
def Sufficient (fs : List Tlv) : Prop :=
  (fs.map (·.tag)).Nodup ∧ ∀ tag ∈ [0x5F24, 0x5A, 0x8C, 0x8D], ∃ t ∈ fs, t.tag = tag

theorem hasDup_iff (l : List Tlv) : hasDup l = false ↔ (l.map (·.tag)).Nodup := by
  induction l with
  | nil => simp [hasDup]
  | cons t ts ih =>
    simp only [hasDup, Bool.or_eq_false_iff, ih, List.map_cons, List.nodup_cons, List.any_eq_false,
      List.mem_map, not_exists, not_and, beq_iff_eq]
    constructor
    · rintro ⟨h1, h2⟩; exact ⟨fun x hx e => h1 x hx e.symm, h2⟩
    · rintro ⟨h1, h2⟩; exact ⟨fun x hx e => h1 x hx e.symm, h2⟩

theorem complete_iff (l : List Tlv) :
    complete l = true ↔ ∀ tag ∈ [0x5F24, 0x5A, 0x8C, 0x8D], ∃ t ∈ l, t.tag = tag := by
  simp [complete, and_assoc]

theorem sufficient_iff (l : List Tlv) : Sufficient l ↔ hasDup l = false ∧ complete l = true := by
  rw [hasDup_iff, complete_iff]; rfl

theorem find_of_field {l : List Tlv} {tag : Nat} {v : List Byte} (h : field tag l = some v) :
    ∃ t, find l tag = some t ∧ t.value = v := by
  rw [← find_field] at h
  cases hf : find l tag with
  | none => rw [hf] at h; cases h
  | some t => rw [hf] at h; exact ⟨t, rfl, by simpa using h⟩

/-- **C40** (success).  Reading application data succeeds only when the ICC data contains a
well-formed AFL, all its records were read (and nothing else) and are acceptable, no tag occurs
twice among their fields and the mandatory ones are there.  The new ICC data is the old data
followed by exactly the fields of the records in order; the rest of the context is unchanged. -/
theorem C40_success (alloc : List Tlv → Tlv → Bool) (ctx ctx' : Ctx) (script rest : List W)
    (tr : List (Cmd × W)) (h : readData alloc ctx script = .ok (tr, .done (0, ctx') rest)) :
    script = tr.map (·.2) ++ rest ∧
    ∃ es fs b, es ≠ [] ∧ (∀ e ∈ es, AflEntry.WF e) ∧ field 0x94 ctx.icc = some (encAfl es) ∧
      tr.map (·.1) = commands es ∧ Reads tr fs b ∧ Sufficient fs ∧
      ctx' = { ctx with icc := ctx.icc ++ fs } := by
  unfold readData at h
  cases hf : find ctx.icc 0x94 with
  | none => rw [hf] at h; simp [fin] at h
  | some afl =>
    rw [hf] at h
    simp only at h
    generalize hy : readAfl alloc afl.value [] script = y at h
    match y with
    | .error e => cases h
    | .ok (tr', .pending c) => cases h
    | .ok (tr', .done (code, l) rest') =>
      simp only [andThen, bind_ok] at h
      by_cases hc : code < 0
      · rw [if_pos hc] at h
        split at h <;> simp [fin] at h
      · rw [if_neg hc] at h
        by_cases hc' : code ≠ 0 ∧ code ≠ 14
        · rw [if_pos hc'] at h; simp [fin] at h
        · rw [if_neg hc'] at h
          by_cases hd : hasDup l = true
          · rw [if_pos hd] at h; simp [fin] at h
          · rw [if_neg hd] at h
            by_cases hm : complete l = true
            · simp only [hm, Bool.not_true, Bool.false_eq_true, if_false, fin, bind_ok,
                List.append_nil, Except.ok.injEq, Prod.mk.injEq, Out.done.injEq, true_and] at h
              obtain ⟨rfl, rfl, rfl⟩ := h
              obtain ⟨a1, es, a2, a3, a4, a5, fs, b, a6, a7, -⟩ :=
                C30_success alloc afl.value [] script tr' code l rest' hy (by omega)
              rw [List.nil_append] at a7
              subst a7
              refine ⟨a1, es, l, b, a2, a3, ?_, a5, a6, ?_, rfl⟩
              · rw [← find_field, hf, Option.map_some, a4]
              · rw [sufficient_iff]; exact ⟨by simpa using hd, hm⟩
            · simp [hm, fin] at h

/-- **C40** (failure).  In every other outcome the context is unchanged, and the reason is one
of: no AFL in the ICC data; a malformed AFL; a failing READ RECORD or a record that is not
acceptable; redundant or missing fields; memory. -/
theorem C40_failure (alloc : List Tlv → Tlv → Bool) (ctx ctx' : Ctx) (script rest : List W)
    (tr : List (Cmd × W)) (code : Int)
    (h : readData alloc ctx script = .ok (tr, .done (code, ctx') rest)) (hc : code ≠ 0) :
    ctx' = ctx ∧
    ((code = 1 ∧ tr = [] ∧ field 0x94 ctx.icc = none) ∨
     (tr = [] ∧ (code = 1 ∨ code = -1) ∧ ∃ afl, field 0x94 ctx.icc = some afl ∧
        (afl = [] ∨ afl.length % 4 ≠ 0 ∨ afl.length > 252)) ∨
     (code = 1 ∧ ∃ es more fs b, field 0x94 ctx.icc = some (encAfl es ++ more) ∧ (∀ e ∈ es, AflEntry.WF e) ∧
        more ≠ [] ∧ ¬ StartsWF more ∧ tr.map (·.1) = commands es ∧ Reads tr fs b) ∨
     (∃ good fs b sfi rc w reason, tr = good ++ [(.readRecord sfi rc, w)] ∧ Reads good fs b ∧
        Failing alloc sfi w reason ∧ code = if reason = -1 then -1 else 1) ∨
     (code = 1 ∧ ∃ es fs b, (∀ e ∈ es, AflEntry.WF e) ∧ field 0x94 ctx.icc = some (encAfl es) ∧
        tr.map (·.1) = commands es ∧ Reads tr fs b ∧ ¬ Sufficient fs)) := by
  unfold readData at h
  cases hf : find ctx.icc 0x94 with
  | none =>
    rw [hf] at h
    simp only [fin, Except.ok.injEq, Prod.mk.injEq, Out.done.injEq] at h
    obtain ⟨rfl, ⟨rfl, rfl⟩, -⟩ := h
    exact ⟨rfl, Or.inl ⟨rfl, rfl, find_none hf⟩⟩
  | some afl =>
    rw [hf] at h
    simp only at h
    have hfield : field 0x94 ctx.icc = some afl.value := by rw [← find_field, hf]; rfl
    generalize hy : readAfl alloc afl.value [] script = y at h
    match y with
    | .error e => cases h
    | .ok (tr', .pending c) => cases h
    | .ok (tr', .done (r, l) rest') =>
      simp only [andThen, bind_ok] at h
      by_cases hr : r ≠ 0 ∧ r ≠ 14
      · have h' : tr = tr' ∧ code = (if r = -1 ∨ r = -2 then -1 else 1) ∧ ctx' = ctx := by
          by_cases h0 : r < 0
          · rw [if_pos h0] at h
            simp only [fin, bind_ok, List.append_nil, Except.ok.injEq, Prod.mk.injEq,
              Out.done.injEq] at h
            exact ⟨h.1.symm, h.2.1.1.symm, h.2.1.2.symm⟩
          · rw [if_neg h0, if_pos hr] at h
            simp only [fin, bind_ok, List.append_nil, Except.ok.injEq, Prod.mk.injEq,
              Out.done.injEq] at h
            refine ⟨h.1.symm, ?_, h.2.1.2.symm⟩
            rw [if_neg (by omega), h.2.1.1]
        obtain ⟨rfl, hcode, rfl⟩ := h'
        refine ⟨rfl, ?_⟩
        rcases C30_failure alloc afl.value [] script tr r l rest' hy hr with ⟨a1, -, a2, a3⟩ |
          ⟨a1, es, more, a2, a3, a4, a5, a6, fs, b, a7, -⟩ | ⟨good, fs, b, sfi, rc, w, part, a1, a2, -, a3⟩
        · refine Or.inr (Or.inl ⟨a1, ?_, _, hfield, a3⟩)
          rw [hcode]; split <;> simp
        · refine Or.inr (Or.inr (Or.inl ⟨?_, es, more, fs, b, by rw [hfield, a3], a2, a4, a5, a6, a7⟩))
          rw [hcode, a1]; simp
        · refine Or.inr (Or.inr (Or.inr (Or.inl ⟨good, fs, b, sfi, rc, w, r, a1, a2, a3, ?_⟩)))
          rw [hcode]
          have : r ≠ -2 := by
            rcases a3 with ⟨h, -⟩ | ⟨h, -⟩ | ⟨h, -⟩ | ⟨h, -⟩ <;> omega
          simp [this]
      · rw [if_neg (by omega), if_neg hr] at h
        obtain ⟨a1, es, a2, a3, a4, a5, fs, b, a6, a7, -⟩ :=
          C30_success alloc afl.value [] script tr' r l rest' hy (by omega)
        rw [List.nil_append] at a7
        subst a7
        have h' : tr = tr' ∧ code = 1 ∧ ctx' = ctx ∧ ¬ Sufficient l := by
          rw [sufficient_iff]
          by_cases hd : hasDup l = true
          · rw [if_pos hd] at h
            simp only [fin, bind_ok, List.append_nil, Except.ok.injEq, Prod.mk.injEq,
              Out.done.injEq] at h
            exact ⟨h.1.symm, h.2.1.1.symm, h.2.1.2.symm, by simp [hd]⟩
          · rw [if_neg hd] at h
            by_cases hm : complete l = true
            · simp only [hm, Bool.not_true, Bool.false_eq_true, if_false, fin, bind_ok,
                List.append_nil, Except.ok.injEq, Prod.mk.injEq, Out.done.injEq] at h
              exact absurd h.2.1.1.symm hc
            · simp only [hm, Bool.not_false, if_true, fin, bind_ok,
                List.append_nil, Except.ok.injEq, Prod.mk.injEq, Out.done.injEq] at h
              exact ⟨h.1.symm, h.2.1.1.symm, h.2.1.2.symm, by simp [hm]⟩
        obtain ⟨rfl, rfl, rfl, hn⟩ := h'
        exact ⟨rfl, Or.inr (Or.inr (Or.inr (Or.inr ⟨rfl, es, l, b, a3, by rw [hfield, a4], a5, a6, hn⟩)))⟩

/-- **C40** (completeness).  A card with a well-formed AFL (last records below 255) that answers
all READ RECORDs with proper records carrying sufficient fields is read successfully. -/
theorem C40_complete (alloc : List Tlv → Tlv → Bool) (hal : ∀ l t, alloc l t = true) (ctx : Ctx)
    (es : List AflEntry) (hes : ∀ e ∈ es, AflEntry.WF e) (hne : es ≠ []) (hlen : es.length ≤ 63)
    (hb : Bounded es) (hafl : field 0x94 ctx.icc = some (encAfl es)) (tr : List (Cmd × W))
    (fs : List Tlv) (hcm : tr.map (·.1) = commands es) (ha : Answered tr fs) (hs : Sufficient fs)
    (rest : List W) :
    readData alloc ctx (tr.map (·.2) ++ rest) =
      .ok (tr, .done (0, { ctx with icc := ctx.icc ++ fs }) rest) := by
  obtain ⟨t, ht, hv⟩ := find_of_field hafl
  obtain ⟨code, hc, hr⟩ := C30_complete alloc hal es hes hne hlen hb tr fs hcm ha [] rest
  rw [sufficient_iff] at hs
  rw [List.nil_append] at hr
  unfold readData
  rw [ht]
  simp only [hv, hr, andThen, bind_ok]
  rw [if_neg (by omega), if_neg (by omega), if_neg (by simp [hs.1]), if_neg (by simp [hs.2])]
  simp [fin]

/-- Two records in SFI 1: the hypotheses hold and the data is read; with one field more than
once, or one missing, it is not. -/
example :
    let rec1 : List Byte := [0x70, 0x0A, 0x5A, 0x02, 0x12, 0x34, 0x5F, 0x24, 0x03, 0x26, 0x12, 0x31]
    let rec2 : List Byte := [0x70, 0x06, 0x8C, 0x01, 0x95, 0x8D, 0x01, 0x9A]
    let ctx : Ctx := { Ctx.init with icc := [⟨0x94, 0, [0x08, 1, 2, 0]⟩] }
    let code := fun (s : List W) => (readData allocOk ctx s).toOption.map (fun r => match r.2 with
      | .done (c, x) _ => (c, x.icc.map (·.tag)) | _ => (99, []))
    code [⟨0, rec1, 0x9000⟩, ⟨0, rec2, 0x9000⟩] = some (0, [0x94, 0x5A, 0x5F24, 0x8C, 0x8D]) ∧
    code [⟨0, rec1, 0x9000⟩, ⟨0, rec1, 0x9000⟩] = some (1, [0x94]) ∧
    code [⟨0, rec1, 0x9000⟩, ⟨0, [0x70, 0], 0x9000⟩] = some (1, [0x94]) := by
  decide +kernel

end Verif.Emv
