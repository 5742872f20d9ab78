import Verif.TalGpoProps

/-! # Lemmas for application selection -/

set_option autoImplicit false

namespace Verif.Tal
open Verif Ber BerSpec TlvParse App

instance (aid : List Byte) (supported : List Tlv) : Decidable (Matches aid supported) := by
  unfold Matches; infer_instance

theorem isSupported_eq (aid : List Byte) (supported : List Tlv) :
    isSupported aid supported = .ok (decide (Matches aid supported)) := by
  obtain ⟨b, h1, h2⟩ := C36_supported_iff aid supported
  rw [h1]
  congr 1
  cases b
  · have : ¬ Matches aid supported := fun h => by simpa using h2.mpr h
    simp [this]
  · simp [h2.mp rfl]

/-- What the constructors produce from a field list. -/
theorem build_spec (pse : Option (List Tlv)) (tag : Nat) (tlvs : List Tlv) :
    ∃ r, build pse tag tlvs = .ok r ∧
      (∀ a, r = some a → find tlvs tag = some a.aid ∧ a.tlvs = tlvs ∧
        a.name = shown pse tlvs a.aid.value ++
          List.replicate (33 - (shown pse tlvs a.aid.value).length) 0 ∧
        a.prio ≤ 15 ∧ priority tlvs = .ok (a.prio, a.conf)) ∧
      (r = none → field tag tlvs = none ∨ (field tag tlvs = some [] ∧ field 0x50 tlvs = none)) := by
  unfold build
  cases hf : find tlvs tag with
  | none => exact ⟨none, rfl, by simp, fun _ => Or.inl (find_none hf)⟩
  | some aid =>
    obtain ⟨-, r, name, h1, h2, h3⟩ := C37_display_name pse tlvs aid
    simp only
    rw [h1]
    simp only [bind_ok]
    rcases h3 with rfl | ⟨rfl, h4, h5⟩
    · rw [if_neg (by decide)]
      obtain ⟨p, c, h6, h7, -⟩ := C37_priority tlvs
      rw [h6]
      refine ⟨_, rfl, ?_, by simp⟩
      intro a ha
      cases ha
      exact ⟨rfl, rfl, h2, h7, rfl⟩
    · rw [if_pos (by decide)]
      refine ⟨none, rfl, by simp, fun _ => Or.inr ⟨?_, h5⟩⟩
      rw [(find_some hf).2.2, h4]

theorem createFromPse_spec (pse : List Tlv) (entry : List Byte) :
    ∃ r, createFromPse pse entry = .ok r ∧
      (∀ a, r = some a → ∃ f : XForest, f.WF ∧ entry = f.enc ∧ a.tlvs = f.leaves ∧
        find f.leaves 0x4F = some a.aid ∧ a.prio ≤ 15) ∧
      (∀ (g : Forest) aid, g.WF → entry = g.enc → field 0x4F g.leaves = some aid → aid ≠ [] →
        ∃ a, r = some a ∧ a.aid.value = aid ∧ a.tlvs = g.leaves) := by
  unfold createFromPse
  obtain ⟨r, new, h1, h2⟩ := C06_no_internal_error entry []
  rw [h1]
  simp only [bind_ok, List.nil_append]
  rcases h2 with rfl | rfl
  · rw [if_neg (by decide)]
    obtain ⟨f, f1, f2, f3⟩ := C62_parse_accepts allocOk _ _ _ h1
    simp only [List.nil_append] at f3
    obtain ⟨r, b1, b2, b3⟩ := build_spec (some pse) 0x4F new
    refine ⟨r, b1, ?_, ?_⟩
    · intro a ha
      obtain ⟨c1, c2, -, c4, -⟩ := b2 a ha
      exact ⟨f, f1, f2, by rw [c2, f3], by rw [← f3, c1], c4⟩
    · intro g aid hg he ha hne
      have := C05_parse_leaves g hg []
      rw [← he, h1] at this
      simp only [List.nil_append, Except.ok.injEq, Prod.mk.injEq, true_and] at this
      subst this
      cases r with
      | none =>
        exfalso
        rcases b3 rfl with h | ⟨h, -⟩
        · rw [h] at ha; cases ha
        · rw [h] at ha; cases ha; exact hne rfl
      | some a =>
        obtain ⟨c1, c2, -⟩ := b2 a rfl
        refine ⟨a, rfl, ?_, c2⟩
        have := (find_some c1).2.2
        rw [ha] at this
        exact (Option.some.inj this).symm
  · rw [if_pos (by decide)]
    refine ⟨none, rfl, by simp, ?_⟩
    intro g aid hg he
    have := C05_parse_leaves g hg []
    rw [← he, h1] at this
    simp at this

/-- The file control information `data` (one complete template 6F) names the application `v`. -/
def DfName (data v : List Byte) : Prop :=
  ∃ (len : List Byte) (f : XForest), f.WF ∧ LenOctets f.enc.length len ∧
    data = [0x6F] ++ len ++ f.enc ∧ field 0x84 f.leaves = some v

theorem createFromFci_spec (data : List Byte) (hne : data ≠ []) :
    ∃ r, createFromFci data = .ok r ∧
      (∀ a, r = some a → DfName data a.aid.value ∧ a.aid ∈ a.tlvs ∧ a.aid.tag = 0x84 ∧
        ∃ (len : List Byte) (f : XForest), f.WF ∧ LenOctets f.enc.length len ∧
          data = [0x6F] ++ len ++ f.enc ∧ a.tlvs = f.leaves ∧ find f.leaves 0x84 = some a.aid ∧
          a.prio ≤ 15) ∧
      (∀ (g : Forest) (len : List Byte) aid, g.WF → LenOctets g.enc.length len →
        data = [0x6F] ++ len ++ g.enc → field 0x84 g.leaves = some aid → aid ≠ [] →
        ∃ a, r = some a ∧ a.aid.value = aid ∧ a.tlvs = g.leaves) := by
  unfold createFromFci
  have hproper : ∀ (g : Forest) (len : List Byte), LenOctets g.enc.length len →
      data = [0x6F] ++ len ++ g.enc →
      decode data = .ok (.ok data.length ⟨0x6F, topBits [0x6F], g.enc⟩) := by
    intro g len hl he
    have := decode_enc (t := [0x6F]) (Or.inl ⟨by decide, rfl⟩) hl []
    rw [List.append_nil, ← he] at this
    rw [this]
    have : [(0x6F : Byte)].length + len.length + g.enc.length = data.length := by rw [he]; simp; omega
    rw [this]
    rfl
  obtain ⟨d, hd, hs⟩ := decode_spec data
  rw [hd]
  match d, hd, hs with
  | .eod, _, hs => exact absurd hs hne
  | .err c, hd, _ =>
    refine ⟨none, rfl, by simp, ?_⟩
    intro g len aid _ hl he
    rw [hproper g len hl he] at hd
    cases hd
  | .ok n t, hd, _ =>
    simp only [bind_ok]
    by_cases h1 : n ≠ data.length
    · rw [if_pos h1]
      refine ⟨none, rfl, by simp, ?_⟩
      intro g len aid _ hl he
      rw [hproper g len hl he] at hd
      cases hd
      exact absurd rfl h1
    · rw [if_neg h1]
      have h1 : n = data.length := by simpa using h1
      by_cases h2 : t.tag ≠ 0x6F
      · rw [if_pos h2]
        refine ⟨none, rfl, by simp, ?_⟩
        intro g len aid _ hl he
        rw [hproper g len hl he] at hd
        cases hd
        exact absurd rfl h2
      · rw [if_neg h2]
        have h2 : t.tag = 0x6F := by simpa using h2
        obtain ⟨r, new, p1, p2⟩ := C06_no_internal_error t.value []
        rw [p1]
        simp only [bind_ok, List.nil_append]
        have hgood : ∀ (g : Forest) (len : List Byte), g.WF → LenOctets g.enc.length len →
            data = [0x6F] ++ len ++ g.enc → r = 0 ∧ new = g.leaves := by
          intro g len hg hl he
          rw [hproper g len hl he] at hd
          cases hd
          have := C05_parse_leaves g hg []
          rw [p1] at this
          simp only [List.nil_append, Except.ok.injEq, Prod.mk.injEq] at this
          exact this
        rcases p2 with rfl | rfl
        · rw [if_neg (by decide)]
          obtain ⟨r, b1, b2, b3⟩ := build_spec none 0x84 new
          obtain ⟨f, f1, f2, f3⟩ := C62_parse_accepts allocOk _ _ _ p1
          simp only [List.nil_append] at f3
          refine ⟨r, b1, ?_, ?_⟩
          · intro a ha
            obtain ⟨c1, c2, -, c4, -⟩ := b2 a ha
            obtain ⟨m1, m2, m3⟩ := find_some c1
            obtain ⟨tag, rest, g1, g2, -, g3⟩ := decode_inv hd
            have gt := isTag_single g1 0x6F (by rw [← g2, h2]; rfl)
            subst gt
            have key : ∃ (len : List Byte), LenOctets f.enc.length len ∧
                data = [0x6F] ++ len ++ f.enc := by
              rcases g3 with ⟨len, k1, k2, k3⟩ | ⟨-, k2, k3, k4⟩
              · have : rest = [] := by
                  have := congrArg List.length k2
                  simp at this k3
                  exact List.eq_nil_of_length_eq_zero (by omega)
                subst this
                exact ⟨len, by rw [← f2]; exact k1, by rw [← f2]; simpa using k2⟩
              · exfalso
                have := congrArg List.length k2
                simp at this k4
                have : rest = [] := List.eq_nil_of_length_eq_zero (by omega)
                rw [this] at k3
                simp at k3
            obtain ⟨len, k1, k2⟩ := key
            exact ⟨⟨len, f, f1, k1, k2, by rw [← f3, m3]⟩, by rw [c2]; exact m1, m2, len, f, f1, k1, k2,
              by rw [c2, f3], by rw [← f3]; exact c1, c4⟩
          · intro g len aid hg hl he ha hne'
            obtain ⟨-, rfl⟩ := hgood g len hg hl he
            cases r with
            | none =>
              exfalso
              rcases b3 rfl with h | ⟨h, -⟩
              · rw [h] at ha; cases ha
              · rw [h] at ha; cases ha; exact hne' rfl
            | some a =>
              obtain ⟨c1, c2, -⟩ := b2 a rfl
              refine ⟨a, rfl, ?_, c2⟩
              have := (find_some c1).2.2
              rw [ha] at this
              exact (Option.some.inj this).symm
        · rw [if_pos (by decide)]
          refine ⟨none, rfl, by simp, ?_⟩
          intro g len aid hg hl he
          have := (hgood g len hg hl he).1
          simp at this

/-- The application made from one object of a record, if any. -/
def made (pse supported : List Tlv) (t : Tlv) : Option App :=
  if t.tag ≠ 0x61 then none
  else
    match createFromPse pse t.value with
    | .ok (some a) => if Matches a.aid.value supported then some a else none
    | _ => none

theorem aefLoop_spec (pse supported : List Tlv) : ∀ (fuel : Nat) (itr : List Byte) (apps : List App),
    itr.length < fuel →
    ∃ objs c, iterate fuel itr = .ok (objs, c) ∧
      aefLoop pse supported fuel itr apps = .ok (apps ++ objs.filterMap (made pse supported)) := by
  intro fuel
  induction fuel with
  | zero => intro itr apps h; omega
  | succ fuel ih =>
    intro itr apps hf
    unfold aefLoop iterate
    rcases itrNext_spec itr with ⟨d, hd, hs⟩ | ⟨n, t, hdr, rest, hd, he, h2⟩
    · rw [hd]
      rcases hs with ⟨rfl, -⟩ | ⟨c, rfl, -⟩
      · exact ⟨[], 0, rfl, by simp⟩
      · exact ⟨[], c, rfl, by simp⟩
    · rw [hd]
      simp only [bind_ok]
      have hl := congrArg List.length he
      simp at hl
      have step : ∀ apps', ∃ objs c, iterate fuel rest = .ok (objs, c) ∧
        aefLoop pse supported fuel rest apps' = .ok (apps' ++ objs.filterMap (made pse supported)) :=
        fun apps' => ih rest apps' (by omega)
      by_cases h61 : t.tag ≠ 0x61
      · rw [if_pos h61]
        obtain ⟨objs, c, i1, i2⟩ := step apps
        rw [i1, i2]
        refine ⟨t :: objs, c, rfl, ?_⟩
        have : made pse supported t = none := by unfold made; rw [if_pos h61]
        rw [List.filterMap_cons_none this]
      · rw [if_neg h61]
        obtain ⟨r, r1, -⟩ := createFromPse_spec pse t.value
        rw [r1]
        simp only [bind_ok]
        cases r with
        | none =>
          obtain ⟨objs, c, i1, i2⟩ := step apps
          rw [i1]
          refine ⟨t :: objs, c, rfl, ?_⟩
          simp only
          rw [i2]
          have : made pse supported t = none := by unfold made; rw [if_neg h61, r1]
          rw [List.filterMap_cons_none this]
        | some a =>
          simp only
          rw [isSupported_eq]
          simp only [bind_ok, decide_eq_true_eq]
          by_cases hm : Matches a.aid.value supported
          · rw [if_pos hm]
            obtain ⟨objs, c, i1, i2⟩ := step (apps ++ [a])
            rw [i1]
            refine ⟨t :: objs, c, rfl, ?_⟩
            rw [i2]
            have : made pse supported t = some a := by
              unfold made; rw [if_neg h61, r1]; simp only; rw [if_pos hm]
            rw [List.filterMap_cons_some this]
            simp
          · rw [if_neg hm]
            obtain ⟨objs, c, i1, i2⟩ := step apps
            rw [i1]
            refine ⟨t :: objs, c, rfl, ?_⟩
            rw [i2]
            have : made pse supported t = none := by
              unfold made; rw [if_neg h61, r1]; simp only; rw [if_neg hm]
            rw [List.filterMap_cons_none this]

/-- The objects inside a record's template 70. -/
def inside (data : List Byte) : List Tlv :=
  match decode data with
  | .ok (.ok _ t) => if t.tag ≠ 0x70 then [] else
    match iterate (t.value.length + 1) t.value with
    | .ok (objs, _) => objs
    | _ => []
  | _ => []

theorem aefRecord_spec (pse supported : List Tlv) (data : List Byte) (apps : List App) :
    ∃ r, 0 ≤ r ∧ aefRecord pse supported data apps =
      .ok (r, apps ++ (inside data).filterMap (made pse supported)) := by
  unfold aefRecord inside
  obtain ⟨d, hd, -⟩ := decode_spec data
  rw [hd]
  match d with
  | .eod => exact ⟨7, by decide, by simp⟩
  | .err c => exact ⟨7, by decide, by simp⟩
  | .ok n t =>
    simp only [bind_ok]
    by_cases h : t.tag ≠ 0x70
    · rw [if_pos h, if_pos h]
      exact ⟨8, by decide, by simp⟩
    · rw [if_neg h, if_neg h]
      obtain ⟨objs, c, i1, i2⟩ := aefLoop_spec pse supported (t.value.length + 1) t.value apps (Nat.lt_succ_self _)
      rw [i1, i2]
      exact ⟨0, by decide, rfl⟩

/-- The applications an answer to READ RECORD adds. -/
def added (pse supported : List Tlv) (w : W) : List App :=
  if w.sw = 0x9000 then (inside w.data).filterMap (made pse supported) else []

/-- How reading the directory records ends. -/
def PsePost (pse supported : List Tlv) (sfi : Byte) (script : List W) (rec : Byte)
    (apps : List App) : C (Run (Int × List App)) → Prop
  | .error _ => False
  | .ok (tr, .pending c) => tr.map (·.2) = script ∧
      tr.map (·.1) ++ [c] = numbered sfi rec (tr.length + 1) ∧
      ∀ w ∈ script, w.code = 0 ∧ w.sw ≠ 0x6A83
  | .ok (tr, .done (code, apps') rest) => script = tr.map (·.2) ++ rest ∧
      tr.map (·.1) = numbered sfi rec tr.length ∧
      ∃ good w, tr.map (·.2) = good ++ [w] ∧ (∀ x ∈ good, x.code = 0 ∧ x.sw ≠ 0x6A83) ∧
        ((code = -3 ∧ w.code ≠ 0 ∧ apps' = []) ∨
         (code = 0 ∧ w.code = 0 ∧ w.sw = 0x6A83 ∧
          apps' = apps ++ good.flatMap (added pse supported)))

theorem psePost_cons {pse supported : List Tlv} {sfi : Byte} {w : W} {rest : List W} {rec : Byte}
    {apps : List App} {x : C (Run (Int × List App))} (h0 : w.code = 0) (h1 : w.sw ≠ 0x6A83)
    (h : PsePost pse supported sfi rest (rec + 1) (apps ++ added pse supported w) x) :
    PsePost pse supported sfi (w :: rest) rec apps (log (.readRecord sfi rec) w x) := by
  match x, h with
  | .ok (tr, .pending c), h =>
    obtain ⟨a1, a2, a3⟩ := h
    refine ⟨by simp [a1], ?_, ?_⟩
    · rw [List.map_cons, List.cons_append, a2, List.length_cons, numbered_succ _ _ (tr.length + 1)]
    · intro v hv
      rcases List.mem_cons.mp hv with rfl | hv
      · exact ⟨h0, h1⟩
      · exact a3 v hv
  | .ok (tr, .done (code, apps') rest'), h =>
    obtain ⟨a1, a2, good, v, a3, a4, a5⟩ := h
    refine ⟨by simp [a1], ?_, w :: good, v, by simp [a3], ?_, ?_⟩
    · rw [List.map_cons, a2, List.length_cons, numbered_succ]
    · intro y hy
      rcases List.mem_cons.mp hy with rfl | hy
      · exact ⟨h0, h1⟩
      · exact a4 y hy
    · rcases a5 with a5 | ⟨b1, b2, b3, b4⟩
      · exact Or.inl a5
      · exact Or.inr ⟨b1, b2, b3, by rw [b4]; simp⟩

theorem pseLoop_spec (pse supported : List Tlv) (sfi : Byte) (hs : refusesSfi sfi = false) :
    ∀ (script : List W) (rec : Byte) (apps : List App),
    PsePost pse supported sfi script rec apps (pseLoop pse supported sfi script rec apps) := by
  intro script
  induction script with
  | nil =>
    intro rec apps
    unfold pseLoop
    rw [hs]
    exact ⟨rfl, by simp [numbered], by simp⟩
  | cons w rest ih =>
    intro rec apps
    unfold pseLoop
    rw [hs]
    simp only [Bool.false_eq_true, if_false]
    by_cases h0 : w.code ≠ 0
    · rw [if_pos h0]
      exact ⟨rfl, by simp [numbered], [], w, rfl, by simp, Or.inl ⟨rfl, h0, rfl⟩⟩
    · rw [if_neg h0]
      have h0 : w.code = 0 := by simpa using h0
      by_cases h1 : w.sw = 0x6A83
      · rw [if_pos h1]
        exact ⟨rfl, by simp [numbered], [], w, rfl, by simp, Or.inr ⟨rfl, h0, h1, by simp⟩⟩
      · rw [if_neg h1]
        by_cases h2 : w.sw ≠ 0x9000
        · rw [if_pos h2]
          apply psePost_cons h0 h1
          have : added pse supported w = [] := by unfold added; rw [if_neg h2]
          rw [this, List.append_nil]
          exact ih _ _
        · rw [if_neg h2]
          have h2 : w.sw = 0x9000 := by simpa using h2
          obtain ⟨r, r1, r2⟩ := aefRecord_spec pse supported w.data apps
          rw [r2]
          simp only [bind_ok]
          rw [if_neg (by omega)]
          apply psePost_cons h0 h1
          have : added pse supported w = (inside w.data).filterMap (made pse supported) := by
            unfold added; rw [if_pos h2]
          rw [this]
          exact ih _ _

end Verif.Tal
