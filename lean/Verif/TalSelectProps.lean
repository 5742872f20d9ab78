import Verif.TalSelectLemmas
import Verif.TalReadProps

/-! # Properties of application selection: C32, C33 -/

set_option autoImplicit false

namespace Verif.Tal
open Verif Ber BerSpec TlvParse App

/-! ## Lemmas -/

theorem iterate_append (os : List Obj) (h : ∀ o ∈ os, o.WF) (junk : List Byte) :
    ∀ fuel, (encAll os ++ junk).length < fuel →
    ∃ more c, iterate fuel (encAll os ++ junk) = .ok (os.map tlvOf ++ more, c) ∧
      (junk = [] → more = []) := by
  induction os with
  | nil =>
    intro fuel hf
    have e : encAll [] ++ junk = junk := rfl
    rw [e] at hf ⊢
    obtain ⟨ts, c, h1, h2, -⟩ := iterate_any fuel junk (by omega)
    refine ⟨ts, c, h1, ?_⟩
    rintro rfl
    exact List.eq_nil_of_length_eq_zero (by simp at h2; omega)
  | cons o os ih =>
    intro fuel hf
    have ho := enc_length_ge (h o (by simp))
    have he : encAll (o :: os) ++ junk = o.enc ++ (encAll os ++ junk) := by simp [encAll]
    rw [he] at hf ⊢
    cases fuel with
    | zero => simp at hf
    | succ fuel =>
      obtain ⟨more, c, i1, i2⟩ := ih (fun o ho => h o (by simp [ho])) fuel (by
        rw [List.length_append] at hf; omega)
      unfold iterate
      rw [itrNext_enc o (h o (by simp))]
      simp only [bind_ok]
      rw [i1]
      exact ⟨more, c, by simp, i2⟩

/-- The objects of a record that starts with a template 70. -/
theorem inside_proper (len junk junk' : List Byte) (os : List Obj) (h : ∀ o ∈ os, o.WF)
    (hl : LenOctets (encAll os ++ junk).length len) :
    ∃ more, inside ([0x70] ++ len ++ (encAll os ++ junk) ++ junk') = os.map tlvOf ++ more ∧
      (junk = [] → more = []) := by
  obtain ⟨more, c, h1, h2⟩ := iterate_append os h junk _ (Nat.lt_succ_self _)
  refine ⟨more, ?_, h2⟩
  unfold inside
  rw [decode_enc (t := [0x70]) (Or.inl ⟨by decide, rfl⟩) hl junk']
  simp only
  rw [if_neg (by decide), h1]

theorem inside_slice {data : List Byte} {t : Tlv} (h : t ∈ inside data) : t.value <:+: data := by
  unfold inside at h
  obtain ⟨d, hd, hs⟩ := decode_spec data
  rw [hd] at h
  match d, hs with
  | .eod, _ => simp at h
  | .err c, _ => simp at h
  | .ok n u, hs =>
    simp only at h
    split at h
    · simp at h
    · obtain ⟨ts, c, i1, -, -, hdrs, rest, i2, -, i3, -⟩ := iterate_any (u.value.length + 1) u.value (by omega)
      rw [i1] at h
      simp only at h
      obtain ⟨hdr, rest', he, -, -⟩ := hs
      have hu : u.value <:+: data := ⟨hdr, rest', he.symm⟩
      refine List.IsInfix.trans ?_ hu
      rw [i3]
      have : ∀ (ts : List Tlv) (hdrs : List (List Byte)), hdrs.length = ts.length → t ∈ ts →
          t.value <:+: (List.zipWith (fun h t => h ++ t.value) hdrs ts).flatten := by
        intro ts
        induction ts with
        | nil => intro hdrs _ h; simp at h
        | cons x ts ih =>
          intro hdrs hl h
          cases hdrs with
          | nil => simp at hl
          | cons hd hdrs =>
            simp only [List.zipWith_cons_cons, List.flatten_cons]
            rcases List.mem_cons.mp h with rfl | h
            · exact ⟨hd, _, rfl⟩
            · exact (ih hdrs (by simpa using hl) h).trans ⟨hd ++ x.value, [], by simp⟩
      exact (this ts hdrs i2 h).trans ⟨[], rest, by simp⟩

theorem made_some {pse supported : List Tlv} {t : Tlv} {a : App} (h : made pse supported t = some a) :
    t.tag = 0x61 ∧ createFromPse pse t.value = .ok (some a) ∧ Matches a.aid.value supported := by
  unfold made at h
  by_cases h61 : t.tag ≠ 0x61
  · rw [if_pos h61] at h; cases h
  · rw [if_neg h61] at h
    refine ⟨by simpa using h61, ?_⟩
    match hc : createFromPse pse t.value, h with
    | .ok (some b), h =>
      simp only at h
      split at h
      · rename_i hm
        cases h
        exact ⟨rfl, hm⟩
      · cases h

/-- The outcomes of reading the directory. -/
theorem readPse_cases (supported : List Tlv) (apps : List App) (script : List W) :
    (∃ o, readPse supported apps script = .ok ([], o) ∧ o = .pending (.select false pseName) ∧ script = []) ∨
    (∃ w rest code apps', script = w :: rest ∧
      readPse supported apps script = .ok ([(.select false pseName, w)], .done (code, apps') rest) ∧
      code ≠ 0 ∧ (apps' = apps ∨ apps' = []) ∧
      ((code = -3 ∧ w.code ≠ 0) ∨ (code = -4 ∧ w.code = 0 ∧ w.sw = 0x6A81) ∨
       (code = -3 ∧ w.code = 0 ∧ w.sw = 0x9000 ∧ apps' = [] ∧ ∃ r pse sfi,
          parse allocOk w.data [] = .ok (r, pse) ∧ field 0x88 pse = some [sfi] ∧ refusesSfi sfi = true) ∨
       (0 < code ∧ w.code = 0 ∧ w.sw ≠ 0x6A81))) ∨
    (∃ w rest pse sfi, script = w :: rest ∧ w.code = 0 ∧ w.sw = 0x9000 ∧
      (∃ r, parse allocOk w.data [] = .ok (r, pse)) ∧ field 0x88 pse = some [sfi] ∧
      refusesSfi sfi = false ∧
      readPse supported apps script = log (.select false pseName) w (pseLoop pse supported sfi rest 1 apps)) := by
  unfold readPse send
  have hn : refusesName pseName = false := by decide
  rw [hn]
  simp only [Bool.false_eq_true, if_false]
  cases script with
  | nil => exact Or.inl ⟨_, rfl, rfl, rfl⟩
  | cons w rest =>
    right
    simp only
    by_cases h0 : w.code ≠ 0
    · rw [if_pos h0]
      exact Or.inl ⟨w, rest, -3, apps, rfl, rfl, by decide, Or.inl rfl, Or.inl ⟨rfl, h0⟩⟩
    · rw [if_neg h0]
      have h0 : w.code = 0 := by simpa using h0
      by_cases h1 : w.sw = 0x6A81
      · rw [if_pos h1]
        exact Or.inl ⟨w, rest, -4, apps, rfl, rfl, by decide, Or.inl rfl, Or.inr (Or.inl ⟨rfl, h0, h1⟩)⟩
      · rw [if_neg h1]
        by_cases h2 : w.sw = 0x6A82
        · rw [if_pos h2]
          exact Or.inl ⟨w, rest, 1, apps, rfl, rfl, by decide, Or.inl rfl, Or.inr (Or.inr (Or.inr ⟨by decide, h0, h1⟩))⟩
        · rw [if_neg h2]
          by_cases h3 : w.sw = 0x6283
          · rw [if_pos h3]
            exact Or.inl ⟨w, rest, 2, apps, rfl, rfl, by decide, Or.inl rfl, Or.inr (Or.inr (Or.inr ⟨by decide, h0, h1⟩))⟩
          · rw [if_neg h3]
            by_cases h4 : w.sw ≠ 0x9000
            · rw [if_pos h4]
              exact Or.inl ⟨w, rest, 3, apps, rfl, rfl, by decide, Or.inl rfl, Or.inr (Or.inr (Or.inr ⟨by decide, h0, h1⟩))⟩
            · rw [if_neg h4]
              have h4 : w.sw = 0x9000 := by simpa using h4
              obtain ⟨r, pse, p1, p2⟩ := C06_no_internal_error w.data []
              rw [p1]
              simp only [bind_ok, List.nil_append]
              rw [if_neg (by omega)]
              cases hf : find pse 0x88 with
              | none =>
                exact Or.inl ⟨w, rest, 5, [], rfl, rfl, by decide, Or.inr rfl, Or.inr (Or.inr (Or.inr ⟨by decide, h0, h1⟩))⟩
              | some t =>
                simp only
                by_cases h5 : t.value.length ≠ 1
                · rw [if_pos h5]
                  exact Or.inl ⟨w, rest, 6, [], rfl, rfl, by decide, Or.inr rfl, Or.inr (Or.inr (Or.inr ⟨by decide, h0, h1⟩))⟩
                · rw [if_neg h5]
                  obtain ⟨sfi, hsfi⟩ : ∃ b, t.value = [b] := by
                    match hv : t.value with
                    | [] => rw [hv] at h5; simp at h5
                    | [b] => exact ⟨b, rfl⟩
                    | b :: c :: l => rw [hv] at h5; simp at h5
                  rw [hsfi]
                  simp only [rd_cons_zero, bind_ok]
                  by_cases h6 : refusesSfi sfi = true
                  · left
                    unfold pseLoop
                    rw [if_pos h6]
                    exact ⟨w, rest, -3, [], rfl, rfl, by decide, Or.inr rfl, Or.inr (Or.inr (Or.inl ⟨rfl, h0, h4, rfl,
                      r, pse, sfi, by simpa using p1, by rw [(find_some hf).2.2, hsfi], h6⟩))⟩
                  · right
                    refine ⟨w, rest, pse, sfi, rfl, h0, h4, ⟨r, by simpa using p1⟩, ?_, by simpa using h6, rfl⟩
                    rw [(find_some hf).2.2, hsfi]

/-! ## C32: the directory -/

/-- **C32** (directory, soundness).  Whatever the card's directory contains, reading it
completes without undefined behaviour and every application in the resulting list either was
there before or matches a supported AID, and its AID is a piece of a record returned by the
card. -/
theorem C32_pse_sound (supported : List Tlv) (apps : List App) (script : List W) :
    C.Safe (readPse supported apps script) ∧
    ∀ tr code apps' rest, readPse supported apps script = .ok (tr, .done (code, apps') rest) →
      ∀ a ∈ apps', a ∈ apps ∨
        (Matches a.aid.value supported ∧ ∃ x ∈ tr, x.2.sw = 0x9000 ∧ a.aid.value <:+: x.2.data) := by
  rcases readPse_cases supported apps script with ⟨o, h1, h2, -⟩ | ⟨w, rest, code, apps', h1, h2, -, h4, -⟩ |
    ⟨w, rest, pse, sfi, rfl, -, -, -, -, h5, h6⟩
  · refine ⟨⟨_, h1⟩, ?_⟩
    intro tr code apps' rest h
    rw [h1] at h
    subst h2
    cases h
  · refine ⟨⟨_, h2⟩, ?_⟩
    intro tr code' apps'' rest' h a ha
    rw [h2] at h
    cases h
    rcases h4 with rfl | rfl
    · exact Or.inl ha
    · simp at ha
  · have hp := pseLoop_spec pse supported sfi h5 rest 1 apps
    rw [h6]
    match hx : pseLoop pse supported sfi rest 1 apps, hp with
    | .ok (tr, .pending c), _ =>
      refine ⟨⟨_, rfl⟩, ?_⟩
      intro tr' code apps' rest' h
      simp [log] at h
    | .ok (tr, .done (code, apps') rest'), ⟨_, _, good, w', a3, _, a5⟩ =>
      refine ⟨⟨_, rfl⟩, ?_⟩
      intro tr' code' apps'' rest'' h a ha
      simp only [log, bind_ok, Except.ok.injEq, Prod.mk.injEq, Out.done.injEq] at h
      obtain ⟨rfl, ⟨rfl, rfl⟩, rfl⟩ := h
      rcases a5 with ⟨-, -, rfl⟩ | ⟨-, -, -, rfl⟩
      · simp at ha
      · rcases List.mem_append.mp ha with ha | ha
        · exact Or.inl ha
        · right
          obtain ⟨v, hv, hm⟩ := List.mem_flatMap.mp ha
          unfold added at hm
          split at hm
          · rename_i hsw
            obtain ⟨t, ht, hmade⟩ := List.mem_filterMap.mp hm
            obtain ⟨-, m1, m2⟩ := made_some hmade
            refine ⟨m2, ?_⟩
            have : v ∈ tr.map (·.2) := by rw [a3]; simp [hv]
            obtain ⟨x, hx, rfl⟩ := List.mem_map.mp this
            refine ⟨x, by simp [hx], hsw, ?_⟩
            obtain ⟨r, r1, r2, -⟩ := createFromPse_spec pse t.value
            rw [m1] at r1
            cases r1
            obtain ⟨f, f1, f2, f3, f4⟩ := r2 a rfl
            have hmem := (find_some f4.1).1
            have : a.aid.value <:+: t.value := by
              rw [f2]
              exact (xforest_fields f a.aid hmem).2
            exact this.trans (inside_slice ht)
          · simp at hm

/-- **C32** (directory, completeness).  When reading the directory succeeds, every directory
entry (template 61) whose AID matches a supported AID is in the list, whatever else the card's
records contain, and applications listed before are kept. -/
theorem C32_pse_complete (supported : List Tlv) (apps : List App) (script : List W)
    (tr : List (Cmd × W)) (apps' : List App) (rest : List W)
    (h : readPse supported apps script = .ok (tr, .done (0, apps') rest)) :
    (∀ a ∈ apps, a ∈ apps') ∧
    ∀ sfi rc w, (.readRecord sfi rc, w) ∈ tr → w.sw = 0x9000 →
    ∀ (len junk junk' : List Byte) (os : List Obj), (∀ o ∈ os, o.WF) →
      LenOctets (encAll os ++ junk).length len → w.data = [0x70] ++ len ++ (encAll os ++ junk) ++ junk' →
    ∀ o ∈ os, o.tag = [0x61] → ∀ (g : Forest) (aid : List Byte), g.WF → o.value = g.enc →
      field 0x4F g.leaves = some aid → aid ≠ [] → Matches aid supported →
      ∃ a ∈ apps', a.aid.value = aid ∧ a.tlvs = g.leaves := by
  rcases readPse_cases supported apps script with ⟨o, h1, h2, -⟩ | ⟨w, rest, code, apps', h1, h2, h3, -⟩ |
    ⟨w, rest, pse, sfi, rfl, -, -, -, -, h5, h6⟩
  · rw [h1] at h
    subst h2
    cases h
  · rw [h2] at h
    cases h
    exact absurd rfl h3
  · have hp := pseLoop_spec pse supported sfi h5 rest 1 apps
    rw [h6] at h
    match hx : pseLoop pse supported sfi rest 1 apps, hp with
    | .ok (tr, .pending c), _ =>
      rw [hx] at h
      simp [log] at h
    | .ok (tr, .done (code, apps') rest'), ⟨_, a2, good, w', a3, _, a5⟩ =>
      rw [hx] at h
      simp only [log, bind_ok, Except.ok.injEq, Prod.mk.injEq, Out.done.injEq] at h
      obtain ⟨rfl, ⟨rfl, rfl⟩, rfl⟩ := h
      rcases a5 with ⟨h0, -⟩ | ⟨-, -, h83, rfl⟩
      · exact absurd h0 (by decide)
      · refine ⟨fun a ha => by simp [ha], ?_⟩
        intro s r v hv hsw len junk junk' os hos hl hd o ho htag g aid hg hval hf hne hm
        have hmem : (.readRecord s r, v) ∈ tr := by simpa using hv
        have hgood : v ∈ good := by
          have : v ∈ tr.map (·.2) := List.mem_map.mpr ⟨_, hmem, rfl⟩
          rw [a3] at this
          rcases List.mem_append.mp this with h | h
          · exact h
          · rw [List.mem_singleton.mp h, h83] at hsw
            exact absurd hsw (by decide)
        obtain ⟨more, e1, -⟩ := inside_proper len junk junk' os hos hl
        obtain ⟨r, r1, -, r2⟩ := createFromPse_spec pse o.value
        obtain ⟨a, rfl, b1, b2⟩ := r2 g aid hg hval hf hne
        refine ⟨a, ?_, b1, b2⟩
        refine List.mem_append.mpr (Or.inr (List.mem_flatMap.mpr ⟨v, hgood, ?_⟩))
        unfold added
        rw [if_pos hsw, hd, e1]
        refine List.mem_filterMap.mpr ⟨tlvOf o, ?_, ?_⟩
        · exact List.mem_append.mpr (Or.inl (List.mem_map.mpr ⟨o, ho, rfl⟩))
        · unfold made tlvOf
          simp only
          rw [if_neg (by rw [htag]; decide), r1]
          simp only
          rw [if_pos (by rw [b1]; exact hm)]

/-- A directory entry: length octets and contents. -/
structure Entry where
  len : List Byte
  body : Forest

/-- A directory record: length octets and entries. -/
structure Record where
  len : List Byte
  entries : List Entry

def Entry.enc (e : Entry) : List Byte := [0x61] ++ e.len ++ e.body.enc
def Record.enc (r : Record) : List Byte := [0x70] ++ r.len ++ r.entries.flatMap Entry.enc
def Entry.aid (e : Entry) : List Byte := (field 0x4F e.body.leaves).getD []

/-- Well-formed: correct lengths and an AID. -/
def Entry.WF (e : Entry) : Prop :=
  e.body.WF ∧ LenOctets e.body.enc.length e.len ∧ ∃ aid, aid ≠ [] ∧ field 0x4F e.body.leaves = some aid
def Record.WF (r : Record) : Prop :=
  (∀ e ∈ r.entries, e.WF) ∧ LenOctets (r.entries.flatMap Entry.enc).length r.len

/-- **C32** (directory, exactly).  For every well-formed directory, the applications added are
exactly the entries with a matching AID, in directory order, once each. -/
theorem C32_pse_exact (supported : List Tlv) (apps : List App) (fci : Forest) (hfci : fci.WF)
    (sfi : Byte) (hs : 1 ≤ sfi.toNat ∧ sfi.toNat ≤ 30) (hsfi : field 0x88 fci.leaves = some [sfi])
    (records : List Record) (hr : ∀ r ∈ records, r.WF) (last : W) (hl0 : last.code = 0)
    (hl1 : last.sw = 0x6A83) (rest : List W) :
    ∃ tr new, readPse supported apps (⟨0, fci.enc, 0x9000⟩ ::
        (records.map (fun r => ⟨0, r.enc, 0x9000⟩) ++ last :: rest)) =
      .ok (tr, .done (0, apps ++ new) rest) ∧
      new.map (fun a => (a.aid.value, a.tlvs)) =
        ((records.flatMap (·.entries)).filter (fun e => decide (Matches e.aid supported))).map
          (fun e => (e.aid, e.body.leaves)) := by
  rcases readPse_cases supported apps (⟨0, fci.enc, 0x9000⟩ ::
        (records.map (fun r => ⟨0, r.enc, 0x9000⟩) ++ last :: rest)) with
    ⟨o, h1, h2, h3⟩ | ⟨w, rest', code, apps', h1, h2, h3, -, h4⟩ |
    ⟨w, rest', pse, sfi', h1, -, -, ⟨r, hpar⟩, h88, h5, h6⟩
  · cases h3
  · cases h1
    exfalso
    have hrefuse : refusesSfi sfi = false := by
      unfold refusesSfi
      simp
      omega
    unfold readPse send at h2
    rw [show refusesName pseName = false by decide] at h2
    simp only [Bool.false_eq_true, if_false] at h2
    rw [if_neg (by simp), if_neg (by decide), if_neg (by decide), if_neg (by decide), if_neg (by simp),
      C05_parse_leaves fci hfci []] at h2
    simp only [bind_ok, List.nil_append] at h2
    rw [if_neg (by decide)] at h2
    cases hf : find fci.leaves 0x88 with
    | none => rw [find_none hf] at hsfi; cases hsfi
    | some t =>
      have hv := (find_some hf).2.2
      rw [hsfi] at hv
      have hv : t.value = [sfi] := (Option.some.inj hv).symm
      rw [hf] at h2
      simp only at h2
      rw [hv] at h2
      rw [if_neg (by simp)] at h2
      simp only [rd_cons_zero, bind_ok] at h2
      have hp := pseLoop_spec fci.leaves supported sfi hrefuse
        (records.map (fun r => ⟨0, r.enc, 0x9000⟩) ++ last :: rest) 1 apps
      generalize pseLoop fci.leaves supported sfi _ 1 apps = x at hp h2
      match x, hp with
      | .ok (tr, .pending c), _ => simp [log] at h2
      | .ok (tr, .done (c, a) rs), ⟨_, _, good, w', a3, _, _⟩ =>
        simp only [log, bind_ok, Except.ok.injEq, Prod.mk.injEq, List.cons.injEq, true_and] at h2
        rw [h2.1] at a3
        simp at a3
  · cases h1
    have hps : r = 0 ∧ pse = fci.leaves := by
      have := C05_parse_leaves fci hfci []
      simp only [List.nil_append] at this
      rw [this] at hpar
      cases hpar
      exact ⟨rfl, rfl⟩
    obtain ⟨-, rfl⟩ := hps
    rw [h6]
    have hp := pseLoop_spec fci.leaves supported sfi' h5
        (records.map (fun r => ⟨0, r.enc, 0x9000⟩) ++ last :: rest) 1 apps
    -- the answers before the last one are the records
    have split : ∀ (a b good : List W) (w' l : W), (∀ x ∈ a, x.code = 0 ∧ x.sw ≠ 0x6A83) →
        (∀ x ∈ good, x.code = 0 ∧ x.sw ≠ 0x6A83) → l.code = 0 → l.sw = 0x6A83 →
        (w'.code ≠ 0 ∨ w'.sw = 0x6A83) → ∀ c, a ++ l :: b = good ++ [w'] ++ c →
        good = a ∧ w' = l ∧ c = b := by
      intro a
      induction a with
      | nil =>
        intro b good w' l _ hg _ hl _ c he
        cases good with
        | nil => simp at he; exact ⟨rfl, he.1.symm, he.2.symm⟩
        | cons g good =>
          simp at he
          have := hg g (by simp)
          rw [← he.1] at this
          exact absurd hl this.2
      | cons x a ih =>
        intro b good w' l ha hg hl0 hl1 hw c he
        cases good with
        | nil =>
          simp at he
          have := ha x (by simp)
          rw [he.1] at this
          rcases hw with hw | hw
          · exact absurd this.1 hw
          · exact absurd hw this.2
        | cons g good =>
          simp only [List.cons_append, List.cons.injEq] at he
          obtain ⟨i1, i2, i3⟩ := ih b good w' l (fun y hy => ha y (by simp [hy]))
            (fun y hy => hg y (by simp [hy])) hl0 hl1 hw c he.2
          exact ⟨by rw [he.1, i1], i2, i3⟩
    have hrec : ∀ x ∈ records.map (fun r => (⟨0, r.enc, 0x9000⟩ : W)), x.code = 0 ∧ x.sw ≠ 0x6A83 := by
      intro x hx
      obtain ⟨r, -, rfl⟩ := List.mem_map.mp hx
      exact ⟨rfl, by simp⟩
    clear h6
    generalize pseLoop fci.leaves supported sfi' _ 1 apps = x at hp
    match x, hp with
    | .ok (tr, .pending c), ⟨_, _, b3⟩ =>
      exact absurd hl1 (b3 last (by simp)).2
    | .ok (tr, .done (code, apps') rest'), ⟨a1, _, good, w', a3, a4, a5⟩ =>
      rw [a3] at a1
      have hw : w'.code ≠ 0 ∨ w'.sw = 0x6A83 := by
        rcases a5 with ⟨-, h, -⟩ | ⟨-, -, h, -⟩
        · exact Or.inl h
        · exact Or.inr h
      obtain ⟨s1, s2, s3⟩ := split _ _ _ _ _ hrec a4 hl0 hl1 hw _ a1
      subst s1 s2 s3
      rcases a5 with ⟨-, h, -⟩ | ⟨rfl, -, -, rfl⟩
      · exact absurd hl0 h
      · refine ⟨_, _, rfl, ?_⟩
        clear hp a1 a3 a4 split hrec
        induction records with
        | nil => rfl
        | cons r records ih =>
          have ih' := ih (fun x hx => hr x (by simp [hx]))
          simp only [List.map_cons, List.flatMap_cons, List.map_append, List.filter_append] at ih' ⊢
          rw [ih']
          congr 1
          obtain ⟨g1, g2⟩ := hr r (by simp)
          unfold added
          simp only [if_true]
          let obj : Entry → Obj := fun e => ⟨[0x61], e.len, e.body.enc⟩
          have hobj : ∀ es : List Entry, encAll (es.map obj) = es.flatMap Entry.enc := by
            intro es
            induction es with
            | nil => rfl
            | cons e es ih => simp only [List.map_cons, List.flatMap_cons, ← ih]; rfl
          have hwf : ∀ o ∈ r.entries.map obj, o.WF := by
            intro o ho
            obtain ⟨e, he, rfl⟩ := List.mem_map.mp ho
            exact ⟨Or.inl ⟨by decide, rfl⟩, (g1 e he).2.1⟩
          obtain ⟨more, m1, m2⟩ := inside_proper r.len [] [] (r.entries.map obj) hwf
            (by rw [List.append_nil, hobj]; exact g2)
          rw [m2 rfl, List.append_nil, List.append_nil, List.append_nil, hobj] at m1
          have e : Record.enc r = [0x70] ++ r.len ++ r.entries.flatMap Entry.enc := rfl
          rw [e, m1, List.map_map]
          clear m1 m2 hwf g2 ih ih' hobj
          revert g1
          generalize r.entries = es
          intro g1
          induction es with
          | nil => rfl
          | cons e es ihe =>
            have := ihe (fun x hx => g1 x (by simp [hx]))
            obtain ⟨w1, w2, aid, w3, w4⟩ := g1 e (by simp)
            obtain ⟨r', r1, -, r2⟩ := createFromPse_spec fci.leaves e.body.enc
            obtain ⟨a, rfl, b1, b2⟩ := r2 e.body aid w1 rfl w4 w3
            have haid : e.aid = aid := by unfold Entry.aid; rw [w4]; rfl
            have hmade : made fci.leaves supported (tlvOf (obj e)) =
                if Matches aid supported then some a else none := by
              unfold made tlvOf
              simp only
              rw [if_neg (show ¬ (beNat [0x61] ≠ 0x61) by decide), r1]
              simp only
              rw [b1]
            simp only [List.map_cons]
            by_cases hm : Matches aid supported
            · rw [if_pos hm] at hmade
              rw [List.filterMap_cons_some (by exact hmade)]
              rw [List.filter_cons_of_pos (by rw [haid]; simpa using hm)]
              simp only [List.map_cons]
              rw [this, b1, b2, haid]
            · rw [if_neg hm] at hmade
              rw [List.filterMap_cons_none (by exact hmade)]
              rw [List.filter_cons_of_neg (by rw [haid]; simpa using hm)]
              exact this

/-- A one-record directory with two entries, one of which matches. -/
example : (readPse [⟨0x9F06, 1, [0xA0, 0, 0, 0, 3]⟩] [] [
    ⟨0, [0x6F, 0x05, 0xA5, 0x03, 0x88, 0x01, 0x01], 0x9000⟩,
    ⟨0, [0x70, 0x14, 0x61, 0x09, 0x4F, 0x07, 0xA0, 0, 0, 0, 3, 0x10, 0x10, 0x61, 0x07, 0x4F, 0x05, 0xA0, 0, 0, 0, 4], 0x9000⟩,
    ⟨0, [], 0x6A83⟩]).toOption.map (fun r => (r.1.map (·.1), match r.2 with
      | .done (c, l) _ => (c, l.map (fun a => a.aid.value)) | _ => (1, []))) =
    some ([.select false pseName, .readRecord 1 1, .readRecord 1 2], (0, [[0xA0, 0, 0, 0, 3, 0x10, 0x10]])) := by
  decide +kernel

/-! ## C32: list of AIDs -/

/-- How finding applications by the list of AIDs ends, when the card is honest. -/
def FindPost (aids : List Tlv) (apps : List App) : C (Run (Int × List App)) → Prop
  | .error _ => True
  | .ok (_, .pending _) => True
  | .ok (tr, .done (_, apps') _) =>
    (∀ nx name w, (.select nx name, w) ∈ tr → ∀ v, DfName w.data v → name <+: v) →
    ∀ a ∈ apps', a ∈ apps ∨ Matches a.aid.value aids

theorem findPost_log {aids aids' : List Tlv} {apps apps' : List App} {c : Cmd} {w : W}
    {x : C (Run (Int × List App))} (hsub : ∀ t ∈ aids', t ∈ aids)
    (happ : (∀ nx name, c = .select nx name → ∀ v, DfName w.data v → name <+: v) →
      ∀ a ∈ apps', a ∈ apps ∨ Matches a.aid.value aids)
    (h : FindPost aids' apps' x) : FindPost aids apps (log c w x) := by
  match x, h with
  | .error _, _ => exact trivial
  | .ok (_, .pending _), _ => exact trivial
  | .ok (tr, .done (_, apps'') _), h =>
    intro hon a ha
    rcases h (fun nx name v hv => hon nx name v (List.mem_cons_of_mem _ hv)) a ha with h | ⟨t, ht, hm⟩
    · exact happ (fun nx name hc => hon nx name w (by subst hc; exact List.mem_cons_self)) a h
    · exact Or.inr ⟨t, hsub t ht, hm⟩

theorem findApps_spec (script : List W) : ∀ (aids : List Tlv) (first : Bool) (apps : List App),
    (∀ t ∈ aids, t.flags = 0 ∨ t.flags = 1) → FindPost aids apps (findApps script aids first apps) := by
  induction script with
  | nil =>
    intro aids first apps _
    cases aids with
    | nil => unfold findApps; intro _ a ha; exact Or.inl ha
    | cons aid aids =>
      unfold findApps
      by_cases hr : refusesName aid.value = true
      · rw [if_pos hr]; intro _ a ha; exact Or.inl ha
      · rw [if_neg hr]; exact trivial
  | cons w rest ih =>
    intro aids first apps hfl
    cases aids with
    | nil => unfold findApps; intro _ a ha; exact Or.inl ha
    | cons aid aids =>
      unfold findApps
      have hfl' : ∀ t ∈ aids, t.flags = 0 ∨ t.flags = 1 := fun t ht => hfl t (by simp [ht])
      have stop : ∀ code, FindPost (aid :: aids) apps
          (log (.select (!first) aid.value) w (fin (code, apps) rest)) := by
        intro code _ a ha
        exact Or.inl ha
      have next : FindPost (aid :: aids) apps
          (log (.select (!first) aid.value) w (findApps rest aids true apps)) :=
        findPost_log (fun t ht => by simp [ht]) (fun _ a ha => Or.inl ha) (ih aids true apps hfl')
      by_cases hr : refusesName aid.value = true
      · rw [if_pos hr]; intro _ a ha; exact Or.inl ha
      · rw [if_neg hr]
        simp only
        by_cases h0 : w.code ≠ 0
        · rw [if_pos h0]; exact stop _
        · rw [if_neg h0]
          by_cases h1 : first = true ∧ w.sw = 0x6A81
          · rw [if_pos h1]; exact stop _
          · rw [if_neg h1]
            by_cases h2 : w.sw ≠ 0x9000 ∧ w.sw ≠ 0x6283
            · rw [if_pos h2]; exact next
            · rw [if_neg h2]
              by_cases hd : w.data = []
              · have : createFromFci w.data = .error .uninit := by rw [hd]; rfl
                rw [this]
                exact trivial
              · obtain ⟨r, r1, r2, -⟩ := createFromFci_spec w.data hd
                rw [r1]
                simp only [bind_ok]
                cases r with
                | none => exact next
                | some app =>
                  simp only
                  obtain ⟨hdf, -⟩ := r2 app rfl
                  -- the new application matches if the card is honest and the length is acceptable
                  have hnew : (aid.value.length = app.aid.value.length ∨ aid.flags = 1) →
                      (∀ nx name, Cmd.select (!first) aid.value = .select nx name →
                        ∀ v, DfName w.data v → name <+: v) →
                      ∀ a ∈ (if w.sw = 0x9000 then apps ++ [app] else apps),
                        a ∈ apps ∨ Matches a.aid.value (aid :: aids) := by
                    intro hlen hon a ha
                    have ha : a ∈ apps ++ [app] := by
                      split at ha
                      · exact ha
                      · exact List.mem_append.mpr (Or.inl ha)
                    rcases List.mem_append.mp ha with ha | ha
                    · exact Or.inl ha
                    · right
                      rw [List.mem_singleton.mp ha]
                      have hpre := hon (!first) aid.value rfl _ hdf
                      refine ⟨aid, by simp, ?_⟩
                      rcases hlen with hlen | hlen
                      · have heq := hpre.eq_of_length hlen
                        rcases hfl aid (by simp) with h | h
                        · exact Or.inl ⟨h, heq⟩
                        · exact Or.inr ⟨h, hpre⟩
                      · exact Or.inr ⟨hlen, hpre⟩
                  by_cases h3 : aid.value.length = app.aid.value.length
                  · rw [if_pos h3]
                    exact findPost_log (fun t ht => by simp [ht]) (hnew (Or.inl h3)) (ih aids true _ hfl')
                  · rw [if_neg h3]
                    by_cases h4 : aid.flags = 1
                    · rw [if_pos h4]
                      exact findPost_log (fun t ht => ht) (hnew (Or.inr h4)) (ih (aid :: aids) false _ hfl)
                    · rw [if_neg h4]
                      exact next

/-- **C32** (list of AIDs), partial.  When every SELECT was answered with the name of an
application that starts with the requested name, every candidate found matches a supported
AID.  Missing: cards that answer with another name, for which it is false
(`C32_find_unchecked`). -/
theorem C32_find_partial (supported : List Tlv) (hfl : ∀ t ∈ supported, t.flags = 0 ∨ t.flags = 1)
    (apps : List App) (script : List W) (tr : List (Cmd × W)) (code : Int) (apps' : List App)
    (rest : List W) (h : findApps script supported true apps = .ok (tr, .done (code, apps') rest))
    (honest : ∀ nx name w, (.select nx name, w) ∈ tr → ∀ v, DfName w.data v → name <+: v) :
    ∀ a ∈ apps', a ∈ apps ∨ Matches a.aid.value supported := by
  have := findApps_spec script supported true apps hfl
  rw [h] at this
  exact this honest

/-- **C32**, false otherwise: a card that answers SELECT A000000003 with the name A000000004
gets that application into the candidate list. -/
theorem C32_find_unchecked :
    ∃ tr a, findApps [⟨0, [0x6F, 0x07, 0x84, 0x05, 0xA0, 0, 0, 0, 4], 0x9000⟩]
      [⟨0x9F06, 0, [0xA0, 0, 0, 0, 3]⟩] true [] = .ok (tr, .done (0, [a]) []) ∧
      ¬ Matches a.aid.value [⟨0x9F06, 0, [0xA0, 0, 0, 0, 3]⟩] := by
  refine ⟨[(.select false [0xA0, 0, 0, 0, 3], ⟨0, [0x6F, 0x07, 0x84, 0x05, 0xA0, 0, 0, 0, 4], 0x9000⟩)],
    ⟨⟨0x84, 0, [0xA0, 0, 0, 0, 4]⟩, [0x41, 0x30, 0x30, 0x30, 0x30, 0x30, 0x30, 0x30, 0x30, 0x34] ++
      List.replicate 23 0, 0, false, [⟨0x84, 0, [0xA0, 0, 0, 0, 4]⟩]⟩, by decide +kernel, by decide⟩

/-- A card that answers SELECT with 9000 and no data causes an uninitialised read. -/
theorem C32_find_empty_fci : findApps [⟨0, [], 0x9000⟩] [⟨0x9F06, 0, [0xA0, 0, 0, 0, 3]⟩] true [] =
    .error .uninit := by decide +kernel

/-- An honest card with a partial match and then no more. -/
example : (findApps [⟨0, [0x6F, 0x08, 0x84, 0x06, 0xA0, 0, 0, 0, 3, 1], 0x9000⟩, ⟨0, [], 0x6A82⟩]
      [⟨0x9F06, 1, [0xA0, 0, 0, 0, 3]⟩] true []).toOption.map (fun r => (r.1.map (·.1), match r.2 with
      | .done (c, l) _ => (c, l.map (fun a => a.aid.value)) | _ => (1, []))) =
    some ([.select false [0xA0, 0, 0, 0, 3], .select true [0xA0, 0, 0, 0, 3]],
      (0, [[0xA0, 0, 0, 0, 3, 1]])) := by decide +kernel

/-! ## C33 -/

/-- **C33** (order).  Reading the directory selects the payment system environment and then
reads records 1, 2, 3, ... of one file (the 8-bit number wraps); it goes on exactly while
the card answers without reporting "record not found", and succeeds exactly on that report. -/
theorem C33_order (supported : List Tlv) (apps : List App) (script : List W)
    (tr : List (Cmd × W)) (code : Int) (apps' : List App) (rest : List W)
    (h : readPse supported apps script = .ok (tr, .done (code, apps') rest)) :
    script = tr.map (·.2) ++ rest ∧
    (∃ sfi, tr.map (·.1) = .select false pseName :: numbered sfi 1 (tr.length - 1)) ∧
    (code = 0 → ∃ w0 good last, tr.map (·.2) = w0 :: (good ++ [last]) ∧
      (∀ x ∈ good, x.code = 0 ∧ x.sw ≠ 0x6A83) ∧ last.code = 0 ∧ last.sw = 0x6A83) ∧
    (1 < tr.length → code ≠ 0 → code = -3 ∧ apps' = [] ∧ ∃ w0 good last,
      tr.map (·.2) = w0 :: (good ++ [last]) ∧
      (∀ x ∈ good, x.code = 0 ∧ x.sw ≠ 0x6A83) ∧ last.code ≠ 0) := by
  rcases readPse_cases supported apps script with ⟨o, h1, h2, -⟩ | ⟨w, rest, code, apps', rfl, h2, h3, -⟩ |
    ⟨w, rest, pse, sfi, rfl, -, -, -, -, h5, h6⟩
  · rw [h1] at h
    subst h2
    cases h
  · rw [h2] at h
    cases h
    exact ⟨rfl, ⟨0, rfl⟩, fun h => absurd h h3, fun h => by simp at h⟩
  · have hp := pseLoop_spec pse supported sfi h5 rest 1 apps
    rw [h6] at h
    generalize pseLoop pse supported sfi rest 1 apps = x at hp h
    match x, hp with
    | .ok (tr, .pending c), _ => simp [log] at h
    | .ok (tr, .done (code, apps') rest'), ⟨a1, a2, good, w', a3, a4, a5⟩ =>
      simp only [log, bind_ok, Except.ok.injEq, Prod.mk.injEq, Out.done.injEq] at h
      obtain ⟨rfl, ⟨rfl, rfl⟩, rfl⟩ := h
      refine ⟨by simp [a1], ⟨sfi, by simp [a2]⟩, ?_, ?_⟩
      · intro h0
        rcases a5 with ⟨b1, -⟩ | ⟨-, b2, b3, -⟩
        · omega
        · exact ⟨w, good, w', by simp [a3], a4, b2, b3⟩
      · intro _ h0
        rcases a5 with ⟨b1, b2, b3⟩ | ⟨b1, -⟩
        · exact ⟨b1, b3, w, good, w', by simp [a3], a4, b2⟩
        · exact absurd b1 h0

/-- **C33** (termination), partial: for cards that at some point report "record not found" or
cause a transport error.  Missing: other cards, for which it is false (`C33_endless`). -/
theorem C33_terminates_partial (supported : List Tlv) (apps : List App) (w0 : W) (script : List W)
    (w : W) (hw : w ∈ script) (hend : w.code ≠ 0 ∨ w.sw = 0x6A83) :
    ∃ tr a rest, readPse supported apps (w0 :: script) = .ok (tr, .done a rest) := by
  rcases readPse_cases supported apps (w0 :: script) with ⟨o, h1, h2, h3⟩ | ⟨w, rest, code, apps', h1, h2, h3, -⟩ |
    ⟨w', rest, pse, sfi, h1, -, -, -, -, h5, h6⟩
  · cases h3
  · exact ⟨_, _, _, h2⟩
  · cases h1
    have hp := pseLoop_spec pse supported sfi h5 script 1 apps
    rw [h6]
    generalize pseLoop pse supported sfi script 1 apps = x at hp
    match x, hp with
    | .ok (tr, .pending c), ⟨_, _, a3⟩ =>
      exfalso
      have := a3 w hw
      rcases hend with h | h
      · exact h this.1
      · exact this.2 h
    | .ok (tr, .done a rest'), _ => exact ⟨_, a, rest', rfl⟩

/-- **C33**, false in general: no number of answers satisfies the loop if none of them reports
"record not found". -/
theorem C33_endless (supported : List Tlv) (apps : List App) (answers : List W)
    (h : ∀ w ∈ answers, w.code = 0 ∧ w.sw ≠ 0x6A83) :
    ∃ tr c, readPse supported apps (⟨0, [0x6F, 0x05, 0xA5, 0x03, 0x88, 0x01, 0x01], 0x9000⟩ :: answers) =
      .ok (tr, .pending c) ∧ tr.length = answers.length + 1 := by
  have hpar : parse allocOk [0x6F, 0x05, 0xA5, 0x03, 0x88, 0x01, 0x01] [] = .ok (0, [⟨0x88, 0, [1]⟩]) := by
    decide +kernel
  have hloop : readPse supported apps (⟨0, [0x6F, 0x05, 0xA5, 0x03, 0x88, 0x01, 0x01], 0x9000⟩ :: answers) =
      log (.select false pseName) ⟨0, [0x6F, 0x05, 0xA5, 0x03, 0x88, 0x01, 0x01], 0x9000⟩
        (pseLoop [⟨0x88, 0, [1]⟩] supported 1 answers 1 apps) := by
    unfold readPse send
    rw [show refusesName pseName = false by decide]
    simp only [Bool.false_eq_true, if_false]
    rw [if_neg (by decide), if_neg (by decide), if_neg (by decide), if_neg (by decide), if_neg (by decide), hpar]
    rfl
  have hp := pseLoop_spec [⟨0x88, 0, [1]⟩] supported 1 (by decide) answers 1 apps
  rw [hloop]
  generalize pseLoop [⟨0x88, 0, [1]⟩] supported 1 answers 1 apps = x at hp
  match x, hp with
  | .ok (tr, .pending c), ⟨a1, _, _⟩ =>
    refine ⟨_, c, rfl, ?_⟩
    rw [← a1]; simp
  | .ok (tr, .done (code, apps') rest'), ⟨a1, _, good, w', a3, _, a5⟩ =>
    exfalso
    have := h w' (by rw [a1, a3]; simp)
    rcases a5 with ⟨-, b, -⟩ | ⟨-, -, b, -⟩
    · exact b this.1
    · exact this.2 b

end Verif.Tal
