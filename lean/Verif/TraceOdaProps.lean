import Verif.TraceCause
import Verif.FieldsProps

/-! # What is reported while the records of the AFL are read (C135) -/

set_option autoImplicit false

namespace Verif.Trace
open Verif Ber TlvParse App Fields Tal

/-- The report on the records read from one file: each is announced; a record in a template is
said to be used for offline data authentication unless one before it in this file was not in a
template, which is reported as an error. -/
def report (sfi : Byte) : Byte → List W → Bool → List Entry
  | _, [], _ => []
  | rec, w :: ws, spoilt =>
    .said (info 2 (txt!"READ RECORD from SFI " ++ Lists.decimal sfi.toNat ++ txt!", record " ++
      Lists.decimal rec.toNat)) :: .did (.readRecord sfi rec) w ::
    (if w.data.head? = some 0x70 then
      (if spoilt then [] else [.said (info 2 (if 1 ≤ sfi.toNat ∧ sfi.toNat ≤ 10
        then txt!"Record template content used for offline data authentication"
        else txt!"Record used verbatim for offline data authentication"))]) ++
      report sfi (rec + 1) ws spoilt
    else .said (error 2 txt!"Offline data authentication not possible due to invalid record") ::
      report sfi (rec + 1) ws true)

theorem record_next {alloc : List Tlv → Tlv → Bool} {sfi : Byte} {data : List Byte} {oda : Bool}
    {list list' : List Tlv} {es : List Event}
    (h : record alloc sfi data oda list = .ok (es, .next list')) :
    data.head? = some 0x70 ∧ es = if oda then [] else [info 2 (if 1 ≤ sfi.toNat ∧ sfi.toNat ≤ 10
        then txt!"Record template content used for offline data authentication"
        else txt!"Record used verbatim for offline data authentication")] := by
  unfold record at h
  split at h
  · cases h
  obtain ⟨b, hb, h⟩ := Ttl.bind_inv h
  have hd : data.head? = some b := by
    revert hb
    cases data with
    | nil => intro hb; simp [rd] at hb
    | cons x v => intro hb; simp [rd] at hb; simp [hb]
  split at h
  · split at h <;> cases h
  · rename_i h70
    have h70 : b = 0x70 := by simpa using h70
    obtain ⟨⟨es', bad⟩, ht, h⟩ := Ttl.bind_inv h
    simp only at h
    split at h
    · cases h
    rename_i hbad
    obtain ⟨⟨r, l⟩, _, h⟩ := Ttl.bind_inv h
    simp only at h
    split at h
    · cases h
    split at h
    · cases h
    cases h
    refine ⟨by rw [hd, h70], ?_⟩
    unfold template at ht
    by_cases hs : sfi.toNat ≥ 1 ∧ sfi.toNat ≤ 10
    · rw [if_pos hs] at ht
      rw [if_pos hs]
      obtain ⟨d, _, ht⟩ := Ttl.bind_inv ht
      cases d with
      | eod => cases ht; exact absurd rfl hbad
      | err n => cases ht; exact absurd rfl hbad
      | ok n t =>
        simp only at ht
        split at ht
        · cases ht; exact absurd rfl hbad
        · split at ht
          · cases ht; exact absurd rfl hbad
          · cases ht; rfl
    · rw [if_neg hs] at ht
      rw [if_neg hs]
      cases ht; rfl

theorem record_spoilt {alloc : List Tlv → Tlv → Bool} {sfi : Byte} {data : List Byte} {oda : Bool}
    {list : List Tlv} {es : List Event} (h : record alloc sfi data oda list = .ok (es, .spoilt)) :
    data.head? ≠ some 0x70 ∧ ¬ (1 ≤ sfi.toNat ∧ sfi.toNat ≤ 10) ∧
      es = [error 2 txt!"Offline data authentication not possible due to invalid record"] := by
  unfold record at h
  split at h
  · cases h
  obtain ⟨b, hb, h⟩ := Ttl.bind_inv h
  have hd : data.head? = some b := by
    revert hb
    cases data with
    | nil => intro hb; simp [rd] at hb
    | cons x v => intro hb; simp [rd] at hb; simp [hb]
  split at h
  · rename_i h70
    split at h
    · cases h
    · cases h
      exact ⟨by rw [hd]; simpa using h70, ‹_›, rfl⟩
  · obtain ⟨⟨es', bad⟩, ht, h⟩ := Ttl.bind_inv h
    simp only at h
    split at h
    · cases h
    obtain ⟨⟨r, l⟩, _, h⟩ := Ttl.bind_inv h
    simp only at h
    repeat' split at h
    all_goals cases h

theorem readEv_eq (sfi rec : Byte) : readEv sfi rec = info 2 (txt!"READ RECORD from SFI " ++
    Lists.decimal sfi.toNat ++ txt!", record " ++ Lists.decimal rec.toNat) := by
  unfold readEv
  rw [Lists.decU_spec _ (by have := sfi.toNat_lt; omega),
    Lists.decU_spec _ (by have := rec.toNat_lt; omega)]

/-- What a successful reading of the rest of a file reports and consumes. -/
def FileRead (sfi last rec : Byte) (oda : Bool) (script : List W) (l : List Entry) (c : Int)
    (rest : List W) : Prop :=
  ∃ ws, script = ws ++ rest ∧ l = report sfi rec ws oda ∧
    (∀ w ∈ ws, w.code = 0 ∧ w.sw = 0x9000) ∧
    (last.toNat < 255 → ws.length = last.toNat + 1 - rec.toNat) ∧
    (1 ≤ sfi.toNat ∧ sfi.toNat ≤ 10 → ∀ w ∈ ws, w.data.head? = some 0x70) ∧
    c = (if oda = true ∨ ∃ w ∈ ws, w.data.head? ≠ some 0x70 then 14 else 0)

theorem read_sfiLoop (alloc : List Tlv → Tlv → Bool) (sfi last : Byte) :
    ∀ (script : List W) (rec : Byte) (oda : Bool) (list : List Tlv) (l : List Entry) (c : Int)
      (list' : List Tlv) (rest : List W),
      sfiLoop alloc sfi last script rec oda list = .ok (l, .done (c, list') rest) → 0 ≤ c →
      FileRead sfi last rec oda script l c rest := by
  intro script
  induction script with
  | nil =>
    intro rec oda list l c list' rest h hc
    rw [sfiLoop] at h
    split at h
    · cases h
      exact ⟨[], rfl, rfl, by simp, fun _ => by simp only [List.length_nil]; omega, by simp, by simp⟩
    · obtain ⟨l1, h1, rfl⟩ := says_inv h
      split at h1
      · obtain ⟨l2, h2, rfl⟩ := says_inv h1
        cases h2
        exact absurd hc (by decide)
      · cases h1
  | cons w rest' ih =>
    intro rec oda list l c list' rest h hc
    rw [sfiLoop] at h
    split at h
    · cases h
      exact ⟨[], rfl, rfl, by simp, fun _ => by simp only [List.length_nil]; omega, by simp, by simp⟩
    · obtain ⟨l1, h1, rfl⟩ := says_inv h
      split at h1
      · obtain ⟨l2, h2, rfl⟩ := says_inv h1
        cases h2
        exact absurd hc (by decide)
      obtain ⟨l2, h2, rfl⟩ := did_inv h1
      split at h2
      · obtain ⟨l3, h3, rfl⟩ := says_inv h2
        cases h3
        exact absurd hc (by decide)
      split at h2
      · obtain ⟨l3, h3, rfl⟩ := says_inv h2
        cases h3
        exact absurd hc (by decide)
      have hw : w.code = 0 ∧ w.sw = 0x9000 := by constructor <;> omega
      have hlen : ∀ ws : List W, (last.toNat < 255 → ws.length = last.toNat + 1 - (rec + 1).toNat) →
          last.toNat < 255 → (w :: ws).length = last.toNat + 1 - rec.toNat := by
        intro ws hn hl
        have := hn hl
        rw [UInt8.toNat_add] at this
        simp only [List.length_cons]
        have h1 : (1 : Byte).toNat = 1 := rfl
        omega
      obtain ⟨⟨es, r⟩, hr, h3⟩ := Ttl.bind_inv h2
      cases r with
      | stop code lst =>
        obtain ⟨l4, h4, rfl⟩ := says_inv h3
        cases h4
        have := record_code hr
        omega
      | spoilt =>
        obtain ⟨l4, h4, rfl⟩ := says_inv h3
        obtain ⟨ws, h5, h6, h7, hn, h9, h8⟩ := ih _ _ _ _ _ _ _ h4 hc
        obtain ⟨g1, g2, g3⟩ := record_spoilt hr
        refine ⟨w :: ws, by rw [h5]; rfl, ?_, by simpa [hw] using h7, hlen ws hn,
          fun h => absurd h g2, ?_⟩
        · rw [report, if_neg g1, h6, g3, readEv_eq]; rfl
        · rw [h8, if_pos (Or.inl rfl), if_pos (Or.inr ⟨w, by simp, g1⟩)]
      | next lst =>
        obtain ⟨l4, h4, rfl⟩ := says_inv h3
        obtain ⟨ws, h5, h6, h7, hn, h9, h8⟩ := ih _ _ _ _ _ _ _ h4 hc
        obtain ⟨g1, g3⟩ := record_next hr
        refine ⟨w :: ws, by rw [h5]; rfl, ?_, by simpa [hw] using h7, hlen ws hn,
          fun h => by simpa [g1] using h9 h, ?_⟩
        · rw [report, if_pos g1, h6, g3, readEv_eq]
          cases oda <;> rfl
        · rw [h8]
          simp [g1]

/-- The records of one file read with success: what is reported, for which answers, and whether
offline data authentication is said to be impossible (result 14). -/
theorem C135_file (alloc : List Tlv → Tlv → Bool) (e : AflEntry) (list : List Tlv)
    (script : List W) (l : List Entry) (c : Int) (list' : List Tlv) (rest : List W)
    (h : readSfi alloc e list script = .ok (l, .done (c, list') rest)) (hc : 0 ≤ c) :
    FileRead e.sfi e.last e.first false script l c rest :=
  read_sfiLoop _ _ _ _ _ _ _ _ _ _ _ h hc

/-- The answers with which the records of one entry are read: as many as it designates, all with
success, and those of the files 1 to 10 in a template. -/
def Complete (e : AflEntry) (ws : List W) : Prop :=
  (e.last.toNat < 255 → ws.length = e.last.toNat + 1 - e.first.toNat) ∧
  (∀ w ∈ ws, w.code = 0 ∧ w.sw = 0x9000) ∧
  (e.sfi.toNat ≤ 10 → ∀ w ∈ ws, w.data.head? = some 0x70)

theorem read_aflLoop (alloc : List Tlv → Tlv → Bool) :
    ∀ (es : List AflEntry) (fuel : Nat) (oda : Bool) (list : List Tlv) (script : List W)
      (l : List Entry) (c : Int) (list' : List Tlv) (rest : List W), (∀ e ∈ es, e.WF) →
      aflLoop alloc fuel (encAfl es) oda list script = .ok (l, .done (c, list') rest) → 0 ≤ c →
      ∃ rs : List (AflEntry × List W), rs.map (·.1) = es ∧ script = rs.flatMap (·.2) ++ rest ∧
        (∀ r ∈ rs, Complete r.1 r.2) ∧
        l = rs.flatMap (fun r => report r.1.sfi r.1.first r.2 false) ∧
        c = (if oda = true ∨ ∃ r ∈ rs, ∃ w ∈ r.2, w.data.head? ≠ some 0x70 then 14 else 0) := by
  intro es
  induction es with
  | nil =>
    intro fuel oda list script l c list' rest _ h hc
    cases fuel with
    | zero => cases h
    | succ n =>
      have : aflNext (encAfl []) = .ok ([], .eod) := rfl
      rw [aflLoop, this] at h
      cases h
      exact ⟨[], rfl, rfl, by simp, rfl, by simp⟩
  | cons e es ih =>
    intro fuel oda list script l c list' rest hwf h hc
    cases fuel with
    | zero => cases h
    | succ n =>
      rw [aflLoop, encAfl_cons, aflNext_enc e (hwf e (by simp)) _ (by rw [encAfl_length]; omega)] at h
      simp only [bind_ok] at h
      obtain ⟨l1, ⟨c1, b⟩, r, l2, h1, h2, rfl⟩ := andThen_inv h
      have hwe := hwf e (by simp)
      have hwf' : ∀ e ∈ es, e.WF := fun x hx => hwf x (by simp [hx])
      have key : 0 ≤ c1 → ∀ oda', (oda' = true ↔ oda = true ∨ c1 = 14) →
          aflLoop alloc n (encAfl es) oda' b r = .ok (l2, .done (c, list') rest) →
          ∃ rs : List (AflEntry × List W), rs.map (·.1) = e :: es ∧
            script = rs.flatMap (·.2) ++ rest ∧ (∀ r ∈ rs, Complete r.1 r.2) ∧
            l1 ++ l2 = rs.flatMap (fun r => report r.1.sfi r.1.first r.2 false) ∧
            c = (if oda = true ∨ ∃ r ∈ rs, ∃ w ∈ r.2, w.data.head? ≠ some 0x70 then 14
              else 0) := by
        intro hc1 oda' ho h3
        obtain ⟨rs, g1, g2, g3, g4, g5⟩ := ih _ _ _ _ _ _ _ _ hwf' h3 hc
        obtain ⟨ws, f1, f2, f3, f4, f5, f6⟩ := C135_file _ _ _ _ _ _ _ _ h1 hc1
        refine ⟨(e, ws) :: rs, by simp [g1], by simp [f1, g2], ?_, by simp [f2, g4], ?_⟩
        · intro x hx
          rcases List.mem_cons.mp hx with rfl | hx
          · exact ⟨f4, f3, fun h => f5 ⟨hwe.1, h⟩⟩
          · exact g3 x hx
        · have h14 : c1 = 14 ↔ ∃ w ∈ ws, w.data.head? ≠ some 0x70 := by
            rw [f6]
            by_cases hw : ∃ w ∈ ws, w.data.head? ≠ some 0x70
            · rw [if_pos (Or.inr hw)]; simp [hw]
            · rw [if_neg (by simp [hw])]; simp [hw]
          rw [g5]
          simp only [ho, h14, List.mem_cons, or_assoc, exists_eq_or_imp]
      simp only at h2
      split at h2
      · rename_i h0
        exact key (by omega) oda (by rw [h0]; simp) h2
      split at h2
      · rename_i h14
        exact key (by omega) true (by simp [h14]) h2
      · cases h2
        obtain ⟨ws, f1, f2, f3, f4, f5, f6⟩ := C135_file _ _ _ _ _ _ _ _ h1 hc
        split at f6 <;> omega

theorem wf_aflLoop (alloc : List Tlv → Tlv → Bool) :
    ∀ (fuel : Nat) (itr : List Byte) (oda : Bool) (list : List Tlv) (script : List W)
      (l : List Entry) (c : Int) (list' : List Tlv) (rest : List W), itr.length % 4 = 0 →
      aflLoop alloc fuel itr oda list script = .ok (l, .done (c, list') rest) → 0 ≤ c →
      ∃ es, (∀ e ∈ es, AflEntry.WF e) ∧ itr = encAfl es := by
  intro fuel
  induction fuel with
  | zero => intro itr oda list script l c list' rest _ h _; cases h
  | succ n ih =>
    intro itr oda list script l c list' rest hm h hc
    rw [aflLoop] at h
    rcases aflNext_any itr hm with ⟨rfl, _⟩ | ⟨_, _, e, _, h1⟩ | ⟨e, r, hw, rfl, hr, h1⟩
    · exact ⟨[], by simp, rfl⟩
    · rw [h1] at h
      simp only [bind_ok] at h
      obtain ⟨l2, h2, rfl⟩ := says_inv h
      cases h2
      omega
    · rw [h1] at h
      simp only [bind_ok] at h
      obtain ⟨l1, ⟨c1, b⟩, r1, l2, h2, h3, rfl⟩ := andThen_inv h
      have key : ∀ oda', aflLoop alloc n r oda' b r1 = .ok (l2, .done (c, list') rest) →
          ∃ es, (∀ e ∈ es, AflEntry.WF e) ∧ e.enc ++ r = encAfl es := by
        intro oda' h4
        obtain ⟨es, g1, g2⟩ := ih _ _ _ _ _ _ _ _ hr h4 hc
        exact ⟨e :: es, by simpa [hw] using g1, by rw [encAfl_cons, g2]⟩
      simp only at h3
      split at h3
      · exact key _ h3
      split at h3
      · exact key _ h3
      · cases h3
        obtain ⟨ws, f1, f2, f3, f4, f5, f6⟩ := C135_file _ _ _ _ _ _ _ _ h2 hc
        split at f6 <;> omega

/-- If the records of an AFL are read with success, the AFL is a list of well-formed entries, the
records of each were read, and this is what is reported of them; offline data authentication is
said to be impossible (result 14) if some record read is not in a template.  Partial: the AFL says
in the last byte of each entry how many of its records are for offline data authentication; the
code disregards it, so neither the reports nor the result depend on it, as the witnesses below
show. -/
theorem C135_afl_partial (alloc : List Tlv → Tlv → Bool) (afl : List Byte) (list : List Tlv)
    (script : List W) (l : List Entry) (c : Int) (list' : List Tlv) (rest : List W)
    (h : readAfl alloc afl list script = .ok (l, .done (c, list') rest)) (hc : 0 ≤ c) :
    ∃ rs : List (AflEntry × List W), (∀ r ∈ rs, r.1.WF ∧ Complete r.1 r.2) ∧
      afl = encAfl (rs.map (·.1)) ∧ script = rs.flatMap (·.2) ++ rest ∧
      l = rs.flatMap (fun r => report r.1.sfi r.1.first r.2 false) ∧
      c = (if ∃ r ∈ rs, ∃ w ∈ r.2, w.data.head? ≠ some 0x70 then 14 else 0) := by
  unfold readAfl at h
  split at h
  · cases h
    omega
  simp only at h
  split at h
  · obtain ⟨l2, h2, rfl⟩ := says_inv h
    cases h2
    omega
  split at h
  · obtain ⟨l2, h2, rfl⟩ := says_inv h
    cases h2
    omega
  rename_i g1 g2 g3
  have hm : afl.length % 4 = 0 := by
    unfold aflInit at g2 g3
    split at g3
    · omega
    split at g3
    · omega
    · omega
  obtain ⟨es, hwf, rfl⟩ := wf_aflLoop _ _ _ _ _ _ _ _ _ _ hm h hc
  obtain ⟨rs, f1, f2, f3, f4, f5⟩ := read_aflLoop _ _ _ _ _ _ _ _ _ _ hwf h hc
  refine ⟨rs, fun r hr => ⟨hwf _ (f1 ▸ List.mem_map_of_mem hr), f3 r hr⟩, by rw [f1], f2, f4, ?_⟩
  rw [f5]
  simp only [Bool.false_eq_true, false_or]

/-- Two records of file 11, of which the second is not in a template, then one of file 1. -/
example : readAfl allocOk [0x58, 1, 2, 0, 0x08, 1, 1, 1] []
    [⟨0, [0x70, 0x00], 0x9000⟩, ⟨0, [0x5A, 0x00], 0x9000⟩, ⟨0, [0x70, 0x00], 0x9000⟩] =
    .ok ([.said (info 2 txt!"READ RECORD from SFI 11, record 1"),
      .did (.readRecord 11 1) ⟨0, [0x70, 0x00], 0x9000⟩,
      .said (info 2 txt!"Record used verbatim for offline data authentication"),
      .said (info 2 txt!"READ RECORD from SFI 11, record 2"),
      .did (.readRecord 11 2) ⟨0, [0x5A, 0x00], 0x9000⟩,
      .said (error 2 txt!"Offline data authentication not possible due to invalid record"),
      .said (info 2 txt!"READ RECORD from SFI 1, record 1"),
      .did (.readRecord 1 1) ⟨0, [0x70, 0x00], 0x9000⟩,
      .said (info 2 txt!"Record template content used for offline data authentication")],
      .done (14, []) []) := by
  rfl

/-! ## What the claim misses -/

/-- Records which the AFL designates for offline data authentication: the first `oda` of each
entry. -/
def designated (rs : List (AflEntry × List W)) : List W :=
  rs.flatMap fun r => r.2.take r.1.oda.toNat

/-- The result 14 does not mean that a record designated for offline data authentication is not in
a template: here the AFL designates no record at all. -/
theorem C135_undesignated : ¬ ∀ (e : AflEntry) (ws : List W) (l : List Entry) (c : Int)
    (list : List Tlv), e.WF → readAfl allocOk e.enc [] ws = .ok (l, .done (c, list) []) →
    (c = 14 ↔ ∃ w ∈ designated [(e, ws)], w.data.head? ≠ some 0x70) := by
  intro h
  have := (h ⟨12, 1, 1, 0⟩ [⟨0, [0x5A, 0x00], 0x9000⟩] _ _ _ (by decide) rfl).mp rfl
  simp [designated] at this

/-- A record is reported as used for offline data authentication although the AFL does not
designate it. -/
theorem C135_used : ¬ ∀ (e : AflEntry) (ws : List W) (l : List Entry) (c : Int)
    (list : List Tlv), e.WF → readAfl allocOk e.enc [] ws = .ok (l, .done (c, list) []) →
    .said (info 2 txt!"Record template content used for offline data authentication") ∈ l →
    designated [(e, ws)] ≠ [] := by
  intro h
  exact h ⟨1, 1, 1, 0⟩ [⟨0, [0x70, 0x00], 0x9000⟩] _ _ _ (by decide) rfl (by decide +kernel) rfl

/-- After a record which makes offline data authentication impossible, records of the next entry
of the AFL are again reported as used for it. -/
theorem C135_again : ∃ l1 l2 c list, readAfl allocOk [0x58, 1, 1, 1, 0x08, 1, 1, 1] []
      [⟨0, [0x5A, 0x00], 0x9000⟩, ⟨0, [0x70, 0x00], 0x9000⟩] =
        .ok (l1 ++ .said (error 2
          txt!"Offline data authentication not possible due to invalid record") :: l2,
          .done (c, list) []) ∧
    .said (info 2 txt!"Record template content used for offline data authentication") ∈ l2 := by
  refine ⟨[.said (info 2 txt!"READ RECORD from SFI 11, record 1"),
    .did (.readRecord 11 1) ⟨0, [0x5A, 0x00], 0x9000⟩],
    [.said (info 2 txt!"READ RECORD from SFI 1, record 1"),
      .did (.readRecord 1 1) ⟨0, [0x70, 0x00], 0x9000⟩,
      .said (info 2 txt!"Record template content used for offline data authentication")],
    14, [], rfl, by decide +kernel⟩

end Verif.Trace
