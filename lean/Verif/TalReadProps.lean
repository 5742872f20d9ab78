import Verif.TalReadLemmas

/-! # Properties of reading records: C28, C29, C30 -/

set_option autoImplicit false

namespace Verif.Tal
open Verif Ber BerSpec TlvParse App Fields

/-! ## C28 -/

/-- **C28** (order).  For every AFL entry and card: the commands answered are READ RECORD
first, first+1, ... once each; reading goes on only while the answers are acceptable records;
the result is success exactly when it got through to the last record, otherwise the last
answer is the one that failed. -/
theorem C28_order (alloc : List Tlv → Tlv → Bool) (e : AflEntry) (he : e.WF) (list : List Tlv)
    (script : List W) (tr : List (Cmd × W)) (code : Int) (list' : List Tlv) (rest : List W)
    (h : readSfi alloc e list script = .ok (tr, .done (code, list') rest)) :
    script = tr.map (·.2) ++ rest ∧
    tr.map (·.1) = numbered e.sfi e.first tr.length ∧
    ((code = 0 ∨ code = 14) → tr.length = e.last.toNat + 1 - e.first.toNat ∧ ∃ fs b, Reads tr fs b) ∧
    (code ≠ 0 ∧ code ≠ 14 → ∃ good fs b rc w, tr = good ++ [(.readRecord e.sfi rc, w)] ∧
      Reads good fs b ∧ Failing alloc e.sfi w code) := by
  have hs := sfiLoop_spec alloc e.sfi e.last he.1 he.2.1 script e.first false list
    (by have := he.2.2.2.1; omega)
  unfold readSfi at h
  rw [h] at hs
  obtain ⟨a1, a2, a3⟩ := hs
  refine ⟨a1, a2, ?_, ?_⟩
  · intro hc
    rcases a3 with ⟨b1, b2, fs, b, b3, -⟩ | ⟨-, good, fs, b, rc, w, part, -, -, -, -, b6⟩
    · exact ⟨by omega, fs, b, b3⟩
    · have := failing_code b6
      omega
  · intro hc
    rcases a3 with ⟨b1, b2, fs, b, b3, -, b5⟩ | ⟨-, good, fs, b, rc, w, part, b2, b3, -, -, b6⟩
    · exfalso
      cases b <;> simp at b5 <;> omega
    · exact ⟨good, fs, b, rc, w, b2, b3, b6⟩

/-- **C28** (termination), partial: for ranges that do not end at 255.  At most
last-first+1 exchanges take place, so a card that keeps answering brings it to an end.
Missing: ranges up to 255, for which it is false (`C28_endless`). -/
theorem C28_terminates_partial (alloc : List Tlv → Tlv → Bool) (e : AflEntry) (he : e.WF)
    (h255 : e.last.toNat < 255) (list : List Tlv) (script : List W) :
    (∀ tr o, readSfi alloc e list script = .ok (tr, o) →
      tr.length ≤ e.last.toNat + 1 - e.first.toNat) ∧
    (e.last.toNat + 1 - e.first.toNat ≤ script.length →
      ∀ tr c, readSfi alloc e list script ≠ .ok (tr, .pending c)) := by
  have hs := sfiLoop_spec alloc e.sfi e.last he.1 he.2.1 script e.first false list
    (by have := he.2.2.2.1; omega)
  constructor
  · intro tr o h
    unfold readSfi at h
    rw [h] at hs
    match o, hs with
    | .pending c, ⟨_, _, _, a4⟩ => have := a4 h255; omega
    | .done (code, list') rest, ⟨_, _, a3⟩ =>
      rcases a3 with ⟨-, b2, -⟩ | ⟨b1, -⟩
      · omega
      · have := b1 h255; omega
  · intro hl tr c h
    unfold readSfi at h
    rw [h] at hs
    obtain ⟨a1, -, -, a4⟩ := hs
    have := a4 h255
    have : tr.length = script.length := by rw [← a1]; simp
    omega

/-- The witness record `70 02 5A 00` is accepted for SFI 1. -/
theorem record_witness (list : List Tlv) : record allocOk 1 [0x70, 0x02, 0x5A, 0x00] list =
    .ok (.next (list ++ [⟨0x5A, 0, []⟩])) := by
  have h := C05_parse_leaves (.node [0x70] [0x02] (.leaf ⟨[0x5A], [0x00], []⟩ .nil) .nil)
    ⟨Or.inl ⟨by decide, rfl⟩, by decide, LenOctets.short 2 (by decide),
      ⟨⟨Or.inl ⟨by decide, rfl⟩, LenOctets.short 0 (by decide)⟩, by decide, trivial⟩, trivial⟩ list
  have e : Forest.enc (.node [0x70] [0x02] (.leaf ⟨[0x5A], [0x00], []⟩ .nil) .nil) =
    [0x70, 0x02, 0x5A, 0x00] := rfl
  rw [e] at h
  unfold record
  have hd : decode [0x70, 0x02, 0x5A, 0x00] = .ok (.ok 4 ⟨0x70, 0x60, [0x5A, 0x00]⟩) := by
    decide +kernel
  rw [hd, h]
  rfl

/-- **C28**, false for ranges that end at 255: the 8-bit counter wraps to 0 and reading never
ends.  For every n, a card that answers n times is asked for one more record. -/
theorem C28_endless (first : Byte) (n : Nat) (list : List Tlv) :
    ∃ tr c, readSfi allocOk ⟨1, first, 255, 0⟩ list
      (List.replicate n ⟨0, [0x70, 0x02, 0x5A, 0x00], 0x9000⟩) = .ok (tr, .pending c) ∧
      tr.length = n := by
  unfold readSfi
  simp only
  generalize false = oda
  induction n generalizing first list oda with
  | zero =>
    refine ⟨[], .readRecord 1 first, ?_, rfl⟩
    unfold sfiLoop
    have := toNat_lt first
    rw [if_neg (by simp; omega)]
    rfl
  | succ n ih =>
    rw [List.replicate_succ]
    unfold sfiLoop
    have := toNat_lt first
    rw [if_neg (by simp; omega)]
    have hr : refusesSfi 1 = false := rfl
    rw [hr]
    simp only [Bool.false_eq_true, if_false]
    rw [if_neg (by decide), if_neg (by decide), record_witness]
    simp only [bind_ok]
    obtain ⟨tr, c, h1, h2⟩ := ih (first + 1) (list ++ [⟨0x5A, 0, []⟩]) oda
    rw [h1]
    exact ⟨_, c, rfl, by simp [h2]⟩

example : AflEntry.WF ⟨1, 1, 255, 0⟩ := by decide
example : readSfi allocOk ⟨1, 1, 2, 0⟩ [] [⟨0, [0x70, 0x02, 0x5A, 0x00], 0x9000⟩,
    ⟨0, [0x70, 0x03, 0x50, 0x01, 0x41], 0x9000⟩, ⟨0, [], 0x6A83⟩] =
  .ok ([(.readRecord 1 1, ⟨0, [0x70, 0x02, 0x5A, 0x00], 0x9000⟩),
    (.readRecord 1 2, ⟨0, [0x70, 0x03, 0x50, 0x01, 0x41], 0x9000⟩)],
    .done (0, [⟨0x5A, 0, []⟩, ⟨0x50, 0, [0x41]⟩]) [⟨0, [], 0x6A83⟩]) := by decide +kernel

/-! ## C29 and C30 -/

theorem reads_mem {tr : List (Cmd × W)} {fs : List Tlv} {b : Bool} (h : Reads tr fs b) :
    (∀ x ∈ tr, ∃ sfi rc new, x.1 = .readRecord sfi rc ∧ x.2.code = 0 ∧ x.2.sw = 0x9000 ∧
      Accepted sfi x.2.data new ∧ ∀ t ∈ new, t ∈ fs) ∧
    (∀ t ∈ fs, ∃ x ∈ tr, ∃ sfi rc new, x.1 = .readRecord sfi rc ∧ Accepted sfi x.2.data new ∧
      t ∈ new) ∧
    (b = true ↔ ∃ x ∈ tr, x.2.data.head? ≠ some 0x70) := by
  induction h with
  | nil => simp
  | @cons sfi rec w new tr fs b h0 h1 h2 _ ih =>
    obtain ⟨i1, i2, i3⟩ := ih
    refine ⟨?_, ?_, ?_⟩
    · intro x hx
      rcases List.mem_cons.mp hx with rfl | hx
      · exact ⟨sfi, rec, new, rfl, h0, h1, h2, fun t ht => by simp [ht]⟩
      · obtain ⟨s, r, n, a1, a2, a3, a4, a5⟩ := i1 x hx
        exact ⟨s, r, n, a1, a2, a3, a4, fun t ht => by simp [a5 t ht]⟩
    · intro t ht
      rcases List.mem_append.mp ht with ht | ht
      · exact ⟨(.readRecord sfi rec, w), by simp, sfi, rec, new, rfl, h2, ht⟩
      · obtain ⟨x, hx, r⟩ := i2 t ht
        exact ⟨x, by simp [hx], r⟩
    · simp [i3]

theorem xforest_fields (f : XForest) : ∀ t ∈ f.leaves, FieldOf f.enc t := by
  induction f with
  | nil => simp [XForest.leaves]
  | leaf o r ih =>
    intro t ht
    rcases List.mem_cons.mp ht with rfl | ht
    · refine ⟨rfl, ?_⟩
      exact ⟨o.tag ++ o.len, r.enc, by simp [XForest.enc, Obj.enc]⟩
    · exact (ih t ht).mono ⟨o.enc, [], by simp [XForest.enc]⟩
  | node tag len c r ihc ihr =>
    intro t ht
    rcases List.mem_append.mp ht with ht | ht
    · exact (ihc t ht).mono ⟨tag ++ len, r.enc, by simp [XForest.enc]⟩
    · exact (ihr t ht).mono ⟨tag ++ len ++ c.enc, [], by simp [XForest.enc]⟩
  | indef tag c r ihc ihr =>
    intro t ht
    rcases List.mem_append.mp ht with ht | ht
    · exact (ihc t ht).mono ⟨tag ++ [0x80], r.enc, by simp [XForest.enc]⟩
    · exact (ihr t ht).mono ⟨tag ++ [0x80] ++ c.enc, [], by simp [XForest.enc]⟩

theorem accepted_fields {sfi : Byte} {data : List Byte} {new : List Tlv}
    (h : Accepted sfi data new) : ∀ t ∈ new, FieldOf data t := by
  unfold Accepted at h
  split at h
  · obtain ⟨len, f, -, -, rfl, rfl⟩ := h
    intro t ht
    exact (xforest_fields f t ht).mono ⟨[0x70] ++ len, [], by simp⟩
  · rcases h with ⟨-, f, -, rfl, rfl⟩ | ⟨-, -, rfl⟩
    · exact xforest_fields f
    · simp

/-- The postcondition for the whole function. -/
theorem readAfl_spec (alloc : List Tlv → Tlv → Bool) (afl : List Byte) (list : List Tlv)
    (script : List W) :
    (∃ code, (code = -2 ∨ code = -8) ∧ readAfl alloc afl list script = .ok ([], .done (code, list) script) ∧
      (afl = [] ∨ afl.length % 4 ≠ 0 ∨ afl.length > 252)) ∨
    (afl ≠ [] ∧ afl.length % 4 = 0 ∧ afl.length ≤ 252 ∧
      AflPost alloc afl script false list (readAfl alloc afl list script)) := by
  unfold readAfl
  by_cases h0 : afl.length = 0
  · rw [if_pos h0]
    exact Or.inl ⟨-2, Or.inl rfl, rfl, Or.inl (List.eq_nil_of_length_eq_zero h0)⟩
  · rw [if_neg h0]
    simp only
    by_cases h1 : afl.length % 4 = 0
    · by_cases h2 : afl.length > 252
      · have hi : aflInit afl = 2 := by
          unfold aflInit
          rw [if_neg h0, if_neg (by simpa using h1), if_pos h2]
        simp only [hi]
        exact Or.inl ⟨-8, Or.inr rfl, rfl, Or.inr (Or.inr h2)⟩
      · have hi : aflInit afl = 0 := by
          unfold aflInit
          rw [if_neg h0, if_neg (by simpa using h1), if_neg h2]
        simp only [hi]
        refine Or.inr ⟨by intro h; simp [h] at h0, h1, by omega, ?_⟩
        exact aflLoop_spec alloc _ _ _ _ _ h1 (by omega)
    · have hi : aflInit afl = 1 := by
        unfold aflInit
        rw [if_neg h0, if_pos h1]
      simp only [hi]
      exact Or.inl ⟨-8, Or.inr rfl, rfl, Or.inr (Or.inl h1)⟩

/-- **C30** (success).  When reading application data succeeds, the AFL is well-formed, the
exchanges are exactly READ RECORD for the records it enumerates, in order, all answered with
an acceptable record, and the fields collected are those of the records, concatenated in
order.  The result says whether some record spoils offline data authentication. -/
theorem C30_success (alloc : List Tlv → Tlv → Bool) (afl : List Byte) (list : List Tlv)
    (script : List W) (tr : List (Cmd × W)) (code : Int) (list' : List Tlv) (rest : List W)
    (h : readAfl alloc afl list script = .ok (tr, .done (code, list') rest))
    (hc : code = 0 ∨ code = 14) :
    script = tr.map (·.2) ++ rest ∧
    ∃ es, es ≠ [] ∧ (∀ e ∈ es, AflEntry.WF e) ∧ afl = encAfl es ∧ tr.map (·.1) = commands es ∧
    ∃ fs b, Reads tr fs b ∧ list' = list ++ fs ∧ (code = 14 ↔ b = true) := by
  rcases readAfl_spec alloc afl list script with ⟨c, h1, h2, -⟩ | ⟨hne, -, -, hp⟩
  · rw [h] at h2
    simp only [Except.ok.injEq, Prod.mk.injEq, Out.done.injEq] at h2
    have := h2.2.1.1
    omega
  · rw [h] at hp
    obtain ⟨a1, es, more, a2, a3, a4⟩ := hp
    refine ⟨a1, es, ?_, a2, ?_⟩
    · rintro rfl
      rcases a4 with ⟨rfl, -⟩ | ⟨-, -, -, -, fs, b, -, -, b5⟩ | ⟨-, good, fs, b, sfi, rc, w, part, -, -, -, -, b6⟩
      · exact hne (by simpa [encAfl] using a3)
      · omega
      · have := failing_code b6; omega
    · rcases a4 with ⟨rfl, b1, b2, fs, b, b3, b4, b5⟩ | ⟨-, -, -, -, fs, b, -, -, b5⟩ |
        ⟨-, good, fs, b, sfi, rc, w, part, -, -, -, -, b6⟩
      · refine ⟨by simpa using a3, b2, fs, b, b3, b4, ?_⟩
        rw [b5]
        cases b <;> simp
      · omega
      · have := failing_code b6; omega

/-- **C30** (failure).  Otherwise the code is the documented one: -2 (empty AFL), -8 exactly
because the AFL is malformed (at once, or after reading the records of the entries before the
malformed one), or the code of the failing READ RECORD, which is the last exchange. -/
theorem C30_failure (alloc : List Tlv → Tlv → Bool) (afl : List Byte) (list : List Tlv)
    (script : List W) (tr : List (Cmd × W)) (code : Int) (list' : List Tlv) (rest : List W)
    (h : readAfl alloc afl list script = .ok (tr, .done (code, list') rest))
    (hc : code ≠ 0 ∧ code ≠ 14) :
    (tr = [] ∧ list' = list ∧ (code = -2 ∨ code = -8) ∧
      (afl = [] ∨ afl.length % 4 ≠ 0 ∨ afl.length > 252)) ∨
    (code = -8 ∧ ∃ es more, (∀ e ∈ es, AflEntry.WF e) ∧ afl = encAfl es ++ more ∧ more ≠ [] ∧
      ¬ StartsWF more ∧ tr.map (·.1) = commands es ∧ ∃ fs b, Reads tr fs b ∧ list' = list ++ fs) ∨
    (∃ good fs b sfi rc w part, tr = good ++ [(.readRecord sfi rc, w)] ∧ Reads good fs b ∧
      list' = list ++ fs ++ part ∧ Failing alloc sfi w code) := by
  rcases readAfl_spec alloc afl list script with ⟨c, h1, h2, h3⟩ | ⟨hne, -, -, hp⟩
  · rw [h] at h2
    simp only [Except.ok.injEq, Prod.mk.injEq, Out.done.injEq] at h2
    obtain ⟨e1, ⟨e2, e3⟩, -⟩ := h2
    exact Or.inl ⟨e1, e3, by rw [e2]; exact h1, h3⟩
  · rw [h] at hp
    obtain ⟨a1, es, more, a2, a3, a4⟩ := hp
    rcases a4 with ⟨rfl, b1, b2, fs, b, b3, b4, b5⟩ | ⟨c1, c2, -, c3, fs, b, c4, c5, c6⟩ |
      ⟨-, good, fs, b, sfi, rc, w, part, d1, d2, d3, -, d5⟩
    · exfalso
      cases b <;> simp at b5 <;> omega
    · exact Or.inr (Or.inl ⟨c6, es, more, a2, a3, c1, c2, c3, fs, b, c4, c5⟩)
    · exact Or.inr (Or.inr ⟨good, fs, b, sfi, rc, w, part, d1, d2, d3, d5⟩)

/-- Entries read from the same AFL are the same entries. -/
theorem encAfl_prefix : ∀ (es es' : List AflEntry) (more : List Byte), (∀ e ∈ es, AflEntry.WF e) →
    (∀ e ∈ es', AflEntry.WF e) → encAfl es = encAfl es' ++ more → es' <+: es := by
  intro es es'
  induction es' generalizing es with
  | nil => intro _ _ _ _; simp
  | cons e' es' ih =>
    intro more h1 h2 h3
    cases es with
    | nil => simp [encAfl, AflEntry.enc] at h3
    | cons e es =>
      rw [encAfl_cons, encAfl_cons, List.append_assoc] at h3
      obtain ⟨i1, i2⟩ := enc_inj (h1 e (by simp)) (h2 e' (by simp)) h3
      subst i1
      exact List.cons_prefix_cons.mpr ⟨rfl, ih es more (fun x hx => h1 x (by simp [hx]))
        (fun x hx => h2 x (by simp [hx])) i2⟩

/-- **C30** (order at any time).  Whatever the card does, the exchanges follow the AFL's
enumeration (for entries that do not end at record 255). -/
theorem C30_order (alloc : List Tlv → Tlv → Bool) (es : List AflEntry)
    (hes : ∀ e ∈ es, AflEntry.WF e) (hb : Bounded es) (list : List Tlv)
    (script : List W) (tr : List (Cmd × W)) (o : Out (Int × List Tlv))
    (h : readAfl alloc (encAfl es) list script = .ok (tr, o)) :
    tr.map (·.1) <+: commands es := by
  have pre : ∀ es' more, (∀ e ∈ es', AflEntry.WF e) → encAfl es = encAfl es' ++ more →
      Bounded es' ∧ commands es' <+: commands es := by
    intro es' more h1 h2
    obtain ⟨tl, rfl⟩ := encAfl_prefix es es' more hes h1 h2
    exact ⟨fun x hx => hb x (by simp [hx]), by simp [commands]⟩
  rcases readAfl_spec alloc (encAfl es) list script with ⟨c, h1, h2, h3⟩ | ⟨hne, -, -, hp⟩
  · rw [h] at h2
    simp only [Except.ok.injEq, Prod.mk.injEq] at h2
    rw [h2.1]
    simp
  · rw [h] at hp
    match o, hp with
    | .pending c, ⟨_, _, es', more, a1, a2, a3⟩ =>
      obtain ⟨b1, b2⟩ := pre es' more a1 a2
      exact ((List.prefix_append _ [c]).trans (a3 b1)).trans b2
    | .done (code, list') rest, ⟨_, es', more, a2, a3, a4⟩ =>
      obtain ⟨b1, b2⟩ := pre es' more a2 a3
      rcases a4 with ⟨-, -, c3, -⟩ | ⟨-, -, -, c3, -⟩ | ⟨c3, -⟩
      · rw [c3]; exact b2
      · rw [c3]; exact b2
      · exact (c3 b1).trans b2

/-- A record as EMV wants it, with its fields. -/
def Carried (sfi : Byte) (data : List Byte) (new : List Tlv) : Prop :=
  if 1 ≤ sfi.toNat ∧ sfi.toNat ≤ 10 then
    ∃ (len : List Byte) (g : Forest), g.WF ∧ LenOctets g.enc.length len ∧ len.length ≤ 2 ∧
      data = [0x70] ++ len ++ g.enc ∧ new = g.leaves
  else
    (data.head? = some 0x70 ∧ ∃ g : Forest, g.WF ∧ data = g.enc ∧ new = g.leaves) ∨
    (data ≠ [] ∧ data.head? ≠ some 0x70 ∧ new = [])

theorem carried_proper {sfi : Byte} {data : List Byte} {new : List Tlv} (h : Carried sfi data new) :
    Proper sfi data := by
  unfold Carried at h
  unfold Proper
  split at h
  · rename_i hs
    rw [if_pos hs]
    obtain ⟨len, g, h1, h2, h3, h4, -⟩ := h
    exact ⟨len, g, h1, h2, h3, h4⟩
  · rename_i hs
    rw [if_neg hs]
    rcases h with ⟨h1, g, h2, h3, -⟩ | ⟨h1, h2, -⟩
    · exact ⟨fun e => (by rw [e] at h1; cases h1), fun _ => ⟨g, h2, h3⟩⟩
    · exact ⟨h1, fun h => absurd h h2⟩

/-- The fields of such a record do not depend on how it is read. -/
theorem carried_accepted {sfi : Byte} {data : List Byte} {new new' : List Tlv}
    (h : Carried sfi data new) (h' : Accepted sfi data new') : new' = new := by
  have h70 : IsTag [(0x70 : Byte)] := Or.inl ⟨by decide, rfl⟩
  unfold Carried at h
  unfold Accepted at h'
  split at h
  · rename_i hs
    rw [if_pos hs] at h'
    obtain ⟨len, g, h1, h2, h3, h4, rfl⟩ := h
    obtain ⟨len', f, k1, k2, k3, rfl⟩ := h'
    rw [h4] at k3
    have e := (object_unique (r := []) (r' := []) h70 h2 h70 k2 (by simpa using k3)).2.1
    exact (forest_leaves_unique g f h1 k1 e).symm
  · rename_i hs
    rw [if_neg hs] at h'
    rcases h with ⟨h1, g, h2, h3, rfl⟩ | ⟨h1, h2, rfl⟩
    · rcases h' with ⟨-, f, k1, k2, rfl⟩ | ⟨-, k, -⟩
      · exact (forest_leaves_unique g f h2 k1 (by rw [← h3, k2])).symm
      · exact absurd h1 k
    · rcases h' with ⟨k, -⟩ | ⟨-, -, rfl⟩
      · exact absurd k h2
      · rfl

/-- Answers to READ RECORD commands, all 9000 with proper records, and their fields. -/
inductive Answered : List (Cmd × W) → List Tlv → Prop where
  | nil : Answered [] []
  | cons {sfi rec : Byte} {w : W} {new : List Tlv} {tr : List (Cmd × W)} {fs : List Tlv}
      (h0 : w.code = 0) (h1 : w.sw = 0x9000) (h2 : Carried sfi w.data new) (h : Answered tr fs) :
      Answered ((.readRecord sfi rec, w) :: tr) (new ++ fs)

theorem answered_mem {tr : List (Cmd × W)} {fs : List Tlv} (h : Answered tr fs) :
    ∀ x ∈ tr, ∃ sfi rec, x.1 = .readRecord sfi rec ∧ x.2.code = 0 ∧ x.2.sw = 0x9000 ∧
      Proper sfi x.2.data := by
  induction h with
  | nil => intro x hx; cases hx
  | cons h0 h1 h2 h ih =>
    intro x hx
    rcases List.mem_cons.mp hx with rfl | hx
    · exact ⟨_, _, rfl, h0, h1, carried_proper h2⟩
    · exact ih x hx

theorem answered_reads {tr : List (Cmd × W)} {fs : List Tlv} (h : Answered tr fs) :
    ∀ {fs' : List Tlv} {b : Bool}, Reads tr fs' b → fs' = fs := by
  induction h with
  | nil => intro fs' b h; cases h; rfl
  | cons h0 h1 h2 h ih =>
    intro fs' b hr
    cases hr with
    | cons k0 k1 k2 k => rw [carried_accepted h2 k2, ih k]

theorem proper_ne_nil {sfi : Byte} {data : List Byte} (h : Proper sfi data) : data ≠ [] := by
  unfold Proper at h
  intro e
  subst e
  split at h
  · obtain ⟨len, g, -, -, -, h⟩ := h
    simp at h
  · exact h.1 rfl

theorem zip_prefix {α β : Type} {tr tr' : List (α × β)} {rest rest' : List β}
    (h1 : tr'.map (·.1) <+: tr.map (·.1)) (h2 : tr'.map (·.2) ++ rest' = tr.map (·.2) ++ rest) :
    tr' <+: tr := by
  induction tr' generalizing tr with
  | nil => simp
  | cons x tr' ih =>
    cases tr with
    | nil => simp at h1
    | cons y tr =>
      simp only [List.map_cons, List.cons_append, List.cons.injEq] at h1 h2
      obtain ⟨e1, h3⟩ := List.cons_prefix_cons.mp h1
      exact List.cons_prefix_cons.mpr ⟨Prod.ext e1 h2.1, ih h3 h2.2⟩

/-- **C30** (completeness).  A card that answers all READ RECORDs of a well-formed AFL with
proper records is read completely: exactly the commands of the AFL, exactly the fields of the
records, in order. -/
theorem C30_complete (alloc : List Tlv → Tlv → Bool) (hal : ∀ l t, alloc l t = true)
    (es : List AflEntry) (hes : ∀ e ∈ es, AflEntry.WF e) (hne : es ≠ []) (hlen : es.length ≤ 63)
    (hb : Bounded es) (tr : List (Cmd × W)) (fs : List Tlv) (hcm : tr.map (·.1) = commands es)
    (ha : Answered tr fs) (list : List Tlv) (rest : List W) :
    ∃ code, (code = 0 ∨ code = 14) ∧
      readAfl alloc (encAfl es) list (tr.map (·.2) ++ rest) = .ok (tr, .done (code, list ++ fs) rest) := by
  have hl := encAfl_length es
  have hn : es.length ≠ 0 := by simpa using hne
  have hmem := answered_mem ha
  rcases readAfl_spec alloc (encAfl es) list (tr.map (·.2) ++ rest) with ⟨c, -, -, h | h | h⟩ | ⟨-, -, -, hp⟩
  · rw [h, List.length_nil] at hl; omega
  · omega
  · omega
  have pre : ∀ es' more, (∀ e ∈ es', AflEntry.WF e) → encAfl es = encAfl es' ++ more →
      Bounded es' ∧ commands es' <+: commands es := by
    intro es' more h1 h2
    obtain ⟨tl, rfl⟩ := encAfl_prefix es es' more hes h1 h2
    exact ⟨fun x hx => hb x (by simp [hx]), by simp [commands]⟩
  generalize hy : readAfl alloc (encAfl es) list (tr.map (·.2) ++ rest) = y at hp
  match y, hp with
  | .error e, ⟨_, tr', fs', b, w, post, h1, h2, h3, h4, h5, c, es', more, a1, a2, a3⟩ =>
    exfalso
    obtain ⟨b1, b2⟩ := pre es' more a1 a2
    have hpre : tr' ++ [(c, w)] <+: tr := by
      refine zip_prefix (rest := rest) (rest' := post) ?_ ?_
      · rw [hcm]; simpa using (a3 b1).trans b2
      · simp [h2]
    obtain ⟨sfi, rc, -, -, -, h⟩ := hmem (c, w) (hpre.mem (by simp))
    exact proper_ne_nil h h5
  | .ok (tr', .pending c), ⟨h1, _, es', more, a1, a2, a3⟩ =>
    exfalso
    obtain ⟨b1, b2⟩ := pre es' more a1 a2
    have h3 := ((a3 b1).trans b2).length_le
    have h4 := congrArg List.length h1
    rw [← hcm] at h3
    simp at h3 h4
    omega
  | .ok (tr', .done (code, list') rest'), ⟨h1, es', more, a1, a2, a3⟩ =>
    obtain ⟨b1, b2⟩ := pre es' more a1 a2
    have hpre : tr'.map (·.1) <+: commands es → tr' <+: tr := by
      intro h
      rw [← hcm] at h
      exact zip_prefix h h1.symm
    rcases a3 with ⟨c1, c2, c3, fs', b, c4, c5, c6⟩ | ⟨c1, c2, -⟩ | ⟨c3, good, fs', b, sfi, rc, w, part, d1, d2, d3, d4, d5⟩
    · subst c1
      rw [List.append_nil] at a2
      have he : es' = es := by
        have := encAfl_prefix es es' [] hes a1 (by simpa using a2)
        refine this.eq_of_length ?_
        have h5 := congrArg List.length a2
        rw [encAfl_length, encAfl_length] at h5
        omega
      subst he
      have hp := hpre (by rw [c3]; exact List.prefix_refl _)
      have : tr' = tr := hp.eq_of_length (by
        have h6 := congrArg List.length c3
        have h7 := congrArg List.length hcm
        simp at h6 h7; omega)
      subst this
      have h8 := List.append_cancel_left h1
      subst h8
      rw [answered_reads ha c4] at c5
      subst c5
      refine ⟨code, ?_, rfl⟩
      rw [c6]
      split <;> simp
    · exact absurd (encAfl_inj hes a1 a2 c1) c2
    · exfalso
      have hp := hpre ((c3 b1).trans b2)
      obtain ⟨sfi', rc', e1, e2, e3, e4⟩ := hmem (.readRecord sfi rc, w) (hp.mem (by rw [d1]; simp))
      cases e1
      rcases d5 with ⟨-, h⟩ | ⟨-, -, h⟩ | ⟨-, -, -, h⟩ | ⟨-, l, t, h⟩
      · exact h e2
      · exact h e3
      · exact h e4
      · rw [hal] at h; cases h

/-- **C29.**  Whenever reading application data succeeds, every record read from SFI 1 to 10
is exactly one template 70 (tag, length, contents and nothing else) whose contents are complete
objects, and the primitive objects among them were added. -/
theorem C29_single_template (alloc : List Tlv → Tlv → Bool) (afl : List Byte) (list : List Tlv)
    (script : List W) (tr : List (Cmd × W)) (code : Int) (list' : List Tlv) (rest : List W)
    (h : readAfl alloc afl list script = .ok (tr, .done (code, list') rest))
    (hc : code = 0 ∨ code = 14) (sfi rc : Byte) (w : W) (hx : (.readRecord sfi rc, w) ∈ tr)
    (hs : sfi.toNat ≤ 10) :
    ∃ (len : List Byte) (f : XForest), f.WF ∧ LenOctets f.enc.length len ∧
      w.data = [0x70] ++ len ++ f.enc ∧ ∀ t ∈ f.leaves, t ∈ list' := by
  obtain ⟨-, es, -, hes, -, hcm, fs, b, hr, hl, -⟩ := C30_success alloc afl list script tr code list' rest h hc
  obtain ⟨s, r, new, e1, -, -, hacc, hmem⟩ := (reads_mem hr).1 _ hx
  simp only [Cmd.readRecord.injEq] at e1
  obtain ⟨rfl, rfl⟩ := e1
  have hs1 : 1 ≤ sfi.toNat := by
    have : Cmd.readRecord sfi rc ∈ commands es := by
      rw [← hcm]
      exact List.mem_map.mpr ⟨_, hx, rfl⟩
    simp only [commands, List.mem_flatMap, numbered, List.mem_map] at this
    obtain ⟨e, he, i, -, hi⟩ := this
    simp only [Cmd.readRecord.injEq] at hi
    rw [← hi.1]
    exact (hes e he).1
  unfold Accepted at hacc
  rw [if_pos ⟨hs1, hs⟩] at hacc
  obtain ⟨len, f, h1, h2, h3, rfl⟩ := hacc
  exact ⟨len, f, h1, h2, h3, fun t ht => by rw [hl]; simp [hmem t ht]⟩

/-- **C29** (nothing else).  Whatever the outcome, the previous fields stay in front and every
field added is a field of one of the records the card returned. -/
theorem C29_only_card_fields (alloc : List Tlv → Tlv → Bool) (afl : List Byte) (list : List Tlv)
    (script : List W) (tr : List (Cmd × W)) (code : Int) (list' : List Tlv) (rest : List W)
    (h : readAfl alloc afl list script = .ok (tr, .done (code, list') rest)) :
    ∃ new, list' = list ++ new ∧ ∀ t ∈ new, t.flags = 0 ∧ ∃ x ∈ tr, t.value <:+: x.2.data := by
  have key : ∀ tr fs b, Reads tr fs b → ∀ t ∈ fs, t.flags = 0 ∧ ∃ x ∈ tr, t.value <:+: x.2.data := by
    intro tr fs b hr t ht
    obtain ⟨x, hx, sfi, rc, new, -, hacc, hm⟩ := (reads_mem hr).2.1 t ht
    obtain ⟨f1, f2⟩ := accepted_fields hacc t hm
    exact ⟨f1, x, hx, f2⟩
  by_cases hc : code = 0 ∨ code = 14
  · obtain ⟨-, es, -, -, -, -, fs, b, hr, hl, -⟩ := C30_success alloc afl list script tr code list' rest h hc
    exact ⟨fs, hl, key tr fs b hr⟩
  · rcases readAfl_spec alloc afl list script with ⟨c, h1, h2, h3⟩ | ⟨hne, -, -, hp⟩
    · rw [h] at h2
      simp only [Except.ok.injEq, Prod.mk.injEq, Out.done.injEq] at h2
      exact ⟨[], by rw [h2.2.1.2]; simp, by simp⟩
    · rw [h] at hp
      obtain ⟨-, es, more, -, -, a4⟩ := hp
      rcases a4 with ⟨-, -, -, fs, b, hr, hl, -⟩ | ⟨-, -, -, -, fs, b, hr, hl, -⟩ |
        ⟨-, good, fs, b, sfi, rc, w, part, d1, d2, d3, d4, -⟩
      · exact ⟨fs, hl, key tr fs b hr⟩
      · exact ⟨fs, hl, key tr fs b hr⟩
      · refine ⟨fs ++ part, by rw [d3, List.append_assoc], ?_⟩
        intro t ht
        rcases List.mem_append.mp ht with ht | ht
        · obtain ⟨f1, x, hx, f2⟩ := key good fs b d2 t ht
          exact ⟨f1, x, by rw [d1]; simp [hx], f2⟩
        · obtain ⟨f1, f2⟩ := d4 t ht
          exact ⟨f1, _, by rw [d1]; exact List.mem_append.mpr (Or.inr (List.mem_singleton.mpr rfl)), f2⟩

/-- The only undefined behaviour is reading the first byte of an empty record. -/
theorem C29_safe (alloc : List Tlv → Tlv → Bool) (afl : List Byte) (list : List Tlv)
    (script : List W) (hne : ∀ w ∈ script, ¬ Bare w) : C.Safe (readAfl alloc afl list script) := by
  rcases readAfl_spec alloc afl list script with ⟨c, -, h2, -⟩ | ⟨-, -, -, hp⟩
  · exact ⟨_, h2⟩
  · match hx : readAfl alloc afl list script with
    | .ok a => exact ⟨a, rfl⟩
    | .error e =>
      rw [hx] at hp
      obtain ⟨-, tr, fs, b, w, post, -, h2, h3, h4, h5⟩ := hp
      exact absurd ⟨h3, Or.inl h4, h5.1⟩ (hne w (by rw [h2]; simp))

/-- A card that answers READ RECORD with 9000 and no data causes an uninitialised read. -/
theorem C29_empty_record : readAfl allocOk [0x08, 1, 1, 0] [] [⟨0, [], 0x9000⟩] =
    .error .uninit := by decide +kernel

/-- Two entries, three records, one of them (SFI 11) not a template. -/
example : readAfl allocOk [0x08, 1, 2, 0, 0x58, 4, 4, 0] []
    [⟨0, [0x70, 0x02, 0x5A, 0x00], 0x9000⟩, ⟨0, [0x70, 0x03, 0x50, 0x01, 0x41], 0x9000⟩,
     ⟨0, [0x01], 0x9000⟩] =
  .ok ([(.readRecord 1 1, ⟨0, [0x70, 0x02, 0x5A, 0x00], 0x9000⟩),
    (.readRecord 1 2, ⟨0, [0x70, 0x03, 0x50, 0x01, 0x41], 0x9000⟩),
    (.readRecord 11 4, ⟨0, [0x01], 0x9000⟩)],
    .done (14, [⟨0x5A, 0, []⟩, ⟨0x50, 0, [0x41]⟩]) []) := by decide +kernel

end Verif.Tal
