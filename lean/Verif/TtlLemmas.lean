import Verif.Ttl

/-! # Lemmas about the exchange loop -/

set_option autoImplicit false

namespace Verif.Ttl
open Verif Apdu

/-! ## Specification vocabulary -/

/-- The data bytes a card answer carries: everything before the two status bytes; in TPDU
mode without the leading procedure (INS) byte. -/
def dataOf : Mode → Resp → List Byte
  | .apdu, .data rx => rx.take (rx.length - 2)
  | .tpdu, .data rx => (rx.take (rx.length - 2)).drop 1
  | _, .fail _ => []

/-- The status bytes a card answer carries. -/
def statusOf : Resp → Option (Byte × Byte)
  | .data rx => if 2 ≤ rx.length then
      some (rx.getD (rx.length - 2) 0, rx.getD (rx.length - 1) 0) else none
  | .fail _ => none

/-- 61xx and 6Cxx ask for another exchange. -/
def isFinal (s : Byte × Byte) : Bool := s.1 != 0x61 && s.1 != 0x6C

/-- The status to be reported: the first one which is not 61xx or 6Cxx (so a warning that
precedes the response data is kept), otherwise the last. -/
def reported (used : List Resp) : Option (Byte × Byte) :=
  ((used.filterMap statusOf).find? isFinal).or (used.filterMap statusOf).getLast?

/-- All data of a sequence of answers. -/
def allData (mode : Mode) (used : List Resp) : List Byte := (used.map (dataOf mode)).flatten

/-! ## Invariant of the loop -/

/-- First final status so far. -/
def firstFinal (used : List Resp) : Option (Byte × Byte) :=
  (used.filterMap statusOf).find? isFinal

structure Inv (mode : Mode) (c : Case) (cap : Nat) (used : List Resp) (st : St) : Prop where
  len : st.rbuf.length = cap
  pos : st.rpos + st.rlen = cap
  two : 2 ≤ st.rlen
  data : st.rbuf.take st.rpos = allData mode used
  nodata : isCase24 c = false → allData mode used = []
  sw : (firstFinal used = none ∧ st.sw = 0) ∨
    (∃ s1 s2, firstFinal used = some (s1, s2) ∧ st.sw = s1.toNat * 256 + s2.toNat ∧ st.sw ≠ 0)

structure Fin (mode : Mode) (c : Case) (cap : Nat) (used : List Resp) (d : Done) : Prop where
  len : d.rbuf.length = cap
  rlen : d.rlen ≤ cap
  ok : d.code = 0 → ∃ s1 s2, reported used = some (s1, s2) ∧
    d.sw = s1.toNat * 256 + s2.toNat ∧ d.rlen = (allData mode used).length + 2 ∧
    d.rbuf.take d.rlen = allData mode used ++ [s1, s2] ∧
    (isCase24 c = false → allData mode used = [])

/-- Post-condition of one turn; the only undefined behaviour left open is a read. -/
def Post (P : St → Prop) (Q : Done → Prop) : C (St ⊕ Done) → Prop
  | .error e => e = .oobRead
  | .ok (.inl s) => P s
  | .ok (.inr d) => Q d

theorem post_rd {P : St → Prop} {Q : Done → Prop} {buf : List Byte} {i : Nat}
    {f : Byte → C (St ⊕ Done)} (h : ∀ (hi : i < buf.length), Post P Q (f buf[i])) :
    Post P Q (rd buf i >>= f) := by
  by_cases hi : i < buf.length
  · rw [rd_eq hi]; exact h hi
  · rw [rd_oob (by omega)]; rfl

theorem post_slice {P : St → Prop} {Q : Done → Prop} {buf : List Byte} {i n : Nat}
    {f : List Byte → C (St ⊕ Done)}
    (h : i + n ≤ buf.length → Post P Q (f ((buf.drop i).take n))) :
    Post P Q (slice buf i n >>= f) := by
  unfold slice
  split
  · rename_i hi; exact h hi
  · rfl

theorem allData_snoc (mode : Mode) (used : List Resp) (r : Resp) :
    allData mode (used ++ [r]) = allData mode used ++ dataOf mode r := by
  simp [allData]

theorem firstFinal_snoc (used : List Resp) (r : Resp) :
    firstFinal (used ++ [r]) =
      (firstFinal used).or ((statusOf r).bind (fun s => if isFinal s then some s else none)) := by
  unfold firstFinal
  rw [List.filterMap_append, List.find?_append]
  congr 1
  cases h : statusOf r with
  | none => simp [h]
  | some s =>
    simp only [List.filterMap_cons, h, List.filterMap_nil, List.find?_cons, List.find?_nil]
    cases hf : isFinal s <;> simp [hf]

theorem statusOf_short {rx : List Byte} (h : rx.length < 2) : statusOf (.data rx) = none := by
  simp [statusOf]; omega

theorem dataOf_short (mode : Mode) {rx : List Byte} (h : rx.length ≤ 2) :
    dataOf mode (.data rx) = [] := by
  cases mode <;> simp [dataOf, show rx.length - 2 = 0 by omega]

/-- A one-byte answer changes none of the recorded facts. -/
theorem Inv.proc {mode : Mode} {c : Case} {cap : Nat} {used : List Resp} {st st' : St}
    (h : Inv mode c cap used st) (rx : List Byte) (hl : rx.length < 2)
    (e1 : st'.rbuf = st.rbuf) (e2 : st'.rpos = st.rpos) (e3 : st'.rlen = st.rlen)
    (e4 : st'.sw = st.sw) : Inv mode c cap (used ++ [.data rx]) st' := by
  have ed : allData mode (used ++ [.data rx]) = allData mode used := by
    rw [allData_snoc, dataOf_short mode (by omega), List.append_nil]
  have ef : firstFinal (used ++ [.data rx]) = firstFinal used := by
    rw [firstFinal_snoc, statusOf_short hl]; simp
  exact ⟨by rw [e1]; exact h.len, by rw [e2, e3]; exact h.pos, by rw [e3]; exact h.two,
    by rw [e1, e2, ed]; exact h.data, by rw [ed]; exact h.nodata, by rw [e4, ef]; exact h.sw⟩

theorem wrs_length {buf b r : List Byte} {i : Nat} (h : wrs buf i b = .ok r) :
    r.length = buf.length := by
  unfold wrs at h
  split at h
  · simp only [Except.ok.injEq] at h
    subst h
    simp; omega
  · cases h

theorem failByte_post {mode : Mode} {c : Case} {cap : Nat} {used : List Resp} {st : St}
    {P : St → Prop} (h : Inv mode c cap used st) (b : Byte) (code : Int) (hc : code ≠ 0)
    (used' : List Resp) : Post P (Fin mode c cap used') (st.failByte b code) := by
  unfold St.failByte
  have hl := h.len; have hp := h.pos; have ht := h.two
  cases hw : wrs st.rbuf 0 [b] with
  | error e =>
    rw [wrs_eq (by simp; omega)] at hw; cases hw
  | ok rb =>
    have hrl := wrs_length hw
    refine ⟨by rw [hrl, hl], ?_, fun h0 => absurd h0 hc⟩
    show 1 ≤ cap
    omega

theorem fail_fin {mode : Mode} {c : Case} {cap : Nat} {used : List Resp} {st : St}
    (h1 : st.rbuf.length = cap) (h2 : st.rpos + st.rlen = cap) (code : Int) (hc : code ≠ 0) :
    Fin mode c cap used (st.fail code) :=
  ⟨h1, by show st.rlen ≤ cap; omega, fun h0 => absurd h0 hc⟩

theorem procByte_post {mode : Mode} {c : Case} {cap : Nat} {used : List Resp} {st : St}
    (capdu : List Byte) (h : Inv mode c cap used st) (ins pb : Byte) (rx : List Byte)
    (hl : rx.length < 2) :
    Post (Inv mode c cap (used ++ [.data rx])) (Fin mode c cap (used ++ [.data rx]))
      (procByte capdu c st ins pb) := by
  unfold procByte
  split
  · exact failByte_post h _ _ (by decide) _
  · split
    · split
      · exact failByte_post h _ _ (by decide) _
      · apply post_rd
        intro hi
        exact h.proc rx hl rfl rfl rfl rfl
    · split
      · split
        · exact failByte_post h _ _ (by decide) _
        · exact h.proc rx hl rfl rfl rfl rfl
      · exact failByte_post h _ _ (by decide) _

/-- After the status switch: like `Inv`, but the data of the current answer is still to be
taken. -/
structure Mid (mode : Mode) (c : Case) (cap : Nat) (used : List Resp) (r : Resp) (st : St) :
    Prop where
  len : st.rbuf.length = cap
  pos : st.rpos + st.rlen = cap
  two : 2 ≤ st.rlen
  data : st.rbuf.take st.rpos = allData mode used
  nodata : isCase24 c = false → allData mode used = []

theorem copy_len (buf d : List Byte) (i : Nat) (h : i + d.length ≤ buf.length) :
    (buf.take i ++ d ++ buf.drop (i + d.length)).take (i + d.length) = buf.take i ++ d := by
  have : (buf.take i ++ d).length = i + d.length := by simp; omega
  rw [← this, List.take_left]

/-- Taking the data: on success the record is complete and the case allows data. -/
theorem copyData_post {mode : Mode} {c : Case} {cap : Nat} {used : List Resp} {st : St}
    {rx : List Byte} (h : Mid mode c cap used (.data rx) st) (skip : Nat)
    (hs : dataOf mode (.data rx) = (rx.drop skip).take (rx.length - skip - 2))
    (hl : skip + 2 < rx.length) (bad short : Int) (hb : bad ≠ 0) (hsh : short ≠ 0)
    (Q : Done → Prop) (hQ : ∀ code, code ≠ 0 → Q (st.fail code)) :
    Post (fun s => Mid mode c cap (used ++ [.data rx]) (.data rx) s ∧ s.sw = st.sw ∧
      s.tx = st.tx ∧ s.hdr = st.hdr ∧ s.dataOff = st.dataOff) Q
      (copyData c st rx skip bad short) := by
  unfold copyData
  split
  · exact hQ _ hb
  · rename_i hc
    have hc' : isCase24 c = true := by simpa using hc
    split
    · exact hQ _ hsh
    · rename_i hlen
      have hl1 := h.len; have hp := h.pos; have ht := h.two
      apply post_slice
      intro hsl
      have hdl : ((rx.drop skip).take (rx.length - skip - 2)).length = rx.length - skip - 2 := by
        simp
      rw [wrs_eq (by rw [hdl]; omega)]
      show _ ∧ _
      refine ⟨⟨?_, ?_, ?_, ?_, ?_⟩, rfl, rfl, rfl, rfl⟩
      · show (st.rbuf.take st.rpos ++ _ ++ _).length = cap
        simp only [List.length_append, List.length_take, List.length_drop]
        omega
      · show st.rpos + (rx.length - skip - 2) + (st.rlen - (rx.length - skip - 2)) = cap
        omega
      · show 2 ≤ st.rlen - (rx.length - skip - 2)
        omega
      · show List.take (st.rpos + (rx.length - skip - 2)) _ = _
        have := copy_len st.rbuf ((rx.drop skip).take (rx.length - skip - 2)) st.rpos
          (by rw [hdl]; omega)
        rw [hdl] at this
        rw [allData_snoc, hs, ← h.data]
        rw [hdl]
        exact this
      · intro hcf; rw [hc'] at hcf; cases hcf

theorem takeData_post {mode : Mode} {c : Case} {cap : Nat} {used : List Resp} {st : St}
    {rx : List Byte} (h : Mid mode c cap used (.data rx) st) (ins : Byte)
    (Q : Done → Prop) (hQ : ∀ code, code ≠ 0 → Q (st.fail code)) :
    Post (fun s => Mid mode c cap (used ++ [.data rx]) (.data rx) s ∧ s.sw = st.sw ∧
      s.tx = st.tx ∧ s.hdr = st.hdr ∧ s.dataOff = st.dataOff) Q
      (takeData mode c st ins rx) := by
  have hnone : dataOf mode (.data rx) = [] →
      Mid mode c cap (used ++ [.data rx]) (.data rx) st := by
    intro hd
    have ed : allData mode (used ++ [.data rx]) = allData mode used := by
      rw [allData_snoc, hd, List.append_nil]
    exact ⟨h.len, h.pos, h.two, by rw [ed]; exact h.data, by rw [ed]; exact h.nodata⟩
  unfold takeData
  cases mode with
  | tpdu =>
    simp only
    split
    · rename_i hl
      split
      · exact hQ _ (by decide)
      · apply post_rd
        intro hi
        split
        · exact hQ _ (by decide)
        · refine copyData_post h 1 ?_ (by omega) _ _ (by decide) (by decide) Q hQ
          show (rx.take (rx.length - 2)).drop 1 = _
          rw [List.drop_take]
          congr 1
    · rename_i hl
      refine ⟨hnone ?_, rfl, rfl, rfl, rfl⟩
      show (rx.take (rx.length - 2)).drop 1 = []
      apply List.drop_eq_nil_of_le
      simp; omega
  | apdu =>
    simp only
    split
    · rename_i hl
      exact copyData_post h 0 rfl (by omega) _ _ (by decide) (by decide) Q hQ
    · rename_i hl
      refine ⟨hnone ?_, rfl, rfl, rfl, rfl⟩
      exact dataOf_short _ (by omega)

theorem Post.bind {P : St → Prop} {Q : Done → Prop} {P' : St → Prop} {Q' : Done → Prop}
    {x : C (St ⊕ Done)} {f : St ⊕ Done → C (St ⊕ Done)} (h : Post P Q x)
    (hp : ∀ s, P s → Post P' Q' (f (.inl s))) (hq : ∀ d, Q d → Post P' Q' (f (.inr d))) :
    Post P' Q' (x >>= f) := by
  match x, h with
  | .error e, h => exact h
  | .ok (.inl s), h => exact hp s h
  | .ok (.inr d), h => exact hq d h

theorem ofNat_hi_lo : ∀ (a b : Byte), UInt8.ofNat ((a.toNat * 256 + b.toNat) / 256) = a ∧
    UInt8.ofNat ((a.toNat * 256 + b.toNat) % 256) = b := by
  intro a b
  have ha := a.toNat_lt; have hb := b.toNat_lt
  constructor
  · apply UInt8.toNat_inj.mp
    rw [UInt8.toNat_ofNat']; omega
  · apply UInt8.toNat_inj.mp
    rw [UInt8.toNat_ofNat']; omega

theorem txFour_post {P : St → Prop} {Q : Done → Prop} {capdu : List Byte} {st : St}
    {f : List Byte → C (St ⊕ Done)} (h : ∀ l, Post P Q (f l)) :
    Post P Q (txFour capdu st >>= f) := by
  unfold txFour
  cases st.tx with
  | capdu off len => exact post_slice (fun _ => h _)
  | header => exact post_slice (fun _ => h _)

theorem statusResp_post {mode : Mode} {c : Case} {cap : Nat} {used : List Resp} {st : St}
    (capdu : List Byte) (h : Inv mode c cap used st) (ins : Byte) (rx : List Byte)
    (sw1 sw2 : Byte) (hs : statusOf (.data rx) = some (sw1, sw2)) :
    Post (Inv mode c cap (used ++ [.data rx])) (Fin mode c cap (used ++ [.data rx]))
      (statusResp capdu mode c st ins rx sw1 sw2) := by
  have hff := firstFinal_snoc used (.data rx)
  rw [hs] at hff
  simp only [Option.bind_some] at hff
  unfold statusResp
  -- the facts after the switch
  have hsw : ∀ sw nxt, status c st.sw rx.length sw1 sw2 = .ok (sw, nxt) →
      (nxt ≠ .finish → (firstFinal (used ++ [.data rx]) = none ∧ sw = 0) ∨
        (∃ s1 s2, firstFinal (used ++ [.data rx]) = some (s1, s2) ∧
          sw = s1.toNat * 256 + s2.toNat ∧ sw ≠ 0)) ∧
      (nxt = .finish → ∃ s1 s2, firstFinal (used ++ [.data rx]) = some (s1, s2) ∧
          sw = s1.toNat * 256 + s2.toNat) := by
    intro sw nxt hst
    unfold status at hst
    by_cases h61 : sw1 = 0x61
    · have hnf : isFinal (sw1, sw2) = false := by simp [isFinal, h61]
      rw [if_pos h61] at hst
      split at hst
      · cases hst
      · simp only [Except.ok.injEq, Prod.mk.injEq] at hst
        obtain ⟨rfl, rfl⟩ := hst
        refine ⟨fun _ => ?_, fun h => by cases h⟩
        rw [hff, hnf]
        simpa using h.sw
    · rw [if_neg h61] at hst
      by_cases h6c : sw1 = 0x6C
      · have hnf : isFinal (sw1, sw2) = false := by simp [isFinal, h6c]
        rw [if_pos h6c] at hst
        split at hst
        · cases hst
        · simp only [Except.ok.injEq, Prod.mk.injEq] at hst
          obtain ⟨rfl, rfl⟩ := hst
          refine ⟨fun _ => ?_, fun h => by cases h⟩
          rw [hff, hnf]
          simpa using h.sw
      · have hnf : isFinal (sw1, sw2) = true := by simp [isFinal, h61, h6c]
        rw [if_neg h6c] at hst
        by_cases h0 : st.sw = 0
        · have hfu : firstFinal used = none := by
            rcases h.sw with ⟨h1, _⟩ | ⟨_, _, _, _, h1⟩
            · exact h1
            · exact absurd h0 h1
          have hnew : firstFinal (used ++ [.data rx]) = some (sw1, sw2) := by
            rw [hff, hfu, hnf]; rfl
          rw [if_pos h0] at hst
          split at hst
          · rename_i hw
            simp only [Except.ok.injEq, Prod.mk.injEq] at hst
            obtain ⟨rfl, rfl⟩ := hst
            refine ⟨fun _ => Or.inr ⟨sw1, sw2, hnew, rfl, ?_⟩, fun h => by cases h⟩
            have hw' := hw.2.2
            simp only [swIsWarning, Bool.or_eq_true, beq_iff_eq] at hw'
            rcases hw' with e | e <;> rw [e] <;> simp
          · simp only [Except.ok.injEq, Prod.mk.injEq] at hst
            obtain ⟨rfl, rfl⟩ := hst
            exact ⟨fun h => absurd rfl h, fun _ => ⟨sw1, sw2, hnew, rfl⟩⟩
        · rw [if_neg h0] at hst
          simp only [Except.ok.injEq, Prod.mk.injEq] at hst
          obtain ⟨rfl, rfl⟩ := hst
          rcases h.sw with ⟨_, h1⟩ | ⟨s1, s2, h1, h2, h3⟩
          · exact absurd h1 h0
          · have hnew : firstFinal (used ++ [.data rx]) = some (s1, s2) := by
              rw [hff, h1]; rfl
            exact ⟨fun h => absurd rfl h, fun _ => ⟨s1, s2, hnew, h2⟩⟩
  split
  · rename_i code hst
    refine fail_fin h.len h.pos code ?_
    unfold status at hst
    split at hst
    · split at hst
      · cases hst; decide
      · cases hst
    · split at hst
      · split at hst
        · cases hst; decide
        · cases hst
      · split at hst
        · split at hst <;> cases hst
        · cases hst
  · rename_i sw nxt hst
    obtain ⟨ha, hb⟩ := hsw sw nxt hst
    have hmid : Mid mode c cap used (.data rx) { st with sw := sw } :=
      ⟨h.len, h.pos, h.two, h.data, h.nodata⟩
    refine Post.bind (takeData_post hmid ins (Fin mode c cap (used ++ [.data rx]))
      (fun code hc => ⟨h.len, by have := h.pos; show st.rlen ≤ cap; omega,
        fun h0 => absurd h0 hc⟩)) ?_ ?_
    · rintro s ⟨hm, hssw, -, -, -⟩
      show Post _ _ (proceed capdu s sw1 sw2 nxt)
      cases nxt with
      | getResponse =>
        exact ⟨hm.len, hm.pos, hm.two, hm.data, hm.nodata, by
          show (_ ∧ s.sw = 0) ∨ _
          rw [hssw]; exact ha (by simp)⟩
      | updateLe =>
        refine txFour_post (fun l => ?_)
        exact ⟨hm.len, hm.pos, hm.two, hm.data, hm.nodata, by
          show (_ ∧ s.sw = 0) ∨ _
          rw [hssw]; exact ha (by simp)⟩
      | finish =>
        obtain ⟨s1, s2, e1, e2⟩ := hb rfl
        have hlen := hm.len; have hpos := hm.pos; have htwo := hm.two
        unfold proceed
        rw [wrs_eq (by simp; omega)]
        have hss : s.sw = s1.toNat * 256 + s2.toNat := by rw [hssw]; exact e2
        have hdl : (allData mode (used ++ [.data rx])).length = s.rpos := by
          rw [← hm.data]; simp; omega
        refine ⟨?_, ?_, fun _ => ⟨s1, s2, ?_, hss, ?_, ?_, hm.nodata⟩⟩
        · show (s.rbuf.take s.rpos ++ _ ++ _).length = cap
          simp; omega
        · show s.rpos + 2 ≤ cap
          omega
        · unfold reported
          have e1' : (List.filterMap statusOf (used ++ [.data rx])).find? isFinal =
            some (s1, s2) := e1
          rw [e1']; rfl
        · show s.rpos + 2 = _
          rw [hdl]
        · obtain ⟨f1, f2⟩ := ofNat_hi_lo s1 s2
          rw [hss, f1, f2]
          have := copy_len s.rbuf [s1, s2] s.rpos (by simp; omega)
          rw [← hm.data]
          exact this
    · intro d hd
      exact hd

theorem step_post {mode : Mode} {c : Case} {cap : Nat} {used : List Resp} {st : St}
    (capdu : List Byte) (h : Inv mode c cap used st) (hu : c = .c1 → used = []) (r : Resp) :
    Post (fun s => Inv mode c cap (used ++ [r]) s ∧ c ≠ .c1) (Fin mode c cap (used ++ [r]))
      (step capdu mode c st r) := by
  unfold step
  have hcap : 2 ≤ cap := by have := h.pos; have := h.two; omega
  cases r with
  | fail r =>
    refine fail_fin h.len h.pos _ ?_
    split
    · decide
    · assumption
  | data rx =>
    simp only
    split
    · exact fail_fin h.len h.pos _ (by decide)
    · rename_i h0
      have key : ∀ ins : Byte, Post (fun s => Inv mode c cap (used ++ [.data rx]) s ∧ c ≠ .c1)
          (Fin mode c cap (used ++ [.data rx]))
          (if rx.length = 1 then do
            let pb ← rd rx 0
            if c = .c1 then .ok (.inr ⟨2, st.rbuf, 0, st.sw⟩)
            else procByte capdu c st ins pb
          else do
            let sw1 ← rd rx (rx.length - 2)
            let sw2 ← rd rx (rx.length - 1)
            if c = .c1 then
              if rx.length ≠ 2 then .ok (.inr ⟨2, st.rbuf, 0, st.sw⟩)
              else do
                let rbuf ← wrs st.rbuf 0 rx
                .ok (.inr ⟨0, rbuf, 2, sw1.toNat * 256 + sw2.toNat⟩)
            else statusResp capdu mode c st ins rx sw1 sw2) := by
        intro ins
        have wk : ∀ x, c ≠ .c1 → Post (Inv mode c cap (used ++ [.data rx]))
            (Fin mode c cap (used ++ [.data rx])) x →
            Post (fun s => Inv mode c cap (used ++ [.data rx]) s ∧ c ≠ .c1)
            (Fin mode c cap (used ++ [.data rx])) x := by
          intro x hc hx
          match x, hx with
          | .error e, hx => exact hx
          | .ok (.inl s), hx => exact ⟨hx, hc⟩
          | .ok (.inr d), hx => exact hx
        have hbad : Fin mode c cap (used ++ [.data rx]) ⟨2, st.rbuf, 0, st.sw⟩ :=
          ⟨h.len, by show 0 ≤ cap; omega, fun h0 => by cases h0⟩
        split
        · rename_i h1
          apply post_rd
          intro hi
          split
          · exact hbad
          · rename_i hc
            exact wk _ hc (procByte_post capdu h ins _ rx (by omega))
        · rename_i h1
          apply post_rd; intro hi1
          apply post_rd; intro hi2
          have hs : statusOf (.data rx) = some (rx[rx.length - 2], rx[rx.length - 1]) := by
            simp only [statusOf]
            rw [if_pos (by omega)]
            simp [List.getD_eq_getElem?_getD, hi1, hi2]
          split
          · rename_i hc
            split
            · exact hbad
            · rename_i h2
              have h2' : rx.length = 2 := by simpa using h2
              have hl := h.len
              rw [wrs_eq (by omega)]
              rw [hu hc] at *
              have hd : allData mode ([] ++ [.data rx]) = [] := by
                simp [allData, dataOf_short mode (show rx.length ≤ 2 by omega)]
              refine ⟨?_, hcap, fun _ => ⟨rx[rx.length - 2], rx[rx.length - 1], ?_, rfl, ?_, ?_, ?_⟩⟩
              · show (List.take 0 st.rbuf ++ rx ++ _).length = cap
                simp; omega
              · unfold reported
                simp only [List.nil_append, List.filterMap_cons, hs, List.filterMap_nil,
                  List.find?_cons, List.find?_nil, List.getLast?_singleton]
                cases isFinal (rx[rx.length - 2], rx[rx.length - 1]) <;> rfl
              · show 2 = _
                rw [hd]; rfl
              · show List.take 2 _ = _
                rw [hd]
                match rx, h2' with
                | [x, y], _ => rfl
              · intro _; exact hd
          · rename_i hc
            exact wk _ hc (statusResp_post capdu h ins rx _ _ hs)
      unfold txIns
      cases st.tx with
      | capdu off len => exact post_rd (fun _ => key _)
      | header => exact post_rd (fun _ => key _)

/-- The whole loop. -/
theorem run_post {mode : Mode} {c : Case} {cap : Nat} (capdu : List Byte) :
    ∀ (script used : List Resp) (st : St), Inv mode c cap used st → (c = .c1 → used = []) →
      match run capdu mode c script st with
      | .error e => e = .oobRead
      | .ok (_, .pending) => True
      | .ok (log, .done d rest) => ∃ u, script = u ++ rest ∧ log.length = u.length ∧
          Fin mode c cap (used ++ u) d := by
  intro script
  induction script with
  | nil =>
    intro used st h _
    unfold run
    cases ht : txBytes capdu st with
    | error e =>
      unfold txBytes slice at ht
      split at ht <;> split at ht <;> cases ht <;> rfl
    | ok t => trivial
  | cons r rs ih =>
    intro used st h hu
    unfold run
    cases ht : txBytes capdu st with
    | error e =>
      unfold txBytes slice at ht
      split at ht <;> split at ht <;> cases ht <;> rfl
    | ok t =>
      simp only [bind_ok]
      have hst := step_post capdu h hu r
      generalize step capdu mode c st r = x at hst
      match x, hst with
      | .error e, hst => exact hst
      | .ok (.inr d), hst => exact ⟨[r], rfl, rfl, hst⟩
      | .ok (.inl s), hst =>
        simp only [bind_ok]
        have := ih (used ++ [r]) s hst.1 (fun hc => absurd hc hst.2)
        generalize run capdu mode c rs s = y at this
        match y, this with
        | .error e, this => exact this
        | .ok (log, .pending), _ => trivial
        | .ok (log, .done d rest), this =>
          obtain ⟨u, h1, h2, h3⟩ := this
          exact ⟨r :: u, by simp [h1], by simp [h2], by simpa using h3⟩

end Verif.Ttl
