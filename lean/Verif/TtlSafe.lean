import Verif.TtlLemmas

/-! # Transport layer: reads, transmissions and termination (lemmas) -/

set_option autoImplicit false

namespace Verif.Ttl
open Verif Apdu

/-- Outcome of `initSt`. -/
def InitPost (P : St → Prop) : C St → Prop
  | .error e => e = .oobRead
  | .ok st => P st

theorem initPost_slice {P : St → Prop} {b : List Byte} {k n : Nat} {f : List Byte → C St}
    (h : ∀ l, InitPost P (f l)) : InitPost P (slice b k n >>= f) := by
  unfold slice
  split
  · exact h _
  · rfl

theorem initSt_inv {mode : Mode} {c : Case} {capdu rbuf : List Byte} (h : 2 ≤ rbuf.length) :
    InitPost (Inv mode c rbuf.length []) (initSt capdu mode c rbuf) := by
  have mk : ∀ hdr tx off, Inv mode c rbuf.length [] ⟨hdr, tx, off, rbuf, 0, rbuf.length, 0⟩ := by
    intro hdr tx off
    exact ⟨rfl, by show 0 + rbuf.length = _; omega, h, rfl, fun _ => rfl, Or.inl ⟨rfl, rfl⟩⟩
  unfold initSt
  cases mode with
  | apdu => exact mk _ _ _
  | tpdu =>
    simp only
    split
    · exact initPost_slice fun _ => mk _ _ _
    · exact initPost_slice fun _ => mk _ _ _

/-- What is true of every finished exchange. -/
def TrxPost (mode : Mode) (capdu rbuf : List Byte) (script : List Resp) :
    C (List (List Byte) × Outcome) → Prop
  | .error e => e = .oobRead
  | .ok (_, .pending) => True
  | .ok (log, .done d rest) => ∃ u, script = u ++ rest ∧ log.length = u.length ∧
        ((log = [] ∧ d.code < 0 ∧ d.rbuf = rbuf ∧ d.rlen = rbuf.length) ∨
          ∃ c, apduCase capdu = .ok (.ok c) ∧ Fin mode c rbuf.length u d)

theorem trx_post (mode : Mode) (capdu rbuf : List Byte) (script : List Resp)
    (h : 2 ≤ rbuf.length) :
    TrxPost mode capdu rbuf script (trx mode capdu rbuf script) := by
  unfold trx
  split
  · exact ⟨[], rfl, rfl, Or.inl ⟨rfl, by simp, rfl, rfl⟩⟩
  · have hcase : ∀ e, apduCase capdu = .error e → e = .oobRead := by
      intro e he
      have hrd : ∀ i e, rd capdu i = .error e → e = .oobRead := by
        intro i e h
        unfold rd at h
        split at h
        · cases h
        · cases h; rfl
      unfold apduCase at he
      split at he
      · cases he
      · split at he
        · cases he
        · split at he
          · cases he
          · cases h5 : rd capdu 4 with
            | error e5 => rw [h5] at he; cases he; exact hrd _ _ h5
            | ok c5 =>
              rw [h5] at he
              simp only [bind_ok] at he
              split at he
              · split at he
                · cases he
                · split at he <;> cases he
              · split at he
                · cases he
                · split at he
                  · cases h6 : rd capdu 6 with
                    | error e6 => rw [h6] at he; cases he; exact hrd _ _ h6
                    | ok c6 =>
                      cases h7 : rd capdu 7 with
                      | error e7 => rw [h6, h7] at he; cases he; exact hrd _ _ h7
                      | ok c7 =>
                        rw [h6, h7] at he
                        simp only [bind_ok] at he
                        split at he
                        · split at he
                          · cases he
                          · split at he <;> cases he
                        · cases he
                  · cases he
    cases hc : apduCase capdu with
    | error e => exact hcase e hc
    | ok r =>
      simp only [bind_ok]
      cases r with
      | error code => exact ⟨[], rfl, rfl, Or.inl ⟨rfl, by simp, rfl, rfl⟩⟩
      | ok c =>
        simp only
        split
        · have hi := initSt_inv (mode := mode) (c := c) (capdu := capdu) h
          generalize initSt capdu mode c rbuf = x at hi
          match x, hi with
          | .error e, hi => exact hi
          | .ok st, hi =>
            simp only [bind_ok]
            have hr := run_post capdu script [] st hi (fun _ => rfl)
            generalize run capdu mode c script st = y at hr
            match y, hr with
            | .error e, hr => exact hr
            | .ok (log, .pending), _ => trivial
            | .ok (log, .done d rest), hr =>
              obtain ⟨u, h1, h2, h3⟩ := hr
              exact ⟨u, h1, h2, Or.inr ⟨c, hc, by simpa using h3⟩⟩
        · exact ⟨[], rfl, rfl, Or.inl ⟨rfl, by simp, rfl, rfl⟩⟩

/-- A GET RESPONSE command. -/
def GetResponse (t : List Byte) : Prop := ∃ le, t = [0x00, 0xC0, 0x00, 0x00, le]

/-- The header of the command again, with another length. -/
def Reissue (capdu t : List Byte) : Prop := ∃ le, t = capdu.take 4 ++ [le]

/-- What opens the exchange: the command itself, or its 5-byte header (P3 = 0 in case 1). -/
def firstTx : Mode → List Byte → List Byte
  | .apdu, capdu => capdu
  | .tpdu, capdu => (capdu ++ [0]).take 5

/-- Post-condition without reads out of bounds. -/
def Safe (P : St → Prop) : C (St ⊕ Done) → Prop
  | .error e => e ≠ .oobRead
  | .ok (.inl s) => P s
  | .ok (.inr _) => True

theorem failByte_safe {P : St → Prop} (st : St) (b : Byte) (code : Int) :
    Safe P (st.failByte b code) := by
  unfold St.failByte wrs
  split
  · trivial
  · exact fun h => by cases h

theorem copyData_safe {c : Case} {st : St} {rx : List Byte} {skip : Nat} {bad short : Int}
    (hl : skip + 2 < rx.length) {P : St → Prop}
    (hP : ∀ s : St, s.tx = st.tx → s.hdr = st.hdr → s.dataOff = st.dataOff → s.sw = st.sw → P s) :
    Safe P (copyData c st rx skip bad short) := by
  unfold copyData
  split
  · trivial
  · split
    · trivial
    · simp only
      rw [slice_eq (by omega)]
      simp only [bind_ok]
      unfold wrs
      split
      · exact hP _ rfl rfl rfl rfl
      · exact fun h => by cases h

theorem takeData_safe {mode : Mode} {c : Case} {st : St} {ins : Byte} {rx : List Byte}
    {P : St → Prop}
    (hP : ∀ s : St, s.tx = st.tx → s.hdr = st.hdr → s.dataOff = st.dataOff → s.sw = st.sw → P s) :
    Safe P (takeData mode c st ins rx) := by
  unfold takeData
  cases mode with
  | tpdu =>
    simp only
    split
    · split
      · trivial
      · rw [rd_eq (by omega)]
        simp only [bind_ok]
        split
        · trivial
        · exact copyData_safe (by omega) hP
    · exact hP _ rfl rfl rfl rfl
  | apdu =>
    simp only
    split
    · exact copyData_safe (by omega) hP
    · exact hP _ rfl rfl rfl rfl

/-- The answer is 6Cxx. -/
def Is6C (r : Resp) : Prop := ∃ s2, statusOf r = some (0x6C, s2)

/-- A single procedure byte. -/
def OneByte (r : Resp) : Prop := ∃ b, r = .data [b]

/-- `tx_buf` holds the command, its header or a GET RESPONSE. -/
def TxOk (capdu : List Byte) (st : St) : Prop :=
  st.tx = .capdu 0 capdu.length ∨
  (st.tx = .header ∧ (GetResponse st.hdr ∨ Reissue capdu st.hdr))

theorem txFour_ok {capdu : List Byte} {st : St} (h4 : 4 ≤ capdu.length) (h : TxOk capdu st) :
    ∃ l, txFour capdu st = .ok l ∧ ∀ b, (GetResponse (l ++ [b]) ∨ Reissue capdu (l ++ [b])) := by
  unfold txFour
  rcases h with h | ⟨h, ⟨le, hg⟩ | ⟨le, hr⟩⟩
  · rw [h]
    simp only
    rw [slice_eq (by omega)]
    exact ⟨_, rfl, fun b => Or.inr ⟨b, rfl⟩⟩
  · rw [h]
    simp only
    rw [hg]
    exact ⟨_, rfl, fun b => Or.inl ⟨b, rfl⟩⟩
  · rw [h]
    simp only
    have h4' : (capdu.take 4).length = 4 := by simp; omega
    rw [hr, slice_eq (by simp; omega)]
    refine ⟨_, rfl, fun b => Or.inr ⟨b, ?_⟩⟩
    rw [List.drop_zero]
    congr 1
    exact List.take_left' h4'

theorem proceed_safe {capdu : List Byte} {st : St} {sw1 sw2 : Byte} {nxt : Next}
    (h4 : 4 ≤ capdu.length) (h : TxOk capdu st ∨ nxt ≠ .updateLe) :
    Safe (fun s => s.tx = .header ∧ (GetResponse s.hdr ∨ Reissue capdu s.hdr) ∧
      s.dataOff = st.dataOff) (proceed capdu st sw1 sw2 nxt) := by
  cases nxt with
  | getResponse => exact ⟨rfl, Or.inl ⟨_, rfl⟩, rfl⟩
  | updateLe =>
    rcases h with h | h
    · obtain ⟨l, h1, h2⟩ := txFour_ok h4 h
      unfold proceed
      rw [h1]
      exact ⟨rfl, h2 _, rfl⟩
    · exact absurd rfl h
  | finish =>
    unfold proceed wrs
    simp only
    split
    · trivial
    · exact fun h => by cases h

theorem Safe.bind {P P' : St → Prop} {x : C (St ⊕ Done)} {f : St ⊕ Done → C (St ⊕ Done)}
    (h : Safe P x) (hp : ∀ s, P s → Safe P' (f (.inl s))) (hq : ∀ d, Safe P' (f (.inr d))) :
    Safe P' (x >>= f) := by
  match x, h with
  | .error e, h => exact h
  | .ok (.inl s), h => exact hp s h
  | .ok (.inr d), h => exact hq d

theorem step_safe {capdu : List Byte} {mode : Mode} {c : Case} {st : St} {r : Resp}
    (h4 : 4 ≤ capdu.length) (hins : ∃ b, txIns capdu st = .ok b)
    (hp : st.dataOff = none ∨ ¬ OneByte r) (hc : TxOk capdu st ∨ ¬ Is6C r) :
    Safe (fun s => s.tx = .header ∧ (GetResponse s.hdr ∨ Reissue capdu s.hdr) ∧
      s.dataOff = st.dataOff) (step capdu mode c st r) := by
  obtain ⟨ins, hins⟩ := hins
  unfold step
  cases r with
  | fail r => trivial
  | data rx =>
    simp only
    split
    · trivial
    · rename_i h0
      rw [hins]
      simp only [bind_ok]
      split
      · rename_i h1
        rw [rd_eq (by omega)]
        simp only [bind_ok]
        split
        · trivial
        · have hd : st.dataOff = none := by
            rcases hp with hp | hp
            · exact hp
            · exfalso
              apply hp
              match rx, h1 with
              | [b], _ => exact ⟨b, rfl⟩
          unfold procByte
          rw [hd]
          simp only
          split
          · exact failByte_safe _ _ _
          · split
            · exact failByte_safe _ _ _
            · split
              · exact failByte_safe _ _ _
              · exact failByte_safe _ _ _
      · rename_i h1
        have hi1 : rx.length - 2 < rx.length := by omega
        have hi2 : rx.length - 1 < rx.length := by omega
        rw [rd_eq hi1, rd_eq hi2]
        simp only [bind_ok]
        have hs : statusOf (.data rx) = some (rx[rx.length - 2], rx[rx.length - 1]) := by
          simp only [statusOf]
          rw [if_pos (by omega)]
          simp [List.getD_eq_getElem?_getD, hi1, hi2]
        split
        · split
          · trivial
          · unfold wrs
            split
            · trivial
            · exact fun h => by cases h
        · unfold statusResp
          split
          · trivial
          · rename_i sw nxt hst
            have hnx : nxt = .updateLe → rx[rx.length - 2] = 0x6C := by
              rintro rfl
              unfold status at hst
              split at hst
              · split at hst <;> cases hst
              · split at hst
                · assumption
                · split at hst
                  · split at hst <;> cases hst
                  · cases hst
            refine Safe.bind (takeData_safe (P := fun s => s.tx = st.tx ∧ s.hdr = st.hdr ∧
              s.dataOff = st.dataOff) (fun s h1 h2 h3 _ => ⟨h1, h2, h3⟩)) ?_ ?_
            · rintro s ⟨e1, e2, e3⟩
              show Safe _ (proceed capdu s _ _ nxt)
              have : TxOk capdu s ∨ nxt ≠ .updateLe := by
                rcases hc with hc | hc
                · left
                  unfold TxOk
                  rw [e1, e2]
                  exact hc
                · right
                  intro hn
                  exact hc ⟨_, by rw [hs, hnx hn]⟩
              have hps := proceed_safe (sw1 := rx[rx.length - 2]) (sw2 := rx[rx.length - 1])
                h4 this
              rw [e3] at hps
              exact hps
            · intro d; trivial

theorem txBytes_header {capdu : List Byte} {st : St} (h4 : 4 ≤ capdu.length)
    (h : st.tx = .header ∧ (GetResponse st.hdr ∨ Reissue capdu st.hdr)) :
    txBytes capdu st = .ok st.hdr ∧ ∃ b, txIns capdu st = .ok b := by
  obtain ⟨ht, hg⟩ := h
  unfold txBytes txIns
  rw [ht]
  have hl : st.hdr.length = 5 := by
    rcases hg with ⟨le, hg⟩ | ⟨le, hg⟩
    · rw [hg]; rfl
    · rw [hg]; simp; omega
  simp only
  constructor
  · rw [slice_eq (by omega), List.drop_zero, ← hl, List.take_length]
  · exact ⟨_, rd_eq (by omega)⟩

/-- From a state whose next transmission is a header, everything transmitted is a header. -/
theorem run_headers {capdu : List Byte} {mode : Mode} {c : Case} (h4 : 4 ≤ capdu.length) :
    ∀ (script : List Resp) (st : St), st.tx = .header →
      (GetResponse st.hdr ∨ Reissue capdu st.hdr) →
      (st.dataOff = none ∨ ∀ r ∈ script, ¬ OneByte r) →
      match run capdu mode c script st with
      | .error e => e ≠ .oobRead
      | .ok (log, _) => ∀ t ∈ log, GetResponse t ∨ Reissue capdu t := by
  intro script
  induction script with
  | nil =>
    intro st h1 h2 h3
    unfold run
    rw [(txBytes_header h4 ⟨h1, h2⟩).1]
    simpa using h2
  | cons r rs ih =>
    intro st h1 h2 h3
    unfold run
    obtain ⟨e1, e2⟩ := txBytes_header h4 ⟨h1, h2⟩
    rw [e1]
    simp only [bind_ok]
    have hs := step_safe (mode := mode) (c := c) (r := r) h4 e2
      (by rcases h3 with h3 | h3
          · exact Or.inl h3
          · exact Or.inr (h3 r (by simp)))
      (Or.inl (Or.inr ⟨h1, h2⟩))
    generalize step capdu mode c st r = x at hs
    match x, hs with
    | .error e, hs => exact hs
    | .ok (.inr d), _ => simpa using h2
    | .ok (.inl s), ⟨s1, s2, s3⟩ =>
      simp only [bind_ok]
      have := ih s s1 s2 (by
        rw [s3]
        rcases h3 with h3 | h3
        · exact Or.inl h3
        · exact Or.inr (fun r hr => h3 r (by simp [hr])))
      generalize run capdu mode c rs s = y at this
      match y, this with
      | .error e, this => exact this
      | .ok (log, o), this =>
        intro t ht
        rcases List.mem_cons.mp ht with rfl | ht
        · exact h2
        · exact this t ht

/-- One turn from any transmitted string, then headers. -/
theorem run_first {capdu : List Byte} {mode : Mode} {c : Case} (h4 : 4 ≤ capdu.length)
    (st : St) (t0 : List Byte) (ht : txBytes capdu st = .ok t0)
    (hins : ∃ b, txIns capdu st = .ok b) (script : List Resp)
    (hd : st.dataOff = none ∨ ∀ r ∈ script, ¬ OneByte r)
    (hc : TxOk capdu st ∨ ∀ r rs, script = r :: rs → ¬ Is6C r) :
    match run capdu mode c script st with
    | .error e => e ≠ .oobRead
    | .ok (log, _) => ∃ rest, log = t0 :: rest ∧ ∀ t ∈ rest, GetResponse t ∨ Reissue capdu t := by
  cases script with
  | nil =>
    unfold run
    rw [ht]
    exact ⟨[], rfl, by simp⟩
  | cons r rs =>
    unfold run
    rw [ht]
    simp only [bind_ok]
    have hs := step_safe (mode := mode) (c := c) (r := r) h4 hins
      (by rcases hd with hd | hd
          · exact Or.inl hd
          · exact Or.inr (hd r (by simp)))
      (by rcases hc with hc | hc
          · exact Or.inl hc
          · exact Or.inr (hc r rs rfl))
    generalize step capdu mode c st r = x at hs
    match x, hs with
    | .error e, hs => exact hs
    | .ok (.inr d), _ => exact ⟨[], rfl, by simp⟩
    | .ok (.inl s), ⟨s1, s2, s3⟩ =>
      simp only [bind_ok]
      have := run_headers (mode := mode) (c := c) h4 rs s s1 s2 (by
        rw [s3]
        rcases hd with hd | hd
        · exact Or.inl hd
        · exact Or.inr (fun r hr => hd r (by simp [hr])))
      generalize run capdu mode c rs s = y at this
      match y, this with
      | .error e, this => exact this
      | .ok (log, o), this => exact ⟨log, rfl, this⟩

theorem apduCase_len {capdu : List Byte} {c : Case} (h : apduCase capdu = .ok (.ok c)) :
    4 ≤ capdu.length ∧ (c = .c1 ↔ capdu.length = 4) ∧ (c = .c2S ↔ capdu.length = 5) ∧
    (c = .c3S ∨ c = .c4S → ∃ lc, rd capdu 4 = .ok lc ∧ lc ≠ 0 ∧
      (c = .c3S → 5 + lc.toNat = capdu.length) ∧ (c = .c4S → 6 + lc.toNat = capdu.length)) := by
  unfold apduCase at h
  split at h
  · cases h
  · split at h
    · rename_i h1 h2
      cases h
      exact ⟨by omega, by simp [h2], by simp; omega, by simp⟩
    · split at h
      · rename_i h1 h2 h3
        cases h
        exact ⟨by omega, by simp; omega, by simp [h3], by simp⟩
      · rename_i h1 h2 h3
        have h5 : 4 < capdu.length := by omega
        rw [rd_eq h5] at h ⊢
        simp only [bind_ok] at h
        have n1 : ¬ capdu.length = 4 := h2
        split at h
        · rename_i hne
          split at h
          · rename_i hl
            cases h
            exact ⟨by omega, by simp [n1], by simp [h3],
              fun _ => ⟨_, rfl, hne, fun _ => hl, fun h => by cases h⟩⟩
          · split at h
            · rename_i hl
              cases h
              exact ⟨by omega, by simp [n1], by simp [h3],
                fun _ => ⟨_, rfl, hne, (fun h => by cases h), fun _ => hl⟩⟩
            · cases h
        · split at h
          · cases h
            exact ⟨by omega, by simp [n1], by simp [h3], by simp⟩
          · split at h
            · rename_i h7
              have h6 : 6 < capdu.length := by omega
              have h7' : 7 < capdu.length := by omega
              rw [rd_eq h6, rd_eq h7'] at h
              simp only [bind_ok] at h
              split at h
              · split at h
                · cases h
                  exact ⟨by omega, by simp [n1], by simp [h3], by simp⟩
                · split at h
                  · cases h
                    exact ⟨by omega, by simp [n1], by simp [h3], by simp⟩
                  · cases h
              · cases h
            · cases h

/-- Outcome of a whole run without out-of-bounds reads. -/
def RunOk (Q : List (List Byte) → Prop) : C (List (List Byte) × Outcome) → Prop
  | .error e => e ≠ .oobRead
  | .ok (log, _) => Q log

theorem RunOk.ok {mode : Mode} {capdu rbuf : List Byte} {script : List Resp}
    {Q : List (List Byte) → Prop} (h : 2 ≤ rbuf.length)
    (hr : RunOk Q (trx mode capdu rbuf script)) :
    ∃ log o, trx mode capdu rbuf script = .ok (log, o) ∧ Q log := by
  have hp := trx_post mode capdu rbuf script h
  generalize trx mode capdu rbuf script = x at hr hp
  match x, hr, hp with
  | .error e, hr, hp => exact absurd hp hr
  | .ok (log, o), hr, _ => exact ⟨log, o, rfl, hr⟩

/-- Everything sent is the opening transmission followed by header-only commands. -/
def HeaderLog (mode : Mode) (capdu : List Byte) (log : List (List Byte)) : Prop :=
  log = [] ∨ ∃ rest, log = firstTx mode capdu :: rest ∧
    ∀ t ∈ rest, GetResponse t ∨ Reissue capdu t

/-- The opening state. -/
theorem initSt_first {mode : Mode} {c : Case} {capdu rbuf : List Byte}
    (hc : apduCase capdu = .ok (.ok c)) :
    ∃ st, initSt capdu mode c rbuf = .ok st ∧ txBytes capdu st = .ok (firstTx mode capdu) ∧
      (∃ b, txIns capdu st = .ok b) ∧ TxOk capdu st ∧
      (st.dataOff = if mode = .tpdu ∧ (c = .c3S ∨ c = .c4S) then some 5 else none) ∧
      (mode = .tpdu → st.hdr = firstTx .tpdu capdu ∧ st.tx = .header) := by
  obtain ⟨h4, h1, -, -⟩ := apduCase_len hc
  unfold initSt
  cases mode with
  | apdu =>
    refine ⟨_, rfl, ?_, ?_, Or.inl rfl, rfl, (fun h => by cases h)⟩
    · simp only [txBytes, firstTx]
      rw [slice_eq (by omega), List.drop_zero, List.take_length]
    · exact ⟨_, rd_eq (by omega)⟩
  | tpdu =>
    simp only
    by_cases hc1 : c = .c1
    · rw [if_pos hc1, slice_eq (by omega)]
      have e4 := h1.mp hc1
      have hh : (capdu ++ [0]).take 5 = capdu ++ [0] :=
        List.take_of_length_le (by simp; omega)
      have ht : capdu.take 4 = capdu := List.take_of_length_le (by omega)
      refine ⟨_, rfl, ?_, ?_, Or.inr ⟨rfl, Or.inr ⟨0, by simp⟩⟩, by simp, ?_⟩
      · simp only [txBytes, firstTx, List.drop_zero, ht, hh]
        rw [slice_eq (by simp; omega), List.drop_zero, hh]
      · exact ⟨_, rd_eq (by simp; omega)⟩
      · intro _
        simp only [firstTx, List.drop_zero, ht, hh]
        exact ⟨trivial, trivial⟩
    · have h5 : 5 ≤ capdu.length := by
        have := mt h1.mpr hc1
        omega
      rw [if_neg hc1, slice_eq (by omega)]
      have hh : (capdu ++ [0]).take 5 = capdu.take 5 := List.take_append_of_le_length h5
      refine ⟨_, rfl, ?_, ?_, Or.inr ⟨rfl, Or.inr ⟨capdu[4], ?_⟩⟩, by simp, ?_⟩
      · simp only [txBytes, firstTx, List.drop_zero, hh]
        rw [slice_eq (by simp; omega), List.drop_zero, List.take_take]
        rfl
      · exact ⟨_, rd_eq (by simp; omega)⟩
      · simp only [List.drop_zero]
        rw [List.take_add_one, List.getElem?_eq_getElem (by omega)]
        rfl
      · intro _
        simp only [firstTx, List.drop_zero, hh]
        exact ⟨trivial, trivial⟩

theorem trx_headers {mode : Mode} {capdu rbuf : List Byte} {script : List Resp}
    (hd : mode = .apdu ∨ capdu.length ≤ 5 ∨ ∀ r ∈ script, ¬ OneByte r) :
    (∃ e, apduCase capdu = .error e) ∨
    RunOk (HeaderLog mode capdu) (trx mode capdu rbuf script) := by
  unfold trx
  split
  · exact Or.inr (Or.inl rfl)
  · cases hc : apduCase capdu with
    | error e => exact Or.inl ⟨e, rfl⟩
    | ok r =>
      right
      simp only [bind_ok]
      cases r with
      | error code => exact Or.inl rfl
      | ok c =>
        simp only
        split
        · obtain ⟨h4, h1, h2, h3⟩ := apduCase_len hc
          obtain ⟨st, e1, e2, e3, e4, e5, -⟩ := initSt_first (mode := mode) (rbuf := rbuf) hc
          rw [e1]
          simp only [bind_ok]
          have hd' : st.dataOff = none ∨ ∀ r ∈ script, ¬ OneByte r := by
            rcases hd with hd | hd | hd
            · left; rw [e5, hd]; simp
            · left
              rw [e5, if_neg]
              rintro ⟨-, hcc⟩
              have : c = .c1 ∨ c = .c2S := by
                have : capdu.length = 4 ∨ capdu.length = 5 := by omega
                rcases this with h | h
                · exact Or.inl (h1.mpr h)
                · exact Or.inr (h2.mpr h)
              rcases this with rfl | rfl <;> simp at hcc
            · exact Or.inr hd
          have := run_first (mode := mode) (c := c) h4 st _ e2 e3 script hd' (Or.inl e4)
          generalize run capdu mode c script st = x at this
          match x, this with
          | .error e, this => exact this
          | .ok (log, o), this => exact Or.inr this
        · exact Or.inl rfl

/-- `apduCase` reads nothing it should not. -/
theorem apduCase_safe (capdu : List Byte) (e : UB) : apduCase capdu ≠ .error e := by
  intro h
  unfold apduCase at h
  split at h
  · cases h
  · split at h
    · cases h
    · split at h
      · cases h
      · rename_i h1 h2 h3
        have h5 : 4 < capdu.length := by omega
        rw [rd_eq h5] at h
        simp only [bind_ok] at h
        split at h
        · split at h
          · cases h
          · split at h <;> cases h
        · split at h
          · cases h
          · split at h
            · rename_i h7
              have h6 : 6 < capdu.length := by omega
              have h7' : 7 < capdu.length := by omega
              rw [rd_eq h6, rd_eq h7'] at h
              simp only [bind_ok] at h
              split at h
              · split at h
                · cases h
                · split at h <;> cases h
              · cases h
            · cases h

/-- A command with data: header, Lc, data and possibly Le. -/
structure WithData (capdu : List Byte) (cla ins p1 p2 : Byte) (data tail : List Byte) : Prop where
  bytes : capdu = [cla, ins, p1, p2, UInt8.ofNat data.length] ++ data ++ tail
  pos : data ≠ []
  short : data.length < 256
  tail : tail.length ≤ 1

theorem WithData.case {capdu : List Byte} {cla ins p1 p2 : Byte} {data tail : List Byte}
    (w : WithData capdu cla ins p1 p2 data tail) :
    apduCase capdu = .ok (.ok (if tail = [] then .c3S else .c4S)) := by
  have hl : capdu.length = 5 + data.length + tail.length := by rw [w.bytes]; simp; omega
  have hd : data.length ≠ 0 := by
    have := w.pos
    intro h
    exact this (List.eq_nil_of_length_eq_zero h)
  have h5 : rd capdu 4 = .ok (UInt8.ofNat data.length) := by
    rw [w.bytes]
    simp only [List.cons_append, List.nil_append]
    rfl
  have hn : (UInt8.ofNat data.length).toNat = data.length := by
    simp
    exact w.short
  unfold apduCase
  rw [if_neg (by omega), if_neg (by omega), if_neg (by omega), h5]
  simp only [bind_ok]
  rw [if_pos (by intro h; rw [h] at hn; simp at hn; omega), hn]
  have ht := w.tail
  match tail, ht with
  | [], _ => rw [if_pos (by simpa using hl.symm), if_pos rfl]
  | [x], _ =>
    have : capdu.length = 6 + data.length := by simp at hl; omega
    rw [if_neg (by omega), if_pos this.symm, if_neg (by simp)]

/-- The answer asks for another command (61xx or 6Cxx). -/
def wantsMore (r : Resp) : Bool :=
  match statusOf r with
  | some (s1, _) => s1 == 0x61 || s1 == 0x6C
  | none => false

/-- Turns left apart from 61xx/6Cxx. -/
def turns (capdu : List Byte) (st : St) : Nat :=
  (if st.sw = 0 then 1 else 0) + (match st.dataOff with | none => 0 | some off => capdu.length - off)

/-- The offset stays inside the command. -/
def OffOk (capdu : List Byte) (st : St) : Prop := ∀ off, st.dataOff = some off → off < capdu.length

/-- If the turn continues, `Q` holds of the new state. -/
def Cont (Q : St → Prop) : C (St ⊕ Done) → Prop
  | .ok (.inl s) => Q s
  | _ => True

theorem takeData_cont {mode : Mode} {c : Case} {st : St} {ins : Byte} {rx : List Byte} :
    Cont (fun s => s.dataOff = st.dataOff ∧ s.sw = st.sw) (takeData mode c st ins rx) := by
  have h := takeData_safe (mode := mode) (c := c) (st := st) (ins := ins) (rx := rx)
    (P := fun s => s.dataOff = st.dataOff ∧ s.sw = st.sw) (fun s _ _ h1 h2 => ⟨h1, h2⟩)
  generalize takeData mode c st ins rx = x at h
  match x, h with
  | .error e, _ => trivial
  | .ok (.inl s), h => exact h
  | .ok (.inr d), _ => trivial

theorem proceed_cont {capdu : List Byte} {st : St} {sw1 sw2 : Byte} {nxt : Next} :
    Cont (fun s => s.dataOff = st.dataOff ∧ s.sw = st.sw ∧ nxt ≠ .finish)
      (proceed capdu st sw1 sw2 nxt) := by
  cases nxt with
  | getResponse => exact ⟨rfl, rfl, by simp⟩
  | updateLe =>
    unfold proceed
    cases txFour capdu st with
    | error e => trivial
    | ok l => exact ⟨rfl, rfl, by simp⟩
  | finish =>
    unfold proceed
    simp only
    cases wrs st.rbuf st.rpos [UInt8.ofNat (st.sw / 256), UInt8.ofNat (st.sw % 256)] with
    | error e => trivial
    | ok l => trivial

theorem failByte_cont {Q : St → Prop} (st : St) (b : Byte) (code : Int) :
    Cont Q (st.failByte b code) := by
  unfold St.failByte wrs
  split <;> trivial

theorem step_cont {capdu : List Byte} {mode : Mode} {c : Case} {st : St} {r : Resp}
    (ho : OffOk capdu st) (hc : c = .c1 ∨ c = .c2S → st.dataOff = none)
    (h4 : c = .c1 ∨ c = .c2S ∨ c = .c3S ∨ c = .c4S) :
    Cont (fun s => OffOk capdu s ∧ (c = .c1 ∨ c = .c2S → s.dataOff = none) ∧
      turns capdu s + (!wantsMore r).toNat ≤ turns capdu st)
      (step capdu mode c st r) := by
  unfold step
  cases r with
  | fail r => trivial
  | data rx =>
    simp only
    split
    · trivial
    · rename_i h0
      cases txIns capdu st with
      | error e => trivial
      | ok ins =>
        simp only [bind_ok]
        split
        · rename_i h1
          have hw : wantsMore (.data rx) = false := by
            match rx, h1 with
            | [b], _ => rfl
          rw [hw]
          rw [rd_eq (by omega)]
          simp only [bind_ok]
          split
          · trivial
          · unfold procByte
            split
            · exact failByte_cont _ _ _
            · split
              · split
                · exact failByte_cont _ _ _
                · rename_i off hoff
                  cases rd st.hdr 4 with
                  | error e => trivial
                  | ok lc =>
                    simp only [bind_ok]
                    refine ⟨?_, fun _ => rfl, ?_⟩
                    · intro o h; cases h
                    · have := ho off hoff
                      simp only [turns, hoff]
                      simp
                      omega
              · split
                · split
                  · exact failByte_cont _ _ _
                  · rename_i off hoff
                    have hlt := ho off hoff
                    have hc3 : c = .c3S ∨ c = .c4S := by
                      rcases h4 with h | h | h | h
                      · have := hc (Or.inl h); rw [hoff] at this; cases this
                      · have := hc (Or.inr h); rw [hoff] at this; cases this
                      · exact Or.inl h
                      · exact Or.inr h
                    refine ⟨?_, ?_, ?_⟩
                    · intro o h
                      simp only at h
                      split at h
                      · cases h
                      · split at h
                        · cases h
                        · cases h
                          rename_i g1 g2
                          rcases hc3 with rfl | rfl
                          · simp at g1; omega
                          · simp at g2; omega
                    · intro h
                      rcases h with rfl | rfl <;> simp at hc3
                    · simp only [turns, hoff]
                      by_cases g1 : c = .c3S ∧ off + 1 ≥ capdu.length
                      · rw [if_pos g1]; simp; omega
                      · rw [if_neg g1]
                        by_cases g2 : c = .c4S ∧ off + 1 ≥ capdu.length - 1
                        · rw [if_pos g2]; simp; omega
                        · rw [if_neg g2]; simp; omega
                · exact failByte_cont _ _ _
        · rename_i h1
          have hi1 : rx.length - 2 < rx.length := by omega
          have hi2 : rx.length - 1 < rx.length := by omega
          rw [rd_eq hi1, rd_eq hi2]
          simp only [bind_ok]
          have hs : statusOf (.data rx) = some (rx[rx.length - 2], rx[rx.length - 1]) := by
            simp only [statusOf]
            rw [if_pos (by omega)]
            simp [List.getD_eq_getElem?_getD, hi1, hi2]
          split
          · split
            · trivial
            · cases wrs st.rbuf 0 rx <;> trivial
          · unfold statusResp
            split
            · trivial
            · rename_i sw nxt hst
              have hw : nxt ≠ .finish → (wantsMore (.data rx) = true ∧ sw = st.sw) ∨
                  (st.sw = 0 ∧ sw ≠ 0) := by
                intro hn
                unfold wantsMore
                rw [hs]
                unfold status at hst
                split at hst
                · rename_i h61
                  split at hst
                  · cases hst
                  · cases hst; left; simp [h61]
                · split at hst
                  · rename_i h6c
                    split at hst
                    · cases hst
                    · cases hst; left; simp [h6c]
                  · split at hst
                    · rename_i hsw
                      split at hst
                      · rename_i hwarn
                        cases hst
                        right
                        refine ⟨hsw, ?_⟩
                        have : rx[rx.length - 2] ≠ 0 := by
                          intro h0
                          have := hwarn.2.2
                          rw [h0] at this
                          simp [swIsWarning] at this
                        have : rx[rx.length - 2].toNat ≠ 0 := by
                          intro h
                          exact this (UInt8.toNat_inj.mp h)
                        omega
                      · cases hst; exact absurd rfl hn
                    · cases hst; exact absurd rfl hn
              have ht := takeData_cont (mode := mode) (c := c) (st := { st with sw := sw })
                (ins := ins) (rx := rx)
              generalize takeData mode c { st with sw := sw } ins rx = x at ht
              match x, ht with
              | .error e, _ => trivial
              | .ok (.inr d), _ => trivial
              | .ok (.inl s), ⟨t1, t2⟩ =>
                simp only [bind_ok]
                have hp := proceed_cont (capdu := capdu) (st := s) (sw1 := rx[rx.length - 2])
                  (sw2 := rx[rx.length - 1]) (nxt := nxt)
                generalize proceed capdu s _ _ nxt = y at hp
                match y, hp with
                | .error e, _ => trivial
                | .ok (.inr d), _ => trivial
                | .ok (.inl s'), ⟨p1, p2, p3⟩ =>
                  have d1 : s'.dataOff = st.dataOff := by rw [p1, t1]
                  have d2 : s'.sw = sw := by rw [p2, t2]
                  refine ⟨?_, ?_, ?_⟩
                  · intro o h; rw [d1] at h; exact ho o h
                  · intro h; rw [d1]; exact hc h
                  · unfold turns
                    rw [d1, d2]
                    rcases hw p3 with ⟨w1, w2⟩ | ⟨w1, w2⟩
                    · rw [w1, w2]; simp
                    · rw [if_neg w2, if_pos w1]
                      cases wantsMore (.data rx) <;> simp <;> omega

theorem run_turns {capdu : List Byte} {mode : Mode} {c : Case}
    (h4 : c = .c1 ∨ c = .c2S ∨ c = .c3S ∨ c = .c4S) :
    ∀ (script : List Resp) (st : St), OffOk capdu st → (c = .c1 ∨ c = .c2S → st.dataOff = none) →
      ∀ log, run capdu mode c script st = .ok (log, .pending) →
        script.length ≤ script.countP wantsMore + turns capdu st := by
  intro script
  induction script with
  | nil => intros; simp
  | cons r rs ih =>
    intro st h1 h2 log h
    unfold run at h
    cases ht : txBytes capdu st with
    | error e => rw [ht] at h; cases h
    | ok t =>
      rw [ht] at h
      simp only [bind_ok] at h
      have hs := step_cont (mode := mode) (r := r) h1 h2 h4
      generalize step capdu mode c st r = x at hs h
      match x, hs, h with
      | .error e, _, h => cases h
      | .ok (.inr d), _, h => cases h
      | .ok (.inl s), ⟨s1, s2, s3⟩, h =>
        simp only [bind_ok] at h
        cases hr : run capdu mode c rs s with
        | error e => rw [hr] at h; cases h
        | ok p =>
          rw [hr] at h
          obtain ⟨l, o⟩ := p
          cases h
          have := ih s s1 s2 _ hr
          rw [List.countP_cons, List.length_cons]
          cases hw : wantsMore r <;> simp [hw] at s3 ⊢ <;> omega

theorem run_endless (rbuf : List Byte) : ∀ n,
    run [0x00, 0xB2, 1, 0x0C, 0] .apdu .c2S (List.replicate n (.data [0x61, 0x00]))
      ⟨[0x00, 0xC0, 0x00, 0x00, 0x00], .header, none, rbuf, 0, rbuf.length, 0⟩ =
    .ok (List.replicate (n + 1) [0x00, 0xC0, 0x00, 0x00, 0x00], .pending) := by
  intro n
  induction n with
  | zero => rfl
  | succ n ih =>
    rw [List.replicate_succ]
    unfold run
    have e1 : ∀ rl, txBytes [0x00, 0xB2, 1, 0x0C, 0]
        ⟨[0x00, 0xC0, 0x00, 0x00, 0x00], .header, none, rbuf, 0, rl, 0⟩ =
        .ok [0x00, 0xC0, 0x00, 0x00, 0x00] := fun _ => rfl
    have e2 : ∀ rl, step [0x00, 0xB2, 1, 0x0C, 0] .apdu .c2S
        ⟨[0x00, 0xC0, 0x00, 0x00, 0x00], .header, none, rbuf, 0, rl, 0⟩ (.data [0x61, 0x00]) =
        .ok (.inl ⟨[0x00, 0xC0, 0x00, 0x00, 0x00], .header, none, rbuf, 0, rl, 0⟩) := fun _ => rfl
    rw [e1, bind_ok, e2, bind_ok]
    simp only
    rw [ih, bind_ok, ← List.replicate_succ]

/-- What a caller of a wrapper sees of an exchange with a 258-byte buffer: the response without
its status bytes. -/
def stripped : C (List (List Byte) × Outcome) → C (List (List Byte) × WOutcome)
  | .error e => .error e
  | .ok (log, .pending) => .ok (log, .pending)
  | .ok (log, .done d rest) =>
    if d.code = 0 then .ok (log, .done ⟨0, d.rbuf.take (d.rlen - 2), d.sw⟩ rest)
    else .ok (log, .done ⟨d.code, [], d.sw⟩ rest)

theorem two_le_258 : 2 ≤ (List.replicate 258 (0 : Byte)).length := by
  rw [List.length_replicate]; omega

theorem exchange_eq (mode : Mode) (capdu : List Byte) (cap : Nat) (short big : Int)
    (script : List Resp) (hcap : 256 ≤ cap) :
    exchange mode capdu cap short big script =
      stripped (trx mode capdu (List.replicate 258 0) script) := by
  have hp := trx_post mode capdu (List.replicate 258 0) script two_le_258
  unfold exchange
  generalize trx mode capdu (List.replicate 258 0) script = x at hp
  match x, hp with
  | .error e, _ => rfl
  | .ok (log, .pending), _ => rfl
  | .ok (log, .done d rest), hp =>
    obtain ⟨u, -, -, h1 | ⟨c, -, h2⟩⟩ := hp
    · simp only [bind_ok, stripped]
      have : d.code ≠ 0 := by omega
      rw [if_pos this, if_neg this]
    · simp only [bind_ok, stripped]
      by_cases h0 : d.code = 0
      · have hl := h2.rlen
        have hb := h2.len
        obtain ⟨s1, s2, -, -, f3, -, -⟩ := h2.ok h0
        simp only [List.length_replicate] at hl hb
        rw [if_neg (by simp [h0]), if_neg (by omega), if_neg (by omega), if_pos h0,
          slice_eq (by omega)]
        simp
      · rw [if_pos h0, if_neg h0]

theorem build4S_eq (cla ins p1 p2 : Byte) (data : List Byte) (h : data.length ≤ 255) :
    build4S cla ins p1 p2 data =
      .ok ([cla, ins, p1, p2, UInt8.ofNat data.length] ++ data ++ [0]) := by
  unfold build4S
  have hn : (UInt8.ofNat data.length).toNat = data.length := by
    simp; omega
  simp only [hn]
  rw [slice_eq (by omega)]
  simp only [bind_ok]
  rw [if_pos (by omega)]
  simp

end Verif.Ttl
