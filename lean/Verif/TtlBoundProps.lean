import Verif.TtlProps

/-! # How long an exchange can last (C26) -/

set_option autoImplicit false

namespace Verif.Ttl
open Verif Apdu

/-- An answer that asks for another command and brings no data. -/
def idle (mode : Mode) (r : Resp) : Bool := wantsMore r && (dataOf mode r).isEmpty

theorem run_pending_data {mode : Mode} {c : Case} {cap : Nat} (capdu : List Byte) :
    ∀ (script used : List Resp) (st : St), Inv mode c cap used st → (c = .c1 → used = []) →
      ∀ log, run capdu mode c script st = .ok (log, .pending) →
        (allData mode (used ++ script)).length + 2 ≤ cap := by
  intro script
  induction script with
  | nil =>
    intro used st h _ log _
    have h1 := congrArg List.length h.data
    have h2 := h.len
    have h3 := h.pos
    have h4 := h.two
    rw [List.length_take] at h1
    rw [List.append_nil]
    omega
  | cons r rs ih =>
    intro used st h hu log hr
    unfold run at hr
    cases ht : txBytes capdu st with
    | error e => rw [ht] at hr; cases hr
    | ok t =>
      rw [ht] at hr
      simp only [bind_ok] at hr
      have hst := step_post capdu h hu r
      generalize step capdu mode c st r = x at hst hr
      match x, hst, hr with
      | .error e, _, hr => cases hr
      | .ok (.inr d), _, hr => cases hr
      | .ok (.inl s), hst, hr =>
        simp only [bind_ok] at hr
        cases hq : run capdu mode c rs s with
        | error e => rw [hq] at hr; cases hr
        | ok p =>
          rw [hq] at hr
          obtain ⟨l, o⟩ := p
          cases hr
          have := ih (used ++ [r]) s hst.1 (fun hc => absurd hc hst.2) _ hq
          simpa using this

/-- **C26, partial** (data).  As long as an exchange waits for another answer, the data of all the
answers so far fits the caller's buffer together with the status to come. -/
theorem C26_data_partial (mode : Mode) (capdu rbuf : List Byte) (script : List Resp)
    (h : 2 ≤ rbuf.length) (log : List (List Byte))
    (hp : trx mode capdu rbuf script = .ok (log, .pending)) :
    (allData mode script).length + 2 ≤ rbuf.length := by
  unfold trx at hp
  split at hp
  · cases hp
  · cases hc : apduCase capdu with
    | error e => rw [hc] at hp; cases hp
    | ok r =>
      rw [hc] at hp
      simp only [bind_ok] at hp
      cases r with
      | error code => cases hp
      | ok c =>
        simp only at hp
        split at hp
        · have hi := initSt_inv (mode := mode) (c := c) (capdu := capdu) h
          generalize initSt capdu mode c rbuf = x at hi hp
          match x, hi, hp with
          | .error e, _, hp => cases hp
          | .ok st, hi, hp =>
            simp only [bind_ok] at hp
            simpa using run_pending_data capdu script [] st hi (fun _ => rfl) log hp
        · cases hp

theorem countP_data (mode : Mode) (script : List Resp) :
    script.countP wantsMore ≤ script.countP (idle mode) + (allData mode script).length := by
  induction script with
  | nil => simp
  | cons r rs ih =>
    have e : allData mode (r :: rs) = dataOf mode r ++ allData mode rs := by simp [allData]
    rw [e, List.length_append, List.countP_cons, List.countP_cons]
    unfold idle at *
    cases hw : wantsMore r <;> cases hd : dataOf mode r <;> simp <;> omega

/-- **C26, partial** (bound).  If the exchange still waits after using up a card script, then apart
from 61xx and 6Cxx answers *without data* the script is no longer than the command and the
response buffer together.  So every exchange ends unless the card keeps answering 61xx or 6Cxx
and sends nothing.  Missing: a bound on those answers; there is none, see `C26_endless`. -/
theorem C26_bound_partial (mode : Mode) (capdu rbuf : List Byte) (script : List Resp)
    (h : 2 ≤ rbuf.length) (log : List (List Byte))
    (hp : trx mode capdu rbuf script = .ok (log, .pending)) :
    script.length + 1 ≤ script.countP (idle mode) + rbuf.length + (capdu.length - 5) := by
  have h1 := C26_terminates_partial mode capdu rbuf script log hp
  have h2 := C26_data_partial mode capdu rbuf script h log hp
  have h3 := countP_data mode script
  omega

/-- **C26, partial.**  Against a card that never answers 61xx or 6Cxx without data, every exchange
is over after as many answers as the command and the response buffer have bytes. -/
theorem C26_ends_partial (mode : Mode) (capdu rbuf : List Byte) (script : List Resp)
    (h : 2 ≤ rbuf.length) (hs : ∀ r ∈ script, idle mode r = false)
    (hl : rbuf.length + (capdu.length - 5) ≤ script.length) (log : List (List Byte)) :
    trx mode capdu rbuf script ≠ .ok (log, .pending) := by
  intro hp
  have := C26_bound_partial mode capdu rbuf script h log hp
  rw [List.countP_eq_zero.mpr (by intro r hr; simp [hs r hr])] at this
  omega

/-- A card that sends a byte with every `61 01` is stopped when the buffer is full. -/
example : trx .apdu [0x00, 0xB2, 1, 0x0C, 0] (List.replicate 4 0)
    (List.replicate 4 (.data [7, 0x61, 0x01])) =
    .ok ([[0x00, 0xB2, 1, 0x0C, 0], [0, 0xC0, 0, 0, 1], [0, 0xC0, 0, 0, 1]],
      .done ⟨-5, [7, 7, 0, 0], 2, 0⟩ [.data [7, 0x61, 0x01]]) := by decide

end Verif.Ttl
