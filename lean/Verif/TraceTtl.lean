import Verif.Trace

/-! # Lemmas on the events of an exchange -/

set_option autoImplicit false

namespace Verif.Trace.Ttl
open Verif Verif.Ttl Apdu

theorem bind_inv {α β : Type} {x : C α} {f : α → C β} {b : β} (h : (x >>= f) = .ok b) :
    ∃ a, x = .ok a ∧ f a = .ok b := by
  match x, h with
  | .ok a, h => exact ⟨a, rfl, h⟩

/-- What follows an answer: the report of it. -/
def heard : Resp → List Entry
  | .fail r => if r = 0 then [.said (error 1 txt!"No response")] else []
  | .data rx =>
    if rx = [] then [.said (error 1 txt!"No response")] else [.said (rtpduEv rx)]

/-- What follows the end of an exchange. -/
def ending (d : Done) : List Entry :=
  if d.code = 0 then [.said (rapduEv (d.rbuf.take d.rlen))] else []

/-- What follows a step. -/
def after : St ⊕ Done → List Entry
  | .inl _ => []
  | .inr d => ending d

theorem wrs_len {b : List Byte} {n : Nat} {v b' : List Byte} (h : wrs b n v = .ok b') :
    b'.length = b.length ∧ n + v.length ≤ b.length := by
  by_cases hn : n + v.length ≤ b.length
  · rw [wrs_eq hn] at h
    cases h
    simp; omega
  · simp [wrs, hn] at h

theorem proceed_eq (capdu : List Byte) (st : St) (sw1 sw2 : Byte) (n : Next) :
    proceed capdu st sw1 sw2 n =
      (do let r ← Verif.Ttl.proceed capdu st sw1 sw2 n; .ok (after r, r)) := by
  cases n with
  | getResponse => rfl
  | updateLe =>
    simp only [proceed, Verif.Ttl.proceed]
    cases txFour capdu st <;> rfl
  | finish =>
    simp only [proceed, Verif.Ttl.proceed]
    cases h : wrs st.rbuf st.rpos [UInt8.ofNat (st.sw / 256), UInt8.ofNat (st.sw % 256)] with
    | error e => rfl
    | ok rbuf =>
      have hl := wrs_len h
      simp only [List.length_cons, List.length_nil] at hl
      have : slice rbuf 0 (st.rpos + 2) = .ok (rbuf.take (st.rpos + 2)) := by
        rw [slice_eq (by omega)]; simp
      simp only [bind_ok, this, after, ending, if_true]

theorem takeData_code {mode : Mode} {c : Case} {st : St} {ins : Byte} {rx : List Byte} {d : Done}
    (h : takeData mode c st ins rx = .ok (.inr d)) : d.code ≠ 0 := by
  have hc : ∀ skip bad short, bad ≠ 0 → short ≠ 0 →
      copyData c st rx skip bad short = .ok (.inr d) → d.code ≠ 0 := by
    intro skip bad short hb hs h
    unfold copyData at h
    split at h
    · cases h; exact hb
    · split at h
      · cases h; exact hs
      · obtain ⟨_, _, h⟩ := bind_inv h
        obtain ⟨_, _, h⟩ := bind_inv h
        cases h
  unfold takeData at h
  cases mode with
  | tpdu =>
    simp only at h
    split at h
    · split at h
      · cases h; simp [St.fail]
      · obtain ⟨b, _, h⟩ := bind_inv h
        split at h
        · cases h; simp [St.fail]
        · exact hc _ _ _ (by decide) (by decide) h
    · cases h
  | apdu =>
    simp only at h
    split at h
    · exact hc _ _ _ (by decide) (by decide) h
    · cases h

theorem status_code {c : Case} {sw n : Nat} {sw1 sw2 : Byte} {e : Int}
    (h : status c sw n sw1 sw2 = .error e) : e ≠ 0 := by
  unfold status at h
  repeat' split at h
  all_goals first | (cases h; simp) | cases h

theorem statusResp_eq (capdu : List Byte) (mode : Mode) (c : Case) (st : St) (ins : Byte)
    (rx : List Byte) (sw1 sw2 : Byte) :
    statusResp capdu mode c st ins rx sw1 sw2 =
      (do let r ← Verif.Ttl.statusResp capdu mode c st ins rx sw1 sw2; .ok (after r, r)) := by
  unfold statusResp Verif.Ttl.statusResp
  cases h : status c st.sw rx.length sw1 sw2 with
  | error e =>
    simp only [bind_ok, after, ending, St.fail, if_neg (status_code h)]
  | ok p =>
    obtain ⟨sw, nxt⟩ := p
    simp only
    cases h2 : takeData mode c { st with sw := sw } ins rx with
    | error e => rfl
    | ok r =>
      cases r with
      | inr d => simp only [bind_ok, after, ending, if_neg (takeData_code h2)]
      | inl st' => simp only [bind_ok]; exact proceed_eq _ _ _ _ _

theorem procByte_code {capdu : List Byte} {c : Case} {st : St} {ins pb : Byte} {d : Done}
    (h : procByte capdu c st ins pb = .ok (.inr d)) : d.code ≠ 0 := by
  have hf : ∀ code, code ≠ 0 → st.failByte pb code = .ok (.inr d) → d.code ≠ 0 := by
    intro code hc h
    unfold St.failByte at h
    obtain ⟨_, _, h⟩ := bind_inv h
    cases h; exact hc
  unfold procByte at h
  split at h
  · exact hf _ (by decide) h
  · split at h
    · split at h
      · exact hf _ (by decide) h
      · obtain ⟨_, _, h⟩ := bind_inv h
        cases h
    · split at h
      · split at h
        · exact hf _ (by decide) h
        · cases h
      · exact hf _ (by decide) h

theorem quiet_eq (capdu : List Byte) (c : Case) (st : St) (ins pb : Byte) :
    quiet (procByte capdu c st ins pb) =
      (do let r ← procByte capdu c st ins pb; .ok (after r, r)) := by
  unfold quiet
  cases h : procByte capdu c st ins pb with
  | error e => rfl
  | ok r =>
    cases r with
    | inl s => rfl
    | inr d => simp only [bind_ok, after, ending, if_neg (procByte_code h)]

theorem step_eq (capdu : List Byte) (mode : Mode) (c : Case) (st : St) (r : Resp) :
    step capdu mode c st r =
      (do let x ← Verif.Ttl.step capdu mode c st r; .ok (heard r ++ after x, x)) := by
  cases r with
  | fail r =>
    by_cases h : r = 0
    · simp [step, Verif.Ttl.step, heard, after, ending, h, bind_ok, St.fail]
    · simp [step, Verif.Ttl.step, heard, after, ending, h, bind_ok, St.fail]
  | data rx =>
    by_cases h : rx.length = 0
    · have : rx = [] := List.length_eq_zero_iff.mp h
      subst this
      simp [step, Verif.Ttl.step, heard, after, ending, bind_ok, St.fail]
    · have hr : rx ≠ [] := fun e => h (by simp [e])
      simp only [step, Verif.Ttl.step, if_neg h, heard, if_neg hr]
      cases txIns capdu st with
      | error e => rfl
      | ok ins =>
        simp only [bind_ok]
        by_cases h1 : rx.length = 1
        · simp only [if_pos h1]
          cases rd rx 0 with
          | error e => rfl
          | ok pb =>
            simp only [bind_ok]
            by_cases hc : c = .c1
            · simp only [if_pos hc, bind_ok, after, ending]; rfl
            · simp only [if_neg hc, quiet_eq]
              cases procByte capdu c st ins pb <;> rfl
        · simp only [if_neg h1]
          cases rd rx (rx.length - 2) with
          | error e => rfl
          | ok sw1 =>
            simp only [bind_ok]
            cases rd rx (rx.length - 1) with
            | error e => rfl
            | ok sw2 =>
              simp only [bind_ok]
              by_cases hc : c = .c1
              · simp only [if_pos hc]
                by_cases h2 : rx.length ≠ 2
                · simp only [if_pos h2, bind_ok, after, ending]; rfl
                · simp only [if_neg h2]
                  cases hw : wrs st.rbuf 0 rx with
                  | error e => rfl
                  | ok rbuf =>
                    have hl := wrs_len hw
                    have : slice rbuf 0 2 = .ok (rbuf.take 2) := by
                      rw [slice_eq (by omega)]; simp
                    simp only [bind_ok, this, after, ending, if_true]; rfl
              · simp only [if_neg hc, statusResp_eq]
                cases Verif.Ttl.statusResp capdu mode c st ins rx sw1 sw2 <;> rfl

/-- One transmission with its answer. -/
def turn (p : List Byte × Resp) : List Entry :=
  [.said (ctpduEv p.1), .sent p.1, .got p.2] ++ heard p.2

/-- How an exchange ends: with a result, or waiting for an answer. -/
def close (log : List (List Byte)) : Outcome → List Entry
  | .done d _ => ending d
  | .pending =>
    match log.getLast? with
    | some t => [.said (ctpduEv t), .sent t]
    | none => []

theorem run_eq (capdu : List Byte) (mode : Mode) (c : Case) :
    ∀ (script : List Resp) (st : St), run capdu mode c script st =
      (do let (log, o) ← Verif.Ttl.run capdu mode c script st
          .ok ((log.zip script).flatMap turn ++ close log o, o)) ∧
      (∀ log o, Verif.Ttl.run capdu mode c script st = .ok (log, o) → log ≠ []) := by
  intro script
  induction script with
  | nil =>
    intro st
    simp only [run, Verif.Ttl.run]
    cases txBytes capdu st with
    | error e => exact ⟨rfl, fun _ _ h => by cases h⟩
    | ok t => exact ⟨rfl, fun _ _ h => by cases h; simp⟩
  | cons r rs ih =>
    intro st
    simp only [run, Verif.Ttl.run, step_eq]
    cases txBytes capdu st with
    | error e => exact ⟨rfl, fun _ _ h => by cases h⟩
    | ok t =>
      simp only [bind_ok]
      cases Verif.Ttl.step capdu mode c st r with
      | error e => exact ⟨rfl, fun _ _ h => by cases h⟩
      | ok x =>
        cases x with
        | inr d => exact ⟨by simp [bind_ok, turn, close, after], fun _ _ h => by cases h; simp⟩
        | inl st' =>
          have := ih st'
          simp only [bind_ok, this.1, after, List.append_nil]
          cases hr : Verif.Ttl.run capdu mode c rs st' with
          | error e => exact ⟨rfl, fun _ _ h => by cases h⟩
          | ok p =>
            obtain ⟨log, o⟩ := p
            have hne := this.2 log o hr
            refine ⟨?_, fun _ _ h => by cases h; simp⟩
            simp only [bind_ok, List.zip_cons_cons, List.flatMap_cons, turn]
            have hc : close (t :: log) o = close log o := by
              cases o with
              | done d rest => rfl
              | pending =>
                simp only [close]
                cases log with
                | nil => exact absurd rfl hne
                | cons a l => rfl
            rw [hc]; simp

end Verif.Trace.Ttl
