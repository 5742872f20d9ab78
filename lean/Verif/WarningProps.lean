import Verif.DeliverProps

/-!
# C151: warnings without data

SELECT and GET PROCESSING OPTIONS are commands with data and an answer: after a warning without data the answer is fetched.
-/

set_option autoImplicit false

namespace Verif.Stack
open Verif Ber BerSpec TlvParse App Tal Emv Fields Ttl

/-! ## Specification -/

/-- A command with data. -/
def HasData : Cmd → Prop
  | .readRecord _ _ => False
  | _ => True

/-- The length asked for after a warning: 62 with 02 to 80 says how many bytes there are (ISO 7816-4). -/
def afterWarning (v1 v2 : Byte) : Byte := if v1 = 0x62 ∧ 0x02 ≤ v2.toNat ∧ v2.toNat ≤ 0x80 then v2 else 0

/-! ## Lemmas -/

theorem run_warned (capdu : List Byte) (c : Apdu.Case) (hc : isCase24 c = true) (last : List Byte) (s1 s2 : Byte)
    (h61 : s1 ≠ 0x61) (h6c : s1 ≠ 0x6C) (v1 v2 : Byte) (hv : v1.toNat * 256 + v2.toNat ≠ 0) (old : List Byte) (rest : List Resp) :
    ∀ (more : List (List Byte × Byte)) (s hdr : List Byte) (tx : Tx) (off : Option Nat) (t : List Byte),
      Ready capdu ⟨hdr, tx, off, s ++ old.drop s.length, s.length, old.length - s.length, v1.toNat * 256 + v2.toNat⟩ t →
      s.length + ((more.map (·.1)).flatten ++ last).length + 2 ≤ old.length →
      ∃ rbuf, run capdu .apdu c (more.map (fun x => .data (x.1 ++ [0x61, x.2])) ++ .data (last ++ [s1, s2]) :: rest)
          ⟨hdr, tx, off, s ++ old.drop s.length, s.length, old.length - s.length, v1.toNat * 256 + v2.toNat⟩ =
        .ok (t :: more.map (fun x => [0x00, 0xC0, 0x00, 0x00, x.2]),
          .done ⟨0, rbuf, (s ++ ((more.map (·.1)).flatten ++ last)).length + 2, v1.toNat * 256 + v2.toNat⟩ rest) ∧
        rbuf.take (s ++ ((more.map (·.1)).flatten ++ last)).length = s ++ ((more.map (·.1)).flatten ++ last) := by
  intro more
  induction more with
  | nil =>
    intro s hdr tx off t hr hl
    obtain ⟨h1, ins, h2⟩ := hr
    simp only [List.map_nil, List.flatten_nil, List.nil_append] at hl ⊢
    refine ⟨(s ++ last) ++ [v1, v2] ++ old.drop ((s ++ last) ++ [v1, v2]).length, ?_, ?_⟩
    · unfold run
      rw [h1]
      simp only [bind_ok]
      rw [step_part capdu c hc _ ins h2]
      unfold statusResp
      have hst : status c (v1.toNat * 256 + v2.toNat) (last ++ [s1, s2]).length s1 s2 =
          .ok (v1.toNat * 256 + v2.toNat, .finish) := by
        unfold status
        rw [if_neg h61, if_neg h6c, if_neg hv]
      simp only [hst]
      rw [take_part c hc s old last hdr tx off _ ins s1 s2 hl]
      simp only [bind_ok, proceed, (sw_bytes v1 v2).1, (sw_bytes v1 v2).2]
      rw [wrs_over (s ++ last) old [v1, v2] (by simp; omega)]
      rfl
    · rw [List.append_assoc (s ++ last), List.take_left]
  | cons x more ih =>
    intro s hdr tx off t hr hl
    obtain ⟨d, n⟩ := x
    obtain ⟨h1, ins, h2⟩ := hr
    simp only [List.map_cons, List.flatten_cons, List.length_append] at hl
    obtain ⟨rbuf, hrun, htake⟩ := ih (s ++ d) [0x00, 0xC0, 0x00, 0x00, n] .header off [0x00, 0xC0, 0x00, 0x00, n]
      ⟨rfl, 0xC0, rfl⟩ (by simp only [List.length_append]; omega)
    refine ⟨rbuf, ?_, ?_⟩
    · simp only [List.map_cons, List.cons_append]
      conv => lhs; unfold run
      rw [h1]
      simp only [bind_ok]
      rw [step_part capdu c hc _ ins h2]
      unfold statusResp
      have hst : status c (v1.toNat * 256 + v2.toNat) (d ++ [0x61, n]).length 0x61 n =
          .ok (v1.toNat * 256 + v2.toNat, .getResponse) := by
        unfold status
        rw [if_pos rfl, if_neg (by simp [hc])]
      simp only [hst]
      rw [take_part c hc s old d hdr tx off _ ins 0x61 n (by omega)]
      simp only [bind_ok, proceed]
      have hle : getResponseLe 0x61 n = n := by simp [getResponseLe]
      rw [hle, hrun]
      simp only [bind_ok, List.flatten_cons, List.append_assoc]
    · simpa only [List.map_cons, List.flatten_cons, List.append_assoc] using htake


/-! ## Theorems -/

/-- **C151** (warning).  A command with data that the card answers with a warning (62 or 63) without data: the answer is fetched
with GET RESPONSE, with the length the warning tells if it does, and in any number of parts.  The result is the data of all
parts, and the warning as status. -/
theorem C151_warning (cmd : Cmd) (h : Fit cmd) (hdata : HasData cmd) (v1 v2 : Byte) (hv : v1 = 0x62 ∨ v1 = 0x63)
    (more : List (List Byte × Byte)) (last : List Byte) (s1 s2 : Byte) (h61 : s1 ≠ 0x61) (h6c : s1 ≠ 0x6C)
    (hl : ((more.map (·.1)).flatten ++ last).length ≤ 256) (rest : List Resp) :
    wrapper .apdu cmd (.data [v1, v2] :: (more.map (fun x => .data (x.1 ++ [0x61, x.2])) ++ .data (last ++ [s1, s2]) :: rest)) =
      .ok (apdu cmd :: [0x00, 0xC0, 0x00, 0x00, afterWarning v1 v2] :: more.map (fun x => [0x00, 0xC0, 0x00, 0x00, x.2]),
        .done ⟨0, (more.map (·.1)).flatten ++ last, v1.toNat * 256 + v2.toNat⟩ rest) := by
  rw [wrapper_eq cmd h]
  have h4 := four_apdu cmd
  obtain ⟨old, hold⟩ : ∃ old : List Byte, old = List.replicate 258 0 := ⟨_, rfl⟩
  rw [← hold]
  have hlen : old.length = 258 := by rw [hold, List.length_replicate]
  clear hold
  have hne : v1.toNat * 256 + v2.toNat ≠ 0 := by
    rcases hv with rfl | rfl
    · have : (0x62 : Byte).toNat = 98 := rfl
      omega
    · have : (0x63 : Byte).toNat = 99 := rfl
      omega
  have hcase : Apdu.apduCase (apdu cmd) = .ok (.ok .c4S) := by
    cases cmd with
    | readRecord sfi rec => exact hdata.elim
    | select next name => exact ((C27_select _ .apdu name 256 []).2 (by omega) h.1 h.2).1
    | gpo data =>
      refine ((C27_gpo .apdu data 256 []).2 _ (by omega) rfl ?_ ?_ ?_).1
      all_goals
        cases data with
        | none => decide
        | some d =>
          have := h d rfl
          first | exact this.1 | exact this.2.1 | exact this.2.2
  have hrun : ∀ script, trx .apdu (apdu cmd) old script =
      run (apdu cmd) .apdu .c4S script ⟨[], .capdu 0 (apdu cmd).length, none, old, 0, old.length, 0⟩ := by
    intro script
    unfold trx
    have hz : ¬((apdu cmd).length = 0 ∨ old.length = 0) := by omega
    simp only [if_neg hz]
    rw [hcase]
    rfl
  obtain ⟨rbuf, h1, h2⟩ := run_warned (apdu cmd) .c4S rfl last s1 s2 h61 h6c v1 v2 hne old rest more []
    [0x00, 0xC0, 0x00, 0x00, afterWarning v1 v2] .header none [0x00, 0xC0, 0x00, 0x00, afterWarning v1 v2]
    ⟨rfl, 0xC0, rfl⟩ (by rw [hlen, List.length_nil]; omega)
  simp only [List.nil_append, List.length_nil, List.drop_zero, Nat.sub_zero] at h1 h2
  rw [hrun]
  conv => lhs; unfold run
  have htx : txBytes (apdu cmd) ⟨[], .capdu 0 (apdu cmd).length, none, old, 0, old.length, 0⟩ = .ok (apdu cmd) := by
    simp only [txBytes]
    rw [slice_eq (by omega)]
    simp
  have hins : txIns (apdu cmd) ⟨[], .capdu 0 (apdu cmd).length, none, old, 0, old.length, 0⟩ = .ok (apdu cmd)[0 + 1] := by
    simp only [txIns]
    exact rd_eq (by omega)
  rw [htx]
  simp only [bind_ok]
  have hstep := step_part (apdu cmd) .c4S rfl _ _ hins [] v1 v2
  simp only [List.nil_append] at hstep
  rw [hstep]
  unfold statusResp
  have hst : status .c4S 0 ([v1, v2] : List Byte).length v1 v2 = .ok (v1.toNat * 256 + v2.toNat, .getResponse) := by
    unfold status
    rw [if_neg (by rcases hv with rfl | rfl <;> decide), if_neg (by rcases hv with rfl | rfl <;> decide), if_pos rfl, if_pos]
    exact ⟨rfl, rfl, by simpa [Apdu.swIsWarning] using hv⟩
  simp only [hst]
  have ht : ∀ st ins, takeData .apdu .c4S st ins [v1, v2] = .ok (.inl st) := by
    intro st ins
    unfold takeData
    simp
  rw [ht]
  simp only [bind_ok, proceed]
  have hle : getResponseLe v1 v2 = afterWarning v1 v2 := by
    unfold getResponseLe afterWarning
    rcases hv with rfl | rfl <;> simp
  rw [hle, h1]
  simp only [bind_ok, stripped, if_true, Nat.add_sub_cancel, h2]

/-! ## Examples -/

/-- A blocked application with its file control information in two parts. -/
example : wrapper .apdu (.select false [0xA0, 0, 0, 0, 4]) [.data [0x62, 0x83], .data [0x6F, 7, 0x61, 7],
      .data [0x84, 5, 0xA0, 0, 0, 0, 4, 0x90, 0]] =
    .ok ([[0, 0xA4, 4, 0, 5, 0xA0, 0, 0, 0, 4, 0], [0, 0xC0, 0, 0, 0], [0, 0xC0, 0, 0, 7]],
      .done ⟨0, [0x6F, 7, 0x84, 5, 0xA0, 0, 0, 0, 4], 0x6283⟩ []) :=
  C151_warning (.select false [0xA0, 0, 0, 0, 4]) ⟨by simp, by simp⟩ trivial 0x62 0x83 (.inl rfl) [([0x6F, 7], 7)]
    [0x84, 5, 0xA0, 0, 0, 0, 4] 0x90 0 (by decide) (by decide) (by simp) []

/-- A warning that tells the length. -/
example : afterWarning 0x62 0x10 = 0x10 ∧ afterWarning 0x62 0x81 = 0 ∧ afterWarning 0x63 0x10 = 0 := by decide

end Verif.Stack
