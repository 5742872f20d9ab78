import Verif.StackProps
import Verif.AgainProps
import Verif.CompleteDirProps

/-!
# C151: a proper card is read completely over a reader, at once or in parts
-/

set_option autoImplicit false

namespace Verif.Stack
open Verif Ber BerSpec TlvParse App Tal Emv Fields Ttl

/-! ## Specification -/

/-- Parts of an answer, each but the last ending in 61 and a number; before them possibly 6C and a number. -/
structure Parts where
  again : Option Byte
  more : List (List Byte × Byte)
  last : List Byte
  sw1 : Byte
  sw2 : Byte

/-- What the reader delivers. -/
def Parts.delivered (p : Parts) : List Resp :=
  p.again.toList.map (fun n => .data [0x6C, n]) ++
    (p.more.map (fun x => .data (x.1 ++ [0x61, x.2])) ++ [.data (p.last ++ [p.sw1, p.sw2])])

/-- All data. -/
def Parts.data (p : Parts) : List Byte := (p.more.map (·.1)).flatten ++ p.last

/-- The command with the number after 6C, and GET RESPONSE for each further part. -/
def Parts.asked (cmd : Cmd) (p : Parts) : List (List Byte) :=
  p.again.toList.map (fun n => (apdu cmd).take 4 ++ [n]) ++ p.more.map fun x => [0x00, 0xC0, 0x00, 0x00, x.2]

/-- The whole fits into a response, and the status ends it. -/
def Parts.Fits (p : Parts) : Prop :=
  p.data.length ≤ 256 ∧ p.sw1 ≠ 0x61 ∧ p.sw1 ≠ 0x6C ∧ ((p.sw1 = 0x62 ∨ p.sw1 = 0x63) → p.last ≠ [])

/-- Each exchange delivered in parts. -/
inductive Delivered : List (Cmd × W) → List Resp → List (List Byte) → Prop where
  | nil : Delivered [] [] []
  | cons {cmd : Cmd} {w : W} {us : List Resp} {ls : List (List Byte)} {tr : List (Cmd × W)} (p : Parts) (hp : p.Fits)
      (h0 : w.code = 0) (hd : w.data = p.data) (hs : w.sw = p.sw1.toNat * 256 + p.sw2.toNat) (t : Delivered tr us ls) :
      Delivered ((cmd, w) :: tr) (p.delivered ++ us) ((apdu cmd :: p.asked cmd) ++ ls)

/-! ## Lemmas -/

theorem sw_bytes (s1 s2 : Byte) : UInt8.ofNat ((s1.toNat * 256 + s2.toNat) / 256) = s1 ∧
    UInt8.ofNat ((s1.toNat * 256 + s2.toNat) % 256) = s2 := by
  have a := s1.toNat_lt
  have b := s2.toNat_lt
  have e1 : (s1.toNat * 256 + s2.toNat) / 256 = s1.toNat := by omega
  have e2 : (s1.toNat * 256 + s2.toNat) % 256 = s2.toNat := by omega
  rw [e1, e2]
  simp

/-- The start of a turn: the bytes of the state are transmitted. -/
def Ready (capdu : List Byte) (st : St) (t : List Byte) : Prop :=
  txBytes capdu st = .ok t ∧ ∃ ins, txIns capdu st = .ok ins

theorem ready_header (capdu : List Byte) (st : St) (n : Byte) :
    Ready capdu { st with hdr := [0x00, 0xC0, 0x00, 0x00, n], tx := .header } [0x00, 0xC0, 0x00, 0x00, n] :=
  ⟨rfl, 0xC0, rfl⟩

theorem take_part (c : Apdu.Case) (hc : isCase24 c = true) (s old d : List Byte) (hdr : List Byte) (tx : Tx) (off : Option Nat)
    (sw : Nat) (ins s1 s2 : Byte) (hl : s.length + d.length + 2 ≤ old.length) :
    takeData .apdu c ⟨hdr, tx, off, s ++ old.drop s.length, s.length, old.length - s.length, sw⟩ ins (d ++ [s1, s2]) =
      .ok (.inl ⟨hdr, tx, off, (s ++ d) ++ old.drop (s ++ d).length, (s ++ d).length, old.length - (s ++ d).length, sw⟩) := by
  unfold takeData
  cases d with
  | nil => simp
  | cons b d =>
    simp only
    rw [if_pos (by simp)]
    unfold copyData
    rw [if_neg (by simp [hc]), if_neg (by simp; simp at hl; omega)]
    have e : (b :: d ++ [s1, s2]).length - 0 - 2 = (b :: d).length := by simp
    simp only [e]
    rw [slice_eq (by simp), List.drop_zero, List.take_left]
    simp only [bind_ok]
    rw [wrs_over s old (b :: d) (by omega)]
    simp only [bind_ok]
    congr 3
    · rw [List.length_append]
    · rw [List.length_append]; omega

theorem step_part (capdu : List Byte) (c : Apdu.Case) (hc : isCase24 c = true) (st : St) (ins : Byte) (hi : txIns capdu st = .ok ins)
    (d : List Byte) (s1 s2 : Byte) :
    step capdu .apdu c st (.data (d ++ [s1, s2])) = statusResp capdu .apdu c st ins (d ++ [s1, s2]) s1 s2 := by
  have hc1 : c ≠ .c1 := by rintro rfl; cases hc
  unfold step
  simp only
  rw [if_neg (by simp), hi]
  simp only [bind_ok]
  rw [if_neg (by simp)]
  have h1 : rd (d ++ [s1, s2]) ((d ++ [s1, s2]).length - 2) = .ok s1 := by
    rw [show (d ++ [s1, s2]).length - 2 = d.length + 0 by simp, rd_append_right]
    rfl
  have h2 : rd (d ++ [s1, s2]) ((d ++ [s1, s2]).length - 1) = .ok s2 := by
    rw [show (d ++ [s1, s2]).length - 1 = d.length + 1 by simp, rd_append_right]
    rfl
  rw [h1, bind_ok, h2, bind_ok, if_neg hc1]

theorem run_parts (capdu : List Byte) (c : Apdu.Case) (hc : isCase24 c = true) (last : List Byte) (s1 s2 : Byte)
    (h61 : s1 ≠ 0x61) (h6c : s1 ≠ 0x6C) (hwarn : (s1 = 0x62 ∨ s1 = 0x63) → last ≠ []) (old : List Byte) (rest : List Resp) :
    ∀ (more : List (List Byte × Byte)) (s hdr : List Byte) (tx : Tx) (off : Option Nat) (t : List Byte),
      Ready capdu ⟨hdr, tx, off, s ++ old.drop s.length, s.length, old.length - s.length, 0⟩ t →
      s.length + ((more.map (·.1)).flatten ++ last).length + 2 ≤ old.length →
      ∃ rbuf, run capdu .apdu c (more.map (fun x => .data (x.1 ++ [0x61, x.2])) ++ .data (last ++ [s1, s2]) :: rest)
          ⟨hdr, tx, off, s ++ old.drop s.length, s.length, old.length - s.length, 0⟩ =
        .ok (t :: more.map (fun x => [0x00, 0xC0, 0x00, 0x00, x.2]),
          .done ⟨0, rbuf, (s ++ ((more.map (·.1)).flatten ++ last)).length + 2, s1.toNat * 256 + s2.toNat⟩ rest) ∧
        rbuf.take (s ++ ((more.map (·.1)).flatten ++ last)).length = s ++ ((more.map (·.1)).flatten ++ last) := by
  intro more
  induction more with
  | nil =>
    intro s hdr tx off t hr hl
    obtain ⟨h1, ins, h2⟩ := hr
    simp only [List.map_nil, List.flatten_nil, List.nil_append] at hl ⊢
    refine ⟨(s ++ last) ++ [s1, s2] ++ old.drop ((s ++ last) ++ [s1, s2]).length, ?_, ?_⟩
    · unfold run
      rw [h1]
      simp only [bind_ok]
      rw [step_part capdu c hc _ ins h2]
      unfold statusResp
      have hst : status c 0 (last ++ [s1, s2]).length s1 s2 = .ok (s1.toNat * 256 + s2.toNat, .finish) := by
        unfold status
        rw [if_neg h61, if_neg h6c, if_pos rfl, if_neg]
        rintro ⟨-, hlen, hw⟩
        have : last ≠ [] := hwarn (by simpa [Apdu.swIsWarning] using hw)
        apply this
        simpa using hlen
      simp only [hst]
      rw [take_part c hc s old last hdr tx off _ ins s1 s2 hl]
      simp only [bind_ok, proceed, (sw_bytes s1 s2).1, (sw_bytes s1 s2).2]
      rw [wrs_over (s ++ last) old [s1, s2] (by simp; omega)]
      rfl
    · rw [List.append_assoc (s ++ last), List.take_left]
  | cons x more ih =>
    intro s hdr tx off t hr hl
    obtain ⟨d, n⟩ := x
    obtain ⟨h1, ins, h2⟩ := hr
    simp only [List.map_cons, List.flatten_cons, List.length_append] at hl
    obtain ⟨rbuf, hrun, htake⟩ := ih (s ++ d) [0x00, 0xC0, 0x00, 0x00, n] .header off [0x00, 0xC0, 0x00, 0x00, n]
      ⟨rfl, 0xC0, rfl⟩ (by simp only [List.length_append]; omega)
    refine ⟨rbuf, ?_, ?_⟩
    · simp only [List.map_cons, List.cons_append]
      conv => lhs; unfold run
      rw [h1]
      simp only [bind_ok]
      rw [step_part capdu c hc _ ins h2]
      unfold statusResp
      have hst : status c 0 (d ++ [0x61, n]).length 0x61 n = .ok (0, .getResponse) := by
        unfold status
        rw [if_pos rfl, if_neg (by simp [hc])]
      simp only [hst]
      rw [take_part c hc s old d hdr tx off _ ins 0x61 n (by omega)]
      simp only [bind_ok, proceed]
      have hle : getResponseLe 0x61 n = n := by simp [getResponseLe]
      rw [hle, hrun]
      simp only [bind_ok, List.flatten_cons, List.append_assoc]
    · simpa only [List.map_cons, List.flatten_cons, List.append_assoc] using htake

theorem delivered_ne (p : Parts) : 1 ≤ p.delivered.length := by
  simp [Parts.delivered]
  omega

/-- A program that ends on the results of these exchanges asks for the commands one by one. -/
theorem asks_next {α : Type} (prog : List W → C (Run α)) (hon : Online prog) (done tr : List (Cmd × W)) (x : Cmd × W) (a : α)
    (h : prog ((done ++ x :: tr).map (·.2)) = .ok (done ++ x :: tr, .done a [])) :
    prog (done.map (·.2)) = .ok (done, .pending x.1) ∧ Fit x.1 := by
  have ho := hon (done.map (·.2))
  unfold OnlineAt at ho
  have hsplit : (done ++ x :: tr).map (·.2) = done.map (·.2) ++ x.2 :: tr.map (·.2) := by simp
  rw [hsplit] at h
  match hx : prog (done.map (·.2)), ho with
  | .error e, ho =>
    rw [hx] at ho
    rw [ho] at h
    cases h
  | .ok (t, .done b r), ho =>
    rw [hx] at ho
    obtain ⟨-, h2⟩ := ho
    rw [h2] at h
    simp at h
  | .ok (t, .pending cmd), ho =>
    rw [hx] at ho
    obtain ⟨h1, hf, h2⟩ := ho
    have hs := h2 x.2 (tr.map (·.2))
    rw [h] at hs
    have hlen : done.length = t.length := by simpa using congrArg List.length h1
    obtain ⟨q, hq⟩ := hs
    rw [List.append_assoc] at hq
    obtain ⟨e1, e2⟩ := List.append_inj hq hlen.symm
    simp only [List.cons_append, List.nil_append, List.cons.injEq] at e2
    have hcmd : cmd = x.1 := congrArg (·.1) e2.1
    subst e1 hcmd
    exact ⟨hx, hf⟩

/-- **C151** (command).  A command whose answer the reader delivers at once or in any number of parts is transmitted as
its APDU, once more with the right length if the card wants that, and a GET RESPONSE for each further part, with the length
offered; its result is all data, and the status. -/
theorem C151_command (cmd : Cmd) (h : Fit cmd) (p : Parts) (hp : p.Fits) (rest : List Resp) :
    wrapper .apdu cmd (p.delivered ++ rest) =
      .ok (apdu cmd :: p.asked cmd, .done ⟨0, p.data, p.sw1.toNat * 256 + p.sw2.toNat⟩ rest) := by
  obtain ⟨again, more, last, s1, s2⟩ := p
  obtain ⟨hl, h61, h6c, hw⟩ := hp
  simp only [Parts.data] at hl h61 h6c hw
  rw [wrapper_eq cmd h]
  have h4 := four_apdu cmd
  obtain ⟨old, hold⟩ : ∃ old : List Byte, old = List.replicate 258 0 := ⟨_, rfl⟩
  rw [← hold]
  have hlen : old.length = 258 := by rw [hold, List.length_replicate]
  clear hold
  have hc : ∃ c, isCase24 c = true ∧ ∀ script, trx .apdu (apdu cmd) old script =
      run (apdu cmd) .apdu c script ⟨[], .capdu 0 (apdu cmd).length, none, old, 0,
        old.length, 0⟩ := by
    unfold trx
    have hz : ¬((apdu cmd).length = 0 ∨ old.length = 0) := by omega
    simp only [if_neg hz]
    rcases apdu_case cmd h with e | e <;> rw [e] <;> exact ⟨_, rfl, fun _ => rfl⟩
  obtain ⟨c, hc, hrun⟩ := hc
  have hfit : ([] : List Byte).length + ((more.map (·.1)).flatten ++ last).length + 2 ≤ old.length := by
    rw [hlen, List.length_nil]
    omega
  have hready : Ready (apdu cmd) ⟨[], .capdu 0 (apdu cmd).length, none, old, 0,
      old.length, 0⟩ (apdu cmd) := by
    refine ⟨?_, (apdu cmd)[0 + 1], ?_⟩
    · simp only [txBytes]
      rw [slice_eq (by omega)]
      simp
    · simp only [txIns]
      exact rd_eq (by omega)
  cases again with
  | none =>
    obtain ⟨rbuf, h1, h2⟩ := run_parts (apdu cmd) c hc last s1 s2 h61 h6c hw old rest more [] []
      (.capdu 0 (apdu cmd).length) none (apdu cmd) hready hfit
    have hd : (Parts.mk none more last s1 s2).delivered ++ rest =
        more.map (fun x => .data (x.1 ++ [0x61, x.2])) ++ .data (last ++ [s1, s2]) :: rest := by
      simp [Parts.delivered]
    simp only [List.nil_append, List.length_nil, List.drop_zero, Nat.sub_zero] at h1 h2
    rw [hrun, hd, h1]
    simp only [stripped, if_true, Nat.add_sub_cancel, h2]
    rfl
  | some n =>
    obtain ⟨rbuf, h1, h2⟩ := run_parts (apdu cmd) c hc last s1 s2 h61 h6c hw old rest more []
      ((apdu cmd).take 4 ++ [n]) .header none ((apdu cmd).take 4 ++ [n])
      ⟨by
        simp only [txBytes]
        rw [slice_eq (by simp; omega), List.drop_zero, List.take_of_length_le (by simp; omega)],
       _, by
        simp only [txIns]
        exact rd_eq (by simp; omega)⟩ hfit
    have hd : (Parts.mk (some n) more last s1 s2).delivered ++ rest =
        .data ([] ++ [0x6C, n]) :: (more.map (fun x => .data (x.1 ++ [0x61, x.2])) ++ .data (last ++ [s1, s2]) :: rest) := by
      simp [Parts.delivered]
    obtain ⟨r1, ins, r2⟩ := hready
    simp only [List.nil_append, List.length_nil, List.drop_zero, Nat.sub_zero] at h1 h2
    rw [hrun, hd]
    unfold run
    rw [r1]
    simp only [bind_ok]
    rw [step_part (apdu cmd) c hc _ ins r2]
    unfold statusResp
    have hst : status c 0 (([] : List Byte) ++ [0x6C, n]).length 0x6C n = .ok (0, .updateLe) := by
      unfold status
      rw [if_neg (by decide), if_pos rfl, if_neg (by simp [hc])]
    simp only [hst]
    have ht := take_part c hc [] old [] [] (.capdu 0 (apdu cmd).length) none 0 ins 0x6C n (by simp [hlen])
    simp only [List.nil_append, List.length_nil, List.drop_zero, Nat.sub_zero] at ht
    simp only [List.nil_append]
    rw [ht]
    simp only [bind_ok, proceed, txFour]
    rw [slice_eq (by omega), List.drop_zero]
    simp only [bind_ok]
    rw [h1]
    simp only [bind_ok, stripped, if_true, Nat.add_sub_cancel, h2]
    rfl

theorem online_end {α : Type} (prog : List W → C (Run α)) (hon : Online prog) (tr : List (Cmd × W)) (left : List W) (a : α)
    (h : prog (tr.map (·.2) ++ left) = .ok (tr, .done a left)) : prog (tr.map (·.2)) = .ok (tr, .done a []) := by
  have ho := hon (tr.map (·.2))
  unfold OnlineAt at ho
  match hx : prog (tr.map (·.2)), ho with
  | .error e, ho =>
    rw [hx] at ho
    rw [ho] at h
    cases h
  | .ok (t, .done b r), ho =>
    rw [hx] at ho
    rw [ho.2] at h
    simp only [Except.ok.injEq, Prod.mk.injEq, Out.done.injEq] at h
    obtain ⟨rfl, rfl, h3⟩ := h
    have : r = [] := by simpa using congrArg List.length h3
    subst this
    exact hx
  | .ok (t, .pending cmd), ho =>
    rw [hx] at ho
    obtain ⟨h1, -, h2⟩ := ho
    cases left with
    | nil => rw [List.append_nil, hx] at h; simp at h
    | cons w left =>
      have hs := h2 w left
      rw [h] at hs
      have l1 := hs.length_le
      have l2 := congrArg List.length h1
      simp only [List.length_append, List.length_map, List.length_cons, List.length_nil] at l1 l2
      omega

theorem drive_delivered {α : Type} (prog : List W → C (Run α)) (hon : Online prog) (a : α) (rest : List Resp) :
    ∀ (tr : List (Cmd × W)) (us : List Resp) (ls : List (List Byte)), Delivered tr us ls →
    ∀ (done : List (Cmd × W)) (fuel : Nat), tr.length < fuel →
      prog ((done ++ tr).map (·.2)) = .ok (done ++ tr, .done a []) →
      drive prog .apdu fuel (done.map (·.2)) (us ++ rest) = .ok (ls, .done (done ++ tr) a rest) := by
  intro tr us ls h
  induction h with
  | nil =>
    intro done fuel hf h
    match fuel, hf with
    | fuel + 1, _ =>
      rw [List.append_nil] at h ⊢
      unfold drive
      rw [h]
      rfl
  | @cons cmd w us ls tr p hp h0 hd hs t ih =>
    intro done fuel hf h
    match fuel, hf with
    | fuel + 1, hf =>
      obtain ⟨h1, h2⟩ := asks_next prog hon done tr (cmd, w) a h
      unfold drive
      rw [h1]
      simp only [bind_ok]
      rw [List.append_assoc, C151_command cmd h2 p hp]
      simp only [bind_ok]
      have hw : (⟨0, p.data, p.sw1.toNat * 256 + p.sw2.toNat⟩ : W) = w := by
        rw [← hd, ← hs, ← h0]
      have := ih (done ++ [(cmd, w)]) fuel (by rw [List.length_cons] at hf; omega) (by simpa using h)
      rw [List.map_append] at this
      simp only [List.map_cons, List.map_nil] at this
      rw [hw, this]
      simp

/-! ## Theorems -/

/-- **C151** (kernel and tool).  Whatever a transaction does when its commands have certain results, it does over a reader
that delivers them, at once or in parts: the transmissions are the APDUs and GET RESPONSEs in order, and nothing else. -/
theorem C151_transaction (alloc : List Tlv → Tlv → Bool) (mem : Nat → List Byte) (ctx : Ctx) (input : List Byte)
    (tr : List (Cmd × W)) (us : List Resp) (ls : List (List Byte)) (h : Delivered tr us ls) (e : ToolTxn.End) (left : List W)
    (he : ToolTxn.transaction alloc mem ctx input (tr.map (·.2) ++ left) = .ok (tr, .done e left)) (rest : List Resp) :
    overReader alloc mem ctx input (us ++ rest) = .ok (ls, .done tr e rest) := by
  have hlen : ∀ {tr us ls}, Delivered tr us ls → tr.length ≤ us.length := by
    intro tr us ls h
    induction h with
    | nil => exact Nat.le_refl _
    | cons p hp h0 hd hs t ih =>
      have := delivered_ne p
      simp only [List.length_cons, List.length_append]
      omega
  have := hlen h
  exact drive_delivered (ToolTxn.transaction alloc mem ctx input) (online_transaction alloc mem ctx input) e rest tr us ls h []
    _ (by rw [List.length_append]; omega) (online_end _ (online_transaction alloc mem ctx input) tr left e he)

/-- **C151** (proper card).  The card of C149 over a reader: there are exchanges, of which those for selection are as the card
of C147 answers, such that for every way the reader delivers them, emv-tool transmits the commands of C149 and ends with
all data of the card. -/
theorem C151_card (card : List Search.CardApp) (hc : ∀ m ∈ card, m.WF) (hs : Search.Separate card) (ctx : Ctx)
    (hsup : ∀ t ∈ ctx.supported, 5 ≤ t.value.length ∧ t.value.length ≤ 16) (m : Search.CardApp)
    (hone : (ctx.supported.flatMap fun t => card.filter fun m => Search.Meets t m && !m.blocked) = [m])
    (data : Option (List Byte)) (g : W) (opts : List Tlv) (tr : List (Cmd × W)) (fs : List Tlv)
    (h : Search.Good ctx m data g opts tr fs) (mem : Nat → List Byte) (hmem : ∀ k, (mem k).length = 255) :
    ∃ (apps : List App) (tr1 : List (Cmd × W)) (w : W),
      Search.Talk card [] (tr1 ++ [(.select false m.name, w)]) ∧
      ∀ us ls, Delivered ((.select false txt!"1PAY.SYS.DDF01", ⟨0, [], 0x6A82⟩) :: (tr1 ++
          ((.select false m.name, w) :: (.gpo data, g) :: tr))) us ls →
        ∀ input input' bad, ToolTxn.pick (ToolTxn.required apps) apps input = .ok (.index 0 input', bad) → ∀ rest,
          ∃ e t, overReader allocOk mem ctx input (us ++ rest) = .ok (ls, .done t e rest) ∧ e.how = .done ∧
            e.ctx.icc = m.body.leaves ++ opts ++ fs := by
  obtain ⟨apps, tr1, w, h1, -, -, h2⟩ := Search.C149_card card hc hs ctx hsup m hone data g opts tr fs h mem hmem []
  refine ⟨apps, tr1, w, h1, fun us ls hd input input' bad hp rest => ?_⟩
  obtain ⟨e, h3, h4, h5⟩ := h2 input input' bad hp
  refine ⟨e, _, C151_transaction allocOk mem ctx input _ us ls hd e [] ?_ rest, h4, h5⟩
  rw [← h3]
  simp

/-- **C151** (proper card with a directory).  The same for a card whose directory lists the application. -/
theorem C151_directory (ctx : Ctx) (fci : Forest) (hfci : fci.WF) (sfi : Byte) (hsf : 1 ≤ sfi.toNat ∧ sfi.toNat ≤ 30)
    (hsfi : field 0x88 fci.leaves = some [sfi]) (records : List Record) (hr : ∀ r ∈ records, r.WF) (last : W)
    (hl0 : last.code = 0) (hl1 : last.sw = 0x6A83) (m : Search.CardApp) (hm : m.WF) (hb : m.blocked = false)
    (hlisted : ∃ r ∈ records, ∃ e ∈ r.entries, e.aid = m.name) (hmatch : Matches m.name ctx.supported)
    (data : Option (List Byte)) (g : W) (opts : List Tlv) (tr : List (Cmd × W)) (fs : List Tlv)
    (h : Search.Good ctx m data g opts tr fs) (mem : Nat → List Byte) (hmem : ∀ k, (mem k).length = 255) (w : W)
    (hw : Search.Answer (some m) w) :
    ∃ (apps : List App) (tr0 : List (Cmd × W)),
      tr0.map (·.1) = .select false txt!"1PAY.SYS.DDF01" :: (List.range (records.length + 1)).map
        (fun k => .readRecord sfi (UInt8.ofNat (k + 1))) ∧
      tr0.map (·.2) = ⟨0, fci.enc, 0x9000⟩ :: (records.map (fun r => ⟨0, r.enc, 0x9000⟩) ++ [last]) ∧
      ∀ us ls, Delivered (tr0 ++ ((.select false m.name, w) :: (.gpo data, g) :: tr)) us ls →
        ∀ (i : Nat) (a : App) input input' bad, apps[i]? = some a → a.aid.value = m.name →
          ToolTxn.pick (ToolTxn.required apps) apps input = .ok (.index i input', bad) → ∀ rest,
          ∃ e t, overReader allocOk mem ctx input (us ++ rest) = .ok (ls, .done t e rest) ∧ e.how = .done ∧
            e.ctx.icc = m.body.leaves ++ opts ++ fs := by
  obtain ⟨apps, tr0, h1, h2, -, h3⟩ := Search.C149_directory ctx fci hfci sfi hsf hsfi records hr last hl0 hl1 m hm hb
    hlisted hmatch data g opts tr fs h mem hmem w hw []
  refine ⟨apps, tr0, h1, h2, fun us ls hd i a input input' bad ha hn hp rest => ?_⟩
  obtain ⟨e, h4, h5, -, h6, -⟩ := h3 i a input input' bad ha hn hp
  refine ⟨e, _, C151_transaction allocOk mem ctx input _ us ls hd e [] ?_ rest, h5, h6⟩
  rw [← h4]
  simp

/-! ## Examples -/

/-- An answer in three parts. -/
def inParts : Parts := ⟨none, [([0x6F, 7], 7), ([0x84, 5, 0xA0], 4)], [0, 0, 0, 4], 0x90, 0⟩

example : inParts.Fits ∧ inParts.delivered = [.data [0x6F, 7, 0x61, 7], .data [0x84, 5, 0xA0, 0x61, 4],
    .data [0, 0, 0, 4, 0x90, 0]] ∧ inParts.data = [0x6F, 7, 0x84, 5, 0xA0, 0, 0, 0, 4] := by
  refine ⟨⟨by decide, by decide, by decide, ?_⟩, rfl, rfl⟩
  intro _ h
  cases h

example : Fit (.select false [0xA0, 0, 0, 0, 4]) ∧ wrapper .apdu (.select false [0xA0, 0, 0, 0, 4]) inParts.delivered =
    .ok ([[0, 0xA4, 4, 0, 5, 0xA0, 0, 0, 0, 4, 0], [0, 0xC0, 0, 0, 7], [0, 0xC0, 0, 0, 4]],
      .done ⟨0, [0x6F, 7, 0x84, 5, 0xA0, 0, 0, 0, 4], 0x9000⟩ []) :=
  ⟨⟨by simp, by simp⟩, by decide +kernel⟩

/-- A record with the right length. -/
example : Parts.Fits ⟨some 3, [], [0x70, 1, 0], 0x90, 0⟩ ∧
    wrapper .apdu (.readRecord 1 2) [.data [0x6C, 3], .data [0x70, 1, 0, 0x90, 0]] =
      .ok ([[0, 0xB2, 2, 0x0C, 0], [0, 0xB2, 2, 0x0C, 3]], .done ⟨0, [0x70, 1, 0], 0x9000⟩ []) :=
  ⟨⟨by decide, by decide, by decide, by decide⟩, by decide +kernel⟩

/-- Two exchanges: no directory, and an application. -/
example : Delivered [(.select false txt!"1PAY.SYS.DDF01", ⟨0, [], 0x6A82⟩),
      (.select false [0xA0, 0, 0, 0, 4], ⟨0, [0x6F, 7, 0x84, 5, 0xA0, 0, 0, 0, 4], 0x9000⟩)]
    ([.data [0x6A, 0x82]] ++ (inParts.delivered ++ []))
    ((apdu (.select false txt!"1PAY.SYS.DDF01") :: []) ++ ((apdu (.select false [0xA0, 0, 0, 0, 4]) :: inParts.asked (.select false [0xA0, 0, 0, 0, 4])) ++ [])) :=
  .cons ⟨none, [], [], 0x6A, 0x82⟩ ⟨by decide, by decide, by decide, by decide⟩ rfl rfl rfl
    (.cons inParts ⟨by decide, by decide, by decide, by intro _ h; cases h⟩ rfl rfl rfl .nil)

end Verif.Stack
