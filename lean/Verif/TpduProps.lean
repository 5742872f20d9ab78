import Verif.DeliverProps

/-!
# C152: a command has the same result over a reader in TPDU mode

The card speaks T=0, and the reader passes on its procedure bytes.
-/

set_option autoImplicit false

namespace Verif.Stack
open Verif Ber BerSpec TlvParse App Tal Emv Fields Ttl

/-! ## Specification -/

/-- The data of a command. -/
def carries : Cmd → Option (List Byte)
  | .select _ name => some name
  | .readRecord _ _ => none
  | .gpo data => some (data.getD [0x83, 0x00])

/-- The instruction byte of a command. -/
def insOf : Cmd → Byte
  | .select _ _ => 0xA4
  | .readRecord _ _ => 0xB2
  | .gpo _ => 0xA8

/-- Data are preceded by the instruction byte. -/
def announced (i : Byte) (d : List Byte) (s1 s2 : Byte) : List Byte := (if d = [] then [] else i :: d) ++ [s1, s2]

/-- The parts of an answer; the parts after the first are answers to GET RESPONSE. -/
def t0Parts (i : Byte) : List (List Byte × Byte) → List Byte → Byte → Byte → List Resp
  | [], last, s1, s2 => [.data (announced i last s1 s2)]
  | (d, n) :: more, last, s1, s2 => .data (announced i d 0x61 n) :: t0Parts 0xC0 more last s1 s2

/-- What the reader delivers: if the command carries data, first the instruction byte, to ask for them. -/
def Parts.t0 (cmd : Cmd) (p : Parts) : List Resp :=
  (if (carries cmd).isSome then [.data [insOf cmd]] else []) ++
    (p.again.toList.map (fun n => .data [0x6C, n]) ++ t0Parts (insOf cmd) p.more p.last p.sw1 p.sw2)

/-- What is transmitted: the header, the data if there are some, and then as in APDU mode. -/
def Parts.sent (cmd : Cmd) (p : Parts) : List (List Byte) :=
  (apdu cmd).take 5 :: ((carries cmd).toList ++ p.asked cmd)

/-- The answer fits, and after data sent there are no data received but in answers to GET RESPONSE. -/
def Parts.FitsT0 (cmd : Cmd) (p : Parts) : Prop :=
  p.Fits ∧ ((carries cmd).isSome → p.again = none ∧ ((p.more.head?.map (·.1)).getD p.last) = [])

/-- Each exchange delivered in this way. -/
inductive DeliveredT0 : List (Cmd × W) → List Resp → List (List Byte) → Prop where
  | nil : DeliveredT0 [] [] []
  | cons {cmd : Cmd} {w : W} {us : List Resp} {ls : List (List Byte)} {tr : List (Cmd × W)} (p : Parts)
      (hp : p.FitsT0 cmd) (h0 : w.code = 0) (hd : w.data = p.data) (hs : w.sw = p.sw1.toNat * 256 + p.sw2.toNat)
      (t : DeliveredT0 tr us ls) : DeliveredT0 ((cmd, w) :: tr) (p.t0 cmd ++ us) (p.sent cmd ++ ls)

/-! ## Lemmas -/

theorem wrapper_tpdu (cmd : Cmd) (h : Fit cmd) (script : List Resp) :
    wrapper .tpdu cmd script = stripped (trx .tpdu (apdu cmd) (List.replicate 258 0) script) := by
  cases cmd with
  | select next name => exact ((C27_select _ .tpdu name 256 script).2 (by omega) h.1 h.2).2
  | readRecord sfi rec => exact ((C27_read_record .tpdu sfi rec 256 script).2 (by omega) h.1 h.2).2
  | gpo data =>
    refine ((C27_gpo .tpdu data 256 script).2 _ (by omega) rfl ?_ ?_ ?_).2
    all_goals
      cases data with
      | none => decide
      | some d =>
        have := h d rfl
        first | exact this.1 | exact this.2.1 | exact this.2.2

theorem take_t0 (c : Apdu.Case) (hc : isCase24 c = true) (s old d : List Byte) (hdr : List Byte) (tx : Tx) (off : Option Nat)
    (sw : Nat) (i ins s1 s2 : Byte) (hi : d = [] ∨ i = ins) (hl : s.length + d.length + 2 ≤ old.length) :
    takeData .tpdu c ⟨hdr, tx, off, s ++ old.drop s.length, s.length, old.length - s.length, sw⟩ ins (announced i d s1 s2) =
      .ok (.inl ⟨hdr, tx, off, (s ++ d) ++ old.drop (s ++ d).length, (s ++ d).length, old.length - (s ++ d).length, sw⟩) := by
  unfold takeData announced
  cases d with
  | nil => simp
  | cons b d =>
    have hi : i = ins := by
      rcases hi with h | h
      · cases h
      · exact h
    subst hi
    simp only [reduceCtorEq, if_false]
    rw [if_pos (by simp), if_neg (by simp [hc]), List.cons_append, rd_cons_zero]
    simp only [bind_ok]
    rw [if_neg (by simp)]
    unfold copyData
    rw [if_neg (by simp [hc]), if_neg (by simp; simp at hl; omega)]
    have e : (i :: (b :: d ++ [s1, s2])).length - 1 - 2 = (b :: d).length := by simp
    simp only [e]
    rw [slice_eq (by simp; omega), List.drop_succ_cons, List.drop_zero, List.take_left]
    simp only [bind_ok]
    rw [wrs_over s old (b :: d) (by omega)]
    simp only [bind_ok]
    congr 3
    · rw [List.length_append]
    · rw [List.length_append]; omega

theorem step_t0 (capdu : List Byte) (c : Apdu.Case) (hc : isCase24 c = true) (st : St) (ins : Byte)
    (hi : txIns capdu st = .ok ins) (d : List Byte) (s1 s2 : Byte) :
    step capdu .tpdu c st (.data (d ++ [s1, s2])) = statusResp capdu .tpdu c st ins (d ++ [s1, s2]) s1 s2 := by
  have hc1 : c ≠ .c1 := by rintro rfl; cases hc
  unfold step
  simp only
  rw [if_neg (by simp), hi]
  simp only [bind_ok]
  rw [if_neg (by simp)]
  have h1 : rd (d ++ [s1, s2]) ((d ++ [s1, s2]).length - 2) = .ok s1 := by
    rw [show (d ++ [s1, s2]).length - 2 = d.length + 0 by simp, rd_append_right]
    rfl
  have h2 : rd (d ++ [s1, s2]) ((d ++ [s1, s2]).length - 1) = .ok s2 := by
    rw [show (d ++ [s1, s2]).length - 1 = d.length + 1 by simp, rd_append_right]
    rfl
  rw [h1, bind_ok, h2, bind_ok, if_neg hc1]

theorem announced_length {i : Byte} {d : List Byte} {s1 s2 : Byte} : (announced i d s1 s2).length = 2 ↔ d = [] := by
  unfold announced
  cases d <;> simp

theorem run_t0 (capdu : List Byte) (c : Apdu.Case) (hc : isCase24 c = true) (last : List Byte) (s1 s2 : Byte)
    (h61 : s1 ≠ 0x61) (h6c : s1 ≠ 0x6C) (hwarn : (s1 = 0x62 ∨ s1 = 0x63) → last ≠ []) (old : List Byte) (rest : List Resp) :
    ∀ (more : List (List Byte × Byte)) (s hdr : List Byte) (tx : Tx) (off : Option Nat) (t : List Byte) (i ins : Byte),
      txBytes capdu ⟨hdr, tx, off, s ++ old.drop s.length, s.length, old.length - s.length, 0⟩ = .ok t →
      txIns capdu ⟨hdr, tx, off, s ++ old.drop s.length, s.length, old.length - s.length, 0⟩ = .ok ins →
      ((more.head?.map (·.1)).getD last = [] ∨ i = ins) →
      s.length + ((more.map (·.1)).flatten ++ last).length + 2 ≤ old.length →
      ∃ rbuf, run capdu .tpdu c (t0Parts i more last s1 s2 ++ rest)
          ⟨hdr, tx, off, s ++ old.drop s.length, s.length, old.length - s.length, 0⟩ =
        .ok (t :: more.map (fun x => [0x00, 0xC0, 0x00, 0x00, x.2]),
          .done ⟨0, rbuf, (s ++ ((more.map (·.1)).flatten ++ last)).length + 2, s1.toNat * 256 + s2.toNat⟩ rest) ∧
        rbuf.take (s ++ ((more.map (·.1)).flatten ++ last)).length = s ++ ((more.map (·.1)).flatten ++ last) := by
  intro more
  induction more with
  | nil =>
    intro s hdr tx off t i ins h1 h2 hi hl
    simp only [List.map_nil, List.flatten_nil, List.nil_append] at hl ⊢
    refine ⟨(s ++ last) ++ [s1, s2] ++ old.drop ((s ++ last) ++ [s1, s2]).length, ?_, ?_⟩
    · unfold t0Parts run
      simp only [List.singleton_append]
      rw [h1]
      simp only [bind_ok]
      rw [announced, step_t0 capdu c hc _ ins h2, ← announced]
      unfold statusResp
      have hst : status c 0 (announced i last s1 s2).length s1 s2 = .ok (s1.toNat * 256 + s2.toNat, .finish) := by
        unfold status
        rw [if_neg h61, if_neg h6c, if_pos rfl, if_neg]
        rintro ⟨-, hlen, hw⟩
        exact hwarn (by simpa [Apdu.swIsWarning] using hw) (announced_length.1 hlen)
      simp only [hst]
      rw [take_t0 c hc s old last hdr tx off _ i ins s1 s2 hi hl]
      simp only [bind_ok, proceed, (sw_bytes s1 s2).1, (sw_bytes s1 s2).2]
      rw [wrs_over (s ++ last) old [s1, s2] (by simp; omega)]
      rfl
    · rw [List.append_assoc (s ++ last), List.take_left]
  | cons x more ih =>
    intro s hdr tx off t i ins h1 h2 hi hl
    obtain ⟨d, n⟩ := x
    simp only [List.map_cons, List.flatten_cons, List.length_append] at hl
    obtain ⟨rbuf, hrun, htake⟩ := ih (s ++ d) [0x00, 0xC0, 0x00, 0x00, n] .header off [0x00, 0xC0, 0x00, 0x00, n] 0xC0 0xC0
      rfl rfl (.inr rfl) (by simp only [List.length_append]; omega)
    refine ⟨rbuf, ?_, ?_⟩
    · simp only [t0Parts, List.map_cons, List.cons_append]
      conv => lhs; unfold run
      rw [h1]
      simp only [bind_ok]
      rw [announced, step_t0 capdu c hc _ ins h2, ← announced]
      unfold statusResp
      have hst : status c 0 (announced i d 0x61 n).length 0x61 n = .ok (0, .getResponse) := by
        unfold status
        rw [if_pos rfl, if_neg (by simp [hc])]
      simp only [hst]
      rw [take_t0 c hc s old d hdr tx off _ i ins 0x61 n hi (by omega)]
      simp only [bind_ok, proceed]
      have hle : getResponseLe 0x61 n = n := by simp [getResponseLe]
      rw [hle, hrun]
      simp only [bind_ok, List.flatten_cons, List.append_assoc]
    · simpa only [List.map_cons, List.flatten_cons, List.append_assoc] using htake

/-- A command without data is a READ RECORD; its APDU is just a header. -/
theorem trx_plain (cmd : Cmd) (h : Fit cmd) (hn : carries cmd = none) (old : List Byte) (hold : old.length = 258)
    (script : List Resp) : (apdu cmd).length = 5 ∧ rd (apdu cmd) 1 = .ok (insOf cmd) ∧
      trx .tpdu (apdu cmd) old script = run (apdu cmd) .tpdu .c2S script ⟨apdu cmd, .header, none, old, 0, old.length, 0⟩ := by
  cases cmd with
  | select next name => cases hn
  | gpo data => cases hn
  | readRecord sfi rec =>
    have e : Apdu.apduCase (apdu (.readRecord sfi rec)) = .ok (.ok .c2S) :=
      ((C27_read_record .apdu sfi rec 256 []).2 (by omega) h.1 h.2).1
    refine ⟨rfl, rfl, ?_⟩
    unfold trx
    have hz : ¬((apdu (.readRecord sfi rec)).length = 0 ∨ old.length = 0) := by
      have := four_apdu (.readRecord sfi rec)
      omega
    simp only [if_neg hz]
    rw [e]
    rfl

/-- The APDU of a command with data. -/
theorem apdu_data (cmd : Cmd) (d : List Byte) (hd : carries cmd = some d) (h : Fit cmd) :
    ∃ x, apdu cmd = [x, insOf cmd] ++ ((apdu cmd).drop 2).take 2 ++ [UInt8.ofNat d.length] ++ d ++ [0] ∧
      2 ≤ d.length ∧ d.length ≤ 255 ∧ insOf cmd ≠ 0x60 ∧ Apdu.apduCase (apdu cmd) = .ok (.ok .c4S) := by
  have hcase := apdu_case cmd h
  cases cmd with
  | readRecord sfi rec => cases hd
  | select next name =>
    cases hd
    have := h.1
    have := h.2
    exact ⟨0, rfl, by omega, by omega, by simp [insOf], ((C27_select _ .apdu _ 256 []).2 (by omega) h.1 h.2).1⟩
  | gpo data =>
    cases hd
    have hl : 2 ≤ (data.getD [0x83, 0x00]).length ∧ (data.getD [0x83, 0x00]).length ≤ 255 ∧
        (data.getD [0x83, 0x00]).head? = some 0x83 := by
      cases data with
      | none => decide
      | some d => exact h d rfl
    exact ⟨0x80, rfl, hl.1, hl.2.1, by simp [insOf],
      ((C27_gpo .apdu data 256 []).2 _ (by omega) rfl hl.1 hl.2.1 hl.2.2).1⟩

/-- A command with data: after the instruction byte of the card they are transmitted. -/
theorem trx_data (cmd : Cmd) (h : Fit cmd) (d : List Byte) (hd : carries cmd = some d) (old : List Byte)
    (hold : old.length = 258) (script : List Resp) :
    ∃ ins hdr, let st : St := ⟨hdr, .capdu 5 d.length, none, old, 0, old.length, 0⟩
      txBytes (apdu cmd) st = .ok d ∧ txIns (apdu cmd) st = .ok ins ∧
      trx .tpdu (apdu cmd) old (.data [insOf cmd] :: script) =
        (do
          let (log, o) ← run (apdu cmd) .tpdu .c4S script st
          .ok ((apdu cmd).take 5 :: log, o)) := by
  obtain ⟨x, he, h1, h2, h3, h4⟩ := apdu_data cmd d hd h
  generalize hm : ((apdu cmd).drop 2).take 2 = mid at he
  have hmid : mid.length = 2 := by
    have := four_apdu cmd
    rw [← hm, List.length_take, List.length_drop]
    omega
  match mid, hmid with
  | [p, q], _ =>
    clear hm
    have he : apdu cmd = x :: insOf cmd :: p :: q :: UInt8.ofNat d.length :: (d ++ [0]) := by
      rw [he]
      simp
    match d, h1 with
    | a :: b :: d, _ =>
      refine ⟨b, (apdu cmd).take 5, ?_, ?_, ?_⟩
      · simp only [txBytes]
        rw [he, slice_eq (by simp; omega)]
        simp
      · simp only [txIns]
        rw [he]
        rfl
      · unfold trx
        have hz : ¬((apdu cmd).length = 0 ∨ old.length = 0) := by
          have := four_apdu cmd
          omega
        simp only [if_neg hz]
        rw [h4]
        simp only [bind_ok]
        rw [if_pos (by simp)]
        have h5 : slice (apdu cmd) 0 5 = .ok ((apdu cmd).take 5) := by
          rw [he, slice_eq (by simp)]
          rfl
        simp only [initSt]
        rw [if_neg (by simp), h5]
        simp only [bind_ok]
        rw [if_pos (by simp)]
        conv => lhs; unfold run
        have ht : (apdu cmd).take 5 = [x, insOf cmd, p, q, UInt8.ofNat (a :: b :: d).length] := by
          rw [he]
          rfl
        have hlc : (UInt8.ofNat (a :: b :: d).length).toNat = (a :: b :: d).length := by
          rw [UInt8.toNat_ofNat']
          exact Nat.mod_eq_of_lt (by omega)
        have hstep : step (apdu cmd) .tpdu .c4S ⟨(apdu cmd).take 5, .header, some 5, old, 0, old.length, 0⟩
            (.data [insOf cmd]) = .ok (.inl ⟨(apdu cmd).take 5, .capdu 5 (a :: b :: d).length, none, old, 0, old.length, 0⟩) := by
          unfold step
          simp only [txIns]
          rw [if_neg (by simp), ht]
          have r1 : rd [x, insOf cmd, p, q, UInt8.ofNat (a :: b :: d).length] 1 = .ok (insOf cmd) := rfl
          have r4 : rd [x, insOf cmd, p, q, UInt8.ofNat (a :: b :: d).length] 4 = .ok (UInt8.ofNat (a :: b :: d).length) := rfl
          rw [r1]
          simp only [bind_ok]
          rw [if_pos (by simp), rd_cons_zero]
          simp only [bind_ok]
          rw [if_neg (by simp)]
          unfold procByte
          rw [if_neg h3, if_pos rfl]
          simp only [r4, bind_ok, hlc]
        rw [hstep]
        have htx : txBytes (apdu cmd) ⟨(apdu cmd).take 5, .header, some 5, old, 0, old.length, 0⟩ =
            .ok ((apdu cmd).take 5) := by
          simp only [txBytes]
          rw [ht, slice_eq (by simp)]
          rfl
        rw [htx]
        rfl

/-! ## Theorems -/

/-- **C152** (command).  A command over a reader in TPDU mode is transmitted as its header; its data, if it has some, when the
card asks for them; the header with the right length if the card wants that; and a GET RESPONSE for each further part.  Its
result is all data without the instruction bytes, and the status. -/
theorem C152_command (cmd : Cmd) (h : Fit cmd) (p : Parts) (hp : p.FitsT0 cmd) (rest : List Resp) :
    wrapper .tpdu cmd (p.t0 cmd ++ rest) =
      .ok (p.sent cmd, .done ⟨0, p.data, p.sw1.toNat * 256 + p.sw2.toNat⟩ rest) := by
  obtain ⟨again, more, last, s1, s2⟩ := p
  obtain ⟨⟨hl, h61, h6c, hw⟩, hfirst⟩ := hp
  simp only [Parts.data] at hl h61 h6c hw hfirst
  rw [wrapper_tpdu cmd h]
  obtain ⟨old, hold⟩ : ∃ old : List Byte, old = List.replicate 258 0 := ⟨_, rfl⟩
  rw [← hold]
  have hlen : old.length = 258 := by rw [hold, List.length_replicate]
  clear hold
  have hfit : ([] : List Byte).length + ((more.map (·.1)).flatten ++ last).length + 2 ≤ old.length := by
    rw [hlen, List.length_nil]
    omega
  cases hc : carries cmd with
  | some d =>
    obtain ⟨ha, hf⟩ := hfirst (by rw [hc]; rfl)
    subst ha
    have hd : (Parts.mk none more last s1 s2).t0 cmd ++ rest =
        .data [insOf cmd] :: (t0Parts (insOf cmd) more last s1 s2 ++ rest) := by
      simp [Parts.t0, hc]
    obtain ⟨ins, hdr, t1, t2, t3⟩ := trx_data cmd h d hc old hlen (t0Parts (insOf cmd) more last s1 s2 ++ rest)
    obtain ⟨rbuf, h1, h2⟩ := run_t0 (apdu cmd) .c4S rfl last s1 s2 h61 h6c hw old rest more [] hdr (.capdu 5 d.length) none d
      (insOf cmd) ins t1 t2 (.inl hf) hfit
    simp only [List.nil_append, List.length_nil, List.drop_zero, Nat.sub_zero] at h1 h2
    rw [hd, t3, h1]
    simp only [bind_ok, stripped, if_true, Nat.add_sub_cancel, h2]
    simp [Parts.sent, hc, Parts.asked, Parts.data]
  | none =>
    obtain ⟨h5, hi, -⟩ := trx_plain cmd h hc old hlen []
    have htake : (apdu cmd).take 5 = apdu cmd := List.take_of_length_le (by omega)
    have htx : ∀ (hdr : List Byte) (off : Option Nat) (sw : Nat), hdr.length = 5 →
        txBytes (apdu cmd) ⟨hdr, .header, off, old, 0, old.length, sw⟩ = .ok hdr := by
      intro hdr off sw hh
      simp only [txBytes]
      rw [slice_eq (by omega), List.drop_zero, List.take_of_length_le (by omega)]
    cases again with
    | none =>
      have hd : (Parts.mk none more last s1 s2).t0 cmd ++ rest = t0Parts (insOf cmd) more last s1 s2 ++ rest := by
        simp [Parts.t0, hc]
      obtain ⟨rbuf, h1, h2⟩ := run_t0 (apdu cmd) .c2S rfl last s1 s2 h61 h6c hw old rest more [] (apdu cmd) .header none
        (apdu cmd) (insOf cmd) (insOf cmd) (htx _ _ _ h5) hi (.inr rfl) hfit
      simp only [List.nil_append, List.length_nil, List.drop_zero, Nat.sub_zero] at h1 h2
      rw [hd, (trx_plain cmd h hc old hlen _).2.2, h1]
      simp only [stripped, if_true, Nat.add_sub_cancel, h2]
      simp [Parts.sent, hc, Parts.asked, Parts.data, htake]
    | some n =>
      have hn5 : ((apdu cmd).take 4 ++ [n]).length = 5 := by simp; omega
      have hi' : rd ((apdu cmd).take 4 ++ [n]) 1 = .ok (insOf cmd) := by
        cases cmd with
        | select next name => cases hc
        | gpo data => cases hc
        | readRecord sfi rec => rfl
      have hd : (Parts.mk (some n) more last s1 s2).t0 cmd ++ rest =
          .data ([] ++ [0x6C, n]) :: (t0Parts (insOf cmd) more last s1 s2 ++ rest) := by
        simp [Parts.t0, hc]
      obtain ⟨rbuf, h1, h2⟩ := run_t0 (apdu cmd) .c2S rfl last s1 s2 h61 h6c hw old rest more [] ((apdu cmd).take 4 ++ [n])
        .header none ((apdu cmd).take 4 ++ [n]) (insOf cmd) (insOf cmd) (htx _ _ _ hn5) hi' (.inr rfl) hfit
      simp only [List.nil_append, List.length_nil, List.drop_zero, Nat.sub_zero] at h1 h2
      rw [hd, (trx_plain cmd h hc old hlen _).2.2]
      conv => lhs; unfold run
      rw [htx _ _ _ h5]
      simp only [bind_ok]
      rw [step_t0 (apdu cmd) .c2S rfl ⟨apdu cmd, .header, none, old, 0, old.length, 0⟩ (insOf cmd) hi]
      unfold statusResp
      have hst : status .c2S 0 (([] : List Byte) ++ [0x6C, n]).length 0x6C n = .ok (0, .updateLe) := by
        unfold status
        rw [if_neg (by decide), if_pos rfl, if_neg (by simp [isCase24])]
      simp only [hst]
      have ht : takeData .tpdu .c2S ⟨apdu cmd, .header, none, old, 0, old.length, 0⟩ (insOf cmd) [0x6C, n] =
          .ok (.inl ⟨apdu cmd, .header, none, old, 0, old.length, 0⟩) := by
        unfold takeData
        simp
      simp only [List.nil_append]
      rw [ht]
      simp only [bind_ok, proceed, txFour]
      rw [slice_eq (by omega), List.drop_zero]
      simp only [bind_ok]
      rw [h1]
      simp only [bind_ok, stripped, if_true, Nat.add_sub_cancel, h2]
      simp [Parts.sent, hc, Parts.asked, Parts.data, htake]

theorem drive_t0 {α : Type} (prog : List W → C (Run α)) (hon : Online prog) (a : α) (rest : List Resp) :
    ∀ (tr : List (Cmd × W)) (us : List Resp) (ls : List (List Byte)), DeliveredT0 tr us ls →
    ∀ (done : List (Cmd × W)) (fuel : Nat), tr.length < fuel →
      prog ((done ++ tr).map (·.2)) = .ok (done ++ tr, .done a []) →
      drive prog .tpdu fuel (done.map (·.2)) (us ++ rest) = .ok (ls, .done (done ++ tr) a rest) := by
  intro tr us ls h
  induction h with
  | nil =>
    intro done fuel hf h
    match fuel, hf with
    | fuel + 1, _ =>
      rw [List.append_nil] at h ⊢
      unfold drive
      rw [h]
      rfl
  | @cons cmd w us ls tr p hp h0 hd hs t ih =>
    intro done fuel hf h
    match fuel, hf with
    | fuel + 1, hf =>
      obtain ⟨h1, h2⟩ := asks_next prog hon done tr (cmd, w) a h
      unfold drive
      rw [h1]
      simp only [bind_ok]
      rw [List.append_assoc, C152_command cmd h2 p hp]
      simp only [bind_ok]
      have hw : (⟨0, p.data, p.sw1.toNat * 256 + p.sw2.toNat⟩ : W) = w := by
        rw [← hd, ← hs, ← h0]
      have := ih (done ++ [(cmd, w)]) fuel (by rw [List.length_cons] at hf; omega) (by simpa using h)
      rw [List.map_append] at this
      simp only [List.map_cons, List.map_nil] at this
      rw [hw, this]
      simp

theorem t0_ne (cmd : Cmd) (p : Parts) : 1 ≤ (p.t0 cmd).length := by
  have : ∀ i more, 1 ≤ (t0Parts i more p.last p.sw1 p.sw2).length := by
    intro i more
    cases more with
    | nil => simp [t0Parts]
    | cons x more => simp [t0Parts]
  have := this (insOf cmd) p.more
  unfold Parts.t0
  simp only [List.length_append]
  omega

/-- **C152** (transaction).  The results of the commands being the same, a transaction over a reader in TPDU mode does the same
as over one in APDU mode: the same exchanges, choices, output and end. -/
theorem C152_transaction (alloc : List Tlv → Tlv → Bool) (mem : Nat → List Byte) (ctx : Ctx) (input : List Byte)
    (tr : List (Cmd × W)) (us us' : List Resp) (ls ls' : List (List Byte)) (h : Delivered tr us ls)
    (h' : DeliveredT0 tr us' ls') (e : ToolTxn.End) (left : List W)
    (he : ToolTxn.transaction alloc mem ctx input (tr.map (·.2) ++ left) = .ok (tr, .done e left)) (rest : List Resp) :
    overReader alloc mem ctx input (us ++ rest) = .ok (ls, .done tr e rest) ∧
    drive (ToolTxn.transaction alloc mem ctx input) .tpdu ((us' ++ rest).length + 1) [] (us' ++ rest) =
      .ok (ls', .done tr e rest) := by
  refine ⟨C151_transaction alloc mem ctx input tr us ls h e left he rest, ?_⟩
  have hlen : ∀ {tr us ls}, DeliveredT0 tr us ls → tr.length ≤ us.length := by
    intro tr us ls h
    induction h with
    | nil => exact Nat.le_refl _
    | @cons cmd _ _ _ _ p hp h0 hd hs t ih =>
      have := t0_ne cmd p
      simp only [List.length_cons, List.length_append]
      omega
  have := hlen h'
  exact drive_t0 (ToolTxn.transaction alloc mem ctx input) (online_transaction alloc mem ctx input) e rest tr us' ls' h' []
    _ (by rw [List.length_append]; omega) (online_end _ (online_transaction alloc mem ctx input) tr left e he)

/-! ## Examples -/

/-- The application of `inParts`, as a T=0 card delivers it: the name is asked for, then 61 and GET RESPONSE, twice. -/
example : Parts.FitsT0 (.select false [0xA0, 0, 0, 0, 4]) ⟨none, [([], 9), ([0x6F, 7], 7)], [0x84, 5, 0xA0, 0, 0, 0, 4], 0x90, 0⟩ ∧
    wrapper .tpdu (.select false [0xA0, 0, 0, 0, 4]) [.data [0xA4], .data [0x61, 9], .data [0xC0, 0x6F, 7, 0x61, 7],
        .data [0xC0, 0x84, 5, 0xA0, 0, 0, 0, 4, 0x90, 0]] =
      .ok ([[0, 0xA4, 4, 0, 5], [0xA0, 0, 0, 0, 4], [0, 0xC0, 0, 0, 9], [0, 0xC0, 0, 0, 7]],
        .done ⟨0, [0x6F, 7, 0x84, 5, 0xA0, 0, 0, 0, 4], 0x9000⟩ []) :=
  ⟨⟨⟨by decide, by decide, by decide, by decide⟩, fun _ => ⟨rfl, rfl⟩⟩, by decide +kernel⟩

/-- A record with the right length. -/
example : Parts.FitsT0 (.readRecord 1 2) ⟨some 3, [], [0x70, 1, 0], 0x90, 0⟩ ∧
    wrapper .tpdu (.readRecord 1 2) [.data [0x6C, 3], .data [0xB2, 0x70, 1, 0, 0x90, 0]] =
      .ok ([[0, 0xB2, 2, 0x0C, 0], [0, 0xB2, 2, 0x0C, 3]], .done ⟨0, [0x70, 1, 0], 0x9000⟩ []) :=
  ⟨⟨⟨by decide, by decide, by decide, by decide⟩, fun h => by cases h⟩, by decide +kernel⟩

/-- No directory, in both modes. -/
example : Delivered [(.select false txt!"1PAY.SYS.DDF01", ⟨0, [], 0x6A82⟩)] ([.data [0x6A, 0x82]] ++ [])
      ((apdu (.select false txt!"1PAY.SYS.DDF01") :: []) ++ []) ∧
    DeliveredT0 [(.select false txt!"1PAY.SYS.DDF01", ⟨0, [], 0x6A82⟩)] ([.data [0xA4], .data [0x6A, 0x82]] ++ [])
      ([[0, 0xA4, 4, 0, 14], txt!"1PAY.SYS.DDF01"] ++ []) :=
  ⟨.cons ⟨none, [], [], 0x6A, 0x82⟩ ⟨by decide, by decide, by decide, by decide⟩ rfl rfl rfl .nil,
   .cons ⟨none, [], [], 0x6A, 0x82⟩ ⟨⟨by decide, by decide, by decide, by decide⟩, fun _ => ⟨rfl, rfl⟩⟩ rfl rfl rfl .nil⟩

end Verif.Stack
