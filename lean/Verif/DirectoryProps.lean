import Verif.TalSelectProps

/-! # Which file is the directory, and what names are made of (C33, C37) -/

set_option autoImplicit false

namespace Verif.Tal
open Verif Ber TlvParse App

/-- **C33** (file).  The file whose records are read is the one the payment system environment
names in field 88, of one byte from 1 to 30. -/
theorem C33_file (supported : List Tlv) (apps : List App) (script : List W)
    (tr : List (Cmd × W)) (o : Out (Int × List App))
    (h : readPse supported apps script = .ok (tr, o)) (sfi rc : Byte) (w : W)
    (hx : (.readRecord sfi rc, w) ∈ tr) :
    1 ≤ sfi.toNat ∧ sfi.toNat ≤ 30 ∧ ∃ w0 more, script = w0 :: more ∧ w0.code = 0 ∧ w0.sw = 0x9000 ∧
      ∀ fci : Forest, fci.WF → w0.data = fci.enc → field 0x88 fci.leaves = some [sfi] := by
  rcases readPse_cases supported apps script with ⟨o', h1, -, -⟩ | ⟨w0, rest, code, apps', rfl, h2, -, -⟩ |
    ⟨w0, rest, pse, sfi', rfl, h1, h2, ⟨r, h3⟩, h4, h5, h6⟩
  · rw [h1] at h
    cases h
    cases hx
  · rw [h2] at h
    cases h
    simp at hx
  · have hs : sfi = sfi' := by
      have hp := pseLoop_spec pse supported sfi' h5 rest 1 apps
      rw [h6] at h
      generalize pseLoop pse supported sfi' rest 1 apps = x at hp h
      have key : ∀ (t : List (Cmd × W)) (m : List Cmd) n k, t.map (·.1) ++ m = numbered sfi' n k →
          tr = (.select false pseName, w0) :: t → sfi = sfi' := by
        intro t m n k hm ht
        rw [ht] at hx
        rcases List.mem_cons.mp hx with hx | hx
        · cases hx
        · have : (Cmd.readRecord sfi rc) ∈ t.map (·.1) ++ m :=
            List.mem_append_left _ (List.mem_map.mpr ⟨_, hx, rfl⟩)
          rw [hm] at this
          unfold numbered at this
          obtain ⟨i, -, hi⟩ := List.mem_map.mp this
          cases hi
          rfl
      match x, hp, h with
      | .ok (t, .pending c), hp, h =>
        simp only [log, bind_ok, Except.ok.injEq, Prod.mk.injEq] at h
        exact key t [c] _ _ hp.2.1 h.1.symm
      | .ok (t, .done (code, apps') rest'), ⟨a1, a2, _⟩, h =>
        simp only [log, bind_ok, Except.ok.injEq, Prod.mk.injEq] at h
        exact key t [] _ _ (by rw [List.append_nil]; exact a2) h.1.symm
    subst hs
    refine ⟨?_, ?_, w0, rest, rfl, h1, h2, ?_⟩
    · simp [refusesSfi] at h5; omega
    · simp [refusesSfi] at h5; omega
    · intro fci hf he
      rw [he, C05_parse_leaves fci hf []] at h3
      cases h3
      simpa using h4

/-- A card whose environment names file 2 is asked for a record of file 2. -/
example : ∃ w, readPse [] [] [⟨0, [0x6F, 0x05, 0xA5, 0x03, 0x88, 0x01, 0x02], 0x9000⟩, w] =
    .ok ([(.select false pseName, ⟨0, [0x6F, 0x05, 0xA5, 0x03, 0x88, 0x01, 0x02], 0x9000⟩),
      (.readRecord 2 1, w)], .done (0, []) []) := ⟨⟨0, [], 0x6A83⟩, by decide +kernel⟩

end Verif.Tal

namespace Verif.App
open Verif Ber TlvParse Formats

theorem utf8_alnum (cs : List Byte) (h : ∀ c ∈ cs, AlnumSpace c) : Iso8859.utf8 cs = cs := by
  induction cs with
  | nil => rfl
  | cons c cs ih =>
    have h1 : ∀ c : Byte, AlnumSpace c → String.utf8EncodeChar (Char.ofNat c.toNat) = [c] := by
      decide +kernel
    have := ih (fun c hc => h c (by simp [hc]))
    unfold Iso8859.utf8 at *
    rw [List.flatMap_cons, this, h1 c (h c (by simp))]
    rfl

/-- **C37** (printable).  The display name is the UTF-8 form of characters of which none is a
control character. -/
theorem C37_printable (pse : Option (List Tlv)) (tlvs : List Tlv) (aid : List Byte) :
    ∃ cs : List Byte, (∀ c ∈ cs, (0x20 ≤ c.toNat ∧ c.toNat ≤ 0x7E) ∨ 0xA0 ≤ c.toNat) ∧
      shown pse tlvs aid = Iso8859.utf8 cs := by
  have hal : ∀ c : Byte, AlnumSpace c → (0x20 ≤ c.toNat ∧ c.toNat ≤ 0x7E) ∨ 0xA0 ≤ c.toNat := by
    decide +kernel
  have hlow : ∃ cs : List Byte, (∀ c ∈ cs, (0x20 ≤ c.toNat ∧ c.toNat ≤ 0x7E) ∨ 0xA0 ≤ c.toNat) ∧
      (match field 0x50 tlvs with
        | some v => (v.filter (fun b => decide (AlnumSpace b))).take 32
        | none => (hexOf aid).take 32) = Iso8859.utf8 cs := by
    have key : ∀ cs : List Byte, (∀ c ∈ cs, AlnumSpace c) →
        ∃ cs' : List Byte, (∀ c ∈ cs', (0x20 ≤ c.toNat ∧ c.toNat ≤ 0x7E) ∨ 0xA0 ≤ c.toNat) ∧
          cs = Iso8859.utf8 cs' :=
      fun cs h => ⟨cs, fun c hc => hal c (h c hc), (utf8_alnum cs h).symm⟩
    split
    · refine key _ fun c hc => ?_
      have := List.mem_of_mem_take hc
      rw [List.mem_filter] at this
      exact of_decide_eq_true this.2
    · refine key _ fun c hc => ?_
      have hm := List.mem_of_mem_take hc
      unfold hexOf at hm
      obtain ⟨d, hd, rfl⟩ := List.mem_map.mp hm
      have hlt : d < 16 := by
        clear hm hc
        induction aid with
        | nil => cases hd
        | cons b bs ih =>
          have := b.toNat_lt
          simp only [nibbles, List.mem_cons] at hd
          rcases hd with rfl | rfl | hd
          · omega
          · omega
          · exact ih hd
      have : ∀ d : Fin 16, AlnumSpace (hexAlphabet.getD d.val 0) := by decide +kernel
      exact this ⟨d, hlt⟩
  unfold shown
  split
  · rename_i c s hs
    split at hs
    · cases hf : field 0x9F12 tlvs with
      | none => rw [hf] at hs; cases hs
      | some v =>
        rw [hf] at hs
        simp only [Option.map_some, Option.some.injEq] at hs
        refine ⟨(v.filter (fun b => decide (Printable8859 b))).take 16, ?_, hs.symm⟩
        intro c hc
        have := List.mem_of_mem_take hc
        rw [List.mem_filter] at this
        have := of_decide_eq_true this.2
        unfold Printable8859 at this
        omega
    · cases hs
  · exact hlow

/-- A preferred name with a control character and an accented letter. -/
example : shown none [⟨0x9F11, 0, [1]⟩, ⟨0x9F12, 0, [0x43, 0x07, 0xE9]⟩] [] =
    Iso8859.utf8 [0x43, 0xE9] := by decide +kernel

end Verif.App
