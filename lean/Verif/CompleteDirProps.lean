import Verif.CompleteProps
import Verif.DirectoryProps

/-!
# C149: a proper card with a directory is read completely
-/

set_option autoImplicit false

namespace Verif.Search
open Verif Ber BerSpec TlvParse App Tal Fields Emv

/-- **C149** (directory).  A card with a directory that lists a good application which the terminal supports, whatever else
it lists.  The directory is read record by record up to the last, the application is among the candidates, and when it is
chosen the transaction ends with all its data: nothing else is sent. -/
theorem C149_directory (ctx : Ctx) (fci : Forest) (hfci : fci.WF) (sfi : Byte) (hsf : 1 ≤ sfi.toNat ∧ sfi.toNat ≤ 30)
    (hsfi : field 0x88 fci.leaves = some [sfi]) (records : List Record) (hr : ∀ r ∈ records, r.WF) (last : W)
    (hl0 : last.code = 0) (hl1 : last.sw = 0x6A83) (m : CardApp) (hm : m.WF) (hb : m.blocked = false)
    (hlisted : ∃ r ∈ records, ∃ e ∈ r.entries, e.aid = m.name) (hmatch : Matches m.name ctx.supported)
    (data : Option (List Byte)) (g : W) (opts : List Tlv) (tr : List (Cmd × W)) (fs : List Tlv)
    (h : Good ctx m data g opts tr fs) (mem : Nat → List Byte) (hmem : ∀ k, (mem k).length = 255) (w : W)
    (hw : Answer (some m) w) (rest : List W) :
    ∃ (apps : List App) (tr0 : List (Cmd × W)),
      tr0.map (·.1) = .select false txt!"1PAY.SYS.DDF01" :: (List.range (records.length + 1)).map
        (fun k => .readRecord sfi (UInt8.ofNat (k + 1))) ∧
      tr0.map (·.2) = ⟨0, fci.enc, 0x9000⟩ :: (records.map (fun r => ⟨0, r.enc, 0x9000⟩) ++ [last]) ∧
      (∃ i : Nat, ∃ a : App, apps[i]? = some a ∧ a.aid.value = m.name) ∧
      ∀ (i : Nat) (a : App) input input' bad, apps[i]? = some a → a.aid.value = m.name →
        ToolTxn.pick (ToolTxn.required apps) apps input = .ok (.index i input', bad) →
        ∃ e, ToolTxn.transaction allocOk mem ctx input (tr0.map (·.2) ++ (w :: g :: (tr.map (·.2) ++ rest))) =
          .ok (tr0 ++ ((.select false m.name, w) :: (.gpo data, g) :: tr), .done e rest) ∧
          e.how = .done ∧ e.input = input' ∧ e.ctx.icc = m.body.leaves ++ opts ++ fs ∧
          e.ctx.terminal = terminalData 5 m.name := by
  obtain ⟨tr0, new, hp, hnew⟩ := C32_pse_exact ctx.supported [] fci hfci sfi hsf hsfi records hr last hl0 hl1
    (w :: g :: (tr.map (·.2) ++ rest))
  rw [List.nil_append] at hp
  obtain ⟨hscript, ⟨s, hcmds⟩, -⟩ := C33_order ctx.supported [] _ tr0 0 new _ hp
  have hsnd : tr0.map (·.2) = ⟨0, fci.enc, 0x9000⟩ :: (records.map (fun r => ⟨0, r.enc, 0x9000⟩) ++ [last]) := by
    have : (⟨0, fci.enc, 0x9000⟩ :: (records.map (fun r => (⟨0, r.enc, 0x9000⟩ : W)) ++ [last])) ++
        (w :: g :: (tr.map (·.2) ++ rest)) = tr0.map (·.2) ++ (w :: g :: (tr.map (·.2) ++ rest)) := by
      rw [← hscript]
      simp
    exact (List.append_cancel_right this).symm
  have hlen : tr0.length = records.length + 2 := by
    have := congrArg List.length hsnd
    simpa using this
  rw [hlen] at hcmds
  have hs : s = sfi := by
    have hmem : (Cmd.readRecord s 1) ∈ tr0.map (·.1) := by
      rw [hcmds]
      simp [numbered, List.range_succ_eq_map]
    obtain ⟨x, hx, he⟩ := List.mem_map.1 hmem
    obtain ⟨c, v⟩ := x
    subst he
    obtain ⟨-, -, w0, more, h1, -, -, h2⟩ := C33_file ctx.supported [] _ tr0 _ hp s 1 v hx
    cases h1
    have := h2 fci hfci rfl
    rw [hsfi] at this
    cases this
    rfl
  subst hs
  have hin : ∃ a ∈ new, a.aid.value = m.name := by
    obtain ⟨r, hr, e, he, hn⟩ := hlisted
    have : (e.aid, e.body.leaves) ∈ new.map (fun a => (a.aid.value, a.tlvs)) := by
      rw [hnew]
      exact List.mem_map.2 ⟨e, List.mem_filter.2 ⟨List.mem_flatMap.2 ⟨r, hr, he⟩,
        decide_eq_true (by rw [hn]; exact hmatch)⟩, rfl⟩
    obtain ⟨a, ha, hk⟩ := List.mem_map.1 this
    exact ⟨a, ha, by rw [← hn]; exact congrArg (·.1) hk⟩
  have hne : new.isEmpty = false := by
    obtain ⟨a, ha, -⟩ := hin
    cases new with
    | nil => cases ha
    | cons => rfl
  have hbuild : Emv.build ctx.supported [] (tr0.map (·.2) ++ (w :: g :: (tr.map (·.2) ++ rest))) =
      .ok (tr0, .done (0, sortApps new) (w :: g :: (tr.map (·.2) ++ rest))) := by
    rw [← hscript]
    unfold Emv.build andThen
    rw [hp]
    simp only [bind_ok]
    rw [if_neg (by omega), if_neg (by simp [hne])]
    simp [Emv.finish, hne, fin, bind_ok]
  refine ⟨sortApps new, tr0, ?_, hsnd, ?_, ?_⟩
  · rw [hcmds]
    have e : pseName = txt!"1PAY.SYS.DDF01" := by decide +kernel
    rw [e, numbered]
    congr 2
    funext k
    rw [show (1 : Byte).toNat = 1 from rfl, Nat.add_comm]
  · obtain ⟨a, ha, hn⟩ := hin
    have : a ∈ sortApps new := (LL.bySort_perm _ _).mem_iff.2 ha
    obtain ⟨i, hi⟩ := List.mem_iff_getElem?.1 this
    exact ⟨i, a, hi, hn⟩
  · intro i a input input' bad ha hn hpick
    obtain ⟨e, out, h1, h2, h3, h4, h5, -⟩ := C149_tool ctx m hm hb data g opts tr fs h mem hmem (sortApps new) i bad a
      ha hn w hw _ rest tr0 hbuild input input' hpick
    exact ⟨e, h1, h2, h3, h4, h5⟩

/-! ## Examples -/

/-- The directory `pages` lists the application of `plain_good` and two others. -/
example : (∃ r ∈ pages, ∃ e ∈ r.entries, e.aid = (plain [0xA0, 0, 0, 0, 3, 0x10, 0x10] false).name) ∧
    Matches (plain [0xA0, 0, 0, 0, 3, 0x10, 0x10] false).name [⟨0x9F06, 1, [0xA0, 0, 0, 0, 3]⟩] ∧
    ∃ data g opts tr fs, Good { Ctx.init with supported := [⟨0x9F06, 1, [0xA0, 0, 0, 0, 3]⟩] }
      (plain [0xA0, 0, 0, 0, 3, 0x10, 0x10] false) data g opts tr fs := by
  refine ⟨⟨_, List.mem_cons_of_mem _ (List.mem_cons_self ..), _, List.mem_cons_self .., ?_⟩,
    ⟨_, List.mem_cons_self .., .inr ⟨rfl, ?_⟩⟩, _, _, _, _, _, plain_good _⟩
  · simp [listed, Entry.aid, Forest.leaves, field, beNat, plain]
  · simp [plain, List.cons_prefix_cons]

end Verif.Search
