import Verif.TwoWaysProps
import Verif.EmvHistoryProps
import Verif.EmvReadProps
import Verif.ToolTxn
import Verif.Text

/-!
# C149: a proper card is read completely

The card is the one of C147.  One of its applications also answers GET PROCESSING OPTIONS and READ RECORD properly.
-/

set_option autoImplicit false

namespace Verif.Search
open Verif Ber BerSpec TlvParse App Tal Fields Emv Dol

/-! ## Specification -/

/-- An answer to GET PROCESSING OPTIONS with the fields `fs`, in format 1 or 2. -/
def Offers (g : W) (fs : List Tlv) : Prop :=
  g.code = 0 ∧ g.sw = 0x9000 ∧
  ((∃ aip afl len junk, aip.length = 2 ∧ afl.length % 4 = 0 ∧ 4 ≤ afl.length ∧ LenOctets (aip ++ afl).length len ∧
      g.data = [0x80] ++ len ++ (aip ++ afl) ++ junk ∧ fs = [⟨0x82, 0, aip⟩, ⟨0x94, 0, afl⟩]) ∨
   (∃ (f : Forest) (len junk aip afl : List Byte), f.WF ∧ LenOctets f.enc.length len ∧
      field 0x82 f.leaves = some aip ∧ field 0x94 f.leaves = some afl ∧
      g.data = [0x77] ++ len ++ f.enc ++ junk ∧ fs = f.leaves))

/-- The application `m` answers `g` to GET PROCESSING OPTIONS with what it asks for, `data`, and the exchanges `tr` are
reading the records of its AFL, which have the fields `fs`; all as EMV wants it, and the file control information has no AFL. -/
structure Good (ctx : Ctx) (m : CardApp) (data : Option (List Byte)) (g : W) (opts : List Tlv) (tr : List (Cmd × W))
    (fs : List Tlv) : Prop where
  name : 5 ≤ m.name.length ∧ m.name.length ≤ 16
  pdol : Requested ctx (terminalData 5 m.name) m.body.leaves data
  short : ∀ v, field 0x9F38 m.body.leaves = some v → v.length ≤ 255
  options : Offers g opts
  noAfl : field 0x94 m.body.leaves = none
  records : ∃ es, (∀ e ∈ es, AflEntry.WF e) ∧ es ≠ [] ∧ es.length ≤ 63 ∧ Bounded es ∧
    field 0x94 opts = some (encAfl es) ∧ tr.map (·.1) = commands es
  answers : Answered tr fs
  enough : Sufficient fs

/-! ## Lemmas -/

theorem offers_gpo {g : W} {fs : List Tlv} (h : Offers g fs) (data : Option (List Byte)) (hd : refusesGpo data = false)
    (rest : List W) : ∃ x y, gpo allocOk data [] (g :: rest) = .ok ([(.gpo data, g)], .done ⟨0, fs, x, y⟩ rest) := by
  obtain ⟨code, gd, sw⟩ := g
  obtain ⟨h0, h1, h⟩ := h
  change code = 0 at h0
  change sw = 0x9000 at h1
  subst h0 h1
  have hpar : ¬ badGpo data = true := by
    cases data with
    | none => simp [badGpo]
    | some d => simp [refusesGpo] at hd; simp [badGpo]; omega
  rcases h with ⟨aip, afl, len, junk, a1, a2, a3, a4, a5, a6⟩ | ⟨f, len, junk, aip, afl, a1, a2, a3, a4, a5, a6⟩
  · change gd = _ at a5
    subst a5 a6
    refine ⟨.field ⟨0x82, 0, aip⟩, .field ⟨0x94, 0, afl⟩, ?_⟩
    unfold gpo
    rw [if_neg hpar]
    unfold send
    rw [hd]
    simp only [Bool.false_eq_true, if_false]
    rw [if_neg (by simp), if_neg (by simp)]
    unfold gpoFields
    rw [decode_enc (t := [0x80]) (Or.inl ⟨by decide, rfl⟩) a4 junk]
    simp only [bind_ok]
    rw [if_pos (by decide), if_neg (by simp; omega), slice_eq (by simp; omega), slice_eq (by simp; omega)]
    have e1 : ((aip ++ afl).drop 0).take 2 = aip := by rw [List.drop_zero, ← a1, List.take_left]
    have e2 : ((aip ++ afl).drop 2).take ((aip ++ afl).length - 2) = afl := by
      rw [← a1, List.drop_left, List.length_append, Nat.add_sub_cancel_left, List.take_length]
    rw [e1, e2]
    rfl
  · change gd = _ at a5
    subst a5 a6
    exact ⟨_, _, gpo_format2 data hd [] rest aip afl f a1 len junk a2 a3 a4⟩

theorem initiated (buf : List Byte) (ctx : Ctx) (s : Sel) (hs : ctx.selected = some s)
    (ho : s.aid = .own) (data : Option (List Byte)) (pos : Byte)
    (hdata : Requested ctx (terminalData pos s.app.aid.value) s.app.tlvs data)
    (hlen : ∀ v, field 0x9F38 s.app.tlvs = some v → v.length < 2 ^ 24) (hbuf : buf.length = 255) (g : W)
    (fs : List Tlv) (hg : Offers g fs) (rest : List W) :
    initiate allocOk buf ctx pos (g :: rest) = .ok ([(.gpo data, g)],
        .done (0, ⟨ctx.config, ctx.supported, ctx.params, some ⟨{ s.app with tlvs := [] }, .icc⟩,
          s.app.tlvs ++ fs, terminalData pos s.app.aid.value⟩) rest) := by
  obtain ⟨cfg, sup, par, sel, icc, term⟩ := ctx
  change sel = some s at hs
  subst hs
  have hclr : Ctx.clearIcc ⟨cfg, sup, par, some s, icc, term⟩ = ⟨cfg, sup, par, some s, [], term⟩ := by
    simp [Ctx.clearIcc, ho]
  have hd : gpoData buf [par, cfg, terminalData pos s.app.aid.value] s.app.tlvs = .ok (.ok data) ∧
      refusesGpo data = false := by
    rcases hdata with ⟨h1, rfl⟩ | ⟨rs, h1, h2, h3, h4, rfl⟩
    · refine ⟨?_, rfl⟩
      rw [← find_field] at h1
      cases hfd : find s.app.tlvs 0x9F38 with
      | none => simp [gpoData, hfd]
      | some t => rw [hfd] at h1; cases h1
    · refine ⟨gpoData_valid buf hbuf _ (by simp) s.app.tlvs rs h1 h2 h3 (hlen _ h3) h4, ?_⟩
      exact (template83_accepted (by rw [dolData_length]; exact h4)).2
  obtain ⟨x, y, hgpo⟩ := offers_gpo hg data hd.2 rest
  unfold initiate
  simp only [hclr]
  rw [if_neg (by simp [allocOk]), if_neg (by simp [ho])]
  rcases pushAll_spec allocOk (terminalData pos s.app.aid.value) [] with hp | ⟨⟨l, t, h⟩, -⟩
  · rw [hp]
    simp only [Bool.not_true, Bool.false_eq_true, if_false, List.nil_append, hd.1, bind_ok]
    rw [hgpo]
    rfl
  · cases h

theorem field_append_none {tag : Nat} {a b : List Tlv} (h : field tag a = none) : field tag (a ++ b) = field tag b := by
  unfold field at h ⊢
  rw [List.filter_append]
  cases hf : a.filter (fun t => decide (t.tag = tag)) with
  | nil => rfl
  | cons t l => rw [hf] at h; cases h

/-- What the card answers after the search does not matter to it. -/
theorem findApps_then : ∀ (script : List W) (aids : List Tlv) (first : Bool) (apps : List App) (tr : List (Cmd × W))
    (a : Int × List App) (rest : List W), findApps script aids first apps = .ok (tr, .done a rest) →
    ∀ rest', findApps (tr.map (·.2) ++ rest') aids first apps = .ok (tr, .done a rest') := by
  intro script
  induction script with
  | nil =>
    intro aids first apps tr a rest h rest'
    cases aids with
    | nil => unfold findApps at h ⊢; cases h; rfl
    | cons t aids =>
      unfold findApps at h
      by_cases hr : refusesName t.value = true
      · rw [if_pos hr] at h
        cases h
        unfold findApps
        rw [if_pos hr]
        rfl
      · rw [if_neg hr] at h
        cases h
  | cons w script ih =>
    intro aids first apps tr a rest h rest'
    cases aids with
    | nil => unfold findApps at h ⊢; cases h; rfl
    | cons t aids =>
      unfold findApps at h
      by_cases hr : refusesName t.value = true
      · rw [if_pos hr] at h
        cases h
        unfold findApps
        rw [if_pos hr]
        rfl
      · rw [if_neg hr] at h
        simp only at h
        obtain ⟨tr', hx, htr⟩ := log_inv h
        subst htr
        rw [List.map_cons, List.cons_append]
        conv => lhs; unfold findApps
        rw [if_neg hr]
        simp only
        suffices hs : ∀ y : C (Run (Int × List App)), y = .ok (tr', .done a rest') →
            log (.select (!first) t.value) w y = .ok ((.select (!first) t.value, w) :: tr', .done a rest') by
          apply hs
          by_cases c1 : w.code ≠ 0
          · rw [if_pos c1] at hx ⊢; cases hx; rfl
          rw [if_neg c1] at hx ⊢
          by_cases c2 : first = true ∧ w.sw = 0x6A81
          · rw [if_pos c2] at hx ⊢; cases hx; rfl
          rw [if_neg c2] at hx ⊢
          by_cases c3 : w.sw ≠ 0x9000 ∧ w.sw ≠ 0x6283
          · rw [if_pos c3] at hx ⊢
            exact ih _ _ _ _ _ _ hx rest'
          rw [if_neg c3] at hx ⊢
          cases hcr : createFromFci w.data with
          | error e => rw [hcr] at hx; cases hx
          | ok o =>
            rw [hcr] at hx
            cases o with
            | none =>
              simp only [bind_ok] at hx ⊢
              exact ih _ _ _ _ _ _ hx rest'
            | some b =>
              simp only [bind_ok] at hx ⊢
              by_cases c4 : t.value.length = b.aid.value.length
              · rw [if_pos c4] at hx ⊢
                exact ih _ _ _ _ _ _ hx rest'
              rw [if_neg c4] at hx ⊢
              by_cases c5 : t.flags = 1
              · rw [if_pos c5] at hx ⊢
                exact ih _ _ _ _ _ _ hx rest'
              · rw [if_neg c5] at hx ⊢
                exact ih _ _ _ _ _ _ hx rest'
        intro y hy
        rw [hy]
        rfl

/-! ## Theorems -/

/-- **C149** (calls).  Selecting, starting and reading a good application of the card succeed, send exactly SELECT, GET
PROCESSING OPTIONS with what the PDOL asks for and READ RECORD for the records of the AFL, and leave the fields of the file
control information, of the options and of the records as ICC data, in this order. -/
theorem C149_calls (ctx : Ctx) (m : CardApp) (hm : m.WF) (hb : m.blocked = false) (data : Option (List Byte)) (g : W)
    (opts : List Tlv) (tr : List (Cmd × W)) (fs : List Tlv) (h : Good ctx m data g opts tr fs) (buf : List Byte)
    (hbuf : buf.length = 255) (apps : List App) (i : Nat) (a : App) (ha : apps[i]? = some a) (hn : a.aid.value = m.name)
    (w : W) (hw : Answer (some m) w) (rest : List W) :
    ∃ ctx1 ctx2 ctx3,
      select ctx apps i (w :: g :: (tr.map (·.2) ++ rest)) =
        .ok ([(.select false m.name, w)], .done (0, apps.eraseIdx i, ctx1) (g :: (tr.map (·.2) ++ rest))) ∧
      ctx1.selected ≠ none ∧
      initiate allocOk buf ctx1 5 (g :: (tr.map (·.2) ++ rest)) =
        .ok ([(.gpo data, g)], .done (0, ctx2) (tr.map (·.2) ++ rest)) ∧
      readData allocOk ctx2 (tr.map (·.2) ++ rest) = .ok (tr, .done (0, ctx3) rest) ∧
      ctx3.config = ctx.config ∧ ctx3.supported = ctx.supported ∧ ctx3.params = ctx.params ∧
      ctx3.icc = m.body.leaves ++ opts ++ fs ∧ ctx3.terminal = terminalData 5 m.name ∧
      ∃ b, ctx3.selected = some ⟨b, .icc⟩ ∧ b.aid.value = m.name := by
  obtain ⟨b, hk, hsel⟩ := select_answer ctx apps i a ha (by rw [hn]; exact h.name) m hm w
    (g :: (tr.map (·.2) ++ rest)) hw (by rw [hn]; exact List.prefix_rfl)
  rw [if_pos ⟨hb, hn⟩, hn] at hsel
  have k1 : b.aid.value = m.name := congrArg (·.1) hk
  have k2 : b.tlvs = m.body.leaves := congrArg (·.2) hk
  have hini := initiated buf { ctx with selected := some ⟨b, .own⟩ } ⟨b, .own⟩ rfl rfl data 5
    (by rw [k1, k2]; exact h.pdol)
    (by rw [k2]; exact fun v hv => Nat.lt_of_le_of_lt (h.short v hv) (by decide)) hbuf g opts h.options
    (tr.map (·.2) ++ rest)
  rw [k1, k2] at hini
  obtain ⟨es, e1, e2, e3, e4, e5, e6⟩ := h.records
  have hread := C40_complete allocOk (fun _ _ => rfl) ⟨ctx.config, ctx.supported, ctx.params,
    some ⟨{ b with tlvs := [] }, .icc⟩, m.body.leaves ++ opts, terminalData 5 m.name⟩ es e1 e2 e3 e4
    (by rw [field_append_none h.noAfl, e5]) tr fs e6 h.answers h.enough rest
  exact ⟨_, _, _, hsel, by simp, hini, hread, rfl, rfl, rfl, rfl, rfl, _, rfl, k1⟩

/-- **C149** (emv-tool).  If the candidate chosen in the first round is a good application of the card, emv-tool ends
with its data: it shows exactly the fields of the file control information, of the options and of the records, in this
order, and the terminal data. -/
theorem C149_tool (ctx : Ctx) (m : CardApp) (hm : m.WF) (hb : m.blocked = false) (data : Option (List Byte)) (g : W)
    (opts : List Tlv) (tr : List (Cmd × W)) (fs : List Tlv) (h : Good ctx m data g opts tr fs) (mem : Nat → List Byte)
    (hmem : ∀ k, (mem k).length = 255) (apps : List App) (i bad : Nat) (a : App) (ha : apps[i]? = some a)
    (hn : a.aid.value = m.name) (w : W) (hw : Answer (some m) w) (script rest : List W) (tr0 : List (Cmd × W))
    (hbuild : build ctx.supported [] script = .ok (tr0, .done (0, apps) (w :: g :: (tr.map (·.2) ++ rest))))
    (input input' : List Byte)
    (hpick : ToolTxn.pick (ToolTxn.required apps) apps input = .ok (.index i input', bad)) :
    ∃ e out, ToolTxn.transaction allocOk mem ctx input script =
        .ok (tr0 ++ ((.select false m.name, w) :: (.gpo data, g) :: tr), .done e rest) ∧
      e.how = .done ∧ e.input = input' ∧
      e.ctx.icc = m.body.leaves ++ opts ++ fs ∧ e.ctx.terminal = terminalData 5 m.name ∧
      e.out = out ++ [.text txt!"\nICC data:\n", .fields (m.body.leaves ++ opts ++ fs),
        .text txt!"\nTerminal data\n", .fields (terminalData 5 m.name)] := by
  obtain ⟨ctx1, ctx2, ctx3, h1, h2, h3, h4, -, -, -, h5, h6, -⟩ := C149_calls ctx m hm hb data g opts tr fs h
    (mem apps.length) (hmem _) apps i a ha hn w hw rest
  unfold ToolTxn.transaction
  simp only [hbuild, andThen, bind_ok]
  rw [if_neg (by simp)]
  unfold ToolTxn.rounds
  simp only [hpick, bind_ok, h1, andThen]
  rw [if_neg (by simp), if_neg (by simp), if_neg h2]
  simp only [h3, bind_ok]
  rw [if_neg (by simp), if_neg (by simp)]
  simp only [fin, bind_ok, if_true, ToolTxn.reading, h4, andThen]
  rw [if_neg (by simp)]
  simp only [bind_ok, h5, h6]
  exact ⟨_, _, congrArg (fun t => Except.ok (t, _)) (by simp), rfl, rfl, h5, h6, rfl⟩

/-- **C149** (card).  Take a card without directory of which the terminal supports one application only, a good one.
Then there are answers of the card to emv-tool, which selects by name as in C147, such that whatever the cardholder
types, once the application is accepted, the transaction ends with its data. -/
theorem C149_card (card : List CardApp) (hc : ∀ m ∈ card, m.WF) (hs : Separate card) (ctx : Ctx)
    (hsup : ∀ t ∈ ctx.supported, 5 ≤ t.value.length ∧ t.value.length ≤ 16) (m : CardApp)
    (hone : (ctx.supported.flatMap fun t => card.filter fun m => Meets t m && !m.blocked) = [m])
    (data : Option (List Byte)) (g : W) (opts : List Tlv) (tr : List (Cmd × W)) (fs : List Tlv)
    (h : Good ctx m data g opts tr fs) (mem : Nat → List Byte) (hmem : ∀ k, (mem k).length = 255) (rest : List W) :
    ∃ (apps : List App) (tr1 : List (Cmd × W)) (w : W),
      Talk card [] (tr1 ++ [(.select false m.name, w)]) ∧
      tr1.length ≤ ctx.supported.length * (card.length + 1) ∧ apps.length = 1 ∧
      ∀ input input' bad, ToolTxn.pick (ToolTxn.required apps) apps input = .ok (.index 0 input', bad) →
        ∃ e, ToolTxn.transaction allocOk mem ctx input
            (⟨0, [], 0x6A82⟩ :: (tr1.map (·.2) ++ (w :: g :: (tr.map (·.2) ++ rest)))) =
          .ok ((.select false txt!"1PAY.SYS.DDF01", ⟨0, [], 0x6A82⟩) :: (tr1 ++
            ((.select false m.name, w) :: (.gpo data, g) :: tr)), .done e rest) ∧
          e.how = .done ∧ e.ctx.icc = m.body.leaves ++ opts ++ fs := by
  have hmc : m ∈ card ∧ m.blocked = false := by
    have : m ∈ ctx.supported.flatMap fun t => card.filter fun m => Meets t m && !m.blocked := by rw [hone]; simp
    obtain ⟨t, -, hm⟩ := List.mem_flatMap.1 this
    obtain ⟨h1, h2⟩ := List.mem_filter.1 hm
    simp only [Bool.and_eq_true, Bool.not_eq_true'] at h2
    exact ⟨h1, h2.2⟩
  obtain ⟨script, tr1, apps, rest1, hf, ht⟩ := C147_ends card hc ctx.supported hsup []
  obtain ⟨-, new, hn, hk⟩ := C147_all_partial card hc hs ctx.supported hsup [] apps script rest1 0 tr1 hf ht
  rw [hone, List.map_singleton] at hk
  have hlen := (C147_commands card hc ctx.supported hsup [] script tr1 _ hf ht).1
  match new, hk, hn with
  | [], hk, _ => cases hk
  | _ :: _ :: _, hk, _ => simp at hk
  | [a], hk, hn =>
    rw [List.nil_append] at hn
    have ha : a.aid.value = m.name := by
      have : (a.aid.value, a.tlvs) = Kept m := by simpa using hk
      exact congrArg (·.1) this
    subst hn
    let w : W := reply (some m)
    have hw : Answer (some m) w := reply_answer _
    refine ⟨[a], tr1, w, ?_, hlen, rfl, ?_⟩
    · -- the card goes on to answer the selection
      have talk_app : ∀ (tr : List (Cmd × W)) (left : List CardApp), Talk card left tr →
          Talk card left (tr ++ [(.select false m.name, w)]) := by
        intro tr
        induction tr with
        | nil =>
          intro left _
          refine ⟨?_, trivial⟩
          rw [if_neg (by simp), find_name hs hmc.1]
          exact hw
        | cons x tr ih =>
          intro left hx
          match x, hx with
          | (.select next name, v), hx => exact ⟨hx.1, ih _ hx.2⟩
      exact talk_app tr1 [] ht
    · intro input input' bad hp
      have hsort : sortApps [a] = [a] := by
        have hperm : (sortApps [a]).Perm [a] := LL.bySort_perm _ _
        exact List.perm_singleton.1 hperm
      have hbuild : Emv.build ctx.supported [] (⟨0, [], 0x6A82⟩ :: (tr1.map (·.2) ++ (w :: g :: (tr.map (·.2) ++ rest)))) =
          .ok ((.select false txt!"1PAY.SYS.DDF01", ⟨0, [], 0x6A82⟩) :: tr1,
            .done (0, [a]) (w :: g :: (tr.map (·.2) ++ rest))) := by
        have hr : ∀ sc, readPse ctx.supported [] (⟨0, [], 0x6A82⟩ :: sc) =
            .ok ([(.select false pseName, ⟨0, [], 0x6A82⟩)], .done (1, []) sc) := fun _ => rfl
        unfold Emv.build andThen
        rw [hr]
        simp only [bind_ok]
        rw [if_neg (by decide), if_pos (by rfl), findApps_then script ctx.supported true [] tr1 _ rest1 hf]
        simp only [bind_ok]
        rw [if_neg (by simp)]
        simp [Emv.finish, fin, hsort]
        rfl
      obtain ⟨e, out, h1, h2, -, h3, -, -⟩ := C149_tool ctx m (hc m hmc.1) hmc.2 data g opts tr fs h mem hmem [a] 0 bad a
        rfl ha w hw _ rest _ hbuild input input' hp
      exact ⟨e, h1, h2, h3⟩

/-! ## Examples -/

/-- The fields of two records: PAN and expiry date, CDOL1 and CDOL2. -/
def record1 : Forest :=
  .leaf ⟨[0x5A], [2], [0x12, 0x34]⟩ (.leaf ⟨[0x5F, 0x24], [3], [0x26, 0x12, 0x31]⟩ .nil)

@[inherit_doc record1]
def record2 : Forest := .leaf ⟨[0x8C], [1], [0x95]⟩ (.leaf ⟨[0x8D], [1], [0x9A]⟩ .nil)

theorem record1_wf : record1.WF :=
  ⟨⟨Or.inl ⟨by decide, rfl⟩, .short 2 (by decide)⟩, by decide,
    ⟨Or.inr ⟨by decide, by decide, [], 0x24, by decide, by decide, by decide⟩, .short 3 (by decide)⟩, by decide, trivial⟩

theorem record2_wf : record2.WF :=
  ⟨⟨Or.inl ⟨by decide, rfl⟩, .short 1 (by decide)⟩, by decide, ⟨Or.inl ⟨by decide, rfl⟩, .short 1 (by decide)⟩, by decide,
    trivial⟩

/-- An application without PDOL, options in format 1, and two records in file 1. -/
theorem plain_good (ctx : Ctx) : Good ctx (plain [0xA0, 0, 0, 0, 3, 0x10, 0x10] false) none
    ⟨0, [0x80, 6, 0x39, 0, 0x08, 1, 2, 0], 0x9000⟩ [⟨0x82, 0, [0x39, 0]⟩, ⟨0x94, 0, [0x08, 1, 2, 0]⟩]
    [(.readRecord 1 1, ⟨0, [0x70, 10] ++ record1.enc, 0x9000⟩), (.readRecord 1 2, ⟨0, [0x70, 6] ++ record2.enc, 0x9000⟩)]
    (record1.leaves ++ record2.leaves) where
  name := by simp [plain]
  pdol := Or.inl ⟨by decide, rfl⟩
  short := fun v hv => absurd (hv.symm.trans (by decide : field 0x9F38 (plain [0xA0, 0, 0, 0, 3, 0x10, 0x10] false).body.leaves
    = none)) (by simp)
  options := ⟨rfl, rfl, Or.inl ⟨[0x39, 0], [0x08, 1, 2, 0], [6], [], rfl, rfl, by decide, .short 6 (by decide), rfl, rfl⟩⟩
  noAfl := by decide
  records := ⟨[⟨1, 1, 2, 0⟩], by decide, by simp, by simp, by simp [Bounded], by decide, by decide⟩
  answers := .cons rfl rfl ⟨[10], record1, record1_wf, .short 10 (by decide), by simp, rfl, rfl⟩
    (.cons (new := record2.leaves) (fs := []) rfl rfl ⟨[6], record2, record2_wf, .short 6 (by decide), by simp, rfl, rfl⟩ .nil)
  enough := ⟨by decide, by decide⟩

/-- A card with it and an application of another issuer. -/
example : ∃ (ctx : Ctx) (card : List CardApp) (m : CardApp), card.length = 2 ∧ (∀ m ∈ card, m.WF) ∧ Separate card ∧
    (∀ t ∈ ctx.supported, 5 ≤ t.value.length ∧ t.value.length ≤ 16) ∧
    (ctx.supported.flatMap fun t => card.filter fun m => Meets t m && !m.blocked) = [m] ∧
    ∃ data g opts tr fs, Good ctx m data g opts tr fs := by
  refine ⟨{ Ctx.init with supported := [⟨0x9F06, 1, [0xA0, 0, 0, 0, 3]⟩] },
    [plain [0xA0, 0, 0, 0, 4, 0x10, 0x10] false, plain [0xA0, 0, 0, 0, 3, 0x10, 0x10] false], _, rfl, ?_, ?_, by simp,
    by rfl, _, _, _, _, _, plain_good _⟩
  · intro m hm
    simp only [List.mem_cons, List.not_mem_nil, or_false] at hm
    rcases hm with rfl | rfl <;> exact plain_wf _ _ (by simp) (by simp)
  · simp [Separate, plain, List.cons_prefix_cons]

end Verif.Search
