import Verif.EmvGpoProps
import Verif.EmvSelectProps
import Verif.EmvReadProps

/-!
# Properties of application initiation and of whole transactions (C41, C63, C64, C65)
-/

set_option autoImplicit false

namespace Verif.Emv
open Verif Ber BerSpec TlvParse App Tal Dol Fields

/-! ## C63: initiation -/

/-- What GET PROCESSING OPTIONS is sent: nothing without PDOL, otherwise the template 83 with the
data the PDOL asks for, taken from the transaction parameters, the configuration and the
terminal data, in this order. -/
def Requested (ctx : Ctx) (terminal fci : List Tlv) (data : Option (List Byte)) : Prop :=
  (field 0x9F38 fci = none ∧ data = none) ∨
  ∃ rs : List Req, (∀ r ∈ rs, r.WF) ∧ rs ≠ [] ∧ field 0x9F38 fci = some (encDol rs) ∧
    sumLen rs ≤ 252 ∧ data = some (template83 (dolData [ctx.params, ctx.config, terminal] rs))

/-- The PDOL is not a list of complete entries or asks for too much. -/
def BadPdol (fci : List Tlv) : Prop :=
  ∃ v, field 0x9F38 fci = some v ∧
    ∀ rs : List Req, (∀ r ∈ rs, r.WF) → v = encDol rs → rs = [] ∨ 252 < sumLen rs

theorem pushAll_spec (alloc : List Tlv → Tlv → Bool) : ∀ (ts list : List Tlv),
    (pushAll alloc list ts = (true, list ++ ts)) ∨
    (∃ l t, alloc l t = false) ∧ ∃ l, pushAll alloc list ts = (false, list ++ l) ∧ l <+: ts := by
  intro ts
  induction ts with
  | nil => intro list; left; simp [pushAll]
  | cons t ts ih =>
    intro list
    unfold pushAll
    by_cases h : alloc list t = true
    · rw [if_pos h]
      rcases ih (list ++ [t]) with h | ⟨h1, l, h2, h3⟩
      · left; rw [h]; simp
      · right
        exact ⟨h1, t :: l, by rw [h2]; simp, List.cons_prefix_cons.mpr ⟨rfl, h3⟩⟩
    · rw [if_neg h]
      right
      exact ⟨⟨list, t, by simpa using h⟩, [], by simp, List.nil_prefix⟩

/-- How initiation ends, for a freshly selected application. -/
def InitPost (alloc : List Tlv → Tlv → Bool) (ctx : Ctx) (s : Sel) (pos : Byte) (script : List W) :
    C (Run (Int × Ctx)) → Prop
  | .error _ => False
  | .ok (tr, .pending c) => tr = [] ∧ script = [] ∧
      ∃ data, c = .gpo data ∧ Requested ctx (terminalData pos s.app.aid.value) s.app.tlvs data
  | .ok (tr, .done (code, ctx') rest) =>
    script = tr.map (·.2) ++ rest ∧
    ctx'.params = ctx.params ∧ ctx'.config = ctx.config ∧ ctx'.supported = ctx.supported ∧
    ((code = 0 ∧ ∃ data w fields, Requested ctx (terminalData pos s.app.aid.value) s.app.tlvs data ∧
        tr = [(.gpo data, w)] ∧ w.code = 0 ∧ w.sw = 0x9000 ∧ Carries w.data fields ∧
        field 0x82 fields ≠ none ∧ field 0x94 fields ≠ none ∧
        ctx'.icc = s.app.tlvs ++ fields ∧ ctx'.terminal = terminalData pos s.app.aid.value ∧
        ctx'.selected = some ⟨{ s.app with tlvs := [] }, .icc⟩) ∨
     (code ≠ 0 ∧ ctx'.icc = [] ∧ ctx'.selected = ctx.selected ∧
        ctx'.terminal <+: terminalData pos s.app.aid.value ∧
        ((code = 1 ∧ tr = [] ∧ BadPdol s.app.tlvs) ∨
         (code = -1 ∧ ∃ l t, alloc l t = false) ∨
         ∃ data w, Requested ctx (terminalData pos s.app.aid.value) s.app.tlvs data ∧
          tr = [(.gpo data, w)] ∧
          ((code = 5 ∧ w.code = 0 ∧ w.sw = 0x6985) ∨
           (code = 1 ∧ ∃ reason, GpoFailing alloc w reason ∧ reason ≠ 13 ∧ reason ≠ -1)))))

/-- **C63.**  For every freshly selected application (PDOL below 2^24 bytes), terminal data and
card, initiation has no undefined behaviour and ends as `InitPost` says: it clears the ICC data,
sends at most one command, GET PROCESSING OPTIONS with exactly the data the PDOL asks for, and
succeeds only on a 9000 answer in one of the two formats with AIP and AFL.  Then the ICC data is
the FCI fields followed by the answer's fields, and the terminal data is the initial one.
Otherwise the ICC data is empty, the application stays selected, and the code tells why:
conditions of use not satisfied (5) exactly for 6985, card error (1), memory (-1). -/
theorem C63_initiate (alloc : List Tlv → Tlv → Bool) (buf : List Byte) (hbuf : buf.length = 255)
    (ctx : Ctx) (s : Sel) (hs : ctx.selected = some s) (ho : s.aid = .own)
    (hlen : ∀ v, field 0x9F38 s.app.tlvs = some v → v.length < 2 ^ 24) (pos : Byte)
    (script : List W) : InitPost alloc ctx s pos script (initiate alloc buf ctx pos script) := by
  obtain ⟨cfg, sup, par, sel, icc, term⟩ := ctx
  change sel = some s at hs
  subst hs
  have hclr : Ctx.clearIcc ⟨cfg, sup, par, some s, icc, term⟩ = ⟨cfg, sup, par, some s, [], term⟩ := by
    simp [Ctx.clearIcc, ho]
  unfold initiate
  simp only [hclr]
  by_cases ha : alloc [] ⟨0x9F39, 0, [pos]⟩ = true
  · rw [if_neg (by simp [ha]), if_neg (by simp [ho])]
    rcases pushAll_spec alloc (terminalData pos s.app.aid.value) [] with hp | ⟨hm, l, hp, hl⟩
    · rw [hp]
      simp only [Bool.not_true, Bool.false_eq_true, if_false, List.nil_append]
      have key : ∀ data, Requested ⟨cfg, sup, par, some s, icc, term⟩ (terminalData pos s.app.aid.value) s.app.tlvs data →
          (∀ d, data = some d → 2 ≤ d.length ∧ d.length ≤ 255 ∧ d.head? = some 0x83) →
          InitPost alloc ⟨cfg, sup, par, some s, icc, term⟩ s pos script (andThen (gpo alloc data [] script) fun g rest =>
              if g.code < 0 then fin (if g.code = -1 ∨ g.code = -2 then -1 else 1,
                (⟨cfg, sup, par, some s, [], terminalData pos s.app.aid.value⟩ : Ctx)) rest
              else if g.code > 0 then fin (if g.code = 13 then 5 else 1,
                (⟨cfg, sup, par, some s, [], terminalData pos s.app.aid.value⟩ : Ctx)) rest
              else fin (0, (⟨cfg, sup, par, some ⟨{ s.app with tlvs := [] }, .icc⟩, s.app.tlvs ++ g.list,
                terminalData pos s.app.aid.value⟩ : Ctx)) rest) := by
        intro data hreq hd
        obtain ⟨r, hr, hp⟩ := gpo_spec alloc data [] script
        rw [hr]
        match r, hp with
        | (tr, .pending c), ⟨h1, h2, h3⟩ => exact ⟨h1, h3, data, h2, hreq⟩
        | (tr, .done g rest), hp =>
          simp only [andThen, bind_ok]
          rcases hp with ⟨-, -, -, -, -, -, d, h1, h2⟩ | ⟨w, rfl, rfl, hq⟩
          · obtain ⟨k1, k2, k3⟩ := hd d h1
            rcases h2 with h | h | h
            · omega
            · omega
            · exact absurd k3 h
          · rcases hq with ⟨h0, h1, h2, fields, a, f, h3, h4, -, -, -, -, -, -, h5, h6⟩ | ⟨hg, -⟩
            · rw [if_neg (by omega), if_neg (by omega)]
              simp only [fin, bind_ok, List.append_nil]
              refine ⟨by simp, rfl, rfl, rfl, Or.inl ⟨rfl, data, w, fields, hreq, rfl, h1, h2, h3, ?_, ?_, ?_, rfl, rfl⟩⟩
              · rw [h5]; simp
              · rw [h6]; simp
              · rw [h4, List.nil_append]
            · have hne : g.code ≠ 0 := by
                rcases hg with ⟨h, -⟩ | ⟨h, -⟩ | ⟨h, -⟩ | ⟨h, -⟩ | ⟨h, -⟩ | ⟨h, -⟩ <;> omega
              have hmem : g.code = -1 → ∃ l t, alloc l t = false := by
                intro e
                rcases hg with ⟨h, -⟩ | ⟨h, -⟩ | ⟨h, -⟩ | ⟨h, -⟩ | ⟨h, -⟩ | ⟨-, h⟩
                all_goals first | exact h | omega
              have h13 : g.code = 13 → w.code = 0 ∧ w.sw = 0x6985 := by
                intro e
                rcases hg with ⟨h, -⟩ | ⟨-, h⟩ | ⟨h, -⟩ | ⟨h, -⟩ | ⟨h, -⟩ | ⟨h, -⟩
                all_goals first | exact h | omega
              have h2 : g.code ≠ -2 := by
                rcases hg with ⟨h, -⟩ | ⟨h, -⟩ | ⟨h, -⟩ | ⟨h, -⟩ | ⟨h, -⟩ | ⟨h, -⟩ <;> omega
              by_cases hneg : g.code < 0
              · rw [if_pos hneg]
                simp only [fin, bind_ok, List.append_nil]
                refine ⟨by simp, rfl, rfl, rfl, Or.inr ⟨by split <;> decide, rfl, rfl, List.prefix_refl _, ?_⟩⟩
                by_cases e : g.code = -1
                · exact Or.inr (Or.inl ⟨by simp [e], hmem e⟩)
                · exact Or.inr (Or.inr ⟨data, w, hreq, rfl, Or.inr ⟨by simp [e, h2], g.code, hg, by omega, e⟩⟩)
              · rw [if_neg hneg, if_pos (by omega)]
                simp only [fin, bind_ok, List.append_nil]
                refine ⟨by simp, rfl, rfl, rfl, Or.inr ⟨by split <;> decide, rfl, rfl, List.prefix_refl _, ?_⟩⟩
                refine Or.inr (Or.inr ⟨data, w, hreq, rfl, ?_⟩)
                by_cases e : g.code = 13
                · exact Or.inl ⟨by simp [e], h13 e⟩
                · exact Or.inr ⟨by simp [e], g.code, hg, e, by omega⟩
      rcases C17_gpo_data buf hbuf [par, cfg, terminalData pos s.app.aid.value]
          (by simp) s.app.tlvs hlen with ⟨h1, h2⟩ | ⟨v, h1, h2, h3⟩ | ⟨rs, h1, h2, h3, h4, h5, h6, h7, h8⟩
      · simp only [h2, bind_ok]
        exact key none (Or.inl ⟨h1, rfl⟩) (by simp)
      · simp only [h2, bind_ok, fin]
        exact ⟨by simp, rfl, rfl, rfl, Or.inr ⟨by decide, rfl, rfl, List.prefix_refl _, Or.inl ⟨rfl, rfl, v, h1, h3⟩⟩⟩
      · simp only [h5, bind_ok]
        refine key _ (Or.inr ⟨rs, h1, h2, h3, h4, rfl⟩) ?_
        intro d hd
        cases hd
        have := template83_length (data := dolData [par, cfg, terminalData pos s.app.aid.value] rs)
          (by rw [dolData_length]; exact h4)
        exact ⟨this.1, this.2, by simp [template83]⟩
    · rw [hp]
      simp only [Bool.not_false, if_true, List.nil_append, fin]
      exact ⟨by simp, rfl, rfl, rfl, Or.inr ⟨by decide, rfl, rfl, hl, Or.inr (Or.inl ⟨rfl, hm⟩)⟩⟩
  · rw [if_pos (by simp [ha])]
    exact ⟨by simp, rfl, rfl, rfl, Or.inr ⟨by decide, rfl, rfl, List.nil_prefix, Or.inr (Or.inl ⟨rfl, _, _, by simpa using ha⟩)⟩⟩

/-- **C63** (completeness).  A selected application with a proper PDOL, or none, whose card answers
GET PROCESSING OPTIONS in format 2 (definite lengths) with AIP and AFL is initiated. -/
theorem C63_complete (buf : List Byte) (ctx : Ctx) (s : Sel) (hs : ctx.selected = some s)
    (ho : s.aid = .own) (data : Option (List Byte)) (pos : Byte)
    (hdata : Requested ctx (terminalData pos s.app.aid.value) s.app.tlvs data)
    (hlen : ∀ v, field 0x9F38 s.app.tlvs = some v → v.length < 2 ^ 24) (hbuf : buf.length = 255)
    (g : Forest) (hg : g.WF) (len junk aip afl : List Byte) (hl : LenOctets g.enc.length len)
    (ha : field 0x82 g.leaves = some aip) (hf : field 0x94 g.leaves = some afl) (rest : List W) :
    initiate allocOk buf ctx pos (⟨0, [0x77] ++ len ++ g.enc ++ junk, 0x9000⟩ :: rest) =
      .ok ([(.gpo data, ⟨0, [0x77] ++ len ++ g.enc ++ junk, 0x9000⟩)],
        .done (0, ⟨ctx.config, ctx.supported, ctx.params, some ⟨{ s.app with tlvs := [] }, .icc⟩,
          s.app.tlvs ++ g.leaves, terminalData pos s.app.aid.value⟩) rest) := by
  have hgpo : ∀ d, refusesGpo d = false → gpo allocOk d [] (⟨0, [0x77] ++ len ++ g.enc ++ junk, 0x9000⟩ :: rest) =
      .ok ([(.gpo d, ⟨0, [0x77] ++ len ++ g.enc ++ junk, 0x9000⟩)],
        .done ⟨0, [] ++ g.leaves, .field ⟨0x82, 0, aip⟩, .field ⟨0x94, 0, afl⟩⟩ rest) :=
    fun d hd => gpo_format2 d hd [] rest aip afl g hg len junk hl ha hf
  obtain ⟨cfg, sup, par, sel, icc, term⟩ := ctx
  change sel = some s at hs
  subst hs
  have hclr : Ctx.clearIcc ⟨cfg, sup, par, some s, icc, term⟩ = ⟨cfg, sup, par, some s, [], term⟩ := by
    simp [Ctx.clearIcc, ho]
  have hd : gpoData buf [par, cfg, terminalData pos s.app.aid.value] s.app.tlvs = .ok (.ok data) ∧
      refusesGpo data = false := by
    rcases hdata with ⟨h1, rfl⟩ | ⟨rs, h1, h2, h3, h4, rfl⟩
    · refine ⟨?_, rfl⟩
      rw [← find_field] at h1
      cases hfd : find s.app.tlvs 0x9F38 with
      | none => simp [gpoData, hfd]
      | some t => rw [hfd] at h1; cases h1
    · refine ⟨gpoData_valid buf hbuf _ (by simp) s.app.tlvs rs h1 h2 h3 (hlen _ h3) h4, ?_⟩
      exact (template83_accepted (by rw [dolData_length]; exact h4)).2
  unfold initiate
  simp only [hclr]
  rw [if_neg (by simp [allocOk]), if_neg (by simp [ho])]
  rcases pushAll_spec allocOk (terminalData pos s.app.aid.value) [] with hp | ⟨⟨l, t, h⟩, -⟩
  · rw [hp]
    simp only [Bool.not_true, Bool.false_eq_true, if_false, List.nil_append, hd.1, bind_ok]
    rw [hgpo data hd.2]
    rfl
  · cases h

/-- Without PDOL, format 2. -/
example :
    let app : App := ⟨⟨0x84, 0, [0xA0, 0, 0, 0, 3]⟩, [], 1, false, [⟨0x84, 0, [0xA0, 0, 0, 0, 3]⟩]⟩
    let ctx : Ctx := { Ctx.init with selected := some ⟨app, .own⟩ }
    (initiate allocOk (List.replicate 255 0) ctx 5
      [⟨0, [0x77, 0x0A, 0x82, 0x02, 0x39, 0, 0x94, 4, 8, 1, 1, 0], 0x9000⟩]).toOption.map
      (fun r => match r.2 with
        | .done (c, x) _ => (c, x.icc.map (·.tag), x.terminal.map (·.tag)) | _ => (9, [], [])) =
    some (0, [0x84, 0x82, 0x94], [0x9F39, 0x9F06, 0x9B, 0x95]) := by decide +kernel

/-- **C63** (terminal data).  A successful initiation leaves exactly four terminal fields: the POS
entry mode that was passed in, the identifier of the selected application, and zero transaction
status information and verification results. -/
theorem C63_terminal_data (alloc : List Tlv → Tlv → Bool) (buf : List Byte)
    (hbuf : buf.length = 255) (ctx ctx' : Ctx) (s : Sel) (hs : ctx.selected = some s)
    (ho : s.aid = .own) (hlen : ∀ v, field 0x9F38 s.app.tlvs = some v → v.length < 2 ^ 24)
    (pos : Byte) (script rest : List W) (tr : List (Cmd × W))
    (h : initiate alloc buf ctx pos script = .ok (tr, .done (0, ctx') rest)) :
    field 0x9F39 ctx'.terminal = some [pos] ∧ field 0x9F06 ctx'.terminal = some s.app.aid.value ∧
    field 0x9B ctx'.terminal = some [0, 0] ∧ field 0x95 ctx'.terminal = some [0, 0, 0, 0, 0] ∧
    ctx'.terminal.length = 4 := by
  have hp := C63_initiate alloc buf hbuf ctx s hs ho hlen pos script
  rw [h] at hp
  obtain ⟨-, -, -, -, ⟨-, _, _, _, -, -, -, -, -, -, -, -, ht, -⟩ | ⟨hn, -⟩⟩ := hp
  · rw [ht]
    exact ⟨rfl, rfl, rfl, rfl, rfl⟩
  · exact absurd rfl hn

/-! ## C41, C65: histories -/

/-- **C41** (reset).  Whatever happened before, after `emv_ctx_reset` the context is a new one with
the same configuration and supported applications: no parameters, ICC data, terminal data or
selected application are left; after `emv_ctx_clear` it is a new one. -/
theorem C41_reset (c : Ctx) :
    (c.reset.config = c.config ∧ c.reset.supported = c.supported ∧ c.reset.params = [] ∧
      c.reset.icc = [] ∧ c.reset.terminal = [] ∧ c.reset.selected = none) ∧
    (c.clear.config = [] ∧ c.clear.supported = [] ∧ c.clear.params = [] ∧
      c.clear.icc = [] ∧ c.clear.terminal = [] ∧ c.clear.selected = none) :=
  ⟨⟨rfl, rfl, rfl, rfl, rfl, rfl⟩, ⟨rfl, rfl, rfl, rfl, rfl, rfl⟩⟩

/-- A context with data in every list. -/
example : (⟨[⟨0x9F1A, 0, [8, 0x26]⟩], [⟨0x9F06, 0, [0xA0]⟩], [⟨0x9C, 0, [0]⟩], none,
    [⟨0x82, 0, [0, 0]⟩], [⟨0x95, 0, [0]⟩]⟩ : Ctx).reset.terminal = [] := by decide

/-- Where a transaction stands, as the caller can tell from the calls made and their results. -/
inductive Stage where
  /-- no application selected -/
  | idle
  /-- selected, not (successfully) initiated -/
  | selected
  /-- initiated -/
  | started
  /-- initiated, then initiated again without success -/
  | stale
  deriving DecidableEq

def Stage.afterSelect (code : Int) : Stage := if code = 0 then .selected else .idle

def Stage.afterInitiate (st : Stage) (code : Int) : Stage :=
  match st with
  | .idle => .idle
  | .selected => if code = 0 then .started else .selected
  | _ => .stale

/-- Contexts that arise from `emv_ctx_init` by any sequence of calls that return, with cards
answering anything: the context, the stage and the answers of the card so far. -/
inductive Reach : Ctx → Stage → List (List Byte) → Prop where
  | init : Reach .init .idle []
  | setup {c st ds} (h : Reach c st ds) (config supported params : List Tlv) :
      Reach { c with config := config, supported := supported, params := params } st ds
  | build {c st ds} (h : Reach c st ds) {apps apps' script tr code rest}
      (hb : build c.supported apps script = .ok (tr, .done (code, apps') rest)) :
      Reach c st (ds ++ tr.map (·.2.data))
  | select {c st ds} (h : Reach c st ds) {apps apps' i script tr code c' rest}
      (hs : select c apps i script = .ok (tr, .done (code, apps', c') rest)) :
      Reach c' (.afterSelect code) (ds ++ tr.map (·.2.data))
  | initiate {c st ds} (h : Reach c st ds) {alloc buf pos script tr code c' rest}
      (hbuf : buf.length = 255)
      (hi : initiate alloc buf c pos script = .ok (tr, .done (code, c') rest)) :
      Reach c' (st.afterInitiate code) (ds ++ tr.map (·.2.data))
  | read {c st ds} (h : Reach c st ds) {alloc script tr code c' rest}
      (hr : readData alloc c script = .ok (tr, .done (code, c') rest)) :
      Reach c' st (ds ++ tr.map (·.2.data))
  | reset {c st ds} (h : Reach c st ds) : Reach c.reset .idle ds
  | clear {c st ds} (h : Reach c st ds) : Reach c.clear .idle ds

/-- The value occurs in an answer of the card. -/
def FromCard (ds : List (List Byte)) (t : Tlv) : Prop := t.flags = 0 ∧ ∃ d ∈ ds, t.value <:+: d

theorem FromCard.mono {ds ds' : List (List Byte)} {t : Tlv} (h : FromCard ds t) :
    FromCard (ds ++ ds') t := by
  obtain ⟨h1, d, hd, h2⟩ := h
  exact ⟨h1, d, by simp [hd], h2⟩

/-- What holds at each stage. -/
def Inv (c : Ctx) : Stage → Prop
  | .idle => c.selected = none
  | .selected => ∃ s, c.selected = some s ∧ s.aid = .own ∧ s.app.aid ∈ s.app.tlvs
  | .started => (∃ s, c.selected = some s ∧ s.aid = .icc ∧ s.app.aid ∈ c.icc ∧ s.app.tlvs = []) ∧
      (∃ t ∈ c.icc, t.tag = 0x82) ∧ (∃ t ∈ c.icc, t.tag = 0x94)
  | .stale => ∃ s, c.selected = some s ∧ s.aid = .freed ∧ s.app.tlvs = []

theorem field_mem {tag : Nat} {l : List Tlv} (h : field tag l ≠ none) : ∃ t ∈ l, t.tag = tag := by
  cases hf : field tag l with
  | none => exact absurd hf h
  | some v =>
    obtain ⟨t, ht, -⟩ := find_of_field hf
    exact ⟨t, (find_some ht).1, (find_some ht).2.1⟩

theorem carries_fields {data : List Byte} {fields : List Tlv} (h : Carries data fields) :
    ∀ t ∈ fields, FieldOf data t := by
  rcases h with ⟨aip, afl, len, rest, -, rfl, -, -, -, rfl⟩ | ⟨f, -, h, rfl⟩
  · intro t ht
    rcases List.mem_cons.mp ht with rfl | ht
    · exact ⟨rfl, [0x80] ++ len, afl ++ rest, by simp⟩
    · rw [List.mem_singleton.mp ht]
      exact ⟨rfl, [0x80] ++ len ++ aip, rest, by simp⟩
  · intro t ht
    refine (xforest_fields f t ht).mono ?_
    rcases h with ⟨len, rest, -, rfl⟩ | ⟨rest, rfl⟩
    · exact ⟨[0x77] ++ len, rest, by simp⟩
    · exact ⟨[0x77] ++ [0x80], 0 :: rest, by simp⟩

theorem fci_fields {data name : List Byte} {fields : List Tlv} (h : Fci data name fields) :
    ∀ t ∈ fields, FieldOf data t := by
  obtain ⟨len, f, -, -, rfl, rfl, -⟩ := h
  intro t ht
  exact (xforest_fields f t ht).mono ⟨[0x6F] ++ len, [], by simp⟩

theorem clearIcc_other (c : Ctx) (h : ∀ s, c.selected = some s → s.aid ≠ .icc) :
    c.clearIcc.selected = c.selected := by
  unfold Ctx.clearIcc
  cases hs : c.selected with
  | none => rfl
  | some s => simp [h s hs]

/-- Initiation when the AID is gone. -/
theorem initiate_gone (alloc : List Tlv → Tlv → Bool) (buf : List Byte) (c : Ctx) (s : Sel)
    (hs : c.selected = some s) (hg : s.aid ≠ .own) (pos : Byte) (script : List W) :
    initiate alloc buf c pos script =
      if alloc [] ⟨0x9F39, 0, [pos]⟩ = true then .error .uaf
      else fin (-1, ⟨c.config, c.supported, c.params, some { s with aid := .freed }, [], []⟩) script := by
  obtain ⟨cfg, sup, par, sel, icc, term⟩ := c
  change sel = some s at hs
  subst hs
  have hclr : Ctx.clearIcc ⟨cfg, sup, par, some s, icc, term⟩ =
      ⟨cfg, sup, par, some { s with aid := .freed }, [], term⟩ := by
    obtain ⟨a, l⟩ := s
    cases l
    · exact absurd rfl hg
    · simp [Ctx.clearIcc]
    · simp [Ctx.clearIcc]
  unfold initiate
  simp only [hclr]
  by_cases ha : alloc [] ⟨0x9F39, 0, [pos]⟩ = true
  · rw [if_neg (by simp [ha]), if_pos trivial, if_pos ha]
  · rw [if_pos (by simp [ha]), if_neg ha]

/-- All answers of reasonable size (an answer has at most 256 bytes of data). -/
def Small (ds : List (List Byte)) : Prop := ∀ d ∈ ds, d.length < 2 ^ 24

theorem pdol_small' {ds : List (List Byte)} (hd : Small ds) {tlvs : List Tlv}
    (h : ∀ t ∈ tlvs, FromCard ds t) : ∀ v, field 0x9F38 tlvs = some v → v.length < 2 ^ 24 := by
  intro v hv
  obtain ⟨t, ht, rfl⟩ := find_of_field hv
  obtain ⟨-, d, hm, hi⟩ := h t (find_some ht).1
  have := hi.length_le
  have := hd d hm
  omega

theorem pdol_small {ds ds' : List (List Byte)} (hd : Small (ds ++ ds')) {tlvs : List Tlv}
    (h : ∀ t ∈ tlvs, FromCard ds t) : ∀ v, field 0x9F38 tlvs = some v → v.length < 2 ^ 24 :=
  pdol_small' (fun d hm => hd d (by simp [hm])) h

theorem select_icc {ctx ctx' : Ctx} {apps apps' : List App} {i : Nat} {script rest : List W}
    {tr : List (Cmd × W)} {code : Int}
    (h : select ctx apps i script = .ok (tr, .done (code, apps', ctx') rest)) : ctx'.icc = ctx.icc := by
  unfold select at h
  simp only at h
  split at h
  · simp only [fin, Except.ok.injEq, Prod.mk.injEq, Out.done.injEq] at h
    rw [← h.2.1.2.2]
  · split at h
    · simp only [fin, Except.ok.injEq, Prod.mk.injEq, Out.done.injEq] at h
      rw [← h.2.1.2.2]
    · rename_i a _ _
      generalize selectApp a.aid.value script = y at h
      match y with
      | .error e => cases h
      | .ok (_, .pending _) => cases h
      | .ok (_, .done x _) =>
        simp only [andThen, bind_ok] at h
        split at h
        · simp only [fin, bind_ok, Except.ok.injEq, Prod.mk.injEq, Out.done.injEq] at h
          rw [← h.2.1.2.2]
        · split at h <;>
          · simp only [fin, bind_ok, Except.ok.injEq, Prod.mk.injEq, Out.done.injEq] at h
            rw [← h.2.1.2.2]

theorem select_setup {ctx ctx' : Ctx} {apps apps' : List App} {i : Nat} {script rest : List W}
    {tr : List (Cmd × W)} {code : Int}
    (h : select ctx apps i script = .ok (tr, .done (code, apps', ctx') rest)) :
    ctx'.params = ctx.params ∧ ctx'.config = ctx.config := by
  unfold select at h
  simp only at h
  split at h
  · simp only [fin, Except.ok.injEq, Prod.mk.injEq, Out.done.injEq] at h
    rw [← h.2.1.2.2]; exact ⟨rfl, rfl⟩
  · split at h
    · simp only [fin, Except.ok.injEq, Prod.mk.injEq, Out.done.injEq] at h
      rw [← h.2.1.2.2]; exact ⟨rfl, rfl⟩
    · rename_i a _ _
      generalize selectApp a.aid.value script = y at h
      match y with
      | .error e => cases h
      | .ok (_, .pending _) => cases h
      | .ok (_, .done x _) =>
        simp only [andThen, bind_ok] at h
        split at h
        · simp only [fin, bind_ok, Except.ok.injEq, Prod.mk.injEq, Out.done.injEq] at h
          rw [← h.2.1.2.2]; exact ⟨rfl, rfl⟩
        · split at h <;>
          · simp only [fin, bind_ok, Except.ok.injEq, Prod.mk.injEq, Out.done.injEq] at h
            rw [← h.2.1.2.2]; exact ⟨rfl, rfl⟩

theorem reach_inv {c : Ctx} {st : Stage} {ds : List (List Byte)} (h : Reach c st ds) (hd : Small ds) :
    Inv c st ∧ (∀ t ∈ c.icc, FromCard ds t) ∧
      ∀ s, c.selected = some s → ∀ t ∈ s.app.tlvs, FromCard ds t := by
  induction h with
  | init => exact ⟨rfl, by simp [Ctx.init], by simp [Ctx.init]⟩
  | @setup c st ds _ _ _ _ ih =>
    obtain ⟨h1, h2⟩ := ih hd
    refine ⟨?_, h2⟩
    cases st <;> exact h1
  | build _ _ ih =>
    obtain ⟨h1, h2, h3⟩ := ih (fun d h => hd d (by simp [h]))
    exact ⟨h1, fun t ht => (h2 t ht).mono, fun s hs t ht => (h3 s hs t ht).mono⟩
  | @select c st ds _ apps apps' i script tr code c' rest hs ih =>
    obtain ⟨h1, h2, h3⟩ := ih (fun d h => hd d (by simp [h]))
    have hicc : c'.icc = c.icc := select_icc hs
    obtain ⟨-, ⟨-, rfl, -, hn, -⟩ | ⟨a, -, -, ⟨rfl, w, s, rfl, -, -, k1, -, k2, k3, k4⟩ | ⟨hn, hc⟩⟩⟩ :=
      C39_select _ _ _ _ _ _ _ _ _ hs
    · exact ⟨hn, fun t ht => (h2 t (hicc ▸ ht)).mono, fun s hs => by rw [hn] at hs; cases hs⟩
    · refine ⟨⟨s, k1, k3, k2⟩, fun t ht => (h2 t (hicc ▸ ht)).mono, ?_⟩
      intro s' hs' t ht
      rw [k1] at hs'
      cases hs'
      obtain ⟨f1, f2⟩ := fci_fields k4 t ht
      exact ⟨f1, w.data, by simp, f2⟩
    · have : code ≠ 0 := by omega
      simp only [Stage.afterSelect, this, if_false]
      exact ⟨hn, fun t ht => (h2 t (hicc ▸ ht)).mono, fun s hs => by rw [hn] at hs; cases hs⟩
  | @initiate c st ds _ alloc buf pos script tr code c' rest hbuf hi ih =>
    obtain ⟨h1, h2, h3⟩ := ih (fun d h => hd d (by simp [h]))
    cases st with
    | idle =>
      have : c.selected = none := h1
      unfold initiate at hi
      rw [this] at hi
      simp only [fin, Except.ok.injEq, Prod.mk.injEq, Out.done.injEq] at hi
      obtain ⟨rfl, ⟨rfl, rfl⟩, -⟩ := hi
      exact ⟨h1, fun t ht => (h2 t ht).mono, fun s hs t ht => (h3 s hs t ht).mono⟩
    | selected =>
      obtain ⟨s, k1, k2, k3⟩ := h1
      have hp := C63_initiate alloc buf hbuf c s k1 k2 (pdol_small hd (h3 s k1)) pos script
      rw [hi] at hp
      obtain ⟨-, -, -, -, ⟨rfl, data, w, fields, -, rfl, -, -, m1, m2, m3, m4, -, m5⟩ | ⟨m1, m2, m3, -⟩⟩ := hp
      · refine ⟨⟨⟨_, m5, rfl, by rw [m4]; simp [k3], rfl⟩, ?_, ?_⟩, ?_, ?_⟩
        · obtain ⟨t, ht, e⟩ := field_mem m2
          exact ⟨t, by rw [m4]; simp [ht], e⟩
        · obtain ⟨t, ht, e⟩ := field_mem m3
          exact ⟨t, by rw [m4]; simp [ht], e⟩
        · intro t ht
          rw [m4] at ht
          rcases List.mem_append.mp ht with ht | ht
          · exact (h3 s k1 t ht).mono
          · obtain ⟨f1, f2⟩ := carries_fields m1 t ht
            exact ⟨f1, w.data, by simp, f2⟩
        · intro s' hs' t ht
          rw [m5] at hs'
          cases hs'
          simp at ht
      · simp only [Stage.afterInitiate, m1, if_false]
        refine ⟨⟨s, by rw [m3, k1], k2, k3⟩, by rw [m2]; simp, ?_⟩
        intro s' hs' t ht
        rw [m3] at hs'
        exact (h3 s' hs' t ht).mono
    | started =>
      obtain ⟨⟨s, k1, k2, k3, k4⟩, -⟩ := h1
      rw [initiate_gone alloc buf c s k1 (by rw [k2]; decide) pos script] at hi
      split at hi
      · cases hi
      · simp only [fin, Except.ok.injEq, Prod.mk.injEq, Out.done.injEq] at hi
        obtain ⟨rfl, ⟨rfl, rfl⟩, -⟩ := hi
        refine ⟨⟨_, rfl, rfl, k4⟩, by simp, ?_⟩
        intro s' hs' t ht
        cases hs'
        rw [k4] at ht
        cases ht
    | stale =>
      obtain ⟨s, k1, k2, k4⟩ := h1
      rw [initiate_gone alloc buf c s k1 (by rw [k2]; decide) pos script] at hi
      split at hi
      · cases hi
      · simp only [fin, Except.ok.injEq, Prod.mk.injEq, Out.done.injEq] at hi
        obtain ⟨rfl, ⟨rfl, rfl⟩, -⟩ := hi
        refine ⟨⟨_, rfl, rfl, k4⟩, by simp, ?_⟩
        intro s' hs' t ht
        cases hs'
        rw [k4] at ht
        cases ht
  | @read c st ds _ alloc script tr code c' rest hr ih =>
    obtain ⟨h1, h2, h3⟩ := ih (fun d h => hd d (by simp [h]))
    by_cases hc : code = 0
    · subst hc
      obtain ⟨-, es, fs, b, -, -, -, -, m1, -, rfl⟩ := C40_success _ _ _ _ _ _ hr
      refine ⟨?_, ?_, fun s hs t ht => (h3 s hs t ht).mono⟩
      · cases st with
        | idle => exact h1
        | selected => exact h1
        | started =>
          obtain ⟨⟨s, k1, k2, k3, k4⟩, ⟨t, t1, t2⟩, u, u1, u2⟩ := h1
          exact ⟨⟨s, k1, k2, by simp [k3], k4⟩, ⟨t, by simp [t1], t2⟩, u, by simp [u1], u2⟩
        | stale => exact h1
      · intro t ht
        rcases List.mem_append.mp ht with ht | ht
        · exact (h2 t ht).mono
        · obtain ⟨x, hx, sfi, rc, new, -, hacc, hm⟩ := (reads_mem m1).2.1 t ht
          obtain ⟨f1, f2⟩ := accepted_fields hacc t hm
          exact ⟨f1, x.2.data, by simp only [List.mem_append, List.mem_map]; exact Or.inr ⟨x, hx, rfl⟩, f2⟩
    · obtain ⟨rfl, -⟩ := C40_failure _ _ _ _ _ _ _ hr hc
      exact ⟨h1, fun t ht => (h2 t ht).mono, fun s hs t ht => (h3 s hs t ht).mono⟩
  | reset _ ih => exact ⟨rfl, by simp [Ctx.reset, Ctx.clearIcc], by simp [Ctx.reset]⟩
  | clear _ ih => exact ⟨rfl, by simp [Ctx.clear, Ctx.reset, Ctx.clearIcc], by simp [Ctx.clear, Ctx.reset]⟩

/-- **C41**, partial.  In every context that arises from `emv_ctx_init` by any sequence of calls,
with cards answering anything (no single answer of 16 MB or more), the next call has no undefined
behaviour - in particular it uses no freed data - as long as the card does not answer with
success and no data:
building the candidate list, selecting, reading application data; initiating unless the same
selection has been initiated successfully before.  After a successful initiation AIP and AFL are
fields of the ICC data, and the AID of the selected application exists.
Missing: initiating again after success, for which it is false (`C41_again`). -/
theorem C41_history_partial {c : Ctx} {st : Stage} {ds : List (List Byte)} (h : Reach c st ds)
    (hd : Small ds) (script : List W) (hne : ∀ w ∈ script, ¬ Bare w) :
    (∀ apps, C.Safe (build c.supported apps script)) ∧
    (∀ apps i, C.Safe (select c apps i script)) ∧
    (∀ alloc, C.Safe (readData alloc c script)) ∧
    (st = .idle ∨ st = .selected → ∀ alloc buf pos, buf.length = 255 →
      C.Safe (initiate alloc buf c pos script)) ∧
    (st = .started → (∃ t ∈ c.icc, t.tag = 0x82) ∧ (∃ t ∈ c.icc, t.tag = 0x94) ∧
      ∃ s, c.selected = some s ∧ s.app.aid ∈ c.icc) := by
  obtain ⟨h1, h2, h3⟩ := reach_inv h hd
  refine ⟨fun apps => C42_safe _ _ _ hne, ?_, ?_, ?_, ?_⟩
  · intro apps i
    unfold select
    simp only
    split
    · exact ⟨_, rfl⟩
    · rename_i a _
      split
      · exact ⟨_, rfl⟩
      · have hp := selectApp_spec a.aid.value script
        generalize selectApp a.aid.value script = y at hp
        match y, hp with
        | .error e, ⟨_, w, rest, k1, k2, k3, k4⟩ =>
          exact absurd ⟨k2, Or.inl k3, k4⟩ (hne w (by rw [k1]; simp))
        | .ok (_, .pending _), _ => exact ⟨_, rfl⟩
        | .ok (_, .done x _), _ =>
          simp only [andThen, bind_ok]
          split
          · exact ⟨_, rfl⟩
          · split <;> exact ⟨_, rfl⟩
  · intro alloc
    unfold readData
    split
    · exact ⟨_, rfl⟩
    · rename_i afl _
      obtain ⟨y, hy⟩ := C29_safe alloc afl.value [] script hne
      rw [hy]
      match y with
      | (_, .pending _) => exact ⟨_, rfl⟩
      | (_, .done x _) =>
        simp only [andThen, bind_ok]
        split
        · exact ⟨_, rfl⟩
        · split
          · exact ⟨_, rfl⟩
          · split
            · exact ⟨_, rfl⟩
            · split <;> exact ⟨_, rfl⟩
  · rintro (rfl | rfl) alloc buf pos hbuf
    · have : c.selected = none := h1
      unfold initiate
      rw [this]
      exact ⟨_, rfl⟩
    · obtain ⟨s, k1, k2, k3⟩ := h1
      have hp := C63_initiate alloc buf hbuf c s k1 k2 (pdol_small' hd (h3 s k1)) pos script
      match hx : initiate alloc buf c pos script with
      | .ok a => exact ⟨a, rfl⟩
      | .error e => rw [hx] at hp; exact hp.elim
  · rintro rfl
    obtain ⟨⟨s, k1, k2, k3, k4⟩, k5, k6⟩ := h1
    exact ⟨k5, k6, s, k1, k3⟩

/-- **C41**, false otherwise: in every context in which the selected application was initiated
successfully, initiating it again reads the AID after it was freed (when the first allocation
succeeds). -/
theorem C41_again {c : Ctx} {st : Stage} {ds : List (List Byte)} (h : Reach c st ds) (hd : Small ds)
    (hst : st = .started ∨ st = .stale) (buf : List Byte) (pos : Byte) (script : List W) :
    initiate allocOk buf c pos script = .error .uaf := by
  obtain ⟨h1, -⟩ := reach_inv h hd
  have : ∃ s, c.selected = some s ∧ s.aid ≠ .own := by
    rcases hst with rfl | rfl
    · obtain ⟨⟨s, k1, k2, -⟩, -⟩ := h1
      exact ⟨s, k1, by rw [k2]; decide⟩
    · obtain ⟨s, k1, k2, -⟩ := h1
      exact ⟨s, k1, by rw [k2]; decide⟩
  obtain ⟨s, k1, k2⟩ := this
  rw [initiate_gone allocOk buf c s k1 k2 pos script]
  exact if_pos rfl

/-- The context after a call (for examples). -/
def ctxOf {α : Type} (f : α → Ctx) (x : C (Run (Int × α))) : Ctx :=
  match x with
  | .ok (_, .done (_, a) _) => f a
  | _ => .init

/-- The situation of `C41_again` arises. -/
theorem C41_again_reachable : ∃ c ds, Reach c .started ds ∧ Small ds := by
  let name : List Byte := [0xA0, 0, 0, 0, 4]
  let a : App := ⟨⟨0x4F, 0, name⟩, [], 2, false, []⟩
  let w1 : W := ⟨0, [0x6F, 0x07, 0x84, 0x05, 0xA0, 0, 0, 0, 4], 0x9000⟩
  let w2 : W := ⟨0, [0x77, 0x0A, 0x82, 0x02, 0x39, 0, 0x94, 4, 8, 1, 1, 0], 0x9000⟩
  have h1 : ∃ x, select .init [a] 0 [w1] = .ok ([(.select false name, w1)], .done (0, [], x) []) ∧
      ∃ y, initiate allocOk (List.replicate 255 0) x 5 [w2] = .ok ([(.gpo none, w2)], .done (0, y) []) :=
    ⟨ctxOf (·.2) (select .init [a] 0 [w1]), by decide +kernel,
      ctxOf id (initiate allocOk (List.replicate 255 0) (ctxOf (·.2) (select .init [a] 0 [w1])) 5 [w2]), by decide +kernel⟩
  obtain ⟨x, hx, y, hy⟩ := h1
  refine ⟨y, _, .initiate (.select .init hx) List.length_replicate hy, ?_⟩
  intro d hd
  simp at hd
  rcases hd with rfl | rfl <;> decide

/-- **C65** (provenance).  However the calls are interleaved and the card answers, every field in
the ICC data, and every field of the selected application, has a value that occurs literally in
one of the answers. -/
theorem C65_provenance {c : Ctx} {st : Stage} {ds : List (List Byte)} (h : Reach c st ds)
    (hd : Small ds) :
    (∀ t ∈ c.icc, t.flags = 0 ∧ ∃ d ∈ ds, t.value <:+: d) ∧
    ∀ s, c.selected = some s → ∀ t ∈ s.app.tlvs, t.flags = 0 ∧ ∃ d ∈ ds, t.value <:+: d :=
  (reach_inv h hd).2

/-- The three successful calls of a transaction. -/
structure Transaction (c0 c1 c2 c3 : Ctx) (a : App) (w1 w2 : W) (data : Option (List Byte))
    (tr : List (Cmd × W)) (pos : Byte) : Prop where
  selected : ∃ apps i script rest, apps[i]? = some a ∧
    select c0 apps i script = .ok ([(.select false a.aid.value, w1)], .done (0, apps.eraseIdx i, c1) rest)
  initiated : ∃ alloc buf script rest, buf.length = 255 ∧
    initiate alloc buf c1 pos script = .ok ([(.gpo data, w2)], .done (0, c2) rest)
  read : ∃ alloc script rest, readData alloc c2 script = .ok (tr, .done (0, c3) rest)

/-- **C65** (transaction).  After the three calls succeed, the ICC data is exactly the fields of the
FCI, then the fields of the answer to GET PROCESSING OPTIONS, then the fields of the records in
the order of the AFL found first in the ICC data, and nothing else. -/
theorem C65_transaction {c0 c1 c2 c3 : Ctx} {a : App} {w1 w2 : W} {data : Option (List Byte)}
    {tr : List (Cmd × W)} {pos : Byte} (h : Transaction c0 c1 c2 c3 a w1 w2 data tr pos)
    (hw : w1.data.length < 2 ^ 24) :
    ∃ fci opts fs b es, Fci w1.data a.aid.value fci ∧ Carries w2.data opts ∧ Reads tr fs b ∧
      (∀ e ∈ es, AflEntry.WF e) ∧ tr.map (·.1) = commands es ∧
      field 0x94 (fci ++ opts) = some (encAfl es) ∧
      field 0x82 opts ≠ none ∧ field 0x94 opts ≠ none ∧ Sufficient fs ∧
      Requested c0 (terminalData pos a.aid.value) fci data ∧
      c3.icc = fci ++ opts ++ fs ∧ c3.terminal = terminalData pos a.aid.value := by
  obtain ⟨⟨apps, i, s1, r1, ha, h1⟩, ⟨alloc2, buf, s2, r2, hbuf, h2⟩, alloc3, s3, r3, h3⟩ := h
  have hcfg := select_setup h1
  obtain ⟨-, ⟨-, h, -⟩ | ⟨a', ha', -, ⟨-, w, s, e, -, -, k1, k5, k2, k3, k4⟩ | ⟨-, hc⟩⟩⟩ :=
    C39_select _ _ _ _ _ _ _ _ _ h1
  · cases h
  · rw [ha] at ha'
    cases ha'
    cases e
    have hpd : ∀ v, field 0x9F38 s.app.tlvs = some v → v.length < 2 ^ 24 := by
      intro v hv
      obtain ⟨t, ht, rfl⟩ := find_of_field hv
      have := (fci_fields k4 t (find_some ht).1).2.length_le
      omega
    have hp := C63_initiate alloc2 buf hbuf c1 s k1 k3 hpd pos s2
    rw [h2] at hp
    obtain ⟨-, -, -, -, ⟨-, data', w', opts, m0, e, -, -, m1, m2, m3, m4, m5, m6⟩ | ⟨h, -⟩⟩ := hp
    · cases e
      obtain ⟨-, es, fs, b, n1, n2, n3, n4, n5, n6, rfl⟩ := C40_success _ _ _ _ _ _ h3
      rw [k5] at m0 m5
      refine ⟨s.app.tlvs, opts, fs, b, es, k4, m1, n5, n2, n4, by rw [← m4]; exact n3, m2, m3, n6, ?_, ?_, m5⟩
      · simpa [Requested, hcfg.1, hcfg.2] using m0
      · rw [← m4]
    · exact absurd rfl h
  · omega

/-- **C64**, partial.  The records read after GET PROCESSING OPTIONS are those of the AFL in its
answer, provided the FCI has no field 94.  Missing: other cards (`C64_planted`). -/
theorem C64_afl_partial {c0 c1 c2 c3 : Ctx} {a : App} {w1 w2 : W} {data : Option (List Byte)}
    {tr : List (Cmd × W)} {pos : Byte} (h : Transaction c0 c1 c2 c3 a w1 w2 data tr pos)
    (hw : w1.data.length < 2 ^ 24) (hno : ∀ fci, Fci w1.data a.aid.value fci → field 0x94 fci = none) :
    ∃ opts es, Carries w2.data opts ∧ field 0x94 opts = some (encAfl es) ∧
      (∀ e ∈ es, AflEntry.WF e) ∧ tr.map (·.1) = commands es := by
  obtain ⟨fci, opts, fs, b, es, k1, k2, k3, k4, k5, k6, -⟩ := C65_transaction h hw
  refine ⟨opts, es, k2, ?_, k4, k5⟩
  have := hno fci k1
  rw [← find_field] at this k6 ⊢
  rw [← k6]
  unfold find at *
  rw [List.find?_append]
  rw [Option.map_eq_none_iff.mp this]
  rfl

/-- **C64**, false otherwise: the FCI plants an AFL (record 1 of SFI 2), the answer to GET PROCESSING
OPTIONS gives another (record 1 of SFI 1), and the planted one is read. -/
theorem C64_planted :
    ∃ c1 c2 c3 a w1 w2 tr, Transaction .init c1 c2 c3 a w1 w2 none tr 5 ∧
      w2.data = [0x77, 0x0A, 0x82, 0x02, 0x39, 0, 0x94, 4, 0x08, 1, 1, 0] ∧
      tr.map (·.1) = [.readRecord 2 1] := by
  let name : List Byte := [0xA0, 0, 0, 0, 4]
  let a : App := ⟨⟨0x4F, 0, name⟩, [], 2, false, []⟩
  let w1 : W := ⟨0, [0x6F, 0x0D, 0x84, 0x05, 0xA0, 0, 0, 0, 4, 0x94, 4, 0x10, 1, 1, 0], 0x9000⟩
  let w2 : W := ⟨0, [0x77, 0x0A, 0x82, 0x02, 0x39, 0, 0x94, 4, 0x08, 1, 1, 0], 0x9000⟩
  let w3 : W := ⟨0, [0x70, 0x10, 0x5A, 0x02, 0x12, 0x34, 0x5F, 0x24, 0x03, 0x26, 0x12, 0x31,
    0x8C, 0x01, 0x95, 0x8D, 0x01, 0x9A], 0x9000⟩
  have h : ∃ x, select .init [a] 0 [w1] = .ok ([(.select false name, w1)], .done (0, [], x) []) ∧
      ∃ y, initiate allocOk (List.replicate 255 0) x 5 [w2] = .ok ([(.gpo none, w2)], .done (0, y) []) ∧
      ∃ z, readData allocOk y [w3] = .ok ([(.readRecord 2 1, w3)], .done (0, z) []) :=
    ⟨ctxOf (·.2) (select .init [a] 0 [w1]), by decide +kernel,
      ctxOf id (initiate allocOk (List.replicate 255 0) (ctxOf (·.2) (select .init [a] 0 [w1])) 5 [w2]), by decide +kernel,
      ctxOf id (readData allocOk (ctxOf id (initiate allocOk (List.replicate 255 0) (ctxOf (·.2) (select .init [a] 0 [w1])) 5 [w2])) [w3]), by decide +kernel⟩
  obtain ⟨x, hx, y, hy, z, hz⟩ := h
  exact ⟨x, y, z, a, w1, w2, _, ⟨⟨_, _, _, _, rfl, hx⟩, ⟨_, _, _, _, List.length_replicate, hy⟩, _, _, _, hz⟩, rfl, rfl⟩

end Verif.Emv
