import Verif.TellsLemmas
import Verif.PrintEmvLemmas

/-!
# C145: the card is told only what it asks for

Terminal and transaction data are `params` and `config` of the context.  `mapRun f x` is the run `x` with the same
exchanges, the same command waiting, the same unused answers and `f` of its result; `setData p c` replaces `params`
and `config` only.
-/

set_option autoImplicit false

namespace Verif.Tells
open Verif Ber BerSpec TlvParse App Tal Emv Fields Dol ToolTxn Formats

/-- Entry `r` of a DOL gets the same bytes from parameters `p` and configuration `c` as from `p'` and `c'`, whatever
the data of the terminal. -/
def SameFor (p c p' c' : List Tlv) (r : Req) : Prop :=
  ∀ terminal : List Tlv, fieldData [p, c, terminal] r = fieldData [p', c', terminal] r

/-- Some answer among `script` is an FCI whose PDOL has the entry `r`. -/
def AskedBy (script : List W) (r : Req) : Prop :=
  ∃ w ∈ script, ∃ (name : List Byte) (tlvs : List Tlv) (rs : List Req), Fci w.data name tlvs ∧ (∀ q ∈ rs, q.WF) ∧
    field 0x9F38 tlvs = some (encDol rs) ∧ r ∈ rs

/-- Equal first values are enough. -/
theorem sameFor_of_lookup {p c p' c' : List Tlv} {r : Req}
    (h : lookup [p, c] (beNat r.tag) = lookup [p', c'] (beNat r.tag)) : SameFor p c p' c' r := by
  intro terminal
  unfold fieldData
  have key : ∀ a b : List Tlv, lookup [a, b, terminal] (beNat r.tag) =
      (lookup [a, b] (beNat r.tag)).or (lookup [terminal] (beNat r.tag)) := by
    intro a b
    simp only [lookup, List.flatten_cons, List.flatten_nil, List.append_nil, List.find?_append]
    cases List.find? (fun t => t.tag == beNat r.tag) a <;> cases List.find? (fun t => t.tag == beNat r.tag) b <;> rfl
  rw [key, key, h]

/-- **C145** (initiating).  For every selected application, every card and every two sets of parameters and
configuration that give the same bytes for each entry of its PDOL - none if it has none - initiating the application
does the same with both: the same exchanges, the same code, the same context but for the two sets; and the leftovers
in the buffer for the data do not matter. -/
theorem C145_initiate (alloc : List Tlv → Tlv → Bool) (buf buf' : List Byte) (hbuf : buf.length = 255)
    (hbuf' : buf'.length = 255) (ctx : Ctx) (s : Sel) (hs : ctx.selected = some s) (ho : s.aid = .own)
    (hlen : ∀ v, field 0x9F38 s.app.tlvs = some v → v.length < 2 ^ 24) (pos : Byte) (script : List W) (p c : List Tlv)
    (h : ∀ rs : List Req, (∀ r ∈ rs, r.WF) → field 0x9F38 s.app.tlvs = some (encDol rs) → ∀ r ∈ rs,
      fieldData [ctx.params, ctx.config, terminalData pos s.app.aid.value] r =
        fieldData [p, c, terminalData pos s.app.aid.value] r) :
    initiate alloc buf' (setData p c ctx) pos script =
      mapRun (fun x => (x.1, setData p c x.2)) (initiate alloc buf ctx pos script) := by
  obtain ⟨cfg, sup, par, sel, icc, term⟩ := ctx
  obtain ⟨app, loc⟩ := s
  simp only at hs ho h hlen
  subst hs ho
  unfold initiate
  simp only [setData, Ctx.clearIcc, Option.map_some, reduceCtorEq, if_false]
  by_cases ha : alloc [] ⟨0x9F39, 0, [pos]⟩ = true
  · simp only [ha, Bool.not_true, Bool.false_eq_true, if_false]
    cases hp : pushAll alloc [] (terminalData pos app.aid.value) with
    | mk ok terminal =>
      simp only
      cases ok with
      | false => rfl
      | true =>
        have ht : terminal = terminalData pos app.aid.value := pushAll_ok hp
        subst ht
        simp only [Bool.not_true, Bool.false_eq_true, if_false]
        rw [gpoData_congr buf buf' hbuf hbuf' [par, cfg, terminalData pos app.aid.value] [p, c, terminalData pos app.aid.value]
            (by simp) (by simp) app.tlvs hlen h]
        cases gpoData buf [par, cfg, terminalData pos app.aid.value] app.tlvs with
        | error e => rfl
        | ok y =>
          cases y with
          | error code => rfl
          | ok data =>
            simp only [bind_ok]
            rw [mapRun_andThen]
            refine andThen_congr fun tr g rest _ => ?_
            repeat' split
            all_goals rfl
  · rw [if_pos (by simp [ha]), if_pos (by simp [ha])]
    rfl

/-- The first command of a run. -/
def firstCmd {α : Type} : C (Run α) → Option Cmd
  | .ok ((c, _) :: _, _) => some c
  | .ok ([], .pending c) => some c
  | _ => none

theorem first_gpo (buf : List Byte) (hbuf : buf.length = 255) (ctx : Ctx) (s : Sel)
    (hs : ctx.selected = some s) (ho : s.aid = .own) (rs : List Req) (hrs : ∀ r ∈ rs, r.WF) (hne : rs ≠ [])
    (hf : field 0x9F38 s.app.tlvs = some (encDol rs)) (hsum : sumLen rs ≤ 252) (hlen : (encDol rs).length < 2 ^ 24)
    (pos : Byte) (script : List W) :
    firstCmd (initiate (fun _ _ => true) buf ctx pos script) =
      some (.gpo (some (template83 (dolData [ctx.params, ctx.config, terminalData pos s.app.aid.value] rs)))) := by
  obtain ⟨cfg, sup, par, sel, icc, term⟩ := ctx
  obtain ⟨app, loc⟩ := s
  simp only at hs ho hf
  subst hs ho
  unfold initiate
  simp only [Ctx.clearIcc, Option.map_some, reduceCtorEq, if_false]
  rw [if_neg (by simp)]
  have hp : pushAll (fun _ _ => true) [] (terminalData pos app.aid.value) = (true, terminalData pos app.aid.value) := rfl
  rw [hp]
  simp only [Bool.not_true, Bool.false_eq_true, if_false]
  rcases C17_gpo_data buf hbuf [par, cfg, terminalData pos app.aid.value] (by simp) app.tlvs
      (by intro v hv; rw [hf] at hv; cases hv; exact hlen) with ⟨h1, -⟩ | ⟨v, h1, -, h3⟩ | ⟨qs, h1, h2, h3, h4, h5, h6, h7, h8⟩
  · rw [hf] at h1; cases h1
  · rw [hf] at h1
    cases h1
    rcases h3 rs hrs rfl with h | h
    · exact absurd h hne
    · omega
  · rw [hf] at h3
    cases dol_unique hrs h1 (Option.some.inj h3)
    rw [h5]
    simp only [bind_ok]
    have hl := template83_length (data := dolData [par, cfg, terminalData pos app.aid.value] rs)
      (by rw [dolData_length]; exact hsum)
    obtain ⟨r, hr, hp⟩ := gpo_spec (fun _ _ => true)
      (some (template83 (dolData [par, cfg, terminalData pos app.aid.value] rs))) [] script
    rw [hr]
    match r, hp with
    | (tr, .pending c), ⟨k1, k2, _⟩ => subst k1 k2; rfl
    | (tr, .done g rest), hp =>
      rcases hp with ⟨-, -, -, -, -, -, d, k1, k2⟩ | ⟨w, rfl, rfl, -⟩
      · cases k1
        rcases k2 with h | h | h
        · omega
        · omega
        · exact absurd (by simp [template83]) h
      · simp only [andThen, bind_ok]
        repeat' split
        all_goals rfl

/-- **C145** (no less).  If the PDOL is a proper one, and memory suffices, initiating the application begins with the
same command for two sets of parameters and configuration exactly when they give the same bytes for each entry of the
PDOL: every difference in a requested field shows. -/
theorem C145_shows (buf buf' : List Byte) (hbuf : buf.length = 255) (hbuf' : buf'.length = 255) (ctx : Ctx) (s : Sel)
    (hs : ctx.selected = some s) (ho : s.aid = .own) (rs : List Req) (hrs : ∀ r ∈ rs, r.WF) (hne : rs ≠ [])
    (hf : field 0x9F38 s.app.tlvs = some (encDol rs)) (hsum : sumLen rs ≤ 252) (hlen : (encDol rs).length < 2 ^ 24)
    (pos : Byte) (script : List W) (p c : List Tlv) :
    firstCmd (initiate (fun _ _ => true) buf ctx pos script) =
        firstCmd (initiate (fun _ _ => true) buf' (setData p c ctx) pos script) ↔
      ∀ r ∈ rs, fieldData [ctx.params, ctx.config, terminalData pos s.app.aid.value] r =
        fieldData [p, c, terminalData pos s.app.aid.value] r := by
  have h1 := first_gpo buf hbuf ctx s hs ho rs hrs hne hf hsum hlen pos script
  have h2 := first_gpo buf' hbuf' (setData p c ctx) s hs ho rs hrs hne hf hsum hlen pos script
  rw [h1, h2]
  constructor
  · intro h
    simp only [Option.some.injEq, Cmd.gpo.injEq] at h
    exact dolData_inj (template83_inj (by rw [dolData_length, dolData_length]) h)
  · intro h
    rw [dolData_congr h]
    rfl

/-- A selected application whose PDOL asks for two bytes of 9F1A and one of 9C. -/
def sample : Ctx :=
  { Ctx.init with
    params := [⟨0x9C, 0, [0x00]⟩, ⟨0x9F02, 0, [0, 0, 0, 0, 0x12, 0x34]⟩]
    config := [⟨0x9F1A, 0, [0x05, 0x28]⟩]
    selected := some ⟨⟨⟨0x84, 0, [0xA0, 0, 0, 0, 3]⟩, [], 0, false,
      [⟨0x84, 0, [0xA0, 0, 0, 0, 3]⟩, ⟨0x9F38, 0, [0x9F, 0x1A, 0x02, 0x9C, 0x01]⟩]⟩, .own⟩ }

/-- Another amount: the same command.  Another type: another one. -/
example :
    firstCmd (initiate (fun _ _ => true) (List.replicate 255 0) sample 5 []) =
      some (.gpo (some [0x83, 3, 0x05, 0x28, 0x00])) ∧
    firstCmd (initiate (fun _ _ => true) (List.replicate 255 0xEE)
      (setData [⟨0x9C, 0, [0x00]⟩, ⟨0x9F02, 0, [0, 0, 0, 0, 0x99, 0x99]⟩] sample.config sample) 5 []) =
      some (.gpo (some [0x83, 3, 0x05, 0x28, 0x00])) ∧
    firstCmd (initiate (fun _ _ => true) (List.replicate 255 0)
      (setData [⟨0x9C, 0, [0x09]⟩, ⟨0x9F02, 0, [0, 0, 0, 0, 0x12, 0x34]⟩] sample.config sample) 5 []) =
      some (.gpo (some [0x83, 3, 0x05, 0x28, 0x09])) := by
  decide +kernel

/-- The hypotheses for it. -/
example : field 0x9F38 [⟨0x84, 0, [0xA0, 0, 0, 0, 3]⟩, ⟨0x9F38, 0, [0x9F, 0x1A, 0x02, 0x9C, 0x01]⟩] =
      some (encDol [⟨[0x9F, 0x1A], 2⟩, ⟨[0x9C], 1⟩]) ∧ (∀ r ∈ [(⟨[0x9F, 0x1A], 2⟩ : Req), ⟨[0x9C], 1⟩], r.WF) ∧
    sumLen [⟨[0x9F, 0x1A], 2⟩, ⟨[0x9C], 1⟩] ≤ 252 ∧
    SameFor sample.params sample.config [⟨0x9C, 0, [0x00]⟩, ⟨0x9F02, 0, [0, 0, 0, 0, 0x99, 0x99]⟩] sample.config
      ⟨[0x9C], 1⟩ := by
  refine ⟨by decide +kernel, ?_, by decide +kernel, sameFor_of_lookup (by decide +kernel)⟩
  intro r hr
  simp only [List.mem_cons, List.not_mem_nil, or_false] at hr
  rcases hr with rfl | rfl
  · exact Print.isTag_9F 0x1A (by decide)
  · exact Print.isTag_one 0x9C (by decide)

/-- The end of a transaction with other parameters and configuration. -/
def setEnd (p c : List Tlv) (e : End) : End := { e with ctx := setData p c e.ctx }

theorem rounds_same (alloc : List Tlv → Tlv → Bool) (mem mem' : Nat → List Byte)
    (hmem : ∀ n, (mem n).length = 255) (hmem' : ∀ n, (mem' n).length = 255) (p c : List Tlv) (req : Bool) (fuel : Nat) :
    ∀ (ctx : Ctx) (apps : List App) (input : List Byte) (out : List Item) (script : List W),
      (∀ w ∈ script, w.data.length < 2 ^ 24) → (∀ r, AskedBy script r → SameFor ctx.params ctx.config p c r) →
      rounds alloc mem' req fuel (setData p c ctx) apps input out script =
        mapRun (setEnd p c) (rounds alloc mem req fuel ctx apps input out script) := by
  induction fuel with
  | zero => intros; rfl
  | succ fuel ih =>
    intro ctx apps input out script hsm h
    rw [rounds, rounds]
    cases pick req apps input with
    | error e => rfl
    | ok y =>
      obtain ⟨ch, bad⟩ := y
      simp only [bind_ok]
      cases ch with
      | never => rfl
      | index i input' =>
        simp only
        rw [mapRun_andThen, select_setData, andThen_mapRun]
        refine andThen_congr fun tr x rest hsel => ?_
        obtain ⟨r, apps', ctx'⟩ := x
        have hset := select_setup hsel
        obtain ⟨hs, hcase⟩ := C39_select _ _ _ _ _ _ _ _ _ hsel
        have hsm' : ∀ w ∈ rest, w.data.length < 2 ^ 24 := fun w hw => hsm w (by rw [hs]; simp [hw])
        have h' : ∀ r, AskedBy rest r → SameFor ctx'.params ctx'.config p c r := by
          intro r ⟨w, hw, hr⟩
          rw [hset.1, hset.2]
          exact h r ⟨w, by rw [hs]; simp [hw], hr⟩
        simp only
        split
        · rfl
        split
        · split
          · exact ih _ _ _ _ _ hsm' h'
          · rfl
        have hselected : (setData p c ctx').selected = ctx'.selected := rfl
        rw [hselected]
        split
        · rfl
        rename_i hn
        rcases hcase with ⟨-, -, -, hnone, -⟩ | ⟨a, ha, -, ⟨-, w, s, htr, hw0, hw1, hse, hsv, -, ho, hfci⟩ | ⟨hnone, -⟩⟩
        · exact absurd hnone hn
        · have hw : w ∈ script := by rw [hs, htr]; simp
          have hlen : ∀ v, field 0x9F38 s.app.tlvs = some v → v.length < 2 ^ 24 := by
            intro v hv
            obtain ⟨t, ht, rfl⟩ := find_of_field hv
            have := (fci_fields hfci t (find_some ht).1).2.length_le
            have := hsm w hw
            omega
          rw [mapRun_andThen, C145_initiate alloc (mem fuel) (mem' fuel) (hmem _) (hmem' _) ctx' s hse ho hlen 0x05 rest p c
            (fun rs hrs hf r hr => by
              rw [hset.1, hset.2]
              exact h r ⟨w, hw, _, _, rs, hfci, hrs, hf, hr⟩ _), andThen_mapRun]
          refine andThen_congr fun tr2 x rest2 hin => ?_
          obtain ⟨r2, ctx2⟩ := x
          have hp := C63_initiate alloc (mem fuel) (hmem fuel) ctx' s hse ho hlen 0x05 rest
          rw [hin] at hp
          obtain ⟨p1, p2, p3, -, -⟩ := hp
          simp only
          split
          · rfl
          split
          · split
            · refine ih _ _ _ _ _ (fun w hw => hsm' w (by rw [p1]; simp [hw])) ?_
              intro r ⟨w, hw, hr⟩
              rw [p2, p3]
              exact h' r ⟨w, by rw [p1]; simp [hw], hr⟩
            · rfl
          · rfl
        · exact absurd hnone hn

/-- **C145** (transaction).  For every card, every input and every two sets of parameters and configuration that give
the same bytes for each PDOL entry among the card's answers, the transaction of the tool does the same with both: the
same exchanges with the card, the same output, the same result.  What the card does not ask for is neither sent to
it nor decides anything.  Leftovers of memory do not matter either. -/
theorem C145_transaction (alloc : List Tlv → Tlv → Bool) (mem mem' : Nat → List Byte)
    (hmem : ∀ n, (mem n).length = 255) (hmem' : ∀ n, (mem' n).length = 255) (ctx : Ctx) (input : List Byte)
    (script : List W) (hsm : ∀ w ∈ script, w.data.length < 2 ^ 24) (p c : List Tlv)
    (h : ∀ r, AskedBy script r → SameFor ctx.params ctx.config p c r) :
    transaction alloc mem' (setData p c ctx) input script =
      mapRun (setEnd p c) (transaction alloc mem ctx input script) := by
  unfold transaction
  simp only
  rw [mapRun_andThen]
  refine andThen_congr fun tr x rest hb => ?_
  split
  · rfl
  · have hs := (C42_outcome _ _ (by simp) _ _ _ _ _ (show Emv.build ctx.supported [] script = .ok (tr, .done (x.1, x.2) rest) from hb)).1
    rw [mapRun_andThen, rounds_same alloc mem mem' hmem hmem' p c _ _ ctx _ _ _ rest
      (fun w hw => hsm w (by rw [hs]; simp [hw]))
      (fun r ⟨w, hw, hr⟩ => h r ⟨w, by rw [hs]; simp [hw], hr⟩), andThen_mapRun]
    refine andThen_congr fun tr e rest _ => ?_
    by_cases hd : e.how = .done
    · rw [if_pos (show (setEnd p c e).how = .done from hd), if_pos hd]
      unfold reading
      simp only
      rw [mapRun_andThen]
      have : (setEnd p c e).ctx = setData p c e.ctx := rfl
      rw [this, readData_setData, andThen_mapRun]
      refine andThen_congr fun tr x rest _ => ?_
      split <;> rfl
    · rw [if_neg (show ¬ (setEnd p c e).how = .done from hd), if_neg hd]
      rfl

/-! ## Options and clock of the tool -/

/-- No PDOL among the answers asks for one of these tags. -/
def Unasked (script : List W) (tags : List Nat) : Prop := ∀ r, AskedBy script r → beNat r.tag ∉ tags

/-- **C145** (tool).  With enough memory, for every card: an option or clock reading of the tool matters to what
the card is sent, what is printed and how the transaction ends only if a PDOL among the answers asks for a field made
of it - the amount for 9F02 or 81, the other amount for 9F03 or 9F04, the type for 9C, the date for 9A, the time of
day for 9F21.  All else being equal, two runs do the same. -/
theorem C145_tool (alloc : List Tlv → Tlv → Bool) (mem mem' : Nat → List Byte) (hmem : ∀ n, (mem n).length = 255)
    (hmem' : ∀ n, (mem' n).length = 255) (buf buf' : List Byte) (hb : buf.length = 6) (hb' : buf'.length = 6)
    (tm tm' : Tm) (htm : Valid tm) (htm' : Valid tm') (o o' : ToolArgs.Opts)
    (h1 : o.txnType < 256) (h2 : o.amount < 2 ^ 32) (h3 : o.amountOther < 2 ^ 32)
    (h1' : o'.txnType < 256) (h2' : o'.amount < 2 ^ 32) (h3' : o'.amountOther < 2 ^ 32)
    (input : List Byte) (script : List W) (hsm : ∀ w ∈ script, w.data.length < 2 ^ 24)
    (hdate : Unasked script [0x9A] ∨ (tm.year = tm'.year ∧ tm.mon = tm'.mon ∧ tm.mday = tm'.mday))
    (htime : Unasked script [0x9F21] ∨ (tm.hour = tm'.hour ∧ tm.min = tm'.min ∧ tm.sec = tm'.sec))
    (htype : Unasked script [0x9C] ∨ o.txnType = o'.txnType)
    (hamount : Unasked script [0x9F02, 0x81] ∨ o.amount = o'.amount)
    (hother : Unasked script [0x9F03, 0x9F04] ∨ o.amountOther = o'.amountOther) :
    ∃ ctx ctx', load (fun _ _ => true) buf tm o = .ok ctx ∧ load (fun _ _ => true) buf' tm' o' = .ok ctx' ∧
      transaction alloc mem' ctx' input script =
        mapRun (setEnd ctx'.params ctx'.config) (transaction alloc mem ctx input script) := by
  obtain ⟨ps, e, hp⟩ := C109_params buf hb tm htm 42 o.txnType o.amount o.amountOther (by omega) h1 h2 h3
  obtain ⟨ps', e', hp'⟩ := C109_params buf' hb' tm' htm' 42 o'.txnType o'.amount o'.amountOther (by omega) h1' h2' h3'
  refine ⟨_, _, by rw [load, e, bind_ok], by rw [load, e', bind_ok], ?_⟩
  simp only [push_all, List.nil_append]
  refine C145_transaction alloc mem mem' hmem hmem'
    { Ctx.init with config := configFields, supported := supportedFields, params := ps } input script hsm ps' configFields
    fun r hr => sameFor_of_lookup ?_
  have key : ∀ a b : List Tlv, lookup [a, b] (beNat r.tag) = (field (beNat r.tag) a).or (field (beNat r.tag) b) := by
    intro a b
    rw [← find_field, ← find_field]
    simp only [lookup, find, List.flatten_cons, List.flatten_nil, List.append_nil, List.find?_append]
    cases List.find? (fun t => t.tag == beNat r.tag) a <;> rfl
  rw [key, key]
  simp only
  have hf : field (beNat r.tag) ps = field (beNat r.tag) ps' := by
    by_cases hm : beNat r.tag ∈ ps.map (·.tag)
    · rw [hp.tags] at hm
      have use : ∀ {tags : List Nat} {q : Prop} (v : Prop), Unasked script tags ∨ q → beNat r.tag ∈ tags → (q → v) → v := by
        intro tags q v h hm hq
        rcases h with h | h
        · exact absurd hm (h r hr)
        · exact hq h
      simp only [List.mem_cons, List.not_mem_nil, or_false] at hm
      rcases hm with h | h | h | h | h | h | h | h | h | h <;> rw [h]
      · exact numeric_unique hp.counter hp'.counter
      · refine use _ hdate (by simp [h]) fun q => numeric_unique hp.date ?_
        rw [q.1, q.2.1, q.2.2]; exact hp'.date
      · refine use _ htime (by simp [h]) fun q => numeric_unique hp.time ?_
        rw [q.1, q.2.1, q.2.2]; exact hp'.time
      · exact numeric_unique hp.currency hp'.currency
      · exact numeric_unique hp.exponent hp'.exponent
      · refine use _ htype (by simp [h]) fun q => ?_
        obtain ⟨b, k1, k2⟩ := hp.type
        obtain ⟨b', k1', k2'⟩ := hp'.type
        rw [k1, k1', UInt8.toNat_inj.mp (show b.toNat = b'.toNat by omega)]
      · refine use _ hamount (by simp [h]) fun q => numeric_unique hp.amount.1 ?_
        rw [q]; exact hp'.amount.1
      · refine use _ hamount (by simp [h]) fun q => binary_unique hp.amount.2 ?_
        rw [q]; exact hp'.amount.2
      · refine use _ hother (by simp [h]) fun q => numeric_unique hp.other.1 ?_
        rw [q]; exact hp'.other.1
      · refine use _ hother (by simp [h]) fun q => binary_unique hp.other.2 ?_
        rw [q]; exact hp'.other.2
    · rw [field_none hm, field_none (by rw [hp'.tags, ← hp.tags]; exact hm)]
  rw [hf]

/-- A card whose FCI has no PDOL asks for nothing; one with a PDOL for 9F02 asks for it. -/
example :
    Unasked [⟨0, [0x6F, 0x07, 0x84, 0x05, 0xA0, 0, 0, 0, 3], 0x9000⟩] [0x9F02] ∧
    AskedBy [⟨0, [0x6F, 0x0D, 0x84, 0x05, 0xA0, 0, 0, 0, 3, 0x9F, 0x38, 0x03, 0x9F, 0x02, 0x06], 0x9000⟩]
      ⟨[0x9F, 0x02], 6⟩ := by
  constructor
  · rintro r ⟨w, hw, name, tlvs, rs, ⟨len, f, h1, h2, h3, rfl, -⟩, -, h4, -⟩
    cases List.mem_singleton.mp hw
    have hg := forest_leaves_unique (.node [0x6F] [0x07] (.leaf ⟨[0x84], [0x05], [0xA0, 0, 0, 0, 3]⟩ .nil) .nil)
      (.node [0x6F] len f .nil)
      ⟨Print.isTag_one _ (by decide), by decide, .short 7 (by decide),
        ⟨⟨Print.isTag_one _ (by decide), .short 5 (by decide)⟩, by decide, trivial⟩, trivial⟩
      ⟨Print.isTag_one _ (by decide), by decide, h2, h1, trivial⟩
      (by simp only [XForest.enc, List.append_nil, ← h3]; rfl)
    simp only [XForest.leaves, List.append_nil] at hg
    rw [← hg] at h4
    exact absurd h4 (by simp [Forest.leaves, field, beNat])
  · refine ⟨_, .head _, [0xA0, 0, 0, 0, 3], _, [⟨[0x9F, 0x02], 6⟩],
      ⟨[0x0D], .leaf ⟨[0x84], [0x05], [0xA0, 0, 0, 0, 3]⟩ (.leaf ⟨[0x9F, 0x38], [0x03], [0x9F, 0x02, 0x06]⟩ .nil),
        ⟨⟨Print.isTag_one _ (by decide), .short 5 (by decide)⟩, by decide,
          ⟨Print.isTag_9F _ (by decide), .short 3 (by decide)⟩, by decide, trivial⟩,
        .short 13 (by decide), rfl, rfl, by decide⟩, ?_, by decide, .head _⟩
    intro q hq
    cases List.mem_singleton.mp hq
    exact Print.isTag_9F _ (by decide)

/-- A transaction with two amounts and a card that asks for the type only. -/
example :
    let fci : List Byte := [0x6F, 0x0C, 0x84, 0x05, 0xA0, 0, 0, 0, 4, 0x9F, 0x38, 0x02, 0x9C, 0x01]
    let gpo : List Byte := [0x77, 0x0A, 0x82, 0x02, 0x39, 0, 0x94, 4, 8, 1, 1, 0]
    let rec1 : List Byte := [0x70, 13, 0x5A, 1, 0x12, 0x5F, 0x24, 1, 0x31, 0x8C, 1, 0x9A, 0x8D, 1, 0x8A]
    let ctx : Ctx := { Ctx.init with
      supported := [⟨0x9F06, 0, [0xA0, 0, 0, 0, 4]⟩], params := [⟨0x9C, 0, [0x20]⟩, ⟨0x9F02, 0, [0, 0, 0, 0, 0, 1]⟩] }
    let p : List Tlv := [⟨0x9F02, 0, [0, 0, 0, 0, 0, 2]⟩, ⟨0x9C, 0, [0x20]⟩]
    let script : List W := [⟨0, [], 0x6A82⟩, ⟨0, fci, 0x9000⟩, ⟨0, fci, 0x9000⟩, ⟨0, gpo, 0x9000⟩, ⟨0, rec1, 0x9000⟩]
    let run := transaction (fun _ _ => true) (fun _ => List.replicate 255 0) ctx [] script
    (runOf run).map (fun x => (x.1.drop 2, x.2.how)) =
      some ([.select false [0xA0, 0, 0, 0, 4], .gpo (some [0x83, 1, 0x20]), .readRecord 1 1], .done) ∧
    transaction (fun _ _ => true) (fun _ => List.replicate 255 0xEE) (setData p [] ctx) [] script =
      mapRun (setEnd p []) run := by
  decide +kernel

end Verif.Tells
