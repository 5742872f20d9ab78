import Verif.TraceReason
import Verif.TraceTtl
import Verif.ListsLemmas
import Verif.BerInv

/-! # Lemmas on the reasons reported by the Terminal Application Layer -/

set_option autoImplicit false

namespace Verif.Trace
open Verif Ber TlvParse App Fields Tal

/-- Four hexadecimal digits with the value `n`. -/
def Hex4 (t : List Byte) (n : Nat) : Prop :=
  t.length = 4 ∧ (∀ d ∈ t, d ∈ txt!"0123456789ABCDEF") ∧
    t.foldl (fun v d => 16 * v + (txt!"0123456789ABCDEF").idxOf d) 0 = n

theorem digit_ok : ∀ d : Fin 16, Bits.hexDigit d.val ∈ txt!"0123456789ABCDEF" ∧
    (txt!"0123456789ABCDEF").idxOf (Bits.hexDigit d.val) = d.val := by decide +kernel

theorem hex04_spec (n : Nat) : Hex4 (hex04 n) (n % 65536) := by
  have h := fun k (hk : k < 16) => digit_ok ⟨k, hk⟩
  have h1 := h (n / 4096 % 16) (by omega)
  have h2 := h (n / 256 % 16) (by omega)
  have h3 := h (n / 16 % 16) (by omega)
  have h4 := h (n % 16) (by omega)
  refine ⟨rfl, ?_, ?_⟩
  · intro d hd
    simp only [hex04, List.mem_cons, List.not_mem_nil, or_false] at hd
    rcases hd with rfl | rfl | rfl | rfl
    · exact h1.1
    · exact h2.1
    · exact h3.1
    · exact h4.1
  · simp only [hex04, List.foldl_cons, List.foldl_nil, h1.2, h2.2, h3.2, h4.2]
    omega

/-- The fields of an answer to GET PROCESSING OPTIONS in its two formats; none in another. -/
def GpoFields (data : List Byte) (l : List Tlv) : Prop :=
  ∃ n t, decode data = .ok (.ok n t) ∧
    (t.tag = 0x80 → ∃ a f, t.value = a ++ f ∧ a.length = 2 ∧ l = [⟨0x82, 0, a⟩, ⟨0x94, 0, f⟩]) ∧
    (t.tag = 0x77 → ∃ alloc, parse alloc t.value [] = .ok (0, l)) ∧
    (t.tag ≠ 0x80 → t.tag ≠ 0x77 → l = [])

/-- Why a function of the Terminal Application Layer returns `c` (emv_tal.h:44-79), given the
last command with its answer: the level and the text of the event. -/
inductive Cause : Int → Option (Cmd × W) → Nat → List Byte → Prop
  | internal (p : Option (Cmd × W)) : Cause (-1) p 1 txt!"Internal error"
  | reader (p : Option (Cmd × W)) : Cause (-3) p 1 txt!"TTL failure"
  | blocked (cmd : Cmd) (w : W) (h : w.code = 0 ∧ w.sw = 0x6A81) :
      Cause (-4) (some (cmd, w)) 1 txt!"Card blocked or SELECT not supported"
  | gpoStatus (cmd : Cmd) (w : W) (t : List Byte)
      (h : w.code = 0 ∧ w.sw ≠ 0x9000 ∧ w.sw ≠ 0x6985) (ht : Hex4 t (w.sw % 65536)) :
      Cause (-5) (some (cmd, w)) 1 (txt!"SW1SW2=0x" ++ t)
  | gpoParse (cmd : Cmd) (w : W) (h : ∀ n t, decode w.data ≠ .ok (.ok n t)) :
      Cause (-6) (some (cmd, w)) 1 txt!"Failed to parse GPO response"
  | gpoLength (cmd : Cmd) (w : W) (n : Nat) (t : Tlv) (h : decode w.data = .ok (.ok n t))
      (h80 : t.tag = 0x80) (hl : t.value.length < 6 ∨ t.value.length % 4 ≠ 2) (s : List Byte)
      (hs : w.data.length < 2 ^ 32 → s = Lists.decimal t.value.length) :
      Cause (-6) (some (cmd, w)) 1 (txt!"Invalid GPO response format 1 length of " ++ s)
  | gpoFields (cmd : Cmd) (w : W) (n : Nat) (t : Tlv) (h : decode w.data = .ok (.ok n t))
      (h77 : t.tag = 0x77) :
      Cause (-6) (some (cmd, w)) 1 txt!"Failed to parse GPO response format 2"
  | gpoAip (cmd : Cmd) (w : W) (h : w.code = 0 ∧ w.sw = 0x9000) (l : List Tlv)
      (hl : GpoFields w.data l) (h82 : ∀ t ∈ l, t.tag ≠ 0x82) :
      Cause (-7) (some (cmd, w)) 1 txt!"AIP not found in GPO response"
  | gpoAfl (cmd : Cmd) (w : W) (h : w.code = 0 ∧ w.sw = 0x9000) (l : List Tlv)
      (hl : GpoFields w.data l) (h82 : ∃ t ∈ l, t.tag = 0x82) (h94 : ∀ t ∈ l, t.tag ≠ 0x94) :
      Cause (-7) (some (cmd, w)) 1 txt!"AFL not found in GPO response"
  | afl (p : Option (Cmd × W)) : Cause (-8) p 1 txt!"Invalid AFL"
  | aflEntry (p : Option (Cmd × W)) : Cause (-8) p 1 txt!"AFL parse error"
  | record (cmd : Cmd) (w : W) (h : w.code = 0 ∧ w.sw ≠ 0x9000) :
      Cause (-9) (some (cmd, w)) 1 txt!"Failed to READ RECORD"
  | recordTag (sfi rec : Byte) (w : W) (h : w.code = 0 ∧ w.sw = 0x9000)
      (hs : 1 ≤ sfi.toNat ∧ sfi.toNat ≤ 10) (hd : ∀ v, w.data ≠ 0x70 :: v) :
      Cause (-10) (some (.readRecord sfi rec, w)) 1
        (txt!"Invalid record for SFI " ++ Lists.decimal sfi.toNat)
  | recordParse (sfi rec : Byte) (w : W) (h : w.code = 0 ∧ w.sw = 0x9000)
      (hs : 1 ≤ sfi.toNat ∧ sfi.toNat ≤ 10) (hd : ∀ n t, decode w.data ≠ .ok (.ok n t)) :
      Cause (-10) (some (.readRecord sfi rec, w)) 1 txt!"Failed to parse record template"
  | recordLength (sfi rec : Byte) (w : W) (n : Nat) (t : Tlv) (h : w.code = 0 ∧ w.sw = 0x9000)
      (hs : 1 ≤ sfi.toNat ∧ sfi.toNat ≤ 10) (hd : decode w.data = .ok (.ok n t))
      (hl : t.value.length + 3 < w.data.length) (s : List Byte)
      (ht : w.data.length < 2 ^ 32 → s = Lists.decimal t.value.length) :
      Cause (-10) (some (.readRecord sfi rec, w)) 1 (txt!"Invalid record template length " ++ s)
  | fields (sfi rec : Byte) (w : W) (h : w.code = 0 ∧ w.sw = 0x9000)
      (hd : ∃ v, w.data = 0x70 :: v) :
      Cause (-11) (some (.readRecord sfi rec, w)) 1 txt!"Failed to parse application data record"
  | pseAbsent (cmd : Cmd) (w : W) (h : w.code = 0 ∧ w.sw = 0x6A82) :
      Cause 1 (some (cmd, w)) 2 txt!"PSE not found"
  | pseBlocked (cmd : Cmd) (w : W) (h : w.code = 0 ∧ w.sw = 0x6283) :
      Cause 2 (some (cmd, w)) 1 txt!"PSE is blocked"
  | pseRefused (cmd : Cmd) (w : W)
      (h : w.code = 0 ∧ w.sw ≠ 0x9000 ∧ w.sw ≠ 0x6A81 ∧ w.sw ≠ 0x6A82 ∧ w.sw ≠ 0x6283) :
      Cause 3 (some (cmd, w)) 1 txt!"Failed to SELECT PSE"
  | pseParse (cmd : Cmd) (w : W) (h : w.code = 0 ∧ w.sw = 0x9000) :
      Cause 4 (some (cmd, w)) 1 txt!"Failed to parse FCI"
  | pseSfi (cmd : Cmd) (w : W) (h : w.code = 0 ∧ w.sw = 0x9000) :
      Cause 5 (some (cmd, w)) 1 txt!"Failed to find SFI for PSE records"
  | pseSfiLength (cmd : Cmd) (w : W) (h : w.code = 0 ∧ w.sw = 0x9000) :
      Cause 6 (some (cmd, w)) 1 txt!"Invalid SFI length or value for PSE records"
  | appAbsent (cmd : Cmd) (w : W) (h : w.code = 0 ∧ w.sw = 0x6A82) :
      Cause 9 (some (cmd, w)) 2 txt!"Application not found"
  | appBlocked (cmd : Cmd) (w : W) (h : w.code = 0 ∧ w.sw = 0x6283) :
      Cause 10 (some (cmd, w)) 2 txt!"Application is blocked"
  | appStatus (cmd : Cmd) (w : W) (t : List Byte)
      (h : w.code = 0 ∧ w.sw ≠ 0x9000 ∧ w.sw ≠ 0x6A81 ∧ w.sw ≠ 0x6A82 ∧ w.sw ≠ 0x6283)
      (ht : Hex4 t (w.sw % 65536)) :
      Cause 11 (some (cmd, w)) 1 (txt!"SW1SW2=0x" ++ t ++ [0x0A])
  | appName (cmd : Cmd) (w : W) (h : w.code = 0 ∧ w.sw = 0x9000) :
      Cause 11 (some (cmd, w)) 1 txt!"DF Name mismatch"
  | appParse (cmd : Cmd) (w : W) (h : w.code = 0 ∧ w.sw = 0x9000) :
      Cause 12 (some (cmd, w)) 1 txt!"Failed to parse application FCI"
  | gpoConditions (cmd : Cmd) (w : W) (h : w.code = 0 ∧ w.sw = 0x6985) :
      Cause 13 (some (cmd, w)) 2 txt!"Conditions of use not satisfied"

/-- The last command that was answered, and its answer. -/
def lastAnswer : List Entry → Option (Cmd × W)
  | [] => none
  | .said _ :: l => lastAnswer l
  | .did cmd w :: l => (lastAnswer l).or (some (cmd, w))

/-- A run that fails says why at last: the reason for its result and the last answer (`p` if
there is none in the run).  Not explained: invalid parameters (−2); 14 is no failure. -/
def Why {α : Type} (code : α → Int) (p : Option (Cmd × W)) (x : C (Tr α)) : Prop :=
  ∀ l a rest, x = .ok (l, .done a rest) → code a ≠ 0 → code a ≠ 14 → code a ≠ -2 →
    ∃ e, l.getLast? = some (.said e) ∧ e.source = 2 ∧
      Cause (code a) ((lastAnswer l).or p) e.level e.text

variable {α β : Type} {code : α → Int} {p : Option (Cmd × W)}

theorem lastAnswer_said (es : List Event) (l : List Entry) :
    lastAnswer (es.map Entry.said ++ l) = lastAnswer l := by
  induction es with
  | nil => rfl
  | cons e es ih => exact ih

theorem lastAnswer_append : ∀ (l l' : List Entry),
    lastAnswer (l ++ l') = (lastAnswer l').or (lastAnswer l)
  | [], l' => by simp [lastAnswer]
  | .said e :: l, l' => lastAnswer_append l l'
  | .did cmd w :: l, l' => by
    simp only [List.cons_append, lastAnswer, lastAnswer_append l l']
    cases lastAnswer l' <;> rfl

theorem why_fin {a : α} {rest : List W} (h : code a = 0 ∨ code a = 14 ∨ code a = -2) :
    Why code p (fin a rest) := by
  intro l b r e h0 h14 h2
  cases e
  omega

theorem why_tail {es : List Event} {e : Event} {a : α} {rest : List W}
    (hl : es.getLast? = some e) (hs : e.source = 2) (hc : Cause (code a) p e.level e.text) :
    Why code p (says es (fin a rest)) := by
  intro l b r h _ _ _
  cases h
  refine ⟨e, ?_, hs, ?_⟩
  · simp [List.getLast?_map, hl]
  · rw [lastAnswer_said]; exact hc

theorem why_last {e : Event} {a : α} {rest : List W} (hs : e.source = 2)
    (hc : Cause (code a) p e.level e.text) : Why code p (says [e] (fin a rest)) :=
  why_tail rfl hs hc

theorem why_says {es : List Event} {x : C (Tr α)} (h : Why code p x) : Why code p (says es x) := by
  intro l a rest e h0 h1 h2
  obtain ⟨l', e', rfl⟩ := says_inv e
  obtain ⟨ev, hl, hs, hc⟩ := h _ _ _ e' h0 h1 h2
  exact ⟨ev, by simp [List.getLast?_append, hl], hs, by rw [lastAnswer_said]; exact hc⟩

theorem why_did {cmd : Cmd} {w : W} {x : C (Tr α)} (h : Why code (some (cmd, w)) x) :
    Why code p (did cmd w x) := by
  intro l a rest e h0 h1 h2
  obtain ⟨l', e', rfl⟩ := did_inv e
  obtain ⟨ev, hl, hs, hc⟩ := h _ _ _ e' h0 h1 h2
  refine ⟨ev, ?_, hs, ?_⟩
  · rw [List.getLast?_cons, hl]; rfl
  · simp only [lastAnswer]
    cases hq : lastAnswer l' with
    | none => rw [hq] at hc; exact hc
    | some q => rw [hq] at hc; exact hc

theorem why_error {u : UB} : Why code p (.error u : C (Tr α)) := by
  intro l a rest e; cases e

theorem why_pending {cmd : Cmd} : Why code p (.ok ([], .pending cmd) : C (Tr α)) := by
  intro l a rest e; cases e

theorem why_bind {x : C β} {f : β → C (Tr α)} (h : ∀ b, x = .ok b → Why code p (f b)) :
    Why code p (x >>= f) := by
  intro l a rest e
  cases x with
  | error u => cases e
  | ok b => exact h b rfl l a rest e

theorem why_ite {c : Prop} [Decidable c] {x y : C (Tr α)} (hx : c → Why code p x)
    (hy : ¬ c → Why code p y) : Why code p (if c then x else y) := by
  split
  · exact hx ‹_›
  · exact hy ‹_›

/-! ## Records -/

theorem tag_70 {v : List Byte} {n : Nat} {t : Tlv} (h : decode (0x70 :: v) = .ok (.ok n t)) :
    t.tag = 0x70 := by
  obtain ⟨tag, rest, ht, hb, _, hx⟩ := decode_inv h
  cases tag with
  | nil => cases ht
  | cons b r =>
    have hb0 : b = 0x70 := by
      rcases hx with ⟨_, _, e, _⟩ | ⟨_, e, _⟩ <;> (injection e with h1 _; exact h1.symm)
    subst hb0
    rcases ht with ⟨_, rfl⟩ | ⟨h, _⟩
    · rw [hb]; rfl
    · exact absurd h (by decide)

theorem why_stop {alloc : List Tlv → Tlv → Bool} {sfi rec : Byte} {w : W} {oda : Bool}
    {list list' : List Tlv} {es : List Event} {c : Int}
    (hw : w.code = 0 ∧ w.sw = 0x9000)
    (h : record alloc sfi w.data oda list = .ok (es, .stop c list')) :
    ∃ e, es.getLast? = some e ∧ e.source = 2 ∧
      Cause c (some (.readRecord sfi rec, w)) e.level e.text := by
  unfold record at h
  split at h
  · cases h
  rename_i hl
  cases hb : rd w.data 0 with
  | error u => rw [hb] at h; cases h
  | ok b =>
    have hd : ∃ v, w.data = b :: v := by
      revert hb
      cases w.data with
      | nil => intro hb; simp [rd] at hb
      | cons x v => intro hb; simp [rd] at hb; exact ⟨v, by rw [hb]⟩
    rw [hb] at h
    simp only [bind_ok] at h
    split at h
    · rename_i hb70
      split at h
      · rename_i hs
        cases h
        refine ⟨_, rfl, rfl, ?_⟩
        show Cause _ _ 1 (_ ++ Lists.decU sfi.toNat)
        rw [Lists.decU_spec _ (by have := sfi.toNat_lt; omega)]
        refine .recordTag sfi rec w hw hs fun v hv => ?_
        obtain ⟨v', hv'⟩ := hd
        rw [hv'] at hv
        injection hv with h1 _
        exact hb70 h1
      · cases h
    · rename_i hb70
      have hb70 : b = 0x70 := by simpa using hb70
      subst hb70
      cases ht : template sfi w.data oda with
      | error u => rw [ht] at h; cases h
      | ok q =>
        obtain ⟨es', bad⟩ := q
        rw [ht] at h
        simp only [bind_ok] at h
        split at h
        · rename_i hbad
          cases h
          subst hbad
          unfold template at ht
          split at ht
          · rename_i hs
            cases hdec : decode w.data with
            | error u => rw [hdec] at ht; cases ht
            | ok d =>
              rw [hdec] at ht
              simp only [bind_ok] at ht
              cases d with
              | eod =>
                cases ht
                exact ⟨_, rfl, rfl, .recordParse sfi rec w hw hs (by rw [hdec]; intro n t h; cases h)⟩
              | err n =>
                cases ht
                exact ⟨_, rfl, rfl, .recordParse sfi rec w hw hs (by rw [hdec]; intro n t h; cases h)⟩
              | ok n t =>
                simp only at ht
                split at ht
                · rename_i h70
                  obtain ⟨v, hv⟩ := hd
                  exact absurd (tag_70 (hv ▸ hdec)) h70
                · split at ht
                  · rename_i hlen
                    cases ht
                    exact ⟨_, rfl, rfl, .recordLength sfi rec w n t hw hs hdec hlen _ fun h32 =>
                      Lists.decU_spec _ (by omega)⟩
                  · cases ht
          · cases ht
        · cases hp : parse alloc w.data list with
          | error u => rw [hp] at h; cases h
          | ok q =>
            rw [hp] at h
            simp only [bind_ok] at h
            split at h
            · cases h
              exact ⟨Trace.internal, by simp, rfl, .internal _⟩
            · split at h
              · cases h
                exact ⟨_, by simp; rfl, rfl, .fields sfi rec w hw hd⟩
              · cases h

theorem andThen_inv {α β : Type} {x : C (Tr β)} {f : β → List W → C (Tr α)} {l : List Entry}
    {a : α} {rest : List W} (h : andThen x f = .ok (l, .done a rest)) :
    ∃ l1 b r l2, x = .ok (l1, .done b r) ∧ f b r = .ok (l2, .done a rest) ∧ l = l1 ++ l2 := by
  cases x with
  | error u => cases h
  | ok q =>
    obtain ⟨l1, o⟩ := q
    cases o with
    | pending cmd => cases h
    | done b r1 =>
      simp only [andThen, bind_ok] at h
      cases hq : f b r1 with
      | error u => rw [hq] at h; cases h
      | ok q =>
        obtain ⟨l2, o2⟩ := q
        rw [hq] at h
        cases h
        exact ⟨l1, b, r1, l2, rfl, hq, rfl⟩

theorem record_stop {alloc : List Tlv → Tlv → Bool} {sfi : Byte} {data : List Byte} {oda : Bool}
    {list list' : List Tlv} {es : List Event} {c : Int}
    (h : record alloc sfi data oda list = .ok (es, .stop c list')) : c < 0 ∧ c ≠ -2 ∧ c ≠ -8 := by
  unfold record at h
  split at h
  · cases h
  obtain ⟨b, _, h⟩ := Ttl.bind_inv h
  split at h
  · split at h <;> cases h
    decide
  · obtain ⟨⟨es', bad⟩, _, h⟩ := Ttl.bind_inv h
    simp only at h
    split at h
    · cases h; decide
    · obtain ⟨⟨r, l⟩, _, h⟩ := Ttl.bind_inv h
      simp only at h
      repeat' split at h
      all_goals first | (cases h; decide) | cases h

theorem record_code {alloc : List Tlv → Tlv → Bool} {sfi : Byte} {data : List Byte} {oda : Bool}
    {list list' : List Tlv} {es : List Event} {c : Int}
    (h : record alloc sfi data oda list = .ok (es, .stop c list')) : c < 0 ∧ c ≠ -2 :=
  ⟨(record_stop h).1, (record_stop h).2.1⟩

theorem why_sfiLoop (alloc : List Tlv → Tlv → Bool) (sfi last : Byte) :
    ∀ (script : List W) (rec : Byte) (oda : Bool) (list : List Tlv) (p : Option (Cmd × W)),
      Why (·.1) p (sfiLoop alloc sfi last script rec oda list) := by
  intro script
  induction script with
  | nil =>
    intro rec oda list p
    rw [sfiLoop]
    refine why_ite (fun _ => why_fin (by cases oda <;> simp)) (fun _ => why_says ?_)
    exact why_ite (fun _ => why_last rfl (.reader _)) (fun _ => why_pending)
  | cons w rest ih =>
    intro rec oda list p
    rw [sfiLoop]
    refine why_ite (fun _ => why_fin (by cases oda <;> simp)) (fun _ => why_says ?_)
    refine why_ite (fun _ => why_last rfl (.reader _)) (fun _ => why_did ?_)
    refine why_ite (fun _ => why_last rfl (.reader _)) (fun hc => ?_)
    have hc : w.code = 0 := by omega
    refine why_ite (fun hs => why_last rfl (.record _ w ⟨hc, hs⟩)) (fun hs => ?_)
    refine why_bind fun b hb => ?_
    obtain ⟨es, r⟩ := b
    cases r with
    | stop code list =>
      obtain ⟨e, hl, he, hcause⟩ := why_stop ⟨hc, by omega⟩ hb
      exact why_tail hl he hcause
    | spoilt => exact why_says (ih _ _ _ _)
    | next list => exact why_says (ih _ _ _ _)

theorem why_andThen {code' : β → Int} {x : C (Tr β)} {f : β → List W → C (Tr α)}
    (hx : ∀ q, Why code' q x)
    (hf : ∀ b rest, (∀ q, Why code q (f b rest)) ∨
      ∃ a, f b rest = fin a rest ∧ code a = code' b) :
    Why code p (andThen x f) := by
  intro l a rest e h0 h1 h2
  cases x with
  | error u => cases e
  | ok q =>
    obtain ⟨l1, o⟩ := q
    cases o with
    | pending cmd => cases e
    | done b r1 =>
      simp only [andThen, bind_ok] at e
      cases hq : f b r1 with
      | error u => rw [hq] at e; cases e
      | ok q =>
        obtain ⟨l2, o2⟩ := q
        rw [hq] at e
        cases e
        rcases hf b r1 with h | ⟨a', ha', hc⟩
        · obtain ⟨ev, hl, hs, hcause⟩ := h ((lastAnswer l1).or p) _ _ _ hq h0 h1 h2
          refine ⟨ev, by simp [List.getLast?_append, hl], hs, ?_⟩
          rw [lastAnswer_append, Option.or_assoc]
          exact hcause
        · rw [ha'] at hq
          cases hq
          rw [hc] at h0 h1 h2 ⊢
          obtain ⟨ev, hl, hs, hcause⟩ := hx p _ _ _ rfl h0 h1 h2
          exact ⟨ev, by simpa using hl, hs, by simpa using hcause⟩

theorem why_aflLoop (alloc : List Tlv → Tlv → Bool) :
    ∀ (fuel : Nat) (itr : List Byte) (oda : Bool) (list : List Tlv) (script : List W)
      (p : Option (Cmd × W)), Why (·.1) p (aflLoop alloc fuel itr oda list script) := by
  intro fuel
  induction fuel with
  | zero => intros; exact why_error
  | succ n ih =>
    intro itr oda list script p
    rw [aflLoop]
    refine why_bind fun b hb => ?_
    obtain ⟨itr', r⟩ := b
    cases r with
    | eod => exact why_fin (by cases oda <;> simp)
    | err n => exact why_last rfl (.aflEntry _)
    | ok k e =>
      refine why_andThen (fun q => why_sfiLoop _ _ _ _ _ _ _ _) fun a rest => ?_
      by_cases h0 : a.1 = 0
      · refine Or.inl fun q => ?_
        simp only [h0, if_true]
        exact ih _ _ _ _ _
      · by_cases h14 : a.1 = 14
        · refine Or.inl fun q => ?_
          simp only [h14, if_true, if_neg (show ¬ ((14 : Int) = 0) by decide)]
          exact ih _ _ _ _ _
        · refine Or.inr ⟨a, ?_, rfl⟩
          simp only [h0, h14, if_false]

theorem why_readAfl (alloc : List Tlv → Tlv → Bool) (afl : List Byte) (list : List Tlv)
    (script : List W) : Why (·.1) p (readAfl alloc afl list script) := by
  unfold readAfl
  refine why_ite (fun _ => why_fin (by simp)) (fun _ => ?_)
  refine why_ite (fun _ => why_last rfl (.internal _)) (fun _ => ?_)
  exact why_ite (fun _ => why_last rfl (.afl _)) (fun _ => why_aflLoop _ _ _ _ _ _ _)

/-! ## GET PROCESSING OPTIONS -/

theorem why_fields {alloc : List Tlv → Tlv → Bool} {cmd : Cmd} {w : W} {es : List Event} {c : Int}
    (h : gpoFields alloc w.data = .ok (es, .error c)) :
    ∃ e, es.getLast? = some e ∧ e.source = 2 ∧ Cause c (some (cmd, w)) e.level e.text := by
  unfold gpoFields at h
  cases hd : decode w.data with
  | error u => rw [hd] at h; cases h
  | ok d =>
    rw [hd] at h
    simp only [bind_ok] at h
    cases d with
    | eod => cases h; exact ⟨_, rfl, rfl, .gpoParse cmd w (by rw [hd]; intro n t h; cases h)⟩
    | err n => cases h; exact ⟨_, rfl, rfl, .gpoParse cmd w (by rw [hd]; intro n t h; cases h)⟩
    | ok n t =>
      simp only at h
      split at h
      · rename_i h80
        split at h
        · rename_i hl
          cases h
          refine ⟨_, rfl, rfl, .gpoLength cmd w n t hd h80 (by omega) _ fun h32 =>
            Lists.decU_spec _ ?_⟩
          obtain ⟨tag, rest, _, _, _, hx⟩ := decode_inv hd
          rcases hx with ⟨len, _, e, _⟩ | ⟨_, e, _⟩ <;>
            (have := congrArg List.length e; simp only [List.length_append] at this; omega)
        · cases h1 : slice t.value 0 2 with
          | error u => rw [h1] at h; cases h
          | ok a =>
            rw [h1] at h
            simp only [bind_ok] at h
            cases h2 : slice t.value 2 (t.value.length - 2) with
            | error u => rw [h2] at h; cases h
            | ok f =>
              rw [h2] at h
              simp only [bind_ok] at h
              repeat' split at h
              all_goals first
                | (cases h; exact ⟨Trace.internal, rfl, rfl, .internal _⟩)
                | cases h
      · split at h
        · rename_i h77
          cases hp : parse alloc t.value [] with
          | error u => rw [hp] at h; cases h
          | ok q =>
            rw [hp] at h
            simp only [bind_ok] at h
            repeat' split at h
            all_goals first
              | (cases h; exact ⟨Trace.internal, rfl, rfl, .internal _⟩)
              | (cases h; exact ⟨_, rfl, rfl, .gpoFields cmd w n t hd h77⟩)
              | cases h
        · cases h

theorem fields_ok {alloc : List Tlv → Tlv → Bool} {data : List Byte} {es : List Event}
    {l : List Tlv} (h : gpoFields alloc data = .ok (es, .ok l)) : GpoFields data l := by
  unfold gpoFields at h
  obtain ⟨d, hd, h⟩ := Ttl.bind_inv h
  cases d with
  | eod => cases h
  | err n => cases h
  | ok n t =>
    simp only at h
    refine ⟨n, t, hd, ?_⟩
    split at h
    · rename_i h80
      split at h
      · cases h
      rename_i hl
      obtain ⟨a, ha, h⟩ := Ttl.bind_inv h
      obtain ⟨f, hf, h⟩ := Ttl.bind_inv h
      rw [slice_eq (by omega)] at ha hf
      cases ha
      cases hf
      repeat' split at h
      all_goals cases h
      refine ⟨fun _ => ⟨_, _, ?_, ?_, rfl⟩, fun h => ?_, fun h => absurd h80 h⟩
      · rw [List.take_of_length_le (l := t.value.drop 2) (by simp)]
        simp [List.take_append_drop]
      · simp; omega
      · omega
    · rename_i h80
      split at h
      · rename_i h77
        obtain ⟨⟨r, l'⟩, hp, h⟩ := Ttl.bind_inv h
        simp only at h
        repeat' split at h
        all_goals cases h
        have : r = 0 := by omega
        subst this
        exact ⟨fun h => absurd h h80, fun _ => ⟨alloc, hp⟩, fun _ h => absurd h77 h⟩
      · rename_i h77
        cases h
        exact ⟨fun h => absurd h h80, fun h => absurd h h77, fun _ _ => rfl⟩

theorem find_none {l : List Tlv} {tag : Nat} (h : find l tag = none) : ∀ t ∈ l, t.tag ≠ tag := by
  unfold find at h
  simpa using h

theorem find_some {l : List Tlv} {tag : Nat} {t : Tlv} (h : find l tag = some t) :
    ∃ t ∈ l, t.tag = tag := by
  unfold find at h
  exact ⟨t, List.mem_of_find?_eq_some h, by simpa using List.find?_some h⟩

theorem why_send {refused : Bool} {cmd : Cmd} {script : List W} {k : W → List W → C (Tr α)}
    (h0 : Why code p (k ⟨-3, [], 0⟩ script))
    (h : ∀ w rest, Why code (some (cmd, w)) (k w rest)) :
    Why code p (send refused cmd script k) := by
  unfold send
  refine why_ite (fun _ => h0) (fun _ => ?_)
  cases script with
  | nil => exact why_pending
  | cons w rest => exact why_did (h w rest)

theorem why_gpo (alloc : List Tlv → Tlv → Bool) (data : Option (List Byte)) (list : List Tlv)
    (script : List W) : Why Gpo.code p (gpo alloc data list script) := by
  unfold gpo
  refine why_ite (fun _ => why_fin (by simp)) (fun _ => why_says ?_)
  refine why_send ?_ fun w rest => ?_
  · rw [if_pos (by decide)]
    exact why_last rfl (.reader _)
  · refine why_ite (fun _ => why_last rfl (.reader _)) (fun hc => ?_)
    have hc : w.code = 0 := by omega
    refine why_ite (fun hs => why_ite (fun h69 => why_last rfl (.gpoConditions _ w ⟨hc, h69⟩))
      (fun h69 => why_last rfl (.gpoStatus _ w _ ⟨hc, hs, h69⟩ (hex04_spec _)))) (fun hs => ?_)
    have hs : w.sw = 0x9000 := by omega
    refine why_says ?_
    refine why_bind fun b hb => ?_
    obtain ⟨es, r⟩ := b
    cases r with
    | error c =>
      obtain ⟨e, hl, he, hcause⟩ := why_fields hb
      exact why_tail hl he hcause
    | ok l =>
      refine why_says ?_
      cases h82 : find l 0x82 with
      | none => exact why_last rfl (.gpoAip _ w ⟨hc, hs⟩ l (fields_ok hb) (find_none h82))
      | some a =>
        cases h94 : find l 0x94 with
        | none =>
          exact why_last rfl (.gpoAfl _ w ⟨hc, hs⟩ l (fields_ok hb) (find_some h82) (find_none h94))
        | some f => exact why_fin (by simp)

/-! ## Application selection -/

theorem why_selectApp (aid : List Byte) (script : List W) :
    Why (·.1) p (selectApp aid script) := by
  unfold selectApp
  refine why_ite (fun _ => why_fin (by simp)) (fun _ => why_says ?_)
  refine why_send ?_ fun w rest => ?_
  · rw [if_pos (by decide)]
    exact why_last rfl (.reader _)
  · refine why_ite (fun _ => why_last rfl (.reader _)) (fun hc => ?_)
    have hc : w.code = 0 := by omega
    refine why_ite (fun hs => ?_) (fun hs => ?_)
    · refine why_ite (fun h1 => why_last rfl (.blocked _ w ⟨hc, h1⟩)) (fun h1 => ?_)
      refine why_ite (fun h2 => why_last rfl (.appAbsent _ w ⟨hc, h2⟩)) (fun h2 => ?_)
      refine why_ite (fun h3 => why_last rfl (.appBlocked _ w ⟨hc, h3⟩)) (fun h3 => ?_)
      exact why_last rfl (.appStatus _ w _ ⟨hc, hs, h1, h2, h3⟩ (hex04_spec _))
    · have hs : w.sw = 0x9000 := by omega
      refine why_says ?_
      refine why_bind fun b hb => ?_
      cases b with
      | none => exact why_last rfl (.appParse _ w ⟨hc, hs⟩)
      | some app =>
        refine why_ite (fun _ => why_last rfl (.appName _ w ⟨hc, hs⟩)) (fun _ => ?_)
        refine why_bind fun a _ => ?_
        exact why_ite (fun _ => why_last rfl (.appName _ w ⟨hc, hs⟩)) (fun _ => why_fin (by simp))

theorem aefRecord_code {junk : Nat} {pse supported : List Tlv} {data : List Byte}
    {apps : List App} {es : List Event} {r : Int} {apps' : List App}
    (h : aefRecord junk pse supported data apps = .ok (es, r, apps')) : 0 ≤ r := by
  unfold aefRecord at h
  cases hd : decode data with
  | error u => rw [hd] at h; cases h
  | ok d =>
    rw [hd] at h
    simp only [bind_ok] at h
    cases d with
    | eod => cases h; decide
    | err n => cases h; decide
    | ok n t =>
      simp only at h
      split at h
      · cases h; decide
      · cases hl : aefLoop pse supported (t.value.length + 1) t.value apps with
        | error u => rw [hl] at h; cases h
        | ok q => rw [hl] at h; cases h; decide

theorem why_pseLoop (junk : Nat → Nat) (pse supported : List Tlv) (sfi : Byte) :
    ∀ (script : List W) (rec : Byte) (apps : List App) (p : Option (Cmd × W)),
      Why (·.1) p (pseLoop junk pse supported sfi script rec apps) := by
  intro script
  induction script with
  | nil =>
    intro rec apps p
    rw [pseLoop]
    exact why_ite (fun _ => why_last rfl (.reader _)) (fun _ => why_pending)
  | cons w rest ih =>
    intro rec apps p
    rw [pseLoop]
    refine why_ite (fun _ => why_last rfl (.reader _)) (fun _ => why_did ?_)
    refine why_ite (fun _ => why_last rfl (.reader _)) (fun hc => ?_)
    refine why_ite (fun _ => why_says (why_fin (by simp))) (fun _ => ?_)
    refine why_ite (fun _ => why_says (ih _ _ _)) (fun hw => ?_)
    refine why_says ?_
    refine why_bind fun b hb => ?_
    obtain ⟨es, r, apps'⟩ := b
    have hr := aefRecord_code hb
    refine why_ite (fun h => absurd h (by omega)) (fun _ => ?_)
    exact why_ite (fun _ => why_says (ih _ _ _)) (fun _ => why_says (ih _ _ _))

theorem why_readPse (junk : Nat → Nat) (supported : List Tlv) (apps : List App)
    (script : List W) : Why (·.1) p (readPse junk supported apps script) := by
  unfold readPse
  refine why_says ?_
  refine why_send ?_ fun w rest => ?_
  · rw [if_pos (by decide)]
    exact why_last rfl (.reader _)
  · refine why_ite (fun _ => why_last rfl (.reader _)) (fun hc => ?_)
    have hc : w.code = 0 := by omega
    refine why_ite (fun h1 => why_last rfl (.blocked _ w ⟨hc, h1⟩)) (fun h1 => ?_)
    refine why_ite (fun h2 => why_last rfl (.pseAbsent _ w ⟨hc, h2⟩)) (fun h2 => ?_)
    refine why_ite (fun h3 => why_last rfl (.pseBlocked _ w ⟨hc, h3⟩)) (fun h3 => ?_)
    refine why_ite (fun h4 => why_last rfl (.pseRefused _ w ⟨hc, h4, h1, h2, h3⟩)) (fun h4 => ?_)
    have hs : w.sw = 0x9000 := by omega
    refine why_says ?_
    refine why_bind fun b hb => ?_
    obtain ⟨r, pse⟩ := b
    refine why_ite (fun _ => why_last rfl (.pseParse _ w ⟨hc, hs⟩)) (fun _ => ?_)
    cases find pse 0x88 with
    | none => exact why_last rfl (.pseSfi _ w ⟨hc, hs⟩)
    | some t =>
      refine why_ite (fun _ => why_last rfl (.pseSfiLength _ w ⟨hc, hs⟩)) (fun _ => ?_)
      exact why_bind fun sfi _ => why_pseLoop _ _ _ _ _ _ _ _

theorem why_findApps : ∀ (script : List W) (aids : List Tlv) (first : Bool) (apps : List App)
    (p : Option (Cmd × W)), Why (·.1) p (findApps script aids first apps) := by
  intro script
  induction script with
  | nil =>
    intro aids first apps p
    cases aids with
    | nil => rw [findApps]; exact why_fin (by simp)
    | cons aid aids =>
      rw [findApps]
      refine why_says ?_
      exact why_ite (fun _ => why_last rfl (.reader _)) (fun _ => why_pending)
  | cons w rest ih =>
    intro aids first apps p
    cases aids with
    | nil => rw [findApps]; exact why_fin (by simp)
    | cons aid aids =>
      rw [findApps]
      refine why_says ?_
      refine why_ite (fun _ => why_last rfl (.reader _)) (fun _ => why_did ?_)
      refine why_ite (fun _ => why_last rfl (.reader _)) (fun hc => ?_)
      refine why_ite (fun h1 => why_last rfl (.blocked _ w ⟨by omega, h1.2⟩)) (fun _ => ?_)
      refine why_ite (fun _ => why_says (ih _ _ _ _)) (fun _ => why_says ?_)
      refine why_bind fun b hb => ?_
      cases b with
      | none => exact ih _ _ _ _
      | some app =>
        refine why_ite (fun _ => why_says (ih _ _ _ _)) (fun _ => ?_)
        exact why_ite (fun _ => why_says (ih _ _ _ _)) (fun _ => why_says (ih _ _ _ _))

end Verif.Trace
