import Verif.TraceCauseProps
import Verif.TraceOdaProps

/-!
# What is reported of directory records and of an initiated application (C137, C138)
-/

set_option autoImplicit false

namespace Verif.Trace
open Verif Ber TlvParse App Fields Tal

/-! ## Specification -/

/-- What is said of an entry of a directory record, and the applications it adds to the
candidates; `pse` are the fields of the directory. -/
inductive Verdict61 (pse supported : List Tlv) (t : Tlv) : Event → List App → Prop
  | other (h : t.tag ≠ 0x61) : Verdict61 pse supported t
      (error 2 (txt!"Unexpected data element 0x" ++ Print.hexU t.tag ++ txt!" in AEF template")) []
  | invalid (h : t.tag = 0x61) (hn : createFromPse pse t.value = .ok none) :
      Verdict61 pse supported t (error 2 txt!"Invalid Application Template content") []
  | yes (h : t.tag = 0x61) (app : App) (ha : createFromPse pse t.value = .ok (some app))
      (hs : App.isSupported app.aid.value supported = .ok true) :
      Verdict61 pse supported t (info 2 txt!"Application is supported") [app]
  | no (h : t.tag = 0x61) (app : App) (ha : createFromPse pse t.value = .ok (some app))
      (hs : App.isSupported app.aid.value supported = .ok false) :
      Verdict61 pse supported t (info 2 txt!"Application is not supported") []

/-- What is said of the entries of a directory record, in their order, up to the first bytes that
are no data object, and what they add to the candidates. -/
inductive Entries (pse supported : List Tlv) : List Byte → List Event → List App → Prop
  | stop (b : List Byte) (h : ∀ n t, decode b ≠ .ok (.ok n t)) : Entries pse supported b [] []
  | entry (b : List Byte) (n : Nat) (t : Tlv) (h : decode b = .ok (.ok n t)) (e : Event)
      (new : List App) (he : Verdict61 pse supported t e new) (es : List Event) (more : List App)
      (hs : Entries pse supported (b.drop n) es more) :
      Entries pse supported b (e :: es) (new ++ more)

/-- What is said of a directory record, and what it adds to the candidates. -/
inductive Directory (pse supported : List Tlv) (data : List Byte) :
    List Event → List App → Prop
  | refused (h : ∀ n t, decode data ≠ .ok (.ok n t)) : Directory pse supported data
      [error 2 txt!"Failed to parse PSE AEF record", error 2 txt!"Invalid PSE AEF record"] []
  | other (n : Nat) (t : Tlv) (h : decode data = .ok (.ok n t)) (h70 : t.tag ≠ 0x70)
      (junk : Nat) : Directory pse supported data
      [error 2 (txt!"Unexpected data element 0x" ++ Print.hexU junk ++ txt!" in PSE AEF record"),
        error 2 txt!"Invalid PSE AEF record"] []
  | entries (n : Nat) (t : Tlv) (h : decode data = .ok (.ok n t)) (h70 : t.tag = 0x70)
      (es : List Event) (new : List App) (hs : Entries pse supported t.value es new) :
      Directory pse supported data es new

/-- How reading a directory ends: with a command not answered, without an answer of the reader,
or with the applications found. -/
inductive End where
  | asking (cmd : Cmd)
  | failed
  | read (apps : List App)

/-- The applications found before come first. -/
def End.after (new : List App) : End → End
  | .read apps => .read (new ++ apps)
  | e => e

/-- The reading of the records of a directory from number `rec` on, with all that is said. -/
inductive Records (pse supported : List Tlv) (sfi : Byte) : Byte → List Entry → End → Prop
  | asking (rec : Byte) : Records pse supported sfi rec [] (.asking (.readRecord sfi rec))
  | reader (rec : Byte) (w : W) (h : w.code ≠ 0) : Records pse supported sfi rec
      [.did (.readRecord sfi rec) w, .said (error 2 txt!"TTL failure")] .failed
  | last (rec : Byte) (w : W) (h : w.code = 0) (hs : w.sw = 0x6A83) :
      Records pse supported sfi rec
        [.did (.readRecord sfi rec) w, .said (info 2 txt!"No more PSE records")] (.read [])
  | status (rec : Byte) (w : W) (h : w.code = 0) (hs : w.sw ≠ 0x6A83 ∧ w.sw ≠ 0x9000)
      (l : List Entry) (e : End) (hl : Records pse supported sfi (rec + 1) l e) :
      Records pse supported sfi rec (.did (.readRecord sfi rec) w ::
        .said (error 2 txt!"Unexpected PSE record error") :: l) e
  | data (rec : Byte) (w : W) (h : w.code = 0) (hs : w.sw = 0x9000) (es : List Event)
      (new : List App) (hd : Directory pse supported w.data es new) (l : List Entry) (e : End)
      (hl : Records pse supported sfi (rec + 1) l e) :
      Records pse supported sfi rec (.did (.readRecord sfi rec) w ::
        .said (infoTlv 2 txt!"AEF" w.data) :: (es.map Entry.said ++ l)) (e.after new)

/-- How a call that returned ended. -/
def ending (apps : List App) : Out (Int × List App) → End → Prop
  | .pending cmd, .asking cmd' => cmd = cmd'
  | .done a _, .failed => a = (-3, [])
  | .done a _, .read new => a = (0, apps ++ new)
  | _, _ => False

/-- Why a directory is not read: the last event and the result. -/
inductive NoDirectory (w : W) : List Event → Int → Prop
  | reader (h : w.code ≠ 0) : NoDirectory w [error 2 txt!"TTL failure"] (-3)
  | blocked (h : w.code = 0) (hs : w.sw = 0x6A81) :
      NoDirectory w [error 2 txt!"Card blocked or SELECT not supported"] (-4)
  | notFound (h : w.code = 0) (hs : w.sw = 0x6A82) : NoDirectory w [info 2 txt!"PSE not found"] 1
  | invalidated (h : w.code = 0) (hs : w.sw = 0x6283) :
      NoDirectory w [error 2 txt!"PSE is blocked"] 2
  | status (h : w.code = 0) (hs : w.sw ∉ [0x6A81, 0x6A82, 0x6283, 0x9000]) :
      NoDirectory w [error 2 txt!"Failed to SELECT PSE"] 3
  | noSfi (h : w.code = 0) (hs : w.sw = 0x9000) (r : Int) (pse : List Tlv)
      (hp : parse allocOk w.data [] = .ok (r, pse)) (hf : find pse 0x88 = none) :
      NoDirectory w [infoTlv 2 txt!"FCI" w.data, error 2 txt!"Failed to find SFI for PSE records"] 5
  | sfiLength (h : w.code = 0) (hs : w.sw = 0x9000) (r : Int) (pse : List Tlv)
      (hp : parse allocOk w.data [] = .ok (r, pse)) (t : Tlv) (hf : find pse 0x88 = some t)
      (hl : t.value.length ≠ 1) : NoDirectory w
      [infoTlv 2 txt!"FCI" w.data, error 2 txt!"Invalid SFI length or value for PSE records"] 6
  | sfiValue (h : w.code = 0) (hs : w.sw = 0x9000) (r : Int) (pse : List Tlv)
      (hp : parse allocOk w.data [] = .ok (r, pse)) (t : Tlv) (hf : find pse 0x88 = some t)
      (sfi : Byte) (hv : t.value = [sfi]) (hb : sfi.toNat = 0 ∨ 30 < sfi.toNat) : NoDirectory w
      [infoTlv 2 txt!"FCI" w.data, error 2 txt!"TTL failure"] (-3)

/-! ## Directory records -/

theorem entries_aefLoop (pse supported : List Tlv) :
    ∀ (fuel : Nat) (itr : List Byte) (apps : List App) (es : List Event) (r : List App),
      aefLoop pse supported fuel itr apps = .ok (es, r) →
      ∃ new, r = apps ++ new ∧ Entries pse supported itr es new := by
  intro fuel
  induction fuel with
  | zero => intro _ _ _ _ h; cases h
  | succ k ih =>
    intro itr apps es r h
    rw [aefLoop] at h
    obtain ⟨⟨itr', d⟩, hi, h⟩ := Ttl.bind_inv h
    unfold itrNext at hi
    obtain ⟨d', hd, hi⟩ := Ttl.bind_inv hi
    cases d' with
    | eod =>
      cases hi; cases h
      exact ⟨[], by simp, .stop _ fun n t e => by rw [hd] at e; cases e⟩
    | err c =>
      cases hi; cases h
      exact ⟨[], by simp, .stop _ fun n t e => by rw [hd] at e; cases e⟩
    | ok n t =>
      obtain ⟨rest, hr, hi⟩ := Ttl.bind_inv hi
      cases hi
      have hrest : itr' = itr.drop n := by
        unfold suffix at hr
        split at hr
        · cases hr; rfl
        · cases hr
      subst hrest
      have go : ∀ (ev : Event) (new : List App), Verdict61 pse supported t ev new →
          (do let (es, apps) ← aefLoop pse supported k (itr.drop n) (apps ++ new)
              .ok (ev :: es, apps) : C (List Event × List App)) = .ok (es, r) →
          ∃ new, r = apps ++ new ∧ Entries pse supported itr es new := by
        intro ev new hv h
        obtain ⟨⟨es', r'⟩, hl, h⟩ := Ttl.bind_inv h
        cases h
        obtain ⟨more, hm, he⟩ := ih _ _ _ _ hl
        exact ⟨new ++ more, by rw [hm, List.append_assoc], .entry _ n t hd _ _ hv _ _ he⟩
      simp only at h
      split at h
      · rename_i h61
        exact go _ [] (.other h61) (by rw [List.append_nil]; exact h)
      · rename_i h61
        have h61 : t.tag = 0x61 := by omega
        obtain ⟨a, ha, h⟩ := Ttl.bind_inv h
        cases a with
        | none => exact go _ [] (.invalid h61 ha) (by rw [List.append_nil]; exact h)
        | some app =>
          obtain ⟨b, hb, h⟩ := Ttl.bind_inv h
          cases b with
          | true => exact go _ _ (.yes h61 app ha hb) h
          | false => exact go _ [] (.no h61 app ha hb) (by rw [List.append_nil]; exact h)

theorem directory_aefRecord {junk : Nat} {pse supported : List Tlv} {data : List Byte}
    {apps : List App} {es : List Event} {r : Int} {apps' : List App}
    (h : aefRecord junk pse supported data apps = .ok (es, r, apps')) :
    ∃ new, apps' = apps ++ new ∧
    ((r > 0 ∧ Directory pse supported data (es ++ [error 2 txt!"Invalid PSE AEF record"]) new) ∨
      (r = 0 ∧ Directory pse supported data es new)) := by
  unfold aefRecord at h
  obtain ⟨d, hd, h⟩ := Ttl.bind_inv h
  cases d with
  | eod =>
    cases h
    exact ⟨[], by simp, Or.inl ⟨by decide, .refused fun n t e => by rw [hd] at e; cases e⟩⟩
  | err c =>
    cases h
    exact ⟨[], by simp, Or.inl ⟨by decide, .refused fun n t e => by rw [hd] at e; cases e⟩⟩
  | ok n t =>
    simp only at h
    split at h
    · rename_i h70
      cases h
      exact ⟨[], by simp, Or.inl ⟨by decide, .other n t hd h70 junk⟩⟩
    · rename_i h70
      obtain ⟨⟨es', r'⟩, hl, h⟩ := Ttl.bind_inv h
      cases h
      obtain ⟨new, hn, he⟩ := entries_aefLoop _ _ _ _ _ _ _ hl
      exact ⟨new, hn, Or.inr ⟨rfl, .entries n t hd (by omega) _ _ he⟩⟩

theorem records_pseLoop (junk : Nat → Nat) (pse supported : List Tlv) (sfi : Byte)
    (hsfi : refusesSfi sfi = false) :
    ∀ (script : List W) (rec : Byte) (apps : List App) (l : List Entry)
      (o : Out (Int × List App)), pseLoop junk pse supported sfi script rec apps = .ok (l, o) →
      ∃ e, ending apps o e ∧ Records pse supported sfi rec l e := by
  intro script
  induction script with
  | nil =>
    intro rec apps l o h
    rw [pseLoop, hsfi] at h
    cases h
    exact ⟨.asking _, rfl, .asking rec⟩
  | cons w rest ih =>
    intro rec apps l o h
    rw [pseLoop, hsfi] at h
    simp only [Bool.false_eq_true, if_false] at h
    obtain ⟨l1, g, rfl⟩ := did_inv h
    by_cases hc : w.code ≠ 0
    · rw [if_pos hc] at g
      obtain ⟨l2, g2, rfl⟩ := says_inv g
      cases g2
      exact ⟨.failed, rfl, .reader rec w hc⟩
    rw [if_neg hc] at g
    have hc : w.code = 0 := by omega
    by_cases ha : w.sw = 0x6A83
    · rw [if_pos ha] at g
      obtain ⟨l2, g2, rfl⟩ := says_inv g
      cases g2
      exact ⟨.read [], by simp [ending], .last rec w hc ha⟩
    rw [if_neg ha] at g
    by_cases hs : w.sw ≠ 0x9000
    · rw [if_pos hs] at g
      obtain ⟨l2, g2, rfl⟩ := says_inv g
      obtain ⟨e, he, hr⟩ := ih _ _ _ _ g2
      exact ⟨e, he, .status rec w hc ⟨ha, hs⟩ _ _ hr⟩
    rw [if_neg hs] at g
    have hs : w.sw = 0x9000 := by omega
    obtain ⟨l2, g2, rfl⟩ := says_inv g
    obtain ⟨⟨es, r, apps'⟩, hr, g2⟩ := Ttl.bind_inv g2
    simp only at g2
    have key : ∀ new e, ending (apps ++ new) o e → ending apps o (e.after new) := by
      intro new e h
      cases e <;> cases o <;> simp_all [ending, End.after]
    obtain ⟨new, rfl, ⟨h0, hd⟩ | ⟨h0, hd⟩⟩ := directory_aefRecord hr
    · rw [if_neg (by omega), if_pos h0] at g2
      obtain ⟨l3, g3, rfl⟩ := says_inv g2
      obtain ⟨e, he, hr⟩ := ih _ _ _ _ g3
      exact ⟨_, key _ _ he, Records.data rec w hc hs _ _ hd _ _ hr⟩
    · rw [if_neg (by omega), if_neg (by omega)] at g2
      obtain ⟨l3, g3, rfl⟩ := says_inv g2
      obtain ⟨e, he, hr⟩ := ih _ _ _ _ g3
      exact ⟨_, key _ _ he, Records.data rec w hc hs _ _ hd _ _ hr⟩

/-- Reading a directory: it is selected by its name; it is not read, for one of the reasons of
`NoDirectory`; or its records are read from the first on, each followed by what is said of it, and
the result is the applications said to be supported, in their order. -/
theorem C137_directory (junk : Nat → Nat) (supported : List Tlv) (apps : List App)
    (script : List W) (l : List Entry) (o : Out (Int × List App))
    (h : readPse junk supported apps script = .ok (l, o)) :
    (l = [.said (info 2 txt!"SELECT 1PAY.SYS.DDF01")] ∧
      o = .pending (.select false txt!"1PAY.SYS.DDF01")) ∨
    ∃ w l', l = .said (info 2 txt!"SELECT 1PAY.SYS.DDF01") ::
        .did (.select false txt!"1PAY.SYS.DDF01") w :: l' ∧
      ((∃ es r rest, NoDirectory w es r ∧ l' = es.map Entry.said ∧
        o = .done (r, if w.code = 0 ∧ w.sw = 0x9000 then [] else apps) rest) ∨
      (w.code = 0 ∧ w.sw = 0x9000 ∧ ∃ r pse t sfi l'' e,
        parse allocOk w.data [] = .ok (r, pse) ∧ find pse 0x88 = some t ∧ t.value = [sfi] ∧
        1 ≤ sfi.toNat ∧ sfi.toNat ≤ 30 ∧ l' = .said (infoTlv 2 txt!"FCI" w.data) :: l'' ∧
        ending apps o e ∧ Records pse supported sfi 1 l'' e)) := by
  unfold readPse at h
  obtain ⟨l0, h0, rfl⟩ := says_inv h
  unfold send at h0
  rw [show refusesName pseName = false by decide] at h0
  simp only [Bool.false_eq_true, if_false] at h0
  cases script with
  | nil => cases h0; exact Or.inl ⟨rfl, rfl⟩
  | cons w rest =>
    obtain ⟨l1, g, rfl⟩ := did_inv h0
    refine Or.inr ⟨w, l1, rfl, ?_⟩
    by_cases hc : w.code ≠ 0
    · rw [if_pos hc] at g
      obtain ⟨l2, g2, rfl⟩ := says_inv g
      cases g2
      exact Or.inl ⟨_, _, rest, .reader hc, rfl, by simp [*]⟩
    rw [if_neg hc] at g
    have hc : w.code = 0 := by omega
    by_cases h1 : w.sw = 0x6A81
    · rw [if_pos h1] at g
      obtain ⟨l2, g2, rfl⟩ := says_inv g
      cases g2
      exact Or.inl ⟨_, _, rest, .blocked hc h1, rfl, by simp [*]⟩
    rw [if_neg h1] at g
    by_cases h2 : w.sw = 0x6A82
    · rw [if_pos h2] at g
      obtain ⟨l2, g2, rfl⟩ := says_inv g
      cases g2
      exact Or.inl ⟨_, _, rest, .notFound hc h2, rfl, by simp [*]⟩
    rw [if_neg h2] at g
    by_cases h3 : w.sw = 0x6283
    · rw [if_pos h3] at g
      obtain ⟨l2, g2, rfl⟩ := says_inv g
      cases g2
      exact Or.inl ⟨_, _, rest, .invalidated hc h3, rfl, by simp [*]⟩
    rw [if_neg h3] at g
    by_cases h4 : w.sw ≠ 0x9000
    · rw [if_pos h4] at g
      obtain ⟨l2, g2, rfl⟩ := says_inv g
      cases g2
      exact Or.inl ⟨_, _, rest, .status hc (by simp [h1, h2, h3, h4]), rfl, by simp [*]⟩
    rw [if_neg h4] at g
    have h4 : w.sw = 0x9000 := by omega
    obtain ⟨l2, g2, rfl⟩ := says_inv g
    obtain ⟨⟨r, pse⟩, hp, g2⟩ := Ttl.bind_inv g2
    have hr : 0 ≤ r := by
      obtain ⟨r', new, hp', hr, _⟩ := parseF_spec allocOk (w.data.length + 1) w.data [] (by omega)
      unfold parse at hp
      rw [hp] at hp'
      cases hp'
      rcases hr with h | h | ⟨_, _, _, h⟩
      · omega
      · omega
      · simp [allocOk] at h
    simp only at g2
    rw [if_neg (by omega)] at g2
    cases hf : find pse 0x88 with
    | none =>
      rw [hf] at g2
      obtain ⟨l3, g3, rfl⟩ := says_inv g2
      cases g3
      exact Or.inl ⟨_, _, rest, .noSfi hc h4 r pse hp hf, rfl, by rw [if_pos ⟨hc, h4⟩]⟩
    | some t =>
      rw [hf] at g2
      simp only at g2
      by_cases hl : t.value.length ≠ 1
      · rw [if_pos hl] at g2
        obtain ⟨l3, g3, rfl⟩ := says_inv g2
        cases g3
        exact Or.inl ⟨_, _, rest, .sfiLength hc h4 r pse hp t hf hl, rfl, by rw [if_pos ⟨hc, h4⟩]⟩
      rw [if_neg hl] at g2
      obtain ⟨sfi, hsfi, g3⟩ := Ttl.bind_inv g2
      have hv : t.value = [sfi] := by
        match hv : t.value, (by omega : t.value.length = 1) with
        | [x], _ => rw [hv] at hsfi; cases hsfi; rfl
      cases hb : refusesSfi sfi with
      | true =>
        have : l2 = [Entry.said ttlFailure] ∧ o = .done (-3, []) rest := by
          cases rest <;> (rw [pseLoop, hb] at g3; cases g3; exact ⟨rfl, rfl⟩)
        obtain ⟨rfl, rfl⟩ := this
        refine Or.inl ⟨_, _, rest, .sfiValue hc h4 r pse hp t hf sfi hv ?_, rfl, by rw [if_pos ⟨hc, h4⟩]⟩
        simpa [refusesSfi] using hb
      | false =>
        obtain ⟨e, he, hr⟩ := records_pseLoop _ _ _ _ hb _ _ _ _ _ g3
        have : ¬ (sfi.toNat = 0 ∨ 30 < sfi.toNat) := by simpa [refusesSfi] using hb
        exact Or.inr ⟨hc, h4, r, pse, t, sfi, l2, e, hp, hf, hv, by omega, by omega, rfl, he, hr⟩

/-- A directory with three records: two entries, one of them supported; another template; and
bytes that are no data object. -/
example : ∃ l app, readPse (fun _ => 7) [⟨0x84, 0, [0xA0, 0, 0, 0, 3]⟩] []
    [⟨0, [0x6F, 0x05, 0xA5, 0x03, 0x88, 0x01, 0x01], 0x9000⟩,
      ⟨0, [0x70, 0x12, 0x61, 0x07, 0x4F, 0x05, 0xA0, 0, 0, 0, 3,
        0x61, 0x07, 0x4F, 0x05, 0xA0, 0, 0, 0, 4], 0x9000⟩,
      ⟨0, [0x77, 0x00], 0x9000⟩, ⟨0, [0x70], 0x9000⟩, ⟨0, [], 0x6A83⟩] =
      .ok (l, .done (0, [app]) []) ∧ l.drop 3 =
    [.did (.readRecord 1 1) ⟨0, [0x70, 0x12, 0x61, 0x07, 0x4F, 0x05, 0xA0, 0, 0, 0, 3,
        0x61, 0x07, 0x4F, 0x05, 0xA0, 0, 0, 0, 4], 0x9000⟩,
      .said (infoTlv 2 txt!"AEF" [0x70, 0x12, 0x61, 0x07, 0x4F, 0x05, 0xA0, 0, 0, 0, 3,
        0x61, 0x07, 0x4F, 0x05, 0xA0, 0, 0, 0, 4]),
      .said (info 2 txt!"Application is supported"),
      .said (info 2 txt!"Application is not supported"),
      .did (.readRecord 1 2) ⟨0, [0x77, 0x00], 0x9000⟩,
      .said (infoTlv 2 txt!"AEF" [0x77, 0x00]),
      .said (error 2 txt!"Unexpected data element 0x07 in PSE AEF record"),
      .said (error 2 txt!"Invalid PSE AEF record"),
      .did (.readRecord 1 3) ⟨0, [0x70], 0x9000⟩,
      .said (infoTlv 2 txt!"AEF" [0x70]),
      .said (error 2 txt!"Failed to parse PSE AEF record"),
      .said (error 2 txt!"Invalid PSE AEF record"),
      .did (.readRecord 1 4) ⟨0, [], 0x6A83⟩,
      .said (info 2 txt!"No more PSE records")] :=
  ⟨_, _, rfl, by decide +kernel⟩

/-! ## Initiating an application -/

theorem gpoData_ok {buf : List Byte} {sources : List (List Tlv)} {tlvs : List Tlv}
    {es : List Event} {d : Option (List Byte)}
    (h : gpoData buf sources tlvs = .ok (es, .ok d)) :
    es = ((field 0x9F38 tlvs).toList.map fun v => infoData 4 txt!"PDOL found" v) ∧
      (d = none ↔ field 0x9F38 tlvs = none) := by
  unfold gpoData at h
  rw [← find_field]
  cases hf : find tlvs 0x9F38 with
  | none => rw [hf] at h; cases h; simp
  | some pdol =>
    rw [hf] at h
    simp only at h
    obtain ⟨n, _, h⟩ := Ttl.bind_inv h
    split at h
    · cases h
    split at h
    · cases h
    obtain ⟨_, _, h⟩ := Ttl.bind_inv h
    obtain ⟨_, _, h⟩ := Ttl.bind_inv h
    obtain ⟨_, _, h⟩ := Ttl.bind_inv h
    obtain ⟨_, _, h⟩ := Ttl.bind_inv h
    split at h
    · cases h
    obtain ⟨_, _, h⟩ := Ttl.bind_inv h
    cases h
    simp

theorem gpoFields_ok {alloc : List Tlv → Tlv → Bool} {data : List Byte} {es : List Event}
    {l : List Tlv} (h : gpoFields alloc data = .ok (es, .ok l)) :
    ∃ n t, decode data = .ok (.ok n t) ∧ es = if t.tag = 0x80 then
      [infoData 2 txt!"AIP" (t.value.take 2), infoData 2 txt!"AFL" (t.value.drop 2)] else [] := by
  unfold gpoFields at h
  obtain ⟨d, hd, h⟩ := Ttl.bind_inv h
  cases d with
  | eod => cases h
  | err n => cases h
  | ok n t =>
    simp only at h
    refine ⟨n, t, hd, ?_⟩
    split at h
    · rename_i h80
      rw [if_pos h80]
      split at h
      · cases h
      obtain ⟨a, ha, h⟩ := Ttl.bind_inv h
      obtain ⟨f, hf, h⟩ := Ttl.bind_inv h
      rw [slice_eq (by omega)] at ha hf
      cases ha
      cases hf
      repeat' split at h
      all_goals cases h
      rw [List.take_of_length_le (l := t.value.drop 2) (by simp)]
      rfl
    · rename_i h80
      rw [if_neg h80]
      split at h
      · obtain ⟨⟨r, l'⟩, hp, h⟩ := Ttl.bind_inv h
        simp only at h
        repeat' split at h
        all_goals cases h
        rfl
      · cases h; rfl

theorem gpo_exact {alloc : List Tlv → Tlv → Bool} {data : Option (List Byte)} {list : List Tlv}
    {script : List W} {l : List Entry} {g : Gpo} {rest : List W}
    (h : gpo alloc data list script = .ok (l, .done g rest)) (hg : g.code = 0) :
    ∃ w n t, w.code = 0 ∧ w.sw = 0x9000 ∧ decode w.data = .ok (.ok n t) ∧
      l = [.said (infoData 2 txt!"GET PROCESSING OPTIONS" (data.getD [])), .did (.gpo data) w,
          .said (infoTlv 2 txt!"GPO response" w.data)] ++
        (if t.tag = 0x80 then [.said (infoData 2 txt!"AIP" (t.value.take 2)),
          .said (infoData 2 txt!"AFL" (t.value.drop 2))] else []) := by
  unfold gpo at h
  split at h
  · cases h; simp at hg
  obtain ⟨l0, h0, rfl⟩ := says_inv h
  unfold send at h0
  split at h0
  · replace h0 := (if_pos (by decide : (-3 : Int) ≠ 0)).symm.trans h0
    obtain ⟨l, h, _⟩ := says_inv h0
    cases h; simp at hg
  cases script with
  | nil => cases h0
  | cons w rest' =>
    obtain ⟨l1, h1, rfl⟩ := did_inv h0
    simp only at h1
    split at h1
    · obtain ⟨l, h, _⟩ := says_inv h1
      cases h; simp at hg
    rename_i hc
    split at h1
    · split at h1
      · obtain ⟨l, h, _⟩ := says_inv h1
        cases h; simp at hg
      · obtain ⟨l, h, _⟩ := says_inv h1
        cases h; simp at hg
    rename_i hs
    obtain ⟨l2, h2, rfl⟩ := says_inv h1
    obtain ⟨⟨es, q⟩, hf, h2⟩ := Ttl.bind_inv h2
    cases q with
    | error c =>
      obtain ⟨l, h, _⟩ := says_inv h2
      cases h
      have := why_fields (cmd := .gpo data) (w := w) hf
      obtain ⟨e, _, _, hcause⟩ := this
      simp only at hg
      subst hg
      cases hcause
    | ok fl =>
      obtain ⟨l3, h3, rfl⟩ := says_inv h2
      obtain ⟨n, t, hd, rfl⟩ := gpoFields_ok hf
      refine ⟨w, n, t, by omega, by omega, hd, ?_⟩
      split at h3
      · obtain ⟨l, h, _⟩ := says_inv h3
        cases h; simp at hg
      split at h3
      · obtain ⟨l, h, _⟩ := says_inv h3
        cases h; simp at hg
      cases h3
      split <;> rfl

/-- Initiating an application with success: the PDOL found, the command with its data, the
response, and the two fields of a response of format 1; nothing else is said. -/
theorem C138_initiated (alloc : List Tlv → Tlv → Bool) (buf : List Byte) (ctx : Emv.Ctx)
    (pos : Byte) (script : List W) (l : List Entry) (ctx' : Emv.Ctx) (rest : List W)
    (h : initiate alloc buf ctx pos script = .ok (l, .done (0, ctx') rest)) :
    ∃ s d w n t, ctx.selected = some s ∧ w.code = 0 ∧ w.sw = 0x9000 ∧
      decode w.data = .ok (.ok n t) ∧
      (d = none ↔ field 0x9F38 s.app.tlvs = none) ∧
      l = ((field 0x9F38 s.app.tlvs).toList.map fun v => .said (infoData 4 txt!"PDOL found" v)) ++
        [.said (infoData 2 txt!"GET PROCESSING OPTIONS" (d.getD [])), .did (.gpo d) w,
          .said (infoTlv 2 txt!"GPO response" w.data)] ++
        (if t.tag = 0x80 then [.said (infoData 2 txt!"AIP" (t.value.take 2)),
          .said (infoData 2 txt!"AFL" (t.value.drop 2))] else []) := by
  unfold initiate at h
  cases hs : ctx.selected with
  | none => rw [hs] at h; cases h
  | some s0 =>
    rw [hs] at h
    simp only at h
    cases hs' : ctx.clearIcc.selected with
    | none => rw [hs'] at h; cases h
    | some s =>
      rw [hs'] at h
      simp only at h
      have happ : s.app = s0.app := by
        simp only [Emv.Ctx.clearIcc, hs, Option.map_some, Option.some.injEq] at hs'
        rw [← hs']; split <;> rfl
      split at h
      · cases h
      split at h
      · cases h
      split at h
      · cases h
      obtain ⟨⟨es, q⟩, hb, h⟩ := Ttl.bind_inv h
      cases q with
      | error c =>
        obtain ⟨l0, h0, rfl⟩ := says_inv h
        cases h0
        exact absurd ((gpoData_events hb).2.2 0 rfl).1 (by decide)
      | ok d =>
        obtain ⟨rfl, hd⟩ := gpoData_ok hb
        obtain ⟨l0, h0, rfl⟩ := says_inv h
        obtain ⟨l1, g, r1, l2, hx, hf, rfl⟩ := andThen_inv h0
        rw [happ] at hd
        have hg : g.code = 0 ∧ l2 = [] := by
          split at hf
          · obtain ⟨_, hf, _⟩ := says_inv hf
            exfalso
            split at hf
            · cases hf
            · cases hf
          split at hf
          · obtain ⟨_, hf, _⟩ := says_inv hf
            exfalso
            split at hf
            · cases hf
            · cases hf
          cases hf
          exact ⟨by omega, rfl⟩
        obtain ⟨hg, rfl⟩ := hg
        obtain ⟨w, n, t, hc, hsw, hdec, rfl⟩ := gpo_exact hx hg
        refine ⟨s0, d, w, n, t, rfl, hc, hsw, hdec, hd, ?_⟩
        rw [happ, List.map_map, List.append_nil, List.append_assoc]
        rfl

set_option maxRecDepth 10000 in
/-- An application with a PDOL, and a response of format 1. -/
example : ∃ l ctx', initiate allocOk (List.replicate 255 0)
    { exCtx with selected := exCtx.selected.map fun s =>
        { s with app := { s.app with tlvs := [⟨0x9F38, 0, [0x9F, 0x39, 0x01]⟩] } } } 5
    [⟨0, [0x80, 0x06, 0x18, 0x00, 0x08, 0x01, 0x01, 0x00], 0x9000⟩] =
      .ok (l, .done (0, ctx') []) ∧ l =
    [.said (infoData 4 txt!"PDOL found" [0x9F, 0x39, 0x01]),
      .said (infoData 2 txt!"GET PROCESSING OPTIONS" [0x83, 0x01, 0x05]),
      .did (.gpo (some [0x83, 0x01, 0x05]))
        ⟨0, [0x80, 0x06, 0x18, 0x00, 0x08, 0x01, 0x01, 0x00], 0x9000⟩,
      .said (infoTlv 2 txt!"GPO response" [0x80, 0x06, 0x18, 0x00, 0x08, 0x01, 0x01, 0x00]),
      .said (infoData 2 txt!"AIP" [0x18, 0x00]),
      .said (infoData 2 txt!"AFL" [0x08, 0x01, 0x01, 0x00])] :=
  ⟨_, _, rfl, by decide +kernel⟩

/-- Selecting an application with success: the command with the name of the application, and the
answer; nothing else is said. -/
theorem C138_selected (ctx : Emv.Ctx) (apps : List App) (index : Nat) (script : List W)
    (l : List Entry) (apps' : List App) (ctx' : Emv.Ctx) (rest : List W)
    (h : select ctx apps index script = .ok (l, .done (0, apps', ctx') rest)) :
    ∃ a w, apps[index]? = some a ∧ w.code = 0 ∧ w.sw = 0x9000 ∧ script = w :: rest ∧
      l = [.said (infoData 2 txt!"SELECT application" a.aid.value),
        .did (.select false a.aid.value) w, .said (infoTlv 2 txt!"FCI" w.data)] := by
  unfold select at h
  simp only at h
  cases ha : apps[index]? with
  | none => rw [ha] at h; cases h
  | some a =>
    rw [ha] at h
    simp only at h
    have hno : ∀ ctx apps rest', tryAgain ctx apps rest' ≠ .ok (l, .done (0, apps', ctx') rest) := by
      intro c aps r' h
      unfold tryAgain at h
      split at h
      · obtain ⟨_, h, _⟩ := says_inv h
        cases h
      · cases h
    split at h
    · exact absurd h (hno _ _ _)
    obtain ⟨l1, x, r1, l2, hx, hf, rfl⟩ := andThen_inv h
    split at hf
    · obtain ⟨_, hf, _⟩ := says_inv hf
      exfalso
      split at hf
      · cases hf
      · cases hf
    split at hf
    · obtain ⟨_, hf, _⟩ := says_inv hf
      exfalso
      unfold tryAgain at hf
      split at hf
      · obtain ⟨_, h, _⟩ := says_inv hf
        cases h
      · cases hf
    cases hf
    have h0 : x.1 = 0 := by omega
    unfold selectApp at hx
    split at hx
    · cases hx; cases h0
    obtain ⟨l3, h3, rfl⟩ := says_inv hx
    unfold send at h3
    split at h3
    · replace h3 := (if_pos (by decide : (-3 : Int) ≠ 0)).symm.trans h3
      obtain ⟨_, h, _⟩ := says_inv h3
      cases h; cases h0
    cases script with
    | nil => cases h3
    | cons w rest' =>
      obtain ⟨l4, h4, rfl⟩ := did_inv h3
      simp only at h4
      split at h4
      · obtain ⟨_, h, _⟩ := says_inv h4
        cases h; cases h0
      rename_i hc
      split at h4
      · repeat' split at h4
        all_goals
          obtain ⟨_, h, _⟩ := says_inv h4
          cases h; cases h0
      rename_i hs
      obtain ⟨l5, h5, rfl⟩ := says_inv h4
      obtain ⟨q, hq, h5⟩ := Ttl.bind_inv h5
      cases q with
      | none =>
        obtain ⟨_, h, _⟩ := says_inv h5
        cases h; cases h0
      | some app =>
        simp only at h5
        split at h5
        · obtain ⟨_, h, _⟩ := says_inv h5
          cases h; cases h0
        obtain ⟨b, hb, h6⟩ := Ttl.bind_inv h5
        split at h6
        · obtain ⟨_, h, _⟩ := says_inv h6
          cases h; cases h0
        cases h6
        exact ⟨a, w, rfl, by omega, by omega, rfl, rfl⟩

example : ∃ l ctx', select exCtx [⟨⟨0x84, 0, [0xA0, 0, 0, 0, 3]⟩, [], 0, false, []⟩] 0
    [⟨0, appFci, 0x9000⟩] = .ok (l, .done (0, [], ctx') []) ∧
    l = [.said (infoData 2 txt!"SELECT application" [0xA0, 0, 0, 0, 3]),
      .did (.select false [0xA0, 0, 0, 0, 3]) ⟨0, appFci, 0x9000⟩,
      .said (infoTlv 2 txt!"FCI" appFci)] := ⟨_, _, rfl, by decide +kernel⟩

/-- Reading the data of an application with success: the reading of the records of the AFL (C135),
and nothing else. -/
theorem C138_read (alloc : List Tlv → Tlv → Bool) (ctx : Emv.Ctx) (script : List W)
    (l : List Entry) (ctx' : Emv.Ctx) (rest : List W)
    (h : readData alloc ctx script = .ok (l, .done (0, ctx') rest)) :
    ∃ afl, field 0x94 ctx.icc = some afl ∧
      ∃ rs : List (AflEntry × List W), (∀ r ∈ rs, r.1.WF ∧ Complete r.1 r.2) ∧
        afl = encAfl (rs.map (·.1)) ∧ script = rs.flatMap (·.2) ++ rest ∧
        l = rs.flatMap (fun r => report r.1.sfi r.1.first r.2 false) := by
  unfold readData at h
  rw [← find_field]
  cases hf : find ctx.icc 0x94 with
  | none => rw [hf] at h; cases h
  | some afl =>
    rw [hf] at h
    obtain ⟨l1, x, r1, l2, hx, hk, rfl⟩ := andThen_inv h
    split at hk
    · obtain ⟨_, hk, _⟩ := says_inv hk
      exfalso
      split at hk
      · cases hk
      · cases hk
    split at hk
    · obtain ⟨_, hk, _⟩ := says_inv hk
      cases hk
    split at hk
    · obtain ⟨_, hk, _⟩ := says_inv hk
      cases hk
    split at hk
    · obtain ⟨_, hk, _⟩ := says_inv hk
      cases hk
    cases hk
    obtain ⟨rs, h1, h2, h3, h4, _⟩ := C135_afl_partial _ _ _ _ _ _ _ _ hx (by omega)
    exact ⟨_, rfl, rs, h1, h2, h3, by rw [List.append_nil]; exact h4⟩

example : ∃ ctx', readData allocOk
    { Emv.Ctx.init with icc := [⟨0x94, 0, [0x08, 0x01, 0x01, 0x00]⟩] }
    [⟨0, [0x70, 0x0F, 0x5A, 0x01, 0x12, 0x5F, 0x24, 0x03, 0x30, 0x12, 0x31, 0x8C, 0x00, 0x8D, 0x02,
      0x91, 0x00], 0x9000⟩] =
    .ok ([.said (info 2 txt!"READ RECORD from SFI 1, record 1"),
      .did (.readRecord 1 1) ⟨0, [0x70, 0x0F, 0x5A, 0x01, 0x12, 0x5F, 0x24, 0x03, 0x30, 0x12, 0x31,
        0x8C, 0x00, 0x8D, 0x02, 0x91, 0x00], 0x9000⟩,
      .said (info 2 txt!"Record template content used for offline data authentication")],
      .done (0, ctx') []) := ⟨_, rfl⟩

end Verif.Trace
