import Verif.PcscInit
import Verif.PcscProps
import Verif.CapduProps

/-!
# Readers, their features, and waiting for cards (C102, C103, C104)
-/

set_option autoImplicit false

namespace Verif.PcscInit
open Verif Verif.Pcsc

/-! ## Specification -/

/-- A multi-string: names terminated by NUL, ended by an empty one. -/
def multi (ns : List (List Byte)) : List Byte := ns.flatMap (· ++ [0]) ++ [0]

/-- Names are texts. -/
def Names (ns : List (List Byte)) : Prop := ∀ n ∈ ns, n ≠ [] ∧ ∀ b ∈ n, b ≠ 0

/-- An answer to `SCardControl` as the interface has it: at most `cap` bytes, and none on failure. -/
def Ctl.Sound (cap : Nat) : Ctl → Prop
  | .ok data => data.length ≤ cap
  | .fail len => len = 0

/-- A reader answering as the interface has it. -/
def ReaderSvc.Sound (s : ReaderSvc) : Prop :=
  s.features.Sound 264 ∧ s.pin.Sound 4 ∧ s.display.Sound 4 ∧ s.props.Sound 264

/-- What is allocated after the events; `none` when something is freed that is not allocated. -/
def ledger : List Block → List Event → Option (List Block)
  | live, [] => some live
  | live, .alloc b :: es => ledger (b :: live) es
  | live, .free b :: es => if b ∈ live then ledger (live.erase b) es else none
  | live, _ :: es => ledger live es

/-- The names of the readers that are connected to. -/
def connected : List Event → List (List Byte)
  | [] => []
  | .connect n :: es => n :: connected es
  | _ :: es => connected es

/-- What is asked about the feature `x` of a reader listing `fs`: the code of the first entry. -/
def codeOf (fs : List (Byte × Byte × Byte × Byte × Byte)) (x : Nat) : Option Nat :=
  (fs.find? fun f => f.1.toNat = x).map code

/-! ## Lemmas -/

/-- Offsets of names from `off`. -/
def offsets : Nat → List (List Byte) → List Nat
  | _, [] => []
  | off, n :: ns => off :: offsets (off + n.length + 1) ns

theorem offsets_length (ns : List (List Byte)) : ∀ off, (offsets off ns).length = ns.length := by
  induction ns with
  | nil => intro; rfl
  | cons n ns ih => intro off; simp [offsets, ih]

theorem multi_cons (n : List Byte) (ns : List (List Byte)) : multi (n :: ns) = n ++ 0 :: multi ns := by
  simp [multi]

theorem names_spec (rest : List Byte) (ns : List (List Byte)) (hn : Names ns) :
    ∀ (pre : List Byte) (fuel : Nat), ns.length < fuel →
      names (pre ++ (multi ns ++ rest)) fuel pre.length = .ok (offsets pre.length ns) := by
  induction ns with
  | nil =>
    intro pre fuel hf
    obtain ⟨k, rfl⟩ : ∃ k, fuel = k + 1 := ⟨fuel - 1, by simp at hf; omega⟩
    have := rd_append_right pre (multi [] ++ rest) 0
    rw [Nat.add_zero] at this
    rw [names, this]
    rfl
  | cons n ns ih =>
    intro pre fuel hf
    obtain ⟨k, rfl⟩ : ∃ k, fuel = k + 1 := ⟨fuel - 1, by simp at hf; omega⟩
    obtain ⟨hne, hz⟩ := hn n (by simp)
    have hr := rd_append_right pre (multi (n :: ns) ++ rest) 0
    rw [Nat.add_zero] at hr
    obtain ⟨b, n', rfl⟩ : ∃ b n', n = b :: n' := by
      cases n with
      | nil => exact absurd rfl hne
      | cons b n' => exact ⟨b, n', rfl⟩
    have hb : b ≠ 0 := hz b (by simp)
    have e0 : rd (multi ((b :: n') :: ns) ++ rest) 0 = .ok b := by rw [multi_cons]; simp
    have e3 : multi ((b :: n') :: ns) ++ rest = (b :: n') ++ 0 :: (multi ns ++ rest) := by
      rw [multi_cons]; simp
    rw [names, hr, e0, bind_ok, if_neg hb, suffix_eq (by simp), bind_ok, List.drop_left, e3,
      App.strlen_str _ _ hz, bind_ok]
    have e1 : pre ++ (b :: n' ++ 0 :: (multi ns ++ rest)) = (pre ++ (b :: n' ++ [0])) ++ (multi ns ++ rest) := by
      simp
    have e2 : pre.length + (b :: n').length + 1 = (pre ++ (b :: n' ++ [0])).length := by simp; omega
    rw [e1, e2, ih (fun m hm => hn m (by simp [hm])) _ k (by simp at hf; omega), bind_ok, offsets, ← e2]

/-- The text at the offset of each name. -/
theorem name_at (rest : List Byte) (ns : List (List Byte)) (hn : Names ns) :
    ∀ (pre : List Byte) (i : Nat) (h : i < ns.length),
      ∃ off, (offsets pre.length ns)[i]? = some off ∧
        (do let r ← suffix (pre ++ (multi ns ++ rest)) off; Capdu.cstr r) = .ok ns[i] := by
  induction ns with
  | nil => intro _ i h; simp at h
  | cons n ns ih =>
    intro pre i h
    obtain ⟨hne, hz⟩ := hn n (by simp)
    cases i with
    | zero =>
      refine ⟨pre.length, rfl, ?_⟩
      rw [suffix_eq (by simp), bind_ok, List.drop_left, multi_cons, List.append_assoc, List.cons_append,
        Capdu.cstr_spec _ _ hz]
      rfl
    | succ i =>
      obtain ⟨off, h1, h2⟩ := ih (fun m hm => hn m (by simp [hm])) (pre ++ (n ++ [0])) i (by simpa using h)
      have e1 : pre ++ (multi (n :: ns) ++ rest) = (pre ++ (n ++ [0])) ++ (multi ns ++ rest) := by
        rw [multi_cons]; simp
      have e2 : pre.length + n.length + 1 = (pre ++ (n ++ [0])).length := by simp; omega
      refine ⟨off, ?_, ?_⟩
      · rw [offsets, e2, List.getElem?_cons_succ]; exact h1
      · rw [e1]; simpa using h2

/-- A list of six byte entries with four byte values. -/
theorem entries (k : Nat) : ∀ d : List Byte, d.length = k * 6 →
    (∀ j, j * 6 < d.length → d.getD (j * 6 + 1) 0 = 4) → ∃ fs, d = encFeatures fs := by
  induction k with
  | zero =>
    intro d h _
    exact ⟨[], List.eq_nil_of_length_eq_zero (by omega)⟩
  | succ k ih =>
    intro d h h4
    match d, h, h4 with
    | [], h, _ | [_], h, _ | [_, _], h, _ | [_, _, _], h, _ | [_, _, _, _], h, _ | [_, _, _, _, _], h, _ =>
      simp at h <;> omega
    | a :: b :: c0 :: c1 :: c2 :: c3 :: d, h, h4 =>
      have hb := h4 0 (by simp)
      simp at hb
      subst hb
      obtain ⟨fs, rfl⟩ := ih d (by simp at h; omega) (by
        intro j hj
        have := h4 (j + 1) (by simp; omega)
        have e : (j + 1) * 6 + 1 = (j * 6 + 1) + 1 + 1 + 1 + 1 + 1 + 1 := by omega
        rw [e] at this
        simpa using this)
      exact ⟨(a, c0, c1, c2, c3) :: fs, by simp [encFeatures, encFeature]⟩

/-- The features hold the entries `fs`. -/
def Holds (f : Feat) (fs : List (Byte × Byte × Byte × Byte × Byte)) : Prop :=
  ∃ junk, f.buf = encFeatures fs ++ junk ∧ f.bufLen = (encFeatures fs).length

theorem holds_code {f : Feat} {fs : List (Byte × Byte × Byte × Byte × Byte)} (h : Holds f fs) (x : Nat) :
    getFeature f.buf f.bufLen x = .ok (codeOf fs x) := by
  obtain ⟨junk, h1, h2⟩ := h
  rw [h1, h2]
  exact (C68_control_code fs junk x).2

/-- The bytes received over an array. -/
def over (d arr : List Byte) : List Byte := d ++ arr.drop d.length

theorem into_ok {cap : Nat} {d arr : List Byte} (h : Ctl.Sound cap (.ok d)) (ha : arr.length = cap) :
    (Ctl.ok d).into arr = .ok (true, over d arr, d.length) := by
  simp only [Ctl.Sound] at h
  simp only [Ctl.into]
  rw [wrs_eq (by omega)]
  simp [over]

theorem over_length {d arr : List Byte} (h : d.length ≤ arr.length) : (over d arr).length = arr.length := by
  simp [over]; omega

/-- Outcome of the request of TLV properties. -/
def propsOut (fs : List (Byte × Byte × Byte × Byte × Byte)) (s : ReaderSvc) (card : Nat) (f : Feat) :
    Int × Feat × List Event :=
  match codeOf fs 0x12, s.props with
  | none, _ => (0, f, [])
  | some c, .ok d => (0, { f with props := over d f.props, propsLen := d.length }, [.control card c])
  | some c, .fail n => (-13, { f with propsLen := n }, [.control card c])

theorem askProps_eq {s : ReaderSvc} {f : Feat} {fs : List (Byte × Byte × Byte × Byte × Byte)} (card : Nat)
    (hs : s.Sound) (h : Holds f fs) (hl : f.props.length = 264) :
    askProps s card f = .ok (propsOut fs s card f) := by
  obtain ⟨-, -, -, h4⟩ := hs
  rw [askProps, holds_code h, bind_ok, propsOut]
  cases codeOf fs 0x12 with
  | none => rfl
  | some c =>
    cases hp : s.props with
    | ok d =>
      rw [hp] at h4
      simp only [into_ok h4 hl, bind_ok]
      rfl
    | fail n => rfl

/-- Outcome of the request of display properties and what follows. -/
def displayOut (fs : List (Byte × Byte × Byte × Byte × Byte)) (s : ReaderSvc) (card : Nat) (f : Feat) :
    Int × Feat × List Event :=
  match codeOf fs 0x11, s.display with
  | none, _ => propsOut fs s card f
  | some c, .ok d =>
    if d.length = 4 then
      let o := propsOut fs s card { f with display := over d f.display, displayLen := 4 }
      (o.1, o.2.1, .control card c :: o.2.2)
    else (-11, { f with display := over d f.display, displayLen := 0 }, [.control card c])
  | some c, .fail n => (-10, { f with displayLen := n }, [.control card c])

theorem askDisplay_eq {s : ReaderSvc} {f : Feat} {fs : List (Byte × Byte × Byte × Byte × Byte)} (card : Nat)
    (hs : s.Sound) (h : Holds f fs) (hl : f.props.length = 264) (hd : f.display.length = 4) :
    askDisplay s card f = .ok (displayOut fs s card f) := by
  rw [askDisplay, holds_code h, bind_ok, displayOut]
  cases codeOf fs 0x11 with
  | none => exact askProps_eq card hs h hl
  | some c =>
    cases hp : s.display with
    | ok d =>
      have h4 := hs.2.2.1
      rw [hp] at h4
      simp only [into_ok h4 hd, bind_ok]
      by_cases he : d.length = 4
      · rw [if_neg (by simp), if_neg (by simp [he]), if_pos he, he]
        have := askProps_eq (f := { f with display := over d f.display, displayLen := 4 }) card hs h hl
        rw [this]
        rfl
      · rw [if_neg (by simp), if_pos (by simp [he]), if_neg he]
    | fail n => rfl

/-- Outcome of the request of PIN properties and what follows. -/
def pinOut (fs : List (Byte × Byte × Byte × Byte × Byte)) (s : ReaderSvc) (card : Nat) (f : Feat) :
    Int × Feat × List Event :=
  match codeOf fs 0x0A, s.pin with
  | none, _ => displayOut fs s card f
  | some c, .ok d =>
    if d.length = 4 then
      let o := displayOut fs s card { f with pin := over d f.pin, pinLen := 4 }
      (o.1, o.2.1, .control card c :: o.2.2)
    else (-8, { f with pin := over d f.pin, pinLen := 0 }, [.control card c])
  | some c, .fail n => (-7, { f with pinLen := n }, [.control card c])

theorem askPin_eq {s : ReaderSvc} {f : Feat} {fs : List (Byte × Byte × Byte × Byte × Byte)} (card : Nat)
    (hs : s.Sound) (h : Holds f fs) (hl : f.props.length = 264) (hd : f.display.length = 4)
    (hp4 : f.pin.length = 4) :
    askPin s card f = .ok (pinOut fs s card f) := by
  rw [askPin, holds_code h, bind_ok, pinOut]
  cases codeOf fs 0x0A with
  | none => exact askDisplay_eq card hs h hl hd
  | some c =>
    cases hp : s.pin with
    | ok d =>
      have h4 := hs.2.1
      rw [hp] at h4
      simp only [into_ok h4 hp4, bind_ok]
      by_cases he : d.length = 4
      · rw [if_neg (by simp), if_neg (by simp [he]), if_pos he, he]
        have := askDisplay_eq (f := { f with pin := over d f.pin, pinLen := 4 }) card hs h hl hd
        rw [this]
        rfl
      · rw [if_neg (by simp), if_pos (by simp [he]), if_neg he]
    | fail n => rfl

/-- The features after the answer `d` to the feature request. -/
def Feat.listing (d : List Byte) : Feat :=
  { Feat.zero with buf := over d Feat.zero.buf, bufLen := d.length }

/-- A well-formed feature list. -/
theorem askFeatures_eq {s : ReaderSvc} {fs : List (Byte × Byte × Byte × Byte × Byte)} (card : Nat)
    (hs : s.Sound) (h : s.features = .ok (encFeatures fs)) :
    askFeatures s card .zero = .ok
      ((pinOut fs s card (.listing (encFeatures fs))).1, (pinOut fs s card (.listing (encFeatures fs))).2.1,
        .control card featureRequest :: (pinOut fs s card (.listing (encFeatures fs))).2.2) := by
  have hb : Feat.zero.buf.length = 264 := List.length_replicate ..
  have h1 := hs.1
  rw [h] at h1
  have hh : Holds (.listing (encFeatures fs)) fs := ⟨_, rfl, rfl⟩
  have hc := (C68_control_code fs (Feat.zero.buf.drop (encFeatures fs).length) 0).1
  have ha := askPin_eq card hs hh (List.length_replicate ..) (List.length_replicate ..)
    (List.length_replicate ..)
  rw [askFeatures, h, into_ok h1 hb, bind_ok]
  simp only [not_true_eq_false, if_false]
  rw [show over (encFeatures fs) Feat.zero.buf = encFeatures fs ++ Feat.zero.buf.drop (encFeatures fs).length from rfl,
    hc, bind_ok]
  simp only [Int.lt_irrefl, if_false]
  change (do let o ← askPin s card (.listing (encFeatures fs)); _) = _
  rw [ha]
  rfl

/-- Any other answer to the feature request. -/
theorem askFeatures_bad {s : ReaderSvc} (card : Nat) (hs : s.Sound)
    (h : ∀ fs, s.features ≠ .ok (encFeatures fs)) :
    ∃ r f, askFeatures s card .zero = .ok (r, f, [.control card featureRequest]) ∧ r < 0 ∧
      f.pinLen = 0 ∧ f.displayLen = 0 ∧ f.propsLen = 0 ∧
      (∀ d, s.features = .ok d → d.length % 6 ≠ 0 → f.bufLen = 0) ∧ (∀ n, s.features = .fail n → f.bufLen = 0) := by
  have hb : Feat.zero.buf.length = 264 := List.length_replicate ..
  have h1 := hs.1
  cases hf : s.features with
  | fail n =>
    rw [hf] at h1
    simp only [Ctl.Sound] at h1
    subst h1
    refine ⟨-3, { Feat.zero with bufLen := 0 }, ?_, by decide, rfl, rfl, rfl, fun _ e => (by cases e),
      fun _ _ => rfl⟩
    rw [askFeatures, hf]
    rfl
  | ok d =>
    rw [hf] at h1
    obtain ⟨r, len, b, e1, -, -, e2, e3⟩ := C68_any d (Feat.zero.buf.drop d.length) 0
    have hr : r < 0 := by
      by_cases h6 : d.length % 6 = 0
      · rcases Int.lt_or_le r 0 with hr | hr
        · exact hr
        · exfalso
          have : r = 0 := by
            rw [checkFeatures, if_neg (by simpa [featureSize] using h6)] at e1
            generalize validLoop (d ++ Feat.zero.buf.drop d.length) d.length (d.length + 1) 0 = x at e1
            cases x with
            | error u => cases e1
            | ok ok =>
              cases ok
              · simp [bind_ok] at e1; omega
              · simp [bind_ok] at e1; exact e1.1.symm
          obtain ⟨fs, rfl⟩ := entries (d.length / 6) d (by omega) ((e3 h6).2.1 this)
          exact h fs hf
      · rw [(e2 h6).1]; decide
    refine ⟨r, { Feat.zero with buf := over d Feat.zero.buf, bufLen := len }, ?_, hr, rfl, rfl, rfl, ?_, ?_⟩
    · rw [askFeatures, hf, into_ok h1 hb, bind_ok]
      simp only [not_true_eq_false, if_false]
      rw [show over d Feat.zero.buf = d ++ Feat.zero.buf.drop d.length from rfl, e1, bind_ok]
      simp only [hr, if_true]
    · intro d' e h6
      cases e
      rw [checkFeatures, if_pos (by simpa [featureSize] using h6)] at e1
      cases e1; rfl
    · intro n e; cases e

/-- Every reader is asked without undefined behaviour. -/
theorem populate_ok (s : ReaderSvc) (card : Nat) (name : List Byte) (hs : s.Sound) :
    ∃ r f e, populate s card name = .ok (r, f, e) ∧ connected e = [name] ∧
      (∀ live, ledger live e = some live) := by
  have hconn : ∀ (h : Nat) (cs : List Nat), connected (cs.map (Event.control h) ++ [.disconnect h]) = [] := by
    intro h cs; induction cs with
    | nil => rfl
    | cons c cs ih => exact ih
  have hled : ∀ (h : Nat) (cs : List Nat) (live : List Block),
      ledger live (cs.map (Event.control h) ++ [.disconnect h]) = some live := by
    intro h cs live; induction cs with
    | nil => rfl
    | cons c cs ih => exact ih
  cases hc : s.connect with
  | none => exact ⟨-2, .zero, _, by rw [populate, hc], rfl, fun _ => rfl⟩
  | some h =>
    obtain ⟨r, f, cs, he⟩ : ∃ (r : Int) (f : Feat) (cs : List Nat), askFeatures s h .zero = .ok (r, f, cs.map (Event.control h)) := by
      by_cases hf : ∃ fs, s.features = .ok (encFeatures fs)
      · obtain ⟨fs, hf⟩ := hf
        have hP : ∀ f, ∃ cs : List Nat, (propsOut fs s h f).2.2 = cs.map (Event.control h) := by
          intro f; unfold propsOut; split
          · exact ⟨[], rfl⟩
          · next c _ _ _ => exact ⟨[c], rfl⟩
          · next c _ _ _ => exact ⟨[c], rfl⟩
        have hD : ∀ f, ∃ cs : List Nat, (displayOut fs s h f).2.2 = cs.map (Event.control h) := by
          intro f; unfold displayOut; split
          · exact hP f
          · next c d _ _ =>
            split
            · obtain ⟨cs, e⟩ := hP { f with display := over d f.display, displayLen := 4 }
              exact ⟨c :: cs, by simp [e]⟩
            · exact ⟨[c], rfl⟩
          · next c _ _ _ => exact ⟨[c], rfl⟩
        have hN : ∀ f, ∃ cs : List Nat, (pinOut fs s h f).2.2 = cs.map (Event.control h) := by
          intro f; unfold pinOut; split
          · exact hD f
          · next c d _ _ =>
            split
            · obtain ⟨cs, e⟩ := hD { f with pin := over d f.pin, pinLen := 4 }
              exact ⟨c :: cs, by simp [e]⟩
            · exact ⟨[c], rfl⟩
          · next c _ _ _ => exact ⟨[c], rfl⟩
        obtain ⟨cs, e⟩ := hN (.listing (encFeatures fs))
        exact ⟨_, _, featureRequest :: cs, by rw [askFeatures_eq h hs hf, e]; rfl⟩
      · obtain ⟨r, f, e, -⟩ := askFeatures_bad h hs (fun fs e => hf ⟨fs, e⟩)
        exact ⟨r, f, [featureRequest], e⟩
    refine ⟨r, f, .connect name :: cs.map (Event.control h) ++ [.disconnect h], ?_, ?_, ?_⟩
    · rw [populate, hc]
      simp only [he, bind_ok]
    · rw [List.cons_append, connected, hconn]
    · intro live
      rw [List.cons_append]
      exact hled h cs live

theorem ledger_append (a b : List Event) : ∀ live live', ledger live a = some live' →
    ledger live (a ++ b) = ledger live' b := by
  induction a with
  | nil => intro live live' h; cases h; rfl
  | cons x a ih =>
    intro live live' h
    cases x with
    | free blk =>
      simp only [List.cons_append, ledger] at h ⊢
      split at h
      · next hm => rw [if_pos hm]; exact ih _ _ h
      · cases h
    | _ => exact ih _ _ h

theorem connected_append (a b : List Event) : connected (a ++ b) = connected a ++ connected b := by
  induction a with
  | nil => rfl
  | cons x a ih => cases x <;> simp [connected, ih]

theorem populateAll_spec (s : Svc) (card : Nat) (rest : List Byte) (hs : ∀ i, (s.reader i).Sound)
    (ns : List (List Byte)) (hn : Names ns) : ∀ (pre : List Byte) (i : Nat),
      ∃ rs e, populateAll s card (pre ++ (multi ns ++ rest)) i (offsets pre.length ns) = .ok (rs, e) ∧
        rs.map Rdr.name = offsets pre.length ns ∧ connected e = ns ∧ (∀ live, ledger live e = some live) ∧
        ∀ (j : Nat) (hj : j < ns.length) (r : Rdr), rs[j]? = some r →
          ∃ res ev, populate (s.reader (i + j)) card ns[j] = .ok (res, r.feat, ev) := by
  induction ns with
  | nil =>
    intro pre i
    exact ⟨[], [], rfl, rfl, rfl, fun _ => rfl, fun j hj => absurd hj (by simp)⟩
  | cons n ns ih =>
    intro pre i
    obtain ⟨hne, hz⟩ := hn n (by simp)
    have e1 : pre ++ (multi (n :: ns) ++ rest) = (pre ++ (n ++ [0])) ++ (multi ns ++ rest) := by
      rw [multi_cons]; simp
    have e2 : pre.length + n.length + 1 = (pre ++ (n ++ [0])).length := by simp; omega
    obtain ⟨rs, e, h1, h2, h3, h4, h5⟩ := ih (fun m hm => hn m (by simp [hm])) (pre ++ (n ++ [0])) (i + 1)
    obtain ⟨r, f, ev, p1, p2, p3⟩ := populate_ok (s.reader i) card n (hs i)
    refine ⟨⟨pre.length, f⟩ :: rs, ev ++ e, ?_, ?_, ?_, ?_, ?_⟩
    · have e3 : multi (n :: ns) ++ rest = n ++ 0 :: (multi ns ++ rest) := by rw [multi_cons]; simp
      rw [offsets, populateAll, suffix_eq (by simp), bind_ok, List.drop_left, e3, Capdu.cstr_spec _ _ hz, bind_ok,
        p1, bind_ok]
      simp only
      rw [← e3, e1, e2, h1]
      rfl
    · rw [List.map_cons, offsets, h2, e2]
    · rw [connected_append, p2, h3]; rfl
    · intro live
      rw [ledger_append _ _ _ _ (p3 live), h4]
    · intro j hj r' hr
      cases j with
      | zero =>
        simp at hr
        subst hr
        exact ⟨r, ev, p1⟩
      | succ j =>
        have := h5 j (by simpa using hj) r' (by simpa using hr)
        rw [show i + (j + 1) = i + 1 + j by omega]
        simpa using this

theorem names_length (ns : List (List Byte)) : ns.length < (multi ns).length := by
  induction ns with
  | nil => decide
  | cons n ns ih => rw [multi_cons]; simp; omega

theorem init_spec (s : Svc) (mem : Nat → List Byte) (card n : Nat) (ns : List (List Byte)) (rest : List Byte)
    (h1 : s.establish = true) (h2 : s.size = some n) (h3 : s.list = some (multi ns ++ rest))
    (hm : (mem n).length = n) (hfit : (multi ns ++ rest).length ≤ n) (hn : Names ns)
    (hs : ∀ i, (s.reader i).Sound) :
    ∃ rest' rs e, init s mem card = .ok (0, some ⟨some (multi ns ++ rest'), some rs, some (rs.map fun _ => stUnaware)⟩,
        [.alloc .ctx, .establish, .list, .alloc .strings, .list, .alloc .readers, .alloc .states] ++ e) ∧
      rs.map Rdr.name = offsets 0 ns ∧ connected e = ns ∧ (∀ live, ledger live e = some live) ∧
      ∀ (j : Nat) (hj : j < ns.length) (r : Rdr), rs[j]? = some r →
          ∃ res ev, populate (s.reader j) card ns[j] = .ok (res, r.feat, ev) := by
  have hw : wrs (mem n) 0 (multi ns ++ rest) = .ok (multi ns ++ (rest ++ (mem n).drop (multi ns ++ rest).length)) := by
    rw [wrs_eq (by omega)]
    simp
  generalize rest ++ (mem n).drop (multi ns ++ rest).length = rest' at hw
  have hnames := names_spec rest' ns hn [] (n + 1) (by
    have := names_length ns
    simp only [List.length_append] at hfit
    omega)
  obtain ⟨rs, e, p1, p2, p3, p4, p5⟩ := populateAll_spec s card rest' hs ns hn [] 0
  simp only [List.nil_append, List.length_nil, Nat.zero_add] at hnames p1 p2 p5
  refine ⟨rest', rs, e, ?_, p2, p3, p4, p5⟩
  rw [init]
  simp only [h1, h2, h3]
  rw [if_neg (by simp), hw, bind_ok, hnames, bind_ok, p1, bind_ok]

/-! ## C102 -/

/-- **C102** (readers).  When the service lists the readers `ns`, initialisation succeeds; there are as
many readers as names, each has its name and what it reported, and there is none beyond.  Each reader is
asked once, in order. -/
theorem C102_readers (s : Svc) (mem : Nat → List Byte) (card n : Nat) (ns : List (List Byte)) (rest : List Byte)
    (h1 : s.establish = true) (h2 : s.size = some n) (h3 : s.list = some (multi ns ++ rest))
    (hm : (mem n).length = n) (hfit : (multi ns ++ rest).length ≤ n) (hn : Names ns)
    (hs : ∀ i, (s.reader i).Sound) :
    ∃ c e, init s mem card = .ok (0, some c, e) ∧ count (some c) = ns.length ∧ connected e = ns ∧
      (∀ (i : Nat) (h : i < ns.length), ∃ r, getReader (some c) i = some r ∧ getName c r = .ok ns[i] ∧
        ∃ res ev, populate (s.reader i) card ns[i] = .ok (res, r.feat, ev)) ∧
      (∀ i, ns.length ≤ i → getReader (some c) i = none) := by
  obtain ⟨rest', rs, e, hinit, p2, p3, -, p5⟩ := init_spec s mem card n ns rest h1 h2 h3 hm hfit hn hs
  have hl : rs.length = ns.length := by
    have := congrArg List.length p2
    rw [List.length_map, offsets_length] at this
    exact this
  refine ⟨_, _, hinit, hl, p3, ?_, ?_⟩
  · intro i hi
    obtain ⟨off, o1, o2⟩ := name_at rest' ns hn [] i hi
    simp only [List.nil_append, List.length_nil] at o1 o2
    have hr : rs[i]? = some rs[i] := List.getElem?_eq_getElem (by omega)
    refine ⟨rs[i], ?_, ?_, ?_⟩
    · simp only [getReader, Option.getD_some]
      rw [if_neg (by omega), hr]
    · have : rs[i].name = off := by
        have h' : (rs.map Rdr.name)[i]? = some off := by rw [p2, o1]
        rw [List.getElem?_map, hr] at h'
        simpa using h'
      rw [getName, this]
      exact o2
    · exact p5 i hi rs[i] hr
  · intro i hi
    simp only [getReader, Option.getD_some]
    rw [if_pos (by omega)]

/-- **C102** (failure).  When the context cannot be established or the readers cannot be listed,
initialisation fails with no context, no reader is connected to, and everything allocated is freed, once. -/
theorem C102_failure (s : Svc) (mem : Nat → List Byte) (card : Nat)
    (h : s.establish = false ∨ s.size = none ∨ s.list = none) :
    ∃ e, init s mem card = .ok (-1, none, e) ∧ connected e = [] ∧ ledger [] e = some [] := by
  unfold init
  by_cases h1 : s.establish = true
  · rw [if_neg (by simp [h1])]
    cases h2 : s.size with
    | none => exact ⟨_, rfl, by decide, by decide⟩
    | some n =>
      cases h3 : s.list with
      | none => exact ⟨_, rfl, by simp [release, connected], by simp [release, ledger]⟩
      | some l => simp [h1, h2, h3] at h
  · rw [if_pos (by simp [h1])]
    exact ⟨_, rfl, by decide, by decide⟩

/-- **C102** (release).  Releasing what was initialised frees everything, once, releases the service's
context once and leaves no context and no readers; releasing nothing does nothing. -/
theorem C102_release (s : Svc) (mem : Nat → List Byte) (card n : Nat) (ns : List (List Byte)) (rest : List Byte)
    (h1 : s.establish = true) (h2 : s.size = some n) (h3 : s.list = some (multi ns ++ rest))
    (hm : (mem n).length = n) (hfit : (multi ns ++ rest).length ≤ n) (hn : Names ns)
    (hs : ∀ i, (s.reader i).Sound) (c : Option Ctx) (r : Int) (e : List Event)
    (h : init s mem card = .ok (r, c, e)) :
    ledger [] (e ++ (release c).2) = some [] ∧ (release c).1 = none ∧ count (release c).1 = 0 ∧
      (release c).2.count .release = 1 ∧ release (release c).1 = (none, []) := by
  obtain ⟨rest', rs, e', hinit, p2, p3, p4, p5⟩ := init_spec s mem card n ns rest h1 h2 h3 hm hfit hn hs
  rw [h] at hinit
  injection hinit with hinit
  simp only [Prod.mk.injEq] at hinit
  obtain ⟨rfl, rfl, rfl⟩ := hinit
  refine ⟨?_, rfl, rfl, by simp [release], rfl⟩
  rw [List.append_assoc]
  change ledger [.states, .readers, .strings, .ctx] (e' ++ _) = _
  rw [ledger_append _ _ _ _ (p4 _)]
  simp [release, ledger]

/-- Two readers: one that lists PIN verification and its PIN properties, one that cannot be connected. -/
def twoReaders : Svc where
  establish := true
  size := some 6
  list := some [0x41, 0, 0x42, 0x43, 0, 0]
  reader i := if i = 0 then ⟨some 7, none, .ok [6, 4, 0, 0, 0, 1, 0x0A, 4, 0, 0, 0, 2], .ok [0x02, 0x10, 7, 0], .fail 0, .fail 0⟩
    else ⟨none, none, .fail 0, .fail 0, .fail 0, .fail 0⟩

example : (init twoReaders (fun n => List.replicate n 0xFF) 99).map (fun x => (x.1, count x.2.1, x.2.2.drop 7)) =
    .ok (0, 2, [.connect [0x41], .control 7 featureRequest, .control 7 2, .disconnect 7,
      .connect [0x42, 0x43], .disconnect 99]) := by decide +kernel

/-! ## C103 -/

/-- **C103** (any reader).  A reader that can be connected is asked with the handle of the connection
only, first for its features and then only with control codes it lists for PIN, display and TLV
properties, at most once each and in that order, and is disconnected at the end. -/
theorem C103_requests (s : ReaderSvc) (card h : Nat) (name : List Byte) (hs : s.Sound) (hc : s.connect = some h) :
    ∃ r f cs, populate s card name =
        .ok (r, f, .connect name :: (featureRequest :: cs).map (Event.control h) ++ [.disconnect h]) ∧
      (cs ≠ [] → ∃ fs, s.features = .ok (encFeatures fs) ∧
        cs.Sublist ((codeOf fs 0x0A).toList ++ (codeOf fs 0x11).toList ++ (codeOf fs 0x12).toList)) := by
  by_cases hf : ∃ fs, s.features = .ok (encFeatures fs)
  · obtain ⟨fs, hf⟩ := hf
    have hP : ∀ f, ∃ cs : List Nat, (propsOut fs s h f).2.2 = cs.map (Event.control h) ∧ cs.Sublist (codeOf fs 0x12).toList := by
      intro f; unfold propsOut
      cases codeOf fs 0x12 with
      | none => exact ⟨[], rfl, .slnil⟩
      | some c => cases s.props <;> exact ⟨[c], rfl, List.Sublist.refl _⟩
    have hD : ∀ f, ∃ cs : List Nat, (displayOut fs s h f).2.2 = cs.map (Event.control h) ∧
        cs.Sublist ((codeOf fs 0x11).toList ++ (codeOf fs 0x12).toList) := by
      intro f; unfold displayOut
      cases codeOf fs 0x11 with
      | none => simpa using hP f
      | some c =>
        cases s.display with
        | ok d =>
          simp only
          split
          · obtain ⟨cs, e, hsub⟩ := hP { f with display := over d f.display, displayLen := 4 }
            exact ⟨c :: cs, by simp [e], by simpa using hsub⟩
          · exact ⟨[c], rfl, by simp⟩
        | fail n => exact ⟨[c], rfl, by simp⟩
    have hN : ∀ f, ∃ cs : List Nat, (pinOut fs s h f).2.2 = cs.map (Event.control h) ∧
        cs.Sublist ((codeOf fs 0x0A).toList ++ (codeOf fs 0x11).toList ++ (codeOf fs 0x12).toList) := by
      intro f; unfold pinOut
      cases codeOf fs 0x0A with
      | none => simpa using hD f
      | some c =>
        cases s.pin with
        | ok d =>
          simp only
          split
          · obtain ⟨cs, e, hsub⟩ := hD { f with pin := over d f.pin, pinLen := 4 }
            exact ⟨c :: cs, by simp [e], by simpa using hsub⟩
          · exact ⟨[c], rfl, by simp⟩
        | fail n => exact ⟨[c], rfl, by simp⟩
    obtain ⟨cs, e, hsub⟩ := hN (.listing (encFeatures fs))
    refine ⟨(pinOut fs s h (.listing (encFeatures fs))).1, (pinOut fs s h (.listing (encFeatures fs))).2.1, cs, ?_,
      fun _ => ⟨fs, hf, hsub⟩⟩
    rw [populate, hc]
    simp only [askFeatures_eq h hs hf, e, bind_ok, List.map_cons]
  · obtain ⟨r, f, e, -⟩ := askFeatures_bad h hs (fun fs e => hf ⟨fs, e⟩)
    refine ⟨r, f, [], ?_, fun h => absurd rfl h⟩
    rw [populate, hc]
    simp only [e, bind_ok]
    rfl

theorem over_full {d arr : List Byte} (h : d.length = arr.length) : over d arr = d := by
  simp [over, h]

theorem propsOut_facts (s : ReaderSvc) (h : Nat) (fs : List (Byte × Byte × Byte × Byte × Byte)) (f : Feat)
    (hs : s.Sound) (h0 : f.propsLen = 0) (hz : f.props = List.replicate 264 0) :
    ∃ r p n e, propsOut fs s h f = (r, { f with props := p, propsLen := n }, e) ∧
      (codeOf fs 0x12 = none → n = 0) ∧
      (codeOf fs 0x12 ≠ none → ∀ d, s.props = .ok d → n = d.length ∧ p = d ++ List.replicate (264 - d.length) 0) ∧
      (∀ k, s.props = .fail k → n = 0) ∧
      (r = 0 ↔ (codeOf fs 0x12 = none ∨ ∃ d, s.props = .ok d)) := by
  unfold propsOut
  cases codeOf fs 0x12 with
  | none => exact ⟨0, f.props, f.propsLen, [], rfl, fun _ => h0, fun h => absurd rfl h, fun _ _ => h0, by simp⟩
  | some c =>
    cases hp : s.props with
    | ok d =>
      exact ⟨0, over d f.props, d.length, [.control h c], rfl, fun h => (by cases h),
        fun _ d' e => (by cases e; exact ⟨rfl, by rw [hz, over, List.drop_replicate]⟩), fun _ e => (by cases e), by simp⟩
    | fail k =>
      have h4 := hs.2.2.2
      rw [hp] at h4
      exact ⟨-13, f.props, k, [.control h c], rfl, fun h => (by cases h), fun _ d e => (by cases e),
        fun _ _ => h4, by simp⟩

theorem displayOut_facts (s : ReaderSvc) (h : Nat) (fs : List (Byte × Byte × Byte × Byte × Byte)) (f : Feat)
    (hs : s.Sound) (h0 : f.propsLen = 0) (hz : f.props = List.replicate 264 0)
    (h1 : f.displayLen = 0) (hl : f.display.length = 4) :
    ∃ r q m p n e, displayOut fs s h f = (r, { f with display := q, displayLen := m, props := p, propsLen := n }, e) ∧
      (codeOf fs 0x11 = none → m = 0) ∧
      (codeOf fs 0x11 ≠ none → ∀ d, s.display = .ok d → d.length = 4 → m = 4 ∧ q = d) ∧
      ((∀ d, s.display = .ok d → d.length ≠ 4) → m = 0) ∧
      ((codeOf fs 0x11 = none ∨ ∃ d, s.display = .ok d ∧ d.length = 4) →
        (codeOf fs 0x12 = none → n = 0) ∧
        (codeOf fs 0x12 ≠ none → ∀ d, s.props = .ok d → n = d.length ∧ p = d ++ List.replicate (264 - d.length) 0) ∧
        (∀ k, s.props = .fail k → n = 0) ∧
        (r = 0 ↔ (codeOf fs 0x12 = none ∨ ∃ d, s.props = .ok d))) := by
  unfold displayOut
  cases codeOf fs 0x11 with
  | none =>
    obtain ⟨r, p, n, e, e1, e2⟩ := propsOut_facts s h fs f hs h0 hz
    exact ⟨r, f.display, f.displayLen, p, n, e, e1, fun _ => h1, fun h => absurd rfl h, fun _ => h1, fun _ => e2⟩
  | some c =>
    cases hp : s.display with
    | ok d =>
      simp only
      split
      · next hd =>
        obtain ⟨r, p, n, e, e1, e2⟩ := propsOut_facts s h fs { f with display := over d f.display, displayLen := 4 } hs h0 hz
        exact ⟨r, over d f.display, 4, p, n, .control h c :: e, by rw [e1], fun h => (by cases h),
          fun _ d' e _ => (by cases e; exact ⟨rfl, over_full (by omega)⟩), fun h => absurd hd (h d rfl), fun _ => e2⟩
      · next hd =>
        exact ⟨-11, over d f.display, 0, f.props, f.propsLen, _, rfl, fun _ => rfl,
          fun _ d' e h' => (by cases e; exact absurd h' hd), fun _ => rfl,
          fun h => (by
            rcases h with h | ⟨d', e, h'⟩
            · cases h
            · cases e; exact absurd h' hd)⟩
    | fail k =>
      have h4 := hs.2.2.1
      rw [hp] at h4
      exact ⟨-10, f.display, k, f.props, f.propsLen, _, rfl, fun h => (by cases h), fun _ d e => (by cases e),
        fun _ => h4, fun h => (by
            rcases h with h | ⟨d', e, h'⟩
            · cases h
            · cases e)⟩

theorem listed (fs : List (Byte × Byte × Byte × Byte × Byte)) (junk : List Byte) (x : Nat) :
    hasFeature (encFeatures fs ++ junk) (encFeatures fs).length x = .ok (fs.any fun e => e.1.toNat = x) := by
  obtain ⟨r, len, b, e1, e2, -, -, h6⟩ := C68_any (encFeatures fs) junk x
  rw [(C68_control_code fs junk x).1] at e1
  cases e1
  have hl := encFeatures_length fs
  have e3 := (h6 (by omega)).1
  have hget : ∀ j, (hj : j < fs.length) → (encFeatures fs).getD (j * 6) 0 = fs[j].1 := by
    clear e2 h6 e3 hl
    induction fs with
    | nil => intro j hj; simp at hj
    | cons f fs ih =>
      intro j hj
      cases j with
      | zero => simp [encFeatures, encFeature]
      | succ j =>
        have he : encFeatures (f :: fs) = [f.1, 4, f.2.1, f.2.2.1, f.2.2.2.1, f.2.2.2.2] ++
          encFeatures fs := by simp [encFeatures, encFeature]
        rw [he, List.getD_eq_getElem?_getD, List.getElem?_append_right (by simp; omega),
          ← List.getD_eq_getElem?_getD, show (j + 1) * 6 - _ = j * 6 by simp; omega]
        simpa using ih j (by simpa using hj)
  rw [e2]
  congr 1
  rw [Bool.eq_iff_iff, e3, List.any_eq_true]
  constructor
  · rintro ⟨j, hj, h⟩
    have hj' : j < fs.length := by omega
    refine ⟨fs[j], List.getElem_mem hj', ?_⟩
    rw [hget j hj'] at h
    simpa using h
  · rintro ⟨e, he, h⟩
    obtain ⟨j, hj, rfl⟩ := List.mem_iff_getElem.mp he
    exact ⟨j, by omega, by rw [hget j hj]; simpa using h⟩

/-- **C103** (what is known afterwards).  For a reader that lists the features `fs`: exactly these
features are available.  The PIN properties are known exactly when they are listed and answered by four
bytes; if so or not listed, the same holds for the display properties, and if so or not listed, for the
TLV properties.  Missing: display properties after wrong PIN properties and TLV properties after wrong
display properties (`C103_lost`). -/
theorem C103_known_partial (s : ReaderSvc) (card h : Nat) (name : List Byte)
    (fs : List (Byte × Byte × Byte × Byte × Byte)) (hs : s.Sound) (hc : s.connect = some h)
    (hf : s.features = .ok (encFeatures fs)) :
    ∃ r f e, populate s card name = .ok (r, f, e) ∧
      (∀ x, hasFeature f.buf f.bufLen x = .ok (fs.any fun e => e.1.toNat = x)) ∧
      (codeOf fs 0x0A = none → f.pinLen = 0) ∧
      (codeOf fs 0x0A ≠ none → ∀ d, s.pin = .ok d → d.length = 4 → f.pinLen = 4 ∧ f.pin = d) ∧
      ((∀ d, s.pin = .ok d → d.length ≠ 4) → f.pinLen = 0) ∧
      ((codeOf fs 0x0A = none ∨ ∃ d, s.pin = .ok d ∧ d.length = 4) →
        (codeOf fs 0x11 = none → f.displayLen = 0) ∧
        (codeOf fs 0x11 ≠ none → ∀ d, s.display = .ok d → d.length = 4 → f.displayLen = 4 ∧ f.display = d) ∧
        ((∀ d, s.display = .ok d → d.length ≠ 4) → f.displayLen = 0) ∧
        ((codeOf fs 0x11 = none ∨ ∃ d, s.display = .ok d ∧ d.length = 4) →
          (codeOf fs 0x12 = none → f.propsLen = 0) ∧
          (codeOf fs 0x12 ≠ none → ∀ d, s.props = .ok d → f.propsLen = d.length ∧ f.props = d ++ List.replicate (264 - d.length) 0) ∧
          (∀ n, s.props = .fail n → f.propsLen = 0) ∧
          (r = 0 ↔ (codeOf fs 0x12 = none ∨ ∃ d, s.props = .ok d)))) := by
  have hp : ∃ r q0 m0 q m p n e, pinOut fs s h (.listing (encFeatures fs)) =
      (r, { Feat.listing (encFeatures fs) with
        pin := q0, pinLen := m0, display := q, displayLen := m, props := p, propsLen := n }, e) ∧
      (codeOf fs 0x0A = none → m0 = 0) ∧
      (codeOf fs 0x0A ≠ none → ∀ d, s.pin = .ok d → d.length = 4 → m0 = 4 ∧ q0 = d) ∧
      ((∀ d, s.pin = .ok d → d.length ≠ 4) → m0 = 0) ∧
      ((codeOf fs 0x0A = none ∨ ∃ d, s.pin = .ok d ∧ d.length = 4) →
        (codeOf fs 0x11 = none → m = 0) ∧
        (codeOf fs 0x11 ≠ none → ∀ d, s.display = .ok d → d.length = 4 → m = 4 ∧ q = d) ∧
        ((∀ d, s.display = .ok d → d.length ≠ 4) → m = 0) ∧
        ((codeOf fs 0x11 = none ∨ ∃ d, s.display = .ok d ∧ d.length = 4) →
          (codeOf fs 0x12 = none → n = 0) ∧
          (codeOf fs 0x12 ≠ none → ∀ d, s.props = .ok d → n = d.length ∧ p = d ++ List.replicate (264 - d.length) 0) ∧
          (∀ k, s.props = .fail k → n = 0) ∧
          (r = 0 ↔ (codeOf fs 0x12 = none ∨ ∃ d, s.props = .ok d)))) := by
    unfold pinOut
    cases codeOf fs 0x0A with
    | none =>
      obtain ⟨r, q, m, p, n, e, e1, e2⟩ := displayOut_facts s h fs (.listing (encFeatures fs)) hs rfl rfl rfl
        (List.length_replicate ..)
      exact ⟨r, _, 0, q, m, p, n, e, e1, fun _ => rfl, fun h => absurd rfl h, fun _ => rfl, fun _ => e2⟩
    | some c =>
      cases hp : s.pin with
      | ok d =>
        simp only
        split
        · next hd =>
          obtain ⟨r, q, m, p, n, e, e1, e2⟩ := displayOut_facts s h fs
            { Feat.listing (encFeatures fs) with pin := over d (Feat.listing (encFeatures fs)).pin, pinLen := 4 }
            hs rfl rfl rfl (List.length_replicate ..)
          exact ⟨r, over d (Feat.listing (encFeatures fs)).pin, 4, q, m, p, n, .control h c :: e, by rw [e1],
            fun h => (by cases h),
            fun _ d' e _ => (by cases e; exact ⟨rfl, over_full (by rw [hd]; rfl)⟩), fun h => absurd hd (h d rfl), fun _ => e2⟩
        · next hd =>
          exact ⟨-8, over d (Feat.listing (encFeatures fs)).pin, 0, _, _, _, _, _, rfl, fun _ => rfl,
            fun _ d' e h' => (by cases e; exact absurd h' hd), fun _ => rfl,
            fun h => (by
              rcases h with h | ⟨d', e, h'⟩
              · cases h
              · cases e; exact absurd h' hd)⟩
      | fail k =>
        have h4 := hs.2.1
        rw [hp] at h4
        exact ⟨-7, (Feat.listing (encFeatures fs)).pin, k, _, _, _, _, _, rfl, fun h => (by cases h),
          fun _ d e => (by cases e), fun _ => h4, fun h => (by
            rcases h with h | ⟨d', e, h'⟩
            · cases h
            · cases e)⟩
  obtain ⟨r, q0, m0, q, m, p, n, e, e1, e2⟩ := hp
  refine ⟨r, { Feat.listing (encFeatures fs) with
        pin := q0, pinLen := m0, display := q, displayLen := m, props := p, propsLen := n },
    .connect name :: (.control h featureRequest :: e) ++ [.disconnect h], ?_, fun x => ?_, e2⟩
  · rw [populate, hc]
    simp only [askFeatures_eq h hs hf, e1, bind_ok]
  · exact listed fs _ x

/-- **C103** (other readers).  A reader that cannot be connected, does not answer the feature request, or
answers by something that is not a list of six byte entries has no features and no properties. -/
theorem C103_unknown (s : ReaderSvc) (card : Nat) (name : List Byte) (hs : s.Sound)
    (h : s.connect = none ∨ (∃ n, s.features = .fail n) ∨ ∃ d, s.features = .ok d ∧ d.length % 6 ≠ 0) :
    ∃ r f e, populate s card name = .ok (r, f, e) ∧ r < 0 ∧ f.pinLen = 0 ∧ f.displayLen = 0 ∧ f.propsLen = 0 ∧
      ∀ x, hasFeature f.buf f.bufLen x = .ok false := by
  cases hc : s.connect with
  | none => exact ⟨-2, .zero, _, by rw [populate, hc], by decide, rfl, rfl, rfl, fun _ => rfl⟩
  | some k =>
    rw [hc] at h
    have hbad : ∀ fs, s.features ≠ .ok (encFeatures fs) := by
      intro fs e
      rcases h with h | ⟨n, h⟩ | ⟨d, h, h6⟩
      · cases h
      · rw [h] at e; cases e
      · rw [h] at e; cases e
        have := encFeatures_length fs
        omega
    obtain ⟨r, f, e, hr, h1, h2, h3, h4, h5⟩ := askFeatures_bad k hs hbad
    refine ⟨r, f, _, by rw [populate, hc]; simp only [e, bind_ok]; rfl, hr, h1, h2, h3, fun x => ?_⟩
    have hb : f.bufLen = 0 := by
      rcases h with h | ⟨n, h⟩ | ⟨d, h, h6⟩
      · cases h
      · exact h5 n h
      · exact h4 d h h6
    rw [hb]
    rfl

/-- **C103** (observable properties).  Without TLV properties, the LCD layout of a reader is the
first two bytes of its PIN properties.  Missing: readers that also have the other features, whose
properties may hide this one (C59). -/
theorem C103_layout_partial (s : ReaderSvc) (card h : Nat) (name value : List Byte) (a b c d : Byte)
    (fs : List (Byte × Byte × Byte × Byte × Byte)) (hs : s.Sound) (hc : s.connect = some h)
    (hf : s.features = .ok (encFeatures fs)) (h1 : codeOf fs 0x0A ≠ none) (h2 : codeOf fs 0x12 = none)
    (h3 : codeOf fs 0x11 = none) (hp : s.pin = .ok [a, b, c, d]) (hv : 2 ≤ value.length) :
    ∃ r f e, populate s card name = .ok (r, f, e) ∧
      getProperty f.view 0x01 value = .ok (0, a :: b :: value.drop 2, 2) := by
  obtain ⟨r, f, e, e0, -, -, e2, -, e4⟩ := C103_known_partial s card h name fs hs hc hf
  obtain ⟨p1, p2⟩ := e2 h1 _ hp rfl
  obtain ⟨-, -, -, e5⟩ := e4 (.inr ⟨_, hp, rfl⟩)
  have hn : f.propsLen = 0 := (e5 (.inl h3)).1 h2
  refine ⟨r, f, e, e0, ?_⟩
  have hview : f.view = ⟨f.props, 0, some (a, b), f.view.lcdMax⟩ := by
    simp [Feat.view, p1, p2, hn]
  rw [hview]
  exact (C59_fallback f.props 0 1 (some (a, b)) f.view.lcdMax value (by decide)).1 (a, b) rfl hv

/-- **C103** (observable properties of the display).  Without PIN and TLV properties, the number of characters per line is the
first two bytes of the display properties, and the number of lines the last two.  Missing: as in `C103_layout_partial`. -/
theorem C103_display_partial (s : ReaderSvc) (card h : Nat) (name value : List Byte) (a b c d : Byte)
    (fs : List (Byte × Byte × Byte × Byte × Byte)) (hs : s.Sound) (hc : s.connect = some h)
    (hf : s.features = .ok (encFeatures fs)) (h1 : codeOf fs 0x0A = none) (h2 : codeOf fs 0x12 = none)
    (h3 : codeOf fs 0x11 ≠ none) (hp : s.display = .ok [a, b, c, d]) (hv : 2 ≤ value.length) :
    ∃ r f e, populate s card name = .ok (r, f, e) ∧
      getProperty f.view 0x04 value = .ok (0, a :: b :: value.drop 2, 2) ∧
      getProperty f.view 0x05 value = .ok (0, c :: d :: value.drop 2, 2) := by
  obtain ⟨r, f, e, e0, -, -, -, -, e4⟩ := C103_known_partial s card h name fs hs hc hf
  obtain ⟨-, e5, -, e6⟩ := e4 (.inl h1)
  obtain ⟨p1, p2⟩ := e5 h3 _ hp rfl
  have hn : f.propsLen = 0 := (e6 (.inr ⟨_, hp, rfl⟩)).1 h2
  have hview : f.view = ⟨f.props, 0, f.view.lcdLayout, some ((a, b), (c, d))⟩ := by
    simp [Feat.view, p1, p2, hn]
  refine ⟨r, f, e, e0, ?_, ?_⟩
  · rw [hview]
    exact (C59_fallback f.props 0 4 _ (some ((a, b), (c, d))) value (by decide)).1 (a, b) rfl hv
  · rw [hview]
    exact (C59_fallback f.props 0 5 _ (some ((a, b), (c, d))) value (by decide)).1 (c, d) rfl hv

/-- **C103 is false otherwise**: when the PIN properties have another length, the display properties are
not asked for although the reader lists them. -/
theorem C103_lost : ∃ (s : ReaderSvc), s.Sound ∧ s.display = .ok [16, 0, 2, 0] ∧
    (∃ fs c, s.features = .ok (encFeatures fs) ∧ codeOf fs 0x11 = some c) ∧
    (populate s 0 [0x41]).map (fun x => (x.1, x.2.1.displayLen)) = .ok (-8, 0) :=
  ⟨⟨some 7, none, .ok (encFeatures [(0x0A, 0, 0, 0, 1), (0x11, 0, 0, 0, 2)]), .ok [1, 2], .ok [16, 0, 2, 0], .fail 0⟩,
    by refine ⟨?_, ?_, ?_, ?_⟩ <;> simp [Ctl.Sound, encFeatures, encFeature], rfl, ⟨_, 2, rfl, by decide⟩,
    by decide +kernel⟩

/-- **C103 is false otherwise**: when a reader cannot be connected and the service leaves the handle
alone, whatever was in memory is disconnected. -/
theorem C103_foreign_handle (s : ReaderSvc) (card : Nat) (name : List Byte) (h : s.connect = none)
    (h' : s.failHandle = none) :
    populate s card name = .ok (-2, .zero, [.connect name, .disconnect card]) := by
  rw [populate, h, h']
  rfl

/-- A reader with PIN and display properties. -/
example : ∃ s : ReaderSvc, s.Sound ∧ s.connect = some 7 ∧
    s.features = .ok (encFeatures [(6, 0, 0, 0, 1), (0x0A, 0, 0, 0, 2), (0x11, 0, 0, 0, 3)]) ∧
    (populate s 0 [0x41]).map (fun x => (x.1, x.2.1.pin, x.2.1.display, x.2.2)) =
      .ok (0, [2, 16, 7, 0], [16, 0, 2, 0], [.connect [0x41], .control 7 featureRequest, .control 7 2, .control 7 3,
        .disconnect 7]) :=
  ⟨⟨some 7, none, .ok (encFeatures [(6, 0, 0, 0, 1), (0x0A, 0, 0, 0, 2), (0x11, 0, 0, 0, 3)]), .ok [2, 16, 7, 0],
      .ok [16, 0, 2, 0], .fail 0⟩,
    by refine ⟨?_, ?_, ?_, ?_⟩ <;> simp [Ctl.Sound, encFeatures, encFeature], rfl, rfl, by decide +kernel⟩

/-! ## C104 -/

/-- A service that answers for all `n` readers and says nothing of the readers it is to ignore. -/
def Honest (n : Nat) (svc : List Nat → Change) : Prop :=
  ∀ st l, svc st = .states l → st.length = n → l.length = n ∧
    ∀ (i : Nat), st[i]? = some stIgnore → ∀ (x : Nat), l[i]? = some x → x.testBit 5 = false

/-- Which readers an index asks for. -/
def Asked (idx i : Nat) : Prop := idx = 0xFFFFFFFF ∨ idx = i

theorem present_bit (x : Nat) : x &&& stPresent ≠ 0 ↔ x.testBit 5 = true := by
  constructor
  · intro h
    cases hb : x.testBit 5 with
    | true => rfl
    | false =>
      exfalso
      apply h
      apply Nat.eq_of_testBit_eq
      intro i
      rw [Nat.testBit_and, Nat.zero_testBit, show stPresent = 2 ^ 5 from rfl, Nat.testBit_two_pow]
      by_cases hi : 5 = i
      · subst hi; simp [hb]
      · simp [hi]
  · intro hb h
    have := congrArg (Nat.testBit · 5) h
    simp only [Nat.testBit_and, Nat.zero_testBit, hb, show stPresent = 2 ^ 5 from rfl, Nat.testBit_two_pow] at this
    simp at this

theorem firstPresent_spec : ∀ (l : List Nat) (k : Nat),
    (∀ i, firstPresent l k = some i → ∃ (j x : Nat), i = k + j ∧ l[j]? = some x ∧ x.testBit 5 = true ∧
      ∀ (j' x' : Nat), j' < j → l[j']? = some x' → x'.testBit 5 = false) ∧
    (firstPresent l k = none → ∀ (j x : Nat), l[j]? = some x → x.testBit 5 = false) := by
  intro l
  induction l with
  | nil =>
    intro k
    exact ⟨fun i h => (by cases h), fun _ j x h => (by simp at h)⟩
  | cons y l ih =>
    intro k
    obtain ⟨ih1, ih2⟩ := ih (k + 1)
    rw [firstPresent]
    split
    · next h =>
      refine ⟨fun i e => ?_, fun e => (by cases e)⟩
      cases e
      exact ⟨0, y, rfl, rfl, (present_bit y).mp h, fun j' _ hj => absurd hj (by omega)⟩
    · next h =>
      have hy : y.testBit 5 = false := by
        cases hb : y.testBit 5 with
        | true => exact absurd ((present_bit y).mpr hb) h
        | false => rfl
      refine ⟨fun i e => ?_, fun e j x hx => ?_⟩
      · obtain ⟨j, x, rfl, hx, hb, hj⟩ := ih1 i e
        refine ⟨j + 1, x, by omega, by simpa using hx, hb, ?_⟩
        intro j' x' hlt hx'
        cases j' with
        | zero => simp at hx'; subst hx'; exact hy
        | succ j' => exact hj j' x' (by omega) (by simpa using hx')
      · cases j with
        | zero => simp at hx; subst hx; exact hy
        | succ j => exact ih2 e j x (by simpa using hx)

theorem watch_get (n idx i : Nat) (h : i < n) :
    (watch n idx)[i]? = some (if idx = readerAny ∨ idx = i then stEmpty else stIgnore) := by
  simp [watch, h]

/-- **C104** (outcome).  The service is asked to report the readers asked for when they are no longer empty
and to ignore the others.  The result is 0 exactly when it then reports a card; the reader given is
one that was asked for, exists, and has a card, and no reader before it has.  On a timeout and on failure
the index is unchanged. -/
theorem C104_wait (svc : List Nat → Change) (c : Ctx) (rs : List Rdr) (hc : c.readers = some rs) (idx : Nat)
    (hs : Honest rs.length svc) :
    ∃ r idx' c' st, waitForCard svc c idx = (r, idx', c') ∧ c'.readers = some rs ∧ c'.states = some st ∧
      st.length = rs.length ∧
      (∀ i, i < rs.length → (Asked idx i → st[i]? = some stEmpty) ∧ (¬ Asked idx i → st[i]? = some stIgnore)) ∧
      (svc st = .timeout → r = 1 ∧ idx' = idx) ∧ (svc st = .fail → r = -1 ∧ idx' = idx) ∧
      (∀ l, svc st = .states l →
        ((∃ (i x : Nat), l[i]? = some x ∧ x.testBit 5 = true) → r = 0) ∧
        ((∀ (i x : Nat), l[i]? = some x → x.testBit 5 = false) → r = 1) ∧
        (r = 0 → idx' < rs.length ∧ Asked idx idx' ∧ (∃ (x : Nat), l[idx']? = some x ∧ x.testBit 5 = true) ∧
          ∀ (i x : Nat), i < idx' → l[i]? = some x → x.testBit 5 = false)) := by
  have hlen : (watch rs.length idx).length = rs.length := by simp [watch]
  have hst : ∀ i, i < rs.length → (Asked idx i → (watch rs.length idx)[i]? = some stEmpty) ∧
      (¬ Asked idx i → (watch rs.length idx)[i]? = some stIgnore) := by
    intro i hi
    rw [watch_get _ _ _ hi]
    exact ⟨fun h => congrArg some (if_pos h), fun h => congrArg some (if_neg h)⟩
  unfold waitForCard
  simp only [hc, Option.getD_some]
  cases hsv : svc (watch rs.length idx) with
  | timeout =>
    exact ⟨_, _, _, _, rfl, rfl, rfl, hlen, hst, fun _ => ⟨rfl, rfl⟩, fun e => (by rw [hsv] at e; cases e),
      fun l e => (by rw [hsv] at e; cases e)⟩
  | fail =>
    exact ⟨_, _, _, _, rfl, rfl, rfl, hlen, hst, fun e => (by rw [hsv] at e; cases e), fun _ => ⟨rfl, rfl⟩,
      fun l e => (by rw [hsv] at e; cases e)⟩
  | states l =>
    obtain ⟨hl, hig⟩ := hs _ l hsv hlen
    obtain ⟨f1, f2⟩ := firstPresent_spec l 0
    cases hf : firstPresent l 0 with
    | none =>
      have f2 := f2 hf
      refine ⟨1, 2 ^ 64 - 1, { c with readers := some rs, states := some (watch rs.length idx) }, _, ?_, rfl, rfl, hlen, hst, fun e => (by rw [hsv] at e; cases e),
        fun e => (by rw [hsv] at e; cases e), ?_⟩
      · simp only [hf]
      · intro l' e
        rw [hsv] at e; cases e
        refine ⟨?_, fun _ => rfl, fun h => absurd h (by decide)⟩
        rintro ⟨i, x, hx, hb⟩
        rw [f2 i x hx] at hb; cases hb
    | some i =>
      obtain ⟨j, x, rfl, hx, hb, hj⟩ := f1 i hf
      rw [Nat.zero_add] at hf
      have hlt : j < rs.length := by
        rw [← hl]
        exact (List.getElem?_eq_some_iff.mp hx).1
      refine ⟨0, j, { c with readers := some rs, states := some (watch rs.length idx) }, _, ?_, rfl, rfl, hlen, hst, fun e => (by rw [hsv] at e; cases e),
        fun e => (by rw [hsv] at e; cases e), ?_⟩
      · simp only [hf]
      · intro l' e
        rw [hsv] at e; cases e
        refine ⟨fun _ => rfl, fun h => ?_, fun _ => ⟨hlt, ?_, ⟨x, hx, hb⟩, fun i x' hi hx' => hj i x' hi hx'⟩⟩
        · rw [h j x hx] at hb; cases hb
        · apply Classical.byContradiction
          intro hna
          rw [hig j ((hst j hlt).2 hna) x hx] at hb
          cases hb

/-- **C104 is false of the code**: when the service reports that no reader has a card, the index becomes
`SIZE_MAX`, which is not the index for any reader; waiting again with it asks for no reader, so no card
is ever found, whatever readers the first call was made for. -/
theorem C104_index_lost (svc : List Nat → Change) (c : Ctx) (rs : List Rdr) (hc : c.readers = some rs) (idx : Nat)
    (l : List Nat) (hn : rs.length < 2 ^ 63) (hsv : svc (watch rs.length idx) = .states l)
    (hno : ∀ (i x : Nat), l[i]? = some x → x.testBit 5 = false) :
    ∃ idx' c', waitForCard svc c idx = (1, idx', c') ∧ (∀ i, i < rs.length → ¬ Asked idx' i) ∧
      ∀ svc', Honest rs.length svc' → (waitForCard svc' c' idx').1 ≠ 0 := by
  have hf : firstPresent l 0 = none := by
    cases h : firstPresent l 0 with
    | none => rfl
    | some i =>
      obtain ⟨j, x, -, hx, hb, -⟩ := (firstPresent_spec l 0).1 i h
      rw [hno j x hx] at hb; cases hb
  refine ⟨2 ^ 64 - 1, { c with readers := some rs, states := some (watch rs.length idx) }, ?_, ?_, ?_⟩
  · unfold waitForCard
    simp only [hc, Option.getD_some, hsv, hf]
  · intro i hi h
    rcases h with h | h <;> omega
  · intro svc' hs h0
    obtain ⟨r, idx', c', st, e, -, -, -, -, e2, e3, e4⟩ := C104_wait svc'
      { c with readers := some rs, states := some (watch rs.length idx) } rs rfl (2 ^ 64 - 1) hs
    rw [e] at h0
    simp only at h0
    subst h0
    cases hs' : svc' st with
    | timeout => exact absurd (e2 hs').1 (by decide)
    | fail => exact absurd (e3 hs').1 (by decide)
    | states l' =>
      obtain ⟨h1, h2, -⟩ := (e4 l' hs').2.2 rfl
      rcases h2 with h2 | h2 <;> omega

/-- Two readers, a card in the second; then no card. -/
example : (waitForCard (fun st => .states (st.map fun s => if s = 16 then 0x22 else 1)) ⟨some [], some [⟨0, .zero⟩, ⟨2, .zero⟩], none⟩ 1).1 = 0 ∧
    (waitForCard (fun st => .states (st.map fun s => if s = 16 then 0x22 else 1)) ⟨some [], some [⟨0, .zero⟩, ⟨2, .zero⟩], none⟩ 1).2.1 = 1 ∧
    (waitForCard (fun st => .states (st.map fun _ => 1)) ⟨some [], some [⟨0, .zero⟩, ⟨2, .zero⟩], none⟩ 1).2.1 = 2 ^ 64 - 1 := by
  decide

end Verif.PcscInit
