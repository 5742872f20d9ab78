import Verif.TalSelectProps
import Verif.EmvSelectProps
import Verif.Text

/-!
# C147: the search by the list of AIDs against a card with applications

`findApps` is given the answers of the card one after the other.  Here the answers are those of a card that has
certain applications and selects them by the beginning of their names.
-/

set_option autoImplicit false

namespace Verif.Search
open Verif Ber BerSpec TlvParse App Tal Fields

/-! ## Specification -/

/-- An application of a card: its name, the contents of its file control information, the length octets of that, and
whether it is blocked. -/
structure CardApp where
  name : List Byte
  body : Forest
  len : List Byte
  blocked : Bool

/-- The file control information is well-formed and has the name of the application. -/
def CardApp.WF (m : CardApp) : Prop :=
  m.body.WF ∧ LenOctets m.body.enc.length m.len ∧ field 0x84 m.body.leaves = some m.name ∧ m.name ≠ []

/-- The file control information. -/
def CardApp.data (m : CardApp) : List Byte := [0x6F] ++ m.len ++ m.body.enc

/-- Its name begins with `name`. -/
def Begins (name : List Byte) (m : CardApp) : Bool := name.isPrefixOf m.name

/-- The answer when the application `found`, or none, is selected. -/
def Answer (found : Option CardApp) (w : W) : Prop :=
  w.code = 0 ∧ match found with
    | none => w.sw = 0x6A82
    | some m => w.data = m.data ∧ w.sw = if m.blocked then 0x6283 else 0x9000

/-- The applications behind the first that begins with `name`. -/
def behind (name : List Byte) (l : List CardApp) : List CardApp := (l.dropWhile (fun m => !Begins name m)).tail

/-- The exchanges are those with a card that has the applications `card` and selects them by the beginning of their
names: the first, or the next after the one selected last.  `left` are the applications behind that one. -/
def Talk (card : List CardApp) : List CardApp → List (Cmd × W) → Prop
  | _, [] => True
  | left, (.select next name, w) :: tr =>
    Answer ((if next then left else card).find? (Begins name)) w ∧
      Talk card (behind name (if next then left else card)) tr
  | _, _ :: _ => False

/-- An entry of the list of supported AIDs is satisfied by an application: equal names, or, when the entry says so,
the beginning of its name. -/
def Meets (t : Tlv) (m : CardApp) : Bool := m.name == t.value || (t.flags == 1 && Begins t.value m)

/-- No name on the card is the beginning of another one. -/
def Separate (card : List CardApp) : Prop :=
  card.Pairwise fun a b => ¬ a.name <+: b.name ∧ ¬ b.name <+: a.name

/-- What is kept of an application in the candidate list. -/
def Kept (m : CardApp) : List Byte × List Tlv := (m.name, m.body.leaves)

/-! ## Lemmas -/

/-- What the search takes of the applications that begin with the AID `t`. -/
def hits (t : Tlv) : List CardApp → List CardApp
  | [] => []
  | m :: ms =>
    if t.value.length = m.name.length then (if m.blocked then [] else [m])
    else if t.flags = 1 then (if m.blocked then hits t ms else m :: hits t ms)
    else []

theorem filter_behind (name : List Byte) (l : List CardApp) :
    (behind name l).filter (Begins name) = (l.filter (Begins name)).tail := by
  induction l with
  | nil => rfl
  | cons m l ih =>
    unfold behind
    by_cases h : Begins name m = true
    · simp [h]
    · simp only [Bool.not_eq_true] at h
      simp only [List.dropWhile_cons, h, Bool.not_false, if_true, List.filter_cons, Bool.false_eq_true, if_false]
      exact ih

theorem find_filter (name : List Byte) (l : List CardApp) :
    l.find? (Begins name) = (l.filter (Begins name)).head? := by
  rw [List.head?_filter]

/-- Those an AID can be answered with. -/
def pool (card left : List CardApp) (first : Bool) (t : Tlv) : List CardApp :=
  (if first then card else left).filter (Begins t.value)

/-- All that the search takes. -/
def expected (card left : List CardApp) (first : Bool) : List Tlv → List CardApp
  | [] => []
  | t :: aids => hits t (pool card left first t) ++ aids.flatMap fun t => hits t (card.filter (Begins t.value))

/-- The most commands it sends. -/
def most (card left : List CardApp) (first : Bool) : List Tlv → Nat
  | [] => 0
  | t :: aids => (pool card left first t).length + 1 + (aids.map fun t => (card.filter (Begins t.value)).length + 1).sum

theorem created {m : CardApp} (h : m.WF) {w : W} (hw : w.data = m.data) :
    ∃ a, createFromFci w.data = .ok (some a) ∧ (a.aid.value, a.tlvs) = Kept m := by
  obtain ⟨h1, h2, h3, h4⟩ := h
  obtain ⟨r, hr, -, hp⟩ := createFromFci_spec w.data (by rw [hw]; simp [CardApp.data])
  obtain ⟨a, ha, e1, e2⟩ := hp m.body m.len m.name h1 h2 (by rw [hw]; rfl) h3 h4
  exact ⟨a, by rw [hr, ha], by simp [Kept, e1, e2]⟩

/-- How the search ends. -/
def Post (card left : List CardApp) (aids : List Tlv) (first : Bool) (apps : List App) (script : List W)
    (tr : List (Cmd × W)) : Out (Int × List App) → Prop
  | .done (code, apps') rest => code = 0 ∧ script = tr.map (·.2) ++ rest ∧ tr.length ≤ most card left first aids ∧
      ∃ new, apps' = apps ++ new ∧ new.map (fun a => (a.aid.value, a.tlvs)) = (expected card left first aids).map Kept
  | .pending _ => tr.map (·.2) = script ∧ tr.length < most card left first aids

theorem log_inv {α : Type} {cmd : Cmd} {w : W} {x : C (Run α)} {tr : List (Cmd × W)} {o : Out α}
    (h : log cmd w x = .ok (tr, o)) : ∃ tr', x = .ok (tr', o) ∧ tr = (cmd, w) :: tr' := by
  unfold log at h
  cases x with
  | error e => cases h
  | ok y => cases h; exact ⟨y.1, rfl, rfl⟩

theorem most_true (card left left' : List CardApp) (aids : List Tlv) :
    most card left true aids = most card left' true aids := by cases aids <;> rfl

theorem expected_true (card left left' : List CardApp) (aids : List Tlv) :
    expected card left true aids = expected card left' true aids := by cases aids <;> rfl

theorem expected_cons (card left : List CardApp) (first : Bool) (t : Tlv) (aids : List Tlv) :
    expected card left first (t :: aids) = hits t (pool card left first t) ++ expected card left true aids := by
  cases aids <;> rfl

theorem most_cons (card left : List CardApp) (first : Bool) (t : Tlv) (aids : List Tlv) :
    most card left first (t :: aids) = (pool card left first t).length + 1 + most card left true aids := by
  cases aids with
  | nil => rfl
  | cons u aids => simp [most, pool]

/-- One step: the rest of the search gives the rest. -/
theorem post_step {card left left' : List CardApp} {aids aids' : List Tlv} {first first' : Bool} {apps new : List App}
    {script : List W} {tr : List (Cmd × W)} {o : Out (Int × List App)} {cmd : Cmd} {w : W}
    (h : Post card left' aids' first' (apps ++ new) script tr o)
    (hm : most card left' first' aids' + 1 ≤ most card left first aids)
    (he : (expected card left first aids).map Kept =
      new.map (fun a => (a.aid.value, a.tlvs)) ++ (expected card left' first' aids').map Kept) :
    Post card left aids first apps (w :: script) ((cmd, w) :: tr) o := by
  cases o with
  | pending c =>
    obtain ⟨h1, h2⟩ := h
    exact ⟨by simp [h1], by simp; omega⟩
  | done a rest =>
    obtain ⟨code, apps'⟩ := a
    obtain ⟨h0, h1, h2, more, h3, h4⟩ := h
    refine ⟨h0, by simp [h1], by simp; omega, new ++ more, by rw [h3, List.append_assoc], ?_⟩
    rw [List.map_append, h4, he]

theorem search (card : List CardApp) (hc : ∀ m ∈ card, m.WF) : ∀ (script : List W) (aids : List Tlv) (first : Bool)
    (apps : List App) (left : List CardApp) (tr : List (Cmd × W)) (o : Out (Int × List App)),
    (∀ t ∈ aids, 5 ≤ t.value.length ∧ t.value.length ≤ 16) → (∀ m ∈ left, m ∈ card) →
    findApps script aids first apps = .ok (tr, o) → Talk card left tr → Post card left aids first apps script tr o := by
  intro script
  induction script with
  | nil =>
    intro aids first apps left tr o ha hl h ht
    cases aids with
    | nil => unfold findApps at h; cases h; exact ⟨rfl, rfl, Nat.le_refl _, [], by simp, rfl⟩
    | cons t aids =>
      unfold findApps at h
      have := ha t (by simp)
      rw [if_neg (by simp [refusesName]; omega)] at h
      cases h
      exact ⟨rfl, by rw [most_cons]; simp; omega⟩
  | cons w rest ih =>
    intro aids first apps left tr o ha hl h ht
    cases aids with
    | nil => unfold findApps at h; cases h; exact ⟨rfl, rfl, Nat.le_refl _, [], by simp, rfl⟩
    | cons t aids =>
      unfold findApps at h
      have hlen := ha t (by simp)
      have ha' : ∀ t ∈ aids, 5 ≤ t.value.length ∧ t.value.length ≤ 16 := fun u hu => ha u (by simp [hu])
      rw [if_neg (by simp [refusesName]; omega)] at h
      simp only at h
      obtain ⟨tr', hx, htr⟩ := log_inv h
      subst htr
      clear h
      have h := hx
      obtain ⟨⟨hcode, hans⟩, ht⟩ := ht
      have hpool : (if (!first) = true then left else card) = if first = true then card else left := by
        cases first <;> rfl
      rw [hpool] at hans ht
      rw [find_filter] at hans
      rw [if_neg (by simp [hcode])] at h
      have hmem : ∀ m ∈ (if first = true then card else left), m ∈ card := by
        cases first
        · exact hl
        · exact fun m hm => hm
      have hbm : ∀ m ∈ behind t.value (if first = true then card else left), m ∈ card := by
        intro m hm
        apply hmem
        exact (List.dropWhile_suffix _).subset (List.mem_of_mem_tail hm)
      -- the step to the next AID
      have next : ∀ new : List App,
          new.map (fun a => (a.aid.value, a.tlvs)) = (hits t (pool card left first t)).map Kept →
          findApps rest aids true (apps ++ new) = .ok (tr', o) →
          Post card left (t :: aids) first apps (w :: rest) ((.select (!first) t.value, w) :: tr') o := by
        intro new hn hf
        have := ih aids true (apps ++ new) _ tr' o ha' hbm hf ht
        refine post_step this ?_ ?_
        · rw [most_cons, most_true card _ left]; omega
        · rw [expected_cons, List.map_append, hn, expected_true card (behind t.value _) left]
      cases hp : (if first = true then card else left).filter (Begins t.value) with
      | nil =>
        rw [hp] at hans
        have hans : w.sw = 0x6A82 := hans
        rw [if_neg (by simp [hans]), if_pos (by simp [hans])] at h
        exact next [] (by rw [pool, hp]; rfl) (by simpa using h)
      | cons m ms =>
        rw [hp] at hans
        obtain ⟨hd, hsw⟩ := hans
        have hm : m ∈ card := hmem m (List.mem_filter.1 (hp ▸ List.mem_cons_self : m ∈ (if first = true then card else left).filter (Begins t.value))).1
        obtain ⟨a, hcr, hk⟩ := created (hc m hm) hd
        have hname : a.aid.value = m.name := congrArg (·.1) hk
        rw [if_neg (by rw [hsw]; cases m.blocked <;> simp), if_neg (by rw [hsw]; cases m.blocked <;> simp), hcr] at h
        simp only [bind_ok, hname] at h
        by_cases he : t.value.length = m.name.length
        · rw [if_pos he] at h
          cases hb : m.blocked with
          | true =>
            rw [hsw, hb, if_neg (by simp)] at h
            exact next [] (by rw [pool, hp]; simp [hits, he, hb]) (by simpa using h)
          | false =>
            rw [hsw, hb, if_pos (by simp)] at h
            exact next [a] (by rw [pool, hp]; simp [hits, he, hb, hk]) h
        · rw [if_neg he] at h
          by_cases hf : t.flags = 1
          · rw [if_pos hf] at h
            have hpl : pool card (behind t.value (if first = true then card else left)) false t = ms := by
              unfold pool
              rw [if_neg (by simp), filter_behind, hp]
              rfl
            have again : ∀ new : List App,
                new.map (fun a => (a.aid.value, a.tlvs)) = (if m.blocked then [] else [m]).map Kept →
                findApps rest (t :: aids) false (apps ++ new) = .ok (tr', o) →
                Post card left (t :: aids) first apps (w :: rest) ((.select (!first) t.value, w) :: tr') o := by
              intro new hn hfa
              have := ih (t :: aids) false (apps ++ new) _ tr' o ha hbm hfa ht
              refine post_step this ?_ ?_
              · rw [most_cons, most_cons, hpl, most_true card _ left]
                have : (pool card left first t).length = ms.length + 1 := by rw [pool, hp]; rfl
                omega
              · rw [expected_cons, expected_cons, hpl, expected_true card (behind t.value _) left, hn]
                have : pool card left first t = m :: ms := hp
                rw [this]
                cases hb : m.blocked <;> simp [hits, he, hf, hb]
            cases hb : m.blocked with
            | true =>
              rw [hsw, hb, if_neg (by simp)] at h
              exact again [] (by simp [hb]) (by simpa using h)
            | false =>
              rw [hsw, hb, if_pos (by simp)] at h
              exact again [a] (by simp [hb, hk]) h
          · rw [if_neg hf] at h
            exact next [] (by rw [pool, hp]; simp [hits, he, hf]) (by simpa using h)

theorem begins_iff {name : List Byte} {m : CardApp} : Begins name m = true ↔ name <+: m.name :=
  List.isPrefixOf_iff_prefix

theorem meets_begins {t : Tlv} {m : CardApp} (h : Meets t m = true) : Begins t.value m = true := by
  unfold Meets at h
  simp only [Bool.or_eq_true, beq_iff_eq, Bool.and_eq_true] at h
  rcases h with h | h
  · exact begins_iff.2 (by rw [h]; exact List.prefix_rfl)
  · exact h.2

/-- Nothing is taken but what is permitted. -/
theorem hits_sound (t : Tlv) (ms : List CardApp) (hb : ∀ m ∈ ms, Begins t.value m = true) :
    ∀ m ∈ hits t ms, m ∈ ms ∧ Meets t m = true ∧ m.blocked = false := by
  induction ms with
  | nil => intro m hm; cases hm
  | cons x ms ih =>
    intro m hm
    have hx := begins_iff.1 (hb x (by simp))
    have ih := ih (fun m h => hb m (by simp [h]))
    unfold hits at hm
    by_cases he : t.value.length = x.name.length
    · rw [if_pos he] at hm
      cases hbl : x.blocked with
      | true => simp [hbl] at hm
      | false =>
        simp [hbl] at hm
        subst hm
        exact ⟨by simp, by simp [Meets, hx.eq_of_length he], hbl⟩
    · rw [if_neg he] at hm
      by_cases hf : t.flags = 1
      · rw [if_pos hf] at hm
        have tailCase : m ∈ hits t ms → m ∈ x :: ms ∧ Meets t m = true ∧ m.blocked = false := by
          intro h
          obtain ⟨h1, h2⟩ := ih m h
          exact ⟨by simp [h1], h2⟩
        cases hbl : x.blocked with
        | true =>
          rw [hbl, if_pos rfl] at hm
          exact tailCase hm
        | false =>
          rw [hbl, if_neg (by simp)] at hm
          rcases List.mem_cons.1 hm with h | h
          · subst h
            exact ⟨by simp, by simp [Meets, hf, begins_iff.2 hx], hbl⟩
          · exact tailCase h
      · rw [if_neg hf] at hm
        cases hm

/-- Everything that is permitted is taken when no name begins another. -/
theorem hits_all (t : Tlv) (ms : List CardApp) (hb : ∀ m ∈ ms, Begins t.value m = true) (hs : Separate ms) :
    hits t ms = ms.filter (fun m => Meets t m && !m.blocked) := by
  induction ms with
  | nil => rfl
  | cons x ms ih =>
    have hx := begins_iff.1 (hb x (by simp))
    have hb' : ∀ m ∈ ms, Begins t.value m = true := fun m h => hb m (by simp [h])
    obtain ⟨hx2, hs'⟩ := List.pairwise_cons.1 hs
    have ih := ih hb' hs'
    unfold hits
    by_cases he : t.value.length = x.name.length
    · rw [if_pos he]
      have e := hx.eq_of_length he
      have : ms = [] := by
        cases ms with
        | nil => rfl
        | cons y ms =>
          have := begins_iff.1 (hb' y (by simp))
          rw [e] at this
          exact absurd this (hx2 y (by simp)).1
      subst this
      cases hbl : x.blocked <;> simp [Meets, e, hbl]
    · rw [if_neg he]
      have hne : ¬ x.name = t.value := fun h => he (by rw [h])
      by_cases hf : t.flags = 1
      · rw [if_pos hf, ih]
        cases hbl : x.blocked <;> simp [Meets, hf, begins_iff.2 hx, hbl]
      · rw [if_neg hf]
        symm
        rw [List.filter_eq_nil_iff]
        intro y hy
        have hny : ¬ y.name = t.value := by
          rcases List.mem_cons.1 hy with h | h
          · rw [h]; exact hne
          · intro e
            exact (hx2 y h).2 (by rw [e]; exact hx)
        simp [Meets, hf, hny]

theorem filter_begins (t : Tlv) (card : List CardApp) :
    (card.filter (Begins t.value)).filter (fun m => Meets t m && !m.blocked) =
      card.filter (fun m => Meets t m && !m.blocked) := by
  rw [List.filter_filter]
  apply List.filter_congr
  intro m _
  cases h : Meets t m with
  | false => simp
  | true => simp [meets_begins h]

theorem expected_separate (card left : List CardApp) (hs : Separate card) (aids : List Tlv) :
    expected card left true aids = aids.flatMap fun t => card.filter (fun m => Meets t m && !m.blocked) := by
  have key : ∀ t : Tlv, hits t (card.filter (Begins t.value)) = card.filter (fun m => Meets t m && !m.blocked) := by
    intro t
    rw [hits_all t _ (fun m h => (List.mem_filter.1 h).2) (List.Pairwise.filter _ hs), filter_begins]
  cases aids with
  | nil => rfl
  | cons t aids =>
    simp only [expected, pool, if_true, key, List.flatMap_cons]

theorem most_le (card left : List CardApp) (aids : List Tlv) :
    most card left true aids ≤ aids.length * (card.length + 1) := by
  induction aids with
  | nil => exact Nat.zero_le _
  | cons t aids ih =>
    rw [most_cons, List.length_cons, Nat.succ_mul]
    have : (pool card left true t).length ≤ card.length := List.length_filter_le _ _
    omega

/-- The answer of the card. -/
def reply : Option CardApp → W
  | none => ⟨0, [], 0x6A82⟩
  | some m => ⟨0, m.data, if m.blocked then 0x6283 else 0x9000⟩

theorem reply_answer (f : Option CardApp) : Answer f (reply f) := by
  cases f
  · exact ⟨rfl, rfl⟩
  · exact ⟨rfl, rfl, rfl⟩

/-- The card can be asked any number of times. -/
theorem runs (card : List CardApp) (hc : ∀ m ∈ card, m.WF) : ∀ (n : Nat) (aids : List Tlv) (first : Bool)
    (apps : List App) (left : List CardApp),
    (∀ t ∈ aids, 5 ≤ t.value.length ∧ t.value.length ≤ 16) → (∀ m ∈ left, m ∈ card) →
    ∃ script, script.length = n ∧ ∃ tr o, findApps script aids first apps = .ok (tr, o) ∧ Talk card left tr := by
  intro n
  induction n with
  | zero =>
    intro aids first apps left ha hl
    refine ⟨[], rfl, [], ?_⟩
    cases aids with
    | nil => exact ⟨_, by unfold findApps; rfl, trivial⟩
    | cons t aids =>
      have := ha t (by simp)
      exact ⟨.pending (.select (!first) t.value),
        by unfold findApps; rw [if_neg (by simp [refusesName]; omega)], trivial⟩
  | succ n ih =>
    intro aids first apps left ha hl
    cases aids with
    | nil =>
      exact ⟨List.replicate (n + 1) (reply none), by simp, [], _, by unfold findApps; rfl, trivial⟩
    | cons t aids =>
      have hlen := ha t (by simp)
      have ha' : ∀ t ∈ aids, 5 ≤ t.value.length ∧ t.value.length ≤ 16 := fun u hu => ha u (by simp [hu])
      have hmem : ∀ m ∈ (if (!first) = true then left else card), m ∈ card := by
        cases first
        · exact hl
        · exact fun m hm => hm
      have hbm : ∀ m ∈ behind t.value (if (!first) = true then left else card), m ∈ card := by
        intro m hm
        apply hmem
        exact (List.dropWhile_suffix _).subset (List.mem_of_mem_tail hm)
      have step : ∃ aids' first' apps', (∀ t ∈ aids', 5 ≤ t.value.length ∧ t.value.length ≤ 16) ∧
          ∀ rest, findApps (reply ((if (!first) = true then left else card).find? (Begins t.value)) :: rest)
            (t :: aids) first apps =
            log (.select (!first) t.value) (reply ((if (!first) = true then left else card).find? (Begins t.value)))
              (findApps rest aids' first' apps') := by
        cases hf : (if (!first) = true then left else card).find? (Begins t.value) with
        | none =>
          refine ⟨aids, true, apps, ha', fun rest => ?_⟩
          rw [findApps, if_neg (by simp [refusesName]; omega)]
          simp [reply]
        | some m =>
          obtain ⟨a, hcr, -⟩ := created (w := reply (some m)) (hc m (hmem m (List.mem_of_find?_eq_some hf))) rfl
          have e : ∀ rest, findApps (reply (some m) :: rest) (t :: aids) first apps =
              log (.select (!first) t.value) (reply (some m)) (
                if t.value.length = a.aid.value.length then
                  findApps rest aids true (if (reply (some m)).sw = 0x9000 then apps ++ [a] else apps)
                else if t.flags = 1 then
                  findApps rest (t :: aids) false (if (reply (some m)).sw = 0x9000 then apps ++ [a] else apps)
                else findApps rest aids true apps) := by
            intro rest
            conv => lhs; unfold findApps
            rw [if_neg (by simp [refusesName]; omega)]
            simp only [hcr, bind_ok]
            rw [if_neg (by simp [reply]), if_neg (by cases hb : m.blocked <;> simp [reply, hb]),
              if_neg (by cases hb : m.blocked <;> simp [reply, hb])]
          by_cases h1 : t.value.length = a.aid.value.length
          · exact ⟨aids, true, _, ha', fun rest => by rw [e, if_pos h1]⟩
          · by_cases h2 : t.flags = 1
            · exact ⟨t :: aids, false, _, ha, fun rest => by rw [e, if_neg h1, if_pos h2]⟩
            · exact ⟨aids, true, _, ha', fun rest => by rw [e, if_neg h1, if_neg h2]⟩
      obtain ⟨aids', first', apps', hA, hstep⟩ := step
      obtain ⟨rest, hr, tr, o, hx, ht⟩ := ih aids' first' apps' _ hA hbm
      refine ⟨_ :: rest, by simp [hr], _, o, by rw [hstep, hx]; rfl, ?_⟩
      exact ⟨reply_answer _, ht⟩

/-! ## Theorems -/

/-- **C147** (all), partial.  With a card that selects its applications by the beginning of their names, none of which
is the beginning of another one, the search by the list of AIDs finds for each entry of the list, in order, exactly the
applications that satisfy the entry and are not blocked, in the order of the card, with their fields.  Missing: other
cards, for which it is false (`C147_hidden`, `C147_unasked`). -/
theorem C147_all_partial (card : List CardApp) (hc : ∀ m ∈ card, m.WF) (hs : Separate card) (supported : List Tlv)
    (ha : ∀ t ∈ supported, 5 ≤ t.value.length ∧ t.value.length ≤ 16) (apps apps' : List App) (script rest : List W)
    (code : Int) (tr : List (Cmd × W)) (h : findApps script supported true apps = .ok (tr, .done (code, apps') rest))
    (ht : Talk card [] tr) :
    code = 0 ∧ ∃ new, apps' = apps ++ new ∧ new.map (fun a => (a.aid.value, a.tlvs)) =
      (supported.flatMap fun t => card.filter fun m => Meets t m && !m.blocked).map Kept := by
  obtain ⟨h0, -, -, new, h1, h2⟩ := search card hc script supported true apps [] tr _ ha (by simp) h ht
  exact ⟨h0, new, h1, by rw [h2, expected_separate card [] hs]⟩

/-- **C147** (no others).  Whatever the names on the card, only applications that satisfy an entry of the list and are
not blocked are found. -/
theorem C147_only (card : List CardApp) (hc : ∀ m ∈ card, m.WF) (supported : List Tlv)
    (ha : ∀ t ∈ supported, 5 ≤ t.value.length ∧ t.value.length ≤ 16) (apps apps' : List App) (script rest : List W)
    (code : Int) (tr : List (Cmd × W)) (h : findApps script supported true apps = .ok (tr, .done (code, apps') rest))
    (ht : Talk card [] tr) (a : App) (haa : a ∈ apps') (hn : a ∉ apps) :
    ∃ m ∈ card, ∃ t ∈ supported, Meets t m = true ∧ m.blocked = false ∧ (a.aid.value, a.tlvs) = Kept m := by
  obtain ⟨h0, -, -, new, h1, h2⟩ := search card hc script supported true apps [] tr _ ha (by simp) h ht
  subst h1
  have : a ∈ new := by
    rcases List.mem_append.1 haa with h | h
    · exact absurd h hn
    · exact h
  have : (a.aid.value, a.tlvs) ∈ (expected card [] true supported).map Kept := by
    rw [← h2]
    exact List.mem_map.2 ⟨a, this, rfl⟩
  obtain ⟨m, hm, hk⟩ := List.mem_map.1 this
  have key : ∃ t ∈ supported, m ∈ hits t (card.filter (Begins t.value)) := by
    cases supported with
    | nil => cases hm
    | cons t aids =>
      rcases List.mem_append.1 hm with h | h
      · exact ⟨t, by simp, h⟩
      · obtain ⟨u, hu, h⟩ := List.mem_flatMap.1 h
        exact ⟨u, by simp [hu], h⟩
  obtain ⟨t, ht, hm⟩ := key
  obtain ⟨h3, h4, h5⟩ := hits_sound t _ (fun m h => (List.mem_filter.1 h).2) m hm
  exact ⟨m, (List.mem_filter.1 h3).1, t, ht, h4, h5, hk.symm⟩

/-- **C147** (number of commands).  The search sends at most one command for each entry of the list and one more for each
application that begins with it; a command is pending only while it has sent fewer. -/
theorem C147_commands (card : List CardApp) (hc : ∀ m ∈ card, m.WF) (supported : List Tlv)
    (ha : ∀ t ∈ supported, 5 ≤ t.value.length ∧ t.value.length ≤ 16) (apps : List App) (script : List W)
    (tr : List (Cmd × W)) (o : Out (Int × List App)) (h : findApps script supported true apps = .ok (tr, o))
    (ht : Talk card [] tr) :
    tr.length ≤ supported.length * (card.length + 1) ∧
    ∀ c, o = .pending c → tr.length < supported.length * (card.length + 1) := by
  have := search card hc script supported true apps [] tr o ha (by simp) h ht
  have hm := most_le card [] supported
  cases o with
  | pending c => obtain ⟨-, h2⟩ := this; exact ⟨by omega, fun _ _ => by omega⟩
  | done a rest =>
    obtain ⟨code, apps'⟩ := a
    obtain ⟨-, -, h2, -⟩ := this
    exact ⟨by omega, fun c hc => by cases hc⟩

/-- **C147** (it ends).  Every such card lets the search end, with success. -/
theorem C147_ends (card : List CardApp) (hc : ∀ m ∈ card, m.WF) (supported : List Tlv)
    (ha : ∀ t ∈ supported, 5 ≤ t.value.length ∧ t.value.length ≤ 16) (apps : List App) :
    ∃ script tr apps' rest, findApps script supported true apps = .ok (tr, .done (0, apps') rest) ∧
      Talk card [] tr := by
  obtain ⟨script, hl, tr, o, h, ht⟩ := runs card hc (most card [] true supported) supported true apps [] ha (by simp)
  have := search card hc script supported true apps [] tr o ha (by simp) h ht
  cases o with
  | pending c =>
    obtain ⟨h1, h2⟩ := this
    have := congrArg List.length h1
    rw [List.length_map] at this
    omega
  | done a rest =>
    obtain ⟨code, apps'⟩ := a
    obtain ⟨h0, -⟩ := this
    subst h0
    exact ⟨script, tr, apps', rest, h, ht⟩

/-- **C147** (without end).  A card that is no such card, and answers each command with an application of a longer name,
is asked without end, if the entry permits the beginning of the name. -/
theorem C147_endless (m : CardApp) (hm : m.WF) (t : Tlv) (ht : 5 ≤ t.value.length ∧ t.value.length ≤ 16)
    (hf : t.flags = 1) (hn : t.value.length < m.name.length) (n : Nat) (supported : List Tlv) (apps : List App) (w : W)
    (hw : w = ⟨0, m.data, 0x9000⟩) :
    ∃ tr, findApps (List.replicate (n + 1) w) (t :: supported) true apps =
      .ok (tr, .pending (.select true t.value)) ∧ tr.length = n + 1 := by
  obtain ⟨a, hcr, hk⟩ := created (w := w) hm (by rw [hw])
  have hname : a.aid.value = m.name := congrArg (·.1) hk
  have e : ∀ rest first apps, findApps (w :: rest) (t :: supported) first apps =
      log (.select (!first) t.value) w (findApps rest (t :: supported) false (apps ++ [a])) := by
    intro rest first apps
    conv => lhs; unfold findApps
    rw [if_neg (by simp [refusesName]; omega)]
    simp only [hcr, bind_ok, hname]
    rw [if_neg (by simp [hw]), if_neg (by simp [hw]), if_neg (by simp [hw]), if_neg (by omega), if_pos hf,
      if_pos (by simp [hw])]
  have key : ∀ n apps, ∃ tr, findApps (List.replicate n w) (t :: supported) false apps =
      .ok (tr, .pending (.select true t.value)) ∧ tr.length = n := by
    intro n
    induction n with
    | zero =>
      intro apps
      exact ⟨[], by rw [List.replicate_zero]; unfold findApps; rw [if_neg (by simp [refusesName]; omega)]; rfl, rfl⟩
    | succ n ih =>
      intro apps
      obtain ⟨tr, h1, h2⟩ := ih (apps ++ [a])
      exact ⟨_, by rw [List.replicate_succ, e, h1]; rfl, by simp [h2]⟩
  obtain ⟨tr, h1, h2⟩ := key n (apps ++ [a])
  exact ⟨_, by rw [List.replicate_succ, e, h1]; rfl, by simp [h2]⟩

/-- **C147** (hidden), a disagreement.  An entry that wants the whole name does not find the application of that name
when the card has one with a longer name before it. -/
theorem C147_hidden (long short : CardApp) (hl : long.WF) (hs : short.WF) (hp : short.name <+: long.name)
    (hn : short.name ≠ long.name) (t : Tlv) (ht : t.value = short.name) (hf : t.flags ≠ 1)
    (ha : 5 ≤ t.value.length ∧ t.value.length ≤ 16) (apps apps' : List App) (script rest : List W) (code : Int)
    (tr : List (Cmd × W)) (h : findApps script [t] true apps = .ok (tr, .done (code, apps') rest))
    (htr : Talk [long, short] [] tr) : apps' = apps ∧ Meets t short = true := by
  obtain ⟨-, -, -, new, h1, h2⟩ := search [long, short] (by simp [hl, hs]) script [t] true apps [] tr _ (by simpa using ha)
    (by simp) h htr
  have hne : ¬ t.value.length = long.name.length := fun e => hn (hp.eq_of_length (by rw [← e, ht]))
  have : Begins t.value long = true := begins_iff.2 (by rw [ht]; exact hp)
  have he : expected [long, short] [] true [t] = [] := by
    simp [expected, pool, List.filter_cons, this, hits, hne, hf]
  rw [he] at h2
  have : new = [] := by simpa using h2
  exact ⟨by rw [h1, this, List.append_nil], by simp [Meets, ht]⟩

/-- **C147** (not asked for), a disagreement.  An entry that permits the beginning of the name does not find the
application with a longer name when the card has one of exactly that name before it. -/
theorem C147_unasked (long short : CardApp) (hl : long.WF) (hs : short.WF) (hp : short.name <+: long.name)
    (hb : short.blocked = false) (t : Tlv) (ht : t.value = short.name) (hf : t.flags = 1)
    (ha : 5 ≤ t.value.length ∧ t.value.length ≤ 16) (apps apps' : List App) (script rest : List W) (code : Int)
    (tr : List (Cmd × W)) (h : findApps script [t] true apps = .ok (tr, .done (code, apps') rest))
    (htr : Talk [short, long] [] tr) :
    Meets t long = true ∧ ∃ a, apps' = apps ++ [a] ∧ (a.aid.value, a.tlvs) = Kept short := by
  obtain ⟨-, -, -, new, h1, h2⟩ := search [short, long] (by simp [hl, hs]) script [t] true apps [] tr _ (by simpa using ha)
    (by simp) h htr
  have h4 : Begins t.value long = true := begins_iff.2 (by rw [ht]; exact hp)
  have h5 : Begins t.value short = true := begins_iff.2 (by rw [ht]; exact List.prefix_rfl)
  have he : expected [short, long] [] true [t] = [short] := by
    have hlen : t.value.length = short.name.length := by rw [ht]
    simp [expected, pool, List.filter_cons, h5, hits, hlen, hb]
  rw [he] at h2
  refine ⟨by simp [Meets, hf, h4], ?_⟩
  match new, h2, h1 with
  | [], h2, _ => cases h2
  | [a], h2, h1 => exact ⟨a, h1, by simpa using h2⟩
  | _ :: _ :: _, h2, _ => simp at h2

/-- **C147** (candidates), partial.  With a card without directory, the candidate list of a transaction is what the search
finds, put in order, and the outcome is that there are none when it finds none.  Missing: as in `C147_all_partial`. -/
theorem C147_candidates_partial (card : List CardApp) (hc : ∀ m ∈ card, m.WF) (hs : Separate card)
    (supported : List Tlv) (ha : ∀ t ∈ supported, 5 ≤ t.value.length ∧ t.value.length ≤ 16) (w : W)
    (hw : w.code = 0 ∧ w.sw ≠ 0x6A81 ∧ w.sw ≠ 0x9000) (script rest : List W) (r : Int) (apps : List App)
    (x : Cmd × W) (tr : List (Cmd × W))
    (h : Emv.build supported [] (w :: script) = .ok (x :: tr, .done (r, apps) rest)) (ht : Talk card [] tr) :
    x = (.select false txt!"1PAY.SYS.DDF01", w) ∧
    (apps.map fun a => (a.aid.value, a.tlvs)).Perm
      ((supported.flatMap fun t => card.filter fun m => Meets t m && !m.blocked).map Kept) ∧
    r = if apps = [] then 3 else 0 := by
  have hread : ∃ code : Int, 0 ≤ code ∧ readPse supported [] (w :: script) =
      .ok ([(.select false pseName, w)], .done (code, []) script) := by
    unfold readPse send
    rw [if_neg (by decide)]
    simp only [hw.1, ne_eq, not_true_eq_false, if_false, hw.2.1, hw.2.2, not_false_eq_true, if_true]
    by_cases h1 : w.sw = 0x6A82
    · exact ⟨1, by decide, by simp [h1, fin, log]⟩
    · by_cases h2 : w.sw = 0x6283
      · exact ⟨2, by decide, by simp [h2, fin, log]⟩
      · exact ⟨3, by decide, by simp [h1, h2, fin, log]⟩
  obtain ⟨code, h0, hread⟩ := hread
  unfold Emv.build andThen at h
  rw [hread] at h
  simp only [bind_ok] at h
  rw [if_neg (by omega), if_pos (by rfl)] at h
  cases hfa : findApps script supported true [] with
  | error e => rw [hfa] at h; cases h
  | ok y =>
    obtain ⟨tr', o⟩ := y
    rw [hfa] at h
    cases o with
    | pending c => simp [bind_ok] at h
    | done a rs =>
      obtain ⟨code', apps'⟩ := a
      simp only [bind_ok] at h
      have key : ∃ rr, (if code' ≠ 0 then fin (if code' = -4 then 2 else 1, apps') rs else Emv.finish apps' rs) =
          .ok ([], .done rr rs) := by
        by_cases h1 : code' ≠ 0
        · exact ⟨_, by rw [if_pos h1]; rfl⟩
        · rw [if_neg h1]
          unfold Emv.finish
          split <;> exact ⟨_, rfl⟩
      obtain ⟨rr, hk⟩ := key
      rw [hk] at h
      simp only [bind_ok, List.append_nil, Except.ok.injEq, Prod.mk.injEq, List.cons_append, List.nil_append,
        List.cons.injEq, Out.done.injEq] at h
      obtain ⟨⟨hx, htr⟩, hrr, hrs⟩ := h
      subst htr
      obtain ⟨hz, new, hn, hm⟩ := C147_all_partial card hc hs supported ha [] apps' script rs code' tr' hfa ht
      subst hz
      rw [List.nil_append] at hn
      subst hn
      rw [if_neg (by simp)] at hk
      unfold Emv.finish at hk
      refine ⟨by rw [← hx]; rfl, ?_⟩
      by_cases he : apps'.isEmpty = true
      · rw [if_pos he] at hk
        have e : apps' = [] := List.isEmpty_iff.1 he
        simp only [fin, Except.ok.injEq, Prod.mk.injEq, Out.done.injEq, true_and, and_true] at hk
        rw [← hk] at hrr
        obtain ⟨h1, h2⟩ := Prod.mk.inj hrr
        rw [← hm, ← h2, ← h1, e]
        exact ⟨List.Perm.refl _, by simp⟩
      · rw [if_neg he] at hk
        simp only [fin, Except.ok.injEq, Prod.mk.injEq, Out.done.injEq, true_and, and_true] at hk
        rw [← hk] at hrr
        obtain ⟨h1, h2⟩ := Prod.mk.inj hrr
        have hp : (Emv.sortApps apps').Perm apps' := LL.bySort_perm _ _
        rw [← hm, ← h2, ← h1]
        refine ⟨hp.map _, ?_⟩
        rw [if_neg]
        intro e
        rw [e] at hp
        exact he (by rw [List.nil_perm.1 hp]; rfl)

/-! ## Examples -/

/-- An application with just its name, of the given bytes. -/
def plain (name : List Byte) (blocked : Bool) : CardApp :=
  ⟨name, .leaf ⟨[0x84], [UInt8.ofNat name.length], name⟩ .nil, [UInt8.ofNat (name.length + 2)], blocked⟩

theorem plain_wf (name : List Byte) (blocked : Bool) (h : name ≠ []) (hl : name.length ≤ 16) :
    (plain name blocked).WF := by
  refine ⟨⟨⟨Or.inl ⟨by decide, rfl⟩, .short name.length (by omega)⟩, by simp [IsConstructed], trivial⟩, ?_, ?_, h⟩
  · have : (plain name blocked).body.enc.length = name.length + 2 := by
      simp [plain, Forest.enc, Obj.enc]
    rw [this]
    exact .short _ (by omega)
  · simp [plain, Forest.leaves, field, beNat]

/-- Two applications of one scheme, one of another scheme and a blocked one. -/
def wallet : List CardApp :=
  [plain [0xA0, 0, 0, 0, 3, 0x10, 0x10] false, plain [0xA0, 0, 0, 0, 4, 0x10, 0x10] false,
   plain [0xA0, 0, 0, 0, 3, 0x20, 0x10] false, plain [0xA0, 0, 0, 0, 4, 0x30, 0x60] true]

/-- One entry for the beginning of a name, one for a whole name, one for a blocked application. -/
def terminal : List Tlv :=
  [⟨0x9F06, 1, [0xA0, 0, 0, 0, 3]⟩, ⟨0x9F06, 0, [0xA0, 0, 0, 0, 4, 0x10, 0x10]⟩, ⟨0x9F06, 0, [0xA0, 0, 0, 0, 4, 0x30, 0x60]⟩]

theorem wallet_wf : ∀ m ∈ wallet, m.WF := by
  intro m hm
  simp only [wallet, List.mem_cons, List.not_mem_nil, or_false] at hm
  rcases hm with rfl | rfl | rfl | rfl <;> exact plain_wf _ _ (by simp) (by simp)

theorem wallet_separate : Separate wallet := by
  simp [Separate, wallet, plain, List.cons_prefix_cons]

theorem terminal_ok : ∀ t ∈ terminal, 5 ≤ t.value.length ∧ t.value.length ≤ 16 := by simp [terminal]

example : (terminal.flatMap fun t => wallet.filter fun m => Meets t m && !m.blocked).map (·.name) =
    [[0xA0, 0, 0, 0, 3, 0x10, 0x10], [0xA0, 0, 0, 0, 3, 0x20, 0x10], [0xA0, 0, 0, 0, 4, 0x10, 0x10]] := by
  decide +kernel

/-- The run against it exists and finds these three. -/
example : ∃ script tr apps' rest, findApps script terminal true [] = .ok (tr, .done (0, apps') rest) ∧
    Talk wallet [] tr ∧ apps'.map (·.aid.value) =
      [[0xA0, 0, 0, 0, 3, 0x10, 0x10], [0xA0, 0, 0, 0, 3, 0x20, 0x10], [0xA0, 0, 0, 0, 4, 0x10, 0x10]] := by
  obtain ⟨script, tr, apps', rest, h, ht⟩ := C147_ends wallet wallet_wf terminal terminal_ok []
  obtain ⟨-, new, h1, h2⟩ := C147_all_partial wallet wallet_wf wallet_separate terminal terminal_ok [] apps' script rest 0
    tr h ht
  refine ⟨script, tr, apps', rest, h, ht, ?_⟩
  rw [List.nil_append] at h1
  subst h1
  have := congrArg (List.map (·.1)) h2
  rw [List.map_map, List.map_map] at this
  refine Eq.trans this ?_
  decide +kernel

/-- A card with a name that begins another one. -/
example : ∃ long short : CardApp, long.WF ∧ short.WF ∧ short.name <+: long.name ∧ short.name ≠ long.name ∧
    5 ≤ short.name.length ∧ short.name.length ≤ 16 :=
  ⟨plain [0xA0, 0, 0, 0, 3, 0x10, 0x10, 1] false, plain [0xA0, 0, 0, 0, 3, 0x10, 0x10] false,
    plain_wf _ _ (by simp) (by simp), plain_wf _ _ (by simp) (by simp), by simp [plain, List.cons_prefix_cons],
    by simp [plain], by simp [plain], by simp [plain]⟩

/-- The same card in a transaction; it has no directory. -/
example : ∃ script x tr apps rest, Emv.build terminal [] (⟨0, [], 0x6A82⟩ :: script) =
    .ok (x :: tr, .done (0, apps) rest) ∧ Talk wallet [] tr ∧ apps.length = 3 := by
  obtain ⟨script, tr, apps', rest, h, ht⟩ := C147_ends wallet wallet_wf terminal terminal_ok []
  have hb : ∃ x r apps, Emv.build terminal [] (⟨0, [], 0x6A82⟩ :: script) = .ok (x :: tr, .done (r, apps) rest) := by
    have hr : readPse terminal [] (⟨0, [], 0x6A82⟩ :: script) =
        .ok ([(.select false pseName, ⟨0, [], 0x6A82⟩)], .done (1, []) script) := rfl
    unfold Emv.build andThen
    rw [hr]
    simp only [bind_ok, h]
    cases he : apps'.isEmpty
    · exact ⟨_, 0, _, by simp [Emv.finish, fin, he]; exact ⟨rfl, rfl⟩⟩
    · exact ⟨_, 3, _, by simp [Emv.finish, fin, he]; exact ⟨rfl, rfl⟩⟩
  obtain ⟨x, r, apps, hb⟩ := hb
  obtain ⟨-, h2, h3⟩ := C147_candidates_partial wallet wallet_wf wallet_separate terminal terminal_ok _ (by simp) script
    rest r apps x tr hb ht
  have hl : apps.length = 3 := by
    have := h2.length_eq
    rw [List.length_map] at this
    rw [this]
    decide +kernel
  have hne : apps ≠ [] := by intro e; rw [e] at hl; cases hl
  rw [if_neg hne] at h3
  subst h3
  exact ⟨script, x, tr, apps, rest, hb, ht, hl⟩

/-- Asked a hundred times. -/
example : ∃ tr, findApps (List.replicate 100 ⟨0, (plain [0xA0, 0, 0, 0, 3, 0x10] false).data, 0x9000⟩) terminal true [] =
    .ok (tr, .pending (.select true [0xA0, 0, 0, 0, 3])) ∧ tr.length = 100 :=
  C147_endless (plain [0xA0, 0, 0, 0, 3, 0x10] false) (plain_wf _ _ (by simp) (by simp)) ⟨0x9F06, 1, [0xA0, 0, 0, 0, 3]⟩
    (by simp) rfl (by simp [plain]) 99 _ [] _ rfl

end Verif.Search
