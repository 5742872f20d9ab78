import Verif.ViewerWindowLemmas

/-!
# C121–C124: the window of the viewer

A window is `Reached` when it comes from any start by any events.  What it has to show is said with
`Begins`, `Reading`, `Appears` (ViewerTextSpec, ViewerSpec) and `Shows` (ViewerProps), from its text
and its check boxes alone.
-/

set_option autoImplicit false

namespace Verif.Viewer
open Verif Ber BerSpec PrintSpec ViewerSpec Print TlvInfo Formats

/-! ## C121 -/

/-- A window after any start and any events. -/
def Reached (env : Env) (w : Window) : Prop :=
  ∃ s data decode es w0, startWindow env s data decode = .ok w0 ∧ steps env es w0 = .ok w

theorem reached_inv {env : Env} {w : Window} (h : Reached env w) : Inv env w := by
  obtain ⟨s, data, decode, es, w0, h1, h2⟩ := h
  exact inv_steps es (inv_start h1) h2

theorem steps_last {env : Env} {w w' : Window} (e : Event) (h : step env w e = .ok w') :
    ∀ (es : List Event) (w0 : Window), steps env es w0 = .ok w → steps env (es ++ [e]) w0 = .ok w' := by
  intro es
  induction es with
  | nil =>
    intro w0 hs
    cases hs
    simp only [List.nil_append, steps]
    rw [h]
    rfl
  | cons e es ih =>
    intro w0 hs
    simp only [List.cons_append, steps] at hs ⊢
    cases hx : step env w0 e with
    | error u => rw [hx] at hs; cases hs
    | ok v => rw [hx, bind_ok] at hs; rw [bind_ok]; exact ih v hs

theorem reached_step {env : Env} {w w' : Window} {e : Event} (hw : Reached env w)
    (h : step env w e = .ok w') : Reached env w' := by
  obtain ⟨s, d, dec, es, w0, a, b⟩ := hw
  exact ⟨s, d, dec, es ++ [e], w0, a, steps_last e h es w0 b⟩

/-- The text and the check boxes as the user left them. -/
structure Wanted where
  text : List (List Nat)
  tags : Bool
  padding : Bool
  decode : Bool
  deriving DecidableEq

def Wanted.after (x : Wanted) : Event → Wanted
  | .edit blocks _ _ => { x with text := blocks }
  | .tags on => { x with tags := on }
  | .padding on => { x with padding := on }
  | .decode on => { x with decode := on }
  | .redraw | .timeout | .press _ => x

def Window.wanted (w : Window) : Wanted := ⟨w.blocks, w.tagsBox, w.padBox, w.decodeBox⟩

theorem wanted_tags {w w' : Window} {on : Bool} (h : setTags on w = .ok w') :
    w'.wanted = { w.wanted with tags := on } := by
  unfold setTags at h
  split at h
  · cases h
    rename_i e
    subst e
    rfl
  · obtain ⟨fs, h1, rfl⟩ := rehighlight_form h
    rfl

theorem padding_form {env : Env} {w w' : Window} {on : Bool} (h : setPadding env on w = .ok w')
    (hne : w.padBox ≠ on) :
    ∃ hl ds fs t rest, parseBlocks w.blocks { w.hl with ignorePadding := on } = .ok (hl, ds) ∧
      highlightAll hl w.blocks (ds.map some) = .ok fs ∧
      showText env w.blocks (setIgnorePadding on w.tree) = .ok (t, rest) ∧
      w' = { w with
        padBox := on, hl, datas := ds.map some, timer := true, formats := fs, tree := t, rest } := by
  unfold setPadding at h
  rw [if_neg hne] at h
  cases hx : redraw { w with padBox := on, hl := { w.hl with ignorePadding := on } } with
  | error u => rw [hx] at h; cases h
  | ok v =>
    rw [hx, bind_ok] at h
    obtain ⟨hl, ds, fs, h1, h2, rfl⟩ := redraw_form hx
    obtain ⟨t, rest, h3, rfl⟩ := refresh_form h
    exact ⟨hl, ds, fs, t, rest, h1, h2, h3, rfl⟩

theorem wanted_padding {env : Env} {w w' : Window} {on : Bool} (h : setPadding env on w = .ok w') :
    w'.wanted = { w.wanted with padding := on } := by
  by_cases e : w.padBox = on
  · unfold setPadding at h
    rw [if_pos e] at h
    cases h
    subst e
    rfl
  · obtain ⟨hl, ds, fs, t, rest, -, -, -, rfl⟩ := padding_form h e
    rfl

theorem wanted_decode {w : Window} {on : Bool} :
    (setDecode on w).wanted = { w.wanted with decode := on } := by
  unfold setDecode
  split
  · rename_i e
    subst e
    rfl
  · rfl

theorem press_form {i : Item} {w w' : Window} (h : pressItem i w = .ok w') :
    ∃ fs, highlightAll { w.hl with selStart := (i.offset * 2 : Nat), selCount := (i.length * 2 : Nat) }
        w.blocks w.datas = .ok fs ∧
      w' = { w with
        hl := { w.hl with selStart := (i.offset * 2 : Nat), selCount := (i.length * 2 : Nat) }
        formats := fs
        shown := match i.name with
          | some n => .name n
          | none => .empty } := by
  unfold pressItem at h
  generalize hv : rehighlight _ = x at h
  cases x with
  | error u => cases h
  | ok v =>
    rw [bind_ok] at h
    obtain ⟨fs, h1, rfl⟩ := rehighlight_form hv
    cases h
    exact ⟨fs, h1, rfl⟩

theorem wanted_step {env : Env} {w w' : Window} (e : Event) (h : step env w e = .ok w') :
    w'.wanted = w.wanted.after e := by
  cases e with
  | edit blocks kept touched => obtain ⟨hl, ds, fs, h1, h2, rfl⟩ := edit_form h; rfl
  | redraw => obtain ⟨hl, ds, fs, h1, h2, rfl⟩ := redraw_form h; rfl
  | timeout =>
    simp only [step] at h
    split at h
    · obtain ⟨t, rest, h3, rfl⟩ := refresh_form h; rfl
    · cases h; rfl
  | tags on => exact wanted_tags h
  | padding on => exact wanted_padding h
  | decode on => cases h; exact wanted_decode
  | press i =>
    simp only [step] at h
    split at h
    · obtain ⟨fs, -, rfl⟩ := press_form h; rfl
    · cases h; rfl

/-- **C121.**  The text and the check boxes are those of the start and the last changes. -/
theorem C121_history (env : Env) (es : List Event) (w w' : Window) (h : steps env es w = .ok w') :
    w'.wanted = es.foldl Wanted.after w.wanted := by
  induction es generalizing w with
  | nil => cases h; rfl
  | cons e es ih =>
    simp only [steps] at h
    cases hx : step env w e with
    | error u => rw [hx] at h; cases h
    | ok v =>
      rw [hx, bind_ok] at h
      rw [ih v h, wanted_step e hx]
      rfl

/-- **C121.**  At any time every character but white space appears as its place in the present text
demands, with the present settings; the selected bytes, when they are in the data, are marked, and
no others.  Missing: white space, characters above 255 and other selections, see
`C120_look_partial`. -/
theorem C121_characters_partial (env : Env) (w : Window) (hw : Reached env w) (data : List Byte)
    (hb : Begins (ink w.blocks.flatten) data) (hn : ∀ c ∈ w.blocks.flatten, c ≤ 0xFF) (rs : List Row)
    (n : Nat) (ok : Bool) (hr : Reading w.padBox data rs n ok) (sel : Option (Nat × Nat))
    (hs : Selects w.hl sel) (hsel : ∀ s ∈ sel, s.1 + s.2 ≤ data.length) :
    ∀ before b after, w.blocks = before ++ b :: after →
      ∃ xs, w.formats[before.length]? = some xs ∧ xs.length = b.length ∧
        ∀ u c v, b = u ++ c :: v → ¬ White c →
          ∃ look, Appears w.tagsBox rs n c (ink (before.flatten ++ u)).length look ∧
            xs[u.length]? = some (lookFormat look
              (decide (Chosen sel (ink (before.flatten ++ u)).length))) := by
  have hi := reached_inv hw
  intro before b after e
  have hf := hi.formats
  rw [e] at hf
  obtain ⟨xs, h1, h2⟩ := highlightAll_get _ _ _ _ _ _ hf
  rcases hi.marks with ⟨ds, hp, hd⟩ | ⟨he, hd⟩
  · rw [← hi.pad] at hr
    obtain ⟨h', ds', h3, h4⟩ := C120_look_partial w.blocks w.hl data hb hn rs n ok hr sel hs hsel
    rw [hp] at h3
    simp only [Except.ok.injEq, Prod.mk.injEq] at h3
    obtain ⟨h3a, h3b⟩ := h3
    obtain ⟨ys, h5, h6, h7⟩ := h4 before b after e
    have : w.datas[before.length]?.join = ds'[before.length]? := by
      rw [hd, h3b, List.getElem?_map]
      cases ds'[before.length]? <;> rfl
    rw [this, h3a] at h2
    rw [h2] at h5
    cases h5
    rw [hi.tags] at h7
    exact ⟨xs, h1, h6, h7⟩
  · have : before = [] ∧ b = [] := by
      rw [he] at e
      cases before with
      | nil => simp only [List.nil_append, List.cons.injEq] at e; exact ⟨rfl, e.1.symm⟩
      | cons a bs => simp at e
    obtain ⟨rfl, rfl⟩ := this
    refine ⟨xs, h1, ?_, ?_⟩
    · rw [hd] at h2
      cases h2
      rfl
    · intro u c v hc
      simp at hc

/-- **C121.**  When no update is pending, the tree has the items of the present text with the present
settings, and behind them the text that could not be read.  Missing: fields whose description is not
defined (C116). -/
theorem C121_tree_partial (env : Env) (he : Sane env) (w : Window) (hw : Reached env w)
    (ht : w.timer = false) (data : List Byte) (hb : Begins (ink w.blocks.flatten) data)
    (hl : data.length < 2 ^ 31) (rs : List Row) (n : Nat) (ok : Bool)
    (hr : Reading w.padBox data rs n ok) (hd : AllDefinedRows rs) :
    ∃ f : Row → Item, w.tree.items = rs.map f ∧ (∀ r ∈ rs, Shows env w.decodeBox r (f r)) ∧
      (∃ digits, Written digits (data.take n) ∧ ink w.blocks.flatten = digits ++ w.rest.getD []) ∧
      (w.rest = none ↔ (ok = true ∧ Written (ink w.blocks.flatten) data)) := by
  have hi := reached_inv hw
  have h1 := hi.tree ht
  have hn : Narrow (ink w.blocks.flatten) := by
    apply Classical.byContradiction
    intro hn
    rw [(C119_wide env w.blocks w.tree newHighlighter hn).1] at h1
    cases h1
  rw [← hi.tpad] at hr
  obtain ⟨f, rest, h2, h3, h4, h5⟩ := C119_rows_partial env he w.blocks w.tree data hb hn hl rs n ok hr hd
  rw [h1] at h2
  simp only [Except.ok.injEq, Prod.mk.injEq] at h2
  obtain ⟨h2a, h2b⟩ := h2
  refine ⟨f, by rw [h2a], by rw [← hi.tdec]; exact h3, ?_, ?_⟩
  · rw [h2b]; exact h4
  · rw [h2b]; exact h5

/-- **C121.**  The tree is brought up to date when the timer expires, which every change of the text
and of the padding starts. -/
theorem C121_timer (env : Env) (w w' : Window) (e : Event) (h : step env w e = .ok w') :
    (e = .timeout → w'.timer = false) ∧
    ((∃ b k t, e = .edit b k t) ∨ e = .padding (!w.padBox) → w'.timer = true) ∧
    (e ≠ .timeout → w.timer = true → w'.timer = true) := by
  cases e with
  | edit blocks kept touched =>
    obtain ⟨hl, ds, fs, h1, h2, rfl⟩ := edit_form h
    exact ⟨by simp, fun _ => rfl, fun _ _ => rfl⟩
  | redraw =>
    obtain ⟨hl, ds, fs, h1, h2, rfl⟩ := redraw_form h
    exact ⟨by simp, fun _ => rfl, fun _ _ => rfl⟩
  | timeout =>
    simp only [step] at h
    refine ⟨fun _ => ?_, by simp, by simp⟩
    split at h
    · obtain ⟨t, rest, h3, rfl⟩ := refresh_form h; rfl
    · rename_i ht
      cases h
      simpa using ht
  | tags on =>
    simp only [step, setTags] at h
    refine ⟨by simp, by simp, fun _ ht => ?_⟩
    split at h
    · cases h; exact ht
    · obtain ⟨fs, h1, rfl⟩ := rehighlight_form h
      exact ht
  | padding on =>
    by_cases e : w.padBox = on
    · simp only [step, setPadding] at h
      rw [if_pos e] at h
      cases h
      refine ⟨by simp, ?_, fun _ ht => ht⟩
      rintro (⟨b, k, t, hc⟩ | hc)
      · cases hc
      · simp only [Event.padding.injEq] at hc
        rw [hc] at e
        cases hp : w.padBox <;> simp [hp] at e
    · obtain ⟨hl, ds, fs, t, rest, -, -, -, rfl⟩ := padding_form h e
      exact ⟨by simp, fun _ => rfl, fun _ _ => rfl⟩
  | decode on =>
    cases h
    refine ⟨by simp, by simp, fun _ ht => ?_⟩
    unfold setDecode
    split <;> exact ht
  | press i =>
    refine ⟨by simp, by simp, fun _ ht => ?_⟩
    simp only [step] at h
    split at h
    · obtain ⟨fs, -, rfl⟩ := press_form h; exact ht
    · cases h; exact ht

/-! ## C122 -/

theorem located_in {data : List Byte} {r : Row} (h : Located data r) :
    r.offset + r.length ≤ data.length := by
  unfold Located at h
  have pos : ∀ {k : Nat} {x : List Byte}, data.drop r.offset = x → k ≤ x.length → 0 < x.length →
      r.offset + k ≤ data.length := by
    intro k x e hk hp
    have := congrArg List.length e
    rw [List.length_drop] at this
    omega
  cases hw : r.what with
  | field tag v =>
    rw [hw] at h
    obtain ⟨ht, len, rest, e, hl, -⟩ := h
    refine pos e ?_ ?_
    · rw [hl]; simp only [List.length_append]; omega
    · have := (isTag_length ht).1
      simp only [List.length_append]; omega
  | padding b =>
    rw [hw] at h
    obtain ⟨hne, hl, rest, e⟩ := h
    have := List.length_pos_iff.mpr hne
    refine pos e ?_ ?_ <;> simp only [List.length_append] <;> omega

/-- **C122.**  When the tree is up to date, pressing an item marks exactly the digits of the bytes of
this item, and shows the name of its field.  Missing: trees that are not up to date (`C122_stale`),
and marks that stay (`C122_kept`). -/
theorem C122_press_partial (env : Env) (he : Sane env) (w : Window) (hw : Reached env w)
    (ht : w.timer = false) (data : List Byte) (hb : Begins (ink w.blocks.flatten) data)
    (hn : ∀ c ∈ w.blocks.flatten, c ≤ 0xFF) (hl : data.length < 2 ^ 31) (rs : List Row) (n : Nat)
    (ok : Bool) (hr : Reading w.padBox data rs n ok) (hd : AllDefinedRows rs) (i : Nat) (r : Row)
    (hri : rs[i]? = some r) :
    ∃ w', step env w (.press i) = .ok w' ∧ w'.wanted = w.wanted ∧ w'.tree = w.tree ∧
      w'.timer = false ∧
      w'.shown = (match r.what with
        | .padding _ => .empty
        | .field tag v => match (known env blank tag v).name with
          | some name => .name name
          | none => .empty) ∧
      ∀ before b after, w.blocks = before ++ b :: after →
        ∃ xs, w'.formats[before.length]? = some xs ∧ xs.length = b.length ∧
          ∀ u c v, b = u ++ c :: v → ¬ White c →
            ∃ look, Appears w.tagsBox rs n c (ink (before.flatten ++ u)).length look ∧
              xs[u.length]? = some (lookFormat look
                (decide (InBytes (ink (before.flatten ++ u)).length r.offset r.length))) := by
  have hi := reached_inv hw
  obtain ⟨f, h1, h2, -⟩ := C121_tree_partial env he w hw ht data hb hl rs n ok hr hd
  have hm : r ∈ rs := List.mem_of_getElem? hri
  have hsh := h2 r hm
  have hit : w.tree.items[i]? = some (f r) := by rw [h1, List.getElem?_map, hri]; rfl
  obtain ⟨fs, hfs⟩ := highlightAll_safe
    { w.hl with selStart := ((f r).offset * 2 : Nat), selCount := ((f r).length * 2 : Nat) }
    w.blocks w.datas hn hi.known
  have hst : step env w (.press i) = .ok { w with
      hl := { w.hl with selStart := ((f r).offset * 2 : Nat), selCount := ((f r).length * 2 : Nat) }
      formats := fs
      shown := match (f r).name with
        | some n => .name n
        | none => .empty } := by
    simp only [step]
    rw [hit]
    simp only [pressItem, rehighlight]
    rw [hfs]
    rfl
  refine ⟨_, hst, rfl, rfl, ht, ?_, ?_⟩
  · obtain ⟨-, -, -, h3⟩ := hsh
    cases hw' : r.what with
    | padding b =>
      rw [hw'] at h3
      simp only at h3 ⊢
      rw [h3.1]
    | field tag v =>
      rw [hw'] at h3
      simp only at h3 ⊢
      rw [h3.1]
  · have hw' := reached_step hw hst
    have hlen : r.offset + r.length ≤ data.length := by
      have := (C115_places _ _ _ _ _ hr).2.1 r hm
      exact located_in this
    obtain ⟨-, e1, e2, -⟩ := hsh
    exact C121_characters_partial env _ hw' data hb hn rs n ok hr (some (r.offset, r.length))
      ⟨by rw [← e1]; simp [Nat.mul_comm], by rw [← e2]; simp [Nat.mul_comm]⟩
      (by intro s hs; cases hs; exact hlen)

/-- **C122.**  Pressing an item that belongs to no bytes shows the legal text and changes nothing
else. -/
theorem C122_other (env : Env) (w : Window) (i : Nat) (h : w.tree.items.length ≤ i) :
    step env w (.press i) = .ok { w with shown := .legal } := by
  simp only [step]
  rw [List.getElem?_eq_none h]

/-- **C122 is false after a change of the text**: what is marked stays where it was, whatever the text
is then, until another item is pressed. -/
theorem C122_kept (env : Env) (w w' : Window) (e : Event) (h : step env w e = .ok w')
    (he : ∀ i, e ≠ .press i) : w'.hl.selStart = w.hl.selStart ∧ w'.hl.selCount = w.hl.selCount := by
  cases e with
  | edit blocks kept touched =>
    obtain ⟨hl, ds, fs, h1, h2, rfl⟩ := edit_form h
    obtain ⟨-, -, a, b, -⟩ := parseBlocks_again h1
    exact ⟨a, b⟩
  | redraw =>
    obtain ⟨hl, ds, fs, h1, h2, rfl⟩ := redraw_form h
    obtain ⟨-, -, a, b, -⟩ := parseBlocks_again h1
    exact ⟨a, b⟩
  | timeout =>
    simp only [step] at h
    split at h
    · obtain ⟨t, rest, h3, rfl⟩ := refresh_form h; exact ⟨rfl, rfl⟩
    · cases h; exact ⟨rfl, rfl⟩
  | tags on =>
    simp only [step, setTags] at h
    split at h
    · cases h; exact ⟨rfl, rfl⟩
    · obtain ⟨fs, h1, rfl⟩ := rehighlight_form h; exact ⟨rfl, rfl⟩
  | padding on =>
    by_cases e : w.padBox = on
    · simp only [step, setPadding] at h
      rw [if_pos e] at h
      cases h
      exact ⟨rfl, rfl⟩
    · obtain ⟨hl, ds, fs, t, rest, h1, -, -, rfl⟩ := padding_form h e
      obtain ⟨-, -, a, b, -⟩ := parseBlocks_again h1
      exact ⟨a, b⟩
  | decode on =>
    cases h
    unfold setDecode
    split <;> exact ⟨rfl, rfl⟩
  | press i => exact absurd rfl (he i)

/-- "0400" -/
def textA : List Nat := [0x30, 0x34, 0x30, 0x30]

/-- "9F020104" -/
def textB : List Nat := [0x39, 0x46, 0x30, 0x32, 0x30, 0x31, 0x30, 0x34]

/-- No character is marked. -/
def Unmarked (w : Window) : Prop := ∀ xs ∈ w.formats, ∀ x ∈ xs, x.bg ≠ some .base00

theorem bindInv {α β : Type} {x : C α} {f : α → C β} {b : β} (h : (x >>= f) = .ok b) :
    ∃ a, x = .ok a ∧ f a = .ok b := by
  match x, h with
  | .ok a, h => exact ⟨a, rfl, h⟩

theorem overDigits_bg {f : Nat → Format → Format} {g : Format → Format}
    (hf : ∀ k x, x.bg ≠ some .base00 → (f k x).bg ≠ some .base00)
    (hg : ∀ x, x.bg ≠ some .base00 → (g x).bg ≠ some .base00) :
    ∀ (cs : List Nat) (k : Nat) (xs ys : List Format), (∀ x ∈ xs, x.bg ≠ some .base00) →
      overDigits f g k cs xs = .ok ys → ∀ y ∈ ys, y.bg ≠ some .base00 := by
  intro cs
  induction cs with
  | nil => intro k xs ys _ h; cases h; simp
  | cons c cs ih =>
    intro k xs ys hx h
    cases xs with
    | nil => cases h; simp
    | cons x xs =>
      rw [overDigits] at h
      obtain ⟨d, -, h⟩ := bindInv h
      obtain ⟨rest, hr, h⟩ := bindInv h
      cases h
      intro y hy
      rcases List.mem_cons.1 hy with rfl | hy
      · split
        · exact hf _ _ (hx x (List.mem_cons_self ..))
        · exact hg _ (hx x (List.mem_cons_self ..))
      · exact ih _ xs rest (fun z hz => hx z (List.mem_cons_of_mem _ hz)) hr y hy

theorem emphasise_bg {new : Format} (hn : new.bg ≠ some .base00) (startPos : Nat) (text : List Nat) :
    ∀ (ps : List (Nat × Nat)) (xs ys : List Format), (∀ x ∈ xs, x.bg ≠ some .base00) →
      emphasise new startPos text ps xs = .ok ys → ∀ y ∈ ys, y.bg ≠ some .base00 := by
  intro ps
  induction ps with
  | nil => intro xs ys hx h; cases h; exact hx
  | cons p ps ih =>
    intro xs ys hx h
    rw [emphasise] at h
    obtain ⟨zs, hz, h⟩ := bindInv h
    refine ih zs ys (overDigits_bg ?_ (fun _ h => h) text 0 xs zs hx hz) h
    intro k x hx
    split
    · exact hn
    · exact hx

theorem highlightBlock_bg {h : Highlighter} (hs : h.selCount = 0) {d : Option BlockData} {text : List Nat}
    {ys : List Format} (e : highlightBlock h d text = .ok ys) : ∀ y ∈ ys, y.bg ≠ some .base00 := by
  have hp : ∀ n, ∀ x ∈ List.replicate n plainFormat, x.bg ≠ some .base00 := by
    intro n x hx; rw [(List.mem_replicate.1 hx).2]; simp [plainFormat]
  cases d with
  | none => cases e; exact hp _
  | some d =>
    rw [highlightBlock] at e
    split at e
    · cases e
    · obtain ⟨xs, h1, e⟩ := bindInv e
      obtain ⟨zs, h2, e⟩ := bindInv e
      rw [selectedFormats, if_neg (by omega)] at e
      cases e
      have hx : ∀ x ∈ xs, x.bg ≠ some .base00 := by
        simp only [baseFormats] at h1
        split at h1
        · cases h1; exact hp _
        · split at h1
          · refine overDigits_bg ?_ ?_ text 0 _ xs (hp _) h1
            · intro _ _ _; simp [invalidFormat]
            · intro _ _; simp [nonHexFormat]
          · refine overDigits_bg ?_ ?_ text 0 _ xs (hp _) h1
            · intro _ _ _; split <;> simp [invalidFormat, plainFormat]
            · intro _ _; simp [nonHexFormat]
      rw [emphasised] at h2
      split at h2
      · obtain ⟨us, h3, h2⟩ := bindInv h2
        exact emphasise_bg (by simp [paddingFormat]) _ _ _ us ys
          (emphasise_bg (by simp [tagFormat]) _ _ _ xs us hx h3) h2
      · cases h2; exact hx

theorem highlightAll_bg {h : Highlighter} (hs : h.selCount = 0) : ∀ (bs : List (List Nat))
    (ds : List (Option BlockData)) (fs : List (List Format)), highlightAll h bs ds = .ok fs →
      ∀ xs ∈ fs, ∀ x ∈ xs, x.bg ≠ some .base00 := by
  intro bs
  induction bs with
  | nil => intro ds fs e; cases e; simp
  | cons b bs ih =>
    intro ds fs e
    rw [highlightAll] at e
    obtain ⟨x, h1, e⟩ := bindInv e
    obtain ⟨xs, h2, e⟩ := bindInv e
    cases e
    intro ys hy
    rcases List.mem_cons.1 hy with rfl | hy
    · exact highlightBlock_bg hs h1
    · exact ih _ xs h2 ys hy

/-- Nothing is selected and nothing marked. -/
def Quiet (w : Window) : Prop := w.hl.selCount = 0 ∧ Unmarked w

theorem quiet_step {env : Env} {w w' : Window} {e : Event} (hq : Quiet w) (h : step env w e = .ok w')
    (he : ∀ i, e ≠ .press i) : Quiet w' := by
  have hk := (C122_kept env w w' e h he).2
  refine ⟨hk.trans hq.1, ?_⟩
  have hk := hk.trans hq.1
  cases e with
  | edit blocks kept touched =>
    obtain ⟨hl, ds, fs, h1, h2, rfl⟩ := edit_form h
    exact highlightAll_bg hk _ _ _ h2
  | redraw =>
    obtain ⟨hl, ds, fs, h1, h2, rfl⟩ := redraw_form h
    exact highlightAll_bg hk _ _ _ h2
  | timeout =>
    simp only [step] at h
    split at h
    · obtain ⟨t, rest, h3, rfl⟩ := refresh_form h; exact hq.2
    · cases h; exact hq.2
  | tags on =>
    simp only [step, setTags] at h
    split at h
    · cases h; exact hq.2
    · obtain ⟨fs, h1, rfl⟩ := rehighlight_form h; exact highlightAll_bg hk _ _ _ h1
  | padding on =>
    simp only [step, setPadding] at h
    split at h
    · cases h; exact hq.2
    · obtain ⟨w1, h1, h⟩ := bindInv h
      obtain ⟨t, rest, h3, rfl⟩ := refresh_form h
      obtain ⟨hl, ds, fs, h1, h2, rfl⟩ := redraw_form h1
      exact highlightAll_bg hk _ _ _ h2
  | decode on =>
    cases h
    rw [setDecode]
    split
    · exact hq.2
    · exact hq.2
  | press i => exact absurd rfl (he i)

theorem quiet_start {env : Env} {s : Settings} {data : List Nat} {decode : Option Bool} {w : Window}
    (h : startWindow env s data decode = .ok w) : Quiet w := by
  rw [startWindow] at h
  obtain ⟨w1, h1, h⟩ := bindInv h
  obtain ⟨w2, h2, h⟩ := bindInv h
  have box : ∀ {set : Bool → Window → C Window} {saved : Option Bool} {w w' : Window} (_ : Quiet w)
      (_ : ∀ b, ∃ e, set b w = step env w e ∧ ∀ i, e ≠ .press i), loadBox set saved w = .ok w' → Quiet w' := by
    intro set saved w w' hq hs h
    cases saved with
    | none => cases h; exact hq
    | some b =>
      obtain ⟨e, he, hp⟩ := hs b
      exact quiet_step hq (he.symm.trans (show set b w = .ok w' from h)) hp
  have hb : Quiet bareWindow := by
    refine ⟨rfl, ?_⟩
    intro xs hx
    rw [List.mem_singleton.1 (show xs ∈ [[]] from hx)]
    simp
  rw [loadSettings] at h1
  obtain ⟨w3, h3, h1⟩ := bindInv h1
  obtain ⟨w4, h4, h1⟩ := bindInv h1
  have q3 := box hb (fun b => ⟨.tags b, rfl, by simp⟩) h3
  have q4 := box q3 (fun b => ⟨.padding b, rfl, by simp⟩) h4
  have q1 := box q4 (fun b => ⟨.decode b, rfl, by simp⟩) h1
  have q2 : Quiet w2 := by
    rw [loadText] at h2
    split at h2
    · cases h2; exact q1
    · exact quiet_step q1 h2 (by simp)
  exact box q2 (fun b => ⟨.decode b, rfl, by simp⟩) h

/-- **C122.**  As long as no item was pressed, no character is marked. -/
theorem C122_unpressed (env : Env) (s : Settings) (data : List Nat) (decode : Option Bool) (es : List Event)
    (w0 w : Window) (h0 : startWindow env s data decode = .ok w0) (h : steps env es w0 = .ok w)
    (he : ∀ i, .press i ∉ es) : ∀ xs ∈ w.formats, ∀ x ∈ xs, x.bg ≠ some .base00 := by
  have key : ∀ (es : List Event) (w0 : Window), Quiet w0 → steps env es w0 = .ok w → (∀ i, .press i ∉ es) →
      Quiet w := by
    intro es
    induction es with
    | nil => intro w0 hq h _; cases h; exact hq
    | cons e es ih =>
      intro w0 hq h he
      rw [steps] at h
      obtain ⟨w1, h1, h⟩ := bindInv h
      exact ih w1 (quiet_step hq h1 (fun i hi => he i (hi ▸ List.mem_cons_self ..))) h
        (fun i hi => he i (List.mem_cons_of_mem _ hi))
  exact (key es w0 (quiet_start h0) h he).2

/-- The field of "0400" is pressed and the text becomes "9F020104": its tag is marked, though no item
of the new tree is. -/
theorem C122_kept_marks :
    (startWindow noTables ⟨none, none, none⟩ textA none >>= steps noTables
      [.timeout, .press 0, .edit [textB] [some 0] [0], .timeout]).map (fun w => (w.formats, w.timer)) =
    .ok ([List.replicate 4 (lookFormat .plain true) ++ List.replicate 4 (lookFormat .plain false)],
      false) := by
  decide +kernel

/-- **C122 is false while an update is pending**: the item of "0400", still shown after the text
became "9F020104", marks the tag of the latter. -/
theorem C122_stale :
    (startWindow noTables ⟨none, none, none⟩ textA none >>= steps noTables
      [.timeout, .edit [textB] [some 0] [0], .press 0]).map
        (fun w => (w.formats, w.tree.items.map (fun i => (i.offset, i.length)))) =
    .ok ([List.replicate 4 (lookFormat .plain true) ++ List.replicate 4 (lookFormat .plain false)],
      [(0, 2)]) := by
  decide +kernel

/-- "0400 0401AA": the second field is pressed with tags emphasised. -/
example : (startWindow noTables ⟨some true, none, none⟩
      ([0x30, 0x34, 0x30, 0x30, 0x0A, 0x30, 0x34, 0x30, 0x31, 0x41, 0x41]) none >>= steps noTables
      [.timeout, .press 1]).map (fun w => (w.formats, w.tree.items.map (fun i => (i.offset, i.length)))) =
    .ok ([[lookFormat .tag false, lookFormat .tag false, lookFormat .plain false, lookFormat .plain false],
      [lookFormat .tag true, lookFormat .tag true, lookFormat .plain true, lookFormat .plain true,
        lookFormat .plain true, lookFormat .plain true]], [(0, 2), (2, 3)]) := by
  decide +kernel

/-! ## C123 -/

theorem wanted_loadDecode {saved : Option Bool} {w w' : Window}
    (h : loadBox (fun b w => .ok (setDecode b w)) saved w = .ok w') :
    w'.wanted = { w.wanted with decode := saved.getD w.decodeBox } := by
  cases saved with
  | none => cases h; rfl
  | some b => cases h; exact wanted_decode

/-- **C123.**  A window starts with the check boxes as saved, unchecked if not, with the text of an
option and with the decoding that this option asks for. -/
theorem C123_start (env : Env) (s : Settings) (data : List Nat) (decode : Option Bool) (w : Window)
    (h : startWindow env s data decode = .ok w) :
    w.wanted = ⟨lines data, s.tags.getD false, s.padding.getD false,
      decode.getD (s.decode.getD false)⟩ := by
  obtain ⟨w1, w2, w3, w4, a, b, c, d, e⟩ := start_form h
  have e1 : w1.wanted = ⟨[[]], s.tags.getD false, false, false⟩ := by
    cases hs : s.tags with
    | none => rw [hs] at a; cases a; rfl
    | some x => rw [hs] at a; rw [wanted_tags a]; rfl
  have e2 : w2.wanted = ⟨[[]], s.tags.getD false, s.padding.getD false, false⟩ := by
    cases hs : s.padding with
    | none => rw [hs] at b; cases b; exact e1
    | some x => rw [hs] at b; rw [wanted_padding b, e1]; rfl
  have e3 : w3.wanted = ⟨[[]], s.tags.getD false, s.padding.getD false, s.decode.getD false⟩ := by
    have hd : w2.decodeBox = false := congrArg Wanted.decode e2
    rw [wanted_loadDecode c, e2, hd]
  have e4 : w4.wanted = ⟨lines data, s.tags.getD false, s.padding.getD false, s.decode.getD false⟩ := by
    unfold loadText at d
    split at d
    · rename_i hd
      cases d
      rw [List.isEmpty_iff.mp hd]
      exact e3
    · rw [wanted_step _ d, e3]
      rfl
  have hd : w4.decodeBox = s.decode.getD false := congrArg Wanted.decode e4
  rw [wanted_loadDecode e, e4, hd]

/-- **C123.**  The lines are the text. -/
theorem C123_lines (data : List Nat) :
    [0x0A].intercalate (lines data) = data ∧ ∀ l ∈ lines data, 0x0A ∉ l := by
  induction data with
  | nil => exact ⟨rfl, by simp [lines]⟩
  | cons c cs ih =>
    obtain ⟨h1, h2⟩ := ih
    have hne : lines cs ≠ [] := by
      cases cs with
      | nil => simp [lines]
      | cons d ds => unfold lines; split <;> simp
    unfold lines
    obtain ⟨l, ls, e⟩ := List.exists_cons_of_ne_nil hne
    split
    · rename_i hc
      constructor
      · rw [e] at h1 ⊢
        rw [hc, List.intercalate_cons_cons, h1]
        rfl
      · intro x hx
        rcases List.mem_cons.mp hx with hx | hx
        · rw [hx]; simp
        · exact h2 x hx
    · rename_i hc
      rw [e] at h1 h2 ⊢
      simp only [List.headD_cons, List.tail_cons]
      constructor
      · rw [← h1]
        cases ls with
        | nil => simp [List.intercalate]
        | cons m ms => rw [List.intercalate_cons_cons, List.intercalate_cons_cons]; rfl
      · intro x hx
        rcases List.mem_cons.mp hx with hx | hx
        · rw [hx]
          intro hm
          rcases List.mem_cons.mp hm with hm | hm
          · exact hc hm.symm
          · exact h2 l (by simp) hm
        · exact h2 x (by simp [hx])

/-- **C123.**  Without a text on the command line a window starts, whatever was saved. -/
theorem C123_starts (env : Env) (s : Settings) : ∃ w, startWindow env s [] none = .ok w := by
  obtain ⟨a, b, c⟩ := s
  rcases a with _ | _ | _ <;> rcases b with _ | _ | _ <;> rcases c with _ | _ | _ <;> exact ⟨_, rfl⟩

/-- **C123.**  A window that is opened after another was closed has the check boxes of that one. -/
theorem C123_round_trip (env : Env) (w w' : Window)
    (h : startWindow env (saveSettings w) [] none = .ok w') :
    w'.tagsBox = w.tagsBox ∧ w'.padBox = w.padBox ∧ w'.decodeBox = w.decodeBox := by
  have := C123_start env _ _ _ _ h
  simp only [Window.wanted, saveSettings, Wanted.mk.injEq] at this
  obtain ⟨-, h1, h2, h3⟩ := this
  rw [h1, h2, h3]
  cases w.tagsBox <;> cases w.padBox <;> cases w.decodeBox <;> exact ⟨rfl, rfl, rfl⟩

/-- **C123.**  There is a window unless the strings cannot be initialised; `--tlv` gives it a text to
be decoded, `--ber` one to be shown as it is, the former before the latter. -/
theorem C123_options (env : Env) (r : Int) (s : Settings) (ber tlv : List Nat) :
    startViewer env r s ber tlv =
      if r < 0 then .ok none
      else if tlv ≠ [] then (startWindow env s tlv (some true)).map some
      else if ber ≠ [] then (startWindow env s ber (some false)).map some
      else (startWindow env s [] none).map some := by
  unfold startViewer overrides
  have hm : ∀ c : C Window, (do let w ← c; Except.ok (some w)) = c.map some := by
    intro c; cases c <;> rfl
  rw [hm]
  split
  · rfl
  · cases tlv with
    | cons a as => simp
    | nil => cases ber <;> simp

/-! ## C124 -/

/-- A text of characters below 256 whose data, short of 2 GiB, have only fields that can be described
(C84). -/
def Fine (blocks : List (List Nat)) : Prop :=
  (∀ c ∈ blocks.flatten, c ≤ 0xFF) ∧ ∀ data, Begins (ink blocks.flatten) data →
    data.length < 2 ^ 31 ∧ ∀ pad rs n ok, Reading pad data rs n ok → AllDefinedRows rs

theorem begins_nil {data : List Byte} (h : Begins [] data) : data = [] := by
  obtain ⟨-, -, h3, -⟩ := begins_take h
  exact List.length_eq_zero_iff.mp (by simp at h3; omega)

theorem fine_empty : Fine [[]] := by
  refine ⟨by simp, ?_⟩
  intro data hb
  have : data = [] := begins_nil hb
  subst this
  refine ⟨by decide, ?_⟩
  intro pad rs n ok hr r hm
  have := (C115_places _ _ _ _ _ hr).2.1 r hm
  have h2 := located_in this
  intro tag v hw
  unfold Located at this
  rw [hw] at this
  obtain ⟨ht, len, rest, e, -⟩ := this
  have h1 := congrArg List.length e
  have := (isTag_length ht).1
  simp only [List.drop_nil, List.length_nil, List.length_append] at h1
  omega

theorem parse_safe {blocks : List (List Nat)} (hf : Fine blocks) (h : Highlighter) :
    ∃ h' ds, parseBlocks blocks h = .ok (h', ds) := by
  obtain ⟨data, hb⟩ := (C119_every_text blocks).1
  obtain ⟨rs, n, ok, hr⟩ := (C115_every_input h.ignorePadding data).1
  exact ⟨_, _, parseBlocks_eq blocks h data hb (narrow_of hf.1) rs n ok hr⟩

theorem changed_safe {w : Window} (hf : Fine w.blocks) : ∃ w', onTextChanged w = .ok w' := by
  obtain ⟨hl, ds, h1⟩ := parse_safe hf w.hl
  obtain ⟨fs, h2⟩ := highlightAll_safe hl w.blocks (ds.map some) hf.1
    (fun h => absurd h (parseBlocks_again h1).2.2.2.2.1)
  refine ⟨{ w with hl, datas := ds.map some, timer := true, formats := fs }, ?_⟩
  unfold onTextChanged
  rw [h1]
  simp only [bind_ok, rehighlight]
  rw [h2]
  rfl

theorem show_safe {env : Env} (he : Sane env) {blocks : List (List Nat)} (hf : Fine blocks) (t : Tree) :
    ∃ r, showText env blocks t = .ok r := by
  obtain ⟨data, hb⟩ := (C119_every_text blocks).1
  obtain ⟨rs, n, ok, hr⟩ := (C115_every_input t.ignorePadding data).1
  obtain ⟨f, rest, h, -⟩ := C119_rows_partial env he blocks t data hb (narrow_of hf.1) (hf.2 data hb).1
    rs n ok hr ((hf.2 data hb).2 _ _ _ _ hr)
  exact ⟨_, h⟩

theorem rehighlight_safe {w : Window} (hn : ∀ c ∈ w.blocks.flatten, c ≤ 0xFF)
    (hk : w.hl.berStrLen = none → ∀ d ∈ w.datas, d = none) : ∃ w', rehighlight w = .ok w' := by
  obtain ⟨fs, h⟩ := highlightAll_safe w.hl w.blocks w.datas hn hk
  exact ⟨{ w with formats := fs }, by unfold rehighlight; rw [h]; rfl⟩

theorem touch_safe (h : Highlighter) (blocks : List (List Nat)) (ds : List (Option BlockData))
    (hn : ∀ c ∈ blocks.flatten, c ≤ 0xFF) (hk : h.berStrLen = none → ∀ d ∈ ds, d = none) :
    ∀ is, touch h blocks ds is = .ok () := by
  intro is
  induction is with
  | nil => rfl
  | cons i is ih =>
    obtain ⟨xs, hx⟩ := highlight_ok h ds[i]?.join (blocks[i]?.getD []) (by
      intro c hc
      cases hb : blocks[i]? with
      | none => rw [hb] at hc; simp at hc
      | some b =>
        rw [hb] at hc
        exact hn c (List.mem_flatten.mpr ⟨b, List.mem_of_getElem? hb, hc⟩)) (by
      intro hb
      cases hd : ds[i]? with
      | none => rfl
      | some d => exact hk hb d (List.mem_of_getElem? hd))
    unfold touch
    rw [hx, bind_ok]
    exact ih

theorem redraw_safe {w : Window} (hf : Fine w.blocks)
    (hk : w.hl.berStrLen = none → ∀ d ∈ w.datas, d = none) : ∃ w', redraw w = .ok w' := by
  obtain ⟨v, h1⟩ := rehighlight_safe hf.1 hk
  obtain ⟨fs, -, rfl⟩ := rehighlight_form h1
  obtain ⟨w', h2⟩ := changed_safe (w := { w with formats := fs }) hf
  exact ⟨w', by unfold redraw; rw [h1, bind_ok]; exact h2⟩

theorem refresh_safe {env : Env} (he : Sane env) {w : Window} (hf : Fine w.blocks) :
    ∃ w', refreshTree env w = .ok w' := by
  obtain ⟨⟨t, rest⟩, h⟩ := show_safe he hf w.tree
  exact ⟨{ w with tree := t, rest }, by unfold refreshTree; rw [h]; rfl⟩

theorem step_safe {env : Env} (he : Sane env) {w : Window} (hi : Inv env w) (hf : Fine w.blocks)
    (e : Event) (hfe : ∀ b k t, e = .edit b k t → Fine b) :
    ∃ w', step env w e = .ok w' ∧ Inv env w' ∧ Fine w'.blocks := by
  have fin : ∀ w', step env w e = .ok w' → ∃ w', step env w e = .ok w' ∧ Inv env w' ∧ Fine w'.blocks := by
    intro w' h
    refine ⟨w', h, inv_step e hi h, ?_⟩
    have : w'.blocks = (w.wanted.after e).text := congrArg Wanted.text (wanted_step e h)
    rw [this]
    cases e <;> first | exact hf | exact hfe _ _ _ rfl
  cases e with
  | edit blocks kept touched =>
    have hfb := hfe _ _ _ rfl
    have hk : w.hl.berStrLen = none → ∀ d ∈ keepDatas w.datas kept, d = none := by
      intro hb d hd
      obtain ⟨k, -, rfl⟩ := List.mem_map.mp hd
      cases k with
      | none => rfl
      | some i =>
        cases hx : w.datas[i]? with
        | none => simp [hx]
        | some d => simpa [hx] using hi.known hb d (List.mem_of_getElem? hx)
    obtain ⟨w', h⟩ := changed_safe (w := { w with blocks, datas := keepDatas w.datas kept }) hfb
    apply fin w'
    simp only [step]
    rw [touch_safe w.hl blocks _ hfb.1 hk touched, bind_ok]
    exact h
  | redraw =>
    obtain ⟨w', h⟩ := redraw_safe hf hi.known
    exact fin w' h
  | timeout =>
    by_cases ht : w.timer = true
    · obtain ⟨w', h⟩ := refresh_safe he (w := { w with timer := false }) hf
      exact fin w' (by simp only [step]; rw [if_pos ht]; exact h)
    · exact fin w (by simp only [step]; rw [if_neg ht])
  | tags on =>
    by_cases e : w.tagsBox = on
    · exact fin w (by simp only [step, setTags]; rw [if_pos e])
    · obtain ⟨w', h⟩ := rehighlight_safe
        (w := { w with tagsBox := on, hl := { w.hl with emphasise := on } }) hf.1 hi.known
      exact fin w' (by simp only [step, setTags]; rw [if_neg e]; exact h)
  | padding on =>
    by_cases e : w.padBox = on
    · exact fin w (by simp only [step, setPadding]; rw [if_pos e])
    · obtain ⟨v, h⟩ := redraw_safe
        (w := { w with padBox := on, hl := { w.hl with ignorePadding := on } }) hf hi.known
      obtain ⟨hl, ds, fs, h1, h2, rfl⟩ := redraw_form h
      obtain ⟨w', h'⟩ := refresh_safe he (w := { w with
        padBox := on, hl, datas := ds.map some, timer := true, formats := fs,
        tree := setIgnorePadding on w.tree }) hf
      exact fin w' (by simp only [step, setPadding]; rw [if_neg e, h, bind_ok]; exact h')
  | decode on => exact fin _ rfl
  | press i =>
    cases hx : w.tree.items[i]? with
    | none => exact fin { w with shown := .legal } (by simp only [step]; rw [hx])
    | some item =>
      obtain ⟨w', h⟩ := rehighlight_safe (w := { w with hl := { w.hl with
        selStart := (item.offset * 2 : Nat), selCount := (item.length * 2 : Nat) } }) hf.1 hi.known
      refine fin _ (by simp only [step]; rw [hx]; simp only [pressItem]; rw [h]; rfl)

theorem steps_safe {env : Env} (he : Sane env) : ∀ (es : List Event) {w : Window}, Inv env w →
    Fine w.blocks → (∀ b k t, .edit b k t ∈ es → Fine b) → ∃ w', steps env es w = .ok w' := by
  intro es
  induction es with
  | nil => intro w _ _ _; exact ⟨w, rfl⟩
  | cons e es ih =>
    intro w hi hf hes
    obtain ⟨v, h1, h2, h3⟩ := step_safe he hi hf e (fun b k t hb => hes b k t (by simp [hb]))
    obtain ⟨w', h4⟩ := ih h2 h3 (fun b k t hb => hes b k t (by simp [hb]))
    exact ⟨w', by simp only [steps]; rw [h1, bind_ok]; exact h4⟩

theorem loadDecode_ok (saved : Option Bool) (w : Window) :
    ∃ w', loadBox (fun b w => .ok (setDecode b w)) saved w = .ok w' := by
  cases saved with
  | none => exact ⟨_, rfl⟩
  | some b => exact ⟨_, rfl⟩

/-- **C124.**  Nothing that happens to a window with such texts is undefined, whichever blocks the
toolkit highlights before it signals a change and whatever data these keep.  Missing: characters
above 255 (`C124_wide`), and fields whose description is not defined (C116). -/
theorem C124_safe_partial (env : Env) (he : Sane env) (s : Settings) (data : List Nat)
    (decode : Option Bool) (hd : Fine (lines data)) (es : List Event)
    (hes : ∀ b k t, .edit b k t ∈ es → Fine b) :
    ∃ w, (startWindow env s data decode >>= steps env es) = .ok w := by
  have hstart : ∃ w, startWindow env s data decode = .ok w := by
    obtain ⟨w3, h3⟩ : ∃ w3, loadSettings env s bareWindow = .ok w3 := by
      obtain ⟨a, b, c⟩ := s
      rcases a with _ | _ | _ <;> rcases b with _ | _ | _ <;> rcases c with _ | _ | _ <;> exact ⟨_, rfl⟩
    have hs0 : startWindow env s [] none = .ok w3 := by
      unfold startWindow
      rw [h3]
      rfl
    have hi := inv_start hs0
    have hf : Fine w3.blocks := by
      have : w3.blocks = [[]] := congrArg Wanted.text (C123_start env _ _ _ _ hs0)
      rw [this]
      exact fine_empty
    obtain ⟨w4, h4⟩ : ∃ w4, loadText env data w3 = .ok w4 := by
      unfold loadText
      split
      · exact ⟨_, rfl⟩
      · obtain ⟨w4, h, -⟩ := step_safe he hi hf (.edit (lines data) [] [])
          (by intro b k t e; cases e; exact hd)
        exact ⟨w4, h⟩
    obtain ⟨w, h⟩ := loadDecode_ok decode w4
    refine ⟨w, ?_⟩
    unfold startWindow
    rw [h3, bind_ok, h4, bind_ok]
    exact h
  obtain ⟨w0, h0⟩ := hstart
  rw [h0, bind_ok]
  refine steps_safe he es (inv_start h0) ?_ hes
  have : w0.blocks = lines data := congrArg Wanted.text (C123_start env _ _ _ _ h0)
  rw [this]
  exact hd

/-- **C124 is false of other characters**: a euro sign is looked up outside of a table as soon as the
text contains it. -/
theorem C124_wide (env : Env) (w : Window) (blocks : List (List Nat)) (kept : List (Option Nat))
    (hn : ¬ Narrow (ink blocks.flatten)) : step env w (.edit blocks kept []) = .error .oobRead := by
  simp only [step, touch, bind_ok, onTextChanged]
  rw [(C119_wide env blocks w.tree w.hl hn).2]
  rfl

/-- "50 02 4142" on two lines. -/
def textC : List (List Nat) := [[0x35, 0x30, 0x20, 0x30, 0x32], [0x34, 0x31, 0x34, 0x32]]

theorem textC_begins : Begins (ink textC.flatten) [0x50, 0x02, 0x41, 0x42] := by
  have d : ∀ c n, digitVal c = some n → HexDigit c n := fun c n h => (digitVal_iff c n).mp h
  refine ⟨[0x35, 0x30, 0x30, 0x32, 0x34, 0x31, 0x34, 0x32], [], by decide, ?_, by simp⟩
  exact .cons (d _ 5 rfl) (d _ 0 rfl) rfl (.cons (d _ 0 rfl) (d _ 2 rfl) rfl
    (.cons (d _ 4 rfl) (d _ 1 rfl) rfl (.cons (d _ 4 rfl) (d _ 2 rfl) rfl .nil)))

theorem textC_reading (pad : Bool) :
    Reading pad [0x50, 0x02, 0x41, 0x42] [⟨0, 0, 4, .field [0x50] [0x41, 0x42]⟩] 4 true :=
  .whole (.prim [0x50, 0x02] [0x50] [0x41, 0x42] .nil)
    ⟨⟨.inl ⟨by decide, rfl⟩, by decide +kernel, by decide +kernel⟩, by decide +kernel, trivial⟩ rfl

theorem textC_defined : AllDefinedRows [⟨0, 0, 4, .field [0x50] [0x41, 0x42]⟩] := by
  intro r hr tag v hw
  simp only [List.mem_cons, List.not_mem_nil, or_false] at hr
  subst hr
  cases hw
  exact ⟨by unfold Undefined; simp [beNat], by decide +kernel⟩

example : Fine textC := by
  refine ⟨by decide, ?_⟩
  intro data hb
  obtain rfl := (C119_every_text textC).2 _ _ hb textC_begins
  refine ⟨by decide, ?_⟩
  intro pad rs n ok hr
  obtain ⟨rfl, rfl, rfl⟩ := (C115_every_input pad _).2 _ _ _ _ _ _ hr (textC_reading pad)
  exact textC_defined

/-- An edit that keeps the data of a line twice and highlights lines that there are not. -/
example : (startWindow noTables ⟨none, some true, some true⟩ textA none >>= steps noTables
      [.edit textC [some 0, some 0, some 7] [1, 0, 9], .tags true, .timeout, .press 0, .decode false,
        .padding false]).map (fun w => (w.tree.items.map Item.text, w.timer, w.shown, w.wanted)) =
    .ok ([txt!"50 : [2] 41 42"], true, .name (txt!"Application Label"),
      ⟨textC, true, false, false⟩) := by
  decide +kernel

/-- Without a press, the same text is coloured and nothing is marked. -/
example : (startWindow noTables ⟨some true, none, none⟩ textA none >>= steps noTables [.timeout, .decode true]).map
      (fun w => w.formats) = .ok [[tagFormat, tagFormat, plainFormat, plainFormat]] := by decide +kernel

end Verif.Viewer
