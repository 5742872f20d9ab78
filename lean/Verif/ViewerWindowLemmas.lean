import Verif.ViewerTextProps
import Verif.ViewerWindow

/-!
# Lemmas for the window of the viewer
-/

set_option autoImplicit false

namespace Verif.Viewer
open Verif Ber BerSpec PrintSpec ViewerSpec Print TlvInfo Formats

/-! ## Highlighting all blocks -/

theorem highlightAll_get (h : Highlighter) (b : List Nat) (after : List (List Nat)) :
    ∀ (before : List (List Nat)) (ds : List (Option BlockData)) (fs : List (List Format)),
      highlightAll h (before ++ b :: after) ds = .ok fs →
      ∃ xs, fs[before.length]? = some xs ∧ highlightBlock h ds[before.length]?.join b = .ok xs := by
  intro before
  induction before with
  | nil =>
    intro ds fs e
    simp only [List.nil_append, highlightAll] at e
    rw [List.head?_eq_getElem?] at e
    cases hx : highlightBlock h ds[0]?.join b with
    | error u => rw [hx] at e; cases e
    | ok xs =>
      rw [hx, bind_ok] at e
      cases hy : highlightAll h after ds.tail with
      | error u => rw [hy] at e; cases e
      | ok ys =>
        rw [hy, bind_ok] at e
        cases e
        exact ⟨xs, rfl, rfl⟩
  | cons a before ih =>
    intro ds fs e
    simp only [List.cons_append, highlightAll] at e
    cases hx : highlightBlock h ds.head?.join a with
    | error u => rw [hx] at e; cases e
    | ok xs =>
      rw [hx, bind_ok] at e
      cases hy : highlightAll h (before ++ b :: after) ds.tail with
      | error u => rw [hy] at e; cases e
      | ok ys =>
        rw [hy, bind_ok] at e
        cases e
        obtain ⟨zs, h1, h2⟩ := ih _ _ hy
        refine ⟨zs, by simpa using h1, ?_⟩
        rw [List.getElem?_tail] at h2
        exact h2

theorem highlightAll_ok (h : Highlighter) : ∀ (blocks : List (List Nat)) (ds : List (Option BlockData)),
    (∀ before b after, blocks = before ++ b :: after →
      ∃ xs, highlightBlock h ds[before.length]?.join b = .ok xs) →
    ∃ fs, highlightAll h blocks ds = .ok fs := by
  intro blocks
  induction blocks with
  | nil => intro ds _; exact ⟨[], rfl⟩
  | cons b bs ih =>
    intro ds hyp
    obtain ⟨xs, h1⟩ := hyp [] b bs rfl
    obtain ⟨fs, h2⟩ := ih ds.tail (by
      intro before c after e
      obtain ⟨ys, hy⟩ := hyp (b :: before) c after (by rw [e]; rfl)
      exact ⟨ys, by rw [List.getElem?_tail]; exact hy⟩)
    refine ⟨xs :: fs, ?_⟩
    simp only [highlightAll]
    rw [List.head?_eq_getElem?]
    simp only [List.length_nil] at h1
    rw [h1, bind_ok, h2, bind_ok]

/-! ## Parsing again -/

theorem parseBlocks_form (blocks : List (List Nat)) (h : Highlighter) :
    parseBlocks blocks h =
      (parseBlocks blocks { newHighlighter with ignorePadding := h.ignorePadding }).map (fun r =>
        ({ h with
          berStrLen := r.1.berStrLen, tagPositions := r.1.tagPositions,
          paddingPositions := r.1.paddingPositions }, r.2)) := by
  unfold parseBlocks
  simp only
  cases hexPrefix (blocks.map withoutSpace).flatten with
  | error e => rfl
  | ok k =>
    simp only [bind_ok]
    generalize parseData (ι := Mark) _ _ _ _ _ _ _ _ _ = x
    cases x with
    | error e => rfl
    | ok y => rfl

/-- What was parsed can be parsed again, also with another emphasis and selection. -/
theorem parseBlocks_again {blocks : List (List Nat)} {h h' : Highlighter} {ds : List BlockData}
    (e : parseBlocks blocks h = .ok (h', ds)) :
    h'.emphasise = h.emphasise ∧ h'.ignorePadding = h.ignorePadding ∧ h'.selStart = h.selStart ∧
    h'.selCount = h.selCount ∧ h'.berStrLen ≠ none ∧
    ∀ a s c, parseBlocks blocks { h' with emphasise := a, selStart := s, selCount := c } =
      .ok ({ h' with emphasise := a, selStart := s, selCount := c }, ds) := by
  have hb : h'.berStrLen ≠ none := by
    unfold parseBlocks at e
    simp only at e
    cases hx : hexPrefix (blocks.map withoutSpace).flatten with
    | error u => rw [hx] at e; cases e
    | ok k =>
      rw [hx] at e
      simp only [bind_ok] at e
      generalize parseData (ι := Mark) _ _ _ _ _ _ _ _ _ = x at e
      cases x with
      | error u => cases e
      | ok y =>
        simp only [bind_ok, Except.ok.injEq, Prod.mk.injEq] at e
        rw [← e.1]
        simp
  rw [parseBlocks_form] at e
  cases hx : parseBlocks blocks { newHighlighter with ignorePadding := h.ignorePadding } with
  | error u => rw [hx] at e; cases e
  | ok r =>
    rw [hx] at e
    simp only [map_ok, Except.ok.injEq, Prod.mk.injEq] at e
    obtain ⟨e1, e2⟩ := e
    subst e1
    subst e2
    refine ⟨rfl, rfl, rfl, rfl, hb, ?_⟩
    intro a s c
    rw [parseBlocks_form]
    simp only
    rw [hx]
    rfl

/-! ## The tree of the text -/

theorem populate_items (env : Env) (data : List Byte) (t : Tree) (is : List Item) :
    populateItems env data { t with items := is } = populateItems env data t := by
  unfold populateItems
  simp only

theorem showText_items (env : Env) (blocks : List (List Nat)) (t : Tree) (is : List Item) :
    showText env blocks { t with items := is } = showText env blocks t := by
  unfold showText
  simp only [populate_items]

theorem populate_settings {env : Env} {data : List Byte} {t t' : Tree} {n : Nat}
    (h : populateItems env data t = .ok (t', n)) :
    t'.ignorePadding = t.ignorePadding ∧ t'.decodeFields = t.decodeFields := by
  unfold populateItems at h
  generalize parseData (fieldItem env t.decodeFields) _ _ _ _ _ _ _ _ = x at h
  cases x with
  | error u => cases h
  | ok y => cases h; exact ⟨rfl, rfl⟩

theorem showText_settings {env : Env} {blocks : List (List Nat)} {t t' : Tree}
    {rest : Option (List Nat)} (h : showText env blocks t = .ok (t', rest)) :
    t'.ignorePadding = t.ignorePadding ∧ t'.decodeFields = t.decodeFields := by
  unfold showText at h
  simp only at h
  split at h
  · cases h; exact ⟨rfl, rfl⟩
  · cases hx : hexPrefix (withoutSpace (toPlainText blocks)) with
    | error u => rw [hx] at h; cases h
    | ok k =>
      rw [hx, bind_ok] at h
      cases hp : populateItems env
          (fromHex ((withoutSpace (toPlainText blocks)).take (evenLen k))) t with
      | error u => rw [hp] at h; cases h
      | ok y =>
        rw [hp, bind_ok] at h
        cases h
        exact populate_settings (n := y.2) hp

/-- A tree that shows a text shows it. -/
theorem showText_again {env : Env} {blocks : List (List Nat)} {t t' : Tree}
    {rest : Option (List Nat)} (h : showText env blocks t = .ok (t', rest)) :
    showText env blocks t' = .ok (t', rest) := by
  obtain ⟨h1, h2⟩ := showText_settings h
  have : t = { t' with items := t.items } := by cases t; cases t'; simp_all
  rw [this, showText_items] at h
  exact h

theorem showText_decode {env : Env} {blocks : List (List Nat)} {t : Tree}
    {rest : Option (List Nat)} (on : Bool) (h : showText env blocks t = .ok (t, rest)) :
    showText env blocks (setDecodeFields on t) = .ok (setDecodeFields on t, rest) := by
  unfold setDecodeFields
  split
  · exact h
  · obtain ⟨p, a, items⟩ := t
    unfold showText at h ⊢
    simp only at h ⊢
    split at h
    · rw [if_pos (by assumption)]
      cases h
      rfl
    · rw [if_neg (by assumption)]
      cases hx : hexPrefix (withoutSpace (toPlainText blocks)) with
      | error u => rw [hx] at h; cases h
      | ok k =>
        rw [hx, bind_ok] at h
        rw [bind_ok]
        cases hp : populateItems env
            (fromHex ((withoutSpace (toPlainText blocks)).take (evenLen k))) ⟨p, a, items⟩ with
        | error u => rw [hp] at h; cases h
        | ok y =>
          rw [hp, bind_ok] at h
          obtain ⟨t', n⟩ := y
          simp only [Except.ok.injEq, Prod.mk.injEq] at h
          obtain ⟨rfl, rfl⟩ := h
          have := populate_render env _ p a on items n
            ((populate_items env _ ⟨p, a, items⟩ []).trans hp)
          rw [← populate_items env _ ⟨p, on, []⟩ (items.map (Item.render on))] at this
          rw [this, bind_ok]

/-! ## The invariant -/

/-- Settings are in effect, the text is highlighted as it is, and the tree shows it or is about to. -/
structure Inv (env : Env) (w : Window) : Prop where
  tags : w.hl.emphasise = w.tagsBox
  pad : w.hl.ignorePadding = w.padBox
  tpad : w.tree.ignorePadding = w.padBox
  tdec : w.tree.decodeFields = w.decodeBox
  marks : (∃ ds, parseBlocks w.blocks w.hl = .ok (w.hl, ds) ∧ w.datas = ds.map some) ∨
    (w.blocks = [[]] ∧ w.datas = [none])
  formats : highlightAll w.hl w.blocks w.datas = .ok w.formats
  tree : w.timer = false → showText env w.blocks w.tree = .ok (w.tree, w.rest)
  known : w.hl.berStrLen = none → ∀ d ∈ w.datas, d = none

theorem inv_bare (env : Env) : Inv env bareWindow where
  tags := rfl
  pad := rfl
  tpad := rfl
  tdec := rfl
  marks := .inr ⟨rfl, rfl⟩
  formats := rfl
  tree := fun _ => rfl
  known := by intro _ d hd; simpa [bareWindow] using hd

theorem rehighlight_form {w w' : Window} (h : rehighlight w = .ok w') :
    ∃ fs, highlightAll w.hl w.blocks w.datas = .ok fs ∧ w' = { w with formats := fs } := by
  unfold rehighlight at h
  cases hx : highlightAll w.hl w.blocks w.datas with
  | error u => rw [hx] at h; cases h
  | ok fs => rw [hx] at h; cases h; exact ⟨fs, rfl, rfl⟩

theorem textChanged_form {w w' : Window} (h : onTextChanged w = .ok w') :
    ∃ hl ds fs, parseBlocks w.blocks w.hl = .ok (hl, ds) ∧
      highlightAll hl w.blocks (ds.map some) = .ok fs ∧
      w' = { w with hl, datas := ds.map some, timer := true, formats := fs } := by
  unfold onTextChanged at h
  cases hx : parseBlocks w.blocks w.hl with
  | error u => rw [hx] at h; cases h
  | ok r =>
    obtain ⟨hl, ds⟩ := r
    rw [hx] at h
    simp only [bind_ok] at h
    obtain ⟨fs, h1, rfl⟩ := rehighlight_form h
    exact ⟨hl, ds, fs, rfl, h1, rfl⟩

theorem refresh_form {env : Env} {w w' : Window} (h : refreshTree env w = .ok w') :
    ∃ t rest, showText env w.blocks w.tree = .ok (t, rest) ∧ w' = { w with tree := t, rest } := by
  unfold refreshTree at h
  cases hx : showText env w.blocks w.tree with
  | error u => rw [hx] at h; cases h
  | ok r => obtain ⟨t, rest⟩ := r; rw [hx] at h; cases h; exact ⟨t, rest, rfl, rfl⟩

theorem redraw_form {w w' : Window} (h : redraw w = .ok w') :
    ∃ hl ds fs, parseBlocks w.blocks w.hl = .ok (hl, ds) ∧
      highlightAll hl w.blocks (ds.map some) = .ok fs ∧
      w' = { w with hl, datas := ds.map some, timer := true, formats := fs } := by
  unfold redraw at h
  cases hx : rehighlight w with
  | error u => rw [hx] at h; cases h
  | ok v =>
    rw [hx, bind_ok] at h
    obtain ⟨gs, -, rfl⟩ := rehighlight_form hx
    obtain ⟨hl, ds, fs, h1, h2, rfl⟩ := textChanged_form h
    exact ⟨hl, ds, fs, h1, h2, rfl⟩

/-- After the signal of a change. -/
theorem inv_changed {env : Env} {w : Window} {hl : Highlighter} {ds : List BlockData}
    {fs : List (List Format)} (ht : w.hl.emphasise = w.tagsBox) (hp : w.hl.ignorePadding = w.padBox)
    (htp : w.tree.ignorePadding = w.padBox) (htd : w.tree.decodeFields = w.decodeBox)
    (h1 : parseBlocks w.blocks w.hl = .ok (hl, ds))
    (h2 : highlightAll hl w.blocks (ds.map some) = .ok fs) :
    Inv env { w with hl, datas := ds.map some, timer := true, formats := fs } := by
  obtain ⟨a1, a2, a3, a4, a5, a6⟩ := parseBlocks_again h1
  exact {
    tags := a1.trans ht
    pad := a2.trans hp
    tpad := htp
    tdec := htd
    marks := .inl ⟨ds, a6 hl.emphasise hl.selStart hl.selCount, rfl⟩
    formats := h2
    tree := by intro h; cases h
    known := fun h => absurd h a5 }

theorem inv_marks {blocks : List (List Nat)} {hl : Highlighter} {datas : List (Option BlockData)}
    (h : (∃ ds, parseBlocks blocks hl = .ok (hl, ds) ∧ datas = ds.map some) ∨
      (blocks = [[]] ∧ datas = [none])) (a : Bool) (s c : Int) :
    (∃ ds, parseBlocks blocks { hl with emphasise := a, selStart := s, selCount := c } =
      .ok ({ hl with emphasise := a, selStart := s, selCount := c }, ds) ∧ datas = ds.map some) ∨
      (blocks = [[]] ∧ datas = [none]) := by
  rcases h with ⟨ds, h1, h2⟩ | h
  · exact .inl ⟨ds, (parseBlocks_again h1).2.2.2.2.2 a s c, h2⟩
  · exact .inr h

theorem inv_tags {env : Env} {w w' : Window} {on : Bool} (hi : Inv env w)
    (h : setTags on w = .ok w') : Inv env w' := by
  unfold setTags at h
  split at h
  · cases h; exact hi
  · obtain ⟨fs, h1, rfl⟩ := rehighlight_form h
    exact {
      tags := rfl
      pad := hi.pad
      tpad := hi.tpad
      tdec := hi.tdec
      marks := inv_marks hi.marks on _ _
      formats := h1
      tree := hi.tree
      known := hi.known }

theorem inv_padding {env : Env} {w w' : Window} {on : Bool} (hi : Inv env w)
    (h : setPadding env on w = .ok w') : Inv env w' := by
  unfold setPadding at h
  split at h
  · cases h; exact hi
  · cases hx : redraw { w with padBox := on, hl := { w.hl with ignorePadding := on } } with
    | error u => rw [hx] at h; cases h
    | ok v =>
      rw [hx, bind_ok] at h
      obtain ⟨hl, ds, fs, h1, h2, rfl⟩ := redraw_form hx
      obtain ⟨t, rest, h3, rfl⟩ := refresh_form h
      obtain ⟨s1, s2⟩ := showText_settings h3
      have := inv_changed (env := env)
        (w := { w with padBox := on, hl := { w.hl with ignorePadding := on }, tree := t, rest })
        hi.tags rfl s1 (s2.trans hi.tdec) h1 h2
      exact this

theorem inv_decode {env : Env} {w : Window} {on : Bool} (hi : Inv env w) :
    Inv env (setDecode on w) := by
  unfold setDecode
  split
  · exact hi
  · rename_i hne
    have hne' : ¬ w.tree.decodeFields = on := by rw [hi.tdec]; exact hne
    refine { hi with tpad := ?_, tdec := ?_, tree := ?_ }
    · rw [← hi.tpad]; unfold setDecodeFields; split <;> rfl
    · unfold setDecodeFields; rw [if_neg hne']
    · intro ht; exact showText_decode on (hi.tree ht)

theorem inv_press {env : Env} {w w' : Window} {i : Item} (hi : Inv env w)
    (h : pressItem i w = .ok w') : Inv env w' := by
  unfold pressItem at h
  generalize hv : rehighlight _ = x at h
  cases x with
  | error u => cases h
  | ok v =>
    rw [bind_ok] at h
    obtain ⟨fs, h1, rfl⟩ := rehighlight_form hv
    cases h
    exact {
      tags := hi.tags
      pad := hi.pad
      tpad := hi.tpad
      tdec := hi.tdec
      marks := inv_marks hi.marks _ _ _
      formats := h1
      tree := hi.tree
      known := hi.known }

theorem edit_form {env : Env} {w w' : Window} {blocks : List (List Nat)} {kept : List (Option Nat)}
    {touched : List Nat} (h : step env w (.edit blocks kept touched) = .ok w') :
    ∃ hl ds fs, parseBlocks blocks w.hl = .ok (hl, ds) ∧
      highlightAll hl blocks (ds.map some) = .ok fs ∧
      w' = { w with blocks, hl, datas := ds.map some, timer := true, formats := fs } := by
  unfold step at h
  simp only at h
  cases hx : touch w.hl blocks (keepDatas w.datas kept) touched with
  | error u => rw [hx] at h; cases h
  | ok v =>
    rw [hx, bind_ok] at h
    obtain ⟨hl, ds, fs, h1, h2, rfl⟩ := textChanged_form h
    exact ⟨hl, ds, fs, h1, h2, rfl⟩

theorem inv_step {env : Env} {w w' : Window} (e : Event) (hi : Inv env w)
    (h : step env w e = .ok w') : Inv env w' := by
  cases e with
  | edit blocks kept touched =>
    obtain ⟨hl, ds, fs, h1, h2, rfl⟩ := edit_form h
    exact inv_changed (env := env) (w := { w with blocks }) hi.tags hi.pad hi.tpad hi.tdec h1 h2
  | redraw =>
    obtain ⟨hl, ds, fs, h1, h2, rfl⟩ := redraw_form h
    exact inv_changed hi.tags hi.pad hi.tpad hi.tdec h1 h2
  | timeout =>
    simp only [step] at h
    split at h
    · obtain ⟨t, rest, h3, rfl⟩ := refresh_form h
      obtain ⟨s1, s2⟩ := showText_settings h3
      exact { hi with
        tpad := s1.trans hi.tpad
        tdec := s2.trans hi.tdec
        tree := fun _ => showText_again h3 }
    · cases h; exact hi
  | tags on => exact inv_tags hi h
  | padding on => exact inv_padding hi h
  | decode on => cases h; exact inv_decode hi
  | press i =>
    simp only [step] at h
    split at h
    · exact inv_press hi h
    · cases h
      exact { hi with }

theorem inv_steps {env : Env} : ∀ (es : List Event) {w w' : Window}, Inv env w →
    steps env es w = .ok w' → Inv env w' := by
  intro es
  induction es with
  | nil => intro w w' hi h; cases h; exact hi
  | cons e es ih =>
    intro w w' hi h
    simp only [steps] at h
    cases hx : step env w e with
    | error u => rw [hx] at h; cases h
    | ok v => rw [hx, bind_ok] at h; exact ih (inv_step e hi hx) h

theorem loadSettings_form {env : Env} {s : Settings} {w w' : Window}
    (h : loadSettings env s w = .ok w') :
    ∃ w1 w2, loadBox setTags s.tags w = .ok w1 ∧ loadBox (setPadding env) s.padding w1 = .ok w2 ∧
      loadBox (fun b w => .ok (setDecode b w)) s.decode w2 = .ok w' := by
  unfold loadSettings at h
  cases h1 : loadBox setTags s.tags w with
  | error u => rw [h1] at h; cases h
  | ok w1 =>
    rw [h1, bind_ok] at h
    cases h2 : loadBox (setPadding env) s.padding w1 with
    | error u => rw [h2] at h; cases h
    | ok w2 => rw [h2, bind_ok] at h; exact ⟨w1, w2, rfl, h2, h⟩

theorem start_form {env : Env} {s : Settings} {data : List Nat} {decode : Option Bool} {w : Window}
    (h : startWindow env s data decode = .ok w) :
    ∃ w1 w2 w3 w4, loadBox setTags s.tags bareWindow = .ok w1 ∧
      loadBox (setPadding env) s.padding w1 = .ok w2 ∧
      loadBox (fun b w => .ok (setDecode b w)) s.decode w2 = .ok w3 ∧
      loadText env data w3 = .ok w4 ∧ loadBox (fun b w => .ok (setDecode b w)) decode w4 = .ok w := by
  unfold startWindow at h
  cases h1 : loadSettings env s bareWindow with
  | error u => rw [h1] at h; cases h
  | ok w3 =>
    rw [h1, bind_ok] at h
    obtain ⟨w1, w2, a, b, c⟩ := loadSettings_form h1
    cases h2 : loadText env data w3 with
    | error u => rw [h2] at h; cases h
    | ok w4 => rw [h2, bind_ok] at h; exact ⟨w1, w2, w3, w4, a, b, c, h2, h⟩

theorem inv_loadBox {env : Env} {set : Bool → Window → C Window}
    (hs : ∀ b w w', Inv env w → set b w = .ok w' → Inv env w') {saved : Option Bool} {w w' : Window}
    (hi : Inv env w) (h : loadBox set saved w = .ok w') : Inv env w' := by
  unfold loadBox at h
  cases saved with
  | none => cases h; exact hi
  | some b => exact hs b w w' hi h

theorem inv_start {env : Env} {s : Settings} {data : List Nat} {decode : Option Bool} {w : Window}
    (h : startWindow env s data decode = .ok w) : Inv env w := by
  obtain ⟨w1, w2, w3, w4, a, b, c, d, e⟩ := start_form h
  have hdec : ∀ b (w w' : Window), Inv env w → (.ok (setDecode b w) : C Window) = .ok w' → Inv env w' := by
    intro b w w' hi h; cases h; exact inv_decode hi
  have i1 := inv_loadBox (fun _ _ _ hi h => inv_tags hi h) (inv_bare env) a
  have i2 := inv_loadBox (fun _ _ _ hi h => inv_padding hi h) i1 b
  have i3 := inv_loadBox hdec i2 c
  have i4 : Inv env w4 := by
    unfold loadText at d
    split at d
    · cases d; exact i3
    · exact inv_step _ i3 d
  exact inv_loadBox hdec i4 e

/-! ## Definedness -/

theorem highlight_ok (h : Highlighter) (d : Option BlockData) (text : List Nat)
    (hn : ∀ c ∈ text, c ≤ 0xFF) (hk : h.berStrLen = none → d = none) :
    ∃ xs, highlightBlock h d text = .ok xs := by
  cases d with
  | none => exact ⟨_, rfl⟩
  | some d =>
    cases hb : h.berStrLen with
    | none => exact absurd (hk hb) (by simp)
    | some ber =>
      obtain ⟨xs, h1, -⟩ := highlight_get h d ber hb text hn
      exact ⟨xs, h1⟩

theorem narrow_of {blocks : List (List Nat)} (hn : ∀ c ∈ blocks.flatten, c ≤ 0xFF) :
    Narrow (ink blocks.flatten) := by
  intro u c w e _
  have : c ∈ ink blocks.flatten := by rw [e]; simp
  exact hn c (List.mem_filter.mp this).1

theorem highlightAll_safe (h : Highlighter) (blocks : List (List Nat)) (ds : List (Option BlockData))
    (hn : ∀ c ∈ blocks.flatten, c ≤ 0xFF) (hk : h.berStrLen = none → ∀ d ∈ ds, d = none) :
    ∃ fs, highlightAll h blocks ds = .ok fs := by
  apply highlightAll_ok
  intro before b after e
  apply highlight_ok
  · intro c hc
    apply hn
    rw [e]
    simp [hc]
  · intro hb
    cases hx : ds[before.length]? with
    | none => rfl
    | some d => exact hk hb d (List.mem_of_getElem? hx)

end Verif.Viewer
