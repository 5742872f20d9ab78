import Verif.ViewerProps
import Verif.ViewerLookLemmas

/-!
# The text of the viewer: C119 and C120

`Begins` (ViewerTextSpec) says which data a text stands for, `Reading` (ViewerSpec) how they are
read, `Appears` how a character appears.
-/

set_option autoImplicit false

namespace Verif.Viewer
open Verif Ber BerSpec PrintSpec ViewerSpec Print TlvInfo Formats

/-! ## C119 -/

/-- **C119.**  Every text stands for exactly one byte string. -/
theorem C119_every_text (blocks : List (List Nat)) :
    (∃ data, Begins (ink blocks.flatten) data) ∧
    ∀ data data', Begins (ink blocks.flatten) data → Begins (ink blocks.flatten) data' → data = data' :=
  ⟨begins_exists _, fun _ _ => begins_unique⟩

theorem populate_empty (env : Env) (t : Tree) :
    populateItems env [] t = .ok ({ t with items := [] }, 0) := rfl

/-- **C119.**  The tree is that of the data of the text, and the last item is the rest of the text
(white space left out) behind the bytes read, if there is one. -/
theorem C119_text_partial (env : Env) (blocks : List (List Nat)) (t : Tree) (data : List Byte)
    (hb : Begins (ink blocks.flatten) data) (hn : Narrow (ink blocks.flatten)) (t' : Tree) (n : Nat)
    (hp : populateItems env data t = .ok (t', n)) :
    showText env blocks t = .ok (t',
      if 2 * n < (ink blocks.flatten).length then some ((ink blocks.flatten).drop (2 * n)) else none) := by
  unfold showText
  simp only
  by_cases he : (toPlainText blocks).isEmpty = true
  · rw [if_pos he]
    have h0 := plain_empty blocks he
    rw [h0] at hb ⊢
    obtain ⟨-, -, h3, -⟩ := begins_take hb
    have : data = [] := List.length_eq_zero_iff.mp (by simp at h3; omega)
    subst this
    rw [populate_empty] at hp
    simp only [Except.ok.injEq, Prod.mk.injEq] at hp
    obtain ⟨rfl, rfl⟩ := hp
    rfl
  · rw [if_neg he, withoutSpace_eq, ink_plain, hexPrefix_eq _ hn]
    simp only [bind_ok]
    rw [(begins_take hb).1, hp]
    simp only [bind_ok, Nat.mul_comm n 2]

/-- **C119.**  For data that can be described (C116): an item for each row, and what could not be
read as text.  Missing: other data, and characters above 255 (`C119_wide`). -/
theorem C119_rows_partial (env : Env) (he : Sane env) (blocks : List (List Nat)) (t : Tree)
    (data : List Byte) (hb : Begins (ink blocks.flatten) data) (hn : Narrow (ink blocks.flatten))
    (hl : data.length < 2 ^ 31) (rs : List Row) (n : Nat) (ok : Bool)
    (hr : Reading t.ignorePadding data rs n ok) (hd : AllDefinedRows rs) :
    ∃ (f : Row → Item) (rest : Option (List Nat)),
      showText env blocks t = .ok ({ t with items := rs.map f }, rest) ∧
      (∀ r ∈ rs, Shows env t.decodeFields r (f r)) ∧
      (∃ digits, Written digits (data.take n) ∧ ink blocks.flatten = digits ++ rest.getD []) ∧
      (rest = none ↔ (ok = true ∧ Written (ink blocks.flatten) data)) := by
  obtain ⟨f, h1, h2⟩ := C116_texts_partial env he data hl t rs n ok hr hd
  refine ⟨f, _, C119_text_partial env blocks t data hb hn _ n h1, h2, ?_, ?_⟩
  · obtain ⟨-, -, -, hok, hle⟩ := C115_places _ _ _ _ _ hr
    obtain ⟨ds, rest, e, hw, -⟩ := hb
    have key : ∀ (ds : List Nat) (data : List Byte), Written ds data → ∀ n, n ≤ data.length →
        Written (ds.take (2 * n)) (data.take n) := by
      intro ds data hw
      induction hw with
      | nil => intro n hn; simp at hn; subst hn; exact .nil
      | cons ha hb hv h ih =>
        intro n hn
        cases n with
        | zero => exact .nil
        | succ n =>
          rw [show 2 * (n + 1) = 2 * n + 1 + 1 by omega]
          simp only [List.take_succ_cons]
          exact .cons ha hb hv (ih n (by simpa using hn))
    refine ⟨_, key ds data hw n hle, ?_⟩
    have hlen := (written_digits hw).2.1
    have ht : ds.take (2 * n) = (ink blocks.flatten).take (2 * n) := by
      rw [e, List.take_append_of_le_length (by omega)]
    rw [ht]
    split
    · simp
    · rename_i hx
      simp only [Option.getD_none, List.append_nil]
      exact (List.take_of_length_le (by omega)).symm
  · obtain ⟨-, -, -, hok, hle⟩ := C115_places _ _ _ _ _ hr
    obtain ⟨ds, rest, e, hw, hnot⟩ := hb
    have hlen := (written_digits hw).2.1
    have hlen2 : (ink blocks.flatten).length = ds.length + rest.length := by rw [e]; simp
    constructor
    · intro h
      have h : ¬ 2 * n < (ink blocks.flatten).length := by
        intro hc; rw [if_pos hc] at h; cases h
      have hr0 : rest = [] := List.length_eq_zero_iff.mp (by omega)
      exact ⟨hok.mpr (by omega), by rw [e, hr0, List.append_nil]; exact hw⟩
    · rintro ⟨h1, h2⟩
      have := (written_digits h2).2.1
      rw [if_neg]
      have := hok.mp h1
      omega

/-- **C119 is false of other texts**: a character above 255 as the first one that is not a digit is
looked up outside of the table of `isxdigit`, by the window and by the highlighter. -/
theorem C119_wide (env : Env) (blocks : List (List Nat)) (t : Tree) (h : Highlighter)
    (hn : ¬ Narrow (ink blocks.flatten)) :
    showText env blocks t = .error .oobRead ∧ parseBlocks blocks h = .error .oobRead := by
  have hne : ¬ (toPlainText blocks).isEmpty = true := by
    intro he
    rw [plain_empty blocks he] at hn
    exact hn (fun u c w e => by simp at e)
  constructor
  · unfold showText
    simp only
    rw [if_neg hne, withoutSpace_eq, ink_plain, hexPrefix_wide _ hn]
    rfl
  · unfold parseBlocks
    simp only
    have : blocks.map withoutSpace = blocks.map ink := List.map_congr_left (fun b _ => withoutSpace_eq b)
    rw [this, ← ink_flatten, hexPrefix_wide _ hn]
    rfl

/-- "04 01 " and the euro sign. -/
example : ¬ Narrow (ink [[0x30, 0x34, 0x20, 0x30, 0x31], [0x20AC]].flatten) := by
  intro h
  have := h [0x30, 0x34, 0x30, 0x31] 0x20AC [] (by decide) (by
    intro d hd
    rw [← isD_iff]
    revert d
    decide)
  omega

/-- Two lines of digits, an odd digit at the end. -/
example : Begins (ink [[0x30, 0x34, 0x20, 0x30, 0x31], [0x66, 0x46, 0x35]].flatten) [0x04, 0x01, 0xFF] ∧
    Narrow (ink [[0x30, 0x34, 0x20, 0x30, 0x31], [0x66, 0x46, 0x35]].flatten) := by
  have d : ∀ c n, digitVal c = some n → HexDigit c n := fun c n h => (digitVal_iff c n).mp h
  refine ⟨⟨[0x30, 0x34, 0x30, 0x31, 0x66, 0x46], [0x35], by decide, ?_, ?_⟩, ?_⟩
  · exact .cons (d _ 0 rfl) (d _ 4 rfl) rfl (.cons (d _ 0 rfl) (d _ 1 rfl) rfl
      (.cons (d _ 15 rfl) (d _ 15 rfl) rfl .nil))
  · simp
  · intro u c w e _
    have : c ∈ ink [[0x30, 0x34, 0x20, 0x30, 0x31], [0x66, 0x46, 0x35]].flatten := by rw [e]; simp
    clear e
    revert c
    decide

example : (showText noTables [[0x30, 0x34, 0x20, 0x30, 0x31], [0x66, 0x46, 0x35]] newTree).map
      (fun x => (x.1.items.map Item.text, x.2)) =
    .ok ([txt!"04"], some [0x35]) := by decide +kernel

/-! ## C120 -/

/-- Weight, foreground and background of a character. -/
def lookFormat : Look → Bool → Format
  | .plain, false => ⟨false, none, none⟩
  | .plain, true => ⟨false, none, some .base00⟩
  | .invalid, false => ⟨false, some .red, none⟩
  | .invalid, true => ⟨false, some .red, some .base00⟩
  | .notHex, false => ⟨true, none, some .red⟩
  | .notHex, true => ⟨true, some .white, some .base00⟩
  | .tag, false => ⟨true, some .blue, none⟩
  | .tag, true => ⟨true, some .white, some .base00⟩
  | .padding, false => ⟨false, some .darkGray, none⟩
  | .padding, true => ⟨false, some .darkGray, some .base00⟩

/-- The selection is none, or the `l` bytes from `o` on. -/
def Selects (h : Highlighter) : Option (Nat × Nat) → Prop
  | none => h.selCount ≤ 0
  | some (o, l) => h.selStart = (2 * o : Nat) ∧ h.selCount = (2 * l : Nat)

/-- The digit at place `p` is one of the selected bytes. -/
def Chosen (sel : Option (Nat × Nat)) (p : Nat) : Prop :=
  match sel with
  | none => False
  | some (o, l) => InBytes p o l

instance (p o l : Nat) : Decidable (InBytes p o l) := by unfold InBytes; infer_instance

instance (sel : Option (Nat × Nat)) (p : Nat) : Decidable (Chosen sel p) := by
  unfold Chosen; cases sel <;> infer_instance

theorem inBytes_iff (p o l : Nat) : InBytes p o l ↔ 2 * o ≤ p ∧ p < 2 * o + 2 * l := by
  unfold InBytes; omega

theorem filterMap_congr' {α β : Type} {f g : α → Option β} {l : List α} (h : ∀ a ∈ l, f a = g a) :
    l.filterMap f = l.filterMap g := by
  induction l with
  | nil => rfl
  | cons a l ih =>
    simp [List.filterMap_cons, h a (by simp), ih (fun b hb => h b (by simp [hb]))]

theorem consecutive_le (rs : List Row) : ∀ lo hi, Consecutive lo rs hi →
    lo ≤ hi ∧ ∀ r ∈ rs, lo ≤ r.offset ∧ r.offset + r.own ≤ hi := by
  induction rs with
  | nil => intro lo hi h; exact ⟨Nat.le_of_eq h, by simp⟩
  | cons r rs ih =>
    intro lo hi h
    obtain ⟨h1, h2⟩ := ih _ _ h.2
    have := h.1
    refine ⟨by omega, ?_⟩
    intro x hx
    rcases List.mem_cons.mp hx with rfl | hx
    · omega
    · have := h2 x hx
      omega

theorem consecutive_apart (rs : List Row) : ∀ lo hi, Consecutive lo rs hi → ∀ a ∈ rs, ∀ b ∈ rs,
    a = b ∨ a.offset + a.own ≤ b.offset ∨ b.offset + b.own ≤ a.offset := by
  induction rs with
  | nil => intro lo hi _ a ha; simp at ha
  | cons r rs ih =>
    intro lo hi h a ha b hb
    obtain ⟨-, h2⟩ := consecutive_le rs _ _ h.2
    have := h.1
    rcases List.mem_cons.mp ha with ea | ha' <;> rcases List.mem_cons.mp hb with eb | hb'
    · exact .inl (ea.trans eb.symm)
    · subst ea
      have := h2 b hb'
      exact .inr (.inl (by omega))
    · subst eb
      have := h2 a ha'
      exact .inr (.inr (by omega))
    · exact ih _ _ h.2 a ha' b hb'

/-- The tag of a field and all of padding are among its own bytes. -/
theorem located_own {data : List Byte} {r : Row} (h : Located data r) :
    (∀ tag v, r.what = .field tag v → tag.length ≤ r.own ∧ r.offset + tag.length ≤ data.length) ∧
    (∀ b, r.what = .padding b → r.length = r.own ∧ r.offset + r.length ≤ data.length) := by
  constructor
  · intro tag v hw
    unfold Located at h
    rw [hw] at h
    obtain ⟨ht, len, rest, e, hl, -⟩ := h
    have := congrArg List.length e
    simp only [List.length_drop, List.length_append] at this
    have hpos := (isTag_length ht).1
    refine ⟨?_, by omega⟩
    unfold Row.own
    rw [hw]
    simp only
    split <;> omega
  · intro b hw
    unfold Located at h
    rw [hw] at h
    obtain ⟨hne, hl, rest, e⟩ := h
    have := congrArg List.length e
    simp only [List.length_drop, List.length_append] at this
    have hpos := List.length_pos_iff.mpr hne
    refine ⟨?_, by omega⟩
    unfold Row.own
    rw [hw]

/-- **C120.**  No character appears in two ways. -/
theorem C120_one_look (pad : Bool) (data : List Byte) (rs : List Row) (n : Nat) (ok : Bool)
    (hr : Reading pad data rs n ok) (e : Bool) (c p : Nat) (l l' : Look)
    (h : Appears e rs n c p l) (h' : Appears e rs n c p l') : l = l' := by
  obtain ⟨hc, hloc, -⟩ := C115_places _ _ _ _ _ hr
  have tp : ∀ r ∈ rs, ∀ tag v, r.what = .field tag v → InBytes p r.offset tag.length →
      ∀ r' ∈ rs, ∀ b, r'.what = .padding b → InBytes p r'.offset r'.length → False := by
    intro r hr tag v hw hp r' hr' b hw' hp'
    have h1 := (located_own (hloc r hr)).1 tag v hw
    have h2 := (located_own (hloc r' hr')).2 b hw'
    rcases consecutive_apart rs _ _ hc r hr r' hr' with rfl | h | h
    · rw [hw] at hw'; cases hw'
    · unfold InBytes at hp hp'; omega
    · unfold InBytes at hp hp'; omega
  cases h <;> cases h' <;> first | rfl | (exfalso; first | omega | contradiction | skip)
  case tag.padding he h r hr tag v hw hp he' h' r' hr' b hw' hp' => exact tp r hr tag v hw hp r' hr' b hw' hp'
  case padding.tag he' h' r' hr' b hw' hp' he h r hr tag v hw hp => exact tp r hr tag v hw hp r' hr' b hw' hp'
  case tag.plain he h r hr tag v hw hp h' hn =>
    have := hn he r hr
    rw [hw] at this
    exact this hp
  case plain.tag h' hn he h r hr tag v hw hp =>
    have := hn he r hr
    rw [hw] at this
    exact this hp
  case padding.plain he h r hr b hw hp h' hn =>
    have := hn he r hr
    rw [hw] at this
    exact this hp
  case plain.padding h' hn he h r hr b hw hp =>
    have := hn he r hr
    rw [hw] at this
    exact this hp

theorem tagDigits_eq {tag : List Byte} (h : IsTag tag) : tagDigits (beNat tag) = 2 * tag.length := by
  match tag, h with
  | b :: rest, h =>
    rcases h with ⟨h1, rfl⟩ | ⟨h1, h2, more, last, h3, h4, h5⟩
    · have := b.toNat_lt
      simp [tagDigits, beNat]
      omega
    · have hb := b.toNat_lt
      match rest, h2, h3 with
      | [], _, h3 => simp at h3
      | [c], _, _ =>
        have := c.toNat_lt
        have e : beNat [b, c] = b.toNat * 256 + c.toNat := by simp [beNat]
        rw [e]
        unfold tagDigits
        rw [if_neg (by omega), if_pos (by omega)]
        rfl
      | [c, d], _, _ =>
        have := c.toNat_lt
        have := d.toNat_lt
        have e : beNat [b, c, d] = (b.toNat * 256 + c.toNat) * 256 + d.toNat := by simp [beNat]
        rw [e]
        unfold tagDigits
        rw [if_neg (by omega), if_neg (by omega), if_pos (by omega)]
        rfl
      | [c, d, x], _, _ =>
        have := c.toNat_lt
        have := d.toNat_lt
        have := x.toNat_lt
        have e : beNat [b, c, d, x] =
            ((b.toNat * 256 + c.toNat) * 256 + d.toNat) * 256 + x.toNat := by simp [beNat]
        rw [e]
        unfold tagDigits
        rw [if_neg (by omega), if_neg (by omega), if_neg (by omega), if_pos (by omega)]
        rfl

/-- The tags of the rows, in digits. -/
def tagsOf (rs : List Row) : List (Nat × Nat) := rs.filterMap (fun r =>
  match r.what with
  | .field tag _ => some (2 * r.offset, 2 * tag.length)
  | .padding _ => none)

def paddingsOf (rs : List Row) : List (Nat × Nat) := rs.filterMap (fun r =>
  match r.what with
  | .field _ _ => none
  | .padding _ => some (2 * r.offset, 2 * r.length))

/-- What the highlighter keeps of a text. -/
theorem parseBlocks_eq (blocks : List (List Nat)) (h : Highlighter) (data : List Byte)
    (hb : Begins (ink blocks.flatten) data) (hn : Narrow (ink blocks.flatten)) (rs : List Row) (n : Nat)
    (ok : Bool) (hr : Reading h.ignorePadding data rs n ok) :
    parseBlocks blocks h = .ok ({ h with
      berStrLen := some (2 * n), tagPositions := tagsOf rs, paddingPositions := paddingsOf rs },
      blockDatas 0 blocks) := by
  unfold parseBlocks
  simp only
  have : blocks.map withoutSpace = blocks.map ink := List.map_congr_left (fun b _ => withoutSpace_eq b)
  rw [this, ← ink_flatten, hexPrefix_eq _ hn]
  simp only [bind_ok]
  rw [(begins_take hb).1]
  have hloc := reading_located hr
  have hp := parse_reading (ι := Mark)
    (fun _ offset _ t => .ok (Mark.tag (offset * 2) (tagDigits t.tag)))
    (fun _ offset bytes => Mark.padding (offset * 2) (bytes.length * 2))
    (fun _ offset _ tag _ => Mark.tag (offset * 2) (2 * tag.length)) h.ignorePadding data rs n ok hr
    (by
      intro r hm tag v hw o l
      have := hloc r hm
      unfold Located at this
      rw [hw] at this
      simp only [tagDigits_eq this.1])
  rw [hp]
  simp only [bind_ok, Except.ok.injEq, Prod.mk.injEq, Highlighter.mk.injEq, true_and, and_true,
    Option.some.injEq, List.filterMap_map]
  refine ⟨Nat.mul_comm _ _, ?_, ?_⟩
  · unfold tagsOf
    apply filterMap_congr'
    rintro ⟨d, o, l, w⟩ _
    cases w <;> simp [itemOf, Mark.tag?, Nat.mul_comm]
  · unfold paddingsOf
    apply filterMap_congr'
    rintro ⟨d, o, l, w⟩ hm
    cases w with
    | field t v => rfl
    | padding b =>
      have := (hloc _ hm).2.1
      simp only at this
      simp [itemOf, Mark.padding?, Nat.mul_comm, this]

theorem blockDatas_get (before : List (List Nat)) (b : List Nat) (after : List (List Nat)) :
    ∀ s, (blockDatas s (before ++ b :: after))[before.length]? =
      some ⟨s + (ink before.flatten).length, (ink b).length⟩ := by
  induction before with
  | nil => intro s; simp [blockDatas, withoutSpace_eq, ink]
  | cons x xs ih =>
    intro s
    simp only [List.cons_append, blockDatas, List.length_cons, List.getElem?_cons_succ]
    rw [ih, withoutSpace_eq]
    simp [ink_append, Nat.add_assoc]

/-- **C120.**  Everything but white space appears as its place in the data demands; the selected
bytes, and no others, are marked as such.  Missing: white space (`C120_white`), characters above 255
(`C120_wide`), and selections that are not in the data. -/
theorem C120_look_partial (blocks : List (List Nat)) (h : Highlighter) (data : List Byte)
    (hb : Begins (ink blocks.flatten) data) (hn : ∀ c ∈ blocks.flatten, c ≤ 0xFF) (rs : List Row) (n : Nat)
    (ok : Bool) (hr : Reading h.ignorePadding data rs n ok) (sel : Option (Nat × Nat))
    (hs : Selects h sel) (hsel : ∀ s ∈ sel, s.1 + s.2 ≤ data.length) :
    ∃ h' ds, parseBlocks blocks h = .ok (h', ds) ∧ ∀ before b after, blocks = before ++ b :: after →
      ∃ xs, highlightBlock h' ds[before.length]? b = .ok xs ∧ xs.length = b.length ∧
        ∀ u c w, b = u ++ c :: w → ¬ White c →
          ∃ look, Appears h.emphasise rs n c (ink (before.flatten ++ u)).length look ∧
            xs[u.length]? = some (lookFormat look
              (decide (Chosen sel (ink (before.flatten ++ u)).length))) := by
  have hnar : Narrow (ink blocks.flatten) := by
    intro u c w e _
    have : c ∈ ink blocks.flatten := by rw [e]; simp
    exact hn c (List.mem_filter.mp this).1
  refine ⟨_, _, parseBlocks_eq blocks h data hb hnar rs n ok hr, ?_⟩
  intro before b after eb
  subst eb
  rw [blockDatas_get, Nat.zero_add]
  have hnb : ∀ c ∈ b, c ≤ 0xFF := by
    intro c hc
    apply hn
    simp [hc]
  obtain ⟨xs, e1, e2, e3⟩ := highlight_get
    { h with berStrLen := some (2 * n), tagPositions := tagsOf rs, paddingPositions := paddingsOf rs }
    ⟨(ink before.flatten).length, (ink b).length⟩ (2 * n) rfl b hnb
  refine ⟨xs, e1, e2, ?_⟩
  intro u c w e hc
  rw [e3 u c w e]
  obtain ⟨-, -, hL, hdig⟩ := begins_take hb
  obtain ⟨-, hloc, -, -, hle⟩ := C115_places _ _ _ _ _ hr
  have hink : ink (before ++ b :: after).flatten =
      ink before.flatten ++ ink u ++ (c :: (ink w ++ ink after.flatten)) := by
    rw [e]
    simp [ink, hc]
  rw [hink] at hdig hL
  obtain ⟨p1, p2⟩ := place_count _ u _ (2 * data.length) hdig
  simp only [ink_append, List.length_append]
  generalize hk : (ink before.flatten).length + u.countP isD = k at *
  generalize hp : (ink before.flatten).length + (ink u).length = p at *
  have hpu : (ink before.flatten).length ≤ p := by omega
  have hpb : p < (ink before.flatten).length + (ink b).length := by
    rw [e]
    simp [ink, hc]
    simp [ink] at hp
    omega
  -- a digit at each place of the data
  have hcd : p < 2 * data.length → isD c = true := by
    intro hlt
    apply hdig
    rw [List.take_append]
    simp only [List.length_append, hp]
    obtain ⟨m, hm⟩ : ∃ m, 2 * data.length - p = m + 1 := ⟨2 * data.length - p - 1, by omega⟩
    rw [hm]
    simp
  have hkp : ∀ lo len, lo + len ≤ 2 * data.length →
      ((isD c = true ∧ lo ≤ k ∧ k < lo + len) ↔ (lo ≤ p ∧ p < lo + len)) := by
    intro lo len hlo
    by_cases hlt : p < 2 * data.length
    · have := p1 hlt
      have := hcd hlt
      simp only [this, true_and]
      omega
    · have := p2 (by omega)
      omega
  obtain ⟨hcons, -⟩ := C115_places _ _ _ _ _ hr
  have hown := (consecutive_le rs _ _ hcons).2
  -- tags, padding and selection
  have ht : (isD c = true ∧ ∃ q ∈ tagsOf rs, q.1 ≤ k ∧ k < q.1 + q.2) ↔
      ∃ r ∈ rs, ∃ tag v, r.what = .field tag v ∧ InBytes p r.offset tag.length := by
    unfold tagsOf
    constructor
    · rintro ⟨h1, q, hq, h2⟩
      obtain ⟨r, hm, he⟩ := List.mem_filterMap.mp hq
      cases hw : r.what with
      | padding b => rw [hw] at he; cases he
      | field tag v =>
        rw [hw] at he
        simp only [Option.some.injEq] at he
        subst he
        have := ((located_own (hloc r hm)).1 tag v hw).2
        exact ⟨r, hm, tag, v, hw, (inBytes_iff _ _ _).mpr ((hkp _ _ (by omega)).mp ⟨h1, h2⟩)⟩
    · rintro ⟨r, hm, tag, v, hw, hi⟩
      have := ((located_own (hloc r hm)).1 tag v hw).2
      have := (hkp (2 * r.offset) (2 * tag.length) (by omega)).mpr ((inBytes_iff _ _ _).mp hi)
      exact ⟨this.1, (2 * r.offset, 2 * tag.length), List.mem_filterMap.mpr ⟨r, hm, by rw [hw]⟩, this.2⟩
  have hpd : (isD c = true ∧ ∃ q ∈ paddingsOf rs, q.1 ≤ k ∧ k < q.1 + q.2) ↔
      ∃ r ∈ rs, ∃ b, r.what = .padding b ∧ InBytes p r.offset r.length := by
    unfold paddingsOf
    constructor
    · rintro ⟨h1, q, hq, h2⟩
      obtain ⟨r, hm, he⟩ := List.mem_filterMap.mp hq
      cases hw : r.what with
      | field tag v => rw [hw] at he; cases he
      | padding b =>
        rw [hw] at he
        simp only [Option.some.injEq] at he
        subst he
        have := ((located_own (hloc r hm)).2 b hw).2
        exact ⟨r, hm, b, hw, (inBytes_iff _ _ _).mpr ((hkp _ _ (by omega)).mp ⟨h1, h2⟩)⟩
    · rintro ⟨r, hm, b, hw, hi⟩
      have := ((located_own (hloc r hm)).2 b hw).2
      have := (hkp (2 * r.offset) (2 * r.length) (by omega)).mpr ((inBytes_iff _ _ _).mp hi)
      exact ⟨this.1, (2 * r.offset, 2 * r.length), List.mem_filterMap.mpr ⟨r, hm, by rw [hw]⟩, this.2⟩
  have hsl : (isD c = true ∧ h.selStart ≥ -1 ∧ h.selCount > 0 ∧ h.selStart ≤ (k : Nat) ∧
      (k : Int) < h.selStart + h.selCount) ↔ Chosen sel p := by
    unfold Chosen
    match sel, hs, hsel with
    | none, hs, _ =>
      unfold Selects at hs
      simp only [iff_false]
      rintro ⟨-, -, h1, -⟩
      omega
    | some (o, l), hs, hsel =>
      obtain ⟨s1, s2⟩ := hs
      have := hsel (o, l) rfl
      simp only at this
      simp only
      rw [s1, s2, inBytes_iff, ← hkp (2 * o) (2 * l) (by omega)]
      constructor
      · rintro ⟨h1, -, -, h2, h3⟩; exact ⟨h1, by omega, by omega⟩
      · rintro ⟨h1, h2, h3⟩; exact ⟨h1, by omega, by omega, by omega, by omega⟩
  have htn : (∃ r ∈ rs, ∃ tag v, r.what = .field tag v ∧ InBytes p r.offset tag.length) → p < 2 * n := by
    rintro ⟨r, hm, tag, v, hw, hi⟩
    have := ((located_own (hloc r hm)).1 tag v hw).1
    have := (hown r hm).2
    unfold InBytes at hi
    omega
  have hpn : (∃ r ∈ rs, ∃ b, r.what = .padding b ∧ InBytes p r.offset r.length) → p < 2 * n := by
    rintro ⟨r, hm, b, hw, hi⟩
    have := ((located_own (hloc r hm)).2 b hw).1
    have := (hown r hm).2
    unfold InBytes at hi
    omega
  -- the format before tags, padding and selection
  have hbase : (if 2 * n ≥ (ink before.flatten).length + (ink b).length then plainFormat
      else if isD c = true then (if k < 2 * n then plainFormat else invalidFormat) else nonHexFormat) =
      if p < 2 * n then plainFormat else if isD c = true then invalidFormat else nonHexFormat := by
    by_cases hlt : p < 2 * n
    · have h1 := p1 (by omega)
      have h2 := hcd (by omega)
      rw [if_pos hlt, h2]
      split
      · rfl
      · rw [if_pos rfl, if_pos (by omega)]
    · rw [if_neg hlt, if_neg (by omega)]
      by_cases hx : p < 2 * data.length
      · have h1 := p1 hx
        rw [if_neg (c := k < 2 * n) (by omega)]
      · have h1 := p2 (by omega)
        rw [if_neg (c := k < 2 * n) (by omega)]
  unfold charFormat
  simp only [hbase, hsl]
  have fin : ∀ (x : Format) (look : Look), x = lookFormat look false →
      some (if Chosen sel p then selected x else x) = some (lookFormat look (decide (Chosen sel p))) := by
    intro x look hx
    subst hx
    by_cases hch : Chosen sel p
    · cases look <;> simp [hch, lookFormat, selected]
    · simp [hch]
  by_cases h2 : h.emphasise = true ∧ isD c = true ∧ ∃ q ∈ paddingsOf rs, q.1 ≤ k ∧ k < q.1 + q.2
  · rw [if_pos h2]
    have hx := hpd.mp h2.2
    have hlt := hpn hx
    obtain ⟨r, hm, b, hw, hi⟩ := hx
    exact ⟨.padding, .padding h2.1 hlt r hm b hw hi, fin _ _ rfl⟩
  · rw [if_neg h2]
    by_cases h1 : h.emphasise = true ∧ isD c = true ∧ ∃ q ∈ tagsOf rs, q.1 ≤ k ∧ k < q.1 + q.2
    · rw [if_pos h1]
      have hx := ht.mp h1.2
      have hlt := htn hx
      obtain ⟨r, hm, tag, v, hw, hi⟩ := hx
      exact ⟨.tag, .tag h1.1 hlt r hm tag v hw hi, fin _ _ rfl⟩
    · rw [if_neg h1]
      by_cases hlt : p < 2 * n
      · rw [if_pos hlt]
        refine ⟨.plain, .plain hlt ?_, fin _ _ rfl⟩
        intro he r hm
        cases hw : r.what with
        | field tag v => exact fun hi => h1 ⟨he, ht.mpr ⟨r, hm, tag, v, hw, hi⟩⟩
        | padding b => exact fun hi => h2 ⟨he, hpd.mpr ⟨r, hm, b, hw, hi⟩⟩
      · rw [if_neg hlt]
        by_cases hd : isD c = true
        · rw [if_pos hd]
          exact ⟨.invalid, .invalid (by omega) ((isD_iff c).mp hd), fin _ _ rfl⟩
        · rw [if_neg hd]
          exact ⟨.notHex, .notHex (by omega) (fun h => hd ((isD_iff c).mpr h)), fin _ _ rfl⟩

/-- **C120 is false of white space.**  In a line that is not valid to its end it is marked like a
character that is not a digit. -/
theorem C120_white (blocks : List (List Nat)) (h : Highlighter) (data : List Byte)
    (hb : Begins (ink blocks.flatten) data) (hn : ∀ c ∈ blocks.flatten, c ≤ 0xFF) (rs : List Row) (n : Nat)
    (ok : Bool) (hr : Reading h.ignorePadding data rs n ok) :
    ∃ h' ds, parseBlocks blocks h = .ok (h', ds) ∧ ∀ before b after, blocks = before ++ b :: after →
      ∃ xs, highlightBlock h' ds[before.length]? b = .ok xs ∧
        ∀ u c w, b = u ++ c :: w → White c → xs[u.length]? = some (lookFormat
          (if (ink (before.flatten ++ b)).length ≤ 2 * n then .plain else .notHex) false) := by
  have hnar : Narrow (ink blocks.flatten) := by
    intro u c w e _
    have : c ∈ ink blocks.flatten := by rw [e]; simp
    exact hn c (List.mem_filter.mp this).1
  refine ⟨_, _, parseBlocks_eq blocks h data hb hnar rs n ok hr, ?_⟩
  intro before b after eb
  subst eb
  rw [blockDatas_get, Nat.zero_add]
  have hnb : ∀ c ∈ b, c ≤ 0xFF := by
    intro c hc
    apply hn
    simp [hc]
  obtain ⟨xs, e1, e2, e3⟩ := highlight_get
    { h with berStrLen := some (2 * n), tagPositions := tagsOf rs, paddingPositions := paddingsOf rs }
    ⟨(ink before.flatten).length, (ink b).length⟩ (2 * n) rfl b hnb
  refine ⟨xs, e1, ?_⟩
  intro u c w e hc
  have hd : isD c = false := by
    cases hx : isD c with
    | false => rfl
    | true => exact absurd hc (digit_ink hx)
  rw [e3 u c w e, ink_append, List.length_append]
  unfold charFormat
  simp only [hd, Bool.false_eq_true, if_false, false_and, and_false]
  by_cases hx : (ink before.flatten).length + (ink b).length ≤ 2 * n
  · rw [if_pos hx, if_pos hx]; rfl
  · rw [if_neg hx, if_neg hx]; rfl

/-- Characters above 255 that are white space do no harm to the parsing, but emphasis of tags looks
them up: "0400" with an em space. -/
theorem C120_wide :
    ∃ h' ds, parseBlocks [[0x30, 0x34, 0x2003, 0x30, 0x30]] { newHighlighter with emphasise := true } =
      .ok (h', ds) ∧ highlightBlock h' ds[0]? [0x30, 0x34, 0x2003, 0x30, 0x30] = .error .oobRead :=
  ⟨_, _, rfl, rfl⟩

/-- "04000 x" with the first field selected: its tag and length, an odd digit, white space marked as
wrong, and a letter. -/
example : ∃ h' ds, parseBlocks [[0x30, 0x34, 0x30, 0x30, 0x30, 0x20, 0x78]]
      { newHighlighter with emphasise := true, selStart := 0, selCount := 4 } = .ok (h', ds) ∧
    highlightBlock h' ds[0]? [0x30, 0x34, 0x30, 0x30, 0x30, 0x20, 0x78] =
      .ok [lookFormat .tag true, lookFormat .tag true, lookFormat .plain true, lookFormat .plain true,
        lookFormat .invalid false, lookFormat .notHex false, lookFormat .notHex false] :=
  ⟨_, _, rfl, rfl⟩

end Verif.Viewer
