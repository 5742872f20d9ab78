import Verif.ViewerProps
import Verif.PrintProps

/-!
# The viewer and `emv-decode` agree (C141)

Both programs take data apart by themselves: `print_ber_buf` and `print_emv_buf`
(tools/print_helpers.c:339-668) write lines, `EmvTreeView` (viewer/emvtreeview.cpp) makes items.
-/

set_option autoImplicit false

namespace Verif.Agree
open Verif Ber BerSpec PrintSpec ViewerSpec Print TlvInfo Formats Viewer

/-! ## Specification -/

/-- The lines of a row, where `line` gives those of a field at a depth. -/
def rowText (line : Nat → List Byte → List Byte → List Byte) (pfx : List Byte) (r : Row) : List Byte :=
  match r.what with
  | .field tag v => line r.depth tag v
  | .padding bytes => indentation pfx r.depth ++ txt!"Padding : [" ++ Lists.decimal bytes.length ++ txt!"]" ++
      spacedHex bytes ++ [0x0A]

/-- What follows the lines: nothing if all data were read, otherwise where they could not and the rest. -/
def Closes (data : List Byte) (n : Nat) (tail : List Byte) : Prop :=
  if n = data.length then tail = []
  else ∃ bad c, bad ≠ [] ∧ bad <+: data.drop n ∧ Refused bad c ∧
    tail = txt!"BER decoding error " ++ signed c ++ txt!" at offset " ++ Lists.decimal n ++ txt!"; remaining invalid data:" ++ spacedHex (data.drop n) ++ [0x0A]

/-- No row is padding of fifteen bytes, about which the programs disagree (`C117_fifteen`). -/
def NoFifteen (rs : List Row) : Prop := ∀ r ∈ rs, ∀ b, r.what = .padding b → b.length ≠ 15

/-! ## Proofs -/

theorem text_rows (line : Nat → List Byte → List Byte → List Byte) (pfx : List Byte) (d : Doc) :
    ∀ depth offset, d.text line pfx depth = (rows depth offset d).flatMap (rowText line pfx) := by
  induction d with
  | nil => intro _ _; rfl
  | padding b => intro depth offset; simp [Doc.text, rows, rowText]
  | prim hdr tag value rest ih =>
    intro depth offset
    rw [Doc.text, rows, List.flatMap_cons, ← ih]; rfl
  | node hdr tag ch rest ih1 ih2 =>
    intro depth offset
    rw [Doc.text, rows, List.flatMap_cons, List.flatMap_append, ← ih1, ← ih2, List.append_assoc]; rfl

/-- The code with which the data are refused. -/
def codeOf : Path → Int
  | .stop _ _ c => c
  | .into _ _ _ p _ => codeOf p

theorem text_rowsTo (line : Nat → List Byte → List Byte → List Byte) (pfx : List Byte) (p : Path) :
    ∀ depth offset, p.text line pfx depth = (rowsTo depth offset p).flatMap (rowText line pfx) ++
      txt!"BER decoding error " ++ signed (codeOf p) := by
  induction p with
  | stop d bad c => intro depth offset; rw [Path.text, rowsTo, ← text_rows]; rfl
  | into d hdr tag q a ih =>
    intro depth offset
    rw [Path.text, rowsTo, List.flatMap_append, List.flatMap_cons, ← text_rows, ih]
    simp only [List.append_assoc]
    rfl

theorem rule {n k : Nat} (h : ViewerSpec.PadRule n k) (h15 : k ≠ 15) : PrintSpec.PadRule n k := by
  unfold ViewerSpec.PadRule at h
  unfold PrintSpec.PadRule
  omega

theorem rule' {n k : Nat} (h : PrintSpec.PadRule n k) : ViewerSpec.PadRule n k := by
  unfold PrintSpec.PadRule at h
  unfold ViewerSpec.PadRule
  omega

theorem wf_of_fits (pad : Bool) (d : Doc) : ∀ n tail depth offset, Fits pad n d tail →
    NoFifteen (rows depth offset d) → d.WF pad n tail := by
  induction d with
  | nil => intro _ _ _ _ _ _; exact trivial
  | padding b =>
    intro n tail depth offset h h15
    obtain ⟨h1, h2, h3, h4, h5⟩ := h
    exact ⟨h1, h2, h3, h4, rule h5 (h15 _ (List.mem_singleton.2 rfl) b rfl)⟩
  | prim hdr tag value rest ih =>
    intro n tail depth offset h h15
    rw [rows] at h15
    exact ⟨h.1, h.2.1, ih n tail depth _ h.2.2 fun r hr => h15 r (List.mem_cons_of_mem _ hr)⟩
  | node hdr tag ch rest ih1 ih2 =>
    intro n tail depth offset h h15
    rw [rows] at h15
    exact ⟨h.1, h.2.1,
      ih1 _ [] (depth + 1) _ h.2.2.1 fun r hr => h15 r (List.mem_cons_of_mem _ (List.mem_append_left _ hr)),
      ih2 n tail depth _ h.2.2.2 fun r hr => h15 r (List.mem_cons_of_mem _ (List.mem_append_right _ hr))⟩

theorem wf_of_leads (pad : Bool) (p : Path) : ∀ n depth offset, Leads pad n p →
    NoFifteen (rowsTo depth offset p) → p.WF pad n := by
  induction p with
  | stop d bad c =>
    intro n depth offset h h15
    exact ⟨wf_of_fits pad d n bad depth offset h.1 h15, h.2.1, h.2.2.1,
      fun h' => h.2.2.2 ⟨h'.1, rule' h'.2⟩⟩
  | into d hdr tag q a ih =>
    intro n depth offset h h15
    rw [rowsTo] at h15
    exact ⟨wf_of_fits pad d n _ depth offset h.1 fun r hr => h15 r (List.mem_append_left _ hr), h.2.1, h.2.2.1,
      ih _ (depth + 1) _ h.2.2.2 fun r hr => h15 r (List.mem_append_right _ (List.mem_cons_of_mem _ hr))⟩

theorem all_of_rows (P : List Byte → List Byte → Prop) (d : Doc) : ∀ depth offset,
    (∀ r ∈ rows depth offset d, ∀ tag v, r.what = .field tag v → P tag v) →
    d.All (fun _ => P) depth := by
  induction d with
  | nil => intro _ _ _; exact trivial
  | padding b => intro _ _ _; exact trivial
  | prim hdr tag value rest ih =>
    intro depth offset h
    rw [rows] at h
    exact ⟨h _ (List.mem_cons_self ..) _ _ rfl, ih _ _ fun r hr => h r (List.mem_cons_of_mem _ hr)⟩
  | node hdr tag ch rest ih1 ih2 =>
    intro depth offset h
    rw [rows] at h
    exact ⟨h _ (List.mem_cons_self ..) _ _ rfl,
      ih1 _ _ fun r hr => h r (List.mem_cons_of_mem _ (List.mem_append_left _ hr)),
      ih2 _ _ fun r hr => h r (List.mem_cons_of_mem _ (List.mem_append_right _ hr))⟩

theorem all_of_rowsTo (P : List Byte → List Byte → Prop) (p : Path) : ∀ depth offset,
    (∀ r ∈ rowsTo depth offset p, ∀ tag v, r.what = .field tag v → P tag v) →
    p.All (fun _ => P) depth := by
  induction p with
  | stop d bad c => intro depth offset h; exact all_of_rows P d depth offset h
  | into d hdr tag q a ih =>
    intro depth offset h
    rw [rowsTo] at h
    exact ⟨all_of_rows P d _ _ fun r hr => h r (List.mem_append_left _ hr),
      h _ (List.mem_append_right _ (List.mem_cons_self ..)) _ _ rfl,
      ih _ _ fun r hr => h r (List.mem_append_right _ (List.mem_cons_of_mem _ hr))⟩

theorem refused_at (p : Path) : ∀ pad n, p.WF pad n → ∃ bad, bad ≠ [] ∧ bad <+: p.invalid ∧ Refused bad (codeOf p) := by
  induction p with
  | stop d bad c => intro pad n h; exact ⟨bad, h.2.1, List.prefix_rfl, h.2.2.1⟩
  | into d hdr tag q a ih =>
    intro pad n h
    obtain ⟨bad, h1, h2, h3⟩ := ih pad _ h.2.2.2
    exact ⟨bad, h1, h2.trans (List.prefix_append ..), h3⟩

theorem offset_eq (p : Path) : p.enc.length = p.offset + p.invalid.length ∧ p.enc.drop p.offset = p.invalid := by
  have h1 := Path.drop_offset p (Path.offset_le p)
  have h2 := Path.offset_le p
  have h3 := congrArg List.length h1
  rw [List.length_drop] at h3
  exact ⟨by omega, h1⟩

/-- Whether a field is defined does not depend on what is in the array for its description. -/
theorem defined_iff (loc : Nat → List Byte → List Byte) (hl : ∀ t v, (loc t v).length = 2048) (tag v : List Byte) :
    Defined blank tag v ↔ Defined loc tag v := by
  unfold Defined Undefined
  have h1 := hl (beNat tag) v
  have h2 : (blank (beNat tag) v).length = 2048 := List.length_replicate
  have h3 : loc (beNat tag) v ≠ [] := by intro h; rw [h] at h1; cases h1
  have h4 : blank (beNat tag) v ≠ [] := by intro h; rw [h] at h2; cases h2
  simp only [h1, h2, h3, h4, ne_eq, not_false_eq_true]

theorem info_same {env : Env} {tag : Nat} {v str str' out out' : List Byte} {c c' : Int} {i i' : Info}
    (h : getInfo env tag v str = .ok (c, i, out)) (h' : getInfo env tag v str' = .ok (c', i', out')) : i = i' := by
  by_cases ht : Shared tag
  · rw [getInfo_eq, byTag] at h h'
    have un : ∀ {s s'}, unnamed s = .ok (c, i, out) → unnamed s' = .ok (c', i', out') → i = i' := by
      intro s s' h h'; cases h; cases h'; rfl
    have na : ∀ {n f r r'}, named n f r = .ok (c, i, out) → named n f r' = .ok (c', i', out') → i = i' := by
      intro n f r r' h h'; rw [(named_inv h).2, (named_inv h').2]
    by_cases a1 : tag = 0x9F66
    · rw [if_pos a1] at h h'
      by_cases b : v.length = 4
      · rw [if_pos b] at h h'; exact na h h'
      · rw [if_neg b] at h h'; exact un h h'
    rw [if_neg a1] at h h'
    by_cases a2 : tag = 0x9F6D
    · rw [if_pos a2] at h h'
      by_cases b : v.length = 1
      · rw [if_pos b] at h h'; exact na h h'
      · rw [if_neg b] at h h'; exact un h h'
    rw [if_neg a2] at h h'
    have a3 : tag = 0x9F6E := by
      rcases ht with ht | ht | ht
      · exact absurd ht a1
      · exact absurd ht a2
      · exact ht
    rw [if_pos a3, tag9F6E] at h h'
    by_cases b : v.length > 4 ∧ v.length ≤ 32
    · rw [if_pos b] at h h'; exact na h h'
    rw [if_neg b] at h h'
    by_cases b : v.length = 4
    · rw [if_pos b, fourBytes9F6E] at h h'
      cases hi : isFfi v with
      | error e => rw [hi] at h; cases h
      | ok b =>
        rw [hi, bind_ok] at h h'
        cases b
        · simp only [Bool.false_eq_true, if_false] at h h'
          cases hj : isEnhCaps v with
          | error e => rw [hj] at h; cases h
          | ok b =>
            rw [hj, bind_ok] at h h'
            cases b
            · exact un h h'
            · exact na h h'
        · exact na h h'
    · rw [if_neg b] at h h'; exact un h h'
  · exact C83_by_tag env env tag ht v v str str' c c' i i' out out' h h'

theorem name_same (env : Env) (he : Sane env) (loc : Nat → List Byte → List Byte)
    (hl : ∀ t v, (loc t v).length = 2048) (tag v : List Byte) (h : Defined blank tag v) :
    (known env blank tag v).name = (known env loc tag v).name := by
  obtain ⟨c, i, o, e, -⟩ := C84_safe_partial env he (beNat tag) v _ h.1
  obtain ⟨c', i', o', e', -⟩ := C84_safe_partial env he (beNat tag) v _ ((defined_iff loc hl tag v).1 h).1
  have := info_same e e'
  unfold known
  rw [e, e', this]

/-- Both kinds of listing. -/
theorem listed (line : Nat → List Byte → List Byte → List Byte) (pfx : List Byte) (P : List Byte → List Byte → Prop)
    (f : List Byte → C (List Byte)) (pad : Bool)
    (hdoc : ∀ d : Doc, d.enc.length < 2 ^ 31 → d.WF pad d.enc.length [] → d.All (fun _ => P) 0 →
      f d.enc = .ok (d.text line pfx 0))
    (hpath : ∀ p : Path, p.enc.length < 2 ^ 31 → p.WF pad p.enc.length → p.All (fun _ => P) 0 →
      f p.enc = .ok (p.text line pfx 0 ++ txt!" at offset " ++ Lists.decimal p.offset ++
        txt!"; remaining invalid data:" ++ spacedHex p.invalid ++ [0x0A]))
    (data : List Byte) (hlen : data.length < 2 ^ 31) (rs : List Row) (n : Nat) (ok : Bool)
    (h : Reading pad data rs n ok) (h15 : NoFifteen rs)
    (hP : ∀ r ∈ rs, ∀ tag v, r.what = .field tag v → P tag v) :
    ∃ tail, f data = .ok (rs.flatMap (rowText line pfx) ++ tail) ∧ Closes data n tail := by
  cases h with
  | whole d hf he =>
    subst he
    refine ⟨[], ?_, by rw [Closes, if_pos rfl]⟩
    rw [List.append_nil, ← text_rows]
    exact hdoc d hlen (wf_of_fits pad d _ _ 0 0 hf h15) (all_of_rows P d 0 0 hP)
  | upTo p hf he =>
    subst he
    have hw := wf_of_leads pad p _ 0 0 hf h15
    obtain ⟨e1, e2⟩ := offset_eq p
    obtain ⟨bad, b1, b2, b3⟩ := refused_at p pad _ hw
    have hne : p.offset ≠ p.enc.length := by
      intro h
      have : p.invalid.length = 0 := by omega
      rw [List.length_eq_zero_iff] at this
      rw [this] at b2
      exact b1 (List.prefix_nil.1 b2)
    refine ⟨txt!"BER decoding error " ++ signed (codeOf p) ++ txt!" at offset " ++ Lists.decimal p.offset ++
      txt!"; remaining invalid data:" ++ spacedHex p.invalid ++ [0x0A], ?_, ?_⟩
    rotate_left
    · rw [Closes, if_neg hne, e2]
      exact ⟨bad, _, b1, b2, b3, rfl⟩
    · rw [hpath p hlen hw (all_of_rowsTo P p 0 0 hP), text_rowsTo line pfx p 0 0]
      simp only [List.append_assoc]

/-! ## C141 -/

/-- **C141.**  The listing of BER data has the lines of the rows that the viewer shows, in the same
order and as deep, and gives up at the same byte.  Missing: fifteen bytes of padding (`C117_fifteen`)
and object identifiers that cannot be shown (`C141_oid`). -/
theorem C141_ber_partial (loc pfx : List Byte) (hl : loc.length = 1024) (pad : Bool) (data : List Byte)
    (hlen : data.length < 2 ^ 31) (rs : List Row) (n : Nat) (ok : Bool) (h : Reading pad data rs n ok)
    (h15 : NoFifteen rs) (hoid : ∀ r ∈ rs, ∀ v, r.what = .field [0x06] v → OidOk v) :
    ∃ tail, berBuf loc pfx pad 0 data = .ok (rs.flatMap (rowText (berLine pfx) pfx) ++ tail) ∧
      Closes data n tail :=
  listed (berLine pfx) pfx (OidsOk 0) (berBuf loc pfx pad 0) pad
    (fun d h1 h2 h3 => C89_listing_partial loc pfx pad 0 d hl h1 h2 h3)
    (fun p h1 h2 h3 => (C90_error_partial loc pfx pad 0 p hl h1 h2 h3).2.2.2)
    data hlen rs n ok h h15 (fun r hr _ v hw ht => hoid r hr v (ht ▸ hw))

/-- **C141.**  The listing of EMV data has the lines of the rows for which the tree view has items, in
the same order, as deep and with the same names, and gives up at the same byte.  Missing: fifteen
bytes of padding (`C117_fifteen`) and fields whose description is not defined (`C92_undefined`,
`C116_undefined`). -/
theorem C141_emv_partial (env : Env) (he : Sane env) (loc : Nat → List Byte → List Byte)
    (hl : ∀ t v, (loc t v).length = 2048) (pfx : List Byte) (t : Tree) (data : List Byte)
    (hlen : data.length < 2 ^ 31) (rs : List Row) (n : Nat) (ok : Bool)
    (h : Reading t.ignorePadding data rs n ok) (h15 : NoFifteen rs) (hd : AllDefinedRows rs) :
    ∃ (f : Row → Item) (tail : List Byte),
      populateItems env data t = .ok ({ t with items := rs.map f }, n) ∧
      emvBuf env loc pfx t.ignorePadding 0 data = .ok (rs.flatMap (rowText (emvLine env loc pfx) pfx) ++ tail) ∧
      Closes data n tail ∧
      ∀ r ∈ rs, (f r).depth = r.depth ∧ (f r).offset = r.offset ∧ (f r).length = r.length ∧
        ∀ tag v, r.what = .field tag v →
          (t.decodeFields = true → titled tag (f r).name <+: (f r).text) ∧
          indentation pfx (f r).depth ++ titled tag (f r).name ++ txt!" : [" <+: rowText (emvLine env loc pfx) pfx r := by
  obtain ⟨f, h1, h2⟩ := C116_texts_partial env he data hlen t rs n ok h hd
  obtain ⟨tail, h3, h4⟩ := listed (emvLine env loc pfx) pfx (Defined loc) (emvBuf env loc pfx t.ignorePadding 0)
    t.ignorePadding (fun d h1 h2 h3 => C92_listing_partial env he loc hl pfx _ 0 d h1 h2 h3)
    (fun p h1 h2 h3 => C92_error_partial env he loc hl pfx _ 0 p h1 h2 h3)
    data hlen rs n ok h h15 (fun r hr tag v hw => (defined_iff loc hl tag v).1 (hd r hr tag v hw))
  refine ⟨f, tail, h1, h3, h4, fun r hr => ?_⟩
  obtain ⟨s1, s2, s3, s4⟩ := h2 r hr
  refine ⟨s1, s2, s3, fun tag v hw => ?_⟩
  have hn := name_same env he loc hl tag v (hd r hr tag v hw)
  rw [hw] at s4
  obtain ⟨n1, n2, -⟩ := s4
  constructor
  · intro hdec
    rw [n2, if_pos hdec, n1, namedText]
    exact List.prefix_append ..
  · have e : rowText (emvLine env loc pfx) pfx r = emvLine env loc pfx r.depth tag v := by rw [rowText, hw]
    rw [e, emvLine, n1, hn, s1]
    exact ((List.prefix_append ..).trans (List.prefix_append ..)).trans (List.prefix_append ..)

/-- **C141 is false of object identifiers that cannot be shown**: the viewer reads all of these data,
the field in the container and the one after it, where the listing gives an error in the midst of a line. -/
theorem C141_oid (loc : List Byte) :
    Reading false [0x30, 0x02, 0x06, 0x00, 0x04, 0x00]
      [⟨0, 0, 4, .field [0x30] [0x06, 0x00]⟩, ⟨1, 2, 2, .field [0x06] []⟩, ⟨0, 4, 2, .field [0x04] []⟩] 6 true ∧
    berBuf loc txt!"  " false 0 [0x30, 0x02, 0x06, 0x00, 0x04, 0x00] =
      .ok (txt!"30 : [2]" ++ [0x0A] ++ txt!"  06 : [0]BER decoding error -104 : [0]" ++ [0x0A]) :=
  ⟨.whole (.node [0x30, 0x02] [0x30] (.prim [0x06, 0x00] [0x06] [] .nil) (.prim [0x04, 0x00] [0x04] [] .nil))
    ⟨⟨.inl ⟨by decide, rfl⟩, by decide, by decide +kernel⟩, by decide,
      ⟨⟨.inl ⟨by decide, rfl⟩, by decide, by decide +kernel⟩, by decide, trivial⟩,
      ⟨.inl ⟨by decide, rfl⟩, by decide, by decide +kernel⟩, by decide, trivial⟩ rfl,
    C89_bad_oid loc⟩

/-- A record with a field in it, and a second field that is cut short. -/
theorem sample_reading : Reading false [0x70, 0x03, 0x5A, 0x01, 0x12, 0x9F, 0x02, 0x06]
    [⟨0, 0, 5, .field [0x70] [0x5A, 0x01, 0x12]⟩, ⟨1, 2, 3, .field [0x5A] [0x12]⟩] 5 false :=
  .upTo (.stop (.node [0x70, 0x03] [0x70] (.prim [0x5A, 0x01] [0x5A] [0x12] .nil) .nil) [0x9F, 0x02, 0x06] (-11))
    ⟨⟨⟨.inl ⟨by decide, rfl⟩, by decide, by decide +kernel⟩, by decide,
      ⟨⟨.inl ⟨by decide, rfl⟩, by decide, by decide +kernel⟩, by decide, trivial⟩, trivial⟩, by decide,
      by unfold Refused; decide +kernel, fun h => nomatch h.1⟩ rfl

example : NoFifteen [⟨0, 0, 5, .field [0x70] [0x5A, 0x01, 0x12]⟩, ⟨1, 2, 3, .field [0x5A] [0x12]⟩] := by
  intro r hr b hw
  simp only [List.mem_cons, List.not_mem_nil, or_false] at hr
  rcases hr with rfl | rfl <;> cases hw

example : AllDefinedRows [⟨0, 0, 5, .field [0x70] [0x5A, 0x01, 0x12]⟩, ⟨1, 2, 3, .field [0x5A] [0x12]⟩] := by
  intro r hr tag v hw
  simp only [List.mem_cons, List.not_mem_nil, or_false] at hr
  rcases hr with rfl | rfl <;> cases hw <;>
    exact ⟨by unfold Undefined; simp [beNat], by decide +kernel⟩

example (loc : List Byte) : berBuf loc txt!"  " false 0 [0x70, 0x03, 0x5A, 0x01, 0x12, 0x9F, 0x02, 0x06] =
    .ok (txt!"70 : [3]" ++ [0x0A] ++ txt!"  5A : [1] 12" ++ [0x0A] ++
      txt!"BER decoding error -11 at offset 5; remaining invalid data: 9F 02 06" ++ [0x0A]) := by
  rfl

end Verif.Agree
