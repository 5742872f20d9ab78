import Verif.ViewerTextLemmas
import Verif.PrintEmvProps

/-!
# The tree view: C115 to C118

`Reading` (ViewerSpec) is how data are read, `Shows` what an item displays of a row.
-/

set_option autoImplicit false

namespace Verif.Viewer
open Verif Ber BerSpec PrintSpec ViewerSpec Print TlvInfo Formats

/-! ## What an item displays -/

/-- What is listed below the bytes of a primitive field. -/
def ListsBelow (decode : Bool) (k : Known) (v : List Byte) (ds : List Detail) : Prop :=
  if k.shown.getLast? = some 0x0A then ∃ t, Trimmed k.shown t ∧ ds = [⟨t, [], !decode⟩]
  else match k.fmt with
    | .dol => ds = [⟨txt!"Data Object List:", (reqs v).map (fun r =>
        titled r.tag (nameFor r.tag r.len.toNat) ++ txt!" [" ++ Lists.decimal r.len.toNat ++ txt!"]"),
        !decode⟩]
    | .tagList => ds = [⟨txt!"Tag List:", (tags v).map (fun t => titled t (nameFor t 0)), !decode⟩]
    | _ => ds = []

/-- Item `i` displays row `r`; `decode` is whether fields are to be decoded. -/
def Shows (env : Env) (decode : Bool) (r : Row) (i : Item) : Prop :=
  i.depth = r.depth ∧ i.offset = r.offset ∧ i.length = r.length ∧
  match r.what with
  | .padding bytes => i.name = none ∧ i.text = txt!"Padding : " ++ counted bytes ∧ i.details = []
  | .field tag v =>
    i.name = (known env blank tag v).name ∧
    i.text = (if decode then namedText (known env blank tag v) tag else plainText tag v) ∧
    (if IsConstructed tag then i.details = []
     else ∃ ds, i.details = ⟨counted v, [], !decode⟩ :: ds ∧
      ListsBelow decode (known env blank tag v) v ds)

theorem moreDetails_eq (k : Known) (v str : List Byte) (h : 0 ∈ str)
    (hs : str.takeWhile (· ≠ 0) = k.shown)
    (hd : k.fmt = .dol → ∀ r ∈ reqs v, ¬ (r.tag = [0x84] ∧ r.len = 14)) (decode : Bool) :
    ∃ ds, moreDetails k.fmt v str = .ok ds ∧
      ListsBelow decode k v (ds.map (fun d => { d with hidden := !decode })) := by
  unfold moreDetails ListsBelow
  rw [valueStrIsList_eq str h, hs]
  simp only [bind_ok, decide_eq_true_eq]
  by_cases h1 : k.shown.getLast? = some 0x0A
  · simp only [if_pos h1]
    refine ⟨_, rfl, trimmed k.shown, trimmed_spec _, ?_⟩
    simp only [stringList, takeWhile_take str h, hs, List.map_cons, List.map_nil]
  · simp only [if_neg h1]
    cases hf : k.fmt with
    | dol =>
      have := dolEntries_eq v.length (v.length + 1) v (Nat.le_refl _) (by omega) (hd hf)
      simp only [dolDetail, this, bind_ok]
      exact ⟨_, rfl, rfl⟩
    | tagList =>
      have := tagEntries_eq v.length (v.length + 1) v (Nat.le_refl _) (by omega)
      simp only [tagDetail, this, bind_ok]
      exact ⟨_, rfl, rfl⟩
    | _ => exact ⟨_, rfl, rfl⟩

theorem dol_tags (env : Env) (tag v str : List Byte) (c : Int) (info : Info) (out : List Byte)
    (ht : IsTag tag) (hg : getInfo env (beNat tag) v str = .ok (c, info, out)) (hf : info.fmt = .dol) :
    tag ∈ [[0x8C], [0x8D], [0x9F, 0x38], [0x9F, 0x49]] := by
  have := (C83_lists env (beNat tag) v _ c info out hg).1.mp hf
  have e1 := tag_eq_iff ht (isTag_one 0x8C (by decide))
  have e2 := tag_eq_iff ht (isTag_one 0x8D (by decide))
  have e3 := tag_eq_iff ht (isTag_9F 0x38 (by decide))
  have e4 := tag_eq_iff ht (isTag_9F 0x49 (by decide))
  have n1 : beNat [0x8C] = 0x8C := rfl
  have n2 : beNat [0x8D] = 0x8D := rfl
  have n3 : beNat [0x9F, 0x38] = 0x9F38 := rfl
  have n4 : beNat [0x9F, 0x49] = 0x9F49 := rfl
  rw [n1] at e1; rw [n2] at e2; rw [n3] at e3; rw [n4] at e4
  simp only [List.mem_cons, List.not_mem_nil, or_false] at this ⊢
  rwa [e1, e2, e3, e4] at this

theorem colon (X : List Byte) : txt!" : [" ++ X = txt!" : " ++ (txt!"[" ++ X) := rfl

theorem padding_colon (X : List Byte) : txt!"Padding : " ++ X = txt!"Padding" ++ (txt!" : " ++ X) :=
  rfl

theorem fieldItem_shows (env : Env) (he : Sane env) (decode : Bool) (depth offset length : Nat)
    (tag v : List Byte) (ht : IsTag tag) (hv : v.length < 2 ^ 32) (hd : Defined blank tag v) :
    ∃ i, fieldItem env decode depth offset length ⟨beNat tag, topBits tag, v⟩ = .ok i ∧
      Shows env decode ⟨depth, offset, length, .field tag v⟩ i := by
  obtain ⟨c, info, out, hg, hlen, h0⟩ := C84_safe_partial env he (beNat tag) v (blank (beNat tag) v) hd.1
  have h0 := h0 (by unfold blank; rw [List.length_replicate]; decide)
  have hk : known env blank tag v = ⟨info.name, info.fmt, out.takeWhile (· ≠ 0)⟩ := by
    unfold known; rw [hg]
  have hdt := decodedText_eq ⟨info.name, info.fmt, out.takeWhile (· ≠ 0)⟩ tag out ht h0 rfl
  unfold blank at hg
  unfold fieldItem Shows
  simp only
  rw [hg, hk]
  simp only [bind_ok]
  rw [hdt]
  simp only [bind_ok]
  by_cases hc : IsConstructed tag
  · rw [if_pos ((constructed_tlv ht).mpr hc)]
    refine ⟨_, rfl, ?_⟩
    cases decode <;>
      simp [Item.render, hc, simpleText, plainText, hexU_tag tag ht, Lists.decU_spec _ hv, colon]
  · rw [if_neg (by rw [constructed_tlv ht]; exact hc)]
    obtain ⟨ds, h1, h2⟩ := moreDetails_eq ⟨info.name, info.fmt, out.takeWhile (· ≠ 0)⟩ v out h0 rfl
      (fun hf => hd.2 (dol_tags env tag v _ c info out ht hg hf)) decode
    simp only at h1
    rw [h1]
    refine ⟨_, rfl, ?_⟩
    cases decode <;>
      simpa [Item.render, hc, simpleText, plainText, rawDetail, counted, hexU_tag tag ht,
        Lists.decU_spec _ hv, hexSpaced_eq, colon] using h2

theorem paddingItem_shows (env : Env) (decode : Bool) (depth offset : Nat) (bytes : List Byte)
    (h : bytes.length < 2 ^ 32) :
    Shows env decode ⟨depth, offset, bytes.length, .padding bytes⟩ (paddingItem depth offset bytes) := by
  simp [Shows, paddingItem, Item.render, simpleText, counted, Lists.decU_spec _ h, hexSpaced_eq, colon,
    padding_colon]

/-! ## C115 -/

/-- A tree of no items (emvtreeview.h:45-46). -/
def newTree : Tree := ⟨false, true, []⟩

theorem reading_located {pad : Bool} {data : List Byte} {rs : List Row} {n : Nat} {ok : Bool}
    (h : Reading pad data rs n ok) : ∀ r ∈ rs, Located data r := by
  cases h with
  | whole d h he => exact rows_located pad data d _ 0 0 [] [] h (by simpa using he)
  | upTo p h he => exact rowsTo_located pad data p _ 0 0 [] h (by simpa using he)

theorem map_inj_on {α β : Type} (f : α → β) (P : α → Prop)
    (hf : ∀ a b, P a → P b → f a = f b → a = b) :
    ∀ l l' : List α, (∀ a ∈ l, P a) → (∀ a ∈ l', P a) → l.map f = l'.map f → l = l'
  | [], [], _, _, _ => rfl
  | [], _ :: _, _, _, h => by simp at h
  | _ :: _, [], _, _, h => by simp at h
  | a :: l, b :: l', h1, h2, h => by
    simp only [List.map_cons, List.cons.injEq] at h
    rw [hf a b (h1 a (by simp)) (h2 b (by simp)) h.1,
      map_inj_on f P hf l l' (fun x hx => h1 x (by simp [hx])) (fun x hx => h2 x (by simp [hx])) h.2]

/-- **C115.**  All data can be read in exactly one way. -/
theorem C115_every_input (pad : Bool) (data : List Byte) :
    (∃ rs n ok, Reading pad data rs n ok) ∧
    ∀ rs n ok rs' n' ok', Reading pad data rs n ok → Reading pad data rs' n' ok' →
      rs = rs' ∧ n = n' ∧ ok = ok' := by
  refine ⟨?_, ?_⟩
  · rcases doc_or_path pad data.length data data.length (Nat.le_refl _) with ⟨d, h, he⟩ | ⟨p, h, he⟩
    · exact ⟨_, _, _, .whole d h he⟩
    · exact ⟨_, _, _, .upTo p h he⟩
  · intro rs n ok rs' n' ok' h h'
    let f : Nat → Nat → Nat → Tlv → C (Nat × Nat × Nat × (Tlv ⊕ List Byte)) :=
      fun d o l t => .ok (d, o, l, .inl t)
    let g : Nat → Nat → Nat → List Byte → List Byte → Nat × Nat × Nat × (Tlv ⊕ List Byte) :=
      fun d o l tag v => (d, o, l, .inl ⟨beNat tag, topBits tag, v⟩)
    let p : Nat → Nat → List Byte → Nat × Nat × Nat × (Tlv ⊕ List Byte) :=
      fun d o b => (d, o, b.length, .inr b)
    have hg : ∀ rs, RowsAll (Makes f g) rs := fun rs r _ tag v _ o l => rfl
    have e := (parse_reading f p g pad data rs n ok h (hg rs)).symm.trans
      (parse_reading f p g pad data rs' n' ok' h' (hg rs'))
    simp only [Except.ok.injEq, Prod.mk.injEq] at e
    refine ⟨map_inj_on _ (Located data) ?_ rs rs' (reading_located h) (reading_located h') e.1, e.2⟩
    intro a b ha hb hab
    obtain ⟨d, o, l, w⟩ := a
    obtain ⟨d', o', l', w'⟩ := b
    cases w <;> cases w' <;> simp only [itemOf, g, p, Prod.mk.injEq, Sum.inl.injEq, Sum.inr.injEq,
      Tlv.mk.injEq, reduceCtorEq, and_false] at hab
    · obtain ⟨rfl, rfl, rfl, h1, -, rfl⟩ := hab
      rw [beNat_tag_inj ha.1 hb.1 h1]
    · obtain ⟨rfl, rfl, -, rfl⟩ := hab
      simp only [Located] at ha hb
      rw [ha.2.1, hb.2.1]

/-- **C115.**  The rows follow one another without gap or overlap from the start to the number of
bytes read; each holds the bytes at its place; its depth is the number of rows it lies within. -/
theorem C115_places (pad : Bool) (data : List Byte) (rs : List Row) (n : Nat) (ok : Bool)
    (h : Reading pad data rs n ok) :
    Consecutive 0 rs n ∧ (∀ r ∈ rs, Located data r) ∧
    (∀ r ∈ rs, r.depth = rs.countP (fun x =>
      decide (x.offset < r.offset ∧ r.offset < x.offset + x.length))) ∧
    (ok = true ↔ n = data.length) ∧ n ≤ data.length := by
  refine ⟨?_, (reading_located h), ?_, ?_⟩
  · cases h with
    | whole d h he =>
      have := rows_consecutive pad d _ 0 0 [] h
      rwa [Nat.zero_add, ← he] at this
    | upTo p h he =>
      have := rowsTo_consecutive pad p _ 0 0 h
      rwa [Nat.zero_add] at this
  · cases h with
    | whole d h he =>
      intro r hr
      have := rows_depth pad d _ 0 0 [] h r hr
      rwa [Nat.zero_add] at this
    | upTo p h he =>
      intro r hr
      have := rowsTo_depth pad p _ 0 0 h r hr
      rwa [Nat.zero_add] at this
  · cases h with
    | whole d h he => simp
    | upTo p h he =>
      have := Leads.offset_lt pad p _ h
      rw [← he] at this
      simp
      omega

/-- The fields shown are such that describing them is defined. -/
def AllDefinedRows (rs : List Row) : Prop :=
  ∀ r ∈ rs, ∀ tag v, r.what = .field tag v → Defined blank tag v

/-- The item of a run that is defined. -/
def got (c : C Item) : Item :=
  match c with
  | .ok i => i
  | .error _ => paddingItem 0 0 []

attribute [local irreducible] fieldItem in
theorem items_of (env : Env) (he : Sane env) (decode pad : Bool) (data : List Byte)
    (hl : data.length < 2 ^ 31) (rs : List Row) (n : Nat) (ok : Bool)
    (h : Reading pad data rs n ok) (hd : AllDefinedRows rs) :
    ∃ f : Row → Item, parseData (fieldItem env decode) paddingItem pad (data.length + 1) 0 data data
      0 0 = .ok (rs.map f, n, ok) ∧ ∀ r ∈ rs, Shows env decode r (f r) := by
  have hloc := (reading_located h)
  have hlen : ∀ r ∈ rs, ∀ tag v, r.what = .field tag v → IsTag tag ∧ v.length < 2 ^ 32 := by
    intro r hr tag v hw
    have := hloc r hr
    unfold Located at this
    rw [hw] at this
    obtain ⟨h1, len, rest, h2, -⟩ := this
    refine ⟨h1, ?_⟩
    have := congrArg List.length h2
    simp only [List.length_drop, List.length_append] at this
    omega
  let g : Nat → Nat → Nat → List Byte → List Byte → Item := fun d o l tag v =>
    got (fieldItem env decode d o l ⟨beNat tag, topBits tag, v⟩)
  have key : ∀ r ∈ rs, ∀ tag v, r.what = .field tag v → ∀ d o l,
      fieldItem env decode d o l ⟨beNat tag, topBits tag, v⟩ = .ok (g d o l tag v) ∧
      Shows env decode ⟨d, o, l, .field tag v⟩ (g d o l tag v) := by
    intro r hr tag v hw d o l
    obtain ⟨h1, h2⟩ := hlen r hr tag v hw
    obtain ⟨i, hi, hs⟩ := fieldItem_shows env he decode d o l tag v h1 h2 (hd r hr tag v hw)
    have : g d o l tag v = i := congrArg got hi
    rw [this]
    exact ⟨hi, hs⟩
  refine ⟨itemOf paddingItem g, parse_reading _ _ g pad data rs n ok h
    (fun r hr tag v hw o l => (key r hr tag v hw r.depth o l).1), ?_⟩
  intro r hr
  obtain ⟨d, o, l, w⟩ := r
  cases w with
  | field tag v => exact (key _ hr tag v rfl d o l).2
  | padding b =>
    have := hloc _ hr
    obtain ⟨-, h2, rest, h3⟩ := this
    simp only at h2
    subst h2
    refine paddingItem_shows env decode d o b ?_
    have := congrArg List.length h3
    simp only [List.length_drop, List.length_append] at this
    omega

/-- **C115.**  The tree view has an item for each row, in this order, with its depth and place, and
reports the number of bytes read.  Missing: data with fields whose description is not defined
(`C116_undefined`, `C116_dol_84`), and data of 2 GiB. -/
theorem C115_tree_partial (env : Env) (he : Sane env) (data : List Byte) (hl : data.length < 2 ^ 31)
    (t : Tree) (rs : List Row) (n : Nat) (ok : Bool) (h : Reading t.ignorePadding data rs n ok)
    (hd : AllDefinedRows rs) :
    ∃ items, populateItems env data t = .ok ({ t with items }, n) ∧
      items.map (fun i => (i.depth, i.offset, i.length)) =
        rs.map (fun r => (r.depth, r.offset, r.length)) := by
  obtain ⟨f, h1, h2⟩ := items_of env he t.decodeFields t.ignorePadding data hl rs n ok h hd
  refine ⟨rs.map f, ?_, ?_⟩
  · unfold populateItems
    rw [h1]
    rfl
  · rw [List.map_map]
    apply List.map_congr_left
    intro r hr
    obtain ⟨e1, e2, e3, -⟩ := h2 r hr
    simp only [Function.comp, e1, e2, e3]

/-- **C115.**  Making the tree ends and stays within memory.  Missing: as in `C115_tree_partial`. -/
theorem C115_safe_partial (env : Env) (he : Sane env) (data : List Byte) (hl : data.length < 2 ^ 31)
    (t : Tree) (hd : ∀ rs n ok, Reading t.ignorePadding data rs n ok → AllDefinedRows rs) :
    (populateItems env data t).Safe := by
  obtain ⟨rs, n, ok, h⟩ := (C115_every_input t.ignorePadding data).1
  obtain ⟨items, h1, -⟩ := C115_tree_partial env he data hl t rs n ok h (hd rs n ok h)
  exact ⟨_, h1⟩

/-! ## C116 -/

/-- **C116.**  Each item displays its row: name or tag and value, and below a primitive field its
bytes and the list it consists of.  Missing: fields whose description is not defined
(`C116_undefined`, `C116_dol_84`). -/
theorem C116_texts_partial (env : Env) (he : Sane env) (data : List Byte) (hl : data.length < 2 ^ 31)
    (t : Tree) (rs : List Row) (n : Nat) (ok : Bool) (h : Reading t.ignorePadding data rs n ok)
    (hd : AllDefinedRows rs) :
    ∃ f : Row → Item, populateItems env data t = .ok ({ t with items := rs.map f }, n) ∧
      ∀ r ∈ rs, Shows env t.decodeFields r (f r) := by
  obtain ⟨f, h1, h2⟩ := items_of env he t.decodeFields t.ignorePadding data hl rs n ok h hd
  refine ⟨f, ?_, h2⟩
  unfold populateItems
  rw [h1]
  rfl

/-- **C116 is false of fields whose description is not defined (C84)**: the program reads or writes
outside of an array. -/
theorem C116_undefined (env : Env) (t : Tree) (hdr tag v rest : List Byte)
    (hr : Reads (hdr ++ v ++ rest) hdr tag v) (hu : Undefined (beNat tag) v (List.replicate 2048 0)) :
    populateItems env (hdr ++ v ++ rest) t = .error .oobRead ∨
    populateItems env (hdr ++ v ++ rest) t = .error .oobWrite := by
  unfold populateItems parseData
  rw [itrNext_reads hr]
  simp only [bind_ok]
  unfold fieldItem
  simp only
  rcases C84_undefined env (beNat tag) v _ hu with h | h <;> rw [h]
  · exact .inl rfl
  · exact .inr rfl

set_option maxRecDepth 40000 in
/-- **C116 is false of a list that asks for 14 bytes of tag 84**: the program reads from a null
pointer. -/
theorem C116_dol_84 (env : Env) (t : Tree) :
    populateItems env [0x8C, 0x02, 0x84, 0x0E] t = .error .oobRead := by
  rfl

/-- The FCI of C92 as a tree. -/
theorem sample_fits : Fits false sampleFci.enc.length sampleFci [] := by
  refine ⟨⟨?_, ?_, ?_⟩, ?_, ⟨⟨?_, ?_, ?_⟩, ?_, ⟨?_, ?_, ?_⟩, ?_, ⟨⟨?_, ?_, ?_⟩, ?_, ⟨?_, ?_, ?_⟩, ?_, trivial⟩,
    trivial⟩, trivial⟩ <;>
  first
  | exact .inl ⟨by decide, rfl⟩
  | exact .inr ⟨by decide, by decide, [], 0x38, rfl, by decide, by decide⟩
  | decide +kernel

example : Reading newTree.ignorePadding sampleFci.enc (rows 0 0 sampleFci) 27 true :=
  .whole sampleFci sample_fits rfl

example : (rows 0 0 sampleFci).map (fun r => (r.depth, r.offset, r.length)) =
    [(0, 0, 27), (1, 2, 9), (1, 11, 16), (2, 13, 6), (2, 19, 8)] := by decide +kernel

example : AllDefinedRows (rows 0 0 sampleFci) := by
  intro r hr tag v hw
  simp only [rows, sampleFci, List.mem_cons, List.append_nil, List.not_mem_nil, or_false] at hr
  rcases hr with rfl | rfl | rfl | rfl | rfl <;> cases hw <;>
    exact ⟨by unfold Undefined; simp [beNat], by decide +kernel⟩

example : (populateItems noTables sampleFci.enc newTree).map (fun x => (x.1.items.map Item.text, x.2)) =
    .ok ([txt!"6F | File Control Information (FCI) Template",
      txt!"84 | Dedicated File (DF) Name : Visa Credit/Debit",
      txt!"A5 | File Control Information (FCI) Proprietary Template",
      txt!"50 | Application Label : \"VISA\"",
      txt!"9F38 | Processing Options Data Object List (PDOL)"], 27) := by decide +kernel

example : (populateItems noTables sampleFci.enc newTree).map
      (fun x => (x.1.items.map (fun i => i.details.map (fun d => (d.text, d.entries))))) =
    .ok [[], [(txt!"[7] A0 00 00 00 03 10 10", [])], [], [(txt!"[4] 56 49 53 41", [])],
      [(txt!"[5] 9F 02 06 9A 03", []), (txt!"Data Object List:",
        [txt!"9F02 | Amount, Authorised (Numeric) [6]", txt!"9A | Transaction Date [3]"])]] := by
  decide +kernel

/-- A sequence whose second object is cut off: what precedes it is shown. -/
example : (populateItems noTables samplePath.enc newTree).map
      (fun x => (x.1.items.map (fun i => (i.depth, i.offset, i.length)), x.2)) =
    .ok ([(0, 0, 7), (1, 2, 3)], 5) := by decide +kernel

/-! ## C117 -/

theorem pkcs7_refused_15 : Refused (List.replicate 15 0x0F) (-11) := by
  unfold Refused; decide +kernel

theorem fits_of_wf (pad : Bool) (d : Doc) : ∀ n tail, noPadding d → d.WF pad n tail →
    Fits pad n d tail := by
  induction d with
  | nil => intros; trivial
  | padding b => intro n tail h; exact absurd h id
  | prim hdr tag value rest ih =>
    intro n tail h hw
    exact ⟨hw.1, hw.2.1, ih _ _ h hw.2.2⟩
  | node hdr tag c rest ihc ihr =>
    intro n tail h hw
    exact ⟨hw.1, hw.2.1, ihc _ _ h.1 hw.2.2.1, ihr _ _ h.2 hw.2.2.2⟩

theorem padded_rows (bytes : List Byte) (hne : bytes ≠ []) (hr : ∃ c, Refused bytes c) (d : Doc) :
    ∀ n depth offset, Fits true n d bytes → ViewerSpec.PadRule n bytes.length →
      (padded bytes d).enc = d.enc ++ bytes ∧ Fits true n (padded bytes d) [] ∧
      rows depth offset (padded bytes d) =
        rows depth offset d ++ [⟨depth, offset + d.enc.length, bytes.length, .padding bytes⟩] := by
  induction d with
  | nil => intro n depth offset _ hp; exact ⟨rfl, ⟨rfl, rfl, hne, hr, hp⟩, rfl⟩
  | padding b => intro n _ _ h _; exact absurd h.2.1 hne
  | prim hdr tag value rest ih =>
    intro n depth offset h hp
    obtain ⟨h1, h2, h3⟩ := ih n depth (offset + (hdr ++ value).length) h.2.2 hp
    refine ⟨by simp [padded, Doc.enc, h1], ⟨?_, h.2.1, h2⟩, ?_⟩
    · have := h.1
      rwa [h1, List.append_nil]
    · simp only [padded, rows, h3]
      simp only [Doc.enc, List.length_append, Nat.add_assoc, List.cons_append, List.append_assoc]
  | node hdr tag c rest ihc ihr =>
    intro n depth offset h hp
    obtain ⟨h1, h2, h3⟩ := ihr n depth (offset + (hdr ++ c.enc).length) h.2.2.2 hp
    refine ⟨by simp [padded, Doc.enc, h1], ⟨?_, h.2.1, h.2.2.1, h2⟩, ?_⟩
    · have := h.1
      rwa [h1, List.append_nil]
    · simp only [padded, rows, h3]
      simp only [Doc.enc, List.length_append, Nat.add_assoc, List.cons_append, List.append_assoc]

/-- **C117.**  When padding is to be ignored, `k` bytes `k` (1 ≤ k < 8, or k < 16 after AES) that
complete a multiple of the block are one row after those of the objects, and everything is read.
Missing: a whole block of padding (`C117_whole_block`), and method 2 (`C117_method2`). -/
theorem C117_pkcs7_partial (f : TlvParse.Forest) (hf : f.WF) (k : Nat) (hk : 1 ≤ k)
    (hblock : ((f.enc.length + k) % 8 = 0 ∧ k < 8) ∨ ((f.enc.length + k) % 16 = 0 ∧ k < 16)) :
    Reading false f.enc (rows 0 0 (docOf f)) f.enc.length true ∧
    Reading true (f.enc ++ List.replicate k (UInt8.ofNat k))
      (rows 0 0 (docOf f) ++ [⟨0, f.enc.length, k, .padding (List.replicate k (UInt8.ofNat k))⟩])
      (f.enc.length + k) true := by
  have hn : noPadding (docOf f) := C91_not_asked 0 _ [] (docOf_wf false f hf _ _)
  have hne : List.replicate k (UInt8.ofNat k) ≠ [] := by simp; omega
  have hlen2 : (List.replicate k (UInt8.ofNat k)).length = k := by simp
  have href : ∃ c, Refused (List.replicate k (UInt8.ofNat k)) c := by
    by_cases h : k < 15
    · exact pkcs7_refused k hk h
    · have : k = 15 := by omega
      subst this
      exact ⟨_, pkcs7_refused_15⟩
  refine ⟨.whole (docOf f) (fits_of_wf _ _ _ _ hn (docOf_wf false f hf _ _)) (docOf_enc f).symm, ?_⟩
  obtain ⟨h1, h2, h3⟩ := padded_rows _ hne href (docOf f) (f.enc.length + k) 0 0
    (fits_of_wf _ _ _ _ hn (docOf_wf true f hf _ _)) (by rw [hlen2]; exact hblock)
  rw [docOf_enc] at h1
  rw [Nat.zero_add, docOf_enc, hlen2] at h3
  have hlen3 : (f.enc ++ List.replicate k (UInt8.ofNat k)).length = f.enc.length + k := by simp
  have := Reading.whole (pad := true) (data := f.enc ++ List.replicate k (UInt8.ofNat k))
    (padded _ (docOf f)) (by rw [hlen3]; exact h2) h1.symm
  rwa [hlen3, h3] at this

/-- **C117.**  When padding is not to be ignored, no row is padding. -/
theorem C117_not_asked (data : List Byte) (rs : List Row) (n : Nat) (ok : Bool)
    (h : Reading false data rs n ok) : ∀ r ∈ rs, ∀ b, r.what ≠ .padding b := by
  have doc : ∀ (d : Doc) n depth offset tail, Fits false n d tail →
      ∀ r ∈ rows depth offset d, ∀ b, r.what ≠ .padding b := by
    intro d
    induction d with
    | nil => intro _ _ _ _ _ r hr; simp [rows] at hr
    | padding b => intro _ _ _ _ h; exact absurd h.1 (by simp)
    | prim hdr tag value rest ih =>
      intro n depth offset tail h r hr b
      simp only [rows, List.mem_cons] at hr
      rcases hr with rfl | hr
      · simp
      · exact ih _ _ _ _ h.2.2 r hr b
    | node hdr tag c rest ihc ihr =>
      intro n depth offset tail h r hr b
      simp only [rows, List.mem_cons, List.mem_append] at hr
      rcases hr with rfl | hr | hr
      · simp
      · exact ihc _ _ _ _ h.2.2.1 r hr b
      · exact ihr _ _ _ _ h.2.2.2 r hr b
  have path : ∀ (p : Path) n depth offset, Leads false n p →
      ∀ r ∈ rowsTo depth offset p, ∀ b, r.what ≠ .padding b := by
    intro p
    induction p with
    | stop d bad c => intro n depth offset h; exact doc d _ _ _ _ h.1
    | into d hdr tag p after ih =>
      intro n depth offset h r hr b
      simp only [rowsTo, List.mem_cons, List.mem_append] at hr
      rcases hr with hr | rfl | hr
      · exact doc d _ _ _ _ h.1 r hr b
      · simp
      · exact ih _ _ _ h.2.2.2 r hr b
  cases h with
  | whole d h he => exact doc d _ _ _ _ h
  | upTo p h he => exact path p _ _ _ h

/-- **C117.**  These rows are what the tree view shows: after the items of the fields there is one for
the padding, with its bytes, and nothing is left over. -/
theorem C117_tree_partial (env : Env) (he : Sane env) (t : Tree) (ht : t.ignorePadding = true)
    (f : TlvParse.Forest) (hf : f.WF) (k : Nat) (hk : 1 ≤ k)
    (hblock : ((f.enc.length + k) % 8 = 0 ∧ k < 8) ∨ ((f.enc.length + k) % 16 = 0 ∧ k < 16))
    (hl : f.enc.length < 2 ^ 30) (hd : AllDefinedRows (rows 0 0 (docOf f))) :
    ∃ (g : Row → Item) (p : Item),
      populateItems env (f.enc ++ List.replicate k (UInt8.ofNat k)) t =
        .ok ({ t with items := (rows 0 0 (docOf f)).map g ++ [p] }, f.enc.length + k) ∧
      (∀ r ∈ rows 0 0 (docOf f), Shows env t.decodeFields r (g r)) ∧
      p.depth = 0 ∧ p.offset = f.enc.length ∧ p.length = k ∧ p.name = none ∧ p.details = [] ∧
      p.text = txt!"Padding : " ++ counted (List.replicate k (UInt8.ofNat k)) := by
  obtain ⟨-, hr⟩ := C117_pkcs7_partial f hf k hk hblock
  rw [← ht] at hr
  obtain ⟨g, h1, h2⟩ := C116_texts_partial env he _ (by simp; omega) t _ _ _ hr (by
    intro r hr tag v hw
    rcases List.mem_append.1 hr with hr | hr
    · exact hd r hr tag v hw
    · rw [List.mem_singleton] at hr; subst hr; cases hw)
  have hp := h2 _ (List.mem_append_right _ (List.mem_singleton.2 rfl))
  obtain ⟨p1, p2, p3, p4, p5, p6⟩ := hp
  refine ⟨g, _, ?_, fun r hr => h2 r (List.mem_append_left _ hr), p1, p2, p3, p4, p6, p5⟩
  rw [h1, List.map_append]
  rfl

/-- **C117.**  When padding is not to be ignored, every item is that of a field. -/
theorem C117_tree_not_asked_partial (env : Env) (he : Sane env) (t : Tree) (ht : t.ignorePadding = false)
    (data : List Byte) (hl : data.length < 2 ^ 31) (rs : List Row) (n : Nat) (ok : Bool)
    (h : Reading false data rs n ok) (hd : AllDefinedRows rs) :
    ∃ g : Row → Item, populateItems env data t = .ok ({ t with items := rs.map g }, n) ∧
      ∀ r ∈ rs, ∃ tag v, r.what = .field tag v ∧ Shows env t.decodeFields r (g r) := by
  obtain ⟨g, h1, h2⟩ := C116_texts_partial env he data hl t rs n ok (ht ▸ h) hd
  refine ⟨g, h1, fun r hr => ?_⟩
  cases hw : r.what with
  | padding b => exact absurd hw (C117_not_asked data rs n ok h r hr b)
  | field tag v => exact ⟨tag, v, rfl, h2 r hr⟩

example : (populateItems noTables ([0x04, 0x03, 1, 2, 3] ++ List.replicate 3 (UInt8.ofNat 3)) ⟨true, true, []⟩).map
      (fun x => (x.1.items.map (fun i => (i.text, i.offset, i.length)), x.2)) =
    .ok ([(txt!"04", 0, 5), (txt!"Padding : [3] 03 03 03", 5, 3)], 8) := by decide +kernel

/-- **C117 is false of a whole block**: eight bytes 08 after sixteen bytes of data are invalid. -/
theorem C117_whole_block :
    Reading true ([0x04, 0x0E] ++ List.replicate 14 0 ++ List.replicate 8 0x08)
      [⟨0, 0, 16, .field [0x04] (List.replicate 14 0)⟩] 16 false := by
  refine .upTo (.stop (.prim [0x04, 0x0E] [0x04] (List.replicate 14 0) .nil) (List.replicate 8 0x08)
    (-11)) ⟨⟨⟨.inl ⟨by decide, rfl⟩, by decide, by decide +kernel⟩, by decide, trivial⟩, by decide,
      by unfold Refused; decide +kernel, ?_⟩ rfl
  unfold ViewerSpec.PadRule
  decide

/-- **C117 is false of ISO 9797-1 padding method 2** (80 followed by zeros): it is read as
objects. -/
theorem C117_method2 :
    Reading true [0x04, 0x02, 0xAA, 0xBB, 0x80, 0x00, 0x00, 0x00]
      [⟨0, 0, 4, .field [0x04] [0xAA, 0xBB]⟩, ⟨0, 4, 2, .field [0x80] []⟩,
       ⟨0, 6, 2, .field [0x00] []⟩] 8 true :=
  .whole (.prim [0x04, 0x02] [0x04] [0xAA, 0xBB] (.prim [0x80, 0x00] [0x80] []
      (.prim [0x00, 0x00] [0x00] [] .nil)))
    ⟨⟨.inl ⟨by decide, rfl⟩, by decide, by decide +kernel⟩, by decide,
      ⟨.inl ⟨by decide, rfl⟩, by decide, by decide +kernel⟩, by decide,
      ⟨.inl ⟨by decide, rfl⟩, by decide, by decide +kernel⟩, by decide, trivial⟩ rfl

/-- **C117: the viewer and emv-decode disagree.**  Fifteen bytes of AES padding are padding in the
tree view (C117_pkcs7_partial) and invalid data for the listing. -/
theorem C117_fifteen (loc pfx : List Byte) :
    Reading true ([0x04, 0x0F] ++ List.replicate 15 0xAA ++ List.replicate 15 0x0F)
      [⟨0, 0, 17, .field [0x04] (List.replicate 15 0xAA)⟩,
       ⟨0, 17, 15, .padding (List.replicate 15 0x0F)⟩] 32 true ∧
    Print.berBuf loc pfx true 0 ([0x04, 0x0F] ++ List.replicate 15 0xAA ++ List.replicate 15 0x0F) =
      .ok (txt!"04 : [15] AA AA AA AA AA AA AA AA AA AA AA AA AA AA AA" ++ [0x0A] ++
        (txt!"BER decoding error -11 at offset 17; remaining invalid data: " ++
          txt!"0F 0F 0F 0F 0F 0F 0F 0F 0F 0F 0F 0F 0F 0F 0F") ++ [0x0A]) := by
  constructor
  case right => rfl
  refine .whole (.prim [0x04, 0x0F] [0x04] (List.replicate 15 0xAA) (.padding (List.replicate 15 0x0F)))
    ⟨⟨.inl ⟨by decide, rfl⟩, by decide, by decide +kernel⟩, by decide, rfl, rfl, by decide,
      ⟨_, pkcs7_refused_15⟩, ?_⟩ rfl
  unfold ViewerSpec.PadRule
  decide

/-! ## C118 -/

theorem render_render (a b : Bool) (i : Item) : (i.render a).render b = i.render b := by
  cases a <;> cases b <;> cases h : i.constructed <;>
    simp [Item.render, h, Function.comp_def]

theorem render_padding (b : Bool) (depth offset : Nat) (bytes : List Byte) :
    (paddingItem depth offset bytes).render b = paddingItem depth offset bytes := by
  cases b <;> rfl

/-- Rendering an item again is making it anew. -/
theorem fieldItem_render (env : Env) (a b : Bool) (depth offset length : Nat) (t : Tlv) :
    fieldItem env b depth offset length t =
      (fieldItem env a depth offset length t).map (Item.render b) := by
  unfold fieldItem
  cases getInfo env t.tag t.value (List.replicate 2048 0) with
  | error e => rfl
  | ok x =>
    obtain ⟨c, info, str⟩ := x
    simp only [bind_ok]
    cases decodedText t.tag info str with
    | error e => rfl
    | ok d =>
      simp only [bind_ok]
      split
      · simp only [Except.map, render_render]
      · cases moreDetails info.fmt t.value str with
        | error e => rfl
        | ok m => simp only [bind_ok, Except.map, render_render]

theorem map_ok {α β : Type} (f : α → β) (a : α) : Except.map f (.ok a : C α) = .ok (f a) := rfl

theorem parseData_map {ι κ : Type} (g : ι → κ) (field : Nat → Nat → Nat → Tlv → C ι)
    (padding : Nat → Nat → List Byte → ι) (pad : Bool) : ∀ fuel depth whole itr valid total,
    parseData (fun d o l t => (field d o l t).map g) (fun d o b => g (padding d o b)) pad fuel depth
        whole itr valid total =
      (parseData field padding pad fuel depth whole itr valid total).map
        (fun x => (x.1.map g, x.2)) := by
  intro fuel
  induction fuel with
  | zero => intros; rfl
  | succ fuel ih =>
    intro depth whole itr valid total
    unfold parseData
    cases itrNext itr with
    | error e => rfl
    | ok x =>
      obtain ⟨itr', d⟩ := x
      simp only [bind_ok]
      cases d with
      | eod => rfl
      | err c =>
        simp only
        split
        · cases slice whole valid (whole.length - valid) <;> rfl
        · rfl
      | ok r t =>
        simp only
        cases field depth total r t with
        | error e => rfl
        | ok i =>
          simp only [bind_ok, map_ok]
          split
          · rw [ih]
            cases parseData field padding pad fuel (depth + 1) t.value t.value 0
              (total + (r - t.value.length)) with
            | error e => rfl
            | ok y =>
              obtain ⟨inner, total', ok⟩ := y
              simp only [map_ok, bind_ok]
              cases ok
              · rfl
              · simp only [if_true]
                rw [ih]
                cases parseData field padding pad fuel depth whole itr'
                  (valid + (r - t.value.length) + t.value.length) total' with
                | error e => rfl
                | ok z => simp [bind_ok, map_ok]
          · rw [ih]
            cases parseData field padding pad fuel depth whole itr' (valid + r) (total + r) with
            | error e => rfl
            | ok z => rfl

/-- What can be done to a tree. -/
inductive Act where
  | populate (data : List Byte)
  | ignorePadding (enabled : Bool)
  | decodeFields (enabled : Bool)

def Act.run (env : Env) : Act → Tree → C Tree
  | .populate data, t => do
    let (t, _) ← populateItems env data t
    .ok t
  | .ignorePadding b, t => .ok (setIgnorePadding b t)
  | .decodeFields b, t => .ok (setDecodeFields b t)

def runActs (env : Env) : List Act → Tree → C Tree
  | [], t => .ok t
  | a :: as, t => do
    let t ← a.run env t
    runActs env as t

/-- The settings and the last data, with the padding setting they were read with. -/
def summary : List Act → Bool × Bool × Option (List Byte × Bool) →
    Bool × Bool × Option (List Byte × Bool)
  | [], s => s
  | .populate data :: as, (p, d, _) => summary as (p, d, some (data, p))
  | .ignorePadding b :: as, (_, d, l) => summary as (b, d, l)
  | .decodeFields b :: as, (p, _, l) => summary as (p, b, l)

/-- The items are those of reading the last data once, with the decoding as set now. -/
def UpToDate (env : Env) (t : Tree) (last : Option (List Byte × Bool)) : Prop :=
  match last with
  | none => t.items = []
  | some (data, p) => ∃ n, populateItems env data ⟨p, t.decodeFields, []⟩ =
      .ok (⟨p, t.decodeFields, t.items⟩, n)

theorem populate_render (env : Env) (data : List Byte) (p a b : Bool) (items : List Item) (n : Nat)
    (h : populateItems env data ⟨p, a, []⟩ = .ok (⟨p, a, items⟩, n)) :
    populateItems env data ⟨p, b, []⟩ = .ok (⟨p, b, items.map (Item.render b)⟩, n) := by
  unfold populateItems at h ⊢
  have e1 : fieldItem env b = fun d o l t => (fieldItem env a d o l t).map (Item.render b) := by
    funext d o l t
    exact fieldItem_render env a b d o l t
  have e2 : paddingItem = fun d o x => (paddingItem d o x).render b := by
    funext d o x
    exact (render_padding b d o x).symm
  simp only at h ⊢
  rw [e1]
  conv => lhs; rw [e2]
  rw [parseData_map]
  cases hp : parseData (fieldItem env a) paddingItem p (data.length + 1) 0 data data 0 0 with
  | error e => rw [hp] at h; exact absurd h (by simp [bind_error])
  | ok x =>
    obtain ⟨is, m, ok⟩ := x
    rw [hp] at h
    simp only [bind_ok, Except.ok.injEq, Prod.mk.injEq, Tree.mk.injEq, true_and] at h
    obtain ⟨rfl, rfl⟩ := h
    rfl

/-- **C118.**  Whatever is done to a tree, its settings are the last ones set, and it displays the
last data as if they had been read anew with the present decoding and the padding setting of the
time. -/
theorem C118_history (env : Env) (as : List Act) (t : Tree) (h : runActs env as newTree = .ok t) :
    ∃ last, summary as (false, true, none) = (t.ignorePadding, t.decodeFields, last) ∧
      UpToDate env t last := by
  have key : ∀ (as : List Act) (t0 : Tree) last0, UpToDate env t0 last0 → runActs env as t0 = .ok t →
      ∃ last, summary as (t0.ignorePadding, t0.decodeFields, last0) =
        (t.ignorePadding, t.decodeFields, last) ∧ UpToDate env t last := by
    intro as
    induction as with
    | nil =>
      intro t0 last0 hu hr
      cases hr
      exact ⟨_, rfl, hu⟩
    | cons a as ih =>
      intro t0 last0 hu hr
      unfold runActs at hr
      cases a with
      | populate data =>
        simp only [Act.run] at hr
        cases hp : populateItems env data t0 with
        | error e => rw [hp] at hr; exact absurd hr (by simp [bind_error])
        | ok x =>
          obtain ⟨t1, n⟩ := x
          rw [hp] at hr
          simp only [bind_ok] at hr
          have hq := hp
          unfold populateItems at hq
          cases hd : parseData (fieldItem env t0.decodeFields) paddingItem t0.ignorePadding
              (data.length + 1) 0 data data 0 0 with
          | error e => rw [hd] at hq; exact absurd hq (by simp [bind_error])
          | ok y =>
            obtain ⟨is, m, ok⟩ := y
            rw [hd] at hq
            simp only [bind_ok, Except.ok.injEq, Prod.mk.injEq] at hq
            obtain ⟨rfl, rfl⟩ := hq
            refine ih { t0 with items := is } (some (data, t0.ignorePadding)) ⟨m, ?_⟩ hr
            unfold populateItems
            simp only
            rw [hd]
            rfl
      | ignorePadding b => exact ih _ last0 (by cases last0 <;> exact hu) hr
      | decodeFields b =>
        simp only [Act.run, bind_ok] at hr
        have : UpToDate env (setDecodeFields b t0) last0 ∧ (setDecodeFields b t0).decodeFields = b ∧
            (setDecodeFields b t0).ignorePadding = t0.ignorePadding := by
          unfold setDecodeFields
          split
          · rename_i h
            exact ⟨hu, h, rfl⟩
          · refine ⟨?_, rfl, rfl⟩
            cases last0 with
            | none =>
              have : t0.items = [] := hu
              simp [UpToDate, this]
            | some l =>
              obtain ⟨n, hn⟩ := hu
              exact ⟨n, populate_render env l.1 l.2 _ b _ n hn⟩
        obtain ⟨h1, h2, h3⟩ := this
        have := ih _ last0 h1 hr
        rw [h2, h3] at this
        exact this
  exact key as newTree none rfl h

/-- **C118.**  No way of switching the decoding makes a difference to whether reading is defined,
to the number of bytes read or to the places of the items. -/
theorem C118_decoding (env : Env) (data : List Byte) (p a b : Bool) (items : List Item) (n : Nat)
    (h : populateItems env data ⟨p, a, []⟩ = .ok (⟨p, a, items⟩, n)) :
    ∃ items', populateItems env data ⟨p, b, []⟩ = .ok (⟨p, b, items'⟩, n) ∧
      items'.map (fun i => (i.depth, i.offset, i.length, i.name)) =
        items.map (fun i => (i.depth, i.offset, i.length, i.name)) := by
  refine ⟨_, populate_render env data p a b items n h, ?_⟩
  rw [List.map_map]
  apply List.map_congr_left
  intro i _
  cases b <;> rfl

/-- Two settings, data with three bytes of padding, and decoding switched off. -/
example : (runActs noTables [.ignorePadding true, .populate [0x04, 0x03, 1, 2, 3, 3, 3, 3],
      .decodeFields false, .ignorePadding false] newTree).map
        (fun t => (t.ignorePadding, t.decodeFields, t.items.map Item.text)) =
    .ok (false, false, [txt!"04 : [3] 01 02 03", txt!"Padding : [3] 03 03 03"]) := by decide +kernel

end Verif.Viewer
