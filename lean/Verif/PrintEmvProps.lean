import Verif.PrintEmvLemmas

/-! # Listing of EMV data: C92, C93 -/

set_option autoImplicit false

namespace Verif.Print
open Verif Ber BerSpec Formats PrintSpec TlvInfo

/-! ## C92 -/

/-- `Defined`, at any depth. -/
def AllDefined (loc : Nat → List Byte → List Byte) (_ : Nat) (tag v : List Byte) : Prop :=
  Defined loc tag v

/-- **C92.**  The listing of EMV data whose fields have a defined description: the lines of the
fields in document order, nothing else.  Missing: data with other fields (`C92_undefined`). -/
theorem C92_listing_partial (env : Env) (he : Sane env) (loc : Nat → List Byte → List Byte)
    (hl : ∀ t v, (loc t v).length = 2048) (pfx : List Byte) (pad : Bool) (depth : Nat) (d : Doc)
    (hlen : d.enc.length < 2 ^ 31) (hwf : d.WF pad d.enc.length [])
    (hd : d.All (AllDefined loc) depth) :
    emvBuf env loc pfx pad depth d.enc = .ok (d.text (emvLine env loc pfx) pfx depth) :=
  listing_doc _ _ pfx pad d depth (by omega) hwf
    (Doc.lift hwf (by omega) hd
      (fun depth tag v ht hv ho => emvItem_eq env he loc hl pfx depth tag v ht hv ho))

/-- **C92.**  The same for a forest of fields in definite form (C05).  Missing: as in
`C92_listing_partial`. -/
theorem C92_definite_partial (env : Env) (he : Sane env) (loc : Nat → List Byte → List Byte)
    (hl : ∀ t v, (loc t v).length = 2048) (pfx : List Byte) (pad : Bool) (depth : Nat)
    (f : TlvParse.Forest) (hlen : f.enc.length < 2 ^ 31) (hf : f.WF)
    (hd : (docOf f).All (AllDefined loc) depth) :
    emvBuf env loc pfx pad depth f.enc = .ok ((docOf f).text (emvLine env loc pfx) pfx depth) := by
  rw [← docOf_enc] at hlen ⊢
  exact C92_listing_partial env he loc hl pfx pad depth _ hlen (docOf_wf pad f hf _ _) hd

/-- **C92.**  Otherwise (C90) the lines of the fields before the first place where none can be read,
and the place.  Missing: as in `C92_listing_partial`. -/
theorem C92_error_partial (env : Env) (he : Sane env) (loc : Nat → List Byte → List Byte)
    (hl : ∀ t v, (loc t v).length = 2048) (pfx : List Byte) (pad : Bool) (depth : Nat) (p : Path)
    (hlen : p.enc.length < 2 ^ 31) (hwf : p.WF pad p.enc.length)
    (hd : p.All (AllDefined loc) depth) :
    emvBuf env loc pfx pad depth p.enc = .ok (p.text (emvLine env loc pfx) pfx depth ++
      txt!" at offset " ++ Lists.decimal p.offset ++ txt!"; remaining invalid data:" ++
      spacedHex p.invalid ++ [0x0A]) :=
  listing_path _ _ pfx pad p depth (by omega) hwf
    (Path.lift hwf (by omega) hd
      (fun depth tag v ht hv ho => emvItem_eq env he loc hl pfx depth tag v ht hv ho))

/-- **C92.**  Whatever the data, the listing ends and stays in bounds when its fields are `Defined`.
Missing: other fields (`C92_undefined`). -/
theorem C92_safe_partial (env : Env) (he : Sane env) (loc : Nat → List Byte → List Byte)
    (hl : ∀ t v, (loc t v).length = 2048) (pfx : List Byte) (pad : Bool) (depth : Nat)
    (buf : List Byte) (hlen : buf.length < 2 ^ 31)
    (hd : ∀ tag v, Within buf tag v → Defined loc tag v) :
    (emvBuf env loc pfx pad depth buf).Safe := by
  have hw : ∀ b t v, Within b t v → v.length ≤ b.length := by
    intro b t v h
    induction h with
    | here hdr tag v rest h => simp; omega
    | next hdr tag' v' rest tag v h hw ih => simp; omega
    | inside hdr tag' v' rest tag v h hc hw ih => simp; omega
  apply listing_safe
  intro depth tag v ht h
  have := hw _ _ _ h
  exact ⟨_, emvItem_eq env he loc hl pfx depth tag v ht (by omega) (hd tag v h)⟩

/-- An entry of a list of fields: a primitive field, or a constructed one and what it holds. -/
inductive Entry where
  | prim (tag value : List Byte)
  | node (tag : List Byte) (children : Doc)

def Entry.tlv : Entry → Tlv
  | .prim tag value => ⟨beNat tag, topBits tag, value⟩
  | .node tag children => ⟨beNat tag, topBits tag, children.enc⟩

def Entry.Ok (loc : Nat → List Byte → List Byte) : Entry → Prop
  | .prim tag value => IsTag tag ∧ ¬ IsConstructed tag ∧ value.length < 2 ^ 31 ∧ Defined loc tag value
  | .node tag children => IsTag tag ∧ IsConstructed tag ∧ children.enc.length < 2 ^ 31 ∧
      Defined loc tag children.enc ∧ children.WF false children.enc.length [] ∧
      children.All (AllDefined loc) 2

def Entry.text (env : Env) (loc : Nat → List Byte → List Byte) : Entry → List Byte
  | .prim tag value => emvLine env loc txt!"  " 1 tag value
  | .node tag children => emvLine env loc txt!"  " 1 tag children.enc ++
      children.text (emvLine env loc txt!"  ") txt!"  " 2

/-- **C92.**  A list of fields is listed field by field, each one step deep, and what constructed
ones hold two.  Missing: fields whose description is not defined (`C92_undefined`). -/
theorem C92_field_list_partial (env : Env) (he : Sane env) (loc : Nat → List Byte → List Byte)
    (hl : ∀ t v, (loc t v).length = 2048) (fs : List Entry) (hf : ∀ f ∈ fs, f.Ok loc) :
    emvTlvList env loc (fs.map Entry.tlv) = .ok (fs.map (Entry.text env loc)).flatten := by
  induction fs with
  | nil => rfl
  | cons f fs ih =>
    have hok := hf f (by simp)
    have ih := ih (fun g hg => hf g (by simp [hg]))
    cases f with
    | prim tag value =>
      obtain ⟨ht, hc, hv, hd⟩ := hok
      rw [List.map_cons, Entry.tlv, emvTlvList, emvTlv, emvItem_eq env he loc hl _ _ _ _ ht (by omega) hd]
      simp only [bind_ok]
      rw [if_neg (by rw [constructed_tlv ht]; exact hc), ih]
      rfl
    | node tag children =>
      obtain ⟨ht, hc, hv, hd, hw, ha⟩ := hok
      rw [List.map_cons, Entry.tlv, emvTlvList, emvTlv, emvItem_eq env he loc hl _ _ _ _ ht (by omega) hd]
      simp only [bind_ok]
      rw [if_pos ((constructed_tlv ht).2 hc), C92_listing_partial env he loc hl _ _ _ _ hv hw ha, ih]
      rfl

/-- **C92 is false of fields with an undefined description** (C84), such as an empty Transaction
Type or a Transaction Date: listing them is undefined. -/
theorem C92_undefined (env : Env) (loc : Nat → List Byte → List Byte) (pfx : List Byte) (pad : Bool)
    (depth : Nat) (hdr tag v rest : List Byte) (hr : Reads (hdr ++ v ++ rest) hdr tag v)
    (hu : Undefined (beNat tag) v (loc (beNat tag) v)) :
    emvBuf env loc pfx pad depth (hdr ++ v ++ rest) = .error .oobRead ∨
    emvBuf env loc pfx pad depth (hdr ++ v ++ rest) = .error .oobWrite := by
  unfold emvBuf listing level
  rw [walk, itrNext_reads hr]
  simp only [bind_ok]
  unfold emvItem
  simp only
  rcases C84_undefined env (beNat tag) v _ hu with h | h <;> rw [h]
  · exact .inl rfl
  · exact .inr rfl

example : Reads [0x9C, 0x00] [0x9C, 0x00] [0x9C] [] ∧
    ∀ str, Undefined (beNat [0x9C]) [] str :=
  ⟨⟨.inl ⟨by decide, rfl⟩, by decide, by decide +kernel⟩, fun _ => .inl ⟨by decide, rfl⟩⟩

/-- FCI with a payment system's AID, a label and a list of two data objects. -/
def sampleFci : Doc :=
  .node [0x6F, 0x19] [0x6F]
    (.prim [0x84, 0x07] [0x84] [0xA0, 0, 0, 0, 0x03, 0x10, 0x10]
      (.node [0xA5, 0x0E] [0xA5]
        (.prim [0x50, 0x04] [0x50] txt!"VISA"
          (.prim [0x9F, 0x38, 0x05] [0x9F, 0x38] [0x9F, 0x02, 0x06, 0x9A, 0x03] .nil)) .nil)) .nil

example : sampleFci.WF false sampleFci.enc.length [] := by
  refine ⟨⟨?_, ?_, ?_⟩, ?_, ⟨⟨?_, ?_, ?_⟩, ?_, ⟨?_, ?_, ?_⟩, ?_, ⟨⟨?_, ?_, ?_⟩, ?_, ⟨?_, ?_, ?_⟩, ?_, trivial⟩,
    trivial⟩, trivial⟩ <;>
  first
  | exact .inl ⟨by decide, rfl⟩
  | exact .inr ⟨by decide, by decide, [], 0x38, rfl, by decide, by decide⟩
  | decide +kernel

/-- A label and a proprietary template with one. -/
example (loc : Nat → List Byte → List Byte) : ∀ f ∈ [Entry.prim [0x50] txt!"VISA",
    .node [0xA5] (.prim [0x50, 0x04] [0x50] txt!"VISA" .nil)], f.Ok loc := by
  intro f hf
  simp only [List.mem_cons, List.not_mem_nil, or_false] at hf
  rcases hf with rfl | rfl
  · exact ⟨.inl ⟨by decide, rfl⟩, by decide, by decide, by unfold Undefined; simp [beNat], by decide +kernel⟩
  · exact ⟨.inl ⟨by decide, rfl⟩, by decide, by decide +kernel, ⟨by unfold Undefined; simp [beNat], by decide +kernel⟩,
      ⟨⟨.inl ⟨by decide, rfl⟩, by decide +kernel, by decide +kernel⟩, by decide, trivial⟩,
      ⟨by unfold Undefined; simp [beNat], by decide +kernel⟩, trivial⟩

example (loc : Nat → List Byte → List Byte) : sampleFci.All (AllDefined loc) 0 := by
  refine ⟨?_, ⟨?_, ?_, ⟨?_, ?_, trivial⟩, trivial⟩, trivial⟩ <;>
    refine ⟨by unfold Undefined; simp [beNat], by decide +kernel⟩

example : emvBuf noTables (fun _ _ => List.replicate 2048 0) txt!"  " false 0 sampleFci.enc =
    .ok (txt!"6F | File Control Information (FCI) Template : [25]" ++ [0x0A] ++
      txt!"  84 | Dedicated File (DF) Name : [7] A0 00 00 00 03 10 10 (Visa Credit/Debit)" ++ [0x0A] ++
      txt!"  A5 | File Control Information (FCI) Proprietary Template : [14]" ++ [0x0A] ++
      txt!"    50 | Application Label : [4] 56 49 53 41 \"VISA\"" ++ [0x0A] ++
      txt!"    9F38 | Processing Options Data Object List (PDOL) : [5] 9F 02 06 9A 03" ++ [0x0A] ++
      txt!"      Data Object List:" ++ [0x0A] ++
      txt!"        9F02 | Amount, Authorised (Numeric) [6]" ++ [0x0A] ++
      txt!"        9A | Transaction Date [3]" ++ [0x0A]) := by
  decide +kernel

/-! ## C93 -/

/-- **C93.**  A data object list is shown entry by entry, in order, each with its tag, its name and
the length asked for, up to the first entry that is not complete.  Missing: entries that ask for 14
bytes of tag 84 (`C93_null`). -/
theorem C93_dol_partial (pfx : List Byte) (depth : Nat) (v : List Byte)
    (h : ∀ r ∈ reqs v, ¬ (r.tag = [0x84] ∧ r.len = 14)) :
    dol pfx depth v = .ok (dolText pfx depth v) := dol_eq pfx depth v h

/-- **C93.**  For a well-formed list these are its entries. -/
theorem C93_reqs (rs : List Dol.Req) (h : ∀ r ∈ rs, r.WF) (bad : List Byte)
    (hb : ∀ t l rest, tagOctets bad ≠ some (t, l :: rest)) :
    reqs (Dol.encDol rs ++ bad) = rs := by
  have key : ∀ (rs : List Dol.Req), (∀ r ∈ rs, r.WF) → ∀ k, rs.length ≤ k →
      (Dol.encDol rs ++ bad).length ≤ k → reqsIn k (Dol.encDol rs ++ bad) = rs := by
    intro rs
    induction rs with
    | nil =>
      intro _ k _ _
      cases k with
      | zero => rfl
      | succ k =>
        rw [reqsIn]
        split
        · rename_i t l rest e
          exact absurd e (hb t l rest)
        · rfl
    | cons r rs ih =>
      intro hw k hk hk2
      have e : Dol.encDol (r :: rs) ++ bad = r.tag ++ (r.len :: (Dol.encDol rs ++ bad)) := by
        simp [Dol.encDol]
      obtain ⟨k, rfl⟩ : ∃ j, k = j + 1 := ⟨k - 1, by simp at hk; omega⟩
      rw [e] at hk2 ⊢
      rw [reqsIn, tagOctets_enc (hw r (by simp))]
      simp only
      simp only [List.length_append, List.length_cons] at hk2 hk
      rw [ih (fun x hx => hw x (by simp [hx])) k (by omega) (by rw [List.length_append]; omega)]
  refine key rs h _ ?_ (Nat.le_refl _)
  have : ∀ rs : List Dol.Req, rs.length ≤ (Dol.encDol rs).length := by
    intro rs
    induction rs with
    | nil => simp
    | cons r rs ih =>
      simp only [Dol.encDol, List.map_cons, List.flatten_cons, List.length_append, List.length_cons,
        List.length_nil] at ih ⊢
      omega
  have := this rs
  rw [List.length_append]
  omega

/-- **C93.**  A list of tags is shown tag by tag, in order, up to the first that is not complete. -/
theorem C93_tags (pfx : List Byte) (depth : Nat) (v : List Byte) :
    tagList pfx depth v = .ok (tagListText pfx depth v) := tagList_eq pfx depth v

/-- **C93.**  For a well-formed list these are its tags. -/
theorem C93_tags_in (ts : List (List Byte)) (h : ∀ t ∈ ts, IsTag t) (bad : List Byte)
    (hb : tagOctets bad = none) : tags (ts.flatten ++ bad) = ts := by
  have key : ∀ (ts : List (List Byte)), (∀ t ∈ ts, IsTag t) → ∀ k,
      (ts.flatten ++ bad).length ≤ k → tagsIn k (ts.flatten ++ bad) = ts := by
    intro ts
    induction ts with
    | nil =>
      intro _ k _
      cases k with
      | zero => rfl
      | succ k => rw [tagsIn]; simp [hb]
    | cons t ts ih =>
      intro hw k hk2
      have ht := isTag_length (hw t (by simp))
      rw [List.flatten_cons, List.append_assoc] at hk2 ⊢
      simp only [List.length_append] at hk2
      obtain ⟨k, rfl⟩ : ∃ j, k = j + 1 := ⟨k - 1, by omega⟩
      rw [tagsIn, tagOctets_enc (hw t (by simp))]
      simp only
      rw [ih (fun x hx => hw x (by simp [hx])) k (by rw [List.length_append]; omega)]
  exact key ts h _ (Nat.le_refl _)

example : reqs (Dol.encDol [⟨[0x9F, 0x02], 6⟩, ⟨[0x9A], 3⟩] ++ [0x9F]) =
    [⟨[0x9F, 0x02], 6⟩, ⟨[0x9A], 3⟩] := by
  apply C93_reqs
  · intro r hr
    rcases List.mem_cons.1 hr with rfl | hr
    · exact .inr ⟨by decide, by decide, [], 0x02, rfl, by decide, by decide⟩
    · rw [List.mem_singleton.1 hr]; exact .inl ⟨by decide, rfl⟩
  · intro t l rest h; cases h

example : tagList txt!"  " 1 [0x9F, 0x37, 0x9F, 0x66, 0xDF] =
    .ok (txt!"  Tag List:" ++ [0x0A] ++ txt!"    9F37 | Unpredictable Number" ++ [0x0A] ++
      txt!"    9F66" ++ [0x0A]) := by decide +kernel

/-- What is known of a field that is only named. -/
theorem known_named (env : Env) (loc : Nat → List Byte → List Byte)
    (hl : ∀ t v, (loc t v).length = 2048) (tag v name : List Byte) (f : Fmt)
    (hs : ¬ Shared (beNat tag))
    (h : table.find? (fun e => e.tag == beNat tag) = some ⟨beNat tag, name, f, .none⟩) :
    known env loc tag v = ⟨some name, f, []⟩ := by
  unfold known
  rw [getInfo_eq, byTag, if_neg (fun h => hs (.inl h)), if_neg (fun h => hs (.inr (.inl h))),
    if_neg (fun h => hs (.inr (.inr h))), h]
  have hz := hl (beNat tag) v
  cases hc : loc (beNat tag) v with
  | nil => rw [hc] at hz; cases hz
  | cons a l => rfl

/-- **C93.**  In a listing of EMV data it is the fields CDOL1, CDOL2, PDOL and DDOL below which the
entries are listed, one level deeper, after their bytes.  Missing: as in `C93_dol_partial`. -/
theorem C93_fields_partial (env : Env) (he : Sane env) (loc : Nat → List Byte → List Byte)
    (hl : ∀ t v, (loc t v).length = 2048) (pfx : List Byte) (depth : Nat) (r : List Byte × List Byte)
    (hr : r ∈ [([0x8C], txt!"Card Risk Management Data Object List 1 (CDOL1)"),
      ([0x8D], txt!"Card Risk Management Data Object List 2 (CDOL2)"),
      ([0x9F, 0x38], txt!"Processing Options Data Object List (PDOL)"),
      ([0x9F, 0x49], txt!"Dynamic Data Authentication Data Object List (DDOL)")])
    (v : List Byte) (hv : v.length < 2 ^ 32)
    (h : ∀ r ∈ reqs v, ¬ (r.tag = [0x84] ∧ r.len = 14)) :
    emvItem env loc pfx depth ⟨beNat r.1, topBits r.1, v⟩ =
      .ok (indentation pfx depth ++ hexOf r.1 ++ txt!" | " ++ r.2 ++ txt!" : [" ++
        Lists.decimal v.length ++ txt!"]" ++ spacedHex v ++ [0x0A] ++ dolText pfx (depth + 1) v,
        none) := by
  have key : ∀ r ∈ [([0x8C], txt!"Card Risk Management Data Object List 1 (CDOL1)"),
      ([0x8D], txt!"Card Risk Management Data Object List 2 (CDOL2)"),
      ([0x9F, 0x38], txt!"Processing Options Data Object List (PDOL)"),
      ([0x9F, 0x49], txt!"Dynamic Data Authentication Data Object List (DDOL)")],
      IsTag r.1 ∧ ¬ IsConstructed r.1 ∧ ¬ Shared (beNat r.1) ∧
      beNat r.1 ∈ [0x8C, 0x8D, 0x9F38, 0x9F49] ∧
      table.find? (fun e => e.tag == beNat r.1) = some ⟨beNat r.1, r.2, .dol, .none⟩ := by
    intro r hr
    simp only [List.mem_cons, List.not_mem_nil, or_false] at hr
    rcases hr with rfl | rfl | rfl | rfl
    · exact ⟨.inl ⟨by decide, rfl⟩, by decide, by decide, by decide, by decide +kernel⟩
    · exact ⟨.inl ⟨by decide, rfl⟩, by decide, by decide, by decide, by decide +kernel⟩
    · exact ⟨.inr ⟨by decide, by decide, [], 0x38, rfl, by decide, by decide⟩, by decide, by decide,
        by decide, by decide +kernel⟩
    · exact ⟨.inr ⟨by decide, by decide, [], 0x49, rfl, by decide, by decide⟩, by decide, by decide,
        by decide, by decide +kernel⟩
  obtain ⟨ht, hc, hs, hm, hf⟩ := key r hr
  have hu : ¬ Undefined (beNat r.1) v (loc (beNat r.1) v) := by
    unfold Undefined
    generalize beNat r.1 = n at hm
    simp only [List.mem_cons, List.not_mem_nil, or_false] at hm
    rcases hm with rfl | rfl | rfl | rfl <;> simp
  rw [emvItem_eq env he loc hl pfx depth r.1 v ht hv ⟨hu, fun _ => h⟩, emvLine,
    known_named env loc hl r.1 v r.2 .dol hs hf, if_neg hc]
  simp [emvRemark, titled, below]

/-- **C93.**  And it is the field Static Data Authentication Tag List below which the tags are. -/
theorem C93_tag_field (env : Env) (he : Sane env) (loc : Nat → List Byte → List Byte)
    (hl : ∀ t v, (loc t v).length = 2048) (pfx : List Byte) (depth : Nat)
    (v : List Byte) (hv : v.length < 2 ^ 32) :
    emvItem env loc pfx depth ⟨0x9F4A, topBits [0x9F, 0x4A], v⟩ =
      .ok (indentation pfx depth ++ txt!"9F4A | Static Data Authentication (SDA) Tag List : [" ++
        Lists.decimal v.length ++ txt!"]" ++ spacedHex v ++ [0x0A] ++ tagListText pfx (depth + 1) v,
        none) := by
  have hf : table.find? (fun e => e.tag == beNat [0x9F, 0x4A]) =
      some ⟨beNat [0x9F, 0x4A], txt!"Static Data Authentication (SDA) Tag List", .tagList, .none⟩ := by
    decide +kernel
  have hu : ¬ Undefined (beNat [0x9F, 0x4A]) v (loc (beNat [0x9F, 0x4A]) v) := by
    rw [show beNat [0x9F, 0x4A] = 0x9F4A from rfl]
    simp [Undefined]
  have hi := emvItem_eq env he loc hl pfx depth [0x9F, 0x4A] v
    (.inr ⟨by decide, by decide, [], 0x4A, rfl, by decide, by decide⟩) hv
    ⟨hu, fun h => absurd h (by decide)⟩
  rw [emvLine, known_named env loc hl _ v _ _ (by decide) hf, if_neg (by decide)] at hi
  refine (show _ = _ from hi).trans ?_
  have ht : txt!"9F4A | Static Data Authentication (SDA) Tag List : [" = hexOf [0x9F, 0x4A] ++
      txt!" | " ++ txt!"Static Data Authentication (SDA) Tag List" ++ txt!" : [" := by decide +kernel
  rw [ht]
  simp [emvRemark, titled, below]

example (env : Env) (he : Sane env) :
    emvItem env (fun _ _ => List.replicate 2048 0xAA) txt!"  " 0 ⟨0x9F49, 4, [0x9F, 0x37, 0x04]⟩ =
      .ok (txt!"9F49 | Dynamic Data Authentication Data Object List (DDOL) : [3] 9F 37 04" ++ [0x0A] ++
        txt!"  Data Object List:" ++ [0x0A] ++ txt!"    9F37 | Unpredictable Number [4]" ++ [0x0A],
        none) := by
  have h := C93_fields_partial env he (fun _ _ => List.replicate 2048 0xAA)
    (fun _ _ => List.length_replicate) txt!"  " 0
    ([0x9F, 0x49], txt!"Dynamic Data Authentication Data Object List (DDOL)") (by simp)
    [0x9F, 0x37, 0x04] (by decide) (by decide)
  exact h.trans (by decide +kernel)

/-- **C93.**  The name is the one `emv_tlv_get_info` gives for any field of that tag (the tags of
several meanings apart). -/
theorem C93_name (env : Env) (tag : List Byte) (ht : IsTag tag) (hs : ¬ Shared (beNat tag)) (n : Nat)
    (v str : List Byte) (c : Int) (info : Info) (out : List Byte)
    (h : getInfo env (beNat tag) v str = .ok (c, info, out)) : nameFor tag n = info.name := by
  unfold nameFor
  rw [if_neg (by rintro rfl; exact hs (.inl rfl)), if_neg (by rintro rfl; exact hs (.inr (.inl rfl))),
    if_neg (by rintro rfl; exact hs (.inr (.inr rfl)))]
  rw [getInfo_eq, byTag, if_neg (fun h => hs (.inl h)), if_neg (fun h => hs (.inr (.inl h))),
    if_neg (fun h => hs (.inr (.inr h)))] at h
  unfold nameOf
  cases hf : table.find? (fun e => e.tag == beNat tag) with
  | none => rw [hf] at h; cases h; rfl
  | some e => rw [hf] at h; rw [(named_inv h).2]; rfl

/-- **C93 is false of a list that asks for the 14 bytes of a DF Name**: the name is looked up with
no value, and the value is read. -/
theorem C93_null (pfx : List Byte) (depth : Nat) (rest : List Byte) :
    dol pfx depth (0x84 :: 0x0E :: rest) = .error .oobRead := by
  unfold dol
  rw [dolLoop, dolNext_some (t := [0x84]) (l := 0x0E) (rest := rest) rfl]
  rfl

/-- **C93 is false of a list that ends in the middle of an entry**: the listing does not say so. -/
theorem C93_cut (pfx : List Byte) (depth : Nat) :
    dol pfx depth [0x9A, 0x03, 0x9F] = dol pfx depth [0x9A, 0x03] := by rfl

end Verif.Print
