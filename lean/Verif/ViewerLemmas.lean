import Verif.ViewerSpec
import Verif.Viewer
import Verif.PrintEmvProps

/-! # Lemmas on the tree view -/

set_option autoImplicit false

namespace Verif.Viewer
open Verif Ber BerSpec PrintSpec ViewerSpec Print TlvInfo

theorem padding_iff (n valid : Nat) :
    looksLikePadding n valid = true ↔ (valid < n ∧ ViewerSpec.PadRule n (n - valid)) := by
  simp [looksLikePadding, ViewerSpec.PadRule]
  omega

section walk
variable {ι : Type} (field : Nat → Nat → Nat → Tlv → C ι) (padding : Nat → Nat → List Byte → ι)
  (show_ : Nat → Nat → Nat → List Byte → List Byte → ι)

/-- The item of a row. -/
def itemOf : Row → ι
  | ⟨depth, offset, length, .field tag v⟩ => show_ depth offset length tag v
  | ⟨depth, offset, _, .padding bytes⟩ => padding depth offset bytes

/-- The item of an object is `show_`. -/
def Makes (depth : Nat) (tag v : List Byte) : Prop :=
  ∀ offset length, field depth offset length ⟨beNat tag, topBits tag, v⟩ =
    .ok (show_ depth offset length tag v)

theorem parse_nil (pad : Bool) (fuel depth : Nat) (whole : List Byte) (valid total : Nat)
    (h : 0 < fuel) :
    parseData field padding pad fuel depth whole [] valid total = .ok ([], total, true) := by
  obtain ⟨f, rfl⟩ : ∃ f, fuel = f + 1 := ⟨fuel - 1, by omega⟩
  unfold parseData
  rw [itrNext_nil]
  rfl

theorem parse_doc (pad : Bool) (d : Doc) :
    ∀ (depth : Nat) (whole tail : List Byte) (T : List ι) (valid total n : Nat) (ok : Bool),
    whole.drop valid = d.enc ++ tail → valid ≤ whole.length →
    Fits pad whole.length d tail → d.All (Makes field show_) depth →
    (∀ fuel, tail.length < fuel →
      parseData field padding pad fuel depth whole tail (valid + d.enc.length)
        (total + d.enc.length) = .ok (T, n, ok)) →
    ∀ fuel, d.enc.length + tail.length < fuel →
      parseData field padding pad fuel depth whole (d.enc ++ tail) valid total =
        .ok ((rows depth total d).map (itemOf padding show_) ++ T, n, ok) := by
  induction d with
  | nil =>
    intro depth whole tail T valid total n ok _ _ _ _ hk fuel hf
    have := hk fuel (by simp [Doc.enc] at hf; exact hf)
    simpa [Doc.enc, rows] using this
  | padding bytes =>
    intro depth whole tail T valid total n ok hd hv hwf _ hk fuel hf
    obtain ⟨hp, rfl, hne, ⟨c, hc⟩, hrule⟩ := hwf
    have h0 := hk 1 (by simp)
    rw [parse_nil _ _ _ _ _ _ _ _ (by omega)] at h0
    simp only [Except.ok.injEq, Prod.mk.injEq] at h0
    obtain ⟨rfl, rfl, rfl⟩ := h0
    obtain ⟨f, rfl⟩ : ∃ f, fuel = f + 1 := ⟨fuel - 1, by omega⟩
    have hl : whole.length - valid = bytes.length := by
      have := congrArg List.length hd
      simpa [Doc.enc] using this
    have hpos : 0 < bytes.length := List.length_pos_iff.mpr hne
    simp only [Doc.enc, List.append_nil] at hd ⊢
    unfold parseData
    rw [itrNext_refused hc]
    simp only [bind_ok]
    rw [if_pos (by
      rw [Bool.and_eq_true, padding_iff, hl]
      exact ⟨hp, by omega, hrule⟩), slice_eq (by omega), hd, hl]
    simp [rows, itemOf]
  | prim hdr tag value rest ih =>
    intro depth whole tail T valid total n ok hd hv hwf hall hk fuel hf
    obtain ⟨hr, hc, hwf⟩ := hwf
    obtain ⟨f, rfl⟩ : ∃ f, fuel = f + 1 := ⟨fuel - 1, by omega⟩
    have h1 := reads_hdr hr
    simp only [Doc.enc, List.append_assoc, List.length_append] at hd hf hk ⊢
    have hlen := congrArg List.length hd
    simp only [List.length_drop, List.length_append] at hlen
    have hd' : whole.drop (valid + (hdr.length + value.length)) = rest.enc ++ tail := by
      rw [← List.drop_drop, hd, ← List.append_assoc, ← List.length_append, List.drop_left]
    have h2 := ih depth whole tail T (valid + (hdr.length + value.length))
      (total + (hdr.length + value.length)) n ok hd' (by omega) hwf hall.2
      (fun fuel hf => by
        have := hk fuel hf
        rwa [show valid + (hdr.length + (value.length + rest.enc.length)) =
          valid + (hdr.length + value.length) + rest.enc.length by omega,
          show total + (hdr.length + (value.length + rest.enc.length)) =
          total + (hdr.length + value.length) + rest.enc.length by omega] at this) f (by omega)
    rw [← List.append_assoc]
    unfold parseData
    rw [itrNext_reads hr]
    simp only [bind_ok]
    rw [hall.1]
    simp only [bind_ok]
    rw [if_neg (by rw [constructed_tlv hr.1]; exact hc), h2]
    simp [rows, itemOf]
  | node hdr tag children rest ihc ihr =>
    intro depth whole tail T valid total n ok hd hv hwf hall hk fuel hf
    obtain ⟨hr, hc, hwc, hwf⟩ := hwf
    obtain ⟨f, rfl⟩ : ∃ f, fuel = f + 1 := ⟨fuel - 1, by omega⟩
    have h1 := reads_hdr hr
    simp only [Doc.enc, List.append_assoc, List.length_append] at hd hf hk ⊢
    have hlen := congrArg List.length hd
    simp only [List.length_drop, List.length_append] at hlen
    have hd' : whole.drop (valid + (hdr.length + children.enc.length)) = rest.enc ++ tail := by
      rw [← List.drop_drop, hd, ← List.append_assoc, ← List.length_append, List.drop_left]
    have h2 := ihr depth whole tail T (valid + (hdr.length + children.enc.length))
      (total + hdr.length + children.enc.length) n ok hd' (by omega) hwf hall.2.2
      (fun fuel hf => by
        have := hk fuel hf
        rwa [show valid + (hdr.length + (children.enc.length + rest.enc.length)) =
          valid + (hdr.length + children.enc.length) + rest.enc.length by omega,
          show total + (hdr.length + (children.enc.length + rest.enc.length)) =
          total + hdr.length + children.enc.length + rest.enc.length by omega] at this) f (by omega)
    have h3 := ihc (depth + 1) children.enc [] [] 0 (total + hdr.length)
      (total + hdr.length + children.enc.length) true (by simp) (by simp) hwc hall.2.1
      (fun fuel hf => by
        rw [parse_nil _ _ _ _ _ _ _ _ (by omega)]) f (by simp; omega)
    rw [List.append_nil, List.append_nil] at h3
    rw [← List.append_assoc]
    unfold parseData
    rw [itrNext_reads hr]
    simp only [bind_ok]
    rw [hall.1]
    simp only [bind_ok]
    rw [if_pos (by rw [constructed_tlv hr.1]; exact hc),
      show total + (hdr.length + children.enc.length - children.enc.length) = total + hdr.length by
        omega, h3]
    simp only [bind_ok, if_true]
    rw [show valid + (hdr.length + children.enc.length - children.enc.length) +
      children.enc.length = valid + (hdr.length + children.enc.length) by omega, h2]
    simp [rows, itemOf, Nat.add_assoc]

/-- A complete document. -/
theorem parse_whole (pad : Bool) (d : Doc) (depth fuel total : Nat)
    (hwf : Fits pad d.enc.length d []) (hall : d.All (Makes field show_) depth)
    (hf : d.enc.length < fuel) :
    parseData field padding pad fuel depth d.enc d.enc 0 total =
      .ok ((rows depth total d).map (itemOf padding show_), total + d.enc.length, true) := by
  have := parse_doc field padding show_ pad d depth d.enc [] [] 0 total (total + d.enc.length) true
    (by simp) (by simp) hwf hall
    (fun fuel hf => by rw [parse_nil _ _ _ _ _ _ _ _ (by omega)]) fuel (by simpa using hf)
  rwa [List.append_nil, List.append_nil] at this

theorem parse_path (pad : Bool) (p : Path) :
    ∀ (depth fuel total : Nat), Leads pad p.enc.length p → p.All (Makes field show_) depth →
    p.enc.length < fuel →
    parseData field padding pad fuel depth p.enc p.enc 0 total =
      .ok ((rowsTo depth total p).map (itemOf padding show_), total + p.offset, false) := by
  induction p with
  | stop d bad c =>
    intro depth fuel total hwf hall hf
    obtain ⟨hwd, hne, href, hnp⟩ := hwf
    have := parse_doc field padding show_ pad d depth (d.enc ++ bad) bad [] 0 total
      (total + d.enc.length) false (by simp) (by simp) hwd hall
      (fun fuel hf => by
        obtain ⟨f, rfl⟩ : ∃ f, fuel = f + 1 := ⟨fuel - 1, by omega⟩
        unfold parseData
        rw [itrNext_refused href]
        simp only [bind_ok]
        rw [if_neg]
        rw [Bool.and_eq_true, padding_iff]
        rintro ⟨h1, -, h2⟩
        refine hnp ⟨h1, ?_⟩
        simpa [Path.enc] using h2)
      fuel (by simpa [Path.enc] using hf)
    simpa [Path.enc, rowsTo, Path.offset] using this
  | into d hdr tag p after ih =>
    intro depth fuel total hwf hall hf
    obtain ⟨hwd, hr, hc, hwp⟩ := hwf
    obtain ⟨had, hg, hap⟩ := hall
    have h1 := reads_hdr hr
    simp only [Path.enc, List.length_append] at hf
    have := parse_doc field padding show_ pad d depth (d.enc ++ (hdr ++ p.enc ++ after))
      (hdr ++ p.enc ++ after)
      (show_ depth (total + d.enc.length) (hdr.length + p.enc.length) tag p.enc ::
        (rowsTo (depth + 1) (total + d.enc.length + hdr.length) p).map (itemOf padding show_)) 0 total
      (total + d.enc.length + hdr.length + p.offset) false (by simp) (by simp)
      hwd had
      (fun fuel hf => by
        obtain ⟨f, rfl⟩ : ∃ f, fuel = f + 1 := ⟨fuel - 1, by omega⟩
        unfold parseData
        rw [itrNext_reads hr]
        simp only [bind_ok]
        rw [hg]
        simp only [bind_ok]
        rw [if_pos (by rw [constructed_tlv hr.1]; exact hc),
          show total + d.enc.length + (hdr.length + p.enc.length - p.enc.length) =
            total + d.enc.length + hdr.length by omega,
          ih (depth + 1) f (total + d.enc.length + hdr.length) hwp hap (by simp at hf; omega)]
        simp)
      fuel (by simp; omega)
    simpa [Path.enc, rowsTo, Path.offset, itemOf, Nat.add_assoc] using this

end walk

/-! ## Every input -/

theorem doc_or_path (pad : Bool) : ∀ (k : Nat) (buf : List Byte) (n : Nat), buf.length ≤ k →
    (∃ d : Doc, Fits pad n d [] ∧ buf = d.enc) ∨ (∃ p : Path, Leads pad n p ∧ buf = p.enc) := by
  intro k
  induction k with
  | zero =>
    intro buf n h
    exact .inl ⟨.nil, trivial, by simpa [Doc.enc] using h⟩
  | succ k ih =>
    intro buf n h
    rcases reads_split buf with rfl | ⟨c, hc⟩ | ⟨hdr, tag, value, rest, rfl, hr⟩
    · exact .inl ⟨.nil, trivial, rfl⟩
    · have hne := refused_neg hc
      by_cases hp : pad = true ∧ ViewerSpec.PadRule n buf.length
      · exact .inl ⟨.padding buf, ⟨hp.1, rfl, hne, ⟨c, hc⟩, hp.2⟩, rfl⟩
      · exact .inr ⟨.stop .nil buf c, ⟨trivial, hne, hc, hp⟩, rfl⟩
    · have h1 := reads_hdr hr
      simp only [List.length_append] at h
      have hrest := ih rest n (by omega)
      by_cases hc : IsConstructed tag
      · rcases ih value value.length (by omega) with ⟨c, hwc, he⟩ | ⟨p, hwp, he⟩
        · subst he
          rcases hrest with ⟨d, hd, rfl⟩ | ⟨p, hp, rfl⟩
          · exact .inl ⟨.node hdr tag c d, ⟨by simpa using hr, hc, hwc, hd⟩, rfl⟩
          · right
            cases p with
            | stop d bad e =>
              exact ⟨.stop (.node hdr tag c d) bad e, ⟨⟨hr, hc, hwc, hp.1⟩, hp.2⟩,
                by simp [Path.enc, Doc.enc]⟩
            | into d hdr' tag' p after =>
              exact ⟨.into (.node hdr tag c d) hdr' tag' p after, ⟨⟨hr, hc, hwc, hp.1⟩, hp.2⟩,
                by simp [Path.enc, Doc.enc]⟩
        · subst he
          exact .inr ⟨.into .nil hdr tag p rest, ⟨trivial, hr, hc, hwp⟩, by simp [Path.enc, Doc.enc]⟩
      · rcases hrest with ⟨d, hd, rfl⟩ | ⟨p, hp, rfl⟩
        · exact .inl ⟨.prim hdr tag value d, ⟨by simpa using hr, hc, hd⟩, rfl⟩
        · right
          cases p with
          | stop d bad e =>
            exact ⟨.stop (.prim hdr tag value d) bad e, ⟨⟨hr, hc, hp.1⟩, hp.2⟩,
              by simp [Path.enc, Doc.enc]⟩
          | into d hdr' tag' p after =>
            exact ⟨.into (.prim hdr tag value d) hdr' tag' p after, ⟨⟨hr, hc, hp.1⟩, hp.2⟩,
              by simp [Path.enc, Doc.enc]⟩

/-! ## Rows -/

/-- `P depth tag v` holds of every field shown. -/
def RowsAll (P : Nat → List Byte → List Byte → Prop) (rs : List Row) : Prop :=
  ∀ r ∈ rs, ∀ tag v, r.what = .field tag v → P r.depth tag v

theorem all_of_rows {P : Nat → List Byte → List Byte → Prop} (d : Doc) : ∀ (depth o : Nat),
    RowsAll P (rows depth o d) → d.All P depth := by
  induction d with
  | nil => intros; trivial
  | padding b => intros; trivial
  | prim hdr tag v rest ih =>
    intro depth o h
    exact ⟨h ⟨depth, o, (hdr ++ v).length, .field tag v⟩ (by simp [rows]) tag v rfl,
      ih depth (o + (hdr ++ v).length) (fun r hr => h r (by simp only [rows]; exact .tail _ hr))⟩
  | node hdr tag c rest ihc ihr =>
    intro depth o h
    exact ⟨h ⟨depth, o, (hdr ++ c.enc).length, .field tag c.enc⟩ (by simp [rows]) tag c.enc rfl,
      ihc (depth + 1) (o + hdr.length) (fun r hr => h r (by
        simp only [rows]; exact .tail _ (List.mem_append_left _ hr))),
      ihr depth (o + (hdr ++ c.enc).length) (fun r hr => h r (by
        simp only [rows]; exact .tail _ (List.mem_append_right _ hr)))⟩

theorem all_of_rowsTo {P : Nat → List Byte → List Byte → Prop} (p : Path) : ∀ (depth o : Nat),
    RowsAll P (rowsTo depth o p) → p.All P depth := by
  induction p with
  | stop d bad c => intro depth o h; exact all_of_rows d depth o h
  | into d hdr tag p after ih =>
    intro depth o h
    exact ⟨all_of_rows d depth o (fun r hr => h r (List.mem_append_left _ hr)),
      h ⟨depth, o + d.enc.length, (hdr ++ p.enc).length, .field tag p.enc⟩
        (List.mem_append_right _ (.head _)) tag p.enc rfl,
      ih (depth + 1) (o + d.enc.length + hdr.length)
        (fun r hr => h r (List.mem_append_right _ (.tail _ hr)))⟩

theorem parse_reading {ι : Type} (field : Nat → Nat → Nat → Tlv → C ι)
    (padding : Nat → Nat → List Byte → ι) (show_ : Nat → Nat → Nat → List Byte → List Byte → ι)
    (pad : Bool) (data : List Byte) (rs : List Row) (n : Nat) (ok : Bool)
    (h : Reading pad data rs n ok) (ha : RowsAll (Makes field show_) rs) :
    parseData field padding pad (data.length + 1) 0 data data 0 0 =
      .ok (rs.map (itemOf padding show_), n, ok) := by
  cases h with
  | whole d h he =>
    have := parse_whole field padding show_ pad d 0 (data.length + 1) 0 (by rw [← he]; exact h)
      (all_of_rows d 0 0 ha) (by rw [← he]; omega)
    rw [← he] at this
    simpa using this
  | upTo p h he =>
    have := parse_path field padding show_ pad p 0 (data.length + 1) 0 (by rw [← he]; exact h)
      (all_of_rowsTo p 0 0 ha) (by rw [← he]; omega)
    rw [← he] at this
    simpa using this

/-- A row lies between `lo` and `hi`, and is not empty. -/
def Row.In (lo hi : Nat) (r : Row) : Prop := lo ≤ r.offset ∧ r.offset + r.length ≤ hi ∧ 1 ≤ r.length

theorem rows_in (pad : Bool) (d : Doc) : ∀ (n depth o : Nat) (tail : List Byte), Fits pad n d tail →
    ∀ r ∈ rows depth o d, Row.In o (o + d.enc.length) r := by
  induction d with
  | nil => intro n depth o tail _ r hr; simp [rows] at hr
  | padding b =>
    intro n depth o tail hf r hr
    simp only [rows, List.mem_cons, List.not_mem_nil, or_false] at hr
    subst hr
    have := List.length_pos_iff.mpr hf.2.2.1
    exact ⟨Nat.le_refl _, by simp [Doc.enc], this⟩
  | prim hdr tag v rest ih =>
    intro n depth o tail hf r hr
    have h1 := reads_hdr hf.1
    simp only [rows, List.mem_cons] at hr
    simp only [Doc.enc, List.length_append]
    rcases hr with rfl | hr
    · exact ⟨Nat.le_refl _, by simp, by simp; omega⟩
    · obtain ⟨a, b, c⟩ := ih n depth _ tail hf.2.2 r hr
      simp only [List.length_append] at a b
      exact ⟨by omega, by omega, c⟩
  | node hdr tag ch rest ihc ihr =>
    intro n depth o tail hf r hr
    have h1 := reads_hdr hf.1
    simp only [rows, List.mem_cons, List.mem_append] at hr
    simp only [Doc.enc, List.length_append]
    rcases hr with rfl | hr | hr
    · exact ⟨Nat.le_refl _, by simp, by simp; omega⟩
    · obtain ⟨a, b, c⟩ := ihc _ _ _ _ hf.2.2.1 r hr
      exact ⟨by omega, by omega, c⟩
    · obtain ⟨a, b, c⟩ := ihr n depth _ tail hf.2.2.2 r hr
      simp only [List.length_append] at a b
      exact ⟨by omega, by omega, c⟩

theorem rowsTo_in (pad : Bool) (p : Path) : ∀ (n depth o : Nat), Leads pad n p →
    ∀ r ∈ rowsTo depth o p, Row.In o (o + p.enc.length) r := by
  induction p with
  | stop d bad c =>
    intro n depth o hl r hr
    obtain ⟨a, b, c⟩ := rows_in pad d n depth o bad hl.1 r hr
    exact ⟨a, by simp [Path.enc]; omega, c⟩
  | into d hdr tag p after ih =>
    intro n depth o hl r hr
    have h1 := reads_hdr hl.2.1
    simp only [rowsTo, List.mem_append, List.mem_cons] at hr
    simp only [Path.enc, List.length_append]
    rcases hr with hr | rfl | hr
    · obtain ⟨a, b, c⟩ := rows_in pad d n depth o _ hl.1 r hr
      exact ⟨a, by omega, c⟩
    · exact ⟨by simp, by simp; omega, by simp; omega⟩
    · obtain ⟨a, b, c⟩ := ih _ _ _ hl.2.2.2 r hr
      exact ⟨by omega, by omega, c⟩

/-- Row `x` begins before row `r` and has not ended when `r` begins. -/
def encloses (r x : Row) : Bool := decide (x.offset < r.offset ∧ r.offset < x.offset + x.length)

theorem count_none (r : Row) (l : List Row) (h : ∀ x ∈ l, ¬ (x.offset < r.offset ∧ r.offset < x.offset + x.length)) :
    l.countP (encloses r) = 0 := by
  rw [List.countP_eq_zero]
  intro x hx
  simpa [encloses] using h x hx

theorem count_one (r x : Row) (l : List Row) :
    (x :: l).countP (encloses r) =
      (if x.offset < r.offset ∧ r.offset < x.offset + x.length then 1 else 0) + l.countP (encloses r) := by
  rw [List.countP_cons]
  simp only [encloses, decide_eq_true_eq]
  omega

theorem rows_depth (pad : Bool) (d : Doc) : ∀ (n depth o : Nat) (tail : List Byte), Fits pad n d tail →
    ∀ r ∈ rows depth o d, r.depth = depth + (rows depth o d).countP (encloses r) := by
  induction d with
  | nil => intro n depth o tail _ r hr; simp [rows] at hr
  | padding b =>
    intro n depth o tail hf r hr
    simp only [rows, List.mem_cons, List.not_mem_nil, or_false] at hr
    subst hr
    simp [rows, encloses]
  | prim hdr tag v rest ih =>
    intro n depth o tail hf r hr
    have h1 := reads_hdr hf.1
    have hin := rows_in pad rest n depth (o + (hdr ++ v).length) tail hf.2.2
    simp only [rows, List.mem_cons] at hr ⊢
    rw [count_one]
    rcases hr with rfl | hr
    · rw [if_neg (by simp), count_none]
      · rfl
      · intro x hx
        have := hin x hx
        simp only [Row.In, List.length_append] at this
        simp only [not_and]; omega
    · have h2 := hin r hr
      simp only [Row.In] at h2
      rw [if_neg (by simp only [not_and]; omega), Nat.zero_add]
      exact ih n depth _ tail hf.2.2 r hr
  | node hdr tag ch rest ihc ihr =>
    intro n depth o tail hf r hr
    have h1 := reads_hdr hf.1
    have hin := rows_in pad rest n depth (o + (hdr ++ ch.enc).length) tail hf.2.2.2
    have hic := rows_in pad ch _ (depth + 1) (o + hdr.length) [] hf.2.2.1
    simp only [rows, List.mem_cons, List.mem_append] at hr ⊢
    rw [count_one, List.countP_append]
    rcases hr with rfl | hr | hr
    · rw [if_neg (by simp), count_none, count_none]
      · rfl
      · intro x hx
        have := hin x hx
        simp only [Row.In, List.length_append] at this
        simp only [not_and]; omega
      · intro x hx
        have := hic x hx
        simp only [Row.In] at this
        simp only [not_and]; omega
    · have h2 := hic r hr
      simp only [Row.In] at h2
      rw [if_pos (by simp only [List.length_append]; omega), count_none r (rows depth _ rest)]
      · have := ihc _ _ _ _ hf.2.2.1 r hr
        omega
      · intro x hx
        have := hin x hx
        simp only [Row.In, List.length_append] at this
        simp only [not_and]; omega
    · have h2 := hin r hr
      simp only [Row.In, List.length_append] at h2
      rw [if_neg (by simp only [not_and, List.length_append]; omega), count_none r (rows (depth + 1) _ ch)]
      · have := ihr _ _ _ _ hf.2.2.2 r hr
        omega
      · intro x hx
        have := hic x hx
        simp only [Row.In] at this
        simp only [not_and]; omega

theorem rowsTo_depth (pad : Bool) (p : Path) : ∀ (n depth o : Nat), Leads pad n p →
    ∀ r ∈ rowsTo depth o p, r.depth = depth + (rowsTo depth o p).countP (encloses r) := by
  induction p with
  | stop d bad c => intro n depth o hl r hr; exact rows_depth pad d n depth o bad hl.1 r hr
  | into d hdr tag p after ih =>
    intro n depth o hl r hr
    have h1 := reads_hdr hl.2.1
    have hid := rows_in pad d n depth o _ hl.1
    have hip := rowsTo_in pad p _ (depth + 1) (o + d.enc.length + hdr.length) hl.2.2.2
    simp only [rowsTo, List.mem_cons, List.mem_append] at hr ⊢
    rw [List.countP_append, count_one]
    rcases hr with hr | rfl | hr
    · have h2 := hid r hr
      simp only [Row.In] at h2
      have := rows_depth pad d n depth o _ hl.1 r hr
      rw [if_neg (by simp only [not_and]; omega), count_none r (rowsTo _ _ p)]
      · omega
      · intro x hx
        have := hip x hx
        simp only [Row.In] at this
        simp only [not_and]; omega
    · rw [if_neg (by simp), count_none, count_none]
      · rfl
      · intro x hx
        have := hip x hx
        simp only [Row.In] at this
        simp only [not_and]; omega
      · intro x hx
        have := hid x hx
        simp only [Row.In] at this
        simp only [not_and]; omega
    · have h2 := hip r hr
      simp only [Row.In] at h2
      have := ih _ _ _ hl.2.2.2 r hr
      rw [if_pos (by simp only [List.length_append]; omega), count_none r (rows _ _ d)]
      · omega
      · intro x hx
        have := hid x hx
        simp only [Row.In] at this
        simp only [not_and]; omega

theorem reads_shape {buf hdr tag v rest : List Byte} (h : Reads buf hdr tag v)
    (hb : buf = hdr ++ v ++ rest) :
    ∃ len, hdr = tag ++ len ∧ (LenOctets v.length len ∨ (IsConstructed tag ∧ len = [0x80])) := by
  obtain ⟨ht, -, hd⟩ := h
  obtain ⟨tag', rest', h1, h2, -, h3⟩ := decode_inv hd
  have h2 : tag = tag' := beNat_tag_inj ht h1 h2
  subst h2
  subst hb
  rcases h3 with ⟨len, hl, hb, hn⟩ | ⟨hc, hb, -, hn⟩
  · refine ⟨len, ?_, .inl hl⟩
    have h4 : hdr.length = (tag ++ len).length := by simp only [List.length_append] at hn ⊢; omega
    rw [List.append_assoc, List.append_assoc (tag ++ len)] at hb
    exact (List.append_inj hb h4).1
  · refine ⟨[0x80], ?_, .inr ⟨hc, rfl⟩⟩
    have h4 : hdr.length = (tag ++ [0x80]).length := by
      simp only [List.length_append, List.length_cons, List.length_nil] at hn ⊢; omega
    rw [List.append_assoc, List.append_assoc (tag ++ [0x80])] at hb
    exact (List.append_inj hb h4).1

theorem located_field {data buf hdr tag v rest X : List Byte} {o l depth : Nat}
    (h : Reads buf hdr tag v) (hb : buf = hdr ++ v ++ rest) (hd : data.drop o = hdr ++ v ++ X)
    (hl : l = (hdr ++ v).length) : Located data ⟨depth, o, l, .field tag v⟩ := by
  obtain ⟨len, rfl, hs⟩ := reads_shape h hb
  exact ⟨h.1, len, X, hd, by rw [hl]; simp [Nat.add_assoc], hs⟩

theorem rows_located (pad : Bool) (data : List Byte) (d : Doc) :
    ∀ (n depth o : Nat) (tail X : List Byte), Fits pad n d tail → data.drop o = d.enc ++ X →
    ∀ r ∈ rows depth o d, Located data r := by
  induction d with
  | nil => intro n depth o tail X _ _ r hr; simp [rows] at hr
  | padding b =>
    intro n depth o tail X hf hd r hr
    simp only [rows, List.mem_cons, List.not_mem_nil, or_false] at hr
    subst hr
    exact ⟨hf.2.2.1, rfl, X, hd⟩
  | prim hdr tag v rest ih =>
    intro n depth o tail X hf hd r hr
    simp only [Doc.enc] at hd
    simp only [rows, List.mem_cons] at hr
    rcases hr with rfl | hr
    · exact located_field hf.1 rfl (by rw [hd, List.append_assoc]) rfl
    · refine ih n depth _ tail X hf.2.2 ?_ r hr
      rw [← List.drop_drop, hd, List.append_assoc, List.drop_left]
  | node hdr tag ch rest ihc ihr =>
    intro n depth o tail X hf hd r hr
    simp only [Doc.enc] at hd
    simp only [rows, List.mem_cons, List.mem_append] at hr
    rcases hr with rfl | hr | hr
    · exact located_field hf.1 rfl (by rw [hd, List.append_assoc]) rfl
    · refine ihc _ _ _ _ (rest.enc ++ X) hf.2.2.1 ?_ r hr
      rw [← List.drop_drop, hd, List.append_assoc, List.append_assoc, List.drop_left]
    · refine ihr n depth _ tail X hf.2.2.2 ?_ r hr
      rw [← List.drop_drop, hd, List.append_assoc, List.drop_left]

theorem rowsTo_located (pad : Bool) (data : List Byte) (p : Path) :
    ∀ (n depth o : Nat) (X : List Byte), Leads pad n p → data.drop o = p.enc ++ X →
    ∀ r ∈ rowsTo depth o p, Located data r := by
  induction p with
  | stop d bad c =>
    intro n depth o X hl hd r hr
    exact rows_located pad data d n depth o bad (bad ++ X) hl.1 (by
      rw [hd]; simp [Path.enc]) r hr
  | into d hdr tag p after ih =>
    intro n depth o X hl hd r hr
    simp only [Path.enc] at hd
    simp only [rowsTo, List.mem_cons, List.mem_append] at hr
    have h1 : data.drop (o + d.enc.length) = hdr ++ (p.enc ++ (after ++ X)) := by
      rw [← List.drop_drop, hd, List.append_assoc, List.drop_left]
      simp
    rcases hr with hr | rfl | hr
    · exact rows_located pad data d n depth o _ ((hdr ++ p.enc ++ after) ++ X) hl.1 (by
        rw [hd, List.append_assoc]) r hr
    · exact located_field hl.2.1 rfl (X := after ++ X) (by rw [h1]; simp) rfl
    · refine ih _ _ _ (after ++ X) hl.2.2.2 ?_ r hr
      rw [← List.drop_drop, h1, List.drop_left]

theorem consecutive_append : ∀ (a b : List Row) (lo mid hi : Nat), Consecutive lo a mid →
    Consecutive mid b hi → Consecutive lo (a ++ b) hi
  | [], _, _, _, _, h, hb => by rw [Consecutive] at h; subst h; exact hb
  | _ :: a, b, _, mid, hi, h, hb => ⟨h.1, consecutive_append a b _ mid hi h.2 hb⟩

theorem rows_consecutive (pad : Bool) (d : Doc) : ∀ (n depth o : Nat) (tail : List Byte),
    Fits pad n d tail → Consecutive o (rows depth o d) (o + d.enc.length) := by
  induction d with
  | nil => intros; simp [rows, Consecutive, Doc.enc]
  | padding b => intros; simp [rows, Consecutive, Doc.enc, Row.own]
  | prim hdr tag v rest ih =>
    intro n depth o tail hf
    refine ⟨rfl, ?_⟩
    have := ih n depth (o + (hdr ++ v).length) tail hf.2.2
    simp only [Row.own, if_neg hf.2.1, Doc.enc]
    rwa [List.length_append (as := hdr ++ v), ← Nat.add_assoc]
  | node hdr tag ch rest ihc ihr =>
    intro n depth o tail hf
    refine ⟨rfl, ?_⟩
    have h1 := ihc _ (depth + 1) (o + hdr.length) [] hf.2.2.1
    have h2 := ihr n depth (o + (hdr ++ ch.enc).length) tail hf.2.2.2
    simp only [Row.own, if_pos hf.2.1, Doc.enc]
    rw [show (hdr ++ ch.enc).length - ch.enc.length = hdr.length by simp]
    refine consecutive_append _ _ _ _ _ h1 ?_
    rw [List.length_append (as := hdr ++ ch.enc), ← Nat.add_assoc]
    rwa [show o + hdr.length + ch.enc.length = o + (hdr ++ ch.enc).length by simp; omega]

theorem rowsTo_consecutive (pad : Bool) (p : Path) : ∀ (n depth o : Nat), Leads pad n p →
    Consecutive o (rowsTo depth o p) (o + p.offset) := by
  induction p with
  | stop d bad c => intro n depth o hl; exact rows_consecutive pad d n depth o bad hl.1
  | into d hdr tag p after ih =>
    intro n depth o hl
    refine consecutive_append _ _ _ _ _ (rows_consecutive pad d n depth o _ hl.1) ⟨rfl, ?_⟩
    have := ih _ (depth + 1) (o + d.enc.length + hdr.length) hl.2.2.2
    simp only [Row.own, if_pos hl.2.2.1, Path.offset]
    rw [show (hdr ++ p.enc).length - p.enc.length = hdr.length by simp]
    rwa [show o + (d.enc.length + hdr.length + p.offset) = o + d.enc.length + hdr.length + p.offset
      by omega]

theorem Leads.offset_lt (pad : Bool) (p : Path) : ∀ n, Leads pad n p → p.offset < p.enc.length := by
  induction p with
  | stop d bad c =>
    intro n h
    have := List.length_pos_iff.mpr h.2.1
    simp [Path.offset, Path.enc]
    omega
  | into d hdr tag p after ih =>
    intro n h
    have := ih _ h.2.2.2
    simp [Path.offset, Path.enc]
    omega

end Verif.Viewer
