import Verif.Nest
import Verif.TlvParseProps

/-! # Lemmas about recursion with a limited stack -/

set_option autoImplicit false

namespace Verif.Nest
open Verif Ber BerSpec

theorem s_ok {α β : Type} (a : α) (f : α → S β) : (Except.ok a >>= f : S β) = f a := rfl

theorem s_err {α β : Type} (e : Fault) (f : α → S β) : (Except.error e >>= f : S β) = .error e := rfl

theorem up_ok {α : Type} (a : α) : up (.ok a) = .ok a := rfl

theorem up_bind {α β : Type} (x : C α) (f : α → C β) : up (x >>= f) = up x >>= fun a => up (f a) := by
  cases x <;> rfl

theorem up_ite {α : Type} (p : Prop) [Decidable p] (a b : C α) :
    up (if p then a else b) = if p then up a else up b := by
  split <;> rfl

/-! ## Enough frames -/

theorem eocLoop_up (dec : List Byte → S (Dec Tlv)) (dec' : List Byte → C (Dec Tlv)) (buf : List Byte)
    (offset : Nat) (hd : ∀ s : List Byte, s.length ≤ buf.length - offset → dec s = up (dec' s)) :
    ∀ fuel length, eocLoop dec buf offset fuel length = up (Ber.eocLoop dec' buf offset fuel length) := by
  intro fuel
  induction fuel with
  | zero => intros; rfl
  | succ fuel ih =>
    intro length
    unfold eocLoop Ber.eocLoop
    by_cases h : offset + length ≤ buf.length
    · rw [suffix_eq h, bind_ok, up_ok, s_ok, hd _ (by simp; omega), up_bind]
      congr 1
      funext r
      cases r with
      | ok r inner => simp only [up_ite, ih]; rfl
      | eod => rfl
      | err c => rfl
    · simp [suffix, h]; rfl

theorem decode_up : ∀ frames fuel (buf : List Byte), buf.length / 2 < frames → buf.length < fuel →
    decode frames buf = up (decodeF fuel buf) := by
  intro frames
  induction frames with
  | zero => intro fuel buf h; omega
  | succ frames ih =>
    intro fuel buf h h'
    cases fuel with
    | zero => omega
    | succ fuel =>
      unfold decode decodeF
      by_cases h0 : buf.length = 0
      · simp [h0]; rfl
      by_cases h1 : buf.length < 2
      · simp [h0, h1]; rfl
      simp only [h0, h1, if_false]
      obtain ⟨d, hd, hs⟩ := tagDecode_spec buf
      rw [hd, bind_ok, up_ok, s_ok]
      cases d with
      | eod => rfl
      | err => rfl
      | ok offset tag =>
        simp only at hs
        have he : ∀ k l, eocLoop (decode frames) buf (offset + 1) k l =
            up (Ber.eocLoop (decodeF fuel) buf (offset + 1) k l) := fun k l =>
          eocLoop_up _ _ _ _ (fun s hs => ih fuel s (by omega) (by omega)) k l
        simp only [he, up_ite, up_bind]
        split
        · rfl
        · congr 1
          funext b0
          congr 1
          funext lb
          split
          · split
            · rfl
            · congr 1
              funext r
              cases r <;> rfl
          · rfl

theorem decode_enough (frames : Nat) (buf : List Byte) (h : buf.length / 2 < frames) :
    decode frames buf = up (Ber.decode buf) :=
  decode_up frames _ buf h (by omega)

theorem itrNext_enough (frames : Nat) (buf : List Byte) (h : buf.length / 2 < frames) :
    itrNext frames buf = up (Ber.itrNext buf) := by
  unfold itrNext Ber.itrNext
  rw [decode_enough frames buf h, up_bind]
  congr 1
  funext d
  cases d with
  | ok n t => simp only [up_bind]; rfl
  | eod => rfl
  | err c => rfl

/-- What is read of the data leaves room for a call for the contents, and for the rest. -/
theorem step_enough {frames : Nat} {buf : List Byte} (h : buf.length / 2 < frames) :
    (∃ d, Ber.itrNext buf = .ok (buf, d) ∧ (d = .eod ∨ ∃ c, d = .err c)) ∨
    ∃ n t rest, Ber.itrNext buf = .ok (rest, .ok n t) ∧ rest.length / 2 < frames ∧
      ∃ k, frames = k + 1 ∧ t.value.length / 2 < k := by
  rcases TlvParse.itrNext_spec buf with ⟨d, hd, hs⟩ | ⟨n, t, hdr, rest, hd, he, h2⟩
  · refine .inl ⟨d, hd, ?_⟩
    rcases hs with ⟨rfl, -⟩ | ⟨c, rfl, -⟩
    · exact .inl rfl
    · exact .inr ⟨c, rfl⟩
  · have hl := congrArg List.length he
    simp at hl
    exact .inr ⟨n, t, rest, hd, by omega, frames - 1, by omega, by omega⟩

theorem parseF_enough (alloc : List Tlv → Tlv → Bool) : ∀ fuel frames (buf : List Byte) (list : List Tlv),
    buf.length / 2 < frames → parseF alloc fuel frames buf list = up (TlvParse.parseF alloc fuel buf list) := by
  intro fuel
  induction fuel with
  | zero => intros; rfl
  | succ fuel ih =>
    intro frames buf list h
    unfold parseF TlvParse.parseF
    rw [itrNext_enough frames buf h]
    rcases step_enough h with ⟨d, hd, rfl | ⟨c, rfl⟩⟩ | ⟨n, t, rest, hd, hr, k, rfl, hk⟩
    · rw [hd]; rfl
    · rw [hd]; rfl
    · rw [hd, bind_ok, up_ok, s_ok]
      simp only [call, ih k _ _ hk, ih (k + 1) _ _ hr, up_ite, up_bind]
      rfl

theorem walk_enough (item : Nat → Tlv → C (List Byte × Option Int)) (pfx : List Byte) (pad : Bool) :
    ∀ fuel frames depth (whole itr : List Byte) valid, itr.length / 2 < frames →
      walk item pfx pad fuel frames depth whole itr valid =
        up (Print.walk item pfx pad fuel depth whole itr valid) := by
  intro fuel
  induction fuel with
  | zero => intros; rfl
  | succ fuel ih =>
    intro frames depth whole itr valid h
    unfold walk Print.walk
    rw [itrNext_enough frames itr h]
    rcases step_enough h with ⟨d, hd, rfl | ⟨c, rfl⟩⟩ | ⟨n, t, rest, hd, hr, k, rfl, hk⟩
    · rw [hd]; rfl
    · rw [hd]; rfl
    · rw [hd, bind_ok, up_ok, s_ok]
      simp only [call, ih k _ _ _ _ hk, ih (k + 1) _ _ _ _ hr, up_bind]
      congr 1
      funext x
      obtain ⟨line, stop⟩ := x
      cases stop <;> simp only [up_ite, up_bind] <;> rfl

theorem listing_enough (item : Nat → Tlv → C (List Byte × Option Int)) (pfx : List Byte) (pad : Bool)
    (frames depth : Nat) (whole : List Byte) (h : whole.length / 2 + 1 < frames) :
    listing item pfx pad frames depth whole = up (Print.listing item pfx pad depth whole) := by
  obtain ⟨k, rfl⟩ : ∃ k, frames = k + 1 := ⟨frames - 1, by omega⟩
  unfold listing Print.listing Print.level
  simp only [call, walk_enough item pfx pad _ k _ _ _ _ (show whole.length / 2 < k by omega), up_bind]
  rfl

theorem parseData_enough {ι : Type} (field : Nat → Nat → Nat → Tlv → C ι)
    (padding : Nat → Nat → List Byte → ι) (pad : Bool) :
    ∀ fuel frames depth (whole itr : List Byte) valid total, itr.length / 2 < frames →
      parseData field padding pad fuel frames depth whole itr valid total =
        up (Viewer.parseData field padding pad fuel depth whole itr valid total) := by
  intro fuel
  induction fuel with
  | zero => intros; rfl
  | succ fuel ih =>
    intro frames depth whole itr valid total h
    unfold parseData Viewer.parseData
    rw [itrNext_enough frames itr h]
    rcases step_enough h with ⟨d, hd, rfl | ⟨c, rfl⟩⟩ | ⟨n, t, rest, hd, hr, k, rfl, hk⟩
    · rw [hd]; rfl
    · rw [hd, bind_ok, up_ok, s_ok]
      simp only [up_ite, up_bind]
      rfl
    · rw [hd, bind_ok, up_ok, s_ok]
      simp only [call, ih k _ _ _ _ _ hk, ih (k + 1) _ _ _ _ _ hr, up_bind]
      congr 1
      funext x
      simp only [up_ite, up_bind]
      rfl

/-! ## Definite form: one frame for each object -/

theorem decode_definite {t l v : List Byte} (ht : IsTag t) (hl : LenOctets v.length l) (rest : List Byte)
    (frames : Nat) : decode (frames + 1) (t ++ l ++ v ++ rest) = up (Ber.decode (t ++ l ++ v ++ rest)) := by
  have htl := isTag_length ht
  obtain ⟨lb, ls, rfl, hlb⟩ : ∃ lb ls, l = lb :: ls ∧ lb ≠ lenIndefinite := by
    cases hl with
    | short h =>
      refine ⟨_, _, rfl, fun hc => ?_⟩
      have := congrArg UInt8.toNat hc
      rw [lenIndefinite_toNat, UInt8.toNat_ofNat', Nat.mod_eq_of_lt (by omega)] at this
      omega
    | long bs h1 h4 _ =>
      refine ⟨_, _, rfl, fun hc => ?_⟩
      have := congrArg UInt8.toNat hc
      rw [lenIndefinite_toNat, UInt8.toNat_ofNat', Nat.mod_eq_of_lt (by omega)] at this
      omega
  have hlen : 2 ≤ (t ++ lb :: ls ++ v ++ rest).length := by simp only [List.length_append, List.length_cons]; omega
  unfold decode Ber.decode decodeF
  rw [if_neg (by omega), if_neg (by omega), if_neg (by omega), if_neg (by omega)]
  have hlt : t.length < (t ++ lb :: ls ++ v ++ rest).length := by
    simp only [List.length_append, List.length_cons]; omega
  generalize hb : t ++ lb :: ls ++ v ++ rest = buf at hlt
  have htag : tagDecode buf = .ok (.ok t.length (beNat t)) := by
    rw [← hb, show t ++ lb :: ls ++ v ++ rest = t ++ (lb :: ls ++ v ++ rest) by simp, tagDecode_enc ht]
  have hrd : rd buf t.length = .ok lb := by
    have := rd_append_right t (lb :: ls ++ v ++ rest) 0
    rw [← hb]
    simpa using this
  rw [htag, bind_ok, up_ok, s_ok]
  simp only
  rw [if_neg (by omega), if_neg (by omega), hrd]
  simp only [bind_ok, up_ok, s_ok, up_bind, up_ite]
  congr 1
  funext b0
  rw [if_neg hlb, if_neg hlb]

theorem itrNext_definite (o : Obj) (h : o.WF) (rest : List Byte) (frames : Nat) :
    itrNext (frames + 1) (o.enc ++ rest) = .ok (rest, .ok o.enc.length (tlvOf o)) := by
  have e := itrNext_enc o h rest
  unfold itrNext
  have : decode (frames + 1) (o.enc ++ rest) = up (Ber.decode (o.enc ++ rest)) := by
    have := decode_definite h.1 h.2 rest frames
    simpa [Obj.enc] using this
  rw [this, C02_roundtrip o h rest, up_ok, s_ok]
  simp only
  rw [suffix_eq (by simp)]
  simp [tlvOf, up_ok, s_ok]

/-! ## Forests of objects -/

/-- How deep constructed objects are nested. -/
def _root_.Verif.TlvParse.Forest.levels : TlvParse.Forest → Nat
  | .nil => 0
  | .leaf _ rest => rest.levels
  | .node _ _ children rest => max (children.levels + 1) rest.levels

/-- The identifier octets and contents of all objects. -/
def _root_.Verif.TlvParse.Forest.objects : TlvParse.Forest → List (List Byte × List Byte)
  | .nil => []
  | .leaf o rest => (o.tag, o.value) :: rest.objects
  | .node tag _ children rest => (tag, children.enc) :: (children.objects ++ rest.objects)

theorem itrNext_zero (itr : List Byte) : itrNext 0 itr = .error .stack := rfl

theorem itrNext_end (frames : Nat) : itrNext (frames + 1) [] = .ok ([], .eod) := rfl

open Verif.TlvParse (Forest)

theorem node_wf {tag len : List Byte} {children rest : Forest} (h : (Forest.node tag len children rest).WF) :
    (⟨tag, len, children.enc⟩ : Obj).WF := ⟨h.1, h.2.2.1⟩

theorem node_enc (tag len : List Byte) (children rest : Forest) :
    (Forest.node tag len children rest).enc = (⟨tag, len, children.enc⟩ : Obj).enc ++ rest.enc := by
  simp [Forest.enc, Obj.enc]

theorem obj_len {o : Obj} (h : o.WF) : 2 + o.value.length ≤ o.enc.length := by
  have := (isTag_length h.1).1
  have h2 : 1 ≤ o.len.length := by
    obtain ⟨tag, len, value⟩ := o
    obtain ⟨-, h⟩ := h
    simp only at h ⊢
    cases h <;> simp
  simp only [Obj.enc, List.length_append]
  omega

theorem prim {o : Obj} (h : o.WF) (hc : ¬ IsConstructed o.tag) : (tlvOf o).isConstructed = false := by
  have := C02_constructed o h
  unfold tlvOf
  rw [← this] at hc
  simpa using hc

theorem cons {o : Obj} (h : o.WF) (hc : IsConstructed o.tag) : (tlvOf o).isConstructed = true :=
  (C02_constructed o h).mpr hc

theorem parseF_forest : ∀ (f : Forest), f.WF → ∀ fuel frames (list : List Tlv), f.enc.length < fuel →
    parseF TlvParse.allocOk fuel frames f.enc list =
      if f.levels < frames then .ok (0, list ++ f.leaves) else .error .stack := by
  intro f
  induction f with
  | nil =>
    intro _ fuel frames list hf
    obtain ⟨fuel, rfl⟩ : ∃ k, fuel = k + 1 := ⟨fuel - 1, by omega⟩
    cases frames <;> simp [parseF, Forest.enc, Forest.levels, Forest.leaves, itrNext_zero, itrNext_end, s_ok, s_err]
  | leaf o rest ih =>
    intro h fuel frames list hf
    obtain ⟨fuel, rfl⟩ : ∃ k, fuel = k + 1 := ⟨fuel - 1, by omega⟩
    have hl := obj_len h.1
    simp only [Forest.enc, List.length_append] at hf
    rw [Forest.levels]
    cases frames with
    | zero => simp [parseF, itrNext_zero, s_err]
    | succ frames =>
      rw [parseF, Forest.enc, itrNext_definite o h.1, s_ok]
      simp only [prim h.1 h.2.1, Bool.false_eq_true, if_false, TlvParse.allocOk, if_true]
      rw [ih h.2.2 fuel (frames + 1) _ (by omega)]
      simp [Forest.leaves, tlvOf]
  | node tag len children rest ihc ihr =>
    intro h fuel frames list hf
    obtain ⟨fuel, rfl⟩ : ∃ k, fuel = k + 1 := ⟨fuel - 1, by omega⟩
    have hw := node_wf h
    have hl := obj_len hw
    rw [node_enc, List.length_append] at hf
    simp only at hl
    cases frames with
    | zero => simp [parseF, itrNext_zero, s_err]
    | succ frames =>
      rw [parseF, node_enc, itrNext_definite _ hw, s_ok]
      simp only [cons hw h.2.1, if_true, call]
      have e : (tlvOf ⟨tag, len, children.enc⟩).value = children.enc := rfl
      rw [e, ihc h.2.2.2.1 fuel frames list (by omega), Forest.levels]
      by_cases h1 : children.levels < frames
      · rw [if_pos h1, s_ok]
        simp only [ne_eq, not_true, if_false]
        rw [ihr h.2.2.2.2 fuel (frames + 1) _ (by omega)]
        have : (max (children.levels + 1) rest.levels < frames + 1) ↔ rest.levels < frames + 1 := by omega
        simp only [this, Forest.leaves, List.append_assoc]
      · rw [if_neg h1, if_neg (by omega)]
        rfl

theorem walk_forest (item : Nat → Tlv → C (List Byte × Option Int)) (pfx : List Byte) (pad : Bool) :
    ∀ (f : Forest), f.WF →
    (∀ x ∈ f.objects, ∀ d, ∃ line, item d ⟨beNat x.1, topBits x.1, x.2⟩ = .ok (line, none)) →
    ∀ fuel frames depth whole valid, f.enc.length < fuel →
    ∃ text, walk item pfx pad fuel frames depth whole f.enc valid =
      if f.levels < frames then .ok (text, valid + f.enc.length) else .error .stack := by
  intro f
  induction f with
  | nil =>
    intro _ _ fuel frames depth whole valid hf
    obtain ⟨fuel, rfl⟩ : ∃ k, fuel = k + 1 := ⟨fuel - 1, by omega⟩
    cases frames <;> simp [walk, Forest.enc, Forest.levels, itrNext_zero, itrNext_end, s_ok, s_err]
  | leaf o rest ih =>
    intro h hi fuel frames depth whole valid hf
    obtain ⟨fuel, rfl⟩ : ∃ k, fuel = k + 1 := ⟨fuel - 1, by omega⟩
    have hl := obj_len h.1
    simp only [Forest.enc, List.length_append] at hf
    rw [Forest.levels]
    cases frames with
    | zero => simp [walk, itrNext_zero, s_err]
    | succ frames =>
      rw [walk, Forest.enc, itrNext_definite o h.1, s_ok]
      obtain ⟨line, hline⟩ := hi _ List.mem_cons_self depth
      simp only at hline
      simp only [tlvOf, hline, up_ok, s_ok]
      have := prim h.1 h.2.1
      unfold tlvOf at this
      simp only [this, Bool.false_eq_true, if_false]
      obtain ⟨text, ht⟩ := ih h.2.2 (fun x hx => hi x (List.mem_cons_of_mem _ hx)) fuel (frames + 1) depth whole
        (valid + o.enc.length) (by omega)
      rw [ht]
      refine ⟨line ++ text, ?_⟩
      split
      · simp [s_ok, Nat.add_assoc]
      · rfl
  | node tag len children rest ihc ihr =>
    intro h hi fuel frames depth whole valid hf
    obtain ⟨fuel, rfl⟩ : ∃ k, fuel = k + 1 := ⟨fuel - 1, by omega⟩
    have hw := node_wf h
    have hl := obj_len hw
    rw [node_enc, List.length_append] at hf
    simp only at hl
    cases frames with
    | zero => simp [walk, itrNext_zero, s_err]
    | succ frames =>
      rw [walk, node_enc, itrNext_definite _ hw, s_ok]
      obtain ⟨line, hline⟩ := hi _ List.mem_cons_self depth
      simp only at hline
      have hc := cons hw h.2.1
      unfold tlvOf at hc
      simp only [tlvOf, hline, up_ok, s_ok]
      simp only at hc
      simp only [hc, if_true, call]
      obtain ⟨t1, h1⟩ := ihc h.2.2.2.1 (fun x hx => hi x (by simp [Forest.objects, hx])) fuel frames (depth + 1)
        children.enc 0 (by omega)
      rw [h1, Forest.levels]
      by_cases hlt : children.levels < frames
      · rw [if_pos hlt, s_ok]
        simp only [Nat.zero_add, Nat.lt_irrefl, if_false]
        obtain ⟨t2, h2⟩ := ihr h.2.2.2.2 (fun x hx => hi x (by simp [Forest.objects, hx])) fuel (frames + 1) depth
          whole (valid + ((⟨tag, len, children.enc⟩ : Obj).enc.length - children.enc.length) + children.enc.length)
          (by omega)
        rw [h2]
        have : (max (children.levels + 1) rest.levels < frames + 1) ↔ rest.levels < frames + 1 := by omega
        simp only [this]
        refine ⟨line ++ t1 ++ t2, ?_⟩
        split
        · rw [s_ok]
          simp only [List.length_append]
          congr 2
          omega
        · rfl
      · rw [if_neg hlt]
        refine ⟨[], ?_⟩
        rw [if_neg (by omega)]
        rfl

theorem parseData_forest {ι : Type} (field : Nat → Nat → Nat → Tlv → C ι)
    (padding : Nat → Nat → List Byte → ι) (pad : Bool) :
    ∀ (f : Forest), f.WF →
    (∀ x ∈ f.objects, ∀ d o l, ∃ i, field d o l ⟨beNat x.1, topBits x.1, x.2⟩ = .ok i) →
    ∀ fuel frames depth whole valid total, f.enc.length < fuel →
    ∃ items, parseData field padding pad fuel frames depth whole f.enc valid total =
      if f.levels < frames then .ok (items, total + f.enc.length, true) else .error .stack := by
  intro f
  induction f with
  | nil =>
    intro _ _ fuel frames depth whole valid total hf
    obtain ⟨fuel, rfl⟩ : ∃ k, fuel = k + 1 := ⟨fuel - 1, by omega⟩
    cases frames <;> simp [parseData, Forest.enc, Forest.levels, itrNext_zero, itrNext_end, s_ok, s_err]
  | leaf o rest ih =>
    intro h hi fuel frames depth whole valid total hf
    obtain ⟨fuel, rfl⟩ : ∃ k, fuel = k + 1 := ⟨fuel - 1, by omega⟩
    have hl := obj_len h.1
    simp only [Forest.enc, List.length_append] at hf
    rw [Forest.levels]
    cases frames with
    | zero => simp [parseData, itrNext_zero, s_err]
    | succ frames =>
      rw [parseData, Forest.enc, itrNext_definite o h.1, s_ok]
      obtain ⟨i, hline⟩ := hi _ List.mem_cons_self depth total o.enc.length
      simp only at hline
      simp only [tlvOf, hline, up_ok, s_ok]
      have := prim h.1 h.2.1
      unfold tlvOf at this
      simp only [this, Bool.false_eq_true, if_false]
      obtain ⟨items, ht⟩ := ih h.2.2 (fun x hx => hi x (List.mem_cons_of_mem _ hx)) fuel (frames + 1) depth whole
        (valid + o.enc.length) (total + o.enc.length) (by omega)
      rw [ht]
      refine ⟨i :: items, ?_⟩
      split
      · simp [s_ok, Nat.add_assoc]
      · rfl
  | node tag len children rest ihc ihr =>
    intro h hi fuel frames depth whole valid total hf
    obtain ⟨fuel, rfl⟩ : ∃ k, fuel = k + 1 := ⟨fuel - 1, by omega⟩
    have hw := node_wf h
    have hl := obj_len hw
    rw [node_enc, List.length_append] at hf
    simp only at hl
    cases frames with
    | zero => simp [parseData, itrNext_zero, s_err]
    | succ frames =>
      rw [parseData, node_enc, itrNext_definite _ hw, s_ok]
      obtain ⟨i, hline⟩ := hi _ List.mem_cons_self depth total (⟨tag, len, children.enc⟩ : Obj).enc.length
      simp only at hline
      have hc := cons hw h.2.1
      unfold tlvOf at hc
      simp only [tlvOf, hline, up_ok, s_ok]
      simp only at hc
      simp only [hc, if_true, call]
      obtain ⟨t1, h1⟩ := ihc h.2.2.2.1 (fun x hx => hi x (by simp [Forest.objects, hx])) fuel frames (depth + 1)
        children.enc 0 (total + ((⟨tag, len, children.enc⟩ : Obj).enc.length - children.enc.length)) (by omega)
      rw [h1, Forest.levels]
      by_cases hlt : children.levels < frames
      · rw [if_pos hlt, s_ok]
        simp only [if_true]
        obtain ⟨t2, h2⟩ := ihr h.2.2.2.2 (fun x hx => hi x (by simp [Forest.objects, hx])) fuel (frames + 1) depth
          whole (valid + ((⟨tag, len, children.enc⟩ : Obj).enc.length - children.enc.length) + children.enc.length)
          (total + ((⟨tag, len, children.enc⟩ : Obj).enc.length - children.enc.length) + children.enc.length)
          (by omega)
        rw [h2]
        have : (max (children.levels + 1) rest.levels < frames + 1) ↔ rest.levels < frames + 1 := by omega
        simp only [this]
        refine ⟨i :: (t1 ++ t2), ?_⟩
        split
        · rw [s_ok]
          simp only [List.length_append]
          congr 3
          omega
        · rfl
      · rw [if_neg hlt]
        refine ⟨[], ?_⟩
        rw [if_neg (by omega)]
        rfl

/-! ## Unfinished objects of indefinite length -/

theorem decode_opened : ∀ k frames, frames ≤ k →
    decode frames (List.replicate k [(0x30 : Byte), 0x80]).flatten = .error .stack := by
  intro k
  induction k with
  | zero =>
    intro frames h
    obtain rfl : frames = 0 := by omega
    rfl
  | succ k ih =>
    intro frames h
    cases frames with
    | zero => rfl
    | succ frames =>
      rw [List.replicate_succ, List.flatten_cons]
      generalize hx : (List.replicate k [(0x30 : Byte), 0x80]).flatten = x at ih
      unfold decode
      rw [if_neg (by simp), if_neg (by simp)]
      have ht := tagDecode_enc (t := [0x30]) (.inl ⟨by decide, rfl⟩) (0x80 :: x)
      simp only [List.cons_append, List.nil_append, List.length_cons, List.length_nil] at ht ⊢
      rw [ht, up_ok, s_ok]
      simp only
      rw [if_neg (by omega)]
      have h0 : rd (0x30 :: 0x80 :: x) 0 = .ok 0x30 := rfl
      have h1 : rd (0x30 :: 0x80 :: x) 1 = .ok 0x80 := rfl
      rw [h0]
      simp only [Nat.zero_add, h1, up_ok, s_ok]
      rw [if_pos (by rfl), if_neg (by decide), eocLoop, suffix_eq (by simp)]
      simp only [up_ok, s_ok, Nat.add_zero, List.drop_succ_cons, List.drop_zero]
      rw [ih frames (by omega)]
      rfl

end Verif.Nest
