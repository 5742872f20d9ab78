import Verif.Work
import Verif.BerExactProps
import Verif.NestLemmas

/-! # Lemmas about the number of calls -/

set_option autoImplicit false

namespace Verif.Work
open Verif Ber BerSpec

theorem res_bind {α β : Type} (x : W α) (f : α → W β) :
    (x >>= f).res = x.res >>= fun a => (f a).res := by
  show (match x.res with
    | .ok a => (⟨(f a).res, x.calls + (f a).calls⟩ : W β)
    | .error e => ⟨.error e, x.calls⟩).res = _
  cases x.res <;> rfl

theorem res_up {α : Type} (x : C α) : (up x).res = x := rfl

theorem calls_up {α : Type} (x : C α) : (up x).calls = 0 := rfl

theorem res_ite {α : Type} (p : Prop) [Decidable p] (a b : W α) :
    (if p then a else b).res = if p then a.res else b.res := by
  split <;> rfl

theorem calls_ok {α β : Type} {x : W α} {a : α} (h : x.res = .ok a) (f : α → W β) :
    (x >>= f).calls = x.calls + (f a).calls := by
  show (match x.res with
    | .ok a => (⟨(f a).res, x.calls + (f a).calls⟩ : W β)
    | .error e => ⟨.error e, x.calls⟩).calls = _
  rw [h]

theorem calls_err {α β : Type} {x : W α} {e : UB} (h : x.res = .error e) (f : α → W β) :
    (x >>= f).calls = x.calls := by
  show (match x.res with
    | .ok a => (⟨(f a).res, x.calls + (f a).calls⟩ : W β)
    | .error e => ⟨.error e, x.calls⟩).calls = _
  rw [h]

/-- What follows a part of a run makes the bound of calls bigger by at most its own. -/
theorem calls_le {α β : Type} {x : W α} {f : α → W β} {n m : Nat} (hx : x.calls ≤ n)
    (hf : ∀ a, x.res = .ok a → (f a).calls ≤ m) : (x >>= f).calls ≤ n + m := by
  cases h : x.res with
  | ok a => rw [calls_ok h]; have := hf a h; omega
  | error e => rw [calls_err h]; omega

/-! ## The results are the same -/

theorem eocLoop_res (dec : List Byte → W (Dec Tlv)) (dec' : List Byte → C (Dec Tlv)) (buf : List Byte)
    (offset : Nat) (hd : ∀ s, (dec s).res = dec' s) :
    ∀ fuel length, (eocLoop dec buf offset fuel length).res = Ber.eocLoop dec' buf offset fuel length := by
  intro fuel
  induction fuel with
  | zero => intros; rfl
  | succ fuel ih =>
    intro length
    unfold eocLoop Ber.eocLoop
    simp only [res_bind, res_up, hd]
    congr 1
    funext rest
    congr 1
    funext d
    cases d with
    | ok r inner => simp only [res_ite, ih]; rfl
    | eod => rfl
    | err c => rfl

theorem decodeF_res : ∀ fuel (buf : List Byte), (decodeF fuel buf).res = Ber.decodeF fuel buf := by
  intro fuel
  induction fuel with
  | zero => intros; rfl
  | succ fuel ih =>
    intro buf
    unfold decodeF Ber.decodeF
    rw [res_bind, show tick.res = .ok () from rfl, bind_ok]
    simp only [res_ite, res_up, res_bind]
    split
    · rfl
    split
    · rfl
    congr 1
    funext d
    cases d with
    | eod => rfl
    | err => rfl
    | ok offset tag =>
      simp only [res_ite, res_up, res_bind, eocLoop_res (decodeF fuel) (Ber.decodeF fuel) _ _ ih]
      split
      · rfl
      congr 1
      funext b0
      congr 1
      funext lb
      split
      · split
        · rfl
        · congr 1
          funext r
          cases r <;> rfl
      · rfl

theorem decode_res (buf : List Byte) : (decode buf).res = Ber.decode buf := decodeF_res _ buf

theorem itrNext_res (buf : List Byte) : (itrNext buf).res = Ber.itrNext buf := by
  unfold itrNext Ber.itrNext
  rw [res_bind, decode_res]
  congr 1
  funext d
  cases d with
  | ok n t => simp only [res_bind, res_up]
  | eod => rfl
  | err c => rfl

theorem parseF_res (alloc : List Tlv → Tlv → Bool) : ∀ fuel (buf : List Byte) (list : List Tlv),
    (parseF alloc fuel buf list).res = TlvParse.parseF alloc fuel buf list := by
  intro fuel
  induction fuel with
  | zero => intros; rfl
  | succ fuel ih =>
    intro buf list
    unfold parseF TlvParse.parseF
    rw [res_bind, itrNext_res]
    congr 1
    funext x
    obtain ⟨rest, d⟩ := x
    cases d with
    | eod => rfl
    | err c => rfl
    | ok n t => simp only [res_ite, res_bind, ih]; rfl

theorem walk_res (item : Nat → Tlv → C (List Byte × Option Int)) (pfx : List Byte) (pad : Bool) :
    ∀ fuel depth (whole itr : List Byte) valid,
      (walk item pfx pad fuel depth whole itr valid).res =
        Print.walk item pfx pad fuel depth whole itr valid := by
  intro fuel
  induction fuel with
  | zero => intros; rfl
  | succ fuel ih =>
    intro depth whole itr valid
    unfold walk Print.walk
    rw [res_bind, itrNext_res]
    congr 1
    funext x
    obtain ⟨rest, d⟩ := x
    cases d with
    | eod => rfl
    | err c => rfl
    | ok n t =>
      simp only [res_bind, res_up]
      congr 1
      funext x
      obtain ⟨line, stop⟩ := x
      cases stop <;> simp only [res_ite, res_bind, res_up, ih]

theorem listing_res (item : Nat → Tlv → C (List Byte × Option Int)) (pfx : List Byte) (pad : Bool)
    (depth : Nat) (whole : List Byte) :
    (listing item pfx pad depth whole).res = Print.listing item pfx pad depth whole := by
  unfold listing Print.listing Print.level
  simp only [res_bind, res_up, walk_res]

theorem parseData_res {ι : Type} (field : Nat → Nat → Nat → Tlv → C ι)
    (padding : Nat → Nat → List Byte → ι) (pad : Bool) :
    ∀ fuel depth (whole itr : List Byte) valid total,
      (parseData field padding pad fuel depth whole itr valid total).res =
        Viewer.parseData field padding pad fuel depth whole itr valid total := by
  intro fuel
  induction fuel with
  | zero => intros; rfl
  | succ fuel ih =>
    intro depth whole itr valid total
    unfold parseData Viewer.parseData
    rw [res_bind, itrNext_res]
    congr 1
    funext x
    obtain ⟨rest, d⟩ := x
    cases d with
    | eod => rfl
    | err c => simp only [res_ite, res_bind, res_up]
    | ok n t =>
      simp only [res_bind, res_up, res_ite, ih]

/-! ## The calls of decoding one object -/

theorem w_ok {α β : Type} (a : α) (f : α → W β) : (up (.ok a) >>= f) = f a := by
  show (⟨(f a).res, 0 + (f a).calls⟩ : W β) = f a
  rw [Nat.zero_add]

theorem w_err {α β : Type} (e : UB) (f : α → W β) : (up (.error e) >>= f) = up (.error e) := rfl

theorem tick_calls {β : Type} (f : Unit → W β) : (tick >>= f).calls = 1 + (f ()).calls := rfl

theorem eocLoop_congr (dec dec' : List Byte → W (Dec Tlv)) (buf : List Byte) (offset : Nat)
    (hoff : 1 ≤ offset) (hd : ∀ s : List Byte, s.length < buf.length → dec s = dec' s) :
    ∀ fuel length, eocLoop dec buf offset fuel length = eocLoop dec' buf offset fuel length := by
  intro fuel
  induction fuel with
  | zero => intros; rfl
  | succ fuel ih =>
    intro length
    unfold eocLoop
    by_cases h : offset + length ≤ buf.length
    · rw [suffix_eq h, w_ok, w_ok]
      by_cases h0 : buf.length = 0
      · omega
      rw [hd _ (by simp; omega)]
      congr 1
      funext r
      cases r <;> simp [ih]
    · simp [suffix, h, w_err]

theorem decodeF_fuel : ∀ fuel fuel' (buf : List Byte), buf.length < fuel → buf.length < fuel' →
    decodeF fuel buf = decodeF fuel' buf := by
  intro fuel
  induction fuel with
  | zero => intro fuel' buf h; omega
  | succ fuel ih =>
    intro fuel' buf h h'
    cases fuel' with
    | zero => omega
    | succ fuel' =>
      unfold decodeF
      have : ∀ offset, 1 ≤ offset → ∀ k l, eocLoop (decodeF fuel) buf offset k l =
          eocLoop (decodeF fuel') buf offset k l := by
        intro offset ho k l
        exact eocLoop_congr _ _ _ _ ho (fun s hs => ih fuel' s (by omega) (by omega)) _ _
      congr 1
      funext _
      by_cases h0 : buf.length = 0
      · simp [h0]
      simp only [h0, if_false]
      congr 1
      congr 1
      funext d
      cases d with
      | eod => rfl
      | err => rfl
      | ok offset tag =>
        simp only [this (offset + 1) (by omega)]

theorem decode_fuel (fuel : Nat) (buf : List Byte) (h : buf.length < fuel) :
    decodeF fuel buf = decode buf :=
  decodeF_fuel _ _ _ h (by omega)

/-- The calls of the loop that looks for end-of-contents in `r`. -/
inductive Loop : List Byte → Nat → Prop
  | stop (r : List Byte) (h : ∀ n t, Ber.decode r = .ok (.ok n t) → t.tag = 0) :
      Loop r (decode r).calls
  | step (r : List Byte) (n : Nat) (t : Tlv) (h : Ber.decode r = .ok (.ok n t)) (h0 : t.tag ≠ 0)
      (k : Nat) (hk : Loop (r.drop n) k) : Loop r ((decode r).calls + k)

theorem eocLoop_loop (dec : List Byte → W (Dec Tlv)) (buf : List Byte) (offset : Nat)
    (hdec : ∀ s : List Byte, s.length < buf.length → dec s = decode s) (hoff : 1 ≤ offset) :
    ∀ fuel length, offset + length ≤ buf.length → buf.length < offset + length + fuel →
      Loop (buf.drop (offset + length)) (eocLoop dec buf offset fuel length).calls := by
  intro fuel
  induction fuel with
  | zero => intro length h h'; omega
  | succ fuel ih =>
    intro length h h'
    unfold eocLoop
    rw [suffix_eq h, w_ok, hdec _ (by simp; omega)]
    have hr := decode_res (buf.drop (offset + length))
    obtain ⟨d, hd, -⟩ := decode_spec (buf.drop (offset + length))
    rw [hd] at hr
    rw [calls_ok hr]
    cases d with
    | eod =>
      exact .stop _ (fun n t h => by rw [hd] at h; cases h)
    | err c =>
      exact .stop _ (fun n t h => by rw [hd] at h; cases h)
    | ok r inner =>
      simp only
      split
      · rename_i h0
        refine .stop _ (fun n t h => ?_)
        rw [hd] at h
        cases h
        exact h0
      · rename_i h0
        have hb := decode_bound hd
        simp only [List.length_drop] at hb
        refine .step _ r inner hd h0 _ ?_
        have := ih (length + r) (by omega) (by omega)
        rwa [List.drop_drop, Nat.add_assoc]

/-- Decoding makes one call, or the header is that of a constructed object of indefinite length and
the loop is run. -/
theorem decode_calls (buf : List Byte) : (decode buf).calls = 1 ∨
    ∃ tag r k, IsTag tag ∧ IsConstructed tag ∧ buf = tag ++ [0x80] ++ r ∧ Loop r k ∧
      (decode buf).calls = 1 + k := by
  unfold decode decodeF
  rw [tick_calls]
  by_cases h0 : buf.length = 0
  · rw [if_pos h0]; exact .inl rfl
  rw [if_neg h0]
  by_cases h1 : buf.length < 2
  · rw [if_pos h1]; exact .inl rfl
  rw [if_neg h1]
  obtain ⟨d, hd, hs⟩ := tagDecode_spec buf
  rw [hd, w_ok]
  cases d with
  | eod => exact .inl rfl
  | err => exact .inl rfl
  | ok offset tag =>
    obtain ⟨t, rest, ht, hb, hn, -⟩ := tagDecode_inv buf _ _ hd
    simp only at hs ⊢
    by_cases h2 : offset ≥ buf.length
    · rw [if_pos h2]; exact .inl rfl
    rw [if_neg h2, rd_eq (by omega), rd_eq (show offset < buf.length by omega), w_ok, w_ok]
    split
    · rename_i hi
      split
      · exact .inl rfl
      · rename_i hc
        refine .inr ⟨t, rest.drop 1, (eocLoop (decodeF buf.length) buf (offset + 1) (buf.length + 1) 0).calls,
          ht, ?_, ?_, ?_, ?_⟩
        · cases t with
          | nil => cases ht
          | cons b r =>
            have e : buf[0]'(by omega) = b := by simp [hb]
            rw [e] at hc
            rw [constructed_iff] at hc
            show b.toNat / 32 % 2 = 1
            omega
        · subst hn
          cases rest with
          | nil => exfalso; rw [hb] at h2; simp at h2
          | cons x rest =>
            have e : buf[t.length]'(by omega) = x := by simp [hb]
            rw [e] at hi
            rw [hb, hi]
            simp [lenIndefinite]
        · have := eocLoop_loop (decodeF buf.length) buf (offset + 1)
            (fun s hs => decode_fuel _ s hs) (by omega) (buf.length + 1) 0 (by omega) (by omega)
          have e : buf.drop (offset + 1 + 0) = rest.drop 1 := by
            rw [hb, hn, Nat.add_zero, ← List.drop_drop, List.drop_left]
          rwa [e] at this
        · congr 1
          have hsafe : ∃ x, (eocLoop (decodeF buf.length) buf (offset + 1) (buf.length + 1) 0).res = .ok x := by
            rw [eocLoop_res (decodeF buf.length) (Ber.decodeF buf.length) _ _ (decodeF_res _)]
            obtain ⟨x, hx, -⟩ := eocLoop_spec (Ber.decodeF buf.length) buf (offset + 1) (by omega)
              (fun s hs => decodeF_spec _ s hs) (buf.length + 1) 0 (by omega) (by omega)
            exact ⟨x, hx⟩
          obtain ⟨x, hx⟩ := hsafe
          rw [calls_ok hx]
          cases x <;> rfl
    · split
      · split
        · exact .inl rfl
        · split
          · exact .inl rfl
          · rename_i hle
            left
            cases hl : lenLoop buf (buf[offset] &&& lenCountMask).toNat (offset + 1) 0 with
            | ok v => rw [w_ok]; rfl
            | error e => rfl
      · exact .inl rfl

/-- An object with tag 0 takes one call. -/
theorem eoc_calls {r : List Byte} {n : Nat} {t : Tlv} (h : Ber.decode r = .ok (.ok n t)) (h0 : t.tag = 0) :
    (decode r).calls = 1 := by
  rcases decode_calls r with h1 | ⟨tag, r', k, ht, hc, hb, -, -⟩
  · exact h1
  · exfalso
    rw [hb] at h
    obtain ⟨v, -, -, rfl⟩ := (C04_exact_partial tag ht hc r' n t).mp h
    have := beNat_zero_head ht h0
    subst this
    exact absurd hc (by decide)

theorem loop_bound (m : Nat)
    (ih : ∀ s : List Byte, s.length < m → (decode s).calls ≤ max 1 s.length ∧
      ∀ n t, Ber.decode s = .ok (.ok n t) → (decode s).calls ≤ n) :
    ∀ r k, Loop r k → r.length < m → k ≤ r.length + 1 ∧ ∀ v, Until r v → k ≤ v.length + 1 := by
  intro r k h
  induction h with
  | stop r h =>
    intro hm
    have h1 := (ih r hm).1
    refine ⟨by omega, fun v hv => ?_⟩
    cases hv with
    | eoc _ n t hd h0 => rw [eoc_calls hd h0]; omega
    | item _ n t hd h0 v hv => exact absurd (h n t hd) h0
  | step r n t hd h0 k hk ihk =>
    intro hm
    have hb := decode_bound hd
    have h1 := (ih r hm).2 n t hd
    obtain ⟨h2, h3⟩ := ihk (by simp; omega)
    simp only [List.length_drop] at h2
    refine ⟨by omega, fun v hv => ?_⟩
    cases hv with
    | eoc _ n' t' hd' h0' => rw [hd] at hd'; cases hd'; exact absurd h0' h0
    | item _ n' t' hd' h0' v hv =>
      rw [hd] at hd'
      cases hd'
      have := h3 v hv
      rw [List.length_append, List.length_take, Nat.min_eq_left hb.2]
      omega

/-- Decoding makes at most as many calls as there are bytes, or one; and at most as many as it
consumes bytes. -/
theorem decode_bound_calls : ∀ m (buf : List Byte), buf.length < m →
    (decode buf).calls ≤ max 1 buf.length ∧
    ∀ n t, Ber.decode buf = .ok (.ok n t) → (decode buf).calls ≤ n := by
  intro m
  induction m with
  | zero => intro buf h; omega
  | succ m ih =>
    intro buf h
    rcases decode_calls buf with h1 | ⟨tag, r, k, ht, hc, hb, hl, h1⟩
    · exact ⟨by omega, fun n t hd => by have := decode_bound hd; omega⟩
    · have htl := isTag_length ht
      have hlen := congrArg List.length hb
      simp only [List.length_append, List.length_cons, List.length_nil] at hlen
      obtain ⟨h2, h3⟩ := loop_bound m ih r k hl (by omega)
      refine ⟨by omega, fun n t hd => ?_⟩
      rw [hb] at hd
      obtain ⟨v, hv, hn, -⟩ := (C04_exact_partial tag ht hc r n t).mp hd
      have := h3 v hv
      omega

/-! ## Contents of indefinite length contain no complete object of indefinite length -/

/-- After the contents comes an object of tag 0. -/
theorem until_next {r v : List Byte} (h : Until r v) :
    ∃ n t, Ber.decode (r.drop v.length) = .ok (.ok n t) ∧ t.tag = 0 := by
  induction h with
  | eoc r n t h h0 => exact ⟨n, t, by simpa using h, h0⟩
  | item r n t h h0 v hv ih =>
    have hb := decode_bound h
    obtain ⟨n', t', h1, h2⟩ := ih
    refine ⟨n', t', ?_, h2⟩
    rw [List.length_append, List.length_take, Nat.min_eq_left hb.2, ← List.drop_drop]
    exact h1

theorem until_eoc {r v : List Byte} {n : Nat} {t : Tlv} (h : Until r v)
    (hd : Ber.decode r = .ok (.ok n t)) (h0 : t.tag = 0) : v = [] := by
  cases h with
  | eoc => rfl
  | item _ n' t' hd' h0' => rw [hd] at hd'; cases hd'; exact absurd h0 h0'

/-- What a decoded object is: one in definite form, decoded alike whatever follows it and in one
call, or one of indefinite length. -/
theorem decode_form {r : List Byte} {n : Nat} {t : Tlv} (h : Ber.decode r = .ok (.ok n t)) :
    ((decode r).calls = 1 ∧ t.value.length + 2 ≤ n ∧
      ∀ x, Ber.decode (r.take n ++ x) = .ok (.ok n t) ∧ (decode (r.take n ++ x)).calls = 1) ∨
    (∃ tag rest, IsTag tag ∧ IsConstructed tag ∧ r = tag ++ [0x80] ++ (t.value ++ rest) ∧
      r.take n = tag ++ [0x80] ++ t.value ∧ r.drop n = rest ∧ n = tag.length + 1 + t.value.length ∧
      Until (t.value ++ rest) t.value) := by
  obtain ⟨tag, rest, ht, h1, h2, ⟨len, hl, hb, hn⟩ | ⟨hc, hb, -, hn⟩⟩ := decode_inv h
  · left
    have hwf : (⟨tag, len, t.value⟩ : Obj).WF := ⟨ht, hl⟩
    have hlen : len ≠ [] ∧ len.head? ≠ some 0x80 := by
      generalize t.value.length = m at hl
      cases hl with
      | short hs =>
        refine ⟨by simp, fun e => ?_⟩
        have := congrArg UInt8.toNat (Option.some.inj e)
        simp [UInt8.toNat_ofNat'] at this
        omega
      | long bs h1 h4 _ =>
        refine ⟨by simp, fun e => ?_⟩
        have := congrArg UInt8.toNat (Option.some.inj e)
        simp [UInt8.toNat_ofNat'] at this
        omega
    have htk : r.take n = tag ++ len ++ t.value := by
      rw [hb, hn, show tag.length + len.length + t.value.length = (tag ++ len ++ t.value).length by simp; omega,
        List.take_left]
    have one : ∀ x, (decode (tag ++ len ++ t.value ++ x)).calls = 1 := by
      intro x
      rcases decode_calls (tag ++ len ++ t.value ++ x) with h1 | ⟨tag', r', k, ht', hc', hb', -, -⟩
      · exact h1
      · exfalso
        have e1 := tagDecode_enc ht (len ++ t.value ++ x)
        have e2 := tagDecode_enc ht' ([0x80] ++ r')
        rw [show tag ++ (len ++ t.value ++ x) = tag' ++ ([0x80] ++ r') by simpa using hb', e2] at e1
        simp only [Except.ok.injEq, Dec.ok.injEq] at e1
        have e3 : len ++ t.value ++ x = [0x80] ++ r' := by
          have := congrArg (List.drop tag.length)
            (show tag ++ (len ++ t.value ++ x) = tag' ++ ([0x80] ++ r') by simpa using hb')
          rw [List.drop_left, ← e1.1, List.drop_left] at this
          exact this
        cases len with
        | nil => exact hlen.1 rfl
        | cons b len =>
          simp only [List.cons_append, List.cons.injEq] at e3
          exact hlen.2 (by rw [e3.1]; rfl)
    refine ⟨by rw [hb]; exact one rest, ?_, fun x => ⟨?_, by rw [htk]; exact one x⟩⟩
    · have := (isTag_length ht).1
      have : 1 ≤ len.length := List.length_pos_iff.2 hlen.1
      omega
    · rw [htk]
      have := C02_roundtrip ⟨tag, len, t.value⟩ hwf x
      simp only [Obj.enc] at this
      rw [this, ← h1, ← h2, hn]
      simp
      omega
  · right
    have hx : r = tag ++ [0x80] ++ (t.value ++ rest) := by rw [hb]; simp
    have hk : n = (tag ++ [0x80] ++ t.value).length := by rw [hn]; simp; omega
    refine ⟨tag, rest, ht, hc, hx, ?_, ?_, hn, ?_⟩
    · rw [hb, hk, List.take_left]
    · rw [hb, hk, List.drop_left]
    · rw [hx] at h
      obtain ⟨v, hv, hn', e⟩ := (C04_exact_partial tag ht hc (t.value ++ rest) n t).mp h
      have hvl : v = t.value := by rw [e]
      rwa [hvl] at hv

/-- Contents of indefinite length have no end-of-contents of their own. -/
theorem until_inside : ∀ m (r v : List Byte), r.length < m → Until r v → ∀ w, ¬ Until v w := by
  intro m
  induction m with
  | zero => intro r v h; omega
  | succ m ih =>
    intro r v hm h
    induction h with
    | eoc r n t h h0 =>
      intro w hw
      cases hw with
      | eoc _ n t h h0 => cases h
      | item _ n t h h0 => cases h
    | item r n t hd h0 v hv ihv =>
      intro w hw
      have hb := decode_bound hd
      rcases decode_form hd with ⟨-, -, hx⟩ | ⟨tag, rest, ht, hc, hr, htk, hdr, hn, hu⟩
      · have hdx := (hx v).1
        cases hw with
        | eoc _ n' t' hd' h0' => rw [hdx] at hd'; cases hd'; exact h0 h0'
        | item _ n' t' hd' h0' w hw =>
          rw [hdx] at hd'
          cases hd'
          have e : (r.take n ++ v).drop n = v := by
            have : (r.take n).length = n := by simp; omega
            conv => lhs; arg 1; rw [← this]
            rw [List.drop_left]
          rw [e] at hw
          exact ihv (by simp; omega) w hw
      · obtain ⟨n', t', h1, h2⟩ := until_next hu
        rw [List.drop_left] at h1
        have hv0 := until_eoc hv (by rw [hdr]; exact h1) h2
        subst hv0
        rw [List.append_nil, htk] at hw
        have hlen := congrArg List.length hr
        simp only [List.length_append, List.length_cons, List.length_nil] at hlen
        have hno := ih (t.value ++ rest) t.value (by rw [List.length_append]; omega) hu
        have hok : ∃ n t', Ber.decode (tag ++ [0x80] ++ t.value) = .ok (.ok n t') := by
          cases hw with
          | eoc _ n t h h0 => exact ⟨n, t, h⟩
          | item _ n t h h0 => exact ⟨n, t, h⟩
        obtain ⟨n2, t2, h3⟩ := hok
        obtain ⟨v2, hv2, -⟩ := (C04_exact_partial tag ht hc t.value n2 t2).mp h3
        exact hno v2 hv2

/-! ## Reading everything -/

/-- The calls of reading all objects, and the contents of those that are constructed, as long as
decoding succeeds. -/
def full : Nat → List Byte → Nat
  | 0, _ => 0
  | fuel + 1, buf => (decode buf).calls +
    match Ber.decode buf with
    | .ok (.ok n t) => (if t.isConstructed then full fuel t.value else 0) + full fuel (buf.drop n)
    | _ => 0

theorem full_fails {buf : List Byte} (h : ∀ n t, Ber.decode buf ≠ .ok (.ok n t)) (fuel : Nat) :
    full fuel buf ≤ (decode buf).calls := by
  cases fuel with
  | zero => exact Nat.zero_le _
  | succ fuel =>
    rw [full]
    split
    · rename_i n t hd
      exact absurd hd (h n t)
    · omega

/-- The loop that looks for end-of-contents and reading those contents afterwards. -/
theorem loop_full (K : Nat) (ih : ∀ k < K, ∀ b : List Byte, full k b ≤ 2 * b.length + 1) :
    ∀ r v, Until r v → ∀ j, Loop r j → ∀ k ≤ K, j + full k v ≤ 2 * v.length + 2 := by
  intro r v h
  induction h with
  | eoc r n t hd h0 =>
    intro j hj k hk
    have hj1 : j = 1 := by
      cases hj with
      | stop => exact eoc_calls hd h0
      | step _ n' t' hd' h0' => rw [hd] at hd'; cases hd'; exact absurd h0 h0'
    have h1 : (decode []).calls = 1 := by decide
    have := full_fails (buf := []) (fun n t h => by cases h) k
    simp only [List.length_nil]
    omega
  | item r n t hd h0 v hv ihv =>
    intro j hj k hk
    have hb := decode_bound hd
    have hlt : (r.take n).length = n := by simp; omega
    cases hj with
    | stop _ h => exact absurd (h n t hd) h0
    | step _ n' t' hd' h0' j hj =>
      rw [hd] at hd'
      cases hd'
      rw [List.length_append, hlt]
      rcases decode_form hd with ⟨hc1, hvl, hx⟩ | ⟨tag, rest, ht, hc, hr, htk, hdr, hn, hu⟩
      · have h1 := ihv j hj
        cases k with
        | zero => have := h1 0 (by omega); rw [full] at this ⊢; omega
        | succ k =>
          rw [full, (hx v).1, (hx v).2]
          simp only
          have e : (r.take n ++ v).drop n = v := by
            conv => lhs; arg 1; rw [← hlt]
            rw [List.drop_left]
          rw [e, hc1]
          have h2 := h1 k (by omega)
          have h3 := ih k (by omega) t.value
          split <;> omega
      · obtain ⟨n', t', h1, h2⟩ := until_next hu
        rw [List.drop_left] at h1
        have hv0 := until_eoc hv (by rw [hdr]; exact h1) h2
        subst hv0
        have hj1 : j = 1 := by
          rw [hdr] at hj
          cases hj with
          | stop => exact eoc_calls h1 h2
          | step _ n2 t2 hd2 h02 => rw [h1] at hd2; cases hd2; exact absurd h2 h02
        have hf := full_fails (buf := r.take n ++ []) (fun n2 t2 h3 => by
          rw [List.append_nil, htk] at h3
          obtain ⟨v2, hv2, -⟩ := (C04_exact_partial tag ht hc t.value n2 t2).mp h3
          exact until_inside _ _ _ (Nat.lt_succ_self _) hu v2 hv2) k
        have hc1 := (decode_bound_calls _ (r.take n ++ []) (Nat.lt_succ_self _)).1
        have hc2 := (decode_bound_calls _ r (Nat.lt_succ_self _)).2 n t hd
        rw [List.length_append, hlt] at hc1
        simp only [List.length_nil] at hc1 ⊢
        omega

theorem full_bound : ∀ k (buf : List Byte), full k buf ≤ 2 * buf.length + 1 := by
  intro k
  induction k using Nat.strongRecOn with
  | ind k ih =>
    intro buf
    cases k with
    | zero => rw [full]; omega
    | succ k =>
      rw [full]
      have hc := (decode_bound_calls _ buf (Nat.lt_succ_self _)).1
      split
      · rename_i n t hd
        have hb := decode_bound hd
        have h1 := ih k (by omega) (buf.drop n)
        rw [List.length_drop] at h1
        have key : (decode buf).calls + (if t.isConstructed then full k t.value else 0) ≤ 2 * n := by
          rcases decode_form hd with ⟨hc1, hvl, -⟩ | ⟨tag, rest, ht, hct, hr, htk, hdr, hn, hu⟩
          · have := ih k (by omega) t.value
            split <;> omega
          · have htl := isTag_length ht
            rcases decode_calls buf with h2 | ⟨tag', r', j, ht', hc', hb', hl', h2⟩
            · have := ih k (by omega) t.value
              split <;> omega
            · have e : r' = t.value ++ rest := by
                have e1 := tagDecode_enc ht ([0x80] ++ (t.value ++ rest))
                have e2 := tagDecode_enc ht' ([0x80] ++ r')
                have he : tag ++ ([0x80] ++ (t.value ++ rest)) = tag' ++ ([0x80] ++ r') := by
                  rw [hr] at hb'; simpa using hb'
                rw [he, e2] at e1
                simp only [Except.ok.injEq, Dec.ok.injEq] at e1
                have := congrArg (List.drop tag.length) he
                rw [List.drop_left, ← e1.1, List.drop_left] at this
                simpa using this.symm
              rw [e] at hl'
              have := loop_full (k + 1) (fun k' hk' b => ih k' hk' b) _ _ hu j hl' k (by omega)
              split <;> omega
        generalize (if t.isConstructed = true then full k t.value else 0) = q at key ⊢
        show (decode buf).calls + (q + full k (buf.drop n)) ≤ 2 * buf.length + 1
        omega
      · omega

/-! ## The functions read no more than that -/

theorem itrNext_calls (buf : List Byte) : (itrNext buf).calls = (decode buf).calls := by
  unfold itrNext
  obtain ⟨d, hd, -⟩ := decode_spec buf
  rw [calls_ok ((decode_res buf).trans hd)]
  cases d with
  | ok n t =>
    have hb := decode_bound hd
    simp only
    rw [suffix_eq hb.2, w_ok]
    rfl
  | eod => rfl
  | err c => rfl

theorem itrNext_step {buf : List Byte} {n : Nat} {t : Tlv} (h : Ber.decode buf = .ok (.ok n t)) :
    Ber.itrNext buf = .ok (buf.drop n, .ok n t) := by
  unfold Ber.itrNext
  rw [h, bind_ok]
  simp only
  rw [suffix_eq (decode_bound h).2]
  rfl

/-- The shape of a loop over objects. -/
theorem loop_calls {β : Type} (buf : List Byte) (f : List Byte × Dec Tlv → W β) (fuel : Nat)
    (he : (f (buf, .eod)).calls = 0) (hc : ∀ c, (f (buf, .err c)).calls = 0)
    (ho : ∀ n t, (f (buf.drop n, .ok n t)).calls ≤
      (if t.isConstructed then full fuel t.value else 0) + full fuel (buf.drop n)) :
    (itrNext buf >>= f).calls ≤ full (fuel + 1) buf := by
  rw [full]
  obtain ⟨d, hd, -⟩ := decode_spec buf
  have hr := itrNext_res buf
  cases d with
  | ok n t =>
    rw [itrNext_step hd] at hr
    rw [calls_ok hr, itrNext_calls, hd]
    have := ho n t
    simp only
    omega
  | eod =>
    have : Ber.itrNext buf = .ok (buf, .eod) := by unfold Ber.itrNext; rw [hd]; rfl
    rw [this] at hr
    rw [calls_ok hr, itrNext_calls, hd, he]
    simp
  | err c =>
    have : Ber.itrNext buf = .ok (buf, .err c) := by unfold Ber.itrNext; rw [hd]; rfl
    rw [this] at hr
    rw [calls_ok hr, itrNext_calls, hd, hc]
    simp

theorem parseF_calls (alloc : List Tlv → Tlv → Bool) : ∀ fuel (buf : List Byte) (list : List Tlv),
    (parseF alloc fuel buf list).calls ≤ full fuel buf := by
  intro fuel
  induction fuel with
  | zero => intros; exact Nat.le_refl 0
  | succ fuel ih =>
    intro buf list
    unfold parseF
    refine loop_calls buf _ fuel rfl (fun _ => rfl) (fun n t => ?_)
    simp only
    split
    · refine calls_le (ih t.value list) (fun a _ => ?_)
      obtain ⟨r, l⟩ := a
      simp only
      split
      · exact Nat.zero_le _
      · exact ih _ _
    · split
      · have := ih (buf.drop n) (list ++ [{ t with flags := 0 }]); omega
      · exact Nat.zero_le _

theorem walk_calls (item : Nat → Tlv → C (List Byte × Option Int)) (pfx : List Byte) (pad : Bool) :
    ∀ fuel depth (whole itr : List Byte) valid,
      (walk item pfx pad fuel depth whole itr valid).calls ≤ full fuel itr := by
  intro fuel
  induction fuel with
  | zero => intros; exact Nat.le_refl 0
  | succ fuel ih =>
    intro depth whole itr valid
    unfold walk
    refine loop_calls itr _ fuel rfl (fun _ => rfl) (fun n t => ?_)
    simp only
    refine Nat.le_trans (calls_le (n := 0) (m := (if t.isConstructed then full fuel t.value else 0) +
      full fuel (itr.drop n)) (Nat.le_refl 0) (fun a _ => ?_)) (by omega)
    obtain ⟨line, stop⟩ := a
    simp only
    split
    · refine calls_le (ih _ _ _ _) (fun a _ => ?_)
      obtain ⟨inner, k⟩ := a
      simp only
      split
      · exact Nat.zero_le _
      · exact Nat.le_trans (calls_le (m := 0) (ih _ _ _ _) (fun a _ => Nat.le_refl 0)) (by omega)
    · cases stop with
      | some c =>
        exact Nat.le_trans (calls_le (n := 0) (m := 0) (Nat.le_refl 0) (fun a _ => Nat.le_refl 0))
          (by omega)
      | none =>
        exact Nat.le_trans (calls_le (m := 0) (ih _ _ _ _) (fun a _ => Nat.le_refl 0)) (by omega)

theorem parseData_calls {ι : Type} (field : Nat → Nat → Nat → Tlv → C ι)
    (padding : Nat → Nat → List Byte → ι) (pad : Bool) :
    ∀ fuel depth (whole itr : List Byte) valid total,
      (parseData field padding pad fuel depth whole itr valid total).calls ≤ full fuel itr := by
  intro fuel
  induction fuel with
  | zero => intros; exact Nat.le_refl 0
  | succ fuel ih =>
    intro depth whole itr valid total
    unfold parseData
    refine loop_calls itr _ fuel rfl (fun _ => ?_) (fun n t => ?_)
    · simp only
      split
      · exact Nat.le_antisymm (Nat.le_trans
          (calls_le (n := 0) (m := 0) (Nat.le_refl 0) (fun a _ => Nat.le_refl 0)) (by omega)) (Nat.zero_le _)
      · rfl
    · simp only
      refine Nat.le_trans (calls_le (n := 0) (m := (if t.isConstructed then full fuel t.value else 0) +
        full fuel (itr.drop n)) (Nat.le_refl 0) (fun a _ => ?_)) (by omega)
      split
      · refine calls_le (ih _ _ _ _ _) (fun a _ => ?_)
        obtain ⟨inner, k, ok⟩ := a
        simp only
        split
        · exact Nat.le_trans (calls_le (m := 0) (ih _ _ _ _ _) (fun a _ => Nat.le_refl 0)) (by omega)
        · exact Nat.zero_le _
      · exact Nat.le_trans (calls_le (m := 0) (ih _ _ _ _ _) (fun a _ => Nat.le_refl 0)) (by omega)

/-! ## Definite form: one call for each object, and one for the end of each level -/

open Verif.TlvParse (Forest)

/-- How many objects are constructed. -/
def _root_.Verif.TlvParse.Forest.nodes : Forest → Nat
  | .nil => 0
  | .leaf _ rest => rest.nodes
  | .node _ _ children rest => children.nodes + rest.nodes + 1

/-- How many calls reading takes. -/
def looks (f : Forest) : Nat := f.objects.length + f.nodes + 1

theorem looks_leaf (o : Obj) (rest : Forest) : looks (.leaf o rest) = 1 + looks rest := by
  simp only [looks, Forest.objects, Forest.nodes, List.length_cons]; omega

theorem looks_node (tag len : List Byte) (children rest : Forest) :
    looks (.node tag len children rest) = 1 + looks children + looks rest := by
  simp only [looks, Forest.objects, Forest.nodes, List.length_cons, List.length_append]; omega

theorem itr_definite {o : Obj} (h : o.WF) (rest : List Byte) {β : Type}
    (f : List Byte × Dec Tlv → W β) :
    (itrNext (o.enc ++ rest) >>= f).calls = 1 + (f (rest, .ok o.enc.length (tlvOf o))).calls := by
  rw [calls_ok ((itrNext_res _).trans (itrNext_enc o h rest)), itrNext_calls]
  have hd := C02_roundtrip o h rest
  have hk : o.enc.length = o.tag.length + o.len.length + o.value.length := by
    simp only [Obj.enc, List.length_append]
  congr 1
  rcases decode_form hd with ⟨h1, -⟩ | ⟨tag, rest', ht, hc, hr, -, -, -, -⟩
  · exact h1
  · exfalso
    obtain ⟨b, l, hb, hne⟩ : ∃ b l, o.len = b :: l ∧ b ≠ 0x80 := by
      obtain ⟨-, hl⟩ := h
      generalize o.value.length = m at hl
      generalize o.len = len at hl
      cases hl with
      | short hs =>
        refine ⟨_, _, rfl, fun e => ?_⟩
        have := congrArg UInt8.toNat e
        simp [UInt8.toNat_ofNat'] at this
        omega
      | long bs h1 h4 _ =>
        refine ⟨_, _, rfl, fun e => ?_⟩
        have := congrArg UInt8.toNat e
        simp [UInt8.toNat_ofNat'] at this
        omega
    have e1 := tagDecode_enc h.1 (o.len ++ o.value ++ rest)
    have e2 := tagDecode_enc ht ([0x80] ++ (o.value ++ rest'))
    have he : o.tag ++ (o.len ++ o.value ++ rest) = tag ++ ([0x80] ++ (o.value ++ rest')) := by
      simpa [Obj.enc] using hr
    rw [he, e2] at e1
    simp only [Except.ok.injEq, Dec.ok.injEq] at e1
    have := congrArg (List.drop o.tag.length) he
    rw [List.drop_left, ← e1.1, List.drop_left, hb] at this
    simp only [List.cons_append, List.cons.injEq] at this
    exact hne this.1

theorem itr_end {β : Type} (f : List Byte × Dec Tlv → W β) :
    (itrNext [] >>= f).calls = 1 + (f ([], .eod)).calls := rfl

theorem res_of {α : Type} {x : W α} {y : C α} (h : x.res = y) {a : α} (ha : y = .ok a) : x.res = .ok a :=
  h.trans ha

theorem parseF_looks : ∀ (f : Forest), f.WF → ∀ fuel (list : List Tlv), f.enc.length < fuel →
    (parseF TlvParse.allocOk fuel f.enc list).res = .ok (0, list ++ f.leaves) ∧
    (parseF TlvParse.allocOk fuel f.enc list).calls = looks f := by
  intro f
  induction f with
  | nil =>
    intro _ fuel list hf
    obtain ⟨fuel, rfl⟩ : ∃ k, fuel = k + 1 := ⟨fuel - 1, by omega⟩
    refine ⟨?_, rfl⟩
    simp only [Forest.leaves, List.append_nil]
    rfl
  | leaf o rest ih =>
    intro h fuel list hf
    obtain ⟨fuel, rfl⟩ : ∃ k, fuel = k + 1 := ⟨fuel - 1, by omega⟩
    have hl := Nest.obj_len h.1
    simp only [Forest.enc, List.length_append] at hf
    obtain ⟨i1, i2⟩ := ih h.2.2 fuel (list ++ [{ tlvOf o with flags := 0 }]) (by omega)
    rw [parseF, Forest.enc, itr_definite h.1, res_bind, itrNext_res, itrNext_enc o h.1, bind_ok]
    simp only [Nest.prim h.1 h.2.1, Bool.false_eq_true, if_false, TlvParse.allocOk, if_true]
    simp only at i1 i2
    rw [i1, i2, looks_leaf]
    simp [Forest.leaves, tlvOf]
  | node tag len children rest ihc ihr =>
    intro h fuel list hf
    obtain ⟨fuel, rfl⟩ : ∃ k, fuel = k + 1 := ⟨fuel - 1, by omega⟩
    have hw := Nest.node_wf h
    have hl := Nest.obj_len hw
    rw [Nest.node_enc, List.length_append] at hf
    simp only at hl
    obtain ⟨i1, i2⟩ := ihc h.2.2.2.1 fuel list (by omega)
    obtain ⟨j1, j2⟩ := ihr h.2.2.2.2 fuel (list ++ children.leaves) (by omega)
    have e : (tlvOf ⟨tag, len, children.enc⟩).value = children.enc := rfl
    rw [parseF, Nest.node_enc, itr_definite hw, res_bind, itrNext_res, itrNext_enc _ hw, bind_ok]
    simp only [Nest.cons hw h.2.1, if_true, e]
    rw [res_bind, calls_ok i1, i1, bind_ok]
    simp only [ne_eq, not_true, if_false]
    rw [j1, i2, j2, looks_node]
    simp only [Forest.leaves, List.append_assoc]
    exact ⟨trivial, by omega⟩

theorem walk_looks (item : Nat → Tlv → C (List Byte × Option Int)) (pfx : List Byte) (pad : Bool) :
    ∀ (f : Forest), f.WF →
    (∀ x ∈ f.objects, ∀ d, ∃ line, item d ⟨beNat x.1, topBits x.1, x.2⟩ = .ok (line, none)) →
    ∀ fuel depth whole valid, f.enc.length < fuel →
    ∃ text, (walk item pfx pad fuel depth whole f.enc valid).res = .ok (text, valid + f.enc.length) ∧
      (walk item pfx pad fuel depth whole f.enc valid).calls = looks f := by
  intro f
  induction f with
  | nil =>
    intro _ _ fuel depth whole valid hf
    obtain ⟨fuel, rfl⟩ : ∃ k, fuel = k + 1 := ⟨fuel - 1, by omega⟩
    exact ⟨[], rfl, rfl⟩
  | leaf o rest ih =>
    intro h hi fuel depth whole valid hf
    obtain ⟨fuel, rfl⟩ : ∃ k, fuel = k + 1 := ⟨fuel - 1, by omega⟩
    have hl := Nest.obj_len h.1
    simp only [Forest.enc, List.length_append] at hf
    obtain ⟨line, hline⟩ := hi _ List.mem_cons_self depth
    obtain ⟨text, i1, i2⟩ := ih h.2.2 (fun x hx => hi x (List.mem_cons_of_mem _ hx)) fuel depth whole
      (valid + o.enc.length) (by omega)
    have hp := Nest.prim h.1 h.2.1
    unfold tlvOf at hp
    simp only at hline
    rw [walk, Forest.enc, itr_definite h.1, res_bind, itrNext_res, itrNext_enc o h.1, bind_ok]
    simp only [tlvOf, hline, w_ok, hp, Bool.false_eq_true, if_false]
    rw [res_bind, calls_ok i1, i1, i2, looks_leaf]
    refine ⟨line ++ text, ?_, rfl⟩
    rw [bind_ok]
    simp only [res_up, List.length_append, Nat.add_assoc]
  | node tag len children rest ihc ihr =>
    intro h hi fuel depth whole valid hf
    obtain ⟨fuel, rfl⟩ : ∃ k, fuel = k + 1 := ⟨fuel - 1, by omega⟩
    have hw := Nest.node_wf h
    have hl := Nest.obj_len hw
    rw [Nest.node_enc, List.length_append] at hf
    simp only at hl
    obtain ⟨line, hline⟩ := hi _ List.mem_cons_self depth
    obtain ⟨t1, i1, i2⟩ := ihc h.2.2.2.1 (fun x hx => hi x (by simp [Forest.objects, hx])) fuel (depth + 1)
      children.enc 0 (by omega)
    obtain ⟨t2, j1, j2⟩ := ihr h.2.2.2.2 (fun x hx => hi x (by simp [Forest.objects, hx])) fuel depth
      whole (valid + ((⟨tag, len, children.enc⟩ : Obj).enc.length - children.enc.length) + children.enc.length)
      (by omega)
    have hp := Nest.cons hw h.2.1
    unfold tlvOf at hp
    simp only at hline hp
    rw [walk, Nest.node_enc, itr_definite hw, res_bind, itrNext_res, itrNext_enc _ hw, bind_ok]
    simp only [tlvOf, hline, w_ok, hp, if_true]
    rw [res_bind, calls_ok i1, i1, bind_ok]
    simp only [Nat.zero_add, Nat.lt_irrefl, if_false]
    rw [res_bind, calls_ok j1, j1, bind_ok, i2, j2, looks_node]
    refine ⟨line ++ t1 ++ t2, ?_, ?_⟩
    · simp only [res_up, List.length_append]
      congr 2
      omega
    · simp only [calls_up]
      omega

theorem parseData_looks {ι : Type} (field : Nat → Nat → Nat → Tlv → C ι)
    (padding : Nat → Nat → List Byte → ι) (pad : Bool) :
    ∀ (f : Forest), f.WF →
    (∀ x ∈ f.objects, ∀ d o l, ∃ i, field d o l ⟨beNat x.1, topBits x.1, x.2⟩ = .ok i) →
    ∀ fuel depth whole valid total, f.enc.length < fuel →
    ∃ items, (parseData field padding pad fuel depth whole f.enc valid total).res =
        .ok (items, total + f.enc.length, true) ∧
      (parseData field padding pad fuel depth whole f.enc valid total).calls = looks f := by
  intro f
  induction f with
  | nil =>
    intro _ _ fuel depth whole valid total hf
    obtain ⟨fuel, rfl⟩ : ∃ k, fuel = k + 1 := ⟨fuel - 1, by omega⟩
    exact ⟨[], rfl, rfl⟩
  | leaf o rest ih =>
    intro h hi fuel depth whole valid total hf
    obtain ⟨fuel, rfl⟩ : ∃ k, fuel = k + 1 := ⟨fuel - 1, by omega⟩
    have hl := Nest.obj_len h.1
    simp only [Forest.enc, List.length_append] at hf
    obtain ⟨i, hline⟩ := hi _ List.mem_cons_self depth total o.enc.length
    obtain ⟨items, i1, i2⟩ := ih h.2.2 (fun x hx => hi x (List.mem_cons_of_mem _ hx)) fuel depth whole
      (valid + o.enc.length) (total + o.enc.length) (by omega)
    have hp := Nest.prim h.1 h.2.1
    unfold tlvOf at hp
    simp only at hline
    rw [parseData, Forest.enc, itr_definite h.1, res_bind, itrNext_res, itrNext_enc o h.1, bind_ok]
    simp only [tlvOf, hline, w_ok, hp, Bool.false_eq_true, if_false]
    rw [res_bind, calls_ok i1, i1, i2, looks_leaf]
    refine ⟨i :: items, ?_, rfl⟩
    rw [bind_ok]
    simp only [res_up, List.length_append, Nat.add_assoc]
  | node tag len children rest ihc ihr =>
    intro h hi fuel depth whole valid total hf
    obtain ⟨fuel, rfl⟩ : ∃ k, fuel = k + 1 := ⟨fuel - 1, by omega⟩
    have hw := Nest.node_wf h
    have hl := Nest.obj_len hw
    rw [Nest.node_enc, List.length_append] at hf
    simp only at hl
    obtain ⟨i, hline⟩ := hi _ List.mem_cons_self depth total (⟨tag, len, children.enc⟩ : Obj).enc.length
    obtain ⟨t1, i1, i2⟩ := ihc h.2.2.2.1 (fun x hx => hi x (by simp [Forest.objects, hx])) fuel (depth + 1)
      children.enc 0 (total + ((⟨tag, len, children.enc⟩ : Obj).enc.length - children.enc.length)) (by omega)
    obtain ⟨t2, j1, j2⟩ := ihr h.2.2.2.2 (fun x hx => hi x (by simp [Forest.objects, hx])) fuel depth
      whole (valid + ((⟨tag, len, children.enc⟩ : Obj).enc.length - children.enc.length) + children.enc.length)
      (total + ((⟨tag, len, children.enc⟩ : Obj).enc.length - children.enc.length) + children.enc.length)
      (by omega)
    have hp := Nest.cons hw h.2.1
    unfold tlvOf at hp
    simp only at hline hp
    rw [parseData, Nest.node_enc, itr_definite hw, res_bind, itrNext_res, itrNext_enc _ hw, bind_ok]
    simp only [tlvOf, hline, w_ok, hp, if_true]
    rw [res_bind, calls_ok i1, i1, bind_ok]
    simp only [if_true]
    rw [res_bind, calls_ok j1, j1, bind_ok, i2, j2, looks_node]
    refine ⟨i :: (t1 ++ t2), ?_, ?_⟩
    · simp only [res_up, List.length_append]
      congr 3
      omega
    · simp only [calls_up]
      omega

end Verif.Work
