import Verif.StrProps
import Verif.AppProps

/-! # Properties of packing decimal strings: C51, C52 -/

set_option autoImplicit false

namespace Verif.Str
open Verif Formats BerSpec

/-! ## Bytes -/

theorem wr_mid (a b : List Byte) (x y : Byte) : wr (a ++ x :: b) a.length y = .ok (a ++ y :: b) := by
  rw [wr_eq (by simp)]
  simp

theorem rd_mid (a b : List Byte) (x : Byte) : rd (a ++ x :: b) a.length = .ok x := by
  simpa using rd_append_right a (x :: b) 0

theorem digit_facts : ∀ d, d < 10 → digitChar d ≠ 0 ∧ isDigit (digitChar d) = true ∧
    digitChar d - 0x30 = UInt8.ofNat d := by decide +kernel

theorem isDigit_char : ∀ c : Byte, isDigit c = (Char.ofNat c.toNat).isDigit := by decide +kernel

theorem pair_facts : ∀ d, d < 10 → ∀ e, e < 10 →
    nibbles [(UInt8.ofNat d <<< 4) ||| (UInt8.ofNat e &&& 0x0F)] = [d, e] ∧
    nibbles [UInt8.ofNat e ||| (UInt8.ofNat d <<< 4)] = [d, e] := by decide +kernel

theorem single_facts : ∀ d, d < 10 → nibbles [(UInt8.ofNat d <<< 4) ||| 0x0F] = [d, 15] ∧
    nibbles [UInt8.ofNat d] = [0, d] := by decide +kernel

theorem nibbles_replicate_FF (n : Nat) :
    nibbles (List.replicate n 0xFF) = List.replicate (2 * n) 15 := by
  induction n with
  | zero => rfl
  | succ n ih =>
    rw [List.replicate_succ, show 2 * (n + 1) = 2 * n + 1 + 1 by omega]
    simp only [List.replicate_succ, nibbles, ih]
    rfl

theorem nibbles_replicate_zero (n : Nat) :
    nibbles (List.replicate n 0) = List.replicate (2 * n) 0 := by
  induction n with
  | zero => rfl
  | succ n ih =>
    rw [List.replicate_succ, show 2 * (n + 1) = 2 * n + 1 + 1 by omega]
    simp only [List.replicate_succ, nibbles, ih]
    rfl

theorem nibbles_inj : ∀ (a b : List Byte), nibbles a = nibbles b → a = b := by
  intro a
  induction a with
  | nil => intro b h; cases b with
    | nil => rfl
    | cons x b => simp [nibbles] at h
  | cons x a ih =>
    intro b h
    cases b with
    | nil => simp [nibbles] at h
    | cons y b =>
      simp only [nibbles, List.cons.injEq] at h
      obtain ⟨h1, h2, h3⟩ := h
      rw [ih b h3]
      congr 1
      apply UInt8.toNat.inj
      omega

theorem padFF_spec : ∀ (n : Nat) (a t : List Byte), t.length = n →
    padFF n (a ++ t) = .ok (a ++ List.replicate n 0xFF) := by
  intro n
  induction n with
  | zero => intro a t h; rw [List.length_eq_zero_iff.1 h]; rfl
  | succ n ih =>
    intro a t h
    match t, h with
    | x :: t, h =>
      have hl : t.length = n := by simpa using h
      have e : (a ++ x :: t).length - (n + 1) = a.length := by simp; omega
      rw [padFF, e, wr_mid, bind_ok]
      have := ih (a ++ [0xFF]) t hl
      simp only [List.append_assoc, List.cons_append, List.nil_append] at this
      rw [this, List.replicate_succ]

theorem padZero_spec : ∀ (n : Nat) (t b : List Byte), t.length = n →
    padZero n (t ++ b) = .ok (List.replicate n 0 ++ b) := by
  intro n
  induction n with
  | zero => intro t b h; rw [List.length_eq_zero_iff.1 h]; rfl
  | succ n ih =>
    intro t b h
    obtain ⟨t', x, rfl⟩ : ∃ t' x, t = t' ++ [x] := by
      have hne : t ≠ [] := by intro e; simp [e] at h
      exact ⟨t.dropLast, t.getLast hne, (List.dropLast_concat_getLast hne).symm⟩
    have hl : t'.length = n := by simpa using h
    have e := wr_mid t' b x 0
    rw [hl] at e
    rw [padZero, List.append_assoc, List.singleton_append, e, bind_ok, ih t' _ hl]
    rw [List.replicate_succ']
    simp

/-! ## Left justified packing -/

theorem toCnLoop_spec (c : Byte) (rest : List Byte) (hc : isDigit c = false) :
    ∀ (ds : List Nat) (fuel : Nat) (pre : List Nat) (outpre tail : List Byte),
    (∀ d ∈ ds, d ≤ 9) → ds.length < fuel → outpre.length * 2 = pre.length →
    (c = 0 ∨ 2 * tail.length ≤ ds.length → ∃ out, out.length = tail.length ∧
      toCnLoop ((pre ++ ds).map digitChar ++ c :: rest) fuel pre.length (outpre ++ tail)
        outpre.length = .ok (0, outpre ++ out) ∧
      nibbles out = (ds ++ List.replicate (2 * tail.length) 15).take (2 * tail.length)) ∧
    (c ≠ 0 → ds.length < 2 * tail.length → ∃ out, out.length = tail.length ∧
      toCnLoop ((pre ++ ds).map digitChar ++ c :: rest) fuel pre.length (outpre ++ tail)
        outpre.length = .ok (1, outpre ++ out))
  | ds, fuel, pre, outpre, [] => by
    intro hd hf hp
    obtain ⟨fuel, rfl⟩ : ∃ f, fuel = f + 1 := ⟨fuel - 1, by omega⟩
    refine ⟨fun _ => ⟨[], rfl, ?_, by simp [nibbles]⟩, fun _ h => by simp at h⟩
    have hl : pre.length < ((pre ++ ds).map digitChar ++ c :: rest).length := by simp; omega
    rw [toCnLoop, rd_eq hl, bind_ok]
    simp
  | [], fuel, pre, outpre, t :: ts => by
    intro hd hf hp
    obtain ⟨fuel, rfl⟩ : ∃ f, fuel = f + 1 := ⟨fuel - 1, by omega⟩
    have hr : rd ((pre ++ []).map digitChar ++ c :: rest) pre.length = .ok c := by
      have := rd_mid (pre.map digitChar) rest c
      simpa using this
    have hlen : (outpre ++ t :: ts).length - outpre.length ≠ 0 := by simp
    rw [toCnLoop, hr, bind_ok]
    refine ⟨fun h => ?_, fun h0 _ => ⟨t :: ts, rfl, ?_⟩⟩
    · have h0 : c = 0 := by
        rcases h with h | h
        · exact h
        · simp at h
      refine ⟨List.replicate (t :: ts).length 0xFF, by simp, ?_, ?_⟩
      · have he : (outpre ++ t :: ts).length - outpre.length = (t :: ts).length := by simp
        rw [if_neg (by simp [h0]), if_pos hlen, if_neg (by omega), he,
          padFF_spec _ outpre (t :: ts) rfl, bind_ok]
      · rw [nibbles_replicate_FF]; simp
    · rw [if_pos ⟨h0, hlen⟩, hc]; rfl
  | [d], fuel, pre, outpre, t :: ts => by
    intro hd hf hp
    obtain ⟨fuel, rfl⟩ : ∃ f, fuel = f + 1 + 1 := ⟨fuel - 2, by simp at hf; omega⟩
    have hd9 := hd d (by simp)
    obtain ⟨f1, f2, f3⟩ := digit_facts d (by omega)
    have hr : rd ((pre ++ [d]).map digitChar ++ c :: rest) pre.length = .ok (digitChar d) := by
      have := rd_mid (pre.map digitChar) (c :: rest) (digitChar d)
      simpa using this
    have hr2 : rd ((pre ++ [d]).map digitChar ++ c :: rest) (pre.length + 1) = .ok c := by
      have := rd_mid ((pre ++ [d]).map digitChar) rest c
      simpa using this
    have hlen : (outpre ++ t :: ts).length - outpre.length ≠ 0 := by simp
    rw [toCnLoop, hr, bind_ok, if_pos ⟨f1, hlen⟩, f2, f3]
    simp only [Bool.not_true, Bool.false_eq_true, if_false]
    rw [if_pos (by omega), wr_mid, bind_ok, toCnLoop, hr2, bind_ok]
    have hlen2 : (outpre ++ UInt8.ofNat d <<< 4 :: ts).length - outpre.length ≠ 0 := by simp
    refine ⟨fun h => ?_, fun h0 _ => ⟨UInt8.ofNat d <<< 4 :: ts, by simp, ?_⟩⟩
    · have h0 : c = 0 := by
        rcases h with h | h
        · exact h
        · simp at h; omega
      refine ⟨((UInt8.ofNat d <<< 4) ||| 0x0F) :: List.replicate ts.length 0xFF, by simp, ?_, ?_⟩
      · rw [if_neg (by simp [h0]), if_pos hlen2, if_pos (by omega), rd_mid, bind_ok, wr_mid,
          bind_ok]
        have he : (outpre ++ (UInt8.ofNat d <<< 4 ||| 0x0F) :: ts).length - (outpre.length + 1) =
            ts.length := by simp; omega
        have := padFF_spec ts.length (outpre ++ [UInt8.ofNat d <<< 4 ||| 0x0F]) ts rfl
        simp only [List.append_assoc, List.cons_append, List.nil_append] at this
        rw [he, this, bind_ok]
      · have := (single_facts d (by omega)).1
        simp only [nibbles, List.cons.injEq, and_true] at this
        simp only [nibbles, this, nibbles_replicate_FF]
        rw [show 2 * (t :: ts).length = 2 * ts.length + 1 + 1 by simp; omega]
        simp only [List.cons_append, List.nil_append, List.take_succ_cons, List.replicate_succ,
          List.cons.injEq, true_and]
        rw [← List.replicate_succ, List.take_replicate, Nat.min_eq_left (by omega)]
    · rw [if_pos ⟨h0, hlen2⟩, hc]; rfl
  | d :: e :: ds, fuel, pre, outpre, t :: ts => by
    intro hd hf hp
    obtain ⟨fuel, rfl⟩ : ∃ f, fuel = f + 1 + 1 := ⟨fuel - 2, by simp at hf; omega⟩
    have hd9 := hd d (by simp)
    have he9 := hd e (by simp)
    obtain ⟨f1, f2, f3⟩ := digit_facts d (by omega)
    obtain ⟨g1, g2, g3⟩ := digit_facts e (by omega)
    have hr : rd ((pre ++ d :: e :: ds).map digitChar ++ c :: rest) pre.length =
        .ok (digitChar d) := by
      have := rd_mid (pre.map digitChar) (digitChar e :: ds.map digitChar ++ c :: rest)
        (digitChar d)
      simpa using this
    have hr2 : rd ((pre ++ d :: e :: ds).map digitChar ++ c :: rest) (pre.length + 1) =
        .ok (digitChar e) := by
      have := rd_mid ((pre ++ [d]).map digitChar) (ds.map digitChar ++ c :: rest) (digitChar e)
      simpa using this
    have hlen : (outpre ++ t :: ts).length - outpre.length ≠ 0 := by simp
    have hlen2 : (outpre ++ UInt8.ofNat d <<< 4 :: ts).length - outpre.length ≠ 0 := by simp
    have step : toCnLoop ((pre ++ d :: e :: ds).map digitChar ++ c :: rest) (fuel + 1 + 1)
        pre.length (outpre ++ t :: ts) outpre.length =
        toCnLoop ((pre ++ d :: e :: ds).map digitChar ++ c :: rest) fuel (pre.length + 1 + 1)
          (outpre ++ ((UInt8.ofNat d <<< 4) ||| (UInt8.ofNat e &&& 0x0F)) :: ts)
          (outpre.length + 1) := by
      rw [toCnLoop, hr, bind_ok, if_pos ⟨f1, hlen⟩, f2, f3]
      simp only [Bool.not_true, Bool.false_eq_true, if_false]
      rw [if_pos (by omega), wr_mid, bind_ok, toCnLoop, hr2, bind_ok, if_pos ⟨g1, hlen2⟩, g2, g3]
      simp only [Bool.not_true, Bool.false_eq_true, if_false]
      rw [if_neg (by omega), rd_mid, bind_ok, wr_mid, bind_ok]
    have ih := toCnLoop_spec c rest hc ds fuel (pre ++ [d, e])
      (outpre ++ [(UInt8.ofNat d <<< 4) ||| (UInt8.ofNat e &&& 0x0F)]) ts
      (fun x hx => hd x (by simp [hx])) (by simp at hf; omega) (by simp; omega)
    simp only [List.append_assoc, List.cons_append, List.nil_append, List.length_append,
      List.length_cons, List.length_nil, Nat.zero_add] at ih
    rw [step]
    refine ⟨fun h => ?_, fun h0 h => ?_⟩
    · obtain ⟨out, o1, o2, o3⟩ := ih.1 (h.imp id (fun h => by simp at h; omega))
      refine ⟨_ :: out, by simp [o1], o2, ?_⟩
      have := (pair_facts d (by omega) e (by omega)).1
      simp only [nibbles, List.cons.injEq, and_true] at this
      simp only [nibbles, this, o3]
      rw [show 2 * (t :: ts).length = 2 * ts.length + 1 + 1 by simp; omega]
      simp only [List.cons_append, List.take_succ_cons, List.cons.injEq, true_and]
      rw [List.take_append, List.take_append, List.take_replicate, List.take_replicate]
      congr 2
      omega
    · obtain ⟨out, o1, o2⟩ := ih.2 h0 (by simp at h; omega)
      exact ⟨_ :: out, by simp [o1], o2⟩

/-! ## Right justified packing -/

theorem toNLoop_spec (pfx rest : List Byte)
    (hpfx : pfx = [] ∨ ∃ p c, pfx = p ++ [c] ∧ isDigit c = false) :
    ∀ (rs : List Nat) (fuel : Nat) (post : List Nat) (hdr : List Byte)
      (outpost : List Byte),
    (∀ d ∈ rs, d ≤ 9) → rs.length < fuel → outpost.length * 2 = post.length →
    (pfx = [] ∨ 2 * hdr.length ≤ rs.length → ∃ out, out.length = hdr.length ∧
      toNLoop (pfx ++ (rs.reverse ++ post).map digitChar ++ 0 :: rest) fuel post.length
        (pfx.length + rs.length) (hdr.reverse ++ outpost) hdr.length = .ok (0, out ++ outpost) ∧
      (nibbles out).reverse = (rs ++ List.replicate (2 * hdr.length) 0).take (2 * hdr.length)) ∧
    (pfx ≠ [] → rs.length < 2 * hdr.length → ∃ out, out.length = hdr.length ∧
      toNLoop (pfx ++ (rs.reverse ++ post).map digitChar ++ 0 :: rest) fuel post.length
        (pfx.length + rs.length) (hdr.reverse ++ outpost) hdr.length = .ok (1, out ++ outpost))
  | rs, fuel, post, [], outpost => by
    intro hd hf hp
    obtain ⟨fuel, rfl⟩ : ∃ f, fuel = f + 1 := ⟨fuel - 1, by omega⟩
    refine ⟨fun _ => ⟨[], rfl, ?_, by simp [nibbles]⟩, fun _ h => by simp at h⟩
    rw [toNLoop, if_neg (by simp), if_neg (by simp)]
    simp
  | [], fuel, post, t :: ts, outpost => by
    intro hd hf hp
    obtain ⟨fuel, rfl⟩ : ∃ f, fuel = f + 1 := ⟨fuel - 1, by omega⟩
    have hlen : (t :: ts).length ≠ 0 := by simp
    refine ⟨fun h => ?_, fun h0 _ => ?_⟩
    · have h0 : pfx = [] := by
        rcases h with h | h
        · exact h
        · simp at h
      subst h0
      refine ⟨List.replicate (t :: ts).length 0, by simp, ?_, ?_⟩
      · rw [toNLoop, if_neg (by simp), if_pos hlen, if_neg (by omega),
          padZero_spec _ (t :: ts).reverse outpost (by simp), bind_ok]
      · rw [nibbles_replicate_zero]; simp
    · rcases hpfx with hpfx | ⟨p, c, rfl, hc⟩
      · exact absurd hpfx h0
      · refine ⟨(t :: ts).reverse, by simp, ?_⟩
        have hr : rd ((p ++ [c]) ++ ([].reverse ++ post).map digitChar ++ 0 :: rest)
            ((p ++ [c]).length + ([] : List Nat).length - 1) = .ok c := by
          have := rd_mid p (post.map digitChar ++ 0 :: rest) c
          simpa using this
        rw [toNLoop, if_pos ⟨by simp, hlen⟩, hr, bind_ok, hc]
        rfl
  | [d], fuel, post, t :: ts, outpost => by
    intro hd hf hp
    obtain ⟨fuel, rfl⟩ : ∃ f, fuel = f + 1 + 1 := ⟨fuel - 2, by simp at hf; omega⟩
    have hd9 := hd d (by simp)
    obtain ⟨f1, f2, f3⟩ := digit_facts d (by omega)
    have hr : rd (pfx ++ ([d].reverse ++ post).map digitChar ++ 0 :: rest)
        (pfx.length + [d].length - 1) = .ok (digitChar d) := by
      have := rd_mid pfx (post.map digitChar ++ 0 :: rest) (digitChar d)
      simpa using this
    have hlen : (t :: ts).length ≠ 0 := by simp
    have hw : wr ((t :: ts).reverse ++ outpost) ((t :: ts).length - 1) (UInt8.ofNat d) =
        .ok (ts.reverse ++ UInt8.ofNat d :: outpost) := by
      have := wr_mid ts.reverse outpost t (UInt8.ofNat d)
      simpa using this
    have step : toNLoop (pfx ++ ([d].reverse ++ post).map digitChar ++ 0 :: rest) (fuel + 1 + 1)
        post.length (pfx.length + [d].length) ((t :: ts).reverse ++ outpost) (t :: ts).length =
        toNLoop (pfx ++ ([d].reverse ++ post).map digitChar ++ 0 :: rest) (fuel + 1)
          (post.length + 1) pfx.length (ts.reverse ++ UInt8.ofNat d :: outpost)
          (t :: ts).length := by
      rw [toNLoop, if_pos ⟨by simp, hlen⟩, hr, bind_ok, f2, f3]
      simp only [Bool.not_true, Bool.false_eq_true, if_false]
      rw [if_pos (by omega), hw, bind_ok]
      simp
    rw [step]
    refine ⟨fun h => ?_, fun h0 _ => ?_⟩
    · have h0 : pfx = [] := by
        rcases h with h | h
        · exact h
        · simp at h; omega
      subst h0
      refine ⟨List.replicate ts.length 0 ++ [UInt8.ofNat d], by simp, ?_, ?_⟩
      · rw [toNLoop, if_neg (by simp), if_pos hlen, if_pos (by omega)]
        have e : (t :: ts).length - 1 = ts.length := by simp
        rw [e, padZero_spec ts.length ts.reverse _ (by simp), bind_ok]
        simp
      · have := (single_facts d (by omega)).2
        rw [nibbles_append, this, nibbles_replicate_zero]
        rw [show 2 * (t :: ts).length = 2 * ts.length + 1 + 1 by simp; omega]
        simp only [List.cons_append, List.nil_append, List.take_succ_cons, List.replicate_succ,
          List.reverse_append, List.reverse_cons, List.reverse_nil, List.reverse_replicate,
          List.cons.injEq, true_and]
        rw [← List.replicate_succ, List.take_replicate, Nat.min_eq_left (by omega)]
    · rcases hpfx with hpfx | ⟨p, c, rfl, hc⟩
      · exact absurd hpfx h0
      · refine ⟨ts.reverse ++ [UInt8.ofNat d], by simp, ?_⟩
        have hr2 : rd ((p ++ [c]) ++ ([d].reverse ++ post).map digitChar ++ 0 :: rest)
            ((p ++ [c]).length - 1) = .ok c := by
          have := rd_mid p (digitChar d :: post.map digitChar ++ 0 :: rest) c
          simpa using this
        rw [toNLoop, if_pos ⟨by simp, hlen⟩, hr2, bind_ok, hc]
        simp
  | d :: e :: rs, fuel, post, t :: ts, outpost => by
    intro hd hf hp
    obtain ⟨fuel, rfl⟩ : ∃ f, fuel = f + 1 + 1 := ⟨fuel - 2, by simp at hf; omega⟩
    have hd9 := hd d (by simp)
    have he9 := hd e (by simp)
    obtain ⟨f1, f2, f3⟩ := digit_facts d (by omega)
    obtain ⟨g1, g2, g3⟩ := digit_facts e (by omega)
    have hr : rd (pfx ++ ((d :: e :: rs).reverse ++ post).map digitChar ++ 0 :: rest)
        (pfx.length + (d :: e :: rs).length - 1) = .ok (digitChar d) := by
      have := rd_mid (pfx ++ (rs.reverse ++ [e]).map digitChar)
        (post.map digitChar ++ 0 :: rest) (digitChar d)
      simp only [List.map_append, List.length_append, List.length_map, List.length_reverse,
        List.map_cons, List.map_nil, List.length_cons, List.length_nil, Nat.zero_add,
        List.append_assoc, List.cons_append, List.nil_append] at this
      simp only [List.reverse_cons, List.map_append, List.map_cons, List.append_assoc,
        List.cons_append, List.nil_append, List.length_cons]
      rw [← this]; congr 1
    have hr2 : rd (pfx ++ ((d :: e :: rs).reverse ++ post).map digitChar ++ 0 :: rest)
        (pfx.length + (rs.length + 1) - 1) = .ok (digitChar e) := by
      have := rd_mid (pfx ++ rs.reverse.map digitChar)
        (digitChar d :: post.map digitChar ++ 0 :: rest) (digitChar e)
      simp only [List.length_append, List.length_map, List.length_reverse, List.append_assoc,
        List.cons_append] at this
      simp only [List.reverse_cons, List.map_append, List.map_cons, List.append_assoc, List.cons_append, List.nil_append]
      rw [← this]; congr 1
    have hlen : (t :: ts).length ≠ 0 := by simp
    have hw : wr ((t :: ts).reverse ++ outpost) ((t :: ts).length - 1) (UInt8.ofNat d) =
        .ok (ts.reverse ++ UInt8.ofNat d :: outpost) := by
      have := wr_mid ts.reverse outpost t (UInt8.ofNat d)
      simpa using this
    have hrb : rd (ts.reverse ++ UInt8.ofNat d :: outpost) ((t :: ts).length - 1) =
        .ok (UInt8.ofNat d) := by
      have := rd_mid ts.reverse outpost (UInt8.ofNat d)
      simpa using this
    have hw2 : wr (ts.reverse ++ UInt8.ofNat d :: outpost) ((t :: ts).length - 1)
        (UInt8.ofNat d ||| (UInt8.ofNat e <<< 4)) =
        .ok (ts.reverse ++ (UInt8.ofNat d ||| (UInt8.ofNat e <<< 4)) :: outpost) := by
      have := wr_mid ts.reverse outpost (UInt8.ofNat d) (UInt8.ofNat d ||| (UInt8.ofNat e <<< 4))
      simpa using this
    have step : toNLoop (pfx ++ ((d :: e :: rs).reverse ++ post).map digitChar ++ 0 :: rest)
        (fuel + 1 + 1) post.length (pfx.length + (d :: e :: rs).length)
        ((t :: ts).reverse ++ outpost) (t :: ts).length =
        toNLoop (pfx ++ ((d :: e :: rs).reverse ++ post).map digitChar ++ 0 :: rest) fuel
          (post.length + 1 + 1) (pfx.length + rs.length)
          (ts.reverse ++ (UInt8.ofNat d ||| (UInt8.ofNat e <<< 4)) :: outpost) ts.length := by
      rw [toNLoop, if_pos ⟨by simp, hlen⟩, hr, bind_ok, f2, f3]
      simp only [Bool.not_true, Bool.false_eq_true, if_false]
      rw [if_pos (by omega), hw, bind_ok,
        show pfx.length + (d :: e :: rs).length - 1 = pfx.length + (rs.length + 1) by simp,
        toNLoop, if_pos ⟨by omega, hlen⟩, hr2, bind_ok, g2, g3]
      simp only [Bool.not_true, Bool.false_eq_true, if_false]
      rw [if_neg (by omega), hrb, bind_ok, hw2, bind_ok]
      rfl
    have ih := toNLoop_spec pfx rest hpfx rs fuel (e :: d :: post) ts
      ((UInt8.ofNat d ||| (UInt8.ofNat e <<< 4)) :: outpost)
      (fun x hx => hd x (by simp [hx])) (by simp at hf; omega) (by simp; omega)
    have hstr : (d :: e :: rs).reverse ++ post = rs.reverse ++ e :: d :: post := by simp
    simp only [List.length_cons] at ih
    rw [step, hstr]
    refine ⟨fun h => ?_, fun h0 h => ?_⟩
    · obtain ⟨out, o1, o2, o3⟩ := ih.1 (h.imp id (fun h => by simp at h; omega))
      refine ⟨out ++ [UInt8.ofNat d ||| (UInt8.ofNat e <<< 4)], by simp [o1], ?_, ?_⟩
      · rw [o2]; simp
      · have := (pair_facts e (by omega) d (by omega)).2
        rw [nibbles_append, this, List.reverse_append, o3]
        rw [show 2 * (t :: ts).length = 2 * ts.length + 1 + 1 by simp; omega]
        simp only [List.cons_append, List.take_succ_cons, List.cons.injEq, true_and,
          List.reverse_cons, List.reverse_nil, List.nil_append]
        rw [List.take_append, List.take_append, List.take_replicate, List.take_replicate]
        congr 2
        omega
    · obtain ⟨out, o1, o2⟩ := ih.2 h0 (by simp at h; omega)
      refine ⟨out ++ [UInt8.ofNat d ||| (UInt8.ofNat e <<< 4)], by simp [o1], ?_⟩
      rw [o2]; simp

/-! ## C51: compressed numeric -/

theorem unpadded_of_digits (bs : List Byte) (ds : List Nat) (k : Nat) (hd : ∀ d ∈ ds, d ≤ 9)
    (h : nibbles bs = ds ++ List.replicate k 15) : unpadded bs = ds := by
  have h1 : ds.takeWhile (fun d => d != 15) = ds := by
    clear h
    induction ds with
    | nil => rfl
    | cons d ds ih =>
      have := hd d (by simp)
      rw [List.takeWhile_cons, if_pos (by simp; omega), ih (fun x hx => hd x (by simp [hx]))]
  rw [unpadded, h, List.takeWhile_append, h1, if_pos rfl]
  cases k <;> simp [List.replicate_succ]

theorem badCn_nibble : ∀ d, d < 16 → (badCn (UInt8.ofNat d) = true ↔ 9 < d ∧ d ≠ 15) := by
  decide +kernel

theorem nibbles_lt (bs : List Byte) : ∀ d ∈ nibbles bs, d < 16 := by
  induction bs with
  | nil => simp [nibbles]
  | cons b bs ih =>
    intro d hd
    simp only [nibbles, List.mem_cons] at hd
    have := UInt8.toNat_lt b
    rcases hd with rfl | rfl | hd
    · omega
    · omega
    · exact ih d hd

theorem unpadded_mem {bs : List Byte} {d : Nat} (h : d ∈ unpadded bs) : d < 16 ∧ d ≠ 15 := by
  refine ⟨nibbles_lt bs d ((List.takeWhile_sublist _).subset h), ?_⟩
  have := List.all_takeWhile (p := fun d => d != 15) (l := nibbles bs)
  rw [List.all_eq_true] at this
  simpa using this d h

/-- **C51** (stringification).  Into a buffer of two characters per byte and a terminator, a
field is stringified up to its first padding nibble F exactly when the nibbles before it are
decimal; otherwise the field is refused.  Smaller buffers and empty fields are refused with
nothing written.  In no case is anything written outside of the buffer. -/
theorem C51_get (buf str : List Byte) :
    (buf ≠ [] → 2 * buf.length < str.length → (∀ d ∈ unpadded buf, d ≤ 9) →
      cnGetString buf str = .ok (0, strOver ((unpadded buf).map digitChar) str)) ∧
    (buf ≠ [] → 2 * buf.length < str.length → (∃ d ∈ unpadded buf, 9 < d) →
      ∃ str', str'.length = str.length ∧ cnGetString buf str = .ok (1, str')) ∧
    (buf = [] ∨ str.length ≤ 2 * buf.length →
      ∃ c, c < 0 ∧ cnGetString buf str = .ok (c, str)) := by
  have hul := unpadded_length buf
  have hspec := nibLoop_spec badCn buf str buf (buf.length + 1) [] [] str (by simp)
    (by omega) rfl (by simp) (by simp) (by decide)
  have ne : buf ≠ [] → buf.length ≠ 0 := fun h => by simpa using h
  refine ⟨fun h hs hd => ?_, fun h hs hd => ?_, fun h => ?_⟩
  · have := ne h
    rw [cnGetString, if_neg (by omega), if_neg (by omega)]
    have h2 := hspec.1 (fun d hx => by
      obtain ⟨h16, h15⟩ := unpadded_mem hx
      have h3 := badCn_nibble d h16
      have h4 := hd d hx
      cases hb : badCn (UInt8.ofNat d) with
      | false => rfl
      | true => have := h3.1 hb; omega)
    rw [if_pos (by simp; omega)] at h2
    simpa using h2
  · have := ne h
    rw [cnGetString, if_neg (by omega), if_neg (by omega)]
    obtain ⟨d, hx, hd⟩ := hd
    obtain ⟨h16, h15⟩ := unpadded_mem hx
    obtain ⟨str', e1, e2⟩ := hspec.2 ⟨d, hx, (badCn_nibble d h16).2 ⟨hd, h15⟩⟩ (by simp; omega)
    exact ⟨str', e2, e1⟩
  · rw [cnGetString]
    by_cases h1 : buf.length = 0 ∨ str.length = 0
    · exact ⟨-1, by decide, by rw [if_pos h1]⟩
    · refine ⟨-2, by decide, ?_⟩
      rw [if_neg h1, if_pos]
      rcases h with h | h
      · simp [h] at h1
      · omega

/-- **C51** (packing).  A decimal string is packed left justified: two digits per byte,
padded with F nibbles, truncated at the end of the buffer.  The whole buffer is written and
nothing outside of it. -/
theorem C51_pack (ds : List Nat) (junk buf : List Byte) (hd : ∀ d ∈ ds, d ≤ 9) (hb : buf ≠ []) :
    ∃ out, strToCn (ds.map digitChar ++ 0 :: junk) buf = .ok (0, out) ∧
      out.length = buf.length ∧
      nibbles out = (ds ++ List.replicate (2 * buf.length) 15).take (2 * buf.length) := by
  have h1 : buf.length ≠ 0 := by simpa using hb
  obtain ⟨out, o1, o2, o3⟩ := (toCnLoop_spec 0 junk (by decide) ds
    ((ds.map digitChar ++ 0 :: junk).length + 1) [] [] buf hd (by simp; omega) rfl).1 (.inl rfl)
  refine ⟨out, ?_, o1, o3⟩
  rw [strToCn, if_neg h1]
  simpa using o2

/-- **C51** (packing, other strings).  A string with a character other than the digits is
refused if that character is reached before the buffer is full. -/
theorem C51_pack_refused (ds : List Nat) (c : Byte) (rest buf : List Byte)
    (hd : ∀ d ∈ ds, d ≤ 9) (hc : c ≠ 0) (hcd : (Char.ofNat c.toNat).isDigit = false)
    (hl : ds.length < 2 * buf.length) :
    ∃ out, strToCn (ds.map digitChar ++ c :: rest) buf = .ok (1, out) ∧
      out.length = buf.length := by
  have h1 : buf.length ≠ 0 := by omega
  obtain ⟨out, o1, o2⟩ := (toCnLoop_spec c rest (by rw [isDigit_char]; exact hcd) ds
    ((ds.map digitChar ++ c :: rest).length + 1) [] [] buf hd (by simp; omega) rfl).2 hc hl
  refine ⟨out, ?_, o1⟩
  rw [strToCn, if_neg h1]
  simpa using o2

/-- **C51** (string round trip).  Packing a decimal string that fits and stringifying the
result gives the string back. -/
theorem C51_string_roundtrip (ds : List Nat) (junk buf str : List Byte) (hd : ∀ d ∈ ds, d ≤ 9)
    (hb : buf ≠ []) (hfit : ds.length ≤ 2 * buf.length) (hs : 2 * buf.length < str.length) :
    ∃ field, strToCn (ds.map digitChar ++ 0 :: junk) buf = .ok (0, field) ∧
      cnGetString field str = .ok (0, strOver (ds.map digitChar) str) := by
  obtain ⟨out, o1, o2, o3⟩ := C51_pack ds junk buf hd hb
  refine ⟨out, o1, ?_⟩
  rw [List.take_append, List.take_of_length_le hfit, List.take_replicate] at o3
  have hu := unpadded_of_digits out ds _ hd o3
  have hne : out ≠ [] := by
    intro e
    rw [e] at o2
    exact hb (List.length_eq_zero_iff.1 o2.symm)
  have := (C51_get out str).1 hne (by omega) (by rw [hu]; exact hd)
  rw [this, hu]

/-- **C51** (field round trip).  Stringifying a valid field (decimal digits followed by F
padding only) and packing the string into the same number of bytes gives the field back. -/
theorem C51_field_roundtrip (ds : List Nat) (k : Nat) (field str buf : List Byte)
    (hd : ∀ d ∈ ds, d ≤ 9) (hf : nibbles field = ds ++ List.replicate k 15) (hne : field ≠ [])
    (hs : 2 * field.length < str.length) (hb : buf.length = field.length) :
    ∃ s, cnGetString field str = .ok (0, s) ∧ strToCn s buf = .ok (0, field) := by
  have hu := unpadded_of_digits field ds k hd hf
  refine ⟨_, (C51_get field str).1 hne hs (by rw [hu]; exact hd), ?_⟩
  rw [hu]
  have hbn : buf ≠ [] := by
    intro e
    rw [e] at hb
    exact hne (List.length_eq_zero_iff.1 hb.symm)
  obtain ⟨out, o1, o2, o3⟩ := C51_pack ds (str.drop ((ds.map digitChar).length + 1)) buf hd hbn
  rw [strOver, o1]
  have hl : 2 * field.length = ds.length + k := by
    rw [← nibbles_length, hf]; simp
  rw [List.take_append, List.take_of_length_le (by omega), List.take_replicate,
    Nat.min_eq_left (by omega), show 2 * buf.length - ds.length = k by omega, ← hf] at o3
  rw [nibbles_inj _ _ o3]

/-- **C51**: an empty buffer is refused. -/
theorem C51_pack_empty (str : List Byte) : strToCn str [] = .ok (-1, []) := rfl

example : strToCn ([0x31, 0x32, 0x33] ++ [0]) [9, 9, 9] = .ok (0, [0x12, 0x3F, 0xFF]) ∧
    nibbles [0x12, 0x3F, 0xFF] = [1, 2, 3] ++ List.replicate 3 15 ∧
    cnGetString [0x12, 0x3F, 0xFF] [9, 9, 9, 9, 9, 9, 9] =
      .ok (0, [0x31, 0x32, 0x33, 0, 9, 9, 9]) := by decide +kernel
example : strToCn [0x31, 0x2E, 0x33, 0] [9] = .ok (1, [0x10]) := by decide +kernel

/-! ## C52: numeric -/

theorem decNat_foldl (b : List Nat) : ∀ x : Nat,
    b.foldl (fun a d => a * 10 + d) x = x * 10 ^ b.length + decNat b := by
  induction b with
  | nil => intro x; simp [decNat]
  | cons d b ih =>
    intro x
    simp only [List.foldl_cons, List.length_cons, decNat]
    rw [ih, ih, Nat.pow_succ, Nat.add_mul, Nat.zero_mul, Nat.zero_add, Nat.mul_assoc,
      Nat.mul_comm 10 (10 ^ b.length)]
    omega

theorem decNat_append (a b : List Nat) : decNat (a ++ b) = decNat a * 10 ^ b.length + decNat b := by
  rw [decNat, List.foldl_append, decNat_foldl]; rfl

theorem decNat_lt : ∀ (b : List Nat), (∀ d ∈ b, d ≤ 9) → decNat b < 10 ^ b.length := by
  intro b
  induction b with
  | nil => intro _; simp [decNat]
  | cons d b ih =>
    intro h
    have h1 := ih (fun x hx => h x (by simp [hx]))
    have h2 := h d (by simp)
    have := decNat_append [d] b
    simp only [List.cons_append, List.nil_append] at this
    rw [this, List.length_cons, Nat.pow_succ]
    have hd : decNat [d] = d := by simp [decNat]
    rw [hd]
    have : d * 10 ^ b.length ≤ 9 * 10 ^ b.length := Nat.mul_le_mul_right _ h2
    omega

theorem decNat_zeros (k : Nat) : decNat (List.replicate k 0) = 0 := by
  induction k with
  | zero => rfl
  | succ k ih =>
    rw [List.replicate_succ']
    rw [decNat_append, ih]; rfl

theorem strlen_digits (pfx : List Byte) (ds : List Nat) (junk : List Byte)
    (hd : ∀ d ∈ ds, d ≤ 9) (hp : ∀ b ∈ pfx, b ≠ 0) :
    App.strlen (pfx ++ ds.map digitChar ++ 0 :: junk) = .ok (pfx.length + ds.length) := by
  rw [App.strlen_str]
  · simp
  · intro b hb
    rcases List.mem_append.1 hb with hb | hb
    · exact hp b hb
    · obtain ⟨d, h1, rfl⟩ := List.mem_map.1 hb
      exact (digit_facts d (by have := hd d h1; omega)).1

/-- **C52** (digits).  A decimal string is packed right justified: the buffer holds the last
digits of the string, preceded by zeros.  The whole buffer is written and nothing outside of
it. -/
theorem C52_pack (ds : List Nat) (junk buf : List Byte) (hd : ∀ d ∈ ds, d ≤ 9) (hb : buf ≠ []) :
    ∃ out, strToN (ds.map digitChar ++ 0 :: junk) buf = .ok (0, out) ∧
      out.length = buf.length ∧
      nibbles out = (List.replicate (2 * buf.length) 0 ++ ds).drop ds.length := by
  have h1 : buf.length ≠ 0 := by simpa using hb
  have hsl := strlen_digits [] ds junk hd (by simp)
  obtain ⟨out, o1, o2, o3⟩ := (toNLoop_spec [] junk (.inl rfl) ds.reverse (ds.length + 1) []
    buf.reverse [] (by simpa using hd) (by simp) rfl).1 (.inl rfl)
  refine ⟨out, ?_, by simpa using o1, ?_⟩
  · rw [strToN, if_neg h1]
    simp only [List.nil_append, List.length_nil, Nat.zero_add] at hsl
    rw [hsl, bind_ok]
    simpa using o2
  · have := congrArg List.reverse o3
    rw [List.reverse_reverse] at this
    rw [this, List.reverse_take]
    simp

/-- **C52** (number).  The packed field is a valid format n field and denotes the same number
as the string, modulo the capacity of the field; so the same number whenever it fits. -/
theorem C52_number (ds : List Nat) (junk buf : List Byte) (hd : ∀ d ∈ ds, d ≤ 9) (hb : buf ≠ []) :
    ∃ out, strToN (ds.map digitChar ++ 0 :: junk) buf = .ok (0, out) ∧
      out.length = buf.length ∧ IsFormatN out ∧
      decNat (nibbles out) = decNat ds % 10 ^ (2 * buf.length) ∧
      (ds.length ≤ 2 * buf.length → decNat (nibbles out) = decNat ds) := by
  obtain ⟨out, o1, o2, o3⟩ := C52_pack ds junk buf hd hb
  have hz : ∀ d ∈ List.replicate (2 * buf.length) 0 ++ ds, d ≤ 9 := by
    intro d h
    rcases List.mem_append.1 h with h | h
    · rw [List.mem_replicate] at h; omega
    · exact hd d h
  have hfn : ∀ d ∈ nibbles out, d ≤ 9 := by
    intro d h
    rw [o3] at h
    exact hz d (List.mem_of_mem_drop h)
  have hlt := decNat_lt (nibbles out) hfn
  rw [nibbles_length, o2] at hlt
  have heq : decNat ds = decNat ((List.replicate (2 * buf.length) 0 ++ ds).take ds.length) *
      10 ^ (2 * buf.length) + decNat (nibbles out) := by
    have := decNat_append ((List.replicate (2 * buf.length) 0 ++ ds).take ds.length)
      ((List.replicate (2 * buf.length) 0 ++ ds).drop ds.length)
    rw [List.take_append_drop, decNat_append, decNat_zeros, ← o3, nibbles_length, o2] at this
    simpa using this
  have hmod : decNat (nibbles out) = decNat ds % 10 ^ (2 * buf.length) := by
    rw [heq, Nat.mul_add_mod_self_right, Nat.mod_eq_of_lt hlt]
  refine ⟨out, o1, o2, hfn, hmod, fun hl => ?_⟩
  rw [hmod]
  apply Nat.mod_eq_of_lt
  exact Nat.lt_of_lt_of_le (decNat_lt ds hd) (Nat.pow_le_pow_right (by omega) hl)

/-- **C52** (round trip through the integer decoder): a decimal string of a 32-bit number that
fits is packed into a field which decodes to the number. -/
theorem C52_roundtrip (ds : List Nat) (junk buf : List Byte) (hd : ∀ d ∈ ds, d ≤ 9)
    (hb : buf ≠ []) (hl : ds.length ≤ 2 * buf.length) (hv : decNat ds < 2 ^ 32) :
    ∃ out, strToN (ds.map digitChar ++ 0 :: junk) buf = .ok (0, out) ∧
      formatNToUint out = .ok (0, decNat ds) := by
  obtain ⟨out, o1, o2, o3, -, o5⟩ := C52_number ds junk buf hd hb
  refine ⟨out, o1, ?_⟩
  have hne : out ≠ [] := by
    intro e
    rw [e] at o2
    exact hb (List.length_eq_zero_iff.1 o2.symm)
  have := (C10_decode_partial out hne).2.1 o3
  rw [o5 hl] at this
  exact this hv

/-- **C52** (other strings).  A string with a character other than the digits is refused if
that character is reached, from the end of the string, before the buffer is full. -/
theorem C52_refused (p : List Byte) (c : Byte) (ds : List Nat) (junk buf : List Byte)
    (hd : ∀ d ∈ ds, d ≤ 9) (hp : ∀ b ∈ p ++ [c], b ≠ 0)
    (hc : (Char.ofNat c.toNat).isDigit = false)
    (hl : ds.length < 2 * buf.length) :
    ∃ out, strToN (p ++ [c] ++ ds.map digitChar ++ 0 :: junk) buf = .ok (1, out) ∧
      out.length = buf.length := by
  have h1 : buf.length ≠ 0 := by omega
  obtain ⟨out, o1, o2⟩ := (toNLoop_spec (p ++ [c]) junk (.inr ⟨p, c, rfl, by rw [isDigit_char]; exact hc⟩)
    ds.reverse
    ((p ++ [c]).length + ds.length + 1) [] buf.reverse [] (by simpa using hd)
    (by simp; omega) rfl).2 (by simp) (by simpa using hl)
  refine ⟨out, ?_, by simpa using o1⟩
  rw [strToN, if_neg h1, strlen_digits (p ++ [c]) ds junk hd hp, bind_ok]
  simpa using o2

/-- **C52**: an empty buffer is refused. -/
theorem C52_empty (str : List Byte) : strToN str [] = .ok (-1, []) := rfl

example : strToN [0x31, 0x32, 0x33, 0] [9, 9, 9] = .ok (0, [0, 0x01, 0x23]) ∧
    strToN [0x31, 0x32, 0x33, 0] [9] = .ok (0, [0x23]) ∧
    strToN [0x31, 0x2E, 0x33, 0] [9] = .ok (1, [3]) := by decide +kernel

end Verif.Str
