import Verif.AtrStr
import Verif.AtrProps
import Verif.CapduProps
import Verif.IadLemmas

/-! # Lemmas: output and parameters of the ATR descriptions -/

set_option autoImplicit false

namespace Verif.AtrStr
open Verif Atr AtrSpec Lists Formats

/-! ## Specification -/

/-- An output holding `text` cut to its size and terminated; without room for a terminator
nothing is written. -/
def written (text str : List Byte) : List Byte :=
  if str = [] then [] else strOver (text.take (str.length - 1)) str

/-- The last of the bytes selected by `sel` in the links numbered 3 and up of protocol type
`t`. -/
def lastOf (t : Fin 16) (gs : List Link) (sel : Link → Option Byte) : Option Byte :=
  ((gs.drop 2).filterMap (fun l => if l.nib = t then sel l else none)).getLast?

/-! ## Lemmas: output -/

theorem strOver_take (s old : List Byte) : (strOver s old).take s.length = s := by
  rw [strOver, List.take_left]

theorem strOver_drop (s old : List Byte) :
    (strOver s old).drop (s.length + 1) = old.drop (s.length + 1) := by
  rw [strOver, ← List.drop_drop, List.drop_left]; rfl

theorem puts_go (str0 : List Byte) : ∀ (segs : List (List Byte)) (acc buf : List Byte),
    buf.length = str0.length → acc.length < str0.length → buf.take acc.length = acc →
    buf.drop (acc.length + 1) = str0.drop (acc.length + 1) →
    ∃ m buf', puts segs buf acc.length = .ok (m, buf') ∧
      (m < str0.length ↔ (acc ++ segs.flatten).length < str0.length) ∧
      (m < str0.length → m = (acc ++ segs.flatten).length) ∧
      (segs = [] → buf' = buf) ∧
      (segs ≠ [] → buf' = strOver ((acc ++ segs.flatten).take (str0.length - 1)) str0) := by
  intro segs
  induction segs with
  | nil =>
    intro acc buf h1 h2 h3 h4
    exact ⟨_, _, rfl, by simp, by simp, fun _ => rfl, fun h => absurd rfl h⟩
  | cons s r ih =>
    intro acc buf h1 h2 h3 h4
    have hne : buf.drop acc.length ≠ [] := by
      intro e; have := congrArg List.length e; simp at this; omega
    have hb : buf.take acc.length ++ strOver (s.take ((buf.drop acc.length).length - 1))
        (buf.drop acc.length) = strOver ((acc ++ s).take (str0.length - 1)) str0 := by
      rw [h3, strOver, strOver, List.drop_drop, List.length_drop, h1]
      have e1 : (acc ++ s).take (str0.length - 1) =
          acc ++ s.take (str0.length - acc.length - 1) := by
        rw [List.take_append, List.take_of_length_le (by omega)]
        congr 2; omega
      rw [e1, List.append_assoc]
      congr 3
      have e2 : buf.drop (acc.length + 1 + (s.take (str0.length - acc.length - 1)).length) =
          str0.drop (acc.length + 1 + (s.take (str0.length - acc.length - 1)).length) := by
        rw [← List.drop_drop, h4, List.drop_drop]
      rw [List.length_append]
      rw [show acc.length + ((s.take (str0.length - acc.length - 1)).length + 1) =
        acc.length + 1 + (s.take (str0.length - acc.length - 1)).length by omega, e2]
      congr 1; omega
    rw [puts, suffix, if_pos (by omega), bind_ok, Capdu.snprintf_spec _ _ hne, bind_ok]
    simp only [hb]
    by_cases hc : s.length ≥ buf.length - acc.length
    · rw [if_pos hc]
      refine ⟨_, _, rfl, ?_, ?_, fun h => (nomatch h), fun _ => ?_⟩
      · simp; omega
      · intro h; omega
      · rw [List.flatten_cons, ← List.append_assoc, List.take_append_of_le_length (l₂ := r.flatten)]
        simp; omega
    · rw [if_neg hc]
      have e0 : (acc ++ s).take (str0.length - 1) = acc ++ s :=
        List.take_of_length_le (by simp; omega)
      rw [e0, ← List.length_append]
      obtain ⟨m, b', g1, g2, g3, g4, g5⟩ := ih (acc ++ s) (strOver (acc ++ s) str0)
        (by rw [strOver_length]; simp; omega) (by simp; omega)
        (strOver_take ..) (strOver_drop ..)
      rw [List.flatten_cons, ← List.append_assoc]
      refine ⟨m, b', g1, g2, g3, fun h => (nomatch h), fun _ => ?_⟩
      by_cases hr : r = []
      · rw [g4 hr, hr]
        simp only [List.flatten_nil, List.append_nil]
        rw [e0]
      · exact g5 hr

/-- Texts written from the beginning of an output. -/
theorem puts_spec (segs : List (List Byte)) (hs : segs ≠ []) (str : List Byte) :
    ∃ m, puts segs str 0 = .ok (m, written segs.flatten str) ∧
      (m < str.length ↔ segs.flatten.length < str.length) ∧
      (m < str.length → m = segs.flatten.length) := by
  by_cases h : str = []
  · subst h
    obtain ⟨s, r, rfl⟩ : ∃ s r, segs = s :: r := by
      cases segs with
      | nil => exact absurd rfl hs
      | cons s r => exact ⟨s, r, rfl⟩
    exact ⟨s.length, by simp [puts, suffix, Capdu.snprintf, written, bind_ok], by simp, by simp⟩
  · have hl : 0 < str.length := List.length_pos_iff.2 h
    obtain ⟨m, b', g1, g2, g3, _, g5⟩ := puts_go str segs [] str rfl hl rfl rfl
    refine ⟨m, ?_, g2, g3⟩
    rw [written, if_neg h]
    rw [g5 hs] at g1
    exact g1

/-- Texts written after texts that fitted. -/
theorem puts_more (t1 t2 str : List Byte) (h : t1.length < str.length) :
    ∃ m, puts [t2] (written t1 str) t1.length = .ok (m, written (t1 ++ t2) str) := by
  have hne : str ≠ [] := by rintro rfl; simp at h
  rw [written, if_neg hne, List.take_of_length_le (by omega)]
  obtain ⟨m, b', g1, _, _, _, g5⟩ := puts_go str [t2] t1 (strOver t1 str)
    (by rw [strOver_length]; omega) h (strOver_take ..) (strOver_drop ..)
  refine ⟨m, ?_⟩
  rw [written, if_neg hne]
  rw [g5 (by simp)] at g1
  simpa using g1

theorem print_spec (text str : List Byte) : print text str = .ok (true, written text str) := by
  rw [print, written]
  by_cases h : str = []
  · subst h; rfl
  · rw [if_neg h, Capdu.snprintf_spec _ _ h]; rfl

theorem written_length (text str : List Byte) : (written text str).length = str.length := by
  rw [written]
  split
  · simp_all
  · rename_i h
    have : 0 < str.length := List.length_pos_iff.2 h
    rw [strOver_length]
    simp; omega

/-! ## Lemmas: parameters -/

theorem fold_lastOf {β : Type} (t : Fin 16) (sel : Link → Option Byte) (g : Byte → β)
    (get : Par → β)
    (h : ∀ p l, get (set3 p l) = ((if l.nib = t then sel l else none).map g).getD (get p)) :
    ∀ (r : List Link) (p : Par), get (r.foldl set3 p) =
      ((r.filterMap (fun l => if l.nib = t then sel l else none)).getLast?.map g).getD
        (get p) := by
  intro r
  induction r with
  | nil => intro p; rfl
  | cons l r ih =>
    intro p
    rw [List.foldl_cons, ih, h, List.filterMap_cons]
    cases (if l.nib = t then sel l else none) with
    | none => rfl
    | some x =>
      simp only [List.getLast?_cons, Option.map_some, Option.getD_some]
      cases (r.filterMap (fun l => if l.nib = t then sel l else none)).getLast? <;> rfl

theorem set3_global (p : Par) (l : Link) :
    (set3 p l).cardClasses =
      ((if l.nib = 15 then l.a else none).map (fun b : Byte => b.toNat % 64)).getD p.cardClasses ∧
    (set3 p l).clockStop =
      ((if l.nib = 15 then l.a else none).map (fun b : Byte => (b >>> 6).toNat)).getD p.clockStop ∧
    (set3 p l).spu = ((if l.nib = 15 then l.b else none).map (fun b : Byte =>
      if b ≠ 0 then (if b &&& 0x80 = 0 then Spu.standard else .proprietary)
      else .notUsed)).getD p.spu := by
  obtain ⟨n, a, b, c⟩ := l
  by_cases h15 : n = 15
  · cases a <;> cases b <;> cases c <;> simp [set3, upd, updA3, updB3, updC3, h15]
  · by_cases h1 : n = 1
    · cases a <;> cases b <;> cases c <;> simp [set3, upd, updA3, updB3, updC3, h1]
    · cases a <;> cases b <;> cases c <;> simp [set3, upd, updA3, updB3, updC3, h1, h15]

theorem set3_early (p : Par) (l : Link) :
    (set3 p l).specificProtocol = p.specificProtocol ∧ (set3 p l).etuImplicit = p.etuImplicit ∧
    (set3 p l).mayChange = p.mayChange ∧ (set3 p l).vppConnected = p.vppConnected ∧
    (set3 p l).vppCourse = p.vppCourse ∧ (set3 p l).ipp = p.ipp ∧ (set3 p l).vpp = p.vpp := by
  obtain ⟨n, a, b, c⟩ := l
  by_cases h15 : n = 15
  · cases a <;> cases b <;> cases c <;> simp [set3, upd, updA3, updB3, updC3, h15]
  · by_cases h1 : n = 1
    · cases a <;> cases b <;> cases c <;> simp [set3, upd, updA3, updB3, updC3, h1]
    · cases a <;> cases b <;> cases c <;> simp [set3, upd, updA3, updB3, updC3, h1, h15]

theorem set2_early (l : Link) (p : Par) :
    (∀ x ∈ l.a, (set2 l p).specificProtocol = x.toNat % 16 ∧
      (set2 l p).etuImplicit = decide (x &&& 0x10 ≠ 0) ∧
      (set2 l p).mayChange = decide (x &&& 0x80 = 0)) ∧
    (set2 l p).vppConnected = p.vppConnected ∧
    (set2 l p).vppCourse = p.vppCourse ∧ (set2 l p).ipp = p.ipp ∧
    (∀ x ∈ l.b, (set2 l p).vpp = x.toNat * 100) ∧
    (set2 l p).cardClasses = p.cardClasses ∧ (set2 l p).clockStop = p.clockStop ∧
    (set2 l p).spu = p.spu := by
  obtain ⟨n, a, b, c⟩ := l
  cases a <;> cases b <;> cases c <;> simp [set2, upd]

theorem set1_early (l : Link) (p : Par) :
    (∀ x ∈ l.b, ((set1 l p).vppConnected = true ↔ x ≠ 0) ∧
      (x ≠ 0 → (set1 l p).vppCourse = x.toNat % 32 * 1000 ∧
        (set1 l p).ipp = (ippOf x).getD 0)) := by
  obtain ⟨n, a, b, c⟩ := l
  cases b with
  | none => intro x h; cases h
  | some b =>
    intro x hx
    cases hx
    by_cases hb : b = 0 <;> cases a <;> cases c <;> simp [set1, upd, updB1, hb]

/-- The remaining parameter values of an accepted chain. -/
theorem setAll_rest (gs : List Link) :
    let p := setAll gs defaults
    (∀ x ∈ ta gs 2, p.specificProtocol = x.toNat % 16 ∧ p.etuImplicit = decide (x &&& 0x10 ≠ 0) ∧
      p.mayChange = decide (x &&& 0x80 = 0)) ∧
    (∀ x ∈ tb gs 1, (p.vppConnected = true ↔ x ≠ 0) ∧
      (x ≠ 0 → p.vppCourse = x.toNat % 32 * 1000 ∧ p.ipp = (ippOf x).getD 0)) ∧
    (∀ x ∈ tb gs 2, p.vpp = x.toNat * 100) ∧
    (∀ x ∈ lastOf 15 gs (·.a), p.cardClasses = x.toNat % 64 ∧ p.clockStop = (x >>> 6).toNat) ∧
    (∀ x ∈ lastOf 15 gs (·.b), p.spu =
      if x ≠ 0 then (if x &&& 0x80 = 0 then .standard else .proprietary) else .notUsed) := by
  match gs with
  | [] =>
    refine ⟨fun x h => (nomatch h), fun x h => (nomatch h), fun x h => (nomatch h),
      fun x h => (nomatch h), fun x h => (nomatch h)⟩
  | [l] =>
    refine ⟨fun x h => (nomatch h), set1_early l defaults, fun x h => (nomatch h),
      fun x h => (nomatch h), fun x h => (nomatch h)⟩
  | l :: l' :: r =>
    have h1 := set1_early l defaults
    obtain ⟨q, hq⟩ : ∃ q, q = { set1 l defaults with protocol := l'.nib.val } := ⟨_, rfl⟩
    have es : setAll (l :: l' :: r) defaults = r.foldl set3 (set2 l' q) := by rw [hq]; rfl
    have q1 : q.vppConnected = (set1 l defaults).vppConnected := by rw [hq]
    have q2 : q.vppCourse = (set1 l defaults).vppCourse := by rw [hq]
    have q3 : q.ipp = (set1 l defaults).ipp := by rw [hq]
    obtain ⟨i1, i2, i3, i4, i5, i6, i7, i8⟩ := set2_early l' q
    have k1 := fold_const (·.specificProtocol) (fun p l => (set3_early p l).1) r (set2 l' q)
    have k2 := fold_const (·.etuImplicit) (fun p l => (set3_early p l).2.1) r (set2 l' q)
    have k3 := fold_const (·.mayChange) (fun p l => (set3_early p l).2.2.1) r (set2 l' q)
    have k4 := fold_const (·.vppConnected) (fun p l => (set3_early p l).2.2.2.1) r (set2 l' q)
    have k5 := fold_const (·.vppCourse) (fun p l => (set3_early p l).2.2.2.2.1) r (set2 l' q)
    have k6 := fold_const (·.ipp) (fun p l => (set3_early p l).2.2.2.2.2.1) r (set2 l' q)
    have k7 := fold_const (·.vpp) (fun p l => (set3_early p l).2.2.2.2.2.2) r (set2 l' q)
    have m1 := fold_lastOf 15 (·.a) (·.toNat % 64) (·.cardClasses)
      (fun p l => (set3_global p l).1) r (set2 l' q)
    have m2 := fold_lastOf 15 (·.a) (fun b : Byte => (b >>> 6).toNat) (·.clockStop)
      (fun p l => (set3_global p l).2.1) r (set2 l' q)
    have m3 := fold_lastOf 15 (·.b) _ (·.spu) (fun p l => (set3_global p l).2.2) r (set2 l' q)
    rw [es]
    simp only [k1, k2, k3, k4, k5, k6, k7, m1, m2, m3, i2, i3, i4, q1, q2, q3]
    refine ⟨i1, h1, i5, ?_, ?_⟩
    · intro x hx
      have e : (List.filterMap (fun l : Link => if l.nib = 15 then l.a else none) r).getLast? =
        some x := hx
      simp only [e, Option.map_some, Option.getD_some, and_self]
    · intro x hx
      have e : (List.filterMap (fun l : Link => if l.nib = 15 then l.b else none) r).getLast? =
        some x := hx
      simp only [e, Option.map_some, Option.getD_some]

end Verif.AtrStr
