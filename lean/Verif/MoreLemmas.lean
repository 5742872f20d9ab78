import Verif.BerExactProps
import Verif.TlvInvProps
import Verif.TlvParseProps
import Verif.ViewerProps

/-! Lemmas for C146: what is read from data stays when more data follow. -/

set_option autoImplicit false

namespace Verif.More

open Verif BerSpec Ber

theorem decode_append : ∀ (m : Nat) (a b : List Byte) (n : Nat) (t : Tlv), a.length < m →
    decode a = .ok (.ok n t) → decode (a ++ b) = .ok (.ok n t) := by
  intro m
  induction m with
  | zero => intro a b n t h; omega
  | succ m ih =>
    intro a b n t hm h
    obtain ⟨tag, rest, h1, h2, h3, ⟨len, h4, h5, h6⟩ | ⟨h4, h5, h6, -⟩⟩ := decode_inv h
    · apply (Verif.TlvParse.C61_decoded_object (a ++ b) n t).2
      refine ⟨⟨tag, len, t.value⟩, rest ++ b, ⟨h1, h4⟩, ?_, ?_, ?_⟩
      · rw [h5]; simp [Obj.enc]
      · rw [h6]; simp [Obj.enc]; omega
      · cases t; simp_all
    · have hl := isTag_length h1
      generalize hr : t.value ++ rest = r at *
      have ha : a = tag ++ [0x80] ++ r := by rw [h5, ← hr]; simp
      subst ha
      obtain ⟨v, hv, e1, e2⟩ := (C04_exact_partial tag h1 h4 r n t).1 h
      have key : ∀ r v, Until r v → r.length < m → Until (r ++ b) v := by
        intro r v hv
        induction hv with
        | eoc r n t hd h0 => intro hr; exact .eoc _ n t (ih r b n t hr hd) h0
        | item r n t hd h0 v hv ihv =>
          intro hr
          have hb := decode_bound hd
          have e1 : (r ++ b).take n = r.take n := by rw [List.take_append_of_le_length (by omega)]
          have e2 : (r ++ b).drop n = r.drop n ++ b := by rw [List.drop_append_of_le_length (by omega)]
          rw [← e1]
          refine .item _ n t (ih r b n t hr hd) h0 v ?_
          rw [e2]
          exact ihv (by simp; omega)
      have := (C04_exact_partial tag h1 h4 (r ++ b) n t).2
        ⟨v, key r v hv (by simp at hm; omega), e1, e2⟩
      simpa using this

theorem itrNext_ok {a rest : List Byte} {n : Nat} {t : Tlv} (h : itrNext a = .ok (rest, .ok n t)) :
    decode a = .ok (.ok n t) ∧ rest = a.drop n ∧ 2 ≤ n ∧ n ≤ a.length := by
  unfold itrNext at h
  cases hd : decode a with
  | error u => rw [hd] at h; cases h
  | ok d =>
    rw [hd] at h
    cases d with
    | eod => cases h
    | err c => cases h
    | ok n' t' =>
      have hb := decode_bound hd
      simp only [bind_ok] at h
      rw [suffix_eq (by omega)] at h
      cases h
      exact ⟨rfl, rfl, hb⟩

theorem itrNext_append {a rest : List Byte} {n : Nat} {t : Tlv}
    (h : itrNext a = .ok (rest, .ok n t)) (b : List Byte) :
    itrNext (a ++ b) = .ok (rest ++ b, .ok n t) := by
  obtain ⟨hd, hr, h1, h2⟩ := itrNext_ok h
  unfold itrNext
  rw [decode_append _ a b n t (Nat.lt_succ_self _) hd]
  simp only [bind_ok]
  rw [suffix_eq (by simp; omega), List.drop_append_of_le_length (by omega), hr]
  rfl

theorem decode_nil_of_eod {a : List Byte} (h : decode a = .ok .eod) : a = [] := by
  obtain ⟨d, hd, hs⟩ := C01_decode_safe a
  rw [h] at hd
  cases hd
  exact hs

theorem itrNext_eod {a rest : List Byte} (h : itrNext a = .ok (rest, .eod)) : a = [] := by
  unfold itrNext at h
  cases hd : decode a with
  | error u => rw [hd] at h; cases h
  | ok d =>
    rw [hd] at h
    cases d with
    | eod => exact decode_nil_of_eod hd
    | err c => cases h
    | ok n' t' =>
      have hb := decode_bound hd
      simp only [bind_ok] at h
      rw [suffix_eq (by omega)] at h
      cases h

/-! ## Flat lists -/

open TlvParse

/-- The result does not depend on the fuel. -/
theorem parseF_det (alloc : List Tlv → Tlv → Bool) : ∀ fuel fuel' (a : List Byte) (list : List Tlv) x y,
    parseF alloc fuel a list = .ok x → parseF alloc fuel' a list = .ok y → x = y := by
  intro fuel
  induction fuel with
  | zero => intro fuel' a list x y h; cases h
  | succ fuel ih =>
    intro fuel' a list x y h h'
    cases fuel' with
    | zero => cases h'
    | succ fuel' =>
      unfold parseF at h h'
      cases hi : itrNext a with
      | error u => rw [hi] at h; cases h
      | ok z =>
        obtain ⟨rest, d⟩ := z
        rw [hi] at h h'
        simp only [bind_ok] at h h'
        cases d with
        | eod => cases h; cases h'; rfl
        | err c => cases h; cases h'; rfl
        | ok n t =>
          simp only at h h'
          by_cases hc : t.isConstructed = true
          · rw [if_pos hc] at h h'
            cases hp : parseF alloc fuel t.value list with
            | error u => rw [hp] at h; cases h
            | ok p =>
              cases hp' : parseF alloc fuel' t.value list with
              | error u => rw [hp'] at h'; cases h'
              | ok p' =>
                have := ih _ _ _ _ _ hp hp'
                subst this
                rw [hp] at h
                rw [hp'] at h'
                simp only [bind_ok] at h h'
                by_cases hr : p.1 ≠ 0
                · rw [if_pos hr] at h h'; cases h; cases h'; rfl
                · rw [if_neg hr] at h h'; exact ih _ _ _ _ _ h h'
          · rw [if_neg hc] at h h'
            by_cases hal : alloc list { t with flags := 0 } = true
            · rw [if_pos hal] at h h'; exact ih _ _ _ _ _ h h'
            · rw [if_neg hal] at h h'; cases h; cases h'; rfl

/-- Reading only appends. -/
theorem parseF_grows (alloc : List Tlv → Tlv → Bool) : ∀ fuel (a : List Byte) (list : List Tlv) x,
    parseF alloc fuel a list = .ok x → list <+: x.2 := by
  intro fuel
  induction fuel with
  | zero => intro a list x h; cases h
  | succ fuel ih =>
    intro a list x h
    unfold parseF at h
    cases hi : itrNext a with
    | error u => rw [hi] at h; cases h
    | ok z =>
      obtain ⟨rest, d⟩ := z
      rw [hi] at h
      simp only [bind_ok] at h
      cases d with
      | eod => cases h; exact List.prefix_rfl
      | err c => cases h; exact List.prefix_rfl
      | ok n t =>
        simp only at h
        by_cases hc : t.isConstructed = true
        · rw [if_pos hc] at h
          cases hp : parseF alloc fuel t.value list with
          | error u => rw [hp] at h; cases h
          | ok p =>
            have g := ih _ _ _ hp
            rw [hp] at h
            simp only [bind_ok] at h
            by_cases hr : p.1 ≠ 0
            · rw [if_pos hr] at h; cases h; exact g
            · rw [if_neg hr] at h; exact g.trans (ih _ _ _ h)
        · rw [if_neg hc] at h
          by_cases hal : alloc list { t with flags := 0 } = true
          · rw [if_pos hal] at h
            exact (List.prefix_append _ _).trans (ih _ _ _ h)
          · rw [if_neg hal] at h; cases h; exact List.prefix_rfl

/-- What reading `a` gives is the beginning of what reading `a ++ b` gives; and `b` is read
afterwards if `a` can be read to its end. -/
theorem parseF_append (alloc : List Tlv → Tlv → Bool) (b : List Byte) :
    ∀ fuel fuel' (a : List Byte) (list : List Tlv) x y,
    parseF alloc fuel a list = .ok x → parseF alloc fuel' (a ++ b) list = .ok y →
    x.2 <+: y.2 ∧ (x.1 = 0 → parseF alloc fuel' b x.2 = .ok y ∨
      ∃ g, parseF alloc g b x.2 = .ok y) := by
  intro fuel
  induction fuel with
  | zero => intro fuel' a list x y h; cases h
  | succ fuel ih =>
    intro fuel' a list x y h h'
    cases fuel' with
    | zero => cases h'
    | succ fuel' =>
      have h0' := h'
      unfold parseF at h
      cases hi : itrNext a with
      | error u => rw [hi] at h; cases h
      | ok z =>
        obtain ⟨rest, d⟩ := z
        rw [hi] at h
        simp only [bind_ok] at h
        cases d with
        | eod =>
          cases h
          have := itrNext_eod hi
          subst this
          exact ⟨parseF_grows _ _ _ _ _ h', fun _ => Or.inl h'⟩
        | err c =>
          cases h
          exact ⟨parseF_grows _ _ _ _ _ h', fun hc => by simp at hc⟩
        | ok n t =>
          unfold parseF at h'
          rw [itrNext_append hi b] at h'
          simp only [bind_ok] at h h'
          by_cases hc : t.isConstructed = true
          · rw [if_pos hc] at h h'
            cases hp : parseF alloc fuel t.value list with
            | error u => rw [hp] at h; cases h
            | ok p =>
              cases hp' : parseF alloc fuel' t.value list with
              | error u => rw [hp'] at h'; cases h'
              | ok p' =>
                have := parseF_det _ _ _ _ _ _ _ hp hp'
                subst this
                rw [hp] at h
                rw [hp'] at h'
                simp only [bind_ok] at h h'
                by_cases hr : p.1 ≠ 0
                · rw [if_pos hr] at h h'; cases h; cases h'
                  exact ⟨List.prefix_rfl, fun h0 => absurd h0 hr⟩
                · rw [if_neg hr] at h h'
                  obtain ⟨e1, e2⟩ := ih _ _ _ _ _ h h'
                  exact ⟨e1, fun h0 => Or.inr ((e2 h0).elim (fun e => ⟨_, e⟩) id)⟩
          · rw [if_neg hc] at h h'
            by_cases hal : alloc list { t with flags := 0 } = true
            · rw [if_pos hal] at h h'
              obtain ⟨e1, e2⟩ := ih _ _ _ _ _ h h'
              exact ⟨e1, fun h0 => Or.inr ((e2 h0).elim (fun e => ⟨_, e⟩) id)⟩
            · rw [if_neg hal] at h h'; cases h; cases h'
              exact ⟨List.prefix_rfl, fun h0 => by simp at h0⟩

/-! ## The viewer's tree -/

open Viewer

variable {ι : Type} (field : Nat → Nat → Nat → Tlv → C ι) (padding : Nat → Nat → List Byte → ι)

theorem parseData_det : ∀ fuel fuel' depth (whole whole' itr : List Byte) valid valid' total x y,
    parseData field padding false fuel depth whole itr valid total = .ok x →
    parseData field padding false fuel' depth whole' itr valid' total = .ok y → x = y := by
  intro fuel
  induction fuel with
  | zero => intro fuel' depth whole whole' itr valid valid' total x y h; cases h
  | succ fuel ih =>
    intro fuel' depth whole whole' itr valid valid' total x y h h'
    cases fuel' with
    | zero => cases h'
    | succ fuel' =>
      unfold parseData at h h'
      cases hi : itrNext itr with
      | error u => rw [hi] at h; cases h
      | ok z =>
        obtain ⟨rest, d⟩ := z
        rw [hi] at h h'
        simp only [bind_ok] at h h'
        cases d with
        | eod => cases h; cases h'; rfl
        | err c => cases h; cases h'; rfl
        | ok n t =>
          simp only at h h'
          cases hf : field depth total n t with
          | error u => rw [hf] at h; cases h
          | ok it =>
            rw [hf] at h h'
            simp only [bind_ok] at h h'
            by_cases hc : t.isConstructed = true
            · rw [if_pos hc] at h h'
              cases hp : parseData field padding false fuel (depth + 1) t.value t.value 0
                  (total + (n - t.value.length)) with
              | error u => rw [hp] at h; cases h
              | ok p =>
                cases hp' : parseData field padding false fuel' (depth + 1) t.value t.value 0
                    (total + (n - t.value.length)) with
                | error u => rw [hp'] at h'; cases h'
                | ok p' =>
                  have := ih _ _ _ _ _ _ _ _ _ _ hp hp'
                  subst this
                  rw [hp] at h
                  rw [hp'] at h'
                  simp only [bind_ok] at h h'
                  by_cases hr : p.2.2 = true
                  · rw [if_pos hr] at h h'
                    generalize hq : parseData field padding false fuel depth _ _ _ _ = q at h
                    generalize hq' : parseData field padding false fuel' depth _ _ _ _ = q' at h'
                    cases q with
                    | error u => cases h
                    | ok q =>
                      cases q' with
                      | error u => cases h'
                      | ok q' =>
                        have := ih _ _ _ _ _ _ _ _ _ _ hq hq'
                        subst this
                        cases h; cases h'; rfl
                  · rw [if_neg hr] at h h'; cases h; cases h'; rfl
            · rw [if_neg hc] at h h'
              generalize hq : parseData field padding false fuel depth _ _ _ _ = q at h
              generalize hq' : parseData field padding false fuel' depth _ _ _ _ = q' at h'
              cases q with
              | error u => cases h
              | ok q =>
                cases q' with
                | error u => cases h'
                | ok q' =>
                  have := ih _ _ _ _ _ _ _ _ _ _ hq hq'
                  subst this
                  cases h; cases h'; rfl

theorem parseData_le (pad : Bool) : ∀ fuel depth (whole itr : List Byte) valid total x,
    parseData field padding pad fuel depth whole itr valid total = .ok x → total ≤ x.2.1 := by
  intro fuel
  induction fuel with
  | zero => intro depth whole itr valid total x h; cases h
  | succ fuel ih =>
    intro depth whole itr valid total x h
    unfold parseData at h
    cases hi : itrNext itr with
    | error u => rw [hi] at h; cases h
    | ok z =>
      obtain ⟨rest, d⟩ := z
      rw [hi] at h
      simp only [bind_ok] at h
      cases d with
      | eod => cases h; exact Nat.le_refl _
      | err c =>
        simp only at h
        split at h
        · generalize slice _ _ _ = s at h
          cases s with
          | error u => cases h
          | ok s => cases h; simp
        · cases h; exact Nat.le_refl _
      | ok n t =>
        simp only at h
        cases hf : field depth total n t with
        | error u => rw [hf] at h; cases h
        | ok it =>
          rw [hf] at h
          simp only [bind_ok] at h
          by_cases hc : t.isConstructed = true
          · rw [if_pos hc] at h
            cases hp : parseData field padding pad fuel (depth + 1) t.value t.value 0
                (total + (n - t.value.length)) with
            | error u => rw [hp] at h; cases h
            | ok p =>
              have g := ih _ _ _ _ _ _ hp
              rw [hp] at h
              simp only [bind_ok] at h
              by_cases hr : p.2.2 = true
              · rw [if_pos hr] at h
                generalize hq : parseData field padding pad fuel depth _ _ _ _ = q at h
                cases q with
                | error u => cases h
                | ok q =>
                  have g' := ih _ _ _ _ _ _ hq
                  cases h
                  exact Nat.le_trans (Nat.le_trans (Nat.le_add_right _ _) g) g'
              · rw [if_neg hr] at h; cases h
                show total ≤ p.2.1
                omega
          · rw [if_neg hc] at h
            generalize hq : parseData field padding pad fuel depth _ _ _ _ = q at h
            cases q with
            | error u => cases h
            | ok q =>
              have g' := ih _ _ _ _ _ _ hq
              cases h
              show total ≤ q.2.1
              omega

theorem parseData_append (b : List Byte) :
    ∀ fuel fuel' depth (whole whole' a : List Byte) valid valid' total x y,
    parseData field padding false fuel depth whole a valid total = .ok x →
    parseData field padding false fuel' depth whole' (a ++ b) valid' total = .ok y →
    x.1 <+: y.1 ∧ x.2.1 ≤ y.2.1 := by
  intro fuel
  induction fuel with
  | zero => intro fuel' depth whole whole' itr valid valid' total x y h; cases h
  | succ fuel ih =>
    intro fuel' depth whole whole' itr valid valid' total x y h h'
    have hle := parseData_le field padding false _ _ _ _ _ _ _ h'
    cases fuel' with
    | zero => cases h'
    | succ fuel' =>
      unfold parseData at h
      cases hi : itrNext itr with
      | error u => rw [hi] at h; cases h
      | ok z =>
        obtain ⟨rest, d⟩ := z
        rw [hi] at h
        simp only [bind_ok] at h
        cases d with
        | eod => cases h; exact ⟨List.nil_prefix, hle⟩
        | err c => cases h; exact ⟨List.nil_prefix, hle⟩
        | ok n t =>
          unfold parseData at h'
          rw [itrNext_append hi b] at h'
          simp only [bind_ok] at h h'
          cases hf : field depth total n t with
          | error u => rw [hf] at h; cases h
          | ok it =>
            rw [hf] at h h'
            simp only [bind_ok] at h h'
            by_cases hc : t.isConstructed = true
            · rw [if_pos hc] at h h'
              cases hp : parseData field padding false fuel (depth + 1) t.value t.value 0
                  (total + (n - t.value.length)) with
              | error u => rw [hp] at h; cases h
              | ok p =>
                cases hp' : parseData field padding false fuel' (depth + 1) t.value t.value 0
                    (total + (n - t.value.length)) with
                | error u => rw [hp'] at h'; cases h'
                | ok p' =>
                  have := parseData_det field padding _ _ _ _ _ _ _ _ _ _ _ hp hp'
                  subst this
                  rw [hp] at h
                  rw [hp'] at h'
                  simp only [bind_ok] at h h'
                  by_cases hr : p.2.2 = true
                  · rw [if_pos hr] at h h'
                    generalize hq : parseData field padding false fuel depth _ _ _ _ = q at h
                    generalize hq' : parseData field padding false fuel' depth _ _ _ _ = q' at h'
                    cases q with
                    | error u => cases h
                    | ok q =>
                      cases q' with
                      | error u => cases h'
                      | ok q' =>
                        obtain ⟨g1, g2⟩ := ih _ _ _ _ _ _ _ _ _ _ hq hq'
                        cases h; cases h'
                        refine ⟨?_, g2⟩
                        show it :: (p.1 ++ q.1) <+: it :: (p.1 ++ q'.1)
                        exact List.cons_prefix_cons.2 ⟨rfl, (List.prefix_append_right_inj _).2 g1⟩
                  · rw [if_neg hr] at h h'; cases h; cases h'
                    exact ⟨List.prefix_rfl, Nat.le_refl _⟩
            · rw [if_neg hc] at h h'
              generalize hq : parseData field padding false fuel depth _ _ _ _ = q at h
              generalize hq' : parseData field padding false fuel' depth _ _ _ _ = q' at h'
              cases q with
              | error u => cases h
              | ok q =>
                cases q' with
                | error u => cases h'
                | ok q' =>
                  obtain ⟨g1, g2⟩ := ih _ _ _ _ _ _ _ _ _ _ hq hq'
                  cases h; cases h'
                  exact ⟨List.cons_prefix_cons.2 ⟨rfl, g1⟩, g2⟩

end Verif.More
