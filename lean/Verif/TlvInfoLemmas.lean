import Verif.TlvInfo
import Verif.NamesProps
import Verif.IadProps
import Verif.ThirdPartyProps
import Verif.BitsProps
import Verif.ListsProps
import Verif.StrProps
import Verif.StrPackProps
import Verif.CapduProps

/-! # Lemmas for the description of any TLV field -/

set_option autoImplicit false

namespace Verif.TlvInfo
open Verif Formats StrList Lists BerSpec

/-- The function ended without undefined behaviour, only the output was written, and an output
which was terminated before is terminated again. -/
def Fine (r : C (Int × List Byte)) (str : List Byte) : Prop :=
  ∃ c out, r = .ok (c, out) ∧ out.length = str.length ∧ (3 ≤ str.length → 0 ∈ str → 0 ∈ out)

theorem fine_same (c : Int) (str : List Byte) : Fine (.ok (c, str)) str :=
  ⟨c, str, rfl, rfl, fun _ h => h⟩

theorem zero_mem_strOver (t old : List Byte) : 0 ∈ strOver t old := by simp [strOver]

theorem fine_over (c : Int) (t str : List Byte) (h : t.length < str.length) :
    Fine (.ok (c, strOver t str)) str :=
  ⟨c, _, rfl, strOver_length _ _ h, fun _ _ => zero_mem_strOver _ _⟩

theorem zero_mem_held (n : Nat) (t : List Byte) (h : n ≠ 0) : 0 ∈ Names.held n t := by
  rw [Names.held]
  apply List.mem_append_right
  rw [List.mem_replicate]
  exact ⟨by omega, rfl⟩

theorem fine_held (c : Int) (t str : List Byte) (h : str ≠ []) :
    Fine (.ok (c, Names.held str.length t)) str :=
  ⟨c, _, rfl, Names.held_length _ _, fun _ _ => zero_mem_held _ _ (by simpa using h)⟩

theorem zero_mem_set (str : List Byte) (h : str ≠ []) : 0 ∈ str.set 0 0 := by
  match str, h with
  | _ :: _, _ => simp

theorem fine_set (c : Int) (str : List Byte) (h : str ≠ []) : Fine (.ok (c, str.set 0 0)) str :=
  ⟨c, _, rfl, by simp, fun _ _ => zero_mem_set str h⟩

theorem head_mem {out : List Byte} (h : out.head? = some 0) : 0 ∈ out := by
  match out, h with
  | a :: l, h => simp at h; simp [h]

theorem fine_shows (c : Int) (lines : List (List Byte)) (str out : List Byte)
    (h : Shows str lines out) : Fine (.ok (c, out)) str := by
  obtain ⟨h1, h2, h3, -⟩ := h
  refine ⟨c, out, rfl, h1, fun h5 h0 => ?_⟩
  by_cases hl : lines = []
  · rw [h2 (.inl hl)]; exact h0
  · obtain ⟨t, -, e⟩ := h3 hl h5
    rw [e]; exact zero_mem_strOver _ _

theorem build_zero (ls : List (List Byte)) (str out : List Byte) (h : Bits.build ls str = .ok out)
    (h3 : 3 ≤ str.length) (h0 : 0 ∈ str) : 0 ∈ out := by
  obtain ⟨s, e, h1, h2⟩ := Bits.build_spec ls str
  rw [h] at e; cases e
  by_cases hl : ls = []
  · rw [h2 (.inr hl)]; exact h0
  · rw [(h1 h3 hl).1]; exact zero_mem_strOver _ _

theorem fine_describe {strict : Bool} {n : Nat} {items : List Bits.Item}
    {lines : List Byte → List (List Byte)} (h : Bits.Describes (Bits.describe strict n items) n lines)
    (f str : List Byte) : Fine (Bits.describe strict n items f str) str := by
  by_cases hf : f = []
  · subst hf; exact fine_same _ _
  by_cases hs : str = []
  · subst hs
    rw [Bits.describe, if_neg (by simpa using hf), if_pos (show ([] : List Byte).length = 0 from rfl)]
    exact fine_same _ _
  by_cases hn : f.length = n
  · obtain ⟨str', e, h1, h2, h3, -⟩ := h.2 f str hs hn
    rw [e]
    refine ⟨_, _, rfl, h1, fun h5 h0 => ?_⟩
    by_cases hl : lines f = []
    · rw [h2 (.inl hl)]; exact h0
    · obtain ⟨t, -, e⟩ := h3 hl h5
      rw [e]; exact zero_mem_strOver _ _
  · rw [h.1 f str hf hs hn]; exact fine_same _ _

theorem fine_ffi (f str : List Byte) : Fine (Bits.ffiList f str) str := by
  by_cases hf : f = []
  · subst hf; exact fine_same _ _
  by_cases hs : str = []
  · subst hs
    rw [Bits.ffiList, if_neg (by simpa using hf), if_pos (show ([] : List Byte).length = 0 from rfl)]
    exact fine_same _ _
  by_cases hn : f.length = 4
  · obtain ⟨str', e, h1, h2, h3, -⟩ := Bits.C72_ffi.2 f str hs hn
    rw [e]
    refine ⟨_, _, rfl, h1, fun h5 h0 => ?_⟩
    by_cases hl : Bits.ffiLines f = []
    · rw [h2 (.inl hl)]; exact h0
    · obtain ⟨t, -, e⟩ := h3 hl h5
      rw [e]; exact zero_mem_strOver _ _
  · rw [Bits.C72_ffi.1 f str hf hs hn]; exact fine_same _ _

theorem fine_aid (aid str : List Byte) : Fine (Names.aidString aid str) str := by
  by_cases ha : aid = []
  · rw [(Names.C81_aid_length aid str).1 ha]; exact fine_same _ _
  by_cases hs : str = []
  · rw [(Names.C81_aid_length aid str).2.1 ha hs]; exact fine_same _ _
  by_cases hl : 5 ≤ aid.length ∧ aid.length ≤ 16
  · have n0 : ¬ aid.length = 0 := by omega
    have ns : ¬ str.length = 0 := by simpa using hs
    have hi : ∃ q, Aid.aidInfo aid = .ok q := by
      by_cases hj : [0xA0, 0x00, 0x00, 0x00, 0x65] <+: aid
      · obtain ⟨pix, rfl⟩ := hj
        exact ⟨_, Aid.C20_jcb_not_recognised pix (by simp at hl; omega)⟩
      · obtain ⟨c1, c2⟩ := Aid.C20_classify_partial aid hl.1 hl.2
        by_cases hr : ∀ r ∈ Aid.register, ¬ r.pre <+: aid
        · exact ⟨_, c2 hr⟩
        · -- the longest registered prefix
          have : ∃ r ∈ Aid.register, r.pre <+: aid := by
            apply Classical.byContradiction
            intro hc
            exact hr (fun r hr' hp => hc ⟨r, hr', hp⟩)
          obtain ⟨r0, hr0, hp0⟩ := this
          have key : ∀ (l : List Aid.Reg), (∃ r ∈ l, r.pre <+: aid) →
              ∃ r ∈ l, r.pre <+: aid ∧ ∀ r' ∈ l, r'.pre <+: aid → r'.pre.length ≤ r.pre.length := by
            intro l
            induction l with
            | nil => intro ⟨r, h, _⟩; cases h
            | cons x l ih =>
              intro hx
              by_cases hl : ∃ r ∈ l, r.pre <+: aid
              · obtain ⟨r, hr, hp, hm⟩ := ih hl
                by_cases hxp : x.pre <+: aid ∧ r.pre.length < x.pre.length
                · refine ⟨x, by simp, hxp.1, fun r' hr' hp' => ?_⟩
                  rcases List.mem_cons.1 hr' with rfl | hr'
                  · exact Nat.le_refl _
                  · have := hm r' hr' hp'; omega
                · refine ⟨r, by simp [hr], hp, fun r' hr' hp' => ?_⟩
                  rcases List.mem_cons.1 hr' with rfl | hr'
                  · apply Classical.byContradiction
                    intro hc
                    exact hxp ⟨hp', by omega⟩
                  · exact hm r' hr' hp'
              · obtain ⟨r, hr, hp⟩ := hx
                rcases List.mem_cons.1 hr with rfl | hr
                · refine ⟨r, by simp, hp, fun r' hr' hp' => ?_⟩
                  rcases List.mem_cons.1 hr' with rfl | hr'
                  · exact Nat.le_refl _
                  · exact absurd ⟨r', hr', hp'⟩ hl
                · exact absurd ⟨r, hr, hp⟩ hl
          obtain ⟨r, hr, hp, hm⟩ := key Aid.register ⟨r0, hr0, hp0⟩
          exact ⟨_, c1 r ⟨hr, hp, hm⟩ (fun hj' => hj (by rw [← Names.jcb_pre r hr hj']; exact hp))⟩
    obtain ⟨⟨r, s, p⟩, e⟩ := hi
    rw [Names.aidString, if_neg n0, if_neg ns, if_neg (by omega), e, bind_ok]
    simp only
    split
    · exact fine_same _ _
    · cases Names.aidText s p with
      | none => exact fine_same _ _
      | some t =>
        simp only [Names.strncpyTerm1_held str t hs, bind_ok]
        exact fine_held _ _ _ hs
  · rw [(Names.C81_aid_length aid str).2.2 ha hs hl]; exact fine_same _ _

theorem fine_codes {g : Byte → List Byte → C (Int × List Byte)} {t : Names.Table}
    (h : Names.NamesCodes g t) (b : Byte) (str : List Byte) : Fine (g b str) str := by
  obtain ⟨h1, h2, h3⟩ := h b str
  by_cases hs : str = []
  · rw [h1 hs]; exact fine_same _ _
  cases hn : t.name b.toNat with
  | none => rw [h2 hs hn]; exact fine_same _ _
  | some s => rw [h3 s hs hn]; exact fine_held _ _ _ hs

theorem fine_readerCaps (b : Byte) (str : List Byte) : Fine (Names.readerCaps b str) str := by
  by_cases hs : str = []
  · subst hs; exact fine_same _ _
  · rw [(Names.C80_reader_caps b str).2 hs]; exact fine_held _ _ _ hs

theorem fine_lookedUp (c : Int) (o : Option (List Byte)) (str : List Byte) (h : str ≠ []) :
    Fine (.ok (c, Names.lookedUp str o)) str := by
  cases o with
  | none => exact fine_set _ _ h
  | some s => exact fine_held _ _ _ h

theorem fine_number (lookup : Nat → Option (List Byte)) (buf str : List Byte) :
    Fine (Names.byNumber lookup buf str) str := by
  by_cases hb : buf = []
  · subst hb; exact fine_same _ _
  by_cases hs : str = []
  · subst hs
    rw [Names.byNumber, if_neg (by simpa using hb), if_pos (show ([] : List Byte).length = 0 from rfl)]; exact fine_same _ _
  obtain ⟨h1, h2, -, h4⟩ := Names.C81_number lookup buf str hs
  by_cases hl : buf.length = 2
  · by_cases hf : IsFormatN buf
    · rw [h1 hl hf]; exact fine_lookedUp _ _ _ hs
    · obtain ⟨c, -, e⟩ := h2 hl hf
      rw [e]; exact fine_same _ _
  · rw [h4 hb hl]; exact fine_same _ _

theorem currencyString_eq (lookup : Nat → Option (List Byte)) (buf str : List Byte) :
    currencyString lookup buf str = Names.byNumber lookup buf str := rfl

theorem fine_alpha (n : Nat) (hn : 0 < n) (lookup : List Byte → Option (List Byte))
    (buf str : List Byte) : Fine (Names.byAlpha n lookup buf str) str := by
  by_cases hb : buf = []
  · subst hb; exact fine_same _ _
  by_cases hs : str = []
  · subst hs
    rw [Names.byAlpha, if_neg (by simpa using hb), if_pos (show ([] : List Byte).length = 0 from rfl)]; exact fine_same _ _
  obtain ⟨h1, -, h4⟩ := Names.C81_alpha n hn lookup buf str hs
  by_cases hl : buf.length = n
  · rw [h1 hl]; exact fine_lookedUp _ _ _ hs
  · rw [h4 hb hl]; exact fine_same _ _

theorem fine_afl (afl str : List Byte) : Fine (aflList afl str) str := by
  by_cases hs : str = []
  · subst hs
    rw [aflList, if_pos (by simp)]
    exact fine_same _ _
  by_cases h : ∃ es : List Fields.AflEntry, es ≠ [] ∧ es.length ≤ 63 ∧
      (∀ e ∈ es, Fields.AflEntry.WF e) ∧ afl = Fields.encAfl es
  · obtain ⟨es, h0, h1, hw, rfl⟩ := h
    obtain ⟨str', e, hsh⟩ := C74_accept es hw h0 h1 str hs
    rw [e]; exact fine_shows _ _ _ _ hsh
  · obtain ⟨c, str', -, e, hd⟩ := C74_refused afl str hs h
    rw [e]
    rcases hd with ⟨-, rfl⟩ | ⟨-, -, -, -, hl, h0⟩
    · exact fine_same _ _
    · exact ⟨c, str', rfl, hl, fun _ _ => head_mem h0⟩

theorem fine_asrpd (a str : List Byte) : Fine (asrpdList a str) str := by
  by_cases ha : a = []
  · subst ha; exact fine_same _ _
  by_cases hs : str = []
  · subst hs
    rw [asrpdList, if_neg (by simpa using ha), if_pos (show ([] : List Byte).length = 0 from rfl)]
    exact fine_same _ _
  by_cases h : ∃ es : List Asrpd, es ≠ [] ∧ (∀ e ∈ es, e.data.length ≤ 255) ∧
      a = encAsrpd es
  · obtain ⟨es, h0, hw, rfl⟩ := h
    obtain ⟨str', e, hsh⟩ := C75_accept es hw h0 str hs
    rw [e]; exact fine_shows _ _ _ _ hsh
  · obtain ⟨c, str', -, e, _, _, -, -, -, hsh⟩ := C75_refused a str hs h
    rw [e]; exact fine_shows _ _ _ _ hsh

theorem fine_cvmList (loc : Nat → List Byte) (hl : ∀ i, (loc i).length = 128) (b str : List Byte) :
    Fine (cvmList loc b str) str := by
  by_cases hs : str = []
  · subst hs
    rw [cvmList, if_pos (by simp)]
    exact fine_same _ _
  rcases Fields.C19_reject b with ⟨hn, -⟩ | ⟨x, y, rs, rfl, hx, hy, h1, h2⟩
  · obtain ⟨c, -, e⟩ := C73_list_refused loc b str hn
    rw [e]; exact fine_same _ _
  · obtain ⟨str', e, hsh⟩ := C73_list loc hl x y hx hy rs h1 h2 str hs
    rw [e]; exact fine_shows _ _ _ _ hsh

theorem fine_cvmResults (loc : List Byte) (hl : loc.length = 128) (f str : List Byte) :
    Fine (cvmResults loc f str) str := by
  by_cases hf : f = []
  · subst hf; exact fine_same _ _
  by_cases hs : str = []
  · subst hs
    rw [cvmResults, if_neg (by simpa using hf), if_pos (show ([] : List Byte).length = 0 from rfl)]; exact fine_same _ _
  obtain ⟨h1, h2⟩ := C73_results loc hl
  by_cases h3 : f.length = 3
  · match f, h3 with
    | [a, b, c], _ =>
      obtain ⟨str', e, hsh⟩ := h2 a b c str hs
      rw [e]; exact fine_shows _ _ _ _ hsh
  · rw [h1 f str hf hs h3]; exact fine_same _ _

/-- The tables hold C strings. -/
def Texts {α : Type} (lookup : α → Option (List Byte)) : Prop :=
  ∀ v s, lookup v = some s → ∀ b ∈ s, b ≠ 0

theorem fine_refCurrency (lookup : Nat → Option (List Byte)) (hlk : Texts lookup)
    (loc : Nat → List Byte) (hl : ∀ i, (loc i).length = 128) (f str : List Byte) :
    Fine (refCurrencyList lookup loc f str) str := by
  by_cases hodd : f.length % 2 = 1 ∨ f = [] ∨ str = []
  · obtain ⟨⟨c, -, e⟩, -⟩ := C76_odd lookup (fun _ => none) loc f str hodd
    rw [e]; exact fine_same _ _
  have hs : str ≠ [] := fun h => hodd (.inr (.inr h))
  have hf : f ≠ [] := fun h => hodd (.inr (.inl h))
  obtain ⟨ps, rfl⟩ := flat_total f (by omega)
  by_cases hall : ∀ p ∈ ps, IsFormatN [p.1, p.2]
  · obtain ⟨str', e, hsh⟩ := C76_currency lookup hlk loc hl ps (by rintro rfl; exact hf rfl) hall str hs
    rw [e]; exact fine_shows _ _ _ _ hsh
  · have key : ∀ (l : List (Byte × Byte)), (¬ ∀ p ∈ l, IsFormatN [p.1, p.2]) →
        ∃ pre bad post, l = pre ++ bad :: post ∧ (∀ p ∈ pre, IsFormatN [p.1, p.2]) ∧
          ¬ IsFormatN [bad.1, bad.2] := by
      intro l
      induction l with
      | nil => intro h; exact absurd (by simp) h
      | cons x l ih =>
        intro h
        by_cases hx : IsFormatN [x.1, x.2]
        · obtain ⟨pre, bad, post, e, h1, h2⟩ := ih (fun hc => h (by
            intro p hp
            rcases List.mem_cons.1 hp with rfl | hp
            · exact hx
            · exact hc p hp))
          refine ⟨x :: pre, bad, post, by rw [e]; rfl, ?_, h2⟩
          intro p hp
          rcases List.mem_cons.1 hp with rfl | hp
          · exact hx
          · exact h1 p hp
        · exact ⟨[], x, l, rfl, by simp, hx⟩
    obtain ⟨pre, bad, post, rfl, h1, h2⟩ := key ps hall
    obtain ⟨c, str', -, e, hsh⟩ := C76_currency_refused lookup hlk loc hl pre bad post h1 h2 str hs
    rw [e]; exact fine_shows _ _ _ _ hsh

theorem fine_language (lookup : List Byte → Option (List Byte)) (hlk : Texts lookup)
    (loc : Nat → List Byte) (hl : ∀ i, (loc i).length = 128) (f str : List Byte) :
    Fine (languageList lookup loc f str) str := by
  by_cases hodd : f.length % 2 = 1 ∨ f = [] ∨ str = []
  · obtain ⟨-, ⟨c, -, e⟩⟩ := C76_odd (fun _ => none) lookup loc f str hodd
    rw [e]; exact fine_same _ _
  have hs : str ≠ [] := fun h => hodd (.inr (.inr h))
  have hf : f ≠ [] := fun h => hodd (.inr (.inl h))
  obtain ⟨ps, rfl⟩ := flat_total f (by omega)
  obtain ⟨str', e, hsh⟩ := C76_language lookup hlk loc hl ps (by rintro rfl; exact hf rfl) str hs
  rw [e]; exact fine_shows _ _ _ _ hsh

theorem fine_iad (iad str : List Byte) : Fine (Iad.iadList iad str) str := by
  obtain ⟨c, str', e, hl, -⟩ := Iad.C77_safe iad str
  refine ⟨c, str', e, hl, fun h3 h0 => ?_⟩
  rw [Iad.iadList] at e
  split at e
  · cases e; exact h0
  split at e
  · cases e; exact h0
  split at e
  · cases e; exact h0
  cases hf : Fields.iadFormat iad with
  | error u => rw [hf] at e; cases e
  | ok fmt =>
    rw [hf, bind_ok] at e
    cases hi : Iad.iadStrings iad fmt with
    | error u => rw [hi] at e; cases e
    | ok q =>
      obtain ⟨c', ls⟩ := q
      rw [hi, bind_ok] at e
      simp only at e
      cases hb : Bits.build ls str with
      | error u => rw [hb] at e; cases e
      | ok o =>
        rw [hb, bind_ok] at e
        cases e
        exact build_zero _ _ _ hb h3 h0

theorem fine_auth (loc d str : List Byte) (hl : loc.length = 3) :
    Fine (Iad.authList loc d str) str := by
  obtain ⟨c, str', e, hl', -⟩ := Iad.C78_safe loc d str hl
  refine ⟨c, str', e, hl', fun h3 h0 => ?_⟩
  rw [Iad.authList] at e
  split at e
  · cases e; exact h0
  split at e
  · cases e; exact h0
  split at e
  · cases e; exact h0
  cases hi : Iad.authStrings loc d with
  | error u => rw [hi] at e; cases e
  | ok ls =>
    rw [hi, bind_ok] at e
    cases hb : Bits.build ls str with
    | error u => rw [hb] at e; cases e
    | ok o =>
      rw [hb, bind_ok] at e
      cases e
      exact build_zero _ _ _ hb h3 h0

theorem fine_third (country : Nat → Option (List Byte)) (tpd str : List Byte)
    (hu : ¬ (tpd.length = 5 ∧ (tpd.getD 2 0).toNat < 128)) :
    Fine (ThirdParty.getStringList country tpd str) str := by
  obtain ⟨c, str', e, hl'⟩ := ThirdParty.C57_safe_partial country tpd str hu
  refine ⟨c, str', e, hl', fun h3 h0 => ?_⟩
  rw [ThirdParty.getStringList] at e
  split at e
  · cases e; exact h0
  split at e
  · cases e; exact h0
  split at e
  · cases e; exact h0
  cases hi : ThirdParty.lines country tpd with
  | error u => rw [hi] at e; cases e
  | ok q =>
    obtain ⟨c', ls⟩ := q
    rw [hi, bind_ok] at e
    simp only at e
    cases hb : addAll (fun s => emvAdd (some s)) ls (init str) with
    | error u => rw [hb] at e; cases e
    | ok it =>
      rw [hb, bind_ok] at e
      cases e
      exact build_zero ls _ _ (by rw [Bits.build, hb, bind_ok]) h3 h0

theorem fine_arc (arc str : List Byte) : Fine (Iad.arcString arc str) str := by
  by_cases ha : arc = []
  · subst ha; exact fine_same _ _
  by_cases hs : str = []
  · subst hs
    rw [Iad.arcString, if_neg (by simpa using ha), if_pos (show ([] : List Byte).length = 0 from rfl)]; exact fine_same _ _
  by_cases h : arc.length = 2 ∧ (∀ b ∈ arc, Str.IsAn b) ∧ 3 ≤ str.length
  · rw [Iad.C79_shown arc str h.1 h.2.1 h.2.2]
    refine fine_over _ _ _ ?_
    have : (Iad.arcShown arc str.length).length < str.length := by
      have := h.2.2
      have := h.1
      rw [Iad.arcShown]
      split
      · omega
      · cases Iad.arcText arc with
        | none => simp only; omega
        | some d => simp only [List.length_take]; omega
    exact this
  · obtain ⟨c, str', e, -, hl, h0⟩ := Iad.C79_refused arc str ha hs h
    exact ⟨c, str', e, hl, fun _ _ => head_mem h0⟩

theorem fine_capdu (a str : List Byte) (h : ¬ (Capdu.EmvOverreads a ∧ 4 ≤ str.length)) :
    Fine (Capdu.emvGetString a str) str := by
  by_cases ha : a = []
  · rw [ha, (Capdu.C56_empty str).1]; exact fine_same _ _
  by_cases hs : str = []
  · subst hs
    rw [Capdu.emvGetString, if_neg (by simpa using ha),
      if_pos (show ([] : List Byte).length = 0 from rfl)]
    exact fine_same _ _
  have ns : ¬ str.length = 0 := by simpa using hs
  by_cases h4 : 4 ≤ str.length
  · obtain ⟨r, s, e, hl, hz⟩ := (Capdu.C56_exact a str ha h4).2.1 (fun hu => h ⟨hu, h4⟩)
    exact ⟨r, s, e, hl, fun _ _ => hz⟩
  · rw [Capdu.emvGetString, if_neg (by simpa using ha), if_neg ns, wr_eq (by omega), bind_ok,
      if_pos (by simp only [List.length_set]; omega)]
    exact fine_set _ _ hs

theorem fine_track2 (v str : List Byte)
    (h : ¬ (v ≠ [] ∧ str ≠ [] ∧ str.length ≤ (Str.unpadded v).length)) :
    Fine (Str.track2GetString v str) str := by
  by_cases hv : v = []
  · rw [(Str.C54_refused v str).1 hv]; exact fine_same _ _
  by_cases hs : str = []
  · rw [(Str.C54_refused v str).2 hv hs]; exact fine_same _ _
  have hfit : (Str.unpadded v).length < str.length := by
    apply Classical.byContradiction
    intro hc
    exact h ⟨hv, hs, by omega⟩
  rw [Str.C54_track2_partial v str hv hs hfit]
  exact fine_over _ _ _ (by simpa using hfit)

theorem fine_uint (v : Nat) (hv : v < 2 ^ 32) (str : List Byte)
    (h : ¬ (2 ≤ str.length ∧ str.length ≤ (Str.digits v).length)) :
    Fine (Str.uintToStr v str) str := by
  by_cases h2 : str.length < 2
  · rw [Str.C53_short v str h2]; exact fine_same _ _
  · rw [Str.C53_uint_partial v str hv (by omega)]
    exact fine_over _ _ _ (by simp; omega)

theorem fine_amount (v str : List Byte)
    (h : ¬ (v ≠ [] ∧ v.length ≤ 4 ∧ 2 ≤ str.length ∧
      str.length ≤ (Str.digits (beNat v)).length)) :
    Fine (Str.amountGetString v str) str := by
  by_cases hv : v = []
  · subst hv; exact fine_same _ _
  have nv : ¬ v.length = 0 := by simpa using hv
  by_cases hs : str = []
  · subst hs
    rw [Str.amountGetString, if_neg nv, if_pos (show ([] : List Byte).length = 0 from rfl)]
    exact fine_same _ _
  by_cases h4 : v.length ≤ 4
  · have hlt : beNat v < 2 ^ 32 := by
      have := beNat_lt v
      have : 256 ^ v.length ≤ 256 ^ 4 := Nat.pow_le_pow_right (by omega) h4
      omega
    rw [Str.amountGetString, if_neg nv, if_neg (by simpa using hs),
      (C11_decode v).1 (by omega) h4, bind_ok]
    exact fine_uint _ hlt _ (fun hc => h ⟨hv, h4, hc⟩)
  · rw [Str.C53_amount_refused v str (by omega) hs]; exact fine_same _ _

theorem fine_date (v str : List Byte) (h : ¬ (v.length = 3 ∧ IsFormatN v ∧ 11 ≤ str.length)) :
    Fine (Str.dateGetString v str) str := by
  obtain ⟨h1, h2, h3, h4, -, h6, -⟩ := Str.C50_refused v str
  by_cases hv : v = []
  · rw [(h1 hv).1]; exact fine_same _ _
  by_cases hs : str = []
  · rw [(h2 hv hs).1]; exact fine_same _ _
  by_cases hl : v.length = 3
  · by_cases hk : str.length < 11
    · rw [h4 hl hs hk]; exact fine_same _ _
    · obtain ⟨e, -, he⟩ := h6 hl (by omega) (fun hf => h ⟨hl, hf, by omega⟩)
      rw [he]; exact fine_same _ _
  · rw [(h3 hv hs hl).1]; exact fine_same _ _

theorem fine_time (v str : List Byte) (h : ¬ (v.length = 3 ∧ IsFormatN v ∧ 9 ≤ str.length)) :
    Fine (Str.timeGetString v str) str := by
  obtain ⟨h1, h2, h3, -, h5, -, h7⟩ := Str.C50_refused v str
  by_cases hv : v = []
  · rw [(h1 hv).2]; exact fine_same _ _
  by_cases hs : str = []
  · rw [(h2 hv hs).2]; exact fine_same _ _
  by_cases hl : v.length = 3
  · by_cases hk : str.length < 9
    · rw [h5 hl hs hk]; exact fine_same _ _
    · obtain ⟨e, -, he⟩ := h7 hl (by omega) (fun hf => h ⟨hl, hf, by omega⟩)
      rw [he]; exact fine_same _ _
  · rw [(h3 hv hs hl).2]; exact fine_same _ _

/-! ## Text and number formats -/

theorem emptyOnError_ok (str : List Byte) : emptyOnError (.ok (0, str)) = .ok (0, str) := rfl

theorem emptyOnError_err (c : Int) (hc : c ≠ 0) (str : List Byte) (hs : str ≠ []) :
    emptyOnError (.ok (c, str)) = .ok (c, str.set 0 0) := by
  rw [emptyOnError, bind_ok]
  simp only [ne_eq, hc, not_false_eq_true, if_true]
  rw [wr_eq (List.length_pos_iff.2 hs), bind_ok]

theorem fine_copy {P : Byte → Prop} {f : List Byte → List Byte → C (Int × List Byte)}
    (h : Str.ValidatingCopy P f) (v str : List Byte) (hs : str ≠ []) :
    Fine (emptyOnError (f v str)) str := by
  by_cases hv : v ≠ [] ∧ v.length < str.length ∧ ∀ b ∈ v, P b
  · rw [(h v str).1 hv, emptyOnError_ok]
    exact fine_over _ _ _ hv.2.1
  · obtain ⟨c, str', hc, hl, e⟩ := (h v str).2 hv
    have hs' : str' ≠ [] := by rintro rfl; exact hs (by simpa using hl.symm)
    rw [e, emptyOnError_err c hc _ hs']
    exact ⟨_, _, rfl, by simpa using hl, fun _ _ => zero_mem_set _ hs'⟩

theorem fine_cn (v str : List Byte) (hs : str ≠ []) :
    Fine (emptyOnError (Str.cnGetString v str)) str := by
  obtain ⟨h1, h2, h3⟩ := Str.C51_get v str
  by_cases hr : v = [] ∨ str.length ≤ 2 * v.length
  · obtain ⟨c, hc, e⟩ := h3 hr
    rw [e, emptyOnError_err c (by omega) _ hs]
    exact fine_set _ _ hs
  · have hv : v ≠ [] := fun h => hr (.inl h)
    by_cases hd : ∀ d ∈ Str.unpadded v, d ≤ 9
    · rw [h1 hv (by omega) hd, emptyOnError_ok]
      refine fine_over _ _ _ ?_
      have := Str.unpadded_length v
      rw [List.length_map]; omega
    · have : ∃ d ∈ Str.unpadded v, 9 < d := by
        apply Classical.byContradiction
        intro hc
        exact hd (fun d hm => by
          apply Classical.byContradiction
          intro hx
          exact hc ⟨d, hm, by omega⟩)
      obtain ⟨str', hl, e⟩ := h2 hv (by omega) this
      have hs' : str' ≠ [] := by rintro rfl; exact hs (by simpa using hl.symm)
      rw [e, emptyOnError_err 1 (by decide) _ hs']
      exact ⟨_, _, rfl, by simpa using hl, fun _ _ => zero_mem_set _ hs'⟩

/-- A number, whatever its size: it is taken modulo 2^32. -/
theorem formatN_uint (v str : List Byte) (hv : v ≠ []) (hf : IsFormatN v) :
    Str.formatNGetString v str = Str.uintToStr (decNat (nibbles v) % 2 ^ 32) str := by
  rw [Str.formatNGetString, (C10_decode_partial v hv).1 hf, bind_ok]
  rfl

theorem fine_emptyOnError {r : C (Int × List Byte)} {str : List Byte} (hs : str ≠ [])
    (h : Fine r str) : Fine (emptyOnError r) str := by
  obtain ⟨c, out, rfl, hl, h0⟩ := h
  by_cases hc : c = 0
  · rw [hc, emptyOnError_ok]; exact ⟨0, out, rfl, hl, h0⟩
  · have hs' : out ≠ [] := by rintro rfl; exact hs (by simpa using hl.symm)
    rw [emptyOnError_err c hc _ hs']
    exact ⟨_, _, rfl, by simpa using hl, fun _ _ => zero_mem_set _ hs'⟩

theorem formatN_empty (str : List Byte) : ∃ c, c ≠ 0 ∧ Str.formatNGetString [] str = .ok (c, str) :=
  ⟨-1, by decide, rfl⟩

theorem fine_n (v str : List Byte) (hs : str ≠ [])
    (h : ¬ (v ≠ [] ∧ IsFormatN v ∧ 2 ≤ str.length ∧
      str.length ≤ (Str.digits (decNat (nibbles v) % 2 ^ 32)).length)) :
    Fine (emptyOnError (Str.formatNGetString v str)) str := by
  apply fine_emptyOnError hs
  by_cases hv : v = []
  · subst hv; exact fine_same _ _
  by_cases hf : IsFormatN v
  · rw [formatN_uint v str hv hf]
    exact fine_uint _ (Nat.mod_lt _ (by decide)) _ (fun hc => h ⟨hv, hf, hc⟩)
  · obtain ⟨c, -, e⟩ := Str.C53_format_n_refused v str hv hf
    rw [e]; exact fine_same _ _

theorem fine_raw (v str : List Byte) (h : v.length < str.length) : Fine (rawCopy v str) str := by
  rw [rawCopy, wrs_eq (by omega), bind_ok, wr_eq (by simp; omega), bind_ok]
  refine ⟨_, _, rfl, by simp; omega, fun _ _ => ?_⟩
  have : v.length < (List.take 0 str ++ v ++ List.drop (0 + v.length) str).length := by
    simp; omega
  exact List.mem_iff_getElem.2 ⟨v.length, by simpa using this, by simp⟩

/-- Format of fields with a textual value. -/
theorem fine_value (tag : Nat) (f : Fmt) (max : Nat) (v str : List Byte)
    (hraw : tag = 0x9F12 → max ≠ 0)
    (hn : f = .n → ¬ (v ≠ [] ∧ IsFormatN v ∧ 2 ≤ str.length ∧ (max ≠ 0 → max < str.length) ∧
      (max ≠ 0 → v.length ≤ (max + 1) / 2) ∧
      str.length ≤ (Str.digits (decNat (nibbles v) % 2 ^ 32)).length)) :
    Fine (valueString tag f max v str) str := by
  rw [valueString]
  by_cases hs : str = []
  · subst hs; exact fine_same _ _
  rw [if_neg (by simpa using hs)]
  have key : (max ≠ 0 → max < str.length) → (max ≠ 0 → lengthError f max v.length = none) →
      Fine (byFormat tag f v str) str := by
    intro hm hle
    obtain ⟨va, van, vas, vac⟩ := Str.C55_validation
    cases f with
    | a => exact fine_copy va v str hs
    | an => exact fine_copy van v str hs
    | ans =>
      rw [byFormat]
      split
      · exact fine_copy vas v str hs
      split
      · rename_i ht
        have hm0 := hraw ht
        have := hle hm0
        simp only [lengthError] at this
        have hle : ¬ v.length > max := fun hc => by rw [if_pos hc] at this; cases this
        exact fine_raw v str (by have := hm hm0; omega)
      · exact fine_copy vac v str hs
    | cn => exact fine_cn v str hs
    | n =>
      refine fine_n v str hs (fun ⟨h1, h2, h3, h4⟩ => hn rfl ⟨h1, h2, h3, hm, fun h0 => ?_, h4⟩)
      have := hle h0
      simp only [lengthError] at this
      apply Classical.byContradiction
      intro hc
      rw [if_pos (by omega)] at this; cases this
    | _ => exact fine_same _ _
  split
  · split
    · exact fine_same _ _
    · rename_i hm c hle
      split
      · exact fine_same _ _
      · exact key (fun _ => by omega) (fun _ => hle)
  · rename_i hm
    exact key (fun h => absurd h hm) (fun h => absurd h hm)

/-! ## Combinations -/

theorem fine_trans {c : Int} {str mid : List Byte} {r : C (Int × List Byte)}
    (h1 : Fine (.ok (c, mid)) str) (h2 : Fine r mid) : Fine r str := by
  obtain ⟨c1, o1, e1, l1, z1⟩ := h1
  cases e1
  obtain ⟨c2, o2, e2, l2, z2⟩ := h2
  exact ⟨c2, o2, e2, by omega, fun h3 h0 => z2 (by omega) (z1 h3 h0)⟩

theorem fine_country (n : Nat) (hn : 0 < n) (lookup : List Byte → Option (List Byte))
    (v str : List Byte) : Fine (countryAlpha n lookup v str) str := by
  have hf := fine_alpha n hn lookup v str
  obtain ⟨c, out, e, hl, h0⟩ := id hf
  rw [countryAlpha, e, bind_ok]
  rw [e] at hf
  have hno : ∃ b, noName c out = .ok b := by
    rw [noName]
    split
    · exact ⟨_, rfl⟩
    split
    · exact ⟨_, rfl⟩
    · rw [rd_eq (by omega), bind_ok]; exact ⟨_, rfl⟩
  obtain ⟨b, hb⟩ := hno
  simp only [hb, bind_ok]
  cases b
  · exact ⟨0, out, rfl, hl, h0⟩
  · exact fine_trans hf (fine_value _ _ _ _ _ (fun h => by omega) (by intro h; cases h))

theorem fine_first {g : Byte → List Byte → C (Int × List Byte)} (h : ∀ b str, Fine (g b str) str)
    (v str : List Byte) (hv : v ≠ []) : Fine (firstByte g v str) str := by
  rw [firstByte, rd_eq (List.length_pos_iff.2 hv), bind_ok]
  exact h _ _

theorem fine_describe_run {strict : Bool} {n : Nat} {items : List Bits.Item} (f str : List Byte)
    (h : ∃ ls, Bits.runItems f items = .ok ls) : Fine (Bits.describe strict n items f str) str := by
  obtain ⟨ls, hr⟩ := h
  rw [Bits.describe]
  split
  · exact fine_same _ _
  split
  · exact fine_same _ _
  split
  · exact fine_same _ _
  · obtain ⟨s, e, -, -⟩ := Bits.build_spec ls str
    rw [hr, bind_ok, e, bind_ok]
    exact ⟨_, _, rfl, Bits.build_length _ _ _ e, build_zero _ _ _ e⟩

theorem runs {items : List Bits.Item}
    (h : ∀ b : Byte, (Bits.runItems [b] items).toOption.isSome = true) (b : Byte) :
    ∃ ls, Bits.runItems [b] items = .ok ls := by
  have := h b
  cases hr : Bits.runItems [b] items with
  | ok ls => exact ⟨ls, rfl⟩
  | error e => rw [hr] at this; cases this

theorem fine_cid (b : Byte) (str : List Byte) : Fine (Bits.cidList b str) str :=
  fine_describe_run _ _ (runs (by decide +kernel) b)

theorem fine_termType (b : Byte) (str : List Byte) : Fine (Bits.termTypeList b str) str := by
  rw [Bits.termTypeList]
  split
  · exact fine_same _ _
  · exact fine_describe_run _ _ (runs (by decide +kernel) b)

theorem differs_eq (v s : List Byte) : differs v s = .ok (decide (v.length = s.length ∧ v ≠ s)) := by
  rw [differs]
  by_cases h : v.length = s.length
  · rw [if_pos h, slice_eq (by omega), bind_ok]
    have : (v.drop 0).take s.length = v := by rw [List.drop_zero, List.take_of_length_le (by omega)]
    rw [this]; simp [h]
  · rw [if_neg h]; simp [h]

/-- The names of 14 bytes are exactly those which are copied. -/
theorem dfName_eq (v str : List Byte) :
    dfNameString v str = if v.length = 14 then copyName v str else Names.aidString v str := by
  have h1 : pse.length = 14 := by decide +kernel
  have h2 : ppse.length = 14 := by decide +kernel
  have h3 : pse ≠ ppse := by decide +kernel
  rw [dfNameString, differs_eq, bind_ok, differs_eq]
  by_cases h : v.length = 14
  · rw [if_pos h]
    by_cases hp : v = pse
    · subst hp
      simp [orC, h1, h2, h3, bind_ok]
    · simp [orC, h, h1, hp, bind_ok]
  · simp [orC, h, h1, h2, bind_ok]

theorem copyName_eq (v str : List Byte) (h : v.length < str.length) :
    copyName v str = .ok (0, strOver v str) := by
  rw [copyName, if_pos h, wrs_eq (by omega), bind_ok, wr_eq (by simp; omega), bind_ok]
  have hd : str.drop v.length = str[v.length] :: str.drop (v.length + 1) :=
    List.drop_eq_getElem_cons h
  have e : List.take 0 str ++ v ++ List.drop (0 + v.length) str =
      v ++ (str[v.length] :: str.drop (v.length + 1)) := by
    rw [Nat.zero_add, hd]; rfl
  rw [e, List.set_append_right _ _ (Nat.le_refl _), Nat.sub_self]
  rfl

theorem copyName_short (v str : List Byte) (h : str.length ≤ v.length) :
    copyName v str = .ok (0, str) := by
  rw [copyName, if_neg (by omega)]

theorem fine_dfName (v str : List Byte) : Fine (dfNameString v str) str := by
  rw [dfName_eq]
  split
  · by_cases h : v.length < str.length
    · rw [copyName_eq v str h]; exact fine_over _ _ _ h
    · rw [copyName_short v str (by omega)]; exact fine_same _ _
  · exact fine_aid v str

/-! ## The whole function -/

theorem getInfo_eq (env : Env) (tag : Nat) (v str : List Byte) :
    getInfo env tag v str = byTag env tag v (str.set 0 0) := by
  rw [getInfo, emptied]
  by_cases hs : str = []
  · subst hs; rfl
  · rw [if_pos (by simpa using hs), wr_eq (List.length_pos_iff.2 hs), bind_ok]

theorem getInfo_entry (env : Env) (tag : Nat) (v str : List Byte) (e : Entry)
    (ht : tag ≠ 0x9F66 ∧ tag ≠ 0x9F6D ∧ tag ≠ 0x9F6E)
    (he : table.find? (fun e => e.tag == tag) = some e) :
    getInfo env tag v str = named e.name e.fmt (e.handler.run env tag v (str.set 0 0)) := by
  rw [getInfo_eq, byTag, if_neg ht.1, if_neg ht.2.1, if_neg ht.2.2, he]

theorem named_ok (name : List Byte) (f : Fmt) (c : Int) (str : List Byte) :
    named name f (.ok (c, str)) = .ok (c, ⟨some name, f⟩, str) := rfl

theorem strOver_set (t str : List Byte) (h : str ≠ []) : strOver t (str.set 0 0) = strOver t str := by
  match str, h with
  | _ :: _, _ => simp [strOver]

end Verif.TlvInfo
