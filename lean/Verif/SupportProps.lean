import Verif.SearchProps
import Verif.TwoWaysProps
import Verif.AppProps

/-!
# C155: how the supported AIDs are listed does not matter
-/

set_option autoImplicit false

namespace Verif.Search
open Verif Ber BerSpec TlvParse App Tal Emv

/-! ## Specification -/

/-- Two lists that permit the same AIDs: equal to an entry, or beginning with an entry that permits it. -/
def SameAids (s1 s2 : List Tlv) : Prop :=
  ∀ aid : List Byte, (∃ t ∈ s1, (t.flags = 0 ∧ t.value = aid) ∨ (t.flags = 1 ∧ t.value <+: aid)) ↔
    ∃ t ∈ s2, (t.flags = 0 ∧ t.value = aid) ∨ (t.flags = 1 ∧ t.value <+: aid)

/-! ## Lemmas -/

theorem isSupported_same {s1 s2 : List Tlv} (h : SameAids s1 s2) (aid : List Byte) :
    isSupported aid s1 = isSupported aid s2 := by
  obtain ⟨a, h1, h2⟩ := C36_supported_iff aid s1
  obtain ⟨b, h3, h4⟩ := C36_supported_iff aid s2
  rw [h1, h3]
  exact congrArg _ (Bool.eq_iff_iff.2 (h2.trans ((h aid).trans h4.symm)))

theorem aefLoop_same {s1 s2 : List Tlv} (h : SameAids s1 s2) (pse : List Tlv) : ∀ (fuel : Nat) (itr : List Byte)
    (apps : List App), aefLoop pse s1 fuel itr apps = aefLoop pse s2 fuel itr apps := by
  intro fuel
  induction fuel with
  | zero => intro itr apps; rfl
  | succ fuel ih =>
    intro itr apps
    unfold aefLoop
    simp only [ih, isSupported_same h]

theorem pseLoop_same {s1 s2 : List Tlv} (h : SameAids s1 s2) (pse : List Tlv) (sfi : Byte) : ∀ (script : List W) (rec : Byte)
    (apps : List App), pseLoop pse s1 sfi script rec apps = pseLoop pse s2 sfi script rec apps := by
  intro script
  induction script with
  | nil => intro rec apps; unfold pseLoop; rfl
  | cons w rest ih =>
    intro rec apps
    unfold pseLoop aefRecord
    simp only [ih, aefLoop_same h]

/-! ## Property -/

/-- **C155** (directory).  Two lists that permit the same AIDs - the same entries in another order, entries repeated, entries
that another one covers - lead to the same commands and the same candidates from the directory, whatever the card
answers. -/
theorem C155_directory (s1 s2 : List Tlv) (h : SameAids s1 s2) (apps : List App) (script : List W) :
    readPse s1 apps script = readPse s2 apps script := by
  unfold readPse
  simp only [pseLoop_same h]

/-- **C155** (candidates).  So the whole candidate list, its order and the outcome are the same, unless the directory gives
no candidate. -/
theorem C155_candidates (s1 s2 : List Tlv) (h : SameAids s1 s2) (script : List W)
    (hd : ∀ tr c rest, readPse s1 [] script = .ok (tr, .done (c, []) rest) → c < 0) :
    Emv.build s1 [] script = Emv.build s2 [] script := by
  unfold Emv.build
  rw [← C155_directory s1 s2 h]
  unfold andThen
  match hr : readPse s1 [] script with
  | .error e => rfl
  | .ok (tr, .pending c) => rfl
  | .ok (tr, .done (c, apps) rest) =>
    simp only [bind_ok]
    by_cases hc : c < 0
    · rw [if_pos hc, if_pos hc]
    · rw [if_neg hc, if_neg hc]
      cases apps with
      | nil => exact absurd (hd _ _ _ hr) hc
      | cons a apps => rfl

/-- **C155** (order).  In particular the order of the entries, and how often they occur, do not matter. -/
theorem C155_members (s1 s2 : List Tlv) (h : ∀ t, t ∈ s1 ↔ t ∈ s2) : SameAids s1 s2 :=
  fun _ => ⟨fun ⟨t, ht, hm⟩ => ⟨t, (h t).1 ht, hm⟩, fun ⟨t, ht, hm⟩ => ⟨t, (h t).2 ht, hm⟩⟩

/-- **C155** (search), partial.  Without a directory, on a card on which no name begins another one: the candidates for the
same entries in another order are the same applications, each as often, and the outcome is the same.  Missing: entries
repeated or covered by others, for which it is false (`C155_repeated`), and other cards. -/
theorem C155_search_partial (card : List CardApp) (hc : ∀ m ∈ card, m.WF) (hs : Separate card) (s1 s2 : List Tlv)
    (hp : s1.Perm s2) (ha : ∀ t ∈ s1, 5 ≤ t.value.length ∧ t.value.length ≤ 16) (w1 w2 : W)
    (hw1 : w1.code = 0 ∧ w1.sw ≠ 0x6A81 ∧ w1.sw ≠ 0x9000) (hw2 : w2.code = 0 ∧ w2.sw ≠ 0x6A81 ∧ w2.sw ≠ 0x9000)
    (script1 script2 rest1 rest2 : List W) (r1 r2 : Int) (apps1 apps2 : List App) (x1 x2 : Cmd × W)
    (tr1 tr2 : List (Cmd × W)) (h1 : Emv.build s1 [] (w1 :: script1) = .ok (x1 :: tr1, .done (r1, apps1) rest1))
    (h2 : Emv.build s2 [] (w2 :: script2) = .ok (x2 :: tr2, .done (r2, apps2) rest2))
    (ht1 : Talk card [] tr1) (ht2 : Talk card [] tr2) :
    (apps1.map fun a => (a.aid.value, a.tlvs)).Perm (apps2.map fun a => (a.aid.value, a.tlvs)) ∧ r1 = r2 := by
  obtain ⟨-, p1, e1⟩ := C147_candidates_partial card hc hs s1 ha w1 hw1 script1 rest1 r1 apps1 x1 tr1 h1 ht1
  obtain ⟨-, p2, e2⟩ := C147_candidates_partial card hc hs s2 (fun t ht => ha t (hp.mem_iff.2 ht)) w2 hw2 script2 rest2 r2
    apps2 x2 tr2 h2 ht2
  have hp' := p1.trans (((hp.flatMap_right _).map Kept).trans p2.symm)
  refine ⟨hp', ?_⟩
  have hl := hp'.length_eq
  rw [List.length_map, List.length_map] at hl
  rw [e1, e2]
  have : apps1 = [] ↔ apps2 = [] := by
    rw [← List.length_eq_zero_iff, ← List.length_eq_zero_iff, hl]
  simp only [this]

/-- **C155** (repeated), a disagreement.  Without a directory an entry that occurs twice gives each application twice. -/
theorem C155_repeated (card : List CardApp) (hc : ∀ m ∈ card, m.WF) (hs : Separate card) (t : Tlv)
    (ha : 5 ≤ t.value.length ∧ t.value.length ≤ 16) (script rest : List W) (code : Int) (apps : List App)
    (tr : List (Cmd × W)) (h : findApps script [t, t] true [] = .ok (tr, .done (code, apps) rest)) (ht : Talk card [] tr)
    (m : CardApp) (hm : m ∈ card) (hb : m.blocked = false) (he : Meets t m = true) :
    SameAids [t, t] [t] ∧ 2 ≤ ((apps.map fun a => (a.aid.value, a.tlvs)).filter (· == Kept m)).length := by
  refine ⟨C155_members _ _ (by simp), ?_⟩
  obtain ⟨-, new, rfl, h2⟩ := C147_all_partial card hc hs [t, t] (by simpa using ha) [] apps script rest code tr h ht
  rw [h2]
  simp only [List.flatMap_cons, List.flatMap_nil, List.append_nil, List.map_append, List.filter_append, List.length_append]
  have : 0 < (((card.filter fun m => Meets t m && !m.blocked).map Kept).filter (· == Kept m)).length :=
    List.length_pos_of_mem (List.mem_filter.2
      ⟨List.mem_map.2 ⟨m, List.mem_filter.2 ⟨hm, by simp [he, hb]⟩, rfl⟩, by simp⟩)
  omega

/-- The list of examples in another order, with an entry twice. -/
example : SameAids terminal
    [⟨0x9F06, 0, [0xA0, 0, 0, 0, 4, 0x30, 0x60]⟩, ⟨0x9F06, 0, [0xA0, 0, 0, 0, 4, 0x10, 0x10]⟩,
     ⟨0x9F06, 1, [0xA0, 0, 0, 0, 3]⟩, ⟨0x9F06, 0, [0xA0, 0, 0, 0, 4, 0x10, 0x10]⟩] :=
  C155_members _ _ (by
    intro t
    simp only [terminal, List.mem_cons, List.not_mem_nil, or_false]
    constructor
    · rintro (h | h | h) <;> simp only [h, true_or, or_true]
    · rintro (h | h | h | h) <;> simp only [h, true_or, or_true])

/-- With the directory `pages` it gives candidates. -/
example : (readPse terminal [] (⟨0, [0x88, 1, 1], 0x9000⟩ :: (pages.map (fun r => ⟨0, r.enc, 0x9000⟩) ++
    [⟨0, [], 0x6A83⟩]))).map (fun x => match x.2 with | .done a _ => a.2.length | .pending _ => 0) = .ok 3 := by
  decide +kernel

end Verif.Search
