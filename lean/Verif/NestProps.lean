import Verif.NestLemmas
import Verif.ViewerProps
import Verif.ViewerHexLemmas

/-! # Stack needed for nested data: C143 -/

set_option autoImplicit false

namespace Verif.Nest
open Verif BerSpec
open Verif.TlvParse (Forest)
open Verif.TlvInfo (Env Sane)
open Verif.PrintSpec (Defined)

/-! ## What is enough -/

/-- **C143.**  Decoding one object needs at most one frame for every two bytes of the data, and one more:
with those it does what it does with any number of them. -/
theorem C143_decode (frames : Nat) (buf : List Byte) (h : buf.length / 2 + 1 ≤ frames) :
    decode frames buf = up (Ber.decode buf) := decode_enough frames buf (by omega)

/-- **C143, partial.**  Parsing, listing and viewing data need at most one frame for every two bytes of
the data, and two more.  Missing with respect to C143: a bound for data of every length
(`C143_unbounded`). -/
theorem C143_enough_partial (frames : Nat) (buf : List Byte) (h : buf.length / 2 + 2 ≤ frames) :
    (∀ alloc list, parse alloc frames buf list = up (TlvParse.parse alloc buf list)) ∧
    (∀ loc pfx pad depth, berBuf loc pfx pad frames depth buf = up (Print.berBuf loc pfx pad depth buf)) ∧
    (∀ env loc pfx pad depth,
      emvBuf env loc pfx pad frames depth buf = up (Print.emvBuf env loc pfx pad depth buf)) ∧
    (∀ env t, populateItems env frames buf t = up (Viewer.populateItems env buf t)) := by
  refine ⟨fun alloc list => ?_, fun loc pfx pad depth => ?_, fun env loc pfx pad depth => ?_, fun env t => ?_⟩
  · obtain ⟨k, rfl⟩ : ∃ k, frames = k + 1 := ⟨frames - 1, by omega⟩
    exact parseF_enough alloc _ k buf list (by omega)
  · exact listing_enough _ pfx pad frames depth buf (by omega)
  · exact listing_enough _ pfx pad frames depth buf (by omega)
  · obtain ⟨k, rfl⟩ : ∃ k, frames = k + 1 := ⟨frames - 1, by omega⟩
    unfold populateItems Viewer.populateItems
    simp only [call, parseData_enough _ _ _ _ k _ _ _ _ _ (show buf.length / 2 < k by omega), up_bind]
    rfl

theorem fromHex_length : ∀ l : List Nat, (Viewer.fromHex l).length = l.length / 2
  | [] => rfl
  | [_] => by simp [Viewer.fromHex]
  | _ :: _ :: rest => by
    rw [Viewer.fromHex, List.length_cons, fromHex_length rest]
    simp only [List.length_cons]
    omega

/-- **C143, partial.**  Marking a text needs at most one frame for every four characters that are no
white space, and two more. -/
theorem C143_marks_partial (frames : Nat) (blocks : List (List Nat)) (h : Viewer.Highlighter)
    (hf : (ViewerSpec.ink blocks.flatten).length / 4 + 2 ≤ frames) :
    parseBlocks frames blocks h = up (Viewer.parseBlocks blocks h) := by
  obtain ⟨k, rfl⟩ : ∃ k, frames = k + 1 := ⟨frames - 1, by omega⟩
  have hl : ((blocks.map Viewer.withoutSpace).flatten).length = (ViewerSpec.ink blocks.flatten).length := by
    rw [show Viewer.withoutSpace = ViewerSpec.ink from funext Viewer.withoutSpace_eq]
    unfold ViewerSpec.ink
    rw [List.filter_flatten]
  unfold parseBlocks Viewer.parseBlocks
  simp only [up_bind]
  congr 1
  funext n
  have hd : (Viewer.fromHex ((blocks.map Viewer.withoutSpace).flatten.take (Viewer.evenLen n))).length / 2 < k := by
    rw [fromHex_length, List.length_take, hl]
    omega
  simp only [call, parseData_enough _ _ _ _ k _ _ _ _ _ hd]
  rfl

/-- **C143.**  Answers of a card have at most 256 bytes of data: 130 frames are enough to parse or list
them, whatever they are. -/
theorem C143_card (buf : List Byte) (h : buf.length ≤ 256) :
    (∀ alloc list, parse alloc 130 buf list = up (TlvParse.parse alloc buf list)) ∧
    (∀ env loc pfx pad depth,
      emvBuf env loc pfx pad 130 depth buf = up (Print.emvBuf env loc pfx pad depth buf)) := by
  obtain ⟨h1, -, h2, -⟩ := C143_enough_partial 130 buf (by omega)
  exact ⟨h1, h2⟩

/-! ## What is needed -/

/-- **C143.**  Parsing well-formed data of definite lengths needs exactly as many frames as constructed
fields are nested, and two more. -/
theorem C143_parse_exact (f : Forest) (h : f.WF) (frames : Nat) (list : List Ber.Tlv) :
    parse TlvParse.allocOk frames f.enc list =
      if f.levels + 2 ≤ frames then .ok (0, list ++ f.leaves) else .error .stack := by
  cases frames with
  | zero => simp [parse, call]
  | succ frames =>
    rw [parse, call, parseF_forest f h _ frames list (by omega)]
    have : (f.levels + 2 ≤ frames + 1) ↔ f.levels < frames := by omega
    simp only [this]

theorem listing_exact (item : Nat → Ber.Tlv → C (List Byte × Option Int)) (pfx : List Byte) (pad : Bool)
    (f : Forest) (h : f.WF)
    (hi : ∀ x ∈ f.objects, ∀ d, ∃ line, item d ⟨beNat x.1, topBits x.1, x.2⟩ = .ok (line, none))
    (frames depth : Nat) :
    (f.levels + 2 ≤ frames → ∃ text, listing item pfx pad frames depth f.enc = .ok text) ∧
    (frames < f.levels + 2 → listing item pfx pad frames depth f.enc = .error .stack) := by
  cases frames with
  | zero => exact ⟨fun h => by omega, fun _ => rfl⟩
  | succ frames =>
    obtain ⟨text, ht⟩ := walk_forest item pfx pad f h hi (f.enc.length + 1) frames depth f.enc 0 (by omega)
    unfold listing
    simp only [call, ht]
    refine ⟨fun hl => ?_, fun hl => ?_⟩
    · rw [if_pos (by omega)]
      simp [s_ok, Print.remainder, up_ok]
    · rw [if_neg (by omega)]
      rfl

theorem objects_inv : ∀ (f : Forest), f.WF → ∀ x ∈ f.objects, IsTag x.1 ∧ x.2.length ≤ f.enc.length := by
  intro f
  induction f with
  | nil => intro _ x hx; cases hx
  | leaf o rest ih =>
    intro h x hx
    have hl := obj_len h.1
    rw [Forest.enc, List.length_append]
    rcases List.mem_cons.mp hx with rfl | hx
    · exact ⟨h.1.1, by simp only; omega⟩
    · obtain ⟨h1, h2⟩ := ih h.2.2 x hx
      exact ⟨h1, by omega⟩
  | node tag len children rest ihc ihr =>
    intro h x hx
    have hl := obj_len (node_wf h)
    simp only at hl
    rw [node_enc, List.length_append]
    rcases List.mem_cons.mp hx with rfl | hx
    · exact ⟨h.1, by simp only; omega⟩
    · rcases List.mem_append.mp hx with hx | hx
      · obtain ⟨h1, h2⟩ := ihc h.2.2.2.1 x hx
        exact ⟨h1, by omega⟩
      · obtain ⟨h1, h2⟩ := ihr h.2.2.2.2 x hx
        exact ⟨h1, by omega⟩

/-- **C143.**  So does listing data: as BER data when their object identifiers can be shown … -/
theorem C143_ber_exact (loc pfx : List Byte) (hl : loc.length = 1024) (pad : Bool) (f : Forest) (h : f.WF)
    (hlen : f.enc.length < 2 ^ 32) (ho : ∀ x ∈ f.objects, x.1 = [0x06] → PrintSpec.OidOk x.2)
    (frames depth : Nat) :
    (f.levels + 2 ≤ frames → ∃ text, berBuf loc pfx pad frames depth f.enc = .ok text) ∧
    (frames < f.levels + 2 → berBuf loc pfx pad frames depth f.enc = .error .stack) :=
  listing_exact _ pfx pad f h (fun x hx d => by
    obtain ⟨h1, h2⟩ := objects_inv f h x hx
    exact ⟨_, Print.berItem_eq loc pfx d x.1 x.2 hl h1 (by omega) (ho x hx)⟩) frames depth

/-- **C143.**  … or as EMV data when their descriptions are defined … -/
theorem C143_emv_exact (env : Env) (he : Sane env) (loc : Nat → List Byte → List Byte)
    (hl : ∀ t v, (loc t v).length = 2048) (pfx : List Byte) (pad : Bool) (f : Forest) (h : f.WF)
    (hlen : f.enc.length < 2 ^ 32) (hd : ∀ x ∈ f.objects, Defined loc x.1 x.2) (frames depth : Nat) :
    (f.levels + 2 ≤ frames → ∃ text, emvBuf env loc pfx pad frames depth f.enc = .ok text) ∧
    (frames < f.levels + 2 → emvBuf env loc pfx pad frames depth f.enc = .error .stack) :=
  listing_exact _ pfx pad f h (fun x hx d => by
    obtain ⟨h1, h2⟩ := objects_inv f h x hx
    exact ⟨_, Print.emvItem_eq env he loc hl pfx d x.1 x.2 h1 (by omega) (hd x hx)⟩) frames depth

/-- **C143.**  … and showing them in the viewer. -/
theorem C143_tree_exact (env : Env) (he : Sane env) (t : Viewer.Tree) (f : Forest) (h : f.WF)
    (hlen : f.enc.length < 2 ^ 32) (hd : ∀ x ∈ f.objects, Defined ViewerSpec.blank x.1 x.2) (frames : Nat) :
    (f.levels + 2 ≤ frames →
      ∃ items, populateItems env frames f.enc t = .ok ({ t with items }, f.enc.length)) ∧
    (frames < f.levels + 2 → populateItems env frames f.enc t = .error .stack) := by
  cases frames with
  | zero => exact ⟨fun h => by omega, fun _ => rfl⟩
  | succ frames =>
    obtain ⟨items, ht⟩ := parseData_forest (Viewer.fieldItem env t.decodeFields) Viewer.paddingItem t.ignorePadding
      f h (fun x hx d o l => by
        obtain ⟨h1, h2⟩ := objects_inv f h x hx
        obtain ⟨i, hi, -⟩ := Viewer.fieldItem_shows env he t.decodeFields d o l x.1 x.2 h1 (by omega) (hd x hx)
        exact ⟨i, hi⟩) (f.enc.length + 1) frames 0 f.enc 0 0 (by omega)
    unfold populateItems
    simp only [call, ht]
    refine ⟨fun hl => ?_, fun hl => ?_⟩
    · rw [if_pos (by omega), s_ok]
      exact ⟨items, by simp only [Nat.zero_add]⟩
    · rw [if_neg (by omega)]
      rfl

/-- **C143.**  Objects of indefinite length that are begun one inside the other need the frames of
`C143_enough_partial`: with one less decoding runs out of them. -/
theorem C143_opened (n : Nat) :
    let data := (List.replicate n [(0x30 : Byte), 0x80]).flatten
    decode (data.length / 2) data = .error .stack ∧
    (∀ alloc list, parse alloc (data.length / 2 + 1) data list = .error .stack) ∧
    (∀ loc pfx pad depth, berBuf loc pfx pad (data.length / 2 + 1) depth data = .error .stack) ∧
    (∀ env loc pfx pad depth, emvBuf env loc pfx pad (data.length / 2 + 1) depth data = .error .stack) ∧
    (∀ env t, populateItems env (data.length / 2 + 1) data t = .error .stack) := by
  intro data
  have hl : data.length / 2 = n := by
    have : data.length = n * 2 := by simp [data]
    omega
  have hd : decode n data = .error .stack := decode_opened n n (by omega)
  have hi : itrNext n data = .error .stack := by unfold itrNext; rw [hd]; rfl
  rw [hl]
  refine ⟨hd, fun alloc list => ?_, fun loc pfx pad depth => ?_, fun env loc pfx pad depth => ?_, fun env t => ?_⟩
  · rw [parse, call, parseF, hi]; rfl
  · unfold berBuf listing call walk; simp only [hi]; rfl
  · unfold emvBuf listing call walk; simp only [hi]; rfl
  · unfold populateItems call parseData; simp only [hi]; rfl

/-! ## No number of frames is enough -/

/-- A number in four bytes. -/
def fourBytes (n : Nat) : List Byte :=
  [UInt8.ofNat (n / 2 ^ 24), UInt8.ofNat (n / 2 ^ 16), UInt8.ofNat (n / 2 ^ 8), UInt8.ofNat n]

/-- `n` empty records, one inside the other. -/
def tower : Nat → Forest
  | 0 => .nil
  | n + 1 => .node [0x70] (0x84 :: fourBytes (6 * n)) (tower n) .nil

theorem tower_length : ∀ n, (tower n).enc.length = 6 * n
  | 0 => rfl
  | n + 1 => by simp [tower, Forest.enc, fourBytes, tower_length n]; omega

theorem tower_levels : ∀ n, (tower n).levels = n
  | 0 => rfl
  | n + 1 => by simp [tower, Forest.levels, tower_levels n]

theorem fourBytes_value (n : Nat) (h : n < 2 ^ 32) : beNat (fourBytes n) = n := by
  simp [fourBytes, beNat]
  omega

theorem tower_wf : ∀ n, 6 * n < 2 ^ 32 → (tower n).WF
  | 0, _ => trivial
  | n + 1, h => ⟨.inl ⟨by decide, rfl⟩, by decide,
      .long _ (fourBytes (6 * n)) (by simp [fourBytes]) (by simp [fourBytes])
        (by rw [fourBytes_value _ (by omega), tower_length]), tower_wf n (by omega), trivial⟩

theorem tower_objects : ∀ n, ∀ x ∈ (tower n).objects, x.1 = [0x70]
  | 0, x, hx => by cases hx
  | n + 1, x, hx => by
    simp only [tower, Forest.objects, List.append_nil, List.mem_cons] at hx
    rcases hx with rfl | hx
    · rfl
    · exact tower_objects n x hx

theorem record_defined (loc : Nat → List Byte → List Byte) (v : List Byte) : Defined loc [0x70] v := by
  refine ⟨?_, fun h => by simp at h⟩
  have : beNat [0x70] = 0x70 := rfl
  rw [this]
  unfold TlvInfo.Undefined
  simp

/-- **C143 is false of the code.**  Whatever number of frames there is, well-formed data of six bytes for
each of them make all of the functions run out of them, though each field can be described: `n` records
one inside the other need `n + 2` frames. -/
theorem C143_unbounded (n : Nat) (hn : 6 * n < 2 ^ 31) :
    ∃ f : Forest, f.WF ∧ f.enc.length = 6 * n ∧
      (∀ list, parse TlvParse.allocOk (n + 1) f.enc list = .error .stack ∧
        parse TlvParse.allocOk (n + 2) f.enc list = .ok (0, list ++ f.leaves)) ∧
      (∀ loc pfx pad depth, loc.length = 1024 → berBuf loc pfx pad (n + 1) depth f.enc = .error .stack ∧
        ∃ text, berBuf loc pfx pad (n + 2) depth f.enc = .ok text) ∧
      (∀ env loc pfx pad depth, Sane env → (∀ t v, (loc t v).length = 2048) →
        emvBuf env loc pfx pad (n + 1) depth f.enc = .error .stack ∧
        ∃ text, emvBuf env loc pfx pad (n + 2) depth f.enc = .ok text) ∧
      (∀ env t, Sane env → populateItems env (n + 1) f.enc t = .error .stack ∧
        ∃ t', populateItems env (n + 2) f.enc t = .ok (t', f.enc.length)) := by
  have hw := tower_wf n (by omega)
  have hl := tower_length n
  have hv := tower_levels n
  have ho := tower_objects n
  have hd : ∀ loc, ∀ x ∈ (tower n).objects, Defined loc x.1 x.2 := fun loc x hx => by
    rw [ho x hx]; exact record_defined loc x.2
  refine ⟨tower n, hw, hl, fun list => ⟨?_, ?_⟩, fun loc pfx pad depth h1 => ?_,
    fun env loc pfx pad depth he h1 => ?_, fun env t he => ?_⟩
  · rw [C143_parse_exact _ hw, hv, if_neg (by omega)]
  · rw [C143_parse_exact _ hw, hv, if_pos (by omega)]
  · have := fun k => C143_ber_exact loc pfx h1 pad (tower n) hw (by omega)
      (fun x hx h6 => by rw [ho x hx] at h6; cases h6) k depth
    exact ⟨(this (n + 1)).2 (by omega), (this (n + 2)).1 (by omega)⟩
  · have := fun k => C143_emv_exact env he loc h1 pfx pad (tower n) hw (by omega) (hd loc) k depth
    exact ⟨(this (n + 1)).2 (by omega), (this (n + 2)).1 (by omega)⟩
  · have := fun k => C143_tree_exact env he t (tower n) hw (by omega) (hd _) k
    obtain ⟨items, hi⟩ := (this (n + 2)).1 (by omega)
    exact ⟨(this (n + 1)).2 (by omega), _, hi⟩

/-! ## Cases -/

/-- A record with a field in it: one level. -/
def sample : Forest := .node [0x70] [0x03] (.leaf ⟨[0x5A], [0x01], [0x12]⟩ .nil) .nil

example : sample.WF ∧ sample.enc = [0x70, 0x03, 0x5A, 0x01, 0x12] ∧ sample.levels = 1 :=
  ⟨⟨.inl ⟨by decide, rfl⟩, by decide, .short 3 (by decide), ⟨⟨.inl ⟨by decide, rfl⟩, .short 1 (by decide)⟩,
    by decide, trivial⟩, trivial⟩, rfl, rfl⟩

example : parse TlvParse.allocOk 2 [0x70, 0x03, 0x5A, 0x01, 0x12] [] = .error .stack ∧
    parse TlvParse.allocOk 3 [0x70, 0x03, 0x5A, 0x01, 0x12] [] = .ok (0, [⟨0x5A, 0, [0x12]⟩]) := by
  decide +kernel

example : decode 1 [0x30, 0x80] = .error .stack ∧ decode 2 [0x30, 0x80] = .ok (.err (-8)) := by
  decide +kernel

example : decode 2 [0x30, 0x80, 0x04, 0x01, 0xAA, 0x00, 0x00] =
    .ok (.ok 5 ⟨0x30, 0x20, [0x04, 0x01, 0xAA]⟩) := by decide +kernel

example : (tower 2).enc = [0x70, 0x84, 0, 0, 0, 6, 0x70, 0x84, 0, 0, 0, 0] := by decide

end Verif.Nest
