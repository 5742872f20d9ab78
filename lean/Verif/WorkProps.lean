import Verif.WorkLemmas
import Verif.NestProps

/-! # How often data are decoded: C144 -/

set_option autoImplicit false

namespace Verif.Work
open Verif BerSpec
open Verif.TlvParse (Forest)
open Verif.TlvInfo (Env Sane)
open Verif.PrintSpec (Defined)

/-! ## Counting changes nothing -/

/-- **C144.**  The runs that are counted are the runs of the library, the tools and the viewer. -/
theorem C144_same (buf : List Byte) :
    (decode buf).res = Ber.decode buf ∧
    (∀ alloc list, (parse alloc buf list).res = TlvParse.parse alloc buf list) ∧
    (∀ loc pfx pad depth, (berBuf loc pfx pad depth buf).res = Print.berBuf loc pfx pad depth buf) ∧
    (∀ env loc pfx pad depth,
      (emvBuf env loc pfx pad depth buf).res = Print.emvBuf env loc pfx pad depth buf) ∧
    (∀ env t, (populateItems env buf t).res = Viewer.populateItems env buf t) ∧
    (∀ blocks h, (parseBlocks blocks h).res = Viewer.parseBlocks blocks h) := by
  refine ⟨decode_res buf, fun alloc list => parseF_res alloc _ buf list,
    fun loc pfx pad depth => listing_res _ pfx pad depth buf,
    fun env loc pfx pad depth => listing_res _ pfx pad depth buf, fun env t => ?_, fun blocks h => ?_⟩
  · unfold populateItems Viewer.populateItems
    simp only [res_bind, res_up, parseData_res]
  · unfold parseBlocks Viewer.parseBlocks
    simp only [res_bind, res_up, parseData_res]

/-! ## Any data -/

/-- **C144.**  Decoding one object makes no more calls than there are bytes (one if there are none),
and no more than it consumes bytes, whatever the bytes. -/
theorem C144_decode (buf : List Byte) :
    (decode buf).calls ≤ max 1 buf.length ∧
    ∀ n t, Ber.decode buf = .ok (.ok n t) → (decode buf).calls ≤ n :=
  decode_bound_calls _ buf (Nat.lt_succ_self _)

/-- **C144.**  Parsing, listing and viewing data make at most two calls for every byte, and one more,
whatever the bytes, however nested and however it ends. -/
theorem C144_linear (buf : List Byte) :
    (∀ alloc list, (parse alloc buf list).calls ≤ 2 * buf.length + 1) ∧
    (∀ loc pfx pad depth, (berBuf loc pfx pad depth buf).calls ≤ 2 * buf.length + 1) ∧
    (∀ env loc pfx pad depth, (emvBuf env loc pfx pad depth buf).calls ≤ 2 * buf.length + 1) ∧
    (∀ env t, (populateItems env buf t).calls ≤ 2 * buf.length + 1) := by
  have hl : ∀ item pfx pad depth, (listing item pfx pad depth buf).calls ≤ 2 * buf.length + 1 := by
    intro item pfx pad depth
    exact Nat.le_trans (calls_le (m := 0) (walk_calls item pfx pad _ depth buf buf 0)
      (fun a _ => Nat.le_trans (calls_le (n := 0) (m := 0) (Nat.le_refl 0) (fun _ _ => Nat.le_refl 0))
        (Nat.le_refl 0))) (full_bound _ buf)
  refine ⟨fun alloc list => Nat.le_trans (parseF_calls alloc _ buf list) (full_bound _ buf),
    fun loc pfx pad depth => hl _ pfx pad depth, fun env loc pfx pad depth => hl _ pfx pad depth,
    fun env t => ?_⟩
  exact Nat.le_trans (calls_le (m := 0) (parseData_calls _ _ _ _ 0 buf buf 0 0)
    (fun a _ => Nat.le_refl 0)) (full_bound _ buf)

/-- **C144.**  Marking a text makes at most one call for each of its characters that is no white
space, and one more. -/
theorem C144_marks (blocks : List (List Nat)) (h : Viewer.Highlighter) :
    (parseBlocks blocks h).calls ≤ (ViewerSpec.ink blocks.flatten).length + 1 := by
  have hl : ((blocks.map Viewer.withoutSpace).flatten).length = (ViewerSpec.ink blocks.flatten).length := by
    rw [show Viewer.withoutSpace = ViewerSpec.ink from funext Viewer.withoutSpace_eq]
    unfold ViewerSpec.ink
    rw [List.filter_flatten]
  unfold parseBlocks
  refine Nat.le_trans (calls_le (n := 0) (m := (ViewerSpec.ink blocks.flatten).length + 1)
    (Nat.le_refl 0) (fun n _ => ?_)) (by omega)
  refine Nat.le_trans (calls_le (m := 0) (parseData_calls _ _ _ _ 0 _ _ 0 0)
    (fun a _ => Nat.le_refl 0)) ?_
  refine Nat.le_trans (full_bound _ _) ?_
  rw [Nest.fromHex_length, List.length_take, hl]
  omega

/-! ## Definite lengths -/

/-- **C144.**  When all lengths are definite each object is decoded exactly once, and the end of the
data and of the contents of each constructed object is looked at once: parsing … -/
theorem C144_parse_exact (f : Forest) (h : f.WF) (list : List Ber.Tlv) :
    (parse TlvParse.allocOk f.enc list).calls = f.objects.length + f.nodes + 1 :=
  (parseF_looks f h _ list (by omega)).2

theorem listing_looks (item : Nat → Ber.Tlv → C (List Byte × Option Int)) (pfx : List Byte) (pad : Bool)
    (f : Forest) (h : f.WF)
    (hi : ∀ x ∈ f.objects, ∀ d, ∃ line, item d ⟨beNat x.1, topBits x.1, x.2⟩ = .ok (line, none))
    (depth : Nat) : (listing item pfx pad depth f.enc).calls = f.objects.length + f.nodes + 1 := by
  obtain ⟨text, h1, h2⟩ := walk_looks item pfx pad f h hi (f.enc.length + 1) depth f.enc 0 (by omega)
  unfold listing
  rw [calls_ok h1, h2]
  simp [Print.remainder, w_ok, calls_up, looks]

/-- **C144.**  … listing as BER data … -/
theorem C144_ber_exact (loc pfx : List Byte) (hl : loc.length = 1024) (pad : Bool) (f : Forest) (h : f.WF)
    (hlen : f.enc.length < 2 ^ 32) (ho : ∀ x ∈ f.objects, x.1 = [0x06] → PrintSpec.OidOk x.2)
    (depth : Nat) : (berBuf loc pfx pad depth f.enc).calls = f.objects.length + f.nodes + 1 :=
  listing_looks _ pfx pad f h (fun x hx d => by
    obtain ⟨h1, h2⟩ := Nest.objects_inv f h x hx
    exact ⟨_, Print.berItem_eq loc pfx d x.1 x.2 hl h1 (by omega) (ho x hx)⟩) depth

/-- **C144.**  … listing as EMV data … -/
theorem C144_emv_exact (env : Env) (he : Sane env) (loc : Nat → List Byte → List Byte)
    (hl : ∀ t v, (loc t v).length = 2048) (pfx : List Byte) (pad : Bool) (f : Forest) (h : f.WF)
    (hlen : f.enc.length < 2 ^ 32) (hd : ∀ x ∈ f.objects, Defined loc x.1 x.2) (depth : Nat) :
    (emvBuf env loc pfx pad depth f.enc).calls = f.objects.length + f.nodes + 1 :=
  listing_looks _ pfx pad f h (fun x hx d => by
    obtain ⟨h1, h2⟩ := Nest.objects_inv f h x hx
    exact ⟨_, Print.emvItem_eq env he loc hl pfx d x.1 x.2 h1 (by omega) (hd x hx)⟩) depth

/-- **C144.**  … and viewing. -/
theorem C144_tree_exact (env : Env) (he : Sane env) (t : Viewer.Tree) (f : Forest) (h : f.WF)
    (hlen : f.enc.length < 2 ^ 32) (hd : ∀ x ∈ f.objects, Defined ViewerSpec.blank x.1 x.2) :
    (populateItems env f.enc t).calls = f.objects.length + f.nodes + 1 := by
  obtain ⟨items, h1, h2⟩ := parseData_looks (Viewer.fieldItem env t.decodeFields) Viewer.paddingItem
    t.ignorePadding f h (fun x hx d o l => by
      obtain ⟨h1, h2⟩ := Nest.objects_inv f h x hx
      obtain ⟨i, hi, -⟩ := Viewer.fieldItem_shows env he t.decodeFields d o l x.1 x.2 h1 (by omega) (hd x hx)
      exact ⟨i, hi⟩) (f.enc.length + 1) 0 f.enc 0 0 (by omega)
  unfold populateItems
  rw [calls_ok h1, h2]
  rfl

/-! ## Cases -/

/-- A record with two fields: two calls at the ends, three for the objects. -/
example : (parse TlvParse.allocOk [0x70, 0x06, 0x5A, 0x01, 0x12, 0x9A, 0x01, 0x26] []).calls = 5 := by
  decide +kernel

/-- `C144_parse_exact` for `70 03 5A 01 12`. -/
example : (parse TlvParse.allocOk Nest.sample.enc []).calls = 2 + 1 + 1 :=
  C144_parse_exact Nest.sample ⟨.inl ⟨by decide, rfl⟩, by decide, .short 3 (by decide),
    ⟨⟨.inl ⟨by decide, rfl⟩, .short 1 (by decide)⟩, by decide, trivial⟩, trivial⟩ []

/-- Contents of indefinite length are decoded twice. -/
example : (parse TlvParse.allocOk [0x70, 0x80, 0x5A, 0x00, 0x5A, 0x00, 0x5A, 0x00, 0x00, 0x00] []).calls =
    11 := by decide +kernel

/-- Objects of indefinite length in one another. -/
example : (decode [0x30, 0x80, 0x30, 0x80, 0x30, 0x80, 0x00, 0x00]).calls = 6 ∧
    (berBuf [] [] false 0 [0x30, 0x80, 0x30, 0x80, 0x30, 0x80, 0x00, 0x00]).calls = 9 := by
  decide +kernel

end Verif.Work
