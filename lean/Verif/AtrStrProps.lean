import Verif.AtrStrLemmas

/-!
# ATR descriptions

Every text is written out in terms of the bytes of the ATR (its chain of links, see AtrSpec.lean)
and of the tables of ISO 7816-3, not of what the parser stored.
-/

set_option autoImplicit false

namespace Verif.AtrStr
open Verif Atr AtrSpec Lists Formats

/-! ## Specification -/

/-- The names, out of `names`, of what is present, separated by `sep`. -/
def listed (sep : List Byte) (names : List (Bool × List Byte)) : List Byte :=
  sep.intercalate ((names.filter (·.1)).map (·.2))

/-- The announcement of the set of interface bytes numbered `i`. -/
def setText (gs : List Link) (td : Option Byte) (i : Nat) : List Byte :=
  txt!"Y" ++ decimal i ++ txt!"=" ++ listed txt!","
    [((ta gs i).isSome, txt!"TA" ++ decimal i), ((tb gs i).isSome, txt!"TB" ++ decimal i),
     ((tc gs i).isSome, txt!"TC" ++ decimal i), ((tdByte gs td i).isSome, txt!"TD" ++ decimal i)]

/-- The text for a protocol type. -/
def protocolText (t : Nat) : List Byte :=
  if t = 15 then txt!"; Global (T=15)" else txt!"; Protocol T=" ++ decimal t

/-- Card classes and clock stop (ISO 7816-3:2006, 8.3, TA for T=15). -/
def classText (x : Byte) : List Byte :=
  txt!"Clock stop: " ++
    (match x.toNat / 64 with
      | 0 => txt!"Not supported"
      | 1 => txt!"State L"
      | 2 => txt!"State H"
      | _ => txt!"No preference") ++
    txt!"; Class: " ++
    listed txt!", " [(x.toNat.testBit 0, txt!"A (5V)"), (x.toNat.testBit 1, txt!"B (3V)"),
      (x.toNat.testBit 2, txt!"C (1.8V)")]

/-- What transmission rate TA1 stands for: `fi`, `di`, `f` (in 100 kHz) and the rate in bit/s. -/
def rateText (fi di f cycles rate : Nat) : List Byte :=
  txt!"Fi=" ++ decimal fi ++ txt!"; Di=" ++ decimal di ++ txt!"; " ++ decimal cycles ++
    txt!" cycles/ETU @ max " ++ decimal (f / 10) ++ txt!"." ++ decimal (f % 10) ++
    txt!"MHz; max " ++ decimal rate ++ txt!" bit/s"

/-- What TA2 stands for. -/
def modeText : Option Byte → List Byte
  | none => txt!"Negotiable mode"
  | some x => txt!"Specific mode (" ++ (if x.toNat.testBit 7 then txt!"immutable" else txt!"mutable") ++
      txt!"); ETU" ++ (if x.toNat.testBit 4 then txt!" is implicit" else txt!"=Fi/Di") ++
      txt!"; protocol T=" ++ decimal (x.toNat % 16)

/-- What TB1 stands for: programming voltage and current. -/
def vppText : Option Byte → List Byte
  | none => txt!"Vpp is not connected"
  | some x => if x = 0 then txt!"Vpp is not connected" else
      txt!"Vpp is connected; Vpp=" ++ decimal (x.toNat % 32 * 1000) ++ txt!"mV; Ipp=" ++
        decimal (match x.toNat / 32 % 4 with
          | 0 => 25
          | 1 => 50
          | _ => 100) ++ txt!"mA"

/-- What a TB for T=15 stands for. -/
def spuWords (x : Byte) : List Byte :=
  if x = 0 then txt!"SPU not used" else if x.toNat < 128 then txt!"Standard usage of SPU"
  else txt!"Proprietary usage of SPU"

/-! ## Lemmas -/

theorem accepted_parts (atr : List Byte) (ts : Byte) (gs : List Link) (td : Option Byte)
    (info : Info) (h : HasChain atr ts gs td) (hp : parse atr = .ok (.ok info)) :
    (ts = 0x3B ∨ ts = 0x3F) ∧ OkChain gs td ∧ info.par = setAll gs defaults ∧
    computeWt info.par = .ok (info.wt, info.cwt, info.bwt) ∧ info.buf = storage atr ∧
    info.k = kOf gs ∧ (0 < kOf gs →
      (storage atr)[1 + (encChain gs td.isSome).length]? = some info.t1) := by
  obtain ⟨h1, h2, h3, h4, _, hf⟩ := accepted atr ts gs td info h hp
  obtain ⟨_, f2, _, _, _, _, _, f8, _, f10, _⟩ := hf
  exact ⟨h1, h2, h3, h4, f2, f8, fun hk => (f10 hk).1⟩

theorem yiTexts_ne (a b c d : Bool) (i : Nat) : yiTexts a b c d i ≠ [] := by
  simp [yiTexts]

theorem yiTexts_flatten (gs : List Link) (td : Option Byte) (i : Nat) (hi : i < 2 ^ 32) :
    (yiTexts (ta gs i).isSome (tb gs i).isSome (tc gs i).isSome (tdByte gs td i).isSome i).flatten
      = setText gs td i := by
  rw [setText, yiTexts, decU_spec i hi]
  generalize decimal i = n
  cases (ta gs i).isSome <;> cases (tb gs i).isSome <;> cases (tc gs i).isSome <;>
    cases (tdByte gs td i).isSome <;>
    simp [listed, List.intercalate, List.intersperse]

theorem yiWrite_spec (atr : List Byte) (ts : Byte) (gs : List Link) (td : Option Byte)
    (info : Info) (h : HasChain atr ts gs td) (hp : parse atr = .ok (.ok info)) (i : Nat)
    (h1 : 1 ≤ i) (h4 : i ≤ 4) (str : List Byte) :
    ∃ m, yiWrite info i str = .ok (m, written (setText gs td i) str) ∧
      (m < str.length ↔ (setText gs td i).length < str.length) ∧
      (m < str.length → m = (setText gs td i).length) := by
  obtain ⟨d1, d2, d3, d4⟩ := C43_reports atr ts gs td info h hp i h1
  obtain ⟨m, e, g⟩ := puts_spec (yiTexts (ta gs i).isSome (tb gs i).isSome (tc gs i).isSome
    (tdByte gs td i).isSome i) (yiTexts_ne _ _ _ _ _) str
  rw [yiTexts_flatten gs td i (by omega)] at e g
  refine ⟨m, ?_, g⟩
  rw [yiWrite, if_neg (by omega), d1, bind_ok, d2, bind_ok, d3, bind_ok, d4, bind_ok]
  exact e

/-- A set followed by one more text. -/
theorem yi_then (t1 t2 str : List Byte) (m : Nat)
    (g1 : m < str.length ↔ t1.length < str.length) (g2 : m < str.length → m = t1.length) :
    (if m ≥ (written t1 str).length then (.ok (true, written t1 str) : C (Bool × List Byte))
      else do
        let (_, str) ← puts [t2] (written t1 str) m
        .ok (true, str)) = .ok (true, written (t1 ++ t2) str) := by
  rw [written_length]
  by_cases hc : m ≥ str.length
  · rw [if_pos hc]
    have : str.length ≤ t1.length := by
      have := mt g1.mpr (by omega); omega
    rw [written, written]
    by_cases hs : str = []
    · rw [if_pos hs, if_pos hs]
    · rw [if_neg hs, if_neg hs, List.take_append_of_le_length (by omega)]
  · rw [if_neg hc]
    have hm := g2 (by omega)
    have hl := g1.mp (by omega)
    obtain ⟨m', e⟩ := puts_more t1 t2 str hl
    rw [hm, e]; rfl

theorem getD_isSome {α : Type} (o : Option α) (h : o.isSome) : ∃ x, o = some x :=
  Option.isSome_iff_exists.mp h

/-- The protocol type of a set numbered 2 and up. -/
theorem setProtocol_spec (atr : List Byte) (ts : Byte) (gs : List Link) (td : Option Byte)
    (info : Info) (h : HasChain atr ts gs td) (hp : parse atr = .ok (.ok info)) (i : Nat)
    (hi : 2 ≤ i) (l : Link) (hl : gs[i - 1]? = some l) :
    ∃ t : Byte, setProtocol info i = .ok (some t) ∧ t.toNat = l.nib.val := by
  obtain ⟨_, _, _, d4⟩ := C43_reports atr ts gs td info h hp (i - 1) (by omega)
  refine ⟨_, ?_, (bits l.nib l.a.isSome l.b.isSome l.c.isSome
    (decide (i - 1 + 1 < gs.length) || td.isSome)).2.2.2.2⟩
  rw [setProtocol, d4, bind_ok, tdByte, hl]
  rfl

theorem nib_cases (gs : List Link) (td : Option Byte) (h : OkChain gs td) (i : Nat) (hi : 3 ≤ i)
    (l : Link) (hl : gs[i - 1]? = some l) : l.nib = 0 ∨ l.nib = 1 ∨ l.nib = 15 := by
  have hm : l ∈ gs.drop 2 := by
    rw [List.mem_iff_getElem?]
    exact ⟨i - 3, by rw [List.getElem?_drop, ← hl]; congr 1; omega⟩
  have := (h.2.2.2.2.2.1 l hm).1
  rcases this with h | h | h
  · exact Or.inl (Fin.ext h)
  · exact Or.inr (Or.inl (Fin.ext h))
  · exact Or.inr (Or.inr (Fin.ext h))

/-- A byte present in a set of protocol type `t` makes a last one exist. -/
theorem lastOf_isSome (t : Fin 16) (gs : List Link) (sel : Link → Option Byte) (i : Nat)
    (hi : 3 ≤ i) (l : Link) (hl : gs[i - 1]? = some l) (hn : l.nib = t) (x : Byte)
    (hx : sel l = some x) : ∃ y, lastOf t gs sel = some y := by
  have hm : l ∈ gs.drop 2 := by
    rw [List.mem_iff_getElem?]
    exact ⟨i - 3, by rw [List.getElem?_drop, ← hl]; congr 1; omega⟩
  have : x ∈ (gs.drop 2).filterMap (fun l => if l.nib = t then sel l else none) :=
    List.mem_filterMap.mpr ⟨l, hm, by rw [if_pos hn, hx]⟩
  rw [lastOf]
  exact ⟨_, List.getLast?_eq_some_getLast (List.ne_nil_of_mem this)⟩

theorem classTexts_flatten (p : Par) (x : Byte) (h1 : p.cardClasses = x.toNat % 64)
    (h2 : p.clockStop = (x >>> 6).toNat) : (classTexts p).flatten = classText x := by
  have h : ∀ x : Byte, (classTexts { defaults with
      cardClasses := x.toNat % 64, clockStop := (x >>> 6).toNat }).flatten = classText x := by
    decide +kernel
  rw [← h x, ← h1, ← h2]
  rfl

theorem table_di : ∀ x ∈ diTable, ∀ y ∈ diTable, x.1 = y.1 → x = y := by decide
theorem table_fi : ∀ x ∈ fiTable, ∀ y ∈ fiTable, x.1 = y.1 → x = y := by decide
theorem table_rate : ∀ x ∈ diTable, ∀ y ∈ fiTable, x.2 ≠ 0 ∧ x.2 ≤ 64 ∧ y.2.1 / x.2 ≠ 0 ∧
    y.2.1 < 2 ^ 32 ∧ 372 ≤ y.2.1 ∧ y.2.2 * 100000 < 2 ^ 32 := by decide

/-- The factors of an accepted ATR are those of the tables. -/
theorem factors (atr : List Byte) (ts : Byte) (gs : List Link) (td : Option Byte)
    (info : Info) (h : HasChain atr ts gs td) (hp : parse atr = .ok (.ok info)) (di fi f : Nat)
    (hd : (((ta gs 1).getD 0x11).toNat % 16, di) ∈ diTable)
    (hf : (((ta gs 1).getD 0x11).toNat / 16, fi, f) ∈ fiTable) :
    info.par.di = di ∧ info.par.fi = fi ∧ info.par.fmax10 = f := by
  obtain ⟨v1, v2, _⟩ := C46_values atr ts gs td info h hp
  have e1 := table_di _ v1 _ hd rfl
  have e2 := table_fi _ v2 _ hf rfl
  simp only [Prod.mk.injEq] at e1 e2
  exact ⟨e1.2, e2.2.1, e2.2.2⟩

/-! ## C87: structure -/

/-- **C87** (initial character).  Every accepted ATR has one of the two conventions, as its first
byte tells. -/
theorem C87_ts (atr : List Byte) (info : Info) (hp : parse atr = .ok (.ok info)) :
    (atr[0]? = some 0x3B ∧ tsString info = .ok txt!"Direct convention") ∨
    (atr[0]? = some 0x3F ∧ tsString info = .ok txt!"Inverse convention") := by
  have hl : 2 ≤ atr.length ∧ atr.length ≤ 33 := by
    rw [parse] at hp
    split at hp
    · cases hp
    · omega
  obtain ⟨ts, gs, td, h⟩ := hasChain_exists atr hl.1 hl.2
  obtain ⟨h1, _, _, _, hb, _⟩ := accepted_parts atr ts gs td info h hp
  obtain ⟨_, _, _, _, _, rest, hs⟩ := h
  have h0 : (storage atr)[0]? = some ts := by rw [hs]; rfl
  have e : tsString info = .ok (if ts = 0x3B then txt!"Direct convention"
    else if ts = 0x3F then txt!"Inverse convention" else txt!"Unknown") := by
    rw [tsString, hb, rd_getElem? h0, bind_ok]
  rw [storage_get atr 0 (by omega)] at h0
  rcases h1 with rfl | rfl
  · exact Or.inl ⟨h0, e⟩
  · exact Or.inr ⟨h0, e⟩

/-- **C87** (format byte).  The description of T0 lists exactly the interface bytes of the first
set and the number of historical bytes. -/
theorem C87_t0 (atr : List Byte) (ts : Byte) (gs : List Link) (td : Option Byte)
    (info : Info) (h : HasChain atr ts gs td) (hp : parse atr = .ok (.ok info))
    (str : List Byte) :
    t0String info str =
      .ok (true, written (setText gs td 1 ++ (txt!"; K=" ++ decimal (kOf gs))) str) := by
  obtain ⟨m, e, g1, g2⟩ := yiWrite_spec atr ts gs td info h hp 1 (by omega) (by omega) str
  obtain ⟨_, _, _, _, _, hk, _⟩ := accepted_parts atr ts gs td info h hp
  have hkb : kOf gs < 2 ^ 32 := by
    cases gs with
    | nil => simp [kOf]
    | cons l r => have := l.nib.isLt; simp only [kOf]; omega
  rw [t0String, e, bind_ok, hk, decU_spec _ hkb]
  exact yi_then _ _ str m g1 g2

example : ∃ info, parse [0x3B, 0xF0, 0x11, 0x00, 0x00, 0x81, 0x71, 0x20, 0x45, 0x00, 0x74] = .ok (.ok info) ∧
    t0String info (List.replicate 40 1) = .ok (true, strOver txt!"Y1=TA1,TB1,TC1,TD1; K=0" (List.replicate 40 1)) :=
  witness _ (by decide +kernel)

/-- **C87** (TD).  The description of a present TDi (i of 1 to 3) lists exactly the interface
bytes of the set it announces, and names its protocol type. -/
theorem C87_td (atr : List Byte) (ts : Byte) (gs : List Link) (td : Option Byte)
    (info : Info) (h : HasChain atr ts gs td) (hp : parse atr = .ok (.ok info)) (i : Nat)
    (h1 : 1 ≤ i) (h3 : i ≤ 3) (t : Fin 16) (ht : tdT gs i = some t) (str : List Byte) :
    tdString info i str =
      .ok (true, written (setText gs td (i + 1) ++ protocolText t.val) str) := by
  obtain ⟨m, e, g1, g2⟩ := yiWrite_spec atr ts gs td info h hp (i + 1) (by omega) (by omega) str
  obtain ⟨_, _, _, d4⟩ := C43_reports atr ts gs td info h hp i h1
  rw [tdT] at ht
  obtain ⟨l, hl, rfl⟩ := Option.map_eq_some_iff.mp ht
  obtain ⟨x, hx⟩ : ∃ x, x = indicator l.nib l.a.isSome l.b.isSome l.c.isSome
      (decide (i + 1 < gs.length) || td.isSome) := ⟨_, rfl⟩
  have hb : (x &&& 0x0F).toNat = l.nib.val := by rw [hx]; exact (bits _ _ _ _ _).2.2.2.2
  have hd : deref info (·.d) i = .ok (some x) := by rw [d4, tdByte, hl, hx]
  have he : (if (x &&& 0x0F) = 15 then txt!"; Global (T=" ++ decU (x &&& 0x0F).toNat ++ txt!")"
      else txt!"; Protocol T=" ++ decU (x &&& 0x0F).toNat) = protocolText l.nib.val := by
    rw [protocolText, hb, decU_spec _ (by have := l.nib.isLt; omega)]
    by_cases h15 : l.nib.val = 15
    · rw [if_pos h15, if_pos (UInt8.toNat.inj (by rw [hb, h15]; rfl)), h15]
      have : decimal 15 = txt!"15" := by rw [← decU_spec 15 (by omega)]; decide
      rw [this]; decide
    · rw [if_neg h15, if_neg]
      intro e; rw [e] at hb; exact h15 hb.symm
  rw [tdString, if_neg (by omega), hd, bind_ok]
  simp only [e, bind_ok, he]
  exact yi_then _ _ str m g1 g2

example : ∃ info, parse [0x3B, 0x81, 0x80, 0xBF, 0x43, 0x81, 0x11, 0xFE, 0x10, 0x83] = .ok (.ok info) ∧
    tdString info 2 (List.replicate 40 1) = .ok (true, strOver txt!"Y3=TA3,TB3,TD3; Global (T=15)" (List.replicate 40 1)) :=
  witness _ (by decide +kernel)

/-- **C87** (TD4).  A fourth TD announces no set known to the code; only its protocol type is
given (after the separator). -/
theorem C87_td4 (atr : List Byte) (ts : Byte) (gs : List Link) (x : Byte)
    (info : Info) (h : HasChain atr ts gs (some x)) (hp : parse atr = .ok (.ok info))
    (str : List Byte) (hs : str ≠ []) :
    tdString info 4 str = .ok (true, written (protocolText (x.toNat % 16)) str) := by
  obtain ⟨_, _, _, d4⟩ := C43_reports atr ts gs (some x) info h hp 4 (by omega)
  obtain ⟨_, _, _, _, h4, _⟩ := h
  have hl : gs.length = 4 := h4 rfl
  have hd : deref info (·.d) 4 = .ok (some x) := by
    rw [d4, tdByte, List.getElem?_eq_none (by omega)]; simp [hl]
  have he : ∀ x : Byte, (if (x &&& 0x0F) = 15 then
      txt!"; Global (T=" ++ decU (x &&& 0x0F).toNat ++ txt!")"
      else txt!"; Protocol T=" ++ decU (x &&& 0x0F).toNat) =
      if x.toNat % 16 = 15 then txt!"; Global (T=15)"
      else txt!"; Protocol T=" ++ decU (x.toNat % 16) := by decide +kernel
  have hc : ¬ 0 ≥ str.length := by
    have := List.length_pos_iff.2 hs; omega
  have ew := he x
  rw [decU_spec (x.toNat % 16) (by omega)] at ew
  obtain ⟨m, e, _⟩ := puts_spec [protocolText (x.toNat % 16)] (by simp) str
  rw [tdString, if_neg (by omega), hd, bind_ok]
  simp only [yiWrite, show (4 + 1 : Nat) > 4 by omega, or_true, if_true, bind_ok]
  rw [if_neg hc, ew]
  rw [protocolText] at e
  rw [e, protocolText]
  simp [bind_ok]

/-- **C87** (absent TD).  Exactly for an absent TD, or a number other than 1 to 4, there is no
description, and the output is left as it was. -/
theorem C87_td_absent (atr : List Byte) (ts : Byte) (gs : List Link) (td : Option Byte)
    (info : Info) (h : HasChain atr ts gs td) (hp : parse atr = .ok (.ok info)) (i : Nat)
    (hi : i < 1 ∨ i > 4 ∨ tdByte gs td i = none) (str : List Byte) :
    tdString info i str = .ok (false, str) := by
  rw [tdString]
  by_cases hc : i < 1 ∨ i > 4
  · rw [if_pos hc]
  · rw [if_neg hc]
    obtain ⟨_, _, _, d4⟩ := C43_reports atr ts gs td info h hp i (by omega)
    have : tdByte gs td i = none := by
      rcases hi with h | h | h
      · exact absurd (Or.inl h) hc
      · exact absurd (Or.inr h) hc
      · exact h
    rw [d4, this, bind_ok]

/-- What ISO 7816-4, 8.1.1.1 assigns to a category indicator byte. -/
def categoryText (x : Byte) : List Byte :=
  if x.toNat = 0 then txt!"COMPACT-TLV followed by mandatory status indicator"
  else if x.toNat = 0x10 then txt!"DIR data reference"
  else if x.toNat = 0x80 then txt!"COMPACT-TLV including optional status indicator"
  else if x.toNat / 16 = 8 then txt!"RFU" else txt!"Proprietary"

theorem t1_category (info : Info) (h : info.k ≠ 0) :
    t1String info = some (categoryText info.t1) := by
  have ht : ∀ x : Byte, (if x = 0x00 then txt!"COMPACT-TLV followed by mandatory status indicator"
      else if x = 0x10 then txt!"DIR data reference"
      else if x = 0x80 then txt!"COMPACT-TLV including optional status indicator"
      else if x > 0x80 ∧ x ≤ 0x8F then txt!"RFU" else txt!"Proprietary") = categoryText x := by
    unfold categoryText
    decide +kernel
  rw [t1String, if_neg h, ← ht info.t1]
  simp only [apply_ite some]

/-- **C87** (category indicator, partial).  The category indicator byte, the first of the
historical bytes, is described as ISO 7816-4, 8.1.1.1 assigns it; without historical bytes there
is no description.  Missing: ATRs with a TD4, for which it is false (`C87_t1_td4`). -/
theorem C87_t1_partial (atr : List Byte) (ts : Byte) (gs : List Link) (info : Info)
    (h : HasChain atr ts gs none) (hp : parse atr = .ok (.ok info)) :
    (historical atr gs = [] → t1String info = none) ∧
    (∀ x, (historical atr gs).head? = some x → t1String info = some (categoryText x)) := by
  obtain ⟨hl, _, hr⟩ := C44_range atr ts gs info h hp
  obtain ⟨_, _, _, _, _, hk, _⟩ := accepted_parts atr ts gs none info h hp
  constructor
  · intro hh
    rw [hh] at hl
    rw [t1String, if_pos (by rw [hk, ← hl]; rfl)]
  · intro x hx
    obtain ⟨r, hh⟩ : ∃ r, historical atr gs = x :: r := by
      cases hc : historical atr gs with
      | nil => rw [hc] at hx; cases hx
      | cons y r => rw [hc] at hx; cases hx; exact ⟨r, rfl⟩
    rw [t1_category info (by rw [hk, ← hl, hh]; simp), (hr x r hh).1]

/-- **C87 is false** for the category indicator of an ATR with a TD4: it is TD4 that is described
in its place. -/
theorem C87_t1_td4 (atr : List Byte) (ts td : Byte) (gs : List Link) (info : Info)
    (h : HasChain atr ts gs (some td)) (hp : parse atr = .ok (.ok info)) (hk : 0 < kOf gs) :
    t1String info = some (categoryText td) := by
  obtain ⟨_, _, _, _, _, hk', _⟩ := accepted_parts atr ts gs (some td) info h hp
  rw [t1_category info (by omega), (C44_td4 atr ts td gs info h hp hk).1]

-- two historical bytes, 10 05: a DIR data reference; but TD4 is 80
example : ∃ info, parse [0x3B, 0x82, 0x80, 0x80, 0x80, 0x80, 0x10, 0x05] = .ok (.ok info) ∧
    t1String info = some txt!"COMPACT-TLV including optional status indicator" :=
  witness _ (by decide +kernel)

/-! ## C88: values -/

/-- **C88** (numbers).  There are descriptions for the numbers 1 to 4 only; for others the output
is left as it was. -/
theorem C88_numbers (info : Info) (i : Nat) (h : i < 1 ∨ i > 4) (str : List Byte) :
    taString info i str = .ok (false, str) ∧ tbString info i str = .ok (false, str) ∧
    tcString info i str = .ok (false, str) := by
  rw [taString, tbString, tcString, if_pos h, if_pos h, if_pos h]
  exact ⟨rfl, rfl, rfl⟩

/-- **C88** (TA1).  The factors and the frequency are those of the tables for TA1 (or its default
11), and the numbers are computed without dividing by zero. -/
theorem C88_ta1 (atr : List Byte) (ts : Byte) (gs : List Link) (td : Option Byte)
    (info : Info) (h : HasChain atr ts gs td) (hp : parse atr = .ok (.ok info)) (di fi f : Nat)
    (hd : (((ta gs 1).getD 0x11).toNat % 16, di) ∈ diTable)
    (hf : (((ta gs 1).getD 0x11).toNat / 16, fi, f) ∈ fiTable) (str : List Byte) :
    taString info 1 str = .ok (true,
      written (rateText fi di f (fi / di) (f * 100000 / (fi / di))) str) := by
  obtain ⟨e1, e2, e3⟩ := factors atr ts gs td info h hp di fi f hd hf
  obtain ⟨t1, t2, t3, t4, t5, t6⟩ := table_rate _ hd _ hf
  simp only at t1 t2 t3 t4 t5 t6
  have b1 : fi / di < 2 ^ 32 := Nat.lt_of_le_of_lt (Nat.div_le_self ..) t4
  have b2 : f * 100000 / (fi / di) < 2 ^ 32 := Nat.lt_of_le_of_lt (Nat.div_le_self ..) t6
  rw [taString, if_neg (by omega), if_pos rfl, ta1Text, e1, e2, e3, if_neg t1, if_neg t3, bind_ok,
    print_spec, decU_spec fi t4, decU_spec di (by omega), decU_spec _ b1, decU_spec _ b2,
    decU_spec (f / 10) (by omega), decU_spec (f % 10) (by omega), rateText]

/-- **C88** (rate, partial).  When Di divides Fi the number of cycles is Fi / Di and the rate is
the largest whole number of bits per second, fmax · Di / Fi.  Missing: other factors, for which it
is false (`C88_rate_wrong`). -/
theorem C88_rate_partial (di fi f : Nat) (hd : di ∈ diTable.map (·.2))
    (hf : (fi, f) ∈ fiTable.map (·.2)) (hdv : di ∣ fi) :
    fi / di * di = fi ∧ f * 100000 / (fi / di) = f * 100000 * di / fi := by
  have h : ∀ x ∈ diTable.map (·.2), ∀ y ∈ fiTable.map (·.2), y.1 % x = 0 →
      y.1 / x * x = y.1 ∧ y.2 * 100000 / (y.1 / x) = y.2 * 100000 * x / y.1 := by decide +kernel
  exact h di hd (fi, f) hf (Nat.mod_eq_zero_of_dvd hdv)

/-- With TA1 = 97 (Fi = 512, Di = 64) all is well, but with TA1 = 19 (Fi = 372, Di = 20) the card
is described as having 18 cycles per ETU and up to 277777 bit/s, more than the
5 MHz · 20 / 372 = 268817 bit/s it has. -/
theorem C88_rate_wrong :
    (∃ info, parse [0x3B, 0x10, 0x19] = .ok (.ok info) ∧
      taString info 1 (List.replicate 80 1) = .ok (true, strOver
        txt!"Fi=372; Di=20; 18 cycles/ETU @ max 5.0MHz; max 277777 bit/s"
        (List.replicate 80 1))) ∧
    50 * 100000 * 20 / 372 = 268817 :=
  ⟨witness _ (by decide +kernel), by decide⟩

example : ∃ info, parse [0x3B, 0x10, 0x97] = .ok (.ok info) ∧
    taString info 1 (List.replicate 12 1) = .ok (true, strOver txt!"Fi=512; Di=" (List.replicate 12 1)) :=
  witness _ (by decide +kernel)

/-- **C88** (TA2).  An absent TA2 is described as negotiable mode, a present one by its bits. -/
theorem C88_ta2 (atr : List Byte) (ts : Byte) (gs : List Link) (td : Option Byte)
    (info : Info) (h : HasChain atr ts gs td) (hp : parse atr = .ok (.ok info))
    (str : List Byte) :
    taString info 2 str = .ok (true, written (modeText (ta gs 2)) str) := by
  obtain ⟨d1, _⟩ := C43_reports atr ts gs td info h hp 2 (by omega)
  obtain ⟨_, _, hpar, _⟩ := accepted_parts atr ts gs td info h hp
  obtain ⟨r1, _⟩ := setAll_rest gs
  rw [← hpar] at r1
  rw [taString, if_neg (by omega), if_neg (by omega), if_pos rfl, d1, bind_ok]
  cases hx : ta gs 2 with
  | none => exact print_spec ..
  | some x =>
    obtain ⟨e1, e2, e3⟩ := r1 x hx
    have b : ∀ x : Byte, ((x &&& 0x80 = 0) ↔ ¬ x.toNat.testBit 7 = true) ∧
        ((x &&& 0x10 ≠ 0) ↔ x.toNat.testBit 4 = true) := by decide +kernel
    obtain ⟨b7, b4⟩ := b x
    have hw : ta2Text info.par = modeText (some x) := by
      rw [ta2Text, modeText, e1, e2, e3, decU_spec _ (by omega)]
      simp only [decide_eq_true_eq, b7, b4]
      cases x.toNat.testBit 7 <;> rfl
    rw [Option.isSome_some, if_pos rfl, print_spec, hw]

/-- **C88** (TB1).  Programming voltage and current as TB1 gives them; without TB1, or with TB1
zero, not connected. -/
theorem C88_tb1 (atr : List Byte) (ts : Byte) (gs : List Link) (td : Option Byte)
    (info : Info) (h : HasChain atr ts gs td) (hp : parse atr = .ok (.ok info))
    (str : List Byte) :
    tbString info 1 str = .ok (true, written (vppText (tb gs 1)) str) := by
  obtain ⟨_, d2, _⟩ := C43_reports atr ts gs td info h hp 1 (by omega)
  obtain ⟨_, hok, hpar, _⟩ := accepted_parts atr ts gs td info h hp
  obtain ⟨_, r2, _⟩ := setAll_rest gs
  rw [← hpar] at r2
  rw [tbString, if_neg (by omega), if_pos rfl, d2, bind_ok]
  cases hx : tb gs 1 with
  | none => exact print_spec ..
  | some x =>
    obtain ⟨e1, e2⟩ := r2 x hx
    by_cases h0 : x = 0
    · rw [if_neg (by simp [e1, h0]), print_spec, vppText, if_pos h0]
    · obtain ⟨e3, e4⟩ := e2 h0
      have ho := hok.2.1 x hx
      have hi : ∀ x : Byte, x.toNat / 32 % 4 ≠ 3 → (ippOf x).getD 0 =
          (match x.toNat / 32 % 4 with
          | 0 => 25
          | 1 => 50
          | _ => 100) ∧ (ippOf x).getD 0 < 2 ^ 32 := by decide +kernel
      have hne : x.toNat ≠ 0 := fun e => h0 (UInt8.toNat.inj e)
      obtain ⟨hi1, hi2⟩ := hi x (by
        rcases ho with ho | ho
        · exact absurd ho hne
        · exact ho.2.2)
      rw [if_pos ⟨rfl, e1.mpr h0⟩, print_spec, vppText, if_neg h0, e3, e4,
        decU_spec _ (by omega), decU_spec _ hi2, hi1]

example : ∃ info, parse [0x3B, 0x35, 0x11, 0xA5, 0x80, 0x31, 0x20, 0x31, 0x40] = .ok (.ok info) ∧
    tbString info 1 (List.replicate 40 1) = .ok (true, strOver txt!"Vpp is connected; Vpp=5000mV; Ipp=50mA" (List.replicate 40 1)) :=
  witness _ (by decide +kernel)

/-- **C88** (TB2).  With TB1 and TB2 the finer voltage; otherwise not connected. -/
theorem C88_tb2 (atr : List Byte) (ts : Byte) (gs : List Link) (td : Option Byte)
    (info : Info) (h : HasChain atr ts gs td) (hp : parse atr = .ok (.ok info))
    (str : List Byte) :
    tbString info 2 str = .ok (true, written
      (match tb gs 1, tb gs 2 with
        | some _, some y => txt!"Vpp=" ++ decimal (y.toNat * 100) ++ txt!"mV"
        | _, _ => txt!"Vpp is not connected") str) := by
  obtain ⟨_, d1, _⟩ := C43_reports atr ts gs td info h hp 1 (by omega)
  obtain ⟨_, d2, _⟩ := C43_reports atr ts gs td info h hp 2 (by omega)
  obtain ⟨_, hok, hpar, _⟩ := accepted_parts atr ts gs td info h hp
  obtain ⟨_, r2, r3, _⟩ := setAll_rest gs
  rw [← hpar] at r2 r3
  rw [tbString, if_neg (by omega), if_neg (by omega), if_pos rfl, d1, bind_ok, d2, bind_ok]
  cases hx : tb gs 1 with
  | none => rw [if_neg (by simp), print_spec]
  | some x =>
    cases hy : tb gs 2 with
    | none => rw [if_neg (by simp), print_spec]
    | some y =>
      have hne : x ≠ 0 := by
        rintro rfl; exact (hok.2.2.2.1 y hy).1 hx
      have hyb := y.toNat_lt
      rw [if_pos ⟨rfl, rfl, ((r2 x hx).1).mpr hne⟩, print_spec, r3 y hy, decU_spec _ (by omega)]

/-- **C88** (TC1).  Extra guard time N and guard time GT. -/
theorem C88_tc1 (atr : List Byte) (ts : Byte) (gs : List Link) (td : Option Byte)
    (info : Info) (h : HasChain atr ts gs td) (hp : parse atr = .ok (.ok info))
    (str : List Byte) :
    tcString info 1 str = .ok (true, written
      (let n := ((tc gs 1).getD 0x00).toNat
       txt!"N=" ++ decimal n ++ txt!"; GT=" ++
        decimal (if n ≠ 255 then 12 + n else if tdT gs 1 = some 1 then 11 else 12)) str) := by
  obtain ⟨_, _, v3, v4, v5, v6, v7, _⟩ := C46_values atr ts gs td info h hp
  have hn := ((tc gs 1).getD 0x00).toNat_lt
  have hg : info.gt = (if ((tc gs 1).getD 0x00).toNat ≠ 255 then 12 + ((tc gs 1).getD 0x00).toNat
      else if tdT gs 1 = some 1 then 11 else 12) := by
    by_cases h255 : ((tc gs 1).getD 0x00).toNat = 255
    · rw [if_neg (by omega)]
      obtain ⟨_, g0, g1⟩ := v7 h255
      by_cases ht : tdT gs 1 = some 1
      · rw [if_pos ht]; exact g1 (by rw [ht]; rfl)
      · rw [if_neg ht]
        refine g0 ?_
        rcases v5 with e | e
        · exact e
        · exfalso
          cases hx : tdT gs 1 with
          | none => rw [hx] at e; cases e
          | some x =>
            rw [hx] at e
            exact ht (by rw [hx]; exact congrArg some (Fin.ext e))
    · rw [if_pos h255]; exact (v6 h255).1
  have hgb : info.gt < 2 ^ 32 := by rw [hg]; split <;> (try split) <;> omega
  rw [tcString, if_neg (by omega), if_pos rfl, print_spec, v3, decU_spec _ (by omega),
    decU_spec _ hgb, hg]

example : ∃ info, parse [0x3B, 0xF0, 0x11, 0x00, 0x00, 0x81, 0x71, 0x20, 0x45, 0x00, 0x74] = .ok (.ok info) ∧
    tcString info 1 (List.replicate 40 1) = .ok (true, strOver txt!"N=0; GT=12" (List.replicate 40 1)) :=
  witness _ (by decide +kernel)

/-- **C88** (TC2).  Waiting time integer WI and waiting time WT. -/
theorem C88_tc2 (atr : List Byte) (ts : Byte) (gs : List Link) (td : Option Byte)
    (info : Info) (h : HasChain atr ts gs td) (hp : parse atr = .ok (.ok info)) (di : Nat)
    (hd : (((ta gs 1).getD 0x11).toNat % 16, di) ∈ diTable) (str : List Byte) :
    tcString info 2 str = .ok (true, written
      (let wi := ((tc gs 2).getD 0x0A).toNat
       txt!"WI=" ++ decimal wi ++ txt!"; WT=" ++ decimal (wi * 960 * di)) str) := by
  obtain ⟨v1, v2, _, _, _, _, _, v8, v9⟩ := C46_values atr ts gs td info h hp
  obtain ⟨e1, _⟩ := factors atr ts gs td info h hp di _ _ hd v2
  have hn := ((tc gs 2).getD 0x0A).toNat_lt
  have hdb := (table_rate _ hd _ v2).2.1
  simp only at hdb
  have hb : ((tc gs 2).getD 0x0A).toNat * 960 * di < 2 ^ 32 := by
    have := Nat.mul_le_mul_left (((tc gs 2).getD 0x0A).toNat * 960) hdb
    omega
  rw [tcString, if_neg (by omega), if_neg (by omega), if_pos rfl, print_spec, v8, v9, e1,
    decU_spec _ (by omega), decU_spec _ hb]

example : ∃ info, parse [0x3B, 0xF0, 0x11, 0x00, 0x00, 0x81, 0x71, 0x20, 0x45, 0x00, 0x74] = .ok (.ok info) ∧
    tcString info 2 (List.replicate 40 1) = .ok (true, strOver txt!"WI=10; WT=9600" (List.replicate 40 1)) :=
  witness _ (by decide +kernel)

/-! ### Sets 3 and 4 -/

/-- **C88** (TA3, TA4).  A TA for T=15 is described by card classes and clock stop, one for T=1 by
the information field size; what is given is the value of the last such TA.  Absent ones and those
for T=0 are not described. -/
theorem C88_ta (atr : List Byte) (ts : Byte) (gs : List Link) (td : Option Byte)
    (info : Info) (h : HasChain atr ts gs td) (hp : parse atr = .ok (.ok info)) (i : Nat)
    (hi : i = 3 ∨ i = 4) (str : List Byte) :
    (ta gs i = none → taString info i str = .ok (true, written txt!"Unimplemented" str)) ∧
    (∀ l x, gs[i - 1]? = some l → l.a = some x →
      (l.nib = 15 → taString info i str =
        .ok (true, written (classText ((lastOf 15 gs (·.a)).getD x)) str)) ∧
      (l.nib = 1 → taString info i str =
        .ok (true, written (txt!"IFSI=" ++ decimal ((lastOf 1 gs (·.a)).getD x).toNat) str)) ∧
      (l.nib ≠ 15 → l.nib ≠ 1 → taString info i str =
        .ok (true, written txt!"Unimplemented" str))) := by
  obtain ⟨d1, _⟩ := C43_reports atr ts gs td info h hp i (by omega)
  obtain ⟨_, hok, hpar, _⟩ := accepted_parts atr ts gs td info h hp
  have hne : gs ≠ [] := h.2.2.1
  obtain ⟨_, _, _, r4, _⟩ := setAll_rest gs
  obtain ⟨_, _, _, _, _, _, _, _, v9, _⟩ := setAll_values gs hne
  rw [← hpar] at r4 v9
  have e0 : taString info i str = taLater info i str := by
    rw [taString, if_neg (by omega), if_neg (by omega), if_neg (by omega)]
  rw [e0, taLater, d1, bind_ok]
  constructor
  · intro hx; rw [hx, if_neg (by simp), print_spec]
  intro l x hl hx
  have hx' : ta gs i = some x := by rw [ta, hl]; exact hx
  obtain ⟨t, et, hn⟩ := setProtocol_spec atr ts gs td info h hp i (by omega) l hl
  rw [hx', Option.isSome_some, if_pos rfl, et, bind_ok]
  refine ⟨fun h15 => ?_, fun h1 => ?_, fun h15 h1 => ?_⟩
  · obtain ⟨y, hy⟩ := lastOf_isSome 15 gs (·.a) i (by omega) l hl h15 x hx
    have ht : t = 15 := UInt8.toNat.inj (by rw [hn, h15]; rfl)
    obtain ⟨c1, c2⟩ := r4 y hy
    obtain ⟨m, e, _⟩ := puts_spec (classTexts info.par) (by simp [classTexts]) str
    rw [classTexts_flatten info.par y c1 c2] at e
    simp only [ht, if_true, e, bind_ok, hy, Option.getD_some]
  · obtain ⟨y, hy⟩ := lastOf_isSome 1 gs (·.a) i (by omega) l hl h1 x hx
    have ht : t = 1 := UInt8.toNat.inj (by rw [hn, h1]; rfl)
    have hv : info.par.ifsi = y.toNat := by
      rw [v9, show lastT1 gs (·.a) = some y from hy]; rfl
    have hyb := y.toNat_lt
    subst ht
    rw [hy, Option.getD_some]
    simp only [show ¬ ((1 : Byte) = 15) by decide, if_false, if_true]
    rw [print_spec, hv, decU_spec _ (by omega)]
  · have h15' : ¬ t = 15 := by
      rintro rfl; exact h15 (Fin.ext hn.symm)
    have h1' : ¬ t = 1 := by
      rintro rfl; exact h1 (Fin.ext hn.symm)
    simp only [h15', h1', if_false]
    rw [print_spec]

example : ∃ info, parse [0x3B, 0x81, 0x80, 0xBF, 0x43, 0x81, 0x11, 0xFE, 0x10, 0x83] = .ok (.ok info) ∧
    taString info 3 (List.replicate 60 1) = .ok (true, strOver txt!"Clock stop: State L; Class: A (5V), B (3V)" (List.replicate 60 1)) :=
  witness _ (by decide +kernel)

/-- **C88** (TB3, TB4).  A TB for T=15 is described by the usage of the SPU contact, one for T=1
by the character and block waiting times; what is given belongs to the last such TB.  BWT comes
out right as long as 2^BWI · 960 · 372 · Di is below 2^32 (see `C46_bwt_wraps`). -/
theorem C88_tb (atr : List Byte) (ts : Byte) (gs : List Link) (td : Option Byte)
    (info : Info) (h : HasChain atr ts gs td) (hp : parse atr = .ok (.ok info)) (i : Nat)
    (hi : i = 3 ∨ i = 4) (di fi f : Nat)
    (hd : (((ta gs 1).getD 0x11).toNat % 16, di) ∈ diTable)
    (hf : (((ta gs 1).getD 0x11).toNat / 16, fi, f) ∈ fiTable) (str : List Byte) :
    (tb gs i = none → tbString info i str = .ok (true, written txt!"Unimplemented" str)) ∧
    (∀ l x, gs[i - 1]? = some l → l.b = some x →
      (l.nib = 15 → tbString info i str =
        .ok (true, written (spuWords ((lastOf 15 gs (·.b)).getD x)) str)) ∧
      (l.nib = 1 →
        let y := ((lastOf 1 gs (·.b)).getD x).toNat
        tbString info i str = .ok (true, written (txt!"CWT=" ++ decimal (11 + 2 ^ (y % 16)) ++
          txt!"; BWT=" ++
            decimal (11 + 2 ^ (y / 16) * 960 * 372 * di % 2 ^ 32 / fi)) str)) ∧
      (l.nib ≠ 15 → l.nib ≠ 1 → tbString info i str =
        .ok (true, written txt!"Unimplemented" str))) := by
  obtain ⟨_, d2, _⟩ := C43_reports atr ts gs td info h hp i (by omega)
  obtain ⟨_, hok, hpar, hwt, _⟩ := accepted_parts atr ts gs td info h hp
  obtain ⟨e1, e2, e3⟩ := factors atr ts gs td info h hp di fi f hd hf
  have t5 := (table_rate _ hd _ hf).2.2.2.2.1
  simp only at t5
  have hne : gs ≠ [] := h.2.2.1
  obtain ⟨_, _, _, _, r5⟩ := setAll_rest gs
  obtain ⟨_, _, _, _, _, _, v7, v8, _, _⟩ := setAll_values gs hne
  rw [← hpar] at r5 v7 v8
  have e0 : tbString info i str = tbLater info i str := by
    rw [tbString, if_neg (by omega), if_neg (by omega), if_neg (by omega)]
  rw [e0, tbLater, d2, bind_ok]
  constructor
  · intro hx; rw [hx, if_neg (by simp), print_spec]
  intro l x hl hx
  have hx' : tb gs i = some x := by rw [tb, hl]; exact hx
  obtain ⟨t, et, hn⟩ := setProtocol_spec atr ts gs td info h hp i (by omega) l hl
  rw [hx', Option.isSome_some, if_pos rfl, et, bind_ok]
  refine ⟨fun h15 => ?_, fun h1 => ?_, fun h15 h1 => ?_⟩
  · obtain ⟨y, hy⟩ := lastOf_isSome 15 gs (·.b) i (by omega) l hl h15 x hx
    have ht : t = 15 := UInt8.toNat.inj (by rw [hn, h15]; rfl)
    have hw : ∀ y : Byte, spuText (if y ≠ 0 then
        (if y &&& 0x80 = 0 then .standard else .proprietary) else .notUsed) = spuWords y := by
      decide +kernel
    simp only [ht, if_true]
    rw [print_spec, r5 y hy, hw y, hy, Option.getD_some]
  · obtain ⟨y, hy⟩ := lastOf_isSome 1 gs (·.b) i (by omega) l hl h1 x hx
    have ht : t = 1 := UInt8.toNat.inj (by rw [hn, h1]; rfl)
    have hy' : lastT1 gs (·.b) = some y := hy
    rw [hy', Option.map_some, Option.getD_some] at v7 v8
    subst ht
    rw [hy, Option.getD_some]
    simp only [show ¬ ((1 : Byte) = 15) by decide, if_false, if_true]
    rw [computeWt] at hwt
    split at hwt
    · obtain ⟨_, hw⟩ := Prod.mk.inj (Except.ok.inj hwt)
      obtain ⟨hc, hb⟩ := Prod.mk.inj hw
      rw [v7] at hc
      rw [v8, e1, e2] at hb
      have hp15 : 2 ^ (y.toNat % 16) ≤ 2 ^ 15 := Nat.pow_le_pow_right (by omega) (by omega)
      rw [Nat.mod_eq_of_lt (by omega)] at hc
      have hq : 2 ^ (y.toNat / 16) * 960 * 372 * di % 2 ^ 32 / fi ≤
          2 ^ (y.toNat / 16) * 960 * 372 * di % 2 ^ 32 / 372 := Nat.div_le_div_left t5 (by omega)
      have hlt : 2 ^ (y.toNat / 16) * 960 * 372 * di % 2 ^ 32 < 2 ^ 32 :=
        Nat.mod_lt _ (by omega)
      rw [Nat.mod_eq_of_lt (by omega)] at hb
      rw [print_spec, ← hc, ← hb, decU_spec _ (by omega), decU_spec _ (by omega)]
    · cases hwt
  · have h15' : ¬ t = 15 := by
      rintro rfl; exact h15 (Fin.ext hn.symm)
    have h1' : ¬ t = 1 := by
      rintro rfl; exact h1 (Fin.ext hn.symm)
    simp only [h15', h1', if_false]
    rw [print_spec]

example : ∃ info, parse [0x3B, 0xF0, 0x11, 0x00, 0x00, 0x81, 0x71, 0x20, 0x45, 0x00, 0x74] = .ok (.ok info) ∧
    tbString info 3 (List.replicate 40 1) = .ok (true, strOver txt!"CWT=43; BWT=15371" (List.replicate 40 1)) :=
  witness _ (by decide +kernel)

example : ∃ info, parse [0x3B, 0x81, 0x80, 0xBF, 0x43, 0x81, 0x11, 0xFE, 0x10, 0x83] = .ok (.ok info) ∧
    tbString info 3 (List.replicate 40 1) = .ok (true, strOver txt!"Proprietary usage of SPU" (List.replicate 40 1)) :=
  witness _ (by decide +kernel)

/-- **C88** (TC3, TC4).  A TC for T=1 is described by the error detection code, that of the last
such TC. -/
theorem C88_tc (atr : List Byte) (ts : Byte) (gs : List Link) (td : Option Byte)
    (info : Info) (h : HasChain atr ts gs td) (hp : parse atr = .ok (.ok info)) (i : Nat)
    (hi : i = 3 ∨ i = 4) (str : List Byte) :
    (tc gs i = none → tcString info i str = .ok (true, written txt!"Unimplemented" str)) ∧
    (∀ l x, gs[i - 1]? = some l → l.c = some x →
      (l.nib = 1 → tcString info i str = .ok (true, written
        (if ((lastOf 1 gs (·.c)).getD x).toNat % 2 = 1 then txt!"Cyclic Redundancy Check (CRC)"
          else txt!"Longitudinal Redundancy Check (LRC)") str)) ∧
      (l.nib ≠ 1 → tcString info i str = .ok (true, written txt!"Unimplemented" str))) := by
  obtain ⟨_, _, d3, _⟩ := C43_reports atr ts gs td info h hp i (by omega)
  obtain ⟨_, hok, hpar, _⟩ := accepted_parts atr ts gs td info h hp
  have hne : gs ≠ [] := h.2.2.1
  obtain ⟨_, _, _, _, _, _, _, _, _, v10⟩ := setAll_values gs hne
  rw [← hpar] at v10
  have e0 : tcString info i str = tcLater info i str := by
    rw [tcString, if_neg (by omega), if_neg (by omega), if_neg (by omega)]
  rw [e0, tcLater, d3, bind_ok]
  constructor
  · intro hx; rw [hx, if_neg (by simp), print_spec]
  intro l x hl hx
  have hx' : tc gs i = some x := by rw [tc, hl]; exact hx
  obtain ⟨t, et, hn⟩ := setProtocol_spec atr ts gs td info h hp i (by omega) l hl
  rw [hx', Option.isSome_some, if_pos rfl, et, bind_ok]
  refine ⟨fun h1 => ?_, fun h1 => ?_⟩
  · obtain ⟨y, hy⟩ := lastOf_isSome 1 gs (·.c) i (by omega) l hl h1 x hx
    have ht : t = 1 := UInt8.toNat.inj (by rw [hn, h1]; rfl)
    have hb : ∀ y : Byte, (y &&& 0x01 ≠ 0) ↔ y.toNat % 2 = 1 := by decide +kernel
    rw [show lastT1 gs (·.c) = some y from hy, Option.map_some, Option.getD_some] at v10
    simp only [ht, if_true]
    rw [print_spec, v10, hy, Option.getD_some]
    simp only [decide_eq_true_eq, hb]
  · have h1' : ¬ t = 1 := by
      rintro rfl; exact h1 (Fin.ext hn.symm)
    simp only [h1', if_false]
    rw [print_spec]

example : ∃ info, parse [0x3B, 0xF0, 0x11, 0x00, 0x00, 0x81, 0x71, 0x20, 0x45, 0x00, 0x74] = .ok (.ok info) ∧
    tcString info 3 (List.replicate 40 1) = .ok (true, strOver txt!"Longitudinal Redundancy Check (LRC)" (List.replicate 40 1)) :=
  witness _ (by decide +kernel)

/-- **C88** (one byte per kind, partial).  When a set numbered 3 or 4 is the only one of its
protocol type, the value given is that of its own byte.  Missing: several sets of one type, where
it is false (`C88_shows_last`). -/
theorem C88_own_partial (gs : List Link) (sel : Link → Option Byte) (i : Nat) (hi : 3 ≤ i)
    (l : Link) (hl : gs[i - 1]? = some l) (x : Byte) (hx : sel l = some x)
    (honly : ∀ j l', 3 ≤ j → gs[j - 1]? = some l' → l'.nib = l.nib → j = i) :
    lastOf l.nib gs sel = some x := by
  obtain ⟨y, hy⟩ := lastOf_isSome l.nib gs sel i hi l hl rfl x hx
  have hm := List.mem_of_getLast? hy
  obtain ⟨l', hl', he⟩ := List.mem_filterMap.mp hm
  obtain ⟨k, hk⟩ := List.mem_iff_getElem?.mp hl'
  rw [List.getElem?_drop] at hk
  split at he
  · rename_i hn
    have hj := honly (k + 3) l' (by omega)
      (by rw [← hk]; congr 1; omega) hn
    have : l' = l := by
      have e : gs[i - 1]? = some l' := by rw [← hk]; congr 1; omega
      rw [hl] at e; exact (Option.some.inj e).symm
    rw [this, hx] at he
    rw [hy, he]
  · cases he

/-- An ATR with two sets for T=1: what is said of TA3 (20, that is 32) is the value of TA4. -/
theorem C88_shows_last : ∃ info, parse [0x3B, 0x80, 0x81, 0x91, 0x20, 0x11, 0xFE, 0x5F] = .ok (.ok info) ∧
    deref info (·.a) 3 = .ok (some 0x20) ∧
    taString info 3 (List.replicate 20 1) = .ok (true, strOver txt!"IFSI=254" (List.replicate 20 1)) :=
  witness _ (by decide +kernel)

end Verif.AtrStr
