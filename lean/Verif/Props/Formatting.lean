import Verif.Lemmas.XfCover
import Verif.Lemmas.Colours

/-!
# C35 XF attributes, C37 colour map, C38 nearest colour
-/
set_option linter.unusedSimpArgs false
namespace Xlrd
open Spec

/-! ## C35 -/

theorem xfRecord_no_index {x : XF} {bv : Nat} {data : Bytes} (h : XfRecord x bv data) : XfRecord { x with xfIndex := 0 } bv data := by
  cases h with
  | biff8 u tail fit => exact .biff8 (x := { x with xfIndex := 0 }) u tail fit
  | biff5 bv hbv u tail fit rot no8 => exact .biff5 (x := { x with xfIndex := 0 }) _ hbv u tail fit rot no8
  | biff4 bv hbv u tail fit rot no8 => exact .biff4 (x := { x with xfIndex := 0 }) _ hbv u tail fit rot no8
  | biff3 u tail fit vert rot no8 => exact .biff3 (x := { x with xfIndex := 0 }) u tail fit vert rot no8
  | biff2 u fit attrs => exact .biff2 (x := { x with xfIndex := 0 }) u fit attrs

theorem decodeXf_record {x : XF} {bv : Nat} {data : Bytes} (h : XfRecord x bv data) : decodeXf bv data = .ok { x with xfIndex := 0 } := by
  have h := xfRecord_no_index h
  have hx : ({ x with xfIndex := 0 } : XF).xfIndex = 0 := rfl
  generalize ({ x with xfIndex := 0 } : XF) = x at h hx
  unfold decodeXf
  cases h with
  | biff8 u tail fit => rw [if_pos (by decide)]; exact xf80_roundtrip x u fit hx tail
  | biff5 _ hbv u tail fit rot no8 =>
    rw [if_neg (by omega), if_pos (by omega)]; exact xf50_roundtrip x u fit hx rot no8 tail
  | biff4 _ hbv u tail fit rot no8 =>
    rw [if_neg (by omega), if_neg (by omega), if_pos (by omega)]; exact xf40_roundtrip x u fit hx rot no8 tail
  | biff3 u tail fit vert rot no8 => exact xf30_roundtrip x u fit hx vert rot no8 tail
  | biff2 u fit attrs => exact xf21_roundtrip x u fit hx attrs

/-- C35: whatever was read before, an XF record adds one entry at the end of `xf_list`; each of its
attributes is the field of the record, for every combination of field values and every BIFF version.  Only
a format key that `format_map` does not know is replaced, by 0. -/
theorem C35_xf_attributes (bv : Nat) (fi : Bool) (st : FmtSt) (x : XF) (data : Bytes) (h : XfRecord x bv data) :
    ∃ st', handleXf bv fi st data = .ok st' ∧
      st'.xfList = st.xfList ++ [{ x with xfIndex := st.xfList.length,
                                          formatKey := if (st'.formatMap x.formatKey).isSome then x.formatKey else 0 }] := by
  unfold handleXf
  rw [decodeXf_record h]
  exact ⟨_, rfl, rfl⟩

/-- C35: nothing is left out: every byte string of the length of an XF record is one, for exactly one
combination of attributes. -/
theorem C35_every_record_is_covered (bv : Nat) (hbv : HasXf bv) (data : Bytes) (hl : xfLength bv ≤ data.length)
    (h21 : bv = 21 → data.length = 4) :
    ∃ x, XfRecord x bv data ∧ ∀ y, XfRecord y bv data → { y with xfIndex := 0 } = { x with xfIndex := 0 } := by
  have hex : ∃ x, XfRecord x bv data := by
    unfold HasXf at hbv
    simp only [List.mem_cons, List.not_mem_nil, or_false] at hbv
    rcases hbv with rfl | rfl | rfl | rfl | rfl | rfl | rfl
    · exact cover8 data hl
    · exact cover5 70 (by decide) data hl
    · exact cover5 50 (by decide) data hl
    · exact cover4 45 (by decide) data hl
    · exact cover4 40 (by decide) data hl
    · exact cover3 data hl
    · exact cover2 data (h21 rfl)
  obtain ⟨x, hx⟩ := hex
  refine ⟨x, hx, fun y hy => ?_⟩
  have e1 := decodeXf_record hx
  have e2 := decodeXf_record hy
  rw [e1] at e2
  exact (Except.ok.inj e2).symm

theorem slice_short {data : Bytes} {n : Nat} (h : data.length < n) : unpackN n (slice data 0 (n : Int)) = .error .struct := by
  unfold unpackN slice
  rw [if_neg]
  have : ((data.take (clampIdx data.length (n : Int))).drop (clampIdx data.length 0)).length ≤ data.length := by
    simp only [List.length_drop, List.length_take]; omega
  omega

/-- C35: shorter records are refused with `struct.error`. -/
theorem C35_short_record (bv : Nat) (hbv : HasXf bv) (fi : Bool) (st : FmtSt) (data : Bytes) (hl : data.length < xfLength bv) :
    handleXf bv fi st data = .error .struct := by
  have hd : decodeXf bv data = .error .struct := by
    unfold HasXf at hbv
    simp only [List.mem_cons, List.not_mem_nil, or_false] at hbv
    unfold decodeXf
    rcases hbv with rfl | rfl | rfl | rfl | rfl | rfl | rfl
    · have := slice_short (n := 20) hl
      simp only [Nat.cast_ofNat] at this
      simp only [decodeXf80, this]; rfl
    · have := slice_short (n := 16) hl
      simp only [Nat.cast_ofNat] at this
      simp only [decodeXf50, this]; rfl
    · have := slice_short (n := 16) hl
      simp only [Nat.cast_ofNat] at this
      simp only [decodeXf50, this]; rfl
    · have := slice_short (n := 12) hl
      simp only [Nat.cast_ofNat] at this
      simp only [decodeXf40, this]; rfl
    · have := slice_short (n := 12) hl
      simp only [Nat.cast_ofNat] at this
      simp only [decodeXf40, this]; rfl
    · have := slice_short (n := 12) hl
      simp only [Nat.cast_ofNat] at this
      simp only [decodeXf30, this]; rfl
    · have h4 : ¬ data.length = 4 := by
        simp only [xfLength] at hl
        norm_num at hl
        omega
      simp only [decodeXf21, unpackN, if_neg h4]; rfl
  unfold handleXf
  rw [hd]
  rfl

/-- An XF with font 6, format 14, bottom border and a blue background, in a BIFF8 file. -/
def sampleXf : XF :=
  { fontIndex := 6, formatKey := 14, parentStyleIndex := 3, cellLocked := 1, horAlign := 2, vertAlign := 1, rotation := 45,
    indentLevel := 3, bottomLineStyle := 5, bottomColourIndex := 64, fillPattern := 1, patternColourIndex := 12,
    backgroundColourIndex := 65, borderFlag := 1, backgroundFlag := 1, diagUp := 1, diagColourIndex := 10 }

example : XfRecord sampleXf 80 (leBytes 20 (packFields (xfFields8 sampleXf (0, 0, 0, 0, 0))) ++ [1, 2]) :=
  .biff8 (0, 0, 0, 0, 0) [1, 2] (by unfold FieldsFit; decide)

example : (handleXf 80 true {} (leBytes 20 (packFields (xfFields8 sampleXf (0, 0, 0, 0, 0))))).map (fun s => s.xfList) =
    .ok [sampleXf] := by decide +kernel

/-! ## C37 -/

/-- C37: without formatting information the map is empty; with it, before any PALETTE record, it holds the
fixed colours, the default palette and the magic indexes, and nothing else. -/
theorem C37_initial_colour_map (bv : Nat) (dflt : List Rgb) (hd : defaultPalette bv = .ok dflt) (fi : Bool) (st : FmtSt) :
    ∃ st', initialiseColourMap bv fi st = .ok st' ∧
      ∀ i, itemsGet st'.colourMap i = if fi then ColourAt dflt [] i else none := by
  cases fi with
  | false => exact ⟨_, rfl, fun i => rfl⟩
  | true =>
    have : ∃ st', initialiseColourMap bv true st = .ok st' := by
      unfold initialiseColourMap
      simp only [Bool.not_true, Bool.false_eq_true, if_false, hd, bind, Except.bind, pure, Except.pure]
      exact ⟨_, rfl⟩
    obtain ⟨st', h⟩ := this
    exact ⟨st', h, fun i => by rw [if_pos rfl]; exact initial_colour_map hd st st' h i⟩

theorem encPalette_colours (cs : List (Rgb × Nat)) (tail : Bytes) (hc : ∀ c ∈ cs, IsRgb c.1 ∧ c.2 < 256) : ∀ (pre : Bytes),
    ((List.range cs.length).map fun i => fld (pre ++ cs.flatMap (fun c => encColour c.1 c.2) ++ tail) (pre.length + 4 * i) 4).map paletteRgb
      = cs.map Prod.fst := by
  induction cs with
  | nil => intro pre; rfl
  | cons c cs ih =>
    intro pre
    have ih := ih (fun c hm => hc c (List.mem_cons_of_mem _ hm)) (pre ++ encColour c.1 c.2)
    obtain ⟨⟨h1, h2, h3⟩, h4⟩ := hc c (List.mem_cons_self ..)
    rw [List.length_cons, List.range_succ_eq_map]
    simp only [List.map_cons, List.map_map, List.flatMap_cons]
    have hl : (encColour c.1 c.2).length = 4 := rfl
    congr 1
    · have e : fld (pre ++ (encColour c.1 c.2 ++ cs.flatMap fun c => encColour c.1 c.2) ++ tail) (pre.length + 4 * 0) 4 =
          c.1.1 + 256 * (c.1.2.1 + 256 * (c.1.2.2 + 256 * c.2)) := by
        unfold fld
        rw [Nat.mul_zero, Nat.add_zero, List.append_assoc, List.drop_left', List.append_assoc, List.take_left' (by rfl)]
        · simp only [encColour, le, u8_toNat_ofNat]
          rw [Nat.mod_eq_of_lt h1, Nat.mod_eq_of_lt h2, Nat.mod_eq_of_lt h3, Nat.mod_eq_of_lt h4]
          omega
        · rfl
      rw [e]
      obtain ⟨⟨a, b, d⟩, u⟩ := c
      simp only at h1 h2 h3 h4 ⊢
      unfold paletteRgb
      have m : ∀ n : Nat, n &&& 0xff = n % 256 := fun n => Nat.and_two_pow_sub_one_eq_mod n 8
      simp only [m, Nat.shiftRight_eq_div_pow]
      refine Prod.ext ?_ (Prod.ext ?_ ?_) <;> simp only <;> omega
    · rw [List.map_map] at ih
      refine Eq.trans ?_ ih
      apply List.map_congr_left
      intro i _
      simp only [Function.comp, List.length_append, hl]
      congr 2
      · simp [List.append_assoc]
      · omega

/-- C37: a PALETTE record with the colours `cs` (the first one in the file) makes the map report these
colours from index 8 on; everything else keeps its default.  The order of the map does not change.  More
colours than the map has places for are refused with KeyError. -/
theorem C37_palette (dflt : List Rgb) (bv : Nat) (hd : defaultPalette bv = .ok dflt) (st : FmtSt) (hp : st.paletteRecord = [])
    (hm : ∀ i, itemsGet st.colourMap i = ColourAt dflt [] i) (cs : List (Rgb × Nat)) (hc : ∀ c ∈ cs, IsRgb c.1 ∧ c.2 < 256)
    (hn : cs.length < 65536) (tail : Bytes) (ht : tail.length ≤ 4) :
    if cs.length ≤ dflt.length + 2 then
      ∃ st', handlePalette true st (encPalette cs tail) = .ok st' ∧ st'.paletteRecord = cs.map Prod.fst ∧
        st'.colourMap.map Prod.fst = st.colourMap.map Prod.fst ∧
        (∀ i, itemsGet st'.colourMap i = ColourAt dflt (cs.map Prod.fst) i) ∧
        st' = { st with paletteRecord := st'.paletteRecord, colourMap := st'.colourMap }
    else handlePalette true st (encPalette cs tail) = .error .key := by
  have hlen : (cs.flatMap fun c => encColour c.1 c.2).length = 4 * cs.length := by
    clear hn hc
    induction cs with
    | nil => rfl
    | cons c cs ih =>
      have hl : (encColour c.1 c.2).length = 4 := rfl
      simp only [List.flatMap_cons, List.length_append, ih, List.length_cons, hl]; omega
  have hcol : ((List.range cs.length).map fun i => fld (encPalette cs tail) (2 + 4 * i) 4).map paletteRgb = cs.map Prod.fst :=
    encPalette_colours cs tail hc (le16 cs.length)
  have hloop := palette_loop (defaultPalette_length hd) ((List.range cs.length).map fun i => fld (encPalette cs tail) (2 + 4 * i) 4) st [] hm hp
    (by simp)
  have heq : handlePalette true st (encPalette cs tail) = paletteLoop st 0 ((List.range cs.length).map fun i => fld (encPalette cs tail) (2 + 4 * i) 4) := by
    unfold handlePalette
    have hs : sliceTo (encPalette cs tail) 2 = le16 cs.length := by
      unfold encPalette
      rw [List.append_assoc]
      rfl
    have hh : unpackH (le16 cs.length) = .ok cs.length := by
      have := le_le16 cs.length hn []
      unfold unpackH unpackN
      rw [if_pos (by rfl)]
      simp only [bind, Except.bind, pure, Except.pure, fld, List.drop_zero]
      rw [List.append_nil] at this
      rw [this]
    simp only [Bool.not_true, Bool.false_eq_true, if_false, hs, hh, bind, Except.bind]
    have hL : (encPalette cs tail).length = 2 + 4 * cs.length + tail.length := by
      unfold encPalette
      simp only [List.length_append, hlen]
      rfl
    rw [if_neg (by rw [hL]; omega), hp]
    rfl
  rw [heq]
  simp only [List.length_nil, Nat.zero_add, List.nil_append, List.length_map, List.length_range, hcol] at hloop
  by_cases hle : cs.length ≤ dflt.length + 2
  · rw [if_pos hle] at hloop ⊢
    obtain ⟨st', h1, h2, h3, h4, h5⟩ := hloop
    exact ⟨st', h1, h2, h3, h5, h4⟩
  · rw [if_neg hle] at hloop ⊢
    exact hloop

/-- C37: without formatting information PALETTE records are ignored. -/
theorem C37_palette_ignored (st : FmtSt) (data : Bytes) : handlePalette false st data = .ok st := rfl

example : ((initialiseColourMap 80 true {}).bind fun st => handlePalette true st (encPalette [((1, 2, 3), 0), ((4, 5, 6), 9)] [7])).map
    (fun st => [7, 8, 9, 10, 64, 65, 66, 0x51, 0x7fff].map (itemsGet st.colourMap)) =
    .ok [some (some (0, 255, 255)), some (some (1, 2, 3)), some (some (4, 5, 6)), some (some (255, 0, 0)), some none, some none, none,
      some none, some none] := by decide +kernel

/-! ## C38 -/

/-- C38: if the map has any colour, the result is the index of an entry whose colour is at least as near as
every other, and strictly nearer than all entries before it. -/
theorem C38_nearest (m : List (Nat × Option Rgb)) (rgb : Rgb) (hr : IsRgb rgb) (hm : ∀ k c, (k, some c) ∈ m → IsRgb c)
    (k₀ : Nat) (c₀ : Rgb) (h0 : (k₀, some c₀) ∈ m) :
    ∃ (pre post : List (Nat × Option Rgb)) (c : Rgb), m = pre ++ (nearestColourIndex m rgb, some c) :: post ∧
      (∀ k' c', (k', some c') ∈ pre → sqDist rgb c < sqDist rgb c') ∧
      (∀ k' c', (k', some c') ∈ post → sqDist rgb c ≤ sqDist rgb c') := by
  unfold nearestColourIndex
  rcases nearest_loop rgb m (3 * 256 * 256) 0 with ⟨h1, _⟩ | ⟨pre, post, k, c, h1, _, h3, h4, h5⟩
  · have := h1 k₀ c₀ h0
    have := sqDist_lt hr (hm k₀ c₀ h0)
    omega
  · exact ⟨pre, post, c, by rw [h5]; exact h1, h3, h4⟩

/-- C38: with no colour in the map the result is 0. -/
theorem C38_no_colours (m : List (Nat × Option Rgb)) (rgb : Rgb) (hm : ∀ k c, (k, some c) ∉ m) : nearestColourIndex m rgb = 0 := by
  unfold nearestColourIndex
  rcases nearest_loop rgb m (3 * 256 * 256) 0 with ⟨_, h⟩ | ⟨pre, post, k, c, h1, _⟩
  · exact h
  · exact absurd (by rw [h1]; simp) (hm k c)

theorem first_is_lowest {m pre post : List (Nat × Option Rgb)} {k : Nat} {c : Rgb} (hs : (m.map Prod.fst).Pairwise (· < ·))
    (h : m = pre ++ (k, some c) :: post) (k' : Nat) (c' : Rgb) (hm : (k', some c') ∈ m) (hlt : k' < k) : (k', some c') ∈ pre := by
  rw [h] at hm
  rcases List.mem_append.mp hm with hm | hm
  · exact hm
  · exfalso
    rw [h, List.map_append, List.map_cons, List.pairwise_append] at hs
    rcases List.mem_cons.mp hm with hm | hm
    · cases hm; omega
    · have := (List.pairwise_cons.mp hs.2.1).1 k' (List.mem_map.mpr ⟨_, hm, rfl⟩)
      simp only at this
      omega

/-- C38 in the property's own words, for a map whose indexes are in ascending order (as every book's
are): the result is the lowest index among those with minimal distance. -/
theorem C38_lowest_index (m : List (Nat × Option Rgb)) (hs : (m.map Prod.fst).Pairwise (· < ·)) (rgb : Rgb) (hr : IsRgb rgb)
    (hm : ∀ k c, (k, some c) ∈ m → IsRgb c) (k₀ : Nat) (c₀ : Rgb) (h0 : (k₀, some c₀) ∈ m) :
    ∃ c, (nearestColourIndex m rgb, some c) ∈ m ∧
      ∀ k' c', (k', some c') ∈ m → sqDist rgb c ≤ sqDist rgb c' ∧ (k' < nearestColourIndex m rgb → sqDist rgb c < sqDist rgb c') := by
  obtain ⟨pre, post, c, h1, h2, h3⟩ := C38_nearest m rgb hr hm k₀ c₀ h0
  refine ⟨c, ?_, ?_⟩
  · generalize nearestColourIndex m rgb = k at h1
    rw [h1]; simp
  · intro k' c' hk
    refine ⟨?_, fun hlt => h2 k' c' (first_is_lowest hs h1 k' c' hk hlt)⟩
    have hk' := hk
    rw [h1] at hk'
    rcases List.mem_append.mp hk' with hk' | hk'
    · exact Int.le_of_lt (h2 k' c' hk')
    · rcases List.mem_cons.mp hk' with hk' | hk'
      · cases hk'; exact Int.le_refl _
      · exact h3 k' c' hk'

/-- The keys of the initial map are in ascending order; PALETTE records keep them (`C37_palette`). -/
theorem C38_maps_are_ascending (bv : Nat) (st st' : FmtSt) (h : initialiseColourMap bv true st = .ok st') :
    (st'.colourMap.map Prod.fst).Pairwise (· < ·) ∧ ∀ k c, (k, some c) ∈ st'.colourMap → IsRgb c := by
  have key : ∀ dflt, defaultPalette bv = .ok dflt →
      (dflt = excelDefaultPaletteB8 ∨ dflt = excelDefaultPaletteB5 ∨ dflt = excelDefaultPaletteB2) := by
    intro dflt hd
    unfold defaultPalette at hd
    by_cases h1 : bv = 80
    · rw [if_pos h1] at hd; cases hd; exact Or.inl rfl
    · rw [if_neg h1] at hd
      by_cases h2 : bv = 70 ∨ bv = 50
      · rw [if_pos h2] at hd; cases hd; exact Or.inr (Or.inl rfl)
      · rw [if_neg h2] at hd
        by_cases h3 : bv = 45 ∨ bv = 40 ∨ bv = 30 ∨ bv = 21 ∨ bv = 20
        · rw [if_pos h3] at hd; cases hd; exact Or.inr (Or.inr rfl)
        · rw [if_neg h3] at hd; cases hd
  unfold initialiseColourMap at h
  simp only [Bool.not_true, Bool.false_eq_true, if_false, bind, Except.bind, pure, Except.pure] at h
  cases hd : defaultPalette bv with
  | error e => rw [hd] at h; cases h
  | ok dflt =>
    rw [hd] at h
    simp only [Except.ok.injEq] at h
    subst h
    simp only
    have big : ∀ m : List (Nat × Option Rgb), (decide ((m.map Prod.fst).Pairwise (· < ·)) && m.all fun p => match p.2 with
        | none => true
        | some c => decide (c.1 < 256 ∧ c.2.1 < 256 ∧ c.2.2 < 256)) = true →
        (m.map Prod.fst).Pairwise (· < ·) ∧ ∀ k c, (k, some c) ∈ m → IsRgb c := by
      intro m hm
      rw [Bool.and_eq_true] at hm
      refine ⟨of_decide_eq_true hm.1, fun k c hk => ?_⟩
      have := List.all_eq_true.mp hm.2 (k, some c) hk
      exact of_decide_eq_true (p := c.1 < 256 ∧ c.2.1 < 256 ∧ c.2.2 < 256) this
    apply big
    rcases key dflt hd with rfl | rfl | rfl <;> decide +kernel

example : (initialiseColourMap 80 true {}).map (fun st => nearestColourIndex st.colourMap (250, 250, 3)) = .ok 5 := by decide +kernel
example : IsRgb (250, 250, 3) := by unfold IsRgb; decide

end Xlrd
