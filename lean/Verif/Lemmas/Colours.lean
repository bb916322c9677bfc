import Verif.Lemmas.Formatting
import Verif.Spec.FormatRecords
import Mathlib.Tactic.Ring
import Mathlib.Tactic.Linarith

/-!
# Colour maps
-/
set_option linter.unusedSimpArgs false
namespace Xlrd
open Spec

variable {α β : Type}

theorem itemsGet_set (d : List (Nat × α)) (k i : Nat) (v : α) :
    itemsGet (itemsSet d k v) i = if i = k then some v else itemsGet d i := by
  induction d with
  | nil =>
    simp only [itemsSet, itemsGet]
    by_cases h : i = k
    · simp [h]
    · rw [if_neg h, if_neg (fun e => h e.symm)]
  | cons p d ih =>
    obtain ⟨k', v'⟩ := p
    simp only [itemsSet]
    by_cases h : k' = k
    · rw [if_pos h]
      subst h
      simp only [itemsGet]
      by_cases h2 : k' = i
      · simp [h2]
      · rw [if_neg h2, if_neg h2, if_neg (fun h => h2 h.symm)]
    · rw [if_neg h]
      simp only [itemsGet, ih]
      by_cases h2 : k' = i
      · rw [if_pos h2, if_pos h2, if_neg (by omega)]
      · rw [if_neg h2, if_neg h2]

theorem itemsGet_setFrom (f : β → α) (l : List β) : ∀ (d : List (Nat × α)) (off i : Nat),
    itemsGet (itemsSetFrom f d off l) i =
      if off ≤ i ∧ i < off + l.length then (l[i - off]?).map f else itemsGet d i := by
  induction l with
  | nil => intro d off i; simp only [itemsSetFrom, List.length_nil]; rw [if_neg (by omega)]
  | cons x xs ih =>
    intro d off i
    simp only [itemsSetFrom, ih, itemsGet_set, List.length_cons]
    by_cases h : off + 1 ≤ i ∧ i < off + 1 + xs.length
    · rw [if_pos h, if_pos (by omega), show i - off = (i - (off + 1)) + 1 by omega, List.getElem?_cons_succ]
    · rw [if_neg h]
      by_cases h2 : i = off
      · subst h2; rw [if_pos rfl, if_pos (by omega)]; simp
      · rw [if_neg h2, if_neg (by omega)]

/-- The keys of a map, in their order. -/
theorem itemsSet_keys (d : List (Nat × α)) (k : Nat) (v : α) :
    (itemsSet d k v).map Prod.fst = if k ∈ d.map Prod.fst then d.map Prod.fst else d.map Prod.fst ++ [k] := by
  induction d with
  | nil => simp [itemsSet]
  | cons p d ih =>
    obtain ⟨k', v'⟩ := p
    simp only [itemsSet]
    by_cases h : k' = k
    · rw [if_pos h]; subst h; simp
    · rw [if_neg h]
      simp only [List.map_cons, ih, List.mem_cons]
      by_cases h2 : k ∈ d.map Prod.fst
      · rw [if_pos h2, if_pos (Or.inr h2)]
      · rw [if_neg h2, if_neg (by rintro (h3 | h3); exacts [h h3.symm, h2 h3])]
        rfl

theorem itemsGet_mem_iff (d : List (Nat × α)) (k : Nat) : (itemsGet d k).isSome ↔ k ∈ d.map Prod.fst := by
  induction d with
  | nil => simp [itemsGet]
  | cons p d ih =>
    obtain ⟨k', v'⟩ := p
    simp only [itemsGet, List.map_cons, List.mem_cons]
    by_cases h : k' = k
    · simp [h]
    · rw [if_neg h, ih]; constructor
      · exact Or.inr
      · rintro (h2 | h2); exacts [absurd h2.symm h, h2]

/-- The default palettes have the documented lengths. -/
theorem defaultPalette_length {bv : Nat} {p : List Rgb} (h : defaultPalette bv = .ok p) : p.length = 56 ∨ p.length = 16 := by
  unfold defaultPalette at h
  by_cases h1 : bv = 80
  · rw [if_pos h1] at h; cases h; left; rfl
  · rw [if_neg h1] at h
    by_cases h2 : bv = 70 ∨ bv = 50
    · rw [if_pos h2] at h; cases h; left; rfl
    · rw [if_neg h2] at h
      by_cases h3 : bv = 45 ∨ bv = 40 ∨ bv = 30 ∨ bv = 21 ∨ bv = 20
      · rw [if_pos h3] at h; cases h; right; rfl
      · rw [if_neg h3] at h; cases h

theorem fixed_eq : sliceTo excelDefaultPaletteB8 8 = fixedColours := by decide

theorem initial_colour_map {bv : Nat} {dflt : List Rgb} (hd : defaultPalette bv = .ok dflt) (st st' : FmtSt)
    (h : initialiseColourMap bv true st = .ok st') (i : Nat) : itemsGet st'.colourMap i = ColourAt dflt [] i := by
  have hlen := defaultPalette_length hd
  unfold initialiseColourMap at h
  simp only [Bool.not_true, Bool.false_eq_true, if_false, hd, bind, Except.bind, pure, Except.pure, Except.ok.injEq, fixed_eq] at h
  subst h
  simp only [itemsGet_set, itemsGet_setFrom, ColourAt, List.length_nil, itemsGet]
  have hf : fixedColours.length = 8 := rfl
  rw [hf]
  by_cases h8 : i < 8
  · rw [if_neg (by omega), if_neg (by omega), if_neg (by omega), if_neg (by omega), if_neg (by omega), if_pos (by omega), if_pos h8,
      Nat.sub_zero, List.getElem?_eq_getElem (by rw [hf]; exact h8)]
    rfl
  · have h0 : ¬ (i - 8 < 0) := by omega
    rw [if_neg h8, if_neg h0]
    by_cases hd : i - 8 < dflt.length
    · rw [if_neg (by omega), if_neg (by omega), if_neg (by omega), if_neg (by omega), if_pos (by omega), if_pos hd, List.getElem?_eq_getElem hd]
      rfl
    · rw [if_neg hd]
      by_cases hm : i - 8 = dflt.length ∨ i - 8 = dflt.length + 1 ∨ i = 0x51 ∨ i = 0x7fff
      · rw [if_pos hm]
        by_cases m1 : i = 0x7fff
        · rw [if_pos m1]
        · rw [if_neg m1]
          by_cases m2 : i = 0x51
          · rw [if_pos m2]
          · rw [if_neg m2]
            by_cases m3 : i = dflt.length + 8 + 1
            · rw [if_pos m3]
            · rw [if_neg m3, if_pos (by omega)]
      · rw [if_neg hm, if_neg (by omega), if_neg (by omega), if_neg (by omega), if_neg (by omega), if_neg (by omega), if_neg (by omega)]

/-- The loop over the colours of a PALETTE record. -/
theorem palette_loop {dflt : List Rgb} (hlen : dflt.length = 56 ∨ dflt.length = 16) (cs : List Nat) : ∀ (st : FmtSt) (pal : List Rgb),
    (∀ i, itemsGet st.colourMap i = ColourAt dflt pal i) → st.paletteRecord = pal → pal.length ≤ dflt.length + 2 →
    if pal.length + cs.length ≤ dflt.length + 2 then
      ∃ st', paletteLoop st pal.length cs = .ok st' ∧ st'.paletteRecord = pal ++ cs.map paletteRgb ∧
        st'.colourMap.map Prod.fst = st.colourMap.map Prod.fst ∧
        st' = { st with paletteRecord := st'.paletteRecord, colourMap := st'.colourMap } ∧
        ∀ i, itemsGet st'.colourMap i = ColourAt dflt (pal ++ cs.map paletteRgb) i
    else paletteLoop st pal.length cs = .error .key := by
  induction cs with
  | nil =>
    intro st pal hm hp hl
    rw [if_pos (by simpa using hl)]
    exact ⟨st, rfl, by simp [hp], rfl, rfl, by simpa using hm⟩
  | cons c cs ih =>
    intro st pal hm hp hl
    simp only [paletteLoop, List.length_cons]
    rw [hm (8 + pal.length)]
    by_cases hk : pal.length + 1 ≤ dflt.length + 2
    · have hs : ∃ v, ColourAt dflt pal (8 + pal.length) = some v := by
        unfold ColourAt
        rw [if_neg (by omega), if_neg (by omega)]
        by_cases h1 : 8 + pal.length - 8 < dflt.length
        · rw [if_pos h1]; exact ⟨_, rfl⟩
        · rw [if_neg h1, if_pos (by omega)]; exact ⟨_, rfl⟩
      obtain ⟨v, hv⟩ := hs
      rw [hv]
      simp only
      have := ih { st with paletteRecord := st.paletteRecord ++ [paletteRgb c],
                           colourMap := itemsSet st.colourMap (8 + pal.length) (some (paletteRgb c)) } (pal ++ [paletteRgb c])
        (by
          intro i
          simp only [itemsGet_set, hm]
          unfold ColourAt
          by_cases h : i = 8 + pal.length
          · rw [if_pos h, if_neg (by omega), if_pos (by simp; omega), h, Nat.add_sub_cancel_left]
            simp
          · rw [if_neg h]
            by_cases h8 : i < 8
            · rw [if_pos h8, if_pos h8]
            · rw [if_neg h8, if_neg h8]
              by_cases h2 : i - 8 < pal.length
              · rw [if_pos h2, if_pos (by simp; omega), List.getElem?_append_left h2]
              · have h3 : ¬ i - 8 < (pal ++ [paletteRgb c]).length := by simp; omega
                rw [if_neg h2, if_neg h3])
        (by simp [hp]) (by simpa using hk)
      simp only [List.length_append, List.length_singleton, List.append_assoc, List.singleton_append] at this
      rw [show pal.length + (cs.length + 1) = pal.length + 1 + cs.length by omega]
      by_cases hle : pal.length + 1 + cs.length ≤ dflt.length + 2
      · rw [if_pos hle] at this ⊢
        obtain ⟨st', h1, h2, h3, h4, h5⟩ := this
        refine ⟨st', h1, by simpa using h2, ?_, ?_, by simpa using h5⟩
        · rw [h3, itemsSet_keys, if_pos]
          rw [← itemsGet_mem_iff, hm, hv]; rfl
        · rw [h4]
      · rw [if_neg hle] at this ⊢
        exact this
    · rw [if_neg (by omega)]
      have hs : ColourAt dflt pal (8 + pal.length) = none := by
        unfold ColourAt
        rw [if_neg (by omega), if_neg (by omega), if_neg (by omega), if_neg (by omega)]
      rw [hs]

theorem metric_eq (a b : Rgb) : rgbMetric a b = sqDist a b := by unfold rgbMetric sqDist; ring

theorem sqDist_nonneg (a b : Rgb) : 0 ≤ sqDist a b := by unfold sqDist; positivity

theorem sqDist_lt {a b : Rgb} (ha : IsRgb a) (hb : IsRgb b) : sqDist a b < 3 * 256 * 256 := by
  obtain ⟨a1, a2, a3⟩ := a
  obtain ⟨b1, b2, b3⟩ := b
  obtain ⟨h1, h2, h3⟩ := ha
  obtain ⟨g1, g2, g3⟩ := hb
  simp only at h1 h2 h3 g1 g2 g3
  have sq : ∀ x y : Nat, x < 256 → y < 256 → ((x : Int) - y) ^ 2 ≤ 255 * 255 := by
    intro x y hx hy
    have l1 : -(255 : Int) ≤ (x : Int) - y := by omega
    have l2 : (x : Int) - y ≤ 255 := by omega
    nlinarith
  have := sq a1 b1 h1 g1
  have := sq a2 b2 h2 g2
  have := sq a3 b3 h3 g3
  unfold sqDist
  simp only
  omega

/-- The loop: either nothing beats the best so far, or the result is the first entry with the least distance. -/
theorem nearest_loop (rgb : Rgb) (m : List (Nat × Option Rgb)) : ∀ (bm : Int) (best : Nat),
    ((∀ k c, (k, some c) ∈ m → bm ≤ sqDist rgb c) ∧ nearestLoop rgb m bm best = best) ∨
    ∃ (pre post : List (Nat × Option Rgb)) (k : Nat) (c : Rgb), m = pre ++ (k, some c) :: post ∧ sqDist rgb c < bm ∧
      (∀ k' c', (k', some c') ∈ pre → sqDist rgb c < sqDist rgb c') ∧ (∀ k' c', (k', some c') ∈ post → sqDist rgb c ≤ sqDist rgb c') ∧
      nearestLoop rgb m bm best = k := by
  induction m with
  | nil => intro bm best; left; exact ⟨by simp, rfl⟩
  | cons p m ih =>
    intro bm best
    obtain ⟨k, o⟩ := p
    cases o with
    | none =>
      simp only [nearestLoop]
      rcases ih bm best with ⟨h1, h2⟩ | ⟨pre, post, k', c, h1, h2, h3, h4, h5⟩
      · left; refine ⟨?_, h2⟩
        intro k' c hm
        rcases List.mem_cons.mp hm with hm | hm
        · cases hm
        · exact h1 k' c hm
      · right
        refine ⟨(k, none) :: pre, post, k', c, by rw [h1]; rfl, h2, ?_, h4, h5⟩
        intro k'' c'' hm
        rcases List.mem_cons.mp hm with hm | hm
        · cases hm
        · exact h3 k'' c'' hm
    | some c =>
      simp only [nearestLoop, metric_eq]
      by_cases hlt : sqDist rgb c < bm
      · rw [if_pos hlt]
        by_cases h0 : sqDist rgb c = 0
        · rw [if_pos h0]
          right
          refine ⟨[], m, k, c, rfl, hlt, by simp, ?_, rfl⟩
          intro k' c' _; rw [h0]; exact sqDist_nonneg _ _
        · rw [if_neg h0]
          right
          rcases ih (sqDist rgb c) k with ⟨h1, h2⟩ | ⟨pre, post, k', c', h1, h2, h3, h4, h5⟩
          · exact ⟨[], m, k, c, rfl, hlt, by simp, h1, h2⟩
          · refine ⟨(k, some c) :: pre, post, k', c', by rw [h1]; rfl, by omega, ?_, h4, h5⟩
            intro k'' c'' hm
            rcases List.mem_cons.mp hm with hm | hm
            · cases hm; exact h2
            · exact h3 k'' c'' hm
      · rw [if_neg hlt]
        rcases ih bm best with ⟨h1, h2⟩ | ⟨pre, post, k', c', h1, h2, h3, h4, h5⟩
        · left; refine ⟨?_, h2⟩
          intro k' c' hm
          rcases List.mem_cons.mp hm with hm | hm
          · cases hm; omega
          · exact h1 k' c' hm
        · right
          refine ⟨(k, some c) :: pre, post, k', c', by rw [h1]; rfl, h2, ?_, h4, h5⟩
          intro k'' c'' hm
          rcases List.mem_cons.mp hm with hm | hm
          · cases hm; omega
          · exact h3 k'' c'' hm

end Xlrd
