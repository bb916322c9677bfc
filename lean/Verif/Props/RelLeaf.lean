import Verif.Props.RelNameText

/-! # Relative references in the texts of formulas of names (C50 and C89)

In the formula of a name there is no base cell, so the texts of relative references are in the R1C1 style, like `'it''s'!R[-1]C[1]:R5C`.  They are
leaves of the grammar of formulas, so that the theorems about the texts of formulas hold for formulas of names with relative references. -/

set_option linter.unusedSimpArgs false

namespace Xlrd
open Spec

/-- A text that continues a word. -/
def Continues (t : PyStr) : Prop :=
  ∀ w, wantsSign w = false → readChars (.word w) t = ([], .word (t.reverse ++ w)) ∧ wantsSign (t.reverse ++ w) = false

theorem continues_nil : Continues [] := fun _ h => ⟨rfl, h⟩

theorem Continues.append {s t : PyStr} (hs : Continues s) (ht : Continues t) : Continues (s ++ t) := by
  intro w hw
  obtain ⟨h1, h2⟩ := hs w hw
  obtain ⟨h3, h4⟩ := ht _ h2
  rw [readChars_append, h1]
  simp only
  rw [h3]
  simp only [List.reverse_append, List.append_assoc, List.nil_append]
  exact ⟨trivial, h4⟩

theorem continues_chars {s : PyStr} (h : ∀ c ∈ s, wordChar c = true) : Continues s := by
  intro w hw
  refine ⟨word_chars s w h hw, ?_⟩
  cases hr : s.reverse with
  | nil => exact hw
  | cons c t => exact wantsSign_head _ (wordChar_facts (h c (by rw [← List.mem_reverse, hr]; exact List.mem_cons_self ..))).2.2.2.2.2.2

theorem bracket_chars : ∀ (s w : PyStr), ']' ∉ s → readChars (.bracket w) (s ++ [']']) = ([], .word (']' :: (s.reverse ++ w))) := by
  intro s
  induction s with
  | nil => intro w _; simp [readChars, readChar]
  | cons c s ih =>
    intro w h
    have hc : c ≠ ']' := fun e => h (by rw [e]; exact List.mem_cons_self ..)
    rw [List.cons_append, readChars]
    have hr : readChar (.bracket w) c = ([], .bracket (c :: w)) := by simp [readChar, hc]
    rw [hr]
    simp only
    rw [ih (c :: w) (fun hm => h (List.mem_cons_of_mem _ hm))]
    simp

theorem continues_bracket {s : PyStr} (h : ']' ∉ s) : Continues ('[' :: (s ++ [']'])) := by
  intro w hw
  constructor
  · rw [readChars]
    have hr : readChar (.word w) '[' = ([], .bracket ('[' :: w)) := by
      simp [readChar, hw, symOf, inWord]
    rw [hr]
    simp only
    rw [bracket_chars s _ h]
    simp
  · simp only [List.reverse_cons, List.reverse_append, List.reverse_nil, List.nil_append, List.cons_append]
    exact wantsSign_head _ (by decide)

theorem continues_coord {b : Bool} {k : Int} (h : b = false → 0 ≤ k) : Continues (coordText b k) := by
  unfold coordText
  cases b with
  | true =>
    rw [if_pos rfl]
    by_cases hk : k = 0
    · rw [if_pos hk]; exact continues_nil
    · rw [if_neg hk]
      refine continues_bracket fun hm => ?_
      rcases intDec_mem hm with h | h <;> revert h <;> decide
  | false =>
    rw [if_neg (by decide)]
    obtain ⟨n, hn⟩ : ∃ n : Nat, k + 1 = (n : Int) := ⟨(k + 1).toNat, by have := h rfl; omega⟩
    rw [hn]
    refine continues_chars fun c hc => ?_
    have : isDig c = true := natDec_mem_dig (n := n) (by
      have e : intDec (n : Int) = natDec n := by simp [intDec, show ¬ ((n : Int) < 0) by omega]
      rw [← e]; exact hc)
    simp [wordChar, this]

/-- The text of a cell in the R1C1 style. -/
def rcText (r c : Coord) : PyStr := 'R' :: coordText r.isRel r.num ++ 'C' :: coordText c.isRel c.num

theorem continues_rc (r c : Coord) : Continues (rcText r c) := by
  have h1 : Continues ['R'] := continues_chars (by decide)
  have h2 : Continues ['C'] := continues_chars (by decide)
  have := (h1.append (continues_coord (coord_nonneg r))).append (h2.append (continues_coord (coord_nonneg c)))
  simpa [rcText] using this

theorem isWord_rc (r c : Coord) : IsWord (rcText r c) := by
  have h2 : Continues ['C'] := continues_chars (by decide)
  obtain ⟨h3, h4⟩ := ((continues_coord (coord_nonneg r)).append (h2.append (continues_coord (coord_nonneg c)))) ['R'] rfl
  refine ⟨by simp [rcText], ?_, ?_⟩
  · unfold rcText
    rw [List.cons_append, readChars]
    have hr : readChar .gap 'R' = ([], .word ['R']) := by decide
    rw [hr]
    simp only
    rw [show coordText r.isRel r.num ++ 'C' :: coordText c.isRel c.num = coordText r.isRel r.num ++ (['C'] ++ coordText c.isRel c.num) from rfl, h3]
    simp
  · have : (rcText r c).reverse = (coordText r.isRel r.num ++ (['C'] ++ coordText c.isRel c.num)).reverse ++ ['R'] := by simp [rcText]
    rw [this]
    exact h4

theorem isWord_sheet_rc {n : PyStr} (hn : WordName n) (r c : Coord) : IsWord (quoteName n ++ '!' :: rcText r c) := by
  have hne : quoteName n ≠ [] := by
    unfold quoteName
    by_cases e1 : '\'' ∈ n
    · rw [if_pos e1]; simp
    · rw [if_neg e1]
      by_cases e2 : ' ' ∈ n
      · rw [if_pos e2]; simp
      · rw [if_neg e2]; exact hn.1
  have hex : ∀ w, readChars (.word w) ('!' :: rcText r c) = ([], .word (('!' :: rcText r c).reverse ++ w)) ∧ wantsSign (('!' :: rcText r c).reverse ++ w) = false := by
    intro w
    obtain ⟨h1, h2⟩ := continues_rc r c ('!' :: w) (wantsSign_head _ (by decide))
    rw [readChars]
    have hr : readChar (.word w) '!' = ([], .word ('!' :: w)) := by
      simp [readChar, symOf, inWord]
    rw [hr]
    simp only
    rw [h1]
    simp only [List.reverse_cons, List.append_assoc, List.cons_append, List.nil_append]
    exact ⟨trivial, h2⟩
  obtain ⟨h1, h2⟩ := hex (quoteName n).reverse
  refine ⟨by simp, ?_, ?_⟩
  · rw [readChars_append, quoteName_word hn]
    simp only
    rw [h1]
    simp
  · rw [List.reverse_append]
    exact h2

theorem readRC_rc (r c : Coord) : readRC (rcText r c) = some (r, c) := by
  unfold rcText
  rw [readRC_text r.isRel c.isRel r.num c.num (coord_nonneg r) (coord_nonneg c)]
  have e : ∀ x : Coord, coordOf x.isRel x.num = x := by
    intro x
    cases x <;> simp [coordOf, Coord.isRel, Coord.num]
  rw [e, e]

theorem readSheetRC_of {n s : PyStr} (hn : WordName n) {x : Coord × Coord} (h : readRC s = some x) : readSheetRC (quoteName n ++ '!' :: s) = some (n, x) := by
  have hs : readSheets (quoteName n ++ '!' :: s) = some ((n, n), s) := by
    unfold readSheets
    rw [scanSheet_quote n ('!' :: s) (wordName_clear hn) (.inr rfl)]
    rfl
  unfold readSheetRC
  rw [hs]
  simp [h]

/-- The text of a relative reference to an area of a sheet. -/
theorem relref_words (bk : Book) {x : Nat} {name : PyStr} (hn : bk.sheetNames[x]? = some name) (hw : WordName name) (r1 r2 c1 c2 : Coord) :
    ref3dOpnd bk 0 (mkRef3d ((x : Int), (x : Int)) (addrOf r1 c1) (addrOf r2 c2)) true none none true =
      .ok { kind := .relref, value := none, rank := 90, text := (quoteName name ++ '!' :: rcText r1 c1) ++ ':' :: rcText r2 c2 } := by
  have hne : quoteName name ≠ [] := by
    unfold quoteName
    by_cases e1 : '\'' ∈ name
    · rw [if_pos e1]; simp
    · rw [if_neg e1]
      by_cases e2 : ' ' ∈ name
      · rw [if_pos e2]; simp
      · rw [if_neg e2]; exact hw.1
  have text : ∀ (r c : Coord), cellnamerel r.num c.num r.isRel c.isRel none none true = .ok (rcText r c) := by
    intro r c
    unfold cellnamerel rcText
    cases hr : r.isRel <;> cases hc : c.isRel <;>
      simp [cellnameabs, coordText, hr, hc, rownamerel_r1c1, colnamerel_r1c1, bind, Except.bind, pure, Except.pure]
  unfold ref3dOpnd
  rw [if_pos rfl]
  simp only [mkRef3d, addrOf, List.getD_cons_zero, List.getD_cons_succ, rangename3drel, sheetrangerel, sheet_name hn, rangename2drel, Bool.true_or,
    Int.add_sub_cancel, text, bind, Except.bind, pure, Except.pure, Bool.or_false, Bool.false_or, Bool.false_eq_true, if_false, if_neg hne]
  simp [hne, LEAF_RANK]

/-- **C50** (names).  In the formula of a name, a reference to an area of a sheet with a relative bound is shown as the sheet and the first cell, a colon, and the
last cell, in the R1C1 style; the words for them read back as the stored coordinates. -/
theorem C50_leaf_offset_area (env : DEnv) (tab : List Int) (ht : szdict env.bv = .ok tab) (h50 : 50 ≤ env.bv) (cls : Cls) (sh : Bytes) (x : Nat)
    (hs : TokenSheets env sh x x) (name : PyStr) (hn : env.bk.sheetNames[x]? = some name) (hw : WordName name) (r1 r2 c1 c2 : Coord)
    (hf1 : AddrFits env.bv r1 c1) (hf2 : AddrFits env.bv r2 c2) (hrel : r1.isRel ∨ c1.isRel ∨ r2.isRel ∨ c2.isRel)
    (hd : env.reldelta = true) (hbr : env.browx = none) (hbc : env.bcolx = none) (hrc : env.r1c1 = true) :
    ∃ w w', AreaOk env tab (UInt8.ofNat (cls.code + 0x1B) :: (sh ++ encArea env.bv r1 r2 c1 c2)) w w' ∧
      readSheetRC w = some (name, r1, c1) ∧ readRC w' = some (r2, c2) := by
  refine ⟨quoteName name ++ '!' :: rcText r1 c1, rcText r2 c2, ⟨isWord_sheet_rc hw r1 c1, isWord_rc r2 c2, by simp, ?_⟩, readSheetRC_of hw (readRC_rc r1 c1),
    readRC_rc r2 c2⟩
  intro data post p n stk h
  refine ⟨.relref, by decide, ?_⟩
  have hp : p ≤ data.length := by
    by_contra hc
    rw [List.drop_eq_nil_of_le (by omega)] at h
    cases h
  have hg := C47_area_address env.bv r1 r2 c1 c2 hf1 hf2 none none (data.take p ++ UInt8.ofNat (cls.code + 0x1B) :: sh) post
  have hdata : data.take p ++ UInt8.ofNat (cls.code + 0x1B) :: sh ++ encArea env.bv r1 r2 c1 c2 ++ post = data := by
    conv_rhs => rw [← List.take_append_drop p data, h]
    simp
  rw [hdata] at hg
  rw [List.cons_append, List.append_assoc] at h
  have hsh := hs.2 data (encArea env.bv r1 r2 c1 c2 ++ post) p _ h
  obtain ⟨k1, k2⟩ := cls_byte cls 0x1B (by decide)
  have hsz : tab.getD (0x1B + 32) (-2) = ((1 + (sh ++ encArea env.bv r1 r2 c1 c2).length : Nat) : Int) := by
    rw [List.length_append, show encArea env.bv r1 r2 c1 c2 = encAreaRaw env.bv _ _ _ _ _ _ _ _ from rfl, encAreaRaw_length, hs.1, ((token_sizes3 ht).2 h50).2.2]
    by_cases hv : env.bv ≥ 80 <;> simp [hv]
  have hall : ((addrOf r1 c1).rowRel || (addrOf r1 c1).colRel || (addrOf r2 c2).rowRel || (addrOf r2 c2).colRel) = true := by
    simp only [addrOf]
    rcases hrel with e | e | e | e <;> simp [e]
  rw [step_class h k1 k2 (by rw [hsz]; omega)
    (s' := some { kind := .relref, rank := 90, text := (quoteName name ++ '!' :: rcText r1 c1) ++ ':' :: rcText r2 c2 } :: stk) ?_]
  · rw [hsz]
    refine congrArg Except.ok (Prod.ext rfl ?_)
    simp only [List.length_cons]
    push_cast; ring
  · have hpos : (if env.bv ≥ 80 then (p : Int) + 3 else (p : Int) + 15) = ((data.take p ++ UInt8.ofNat (cls.code + 0x1B) :: sh).length : Int) := by
      rw [List.length_append, List.length_take, Nat.min_eq_left hp, List.length_cons, hs.1]
      by_cases hv : env.bv ≥ 80 <;> simp [hv]
    show (do let o ← dArea3d env data (p : Int); pure (some o :: stk)) = _
    unfold dArea3d
    rw [hpos, hd, hg, hsh]
    simp only [bind, Except.bind]
    rw [hall, hbr, hbc, hrc, relref_words env.bk hn hw]
    rfl

theorem leaf_offset_cell (env : DEnv) (tab : List Int) (ht : szdict env.bv = .ok tab) (h50 : 50 ≤ env.bv) (cls : Cls) (sh : Bytes) (x : Nat)
    (hs : TokenSheets env sh x x) (name : PyStr) (hn : env.bk.sheetNames[x]? = some name) (hw : WordName name) (r c : Coord)
    (hf : AddrFits env.bv r c) (hrel : r.isRel ∨ c.isRel) (hd : env.reldelta = true) (hbr : env.browx = none) (hbc : env.bcolx = none) (hrc : env.r1c1 = true) :
    AreaOk env tab (UInt8.ofNat (cls.code + 0x1A) :: (sh ++ encAddr env.bv r c)) (quoteName name ++ '!' :: rcText r c) (rcText r c) := by
  refine ⟨isWord_sheet_rc hw r c, isWord_rc r c, by simp, ?_⟩
  intro data post p n stk h
  refine ⟨.relref, by decide, ?_⟩
  have ha : adjustFields env.bv (r.field (rowCount env.bv)) (c.field 256) r.isRel c.isRel env.reldelta env.browx env.bcolx = .ok (addrOf r c) := by
    rw [hd, hbr, hbc]
    exact adjust_offsets env.bv r c hf none none
  have hor : ((addrOf r c).rowRel || (addrOf r c).colRel) = true := by
    simp only [addrOf]
    rcases hrel with e | e <;> simp [e]
  exact ref3d_step ht h50 cls hs (coord_field_lt (rowCount_pos env.bv) hf.1) (coord_field_lt (by omega) hf.2) ha
    (o := { kind := .relref, value := none, rank := 90, text := (quoteName name ++ '!' :: rcText r c) ++ ':' :: rcText r c })
    (by rw [hor, hbr, hbc, hrc]; exact relref_words env.bk hn hw r r c c) h

/-- The same for a cell: it is shown as the area from that cell to that cell. -/
theorem C50_leaf_offset_cell (env : DEnv) (tab : List Int) (ht : szdict env.bv = .ok tab) (h50 : 50 ≤ env.bv) (cls : Cls) (sh : Bytes) (x : Nat)
    (hs : TokenSheets env sh x x) (name : PyStr) (hn : env.bk.sheetNames[x]? = some name) (hw : WordName name) (r c : Coord)
    (hf : AddrFits env.bv r c) (hrel : r.isRel ∨ c.isRel) (hd : env.reldelta = true) (hbr : env.browx = none) (hbc : env.bcolx = none) (hrc : env.r1c1 = true) :
    ∃ w w', AreaOk env tab (UInt8.ofNat (cls.code + 0x1A) :: (sh ++ encAddr env.bv r c)) w w' ∧
      readSheetRC w = some (name, r, c) ∧ readRC w' = some (r, c) :=
  ⟨_, _, leaf_offset_cell env tab ht h50 cls sh x hs name hn hw r c hf hrel hd hbr hbc hrc, readSheetRC_of hw (readRC_rc r c), readRC_rc r c⟩

end Xlrd
