import Verif.Lemmas.Names

/-!
# Properties of names: C09, C10, C11, C56, C57
-/
set_option linter.unusedSimpArgs false
namespace Xlrd
open Spec

/-! ## C09 column names -/

/-- C09: within the 702 columns that two letters can name (a worksheet has at most 256),
`colname(c)` succeeds and reads back as `c`. -/
theorem C09_colname_reads_back (c : Nat) (h : c < 702) :
    ∃ s, colname c = .ok s ∧ readCol s = some c := by
  obtain ⟨s, hs, hne, hall, hv⟩ := colname_spec c h
  exact ⟨s, hs, readCol_of s c hne hall hv⟩

/-- C09: the other implementation (used when displaying addresses) is right for every column. -/
theorem C09_book_colname_reads_back (c : Nat) :
    ∃ s, bookColname c = .ok s ∧ readCol s = some c := by
  obtain ⟨s, hs, hne, hall, hv⟩ := bookColnameLoop_spec (c + 1) c [] (by omega) rfl
  refine ⟨s, ?_, readCol_of s c hne hall (by simpa [lettersVal] using hv)⟩
  have : decide ((c : Int) ≥ 0) = true := by simp
  simp only [bookColname, pyAssert, this, if_true, bind, Except.bind, Int.toNat_natCast]
  exact hs

/-- C09: two different columns never share a name. -/
theorem C09_colname_injective (a b : Nat) (s : PyStr)
    (ha : colname a = .ok s) (hb : colname b = .ok s) : a = b := by
  have key : ∀ c : Nat, colname c = .ok s → c < 702 := by
    intro c hc
    apply Classical.byContradiction
    intro hn
    unfold colname at hc
    rw [if_neg (by omega)] at hc
    have : idx alphabet ((c : Int) / 26 - 1) = .error .index := by
      unfold idx
      have h1 : ¬ ((c : Int) / 26 - 1 < 0) := by omega
      simp only [h1, if_false]
      have h2 : alphabet[((c : Int) / 26 - 1).toNat]? = none := by
        apply List.getElem?_eq_none
        have : alphabet.length = 26 := by decide
        omega
      rw [h2]
    simp [this, bind, Except.bind] at hc
  obtain ⟨s1, h1, r1⟩ := C09_colname_reads_back a (key a ha)
  obtain ⟨s2, h2, r2⟩ := C09_colname_reads_back b (key b hb)
  rw [ha] at h1; rw [hb] at h2
  cases h1; cases h2
  rw [r1] at r2
  exact Option.some.inj r2

/-- A column name is determined by its value: bijective base 26 is unambiguous. -/
theorem lettersVal_inj : ∀ s t : PyStr, s.all isLetter = true → t.all isLetter = true →
    lettersVal s = lettersVal t → s = t := by
  -- induction from the least significant letter
  have snoc : ∀ (s : PyStr) c, lettersVal (s ++ [c]) = lettersVal s * 26 + (c.toNat - 64) := by
    intro s c; simp [lettersVal, List.foldl_append]
  have bnd : ∀ c, isLetter c = true → 65 ≤ c.toNat ∧ c.toNat ≤ 90 := by
    intro c h
    simp only [isLetter, Bool.and_eq_true, decide_eq_true_eq, Char.le_def, UInt32.le_iff_toNat_le] at h
    exact h
  intro s
  induction h : s.length generalizing s with
  | zero =>
    intro t _ ht hv
    have : s = [] := List.length_eq_zero_iff.mp h
    subst this
    rcases List.eq_nil_or_concat t with h' | ⟨t', c, h'⟩
    · exact h'.symm
    · subst h'
      rw [List.concat_eq_append, snoc] at hv
      simp [List.all_append] at ht
      have := bnd c ht.2
      simp [lettersVal] at hv
      omega
  | succ n ih =>
    intro t hs ht hv
    rcases List.eq_nil_or_concat s with h' | ⟨s', c, h'⟩
    · subst h'; simp at h
    · subst h'
      rcases List.eq_nil_or_concat t with h'' | ⟨t', d, h''⟩
      · subst h''
        rw [List.concat_eq_append, snoc] at hv
        simp [List.concat_eq_append, List.all_append] at hs
        have := bnd c hs.2
        simp [lettersVal] at hv
        omega
      · subst h''
        rw [List.concat_eq_append] at *
        rw [List.concat_eq_append] at *
        rw [snoc, snoc] at hv
        simp only [List.all_append, List.all_cons, List.all_nil, Bool.and_true, Bool.and_eq_true] at hs ht
        have b1 := bnd c hs.2
        have b2 := bnd d ht.2
        have e1 : lettersVal s' = lettersVal t' := by omega
        have e2 : c.toNat = d.toNat := by omega
        have hc : c = d := Char.toNat_inj.mp e2
        have hl : s'.length = n := by simpa using h
        rw [ih s' hl t' hs.1 ht.1 e1, hc]

/-- C09: the two implementations agree wherever the exported one is defined. -/
theorem C09_implementations_agree (c : Nat) (h : c < 702) : colname c = bookColname c := by
  obtain ⟨s, hs, hne, hall, hv⟩ := colname_spec c h
  obtain ⟨t, ht, hne', hall', hv'⟩ := bookColnameLoop_spec (c + 1) c [] (by omega) rfl
  have e : s = t := lettersVal_inj s t hall hall' (by rw [hv, hv']; simp [lettersVal])
  have : decide ((c : Int) ≥ 0) = true := by simp
  simp only [bookColname, pyAssert, this, if_true, bind, Except.bind, Int.toNat_natCast]
  rw [hs, ht, e]

/-- The exported function gives up (IndexError) beyond two letters. -/
theorem C09_colname_limit (c : Nat) (h : 702 ≤ c) : colname c = .error .index := by
  unfold colname
  rw [if_neg (by omega)]
  have : idx alphabet ((c : Int) / 26 - 1) = .error .index := by
    unfold idx
    have h1 : ¬ ((c : Int) / 26 - 1 < 0) := by omega
    simp only [h1, if_false]
    have h2 : alphabet[((c : Int) / 26 - 1).toNat]? = none := by
      apply List.getElem?_eq_none
      have : alphabet.length = 26 := by decide
      omega
    rw [h2]
  simp [this, bind, Except.bind]

example : colname 255 = .ok "IV".toList ∧ bookColname 16383 = .ok "XFD".toList := by decide
example : readCol "XFD".toList = some 16383 := by decide

/-! ## C10 cell names -/

/-- C10: `cellname(r, c)` reads back as `(r, c)`. -/
theorem C10_cellname_reads_back (r c : Nat) (h : c < 702) :
    ∃ s, cellname r c = .ok s ∧ readA1 s = some (r, c) := by
  obtain ⟨s, hs, hne, hall, hv⟩ := colname_spec c h
  have e : (r : Int) + 1 = ((r + 1 : Nat) : Int) := by omega
  refine ⟨s ++ natDec (r + 1), ?_, ?_⟩
  · simp only [cellname, hs, bind, Except.bind, pure, Except.pure, e, intDec_nat]
  · have h := takeWhile_all_append (p := isLetter) s (natDec (r + 1)) hall
      (fun c hc => isDig_not_letter c (head_dig_of_natDec _ c hc))
    simp only [readA1, h.1, h.2, readCol_of s c hne hall hv, readRow_natDec]
    rfl

/-- C10: `cellnameabs(r, c)` reads back as `(r, c)`. -/
theorem C10_cellnameabs_reads_back (r c : Nat) (h : c < 702) :
    ∃ s, cellnameabs r c = .ok s ∧ readAbs s = some (r, c) := by
  obtain ⟨s, h1, h2, _⟩ := cellnameabs_spec r c h
  exact ⟨s, h1, h2⟩

/-- C10: `cellnameabs(r, c, r1c1=1)` reads back as `(r, c)`, for every column. -/
theorem C10_cellnameabs_r1c1_reads_back (r c : Nat) :
    ∃ s, cellnameabs r c true = .ok s ∧ readR1C1 s = some (r, c) := by
  have er : (r : Int) + 1 = ((r + 1 : Nat) : Int) := by omega
  have ec : (c : Int) + 1 = ((c + 1 : Nat) : Int) := by omega
  refine ⟨_, rfl, ?_⟩
  rw [er, ec, intDec_nat, intDec_nat]
  have h := takeWhile_all_append (p := isDig) (natDec (r + 1)) ('C' :: natDec (c + 1)) (natDec_dig _)
    (by intro c hc; simp at hc; subst hc; decide)
  simp only [List.cons_append, readR1C1, h.1, h.2, readRow_natDec]
  rfl

/-- C10: two different cells never have the same name. -/
theorem C10_cellname_injective (r c r' c' : Nat) (s : PyStr)
    (h1 : cellname r c = .ok s) (h2 : cellname r' c' = .ok s) : r = r' ∧ c = c' := by
  have key : ∀ (r c : Nat), cellname r c = .ok s → c < 702 := by
    intro r c h
    apply Classical.byContradiction
    intro hn
    simp [cellname, C09_colname_limit c (by omega), bind, Except.bind] at h
  obtain ⟨_, a1, b1⟩ := C10_cellname_reads_back r c (key r c h1)
  obtain ⟨_, a2, b2⟩ := C10_cellname_reads_back r' c' (key r' c' h2)
  rw [h1] at a1; rw [h2] at a2
  cases a1; cases a2
  rw [b1] at b2
  injection b2 with b2
  injection b2 with e1 e2
  exact ⟨e1, e2⟩

example : cellname 5 7 = .ok "H6".toList ∧ readA1 "H6".toList = some (5, 7) := by decide
example : cellnameabs 5 7 = .ok "$H$6".toList ∧ readAbs "$H$6".toList = some (5, 7) := by decide

/-! ## C11 range names -/

/-- C11: the name of a non-empty rectangle reads back as that rectangle. -/
theorem C11_rangename2d_reads_back (rlo rhi clo chi : Nat) (hr : rlo < rhi) (hc : clo < chi)
    (hb : chi ≤ 702) :
    ∃ s, rangename2d rlo rhi clo chi = .ok (some s) ∧ readRange s = some (rlo, rhi, clo, chi) := by
  obtain ⟨s, h1, h2, h3⟩ := cellnameabs_spec rlo clo (by omega)
  obtain ⟨t, h4, h5, h6⟩ := cellnameabs_spec (rhi - 1) (chi - 1) (by omega)
  have er : (rhi : Int) - 1 = ((rhi - 1 : Nat) : Int) := by omega
  have ec : (chi : Int) - 1 = ((chi - 1 : Nat) : Int) := by omega
  unfold rangename2d
  simp only [Bool.false_eq_true, if_false]
  split
  · rename_i hs
    refine ⟨s, by simp [h1, bind, Except.bind, pure, Except.pure], ?_⟩
    unfold readRange
    rw [dropWhile_no_colon s h3]
    simp only [h2, bind, Option.bind, pure]
    have : rhi = rlo + 1 := by omega
    have : chi = clo + 1 := by omega
    simp [*]
  · refine ⟨s ++ ':' :: t, by simp [h1, er, ec, h4, bind, Except.bind, pure, Except.pure], ?_⟩
    have h := takeWhile_no_colon s t h3
    unfold readRange
    rw [h.1, h.2]
    simp only [h2, h5, bind, Option.bind, pure]
    have : rhi - 1 + 1 = rhi := by omega
    have : chi - 1 + 1 = chi := by omega
    simp [*]

/-- C11: a single cell is written without a colon, anything larger with one. -/
theorem C11_single_cell_no_colon (rlo rhi clo chi : Nat) (hr : rlo < rhi) (hc : clo < chi)
    (hb : chi ≤ 702) (s : PyStr) (hs : rangename2d rlo rhi clo chi = .ok (some s)) :
    ':' ∉ s ↔ (rhi = rlo + 1 ∧ chi = clo + 1) := by
  obtain ⟨a, h1, _, h3⟩ := cellnameabs_spec rlo clo (by omega)
  obtain ⟨t, h4, _, h6⟩ := cellnameabs_spec (rhi - 1) (chi - 1) (by omega)
  have er : (rhi : Int) - 1 = ((rhi - 1 : Nat) : Int) := by omega
  have ec : (chi : Int) - 1 = ((chi - 1 : Nat) : Int) := by omega
  unfold rangename2d at hs
  simp only [Bool.false_eq_true, if_false] at hs
  split at hs
  · rename_i hh
    simp [h1, bind, Except.bind, pure, Except.pure] at hs
    subst hs
    exact ⟨fun _ => by omega, fun _ => h3⟩
  · rename_i hh
    simp [h1, er, ec, h4, bind, Except.bind, pure, Except.pure] at hs
    subst hs
    constructor
    · intro h; simp at h
    · rintro ⟨a, b⟩; exact absurd (by omega) hh

example : rangename2d 5 20 7 10 = .ok (some "$H$6:$J$20".toList) ∧
    readRange "$H$6:$J$20".toList = some (5, 20, 7, 10) := by decide

/-! ## C56 relative names -/

/-- C56 (R1C1 notation): when R1C1 notation is requested, the text reads back as the row and
column with their relative/absolute kind. -/
theorem C56_cellnamerel_r1c1_reads_back (r c : Int) (rrel crel : Bool) (br bc : Option Int)
    (hr : rrel = false → 0 ≤ r) (hc : crel = false → 0 ≤ c) :
    ∃ s, cellnamerel r c rrel crel br bc true = .ok s ∧
      readRC s = some (if rrel then .rel r else .abs r.toNat, if crel then .rel c else .abs c.toNat) := by
  refine ⟨'R' :: coordText rrel r ++ 'C' :: coordText crel c, ?_, readRC_text rrel crel r c hr hc⟩
  unfold cellnamerel
  split
  · rename_i h
    simp at h
    simp [cellnameabs, coordText, h]
  · simp only [Bool.true_or]
    rw [rownamerel_r1c1 _ _ _ _ (by simp), colnamerel_r1c1 _ _ _ _ (by simp)]
    simp [bind, Except.bind, pure, Except.pure]

/-- C56: R1C1 notation is also used when some coordinate is relative and no base cell is given. -/
theorem C56_cellnamerel_nobase_reads_back (r c : Int) (rrel crel : Bool)
    (hr : rrel = false → 0 ≤ r) (hc : crel = false → 0 ≤ c) (hrel : rrel = true ∨ crel = true) :
    ∃ s, cellnamerel r c rrel crel none none false = .ok s ∧
      readRC s = some (if rrel then .rel r else .abs r.toNat, if crel then .rel c else .abs c.toNat) := by
  refine ⟨'R' :: coordText rrel r ++ 'C' :: coordText crel c, ?_, readRC_text rrel crel r c hr hc⟩
  unfold cellnamerel
  split
  · rename_i h
    simp at h
    simp [h] at hrel
  · have : (false || (rrel && (none : Option Int).isNone) || (crel && (none : Option Int).isNone)) = true := by
      rcases hrel with h | h <;> simp [h]
    simp only [this]
    rw [rownamerel_r1c1 _ _ _ _ (by simp), colnamerel_r1c1 _ _ _ _ (by simp)]
    simp [bind, Except.bind, pure, Except.pure]

/-- C56 (A1 notation): with a base cell, the text names the cell reached from the base (rows wrap
at 65536, columns at 256) and marks exactly the absolute coordinates with `$`. -/
theorem C56_cellnamerel_a1_reads_back (r c br bc : Int) (rrel crel : Bool)
    (hr : rrel = false → 0 ≤ r) (hc : crel = false → 0 ≤ c ∧ c < 702) :
    ∃ s, cellnamerel r c rrel crel (some br) (some bc) false = .ok s ∧
      readMixed s = some
        ((if rrel then (br + r) % 65536 else r).toNat, !rrel,
         (if crel then (bc + c) % 256 else c).toNat, !crel) := by
  -- column part
  have hcol : ∃ s : PyStr, s ≠ [] ∧ s.all isLetter = true ∧
      readCol s = some (if crel then (bc + c) % 256 else c).toNat ∧
      colname (if crel then (bc + c) % 256 else c) = .ok s := by
    have hb : 0 ≤ (if crel then (bc + c) % 256 else c) ∧ (if crel then (bc + c) % 256 else c) < 702 := by
      cases crel
      · exact hc rfl
      · simp; omega
    obtain ⟨s, hs, hne, hall, hv⟩ := colname_spec (if crel then (bc + c) % 256 else c).toNat (by omega)
    rw [Int.toNat_of_nonneg hb.1] at hs
    exact ⟨s, hne, hall, readCol_of s _ hne hall hv, hs⟩
  obtain ⟨s, hne, hall, hrd, hs⟩ := hcol
  have hrow : ∃ n : Nat, (if rrel then (br + r) % 65536 else r) = (n : Int) := by
    refine ⟨(if rrel then (br + r) % 65536 else r).toNat, ?_⟩
    cases rrel
    · have := hr rfl; simp; omega
    · simp; omega
  obtain ⟨n, hn⟩ := hrow
  have hn1 : ∀ m : Int, m = n → intDec (m + 1) = natDec (n + 1) := by
    intro m hm; subst hm
    have e : (n : Int) + 1 = ((n + 1 : Nat) : Int) := by omega
    rw [e, intDec_nat]
  refine ⟨(if crel then [] else ['$']) ++ s ++ ((if rrel then [] else ['$']) ++ natDec (n + 1)), ?_, ?_⟩
  · unfold cellnamerel
    cases rrel <;> cases crel <;>
      simp_all [cellnameabs, colnamerel, rownamerel, bind, Except.bind, pure, Except.pure]
  · have hsd : ∀ x t, s ++ t = '$' :: x → False := by
      intro x t hh
      cases s with
      | nil => exact hne rfl
      | cons y ys =>
        simp at hh
        simp [hh.1] at hall
        exact absurd hall.1 (by decide)
    have hnd : ∀ x, natDec (n + 1) = '$' :: x → False := by
      intro x hh
      have : isDig '$' = true := natDec_mem_dig (n := n + 1) (by rw [hh]; simp)
      revert this; decide
    have t1 := takeWhile_all_append (p := isLetter) s (natDec (n + 1)) hall
      (fun c hc => isDig_not_letter c (head_dig_of_natDec _ c hc))
    have t2 := takeWhile_all_append (p := isLetter) s ('$' :: natDec (n + 1)) hall
      (by intro c hc; simp at hc; subst hc; decide)
    have hrr := readRow_natDec n
    rw [hn]
    obtain ⟨x, xs, hx, hxd⟩ := natDec_cons (n + 1)
    obtain ⟨y, ys, hy⟩ := List.exists_cons_of_ne_nil hne
    have hxne : x ≠ '$' := by rintro rfl; revert hxd; decide
    have hyne : y ≠ '$' := by
      rintro rfl; rw [hy] at hall; simp at hall; exact absurd hall.1 (by decide)
    cases rrel <;> cases crel <;> simp_all [readMixed]

/-- The mixed situation (base row given, base column missing, column absolute) is garbled by the
code: the text for row +0 from row 4, column 7 is `C85`, which reads as column C, row 85. -/
theorem C56_mixed_base_garbled :
    cellnamerel 0 7 true false (some 4) none false = .ok "C85".toList ∧
    readA1 "C85".toList = some (84, 2) := by decide

example : cellnamerel (-3) 4 true false none none false = .ok "R[-3]C5".toList ∧
    readRC "R[-3]C5".toList = some (.rel (-3), .abs 4) := by decide
example : cellnamerel (-3) 4 true false (some 10) (some 2) false = .ok "$E8".toList ∧
    readMixed "$E8".toList = some (7, false, 4, true) := by decide

/-! ## C57 sheet names in references -/

/-- C57: the quoted form of any sheet name (as it appears in formula text) reads back as that name. -/
theorem C57_quoted_name_reads_back (s : PyStr) : readSheetName (quoteName s) = some s := by
  unfold quoteName
  split
  · rename_i h
    simp [readSheetName, undouble_double]
  · rename_i h
    split
    · simp [readSheetName, undouble_noquote s h]
    · unfold readSheetName
      split
      · simp at h
      · rfl

/-- C57: `quotedsheetname` on a sheet of the workbook reads back as that sheet's name. -/
theorem C57_quotedsheetname_reads_back (names : List PyStr) (i : Nat) (h : i < names.length) :
    ∃ s, quotedsheetname names i = .ok s ∧ readSheetName s = some names[i] := by
  refine ⟨quoteName names[i], ?_, C57_quoted_name_reads_back _⟩
  have h0 : ¬ ((i : Int) < 0) := by omega
  have h1 : (i : Int) ≥ 0 := by omega
  simp [quotedsheetname, rawSheetName, h0, h1, idx, h, bind, Except.bind, pure, Except.pure]

/-- C57: different sheet names never give the same text. -/
theorem C57_quoteName_injective (s t : PyStr) (h : quoteName s = quoteName t) : s = t := by
  have := C57_quoted_name_reads_back s
  rw [h, C57_quoted_name_reads_back t] at this
  exact (Option.some.inj this).symm

example : quoteName "it's".toList = "'it''s'".toList := by decide

end Xlrd
