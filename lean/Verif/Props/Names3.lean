import Verif.Props.Names
import Verif.Spec.Names3

/-!
# C69 references with sheet names
-/
set_option linter.unusedSimpArgs false
namespace Xlrd
open Spec

theorem scanQuoted_double : ∀ (s t : PyStr), t.head? ≠ some '\'' → scanQuoted (doubleQuotes s ++ '\'' :: t) = some (s, t)
  | [], t, h => by
    cases t with
    | nil => rfl
    | cons c cs =>
      have : c ≠ '\'' := by simpa using h
      simp only [doubleQuotes, List.nil_append]
      rw [scanQuoted]
      intro x hx
      cases hx
      exact this rfl
  | c :: cs, t, h => by
    have ih := scanQuoted_double cs t h
    by_cases hc : c = '\''
    · subst hc
      simp only [doubleQuotes, if_pos, List.cons_append]
      rw [scanQuoted, ih]; rfl
    · simp only [doubleQuotes, if_neg hc, List.cons_append]
      rw [scanQuoted] <;> simp_all

theorem doubleQuotes_none : ∀ s : PyStr, '\'' ∉ s → doubleQuotes s = s
  | [], _ => rfl
  | c :: cs, h => by
    have h1 : c ≠ '\'' := by rintro rfl; simp at h
    have h2 : '\'' ∉ cs := by intro hh; exact h (by simp [hh])
    simp [doubleQuotes, h1, doubleQuotes_none cs h2]

theorem scanSheet_quote (n t : PyStr) (hn : ClearName n) (ht : t.head? = some ':' ∨ t.head? = some '!') :
    scanSheet (quoteName n ++ t) = some (n, t) := by
  have hq : t.head? ≠ some '\'' := by rcases ht with h | h <;> rw [h] <;> decide
  unfold quoteName
  by_cases h1 : '\'' ∈ n
  · rw [if_pos h1]
    simp only [List.cons_append, List.append_assoc, List.nil_append, scanSheet]
    exact scanQuoted_double n t hq
  · rw [if_neg h1]
    by_cases h2 : ' ' ∈ n
    · rw [if_pos h2]
      simp only [List.cons_append, List.append_assoc, List.nil_append, scanSheet]
      rw [← doubleQuotes_none n h1]
      conv => rhs; rw [doubleQuotes_none n h1]
      exact scanQuoted_double n t hq
    · rw [if_neg h2]
      obtain ⟨hne, h⟩ := hn
      obtain ⟨h3, h4⟩ := (h.resolve_left h1).resolve_left h2
      have hall : n.all bareChar = true := by
        rw [List.all_eq_true]; intro c hc
        have : c ≠ ':' := by rintro rfl; exact h3 hc
        have : c ≠ '!' := by rintro rfl; exact h4 hc
        simp [bareChar, *]
      have key := takeWhile_all_append (p := bareChar) n t hall (by
        intro c hc
        rcases ht with h | h <;> rw [h] at hc <;> cases hc <;> decide)
      have hs : scanSheet (n ++ t) = if (n ++ t).takeWhile bareChar = [] then none else some ((n ++ t).takeWhile bareChar, (n ++ t).dropWhile bareChar) := by
        unfold scanSheet
        split
        · rename_i s e
          cases n with
          | nil => exact absurd rfl hne
          | cons c cs => simp at e; exact absurd (by simp [e.1]) h1
        · rfl
      rw [hs, key.1, key.2, if_neg hne]

theorem quotedsheetname_ok (names : List PyStr) (i : Nat) (h : i < names.length) : quotedsheetname names i = .ok (quoteName names[i]) := by
  have h0 : ¬ ((i : Int) < 0) := by omega
  have h1 : (i : Int) ≥ 0 := by omega
  simp [quotedsheetname, rawSheetName, h0, h1, idx, h, bind, Except.bind, pure, Except.pure]

/-- C69: the text for a range of sheets, followed by the mark and anything else, reads back as the first and the last sheet of the range. -/
theorem C69_sheetrange_reads_back_partial (names : List PyStr) (slo shi : Nat) (hlo : slo < shi) (hhi : shi ≤ names.length)
    (h1 : ClearName (names[slo]'(by omega))) (h2 : ClearName (names[shi - 1]'(by omega))) :
    ∃ s, sheetrange names slo shi = .ok s ∧ ∀ t, readSheets (s ++ '!' :: t) = some ((names[slo]'(by omega), names[shi - 1]'(by omega)), t) := by
  have e1 := quotedsheetname_ok names slo (by omega)
  have e2 := quotedsheetname_ok names (shi - 1) (by omega)
  have ec : (shi : Int) - 1 = ((shi - 1 : Nat) : Int) := by omega
  unfold sheetrange
  rw [ec, e1, e2]
  by_cases h : slo = shi - 1
  · refine ⟨quoteName (names[slo]'(by omega)), by simp [h, bind, Except.bind, pure, Except.pure], ?_⟩
    intro t
    unfold readSheets
    rw [scanSheet_quote _ ('!' :: t) h1 (by simp)]
    simp [h]
  · refine ⟨quoteName (names[slo]'(by omega)) ++ ':' :: quoteName (names[shi - 1]'(by omega)), ?_, ?_⟩
    · have : (slo : Int) ≠ ((shi - 1 : Nat) : Int) := by omega
      simp only [bind, Except.bind, pure, Except.pure, if_pos this]
    · intro t
      unfold readSheets
      rw [List.append_assoc, List.cons_append, scanSheet_quote _ (':' :: (_ ++ _)) h1 (by simp)]
      simp only
      rw [scanSheet_quote _ ('!' :: t) h2 (by simp)]
      rfl

/-- C69: `rangename3d` of a rectangle on a range of sheets reads back as the first and last sheet and the rectangle. -/
theorem C69_rangename3d_reads_back_partial (names : List PyStr) (slo shi rlo rhi clo chi : Nat) (hlo : slo < shi) (hhi : shi ≤ names.length)
    (h1 : ClearName (names[slo]'(by omega))) (h2 : ClearName (names[shi - 1]'(by omega))) (hr : rlo < rhi) (hc : clo < chi) (hb : chi ≤ 702) :
    ∃ s, rangename3d names slo shi rlo rhi clo chi = .ok s ∧
      read3d s = some ((names[slo]'(by omega), names[shi - 1]'(by omega)), (rlo, rhi, clo, chi)) := by
  obtain ⟨a, ha, hra⟩ := C69_sheetrange_reads_back_partial names slo shi hlo hhi h1 h2
  obtain ⟨b, hb, hrb⟩ := C11_rangename2d_reads_back rlo rhi clo chi hr hc hb
  refine ⟨a ++ '!' :: b, by simp [rangename3d, ha, hb, bind, Except.bind, pure, Except.pure], ?_⟩
  unfold read3d
  rw [hra b]; simp only [hrb, Option.map]

theorem readMixed_noColon (s : PyStr) (x) (h : readMixed s = some x) : ':' ∉ s := by
  have hdig : ∀ t : PyStr, ∀ n, readRow t = some n → ':' ∉ t := by
    intro t n h hm
    unfold readRow at h
    split at h
    · rename_i hh
      have := List.all_eq_true.mp hh.2.1 _ hm
      revert this; decide
    · cases h
  have hlet : ∀ t : PyStr, (∀ n, readRow (t.dropWhile isLetter) = some n → ':' ∉ t) ∧
      (∀ u n, t.dropWhile isLetter = '$' :: u → readRow u = some n → ':' ∉ t) := by
    intro t
    have ht : ':' ∈ t → ':' ∈ t.dropWhile isLetter := by
      intro hm
      rw [← List.takeWhile_append_dropWhile (p := isLetter) (l := t)] at hm
      rcases List.mem_append.mp hm with h | h
      · have := (List.all_eq_true.mp (List.all_takeWhile (p := isLetter) (l := t))) _ h
        exact absurd this (by decide)
      · exact h
    exact ⟨fun n h hm => hdig _ _ h (ht hm), fun u n e h hm => by
      have := ht hm; rw [e] at this
      rcases List.mem_cons.mp this with h' | h'
      · revert h'; decide
      · exact hdig _ _ h h'⟩
  have key : ∀ t : PyStr, ∀ (c : Bool) y, (do
      let c' ← readCol (t.takeWhile isLetter)
      let (rabs, t') := match t.dropWhile isLetter with
        | '$' :: t => (true, t)
        | t => (false, t)
      let r ← readRow t'
      pure (r, rabs, c', c) : Option (Nat × Bool × Nat × Bool)) = some y → ':' ∉ t := by
    intro t c y h
    cases hc : readCol (t.takeWhile isLetter) with
    | none => simp [hc] at h
    | some c' =>
      simp only [hc, bind, Option.bind] at h
      by_cases hd : ∃ u, t.dropWhile isLetter = '$' :: u
      · obtain ⟨u, hd⟩ := hd
        simp only [hd] at h
        cases hrr : readRow u with
        | none => rw [hrr] at h; cases h
        | some n => exact (hlet t).2 _ _ hd hrr
      · have e : (match t.dropWhile isLetter with
          | '$' :: t => (true, t)
          | t => (false, t)) = (false, t.dropWhile isLetter) := by
          split
          · rename_i u hu; exact absurd ⟨u, hu⟩ hd
          · rfl
        simp only [e] at h
        cases hrr : readRow (t.dropWhile isLetter) with
        | none => rw [hrr] at h; cases h
        | some n => exact (hlet t).1 _ hrr
  unfold readMixed at h
  split at h
  rename_i s' cabs s'' e
  split at e
  · cases e
    have := key _ _ _ h
    simp [this]
  · cases e
    exact key _ _ _ h

theorem coordText_noColon (b : Bool) (k : Int) : ':' ∉ coordText b k := by
  have key : ∀ j : Int, ':' ∉ intDec j := by
    intro j h
    rcases intDec_mem h with h | h <;> revert h <;> decide
  unfold coordText
  split
  · split
    · simp
    · simp [key]
  · exact key _

/-- C69: with a base cell, the text of a rectangle given by two possibly relative corners reads back as the two cells reached from the base, with `$` at exactly
the absolute coordinates. -/
theorem C69_rangename2drel_a1_reads_back (rlo rhi clo chi br bc : Int) (rlorel rhirel clorel chirel : Bool)
    (h1 : rlorel = false → 0 ≤ rlo) (h2 : clorel = false → 0 ≤ clo ∧ clo < 702)
    (h3 : rhirel = false → 0 < rhi) (h4 : chirel = false → 0 < chi ∧ chi ≤ 702) :
    ∃ s, rangename2drel rlo rhi clo chi rlorel rhirel clorel chirel (some br) (some bc) false = .ok s ∧
      readPair readMixed s = some
        (((if rlorel then (br + rlo) % 65536 else rlo).toNat, !rlorel, (if clorel then (bc + clo) % 256 else clo).toNat, !clorel),
         ((if rhirel then (br + (rhi - 1)) % 65536 else rhi - 1).toNat, !rhirel, (if chirel then (bc + (chi - 1)) % 256 else chi - 1).toNat, !chirel)) := by
  obtain ⟨a, ha, hra⟩ := C56_cellnamerel_a1_reads_back rlo clo br bc rlorel clorel h1 h2
  obtain ⟨b, hb, hrb⟩ := C56_cellnamerel_a1_reads_back (rhi - 1) (chi - 1) br bc rhirel chirel (fun h => by have := h3 h; omega)
    (fun h => by have := h4 h; omega)
  refine ⟨a ++ ':' :: b, by simp [rangename2drel, ha, hb, bind, Except.bind, pure, Except.pure], ?_⟩
  have h := takeWhile_no_colon a b (readMixed_noColon a _ hra)
  unfold readPair
  rw [h.1, h.2]
  simp only [hra, hrb, bind, Option.bind, pure]

/-- C69: in R1C1 notation (on request) the text reads back as the two corners with their kind. -/
theorem C69_rangename2drel_r1c1_reads_back (rlo rhi clo chi : Int) (br bc : Option Int) (rlorel rhirel clorel chirel : Bool)
    (h1 : rlorel = false → 0 ≤ rlo) (h2 : clorel = false → 0 ≤ clo)
    (h3 : rhirel = false → 0 < rhi) (h4 : chirel = false → 0 < chi) :
    ∃ s, rangename2drel rlo rhi clo chi rlorel rhirel clorel chirel br bc true = .ok s ∧
      readPair readRC s = some
        ((if rlorel then .rel rlo else .abs rlo.toNat, if clorel then .rel clo else .abs clo.toNat),
         (if rhirel then .rel (rhi - 1) else .abs (rhi - 1).toNat, if chirel then .rel (chi - 1) else .abs (chi - 1).toNat)) := by
  have text : ∀ (r c : Int) (rrel crel : Bool), cellnamerel r c rrel crel br bc true = .ok ('R' :: coordText rrel r ++ 'C' :: coordText crel c) := by
    intro r c rrel crel
    unfold cellnamerel
    split
    · rename_i h
      simp at h
      simp [cellnameabs, coordText, h]
    · simp only [Bool.true_or]
      rw [rownamerel_r1c1 _ _ _ _ (by simp), colnamerel_r1c1 _ _ _ _ (by simp)]
      simp [bind, Except.bind, pure, Except.pure]
  refine ⟨('R' :: coordText rlorel rlo ++ 'C' :: coordText clorel clo) ++ ':' :: ('R' :: coordText rhirel (rhi - 1) ++ 'C' :: coordText chirel (chi - 1)),
    by simp only [rangename2drel, Bool.true_or, text, bind, Except.bind, pure, Except.pure], ?_⟩
  have hn : ':' ∉ ('R' :: coordText rlorel rlo ++ 'C' :: coordText clorel clo) := by
    have := coordText_noColon rlorel rlo
    have := coordText_noColon clorel clo
    simp_all
  have h := takeWhile_no_colon _ ('R' :: coordText rhirel (rhi - 1) ++ 'C' :: coordText chirel (chi - 1)) hn
  unfold readPair
  rw [h.1, h.2]
  simp only [readRC_text rlorel clorel rlo clo h1 h2, readRC_text rhirel chirel (rhi - 1) (chi - 1) (fun h => by have := h3 h; omega)
    (fun h => by have := h4 h; omega), bind, Option.bind, pure]
  rfl

/-- C69: `rangename3drel` on a range of sheets: sheets and corners read back (base cell given, no R1C1). -/
theorem C69_rangename3drel_a1_reads_back_partial (names : List PyStr) (slo shi : Nat) (hlo : slo < shi) (hhi : shi ≤ names.length)
    (n1 : ClearName (names[slo]'(by omega))) (n2 : ClearName (names[shi - 1]'(by omega)))
    (rlo rhi clo chi br bc : Int) (rlorel rhirel clorel chirel : Bool)
    (h1 : rlorel = false → 0 ≤ rlo) (h2 : clorel = false → 0 ≤ clo ∧ clo < 702)
    (h3 : rhirel = false → 0 < rhi) (h4 : chirel = false → 0 < chi ∧ chi ≤ 702) :
    ∃ s t, rangename3drel names slo shi rlo rhi clo chi false false rlorel rhirel clorel chirel (some br) (some bc) false = .ok s ∧
      readSheets s = some ((names[slo]'(by omega), names[shi - 1]'(by omega)), t) ∧
      readPair readMixed t = some
        (((if rlorel then (br + rlo) % 65536 else rlo).toNat, !rlorel, (if clorel then (bc + clo) % 256 else clo).toNat, !clorel),
         ((if rhirel then (br + (rhi - 1)) % 65536 else rhi - 1).toNat, !rhirel, (if chirel then (bc + (chi - 1)) % 256 else chi - 1).toNat, !chirel)) := by
  obtain ⟨a, ha, hra⟩ := C69_sheetrange_reads_back_partial names slo shi hlo hhi n1 n2
  obtain ⟨b, hb, hrb⟩ := C69_rangename2drel_a1_reads_back rlo rhi clo chi br bc rlorel rhirel clorel chirel h1 h2 h3 h4
  have hne : a ≠ [] := by
    rintro rfl
    have := hra []
    simp [readSheets, scanSheet, bareChar] at this
  refine ⟨a ++ '!' :: b, b, ?_, hra b, hrb⟩
  simp [rangename3drel, sheetrangerel, ha, hb, bind, Except.bind, pure, Except.pure, hne]

/-- C69: the same in R1C1 notation. -/
theorem C69_rangename3drel_r1c1_reads_back_partial (names : List PyStr) (slo shi : Nat) (hlo : slo < shi) (hhi : shi ≤ names.length)
    (n1 : ClearName (names[slo]'(by omega))) (n2 : ClearName (names[shi - 1]'(by omega)))
    (rlo rhi clo chi : Int) (br bc : Option Int) (rlorel rhirel clorel chirel : Bool)
    (h1 : rlorel = false → 0 ≤ rlo) (h2 : clorel = false → 0 ≤ clo)
    (h3 : rhirel = false → 0 < rhi) (h4 : chirel = false → 0 < chi) :
    ∃ s t, rangename3drel names slo shi rlo rhi clo chi false false rlorel rhirel clorel chirel br bc true = .ok s ∧
      readSheets s = some ((names[slo]'(by omega), names[shi - 1]'(by omega)), t) ∧
      readPair readRC t = some
        ((if rlorel then .rel rlo else .abs rlo.toNat, if clorel then .rel clo else .abs clo.toNat),
         (if rhirel then .rel (rhi - 1) else .abs (rhi - 1).toNat, if chirel then .rel (chi - 1) else .abs (chi - 1).toNat)) := by
  obtain ⟨a, ha, hra⟩ := C69_sheetrange_reads_back_partial names slo shi hlo hhi n1 n2
  obtain ⟨b, hb, hrb⟩ := C69_rangename2drel_r1c1_reads_back rlo rhi clo chi br bc rlorel rhirel clorel chirel h1 h2 h3 h4
  have hne : a ≠ [] := by
    rintro rfl
    have := hra []
    simp [readSheets, scanSheet, bareChar] at this
  refine ⟨a ++ '!' :: b, b, ?_, hra b, hrb⟩
  simp [rangename3drel, sheetrangerel, ha, hb, bind, Except.bind, pure, Except.pure, hne]

/-- C69: names outside of `ClearName` are not quoted when they should be: a sheet called `a:b` cannot be told from the sheets `a` to `b`,
and the text for a sheet called `a!b` does not read back. -/
theorem C69_special_names_not_quoted :
    rangename3d ["a".toList, "b".toList, "a:b".toList] 0 2 0 1 0 1 = rangename3d ["a".toList, "b".toList, "a:b".toList] 2 3 0 1 0 1 ∧
    rangename3d ["a!b".toList] 0 1 0 1 0 1 = .ok "a!b!$A$1".toList ∧ read3d "a!b!$A$1".toList = none := by decide

example : rangename3d ["Jan".toList, "Feb".toList, "it's".toList] 0 3 5 20 7 10 = .ok "Jan:'it''s'!$H$6:$J$20".toList ∧
    read3d "Jan:'it''s'!$H$6:$J$20".toList = some (("Jan".toList, "it's".toList), (5, 20, 7, 10)) := by decide
example : rangename3drel ["Jan".toList, "a b".toList] 1 2 3 6 (-1) 5 false false false false true false (some 10) (some 2) false = .ok "'a b'!B$4:$E$6".toList := by decide

end Xlrd
