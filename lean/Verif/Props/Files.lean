import Verif.Props.Life

/-!
# File formats and the areas of names (C45, C51)
-/
set_option linter.unusedSimpArgs false
namespace Xlrd
open Spec

/-! ## C45 -/

theorem pyAssert_pos {p : Prop} [Decidable p] (h : p) : pyAssert p = .ok () := by simp [pyAssert, h]

/-- C45: clipping gives exactly the rows and columns of the area that the sheet has, in the promised order. -/
theorem C45_clip (r : Ref3D) (nrows ncols : Nat) (hr : 0 ≤ r.rowxlo) (hc : 0 ≤ r.colxlo) :
    ∃ a b c d, clipArea r nrows ncols = .ok (a, b, c, d) ∧
      0 ≤ a ∧ a ≤ b ∧ b ≤ nrows ∧ 0 ≤ c ∧ c ≤ d ∧ d ≤ ncols ∧
      (∀ x : Int, a ≤ x ∧ x < b ↔ (r.rowxlo ≤ x ∧ x < r.rowxhi) ∧ (0 ≤ x ∧ x < nrows)) ∧
      (∀ y : Int, c ≤ y ∧ y < d ↔ (r.colxlo ≤ y ∧ y < r.colxhi) ∧ (0 ≤ y ∧ y < ncols)) := by
  unfold clipArea
  simp only
  rw [pyAssert_pos (by omega), pyAssert_pos (by omega)]
  refine ⟨_, _, _, _, rfl, by omega, by omega, by omega, by omega, by omega, by omega, ?_, ?_⟩ <;> intro x <;> constructor <;> intro h <;> omega

/-- C45: whatever a name refers to, a clipped area that `area2d` returns is one of cells of the sheet. -/
theorem C45_within (env : OpenEnv) (l : Lib) (res : NameResult) (sh : LSheet) (a b c d : Int) (h : (nameArea2d env l res true).1 = .ok (sh, a, b, c, d)) :
    0 ≤ a ∧ a ≤ b ∧ b ≤ sh.st.store.nrows ∧ 0 ≤ c ∧ c ≤ d ∧ d ≤ sh.st.store.ncols := by
  have key : ∀ (r : Ref3D) (m n : Int), clipArea r m n = .ok (a, b, c, d) → 0 ≤ a ∧ a ≤ b ∧ b ≤ m ∧ 0 ≤ c ∧ c ≤ d ∧ d ≤ n := by
    intro r m n h
    unfold clipArea at h
    obtain ⟨_, h1, h⟩ := bind_ok h
    obtain ⟨_, h2, h⟩ := bind_ok h
    simp only [pure, Except.pure, Except.ok.injEq, Prod.mk.injEq] at h
    obtain ⟨rfl, rfl, rfl, rfl⟩ := h
    have hp : ∀ (p : Prop) [Decidable p] u, pyAssert (decide p) = .ok u → p := by
      intro p _ u h
      by_contra hn
      rw [decide_eq_false hn] at h
      cases h
    have g1 := hp _ _ h1
    have g2 := hp _ _ h2
    exact ⟨g1.1, g1.2.1, g1.2.2, g2.1, g2.2.1, g2.2.2⟩
  unfold nameArea2d at h
  match res with
  | none => cases h
  | some [] => cases h
  | some (r :: r2 :: rs) => cases h
  | some [r] =>
    simp only at h
    by_cases hs : 0 ≤ r.shtxlo ∧ r.shtxlo = r.shtxhi - 1
    · rw [if_pos hs] at h
      rcases hx : sheetByIndex env l r.shtxlo with ⟨y, l'⟩
      rw [hx] at h
      cases y with
      | error e => cases h
      | ok s =>
        simp only [if_true] at h
        cases hc : clipArea r s.st.store.nrows s.st.store.ncols with
        | error e => rw [hc] at h; cases h
        | ok q =>
          rw [hc] at h
          simp only [Except.ok.injEq, Prod.mk.injEq] at h
          obtain ⟨rfl, rfl⟩ := h
          exact key r _ _ hc
    · rw [if_neg hs] at h; cases h

/-- C45: `area2d` of a name that refers to one area of one sheet gives that sheet, with the area as it is or clipped; any other name
is refused with an XLRDError. -/
theorem C45_area2d (env : OpenEnv) (l : Lib) (res : NameResult) (clipped : Bool) :
    (∀ r, res = some [r] → 0 ≤ r.shtxlo → r.shtxhi = r.shtxlo + 1 → 0 ≤ r.rowxlo → 0 ≤ r.colxlo →
      (∀ e, (sheetByIndex env l r.shtxlo).1 = .error e → (nameArea2d env l res clipped).1 = .error e) ∧
      (∀ sh, (sheetByIndex env l r.shtxlo).1 = .ok sh →
        (clipped = false → (nameArea2d env l res clipped).1 = .ok (sh, r.rowxlo, r.rowxhi, r.colxlo, r.colxhi)) ∧
        (clipped = true → ∃ a b c d, (nameArea2d env l res clipped).1 = .ok (sh, a, b, c, d) ∧
          0 ≤ a ∧ a ≤ b ∧ b ≤ sh.st.store.nrows ∧ 0 ≤ c ∧ c ≤ d ∧ d ≤ sh.st.store.ncols ∧
          (∀ x : Int, a ≤ x ∧ x < b ↔ (r.rowxlo ≤ x ∧ x < r.rowxhi) ∧ (0 ≤ x ∧ x < sh.st.store.nrows)) ∧
          (∀ y : Int, c ≤ y ∧ y < d ↔ (r.colxlo ≤ y ∧ y < r.colxhi) ∧ (0 ≤ y ∧ y < sh.st.store.ncols))))) ∧
    ((∀ r, res = some [r] → ¬ (0 ≤ r.shtxlo ∧ r.shtxhi = r.shtxlo + 1)) → (nameArea2d env l res clipped).1 = .error .xlrd) := by
  constructor
  · rintro r rfl h1 h2 h3 h4
    simp only [nameArea2d]
    rw [if_pos ⟨h1, by omega⟩]
    rcases hx : sheetByIndex env l r.shtxlo with ⟨y, l'⟩
    cases y with
    | error e' =>
      refine ⟨?_, ?_⟩
      · intro e he; simpa using he
      · intro sh hsh; simp at hsh
    | ok sh' =>
      refine ⟨?_, ?_⟩
      · intro e he; simp at he
      · intro sh hsh
        simp only [Except.ok.injEq] at hsh
        subst hsh
        refine ⟨?_, ?_⟩
        · rintro rfl; rfl
        · rintro rfl
          obtain ⟨a, b, c, d, e, h⟩ := C45_clip r sh'.st.store.nrows sh'.st.store.ncols h3 h4
          refine ⟨a, b, c, d, ?_, h⟩
          simp only [if_true, e]
  · intro h
    unfold nameArea2d
    match res with
    | none => rfl
    | some [] => rfl
    | some [r] => simp only; rw [if_neg (fun a => h r rfl ⟨a.1, by omega⟩)]
    | some (_ :: _ :: _) => rfl

/-- C45: `cell` of a name that refers to one cell of one sheet is that cell; any other name is refused with an XLRDError. -/
theorem C45_cell (env : OpenEnv) (l : Lib) (res : NameResult) :
    (∀ (s row col : Int), 0 ≤ s → res = some [⟨s, s + 1, row, row + 1, col, col + 1⟩] →
      (nameCell env l res).1 = (sheetByIndex env l s).1.map fun sh => (sh, row, col)) ∧
    ((∀ (s row col : Int), 0 ≤ s → res ≠ some [⟨s, s + 1, row, row + 1, col, col + 1⟩]) → (nameCell env l res).1 = .error .xlrd) := by
  constructor
  · rintro s row col hs rfl
    simp only [nameCell]
    rw [if_pos (by omega)]
    rcases hx : sheetByIndex env l s with ⟨y, l'⟩
    cases y <;> rfl
  · intro h
    unfold nameCell
    match res with
    | none => rfl
    | some [] => rfl
    | some [r] =>
      simp only
      rw [if_neg]
      rintro ⟨a, b, c, d⟩
      refine h r.shtxlo r.rowxlo r.colxlo a ?_
      have e : r = ⟨r.shtxlo, r.shtxhi, r.rowxlo, r.rowxhi, r.colxlo, r.colxhi⟩ := rfl
      rw [e]
      simp only [Option.some.injEq, List.cons.injEq, and_true, Ref3D.mk.injEq, true_and]
      omega
    | some (_ :: _ :: _) => rfl

-- An area that reaches over the end of a sheet of 10 rows and 4 columns, and one that lies outside.
example : clipArea ⟨0, 1, 2, 65536, 1, 3⟩ 10 4 = .ok (2, 10, 1, 3) := by decide
example : clipArea ⟨0, 1, 20, 30, 5, 7⟩ 10 4 = .ok (10, 10, 4, 4) := by decide
example (env : OpenEnv) : ∃ l sh, (nameArea2d env l (some [⟨0, 1, 2, 65536, 1, 3⟩]) true).1 = .ok (sh, 2, 10, 1, 3) :=
  ⟨⟨80, newBook, [], [some ⟨"S".toList, 0, 0, { store := { Store.empty with nrows := 10, ncols := 4 } }⟩], true⟩, _, rfl⟩

/-! ## C51 -/

/-- What a file is recognised as, from its first bytes and, for a ZIP file, from the names of its members. -/
inductive RecognisedAs (zip : Bytes → R (List PyStr)) (lower : PyStr → PyStr) (file : Bytes) : Option String → Prop
  | xls (rest : Bytes) (h : file = SIGNATURE ++ rest) : RecognisedAs zip lower file (some "xls")
  | xlsx (rest : Bytes) (names : List PyStr) (h : file = ZIP_SIGNATURE ++ rest) (hz : zip file = .ok names)
      (h1 : "xl/workbook.xml".toList ∈ names.map (zipName lower)) : RecognisedAs zip lower file (some "xlsx")
  | xlsb (rest : Bytes) (names : List PyStr) (h : file = ZIP_SIGNATURE ++ rest) (hz : zip file = .ok names)
      (h1 : "xl/workbook.xml".toList ∉ names.map (zipName lower)) (h2 : "xl/workbook.bin".toList ∈ names.map (zipName lower)) :
      RecognisedAs zip lower file (some "xlsb")
  | ods (rest : Bytes) (names : List PyStr) (h : file = ZIP_SIGNATURE ++ rest) (hz : zip file = .ok names)
      (h1 : "xl/workbook.xml".toList ∉ names.map (zipName lower)) (h2 : "xl/workbook.bin".toList ∉ names.map (zipName lower))
      (h3 : "content.xml".toList ∈ names.map (zipName lower)) : RecognisedAs zip lower file (some "ods")
  | zip (rest : Bytes) (names : List PyStr) (h : file = ZIP_SIGNATURE ++ rest) (hz : zip file = .ok names)
      (h1 : "xl/workbook.xml".toList ∉ names.map (zipName lower)) (h2 : "xl/workbook.bin".toList ∉ names.map (zipName lower))
      (h3 : "content.xml".toList ∉ names.map (zipName lower)) : RecognisedAs zip lower file (some "zip")
  | other (h1 : ∀ rest, file ≠ SIGNATURE ++ rest) (h2 : ∀ rest, file ≠ ZIP_SIGNATURE ++ rest) : RecognisedAs zip lower file none

theorem peek_prefix (sig file : Bytes) (hn : sig.length ≤ 8) : sig.isPrefixOf (sliceTo file 8) = true ↔ ∃ rest, file = sig ++ rest := by
  have e : sliceTo file 8 = file.take 8 := by
    unfold sliceTo clampIdx
    simp only [show ¬ ((8 : Int) < 0) by decide, if_false]
    by_cases h : file.length ≤ 8
    · rw [List.take_of_length_le h, List.take_of_length_le]
      simp; omega
    · congr 1
      simp; omega
  rw [e, List.isPrefixOf_iff_prefix]
  constructor
  · intro h
    obtain ⟨t, ht⟩ := h.trans (List.take_prefix 8 file)
    exact ⟨t, ht.symm⟩
  · rintro ⟨rest, rfl⟩
    rw [List.take_append, List.take_of_length_le hn]
    exact ⟨_, rfl⟩

/-- C51: `inspect_format` recognises files as described. -/
theorem C51_recognised (zip : Bytes → R (List PyStr)) (lower : PyStr → PyStr) (file : Bytes) (f : Option String) :
    inspectFormat zip lower file = .ok f ↔ RecognisedAs zip lower file f := by
  unfold inspectFormat
  simp only
  by_cases c1 : SIGNATURE.isPrefixOf (sliceTo file 8) = true
  · rw [if_pos c1]
    obtain ⟨rest, hr⟩ := (peek_prefix _ _ (by decide)).mp c1
    constructor
    · intro h; cases h; exact .xls rest hr
    · intro h
      have no : ∀ r2, file ≠ ZIP_SIGNATURE ++ r2 := by
        intro r2 h2; rw [hr] at h2; simp [SIGNATURE, ZIP_SIGNATURE] at h2
      cases h with
      | xls => rfl
      | xlsx r2 _ h2 => exact absurd h2 (no r2)
      | xlsb r2 _ h2 => exact absurd h2 (no r2)
      | ods r2 _ h2 => exact absurd h2 (no r2)
      | zip r2 _ h2 => exact absurd h2 (no r2)
      | other h1 => exact absurd hr (h1 rest)
  · rw [if_neg c1]
    have nox : ∀ rest, file ≠ SIGNATURE ++ rest := fun rest h => c1 ((peek_prefix _ _ (by decide)).mpr ⟨rest, h⟩)
    by_cases c2 : ZIP_SIGNATURE.isPrefixOf (sliceTo file 8) = true
    · rw [if_pos c2]
      obtain ⟨rest, hr⟩ := (peek_prefix _ _ (by decide)).mp c2
      cases hz : zip file with
      | error e =>
        constructor
        · intro h; cases h
        · intro h
          cases h with
          | xls r2 h2 => exact absurd h2 (nox r2)
          | xlsx _ _ _ h2 => rw [hz] at h2; cases h2
          | xlsb _ _ _ h2 => rw [hz] at h2; cases h2
          | ods _ _ _ h2 => rw [hz] at h2; cases h2
          | zip _ _ _ h2 => rw [hz] at h2; cases h2
          | other _ h2 => exact absurd hr (h2 rest)
      | ok names =>
        simp only [bind, Except.bind, pure, Except.pure, Except.ok.injEq, zipFormat]
        constructor
        · intro h
          subst h
          by_cases h1 : "xl/workbook.xml".toList ∈ names.map (zipName lower)
          · rw [if_pos h1]; exact .xlsx rest names hr hz h1
          · rw [if_neg h1]
            by_cases h2 : "xl/workbook.bin".toList ∈ names.map (zipName lower)
            · rw [if_pos h2]; exact .xlsb rest names hr hz h1 h2
            · rw [if_neg h2]
              by_cases h3 : "content.xml".toList ∈ names.map (zipName lower)
              · rw [if_pos h3]; exact .ods rest names hr hz h1 h2 h3
              · rw [if_neg h3]; exact .zip rest names hr hz h1 h2 h3
        · intro h
          cases h with
          | xls r2 h2 => exact absurd h2 (nox r2)
          | xlsx _ n _ h2 a => rw [hz] at h2; cases h2; rw [if_pos a]
          | xlsb _ n _ h2 a b => rw [hz] at h2; cases h2; rw [if_neg a, if_pos b]
          | ods _ n _ h2 a b c => rw [hz] at h2; cases h2; rw [if_neg a, if_neg b, if_pos c]
          | zip _ n _ h2 a b c => rw [hz] at h2; cases h2; rw [if_neg a, if_neg b, if_neg c]
          | other _ h2 => exact absurd hr (h2 rest)
    · rw [if_neg c2]
      have noz : ∀ rest, file ≠ ZIP_SIGNATURE ++ rest := fun rest h => c2 ((peek_prefix _ _ (by decide)).mpr ⟨rest, h⟩)
      constructor
      · intro h; cases h; exact .other nox noz
      · intro h
        cases h with
        | xls r2 h2 => exact absurd h2 (nox r2)
        | xlsx r2 _ h2 => exact absurd h2 (noz r2)
        | xlsb r2 _ h2 => exact absurd h2 (noz r2)
        | ods r2 _ h2 => exact absurd h2 (noz r2)
        | zip r2 _ h2 => exact absurd h2 (noz r2)
        | other => rfl

/-- C51: a file recognised as another format is refused with an XLRDError that names the format, whatever parsing it would do; a file recognised as xls, or
not recognised, is parsed. -/
theorem C51_only_xls_parsed {α : Type} (zip : Bytes → R (List PyStr)) (lower : PyStr → PyStr) (xls : Bytes → α) (file : Bytes) :
    (RecognisedAs zip lower file (some "xlsx") → openWorkbook zip lower xls file = .inl (.xlrd, some "Excel xlsx file; not supported")) ∧
    (RecognisedAs zip lower file (some "xlsb") → openWorkbook zip lower xls file = .inl (.xlrd, some "Excel 2007 xlsb file; not supported")) ∧
    (RecognisedAs zip lower file (some "ods") → openWorkbook zip lower xls file = .inl (.xlrd, some "Openoffice.org ODS file; not supported")) ∧
    (RecognisedAs zip lower file (some "zip") → openWorkbook zip lower xls file = .inl (.xlrd, some "Unknown ZIP file; not supported")) ∧
    (RecognisedAs zip lower file (some "xls") ∨ RecognisedAs zip lower file none → openWorkbook zip lower xls file = .inr (xls file)) := by
  unfold openWorkbook
  refine ⟨?_, ?_, ?_, ?_, ?_⟩
  · intro h; rw [(C51_recognised zip lower file _).mpr h]; rfl
  · intro h; rw [(C51_recognised zip lower file _).mpr h]; rfl
  · intro h; rw [(C51_recognised zip lower file _).mpr h]; rfl
  · intro h; rw [(C51_recognised zip lower file _).mpr h]; rfl
  · rintro (h | h) <;> rw [(C51_recognised zip lower file _).mpr h] <;> rfl

/-- C51: parsing is attempted only for files that do not start like a ZIP file. -/
theorem C51_zip_never_parsed {α : Type} (zip : Bytes → R (List PyStr)) (lower : PyStr → PyStr) (xls : Bytes → α) (rest : Bytes) :
    ∃ e m, openWorkbook zip lower xls (ZIP_SIGNATURE ++ rest) = .inl (e, m) := by
  unfold openWorkbook
  cases h : inspectFormat zip lower (ZIP_SIGNATURE ++ rest) with
  | error e => exact ⟨e, none, rfl⟩
  | ok f =>
    have := (C51_recognised _ _ _ _).mp h
    cases this with
    | xls r2 h2 => simp [SIGNATURE, ZIP_SIGNATURE] at h2
    | xlsx => exact ⟨_, _, rfl⟩
    | xlsb => exact ⟨_, _, rfl⟩
    | ods => exact ⟨_, _, rfl⟩
    | zip => exact ⟨_, _, rfl⟩
    | other _ h2 => exact absurd rfl (h2 rest)

-- A ZIP file with a member whose name has capitals and a backslash.
example : openWorkbook (fun _ => .ok ["mimetype".toList, "XL\\Workbook.bin".toList]) (List.map Char.toLower) (fun _ => ()) [0x50, 0x4B, 3, 4, 7] =
    .inl (.xlrd, some "Excel 2007 xlsb file; not supported") := by decide
example : openWorkbook (fun _ => .error .value) id (fun _ => ()) [9, 8, 16, 0] = .inr () := by decide

end Xlrd
