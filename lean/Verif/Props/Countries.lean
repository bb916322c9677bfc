import Verif.Lemmas.Countries
import Verif.Props.Workbook
import Verif.Props.Drawing

/-!
# Files in which reading a sheet does not change the countries of the book (C41)
-/
set_option linter.unusedSimpArgs false
namespace Xlrd
open Spec

/-- C41: a file whose globals name a country (other than 0, 0) keeps it: `SheetsKeepCountries` holds, and so the theorems about such files apply. -/
theorem C41_named_countries (env : OpenEnv) (mem : Bytes) (base : Int) (v : Nat) (p : Int) (hv : firstBof mem base = .ok (v, p)) (h50 : 50 ≤ v)
    (hc : ∀ l, openStream { env with onDemand := true } mem base = .ok l → l.book.countries ≠ (0, 0)) : SheetsKeepCountries env mem base := by
  intro l hl k
  have h0 := hc l hl
  obtain ⟨b, q, _, ho⟩ := openStream_new hv h50 hl
  unfold openSheets at ho
  rw [if_pos rfl] at ho
  cases ho
  by_cases hk : k < b.sheetNames.length
  · rw [ask_countries (by simp only [List.getElem?_replicate]; rw [if_pos hk]) rfl]
    unfold leftCountries
    cases sheetStart ⟨v, b, mem, List.replicate b.sheetNames.length none, false⟩ (k : Int) with
    | error e => rfl
    | ok x => exact sheetCountries_named (env := OpenEnv.sheetEnv { env with onDemand := true } v b) h0 _ _ _ rfl
  · unfold sheetByIndex
    rw [idx_nat_ge _ _ (by rw [List.length_replicate]; omega)]

theorem fold_countries (xs : List ExtraRec) : ∀ e : Extras, (xs.foldl applyExtra e).countries = e.countries := by
  induction xs with
  | nil => intro e; rfl
  | cons x xs ih =>
    intro e
    rw [List.foldl_cons, ih]
    cases x with
    | note n =>
      cases n with
      | boxed row col flags obj author _ =>
        simp only [applyExtra]
        cases e.txos obj <;> rfl
      | _ => rfl
    | _ => rfl

/-- Reading a sheet of well-formed records, which do not include COUNTRY records, does not change the countries. -/
theorem layout_countries {env : OpenEnv} {v : Nat} {mem : Bytes} {base : Nat} {items : List GItem}
    {sheets : List SheetRec} (h50 : 50 ≤ v) (hw : WorkbookStream v (textAt (env.bookEnv v base)) mem base items sheets) {l : Lib}
    (h : openStream env mem base = .ok l) {k : Nat} {s : SheetRec} (hk : worksheet sheets k = some s) {L : Layout}
    (hL : SheetAt v mem (base + s.offset) L) (hok : L.Ok v (libDec env l.book) (l.book.sst.map Prod.fst)) {sh : LSheet} (hr : readSheet env l (k : Int) = .ok sh) :
    leftCountries env l (k : Int) = l.book.countries := by
  obtain ⟨e1, e2, pre, rest, hm, hs⟩ := sheetStart_layout h50 hw h hk hL
  have hs : sheetStart l (k : Int) = .ok ((pre.length : Int), s.name, s.visibility) := hs l.book.countries
  unfold readSheet at hr
  rw [hs] at hr
  obtain ⟨st, h3, _⟩ := bind_ok (show (sheetRead (env.sheetEnv l.bv l.book) l.mem (pre.length : Int) >>= fun st => pure ⟨s.name, k, s.visibility, st⟩) = Except.ok sh from hr)
  rw [e1, e2] at h3
  have hx : st.ext.countries = none := by
    rw [hm] at h3
    rw [read_ext (env := env.sheetEnv v l.book) (show 30 ≤ v by omega) hok h3, fold_countries]
  unfold leftCountries
  rw [hs]
  simp only
  rw [e1, e2]
  unfold sheetRead at h3
  obtain ⟨s1, h5, h6⟩ := bind_ok h3
  rw [sheetCountries_read _ _ _ _ h5]
  have : st.ext = s1.ext := by
    rw [(finish_fields h6).2]
    unfold updateCooked; split_ifs <;> rfl
  rw [← this, hx]
  rfl

/-- C41: so does a file whose worksheets are all well-formed (their records do not include COUNTRY records). -/
theorem C41_wellformed_sheets (env : OpenEnv) (v : Nat) (mem : Bytes) (base : Nat) (items : List GItem) (sheets : List SheetRec) (h50 : 50 ≤ v)
    (hw : WorkbookStream v (textAt (env.bookEnv v base)) mem base items sheets)
    (hs : ∀ l, openStream { env with onDemand := true } mem base = .ok l → ∀ k s, worksheet sheets k = some s → ∃ L sh, SheetAt v mem (base + s.offset) L ∧
      L.Ok v (libDec env l.book) (l.book.sst.map Prod.fst) ∧ (sheetByIndex { env with onDemand := true } l (k : Int)).1 = .ok sh) :
    SheetsKeepCountries env mem base := by
  intro l hl k
  have hw' : WorkbookStream v (textAt (OpenEnv.bookEnv { env with onDemand := true } v base)) mem base items sheets := by rw [bookEnv_onDemand]; exact hw
  have hn := C67_sheet_names _ v mem base items sheets h50 hw' l hl
  obtain ⟨p, _, _, hv, _⟩ := stream_opened h50 hw' hl
  have hl' := hl
  obtain ⟨b, q, _, ho⟩ := openStream_new hv h50 hl
  unfold openSheets at ho
  rw [if_pos rfl] at ho
  cases ho
  simp only at hn
  by_cases hk : k < b.sheetNames.length
  · have hnone : (List.replicate b.sheetNames.length (none : Option LSheet))[k]? = some none := by rw [List.getElem?_replicate, if_pos hk]
    rw [ask_countries hnone rfl]
    have hkl : k < (sheets.filter SheetRec.isWorksheet).length := by rw [hn, List.length_map] at hk; exact hk
    obtain ⟨L, sh, h1, h2, h3⟩ := hs _ hl' k _ (List.getElem?_eq_getElem hkl)
    have hrd : ∃ sh, readSheet { env with onDemand := true } ⟨v, b, mem, List.replicate b.sheetNames.length none, false⟩ (k : Int) = .ok sh := by
      unfold sheetByIndex getSheet at h3
      simp only [(idx_ok_nat _ _ _).mpr hnone, Bool.false_eq_true, if_false] at h3
      cases hc : readSheet { env with onDemand := true } ⟨v, b, mem, List.replicate b.sheetNames.length none, false⟩ (k : Int) with
      | error e => rw [hc] at h3; cases h3
      | ok x => exact ⟨x, rfl⟩
    obtain ⟨sh', hsh⟩ := hrd
    exact layout_countries h50 hw' hl' (List.getElem?_eq_getElem hkl) h1 h2 hsh
  · unfold sheetByIndex
    rw [idx_nat_ge _ _ (by rw [List.length_replicate]; omega)]

end Xlrd
