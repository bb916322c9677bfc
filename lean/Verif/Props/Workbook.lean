import Verif.Props.Life
import Verif.Props.SheetAttrs

/-!
# From the bytes of a workbook stream to the cells the API shows (C67)
-/
set_option linter.unusedSimpArgs false
namespace Xlrd
open Spec

/-- What opening a well-formed stream does. -/
theorem stream_opened {env : OpenEnv} {v : Nat} {dec : List GItem → Bytes → R PyStr} {mem : Bytes} {base : Nat}
    {items : List GItem} {sheets : List SheetRec} (h50 : 50 ≤ v) (hw : WorkbookStream v dec mem base items sheets) {l : Lib}
    (h : openStream env mem base = .ok l) :
    ∃ (p : Int) (b : Book) (q : Int), firstBof mem base = .ok (v, p) ∧ parseGlobals (env.bookEnv v base) mem newBook p = .ok (b, q) ∧
      openSheets env ⟨v, b, mem, List.replicate b.sheetNames.length none, false⟩ = .ok l ∧
      ∃ pre eof post, eof.length < 65536 ∧ mem = pre ++ encGlobals items eof ++ post ∧ p = (pre.length : Int) := by
  obtain ⟨pre, op, bof, eof, post, rfl, hb, he, hm⟩ := hw.bytes
  have hf : firstBof mem (pre.length : Int) = .ok (v, ((pre ++ encRec op bof).length : Int)) := by
    have := C52_first_bof hb pre (encGlobals items eof ++ post)
    rw [if_pos (show StartsFile v 5 from Or.inl rfl)] at this
    rw [hm, List.append_assoc _ (encGlobals items eof)]
    exact this
  obtain ⟨b, q, h1, h2⟩ := openStream_new hf h50 h
  exact ⟨_, b, q, hf, h1, h2, pre ++ encRec op bof, eof, post, he, hm, rfl⟩

theorem getSheets_frame {env : OpenEnv} (m : Nat) : ∀ (a : Nat) (x y : Lib), getSheets env m a x = .ok y →
    y.bv = x.bv ∧ (∃ c, y.book = { x.book with countries := c }) ∧ y.mem = x.mem := by
  induction m with
  | zero => intro a x y hxy; cases hxy; exact ⟨rfl, ⟨_, rfl⟩, rfl⟩
  | succ m ih =>
    intro a x y hxy
    unfold getSheets getSheet at hxy
    by_cases hr : x.released = true
    · rw [if_pos hr] at hxy; cases hxy
    · rw [if_neg hr] at hxy
      cases hrd : readSheet env x (a : Int) with
      | error e => rw [hrd] at hxy; cases hxy
      | ok sh =>
        rw [hrd] at hxy
        simp only [bind, Except.bind] at hxy
        cases hst : setIdx x.sheetList (a : Int) (some sh) with
        | error e => rw [hst] at hxy; cases hxy
        | ok sl =>
          rw [hst] at hxy
          have hy : getSheets env m (a + 1) { x.left env a with sheetList := sl } = .ok y := hxy
          obtain ⟨h1, ⟨c, h2⟩, h3⟩ := ih _ { x.left env a with sheetList := sl } _ hy
          exact ⟨h1, ⟨c, h2⟩, h3⟩

theorem openSheets_frame {env : OpenEnv} {l l' : Lib} (h : openSheets env l = .ok l') : l'.bv = l.bv ∧ (∃ c, l'.book = { l.book with countries := c }) ∧ l'.mem = l.mem := by
  unfold openSheets at h
  by_cases hd : env.onDemand = true
  · rw [if_pos hd] at h; cases h; exact ⟨rfl, ⟨_, rfl⟩, rfl⟩
  · rw [if_neg hd] at h
    cases hg : getSheets env l.book.sheetNames.length 0 l with
    | error e => rw [hg] at h; cases h
    | ok l1 =>
      rw [hg] at h
      cases h
      have := getSheets_frame _ _ _ _ hg
      exact this

/-- C67: the sheets of an opened book are the worksheets of its BOUNDSHEET records. -/
theorem C67_sheet_names (env : OpenEnv) (v : Nat) (mem : Bytes) (base : Nat) (items : List GItem)
    (sheets : List SheetRec) (h50 : 50 ≤ v) (hw : WorkbookStream v (textAt (env.bookEnv v base)) mem base items sheets) (l : Lib)
    (h : openStream env mem base = .ok l) : l.book.sheetNames = (sheets.filter SheetRec.isWorksheet).map SheetRec.name := by
  obtain ⟨p, b, q, _, hg, ho, pre, eof, post, he, hm, hp⟩ := stream_opened h50 hw h
  subst hp
  rw [hm] at hg
  obtain ⟨h1, _⟩ := C43_boundsheets (env.bookEnv v base) h50 pre post eof he items hw.ok sheets hw.sheets b q hg
  obtain ⟨_, ⟨c, hc⟩, _⟩ := openSheets_frame ho
  rw [hc]
  exact h1

theorem sheetStart_layout {env : OpenEnv} {v : Nat} {mem : Bytes} {base : Nat} {items : List GItem}
    {sheets : List SheetRec} (h50 : 50 ≤ v) (hw : WorkbookStream v (textAt (env.bookEnv v base)) mem base items sheets) {l : Lib}
    (h : openStream env mem base = .ok l) {k : Nat} {s : SheetRec} (hk : worksheet sheets k = some s) {L : Layout}
    (hL : SheetAt v mem (base + s.offset) L) :
    l.bv = v ∧ l.mem = mem ∧ ∃ pre rest, mem = pre ++ encRecs (L.records v) ++ rest ∧ ∀ c,
      sheetStart (l.withCountries c) (k : Int) = .ok ((pre.length : Int), s.name, s.visibility) := by
  obtain ⟨p, b, q, _, hg, ho, pre, eof, post, he, hm, hp⟩ := stream_opened h50 hw h
  subst hp
  have hg' := hg
  rw [hm] at hg'
  obtain ⟨h1, h2, h3, _⟩ := C43_boundsheets (env.bookEnv v base) h50 pre post eof he items hw.ok sheets hw.sheets b q hg'
  obtain ⟨f1, ⟨c2, f2⟩, f3⟩ := openSheets_frame ho
  simp only at f1 f2 f3
  obtain ⟨w, op, bof, rest, hb, hd⟩ := hL
  have hlen : (mem.take (base + s.offset)).length = base + s.offset := by
    rw [List.length_take]
    have : 0 < (mem.drop (base + s.offset)).length := by rw [hd]; simp [encRec]
    rw [List.length_drop] at this; omega
  have hmem : mem = mem.take (base + s.offset) ++ encRec op bof ++ (encRecs (L.records v) ++ rest) := by
    conv_lhs => rw [← List.take_append_drop (base + s.offset) mem, hd]
    rw [List.append_assoc]
  have hbof := C52_sheet_bof hb (mem.take (base + s.offset)) (encRecs (L.records v) ++ rest)
  rw [if_pos rfl, ← hmem, hlen] at hbof
  refine ⟨f1, f3, mem.take (base + s.offset) ++ encRec op bof, rest, by rw [List.append_assoc _ (encRecs _)]; exact hmem, fun c => ?_⟩
  unfold worksheet at hk
  unfold sheetStart Lib.withCountries
  simp only [f1, f2, f3, h1, h2, h3]
  have e1 : idx ((sheets.filter SheetRec.isWorksheet).map fun s => (s.offset : Int) + (env.bookEnv v base).base) (k : Int) = .ok (((base + s.offset : Nat)) : Int) := by
    rw [idx_ok_nat, List.getElem?_map, hk]
    simp [OpenEnv.bookEnv]; omega
  have e2 : idx ((sheets.filter SheetRec.isWorksheet).map SheetRec.name) (k : Int) = .ok s.name := by
    rw [idx_ok_nat, List.getElem?_map, hk]; rfl
  have e3 : idx ((sheets.filter SheetRec.isWorksheet).map SheetRec.visibility) (k : Int) = .ok s.visibility := by
    rw [idx_ok_nat, List.getElem?_map, hk]; rfl
  rw [e1, e2, e3]
  simp only [bind, Except.bind]
  rw [hbof]
  rfl

theorem readSheet_layout {env : OpenEnv} {v : Nat} {mem : Bytes} {base : Nat} {items : List GItem}
    {sheets : List SheetRec} (h50 : 50 ≤ v) (hw : WorkbookStream v (textAt (env.bookEnv v base)) mem base items sheets) {l : Lib}
    (h : openStream env mem base = .ok l) {k : Nat} {s : SheetRec} (hk : worksheet sheets k = some s) {L : Layout}
    (hL : SheetAt v mem (base + s.offset) L) :
    ∃ pre rest, mem = pre ++ encRecs (L.records v) ++ rest ∧ ∀ c,
      readSheet env (l.withCountries c) (k : Int) =
        (sheetRead { env.sheetEnv v l.book with countries := c } mem (pre.length : Int)).map fun st => ⟨s.name, k, s.visibility, st⟩ := by
  obtain ⟨e1, e2, pre, rest, hm, hs⟩ := sheetStart_layout h50 hw h hk hL
  refine ⟨pre, rest, hm, fun c => ?_⟩
  unfold readSheet
  rw [hs c]
  show Except.bind (sheetRead { env.sheetEnv l.bv l.book with countries := c } l.mem (pre.length : Int)) _ = _
  rw [e1, e2]
  cases sheetRead { env.sheetEnv v l.book with countries := c } mem (pre.length : Int) <;> rfl

/-- A returned sheet is what the records where its BOUNDSHEET record points are read as. -/
theorem returned_read (env : OpenEnv) (v : Nat) (mem : Bytes) (base : Nat)
    (items : List GItem) (sheets : List SheetRec) (h50 : 50 ≤ v) (hw : WorkbookStream v (textAt (env.bookEnv v base)) mem base items sheets) (l : Lib)
    (h : openStream env mem base = .ok l) (k : Nat) (s : SheetRec) (hk : worksheet sheets k = some s) (L : Layout)
    (hL : SheetAt v mem (base + s.offset) L) (cs : List Call) (sh : LSheet)
    (hr : (sheetByIndex env (libCalls env l cs).2 (k : Int)).1 = .ok sh) :
    sh.name = s.name ∧ sh.visibility = s.visibility ∧ ∃ (pre rest : Bytes) (c : Nat × Nat),
      sheetRead { env.sheetEnv v l.book with countries := c } (pre ++ encRecs (L.records v) ++ rest) (pre.length : Int) = .ok sh.st := by
  obtain ⟨p, b, q, hv, _⟩ := stream_opened h50 hw h
  obtain ⟨k', cty, c, h1, h2, h3⟩ := C41_returned_sheet env mem base v p l hv h50 h cs (k : Int) sh hr
  have hkl : k < l.book.sheetNames.length := by
    rw [C67_sheet_names env v mem base items sheets h50 hw l h, List.length_map]
    unfold worksheet at hk
    exact (List.getElem?_eq_some_iff.mp hk).1
  rw [sheetNo_nat hkl] at h1
  cases h1
  obtain ⟨pre, rest, hm, hrd⟩ := readSheet_layout h50 hw h hk hL
  rw [hrd] at h2
  cases hst : sheetRead { env.sheetEnv v l.book with countries := cty } mem (pre.length : Int) with
  | error e => rw [hst] at h2; cases h2
  | ok st =>
    rw [hst] at h2
    cases h2
    rw [hm] at hst
    rw [h3]
    exact ⟨rfl, rfl, pre, rest, cty, hst⟩

/-- C67: whatever has been done with an opened book, a sheet that it returns for an index has the name and the visibility of the BOUNDSHEET record of
that worksheet, and holds exactly the cells of the records that stand where that record points. -/
theorem C67_sheet (env : OpenEnv) (v : Nat) (mem : Bytes) (base : Nat)
    (items : List GItem) (sheets : List SheetRec) (h50 : 50 ≤ v) (hw : WorkbookStream v (textAt (env.bookEnv v base)) mem base items sheets) (l : Lib)
    (h : openStream env mem base = .ok l) (k : Nat) (s : SheetRec) (hk : worksheet sheets k = some s) (L : Layout)
    (hL : SheetAt v mem (base + s.offset) L) (hok : L.Ok v (libDec env l.book) (l.book.sst.map Prod.fst)) (cs : List Call) (sh : LSheet)
    (hr : (sheetByIndex env (libCalls env l cs).2 (k : Int)).1 = .ok sh) :
    sh.name = s.name ∧ sh.visibility = s.visibility ∧
    loadCells (env.sheetEnv v l.book).cfg (cellsOf fl env.fi (l.book.sst.map Prod.fst) L.items) (mergedRanges env.fi L.items) = .ok sh.st.store := by
  obtain ⟨h1, h2, pre, rest, cty, hst⟩ := returned_read env v mem base items sheets h50 hw l h k s hk L hL cs sh hr
  exact ⟨h1, h2, C31_sheet_is_its_cells { env.sheetEnv v l.book with countries := cty } (show 30 ≤ v by omega) L hok pre rest sh.st hst⟩

/-- The cell types that XF records give to numbers: dates or plain numbers. -/
def TypesOf (fmts : List (Nat × PyStr)) (xfs : List XF) (tm : Int → Option Nat) : Prop :=
  ∀ (i : Nat) x, xfs[i]? = some x → (DateKey fmts x.formatKey → tm i = some XL_CELL_DATE) ∧ (¬ DateKey fmts x.formatKey → tm i = some XL_CELL_NUMBER)

theorem types_of (env : OpenEnv) (v : Nat) (mem : Bytes) (base : Nat) (items : List GItem) (sheets : List SheetRec) (h50 : 50 ≤ v)
    (hw : WorkbookStream v (textAt (env.bookEnv v base)) mem base items sheets)
    (fmts : List (Nat × PyStr)) (hf : Formats v (textAt (env.bookEnv v base)) items fmts) (xfs : List XF)
    (hx : Xfs v (textAt (env.bookEnv v base)) items xfs) (l : Lib)
    (h : openStream env mem base = .ok l) : TypesOf fmts xfs (env.sheetEnv v l.book).cfg.typeMap := by
  obtain ⟨p, b, q, _, hg, ho, pre, eof, post, he, hm, hp⟩ := stream_opened h50 hw h
  subst hp
  rw [hm] at hg
  intro i x hi
  have := C34_date_cells (env.bookEnv v base) h50 pre post eof he items hw.ok fmts hf xfs hx b q hg i x hi
  obtain ⟨_, ⟨c, hc⟩, _⟩ := openSheets_frame ho
  simp only [OpenEnv.sheetEnv, hc]
  rw [if_pos (by omega)]
  simpa using this

theorem lt_max {ws : List Write} {merged : List CRange} {r m : Nat} (h : r < height ws merged) (h1 : ∀ w ∈ ws, w.row < m)
    (h2 : height ws [] < maxOf (merged.map (·.rhi)) → maxOf (merged.map (·.rhi)) ≤ m) : r < m := by
  have hw : maxOf (ws.map (·.row + 1)) ≤ m := maxOf_le.mpr fun x hx => by
    obtain ⟨w, hw, rfl⟩ := List.mem_map.mp hx
    exact h1 w hw
  have e : height ws [] = maxOf (ws.map (·.row + 1)) := by simp [height, maxOf]
  rw [e] at h2
  unfold height at h
  omega

/-- C67: every cell of such a sheet: inside the sheet, `cell_type` and `cell_value` (and `cell_xf_index`) are those of the last cell record written for that position (an empty
cell if there is none), a number being a date exactly if the format of its XF is a date format; `nrows` and `ncols` are just large enough. -/
theorem C67_cell (env : OpenEnv) (hrag : env.ragged = false) (v : Nat)
    (mem : Bytes) (base : Nat) (items : List GItem) (sheets : List SheetRec) (h50 : 50 ≤ v)
    (hw : WorkbookStream v (textAt (env.bookEnv v base)) mem base items sheets)
    (fmts : List (Nat × PyStr)) (hf : Formats v (textAt (env.bookEnv v base)) items fmts) (xfs : List XF)
    (hx : Xfs v (textAt (env.bookEnv v base)) items xfs) (l : Lib)
    (h : openStream env mem base = .ok l) (k : Nat) (s : SheetRec) (hk : worksheet sheets k = some s) (L : Layout)
    (hL : SheetAt v mem (base + s.offset) L) (hok : L.Ok v (libDec env l.book) (l.book.sst.map Prod.fst)) (cs : List Call) (sh : LSheet)
    (hr : (sheetByIndex env (libCalls env l cs).2 (k : Int)).1 = .ok sh) :
    ∃ tm, TypesOf fmts xfs tm ∧
      let cells := cellsOf fl env.fi (l.book.sst.map Prod.fst) L.items
      sh.st.store.nrows = height cells (mergedRanges env.fi L.items) ∧ sh.st.store.ncols = width cells (mergedRanges env.fi L.items) ∧
      ∀ r c : Nat, (r < sh.st.store.nrows ∧ c < sh.st.store.ncols →
          sh.st.store.cellType r c = .ok (cellAt tm cells r c).ty ∧ sh.st.store.cellValue r c = .ok (cellAt tm cells r c).v ∧
          (env.fi = true → sh.st.store.cellXf r c = .ok (cellAt tm cells r c).xf)) ∧
        (¬ (r < sh.st.store.nrows ∧ c < sh.st.store.ncols) → sh.st.store.cellType r c = .error .index ∧ sh.st.store.cellValue r c = .error .index) := by
  obtain ⟨_, _, h3⟩ := C67_sheet env v mem base items sheets h50 hw l h k s hk L hL hok cs sh hr
  refine ⟨(env.sheetEnv v l.book).cfg.typeMap, ?_, ?_, ?_, ?_⟩
  · exact types_of env v mem base items sheets h50 hw fmts hf xfs hx l h
  · exact (C14_dimensions_tight _ _ _ _ (merged_pos _ _) h3).1
  · exact (C14_dimensions_tight _ _ _ _ (merged_pos _ _) h3).2
  · intro r c
    exact C12_last_write_wins (env.sheetEnv v l.book).cfg _ _ _ (merged_pos _ _) hrag h3 r c

/-- Inside the row, the store has what the last write gave, ragged or not. -/
theorem store_cell {cfg : SheetCfg} {ws : List Write} {merged : List CRange} {st : Store} (hm : ∀ m ∈ merged, 1 ≤ m.chi)
    (h : loadCells cfg ws merged = .ok st) {r c n : Nat} (hl : st.rowLen r = .ok n) (hc : c < n) :
    r < st.nrows ∧ st.cellType r c = .ok (cellAt cfg.typeMap ws r c).ty ∧ st.cellValue r c = .ok (cellAt cfg.typeMap ws r c).v ∧
      (cfg.fmtInfo = true → st.cellXf r c = .ok (cellAt cfg.typeMap ws r c).xf) := by
  obtain ⟨_, G, f⟩ := (load_final cfg ws merged hm).2 st h
  have g := final_get cfg ws merged st G f r c
  have hr : r < G.length := by
    by_contra hr
    unfold Store.rowLen at hl
    rw [f.rep.values, idx_nat_ge _ _ (by simpa using hr)] at hl
    cases hl
  have hn : gLen G r = n := by
    unfold Store.rowLen at hl
    rw [f.rep.values, idx_nat_lt _ _ (by simpa using hr)] at hl
    have e : gLen G r = G[r].length := by simp [gLen, List.getD, List.getElem?_eq_getElem hr]
    simpa [bind, Except.bind, pure, Except.pure, e] using hl
  refine ⟨by rw [f.nrows, ← f.glen]; exact hr, ?_⟩
  simp only [if_pos (show r < G.length ∧ c < gLen G r from ⟨hr, by omega⟩)] at g
  exact g

/-- The XF indexes in cell records are not negative. -/
theorem cells_xf {fi : Bool} {sst : List PyStr} {items : List SheetItem} : ∀ w ∈ cellsOf fl fi sst items, 0 ≤ w.xf := by
  intro w hw
  obtain ⟨i, _, hi⟩ := List.mem_flatMap.mp hw
  cases i with
  | cell x => cases x <;> simp [CellRec.cells] at hi <;> grind
  | _ => cases hi

/-- C67: the cells of a sheet opened with `ragged_rows=True`: a row reaches to the last cell written in it (the last row of a merged range that
ends below all cells has one cell), and shows what the last record for each position says. -/
theorem C67_cell_ragged (env : OpenEnv) (hrag : env.ragged = true) (v : Nat)
    (mem : Bytes) (base : Nat) (items : List GItem) (sheets : List SheetRec) (h50 : 50 ≤ v)
    (hw : WorkbookStream v (textAt (env.bookEnv v base)) mem base items sheets)
    (fmts : List (Nat × PyStr)) (hf : Formats v (textAt (env.bookEnv v base)) items fmts) (xfs : List XF)
    (hx : Xfs v (textAt (env.bookEnv v base)) items xfs) (l : Lib)
    (h : openStream env mem base = .ok l) (k : Nat) (s : SheetRec) (hk : worksheet sheets k = some s) (L : Layout)
    (hL : SheetAt v mem (base + s.offset) L) (hok : L.Ok v (libDec env l.book) (l.book.sst.map Prod.fst)) (cs : List Call) (sh : LSheet)
    (hr : (sheetByIndex env (libCalls env l cs).2 (k : Int)).1 = .ok sh) :
    ∃ tm, TypesOf fmts xfs tm ∧
      let cells := cellsOf fl env.fi (l.book.sst.map Prod.fst) L.items
      sh.st.store.nrows = height cells (mergedRanges env.fi L.items) ∧ sh.st.store.ncols = width cells (mergedRanges env.fi L.items) ∧
      ∀ r : Nat, r < sh.st.store.nrows → ∃ n, sh.st.store.rowLen r = .ok n ∧
        n = (if (∀ w ∈ cells, w.row < r) ∧ r + 1 = sh.st.store.nrows then 1 else rowWidth cells r) ∧
        ∀ c : Nat, (c < n → sh.st.store.cellType r c = .ok (cellAt tm cells r c).ty ∧ sh.st.store.cellValue r c = .ok (cellAt tm cells r c).v) ∧
          (n ≤ c → lastAt cells r c = none ∧ sh.st.store.cellType r c = .error .index ∧ sh.st.store.cellValue r c = .error .index) := by
  obtain ⟨_, _, h3⟩ := C67_sheet env v mem base items sheets h50 hw l h k s hk L hL hok cs sh hr
  refine ⟨(env.sheetEnv v l.book).cfg.typeMap, types_of env v mem base items sheets h50 hw fmts hf xfs hx l h, ?_, ?_, ?_⟩
  · exact (C14_dimensions_tight _ _ _ _ (merged_pos _ _) h3).1
  · exact (C14_dimensions_tight _ _ _ _ (merged_pos _ _) h3).2
  · intro r hr
    refine ⟨_, C15_ragged_row_length _ _ _ _ (merged_pos _ _) hrag h3 r hr, rfl, fun c => ⟨fun hc => ?_, fun hc => ?_⟩⟩
    · have := store_cell (merged_pos _ _) h3 (C15_ragged_row_length _ _ _ _ (merged_pos _ _) hrag h3 r hr) hc
      exact ⟨this.2.1, this.2.2.1⟩
    · have hl := C15_ragged_row_length _ _ _ _ (merged_pos _ _) hrag h3 r hr
      refine ⟨?_, ?_⟩
      · by_contra hne
        obtain ⟨w, hw⟩ := Option.ne_none_iff_exists'.mp hne
        have hmem := List.mem_of_find?_eq_some hw
        have hp := List.find?_some hw
        obtain ⟨n, h5, h6⟩ := (C12_last_write_wins_ragged _ _ _ _ (merged_pos _ _) hrag h3 r c).2 w (by simpa using hmem) (by simp at hp; exact hp.1) (by simp at hp; exact hp.2)
        rw [hl] at h5
        cases h5
        omega
      · obtain ⟨_, G, f⟩ := (load_final _ _ _ (merged_pos _ _)).2 _ h3
        have g := final_get _ _ _ _ G f r c
        have hG : r < G.length := by rw [f.glen, ← f.nrows]; exact hr
        have hnot : ¬ (r < G.length ∧ c < gLen G r) := by
          rintro ⟨_, hc'⟩
          unfold Store.rowLen at hl
          rw [f.rep.values, idx_nat_lt _ _ (by simpa using hG)] at hl
          have e : gLen G r = G[r].length := by simp [gLen, List.getD, List.getElem?_eq_getElem hG]
          simp only [List.getElem_map, bind, Except.bind, pure, Except.pure, List.length_map, ← e, Except.ok.injEq] at hl
          omega
        simp only [if_neg hnot] at g
        exact ⟨g.1, g.2.1⟩

/-- C67: with `formatting_info=True`, the XF index of every cell: that of its last record, else the row's default, else the column's, else 15; and
the cell object consists of this and of the cell's type and value. -/
theorem C67_xf_index (env : OpenEnv) (hfi : env.fi = true) (v : Nat) (mem : Bytes) (base : Nat)
    (items : List GItem) (sheets : List SheetRec) (h50 : 50 ≤ v) (hw : WorkbookStream v (textAt (env.bookEnv v base)) mem base items sheets) (l : Lib)
    (h : openStream env mem base = .ok l) (k : Nat) (s : SheetRec) (hk : worksheet sheets k = some s) (L : Layout)
    (hL : SheetAt v mem (base + s.offset) L) (hok : L.Ok v (libDec env l.book) (l.book.sst.map Prod.fst)) (cs : List Call) (sh : LSheet)
    (hr : (sheetByIndex env (libCalls env l cs).2 (k : Int)).1 = .ok sh) (r c n : Nat) (hl : sh.st.store.rowLen r = .ok n) (hc : c < n) :
    let view := sh.st.view (env.sheetEnv v l.book)
    let xf := xfIndexOf (cellsOf fl env.fi (l.book.sst.map Prod.fst) L.items) L.items r c
    (∃ src, cellXfIndex view r c = .ok (xf, src)) ∧
    ∃ ty val, sh.st.store.cellType r c = .ok ty ∧ sh.st.store.cellValue r c = .ok val ∧ cell view r c = .ok ⟨ty, val, some xf⟩ := by
  intro view xf
  obtain ⟨_, _, pre, rest, cty, hst⟩ := returned_read env v mem base items sheets h50 hw l h k s hk L hL cs sh hr
  have h3 := C31_sheet_is_its_cells { env.sheetEnv v l.book with countries := cty } (show 30 ≤ v by omega) L hok pre rest sh.st hst
  have hfmt : (env.sheetEnv v l.book).cfg.fmtInfo = true := hfi
  obtain ⟨hrow, hty, hval, hxf⟩ := store_cell (merged_pos _ _) h3 hl hc
  have hxf := hxf hfmt
  have hmax : r < (env.sheetEnv v l.book).cfg.maxRows := by
    have hh := (C14_dimensions_tight _ _ _ _ (merged_pos _ _) h3).1
    obtain ⟨h1, h2⟩ := (C12_load_succeeds_iff _ _ _ (merged_pos _ _)).mp ⟨_, h3⟩
    rw [hh] at hrow
    exact lt_max hrow (fun w hw => (h1 w hw).1) (fun hh => (h2 hh).1)
  have hri := C39_row_attributes { env.sheetEnv v l.book with countries := cty } (show 30 ≤ v by omega) hfmt L hok pre rest sh.st hst r hmax
  have hci := C39_column_attributes { env.sheetEnv v l.book with countries := cty } (show 30 ≤ v by omega) hfmt L hok pre rest sh.st hst (c : Int)
  have key : ∃ src, cellXfIndex view r c = .ok (xf, src) := by
    have hv : view.fmtInfo = true := hfmt
    have hs : view.store = sh.st.store := rfl
    have hrm : view.rowinfoMap r = _ := hri
    have hcm : view.colinfoMap c = _ := hci
    show ∃ src, _ = Except.ok (xfIndexOf _ _ _ _, src)
    unfold xfIndexOf xfIndexOf.colDefault
    cases hla : lastAt (cellsOf fl (env.sheetEnv v l.book).cfg.fmtInfo (env.sheetEnv v l.book).sst L.items) r c with
    | some w =>
      have hla' : lastAt (cellsOf fl env.fi (l.book.sst.map Prod.fst) L.items) r c = some w := hla
      have hpos := cells_xf w (by simpa using List.mem_of_find?_eq_some hla)
      have hx : (cellAt (env.sheetEnv v l.book).cfg.typeMap (cellsOf fl (env.sheetEnv v l.book).cfg.fmtInfo (env.sheetEnv v l.book).sst L.items) r c).xf = w.xf := by
        simp [cellAt, hla, stored]
      rw [hx] at hxf
      unfold cellXfIndex reqFmtInfo
      simp only [hv, ↓reduceIte, bind, Except.bind, hs, hxf, hla']
      rw [if_pos (by omega)]
      exact ⟨_, rfl⟩
    | none =>
      have hla' : lastAt (cellsOf fl env.fi (l.book.sst.map Prod.fst) L.items) r c = none := hla
      have hx : (cellAt (env.sheetEnv v l.book).cfg.typeMap (cellsOf fl (env.sheetEnv v l.book).cfg.fmtInfo (env.sheetEnv v l.book).sst L.items) r c).xf = -1 := by
        simp [cellAt, hla, ACell.blank]
      rw [hx] at hxf
      unfold cellXfIndex reqFmtInfo
      simp only [hv, ↓reduceIte, bind, Except.bind, hs, hxf, hrm, hcm, hla']
      rw [if_neg (by omega)]
      cases ((colsOf L.items).filter (fun x => x.covers (c : Int))).getLast? with
      | none =>
        cases ((rowsOf L.items).filter (fun x => x.row = r)).getLast? with
        | none => exact ⟨_, rfl⟩
        | some x =>
          simp only [Option.map_some, RowRec.info]
          have hpos : (-1 : Int) < (x.xf : Int) := by omega
          cases x.hasXf <;> simp [hpos]
      | some y =>
        cases ((rowsOf L.items).filter (fun x => x.row = r)).getLast? with
        | none =>
          simp only [Option.map_some, Option.map_none, ColRec.info]
          rw [if_neg (by omega)]
          exact ⟨_, rfl⟩
        | some x =>
          simp only [Option.map_some, RowRec.info, ColRec.info]
          rw [if_neg (show ¬ ((y.xf : Int) = -1) by omega)]
          have hpos : (-1 : Int) < (x.xf : Int) := by omega
          cases x.hasXf <;> simp [hpos]
  refine ⟨key, _, _, hty, hval, ?_⟩
  obtain ⟨src, hkey⟩ := key
  unfold cell
  have hv : view.fmtInfo = true := hfmt
  have hs : view.store = sh.st.store := rfl
  simp only [hv, ↓reduceIte, bind, Except.bind, hkey, hs, hty, hval, pure, Except.pure]

/-- C67: such a sheet can be read if its cells fit: opening on demand and asking for it gives a sheet. -/
theorem C67_sheet_loads (env : OpenEnv) (v : Nat) (mem : Bytes) (base : Nat)
    (items : List GItem) (sheets : List SheetRec) (h50 : 50 ≤ v) (hw : WorkbookStream v (textAt (env.bookEnv v base)) mem base items sheets) (l : Lib)
    (hd : env.onDemand = true) (h : openStream env mem base = .ok l) (k : Nat) (s : SheetRec) (hk : worksheet sheets k = some s) (L : Layout)
    (hL : SheetAt v mem (base + s.offset) L) (hok : L.Ok v (libDec env l.book) (l.book.sst.map Prod.fst)) (st : Store)
    (hst : loadCells (env.sheetEnv v l.book).cfg (cellsOf fl env.fi (l.book.sst.map Prod.fst) L.items) (mergedRanges env.fi L.items) = .ok st) :
    ∃ sh, (sheetByIndex env l (k : Int)).1 = .ok sh ∧ sh.number = k := by
  obtain ⟨p, b, q, hv, _⟩ := stream_opened h50 hw h
  obtain ⟨pre, rest, hm, hrd⟩ := readSheet_layout h50 hw h hk hL
  obtain ⟨s', h1, _⟩ := C31_sheet_loads (env.sheetEnv v l.book) (show 30 ≤ v by omega) (fun _ => ⟨_, rfl⟩) L hok pre rest st hst
  have h1' : sheetRead (env.sheetEnv v l.book) mem (pre.length : Int) = .ok s' := by rw [hm]; exact h1
  have hrd := (hrd l.book.countries).trans (congrArg _ h1')
  have hrd' : readSheet env l (k : Int) = .ok ⟨s.name, k, s.visibility, s'⟩ := hrd
  obtain ⟨b, q, _, ho⟩ := openStream_new hv h50 h
  unfold openSheets at ho
  rw [if_pos hd] at ho
  cases ho
  have hkl : k < b.sheetNames.length := by
    have := C67_sheet_names env v mem base items sheets h50 hw _ h
    simp only at this
    rw [this, List.length_map]
    unfold worksheet at hk
    exact (List.getElem?_eq_some_iff.mp hk).1
  unfold sheetByIndex getSheet
  rw [(idx_ok_nat _ _ _).mpr (show (List.replicate b.sheetNames.length (none : Option LSheet))[k]? = some none by rw [List.getElem?_replicate, if_pos hkl])]
  simp only [Bool.false_eq_true, if_false, hrd', bind, Except.bind]
  rw [setIdx_nat _ _ _ (by rw [List.length_replicate]; exact hkl)]
  exact ⟨_, rfl, rfl⟩

/-- C67: which sheets can be read: just those whose cells are within 65536 rows (16384 before BIFF8) and 256 columns and have known XFs, and whose merged ranges end within these rows. -/
theorem C67_sheet_fits (env : OpenEnv) (v : Nat) (mem : Bytes) (base : Nat)
    (items : List GItem) (sheets : List SheetRec) (h50 : 50 ≤ v) (hw : WorkbookStream v (textAt (env.bookEnv v base)) mem base items sheets) (l : Lib)
    (hd : env.onDemand = true) (h : openStream env mem base = .ok l) (k : Nat) (s : SheetRec) (hk : worksheet sheets k = some s) (L : Layout)
    (hL : SheetAt v mem (base + s.offset) L) (hok : L.Ok v (libDec env l.book) (l.book.sst.map Prod.fst)) :
    let cells := cellsOf fl env.fi (l.book.sst.map Prod.fst) L.items
    let lastMerged := maxOf ((mergedRanges env.fi L.items).map (·.rhi))
    (∃ sh, (sheetByIndex env l (k : Int)).1 = .ok sh) ↔
      (∀ w ∈ cells, w.row < (if v < 80 then 16384 else 65536) ∧ w.col < 256 ∧ (w.ctype = none → ∃ t, (env.sheetEnv v l.book).cfg.typeMap w.xf = some t) ∧
        (env.fi = true → -32768 ≤ w.xf ∧ w.xf ≤ 32767)) ∧
      (height cells [] < lastMerged → lastMerged ≤ if v < 80 then 16384 else 65536) := by
  intro cells lastMerged
  have hmax : (env.sheetEnv v l.book).cfg.maxRows = if v < 80 then 16384 else 65536 := by
    show (if v ≥ 80 then 65536 else 16384) = _
    by_cases hv : v < 80
    · rw [if_pos hv, if_neg (by omega)]
    · rw [if_neg hv, if_pos (by omega)]
  have hiff := C12_load_succeeds_iff (env.sheetEnv v l.book).cfg cells (mergedRanges env.fi L.items) (merged_pos _ _)
  rw [hmax] at hiff
  constructor
  · rintro ⟨sh, hr⟩
    obtain ⟨_, _, hc⟩ := C67_sheet env v mem base items sheets h50 hw l h k s hk L hL hok [] sh hr
    obtain ⟨h1, h2⟩ := hiff.mp ⟨_, hc⟩
    exact ⟨h1, fun hh => (h2 hh).1⟩
  · rintro ⟨h1, h2⟩
    obtain ⟨st, hst⟩ := hiff.mpr ⟨h1, fun hh => ⟨h2 hh, (by decide : 0 < 256)⟩⟩
    obtain ⟨sh, hs, _⟩ := C67_sheet_loads env v mem base items sheets h50 hw l hd h k s hk L hL hok st hst
    exact ⟨sh, hs⟩

/-- C67: the shared strings that the cells refer to are those of the SST record (as in C26). -/
theorem C67_shared_strings_partial (env : OpenEnv) (v : Nat) (mem : Bytes) (base : Nat) (before after : List GItem)
    (d : Bytes) (more : List Bytes) (sheets : List SheetRec) (h50 : 50 ≤ v)
    (hw : WorkbookStream v (textAt (env.bookEnv v base)) mem base (before ++ [.sst d more] ++ after) sheets)
    (hone : ∀ d' more', GItem.sst d' more' ∉ after) (ss : List SStr) (hss : ∀ s ∈ ss, s.Legal ∧ s.Handled) (total : Nat) (hn : ss.length < 2 ^ 31)
    (hd : sstRecords (le32 total ++ le32 ss.length) ss = d :: more) (l : Lib) (h : openStream env mem base = .ok l) :
    l.book.sst = ss.map SStr.value := by
  obtain ⟨p, b, q, _, hg, ho, pre, eof, post, he, hm, hp⟩ := stream_opened h50 hw h
  subst hp
  rw [hm] at hg
  obtain ⟨_, ⟨c, hc⟩, _⟩ := openSheets_frame ho
  rw [hc]
  exact C26_workbook_partial (env.bookEnv v base) pre post eof he before after d more hw.ok hone ss hss total hn hd b q hg

/-- C67: the runs of formatted text of a cell of such a sheet: those of its shared string, or of its own record, the last record for the
position counting. -/
theorem C67_rich_text_partial (env : OpenEnv) (v : Nat) (mem : Bytes) (base : Nat) (before after : List GItem)
    (d : Bytes) (more : List Bytes) (sheets : List SheetRec) (h50 : 50 ≤ v)
    (hw : WorkbookStream v (textAt (env.bookEnv v base)) mem base (before ++ [.sst d more] ++ after) sheets)
    (hone : ∀ d' more', GItem.sst d' more' ∉ after) (ss : List SStr) (hss : ∀ s ∈ ss, s.Legal ∧ s.Handled) (total : Nat) (hn : ss.length < 2 ^ 31)
    (hd : sstRecords (le32 total ++ le32 ss.length) ss = d :: more) (l : Lib) (h : openStream env mem base = .ok l)
    (k : Nat) (s : SheetRec) (hk : worksheet sheets k = some s) (L : Layout)
    (hL : SheetAt v mem (base + s.offset) L) (hok : L.Ok v (libDec env l.book) (ss.map SStr.text)) (cs : List Call) (sh : LSheet)
    (hr : (sheetByIndex env (libCalls env l cs).2 (k : Int)).1 = .ok sh) (r c : Nat) :
    sh.st.rich (r, c) = ((richOf env.fi (fun i => if 0 ≤ i then (ss[i.toNat]?).map SStr.allRuns else none) L.items).filter
      (·.1 = (r, c))).getLast?.map (·.2) := by
  have hs := C67_shared_strings_partial env v mem base before after d more sheets h50 hw hone ss hss total hn hd l h
  obtain ⟨_, _, pre, rest, cty, hst⟩ := returned_read env v mem base _ sheets h50 hw l h k s hk L hL cs sh hr
  have hm : l.book.sst.map Prod.fst = ss.map SStr.text := by rw [hs]; simp [SStr.value]
  have e := C62_rich_text { env.sheetEnv v l.book with countries := cty } (show 30 ≤ v by omega) L (by
    show L.Ok v (libDec env l.book) (l.book.sst.map Prod.fst)
    rw [hm]; exact hok) pre rest sh.st hst r c
  rw [e]
  have hrich : richOf (env.sheetEnv v l.book).cfg.fmtInfo (env.sheetEnv v l.book).richMap L.items =
      richOf env.fi (fun i => if 0 ≤ i then (ss[i.toNat]?).map SStr.allRuns else none) L.items := by
    unfold richOf
    congr 1
    funext i
    cases i with
    | cell y =>
      cases y with
      | labelsst r c x k =>
        show (if env.fi then (match richGet l.book k with | some (x :: xs) => some ((r, c), x :: xs) | _ => none) else none) = _
        unfold richGet
        rw [hs, List.getElem?_map]
        simp only [Int.toNat_natCast, Int.natCast_nonneg, if_true]
        cases ss[k]? with
        | none => rfl
        | some y =>
          simp only [Option.map_some, Option.bind_some, SStr.value]
          by_cases hr : y.allRuns = []
          · simp [hr]
          · rw [if_neg hr]; cases y.allRuns <;> rfl
      | _ => rfl
    | _ => rfl
  rw [hrich]

/-- C67: before BIFF8 the texts of the cells are decoded with the encoding asked for, else with that of the CODEPAGE record. -/
theorem C67_text_encoding (env : OpenEnv) (v : Nat) (mem : Bytes) (base : Nat) (items : List GItem)
    (sheets : List SheetRec) (h50 : 50 ≤ v) (h80 : v < 80) (hw : WorkbookStream v (textAt (env.bookEnv v base)) mem base items sheets) (l : Lib)
    (h : openStream env mem base = .ok l) : libDec env l.book = env.codec (textEncoding v env.override (lastCodepage items)) := by
  obtain ⟨p, b, q, _, hg, ho, pre, eof, post, he, hm, hp⟩ := stream_opened h50 hw h
  subst hp
  rw [hm] at hg
  have := C53_encoding_partial (env.bookEnv v base) pre post eof he items hw.ok b q hg (Or.inl h80)
  funext x
  unfold libDec
  obtain ⟨_, ⟨c, hc⟩, _⟩ := openSheets_frame ho
  simp only [hc, this]
  rfl

/-- C54: a file whose globals contain a FILEPASS record is not opened. -/
theorem C54_not_opened (env : OpenEnv) (v op : Nat) (bof : Bytes) (hb : BofRecord v 5 op bof) (h50 : 50 ≤ v)
    (pre rest d : Bytes) (hd : d.length < 65536) (items : List GItem) (hok : GlobalsOk v items) :
    ∃ e, openStream env (pre ++ encRec op bof ++ encRecs (items.flatMap GItem.recs) ++ encRec 0x2f d ++ rest) (pre.length : Int) = .error e := by
  have hf := C52_first_bof hb pre (encRecs (items.flatMap GItem.recs) ++ (encRec 0x2f d ++ rest))
  rw [if_pos (show StartsFile v 5 from Or.inl rfl)] at hf
  obtain ⟨e, he⟩ := C54_encrypted_refused (env.bookEnv v (pre.length : Int)) (pre ++ encRec op bof) rest d hd items hok newBook
  simp only [List.append_assoc] at hf he ⊢
  unfold openStream
  rw [hf]
  simp only [bind, Except.bind]
  rw [if_neg (by omega), he]
  exact ⟨e, rfl⟩

end Xlrd
