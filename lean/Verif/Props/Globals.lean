import Verif.Lemmas.GlobalsEnc
import Verif.Lemmas.OldFrame

/-!
# C43 sheet numbering, C53 encoding, C54 encrypted workbooks
-/
set_option linter.unusedSimpArgs false
namespace Xlrd
open Spec

/-- The codec for byte strings after the items `pre`. -/
abbrev textAt (env : BookEnv) (pre : List GItem) : Bytes → R PyStr :=
  env.codec (textEncoding env.bv env.override (lastCodepage pre))

theorem parse_ok {env : BookEnv} {pre post eof : Bytes} {items : List GItem} {b0 b : Book} {p : Int} (he : eof.length < 65536)
    (hok : GlobalsOk env.bv items) (h : parseGlobals env (pre ++ encGlobals items eof ++ post) b0 (pre.length : Int) = .ok (b, p)) :
    ∃ f b1, initialiseColourMap env.bv env.fi b0.fmt = .ok f ∧ applyGlobals env { b0 with fmt := f } items = .ok b1 ∧
      globalsEof env b1 = .ok b ∧ p = ((pre ++ encGlobals items eof).length : Int) := by
  rw [parseGlobals_items env pre post eof he items hok] at h
  obtain ⟨f, h1, h⟩ := bind_ok h
  obtain ⟨b1, h2, h⟩ := bind_ok h
  obtain ⟨b2, h3, h⟩ := bind_ok h
  cases h
  exact ⟨f, b1, h1, h2, h3, rfl⟩

/-- What happens at the end of the globals. -/
theorem eof_frame {env : BookEnv} {b b' : Book} (h : globalsEof env b = .ok b') :
    ∃ os, setScopes env { b with fmt := xfEpilogue env.fi b.fmt } b.nameObjs = .ok os ∧
      ∃ e c u r, b' = { b with
        fmt := paletteEpilogue (xfEpilogue env.fi b.fmt), nameObjs := os,
        nameAndScopeMap := (os.foldl (enterName env.lower) (fun _ => none, fun _ => none)).1,
        nameMap := fun k => ((os.foldl (enterName env.lower) (fun _ => none, fun _ => none)).2 k).map fun l => (sortByScope l).map Prod.snd,
        encoding := e, codepage := c, userName := u, rawUser := r } := by
  unfold globalsEof namesEpilogue at h
  obtain ⟨b1, h1, h⟩ := bind_ok h
  obtain ⟨os, h2, h1⟩ := bind_ok h1
  obtain ⟨_, _, h1⟩ := bind_ok h1
  cases h1
  obtain ⟨e, c, u, r, rfl⟩ := ensure_frame h
  exact ⟨os, h2, e, c, u, r, rfl⟩

theorem eof_enc {env : BookEnv} {items : List GItem} {b b' : Book} (hi : EncInv env items b) (h : globalsEof env b = .ok b') :
    EncInv env items b' ∧ (Settled env items → b'.encoding = some (textEncoding env.bv env.override (lastCodepage items))) := by
  unfold globalsEof namesEpilogue at h
  obtain ⟨b1, h1, h⟩ := bind_ok h
  obtain ⟨os, h2, h1⟩ := bind_ok h1
  obtain ⟨_, _, h1⟩ := bind_ok h1
  cases h1
  refine ensure_inv (hi.congr ?_ ?_) h <;> rfl

/-! ## C54 -/

/-- C54: a FILEPASS record among the globals ends the load with an exception, whatever the rest of the file is. -/
theorem C54_encrypted_refused (env : BookEnv) (pre rest d : Bytes) (hd : d.length < 65536) (items : List GItem)
    (hok : GlobalsOk env.bv items) (b0 : Book) :
    ∃ e, parseGlobals env (pre ++ encRecs (items.flatMap GItem.recs) ++ encRec 0x2f d ++ rest) b0 (pre.length : Int) = .error e := by
  unfold parseGlobals
  simp only [bind, Except.bind]
  cases initialiseColourMap env.bv env.fi b0.fmt with
  | error e => exact ⟨e, rfl⟩
  | ok f =>
    simp only
    obtain ⟨k, hk⟩ : ∃ k, (pre ++ encRecs (items.flatMap GItem.recs) ++ encRec 0x2f d ++ rest).length + 1 = items.length + (k + 1) := by
      have := items_le_bytes items
      refine ⟨(pre ++ encRecs (items.flatMap GItem.recs) ++ encRec 0x2f d ++ rest).length - items.length, ?_⟩
      simp only [List.length_append]
      omega
    have h' : (pre ++ encRecs (items.flatMap GItem.recs) ++ encRec 0x2f d ++ rest).drop pre.length =
        encRecs (items.flatMap GItem.recs) ++ (encRec 0x2f d ++ rest) := by simp
    rw [hk, globalsLoop_prefix env _ 0x2f d rest (by decide) hd (by decide) items hok (k + 1) _ _ h']
    simp only [bind, Except.bind]
    cases applyGlobals env { b0 with fmt := f } items with
    | error e => exact ⟨e, rfl⟩
    | ok b1 =>
      simp only
      rw [globalsLoop, getRecordParts_at (by decide) hd (drop_at h' rfl)]
      exact ⟨.xlrd, rfl⟩

/-- C54: and the exception is XLRDError if the records before it are fine, that is, if the same records without
FILEPASS can be loaded. -/
theorem C54_encrypted_xlrd_error (env : BookEnv) (pre rest d eof post : Bytes) (hd : d.length < 65536) (he : eof.length < 65536)
    (items : List GItem) (hok : GlobalsOk env.bv items) (b0 b : Book) (p : Int)
    (h : parseGlobals env (pre ++ encGlobals items eof ++ post) b0 (pre.length : Int) = .ok (b, p)) :
    parseGlobals env (pre ++ encRecs (items.flatMap GItem.recs) ++ encRec 0x2f d ++ rest) b0 (pre.length : Int) = .error .xlrd := by
  obtain ⟨f, b1, h1, h2, _⟩ := parse_ok he hok h
  unfold parseGlobals
  rw [h1]
  simp only [bind, Except.bind]
  obtain ⟨k, hk⟩ : ∃ k, (pre ++ encRecs (items.flatMap GItem.recs) ++ encRec 0x2f d ++ rest).length + 1 = items.length + (k + 1) := by
    have := items_le_bytes items
    refine ⟨(pre ++ encRecs (items.flatMap GItem.recs) ++ encRec 0x2f d ++ rest).length - items.length, ?_⟩
    simp only [List.length_append]
    omega
  have h' : (pre ++ encRecs (items.flatMap GItem.recs) ++ encRec 0x2f d ++ rest).drop pre.length =
      encRecs (items.flatMap GItem.recs) ++ (encRec 0x2f d ++ rest) := by simp
  rw [hk, globalsLoop_prefix env _ 0x2f d rest (by decide) hd (by decide) items hok (k + 1) _ _ h', h2]
  simp only [bind, Except.bind]
  rw [globalsLoop, getRecordParts_at (by decide) hd (drop_at h' rfl)]
  rfl

/-! ## C53 -/

/-- C53: the encoding is the override if there is one, else that of the last CODEPAGE record, else for
files before BIFF8 ISO-8859-1. -/
theorem C53_encoding_partial (env : BookEnv) (pre post eof : Bytes) (he : eof.length < 65536) (items : List GItem)
    (hok : GlobalsOk env.bv items) (b : Book) (p : Int)
    (h : parseGlobals env (pre ++ encGlobals items eof ++ post) newBook (pre.length : Int) = .ok (b, p))
    (hs : env.bv < 80 ∨ env.override ≠ [] ∨ (lastCodepage items).isSome) :
    b.encoding = some (textEncoding env.bv env.override (lastCodepage items)) := by
  obtain ⟨f, b1, h1, h2, h3, _⟩ := parse_ok he hok h
  have hi := items_enc items (fresh_enc env f) h2
  exact (eof_enc (by simpa using hi) h3).2 hs

/-- C53: in a BIFF8 file with neither, it is UTF-16LE or, as nothing depends on it, still unset. -/
theorem C53_default_partial (env : BookEnv) (pre post eof : Bytes) (he : eof.length < 65536) (items : List GItem)
    (hok : GlobalsOk env.bv items) (b : Book) (p : Int)
    (h : parseGlobals env (pre ++ encGlobals items eof ++ post) newBook (pre.length : Int) = .ok (b, p))
    (h8 : 80 ≤ env.bv) (ho : env.override = []) (hc : lastCodepage items = none) :
    b.encoding = none ∨ b.encoding = some "utf_16_le".toList := by
  obtain ⟨f, b1, h1, h2, h3, _⟩ := parse_ok he hok h
  have hi := items_enc items (fresh_enc env f) h2
  have := (eof_enc (by simpa using hi) h3).1.enc
  rw [ho, hc] at this
  simpa [textEncoding, show ¬ env.bv < 80 by omega] using this

theorem choose_idem (env : BookEnv) (b : Book) (h : b.encoding = none) (hn : (chooseEncoding env b).encoding ≠ none) :
    chooseEncoding env (chooseEncoding env b) = chooseEncoding env b := by
  unfold chooseEncoding at hn ⊢
  by_cases ho : env.override ≠ []
  · simp only [if_pos ho]
  · simp only [if_neg ho] at hn ⊢
    cases hc : b.codepage with
    | none =>
      simp only [hc] at hn ⊢
      by_cases h8 : env.bv < 80
      · simp only [if_pos h8, hc]
      · simp only [if_neg h8] at hn; exact absurd h hn
    | some cp =>
      simp only
      have e1 := codepageEncoding_eq env.bv cp
      have e2 := codepageEncoding_stable env.bv cp
      have e3 : (codepageEncoding env.bv (codepageEncoding env.bv cp).2).2 = (codepageEncoding env.bv cp).2 := by
        rcases codepage_cases env.bv cp with ⟨_, h1⟩ | ⟨_, h1, _⟩
        · rw [h1]; simp only; rw [h1]
        · by_cases h4 : ¬ (300 ≤ cp ∧ cp ≤ 1999) ∧ env.bv ≥ 80
          · have : codepageEncoding env.bv cp = ("utf_16_le".toList, 1200) := by rw [h1, if_neg h4.1, if_pos h4.2]
            rw [this]; rfl
          · have : (codepageEncoding env.bv cp).2 = cp := by
              rw [h1]
              by_cases h5 : 300 ≤ cp ∧ cp ≤ 1999
              · rw [if_pos h5]
              · rw [if_neg h5, if_neg (fun h6 => h4 ⟨h5, h6⟩)]
            rw [this, this]
      rw [e3, codepageEncoding_eq, e2, ← e1]

/-- C53: deriving the encoding again changes nothing, once it has been set. -/
theorem C53_derived_once_partial (env : BookEnv) (b b' : Book) (hb : b.encoding = none) (h : deriveEncoding env b = .ok b')
    (hs : b'.encoding ≠ none) : deriveEncoding env b' = .ok b' := by
  obtain ⟨e1, e2⟩ := derive_eq h
  have hi := choose_idem env b hb (by rw [← e1]; exact hs)
  unfold deriveEncoding at h
  obtain ⟨_, h1, h2⟩ := bind_ok h
  have hr : b'.rawUser = none ∧ ∃ u, b' = { chooseEncoding env b with userName := u, rawUser := none } := by
    unfold decodeUserName at h2
    cases hr : (chooseEncoding env b).rawUser with
    | none => simp only [hr] at h2; cases h2; exact ⟨hr, (chooseEncoding env b).userName, by rw [← hr]⟩
    | some raw =>
      simp only [hr] at h2
      obtain ⟨s, _, h2⟩ := bind_ok h2
      cases h2
      exact ⟨rfl, _, rfl⟩
  obtain ⟨hr, u, hu⟩ := hr
  have hc : chooseEncoding env b' = b' := by
    rw [hu]
    have : ∀ x : Book, chooseEncoding env { x with userName := u, rawUser := none } =
        { chooseEncoding env x with userName := u, rawUser := none } := by
      intro x
      unfold chooseEncoding
      by_cases ho : env.override ≠ []
      · simp only [if_pos ho]
      · simp only [if_neg ho]
        cases hx : x.codepage with
        | none =>
          simp only [hx]
          by_cases h8 : env.bv < 80
          · simp only [if_pos h8]
          · simp only [if_neg h8]
        | some cp => simp only [hx]
    rw [this, hi]
  unfold deriveEncoding
  rw [hc]
  have ht : trialDecode env b' = .ok () := by
    have : trialDecode env b' = trialDecode env (chooseEncoding env b) := by
      rw [hu]; rfl
    rw [this, h1]
  simp only [ht, bind, Except.bind]
  unfold decodeUserName
  rw [hr]

/-- C53 fails for a BIFF8 file without CODEPAGE record: the first derivation leaves the encoding unset, the
second sets it. -/
theorem C53_derived_twice_differs (env : BookEnv) (h8 : env.bv = 80) (ho : env.override = []) :
    ∃ b', deriveEncoding env newBook = .ok b' ∧ b'.encoding = none ∧
      ∃ b'', deriveEncoding env b' = .ok b'' ∧ b''.encoding = some "utf_16_le".toList := by
  refine ⟨{ codepage := some 1200 }, ?_, rfl, ⟨{ codepage := some 1200, encoding := some "utf_16_le".toList }, ?_, rfl⟩⟩
  · simp [deriveEncoding, chooseEncoding, h8, ho, trialDecode, decodeUserName, bind, Except.bind, pure, Except.pure]
  · simp [deriveEncoding, chooseEncoding, h8, ho, trialDecode, decodeUserName, bind, Except.bind, pure, Except.pure,
      codepageEncoding, encodingFromCodepage, itemsGet]

/-! ## C43 -/

/-- The lists kept for BOUNDSHEET records. -/
structure SheetLists (base : Int) (sheets : List SheetRec) (b : Book) : Prop where
  names : b.sheetNames = (sheets.filter SheetRec.isWorksheet).map SheetRec.name
  posns : b.shAbsPosn = (sheets.filter SheetRec.isWorksheet).map fun s => (s.offset : Int) + base
  vis : b.sheetVisibility = (sheets.filter SheetRec.isWorksheet).map SheetRec.visibility
  count : b.allSheetsCount = sheets.length
  length : b.allSheetsMap.length = sheets.length
  map : ∀ (i : Nat) s, sheets[i]? = some s → b.allSheetsMap[i]? = some (if s.isWorksheet
    then (((sheets.take i).filter SheetRec.isWorksheet).length : Int) else -1)

theorem SheetLists.congr {base : Int} {sheets : List SheetRec} {b b' : Book} (h : SheetLists base sheets b) (h1 : b'.sheetNames = b.sheetNames)
    (h2 : b'.shAbsPosn = b.shAbsPosn) (h3 : b'.sheetVisibility = b.sheetVisibility) (h4 : b'.allSheetsCount = b.allSheetsCount)
    (h5 : b'.allSheetsMap = b.allSheetsMap) : SheetLists base sheets b' := by
  obtain ⟨a1, a2, a3, a4, a5, a6⟩ := h
  exact ⟨h1.trans a1, h2.trans a2, h3.trans a3, h4.trans a4, by rw [h5]; exact a5, by rw [h5]; exact a6⟩

theorem SheetLists.add {base : Int} {sheets : List SheetRec} {b : Book} (h : SheetLists base sheets b) (s : SheetRec) :
    SheetLists base (sheets ++ [s]) (addSheet b ((s.offset : Int) + base) s.visibility s.ty s.name) := by
  obtain ⟨a1, a2, a3, a4, a5, a6⟩ := h
  have hmap : ∀ (v : Int), v = (if s.isWorksheet then ((sheets.filter SheetRec.isWorksheet).length : Int) else -1) →
      ∀ (i : Nat) (t : SheetRec), (sheets ++ [s])[i]? = some t → (b.allSheetsMap ++ [v])[i]? =
        some (if t.isWorksheet then ((((sheets ++ [s]).take i).filter SheetRec.isWorksheet).length : Int) else -1) := by
    rintro v rfl i t ht
    by_cases hi : i < sheets.length
    · rw [List.getElem?_append_left (by omega)]
      rw [List.getElem?_append_left hi] at ht
      rw [a6 i t ht, List.take_append_of_le_length (by omega)]
    · have hlt : i < (sheets ++ [s]).length := (List.getElem?_eq_some_iff.mp ht).1
      have hi' : i = sheets.length := by simp at hlt; omega
      subst hi'
      rw [List.getElem?_append_right (by omega), a5, Nat.sub_self]
      simp only [List.getElem?_append_right (Nat.le_refl _), Nat.sub_self, List.getElem?_cons_zero, Option.some.injEq] at ht
      subst ht
      simp
  unfold addSheet
  by_cases ht : s.ty ≠ 0
  · rw [if_pos ht]
    have hw : s.isWorksheet = false := by simp [SheetRec.isWorksheet, ht]
    refine ⟨?_, ?_, ?_, by simp [a4], by simp [a5], ?_⟩
    · simpa [hw] using a1
    · simpa [hw] using a2
    · simpa [hw] using a3
    · exact hmap _ (by rw [hw]; rfl)
  · rw [if_neg ht]
    have hw : s.isWorksheet = true := by simpa [SheetRec.isWorksheet] using ht
    refine ⟨?_, ?_, ?_, by simp [a4], by simp [a5], ?_⟩
    · simpa [hw] using a1
    · simpa [hw] using a2
    · simpa [hw] using a3
    · refine hmap _ ?_
      rw [hw, a1]
      simp

theorem boundsheet_read {env : BookEnv} {pre : List GItem} {s : SheetRec} {d : Bytes} {b : Book} (h50 : 50 ≤ env.bv)
    (hr : BoundsheetRecord env.bv (textAt env pre) s d)
    (he : env.bv < 80 → b.encoding = some (textEncoding env.bv env.override (lastCodepage pre))) :
    boundsheetFields env b d = .ok ((s.offset : Int) + env.base, s.visibility, s.ty, s.name) := by
  obtain ⟨txt, tail, ht, h1, h2, h3, rfl⟩ := hr
  have hp : (le32 s.offset ++ [UInt8.ofNat s.visibility, UInt8.ofNat s.ty] ++ txt ++ tail).drop 6 = txt ++ tail := by simp [le32, le16]
  have hs : slice (le32 s.offset ++ [UInt8.ofNat s.visibility, UInt8.ofNat s.ty] ++ txt ++ tail) 0 6 =
      le32 s.offset ++ [UInt8.ofNat s.visibility, UInt8.ofNat s.ty] := by
    have := slice_nat (le32 s.offset ++ [UInt8.ofNat s.visibility, UInt8.ofNat s.ty] ++ txt ++ tail) 0 6
    simpa [le32, le16] using this
  obtain ⟨r1, r2⟩ := textField_read (dec' := b.dec env) (Or.inl rfl) (fun h8 => dec_eq (he h8)) ht hp
  unfold boundsheetFields
  rw [if_neg (by omega), hs, unpackN_ok (by simp [le32, le16])]
  have hn : boundsheetName env b (le32 s.offset ++ [UInt8.ofNat s.visibility, UInt8.ofNat s.ty] ++ txt ++ tail) = .ok s.name := by
    unfold boundsheetName
    by_cases h8 : env.bv < 80
    · rw [if_pos h8]; exact r1 h8
    · rw [if_neg h8]; exact r2 (by omega)
  simp only [bind, Except.bind, hn, pure, Except.pure]
  have f1 : fld (le32 s.offset ++ [UInt8.ofNat s.visibility, UInt8.ofNat s.ty]) 0 4 = s.offset := by
    have := le_le32 s.offset (by omega) [UInt8.ofNat s.visibility, UInt8.ofNat s.ty]
    simpa [fld] using this
  have f2 : fld (le32 s.offset ++ [UInt8.ofNat s.visibility, UInt8.ofNat s.ty]) 4 1 = s.visibility := by
    simp [fld, le32, le16, le, u8_toNat_ofNat]; omega
  have f3 : fld (le32 s.offset ++ [UInt8.ofNat s.visibility, UInt8.ofNat s.ty]) 5 1 = s.ty := by
    simp [fld, le32, le16, le, u8_toNat_ofNat]; omega
  rw [f1, f2, f3]
  have : sgn 32 s.offset = (s.offset : Int) := by unfold sgn; rw [if_pos (by omega)]
  rw [this]

theorem sheets_items {env : BookEnv} (h50 : 50 ≤ env.bv) {items : List GItem} {sheets : List SheetRec}
    (hc : Collected (· = 0x85) (fun pre d s => BoundsheetRecord env.bv (textAt env pre) s d) items sheets) :
    ∀ {f : FmtSt} {b : Book}, applyGlobals env { fmt := f } items = .ok b → SheetLists env.base sheets b := by
  induction hc with
  | nil => intro f b h; cases h; constructor <;> simp
  | @take pre xs c d x hc0 hsel hrel ih =>
    intro f b h
    obtain ⟨b1, h1, h2⟩ := gItems_snoc h
    have hi := items_enc pre (fresh_enc env f) h1
    simp only [List.nil_append] at hi
    subst hsel
    have e : applyGItem env b1 (.one 0x85 d) = handleBoundsheet env b1 d := rfl
    rw [e] at h2
    unfold handleBoundsheet at h2
    obtain ⟨b2, h3, h2⟩ := bind_ok h2
    obtain ⟨i1, i2⟩ := derive_inv hi h3
    rw [boundsheet_read h50 hrel (fun h8 => i2 (Or.inl h8))] at h2
    cases h2
    obtain ⟨e, c, u, r, rfl⟩ := derive_frame h3
    refine SheetLists.add ?_ x
    exact (ih h1).congr rfl rfl rfl rfl rfl
  | @skip pre xs it hc0 hns ih =>
    intro f b h
    obtain ⟨b1, h1, h2⟩ := gItems_snoc h
    cases it with
    | sst d more => obtain ⟨t, rfl⟩ := sst_frame h2; exact (ih h1).congr rfl rfl rfl rfl rfl
    | extern d more => obtain ⟨_, _, _, _, _, _, _, _, rfl⟩ := extern_frame h2; exact (ih h1).congr rfl rfl rfl rfl rfl
    | one c d =>
      have hf := record_frame h2
      have hc : c ≠ XL_BOUNDSHEET := hns c d rfl
      exact (ih h1).congr (hf.sheetNames hc) (hf.shAbsPosn hc) (hf.visibility hc) (hf.allCount hc) (hf.allSheets hc)

/-- C43: the sheet names, positions and visibilities are those of the worksheets among the BOUNDSHEET
records, in file order; the map from all sheets to worksheets has an entry for every record, the number of
worksheets before it for a worksheet and -1 for the others. -/
theorem C43_boundsheets (env : BookEnv) (h50 : 50 ≤ env.bv) (pre post eof : Bytes) (he : eof.length < 65536) (items : List GItem)
    (hok : GlobalsOk env.bv items) (sheets : List SheetRec)
    (hc : Collected (· = 0x85) (fun before d s => BoundsheetRecord env.bv (textAt env before) s d) items sheets) (b : Book) (p : Int)
    (h : parseGlobals env (pre ++ encGlobals items eof ++ post) newBook (pre.length : Int) = .ok (b, p)) :
    let ws := sheets.filter SheetRec.isWorksheet
    b.sheetNames = ws.map SheetRec.name ∧
    b.shAbsPosn = (ws.map fun s => (s.offset : Int) + env.base) ∧
    b.sheetVisibility = ws.map SheetRec.visibility ∧
    b.allSheetsMap.length = sheets.length ∧
    (∀ (i : Nat) s, sheets[i]? = some s → b.allSheetsMap[i]? = some (if s.isWorksheet
      then (((sheets.take i).filter SheetRec.isWorksheet).length : Int) else -1)) := by
  obtain ⟨f, b1, h1, h2, h3, _⟩ := parse_ok he hok h
  have hl := sheets_items h50 hc h2
  obtain ⟨os, _, _, _, _, _, rfl⟩ := eof_frame h3
  exact ⟨hl.names, hl.posns, hl.vis, hl.length, hl.map⟩

/-- C43: whatever the file contains, a successful load leaves three parallel lists, and the entries of the
sheet map that are not negative are 0, 1, 2, ... up to the number of worksheets. -/
theorem C43_parallel (env : OpenEnv) (v : Nat) (base : Int) (mem : Bytes) (pos : Int) (b : Book) (p : Int)
    (h : parseGlobals (env.bookEnv v base) mem newBook pos = .ok (b, p)) :
    b.shAbsPosn.length = b.sheetNames.length ∧ b.sheetVisibility.length = b.sheetNames.length ∧
    b.allSheetsMap.length = b.allSheetsCount ∧
    b.allSheetsMap.filter (0 ≤ ·) = (List.range b.sheetNames.length).map (fun (n : Nat) => (n : Int)) ∧
    (∀ n ∈ b.allSheetsMap, 0 ≤ n ∨ n = -1) := by
  obtain ⟨f, b1, h1, h2, h3⟩ := parseGlobals_sound _ mem _ _ _ _ h
  obtain ⟨os, _, _, _, _, _, rfl⟩ := eof_frame h3
  let P : Book → Prop := fun b => b.shAbsPosn.length = b.sheetNames.length ∧ b.sheetVisibility.length = b.sheetNames.length ∧
    b.allSheetsMap.length = b.allSheetsCount ∧
    b.allSheetsMap.filter (0 ≤ ·) = (List.range b.sheetNames.length).map (fun (n : Nat) => (n : Int)) ∧ (∀ n ∈ b.allSheetsMap, 0 ≤ n ∨ n = -1)
  have key : P b1 := by
    refine h2.inv P ?_ ?_ ?_
    · intro b it b' hb ha
      have cong : ∀ {x y : Book}, P x → y.sheetNames = x.sheetNames → y.shAbsPosn = x.shAbsPosn → y.sheetVisibility = x.sheetVisibility →
          y.allSheetsCount = x.allSheetsCount → y.allSheetsMap = x.allSheetsMap → P y := by
        intro x y hx e1 e2 e3 e4 e5
        simp only [P, e1, e2, e3, e4, e5]
        exact hx
      cases it with
      | sst d more => obtain ⟨t, rfl⟩ := sst_frame ha; exact hb
      | extern d more => obtain ⟨_, _, _, _, _, _, _, _, rfl⟩ := extern_frame ha; exact hb
      | one c d =>
        by_cases hc : c = XL_BOUNDSHEET
        · subst hc
          have e : applyGItem (env.bookEnv v base) b (.one XL_BOUNDSHEET d) = handleBoundsheet (env.bookEnv v base) b d := rfl
          rw [e] at ha
          unfold handleBoundsheet at ha
          obtain ⟨b2, h3, ha⟩ := bind_ok ha
          obtain ⟨⟨q, vv, t, n⟩, _, ha⟩ := bind_ok ha
          cases ha
          obtain ⟨_, _, _, _, rfl⟩ := derive_frame h3
          obtain ⟨p1, p2, p3, p4, p5⟩ := hb
          simp only [P]
          unfold addSheet
          by_cases ht : t ≠ 0
          · rw [if_pos ht]
            refine ⟨p1, p2, by simpa using p3, by simpa using p4, ?_⟩
            intro n hn
            rcases List.mem_append.mp hn with hn | hn
            · exact p5 n hn
            · right; simpa using hn
          · rw [if_neg ht]
            refine ⟨by simpa using p1, by simpa using p2, by simpa using p3, ?_, ?_⟩
            · rw [List.filter_append, p4, List.length_append, List.length_singleton, List.range_succ, List.map_append]
              simp
            · intro n hn
              rcases List.mem_append.mp hn with hn | hn
              · exact p5 n hn
              · left; simp only [List.mem_singleton] at hn; omega
        · have hf := record_frame ha
          exact cong hb (hf.sheetNames hc) (hf.shAbsPosn hc) (hf.visibility hc) (hf.allCount hc) (hf.allSheets hc)
    · intro b d q b' q' hb ha
      have hr := (sheethdr_same ha).1
      have e1 : b'.sheetNames = b.sheetNames := (congrArg Book.sheetNames hr :)
      have e2 : b'.shAbsPosn = b.shAbsPosn := (congrArg Book.shAbsPosn hr :)
      have e3 : b'.sheetVisibility = b.sheetVisibility := (congrArg Book.sheetVisibility hr :)
      have e4 : b'.allSheetsCount = b.allSheetsCount := (congrArg Book.allSheetsCount hr :)
      have e5 : b'.allSheetsMap = b.allSheetsMap := (congrArg Book.allSheetsMap hr :)
      simp only [P, e1, e2, e3, e4, e5]
      exact hb
    · simp [P]
  exact key

end Xlrd
