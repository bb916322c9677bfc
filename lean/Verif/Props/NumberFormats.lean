import Verif.Props.Globals
import Verif.Props.Formatting
import Verif.Props.FormatString

/-!
# C34 date cells, C35 XF list of a workbook, C36 font and XF numbering
-/
set_option linter.unusedSimpArgs false
namespace Xlrd
open Spec

theorem isDate_spec (s : PyStr) : isDateFormatString s = true ↔ IsDateFormat s := by
  constructor
  · intro h
    obtain ⟨f, hf, rfl⟩ := C33_every_format_has_parts s
    exact ⟨f, hf, rfl, (C33_date_format f hf).mp h⟩
  · rintro ⟨f, hf, rfl, h⟩
    exact (C33_date_format f hf).mpr h

theorem stdType_cases (k : Nat) : (stdFormatCodeType k).isSome = true ↔ BuiltinKey k := by
  unfold stdFormatCodeType BuiltinKey
  by_cases h : k ≤ 81
  · interval_cases k <;> decide
  · have : fmtCodeRanges.find? (fun r => decide (r.1 ≤ k ∧ k ≤ r.2.1)) = none := by
      rw [List.find?_eq_none]
      intro r hr
      simp only [fmtCodeRanges, List.mem_cons, List.not_mem_nil, or_false] at hr
      rcases hr with rfl | rfl | rfl | rfl | rfl | rfl | rfl | rfl | rfl | rfl | rfl | rfl <;> simp <;> omega
    rw [this]
    simp
    omega

theorem stdType_date (k : Nat) : stdFormatCodeType k = some FDT ↔ BuiltinDate k := by
  unfold stdFormatCodeType BuiltinDate
  by_cases h : k ≤ 81
  · interval_cases k <;> decide
  · have : fmtCodeRanges.find? (fun r => decide (r.1 ≤ k ∧ k ≤ r.2.1)) = none := by
      rw [List.find?_eq_none]
      intro r hr
      simp only [fmtCodeRanges, List.mem_cons, List.not_mem_nil, or_false] at hr
      rcases hr with rfl | rfl | rfl | rfl | rfl | rfl | rfl | rfl | rfl | rfl | rfl | rfl <;> simp <;> omega
    rw [this]
    simp
    omega

/-- The entry for a standard format. -/
def stdEntry (k : Nat) : Option Format := (stdFormatCodeType k).map fun ty => ⟨k, ty, stdFormatString k⟩

/-- The entry for a FORMAT record. -/
def fmtEntry (k : Nat) (s : PyStr) : Format := ⟨k, if isDateFormatString s then FDT else FGE, some s⟩

/-- The format map after the FORMAT records `fmts`, when XF records have been seen or not. -/
def fmtMapOf (fmts : List (Nat × PyStr)) (seen : Bool) (k : Nat) : Option Format :=
  match lastFormat fmts k with
  | some s => some (fmtEntry k s)
  | none => if seen then stdEntry k else none

theorem lastFormat_snoc (fmts : List (Nat × PyStr)) (f : Nat × PyStr) (k : Nat) :
    lastFormat (fmts ++ [f]) k = if f.1 = k then some f.2 else lastFormat fmts k := by
  unfold lastFormat
  by_cases h : f.1 = k
  · simp [h]
  · simp [h]

theorem fmtMapOf_snoc (fmts : List (Nat × PyStr)) (f : Nat × PyStr) (seen : Bool) :
    fmtMapOf (fmts ++ [f]) seen = dictSet (fmtMapOf fmts seen) f.1 (fmtEntry f.1 f.2) := by
  funext k
  unfold fmtMapOf dictSet
  rw [lastFormat_snoc]
  by_cases h : f.1 = k
  · subst h; rw [if_pos rfl, if_pos rfl]
  · rw [if_neg h, if_neg (Ne.symm h)]

theorem fmtMapOf_fill (fmts : List (Nat × PyStr)) : fillInStandardFormats (fmtMapOf fmts false) = fmtMapOf fmts true := by
  funext k
  unfold fillInStandardFormats fmtMapOf stdEntry
  cases lastFormat fmts k <;> rfl

/-- The format map and XF count follow the FORMAT and XF records. -/
theorem formats_items {env : BookEnv} (h50 : 50 ≤ env.bv) {items : List GItem} {fmts : List (Nat × PyStr)}
    (hc : Formats env.bv (textAt env) items fmts) :
    ∀ {f : FmtSt} {b : Book}, f.formatMap = (fun _ => none) → f.xfcount = 0 → applyGlobals env { fmt := f } items = .ok b →
      b.fmt.formatMap = fmtMapOf fmts (decide (b.fmt.xfcount ≠ 0)) := by
  have hxf : ∀ {b b' : Book} {d : Bytes} {fmts : List (Nat × PyStr)}, b.fmt.formatMap = fmtMapOf fmts (decide (b.fmt.xfcount ≠ 0)) →
      globalsRecord env b XL_XF d = .ok b' → b'.fmt.formatMap = fmtMapOf fmts (decide (b'.fmt.xfcount ≠ 0)) := by
    intro b b' d fmts hb h2
    have e : globalsRecord env b XL_XF d = bookXf env b d := rfl
    rw [e] at h2
    unfold bookXf at h2
    obtain ⟨g, h3, h2⟩ := bind_ok h2
    cases h2
    unfold handleXf at h3
    obtain ⟨x, _, h3⟩ := bind_ok h3
    cases h3
    simp only [Nat.add_eq_zero_iff, Nat.one_ne_zero, and_false, ne_eq, not_false_eq_true, decide_true]
    by_cases hx : b.fmt.xfcount = 0
    · rw [if_pos ⟨h50, hx⟩, hb, hx]
      exact fmtMapOf_fill fmts
    · rw [if_neg (fun h => hx h.2), hb]
      simp [hx]
  unfold Formats at hc
  induction hc with
  | nil => intro f b hf hx h; cases h; funext k; simp [fmtMapOf, lastFormat, hf, hx]
  | @take pre xs c d x hc0 hsel hrel ih =>
    intro f b hf hx h
    obtain ⟨b1, h1, h2⟩ := gItems_snoc h
    have hi := items_enc pre (fresh_enc env f) h1
    simp only [List.nil_append] at hi
    subst hsel
    have e : applyGItem env b1 (.one 0x41e d) = bookFormat env b1 d := rfl
    rw [e] at h2
    unfold bookFormat at h2
    obtain ⟨b2, h3, h2⟩ := bind_ok h2
    obtain ⟨i1, i2⟩ := ensure_inv hi h3
    obtain ⟨g, h4, h2⟩ := bind_ok h2
    cases h2
    have ih1 := ih hf hx h1
    obtain ⟨en, cc, u, r, rfl⟩ := ensure_frame h3
    obtain ⟨txt, tail, ht, hk, rfl⟩ := hrel
    unfold handleFormat at h4
    simp only [Bool.false_eq_true, if_false] at h4
    have hkey : formatKeyOf env.bv b1.fmt.actualfmtcount (le16 x.1 ++ txt ++ tail) = .ok x.1 := by
      unfold formatKeyOf
      rw [if_pos h50]
      exact unpackH_at (p := 0) (r := txt ++ tail) hk (by simp)
    have hstr : formatStrOf env.bv (Book.dec env { b1 with encoding := en, codepage := cc, userName := u, rawUser := r }) (le16 x.1 ++ txt ++ tail) = .ok x.2 := by
      have hp : (le16 x.1 ++ txt ++ tail).drop 2 = txt ++ tail := by simp [le16]
      unfold formatStrOf
      by_cases h8 : env.bv ≥ 80
      · rw [if_pos h8] at ht ⊢
        exact (textField_read (dec' := textAt env pre) (Or.inr rfl) (fun _ => rfl) ht hp).2 h8
      · rw [if_neg h8] at ht ⊢
        rw [if_neg (by omega)]
        exact (textField_read (Or.inl rfl) (fun h9 => dec_eq (i2 (Or.inl h9))) ht hp).1 (by omega)
    rw [hkey, hstr] at h4
    cases h4
    simp only at ih1 ⊢
    rw [fmtMapOf_snoc, ih1]
    rfl
  | @skip pre xs it hc0 hns ih =>
    intro f b hf hx h
    obtain ⟨b1, h1, h2⟩ := gItems_snoc h
    have ih1 := ih hf hx h1
    cases it with
    | sst d more => obtain ⟨t, rfl⟩ := sst_frame h2; exact ih1
    | extern d more => obtain ⟨_, _, _, _, _, _, _, _, rfl⟩ := extern_frame h2; exact ih1
    | one c d =>
      have hc : c ≠ XL_FORMAT := hns c d rfl
      by_cases hcx : c = XL_XF
      · subst hcx; exact hxf ih1 h2
      · have hf := record_frame h2
        rw [hf.formatMap hc hcx, hf.xfcount hcx]
        exact ih1

theorem colour_map_fields {env : BookEnv} {f f' : FmtSt} (h : initialiseColourMap env.bv env.fi f = .ok f') :
    ∃ m, f' = { f with colourMap := m, coloursUsed := fun _ => false } := by
  unfold initialiseColourMap at h
  cases hf : env.fi with
  | false => simp only [hf, Bool.not_false, if_true] at h; cases h; exact ⟨_, rfl⟩
  | true =>
    simp only [hf, Bool.not_true, Bool.false_eq_true, if_false] at h
    obtain ⟨d, _, h⟩ := bind_ok h
    cases h
    exact ⟨_, rfl⟩

/-- `xfcount` is the length of the list. -/
theorem xfcount_items {env : BookEnv} (items : List GItem) {f : FmtSt} {b : Book} (h0 : f.xfcount = f.xfList.length)
    (h : applyGlobals env { fmt := f } items = .ok b) : b.fmt.xfcount = b.fmt.xfList.length := by
  refine gItems_inv (fun b => b.fmt.xfcount = b.fmt.xfList.length) ?_ items _ _ h0 h
  intro b it b' hb ha
  cases it with
  | sst d more => obtain ⟨t, rfl⟩ := sst_frame ha; exact hb
  | extern d more => obtain ⟨_, _, _, _, _, _, _, _, rfl⟩ := extern_frame ha; exact hb
  | one c d =>
    by_cases hc : c = XL_XF
    · subst hc
      have e : applyGItem env b (.one XL_XF d) = bookXf env b d := rfl
      rw [e] at ha
      unfold bookXf at ha
      obtain ⟨g, h3, h2⟩ := bind_ok ha
      cases h2
      unfold handleXf at h3
      obtain ⟨x, _, h3⟩ := bind_ok h3
      cases h3
      simp only [List.length_append, List.length_singleton, hb]
    · have hf := record_frame ha
      show b'.fmt.xfcount = b'.fmt.xfList.length
      rw [hf.xfcount hc, hf.xfList hc]; exact hb

/-- The list of XFs follows the XF records. -/
theorem xfs_items {env : BookEnv} (h50 : 50 ≤ env.bv) {items : List GItem} {xfs : List XF}
    (hc : Xfs env.bv (textAt env) items xfs) :
    ∀ {f : FmtSt} {b : Book}, f.formatMap = (fun _ => none) → f.xfcount = 0 → f.xfList = [] → applyGlobals env { fmt := f } items = .ok b →
      b.fmt.xfList = xfs.mapIdx fun i x => { x with xfIndex := i } := by
  unfold Xfs at hc
  induction hc with
  | nil => intro f b _ _ hl h; cases h; simp [hl]
  | @take pre xs c d x hc0 hsel hrel ih =>
    intro f b hf hx hl h
    obtain ⟨b1, h1, h2⟩ := gItems_snoc h
    have ih1 := ih hf hx hl h1
    have hcount := xfcount_items pre (f := f) (by rw [hx, hl]; rfl) h1
    subst hsel
    have e : applyGItem env b1 (.one 0xe0 d) = bookXf env b1 d := rfl
    rw [e] at h2
    unfold bookXf at h2
    obtain ⟨g, h3, h2⟩ := bind_ok h2
    cases h2
    obtain ⟨raw, fmts, hr, hfm, hkey⟩ := hrel
    have hmap := formats_items h50 hfm hf hx h1
    unfold handleXf at h3
    rw [decodeXf_record hr] at h3
    have hm : (if env.bv ≥ 50 ∧ b1.fmt.xfcount = 0 then fillInStandardFormats b1.fmt.formatMap else b1.fmt.formatMap) = fmtMapOf fmts true := by
      by_cases hz : b1.fmt.xfcount = 0
      · rw [if_pos ⟨h50, hz⟩, hmap, hz]; exact fmtMapOf_fill fmts
      · rw [if_neg (fun h => hz h.2), hmap]; simp [hz]
    rw [hm] at h3
    cases h3
    simp only
    rw [ih1, List.mapIdx_append]
    congr 1
    simp only [List.mapIdx_cons, List.mapIdx_nil, List.length_mapIdx, Nat.zero_add]
    congr 1
    have hknown : ((fmtMapOf fmts true raw.formatKey).isSome = true) ↔ (BuiltinKey raw.formatKey ∨ (lastFormat fmts raw.formatKey).isSome) := by
      unfold fmtMapOf
      cases lastFormat fmts raw.formatKey with
      | some s => simp
      | none => simp [stdEntry, stdType_cases]
    unfold knownKey
    rcases hkey with ⟨hk, rfl⟩ | ⟨hk, rfl⟩
    · rw [if_pos (hknown.mpr hk)]
    · rw [if_neg (fun h => hk (hknown.mp h))]
  | @skip pre xs it hc0 hns ih =>
    intro f b hf hx hl h
    obtain ⟨b1, h1, h2⟩ := gItems_snoc h
    have ih1 := ih hf hx hl h1
    cases it with
    | sst d more => obtain ⟨t, rfl⟩ := sst_frame h2; exact ih1
    | extern d more => obtain ⟨_, _, _, _, _, _, _, _, rfl⟩ := extern_frame h2; exact ih1
    | one c d =>
      have hc : c ≠ XL_XF := hns c d rfl
      rw [(record_frame h2).xfList hc]
      exact ih1

/-- Every XF in the list has a known format. -/
theorem known_items {env : BookEnv} (h50 : 50 ≤ env.bv) (items : List GItem) {b0 b : Book}
    (h0 : (b0.fmt.xfcount ≠ 0 → (b0.fmt.formatMap 0).isSome = true) ∧ ∀ x ∈ b0.fmt.xfList, (b0.fmt.formatMap x.formatKey).isSome = true)
    (h : applyGlobals env b0 items = .ok b) :
    (b.fmt.xfcount ≠ 0 → (b.fmt.formatMap 0).isSome = true) ∧ ∀ x ∈ b.fmt.xfList, (b.fmt.formatMap x.formatKey).isSome = true := by
  refine gItems_inv (fun b => (b.fmt.xfcount ≠ 0 → (b.fmt.formatMap 0).isSome = true) ∧
    ∀ x ∈ b.fmt.xfList, (b.fmt.formatMap x.formatKey).isSome = true) ?_ items _ _ h0 h
  rintro b it b' ⟨hb0, hb⟩ ha
  cases it with
  | sst d more => obtain ⟨t, rfl⟩ := sst_frame ha; exact ⟨hb0, hb⟩
  | extern d more => obtain ⟨_, _, _, _, _, _, _, _, rfl⟩ := extern_frame ha; exact ⟨hb0, hb⟩
  | one c d =>
    by_cases hc : c = XL_XF
    · subst hc
      have e : applyGItem env b (.one XL_XF d) = bookXf env b d := rfl
      rw [e] at ha
      unfold bookXf at ha
      obtain ⟨g, h3, h2⟩ := bind_ok ha
      cases h2
      unfold handleXf at h3
      obtain ⟨x, _, h3⟩ := bind_ok h3
      cases h3
      simp only
      generalize hm : (if env.bv ≥ 50 ∧ b.fmt.xfcount = 0 then fillInStandardFormats b.fmt.formatMap else b.fmt.formatMap) = m
      have hmono : ∀ k, (b.fmt.formatMap k).isSome = true → (m k).isSome = true := by
        intro k hk
        subst hm
        split_ifs
        · unfold fillInStandardFormats
          cases hq : b.fmt.formatMap k with
          | none => rw [hq] at hk; cases hk
          | some v => rfl
        · exact hk
      have hm0 : (m 0).isSome = true := by
        by_cases hz : b.fmt.xfcount = 0
        · subst hm
          rw [if_pos ⟨h50, hz⟩]
          unfold fillInStandardFormats
          cases b.fmt.formatMap 0 with
          | some _ => rfl
          | none => rfl
        · exact hmono 0 (hb0 hz)
      refine ⟨fun _ => hm0, ?_⟩
      intro y hy
      rcases List.mem_append.mp hy with hy | hy
      · exact hmono _ (hb y hy)
      · simp only [List.mem_singleton] at hy
        subst hy
        simp only
        unfold knownKey
        split_ifs with hk
        · exact hk
        · exact hm0
    · have hf := record_frame ha
      show (b'.fmt.xfcount ≠ 0 → _) ∧ _
      rw [hf.xfcount hc, hf.xfList hc]
      by_cases hcf : c = XL_FORMAT
      · subst hcf
        have e : applyGItem env b (.one XL_FORMAT d) = bookFormat env b d := rfl
        rw [e] at ha
        unfold bookFormat at ha
        obtain ⟨b2, h3, h2⟩ := bind_ok ha
        obtain ⟨g, h4, h2⟩ := bind_ok h2
        cases h2
        obtain ⟨en, cc, u, r, rfl⟩ := ensure_frame h3
        unfold handleFormat at h4
        simp only [Bool.false_eq_true, if_false] at h4
        obtain ⟨k, _, h4⟩ := bind_ok h4
        obtain ⟨s, _, h4⟩ := bind_ok h4
        cases h4
        simp only
        have hmono : ∀ k' v, (b.fmt.formatMap k').isSome = true → (dictSet b.fmt.formatMap k v k').isSome = true := by
          intro k' v hk
          unfold dictSet
          split_ifs
          · rfl
          · exact hk
        exact ⟨fun h => hmono 0 _ (hb0 h), fun x hx => hmono _ _ (hb x hx)⟩
      · rw [hf.formatMap hcf hc]; exact ⟨hb0, hb⟩

/-- The type map written by the epilogue. -/
theorem epilogue_types (m : Nat → Option Format) (l : List XF) (tm : Nat → Option Nat) (i : Nat) :
    (∀ (j : Nat) x, l[j]? = some x → x.xfIndex = i → False) →
    (l.foldl (fun tm x => dictSet tm x.xfIndex (cellTypeOf m x.formatKey XL_CELL_TEXT)) tm) i = tm i := by
  induction l generalizing tm with
  | nil => intro _; rfl
  | cons x l ih =>
    intro h
    rw [List.foldl_cons, ih]
    · unfold dictSet
      rw [if_neg]
      intro hi
      exact h 0 x rfl hi.symm
    · intro j y hy he
      exact h (j + 1) y hy he

theorem epilogue_types_at (m : Nat → Option Format) (l : List XF) (off : Nat) (tm : Nat → Option Nat)
    (hidx : ∀ (j : Nat) x, l[j]? = some x → x.xfIndex = off + j) (i : Nat) (x : XF) (hx : l[i]? = some x) :
    (l.foldl (fun tm x => dictSet tm x.xfIndex (cellTypeOf m x.formatKey XL_CELL_TEXT)) tm) (off + i) = some (cellTypeOf m x.formatKey XL_CELL_TEXT) := by
  induction l generalizing tm off i with
  | nil => simp at hx
  | cons y l ih =>
    rw [List.foldl_cons]
    cases i with
    | zero =>
      simp only [List.getElem?_cons_zero, Option.some.injEq] at hx
      subst hx
      rw [epilogue_types]
      · have := hidx 0 y rfl
        unfold dictSet
        rw [if_pos (by omega)]
      · intro j z hz he
        have := hidx (j + 1) z hz
        omega
    | succ i =>
      have := ih (off + 1) (dictSet tm y.xfIndex (cellTypeOf m y.formatKey XL_CELL_TEXT)) (fun j z hz => by
        have := hidx (j + 1) z hz; omega) i hx
      rw [show off + (i + 1) = off + 1 + i by omega]
      exact this

theorem xfEpilogue_list (fi : Bool) (st : FmtSt) : (xfEpilogue fi st).xfList = st.xfList.map (fixParent fi st.xfList.length) := rfl

theorem parents_fixed {fi : Bool} {xfs : List XF} {st : FmtSt} (hl : st.xfList = xfs.mapIdx fun i x => { x with xfIndex := i }) :
    (xfEpilogue fi st).xfList.length = xfs.length ∧
    ∀ (i : Nat) x, xfs[i]? = some x → (xfEpilogue fi st).xfList[i]? = some { x with
      xfIndex := i
      parentStyleIndex := if fi = true ∧ x.isStyle = 0 ∧ ¬ x.parentStyleIndex < xfs.length then 0 else x.parentStyleIndex } := by
  rw [xfEpilogue_list, hl, List.length_mapIdx]
  refine ⟨by simp, ?_⟩
  intro i x hxi
  rw [List.getElem?_map, List.getElem?_mapIdx, hxi]
  simp only [Option.map_some, Option.some.injEq]
  unfold fixParent
  cases fi with
  | false => simp
  | true =>
    simp only [if_true, true_and]
    by_cases h1 : x.isStyle ≠ 0
    · rw [if_pos h1, if_neg (fun h => h1 h.1)]
    · rw [if_neg h1]
      by_cases h2 : x.parentStyleIndex < xfs.length
      · rw [if_pos h2, if_neg (fun h => h.2 h2)]
      · rw [if_neg h2, if_pos ⟨by simpa using h1, h2⟩]

/-- C35: the list of XFs of a workbook holds the XF records in file order, each with the attributes in the
record.  A cell XF whose parent does not exist gets parent 0 if formatting information is kept. -/
theorem C35_xf_list (env : BookEnv) (h50 : 50 ≤ env.bv) (pre post eof : Bytes) (he : eof.length < 65536) (items : List GItem)
    (hok : GlobalsOk env.bv items) (xfs : List XF) (hx : Xfs env.bv (textAt env) items xfs) (b : Book) (p : Int)
    (h : parseGlobals env (pre ++ encGlobals items eof ++ post) newBook (pre.length : Int) = .ok (b, p)) :
    b.fmt.xfList.length = xfs.length ∧
    ∀ (i : Nat) x, xfs[i]? = some x → b.fmt.xfList[i]? = some { x with
      xfIndex := i
      parentStyleIndex := if env.fi = true ∧ x.isStyle = 0 ∧ ¬ x.parentStyleIndex < xfs.length then 0 else x.parentStyleIndex } := by
  obtain ⟨f, b1, h1, h2, h3, _⟩ := parse_ok he hok h
  obtain ⟨m, rfl⟩ := colour_map_fields h1
  have hl := xfs_items h50 hx rfl rfl rfl h2
  obtain ⟨os, _, _, _, _, _, rfl⟩ := eof_frame h3
  exact parents_fixed (fi := env.fi) hl

/-- C34: a numeric cell with XF index `i` is a date cell exactly if the format of that XF is a date format:
the last FORMAT record with its key decides, or else the built-in format of that key.  Whether formatting
information is kept does not matter. -/
theorem C34_date_cells (env : BookEnv) (h50 : 50 ≤ env.bv) (pre post eof : Bytes) (he : eof.length < 65536) (items : List GItem)
    (hok : GlobalsOk env.bv items) (fmts : List (Nat × PyStr)) (hf : Formats env.bv (textAt env) items fmts)
    (xfs : List XF) (hx : Xfs env.bv (textAt env) items xfs) (b : Book) (p : Int)
    (h : parseGlobals env (pre ++ encGlobals items eof ++ post) newBook (pre.length : Int) = .ok (b, p))
    (i : Nat) (x : XF) (hi : xfs[i]? = some x) :
    (DateKey fmts x.formatKey → b.fmt.typeMap i = some XL_CELL_DATE) ∧
    (¬ DateKey fmts x.formatKey → b.fmt.typeMap i = some XL_CELL_NUMBER) := by
  obtain ⟨f, b1, h1, h2, h3, _⟩ := parse_ok he hok h
  obtain ⟨m, rfl⟩ := colour_map_fields h1
  have hl := xfs_items h50 hx rfl rfl rfl h2
  have hm := formats_items h50 hf rfl rfl h2
  have hcount := xfcount_items items (by rfl) h2
  obtain ⟨os, _, _, _, _, _, rfl⟩ := eof_frame h3
  have hne : b1.fmt.xfcount ≠ 0 := by
    rw [hcount, hl, List.length_mapIdx]
    have := (List.getElem?_eq_some_iff.mp hi).1
    omega
  have hm' : b1.fmt.formatMap = fmtMapOf fmts true := by rw [hm]; simp [hne]
  have ht : (paletteEpilogue (xfEpilogue env.fi b1.fmt)).typeMap i = some (cellTypeOf (fmtMapOf fmts true) x.formatKey XL_CELL_TEXT) := by
    show (xfEpilogue env.fi b1.fmt).typeMap i = _
    unfold xfEpilogue
    simp only
    rw [hm']
    have := epilogue_types_at (fmtMapOf fmts true) b1.fmt.xfList 0 b1.fmt.typeMap (by
      intro j y hy
      rw [hl, List.getElem?_mapIdx] at hy
      cases hj : xfs[j]? with
      | none => rw [hj] at hy; cases hy
      | some z => rw [hj] at hy; simp only [Option.map_some, Option.some.injEq] at hy; subst hy; simp) i { x with xfIndex := i } (by
      rw [hl, List.getElem?_mapIdx, hi]; rfl)
    simpa using this
  simp only [ht]
  have hk := known_items h50 items (by simp) h2
  have hkx := hk.2 { x with xfIndex := i } (by
    apply List.mem_of_getElem? (i := i)
    rw [hl, List.getElem?_mapIdx, hi]; rfl)
  simp only [hm'] at hkx
  unfold cellTypeOf
  have key : ∀ f, fmtMapOf fmts true x.formatKey = some f → (f.ty = FDT ↔ DateKey fmts x.formatKey) := by
    intro f hf
    unfold fmtMapOf at hf
    unfold DateKey
    cases hq : lastFormat fmts x.formatKey with
    | some s =>
      rw [hq] at hf
      cases hf
      simp only [fmtEntry]
      rw [← isDate_spec]
      cases isDateFormatString s <;> simp [FDT, FGE]
    | none =>
      rw [hq] at hf
      simp only [if_true, stdEntry] at hf
      simp only
      rw [← stdType_date]
      cases hs : stdFormatCodeType x.formatKey with
      | none => rw [hs] at hf; cases hf
      | some ty => rw [hs] at hf; cases hf; simp
  cases hq : fmtMapOf fmts true x.formatKey with
  | none => rw [hq] at hkx; cases hkx
  | some f =>
    simp only
    rw [← key f hq]
    unfold celltyFromFmtty
    exact ⟨fun h => by rw [if_pos h], fun h => by rw [if_neg h]⟩

/-- C34: a workbook read with formatting information has the same number and date cells as one read without. -/
theorem C34_formatting_info_irrelevant (env : BookEnv) (h50 : 50 ≤ env.bv) (pre post eof : Bytes) (he : eof.length < 65536)
    (items : List GItem) (hok : GlobalsOk env.bv items) (fmts : List (Nat × PyStr)) (hf : Formats env.bv (textAt env) items fmts)
    (xfs : List XF) (hx : Xfs env.bv (textAt env) items xfs) (b b' : Book) (p p' : Int)
    (h : parseGlobals { env with fi := false } (pre ++ encGlobals items eof ++ post) newBook (pre.length : Int) = .ok (b, p))
    (h' : parseGlobals { env with fi := true } (pre ++ encGlobals items eof ++ post) newBook (pre.length : Int) = .ok (b', p'))
    (i : Nat) (hi : i < xfs.length) : b.fmt.typeMap i = b'.fmt.typeMap i := by
  have h1 := C34_date_cells { env with fi := false } h50 pre post eof he items hok fmts hf xfs hx b p h i xfs[i] (by simp [hi])
  have h2 := C34_date_cells { env with fi := true } h50 pre post eof he items hok fmts hf xfs hx b' p' h' i xfs[i] (by simp [hi])
  by_cases hd : DateKey fmts xfs[i].formatKey
  · rw [h1.1 hd, h2.1 hd]
  · rw [h1.2 hd, h2.2 hd]

/-! ## C36 -/

theorem fontRecord_read {bv : Nat} {dec : Bytes → R PyStr} {f : Font} {data : Bytes} (h : FontRecord dec f bv data) (k : Nat) :
    decodeFont bv dec k data = .ok { f with fontIndex := k } := by
  cases h with
  | biff8 u name tail fit ok text len =>
    refine font5_roundtrip { f with fontIndex := k } u fit 80 (by decide) dec _ ?_
    rw [if_pos (by decide)]
    have := unpackUnicode_at (data := leBytes 14 (packFields (fontFields5 f u)) ++ (encLen 1 (utf16 f.name).length ++ name.body ++ tail))
      (p := 14) (r := tail) name ok (Or.inl rfl) (by rw [text]; exact len) (by
        rw [List.drop_left' (leBytes_length _ _), text, List.append_assoc])
    rw [text] at this
    exact this
  | biff5 _ hbv u name tail fit text len =>
    refine font5_roundtrip { f with fontIndex := k } u fit bv (by omega) dec _ ?_
    rw [if_neg (by omega)]
    exact (unpackString_at (p := 14) (r := tail) dec (Or.inl rfl) len (by rw [List.drop_left' (leBytes_length _ _), List.append_assoc])).trans text
  | biff34 _ hbv u name tail fit old text len =>
    refine font3_roundtrip { f with fontIndex := k } u fit bv (by omega) (by omega) old dec _ ?_
    exact (unpackString_at (p := 6) (r := tail) dec (Or.inl rfl) len (by rw [List.drop_left' (leBytes_length _ _), List.append_assoc])).trans text
  | biff2 _ hbv u name tail fit old colour outline shadow text len =>
    refine font2_roundtrip { f with fontIndex := k } u fit bv (by omega) old colour outline shadow dec _ ?_
    exact (unpackString_at (p := 4) (r := tail) dec (Or.inl rfl) len (by rw [List.drop_left' (leBytes_length _ _), List.append_assoc])).trans text

/-- The fonts read so far: their numbers and the place holder. -/
def FontsAt (l : List Font) (fonts : List Font) : Prop :=
  l.length = (if fonts.length ≤ 4 then fonts.length else fonts.length + 1) ∧
  (∀ (k : Nat) f, fonts[k]? = some f → l[fontNumber k]? = some { f with fontIndex := fontNumber k }) ∧
  (4 < fonts.length → l[4]? = some dummyFont)

theorem FontsAt.add {l fonts : List Font} (h : FontsAt l fonts) (f : Font) :
    FontsAt (fontPad l ++ [{ f with fontIndex := (fontPad l).length }]) (fonts ++ [f]) := by
  obtain ⟨h1, h2, h3⟩ := h
  have hpad : (fontPad l).length = fontNumber fonts.length := by
    unfold fontPad fontNumber
    by_cases h4 : l.length = 4
    · rw [if_pos h4, List.length_append, List.length_singleton]
      split_ifs at h1 ⊢ <;> omega
    · rw [if_neg h4]
      split_ifs at h1 ⊢ <;> omega
  have hold : ∀ (i : Nat) g, l[i]? = some g → (fontPad l ++ [{ f with fontIndex := (fontPad l).length }])[i]? = some g := by
    intro i g hg
    have hi := (List.getElem?_eq_some_iff.mp hg).1
    rw [List.getElem?_append_left]
    · unfold fontPad
      split_ifs
      · rw [List.getElem?_append_left hi]; exact hg
      · exact hg
    · unfold fontPad
      split_ifs
      · rw [List.length_append]; omega
      · exact hi
  refine ⟨?_, ?_, ?_⟩
  · rw [List.length_append, hpad, List.length_singleton, List.length_append, List.length_singleton]
    unfold fontNumber
    split_ifs <;> omega
  · intro k g hg
    by_cases hk : k < fonts.length
    · rw [List.getElem?_append_left hk] at hg
      exact hold _ _ (h2 k g hg)
    · have hk2 := (List.getElem?_eq_some_iff.mp hg).1
      rw [List.length_append, List.length_singleton] at hk2
      have hk3 : k = fonts.length := by omega
      subst hk3
      rw [List.getElem?_append_right (le_refl _), Nat.sub_self, List.getElem?_cons_zero] at hg
      cases hg
      rw [← hpad, List.getElem?_append_right (le_refl _), Nat.sub_self, List.getElem?_cons_zero]
  · intro h4
    rw [List.length_append, List.length_singleton] at h4
    by_cases h5 : 4 < fonts.length
    · exact hold _ _ (h3 h5)
    · have h6 : l.length = 4 := by rw [if_pos (by omega)] at h1; omega
      have : fontPad l = l ++ [dummyFont] := by unfold fontPad; rw [if_pos h6]
      rw [this, List.append_assoc, List.getElem?_append_right (by omega), h6]
      rfl

/-- The list of fonts follows the FONT records. -/
theorem fonts_after {env : BookEnv} (hfi : env.fi = true) {hist items : List GItem} {fonts : List Font}
    (hc : Fonts env.bv (fun pre => textAt env (hist ++ pre)) items fonts) :
    ∀ {b0 b : Book}, EncInv env hist b0 → b0.fmt.fontList = [] → applyGlobals env b0 items = .ok b → FontsAt b.fmt.fontList fonts := by
  unfold Fonts at hc
  induction hc with
  | nil => intro b0 b _ hf h; cases h; simp [FontsAt, hf]
  | @take pre xs c d x hc0 hsel hrel ih =>
    intro b0 b h0 hf h
    obtain ⟨b1, h1, h2⟩ := gItems_snoc h
    have hi := items_enc pre h0 h1
    have ih1 := ih h0 hf h1
    have e : applyGItem env b1 (.one c d) = bookFont env b1 d := by rcases hsel with rfl | rfl <;> rfl
    rw [e] at h2
    unfold bookFont at h2
    simp only [hfi, Bool.not_true, Bool.false_eq_true, if_false] at h2
    obtain ⟨b2, h3, h2⟩ := bind_ok h2
    obtain ⟨i1, i2⟩ := ensure_inv hi h3
    obtain ⟨g, h4, h2⟩ := bind_ok h2
    cases h2
    have hd : decodeFont env.bv (b2.dec env) (fontPad b2.fmt.fontList).length d = .ok { x with fontIndex := (fontPad b2.fmt.fontList).length } := by
      by_cases h8 : env.bv < 80
      · rw [dec_eq (i2 (Or.inl h8))]
        exact fontRecord_read hrel _
      · have hr : FontRecord (b2.dec env) x env.bv d := by
          generalize env.bv = bv at hrel h8
          cases hrel with
          | biff8 u name tail fit ok text len => exact .biff8 u name tail fit ok text len
          | biff5 _ hq => omega
          | biff34 _ hq => omega
          | biff2 _ hq => omega
        exact fontRecord_read hr _
    obtain ⟨en, cc, u, r, rfl⟩ := ensure_frame h3
    unfold handleFont at h4
    simp only [Bool.not_true, Bool.false_eq_true, if_false] at h4
    rw [hd] at h4
    cases h4
    exact ih1.add x
  | @skip pre xs it hc0 hns ih =>
    intro b0 b h0 hf h
    obtain ⟨b1, h1, h2⟩ := gItems_snoc h
    have ih1 := ih h0 hf h1
    cases it with
    | sst d more => obtain ⟨t, rfl⟩ := sst_frame h2; exact ih1
    | extern d more => obtain ⟨_, _, _, _, _, _, _, _, rfl⟩ := extern_frame h2; exact ih1
    | one c d =>
      have hc : ¬ (c = 0x31 ∨ c = 0x231) := hns c d rfl
      rw [(record_frame h2).font (fun h => hc (Or.inl h)) (fun h => hc (Or.inr h))]
      exact ih1

theorem fonts_items {env : BookEnv} (hfi : env.fi = true) {items : List GItem} {fonts : List Font} (hc : Fonts env.bv (textAt env) items fonts) :
    ∀ {b0 b : Book}, EncInv env [] b0 → b0.fmt.fontList = [] → applyGlobals env b0 items = .ok b → FontsAt b.fmt.fontList fonts :=
  fonts_after (hist := []) hfi hc

/-- C36: with formatting information, the font of the `k`-th FONT record has the attributes in the record and
the number by which XFs refer to it; number 4 is a dummy. -/
theorem C36_fonts (env : BookEnv) (hfi : env.fi = true) (pre post eof : Bytes) (he : eof.length < 65536) (items : List GItem)
    (hok : GlobalsOk env.bv items) (fonts : List Font) (hf : Fonts env.bv (textAt env) items fonts) (b : Book) (p : Int)
    (h : parseGlobals env (pre ++ encGlobals items eof ++ post) newBook (pre.length : Int) = .ok (b, p)) :
    b.fmt.fontList.length = (if fonts.length ≤ 4 then fonts.length else fonts.length + 1) ∧
    (∀ (k : Nat) f, fonts[k]? = some f → b.fmt.fontList[fontNumber k]? = some { f with fontIndex := fontNumber k }) ∧
    (4 < fonts.length → ∃ f, b.fmt.fontList[4]? = some f ∧ f.fontIndex = 4 ∧ f.name = "Dummy Font".toList) := by
  obtain ⟨f, b1, h1, h2, h3, _⟩ := parse_ok he hok h
  obtain ⟨m, rfl⟩ := colour_map_fields h1
  obtain ⟨ha, hb, hc⟩ := fonts_items hfi hf (fresh_enc env _) rfl h2
  obtain ⟨os, _, _, _, _, _, rfl⟩ := eof_frame h3
  exact ⟨ha, hb, fun h => ⟨_, hc h, rfl, rfl⟩⟩

theorem decodeFont_index {bv : Nat} {dec : Bytes → R PyStr} {k : Nat} {data : Bytes} {f : Font} (h : decodeFont bv dec k data = .ok f) :
    f.fontIndex = k := by
  unfold decodeFont at h
  split_ifs at h
  all_goals
    obtain ⟨_, _, h⟩ := bind_ok h
    obtain ⟨_, _, h⟩ := bind_ok h
    cases h
    rfl

/-- The numbers of fonts and XFs, for every file. -/
theorem numbering_items {env : BookEnv} (items : List GItem) {b0 b : Book}
    (h0 : (∀ (i : Nat) f, b0.fmt.fontList[i]? = some f → f.fontIndex = i) ∧ ∀ (i : Nat) x, b0.fmt.xfList[i]? = some x → x.xfIndex = i)
    (h : applyGlobals env b0 items = .ok b) :
    (∀ (i : Nat) f, b.fmt.fontList[i]? = some f → f.fontIndex = i) ∧ ∀ (i : Nat) x, b.fmt.xfList[i]? = some x → x.xfIndex = i := by
  refine gItems_inv (fun b => (∀ (i : Nat) f, b.fmt.fontList[i]? = some f → f.fontIndex = i) ∧
    ∀ (i : Nat) x, b.fmt.xfList[i]? = some x → x.xfIndex = i) ?_ items _ _ h0 h
  rintro b it b' ⟨hf, hx⟩ ha
  cases it with
  | sst d more => obtain ⟨t, rfl⟩ := sst_frame ha; exact ⟨hf, hx⟩
  | extern d more => obtain ⟨_, _, _, _, _, _, _, _, rfl⟩ := extern_frame ha; exact ⟨hf, hx⟩
  | one c d =>
    have fr := record_frame ha
    constructor
    · by_cases hc : c = 0x31 ∨ c = 0x231
      · have e : applyGItem env b (.one c d) = bookFont env b d := by rcases hc with rfl | rfl <;> rfl
        rw [e] at ha
        unfold bookFont at ha
        cases hfi : env.fi with
        | false => simp only [hfi, Bool.not_false, if_true] at ha; cases ha; exact hf
        | true =>
          simp only [hfi, Bool.not_true, Bool.false_eq_true, if_false] at ha
          obtain ⟨b2, h3, h2⟩ := bind_ok ha
          obtain ⟨g, h4, h2⟩ := bind_ok h2
          cases h2
          obtain ⟨en, cc, u, r, rfl⟩ := ensure_frame h3
          unfold handleFont at h4
          simp only [Bool.not_true, Bool.false_eq_true, if_false] at h4
          obtain ⟨f, h5, h4⟩ := bind_ok h4
          cases h4
          simp only at h5 ⊢
          have hpad : ∀ (i : Nat) f, (fontPad b.fmt.fontList)[i]? = some f → f.fontIndex = i := by
            intro i f hi
            unfold fontPad at hi
            split_ifs at hi with h4
            · by_cases hlt : i < b.fmt.fontList.length
              · rw [List.getElem?_append_left hlt] at hi; exact hf i f hi
              · have hk2 := (List.getElem?_eq_some_iff.mp hi).1
                rw [List.length_append, List.length_singleton] at hk2
                have : i = 4 := by omega
                subst this
                rw [List.getElem?_append_right (by omega), h4] at hi
                cases hi
                rfl
            · exact hf i f hi
          intro i f' hi
          by_cases hlt : i < (fontPad b.fmt.fontList).length
          · rw [List.getElem?_append_left hlt] at hi; exact hpad i f' hi
          · have hk2 := (List.getElem?_eq_some_iff.mp hi).1
            rw [List.length_append, List.length_singleton] at hk2
            have hk3 : i = (fontPad b.fmt.fontList).length := by omega
            subst hk3
            rw [List.getElem?_append_right (le_refl _), Nat.sub_self, List.getElem?_cons_zero] at hi
            cases hi
            exact decodeFont_index h5
      · rw [fr.font (fun h => hc (Or.inl h)) (fun h => hc (Or.inr h))]; exact hf
    · by_cases hc : c = XL_XF
      · subst hc
        have e : applyGItem env b (.one XL_XF d) = bookXf env b d := rfl
        rw [e] at ha
        unfold bookXf at ha
        obtain ⟨g, h3, h2⟩ := bind_ok ha
        cases h2
        unfold handleXf at h3
        obtain ⟨x, _, h3⟩ := bind_ok h3
        cases h3
        simp only
        intro i x' hi
        by_cases hlt : i < b.fmt.xfList.length
        · rw [List.getElem?_append_left hlt] at hi; exact hx i x' hi
        · have hk2 := (List.getElem?_eq_some_iff.mp hi).1
          rw [List.length_append, List.length_singleton] at hk2
          have hk3 : i = b.fmt.xfList.length := by omega
          subst hk3
          rw [List.getElem?_append_right (le_refl _), Nat.sub_self, List.getElem?_cons_zero] at hi
          cases hi
          rfl
      · rw [fr.xfList hc]; exact hx

theorem fixParent_index (fi : Bool) (n : Nat) (x : XF) : (fixParent fi n x).xfIndex = x.xfIndex := by
  unfold fixParent; split_ifs <;> rfl

theorem fixParent_key (fi : Bool) (n : Nat) (x : XF) : (fixParent fi n x).formatKey = x.formatKey := by
  unfold fixParent; split_ifs <;> rfl

/-- Each font and each XF knows its own position. -/
def Numbered (st : FmtSt) : Prop :=
  (∀ (i : Nat) f, st.fontList[i]? = some f → f.fontIndex = i) ∧ ∀ (i : Nat) x, st.xfList[i]? = some x → x.xfIndex = i

theorem numbered_item {env : BookEnv} {b b' : Book} {it : GItem} (h0 : Numbered b.fmt) (h : applyGItem env b it = .ok b') : Numbered b'.fmt :=
  numbering_items (env := env) [it] h0 (by simp only [applyGlobals, h, bind, Except.bind])

theorem numbered_snoc {l : List XF} {x : XF} (h : ∀ (i : Nat) y, l[i]? = some y → y.xfIndex = i) (hx : x.xfIndex = l.length) :
    ∀ (i : Nat) y, (l ++ [x])[i]? = some y → y.xfIndex = i := by
  intro i y hi
  by_cases hlt : i < l.length
  · rw [List.getElem?_append_left hlt] at hi; exact h i y hi
  · have hk2 := (List.getElem?_eq_some_iff.mp hi).1
    rw [List.length_append, List.length_singleton] at hk2
    have hk3 : i = l.length := by omega
    subst hk3
    rw [List.getElem?_append_right (le_refl _), Nat.sub_self, List.getElem?_cons_zero] at hi
    cases hi
    exact hx

theorem epilogue_numbered {env : OpenEnv} {b : Book} (h : Numbered b.fmt) : Numbered (runEpilogue env b).fmt := by
  refine ⟨h.1, ?_⟩
  intro i x hi
  have e : (runEpilogue env b).fmt.xfList = b.fmt.xfList.map (fixParent env.fi b.fmt.xfList.length) := rfl
  rw [e, List.getElem?_map] at hi
  cases hq : b.fmt.xfList[i]? with
  | none => rw [hq] at hi; cases hi
  | some y =>
    rw [hq] at hi
    cases hi
    rw [fixParent_index]
    exact h.2 i y hq

theorem ensureFormat_lists (st : FmtSt) (k : Nat) : (ensureFormat st k).xfList = st.xfList ∧ (ensureFormat st k).fontList = st.fontList := by
  unfold ensureFormat; split <;> exact ⟨rfl, rfl⟩

theorem insertXf_numbered {o o' : OldSt} {attr : Bytes} {s : Bool} {k : Nat} (h : insertXf o attr s = .ok (k, o')) (hn : Numbered o.book.fmt) :
    Numbered o'.book.fmt := by
  unfold insertXf at h
  obtain ⟨x, _, h⟩ := bind_ok h
  cases h
  have e := ensureFormat_lists o.book.fmt x.formatKey
  refine ⟨?_, ?_⟩
  · simp only [e.2]; exact hn.1
  · simp only [e.1]; exact numbered_snoc hn.2 rfl

theorem insertStyles_numbered : ∀ (n i : Nat) {o o' : OldSt}, insertStyles n i o = .ok o' → Numbered o.book.fmt → Numbered o'.book.fmt
  | 0, _, _, _, h, hn => by cases h; exact hn
  | n + 1, i, o, o', h, hn => by
    rw [insertStyles] at h
    obtain ⟨⟨k, o1⟩, h1, h⟩ := bind_ok h
    exact insertStyles_numbered n (i + 1) h (insertXf_numbered h1 hn)

theorem fixXf_numbered {o o' : OldSt} {attr : Option Bytes} {t : Option Nat} {k : Nat} (h : fixXf o attr t = .ok (k, o'))
    (hn : Numbered o.book.fmt) : Numbered o'.book.fmt := by
  unfold fixXf at h
  by_cases hb : o.bv = 21 ∧ o.book.fmt.xfList ≠ []
  · rw [if_pos hb] at h
    obtain ⟨x, _, h⟩ := bind_ok h
    by_cases hx : x = 0x3F
    · rw [if_pos hx] at h
      cases hi : o.ixfe with
      | none => rw [hi] at h; cases h
      | some i => rw [hi] at h; cases h; exact hn
    · rw [if_neg hx] at h; cases h; exact hn
  · rw [if_neg hb] at h
    cases attr with
    | none => cases h
    | some a =>
      simp only at h
      have hn' : Numbered (if o.bv = 21 then { o with bv := 20 } else o).book.fmt := by split <;> exact hn
      generalize (if o.bv = 21 then { o with bv := 20 } else o) = o1 at h hn'
      unfold attrIndex at h
      obtain ⟨s, _, h⟩ := bind_ok h
      obtain ⟨_, _, h⟩ := bind_ok h
      cases ha : o1.attrXf a with
      | some x => simp only [ha] at h; cases h; exact hn'
      | none =>
        simp only [ha] at h
        obtain ⟨o2, h1, h⟩ := bind_ok h
        refine insertXf_numbered h ?_
        unfold withStyles at h1
        by_cases hx : o1.book.fmt.xfList = []
        · rw [if_pos hx] at h1; exact insertStyles_numbered _ _ h1 hn'
        · rw [if_neg hx] at h1; cases h1; exact hn'

/-- A handler of an old sheet that gets at the book only through XF indexes, or through the encoding, or not at all. -/
inductive Reach : OldSt → OldSt → Prop where
  | same {o o' : OldSt} (h : o'.book.fmt = o.book.fmt) : Reach o o'
  | fix {o o1 o' : OldSt} {attr : Option Bytes} {t : Option Nat} {k : Nat} (h : fixXf o attr t = .ok (k, o1)) (h' : Reach o1 o') : Reach o o'
  | enc {o o1 o' : OldSt} {env : OpenEnv} {n : Bool} (h : o.withEncoding env n = .ok o1) (h' : Reach o1 o') : Reach o o'

theorem Reach.numbered {o o' : OldSt} (h : Reach o o') : Numbered o.book.fmt → Numbered o'.book.fmt := by
  induction h with
  | same h => intro hn; rw [h]; exact hn
  | fix h _ ih => intro hn; exact ih (fixXf_numbered h hn)
  | enc h _ ih => intro hn; exact ih (by rw [(withEncoding_same h).2]; exact hn)

theorem columnDefaults_reach (data : Bytes) : ∀ (n c off : Nat) {o o' : OldSt}, columnDefaults data n c off o = .ok o' →
    Numbered o.book.fmt → Numbered o'.book.fmt
  | 0, _, _, _, _, h, hn => by cases h; exact hn
  | n + 1, c, off, o, o', h, hn => by
    rw [columnDefaults] at h
    obtain ⟨⟨k, o1⟩, h1, h⟩ := bind_ok h
    simp only at h
    have := columnDefaults_reach data n _ _ h
    exact this (by have := fixXf_numbered h1 hn; exact this)

theorem fixPut_reach {env : OpenEnv} {o o' : OldSt} {attr : Option Bytes} {t : Option Nat} {r c : Nat} {ct : Option Nat} {v : Val}
    (h : (do let (x, o) ← fixXf o attr t; o.put env r c ct v x) = .ok o') : Reach o o' := by
  obtain ⟨⟨x, o1⟩, h1, h⟩ := bind_ok h
  exact .fix h1 (.same (by rw [put_book h]))

theorem oldSheetRecord_numbered {env : OpenEnv} {o o' : OldSt} {rc len : Nat} {d : Bytes} (h : oldSheetRecord env o rc len d = .ok o')
    (hn : Numbered o.book.fmt) : Numbered o'.book.fmt := by
  unfold oldSheetRecord at h
  by_cases c1 : rc = XL_IXFE
  · rw [if_pos c1] at h
    obtain ⟨x, _, h⟩ := bind_ok h
    cases h
    exact hn
  rw [if_neg c1] at h
  by_cases c2 : rc = XL_NUMBER_B2
  · rw [if_pos c2] at h
    obtain ⟨b, _, h⟩ := bind_ok h
    exact (fixPut_reach h).numbered hn
  rw [if_neg c2] at h
  by_cases c3 : rc = XL_INTEGER
  · rw [if_pos c3] at h
    obtain ⟨b, _, h⟩ := bind_ok h
    exact (fixPut_reach h).numbered hn
  rw [if_neg c3] at h
  by_cases c4 : rc = XL_LABEL_B2
  · rw [if_pos c4] at h
    obtain ⟨b, _, h⟩ := bind_ok h
    obtain ⟨o1, h1, h⟩ := bind_ok h
    obtain ⟨t, _, h⟩ := bind_ok h
    exact (Reach.enc h1 (fixPut_reach h)).numbered hn
  rw [if_neg c4] at h
  by_cases c5 : rc = XL_BOOLERR_B2
  · rw [if_pos c5] at h
    obtain ⟨b, _, h⟩ := bind_ok h
    obtain ⟨t, _, h⟩ := bind_ok h
    exact (fixPut_reach h).numbered hn
  rw [if_neg c5] at h
  by_cases c6 : rc = XL_BLANK_B2
  · rw [if_pos c6] at h
    unfold recBlankB2 at h
    cases hf : env.fi with
    | false => simp only [hf, Bool.false_eq_true, if_false] at h; cases h; exact hn
    | true =>
      simp only [hf, if_true] at h
      obtain ⟨b, _, h⟩ := bind_ok h
      exact (fixPut_reach h).numbered hn
  rw [if_neg c6] at h
  by_cases c7 : rc = XL_ROW_B2
  · rw [if_pos c7] at h
    unfold recRowB2 at h
    cases hf : env.fi with
    | false => simp only [hf, Bool.false_eq_true, if_false] at h; cases h; exact hn
    | true =>
      simp only [hf, if_true] at h
      obtain ⟨b, _, h⟩ := bind_ok h
      by_cases hr : fld b 0 2 < (o.env env).cfg.maxRows
      · rw [if_pos hr] at h
        obtain ⟨⟨x, o1⟩, h1, h⟩ := bind_ok h
        cases h
        unfold rowXfB2 at h1
        by_cases hb : fld b 10 1 &&& 1 = 0
        · rw [if_pos hb] at h1; cases h1; exact hn
        rw [if_neg hb] at h1
        by_cases hl : len = 18
        · rw [if_pos hl] at h1
          obtain ⟨y, _, h1⟩ := bind_ok h1
          obtain ⟨⟨z, o2⟩, h2, h1⟩ := bind_ok h1
          cases h1
          exact (fixXf_numbered h2 hn :)
        · rw [if_neg hl] at h1
          obtain ⟨⟨z, o2⟩, h2, h1⟩ := bind_ok h1
          cases h1
          exact (fixXf_numbered h2 hn :)
      · rw [if_neg hr] at h; cases h; exact hn
  rw [if_neg c7] at h
  by_cases c8 : rc = XL_COLWIDTH
  · rw [if_pos c8] at h
    unfold recColWidth at h
    cases hf : env.fi with
    | false => simp only [hf, Bool.false_eq_true, if_false] at h; cases h; exact hn
    | true =>
      simp only [hf, if_true] at h
      obtain ⟨b, _, h⟩ := bind_ok h
      by_cases hr : fld b 0 1 ≤ fld b 1 1
      · rw [if_pos hr] at h; cases h; exact hn
      · rw [if_neg hr] at h; cases h; exact hn
  rw [if_neg c8] at h
  by_cases c9 : rc = XL_COLUMNDEFAULT
  · rw [if_pos c9] at h
    unfold recColumnDefault at h
    cases hf : env.fi with
    | false => simp only [hf, Bool.false_eq_true, if_false] at h; cases h; exact hn
    | true =>
      simp only [hf, if_true] at h
      obtain ⟨b, _, h⟩ := bind_ok h
      exact columnDefaults_reach _ _ _ _ h hn
  rw [if_neg c9] at h
  unfold recWindow2B2 at h
  obtain ⟨b, _, h⟩ := bind_ok h
  obtain ⟨c, _, h⟩ := bind_ok h
  obtain ⟨k, _, h⟩ := bind_ok h
  cases h
  exact hn

theorem handleFormat_lists {bv : Nat} {dec : Bytes → R PyStr} {st st' : FmtSt} {d : Bytes} {f2 : Bool}
    (h : handleFormat bv dec st d f2 = .ok st') : st'.fontList = st.fontList ∧ st'.xfList = st.xfList := by
  unfold handleFormat at h
  obtain ⟨k, _, h⟩ := bind_ok h
  obtain ⟨s, _, h⟩ := bind_ok h
  cases h
  exact ⟨rfl, rfl⟩

theorem oldBookRecord_numbered {env : OpenEnv} {o : OldSt} {rc : Nat} {d : Bytes} {b' : Book} (h : oldBookRecord env o rc d = .ok b')
    (hn : Numbered o.book.fmt) : Numbered b'.fmt := by
  have fmtCase : ∀ {f2 : Bool}, oldFormat env o d f2 = .ok b' → Numbered b'.fmt := by
    intro f2 h
    unfold oldFormat at h
    obtain ⟨b1, h1, h⟩ := bind_ok h
    obtain ⟨f, h2, h⟩ := bind_ok h
    cases h
    have e := handleFormat_lists h2
    rw [(ensure_rest h1).2.2] at e
    exact ⟨by simp only [e.1]; exact hn.1, by simp only [e.2]; exact hn.2⟩
  unfold oldBookRecord at h
  by_cases c1 : rc = XL_FORMAT
  · rw [if_pos c1] at h; exact fmtCase h
  rw [if_neg c1] at h
  by_cases c2 : rc = XL_FORMAT2
  · rw [if_pos c2] at h; exact fmtCase h
  rw [if_neg c2] at h
  by_cases c3 : rc = XL_FONT ∨ rc = XL_FONT_B3B4
  · rw [if_pos c3] at h
    exact numbered_item (it := .one XL_FONT d) hn h
  rw [if_neg c3] at h
  by_cases c4 : rc = XL_STYLE
  · rw [if_pos c4] at h
    unfold oldStyle at h
    have hn' : Numbered (if o.book.xfDone then o.book else runEpilogue env o.book).fmt := by
      split
      · exact hn
      · exact epilogue_numbered hn
    exact numbered_item (it := .one XL_STYLE d) hn' h
  rw [if_neg c4] at h
  by_cases c5 : rc = XL_PALETTE
  · rw [if_pos c5] at h
    exact numbered_item (it := .one XL_PALETTE d) hn h
  rw [if_neg c5] at h
  by_cases c6 : rc = XL_BUILTINFMTCOUNT
  · rw [if_pos c6] at h
    unfold handleBuiltinfmtcount at h
    obtain ⟨f, _, h⟩ := bind_ok h
    cases h
    exact hn
  rw [if_neg c6] at h
  by_cases c7 : rc = XL_XF4 ∨ rc = XL_XF3 ∨ rc = XL_XF2
  · rw [if_pos c7] at h
    exact numbered_item (it := .one XL_XF d) hn h
  rw [if_neg c7] at h
  by_cases c8 : rc = XL_DATEMODE
  · rw [if_pos c8] at h
    exact numbered_item (env := env.recEnv o.bv) (it := .one XL_DATEMODE d) hn h
  rw [if_neg c8] at h
  by_cases c9 : rc = XL_CODEPAGE
  · rw [if_pos c9] at h
    exact numbered_item (it := .one XL_CODEPAGE d) hn h
  rw [if_neg c9] at h
  by_cases c10 : rc = XL_FILEPASS
  · rw [if_pos c10] at h; cases h
  rw [if_neg c10] at h
  by_cases c11 : rc = XL_WRITEACCESS
  · rw [if_pos c11] at h
    exact numbered_item (it := .one XL_WRITEACCESS d) hn h
  rw [if_neg c11] at h
  obtain ⟨f, h1, h⟩ := bind_ok h
  cases h
  unfold handleEfont at h1
  cases hf : env.fi with
  | false => simp only [hf, Bool.not_false, if_true] at h1; cases h1; exact hn
  | true =>
    simp only [hf, Bool.not_true, Bool.false_eq_true, if_false] at h1
    obtain ⟨c, _, h1⟩ := bind_ok h1
    cases hg : o.book.fmt.fontList.getLast? with
    | none => rw [hg] at h1; cases h1
    | some g =>
      rw [hg] at h1
      cases h1
      refine ⟨?_, hn.2⟩
      obtain ⟨l, hl⟩ := List.getLast?_eq_some_iff.mp hg
      simp only [hl, List.dropLast_concat]
      have hn1 := hn.1
      rw [hl] at hn1
      intro i x hi
      by_cases hlt : i < l.length
      · exact hn1 i x (by rw [List.getElem?_append_left hlt] at hi ⊢; exact hi)
      · have hk2 := (List.getElem?_eq_some_iff.mp hi).1
        rw [List.length_append, List.length_singleton] at hk2
        have hk3 : i = l.length := by omega
        subst hk3
        rw [List.getElem?_append_right (le_refl _), Nat.sub_self, List.getElem?_cons_zero] at hi
        cases hi
        exact hn1 l.length g (by simp)

theorem oldRecord_numbered {env : OpenEnv} {bv : Nat} {mem : Bytes} {o o' : OldSt} {pos p' : Int} {rc len : Nat} {d : Bytes}
    (h : oldRecord env bv mem o pos rc len d = .ok (o', p')) (hn : Numbered o.book.fmt) : Numbered o'.book.fmt := by
  unfold oldRecord at h
  by_cases c1 : rc ∈ XL_FORMULA_OPCODES
  · rw [if_pos c1] at h
    by_cases hb : 30 ≤ bv
    · rw [(oldFormula_same h).2 hb]; exact hn
    · unfold oldFormula at h
      rw [if_neg hb] at h
      unfold recFormulaB2 at h
      obtain ⟨b, _, h⟩ := bind_ok h
      obtain ⟨⟨x, o1⟩, h1, h⟩ := bind_ok h
      obtain ⟨o2, h2, h⟩ := bind_ok h
      obtain ⟨⟨ty, v, p⟩, _, h⟩ := bind_ok h
      obtain ⟨o3, h3, h⟩ := bind_ok h
      cases h
      exact (Reach.fix h1 (.enc h2 (.same (by rw [put_book h3])))).numbered hn
  rw [if_neg c1] at h
  by_cases c2 : rc ∈ bofcodes
  · rw [if_pos c2] at h
    obtain ⟨p, _, h⟩ := bind_ok h
    cases h
    exact hn
  rw [if_neg c2] at h
  by_cases c3 : rc = XL_COUNTRY
  · rw [if_pos c3] at h
    obtain ⟨o1, h1, h⟩ := bind_ok h
    cases h
    obtain ⟨b, h2, rfl⟩ := onBook_ok h1
    show Numbered b.fmt
    rw [(country_same h2).2]; exact hn
  rw [if_neg c3] at h
  by_cases c4 : rc ∈ otherCodes
  · rw [if_pos c4] at h
    obtain ⟨o1, h1, h⟩ := bind_ok h
    obtain ⟨⟨e, p⟩, _, h⟩ := bind_ok h
    cases h
    show Numbered o1.book.fmt
    rw [(withEncoding_same h1).2]; exact hn
  rw [if_neg c4] at h
  by_cases c5 : rc = XL_DIMENSION ∨ rc = XL_DIMENSION2
  · rw [if_pos c5] at h
    obtain ⟨o1, h1, h⟩ := bind_ok h
    cases h
    unfold oldDimension at h1
    obtain ⟨o2, h2, h1⟩ := bind_ok h1
    have hb := onSheet_book h2
    cases h1
    have hn2 : Numbered o2.book.fmt := by rw [hb]; exact hn
    split
    · exact epilogue_numbered hn2
    · exact hn2
  rw [if_neg c5] at h
  by_cases c6 : bv ≤ 45 ∧ rc ∈ oldBookCodes
  · rw [if_pos c6] at h
    obtain ⟨o1, h1, h⟩ := bind_ok h
    cases h
    obtain ⟨b, h2, rfl⟩ := onBook_ok h1
    exact oldBookRecord_numbered h2 hn
  rw [if_neg c6] at h
  by_cases c7 : bv ≤ 45 ∧ rc ∈ oldSheetCodes
  · rw [if_pos c7] at h
    obtain ⟨o1, h1, h⟩ := bind_ok h
    cases h
    exact oldSheetRecord_numbered h1 hn
  rw [if_neg c7] at h
  obtain ⟨o1, h1, h⟩ := bind_ok h
  obtain ⟨o2, h2, h⟩ := bind_ok h
  cases h
  rw [onSheet_book h2, (withEncoding_same h1).2]
  exact hn

theorem oldRead_numbered {env : OpenEnv} {bv : Nat} {mem : Bytes} {b : Book} {o : OldSt} {pos : Int} (h : oldRead env bv mem b pos = .ok o)
    (hn : Numbered b.fmt) : Numbered o.book.fmt := by
  unfold oldRead at h
  obtain ⟨o1, h1, h⟩ := bind_ok h
  rw [onSheet_book h]
  have loop : ∀ (fuel : Nat) {o o' : OldSt} {pos : Int}, oldLoop env bv mem fuel o pos = .ok o' → Numbered o.book.fmt → Numbered o'.book.fmt := by
    intro fuel
    induction fuel with
    | zero => intro o o' pos h; cases h
    | succ fuel ih =>
      intro o o' pos h hn
      rw [oldLoop] at h
      obtain ⟨⟨⟨rc, len, d⟩, p1⟩, _, h⟩ := bind_ok h
      simp only at h
      by_cases hE : rc = XL_EOF
      · rw [if_pos hE] at h; cases h; exact hn
      · rw [if_neg hE] at h
        obtain ⟨⟨o1, p2⟩, h1, h⟩ := bind_ok h
        exact ih h (oldRecord_numbered h1 hn)
  exact loop _ h1 hn

theorem numbering_run {env : OpenEnv} {v : Nat} {base : Int} {mem : Bytes} {b b' : Book} (t : GRun (env.bookEnv v base) mem b b')
    (h : Numbered b.fmt) : Numbered b'.fmt := by
  refine t.lists (fun b => Numbered b.fmt) (fun b items b' hb ha => numbering_items items hb ha) ?_ h
  intro b d q b' q' hb ha
  replace ha : handleSheethdr env v mem b d q = .ok (b', q') := ha
  unfold handleSheethdr at ha
  obtain ⟨b1, h1, ha⟩ := bind_ok ha
  obtain ⟨len, _, ha⟩ := bind_ok ha
  obtain ⟨name, _, ha⟩ := bind_ok ha
  obtain ⟨shown, _, ha⟩ := bind_ok ha
  obtain ⟨_, _, ha⟩ := bind_ok ha
  obtain ⟨⟨v, p1⟩, _, ha⟩ := bind_ok ha
  obtain ⟨vis, _, ha⟩ := bind_ok ha
  obtain ⟨o, h2, ha⟩ := bind_ok ha
  cases ha
  exact oldRead_numbered h2 (by simp [Numbered, initialiseFormatInfo])

/-- C36: whatever bytes are loaded, each font and each XF knows its own position in its list. -/
theorem C36_numbering (env : OpenEnv) (v : Nat) (base : Int) (mem : Bytes) (pos : Int) (b : Book) (p : Int)
    (h : parseGlobals (env.bookEnv v base) mem newBook pos = .ok (b, p)) :
    (∀ (i : Nat) f, b.fmt.fontList[i]? = some f → f.fontIndex = i) ∧ ∀ (i : Nat) x, b.fmt.xfList[i]? = some x → x.xfIndex = i := by
  obtain ⟨f, b1, h1, h2, h3⟩ := parseGlobals_sound _ mem _ _ _ _ h
  obtain ⟨m, rfl⟩ := colour_map_fields h1
  obtain ⟨ha, hb⟩ := numbering_run h2 (by simp [Numbered])
  obtain ⟨os, _, _, _, _, _, rfl⟩ := eof_frame h3
  refine ⟨ha, ?_⟩
  intro i x hi
  have e : (paletteEpilogue (xfEpilogue (env.bookEnv v base).fi b1.fmt)).xfList = b1.fmt.xfList.map (fixParent env.fi b1.fmt.xfList.length) := rfl
  simp only [e, List.getElem?_map] at hi
  cases hq : b1.fmt.xfList[i]? with
  | none => rw [hq] at hi; cases hi
  | some y =>
    rw [hq] at hi
    cases hi
    rw [fixParent_index]
    exact hb i y hq

/-- C34: whatever bytes are loaded, every XF refers to a format that is known, and the type of the numeric
cells with that XF is the one of this format. -/
theorem C34_formats_known (env : OpenEnv) (v : Nat) (h50 : 50 ≤ v) (base : Int) (mem : Bytes) (pos : Int)
    (b : Book) (p : Int) (h : parseGlobals (env.bookEnv v base) mem newBook pos = .ok (b, p)) (i : Nat) (x : XF) (hi : b.fmt.xfList[i]? = some x) :
    ∃ f, b.fmt.formatMap x.formatKey = some f ∧ b.fmt.typeMap i = some (if f.ty = FDT then XL_CELL_DATE else XL_CELL_NUMBER) := by
  obtain ⟨f, b1, h1, h2, h3⟩ := parseGlobals_sound _ mem _ _ _ _ h
  obtain ⟨m, rfl⟩ := colour_map_fields h1
  obtain ⟨_, hb⟩ := numbering_run h2 (by simp [Numbered])
  have hk := (h2.lists (fun b => (b.fmt.xfcount ≠ 0 → (b.fmt.formatMap 0).isSome = true) ∧
      ∀ x ∈ b.fmt.xfList, (b.fmt.formatMap x.formatKey).isSome = true)
    (fun b items b' hb ha => known_items h50 items hb ha)
    (fun b d q b' q' hb ha => by
      rw [(sheethdr_same ha).2.2 h50]
      simp [initialiseFormatInfo]) (by simp)).2
  obtain ⟨os, _, _, _, _, _, rfl⟩ := eof_frame h3
  have e : (paletteEpilogue (xfEpilogue (env.bookEnv v base).fi b1.fmt)).xfList = b1.fmt.xfList.map (fixParent env.fi b1.fmt.xfList.length) := rfl
  simp only [e, List.getElem?_map] at hi
  cases hq : b1.fmt.xfList[i]? with
  | none => rw [hq] at hi; cases hi
  | some y =>
    rw [hq] at hi
    cases hi
    have hky := hk y (List.mem_of_getElem? hq)
    have ht := epilogue_types_at b1.fmt.formatMap b1.fmt.xfList 0 b1.fmt.typeMap (by intro j z hz; rw [hb j z hz]; omega) i y hq
    have ht' : (paletteEpilogue (xfEpilogue (env.bookEnv v base).fi b1.fmt)).typeMap i = some (cellTypeOf b1.fmt.formatMap y.formatKey XL_CELL_TEXT) := by
      rw [Nat.zero_add] at ht
      exact ht
    have hm : (paletteEpilogue (xfEpilogue (env.bookEnv v base).fi b1.fmt)).formatMap = b1.fmt.formatMap := rfl
    simp only [hm, ht', fixParent_key]
    cases hv : b1.fmt.formatMap y.formatKey with
    | none => rw [hv] at hky; cases hky
    | some v => exact ⟨v, rfl, by unfold cellTypeOf; rw [hv]; rfl⟩

end Xlrd
