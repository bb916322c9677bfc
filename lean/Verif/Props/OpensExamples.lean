import Verif.Props.Opens
import Verif.Props.NameValuesExamples
import Verif.Props.NameValuesOldExamples
import Verif.Props.ContainerExamples

/-!
# Workbooks that open, and one that does not

The sample globals of `Props/GlobalsExamples.lean` can be read, the sample names of `Props/NameValuesExamples.lean` can be evaluated, and a
workbook stream with these opens (C80).  A workbook in which a name uses a name that belongs to a chart sheet does not open.
-/
set_option linter.unusedSimpArgs false
namespace Xlrd
open Spec

theorem readable_of {v : Nat} {dec : List GItem → Bytes → R PyStr} {items : List GItem}
    (h : ∀ (i : Nat) it, items[i]? = some it → Readable v dec items (items.take i) it) :
    ∀ pre it post, items = pre ++ it :: post → Readable v dec items pre it := by
  rintro pre it post e
  have h1 := h pre.length it (by rw [e]; simp)
  rw [show items.take pre.length = pre by rw [e]; simp] at h1
  exact h1

namespace OpenSample
open Sample

/-- Every codec decodes everything. -/
theorem usable (v : Nat) (cp : Option Nat) : CodecUsable v outside.override outside.codec cp := Or.inl ⟨_, rfl⟩

/-- Globals with records of most kinds. -/
theorem rich : Openable 80 outside.override outside.codec Sample.items [nm] where
  usable := fun q _ => usable 80 _
  collected := Sample.names
  scopes := fun h => absurd h (by decide)
  readable := by
    refine readable_of fun i it h => ?_
    match i, h with
    | 0, h => cases h; exact .codepage 1200 [] (by decide)
    | 1, h => cases h; exact .writeaccess8 (txt "me ") [0x20, 0x20] (by decide) ⟨txt_ok _ (by decide +kernel), by decide +kernel⟩
    | 2, h => cases h; exact .datemode 1 [] (Or.inr rfl)
    | 3, h => cases h; exact .country 1 44 [] (by decide) (by decide) (by intro d hd; simp [Sample.items] at hd)
    | 4, h => cases h; exact .font _ _ font (Or.inl rfl) (fontRec _)
    | 5, h => cases h; exact .font _ _ font (Or.inl rfl) (fontRec _)
    | 6, h => cases h; exact .font _ _ font (Or.inl rfl) (fontRec _)
    | 7, h => cases h; exact .font _ _ font (Or.inl rfl) (fontRec _)
    | 8, h => cases h; exact .font _ _ font (Or.inl rfl) (fontRec _)
    | 9, h => cases h; exact .format _ _ (fmtRec _)
    | 10, h => cases h; exact .xf _ xfA (xfRec _ (by unfold FieldsFit; decide +kernel))
    | 11, h => cases h; exact .xf _ xfB (xfRec _ (by unfold FieldsFit; decide +kernel))
    | 12, h => cases h; exact .xf _ xfC (xfRec _ (by unfold FieldsFit; decide +kernel))
    | 13, h => cases h; exact .style _ ⟨"RowLevel_3".toList, true, 7⟩ (.builtin 7 0 1 2 "RowLevel_" [] (by decide) (by decide) (by decide) (by decide) rfl) (Or.inl rfl)
    | 14, h =>
      cases h
      exact .style _ ⟨"My".toList, false, 5⟩ (.user 5 0 "My".toList _ [] (by decide) (by decide)
        (.biff8 (txt "My") (by decide) (txt_ok _ (by decide +kernel)) rfl (by decide +kernel)) (by decide +kernel) (Or.inr (by decide))) (Or.inr (Or.inl (by decide)))
    | 15, h => cases h; exact .palette _ [] (by unfold IsRgb; decide) (by decide) (by decide) (by rintro ⟨d, hd⟩; simp [Sample.items] at hd)
    | 16, h => cases h; exact .boundsheet _ sheetA (sheetRec _ sheetA "A" rfl (by decide) (by decide) (by decide) (by decide +kernel) (by decide +kernel))
    | 17, h => cases h; exact .boundsheet _ sheetB (sheetRec _ sheetB "B" rfl (by decide) (by decide) (by decide) (by decide +kernel) (by decide +kernel))
    | 18, h => cases h; exact .boundsheet _ sheetC (sheetRec _ sheetC "C" rfl (by decide) (by decide) (by decide) (by decide +kernel) (by decide +kernel))
    | 19, h => cases h; exact .name _ nm (nameRec _)
    | 20, h =>
      cases h
      refine .sst 1 sharedStrings _ _ ?_ (by decide) (by decide +kernel)
      intro s hs
      simp only [sharedStrings, List.mem_singleton] at hs
      subst hs
      refine ⟨⟨by decide +kernel, by decide +kernel, by unfold Flags; decide +kernel, by unfold Fits; decide +kernel, by unfold Fits; decide +kernel,
        by decide +kernel, by decide +kernel, by decide +kernel, by decide +kernel, by decide +kernel, by decide +kernel, by decide +kernel⟩,
        ⟨[['a'], ['b', '€']], by decide +kernel⟩, Or.inl rfl⟩
    | n + 21, h => simp [Sample.items] at h

/-- The names of `NameSample` can be evaluated. -/
theorem evaluable : NamesEvaluable (supbooks NameSample.items) [sheetA, sheetB, sheetC] NameSample.refs NameSample.names := by
  have placed : ∀ k, k < 3 → PlacedName [sheetA, sheetB, sheetC] NameSample.names k := by
    intro k hk
    match k, hk with
    | 0, _ => exact ⟨_, rfl, Or.inl rfl⟩
    | 1, _ => exact ⟨_, rfl, Or.inl rfl⟩
    | 2, _ => exact ⟨_, rfl, Or.inl rfl⟩
  refine ⟨fun i => min i 2, fun i => Nat.le_trans (Nat.min_le_right i 2) (by decide), fun i o h => Or.inr (Or.inr (Or.inr ?_))⟩
  match i, h with
  | 0, _ => exact ⟨_, _, NameSample.formula 0 "rate" _ rfl, NameSample.val0, by simp [RefExpr.uses]⟩
  | 1, _ =>
    refine ⟨_, _, NameSample.formula 1 "block" _ rfl, NameSample.val1, fun k hk => ?_⟩
    have : k = 0 := by simpa [RefExpr.uses] using hk
    subst this
    exact ⟨by decide, placed 0 (by decide)⟩
  | 2, _ =>
    refine ⟨_, _, NameSample.formula 2 "both" _ rfl, NameSample.val2, fun k hk => ?_⟩
    have : k = 1 := by simpa [RefExpr.uses] using hk
    subst this
    exact ⟨by decide, placed 1 (by decide)⟩
  | n + 3, h => simp [NameSample.names] at h

theorem openable : Openable 80 outside.override outside.codec NameSample.items NameSample.names where
  usable := fun q _ => usable 80 _
  collected := NameSample.namesOk
  scopes := fun h => absurd h (by decide)
  readable := by
    refine readable_of fun i it h => ?_
    match i, h with
    | 0, h => cases h; exact .boundsheet _ sheetA (sheetRec _ sheetA "A" rfl (by decide) (by decide) (by decide) (by decide +kernel) (by decide +kernel))
    | 1, h => cases h; exact .boundsheet _ sheetB (sheetRec _ sheetB "B" rfl (by decide) (by decide) (by decide) (by decide +kernel) (by decide +kernel))
    | 2, h => cases h; exact .boundsheet _ sheetC (sheetRec _ sheetC "C" rfl (by decide) (by decide) (by decide) (by decide +kernel) (by decide +kernel))
    | 3, h => cases h; exact .supbook _ (.addins [])
    | 4, h => cases h; exact .supbook _ (.ours 3 [])
    | 5, h =>
      cases h
      exact .extern8 _ _ (by decide) (NameSample.ok.plain (.extern NameSample.externData []) (by simp [NameSample.items]))
    | 6, h => cases h; exact .name _ _ (NameSample.namedRec _ "rate" (.cell 1 4 2) (by decide +kernel) (by decide +kernel) (by decide +kernel) (by decide +kernel))
    | 7, h => cases h; exact .name _ _ (NameSample.namedRec _ "block" (.range (.name 0) (.cell 1 9 5)) (by decide +kernel) (by decide +kernel) (by decide +kernel) (by decide +kernel))
    | 8, h => cases h; exact .name _ _ (NameSample.namedRec _ "both" (.union (.paren (.name 1)) (.area 0 1 2 3 4)) (by decide +kernel) (by decide +kernel) (by decide +kernel) (by decide +kernel))
    | n + 9, h => simp [NameSample.items] at h

def env : OpenEnv := { outside with
  onDemand := true
  evalNames := fun b => (bookNames { ops := NameSample.ops, bv := 80, bk := b, dec := b.dec Sample.env }).map fun _ => () }

theorem evaluates (base : Int) : EvaluatesNames NameSample.ops (env.bookEnv 80 base) := fun _ => rfl

def mem : Bytes := [9, 9] ++ encRec 0x0809 SampleFile.bof ++ encGlobals NameSample.items [] ++ [7]

theorem stream : WorkbookStream 80 (textAt (env.bookEnv 80 (2 : Nat))) mem 2 NameSample.items [sheetA, sheetB, sheetC] where
  bytes := ⟨[9, 9], 0x0809, SampleFile.bof, [], [7], rfl, .biff8 5 [1, 2, 3, 4] (by decide) (by decide), by decide, rfl⟩
  ok := NameSample.ok
  sheets := NameSample.sheets

/-- It opens. -/
example : ∃ l, openStream env mem 2 = .ok l :=
  C80_opens_partial NameSample.ops env 80 (by decide) mem 2 (evaluates _) NameSample.items _ stream NameSample.names openable
    (.inl (Or.inr (Or.inl ⟨rfl, NameSample.refs, NameSample.externs, evaluable⟩))) rfl

/-! ### A BIFF7 workbook -/

theorem oldEvaluable : OldNamesEvaluable [sheetA, sheetB, sheetC] [none, some ['C']] OldNameSample.names := by
  refine ⟨fun i => min i 2, fun i => Nat.le_trans (Nat.min_le_right i 2) (by decide), fun i o h => Or.inr (Or.inr (Or.inr ?_))⟩
  match i, h with
  | 0, _ => exact ⟨_, _, OldNameSample.formula 0 "rate" 0 _ rfl, OldNameSample.val0, by simp [OldNameSample.rate, OldRefExpr.uses]⟩
  | 1, _ =>
    refine ⟨_, _, OldNameSample.formula 1 "block" 2 _ rfl, OldNameSample.val1, fun k hk => ?_⟩
    have : k = 0 := by simpa [OldNameSample.block, OldRefExpr.uses] using hk
    subst this
    exact ⟨by decide, _, _, rfl, .book, by decide⟩
  | 2, _ =>
    refine ⟨_, _, OldNameSample.formula 2 "both" 0 _ rfl, OldNameSample.val2, fun k hk => ?_⟩
    have : k = 1 := by simpa [OldNameSample.both, OldRefExpr.uses] using hk
    subst this
    exact ⟨by decide, _, _, rfl, OldNameSample.scopeC, by decide⟩
  | n + 3, h => simp [OldNameSample.names] at h

theorem oldOpenable : Openable 70 outside.override outside.codec OldNameSample.items OldNameSample.names where
  usable := fun q _ => usable 70 _
  collected := OldNameSample.namesOk
  scopes := by
    intro _ o ho
    simp only [OldNameSample.names, List.mem_cons, List.mem_nil_iff, or_false] at ho
    rcases ho with rfl | rfl | rfl
    · exact Or.inl rfl
    · exact Or.inr ⟨1, [0x43], rfl⟩
    · exact Or.inl rfl
  readable := by
    refine readable_of fun i it h => ?_
    match i, h with
    | 0, h => cases h; exact .codepage 1252 [] (by decide)
    | 1, h => cases h; exact .boundsheet _ sheetA (OldNameSample.sheetRec (OldNameSample.items.take 1) sheetA "A" (by decide +kernel) (by decide) (by decide) (by decide) (by decide +kernel))
    | 2, h => cases h; exact .boundsheet _ sheetB (OldNameSample.sheetRec (OldNameSample.items.take 2) sheetB "B" (by decide +kernel) (by decide) (by decide) (by decide) (by decide +kernel))
    | 3, h => cases h; exact .boundsheet _ sheetC (OldNameSample.sheetRec (OldNameSample.items.take 3) sheetC "C" (by decide +kernel) (by decide) (by decide) (by decide) (by decide +kernel))
    | 4, h => cases h; exact .extern 2 1 _ _ (by decide) (fun h => absurd h (by decide))
    | 5, h => cases h; exact .extern 1 3 _ _ (by decide) (fun _ => ⟨_, rfl⟩)
    | 6, h => cases h; exact .name _ _ (OldNameSample.namedRec (OldNameSample.items.take 6) "rate" 0 OldNameSample.rate (by decide) (by decide +kernel) (by decide +kernel) (by decide +kernel))
    | 7, h => cases h; exact .name _ _ (OldNameSample.namedRec (OldNameSample.items.take 7) "block" 2 OldNameSample.block (by decide) (by decide +kernel) (by decide +kernel) (by decide +kernel))
    | 8, h => cases h; exact .name _ _ (OldNameSample.namedRec (OldNameSample.items.take 8) "both" 0 OldNameSample.both (by decide) (by decide +kernel) (by decide +kernel) (by decide +kernel))
    | n + 9, h => simp [OldNameSample.items] at h

/-- Its globals are read. -/
example : ∃ b p, parseGlobals OldNameSample.env ([9, 9] ++ encGlobals OldNameSample.items [] ++ [7]) newBook (([9, 9] : Bytes).length : Int) = .ok (b, p) :=
  C80_globals_partial NameSample.ops OldNameSample.env (by decide) OldNameSample.env_evaluates [9, 9] [7] [] (by decide) OldNameSample.items OldNameSample.ok _
    OldNameSample.sheets OldNameSample.names oldOpenable (.inl (Or.inr (Or.inr ⟨by decide, _, OldNameSample.externNames, oldEvaluable⟩)))

/-! ### A file, and a workbook with all its sheets -/

theorem plainItem (dec : List GItem → Bytes → R PyStr) (i : Nat) (it : GItem) (h : SampleFile.items[i]? = some it) (items pre : List GItem) :
    Readable 80 dec items pre it := by
  match i, h with
  | 0, h => cases h; exact .codepage 1200 [] (by decide)
  | 1, h => cases h; exact .boundsheet _ _ (SampleFile.sheetRec _ SampleFile.sheetZ "Z" rfl (by decide) (by decide) (by decide) (txt_ok _ (by decide)) (by decide))
  | 2, h => cases h; exact .boundsheet _ _ (SampleFile.sheetRec _ SampleFile.sheetY "Y" rfl (by decide) (by decide) (by decide) (txt_ok _ (by decide)) (by decide))
  | 3, h => cases h; exact .boundsheet _ _ (SampleFile.sheetRec _ SampleFile.sheetX "X" rfl (by decide) (by decide) (by decide) (txt_ok _ (by decide)) (by decide))
  | n + 4, h => simp [SampleFile.items] at h

def fileEnv : OpenEnv := { SampleDoc.env with
  evalNames := fun b => (bookNames { ops := NameSample.ops, bv := 80, bk := b, dec := b.dec Sample.env }).map fun _ => () }

theorem plainOpenable : Openable 80 fileEnv.override fileEnv.codec SampleFile.items [] where
  usable := fun q _ => Or.inl ⟨_, rfl⟩
  collected := SampleFile.collectedNone (by decide) (by decide)
  scopes := fun h => absurd h (by decide)
  readable := readable_of fun i it h => plainItem _ i it h _ _

/-- The file of `Props/ContainerExamples.lean` opens. -/
example : ∃ l, openXls fileEnv SampleDoc.file = some (.ok l) ∧ l.book.sheetNames = ["Z".toList, "X".toList] :=
  C80_file_opens_partial NameSample.ops fileEnv 80 (by decide) SampleDoc.file SampleDoc.book SampleDoc.isFile (by decide +kernel) (fun _ _ => rfl)
    SampleFile.items _ (SampleDoc.bookStream _) [] plainOpenable (.inl (Or.inl (by simp))) rfl

/-- The globals of `SampleFile` without the last, broken sheet. -/
def wholeItems : List GItem := SampleFile.items.take 3

def wholeMem : Bytes :=
  let g := [9, 9] ++ encRec 0x0809 SampleFile.bof ++ encGlobals wholeItems []
  g ++ List.replicate (102 - g.length) 0 ++ encRec 0x0809 SampleFile.sheetBof ++ encRecs (SampleFile.layout.records 80)

theorem wholeStream (dec : List GItem → Bytes → R PyStr) : WorkbookStream 80 dec wholeMem 2 wholeItems [SampleFile.sheetZ, SampleFile.sheetY] where
  bytes := ⟨[9, 9], 0x0809, SampleFile.bof, [], wholeMem.drop ([9, 9] ++ encRec 0x0809 SampleFile.bof ++ encGlobals wholeItems []).length, rfl,
    .biff8 5 [1, 2, 3, 4] (by decide) (by decide), by decide, by decide +kernel⟩
  ok := {
    sized := by unfold GItem.Sized; decide +kernel
    plain := fun it h => (SampleFile.stream dec).ok.plain it (List.take_subset _ _ h)
    stray := by simp [wholeItems, SampleFile.items, NoStrayContinue] }
  sheets := by
    have h0 : Sheets 80 dec [.one 0x42 [0xb0, 4]] [] := Collected.skip .nil (by rintro c d h; cases h; decide)
    have h1 := h0.take (c := 0x85) rfl (SampleFile.sheetRec (dec _) SampleFile.sheetZ "Z" rfl (by decide) (by decide) (by decide) (txt_ok _ (by decide)) (by decide))
    exact h1.take (c := 0x85) rfl (SampleFile.sheetRec (dec _) SampleFile.sheetY "Y" rfl (by decide) (by decide) (by decide) (txt_ok _ (by decide)) (by decide))

theorem wholeOpenable : Openable 80 fileEnv.override fileEnv.codec wholeItems [] where
  usable := fun q _ => Or.inl ⟨_, rfl⟩
  collected := by
    refine Collected.skip (pre := [_, _]) (Collected.skip (pre := [_]) (Collected.skip (pre := []) .nil ?_) ?_) ?_ <;> (rintro c d h; cases h; decide)
  scopes := fun h => absurd h (by decide)
  readable := readable_of fun i it h => by
    have hi : SampleFile.items[i]? = some it := by
      unfold wholeItems at h
      rw [List.getElem?_take] at h
      by_cases hi : i < 3
      · rwa [if_pos hi] at h
      · rw [if_neg hi] at h; cases h
    exact plainItem _ i it hi _ _

/-- It opens with all its sheets. -/
example : ∃ l, openStream { fileEnv with onDemand := false } wholeMem 2 = .ok l := by
  refine C80_opens_all_partial NameSample.ops fileEnv 80 (by decide) wholeMem 2 (fun _ => rfl) wholeItems _ (wholeStream _) [] wholeOpenable (.inl (Or.inl (by simp))) ?_
  intro l hl k s hk
  have ht : ((fileEnv.sheetEnv 80 l.book).cfg.typeMap 0).isSome = true := by
    have : (match openStream { fileEnv with onDemand := true } wholeMem 2 with
      | .ok l => ((fileEnv.sheetEnv 80 l.book).cfg.typeMap 0).isSome | .error _ => false) = true := by decide +kernel
    have hl' : openStream { fileEnv with onDemand := true } wholeMem 2 = .ok l := hl
    rw [hl'] at this
    exact this
  match k, hk with
  | 0, hk =>
    cases hk
    refine ⟨SampleFile.layout, ⟨80, 0x0809, SampleFile.sheetBof, [], .biff8 0x10 [] (by decide) (by decide), by decide +kernel⟩, SampleFile.layoutOk _ _, ?_, ?_⟩
    · intro w hw
      have h0 : w.row < 2 ∧ w.col < 3 ∧ w.xf = 0 := by
        simp [SampleFile.layout, Layout.items, cellsOf, CellRec.cells] at hw
        rcases hw with rfl | rfl | rfl <;> simp
      refine ⟨?_, by omega, fun _ => ?_, fun h => by cases h⟩
      · simp only [show ¬ (80 < 80) by decide, if_false]; omega
      · rw [h0.2.2]; exact Option.isSome_iff_exists.mp ht
    · intro h; exact absurd h (by simp [mergedRanges, show fileEnv.fi = false from rfl, maxOf])
  | k + 1, hk => simp [worksheet, SampleFile.sheetZ, SampleFile.sheetY, SheetRec.isWorksheet] at hk

/-! ### A name that belongs to a chart sheet -/

/-- The second sheet is a chart, and the first name belongs to it. -/
def chartName : NameObj := { NameSample.named "mine" (.cell 0 4 2) with excelSheetIndex := 2 }
def chartNameData : Bytes :=
  le16 0 ++ [0, 4] ++ le16 (RefExpr.cell 0 4 2).tokens.length ++ le16 0 ++ le16 2 ++ [0, 0, 0, 0] ++ (txt "mine").body ++ (RefExpr.cell 0 4 2).tokens

def chartRefs : List ExtRef := [⟨0, 0, 0⟩]
def chartItems : List GItem :=
  [.one 0x85 (sheetData sheetA "A"), .one 0x85 (sheetData sheetB "B"), .one 0x1ae [2, 0, 1, 4],
   .extern (le16 1 ++ chartRefs.flatMap ExtRef.enc) [],
   .one 0x18 chartNameData, .one 0x18 (NameSample.namedData "yours" (.name 0))]
def chartNames : List NameObj := [chartName, NameSample.named "yours" (.name 0)]

def chartMem : Bytes := [9, 9] ++ encRec 0x0809 SampleFile.bof ++ encGlobals chartItems [] ++ [7]

theorem chartOk : GlobalsOk 80 chartItems where
  sized := by unfold GItem.Sized; decide +kernel
  plain := by
    intro it h
    simp only [chartItems, List.mem_cons, List.mem_nil_iff, or_false] at h
    rcases h with rfl | rfl | rfl | rfl | rfl | rfl
    · simp [GItem.Plain]
    · simp [GItem.Plain]
    · simp [GItem.Plain]
    · exact ⟨1, chartRefs.flatMap ExtRef.enc, rfl, by decide, by decide +kernel, fun k hk => by simp at hk⟩
    · simp [GItem.Plain]
    · simp [GItem.Plain]
  stray := by simp [chartItems, NoStrayContinue]

theorem chartRec (dec : Bytes → R PyStr) : NameRecord 80 dec chartName chartNameData :=
  ⟨0, 0, 4, [0, 0, 0, 0], "mine".toList, (txt "mine").body, by simp [FieldsFit, nameFlags, chartName, NameSample.named],
    by simp [packFields, nameFlags, chartName, NameSample.named], by simp [chartName, NameSample.named], by decide, by decide +kernel,
    by simp [chartName, NameSample.named], by simp [chartName], rfl, .biff8 (txt "mine") (by decide) (txt_ok _ (by decide +kernel)) rfl,
    by simp [NameShown, chartName, NameSample.named], rfl⟩

theorem yoursRec (dec : Bytes → R PyStr) : NameRecord 80 dec (NameSample.named "yours" (.name 0)) (NameSample.namedData "yours" (.name 0)) :=
  NameSample.namedRec _ "yours" (.name 0) (by decide +kernel) (by decide +kernel) (by decide +kernel) (by decide +kernel)

theorem chartSheets (dec : List GItem → Bytes → R PyStr) : Sheets 80 dec chartItems [sheetA, sheetB] := by
  have h0 : Sheets 80 dec [] [] := .nil
  have h1 := h0.take (sel := (· = 0x85)) rfl (sheetRec (dec []) sheetA "A" rfl (by decide) (by decide) (by decide) (by decide +kernel) (by decide +kernel))
  have h2 := h1.take (sel := (· = 0x85)) rfl (sheetRec (dec _) sheetB "B" rfl (by decide) (by decide) (by decide) (by decide +kernel) (by decide +kernel))
  have h3 := h2.skip (it := .one 0x1ae [2, 0, 1, 4]) (by rintro c d ⟨⟩; simp)
  have h4 := h3.skip (it := .extern (le16 1 ++ chartRefs.flatMap ExtRef.enc) []) (by rintro c d ⟨⟩)
  have h5 := h4.skip (it := .one 0x18 chartNameData) (by rintro c d ⟨⟩; simp)
  exact h5.skip (it := .one 0x18 (NameSample.namedData "yours" (.name 0))) (by rintro c d ⟨⟩; simp)

theorem chartCollected (dec : List GItem → Bytes → R PyStr) : Names 80 dec chartItems chartNames := by
  have h0 : Names 80 dec [] [] := .nil
  have h1 := h0.skip (sel := (· = 0x18)) (it := .one 0x85 (sheetData sheetA "A")) (by rintro c d ⟨⟩; simp)
  have h2 := h1.skip (it := .one 0x85 (sheetData sheetB "B")) (by rintro c d ⟨⟩; simp)
  have h3 := h2.skip (it := .one 0x1ae [2, 0, 1, 4]) (by rintro c d ⟨⟩; simp)
  have h4 := h3.skip (it := .extern (le16 1 ++ chartRefs.flatMap ExtRef.enc) []) (by rintro c d ⟨⟩)
  exact (h4.take rfl (chartRec (dec _))).take rfl (yoursRec (dec _))

theorem chartOpenable : Openable 80 env.override env.codec chartItems chartNames where
  usable := fun q _ => usable 80 _
  collected := chartCollected _
  scopes := fun h => absurd h (by decide)
  readable := by
    refine readable_of fun i it h => ?_
    match i, h with
    | 0, h => cases h; exact .boundsheet _ sheetA (sheetRec _ sheetA "A" rfl (by decide) (by decide) (by decide) (by decide +kernel) (by decide +kernel))
    | 1, h => cases h; exact .boundsheet _ sheetB (sheetRec _ sheetB "B" rfl (by decide) (by decide) (by decide) (by decide +kernel) (by decide +kernel))
    | 2, h => cases h; exact .supbook _ (.ours 2 [])
    | 3, h =>
      cases h
      exact .extern8 _ _ (by decide) (chartOk.plain (.extern (le16 1 ++ chartRefs.flatMap ExtRef.enc) []) (by simp [chartItems]))
    | 4, h => cases h; exact .name _ _ (chartRec _)
    | 5, h => cases h; exact .name _ _ (yoursRec _)
    | n + 6, h => simp [chartItems] at h

theorem chartExterns : Externs chartItems chartRefs := by
  have h0 : Externs [] [] := .nil
  have h1 := ((h0.skip (it := .one 0x85 (sheetData sheetA "A")) (by simp)).skip (it := .one 0x85 (sheetData sheetB "B")) (by simp)).skip
    (it := .one 0x1ae [2, 0, 1, 4]) (by simp)
  have h2 := Externs.take (l := chartRefs) (d := le16 1 ++ chartRefs.flatMap ExtRef.enc) (more := []) h1
    ⟨[], by decide, by unfold ExtRef.Fits; decide, by decide +kernel⟩
  exact (h2.skip (it := .one 0x18 chartNameData) (by simp)).skip (it := .one 0x18 (NameSample.namedData "yours" (.name 0))) (by simp)

theorem chartStream : WorkbookStream 80 (textAt (env.bookEnv 80 (2 : Nat))) chartMem 2 chartItems [sheetA, sheetB] where
  bytes := ⟨[9, 9], 0x0809, SampleFile.bof, [], [7], rfl, .biff8 5 [1, 2, 3, 4] (by decide) (by decide), by decide, rfl⟩
  ok := chartOk
  sheets := chartSheets _

theorem chartRef : LocalRef (supbooks chartItems) [sheetA, sheetB] chartRefs 0 0 0 :=
  ⟨⟨0, 0, 0⟩, sheetA, sheetA, rfl, ⟨rfl, fun j hj => by
    rw [List.getElem?_eq_none (Nat.le_trans (show (supbooks chartItems).length ≤ 1 by decide +kernel) (by omega))]; simp⟩,
    rfl, rfl, by decide, by decide, rfl, rfl, by decide, by decide⟩

end OpenSample

open OpenSample in
/-- C80 fails for a workbook in which a name uses a name that belongs to a chart sheet.  The workbook has a worksheet and a chart; all its
records are well formed; the first name refers to a cell of the worksheet and belongs to the chart; the second name is equal to the
first.  Opening ends with an `IndexError`: the number `-2` of "a sheet that is not a worksheet" is taken for an index
(formula.py 1145-1149). -/
theorem C80_chart_local_name_fails :
    WorkbookStream 80 (textAt (env.bookEnv 80 (2 : Nat))) chartMem 2 chartItems [Sample.sheetA, Sample.sheetB] ∧
    Openable 80 env.override env.codec chartItems chartNames ∧ Externs chartItems chartRefs ∧
    NameFormula chartNames 0 (.cell 0 4 2) ∧ NameFormula chartNames 1 (.name 0) ∧
    RefVal (LocalRef (supbooks chartItems) [Sample.sheetA, Sample.sheetB] chartRefs) chartNames (.name 0) [⟨0, 1, 4, 5, 2, 3⟩] ∧
    chartNames.map (·.excelSheetIndex) = [2, 0] ∧ Sample.sheetB.ty = 2 ∧
    openStream env chartMem 2 = .error .index := by
  have f0 : NameFormula chartNames 0 (.cell 0 4 2) := ⟨_, [], rfl, rfl, rfl, (List.append_nil _).symm, rfl⟩
  refine ⟨chartStream, chartOpenable, chartExterns, f0,
    ⟨_, [], rfl, rfl, rfl, (List.append_nil _).symm, rfl⟩, .name 0 _ _ (by decide) f0 (.cell 0 4 2 0 0 (by decide) chartRef (by decide) (by decide)),
    rfl, rfl, ?_⟩
  have h : (match openStream env chartMem 2 with | .ok _ => none | .error e => some e) = some PyErr.index := by decide +kernel
  cases e : openStream env chartMem 2 with
  | ok l => rw [e] at h; cases h
  | error x => rw [e] at h; simp only [Option.some.injEq] at h; rw [h]

end Xlrd
