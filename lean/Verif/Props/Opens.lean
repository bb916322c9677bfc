import Verif.Lemmas.OpenOk
import Verif.Lemmas.NamesOkOld
import Verif.Lemmas.RelProgress
import Verif.Lemmas.EncKept
import Verif.Props.OldScopes
import Verif.Props.Container
import Verif.Props.Countries

/-!
# C80: well-formed workbooks open

The globals of a workbook whose records can all be read (`Openable`) and whose names can be evaluated are read without an exception, and so
the workbook opens.
-/
set_option linter.unusedSimpArgs false
namespace Xlrd
open Spec

/-! ## The globals -/

/-- The globals are read if the names are evaluated. -/
theorem globals_ok {env : BookEnv} (hv : env.bv = 50 ∨ env.bv = 70 ∨ env.bv = 80) (pre post eof : Bytes) (he : eof.length < 65536) {items : List GItem}
    (hok : GlobalsOk env.bv items) {names : List NameObj} (ho : Openable env.bv env.override env.codec items names)
    (hev : ∀ f b os, applyGlobals env { newBook with fmt := f } items = .ok b → setScopes env { b with fmt := xfEpilogue env.fi b.fmt } b.nameObjs = .ok os →
      env.evalNames { b with fmt := xfEpilogue env.fi b.fmt, nameObjs := os } = .ok ()) :
    ∃ b p, parseGlobals env (pre ++ encGlobals items eof ++ post) newBook (pre.length : Int) = .ok (b, p) := by
  have h50 : 50 ≤ env.bv := by omega
  obtain ⟨f, h1, h2⟩ := open_inv0 hv items
  obtain ⟨b, h3, h4⟩ := items_ok h50 ho.usable ho.readable items [] _ rfl h2
  have hn := names_items h50 ho.collected h3
  obtain ⟨os, h5⟩ := scopes_ok (env := env) (b := { b with fmt := xfEpilogue env.fi b.fmt }) b.nameObjs (by
    intro h8 o hm
    rw [hn] at hm
    obtain ⟨i, hi, rfl⟩ := List.mem_mapIdx.mp hm
    rcases ho.scopes h8 _ (List.getElem_mem hi) with h | ⟨nc, rest, h⟩
    · exact Or.inl h
    · by_cases h0 : names[i].extnSheetNum = 0
      · exact Or.inl h0
      · obtain ⟨s, hs⟩ := h4.extNames h8 _ nc rest h
        rw [show names[i].extnSheetNum - 1 + 1 = names[i].extnSheetNum by omega] at hs
        exact Or.inr ⟨s, hs⟩)
  have h6 := hev f b os h3 h5
  rw [parseGlobals_items env pre post eof he items hok, h1]
  simp only [bind, Except.bind, h3]
  unfold globalsEof namesEpilogue
  simp only [bind, Except.bind, h5, h6, pure, Except.pure]
  generalize hb : ({ b with
    fmt := paletteEpilogue (xfEpilogue env.fi b.fmt), nameObjs := os,
    nameAndScopeMap := (os.foldl (enterName env.lower) (fun _ => none, fun _ => none)).1,
    nameMap := fun k => ((os.foldl (enterName env.lower) (fun _ => none, fun _ => none)).2 k).map fun l => (sortByScope l).map Prod.snd } : Book) = b2
  obtain ⟨b3, h7, _⟩ := ensure_ok (b := b2) (List.prefix_refl items) (ho.usable items (List.prefix_refl _)) (h4.enc.congr (by rw [← hb]) (by rw [← hb]))
    (raw_of h4.raw (Or.inr (by rw [← hb])))
  rw [h7]
  exact ⟨_, _, rfl⟩

theorem worksheetNo_lt {sheets : List SheetRec} {i : Nat} {s : SheetRec} (hi : sheets[i]? = some s) (hw : s.isWorksheet = true) :
    ((sheets.take i).filter SheetRec.isWorksheet).length < (sheets.filter SheetRec.isWorksheet).length := by
  have hlt := (List.getElem?_eq_some_iff.mp hi).1
  have e : sheets = sheets.take i ++ s :: sheets.drop (i + 1) := by
    conv_lhs => rw [← List.take_append_drop i sheets]
    rw [List.drop_eq_getElem_cons hlt, (List.getElem?_eq_some_iff.mp hi).2]
  conv_rhs => rw [e, List.filter_append, List.filter_cons, if_pos hw, List.length_append, List.length_cons]
  omega

/-- The names of a book after their scopes are set. -/
structure NamesSet (b : Book) (names : List NameObj) : Prop where
  at_ : ∀ (i : Nat) o, names[i]? = some o → ∃ s, b.nameObjs[i]? = some { o with nameIndex := i, scope := some s }
  back : ∀ (i : Nat) o', b.nameObjs[i]? = some o' → ∃ o s, names[i]? = some o ∧ o' = { o with nameIndex := i, scope := some s }

/-- Name `k` has a text to show. -/
def ShownName (b : Book) (k : Nat) : Prop := ∀ o, b.nameObjs[k]? = some o → ∃ s, nameShown b o = .ok s

/-- What the evaluation of names finds in the book. -/
theorem names_book {env : BookEnv} (ops : PyOps) (h8 : env.bv = 80) {items : List GItem} {sheets : List SheetRec}
    (hsh : Sheets env.bv (textAt env) items sheets) {refs : List ExtRef} (hr : Externs items refs) {names : List NameObj}
    (hn : Names env.bv (textAt env) items names) {f : FmtSt} {b : Book} {os : List NameObj} (h : applyGlobals env { newBook with fmt := f } items = .ok b)
    (hs : setScopes env { b with fmt := xfEpilogue env.fi b.fmt } b.nameObjs = .ok os)
    {b0 : Book} (hb : ({ b with fmt := xfEpilogue env.fi b.fmt, nameObjs := os } : Book) = b0) :
    RefBook (LocalRef (supbooks items) sheets refs) (nameEnv ops env b0) ∧ NamesSet b0 names ∧ ∀ k, PlacedName sheets names k → ShownName b0 k := by
  have hl := sheets_items (by omega) hsh h
  have hsup := sups_items items h
  have hx := externs_items (by omega) hr h
  have hno := names_items (by omega) hn h
  obtain ⟨hlen, hat⟩ := setScopes_at hs
  have hl0 : SheetLists env.base sheets b0 := by subst hb; exact hl.congr rfl rfl rfl rfl rfl
  have hsup0 : SupInv (supbooks items) b0 := by subst hb; exact ⟨hsup.count, hsup.locals, hsup.addins⟩
  have hx0 : b0.externsheetInfo = refs.map fun r => (r.book, r.first, r.last) := by subst hb; exact hx
  have hos : b0.nameObjs = os := by subst hb; rfl
  have hat0 : ∀ (i : Nat) o, names[i]? = some o → ∃ s, b0.nameObjs[i]? = some { o with nameIndex := i, scope := some s } ∧
      nameScope env { b with fmt := xfEpilogue env.fi b.fmt } { o with nameIndex := i, scope := none } = .ok s := by
    intro i o hi
    obtain ⟨s, e1, e2⟩ := hat i { o with nameIndex := i, scope := none } (by rw [hno, List.getElem?_mapIdx, hi]; rfl)
    exact ⟨s, by rw [hos]; exact e2, e1⟩
  have hm : ∀ (i : Nat) o, names[i]? = some o → ∃ s, b0.nameObjs[i]? = some { o with nameIndex := i, scope := some s } :=
    fun i o hi => let ⟨s, e, _⟩ := hat0 i o hi; ⟨s, e⟩
  have hback : ∀ (i : Nat) o', b0.nameObjs[i]? = some o' → ∃ o s, names[i]? = some o ∧ o' = { o with nameIndex := i, scope := some s } := by
    intro i o' hi
    have hlt : i < names.length := by
      have := (List.getElem?_eq_some_iff.mp hi).1
      rw [hos, hlen, hno, List.length_mapIdx] at this
      exact this
    obtain ⟨s, e⟩ := hm i names[i] (List.getElem?_eq_getElem hlt)
    rw [hi] at e
    exact ⟨names[i], s, List.getElem?_eq_getElem hlt, Option.some.inj e⟩
  refine ⟨⟨h8, fun refx x y hloc => localRef_range (b := b0) (b' := b0) ⟨rfl, rfl, rfl, rfl, rfl, rfl⟩ hl0 hsup0 hx0 hloc⟩, ⟨hm, hback⟩, ?_⟩
  intro k ⟨o2, e1, e2⟩ o'' hk'
  obtain ⟨s2, e3, e4⟩ := hat0 k o2 e1
  have e5 : o'' = { o2 with nameIndex := k, scope := some s2 } := Option.some.inj (hk'.symm.trans e3)
  subst e5
  unfold nameScope at e4
  rw [if_pos (by omega)] at e4
  simp only at e4
  unfold nameShown
  rcases e2 with e0 | ⟨sh, e6, e7⟩
  · rw [if_pos e0] at e4
    cases e4
    exact ⟨_, if_pos rfl⟩
  · by_cases e0 : o2.excelSheetIndex = 0
    · rw [if_pos e0] at e4
      cases e4
      exact ⟨_, if_pos rfl⟩
    · rw [if_neg e0, hl.map _ _ e6, e7] at e4
      simp only [if_true] at e4
      rw [if_neg (by omega)] at e4
      cases e4
      rw [if_neg (by simp only [Option.some.injEq]; omega)]
      have hlt : ((sheets.take (o2.excelSheetIndex - 1)).filter SheetRec.isWorksheet).length < b0.sheetNames.length := by
        rw [hl0.names, List.length_map]; exact worksheetNo_lt e6 e7
      have := (idx_ok_nat b0.sheetNames _ _).mpr (List.getElem?_eq_getElem hlt)
      simp only
      rw [this]
      exact ⟨_, rfl⟩

/-- The names are evaluated. -/
theorem names_ok {ops : PyOps} {env : BookEnv} (h8 : env.bv = 80) (hev : EvaluatesNames ops env) {items : List GItem} {sheets : List SheetRec}
    (hsh : Sheets env.bv (textAt env) items sheets) {refs : List ExtRef} (hr : Externs items refs) {names : List NameObj}
    (hn : Names env.bv (textAt env) items names) (hne : NamesEvaluable (supbooks items) sheets refs names)
    (f : FmtSt) (b : Book) (os : List NameObj) (h : applyGlobals env { newBook with fmt := f } items = .ok b)
    (hs : setScopes env { b with fmt := xfEpilogue env.fi b.fmt } b.nameObjs = .ok os) :
    env.evalNames { b with fmt := xfEpilogue env.fi b.fmt, nameObjs := os } = .ok () := by
  obtain ⟨hrb, hset, hshown⟩ := names_book ops h8 hsh hr hn h hs rfl
  obtain ⟨level, h10, hall⟩ := hne
  rw [hev]
  generalize ({ b with fmt := xfEpilogue env.fi b.fmt, nameObjs := os } : Book) = b0 at *
  have hevb : Evaluable (LocalRef (supbooks items) sheets refs) (nameEnv ops env b0) level := by
    refine ⟨fun i o' hi m1 m2 => ?_⟩
    obtain ⟨o, s, hi0, rfl⟩ := hset.back i o' hi
    rcases hall i o hi0 with h | h | h | ⟨x, l, hf, hv, hu⟩
    · exact absurd m1 h
    · exact absurd m2 h
    · exact Or.inl h
    · exact Or.inr ⟨x, l, nameFormula_mono hset.at_ hf, refVal_mono hset.at_ hv, fun k hk => ⟨(hu k hk).1, hshown k (hu k hk).2⟩⟩
  obtain ⟨tbl, ht⟩ := bookNames_ok hrb hevb h10
  rw [ht]
  rfl

/-- Names with formulas that can be computed are evaluated. -/
theorem computable_names_ok {ops : PyOps} {env : BookEnv} (h8 : env.bv = 80) (hev : EvaluatesNames ops env) {items : List GItem} {sheets : List SheetRec}
    (hsh : Sheets env.bv (textAt env) items sheets) {refs : List ExtRef} (hr : Externs items refs) {names : List NameObj}
    (hn : Names env.bv (textAt env) items names) {C : Calc} {D : Can} (hC : PyCalc ops C) (hD : PyCan ops D)
    (hne : NamesComputable C D IsFunc (supbooks items) sheets refs names)
    (f : FmtSt) (b : Book) (os : List NameObj) (h : applyGlobals env { newBook with fmt := f } items = .ok b)
    (hs : setScopes env { b with fmt := xfEpilogue env.fi b.fmt } b.nameObjs = .ok os) :
    env.evalNames { b with fmt := xfEpilogue env.fi b.fmt, nameObjs := os } = .ok () := by
  obtain ⟨hrb, hset, hshown⟩ := names_book ops h8 hsh hr hn h hs rfl
  obtain ⟨fs, level, h10, hfs, hall⟩ := hne
  rw [hev]
  generalize ({ b with fmt := xfEpilogue env.fi b.fmt, nameObjs := os } : Book) = b0 at *
  have hcomp := computable_new (env := nameEnv ops env b0) (fs := fs) (level := level) (use := fun i k => level k < level i ∧ PlacedName sheets names k) hC hD hrb
    (fun i k hk => ⟨hk.1, hshown k hk.2⟩) (fun k x hk => storedAs_mono hset.at_ (hfs k x hk).1) (fun k x hk => (hfs k x hk).2)
  have hrel : RelBookFull (NewSheets (supbooks items) sheets refs) (nameEnv ops env b0) := by
    refine ⟨⟨.inr (.inr hrb.bv), ?_⟩, ?_⟩
    · rintro sh x y ⟨refx, h16, rfl, hloc⟩
      exact ⟨by rw [hrb.bv]; rfl, fun tok c rest => sheets3d_at hrb h16 hloc tok c rest⟩
    · rintro sh x y ⟨refx, h16, rfl, hloc⟩
      exact (hrb.loc refx x y hloc).2
  obtain ⟨tbl, ht⟩ := mixed_ok hrel hcomp h10 (shown := PlacedName sheets names) hshown (by
      intro i o' hi m1 m2
      obtain ⟨o, s, hi0, rfl⟩ := hset.back i o' hi
      rcases hall i o hi0 with h | h | h | h | h
      · exact absurd m1 h
      · exact absurd m2 h
      · exact .inl h
      · exact .inr (.inl h)
      · rw [hrb.bv]
        exact .inr (.inr (relEvaluable_mono hset.at_ h)))
  rw [ht]
  rfl

/-- What the evaluation of names finds in the book, in BIFF5 and BIFF7. -/
theorem old_names_book {env : BookEnv} (ops : PyOps) (h57 : env.bv = 50 ∨ env.bv = 70) {items : List GItem} {sheets : List SheetRec}
    (hsh : Sheets env.bv (textAt env) items sheets) {xs : List (Option PyStr)} (hx : ExternNames (textAt env) items xs) {names : List NameObj}
    (hn : Names env.bv (textAt env) items names) {f : FmtSt} {b : Book} {os : List NameObj} (h : applyGlobals env { newBook with fmt := f } items = .ok b)
    (hs : setScopes env { b with fmt := xfEpilogue env.fi b.fmt } b.nameObjs = .ok os)
    {b0 : Book} (hb : ({ b with fmt := xfEpilogue env.fi b.fmt, nameObjs := os } : Book) = b0) :
    OldRefBook (OldLocal sheets) (nameEnv ops env b0) ∧ NamesSet b0 names ∧ ∀ k, OldPlacedName sheets xs names k → ShownName b0 k := by
  have hl := sheets_items (by omega) hsh h
  have hnum := nums_items items h
  have hxn := extNames_items (by omega) hx h
  have hno := names_items (by omega) hn h
  obtain ⟨hlen, hat⟩ := setScopes_at hs
  have hl0 : SheetLists env.base sheets b0 := by subst hb; exact hl.congr rfl rfl rfl rfl rfl
  have hos : b0.nameObjs = os := by subst hb; rfl
  have hat0 : ∀ (i : Nat) o, names[i]? = some o → ∃ s, b0.nameObjs[i]? = some { o with nameIndex := i, scope := some s } ∧ OldScope sheets xs o.extnSheetNum s := by
    intro i o hi
    obtain ⟨s, e1, e2⟩ := hat i { o with nameIndex := i, scope := none } (by rw [hno, List.getElem?_mapIdx, hi]; rfl)
    have e3 := nameScope_old (by omega) (b := { b with fmt := xfEpilogue env.fi b.fmt }) (hl.congr rfl rfl rfl rfl rfl) (hnum.congr rfl rfl) ⟨hxn.count, hxn.name⟩ e1
    exact ⟨s, by rw [hos]; exact e2, e3⟩
  have hm : ∀ (i : Nat) o, names[i]? = some o → ∃ s, b0.nameObjs[i]? = some { o with nameIndex := i, scope := some s } :=
    fun i o hi => let ⟨s, e, _⟩ := hat0 i o hi; ⟨s, e⟩
  have hback : ∀ (i : Nat) o', b0.nameObjs[i]? = some o' → ∃ o s, names[i]? = some o ∧ o' = { o with nameIndex := i, scope := some s } := by
    intro i o' hi
    have hlt : i < names.length := by
      have := (List.getElem?_eq_some_iff.mp hi).1
      rw [hos, hlen, hno, List.length_mapIdx] at this
      exact this
    obtain ⟨s, e⟩ := hm i names[i] (List.getElem?_eq_getElem hlt)
    rw [hi] at e
    exact ⟨names[i], s, List.getElem?_eq_getElem hlt, Option.some.inj e⟩
  refine ⟨⟨h57, fun sh x y hloc => oldLocal_range (b := b0) (b' := b0) ⟨rfl, rfl, rfl, rfl, rfl, rfl⟩ hl0 (by show env.bv < 80; omega) hloc⟩, ⟨hm, hback⟩, ?_⟩
  intro k ⟨o2, t, e1, e2, e2'⟩ o'' hk'
  obtain ⟨s2, e3, e4⟩ := hat0 k o2 e1
  have e5 : o'' = { o2 with nameIndex := k, scope := some s2 } := Option.some.inj (hk'.symm.trans e3)
  subst e5
  have hst := OldScope.one e4 e2
  subst hst
  unfold nameShown
  generalize hq : o2.extnSheetNum = q at e4
  cases e4 with
  | book => exact ⟨_, if_pos rfl⟩
  | other => exact absurd rfl e2'
  | sheet k' i' n g1 g2 g3 =>
    rw [if_neg (by simp only [Option.some.injEq]; omega)]
    rw [← hl0.names] at g2
    have := (idx_ok_nat b0.sheetNames _ _).mpr g2
    simp only
    rw [this]
    exact ⟨_, rfl⟩

/-- The names are evaluated, in BIFF5 and BIFF7. -/
theorem old_names_ok {ops : PyOps} {env : BookEnv} (h57 : env.bv = 50 ∨ env.bv = 70) (hev : EvaluatesNames ops env) {items : List GItem} {sheets : List SheetRec}
    (hsh : Sheets env.bv (textAt env) items sheets) {xs : List (Option PyStr)} (hx : ExternNames (textAt env) items xs) {names : List NameObj}
    (hn : Names env.bv (textAt env) items names) (hne : OldNamesEvaluable sheets xs names)
    (f : FmtSt) (b : Book) (os : List NameObj) (h : applyGlobals env { newBook with fmt := f } items = .ok b)
    (hs : setScopes env { b with fmt := xfEpilogue env.fi b.fmt } b.nameObjs = .ok os) :
    env.evalNames { b with fmt := xfEpilogue env.fi b.fmt, nameObjs := os } = .ok () := by
  obtain ⟨hrb, hset, hshown⟩ := old_names_book ops h57 hsh hx hn h hs rfl
  obtain ⟨level, h10, hall⟩ := hne
  rw [hev]
  generalize ({ b with fmt := xfEpilogue env.fi b.fmt, nameObjs := os } : Book) = b0 at *
  have hevb : OldEvaluable (OldLocal sheets) (nameEnv ops env b0) level := by
    refine ⟨fun i o' hi m1 m2 => ?_⟩
    obtain ⟨o, s, hi0, rfl⟩ := hset.back i o' hi
    rcases hall i o hi0 with h | h | h | ⟨x, l, hf, hv, hu⟩
    · exact absurd m1 h
    · exact absurd m2 h
    · exact Or.inl h
    · exact Or.inr ⟨x, l, old_nameFormula_mono hset.at_ hf, old_refVal_mono hset.at_ hv, fun k hk => ⟨(hu k hk).1, hshown k (hu k hk).2⟩⟩
  obtain ⟨tbl, ht⟩ := old_bookNames_ok hrb hevb h10
  rw [ht]
  rfl

/-- Names with formulas that can be computed are evaluated, in BIFF5 and BIFF7. -/
theorem old_computable_names_ok {ops : PyOps} {env : BookEnv} (h57 : env.bv = 50 ∨ env.bv = 70) (hev : EvaluatesNames ops env) {items : List GItem} {sheets : List SheetRec}
    (hsh : Sheets env.bv (textAt env) items sheets) {xs : List (Option PyStr)} (hx : ExternNames (textAt env) items xs) {names : List NameObj}
    (hn : Names env.bv (textAt env) items names) {C : Calc} {D : Can} (hC : PyCalc ops C) (hD : PyCan ops D)
    (hne : OldNamesComputable C D IsFunc env.bv (textAt env items) sheets xs names)
    (f : FmtSt) (b : Book) (os : List NameObj) (h : applyGlobals env { newBook with fmt := f } items = .ok b)
    (hs : setScopes env { b with fmt := xfEpilogue env.fi b.fmt } b.nameObjs = .ok os) :
    env.evalNames { b with fmt := xfEpilogue env.fi b.fmt, nameObjs := os } = .ok () := by
  obtain ⟨hrb, hset, hshown⟩ := old_names_book ops h57 hsh hx hn h hs rfl
  obtain ⟨place, fs, level, h10, hfs, hall⟩ := hne
  have hdec : names ≠ [] → b.dec env = textAt env items := fun hne => names_dec (by omega) (by omega) hn hne h
  rw [hev]
  have hb0 : names ≠ [] → (nameEnv ops env { b with fmt := xfEpilogue env.fi b.fmt, nameObjs := os }).dec = textAt env items := by
    intro hne
    rw [← hdec hne]
    rfl
  generalize ({ b with fmt := xfEpilogue env.fi b.fmt, nameObjs := os } : Book) = b0 at *
  have hcomp := computable_old (env := nameEnv ops env b0) (place := place) (level := level) (use := fun i k => level k < level i ∧ OldPlacedName sheets xs names k) hC hD hrb
    (fs := fs) (fun i k hk => ⟨hk.1, hshown k hk.2⟩) (by
      intro k x hk
      obtain ⟨o, t, rest, h1, h2, h3, h4, h5, h6⟩ := (hfs k x hk).1
      rw [hb0 (by rintro rfl; cases h1)]
      obtain ⟨s, hs⟩ := hset.at_ k o h1
      exact ⟨_, t, rest, hs, h2, h3, h4, h5, h6⟩) (fun k x hk => (hfs k x hk).2)
  have hrel : RelBookFull (OwnSheets sheets) (nameEnv ops env b0) := by
    refine ⟨⟨by rcases hrb.bv with h | h <;> simp [h], ?_⟩, ?_⟩
    · rintro sh x y ⟨o, rfl, hloc⟩
      obtain ⟨h1, h2, _⟩ := hrb.loc o x y hloc
      exact ⟨by rw [if_neg (by rcases hrb.bv with h | h <;> omega), oldSheets_length o h1], h2⟩
    · rintro sh x y ⟨o, rfl, hloc⟩
      exact (hrb.loc o x y hloc).2.2
  obtain ⟨tbl, ht⟩ := mixed_ok hrel hcomp h10 (shown := OldPlacedName sheets xs names) hshown (by
      intro i o' hi m1 m2
      obtain ⟨o, s, hi0, rfl⟩ := hset.back i o' hi
      rcases hall i o hi0 with h | h | h | h | h
      · exact absurd m1 h
      · exact absurd m2 h
      · exact .inl h
      · exact .inr (.inl h)
      · exact .inr (.inr (relEvaluable_mono hset.at_ h)))
  rw [ht]
  rfl

/-- Names without formulas (and macros and binary data) are evaluated in every version. -/
theorem plain_names_ok {ops : PyOps} {env : BookEnv} (hv : env.bv = 50 ∨ env.bv = 70 ∨ env.bv = 80) (hev : EvaluatesNames ops env) (b : Book)
    (hp : ∀ o ∈ b.nameObjs, o.macroFlag ≠ 0 ∨ o.binary ≠ 0 ∨ o.basicFormulaLen = 0) : env.evalNames b = .ok () := by
  have htab : ∃ t, szdict env.bv = .ok t := by rcases hv with h | h | h <;> rw [h] <;> exact ⟨_, rfl⟩
  obtain ⟨tab, htab⟩ := htab
  have key : ∀ (l : List NameObj) (i : Nat) (t : NameTbl), (∀ (k : Nat) o, l[k]? = some o → b.nameObjs[i + k]? = some o) →
      ∃ t', evaluateNames (nameEnv ops env b) l i t = .ok t' := by
    intro l
    induction l with
    | nil => intro i t _; exact ⟨t, rfl⟩
    | cons o l ih =>
      intro i t hall
      have h0 : b.nameObjs[i]? = some o := by simpa using hall 0 o rfl
      have h1 : ∃ t1, evalTop (nameEnv ops env b) o t i = .ok t1 := by
        unfold evalTop
        by_cases hc : o.macroFlag ≠ 0 ∨ o.binary ≠ 0
        · exact ⟨t, if_pos hc⟩
        · rw [if_neg hc]
          have h00 : o.basicFormulaLen = 0 := by
            rcases hp o (List.mem_of_getElem? h0) with h | h | h
            · exact absurd (Or.inl h) hc
            · exact absurd (Or.inr h) hc
            · exact h
          have h2 : ∃ t1, evaluateName (nameEnv ops env b) 11 t i (i : Int) = .ok t1 := by
            have e1 : (nameEnv ops env b).bk.nameObjs[i]? = some o := h0
            have e2 : szdict (nameEnv ops env b).bv = .ok tab := htab
            simp only [evaluateName, evBody, e1, e2, h00, bind, Except.bind]
            exact ⟨_, rfl⟩
          unfold evaluated
          cases t[i]? with
          | none => exact h2
          | some ev =>
            cases ev with
            | none => exact h2
            | some ev => exact ⟨t, rfl⟩
      obtain ⟨t1, h1⟩ := h1
      obtain ⟨t2, h2⟩ := ih (i + 1) t1 (fun k o' hk => by have := hall (k + 1) o' hk; rwa [show i + (k + 1) = i + 1 + k by omega] at this)
      exact ⟨t2, by simp only [evaluateNames, h1, bind, Except.bind, h2]⟩
  rw [hev]
  obtain ⟨t, ht⟩ := key b.nameObjs 0 (b.nameObjs.map fun _ => none) (fun k o hk => by simpa using hk)
  have : bookNames (nameEnv ops env b) = .ok t := ht
  rw [this]
  rfl

/-! ## C80 -/

/-- The names do not stand in the way of opening: they are references, macros, binary data or without formulas (`NamesFine`), or all their formulas can be
computed or are expressions of references, some of them relative (`NamesComputable`), where `C` and `D` say what Python computes. -/
def NamesOpen (ops : PyOps) (v : Nat) (dec : List GItem → Bytes → R PyStr) (items : List GItem) (sheets : List SheetRec) (names : List NameObj) : Prop :=
  NamesFine v dec items sheets names ∨ ∃ (C : Calc) (D : Can), PyCalc ops C ∧ PyCan ops D ∧
    ((v = 80 ∧ ∃ refs, Externs items refs ∧ NamesComputable C D IsFunc (supbooks items) sheets refs names) ∨
      (v < 80 ∧ ∃ xs, ExternNames dec items xs ∧ OldNamesComputable C D IsFunc v (dec items) sheets xs names))

/-- **C80** (globals).  Globals of BIFF5, BIFF7 or BIFF8 of which every record can be read, and of which the names do not stand in the way, are read
without an exception. -/
theorem C80_globals_partial (ops : PyOps) (env : BookEnv) (hv : env.bv = 50 ∨ env.bv = 70 ∨ env.bv = 80) (hev : EvaluatesNames ops env) (pre post eof : Bytes)
    (he : eof.length < 65536) (items : List GItem) (hok : GlobalsOk env.bv items) (sheets : List SheetRec) (hsh : Sheets env.bv (textAt env) items sheets)
    (names : List NameObj) (ho : Openable env.bv env.override env.codec items names) (hn : NamesOpen ops env.bv (textAt env) items sheets names) :
    ∃ b p, parseGlobals env (pre ++ encGlobals items eof ++ post) newBook (pre.length : Int) = .ok (b, p) := by
  refine globals_ok hv pre post eof he hok ho ?_
  rcases hn with (hp | ⟨h8, refs, hr, hne⟩ | ⟨h8, xs, hx, hne⟩) | ⟨C, D, hC, hD, ⟨h8, refs, hr, hne⟩ | ⟨h8, xs, hx, hne⟩⟩
  · intro f b os h hs
    refine plain_names_ok hv hev _ ?_
    intro o' hm
    have hno := names_items (by omega) ho.collected h
    obtain ⟨hlen, hat⟩ := setScopes_at hs
    obtain ⟨i, hi, rfl⟩ := List.getElem_of_mem hm
    have hi' : i < os.length := hi
    have hlt : i < names.length := by rw [hlen, hno, List.length_mapIdx] at hi'; exact hi'
    obtain ⟨s, _, e⟩ := hat i { names[i] with nameIndex := i, scope := none } (by rw [hno, List.getElem?_mapIdx, List.getElem?_eq_getElem hlt]; rfl)
    rw [List.getElem?_eq_getElem hi', Option.some.injEq] at e
    have hq := hp names[i] (List.getElem_mem hlt)
    show os[i].macroFlag ≠ 0 ∨ os[i].binary ≠ 0 ∨ os[i].basicFormulaLen = 0
    rw [e]
    exact hq
  · exact names_ok h8 hev hsh hr ho.collected hne
  · exact old_names_ok (by omega) hev hsh hx ho.collected hne
  · exact computable_names_ok h8 hev hsh hr ho.collected hC hD hne
  · exact old_computable_names_ok (by omega) hev hsh hx ho.collected hC hD hne

/-- **C80** (on demand).  A well-formed workbook stream opens. -/
theorem C80_opens_partial (ops : PyOps) (env : OpenEnv) (v : Nat) (hv : v = 50 ∨ v = 70 ∨ v = 80) (mem : Bytes) (base : Nat)
    (hev : EvaluatesNames ops (env.bookEnv v base)) (items : List GItem) (sheets : List SheetRec)
    (hw : WorkbookStream v (textAt (env.bookEnv v base)) mem base items sheets) (names : List NameObj)
    (ho : Openable v env.override env.codec items names) (hn : NamesOpen ops v (fun q => env.codec (textEncoding v env.override (lastCodepage q))) items sheets names) (hd : env.onDemand = true) :
    ∃ l, openStream env mem base = .ok l := by
  obtain ⟨pre, op, bof, eof, post, rfl, hb, he, hm⟩ := hw.bytes
  have hf : firstBof mem (pre.length : Int) = .ok (v, ((pre ++ encRec op bof).length : Int)) := by
    have := C52_first_bof hb pre (encGlobals items eof ++ post)
    rw [if_pos (show StartsFile v 5 from Or.inl rfl)] at this
    rw [hm, List.append_assoc _ (encGlobals items eof)]
    exact this
  obtain ⟨b, p, hg⟩ := C80_globals_partial ops (env.bookEnv v pre.length) hv hev (pre ++ encRec op bof) post eof he items hw.ok sheets hw.sheets names ho hn
  rw [← hm] at hg
  unfold openStream
  rw [hf]
  simp only [bind, Except.bind]
  rw [if_neg (by omega), hg]
  simp only
  rw [if_neg (by omega)]
  unfold openSheets
  rw [if_pos hd]
  exact ⟨_, rfl⟩

theorem getSheets_ok {env : OpenEnv} (m : Nat) : ∀ (a : Nat) (x : Lib), x.released = false → x.Parallel → x.Steady env →
    x.sheetList.length = x.book.sheetNames.length → a + m ≤ x.sheetList.length →
    (∀ k : Nat, a ≤ k → k < a + m → ∃ sh, readSheet env x (k : Int) = .ok sh) → ∃ y, getSheets env m a x = .ok y := by
  induction m with
  | zero => intro a x _ _ _ _ _ _; exact ⟨x, rfl⟩
  | succ m ih =>
    intro a x hr hpar hst hn hl hk
    obtain ⟨sh, h1⟩ := hk a (by omega) (by omega)
    have h2 : setIdx x.sheetList (a : Int) (some sh) = .ok (x.sheetList.set a (some sh)) := by
      exact setIdx_nat _ _ _ (by omega)
    obtain ⟨y, hy⟩ := ih (a + 1) { x with sheetList := x.sheetList.set a (some sh) } hr ⟨hpar.posn, hpar.vis⟩ hst
      (by simp only [List.length_set]; exact hn) (by simp only [List.length_set]; omega) (fun k h1 h2 => hk k (by omega) (by omega))
    refine ⟨y, ?_⟩
    simp only [getSheets, getSheet]
    rw [if_neg (by rw [hr]; simp), left_steady hpar hst (sheetNo_nat (show a < x.book.sheetNames.length by omega))]
    simp only [h1, h2, bind, Except.bind, pure, Except.pure]
    exact hy

/-- **C80** (all sheets at once).  If reading a sheet does not change the countries of the book, opening a workbook with all its sheets succeeds exactly if it opens on demand and then every sheet can be had. -/
theorem C80_eager_partial (env : OpenEnv) (mem : Bytes) (base : Int) (v : Nat) (p : Int) (hv : firstBof mem base = .ok (v, p)) (h50 : 50 ≤ v)
    (hkeep : SheetsKeepCountries env mem base) :
    (∃ l, openStream { env with onDemand := false } mem base = .ok l) ↔
      ∃ l, openStream { env with onDemand := true } mem base = .ok l ∧
        ∀ k : Nat, k < l.book.sheetNames.length → ∃ sh, (sheetByIndex { env with onDemand := true } l (k : Int)).1 = .ok sh := by
  have hby : ∀ (b : Book) (k : Nat), k < b.sheetNames.length → ∀ x, (x = (⟨v, b, mem, List.replicate b.sheetNames.length none, false⟩ : Lib)) →
      ((∃ sh, (sheetByIndex { env with onDemand := true } x (k : Int)).1 = .ok sh) ↔ ∃ sh, readSheet env x (k : Int) = .ok sh) := by
    rintro b k hk x rfl
    have e : idx (List.replicate b.sheetNames.length (none : Option LSheet)) (k : Int) = .ok none := by
      rw [idx_ok_nat, List.getElem?_replicate, if_pos hk]
    unfold sheetByIndex
    simp only [e]
    unfold getSheet
    simp only [Bool.false_eq_true, if_false]
    have e1 : readSheet { env with onDemand := true } ⟨v, b, mem, List.replicate b.sheetNames.length none, false⟩ (k : Int) =
      readSheet env ⟨v, b, mem, List.replicate b.sheetNames.length none, false⟩ (k : Int) := rfl
    rw [e1]
    cases hc : readSheet env ⟨v, b, mem, List.replicate b.sheetNames.length none, false⟩ (k : Int) with
    | error e => constructor <;> rintro ⟨sh, h⟩ <;> cases h
    | ok sh =>
      have h2 : setIdx (List.replicate b.sheetNames.length (none : Option LSheet)) (k : Int) (some sh) =
          .ok ((List.replicate b.sheetNames.length none).set k (some sh)) := by
        exact setIdx_nat _ _ _ (by rw [List.length_replicate]; exact hk)
      simp only [bind, Except.bind, h2, pure, Except.pure]
  constructor
  · rintro ⟨l, h⟩
    obtain ⟨b, q, hg, _⟩ := openStream_new hv h50 h
    obtain ⟨l', h1, h2, _⟩ := C41_same_file_partial env mem base v p l hv h50 hkeep h
    obtain ⟨_, hgood⟩ := C41_eager_partial { env with onDemand := false } mem base v p l hv h50 hkeep rfl h []
    refine ⟨l', h1, fun k hk => ?_⟩
    obtain ⟨b', q', hg', ho'⟩ := openStream_new hv h50 h1
    unfold openSheets at ho'
    rw [if_pos rfl] at ho'
    cases ho'
    rw [hby b' k hk _ rfl]
    simp only at hk h2
    obtain ⟨sh, hs⟩ := hgood k (by rw [← h2]; exact hk)
    obtain ⟨f1, _, f3⟩ := openSheets_frame (openStream_new hv h50 h).choose_spec.choose_spec.2
    refine ⟨sh, ?_⟩
    have : readSheet { env with onDemand := false } l (k : Int) = .ok sh := hs
    unfold readSheet sheetStart at this ⊢
    simp only at f1 f3
    rw [f1, f3, ← h2] at this
    exact this
  · rintro ⟨l, h1, h2⟩
    obtain ⟨b, q, hg, ho⟩ := openStream_new hv h50 h1
    unfold openSheets at ho
    rw [if_pos rfl] at ho
    cases ho
    have hg0 : parseGlobals (env.bookEnv v base) mem newBook p = .ok (b, q) := by rw [bookEnv_onDemand] at hg; exact hg
    obtain ⟨p1, p2, _⟩ := C43_parallel _ _ _ _ _ _ _ hg
    obtain ⟨y, hy⟩ := getSheets_ok (env := { env with onDemand := false }) b.sheetNames.length 0 ⟨v, b, mem, List.replicate b.sheetNames.length none, false⟩ rfl ⟨p1, p2⟩
      (fun k hk => by rw [leftCountries_demand]; exact keep_steady hv h50 hg0 hkeep k hk) (by simp) (by simp)
      (fun k _ hk => (hby b k (by omega) _ rfl).mp (h2 k (by simp only; omega)))
    refine ⟨releaseResources y, ?_⟩
    unfold openStream
    rw [hv]
    simp only [bind, Except.bind]
    have hg' : parseGlobals (OpenEnv.bookEnv { env with onDemand := false } v base) mem newBook p = .ok (b, q) := by
      rw [bookEnv_onDemand] at hg ⊢; exact hg
    rw [if_neg (by omega), hg']
    simp only
    rw [if_neg (by omega)]
    unfold openSheets
    simp only [Bool.false_eq_true, if_false, hy, bind, Except.bind, pure, Except.pure]

/-- **C80** (all sheets at once, from the bytes).  If, besides, every worksheet consists of well-formed records and its cells and merged ranges fit into a
sheet, the workbook opens with all its sheets. -/
theorem C80_opens_all_partial (ops : PyOps) (env : OpenEnv) (v : Nat) (hv : v = 50 ∨ v = 70 ∨ v = 80) (mem : Bytes) (base : Nat)
    (hev : EvaluatesNames ops (env.bookEnv v base)) (items : List GItem) (sheets : List SheetRec)
    (hw : WorkbookStream v (textAt (env.bookEnv v base)) mem base items sheets) (names : List NameObj)
    (ho : Openable v env.override env.codec items names) (hn : NamesOpen ops v (fun q => env.codec (textEncoding v env.override (lastCodepage q))) items sheets names)
    (hs : ∀ l, openStream { env with onDemand := true } mem base = .ok l → ∀ k s, worksheet sheets k = some s → ∃ L, SheetAt v mem (base + s.offset) L ∧
      L.Ok v (libDec env l.book) (l.book.sst.map Prod.fst) ∧
      let cells := cellsOf fl env.fi (l.book.sst.map Prod.fst) L.items
      let lastMerged := maxOf ((mergedRanges env.fi L.items).map (·.rhi))
      (∀ w ∈ cells, w.row < (if v < 80 then 16384 else 65536) ∧ w.col < 256 ∧ (w.ctype = none → ∃ t, (env.sheetEnv v l.book).cfg.typeMap w.xf = some t) ∧
        (env.fi = true → -32768 ≤ w.xf ∧ w.xf ≤ 32767)) ∧
      (height cells [] < lastMerged → lastMerged ≤ if v < 80 then 16384 else 65536)) :
    ∃ l, openStream { env with onDemand := false } mem base = .ok l := by
  have h50 : 50 ≤ v := by omega
  have hev' : EvaluatesNames ops (OpenEnv.bookEnv { env with onDemand := true } v base) := by rw [bookEnv_onDemand]; exact hev
  have hw' : WorkbookStream v (textAt (OpenEnv.bookEnv { env with onDemand := true } v base)) mem base items sheets := by rw [bookEnv_onDemand]; exact hw
  obtain ⟨l, hl⟩ := C80_opens_partial ops { env with onDemand := true } v hv mem base hev' items sheets hw' names ho hn rfl
  obtain ⟨p, b, q, hf, _⟩ := stream_opened h50 hw' hl
  have hfits : ∀ l, openStream { env with onDemand := true } mem base = .ok l → ∀ k s, worksheet sheets k = some s → ∃ L sh, SheetAt v mem (base + s.offset) L ∧
      L.Ok v (libDec env l.book) (l.book.sst.map Prod.fst) ∧ (sheetByIndex { env with onDemand := true } l (k : Int)).1 = .ok sh := by
    intro l hl k s hk
    obtain ⟨L, h1, h2, h3⟩ := hs l hl k s hk
    obtain ⟨sh, h4⟩ := (C67_sheet_fits { env with onDemand := true } v mem base items sheets h50 hw' l rfl hl k s hk L h1 h2).mpr h3
    exact ⟨L, sh, h1, h2, h4⟩
  refine (C80_eager_partial env mem base v p hf h50 (C41_wellformed_sheets env v mem base items sheets h50 hw hfits)).mpr ⟨l, hl, fun k hk => ?_⟩
  rw [C67_sheet_names _ v mem base items sheets h50 hw' l hl, List.length_map] at hk
  obtain ⟨_, sh, _, _, h4⟩ := hfits l hl k _ (List.getElem?_eq_getElem hk)
  exact ⟨sh, h4⟩

/-- **C80** (files).  A file with a well-formed workbook stream opens on demand. -/
theorem C80_file_opens_partial (ops : PyOps) (env : OpenEnv) (v : Nat) (hv : v = 50 ∨ v = 70 ∨ v = 80) (file b : Bytes)
    (hfile : WorkbookFile env.lower env.depth file b) (hfuel : file.length < env.fuel) (hev : ∀ base : Int, EvaluatesNames ops (env.bookEnv v base)) (items : List GItem)
    (sheets : List SheetRec) (hw : WorkbookStream v (textAt (env.bookEnv v 0)) b 0 items sheets) (names : List NameObj)
    (ho : Openable v env.override env.codec items names) (hn : NamesOpen ops v (fun q => env.codec (textEncoding v env.override (lastCodepage q))) items sheets names) (hd : env.onDemand = true) :
    ∃ l, openXls env file = some (.ok l) ∧ l.book.sheetNames = (sheets.filter SheetRec.isWorksheet).map SheetRec.name := by
  obtain ⟨m, off, rest, e1, e2⟩ := loadStream_ok env file b hfile hfuel
  have hb : b ≠ [] := by cases hfile <;> assumption
  have hw' : WorkbookStream v (textAt (env.bookEnv v (off : Int))) m off items sheets := workbookStream_shift hw e2 hb
  obtain ⟨l, hl⟩ := C80_opens_partial ops env v hv m off (hev off) items sheets hw' names ho hn hd
  refine ⟨l, ?_, C67_sheet_names env v m off items sheets (by omega) hw' l hl⟩
  unfold openXls
  rw [e1]
  simp only [hl]

end Xlrd
