import Verif.Spec.OldNameExpr
import Verif.Props.NameExprRun
import Verif.Props.NameValuesOld

/-!
# C78: the values of defined names in BIFF5 and BIFF7 workbooks
-/
set_option linter.unusedSimpArgs false
set_option linter.unusedVariables false

namespace Xlrd
open Spec

theorem old_vruns_text {C : Calc} {loc : Nat → Nat → Nat → Prop} {fs : Nat → Option VExpr} {env : FEnv} (hv : env.bv ≤ 70) {rc : NameTbl → Nat → Int → R NameTbl}
    {tab : List Int} (ht : NewTab tab) {namex : Int} {data : Bytes} {len : Nat} {st' : EvSt} (u : UStr) (t : Bytes) (hn : t.length < 256) (hd : env.dec t = .ok u.text) :
    VRuns C loc fs env rc tab namex data len st' (.text u) (0x17 :: (encLen 1 t.length ++ t)) := by
  refine vruns_const (b := 0x17) (d := encLen 1 t.length ++ t) (c := 0x17) rfl (by decide) (s0 := -1) (by rcases ht with rfl | rfl <;> decide) (by decide) ?_
  intro p rest stk s z hd' h
  rw [List.append_assoc] at hd'
  have e1 : (encLen 1 t.length).length = 1 := encLen_length 1 _ (.inl rfl)
  unfold evPlain at h
  rw [if_neg (by decide), if_neg (by decide), if_neg (by decide), if_neg (by decide), if_neg (by decide), if_neg (by decide), if_neg (by decide),
        if_neg (by decide), if_pos rfl] at h
  unfold tStr at h
  have hs := unpackStringLen_at (b := t) (l := 1) env.dec (.inl rfl) (by simpa using hn) (drop_one hd')
  rw [if_pos hv, show ((p : Int) + 1) = ((p + 1 : Nat) : Int) by push_cast; ring, hs, hd] at h
  cases h
  refine ⟨_, rfl, agree_const (.text u) (fun w hw => by cases hw; rfl) ⟨rfl, rfl⟩, ?_⟩
  rw [List.length_append, e1]
  push_cast; ring

theorem old_evRef3d_any {loc : OldSheets → Nat → Nat → Prop} {env : FEnv} (hb : OldRefBook loc env) {sh : OldSheets} {x y r c : Nat} (hl : loc sh x y)
    (hr : r < 16384) (hc : c < 256) (optype : Nat) (c0 : UInt8) (pre rest : Bytes) (st : EvSt) :
    ∃ o, evRef3d env (pre ++ (c0 :: (sh.enc ++ encAddr 70 (.abs r) (.abs c)) ++ rest)) (pre.length : Int) optype st = .ok { st with stack := o :: st.stack } ∧
      o.kind = .ref ∧ o.value = if optype = 1 then some (.refs [{ shtxlo := x, shtxhi := y + 1, rowxlo := r, rowxhi := r + 1, colxlo := c, colxhi := c + 1 }]) else none := by
  obtain ⟨hu, hs, hx, hy⟩ := hb.loc sh x y hl
  obtain ⟨t, ht⟩ := rangename3d_ok env.bk.sheetNames x y r r c c hx hy hc hc
  have ha := C47_cell_address env.bv (.abs r) (.abs c) ⟨by simpa [Coord.Fits, old_rowCount hb.bv] using hr, by simpa [Coord.Fits] using hc⟩ none none (pre ++ c0 :: sh.enc) rest
  rw [show (((pre ++ c0 :: sh.enc).length : Nat) : Int) = (pre.length : Int) + 15 by simp [oldSheets_length sh hu], old_encAddr hb.bv] at ha
  have hs := hs pre c0 (encAddr 70 (.abs r) (.abs c) ++ rest)
  generalize hdata : pre ++ (c0 :: (sh.enc ++ encAddr 70 (.abs r) (.abs c)) ++ rest) = data
  have e1 : data = pre ++ c0 :: sh.enc ++ encAddr 70 (.abs r) (.abs c) ++ rest := by rw [← hdata]; simp
  have e2 : data = pre ++ c0 :: (sh.enc ++ (encAddr 70 (.abs r) (.abs c) ++ rest)) := by rw [← hdata]; simp
  rw [← e1] at ha
  rw [← e2] at hs
  refine ⟨{ kind := .ref, value := if optype = 1 then some (.refs [{ shtxlo := x, shtxhi := y + 1, rowxlo := r, rowxhi := r + 1, colxlo := c, colxhi := c + 1 }]) else none,
            rank := LEAF_RANK, text := t }, ?_, rfl, rfl⟩
  unfold evRef3d
  rw [if_neg (by rcases hb.bv with h | h <;> rw [h] <;> omega), ha, hs]
  simp only [bind, Except.bind, pure, Except.pure, ref3dOpnd, mkRef3d, addrOf, Coord.num, Coord.isRel, Bool.or_self, Bool.false_eq_true, if_false, if_true, ht]
  simp only [Bool.or_false, decide_eq_false (show ¬ ((x : Int) < -1) by omega)]

theorem old_evArea3d_any {loc : OldSheets → Nat → Nat → Prop} {env : FEnv} (hb : OldRefBook loc env) {sh : OldSheets} {x y r1 r2 c1 c2 : Nat} (hl : loc sh x y)
    (hr1 : r1 < 16384) (hr2 : r2 < 16384) (hc1 : c1 < 256) (hc2 : c2 < 256) (optype : Nat) (c0 : UInt8) (pre rest : Bytes) (st : EvSt) :
    ∃ o, evArea3d env (pre ++ (c0 :: (sh.enc ++ encArea 70 (.abs r1) (.abs r2) (.abs c1) (.abs c2)) ++ rest)) (pre.length : Int) optype st = .ok { st with stack := o :: st.stack } ∧
      o.kind = .ref ∧ o.value = if optype = 1 then some (.refs [{ shtxlo := x, shtxhi := y + 1, rowxlo := r1, rowxhi := r2 + 1, colxlo := c1, colxhi := c2 + 1 }]) else none := by
  obtain ⟨hu, hs, hx, hy⟩ := hb.loc sh x y hl
  obtain ⟨t, ht⟩ := rangename3d_ok env.bk.sheetNames x y r1 r2 c1 c2 hx hy hc1 hc2
  have ha := C47_area_address env.bv (.abs r1) (.abs r2) (.abs c1) (.abs c2) ⟨by simpa [Coord.Fits, old_rowCount hb.bv] using hr1, by simpa [Coord.Fits] using hc1⟩
    ⟨by simpa [Coord.Fits, old_rowCount hb.bv] using hr2, by simpa [Coord.Fits] using hc2⟩ none none (pre ++ c0 :: sh.enc) rest
  rw [show (((pre ++ c0 :: sh.enc).length : Nat) : Int) = (pre.length : Int) + 15 by simp [oldSheets_length sh hu], old_encArea hb.bv] at ha
  have hs := hs pre c0 (encArea 70 (.abs r1) (.abs r2) (.abs c1) (.abs c2) ++ rest)
  generalize hdata : pre ++ (c0 :: (sh.enc ++ encArea 70 (.abs r1) (.abs r2) (.abs c1) (.abs c2)) ++ rest) = data
  have e1 : data = pre ++ c0 :: sh.enc ++ encArea 70 (.abs r1) (.abs r2) (.abs c1) (.abs c2) ++ rest := by rw [← hdata]; simp
  have e2 : data = pre ++ c0 :: (sh.enc ++ (encArea 70 (.abs r1) (.abs r2) (.abs c1) (.abs c2) ++ rest)) := by rw [← hdata]; simp
  rw [← e1] at ha
  rw [← e2] at hs
  refine ⟨{ kind := .ref, value := if optype = 1 then some (.refs [{ shtxlo := x, shtxhi := y + 1, rowxlo := r1, rowxhi := r2 + 1, colxlo := c1, colxhi := c2 + 1 }]) else none,
            rank := LEAF_RANK, text := t }, ?_, rfl, rfl⟩
  unfold evArea3d
  rw [if_neg (by rcases hb.bv with h | h <;> rw [h] <;> omega), ha, hs]
  simp only [bind, Except.bind, pure, Except.pure, ref3dOpnd, mkRef3d, addrOf, Coord.num, Coord.isRel, Bool.or_self, Bool.false_eq_true, if_false, if_true, ht]
  simp only [Bool.or_false, decide_eq_false (show ¬ ((x : Int) < -1) by omega)]

/-- The references with number `k` are to the sheets from `x` to `y`. -/
def Placed (place : Nat → Option OldSheets) (loc : OldSheets → Nat → Nat → Prop) (k x y : Nat) : Prop := ∃ sh, place k = some sh ∧ loc sh x y

theorem placed_unique {place : Nat → Option OldSheets} {loc : OldSheets → Nat → Nat → Prop} {env : FEnv} (hb : OldRefBook loc env) {k x y x' y' : Nat}
    (h : Placed place loc k x y) (h' : Placed place loc k x' y') : x = x' ∧ y = y' := by
  obtain ⟨sh, h1, h2⟩ := h
  obtain ⟨sh', h1', h2'⟩ := h'
  rw [h1] at h1'
  cases h1'
  have e := (hb.loc sh x y h2).2.1 [] 0 []
  rw [(hb.loc sh x' y' h2').2.1 [] 0 []] at e
  cases e
  exact ⟨rfl, rfl⟩

theorem old_vruns_cell {C : Calc} {place : Nat → Option OldSheets} {loc : OldSheets → Nat → Nat → Prop} {fs : Nat → Option VExpr} {env : FEnv} (hb : OldRefBook loc env)
    {rc : NameTbl → Nat → Int → R NameTbl} {namex : Int} {data : Bytes} {len : Nat} {st' : EvSt} (cls : Cls) {k x y r c : Nat} {sh : OldSheets} (hp : place k = some sh)
    (hl : loc sh x y) (hr : r < 16384) (hc : c < 256) : VRuns C (Placed place loc) fs env rc sztab3 namex data len st' (.cell cls k r c)
      (UInt8.ofNat (cls.code + 0x1A) :: (sh.enc ++ encAddr 70 (.abs r) (.abs c))) := by
  intro p rest fuel st hd hlen hg h
  simp only [List.cons_append, List.length_cons] at hd hlen
  obtain ⟨f, q, h1, h⟩ := evLoop_ok (by omega) h
  obtain ⟨st1, h2, rfl⟩ := vclass hd (by decide) (sz := 18) (by decide) (by decide) h1
  obtain ⟨e1, e2⟩ := take_drop_pos hd
  obtain ⟨o, ho, hk, hv⟩ := old_evRef3d_any hb hl hr hc cls.num (UInt8.ofNat (cls.code + 0x1A)) (data.take p) rest st
  have e3 : data.take p ++ (UInt8.ofNat (cls.code + 0x1A) :: (sh.enc ++ encAddr 70 (.abs r) (.abs c)) ++ rest) = data := by
    conv_rhs => rw [e1]
    simp
  rw [e3, e2] at ho
  have e4 : evClass env rc namex data (p : Int) 0x1A cls.num st = evRef3d env data p cls.num st := by simp [evClass]
  rw [e4, ho] at h2
  cases h2
  refine ⟨f, o, st.tbl, ?_, hg, evLoop_at (by simp [oldSheets_length sh (hb.loc sh x y hl).1, enc70_length]) h⟩
  cases cls with
  | ref =>
    refine agree_const (.cell k r c x y ⟨sh, hp, hl⟩) (fun w hw => ?_) ⟨hk, by simpa [Spec.Cls.num] using hv⟩
    cases hw with
    | cell _ _ _ x' y' h' => obtain ⟨rfl, rfl⟩ := placed_unique hb ⟨sh, hp, hl⟩ h'; rfl
  | val => exact agree_unknown (fun v hv => by cases hv) (by simpa [Spec.Cls.num] using hv) (by rw [hk]; decide)
  | arr => exact agree_unknown (fun v hv => by cases hv) (by simpa [Spec.Cls.num] using hv) (by rw [hk]; decide)

theorem old_vruns_area {C : Calc} {place : Nat → Option OldSheets} {loc : OldSheets → Nat → Nat → Prop} {fs : Nat → Option VExpr} {env : FEnv} (hb : OldRefBook loc env)
    {rc : NameTbl → Nat → Int → R NameTbl} {namex : Int} {data : Bytes} {len : Nat} {st' : EvSt} (cls : Cls) {k x y r1 r2 c1 c2 : Nat} {sh : OldSheets} (hp : place k = some sh)
    (hl : loc sh x y) (hr1 : r1 < 16384) (hr2 : r2 < 16384) (hc1 : c1 < 256) (hc2 : c2 < 256) :
    VRuns C (Placed place loc) fs env rc sztab3 namex data len st' (.area cls k r1 r2 c1 c2)
      (UInt8.ofNat (cls.code + 0x1B) :: (sh.enc ++ encArea 70 (.abs r1) (.abs r2) (.abs c1) (.abs c2))) := by
  intro p rest fuel st hd hlen hg h
  simp only [List.cons_append, List.length_cons] at hd hlen
  obtain ⟨f, q, h1, h⟩ := evLoop_ok (by omega) h
  obtain ⟨st1, h2, rfl⟩ := vclass hd (by decide) (sz := 21) (by decide) (by decide) h1
  obtain ⟨e1, e2⟩ := take_drop_pos hd
  obtain ⟨o, ho, hk, hv⟩ := old_evArea3d_any hb hl hr1 hr2 hc1 hc2 cls.num (UInt8.ofNat (cls.code + 0x1B)) (data.take p) rest st
  have e3 : data.take p ++ (UInt8.ofNat (cls.code + 0x1B) :: (sh.enc ++ encArea 70 (.abs r1) (.abs r2) (.abs c1) (.abs c2)) ++ rest) = data := by
    conv_rhs => rw [e1]
    simp
  rw [e3, e2] at ho
  have e4 : evClass env rc namex data (p : Int) 0x1B cls.num st = evArea3d env data p cls.num st := by simp [evClass]
  rw [e4, ho] at h2
  cases h2
  refine ⟨f, o, st.tbl, ?_, hg, evLoop_at (by simp [oldSheets_length sh (hb.loc sh x y hl).1, encArea70_length]) h⟩
  cases cls with
  | ref =>
    refine agree_const (.area k r1 r2 c1 c2 x y ⟨sh, hp, hl⟩) (fun w hw => ?_) ⟨hk, by simpa [Spec.Cls.num] using hv⟩
    cases hw with
    | area _ _ _ _ _ x' y' h' => obtain ⟨rfl, rfl⟩ := placed_unique hb ⟨sh, hp, hl⟩ h'; rfl
  | val => exact agree_unknown (fun v hv => by cases hv) (by simpa [Spec.Cls.num] using hv) (by rw [hk]; decide)
  | arr => exact agree_unknown (fun v hv => by cases hv) (by simpa [Spec.Cls.num] using hv) (by rw [hk]; decide)

theorem forall₂_of {α β} {P Q : α → β → Prop} {l : List α} {m : List β} (h : List.Forall₂ P l m) (hq : ∀ a ∈ l, ∀ b, P a b → Q a b) : List.Forall₂ Q l m := by
  induction h with
  | nil => exact .nil
  | cons h1 _ ih => exact .cons (hq _ (List.mem_cons_self ..) _ h1) (ih fun a ha => hq a (List.mem_cons_of_mem _ ha))

theorem oldStored_ordinary {dec : Bytes → R PyStr} {place : Nat → Option OldSheets} {names : List NameObj} {k : Nat} {e : VExpr} (h : OldStoredAs dec place names k e) :
    Ordinary names k := by
  obtain ⟨o, _, _, h1, h2, h3, _⟩ := h
  exact ⟨o, h1, h2, h3⟩

/-- Evaluation of the tokens of a well-formed expression. -/
theorem old_vruns {C : Calc} {place : Nat → Option OldSheets} {loc : OldSheets → Nat → Nat → Prop} {fs : Nat → Option VExpr} {env : FEnv} (hC : PyCalc env.ops C)
    (hb : OldRefBook loc env) (hfs : ∀ k x, fs k = some x → OldStoredAs env.dec place env.bk.nameObjs k x) {rc : NameTbl → Nat → Int → R NameTbl}
    (hrc : ∀ t i g t', VGood C (Placed place loc) fs t → rc t i g = .ok t' → VGood C (Placed place loc) fs t') (namex : Int) (data : Bytes) (len : Nat) (st' : EvSt) {x : VExpr}
    (hx : Fine C (Placed place loc) fs IsFunc x) : ∀ toks, OldTokens env.dec place x toks → VRuns C (Placed place loc) fs env rc sztab3 namex data len st' x toks := by
  have ht : NewTab sztab3 := .inl rfl
  have ho : ∀ k x, fs k = some x → Ordinary env.bk.nameObjs k := fun k x h => oldStored_ordinary (hfs k x h)
  have hv : 40 ≤ env.bv := by rcases hb.bv with h | h <;> omega
  have hv' : env.bv ≤ 70 := by rcases hb.bv with h | h <;> omega
  induction hx with
  | int n hn => intro toks h; cases h; exact vruns_int ht n hn
  | num x hx => intro toks h; cases h; exact vruns_num ht x hx
  | bool b => intro toks h; cases h; exact vruns_bool ht b
  | text u hu hn => intro toks h; cases h with | text _ t h1 h2 => exact old_vruns_text hv' ht u t h1 h2
  | err c hc => intro toks h; cases h; exact vruns_err ht c hc
  | missing => intro toks h; cases h; exact vruns_missing ht
  | cell cls refx r c x y h1 h2 h3 h4 =>
    intro toks h
    cases h with
    | cell _ _ _ _ sh g1 g2 =>
      obtain ⟨sh', g3, g4⟩ := h2
      rw [g1] at g3; cases g3
      exact old_vruns_cell hb cls g1 g4 g2 h4
  | area cls refx r1 r2 c1 c2 x y h1 h2 h3 h4 h5 h6 =>
    intro toks h
    cases h with
    | area _ _ _ _ _ _ sh g1 g2 g2' =>
      obtain ⟨sh', g3, g4⟩ := h2
      rw [g1] at g3; cases g3
      exact old_vruns_area hb cls g1 g4 g2 g2' h5 h6
  | name cls k x h1 h2 h3 _ =>
    intro toks h
    cases h with
    | name _ _ unused hu => exact vruns_name ho hrc cls h1 h2 h3 (by rw [hu]; decide)
  | un o e _ hn ih => intro toks h; cases h with | un _ _ t h1 => exact vruns_un hC ht o (ih t h1) hn
  | bin o a b _ _ iha ihb => intro toks h; cases h with | bin _ _ _ s t h1 h2 => exact vruns_bin hC ht o (iha s h1) (ihb t h2)
  | refs o a b _ _ iha ihb => intro toks h; cases h with | refs _ _ _ s t h1 h2 => exact vruns_refs ht o (iha s h1) (ihb t h2)
  | quiet before after e h1 h2 _ ih => intro toks h; cases h with | quiet _ _ _ t h3 => exact vruns_quiet ht h1 h2 (ih t h3)
  | mem cls size e h1 _ ih => intro toks h; cases h with | mem _ _ _ t h2 => exact vruns_mem ht cls h1 (ih t h2)
  | fixed cls n hi args h1 h2 _ ih => intro toks h; cases h with | fixed _ _ _ ts h3 => exact vruns_fixed hv ht cls h1 h2 (forall₂_of h3 ih)
  | varying cls n lo hi args h1 h2 h3 h4 _ ih => intro toks h; cases h with | varying _ _ _ ts h5 => exact vruns_varying hv ht cls h1 h2 h3 h4 (forall₂_of h5 ih)
  | sum d e h1 _ ih => intro toks h; cases h with | sum _ _ t h2 => exact vruns_sum ht h1 (ih t h2)

theorem old_vtokens_ne {C : Calc} {loc : Nat → Nat → Nat → Prop} {fs : Nat → Option VExpr} {func : Nat → Nat → Nat → Prop} {dec : Bytes → R PyStr}
    {place : Nat → Option OldSheets} {x : VExpr} (hx : Fine C loc fs func x) : ∀ toks, OldTokens dec place x toks → toks.length ≠ 0 := by
  induction hx with
  | quiet before after e h1 h2 _ ih =>
    intro toks h
    cases h with
    | quiet _ _ _ t h3 => have := ih t h3; simp only [List.length_append]; omega
  | _ => intro toks h; cases h <;> simp

theorem old_vgood_kept {C : Calc} {place : Nat → Option OldSheets} {loc : OldSheets → Nat → Nat → Prop} {fs : Nat → Option VExpr} {env : FEnv} (hC : PyCalc env.ops C)
    (hb : OldRefBook loc env) (hfs : ∀ k x, fs k = some x → OldStoredAs env.dec place env.bk.nameObjs k x) :
    ∀ (k : Nat) (t : NameTbl) (i : Nat) (g : Int) (t' : NameTbl), VGood C (Placed place loc) fs t → evaluateName env k t i g = .ok t' → VGood C (Placed place loc) fs t' := by
  apply evaluateName_inv
  intro k t i g o tab st hg ho htab hrc h hst j e x hj hn hf
  rcases getElem?_set_cases _ _ _ _ _ hj with ⟨rfl, he⟩ | hj
  · cases he
    obtain ⟨o', toks, rest, h1, h2, h3, h6, h4, h5⟩ := hfs _ _ hn
    rw [ho] at h1
    cases h1
    have ht : tab = sztab3 := by
      rcases hb.bv with h | h <;> rw [h] at htab <;> simpa [szdict] using htab.symm
    subst ht
    rw [if_neg (by rw [h5]; exact old_vtokens_ne hf toks h6)] at h
    obtain ⟨f, op, tbl, hm, _, h6⟩ := old_vruns hC hb hfs hrc g o.rawFormula o.basicFormulaLen st hf toks h6 0 rest o.basicFormulaLen { stack := [], tbl := t } (by simpa using h4)
      (by rw [h5]; simp) hg h
    have h7 : ∀ f s, evLoop env (evaluateName env k) sztab3 g o.rawFormula o.basicFormulaLen f s ((0 + toks.length : Nat) : Int) = .ok s := by
      intro f s
      cases f <;> simp only [evLoop] <;> rw [if_neg (by rw [h5]; simp)]
    rw [h7] at h6
    cases h6
    exact ⟨op, rfl, hm⟩
  · exact hst j e x hj hn hf

/-! ## C78 -/

/-- **C78** (BIFF5 and BIFF7: the values of defined names).  `place` numbers the ranges of sheets that the references of the formulas hold.

Partial: as `C78_name_value_partial`. -/
theorem C78_old_name_value_partial (env : BookEnv) (h57 : env.bv = 50 ∨ env.bv = 70) (pre post eof : Bytes) (he : eof.length < 65536) (items : List GItem)
    (hok : GlobalsOk env.bv items) (sheets : List SheetRec) (hsh : Sheets env.bv (textAt env) items sheets)
    (names : List NameObj) (hn : Names env.bv (textAt env) items names) (b : Book) (p : Int)
    (h : parseGlobals env (pre ++ encGlobals items eof ++ post) newBook (pre.length : Int) = .ok (b, p))
    (fenv : FEnv) (hbv : fenv.bv = env.bv) (hb : SameTables fenv.bk b) (C : Calc) (hC : PyCalc fenv.ops C) (tbl : NameTbl) (ht : bookNames fenv = .ok tbl)
    (place : Nat → Option OldSheets) (fs : Nat → Option VExpr) (hfs : ∀ k x, fs k = some x → OldStoredAs fenv.dec place names k x) (i : Nat) (x : VExpr) (hx : fs i = some x)
    (hf : Fine C (OldPlace place sheets) fs IsFunc x) :
    ∃ e o, tbl[i]? = some (some e) ∧ e.result = some o ∧ (∀ v, HasVal C (OldPlace place sheets) fs x v → Holds o v) ∧
      (o.value ≠ none → ∃ v, HasVal C (OldPlace place sheets) fs x v ∧ Holds o v) := by
  have h50 : 50 ≤ env.bv := by omega
  have hl : SheetLists env.base sheets b := by
    obtain ⟨f, b1, _, h4, h3, _⟩ := parse_ok he hok h
    have hl1 := sheets_items h50 hsh h4
    obtain ⟨os, _, _, _, _, _, rfl⟩ := eof_frame h3
    exact hl1.congr rfl rfl rfl rfl rfl
  obtain ⟨_, hnames⟩ := C44_names env h50 pre post eof he items hok names hn sheets hsh b p h
  have hst : ∀ k x, fs k = some x → OldStoredAs fenv.dec place fenv.bk.nameObjs k x := by
    intro k x hk
    obtain ⟨o, t, rest, h1, h2, h3, h4, h5, h6⟩ := hfs k x hk
    obtain ⟨s, hs, _⟩ := hnames k o h1
    refine ⟨{ o with nameIndex := k, scope := some s }, t, rest, ?_, h2, h3, h4, h5, h6⟩
    rw [hb.names]; exact hs
  have hrb : OldRefBook (OldLocal sheets) fenv := ⟨by rw [hbv]; exact h57, fun sh x y hloc => oldLocal_range hb hl (by omega) hloc⟩
  obtain ⟨hg, hfl⟩ := bookNames_inv (old_vgood_kept hC hrb hst) (by
    intro j e y hj
    rw [List.getElem?_map] at hj
    cases hc : fenv.bk.nameObjs[j]? with
    | none => rw [hc] at hj; cases hj
    | some o => rw [hc] at hj; cases hj) ht
  obtain ⟨o, _, _, h1, h2, h3, _⟩ := hst i x hx
  obtain ⟨e, he⟩ := hfl.2 i ⟨o, h1, h2, h3⟩
  obtain ⟨op, rfl, hop⟩ := hg i e x he hx hf
  exact ⟨_, op, he, rfl, hop.1, fun hv => hop.2 (.inl hv)⟩

end Xlrd
