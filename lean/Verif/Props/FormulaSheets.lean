import Verif.Props.FormulaLeaves
import Verif.Props.Names3
import Verif.Props.ExternOld
import Verif.Spec.FormulaSheets

/-!
# C50: references with sheets and names in the texts of formulas
-/
set_option linter.unusedSimpArgs false

namespace Xlrd
open Spec

/-! ## Sizes of tokens -/

/-- How the code writes the size of a token down. -/
def sizeCode : TokenSize → Int
  | .absent => -2
  | .varying => -1
  | .bytes n => n

/-- **C50** (sizes of tokens).  For every version and every token except array constants the code uses the documented size; other versions
have no table. -/
theorem C50_token_sizes_partial (bv : Nat) :
    (versionColumn bv = none → szdict bv = .error .key) ∧
    ∀ v, versionColumn bv = some v → ∃ tab, szdict bv = .ok tab ∧ tab.length = 64 ∧
      ∀ k < 64, k ≠ 0x20 → tab.getD k (-2) = sizeCode (tokenSize v k) := by
  unfold versionColumn szdict
  by_cases c0 : bv = 20 ∨ bv = 21
  · rw [if_pos c0, if_pos c0]
    exact ⟨(fun h => by cases h), fun v h => by cases h; exact ⟨_, rfl, by decide +kernel, by decide +kernel⟩⟩
  rw [if_neg c0, if_neg c0]
  by_cases c1 : bv = 30
  · rw [if_pos c1, if_pos c1]
    exact ⟨(fun h => by cases h), fun v h => by cases h; exact ⟨_, rfl, by decide +kernel, by decide +kernel⟩⟩
  rw [if_neg c1, if_neg c1]
  by_cases c2 : bv = 40 ∨ bv = 45
  · rw [if_pos c2, if_pos c2]
    exact ⟨(fun h => by cases h), fun v h => by cases h; exact ⟨_, rfl, by decide +kernel, by decide +kernel⟩⟩
  rw [if_neg c2, if_neg c2]
  by_cases c3 : bv = 50 ∨ bv = 70
  · rw [if_pos c3, if_pos c3]
    exact ⟨(fun h => by cases h), fun v h => by cases h; exact ⟨_, rfl, by decide +kernel, by decide +kernel⟩⟩
  rw [if_neg c3, if_neg c3]
  by_cases c4 : bv = 80
  · rw [if_pos c4, if_pos c4]
    exact ⟨(fun h => by cases h), fun v h => by cases h; exact ⟨_, rfl, by decide +kernel, by decide +kernel⟩⟩
  rw [if_neg c4, if_neg c4]
  exact ⟨fun _ => rfl, fun v h => by cases h⟩

/-- **C50** (array constants).  In every version the code takes a token for an array constant to be one byte longer than it is. -/
theorem C50_array_constant_size (bv v : Nat) (hv : versionColumn bv = some v) (tab : List Int) (ht : szdict bv = .ok tab) :
    ∃ n, tokenSize v 0x20 = .bytes n ∧ tab.getD 0x20 (-2) = n + 1 := by
  unfold versionColumn at hv
  unfold szdict at ht
  by_cases c0 : bv = 20 ∨ bv = 21
  · rw [if_pos c0] at hv ht; cases hv; cases ht; exact ⟨7, by decide, by decide⟩
  rw [if_neg c0] at hv ht
  by_cases c1 : bv = 30
  · rw [if_pos c1] at hv ht; cases hv; cases ht; exact ⟨8, by decide, by decide⟩
  rw [if_neg c1] at hv ht
  by_cases c2 : bv = 40 ∨ bv = 45
  · rw [if_pos c2] at hv ht; cases hv; cases ht; exact ⟨8, by decide, by decide⟩
  rw [if_neg c2] at hv ht
  by_cases c3 : bv = 50 ∨ bv = 70
  · rw [if_pos c3] at hv ht; cases hv; cases ht; exact ⟨8, by decide, by decide⟩
  rw [if_neg c3] at hv ht
  by_cases c4 : bv = 80
  · rw [if_pos c4] at hv ht; cases hv; cases ht; exact ⟨8, by decide, by decide⟩
  rw [if_neg c4] at hv; cases hv

/-- **C50** (array constants).  `SUM({…})` has no text: the tokens of a BIFF8 file for the sum of an array constant, whatever the bytes without
a meaning are, end in an AssertionError. -/
theorem C50_array_constant_fails (env : DEnv) (h8 : env.bv = 80) (d : Bytes) (hd : d.length = 7) (post : Bytes) :
    decompile env (0x60 :: d ++ [0x19, 0x10, 0, 0] ++ post) 12 = .error .assertion := by
  match d, hd with
  | [a, b, c, e, f, g, h], _ =>
    unfold decompile
    rw [h8]
    simp only [bind, Except.bind, show szdict 80 = .ok sztab4 from rfl, dLoop, List.cons_append, List.nil_append]
    rw [if_pos (by decide)]
    have s1 : dStep env sztab4 (0x60 :: a :: b :: c :: e :: f :: g :: h :: 0x19 :: 0x10 :: 0 :: 0 :: post) 12 0 [] = .ok ([some {}], 9) := by
      rfl
    have s2 : dStep env sztab4 (0x60 :: a :: b :: c :: e :: f :: g :: h :: 0x19 :: 0x10 :: 0 :: 0 :: post) 12 9 [some {}] = .error .assertion := by
      rfl
    rw [if_neg (by decide), s1]
    simp only [dLoop, bind, Except.bind]
    rw [if_pos (by decide), s2]

/-! ## Words with sheet names -/

theorem bare_chars : ∀ (s w : PyStr), (∀ c ∈ s, BareInFormula c) → readChars (.word w) s = ([], .word (s.reverse ++ w)) := by
  intro s
  induction s with
  | nil => intro w _; rfl
  | cons c s ih =>
    intro w h
    obtain ⟨h1, h2, h3, h4, h5, h6, h7⟩ := h c (List.mem_cons_self ..)
    have hp : ¬ (c = '+' ∨ c = '-') := by rintro (rfl | rfl) <;> cases h1
    have hr : readChar (.word w) c = ([], .word (c :: w)) := by
      simp [readChar, hp, h1, h2, h3, inWord, h4, h5, h6]
    rw [readChars, hr]
    simp only
    rw [ih (c :: w) (fun x hx => h x (List.mem_cons_of_mem _ hx))]
    simp

theorem single_chars : ∀ (s w : PyStr), readChars (.quoted '\'' w) (doubleQuotes s ++ ['\'']) = ([], .word ('\'' :: ((doubleQuotes s).reverse ++ w))) := by
  intro s
  induction s with
  | nil => intro w; simp [doubleQuotes, readChars, readChar]
  | cons c s ih =>
    intro w
    unfold doubleQuotes
    by_cases hc : c = '\''
    · subst hc
      simp only [if_true, List.cons_append]
      have hr : readChar (.quoted '\'' w) '\'' = ([], .word ('\'' :: w)) := rfl
      have hr2 : readChar (.word ('\'' :: w)) '\'' = ([], .quoted '\'' ('\'' :: '\'' :: w)) := by
        simp [readChar, wantsSign_head, symOf, inWord]
      rw [readChars, hr]
      simp only
      rw [readChars, hr2]
      simp only
      rw [ih]
      simp
    · rw [if_neg hc, List.cons_append, readChars]
      have hr : readChar (.quoted '\'' w) c = ([], .quoted '\'' (c :: w)) := by simp [readChar, hc]
      rw [hr]
      simp only
      rw [ih]
      simp

/-- The quoted name of a sheet is read as the beginning of a word. -/
theorem quoteName_word {n : PyStr} (hn : WordName n) : readChars .gap (quoteName n) = ([], .word (quoteName n).reverse) := by
  have hquote : ∀ s : PyStr, readChars .gap ('\'' :: doubleQuotes s ++ ['\'']) = ([], .word ('\'' :: doubleQuotes s ++ ['\'']).reverse) := by
    intro s
    rw [List.cons_append, readChars]
    have hr : readChar .gap '\'' = ([], .quoted '\'' ['\'']) := rfl
    rw [hr]
    simp only
    rw [single_chars]
    simp
  unfold quoteName
  by_cases h1 : '\'' ∈ n
  · rw [if_pos h1]; exact hquote n
  rw [if_neg h1]
  by_cases h2 : ' ' ∈ n
  · rw [if_pos h2]
    have := hquote n
    rwa [doubleQuotes_none n h1] at this
  rw [if_neg h2]
  have hb := (hn.2.resolve_left h1).resolve_left h2
  obtain ⟨c, t, rfl⟩ := List.exists_cons_of_ne_nil hn.1
  obtain ⟨e1, e2, e3, e4, e5, e6, e7⟩ := hb c (List.mem_cons_self ..)
  have hr : readChar .gap c = ([], .word [c]) := by
    simp [readChar, fromGap, e1, e2, e3, inWord, e4, e5, e6]
  rw [readChars, hr]
  simp only
  rw [bare_chars t [c] (fun x hx => hb x (List.mem_cons_of_mem _ hx))]
  simp

theorem isWord_sheet {n s : PyStr} (hn : WordName n) (h0 : s ≠ []) (h : ∀ c ∈ s, wordChar c = true) : IsWord (quoteName n ++ '!' :: s) := by
  have hb : ∀ c ∈ '!' :: s, symOf c = none ∧ c ≠ '<' ∧ c ≠ '>' ∧ c ≠ '"' ∧ c ≠ '\'' ∧ c ≠ '[' := by
    intro c hc
    rcases List.mem_cons.mp hc with rfl | hc
    · decide
    · obtain ⟨e1, e2, e3, e4, e5, e6, _⟩ := wordChar_facts (h c hc)
      exact ⟨e1, e2, e3, e4, e5, e6⟩
  have hch : ∀ (t w : PyStr), (∀ c ∈ t, symOf c = none ∧ c ≠ '<' ∧ c ≠ '>' ∧ c ≠ '"' ∧ c ≠ '\'' ∧ c ≠ '[') →
      readChars (.word w) t = ([], .word (t.reverse ++ w)) := by
    intro t
    induction t with
    | nil => intro w _; rfl
    | cons c t ih =>
      intro w ht
      obtain ⟨h1, h2, h3, h4, h5, h6⟩ := ht c (List.mem_cons_self ..)
      have hp : ¬ (c = '+' ∨ c = '-') := by rintro (rfl | rfl) <;> cases h1
      have hr : readChar (.word w) c = ([], .word (c :: w)) := by
        simp [readChar, hp, h1, h2, h3, inWord, h4, h5, h6]
      rw [readChars, hr]
      simp only
      rw [ih (c :: w) (fun x hx => ht x (List.mem_cons_of_mem _ hx))]
      simp
  refine ⟨by simp, ?_, ?_⟩
  · rw [readChars_append, quoteName_word hn]
    simp only
    rw [hch _ _ hb]
    simp
  · have h0' : s.reverse ≠ [] := by simpa using h0
    obtain ⟨c, t, ht⟩ := List.exists_cons_of_ne_nil h0'
    rw [List.reverse_append, List.reverse_cons, ht, List.cons_append, List.cons_append]
    refine wantsSign_head _ (wordChar_facts (h c ?_)).2.2.2.2.2.2
    rw [← List.mem_reverse, ht]
    exact List.mem_cons_self ..

theorem wordName_clear {n : PyStr} (h : WordName n) : ClearName n := by
  refine ⟨h.1, ?_⟩
  rcases h.2 with h | h | h
  · exact .inl h
  · exact .inr (.inl h)
  · refine .inr (.inr ⟨fun hc => ?_, fun hc => ?_⟩)
    · have := (h _ hc).1; cases this
    · exact (h _ hc).2.2.2.2.2.2 rfl

theorem readSheetCell_of {n s : PyStr} (hn : WordName n) {x : Nat × Bool × Nat × Bool} (h : readMixed s = some x) :
    readSheetCell (quoteName n ++ '!' :: s) = some (n, x) := by
  have hs : readSheets (quoteName n ++ '!' :: s) = some ((n, n), s) := by
    unfold readSheets
    rw [scanSheet_quote n ('!' :: s) (wordName_clear hn) (.inr rfl)]
    rfl
  unfold readSheetCell
  rw [hs]
  simp [h]

/-! ## Sheets of references -/

/-- The bytes `sh` of a token stand for the sheets `x` to `y`, wherever the token is (C46 says which bytes do). -/
def TokenSheets (env : DEnv) (sh : Bytes) (x y : Nat) : Prop :=
  sh.length = (if env.bv ≥ 80 then 2 else 14) ∧ ∀ (data post : Bytes) (p : Nat) (b : UInt8), data.drop p = b :: (sh ++ post) →
    sheets3d env.bv env.bk data (p : Int) = .ok ((x : Int), (y : Int))

/-- In BIFF8 files the token has the number of an entry of the EXTERNSHEET record. -/
theorem tokenSheets_new {env : DEnv} (h8 : 80 ≤ env.bv) {refx x y : Nat} (h16 : refx < 65536) (h : externRange env.bk refx = .ok ((x : Int), (y : Int))) :
    TokenSheets env (le16 refx) x y := by
  refine ⟨by rw [if_pos h8, le16_length], ?_⟩
  intro data post p b hd
  unfold sheets3d
  rw [if_pos h8]
  have := unpackH_at h16 (drop_one hd)
  rw [show ((p + 1 : Nat) : Int) + 2 = (p : Int) + 3 by push_cast; ring, show ((p + 1 : Nat) : Int) = (p : Int) + 1 by push_cast; ring] at this
  rw [this]
  exact h

/-- In older files it has the number of an EXTERNSHEET record and those of the first and the last sheet. -/
theorem tokenSheets_old {env : DEnv} (h5 : env.bv < 80) {k first last x y : Nat} (hk : k < 65536) (hf : first < 65536) (hl : last < 65536) (unused : Bytes)
    (hu : unused.length = 8) (h : externRange57 env.bk (sgn 16 k) (sgn 16 first) (sgn 16 last) = .ok ((x : Int), (y : Int))) :
    TokenSheets env (le16 k ++ unused ++ le16 first ++ le16 last) x y := by
  refine ⟨by rw [if_neg (by omega)]; simp [le16_length, hu], ?_⟩
  intro data post p b hd
  have hp : p ≤ data.length := by
    by_contra hc
    rw [List.drop_eq_nil_of_le (by omega)] at hd
    cases hd
  have := sheets3d_old env.bk h5 k first last hk hf hl unused (data.take p) post hu b
  rw [List.length_take, Nat.min_eq_left hp] at this
  rw [← h, ← this]
  congr 1
  conv_lhs => rw [← List.take_append_drop p data, hd]
  simp

theorem sheet_name {names : List PyStr} {x : Nat} {name : PyStr} (hn : names[x]? = some name) : sheetrange names (x : Int) ((x : Int) + 1) = .ok (quoteName name) := by
  obtain ⟨hx, e⟩ := List.getElem?_eq_some_iff.mp hn
  unfold sheetrange
  rw [quotedsheetname_ok names x hx, e]
  simp only [bind, Except.bind]
  rw [if_neg (by simp)]
  rfl

theorem abs_name (r c : Nat) (hr : r < 65536) (hc : c < 256) : ∃ s, cellnameabs (r : Int) (c : Int) = .ok s ∧ readMixed s = some (r, true, c, true) := by
  obtain ⟨s, hs, hread⟩ := cell_name r c false false hr hc 0 0
  exact ⟨s, hs, hread⟩

theorem abs_adjust (bv r c : Nat) (d : Bool) (br bc : Option Int) :
    adjustFields bv r c false false d br bc = .ok { rowx := r, colx := c, rowRel := false, colRel := false } := by
  unfold adjustFields adjustAddr
  cases d <;> rfl

theorem token_sizes3 {bv : Nat} {tab : List Int} (h : szdict bv = .ok tab) :
    tab.getD (3 + 32) (-2) = (if bv ≥ 80 then 5 else if bv ≥ 50 then 15 else if bv ≥ 30 then 11 else 8) ∧
      (50 ≤ bv → tab.getD (0x19 + 32) (-2) = (if bv ≥ 80 then 7 else 25) ∧ tab.getD (0x1A + 32) (-2) = (if bv ≥ 80 then 7 else 18) ∧
        tab.getD (0x1B + 32) (-2) = (if bv ≥ 80 then 11 else 21)) := by
  unfold szdict at h
  by_cases c0 : bv = 20 ∨ bv = 21
  · rw [if_pos c0] at h; cases h
    rcases c0 with rfl | rfl <;> exact ⟨by decide, by decide⟩
  rw [if_neg c0] at h
  by_cases c1 : bv = 30
  · rw [if_pos c1] at h; cases h; subst c1; exact ⟨by decide, by decide⟩
  rw [if_neg c1] at h
  by_cases c2 : bv = 40 ∨ bv = 45
  · rw [if_pos c2] at h; cases h
    rcases c2 with rfl | rfl <;> exact ⟨by decide, by decide⟩
  rw [if_neg c2] at h
  by_cases c3 : bv = 50 ∨ bv = 70
  · rw [if_pos c3] at h; cases h
    rcases c3 with rfl | rfl <;> exact ⟨by decide, by decide⟩
  rw [if_neg c3] at h
  by_cases c4 : bv = 80
  · rw [if_pos c4] at h; cases h; subst c4; exact ⟨by decide, by decide⟩
  rw [if_neg c4] at h; cases h

theorem token_size_n {bv : Nat} {tab : List Int} (h : szdict bv = .ok tab) : tab.getD 44 (-2) = (if bv ≥ 80 then 5 else 4) := by
  unfold szdict at h
  by_cases c0 : bv = 20 ∨ bv = 21
  · rw [if_pos c0] at h; cases h; rw [if_neg (by omega)]; rfl
  rw [if_neg c0] at h
  by_cases c1 : bv = 30
  · rw [if_pos c1] at h; cases h; rw [if_neg (by omega)]; rfl
  rw [if_neg c1] at h
  by_cases c2 : bv = 40 ∨ bv = 45
  · rw [if_pos c2] at h; cases h; rw [if_neg (by omega)]; rfl
  rw [if_neg c2] at h
  by_cases c3 : bv = 50 ∨ bv = 70
  · rw [if_pos c3] at h; cases h; rw [if_neg (by omega)]; rfl
  rw [if_neg c3] at h
  by_cases c4 : bv = 80
  · rw [if_pos c4] at h; cases h; rw [if_pos (by omega)]; rfl
  rw [if_neg c4] at h; cases h

/-- A leaf from what its token does. -/
theorem leafRef_of {env : DEnv} {tab : List Int} {tok : Bytes} {w : PyStr} (hw : IsWord w) (h0 : tok ≠ [])
    (key : ∀ (data post : Bytes) (p n : Nat) (stk : List (Option DOpnd)), data.drop p = tok ++ post →
      ∃ k, k ≠ .err ∧ dStep env tab data n (p : Int) stk = .ok (some { kind := k, rank := 90, text := w } :: stk, (p : Int) + tok.length)) :
    LeafRef env tab tok w := by
  refine ⟨⟨hw, h0, ?_⟩, ?_⟩
  · intro data post p n stk h
    obtain ⟨k, _, hk⟩ := key data post p n stk h
    exact ⟨k, hk⟩
  · intro data post p n stk h o x ho
    obtain ⟨k, h1, hk⟩ := key data post p n stk h
    rw [hk] at ho
    cases ho
    exact h1

/-- What a token of a cell with a sheet does. -/
theorem ref3d_step {env : DEnv} {tab : List Int} (ht : szdict env.bv = .ok tab) (h50 : 50 ≤ env.bv) (cls : Cls) {sh : Bytes} {x y : Nat}
    (hs : TokenSheets env sh x y) {r c : Nat} {rrel crel : Bool} (hr : r < rowCount env.bv) (hc : c < 256) {a : Addr}
    (ha : adjustFields env.bv r c rrel crel env.reldelta env.browx env.bcolx = .ok a) {o : Opnd}
    (ho : ref3dOpnd env.bk 0 (mkRef3d ((x : Int), (y : Int)) a a) (a.rowRel || a.colRel) env.browx env.bcolx env.r1c1 = .ok o)
    {data post : Bytes} {p n : Nat} {stk : List (Option DOpnd)}
    (h : data.drop p = UInt8.ofNat (cls.code + 0x1A) :: (sh ++ encAddrRaw env.bv r c rrel crel) ++ post) :
    dStep env tab data n (p : Int) stk = .ok (some { kind := o.kind, rank := o.rank, text := o.text } :: stk,
      (p : Int) + (UInt8.ofNat (cls.code + 0x1A) :: (sh ++ encAddrRaw env.bv r c rrel crel)).length) := by
  rw [List.cons_append, List.append_assoc] at h
  have hd : data.drop (p + 1 + sh.length) = encAddrRaw env.bv r c rrel crel ++ post := by
    rw [← List.drop_drop, drop_one h, List.drop_left]
  have hg := getCellAddr_raw env.bv r c rrel crel env.reldelta env.browx env.bcolx hr hc hd
  rw [ha] at hg
  have hsh := hs.2 data (encAddrRaw env.bv r c rrel crel ++ post) p _ h
  obtain ⟨c1, c2⟩ := cls_byte cls 0x1A (by decide)
  have hsz : tab.getD (0x1A + 32) (-2) = ((1 + (sh ++ encAddrRaw env.bv r c rrel crel).length : Nat) : Int) := by
    rw [List.length_append, encAddrRaw_length, hs.1, ((token_sizes3 ht).2 h50).2.1]
    by_cases hv : env.bv ≥ 80 <;> simp [hv]
  rw [step_class h c1 c2 (by rw [hsz]; omega) (s' := some { kind := o.kind, rank := o.rank, text := o.text } :: stk) ?_]
  · rw [hsz]
    refine congrArg Except.ok (Prod.ext rfl ?_)
    simp only [List.length_cons]
    push_cast; ring
  · have hpos : (if env.bv ≥ 80 then (p : Int) + 3 else (p : Int) + 15) = ((p + 1 + sh.length : Nat) : Int) := by
      rw [hs.1]
      by_cases hv : env.bv ≥ 80 <;> simp [hv] <;> ring
    show (do let o ← dRef3d env data (p : Int); pure (some o :: stk)) = _
    unfold dRef3d
    rw [hpos, hg, hsh]
    simp only [bind, Except.bind]
    rw [ho]
    rfl

/-- **C50** (cells of other sheets).  The word for an absolute reference to a cell of a sheet, read back, is that sheet and that cell. -/
theorem C50_leaf_sheet_cell (env : DEnv) (tab : List Int) (ht : szdict env.bv = .ok tab) (h50 : 50 ≤ env.bv) (cls : Cls) (sh : Bytes) (x : Nat)
    (hs : TokenSheets env sh x x) (name : PyStr) (hn : env.bk.sheetNames[x]? = some name) (hw : WordName name) (r c : Nat)
    (hr : r < rowCount env.bv) (hc : c < 256) :
    ∃ w, LeafRef env tab (UInt8.ofNat (cls.code + 0x1A) :: (sh ++ encAddrRaw env.bv r c false false)) w ∧
      readSheetCell w = some (name, r, true, c, true) := by
  obtain ⟨s, hcell, hread⟩ := abs_name r c (Nat.lt_of_lt_of_le hr (rowCount_le _)) hc
  obtain ⟨hne, hch⟩ := readMixed_chars hread
  refine ⟨quoteName name ++ '!' :: s, leafRef_of (isWord_sheet hw hne hch) (by simp) ?_, readSheetCell_of hw hread⟩
  intro data post p n stk h
  refine ⟨.ref, by decide, ?_⟩
  exact ref3d_step ht h50 cls hs hr hc (abs_adjust ..) (o := { kind := .ref, value := none, rank := 90, text := quoteName name ++ '!' :: s }) (by
    simp only [ref3dOpnd, mkRef3d, rangename3d, rangename2d, sheet_name hn, hcell, bind, Except.bind, pure, Except.pure, Bool.or_false, Bool.false_eq_true,
      if_false, and_self, if_true, Option.getD_some]
    rfl) h

/-- **C50** (cells of other sheets).  A reference to a cell of a sheet with a relative coordinate, in the formula of a cell, is shown as the area
from that cell to that cell. -/
theorem C50_leaf_sheet_cell_relative (env : DEnv) (tab : List Int) (ht : szdict env.bv = .ok tab) (h50 : 50 ≤ env.bv) (cls : Cls) (sh : Bytes)
    (x : Nat) (hs : TokenSheets env sh x x) (name : PyStr) (hn : env.bk.sheetNames[x]? = some name) (hw : WordName name) (r c : Nat) (rrel crel : Bool)
    (hrel : rrel = true ∨ crel = true) (hr : r < rowCount env.bv) (hc : c < 256) (br bc : Nat) (hbr : env.browx = some (br : Int))
    (hbc : env.bcolx = some (bc : Int)) (hd : env.reldelta = false) (h1 : env.r1c1 = false) :
    ∃ w w', AreaOk env tab (UInt8.ofNat (cls.code + 0x1A) :: (sh ++ encAddrRaw env.bv r c rrel crel)) w w' ∧
      readSheetCell w = some (name, r, !rrel, c, !crel) ∧ readMixed w' = some (r, !rrel, c, !crel) := by
  obtain ⟨s, hcell, hread⟩ := cell_name r c rrel crel (Nat.lt_of_lt_of_le hr (rowCount_le _)) hc br bc
  obtain ⟨hne, hch⟩ := readMixed_chars hread
  refine ⟨quoteName name ++ '!' :: s, s, ⟨isWord_sheet hw hne hch, isWord_of_chars hne hch, by simp, ?_⟩, readSheetCell_of hw hread, hread⟩
  intro data post p n stk h
  refine ⟨.relref, by decide, ?_⟩
  have hor : (rrel || crel) = true := by rcases hrel with rfl | rfl <;> simp
  have hq : quoteName name ≠ [] := by
    unfold quoteName
    by_cases e1 : '\'' ∈ name
    · rw [if_pos e1]; simp
    · rw [if_neg e1]
      by_cases e2 : ' ' ∈ name
      · rw [if_pos e2]; simp
      · rw [if_neg e2]; exact hw.1
  have e : ∀ y : Int, y + 1 - 1 = y := by intro y; ring
  exact ref3d_step ht h50 cls hs hr hc (by rw [hbr, hbc, hd]; exact adjust_base ..)
    (o := { kind := .relref, value := none, rank := 90, text := (quoteName name ++ '!' :: s) ++ ':' :: s }) (by
    simp only [ref3dOpnd, mkRef3d, hor, if_true, hbr, hbc, h1, rangename3drel, sheetrangerel, List.getD_cons_zero, List.getD_cons_succ, Bool.not_false,
      Bool.and_self, sheet_name hn, bind, Except.bind, rangename2drel, Option.isNone_some, Bool.and_false, Bool.or_false, e, hcell, pure, Except.pure, if_neg hq]
    simp [LEAF_RANK]) h

/-- What a token of an area with a sheet does. -/
theorem area3d_step {env : DEnv} {tab : List Int} (ht : szdict env.bv = .ok tab) (h50 : 50 ≤ env.bv) (cls : Cls) {sh : Bytes} {x y : Nat}
    (hs : TokenSheets env sh x y) {r c r' c' : Nat} (hr : r < rowCount env.bv) (hc : c < 256) (hr' : r' < rowCount env.bv) (hc' : c' < 256) {t : PyStr}
    (ho : rangename3d env.bk.sheetNames (x : Int) ((y : Int) + 1) r ((r' : Int) + 1) c ((c' : Int) + 1) = .ok t)
    {data post : Bytes} {p n : Nat} {stk : List (Option DOpnd)}
    (h : data.drop p = UInt8.ofNat (cls.code + 0x1B) :: (sh ++ encAreaRaw env.bv r c false false r' c' false false) ++ post) :
    dStep env tab data n (p : Int) stk = .ok (some { kind := .ref, rank := 90, text := t } :: stk,
      (p : Int) + (UInt8.ofNat (cls.code + 0x1B) :: (sh ++ encAreaRaw env.bv r c false false r' c' false false)).length) := by
  rw [List.cons_append, List.append_assoc] at h
  have hd : data.drop (p + 1 + sh.length) = encAreaRaw env.bv r c false false r' c' false false ++ post := by
    rw [← List.drop_drop, drop_one h, List.drop_left]
  have hg := getCellRangeAddr_raw env.bv r c r' c' false false false false env.reldelta none none hr hc hr' hc' hd
  rw [abs_adjust, abs_adjust] at hg
  have hsh := hs.2 data (encAreaRaw env.bv r c false false r' c' false false ++ post) p _ h
  obtain ⟨c1, c2⟩ := cls_byte cls 0x1B (by decide)
  have hsz : tab.getD (0x1B + 32) (-2) = ((1 + (sh ++ encAreaRaw env.bv r c false false r' c' false false).length : Nat) : Int) := by
    rw [List.length_append, encAreaRaw_length, hs.1, ((token_sizes3 ht).2 h50).2.2]
    by_cases hv : env.bv ≥ 80 <;> simp [hv]
  rw [step_class h c1 c2 (by rw [hsz]; omega) (s' := some { kind := .ref, rank := 90, text := t } :: stk) ?_]
  · rw [hsz]
    refine congrArg Except.ok (Prod.ext rfl ?_)
    simp only [List.length_cons]
    push_cast; ring
  · have hpos : (if env.bv ≥ 80 then (p : Int) + 3 else (p : Int) + 15) = ((p + 1 + sh.length : Nat) : Int) := by
      rw [hs.1]
      by_cases hv : env.bv ≥ 80 <;> simp [hv] <;> ring
    show (do let o ← dArea3d env data (p : Int); pure (some o :: stk)) = _
    unfold dArea3d
    rw [hpos, hg, hsh]
    simp only [bind, Except.bind, pure, Except.pure, ref3dOpnd, mkRef3d, Bool.or_false, Bool.false_eq_true, if_false, ho]

/-- **C50** (areas of other sheets).  The text for an absolute reference to an area of a sheet is the sheet and the first cell, a colon, and the last
cell; if the area is one cell, the text is the word for that cell. -/
theorem C50_leaf_sheet_area (env : DEnv) (tab : List Int) (ht : szdict env.bv = .ok tab) (h50 : 50 ≤ env.bv) (cls : Cls) (sh : Bytes) (x : Nat)
    (hs : TokenSheets env sh x x) (name : PyStr) (hn : env.bk.sheetNames[x]? = some name) (hw : WordName name) (r c r' c' : Nat)
    (hr : r < rowCount env.bv) (hc : c < 256) (hr' : r' < rowCount env.bv) (hc' : c' < 256) :
    ((r', c') ≠ (r, c) → ∃ w w', AreaOk env tab (UInt8.ofNat (cls.code + 0x1B) :: (sh ++ encAreaRaw env.bv r c false false r' c' false false)) w w' ∧
      readSheetCell w = some (name, r, true, c, true) ∧ readMixed w' = some (r', true, c', true)) ∧
    ((r', c') = (r, c) → ∃ w, LeafRef env tab (UInt8.ofNat (cls.code + 0x1B) :: (sh ++ encAreaRaw env.bv r c false false r' c' false false)) w ∧
      readSheetCell w = some (name, r, true, c, true)) := by
  obtain ⟨s, hcell, hread⟩ := abs_name r c (Nat.lt_of_lt_of_le hr (rowCount_le _)) hc
  obtain ⟨hne, hch⟩ := readMixed_chars hread
  obtain ⟨s', hcell', hread'⟩ := abs_name r' c' (Nat.lt_of_lt_of_le hr' (rowCount_le _)) hc'
  obtain ⟨hne', hch'⟩ := readMixed_chars hread'
  have e : ∀ y : Int, y + 1 - 1 = y := by intro y; ring
  constructor
  · intro hdiff
    refine ⟨quoteName name ++ '!' :: s, s', ⟨isWord_sheet hw hne hch, isWord_of_chars hne' hch', by simp, ?_⟩, readSheetCell_of hw hread, hread'⟩
    intro data post p n stk h
    refine ⟨.ref, by decide, ?_⟩
    refine area3d_step ht h50 cls hs hr hc hr' hc' (t := (quoteName name ++ '!' :: s) ++ ':' :: s') ?_ h
    have hno : ¬ ((r' : Int) + 1 = (r : Int) + 1 ∧ (c' : Int) + 1 = (c : Int) + 1) := by
      rintro ⟨h1, h2⟩
      exact hdiff (Prod.ext (by simpa using h1) (by simpa using h2))
    unfold rangename3d rangename2d
    rw [sheet_name hn]
    simp only [bind, Except.bind, Bool.false_eq_true, if_false, if_neg hno, e, hcell, hcell', pure, Except.pure]
    simp
  · intro heq
    cases heq
    refine ⟨quoteName name ++ '!' :: s, leafRef_of (isWord_sheet hw hne hch) (by simp) ?_, readSheetCell_of hw hread⟩
    intro data post p n stk h
    refine ⟨.ref, by decide, ?_⟩
    refine area3d_step ht h50 cls hs hr hc hr' hc' (t := quoteName name ++ '!' :: s) ?_ h
    unfold rangename3d rangename2d
    rw [sheet_name hn]
    simp [bind, Except.bind, hcell, pure, Except.pure]

/-- **C50** (areas on sheets).  The text for an absolute reference to an area on a range of sheets, read back, is those sheets and that area. -/
theorem C50_sheets_area_text (env : DEnv) (tab : List Int) (ht : szdict env.bv = .ok tab) (h50 : 50 ≤ env.bv) (cls : Cls) (sh : Bytes) (x y : Nat)
    (hs : TokenSheets env sh x y) (hxy : x ≤ y) (n1 n2 : PyStr) (h1 : env.bk.sheetNames[x]? = some n1) (h2 : env.bk.sheetNames[y]? = some n2)
    (hc1 : ClearName n1) (hc2 : ClearName n2) (r c r' c' : Nat) (hr : r ≤ r') (hc : c ≤ c') (hr' : r' < rowCount env.bv) (hc' : c' < 256) :
    ∃ t, read3d t = some ((n1, n2), (r, r' + 1, c, c' + 1)) ∧ ∀ (data post : Bytes) (p n : Nat) (stk : List (Option DOpnd)),
      data.drop p = UInt8.ofNat (cls.code + 0x1B) :: (sh ++ encAreaRaw env.bv r c false false r' c' false false) ++ post →
      dStep env tab data n (p : Int) stk = .ok (some { kind := .ref, rank := 90, text := t } :: stk,
        (p : Int) + (UInt8.ofNat (cls.code + 0x1B) :: (sh ++ encAreaRaw env.bv r c false false r' c' false false)).length) := by
  obtain ⟨hx, e1⟩ := List.getElem?_eq_some_iff.mp h1
  obtain ⟨hy, e2⟩ := List.getElem?_eq_some_iff.mp h2
  obtain ⟨t, ht1, ht2⟩ := C69_rangename3d_reads_back_partial env.bk.sheetNames x (y + 1) r (r' + 1) c (c' + 1) (by omega) (by omega)
    (by rw [e1]; exact hc1) (by simp only [Nat.add_sub_cancel]; rw [e2]; exact hc2) (by omega) (by omega) (by omega)
  simp only [Nat.add_sub_cancel, e1, e2] at ht2
  refine ⟨t, ht2, ?_⟩
  intro data post p n stk h
  exact area3d_step ht h50 cls hs (by omega) (by omega) hr' hc' (by push_cast at ht1; exact ht1) h

/-- The same for a cell on a range of sheets. -/
theorem C50_sheets_cell_text (env : DEnv) (tab : List Int) (ht : szdict env.bv = .ok tab) (h50 : 50 ≤ env.bv) (cls : Cls) (sh : Bytes) (x y : Nat)
    (hs : TokenSheets env sh x y) (hxy : x ≤ y) (n1 n2 : PyStr) (h1 : env.bk.sheetNames[x]? = some n1) (h2 : env.bk.sheetNames[y]? = some n2)
    (hc1 : ClearName n1) (hc2 : ClearName n2) (r c : Nat) (hr : r < rowCount env.bv) (hc : c < 256) :
    ∃ t, read3d t = some ((n1, n2), (r, r + 1, c, c + 1)) ∧ ∀ (data post : Bytes) (p n : Nat) (stk : List (Option DOpnd)),
      data.drop p = UInt8.ofNat (cls.code + 0x1A) :: (sh ++ encAddrRaw env.bv r c false false) ++ post →
      dStep env tab data n (p : Int) stk = .ok (some { kind := .ref, rank := 90, text := t } :: stk,
        (p : Int) + (UInt8.ofNat (cls.code + 0x1A) :: (sh ++ encAddrRaw env.bv r c false false)).length) := by
  obtain ⟨hx, e1⟩ := List.getElem?_eq_some_iff.mp h1
  obtain ⟨hy, e2⟩ := List.getElem?_eq_some_iff.mp h2
  obtain ⟨t, ht1, ht2⟩ := C69_rangename3d_reads_back_partial env.bk.sheetNames x (y + 1) r (r + 1) c (c + 1) (by omega) (by omega)
    (by rw [e1]; exact hc1) (by simp only [Nat.add_sub_cancel]; rw [e2]; exact hc2) (by omega) (by omega) (by omega)
  simp only [Nat.add_sub_cancel, e1, e2] at ht2
  refine ⟨t, ht2, ?_⟩
  intro data post p n stk h
  refine ref3d_step ht h50 cls hs hr hc (abs_adjust ..) (o := { kind := .ref, value := none, rank := 90, text := t }) ?_ h
  push_cast at ht1
  simp only [ref3dOpnd, mkRef3d, Bool.or_false, Bool.false_eq_true, if_false, ht1, bind, Except.bind, pure, Except.pure]
  rfl

/-- **C50** (areas of other sheets).  In the formula of a cell, a reference to an area of a sheet with a relative coordinate has no text: the code
leaves the base cell out when it reads the addresses, and fails with a TypeError. -/
theorem C50_relative_sheet_area_fails (env : DEnv) (tab : List Int) (cls : Cls) (sh : Bytes)
    (hlen : sh.length = (if env.bv ≥ 80 then 2 else 14)) (r c r' c' : Nat) (rrel crel rrel' crel' : Bool)
    (hrel : rrel = true ∨ crel = true ∨ rrel' = true ∨ crel' = true) (hr : r < rowCount env.bv) (hc : c < 256) (hr' : r' < rowCount env.bv) (hc' : c' < 256)
    (ht : szdict env.bv = .ok tab) (h50 : 50 ≤ env.bv) (hd : env.reldelta = false) (data post : Bytes) (p n : Nat) (stk : List (Option DOpnd))
    (h : data.drop p = UInt8.ofNat (cls.code + 0x1B) :: (sh ++ encAreaRaw env.bv r c rrel crel r' c' rrel' crel') ++ post) :
    dStep env tab data n (p : Int) stk = .error .type := by
  rw [List.cons_append, List.append_assoc] at h
  have hdr : data.drop (p + 1 + sh.length) = encAreaRaw env.bv r c rrel crel r' c' rrel' crel' ++ post := by
    rw [← List.drop_drop, drop_one h, List.drop_left]
  have hg := getCellRangeAddr_raw env.bv r c r' c' rrel crel rrel' crel' false none none hr hc hr' hc' hdr
  have hg' : getCellRangeAddr data ((p + 1 + sh.length : Nat) : Int) env.bv false none none = .error .type := by
    rw [hg]
    unfold adjustFields adjustAddr subBase
    cases rrel <;> cases crel <;> cases rrel' <;> cases crel' <;> first | rfl | (simp at hrel)
  have hpos : (if env.bv ≥ 80 then (p : Int) + 3 else (p : Int) + 15) = ((p + 1 + sh.length : Nat) : Int) := by
    rw [hlen]
    by_cases hv : env.bv ≥ 80 <;> simp [hv] <;> ring
  obtain ⟨c1, c2⟩ := cls_byte cls 0x1B (by decide)
  have hfail : dClass env data (p : Int) 0x1B stk = .error .type := by
    show (do let o ← dArea3d env data (p : Int); pure (some o :: stk)) = _
    unfold dArea3d
    rw [hpos, hd, hg']
    rfl
  have hsz := ((token_sizes3 ht).2 h50).2.2
  unfold dStep
  rw [byteAt_at h]
  simp only [bind, Except.bind]
  rw [c1]
  simp only [if_neg c2]
  rw [if_neg (by rw [hsz]; by_cases hv : env.bv ≥ 80 <;> simp [hv]), hfail]

/-! ## Shared formulas -/

/-- **C50** (shared formulas).  In a shared formula relative coordinates are stored as offsets; the word for a cell, read back, is the cell that the
formula in row `br`, column `bc` refers to. -/
theorem C50_leaf_shared_cell (env : DEnv) (tab : List Int) (ht : szdict env.bv = .ok tab) (cls : Cls) (code : Nat) (hcode : code = 0x04 ∨ code = 0x0C)
    (row col : Coord) (h : AddrFits env.bv row col) (br bc : Nat) (hbr : env.browx = some (br : Int)) (hbc : env.bcolx = some (bc : Int))
    (hd : env.reldelta = true) (h1 : env.r1c1 = false) :
    ∃ w, LeafRef env tab (UInt8.ofNat (cls.code + code) :: encAddr env.bv row col) w ∧
      readMixed w = some (row.at 65536 br, !row.isRel, col.at 256 bc, !col.isRel) := by
  obtain ⟨s, hs, hread⟩ := C56_cellnamerel_a1_reads_back row.num col.num br bc row.isRel col.isRel
    (by cases row <;> simp [Coord.isRel, Coord.num])
    (by
      have := h.2
      cases col <;> simp [Coord.isRel, Coord.num, Coord.Fits] at this ⊢; omega)
  have hread' : readMixed s = some (row.at 65536 br, !row.isRel, col.at 256 bc, !col.isRel) := by
    rw [hread]
    cases row <;> cases col <;> simp [Coord.isRel, Coord.num, Coord.at]
  obtain ⟨hne, hch⟩ := readMixed_chars hread
  refine ⟨s, leafRef_of (isWord_of_chars hne hch) (by simp) ?_, hread'⟩
  intro data post p n stk hp
  rw [List.cons_append] at hp
  have hg := getCellAddr_raw env.bv (row.field (rowCount env.bv)) (col.field 256) row.isRel col.isRel true (some (br : Int)) (some (bc : Int))
    (coord_field_lt (rowCount_pos env.bv) h.1) (coord_field_lt (by omega) h.2) (rest := post) (data := data) (p := p + 1) (drop_one hp)
  rw [adjust_offsets env.bv row col h] at hg
  have hlen : (encAddr env.bv row col).length = if env.bv ≥ 80 then 4 else 3 := encAddrRaw_length ..
  have hlt : code < 32 := by rcases hcode with rfl | rfl <;> decide
  obtain ⟨c1, c2⟩ := cls_byte cls code hlt
  have hsz : tab.getD (code + 32) (-2) = ((1 + (encAddr env.bv row col).length : Nat) : Int) := by
    rw [hlen]
    rcases hcode with rfl | rfl
    · rw [show 4 + 32 = 36 from rfl, (token_sizes2 ht).2.2.2.2.2.1]
      by_cases hv : env.bv ≥ 80 <;> simp [hv]
    · rw [show 0x0C + 32 = 44 from rfl, token_size_n ht]
      by_cases hv : env.bv ≥ 80 <;> simp [hv]
  refine ⟨if row.isRel || col.isRel then .relref else .ref, by cases row.isRel <;> cases col.isRel <;> decide, ?_⟩
  rw [step_class hp c1 c2 (by rw [hsz]; omega)
    (s' := some { kind := if row.isRel || col.isRel then .relref else .ref, rank := 90, text := s } :: stk) ?_]
  · rw [hsz]
    refine congrArg Except.ok (Prod.ext rfl ?_)
    simp only [List.length_cons]
    push_cast; ring
  · have hcl : dClass env data (p : Int) code stk = (do let o ← dRef env data (p : Int); pure (some o :: stk)) := by
      rcases hcode with rfl | rfl <;> rfl
    rw [hcl]
    unfold dRef
    push_cast at hg
    rw [hbr, hbc, hd, h1, hg]
    simp only [bind, Except.bind, addrOf]
    rw [hs]
    rfl

/-- **C50** (shared formulas).  A formula that is only a reference to a shared formula or to an array formula is shown as that, with the row and the
column of the first cell. -/
theorem C50_shared_formula_text (env : DEnv) (tab : List Int) (ht : szdict env.bv = .ok tab) (r c : Nat) (hr : r < 65536)
    (hc : c < if env.bv ≥ 30 then 65536 else 256) (data : Bytes)
    (hdata : data = 0x01 :: (le16 r ++ if env.bv ≥ 30 then le16 c else [UInt8.ofNat c])) :
    decompile env data data.length = .ok (some ("SHARED FMLA at rowx=".toList ++ natDec r ++ " colx=".toList ++ natDec c)) := by
  have hsz : tab.getD 1 (-2) = if env.bv ≥ 30 then 5 else 4 := by
    unfold szdict at ht
    by_cases c0 : env.bv = 20 ∨ env.bv = 21
    · rw [if_pos c0] at ht; cases ht; rw [if_neg (by omega)]; rfl
    rw [if_neg c0] at ht
    by_cases c1 : env.bv = 30
    · rw [if_pos c1] at ht; cases ht; rw [if_pos (by omega)]; rfl
    rw [if_neg c1] at ht
    by_cases c2 : env.bv = 40 ∨ env.bv = 45
    · rw [if_pos c2] at ht; cases ht; rw [if_pos (by omega)]; rfl
    rw [if_neg c2] at ht
    by_cases c3 : env.bv = 50 ∨ env.bv = 70
    · rw [if_pos c3] at ht; cases ht; rw [if_pos (by omega)]; rfl
    rw [if_neg c3] at ht
    by_cases c4 : env.bv = 80
    · rw [if_pos c4] at ht; cases ht; rw [if_pos (by omega)]; rfl
    rw [if_neg c4] at ht; cases ht
  have hlen : data.length = if env.bv ≥ 30 then 5 else 4 := by
    rw [hdata]
    by_cases hv : env.bv ≥ 30 <;> simp [hv, le16_length]
  have hfr : fld data 1 2 = r := by
    rw [hdata]
    show fld (le16 r ++ _) 0 2 = r
    rw [fld_head _ hr]
  have hstep : dStep env tab data data.length 0 [] =
      .ok ([some { rank := 90, text := "SHARED FMLA at rowx=".toList ++ natDec r ++ " colx=".toList ++ natDec c }], (data.length : Int)) := by
    have h0 : data.drop 0 = 0x01 :: (le16 r ++ if env.bv ≥ 30 then le16 c else [UInt8.ofNat c]) := by rw [hdata]; rfl
    have hz : ((data.length : Nat) : Int) = tab.getD 1 (-2) := by rw [hsz, hlen]; by_cases hv : env.bv ≥ 30 <;> simp [hv]
    have := step_plain (env := env) (tab := tab) (n := data.length) (stk := []) (z := tab.getD 1 (-2)) h0 (c := 1) rfl (by decide)
      (by rw [hsz]; by_cases hv : env.bv ≥ 30 <;> simp [hv])
      (s' := [some { rank := 90, text := "SHARED FMLA at rowx=".toList ++ natDec r ++ " colx=".toList ++ natDec c }]) (by
        unfold dPlain
        rw [if_pos (by decide)]
        unfold dExp
        rw [show pyAssert (decide (((0 : Nat) : Int) = 0 ∧ (data.length : Int) = tab.getD 1 (-2) ∧ ([] : List (Option DOpnd)) = [])) = .ok () by
          rw [hz]; simp [pyAssert]]
        simp only [bind, Except.bind]
        by_cases hv : env.bv ≥ 30
        · rw [if_pos hv] at hlen hc hdata
          have hfc : fld data 3 2 = c := by
            rw [hdata]
            show fld (le16 c) 0 2 = c
            rw [show le16 c = le16 c ++ [] by simp, fld_head _ hc]
          rw [if_pos hv, unpackN_ok hlen]
          simp only
          rw [if_pos hv, hfr, hfc]
          rfl
        · rw [if_neg hv] at hlen hc hdata
          have hfc : fld data 3 1 = c := by
            rw [hdata]
            show fld [UInt8.ofNat c] 0 1 = c
            simp [fld, le]
            omega
          rw [if_neg hv, unpackN_ok hlen]
          simp only
          rw [if_neg hv, hfr, hfc]
          rfl) (by rw [hsz]; by_cases hv : env.bv ≥ 30 <;> simp [hv])
    rw [hz]
    simpa using this
  have hpos : 0 < data.length := by rw [hlen]; by_cases hv : env.bv ≥ 30 <;> simp [hv]
  unfold decompile
  rw [ht]
  simp only [bind, Except.bind]
  rw [if_neg (by omega)]
  obtain ⟨m, hm⟩ : ∃ m, data.length = m + 1 := ⟨data.length - 1, by omega⟩
  conv_lhs => rw [show dLoop env tab data data.length data.length [] 0 =
    .ok [some { rank := 90, text := "SHARED FMLA at rowx=".toList ++ natDec r ++ " colx=".toList ++ natDec c }] by
      conv_lhs => arg 5; rw [hm]
      rw [dLoop, if_pos (by omega), hstep]
      simp only [bind, Except.bind]
      cases m with
      | zero => rw [dLoop, if_neg (by omega)]
      | succ m => rw [dLoop, if_neg (by omega)]]
  rfl

/-! ## Names -/

/-- The text for a defined name: the name, and for a name of one sheet the name of that sheet before it. -/
def NameShows (bk : Book) (k : Nat) (w : PyStr) : Prop :=
  ∃ o, bk.nameObjs[k]? = some o ∧
    ((o.scope = some (-1) ∧ w = o.name) ∨
     ∃ (s : Nat) (sheet : PyStr), o.scope = some (s : Int) ∧ bk.sheetNames[s]? = some sheet ∧ w = sheet ++ '!' :: o.name)

theorem idx_at {α : Type} {l : List α} {k : Nat} {a : α} (h : l[k]? = some a) : idx l (k : Int) = .ok a := by
  unfold idx
  simp [show ¬ ((k : Int) < 0) by omega, h]

theorem nameShown_of {bk : Book} {k : Nat} {w : PyStr} (h : NameShows bk k w) :
    ∃ o, idx bk.nameObjs (k : Int) = .ok o ∧ nameShown bk o = .ok w := by
  obtain ⟨o, ho, hw⟩ := h
  refine ⟨o, idx_at ho, ?_⟩
  unfold nameShown
  rcases hw with ⟨h1, rfl⟩ | ⟨s, sheet, h1, h2, rfl⟩
  · rw [if_pos h1]
  · rw [if_neg (by rw [h1]; simp), h1]
    simp only [bind, Except.bind, idx_at h2]
    rfl

/-- **C50** (names).  A token for a defined name is shown as that name. -/
theorem C50_leaf_name (env : DEnv) (tab : List Int) (ht : szdict env.bv = .ok tab) (cls : Cls) (k : Nat) (hk : k + 1 < 65536) (unused : Bytes)
    (hu : unused.length = if env.bv ≥ 80 then 2 else if env.bv ≥ 50 then 12 else if env.bv ≥ 30 then 8 else 5) (w : PyStr) (hw : NameShows env.bk k w)
    (hword : IsWord w) : LeafRef env tab (UInt8.ofNat (cls.code + 3) :: (le16 (k + 1) ++ unused)) w := by
  obtain ⟨o, ho1, ho2⟩ := nameShown_of hw
  refine leafRef_of hword (by simp) ?_
  intro data post p n stk h
  refine ⟨.unk, by decide, ?_⟩
  rw [List.cons_append, List.append_assoc] at h
  obtain ⟨c1, c2⟩ := cls_byte cls 3 (by decide)
  have hsz : tab.getD (3 + 32) (-2) = ((1 + (le16 (k + 1) ++ unused).length : Nat) : Int) := by
    rw [(token_sizes3 ht).1, List.length_append, le16_length, hu]
    by_cases h8 : env.bv ≥ 80
    · simp [h8]
    · by_cases h5 : env.bv ≥ 50
      · simp [h8, h5]
      · by_cases h3 : env.bv ≥ 30 <;> simp [h8, h5, h3]
  rw [step_class h c1 c2 (by rw [hsz]; omega) (s' := some { kind := .unk, rank := 90, text := w } :: stk) ?_]
  · rw [hsz]
    refine congrArg Except.ok (Prod.ext rfl ?_)
    simp only [List.length_cons]
    push_cast; ring
  · show (do let o ← dName env data (p : Int); pure (some o :: stk)) = _
    have hn := unpackH_at hk (drop_one h)
    rw [show ((p + 1 : Nat) : Int) + 2 = (p : Int) + 3 by push_cast; ring, show ((p + 1 : Nat) : Int) = (p : Int) + 1 by push_cast; ring] at hn
    unfold dName
    rw [hn]
    simp only [bind, Except.bind]
    rw [show ((k + 1 : Nat) : Int) - 1 = (k : Int) by push_cast; ring, ho1]
    simp only
    rw [ho2]
    rfl

/-- What a token of an external name does in a BIFF8 file. -/
theorem namex_step {env : DEnv} {tab : List Int} (ht : szdict env.bv = .ok tab) (h8 : 80 ≤ env.bv) (cls : Cls) {refx k : Nat} (hx : refx < 65536)
    (hk : k + 1 < 65536) (unused : Bytes) (hu : unused.length = 2) {o : DOpnd}
    (ho : (do
      let s ← externRange env.bk refx
      if s.1 = -5 then do
        let n ← idx env.bk.addinFuncNames (k : Int)
        pure { kind := .strg, rank := LEAF_RANK, text := strgText n }
      else if s.1 < -1 then pure { rank := LEAF_RANK, text := externNameText k refx }
      else do
        let o ← idx env.bk.nameObjs (k : Int)
        let t ← nameShown env.bk o
        pure { rank := LEAF_RANK, text := t }) = (.ok o : R DOpnd))
    {data post : Bytes} {p n : Nat} {stk : List (Option DOpnd)}
    (h : data.drop p = UInt8.ofNat (cls.code + 0x19) :: (le16 refx ++ le16 (k + 1) ++ unused) ++ post) :
    dStep env tab data n (p : Int) stk = .ok (some o :: stk, (p : Int) + (UInt8.ofNat (cls.code + 0x19) :: (le16 refx ++ le16 (k + 1) ++ unused)).length) := by
  rw [List.cons_append] at h
  obtain ⟨c1, c2⟩ := cls_byte cls 0x19 (by decide)
  have hsz : tab.getD (0x19 + 32) (-2) = ((1 + (le16 refx ++ le16 (k + 1) ++ unused).length : Nat) : Int) := by
    rw [((token_sizes3 ht).2 (by omega)).1, if_pos h8]
    simp [le16_length, hu]
  rw [step_class h c1 c2 (by rw [hsz]; omega) (s' := some o :: stk) ?_]
  · rw [hsz]
    refine congrArg Except.ok (Prod.ext rfl ?_)
    simp only [List.length_cons]
    push_cast; ring
  · show (do let o ← dNameX env data (p : Int); pure (some o :: stk)) = _
    have hf : nameXFields env.bv data (p : Int) = .ok ((refx : Int), (refx : Int), (k : Int), false) := by
      unfold nameXFields
      rw [if_pos h8]
      have hsl := slice_fwd (x := le16 refx ++ le16 (k + 1)) (k := 1) (n := 4) (r := unused ++ post) (p : Int) rfl
        (by rw [drop_one h]; simp) (by simp [le16_length])
      simp only [Nat.cast_one, Nat.reduceAdd, Nat.cast_ofNat] at hsl
      rw [hsl, unpackN_ok (by simp [le16_length])]
      simp only [bind, Except.bind]
      have f1 : fld (le16 refx ++ le16 (k + 1)) 0 2 = refx := fld_head _ hx _
      have f2 : fld (le16 refx ++ le16 (k + 1)) 2 2 = k + 1 := by
        show fld (le16 (k + 1)) 0 2 = _
        rw [show le16 (k + 1) = le16 (k + 1) ++ [] by simp, fld_head _ hk]
      rw [f1, f2]
      show Except.ok _ = _
      rw [show ((k + 1 : Nat) : Int) - 1 = (k : Int) by push_cast; ring]
    unfold dNameX
    rw [hf]
    simp only [bind, Except.bind, Bool.false_eq_true, if_false]
    have hr : nameXRange env.bv env.bk (refx : Int) (refx : Int) = externRange env.bk refx := by
      unfold nameXRange
      rw [if_pos h8]
      simp
    rw [hr]
    have ho' := ho
    simp only [bind, Except.bind] at ho'
    cases he : externRange env.bk refx with
    | error e => rw [he] at ho'; cases ho'
    | ok s =>
      rw [he] at ho'
      simp only at ho' ⊢
      rw [ho']
      rfl

/-- **C50** (names of this file).  A token for a name with a sheet reference into the file itself is shown as that name (BIFF8). -/
theorem C50_leaf_own_name (env : DEnv) (tab : List Int) (ht : szdict env.bv = .ok tab) (h8 : 80 ≤ env.bv) (cls : Cls) (refx k : Nat) (hx : refx < 65536)
    (hk : k + 1 < 65536) (unused : Bytes) (hu : unused.length = 2) (x y : Int) (hr : externRange env.bk refx = .ok (x, y)) (hown : -1 ≤ x) (w : PyStr)
    (hw : NameShows env.bk k w) (hword : IsWord w) :
    LeafRef env tab (UInt8.ofNat (cls.code + 0x19) :: (le16 refx ++ le16 (k + 1) ++ unused)) w := by
  obtain ⟨o, ho1, ho2⟩ := nameShown_of hw
  refine leafRef_of hword (by simp) ?_
  intro data post p n stk h
  refine ⟨.unk, by decide, ?_⟩
  refine namex_step ht h8 cls hx hk unused hu (o := { kind := .unk, rank := 90, text := w }) ?_ h
  rw [hr]
  simp only [bind, Except.bind]
  rw [if_neg (by omega), if_neg (by omega), ho1]
  simp only
  rw [ho2]
  rfl

/-- **C50** (names of other files).  A token for a name in another file is shown by the two numbers, with marks that no formula has (BIFF8). -/
theorem C50_other_file_name (env : DEnv) (tab : List Int) (ht : szdict env.bv = .ok tab) (h8 : 80 ≤ env.bv) (cls : Cls) (refx k : Nat) (hx : refx < 65536)
    (hk : k + 1 < 65536) (unused : Bytes) (hu : unused.length = 2) (x y : Int) (hr : externRange env.bk refx = .ok (x, y)) (hother : x < -1) (hadd : x ≠ -5)
    (data post : Bytes) (p n : Nat) (stk : List (Option DOpnd))
    (h : data.drop p = UInt8.ofNat (cls.code + 0x19) :: (le16 refx ++ le16 (k + 1) ++ unused) ++ post) :
    dStep env tab data n (p : Int) stk =
      .ok (some { rank := 90, text := "<<Name #".toList ++ natDec k ++ " in external(?) file #".toList ++ natDec refx ++ ">>".toList } :: stk, (p : Int) + 7) := by
  have ht' : externNameText (k : Int) (refx : Int) =
      "<<Name #".toList ++ natDec k ++ " in external(?) file #".toList ++ natDec refx ++ ">>".toList := by
    unfold externNameText
    rw [intDec_nat, intDec_nat]
  rw [← ht']
  generalize hT : externNameText (k : Int) (refx : Int) = T
  have := namex_step ht h8 cls hx hk unused hu (n := n) (stk := stk) (o := { rank := 90, text := T }) (by
      rw [hr, hT]
      simp only [bind, Except.bind]
      rw [if_neg hadd, if_pos hother]
      rfl) h
  rw [this]
  simp [le16_length, hu]

/-! ## Tokens without a text of their own -/

/-- **C50** (deleted references).  A formula that is only a reference to cells that have been deleted is shown as a question mark, whatever else the
token has. -/
theorem C50_deleted_reference (env : DEnv) (v : Nat) (hv : versionColumn env.bv = some v) (cls : Cls) (code : Nat)
    (hcode : code ∈ [0x0A, 0x0B, 0x1C, 0x1D]) (d : Bytes) (hd : tokenSize v (code + 32) = .bytes (1 + d.length)) (post : Bytes) :
    decompile env (UInt8.ofNat (cls.code + code) :: d ++ post) (1 + d.length) = .ok (some "?".toList) := by
  obtain ⟨tab, ht, _, hsize⟩ := (C50_token_sizes_partial env.bv).2 v hv
  have hlt : code < 32 ∧ code ≠ 0 := by
    simp only [List.mem_cons, List.not_mem_nil, or_false] at hcode
    omega
  have hsz := hsize (code + 32) (by omega) (by omega)
  rw [hd] at hsz
  obtain ⟨c1, c2⟩ := cls_byte cls code hlt.1
  have hstep := step_class (env := env) (tab := tab) (data := UInt8.ofNat (cls.code + code) :: d ++ post) (post := d ++ post) (p := 0) (n := 1 + d.length)
    (b := UInt8.ofNat (cls.code + code)) rfl c1 c2 (by rw [hsz]; simp [sizeCode]; omega) (stk := []) (s' := [some { kind := .err }]) (by
      simp only [List.mem_cons, List.not_mem_nil, or_false] at hcode
      rcases hcode with rfl | rfl | rfl | rfl <;> rfl)
  rw [hsz] at hstep
  unfold decompile
  rw [ht]
  simp only [bind, Except.bind]
  rw [if_neg (by omega), show 1 + d.length = d.length + 1 by omega, dLoop,
    if_pos (show (0 : Int) ≤ 0 ∧ (0 : Int) < ((d.length + 1 : Nat) : Int) from ⟨le_refl _, by push_cast; omega⟩)]
  rw [show d.length + 1 = 1 + d.length by omega]
  simp only [Nat.cast_zero] at hstep
  rw [hstep]
  simp only [bind, Except.bind, sizeCode]
  cases d with
  | nil => rfl
  | cons a d => rw [List.length_cons, dLoop, if_neg (by push_cast; omega)]; rfl

/-- **C50** (constant references).  A formula with a constant reference of several parts has no text: the code calls a function that does not exist. -/
theorem C50_constant_reference_fails (env : DEnv) (v : Nat) (hv : versionColumn env.bv = some v) (cls : Cls) (d : Bytes) (fmlalen : Nat) (h0 : 0 < fmlalen) :
    decompile env (UInt8.ofNat (cls.code + 6) :: d) fmlalen = .error .name := by
  obtain ⟨tab, ht, _, hsize⟩ := (C50_token_sizes_partial env.bv).2 v hv
  obtain ⟨c1, c2⟩ := cls_byte cls 6 (by decide)
  have hne : tab.getD (6 + 32) (-2) ≠ -2 := by
    rw [hsize (6 + 32) (by decide) (by decide)]
    have hv5 : v < 5 := by
      unfold versionColumn at hv
      split_ifs at hv <;> cases hv <;> decide
    exact (by decide +kernel : ∀ v < 5, sizeCode (tokenSize v (6 + 32)) ≠ -2) v hv5
  have hstep : dStep env tab (UInt8.ofNat (cls.code + 6) :: d) fmlalen 0 [] = .error .name := by
    unfold dStep
    have hb := byteAt_at (data := UInt8.ofNat (cls.code + 6) :: d) (p := 0) (b := UInt8.ofNat (cls.code + 6)) (r := d) rfl
    rw [show ((0 : Nat) : Int) = 0 from rfl] at hb
    rw [hb]
    simp only [bind, Except.bind]
    rw [c1]
    simp only [if_neg c2]
    rw [if_neg hne]
    rfl
  obtain ⟨m, rfl⟩ : ∃ m, fmlalen = m + 1 := ⟨fmlalen - 1, by omega⟩
  unfold decompile
  rw [ht]
  simp only [bind, Except.bind]
  rw [if_neg (by omega), dLoop, if_pos (show (0 : Int) ≤ 0 ∧ (0 : Int) < ((m + 1 : Nat) : Int) from ⟨le_refl _, by push_cast; omega⟩), hstep]
  rfl

/-- **C50** (references that are computed).  The token before a reference that is computed leaves no trace. -/
theorem C50_computed_reference (env : DEnv) (tab : List Int) (v : Nat) (hv : versionColumn env.bv = some v) (ht : szdict env.bv = .ok tab) (cls : Cls)
    (d : Bytes) (hd : tokenSize v 0x29 = .bytes (1 + d.length)) (data post : Bytes) (p n : Nat) (stk : List (Option DOpnd)) (h2 : 2 ≤ (d ++ post).length)
    (h : data.drop p = UInt8.ofNat (cls.code + 9) :: d ++ post) :
    dStep env tab data n (p : Int) stk = .ok (stk, (p : Int) + (UInt8.ofNat (cls.code + 9) :: d).length) := by
  obtain ⟨tab', ht', _, hsize⟩ := (C50_token_sizes_partial env.bv).2 v hv
  rw [ht] at ht'
  cases ht'
  have hsz := hsize (9 + 32) (by omega) (by omega)
  rw [show 9 + 32 = 0x29 from rfl, hd] at hsz
  obtain ⟨c1, c2⟩ := cls_byte cls 9 (by decide)
  rw [List.cons_append] at h
  rw [step_class h c1 c2 (by rw [show 9 + 32 = 0x29 from rfl, hsz]; simp [sizeCode]; omega) (s' := stk) ?_]
  · rw [show 9 + 32 = 0x29 from rfl, hsz]
    simp [sizeCode]
    ring
  · show (do
      let _ ← unpackH (slice data ((p : Int) + 1) ((p : Int) + 3))
      pure stk) = _
    match hdp : d ++ post, h2 with
    | a :: b :: rest, _ =>
      have hsl := slice_fwd (x := [a, b]) (k := 1) (n := 2) (r := rest) (p : Int) rfl (by rw [drop_one h, hdp]; rfl) rfl
      simp only [Nat.cast_one, Nat.reduceAdd, Nat.cast_ofNat] at hsl
      rw [hsl]
      rfl

end Xlrd
