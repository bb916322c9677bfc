import Verif.Props.FormulaText

/-!
# C50: constants and references in the texts of formulas, and examples
-/
set_option linter.unusedSimpArgs false

namespace Xlrd
open Spec

/-! ## Words -/

/-- A character that continues a word. -/
def wordChar (c : Char) : Bool := isLetter c || isDig c || c == '$'

theorem wordChar_facts {c : Char} (h : wordChar c = true) :
    symOf c = none ∧ c ≠ '<' ∧ c ≠ '>' ∧ c ≠ '"' ∧ c ≠ '\'' ∧ c ≠ '[' ∧ c ≠ 'e' := by
  have hr : (65 ≤ c.toNat ∧ c.toNat ≤ 90) ∨ (48 ≤ c.toNat ∧ c.toNat ≤ 57) ∨ c = '$' := by
    simp only [wordChar, isLetter, isDig, Bool.or_eq_true, Bool.and_eq_true, decide_eq_true_eq, beq_iff_eq] at h
    rcases h with (⟨h1, h2⟩ | ⟨h1, h2⟩) | h
    · exact .inl ⟨h1, h2⟩
    · exact .inr (.inl ⟨h1, h2⟩)
    · exact .inr (.inr h)
  have hne : ∀ d : Char, ¬ ((65 ≤ d.toNat ∧ d.toNat ≤ 90) ∨ (48 ≤ d.toNat ∧ d.toNat ≤ 57) ∨ d = '$') → c ≠ d := by
    rintro d hd rfl; exact hd hr
  refine ⟨?_, hne _ (by decide), hne _ (by decide), hne _ (by decide), hne _ (by decide), hne _ (by decide), hne _ (by decide)⟩
  have a1 := hne '+' (by decide); have a2 := hne '-' (by decide); have a3 := hne '*' (by decide); have a4 := hne '/' (by decide)
  have a5 := hne '^' (by decide); have a6 := hne '&' (by decide); have a7 := hne '=' (by decide); have a8 := hne '%' (by decide)
  have a9 := hne '(' (by decide); have a10 := hne ')' (by decide); have a11 := hne ',' (by decide); have a12 := hne ':' (by decide)
  have a13 := hne ' ' (by decide)
  unfold symOf
  split <;> first | rfl | (exfalso; simp_all)

theorem wantsSign_head {c : Char} (w : PyStr) (h : c ≠ 'e') : wantsSign (c :: w) = false := by
  unfold wantsSign
  split
  · rename_i heq _; cases heq; exact absurd rfl h
  · rfl

theorem word_chars : ∀ (s w : PyStr), (∀ c ∈ s, wordChar c = true) → wantsSign w = false → readChars (.word w) s = ([], .word (s.reverse ++ w)) := by
  intro s
  induction s with
  | nil => intro w _ _; rfl
  | cons c s ih =>
    intro w h hw
    obtain ⟨h1, h3, h4, h5, h6, h7, h8⟩ := wordChar_facts (h c (List.mem_cons_self ..))
    have hr : readChar (.word w) c = ([], .word (c :: w)) := by
      simp [readChar, hw, h1, h3, h4, inWord, h5, h6, h7]
    rw [readChars, hr]
    simp only
    rw [ih (c :: w) (fun x hx => h x (List.mem_cons_of_mem _ hx)) (wantsSign_head w h8)]
    simp

theorem isWord_of_chars {s : PyStr} (h0 : s ≠ []) (h : ∀ c ∈ s, wordChar c = true) : IsWord s := by
  refine ⟨h0, ?_, ?_⟩
  · obtain ⟨c, t, rfl⟩ := List.exists_cons_of_ne_nil h0
    obtain ⟨h1, h3, h4, h5, h6, h7, h8⟩ := wordChar_facts (h c (List.mem_cons_self ..))
    have hr : readChar .gap c = ([], .word [c]) := by
      simp [readChar, fromGap, h1, h3, h4, inWord, h5, h6, h7]
    rw [readChars, hr]
    simp only
    rw [word_chars t [c] (fun x hx => h x (List.mem_cons_of_mem _ hx)) (wantsSign_head [] h8)]
    simp
  · have h0' : s.reverse ≠ [] := by simpa using h0
    obtain ⟨c, t, ht⟩ := List.exists_cons_of_ne_nil h0'
    rw [ht]
    refine wantsSign_head _ (wordChar_facts (h c ?_)).2.2.2.2.2.2
    rw [← List.mem_reverse, ht]
    exact List.mem_cons_self ..

theorem quoted_chars : ∀ (s w : PyStr), readChars (.quoted '"' w) (doubleDq s ++ ['"']) = ([], .word ('"' :: ((doubleDq s).reverse ++ w))) := by
  intro s
  induction s with
  | nil => intro w; simp [doubleDq, readChars, readChar]
  | cons c s ih =>
    intro w
    unfold doubleDq
    by_cases hc : c = '"'
    · subst hc
      simp only [if_true, List.cons_append]
      have hr : readChar (.quoted '"' w) '"' = ([], .word ('"' :: w)) := rfl
      have hr2 : readChar (.word ('"' :: w)) '"' = ([], .quoted '"' ('"' :: '"' :: w)) := by
        simp [readChar, wantsSign_head, symOf, inWord]
      rw [readChars, hr]
      simp only
      rw [readChars, hr2]
      simp only
      rw [ih]
      simp
    · rw [if_neg hc, List.cons_append, readChars]
      have hr : readChar (.quoted '"' w) c = ([], .quoted '"' (c :: w)) := by simp [readChar, hc]
      rw [hr]
      simp only
      rw [ih]
      simp

theorem isWord_strgText (s : PyStr) : IsWord (strgText s) := by
  refine ⟨by simp [strgText], ?_, ?_⟩
  · unfold strgText
    rw [List.cons_append, readChars]
    have hr : readChar .gap '"' = ([], .quoted '"' ['"']) := rfl
    rw [hr]
    simp only
    rw [quoted_chars]
    simp
  · unfold strgText
    simp only [List.reverse_append, List.reverse_cons, List.reverse_nil, List.nil_append, List.cons_append]
    exact wantsSign_head _ (by decide)

theorem readMixed_chars {s : PyStr} {x : Nat × Bool × Nat × Bool} (h : readMixed s = some x) : s ≠ [] ∧ ∀ c ∈ s, wordChar c = true := by
  have hw1 : ∀ c : Char, isLetter c = true → wordChar c = true := by intro c hc; simp [wordChar, hc]
  have hw2 : ∀ c : Char, isDig c = true → wordChar c = true := by intro c hc; simp [wordChar, hc]
  have hd : wordChar '$' = true := rfl
  -- the row part
  have hrow : ∀ (t : PyStr) (r : Nat), readRow t = some r → t ≠ [] ∧ ∀ c ∈ t, wordChar c = true := by
    intro t r hr
    unfold readRow at hr
    by_cases hc : t ≠ [] ∧ t.all isDig ∧ t.head? ≠ some '0'
    · exact ⟨hc.1, fun c hcm => hw2 c (List.all_eq_true.mp hc.2.1 c hcm)⟩
    · rw [if_neg hc] at hr; cases hr
  have hbody : ∀ (t : PyStr) (cabs : Bool), (do
      let c ← readCol (t.takeWhile isLetter)
      let (rabs, t) := match t.dropWhile isLetter with
        | '$' :: t => (true, t)
        | t => (false, t)
      let r ← readRow t
      pure (r, rabs, c, cabs)) = some x → t ≠ [] ∧ ∀ c ∈ t, wordChar c = true := by
    intro t cabs hb
    cases hcol : readCol (t.takeWhile isLetter) with
    | none => rw [hcol] at hb; cases hb
    | some c =>
      rw [hcol] at hb
      simp only [bind, Option.bind] at hb
      have hdrop : t.dropWhile isLetter ≠ [] ∧ ∀ c ∈ t.dropWhile isLetter, wordChar c = true := by
        cases hdw : t.dropWhile isLetter with
        | nil => rw [hdw] at hb; simp [readRow] at hb
        | cons a l =>
          rw [hdw] at hb
          by_cases ha : a = '$'
          · subst ha
            simp only at hb
            cases hr : readRow l with
            | none => rw [hr] at hb; cases hb
            | some r =>
              refine ⟨by simp, ?_⟩
              intro c hc
              rcases List.mem_cons.mp hc with rfl | hc
              · exact hd
              · exact (hrow l r hr).2 c hc
          · have hm : (match a :: l with | '$' :: t => (true, t) | t => (false, t)) = (false, a :: l) := by
              split
              · rename_i heq; cases heq; exact absurd rfl ha
              · rfl
            rw [hm] at hb
            simp only at hb
            cases hr : readRow (a :: l) with
            | none => rw [hr] at hb; cases hb
            | some r => exact ⟨by simp, (hrow _ r hr).2⟩
      have hsplit := List.takeWhile_append_dropWhile (p := isLetter) (l := t)
      refine ⟨?_, ?_⟩
      · rintro rfl; exact hdrop.1 rfl
      · intro c hc
        rw [← hsplit] at hc
        rcases List.mem_append.mp hc with hc | hc
        · exact hw1 c (List.mem_takeWhile_imp hc)
        · exact hdrop.2 c hc
  match s, h with
  | [], h => simp [readMixed, readCol] at h
  | a :: l, h =>
    by_cases ha : a = '$'
    · subst ha
      obtain ⟨_, h2⟩ := hbody l true h
      refine ⟨by simp, ?_⟩
      intro c hc
      rcases List.mem_cons.mp hc with rfl | hc
      · exact hd
      · exact h2 c hc
    · have key : readMixed (a :: l) = (do
          let c ← readCol ((a :: l).takeWhile isLetter)
          let (rabs, t) := match (a :: l).dropWhile isLetter with
            | '$' :: t => (true, t)
            | t => (false, t)
          let r ← readRow t
          pure (r, rabs, c, false)) := by
        unfold readMixed
        split
        rename_i cabs t heq
        split at heq
        · rename_i heq'; cases heq'; exact absurd rfl ha
        · cases heq; rfl
      rw [key] at h
      exact hbody (a :: l) false h

/-! ## Leaves -/

theorem token_sizes2 {bv : Nat} {tab : List Int} (h : szdict bv = .ok tab) :
    tab.getD 0x17 (-2) = -1 ∧ tab.getD 0x1C (-2) = 2 ∧ tab.getD 0x1D (-2) = 2 ∧ tab.getD 0x1E (-2) = 3 ∧ tab.getD 0x1F (-2) = 9 ∧
      tab.getD 36 (-2) = (if bv ≥ 80 then 5 else 4) ∧ tab.getD 37 (-2) = (if bv ≥ 80 then 9 else 7) := by
  unfold szdict at h
  by_cases c0 : bv = 20 ∨ bv = 21
  · rw [if_pos c0] at h; cases h
    refine ⟨rfl, rfl, rfl, rfl, rfl, ?_, ?_⟩ <;> rw [if_neg (by omega)] <;> rfl
  · rw [if_neg c0] at h
    by_cases c1 : bv = 30
    · rw [if_pos c1] at h; cases h
      refine ⟨rfl, rfl, rfl, rfl, rfl, ?_, ?_⟩ <;> rw [if_neg (by omega)] <;> rfl
    · rw [if_neg c1] at h
      by_cases c2 : bv = 40 ∨ bv = 45
      · rw [if_pos c2] at h; cases h
        refine ⟨rfl, rfl, rfl, rfl, rfl, ?_, ?_⟩ <;> rw [if_neg (by omega)] <;> rfl
      · rw [if_neg c2] at h
        by_cases c3 : bv = 50 ∨ bv = 70
        · rw [if_pos c3] at h; cases h
          refine ⟨rfl, rfl, rfl, rfl, rfl, ?_, ?_⟩ <;> rw [if_neg (by omega)] <;> rfl
        · rw [if_neg c3] at h
          by_cases c4 : bv = 80
          · rw [if_pos c4] at h; cases h
            refine ⟨rfl, rfl, rfl, rfl, rfl, ?_, ?_⟩ <;> rw [if_pos (by omega)] <;> rfl
          · rw [if_neg c4] at h; cases h

theorem const_leaf {env : DEnv} {tab : List Int} {b : UInt8} {d : Bytes} {c : Nat} (hb : b.toNat = c) (h1 : 0x1C ≤ c) (h2 : c < 32)
    (hs : tab.getD c (-2) = ((1 + d.length : Nat) : Int)) {k : OKind} {v : PVal} {w : PyStr} (hw : IsWord w)
    (hc : ∀ (data post : Bytes) (p : Nat), data.drop p = b :: (d ++ post) → constTok env.str c data (p : Int) = .ok (k, v, w)) :
    LeafOk env tab (b :: d) w := by
  refine ⟨hw, by simp, ?_⟩
  intro data post p n stk h
  rw [List.cons_append] at h
  refine ⟨k, ?_⟩
  have hstep := step_plain (env := env) (tab := tab) (n := n) (stk := stk) (z := tab.getD c (-2)) h hb h2 (by rw [hs]; omega)
    (s' := some { kind := k, rank := 90, text := w } :: stk) (by
      unfold dPlain
      rw [if_neg (by omega), if_neg (by omega), if_neg (by omega), if_neg (by omega), if_neg (by omega), if_neg (by omega), if_neg (by omega),
        if_neg (by omega), if_neg (by omega), if_neg (by omega), if_neg (by omega), if_neg (by omega), if_neg (by omega), hc data post p h]
      rfl) (by rw [hs]; omega)
  rw [hstep, hs]
  simp only [List.length_cons]
  rw [Nat.add_comm]

/-- **C50** (whole numbers).  The text for a small whole number is what `str` makes of it. -/
theorem C50_leaf_int (env : DEnv) (tab : List Int) (ht : szdict env.bv = .ok tab) (v : Nat) (hv : v < 65536)
    (hw : IsWord (env.str (.num (.fin v)))) : LeafOk env tab (0x1E :: le16 v) (env.str (.num (.fin v))) := by
  refine const_leaf (c := 0x1E) rfl (by decide) (by decide) (token_sizes2 ht).2.2.2.1 hw (k := .num) (v := .num (.fin v)) ?_
  intro data post p h
  unfold constTok
  rw [if_neg (by decide), if_neg (by decide), if_pos rfl]
  have := unpackH_at hv (drop_one h)
  rw [show ((p : Int) + 3) = ((p + 1 : Nat) : Int) + 2 by push_cast; ring, show ((p : Int) + 1) = ((p + 1 : Nat) : Int) by push_cast; ring, this]
  rfl

/-- **C50** (numbers). -/
theorem C50_leaf_num (env : DEnv) (tab : List Int) (ht : szdict env.bv = .ok tab) (d : Bytes) (hd : d.length = 8) (v : F64) (hv : unpackd d = .ok v)
    (hw : IsWord (env.str (.num v))) : LeafOk env tab (0x1F :: d) (env.str (.num v)) := by
  refine const_leaf (c := 0x1F) rfl (by decide) (by decide) (by rw [hd]; exact (token_sizes2 ht).2.2.2.2.1) hw (k := .num) (v := .num v) ?_
  intro data post p h
  unfold constTok
  rw [if_neg (by decide), if_neg (by decide), if_neg (by decide)]
  have := slice_fwd (x := d) (k := 1) (n := 8) (p : Int) rfl (drop_one h) hd
  simp only [Nat.cast_one, Nat.reduceAdd, Nat.cast_ofNat] at this
  rw [this, hv]
  rfl

/-- **C50** (truth values). -/
theorem C50_leaf_bool (env : DEnv) (tab : List Int) (ht : szdict env.bv = .ok tab) (b : Bool) :
    LeafOk env tab [0x1D, if b then 1 else 0] (if b then "TRUE".toList else "FALSE".toList) := by
  refine const_leaf (c := 0x1D) (d := [if b then 1 else 0]) rfl (by decide) (by decide) (token_sizes2 ht).2.2.1 ?_ (k := .bool)
    (v := .int (if b then 1 else 0)) ?_
  · cases b <;> exact ⟨by decide, by decide, by decide⟩
  · intro data post p h
    unfold constTok
    rw [if_neg (by decide), if_pos rfl]
    have := slice_fwd (x := [if b then 1 else 0]) (k := 1) (n := 1) (p : Int) rfl (drop_one h) rfl
    simp only [Nat.cast_one, Nat.reduceAdd, Nat.cast_ofNat] at this
    rw [this]
    cases b <;> rfl

/-- The published texts of the error values. -/
def errorTexts : List (Nat × String) :=
  [(0x00, "#NULL!"), (0x07, "#DIV/0!"), (0x0F, "#VALUE!"), (0x17, "#REF!"), (0x1D, "#NAME?"), (0x24, "#NUM!"), (0x2A, "#N/A")]

/-- **C50** (leaf).  An error value is shown as its text, in quotation marks (unlike in Excel). -/
theorem C50_leaf_error (env : DEnv) (tab : List Int) (ht : szdict env.bv = .ok tab) (e : Nat × String) (he : e ∈ errorTexts) :
    LeafOk env tab [0x1C, UInt8.ofNat e.1] ('"' :: e.2.toList ++ ['"']) := by
  have hlt : e.1 < 256 := (by decide : ∀ e ∈ errorTexts, e.1 < 256) e he
  refine const_leaf (c := 0x1C) (d := [UInt8.ofNat e.1]) rfl (by decide) (by decide) (token_sizes2 ht).2.1 ?_ (k := .err) (v := .int e.1) ?_
  · have hd : doubleDq e.2.toList = e.2.toList := (by decide : ∀ e ∈ errorTexts, doubleDq e.2.toList = e.2.toList) e he
    have := isWord_strgText e.2.toList
    unfold strgText at this
    rwa [hd] at this
  · intro data post p h
    unfold constTok
    rw [if_pos rfl]
    have := slice_fwd (x := [UInt8.ofNat e.1]) (k := 1) (n := 1) (p : Int) rfl (drop_one h) rfl
    simp only [Nat.cast_one, Nat.reduceAdd, Nat.cast_ofNat] at this
    rw [this]
    have hu : unpackB [UInt8.ofNat e.1] = .ok e.1 := by
      simp [unpackB, unpackN, le, fld, bind, Except.bind, pure, Except.pure]
      omega
    have ht : errorText e.1 = .ok e.2.toList := (by decide : ∀ e ∈ errorTexts, errorText e.1 = .ok e.2.toList) e he
    simp only [hu, ht, bind, Except.bind, pure, Except.pure]

/-- **C50** (text constants).  In BIFF8 files. The text is in quotes, with the quotes in it doubled. -/
theorem C50_leaf_text (env : DEnv) (tab : List Int) (ht : szdict env.bv = .ok tab) (hv : env.bv = 80) (u : UStr) (hu : u.Ok)
    (hn : (utf16 u.text).length < 256) :
    LeafOk env tab (0x17 :: encLen 1 (utf16 u.text).length ++ u.body) (strgText u.text) := by
  refine ⟨isWord_strgText _, by simp, ?_⟩
  intro data post p n stk h
  rw [List.cons_append, List.cons_append, List.append_assoc] at h
  refine ⟨.strg, ?_⟩
  have hs := (token_sizes2 ht).1
  have ht' := unicodeLen_at u hu (.inl rfl) (by simpa using hn) (drop_one h)
  have e1 : (encLen 1 (utf16 u.text).length).length = 1 := encLen_length 1 _ (.inl rfl)
  rw [step_plain (z := ((1 + 1 + u.body.length : Nat) : Int)) (c := 0x17) h rfl (by decide) (by rw [show tab.getD 23 (-2) = -1 from hs]; decide)
    (s' := some { kind := .strg, rank := 90, text := strgText u.text } :: stk) ?_ (by omega)]
  · refine congrArg Except.ok (Prod.ext rfl ?_)
    simp only [List.length_append, List.length_cons, e1]
  · unfold dPlain
    rw [if_neg (by decide), if_neg (by decide), if_neg (by decide), if_neg (by decide), if_neg (by decide), if_neg (by decide), if_neg (by decide),
        if_neg (by decide), if_neg (by decide), if_pos rfl]
    unfold tStr
    rw [if_neg (by omega), show ((p : Int) + 1) = ((p + 1 : Nat) : Int) by push_cast; ring, ht']
    simp only [bind, Except.bind, pure, Except.pure]
    exact congrArg Except.ok (Prod.ext rfl (by push_cast; ring))

/-- **C50** (text constants before BIFF8). -/
theorem C50_leaf_bytes (env : DEnv) (tab : List Int) (ht : szdict env.bv = .ok tab) (hv : env.bv ≤ 70) (b : Bytes) (hb : b.length < 256)
    (t : PyStr) (hdec : env.dec b = .ok t) :
    LeafOk env tab (0x17 :: encLen 1 b.length ++ b) (strgText t) := by
  refine ⟨isWord_strgText _, by simp, ?_⟩
  intro data post p n stk h
  rw [List.cons_append, List.cons_append, List.append_assoc] at h
  refine ⟨.strg, ?_⟩
  have hs := (token_sizes2 ht).1
  have ht' := unpackStringLen_at env.dec (.inl rfl) (by simpa using hb) (drop_one h)
  rw [hdec] at ht'
  have e1 : (encLen 1 b.length).length = 1 := encLen_length 1 _ (.inl rfl)
  rw [step_plain (z := ((1 + 1 + b.length : Nat) : Int)) (c := 0x17) h rfl (by decide) (by rw [show tab.getD 23 (-2) = -1 from hs]; decide)
    (s' := some { kind := .strg, rank := 90, text := strgText t } :: stk) ?_ (by omega)]
  · refine congrArg Except.ok (Prod.ext rfl ?_)
    simp only [List.length_append, List.length_cons, e1]
  · unfold dPlain
    rw [if_neg (by decide), if_neg (by decide), if_neg (by decide), if_neg (by decide), if_neg (by decide), if_neg (by decide), if_neg (by decide),
        if_neg (by decide), if_neg (by decide), if_pos rfl]
    unfold tStr
    rw [if_pos hv, show ((p : Int) + 1) = ((p + 1 : Nat) : Int) by push_cast; ring, ht']
    simp only [bind, Except.bind, pure, Except.pure, Except.map]
    exact congrArg Except.ok (Prod.ext rfl (by push_cast; ring))

/-- The name of a cell of a formula, and the name read back. -/
theorem cell_name (r c : Nat) (rrel crel : Bool) (hr : r < 65536) (hc : c < 256) (br bc : Nat) :
    ∃ s, cellnamerel (if rrel then (r : Int) - br else r) (if crel then (c : Int) - bc else c) rrel crel (some br) (some bc) false = .ok s ∧
      readMixed s = some (r, !rrel, c, !crel) := by
  obtain ⟨s, hs, hread⟩ := C56_cellnamerel_a1_reads_back (if rrel then (r : Int) - br else r) (if crel then (c : Int) - bc else c) br bc rrel crel
    (by intro h; rw [h]; simp) (by intro h; rw [h]; simp; omega)
  refine ⟨s, hs, ?_⟩
  rw [hread]
  congr 2
  · cases rrel
    · simp
    · simp only [if_true]
      rw [show (br : Int) + ((r : Int) - br) = r by ring, Int.emod_eq_of_lt (by omega) (by omega)]
      simp
  · cases crel
    · simp
    · simp only [if_true]
      rw [show (bc : Int) + ((c : Int) - bc) = c by ring, Int.emod_eq_of_lt (by omega) (by omega)]
      simp

theorem rowCount_le (bv : Nat) : rowCount bv ≤ 65536 := by unfold rowCount; by_cases h : bv ≥ 80 <;> simp [h]

theorem encAddrRaw_length (bv r c : Nat) (x y : Bool) : (encAddrRaw bv r c x y).length = if bv ≥ 80 then 4 else 3 := by
  unfold encAddrRaw encCol
  by_cases h : bv ≥ 80 <;> simp [h, le16_length]

theorem encAreaRaw_length (bv r c : Nat) (x y : Bool) (r' c' : Nat) (x' y' : Bool) :
    (encAreaRaw bv r c x y r' c' x' y').length = if bv ≥ 80 then 8 else 6 := by
  unfold encAreaRaw encCol
  by_cases h : bv ≥ 80 <;> simp [h, le16_length]

/-- **C50** (cells).  The word for a reference to a cell, read back, is that cell, with a dollar sign for each absolute coordinate. -/
theorem C50_leaf_cell (env : DEnv) (tab : List Int) (ht : szdict env.bv = .ok tab) (cls : Cls) (r c : Nat) (rrel crel : Bool)
    (hr : r < rowCount env.bv) (hc : c < 256) (br bc : Nat) (hbr : env.browx = some (br : Int)) (hbc : env.bcolx = some (bc : Int))
    (hd : env.reldelta = false) (h1 : env.r1c1 = false) :
    ∃ w, LeafRef env tab (UInt8.ofNat (cls.code + 4) :: encAddrRaw env.bv r c rrel crel) w ∧ readMixed w = some (r, !rrel, c, !crel) := by
  obtain ⟨s, hs, hread⟩ := cell_name r c rrel crel (Nat.lt_of_lt_of_le hr (rowCount_le _)) hc br bc
  obtain ⟨hne, hch⟩ := readMixed_chars hread
  suffices key : ∀ (data post : Bytes) (p n : Nat) (stk : List (Option DOpnd)), data.drop p = UInt8.ofNat (cls.code + 4) :: encAddrRaw env.bv r c rrel crel ++ post →
      ∃ k, k ≠ .err ∧ dStep env tab data n (p : Int) stk = .ok (some { kind := k, rank := 90, text := s } :: stk,
        (p : Int) + (UInt8.ofNat (cls.code + 4) :: encAddrRaw env.bv r c rrel crel).length) by
    refine ⟨s, ⟨⟨isWord_of_chars hne hch, by simp, ?_⟩, ?_⟩, hread⟩
    · intro data post p n stk h
      obtain ⟨k, _, hk⟩ := key data post p n stk h
      exact ⟨k, hk⟩
    · intro data post p n stk h o x ho
      obtain ⟨k, h1, hk⟩ := key data post p n stk h
      rw [hk] at ho
      cases ho
      exact h1
  intro data post p n stk h
  rw [List.cons_append] at h
  have hg := getCellAddr_raw env.bv r c rrel crel false (some (br : Int)) (some (bc : Int)) hr hc (rest := post) (data := data) (p := p + 1) (drop_one h)
  rw [adjust_base] at hg
  obtain ⟨c1, c2⟩ := cls_byte cls 4 (by decide)
  have hsz : tab.getD (4 + 32) (-2) = ((1 + (encAddrRaw env.bv r c rrel crel).length : Nat) : Int) := by
    rw [encAddrRaw_length, show 4 + 32 = 36 from rfl, (token_sizes2 ht).2.2.2.2.2.1]
    by_cases hv : env.bv ≥ 80 <;> simp [hv]
  refine ⟨if rrel || crel then .relref else .ref, by cases rrel <;> cases crel <;> decide, ?_⟩
  rw [step_class h c1 c2 (by rw [hsz]; omega) (s' := some { kind := if rrel || crel then .relref else .ref, rank := 90, text := s } :: stk) ?_]
  · rw [hsz]
    refine congrArg Except.ok (Prod.ext rfl ?_)
    simp only [List.length_cons]
    push_cast; ring
  · unfold dClass
    rw [if_neg (by decide), if_neg (by decide), if_neg (by decide), if_neg (by decide), if_pos (.inl rfl)]
    unfold dRef
    push_cast at hg
    rw [hbr, hbc, hd, h1, hg]
    simp only [bind, Except.bind]
    rw [hs]
    rfl

/-- **C50** (areas).  The text for a reference to an area is the names of the two corners with a colon between them. -/
theorem C50_leaf_area (env : DEnv) (tab : List Int) (ht : szdict env.bv = .ok tab) (cls : Cls) (r c : Nat) (rrel crel : Bool) (r' c' : Nat)
    (rrel' crel' : Bool) (hr : r < rowCount env.bv) (hc : c < 256) (hr' : r' < rowCount env.bv) (hc' : c' < 256) (br bc : Nat)
    (hbr : env.browx = some (br : Int)) (hbc : env.bcolx = some (bc : Int)) (hd : env.reldelta = false) (h1 : env.r1c1 = false) :
    ∃ w w', AreaOk env tab (UInt8.ofNat (cls.code + 5) :: encAreaRaw env.bv r c rrel crel r' c' rrel' crel') w w' ∧
      readMixed w = some (r, !rrel, c, !crel) ∧ readMixed w' = some (r', !rrel', c', !crel') := by
  obtain ⟨s, hs, hread⟩ := cell_name r c rrel crel (Nat.lt_of_lt_of_le hr (rowCount_le _)) hc br bc
  obtain ⟨s', hs', hread'⟩ := cell_name r' c' rrel' crel' (Nat.lt_of_lt_of_le hr' (rowCount_le _)) hc' br bc
  obtain ⟨hne, hch⟩ := readMixed_chars hread
  obtain ⟨hne', hch'⟩ := readMixed_chars hread'
  refine ⟨s, s', ⟨isWord_of_chars hne hch, isWord_of_chars hne' hch', by simp, ?_⟩, hread, hread'⟩
  intro data post p n stk h
  rw [List.cons_append] at h
  have hg := getCellRangeAddr_raw env.bv r c r' c' rrel crel rrel' crel' false (some (br : Int)) (some (bc : Int)) hr hc hr' hc' (rest := post)
    (data := data) (p := p + 1) (drop_one h)
  rw [adjust_base, adjust_base] at hg
  obtain ⟨c1, c2⟩ := cls_byte cls 5 (by decide)
  have hsz : tab.getD (5 + 32) (-2) = ((1 + (encAreaRaw env.bv r c rrel crel r' c' rrel' crel').length : Nat) : Int) := by
    rw [encAreaRaw_length, show 5 + 32 = 37 from rfl, (token_sizes2 ht).2.2.2.2.2.2]
    by_cases hv : env.bv ≥ 80 <;> simp [hv]
  refine ⟨if rrel || rrel' || crel || crel' then .relref else .ref, by cases rrel <;> cases rrel' <;> cases crel <;> cases crel' <;> decide, ?_⟩
  rw [step_class h c1 c2 (by rw [hsz]; omega)
    (s' := some { kind := if rrel || rrel' || crel || crel' then .relref else .ref, rank := 90, text := s ++ ':' :: s' } :: stk) ?_]
  · rw [hsz]
    refine congrArg Except.ok (Prod.ext rfl ?_)
    simp only [List.length_cons]
    push_cast; ring
  · unfold dClass
    rw [if_neg (by decide), if_neg (by decide), if_neg (by decide), if_neg (by decide), if_neg (by decide), if_pos (.inl rfl)]
    unfold dArea
    push_cast at hg
    rw [hbr, hbc, hd, h1, hg]
    simp only [bind, Except.bind, pure, Except.pure]
    have e : ∀ x : Int, x + 1 - 1 = x := by intro x; ring
    simp only [rangename2drel, e, Option.isNone_some, Bool.and_false, Bool.or_false, bind, Except.bind]
    rw [hs]
    simp only
    rw [hs']
    rfl

/-! ## Examples and structure that the texts do not keep -/

/-- A reader of the formula in cell F6 of a BIFF8 file. -/
structure AtF6 (env : DEnv) : Prop where
  bv : env.bv = 80
  browx : env.browx = some 5
  bcolx : env.bcolx = some 5
  reldelta : env.reldelta = false
  r1c1 : env.r1c1 = false

/-- The token for a cell in the first row, with relative coordinates. -/
def firstRow (k : Nat) : Bytes := 0x44 :: encAddrRaw 80 0 k true true

theorem firstRow_leaf (env : DEnv) (he : AtF6 env) (k : Nat) (w : PyStr) (hk : k < 256)
    (hrun : ∃ kind, dStep env sztab4 (firstRow k) 5 0 [] = .ok ([some { kind := kind, rank := 90, text := w }], 5)) :
    LeafRef env sztab4 (firstRow k) w := by
  obtain ⟨hv, hbr, hbc, hd, h1⟩ := he
  have ht : szdict env.bv = .ok sztab4 := by rw [hv]; rfl
  obtain ⟨w', hl, _⟩ := C50_leaf_cell env sztab4 ht .val 0 k true true (by rw [hv]; decide) hk 5 5 hbr hbc hd h1
  rw [hv] at hl
  have hl' : LeafRef env sztab4 (firstRow k) w' := hl
  obtain ⟨kind, hrun⟩ := hrun
  obtain ⟨kind', hrun'⟩ := hl'.1.2.2 (firstRow k) [] 0 5 [] (by simp)
  rw [show ((0 : Nat) : Int) = 0 from rfl, hrun] at hrun'
  cases hrun'
  exact hl'

theorem ref_a1 (env : DEnv) (he : AtF6 env) : LeafRef env sztab4 (firstRow 0) "A1".toList := by
  refine firstRow_leaf env he 0 _ (by decide) ⟨.relref, ?_⟩
  obtain ⟨str, bv, bk, dec, rd, br, bc, rc⟩ := env
  obtain ⟨h1, h2, h3, h4, h5⟩ := he
  simp only at h1 h2 h3 h4 h5
  subst h1 h2 h3 h4 h5
  exact rfl

theorem ref_b1 (env : DEnv) (he : AtF6 env) : LeafRef env sztab4 (firstRow 1) "B1".toList := by
  refine firstRow_leaf env he 1 _ (by decide) ⟨.relref, ?_⟩
  obtain ⟨str, bv, bk, dec, rd, br, bc, rc⟩ := env
  obtain ⟨h1, h2, h3, h4, h5⟩ := he
  simp only at h1 h2 h3 h4 h5
  subst h1 h2 h3 h4 h5
  exact rfl

theorem ref_c1 (env : DEnv) (he : AtF6 env) : LeafRef env sztab4 (firstRow 2) "C1".toList := by
  refine firstRow_leaf env he 2 _ (by decide) ⟨.relref, ?_⟩
  obtain ⟨str, bv, bk, dec, rd, br, bc, rc⟩ := env
  obtain ⟨h1, h2, h3, h4, h5⟩ := he
  simp only at h1 h2 h3 h4 h5
  subst h1 h2 h3 h4 h5
  exact rfl

theorem leaf_a1 (env : DEnv) (he : AtF6 env) : LeafOk env sztab4 (firstRow 0) "A1".toList := (ref_a1 env he).1
theorem leaf_b1 (env : DEnv) (he : AtF6 env) : LeafOk env sztab4 (firstRow 1) "B1".toList := (ref_b1 env he).1
theorem leaf_c1 (env : DEnv) (he : AtF6 env) : LeafOk env sztab4 (firstRow 2) "C1".toList := (ref_c1 env he).1

def exA : Stored := .leaf (firstRow 0) "A1".toList
def exB : Stored := .leaf (firstRow 1) "B1".toList
def exC : Stored := .leaf (firstRow 2) "C1".toList

/-- `IF(-(A1+B1)*C1>C1+C1%,ABS(SUM(A1)),)` with the tokens for parentheses and jumps that Excel stores. -/
def exFormula : Stored :=
  .varying .val 1 "IF".toList [
    .quiet [] [.hint 0x02 17] (.bin .gt (.bin .mul (.un .minus (.quiet [] [.parens] (.bin .add exA exB))) exC) (.bin .add exC (.un .percent exC))),
    .quiet [] [.hint 0x08 3] (.fixed .val 24 "ABS".toList [.sum 0 exA]),
    .missing]

theorem exFormula_ok (env : DEnv) (he : AtF6 env) : Stored.Ok env sztab4 exFormula := by
  have a := leaf_a1 env he
  have b := leaf_b1 env he
  have c := leaf_c1 env he
  have hv := he.bv
  simp only [exFormula, exA, exB, exC, Stored.Ok, Stored.tree, List.map_cons, List.map_nil, List.mem_cons, List.not_mem_nil, or_false,
    forall_eq_or_imp, forall_eq, and_true]
  refine ⟨by rw [hv]; decide, ⟨2, 3, by decide +kernel, by decide, by decide⟩, by decide, by decide, by simp, ?_⟩
  refine ⟨⟨?_, ?_, ⟨⟨⟨?_, ?_, a, b, ?_, ?_⟩, ?_⟩, c, ?_, ?_⟩, ⟨c, ⟨c, ?_⟩, ?_, ?_⟩, ?_, ?_⟩, ?_, ?_, by rw [hv]; decide, ⟨1, by decide +kernel⟩, ?_, ?_, a, ?_⟩ <;>
    simp [Quiet.Ok]

example (env : DEnv) (he : AtF6 env) :
    decompile env (exFormula.enc 80) (exFormula.enc 80).length = .ok (some "IF(-(A1+B1)*C1>C1+C1%,ABS(SUM(A1)),)".toList) := by
  have h := decompile_text env sztab4 (by rw [he.bv]; rfl) exFormula (exFormula_ok env he) []
  rw [he.bv, List.append_nil] at h
  rw [h]
  simp only [exFormula, exA, exB, exC, Stored.tree, List.map_cons, List.map_nil, Tree.text, Tree.rank]
  rfl

theorem exFormula_grouped : exFormula.tree.LeftGrouped := by
  simp only [exFormula, exA, exB, exC, Stored.tree, List.map_cons, List.map_nil, Tree.LeftGrouped, List.mem_cons, List.not_mem_nil, or_false,
    forall_eq_or_imp, forall_eq, true_and, and_true]
  refine ⟨⟨?_, ?_⟩, ?_⟩ <;> first | (intro o x y h; cases h <;> decide) | skip
  all_goals simp [Tree.LeftGrouped, Op2.prec]

/-- The hypotheses of `C50_text_partial` are met, and the text denotes the tree of the formula and no other. -/
example (env : DEnv) (he : AtF6 env) : ∃ text, decompile env (exFormula.enc env.bv) (exFormula.enc env.bv).length = .ok (some text) ∧
    ∀ e, FormulaDenotes text e ↔ e = exFormula.tree := by
  have h := C50_text_partial env sztab4 (by rw [he.bv]; rfl) exFormula (exFormula_ok env he) (by simp [exFormula, Stored.tree]) exFormula_grouped []
  rwa [List.append_nil] at h

/-- `SUM(A1:B1 C1)%`: the part of a range that is in another range. -/
def exRange : Stored := .un .percent (.sum 0 (.isect (.range exA exB) exC))

theorem exRange_ok (env : DEnv) (he : AtF6 env) : Stored.Ok env sztab4 exRange := by
  have a := ref_a1 env he
  have b := ref_b1 env he
  have c := ref_c1 env he
  simp only [exRange, exA, exB, exC, Stored.Ok, Stored.NoError, Stored.tree]
  exact ⟨⟨by decide, ⟨⟨a.1, b.1, by simp, by simp, a, b⟩, c.1, by simp, by simp⟩, by simp⟩, by simp⟩

/-- Ranges and intersections: the hypotheses of `C50_text_partial` are met, and this is the text. -/
example (env : DEnv) (he : AtF6 env) : (∀ e, FormulaDenotes "SUM(A1:B1 C1)%".toList e ↔ e = exRange.tree) ∧
    decompile env (exRange.enc env.bv) (exRange.enc env.bv).length = .ok (some "SUM(A1:B1 C1)%".toList) := by
  have ht : szdict env.bv = .ok sztab4 := by rw [he.bv]; rfl
  have hg : exRange.tree.LeftGrouped := by
    simp [exRange, exA, exB, exC, Stored.tree, Tree.LeftGrouped]
  obtain ⟨text, h1, h2⟩ := C50_text_partial env sztab4 ht exRange (exRange_ok env he) (by simp [exRange, Stored.tree]) hg []
  have h := decompile_text env sztab4 ht exRange (exRange_ok env he) []
  rw [h1] at h
  rw [List.append_nil] at h1
  have hx : Tree.text exRange.tree = "SUM(A1:B1 C1)%".toList := by
    simp only [exRange, exA, exB, exC, Stored.tree, Tree.text, Tree.rank, List.map_cons, List.map_nil]
    rfl
  rw [hx] at h
  cases h
  exact ⟨h2, h1⟩

/-- `A1-(B1-C1)` and `A1-B1-C1`. -/
def exInner : Stored := .bin .sub exA (.quiet [] [.parens] (.bin .sub exB exC))
def exOuter : Stored := .bin .sub (.bin .sub exA exB) exC

/-- **C50** fails for parentheses between operators of the same precedence: `A1-(B1-C1)` and `A1-B1-C1` have different tokens and different
trees, and the same text. -/
theorem C50_grouping_lost (env : DEnv) (he : AtF6 env) :
    Stored.Ok env sztab4 exInner ∧ Stored.Ok env sztab4 exOuter ∧ exInner.tree ≠ exOuter.tree ∧
      decompile env (exInner.enc 80) (exInner.enc 80).length = .ok (some "A1-B1-C1".toList) ∧
      decompile env (exOuter.enc 80) (exOuter.enc 80).length = .ok (some "A1-B1-C1".toList) := by
  have a := leaf_a1 env he
  have b := leaf_b1 env he
  have c := leaf_c1 env he
  have h1 : Stored.Ok env sztab4 exInner := by
    simp only [exInner, exA, exB, exC, Stored.Ok, Stored.tree]
    refine ⟨a, ⟨by simp, by simp [Quiet.Ok], b, c, ?_, ?_⟩, ?_, ?_⟩ <;> intro h <;> cases h
  have h2 : Stored.Ok env sztab4 exOuter := by
    simp only [exOuter, exA, exB, exC, Stored.Ok, Stored.tree]
    refine ⟨⟨a, b, ?_, ?_⟩, c, ?_, ?_⟩ <;> intro h <;> cases h
  have ht : szdict env.bv = .ok sztab4 := by rw [he.bv]; rfl
  refine ⟨h1, h2, by simp [exInner, exOuter, exA, exB, exC, Stored.tree], ?_, ?_⟩
  · have h := decompile_text env sztab4 ht exInner h1 []
    rw [he.bv, List.append_nil] at h
    rw [h]
    simp only [exInner, exA, exB, exC, Stored.tree, Tree.text, Tree.rank]
    rfl
  · have h := decompile_text env sztab4 ht exOuter h2 []
    rw [he.bv, List.append_nil] at h
    rw [h]
    simp only [exOuter, exA, exB, exC, Stored.tree, Tree.text, Tree.rank]
    rfl

/-- **C50** fails for a union that is an argument: `SUM((A1,B1))`, a sum over one area of two parts, has the text of `SUM(A1,B1)`, a sum of two
arguments. -/
theorem C50_union_lost (env : DEnv) (he : AtF6 env) :
    decompile env (firstRow 0 ++ firstRow 1 ++ [0x10, 0x15, 0x42, 1, 4, 0]) 16 = .ok (some "SUM(A1,B1)".toList) ∧
      decompile env (firstRow 0 ++ firstRow 1 ++ [0x42, 2, 4, 0]) 14 = .ok (some "SUM(A1,B1)".toList) := by
  obtain ⟨str, bv, bk, dec, rd, br, bc, rc⟩ := env
  obtain ⟨h1, h2, h3, h4, h5⟩ := he
  simp only at h1 h2 h3 h4 h5
  subst h1 h2 h3 h4 h5
  exact ⟨rfl, rfl⟩

/-- **C50** fails for constants that are errors: `#REF!` and the string `"#REF!"` have the same text, which is a string. -/
theorem C50_error_as_string (env : DEnv) (he : AtF6 env) :
    decompile env [0x1C, 0x17] 2 = .ok (some "\"#REF!\"".toList) ∧
      decompile env [0x17, 5, 0, 0x23, 0x52, 0x45, 0x46, 0x21] 8 = .ok (some "\"#REF!\"".toList) := by
  obtain ⟨str, bv, bk, dec, rd, br, bc, rc⟩ := env
  obtain ⟨h1, h2, h3, h4, h5⟩ := he
  simp only at h1 h2 h3 h4 h5
  subst h1 h2 h3 h4 h5
  exact ⟨rfl, rfl⟩

/-- **C50** fails for a range with an operand that is an error: `A1:#REF!` makes the reader fail. -/
theorem C50_range_of_error (env : DEnv) (he : AtF6 env) :
    decompile env (firstRow 0 ++ [0x1C, 0x17]) 7 = .ok none ∧ decompile env [0x1C, 0x17] 2 = .ok (some "\"#REF!\"".toList) ∧
      decompile env (firstRow 0 ++ [0x1C, 0x17, 0x11]) 8 = .error .attr := by
  obtain ⟨str, bv, bk, dec, rd, br, bc, rc⟩ := env
  obtain ⟨h1, h2, h3, h4, h5⟩ := he
  simp only at h1 h2 h3 h4 h5
  subst h1 h2 h3 h4 h5
  exact ⟨rfl, rfl, rfl⟩

/-- **C50** fails for calls without arguments of functions of which the number of arguments varies: the call takes everything that is on its left.
`A1+ROW()` makes the reader fail, `SUM(A1,COLUMN())` too. -/
theorem C50_no_arguments (env : DEnv) (he : AtF6 env) :
    decompile env [0x42, 0, 8, 0] 4 = .ok (some "ROW()".toList) ∧
      decompile env (firstRow 0 ++ [0x42, 0, 8, 0]) 9 = .ok (some "ROW(A1)".toList) ∧
      decompile env (firstRow 0 ++ [0x42, 0, 8, 0, 0x03]) 10 = .error .assertion ∧
      decompile env (firstRow 0 ++ [0x42, 0, 9, 0, 0x42, 2, 4, 0]) 13 = .error .assertion := by
  obtain ⟨str, bv, bk, dec, rd, br, bc, rc⟩ := env
  obtain ⟨h1, h2, h3, h4, h5⟩ := he
  simp only at h1 h2 h3 h4 h5
  subst h1 h2 h3 h4 h5
  exact ⟨rfl, rfl, rfl, rfl⟩

/-- **C50** fails for a function that is not in the table: it is shown as a question mark and its arguments stay, so that `A1+F(B1)` has no text. -/
theorem C50_unknown_function (env : DEnv) (he : AtF6 env) :
    decompile env (firstRow 0 ++ firstRow 1 ++ [0x42, 1, 0xFF, 0x7F, 0x03]) 15 = .ok none ∧
      decompile env (firstRow 1 ++ [0x42, 1, 0xFF, 0x7F]) 9 = .ok none ∧
      decompile env [0x42, 0, 0xFF, 0x7F] 4 = .ok (some "?".toList) := by
  obtain ⟨str, bv, bk, dec, rd, br, bc, rc⟩ := env
  obtain ⟨h1, h2, h3, h4, h5⟩ := he
  simp only at h1 h2 h3 h4 h5
  subst h1 h2 h3 h4 h5
  exact ⟨rfl, rfl, rfl⟩

end Xlrd
