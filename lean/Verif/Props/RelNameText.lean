import Verif.Props.NameText
import Verif.Props.RelNames
import Verif.Props.FormulaSheets
import Verif.Props.Names3

/-! # The text of a name that is relative to the cell where it is used (C89, part 2)

`C89_decompiled_partial` compares two functions of the library.  Here the text of a relative reference is read back by the independent reader of
`Verif.Spec.Names`: it gives the names of the sheets and exactly the coordinates that the file stores, offsets as offsets. -/

set_option linter.unusedSimpArgs false

namespace Xlrd
open Spec

theorem coord_back (c : Coord) : (if c.isRel then Coord.rel c.num else Coord.abs c.num.toNat) = c := by
  cases c <;> simp [Coord.isRel, Coord.num]
theorem coord_back_succ (c : Coord) : (if c.isRel then Coord.rel (c.num + 1 - 1) else Coord.abs (c.num + 1 - 1).toNat) = c := by
  rw [Int.add_sub_cancel]
  exact coord_back c
theorem coord_nonneg (c : Coord) (h : c.isRel = false) : 0 ≤ c.num := by
  cases c with
  | abs n => simp [Coord.num]
  | rel k => cases h

/-- The text of the operand of a relative reference. -/
theorem relref_text (bk : Book) {x y : Nat} (hxy : x ≤ y) {n1 n2 : PyStr} (h1 : bk.sheetNames[x]? = some n1) (h2 : bk.sheetNames[y]? = some n2)
    (hc1 : ClearName n1) (hc2 : ClearName n2) (k : Nat) (r1 r2 c1 c2 : Coord) :
    ∃ (o : Opnd) (t : PyStr), ref3dOpnd bk k (mkRef3d ((x : Int), (y : Int)) (addrOf r1 c1) (addrOf r2 c2)) true none none true = .ok o ∧
      readSheets o.text = some ((n1, n2), t) ∧ readPair readRC t = some ((r1, c1), (r2, c2)) := by
  obtain ⟨hx, e1⟩ := List.getElem?_eq_some_iff.mp h1
  obtain ⟨hy, e2⟩ := List.getElem?_eq_some_iff.mp h2
  obtain ⟨s, t, hs, ht, hp⟩ := C69_rangename3drel_r1c1_reads_back_partial bk.sheetNames x (y + 1) (by omega) (by omega)
    (by rw [e1]; exact hc1) (by simp only [Nat.add_sub_cancel]; rw [e2]; exact hc2)
    r1.num (r2.num + 1) c1.num (c2.num + 1) none none r1.isRel r2.isRel c1.isRel c2.isRel
    (coord_nonneg r1) (coord_nonneg c1) (fun h => by have := coord_nonneg r2 h; omega) (fun h => by have := coord_nonneg c2 h; omega)
  refine ⟨{ kind := .relref, value := if k = 1 then some (.refs [mkRef3d ((x : Int), (y : Int)) (addrOf r1 c1) (addrOf r2 c2)]) else none,
            rank := LEAF_RANK, text := s }, t, ?_, ?_, ?_⟩
  · unfold ref3dOpnd
    rw [if_pos rfl]
    simp only [mkRef3d, addrOf, List.getD_cons_zero, List.getD_cons_succ]
    push_cast at hs
    rw [hs]
    rfl
  · rw [ht]
    simp only [Nat.add_sub_cancel, e1, e2]
  · rw [hp, coord_back, coord_back, coord_back_succ, coord_back_succ]

/-- A formula of one token. -/
theorem decompile_one {env : DEnv} {tab : List Int} (htab : szdict env.bv = .ok tab) {data : Bytes} {len : Nat} (hl : 0 < len) {o : DOpnd}
    (h : dStep env tab data len 0 [] = .ok ([some o], (len : Int))) :
    decompile env data len = .ok (some o.text) ∧ formulaTokens env data len = [0] := by
  obtain ⟨n, rfl⟩ : ∃ n, len = n + 1 := ⟨len - 1, by omega⟩
  have hend : ¬ (0 ≤ ((n + 1 : Nat) : Int) ∧ ((n + 1 : Nat) : Int) < ((n + 1 : Nat) : Int)) := by omega
  constructor
  · unfold decompile
    rw [htab]
    have hl : dLoop env tab data (n + 1) (n + 1) [] 0 = .ok [some o] := by
      simp only [dLoop]
      rw [if_pos (show 0 ≤ (0 : Int) ∧ (0 : Int) < ((n + 1 : Nat) : Int) by omega), h]
      simp only [bind, Except.bind]
      cases n with
      | zero => simp only [dLoop]; rw [if_neg hend]
      | succ m => simp only [dLoop]; rw [if_neg hend]
    simp only [bind, Except.bind]
    rw [if_neg (by omega), hl]
    rfl
  · unfold formulaTokens
    rw [htab]
    simp only [tokensFrom]
    rw [if_neg (show ¬ n + 1 = 0 by omega), if_pos (show 0 ≤ (0 : Int) ∧ (0 : Int) < ((n + 1 : Nat) : Int) by omega), h]
    cases n with
    | zero => rfl
    | succ m => simp only [tokensFrom]; rw [if_neg hend]

/-- The entry of a name with one relative reference, if the token is known to give the operand `o`. -/
theorem one_token_name {loc : Bytes → Nat → Nat → Prop} {env : FEnv} (hb : RelBook loc env) {tbl : NameTbl} (h : bookNames env = .ok tbl) {i : Nat} {x : RelExpr}
    {l : List MovingArea} (hx : RelFormula env.bv env.bk.nameObjs i x) (hv : RelVal env.bv loc env.bk.nameObjs x l) {b : UInt8} {tl : Bytes}
    (htok : x.tokens env.bv = b :: tl) (hop : b.toNat % 32 = 0x1A ∨ b.toNat % 32 = 0x1B) {tab : List Int} (htab : szdict env.bv = .ok tab) {d : DOpnd}
    (hstep : ∀ rest, dStep (env.texts true) tab ((b :: tl) ++ rest) (b :: tl).length 0 [] = .ok ([some d], ((b :: tl).length : Int))) :
    ∃ e o, tbl[i]? = some (some e) ∧ e.result = some o ∧ o.text = d.text := by
  obtain ⟨hg, _⟩ := bookNames_inv (rel_kept hb) (by
    intro i e x l hi
    rw [List.getElem?_map] at hi
    cases h1 : env.bk.nameObjs[i]? with
    | none => rw [h1] at hi; cases hi
    | some o => rw [h1] at hi; cases hi) h
  obtain ⟨o, rest, hi, hm, hbin, hraw, hlen⟩ := id hx
  rw [htok] at hraw hlen
  obtain ⟨hd, hp⟩ := decompile_one (env := env.texts true) htab (data := o.rawFormula) (len := o.basicFormulaLen) (by rw [hlen]; simp) (o := d)
    (by rw [hraw, hlen]; exact hstep rest)
  have hbyte : byteAt o.rawFormula 0 = .ok b.toNat := by
    rw [hraw]
    rfl
  obtain ⟨e, he, hres⟩ := C89_decompiled_partial env tbl h i o hi hm hbin true (by
    intro pos hpos
    rw [hp, List.mem_singleton] at hpos
    subst hpos
    refine ⟨?_, ?_⟩
    · intro op n hb' h2
      rw [hbyte] at hb'
      cases hb'
      omega
    · intro op f s hb' h2
      rw [hbyte] at hb'
      cases hb'
      omega) d.text hd
  obtain ⟨op, rel, heq, _⟩ := hg i e x l he hx hv
  obtain ⟨y, hy, ht⟩ := hres (.inl ⟨rfl, by
    intro pos hpos
    rw [hp, List.mem_singleton] at hpos
    subst hpos
    intro op hb' _
    rw [hbyte] at hb'
    cases hb'
    omega⟩) (by rw [heq])
  exact ⟨e, y, he, hy, ht⟩

theorem tokenSheets_loc {loc : Bytes → Nat → Nat → Prop} {env : FEnv} (hb : RelBook loc env) {sh : Bytes} {x y : Nat} (hl : loc sh x y) (r1c1 : Bool) :
    TokenSheets (env.texts r1c1) sh x y := by
  obtain ⟨h1, h2⟩ := hb.loc sh x y hl
  refine ⟨h1, ?_⟩
  intro data post p b hd
  have hp : p ≤ data.length := by
    by_contra hc
    rw [List.drop_eq_nil_of_le (by omega)] at hd
    cases hd
  have := h2 (data.take p) b post
  rw [← hd, List.take_append_drop, List.length_take, Nat.min_eq_left hp] at this
  exact this

/-- What a token of an area with a sheet and a relative bound does. -/
theorem relarea_step {env : DEnv} {tab : List Int} (ht : szdict env.bv = .ok tab) (h50 : 50 ≤ env.bv) {sh : Bytes} {x y : Nat} (hs : TokenSheets env sh x y)
    {r1 r2 c1 c2 : Coord} (hf1 : AddrFits env.bv r1 c1) (hf2 : AddrFits env.bv r2 c2) (hrel : r1.isRel ∨ c1.isRel ∨ r2.isRel ∨ c2.isRel)
    (hd : env.reldelta = true) {o : Opnd}
    (ho : ref3dOpnd env.bk 0 (mkRef3d ((x : Int), (y : Int)) (addrOf r1 c1) (addrOf r2 c2)) true env.browx env.bcolx env.r1c1 = .ok o) (post : Bytes) {n : Nat} :
    dStep env tab ((0x3B :: (sh ++ encArea env.bv r1 r2 c1 c2)) ++ post) n 0 [] =
      .ok ([some { kind := o.kind, rank := o.rank, text := o.text }], ((0x3B :: (sh ++ encArea env.bv r1 r2 c1 c2) : Bytes).length : Int)) := by
  have hg := C47_area_address env.bv r1 r2 c1 c2 hf1 hf2 none none (0x3B :: sh) post
  have hsh := hs.2 (0x3B :: (sh ++ encArea env.bv r1 r2 c1 c2) ++ post) (encArea env.bv r1 r2 c1 c2 ++ post) 0 0x3B (by simp)
  have hsz : tab.getD (0x1B + 32) (-2) = ((1 + (sh ++ encArea env.bv r1 r2 c1 c2).length : Nat) : Int) := by
    rw [List.length_append, show encArea env.bv r1 r2 c1 c2 = encAreaRaw env.bv _ _ _ _ _ _ _ _ from rfl, encAreaRaw_length, hs.1, ((token_sizes3 ht).2 h50).2.2]
    by_cases hv : env.bv ≥ 80 <;> simp [hv]
  have hpos : (if env.bv ≥ 80 then (0 : Int) + 3 else (0 : Int) + 15) = (((0x3B : UInt8) :: sh).length : Int) := by
    rw [List.length_cons, hs.1]
    by_cases hv : env.bv ≥ 80 <;> simp [hv]
  have hall : ((addrOf r1 c1).rowRel || (addrOf r1 c1).colRel || (addrOf r2 c2).rowRel || (addrOf r2 c2).colRel) = true := by
    simp only [addrOf]
    rcases hrel with e | e | e | e <;> simp [e]
  have key := step_class (env := env) (tab := tab) (data := 0x3B :: (sh ++ encArea env.bv r1 r2 c1 c2) ++ post) (p := 0) (n := n) (stk := []) (b := 0x3B)
    (post := sh ++ encArea env.bv r1 r2 c1 c2 ++ post) (by simp) (c := 0x1B) (by decide) (by decide) (by rw [hsz]; omega)
    (s' := [some { kind := o.kind, rank := o.rank, text := o.text }]) (by
      show (do let o ← dArea3d env _ ((0 : Nat) : Int); pure (some o :: [])) = _
      unfold dArea3d
      rw [Int.natCast_zero, hpos, hd]
      rw [List.cons_append] at hg
      rw [hg]
      simp only [bind, Except.bind]
      rw [Int.natCast_zero] at hsh
      rw [hsh]
      simp only
      rw [hall, ho]
      rfl)
  rw [Int.natCast_zero] at key
  rw [key, hsz]
  simp only [List.length_cons]
  refine congrArg Except.ok (Prod.ext rfl ?_)
  push_cast; ring

/-- What a token of a cell with a sheet and a relative coordinate does. -/
theorem relcell_step {env : DEnv} {tab : List Int} (ht : szdict env.bv = .ok tab) (h50 : 50 ≤ env.bv) {sh : Bytes} {x y : Nat} (hs : TokenSheets env sh x y)
    {r c : Coord} (hf : AddrFits env.bv r c) (hrel : r.isRel ∨ c.isRel)
    (hd : env.reldelta = true) {o : Opnd}
    (ho : ref3dOpnd env.bk 0 (mkRef3d ((x : Int), (y : Int)) (addrOf r c) (addrOf r c)) true env.browx env.bcolx env.r1c1 = .ok o) (post : Bytes) {n : Nat} :
    dStep env tab ((0x3A :: (sh ++ encAddr env.bv r c)) ++ post) n 0 [] =
      .ok ([some { kind := o.kind, rank := o.rank, text := o.text }], ((0x3A :: (sh ++ encAddr env.bv r c) : Bytes).length : Int)) := by
  have hg := C47_cell_address env.bv r c hf env.browx env.bcolx (0x3A :: sh) post
  have hsh := hs.2 (0x3A :: (sh ++ encAddr env.bv r c) ++ post) (encAddr env.bv r c ++ post) 0 0x3A (by simp)
  have hsz : tab.getD (0x1A + 32) (-2) = ((1 + (sh ++ encAddr env.bv r c).length : Nat) : Int) := by
    rw [List.length_append, show encAddr env.bv r c = encAddrRaw env.bv _ _ _ _ from rfl, encAddrRaw_length, hs.1, ((token_sizes3 ht).2 h50).2.1]
    by_cases hv : env.bv ≥ 80 <;> simp [hv]
  have hpos : (if env.bv ≥ 80 then (0 : Int) + 3 else (0 : Int) + 15) = (((0x3A : UInt8) :: sh).length : Int) := by
    rw [List.length_cons, hs.1]
    by_cases hv : env.bv ≥ 80 <;> simp [hv]
  have hall : ((addrOf r c).rowRel || (addrOf r c).colRel) = true := by
    simp only [addrOf]
    rcases hrel with e | e <;> simp [e]
  have key := step_class (env := env) (tab := tab) (data := 0x3A :: (sh ++ encAddr env.bv r c) ++ post) (p := 0) (n := n) (stk := []) (b := 0x3A)
    (post := sh ++ encAddr env.bv r c ++ post) (by simp) (c := 0x1A) (by decide) (by decide) (by rw [hsz]; omega)
    (s' := [some { kind := o.kind, rank := o.rank, text := o.text }]) (by
      show (do let o ← dRef3d env _ ((0 : Nat) : Int); pure (some o :: [])) = _
      unfold dRef3d
      rw [Int.natCast_zero, hpos, hd]
      rw [List.cons_append] at hg
      rw [hg]
      simp only [bind, Except.bind]
      rw [Int.natCast_zero] at hsh
      rw [hsh]
      simp only
      rw [hall, ho]
      rfl)
  rw [Int.natCast_zero] at key
  rw [key, hsz]
  simp only [List.length_cons]
  refine congrArg Except.ok (Prod.ext rfl ?_)
  push_cast; ring

/-- **C89** (relative references to areas).  The text of the result of a name whose formula is a reference to an area of which at least one bound is
relative, read back, is the sheets and exactly the stored bounds: relative ones as offsets, absolute ones as numbers.  Missing: references within other expressions, where
the text is only known to be that of `decompile_formula`, and relative references without a sheet (see `C89_relative_lost`). -/
theorem C89_relative_area_partial (env : FEnv) (loc : Bytes → Nat → Nat → Prop) (hb : RelBook loc env) (tbl : NameTbl) (h : bookNames env = .ok tbl) (i : Nat)
    (sh : Bytes) (r1 r2 c1 c2 : Coord) (hx : RelFormula env.bv env.bk.nameObjs i (.area sh r1 r2 c1 c2)) (x y : Nat) (hl : loc sh x y) (hxy : x ≤ y)
    (n1 n2 : PyStr) (h1 : env.bk.sheetNames[x]? = some n1) (h2 : env.bk.sheetNames[y]? = some n2) (hc1 : ClearName n1) (hc2 : ClearName n2)
    (hf1 : AddrFits env.bv r1 c1) (hf2 : AddrFits env.bv r2 c2) (hrel : r1.isRel ∨ c1.isRel ∨ r2.isRel ∨ c2.isRel) :
    ∃ e o t, tbl[i]? = some (some e) ∧ e.result = some o ∧ readSheets o.text = some ((n1, n2), t) ∧ readPair readRC t = some ((r1, c1), (r2, c2)) := by
  obtain ⟨tab, htab⟩ : ∃ tab, szdict env.bv = .ok tab := by
    rcases hb.bv with e | e | e <;> rw [e] <;> exact ⟨_, rfl⟩
  have h50 : 50 ≤ env.bv := by rcases hb.bv with e | e | e <;> omega
  obtain ⟨o, t, ho, hs, hp⟩ := relref_text env.bk hxy h1 h2 hc1 hc2 0 r1 r2 c1 c2
  have hts := tokenSheets_loc hb hl true
  obtain ⟨e, q, he, hq, ht⟩ := one_token_name hb h hx (.area sh r1 r2 c1 c2 x y hl hf1 hf2) (b := 0x3B) rfl (.inr rfl) htab
    (d := { kind := o.kind, rank := o.rank, text := o.text }) (fun rest => relarea_step htab h50 hts hf1 hf2 hrel rfl ho rest)
  exact ⟨e, q, t, he, hq, by rw [ht]; exact hs, hp⟩

/-- The same for a reference to a cell: both corners are that cell. -/
theorem C89_relative_cell_partial (env : FEnv) (loc : Bytes → Nat → Nat → Prop) (hb : RelBook loc env) (tbl : NameTbl) (h : bookNames env = .ok tbl) (i : Nat)
    (sh : Bytes) (r c : Coord) (hx : RelFormula env.bv env.bk.nameObjs i (.cell sh r c)) (x y : Nat) (hl : loc sh x y) (hxy : x ≤ y)
    (n1 n2 : PyStr) (h1 : env.bk.sheetNames[x]? = some n1) (h2 : env.bk.sheetNames[y]? = some n2) (hc1 : ClearName n1) (hc2 : ClearName n2)
    (hf : AddrFits env.bv r c) (hrel : r.isRel ∨ c.isRel) :
    ∃ e o t, tbl[i]? = some (some e) ∧ e.result = some o ∧ readSheets o.text = some ((n1, n2), t) ∧ readPair readRC t = some ((r, c), (r, c)) := by
  obtain ⟨tab, htab⟩ : ∃ tab, szdict env.bv = .ok tab := by
    rcases hb.bv with e | e | e <;> rw [e] <;> exact ⟨_, rfl⟩
  have h50 : 50 ≤ env.bv := by rcases hb.bv with e | e | e <;> omega
  obtain ⟨o, t, ho, hs, hp⟩ := relref_text env.bk hxy h1 h2 hc1 hc2 0 r r c c
  have hts := tokenSheets_loc hb hl true
  obtain ⟨e, q, he, hq, ht⟩ := one_token_name hb h hx (.cell sh r c x y hl hf) (b := 0x3A) rfl (.inl rfl) htab
    (d := { kind := o.kind, rank := o.rank, text := o.text }) (fun rest => relcell_step htab h50 hts hf hrel rfl ho rest)
  exact ⟨e, q, t, he, hq, by rw [ht]; exact hs, hp⟩

/-- **C89** (areas on sheets).  The text of the result of a name whose formula is an absolute reference to an area on a range of sheets, read back, is those sheets and
that area. -/
theorem C89_sheets_area_partial (env : FEnv) (loc : Bytes → Nat → Nat → Prop) (hb : RelBook loc env) (tbl : NameTbl) (h : bookNames env = .ok tbl) (i : Nat)
    (sh : Bytes) (r r' c c' : Nat) (hx : RelFormula env.bv env.bk.nameObjs i (.area sh (.abs r) (.abs r') (.abs c) (.abs c'))) (x y : Nat) (hl : loc sh x y)
    (hxy : x ≤ y) (n1 n2 : PyStr) (h1 : env.bk.sheetNames[x]? = some n1) (h2 : env.bk.sheetNames[y]? = some n2) (hc1 : ClearName n1) (hc2 : ClearName n2)
    (hr : r ≤ r') (hc : c ≤ c') (hr' : r' < rowCount env.bv) (hc' : c' < 256) :
    ∃ e o, tbl[i]? = some (some e) ∧ e.result = some o ∧ read3d o.text = some ((n1, n2), (r, r' + 1, c, c' + 1)) := by
  obtain ⟨tab, htab⟩ : ∃ tab, szdict env.bv = .ok tab := by
    rcases hb.bv with e | e | e <;> rw [e] <;> exact ⟨_, rfl⟩
  have h50 : 50 ≤ env.bv := by rcases hb.bv with e | e | e <;> omega
  obtain ⟨t, ht, hstep⟩ := C50_sheets_area_text (env.texts true) tab htab h50 .ref sh x y (tokenSheets_loc hb hl true) hxy n1 n2 h1 h2 hc1 hc2 r c r' c' hr hc hr' hc'
  have hf1 : AddrFits env.bv (.abs r) (.abs c) := ⟨Nat.lt_of_le_of_lt hr hr', Nat.lt_of_le_of_lt hc hc'⟩
  have hf2 : AddrFits env.bv (.abs r') (.abs c') := ⟨hr', hc'⟩
  obtain ⟨e, o, he, ho, hot⟩ := one_token_name hb h hx (.area sh _ _ _ _ x y hl hf1 hf2) (b := 0x3B) rfl (.inr rfl) htab (d := { kind := .ref, rank := 90, text := t })
    (fun rest => by
      have := hstep (0x3B :: (sh ++ encArea env.bv (.abs r) (.abs r') (.abs c) (.abs c')) ++ rest) rest 0
        (0x3B :: (sh ++ encArea env.bv (.abs r) (.abs r') (.abs c) (.abs c')) : Bytes).length [] rfl
      rw [Int.natCast_zero, Int.zero_add] at this
      exact this)
  exact ⟨e, o, he, ho, by rw [hot]; exact ht⟩

/-- The same for a cell. -/
theorem C89_sheets_cell_partial (env : FEnv) (loc : Bytes → Nat → Nat → Prop) (hb : RelBook loc env) (tbl : NameTbl) (h : bookNames env = .ok tbl) (i : Nat)
    (sh : Bytes) (r c : Nat) (hx : RelFormula env.bv env.bk.nameObjs i (.cell sh (.abs r) (.abs c))) (x y : Nat) (hl : loc sh x y)
    (hxy : x ≤ y) (n1 n2 : PyStr) (h1 : env.bk.sheetNames[x]? = some n1) (h2 : env.bk.sheetNames[y]? = some n2) (hc1 : ClearName n1) (hc2 : ClearName n2)
    (hr : r < rowCount env.bv) (hc : c < 256) :
    ∃ e o, tbl[i]? = some (some e) ∧ e.result = some o ∧ read3d o.text = some ((n1, n2), (r, r + 1, c, c + 1)) := by
  obtain ⟨tab, htab⟩ : ∃ tab, szdict env.bv = .ok tab := by
    rcases hb.bv with e | e | e <;> rw [e] <;> exact ⟨_, rfl⟩
  have h50 : 50 ≤ env.bv := by rcases hb.bv with e | e | e <;> omega
  obtain ⟨t, ht, hstep⟩ := C50_sheets_cell_text (env.texts true) tab htab h50 .ref sh x y (tokenSheets_loc hb hl true) hxy n1 n2 h1 h2 hc1 hc2 r c hr hc
  have hf : AddrFits env.bv (.abs r) (.abs c) := ⟨hr, hc⟩
  obtain ⟨e, o, he, ho, hot⟩ := one_token_name hb h hx (.cell sh _ _ x y hl hf) (b := 0x3A) rfl (.inl rfl) htab (d := { kind := .ref, rank := 90, text := t })
    (fun rest => by
      have := hstep (0x3A :: (sh ++ encAddr env.bv (.abs r) (.abs c)) ++ rest) rest 0
        (0x3A :: (sh ++ encAddr env.bv (.abs r) (.abs c)) : Bytes).length [] rfl
      rw [Int.natCast_zero, Int.zero_add] at this
      exact this)
  exact ⟨e, o, he, ho, by rw [hot]; exact ht⟩

/-- **C89** (workbooks, BIFF8).  The same from the records of a workbook to the text. -/
theorem C89_relative_workbook_partial (env : BookEnv) (h8 : env.bv = 80) (pre post eof : Bytes) (he : eof.length < 65536) (items : List GItem)
    (hok : GlobalsOk env.bv items) (sheets : List SheetRec) (hsh : Sheets env.bv (textAt env) items sheets) (refs : List ExtRef)
    (hr : Externs items refs) (names : List NameObj) (hn : Names env.bv (textAt env) items names) (b : Book) (p : Int)
    (h : parseGlobals env (pre ++ encGlobals items eof ++ post) newBook (pre.length : Int) = .ok (b, p))
    (fenv : FEnv) (hbv : fenv.bv = 80) (hb : SameTables fenv.bk b) (tbl : NameTbl) (ht : bookNames fenv = .ok tbl)
    (i : Nat) (sh : Bytes) (r1 r2 c1 c2 : Coord) (hx : RelFormula 80 names i (.area sh r1 r2 c1 c2)) (x y : Nat)
    (hl : NewSheets (supbooks items) sheets refs sh x y) (hxy : x ≤ y) (n1 n2 : PyStr) (h1 : b.sheetNames[x]? = some n1) (h2 : b.sheetNames[y]? = some n2)
    (hc1 : ClearName n1) (hc2 : ClearName n2) (hf1 : AddrFits 80 r1 c1) (hf2 : AddrFits 80 r2 c2) (hrel : r1.isRel ∨ c1.isRel ∨ r2.isRel ∨ c2.isRel) :
    ∃ e o t, tbl[i]? = some (some e) ∧ e.result = some o ∧ readSheets o.text = some ((n1, n2), t) ∧ readPair readRC t = some ((r1, c1), (r2, c2)) := by
  obtain ⟨hrb, hm⟩ := rel_book h8 he hok hsh hr hn h hbv hb
  rw [← hbv] at hx hf1 hf2
  rw [← hb.sheetNames] at h1 h2
  exact C89_relative_area_partial fenv _ hrb tbl ht i sh r1 r2 c1 c2 (relFormula_mono hm hx) x y hl hxy n1 n2 h1 h2 hc1 hc2 hf1 hf2 hrel

/-- **C89** (workbooks, BIFF5 and BIFF7). -/
theorem C89_old_relative_workbook_partial (env : BookEnv) (h57 : env.bv = 50 ∨ env.bv = 70) (pre post eof : Bytes) (he : eof.length < 65536) (items : List GItem)
    (hok : GlobalsOk env.bv items) (sheets : List SheetRec) (hsh : Sheets env.bv (textAt env) items sheets)
    (names : List NameObj) (hn : Names env.bv (textAt env) items names) (b : Book) (p : Int)
    (h : parseGlobals env (pre ++ encGlobals items eof ++ post) newBook (pre.length : Int) = .ok (b, p))
    (fenv : FEnv) (hbv : fenv.bv = env.bv) (hb : SameTables fenv.bk b) (tbl : NameTbl) (ht : bookNames fenv = .ok tbl)
    (i : Nat) (sh : Bytes) (r c : Coord) (hx : RelFormula env.bv names i (.cell sh r c)) (x y : Nat)
    (hl : OwnSheets sheets sh x y) (hxy : x ≤ y) (n1 n2 : PyStr) (h1 : b.sheetNames[x]? = some n1) (h2 : b.sheetNames[y]? = some n2)
    (hc1 : ClearName n1) (hc2 : ClearName n2) (hf : AddrFits env.bv r c) (hrel : r.isRel ∨ c.isRel) :
    ∃ e o t, tbl[i]? = some (some e) ∧ e.result = some o ∧ readSheets o.text = some ((n1, n2), t) ∧ readPair readRC t = some ((r, c), (r, c)) := by
  obtain ⟨hrb, hm⟩ := rel_book_old h57 he hok hsh hn h hbv hb
  rw [← hbv] at hx hf
  rw [← hb.sheetNames] at h1 h2
  exact C89_relative_cell_partial fenv _ hrb tbl ht i sh r c (relFormula_mono hm hx) x y hl hxy n1 n2 h1 h2 hc1 hc2 hf hrel

end Xlrd
