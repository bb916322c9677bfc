import Verif.Spec.Computable
import Verif.Props.NameExprOld
import Verif.Lemmas.NamesOk

/-!
# The evaluation of names does not fail for safe expressions
-/
set_option linter.unusedSimpArgs false
set_option linter.unusedVariables false

namespace Xlrd
open Spec

/-- `D` says what Python can compute. -/
structure PyCan (ops : PyOps) (D : Can) : Prop where
  arith : ∀ (o : Op2) (x y : Number), o.isCalc = true → D.arith o x y → (o = .div → y.pval.isZero = false) ∧ ∃ r, ops.arith o.code.toNat x.pval y.pval = .ok r
  cat : ∀ s t : PyStr, ∃ r, ops.arith 0x08 (.str s) (.str t) = .ok r
  compare : ∀ (o : Op2) (v w : Value) (p q : PVal), o.isCompare = true → v.scalar = some p → w.scalar = some q → D.compare o v w → ∃ r, ops.cmp o.code.toNat p q = .ok r
  parse : ∀ s : PyStr, D.parse s → ∃ r, ops.toFloat (.str s) = .ok r
  negate : ∀ n : Number, ∃ r, ops.neg n.pval = .ok r
  percent : ∀ n : Number, ∃ r, ops.percent n.pval = .ok r

variable {C : Calc} {D : Can} {loc : Nat → Nat → Nat → Prop} {fs : Nat → Option VExpr} {env : FEnv} {rc : NameTbl → Nat → Int → R NameTbl} {tab : List Int}
  {namex : Int} {data : Bytes} {n : Nat}

/-- Evaluation of the tokens of an expression goes on after them, with an operand that agrees with the expression. -/
def VSteps (C : Calc) (loc : Nat → Nat → Nat → Prop) (fs : Nat → Option VExpr) (env : FEnv) (rc : NameTbl → Nat → Int → R NameTbl) (tab : List Int)
    (namex : Int) (data : Bytes) (n : Nat) (x : VExpr) (toks : Bytes) : Prop :=
  ∀ (p : Nat) (rest : Bytes) (fuel : Nat) (st : EvSt), data.drop p = toks ++ rest → VGood C loc fs st.tbl → st.tbl.length = n → toks.length ≤ fuel →
    ∃ f o tbl, Agree C loc fs x o ∧ (NoNumber x → o.kind ≠ .num) ∧ VGood C loc fs tbl ∧ tbl.length = n ∧ fuel ≤ f + toks.length ∧
      ∀ len, p + toks.length ≤ len → evLoop env rc tab namex data len fuel st (p : Int) =
        evLoop env rc tab namex data len f { st with stack := o :: st.stack, tbl := tbl } ((p + toks.length : Nat) : Int)

/-- As `VSteps`, with less about the state. -/
def VWeak (C : Calc) (loc : Nat → Nat → Nat → Prop) (fs : Nat → Option VExpr) (env : FEnv) (rc : NameTbl → Nat → Int → R NameTbl) (tab : List Int)
    (namex : Int) (data : Bytes) (n : Nat) (x : VExpr) (toks : Bytes) : Prop :=
  ∀ (p : Nat) (rest : Bytes) (fuel : Nat) (st : EvSt), data.drop p = toks ++ rest → VGood C loc fs st.tbl → st.tbl.length = n → toks.length ≤ fuel →
    ∃ f st1, (NoNumber x → ∀ o s, st1.stack = o :: s → o.kind ≠ .num) ∧ st1.tbl.length = n ∧ fuel ≤ f + toks.length ∧
      ∀ len, p + toks.length ≤ len → evLoop env rc tab namex data len fuel st (p : Int) = evLoop env rc tab namex data len f st1 ((p + toks.length : Nat) : Int)

theorem evLoop_end {len f : Nat} {st : EvSt} : evLoop env rc tab namex data len f st (len : Int) = .ok st := by
  cases f <;> simp only [evLoop] <;> rw [if_neg (by omega)]

theorem vsteps_of {x : VExpr} {toks : Bytes} (hr : ∀ len st', VRuns C loc fs env rc tab namex data len st' x toks) (h : VWeak C loc fs env rc tab namex data n x toks) :
    VSteps C loc fs env rc tab namex data n x toks := by
  intro p rest fuel st hd hg hn hfu
  obtain ⟨f, st1, hk, hn1, hf, he⟩ := h p rest fuel st hd hg hn hfu
  have h1 := he (p + toks.length) (Nat.le_refl _)
  rw [evLoop_end] at h1
  obtain ⟨g, o, tbl, ho, hg1, h2⟩ := hr (p + toks.length) st1 p rest fuel st hd (Nat.le_refl _) hg h1
  rw [evLoop_end] at h2
  cases h2
  exact ⟨f, o, tbl, ho, fun hx => hk hx o _ rfl, hg1, hn1, hf, he⟩

/-! ## Steps -/

theorem splain {rest : Bytes} {p : Nat} {b : UInt8} {st : EvSt} (h : data.drop p = b :: rest) {c : Nat} {s0 : Int} (hc : b.toNat = c) (hlt : c < 32)
    (hs : tab.getD c (-2) = s0) (h2 : s0 ≠ -2) {s : List Opnd} {z : Int} (he : evPlain env data p c s0 st.stack = .ok (s, z)) (hz : 0 < z) :
    evStep env rc tab namex data p st = .ok ({ st with stack := s }, (p : Int) + z) := by
  unfold evStep
  rw [byteAt_at h]
  simp only [bind, Except.bind]
  rw [hc, show c % 32 = c by omega, show c / 32 % 4 = 0 by omega]
  simp only [if_true, hs, if_neg h2, he]
  rw [if_neg (by omega)]
  rfl

theorem sclass {rest : Bytes} {p : Nat} {cls : Cls} {c : Nat} {st st1 : EvSt} (h : data.drop p = UInt8.ofNat (cls.code + c) :: rest) (hlt : c < 32) {sz : Int}
    (hs : tab.getD (c + 32) (-2) = sz) (hz : 0 < sz) (he : evClass env rc namex data p c cls.num st = .ok st1) :
    evStep env rc tab namex data p st = .ok (st1, (p : Int) + sz) := by
  obtain ⟨h1, h2⟩ := cls_num cls c hlt
  rw [evStep_class st h h1 h2 (by cases cls <;> decide) hs hz, he]
  rfl

/-- One token. -/
theorem weak_one {x : VExpr} {toks : Bytes} (hne : 0 < toks.length)
    (h : ∀ (p : Nat) (rest : Bytes) (st : EvSt), data.drop p = toks ++ rest → VGood C loc fs st.tbl → st.tbl.length = n →
      ∃ st1, evStep env rc tab namex data p st = .ok (st1, ((p + toks.length : Nat) : Int)) ∧ st1.tbl.length = n ∧
        (NoNumber x → ∀ o s, st1.stack = o :: s → o.kind ≠ .num)) : VWeak C loc fs env rc tab namex data n x toks := by
  intro p rest fuel st hd hg hn hfu
  obtain ⟨st1, h1, h2, h3⟩ := h p rest st hd hg hn
  obtain ⟨f, rfl⟩ : ∃ f, fuel = f + 1 := ⟨fuel - 1, by omega⟩
  exact ⟨f, st1, h3, h2, by omega, fun len hl => evLoop_next (by omega) h1⟩

/-- A token that pushes a constant. -/
theorem weak_const {x : VExpr} (hx : ¬ NoNumber x) {b : UInt8} {d : Bytes} {c : Nat} (hc : b.toNat = c) (hlt : c < 32) {s0 : Int} (hs : tab.getD c (-2) = s0) (h2 : s0 ≠ -2)
    (hp : ∀ (p : Nat) (rest : Bytes) (stk : List Opnd), data.drop p = b :: (d ++ rest) → ∃ s, evPlain env data p c s0 stk = .ok (s, ((1 + d.length : Nat) : Int))) :
    VWeak C loc fs env rc tab namex data n x (b :: d) := by
  refine weak_one (by simp) ?_
  intro p rest st hd hg hn
  obtain ⟨s, h1⟩ := hp p rest st.stack hd
  refine ⟨{ st with stack := s }, ?_, hn, fun h => absurd h hx⟩
  rw [splain hd hc hlt hs h2 h1 (by omega)]
  simp only [List.length_cons]
  refine congrArg Except.ok (Prod.ext rfl ?_)
  push_cast; ring

theorem evPlain_const_ok {p c : Nat} {s0 : Int} {stk : List Opnd} (hc : 0x1C ≤ c) {k : OKind} {v : PVal} {t : PyStr} (h : constTok env.ops.str c data p = .ok (k, v, t)) :
    ∃ s, evPlain env data p c s0 stk = .ok (s, s0) := by
  refine ⟨{ kind := k, value := some v, rank := LEAF_RANK, text := t } :: stk, ?_⟩
  unfold evPlain
  rw [if_neg (by omega), if_neg (by omega), if_neg (by omega), if_neg (by omega), if_neg (by omega), if_neg (by omega), if_neg (by omega),
        if_neg (by omega), if_neg (by omega), if_neg (by omega), if_neg (by omega), if_neg (by omega), h]
  rfl

theorem weak_int (ht : NewTab tab) (k : Nat) (hk : k < 65536) : VWeak C loc fs env rc tab namex data n (.int k) (0x1E :: le16 k) := by
  refine weak_const (by rintro ⟨⟩) (c := 0x1E) rfl (by decide) (s0 := 3) (by rcases ht with rfl | rfl <;> decide) (by decide) ?_
  intro p rest stk hd
  have := unpackH_at hk (drop_one hd)
  rw [le16_length]
  refine evPlain_const_ok (by decide) (k := .num) (v := .num (.fin k)) (t := env.ops.str (.num (.fin k))) ?_
  unfold constTok
  rw [if_neg (by decide), if_neg (by decide), if_pos rfl, show ((p : Int) + 3) = ((p + 1 : Nat) : Int) + 2 by push_cast; ring,
    show ((p : Int) + 1) = ((p + 1 : Nat) : Int) by push_cast; ring, this]
  rfl

theorem weak_num (ht : NewTab tab) (x : B64) (hx : x.Ok) : VWeak C loc fs env rc tab namex data n (.num x) (0x1F :: x.bytes) := by
  have hl : x.bytes.length = 8 := by simp [B64.bytes, le32_length]
  refine weak_const (by rintro ⟨⟩) (c := 0x1F) rfl (by decide) (s0 := 9) (by rcases ht with rfl | rfl <;> decide) (by decide) ?_
  intro p rest stk hd
  rw [hl]
  refine evPlain_const_ok (by decide) (k := .num) (v := .num x.value) (t := env.ops.str (.num x.value)) ?_
  unfold constTok
  rw [if_neg (by decide), if_neg (by decide), if_neg (by decide)]
  have := slice_fwd (x := x.bytes) (k := 1) (n := 8) (p : Int) rfl (drop_one hd) hl
  simp only [Nat.cast_one, Nat.reduceAdd, Nat.cast_ofNat] at this
  rw [this, unpackd_bytes x hx]
  rfl

theorem weak_bool (ht : NewTab tab) (b : Bool) : VWeak C loc fs env rc tab namex data n (.bool b) [0x1D, if b then 1 else 0] := by
  refine weak_const (by rintro ⟨⟩) (d := [if b then 1 else 0]) (c := 0x1D) rfl (by decide) (s0 := 2) (by rcases ht with rfl | rfl <;> decide) (by decide) ?_
  intro p rest stk hd
  have := slice_fwd (x := [if b then 1 else 0]) (k := 1) (n := 1) (p : Int) rfl (drop_one hd) rfl
  simp only [Nat.cast_one, Nat.reduceAdd, Nat.cast_ofNat] at this
  refine evPlain_const_ok (by decide) (k := .bool) (v := .int (if b then 1 else 0)) (t := if b then "TRUE".toList else "FALSE".toList) ?_
  unfold constTok
  rw [if_neg (by decide), if_pos rfl, this]
  cases b <;> rfl

theorem weak_err (ht : NewTab tab) (c : Nat) (hc : c ∈ errorCodes) : VWeak C loc fs env rc tab namex data n (.err c) [0x1C, UInt8.ofNat c] := by
  have hlt : c < 256 := (by decide : ∀ c ∈ errorCodes, c < 256) c hc
  refine weak_const (by rintro ⟨⟩) (d := [UInt8.ofNat c]) (c := 0x1C) rfl (by decide) (s0 := 2) (by rcases ht with rfl | rfl <;> decide) (by decide) ?_
  intro p rest stk hd
  have := slice_fwd (x := [UInt8.ofNat c]) (k := 1) (n := 1) (p : Int) rfl (drop_one hd) rfl
  simp only [Nat.cast_one, Nat.reduceAdd, Nat.cast_ofNat] at this
  have hu : unpackB [UInt8.ofNat c] = .ok c := by
    simp [unpackB, unpackN, le, fld, bind, Except.bind, pure, Except.pure]
    omega
  obtain ⟨t, ht⟩ : ∃ t, errorText c = .ok t := by
    revert c
    have : ∀ c ∈ errorCodes, (errorText c).isOk = true := by decide +kernel
    intro c hc _ _ _ _
    have := this c hc
    cases h : errorText c with
    | error e => rw [h] at this; cases this
    | ok t => exact ⟨t, rfl⟩
  refine evPlain_const_ok (by decide) (k := .err) (v := .int c) (t := '"' :: t ++ ['"']) ?_
  unfold constTok
  rw [if_pos rfl, this, hu]
  simp only [bind, Except.bind, ht]
  rfl

theorem weak_missing (ht : NewTab tab) : VWeak C loc fs env rc tab namex data n .missing [0x16] := by
  refine weak_const (by rintro ⟨⟩) (b := 0x16) (d := []) (c := 0x16) rfl (by decide) (s0 := 1) (by rcases ht with rfl | rfl <;> decide) (by decide) ?_
  intro p rest stk hd
  exact ⟨_, rfl⟩

theorem weak_text (hv : env.bv = 80) (ht : NewTab tab) (u : UStr) (hu : u.Ok) (hn : (utf16 u.text).length < 256) :
    VWeak C loc fs env rc tab namex data n (.text u) (0x17 :: (encLen 1 (utf16 u.text).length ++ u.body)) := by
  refine weak_const (by rintro ⟨⟩) (b := 0x17) (d := encLen 1 (utf16 u.text).length ++ u.body) (c := 0x17) rfl (by decide) (s0 := -1) (by rcases ht with rfl | rfl <;> decide) (by decide) ?_
  intro p rest stk hd
  rw [List.append_assoc] at hd
  have hs' := unicodeLen_at u hu (.inl rfl) (by simpa using hn) (drop_one hd)
  have e1 : (encLen 1 (utf16 u.text).length).length = 1 := encLen_length 1 _ (.inl rfl)
  refine ⟨{ kind := .strg, value := some (.str u.text), rank := LEAF_RANK, text := strgText u.text } :: stk, ?_⟩
  unfold evPlain
  rw [if_neg (by decide), if_neg (by decide), if_neg (by decide), if_neg (by decide), if_neg (by decide), if_neg (by decide), if_neg (by decide),
        if_neg (by decide), if_pos rfl]
  unfold tStr
  rw [if_neg (by omega), show ((p : Int) + 1) = ((p + 1 : Nat) : Int) by push_cast; ring, hs']
  simp only [bind, Except.bind, pure, Except.pure]
  refine congrArg Except.ok (Prod.ext rfl ?_)
  simp only [List.length_append, e1]
  push_cast; ring

theorem old_weak_text (hv : env.bv ≤ 70) (ht : NewTab tab) (u : UStr) (t : Bytes) (hn : t.length < 256) (hd : env.dec t = .ok u.text) :
    VWeak C loc fs env rc tab namex data n (.text u) (0x17 :: (encLen 1 t.length ++ t)) := by
  refine weak_const (by rintro ⟨⟩) (b := 0x17) (d := encLen 1 t.length ++ t) (c := 0x17) rfl (by decide) (s0 := -1) (by rcases ht with rfl | rfl <;> decide) (by decide) ?_
  intro p rest stk hd'
  rw [List.append_assoc] at hd'
  have e1 : (encLen 1 t.length).length = 1 := encLen_length 1 _ (.inl rfl)
  refine ⟨{ kind := .strg, value := some (.str u.text), rank := LEAF_RANK, text := strgText u.text } :: stk, ?_⟩
  unfold evPlain
  rw [if_neg (by decide), if_neg (by decide), if_neg (by decide), if_neg (by decide), if_neg (by decide), if_neg (by decide), if_neg (by decide),
        if_neg (by decide), if_pos rfl]
  unfold tStr
  have hs := unpackStringLen_at (b := t) (l := 1) env.dec (.inl rfl) (by simpa using hn) (drop_one hd')
  rw [if_pos hv, show ((p : Int) + 1) = ((p + 1 : Nat) : Int) by push_cast; ring, hs, hd]
  simp only [bind, Except.bind, pure, Except.pure]
  refine congrArg Except.ok (Prod.ext rfl ?_)
  simp only [List.length_append, e1]
  push_cast; ring

/-! ## References and names -/

theorem weak_cell (hb : RefBook loc env) (cls : Cls) {refx x y r c : Nat} (h16 : refx < 65536) (hl : loc refx x y) (hr : r < 65536) (hc : c < 256) :
    VWeak C loc fs env rc sztab4 namex data n (.cell cls refx r c) (VExpr.tokens (.cell cls refx r c)) := by
  refine weak_one (by simp [VExpr.tokens]) ?_
  intro p rest st hd hg hn
  simp only [VExpr.tokens, List.cons_append] at hd
  obtain ⟨e1, e2⟩ := take_drop_pos hd
  obtain ⟨o, ho, hk, hv⟩ := evRef3d_any hb h16 hl hr hc cls.num (UInt8.ofNat (cls.code + 0x1A)) (data.take p) rest st
  have e3 : data.take p ++ (UInt8.ofNat (cls.code + 0x1A) :: (le16 refx ++ encAddr 80 (.abs r) (.abs c)) ++ rest) = data := by
    conv_rhs => rw [e1]
    simp
  rw [e3, e2] at ho
  have e4 : evClass env rc namex data (p : Int) 0x1A cls.num st = evRef3d env data p cls.num st := by simp [evClass]
  refine ⟨{ st with stack := o :: st.stack }, ?_, hn, fun _ o' s' h => by cases h; rw [hk]; decide⟩
  rw [sclass hd (by decide) (sz := 7) (by decide) (by decide) (e4.trans ho)]
  simp [VExpr.tokens, le16_length, enc80_length]

theorem weak_area (hb : RefBook loc env) (cls : Cls) {refx x y r1 r2 c1 c2 : Nat} (h16 : refx < 65536) (hl : loc refx x y) (hr1 : r1 < 65536) (hr2 : r2 < 65536)
    (hc1 : c1 < 256) (hc2 : c2 < 256) : VWeak C loc fs env rc sztab4 namex data n (.area cls refx r1 r2 c1 c2) (VExpr.tokens (.area cls refx r1 r2 c1 c2)) := by
  refine weak_one (by simp [VExpr.tokens]) ?_
  intro p rest st hd hg hn
  simp only [VExpr.tokens, List.cons_append] at hd
  obtain ⟨e1, e2⟩ := take_drop_pos hd
  obtain ⟨o, ho, hk, hv⟩ := evArea3d_any hb h16 hl hr1 hr2 hc1 hc2 cls.num (UInt8.ofNat (cls.code + 0x1B)) (data.take p) rest st
  have e3 : data.take p ++ (UInt8.ofNat (cls.code + 0x1B) :: (le16 refx ++ encArea 80 (.abs r1) (.abs r2) (.abs c1) (.abs c2)) ++ rest) = data := by
    conv_rhs => rw [e1]
    simp
  rw [e3, e2] at ho
  have e4 : evClass env rc namex data (p : Int) 0x1B cls.num st = evArea3d env data p cls.num st := by simp [evClass]
  refine ⟨{ st with stack := o :: st.stack }, ?_, hn, fun _ o' s' h => by cases h; rw [hk]; decide⟩
  rw [sclass hd (by decide) (sz := 11) (by decide) (by decide) (e4.trans ho)]
  simp [VExpr.tokens, le16_length, encArea80_length]

theorem old_weak_cell {loc : OldSheets → Nat → Nat → Prop} {loc' : Nat → Nat → Nat → Prop} (hb : OldRefBook loc env) (cls : Cls) {k x y r c : Nat} {sh : OldSheets}
    (hl : loc sh x y) (hr : r < 16384) (hc : c < 256) : VWeak C loc' fs env rc sztab3 namex data n (.cell cls k r c)
      (UInt8.ofNat (cls.code + 0x1A) :: (sh.enc ++ encAddr 70 (.abs r) (.abs c))) := by
  refine weak_one (by simp) ?_
  intro p rest st hd hg hn
  simp only [List.cons_append] at hd
  obtain ⟨e1, e2⟩ := take_drop_pos hd
  obtain ⟨o, ho, hk, hv⟩ := old_evRef3d_any hb hl hr hc cls.num (UInt8.ofNat (cls.code + 0x1A)) (data.take p) rest st
  have e3 : data.take p ++ (UInt8.ofNat (cls.code + 0x1A) :: (sh.enc ++ encAddr 70 (.abs r) (.abs c)) ++ rest) = data := by
    conv_rhs => rw [e1]
    simp
  rw [e3, e2] at ho
  have e4 : evClass env rc namex data (p : Int) 0x1A cls.num st = evRef3d env data p cls.num st := by simp [evClass]
  refine ⟨{ st with stack := o :: st.stack }, ?_, hn, fun _ o' s' h => by cases h; rw [hk]; decide⟩
  rw [sclass hd (by decide) (sz := 18) (by decide) (by decide) (e4.trans ho)]
  simp [oldSheets_length sh (hb.loc sh x y hl).1, enc70_length]

theorem old_weak_area {loc : OldSheets → Nat → Nat → Prop} {loc' : Nat → Nat → Nat → Prop} (hb : OldRefBook loc env) (cls : Cls) {k x y r1 r2 c1 c2 : Nat} {sh : OldSheets}
    (hl : loc sh x y) (hr1 : r1 < 16384) (hr2 : r2 < 16384) (hc1 : c1 < 256) (hc2 : c2 < 256) : VWeak C loc' fs env rc sztab3 namex data n (.area cls k r1 r2 c1 c2)
      (UInt8.ofNat (cls.code + 0x1B) :: (sh.enc ++ encArea 70 (.abs r1) (.abs r2) (.abs c1) (.abs c2))) := by
  refine weak_one (by simp) ?_
  intro p rest st hd hg hn
  simp only [List.cons_append] at hd
  obtain ⟨e1, e2⟩ := take_drop_pos hd
  obtain ⟨o, ho, hk, hv⟩ := old_evArea3d_any hb hl hr1 hr2 hc1 hc2 cls.num (UInt8.ofNat (cls.code + 0x1B)) (data.take p) rest st
  have e3 : data.take p ++ (UInt8.ofNat (cls.code + 0x1B) :: (sh.enc ++ encArea 70 (.abs r1) (.abs r2) (.abs c1) (.abs c2)) ++ rest) = data := by
    conv_rhs => rw [e1]
    simp
  rw [e3, e2] at ho
  have e4 : evClass env rc namex data (p : Int) 0x1B cls.num st = evArea3d env data p cls.num st := by simp [evClass]
  refine ⟨{ st with stack := o :: st.stack }, ?_, hn, fun _ o' s' h => by cases h; rw [hk]; decide⟩
  rw [sclass hd (by decide) (sz := 21) (by decide) (by decide) (e4.trans ho)]
  simp [oldSheets_length sh (hb.loc sh x y hl).1, encArea70_length]

theorem weak_name (cls : Cls) {k : Nat} (hk : k + 1 < 65536) {unused : Bytes} (hs : tab.getD (3 + 32) (-2) = ((3 + unused.length : Nat) : Int))
    (huse : ∀ st : EvSt, VGood C loc fs st.tbl → st.tbl.length = n → ∃ st', nameRef env rc st k = .ok st')
    (hrl : ∀ t i g t', t.length = n → rc t i g = .ok t' → t'.length = n) :
    VWeak C loc fs env rc tab namex data n (.name cls k) (UInt8.ofNat (cls.code + 0x03) :: (le16 (k + 1) ++ unused)) := by
  refine weak_one (by simp) ?_
  intro p rest st hd hg hn
  simp only [List.cons_append, List.append_assoc] at hd
  have hu := unpackH_at hk (drop_one hd)
  rw [show ((p + 1 : Nat) : Int) + 2 = (p : Int) + 3 by omega, show ((p + 1 : Nat) : Int) = (p : Int) + 1 by omega] at hu
  have e1 : evClass env rc namex data (p : Int) 3 cls.num st = nameRef env rc st k := by
    simp [evClass, hu, bind, Except.bind]
  obtain ⟨st1, h2⟩ := huse st hg hn
  refine ⟨st1, ?_, nameRef_tbl (Inv := fun t => t.length = n) hrl hn h2, fun h => by cases h⟩
  rw [sclass hd (by decide) hs (by omega) (e1.trans h2)]
  simp only [List.length_cons, List.length_append, le16_length]
  refine congrArg Except.ok (Prod.ext rfl ?_)
  push_cast; ring

/-! ## Operators and functions -/

theorem vsteps_args : ∀ (args : List VExpr) (ts : List Bytes), List.Forall₂ (VSteps C loc fs env rc tab namex data n) args ts →
    ∀ (p : Nat) (rest : Bytes) (fuel : Nat) (st : EvSt), data.drop p = ts.flatten ++ rest → VGood C loc fs st.tbl → st.tbl.length = n → ts.flatten.length ≤ fuel →
      ∃ f os tbl, List.Forall₂ (fun a o => Agree C loc fs a o ∧ (NoNumber a → o.kind ≠ .num)) args os ∧ VGood C loc fs tbl ∧ tbl.length = n ∧ fuel ≤ f + ts.flatten.length ∧
        ∀ len, p + ts.flatten.length ≤ len → evLoop env rc tab namex data len fuel st (p : Int) =
          evLoop env rc tab namex data len f { st with stack := os.reverse ++ st.stack, tbl := tbl } ((p + ts.flatten.length : Nat) : Int) := by
  intro args ts h
  induction h with
  | nil => intro p rest fuel st _ hg hn _; exact ⟨fuel, [], st.tbl, .nil, hg, hn, by simp, fun len _ => rfl⟩
  | cons ha _ ih =>
    intro p rest fuel st hd hg hn hfu
    simp only [List.flatten_cons, List.append_assoc, List.length_append] at hd hfu ⊢
    obtain ⟨f, o, tbl, ho, hk, hg1, hn1, hf, h1⟩ := ha p _ fuel st hd hg hn (by omega)
    obtain ⟨f2, os, tbl2, hos, hg2, hn2, hf2, h2⟩ := ih _ rest f { st with stack := o :: st.stack, tbl := tbl } (drop_more hd) hg1 hn1 (by omega)
    refine ⟨f2, o :: os, tbl2, .cons ⟨ho, hk⟩ hos, hg2, hn2, by omega, fun len hl => ?_⟩
    rw [h1 len (by omega), h2 len (by omega), ← Nat.add_assoc, List.reverse_cons, List.append_assoc]
    rfl

/-- Operands and then an operator or function. -/
theorem weak_args {x : VExpr} {args : List VExpr} {ts : List Bytes} (ih : List.Forall₂ (VSteps C loc fs env rc tab namex data n) args ts) {tl : Bytes} (hne : 0 < tl.length)
    (h : ∀ (p : Nat) (rest : Bytes) (st : EvSt) (os : List Opnd), data.drop p = tl ++ rest →
      List.Forall₂ (fun a o => Agree C loc fs a o ∧ (NoNumber a → o.kind ≠ .num)) args os →
      ∃ s, evStep env rc tab namex data p { st with stack := os.reverse ++ st.stack } = .ok ({ st with stack := s }, ((p + tl.length : Nat) : Int)) ∧
        (NoNumber x → ∀ o s', s = o :: s' → o.kind ≠ .num)) : VWeak C loc fs env rc tab namex data n x (ts.flatten ++ tl) := by
  intro p rest fuel st hd hg hn hfu
  simp only [List.append_assoc, List.length_append] at hd hfu ⊢
  obtain ⟨f, os, tbl, hos, hg1, hn1, hf, h1⟩ := vsteps_args args ts ih p _ fuel st hd hg hn (by omega)
  obtain ⟨s, h2, h3⟩ := h _ rest { st with tbl := tbl } os (drop_more hd) hos
  obtain ⟨f, rfl⟩ : ∃ g, f = g + 1 := ⟨f - 1, by omega⟩
  refine ⟨f, { st with stack := s, tbl := tbl }, h3, hn1, by omega, fun len hl => ?_⟩
  rw [h1 len (by omega), evLoop_next (by omega) h2]
  rw [Nat.add_assoc]

theorem weak_un (hC : PyCalc env.ops C) (hD : PyCan env.ops D) (ht : NewTab tab) (o : Op1) {e : VExpr} {te : Bytes} (ih : VSteps C loc fs env rc tab namex data n e te)
    (hn : ∀ v, HasVal C loc fs e v → ∃ n, v = .num n) : VWeak C loc fs env rc tab namex data n (.un o e) (te ++ [o.code]) := by
  have := weak_args (x := .un o e) (tl := [o.code]) (.cons ih .nil) (by simp) (fun p rest st os hd hos => ?_)
  · simpa using this
  cases hos with
  | cons h1 h2 =>
  cases h2
  rename_i oe
  have hcode : o.code.toNat < 32 ∧ tab.getD o.code.toNat (-2) = 1 ∧ 0x12 ≤ o.code.toNat ∧ o.code.toNat ≤ 0x14 := by
    rcases ht with rfl | rfl <;> cases o <;> decide
  have key : ∃ v, unValue env.ops o.code.toNat oe.value = .ok v := by
    cases hv : oe.value with
    | none => exact ⟨_, rfl⟩
    | some p =>
      obtain ⟨w, w1, w2⟩ := h1.1.2 (.inl (by rw [hv]; simp))
      obtain ⟨m, rfl⟩ := hn w w1
      have e := w2.2
      rw [hv] at e
      cases e
      have : ∃ r, unApply env.ops o.code.toNat m.pval = .ok r := by
        cases o with
        | plus => exact ⟨m.pval, rfl⟩
        | minus => exact hD.negate m
        | percent => exact hD.percent m
      obtain ⟨r, hr⟩ := this
      exact ⟨some r, by simp only [unValue, hr, bind, Except.bind]; rfl⟩
  obtain ⟨v, hv⟩ := key
  have e : ∃ s, evPlain env data p o.code.toNat 1 (oe :: st.stack) = .ok (s, 1) := by
    unfold evPlain
    rw [if_neg (by omega), if_neg (by omega), if_neg (by omega), if_neg (by omega), if_neg (by omega), if_pos hcode.2.2.2]
    unfold doUnaryop
    rw [unRule_ok]
    simp only [bind, Except.bind, hv]
    exact ⟨_, rfl⟩
  obtain ⟨s, he⟩ := e
  exact ⟨s, splain (z := 1) hd rfl hcode.1 hcode.2.1 (by decide) he (by decide), fun h => by cases h⟩

/-- The operand of an operator can be converted. -/
theorem conv_ok (hC : PyCalc env.ops C) (hD : PyCan env.ops D) {c : ArgConv} {o : Opnd} {v : Value} {q : PVal} (h : Holds o v) (ha : v.as C c = some q)
    (hp : c = .arith → ∀ s, v = .text s → D.parse s) : ∃ f p, argConv env.ops c o.kind = some f ∧ o.value = some p ∧ f p = .ok q := by
  obtain ⟨f, p, h1, h2, h3⟩ := arg_of hC h ha
  have : ∃ r, f p = .ok r := by
    cases c <;> cases v <;> try (cases ha)
    all_goals
      rw [h.1] at h1
      rw [h.2] at h2
      cases h1
      cases h2
    · exact ⟨_, rfl⟩
    · exact hD.parse _ (hp rfl _ rfl)
    all_goals exact ⟨_, rfl⟩
  obtain ⟨r, hr⟩ := this
  exact ⟨f, p, h1, h2, by rw [hr, h3 r hr]⟩

theorem binApply_ok (hD : PyCan env.ops D) {o : Op2} {v w : Value} {p q : PVal} (hp : v.as C (opConv o) = some p) (hq : w.as C (opConv o) = some q)
    (hs : (o.isCalc = true → ∀ x y, v.number C = some x → w.number C = some y → D.arith o x y) ∧ (o.isCompare = true → D.compare o v w)) :
    ∃ r, binApply env.ops o.code.toNat (opKind o) p q = .ok r := by
  by_cases h1 : o.isCalc = true
  · have e1 : opConv o = .arith := by simp [opConv, h1]
    have e2 : opKind o = .num := by simp [opKind, h1]
    rw [e1] at hp hq
    rw [e2]
    simp only [Spec.Value.as, Option.map_eq_some_iff] at hp hq
    obtain ⟨x, hx, rfl⟩ := hp
    obtain ⟨y, hy, rfl⟩ := hq
    obtain ⟨hz, r, hr⟩ := hD.arith o x y h1 (hs.1 h1 x y hx hy)
    refine ⟨r, ?_⟩
    unfold binApply
    rw [if_neg (by decide), if_neg ?_]
    · exact hr
    · rintro ⟨h6, _, h7⟩
      have : o = .div := by cases o <;> first | rfl | (revert h6; decide)
      rw [hz this] at h7
      cases h7
  · by_cases h2 : o.isCompare = true
    · have e1 : opConv o = .cmp := by simp [opConv, h1, h2]
      have e2 : opKind o = .bool := by simp [opKind, h1, h2]
      rw [e1] at hp hq
      rw [e2]
      obtain ⟨r, hr⟩ := hD.compare o v w p q h2 hp hq (hs.2 h2)
      unfold binApply
      rw [if_pos rfl, hr]
      exact ⟨_, rfl⟩
    · have ho : o = .cat := by cases o <;> simp_all [Op2.isCompare, Op2.isCalc]
      subst ho
      simp only [opConv, Op2.isCalc, Op2.isCompare, Bool.false_eq_true, if_false, Spec.Value.as, Option.map_eq_some_iff] at hp hq
      obtain ⟨x, hx, rfl⟩ := hp
      obtain ⟨y, hy, rfl⟩ := hq
      obtain ⟨r, hr⟩ := hD.cat x y
      refine ⟨r, ?_⟩
      unfold binApply
      rw [if_neg (by decide), if_neg (by rintro ⟨hc, _⟩; revert hc; decide)]
      exact hr

theorem as_plain {c : ArgConv} {v : Value} {q : PVal} (h : v.as C c = some q) : v.plain = true := by
  cases c <;> cases v <;> first | rfl | cases h

theorem doBinop_ok (hC : PyCalc env.ops C) (hD : PyCan env.ops D) (o : Op2) {a b : VExpr} {oa ob : Opnd} (ha : Agree C loc fs a oa) (hb : Agree C loc fs b ob)
    (hs : ∀ v w, HasVal C loc fs a v → HasVal C loc fs b w → v.plain = true → w.plain = true →
      (o.isCalc = true → (∀ s, v = .text s ∨ w = .text s → D.parse s) ∧ ∀ x y, v.number C = some x → w.number C = some y → D.arith o x y) ∧
      (o.isCompare = true → D.compare o v w)) (stk : List Opnd) : ∃ s, doBinop env.ops o.code.toNat (ob :: oa :: stk) = .ok s := by
  obtain ⟨rank, sym, hr⟩ := binRule_kinds o
  unfold doBinop
  rw [hr]
  simp only [bind, Except.bind]
  suffices hv : ∃ v, binValue env.ops o.code.toNat (opConv o) (opKind o) oa ob = .ok v by
    obtain ⟨v, hv⟩ := hv
    rw [hv]
    exact ⟨_, rfl⟩
  unfold binValue
  cases f1 : argConv env.ops (opConv o) oa.kind with
  | none => cases g1 : argConv env.ops (opConv o) ob.kind <;> exact ⟨_, rfl⟩
  | some f =>
    cases g1 : argConv env.ops (opConv o) ob.kind with
    | none => exact ⟨_, rfl⟩
    | some g =>
      cases f2 : oa.value with
      | none => cases g2 : ob.value <;> exact ⟨_, rfl⟩
      | some pa =>
        cases g2 : ob.value with
        | none => exact ⟨_, rfl⟩
        | some pb =>
          obtain ⟨va, p, hva, hp, _⟩ := of_arg hC ha f1 f2
          obtain ⟨vb, q, hvb, hq, _⟩ := of_arg hC hb g1 g2
          have hsafe := hs va vb hva hvb (as_plain hp) (as_plain hq)
          have hc : ∀ {c : ArgConv}, c = opConv o → c = .arith → o.isCalc = true := by
            rintro c rfl hc
            cases o <;> first | rfl | cases hc
          obtain ⟨f', p', e1, e2, e3⟩ := conv_ok hC hD (ha.1 va hva) hp (fun h s hs => (hsafe.1 (hc rfl h)).1 s (.inl hs))
          obtain ⟨g', q', d1, d2, d3⟩ := conv_ok hC hD (hb.1 vb hvb) hq (fun h s hs => (hsafe.1 (hc rfl h)).1 s (.inr hs))
          rw [f1] at e1; rw [f2] at e2; rw [g1] at d1; rw [g2] at d2
          cases e1; cases e2; cases d1; cases d2
          obtain ⟨r, hr⟩ := binApply_ok hD hp hq ⟨fun h => (hsafe.1 h).2, hsafe.2⟩
          simp only [d3, e3, bind, Except.bind, hr]
          exact ⟨_, rfl⟩

theorem weak_bin (hC : PyCalc env.ops C) (hD : PyCan env.ops D) (ht : NewTab tab) (o : Op2) {a b : VExpr} {ta tb : Bytes}
    (iha : VSteps C loc fs env rc tab namex data n a ta) (ihb : VSteps C loc fs env rc tab namex data n b tb)
    (hs : ∀ v w, HasVal C loc fs a v → HasVal C loc fs b w → v.plain = true → w.plain = true →
      (o.isCalc = true → (∀ s, v = .text s ∨ w = .text s → D.parse s) ∧ ∀ x y, v.number C = some x → w.number C = some y → D.arith o x y) ∧
      (o.isCompare = true → D.compare o v w)) : VWeak C loc fs env rc tab namex data n (.bin o a b) (ta ++ (tb ++ [o.code])) := by
  have := weak_args (x := .bin o a b) (tl := [o.code]) (.cons iha (.cons ihb .nil)) (by simp) (fun p rest st os hd hos => ?_)
  · simpa using this
  cases hos with
  | cons h1 h2 =>
  cases h2 with
  | cons h2 h3 =>
  cases h3
  rename_i oa ob
  have hcode : o.code.toNat < 32 ∧ tab.getD o.code.toNat (-2) = 1 ∧ 3 ≤ o.code.toNat ∧ o.code.toNat ≤ 0x0E := by
    rcases ht with rfl | rfl <;> cases o <;> decide
  obtain ⟨s, h4⟩ := doBinop_ok hC hD o h1.1 h2.1 hs st.stack
  have he : evPlain env data p o.code.toNat 1 (ob :: oa :: st.stack) = .ok (s, 1) := by
    unfold evPlain
    rw [if_neg (by omega), if_pos hcode.2.2.2, h4]
    rfl
  exact ⟨s, splain (z := 1) hd rfl hcode.1 hcode.2.1 (by decide) he (by decide), fun h => by cases h⟩

theorem boxOp_ok {f : Ref3D → Ref3D → Ref3D} {a b : VExpr} {oa ob : Opnd} (ha : Agree C loc fs a oa) (hb : Agree C loc fs b ob)
    (hs : ∀ l m, HasVal C loc fs a (.areas l) → HasVal C loc fs b (.areas m) → m.length = 1 ∧ l.length = 1) : ∃ r, boxOp f oa ob = .ok r := by
  unfold boxOp
  by_cases c1 : ob.kind = .err ∨ oa.kind = .err
  · rw [if_pos c1]; exact ⟨_, rfl⟩
  rw [if_neg c1]
  by_cases c2 : ob.kind = .ref ∧ oa.kind = .ref
  · rw [if_pos c2]
    suffices h : ∃ v, boxAbs f oa.value ob.value = .ok v by
      obtain ⟨v, hv⟩ := h
      rw [hv]; exact ⟨_, rfl⟩
    unfold boxAbs
    cases e1 : oa.value with
    | none => cases e2 : ob.value <;> exact ⟨_, rfl⟩
    | some pa =>
      cases e2 : ob.value with
      | none => exact ⟨_, rfl⟩
      | some pb =>
        obtain ⟨l, h1, m1⟩ := agree_areas ha c2.2 e1
        obtain ⟨m, h2, m2⟩ := agree_areas hb c2.1 e2
        obtain ⟨k1, k2⟩ := hs l m h1 h2
        obtain ⟨x, rfl⟩ := List.length_eq_one_iff.mp k2
        obtain ⟨y, rfl⟩ := List.length_eq_one_iff.mp k1
        have q1 := m1.2
        have q2 := m2.2
        rw [e1] at q1
        rw [e2] at q2
        cases q1
        cases q2
        exact ⟨_, rfl⟩
  rw [if_neg c2]
  by_cases c3 : ob.kind = .relref ∧ oa.kind = .relref
  · rw [if_pos c3, agree_norel ha c3.2]
    unfold boxRel
    cases ob.value <;> exact ⟨_, rfl⟩
  rw [if_neg c3]
  exact ⟨_, rfl⟩

theorem unionOp_ok {a b : VExpr} {oa ob : Opnd} (ha : Agree C loc fs a oa) (hb : Agree C loc fs b ob)
    (hs : ∀ l m, HasVal C loc fs a (.areas l) → HasVal C loc fs b (.areas m) → m.length = 1) : ∃ r, unionOp oa ob = .ok r := by
  unfold unionOp
  by_cases c1 : ob.kind = .err ∨ oa.kind = .err
  · rw [if_pos c1]; exact ⟨_, rfl⟩
  rw [if_neg c1]
  by_cases c2 : (ob.kind = .ref ∨ ob.kind = .relref) ∧ (oa.kind = .ref ∨ oa.kind = .relref)
  swap
  · rw [if_neg c2]; exact ⟨_, rfl⟩
  rw [if_pos c2]
  suffices h : ∃ v, unionValue oa.value ob.value = .ok v by
    obtain ⟨v, hv⟩ := h
    rw [hv]; exact ⟨_, rfl⟩
  unfold unionValue
  cases e1 : oa.value with
  | none => cases e2 : ob.value <;> exact ⟨_, rfl⟩
  | some pa =>
    cases e2 : ob.value with
    | none => exact ⟨_, rfl⟩
    | some pb =>
      have ka : oa.kind = .ref := by
        rcases c2.2 with h | h
        · exact h
        · rw [agree_norel ha h] at e1; cases e1
      have kb : ob.kind = .ref := by
        rcases c2.1 with h | h
        · exact h
        · rw [agree_norel hb h] at e2; cases e2
      obtain ⟨l, h1, m1⟩ := agree_areas ha ka e1
      obtain ⟨m, h2, m2⟩ := agree_areas hb kb e2
      obtain ⟨y, rfl⟩ := List.length_eq_one_iff.mp (hs l m h1 h2)
      have hl : l ≠ [] := fun hc => hasVal_areas_ne h1 (by rw [hc])
      obtain ⟨x, l, rfl⟩ := List.exists_cons_of_ne_nil hl
      have q1 := m1.2
      have q2 := m2.2
      rw [e1] at q1
      rw [e2] at q2
      cases q1
      cases q2
      exact ⟨_, rfl⟩

theorem weak_refs (ht : NewTab tab) (o : RefOp) {a b : VExpr} {ta tb : Bytes} (iha : VSteps C loc fs env rc tab namex data n a ta)
    (ihb : VSteps C loc fs env rc tab namex data n b tb)
    (hs : ∀ l m, HasVal C loc fs a (.areas l) → HasVal C loc fs b (.areas m) → m.length = 1 ∧ (o ≠ .union → l.length = 1)) :
    VWeak C loc fs env rc tab namex data n (.refs o a b) (ta ++ (tb ++ [o.code])) := by
  have := weak_args (x := .refs o a b) (tl := [o.code]) (.cons iha (.cons ihb .nil)) (by simp) (fun p rest st os hd hos => ?_)
  · simpa using this
  cases hos with
  | cons h1 h2 =>
  cases h2 with
  | cons h2 h3 =>
  cases h3
  rename_i oa ob
  have he : ∃ s, evPlain env data p o.code.toNat 1 (ob :: oa :: st.stack) = .ok (s, 1) := by
    unfold evPlain
    cases o with
    | isect =>
      rw [if_neg (by decide), if_neg (by decide), if_pos (by decide)]
      obtain ⟨r, hr⟩ := boxOp_ok (f := boxIsect) h1.1 h2.1 (fun l m hl hm => ⟨(hs l m hl hm).1, (hs l m hl hm).2 (by simp)⟩)
      simp only [doIsect, hr, bind, Except.bind]
      exact ⟨_, rfl⟩
    | union =>
      rw [if_neg (by decide), if_neg (by decide), if_neg (by decide), if_pos (by decide)]
      obtain ⟨r, hr⟩ := unionOp_ok h1.1 h2.1 (fun l m hl hm => (hs l m hl hm).1)
      simp only [doList, hr, bind, Except.bind]
      exact ⟨_, rfl⟩
    | range =>
      rw [if_neg (by decide), if_neg (by decide), if_neg (by decide), if_neg (by decide), if_pos (by decide)]
      obtain ⟨r, hr⟩ := boxOp_ok (f := boxRange) h1.1 h2.1 (fun l m hl hm => ⟨(hs l m hl hm).1, (hs l m hl hm).2 (by simp)⟩)
      simp only [doRange, hr, bind, Except.bind]
      exact ⟨_, rfl⟩
  obtain ⟨s, he⟩ := he
  exact ⟨s, splain (z := 1) hd rfl (by cases o <;> decide) (by rcases ht with rfl | rfl <;> cases o <;> decide) (by decide) he (by decide), fun h => by cases h⟩

theorem weak_sum (ht : NewTab tab) {d : Nat} {e : VExpr} (hdd : d < 65536) {te : Bytes} (ih : VSteps C loc fs env rc tab namex data n e te) :
    VWeak C loc fs env rc tab namex data n (.sum d e) (te ++ ([0x19, 0x10] ++ le16 d)) := by
  have := weak_args (x := .sum d e) (tl := [0x19, 0x10] ++ le16 d) (.cons ih .nil) (by simp) (fun p rest st os hd hos => ?_)
  · simpa using this
  cases hos with
  | cons h1 h2 =>
  cases h2
  rename_i oe
  have h' : data.drop p = 0x19 :: ([0x10] ++ le16 d ++ rest) := by rw [hd]; simp
  have he : ∃ s, evPlain env data p 0x19 (-1) (oe :: st.stack) = .ok (s, 4) := by
    rw [evPlain_attr]
    unfold attrTok
    rw [attrFields_at hdd h']
    simp only [bind, Except.bind]
    rw [if_neg (by decide), if_pos (by decide)]
    exact ⟨_, rfl⟩
  obtain ⟨s, he⟩ := he
  refine ⟨s, ?_, fun h => by cases h⟩
  have := splain (env := env) (rc := rc) (tab := tab) (namex := namex) (st := { st with stack := oe :: st.stack }) h' (c := 0x19) rfl (by decide) (s0 := -1)
    (by rcases ht with rfl | rfl <;> decide) (by decide) he (by decide)
  simpa [le16_length] using this

theorem weak_fixed (hv : 40 ≤ env.bv) (ht : NewTab tab) (cls : Cls) {k hi : Nat} {args : List VExpr} (hn : k < 65536) (hf : IsFunc k args.length hi) {ts : List Bytes}
    (ih : List.Forall₂ (VSteps C loc fs env rc tab namex data n) args ts) :
    VWeak C loc fs env rc tab namex data n (.fixed cls k args) (ts.flatten ++ UInt8.ofNat (cls.code + 0x01) :: le16 k) := by
  refine weak_args ih (by simp) (fun q rest st os hd hos => ?_)
  simp only [List.cons_append] at hd
  have hl := hos.length_eq
  have e1 : evClass env rc namex data (q : Int) 1 cls.num { st with stack := os.reverse ++ st.stack } =
      (do let s ← funcTok env.bv data q (os.reverse ++ st.stack); pure { st with stack := s }) := by simp [evClass]
  have hu := unpackH_at hn (drop_one hd)
  rw [show ((q + 1 : Nat) : Int) + 2 = (q : Int) + 3 by omega, show ((q + 1 : Nat) : Int) = (q : Int) + 1 by omega] at hu
  obtain ⟨name, hname⟩ := hf
  have h4 : ∃ s, funcTok env.bv data q (os.reverse ++ st.stack) = .ok s ∧ ∀ o s', s = o :: s' → o.kind ≠ .num := by
    unfold funcTok funcxAt
    rw [if_pos (by omega), hu]
    simp only [bind, Except.bind, hname]
    rw [show decide ((os.reverse ++ st.stack).length ≥ args.length) = true from decide_eq_true (by rw [List.length_append, List.length_reverse]; omega)]
    simp only [pyAssert, if_true]
    by_cases h0 : args.length = 0
    · rw [if_pos h0]; exact ⟨_, rfl, fun o s' h => (by cases h; simp)⟩
    · rw [if_neg h0]; exact ⟨_, rfl, fun o s' h => (by cases h; simp)⟩
  obtain ⟨s, h4, h5⟩ := h4
  refine ⟨s, ?_, fun _ => h5⟩
  rw [h4] at e1
  rw [sclass hd (by decide) (sz := 3) (by rcases ht with rfl | rfl <;> decide) (by decide) e1]
  simp [le16_length]

theorem stackAt_lt {stk : List Opnd} {k : Nat} (h : k - 1 < stk.length) : ∃ o, stackAt stk k = .ok o := by
  unfold stackAt
  rw [List.getElem?_eq_getElem h]
  exact ⟨_, rfl⟩

theorem evalIf_ok {k : Nat} {stk : List Opnd} {res : Opnd} (h2 : 2 ≤ k) (hl : k ≤ stk.length) : ∃ r, evalIf k stk res = .ok r := by
  unfold evalIf
  obtain ⟨t, ht⟩ := stackAt_lt (stk := stk) (k := k) (by omega)
  rw [ht]
  simp only [bind, Except.bind]
  by_cases hk : ¬ (t.kind = .num ∨ t.kind = .bool)
  · rw [if_pos hk]; exact ⟨_, rfl⟩
  rw [if_neg hk]
  cases zeroOne t.value with
  | none => exact ⟨_, rfl⟩
  | some b =>
    simp only
    by_cases hb : k = 2 ∧ ¬ b = true
    · rw [if_pos hb]; exact ⟨_, rfl⟩
    · rw [if_neg hb]
      obtain ⟨c, hc⟩ := stackAt_lt (stk := stk) (k := if b = true then k - 1 else k - 2) (by split <;> omega)
      rw [hc]
      exact ⟨_, rfl⟩

theorem evalChoose_ok {c : VExpr} {args : List VExpr} {oc : Opnd} {os stk : List Opnd} {res : Opnd} (hc : Agree C loc fs c oc) (hk : NoNumber c → oc.kind ≠ .num)
    (hl : args.length = os.length) (hs : NoNumber c ∨ ∃ v, HasVal C loc fs c v) : ∃ r, evalChoose (c :: args).length ((oc :: os).reverse ++ stk) res = .ok r := by
  unfold evalChoose
  rw [stackAt_args (oc :: os) stk (c :: args).length (by simp) (by simp [hl]) oc (by simp [hl])]
  simp only [bind, Except.bind]
  by_cases hn : oc.kind = .num
  swap
  · rw [if_neg hn]; exact ⟨_, rfl⟩
  rw [if_pos hn]
  obtain ⟨v, hv⟩ := hs.resolve_left fun h => hk h hn
  have h := hc.1 v hv
  have := holds_kind h
  rw [hn] at this
  cases v <;> try (cases this)
  rename_i m
  rw [h.2]
  have hi : ∃ i, chooseIndex (c :: args).length (some m.pval) = .ok i := by
    cases m with
    | int k => exact ⟨_, rfl⟩
    | float x => cases x <;> exact ⟨_, rfl⟩
  obtain ⟨i, hi⟩ := hi
  rw [hi]
  cases i with
  | none => exact ⟨_, rfl⟩
  | some i =>
    simp only
    obtain ⟨ch, hch⟩ := stackAt_lt (stk := (oc :: os).reverse ++ stk) (k := (c :: args).length - i) (by
      simp only [List.length_cons, List.length_append, List.length_reverse]; omega)
    rw [hch]
    exact ⟨_, rfl⟩

theorem weak_varying (hv : 40 ≤ env.bv) (ht : NewTab tab) (cls : Cls) {k lo hi : Nat} {args : List VExpr} (hn : k < 32768) (hf : IsFunc k lo hi) (h1 : args ≠ [])
    (h128 : args.length < 128) {ts : List Bytes} (ih : List.Forall₂ (VSteps C loc fs env rc tab namex data n) args ts)
    (hb : lo ≤ args.length ∧ args.length ≤ hi) (hs : k = 100 → ∀ c, args[0]? = some c → NoNumber c ∨ ∃ v, HasVal C loc fs c v) :
    VWeak C loc fs env rc tab namex data n (.varying cls k args) (ts.flatten ++ UInt8.ofNat (cls.code + 0x02) :: UInt8.ofNat args.length :: le16 k) := by
  refine weak_args ih (by simp) (fun q rest st os hd hos => ?_)
  simp only [List.cons_append] at hd
  have hl := hos.length_eq
  have e1 : evClass env rc namex data (q : Int) 2 cls.num { st with stack := os.reverse ++ st.stack } =
      (do let s ← funcVarTok env.bv data q (os.reverse ++ st.stack); pure { st with stack := s }) := by simp [evClass]
  have hu : funcVarFields env.bv data (q : Int) = .ok (args.length, k) := by
    unfold funcVarFields
    simp only [if_pos (show env.bv ≥ 40 by omega)]
    have := slice_fwd (x := UInt8.ofNat args.length :: le16 k) (k := 1) (n := 3) (q : Int) rfl (drop_one hd) (by simp [le16_length])
    simp only [Nat.cast_one, Nat.reduceAdd, Nat.cast_ofNat] at this
    rw [this, unpackN_ok (by simp [le16_length])]
    simp only [bind, Except.bind, pure, Except.pure]
    refine congrArg Except.ok (Prod.ext ?_ ?_)
    · simp [fld, le, u8_toNat_ofNat]; omega
    · have := fld_only k (by omega)
      simp only [fld, List.drop_succ_cons, List.drop_zero] at this ⊢
      rw [this]
      omega
  have hpos : 0 < args.length := List.length_pos_iff.mpr h1
  obtain ⟨name, hname⟩ := hf
  have h4 : ∃ s, funcVarTok env.bv data q (os.reverse ++ st.stack) = .ok s ∧ (NoNumber (.varying cls k args) → ∀ o s', s = o :: s' → o.kind ≠ .num) := by
    unfold funcVarTok
    rw [hu]
    simp only [bind, Except.bind, hname]
    rw [show decide (lo ≤ args.length ∧ args.length ≤ hi) = true from decide_eq_true hb]
    rw [show decide ((os.reverse ++ st.stack).length ≥ args.length) = true from decide_eq_true (by rw [List.length_append, List.length_reverse]; omega)]
    simp only [pyAssert, if_true]
    generalize hres : ({ rank := FUNC_RANK, text := callText name ((topArgs (os.reverse ++ st.stack) args.length).reverse.map Opnd.text) } : Opnd) = res
    have hk : res.kind = .unk := by rw [← hres]
    unfold varResult
    by_cases c1 : k = 1
    · subst c1
      have e : funcDef 1 = some ("IF".toList, 2, 3) := by decide +kernel
      rw [e] at hname
      cases hname
      rw [if_pos rfl]
      obtain ⟨r, hr⟩ := evalIf_ok (k := args.length) (stk := os.reverse ++ st.stack) (res := res) hb.1 (by rw [List.length_append, List.length_reverse]; omega)
      rw [hr]
      exact ⟨_, rfl, fun h => by cases h with | varying _ _ _ hc _ => exact absurd rfl hc⟩
    · rw [if_neg c1]
      by_cases c2 : k = 100
      · subst c2
        rw [if_pos rfl]
        cases hos with
        | nil => exact absurd rfl h1
        | @cons c oc args os hc hos =>
        obtain ⟨r, hr⟩ := evalChoose_ok (stk := st.stack) (res := res) hc.1 hc.2 hos.length_eq (hs rfl c rfl)
        rw [hr]
        exact ⟨_, rfl, fun h => by cases h with | varying _ _ _ _ hc => exact absurd rfl hc⟩
      · rw [if_neg c2]
        exact ⟨_, rfl, fun _ o s' h => by cases h; rw [hk]; decide⟩
  obtain ⟨s, h4, h5⟩ := h4
  refine ⟨s, ?_, h5⟩
  rw [h4] at e1
  rw [sclass hd (by decide) (sz := 4) (by rcases ht with rfl | rfl <;> decide) (by decide) e1]
  simp [le16_length]

/-! ## Tokens without effect -/

theorem squiet_one (ht : NewTab tab) {post : Bytes} {p : Nat} {st : EvSt} (q : Quiet) (hq : q.Ok) (hd : data.drop p = q.enc ++ post) :
    evStep env rc tab namex data p st = .ok (st, ((p + q.enc.length : Nat) : Int)) := by
  cases q with
  | parens =>
    have := splain (env := env) (rc := rc) (tab := tab) (namex := namex) (st := st) (b := 0x15) (rest := post) hd rfl (by decide) (s0 := 1)
      (by rcases ht with rfl | rfl <;> decide) (by decide) (s := st.stack) (z := 1) (by rfl) (by decide)
    exact this
  | hint k d =>
    obtain ⟨hk1, hk2, hdd⟩ := hq
    have h' : data.drop p = 0x19 :: ([k] ++ le16 d ++ post) := by rw [hd]; simp [Quiet.enc]
    have he : evPlain env data p 0x19 (-1) st.stack = .ok (st.stack, 4) := by
      rw [evPlain_attr]
      unfold attrTok
      rw [attrFields_at hdd h']
      simp only [bind, Except.bind]
      rw [if_neg (show ¬ k.toNat = 4 from fun hc => hk1 (UInt8.toNat_inj.mp hc)), if_neg (show ¬ k.toNat = 16 from fun hc => hk2 (UInt8.toNat_inj.mp hc))]
      rfl
    have := splain (env := env) (rc := rc) (tab := tab) (namex := namex) (st := st) h' (c := 0x19) rfl (by decide) (s0 := -1)
      (by rcases ht with rfl | rfl <;> decide) (by decide) he (by decide)
    simpa [Quiet.enc, le16_length] using this
  | jumps offs =>
    obtain ⟨ho1, ho2⟩ := hq
    have hlen : ∀ l : List Nat, (l.flatMap le16).length = 2 * l.length := by
      intro l
      induction l with
      | nil => rfl
      | cons a l ih => rw [List.flatMap_cons, List.length_append, ih, le16_length]; simp; omega
    have h' : data.drop p = 0x19 :: ([0x04] ++ le16 (offs.length - 1) ++ (offs.flatMap le16 ++ post)) := by rw [hd]; simp [Quiet.enc]
    have he : evPlain env data p 0x19 (-1) st.stack = .ok (st.stack, ((offs.length - 1 : Nat) : Int) * 2 + 6) := by
      rw [evPlain_attr]
      unfold attrTok
      rw [attrFields_at (by omega) h']
      simp only [bind, Except.bind]
      rw [if_pos (by decide)]
      rfl
    have := splain (env := env) (rc := rc) (tab := tab) (namex := namex) (st := st) h' (c := 0x19) rfl (by decide) (s0 := -1)
      (by rcases ht with rfl | rfl <;> decide) (by decide) he (by omega)
    rw [this]
    refine congrArg Except.ok (Prod.ext rfl ?_)
    simp only [Quiet.enc, List.length_append, hlen, le16_length, List.length_cons, List.length_nil]
    push_cast
    omega

theorem squiet (ht : NewTab tab) {st : EvSt} : ∀ (qs : List Quiet), (∀ q ∈ qs, q.Ok) →
    ∀ (p : Nat) (rest : Bytes) (fuel : Nat), data.drop p = qs.flatMap Quiet.enc ++ rest → (qs.flatMap Quiet.enc).length ≤ fuel →
      ∃ f, fuel ≤ f + (qs.flatMap Quiet.enc).length ∧ ∀ len, p + (qs.flatMap Quiet.enc).length ≤ len → evLoop env rc tab namex data len fuel st (p : Int) =
        evLoop env rc tab namex data len f st ((p + (qs.flatMap Quiet.enc).length : Nat) : Int) := by
  intro qs
  induction qs with
  | nil => intro _ p rest fuel _ _; exact ⟨fuel, by simp, fun len _ => rfl⟩
  | cons q qs ih =>
    intro hq p rest fuel hd hfu
    rw [List.flatMap_cons, List.append_assoc] at hd
    rw [List.flatMap_cons, List.length_append] at hfu ⊢
    have hpos : 0 < q.enc.length := by cases q <;> simp [Quiet.enc]
    have h1 := squiet_one (env := env) (rc := rc) (namex := namex) (st := st) ht q (hq q (List.mem_cons_self ..)) hd
    obtain ⟨g, rfl⟩ : ∃ g, fuel = g + 1 := ⟨fuel - 1, by omega⟩
    obtain ⟨f, hf, h⟩ := ih (fun x hx => hq x (List.mem_cons_of_mem _ hx)) _ rest g (drop_more hd) (by omega)
    refine ⟨f, by omega, fun len hl => ?_⟩
    rw [evLoop_next (by omega) h1, h len (by omega), Nat.add_assoc]

theorem weak_quiet (ht : NewTab tab) {before after : List Quiet} {e : VExpr} (hb : ∀ q ∈ before, q.Ok) (ha : ∀ q ∈ after, q.Ok) {te : Bytes}
    (ih : VSteps C loc fs env rc tab namex data n e te) :
    VWeak C loc fs env rc tab namex data n (.quiet before after e) (before.flatMap Quiet.enc ++ (te ++ after.flatMap Quiet.enc)) := by
  intro p rest fuel st hd hg hn hfu
  simp only [List.append_assoc, List.length_append] at hd hfu ⊢
  obtain ⟨f1, hf1, h1⟩ := squiet (env := env) (rc := rc) (namex := namex) (st := st) ht before hb p _ fuel hd (by omega)
  obtain ⟨f2, o, tbl, ho, hk, hg2, hn2, hf2, h2⟩ := ih _ _ f1 st (drop_more hd) hg hn (by omega)
  obtain ⟨f3, hf3, h3⟩ := squiet (env := env) (rc := rc) (namex := namex) (st := { st with stack := o :: st.stack, tbl := tbl }) ht after ha _ rest f2 (drop_more (drop_more hd)) (by omega)
  refine ⟨f3, { st with stack := o :: st.stack, tbl := tbl }, fun h o' s' hs => ?_, hn2, by omega, fun len hl => ?_⟩
  · cases hs
    cases h with | quiet _ _ _ h => exact hk h
  · rw [h1 len (by omega), h2 len (by omega), h3 len (by omega), Nat.add_assoc, Nat.add_assoc]

theorem weak_mem (ht : NewTab tab) (cls : Cls) {size : Nat} {e : VExpr} (hs : size < 65536) {te : Bytes} (ih : VSteps C loc fs env rc tab namex data n e te) :
    VWeak C loc fs env rc tab namex data n (.mem cls size e) (UInt8.ofNat (cls.code + 0x09) :: (le16 size ++ te)) := by
  intro p rest fuel st hd hg hn hfu
  simp only [List.append_assoc, List.cons_append, List.length_append, List.length_cons, le16_length] at hd hfu ⊢
  have hu := unpackH_at hs (drop_one hd)
  rw [show ((p + 1 : Nat) : Int) + 2 = (p : Int) + 3 by omega, show ((p + 1 : Nat) : Int) = (p : Int) + 1 by omega] at hu
  have e1 : evClass env rc namex data (p : Int) 9 cls.num st = .ok st := by
    simp [evClass, hu, bind, Except.bind, pure, Except.pure]
  have h1 := sclass (tab := tab) hd (by decide) (sz := 3) (by rcases ht with rfl | rfl <;> decide) (by decide) e1
  have hd' : data.drop (p + 3) = te ++ rest := by
    have := drop_more (x := UInt8.ofNat (cls.code + 9) :: le16 size) (data := data) (p := p) (rest := te ++ rest) (by rw [hd]; simp)
    simpa [le16_length] using this
  obtain ⟨g, rfl⟩ : ∃ g, fuel = g + 1 := ⟨fuel - 1, by omega⟩
  obtain ⟨f, o, tbl, ho, hk, hg2, hn2, hf, h2⟩ := ih (p + 3) rest g st hd' hg hn (by omega)
  refine ⟨f, { st with stack := o :: st.stack, tbl := tbl }, fun h => (by cases h), hn2, by omega, fun len hl => ?_⟩
  rw [evLoop_next (by omega) h1]
  have := h2 len (by omega)
  rw [show ((p : Int) + 3) = ((p + 3 : Nat) : Int) by push_cast; ring]
  simp only
  rw [this, show p + 3 + te.length = p + (2 + te.length + 1) by omega]

end Xlrd
