import Verif.Props.NameExpr

/-!
# C78: the evaluation of the tokens of a name
-/
set_option linter.unusedSimpArgs false
set_option linter.unusedVariables false

namespace Xlrd
open Spec

/-- The functions in the table, with the least and greatest number of arguments. -/
def IsFunc (n lo hi : Nat) : Prop := ∃ name, funcDef n = some (name, lo, hi)

/-- The entries of the table are as the formulas say. -/
def VGood (C : Calc) (loc : Nat → Nat → Nat → Prop) (fs : Nat → Option VExpr) (t : NameTbl) : Prop :=
  ∀ (i : Nat) e x, t[i]? = some (some e) → fs i = some x → Fine C loc fs IsFunc x → ∃ o, e = { stack := [o], anyRel := false, anyErr := false } ∧ Agree C loc fs x o

/-- Evaluation of the tokens of an expression pushes an operand that agrees with it. -/
def VRuns (C : Calc) (loc : Nat → Nat → Nat → Prop) (fs : Nat → Option VExpr) (env : FEnv) (rc : NameTbl → Nat → Int → R NameTbl) (tab : List Int)
    (namex : Int) (data : Bytes) (len : Nat) (st' : EvSt) (x : VExpr) (toks : Bytes) : Prop :=
  ∀ (p : Nat) (rest : Bytes) (fuel : Nat) (st : EvSt), data.drop p = toks ++ rest → p + toks.length ≤ len → VGood C loc fs st.tbl →
    evLoop env rc tab namex data len fuel st (p : Int) = .ok st' →
    ∃ f o tbl, Agree C loc fs x o ∧ VGood C loc fs tbl ∧
      evLoop env rc tab namex data len f { st with stack := o :: st.stack, tbl := tbl } ((p + toks.length : Nat) : Int) = .ok st'

/-- The tables of sizes for BIFF5 and later versions. -/
def NewTab (tab : List Int) : Prop := tab = sztab3 ∨ tab = sztab4

/-! ## Steps -/

theorem vplain {env : FEnv} {rc : NameTbl → Nat → Int → R NameTbl} {tab : List Int} {namex : Int} {data rest : Bytes} {p : Nat} {b : UInt8} {st : EvSt} {r : EvSt × Int}
    (h : data.drop p = b :: rest) {c : Nat} {s0 : Int} (hc : b.toNat = c) (hlt : c < 32) (hs : tab.getD c (-2) = s0) (h2 : s0 ≠ -2)
    (hr : evStep env rc tab namex data p st = .ok r) : ∃ s z, evPlain env data p c s0 st.stack = .ok (s, z) ∧ r = ({ st with stack := s }, (p : Int) + z) := by
  unfold evStep at hr
  rw [byteAt_at h] at hr
  simp only [bind, Except.bind] at hr
  rw [hc, show c % 32 = c by omega, show c / 32 % 4 = 0 by omega] at hr
  simp only [if_true, hs, if_neg h2] at hr
  cases he : evPlain env data p c s0 st.stack with
  | error e => rw [he] at hr; cases hr
  | ok q =>
    rw [he] at hr
    simp only at hr
    by_cases hz : q.2 ≤ 0
    · rw [if_pos hz] at hr; cases hr
    · rw [if_neg hz] at hr; cases hr
      exact ⟨q.1, q.2, rfl, rfl⟩

def Spec.Cls.num : Cls → Nat
  | .ref => 1 | .val => 2 | .arr => 3

theorem cls_num (cls : Cls) (k : Nat) (hk : k < 32) : (UInt8.ofNat (cls.code + k)).toNat % 32 = k ∧ (UInt8.ofNat (cls.code + k)).toNat / 32 % 4 = cls.num := by
  have : (UInt8.ofNat (cls.code + k)).toNat = (cls.code + k) % 256 := u8_toNat_ofNat _
  cases cls <;> simp only [Cls.code, Spec.Cls.num] at this ⊢ <;> omega

theorem vclass {env : FEnv} {rc : NameTbl → Nat → Int → R NameTbl} {tab : List Int} {namex : Int} {data rest : Bytes} {p : Nat} {cls : Cls} {c : Nat} {st : EvSt} {r : EvSt × Int}
    (h : data.drop p = UInt8.ofNat (cls.code + c) :: rest) (hlt : c < 32) {sz : Int} (hs : tab.getD (c + 32) (-2) = sz) (hz : 0 < sz)
    (hr : evStep env rc tab namex data p st = .ok r) : ∃ st1, evClass env rc namex data p c cls.num st = .ok st1 ∧ r = (st1, (p : Int) + sz) := by
  obtain ⟨h1, h2⟩ := cls_num cls c hlt
  have h0 : cls.num ≠ 0 := by cases cls <;> decide
  rw [evStep_class st h h1 h2 h0 hs hz] at hr
  cases he : evClass env rc namex data p c cls.num st with
  | error e => rw [he] at hr; cases hr
  | ok q => rw [he] at hr; cases hr; exact ⟨q, rfl, rfl⟩

theorem evLoop_at {env : FEnv} {rc : NameTbl → Nat → Int → R NameTbl} {tab : List Int} {namex : Int} {data : Bytes} {len f : Nat} {st st' : EvSt} {a b : Int} (hab : a = b)
    (h : evLoop env rc tab namex data len f st a = .ok st') : evLoop env rc tab namex data len f st b = .ok st' := by rw [← hab]; exact h

theorem drop_more {data x rest : Bytes} {p : Nat} (h : data.drop p = x ++ rest) : data.drop (p + x.length) = rest := by
  rw [← List.drop_drop, h, List.drop_left]

/-- An operand without a value, for an expression without a value. -/
theorem agree_unknown {C : Calc} {loc : Nat → Nat → Nat → Prop} {fs : Nat → Option VExpr} {x : VExpr} {o : Opnd} (hx : ∀ v, ¬ HasVal C loc fs x v) (hv : o.value = none)
    (hk : o.kind ≠ .msng) : Agree C loc fs x o :=
  ⟨fun v h => absurd h (hx v), fun h => by rcases h with h | h; exacts [absurd hv h, absurd h hk]⟩

/-! ## Constants -/

/-- A constant: one step that pushes an operand for the value. -/
theorem vruns_const {C : Calc} {loc : Nat → Nat → Nat → Prop} {fs : Nat → Option VExpr} {env : FEnv} {rc : NameTbl → Nat → Int → R NameTbl} {tab : List Int} {namex : Int} {data : Bytes}
    {len : Nat} {st' : EvSt} {x : VExpr} {b : UInt8} {d : Bytes} {c : Nat} (hc : b.toNat = c) (hlt : c < 32) {s0 : Int}
    (hs : tab.getD c (-2) = s0) (h2 : s0 ≠ -2)
    (hp : ∀ (p : Nat) (rest : Bytes) (stk s : List Opnd) (z : Int), data.drop p = b :: (d ++ rest) → evPlain env data p c s0 stk = .ok (s, z) →
      ∃ o, s = o :: stk ∧ Agree C loc fs x o ∧ z = ((1 + d.length : Nat) : Int)) :
    VRuns C loc fs env rc tab namex data len st' x (b :: d) := by
  intro p rest fuel st hd hlen hg h
  simp only [List.length_cons, List.cons_append] at hd hlen ⊢
  obtain ⟨f, r, h1, h⟩ := evLoop_ok (by omega) h
  obtain ⟨s, z, h3, rfl⟩ := vplain hd hc hlt hs h2 h1
  obtain ⟨o, rfl, ho, rfl⟩ := hp p rest st.stack s z hd h3
  exact ⟨f, o, st.tbl, ho, hg, evLoop_at (by push_cast; ring) h⟩

theorem evPlain_const {env : FEnv} {data : Bytes} {p : Nat} {c : Nat} {s0 z : Int} {stk s : List Opnd} (hc : 0x1C ≤ c) (h : evPlain env data p c s0 stk = .ok (s, z)) :
    ∃ k v t, constTok env.ops.str c data p = .ok (k, v, t) ∧ s = { kind := k, value := some v, rank := LEAF_RANK, text := t } :: stk ∧ z = s0 := by
  unfold evPlain at h
  rw [if_neg (by omega), if_neg (by omega), if_neg (by omega), if_neg (by omega), if_neg (by omega), if_neg (by omega), if_neg (by omega),
        if_neg (by omega), if_neg (by omega), if_neg (by omega), if_neg (by omega), if_neg (by omega)] at h
  obtain ⟨⟨k, v, t⟩, h1, h⟩ := bind_ok h
  cases h
  exact ⟨k, v, t, h1, rfl, rfl⟩

theorem agree_const {C : Calc} {loc : Nat → Nat → Nat → Prop} {fs : Nat → Option VExpr} {x : VExpr} {v : Value} {o : Opnd} (hv : HasVal C loc fs x v)
    (hu : ∀ w, HasVal C loc fs x w → w = v) (ho : Holds o v) : Agree C loc fs x o :=
  ⟨fun w hw => by rw [hu w hw]; exact ho, fun _ => ⟨v, hv, ho⟩⟩

theorem vruns_int {C : Calc} {loc : Nat → Nat → Nat → Prop} {fs : Nat → Option VExpr} {env : FEnv} {rc : NameTbl → Nat → Int → R NameTbl} {tab : List Int} (ht : NewTab tab) {namex : Int} {data : Bytes}
    {len : Nat} {st' : EvSt} (n : Nat) (hn : n < 65536) : VRuns C loc fs env rc tab namex data len st' (.int n) (0x1E :: le16 n) := by
  refine vruns_const (b := 0x1E) (d := le16 n) (c := 0x1E) rfl (by decide) (s0 := 3) (by rcases ht with rfl | rfl <;> decide) (by decide) ?_
  intro p rest stk s z hd h
  obtain ⟨k, v, t, h1, rfl, rfl⟩ := evPlain_const (by decide) h
  unfold constTok at h1
  rw [if_neg (by decide), if_neg (by decide), if_pos rfl] at h1
  have := unpackH_at hn (drop_one hd)
  rw [show ((p : Int) + 3) = ((p + 1 : Nat) : Int) + 2 by push_cast; ring, show ((p : Int) + 1) = ((p + 1 : Nat) : Int) by push_cast; ring, this] at h1
  cases h1
  exact ⟨_, rfl, agree_const (.int n) (fun w hw => by cases hw; rfl) ⟨rfl, rfl⟩, by simp [le16_length]⟩

theorem vruns_num {C : Calc} {loc : Nat → Nat → Nat → Prop} {fs : Nat → Option VExpr} {env : FEnv} {rc : NameTbl → Nat → Int → R NameTbl} {tab : List Int} (ht : NewTab tab) {namex : Int} {data : Bytes}
    {len : Nat} {st' : EvSt} (x : B64) (hx : x.Ok) : VRuns C loc fs env rc tab namex data len st' (.num x) (0x1F :: x.bytes) := by
  have hl : x.bytes.length = 8 := by simp [B64.bytes, le32_length]
  refine vruns_const (b := 0x1F) (d := x.bytes) (c := 0x1F) rfl (by decide) (s0 := 9) (by rcases ht with rfl | rfl <;> decide) (by decide) ?_
  intro p rest stk s z hd h
  obtain ⟨k, v, t, h1, rfl, rfl⟩ := evPlain_const (by decide) h
  unfold constTok at h1
  rw [if_neg (by decide), if_neg (by decide), if_neg (by decide)] at h1
  have := slice_fwd (x := x.bytes) (k := 1) (n := 8) (p : Int) rfl (drop_one hd) hl
  simp only [Nat.cast_one, Nat.reduceAdd, Nat.cast_ofNat] at this
  rw [this, unpackd_bytes x hx] at h1
  cases h1
  exact ⟨_, rfl, agree_const (.num x) (fun w hw => by cases hw; rfl) ⟨rfl, rfl⟩, by simp [hl]⟩

theorem vruns_bool {C : Calc} {loc : Nat → Nat → Nat → Prop} {fs : Nat → Option VExpr} {env : FEnv} {rc : NameTbl → Nat → Int → R NameTbl} {tab : List Int} (ht : NewTab tab) {namex : Int} {data : Bytes}
    {len : Nat} {st' : EvSt} (b : Bool) : VRuns C loc fs env rc tab namex data len st' (.bool b) [0x1D, if b then 1 else 0] := by
  refine vruns_const (b := 0x1D) (d := [if b then 1 else 0]) (c := 0x1D) rfl (by decide) (s0 := 2) (by rcases ht with rfl | rfl <;> decide) (by decide) ?_
  intro p rest stk s z hd h
  obtain ⟨k, v, t, h1, rfl, rfl⟩ := evPlain_const (by decide) h
  unfold constTok at h1
  rw [if_neg (by decide), if_pos rfl] at h1
  have := slice_fwd (x := [if b then 1 else 0]) (k := 1) (n := 1) (p : Int) rfl (drop_one hd) rfl
  simp only [Nat.cast_one, Nat.reduceAdd, Nat.cast_ofNat] at this
  rw [this] at h1
  cases b
  · cases h1
    exact ⟨_, rfl, agree_const (.bool false) (fun w hw => by cases hw; rfl) ⟨rfl, rfl⟩, rfl⟩
  · cases h1
    exact ⟨_, rfl, agree_const (.bool true) (fun w hw => by cases hw; rfl) ⟨rfl, rfl⟩, rfl⟩

theorem vruns_err {C : Calc} {loc : Nat → Nat → Nat → Prop} {fs : Nat → Option VExpr} {env : FEnv} {rc : NameTbl → Nat → Int → R NameTbl} {tab : List Int} (ht : NewTab tab) {namex : Int} {data : Bytes}
    {len : Nat} {st' : EvSt} (c : Nat) (hc : c ∈ errorCodes) : VRuns C loc fs env rc tab namex data len st' (.err c) [0x1C, UInt8.ofNat c] := by
  have hlt : c < 256 := (by decide : ∀ c ∈ errorCodes, c < 256) c hc
  refine vruns_const (b := 0x1C) (d := [UInt8.ofNat c]) (c := 0x1C) rfl (by decide) (s0 := 2) (by rcases ht with rfl | rfl <;> decide) (by decide) ?_
  intro p rest stk s z hd h
  obtain ⟨k, v, t, h1, rfl, rfl⟩ := evPlain_const (by decide) h
  unfold constTok at h1
  rw [if_pos rfl] at h1
  have := slice_fwd (x := [UInt8.ofNat c]) (k := 1) (n := 1) (p : Int) rfl (drop_one hd) rfl
  simp only [Nat.cast_one, Nat.reduceAdd, Nat.cast_ofNat] at this
  have hu : unpackB [UInt8.ofNat c] = .ok c := by
    simp [unpackB, unpackN, le, fld, bind, Except.bind, pure, Except.pure]
    omega
  rw [this, hu] at h1
  obtain ⟨_, e0, h1⟩ := bind_ok h1
  cases e0
  obtain ⟨_, e0, h1⟩ := bind_ok h1
  cases h1
  exact ⟨_, rfl, agree_const (.err c) (fun w hw => by cases hw; rfl) ⟨rfl, rfl⟩, rfl⟩

theorem vruns_text {C : Calc} {loc : Nat → Nat → Nat → Prop} {fs : Nat → Option VExpr} {env : FEnv} (hv : env.bv = 80) {rc : NameTbl → Nat → Int → R NameTbl} {tab : List Int} (ht : NewTab tab) {namex : Int} {data : Bytes}
    {len : Nat} {st' : EvSt} (u : UStr) (hu : u.Ok) (hn : (utf16 u.text).length < 256) : VRuns C loc fs env rc tab namex data len st' (.text u) (0x17 :: (encLen 1 (utf16 u.text).length ++ u.body)) := by
  refine vruns_const (b := 0x17) (d := encLen 1 (utf16 u.text).length ++ u.body) (c := 0x17) rfl (by decide) (s0 := -1) (by rcases ht with rfl | rfl <;> decide) (by decide) ?_
  intro p rest stk s z hd h
  rw [List.append_assoc] at hd
  have hs' := unicodeLen_at u hu (.inl rfl) (by simpa using hn) (drop_one hd)
  have e1 : (encLen 1 (utf16 u.text).length).length = 1 := encLen_length 1 _ (.inl rfl)
  unfold evPlain at h
  rw [if_neg (by decide), if_neg (by decide), if_neg (by decide), if_neg (by decide), if_neg (by decide), if_neg (by decide), if_neg (by decide),
        if_neg (by decide), if_pos rfl] at h
  unfold tStr at h
  rw [if_neg (by omega), show ((p : Int) + 1) = ((p + 1 : Nat) : Int) by push_cast; ring, hs'] at h
  cases h
  refine ⟨_, rfl, agree_const (.text u) (fun w hw => by cases hw; rfl) ⟨rfl, rfl⟩, ?_⟩
  rw [List.length_append, e1]
  push_cast; ring

theorem vruns_missing {C : Calc} {loc : Nat → Nat → Nat → Prop} {fs : Nat → Option VExpr} {env : FEnv} {rc : NameTbl → Nat → Int → R NameTbl} {tab : List Int} (ht : NewTab tab) {namex : Int} {data : Bytes}
    {len : Nat} {st' : EvSt} : VRuns C loc fs env rc tab namex data len st' .missing [0x16] := by
  refine vruns_const (b := 0x16) (d := []) (c := 0x16) rfl (by decide) (s0 := 1) (by rcases ht with rfl | rfl <;> decide) (by decide) ?_
  intro p rest stk s z hd h
  cases h
  exact ⟨_, rfl, agree_const .missing (fun w hw => by cases hw; rfl) ⟨rfl, rfl⟩, rfl⟩

/-! ## References and names -/

theorem evRef3d_any {loc : Nat → Nat → Nat → Prop} {env : FEnv} (hb : RefBook loc env) {refx x y r c : Nat} (h16 : refx < 65536) (hl : loc refx x y)
    (hr : r < 65536) (hc : c < 256) (optype : Nat) (c0 : UInt8) (pre rest : Bytes) (st : EvSt) :
    ∃ o, evRef3d env (pre ++ (c0 :: (le16 refx ++ encAddr 80 (.abs r) (.abs c)) ++ rest)) (pre.length : Int) optype st = .ok { st with stack := o :: st.stack } ∧
      o.kind = .ref ∧ o.value = if optype = 1 then some (.refs [{ shtxlo := x, shtxhi := y + 1, rowxlo := r, rowxhi := r + 1, colxlo := c, colxhi := c + 1 }]) else none := by
  obtain ⟨_, hx, hy⟩ := hb.loc refx x y hl
  obtain ⟨t, ht⟩ := rangename3d_ok env.bk.sheetNames x y r r c c hx hy hc hc
  have ha := C47_cell_address 80 (.abs r) (.abs c) ⟨by simpa [Coord.Fits, rowCount] using hr, by simpa [Coord.Fits] using hc⟩ none none (pre ++ c0 :: le16 refx) rest
  rw [show (((pre ++ c0 :: le16 refx).length : Nat) : Int) = (pre.length : Int) + 3 by simp [le16_length]] at ha
  have hs := sheets3d_at hb h16 hl pre c0 (encAddr 80 (.abs r) (.abs c) ++ rest)
  generalize hdata : pre ++ (c0 :: (le16 refx ++ encAddr 80 (.abs r) (.abs c)) ++ rest) = data
  have e1 : data = pre ++ c0 :: le16 refx ++ encAddr 80 (.abs r) (.abs c) ++ rest := by rw [← hdata]; simp
  have e2 : data = pre ++ c0 :: (le16 refx ++ (encAddr 80 (.abs r) (.abs c) ++ rest)) := by rw [← hdata]; simp
  refine ⟨{ kind := .ref, value := if optype = 1 then some (.refs [{ shtxlo := x, shtxhi := y + 1, rowxlo := r, rowxhi := r + 1, colxlo := c, colxhi := c + 1 }]) else none, rank := LEAF_RANK, text := t }, ?_, rfl, rfl⟩
  unfold evRef3d
  rw [if_pos (by rw [hb.bv])]
  conv_lhs => rw [show getCellAddr data ((pre.length : Int) + 3) env.bv true none none = .ok (addrOf (.abs r) (.abs c)) by
    rw [hb.bv, e1]; exact ha]
  conv_lhs => rw [show sheets3d env.bv env.bk data (pre.length : Int) = .ok ((x : Int), (y : Int)) by rw [e2]; exact hs]
  simp only [bind, Except.bind, pure, Except.pure, ref3dOpnd, mkRef3d, addrOf, Coord.num, Coord.isRel, Bool.or_self, Bool.false_eq_true, if_false, ht]
  simp only [Bool.or_false, decide_eq_false (show ¬ ((x : Int) < -1) by omega)]

theorem evArea3d_any {loc : Nat → Nat → Nat → Prop} {env : FEnv} (hb : RefBook loc env) {refx x y r1 r2 c1 c2 : Nat} (h16 : refx < 65536) (hl : loc refx x y)
    (hr1 : r1 < 65536) (hr2 : r2 < 65536) (hc1 : c1 < 256) (hc2 : c2 < 256) (optype : Nat) (c0 : UInt8) (pre rest : Bytes) (st : EvSt) :
    ∃ o, evArea3d env (pre ++ (c0 :: (le16 refx ++ encArea 80 (.abs r1) (.abs r2) (.abs c1) (.abs c2)) ++ rest)) (pre.length : Int) optype st = .ok { st with stack := o :: st.stack } ∧
      o.kind = .ref ∧ o.value = if optype = 1 then some (.refs [{ shtxlo := x, shtxhi := y + 1, rowxlo := r1, rowxhi := r2 + 1, colxlo := c1, colxhi := c2 + 1 }]) else none := by
  obtain ⟨_, hx, hy⟩ := hb.loc refx x y hl
  obtain ⟨t, ht⟩ := rangename3d_ok env.bk.sheetNames x y r1 r2 c1 c2 hx hy hc1 hc2
  have ha := C47_area_address 80 (.abs r1) (.abs r2) (.abs c1) (.abs c2) ⟨by simpa [Coord.Fits, rowCount] using hr1, by simpa [Coord.Fits] using hc1⟩
    ⟨by simpa [Coord.Fits, rowCount] using hr2, by simpa [Coord.Fits] using hc2⟩ none none (pre ++ c0 :: le16 refx) rest
  rw [show (((pre ++ c0 :: le16 refx).length : Nat) : Int) = (pre.length : Int) + 3 by simp [le16_length]] at ha
  have hs := sheets3d_at hb h16 hl pre c0 (encArea 80 (.abs r1) (.abs r2) (.abs c1) (.abs c2) ++ rest)
  generalize hdata : pre ++ (c0 :: (le16 refx ++ encArea 80 (.abs r1) (.abs r2) (.abs c1) (.abs c2)) ++ rest) = data
  have e1 : data = pre ++ c0 :: le16 refx ++ encArea 80 (.abs r1) (.abs r2) (.abs c1) (.abs c2) ++ rest := by rw [← hdata]; simp
  have e2 : data = pre ++ c0 :: (le16 refx ++ (encArea 80 (.abs r1) (.abs r2) (.abs c1) (.abs c2) ++ rest)) := by rw [← hdata]; simp
  refine ⟨{ kind := .ref, value := if optype = 1 then some (.refs [{ shtxlo := x, shtxhi := y + 1, rowxlo := r1, rowxhi := r2 + 1, colxlo := c1, colxhi := c2 + 1 }]) else none, rank := LEAF_RANK, text := t }, ?_, rfl, rfl⟩
  unfold evArea3d
  rw [if_pos (by rw [hb.bv])]
  conv_lhs => rw [show getCellRangeAddr data ((pre.length : Int) + 3) env.bv true none none =
    .ok (addrOf (.abs r1) (.abs c1), addrOf (.abs r2) (.abs c2)) by rw [hb.bv, e1]; exact ha]
  conv_lhs => rw [show sheets3d env.bv env.bk data (pre.length : Int) = .ok ((x : Int), (y : Int)) by rw [e2]; exact hs]
  simp only [bind, Except.bind, pure, Except.pure, ref3dOpnd, mkRef3d, addrOf, Coord.num, Coord.isRel, Bool.or_self, Bool.false_eq_true, if_false, ht]
  simp only [Bool.or_false, decide_eq_false (show ¬ ((x : Int) < -1) by omega)]

theorem take_drop_pos {data x : Bytes} {p : Nat} {b : UInt8} (h : data.drop p = b :: x) : data = data.take p ++ b :: x ∧ (data.take p).length = p := by
  refine ⟨by rw [← h, List.take_append_drop], ?_⟩
  rw [List.length_take]
  have : p < data.length := by
    by_contra hc
    rw [List.drop_eq_nil_of_le (by omega)] at h
    cases h
  omega

/-- The table of references gives at most one range of sheets. -/
theorem refBook_unique {loc : Nat → Nat → Nat → Prop} {env : FEnv} (hb : RefBook loc env) {refx x y x' y' : Nat} (h : loc refx x y) (h' : loc refx x' y') : x = x' ∧ y = y' := by
  have h1 := (hb.loc refx x y h).1
  rw [(hb.loc refx x' y' h').1] at h1
  cases h1
  exact ⟨rfl, rfl⟩

theorem vruns_cell {C : Calc} {loc : Nat → Nat → Nat → Prop} {fs : Nat → Option VExpr} {env : FEnv} (hb : RefBook loc env) {rc : NameTbl → Nat → Int → R NameTbl} {namex : Int}
    {data : Bytes} {len : Nat} {st' : EvSt} (cls : Cls) {refx x y r c : Nat} (h16 : refx < 65536) (hl : loc refx x y) (hr : r < 65536) (hc : c < 256) :
    VRuns C loc fs env rc sztab4 namex data len st' (.cell cls refx r c) (VExpr.tokens (.cell cls refx r c)) := by
  intro p rest fuel st hd hlen hg h
  have hd0 := hd
  simp only [VExpr.tokens, List.cons_append, List.length_cons] at hd hlen
  obtain ⟨f, q, h1, h⟩ := evLoop_ok (by omega) h
  obtain ⟨st1, h2, rfl⟩ := vclass hd (by decide) (sz := 7) (by decide) (by decide) h1
  obtain ⟨e1, e2⟩ := take_drop_pos hd
  obtain ⟨o, ho, hk, hv⟩ := evRef3d_any hb h16 hl hr hc cls.num (UInt8.ofNat (cls.code + 0x1A)) (data.take p) rest st
  have e3 : data.take p ++ (UInt8.ofNat (cls.code + 0x1A) :: (le16 refx ++ encAddr 80 (.abs r) (.abs c)) ++ rest) = data := by
    conv_rhs => rw [e1]
    simp
  rw [e3, e2] at ho
  have e4 : evClass env rc namex data (p : Int) 0x1A cls.num st = evRef3d env data p cls.num st := by simp [evClass]
  rw [e4, ho] at h2
  cases h2
  refine ⟨f, o, st.tbl, ?_, hg, evLoop_at (by simp [VExpr.tokens, le16_length, enc80_length]) h⟩
  cases cls with
  | ref =>
    refine agree_const (.cell refx r c x y hl) (fun w hw => ?_) ⟨hk, by simpa [Spec.Cls.num] using hv⟩
    cases hw with
    | cell _ _ _ x' y' h' => obtain ⟨rfl, rfl⟩ := refBook_unique hb hl h'; rfl
  | val => exact agree_unknown (fun v hv => by cases hv) (by simpa [Spec.Cls.num] using hv) (by rw [hk]; decide)
  | arr => exact agree_unknown (fun v hv => by cases hv) (by simpa [Spec.Cls.num] using hv) (by rw [hk]; decide)

theorem vruns_area {C : Calc} {loc : Nat → Nat → Nat → Prop} {fs : Nat → Option VExpr} {env : FEnv} (hb : RefBook loc env) {rc : NameTbl → Nat → Int → R NameTbl} {namex : Int}
    {data : Bytes} {len : Nat} {st' : EvSt} (cls : Cls) {refx x y r1 r2 c1 c2 : Nat} (h16 : refx < 65536) (hl : loc refx x y) (hr1 : r1 < 65536) (hr2 : r2 < 65536)
    (hc1 : c1 < 256) (hc2 : c2 < 256) : VRuns C loc fs env rc sztab4 namex data len st' (.area cls refx r1 r2 c1 c2) (VExpr.tokens (.area cls refx r1 r2 c1 c2)) := by
  intro p rest fuel st hd hlen hg h
  simp only [VExpr.tokens, List.cons_append, List.length_cons] at hd hlen
  obtain ⟨f, q, h1, h⟩ := evLoop_ok (by omega) h
  obtain ⟨st1, h2, rfl⟩ := vclass hd (by decide) (sz := 11) (by decide) (by decide) h1
  obtain ⟨e1, e2⟩ := take_drop_pos hd
  obtain ⟨o, ho, hk, hv⟩ := evArea3d_any hb h16 hl hr1 hr2 hc1 hc2 cls.num (UInt8.ofNat (cls.code + 0x1B)) (data.take p) rest st
  have e3 : data.take p ++ (UInt8.ofNat (cls.code + 0x1B) :: (le16 refx ++ encArea 80 (.abs r1) (.abs r2) (.abs c1) (.abs c2)) ++ rest) = data := by
    conv_rhs => rw [e1]
    simp
  rw [e3, e2] at ho
  have e4 : evClass env rc namex data (p : Int) 0x1B cls.num st = evArea3d env data p cls.num st := by simp [evClass]
  rw [e4, ho] at h2
  cases h2
  refine ⟨f, o, st.tbl, ?_, hg, evLoop_at (by simp [VExpr.tokens, le16_length, encArea80_length]) h⟩
  cases cls with
  | ref =>
    refine agree_const (.area refx r1 r2 c1 c2 x y hl) (fun w hw => ?_) ⟨hk, by simpa [Spec.Cls.num] using hv⟩
    cases hw with
    | area _ _ _ _ _ x' y' h' => obtain ⟨rfl, rfl⟩ := refBook_unique hb hl h'; rfl
  | val => exact agree_unknown (fun v hv => by cases hv) (by simpa [Spec.Cls.num] using hv) (by rw [hk]; decide)
  | arr => exact agree_unknown (fun v hv => by cases hv) (by simpa [Spec.Cls.num] using hv) (by rw [hk]; decide)

/-- Name `k` is an ordinary name. -/
def Ordinary (names : List NameObj) (k : Nat) : Prop := ∃ o, names[k]? = some o ∧ o.macroFlag = 0 ∧ o.binary = 0

theorem nameRef_vgood {C : Calc} {loc : Nat → Nat → Nat → Prop} {fs : Nat → Option VExpr} {env : FEnv} (hfs : ∀ k x, fs k = some x → Ordinary env.bk.nameObjs k)
    {rc : NameTbl → Nat → Int → R NameTbl} {st st' : EvSt} {k : Nat} {e : VExpr} (hrc : ∀ t i g t', VGood C loc fs t → rc t i g = .ok t' → VGood C loc fs t')
    (hg : VGood C loc fs st.tbl) (hk : fs k = some e) (hf : Fine C loc fs IsFunc e) (h : nameRef env rc st k = .ok st') :
    ∃ o tbl, Agree C loc fs e o ∧ VGood C loc fs tbl ∧ st' = { st with stack := o :: st.stack, tbl := tbl } := by
  obtain ⟨ob, h1, h2, h3⟩ := hfs k e hk
  unfold nameRef at h
  rw [(idx_ok_nat _ _ _).mpr h1] at h
  simp only [bind, Except.bind] at h
  have hp : pyPos env.bk.nameObjs (k : Int) = k := by unfold pyPos; rw [if_neg (by omega)]; rfl
  rw [hp] at h
  cases h6 : evaluated rc st.tbl k (k : Int) with
  | error e => rw [h6] at h; cases h
  | ok tbl =>
    rw [h6] at h
    have ht : VGood C loc fs tbl := by
      unfold evaluated at h6
      split at h6
      · cases h6; exact hg
      · exact hrc _ _ _ _ hg h6
    simp only at h
    split at h
    · rename_i ev hev
      obtain ⟨o, rfl, ho⟩ := ht k ev e hev hk hf
      unfold useName at h
      rw [if_neg (by simp [h2, h3])] at h
      simp only at h
      obtain ⟨t, _, h⟩ := bind_ok h
      cases h
      exact ⟨{ o with rank := LEAF_RANK, text := t }, tbl, agree_same ho rfl rfl, ht, rfl⟩
    · cases h

theorem vruns_name {C : Calc} {loc : Nat → Nat → Nat → Prop} {fs : Nat → Option VExpr} {env : FEnv} (hfs : ∀ k x, fs k = some x → Ordinary env.bk.nameObjs k)
    {rc : NameTbl → Nat → Int → R NameTbl} (hrc : ∀ t i g t', VGood C loc fs t → rc t i g = .ok t' → VGood C loc fs t') {tab : List Int} {namex : Int} {data : Bytes} {len : Nat} {st' : EvSt}
    (cls : Cls) {k : Nat} {e : VExpr} (hk : k + 1 < 65536) (he : fs k = some e) (hf : Fine C loc fs IsFunc e) {unused : Bytes}
    (hs : tab.getD (3 + 32) (-2) = ((3 + unused.length : Nat) : Int)) : VRuns C loc fs env rc tab namex data len st' (.name cls k) (UInt8.ofNat (cls.code + 0x03) :: (le16 (k + 1) ++ unused)) := by
  intro p rest fuel st hd hlen hg h
  simp only [List.cons_append, List.length_cons, List.append_assoc] at hd hlen
  obtain ⟨f, q, h1, h⟩ := evLoop_ok (by omega) h
  obtain ⟨st1, h2, rfl⟩ := vclass hd (by decide) hs (by omega) h1
  have hu := unpackH_at hk (drop_one hd)
  rw [show ((p + 1 : Nat) : Int) + 2 = (p : Int) + 3 by omega, show ((p + 1 : Nat) : Int) = (p : Int) + 1 by omega] at hu
  have e1 : evClass env rc namex data (p : Int) 3 cls.num st = nameRef env rc st k := by
    simp [evClass, hu, bind, Except.bind]
  rw [e1] at h2
  obtain ⟨o, tbl, ho, ht, rfl⟩ := nameRef_vgood hfs hrc hg he hf h2
  refine ⟨f, o, tbl, ?_, ht, evLoop_at (by simp only [List.length_cons, List.length_append, le16_length]; push_cast; ring) h⟩
  refine ⟨?_, ?_⟩
  · intro v hv
    cases hv with
    | name _ _ x _ hx hv => rw [he] at hx; cases hx; exact ho.1 v hv
  · intro hh
    obtain ⟨v, h1, h2⟩ := ho.2 hh
    exact ⟨v, .name cls k e v he h1, h2⟩

/-! ## Operators -/

theorem vruns_un {C : Calc} {loc : Nat → Nat → Nat → Prop} {fs : Nat → Option VExpr} {env : FEnv} (hC : PyCalc env.ops C) {rc : NameTbl → Nat → Int → R NameTbl} {tab : List Int} (ht : NewTab tab) {namex : Int}
    {data : Bytes} {len : Nat} {st' : EvSt} (o : Op1) {e : VExpr} {te : Bytes} (ih : VRuns C loc fs env rc tab namex data len st' e te) (hn : ∀ v, HasVal C loc fs e v → ∃ n, v = .num n) :
    VRuns C loc fs env rc tab namex data len st' (.un o e) (te ++ [o.code]) := by
  intro p rest fuel st hd hlen hg h
  simp only [List.append_assoc, List.length_append, List.length_cons, List.length_nil] at hd hlen ⊢
  obtain ⟨f, oe, tbl, ho, htb, h1⟩ := ih p ([o.code] ++ rest) fuel st hd (by omega) hg h
  obtain ⟨f, r, h2, h⟩ := evLoop_ok (by omega) h1
  have hcode : o.code.toNat < 32 ∧ tab.getD o.code.toNat (-2) = 1 ∧ 0x12 ≤ o.code.toNat ∧ o.code.toNat ≤ 0x14 := by
    rcases ht with rfl | rfl <;> cases o <;> decide
  obtain ⟨s, z, h3, rfl⟩ := vplain (drop_more hd) rfl hcode.1 hcode.2.1 (by decide) h2
  unfold evPlain at h3
  rw [if_neg (by omega), if_neg (by omega), if_neg (by omega), if_neg (by omega), if_neg (by omega), if_pos hcode.2.2.2] at h3
  obtain ⟨s', h4, h3⟩ := bind_ok h3
  cases h3
  obtain ⟨r, rfl, hr⟩ := un_agree hC o ho hn h4
  exact ⟨f, r, tbl, hr, htb, evLoop_at (by push_cast; ring) h⟩

/-- Two operands and then an operator. -/
theorem vruns_two {C : Calc} {loc : Nat → Nat → Nat → Prop} {fs : Nat → Option VExpr} {env : FEnv} {rc : NameTbl → Nat → Int → R NameTbl} {tab : List Int} {namex : Int}
    {data : Bytes} {len : Nat} {st' : EvSt} {a b x : VExpr} {ta tb : Bytes} (iha : VRuns C loc fs env rc tab namex data len st' a ta)
    (ihb : VRuns C loc fs env rc tab namex data len st' b tb)
    {code : UInt8} (hlt : code.toNat < 32) (hs : tab.getD code.toNat (-2) = 1)
    (hp : ∀ (oa ob : Opnd) (stk s : List Opnd) (p : Nat) (z : Int), Agree C loc fs a oa → Agree C loc fs b ob → evPlain env data p code.toNat 1 (ob :: oa :: stk) = .ok (s, z) →
      ∃ r, s = r :: stk ∧ Agree C loc fs x r ∧ z = 1) : VRuns C loc fs env rc tab namex data len st' x (ta ++ (tb ++ [code])) := by
  intro p rest fuel st hd hlen hg h
  simp only [List.append_assoc, List.length_append, List.length_cons, List.length_nil] at hd hlen ⊢
  obtain ⟨f, oa, tbl, hoa, ht, h1⟩ := iha p (tb ++ ([code] ++ rest)) fuel st hd (by omega) hg h
  obtain ⟨f, ob, tbl, hob, ht, h1⟩ := ihb _ ([code] ++ rest) f _ (drop_more hd) (by omega) ht h1
  simp only at h1
  obtain ⟨f, r, h2, h⟩ := evLoop_ok (by omega) h1
  obtain ⟨s, z, h3, rfl⟩ := vplain (drop_more (drop_more hd)) rfl hlt hs (by decide) h2
  obtain ⟨r, rfl, hr, rfl⟩ := hp oa ob _ s _ z hoa hob h3
  exact ⟨f, r, tbl, hr, ht, evLoop_at (by push_cast; ring) h⟩

theorem vruns_bin {C : Calc} {loc : Nat → Nat → Nat → Prop} {fs : Nat → Option VExpr} {env : FEnv} (hC : PyCalc env.ops C) {rc : NameTbl → Nat → Int → R NameTbl} {tab : List Int} (ht : NewTab tab) {namex : Int}
    {data : Bytes} {len : Nat} {st' : EvSt} (o : Op2) {a b : VExpr} {ta tb : Bytes} (iha : VRuns C loc fs env rc tab namex data len st' a ta)
    (ihb : VRuns C loc fs env rc tab namex data len st' b tb) :
    VRuns C loc fs env rc tab namex data len st' (.bin o a b) (ta ++ (tb ++ [o.code])) := by
  have hcode : o.code.toNat < 32 ∧ tab.getD o.code.toNat (-2) = 1 ∧ 3 ≤ o.code.toNat ∧ o.code.toNat ≤ 0x0E := by
    rcases ht with rfl | rfl <;> cases o <;> decide
  refine vruns_two iha ihb (x := .bin o a b) (code := o.code) hcode.1 hcode.2.1 ?_
  intro oa ob stk s p z hoa hob h
  unfold evPlain at h
  rw [if_neg (by omega), if_pos hcode.2.2.2] at h
  obtain ⟨s', h4, h⟩ := bind_ok h
  cases h
  obtain ⟨r, rfl, hr⟩ := bin_agree hC o hoa hob h4
  exact ⟨r, rfl, hr, rfl⟩

theorem vruns_refs {C : Calc} {loc : Nat → Nat → Nat → Prop} {fs : Nat → Option VExpr} {env : FEnv} {rc : NameTbl → Nat → Int → R NameTbl} {tab : List Int} (ht : NewTab tab) {namex : Int}
    {data : Bytes} {len : Nat} {st' : EvSt} (o : RefOp) {a b : VExpr} {ta tb : Bytes} (iha : VRuns C loc fs env rc tab namex data len st' a ta)
    (ihb : VRuns C loc fs env rc tab namex data len st' b tb) :
    VRuns C loc fs env rc tab namex data len st' (.refs o a b) (ta ++ (tb ++ [o.code])) := by
  refine vruns_two iha ihb (x := .refs o a b) (code := o.code) (by cases o <;> decide) (by rcases ht with rfl | rfl <;> cases o <;> decide) ?_
  intro oa ob stk s p z hoa hob h
  unfold evPlain at h
  cases o with
  | isect =>
    rw [if_neg (by decide), if_neg (by decide), if_pos (by decide)] at h
    obtain ⟨s', h4, h⟩ := bind_ok h
    cases h
    obtain ⟨r, rfl, hr⟩ := refs_agree .isect hoa hob _ rfl h4
    exact ⟨r, rfl, hr, rfl⟩
  | union =>
    rw [if_neg (by decide), if_neg (by decide), if_neg (by decide), if_pos (by decide)] at h
    obtain ⟨s', h4, h⟩ := bind_ok h
    cases h
    obtain ⟨r, rfl, hr⟩ := refs_agree .union hoa hob _ rfl h4
    exact ⟨r, rfl, hr, rfl⟩
  | range =>
    rw [if_neg (by decide), if_neg (by decide), if_neg (by decide), if_neg (by decide), if_pos (by decide)] at h
    obtain ⟨s', h4, h⟩ := bind_ok h
    cases h
    obtain ⟨r, rfl, hr⟩ := refs_agree .range hoa hob _ rfl h4
    exact ⟨r, rfl, hr, rfl⟩

/-! ## Tokens without effect -/

theorem attrFields_at {data post : Bytes} {p : Nat} {k : UInt8} {d : Nat} (hd : d < 65536) (h : data.drop p = 0x19 :: ([k] ++ le16 d ++ post)) :
    attrFields data (p : Int) = .ok (k.toNat, d) := by
  unfold attrFields
  have := slice_fwd (x := [k] ++ le16 d) (k := 1) (n := 3) (p : Int) rfl (drop_one h) (by simp [le16_length])
  simp only [Nat.cast_one, Nat.reduceAdd, Nat.cast_ofNat] at this
  rw [this]
  rw [unpackN_ok (by simp [le16_length])]
  simp only [bind, Except.bind, pure, Except.pure]
  refine congrArg Except.ok (Prod.ext ?_ ?_)
  · simp [fld, le]
  · have := fld_only d hd
    simpa [fld] using this

theorem evPlain_attr {env : FEnv} {data : Bytes} {p : Nat} {s0 : Int} {stk : List Opnd} : evPlain env data p 0x19 s0 stk = attrTok data p stk := by
  unfold evPlain
  rw [if_neg (by decide), if_neg (by decide), if_neg (by decide), if_neg (by decide), if_neg (by decide), if_neg (by decide), if_neg (by decide),
      if_neg (by decide), if_neg (by decide), if_neg (by decide), if_pos rfl]

theorem vquiet_one {env : FEnv} {rc : NameTbl → Nat → Int → R NameTbl} {tab : List Int} (ht : NewTab tab) {namex : Int} {data post : Bytes} {p : Nat} {st : EvSt} {r : EvSt × Int} (q : Quiet) (hq : q.Ok)
    (hd : data.drop p = q.enc ++ post) (h : evStep env rc tab namex data p st = .ok r) : r = (st, ((p + q.enc.length : Nat) : Int)) := by
  cases q with
  | parens =>
    obtain ⟨s, z, h3, rfl⟩ := vplain (b := 0x15) hd rfl (by decide) (s0 := 1) (by rcases ht with rfl | rfl <;> decide) (by decide) h
    cases h3
    rfl
  | hint k d =>
    obtain ⟨hk1, hk2, hdd⟩ := hq
    have h' : data.drop p = 0x19 :: ([k] ++ le16 d ++ post) := by rw [hd]; simp [Quiet.enc]
    obtain ⟨s, z, h3, rfl⟩ := vplain h' rfl (by decide) (s0 := -1) (by rcases ht with rfl | rfl <;> decide) (by decide) h
    rw [show (25 : UInt8).toNat = 0x19 from rfl, evPlain_attr] at h3
    unfold attrTok at h3
    rw [attrFields_at hdd h'] at h3
    simp only [bind, Except.bind] at h3
    rw [if_neg (show ¬ k.toNat = 4 from fun hc => hk1 (UInt8.toNat_inj.mp hc)), if_neg (show ¬ k.toNat = 16 from fun hc => hk2 (UInt8.toNat_inj.mp hc))] at h3
    cases h3
    simp [Quiet.enc, le16_length]
  | jumps offs =>
    obtain ⟨ho1, ho2⟩ := hq
    have hlen : ∀ l : List Nat, (l.flatMap le16).length = 2 * l.length := by
      intro l
      induction l with
      | nil => rfl
      | cons a l ih => rw [List.flatMap_cons, List.length_append, ih, le16_length]; simp; omega
    have h' : data.drop p = 0x19 :: ([0x04] ++ le16 (offs.length - 1) ++ (offs.flatMap le16 ++ post)) := by rw [hd]; simp [Quiet.enc]
    obtain ⟨s, z, h3, rfl⟩ := vplain h' rfl (by decide) (s0 := -1) (by rcases ht with rfl | rfl <;> decide) (by decide) h
    rw [show (25 : UInt8).toNat = 0x19 from rfl, evPlain_attr] at h3
    unfold attrTok at h3
    rw [attrFields_at (by omega) h'] at h3
    simp only [bind, Except.bind] at h3
    rw [if_pos (by decide)] at h3
    cases h3
    refine Prod.ext rfl ?_
    simp only [Quiet.enc, List.length_append, hlen, le16_length, List.length_cons, List.length_nil]
    push_cast
    omega

theorem vquiet {env : FEnv} {rc : NameTbl → Nat → Int → R NameTbl} {tab : List Int} (ht : NewTab tab) {namex : Int} {data : Bytes} {len : Nat} {st st' : EvSt} : ∀ (qs : List Quiet), (∀ q ∈ qs, q.Ok) →
    ∀ (p : Nat) (rest : Bytes) (fuel : Nat), data.drop p = qs.flatMap Quiet.enc ++ rest → p + (qs.flatMap Quiet.enc).length ≤ len →
      evLoop env rc tab namex data len fuel st (p : Int) = .ok st' →
      ∃ f, evLoop env rc tab namex data len f st ((p + (qs.flatMap Quiet.enc).length : Nat) : Int) = .ok st' := by
  intro qs
  induction qs with
  | nil => intro _ p rest fuel _ _ h; exact ⟨fuel, h⟩
  | cons q qs ih =>
    intro hq p rest fuel hd hn h
    rw [List.flatMap_cons, List.append_assoc] at hd
    rw [List.flatMap_cons, List.length_append] at hn ⊢
    have hpos : 0 < q.enc.length := by cases q <;> simp [Quiet.enc]
    obtain ⟨f, r, h1, h⟩ := evLoop_ok (by omega) h
    rw [vquiet_one ht q (hq q (List.mem_cons_self ..)) hd h1] at h
    obtain ⟨f, h⟩ := ih (fun x hx => hq x (List.mem_cons_of_mem _ hx)) _ rest f (drop_more hd) (by omega) h
    exact ⟨f, evLoop_at (by push_cast; ring) h⟩

theorem agree_through {C : Calc} {loc : Nat → Nat → Nat → Prop} {fs : Nat → Option VExpr} {x e : VExpr} {o : Opnd} (hx : ∀ v, HasVal C loc fs x v ↔ HasVal C loc fs e v)
    (h : Agree C loc fs e o) : Agree C loc fs x o :=
  ⟨fun v hv => h.1 v ((hx v).mp hv), fun hh => by obtain ⟨v, h1, h2⟩ := h.2 hh; exact ⟨v, (hx v).mpr h1, h2⟩⟩

theorem vruns_quiet {C : Calc} {loc : Nat → Nat → Nat → Prop} {fs : Nat → Option VExpr} {env : FEnv} {rc : NameTbl → Nat → Int → R NameTbl} {tab : List Int} (ht : NewTab tab) {namex : Int}
    {data : Bytes} {len : Nat} {st' : EvSt} {before after : List Quiet} {e : VExpr} (hb : ∀ q ∈ before, q.Ok) (ha : ∀ q ∈ after, q.Ok)
    {te : Bytes} (ih : VRuns C loc fs env rc tab namex data len st' e te) : VRuns C loc fs env rc tab namex data len st' (.quiet before after e) (before.flatMap Quiet.enc ++ (te ++ after.flatMap Quiet.enc)) := by
  intro p rest fuel st hd hlen hg h
  simp only [List.append_assoc, List.length_append] at hd hlen ⊢
  obtain ⟨f, h⟩ := vquiet ht before hb p _ fuel hd (by omega) h
  obtain ⟨f, o, tbl, ho, htb, h⟩ := ih _ _ f st (drop_more hd) (by omega) hg h
  obtain ⟨f, h⟩ := vquiet ht after ha _ rest f (drop_more (drop_more hd)) (by omega) h
  exact ⟨f, o, tbl, agree_through (fun v => ⟨fun hv => by cases hv; assumption, .quiet before after e v⟩) ho, htb, evLoop_at (by push_cast; ring) h⟩

theorem vruns_mem {C : Calc} {loc : Nat → Nat → Nat → Prop} {fs : Nat → Option VExpr} {env : FEnv} {rc : NameTbl → Nat → Int → R NameTbl} {tab : List Int} (ht : NewTab tab) {namex : Int}
    {data : Bytes} {len : Nat} {st' : EvSt} (cls : Cls) {size : Nat} {e : VExpr} (hs : size < 65536)
    {te : Bytes} (ih : VRuns C loc fs env rc tab namex data len st' e te) : VRuns C loc fs env rc tab namex data len st' (.mem cls size e) (UInt8.ofNat (cls.code + 0x09) :: (le16 size ++ te)) := by
  intro p rest fuel st hd hlen hg h
  simp only [List.append_assoc, List.cons_append, List.length_append, List.length_cons, le16_length] at hd hlen ⊢
  obtain ⟨f, r, h1, h⟩ := evLoop_ok (by omega) h
  obtain ⟨st1, h2, rfl⟩ := vclass hd (by decide) (sz := 3) (by rcases ht with rfl | rfl <;> decide) (by decide) h1
  have hu := unpackH_at hs (drop_one hd)
  rw [show ((p + 1 : Nat) : Int) + 2 = (p : Int) + 3 by omega, show ((p + 1 : Nat) : Int) = (p : Int) + 1 by omega] at hu
  have e1 : evClass env rc namex data (p : Int) 9 cls.num st = .ok st := by
    simp [evClass, hu, bind, Except.bind, pure, Except.pure]
  rw [e1] at h2
  cases h2
  have hd' : data.drop (p + 3) = te ++ rest := by
    have := drop_more (x := UInt8.ofNat (cls.code + 9) :: le16 size) (data := data) (p := p) (rest := te ++ rest) (by rw [hd]; simp)
    simpa [le16_length] using this
  obtain ⟨f, o, tbl, ho, htb, h⟩ := ih (p + 3) rest f st hd' (by omega) hg (evLoop_at (by push_cast; ring) h)
  exact ⟨f, o, tbl, agree_through (fun v => ⟨fun hv => by cases hv; assumption, .mem cls size e v⟩) ho, htb, evLoop_at (by push_cast; ring) h⟩

/-! ## Functions -/

theorem vruns_sum {C : Calc} {loc : Nat → Nat → Nat → Prop} {fs : Nat → Option VExpr} {env : FEnv} {rc : NameTbl → Nat → Int → R NameTbl} {tab : List Int} (ht : NewTab tab) {namex : Int}
    {data : Bytes} {len : Nat} {st' : EvSt} {d : Nat} {e : VExpr} (hdd : d < 65536)
    {te : Bytes} (ih : VRuns C loc fs env rc tab namex data len st' e te) : VRuns C loc fs env rc tab namex data len st' (.sum d e) (te ++ ([0x19, 0x10] ++ le16 d)) := by
  intro p rest fuel st hd hlen hg h
  simp only [List.append_assoc, List.length_append, List.length_cons, List.length_nil, le16_length] at hd hlen ⊢
  obtain ⟨f, o, tbl, ho, htb, h1⟩ := ih p _ fuel st hd (by omega) hg h
  obtain ⟨f, r, h2, h⟩ := evLoop_ok (by omega) h1
  have h' : data.drop (p + te.length) = 0x19 :: ([0x10] ++ le16 d ++ rest) := by rw [drop_more hd]; simp
  obtain ⟨s, z, h3, rfl⟩ := vplain h' rfl (by decide) (s0 := -1) (by rcases ht with rfl | rfl <;> decide) (by decide) h2
  rw [show (25 : UInt8).toNat = 0x19 from rfl, evPlain_attr] at h3
  unfold attrTok at h3
  rw [attrFields_at hdd h'] at h3
  simp only [bind, Except.bind] at h3
  rw [if_neg (by decide), if_pos (by decide)] at h3
  cases h3
  exact ⟨f, _, tbl, agree_unknown (fun v hv => by cases hv) rfl (fun hc => by cases hc), htb, evLoop_at (by push_cast; ring) h⟩

theorem vruns_args {C : Calc} {loc : Nat → Nat → Nat → Prop} {fs : Nat → Option VExpr} {env : FEnv} {rc : NameTbl → Nat → Int → R NameTbl} {tab : List Int} {namex : Int}
    {data : Bytes} {len : Nat} {st' : EvSt} : ∀ (args : List VExpr) (ts : List Bytes), List.Forall₂ (VRuns C loc fs env rc tab namex data len st') args ts →
    ∀ (p : Nat) (rest : Bytes) (fuel : Nat) (st : EvSt), data.drop p = ts.flatten ++ rest → p + ts.flatten.length ≤ len →
      VGood C loc fs st.tbl → evLoop env rc tab namex data len fuel st (p : Int) = .ok st' →
      ∃ f os tbl, List.Forall₂ (Agree C loc fs) args os ∧ VGood C loc fs tbl ∧
        evLoop env rc tab namex data len f { st with stack := os.reverse ++ st.stack, tbl := tbl } ((p + ts.flatten.length : Nat) : Int) = .ok st' := by
  intro args ts h
  induction h with
  | nil => intro p rest fuel st _ _ hg h; exact ⟨fuel, [], st.tbl, .nil, hg, h⟩
  | cons ha _ ih =>
    intro p rest fuel st hd hlen hg h
    simp only [List.flatten_cons, List.append_assoc, List.length_append] at hd hlen ⊢
    obtain ⟨f, o, tbl, ho, ht, h⟩ := ha p _ fuel st hd (by omega) hg h
    obtain ⟨f, os, tbl, hos, ht, h⟩ := ih _ rest f _ (drop_more hd) (by omega) ht h
    refine ⟨f, o :: os, tbl, .cons ho hos, ht, ?_⟩
    rw [← Nat.add_assoc, List.reverse_cons, List.append_assoc]
    exact h

theorem vruns_fixed {C : Calc} {loc : Nat → Nat → Nat → Prop} {fs : Nat → Option VExpr} {env : FEnv} (hv : 40 ≤ env.bv) {rc : NameTbl → Nat → Int → R NameTbl} {tab : List Int} (ht : NewTab tab) {namex : Int}
    {data : Bytes} {len : Nat} {st' : EvSt} (cls : Cls) {n hi : Nat} {args : List VExpr} (hn : n < 65536) (hf : IsFunc n args.length hi)
    {ts : List Bytes} (ih : List.Forall₂ (VRuns C loc fs env rc tab namex data len st') args ts) : VRuns C loc fs env rc tab namex data len st' (.fixed cls n args)
      (ts.flatten ++ UInt8.ofNat (cls.code + 0x01) :: le16 n) := by
  intro p rest fuel st hd hlen hg h
  simp only [List.append_assoc, List.cons_append, List.length_append, List.length_cons, le16_length] at hd hlen ⊢
  obtain ⟨f, os, tbl, hos, htb, h⟩ := vruns_args args ts ih p _ fuel st hd (by omega) hg h
  have hd' := drop_more hd
  obtain ⟨f, r, h2, h⟩ := evLoop_ok (by omega) h
  obtain ⟨st1, h3, rfl⟩ := vclass hd' (by decide) (sz := 3) (by rcases ht with rfl | rfl <;> decide) (by decide) h2
  generalize hq : p + ts.flatten.length = q at hd' h h3
  have e1 : evClass env rc namex data (q : Int) 1 cls.num { st with stack := os.reverse ++ st.stack, tbl := tbl } =
      (do let s ← funcTok env.bv data q (os.reverse ++ st.stack); pure { st with stack := s, tbl := tbl }) := by simp [evClass]
  rw [e1] at h3
  obtain ⟨s, h4, h3⟩ := bind_ok h3
  cases h3
  have hu := unpackH_at hn (drop_one hd')
  rw [show ((q + 1 : Nat) : Int) + 2 = (q : Int) + 3 by omega, show ((q + 1 : Nat) : Int) = (q : Int) + 1 by omega] at hu
  have hl := hos.length_eq
  obtain ⟨name, hname⟩ := hf
  unfold funcTok funcxAt at h4
  rw [if_pos (by omega), hu] at h4
  simp only [bind, Except.bind, hname] at h4
  rw [show decide ((os.reverse ++ st.stack).length ≥ args.length) = true from decide_eq_true (by rw [List.length_append, List.length_reverse]; omega)] at h4
  simp only [pyAssert, if_true] at h4
  by_cases h0 : args.length = 0
  · rw [if_pos h0] at h4
    cases h4
    have : os = [] := List.length_eq_zero_iff.mp (by omega)
    subst this
    exact ⟨f, _, tbl, agree_unknown (fun v hv => by cases hv) rfl (fun hc => by cases hc), htb, evLoop_at (by rw [← hq]; push_cast; ring) h⟩
  · rw [if_neg h0] at h4
    cases h4
    rw [show (os.reverse ++ st.stack).drop args.length = st.stack by rw [hl, ← List.length_reverse, List.drop_left]] at h
    exact ⟨f, _, tbl, agree_unknown (fun v hv => by cases hv) rfl (fun hc => by cases hc), htb, evLoop_at (by rw [← hq]; push_cast; ring) h⟩

theorem vruns_varying {C : Calc} {loc : Nat → Nat → Nat → Prop} {fs : Nat → Option VExpr} {env : FEnv} (hv : 40 ≤ env.bv) {rc : NameTbl → Nat → Int → R NameTbl} {tab : List Int} (ht : NewTab tab) {namex : Int}
    {data : Bytes} {len : Nat} {st' : EvSt} (cls : Cls) {n lo hi : Nat} {args : List VExpr} (hn : n < 32768) (hf : IsFunc n lo hi) (h1 : args ≠ []) (h128 : args.length < 128)
    {ts : List Bytes} (ih : List.Forall₂ (VRuns C loc fs env rc tab namex data len st') args ts) : VRuns C loc fs env rc tab namex data len st' (.varying cls n args)
      (ts.flatten ++ UInt8.ofNat (cls.code + 0x02) :: UInt8.ofNat args.length :: le16 n) := by
  intro p rest fuel st hd hlen hg h
  simp only [List.append_assoc, List.cons_append, List.length_append, List.length_cons, le16_length] at hd hlen ⊢
  obtain ⟨f, os, tbl, hos, htb, h⟩ := vruns_args args ts ih p _ fuel st hd (by omega) hg h
  have hd' := drop_more hd
  obtain ⟨f, r, h2, h⟩ := evLoop_ok (by omega) h
  obtain ⟨st1, h3, rfl⟩ := vclass hd' (by decide) (sz := 4) (by rcases ht with rfl | rfl <;> decide) (by decide) h2
  generalize hq : p + ts.flatten.length = q at hd' h h3
  have e1 : evClass env rc namex data (q : Int) 2 cls.num { st with stack := os.reverse ++ st.stack, tbl := tbl } =
      (do let s ← funcVarTok env.bv data q (os.reverse ++ st.stack); pure { st with stack := s, tbl := tbl }) := by simp [evClass]
  rw [e1] at h3
  obtain ⟨s, h4, h3⟩ := bind_ok h3
  cases h3
  have hu : funcVarFields env.bv data (q : Int) = .ok (args.length, n) := by
    unfold funcVarFields
    simp only [if_pos (show env.bv ≥ 40 by omega)]
    have := slice_fwd (x := UInt8.ofNat args.length :: le16 n) (k := 1) (n := 3) (q : Int) rfl (drop_one hd') (by simp [le16_length])
    simp only [Nat.cast_one, Nat.reduceAdd, Nat.cast_ofNat] at this
    rw [this, unpackN_ok (by simp [le16_length])]
    simp only [bind, Except.bind, pure, Except.pure]
    refine congrArg Except.ok (Prod.ext ?_ ?_)
    · simp [fld, le, u8_toNat_ofNat]; omega
    · have := fld_only n (by omega)
      simp only [fld, List.drop_succ_cons, List.drop_zero] at this ⊢
      rw [this]
      omega
  have hl := hos.length_eq
  have hpos : 0 < args.length := List.length_pos_iff.mpr h1
  obtain ⟨name, hname⟩ := hf
  unfold funcVarTok at h4
  rw [hu] at h4
  simp only [bind, Except.bind, hname] at h4
  cases hbound : pyAssert (decide (lo ≤ args.length ∧ args.length ≤ hi)) with
  | error e => rw [hbound] at h4; cases h4
  | ok _ =>
  have hbd : lo ≤ args.length ∧ args.length ≤ hi := by
    unfold pyAssert at hbound
    by_contra hc
    simp [hc] at hbound
  rw [hbound] at h4
  simp only at h4
  rw [show decide ((os.reverse ++ st.stack).length ≥ args.length) = true from decide_eq_true (by rw [List.length_append, List.length_reverse]; omega)] at h4
  simp only [pyAssert, if_true] at h4
  unfold dropArgs at h4
  rw [if_neg (by omega), show (os.reverse ++ st.stack).drop args.length = st.stack by rw [hl, ← List.length_reverse, List.drop_left]] at h4
  generalize callText name ((topArgs (os.reverse ++ st.stack) args.length).reverse.map Opnd.text) = text at h4
  cases hres : varResult n args.length (os.reverse ++ st.stack) { rank := FUNC_RANK, text := text } with
  | error e => rw [hres] at h4; cases h4
  | ok res =>
    rw [hres] at h4
    cases h4
    refine ⟨f, res, tbl, ?_, htb, evLoop_at (by rw [← hq]; push_cast; ring) h⟩
    unfold varResult at hres
    by_cases c1 : n = 1
    · subst c1
      have e : funcDef 1 = some ("IF".toList, 2, 3) := by decide +kernel
      rw [e] at hname
      cases hname
      rw [if_pos rfl] at hres
      exact if_agree cls hos hbd.1 hbd.2 hres
    · rw [if_neg c1] at hres
      by_cases c2 : n = 100
      · subst c2
        rw [if_pos rfl] at hres
        exact choose_agree cls hos h1 hres
      · rw [if_neg c2] at hres
        cases hres
        refine agree_unknown (fun v hv => ?_) rfl (fun hc => by cases hc)
        cases hv <;> first | exact c1 rfl | exact c2 rfl

theorem forall₂_map {α β} {P : α → β → Prop} {f : α → β} : ∀ {l : List α}, (∀ a ∈ l, P a (f a)) → List.Forall₂ P l (l.map f)
  | [], _ => .nil
  | a :: l, h => .cons (h a (List.mem_cons_self ..)) (forall₂_map fun b hb => h b (List.mem_cons_of_mem _ hb))

theorem storedAs_ordinary {names : List NameObj} {k : Nat} {e : VExpr} (h : StoredAs names k e) : Ordinary names k := by
  obtain ⟨o, _, h1, h2, h3, _⟩ := h
  exact ⟨o, h1, h2, h3⟩

/-- Evaluation of the tokens of a well-formed expression. -/
theorem vruns {C : Calc} {loc : Nat → Nat → Nat → Prop} {fs : Nat → Option VExpr} {env : FEnv} (hC : PyCalc env.ops C) (hb : RefBook loc env)
    (hfs : ∀ k x, fs k = some x → StoredAs env.bk.nameObjs k x) {rc : NameTbl → Nat → Int → R NameTbl}
    (hrc : ∀ t i g t', VGood C loc fs t → rc t i g = .ok t' → VGood C loc fs t') (namex : Int) (data : Bytes) (len : Nat) (st' : EvSt) {x : VExpr}
    (hx : Fine C loc fs IsFunc x) : VRuns C loc fs env rc sztab4 namex data len st' x x.tokens := by
  have ht : NewTab sztab4 := .inr rfl
  have ho : ∀ k x, fs k = some x → Ordinary env.bk.nameObjs k := fun k x h => storedAs_ordinary (hfs k x h)
  have hv : 40 ≤ env.bv := by rw [hb.bv]; decide
  induction hx with
  | int n hn => simp only [VExpr.tokens]; exact vruns_int ht n hn
  | num x hx => simp only [VExpr.tokens]; exact vruns_num ht x hx
  | bool b => simp only [VExpr.tokens]; exact vruns_bool ht b
  | text u hu hn => simp only [VExpr.tokens]; exact vruns_text hb.bv ht u hu hn
  | err c hc => simp only [VExpr.tokens]; exact vruns_err ht c hc
  | missing => simp only [VExpr.tokens]; exact vruns_missing ht
  | cell cls refx r c x y h1 h2 h3 h4 => exact vruns_cell hb cls h1 h2 h3 h4
  | area cls refx r1 r2 c1 c2 x y h1 h2 h3 h4 h5 h6 => exact vruns_area hb cls h1 h2 h3 h4 h5 h6
  | name cls k x h1 h2 h3 _ => simp only [VExpr.tokens]; exact vruns_name ho hrc cls h1 h2 h3 (unused := [0, 0]) (by decide)
  | un o e _ hn ih => simp only [VExpr.tokens]; exact vruns_un hC ht o ih hn
  | bin o a b _ _ iha ihb => simp only [VExpr.tokens]; exact vruns_bin hC ht o iha ihb
  | refs o a b _ _ iha ihb => simp only [VExpr.tokens]; exact vruns_refs ht o iha ihb
  | quiet before after e h1 h2 _ ih => simp only [VExpr.tokens]; exact vruns_quiet ht h1 h2 ih
  | mem cls size e h1 _ ih => simp only [VExpr.tokens]; exact vruns_mem ht cls h1 ih
  | fixed cls n hi args h1 h2 _ ih => simp only [VExpr.tokens]; exact vruns_fixed hv ht cls h1 h2 (forall₂_map ih)
  | varying cls n lo hi args h1 h2 h3 h4 _ ih => simp only [VExpr.tokens]; exact vruns_varying hv ht cls h1 h2 h3 h4 (forall₂_map ih)
  | sum d e h1 _ ih => simp only [VExpr.tokens]; exact vruns_sum ht h1 ih

theorem vtokens_ne {C : Calc} {loc : Nat → Nat → Nat → Prop} {fs : Nat → Option VExpr} {func : Nat → Nat → Nat → Prop} {x : VExpr} (hx : Fine C loc fs func x) : x.tokens.length ≠ 0 := by
  induction hx with
  | quiet before after e h1 h2 _ ih => simp only [VExpr.tokens, List.length_append]; omega
  | _ => simp [VExpr.tokens]

theorem vgood_kept {C : Calc} {loc : Nat → Nat → Nat → Prop} {fs : Nat → Option VExpr} {env : FEnv} (hC : PyCalc env.ops C) (hb : RefBook loc env)
    (hfs : ∀ k x, fs k = some x → StoredAs env.bk.nameObjs k x) :
    ∀ (k : Nat) (t : NameTbl) (i : Nat) (g : Int) (t' : NameTbl), VGood C loc fs t → evaluateName env k t i g = .ok t' → VGood C loc fs t' := by
  apply evaluateName_inv
  intro k t i g o tab st hg ho htab hrc h hst j e x hj hn hf
  rcases getElem?_set_cases _ _ _ _ _ hj with ⟨rfl, he⟩ | hj
  · cases he
    obtain ⟨o', rest, h1, h2, h3, h4, h5⟩ := hfs _ _ hn
    rw [ho] at h1
    cases h1
    have ht : tab = sztab4 := by
      rw [hb.bv] at htab
      simpa [szdict] using htab.symm
    subst ht
    rw [if_neg (by rw [h5]; exact vtokens_ne hf)] at h
    obtain ⟨f, op, tbl, hm, _, h6⟩ := vruns hC hb hfs hrc g o.rawFormula o.basicFormulaLen st hf 0 rest o.basicFormulaLen { stack := [], tbl := t } (by simpa using h4)
      (by rw [h5]; simp) hg h
    have h7 : ∀ f s, evLoop env (evaluateName env k) sztab4 g o.rawFormula o.basicFormulaLen f s ((0 + x.tokens.length : Nat) : Int) = .ok s := by
      intro f s
      cases f <;> simp only [evLoop] <;> rw [if_neg (by rw [h5]; simp)]
    rw [h7] at h6
    cases h6
    exact ⟨op, rfl, hm⟩
  · exact hst j e x hj hn hf

/-! ## C78 -/

theorem storedAs_mono {names names' : List NameObj} (hm : ∀ (i : Nat) o, names[i]? = some o → ∃ s, names'[i]? = some { o with nameIndex := i, scope := some s })
    {k : Nat} {e : VExpr} (h : StoredAs names k e) : StoredAs names' k e := by
  obtain ⟨o, rest, h1, h2, h3, h4, h5⟩ := h
  obtain ⟨s, hs⟩ := hm k o h1
  exact ⟨_, rest, hs, h2, h3, h4, h5⟩

/-- **C78** (the values of defined names).  A BIFF8 workbook that has been opened; `fs` gives formulas of ordinary names.  A name with a well-formed formula
has a result.  If the formula has a value, the result has that value and its kind; and a result that is not `None` is the value of the formula.

Partial: formulas with constant arrays, with calls of functions with a variable number of arguments that have none, or with a sign before something that
is known not to be a number are not well-formed here, because for them the statement is false (see below); and names with relative references are not
covered. -/
theorem C78_name_value_partial (env : BookEnv) (h8 : env.bv = 80) (pre post eof : Bytes) (he : eof.length < 65536) (items : List GItem)
    (hok : GlobalsOk env.bv items) (sheets : List SheetRec) (hsh : Sheets env.bv (textAt env) items sheets) (refs : List ExtRef)
    (hr : Externs items refs) (names : List NameObj) (hn : Names env.bv (textAt env) items names) (b : Book) (p : Int)
    (h : parseGlobals env (pre ++ encGlobals items eof ++ post) newBook (pre.length : Int) = .ok (b, p))
    (fenv : FEnv) (hbv : fenv.bv = 80) (hb : SameTables fenv.bk b) (C : Calc) (hC : PyCalc fenv.ops C) (tbl : NameTbl) (ht : bookNames fenv = .ok tbl)
    (fs : Nat → Option VExpr) (hfs : ∀ k x, fs k = some x → StoredAs names k x) (i : Nat) (x : VExpr) (hx : fs i = some x)
    (hf : Fine C (LocalRef (supbooks items) sheets refs) fs IsFunc x) :
    ∃ e o, tbl[i]? = some (some e) ∧ e.result = some o ∧ (∀ v, HasVal C (LocalRef (supbooks items) sheets refs) fs x v → Holds o v) ∧
      (o.value ≠ none → ∃ v, HasVal C (LocalRef (supbooks items) sheets refs) fs x v ∧ Holds o v) := by
  obtain ⟨hl, hsup, hxx⟩ := tables_loaded env (by omega) pre post eof he items hok sheets hsh refs hr b p h
  obtain ⟨_, hnames⟩ := C44_names env (by omega) pre post eof he items hok names hn sheets hsh b p h
  have hm : ∀ (i : Nat) o, names[i]? = some o → ∃ s, fenv.bk.nameObjs[i]? = some { o with nameIndex := i, scope := some s } := by
    intro i o hi
    obtain ⟨s, hs, _⟩ := hnames i o hi
    exact ⟨s, by rw [hb.names]; exact hs⟩
  have hrb : RefBook (LocalRef (supbooks items) sheets refs) fenv := ⟨hbv, fun refx x y hloc => localRef_range hb hl hsup hxx hloc⟩
  have hst : ∀ k x, fs k = some x → StoredAs fenv.bk.nameObjs k x := fun k x hk => storedAs_mono hm (hfs k x hk)
  obtain ⟨hg, hfl⟩ := bookNames_inv (vgood_kept hC hrb hst) (by
    intro j e y hj
    rw [List.getElem?_map] at hj
    cases hc : fenv.bk.nameObjs[j]? with
    | none => rw [hc] at hj; cases hj
    | some o => rw [hc] at hj; cases hj) ht
  obtain ⟨o, rest, h1, h2, h3, _, _⟩ := hst i x hx
  obtain ⟨e, he⟩ := hfl.2 i ⟨o, h1, h2, h3⟩
  obtain ⟨op, rfl, hop⟩ := hg i e x he hx hf
  exact ⟨_, op, he, rfl, hop.1, fun hv => hop.2 (.inl hv)⟩

/-- **C78**, in short: a formula has at most one value. -/
theorem C78_one_value (C : Calc) (loc : Nat → Nat → Nat → Prop) (hl : ∀ refx x y x' y', loc refx x y → loc refx x' y' → x = x' ∧ y = y')
    (fs : Nat → Option VExpr) (x : VExpr) (v w : Value) (hv : HasVal C loc fs x v) (hw : HasVal C loc fs x w) : v = w := by
  induction hv generalizing w with
  | int n => cases hw; rfl
  | num x => cases hw; rfl
  | bool b => cases hw; rfl
  | text u => cases hw; rfl
  | err c => cases hw; rfl
  | missing => cases hw; rfl
  | cell refx r c x y h => cases hw with | cell _ _ _ x' y' h' => obtain ⟨rfl, rfl⟩ := hl _ _ _ _ _ h h'; rfl
  | area refx r1 r2 c1 c2 x y h => cases hw with | area _ _ _ _ _ x' y' h' => obtain ⟨rfl, rfl⟩ := hl _ _ _ _ _ h h'; rfl
  | name cls k x v h1 _ ih => cases hw with | name _ _ x' _ h1' h2' => rw [h1] at h1'; cases h1'; exact ih _ h2'
  | sign o e n _ ih => cases hw with | sign _ _ n' h' => cases ih _ h'; rfl
  | arith o a b v w x y ho _ _ h3 h4 iha ihb =>
    cases hw with
    | arith _ _ _ v' w' x' y' _ g1 g2 g3 g4 =>
      cases iha _ g1; cases ihb _ g2
      rw [h3] at g3; rw [h4] at g4
      cases g3; cases g4; rfl
    | concat => cases ho
    | compare _ _ _ _ _ ho' => cases o <;> simp_all [Op2.isCalc, Op2.isCompare]
  | concat a b v w s t _ _ h3 h4 iha ihb =>
    cases hw with
    | arith _ _ _ v' w' x' y' ho => cases ho
    | concat _ _ v' w' s' t' g1 g2 g3 g4 =>
      cases iha _ g1; cases ihb _ g2
      rw [h3] at g3; rw [h4] at g4
      cases g3; cases g4; rfl
    | compare _ _ _ _ _ ho' => cases ho'
  | compare o a b v w ho _ _ h3 h4 iha ihb =>
    cases hw with
    | arith _ _ _ v' w' x' y' ho' => cases o <;> simp_all [Op2.isCalc, Op2.isCompare]
    | concat => cases ho
    | compare _ _ _ v' w' _ g1 g2 => cases iha _ g1; cases ihb _ g2; rfl
  | range a b x y _ _ iha ihb => cases hw with | range _ _ x' y' g1 g2 => cases iha _ g1; cases ihb _ g2; rfl
  | isect a b x y _ _ iha ihb => cases hw with | isect _ _ x' y' g1 g2 => cases iha _ g1; cases ihb _ g2; rfl
  | union a b l y _ _ iha ihb => cases hw with | union _ _ x' y' g1 g2 => cases iha _ g1; cases ihb _ g2; rfl
  | quiet _ _ _ _ _ ih => cases hw with | quiet _ _ _ _ g => exact ih _ g
  | mem _ _ _ _ _ ih => cases hw with | mem _ _ _ _ g => exact ih _ g
  | ifTrue cls c a more t v _ h2 _ ihc iha =>
    cases hw with
    | ifTrue _ _ _ _ t' v' g1 g2 g3 => cases iha _ g3; rfl
    | ifFalse _ _ _ _ t' v' g1 g2 => cases ihc _ g1; rw [h2] at g2; cases g2
    | ifElse _ _ _ t' g1 g2 => cases ihc _ g1; rw [h2] at g2; cases g2
  | ifFalse cls c a b t v _ h2 _ ihc ihb =>
    cases hw with
    | ifTrue _ _ _ _ t' v' g1 g2 g3 => cases ihc _ g1; rw [h2] at g2; cases g2
    | ifFalse _ _ _ _ t' v' g1 g2 g3 => cases ihb _ g3; rfl
  | ifElse cls c a t _ h2 ihc =>
    cases hw with
    | ifTrue _ _ _ _ t' v' g1 g2 g3 => cases ihc _ g1; rw [h2] at g2; cases g2
    | ifElse => rfl
  | choose cls c a args n i v _ h2 h3 _ ihc iha =>
    cases hw with
    | choose _ _ a' _ n' i' v' g1 g2 g3 g4 =>
      cases ihc _ g1
      rw [h2] at g2; cases g2
      rw [h3] at g3; cases g3
      cases iha _ g4; rfl

end Xlrd
