import Verif.Lemmas.CellKinds
import Verif.Props.Life
import Verif.Props.NumberFormats
import Verif.Props.ColoursUsed

/-!
# C92: types and values of cells go together
-/
set_option linter.unusedSimpArgs false
set_option linter.unusedSectionVars false
namespace Xlrd
open Spec

/-- The types that the XF index of a number can lead to are allowed for numbers. -/
def NumberTypes (P : Nat → Val → Prop) (tm : Int → Option Nat) : Prop := ∀ i t x, tm i = some t → P t (.num x)

variable {P : Nat → Val → Prop} [Weaker P]

theorem put_kinds {env : SheetEnv} (ht : NumberTypes P env.cfg.typeMap) {s s' : SheetSt} (h : Kinds P s.store) {r c xf : Nat} {ct : Option Nat} {v : Val}
    (hx : (ct = none ∧ ∃ x, v = .num x) ∨ ∃ t, ct = some t ∧ CellOk t v) (e : s.put env r c ct v xf = .ok s') : Kinds P s'.store := by
  unfold SheetSt.put at e
  obtain ⟨st, h1, e⟩ := bind_ok e
  cases e
  refine putCell_kinds h ?_ h1
  intro t hr
  rcases hx with ⟨rfl, x, rfl⟩ | ⟨t', rfl, hk⟩
  · unfold resolveType at hr
    simp only at hr
    cases hm : env.cfg.typeMap xf with
    | none => rw [hm] at hr; cases hr
    | some t' =>
      rw [hm] at hr; cases hr
      exact ht _ _ x hm
  · cases hr; exact Weaker.ok _ _ hk

/-- What every record does to the store. -/
def Keep (P : Nat → Val → Prop) (s s' : SheetSt) : Prop := Kinds P s.store → Kinds P s'.store

theorem Keep.same {s s' : SheetSt} (h : s'.store = s.store) : Keep P s s' := by intro k; rw [h]; exact k

theorem recNumber_keep {env : SheetEnv} (ht : NumberTypes P env.cfg.typeMap) {s s' : SheetSt} {data : Bytes} (e : recNumber env s data = .ok s') : Keep P s s' := by
  intro h
  obtain ⟨b, _, e⟩ := bind_ok e
  exact put_kinds ht h (.inl ⟨rfl, _, rfl⟩) e

theorem recLabelSst_keep {env : SheetEnv} (ht : NumberTypes P env.cfg.typeMap) {s s' : SheetSt} {data : Bytes} (e : recLabelSst env s data = .ok s') : Keep P s s' := by
  intro h
  obtain ⟨b, _, e⟩ := bind_ok e
  obtain ⟨t, _, e⟩ := bind_ok e
  obtain ⟨s1, h1, e⟩ := bind_ok e
  cases e
  have := put_kinds ht h (ct := some XL_CELL_TEXT) (v := .text t) (.inr ⟨_, rfl, t, rfl⟩) h1
  unfold sstRich
  split
  · split <;> exact this
  · exact this

theorem recLabel_keep {env : SheetEnv} (ht : NumberTypes P env.cfg.typeMap) {s s' : SheetSt} {data : Bytes} (e : recLabel env s data = .ok s') : Keep P s s' := by
  intro h
  obtain ⟨b, _, e⟩ := bind_ok e
  obtain ⟨t, _, e⟩ := bind_ok e
  exact put_kinds ht h (ct := some XL_CELL_TEXT) (v := .text t) (.inr ⟨_, rfl, t, rfl⟩) e

theorem recRString_keep {env : SheetEnv} (ht : NumberTypes P env.cfg.typeMap) {s s' : SheetSt} {data : Bytes} (e : recRString env s data = .ok s') : Keep P s s' := by
  intro h
  obtain ⟨b, _, e⟩ := bind_ok e
  obtain ⟨⟨t, runs⟩, _, e⟩ := bind_ok e
  obtain ⟨s1, h1, e⟩ := bind_ok e
  cases e
  have := put_kinds ht h (ct := some XL_CELL_TEXT) (v := .text t) (.inr ⟨_, rfl, t, rfl⟩) h1
  exact this

theorem recRk_keep {env : SheetEnv} (ht : NumberTypes P env.cfg.typeMap) {s s' : SheetSt} {data : Bytes} (e : recRk env s data = .ok s') : Keep P s s' := by
  intro h
  obtain ⟨b, _, e⟩ := bind_ok e
  obtain ⟨d, _, e⟩ := bind_ok e
  exact put_kinds ht h (.inl ⟨rfl, _, rfl⟩) e

theorem mulRk_keep {env : SheetEnv} (ht : NumberTypes P env.cfg.typeMap) {data : Bytes} {r : Nat} (n : Nat) : ∀ {c : Nat} {pos : Int} {s s' : SheetSt},
    mulRkLoop env data r n c pos s = .ok s' → Keep P s s' := by
  induction n with
  | zero => intro c pos s s' e; cases e; exact id
  | succ n ih =>
    intro c pos s s' e h
    rw [mulRkLoop] at e
    obtain ⟨xf, _, e⟩ := bind_ok e
    obtain ⟨d, _, e⟩ := bind_ok e
    obtain ⟨s1, h1, e⟩ := bind_ok e
    exact ih e (put_kinds ht h (.inl ⟨rfl, _, rfl⟩) h1)

theorem recMulRk_keep {env : SheetEnv} (ht : NumberTypes P env.cfg.typeMap) {s s' : SheetSt} {data : Bytes} (e : recMulRk env s data = .ok s') : Keep P s s' := by
  obtain ⟨b, _, e⟩ := bind_ok e
  obtain ⟨d, _, e⟩ := bind_ok e
  exact mulRk_keep ht _ e

theorem fld1_le (b : Bytes) (k : Nat) : (0 : Int) ≤ (fld b k 1 : Nat) ∧ ((fld b k 1 : Nat) : Int) ≤ 255 := by
  unfold fld
  rcases hb : b.drop k with _ | ⟨x, xs⟩
  · simp [le]
  · have := x.toNat_lt
    simp only [List.take_succ_cons, List.take_zero, le]
    omega

theorem byteAt_le {b : Bytes} {k : Int} {n : Nat} (h : byteAt b k = .ok n) : (0 : Int) ≤ n ∧ (n : Int) ≤ 255 := by
  obtain ⟨x, _, h⟩ := bind_ok h
  cases h
  have := x.toNat_lt
  omega

theorem recBoolErr_keep {env : SheetEnv} (ht : NumberTypes P env.cfg.typeMap) {s s' : SheetSt} {data : Bytes} (e : recBoolErr env s data = .ok s') : Keep P s s' := by
  intro h
  obtain ⟨b, _, e⟩ := bind_ok e
  obtain ⟨t, h1, e⟩ := bind_ok e
  refine put_kinds ht h (.inr ⟨_, rfl, ?_⟩) e
  have hm := idx_mem h1
  simp only [List.mem_cons, List.not_mem_nil, or_false] at hm
  rcases hm with rfl | rfl <;> exact ⟨_, rfl, fld1_le b 6⟩

theorem recBlank_keep {env : SheetEnv} (ht : NumberTypes P env.cfg.typeMap) {s s' : SheetSt} {data : Bytes} (e : recBlank env s data = .ok s') : Keep P s s' := by
  intro h
  unfold recBlank at e
  by_cases hf : env.cfg.fmtInfo = true
  · rw [if_pos hf] at e
    obtain ⟨b, _, e⟩ := bind_ok e
    exact put_kinds ht h (ct := some XL_CELL_BLANK) (v := emptyVal) (.inr ⟨_, rfl, rfl⟩) e
  · rw [if_neg hf] at e; cases e; exact h

theorem mulBlank_keep {env : SheetEnv} (ht : NumberTypes P env.cfg.typeMap) {data : Bytes} {r : Nat} (n : Nat) : ∀ {c k : Nat} {s s' : SheetSt},
    mulBlankLoop env data r n c k s = .ok s' → Keep P s s' := by
  induction n with
  | zero => intro c k s s' e; cases e; exact id
  | succ n ih =>
    intro c k s s' e h
    rw [mulBlankLoop] at e
    obtain ⟨s1, h1, e⟩ := bind_ok e
    exact ih e (put_kinds ht h (ct := some XL_CELL_BLANK) (v := emptyVal) (.inr ⟨_, rfl, rfl⟩) h1)

theorem recMulBlank_keep {env : SheetEnv} (ht : NumberTypes P env.cfg.typeMap) {s s' : SheetSt} {len : Nat} {data : Bytes} (e : recMulBlank env s len data = .ok s') : Keep P s s' := by
  unfold recMulBlank at e
  by_cases hf : env.cfg.fmtInfo = true
  · rw [if_pos hf] at e
    obtain ⟨b, _, e⟩ := bind_ok e
    by_cases hn : len / 2 < 2
    · simp only [if_pos hn] at e; cases e
    · simp only [if_neg hn] at e
      obtain ⟨_, _, e⟩ := bind_ok e
      exact mulBlank_keep ht _ e
  · rw [if_neg hf] at e; cases e; exact id

theorem formulaResult_kind {env : SheetEnv} {mem res : Bytes} {pos p' : Int} {ty : Option Nat} {v : Val} (e : formulaResult env mem pos res = .ok (ty, v, p')) :
    (ty = none ∧ ∃ x, v = .num x) ∨ ∃ t, ty = some t ∧ CellOk t v := by
  unfold formulaResult at e
  by_cases h1 : slice res 6 8 = [0xFF, 0xFF]
  · rw [if_pos h1] at e
    obtain ⟨first, _, e⟩ := bind_ok e
    by_cases c0 : first = 0
    · rw [if_pos c0] at e
      obtain ⟨⟨d, p⟩, _, e⟩ := bind_ok e
      obtain ⟨⟨t, p2⟩, _, e⟩ := bind_ok e
      cases e
      exact .inr ⟨_, rfl, _, rfl⟩
    rw [if_neg c0] at e
    by_cases c1 : first = 1
    · rw [if_pos c1] at e
      obtain ⟨n, hn, e⟩ := bind_ok e
      cases e
      exact .inr ⟨_, rfl, _, rfl, byteAt_le hn⟩
    rw [if_neg c1] at e
    by_cases c2 : first = 2
    · rw [if_pos c2] at e
      obtain ⟨n, hn, e⟩ := bind_ok e
      cases e
      exact .inr ⟨_, rfl, _, rfl, byteAt_le hn⟩
    rw [if_neg c2] at e
    by_cases c3 : first = 3
    · rw [if_pos c3] at e
      cases e
      exact .inr ⟨_, rfl, _, rfl⟩
    · rw [if_neg c3] at e; cases e
  · rw [if_neg h1] at e
    obtain ⟨x, _, e⟩ := bind_ok e
    cases e
    exact .inl ⟨rfl, _, rfl⟩

theorem recFormula_keep {env : SheetEnv} (ht : NumberTypes P env.cfg.typeMap) {mem : Bytes} {s s' : SheetSt} {pos p' : Int} {data : Bytes}
    (e : recFormula env mem s pos data = .ok (s', p')) : Keep P s s' := by
  intro h
  obtain ⟨b, _, e⟩ := bind_ok e
  obtain ⟨⟨ty, v, p⟩, h1, e⟩ := bind_ok e
  obtain ⟨s1, h2, e⟩ := bind_ok e
  cases e
  exact put_kinds ht h (formulaResult_kind h1) h2

/-- Close goals about records that leave the cells alone. -/
macro "same_store" e:ident : tactic =>
  `(tactic| (simp only [bind, Except.bind, pure, Except.pure] at $e:ident
             repeat' (split at $e:ident)
             all_goals first | (cases $e:ident; done) | (cases $e:ident; exact Keep.same rfl)))

theorem dim_keep {env : SheetEnv} {s s' : SheetSt} {len : Nat} {data : Bytes} (e : recDimension env s len data = .ok s') : Keep P s s' := by
  unfold recDimension at e
  by_cases hl : len = 0
  · rw [if_pos hl] at e; cases e; exact id
  · rw [if_neg hl] at e
    obtain ⟨⟨nr, nc⟩, _, e⟩ := bind_ok e
    cases e
    intro h
    exact kinds_of h rfl rfl

theorem plain_keep {env : SheetEnv} (ht : NumberTypes P env.cfg.typeMap) {s s' : SheetSt} {rc len : Nat} {data : Bytes} (e : plainRecord env s rc len data = .ok s') : Keep P s s' := by
  unfold plainRecord at e
  by_cases c0 : rc = XL_NUMBER
  · rw [if_pos c0] at e; exact recNumber_keep ht e
  rw [if_neg c0] at e
  by_cases c1 : rc = XL_LABELSST
  · rw [if_pos c1] at e; exact recLabelSst_keep ht e
  rw [if_neg c1] at e
  by_cases c2 : rc = XL_LABEL
  · rw [if_pos c2] at e; exact recLabel_keep ht e
  rw [if_neg c2] at e
  by_cases c3 : rc = XL_RSTRING
  · rw [if_pos c3] at e; exact recRString_keep ht e
  rw [if_neg c3] at e
  by_cases c4 : rc = XL_RK
  · rw [if_pos c4] at e; exact recRk_keep ht e
  rw [if_neg c4] at e
  by_cases c5 : rc = XL_MULRK
  · rw [if_pos c5] at e; exact recMulRk_keep ht e
  rw [if_neg c5] at e
  by_cases c6 : rc = XL_ROW
  · rw [if_pos c6] at e; unfold recRow at e; same_store e
  rw [if_neg c6] at e
  by_cases c7 : rc = XL_BOOLERR
  · rw [if_pos c7] at e; exact recBoolErr_keep ht e
  rw [if_neg c7] at e
  by_cases c8 : rc = XL_COLINFO
  · rw [if_pos c8] at e; unfold recColinfo at e; same_store e
  rw [if_neg c8] at e
  by_cases c9 : rc = XL_DEFCOLWIDTH
  · rw [if_pos c9] at e; unfold recDefColWidth at e; same_store e
  rw [if_neg c9] at e
  by_cases c10 : rc = XL_STANDARDWIDTH
  · rw [if_pos c10] at e; unfold recStandardWidth at e; same_store e
  rw [if_neg c10] at e
  by_cases c11 : rc = XL_GCW
  · rw [if_pos c11] at e; unfold recGcw at e; same_store e
  rw [if_neg c11] at e
  by_cases c12 : rc = XL_BLANK
  · rw [if_pos c12] at e; exact recBlank_keep ht e
  rw [if_neg c12] at e
  by_cases c13 : rc = XL_MULBLANK
  · rw [if_pos c13] at e; exact recMulBlank_keep ht e
  rw [if_neg c13] at e
  by_cases c14 : rc = XL_DIMENSION ∨ rc = XL_DIMENSION2
  · rw [if_pos c14] at e; exact dim_keep e
  rw [if_neg c14] at e
  by_cases c15 : rc = XL_LABELRANGES
  · rw [if_pos c15] at e; unfold recLabelRanges at e; same_store e
  rw [if_neg c15] at e
  by_cases c16 : rc = XL_ARRAY
  · rw [if_pos c16] at e; same_store e
  rw [if_neg c16] at e
  by_cases c17 : rc = XL_SHRFMLA
  · rw [if_pos c17] at e; same_store e
  rw [if_neg c17] at e
  by_cases c18 : rc = XL_CONDFMT
  · rw [if_pos c18] at e; unfold recCondFmt at e; same_store e
  rw [if_neg c18] at e
  by_cases c19 : rc = XL_CF
  · rw [if_pos c19] at e; unfold recCf at e; same_store e
  rw [if_neg c19] at e
  by_cases c20 : rc = XL_DEFAULTROWHEIGHT
  · rw [if_pos c20] at e; unfold recDefaultRowHeight at e; same_store e
  rw [if_neg c20] at e
  by_cases c21 : rc = XL_MERGEDCELLS
  · rw [if_pos c21] at e; unfold recMergedCells at e; same_store e
  rw [if_neg c21] at e
  by_cases c22 : rc = XL_WINDOW2
  · rw [if_pos c22] at e; unfold recWindow2 at e; same_store e
  rw [if_neg c22] at e
  by_cases c23 : rc = XL_SCL
  · rw [if_pos c23] at e; unfold recScl at e; same_store e
  rw [if_neg c23] at e
  by_cases c24 : rc = XL_PANE
  · rw [if_pos c24] at e; unfold recPane at e; same_store e
  rw [if_neg c24] at e
  by_cases c25 : rc = XL_HORIZONTALPAGEBREAKS
  · rw [if_pos c25] at e; unfold recHBreaks at e; same_store e
  rw [if_neg c25] at e
  by_cases c26 : rc = XL_VERTICALPAGEBREAKS
  · rw [if_pos c26] at e; unfold recVBreaks at e; same_store e
  rw [if_neg c26] at e
  cases e; exact id

theorem record_keep {env : SheetEnv} (ht : NumberTypes P env.cfg.typeMap) {mem : Bytes} {s s' : SheetSt} {pos p' : Int} {rc len : Nat} {data : Bytes}
    (e : sheetRecord env mem s pos rc len data = .ok (s', p')) : Keep P s s' := by
  unfold sheetRecord at e
  by_cases c1 : rc ∈ XL_FORMULA_OPCODES
  · rw [if_pos c1] at e; exact recFormula_keep ht e
  rw [if_neg c1] at e
  by_cases c2 : rc ∈ bofcodes
  · rw [if_pos c2] at e
    obtain ⟨p, _, e⟩ := bind_ok e
    cases e; exact id
  rw [if_neg c2] at e
  by_cases c3 : rc ∈ otherCodes
  · rw [if_pos c3] at e
    obtain ⟨⟨x, p⟩, _, e⟩ := bind_ok e
    cases e; exact id
  rw [if_neg c3] at e
  obtain ⟨s1, h1, e⟩ := bind_ok e
  cases e
  exact plain_keep ht h1

theorem loop_keep {env : SheetEnv} (ht : NumberTypes P env.cfg.typeMap) {mem : Bytes} (fuel : Nat) : ∀ {s s' : SheetSt} {pos : Int},
    sheetLoop env mem fuel s pos = .ok s' → Keep P s s' := by
  induction fuel with
  | zero => intro s s' pos e; cases e
  | succ f ih =>
    intro s s' pos e
    rw [sheetLoop] at e
    obtain ⟨⟨⟨rc, len, data⟩, p⟩, _, e⟩ := bind_ok e
    simp only at e
    by_cases hE : rc = XL_EOF
    · rw [if_pos hE] at e; cases e; exact id
    · rw [if_neg hE] at e
      obtain ⟨⟨s1, p1⟩, h1, e⟩ := bind_ok e
      intro h
      exact ih e (record_keep ht h1 h)

theorem updateCooked_store (s : SheetSt) : (updateCooked s).store = s.store := by
  unfold updateCooked; split <;> rfl

/-- **C92** (one sheet).  Whatever the bytes are, if the XF indexes lead to types that may have numbers, then every cell of a sheet that can be read has a type and a value
that go together. -/
theorem C92_sheet (env : SheetEnv) (ht : NumberTypes P env.cfg.typeMap) (mem : Bytes) (pos : Int) (s : SheetSt) (h : sheetRead env mem pos = .ok s) : CellsAre P s.store := by
  obtain ⟨s1, h1, h⟩ := bind_ok h
  obtain ⟨st, h2, h⟩ := bind_ok h
  cases h
  rw [updateCooked_store]
  exact kinds_ok (tidy_kinds (loop_keep ht _ h1 ⟨[], rfl, rfl, by intro row hr; cases hr⟩) h2)

/-! ## The types of XF indexes -/

structure TypesKnown (f : FmtSt) : Prop where
  types : ∀ k t, f.typeMap k = some t → t = 2 ∨ t = 3
  fresh : f.xfcount = 0 → f.xfList = []
  zero : f.xfcount ≠ 0 → (f.formatMap 0).isSome
  known : ∀ x ∈ f.xfList, (f.formatMap x.formatKey).isSome

theorem cellty_number (t : Nat) : celltyFromFmtty t = 2 ∨ celltyFromFmtty t = 3 := by
  unfold celltyFromFmtty; split
  · exact .inr rfl
  · exact .inl rfl

theorem cellTypeOf_number (m : Nat → Option Format) (k : Nat) : cellTypeOf m k XL_CELL_NUMBER = 2 ∨ cellTypeOf m k XL_CELL_NUMBER = 3 := by
  unfold cellTypeOf
  cases m k with
  | none => exact .inl rfl
  | some f => exact cellty_number _

theorem cellTypeOf_known {m : Nat → Option Format} {k : Nat} (h : (m k).isSome) (d : Nat) : cellTypeOf m k d = 2 ∨ cellTypeOf m k d = 3 := by
  unfold cellTypeOf
  cases hk : m k with
  | none => rw [hk] at h; cases h
  | some f => exact cellty_number _

theorem fill_zero (m : Nat → Option Format) : (fillInStandardFormats m 0).isSome := by
  unfold fillInStandardFormats
  cases m 0 with
  | none => decide
  | some f => rfl

theorem fill_some {m : Nat → Option Format} {k : Nat} (h : (m k).isSome) : (fillInStandardFormats m k).isSome := by
  unfold fillInStandardFormats
  cases hk : m k with
  | none => rw [hk] at h; cases h
  | some f => rfl

theorem TypesKnown.init : TypesKnown {} := by
  refine ⟨?_, fun _ => rfl, fun h => absurd rfl h, by intro x hx; cases hx⟩
  intro k t h
  simp only at h
  split at h
  · cases h; exact .inl rfl
  · cases h

theorem TypesKnown.of_eq {f g : FmtSt} (h : TypesKnown f) (h1 : g.typeMap = f.typeMap) (h2 : g.xfcount = f.xfcount) (h3 : g.xfList = f.xfList)
    (h4 : ∀ k, (f.formatMap k).isSome → (g.formatMap k).isSome) : TypesKnown g :=
  ⟨by rw [h1]; exact h.types, by rw [h2, h3]; exact h.fresh, fun hz => h4 _ (h.zero (by rw [← h2]; exact hz)), fun x hx => h4 _ (h.known x (by rw [← h3]; exact hx))⟩

theorem xf_known {bv : Nat} (h50 : 50 ≤ bv) {fi : Bool} {f g : FmtSt} {d : Bytes} (h : TypesKnown f) (e : handleXf bv fi f d = .ok g) : TypesKnown g := by
  unfold handleXf at e
  obtain ⟨x, _, e⟩ := bind_ok e
  cases e
  have hm : ∀ k, (f.formatMap k).isSome → ((if bv ≥ 50 ∧ f.xfcount = 0 then fillInStandardFormats f.formatMap else f.formatMap) k).isSome := by
    intro k hk
    split
    · exact fill_some hk
    · exact hk
  have h0 : ((if bv ≥ 50 ∧ f.xfcount = 0 then fillInStandardFormats f.formatMap else f.formatMap) 0).isSome := by
    split
    · exact fill_zero _
    · rename_i hc
      exact h.zero (fun hz => hc ⟨h50, hz⟩)
  generalize (if bv ≥ 50 ∧ f.xfcount = 0 then fillInStandardFormats f.formatMap else f.formatMap) = m at hm h0
  refine ⟨?_, fun hz => absurd hz (Nat.succ_ne_zero _), fun _ => h0, ?_⟩
  · intro k t ht
    simp only [dictSet] at ht
    split at ht
    · cases ht; exact cellTypeOf_number _ _
    · exact h.types k t ht
  · intro y hy
    rcases List.mem_append.mp hy with hy | hy
    · exact hm _ (h.known y hy)
    · rw [List.mem_singleton.mp hy]
      simp only [knownKey]
      split
      · assumption
      · exact h0

theorem record_known {env : BookEnv} (h50 : 50 ≤ env.bv) {b b' : Book} {c : Nat} {d : Bytes} (h : TypesKnown b.fmt) (e : globalsRecord env b c d = .ok b') : TypesKnown b'.fmt := by
  have hf := record_frame e
  by_cases hx : c = XL_XF
  · subst hx
    obtain ⟨g, h1, e⟩ := bind_ok (show bookXf env b d = .ok b' from e)
    cases e
    exact xf_known h50 h h1
  · by_cases hc : c = XL_FORMAT
    · subst hc
      refine h.of_eq (hf.typeMap hx) (hf.xfcount hx) (hf.xfList hx) ?_
      obtain ⟨b2, h3, e⟩ := bind_ok (show bookFormat env b d = .ok b' from e)
      obtain ⟨g, h4, e⟩ := bind_ok e
      cases e
      obtain ⟨en, cc, u, r, rfl⟩ := ensure_frame h3
      unfold handleFormat at h4
      simp only [Bool.false_eq_true, if_false] at h4
      obtain ⟨k, h5, h4⟩ := bind_ok h4
      obtain ⟨s, h6, h4⟩ := bind_ok h4
      cases h4
      intro j hj
      simp only [dictSet]
      split
      · rfl
      · exact hj
    · exact h.of_eq (hf.typeMap hx) (hf.xfcount hx) (hf.xfList hx) (by rw [hf.formatMap hc hx]; exact fun _ => id)

theorem item_known {env : BookEnv} (h50 : 50 ≤ env.bv) {b b' : Book} {it : GItem} (h : TypesKnown b.fmt) (e : applyGItem env b it = .ok b') : TypesKnown b'.fmt := by
  cases it with
  | one c d => exact record_known h50 h e
  | sst d more => obtain ⟨t, rfl⟩ := sst_frame e; exact h
  | extern d more => obtain ⟨_, _, _, _, _, _, _, _, rfl⟩ := extern_frame e; exact h

theorem epilogue_fold {m : Nat → Option Format} (xs : List XF) (hx : ∀ x ∈ xs, (m x.formatKey).isSome) : ∀ (tm : Nat → Option Nat), (∀ k t, tm k = some t → t = 2 ∨ t = 3) →
    ∀ k t, xs.foldl (fun tm x => dictSet tm x.xfIndex (cellTypeOf m x.formatKey XL_CELL_TEXT)) tm k = some t → t = 2 ∨ t = 3 := by
  induction xs with
  | nil => intro tm h; exact h
  | cons x xs ih =>
    intro tm h
    rw [List.foldl_cons]
    refine ih (fun y hy => hx y (List.mem_cons_of_mem _ hy)) _ ?_
    intro k t ht
    simp only [dictSet] at ht
    split at ht
    · cases ht; exact cellTypeOf_known (hx x (List.mem_cons_self ..)) _
    · exact h k t ht

theorem parsed_types {env : OpenEnv} {v : Nat} (h50 : 50 ≤ v) {base : Int} {mem : Bytes} {pos q : Int} {b : Book}
    (h : parseGlobals (env.bookEnv v base) mem newBook pos = .ok (b, q)) : ∀ k t, b.fmt.typeMap k = some t → t = 2 ∨ t = 3 := by
  obtain ⟨f, b1, h1, h2, h3⟩ := parseGlobals_sound _ mem _ _ _ _ h
  have k1 : TypesKnown b1.fmt := by
    refine h2.inv (fun b => TypesKnown b.fmt) (fun b it b' hb ha => item_known h50 hb ha) ?_ ?_
    · intro b d p b' p' _ ha
      rw [(sheethdr_same ha).2.2 h50]
      exact TypesKnown.init.of_eq rfl rfl rfl (fun _ h => h)
    · obtain ⟨m, rfl⟩ := colour_map_fields h1
      exact TypesKnown.init.of_eq rfl rfl rfl (fun _ h => h)
  obtain ⟨os, _, _, _, _, _, rfl⟩ := eof_frame h3
  exact epilogue_fold b1.fmt.xfList k1.known b1.fmt.typeMap k1.types

/-- **C92**.  Every cell of every sheet of a file of BIFF5 or later, whatever its bytes and whatever has been done with the book: the type and the value that the API gives go
together as the documentation says.  Missing: older files, where it does not hold (see `C92_number_as_text` and
`C92_old_cells_partial`). -/
theorem C92_cells_partial (env : OpenEnv) (mem : Bytes) (base : Int) (v : Nat) (p : Int) (l : Lib) (hv : firstBof mem base = .ok (v, p)) (h50 : 50 ≤ v)
    (h : openStream env mem base = .ok l) (cs : List Call) (i : Int) (sh : LSheet) (hr : (sheetByIndex env (libCalls env l cs).2 i).1 = .ok sh) : CellsOk sh.st.store := by
  obtain ⟨k, c, x, _, h2, h3⟩ := C41_returned_sheet env mem base v p l hv h50 h cs i sh hr
  obtain ⟨b, q, hg, e, _⟩ := opened_fmt hv (by omega) h
  rw [h3]
  show CellsOk x.st.store
  unfold readSheet at h2
  obtain ⟨⟨pos, name, vis⟩, _, h2⟩ := bind_ok h2
  obtain ⟨st, h4, h2⟩ := bind_ok h2
  cases h2
  refine C92_sheet _ ?_ _ _ _ h4
  intro j t y hj
  have hj : (if 0 ≤ j then l.book.fmt.typeMap j.toNat else none) = some t := hj
  rw [e] at hj
  split at hj
  · rcases parsed_types h50 hg _ _ hj with rfl | rfl <;> exact ⟨y, rfl⟩
  · cases hj

end Xlrd
