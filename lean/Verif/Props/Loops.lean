import Verif.Lemmas.Loops

/-!
# Opening a file ends (C77)
-/
set_option linter.unusedSimpArgs false
namespace Xlrd
open Spec

/-! ## Positions only grow -/

theorem fetch_forward {mem : Bytes} {pos pos' : Int} {d : Bytes} (h : fetchString mem pos = .ok (d, pos')) : pos ≤ pos' := by
  unfold fetchString at h
  obtain ⟨⟨⟨c, l, x⟩, p⟩, h1, h⟩ := bind_ok h
  have m1 := (record_moves h1).2.2
  simp only at h
  split at h
  · cases h; omega
  · obtain ⟨_, _, h⟩ := bind_ok h
    obtain ⟨⟨⟨c2, l2, x2⟩, p2⟩, h2, h⟩ := bind_ok h
    have m2 := (record_moves h2).2.2
    simp only at h
    split at h
    · cases h; omega
    · cases h

theorem result_forward {env : SheetEnv} {mem res : Bytes} {pos pos' : Int} {ty : Option Nat} {v : Val} (h : formulaResult env mem pos res = .ok (ty, v, pos')) : pos ≤ pos' := by
  unfold formulaResult at h
  by_cases h1 : slice res 6 8 = [0xFF, 0xFF]
  · rw [if_pos h1] at h
    obtain ⟨first, _, h⟩ := bind_ok h
    by_cases c0 : first = 0
    · rw [if_pos c0] at h
      obtain ⟨⟨d, p⟩, h2, h⟩ := bind_ok h
      obtain ⟨⟨t, q⟩, h3, h⟩ := bind_ok h
      cases h
      unfold stringRecordContents at h3
      obtain ⟨b, _, h3⟩ := bind_ok h3
      exact (fetch_forward h2).trans (string_forward h3)
    · rw [if_neg c0] at h
      by_cases c1 : first = 1
      · rw [if_pos c1] at h; obtain ⟨_, _, h⟩ := bind_ok h; cases h; exact le_refl _
      · rw [if_neg c1] at h
        by_cases c2 : first = 2
        · rw [if_pos c2] at h; obtain ⟨_, _, h⟩ := bind_ok h; cases h; exact le_refl _
        · rw [if_neg c2] at h
          by_cases c3 : first = 3
          · rw [if_pos c3] at h; cases h; exact le_refl _
          · rw [if_neg c3] at h; cases h
  · rw [if_neg h1] at h
    obtain ⟨_, _, h⟩ := bind_ok h; cases h; exact le_refl _

theorem formula_forward {env : SheetEnv} {mem data : Bytes} {s s' : SheetSt} {pos pos' : Int} (h : recFormula env mem s pos data = .ok (s', pos')) : pos ≤ pos' := by
  unfold recFormula at h
  obtain ⟨b, _, h⟩ := bind_ok h
  obtain ⟨⟨ty, v, p⟩, h1, h⟩ := bind_ok h
  obtain ⟨s2, _, h⟩ := bind_ok h
  cases h
  exact result_forward h1

theorem recEmbedded_forward {mem data : Bytes} {pos pos' : Int} (h : recEmbedded mem pos data = .ok pos') : pos ≤ pos' := by
  unfold recEmbedded at h
  obtain ⟨_, _, h⟩ := bind_ok h
  exact embedded_forward h

theorem txo_forward {bv : Nat} {mem data : Bytes} {pos pos' : Int} {t : Option Txo} (h : handleTxo bv mem data pos = .ok (t, pos')) : pos ≤ pos' := by
  unfold handleTxo at h
  by_cases h1 : bv < 80
  · rw [if_pos h1] at h; cases h; exact le_refl _
  · rw [if_neg h1] at h
    obtain ⟨b, _, h⟩ := bind_ok h
    obtain ⟨⟨t1, p1⟩, h2, h⟩ := bind_ok h
    obtain ⟨⟨t2, p2⟩, h3, h⟩ := bind_ok h
    cases h
    exact (box_forward h2).trans (runs_forward h3)

theorem extra_forward {env : SheetEnv} {mem data : Bytes} {e e' : Extras} {pos pos' : Int} {rc : Nat} (h : extraRecord env mem e pos rc data = .ok (e', pos')) : pos ≤ pos' := by
  unfold extraRecord at h
  by_cases c1 : rc = XL_HLINK
  · rw [if_pos c1] at h; obtain ⟨_, _, h⟩ := bind_ok h; cases h; exact le_refl _
  rw [if_neg c1] at h
  by_cases c2 : rc = XL_QUICKTIP
  · rw [if_pos c2] at h; obtain ⟨_, _, h⟩ := bind_ok h; cases h; exact le_refl _
  rw [if_neg c2] at h
  by_cases c3 : rc = XL_OBJ
  · rw [if_pos c3] at h; obtain ⟨_, _, h⟩ := bind_ok h; cases h; exact le_refl _
  rw [if_neg c3] at h
  by_cases c4 : rc = XL_TXO
  · rw [if_pos c4] at h
    unfold recTxo at h
    obtain ⟨⟨t, p⟩, h1, h⟩ := bind_ok h
    have := txo_forward h1
    cases t with
    | none => cases h; exact this
    | some t =>
      simp only at h
      cases hs : e.saved with
      | none => rw [hs] at h; cases h
      | some s =>
        rw [hs] at h
        cases s with
        | none => cases h; exact this
        | some id =>
          simp only at h
          by_cases hz : id = 0
          · rw [if_pos hz] at h; cases h; exact this
          · rw [if_neg hz] at h; cases h; exact this
  rw [if_neg c4] at h
  by_cases c5 : rc = XL_NOTE
  · rw [if_pos c5] at h
    unfold handleNote at h
    by_cases hb : env.bv < 80
    · rw [if_pos hb] at h
      obtain ⟨⟨n, p⟩, h1, h⟩ := bind_ok h
      cases h
      unfold noteOld at h1
      obtain ⟨b, _, h1⟩ := bind_ok h1
      obtain ⟨_, _, h1⟩ := bind_ok h1
      obtain ⟨⟨raw, p2⟩, h2, h1⟩ := bind_ok h1
      obtain ⟨t, _, h1⟩ := bind_ok h1
      cases h1
      exact note_forward h2
    · rw [if_neg hb] at h
      obtain ⟨n, _, h⟩ := bind_ok h
      cases n with
      | none => cases h; exact le_refl _
      | some n => cases h; exact le_refl _
  rw [if_neg c5] at h
  by_cases c6 : rc = XL_COUNTRY
  · rw [if_pos c6] at h
    obtain ⟨_, _, h⟩ := bind_ok h
    obtain ⟨_, _, h⟩ := bind_ok h
    cases h; exact le_refl _
  · rw [if_neg c6] at h; cases h; exact le_refl _

theorem sheetRecord_forward {env : SheetEnv} {mem data : Bytes} {s s' : SheetSt} {pos pos' : Int} {rc len : Nat} (h : sheetRecord env mem s pos rc len data = .ok (s', pos')) :
    pos ≤ pos' := by
  unfold sheetRecord at h
  by_cases c1 : rc ∈ XL_FORMULA_OPCODES
  · rw [if_pos c1] at h; exact formula_forward h
  rw [if_neg c1] at h
  by_cases c2 : rc ∈ bofcodes
  · rw [if_pos c2] at h
    obtain ⟨p, h1, h⟩ := bind_ok h
    cases h
    exact recEmbedded_forward h1
  rw [if_neg c2] at h
  by_cases c3 : rc ∈ otherCodes
  · rw [if_pos c3] at h
    obtain ⟨⟨e, p⟩, h1, h⟩ := bind_ok h
    cases h
    exact extra_forward h1
  · rw [if_neg c3] at h
    obtain ⟨_, _, h⟩ := bind_ok h
    cases h; exact le_refl _

theorem oldRecord_forward {env : OpenEnv} {bv : Nat} {mem data : Bytes} {o o' : OldSt} {pos pos' : Int} {rc len : Nat}
    (h : oldRecord env bv mem o pos rc len data = .ok (o', pos')) : pos ≤ pos' := by
  unfold oldRecord at h
  by_cases c1 : rc ∈ XL_FORMULA_OPCODES
  · rw [if_pos c1] at h
    unfold oldFormula at h
    by_cases hb : bv ≥ 30
    · rw [if_pos hb] at h
      obtain ⟨_, _, h⟩ := bind_ok h
      obtain ⟨⟨s, p⟩, h1, h⟩ := bind_ok h
      cases h
      exact formula_forward h1
    · rw [if_neg hb] at h
      unfold recFormulaB2 at h
      obtain ⟨b, _, h⟩ := bind_ok h
      obtain ⟨⟨x, o1⟩, _, h⟩ := bind_ok h
      obtain ⟨o2, _, h⟩ := bind_ok h
      obtain ⟨⟨ty, v, p⟩, h1, h⟩ := bind_ok h
      obtain ⟨o3, _, h⟩ := bind_ok h
      cases h
      exact result_forward h1
  rw [if_neg c1] at h
  by_cases c2 : rc ∈ bofcodes
  · rw [if_pos c2] at h
    obtain ⟨p, h1, h⟩ := bind_ok h
    cases h
    exact recEmbedded_forward h1
  rw [if_neg c2] at h
  by_cases c3 : rc = XL_COUNTRY
  · rw [if_pos c3] at h
    obtain ⟨_, _, h⟩ := bind_ok h
    cases h; exact le_refl _
  rw [if_neg c3] at h
  by_cases c4 : rc ∈ otherCodes
  · rw [if_pos c4] at h
    obtain ⟨_, _, h⟩ := bind_ok h
    obtain ⟨⟨e, p⟩, h1, h⟩ := bind_ok h
    cases h
    exact extra_forward h1
  rw [if_neg c4] at h
  by_cases c5 : rc = XL_DIMENSION ∨ rc = XL_DIMENSION2
  · rw [if_pos c5] at h
    obtain ⟨_, _, h⟩ := bind_ok h
    cases h; exact le_refl _
  rw [if_neg c5] at h
  by_cases c6 : bv ≤ 45 ∧ rc ∈ oldBookCodes
  · rw [if_pos c6] at h
    obtain ⟨_, _, h⟩ := bind_ok h
    cases h; exact le_refl _
  rw [if_neg c6] at h
  by_cases c7 : bv ≤ 45 ∧ rc ∈ oldSheetCodes
  · rw [if_pos c7] at h
    obtain ⟨_, _, h⟩ := bind_ok h
    cases h; exact le_refl _
  · rw [if_neg c7] at h
    obtain ⟨_, _, h⟩ := bind_ok h
    obtain ⟨_, _, h⟩ := bind_ok h
    cases h; exact le_refl _

/-- C77: what a loop comes to, and after how many passes, is settled by where it starts. -/
theorem C77_one_result {σ ρ : Type} {pass : σ → R (ρ ⊕ σ)} {n m : Nat} {s : σ} {r r' : R ρ} (h : Loop pass n s r) (h' : Loop pass m s r') : n = m ∧ r = r' := by
  induction h generalizing m with
  | done e => cases h' with
    | done e' => rw [e] at e'; cases e'; exact ⟨rfl, rfl⟩
    | fail e' => rw [e] at e'; cases e'
    | next e' _ => rw [e] at e'; cases e'
  | fail e => cases h' with
    | done e' => rw [e] at e'; cases e'
    | fail e' => rw [e] at e'; cases e'; exact ⟨rfl, rfl⟩
    | next e' _ => rw [e] at e'; cases e'
  | next e _ ih => cases h' with
    | done e' => rw [e] at e'; cases e'
    | fail e' => rw [e] at e'; cases e'
    | next e' g =>
      rw [e] at e'; cases e'
      obtain ⟨i1, i2⟩ := ih g
      exact ⟨by rw [i1], i2⟩

/-! ## Worksheets -/

/-- One pass of the record loop of a worksheet: one record is read and dealt with. -/
def sheetPass (env : SheetEnv) (mem : Bytes) (s : SheetSt × Int) : R (SheetSt ⊕ (SheetSt × Int)) := do
  let ((rc, len, data), pos) ← getRecordParts mem s.2
  if rc = XL_EOF then pure (.inl s.1)
  else do
    let r ← sheetRecord env mem s.1 pos rc len data
    pure (.inr r)

/-- C77: reading the records of a worksheet ends, with a result or an exception, for every byte string and every position, after no more passes than there are bytes. -/
theorem C77_sheet_ends (env : SheetEnv) (mem : Bytes) (s : SheetSt) (pos : Int) : ∃ n, n ≤ mem.length + 1 ∧
    Loop (sheetPass env mem) n (s, pos) (sheetLoop env mem (mem.length + 1) s pos) := by
  refine loop_ends mem.length (sheetPass env mem) (fun fuel s => sheetLoop env mem fuel s.1 s.2) (fun s => s.2) ?_ ?_ (s, pos)
  · intro fuel s
    rw [sheetLoop]
    unfold sheetPass
    cases h : getRecordParts mem s.2 with
    | error e => rfl
    | ok y =>
      obtain ⟨⟨c, l, d⟩, p⟩ := y
      simp only [bind, Except.bind]
      by_cases hc : c = XL_EOF
      · simp only [if_pos hc]; rfl
      · simp only [if_neg hc]
        cases sheetRecord env mem s.1 p c l d with
        | error e => rfl
        | ok r => rfl
  · intro s s' h
    unfold sheetPass at h
    obtain ⟨⟨⟨c, l, d⟩, p⟩, h1, h⟩ := bind_ok h
    obtain ⟨m1, m2, m3⟩ := record_moves h1
    simp only at h
    by_cases hc : c = XL_EOF
    · rw [if_pos hc] at h; cases h
    · rw [if_neg hc] at h
      obtain ⟨r, h2, h⟩ := bind_ok h
      cases h
      exact ⟨m1, m2, m3.trans (sheetRecord_forward h2)⟩

/-- One pass of the record loop of a worksheet before BIFF5. -/
def oldPass (env : OpenEnv) (bv : Nat) (mem : Bytes) (s : OldSt × Int) : R (OldSt ⊕ (OldSt × Int)) := do
  let ((rc, len, data), pos) ← getRecordParts mem s.2
  if rc = XL_EOF then pure (.inl s.1)
  else do
    let r ← oldRecord env bv mem s.1 pos rc len data
    pure (.inr r)

/-- C77: the same for worksheets before BIFF5. -/
theorem C77_old_sheet_ends (env : OpenEnv) (bv : Nat) (mem : Bytes) (o : OldSt) (pos : Int) : ∃ n, n ≤ mem.length + 1 ∧
    Loop (oldPass env bv mem) n (o, pos) (oldLoop env bv mem (mem.length + 1) o pos) := by
  refine loop_ends mem.length (oldPass env bv mem) (fun fuel s => oldLoop env bv mem fuel s.1 s.2) (fun s => s.2) ?_ ?_ (o, pos)
  · intro fuel s
    rw [oldLoop]
    unfold oldPass
    cases h : getRecordParts mem s.2 with
    | error e => rfl
    | ok y =>
      obtain ⟨⟨c, l, d⟩, p⟩ := y
      simp only [bind, Except.bind]
      by_cases hc : c = XL_EOF
      · simp only [if_pos hc]; rfl
      · simp only [if_neg hc]
        cases oldRecord env bv mem s.1 p c l d with
        | error e => rfl
        | ok r => rfl
  · intro s s' h
    unfold oldPass at h
    obtain ⟨⟨⟨c, l, d⟩, p⟩, h1, h⟩ := bind_ok h
    obtain ⟨m1, m2, m3⟩ := record_moves h1
    simp only at h
    by_cases hc : c = XL_EOF
    · rw [if_pos hc] at h; cases h
    · rw [if_neg hc] at h
      obtain ⟨r, h2, h⟩ := bind_ok h
      cases h
      exact ⟨m1, m2, m3.trans (oldRecord_forward h2)⟩

/-! ## Loops within one record -/

/-- C77: so do the loops within the handling of one record: over an embedded substream, the continuations of the shared strings and of an EXTERNSHEET record, the text of
a formula's result, the text and the runs of a text box, the pieces of a note, and the parts of an OBJ record. -/
theorem C77_inner_loops_end (mem : Bytes) (pos : Int) :
    (∃ n, n ≤ mem.length + 1 ∧ Loop (embeddedPass mem) n pos (skipEmbedded mem (mem.length + 1) pos)) ∧
    (∃ n, n ≤ mem.length + 1 ∧ Loop (sstPass mem) n ([], pos) (sstContinues mem (mem.length + 1) pos)) ∧
    (∀ reqd data, ∃ n, n ≤ mem.length + 1 ∧ Loop (externPass mem reqd) n (data, pos) (externContinue mem reqd (mem.length + 1) data pos)) ∧
    (∀ bv dec expected data off, ∃ n, n ≤ mem.length + 1 ∧
      Loop (stringPass bv dec mem expected) n (data, off, pos, []) (stringRecLoop bv dec mem expected (mem.length + 1) data off pos [])) ∧
    (∀ cch, ∃ n, n ≤ mem.length + 1 ∧ Loop (boxPass mem cch) n (0, [], pos) (txoText mem cch (mem.length + 1) 0 [] pos)) ∧
    (∀ cb, ∃ n, n ≤ mem.length + 1 ∧ Loop (runsPass mem cb) n (0, [], pos) (txoRuns mem cb (mem.length + 1) 0 [] pos)) ∧
    (∀ expected acc, ∃ n, n ≤ mem.length + 1 ∧ Loop (notePass mem) n (expected, acc, pos) (notePieces mem (mem.length + 1) expected acc pos)) ∧
    (∀ data, ∃ n, n ≤ data.length + 1 ∧ Loop (objPass data) n (0, none) (objLoop data (data.length + 1) 0 none)) := by
  refine ⟨embedded_ends mem pos, ?_, fun reqd data => extern_ends mem reqd data pos, fun bv dec expected data off => string_ends bv dec mem expected data off pos [],
    fun cch => box_ends mem cch 0 [] pos, fun cb => runs_ends mem cb 0 [] pos, fun expected acc => note_ends mem expected acc pos, fun data => obj_ends data 0 none⟩
  obtain ⟨n, h1, h2⟩ := sst_ends mem [] pos
  refine ⟨n, h1, ?_⟩
  have : (sstContinues mem (mem.length + 1) pos).map (fun p => (([] : List Bytes) ++ p.1, p.2)) = sstContinues mem (mem.length + 1) pos := by
    cases sstContinues mem (mem.length + 1) pos <;> rfl
  rw [this] at h2
  exact h2

/-! ## The globals -/

/-- One pass of the record loop of the globals. -/
def globalsPass (env : BookEnv) (mem : Bytes) (s : Book × Int) : R ((Book × Int) ⊕ (Book × Int)) := do
  let ((rc, _, data), pos) ← getRecordParts mem s.2
  if rc = XL_EOF then do
    let b ← globalsEof env s.1
    pure (.inl (b, pos))
  else do
    let r ← globalsStep env mem s.1 rc data pos
    pure (.inr r)

/-- No SHEETHDR record (of the workbooks of BIFF4) has a negative length. -/
def NoWayBack (mem : Bytes) : Prop := ∀ p len data p' n, getRecordParts mem p = .ok ((0x8f, len, data), p') → unpacki (sliceTo data 4) = .ok n → 0 ≤ n

theorem globalsStep_forward {env : OpenEnv} {bv : Nat} {base : Int} {mem data : Bytes} {b b' : Book} {p pos pos' : Int} {rc len : Nat} (hn : NoWayBack mem)
    (hr : getRecordParts mem p = .ok ((rc, len, data), pos)) (h : globalsStep (env.bookEnv bv base) mem b rc data pos = .ok (b', pos')) : pos ≤ pos' := by
  unfold globalsStep at h
  by_cases c1 : rc = XL_SST
  · rw [if_pos c1] at h
    unfold globalsSst handleSst at h
    obtain ⟨⟨t, q⟩, h1, h⟩ := bind_ok h
    cases h
    obtain ⟨_, _, h1⟩ := bind_ok h1
    obtain ⟨⟨more, q2⟩, h2, h1⟩ := bind_ok h1
    obtain ⟨_, _, h1⟩ := bind_ok h1
    cases h1
    exact sst_forward h2
  rw [if_neg c1] at h
  by_cases c2 : rc = XL_EXTERNSHEET
  · rw [if_pos c2] at h
    unfold handleExternsheet at h
    obtain ⟨b1, _, h⟩ := bind_ok h
    by_cases hb : (env.bookEnv bv base).bv ≥ 80
    · rw [if_pos hb] at h
      obtain ⟨n, _, h⟩ := bind_ok h
      obtain ⟨⟨d, q⟩, h2, h⟩ := bind_ok h
      obtain ⟨_, _, h⟩ := bind_ok h
      cases h
      exact extern_forward h2
    · rw [if_neg hb] at h
      obtain ⟨_, _, h⟩ := bind_ok h
      cases h; exact le_refl _
  rw [if_neg c2] at h
  by_cases c3 : rc = XL_SHEETHDR
  · rw [if_pos c3] at h
    have h : handleSheethdr env bv mem b data pos = .ok (b', pos') := h
    unfold handleSheethdr at h
    obtain ⟨_, _, h⟩ := bind_ok h
    obtain ⟨n, h1, h⟩ := bind_ok h
    obtain ⟨_, _, h⟩ := bind_ok h
    obtain ⟨_, _, h⟩ := bind_ok h
    obtain ⟨_, _, h⟩ := bind_ok h
    obtain ⟨⟨_, _⟩, _, h⟩ := bind_ok h
    obtain ⟨_, _, h⟩ := bind_ok h
    obtain ⟨_, _, h⟩ := bind_ok h
    cases h
    have := hn p len data pos n (by rw [hr, c3]) h1
    omega
  · rw [if_neg c3] at h
    obtain ⟨_, _, h⟩ := bind_ok h
    cases h; exact le_refl _

/-- C77: reading the globals ends for every byte string in which no SHEETHDR record has a negative length. -/
theorem C77_globals_end_partial (env : OpenEnv) (bv : Nat) (base : Int) (mem : Bytes) (hn : NoWayBack mem) (b : Book) (pos : Int) : ∃ n, n ≤ mem.length + 1 ∧
    Loop (globalsPass (env.bookEnv bv base) mem) n (b, pos) (globalsLoop (env.bookEnv bv base) mem (mem.length + 1) b pos) := by
  refine loop_ends mem.length (globalsPass (env.bookEnv bv base) mem) (fun fuel s => globalsLoop (env.bookEnv bv base) mem fuel s.1 s.2) (fun s => s.2) ?_ ?_ (b, pos)
  · intro fuel s
    rw [globalsLoop]
    unfold globalsPass
    cases h : getRecordParts mem s.2 with
    | error e => rfl
    | ok y =>
      obtain ⟨⟨c, l, d⟩, p⟩ := y
      simp only [bind, Except.bind]
      by_cases hc : c = XL_EOF
      · simp only [if_pos hc]
        cases globalsEof (env.bookEnv bv base) s.1 with
        | error e => rfl
        | ok r => rfl
      · simp only [if_neg hc]
        cases globalsStep (env.bookEnv bv base) mem s.1 c d p with
        | error e => rfl
        | ok r => rfl
  · intro s s' h
    unfold globalsPass at h
    obtain ⟨⟨⟨c, l, d⟩, p⟩, h1, h⟩ := bind_ok h
    obtain ⟨m1, m2, m3⟩ := record_moves h1
    simp only at h
    by_cases hc : c = XL_EOF
    · rw [if_pos hc] at h
      obtain ⟨_, _, h⟩ := bind_ok h
      cases h
    · rw [if_neg hc] at h
      obtain ⟨r, h2, h⟩ := bind_ok h
      cases h
      exact ⟨m1, m2, m3.trans (globalsStep_forward hn h1 h2)⟩

end Xlrd
