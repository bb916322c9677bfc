import Verif.Lemmas.Loops
import Verif.Model.Open

/-!
# What reading a sheet does to the countries of the book
-/
set_option linter.unusedSimpArgs false
set_option linter.unreachableTactic false
set_option linter.unusedTactic false
namespace Xlrd

/-- The result, if there is one, satisfies `P`. -/
def Yields {α : Type} (P : α → Prop) (x : R α) : Prop := ∀ a, x = .ok a → P a

theorem yields_bind {α β : Type} {P : β → Prop} {x : R α} {f : α → R β} (h : ∀ a, x = .ok a → Yields P (f a)) : Yields P (x >>= f) := by
  intro b hb
  obtain ⟨a, h1, h2⟩ := bind_ok hb
  exact h a h1 b h2

theorem yields_pure {α : Type} {P : α → Prop} {a : α} (h : P a) : Yields P (pure a) := by
  intro b hb; cases hb; exact h

theorem yields_ok {α : Type} {P : α → Prop} {a : α} (h : P a) : Yields P (.ok a) := by
  intro b hb; cases hb; exact h

theorem yields_error {α : Type} {P : α → Prop} {e : PyErr} : Yields P (.error e : R α) := by
  intro b hb; cases hb

theorem yields_ite {α : Type} {P : α → Prop} {c : Prop} [Decidable c] {x y : R α} (h1 : Yields P x) (h2 : Yields P y) : Yields P (if c then x else y) := by
  split <;> assumption

/-- Goes through the code of a handler. -/
macro "walk" : tactic => `(tactic| repeat (first
  | exact yields_error
  | exact yields_pure rfl
  | exact yields_ok rfl
  | assumption
  | refine yields_ite ?_ ?_
  | (refine yields_bind ?_; intro _ _)
  | (dsimp only)))

theorem put_ext {env : SheetEnv} {s : SheetSt} {r c : Nat} {ty : Option Nat} {v : Val} {xf : Nat} : Yields (fun s' => s'.ext = s.ext) (s.put env r c ty v xf) := by
  unfold SheetSt.put
  walk

theorem mulRk_ext {env : SheetEnv} {data : Bytes} {r : Nat} (n : Nat) : ∀ (c : Nat) (pos : Int) (s : SheetSt),
    Yields (fun s' => s'.ext = s.ext) (mulRkLoop env data r n c pos s) := by
  induction n with
  | zero => intro c pos s; exact yields_ok rfl
  | succ n ih =>
    intro c pos s
    unfold mulRkLoop
    refine yields_bind fun _ _ => yields_bind fun _ _ => yields_bind fun s1 h1 => ?_
    have := ih (c + 1) (pos + 6) s1
    rw [put_ext _ h1] at this
    exact this

theorem mulBlank_ext {env : SheetEnv} {data : Bytes} {r : Nat} (n : Nat) : ∀ (c k : Nat) (s : SheetSt),
    Yields (fun s' => s'.ext = s.ext) (mulBlankLoop env data r n c k s) := by
  induction n with
  | zero => intro c pos s; exact yields_ok rfl
  | succ n ih =>
    intro c k s
    unfold mulBlankLoop
    refine yields_bind fun s1 h1 => ?_
    have := ih (c + 1) (k + 1) s1
    rw [put_ext _ h1] at this
    exact this

theorem plain_ext {env : SheetEnv} {s : SheetSt} {rc len : Nat} {data : Bytes} : Yields (fun s' => s'.ext = s.ext) (plainRecord env s rc len data) := by
  unfold plainRecord
  refine yields_ite ?_ (yields_ite ?_ (yields_ite ?_ (yields_ite ?_ (yields_ite ?_ (yields_ite ?_ (yields_ite ?_ (yields_ite ?_ (yields_ite ?_ (yields_ite ?_ (yields_ite ?_ (yields_ite ?_ (yields_ite ?_ (yields_ite ?_ (yields_ite ?_ (yields_ite ?_ (yields_ite ?_ (yields_ite ?_ (yields_ite ?_ (yields_ite ?_ (yields_ite ?_ (yields_ite ?_ (yields_ite ?_ (yields_ite ?_ (yields_ite ?_ (yields_ite ?_ (yields_ite ?_ ?_))))))))))))))))))))))))))
  · unfold recNumber; walk <;> exact put_ext
  · unfold recLabelSst
    refine yields_bind fun _ _ => yields_bind fun _ _ => yields_bind fun s1 h1 => yields_pure ?_
    rw [← put_ext _ h1]
    unfold sstRich
    split
    · split <;> rfl
    · rfl
  · unfold recLabel; walk <;> exact put_ext
  · unfold recRString
    refine yields_bind fun _ _ => yields_bind fun _ _ => yields_bind fun s1 h1 => yields_pure ?_
    have := put_ext _ h1
    exact this
  · unfold recRk; walk <;> exact put_ext
  · unfold recMulRk; walk <;> exact mulRk_ext _ _ _ _
  · unfold recRow; walk
  · unfold recBoolErr; walk <;> exact put_ext
  · unfold recColinfo; walk
  · unfold recDefColWidth; walk
  · unfold recStandardWidth; walk
  · unfold recGcw; walk
  · unfold recBlank; walk <;> exact put_ext
  · unfold recMulBlank; walk <;> first | exact yields_pure rfl | exact mulBlank_ext _ _ _ _
  · unfold recDimension; walk
  · unfold recLabelRanges; walk
  · walk
  · walk
  · unfold recCondFmt; walk
  · unfold recCf; walk
  · unfold recDefaultRowHeight; walk
  · unfold recMergedCells; walk
  · unfold recWindow2; walk
  · unfold recScl; walk
  · unfold recPane; walk
  · unfold recHBreaks; walk
  · unfold recVBreaks; walk
  · walk

theorem formula_ext {env : SheetEnv} {mem : Bytes} {s : SheetSt} {pos : Int} {data : Bytes} :
    Yields (fun r => r.1.ext = s.ext) (recFormula env mem s pos data) := by
  unfold recFormula
  refine yields_bind fun _ _ => yields_bind fun _ _ => yields_bind fun s1 h1 => yields_pure ?_
  have := put_ext _ h1
  exact this

/-- The COUNTRY record is the only one that changes the countries of the book: they must have been (0, 0) or the same. -/
theorem record_countries {env : SheetEnv} {mem : Bytes} {s : SheetSt} {pos : Int} {rc len : Nat} {data : Bytes} :
    Yields (fun r => r.1.ext.countries = s.ext.countries ∨
      rc = XL_COUNTRY ∧ ∃ c, r.1.ext.countries = some c ∧ (s.ext.countries.getD env.countries = (0, 0) ∨ s.ext.countries.getD env.countries = c))
      (sheetRecord env mem s pos rc len data) := by
  unfold sheetRecord
  refine yields_ite (fun r hr => .inl (by rw [formula_ext _ hr])) (yields_ite (yields_bind fun _ _ => yields_pure (.inl rfl)) (yields_ite (yields_bind fun r hr => yields_pure ?_)
    (yields_bind fun s1 h1 => yields_pure (.inl (by rw [plain_ext _ h1])))))
  have key : Yields (fun r : Extras × Int => r.1.countries = s.ext.countries ∨
      rc = XL_COUNTRY ∧ ∃ c, r.1.countries = some c ∧ (s.ext.countries.getD env.countries = (0, 0) ∨ s.ext.countries.getD env.countries = c))
      (extraRecord env mem s.ext pos rc data) := by
    unfold extraRecord
    refine yields_ite ?_ (yields_ite ?_ (yields_ite ?_ (yields_ite ?_ (yields_ite ?_ ?_))))
    · refine yields_bind fun e h => yields_pure (.inl ?_)
      unfold handleHlink at h
      obtain ⟨_, _, h⟩ := bind_ok h
      cases h; rfl
    · refine yields_bind fun e h => yields_pure (.inl ?_)
      unfold handleQuicktip at h
      obtain ⟨_, _, h⟩ := bind_ok h
      obtain ⟨_, _, h⟩ := bind_ok h
      cases hl : s.ext.links.getLast? with
      | none => rw [hl] at h; cases h
      | some x =>
        rw [hl] at h
        obtain ⟨_, _, h⟩ := bind_ok h
        obtain ⟨_, _, h⟩ := bind_ok h
        obtain ⟨_, _, h⟩ := bind_ok h
        cases h; rfl
    · exact yields_bind fun _ _ => yields_pure (.inl rfl)
    · unfold recTxo
      refine yields_bind fun x h => ?_
      obtain ⟨t, p⟩ := x
      cases t with
      | none => exact yields_pure (.inl rfl)
      | some t =>
        simp only
        cases s.ext.saved with
        | none => exact yields_error
        | some o =>
          cases o with
          | none => exact yields_pure (.inl rfl)
          | some id => exact yields_ite (yields_pure (.inl rfl)) (yields_pure (.inl rfl))
    · unfold handleNote
      refine yields_ite (yields_bind fun _ _ => yields_pure (.inl rfl)) (yields_bind fun x _ => ?_)
      cases x with
      | none => exact yields_pure (.inl rfl)
      | some n => exact yields_pure (.inl rfl)
    · by_cases hc : rc = XL_COUNTRY
      · rw [if_pos hc]
        refine yields_bind fun b _ => yields_bind fun _ h => yields_pure (.inr ⟨hc, _, rfl, ?_⟩)
        unfold pyAssert at h
        by_contra hn
        rw [decide_eq_false hn] at h
        cases h
      · rw [if_neg hc]; exact yields_pure (.inl rfl)
  exact key r hr

/-- A book that knows its countries keeps them. -/
theorem sheetCountries_named {env : SheetEnv} {mem : Bytes} (h0 : env.countries ≠ (0, 0)) (fuel : Nat) : ∀ (s : SheetSt) (pos : Int),
    s.ext.countries.getD env.countries = env.countries → (sheetCountries env mem fuel s pos).getD env.countries = env.countries := by
  induction fuel with
  | zero => intro s pos h; exact h
  | succ fuel ih =>
    intro s pos h
    unfold sheetCountries
    cases getRecordParts mem pos with
    | error e => exact h
    | ok x =>
      obtain ⟨⟨rc, len, data⟩, p⟩ := x
      simp only
      by_cases hc : rc = XL_EOF
      · rw [if_pos hc]; exact h
      · rw [if_neg hc]
        cases hr : sheetRecord env mem s p rc len data with
        | error e => exact h
        | ok y =>
          obtain ⟨s1, p1⟩ := y
          simp only
          apply ih
          rcases record_countries _ hr with h1 | ⟨_, c, h1, h2⟩
          · simp only at h1; rw [h1]; exact h
          · simp only at h1
            rw [h1]
            rw [h] at h2
            rcases h2 with h2 | h2
            · exact absurd h2 h0
            · exact h2.symm

/-- After a sheet has been read the countries are those its records have left. -/
theorem sheetCountries_read {env : SheetEnv} {mem : Bytes} (fuel : Nat) : ∀ (s s' : SheetSt) (pos : Int),
    sheetLoop env mem fuel s pos = .ok s' → sheetCountries env mem fuel s pos = s'.ext.countries := by
  induction fuel with
  | zero => intro s s' pos h; cases h
  | succ fuel ih =>
    intro s s' pos h
    unfold sheetLoop at h
    unfold sheetCountries
    obtain ⟨⟨⟨rc, len, data⟩, p⟩, h1, h⟩ := bind_ok h
    rw [h1]
    simp only at h ⊢
    by_cases hc : rc = XL_EOF
    · rw [if_pos hc] at h ⊢; cases h; rfl
    · rw [if_neg hc] at h ⊢
      obtain ⟨⟨s1, p1⟩, h2, h⟩ := bind_ok h
      rw [h2]
      exact ih _ _ _ h

end Xlrd
