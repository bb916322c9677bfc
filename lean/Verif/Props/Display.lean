import Verif.Props.Names
import Verif.Props.Formula

/-!
# Addresses as displayed by the book (C56)

`display_cell_address` writes an absolute coordinate like `$H` or `$6` and a relative one as an offset, like `(*-3)`.
-/
set_option linter.unusedSimpArgs false
namespace Xlrd
namespace Spec

/-- The rest of an offset after `(*`: a sign, digits and a closing parenthesis; what follows is left. -/
def readOffset (s : PyStr) : Option (Int × PyStr) :=
  match s with
  | sg :: t =>
    match t.dropWhile isDig with
    | ')' :: rest =>
      if t.takeWhile isDig = [] then none
      else if sg = '+' then some ((digitsVal (t.takeWhile isDig) : Int), rest)
      else if sg = '-' then some (-(digitsVal (t.takeWhile isDig) : Int), rest)
      else none
    | _ => none
  | [] => none

/-- `$6` or `(*+2)`. -/
def readDisplayRow (s : PyStr) : Option Coord :=
  match s with
  | '(' :: '*' :: t =>
    match readOffset t with
    | some (k, []) => some (.rel k)
    | _ => none
  | '$' :: t => (readRow t).map .abs
  | _ => none

/-- `$H$6`, `(*-1)$6`, `$H(*+2)` or `(*-1)(*+2)`: row and column. -/
def readDisplay (s : PyStr) : Option (Coord × Coord) :=
  match s with
  | '(' :: '*' :: t => do
    let (k, rest) ← readOffset t
    let r ← readDisplayRow rest
    pure (r, .rel k)
  | '$' :: t => do
    let c ← readCol (t.takeWhile isLetter)
    let r ← readDisplayRow (t.dropWhile isLetter)
    pure (r, .abs c)
  | _ => none

end Spec
open Spec

/-- An offset as the code writes it. -/
def offsetText (k : Int) : PyStr := (if k < 0 then ['-'] else ['+']) ++ natDec k.natAbs ++ [')']

theorem readOffset_text (k : Int) (rest : PyStr) : readOffset (offsetText k ++ rest) = some (k, rest) := by
  have h := takeWhile_all_append (p := isDig) (natDec k.natAbs) (')' :: rest) (natDec_dig _) (by intro c hc; simp at hc; subst hc; decide)
  have hne : natDec k.natAbs ≠ [] := natDec_ne _
  have hv : digitsVal (natDec k.natAbs) = k.natAbs := natDec_val _
  by_cases hk : k < 0
  · have e : offsetText k ++ rest = '-' :: (natDec k.natAbs ++ ')' :: rest) := by simp [offsetText, hk]
    rw [e]
    simp only [readOffset, h.1, h.2, if_neg hne, hv, if_neg (show ¬ ('-' = '+') by decide), if_true]
    congr 2; omega
  · have e : offsetText k ++ rest = '+' :: (natDec k.natAbs ++ ')' :: rest) := by simp [offsetText, hk]
    rw [e]
    simp only [readOffset, h.1, h.2, if_neg hne, hv, if_true]
    congr 2; omega

theorem readDisplayRow_text (r : Int) (rel : Bool) (hr : rel = false → 0 ≤ r) :
    readDisplayRow (if rel then "(*".toList ++ offsetText r else '$' :: intDec (r + 1)) = some (if rel then .rel r else .abs r.toNat) := by
  cases rel with
  | true =>
    have := readOffset_text r []
    rw [List.append_nil] at this
    show readDisplayRow ('(' :: '*' :: offsetText r) = _
    simp only [readDisplayRow, this, if_true]
  | false =>
    obtain ⟨n, rfl⟩ : ∃ n : Nat, r = n := ⟨r.toNat, by have := hr rfl; omega⟩
    have e : (n : Int) + 1 = ((n + 1 : Nat) : Int) := by omega
    simp only [Bool.false_eq_true, if_false, readDisplayRow, e, intDec_nat, readRow_natDec, Option.map_some, Int.toNat_natCast]

/-- C56 (addresses displayed by the book): `display_cell_address` gives a text from which row and column can be read with their kinds. -/
theorem C56_display_reads_back (r c : Int) (rrel crel : Bool) (hr : rrel = false → 0 ≤ r) (hc : crel = false → 0 ≤ c) :
    ∃ s, displayCellAddress r c rrel crel = .ok s ∧
      readDisplay s = some (if rrel then .rel r else .abs r.toNat, if crel then .rel c else .abs c.toNat) := by
  have hrow := readDisplayRow_text r rrel hr
  have erow : (if rrel then "(*".toList ++ (if r < 0 then ['-'] else ['+']) ++ natDec r.natAbs ++ ")".toList else '$' :: intDec (r + 1)) =
      (if rrel then "(*".toList ++ offsetText r else '$' :: intDec (r + 1)) := by
    cases rrel <;> simp [offsetText]
  generalize hrt : (if rrel then "(*".toList ++ offsetText r else '$' :: intDec (r + 1)) = rt at hrow erow
  have hhead : ∀ x, rt.head? = some x → isLetter x = false := by
    intro x hx
    rw [← hrt] at hx
    cases rrel
    · simp at hx; subst hx; decide
    · simp at hx; subst hx; decide
  cases crel with
  | true =>
    refine ⟨"(*".toList ++ offsetText c ++ rt, ?_, ?_⟩
    · simp only [displayCellAddress, erow, if_true, bind, Except.bind, pure, Except.pure]
      simp [offsetText]
    · show readDisplay ('(' :: '*' :: (offsetText c ++ rt)) = _
      simp only [readDisplay, readOffset_text, hrow, if_true, bind, Option.bind, pure]
  | false =>
    obtain ⟨n, rfl⟩ : ∃ n : Nat, c = n := ⟨c.toNat, by have := hc rfl; omega⟩
    obtain ⟨s, hs, hread⟩ := C09_book_colname_reads_back n
    have hall : s.all isLetter = true := by
      unfold readCol at hread
      by_cases hh : s ≠ [] ∧ s.all isLetter
      · exact hh.2
      · rw [if_neg hh] at hread; cases hread
    have h := takeWhile_all_append (p := isLetter) s rt hall hhead
    refine ⟨'$' :: s ++ rt, ?_, ?_⟩
    · simp only [displayCellAddress, erow, Bool.false_eq_true, if_false, bind, Except.bind, pure, Except.pure, hs]
    · show readDisplay ('$' :: (s ++ rt)) = _
      simp only [readDisplay, h.1, h.2, hread, hrow, bind, Option.bind, pure, Bool.false_eq_true, if_false, Int.toNat_natCast]

/-- C56, C47: an address of a BIFF8 formula, expanded and displayed, reads back as the row and column that it was made from. -/
theorem C56_expand_display (row col : Coord) (h : AddrFits 80 row col) :
    ∃ s, (let (r, c, rrel, crel) := expandCellAddress (rowField 80 row col) (colField 80 row col); displayCellAddress r c rrel crel) = .ok s ∧
      readDisplay s = some (row, col) := by
  rw [C47_expand row col h]
  obtain ⟨s, h1, h2⟩ := C56_display_reads_back row.num col.num row.isRel col.isRel
    (by cases row <;> simp [Coord.isRel, Coord.num]) (by cases col <;> simp [Coord.isRel, Coord.num])
  refine ⟨s, h1, h2.trans ?_⟩
  cases row <;> cases col <;> simp [Coord.isRel, Coord.num]

example : AddrFits 80 (.rel (-3)) (.abs 7) := by simp [AddrFits, Coord.Fits, rowCount]
example : displayCellAddress 5 (-3) false true = .ok "(*-3)$6".toList ∧ readDisplay "(*-3)$6".toList = some (.abs 5, .rel (-3)) := by decide
example : displayCellAddress (-2) 7 true false = .ok "$H(*-2)".toList ∧ displayCellAddress 0 0 true true = .ok "(*+0)(*+0)".toList := by decide

end Xlrd
