import Verif.Props.NameExprRun
import Verif.Props.NameValuesExamples

/-!
# A sample workbook with names that have values, and formulas for which C78 is false

The sheets and references of `Props/NameValuesExamples.lean` and three names: `2+3`, `IF(first=5,"yes",)` and `CHOOSE(2,first,C!$C$5)`.
-/
namespace Xlrd
open Spec

namespace ExprSample
open Sample NameSample

/-- Addition of floats and comparison for equality of floats. -/
def ops : PyOps where
  str := fun _ => []
  toFloat := fun _ => .error .value
  arith := fun c v w => match c, v, w with
    | 3, .num (.fin q), .num (.fin r) => .ok (.num (.fin (q + r)))
    | 8, .str s, .str t => .ok (.str (s ++ t))
    | _, _, _ => .error .type
  cmp := fun c v w => match c, v, w with
    | 11, .num (.fin q), .num (.fin r) => .ok (decide (q = r))
    | _, _, _ => .error .type
  neg := .ok
  percent := .ok

def sums : Calc where
  arith := fun o x y => match o, x, y with
    | .add, .float (.fin q), .float (.fin r) => .float (.fin (q + r))
    | _, _, _ => .int 0
  compare := fun o v w => match o, v, w with
    | .eq, .num (.float (.fin q)), .num (.float (.fin r)) => decide (q = r)
    | _, _, _ => false
  parse := fun _ => .int 0
  write := fun _ => []
  negate := id
  percent := id

theorem pyCalc : PyCalc ops sums where
  arith := by
    intro o x y r ho h
    cases o <;> try cases ho
    case add =>
      cases x with
      | int n => cases h
      | float x => cases y with
        | int n => cases x <;> cases h
        | float y => cases x <;> cases y <;> try cases h
                     rfl
    all_goals cases x <;> cases y <;> cases h
  cat := by intro s t r h; cases h; rfl
  compare := by
    intro o v w p q r ho h1 h2 h
    cases o <;> try cases ho
    case eq =>
      cases v <;> cases h1
      case text => cases h
      case num n =>
      cases w <;> cases h2
      case text => cases n with
        | int k => cases h
        | float x => cases x <;> cases h
      case num m =>
      cases n with
      | int k => cases h
      | float x => cases m with
        | int k => cases x <;> cases h
        | float y => cases x <;> cases y <;> try cases h
                     rfl
    all_goals cases h
  parse := by intro s r h; cases h
  write := by intro n; rfl
  negate := by intro n r h; cases h; rfl
  percent := by intro n r h; cases h; rfl

def env : BookEnv := { Sample.env with
  evalNames := fun b => (bookNames { ops := ops, bv := 80, bk := b, dec := b.dec Sample.env }).map fun _ => () }

theorem env_evaluates : EvaluatesNames ops env := fun _ => rfl

def five : VExpr := .bin .add (.int 2) (.int 3)
def yes : VExpr := .varying .val 1 [.quiet [] [.hint 2 9] (.bin .eq (.name .val 0) (.int 5)), .text (txt "yes"), .missing]
def which : VExpr := .varying .val 100 [.int 2, .name .val 0, .cell .ref 1 4 2]

def fiveData : Bytes := [0x1E, 2, 0, 0x1E, 3, 0, 0x03]
def yesData : Bytes := [0x43, 1, 0, 0, 0, 0x1E, 5, 0, 0x0B, 0x19, 2, 9, 0, 0x17, 3, 0, 0x79, 0x65, 0x73, 0x16, 0x42, 3, 1, 0]
def whichData : Bytes := [0x1E, 2, 0, 0x43, 1, 0, 0, 0, 0x3A, 1, 0, 4, 0, 2, 0, 0x42, 3, 100, 0]

theorem five_tokens : five.tokens = fiveData := by simp [five, VExpr.tokens]; decide +kernel
theorem yes_tokens : yes.tokens = yesData := by simp [yes, VExpr.tokens]; decide +kernel
theorem which_tokens : which.tokens = whichData := by simp [which, VExpr.tokens]; decide +kernel

def named (n : String) (x : Bytes) : NameObj :=
  { nameIndex := 0, optionFlags := 0, hidden := 0, func := 0, vbasic := 0, macroFlag := 0, complex := 0, builtin := 0, funcgroup := 0,
    binary := 0, extnSheetNum := 0, excelSheetIndex := 0, scope := none, name := n.toList, rawFormula := x, basicFormulaLen := x.length }
def namedData (n : String) (x : Bytes) : Bytes :=
  le16 0 ++ [0, UInt8.ofNat n.toList.length] ++ le16 x.length ++ le16 0 ++ le16 0 ++ [0, 0, 0, 0] ++ (txt n).body ++ x

def items : List GItem :=
  [.one 0x85 (sheetData sheetA "A"), .one 0x85 (sheetData sheetB "B"), .one 0x85 (sheetData sheetC "C"),
   .one 0x1ae [1, 0, 1, 0x3A], .one 0x1ae [3, 0, 1, 4], .extern externData [],
   .one 0x18 (namedData "first" fiveData), .one 0x18 (namedData "second" yesData), .one 0x18 (namedData "third" whichData)]

def names : List NameObj := [named "first" fiveData, named "second" yesData, named "third" whichData]

theorem ok : GlobalsOk 80 items where
  sized := by unfold GItem.Sized; decide +kernel
  plain := by
    intro it h
    simp only [items, List.mem_cons, List.mem_nil_iff, or_false] at h
    rcases h with rfl | rfl | rfl | rfl | rfl | rfl | rfl | rfl | rfl
    · simp [GItem.Plain]
    · simp [GItem.Plain]
    · simp [GItem.Plain]
    · simp [GItem.Plain]
    · simp [GItem.Plain]
    · refine ⟨2, refs.flatMap ExtRef.enc, rfl, by decide, by decide +kernel, ?_⟩
      intro k hk
      simp at hk
    · simp [GItem.Plain]
    · simp [GItem.Plain]
    · simp [GItem.Plain]
  stray := by simp [items, NoStrayContinue]

theorem sheets : Sheets 80 (textAt env) items [sheetA, sheetB, sheetC] := by
  have h0 : Sheets 80 (textAt env) [] [] := .nil
  have h1 := h0.take (sel := (· = 0x85)) rfl (sheetRec (textAt env []) sheetA "A" rfl (by decide) (by decide) (by decide) (by decide +kernel) (by decide +kernel))
  have h2 := h1.take (sel := (· = 0x85)) rfl (sheetRec (textAt env _) sheetB "B" rfl (by decide) (by decide) (by decide) (by decide +kernel) (by decide +kernel))
  have h3 := h2.take (sel := (· = 0x85)) rfl (sheetRec (textAt env _) sheetC "C" rfl (by decide) (by decide) (by decide) (by decide +kernel) (by decide +kernel))
  have h4 := h3.skip (it := .one 0x1ae [1, 0, 1, 0x3A]) (by rintro c d ⟨⟩; simp)
  have h5 := h4.skip (it := .one 0x1ae [3, 0, 1, 4]) (by rintro c d ⟨⟩; simp)
  have h6 := h5.skip (it := .extern externData []) (by rintro c d ⟨⟩)
  have h7 := h6.skip (it := .one 0x18 (namedData "first" fiveData)) (by rintro c d ⟨⟩; simp)
  have h8 := h7.skip (it := .one 0x18 (namedData "second" yesData)) (by rintro c d ⟨⟩; simp)
  exact h8.skip (it := .one 0x18 (namedData "third" whichData)) (by rintro c d ⟨⟩; simp)

theorem namedRec (dec : Bytes → R PyStr) (n : String) (x : Bytes) (h1 : n.toList.length < 256) (h2 : x.length < 65536)
    (h3 : ∀ u ∈ utf16 n.toList, u < 256) (h4 : (utf16 n.toList).length = n.toList.length) : NameRecord 80 dec (named n x) (namedData n x) :=
  ⟨0, 0, n.toList.length, [0, 0, 0, 0], n.toList, (txt n).body, by simp [FieldsFit, nameFlags, named], by simp [packFields, nameFlags, named],
    by simp [named], h1, h2, by simp [named], by simp [named], rfl, by rw [← h4]; exact .biff8 (txt n) (by decide) (txt_ok _ h3) rfl,
    by simp [NameShown, named], rfl⟩

theorem namesOk : Names 80 (textAt env) items names := by
  have h0 : Names 80 (textAt env) [] [] := .nil
  have h1 := h0.skip (sel := (· = 0x18)) (it := .one 0x85 (sheetData sheetA "A")) (by rintro c d ⟨⟩; simp)
  have h2 := h1.skip (it := .one 0x85 (sheetData sheetB "B")) (by rintro c d ⟨⟩; simp)
  have h3 := h2.skip (it := .one 0x85 (sheetData sheetC "C")) (by rintro c d ⟨⟩; simp)
  have h4 := h3.skip (it := .one 0x1ae [1, 0, 1, 0x3A]) (by rintro c d ⟨⟩; simp)
  have h5 := h4.skip (it := .one 0x1ae [3, 0, 1, 4]) (by rintro c d ⟨⟩; simp)
  have h6 := h5.skip (it := .extern externData []) (by rintro c d ⟨⟩)
  have h7 := h6.take rfl (namedRec (textAt env _) "first" fiveData (by decide +kernel) (by decide +kernel) (by decide +kernel) (by decide +kernel))
  have h8 := h7.take rfl (namedRec (textAt env _) "second" yesData (by decide +kernel) (by decide +kernel) (by decide +kernel) (by decide +kernel))
  exact h8.take rfl (namedRec (textAt env _) "third" whichData (by decide +kernel) (by decide +kernel) (by decide +kernel) (by decide +kernel))

theorem externs : Externs items refs := by
  have hs : ∀ l : List GItem, (∀ it ∈ l, ∀ d more, it ≠ .extern d more) → ∀ pre rs, Externs pre rs → Externs (pre ++ l) rs := by
    intro l
    induction l with
    | nil => intro _ pre rs h; simpa using h
    | cons a l ih =>
      intro hl pre rs h
      have := ih (fun x hx => hl x (List.mem_cons_of_mem _ hx)) _ _ (h.skip (hl a (List.mem_cons_self ..)))
      simpa using this
  have h1 : Externs (items.take 6) refs := by
    refine Externs.take (pre := items.take 5) (xs := []) (l := refs) (hs (items.take 5) ?_ [] [] .nil) ⟨[], by decide, ?_, by decide +kernel⟩
    · intro it h d more
      simp only [items, List.take, List.mem_cons, List.mem_nil_iff, or_false] at h
      rcases h with rfl | rfl | rfl | rfl | rfl <;> simp
    · unfold ExtRef.Fits; decide
  refine hs (items.drop 6) ?_ _ _ h1
  intro it h d more
  simp only [items, List.drop, List.mem_cons, List.mem_nil_iff, or_false] at h
  rcases h with rfl | rfl | rfl <;> simp

theorem load : ∃ b p, parseGlobals env ([9, 9] ++ encGlobals items [] ++ [7]) newBook (([9, 9] : Bytes).length : Int) = .ok (b, p) := by
  cases h : parseGlobals env ([9, 9] ++ encGlobals items [] ++ [7]) newBook (([9, 9] : Bytes).length : Int) with
  | ok r => exact ⟨r.1, r.2, rfl⟩
  | error e =>
    have : (parseGlobals env ([9, 9] ++ encGlobals items [] ++ [7]) newBook (([9, 9] : Bytes).length : Int)).toOption.isSome = true := by decide +kernel
    rw [h] at this; cases this

theorem local_last : LastOf (supbooks items) .ours 1 := by
  refine ⟨rfl, ?_⟩
  intro j hj
  rw [List.getElem?_eq_none (Nat.le_trans (show (supbooks items).length ≤ 2 by decide +kernel) (by omega))]
  simp

abbrev loc := LocalRef (supbooks items) [sheetA, sheetB, sheetC] refs

theorem ref1 : loc 1 1 1 :=
  ⟨⟨1, 2, 2⟩, sheetC, sheetC, rfl, local_last, rfl, rfl, by decide, by decide, rfl, rfl, by decide, by decide⟩

def fs : Nat → Option VExpr
  | 0 => some five
  | 1 => some yes
  | 2 => some which
  | _ => none

theorem stored : ∀ k x, fs k = some x → StoredAs names k x := by
  intro k x h
  match k, h with
  | 0, h => cases h; exact ⟨_, [], rfl, rfl, rfl, by rw [five_tokens]; rfl, by rw [five_tokens]; rfl⟩
  | 1, h => cases h; exact ⟨_, [], rfl, rfl, rfl, by rw [yes_tokens]; rfl, by rw [yes_tokens]; rfl⟩
  | 2, h => cases h; exact ⟨_, [], rfl, rfl, rfl, by rw [which_tokens]; rfl, by rw [which_tokens]; rfl⟩

theorem val0 : HasVal sums loc fs five (.num (.float (.fin (2 + 3)))) :=
  .arith .add _ _ _ _ _ _ rfl (.int 2) (.int 3) rfl rfl
theorem val1 : HasVal sums loc fs yes (.text "yes".toList) := by
  have h : HasVal sums loc fs (.bin .eq (.name .val 0) (.int 5)) (.bool (sums.compare .eq (.num (.float (.fin (2 + 3)))) (.num (.float (.fin (5 : Nat)))))) :=
    .compare .eq _ _ _ _ rfl (.name .val 0 five _ rfl val0) (.int 5) rfl rfl
  exact .ifTrue .val _ _ _ _ _ (.quiet [] _ _ _ h) (by simp [Value.truth, sums]; norm_num) (.text (txt "yes"))
theorem val2 : HasVal sums loc fs which (.areas [⟨1, 2, 4, 5, 2, 3⟩]) :=
  .choose .val _ _ _ _ 2 _ (.int 2) (by simp [Number.whole]) rfl (.cell 1 4 2 1 1 ref1)

theorem fine0 : Fine sums loc fs IsFunc five := .bin .add _ _ (.int 2 (by decide)) (.int 3 (by decide))
theorem fine1 : Fine sums loc fs IsFunc yes := by
  refine .varying .val 1 2 3 _ (by decide) ⟨"IF".toList, by decide +kernel⟩ (by simp) (by simp) ?_
  intro a h
  simp only [List.mem_cons, List.mem_nil_iff, or_false] at h
  rcases h with rfl | rfl | rfl
  · exact .quiet _ _ _ (by simp) (by simp [Quiet.Ok]) (.bin .eq _ _ (.name .val 0 five (by decide) rfl fine0) (.int 5 (by decide)))
  · exact .text _ (txt_ok _ (by decide +kernel)) (by decide +kernel)
  · exact .missing
theorem fine2 : Fine sums loc fs IsFunc which := by
  refine .varying .val 100 2 30 _ (by decide) ⟨"CHOOSE".toList, by decide +kernel⟩ (by simp) (by simp) ?_
  intro a h
  simp only [List.mem_cons, List.mem_nil_iff, or_false] at h
  rcases h with rfl | rfl | rfl
  · exact .int 2 (by decide)
  · exact .name .val 0 five (by decide) rfl fine0
  · exact .cell .ref 1 4 2 1 1 (by decide) ref1 (by decide) (by decide)

/-- The names have been evaluated: the second one is the text "yes", the third one is a cell of C. -/
example : ∃ b0 tbl, bookNames (nameEnv ops env b0) = .ok tbl ∧
    (∃ e o, tbl[1]? = some (some e) ∧ e.result = some o ∧ o.kind = .strg ∧ o.value = some (.str "yes".toList)) ∧
    ∃ e o, tbl[2]? = some (some e) ∧ e.result = some o ∧ Means o [⟨1, 2, 4, 5, 2, 3⟩] := by
  obtain ⟨b, p, h⟩ := load
  obtain ⟨b0, tbl, hb, ht⟩ := C70_names_evaluated ops env env_evaluates [9, 9] [7] [] (by decide) items ok b p h
  refine ⟨b0, tbl, ht, ?_, ?_⟩
  · obtain ⟨e, o, h1, h2, h3, _⟩ := C78_name_value_partial env rfl [9, 9] [7] [] (by decide) items ok _ sheets refs externs names namesOk b p h
      (nameEnv ops env b0) rfl hb sums pyCalc tbl ht fs stored 1 yes rfl fine1
    exact ⟨e, o, h1, h2, h3 _ val1⟩
  · obtain ⟨e, o, h1, h2, h3, _⟩ := C78_name_value_partial env rfl [9, 9] [7] [] (by decide) items ok _ sheets refs externs names namesOk b p h
      (nameEnv ops env b0) rfl hb sums pyCalc tbl ht fs stored 2 which rfl fine2
    exact ⟨e, o, h1, h2, h3 _ val2⟩

/-! ## Formulas for which C78 is false -/

/-- A book with one name. -/
def oneName (o : PyOps) (formula : Bytes) : FEnv := { ops := o, bv := 80, bk := { newBook with nameObjs := [named "n" formula] }, dec := fun _ => .ok [] }

/-- `=1/0` should be the error value #DIV/0!, but the workbook cannot be opened, whatever Python's arithmetic is apart from division by zero. -/
theorem C78_division_by_zero (o : PyOps) : bookNames (oneName o [0x1E, 1, 0, 0x1E, 0, 0, 0x06]) = .error .zeroDiv := by rfl

/-- `=1+ROW()`: a function with a variable number of arguments that has none takes everything from the stack, and the workbook cannot be opened. -/
theorem C78_no_arguments (o : PyOps) : bookNames (oneName o [0x1E, 1, 0, 0x42, 0, 8, 0, 0x03]) = .error .assertion := by rfl

/-- `=CHOOSE(SUM(1),2)`: a sum is a number without a value, which cannot be compared with 1. -/
theorem C78_choose_unknown (o : PyOps) : bookNames (oneName o [0x1E, 1, 0, 0x19, 0x10, 0, 0, 0x1E, 2, 0, 0x42, 2, 100, 0]) = .error .type := by rfl

/-- `=SUM({1})`: a constant array takes 8 bytes among the tokens, and the size in the table is 9. -/
theorem C78_array (o : PyOps) : bookNames (oneName o [0x60, 0, 0, 0, 0, 0, 0, 0, 0x42, 1, 4, 0]) = .error .formula := by rfl

/-- `=-#N/A` should be the error value, but it is a number (`neg` is Python's minus sign). -/
theorem C78_minus_error (o : PyOps) (neg : PVal → PVal) : ∃ e r, bookNames (oneName { o with neg := fun v => .ok (neg v) } [0x1C, 0x2A, 0x13]) = .ok [some e] ∧
    e.result = some r ∧ r.kind = .num ∧ r.value = some (neg (.int 42)) := ⟨_, _, rfl, rfl, rfl, rfl⟩

/-- `=+"12"` should be the number 12, but it is a number of which the value is a text. -/
theorem C78_plus_text (o : PyOps) : ∃ e r, bookNames (oneName o [0x17, 2, 0, 0x31, 0x32, 0x12]) = .ok [some e] ∧ e.result = some r ∧ r.kind = .num ∧
    r.value = some (.str "12".toList) := ⟨_, _, rfl, rfl, rfl, rfl⟩

end ExprSample
end Xlrd
