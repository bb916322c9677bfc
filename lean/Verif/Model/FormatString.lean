import Verif.Model.Py

/-!
# Number format strings: `xlrd/formatting.py` 430-523
-/
namespace Xlrd

/-- formatting.py 430-434: `date_char_dict` (every weight is 5) -/
def dateChars : List Char := ['y', 'm', 'd', 'h', 's', 'Y', 'M', 'D', 'H', 'S']

/-- formatting.py 436-438: `skip_char_dict` -/
def skipChars : List Char := ['$', '-', '+', '/', '(', ')', ':', ' ']

/-- formatting.py 440-444: `num_char_dict` (every weight is 5) -/
def numChars : List Char := ['0', '#', '?']

/-- formatting.py 446-453 -/
def nonDateFormats : List PyStr :=
  [['0', '.', '0', '0', 'E', '+', '0', '0'], ['#', '#', '0', '.', '0', 'E', '+', '0'], ['G', 'e', 'n', 'e', 'r', 'a', 'l'],
   ['G', 'E', 'N', 'E', 'R', 'A', 'L'], ['g', 'e', 'n', 'e', 'r', 'a', 'l'], ['@']]

/-- formatting.py 474-492: the characters collected in `s`, from `state` on. -/
def fmtScan : Nat → PyStr → PyStr
  | _, [] => []
  | 0, c :: cs =>
    if c = '"' then fmtScan 1 cs
    else if c ∈ ['\\', '_', '*'] then fmtScan 2 cs
    else if c ∈ skipChars then fmtScan 0 cs
    else c :: fmtScan 0 cs
  | 1, c :: cs => if c = '"' then fmtScan 0 cs else fmtScan 1 cs
  | _ + 2, _ :: cs => fmtScan 0 cs

/-- formatting.py 455, 495: `re.compile(r'\[[^]]*\]').sub('', s)`: leftmost matches, each from a `[` to the
first `]` after it. -/
def subBrackets (s : PyStr) : PyStr :=
  match s with
  | [] => []
  | c :: cs =>
    if c = '[' then
      match h : cs.dropWhile (fun x => decide (x ≠ ']')) with
      | _ :: rest => subBrackets rest
      | [] => c :: subBrackets cs
    else c :: subBrackets cs
termination_by s.length
decreasing_by
  all_goals simp_wf
  · have := (List.dropWhile_suffix (l := cs) fun x => decide (x ≠ ']')).length_le
    rw [h] at this
    simp at this
    omega

/-- formatting.py 502-508: the two counts. -/
def fmtCounts : PyStr → Nat × Nat
  | [] => (0, 0)
  | c :: cs =>
    let (d, n) := fmtCounts cs
    if c ∈ dateChars then (d + 5, n) else if c ∈ numChars then (d, n + 5) else (d, n)

/-- formatting.py 462-523 `is_date_format_string` (the warnings are left out, and with them `got_sep`). -/
def isDateFormatString (fmt : PyStr) : Bool :=
  let s := subBrackets (fmtScan 0 fmt)
  if s ∈ nonDateFormats then false
  else
    let (d, n) := fmtCounts s
    if d ≠ 0 ∧ n = 0 then true
    else if n ≠ 0 ∧ d = 0 then false
    else decide (d > n)

end Xlrd
