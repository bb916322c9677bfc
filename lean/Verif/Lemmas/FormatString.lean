import Verif.Model.FormatString
import Verif.Spec.FormatString
import Mathlib.Tactic.FinCases
import Mathlib.Order.Basic
import Mathlib.Data.List.DropRight
import Mathlib.Data.List.Basic

/-!
# Number format strings
-/
set_option linter.unusedSimpArgs false
namespace Xlrd
open Spec

theorem subBrackets_nil : subBrackets [] = [] := by rw [subBrackets]

theorem subBrackets_plain {c : Char} (h : c ≠ '[') (cs : PyStr) : subBrackets (c :: cs) = c :: subBrackets cs := by
  rw [subBrackets, if_neg h]

theorem dropWhile_close (a b : PyStr) (h : ']' ∉ a) : (a ++ ']' :: b).dropWhile (fun x => decide (x ≠ ']')) = ']' :: b := by
  induction a with
  | nil => simp
  | cons x xs ih =>
    rw [List.mem_cons, not_or] at h
    rw [List.cons_append, List.dropWhile_cons_of_pos (by simpa using Ne.symm h.1), ih h.2]

theorem dropWhile_none (a : PyStr) (h : ']' ∉ a) : a.dropWhile (fun x => decide (x ≠ ']')) = [] := by
  induction a with
  | nil => rfl
  | cons x xs ih =>
    rw [List.mem_cons, not_or] at h
    rw [List.dropWhile_cons_of_pos (by simpa using Ne.symm h.1), ih h.2]

theorem subBrackets_bracket (a b : PyStr) (h : ']' ∉ a) : subBrackets ('[' :: (a ++ ']' :: b)) = subBrackets b := by
  rw [subBrackets, if_pos rfl]
  split
  · rename_i e
    rw [dropWhile_close a b h] at e
    simp only [List.cons.injEq] at e
    rw [e.2]
  · rename_i e
    rw [dropWhile_close a b h] at e
    cases e

theorem subBrackets_open (a : PyStr) (h : ']' ∉ a) : subBrackets a = a := by
  induction a with
  | nil => exact subBrackets_nil
  | cons c cs ih =>
    rw [List.mem_cons, not_or] at h
    by_cases hc : c = '['
    · subst hc
      rw [subBrackets, if_pos rfl]
      split
      · rename_i e
        rw [dropWhile_none cs h.2] at e
        cases e
      · rw [ih h.2]
    · rw [subBrackets_plain hc, ih h.2]

/-! ## The scan -/

/-- What the scan leaves of a part. -/
def FPart.scan : FPart → PyStr
  | .plain c => if c ∈ skipChars then [] else [c]
  | _ => []

theorem scan_quoted (s rest : PyStr) (h : '"' ∉ s) : fmtScan 1 (s ++ '"' :: rest) = fmtScan 0 rest := by
  induction s with
  | nil => simp [fmtScan]
  | cons c cs ih =>
    rw [List.mem_cons, not_or] at h
    simp only [List.cons_append, fmtScan]
    rw [if_neg (Ne.symm h.1), ih h.2]

theorem scan_part (p : FPart) (hp : p.Ok) (rest : PyStr) : fmtScan 0 (p.text ++ rest) = FPart.scan p ++ fmtScan 0 rest := by
  cases p with
  | quoted s =>
    simp only [FPart.text, FPart.scan, List.cons_append, List.nil_append, List.append_assoc, fmtScan, if_true]
    exact scan_quoted s rest hp
  | escaped e c =>
    simp only [FPart.text, FPart.scan, List.cons_append, List.nil_append, fmtScan]
    have h1 : e ≠ '"' := by rcases hp with rfl | rfl | rfl <;> decide
    have h2 : e ∈ ['\\', '_', '*'] := by rcases hp with rfl | rfl | rfl <;> decide
    rw [if_neg h1, if_pos h2]
  | plain c =>
    simp only [FPart.Ok, isMark, not_or] at hp
    simp only [FPart.text, FPart.scan, List.cons_append, List.nil_append, fmtScan]
    rw [if_neg hp.1, if_neg (by simp [hp.2])]
    split_ifs <;> rfl

theorem scan_parts (ps : List FPart) (h : ∀ p ∈ ps, p.Ok) (rest : PyStr) :
    fmtScan 0 (ps.flatMap FPart.text ++ rest) = ps.flatMap FPart.scan ++ fmtScan 0 rest := by
  induction ps with
  | nil => rfl
  | cons p ps ih =>
    rw [List.flatMap_cons, List.append_assoc, scan_part p (h p (List.mem_cons_self ..)), ih fun q hq => h q (List.mem_cons_of_mem _ hq),
      List.flatMap_cons, List.append_assoc]

/-- What the scan leaves of a token. -/
def FTok.scan : FTok → PyStr
  | .part p => FPart.scan p
  | .bracket ps => '[' :: ps.flatMap FPart.scan ++ [']']

theorem scan_char (c : Char) (h : ¬ isMark c) (hs : c ∉ skipChars) (rest : PyStr) : fmtScan 0 (c :: rest) = c :: fmtScan 0 rest := by
  have := scan_part (.plain c) h rest
  simpa [FPart.text, FPart.scan, hs] using this

theorem scan_tok (t : FTok) (ht : t.Ok) (rest : PyStr) : fmtScan 0 (t.text ++ rest) = FTok.scan t ++ fmtScan 0 rest := by
  cases t with
  | part p => exact scan_part p ht.1 rest
  | bracket ps =>
    simp only [FTok.text, FTok.scan, List.cons_append, List.nil_append, List.append_assoc]
    rw [scan_char '[' (by decide) (by decide), scan_parts ps fun p hp => (ht p hp).1]
    rw [scan_char ']' (by decide) (by decide)]

theorem scan_toks (ts : List FTok) (h : ∀ t ∈ ts, t.Ok) (rest : PyStr) :
    fmtScan 0 (ts.flatMap FTok.text ++ rest) = ts.flatMap FTok.scan ++ fmtScan 0 rest := by
  induction ts with
  | nil => rfl
  | cons t ts ih =>
    rw [List.flatMap_cons, List.append_assoc, scan_tok t (h t (List.mem_cons_self ..)), ih fun q hq => h q (List.mem_cons_of_mem _ hq),
      List.flatMap_cons, List.append_assoc]

theorem scan_one (s : PyStr) (h : '"' ∉ s) : fmtScan 1 s = [] := by
  induction s with
  | nil => rfl
  | cons c cs ih =>
    rw [List.mem_cons, not_or] at h
    simp only [fmtScan]
    rw [if_neg (Ne.symm h.1), ih h.2]

theorem scan_end (e : FEnd) (h : e.Ok) : fmtScan 0 e.text = [] := by
  cases e with
  | none => rfl
  | quote s => simp only [FEnd.text, fmtScan, if_true]; exact scan_one s h
  | escape e =>
    have h1 : e ≠ '"' := by rcases h with rfl | rfl | rfl <;> decide
    have h2 : e ∈ ['\\', '_', '*'] := by rcases h with rfl | rfl | rfl <;> decide
    simp only [FEnd.text, fmtScan]
    rw [if_neg h1, if_pos h2]

/-! ## Brackets -/

theorem part_no_close (p : FPart) (h : p.text ≠ [']']) : ']' ∉ FPart.scan p := by
  cases p with
  | plain c =>
    simp only [FPart.text, ne_eq, List.cons.injEq, and_true] at h
    simp only [FPart.scan]
    split_ifs
    · simp
    · simp [Ne.symm h]
  | _ => simp [FPart.scan]

theorem parts_no_close (ps : List FPart) (h : ∀ p ∈ ps, p.text ≠ [']']) : ']' ∉ ps.flatMap FPart.scan := by
  intro hm
  obtain ⟨p, hp, hm⟩ := List.mem_flatMap.mp hm
  exact part_no_close p (h p hp) hm

/-- What the brackets leave of a token. -/
def FTok.kept : FTok → PyStr
  | .part p => FPart.scan p
  | .bracket _ => []

theorem subBrackets_toks (ts : List FTok) (h : ∀ t ∈ ts, t.Ok) (rest : PyStr) :
    subBrackets (ts.flatMap FTok.scan ++ rest) = ts.flatMap FTok.kept ++ subBrackets rest := by
  induction ts with
  | nil => rfl
  | cons t ts ih =>
    have ih := ih fun q hq => h q (List.mem_cons_of_mem _ hq)
    have ht := h t (List.mem_cons_self ..)
    rw [List.flatMap_cons, List.flatMap_cons, List.append_assoc, List.append_assoc]
    cases t with
    | part p =>
      simp only [FTok.scan, FTok.kept]
      cases p with
      | plain c =>
        simp only [FPart.scan]
        split_ifs
        · exact ih
        · have hc : c ≠ '[' := by
            rintro rfl
            exact ht.2 rfl
          simp only [List.cons_append, List.nil_append]
          rw [subBrackets_plain hc, ih]
      | _ => exact ih
    | bracket ps =>
      simp only [FTok.scan, FTok.kept, List.cons_append, List.append_assoc, List.nil_append]
      rw [subBrackets_bracket _ _ (parts_no_close ps fun p hp => (ht p hp).2), ih]

/-- The significant characters without those the library skips. -/
theorem scan_format (f : FmtString) (h : f.Ok) :
    ∃ extra : PyStr, (∀ c ∈ extra, isDateChar c = false ∧ isDigitChar c = false) ∧
      subBrackets (fmtScan 0 f.text) = (f.active.filter (· ∉ skipChars)).take (f.toks.flatMap FTok.kept).length ++ extra ++
        (f.active.filter (· ∉ skipChars)).drop (f.toks.flatMap FTok.kept).length := by
  obtain ⟨h1, h2, h3⟩ := h
  have keptp : ∀ ps : List FPart, ps.flatMap FPart.scan = (ps.filterMap FPart.char?).filter (· ∉ skipChars) := by
    intro ps
    induction ps with
    | nil => rfl
    | cons p ps ih =>
      rw [List.flatMap_cons, ih]
      cases p with
      | plain c =>
        simp only [FPart.scan, FPart.char?, List.filterMap_cons, List.filter_cons]
        split_ifs with a b <;> simp_all
      | _ => simp [FPart.scan, FPart.char?, List.filterMap_cons]
  have keptt : f.toks.flatMap FTok.kept = (f.toks.filterMap FTok.char?).filter (· ∉ skipChars) := by
    clear h1
    induction f.toks with
    | nil => rfl
    | cons t ts ih =>
      rw [List.flatMap_cons, ih]
      cases t with
      | part p =>
        cases p with
        | plain c =>
          simp only [FTok.kept, FTok.char?, FPart.char?, FPart.scan, List.filterMap_cons, List.filter_cons]
          split_ifs with a b <;> simp_all
        | _ => simp [FTok.kept, FPart.scan, FTok.char?, FPart.char?, List.filterMap_cons]
      | bracket ps => simp [FTok.kept, FTok.char?, List.filterMap_cons]
  unfold FmtString.text FmtString.active
  rw [List.append_assoc, scan_toks _ h1, List.filter_append, ← keptt]
  cases ho : f.opened with
  | none =>
    refine ⟨[], by simp, ?_⟩
    simp only [List.nil_append]
    rw [scan_end _ h3, subBrackets_toks _ h1]
    simp [subBrackets_nil]
  | some ps =>
    have h2 := h2 ps ho
    refine ⟨['['], by decide, ?_⟩
    simp only [List.cons_append]
    rw [scan_char '[' (by decide) (by decide), scan_parts ps fun p hp => (h2 p hp).1, scan_end _ h3, List.append_nil,
      subBrackets_toks _ h1, subBrackets_open, keptp]
    · simp
    · have := parts_no_close ps fun p hp => (h2 p hp).2
      simp [this]

/-! ## Counting -/

theorem fmtCounts_eq (s : PyStr) : fmtCounts s = (5 * (s.filter isDateChar).length, 5 * (s.filter isDigitChar).length) := by
  induction s with
  | nil => rfl
  | cons c cs ih =>
    have hd : (c ∈ dateChars) ↔ isDateChar c = true := by simp [dateChars, isDateChar]
    have hn : (c ∈ numChars) ↔ isDigitChar c = true := by simp [numChars, isDigitChar]
    simp only [fmtCounts, ih, List.filter_cons]
    by_cases h1 : isDateChar c = true
    · have h2 : isDigitChar c = false := by
        simp only [isDateChar, decide_eq_true_eq] at h1
        fin_cases h1 <;> decide
      rw [if_pos (hd.mpr h1), if_pos h1, if_neg (by simp [h2])]
      simp; omega
    · rw [if_neg (fun h => h1 (hd.mp h)), if_neg h1]
      by_cases h2 : isDigitChar c = true
      · rw [if_pos (hn.mpr h2), if_pos h2]
        simp; omega
      · rw [if_neg (fun h => h2 (hn.mp h)), if_neg h2]

theorem nonDate_no_date : ∀ s ∈ nonDateFormats, (s.filter isDateChar).length = 0 := by decide

/-- The decision in one line: more date characters than digit place holders. -/
theorem isDate_eq (fmt : PyStr) :
    isDateFormatString fmt = decide (((subBrackets (fmtScan 0 fmt)).filter isDigitChar).length < ((subBrackets (fmtScan 0 fmt)).filter isDateChar).length) := by
  unfold isDateFormatString
  simp only [fmtCounts_eq]
  generalize subBrackets (fmtScan 0 fmt) = s
  by_cases h : s ∈ nonDateFormats
  · rw [if_pos h]
    have := nonDate_no_date s h
    simp [this]
  · rw [if_neg h]
    generalize (s.filter isDateChar).length = d
    generalize (s.filter isDigitChar).length = n
    split_ifs with h1 h2
    · symm; simp; omega
    · symm; simp; omega
    · by_cases hh : n < d
      · simp [hh]
      · simp [hh]; try omega

theorem skip_not_date : ∀ c ∈ skipChars, isDateChar c = false ∧ isDigitChar c = false := by decide

theorem filter_skip (p : Char → Bool) (hp : ∀ c ∈ skipChars, p c = false) (s : PyStr) : (s.filter (· ∉ skipChars)).filter p = s.filter p := by
  rw [List.filter_filter]
  congr 1
  funext c
  by_cases hc : c ∈ skipChars
  · simp [hp c hc]
  · simp [hc]

theorem format_counts (f : FmtString) (h : f.Ok) (p : Char → Bool) (hp : ∀ c ∈ skipChars, p c = false)
    (hx : ∀ c, isDateChar c = false ∧ isDigitChar c = false → p c = false) :
    ((subBrackets (fmtScan 0 f.text)).filter p).length = (f.active.filter p).length := by
  obtain ⟨extra, he, hs⟩ := scan_format f h
  rw [hs, List.filter_append, List.filter_append]
  have : extra.filter p = [] := by
    rw [List.filter_eq_nil_iff]
    intro c hc; simp [hx c (he c hc)]
  rw [this, List.append_nil, ← List.filter_append, List.take_append_drop, filter_skip p hp]

/-! ## Reading a format string -/

def ReadsAs (s : PyStr) : Prop := ∃ f : FmtString, f.Ok ∧ f.text = s

/-- Split at the first quote. -/
theorem split_at (x : Char) (s : PyStr) : x ∉ s ∨ ∃ a b, x ∉ a ∧ s = a ++ x :: b := by
  induction s with
  | nil => left; simp
  | cons c cs ih =>
    by_cases h : c = x
    · right; exact ⟨[], cs, by simp, by simp [h]⟩
    · rcases ih with ih | ⟨a, b, ha, hb⟩
      · left; simp [ih, Ne.symm h]
      · right; exact ⟨c :: a, b, by simp [ha, Ne.symm h], by simp [hb]⟩

/-- Every string is a list of parts and an end. -/
theorem reads_parts (n : Nat) : ∀ (s : PyStr), s.length ≤ n → ∃ (ps : List FPart) (e : FEnd), (∀ p ∈ ps, p.Ok) ∧ e.Ok ∧
    s = ps.flatMap FPart.text ++ e.text := by
  induction n with
  | zero =>
    intro s hs
    have : s = [] := List.length_eq_zero_iff.mp (by omega)
    subst this
    exact ⟨[], .none, by simp, trivial, rfl⟩
  | succ n ih =>
    intro s hs
    cases s with
    | nil => exact ⟨[], .none, by simp, trivial, rfl⟩
    | cons c cs =>
      simp only [List.length_cons] at hs
      by_cases hq : c = '"'
      · subst hq
        rcases split_at '"' cs with h | ⟨a, b, ha, rfl⟩
        · exact ⟨[], .quote cs, by simp, h, rfl⟩
        · obtain ⟨ps, e, h1, h2, h3⟩ := ih b (by simp at hs; omega)
          refine ⟨.quoted a :: ps, e, ?_, h2, ?_⟩
          · intro p hp
            rcases List.mem_cons.mp hp with rfl | hp
            · exact ha
            · exact h1 p hp
          · rw [h3]; simp [FPart.text]
      · by_cases he : c = '\\' ∨ c = '_' ∨ c = '*'
        · cases cs with
          | nil => exact ⟨[], .escape c, by simp, he, rfl⟩
          | cons d ds =>
            obtain ⟨ps, e, h1, h2, h3⟩ := ih ds (by simp at hs; omega)
            refine ⟨.escaped c d :: ps, e, ?_, h2, ?_⟩
            · intro p hp
              rcases List.mem_cons.mp hp with rfl | hp
              · exact he
              · exact h1 p hp
            · rw [h3]; simp [FPart.text]
        · obtain ⟨ps, e, h1, h2, h3⟩ := ih cs (by omega)
          refine ⟨.plain c :: ps, e, ?_, h2, ?_⟩
          · intro p hp
            rcases List.mem_cons.mp hp with rfl | hp
            · rintro (h | h)
              · exact hq h
              · exact he h
            · exact h1 p hp
          · rw [h3]; simp [FPart.text]

instance (p : FPart) : Decidable (p.text = [']']) := by infer_instance

/-- Split a list at the first closing bracket. -/
theorem split_close (ps : List FPart) : (∀ p ∈ ps, p.text ≠ [']']) ∨
    ∃ a b, (∀ p ∈ a, p.text ≠ [']']) ∧ ps = a ++ .plain ']' :: b := by
  induction ps with
  | nil => left; simp
  | cons p ps ih =>
    by_cases h : p.text = [']']
    · right
      cases p with
      | plain c =>
        simp only [FPart.text, List.cons.injEq, and_true] at h
        subst h
        exact ⟨[], ps, by simp, rfl⟩
      | quoted s => simp [FPart.text] at h
      | escaped e c => simp [FPart.text] at h
    · rcases ih with ih | ⟨a, b, ha, rfl⟩
      · left
        intro q hq
        rcases List.mem_cons.mp hq with rfl | hq
        · exact h
        · exact ih q hq
      · right
        refine ⟨p :: a, b, ?_, rfl⟩
        intro q hq
        rcases List.mem_cons.mp hq with rfl | hq
        · exact h
        · exact ha q hq

theorem reads_toks (n : Nat) : ∀ (ps : List FPart), ps.length ≤ n → (∀ p ∈ ps, p.Ok) →
    ∃ (ts : List FTok) (o : Option (List FPart)), (∀ t ∈ ts, t.Ok) ∧ (∀ qs, o = some qs → ∀ p ∈ qs, p.Ok ∧ p.text ≠ [']']) ∧
      ps.flatMap FPart.text = ts.flatMap FTok.text ++ (match o with | some ps => '[' :: ps.flatMap FPart.text | none => []) := by
  induction n with
  | zero =>
    intro ps hp _
    have : ps = [] := List.length_eq_zero_iff.mp (by omega)
    subst this
    exact ⟨[], none, by simp, by simp, rfl⟩
  | succ n ih =>
    intro ps hl hok
    cases ps with
    | nil => exact ⟨[], none, by simp, by simp, rfl⟩
    | cons p ps =>
      simp only [List.length_cons] at hl
      have hok' : ∀ q ∈ ps, q.Ok := fun q hq => hok q (List.mem_cons_of_mem _ hq)
      by_cases hb : p.text = ['[']
      · rcases split_close ps with h | ⟨a, b, ha, rfl⟩
        · refine ⟨[], some ps, by simp, ?_, ?_⟩
          · intro qs hq
            cases hq
            exact fun q hq => ⟨hok' q hq, h q hq⟩
          · simp [hb]
        · obtain ⟨ts, o, h1, h2, h3⟩ := ih b (by simp at hl; omega) fun q hq => hok' q (by simp [hq])
          refine ⟨.bracket a :: ts, o, ?_, h2, ?_⟩
          · intro t ht
            rcases List.mem_cons.mp ht with rfl | ht
            · exact fun q hq => ⟨hok' q (by simp [hq]), ha q hq⟩
            · exact h1 t ht
          · have h4 : FPart.text (.plain ']') = [']'] := rfl
            rw [List.flatMap_cons, hb, List.flatMap_append, List.flatMap_cons, h4, h3]
            simp [FTok.text]
      · obtain ⟨ts, o, h1, h2, h3⟩ := ih ps (by omega) hok'
        refine ⟨.part p :: ts, o, ?_, h2, ?_⟩
        · intro t ht
          rcases List.mem_cons.mp ht with rfl | ht
          · exact ⟨hok p (List.mem_cons_self ..), hb⟩
          · exact h1 t ht
        · simp [h3, FTok.text]

theorem reads_all (s : PyStr) : ReadsAs s := by
  obtain ⟨ps, e, h1, h2, h3⟩ := reads_parts s.length s le_rfl
  obtain ⟨ts, o, h4, h5, h6⟩ := reads_toks ps.length ps le_rfl h1
  exact ⟨⟨ts, o, e⟩, ⟨h4, h5, h2⟩, by rw [h3, h6]; rfl⟩

end Xlrd
