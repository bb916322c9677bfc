import Verif.Lemmas.FormatString

/-!
# C33: which number formats are date formats
-/
set_option linter.unusedSimpArgs false
namespace Xlrd
open Spec

/-- C33: every string can be read as a format string (literal text, bracketed sections, other characters),
so the theorem below speaks about all of them. -/
theorem C33_every_format_has_parts (fmt : PyStr) : ∃ f : FmtString, f.Ok ∧ f.text = fmt := reads_all fmt

/-- C33: a number format is a date format exactly if more of its active characters are date characters
than digit place holders.  Literal text and bracketed sections do not matter. -/
theorem C33_date_format (f : FmtString) (h : f.Ok) :
    isDateFormatString f.text = true ↔ (f.active.filter isDigitChar).length < (f.active.filter isDateChar).length := by
  rw [isDate_eq, decide_eq_true_eq,
    format_counts f h isDigitChar (fun c hc => (skip_not_date c hc).2) (fun c hc => hc.2),
    format_counts f h isDateChar (fun c hc => (skip_not_date c hc).1) (fun c hc => hc.1)]

/-- C33: two formats with the same active characters are classified alike, whatever quoted, escaped or
bracketed text they contain. -/
theorem C33_literal_text_ignored (f g : FmtString) (hf : f.Ok) (hg : g.Ok) (h : f.active = g.active) :
    isDateFormatString f.text = isDateFormatString g.text := by
  rw [Bool.eq_iff_iff, C33_date_format f hf, C33_date_format g hg, h]

/-- C33: without date characters outside the literal text and brackets a format is never a date format. -/
theorem C33_no_date_characters (f : FmtString) (h : f.Ok) (hd : ∀ c ∈ f.active, isDateChar c = false) :
    isDateFormatString f.text = false := by
  have : f.active.filter isDateChar = [] := by rw [List.filter_eq_nil_iff]; intro c hc; simp [hd c hc]
  rw [← Bool.not_eq_true, C33_date_format f h, this]
  simp

theorem sameLetter_cases {a b : Char} (h : sameLetter a b) (l : List Char)
    (hl : ∀ c ∈ l, ¬ (65 ≤ c.toNat ∧ c.toNat ≤ 90) ∧ ¬ (97 ≤ c.toNat ∧ c.toNat ≤ 122)) : a ∈ l ↔ b ∈ l := by
  rcases h with rfl | ⟨h1, h2, h3⟩ | ⟨h1, h2, h3⟩
  · rfl
  · constructor
    · intro ha; exact absurd ⟨h2, h3⟩ (hl a ha).1
    · intro hb; exact absurd ⟨by omega, by omega⟩ (hl b hb).2
  · constructor
    · intro ha; exact absurd ⟨by omega, by omega⟩ (hl a ha).2
    · intro hb; exact absurd ⟨h2, h3⟩ (hl b hb).1

theorem sameLetter_eq {a b c : Char} (h : sameLetter a b)
    (hl : ¬ (65 ≤ c.toNat ∧ c.toNat ≤ 90) ∧ ¬ (97 ≤ c.toNat ∧ c.toNat ≤ 122)) : a = c ↔ b = c := by
  have := sameLetter_cases h [c] (by simpa using hl)
  simpa using this

theorem sameLetter_date {a b : Char} (h : sameLetter a b) : isDateChar a = isDateChar b := by
  have key : ∀ a b : Char, a.toNat + 32 = b.toNat → 65 ≤ a.toNat → a.toNat ≤ 90 → isDateChar a = isDateChar b := by
    intro a b h1 h2 h3
    have ea : a = Char.ofNat a.toNat := (Char.ofNat_toNat a).symm
    have eb : b = Char.ofNat (a.toNat + 32) := by rw [h1]; exact (Char.ofNat_toNat b).symm
    rw [ea, eb]
    generalize a.toNat = n at *
    have : ∀ n : Nat, n < 91 → 65 ≤ n → isDateChar (Char.ofNat n) = isDateChar (Char.ofNat (n + 32)) := by decide +kernel
    exact this n (by omega) h2
  rcases h with rfl | ⟨h1, h2, h3⟩ | ⟨h1, h2, h3⟩
  · rfl
  · exact key a b h1 h2 h3
  · exact (key b a h1 h2 h3).symm

theorem sameLetter_digit {a b : Char} (h : sameLetter a b) : isDigitChar a = isDigitChar b := by
  have := sameLetter_cases h ['0', '#', '?'] (by decide)
  unfold isDigitChar
  simp only [this]

theorem scan_case {s t : PyStr} (h : List.Forall₂ sameLetter s t) : ∀ n : Nat, List.Forall₂ sameLetter (fmtScan n s) (fmtScan n t) := by
  induction h with
  | nil => intro n; cases n <;> exact .nil
  | @cons a b s t hab hst ih =>
    intro n
    have hq := sameLetter_eq (c := '"') hab (by decide)
    have hm := sameLetter_cases hab ['\\', '_', '*'] (by decide)
    have hs := sameLetter_cases hab skipChars (by decide)
    match n with
    | 0 =>
      simp only [fmtScan, hq, hm, hs]
      split_ifs
      · exact ih 1
      · exact ih 2
      · exact ih 0
      · exact .cons hab (ih 0)
    | 1 =>
      simp only [fmtScan, hq]
      split_ifs
      · exact ih 0
      · exact ih 1
    | n + 2 => simp only [fmtScan]; exact ih 0

theorem dropWhile_case {s t : PyStr} (h : List.Forall₂ sameLetter s t) :
    List.Forall₂ sameLetter (s.dropWhile fun x => decide (x ≠ ']')) (t.dropWhile fun x => decide (x ≠ ']')) := by
  induction h with
  | nil => exact .nil
  | @cons a b s t hab hst ih =>
    have hc := sameLetter_eq (c := ']') hab (by decide)
    by_cases e : a = ']'
    · have e' := hc.mp e
      rw [List.dropWhile_cons_of_neg (by simp [e]), List.dropWhile_cons_of_neg (by simp [e'])]
      exact .cons hab hst
    · have e' : b ≠ ']' := fun h => e (hc.mpr h)
      rw [List.dropWhile_cons_of_pos (by simp [e]), List.dropWhile_cons_of_pos (by simp [e'])]
      exact ih

theorem subBrackets_case (n : Nat) : ∀ {s t : PyStr}, s.length ≤ n → List.Forall₂ sameLetter s t →
    List.Forall₂ sameLetter (subBrackets s) (subBrackets t) := by
  induction n with
  | zero =>
    intro s t hs h
    cases h with
    | nil => rw [subBrackets_nil]; exact .nil
    | cons => simp at hs
  | succ n ih =>
    intro s t hs h
    cases h with
    | nil => rw [subBrackets_nil]; exact .nil
    | @cons a b s t hab hst =>
      simp only [List.length_cons] at hs
      have hc := sameLetter_eq (c := '[') hab (by decide)
      by_cases e : a = '['
      · have e' := hc.mp e
        subst e; subst e'
        have hd := dropWhile_case hst
        rw [subBrackets, subBrackets, if_pos rfl, if_pos rfl]
        have hl := (List.dropWhile_suffix (l := s) fun x => decide (x ≠ ']')).length_le
        split <;> split
        · rename_i x r1 e1 y r2 e2
          rw [e1, e2] at hd
          cases hd with
          | cons h1 h2 =>
            rw [e1] at hl
            simp only [List.length_cons] at hl
            exact ih (by omega) h2
        · rename_i x r1 e1 e2
          rw [e1, e2] at hd
          cases hd
        · rename_i e1 y r2 e2
          rw [e1, e2] at hd
          cases hd
        · exact .cons hab (ih (by omega) hst)
      · have e' : b ≠ '[' := fun h => e (hc.mpr h)
        rw [subBrackets_plain e, subBrackets_plain e']
        exact .cons hab (ih (by omega) hst)

theorem count_case (p : Char → Bool) (hp : ∀ a b, sameLetter a b → p a = p b) {s t : PyStr} (h : List.Forall₂ sameLetter s t) :
    (s.filter p).length = (t.filter p).length := by
  induction h with
  | nil => rfl
  | @cons a b s t hab hst ih =>
    rw [List.filter_cons, List.filter_cons, hp a b hab]
    split_ifs <;> simp [ih]

/-- C33: changing the case of letters anywhere in a format does not change its classification. -/
theorem C33_case_ignored (s t : PyStr) (h : List.Forall₂ sameLetter s t) : isDateFormatString s = isDateFormatString t := by
  rw [isDate_eq, isDate_eq]
  have h1 := subBrackets_case _ le_rfl (scan_case h 0)
  rw [count_case isDateChar (fun _ _ => sameLetter_date) h1, count_case isDigitChar (fun _ _ => sameLetter_digit) h1]

/-- `yyyy"day 1"\h[Red]` is a format string with active characters `yyyy`, and a date format. -/
example : let f : FmtString := ⟨[.part (.plain 'y'), .part (.plain 'y'), .part (.quoted ['d', '0']), .part (.escaped '\\' 'h'),
      .bracket [.plain 'R', .plain 'e', .plain 'd']], none, .none⟩
    f.Ok ∧ f.active = ['y', 'y'] ∧ isDateFormatString f.text = true := by
  refine ⟨⟨?_, ?_, ?_⟩, rfl, by decide +kernel⟩
  · intro t ht
    simp only [List.mem_cons, List.not_mem_nil, or_false] at ht
    rcases ht with rfl | rfl | rfl | rfl | rfl
    · exact ⟨by simp only [FPart.Ok]; decide, by decide⟩
    · exact ⟨by simp only [FPart.Ok]; decide, by decide⟩
    · exact ⟨by simp only [FPart.Ok]; decide, by decide⟩
    · exact ⟨by simp only [FPart.Ok]; decide, by decide⟩
    · intro p hp
      simp only [List.mem_cons, List.not_mem_nil, or_false] at hp
      rcases hp with rfl | rfl | rfl <;> exact ⟨by simp only [FPart.Ok]; decide, by decide⟩
  · simp
  · trivial

example : isDateFormatString "0.00\"days\"".toList = false ∧ isDateFormatString "[h]:mm:ss".toList = true := by decide +kernel

end Xlrd
