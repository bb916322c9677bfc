import Verif.Lemmas.OldFrame
import Verif.Lemmas.GlobalsLoop
import Verif.Lemmas.SheetLayout

/-!
# Worksheet records in the sheet of an old file

On the records that files of all versions have in common, the record loop of an old file does what that of a worksheet does.
-/
set_option linter.unusedSimpArgs false
namespace Xlrd
open Spec

theorem derive_some {env : BookEnv} (h8 : env.bv < 80) {b b' : Book} (h : deriveEncoding env b = .ok b') : b'.encoding.isSome := by
  rw [(derive_eq h).1]
  unfold chooseEncoding
  by_cases h1 : env.override ≠ []
  · rw [if_pos h1]; rfl
  rw [if_neg h1]
  cases b.codepage with
  | none => simp only [if_pos h8]; rfl
  | some cp => rfl

theorem ensure_some {env : BookEnv} (h8 : env.bv < 80) {b b' : Book} (h : ensureEncoding env b = .ok b') : b'.encoding.isSome := by
  unfold ensureEncoding at h
  cases hb : b.encoding with
  | none => rw [hb] at h; exact derive_some h8 h
  | some e => rw [hb] at h; cases h; rw [hb]; rfl

theorem ensure_again {env : BookEnv} {b : Book} (h : b.encoding.isSome) : ensureEncoding env b = .ok b := by
  unfold ensureEncoding
  cases hb : b.encoding with
  | none => rw [hb] at h; cases h
  | some e => rfl

/-- The decoder for texts of a file before BIFF8. -/
def textDec (env : OpenEnv) (bv : Nat) (b : Book) (x : Bytes) : R PyStr :=
  match b.encoding with
  | some e => env.codec e x
  | none => libDec env (chooseEncoding (env.recEnv bv) b) x

/-- What a sheet takes from the book, the encoding being determined if need be. -/
def readEnv (env : OpenEnv) (bv : Nat) (b : Book) : SheetEnv := { env.sheetEnv bv b with dec := textDec env bv b }

/-- The book as it is, or with the encoding determined. -/
def InText (env : OpenEnv) (bv : Nat) (b b' : Book) : Prop := b' = b ∨ ensureEncoding (env.recEnv bv) b = .ok b'

theorem InText.ensure {env : OpenEnv} {bv : Nat} (h8 : bv < 80) {b b' b'' : Book} (h : InText env bv b b')
    (he : ensureEncoding (env.recEnv bv) b' = .ok b'') : ensureEncoding (env.recEnv bv) b = .ok b'' := by
  rcases h with rfl | h
  · exact he
  · rw [ensure_again (ensure_some (env := env.recEnv bv) h8 h)] at he
    cases he; exact h

theorem InText.same {env : OpenEnv} {bv : Nat} {b b' : Book} (h : InText env bv b b') : ∃ e c u r, b' = { b with encoding := e, codepage := c, userName := u, rawUser := r } := by
  rcases h with rfl | h
  · exact ⟨_, _, _, _, rfl⟩
  · exact ensure_frame h

/-- The two environments differ in the decoder only. -/
theorem InText.env {env : OpenEnv} {bv : Nat} {b b' : Book} (h : InText env bv b b') :
    env.sheetEnv bv b' = { readEnv env bv b with dec := libDec env b' } := by
  obtain ⟨e, c, u, r, rfl⟩ := h.same
  rfl

theorem ensured_env {env : OpenEnv} {bv : Nat} {b b' : Book} (h : ensureEncoding (env.recEnv bv) b = .ok b') :
    env.sheetEnv bv b' = readEnv env bv b := by
  rw [InText.env (.inr h)]
  have : libDec env b' = textDec env bv b := by
    funext x
    unfold textDec
    unfold ensureEncoding at h
    cases hb : b.encoding with
    | none => rw [hb] at h; unfold libDec; rw [(derive_eq h).1]
    | some e => rw [hb] at h; cases h; unfold libDec; rw [hb]
  rw [this]; rfl

/-! ## Records without text -/

theorem mulRk_dec (env : SheetEnv) (d : Bytes → R PyStr) (data : Bytes) (r : Nat) : ∀ (n c : Nat) (pos : Int) (s : SheetSt),
    mulRkLoop { env with dec := d } data r n c pos s = mulRkLoop env data r n c pos s
  | 0, _, _, _ => rfl
  | n + 1, c, pos, s => by
    simp only [mulRkLoop]
    congr 1; funext xf
    congr 1; funext v
    show (s.put env r c none (.num v) xf).bind _ = (s.put env r c none (.num v) xf).bind _
    congr 1; funext s
    exact mulRk_dec env d data r n (c + 1) (pos + 6) s

theorem mulBlank_dec (env : SheetEnv) (d : Bytes → R PyStr) (data : Bytes) (r : Nat) : ∀ (n c k : Nat) (s : SheetSt),
    mulBlankLoop { env with dec := d } data r n c k s = mulBlankLoop env data r n c k s
  | 0, _, _, _ => rfl
  | n + 1, c, k, s => by
    simp only [mulBlankLoop]
    show (s.put env r c (some XL_CELL_BLANK) emptyVal (fld data (2 * k) 2)).bind _ = (s.put env r c (some XL_CELL_BLANK) emptyVal (fld data (2 * k) 2)).bind _
    congr 1; funext s
    exact mulBlank_dec env d data r n (c + 1) (k + 1) s

theorem plain_dec (env : SheetEnv) (d : Bytes → R PyStr) (s : SheetSt) {rc len : Nat} {data : Bytes} (h : ¬ ((rc = XL_LABEL ∨ rc = XL_RSTRING) ∧ env.bv < 80)) :
    plainRecord { env with dec := d } s rc len data = plainRecord env s rc len data := by
  by_cases h1 : rc = XL_LABEL
  · have h8 : ¬ env.bv < 80 := fun h8 => h ⟨.inl h1, h8⟩
    subst h1
    show recLabel { env with dec := d } s data = recLabel env s data
    unfold recLabel labelText
    simp only [if_neg h8]
    rfl
  by_cases h2 : rc = XL_RSTRING
  · have h8 : ¬ env.bv < 80 := fun h8 => h ⟨.inr h2, h8⟩
    subst h2
    show recRString { env with dec := d } s data = recRString env s data
    unfold recRString rstringText
    simp only [if_neg h8]
    rfl
  have e1 : recMulRk { env with dec := d } s data = recMulRk env s data := by
    unfold recMulRk; simp only [mulRk_dec]
  have e2 : recMulBlank { env with dec := d } s len data = recMulBlank env s len data := by
    unfold recMulBlank; simp only [mulBlank_dec]
  unfold plainRecord
  simp only [if_neg h1, if_neg h2, e1, e2]
  rfl

theorem extra_dec (env : SheetEnv) (d : Bytes → R PyStr) (mem : Bytes) (e : Extras) (pos : Int) {rc : Nat} {data : Bytes} (h : ¬ (rc = XL_NOTE ∧ env.bv < 80)) :
    extraRecord { env with dec := d } mem e pos rc data = extraRecord env mem e pos rc data := by
  by_cases h1 : rc = XL_NOTE
  · have h8 : ¬ env.bv < 80 := fun h8 => h ⟨h1, h8⟩
    subst h1
    show handleNote env.bv d mem e data pos = handleNote env.bv env.dec mem e data pos
    unfold handleNote
    simp only [if_neg h8]
  unfold extraRecord
  simp only [if_neg h1]

theorem formulaResult_dec (env : SheetEnv) (d : Bytes → R PyStr) (mem : Bytes) (pos : Int) (res : Bytes) (h : textResult res = false) :
    formulaResult { env with dec := d } mem pos res = formulaResult env mem pos res := by
  unfold formulaResult
  by_cases h1 : slice res 6 8 = [0xFF, 0xFF]
  · rw [if_pos h1, if_pos h1]
    cases hb : byteAt res 0 with
    | error e => rfl
    | ok first =>
      have hf : first ≠ 0 := by
        rintro rfl
        have : textResult res = true := by
          unfold textResult
          rw [decide_eq_true h1, Bool.true_and, decide_eq_true_eq]
          cases res with
          | nil => rfl
          | cons x xs =>
            have : byteAt (x :: xs) 0 = .ok x.toNat := rfl
            rw [this] at hb
            simp only [Except.ok.injEq] at hb
            simp [fld, le, hb]
        rw [this] at h; cases h
      simp only [bind, Except.bind]
      rw [if_neg hf, if_neg hf]
  · rw [if_neg h1, if_neg h1]

theorem slice_slice (data : Bytes) : (((slice data 0 16).drop 6).take 8 : Bytes) = slice data 6 14 := by
  have e1 := slice_nat data 0 16
  have e2 := slice_nat data 6 14
  rw [show slice data 0 16 = _ from e1, show slice data 6 14 = _ from e2]
  apply List.ext_getElem?
  intro i
  simp only [List.getElem?_take, List.getElem?_drop]
  split_ifs <;> first | rfl | omega | simp_all

/-! ## One record -/

/-- Records that an old sheet treats in its own way. -/
abbrev oldBad : List Nat := oldBookCodes ++ oldSheetCodes ++ [XL_COUNTRY, XL_DIMENSION, XL_DIMENSION2]

/-- The state of an old sheet is that of a sheet of the book `b`. -/
structure At (env : OpenEnv) (bv : Nat) (b : Book) (o0 o : OldSt) : Prop where
  ver : o.bv = bv
  book : InText env bv b o.book
  ixfe : o.ixfe = o0.ixfe
  attr : o.attrXf = o0.attrXf

theorem At.withEncoding {env : OpenEnv} {bv : Nat} (h8 : bv < 80) {b : Book} {o0 o o' : OldSt} (h : At env bv b o0 o) {n : Bool}
    (he : o.withEncoding env n = .ok o') :
    At env bv b o0 o' ∧ o'.sheet = o.sheet ∧ (n = true → o'.env env = readEnv env bv b) ∧
    ∃ d, o'.env env = { readEnv env bv b with dec := d } := by
  unfold OldSt.withEncoding at he
  obtain ⟨h1, h2, h3, h4⟩ := h
  subst h1
  cases n with
  | false =>
    simp only [Bool.false_eq_true, if_false, Except.ok.injEq] at he
    subst he
    exact ⟨⟨rfl, h2, h3, h4⟩, rfl, fun h => Bool.noConfusion h, _, h2.env⟩
  | true =>
    simp only [if_true] at he
    unfold OldSt.onBook at he
    obtain ⟨b', hb, he⟩ := bind_ok he
    cases he
    have := h2.ensure h8 hb
    exact ⟨⟨rfl, .inr this, h3, h4⟩, rfl, fun _ => ensured_env this, _, InText.env (.inr this)⟩

theorem old_step {env : OpenEnv} {bv : Nat} (h8 : bv < 80) {mem : Bytes} {b : Book} {o0 o o' : OldSt} (h : At env bv b o0 o) {pos p' : Int} {rc len : Nat}
    {data : Bytes} (hb : rc ∉ oldBad) (hf : 30 ≤ bv ∨ rc ∉ XL_FORMULA_OPCODES) (hr : oldRecord env bv mem o pos rc len data = .ok (o', p')) :
    At env bv b o0 o' ∧ sheetRecord (readEnv env bv b) mem o.sheet pos rc len data = .ok (o'.sheet, p') := by
  have hb1 : rc ∉ oldBookCodes := fun h => hb (by simp only [oldBad, List.mem_append]; tauto)
  have hb2 : rc ∉ oldSheetCodes := fun h => hb (by simp only [oldBad, List.mem_append]; tauto)
  have hb3 : rc ≠ XL_COUNTRY := by rintro rfl; exact hb (by decide)
  have hb4 : ¬ (rc = XL_DIMENSION ∨ rc = XL_DIMENSION2) := by rintro (rfl | rfl) <;> exact hb (by decide)
  unfold oldRecord at hr
  unfold sheetRecord
  by_cases c1 : rc ∈ XL_FORMULA_OPCODES
  · have h30 : 30 ≤ bv := by rcases hf with h | h; · exact h
                             · exact absurd c1 h
    rw [if_pos c1] at hr ⊢
    unfold oldFormula at hr
    rw [if_pos h30] at hr
    obtain ⟨o1, h1, hr⟩ := bind_ok hr
    obtain ⟨⟨s, q⟩, h2, hr⟩ := bind_ok hr
    obtain ⟨rfl, rfl⟩ : _ = o' ∧ q = p' := by simpa [pure, Except.pure] using hr
    obtain ⟨a1, a2, a3, d, a4⟩ := h.withEncoding h8 h1
    refine ⟨⟨a1.ver, a1.book, a1.ixfe, a1.attr⟩, ?_⟩
    rw [← a2]
    show _ = Except.ok (s, q)
    rw [← h2]
    by_cases ht : textResult (slice data 6 14) = true
    · rw [a3 (by simp [h8, ht])]
    · rw [a4]
      have ht' : textResult (slice data 6 14) = false := by simpa using ht
      unfold recFormula
      cases hu : unpackN 16 (slice data 0 16) with
      | error e => rfl
      | ok x =>
        obtain rfl : slice data 0 16 = x := by
          rcases unpackN_err_or (n := 16) (b := slice data 0 16) with h' | h' <;> rw [h'] at hu <;> cases hu
          rfl
        simp only [bind, Except.bind, slice_slice]
        rw [formulaResult_dec _ d _ _ _ ht']
        rfl
  rw [if_neg c1] at hr ⊢
  by_cases c2 : rc ∈ bofcodes
  · rw [if_pos c2] at hr ⊢
    obtain ⟨q, h1, hr⟩ := bind_ok hr
    cases hr
    exact ⟨h, by rw [h1]; rfl⟩
  rw [if_neg c2, if_neg hb3] at hr
  rw [if_neg c2]
  by_cases c3 : rc ∈ otherCodes
  · rw [if_pos c3] at hr ⊢
    obtain ⟨o1, h1, hr⟩ := bind_ok hr
    obtain ⟨⟨e, q⟩, h2, hr⟩ := bind_ok hr
    obtain ⟨rfl, rfl⟩ : _ = o' ∧ q = p' := by simpa [pure, Except.pure] using hr
    obtain ⟨a1, a2, a3, d, a4⟩ := h.withEncoding h8 h1
    refine ⟨⟨a1.ver, a1.book, a1.ixfe, a1.attr⟩, ?_⟩
    rw [← a2]
    have : extraRecord (readEnv env bv b) mem o1.sheet.ext pos rc data = .ok (e, q) := by
      by_cases hn : rc = XL_NOTE
      · rw [← a3 (by simp [hn, h8]), h2]
      · rw [a4, extra_dec _ _ _ _ _ (fun h => hn h.1)] at h2
        exact h2
    rw [this]; rfl
  rw [if_neg c3, if_neg hb4, if_neg (fun h => hb1 h.2), if_neg (fun h => hb2 h.2)] at hr
  rw [if_neg c3]
  obtain ⟨o1, h1, hr⟩ := bind_ok hr
  obtain ⟨o2, h2, hr⟩ := bind_ok hr
  cases hr
  unfold OldSt.onSheet at h2
  obtain ⟨s, h3, h2⟩ := bind_ok h2
  cases h2
  obtain ⟨a1, a2, a3, d, a4⟩ := h.withEncoding h8 h1
  refine ⟨⟨a1.ver, a1.book, a1.ixfe, a1.attr⟩, ?_⟩
  rw [← a2]
  have : plainRecord (readEnv env bv b) o1.sheet rc len data = .ok s := by
    by_cases hn : rc = XL_LABEL ∨ rc = XL_RSTRING
    · rw [← a3 (by simp [hn, h8]), h3]
    · rw [a4, plain_dec _ _ _ (fun h => hn h.1)] at h3
      exact h3
  rw [this]; rfl

/-- Records without text leave the book alone. -/
theorem old_step_same {env : OpenEnv} {bv : Nat} {mem : Bytes} {o o' : OldSt} {pos p' : Int} {rc len : Nat} {data : Bytes} (hb : rc ∉ oldBad)
    (hf : rc ∉ [XL_LABEL, XL_RSTRING, XL_NOTE] ++ XL_FORMULA_OPCODES) (hr : oldRecord env bv mem o pos rc len data = .ok (o', p')) :
    o' = { o with sheet := o'.sheet } := by
  have hb1 : rc ∉ oldBookCodes := fun h => hb (by simp only [oldBad, List.mem_append]; tauto)
  have hb2 : rc ∉ oldSheetCodes := fun h => hb (by simp only [oldBad, List.mem_append]; tauto)
  have hb3 : rc ≠ XL_COUNTRY := by rintro rfl; exact hb (by decide)
  have hb4 : ¬ (rc = XL_DIMENSION ∨ rc = XL_DIMENSION2) := by rintro (rfl | rfl) <;> exact hb (by decide)
  have hf1 : rc ∉ XL_FORMULA_OPCODES := fun h => hf (by simp only [List.mem_append]; tauto)
  have hf2 : ¬ (rc = XL_LABEL ∨ rc = XL_RSTRING) := by rintro (rfl | rfl) <;> exact hf (by decide)
  have hf3 : rc ≠ XL_NOTE := by rintro rfl; exact hf (by decide)
  unfold oldRecord at hr
  rw [if_neg hf1] at hr
  by_cases c2 : rc ∈ bofcodes
  · rw [if_pos c2] at hr
    obtain ⟨q, h1, hr⟩ := bind_ok hr
    cases hr
    rfl
  rw [if_neg c2, if_neg hb3] at hr
  by_cases c3 : rc ∈ otherCodes
  · rw [if_pos c3, decide_eq_false (fun h => hf3 h.1)] at hr
    obtain ⟨o1, h1, hr⟩ := bind_ok hr
    cases h1
    obtain ⟨⟨e, q⟩, h2, hr⟩ := bind_ok hr
    cases hr
    rfl
  rw [if_neg c3, if_neg hb4, if_neg (fun h => hb1 h.2), if_neg (fun h => hb2 h.2), decide_eq_false (fun h => hf2 h.1)] at hr
  obtain ⟨o1, h1, hr⟩ := bind_ok hr
  cases h1
  obtain ⟨o2, h2, hr⟩ := bind_ok hr
  cases hr
  unfold OldSt.onSheet at h2
  obtain ⟨s, h3, h2⟩ := bind_ok h2
  cases h2
  rfl

/-! ## Several records -/

/-- `n` rounds of the record loop of a worksheet; `none` when a record is met that is none of those considered. -/
def rounds (env : SheetEnv) (mem : Bytes) (bad : List Nat) : Nat → SheetSt → Int → R (Option (SheetSt × Int))
  | 0, s, pos => .ok (some (s, pos))
  | n + 1, s, pos => do
    let ((rc, len, data), pos) ← getRecordParts mem pos
    if rc = 0xa ∨ rc ∈ bad then pure none
    else do
      let (s, pos) ← sheetRecord env mem s pos rc len data
      rounds env mem bad n s pos

theorem rounds_follows (env : SheetEnv) (mem : Bytes) (bad : List Nat) (hb : ∀ c ∈ itemCodes, c ∉ bad) : StepsLike env mem bad (rounds env mem bad) := by
  refine ⟨?_, hb⟩
  intro fuel s pos p' rc len data h1 h2 h3
  rw [rounds, h1]
  simp only [bind, Except.bind]
  rw [if_neg (by tauto)]

theorem old_rounds {env : OpenEnv} {bv : Nat} (h8 : bv < 80) {mem : Bytes} {b : Book} {o0 fin : OldSt} {bad : List Nat} (hbad : ∀ c ∈ oldBad, c ∈ bad)
    (hf : 30 ≤ bv ∨ ∀ c ∈ XL_FORMULA_OPCODES, c ∈ bad) (k : Nat) : ∀ (n : Nat) (o : OldSt) (pos : Int), At env bv b o0 o →
    oldLoop env bv mem (k + n) o pos = .ok fin →
    rounds (readEnv env bv b) mem bad n o.sheet pos = .ok none ∨
    ∃ o' pos', rounds (readEnv env bv b) mem bad n o.sheet pos = .ok (some (o'.sheet, pos')) ∧ At env bv b o0 o' ∧ oldLoop env bv mem k o' pos' = .ok fin := by
  intro n
  induction n with
  | zero => intro o pos ha h; exact .inr ⟨o, pos, rfl, ha, h⟩
  | succ n ih =>
    intro o pos ha h
    rw [show k + (n + 1) = (k + n) + 1 by omega, oldLoop] at h
    obtain ⟨⟨⟨rc, len, data⟩, q⟩, h1, h⟩ := bind_ok h
    simp only at h
    rw [rounds, h1]
    simp only [bind, Except.bind]
    by_cases hb : rc = 0xa ∨ rc ∈ bad
    · rw [if_pos hb]; exact .inl rfl
    · rw [if_neg hb]
      rw [if_neg (show ¬ rc = XL_EOF by tauto)] at h
      obtain ⟨⟨o1, q1⟩, h2, h⟩ := bind_ok h
      obtain ⟨a1, a2⟩ := old_step h8 ha (fun h => hb (.inr (hbad _ h))) (hf.imp id fun hh h => hb (.inr (hh _ h))) h2
      rw [a2]
      exact ih o1 q1 a1 h

theorem good_old : ∀ c ∈ itemCodes, c ∉ oldBad := by decide

/-- Worksheet items in an old sheet do what they do in a worksheet. -/
theorem old_items {env : OpenEnv} {bv : Nat} (h8 : bv < 80) (h30 : 30 ≤ bv) {mem rest : Bytes} {b : Book} {o0 o fin : OldSt} (items : List SheetItem) {p k : Nat}
    (ha : At env bv b o0 o) (hx : ∀ x ∈ items, FitsItem bv oldBad x ∧ x.Ok bv (textDec env bv b) (b.sst.map Prod.fst) ∧ x.Short bv)
    (hm : mem.drop p = encRecs (items.flatMap (·.records bv)) ++ rest)
    (h : oldLoop env bv mem (k + (items.map itemLoops).sum) o (p : Int) = .ok fin) :
    ∃ o', applyItems (readEnv env bv b) o.sheet items = .ok o'.sheet ∧ At env bv b o0 o' ∧
      oldLoop env bv mem k o' ((p + (encRecs (items.flatMap (·.records bv))).length : Nat) : Int) = .ok fin := by
  have h1 := items_step (rounds_follows (readEnv env bv b) mem oldBad good_old) items p 0 o.sheet rest hx hm
  rw [Nat.zero_add] at h1
  rcases old_rounds h8 (bad := oldBad) (fun _ h => h) (.inl h30) k _ o p ha h with h2 | ⟨o', p', h2, h3, h4⟩
  · rw [h2] at h1
    cases hq : applyItems (readEnv env bv b) o.sheet items with
    | error e => rw [hq] at h1; cases h1
    | ok s => rw [hq] at h1; cases h1
  · rw [h2] at h1
    cases hq : applyItems (readEnv env bv b) o.sheet items with
    | error e => rw [hq] at h1; cases h1
    | ok s =>
      rw [hq] at h1
      simp only [Except.bind, rounds, Except.ok.injEq, Option.some.injEq, Prod.mk.injEq] at h1
      obtain ⟨e1, e2⟩ := h1
      rw [e2] at h4
      exact ⟨o', by rw [e1], h3, h4⟩

end Xlrd
