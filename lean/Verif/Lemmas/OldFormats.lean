import Verif.Lemmas.OldRead
import Verif.Props.NumberFormats

/-!
# Number formats and extended formats of files before BIFF5
-/
set_option linter.unusedSimpArgs false
namespace Xlrd
open Spec

theorem record_count {env : BookEnv} {b b' : Book} {c : Nat} {d : Bytes} (hc : c ∈ [0xe0, 0x31, 0x231, 0x293, 0x92, 0x56, 0x22, 0x42, 0x5c, 0x8c])
    (h : globalsRecord env b c d = .ok b') : b'.fmt.actualfmtcount = b.fmt.actualfmtcount := by
  simp only [List.mem_cons, List.not_mem_nil, or_false] at hc
  rcases hc with rfl | rfl | rfl | rfl | rfl | rfl | rfl | rfl | rfl | rfl
  · obtain ⟨f, hf, h3⟩ := bind_ok (show bookXf _ _ _ = _ from h); cases h3
    unfold handleXf at hf
    obtain ⟨_, _, hf⟩ := bind_ok hf
    cases hf; rfl
  · have h : bookFont _ _ _ = _ := h
    unfold bookFont at h
    cases hf : env.fi with
    | false => simp only [hf, Bool.not_false, if_true] at h; cases h; rfl
    | true =>
      simp only [hf, Bool.not_true, Bool.false_eq_true, if_false] at h
      obtain ⟨b1, h1, h2⟩ := bind_ok h
      obtain ⟨f, hf2, h3⟩ := bind_ok h2
      obtain ⟨_, _, _, _, rfl⟩ := ensure_frame h1
      cases h3
      unfold handleFont at hf2
      simp only [Bool.not_true, Bool.false_eq_true, if_false] at hf2
      obtain ⟨_, _, hf2⟩ := bind_ok hf2
      cases hf2; rfl
  · have h : bookFont _ _ _ = _ := h
    unfold bookFont at h
    cases hf : env.fi with
    | false => simp only [hf, Bool.not_false, if_true] at h; cases h; rfl
    | true =>
      simp only [hf, Bool.not_true, Bool.false_eq_true, if_false] at h
      obtain ⟨b1, h1, h2⟩ := bind_ok h
      obtain ⟨f, hf2, h3⟩ := bind_ok h2
      obtain ⟨_, _, _, _, rfl⟩ := ensure_frame h1
      cases h3
      unfold handleFont at hf2
      simp only [Bool.not_true, Bool.false_eq_true, if_false] at hf2
      obtain ⟨_, _, hf2⟩ := bind_ok hf2
      cases hf2; rfl
  · obtain ⟨f, hf, h3⟩ := bind_ok (show bookStyle _ _ _ = _ from h); cases h3
    unfold handleStyle at hf
    cases hfi : env.fi with
    | false => simp only [hfi, Bool.not_false, if_true] at hf; cases hf; rfl
    | true =>
      simp only [hfi, Bool.not_true, Bool.false_eq_true, if_false] at hf
      obtain ⟨x, _, hf⟩ := bind_ok hf
      split_ifs at hf with h1 h2
      · cases hf; rfl
      · obtain ⟨_, _, hf⟩ := bind_ok hf; cases hf; rfl
      · obtain ⟨_, _, hf⟩ := bind_ok hf; cases hf; rfl
  · obtain ⟨f, hf, h3⟩ := bind_ok (show bookPalette _ _ _ = _ from h); cases h3
    unfold handlePalette at hf
    cases hfi : env.fi with
    | false => simp only [hfi, Bool.not_false, if_true] at hf; cases hf; rfl
    | true =>
      simp only [hfi, Bool.not_true, Bool.false_eq_true, if_false] at hf
      obtain ⟨n, _, hf⟩ := bind_ok hf
      split_ifs at hf with h1
      obtain ⟨_, _, hf⟩ := bind_ok hf
      have : ∀ (cs : List Nat) (i : Nat) (st st' : FmtSt), paletteLoop st i cs = .ok st' → st'.actualfmtcount = st.actualfmtcount := by
        intro cs
        induction cs with
        | nil => intro i st st' h; cases h; rfl
        | cons c cs ih =>
          intro i st st' h
          unfold paletteLoop at h
          cases hg : itemsGet st.colourMap (8 + i) with
          | none => rw [hg] at h; cases h
          | some y => rw [hg] at h; simp only at h; have := ih _ _ _ h; exact this
      exact this _ _ _ _ hf
  · cases h; rfl
  · obtain ⟨_, _, h3⟩ := bind_ok (show handleDatemode _ _ = _ from h)
    obtain ⟨_, _, h3⟩ := bind_ok h3
    cases h3; rfl
  · obtain ⟨_, _, h3⟩ := bind_ok (show handleCodepage _ _ _ = _ from h)
    obtain ⟨_, _, _, _, rfl⟩ := derive_frame h3
    rfl
  · have h : handleWriteaccess _ _ _ = _ := h
    unfold handleWriteaccess at h
    by_cases h8 : env.bv < 80
    · rw [if_pos h8] at h
      cases he : b.encoding with
      | none => rw [he] at h; cases h; rfl
      | some e =>
        rw [he] at h
        obtain ⟨_, _, h⟩ := bind_ok h
        cases h; rfl
    · rw [if_neg h8] at h
      obtain ⟨_, _, h⟩ := bind_ok h
      cases h; rfl
  · obtain ⟨_, _, h3⟩ := bind_ok (show handleCountry _ _ = _ from h)
    obtain ⟨_, _, h3⟩ := bind_ok h3
    cases h3; rfl

theorem lastCodepage_new (items : List GItem) : lastCodepage (items.map newItem) = lastCodepage items := by
  have : ∀ it, codepageOf (newItem it) = codepageOf it := by
    intro it
    cases it with
    | one c d =>
      by_cases h : c = 0x42
      · subst h; rfl
      · have hn : newCode c ≠ 0x42 := by unfold newCode; split_ifs <;> first | decide | exact h
        have : ∀ n, n ≠ 0x42 → codepageOf (.one n d) = none := by
          intro n hn
          unfold codepageOf
          split
          · rename_i h; cases h; exact absurd rfl hn
          · rfl
        show codepageOf (.one (newCode c) d) = _
        rw [this _ hn, this _ h]
    | _ => rfl
  unfold lastCodepage
  rw [List.filterMap_map]
  congr 2
  funext it
  exact this it

theorem lastCodepage_after (hist items : List GItem) : lastCodepage (hist ++ items.map newItem) = lastCodepage (hist ++ items) := by
  have h := lastCodepage_new items
  unfold lastCodepage at h ⊢
  rw [List.filterMap_append, List.filterMap_append, List.getLast?_append, List.getLast?_append, h]

/-- Only records about the whole file. -/
def BookItems (v : Nat) (items : List GItem) : Prop := ∀ it ∈ items, ∃ c d, it = .one c d ∧ c ∈ bookCodes v

theorem BookItems.init {v : Nat} {pre : List GItem} {it : GItem} (h : BookItems v (pre ++ [it])) : BookItems v pre ∧ ∃ c d, it = .one c d ∧ c ∈ bookCodes v :=
  ⟨fun i hi => h i (List.mem_append_left _ hi), h it (by simp)⟩

theorem headBook_items {v : Nat} {head : List OldItem} (h : ∀ c d, OldItem.book c d ∈ head → c ∈ bookCodes v) : BookItems v (headBook head) := by
  intro it hit
  unfold headBook at hit
  obtain ⟨i, hi, hi2⟩ := List.mem_filterMap.mp hit
  cases i with
  | book c d => cases hi2; exact ⟨c, d, rfl, h c d hi⟩
  | sheet y => cases hi2

/-- The format map of an old file: the FORMAT records by number. -/
theorem oldFormats_after {env : BookEnv} (hv : env.bv = 21 ∨ env.bv = 30 ∨ env.bv = 40 ∨ env.bv = 45) {hist : List GItem} {b0 : Book} (he : EncInv env hist b0)
    (h0 : b0.fmt.formatMap = fun _ => none) (h1 : b0.fmt.actualfmtcount = 0) {items : List GItem} {fmts : List PyStr}
    (hc : OldFormats env.bv (fun pre => textAt env (hist ++ pre)) items fmts) :
    BookItems env.bv items → ∀ {b : Book}, applyGlobals env b0 (items.map newItem) = .ok b →
      b.fmt.formatMap = (fun k => (fmts[k]?).map (fmtEntry k)) ∧ b.fmt.actualfmtcount = fmts.length := by
  unfold OldFormats at hc
  induction hc with
  | nil => intro _ b h; cases h; exact ⟨by rw [h0]; funext k; simp, h1⟩
  | @take pre xs c d x hc0 hsel hrel ih =>
    intro hi b h
    rw [List.map_append] at h
    obtain ⟨b1, e1, e2⟩ := gItems_snoc h
    obtain ⟨ih1, ih2⟩ := ih hi.init.1 e1
    have hinv := items_enc _ he e1
    have hn : newCode c = 0x41e := by
      subst hsel
      rcases hv with h | h | h | h <;> rw [h] <;> decide
    have e : applyGItem env b1 (newItem (.one c d)) = bookFormat env b1 d := by
      show globalsRecord env b1 (newCode c) d = _
      rw [hn]; rfl
    rw [e] at e2
    unfold bookFormat at e2
    obtain ⟨b2, h3, e2⟩ := bind_ok e2
    obtain ⟨i1, i2⟩ := ensure_inv hinv h3
    obtain ⟨g, h4, e2⟩ := bind_ok e2
    cases e2
    obtain ⟨en, cc, u, r, rfl⟩ := ensure_frame h3
    obtain ⟨pad, txt, tail, hp, ht, rfl⟩ := hrel
    unfold handleFormat at h4
    simp only [Bool.false_eq_true, if_false] at h4
    have h5 : ¬ env.bv ≥ 50 := by omega
    have hstr : formatStrOf env.bv (Book.dec env { b1 with encoding := en, codepage := cc, userName := u, rawUser := r }) (pad ++ txt ++ tail) = .ok x := by
      have hp' : (pad ++ txt ++ tail).drop pad.length = txt ++ tail := by rw [List.append_assoc, List.drop_left]
      unfold formatStrOf
      rw [if_neg (by omega)]
      have := (textField_read (Or.inl rfl) (fun h9 => (dec_eq (i2 (Or.inl h9))).trans (by rw [lastCodepage_after])) ht hp').1 (by omega)
      rw [hp] at this
      have hcast : (((if env.bv ≤ 30 then 0 else 2 : Nat)) : Int) = if env.bv ≤ 30 then 0 else 2 := by split_ifs <;> rfl
      rw [hcast] at this
      exact this
    have hkey : ∀ n, formatKeyOf env.bv n (pad ++ txt ++ tail) = .ok n := by intro n; unfold formatKeyOf; rw [if_neg h5]
    rw [hkey, hstr] at h4
    cases h4
    simp only at ih1 ih2 ⊢
    rw [ih1, ih2]
    refine ⟨?_, by simp⟩
    funext k
    unfold dictSet
    by_cases hk : k = xs.length
    · subst hk; simp [fmtEntry]
    · rw [if_neg hk]
      by_cases hlt : k < xs.length
      · rw [List.getElem?_append_left hlt]
      · show (xs[k]?).map (fmtEntry k) = _
        rw [List.getElem?_eq_none (show xs.length ≤ k by omega), List.getElem?_eq_none (by rw [List.length_append, List.length_singleton]; omega)]
  | @skip pre xs it hc0 hns ih =>
    intro hi b h
    rw [List.map_append] at h
    obtain ⟨b1, e1, e2⟩ := gItems_snoc h
    obtain ⟨ih1, ih2⟩ := ih hi.init.1 e1
    obtain ⟨c, d, rfl, hc⟩ := hi.init.2
    have hnf := hns c d rfl
    have e2 : globalsRecord env b1 (newCode c) d = .ok b := e2
    rcases newCode_cases hv hc with ⟨n1, _⟩ | ⟨_, n2⟩ | ⟨_, _, n3, n4⟩
    · exact absurd n1 hnf
    · rw [n2] at e2
      rw [record_count (by decide) e2, ih2]
      refine ⟨?_, rfl⟩
      obtain ⟨f, hf, e2⟩ := bind_ok (show bookXf _ _ _ = _ from e2)
      cases e2
      unfold handleXf at hf
      obtain ⟨x, _, hf⟩ := bind_ok hf
      cases hf
      simp only
      rw [if_neg (fun h => by omega)]
      exact ih1
    · rw [n3] at e2
      have hmem : c ∈ [0xe0, 0x31, 0x231, 0x293, 0x92, 0x56, 0x22, 0x42, 0x5c, 0x8c] := List.mem_cons_of_mem _ n4
      rw [record_count hmem e2, ih2]
      refine ⟨?_, rfl⟩
      have hne : c ≠ XL_FORMAT ∧ c ≠ XL_XF := by
        exact (by decide : ∀ c ∈ [0x31, 0x231, 0x293, 0x92, 0x56, 0x22, 0x42, 0x5c, 0x8c], c ≠ XL_FORMAT ∧ c ≠ XL_XF) c n4
      rw [(record_frame e2).formatMap hne.1 hne.2]
      exact ih1

theorem oldFormats_items {env : BookEnv} (hv : env.bv = 21 ∨ env.bv = 30 ∨ env.bv = 40 ∨ env.bv = 45) {b0 : Book} (he : EncInv env [] b0)
    (h0 : b0.fmt.formatMap = fun _ => none) (h1 : b0.fmt.actualfmtcount = 0) {items : List GItem} {fmts : List PyStr}
    (hc : OldFormats env.bv (textAt env) items fmts) :
    BookItems env.bv items → ∀ {b : Book}, applyGlobals env b0 (items.map newItem) = .ok b →
      b.fmt.formatMap = (fun k => (fmts[k]?).map (fmtEntry k)) ∧ b.fmt.actualfmtcount = fmts.length :=
  oldFormats_after hv he h0 h1 hc

/-- The XFs of an old file. -/
theorem oldXfs_after {env : BookEnv} (hv : env.bv = 21 ∨ env.bv = 30 ∨ env.bv = 40 ∨ env.bv = 45) {hist : List GItem} {b0 : Book} (he : EncInv env hist b0)
    (h0 : b0.fmt.formatMap = fun _ => none) (h1 : b0.fmt.actualfmtcount = 0) (h2 : b0.fmt.xfList = []) {items : List GItem} {xfs : List XF}
    (hc : OldXfs env.bv (fun pre => textAt env (hist ++ pre)) items xfs) :
    BookItems env.bv items → ∀ {b : Book}, applyGlobals env b0 (items.map newItem) = .ok b →
      b.fmt.xfList = xfs.mapIdx fun i x => { x with xfIndex := i } := by
  unfold OldXfs at hc
  induction hc with
  | nil => intro _ b h; cases h; simp [h2]
  | @take pre xs c d x hc0 hsel hrel ih =>
    intro hi b h
    rw [List.map_append] at h
    obtain ⟨b1, e1, e2⟩ := gItems_snoc h
    have ih1 := ih hi.init.1 e1
    have hn : newCode c = 0xe0 := by
      subst hsel
      rcases hv with h | h | h | h <;> rw [h] <;> decide
    have e : applyGItem env b1 (newItem (.one c d)) = bookXf env b1 d := by
      show globalsRecord env b1 (newCode c) d = _
      rw [hn]; rfl
    rw [e] at e2
    unfold bookXf at e2
    obtain ⟨g, h3, e2⟩ := bind_ok e2
    cases e2
    obtain ⟨raw, fmts, hr, hfm, rfl⟩ := hrel
    have hmap := (oldFormats_after hv he h0 h1 hfm hi.init.1 e1).1
    unfold handleXf at h3
    rw [decodeXf_record hr] at h3
    rw [if_neg (fun h => by omega)] at h3
    cases h3
    simp only
    rw [ih1, List.mapIdx_append]
    congr 1
    simp only [List.mapIdx_cons, List.mapIdx_nil, List.length_mapIdx, Nat.zero_add]
    congr 1
    unfold knownKey
    rw [hmap]
    by_cases hk : raw.formatKey < fmts.length
    · rw [if_pos hk]; simp [hk]
    · rw [if_neg hk]; simp [hk]
  | @skip pre xs it hc0 hns ih =>
    intro hi b h
    rw [List.map_append] at h
    obtain ⟨b1, e1, e2⟩ := gItems_snoc h
    have ih1 := ih hi.init.1 e1
    obtain ⟨c, d, rfl, hc⟩ := hi.init.2
    have hnf := hns c d rfl
    have e2 : globalsRecord env b1 (newCode c) d = .ok b := e2
    have hne : newCode c ≠ XL_XF := by
      rcases newCode_cases hv hc with ⟨_, n2⟩ | ⟨n1, _⟩ | ⟨_, _, n3, n4⟩
      · rw [n2]; decide
      · exact absurd n1 hnf
      · rw [n3]; exact ((by decide : ∀ c ∈ [0x31, 0x231, 0x293, 0x92, 0x56, 0x22, 0x42, 0x5c, 0x8c], c ≠ XL_FORMAT ∧ c ≠ XL_XF) c n4).2
    rw [(record_frame e2).xfList hne]
    exact ih1

theorem oldXfs_items {env : BookEnv} (hv : env.bv = 21 ∨ env.bv = 30 ∨ env.bv = 40 ∨ env.bv = 45) {b0 : Book} (he : EncInv env [] b0)
    (h0 : b0.fmt.formatMap = fun _ => none) (h1 : b0.fmt.actualfmtcount = 0) (h2 : b0.fmt.xfList = []) {items : List GItem} {xfs : List XF}
    (hc : OldXfs env.bv (textAt env) items xfs) :
    BookItems env.bv items → ∀ {b : Book}, applyGlobals env b0 (items.map newItem) = .ok b →
      b.fmt.xfList = xfs.mapIdx fun i x => { x with xfIndex := i } :=
  oldXfs_after hv he h0 h1 h2 hc

/-- The number of records with a code. -/
def codeCount (n : Nat) (items : List GItem) : Nat := (items.filter fun it => match it with | .one c _ => decide (c = n) | _ => false).length

theorem codeCount_append (n : Nat) (a b : List GItem) : codeCount n (a ++ b) = codeCount n a + codeCount n b := by
  unfold codeCount; rw [List.filter_append, List.length_append]

theorem collected_count {α : Type} {n : Nat} {Rel : List GItem → Bytes → α → Prop} {items : List GItem} {xs : List α} (h : Collected (· = n) Rel items xs) :
    xs.length = codeCount n items := by
  induction h with
  | nil => rfl
  | @take pre xs c d x hc0 hsel hrel ih => rw [codeCount_append, List.length_append, ih]; simp [codeCount, hsel]
  | @skip pre xs it hc0 hns ih =>
    rw [codeCount_append, ih]
    cases it with
    | one c d => simp [codeCount, hns c d rfl]
    | _ => simp [codeCount]

/-- If there are formats at all, then every XF has one. -/
theorem oldXfs_known {v : Nat} {dec : List GItem → Bytes → R PyStr} {items : List GItem} {xfs : List XF} (hx : OldXfs v dec items xfs) {fmts : List PyStr}
    (hf : OldFormats v dec items fmts) (hne : fmts ≠ []) {x : XF} (h : x ∈ xfs) : x.formatKey < fmts.length := by
  have hl := collected_count hf
  have : ∀ x ∈ xfs, x.formatKey = 0 ∨ x.formatKey < codeCount (formatCode v) items := by
    clear h hf hne hl x
    unfold OldXfs at hx
    induction hx with
    | nil => simp
    | @take pre xs c d x hc0 hsel hrel ih =>
      intro y hy
      rw [codeCount_append]
      rcases List.mem_append.mp hy with hy | hy
      · rcases ih y hy with h | h
        · exact .inl h
        · exact .inr (by omega)
      · rw [List.mem_singleton] at hy
        subst hy
        obtain ⟨raw, fm, _, hfm, rfl⟩ := hrel
        rw [← collected_count hfm]
        simp only
        by_cases hk : raw.formatKey < fm.length
        · rw [if_pos hk]; exact .inr (by omega)
        · rw [if_neg hk]; exact .inl rfl
    | @skip pre xs it hc0 hns ih =>
      intro y hy
      rw [codeCount_append]
      rcases ih y hy with h | h
      · exact .inl h
      · exact .inr (by omega)
  rcases this x h with h | h
  · have := List.length_pos_of_ne_nil hne
    omega
  · omega

/-- The cell types after the epilogue. -/
theorem oldTypes_items {env : OpenEnv} {v : Nat} (hv : v = 21 ∨ v = 30 ∨ v = 40 ∨ v = 45) {b0 : Book} (he : EncInv (env.recEnv v) [] b0)
    (h0 : b0.fmt.formatMap = fun _ => none) (h1 : b0.fmt.actualfmtcount = 0) (h2 : b0.fmt.xfList = []) {items : List GItem} (hi : BookItems v items)
    {fmts : List PyStr} (hf : OldFormats v (textAt (env.recEnv v)) items fmts) {xfs : List XF} (hx : OldXfs v (textAt (env.recEnv v)) items xfs)
    {b : Book} (h : applyGlobals (env.recEnv v) b0 (items.map newItem) = .ok b) (i : Nat) (x : XF) (hi : xfs[i]? = some x) :
    (runEpilogue env b).fmt.typeMap i = some (match fmts[x.formatKey]? with
      | some s => if isDateFormatString s then XL_CELL_DATE else XL_CELL_NUMBER
      | none => XL_CELL_TEXT) := by
  have hl := oldXfs_items (env := env.recEnv v) hv he h0 h1 h2 hx ‹_› h
  have hm := (oldFormats_items (env := env.recEnv v) hv he h0 h1 hf ‹_› h).1
  show (xfEpilogue env.fi b.fmt).typeMap i = _
  unfold xfEpilogue
  simp only
  rw [hm]
  have := epilogue_types_at (fun k => (fmts[k]?).map (fmtEntry k)) b.fmt.xfList 0 b.fmt.typeMap (by
    intro j y hy
    rw [hl, List.getElem?_mapIdx] at hy
    cases hj : xfs[j]? with
    | none => rw [hj] at hy; cases hy
    | some z => rw [hj] at hy; simp only [Option.map_some, Option.some.injEq] at hy; subst hy; simp) i { x with xfIndex := i } (by
    rw [hl, List.getElem?_mapIdx, hi]; rfl)
  rw [Nat.zero_add] at this
  rw [this]
  unfold cellTypeOf
  simp only
  cases fmts[x.formatKey]? with
  | none => rfl
  | some s =>
    simp only [Option.map_some, fmtEntry]
    cases isDateFormatString s <;> rfl

end Xlrd
