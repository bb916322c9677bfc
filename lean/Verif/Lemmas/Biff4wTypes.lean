import Verif.Lemmas.Biff4w

/-!
# Cell types in the sheets of BIFF4 workbooks
-/
set_option linter.unusedSimpArgs false
namespace Xlrd
open Spec

theorem sheetXfs_old {dec : List GItem → Bytes → R PyStr} {items : List GItem} {xfs : List XF} (h : SheetXfs dec items xfs) : OldXfs 45 dec items xfs := by
  unfold SheetXfs at h
  unfold OldXfs
  induction h with
  | nil => exact .nil
  | @take pre xs c d x _ hsel hrel ih =>
    obtain ⟨h1, fmts, h2, h3⟩ := hrel
    exact .take ih hsel ⟨x, fmts, h1, h2, by rw [if_pos h3]⟩
  | @skip pre xs it _ hns ih => exact .skip ih hns

/-- Every XF has a known format, which decides the type of its numbers; formats are numbered from 0 on. -/
structure TypesInv (f : FmtSt) : Prop where
  xfs : ∀ (i : Nat) x, f.xfList[i]? = some x → x.xfIndex = i ∧ ∃ e, f.formatMap x.formatKey = some e ∧ f.typeMap i = some (celltyFromFmtty e.ty)
  formats : ∀ k e, f.formatMap k = some e → k < f.actualfmtcount

theorem TypesInv.of_eq {f g : FmtSt} (h : TypesInv f) (h1 : g.xfList = f.xfList) (h2 : g.formatMap = f.formatMap) (h3 : g.typeMap = f.typeMap)
    (h4 : g.actualfmtcount = f.actualfmtcount) : TypesInv g :=
  ⟨by rw [h1, h2, h3]; exact h.xfs, by rw [h2, h4]; exact h.formats⟩

theorem sheet_typesInv {env : BookEnv} (hv : env.bv = 45) {hist : List GItem} {b0 : Book} (he : EncInv env hist b0)
    (h0 : b0.fmt.formatMap = fun _ => none) (h1 : b0.fmt.actualfmtcount = 0) (h2 : b0.fmt.xfList = []) {items : List GItem} {xfs : List XF}
    (hc : SheetXfs (fun pre => textAt env (hist ++ pre)) items xfs) :
    BookItems env.bv items → ∀ {b : Book}, applyGlobals env b0 (items.map newItem) = .ok b → TypesInv b.fmt := by
  have hv4 : env.bv = 21 ∨ env.bv = 30 ∨ env.bv = 40 ∨ env.bv = 45 := by omega
  unfold SheetXfs at hc
  induction hc with
  | nil => intro _ b h; cases h; exact ⟨by rw [h2]; intro i x hx; simp at hx, by rw [h0]; intro k e hk; cases hk⟩
  | @take pre xs c d x hc0 hsel hrel ih =>
    intro hi b h
    rw [List.map_append] at h
    obtain ⟨b1, e1, e2⟩ := gItems_snoc h
    have ih1 := ih hi.init.1 e1
    have hn : newCode c = 0xe0 := by subst hsel; decide
    have e : applyGItem env b1 (newItem (.one c d)) = bookXf env b1 d := by
      show globalsRecord env b1 (newCode c) d = _
      rw [hn]; rfl
    rw [e] at e2
    unfold bookXf at e2
    obtain ⟨g, h3, e2⟩ := bind_ok e2
    cases e2
    obtain ⟨hr, fmts, hfm, hk⟩ := hrel
    rw [← hv] at hfm hr
    have hmap := (oldFormats_after hv4 he h0 h1 hfm hi.init.1 e1).1
    unfold handleXf at h3
    rw [decodeXf_record hr] at h3
    rw [if_neg (fun h => by omega)] at h3
    cases h3
    have hsome : b1.fmt.formatMap x.formatKey = some (fmtEntry x.formatKey fmts[x.formatKey]) := by
      rw [hmap]; simp [hk]
    refine ⟨?_, ih1.formats⟩
    intro i y hy
    simp only at hy ⊢
    unfold dictSet
    by_cases hlt : i < b1.fmt.xfList.length
    · rw [List.getElem?_append_left hlt] at hy
      rw [if_neg (by omega)]
      exact ih1.xfs i y hy
    · rw [List.getElem?_append_right (by omega)] at hy
      have hz : i - b1.fmt.xfList.length = 0 := by
        by_contra hne
        rw [List.getElem?_eq_none (by simp; omega)] at hy
        cases hy
      rw [hz] at hy
      cases hy
      have hieq : i = b1.fmt.xfList.length := by omega
      subst hieq
      rw [if_pos rfl]
      refine ⟨rfl, fmtEntry x.formatKey fmts[x.formatKey], ?_, ?_⟩
      · simp only [knownKey, hsome, Option.isSome_some, if_true]
      · simp only [cellTypeOf, hsome]
  | @skip pre xs it hc0 hns ih =>
    intro hi b h
    rw [List.map_append] at h
    obtain ⟨b1, e1, e2⟩ := gItems_snoc h
    have ih1 := ih hi.init.1 e1
    obtain ⟨c, d, rfl, hc⟩ := hi.init.2
    have hnf := hns c d rfl
    have e2 : globalsRecord env b1 (newCode c) d = .ok b := e2
    have hf := record_frame e2
    rcases newCode_cases hv4 hc with ⟨_, n2⟩ | ⟨n1, _⟩ | ⟨_, _, n3, n4⟩
    · rw [n2] at e2 hf
      obtain ⟨b2, h3, e3⟩ := bind_ok (show bookFormat env b1 d = .ok b from e2)
      obtain ⟨g, h4, e3⟩ := bind_ok e3
      cases e3
      obtain ⟨en, cc, u, r, rfl⟩ := ensure_frame h3
      unfold handleFormat at h4
      simp only [Bool.false_eq_true, if_false] at h4
      obtain ⟨k, h5, h4⟩ := bind_ok h4
      obtain ⟨s, h6, h4⟩ := bind_ok h4
      cases h4
      unfold formatKeyOf at h5
      rw [if_neg (by omega)] at h5
      cases h5
      refine ⟨?_, ?_⟩
      · intro i x hx
        obtain ⟨x1, e, x2, x3⟩ := ih1.xfs i x hx
        refine ⟨x1, e, ?_, x3⟩
        have := ih1.formats _ _ x2
        simp only [dictSet]
        rw [if_neg (by omega)]
        exact x2
      · intro k e hk
        simp only [dictSet] at hk ⊢
        by_cases hke : k = b1.fmt.actualfmtcount
        · omega
        · rw [if_neg hke] at hk
          have := ih1.formats _ _ hk
          omega
    · rw [hv] at n1; exact absurd n1 hnf
    · rw [n3] at e2 hf
      have hmem : c ∈ [0xe0, 0x31, 0x231, 0x293, 0x92, 0x56, 0x22, 0x42, 0x5c, 0x8c] := List.mem_cons_of_mem _ n4
      have hne : c ≠ XL_FORMAT ∧ c ≠ XL_XF := by
        exact (by decide : ∀ c ∈ [0x31, 0x231, 0x293, 0x92, 0x56, 0x22, 0x42, 0x5c, 0x8c], c ≠ XL_FORMAT ∧ c ≠ XL_XF) c n4
      exact ih1.of_eq (hf.xfList hne.2) (hf.formatMap hne.1 hne.2) (hf.typeMap hne.2) (record_count hmem e2)

/-- With or without the epilogue. -/
theorem TypesInv.epilogue {f : FmtSt} (h : TypesInv f) (fi : Bool) (i : Nat) (x : XF) (hx : f.xfList[i]? = some x) :
    (xfEpilogue fi f).typeMap i = f.typeMap i := by
  unfold xfEpilogue
  simp only
  have := epilogue_types_at f.formatMap f.xfList 0 f.typeMap (fun j y hy => by rw [(h.xfs j y hy).1, Nat.zero_add]) i x hx
  rw [Nat.zero_add] at this
  rw [this]
  obtain ⟨_, e, h1, h2⟩ := h.xfs i x hx
  rw [h2]
  simp only [cellTypeOf, h1]

/-- The types of the numbers in the sheet of a part. -/
theorem part_types {env : OpenEnv} {hist : List GItem} {x : SheetPart} {b2 b3 b4 : Book} (he : EncInv (env.recEnv 45) hist b2)
    (h0 : b2.fmt.formatMap = fun _ => none) (h1 : b2.fmt.actualfmtcount = 0) (h2 : b2.fmt.xfList = []) (hi : BookItems 45 x.file.book)
    (ha : applyGlobals (env.recEnv 45) b2 (x.file.book.map newItem) = .ok b3) (h4 : b4 = b3 ∨ b4 = runEpilogue env b3) {fmts : List PyStr}
    (hf : OldFormats 45 (fun pre => textAt (env.recEnv 45) (hist ++ pre)) x.file.book fmts) {xfs : List XF}
    (hx : SheetXfs (fun pre => textAt (env.recEnv 45) (hist ++ pre)) x.file.book xfs) : OldTypesOf fmts xfs (readEnv env 45 b4).cfg.typeMap := by
  have hv4 : (env.recEnv 45).bv = 21 ∨ (env.recEnv 45).bv = 30 ∨ (env.recEnv 45).bv = 40 ∨ (env.recEnv 45).bv = 45 := .inr (.inr (.inr rfl))
  have hT := sheet_typesInv (env := env.recEnv 45) rfl he h0 h1 h2 hx hi ha
  have hm := (oldFormats_after (env := env.recEnv 45) hv4 he h0 h1 hf hi ha).1
  have hl := oldXfs_after (env := env.recEnv 45) hv4 he h0 h1 h2 (sheetXfs_old hx) hi ha
  intro i y hy
  have hyl : b3.fmt.xfList[i]? = some { y with xfIndex := i } := by rw [hl, List.getElem?_mapIdx, hy]; rfl
  obtain ⟨_, e, e1, e2⟩ := hT.xfs i _ hyl
  rw [hm] at e1
  simp only at e1
  obtain ⟨s, hs, rfl⟩ := Option.map_eq_some_iff.mp e1
  have ht : (readEnv env 45 b4).cfg.typeMap i = some (celltyFromFmtty (fmtEntry y.formatKey s).ty) := by
    have : b4.fmt.typeMap i = b3.fmt.typeMap i := by
      rcases h4 with rfl | rfl
      · rfl
      · exact hT.epilogue env.fi i _ hyl
    rw [← e2, ← this]
    simp only [readEnv, OpenEnv.sheetEnv]
    rw [if_pos (by omega)]
    rfl
  refine ⟨s, hs, ?_, ?_⟩
  · intro hd
    rw [ht]
    simp only [fmtEntry]
    rw [if_pos ((isDate_spec _).mpr hd)]; rfl
  · intro hd
    rw [ht]
    simp only [fmtEntry]
    rw [if_neg (fun hh => hd ((isDate_spec _).mp hh))]; rfl

end Xlrd
