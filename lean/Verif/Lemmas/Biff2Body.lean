import Verif.Lemmas.Biff2Record

/-!
# All records of a BIFF2 worksheet
-/
set_option linter.unusedSimpArgs false
namespace Xlrd
open Spec

/-- A record of BIFF2 worksheets. -/
theorem sheet_item {env : OpenEnv} {mem rest d : Bytes} {o fin : OldSt} {p k c : Nat} (hc : c ∈ oldSheetCodes) (hl : d.length < 65536)
    (hm : mem.drop p = encRecs [(c, d)] ++ rest) (h : oldLoop env 21 mem (k + 1) o (p : Int) = .ok fin) :
    ∃ o', oldSheetRecord env o c d.length d = .ok o' ∧ oldLoop env 21 mem k o' ((p + (encRecs [(c, d)]).length : Nat) : Int) = .ok fin := by
  have hm' : mem.drop p = encRec c d ++ rest := by simpa [encRecs] using hm
  have hne : c < 65536 ∧ c ≠ 0xa ∧ c ∉ XL_FORMULA_OPCODES ∧ c ∉ bofcodes ∧ c ≠ XL_COUNTRY ∧ c ∉ otherCodes ∧ ¬ (c = XL_DIMENSION ∨ c = XL_DIMENSION2) ∧ c ∉ oldBookCodes :=
    (by decide : ∀ c ∈ oldSheetCodes, c < 65536 ∧ c ≠ 0xa ∧ c ∉ XL_FORMULA_OPCODES ∧ c ∉ bofcodes ∧ c ≠ XL_COUNTRY ∧ c ∉ otherCodes ∧
      ¬ (c = XL_DIMENSION ∨ c = XL_DIMENSION2) ∧ c ∉ oldBookCodes) c hc
  obtain ⟨n1, n2, n3, n4, n5, n6, n7, n8⟩ := hne
  rw [oldLoop, getRecordParts_at n1 hl hm'] at h
  simp only [bind, Except.bind] at h
  rw [if_neg (show ¬ c = XL_EOF from n2)] at h
  obtain ⟨⟨o', q⟩, h2, h3⟩ := bind_ok h
  unfold oldRecord at h2
  rw [if_neg n3, if_neg n4, if_neg n5, if_neg n6, if_neg n7, if_neg (fun hh => n8 hh.2), if_pos ⟨by decide, hc⟩] at h2
  obtain ⟨o1, h4, h5⟩ := bind_ok h2
  cases h5
  refine ⟨o', h4, ?_⟩
  have hlen : ((p + 4 + d.length : Nat) : Int) = ((p + (encRecs [(c, d)]).length : Nat) : Int) := by
    simp [encRecs, encRec_length]; ring
  rw [← hlen]
  exact h3

theorem plain_setting {x : SheetItem} (h : x.isPlain = true) : x.isSetting = true := by
  cases x <;> first | (cases h; done) | rfl

theorem plain_apply {E E' : SheetEnv} (h : E'.cfg.fmtInfo = E.cfg.fmtInfo) {x : SheetItem} (hx : x.isPlain = true) (s : SheetSt) : applyItem E' s x = applyItem E s x := by
  cases x <;> first | (cases hx; done) | rfl | (simp only [applyItem, h])

theorem setting_item {env : OpenEnv} {mem rest : Bytes} {o fin : OldSt} {x : SheetItem} (hv : o.bv = 21 ∨ o.bv = 20) (hx : x.isPlain = true) {dec : Bytes → R PyStr}
    (ho : x.OldOk 21 dec []) (hs : x.Short 21) {p k : Nat} (hm : mem.drop p = encRecs (x.records 21) ++ rest) (h : oldLoop env 21 mem (k + 1) o (p : Int) = .ok fin) :
    ∃ s', (∀ E : SheetEnv, E.cfg.fmtInfo = env.fi → applyItem E o.sheet x = .ok s') ∧
      oldLoop env 21 mem k { o with sheet := s' } ((p + (encRecs (x.records 21)).length : Nat) : Int) = .ok fin := by
  have h8 : o.bv < 80 := by omega
  have hset := plain_setting hx
  obtain ⟨c, d, hr, c1, c2, c3, c4⟩ := setting_record hset ho
  have hl : d.length < 65536 := hs (c, d) (by rw [hr]; simp)
  have hn : ∀ y, x ≠ .extra y := by rintro y rfl; cases hx
  have hrec : x.records 21 = x.records o.bv := plain_records (by decide) h8 hx
  have ho' : x.OldOk o.bv dec [] := plain_ok (by decide) h8 hx ho
  have hs' : x.Short o.bv := by unfold SheetItem.Short; rw [← hrec]; exact hs
  have hfits : FitsItem o.bv oldBad x := by
    cases x <;> first | (cases hx; done) | trivial | (exact fun h => ho.2 _ _ rfl ((by decide : ∀ c ∈ oldBad, c ∈ oldCodes) _ h))
  have h1 := plainItem_step (rounds_follows (readEnv env o.bv o.book) mem oldBad good_old) 0 o.sheet x hn hfits (setting_ok hset ho'.1) hs'
    (show mem.drop p = encRecs (x.records o.bv) ++ rest by rw [← hrec]; exact hm)
  have hm' : mem.drop p = encRec c d ++ rest := by rw [hm, hr]; simp [encRecs]
  have hg := getRecordParts_at c1 hl hm'
  rw [oldLoop, hg] at h
  simp only [bind, Except.bind] at h
  rw [if_neg (show ¬ c = XL_EOF from c2)] at h
  obtain ⟨⟨o', q⟩, h2, h3⟩ := bind_ok h
  have hnf : c ∉ XL_FORMULA_OPCODES := fun hh => c4 (List.mem_append_right _ hh)
  rw [record_bv (w := o.bv) (by decide) (by omega) c3 hnf] at h2
  have ha : At env o.bv o.book o o := ⟨rfl, .inl rfl, rfl, rfl⟩
  obtain ⟨_, a2⟩ := old_step h8 ha c3 (.inr hnf) h2
  have a3 := old_step_same c3 c4 h2
  rw [rounds, hg] at h1
  simp only [bind, Except.bind] at h1
  rw [if_neg (by tauto), a2] at h1
  simp only [rounds] at h1
  cases hq : applyItem (readEnv env o.bv o.book) o.sheet x with
  | error e => rw [hq] at h1; cases h1
  | ok s =>
    rw [hq] at h1
    simp only [Except.ok.injEq, Option.some.injEq, Prod.mk.injEq] at h1
    obtain ⟨e1, e2⟩ := h1
    refine ⟨s, fun E hE => ?_, ?_⟩
    · rw [← hq]
      exact plain_apply (show E.cfg.fmtInfo = env.fi from hE) hx o.sheet
    · have e2 : q = ((p + (encRecs (x.records o.bv)).length : Nat) : Int) := e2
      rw [hrec, ← e1, ← e2, ← a3]
      exact h3

/-- One item. -/
theorem b2_item {env : OpenEnv} {m : Bool} {dec : Bytes → R PyStr} {mem rest : Bytes} {o fin : OldSt} {it : B2Item} {p k : Nat} (hi : B2Inv env m dec o) (ho : it.Ok dec)
    (hs : ∀ q ∈ it.records, q.2.length < 65536) (hm : mem.drop p = encRecs it.records ++ rest) (h : oldLoop env 21 mem (k + 1) o (p : Int) = .ok fin) :
    ∃ o', B2Done env m dec o o' it ∧ (∀ y ∈ it.rowNumbers env.fi, m = true ∧ (y = 63 → o.ixfe ≠ none)) ∧ oldLoop env 21 mem k o' ((p + (encRecs it.records).length : Nat) : Int) = .ok fin := by
  cases it with
  | number r c a x =>
    obtain ⟨o', h1, h2⟩ := sheet_item (by decide) (hs _ (List.mem_singleton.mpr rfl)) hm h
    exact ⟨o', number_done hi ho h1, fun _ hh => (by cases hh), h2⟩
  | integer r c a x =>
    obtain ⟨o', h1, h2⟩ := sheet_item (by decide) (hs _ (List.mem_singleton.mpr rfl)) hm h
    exact ⟨o', integer_done hi ho h1, fun _ hh => (by cases hh), h2⟩
  | label r c a t b junk =>
    obtain ⟨o', h1, h2⟩ := sheet_item (by decide) (hs _ (List.mem_singleton.mpr rfl)) hm h
    exact ⟨o', label_done hi ho h1, fun _ hh => (by cases hh), h2⟩
  | boolerr r c a isErr v =>
    obtain ⟨o', h1, h2⟩ := sheet_item (by decide) (hs _ (List.mem_singleton.mpr rfl)) hm h
    exact ⟨o', boolerr_done hi ho h1, fun _ hh => (by cases hh), h2⟩
  | blank r c a junk =>
    obtain ⟨o', h1, h2⟩ := sheet_item (by decide) (hs _ (List.mem_singleton.mpr rfl)) hm h
    exact ⟨o', blank_done hi ho h1, fun _ hh => (by cases hh), h2⟩
  | ixfe x =>
    obtain ⟨o', h1, h2⟩ := sheet_item (by decide) (hs _ (List.mem_singleton.mpr rfl)) hm h
    have hx : x < 65536 := ho
    have h1 : (do let y ← unpackH (le16 x); pure { o with ixfe := some y } : R OldSt) = .ok o' := h1
    have hu : unpackH (le16 x) = .ok x := by
      unfold unpackH
      rw [unpackN_ok (by rfl)]
      simp [bind, Except.bind, pure, Except.pure, fld_le16 x hx]
    rw [hu] at h1
    cases h1
    exact ⟨_, ixfe_done hi, fun _ hh => (by cases hh), h2⟩
  | row r p ht d q rest' xf =>
    obtain ⟨o', h1, h2⟩ := sheet_item (by decide) (hs _ (List.mem_singleton.mpr rfl)) hm h
    exact ⟨o', (row_done hi ho rfl h1).1, (row_done hi ho rfl h1).2, h2⟩
  | colwidth first last w junk =>
    obtain ⟨o', h1, h2⟩ := sheet_item (by decide) (hs _ (List.mem_singleton.mpr rfl)) hm h
    exact ⟨o', colwidth_done hi ho h1, fun _ hh => (by cases hh), h2⟩
  | coldefault first as junk =>
    obtain ⟨o', h1, h2⟩ := sheet_item (by decide) (hs _ (List.mem_singleton.mpr rfl)) hm h
    exact ⟨o', coldefault_done hi ho h1, fun _ hh => (by cases hh), h2⟩
  | window op top left auto r g b junk =>
    obtain ⟨o', h1, h2⟩ := sheet_item (by decide) (hs _ (List.mem_singleton.mpr rfl)) hm h
    exact ⟨o', window_done hi ho h1, fun _ hh => (by cases hh), h2⟩
  | setting x =>
    obtain ⟨s', h1, h2⟩ := setting_item hi.ver ho.1 ho.2 hs hm h
    refine ⟨_, ⟨hi.sheet s' o.ixfe, (B2Ext.refl env m o).sheet s' o.ixfe, rfl, ?_, fun _ hh => (by cases hh), fun _ as has => (List.append_nil as).symm ▸ has.congr rfl rfl⟩, fun _ hh => (by cases hh), h2⟩
    exact h1 _ rfl
  | formula r c a res code flags junk =>
    obtain ⟨k1, k2, k3, k4⟩ := ho
    have hl := hs _ (List.mem_cons_self ..)
    have hm0 : mem.drop p = encRec code (at2 r c a ++ res.bytes ++ [flags] ++ junk) ++ (encRecs res.records ++ rest) := by
      rw [hm, B2Item.records, encRecs_cons, List.append_assoc]
    have hcode : code < 65536 ∧ code ≠ 0xa ∧ code ∈ XL_FORMULA_OPCODES := by rcases k3 with rfl | rfl | rfl <;> decide
    rw [oldLoop, getRecordParts_at hcode.1 hl hm0] at h
    simp only [bind, Except.bind] at h
    rw [if_neg (show ¬ code = XL_EOF from hcode.2.1)] at h
    obtain ⟨⟨o', q⟩, h2, h3⟩ := bind_ok h
    unfold oldRecord oldFormula at h2
    rw [if_pos hcode.2.2, if_neg (by decide)] at h2
    have hd := drop_at hm0 rfl
    rw [encRec_length] at hd
    rw [show p + (4 + (at2 r c a ++ res.bytes ++ [flags] ++ junk).length) = p + 4 + (at2 r c a ++ res.bytes ++ [flags] ++ junk).length by omega] at hd
    have hp : p + 4 + (at2 r c a ++ res.bytes ++ [flags] ++ junk).length ≤ mem.length := by
      have := congrArg List.length hm0
      rw [List.length_drop, List.length_append, encRec_length] at this
      omega
    obtain ⟨e1, e2⟩ := formula_done (code := code) hi hd hp ⟨k1, k2, k3, k4⟩ h2
    refine ⟨o', e2, fun _ hh => (by cases hh), ?_⟩
    have : ((p + (encRecs (B2Item.formula r c a res code flags junk).records).length : Nat) : Int) = q := by
      rw [e1, B2Item.records, encRecs_cons, List.length_append, encRec_length]
      have hz : (code, at2 r c a ++ res.bytes ++ [flags] ++ junk).2.length = (at2 r c a ++ res.bytes ++ [flags] ++ junk).length := rfl
      rw [hz]
      push_cast; omega
    rw [this]
    exact h3

/-- The effect of items, `f` giving the XF index of attributes after an IXFE record. -/
def stepsB2 (E : SheetEnv) (f : Option Nat → CellAttr → Nat) : Option Nat → SheetSt → List B2Item → R SheetSt
  | _, s, [] => .ok s
  | i, s, it :: rest => do
    let s ← stepB2 E (f i) (ixfeIndex i) s it
    stepsB2 E f (nextIxfe i it) s rest

theorem withIxfe_cons (i : Option Nat) (it : B2Item) (rest : List B2Item) : withIxfe i (it :: rest) = (i, it) :: withIxfe (nextIxfe i it) rest := by
  cases it <;> rfl

theorem b2_items {env : OpenEnv} {m : Bool} {dec : Bytes → R PyStr} {mem rest : Bytes} {fin : OldSt} {k : Nat} : ∀ (items : List B2Item) (p : Nat) (o : OldSt),
    B2Inv env m dec o → (∀ it ∈ items, it.Ok dec) → (∀ q ∈ items.flatMap B2Item.records, q.2.length < 65536) →
    mem.drop p = encRecs (items.flatMap B2Item.records) ++ rest → oldLoop env 21 mem (k + items.length) o (p : Int) = .ok fin →
    ∃ o', B2Inv env m dec o' ∧ B2Ext env m o o' ∧ stepsB2 (o'.env env) (xfOf m o') o.ixfe o.sheet items = .ok o'.sheet ∧
      (∀ q ∈ withIxfe o.ixfe items, ∀ a ∈ q.2.attrs env.fi, B2Known m o' q.1 a) ∧ (m = false → ∀ as, Num as o → Num (as ++ attrsB2 env.fi items) o') ∧
      (∀ q ∈ withIxfe o.ixfe items, ∀ y ∈ q.2.rowNumbers env.fi, m = true ∧ (y = 63 → q.1 ≠ none)) ∧
      oldLoop env 21 mem k o' ((p + (encRecs (items.flatMap B2Item.records)).length : Nat) : Int) = .ok fin := by
  intro items
  induction items with
  | nil =>
    intro p o hi _ _ _ h
    exact ⟨o, hi, B2Ext.refl _ _ _, rfl, fun q hq => (by cases hq), fun _ as has => (by simpa [attrsB2] using has), fun q hq => (by cases hq), h⟩
  | cons it items ih =>
    intro p o hi ho hs hm h
    rw [List.flatMap_cons, encRecs_append, List.append_assoc] at hm
    obtain ⟨o1, d, d', h1⟩ := b2_item hi (ho it (List.mem_cons_self ..))
      (fun q hq => hs q (by rw [List.flatMap_cons]; exact List.mem_append_left _ hq)) hm h
    obtain ⟨o', i1, i2, i3, i4, i6, i7, i5⟩ := ih (p + (encRecs it.records).length) o1 d.inv (fun x hx => ho x (List.mem_cons_of_mem _ hx))
      (fun q hq => hs q (by rw [List.flatMap_cons]; exact List.mem_append_right _ hq)) (drop_at hm rfl) h1
    rw [d.ixfe] at i3 i4 i7
    obtain ⟨e1, e2⟩ := env_ext d.inv i1 i2
    refine ⟨o', i1, d.ext.trans i2, ?_, ?_, ?_, ?_, ?_⟩
    · rw [stepsB2]
      have : stepB2 (o'.env env) (xfOf m o' o.ixfe) (ixfeIndex o.ixfe) o.sheet it = .ok o1.sheet := by
        rw [← d.step]
        refine step_transport _ e1 e2 (fun x hx => ?_) (fun a ha => ?_)
        · subst hx; exact (ho (.setting x) (List.mem_cons_self ..)).1
        · exact known_ext d.inv i2 (d.known a ha)
      rw [this]
      exact i3
    · intro q hq a ha
      rw [withIxfe_cons] at hq
      rcases List.mem_cons.mp hq with rfl | hq
      · exact ((d.known a ha).ext i2).1
      · exact i4 q hq a ha
    · intro hm as has
      have := i6 hm _ (d.num hm as has)
      rw [List.append_assoc] at this
      exact this
    · intro q hq y hy
      rw [withIxfe_cons] at hq
      rcases List.mem_cons.mp hq with rfl | hq
      · exact d' y hy
      · exact i7 q hq y hy
    · rw [List.flatMap_cons, encRecs_append, List.length_append, ← Nat.add_assoc]
      exact i5

end Xlrd
