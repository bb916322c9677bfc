import Verif.Model.OldSheet
import Verif.Spec.Biff2
import Verif.Lemmas.OldHead

/-!
# Cell attributes of BIFF2
-/
set_option linter.unusedSimpArgs false
namespace Xlrd
open Spec

theorem attr_bits0 : ∀ x : Fin 256, x.val &&& 0x3F = x.val % 64 ∧ upk x.val 6 0x40 = x.val / 64 % 2 ∧ upk x.val 7 0x80 = x.val / 128 ∧
    (x.val &&& 0xC0) >>> 6 = x.val / 64 ∧ x.val &&& 0x07 = x.val % 8 := by decide +kernel

theorem attr_bits2 : ∀ x : Fin 256,
    thinBorder x.val 0x08 = (if x.val.testBit 3 then 8 else 0, if x.val.testBit 3 then 1 else 0) ∧
    thinBorder x.val 0x10 = (if x.val.testBit 4 then 8 else 0, if x.val.testBit 4 then 1 else 0) ∧
    thinBorder x.val 0x20 = (if x.val.testBit 5 then 8 else 0, if x.val.testBit 5 then 1 else 0) ∧
    thinBorder x.val 0x40 = (if x.val.testBit 6 then 8 else 0, if x.val.testBit 6 then 1 else 0) ∧
    (if x.val &&& 0x80 ≠ 0 then 17 else 0) = (if x.val.testBit 7 then 17 else 0) := by decide +kernel

theorem fake_xf (a : CellAttr) (style : Bool) :
    fakeXf a.bytes style = .ok { a.xf 0 with parentStyleIndex := if style then 0 else 0xFFF } := by
  obtain ⟨a0, a1, a2⟩ := a
  obtain ⟨h1, h2, h3, _, _⟩ := attr_bits0 ⟨a0.toNat, a0.toNat_lt⟩
  obtain ⟨k1, _, _, k4, _⟩ := attr_bits0 ⟨a1.toNat, a1.toNat_lt⟩
  obtain ⟨_, _, _, _, l5⟩ := attr_bits0 ⟨a2.toNat, a2.toNat_lt⟩
  obtain ⟨m1, m2, m3, m4, m5⟩ := attr_bits2 ⟨a2.toNat, a2.toNat_lt⟩
  simp only at h1 h2 h3 k1 k4 l5 m1 m2 m3 m4 m5
  have e0 : fld [a0, a1, a2] 0 1 = a0.toNat := by simp [fld, le]
  have e1 : fld [a0, a1, a2] 1 1 = a1.toNat := by simp [fld, le]
  have e2 : fld [a0, a1, a2] 2 1 = a2.toNat := by simp [fld, le]
  unfold fakeXf
  rw [unpackN_ok (by rfl)]
  simp only [bind, Except.bind, CellAttr.bytes, e0, e1, e2, h2, h3, k1, k4, l5, m1, m2, m3, m4, m5, pure, Except.pure]
  rfl

/-- The formats and XFs while cells are read: they only grow. -/
structure FmtExt (st st' : FmtSt) : Prop where
  rest : st' = { st with formatMap := st'.formatMap, formatList := st'.formatList, xfList := st'.xfList, typeMap := st'.typeMap }
  xfs : st.xfList <+: st'.xfList
  types : ∀ k, k < st.xfList.length → st'.typeMap k = st.typeMap k
  known : ∀ k f, st.formatMap k = some f → st'.formatMap k = some f
  fresh : ∀ k, st.formatMap k = none → st'.formatMap k = none ∨ st'.formatMap k = some ⟨k, FUN, some "General".toList⟩

theorem FmtExt.refl (st : FmtSt) : FmtExt st st := ⟨rfl, List.prefix_rfl, fun _ _ => rfl, fun _ _ h => h, fun _ h => .inl h⟩

theorem FmtExt.trans {a b c : FmtSt} (h1 : FmtExt a b) (h2 : FmtExt b c) : FmtExt a c where
  rest := by
    have e1 := h1.rest
    have e2 := h2.rest
    rw [e2]
    rw [e1]
  xfs := h1.xfs.trans h2.xfs
  types k hk := (h2.types k (Nat.lt_of_lt_of_le hk h1.xfs.length_le)).trans (h1.types k hk)
  known k f h := h2.known k f (h1.known k f h)
  fresh k h := by
    rcases h1.fresh k h with h | h
    · exact h2.fresh k h
    · exact .inr (h2.known _ _ h)

/-- The state after a new XF. -/
def withXf (o : OldSt) (a : CellAttr) (style : Bool) : OldSt :=
  let st := ensureFormat o.book.fmt a.format
  let k := o.book.fmt.xfList.length
  { o with
    book := { o.book with fmt := { st with
      xfList := st.xfList ++ [{ a.xf k with parentStyleIndex := if style then 0 else 0xFFF }]
      typeMap := dictSet st.typeMap k (cellTypeOf st.formatMap a.format XL_CELL_NUMBER) } }
    attrXf := dictSet o.attrXf a.bytes k }

theorem insert_eq (o : OldSt) (a : CellAttr) (style : Bool) : insertXf o a.bytes style = .ok (o.book.fmt.xfList.length, withXf o a style) := by
  unfold insertXf
  rw [fake_xf]
  rfl

theorem ensureFormat_spec (st : FmtSt) (k : Nat) :
    ensureFormat st k = { st with formatMap := (ensureFormat st k).formatMap, formatList := (ensureFormat st k).formatList } ∧
    (∃ f, (ensureFormat st k).formatMap k = some f) ∧ (∀ j f, st.formatMap j = some f → (ensureFormat st k).formatMap j = some f) ∧
    (∀ j, st.formatMap j = none → (ensureFormat st k).formatMap j = none ∨ (ensureFormat st k).formatMap j = some ⟨j, FUN, some "General".toList⟩) := by
  unfold ensureFormat
  cases h : st.formatMap k with
  | some f => exact ⟨rfl, ⟨f, h⟩, fun _ _ h => h, fun _ h => .inl h⟩
  | none =>
    refine ⟨rfl, ⟨_, by simp [dictSet]; rfl⟩, ?_, ?_⟩
    · intro j f hj
      have : j ≠ k := by rintro rfl; rw [h] at hj; cases hj
      simp [dictSet, this, hj]
    · intro j hj
      by_cases e : j = k
      · subst e; right; simp [dictSet]
      · left; simp [dictSet, e, hj]

theorem withXf_ext (o : OldSt) (a : CellAttr) (style : Bool) : FmtExt o.book.fmt (withXf o a style).book.fmt := by
  obtain ⟨h1, h2, h3, h4⟩ := ensureFormat_spec o.book.fmt a.format
  refine ⟨?_, ?_, ?_, h3, h4⟩
  · unfold withXf ensureFormat
    cases o.book.fmt.formatMap a.format <;> rfl
  · show _ <+: (ensureFormat o.book.fmt a.format).xfList ++ _
    rw [h1]; exact List.prefix_append _ _
  · intro k hk
    show dictSet (ensureFormat o.book.fmt a.format).typeMap o.book.fmt.xfList.length _ k = _
    unfold dictSet
    rw [if_neg (by omega), h1]

theorem withXf_list (o : OldSt) (a : CellAttr) (style : Bool) : (withXf o a style).book.fmt.xfList =
    o.book.fmt.xfList ++ [{ a.xf o.book.fmt.xfList.length with parentStyleIndex := if style then 0 else 0xFFF }] := by
  show (ensureFormat o.book.fmt a.format).xfList ++ _ = _
  rw [(ensureFormat_spec o.book.fmt a.format).1]

/-- An XF stands for the attributes. -/
def Stands (o : OldSt) (a : CellAttr) (k : Nat) : Prop :=
  15 ≤ k ∧ o.book.fmt.xfList[k]? = some (a.xf k) ∧ ∃ ft, o.book.fmt.formatMap a.format = some ft ∧ o.book.fmt.typeMap k = some (celltyFromFmtty ft.ty)

theorem Stands.ext {o o' : OldSt} {a : CellAttr} {k : Nat} (h : Stands o a k) (he : FmtExt o.book.fmt o'.book.fmt) : Stands o' a k := by
  obtain ⟨h1, h2, ft, h3, h4⟩ := h
  have hk : k < o.book.fmt.xfList.length := (List.getElem?_eq_some_iff.mp h2).1
  refine ⟨h1, ?_, ft, he.known _ _ h3, ?_⟩
  · obtain ⟨t, ht⟩ := he.xfs
    rw [← ht, List.getElem?_append_left hk, h2]
  · rw [he.types k hk, h4]

theorem withXf_stands (o : OldSt) (a : CellAttr) (h : 15 ≤ o.book.fmt.xfList.length) : Stands (withXf o a false) a o.book.fmt.xfList.length := by
  refine ⟨h, ?_, ?_⟩
  · rw [withXf_list, List.getElem?_append_right (Nat.le_refl _), Nat.sub_self]; rfl
  · obtain ⟨h1, ⟨f, h2⟩, _, _⟩ := ensureFormat_spec o.book.fmt a.format
    refine ⟨f, h2, ?_⟩
    show dictSet (ensureFormat o.book.fmt a.format).typeMap o.book.fmt.xfList.length _ _ = _
    unfold dictSet
    rw [if_pos rfl]
    unfold cellTypeOf
    rw [h2]

/-- What the reader knows of attributes seen so far. -/
structure Good (o : OldSt) : Prop where
  empty : o.book.fmt.xfList = [] → o.attrXf = fun _ => none
  len : o.book.fmt.xfList ≠ [] → 16 ≤ o.book.fmt.xfList.length
  lt : ∀ a k, o.attrXf a = some k → k < o.book.fmt.xfList.length
  inj : ∀ a b k, o.attrXf a = some k → o.attrXf b = some k → a = b
  stands : ∀ (a : CellAttr) k, o.attrXf a.bytes = some k → Stands o a k

theorem attr_bytes_inj {a b : CellAttr} (h : a.bytes = b.bytes) : a = b := by
  obtain ⟨a0, a1, a2⟩ := a
  obtain ⟨b0, b1, b2⟩ := b
  simp only [CellAttr.bytes, List.cons.injEq, and_true] at h
  obtain ⟨rfl, rfl, rfl⟩ := h
  rfl

theorem Good.insert {o : OldSt} (h : Good o) (hn : 16 ≤ o.book.fmt.xfList.length) (a : CellAttr) : Good (withXf o a false) := by
  have hl : (withXf o a false).book.fmt.xfList.length = o.book.fmt.xfList.length + 1 := by rw [withXf_list]; simp
  have hat : ∀ b k, (withXf o a false).attrXf b = some k → (b = a.bytes ∧ k = o.book.fmt.xfList.length) ∨ (b ≠ a.bytes ∧ o.attrXf b = some k) := by
    intro b k hb
    have hb : dictSet o.attrXf a.bytes o.book.fmt.xfList.length b = some k := hb
    unfold dictSet at hb
    by_cases e : b = a.bytes
    · rw [if_pos e] at hb; cases hb; exact .inl ⟨e, rfl⟩
    · rw [if_neg e] at hb; exact .inr ⟨e, hb⟩
  refine ⟨?_, ?_, ?_, ?_, ?_⟩
  · intro he; rw [he] at hl; simp at hl
  · intro _; omega
  · intro b k hb
    rcases hat b k hb with ⟨_, rfl⟩ | ⟨_, hb⟩
    · omega
    · have := h.lt b k hb; omega
  · intro b c k hb hc
    rcases hat b k hb with ⟨rfl, rfl⟩ | ⟨_, hb⟩
    · rcases hat c _ hc with ⟨rfl, _⟩ | ⟨_, hc⟩
      · rfl
      · have := h.lt c _ hc; omega
    · rcases hat c _ hc with ⟨rfl, rfl⟩ | ⟨_, hc⟩
      · have := h.lt b _ hb; omega
      · exact h.inj b c k hb hc
  · intro b k hb
    rcases hat _ k hb with ⟨e, rfl⟩ | ⟨_, hb⟩
    · rw [attr_bytes_inj e]; exact withXf_stands o a (by omega)
    · exact (h.stands b k hb).ext (withXf_ext o a false)

/-- The attributes of the XFs that come first. -/
def attr40 : CellAttr := ⟨0x40, 0, 0⟩

theorem styles_step : ∀ (n i : Nat) (o : OldSt), i + (n + 1) = 16 → o.book.fmt.xfList.length = i → (∀ b, b ≠ attr40.bytes → o.attrXf b = none) →
    ∃ o', insertStyles (n + 1) i o = .ok o' ∧ Good o' ∧ o'.book.fmt.xfList.length = 16 ∧ FmtExt o.book.fmt o'.book.fmt ∧
      o' = { o with book := { o.book with fmt := o'.book.fmt }, attrXf := o'.attrXf } ∧ o'.attrXf attr40.bytes = some 15 ∧
      ∀ b, b ≠ attr40.bytes → o'.attrXf b = none
  | 0, i, o, hi, hl, ha => by
    obtain rfl : i = 15 := by omega
    have hw : ∀ b, b ≠ attr40.bytes → (withXf o attr40 false).attrXf b = none := by
      intro b hb
      show dictSet o.attrXf attr40.bytes _ b = none
      unfold dictSet
      rw [if_neg hb]; exact ha b hb
    have hw2 : (withXf o attr40 false).attrXf attr40.bytes = some 15 := by
      show dictSet o.attrXf attr40.bytes o.book.fmt.xfList.length attr40.bytes = some 15
      unfold dictSet
      rw [if_pos rfl, hl]
    have hll : (withXf o attr40 false).book.fmt.xfList.length = 16 := by rw [withXf_list]; simp [hl]
    have hsome : ∀ b k, (withXf o attr40 false).attrXf b = some k → b = attr40.bytes ∧ k = 15 := by
      intro b k hb
      by_cases e : b = attr40.bytes
      · subst e; rw [hw2] at hb; cases hb; exact ⟨rfl, rfl⟩
      · rw [hw b e] at hb; cases hb
    refine ⟨withXf o attr40 false, ?_, ⟨?_, ?_, ?_, ?_, ?_⟩, hll, withXf_ext o attr40 false, rfl, hw2, hw⟩
    · rw [insertStyles, show ([0x40, 0, 0] : Bytes) = attr40.bytes from rfl, show decide (15 < 15) = false from rfl, insert_eq]
      rfl
    · intro h; rw [h] at hll; simp at hll
    · intro _; omega
    · intro b k hb; rw [(hsome b k hb).2, hll]; decide
    · intro b c k hb hc; rw [(hsome b k hb).1, (hsome c k hc).1]
    · intro b k hb
      obtain ⟨e, rfl⟩ := hsome _ k hb
      rw [attr_bytes_inj e]
      have := withXf_stands o attr40 (by omega)
      rw [hl] at this
      exact this
  | n + 1, i, o, hi, hl, ha => by
    have hi' : decide (i < 15) = true := by simp; omega
    obtain ⟨o', h1, h2, h3, h4, h5, h6, h7⟩ := styles_step n (i + 1) (withXf o attr40 true) (by omega) (by rw [withXf_list]; simp [hl]) (by
      intro b hb
      show dictSet o.attrXf attr40.bytes _ b = none
      unfold dictSet
      rw [if_neg hb]; exact ha b hb)
    refine ⟨o', ?_, h2, h3, (withXf_ext o attr40 true).trans h4, ?_, h6, h7⟩
    · rw [insertStyles, show ([0x40, 0, 0] : Bytes) = attr40.bytes from rfl, hi', insert_eq]
      exact h1
    · rw [h5]; rfl

/-- The XF for attributes in a file without XF records. -/
theorem attr_index {o : OldSt} (h : Good o) (a : CellAttr) (hs : a.slot = 0) :
    ∃ k o', attrIndex o a.bytes = .ok (k, o') ∧ Good o' ∧ o'.attrXf a.bytes = some k ∧ (∀ b j, o.attrXf b = some j → o'.attrXf b = some j) ∧
      FmtExt o.book.fmt o'.book.fmt ∧ o' = { o with book := { o.book with fmt := o'.book.fmt }, attrXf := o'.attrXf } ∧ o'.book.fmt.xfList ≠ [] := by
  have hb : byteAt a.bytes 0 = .ok a.a0.toNat := rfl
  have h0 : a.a0.toNat &&& 0x3F = 0 := by
    rw [(attr_bits0 ⟨a.a0.toNat, a.a0.toNat_lt⟩).1]; exact hs
  unfold attrIndex
  rw [hb]
  simp only [bind, Except.bind, h0, decide_true, pyAssert, if_true]
  cases hx : o.attrXf a.bytes with
  | some k =>
    simp only
    refine ⟨k, o, rfl, h, hx, fun _ _ h => h, FmtExt.refl _, rfl, ?_⟩
    intro he
    rw [h.empty he] at hx
    cases hx
  | none =>
    simp only
    by_cases he : o.book.fmt.xfList = []
    · obtain ⟨o1, h1, h2, h3, h4, h5, h6, h7⟩ := styles_step 15 0 o rfl (by rw [he]; rfl) (fun b _ => by rw [h.empty he])
      have : withStyles o = .ok o1 := by unfold withStyles; rw [if_pos he]; exact h1
      rw [this]
      simp only
      rw [insert_eq]
      refine ⟨_, _, rfl, h2.insert (by omega) a, ?_, ?_, h4.trans (withXf_ext o1 a false), ?_, ?_⟩
      · show dictSet _ _ _ _ = _
        unfold dictSet; rw [if_pos rfl]
      · intro b j hb
        rw [h.empty he] at hb
        cases hb
      · rw [h5]; rfl
      · rw [withXf_list]; simp
    · have : withStyles o = .ok o := by unfold withStyles; rw [if_neg he]
      rw [this]
      simp only
      rw [insert_eq]
      refine ⟨_, _, rfl, h.insert (h.len he) a, ?_, ?_, withXf_ext o a false, rfl, ?_⟩
      · show dictSet _ _ _ _ = _
        unfold dictSet; rw [if_pos rfl]
      · intro b j hb
        have hne : b ≠ a.bytes := by rintro rfl; rw [hx] at hb; cases hb
        show dictSet _ _ _ _ = _
        unfold dictSet; rw [if_neg hne]; exact hb
      · rw [withXf_list]; simp

theorem attr_index_slot {o : OldSt} {a : CellAttr} {r : Nat × OldSt} (h : attrIndex o a.bytes = .ok r) : a.slot = 0 := by
  have hb : byteAt a.bytes 0 = .ok a.a0.toNat := rfl
  unfold attrIndex at h
  rw [hb] at h
  simp only [bind, Except.bind] at h
  by_cases h0 : a.a0.toNat &&& 0x3F = 0
  · rw [(attr_bits0 ⟨a.a0.toNat, a.a0.toNat_lt⟩).1] at h0; exact h0
  · rw [decide_eq_false h0] at h; cases h

/-- The numbers of attributes, `as` having been used so far. -/
structure Num (as : List CellAttr) (o : OldSt) : Prop where
  xf : ∀ a : CellAttr, o.attrXf a.bytes = if a ∈ ownXfs as then some (16 + (ownXfs as).idxOf a) else if a = plainAttr ∧ ownXfs as ≠ [] then some 15 else none
  len : o.book.fmt.xfList.length = if ownXfs as = [] then 0 else 16 + (ownXfs as).length

theorem Num.congr {as : List CellAttr} {o o' : OldSt} (h : Num as o) (h1 : o'.attrXf = o.attrXf) (h2 : o'.book.fmt = o.book.fmt) : Num as o' :=
  ⟨by rw [h1]; exact h.xf, by rw [h2]; exact h.len⟩

theorem ownXfs_snoc (as : List CellAttr) (a : CellAttr) :
    ownXfs (as ++ [a]) = if a ∈ ownXfs as ∨ a = plainAttr ∧ ownXfs as ≠ [] then ownXfs as else ownXfs as ++ [a] := by
  unfold ownXfs
  rw [List.foldl_append]
  rfl

theorem withXf_num {as : List CellAttr} {o : OldSt} {a : CellAttr} (ho : o.book.fmt.xfList.length = 16 + (ownXfs as).length)
    (hx : ∀ b : CellAttr, o.attrXf b.bytes = if b ∈ ownXfs as then some (16 + (ownXfs as).idxOf b) else if b = plainAttr then some 15 else none)
    (hn : a ∉ ownXfs as) (hp : ¬ (a = plainAttr ∧ ownXfs as ≠ [])) : Num (as ++ [a]) (withXf o a false) := by
  have hs : ownXfs (as ++ [a]) = ownXfs as ++ [a] := by rw [ownXfs_snoc, if_neg (by tauto)]
  refine ⟨fun b => ?_, ?_⟩
  · show dictSet o.attrXf a.bytes o.book.fmt.xfList.length b.bytes = _
    unfold dictSet
    rw [hs]
    by_cases e : b = a
    · subst e
      rw [if_pos rfl, if_pos (by simp), ho, List.idxOf_append_of_notMem hn]
      simp
    · rw [if_neg (fun h => e (attr_bytes_inj h)), hx b]
      by_cases hb : b ∈ ownXfs as
      · rw [if_pos hb, if_pos (List.mem_append_left _ hb), List.idxOf_append_of_mem hb]
      · rw [if_neg hb, if_neg (show b ∉ ownXfs as ++ [a] by simp [hb, e])]
        by_cases hp : b = plainAttr
        · rw [if_pos hp, if_pos ⟨hp, by simp⟩]
        · rw [if_neg hp, if_neg (fun h => hp h.1)]
  · rw [withXf_list, hs, if_neg (by simp)]
    simp [ho]; omega

theorem attr_num {as : List CellAttr} {o o' : OldSt} (hg : Good o) (h : Num as o) {a : CellAttr} {k : Nat} (hr : attrIndex o a.bytes = .ok (k, o')) : Num (as ++ [a]) o' := by
  have hs := attr_index_slot hr
  have hb : byteAt a.bytes 0 = .ok a.a0.toNat := rfl
  have h0 : a.a0.toNat &&& 0x3F = 0 := by
    rw [(attr_bits0 ⟨a.a0.toNat, a.a0.toNat_lt⟩).1]; exact hs
  unfold attrIndex at hr
  rw [hb] at hr
  simp only [bind, Except.bind, h0, decide_true, pyAssert, if_true] at hr
  have hxa := h.xf a
  cases hx : o.attrXf a.bytes with
  | some j =>
    rw [hx] at hr hxa
    cases hr
    have : ownXfs (as ++ [a]) = ownXfs as := by
      rw [ownXfs_snoc]
      by_cases c1 : a ∈ ownXfs as
      · rw [if_pos (.inl c1)]
      · rw [if_neg c1] at hxa
        by_cases c2 : a = plainAttr ∧ ownXfs as ≠ []
        · rw [if_pos (.inr c2)]
        · rw [if_neg c2] at hxa; cases hxa
    exact ⟨by rw [this]; exact h.xf, by rw [this]; exact h.len⟩
  | none =>
    rw [hx] at hr hxa
    simp only at hr
    have hn : a ∉ ownXfs as := by intro c; rw [if_pos c] at hxa; cases hxa
    have hp : ¬ (a = plainAttr ∧ ownXfs as ≠ []) := by intro c; rw [if_neg hn, if_pos c] at hxa; cases hxa
    by_cases he : o.book.fmt.xfList = []
    · have hown : ownXfs as = [] := by
        by_contra c
        have := h.len
        rw [he, if_neg c] at this
        simp at this
        omega
      obtain ⟨o1, h1, _, h3, _, _, h6, h7⟩ := styles_step 15 0 o rfl (by rw [he]; rfl) (fun b _ => by rw [hg.empty he])
      have : withStyles o = .ok o1 := by unfold withStyles; rw [if_pos he]; exact h1
      rw [this] at hr
      simp only [insert_eq] at hr
      cases hr
      refine withXf_num (by rw [h3, hown]; rfl) (fun b => ?_) hn hp
      rw [hown, if_neg (by simp)]
      by_cases hb : b = plainAttr
      · rw [if_pos hb, hb]; exact h6
      · rw [if_neg hb]
        exact h7 _ fun e => hb (attr_bytes_inj e)
    · have : withStyles o = .ok o := by unfold withStyles; rw [if_neg he]
      rw [this] at hr
      simp only [insert_eq] at hr
      cases hr
      have hown : ownXfs as ≠ [] := by
        intro c
        have := h.len
        rw [if_pos c] at this
        exact he (List.length_eq_zero_iff.mp this)
      refine withXf_num (by rw [h.len, if_neg hown]) (fun b => ?_) hn hp
      rw [h.xf b]
      simp only [ne_eq, hown, not_false_eq_true, and_true]

end Xlrd
