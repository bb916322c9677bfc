import Verif.Props.NumberFormats

/-!
# C44 defined names
-/
set_option linter.unusedSimpArgs false
namespace Xlrd
open Spec

/-! ## The NAME records -/

theorem nameShown_eq {o : NameObj} {stored : PyStr} (h : NameShown o stored) :
    (if o.builtin ≠ 0 then builtinNameFromCode stored else stored) = o.name := by
  unfold NameShown at h
  by_cases hb : o.builtin = 0
  · rw [if_pos hb] at h
    rw [if_neg (by simpa using hb), h]
  · rw [if_neg hb] at h
    rw [if_pos hb]
    have hm : ∀ k : Nat, builtinNames[k]? = (builtinNameList[k]?).map String.toList := by
      intro k; unfold builtinNames builtinNameList; rw [List.getElem?_map]
    rcases h with ⟨c, s, rfl, h1, h2⟩ | ⟨h1, h2⟩
    · simp only [builtinNameFromCode, hm, h1, Option.map_some]
      exact h2.symm
    · rw [h2]
      match stored, h1 with
      | [], _ => rfl
      | [c], h1 =>
        have := h1 c rfl
        simp only [builtinNameFromCode, hm, List.getElem?_eq_none this, Option.map_none]
      | _ :: _ :: _, _ => rfl

theorem nameText_read {env : BookEnv} {dec : Bytes → R PyStr} {b : Book} {stored : PyStr} {n : Nat} {body data r : Bytes} (hd : env.bv < 80 → b.dec env = dec)
    (h : NameBody env.bv dec stored n body) (hp : data.drop 14 = body ++ r) :
    nameText env b data n = .ok (stored, ((14 + body.length : Nat) : Int)) := by
  unfold nameText
  cases h with
  | biff8 u h8 ok text =>
    subst text
    rw [if_neg (by omega)]
    exact unicodeBody_at u ok 2 hp
  | older _ h8 text =>
    rw [if_pos h8]
    have := unpackStringPos_at (b.dec env) (p := 14) (l := 2) hp
    rw [hd h8, text] at this
    rw [hd h8]
    exact this

theorem name_read {env : BookEnv} {dec : Bytes → R PyStr} {b : Book} {o : NameObj} {data : Bytes} (h50 : 50 ≤ env.bv)
    (hd : env.bv < 80 → b.dec env = dec) (h : NameRecord env.bv dec o data) :
    ∃ s n, slice data 0 14 = s ∧ s.length = 14 ∧ fld s 0 2 = o.optionFlags ∧ fld s 3 1 = n ∧ fld s 4 2 = o.basicFormulaLen ∧
      fld s 6 2 = o.extnSheetNum ∧ fld s 8 2 = o.excelSheetIndex ∧
      ∃ t q, nameText env b data n = .ok (t, q) ∧ NameShown o t ∧ sliceFrom data q = o.rawFormula := by
  obtain ⟨u, kb, n, lens, stored, body, hfit, hflags, hf, hn, hl, he, hx, hlen, hb, hs, rfl⟩ := h
  refine ⟨le16 o.optionFlags ++ [kb, UInt8.ofNat n] ++ le16 o.basicFormulaLen ++ le16 o.extnSheetNum ++ le16 o.excelSheetIndex ++ lens, n, ?_, ?_, ?_, ?_, ?_, ?_, ?_, ?_⟩
  · rw [List.append_assoc _ body]
    exact slice_front 14 _ _ (by simp [le16, hlen])
  · simp [le16, hlen]
  · have := le_le16 o.optionFlags hf ([kb, UInt8.ofNat n] ++ le16 o.basicFormulaLen ++ le16 o.extnSheetNum ++ le16 o.excelSheetIndex ++ lens)
    simpa [fld] using this
  · simp [fld, le16, le, u8_toNat_ofNat]; omega
  · have := le_le16 o.basicFormulaLen hl (le16 o.extnSheetNum ++ le16 o.excelSheetIndex ++ lens)
    simpa [fld, le16] using this
  · have := le_le16 o.extnSheetNum he (le16 o.excelSheetIndex ++ lens)
    simpa [fld, le16] using this
  · have := le_le16 o.excelSheetIndex hx lens
    simpa [fld, le16] using this
  · have hp : (le16 o.optionFlags ++ [kb, UInt8.ofNat n] ++ le16 o.basicFormulaLen ++ le16 o.extnSheetNum ++ le16 o.excelSheetIndex ++ lens ++
      body ++ o.rawFormula).drop 14 = body ++ o.rawFormula := by
      rw [List.append_assoc _ body]
      exact List.drop_left' (by simp [le16, hlen])
    refine ⟨stored, _, nameText_read hd hb hp, hs, ?_⟩
    have := drop_at hp rfl
    rw [sliceFrom_nat _ _ (by simp only [List.length_append, List.length_cons, List.length_nil, le16, hlen]; omega)]
    exact this

theorem names_items {env : BookEnv} (h50 : 50 ≤ env.bv) {items : List GItem} {names : List NameObj} (hc : Names env.bv (textAt env) items names) :
    ∀ {f : FmtSt} {b : Book}, applyGlobals env { fmt := f } items = .ok b →
      b.nameObjs = names.mapIdx fun i o => { o with nameIndex := i, scope := none } := by
  unfold Names at hc
  induction hc with
  | nil => intro f b h; cases h; rfl
  | @take pre xs c d x hc0 hsel hrel ih =>
    intro f b h
    obtain ⟨b1, h1, h2⟩ := gItems_snoc h
    have hi := items_enc pre (fresh_enc env f) h1
    simp only [List.nil_append] at hi
    have ih1 := ih h1
    subst hsel
    have e : applyGItem env b1 (.one 0x18 d) = handleName env b1 d := rfl
    rw [e] at h2
    unfold handleName at h2
    rw [if_neg (by omega)] at h2
    obtain ⟨b2, h3, h2⟩ := bind_ok h2
    obtain ⟨i1, i2⟩ := derive_inv hi h3
    obtain ⟨s, n, s1, s2, f1, f2, f3, f4, f5, t, q, h4, h5, h6⟩ := name_read (b := b2) h50 (fun h8 => dec_eq (i2 (Or.inl h8))) hrel
    rw [s1, unpackN_ok s2] at h2
    simp only [bind, Except.bind, f1, f2, f3, f4, f5, h4, h6, pure, Except.pure, Except.ok.injEq] at h2
    subst h2
    obtain ⟨en, cc, u, r, rfl⟩ := derive_frame h3
    simp only
    rw [ih1, List.mapIdx_append]
    congr 1
    simp only [List.mapIdx_cons, List.mapIdx_nil, List.length_mapIdx, Nat.zero_add]
    congr 1
    obtain ⟨u', _, _, _, _, _, hfit, hflags, _⟩ := hrel
    have g : ∀ k w v mask, fieldAt (nameFlags x u') k = some (v, w) → mask = (2 ^ w - 1) * 2 ^ k → upk x.optionFlags k mask = v := by
      intro k w v mask hk hm
      rw [upk_bits _ _ _ _ hm, hflags]
      exact bits_pack _ hfit hk
    have e1 := g 0 1 x.hidden 1 rfl (by decide)
    have e2 := g 1 1 x.func 2 rfl (by decide)
    have e3 := g 2 1 x.vbasic 4 rfl (by decide)
    have e4 := g 3 1 x.macroFlag 8 rfl (by decide)
    have e5 := g 4 1 x.complex 0x10 rfl (by decide)
    have e6 := g 5 1 x.builtin 0x20 rfl (by decide)
    have e7 := g 6 6 x.funcgroup 0xfc0 rfl (by decide)
    have e8 := g 12 1 x.binary 0x1000 rfl (by decide)
    rw [e1, e2, e3, e4, e5, e6, e7, e8, nameShown_eq h5]
  | @skip pre xs it hc0 hns ih =>
    intro f b h
    obtain ⟨b1, h1, h2⟩ := gItems_snoc h
    have ih1 := ih h1
    cases it with
    | sst d more => obtain ⟨t, rfl⟩ := sst_frame h2; exact ih1
    | extern d more => obtain ⟨_, _, _, _, _, _, _, _, rfl⟩ := extern_frame h2; exact ih1
    | one c d =>
      have hc : c ≠ XL_NAME := hns c d rfl
      rw [(record_frame h2).names hc]
      exact ih1

theorem setScopes_at {env : BookEnv} {b : Book} {l os : List NameObj} (h : setScopes env b l = .ok os) :
    os.length = l.length ∧ ∀ (i : Nat) o, l[i]? = some o → ∃ s, nameScope env b o = .ok s ∧ os[i]? = some { o with scope := some s } := by
  induction l generalizing os with
  | nil => cases h; simp
  | cons o l ih =>
    simp only [setScopes] at h
    obtain ⟨s, h1, h⟩ := bind_ok h
    obtain ⟨r, h2, h⟩ := bind_ok h
    cases h
    obtain ⟨h3, h4⟩ := ih h2
    refine ⟨by simp [h3], ?_⟩
    intro i o' hi
    cases i with
    | zero => cases hi; exact ⟨s, h1, rfl⟩
    | succ i => exact h4 i o' hi

/-- C44: `name_obj_list` holds the names of the NAME records in file order, each at its own index with the attributes
in the record; in BIFF8 files the scope is the number of the sheet its sheet index points to. -/
theorem C44_names (env : BookEnv) (h50 : 50 ≤ env.bv) (pre post eof : Bytes) (he : eof.length < 65536) (items : List GItem)
    (hok : GlobalsOk env.bv items) (names : List NameObj) (hn : Names env.bv (textAt env) items names)
    (sheets : List SheetRec) (hsh : Sheets env.bv (textAt env) items sheets) (b : Book) (p : Int)
    (h : parseGlobals env (pre ++ encGlobals items eof ++ post) newBook (pre.length : Int) = .ok (b, p)) :
    b.nameObjs.length = names.length ∧
    ∀ (i : Nat) o, names[i]? = some o → ∃ s, b.nameObjs[i]? = some { o with nameIndex := i, scope := some s } ∧
      (80 ≤ env.bv → s = scopeOf sheets o.excelSheetIndex) := by
  obtain ⟨f, b1, h1, h2, h3, _⟩ := parse_ok he hok h
  have hl := names_items h50 hn h2
  have hsl := sheets_items h50 hsh h2
  obtain ⟨os, h4, _, _, _, _, rfl⟩ := eof_frame h3
  obtain ⟨h5, h6⟩ := setScopes_at h4
  simp only
  refine ⟨by rw [h5, hl, List.length_mapIdx], ?_⟩
  intro i o hi
  obtain ⟨s, h7, h8⟩ := h6 i { o with nameIndex := i, scope := none } (by rw [hl, List.getElem?_mapIdx, hi]; rfl)
  refine ⟨s, h8, ?_⟩
  intro hb
  unfold nameScope at h7
  rw [if_pos hb] at h7
  simp only at h7
  unfold scopeOf
  by_cases h0 : o.excelSheetIndex = 0
  · rw [if_pos h0] at h7 ⊢; cases h7; rfl
  · rw [if_neg h0] at h7 ⊢
    cases hs : sheets[o.excelSheetIndex - 1]? with
    | none =>
      have : b1.allSheetsMap[o.excelSheetIndex - 1]? = none := by
        rw [List.getElem?_eq_none_iff] at hs ⊢
        rw [hsl.length]; exact hs
      rw [this] at h7
      cases h7
      rfl
    | some sh =>
      rw [hsl.map _ _ hs] at h7
      simp only at h7 ⊢
      cases hw : sh.isWorksheet with
      | true =>
        simp only [hw, if_true, Except.ok.injEq] at h7 ⊢
        rw [if_neg (by omega)] at h7
        exact h7.symm
      | false =>
        simp only [hw, Bool.false_eq_true, if_false, if_true, Except.ok.injEq] at h7 ⊢
        exact h7.symm

/-! ## The maps -/

/-- The two maps after entering `os`. -/
theorem enter_all (lower : PyStr → PyStr) (os : List NameObj) :
    (∀ k s, (os.foldl (enterName lower) (fun _ => none, fun _ => none)).1 (k, s) =
      ((os.filter fun o => decide (lower o.name = k ∧ o.scope.getD 0 = s)).getLast?).map NameObj.nameIndex) ∧
    (∀ k, (os.foldl (enterName lower) (fun _ => none, fun _ => none)).2 k =
      if (os.filter fun o => decide (lower o.name = k)) = [] then none
      else some ((os.filter fun o => decide (lower o.name = k)).map fun o => (o.scope.getD 0, o.nameIndex))) := by
  induction os using List.reverseRecOn with
  | nil => simp
  | append_singleton os o ih =>
    obtain ⟨ih1, ih2⟩ := ih
    rw [List.foldl_append, List.foldl_cons, List.foldl_nil]
    constructor
    · intro k s
      simp only [enterName, dictSet, List.filter_append]
      by_cases hk : lower o.name = k ∧ o.scope.getD 0 = s
      · obtain ⟨rfl, rfl⟩ := hk
        simp
      · have : ¬ (k, s) = (lower o.name, o.scope.getD 0) := by
          intro he; simp only [Prod.mk.injEq] at he; exact hk ⟨he.1.symm, he.2.symm⟩
        rw [if_neg this, ih1]
        simp [hk]
    · intro k
      simp only [enterName, dictSet, List.filter_append]
      by_cases hk : lower o.name = k
      · subst hk
        rw [if_pos rfl, ih2]
        by_cases hn : (os.filter fun o' => decide (lower o'.name = lower o.name)) = []
        · rw [if_pos hn]; simp [hn]
        · rw [if_neg hn]; simp
      · rw [if_neg (Ne.symm hk), ih2]
        simp [hk]

/-- Names know their indexes. -/
theorem name_index_items {env : BookEnv} (items : List GItem) {b0 b : Book} (h0 : ∀ (i : Nat) o, b0.nameObjs[i]? = some o → o.nameIndex = i)
    (h : applyGlobals env b0 items = .ok b) : ∀ (i : Nat) o, b.nameObjs[i]? = some o → o.nameIndex = i := by
  refine gItems_inv (fun b => ∀ (i : Nat) o, b.nameObjs[i]? = some o → o.nameIndex = i) ?_ items _ _ h0 h
  intro b it b' hb ha
  cases it with
  | sst d more => obtain ⟨t, rfl⟩ := sst_frame ha; exact hb
  | extern d more => obtain ⟨_, _, _, _, _, _, _, _, rfl⟩ := extern_frame ha; exact hb
  | one c d =>
    by_cases hc : c = XL_NAME
    · subst hc
      have e : applyGItem env b (.one XL_NAME d) = handleName env b d := rfl
      rw [e] at ha
      unfold handleName at ha
      by_cases h50 : env.bv < 50
      · rw [if_pos h50] at ha; cases ha; exact hb
      · rw [if_neg h50] at ha
        obtain ⟨b2, h3, h2⟩ := bind_ok ha
        obtain ⟨d, _, h2⟩ := bind_ok h2
        obtain ⟨⟨t, q⟩, _, h2⟩ := bind_ok h2
        cases h2
        obtain ⟨en, cc, u, r, rfl⟩ := derive_frame h3
        simp only
        intro i o hi
        by_cases hlt : i < b.nameObjs.length
        · rw [List.getElem?_append_left hlt] at hi; exact hb i o hi
        · have hk2 := (List.getElem?_eq_some_iff.mp hi).1
          rw [List.length_append, List.length_singleton] at hk2
          have hk3 : i = b.nameObjs.length := by omega
          subst hk3
          rw [List.getElem?_append_right (le_refl _), Nat.sub_self, List.getElem?_cons_zero] at hi
          cases hi
          rfl
    · show ∀ (i : Nat) o, b'.nameObjs[i]? = some o → _
      rw [(record_frame ha).names hc]; exact hb

/-- What is known at the end about names, for every file. -/
theorem names_end {env : OpenEnv} {v : Nat} {base : Int} {mem : Bytes} {pos : Int} {b : Book} {p : Int}
    (h : parseGlobals (env.bookEnv v base) mem newBook pos = .ok (b, p)) :
    (∀ (i : Nat) o, b.nameObjs[i]? = some o → o.nameIndex = i ∧ o.scope.isSome) ∧
    b.nameAndScopeMap = (b.nameObjs.foldl (enterName env.lower) (fun _ => none, fun _ => none)).1 ∧
    b.nameMap = fun k => ((b.nameObjs.foldl (enterName env.lower) (fun _ => none, fun _ => none)).2 k).map fun l => (sortByScope l).map Prod.snd := by
  obtain ⟨f, b1, h1, h2, h3⟩ := parseGlobals_sound _ mem _ _ _ _ h
  have hi := h2.lists (fun b => ∀ (i : Nat) o, b.nameObjs[i]? = some o → o.nameIndex = i)
    (fun b items b' hb ha => name_index_items items hb ha)
    (fun b d q b' q' hb ha => by
      have e : b'.nameObjs = b.nameObjs := (congrArg Book.nameObjs (sheethdr_same ha).1 :)
      rw [e]; exact hb) (by simp)
  obtain ⟨os, h4, _, _, _, _, rfl⟩ := eof_frame h3
  refine ⟨?_, rfl, rfl⟩
  obtain ⟨h5, h6⟩ := setScopes_at h4
  simp only
  intro i o ho
  have hlt := (List.getElem?_eq_some_iff.mp ho).1
  rw [h5] at hlt
  obtain ⟨s, _, h7⟩ := h6 i _ (List.getElem?_eq_getElem hlt)
  rw [ho] at h7
  cases h7
  exact ⟨hi i (b1.nameObjs[i]) (List.getElem?_eq_getElem hlt), rfl⟩

/-- The last element with a property, as an index. -/
theorem last_index {α : Type} (q : α → Bool) (l : List α) (g : α → Nat) (hg : ∀ (i : Nat) x, l[i]? = some x → g x = i) (i : Nat) :
    ((l.filter q).getLast?).map g = some i ↔
      ∃ x, l[i]? = some x ∧ q x = true ∧ ∀ (j : Nat) y, i < j → l[j]? = some y → q y = false := by
  induction l using List.reverseRecOn with
  | nil => simp
  | append_singleton l a ih =>
    have hg' : ∀ (i : Nat) x, l[i]? = some x → g x = i := by
      intro i x hx
      exact hg i x (by rw [List.getElem?_append_left (List.getElem?_eq_some_iff.mp hx).1]; exact hx)
    have ha : g a = l.length := hg _ a (by simp)
    rw [List.filter_append]
    by_cases hq : q a = true
    · simp only [List.filter_cons_of_pos hq, List.filter_nil, List.getLast?_append, List.getLast?_singleton, Option.some_or, Option.map_some, Option.some.injEq, ha]
      constructor
      · rintro rfl
        refine ⟨a, by simp, hq, ?_⟩
        intro j y hj hy
        have := (List.getElem?_eq_some_iff.mp hy).1
        simp at this
        omega
      · rintro ⟨x, hx, _, hlast⟩
        have hlt := (List.getElem?_eq_some_iff.mp hx).1
        simp at hlt
        by_contra hne
        have := hlast l.length a (by omega) (by simp)
        rw [hq] at this
        cases this
    · have hq' : q a = false := by simpa using hq
      simp only [List.filter_cons_of_neg hq, List.filter_nil, List.append_nil]
      rw [ih hg']
      constructor
      · rintro ⟨x, hx, hqx, hlast⟩
        refine ⟨x, by rw [List.getElem?_append_left (List.getElem?_eq_some_iff.mp hx).1]; exact hx, hqx, ?_⟩
        intro j y hj hy
        by_cases hlt : j < l.length
        · rw [List.getElem?_append_left hlt] at hy; exact hlast j y hj hy
        · have := (List.getElem?_eq_some_iff.mp hy).1
          simp at this
          have hj' : j = l.length := by omega
          subst hj'
          simp at hy
          subst hy
          exact hq'
      · rintro ⟨x, hx, hqx, hlast⟩
        have hlt : i < l.length := by
          by_contra hge
          have := (List.getElem?_eq_some_iff.mp hx).1
          simp at this
          have hi' : i = l.length := by omega
          subst hi'
          simp at hx
          subst hx
          rw [hq'] at hqx
          cases hqx
        rw [List.getElem?_append_left hlt] at hx
        exact ⟨x, hx, hqx, fun j y hj hy => hlast j y hj (by rw [List.getElem?_append_left (List.getElem?_eq_some_iff.mp hy).1]; exact hy)⟩

/-- C44: whatever bytes are loaded, `name_and_scope_map` maps a lower-cased name and a scope to the last name object with
that text and scope; it has no entry if there is none. -/
theorem C44_name_and_scope_map (env : OpenEnv) (v : Nat) (base : Int) (mem : Bytes) (pos : Int) (b : Book) (p : Int)
    (h : parseGlobals (env.bookEnv v base) mem newBook pos = .ok (b, p)) (k : PyStr) (s : Int) (i : Nat) :
    b.nameAndScopeMap (k, s) = some i ↔
      ∃ o, b.nameObjs[i]? = some o ∧ (env.lower o.name = k ∧ o.scope = some s) ∧
        ∀ (j : Nat) o', i < j → b.nameObjs[j]? = some o' → ¬ (env.lower o'.name = k ∧ o'.scope = some s) := by
  obtain ⟨h1, h2, _⟩ := names_end h
  rw [h2, (enter_all env.lower b.nameObjs).1, last_index _ _ _ (fun i o ho => (h1 i o ho).1)]
  have hsc : ∀ (i : Nat) o, b.nameObjs[i]? = some o → (o.scope.getD 0 = s ↔ o.scope = some s) := by
    intro i o ho
    have := (h1 i o ho).2
    cases hq : o.scope with
    | none => rw [hq] at this; cases this
    | some v => simp
  constructor
  · rintro ⟨o, ho, hq, hlast⟩
    simp only [decide_eq_true_eq] at hq
    refine ⟨o, ho, ⟨hq.1, (hsc i o ho).mp hq.2⟩, ?_⟩
    intro j o' hj ho' hq'
    have := hlast j o' hj ho'
    simp only [decide_eq_false_iff_not] at this
    exact this ⟨hq'.1, (hsc j o' ho').mpr hq'.2⟩
  · rintro ⟨o, ho, hq, hlast⟩
    refine ⟨o, ho, by simp only [decide_eq_true_eq]; exact ⟨hq.1, (hsc i o ho).mpr hq.2⟩, ?_⟩
    intro j o' hj ho'
    simp only [decide_eq_false_iff_not]
    intro hq'
    exact hlast j o' hj ho' ⟨hq'.1, (hsc j o' ho').mp hq'.2⟩

theorem scopeLe_trans (a b c : Int × Nat) (h1 : decide (a.1 < b.1 ∨ (a.1 = b.1 ∧ a.2 ≤ b.2)) = true)
    (h2 : decide (b.1 < c.1 ∨ (b.1 = c.1 ∧ b.2 ≤ c.2)) = true) : decide (a.1 < c.1 ∨ (a.1 = c.1 ∧ a.2 ≤ c.2)) = true := by
  simp only [decide_eq_true_eq] at *
  omega

theorem scopeLe_total (a b : Int × Nat) : (decide (a.1 < b.1 ∨ (a.1 = b.1 ∧ a.2 ≤ b.2)) || decide (b.1 < a.1 ∨ (b.1 = a.1 ∧ b.2 ≤ a.2))) = true := by
  simp only [Bool.or_eq_true, decide_eq_true_eq]
  omega

/-- C44: whatever bytes are loaded, `name_map` maps a lower-cased name to the list of all name objects with that text, without
repetition, in the order of their scopes and, with the same scope, of the records; it has no entry if there are none. -/
theorem C44_name_map (env : OpenEnv) (v : Nat) (base : Int) (mem : Bytes) (pos : Int) (b : Book) (p : Int)
    (h : parseGlobals (env.bookEnv v base) mem newBook pos = .ok (b, p)) (k : PyStr) :
    (b.nameMap k = none ↔ ∀ o ∈ b.nameObjs, env.lower o.name ≠ k) ∧
    ∀ l, b.nameMap k = some l →
      (∀ i, i ∈ l ↔ ∃ o, b.nameObjs[i]? = some o ∧ env.lower o.name = k) ∧
      l.Pairwise fun i j => ∃ oi oj si sj, b.nameObjs[i]? = some oi ∧ b.nameObjs[j]? = some oj ∧ oi.scope = some si ∧ oj.scope = some sj ∧
        (si < sj ∨ (si = sj ∧ i < j)) := by
  obtain ⟨h1, _, h3⟩ := names_end h
  rw [h3]
  simp only
  rw [(enter_all env.lower b.nameObjs).2]
  by_cases hn : (b.nameObjs.filter fun o => decide (env.lower o.name = k)) = []
  · rw [if_pos hn]
    simp only [List.filter_eq_nil_iff, decide_eq_true_eq] at hn
    exact ⟨⟨fun _ => hn, fun _ => rfl⟩, fun l hl => by cases hl⟩
  · rw [if_neg hn]
    refine ⟨⟨fun h => (by cases h), fun h => ?_⟩, ?_⟩
    · exfalso
      apply hn
      simp only [List.filter_eq_nil_iff, decide_eq_true_eq]
      exact h
    · intro l hl
      simp only [Option.map_some, Option.some.injEq] at hl
      subst hl
      generalize hq : (b.nameObjs.filter fun o => decide (env.lower o.name = k)) = q
      have hmem : ∀ x ∈ sortByScope (q.map fun o => (o.scope.getD 0, o.nameIndex)), ∃ o, b.nameObjs[x.2]? = some o ∧ env.lower o.name = k ∧ o.scope = some x.1 := by
        intro x hx
        have := (List.mergeSort_perm _ _).mem_iff.mp hx
        obtain ⟨o, ho, rfl⟩ := List.mem_map.mp this
        rw [← hq, List.mem_filter, decide_eq_true_eq] at ho
        obtain ⟨i, hi⟩ := List.getElem?_of_mem ho.1
        obtain ⟨e1, e2⟩ := h1 i o hi
        refine ⟨o, by simp only; rw [e1]; exact hi, ho.2, ?_⟩
        cases hsc : o.scope with
        | none => rw [hsc] at e2; cases e2
        | some v => rfl
      refine ⟨?_, ?_⟩
      · intro i
        constructor
        · intro hi
          obtain ⟨x, hx, rfl⟩ := List.mem_map.mp hi
          obtain ⟨o, a, b, _⟩ := hmem x hx
          exact ⟨o, a, b⟩
        · rintro ⟨o, ho, hk⟩
          refine List.mem_map.mpr ⟨(o.scope.getD 0, i), ?_, rfl⟩
          apply (List.mergeSort_perm _ _).mem_iff.mpr
          refine List.mem_map.mpr ⟨o, ?_, by rw [(h1 i o ho).1]⟩
          rw [← hq, List.mem_filter, decide_eq_true_eq]
          exact ⟨List.mem_of_getElem? ho, hk⟩
      · rw [List.pairwise_map]
        have hsort := List.pairwise_mergeSort (le := fun (a b : Int × Nat) => decide (a.1 < b.1 ∨ (a.1 = b.1 ∧ a.2 ≤ b.2))) scopeLe_trans scopeLe_total
          (q.map fun o => (o.scope.getD 0, o.nameIndex))
        have hnd : (sortByScope (q.map fun o => (o.scope.getD 0, o.nameIndex))).Pairwise fun a b => a.2 ≠ b.2 := by
          have hp : (q.map fun o => (o.scope.getD 0, o.nameIndex)).Pairwise fun a b => a.2 ≠ b.2 := by
            rw [List.pairwise_map, ← hq]
            apply List.Pairwise.filter
            rw [List.pairwise_iff_getElem]
            intro i j hi hj hij
            simp only
            rw [(h1 i _ (List.getElem?_eq_getElem hi)).1, (h1 j _ (List.getElem?_eq_getElem hj)).1]
            omega
          exact (List.mergeSort_perm _ _).symm.pairwise hp (fun h => Ne.symm h)
        have hall := List.Pairwise.and hsort hnd
        refine List.Pairwise.imp_of_mem ?_ hall
        intro x y hx hy hxy
        obtain ⟨ox, a1, _, a3⟩ := hmem x hx
        obtain ⟨oy, b1, _, b3⟩ := hmem y hy
        refine ⟨ox, oy, x.1, y.1, a1, b1, a3, b3, ?_⟩
        obtain ⟨c1, c2⟩ := hxy
        simp only [decide_eq_true_eq] at c1
        omega

end Xlrd
