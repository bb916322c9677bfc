import Verif.Spec.OldScopes
import Verif.Props.DefinedNames

/-!
# C44 the scopes of names in BIFF5 and BIFF7 workbooks
-/
set_option linter.unusedSimpArgs false
namespace Xlrd
open Spec

/-- `_sheet_num_from_name` gives the last worksheet of a name. -/
def NumsOk (b : Book) : Prop := ∀ (n : PyStr) (i : Nat), b.sheetNumFromName n = some i ↔
  b.sheetNames[i]? = some n ∧ ∀ (j : Nat), i < j → b.sheetNames[j]? ≠ some n

theorem NumsOk.congr {b b' : Book} (h : NumsOk b) (h1 : b'.sheetNumFromName = b.sheetNumFromName) (h2 : b'.sheetNames = b.sheetNames) : NumsOk b' := by
  unfold NumsOk; rw [h1, h2]; exact h

theorem NumsOk.add {b : Book} (h : NumsOk b) (posn : Int) (vis ty : Nat) (name : PyStr) : NumsOk (addSheet b posn vis ty name) := by
  unfold addSheet
  by_cases ht : ty ≠ 0
  · rw [if_pos ht]; exact h
  · rw [if_neg ht]
    intro n i
    show dictSet b.sheetNumFromName name b.sheetNames.length n = some i ↔ (b.sheetNames ++ [name])[i]? = some n ∧
      ∀ (j : Nat), i < j → (b.sheetNames ++ [name])[j]? ≠ some n
    have hend : (b.sheetNames ++ [name])[b.sheetNames.length]? = some name := by simp
    unfold dictSet
    by_cases hn : n = name
    · subst hn
      rw [if_pos rfl]
      constructor
      · intro e
        cases e
        refine ⟨hend, fun j hj => ?_⟩
        rw [List.getElem?_eq_none (by simp; omega)]
        simp
      · rintro ⟨h1, h2⟩
        have hlt := (List.getElem?_eq_some_iff.mp h1).1
        rw [List.length_append, List.length_singleton] at hlt
        by_cases he : i = b.sheetNames.length
        · rw [he]
        · exact absurd hend (h2 _ (by omega))
    · rw [if_neg hn, h n i]
      have hne : ∀ (j : Nat), (b.sheetNames ++ [name])[j]? = some n ↔ b.sheetNames[j]? = some n := by
        intro j
        by_cases hj : j < b.sheetNames.length
        · rw [List.getElem?_append_left hj]
        · rw [List.getElem?_append_right (by omega), List.getElem?_eq_none (l := b.sheetNames) (by omega)]
          constructor
          · intro e
            have := List.mem_of_getElem? e
            rw [List.mem_singleton] at this
            exact absurd this hn
          · intro e; cases e
      simp only [ne_eq, hne]

theorem nums_items {env : BookEnv} (items : List GItem) : ∀ {f : FmtSt} {b : Book}, applyGlobals env { fmt := f } items = .ok b → NumsOk b := by
  induction items using List.reverseRecOn with
  | nil => intro f b h; cases h; intro n i; simp
  | append_singleton pre it ih =>
    intro f b h
    obtain ⟨b1, h1, h2⟩ := gItems_snoc h
    have i1 := ih h1
    cases it with
    | sst d more => obtain ⟨t, rfl⟩ := sst_frame h2; exact i1
    | extern d more => obtain ⟨_, _, _, _, _, _, _, _, rfl⟩ := extern_frame h2; exact i1
    | one c d =>
      by_cases hc : c = 0x85
      · subst hc
        have e : applyGItem env b1 (.one 0x85 d) = handleBoundsheet env b1 d := rfl
        rw [e] at h2
        unfold handleBoundsheet at h2
        obtain ⟨b2, h3, h2⟩ := bind_ok h2
        obtain ⟨⟨p, v, t, n⟩, _, h2⟩ := bind_ok h2
        cases h2
        obtain ⟨_, _, _, _, hfr⟩ := derive_frame h3
        exact NumsOk.add (i1.congr (by rw [hfr]) (by rw [hfr])) _ _ _ _
      · have hf := record_frame h2
        exact i1.congr (hf.numFromName hc) (hf.sheetNames hc)

/-- The names by number. -/
structure ExtNamesOk (xs : List (Option PyStr)) (b : Book) : Prop where
  count : b.extnshtCount = xs.length
  name : ∀ (k : Nat) s, b.extnshtNameFromNum (k + 1) = some s ↔ xs[k]? = some (some s)

theorem extNames_items {env : BookEnv} (h8 : env.bv < 80) {items : List GItem} {xs : List (Option PyStr)} (hc : ExternNames (textAt env) items xs) :
    ∀ {f : FmtSt} {b : Book}, applyGlobals env { fmt := f } items = .ok b → ExtNamesOk xs b := by
  have start : ∀ (pre : List GItem) (n ty : UInt8) (rest : Bytes) (more : List Bytes) (f : FmtSt) (b : Book),
      applyGlobals env { fmt := f } (pre ++ [.extern (n :: ty :: rest) more]) = .ok b → ∃ b1, applyGlobals env { fmt := f } pre = .ok b1 ∧
        b.extnshtCount = b1.extnshtCount + 1 ∧
        (ty ≠ 3 → b.extnshtNameFromNum = b1.extnshtNameFromNum) ∧
        (ty = 3 → ∃ s, textAt env pre (rest.take n.toNat) = .ok s ∧ b.extnshtNameFromNum = dictSet b1.extnshtNameFromNum (b1.extnshtCount + 1) s) := by
    intro pre n ty rest more f b h
    obtain ⟨b1, h1, h2⟩ := gItems_snoc h
    refine ⟨b1, h1, ?_⟩
    have hi := items_enc pre (fresh_enc env f) h1
    simp only [List.nil_append] at hi
    simp only [applyGItem, externBegin] at h2
    obtain ⟨b3, h3, h2⟩ := bind_ok h2
    obtain ⟨b4, h4, h3⟩ := bind_ok h3
    cases h3
    obtain ⟨_, i2⟩ := derive_inv hi h4
    obtain ⟨e, c, u, r, hfr⟩ := derive_frame h4
    have hc1 : b4.extnshtCount = b1.extnshtCount := by rw [hfr]
    have hn1 : b4.extnshtNameFromNum = b1.extnshtNameFromNum := by rw [hfr]
    rw [if_neg (by omega)] at h2
    unfold externApply57 at h2
    have hu : unpackN 2 (sliceTo (n :: ty :: rest) 2) = .ok [n, ty] := by
      have : sliceTo (n :: ty :: rest) 2 = [n, ty] := by
        have := slice_nat (n :: ty :: rest) 0 2
        simp [sliceTo, clampIdx] at *
      rw [this]; rfl
    have f0 : fld [n, ty] 0 1 = n.toNat := by simp [fld, le]
    have f1 : fld [n, ty] 1 1 = ty.toNat := by simp [fld, le]
    simp only [hu, bind, Except.bind, f0, f1] at h2
    unfold externName57 at h2
    by_cases ht : ty.toNat = 3
    · have ht3 : ty = 3 := UInt8.toNat_inj.mp ht
      rw [if_pos ht] at h2
      have hsl : slice (n :: ty :: rest) 2 ((n.toNat : Int) + 2) = rest.take n.toNat := by
        have := slice_nat (n :: ty :: rest) 2 (n.toNat + 2)
        push_cast at this
        rw [this]
        simp
      have hdec : Book.dec env { b4 with extnshtCount := b4.extnshtCount + 1 } = textAt env pre :=
        dec_eq (show ({ b4 with extnshtCount := b4.extnshtCount + 1 } : Book).encoding = _ from i2 (Or.inl (by omega)))
      rw [hsl, hdec] at h2
      obtain ⟨b5, h5, h2⟩ := bind_ok h2
      obtain ⟨s, h6, h5⟩ := bind_ok h5
      cases h5
      cases h2
      refine ⟨by show b4.extnshtCount + 1 = _; rw [hc1], fun h => absurd ht3 h, fun _ => ⟨s, h6, ?_⟩⟩
      show dictSet b4.extnshtNameFromNum (b4.extnshtCount + 1) s = _
      rw [hc1, hn1]
    · rw [if_neg ht] at h2
      cases h2
      refine ⟨by show b4.extnshtCount + 1 = _; rw [hc1], fun _ => hn1, fun h => ?_⟩
      rw [h] at ht
      exact absurd rfl ht
  induction hc with
  | nil => intro f b h; cases h; exact ⟨rfl, fun k s => by simp⟩
  | @sheet pre xs n rest more s hx hs ih =>
    intro f b h
    obtain ⟨b1, h1, h2, _, h4⟩ := start _ _ _ _ _ _ _ h
    obtain ⟨s', e1, e2⟩ := h4 rfl
    rw [hs] at e1
    cases e1
    obtain ⟨i1, i2⟩ := ih h1
    refine ⟨by rw [h2, i1, List.length_append]; rfl, fun k t => ?_⟩
    rw [e2, i1]
    unfold dictSet
    by_cases hk : k = xs.length
    · subst hk; simp
    · rw [if_neg (by omega), i2]
      by_cases hlt : k < xs.length
      · rw [List.getElem?_append_left hlt]
      · rw [List.getElem?_eq_none (by omega), List.getElem?_eq_none (by simp; omega)]
  | @other pre xs n ty rest more hx ht ih =>
    intro f b h
    obtain ⟨b1, h1, h2, h3, _⟩ := start _ _ _ _ _ _ _ h
    obtain ⟨i1, i2⟩ := ih h1
    refine ⟨by rw [h2, i1, List.length_append]; rfl, fun k t => ?_⟩
    rw [h3 ht, i2]
    by_cases hk : k < xs.length
    · rw [List.getElem?_append_left hk]
    · rw [List.getElem?_eq_none (by omega)]
      by_cases he : k = xs.length
      · subst he; simp
      · rw [List.getElem?_eq_none (by simp; omega)]
  | @skip pre xs it hx hns ih =>
    intro f b h
    obtain ⟨b1, h1, h2⟩ := gItems_snoc h
    obtain ⟨i1, i2⟩ := ih h1
    cases it with
    | sst d more => obtain ⟨t, rfl⟩ := sst_frame h2; exact ⟨i1, i2⟩
    | extern d more => exact absurd rfl (hns d more)
    | one c d =>
      have hf := record_frame h2
      exact ⟨by rw [hf.externCount]; exact i1, by rw [hf.externNames]; exact i2⟩

theorem nameScope_old {env : BookEnv} (h8 : env.bv < 80) {b : Book} {base : Int} {sheets : List SheetRec} {xs : List (Option PyStr)}
    (hl : SheetLists base sheets b) (hnum : NumsOk b) (hx : ExtNamesOk xs b) {o : NameObj} {s : Int} (h : nameScope env b o = .ok s) :
    OldScope sheets xs o.extnSheetNum s := by
  unfold nameScope at h
  rw [if_neg (by omega)] at h
  by_cases h0 : o.extnSheetNum = 0
  · rw [if_pos h0] at h
    cases h
    rw [h0]
    exact .book
  · rw [if_neg h0] at h
    obtain ⟨k, hk⟩ : ∃ k, o.extnSheetNum = k + 1 := ⟨o.extnSheetNum - 1, by omega⟩
    rw [hk] at h ⊢
    cases hn : b.extnshtNameFromNum (k + 1) with
    | none => rw [hn] at h; cases h
    | some n =>
      rw [hn] at h
      have hxk := (hx.name k n).mp hn
      simp only at h
      cases hi : b.sheetNumFromName n with
      | some i =>
        rw [hi] at h
        cases h
        obtain ⟨e1, e2⟩ := (hnum n i).mp hi
        rw [hl.names] at e1 e2
        exact .sheet k i n hxk e1 e2
      | none =>
        rw [hi] at h
        cases h
        refine .other k n hxk ?_
        intro sh hsh hw he
        have hmem : n ∈ b.sheetNames := by
          rw [hl.names, List.mem_map]
          exact ⟨sh, List.mem_filter.mpr ⟨hsh, hw⟩, he⟩
        -- the last occurrence
        have key : ∀ (l : List PyStr), n ∈ l → ∃ i : Nat, l[i]? = some n ∧ ∀ (j : Nat), i < j → l[j]? ≠ some n := by
          intro l
          induction l with
          | nil => intro h; cases h
          | cons a l ih =>
            intro hm
            by_cases hml : n ∈ l
            · obtain ⟨i, e1, e2⟩ := ih hml
              refine ⟨i + 1, e1, fun j hj => ?_⟩
              cases j with
              | zero => omega
              | succ j => exact e2 j (by omega)
            · have : n = a := by rcases List.mem_cons.mp hm with h | h; exact h; exact absurd h hml
              subst this
              refine ⟨0, rfl, fun j hj => ?_⟩
              cases j with
              | zero => omega
              | succ j => exact fun e => hml (List.mem_of_getElem? e)
        obtain ⟨i, e1, e2⟩ := key _ hmem
        have := (hnum n i).mpr ⟨e1, e2⟩
        rw [hi] at this
        cases this

/-- **C44** (scopes in BIFF5 and BIFF7).  A name belongs to the workbook, or to the worksheet that the EXTERNSHEET record with its number names. -/
theorem C44_old_scopes (env : BookEnv) (h50 : 50 ≤ env.bv) (h8 : env.bv < 80) (pre post eof : Bytes) (he : eof.length < 65536) (items : List GItem)
    (hok : GlobalsOk env.bv items) (names : List NameObj) (hn : Names env.bv (textAt env) items names)
    (sheets : List SheetRec) (hsh : Sheets env.bv (textAt env) items sheets) (xs : List (Option PyStr)) (hx : ExternNames (textAt env) items xs) (b : Book) (p : Int)
    (h : parseGlobals env (pre ++ encGlobals items eof ++ post) newBook (pre.length : Int) = .ok (b, p)) (i : Nat) (o : NameObj) (hi : names[i]? = some o) :
    ∃ s, b.nameObjs[i]? = some { o with nameIndex := i, scope := some s } ∧ OldScope sheets xs o.extnSheetNum s := by
  obtain ⟨f, b1, h1, h2, h3, _⟩ := parse_ok he hok h
  have hl := names_items h50 hn h2
  have hsl := sheets_items h50 hsh h2
  have hnum := nums_items items h2
  have hxn := extNames_items h8 hx h2
  obtain ⟨os, h4, _, _, _, _, rfl⟩ := eof_frame h3
  obtain ⟨h5, h6⟩ := setScopes_at h4
  simp only
  obtain ⟨s, h7, h8'⟩ := h6 i { o with nameIndex := i, scope := none } (by rw [hl, List.getElem?_mapIdx, hi]; rfl)
  exact ⟨s, h8', nameScope_old h8 hsl hnum hxn h7⟩

/-- The specification gives one scope. -/
theorem OldScope.one {sheets : List SheetRec} {xs : List (Option PyStr)} {k : Nat} {s t : Int} (h : OldScope sheets xs k s) (h' : OldScope sheets xs k t) : s = t := by
  cases h with
  | book => cases h'; rfl
  | sheet k i n h1 h2 h3 =>
    cases h' with
    | sheet _ j m g1 g2 g3 =>
      rw [h1] at g1
      cases g1
      rcases Nat.lt_trichotomy i j with hlt | rfl | hlt
      · exact absurd g2 (h3 j hlt)
      · rfl
      · exact absurd h2 (g3 i hlt)
    | other _ m g1 g2 =>
      rw [h1] at g1
      cases g1
      have := List.mem_of_getElem? h2
      rw [List.mem_map] at this
      obtain ⟨sh, e1, e2⟩ := this
      obtain ⟨e3, e4⟩ := List.mem_filter.mp e1
      exact absurd e2 (g2 sh e3 e4)
  | other k n h1 h2 =>
    cases h' with
    | sheet _ j m g1 g2 g3 =>
      rw [h1] at g1
      cases g1
      have := List.mem_of_getElem? g2
      rw [List.mem_map] at this
      obtain ⟨sh, e1, e2⟩ := this
      obtain ⟨e3, e4⟩ := List.mem_filter.mp e1
      exact absurd e2 (h2 sh e3 e4)
    | other _ m g1 g2 => rfl

end Xlrd
