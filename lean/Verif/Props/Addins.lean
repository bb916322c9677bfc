import Verif.Props.Extern
import Verif.Props.GlobalsExamples
import Verif.Model.Formula

/-!
# C46: the names of add-in functions
-/
set_option linter.unusedSimpArgs false
namespace Xlrd
open Spec

/-- The type of the last SUPBOOK record. -/
def LastSup (sups : List SupKind) (b : Book) : Prop :=
  (sups = [] ↔ b.supbookTypes = []) ∧ ∀ t, b.supbookTypes.getLast? = some t → (t = some SUPBOOK_ADDIN ↔ sups.getLast? = some .addins)

theorem lastSup_items {env : BookEnv} (items : List GItem) :
    ∀ {f : FmtSt} {b : Book}, applyGlobals env { fmt := f } items = .ok b → LastSup (supbooks items) b := by
  induction items using List.reverseRecOn with
  | nil => intro f b h; cases h; exact ⟨by simp [supbooks], by simp⟩
  | append_singleton pre it ih =>
    intro f b h
    obtain ⟨b1, h1, h2⟩ := gItems_snoc h
    have i := ih h1
    have app : supbooks (pre ++ [it]) = supbooks pre ++ supbooks [it] := by simp [supbooks]
    rw [app]
    cases it with
    | sst d more =>
      obtain ⟨t, rfl⟩ := sst_frame h2
      rw [show supbooks [GItem.sst d more] = [] from rfl, List.append_nil]
      exact i
    | extern d more =>
      obtain ⟨_, _, _, _, _, _, _, _, rfl⟩ := extern_frame h2
      rw [show supbooks [GItem.extern d more] = [] from rfl, List.append_nil]
      exact i
    | one c d =>
      by_cases hc : c = 0x1ae
      · subst hc
        have e : applyGItem env b1 (.one 0x1ae d) = handleSupbook b1 d := rfl
        rw [e] at h2
        unfold handleSupbook at h2
        obtain ⟨n, _, h2⟩ := bind_ok h2
        obtain ⟨t, ht, h2⟩ := bind_ok h2
        cases h2
        obtain ⟨k1, k2⟩ := supKind_type ht
        have es : supbooks [GItem.one 0x1ae d] = [supKind d] := rfl
        rw [es]
        refine ⟨by simp, ?_⟩
        intro x hx
        simp only [List.getLast?_concat, Option.some.injEq] at hx
        subst hx
        simpa using k2
      · have hf := record_frame h2
        have es : supbooks [GItem.one c d] = [] := by
          unfold supbooks
          rw [List.filterMap_cons]
          have : supbookOf (.one c d) = none := by
            unfold supbookOf
            split
            · rename_i h; cases h; exact absurd rfl hc
            · rfl
          rw [this]
          rfl
        rw [es, List.append_nil]
        unfold LastSup
        rw [hf.supTypes hc]
        exact i

theorem idx_last {α : Type} {l : List α} {x : α} (h : idx l (-1) = .ok x) : l.getLast? = some x := by
  unfold idx at h
  simp only [show ((-1 : Int) < 0) by decide, if_true] at h
  by_cases c : (-1 : Int) + (l.length : Int) < 0
  · rw [if_pos c] at h; cases h
  · rw [if_neg c, show ((-1 : Int) + (l.length : Int)).toNat = l.length - 1 by omega] at h
    rw [List.getLast?_eq_getElem?]
    cases hg : l[l.length - 1]? with
    | none => rw [hg] at h; cases h
    | some y => rw [hg] at h; cases h; rfl

theorem addins_items {env : BookEnv} (h8 : 80 ≤ env.bv) {items : List GItem} {names : List PyStr} (hn : AddinNames items names) :
    ∀ {f : FmtSt} {b : Book}, applyGlobals env { fmt := f } items = .ok b → b.addinFuncNames = names := by
  induction hn with
  | nil => intro f b h; cases h; rfl
  | @take pre xs _ hs opts tail u ho ok hl ih =>
    intro f b h
    obtain ⟨b1, h1, h2⟩ := gItems_snoc h
    have i := lastSup_items pre h1
    have e : ∀ d, applyGItem env b1 (.one 0x23 d) = handleExternname env b1 d := fun _ => rfl
    rw [e] at h2
    unfold handleExternname at h2
    rw [if_pos h8] at h2
    obtain ⟨_, _, h2⟩ := bind_ok h2
    have hu := unicodeLen_at (data := opts ++ (encLen 1 (utf16 u.text).length ++ u.body) ++ tail) (p := 6) (r := tail) u ok (Or.inl rfl) hl
      (by rw [List.append_assoc, ← ho, List.drop_left]; simp)
    rw [show ((6 : Int)) = ((6 : Nat) : Int) from rfl, hu] at h2
    obtain ⟨⟨n, q⟩, hn, h2⟩ := bind_ok h2
    cases hn
    obtain ⟨t, ht, h2⟩ := bind_ok h2
    rw [if_pos ((i.2 t (idx_last ht)).mpr hs)] at h2
    cases h2
    rw [ih h1]
  | @other pre xs d _ hs ih =>
    intro f b h
    obtain ⟨b1, h1, h2⟩ := gItems_snoc h
    have i := lastSup_items pre h1
    have e : ∀ d, applyGItem env b1 (.one 0x23 d) = handleExternname env b1 d := fun _ => rfl
    rw [e] at h2
    unfold handleExternname at h2
    rw [if_pos h8] at h2
    obtain ⟨_, _, h2⟩ := bind_ok h2
    obtain ⟨⟨n, q⟩, hn, h2⟩ := bind_ok h2
    obtain ⟨t, ht, h2⟩ := bind_ok h2
    rw [if_neg (fun h => hs ((i.2 t (idx_last ht)).mp h))] at h2
    cases h2
    exact ih h1
  | @skip pre xs it _ hs ih =>
    intro f b h
    obtain ⟨b1, h1, h2⟩ := gItems_snoc h
    rw [← ih h1]
    cases it with
    | sst d more => obtain ⟨t, rfl⟩ := sst_frame h2; rfl
    | extern d more => obtain ⟨_, _, _, _, _, _, _, _, rfl⟩ := extern_frame h2; rfl
    | one c d => exact (record_frame h2).addins (fun hc => hs d (by rw [hc]))

/-- **C46** (add-in functions).  `addin_func_names` has the names of the EXTERNNAME records that follow the SUPBOOK record of the add-ins, in
the order of the file, and no others. -/
theorem C46_addin_functions (env : BookEnv) (h8 : 80 ≤ env.bv) (pre post eof : Bytes) (he : eof.length < 65536) (items : List GItem)
    (hok : GlobalsOk env.bv items) (names : List PyStr) (hn : AddinNames items names) (b : Book) (p : Int)
    (h : parseGlobals env (pre ++ encGlobals items eof ++ post) newBook (pre.length : Int) = .ok (b, p)) : b.addinFuncNames = names := by
  obtain ⟨f, b1, h1, h2, h3, _⟩ := parse_ok he hok h
  have := addins_items h8 hn h2
  obtain ⟨os, _, _, _, _, _, rfl⟩ := eof_frame h3
  exact this

/-- **C46** (add-in functions in formulas).  A token that refers to name `k + 1` of the add-in book is shown as the name of that function. -/
theorem C46_addin_in_formula (env : BookEnv) (h8 : 80 ≤ env.bv) (pre post eof : Bytes) (he : eof.length < 65536) (items : List GItem)
    (hok : GlobalsOk env.bv items) (sheets : List SheetRec) (hsh : Sheets env.bv (textAt env) items sheets) (refs : List ExtRef)
    (hr : Externs items refs) (names : List PyStr) (hn : AddinNames items names) (b : Book) (p : Int)
    (h : parseGlobals env (pre ++ encGlobals items eof ++ post) newBook (pre.length : Int) = .ok (b, p))
    (denv : DEnv) (hd8 : 80 ≤ denv.bv) (hb : denv.bk = b) (refx : Nat) (hx : refx < 65536) (r : ExtRef) (href : refs[refx]? = some r)
    (hlast : LastOf (supbooks items) .addins r.book) (hf : r.first = 0xFFFE) (hl : r.last = 0xFFFE) (k : Nat) (hk : k + 1 < 65536) (name : PyStr)
    (hname : names[k]? = some name) (before after : Bytes) :
    dNameX denv (before ++ (0x39 :: le16 refx ++ le16 (k + 1) ++ after)) (before.length : Int) =
      .ok { kind := .strg, rank := LEAF_RANK, text := '"' :: doubleDq name ++ ['"'] } := by
  have e1 := C46_addin_functions env h8 pre post eof he items hok names hn b p h
  have e2 := ((C46_codes env h8 pre post eof he items hok sheets hsh refs hr b p h refx).2 r href).1 hlast
  rw [if_pos ⟨hf, hl⟩] at e2
  have e3 : nameXFields denv.bv (before ++ (0x39 :: le16 refx ++ le16 (k + 1) ++ after)) (before.length : Int) =
      .ok ((refx : Int), (refx : Int), (k : Int), false) := by
    unfold nameXFields
    rw [if_pos hd8]
    have hs : slice (before ++ (0x39 :: le16 refx ++ le16 (k + 1) ++ after)) ((before.length : Int) + 1) ((before.length : Int) + 5) =
        le16 refx ++ le16 (k + 1) := by
      have e : (before ++ (0x39 :: le16 refx ++ le16 (k + 1) ++ after)).drop (before.length + 1) = (le16 refx ++ le16 (k + 1)) ++ after := by
        rw [show before ++ (0x39 :: le16 refx ++ le16 (k + 1) ++ after) = (before ++ [0x39]) ++ (le16 refx ++ le16 (k + 1) ++ after) by simp,
          show before.length + 1 = (before ++ [0x39]).length by simp, List.drop_left]
      have h4 := slice_at (n := 4) e (by simp [le16])
      rw [← h4]
      congr 1
    rw [hs, unpackN_ok (by simp [le16])]
    simp only [bind, Except.bind, pure, Except.pure]
    have f1 : fld (le16 refx ++ le16 (k + 1)) 0 2 = refx := by simp [fld, le16, le]; omega
    have f2 : fld (le16 refx ++ le16 (k + 1)) 2 2 = k + 1 := by simp [fld, le16, le]; omega
    rw [f1, f2]
    simp
  unfold dNameX
  rw [e3]
  simp only [bind, Except.bind, pure, Except.pure, Bool.false_eq_true, if_false]
  have e4 : nameXRange denv.bv denv.bk (refx : Int) (refx : Int) = .ok (-5, -5) := by
    unfold nameXRange
    rw [if_pos hd8, hb, Int.toNat_natCast, e2]
  rw [e4]
  simp only [if_true]
  rw [hb, e1, (idx_ok_nat names k name).mpr hname]
  rfl

namespace AddinSample
open Sample

/-- An add-in book with two functions, then this workbook with an EXTERNNAME record that is not about an add-in. -/
def items : List GItem :=
  [.one 0x1ae [1, 0, 1, 0x3A], .one 0x23 ([0, 0, 0, 0, 0, 0] ++ (encLen 1 5 ++ (txt "EDATE").body) ++ [2, 0, 0x1c, 0x17]),
   .one 0x23 ([0, 0, 0, 0, 0, 0] ++ (encLen 1 7 ++ (txt "EOMONTH").body) ++ []), .one 0x1ae [3, 0, 1, 4], .one 0x23 [0, 0, 0, 0, 0, 0, 1, 0, 0x41]]

theorem ok : GlobalsOk 80 items where
  sized := by unfold GItem.Sized; decide +kernel
  plain := by
    intro it h
    simp only [items, List.mem_cons, List.mem_nil_iff, or_false] at h
    rcases h with rfl | rfl | rfl | rfl | rfl <;> simp [GItem.Plain]
  stray := by simp [items, NoStrayContinue]

theorem names : AddinNames items ["EDATE".toList, "EOMONTH".toList] := by
  have h1 := AddinNames.nil.skip (it := .one 0x1ae [1, 0, 1, 0x3A]) (by simp)
  have h2 := h1.take rfl [0, 0, 0, 0, 0, 0] [2, 0, 0x1c, 0x17] (txt "EDATE") rfl (txt_ok _ (by decide +kernel)) (by decide +kernel)
  have h3 := h2.take rfl [0, 0, 0, 0, 0, 0] [] (txt "EOMONTH") rfl (txt_ok _ (by decide +kernel)) (by decide +kernel)
  have h4 := h3.skip (it := .one 0x1ae [3, 0, 1, 4]) (by simp)
  exact h4.other (d := [0, 0, 0, 0, 0, 0, 1, 0, 0x41]) (by decide)

example : ∃ b p, parseGlobals env ([9, 9] ++ encGlobals items [] ++ [7]) newBook (([9, 9] : Bytes).length : Int) = .ok (b, p) ∧
    b.addinFuncNames = ["EDATE".toList, "EOMONTH".toList] := by
  cases h : parseGlobals env ([9, 9] ++ encGlobals items [] ++ [7]) newBook (([9, 9] : Bytes).length : Int) with
  | ok r => exact ⟨r.1, r.2, rfl, C46_addin_functions env (by decide) [9, 9] [7] [] (by decide) items ok _ names r.1 r.2 h⟩
  | error e =>
    have : (parseGlobals env ([9, 9] ++ encGlobals items [] ++ [7]) newBook (([9, 9] : Bytes).length : Int)).toOption.isSome = true := by decide +kernel
    rw [h] at this; cases this

end AddinSample
end Xlrd
