import Verif.Spec.OpenB2
import Verif.Lemmas.Biff2Ok
import Verif.Props.Biff2
import Verif.Props.OpensOld

/-!
# C83: well-formed files of BIFF2 open
-/
set_option linter.unusedSimpArgs false
namespace Xlrd
open Spec

theorem withIxfe_all {P : B2Item → Prop} : ∀ {items : List B2Item} {i}, (∀ q ∈ withIxfe i items, P q.2) → ∀ x ∈ items, P x := by
  intro items
  induction items with
  | nil => intro i _ x hx; cases hx
  | cons y items ih =>
    intro i h x hx
    rw [withIxfe_cons] at h
    rcases List.mem_cons.mp hx with rfl | hx
    · exact h _ (List.mem_cons_self ..)
    · exact ih (fun q hq => h q (List.mem_cons_of_mem _ hq)) x hx

theorem attrs_used {fi : Bool} {items : List B2Item} {q : Option Nat × B2Item} (hq : q ∈ withIxfe none items) {a : CellAttr} (ha : a ∈ q.2.attrs fi) : a ∈ attrsB2 fi items :=
  List.mem_flatMap.mpr ⟨q.2, withIxfe_mem hq, ha⟩

theorem attrNumber_lt {as : List CellAttr} (a : CellAttr) : attrNumber as a < 16 + (ownXfs as).length := by
  unfold attrNumber
  by_cases h : a ∈ ownXfs as
  · rw [if_pos h]
    have := List.idxOf_lt_length_of_mem h
    omega
  · rw [if_neg h]; omega

/-- What it takes to open a file of BIFF2. -/
theorem b2_opens_iff {env : OpenEnv} {file : Bytes} {F : B2File} (hw : B2Workbook (textAt (env.recEnv 21)) file F) (ho : OldOpenable 21 env.override env.codec F.book) (m : Bool)
    (hm : m = true ↔ xfRecords 21 F.book ≠ 0) :
    (∃ l, openXls env file = some (.ok l)) ↔ ∀ q ∈ withIxfe none F.items, (∀ a ∈ q.2.attrs env.fi, CanFix m q.1 a) ∧
      (∀ y ∈ q.2.rowNumbers env.fi, m = true ∧ (y = 63 → q.1 ≠ none)) ∧
      FitsB2 env.fi (xfIn m (attrsB2 env.fi F.items) q.1) (if m then xfRecords 21 F.book else 16 + (ownXfs (attrsB2 env.fi F.items)).length) q.2 := by
  have hx := C74_file env _ file F hw
  have hi : BookItems 21 F.book := b2Book_items hw.ok
  have hinit : ∀ f, initialiseColourMap 21 env.fi newBook.fmt = .ok f → KnownInv 0 (oldStart f).fmt := by
    intro f hf
    obtain ⟨m, rfl⟩ := colour_map_fields (env := env.recEnv 21) hf
    refine ⟨rfl, fun i x hx => (by cases hx), fun k => ?_⟩
    show ((if k = 0 then some XL_CELL_NUMBER else none : Option Nat)).isSome = true ↔ _
    by_cases hk : k = 0 <;> simp [hk]
  have hmx : ∀ b1 : Book, KnownInv (xfRecords 21 F.book) b1.fmt → hasXfs b1 = m := by
    intro b1 hk
    rw [Bool.eq_iff_iff, hasXfs_true, hm, ← hk.len]
    simp [List.length_eq_zero_iff]
  rw [hx]
  constructor
  · rintro ⟨l, hl⟩
    rw [Option.some.injEq] at hl
    obtain ⟨f, b1, o, h1, h2, _⟩ := b2_opened hw hl
    have hk := known_xfs (env := env.recEnv 21) (.inl rfl) (hinit f h1) F.book hi h2.head
    have hmm := hmx b1 hk
    obtain ⟨p1, _⟩ := b2_parts h2 hw.ok
    obtain ⟨hload, _⟩ := (C12_load_succeeds_iff _ _ [] (fun _ h => (by cases h))).mp ⟨_, p1⟩
    have hnum := h2.num
    have hkn := h2.known
    have hrow := h2.rows
    rw [hmm] at hload hnum hkn hrow
    intro q hq
    refine ⟨fun a ha => ⟨(hkn q hq a ha).1, fun h => ((hkn q hq a ha).2 h).1⟩, hrow q hq, ?_⟩
    have hf : ∀ a ∈ q.2.attrs env.fi, xfOf m o q.1 a = xfIn m (attrsB2 env.fi F.items) q.1 a := by
      intro a ha
      cases hm' : m with
      | true => rfl
      | false => exact (hnum hm').number (attrs_used hq ha) q.1
    intro w hw'
    rw [← cells_congr hf] at hw'
    obtain ⟨a, ha, hxa⟩ := cells_attr hw'
    obtain ⟨l1, l2, l3, l4⟩ := hload w (List.mem_flatMap.mpr ⟨q, hq, hw'⟩)
    refine ⟨?_, l2, fun hct => ?_, l4⟩
    · have l1 : w.row < if o.bv ≥ 80 then 65536 else 16384 := l1
      rw [if_neg (by have := h2.inv.ver; omega)] at l1
      exact l1
    · obtain ⟨t, ht⟩ := l3 hct
      have ht : (if (0 : Int) ≤ w.xf then o.book.fmt.typeMap w.xf.toNat else none) = some t := ht
      have h0 : (0 : Int) ≤ w.xf := by
        by_contra h
        rw [if_neg h] at ht; cases ht
      rw [if_pos h0] at ht
      cases hm' : m with
      | true =>
        rw [hm'] at hmm
        obtain ⟨fl, _, hfm, _⟩ := b2_fmt h2
        rw [hfm hmm] at ht
        have := (known_epilogue (fi := env.fi) hk w.xf.toNat).mp (by rw [Option.isSome_iff_exists]; exact ⟨t, ht⟩)
        have : w.xf.toNat = 0 ∨ w.xf.toNat < xfRecords 21 F.book := this
        simp only [if_true]
        omega
      | false =>
        right
        refine ⟨h0, ?_⟩
        rw [hxa, hf a ha, hm']
        have := attrNumber_lt (as := attrsB2 env.fi F.items) a
        show ((attrNumber (attrsB2 env.fi F.items) a : Nat) : Int) < ((if false = true then _ else 16 + (ownXfs (attrsB2 env.fi F.items)).length : Nat) : Int)
        rw [if_neg (by decide)]
        exact_mod_cast this
  · intro hfit
    obtain ⟨op, bof, rest, hb, hmem⟩ := hw.bytes
    have hf : firstBof file 0 = .ok (21, ((encRec op bof).length : Int)) := by
      have := C52_first_bof hb [] (encRecs F.records ++ rest)
      rw [if_pos (show StartsFile 21 0x10 from Or.inr (Or.inr ⟨by omega, rfl⟩))] at this
      rw [hmem, List.append_assoc]
      simpa using this
    have hg : getbof file 0 XL_WORKSHEET = .ok (21, ((encRec op bof).length : Int)) := by
      have := C52_sheet_bof hb [] (encRecs F.records ++ rest)
      rw [if_pos rfl] at this
      rw [hmem, List.append_assoc]
      simpa using this
    obtain ⟨f, hf1, inv0⟩ := old_inv0 (env := env.recEnv 21) (.inl rfl) (F.book.map newItem)
    obtain ⟨b1, hb1, inv1⟩ := old_book_ok (env := env.recEnv 21) (.inl rfl) ho.usable (oldOpenable_readable ho) F.book [] (oldStart f) rfl inv0
    have hd : textDec env 21 b1 = textAt (env.recEnv 21) F.book := book_text (.inl rfl) (oldStart_enc _ f) hb1
    have hk := known_xfs (env := env.recEnv 21) (.inl rfl) (hinit f hf1) F.book hi hb1
    obtain ⟨b', he, _⟩ := ensure_ok (List.prefix_rfl) (by rw [lastCodepage_new]; exact ho.usable F.book List.prefix_rfl) inv1.enc inv1.raw
    have h56 : ∀ d, GItem.one 0x56 d ∈ F.book → 2 ≤ d.length := by
      intro d hmem
      obtain ⟨p, q, hpq⟩ := List.append_of_mem hmem
      have hr := ho.readable p _ q hpq
      have hne1 : (0x56 : Nat) ≠ formatCode 21 := by decide
      have hne2 : (0x56 : Nat) ≠ xfCode 21 := by decide
      have hne3 : (0x56 : Nat) ∉ [fontCode 21, 0x293, 0x92, 0x22, 0x42, 0x5c, 0x8c] := by decide
      generalize hit : GItem.one 0x56 d = it at hr
      cases hr with
      | format d' s h => injection hit with e1 e2; exact absurd e1 hne1
      | xf d' x h => injection hit with e1 e2; exact absurd e1 hne2
      | formatCount n tail => injection hit with e1 e2; rw [e2]; simp [le16_length]
      | other c d' hc h => injection hit with e1 e2; exact absurd (e1 ▸ hc) hne3
    have hfit' : ∀ q ∈ withIxfe none F.items, (∀ a ∈ q.2.attrs env.fi, CanFix (hasXfs b1) q.1 a) ∧
        (∀ y ∈ q.2.rowNumbers env.fi, hasXfs b1 = true ∧ (y = 63 → q.1 ≠ none)) ∧
        FitsB2 env.fi (xfIn (hasXfs b1) (attrsB2 env.fi F.items) q.1) (if m then xfRecords 21 F.book else 16 + (ownXfs (attrsB2 env.fi F.items)).length) q.2 := by
      rw [hmx b1 hk]; exact hfit
    obtain ⟨o, hor⟩ := b2_file_ok (b0 := oldStart f) rfl (oldStart_fonts hf1) hw.ok h56 hb1 hd ⟨b', he⟩ (fun hh => by rw [hmx b1 hk] at hh; rw [if_pos hh]; exact hk) hfit' (encRec op bof) rest
    have hor' : oldRead env 21 file (oldStart f) ((encRec op bof).length : Int) = .ok o := by rw [hmem]; exact hor
    refine ⟨_, congrArg some (?_ : openStream env file 0 = .ok ⟨o.bv, o.book, file, [some ⟨"Sheet 1".toList, 0, 0, o.sheet⟩], true⟩)⟩
    unfold openStream
    rw [hf]
    simp only [bind, Except.bind]
    rw [if_pos (by omega)]
    unfold openSingle
    have hf1' : initialiseColourMap 21 env.fi newBook.fmt = .ok f := hf1
    simp only [hf1', hg, bind, Except.bind]
    have : oldRead env 21 file { newBook with fmt := f, sheetNames := ["Sheet 1".toList], shAbsPosn := [0], sheetVisibility := [0] } ((encRec op bof).length : Int) = .ok o := hor'
    rw [this]
    rfl

theorem cellsB2_mem {fi : Bool} {f : Option Nat → CellAttr → Nat} {items : List B2Item} {w : Write} :
    w ∈ cellsB2 fi f items ↔ ∃ q ∈ withIxfe none items, w ∈ q.2.cells fi (f q.1) := List.mem_flatMap

theorem fits_cells {fi : Bool} {f : Option Nat → CellAttr → Nat} {items : List B2Item} {n : Nat} :
    (∀ q ∈ withIxfe none items, FitsB2 fi (f q.1) n q.2) ↔ CellsFit 16384 fi n (cellsB2 fi f items) [] := by
  constructor
  · intro h
    refine ⟨fun w hw => ?_, fun w hw hn => ?_, fun hfi w hw => ?_, fun hh => (by simp [maxOf] at hh)⟩
    all_goals
      obtain ⟨q, hq, hw'⟩ := cellsB2_mem.mp hw
      obtain ⟨h1, h2, h3, h4⟩ := h q hq w hw'
    · exact ⟨h1, h2⟩
    · exact h3 hn
    · exact h4 hfi
  · rintro ⟨h1, h2, h3, _⟩ q hq w hw
    have hw' := cellsB2_mem.mpr ⟨q, hq, hw⟩
    exact ⟨(h1 w hw').1, (h1 w hw').2, h2 w hw', fun hfi => h3 hfi w hw'⟩

/-- **C83** (Excel 2.1).  A file of BIFF2 with XF records whose records about the whole file can be read opens exactly if an IXFE record comes before each XF number 63
and the cells fit. -/
theorem C83_opens_iff (env : OpenEnv) (file : Bytes) (F : B2File) (hw : B2Workbook (textAt (env.recEnv 21)) file F) (ho : OldOpenable 21 env.override env.codec F.book)
    (hx : xfRecords 21 F.book ≠ 0) :
    (∃ l, openXls env file = some (.ok l)) ↔
      IxfeGiven env.fi F.items ∧ CellsFit 16384 env.fi (xfRecords 21 F.book) (cellsB2 env.fi (fun i a => ixfeIndex i a.slot) F.items) [] := by
  rw [b2_opens_iff hw ho true ⟨fun _ => hx, fun _ => rfl⟩, ← fits_cells]
  constructor
  · intro h
    exact ⟨fun q hq => ⟨fun a ha => ((h q hq).1 a ha).1 rfl, fun y hy => ((h q hq).2.1 y hy).2⟩, fun q hq => (h q hq).2.2⟩
  · rintro ⟨h1, h2⟩ q hq
    exact ⟨fun a ha => ⟨fun _ => (h1 q hq).1 a ha, fun h => (by cases h)⟩, fun y hy => ⟨rfl, (h1 q hq).2 y hy⟩, h2 q hq⟩

/-- **C83** (Excel 2.0).  A file of BIFF2 without XF records whose records about the whole file can be read opens exactly if no cell, row or column in use refers to an XF record
by number and the cells fit; the XFs made up for the attributes count as XFs of the file. -/
theorem C83_opens_without_xfs_iff (env : OpenEnv) (file : Bytes) (F : B2File) (hw : B2Workbook (textAt (env.recEnv 21)) file F)
    (ho : OldOpenable 21 env.override env.codec F.book) (hx : xfRecords 21 F.book = 0) :
    (∃ l, openXls env file = some (.ok l)) ↔
      NoXfNumbers env.fi F.items ∧ CellsFit 16384 env.fi (16 + (ownXfs (attrsB2 env.fi F.items)).length)
        (cellsB2 env.fi (fun _ a => attrNumber (attrsB2 env.fi F.items) a) F.items) [] := by
  rw [b2_opens_iff hw ho false ⟨fun h => (by cases h), fun h => absurd hx h⟩, ← fits_cells]
  constructor
  · intro h
    refine ⟨withIxfe_all fun q hq => ⟨fun a ha => ((h q hq).1 a ha).2 rfl, ?_⟩, fun q hq => (h q hq).2.2⟩
    refine List.eq_nil_iff_forall_not_mem.mpr fun y hy => ?_
    cases ((h q hq).2.1 y hy).1
  · rintro ⟨h1, h2⟩ q hq
    obtain ⟨k1, k2⟩ := h1 q.2 (withIxfe_mem hq)
    exact ⟨fun a ha => ⟨fun h => (by cases h), fun _ => k1 a ha⟩, fun y hy => (by rw [k2] at hy; cases hy), h2 q hq⟩

end Xlrd
