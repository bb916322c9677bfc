import Verif.Lemmas.OldOpenOk

/-!
# C81: well-formed files of BIFF3 and BIFF4 open
-/
set_option linter.unusedSimpArgs false
namespace Xlrd
open Spec

theorem oldOpenable_readable {env : OpenEnv} {v : Nat} {items : List GItem} (ho : OldOpenable v env.override env.codec items) (pre : List GItem) (it : GItem) (post : List GItem)
    (h : items = pre ++ it :: post) : OldReadable (env.recEnv v).bv (textAt (env.recEnv v)) items pre it := ho.readable pre it post h

/-- **C81**.  A file of BIFF3 or BIFF4 whose records about the whole file can be read opens exactly if its cells fit. -/
theorem C81_opens_iff (env : OpenEnv) (v : Nat) (file : Bytes) (F : OldFile) (hw : OldWorkbook v (textAt (env.recEnv v)) file F)
    (ho : OldOpenable v env.override env.codec F.book) :
    (∃ l, openXls env file = some (.ok l)) ↔ CellsFit 16384 env.fi (xfRecords v F.book) (cellsOf fl env.fi [] F.layout.items) (mergedRanges env.fi F.layout.items) := by
  have hx := C73_file env v _ file F hw
  have hver := hw.version
  have hv : v = 30 ∨ v = 40 ∨ v = 45 := by omega
  have hinit : ∀ f, initialiseColourMap v env.fi newBook.fmt = .ok f → KnownInv 0 (oldStart f).fmt := by
    intro f hf
    obtain ⟨m, rfl⟩ := colour_map_fields (env := env.recEnv v) hf
    refine ⟨rfl, fun i x hx => (by cases hx), fun k => ?_⟩
    show ((if k = 0 then some XL_CELL_NUMBER else none : Option Nat)).isSome = true ↔ _
    by_cases hk : k = 0 <;> simp [hk]
  rw [hx]
  constructor
  · rintro ⟨l, hl⟩
    rw [Option.some.injEq] at hl
    obtain ⟨f, b1, b2, st, h1, h2, h3, _, _, _, _, _, hs, hd, hsr, hi⟩ := old_opened hw hl
    have hk := known_xfs (env := env.recEnv v) (.inr hv) (hinit f h1) F.book hi h2
    have hL : F.layout.Ok v (textDec env v b2) (b2.sst.map Prod.fst) := by
      rw [hd, hs]; exact layout_ok hw.ok
    have := (old_sheet_fits (by omega) (by omega) hk h3 hL).mp ⟨st, hsr⟩
    rw [hs] at this
    exact this
  · intro hfit
    obtain ⟨op, bof, rest, hb, hm⟩ := hw.bytes
    have hf : firstBof file 0 = .ok (v, ((encRec op bof).length : Int)) := by
      have := C52_first_bof hb [] (encRecs (F.records v) ++ rest)
      rw [if_pos (show StartsFile v 0x10 from Or.inr (Or.inr ⟨by omega, rfl⟩))] at this
      rw [hm, List.append_assoc]
      simpa using this
    have hg : getbof file 0 XL_WORKSHEET = .ok (v, ((encRec op bof).length : Int)) := by
      have := C52_sheet_bof hb [] (encRecs (F.records v) ++ rest)
      rw [if_pos rfl] at this
      rw [hm, List.append_assoc]
      simpa using this
    have hi : BookItems v F.book := headBook_items hw.ok.codes
    obtain ⟨f, hf1, inv0⟩ := old_inv0 (env := env.recEnv v) (.inr hver) (F.book.map newItem)
    obtain ⟨b1, hb1, inv1⟩ := old_book_ok (env := env.recEnv v) (.inr hv) ho.usable (oldOpenable_readable ho) F.book [] (oldStart f) rfl inv0
    have hsst : b1.sst = [] := (book_frame (env := env.recEnv v) (.inr hv) hi hb1).1
    have hd : textDec env v b1 = textAt (env.recEnv v) F.book := book_text (.inr hv) (oldStart_enc _ f) hb1
    have hk := known_xfs (env := env.recEnv v) (.inr hv) (hinit f hf1) F.book hi hb1
    obtain ⟨b', he, _⟩ := ensure_ok (List.prefix_rfl) (by rw [lastCodepage_new]; exact ho.usable F.book List.prefix_rfl) inv1.enc inv1.raw
    have h56 : ∀ d, GItem.one 0x56 d ∈ F.book → 2 ≤ d.length := by
      intro d hmem
      obtain ⟨p, q, hpq⟩ := List.append_of_mem hmem
      have hr := ho.readable p _ q hpq
      have hne1 : (0x56 : Nat) ≠ formatCode v := by rcases hver with h | h <;> rw [h] <;> decide
      have hne2 : (0x56 : Nat) ≠ xfCode v := by rcases hver with h | h <;> rw [h] <;> decide
      have hne3 : (0x56 : Nat) ∉ [fontCode v, 0x293, 0x92, 0x22, 0x42, 0x5c, 0x8c] := by rcases hver with h | h <;> rw [h] <;> decide
      generalize hit : GItem.one 0x56 d = it at hr
      cases hr with
      | format d' s h => injection hit with e1 e2; exact absurd e1 hne1
      | xf d' x h => injection hit with e1 e2; exact absurd e1 hne2
      | formatCount n tail => injection hit with e1 e2; rw [e2]; simp [le16_length]
      | other c d' hc h => injection hit with e1 e2; exact absurd (e1 ▸ hc) hne3
    have hsheet : ∀ b2, (b2 = b1 ∨ b2 = runEpilogue env b1) → ∃ s, sheetRead (readEnv env v b2) (encRecs (F.layout.records v)) 0 = .ok s := by
      intro b2 hb2
      have h1 : b2.sst = [] := by rcases hb2 with rfl | rfl <;> exact hsst
      have h2 : textDec env v b2 = textAt (env.recEnv v) F.book := by
        rcases hb2 with rfl | rfl
        · exact hd
        · rw [epilogue_textDec]; exact hd
      refine (old_sheet_fits (by omega) (by omega) hk hb2 (by rw [h1, h2]; exact layout_ok hw.ok)).mpr ?_
      rw [h1]; exact hfit
    obtain ⟨o, hor⟩ := old_file_ok hv (b0 := oldStart f) rfl hw.ok h56 hb1 ⟨hd, by rw [hsst]; rfl⟩ ⟨b', he⟩ hsheet (encRec op bof) rest
    have hor' : oldRead env v file (oldStart f) ((encRec op bof).length : Int) = .ok o := by rw [hm]; exact hor
    refine ⟨_, congrArg some (?_ : openStream env file 0 = .ok ⟨o.bv, o.book, file, [some ⟨"Sheet 1".toList, 0, 0, o.sheet⟩], true⟩)⟩
    unfold openStream
    rw [hf]
    simp only [bind, Except.bind]
    rw [if_pos (by omega)]
    unfold openSingle
    have hf1' : initialiseColourMap v env.fi newBook.fmt = .ok f := hf1
    simp only [hf1', hg, bind, Except.bind]
    have : oldRead env v file { newBook with fmt := f, sheetNames := ["Sheet 1".toList], shAbsPosn := [0], sheetVisibility := [0] } ((encRec op bof).length : Int) = .ok o := hor'
    rw [this]
    rfl

end Xlrd
