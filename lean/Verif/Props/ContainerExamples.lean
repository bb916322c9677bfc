import Verif.Props.Container
import Verif.Props.WorkbookExamples

/-!
# A file that meets the hypotheses of the theorems about compound documents (C68, C67)

Sectors of 128 bytes: 0 allocation table (listed in the extension of the master table, sector 4), 1, 2, 8 directory, 5, 9 the workbook stream, 6 short
streams, 7 their table, 3 unused.  The file ends within sector 9, and the master table has an entry for a sector after the end of the file.
-/
set_option linter.unusedSimpArgs false
namespace Xlrd
open Spec
namespace SampleDoc

instance (i : Int) : Decidable (IsInt32 i) := by unfold IsInt32; infer_instance
instance (mem : Bytes) (base sec k : Nat) : Decidable (Whole mem base sec k) := by unfold Whole; infer_instance
instance (mem : Bytes) (sec k : Nat) : Decidable (Begun mem sec k) := by unfold Begun; infer_instance

def header : Header where
  clsid := List.replicate 16 0
  revision := 0x3E
  version := 3
  sectorExp := 7
  shortExp := 6
  misc := List.replicate 10 0
  satCount := 1
  dirFirst := 1
  misc2 := [0, 0, 0, 0]
  minSize := 100
  ssatFirst := 7
  ssatCount := 1
  extFirst := 4
  extCount := 1
  msat := List.replicate 109 (-1)

def entry (name : String) (kind : UInt8) (left child first : Int) (size : Nat) : Entry where
  name := name.toList
  nameSize := 2 * (utf16 name.toList).length + 2
  pad := List.replicate (64 - 2 * (utf16 name.toList).length) 0
  kind := kind
  colour := 1
  left := left
  right := -1
  child := child
  misc := List.replicate 20 0
  stamps := List.replicate 16 0
  first := first
  size := size
  tail := [0, 0, 0, 0]

/-- The workbook stream: that of `SampleFile`. -/
def book : Bytes := SampleFile.mem.drop 2
def shorts : Bytes := (List.range 128).map UInt8.ofNat
def root : Entry := entry "Root Entry" 5 (-1) 1 6 128
def wb : Entry := entry "Workbook" 2 2 (-1) 5 203
def s : Entry := entry "S" 2 (-1) (-1) 1 70

def parts : Parts where
  extSecs := [4]
  ext := 0 :: 10 :: List.replicate 29 (-1)
  satSecs := [0]
  sat := [-3, 2, 8, -1, -4, 9, -2, -2, -2, -2] ++ List.replicate 22 (-1)
  dirSecs := [1, 2, 8]
  entries := [root, wb, s]
  root := root
  shortSecs := [6]
  ssatSecs := [7]
  ssat := [-2, 0] ++ List.replicate 30 (-1)

def tree : DTree := .node 1 (.node 2 .leaf .leaf .leaf) .leaf .leaf

def file : Bytes :=
  header.enc ++ encInts parts.sat ++ root.enc ++ wb.enc ++ List.replicate 128 7 ++ encInts (parts.ext ++ [-1]) ++ book.take 128 ++ shorts ++
    encInts parts.ssat ++ s.enc ++ book.drop 128

theorem entry_ok {name : String} {kind : UInt8} {left child first : Int} {size : Nat} (h1 : 2 * (utf16 name.toList).length ≤ 64) (h2 : IsInt32 left)
    (h3 : IsInt32 child) (h4 : IsInt32 first) (h5 : size < 2147483648) : (entry name kind left child first size).Ok where
  size64 := by simp [entry]; omega
  nameSize := Or.inl rfl
  left := h2
  right := show IsInt32 (-1) by decide
  child := h3
  misc := rfl
  stamps := rfl
  first := h4
  size := h5
  tail := rfl

theorem document : Document file header parts tree where
  header := by decide +kernel
  headerOk := ⟨rfl, rfl, rfl, by decide, by decide, by decide, by decide, by decide, by decide, by decide, by decide, by decide, rfl, by decide +kernel⟩
  ext := by
    have h : Extension file header.sec 4 [4] ((0 :: 10 :: List.replicate 29 (-1)) ++ []) :=
      .next 4 (0 :: 10 :: List.replicate 29 (-1)) (-1) [] [] (by decide +kernel) (by decide +kernel) (by decide) (.done _ (by decide))
    exact .inl h
  extCount := rfl
  satSecs := by decide +kernel
  unused := by decide +kernel
  sat := by decide +kernel
  satInts := by decide +kernel
  dir := .next 1 2 _ rfl (.next 2 8 _ rfl (.next 8 (-2) _ rfl .done))
  entries := by decide +kernel
  entriesOk := by
    intro e he
    simp only [parts, List.mem_cons, List.not_mem_nil, or_false] at he
    rcases he with rfl | rfl | rfl
    · exact entry_ok (by decide) (by decide) (by decide) (by decide) (by decide)
    · exact entry_ok (by decide) (by decide) (by decide) (by decide) (by decide)
    · exact entry_ok (by decide) (by decide) (by decide) (by decide) (by decide)
  root := rfl
  rootKind := rfl
  tree := .other 1 (wb.node 1) _ _ rfl (by decide) (.other 2 (s.node 2) _ _ rfl (by decide) (.leaf _ (by decide)) (.leaf _ (by decide))) (.leaf _ (by decide))
  once := by decide
  short := .some (by decide) (by decide) (.next 6 (-2) _ rfl .done) (.next 7 (-2) _ rfl .done) rfl (by decide +kernel) (by decide +kernel)
  whole := by decide +kernel
  shorts := ⟨by decide +kernel, by decide +kernel, by decide +kernel⟩
  distinct := by decide

theorem workbook : Named id file header parts tree "Workbook".toList [5, 9] book := by
  refine ⟨1, wb, .stream tree _ 1 (wb.node 1) ⟨[2], [], rfl, rfl, rfl, ?_⟩ rfl, rfl, by decide, ?_⟩
  · intro e he m hm
    simp only [List.mem_singleton] at he
    subst he
    cases hm
    decide
  · have e : book = (sectors file 512 header.sec [5, 9]).take wb.size := by decide +kernel
    rw [e]
    exact .long [5, 9] (by decide) (.next 5 9 _ rfl (.next 9 (-2) _ rfl .done)) (by decide) (by decide)
      ⟨by decide +kernel, by decide +kernel, by decide +kernel⟩ (by decide) (by decide)

/-- `S` uses the short sectors 1, 0. -/
theorem small : Named id file header parts tree "S".toList [] (shorts.drop 64 ++ shorts.take 6) := by
  refine ⟨2, s, .stream tree _ 2 (s.node 2) ⟨[], [1], rfl, rfl, rfl, by simp⟩ rfl, rfl, by decide, ?_⟩
  have e : shorts.drop 64 ++ shorts.take 6 = (sectors (parts.shorts file header) 0 header.shortSec [1, 0]).take s.size := by decide +kernel
  rw [e]
  exact .short [1, 0] (by decide) (by decide) (by decide) (.next 1 0 _ rfl (.next 0 (-2) _ rfl .done)) (by decide +kernel)

/-- C68 for this file. -/
example : ∃ cd, compDocInit 2000 10 file false = some (.ok cd) ∧
    fetchAll 2000 id cd [(true, "S".toList), (true, "Workbook".toList), (false, "S".toList)] =
      some (.ok [some (shorts.drop 64 ++ shorts.take 6), some book, some (shorts.drop 64 ++ shorts.take 6)]) :=
  C68_streams_partial file header parts tree document id false 2000 10 (by decide +kernel) (by decide) _
    [([], shorts.drop 64 ++ shorts.take 6), ([5, 9], book), ([], shorts.drop 64 ++ shorts.take 6)]
    (.cons small (.cons workbook (.cons small .nil))) (by decide)

example : ∃ cd, compDocInit 2000 10 file true = some (.ok cd) ∧ getNamedStream 2000 id cd "Book".toList = some (.ok (none, cd)) ∧
    locateNamedStream 2000 id cd "Book".toList = some (.ok ((none, 0, 0), cd)) := by
  refine C68_missing file header parts tree document id true 2000 10 (by decide +kernel) (by decide) _ (.here _ _ _ ?_)
  intro e he m hm
  have : e = 2 ∨ e = 1 := by simpa [tree, DTree.siblings] using he
  rcases this with rfl | rfl <;> cases hm <;> decide

/-! ## C67 for this file -/

def env : OpenEnv := { SampleFile.env true with lower := id, fuel := 3000 }

theorem isFile : WorkbookFile env.lower env.depth file book := .workbook file header parts tree [5, 9] book document (by decide) workbook (by decide +kernel)

theorem bookStream (dec : List GItem → Bytes → R PyStr) : WorkbookStream 80 dec book 0 SampleFile.items [SampleFile.sheetZ, SampleFile.sheetY, SampleFile.sheetX] where
  bytes := ⟨[], 0x0809, SampleFile.bof, [], book.drop (encRec 0x0809 SampleFile.bof ++ encGlobals SampleFile.items []).length, rfl,
    .biff8 5 [1, 2, 3, 4] (by decide) (by decide), by decide, by decide +kernel⟩
  ok := (SampleFile.stream dec).ok
  sheets := SampleFile.sheets dec

theorem bookSheet : SheetAt 80 book SampleFile.sheetZ.offset SampleFile.layout :=
  ⟨80, 0x0809, SampleFile.sheetBof, book.drop (100 + (encRec 0x0809 SampleFile.sheetBof ++ encRecs (SampleFile.layout.records 80)).length),
    .biff8 0x10 [] (by decide) (by decide), by decide +kernel⟩

theorem opens : ∃ l, openXls env file = some (.ok l) ∧ ∃ sh, (sheetByIndex env l (0 : Nat)).1 = .ok sh := by
  have h1 : (match openXls env file with
      | some (.ok l) => (sheetByIndex env l (0 : Nat)).1.toOption.isSome
      | _ => false) = true := by decide +kernel
  cases h : openXls env file with
  | none => rw [h] at h1; cases h1
  | some r =>
    cases r with
    | error e => rw [h] at h1; cases h1
    | ok l =>
      rw [h] at h1
      refine ⟨l, rfl, ?_⟩
      cases h2 : (sheetByIndex env l (0 : Nat)).1 with
      | ok sh => exact ⟨sh, rfl⟩
      | error e => simp only [h2] at h1; cases h1

example : ∃ sh : LSheet, sh.name = "Z".toList ∧ sh.visibility = 1 ∧ sh.st.store.nrows = 2 ∧ sh.st.store.ncols = 3 ∧
    sh.st.store.cellValue 1 2 = .ok (.int 1) ∧ sh.st.store.cellType 1 2 = .ok XL_CELL_BOOLEAN := by
  obtain ⟨l, hl, sh, hsh⟩ := opens
  have hno : ∀ {α : Type} {sel : Nat → Prop} {Rel : List GItem → Bytes → α → Prop}, (¬ sel 0x42) → (¬ sel 0x85) → Collected sel Rel SampleFile.items [] := by
    intro α sel Rel h1 h2
    refine Collected.skip (pre := [_, _, _]) (Collected.skip (pre := [_, _]) (Collected.skip (pre := [_]) (Collected.skip (pre := []) .nil ?_) ?_) ?_) ?_ <;>
      (rintro c d h; cases h; assumption)
  obtain ⟨_, h1, h2, tm, _, h4, h5, h6⟩ := C67_file_cell env rfl 80 file book isFile (by decide +kernel) SampleFile.items _ (by decide) (bookStream _) []
    (hno (by decide) (by decide)) [] (hno (by decide) (by decide)) l hl 0 SampleFile.sheetZ rfl SampleFile.layout bookSheet (SampleFile.layoutOk _ _) [] sh hsh
  have e1 : sh.st.store.nrows = 2 := h4
  have e2 : sh.st.store.ncols = 3 := h5
  have h7 := (h6 1 2).1 ⟨by omega, by omega⟩
  exact ⟨sh, h1, h2, e1, e2, h7.2.1, h7.1⟩

end SampleDoc

/-! ## A document whose stream `L` is entry 250 of the directory -/

namespace LateDoc
open SampleDoc

def header : Header := { SampleDoc.header with sectorExp := 15, extFirst := 0, extCount := 0, msat := 0 :: List.replicate 108 (-1), ssatFirst := -2, ssatCount := 0 }
def root : Entry := entry "R" 5 (-1) 250 (-2) 0
def late : Entry := entry "L" 2 (-1) (-1) 2 200
def free : Entry := entry "" 0 (-1) (-1) 0 0
def entries : List Entry := root :: (List.replicate 249 free ++ late :: List.replicate 5 free)
def parts : Parts where
  extSecs := []
  ext := []
  satSecs := [0]
  sat := [-3, -2, -2] ++ List.replicate 8189 (-1)
  dirSecs := [1]
  entries := entries
  root := root
  shortSecs := []
  ssatSecs := []
  ssat := []
def tree : DTree := .node 250 .leaf .leaf .leaf
def rest : Bytes := List.replicate 32768 7
def file : Bytes := header.enc ++ (encInts parts.sat ++ (entries.flatMap Entry.enc ++ rest))

theorem headerOk : header.Ok :=
  ⟨rfl, rfl, rfl, by decide, by decide, by decide, by decide, by decide, by decide, by decide, by decide, by decide, rfl, by decide +kernel⟩

theorem entriesOk : ∀ e ∈ entries, e.Ok := by
  intro e he
  simp only [entries, List.mem_cons, List.mem_append, List.mem_replicate] at he
  have h0 : free.Ok := entry_ok (by decide) (by decide) (by decide) (by decide) (by decide)
  rcases he with rfl | ⟨_, rfl⟩ | rfl | ⟨_, rfl⟩
  · exact entry_ok (by decide) (by decide) (by decide) (by decide) (by decide)
  · exact h0
  · exact entry_ok (by decide) (by decide) (by decide) (by decide) (by decide)
  · exact h0

theorem flat_length (l : List Entry) (h : ∀ e ∈ l, e.Ok) : (l.flatMap Entry.enc).length = 128 * l.length := by
  induction l with
  | nil => rfl
  | cons e es ih =>
    have := ih fun x hx => h x (by simp [hx])
    simp only [List.flatMap_cons, List.length_append, List.length_cons, this, Entry.enc_length e (h e (by simp))]; omega

theorem l0 : header.enc.length = 512 := Header.enc_length header headerOk
theorem l1 : (encInts parts.sat).length = 32768 := by rw [encInts_length]; rw [show parts.sat.length = 8192 by simp only [parts, List.length_append, List.length_cons, List.length_nil, List.length_replicate]]
theorem l2 : (entries.flatMap Entry.enc).length = 32768 := by rw [flat_length entries entriesOk]; rw [show entries.length = 256 by simp only [entries, List.length_append, List.length_cons, List.length_replicate]]
theorem l3 : rest.length = 32768 := List.length_replicate
theorem len : file.length = 98816 := by simp only [file, List.length_append, l0, l1, l2, l3]
theorem sec : header.sec = 32768 := by decide

theorem sec0 : sector file 512 header.sec 0 = encInts parts.sat := by
  rw [sec]; unfold sector file
  rw [show 512 + 0 * 32768 = header.enc.length by rw [l0], List.drop_left, ← l1, List.take_left]

theorem sec1 : sector file 512 header.sec 1 = entries.flatMap Entry.enc := by
  rw [sec]; unfold sector file
  rw [← List.append_assoc, show 512 + 1 * 32768 = (header.enc ++ encInts parts.sat).length by rw [List.length_append, l0, l1], List.drop_left, ← l2, List.take_left]

theorem entry250 : entries[250]? = some late := by
  simp only [entries]
  rw [List.getElem?_cons_succ, List.getElem?_append_right (by rw [List.length_replicate]), List.length_replicate]; rfl

theorem node250 : (nodesOf entries)[250]? = some (late.node 250) := by
  unfold nodesOf; rw [List.getElem?_mapIdx, entry250]; rfl

theorem entriesAt : sectors file 512 header.sec parts.dirSecs = parts.entries.flatMap Entry.enc := by
  simp only [parts, sectors, List.flatMap_cons, List.flatMap_nil, List.append_nil, sec1]

theorem noShorts : Holds file header.sec [] root.size := ⟨(by simp), (by simp), (by simp)⟩

theorem master : (header.msat ++ []).filter (fun i : Int => decide (0 ≤ i ∧ 512 + i * header.sec < file.length)) = [0].map Int.ofNat := by
  rw [len, sec]; decide +kernel

set_option maxRecDepth 20000 in
theorem document : Document file header parts tree where
  header := by unfold file; rw [← l0, List.take_left]
  headerOk := headerOk
  ext := .inr ⟨rfl, rfl, rfl⟩
  extCount := rfl
  satSecs := master
  unused := by decide +kernel
  sat := by show sector file 512 header.sec 0 ++ [] = _; rw [List.append_nil, sec0]
  satInts := by
    intro i hi
    simp only [parts, List.mem_append, List.mem_cons, List.mem_replicate, List.not_mem_nil, or_false] at hi
    rcases hi with (rfl | rfl | rfl) | ⟨_, rfl⟩ <;> decide
  dir := .next 1 (-2) _ rfl .done
  entries := entriesAt
  entriesOk := entriesOk
  root := rfl
  rootKind := rfl
  tree := .other 250 (late.node 250) _ _ node250 (by decide) (.leaf _ (by decide)) (.leaf _ (by decide))
  once := by decide
  short := .none rfl rfl rfl rfl
  whole := by
    intro k hk
    have hk : k = 0 ∨ k = 1 := by simpa [parts, Parts.secs] using hk
    unfold Whole; rw [len, sec]
    omega
  shorts := noShorts
  distinct := by decide

/-- C68 fails for this document. -/
example : ∃ cd, compDocInit 100000 10 file false = some (.ok cd) ∧ getNamedStream 100000 id cd "L".toList = some (.error .overflow) ∧
    locateNamedStream 100000 id cd "L".toList = some (.error .overflow) := by
  refine C68_late_entry file header parts tree document id false 100000 10 (by rw [len]; decide) (by decide) _ 250 late
    (.stream tree _ 250 (late.node 250) ⟨[], [], rfl, node250, rfl, by simp⟩ rfl) entry250 (by decide) [2] _
    (.long [2] (by decide) (.next 2 (-2) _ rfl .done) (by decide) (by decide) ⟨?_, (by simp), ?_⟩ (by decide) (by decide)) (by decide)
  · intro k hk
    have : k = 2 := by simpa using hk
    unfold Begun; rw [len, sec]; omega
  · intro k hk
    have : 2 = k := by simpa using hk
    subst this
    rw [len, sec, show late.size = 200 from rfl]
    simp

end LateDoc
end Xlrd
