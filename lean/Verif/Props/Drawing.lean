import Verif.Props.SheetRead
import Mathlib.Data.List.Induction

/-!
# C71 and C72: hyperlinks and notes of a worksheet
-/
set_option linter.unusedSimpArgs false
set_option linter.unreachableTactic false
set_option linter.unusedTactic false
namespace Xlrd
open Spec

theorem items_ext {env : SheetEnv} {items : List SheetItem} {s s' : SheetSt} (h : applyItems env s items = .ok s') :
    s'.ext = (extrasOf items).foldl applyExtra s.ext := by
  refine items_ok_ind (P := fun s items s' => s'.ext = (extrasOf items).foldl applyExtra s.ext) (fun s => rfl) ?_ items s s' h
  intro s x xs s1 s' hx ih
  rw [ih]
  item_cases x hx using (try split_ifs) <;> simp [extrasOf]

theorem read_ext {env : SheetEnv} (h30 : 30 ≤ env.bv) {L : Layout} (hL : L.Ok env.bv env.dec env.sst) {pre rest : Bytes} {s : SheetSt}
    (h : sheetRead env (pre ++ encRecs (L.records env.bv) ++ rest) (pre.length : Int) = .ok s) :
    s.ext = (extrasOf L.items).foldl applyExtra {} := by
  obtain ⟨s1, s2, s3, e1, e2, e3, e4⟩ := read_state h30 hL h
  rw [(finish_fields e4).2]
  have : ∀ (t : SheetSt) (st : Store), (updateCooked { t with store := st }).ext = t.ext := by intro t st; unfold updateCooked; split_ifs <;> rfl
  rw [this, items_ext e3]
  have a2 : s2.ext = s1.ext := by
    cases hdm : L.dim with
    | none => rw [hdm] at e2; simp only [applyDim] at e2; rw [e2]
    | some d => rw [hdm] at e2; obtain ⟨a, b, rfl, _⟩ := e2; rfl
  rw [a2, items_ext e1, ← List.foldl_append]
  simp only [extrasOf, Layout.items, List.filterMap_append]

/-! ## C71 Hyperlinks -/

theorem links_fold (xs : List ExtraRec) : ∀ e : Extras, (xs.foldl applyExtra e).links = e.links ++ linksOf xs := by
  induction xs with
  | nil => intro e; simp [linksOf]
  | cons x xs ih =>
    intro e
    rw [List.foldl_cons, ih]
    cases x with
    | link y tip => simp [applyExtra, linksOf]
    | note n =>
      cases n with
      | boxed row col flags obj author pad => simp only [applyExtra, linksOf]; cases e.txos obj <;> simp
      | plain => simp [applyExtra, linksOf]
    | _ => simp [applyExtra, linksOf]

/-- The link that the map of the sheet gives for a cell. -/
def Extras.linkOn (e : Extras) (p : Nat × Nat) : Option Hyperlink := (e.linkMap p).bind (e.links[·]?)

theorem linkOn_fold (xs : List ExtraRec) (r c : Nat) : ∀ e : Extras, (∀ k, e.linkMap (r, c) = some k → k < e.links.length) →
    (xs.foldl applyExtra e).linkOn (r, c) = (linkAt xs r c).or (e.linkOn (r, c)) := by
  induction xs with
  | nil => intro e _; simp [linkAt, linksOf]
  | cons x xs ih =>
    intro e he
    rw [List.foldl_cons]
    have same : (applyExtra e x).linkMap = e.linkMap → (applyExtra e x).links = e.links → linksOf (x :: xs) = linksOf xs →
        (xs.foldl applyExtra (applyExtra e x)).linkOn (r, c) = (linkAt (x :: xs) r c).or (e.linkOn (r, c)) := by
      intro h1 h2 h3
      rw [ih _ (by rw [h1, h2]; exact he)]
      unfold linkAt Extras.linkOn
      rw [h1, h2, h3]
    cases x with
    | link y tip =>
      have hb : ∀ k, (applyExtra e (.link y tip)).linkMap (r, c) = some k → k < (applyExtra e (.link y tip)).links.length := by
        intro k hk
        simp only [applyExtra, mapLink, List.length_append, List.length_singleton] at hk ⊢
        split_ifs at hk
        · simp at hk; omega
        · have := he k hk; omega
      rw [ih _ hb]
      have hl : linkAt (.link y tip :: xs) r c = (linkAt xs r c).or (if y.range.Has r c then some (y.value tip) else none) := by
        unfold linkAt
        rw [show linksOf (.link y tip :: xs) = y.value tip :: linksOf xs by simp [linksOf], List.filter_cons]
        have : (Rect.Has ((y.value tip).frowx, (y.value tip).lrowx, (y.value tip).fcolx, (y.value tip).lcolx) r c) ↔ y.range.Has r c := Iff.rfl
        by_cases hh : y.range.Has r c
        · rw [if_pos (by simpa using this.mpr hh), if_pos hh, List.getLast?_cons]
          cases (List.filter _ (linksOf xs)).getLast? <;> rfl
        · rw [if_neg (by simpa using fun h => hh (this.mp h)), if_neg hh]
          cases (List.filter _ (linksOf xs)).getLast? <;> rfl
      rw [hl]
      have hm : (applyExtra e (.link y tip)).linkOn (r, c) = (if y.range.Has r c then some (y.value tip) else none).or (e.linkOn (r, c)) := by
        unfold Extras.linkOn
        simp only [applyExtra, mapLink]
        have hiff : ((y.value none).frowx ≤ r ∧ r ≤ (y.value none).lrowx ∧ (y.value none).fcolx ≤ c ∧ c ≤ (y.value none).lcolx) ↔ y.range.Has r c := Iff.rfl
        by_cases hh : y.range.Has r c
        · rw [if_pos (hiff.mpr hh), if_pos hh]; simp
        · rw [if_neg (fun q => hh (hiff.mp q)), if_neg hh]
          simp only [Option.none_or]
          cases hk : e.linkMap (r, c) with
          | none => rfl
          | some k => simp only [Option.bind_some]; rw [List.getElem?_append_left (he k hk)]
      rw [hm]
      cases linkAt xs r c <;> rfl
    | note n =>
      cases n with
      | boxed row col flags obj author pad =>
        refine same ?_ ?_ (by simp [linksOf]) <;> simp only [applyExtra] <;> cases e.txos obj <;> rfl
      | plain => exact same rfl rfl (by simp [linksOf])
    | _ => exact same rfl rfl (by simp [linksOf])

/-- C71: the list of hyperlinks of a sheet holds exactly the links of its HLINK records, in order, each with its range, its kind,
its URL or path, description, target frame, place in the document, and the tip of the record after it.  Missing: URLs with characters beyond the basic plane and
relative paths stored as strings, see `C71_astral_url_fails` and `C71_relative_string_lost`. -/
theorem C71_hyperlink_list_partial (env : SheetEnv) (h30 : 30 ≤ env.bv) (L : Layout) (hL : L.Ok env.bv env.dec env.sst) (pre rest : Bytes)
    (s : SheetSt) (h : sheetRead env (pre ++ encRecs (L.records env.bv) ++ rest) (pre.length : Int) = .ok s) :
    s.ext.links = linksOf (extrasOf L.items) := by
  rw [read_ext h30 hL h, links_fold]; rfl

/-- C71: the map of hyperlinks gives for every cell the last link whose range holds the cell, and nothing for a cell outside all
ranges. -/
theorem C71_hyperlink_map_partial (env : SheetEnv) (h30 : 30 ≤ env.bv) (L : Layout) (hL : L.Ok env.bv env.dec env.sst) (pre rest : Bytes)
    (s : SheetSt) (h : sheetRead env (pre ++ encRecs (L.records env.bv) ++ rest) (pre.length : Int) = .ok s) (r c : Nat) :
    (s.ext.linkMap (r, c)).bind (s.ext.links[·]?) = linkAt (extrasOf L.items) r c := by
  have := linkOn_fold (extrasOf L.items) r c {} (by intro k hk; cases hk)
  rw [read_ext h30 hL h]
  unfold Extras.linkOn at this
  rw [this]
  show Option.or _ none = _
  cases linkAt (extrasOf L.items) r c <;> rfl

/-! ## C72 Notes -/

theorem trimmed_unique {n : Nat} {rs out : List (Nat × Nat)} (h : Trimmed n rs out) : trimRuns n rs = out := by
  induction h with
  | keep rs hk =>
    unfold trimRuns
    cases hr : rs.reverse with
    | nil => have : rs = [] := by simpa using hr
             subst this; rfl
    | cons a t =>
      have hl : rs.getLast? = some a := by rw [← List.head?_reverse, hr]; rfl
      rw [List.dropWhile_cons_of_neg (by simpa using hk a hl), ← hr, List.reverse_reverse]
  | drop rs out f _ ih =>
    unfold trimRuns at ih ⊢
    rw [List.reverse_append, List.reverse_singleton, List.singleton_append, List.dropWhile_cons_of_pos (by simp)]
    exact ih

theorem trimmed_exists (n : Nat) (rs : List (Nat × Nat)) : ∃ out, Trimmed n rs out := by
  induction rs using List.reverseRecOn with
  | nil => exact ⟨[], .keep [] (by simp)⟩
  | append_singleton rs a ih =>
    obtain ⟨out, ho⟩ := ih
    by_cases ha : a.1 = n
    · obtain ⟨a1, f⟩ := a
      simp only at ha
      subst ha
      exact ⟨out, .drop rs out f ho⟩
    · exact ⟨_, .keep _ (by simpa using ha)⟩

theorem notes_exist (xs : List ExtraRec) : ∀ boxes, ∃ ns, NotesOf boxes xs ns := by
  induction xs with
  | nil => intro boxes; exact ⟨[], .nil boxes⟩
  | cons x xs ih =>
    intro boxes
    have other : (∀ b, x ≠ .box b) → (∀ n, x ≠ .note n) → ∃ ns, NotesOf boxes (x :: xs) ns := by
      intro h1 h2
      obtain ⟨ns, hns⟩ := ih boxes
      exact ⟨ns, .other boxes x xs ns h1 h2 hns⟩
    cases x with
    | box b => obtain ⟨ns, hns⟩ := ih (boxes ++ [b]); exact ⟨ns, .box boxes b xs ns hns⟩
    | note n =>
      obtain ⟨ns, hns⟩ := ih boxes
      cases n with
      | plain row col text first more => exact ⟨_, .note boxes _ _ xs ns (.plain row col text first more) hns⟩
      | boxed row col flags obj author pad =>
        cases hb : boxWith boxes obj with
        | none =>
          refine ⟨ns, .lost boxes row col flags obj author pad xs ns ?_ hns⟩
          unfold boxWith at hb
          rw [List.getLast?_eq_none_iff, List.filter_eq_nil_iff] at hb
          intro b hm; simpa using hb b hm
        | some b =>
          obtain ⟨out, ho⟩ := trimmed_exists (utf16 b.text).length (b.runs.flatten.map fun r => (r.start, r.font))
          exact ⟨_, .note boxes _ _ xs ns (.boxed row col flags obj author pad b out hb ho) hns⟩
    | _ => exact other (by simp) (by simp)

theorem noteAt_cons (n : Note) (ns : List Note) (r c : Nat) (o : Option Note) :
    (noteAt (n :: ns) r c).or o = (noteAt ns r c).or (if (r, c) = (n.rowx, n.colx) then some n else o) := by
  unfold noteAt
  rw [List.filter_cons]
  by_cases h : n.rowx = r ∧ n.colx = c
  · rw [if_pos (by simpa using h), if_pos (by rw [h.1, h.2]), List.getLast?_cons]
    cases (List.filter _ ns).getLast? <;> rfl
  · rw [if_neg (by simpa using h), if_neg (by rintro h'; simp at h'; exact h ⟨h'.1.symm, h'.2.symm⟩)]

theorem notes_fold {boxes : List BoxRec} {xs : List ExtraRec} {ns : List Note} (h : NotesOf boxes xs ns) (r c : Nat) : ∀ e : Extras,
    (∀ k, e.txos k = (boxWith boxes k).map boxTxo) → (xs.foldl applyExtra e).notes (r, c) = (noteAt ns r c).or (e.notes (r, c)) := by
  induction h with
  | nil boxes => intro e _; simp [noteAt]
  | box boxes b xs ns _ ih =>
    intro e he
    rw [List.foldl_cons, ih]
    · rfl
    · intro k
      simp only [applyExtra, boxWith, List.filter_append, List.filter_cons, List.filter_nil]
      by_cases hk : k = b.obj.id
      · rw [if_pos hk, if_pos (by simp [hk])]; simp
      · rw [if_neg hk, if_neg (by simp; omega), List.append_nil, he k]; rfl
  | note boxes x n xs ns hn _ ih =>
    intro e he
    rw [List.foldl_cons]
    cases hn with
    | boxed row col flags obj author pad b runs hb ht =>
      have hk : e.txos obj = some (boxTxo b) := by rw [he, hb]; rfl
      have hr : (boxTxo b).runs = runs := trimmed_unique ht
      rw [ih, noteAt_cons]
      · simp only [applyExtra, hk, hr]; rfl
      · intro k; simp only [applyExtra, hk]; exact he k
    | plain row col text first more =>
      rw [ih (applyExtra e (.note (.plain row col text first more))) he, noteAt_cons]; rfl
  | lost boxes row col flags obj author pad xs ns hb _ ih =>
    intro e he
    have hk : e.txos obj = none := by
      rw [he]; unfold boxWith
      rw [List.filter_eq_nil_iff.mpr (by simpa using hb)]; rfl
    rw [List.foldl_cons]
    simp only [applyExtra, hk]
    exact ih e he
  | other boxes x xs ns h1 h2 _ ih =>
    intro e he
    rw [List.foldl_cons]
    cases x with
    | box b => exact absurd rfl (h1 b)
    | note n => exact absurd rfl (h2 n)
    | _ => exact ih _ he

/-- C72: the notes of a sheet.  There is one list of notes described by the records: the NOTE records of BIFF8 joined with the last
text box of their number before them, the NOTE records of older versions with their continuations; and the sheet gives for every
cell the last note at it.  Missing: texts in which a character is divided over two records and boxes with number 0, see
`C72_divided_character_fails` and `C72_box_zero_lost`. -/
theorem C72_notes_partial (env : SheetEnv) (h30 : 30 ≤ env.bv) (L : Layout) (hL : L.Ok env.bv env.dec env.sst) (pre rest : Bytes)
    (s : SheetSt) (h : sheetRead env (pre ++ encRecs (L.records env.bv) ++ rest) (pre.length : Int) = .ok s) :
    (∃ ns, NotesOf [] (extrasOf L.items) ns) ∧
    ∀ ns, NotesOf [] (extrasOf L.items) ns → ∀ r c, s.ext.notes (r, c) = noteAt ns r c := by
  refine ⟨notes_exist _ _, fun ns hns r c => ?_⟩
  rw [read_ext h30 hL h, notes_fold hns r c {} (fun k => rfl)]
  show Option.or _ none = _
  cases noteAt ns r c <;> rfl

/-! ## A sheet with links and notes -/

def exLink : LinkRec :=
  { range := (1, 2, 0, 1), absolute := true, desc := some ("d".toList, true, true), target := none, dest := .url "http://x".toList [],
    textmark := some "m".toList, guid := false, time := false, rest := 0, junk := [] }

def exBox : BoxRec :=
  { obj := { kind := 25, id := 3, flags := 0x4011, reserved := List.replicate 12 0, parts := [(0x0D, List.replicate 22 0)], ending := .zeros 4 },
    drawings := [[1, 2, 3]], flags := 0x212, rotation := 0, control := List.replicate 6 0, font := 0, formula := [],
    pieces := [⟨"ab".toList, false⟩, ⟨"é€😀".toList, true⟩], runs := [[⟨0, 5, 0⟩, ⟨2, 6, 0⟩, ⟨6, 0, 0⟩]] }

def exExtras : List ExtraRec :=
  [.link exLink (some "tip".toList), .box exBox, .note (.boxed 4 5 0x182 3 ⟨"me".toList, 0, false, none, none⟩ (some 0)),
   .note (.boxed 6 6 0 9 ⟨"me".toList, 0, false, none, none⟩ none),
   .cf ⟨1, 0, false, false, true, true, 0, 0, [], List.replicate 8 0, List.replicate 4 0, [1, 2], []⟩]

def exDrawn : Layout := { head := [], dim := none, body := exExtras.map .extra, eof := [] }

theorem exLink_ok : exLink.Ok :=
  ⟨by simp [rectOk, exLink], by simp [exLink], by simp [exLink], ⟨by unfold Bmp; decide, by decide, .inl rfl⟩, by simp [exLink], by simp [exLink]⟩

theorem exBox_ok : exBox.Ok where
  obj := ⟨by decide, by decide, by decide, rfl, by
    intro q hq
    simp only [exBox, List.mem_singleton] at hq
    subst hq; decide, by simp [exBox]⟩
  id := by decide
  flags := by decide
  rotation := by decide
  control := rfl
  font := by decide
  pieces := by
    intro p hp
    simp only [exBox, List.mem_cons, List.not_mem_nil, or_false] at hp
    rcases hp with rfl | rfl <;> refine ⟨by decide, ?_⟩ <;> unfold Fits <;> decide
  runs := by
    intro rs hrs
    simp only [exBox, List.mem_singleton] at hrs
    subst hrs
    refine ⟨by simp, ?_⟩
    intro r hr
    simp only [List.mem_cons, List.not_mem_nil, or_false] at hr
    rcases hr with rfl | rfl | rfl <;> decide
  text := by decide
  runCount := by decide

theorem exDrawn_ok : exDrawn.Ok 80 (exEnv true).dec (exEnv true).sst := by
  refine ⟨?_, by simp [exDrawn], by decide +kernel⟩
  intro i hi
  simp only [exDrawn, exExtras, Layout.items, List.nil_append, List.map_cons, List.map_nil, List.mem_cons, List.not_mem_nil, or_false] at hi
  rcases hi with rfl | rfl | rfl | rfl | rfl
  · exact exLink_ok
  · exact ⟨by decide, exBox_ok⟩
  · refine ⟨by decide, by decide, by decide, by decide, by decide, ⟨by unfold Flags; decide, by unfold Fits; decide, by simp, by simp⟩, by decide⟩
  · refine ⟨by decide, by decide, by decide, by decide, by decide, ⟨by unfold Flags; decide, by unfold Fits; decide, by simp, by simp⟩, by decide⟩
  · exact ⟨by decide, by decide, rfl, rfl, rfl, by decide, by decide⟩

/-- The sheet is read; its link and its note. -/
example : ((sheetRead (exEnv true) (encRecs (exDrawn.records 80)) 0).map fun s => s.ext.links) =
    .ok [{ frowx := 1, lrowx := 2, fcolx := 0, lcolx := 1, type := some "url".toList, urlOrPath := some (.text "http://x".toList),
           desc := some "d".toList, textmark := some "m".toList, quicktip := some "tip".toList }] := by decide +kernel
example : ((sheetRead (exEnv true) (encRecs (exDrawn.records 80)) 0).map fun s => (s.ext.linkMap (2, 1), s.ext.linkMap (3, 1))) = .ok (some 0, none) := by
  decide +kernel
example : ((sheetRead (exEnv true) (encRecs (exDrawn.records 80)) 0).map fun s => (s.ext.notes (4, 5), s.ext.notes (6, 6))) =
    .ok (some ⟨4, 5, "abé€😀".toList, [(0, 5), (2, 6)], "me".toList, 1, 1, 1⟩, none) := by decide +kernel

/-- A note before BIFF8, in two records. -/
example : (NoteRec.plain 7 8 "abcd".toList [97, 98] [(2, [99, 100])]).Ok 50 (fun b => .ok (latin1Decode b)) := by
  refine ⟨by decide, by decide, by decide, by decide, by simp, by decide +kernel⟩

/-! ## What the code cannot read -/

/-- C71: a URL with a character beyond the basic plane: the record is well formed but is refused, and with it the workbook. -/
theorem C71_astral_url_fails : hlinkOf ({ exLink with dest := .url "http://😀".toList [] }).bytes = .error .assertion := by decide +kernel

/-- C71: a relative path stored as a string (bits 0 and 8 set, bit 1 clear) is not read: kind 'unknown' and no path. -/
theorem C71_relative_string_lost (options : Nat) (data : Bytes) (ofs : Int) (h1 : options.testBit 8 = true) (h0 : options.testBit 0 = true)
    (h2 : options.testBit 1 = false) : hlinkPath options data ofs = .ok (some "unknown".toList, none, ofs) := by
  have a1 : options &&& 0x100 ≠ 0 := by
    intro h
    have := congrArg (Nat.testBit · 8) h
    simp [Nat.testBit_and, h1] at this
    exact absurd this (by decide)
  have a2 : options &&& 0x163 ≠ 0x103 := by
    intro h
    have := congrArg (Nat.testBit · 1) h
    simp only [Nat.testBit_and, h2, Bool.false_and] at this
    exact absurd this (by decide)
  have a3 : options &&& 0x16B ≠ 8 := by
    intro h
    have := congrArg (Nat.testBit · 0) h
    simp only [Nat.testBit_and, h0, Bool.true_and] at this
    exact absurd this (by decide)
  unfold hlinkPath
  rw [if_neg (by tauto), if_neg a2, if_neg a3]; rfl

/-- C72: a character beyond the basic plane divided over two CONTINUE records: UnicodeDecodeError. -/
theorem C72_divided_character_fails :
    handleTxo 80 (encRecs [(0x3c, [1] ++ le16 0xD83D), (0x3c, [1] ++ le16 0xDE00)])
      (List.replicate 10 0 ++ le16 2 ++ le16 0 ++ le16 0) 0 = .error .unicode := by decide +kernel

/-- C72: the text of a box with number 0 is thrown away. -/
theorem C72_box_zero_lost (bv : Nat) (mem : Bytes) (e e' : Extras) (data : Bytes) (pos pos' : Int) (he : e.saved = some (some 0))
    (h : recTxo bv mem e data pos = .ok (e', pos')) : e' = e := by
  unfold recTxo at h
  cases ht : handleTxo bv mem data pos with
  | error x => rw [ht] at h; cases h
  | ok r =>
    obtain ⟨t, p⟩ := r
    rw [ht] at h
    cases t with
    | none => simp only [bind, Except.bind, pure, Except.pure, Except.ok.injEq, Prod.mk.injEq] at h; exact h.1.symm
    | some t => simp only [bind, Except.bind, he, ↓reduceIte, pure, Except.pure, Except.ok.injEq, Prod.mk.injEq] at h; exact h.1.symm

/-- C72: a text box before any OBJ record: NameError. -/
theorem C72_box_before_object_fails (bv : Nat) (mem : Bytes) (e : Extras) (data : Bytes) (pos pos' : Int) (t : Txo) (he : e.saved = none)
    (h : handleTxo bv mem data pos = .ok (some t, pos')) : recTxo bv mem e data pos = .error .name := by
  unfold recTxo; rw [h]; simp only [bind, Except.bind, he]

end Xlrd
