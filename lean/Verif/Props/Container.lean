import Verif.Lemmas.ContainerOpen
import Verif.Props.Workbook

/-!
# From the bytes of a file to its streams and cells (C68, C67)
-/
set_option linter.unusedSimpArgs false
namespace Xlrd
open Spec

/-! ## C68 -/

/-- `get_named_stream`, or the bytes that `locate_named_stream` points to. -/
def fetch (fuel : Nat) (lower : PyStr → PyStr) (cd : CompDoc) (locate : Bool) (q : PyStr) : Option (R (Option Bytes × CompDoc)) :=
  if locate then
    match locateNamedStream fuel lower cd q with
    | none => none
    | some (.error e) => some (.error e)
    | some (.ok ((none, _, _), cd)) => some (.ok (none, cd))
    | some (.ok ((some m, off, len), cd)) => some (.ok (some (slice m off (off + len)), cd))
  else getNamedStream fuel lower cd q

/-- Fetching several streams one after another. -/
def fetchAll (fuel : Nat) (lower : PyStr → PyStr) : CompDoc → List (Bool × PyStr) → Option (R (List (Option Bytes)))
  | _, [] => some (.ok [])
  | cd, (l, q) :: rest =>
    match fetch fuel lower cd l q with
    | none => none
    | some (.error e) => some (.error e)
    | some (.ok (b, cd)) =>
      match fetchAll fuel lower cd rest with
      | none => none
      | some (.error e) => some (.error e)
      | some (.ok bs) => some (.ok (b :: bs))

theorem fetchAll_ok {mem h p t} (doc : Document mem h p t) (lower : PyStr → PyStr) (fuel : Nat) (hf : mem.length < fuel)
    (calls : List (Bool × PyStr)) (streams : List (List Nat × Bytes))
    (hc : List.Forall₂ (fun c x => Named lower mem h p t c.2 x.1 x.2) calls streams) (used : List Nat)
    (hd : ∀ k ∈ streams.flatMap Prod.fst, k ∉ used) (hn : (streams.flatMap Prod.fst).Nodup) (cd : CompDoc) (o : Opened mem h p t used cd) :
    fetchAll fuel lower cd calls = some (.ok (streams.map fun x => some x.2)) := by
  induction hc generalizing used cd with
  | nil => rfl
  | @cons c x cs xs hcx _ ih =>
    obtain ⟨l, q⟩ := c
    obtain ⟨secs, b⟩ := x
    obtain ⟨d, e, f, he, hd', st⟩ := hcx
    simp only [List.flatMap_cons, List.nodup_append, List.mem_append] at hd hn
    obtain ⟨⟨cd1, g1, g2, _⟩, ⟨m, off, cd2, k1, k2, _, k4, _⟩⟩ := stream_read doc o f he hd' st (fun k hk => hd k (Or.inl hk)) fuel hf
    have key : ∃ cd', fetch fuel lower cd l q = some (.ok (some b, cd')) ∧ Opened mem h p t (used ++ secs) cd' := by
      unfold fetch
      cases l with
      | false => exact ⟨cd1, g1, g2⟩
      | true => rw [if_pos rfl, k1]; simp only; rw [k2]; exact ⟨cd2, rfl, k4⟩
    obtain ⟨cd', e1, o'⟩ := key
    unfold fetchAll
    rw [e1]
    simp only
    rw [ih (used ++ secs) (fun k hk hx => by
      rcases List.mem_append.mp hx with hx | hx
      · exact hd k (Or.inr hk) hx
      · exact hn.2.2 k hx k hk rfl) hn.2.1 cd' o']
    rfl

/-- C68: a well-formed compound document opens, and then its streams, fetched in any order and by either method, are exactly what is stored (each one can be
fetched once: its sectors may not be read again).  Limits: the height of the directory tree is within the recursion limit, and the streams are among the first 250
entries of the directory; see `C68_late_entry`. -/
theorem C68_streams_partial (mem : Bytes) (h : Header) (p : Parts) (t : DTree) (doc : Document mem h p t) (lower : PyStr → PyStr) (ignore : Bool)
    (fuel depth : Nat) (hf : mem.length < fuel) (hd : t.height ≤ depth) (calls : List (Bool × PyStr)) (streams : List (List Nat × Bytes))
    (hc : List.Forall₂ (fun c x => Named lower mem h p t c.2 x.1 x.2) calls streams) (hn : (streams.flatMap Prod.fst).Nodup) :
    ∃ cd, compDocInit fuel depth mem ignore = some (.ok cd) ∧ fetchAll fuel lower cd calls = some (.ok (streams.map fun x => some x.2)) := by
  obtain ⟨cd, e, o, _⟩ := init_enc mem h p t doc ignore fuel depth hf hd
  refine ⟨cd, e, fetchAll_ok doc lower fuel hf calls streams hc p.secs ?_ hn cd o⟩
  intro k hk
  obtain ⟨x, hx, hkx⟩ := List.mem_flatMap.mp hk
  obtain ⟨i, hi, rfl⟩ := List.mem_iff_getElem.mp hx
  obtain ⟨d, e, _, _, _, st⟩ := (List.forall₂_iff_get.mp hc).2 i (by rw [(List.forall₂_iff_get.mp hc).1]; exact hi) hi
  simp only [List.get_eq_getElem] at st
  generalize streams[i].1 = secs at st hkx
  generalize streams[i].2 = b at st
  cases st with
  | long _ _ _ _ hnot => exact hnot k hkx
  | short => cases hkx

/-- C68: a path with a component that is not in the directory gives None. -/
theorem C68_missing (mem : Bytes) (h : Header) (p : Parts) (t : DTree) (doc : Document mem h p t) (lower : PyStr → PyStr) (ignore : Bool)
    (fuel depth : Nat) (hf : mem.length < fuel) (hd : t.height ≤ depth) (q : PyStr) (hm : Missing lower (nodesOf p.entries) t (splitSlash q)) :
    ∃ cd, compDocInit fuel depth mem ignore = some (.ok cd) ∧ getNamedStream fuel lower cd q = some (.ok (none, cd)) ∧
      locateNamedStream fuel lower cd q = some (.ok ((none, 0, 0), cd)) := by
  obtain ⟨cd, e, o, _⟩ := init_enc mem h p t doc ignore fuel depth hf hd
  have := (C24_lookup_partial lower cd.dirlist t o.kids (splitSlash q) (splitSlash_ne q)).2.2.1 (missing_same hm (opened_same doc o))
  refine ⟨cd, e, ?_, ?_⟩
  · unfold getNamedStream; rw [this]
  · unfold locateNamedStream; rw [this]

/-- C68 fails for streams that are not small and stand at entry 250 or later of the directory: both methods raise OverflowError. -/
theorem C68_late_entry (mem : Bytes) (h : Header) (p : Parts) (t : DTree) (doc : Document mem h p t) (lower : PyStr → PyStr) (ignore : Bool)
    (fuel depth : Nat) (hf : mem.length < fuel) (hd : t.height ≤ depth) (q : PyStr) (d : Nat) (e : Entry)
    (hq : Finds lower (nodesOf p.entries) t (splitSlash q) d) (he : p.entries[d]? = some e) (hlate : 250 ≤ d) (secs : List Nat) (b : Bytes)
    (st : StreamAt mem h p e secs b) (hbig : h.minSize ≤ e.size) :
    ∃ cd, compDocInit fuel depth mem ignore = some (.ok cd) ∧ getNamedStream fuel lower cd q = some (.error .overflow) ∧
      locateNamedStream fuel lower cd q = some (.error .overflow) := by
  obtain ⟨hsec4, hsec8⟩ := Header.sec_facts h doc.headerOk
  obtain ⟨cd, e0, o, _⟩ := init_enc mem h p t doc ignore fuel depth hf hd
  obtain ⟨n, e1, n1, n2, n3⟩ := opened_find doc o hq he
  cases st with
  | short _ hs => omega
  | long secs _ hc hne hnot hw hlo hhi =>
    obtain ⟨k, nx, rest, hk1, hk2, hk3, _⟩ := chain_nonneg hc (by
      by_contra hx; exact hne (chain_neg hc (by omega)).2)
    have hwk := hw.begun k (by rw [hk2]; simp)
    have h0 := o.used.fresh (begun_lt (by omega) hwk) (hnot k (by rw [hk2]; simp))
    have hlen := holds_size_le hw (Chain.nodup hc) hhi
    have hfit : ¬ n.totSize > cd.memDataLen := by rw [n2, o.len]; omega
    have hbig' : n.totSize ≥ cd.minSizeStd := by rw [n2, o.minSize]; omega
    have hmark : ∀ chk, mark cd.seen (k : Int) (d + 6) chk = .error .overflow := by
      intro chk
      unfold mark
      rw [(idx_ok_nat _ _ _).mpr h0]
      simp only [bind, Except.bind, ne_eq, not_true_eq_false, false_and, if_false]
      rw [if_pos (by omega)]
    obtain ⟨f, rfl⟩ : ∃ f, fuel = f + 1 := ⟨fuel - 1, by omega⟩
    refine ⟨cd, e0, ?_, ?_⟩
    · have hg : ∀ sz, getStream (f + 1) cd.seen (some cd.mem) 512 cd.sat cd.secSize n.firstSid sz (some (n.did + 6)) = some (.error .overflow) := by
        intro sz
        rw [n1, n3, hk1]
        unfold getStream getLoop
        rw [if_pos (by omega)]
        simp only [markOpt, hmark true]
      unfold getNamedStream
      rw [e1]
      simp only
      rw [if_pos hbig', hg]
    · have hg : locateStream (f + 1) cd.seen cd.ignore cd.mem 512 cd.sat cd.secSize n.firstSid n.totSize (n.did + 6) = some (.error .overflow) := by
        rw [n1, n3, hk1]
        unfold locateStream
        rw [if_neg (by omega)]
        unfold locLoop
        simp only [ge_iff_le, Int.natCast_nonneg, if_true, hmark]
      unfold locateNamedStream
      rw [e1]
      simp only
      rw [if_neg hfit, if_pos hbig', hg]

/-! ## C67 for files -/

theorem slice_prefix {m b : Bytes} {off len : Int} (h : slice m off (off + len) = b) (h0 : 0 ≤ off) (hl : 0 ≤ len) :
    ∃ rest, m.drop off.toNat = b ++ rest := by
  obtain ⟨o, rfl⟩ := Int.eq_ofNat_of_zero_le h0
  obtain ⟨l, rfl⟩ := Int.eq_ofNat_of_zero_le hl
  simp only [Int.ofNat_eq_natCast, Int.toNat_natCast] at h ⊢
  rw [← Int.natCast_add, slice_nat, List.drop_take, show o + l - o = l by omega] at h
  exact ⟨(m.drop o).drop l, by rw [← h, List.take_append_drop]⟩

/-- A file with a workbook stream is loaded as bytes in which that stream starts at some place. -/
theorem loadStream_ok (env : OpenEnv) (file b : Bytes) (hw : WorkbookFile env.lower env.depth file b) (hf : file.length < env.fuel) :
    ∃ (m : Bytes) (off : Nat) (rest : Bytes), loadStream env file = some (.ok (m, off)) ∧ m.drop off = b ++ rest := by
  have sig : ∀ (mem : Bytes) h p t, Document mem h p t → mem ≠ [] ∧ sliceTo mem 8 = SIGNATURE := by
    intro mem h p t doc
    have e1 : mem.take 512 = h.enc := doc.header
    have e2 : mem.take 8 = SIGNATURE := by
      have : mem.take 8 = (mem.take 512).take 8 := by rw [List.take_take]; rfl
      rw [this, e1]; rfl
    refine ⟨?_, ?_⟩
    · rintro rfl; cases e2
    · rw [sliceTo, clampIdx, if_neg (by omega)]
      have : mem.take (min (8 : Int).toNat mem.length) = mem.take 8 := by
        rw [← List.take_take]; simp
      rw [this, e2]
  have fin : ∀ (m : Bytes) (off len : Int), slice m off (off + len) = b → 0 ≤ off → 0 ≤ len → b ≠ [] →
      ∃ (x : UInt8) (xs : Bytes) (o : Nat) (rest : Bytes), m = x :: xs ∧ off = (o : Int) ∧ m.drop o = b ++ rest := by
    intro m off len h h0 hl hb
    obtain ⟨rest, hr⟩ := slice_prefix h h0 hl
    cases m with
    | nil => simp at hr; exact absurd hr.1 hb
    | cons x xs => exact ⟨x, xs, off.toNat, rest, rfl, by omega, hr⟩
  cases hw with
  | plain hb hs =>
    refine ⟨file, 0, [], ?_, by simp⟩
    unfold loadStream
    rw [if_neg hb, if_pos]
    · rfl
    · rw [sliceTo, clampIdx, if_neg (by omega)]
      have : file.take (min (8 : Int).toNat file.length) = file.take 8 := by
        rw [← List.take_take]; simp
      rw [this]; exact hs
  | workbook h p t secs _ doc hd hn hb =>
    obtain ⟨s1, s2⟩ := sig file h p t doc
    obtain ⟨cd, e, o, _⟩ := init_enc file h p t doc env.ignore env.fuel env.depth hf hd
    obtain ⟨d, en, f, he, hd', st⟩ := hn
    have hdis : ∀ k ∈ secs, k ∉ p.secs := by
      cases st with
      | long _ _ _ _ hnot => exact hnot
      | short => simp
    obtain ⟨_, m, off, cd2, k1, k2, k3, _⟩ := stream_read doc o f he hd' st hdis env.fuel hf
    obtain ⟨x, xs, o', rest, rfl, rfl, hr⟩ := fin m off _ k2 k3 (by omega) hb
    refine ⟨x :: xs, o', rest, ?_, hr⟩
    unfold loadStream
    rw [if_neg s1, if_neg (by rw [s2]; simp), e]
    simp only [findStream]
    rw [k1]
  | book h p t secs _ doc hd hm hn hb =>
    obtain ⟨s1, s2⟩ := sig file h p t doc
    obtain ⟨cd, e, o, _⟩ := init_enc file h p t doc env.ignore env.fuel env.depth hf hd
    obtain ⟨d, en, f, he, hd', st⟩ := hn
    have hdis : ∀ k ∈ secs, k ∉ p.secs := by
      cases st with
      | long _ _ _ _ hnot => exact hnot
      | short => simp
    obtain ⟨_, m, off, cd2, k1, k2, k3, _⟩ := stream_read doc o f he hd' st hdis env.fuel hf
    obtain ⟨x, xs, o', rest, rfl, rfl, hr⟩ := fin m off _ k2 k3 (by omega) hb
    refine ⟨x :: xs, o', rest, ?_, hr⟩
    have e0 : locateNamedStream env.fuel env.lower cd "Workbook".toList = some (.ok ((none, 0, 0), cd)) := by
      have hq : splitSlash "Workbook".toList = ["Workbook".toList] := by decide
      have := (C24_lookup_partial env.lower cd.dirlist t o.kids (splitSlash "Workbook".toList) (splitSlash_ne _)).2.2.1
        (missing_same (by rw [hq]; exact hm) (opened_same doc o))
      unfold locateNamedStream; rw [this]
    unfold loadStream
    rw [if_neg s1, if_neg (by rw [s2]; simp), e]
    simp only [findStream]
    rw [e0]
    simp only
    rw [k1]

theorem workbookStream_shift {v dec b items sheets} (hw : WorkbookStream v dec b 0 items sheets) {m : Bytes} {off : Nat} {rest : Bytes}
    (hm : m.drop off = b ++ rest) (hb : b ≠ []) : WorkbookStream v dec m off items sheets := by
  obtain ⟨pre, op, bof, eof, post, hp, hbof, heof, hmem⟩ := hw.bytes
  have : pre = [] := List.eq_nil_iff_length_eq_zero.mpr hp
  subst this
  have hlen : (m.take off).length = off := by
    rw [List.length_take]
    have : 0 < (m.drop off).length := by
      rw [hm]; cases b with
      | nil => exact absurd rfl hb
      | cons x xs => simp
    rw [List.length_drop] at this; omega
  refine ⟨⟨m.take off, op, bof, eof, post ++ rest, hlen, hbof, heof, ?_⟩, hw.ok, hw.sheets⟩
  conv_lhs => rw [← List.take_append_drop off m, hm, hmem]
  simp

theorem sheetAt_shift {v b pos L} (hs : SheetAt v b pos L) {m : Bytes} {off : Nat} {rest : Bytes} (hm : m.drop off = b ++ rest) :
    SheetAt v m (off + pos) L := by
  obtain ⟨w, op, bof, r, hb, hd⟩ := hs
  refine ⟨w, op, bof, r ++ rest, hb, ?_⟩
  have hle : pos ≤ b.length := by
    by_contra hx
    rw [List.drop_eq_nil_of_le (by omega)] at hd
    have := congrArg List.length hd
    simp [encRec] at this
    omega
  rw [← List.drop_drop, hm, List.drop_append_of_le_length hle, hd]
  simp

/-- C67: the cells of a sheet in a file: as `C67_cell`, for the bytes of a whole file whose workbook stream is `b`. -/
theorem C67_file_cell (env : OpenEnv) (hrag : env.ragged = false) (v : Nat)
    (file b : Bytes) (hfile : WorkbookFile env.lower env.depth file b) (hfuel : file.length < env.fuel) (items : List GItem) (sheets : List SheetRec) (h50 : 50 ≤ v)
    (hw : WorkbookStream v (textAt (env.bookEnv v 0)) b 0 items sheets)
    (fmts : List (Nat × PyStr)) (hf : Formats v (textAt (env.bookEnv v 0)) items fmts) (xfs : List XF)
    (hx : Xfs v (textAt (env.bookEnv v 0)) items xfs) (l : Lib)
    (h : openXls env file = some (.ok l)) (k : Nat) (s : SheetRec) (hk : worksheet sheets k = some s) (L : Layout)
    (hL : SheetAt v b s.offset L) (hok : L.Ok v (libDec env l.book) (l.book.sst.map Prod.fst)) (cs : List Call) (sh : LSheet)
    (hr : (sheetByIndex env (libCalls env l cs).2 (k : Int)).1 = .ok sh) :
    l.book.sheetNames = (sheets.filter SheetRec.isWorksheet).map SheetRec.name ∧ sh.name = s.name ∧ sh.visibility = s.visibility ∧
    ∃ tm, TypesOf fmts xfs tm ∧
      let cells := cellsOf fl env.fi (l.book.sst.map Prod.fst) L.items
      sh.st.store.nrows = height cells (mergedRanges env.fi L.items) ∧ sh.st.store.ncols = width cells (mergedRanges env.fi L.items) ∧
      ∀ r c : Nat, (r < sh.st.store.nrows ∧ c < sh.st.store.ncols →
          sh.st.store.cellType r c = .ok (cellAt tm cells r c).ty ∧ sh.st.store.cellValue r c = .ok (cellAt tm cells r c).v ∧
          (env.fi = true → sh.st.store.cellXf r c = .ok (cellAt tm cells r c).xf)) ∧
        (¬ (r < sh.st.store.nrows ∧ c < sh.st.store.ncols) → sh.st.store.cellType r c = .error .index ∧ sh.st.store.cellValue r c = .error .index) := by
  obtain ⟨m, off, rest, e1, e2⟩ := loadStream_ok env file b hfile hfuel
  have hb : b ≠ [] := by cases hfile <;> assumption
  unfold openXls at h
  rw [e1] at h
  simp only [Option.some.injEq] at h
  have ht : textAt (env.bookEnv v (off : Int)) = textAt (env.bookEnv v 0) := rfl
  have hw' := workbookStream_shift hw e2 hb
  rw [← ht] at hw' hf hx
  have hL' := sheetAt_shift hL e2
  have q := C67_sheet env v m off items sheets h50 hw' l h k s hk L hL' hok cs sh hr
  exact ⟨C67_sheet_names env v m off items sheets h50 hw' l h, q.1, q.2.1,
    C67_cell env hrag v m off items sheets h50 hw' fmts hf xfs hx l h k s hk L hL' hok cs sh hr⟩

end Xlrd
