import Verif.Lemmas.CompDocInit
import Verif.Lemmas.Directory

/-!
# Properties of compound documents: C20 - C24

A result `none` of a function with `fuel` means that the call had not returned after `fuel` steps.
-/
set_option linter.unusedSimpArgs false
namespace Xlrd
open Spec

/-! ## A small document used in the examples

Sectors of 128 bytes: 0 allocation table, 1, 2, 8 directory, 3 short-stream container, 4 short-stream
table, 5, 7, 6 the stream `Book` of 300 bytes; the short stream `S` has a cyclic chain. -/

def leBytes : Nat → Nat → Bytes
  | 0, _ => []
  | n + 1, x => UInt8.ofNat (x % 256) :: leBytes n (x / 256)

def exEntry (name : List Nat) (etype : Nat) (left right root first size : Nat) : Bytes :=
  let nb := name.flatMap fun c => leBytes 2 c
  nb ++ List.replicate (64 - nb.length) 0 ++ leBytes 2 (nb.length + 2) ++ [UInt8.ofNat etype, 0] ++
    leBytes 4 left ++ leBytes 4 right ++ leBytes 4 root ++ List.replicate 36 0 ++ leBytes 4 first ++ leBytes 4 size ++
    List.replicate 4 0

def exInts (l : List Nat) : Bytes := (l ++ List.replicate (32 - l.length) 0xFFFFFFFF).flatMap fun x => leBytes 4 x

def exDoc (minStd : Nat) : Bytes :=
  let free := 0xFFFFFFFF
  let eoc := 0xFFFFFFFE
  SIGNATURE ++ List.replicate 16 0 ++ leBytes 2 0x3E ++ leBytes 2 3 ++ [0xFE, 0xFF] ++ leBytes 2 7 ++ leBytes 2 6 ++
    List.replicate 10 0 ++ leBytes 4 1 ++ leBytes 4 1 ++ leBytes 4 0 ++ leBytes 4 minStd ++ leBytes 4 4 ++ leBytes 4 1 ++
    leBytes 4 eoc ++ leBytes 4 0 ++ leBytes 4 0 ++ (List.replicate 108 free).flatMap (leBytes 4) ++
    exInts [0xFFFFFFFD, 2, 8, eoc, eoc, 7, eoc, 6, eoc] ++
    exEntry [0x52] 5 free free 1 3 128 ++
    exEntry [0x42, 0x6F, 0x6F, 0x6B] 2 2 free free 5 300 ++
    (List.range 128).map UInt8.ofNat ++
    exInts [0, eoc] ++
    List.replicate 128 1 ++ List.replicate 128 3 ++ List.replicate 128 2 ++
    exEntry [0x53] 2 free free free 0 16

def exCd : CompDoc :=
  match compDocInit 2000 50 (exDoc 200) false with
  | some (.ok c) => c
  | _ => ⟨[], 0, 0, 0, 0, [], [], none, [], [], false⟩

def exNode (k : Nat) : DirNode := exCd.dirlist.getD k ⟨0, 0, 0, 0, 0, 0, 0, [], [], 0⟩

theorem exCd_ok : compDocInit 2000 50 (exDoc 200) false = some (.ok exCd) := by decide +kernel

/-! ## C20 -/

/-- C20: `_get_stream` through the main table.  The chain of the stream exists, its sectors are
unmarked, and all but the last are whole: then the call returns the first `size` bytes of
the sectors in chain order (all of them, if they are fewer). -/
theorem C20_get_stream (seen : List Nat) (mem : Bytes) (base : Nat) (sat : List Int) (sec : Nat) (start : Int)
    (size : Nat) (id : Nat) (hid : id ≠ 0) (hid2 : id ≤ 255) (secs : List Nat) (hc : Chain sat start secs)
    (hfr : ∀ k ∈ secs, seen[k]? = some 0) (hw : ∀ k ∈ secs.dropLast, Whole mem base sec k)
    (fuel : Nat) (hf : secs.length ≤ fuel) :
    ∃ seen', getStream fuel seen (some mem) base sat sec start (some size) (some id) =
        some (.ok ((sectors mem base sec secs).take size, seen')) ∧ Marked seen secs id seen' := by
  obtain ⟨seen', hm, hl⟩ := marked_exists seen secs id (Chain.nodup hc) hfr
  refine ⟨seen', ?_, hm⟩
  rw [getStream_complete seen mem base sat sec start (some (size : Int)) (some id) (by simpa using hid) secs hc seen'
    ⟨hm, hl, fun _ => hid2⟩ fuel hf]
  rw [piecesOf_some mem base sec secs size hw]

/-- C20: a short stream. -/
theorem C20_get_short_stream (seen : List Nat) (mem : Bytes) (base : Nat) (sat : List Int) (sec : Nat) (start : Int)
    (size : Nat) (secs : List Nat) (hc : Chain sat start secs) (hw : ∀ k ∈ secs.dropLast, Whole mem base sec k)
    (fuel : Nat) (hf : secs.length ≤ fuel) :
    getStream fuel seen (some mem) base sat sec start (some size) none =
        some (.ok ((sectors mem base sec secs).take size, seen)) := by
  rw [getStream_complete seen mem base sat sec start (some (size : Int)) none (by simp) secs hc seen rfl fuel hf]
  rw [piecesOf_some mem base sec secs size hw]

/-- C20: without a size (the directory) all bytes of the chain are returned. -/
theorem C20_get_stream_no_size (fuel : Nat) (seen : List Nat) (mem : Bytes) (base : Nat) (sat : List Int) (sec : Nat)
    (start : Int) (id : Nat) (hid : id ≠ 0) (b : Bytes) (seen' : List Nat)
    (h : getStream fuel seen (some mem) base sat sec start none (some id) = some (.ok (b, seen'))) :
    ∃ secs, Chain sat start secs ∧ b = sectors mem base sec secs ∧ Marked seen secs id seen' := by
  obtain ⟨secs, h1, h2, h3, _⟩ := getStream_sound fuel seen (some mem) base sat sec start none (some id)
    (by simpa using hid) b seen' h
  exact ⟨secs, h1, by rw [h2]; exact piecesOf_none mem base sec secs, h3.1⟩

/-- C20: `_locate_stream` answers with the first `size` bytes of the sectors in chain order, whether or
not they are contiguous, whenever it answers; and it does answer when the chain exists, has exactly the
sectors needed, and they are unmarked. -/
theorem C20_locate_stream (seen : List Nat) (ignore : Bool) (mem : Bytes) (base : Nat) (sat : List Int) (sec : Nat)
    (hs : 0 < sec) (start : Int) (size : Int) (id : Nat) (hid : id ≠ 0) :
    (∀ fuel m o l seen', locateStream fuel seen ignore mem base sat sec start size id = some (.ok ((m, o, l), seen')) →
      ∃ secs, Chain sat start secs ∧ 0 < size ∧ size ≤ secs.length * sec ∧ l = size ∧
        slice m o (o + l) = (sectors mem base sec secs).take size.toNat) ∧
    (∀ secs, Chain sat start secs → 0 < size → size ≤ secs.length * sec → (secs.length - 1) * sec < size.toNat →
      (∀ k ∈ secs, seen[k]? = some 0) → id ≤ 255 → ∀ fuel, secs.length ≤ fuel →
      ∃ r, locateStream fuel seen ignore mem base sat sec start size id = some (.ok r)) := by
  constructor
  · intro fuel m o l seen' h
    obtain ⟨secs, h1, _, h3, h4, _, h5, _, h7, _⟩ := locateStream_sound fuel seen ignore mem base sat sec hs start size id hid
      m o l seen' h
    exact ⟨secs, h1, h4, h5, h3, h7⟩
  · intro secs hc h0 h1 h2 hfr hid2 fuel hf
    have hnd := Chain.nodup hc
    obtain ⟨n, rfl⟩ := Int.eq_ofNat_of_zero_le (show 0 ≤ size by omega)
    simp only [Int.ofNat_eq_natCast, Int.toNat_natCast] at *
    have hne : secs ≠ [] := by
      rintro rfl
      simp at h1; omega
    obtain ⟨seen', hm, _⟩ := marked_exists seen secs id hnd hfr
    obtain ⟨m, e⟩ := locateStream_complete seen ignore mem base sat sec hs start n id hid hid2 secs hc hne (by exact_mod_cast h1) h2
      seen' hm fuel hf
    exact ⟨_, e⟩

/-- C20, for the user: when `locate_named_stream` finds a stream in the main table, the bytes it points
to are the first `size` bytes of the stream's sectors. -/
theorem C20_locate_named_stream (fuel : Nat) (lower : PyStr → PyStr) (cd cd' : CompDoc) (q : PyStr) (m : Bytes) (o l : Int)
    (hs : 0 < cd.secSize) (hdid : ∀ d, dirSearch lower cd.dirlist (splitSlash q) 0 = .ok (some d) → cd.minSizeStd ≤ d.totSize)
    (h : locateNamedStream fuel lower cd q = some (.ok ((some m, o, l), cd'))) :
    ∃ d secs, dirSearch lower cd.dirlist (splitSlash q) 0 = .ok (some d) ∧ Chain cd.sat d.firstSid secs ∧
      l = d.totSize ∧ d.totSize ≤ secs.length * cd.secSize ∧
      slice m o (o + l) = (sectors cd.mem 512 cd.secSize secs).take d.totSize.toNat := by
  unfold locateNamedStream at h
  cases hd : dirSearch lower cd.dirlist (splitSlash q) 0 with
  | error e => simp [hd] at h
  | ok od =>
    cases od with
    | none => simp [hd] at h
    | some d =>
      simp only [hd] at h
      split_ifs at h with h1 h2
      · cases h
      · split at h
        · cases h
        · cases h
        · rename_i m' o' l' s' hl
          simp only [Option.some.injEq, Except.ok.injEq, Prod.mk.injEq] at h
          obtain ⟨⟨rfl, rfl, rfl⟩, rfl⟩ := h
          obtain ⟨secs, c1, _, c3, c4, c5⟩ := (C20_locate_stream cd.seen cd.ignore cd.mem 512 cd.sat cd.secSize hs d.firstSid
            d.totSize (d.did + 6) (by omega)).1 fuel m' o' l' s' hl
          exact ⟨d, secs, rfl, c1, c4, c3, c5⟩
      · exact absurd (hdid d hd) (by omega)

/-- The example stream is fragmented: sectors 5, 7, 6. -/
example : (locateNamedStream 2000 id exCd "Book".toList).map (fun r => r.map (·.1)) = some (.ok (some
    (List.replicate 128 1 ++ List.replicate 128 2 ++ List.replicate 128 3), 0, 300)) ∧
    (getNamedStream 2000 id exCd "Book".toList).map (fun r => r.map (·.1)) = some (.ok (some
      (List.replicate 128 1 ++ List.replicate 128 2 ++ List.replicate 44 3))) := by decide +kernel

/-! ## C21 -/

/-- C21: when both ways of fetching a stream from the same document succeed, they give the same
bytes, provided the chain does not go through a truncated last sector of the file except at its end.
Without the proviso the claim fails, see `C21_truncated_file_differs`. -/
theorem C21_both_fetches_agree_partial (fuel fuel' : Nat) (lower : PyStr → PyStr) (cd cd1 cd2 : CompDoc) (q : PyStr)
    (b m : Bytes) (o l : Int) (hs : 0 < cd.secSize)
    (h1 : getNamedStream fuel lower cd q = some (.ok (some b, cd1)))
    (h2 : locateNamedStream fuel' lower cd q = some (.ok ((some m, o, l), cd2)))
    (hshort : ∀ d, dirSearch lower cd.dirlist (splitSlash q) 0 = .ok (some d) → 0 ≤ d.totSize)
    (hw : ∀ d secs, dirSearch lower cd.dirlist (splitSlash q) 0 = .ok (some d) → Chain cd.sat d.firstSid secs →
      ∀ k ∈ secs.dropLast, Whole cd.mem 512 cd.secSize k)
    (hw' : ∀ d secs, dirSearch lower cd.dirlist (splitSlash q) 0 = .ok (some d) → Chain cd.ssat d.firstSid secs →
      ∀ k ∈ secs.dropLast, Whole (cd.sscs.getD []) 0 cd.shortSecSize k) :
    b = slice m o (o + l) := by
  unfold getNamedStream at h1
  unfold locateNamedStream at h2
  cases hd : dirSearch lower cd.dirlist (splitSlash q) 0 with
  | error e => simp [hd] at h1
  | ok od =>
    cases od with
    | none => simp [hd] at h1
    | some d =>
      obtain ⟨n, hn⟩ := Int.eq_ofNat_of_zero_le (hshort d hd)
      simp only [hd] at h1 h2
      by_cases hbig : d.totSize ≥ cd.minSizeStd
      · simp only [hbig, ↓reduceIte] at h1 h2
        split_ifs at h2 with h3
        · cases h2
        · split at h2
          · cases h2
          · cases h2
          · rename_i m' o' l' s' hl
            simp only [Option.some.injEq, Except.ok.injEq, Prod.mk.injEq] at h2
            obtain ⟨⟨rfl, rfl, rfl⟩, _⟩ := h2
            split at h1
            · cases h1
            · cases h1
            · rename_i b' s'' hg
              simp only [Option.some.injEq, Except.ok.injEq, Prod.mk.injEq] at h1
              obtain ⟨rfl, _⟩ := h1
              obtain ⟨secs, c1, _, c3, c4, _, c5, _, c7, _⟩ := locateStream_sound fuel' cd.seen cd.ignore cd.mem 512 cd.sat
                cd.secSize hs d.firstSid d.totSize (d.did + 6) (by omega) m' o' l' s' hl
              obtain ⟨secs', e1, e2, _⟩ := getStream_sound fuel cd.seen (some cd.mem) 512 cd.sat cd.secSize d.firstSid
                (some d.totSize) (some (d.did + 6)) (by simp) b' s'' hg
              have := Chain.det c1 e1
              subst this
              rw [c7, e2, hn]
              simp only [Option.getD_some, Int.toNat_natCast]
              exact piecesOf_some cd.mem 512 cd.secSize secs n (hw d secs hd c1)
      · simp only [hbig, ↓reduceIte] at h1 h2
        split_ifs at h2 with h3
        · cases h2
        · split at h2
          · cases h2
          · cases h2
          · rename_i b2 s2 hl
            simp only [Option.some.injEq, Except.ok.injEq, Prod.mk.injEq] at h2
            obtain ⟨⟨rfl, rfl, rfl⟩, _⟩ := h2
            split at h1
            · cases h1
            · cases h1
            · rename_i b' s'' hg
              simp only [Option.some.injEq, Except.ok.injEq, Prod.mk.injEq] at h1
              obtain ⟨rfl, _⟩ := h1
              obtain ⟨secs, c1, c2, _⟩ := getStream_sound fuel' cd.seen cd.sscs 0 cd.ssat cd.shortSecSize d.firstSid
                (some d.totSize) none (by simp) b2 s2 hl
              obtain ⟨secs', e1, e2, _⟩ := getStream_sound fuel cd.seen cd.sscs 0 cd.ssat cd.shortSecSize d.firstSid
                (some d.totSize) none (by simp) b' s'' hg
              have := Chain.det c1 e1
              subst this
              have hb : b' = b2 := by rw [c2, e2]
              subst hb
              rw [hn] at e2 ⊢
              rw [piecesOf_some _ 0 cd.shortSecSize secs n (hw' d secs hd c1)] at e2
              have e0 : (0 : Int) + (n : Int) = ((n : Nat) : Int) := by simp
              rw [e0, show (0 : Int) = ((0 : Nat) : Int) from rfl, slice_nat]
              simp only [List.drop_zero]
              rw [e2, List.take_take, Nat.min_self]

/-- C21 fails for a truncated file: the last sector (2, with 1 byte of 4) is visited first.  The two
calls return different bytes. -/
theorem C21_truncated_file_differs :
    ∃ (mem : Bytes) (sat : List Int) (s1 s2 : List Nat) (b m : Bytes) (o l : Int),
      getStream 10 [0, 0, 0] (some mem) 0 sat 4 2 (some 6) (some 7) = some (.ok (b, s1)) ∧
      locateStream 10 [0, 0, 0] false mem 0 sat 4 2 6 7 = some (.ok ((m, o, l), s2)) ∧ b ≠ slice m o (o + l) :=
  ⟨[1, 2, 3, 4, 5, 6, 7, 8, 9], [-2, -2, 0], _, _, _, _, _, _, rfl, rfl, by decide⟩

/-! ## C22 -/

/-- C22: opening a compound document returns, for every byte string: the answer is the same for every
amount of fuel above the length of the file. -/
theorem C22_open_terminates_partial (depth : Nat) (mem : Bytes) (ignore : Bool) :
    ∃ r, ∀ fuel, mem.length < fuel → compDocInit fuel depth mem ignore = some r :=
  compDocInit_ends depth mem ignore

/-- C22: following a chain with marks ends within as many steps as there are sectors. -/
theorem C22_marked_chain_terminates_partial (seen : List Nat) (mem : Option Bytes) (base : Int) (sat : List Int) (sec : Nat)
    (s : Int) (size : Option Int) (id : Nat) (hid : id ≠ 0) :
    ∃ r, ∀ fuel, seen.length < fuel → getStream fuel seen mem base sat sec s size (some id) = some r :=
  getStream_ends seen mem base sat sec s size id hid

/-- C22: `_locate_stream` ends within as many steps as the size needs, with or without
ignore_workbook_corruption. -/
theorem C22_locate_terminates_partial (seen : List Nat) (ignore : Bool) (mem : Bytes) (base : Int) (sat : List Int)
    (sec : Nat) (start size : Int) (id : Nat) :
    ∃ r, ∀ fuel, ((size + sec - 1) / sec).toNat < fuel →
      locateStream fuel seen ignore mem base sat sec start size id = some r :=
  locateStream_ends seen ignore mem base sat sec start size id

/-- an unmarked chain on which entry `k` points to itself never ends -/
theorem getLoop_self (fuel : Nat) (seen : List Nat) (mem : Bytes) (base : Int) (sat : List Int) (sec : Nat) (k : Nat)
    (todo : Option Int) (h : sat[k]? = some (k : Int)) :
    getLoop fuel seen mem base sat sec k todo none = none := by
  induction fuel generalizing todo with
  | zero => unfold getLoop; simp
  | succ fuel ih =>
    unfold getLoop
    simp only [ge_iff_le, Int.natCast_nonneg, ↓reduceIte, markOpt, (satNext_ok sat k k).mpr h, ih]

/-- C22 fails for short streams: in the example document, which opens without error, reading the stream
`S` never returns. -/
theorem C22_short_cycle_never_ends :
    compDocInit 2000 50 (exDoc 200) false = some (.ok exCd) ∧
    (∀ fuel, getNamedStream fuel id exCd "S".toList = none) ∧
    (∀ fuel, locateNamedStream fuel id exCd "S".toList = none) := by
  have hd : ∃ d, dirSearch id exCd.dirlist (splitSlash "S".toList) 0 = .ok (some d) ∧ d.totSize = 16 ∧
      exCd.minSizeStd = 200 ∧ d.firstSid = 0 ∧ exCd.memDataLen = 1152 ∧ exCd.ssat[0]? = some 0 := 
    ⟨exNode 2, by decide +kernel⟩
  obtain ⟨d, h1, h2, h3, h4, h5, h6⟩ := hd
  refine ⟨exCd_ok, ?_, ?_⟩
  · intro fuel
    unfold getNamedStream
    simp only [h1, h2, h3]
    unfold getStream
    have := getLoop_self fuel exCd.seen (exCd.sscs.getD []) 0 exCd.ssat exCd.shortSecSize 0 (some 16) h6
    simp only [h4]
    simp only [Int.natCast_zero] at this
    simp [this]
  · intro fuel
    unfold locateNamedStream
    simp only [h1, h2, h3, h5]
    unfold getStream
    have := getLoop_self fuel exCd.seen (exCd.sscs.getD []) 0 exCd.ssat exCd.shortSecSize 0 (some 16) h6
    simp only [h4]
    simp only [Int.natCast_zero] at this
    simp [this]

/-! ## C23 -/

/-- One read through the main table: through `_get_stream` or `_locate_stream`. -/
inductive Read
  | get (start : Int) (size : Option Int) (id : Nat)
  | locate (start : Int) (size : Int) (id : Nat)

def Read.start : Read → Int
  | get s _ _ => s
  | locate s _ _ => s

def Read.id : Read → Nat
  | get _ _ i => i
  | locate _ _ i => i

/-- A sequence of reads, each starting with the marks left by the one before, all successful. -/
inductive Reads (fuel : Nat) (mem : Bytes) (base : Nat) (sat : List Int) (sec : Nat) : List Nat → List Read → List Nat → Prop
  | nil (seen) : Reads fuel mem base sat sec seen [] seen
  | get (seen start size id b seen1 rs seen2) :
      getStream fuel seen (some mem) base sat sec start size (some id) = some (.ok (b, seen1)) →
      Reads fuel mem base sat sec seen1 rs seen2 → Reads fuel mem base sat sec seen (.get start size id :: rs) seen2
  | locate (seen start size id r seen1 rs seen2) :
      locateStream fuel seen false mem base sat sec start size id = some (.ok (r, seen1)) →
      Reads fuel mem base sat sec seen1 rs seen2 → Reads fuel mem base sat sec seen (.locate start size id :: rs) seen2

theorem reads_marked {fuel mem base sat sec} (hs : 0 < sec) {seen rs seen'} (h : Reads fuel mem base sat sec seen rs seen')
    (hid : ∀ r ∈ rs, r.id ≠ 0) :
    ∃ chains : List (List Nat), chains.length = rs.length ∧
      (∀ (i : Nat) r c, rs[i]? = some r → chains[i]? = some c → Chain sat r.start c) ∧
      chains.flatten.Nodup ∧ ∀ k ∈ chains.flatten, seen[k]? = some 0 := by
  induction h with
  | nil seen => exact ⟨[], rfl, by simp, by simp, by simp⟩
  | get seen start size id b seen1 rs seen2 hg _ ih =>
    obtain ⟨cs, h1, h2, h3, h4⟩ := ih (fun r hr => hid r (by simp [hr]))
    have hi : id ≠ 0 := hid (.get start size id) (by simp)
    obtain ⟨secs, c1, _, c3, _⟩ := getStream_sound fuel seen (some mem) base sat sec start size (some id) (by simpa using hi) b seen1 hg
    refine ⟨secs :: cs, by simp [h1], ?_, ?_, ?_⟩
    · intro i r c hr hc
      cases i with
      | zero => simp at hr hc; subst hr; subst hc; exact c1
      | succ i => exact h2 i r c (by simpa using hr) (by simpa using hc)
    · rw [List.flatten_cons, List.nodup_append]
      refine ⟨c3.1.nodup, h3, ?_⟩
      rintro a ha b' hb rfl
      have e := h4 a hb
      rw [c3.1.after, if_pos ha] at e
      injection e with e; exact hi e
    · intro k hk
      rw [List.flatten_cons, List.mem_append] at hk
      rcases hk with hk | hk
      · exact c3.1.fresh k hk
      · have e := h4 k hk
        rw [c3.1.after] at e
        split_ifs at e with hm
        · injection e with e; exact absurd e hi
        · exact e
  | locate seen start size id r0 seen1 rs seen2 hg _ ih =>
    obtain ⟨cs, h1, h2, h3, h4⟩ := ih (fun r hr => hid r (by simp [hr]))
    have hi : id ≠ 0 := hid (.locate start size id) (by simp)
    obtain ⟨m, o, l⟩ := r0
    obtain ⟨secs, c1, _, _, _, _, _, _, _, _, _, c⟩ := locateStream_sound fuel seen false mem base sat sec hs start size id hi m o l seen1 hg
    have c3 := c rfl
    refine ⟨secs :: cs, by simp [h1], ?_, ?_, ?_⟩
    · intro i r c hr hc
      cases i with
      | zero => simp at hr hc; subst hr; subst hc; exact c1
      | succ i => exact h2 i r c (by simpa using hr) (by simpa using hc)
    · rw [List.flatten_cons, List.nodup_append]
      refine ⟨c3.nodup, h3, ?_⟩
      rintro a ha b' hb rfl
      have e := h4 a hb
      rw [c3.after, if_pos ha] at e
      injection e with e; exact hi e
    · intro k hk
      rw [List.flatten_cons, List.mem_append] at hk
      rcases hk with hk | hk
      · exact c3.fresh k hk
      · have e := h4 k hk
        rw [c3.after] at e
        split_ifs at e with hm
        · injection e with e; exact absurd e hi
        · exact e

/-- C23: for every sequence of successful reads through the main table (marks are nonzero, no
ignore-corruption), no sector occurs twice, neither within a chain nor in two of them, and none had
been used before the first read. -/
theorem C23_no_shared_sectors (fuel : Nat) (mem : Bytes) (base : Nat) (sat : List Int) (sec : Nat) (hs : 0 < sec)
    (seen seen' : List Nat) (rs : List Read) (h : Reads fuel mem base sat sec seen rs seen') (hid : ∀ r ∈ rs, r.id ≠ 0) :
    ∃ chains : List (List Nat), chains.length = rs.length ∧
      (∀ (i : Nat) r c, rs[i]? = some r → chains[i]? = some c → Chain sat r.start c ∧ c.Nodup) ∧
      (∀ (i j : Nat) c c', i ≠ j → chains[i]? = some c → chains[j]? = some c' → ∀ k ∈ c, k ∉ c') ∧
      (∀ c ∈ chains, ∀ k ∈ c, seen[k]? = some 0) := by
  obtain ⟨cs, h1, h2, h3, h4⟩ := reads_marked hs h hid
  rw [List.Nodup, List.pairwise_flatten] at h3
  refine ⟨cs, h1, ?_, ?_, ?_⟩
  · intro i r c hr hc
    exact ⟨h2 i r c hr hc, h3.1 c (List.mem_of_getElem? hc)⟩
  · intro i j c c' hij hc hc' k hk hk'
    have hi : i < cs.length := by
      by_contra hx; rw [List.getElem?_eq_none (by omega)] at hc; cases hc
    have hj : j < cs.length := by
      by_contra hx; rw [List.getElem?_eq_none (by omega)] at hc'; cases hc'
    rw [List.getElem?_eq_getElem hi] at hc
    rw [List.getElem?_eq_getElem hj] at hc'
    injection hc with hc; injection hc' with hc'
    subst hc; subst hc'
    have hp := List.pairwise_iff_getElem.mp h3.2
    rcases Nat.lt_or_gt_of_ne hij with hlt | hlt
    · exact hp i j hi hj hlt k hk k hk' rfl
    · exact hp j i hj hi hlt k hk' k hk rfl
  · intro c hc k hk
    exact h4 k (List.mem_flatten.mpr ⟨c, hc, hk⟩)

example : Reads 10 [1, 2, 3, 4, 5, 6, 7, 8] 0 [2, 3, -2, -2] 2 [0, 0, 0, 0] [.get 0 none 3, .locate 1 4 7] [3, 7, 3, 7] :=
  .get _ _ _ _ [1, 2, 5, 6] [3, 0, 3, 0] _ _ rfl (.locate _ _ _ _ _ [3, 7, 3, 7] _ _ rfl (.nil _))

/-! ## C24 -/

/-- C24: for a directory whose entries link up to a tree, `_build_family_tree` returns, and the children
of every storage are the entries of its sibling tree in order. -/
theorem C24_children_partial (depth : Nat) (dl : List DirNode) (t : DTree) (root : DirNode) (h0 : dl[0]? = some root)
    (hd : Describes dl t root.root) (hdep : t.height ≤ depth) (hn : (0 :: t.ids).Nodup) (hfresh : ∀ n ∈ dl, n.children = []) :
    ∃ dl', buildFamilyTree depth dl 0 root.root = .ok dl' ∧ Kids dl' 0 t ∧
      ∀ (j : Nat) n, dl[j]? = some n → ∃ n', dl'[j]? = some n' ∧ n'.name = n.name ∧ n'.etype = n.etype ∧
        n'.firstSid = n.firstSid ∧ n'.totSize = n.totSize ∧ n'.did = n.did := by
  have hlt : 0 < dl.length := by
    by_contra hx; rw [List.getElem?_eq_none (by omega)] at h0; cases h0
  obtain ⟨dl', e, x⟩ := build_ok depth t dl 0 root.root hlt hd hdep
  have hn' := List.nodup_cons.mp hn
  refine ⟨dl', e, build_kids dl dl' 0 t hlt hn'.1 hn'.2 (describes_ids hd) hfresh x, ?_⟩
  intro j n hj
  obtain ⟨n', e', par, rfl⟩ := x.2 j n hj
  exact ⟨_, e', rfl, rfl, rfl, rfl, rfl⟩

/-- C24: the outcome of a lookup in terms of the directory tree.  A path that names a stream finds it; a
missing component gives None; a storage or other entry gives CompDocError; and a path that continues after
a stream finds that stream (contrary to the documentation).  One of the four always holds. -/
theorem C24_lookup_partial (lower : PyStr → PyStr) (dl : List DirNode) (t : DTree) (k : Kids dl 0 t) (path : List PyStr)
    (hp : path ≠ []) :
    (∀ d, Finds lower dl t path d → ∃ n, dl[d]? = some n ∧ n.etype = 2 ∧ dirSearch lower dl path 0 = .ok (some n)) ∧
    (∀ d, Overshoots lower dl t path d → ∃ n, dl[d]? = some n ∧ n.etype = 2 ∧ dirSearch lower dl path 0 = .ok (some n)) ∧
    (Missing lower dl t path → dirSearch lower dl path 0 = .ok none) ∧
    (WrongKind lower dl t path → dirSearch lower dl path 0 = .error .compdoc) ∧
    ((∃ d, Finds lower dl t path d) ∨ (∃ d, Overshoots lower dl t path d) ∨ Missing lower dl t path ∨
      WrongKind lower dl t path) :=
  ⟨fun _ f => finds_ok f k, fun _ f => overshoots_ok f k, fun f => missing_none f k, fun f => wrong_error f k,
    search_total lower dl path hp 0 t k⟩

/-- C24 for names without a slash (the names the library itself looks up): the stream is found exactly
when the first entry of the root storage with that name is a stream. -/
theorem C24_simple_name (lower : PyStr → PyStr) (dl : List DirNode) (t : DTree) (k : Kids dl 0 t) (h : PyStr) (n : DirNode) :
    (dirSearch lower dl [h] 0 = .ok (some n) ↔ ∃ d, First lower dl t h d n ∧ n.etype = 2) ∧
    (dirSearch lower dl [h] 0 = .ok none ↔ ∀ e ∈ t.siblings, ∀ m, dl[e]? = some m → lower m.name ≠ lower h) ∧
    (dirSearch lower dl [h] 0 = .error .compdoc ↔ ∃ d m, First lower dl t h d m ∧ m.etype ≠ 2) := by
  have sl := search_level lower dl 0 t k h []
  simp only [Int.natCast_zero, ↓reduceIte] at sl
  have one : ∀ d m, First lower dl t h d m →
      dirSearch lower dl [h] 0 = if m.etype = 2 then .ok (some m) else .error .compdoc := by
    intro d m hf
    rw [sl.1 d m hf]
    split_ifs <;> rfl
  rcases sl.2.2 with ⟨d, m, hf⟩ | hno
  · have e := one d m hf
    have hyes : ¬ ∀ e ∈ t.siblings, ∀ m, dl[e]? = some m → lower m.name ≠ lower h := by
      intro hx
      obtain ⟨pre, post, e1, e2, e3, _⟩ := hf
      exact hx d (by rw [e1]; simp) m e2 e3
    have uniq : ∀ d' m', First lower dl t h d' m' → m' = m := by
      intro d' m' hf'
      have e' := one d' m' hf'
      obtain ⟨pre, post, a1, a2, a3, a4⟩ := hf
      obtain ⟨pre', post', b1, b2, b3, b4⟩ := hf'
      rw [a1] at b1
      rcases List.append_eq_append_iff.mp b1 with ⟨x, y1, y2⟩ | ⟨x, y1, y2⟩
      · cases x with
        | nil => simp at y2; rw [← y2.1, a2] at b2; injection b2 with b2; exact b2.symm
        | cons z zs =>
          simp at y2
          exact absurd a3 (b4 d (by rw [y1, y2.1]; simp) m a2)
      · cases x with
        | nil => simp at y2; rw [y2.1, a2] at b2; injection b2 with b2; exact b2.symm
        | cons z zs =>
          simp at y2
          exact absurd b3 (a4 d' (by rw [y1, y2.1]; simp) m' b2)
    refine ⟨?_, ?_, ?_⟩
    · rw [e]
      constructor
      · intro h'
        split_ifs at h' with h2
        · injection h' with h'; injection h' with h'; subst h'; exact ⟨d, hf, h2⟩
      · rintro ⟨d', hf', h2⟩
        have := uniq d' n hf'
        subst this
        simp [h2]
    · rw [e]
      constructor
      · intro h'; split_ifs at h' <;> cases h'
      · intro h'; exact absurd h' hyes
    · rw [e]
      constructor
      · intro h'
        split_ifs at h' with h2
        exact ⟨d, m, hf, h2⟩
      · rintro ⟨d', m', hf', h2⟩
        have := uniq d' m' hf'
        subst this
        simp [h2]
  · have e := sl.2.1 hno
    have hnf : ∀ d m, ¬ First lower dl t h d m := by
      rintro d m ⟨pre, post, e1, e2, e3, _⟩
      exact hno d (by rw [e1]; simp) m e2 e3
    refine ⟨?_, ?_, ?_⟩
    · rw [e]; constructor
      · intro h'; cases h'
      · rintro ⟨d, hf, _⟩; exact absurd hf (hnf d n)
    · rw [e]; simp only [true_iff]; exact hno
    · rw [e]; constructor
      · intro h'; cases h'
      · rintro ⟨d, m, hf, _⟩; exact absurd hf (hnf d m)

/-- C24 fails for paths that continue after a stream: `Book/x` finds the stream `Book`. -/
theorem C24_extra_components_ignored :
    ∃ n, dirSearch id exCd.dirlist (splitSlash "Book/x".toList) 0 = .ok (some n) ∧ n.name = "Book".toList ∧
      dirSearch id exCd.dirlist (splitSlash "Book".toList) 0 = .ok (some n) :=
  ⟨exNode 1, by decide +kernel⟩

/-- A directory with a storage: root 0 with entries 2 (stream a) < 1 (storage B) and 3 (stream c) below 1. -/
def exDir : List DirNode :=
  [⟨0, 5, -1, -1, 1, 0, 0, ['R'], [], -1⟩, ⟨1, 1, 2, -1, 3, 0, 0, ['B'], [], -1⟩,
   ⟨2, 2, -1, -1, -1, 0, 0, ['a'], [], -1⟩, ⟨3, 2, -1, -1, -1, 0, 0, ['c'], [], -1⟩]

def exTree : DTree := .node 1 (.node 2 .leaf .leaf .leaf) .leaf (.node 3 .leaf .leaf .leaf)

example : Describes exDir exTree 1 ∧ (0 :: exTree.ids).Nodup ∧ exTree.height ≤ 50 ∧
    (∃ dl', buildFamilyTree 50 exDir 0 1 = .ok dl' ∧ dirSearch id dl' [['B'], ['c']] 0 = .ok (some { exDir[3] with parent := 1 })) := by
  refine ⟨?_, by decide, by decide, ⟨_, rfl, by decide⟩⟩
  refine .storage 1 exDir[1] _ _ _ rfl rfl (.other 2 exDir[2] _ _ rfl (by decide) (.leaf _ (by decide)) (.leaf _ (by decide)))
    (.leaf _ (by decide)) ?_
  exact .other 3 exDir[3] _ _ rfl (by decide) (.leaf _ (by decide)) (.leaf _ (by decide))

end Xlrd
