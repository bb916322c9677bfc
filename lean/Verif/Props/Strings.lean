import Verif.Lemmas.StringRec

/-!
# Records and strings: C25–C29, C32
-/
set_option linter.unusedSimpArgs false
namespace Xlrd
open Spec

/-! ## C25 Record framing -/

/-- `n` reads in a row, as every loop over records does: the results and the final position. -/
def readRecords (mem : Bytes) : Nat → Int → R (List (Nat × Nat × Bytes) × Int)
  | 0, pos => .ok ([], pos)
  | n + 1, pos => do
    let (x, pos) ← getRecordParts mem pos
    let (xs, pos) ← readRecords mem n pos
    pure (x :: xs, pos)

theorem readRecords_at (rs : List (Nat × Bytes)) (hr : ∀ r ∈ rs, r.1 < 65536 ∧ r.2.length < 65536) (mem post : Bytes) :
    ∀ p : Nat, mem.drop p = encRecs rs ++ post →
      readRecords mem rs.length (p : Int) =
        .ok (rs.map fun r => (r.1, r.2.length, r.2), ((p + (encRecs rs).length : Nat) : Int)) := by
  induction rs with
  | nil => intro p _; simp [readRecords, encRecs]
  | cons r rs ih =>
    intro p h
    have e : encRecs (r :: rs) = encRec r.1 r.2 ++ encRecs rs := by simp [encRecs]
    rw [e, List.append_assoc] at h
    obtain ⟨h1, h2⟩ := hr r (by simp)
    have hd := drop_at h (encRec_length r.1 r.2)
    have := ih (fun x hx => hr x (by simp [hx])) (p + (4 + r.2.length)) hd
    rw [List.length_cons, readRecords, getRecordParts_at h1 h2 h]
    simp only [bind, Except.bind, pure, Except.pure]
    rw [show p + 4 + r.2.length = p + (4 + r.2.length) by omega, this, e, List.length_append, encRec_length]
    simp only [List.map_cons, Except.ok.injEq, Prod.mk.injEq, true_and]
    omega

/-- C25: records written one after another, anywhere in a stream, are read back in order, and the position
ends just after the last one. -/
theorem C25_records_read_back (pre post : Bytes) (rs : List (Nat × Bytes)) (hr : ∀ r ∈ rs, r.1 < 65536 ∧ r.2.length < 65536) :
    readRecords (pre ++ encRecs rs ++ post) rs.length (pre.length : Int) =
      .ok (rs.map fun r => (r.1, r.2.length, r.2), ((pre ++ encRecs rs).length : Int)) := by
  rw [readRecords_at rs hr (pre ++ encRecs rs ++ post) post pre.length (by simp)]
  simp

/-- C25: a successful read anywhere in any stream, well formed or not, consumes at least the four bytes of a
header that lies inside the stream, and moves by exactly four bytes plus the length it reports. -/
theorem C25_read_makes_progress (mem : Bytes) (pos : Int) (hp : 0 ≤ pos) (c l : Nat) (d : Bytes) (pos' : Int)
    (h : getRecordParts mem pos = .ok ((c, l, d), pos')) :
    pos + 4 ≤ mem.length ∧ pos' = pos + 4 + l ∧ d.length ≤ l := by
  unfold getRecordParts unpackN at h
  obtain ⟨p, rfl⟩ := Int.eq_ofNat_of_zero_le hp
  by_cases hx : (slice mem (p : Int) ((p : Int) + 4)).length = 4
  · rw [if_pos hx] at h
    simp only [bind, Except.bind, pure, Except.pure, Except.ok.injEq, Prod.mk.injEq] at h
    obtain ⟨⟨h1, h2, h3⟩, h4⟩ := h
    refine ⟨?_, ?_, ?_⟩
    · rw [show (p : Int) + 4 = ((p + 4 : Nat) : Int) by push_cast; rfl, slice_nat, List.length_drop, List.length_take] at hx
      omega
    · omega
    · rw [← h3, ← h2, show (p : Int) + 4 = ((p + 4 : Nat) : Int) by push_cast; rfl, ← Int.natCast_add, slice_nat,
        List.length_drop, List.length_take]
      omega
  · rw [if_neg hx] at h
    simp [bind, Except.bind] at h

/-- C25: `n` successive reads need `4 * n` bytes of stream; so no loop over records goes on for ever. -/
theorem C25_reads_are_bounded (mem : Bytes) (n : Nat) (pos : Int) (hp : 0 ≤ pos) (xs : List (Nat × Nat × Bytes)) (pos' : Int)
    (h : readRecords mem n pos = .ok (xs, pos')) : pos + 4 * n ≤ max pos mem.length ∧ pos + 4 * n ≤ pos' := by
  induction n generalizing pos xs with
  | zero =>
    simp only [readRecords, Except.ok.injEq, Prod.mk.injEq] at h
    obtain ⟨_, rfl⟩ := h
    constructor <;> omega
  | succ n ih =>
    rw [readRecords] at h
    cases h1 : getRecordParts mem pos with
    | error e => rw [h1] at h; simp [bind, Except.bind] at h
    | ok r =>
      obtain ⟨⟨c, l, d⟩, q⟩ := r
      rw [h1] at h
      simp only [bind, Except.bind] at h
      obtain ⟨p1, p2, _⟩ := C25_read_makes_progress mem pos hp c l d q h1
      cases h2 : readRecords mem n q with
      | error e => rw [h2] at h; simp at h
      | ok r =>
        obtain ⟨ys, q'⟩ := r
        rw [h2] at h
        simp only [pure, Except.pure, Except.ok.injEq, Prod.mk.injEq] at h
        obtain ⟨_, rfl⟩ := h
        obtain ⟨i1, i2⟩ := ih q (by omega) ys h2
        constructor <;> omega

/-- C25: the conditional read takes the record when its code is the wanted one, and leaves the position
alone otherwise. -/
theorem C25_conditional_read (pre post b : Bytes) (c wanted : Nat) (hc : c < 65536) (hb : b.length < 65536) :
    getRecordPartsConditional (pre ++ encRec c b ++ post) (pre.length : Int) wanted =
      if c = wanted then .ok (some (c, b.length, b), ((pre ++ encRec c b).length : Int))
      else .ok (none, (pre.length : Int)) := by
  rw [conditional_at hc hb (r := post) (by simp)]
  congr 4
  rw [List.length_append, encRec_length]; omega

example : readRecords ([7] ++ encRecs [(0x809, [1, 2]), (0x3c, []), (0xa, [3])] ++ [9, 9]) 3 1 =
    .ok ([(0x809, 2, [1, 2]), (0x3c, 0, []), (0xa, 1, [3])], 16) := by decide +kernel
example : ∀ r ∈ [(0x809, [1, 2]), (0x3c, ([] : Bytes)), (0xa, [3])], r.1 < 65536 ∧ r.2.length < 65536 := by decide

/-! ## C26 Shared strings -/

/-- C26 (partial): the table decoded from the records is the list of strings, with their rich-text runs, for
every list of strings and every legal splitting into records, provided that no surrogate pair is cut in
two and that phonetic data crosses at most one boundary (`SStr.Handled`).

Missing: the splittings outside `SStr.Handled`, for which the claim is false (witnesses below). -/
theorem C26_shared_strings_partial (hdr : Bytes) (hh : hdr.length = 8) (ss : List SStr)
    (hs : ∀ s ∈ ss, s.Legal ∧ s.Handled) :
    unpackSstTable (sstRecords hdr ss) ss.length = .ok (ss.map SStr.value) := by
  have hk := segs_le_records hdr ss
  have e : sstRecords hdr ss = (hdr ++ (recordsOf (ss.flatMap SStr.items)).1) :: (recordsOf (ss.flatMap SStr.items)).2 := rfl
  unfold unpackSstTable
  have hi : idx (sstRecords hdr ss) 0 = .ok (hdr ++ (recordsOf (ss.flatMap SStr.items)).1) := by rw [e]; rfl
  rw [hi]
  simp only [bind, Except.bind, Int.toNat_natCast]
  refine sstLoop_ok (sstRecords hdr ss) ss (fun s h => ⟨(hs s h).1, (hs s h).2, hk s h⟩) _ ⟨⟨8, rfl, ?_, ?_⟩, ?_⟩
  · simp [hh]
  · rw [← hh, List.drop_left]
  · simp [e]

/-- C26 (partial): the same through `handle_sst`: the SST record has just been read, its CONTINUE records and
then some other record follow in the file; the position ends at that record. -/
theorem C26_sst_record_partial (ss : List SStr) (hs : ∀ s ∈ ss, s.Legal ∧ s.Handled) (total : Nat) (hn : ss.length < 2 ^ 31)
    (pre data : Bytes) (more : List Bytes) (c : Nat) (b rest : Bytes) (hc : c < 65536) (hc2 : c ≠ 0x3c) (hb : b.length < 65536)
    (he : sstRecords (le32 total ++ le32 ss.length) ss = data :: more) (hm : ∀ d ∈ more, d.length < 65536) :
    handleSst (pre ++ encRecs (more.map fun d => (0x3c, d)) ++ encRec c b ++ rest) (pre.length : Int) data =
      .ok (ss.map SStr.value, ((pre ++ encRecs (more.map fun d => (0x3c, d))).length : Int)) := by
  have hd : data = le32 total ++ (le32 ss.length ++ (recordsOf (ss.flatMap SStr.items)).1) := by
    have : sstRecords (le32 total ++ le32 ss.length) ss = ((le32 total ++ le32 ss.length) ++ (recordsOf (ss.flatMap SStr.items)).1) :: (recordsOf (ss.flatMap SStr.items)).2 := rfl
    rw [this] at he
    simp only [List.cons.injEq] at he
    rw [← he.1, List.append_assoc]
  have hu : unpacki (slice data 4 8) = .ok (ss.length : Int) := by
    have := unpacki_at (data := data) (p := 4) (r := (recordsOf (ss.flatMap SStr.items)).1) hn
      (by rw [hd, show 4 = (le32 total).length from rfl, List.drop_left])
    simpa using this
  have hcont := sstContinues_ok (pre ++ encRecs (more.map fun d => (0x3c, d)) ++ encRec c b ++ rest) more hm c b hc hc2 hb
    ((pre ++ encRecs (more.map fun d => (0x3c, d)) ++ encRec c b ++ rest).length + 1) pre.length rest
    (by
      have : more.length ≤ (encRecs (more.map fun d => (0x3c, d))).length := by
        clear he hm
        induction more with
        | nil => simp
        | cons m more ih =>
          simp only [encRecs, List.map_cons, List.flatMap_cons, List.length_append, encRec_length, List.length_cons] at ih ⊢
          omega
      simp only [List.length_append]; omega)
    (by simp [continues, XL_CONTINUE])
  unfold handleSst
  rw [hu, hcont]
  simp only [bind, Except.bind]
  rw [← he, C26_shared_strings_partial _ (by simp) ss hs]
  simp [pure, Except.pure, continues, XL_CONTINUE]

/-- A compressed string of two characters with one run, split after the first character where the width
changes, and then a string with phonetic data that goes into a third record. -/
def exSst : List SStr :=
  [⟨"aé".toList, ⟨0x08, false, [97]⟩, [⟨1, true, [233]⟩], true, [(0, 5)], [], false, [], [], false⟩,
   ⟨"😀".toList, ⟨0x05, true, [0xD83D, 0xDE00]⟩, [], false, [], [], true, [1, 2], [[3]], false⟩,
   ⟨[], ⟨0, false, []⟩, [], false, [], [], false, [], [], false⟩]

/-- Decidable form of `Legal` for the examples. -/
example : ∀ s ∈ exSst, s.Legal ∧ s.Handled := by
  intro s hs
  simp only [exSst, List.mem_cons, List.not_mem_nil, or_false] at hs
  rcases hs with rfl | rfl | rfl
  · exact ⟨⟨by decide, by decide, by unfold Flags; decide, by unfold Fits; decide, by unfold Fits; decide, by decide, by decide, by decide,
      by decide, by decide, by decide, by decide⟩, ⟨["a".toList, "é".toList], by decide⟩, .inl rfl⟩
  · exact ⟨⟨by decide, by decide, by unfold Flags; decide, by unfold Fits; decide, by unfold Fits; decide, by decide, by decide, by decide,
      by decide, by decide, by decide, by decide⟩, ⟨["😀".toList], by decide⟩, .inr (by decide)⟩
  · exact ⟨⟨by decide, by decide, by unfold Flags; decide, by unfold Fits; decide, by unfold Fits; decide, by decide, by decide, by decide,
      by decide, by decide, by decide, by decide⟩, ⟨[[]], by decide⟩, .inl rfl⟩
example : (sstRecords [0, 0, 0, 0, 3, 0, 0, 0] exSst).length = 3 := by decide +kernel
example : unpackSstTable (sstRecords [0, 0, 0, 0, 3, 0, 0, 0] exSst) 3 =
    .ok [("aé".toList, some [(0, 5)]), ("😀".toList, none), ([], none)] := by decide +kernel

/-- A legal layout whose surrogate pair is cut by a record boundary. -/
def splitPair : SStr := ⟨"😀".toList, ⟨1, true, [0xD83D]⟩, [⟨1, true, [0xDE00]⟩], false, [], [], false, [], [], false⟩

/-- A legal layout whose phonetic data covers a whole record. -/
def longPhon : SStr := ⟨"a".toList, ⟨4, false, [97]⟩, [], false, [], [], true, [1], [[2], [3]], false⟩

/-- C26 fails for a surrogate pair cut in two by a record boundary: the load ends with a decoding error. -/
theorem C26_split_surrogate_pair_fails : splitPair.Legal ∧
    unpackSstTable (sstRecords [1, 0, 0, 0, 1, 0, 0, 0] [splitPair]) 1 = .error .unicode := by
  refine ⟨⟨by decide, by decide, by unfold Flags; decide, by unfold Fits; decide, by unfold Fits; decide, by decide, by decide, by decide,
      by decide, by decide, by decide, by decide⟩, by decide +kernel⟩

/-- C26 fails when phonetic data crosses two boundaries: the string after it is lost. -/
theorem C26_long_phonetic_data_fails : longPhon.Legal ∧
    unpackSstTable (sstRecords [2, 0, 0, 0, 2, 0, 0, 0] [longPhon, ⟨"b".toList, ⟨0, false, [98]⟩, [], false, [], [], false, [], [], false⟩]) 2
      ≠ .ok [("a".toList, none), ("b".toList, none)] := by
  refine ⟨⟨by decide, by decide, by unfold Flags; decide, by unfold Fits; decide, by unfold Fits; decide, by decide, by decide, by decide,
      by decide, by decide, by decide, by decide⟩, by decide +kernel⟩

/-! ## C27 Unicode strings -/

/-- C27: `unpack_unicode` returns the text, whatever stands before and after the string. -/
theorem C27_unpack_unicode (pre post : Bytes) (u : UStr) (hu : u.Ok) (l : Nat) (hl : l = 1 ∨ l = 2)
    (hn : (utf16 u.text).length < 256 ^ l) :
    unpackUnicode (pre ++ encLen l (utf16 u.text).length ++ u.body ++ post) (pre.length : Int) l = .ok u.text :=
  unpackUnicode_at u hu hl hn (r := post) (by simp)

/-- C27: `unpack_unicode_update_pos` returns the text and the position just after the whole string, with its
runs and phonetic data. -/
theorem C27_unpack_unicode_update_pos (pre post : Bytes) (u : UStr) (hu : u.Ok) (l : Nat) (hl : l = 1 ∨ l = 2)
    (hn : (utf16 u.text).length < 256 ^ l) :
    unpackUnicodeUpdatePos (pre ++ encLen l (utf16 u.text).length ++ u.body ++ post) (pre.length : Int) l none =
      .ok (u.text, ((pre ++ encLen l (utf16 u.text).length ++ u.body).length : Int)) := by
  rw [unicodeLen_at u hu hl hn (r := post) (by simp)]
  simp only [List.length_append, encLen_length l _ hl]

/-- C27: the same when the caller knows the length already. -/
theorem C27_unpack_unicode_known_length (pre post : Bytes) (u : UStr) (hu : u.Ok) (l : Nat) :
    unpackUnicodeUpdatePos (pre ++ u.body ++ post) (pre.length : Int) l (some ((utf16 u.text).length : Nat)) =
      .ok (u.text, ((pre ++ u.body).length : Int)) := by
  rw [unicodeBody_at u hu l (r := post) (by simp)]
  simp only [List.length_append]

/-- C27: an empty string at the very end may lack its options byte. -/
theorem C27_empty_at_end (pre : Bytes) (l : Nat) (hl : l = 1 ∨ l = 2) :
    unpackUnicodeUpdatePos (pre ++ encLen l 0) (pre.length : Int) l none = .ok ([], ((pre ++ encLen l 0).length : Int)) ∧
    unpackUnicode (pre ++ encLen l 0) (pre.length : Int) l = .ok [] := by
  have h : (pre ++ encLen l 0).drop pre.length = encLen l 0 ++ [] := by simp
  have hn : 0 < 256 ^ l := Nat.pow_pos (by decide)
  have h1 := unpackLen_at hl hn h
  constructor
  · unfold unpackUnicodeUpdatePos
    rw [h1]
    simp only [bind, Except.bind, pure, Except.pure]
    have : sliceFrom (pre ++ encLen l 0) ((pre.length : Int) + (l : Int)) = [] := by
      rw [← Int.natCast_add, sliceFrom_nat _ _ (by simp [encLen_length l 0 hl])]
      simp [encLen_length l 0 hl]
    rw [this]
    simp [encLen_length l 0 hl]
  · unfold unpackUnicode
    rw [h1]
    simp [bind, Except.bind, pure, Except.pure]

/-- A string with runs and phonetic data and a character outside the basic plane. -/
def exUStr : UStr := ⟨"z😀".toList, 0x0D, true, some [(1, 6)], some [9, 9, 9]⟩
example : exUStr.Ok := by
  refine ⟨by unfold Flags; decide, by unfold Fits; decide, ?_, ?_⟩
  · intro rs h; simp only [exUStr, Option.some.injEq] at h; subst h; decide
  · intro rs h; simp only [exUStr, Option.some.injEq] at h; subst h; decide
example : (utf16 exUStr.text).length = 3 ∧ exUStr.body.length = 20 := by decide
example : unpackUnicodeUpdatePos ([5] ++ encLen 2 3 ++ exUStr.body ++ [7]) 1 2 none = .ok ("z😀".toList, 23) := by decide +kernel

/-! ## C28 Byte strings -/

/-- C28: `unpack_string` decodes exactly the bytes of the string. -/
theorem C28_unpack_string (dec : Bytes → R PyStr) (pre post b : Bytes) (l : Nat) (hl : l = 1 ∨ l = 2) (hn : b.length < 256 ^ l) :
    unpackString dec (pre ++ encLen l b.length ++ b ++ post) (pre.length : Int) l = dec b :=
  unpackString_at dec hl hn (r := post) (by simp)

/-- C28: `unpack_string_update_pos` also returns the position just after the string; a decoding error is
passed on. -/
theorem C28_unpack_string_update_pos (dec : Bytes → R PyStr) (pre post b : Bytes) (l : Nat) (hl : l = 1 ∨ l = 2)
    (hn : b.length < 256 ^ l) :
    unpackStringUpdatePos dec (pre ++ encLen l b.length ++ b ++ post) (pre.length : Int) l none =
      (dec b).map fun s => (s, ((pre ++ encLen l b.length ++ b).length : Int)) := by
  rw [unpackStringLen_at dec hl hn (r := post) (by simp)]
  simp only [List.length_append, encLen_length l _ hl]

/-- C28: the same when the caller knows the length already. -/
theorem C28_unpack_string_known_length (dec : Bytes → R PyStr) (pre post b : Bytes) (l : Nat) :
    unpackStringUpdatePos dec (pre ++ b ++ post) (pre.length : Int) l (some (b.length : Nat)) =
      (dec b).map fun s => (s, ((pre ++ b).length : Int)) := by
  rw [unpackStringPos_at dec (r := post) (by simp)]
  simp only [List.length_append]

example : unpackStringUpdatePos (fun b => .ok (latin1Decode b)) [9, 2, 65, 66, 67] 1 1 none = .ok ("AB".toList, 4) := by decide +kernel

/-! ## C29 Formula string results -/

theorem stringChunk_seg (bv : Nat) (hbv : 80 ≤ bv) (dec : Bytes → R PyStr) (g : Seg) (t : PyStr) (pre : Bytes) (ho : g.opt < 256)
    (hw : g.opt.testBit 0 = g.wide) (hf : Fits g.wide g.units) (ht : g.units = utf16 t) :
    stringChunk bv dec (pre ++ g.payload) (pre.length : Int) = .ok t := by
  unfold stringChunk
  rw [if_pos (by omega), byteAt_at (b := UInt8.ofNat g.opt) (r := g.bytes) (by simp [Seg.payload])]
  simp only [bind, Except.bind, flags_byte _ ho, hw]
  have hs : sliceFrom (pre ++ g.payload) ((pre.length : Int) + 1) = encUnits g.wide (utf16 t) := by
    rw [show (pre.length : Int) + 1 = ((pre.length + 1 : Nat) : Int) by push_cast; rfl,
      sliceFrom_nat _ _ (by simp [Seg.payload])]
    simp [Seg.payload, Seg.bytes, ht]
  rw [hs]
  have := decUnits_enc g.wide t (ht ▸ hf)
  cases hg : g.wide with
  | true => rw [hg] at this; simpa [decUnits] using this
  | false => rw [hg] at this; simpa [decUnits, pure, Except.pure] using this

theorem bmp_units (t : PyStr) (h : Bmp t) : utf16 t = t.map Char.toNat := by
  induction t with
  | nil => rfl
  | cons c t ih =>
    have := h c (by simp)
    have h2 := ih fun x hx => h x (by simp [hx])
    simp only [utf16, List.flatMap_cons, List.map_cons] at h2 ⊢
    rw [h2]
    simp [unitsOf, this]

/-- C29 (partial): a BIFF8 string result made up of the given parts, the first in the STRING record and
each other one in a CONTINUE record (each with its own character width), is read back, and the position
ends after the last CONTINUE record.

Missing: texts with characters outside the basic multilingual plane, for which the claim is false (witness
below). -/
theorem C29_string_result_partial (bv : Nat) (hbv : 80 ≤ bv) (dec : Bytes → R PyStr) (text : PyStr) (hbmp : Bmp text)
    (hlen : (utf16 text).length < 65536) (g : Seg) (gs : List Seg)
    (ht : g.units ++ gs.flatMap Seg.units = utf16 text)
    (hg : ∀ x ∈ g :: gs, x.opt < 256 ∧ x.opt.testBit 0 = x.wide ∧ Fits x.wide x.units)
    (hne : ∀ x ∈ gs, x.units ≠ [] ∧ x.payload.length < 65536) (pre rest : Bytes) :
    stringRecordContents bv dec (pre ++ encRecs (gs.map fun x => (0x3c, x.payload)) ++ rest) (pre.length : Int)
        (le16 (utf16 text).length ++ g.payload) =
      .ok (text, ((pre ++ encRecs (gs.map fun x => (0x3c, x.payload))).length : Int)) := by
  have hmap := bmp_units text hbmp
  have key : ∀ (us : List (List Nat)) (t : PyStr), Bmp t → us.flatten = utf16 t →
      ∃ ts : List PyStr, us = ts.map utf16 ∧ ts.flatten = t := by
    intro us
    induction us with
    | nil =>
      intro t hb h
      refine ⟨[], rfl, ?_⟩
      rw [bmp_units t hb] at h
      simpa using h
    | cons u us ih =>
      intro t hb h
      rw [bmp_units t hb] at h
      simp only [List.flatten_cons] at h
      have e1 : u = (t.take u.length).map Char.toNat := by
        rw [List.map_take, ← h, List.take_left]
      have e2 : us.flatten = (t.drop u.length).map Char.toNat := by
        rw [List.map_drop, ← h, List.drop_left]
      have b1 : Bmp (t.take u.length) := fun c hc => hb c (List.mem_of_mem_take hc)
      have b2 : Bmp (t.drop u.length) := fun c hc => hb c (List.mem_of_mem_drop hc)
      obtain ⟨ts, h1, h2⟩ := ih (t.drop u.length) b2 (by rw [e2, bmp_units _ b2])
      refine ⟨t.take u.length :: ts, ?_, ?_⟩
      · rw [List.map_cons, ← h1, bmp_units _ b1, ← e1]
      · rw [List.flatten_cons, h2, List.take_append_drop]
  obtain ⟨ts, h1, h2⟩ := key ((g :: gs).map Seg.units) text hbmp (by rw [← ht]; simp [List.flatMap_def])
  cases ts with
  | nil => simp at h1
  | cons t0 ts =>
  simp only [List.map_cons, List.cons.injEq] at h1
  obtain ⟨hu0, hus⟩ := h1
  have hlts : gs.length = ts.length := by simpa using congrArg List.length hus
  have hget : ∀ (i : Nat) x t, gs[i]? = some x → ts[i]? = some t → x.units = utf16 t := by
    intro i x t hx ht
    have := congrArg (fun l => l[i]?) hus
    simpa [hx, ht] using this
  unfold stringRecordContents
  have hb : sliceTo (le16 (utf16 text).length ++ g.payload) ((2 : Nat) : Int) = le16 (utf16 text).length := by
    rw [sliceTo, clampIdx, if_neg (by omega), Int.toNat_natCast, Nat.min_eq_left (by simp)]
    simp [le16]
  rw [if_pos (by omega)]
  simp only []
  rw [hb, unpackN_ok (le16_length _)]
  simp only [bind, Except.bind, fld_le16 _ hlen]
  have hL : (utf16 text).length = text.length := by rw [hmap, List.length_map]
  have hcont : encRecs (gs.map fun x => (0x3c, x.payload)) = continues (gs.map Seg.payload) := by
    simp [continues, List.map_map, Function.comp_def, XL_CONTINUE]
  have hgl : gs.length ≤ (continues (gs.map Seg.payload)).length := by
    clear * -
    induction gs with
    | nil => simp
    | cons x gs ih =>
      rw [List.map_cons, continues_cons, List.length_append, encRec_length]
      simp only [List.length_cons]; omega
  rw [hcont]
  have hmain := stringRecLoop_ok bv dec (pre ++ continues (gs.map Seg.payload) ++ rest) text.length (gs.map Seg.payload) ts
    (by simpa using hlts)
    (by
      intro i d t hd ht
      rw [List.getElem?_map, Option.map_eq_some_iff] at hd
      obtain ⟨x, hx, rfl⟩ := hd
      have hm := List.mem_of_getElem? hx
      obtain ⟨a, b, c⟩ := hg x (by simp [hm])
      have := stringChunk_seg bv hbv dec x t [] a b c (hget i x t hx ht)
      simpa using this)
    (by
      intro t ht h0
      obtain ⟨i, hi⟩ := List.mem_iff_getElem?.mp ht
      have hi' : i < gs.length := by
        rw [hlts]
        by_contra hx
        rw [List.getElem?_eq_none (by omega)] at hi
        simp at hi
      have hx := List.getElem?_eq_getElem hi'
      have := hget i _ t hx hi
      rw [h0] at this
      exact (hne _ (List.mem_of_getElem? hx)).1 (by simpa [utf16] using this))
    (by
      intro d hd
      simp only [List.mem_map] at hd
      obtain ⟨x, hx, rfl⟩ := hd
      exact (hne x hx).2)
    ((pre ++ continues (gs.map Seg.payload) ++ rest).length + 1) (le16 (utf16 text).length ++ g.payload) 2 t0 [] pre.length rest
    (by simp only [List.length_map, List.length_append]; omega)
    (by
      obtain ⟨a, b, c⟩ := hg g (by simp)
      exact stringChunk_seg bv hbv dec g t0 (le16 (utf16 text).length) a b c hu0)
    (by rw [← h2]; simp)
    (by simp)
  rw [hL] at hmain ⊢
  rw [show ((2 : Nat) : Int) = 2 from rfl, hmain, ← h2]
  simp

/-- C29: before BIFF8 the bytes of each record are decoded with the file's codec; the parts are joined when
the stored length is the number of decoded characters. -/
theorem C29_string_result_before_biff8 (bv : Nat) (hbv : bv < 80) (dec : Bytes → R PyStr) (t : PyStr) (b : Bytes)
    (ts : List PyStr) (bs : List Bytes) (hl : bs.length = ts.length) (h0 : dec b = .ok t)
    (hd : ∀ (i : Nat) d t, bs[i]? = some d → ts[i]? = some t → dec d = .ok t) (hne : ∀ t ∈ ts, t ≠ [])
    (hb : ∀ d ∈ bs, d.length < 65536)
    (hn : (t ++ ts.flatten).length < if bv ≥ 30 then 65536 else 256) (pre rest : Bytes) :
    stringRecordContents bv dec (pre ++ encRecs (bs.map fun x => (0x3c, x)) ++ rest) (pre.length : Int)
        (encLen (if bv ≥ 30 then 2 else 1) (t ++ ts.flatten).length ++ b) =
      .ok (t ++ ts.flatten, ((pre ++ encRecs (bs.map fun x => (0x3c, x))).length : Int)) := by
  set l : Nat := if bv ≥ 30 then 2 else 1 with hldef
  set n := (t ++ ts.flatten).length with hndef
  have hl12 : l = 1 ∨ l = 2 := by rw [hldef]; split_ifs <;> simp
  have hn' : n < 256 ^ l := by
    rw [hldef]; split_ifs at hn ⊢ <;> simpa using hn
  have hel := encLen_length l n hl12
  have hs : sliceTo (encLen l n ++ b) (l : Int) = encLen l n := by
    rw [sliceTo, clampIdx, if_neg (by omega), Int.toNat_natCast, Nat.min_eq_left (by simp [hel])]
    exact List.take_left' hel
  have hfld : fld (encLen l n) 0 l = n := by
    have := unpackLen_at (data := encLen l n) (p := 0) (r := []) hl12 hn' (by simp)
    unfold unpackLen at this
    have h2 := slice_at (data := encLen l n) (p := 0) (x := encLen l n) (r := []) (by simp) hel
    rw [h2, unpackN_ok hel] at this
    simpa [bind, Except.bind, pure, Except.pure] using this
  have hgl : bs.length ≤ (continues bs).length := by
    clear * -
    induction bs with
    | nil => simp
    | cons x gs ih =>
      rw [continues_cons, List.length_append, encRec_length]
      simp only [List.length_cons]; omega
  have hc : encRecs (bs.map fun x => (0x3c, x)) = continues bs := rfl
  have h80 : ¬ (bv ≥ 80) := by omega
  have hmain := stringRecLoop_ok bv dec (pre ++ continues bs ++ rest) n bs ts hl
    (by
      intro i d t hd' ht
      unfold stringChunk
      rw [if_neg h80, show (0 : Int) = ((0 : Nat) : Int) from rfl, sliceFrom_nat _ _ (by omega), List.drop_zero]
      exact hd i d t hd' ht) hne hb
    ((pre ++ continues bs ++ rest).length + 1) (encLen l n ++ b) (l : Int) t [] pre.length rest
    (by simp only [List.length_append]; omega)
    (by
      unfold stringChunk
      rw [if_neg h80, sliceFrom_nat _ _ (by simp [hel])]
      rw [List.drop_left' hel]; exact h0)
    (by simp [hndef]) (by simp)
  unfold stringRecordContents
  simp only [← hldef]
  rw [hs, unpackN_ok hel]
  simp only [bind, Except.bind, hfld, hc]
  rw [hmain]
  simp

/-- C29 fails outside the basic multilingual plane: the text is stored correctly in one record, but the
code looks for a CONTINUE record. -/
theorem C29_astral_character_fails :
    stringRecordContents 80 (fun _ => .error .lookup) (encRec 0x0a []) 0
      (le16 (utf16 "😀".toList).length ++ (⟨1, true, utf16 "😀".toList⟩ : Seg).payload) = .error .xlrd := by decide +kernel

example : stringRecordContents 80 (fun _ => .error .lookup)
    ([1] ++ encRecs ([(⟨1, true, [0x3b1]⟩ : Seg)].map fun x => (0x3c, x.payload)) ++ [2]) 1
    (le16 2 ++ (⟨0, false, [97]⟩ : Seg).payload) = .ok ("aα".toList, 8) := by decide +kernel
example : Bmp "aα".toList ∧ utf16 "aα".toList = [97] ++ [(⟨1, true, [0x3b1]⟩ : Seg)].flatMap Seg.units := by
  refine ⟨?_, by decide⟩
  unfold Bmp; decide

/-! ## C32 Range lists -/

/-- C32: a list of ranges, with its count, is decoded with exclusive upper bounds, appended to what was there,
and the position ends after it. -/
theorem C32_range_list (out : List Range4) (pre post : Bytes) (a : Nat) (ha : a = 6 ∨ a = 8)
    (rs : List (Nat × Nat × Nat × Nat)) (hn : rs.length < 65536)
    (hr : ∀ r ∈ rs, r.1 < 65536 ∧ r.2.1 < 65536 ∧ r.2.2.1 < (if a = 6 then 256 else 65536) ∧
      r.2.2.2 < (if a = 6 then 256 else 65536)) :
    unpackCellRangeAddressList out (pre ++ le16 rs.length ++ rs.flatMap (encRange a) ++ post) (pre.length : Int) a =
      .ok (out ++ rs.map (fun (rlo, rhi, clo, chi) => (rlo, rhi + 1, clo, chi + 1)),
        ((pre ++ le16 rs.length ++ rs.flatMap (encRange a)).length : Int)) := by
  have h1 := unpackH_at (data := pre ++ le16 rs.length ++ rs.flatMap (encRange a) ++ post) (p := pre.length)
    (r := rs.flatMap (encRange a) ++ post) hn (by simp)
  have h2 := unpackRanges_at (data := pre ++ le16 rs.length ++ rs.flatMap (encRange a) ++ post) a ha rs hr (pre.length + 2) post
    (by
      have := drop_at (data := pre ++ le16 rs.length ++ rs.flatMap (encRange a) ++ post) (p := pre.length)
        (x := le16 rs.length) (r := rs.flatMap (encRange a) ++ post) (by simp) (le16_length _)
      exact this)
  have hlen : (rs.flatMap (encRange a)).length = a * rs.length := by
    clear * - ha
    induction rs with
    | nil => simp
    | cons r rs ih => rw [List.flatMap_cons, List.length_append, ih, encRange_length a ha, List.length_cons]; ring
  unfold unpackCellRangeAddressList
  have hass : pyAssert (a = 6 || a = 8) = .ok () := by rcases ha with rfl | rfl <;> rfl
  rw [hass]
  simp only [bind, Except.bind]
  rw [h1]
  simp only []
  rw [show (pre.length : Int) + 2 = ((pre.length + 2 : Nat) : Int) by push_cast; rfl, h2]
  simp only [pure, Except.pure, List.length_append, hlen, le16_length]

example : unpackCellRangeAddressList [(9, 9, 9, 9)] ([5] ++ le16 2 ++ [(0, 1, 2, 3), (4, 4, 0, 255)].flatMap (encRange 6) ++ [7]) 1 6 =
    .ok ([(9, 9, 9, 9), (0, 2, 2, 4), (4, 5, 0, 256)], 15) := by decide +kernel

end Xlrd
