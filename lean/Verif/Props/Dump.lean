import Verif.Lemmas.DumpCount
import Verif.Props.Container

/-!
# Dumps and counts of records (C79)
-/
namespace Xlrd
open Spec DumpL
set_option linter.unusedSimpArgs false

/-- C79: a dump is written, and the stream can be read back from it.  If the last record claims to be longer than the stream, then the dump goes on with bytes that
stand after the stream in memory, and ends with a remark. -/
theorem C79_dump (mem : Bytes) (off len : Nat) (unnumbered : Bool) (h : off + len ≤ mem.length) :
    ∃ lines, biffDump mem off len 0 unnumbered = .ok lines ∧
      ∃ extra, readDump (!unnumbered) 0 lines = some ((mem.drop off).take len ++ extra) ∧ extra <+: mem.drop (off + len) ∧
        (extra ≠ [] → ∃ (l : PyStr) (ls : List PyStr), lines = ls ++ [l] ∧ "Last dumped record has length (".toList <+: l) := by
  have h0 : DumpL.Inv mem off (!unnumbered) { pos := off } := by
    refine ⟨Nat.le_refl _, fun hc => absurd rfl hc, fun more => ?_⟩
    show readDump _ 0 ([] ++ more) = (readDump _ (min (off - 0) mem.length - off) more).map (seg mem off (off - 0) ++ ·)
    rw [Nat.sub_zero, seg_self, show min off mem.length - off = 0 by omega, List.nil_append]
    cases readDump (!unnumbered) 0 more <;> rfl
  obtain ⟨st, e, hi, hp⟩ := dumpLoop_inv mem off (off + len) (!unnumbered) h (len + 1) { pos := off } (by show off + len - off < len + 1; omega) h0 (fun hc => absurd rfl hc)
  refine ⟨_, by simp only [biffDump, e, bind, Except.bind, pure, Except.pure]; rfl, ?_⟩
  have hle := hi.le
  have hseg : (mem.drop off).take len = seg mem off (off + len) := by rw [seg, Nat.add_sub_cancel_left]
  rw [hseg]
  rw [dumpTail]
  by_cases h1 : st.pos < off + len
  · rw [if_pos h1]
    refine ⟨[], ?_, List.nil_prefix, fun hc => absurd rfl hc⟩
    rw [hi.zeroLine, Nat.min_eq_left (by omega)]
    have hn : (0 - (off : Int) + (st.pos : Int)) = ((st.pos - off : Nat) : Int) := by omega
    rw [hn, readDump_line _ _ _ [] _ (by decide) readBody_misc, List.length_nil, Nat.add_zero]
    have := hexCharDump_reads mem st.pos (off + len - st.pos) (st.pos - off) (!unnumbered) [] (by omega)
    rw [List.append_nil] at this
    rw [this, readDump]
    simp only [Option.map_some, List.nil_append, List.append_nil]
    rw [show st.pos + (off + len - st.pos) = off + len by omega, seg_append mem off st.pos _ (by omega) (by omega)]
  · rw [if_neg h1]
    by_cases h2 : off + len < st.pos
    · rw [if_pos h2]
      refine ⟨seg mem (off + len) st.pos, ?_, seg_prefix mem _ _, fun _ => ⟨_, _, rfl, ?_⟩⟩
      · rw [hi.zeroLine, readDump, if_pos (by rfl), if_pos rfl, seg_append mem off _ _ (by omega) (by omega)]
        simp
      · rw [List.append_assoc]; exact List.prefix_append _ _
    · rw [if_neg h2]
      have : st.pos = off + len := by omega
      refine ⟨[], ?_, List.nil_prefix, fun hc => absurd rfl hc⟩
      rw [hi.zeroLine, readDump, this]
      rfl

/-- Every stream has a list of records, if zeros at the end are not counted. -/
theorem C79_records_exist (name : Nat → PyStr) (s : Bytes) : ∃ names, RecordNames name true s names := by
  suffices H : ∀ (n : Nat) (s : Bytes), s.length ≤ n → ∃ names, RecordNames name true s names from H s.length s (Nat.le_refl _)
  intro n
  induction n with
  | zero => intro s hs; exact ⟨[], .few s (by omega)⟩
  | succ n ih =>
    intro s hs
    by_cases h4 : s.length < 4
    · exact ⟨[], .few s h4⟩
    · obtain ⟨rc, len, hrc, hlen, _, hd⟩ := head_at s 0 (by omega)
      rw [List.drop_zero, Nat.zero_add] at hd
      have hl : (s.drop 4).length ≤ n := by rw [List.length_drop]; omega
      by_cases h0 : rc = 0 ∧ len = 0
      · by_cases hz : ∃ b ∈ s.drop 4, b ≠ 0
        · obtain ⟨names, hn⟩ := ih _ hl
          refine ⟨"<Dummy (zero)>".toList :: names, ?_⟩
          rw [hd, h0.1, h0.2]
          exact .dummy _ _ hz hn
        · refine ⟨[], ?_⟩
          have : s = List.replicate s.length 0 := by
            rw [List.eq_replicate_iff]
            refine ⟨rfl, fun b hb => ?_⟩
            rw [hd, h0.1, h0.2] at hb
            rcases List.mem_append.1 hb with hb | hb
            · have : b ∈ [(0 : UInt8), 0, 0, 0] := hb
              simpa using this
            · by_contra hc; exact hz ⟨b, hb, hc⟩
          rw [this]
          exact .zeros _ rfl
      · by_cases hc : (s.drop 4).length < len
        · refine ⟨[name rc], ?_⟩
          rw [hd]
          exact .cut rc len _ hrc hlen hc
        · obtain ⟨names, hn⟩ := ih ((s.drop 4).drop len) (by rw [List.length_drop]; omega)
          have hdl : ((s.drop 4).take len).length = len := by rw [List.length_take]; omega
          refine ⟨name rc :: names, ?_⟩
          have e : s = le16 rc ++ le16 ((s.drop 4).take len).length ++ (s.drop 4).take len ++ (s.drop 4).drop len := by
            rw [hdl, List.append_assoc, List.take_append_drop]; exact hd
          rw [e]
          refine .record rc _ _ _ hrc (by rw [hdl]; exact hlen) (fun hx => h0 ⟨hx.1, ?_⟩) hn
          rw [← hdl, hx.2]; rfl

/-- C79: the records of a stream are counted: each name that occurs is shown once, in alphabetical order, with the number of records of that name.  Limit: the
stream may only end with zeros that are not to be counted if it ends where the memory ends, that is, if it is the whole file or a copy; see `C79_padding`. -/
theorem C79_counts_partial (mem : Bytes) (off len : Nat) (h : off + len ≤ mem.length) (pad : Bool) (hpad : pad = true → off + len = mem.length) (names : List PyStr)
    (hn : RecordNames countedName pad ((mem.drop off).take len) names) :
    ∃ lines, biffCountRecords mem off len = .ok lines ∧ CountLines names lines := by
  have hseg : seg mem off (off + len) = (mem.drop off).take len := by rw [seg, Nat.add_sub_cancel_left]
  have e := countLoop_names rfl hn mem (off + len) h hpad (len + 1) off [] hseg (by omega) (by omega)
  refine ⟨_, by simp only [biffCountRecords, e, bind, Except.bind, pure, Except.pure]; rfl, ?_⟩
  have ht := tally_names names
  generalize names.foldl (fun t n => tallyAdd n t) [] = t at ht
  refine ⟨(sortItems t).map Prod.fst, ?_, fun n => ?_, ?_⟩
  · rw [List.pairwise_map]; exact sortItems_sorted t ht.nodup
  · rw [List.mem_map]
    constructor
    · rintro ⟨⟨a, k⟩, hm, rfl⟩
      exact ((ht.mem _ _).1 ((mem_sortItems _ _).1 hm)).2
    · intro hm
      exact ⟨(n, names.count n), (mem_sortItems _ _).2 ((ht.mem _ _).2 ⟨rfl, hm⟩), rfl⟩
  · rw [List.map_map]
    apply List.map_congr_left
    rintro ⟨a, k⟩ hm
    obtain ⟨rfl, _⟩ := (ht.mem _ _).1 ((mem_sortItems _ _).1 hm)
    rfl

/-! ## Files -/

theorem loadStreamLen_ok (env : OpenEnv) (file b : Bytes) (hw : StreamFile env.lower env.depth file b) (hf : file.length < env.fuel) :
    ∃ (m : Bytes) (off : Nat), loadStreamLen env file = some (.ok (m, (off : Int), (b.length : Int))) ∧ off + b.length ≤ m.length ∧ (m.drop off).take b.length = b ∧
      (file.take 8 ≠ [0xD0, 0xCF, 0x11, 0xE0, 0xA1, 0xB1, 0x1A, 0xE1] → off + b.length = m.length) := by
  have take8 : ∀ l : Bytes, sliceTo l 8 = l.take 8 := by
    intro l
    rw [sliceTo, clampIdx, if_neg (by omega)]
    have : l.take (min (8 : Int).toNat l.length) = l.take 8 := by rw [← List.take_take]; simp
    exact this
  cases hw with
  | plain hb hs =>
    refine ⟨file, 0, ?_, by omega, by simp, fun _ => by omega⟩
    unfold loadStreamLen
    rw [if_neg hb, if_pos (by rw [take8]; exact hs)]
    rfl
  | stream h p t d en secs _ doc hd hq he hd' st hb hsz =>
    have e1 : file.take 512 = h.enc := doc.header
    have s2 : file.take 8 = SIGNATURE := by
      have : file.take 8 = (file.take 512).take 8 := by rw [List.take_take]; rfl
      rw [this, e1]; rfl
    have s1 : file ≠ [] := by rintro rfl; cases s2
    obtain ⟨cd, e, o, _⟩ := init_enc file h p t doc env.ignore env.fuel env.depth hf hd
    have hdis : ∀ k ∈ secs, k ∉ p.secs := by
      cases st with
      | long _ _ _ _ hnot => exact hnot
      | short => simp
    have split : ∀ q : PyStr, splitSlash q = [q] → Finds env.lower (nodesOf p.entries) t [q] d → ∃ (x : UInt8) (xs : Bytes) (o' : Nat) (cd2 : CompDoc),
        locateNamedStream env.fuel env.lower cd q = some (.ok ((some (x :: xs), (o' : Int), (b.length : Int)), cd2)) ∧ o' + b.length ≤ (x :: xs).length ∧
          ((x :: xs).drop o').take b.length = b := by
      intro q hs f
      obtain ⟨_, m, off, cd2, k1, k2, k3, _⟩ := stream_read (q := q) doc o (by rw [hs]; exact f) he hd' st hdis env.fuel hf
      obtain ⟨rest, hr⟩ := slice_prefix k2 k3 (by omega)
      obtain ⟨o', rfl⟩ := Int.eq_ofNat_of_zero_le k3
      simp only [Int.ofNat_eq_natCast, Int.toNat_natCast] at hr k1
      have hl := congrArg List.length hr
      rw [List.length_drop, List.length_append] at hl
      have hpos : 0 < b.length := List.length_pos_iff.2 hb
      cases m with
      | nil => simp at hl; omega
      | cons x xs =>
        refine ⟨x, xs, o', cd2, by rw [k1, hsz], by omega, by rw [hr, List.take_left]⟩
    have miss : Missing env.lower (nodesOf p.entries) t ["Workbook".toList] →
        locateNamedStream env.fuel env.lower cd "Workbook".toList = some (.ok ((none, 0, 0), cd)) := by
      intro hm
      have hq : splitSlash "Workbook".toList = ["Workbook".toList] := by decide
      have := (C24_lookup_partial env.lower cd.dirlist t o.kids (splitSlash "Workbook".toList) (splitSlash_ne _)).2.2.1
        (missing_same (by rw [hq]; exact hm) (opened_same doc o))
      unfold locateNamedStream; rw [this]
    rcases hq with f | ⟨hm, f⟩
    · obtain ⟨x, xs, o', cd2, k1, k2, k3⟩ := split _ (by decide) f
      refine ⟨x :: xs, o', ?_, k2, k3, fun hc => absurd s2 hc⟩
      unfold loadStreamLen
      rw [if_neg s1, if_neg (by rw [take8, s2]; simp), e]
      simp only [findStreamLen]
      rw [k1]
    · obtain ⟨x, xs, o', cd2, k1, k2, k3⟩ := split _ (by decide) f
      refine ⟨x :: xs, o', ?_, k2, k3, fun hc => absurd s2 hc⟩
      unfold loadStreamLen
      rw [if_neg s1, if_neg (by rw [take8, s2]; simp), e]
      simp only [findStreamLen]
      rw [miss hm]
      simp only
      rw [k1]

/-- A stream that has sectors to itself has as many bytes as its entry says. -/
theorem streamAt_length {mem : Bytes} {h : Header} {p : Parts} {e : Entry} {secs : List Nat} {b : Bytes} (st : StreamAt mem h p e secs b) (hs : secs ≠ []) :
    b.length = e.size := by
  cases st with
  | long _ _ _ _ _ hw _ hhi => rw [List.length_take]; have := holds_sectors hw hhi; omega
  | short => exact absurd rfl hs

/-- C79 for files: the workbook stream can be read back from what `dump` writes. -/
theorem C79_dump_file (env : OpenEnv) (file b : Bytes) (hw : StreamFile env.lower env.depth file b) (hf : file.length < env.fuel) (unnumbered : Bool) :
    ∃ lines, dumpFile env file unnumbered = some (.ok lines) ∧ ∃ extra, readDump (!unnumbered) 0 lines = some (b ++ extra) ∧
      (extra ≠ [] → ∃ (l : PyStr) (ls : List PyStr), lines = ls ++ [l] ∧ "Last dumped record has length (".toList <+: l) := by
  obtain ⟨m, off, e, hl, hb, _⟩ := loadStreamLen_ok env file b hw hf
  obtain ⟨lines, e2, extra, h1, _, h3⟩ := C79_dump m off b.length unnumbered hl
  rw [hb] at h1
  refine ⟨lines, ?_, extra, h1, h3⟩
  unfold dumpFile
  rw [e]
  simp only [Int.toNat_natCast]
  rw [e2]

/-- C79 for files: `count_records` counts the records of the workbook stream.  Limit: zeros at the end of the stream of a compound document, see `C79_padding`. -/
theorem C79_count_file_partial (env : OpenEnv) (file b : Bytes) (hw : StreamFile env.lower env.depth file b) (hf : file.length < env.fuel) (pad : Bool)
    (hpad : pad = true → file.take 8 ≠ [0xD0, 0xCF, 0x11, 0xE0, 0xA1, 0xB1, 0x1A, 0xE1]) (names : List PyStr) (hn : RecordNames countedName pad b names) :
    ∃ lines, countRecords env file = some (.ok lines) ∧ CountLines names lines := by
  obtain ⟨m, off, e, hl, hb, hp⟩ := loadStreamLen_ok env file b hw hf
  obtain ⟨lines, e2, h1⟩ := C79_counts_partial m off b.length hl pad (fun h => hp (hpad h)) names (by rw [hb]; exact hn)
  refine ⟨lines, ?_, h1⟩
  unfold countRecords
  rw [e]
  simp only [Int.toNat_natCast]
  rw [e2]

/-- C79 fails for zeros at the end of a stream that is followed by other bytes: a record EOF and then padding, which is counted as records. -/
theorem C79_padding : ∃ (mem : Bytes) (len : Nat) (lines : List PyStr), len ≤ mem.length ∧ RecordNames countedName true (mem.take len) ["EOF".toList] ∧
    biffCountRecords mem 0 len = .ok lines ∧ lines = ["       2 <Dummy (zero)>".toList, "       1 EOF".toList] :=
  ⟨[10, 0, 0, 0, 0, 0, 0, 0, 0, 0, 0, 0, 9, 9], 12, _, by decide,
    .record 10 [] _ [] (by decide) (by decide) (by decide) (.zeros 8 rfl), by rfl, by decide⟩

/-! ## Examples -/

namespace DumpSample

/-- A BOF, a BOUNDSHEET, eight zeros, an unknown record, an EOF and one more byte. -/
def stream : Bytes :=
  [0x09, 0x08, 2, 0, 0, 6] ++ [0x85, 0, 18, 0] ++ (List.range 18).map (fun i => UInt8.ofNat (i * 15)) ++ List.replicate 8 0 ++ [0x34, 0x12, 0, 0] ++ [10, 0, 0, 0] ++ [7]

theorem counted : RecordNames countedName true stream ["BOF".toList, "BOUNDSHEET".toList, "<Dummy (zero)>".toList, "<Dummy (zero)>".toList, "Unknown_0x1234".toList, "EOF".toList] :=
  .record 0x809 [0, 6] _ _ (by decide) (by decide) (by decide) <|
    .record 0x85 ((List.range 18).map (fun i => UInt8.ofNat (i * 15))) _ _ (by decide) (by decide) (by decide) <|
    .dummy _ _ ⟨7, by decide, by decide⟩ <| .dummy _ _ ⟨7, by decide, by decide⟩ <|
    .record 0x1234 [] _ _ (by decide) (by decide) (by decide) <| .record 10 [] _ _ (by decide) (by decide) (by decide) <| .few [7] (by decide)

example : ∃ lines, biffCountRecords stream 0 stream.length = .ok lines ∧
    CountLines ["BOF".toList, "BOUNDSHEET".toList, "<Dummy (zero)>".toList, "<Dummy (zero)>".toList, "Unknown_0x1234".toList, "EOF".toList] lines :=
  C79_counts_partial stream 0 stream.length (by decide) true (fun _ => by decide) _ (by rw [List.drop_zero, List.take_length]; exact counted)

example : ∃ lines, biffDump stream 0 stream.length 0 false = .ok lines ∧ lines =
    ["    0: 0809 BOF len = 0002 (2)", "    4:      00 06                                            ~?",
     "    6: 0085 BOUNDSHEET len = 0012 (18)", "   10:      00 0f 1e 2d 3c 4b 5a 69 78 87 96 a5 b4 c3 d2 e1  ~??-<KZix???????",
     "   26:      f0 ff                                            ??", "   28: ---- 8 zero bytes skipped ----",
     "   36: 1234 <UNKNOWN> len = 0000 (0)", "   40: 000a EOF len = 0000 (0)", "   44: ---- Misc bytes at end ----",
     "   44:      07                                               ?"].map String.toList :=
  ⟨_, by rfl, by decide +kernel⟩

/-- The stream is the whole file. -/
def env : OpenEnv :=
  { fuel := 100, depth := 10, lower := id, codec := fun _ _ => .ok [], rstrip := id, evalNames := fun _ => .ok (), override := [], fi := false, ragged := false, onDemand := false,
    ignore := false }

example : ∃ lines, dumpFile env stream true = some (.ok lines) ∧ ∃ extra, readDump false 0 lines = some (stream ++ extra) ∧
    (extra ≠ [] → ∃ (l : PyStr) (ls : List PyStr), lines = ls ++ [l] ∧ "Last dumped record has length (".toList <+: l) :=
  C79_dump_file env stream stream (.plain _ (by decide) (by decide)) (by decide) true

end DumpSample

end Xlrd
