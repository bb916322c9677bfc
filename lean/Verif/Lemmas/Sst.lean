import Verif.Lemmas.Strings

/-!
# The shared string table
-/
set_option linter.unusedSimpArgs false
namespace Xlrd
open Spec

/-- The reader stands at a place where `cur` is left of the record and `more` are the records after it. -/
structure View (tab : List Bytes) (p : SstPos) (cur : Bytes) (more : List Bytes) : Prop where
  pos : ∃ n : Nat, p.pos = (n : Int) ∧ n ≤ p.data.length ∧ p.data.drop n = cur
  more : tab.drop (p.inx + 1) = more

theorem view_next {tab p cur d more} (h : View tab p cur (d :: more)) (q : SstPos) (hq : q.inx = p.inx) (n : Nat) (hn : n ≤ d.length) :
    sstNext tab q n = .ok ⟨p.inx + 1, d, n⟩ ∧ View tab ⟨p.inx + 1, d, n⟩ (d.drop n) more := by
  have hd : tab[p.inx + 1]? = some d := by
    have := congrArg (fun l => l[0]?) h.more
    simpa using this
  constructor
  · unfold sstNext
    rw [hq, show ((p.inx : Int) + 1) = ((p.inx + 1 : Nat) : Int) by push_cast; rfl, (idx_ok_nat tab (p.inx + 1) d).mpr hd]
    rfl
  · refine ⟨⟨n, rfl, hn, rfl⟩, ?_⟩
    have := congrArg (List.drop 1) h.more
    simpa [List.drop_drop] using this

theorem view_advance {tab p x cur more} (h : View tab p (x ++ cur) more) (n : Nat) (hn : x.length = n) :
    View tab { p with pos := p.pos + (n : Int) } cur more := by
  obtain ⟨⟨k, e1, e2, e3⟩, e4⟩ := h
  refine ⟨⟨k + n, by simp [e1], ?_, drop_at e3 hn⟩, e4⟩
  have := congrArg List.length e3
  simp at this
  simp only
  omega

theorem view_len {tab p cur more} (h : View tab p cur more) : (p.data.length : Int) - p.pos = cur.length := by
  obtain ⟨⟨k, e1, e2, e3⟩, _⟩ := h
  have := congrArg List.length e3
  simp at this
  rw [e1]; omega

theorem view_slice {tab p x cur more} (h : View tab p (x ++ cur) more) (n : Nat) (hn : x.length = n) :
    slice p.data p.pos (p.pos + (n : Int)) = x := by
  obtain ⟨⟨k, e1, e2, e3⟩, e4⟩ := h
  rw [e1]
  exact slice_at e3 hn

/-- One pass of the character loop. -/
theorem pass_ok {tab : List Bytes} {p : SstPos} {cur : Bytes} {more : List Bytes} (wide : Bool) (t : PyStr) (need : Nat)
    (hf : Fits wide (utf16 t)) (h : View tab p (encUnits wide (utf16 t) ++ cur) more)
    (hneed : (utf16 t).length ≤ need) (hend : (utf16 t).length = need ∨ cur = []) :
    let w : Nat := if wide then 2 else 1
    min (((p.data.length : Int) - p.pos) / w) need = (utf16 t).length ∧
    (wide = true → utf16leDecode (slice p.data p.pos (p.pos + 2 * ((utf16 t).length : Nat))) = .ok t) ∧
    (wide = false → latin1Decode (slice p.data p.pos (p.pos + ((utf16 t).length : Nat))) = t) ∧
    View tab { p with pos := p.pos + ((w * (utf16 t).length : Nat) : Int) } cur more := by
  have hl := encUnits_length wide (utf16 t)
  have hv := view_len h
  intro w
  refine ⟨?_, ?_, ?_, view_advance h _ hl⟩
  · rw [hv, List.length_append, hl]
    have hw : 0 < w := by simp only [w]; split_ifs <;> omega
    have : (((w * (utf16 t).length + cur.length : Nat) : Int)) / (w : Int) = ((utf16 t).length + cur.length / w : Nat) := by
      rw [← Int.natCast_ediv, Nat.mul_add_div hw]
    rw [this]
    rcases hend with h1 | h1
    · generalize cur.length / w = q; omega
    · subst h1; simp; omega
  · intro hw
    obtain ⟨⟨k, e1, e2, e3⟩, e4⟩ := h
    rw [e1]
    exact (slice_chars wide t hf e3).1 hw
  · intro hw
    obtain ⟨⟨k, e1, e2, e3⟩, e4⟩ := h
    rw [e1]
    exact (slice_chars wide t hf e3).2 hw

theorem sstChars_ok (tab : List Bytes) (segs : List Seg) (hs : ∀ g ∈ segs, g.opt < 256 ∧ g.opt.testBit 0 = g.wide ∧
      Fits g.wide g.units ∧ g.units ≠ []) :
    ∀ (k : Nat) (p : SstPos) (opt : Nat) (wide : Bool) (t : PyStr) (ts : List PyStr) (acc : PyStr) (rest : Items),
      segs.length ≤ k → opt.testBit 0 = wide → Fits wide (utf16 t) → segs.map Seg.units = ts.map utf16 →
      View tab p (encUnits wide (utf16 t) ++ (recordsOf (segItems segs ++ rest)).1) (recordsOf (segItems segs ++ rest)).2 →
      ∃ p', sstChars tab k p opt ((utf16 t).length + (ts.map fun t => (utf16 t).length).sum : Nat) acc =
          .ok (acc ++ t ++ ts.flatten, p') ∧ View tab p' (recordsOf rest).1 (recordsOf rest).2 := by
  induction segs with
  | nil =>
    intro k p opt wide t ts acc rest hk ho hf he hv
    have : ts = [] := by cases ts with
      | nil => rfl
      | cons _ _ => simp at he
    subst this
    simp only [segItems, List.flatMap_nil, List.nil_append] at hv
    obtain ⟨e1, e2, e3, e4⟩ := pass_ok wide t (utf16 t).length hf hv (le_refl _) (.inl rfl)
    simp only [List.map_nil, List.sum_nil, Nat.add_zero, List.flatten_nil, List.append_nil]
    refine ⟨_, ?_, e4⟩
    unfold sstChars
    rw [ho]
    cases hw : wide with
    | true =>
      simp only [hw, ↓reduceIte] at e1 e2 e4 ⊢
      have e1' : min ((↑p.data.length - p.pos) / 2) ((utf16 t).length : Int) = (utf16 t).length := by simpa using e1
      simp only [e1', e2 trivial, bind, Except.bind, pure, Except.pure, ↓reduceIte]
      simp
    | false =>
      simp only [hw, Bool.false_eq_true, ↓reduceIte] at e1 e3 e4 ⊢
      have e1' : min (↑p.data.length - p.pos) ((utf16 t).length : Int) = (utf16 t).length := by simpa using e1
      simp only [e1', e3 trivial, bind, Except.bind, pure, Except.pure, ↓reduceIte]
      simp
  | cons g segs ih =>
    intro k p opt wide t ts acc rest hk ho hf he hv
    cases ts with
    | nil => simp at he
    | cons t2 ts =>
    simp only [List.map_cons, List.cons.injEq] at he
    obtain ⟨hg, he⟩ := he
    obtain ⟨g1, g2, g3, g4⟩ := hs g (by simp)
    rw [hg] at g3 g4
    have hpos : 0 < (utf16 t2).length := List.length_pos_iff.mpr g4
    have ei : recordsOf (segItems (g :: segs) ++ rest) = ([], (UInt8.ofNat g.opt :: g.bytes ++ (recordsOf (segItems segs ++ rest)).1) ::
        (recordsOf (segItems segs ++ rest)).2) := by
      simp [segItems, recordsOf]
    rw [ei] at hv
    simp only at hv
    generalize hneed : (utf16 t).length + ((t2 :: ts).map fun t => (utf16 t).length).sum = need
    have hlt : (utf16 t).length < need := by simp at hneed; omega
    obtain ⟨e1, e2, e3, e4⟩ := pass_ok wide t need hf hv (by omega) (.inr rfl)
    cases k with
    | zero => simp at hk
    | succ k =>
    obtain ⟨n1, n2⟩ := view_next e4 { p with pos := p.pos + (((if wide then 2 else 1) * (utf16 t).length : Nat) : Int) } rfl 1
      (by simp)
    have hb : byteAt (UInt8.ofNat g.opt :: g.bytes ++ (recordsOf (segItems segs ++ rest)).1) 0 = .ok g.opt := by
      have := byteAt_at (data := UInt8.ofNat g.opt :: g.bytes ++ (recordsOf (segItems segs ++ rest)).1) (p := 0) (b := UInt8.ofNat g.opt)
        (r := g.bytes ++ (recordsOf (segItems segs ++ rest)).1) (by simp)
      rw [flags_byte g.opt g1] at this
      exact this
    obtain ⟨p', r1, r2⟩ := ih (fun x hx => hs x (by simp [hx])) k _ g.opt g.wide t2 ts (acc ++ t) rest (by simpa using hk) g2 g3 he
      (by simpa [Seg.bytes, hg] using n2)
    refine ⟨p', ?_, r2⟩
    have hsub : ((need : Nat) : Int) - ((utf16 t).length : Int) = ((utf16 t2).length + (ts.map fun t => (utf16 t).length).sum : Nat) := by
      simp at hneed; omega
    have hne : ¬ (((utf16 t).length : Int) = (need : Int)) := by omega
    conv_lhs => unfold sstChars
    rw [ho]
    cases hw : wide with
    | true =>
      simp only [hw, ↓reduceIte] at e1 e2 n1 ⊢
      have e1' : min ((↑p.data.length - p.pos) / 2) (need : Int) = (utf16 t).length := by simpa using e1
      push_cast at n1
      simp only [e1', e2 trivial, bind, Except.bind, pure, Except.pure, hne, ↓reduceIte, n1, hb, hsub]
      simpa [Seg.bytes, hg] using r1
    | false =>
      simp only [hw, Bool.false_eq_true, ↓reduceIte] at e1 e3 n1 ⊢
      have e1' : min (↑p.data.length - p.pos) (need : Int) = (utf16 t).length := by simpa using e1
      push_cast at n1
      rw [Int.one_mul] at n1
      simp only [e1', e3 trivial, bind, Except.bind, pure, Except.pure, hne, ↓reduceIte, n1, hb, hsub]
      simpa [Seg.bytes, hg] using r1

theorem runs_flat {cur : Bytes} (r : Nat × Nat) (rs : List (Nat × Nat)) :
    (r :: rs).flatMap encRun ++ cur = encRun r ++ (rs.flatMap encRun ++ cur) := by simp

theorem encRun_length (r : Nat × Nat) : (encRun r).length = 4 := rfl

theorem encRun_fld (r : Nat × Nat) (h : r.1 < 65536 ∧ r.2 < 65536) :
    (fld (encRun r) 0 2, fld (encRun r) 2 2) = r := by
  have e1 : fld (encRun r) 0 2 = r.1 := by
    have := le_le16 r.1 h.1 (le16 r.2); simpa [fld, encRun] using this
  have e2 : fld (encRun r) 2 2 = r.2 := by
    unfold encRun
    rw [fld_skip _ _ _ _ (le16_length r.1)]
    have := le_le16 r.2 h.2 []; simpa using this
  rw [e1, e2]

/-- One run when the record is not finished. -/
theorem run_step (tab : List Bytes) (n : Nat) (p : SstPos) (r : Nat × Nat) (hr : r.1 < 65536 ∧ r.2 < 65536) (cur more)
    (h : View tab p (encRun r ++ cur) more) :
    sstRuns tab (n + 1) p = (sstRuns tab n { p with pos := p.pos + 4 }).map fun x => (r :: x.1, x.2) := by
  have hv := view_len h
  have hne : ¬ (p.pos = (p.data.length : Int)) := by
    rw [List.length_append, encRun_length] at hv; omega
  have hs := view_slice h 4 (encRun_length r)
  rw [sstRuns]
  simp only [hne, ↓reduceIte, bind, Except.bind, pure, Except.pure]
  rw [show ((4 : Int)) = ((4 : Nat) : Int) from rfl, hs, unpackN_ok (encRun_length r)]
  simp only
  have he := encRun_fld r hr
  cases sstRuns tab n { p with pos := p.pos + ((4 : Nat) : Int) } with
  | error e => rfl
  | ok x => simp [Except.map, he]

theorem sstRuns_ok (tab : List Bytes) (runss : List (List (Nat × Nat))) (hne : ∀ g ∈ runss, g ≠ []) :
    ∀ (runs : List (Nat × Nat)) (p : SstPos) (rest : Items),
      (∀ r ∈ runs ++ runss.flatten, r.1 < 65536 ∧ r.2 < 65536) →
      View tab p (runs.flatMap encRun ++ (recordsOf (runItems runss ++ rest)).1) (recordsOf (runItems runss ++ rest)).2 →
      ∃ p', sstRuns tab (runs ++ runss.flatten).length p = .ok (runs ++ runss.flatten, p') ∧
        View tab p' (recordsOf rest).1 (recordsOf rest).2 := by
  induction runss with
  | nil =>
    intro runs
    induction runs with
    | nil =>
      intro p rest _ hv
      exact ⟨p, by simp [sstRuns], by simpa [runItems] using hv⟩
    | cons r runs ih =>
      intro p rest hr hv
      rw [runs_flat] at hv
      have hr0 := hr r (by simp)
      have hv' := view_advance hv 4 (encRun_length r)
      obtain ⟨p', e1, e2⟩ := ih { p with pos := p.pos + 4 } rest (fun x hx => hr x (by simp at hx ⊢; exact .inr hx)) hv'
      refine ⟨p', ?_, e2⟩
      simp only [List.flatten_nil, List.append_nil, List.length_cons] at e1 ⊢
      rw [run_step tab _ p r hr0 _ _ hv, e1]
      rfl
  | cons g runss ihg =>
    intro runs
    induction runs with
    | nil =>
      intro p rest hr hv
      have ei : recordsOf (runItems (g :: runss) ++ rest) = ([], (g.flatMap encRun ++ (recordsOf (runItems runss ++ rest)).1) ::
          (recordsOf (runItems runss ++ rest)).2) := by simp [runItems, recordsOf]
      rw [ei] at hv
      simp only [List.flatMap_nil, List.nil_append] at hv
      have hg := hne g (by simp)
      obtain ⟨n1, n2⟩ := view_next hv p rfl 0 (by simp)
      rw [List.drop_zero] at n2
      obtain ⟨p', e1, e2⟩ := ihg (fun x hx => hne x (by simp [hx])) g _ rest (by simpa using hr) n2
      refine ⟨p', ?_, e2⟩
      simp only [List.nil_append, List.flatten_cons]
      rw [← e1]
      obtain ⟨r, g', rfl⟩ := List.exists_cons_of_ne_nil hg
      simp only [List.cons_append, List.length_cons]
      have hp : p.pos = (p.data.length : Int) := by have := view_len hv; simp at this; omega
      have hx : ¬ (((0 : Nat) : Int) = ((r :: g').flatMap encRun ++ (recordsOf (runItems runss ++ rest)).1).length) := by
        rw [runs_flat, List.length_append, encRun_length]; omega
      conv_lhs => rw [sstRuns]
      conv_rhs => rw [sstRuns]
      simp only [hp, ↓reduceIte, bind, Except.bind, pure, Except.pure]
      push_cast at n1
      rw [n1]
      simp only
      rw [if_neg hx]
      rfl
    | cons r runs ih =>
      intro p rest hr hv
      rw [runs_flat] at hv
      have hr0 := hr r (by simp)
      have hv' := view_advance hv 4 (encRun_length r)
      obtain ⟨p', e1, e2⟩ := ih { p with pos := p.pos + 4 } rest (fun x hx => hr x (by simp at hx ⊢; exact .inr hx)) hv'
      refine ⟨p', ?_, e2⟩
      simp only [List.cons_append, List.length_cons] at e1 ⊢
      rw [run_step tab _ p r hr0 _ _ hv, e1]
      rfl

/-- Skipping phonetic data that ends in this record, not at its end. -/
theorem sstSkip_inside (tab : List Bytes) (p : SstPos) (ph cur : Bytes) (more : List Bytes) (last : Bool)
    (h : View tab p (ph ++ cur) more) (hc : cur ≠ []) :
    ∃ p', sstSkip tab p ph.length last = .ok p' ∧ View tab p' cur more := by
  have hv := view_len h
  have hl : 0 < cur.length := List.length_pos_iff.mpr hc
  rw [List.length_append] at hv
  refine ⟨_, ?_, view_advance h ph.length rfl⟩
  unfold sstSkip
  rw [if_neg (by omega)]

/-- Skipping phonetic data that ends with the record or goes on in the next one. -/
theorem sstSkip_cross (tab : List Bytes) (p : SstPos) (ph ph' cur : Bytes) (more : List Bytes) (last : Bool)
    (h : View tab p ph ((ph' ++ cur) :: more)) :
    ∃ p', sstSkip tab p (ph ++ ph').length last = .ok p' ∧ View tab p' cur more := by
  have hv := view_len h
  obtain ⟨_, n2⟩ := view_next h p rfl ph'.length (by simp)
  rw [List.drop_left] at n2
  have hd : tab[p.inx + 1]? = some (ph' ++ cur) := by
    have := congrArg (fun l => l[0]?) h.more
    simpa using this
  refine ⟨_, ?_, n2⟩
  unfold sstSkip
  rw [List.length_append, if_pos (by omega), hd]
  simp only [Except.ok.injEq, SstPos.mk.injEq, true_and]
  omega

/-- At the last string any amount can be skipped. -/
theorem sstSkip_last (tab : List Bytes) (p : SstPos) (n : Int) : ∃ p', sstSkip tab p n true = .ok p' := by
  unfold sstSkip
  simp only []
  split_ifs
  · cases tab[p.inx + 1]? with
    | none => exact ⟨_, rfl⟩
    | some d => exact ⟨_, rfl⟩
  · exact ⟨_, rfl⟩

theorem view_unpackH {tab p n cur more} (hn : n < 65536) (h : View tab p (le16 n ++ cur) more) :
    unpackH (slice p.data p.pos (p.pos + 2)) = .ok n ∧ View tab { p with pos := p.pos + 2 } cur more := by
  obtain ⟨k, e1, e2, e3⟩ := h.pos
  refine ⟨?_, view_advance h 2 (le16_length n)⟩
  rw [e1]; exact unpackH_at hn e3

theorem view_unpacki {tab p n cur more} (hn : n < 2 ^ 31) (h : View tab p (le32 n ++ cur) more) :
    unpacki (slice p.data p.pos (p.pos + 4)) = .ok (n : Int) ∧ View tab { p with pos := p.pos + 4 } cur more := by
  obtain ⟨k, e1, e2, e3⟩ := h.pos
  refine ⟨?_, view_advance h 4 (le32_length n)⟩
  rw [e1]; exact unpacki_at hn e3

theorem view_byte {tab p b cur more} (h : View tab p (b :: cur) more) :
    byteAt p.data p.pos = .ok b.toNat ∧ View tab { p with pos := p.pos + 1 } cur more := by
  obtain ⟨k, e1, e2, e3⟩ := h.pos
  refine ⟨?_, view_advance (x := [b]) h 1 rfl⟩
  rw [e1]; exact byteAt_at e3

theorem recordsOf_some (b : Bytes) (rest : Items) : recordsOf (some b :: rest) = (b ++ (recordsOf rest).1, (recordsOf rest).2) := rfl

theorem recordsOf_none (rest : Items) : recordsOf (none :: rest) = ([], (recordsOf rest).1 :: (recordsOf rest).2) := rfl

theorem sum_utf16 (ts : List PyStr) : (ts.map fun t => (utf16 t).length).sum = (utf16 ts.flatten).length := by
  induction ts with
  | nil => rfl
  | cons t ts ih =>
    rw [List.map_cons, List.sum_cons, ih, List.flatten_cons]
    simp [utf16]

theorem utf16_append (a b : PyStr) : utf16 (a ++ b) = utf16 a ++ utf16 b := by simp [utf16]

theorem utf16_inj {a b : PyStr} (h : utf16 a = utf16 b) : a = b := by
  have h1 := decodeUnits_utf16 a
  rw [h, decodeUnits_utf16] at h1
  injection h1 with h1; exact h1.symm

theorem flatMap_units (segs : List Seg) (ts : List PyStr) (h : segs.map Seg.units = ts.map utf16) :
    segs.flatMap Seg.units = utf16 ts.flatten := by
  rw [List.flatMap_def, h]
  clear h
  induction ts with
  | nil => rfl
  | cons t ts ih => simp [utf16_append, ih]

/-- Everything of a string except the phonetic data. -/
theorem sstString_upto (tab : List Bytes) (s : SStr) (hl : s.Legal) (hh : s.Handled) (p : SstPos) (rest : Items) (last : Bool)
    (hk : s.segs.length ≤ tab.length)
    (hv : View tab p (recordsOf (s.items ++ rest)).1 (recordsOf (s.items ++ rest)).2) :
    ∃ p1, View tab p1 (recordsOf (some s.phon :: phonItems s.phons ++ (if s.brk then [none] else []) ++ rest)).1
        (recordsOf (some s.phon :: phonItems s.phons ++ (if s.brk then [none] else []) ++ rest)).2 ∧
      sstString tab p last = (sstSkip tab p1 s.allPhon.length last).map fun q => (s.value.1, s.value.2, q) := by
  generalize hR : some s.phon :: phonItems s.phons ++ (if s.brk then [none] else []) ++ rest = Rs
  obtain ⟨⟨ts, hts⟩, _⟩ := hh
  cases ts with
  | nil => simp at hts
  | cons t ts =>
  simp only [List.map_cons, List.cons.injEq] at hts
  obtain ⟨ht, hts⟩ := hts
  have htext : s.text = t ++ ts.flatten := by
    apply utf16_inj
    rw [← hl.text, ht, flatMap_units _ _ hts, utf16_append]
  have hnum : (utf16 t).length + (ts.map fun t => (utf16 t).length).sum = (utf16 s.text).length := by
    rw [sum_utf16, htext, utf16_append, List.length_append]
  have hfit : Fits s.seg.wide (utf16 t) := by rw [← ht]; exact hl.fits
  have hseg : s.seg.bytes = encUnits s.seg.wide (utf16 t) := by unfold Seg.bytes; rw [ht]
  have hI : s.items ++ rest = some s.header :: some s.seg.bytes :: (segItems s.segs ++
      (some (s.runs.flatMap encRun) :: (runItems s.runss ++ Rs))) := by
    rw [← hR]; simp [SStr.items]
  rw [hI, recordsOf_some, recordsOf_some, hseg] at hv
  simp only [SStr.header, List.append_assoc] at hv
  generalize hC : encUnits s.seg.wide (utf16 t) ++ (recordsOf (segItems s.segs ++ (some (s.runs.flatMap encRun) ::
    (runItems s.runss ++ Rs)))).1 = C at hv
  generalize hM : (recordsOf (segItems s.segs ++ (some (s.runs.flatMap encRun) :: (runItems s.runss ++ Rs)))).2 = M at hv
  obtain ⟨f1, v1⟩ := view_unpackH hl.len hv
  obtain ⟨f2, v2⟩ := view_byte v1
  rw [flags_byte _ hl.flags.1] at f2
  simp only at f2 v2
  rw [show p.pos + 2 + 1 = p.pos + 3 by omega] at v2
  -- rich-text count
  have hrt : ∃ q : Int, sstCount (s.seg.opt.testBit 3) p.data (p.pos + 3) = .ok (s.allRuns.length, q) ∧
      View tab { p with pos := q } ((if s.hasPhon then le32 s.allPhon.length else []) ++ C) M := by
    unfold sstCount
    rw [hl.flags.2.2.1]
    cases hr : s.rich with
    | true =>
      rw [hr] at v2
      obtain ⟨g1, g2⟩ := view_unpackH hl.runLen v2
      refine ⟨p.pos + 3 + 2, ?_, g2⟩
      simp only [↓reduceIte, bind, Except.bind, pure, Except.pure]
      simp only at g1
      rw [g1]
    | false =>
      rw [hr] at v2
      refine ⟨p.pos + 3, ?_, by simpa using v2⟩
      simp [hl.rich hr, pure, Except.pure]
  obtain ⟨q1, r1, v3⟩ := hrt
  have hph : ∃ q : Int, sstSize (s.seg.opt.testBit 2) p.data q1 = .ok ((s.allPhon.length : Int), q) ∧
      View tab { p with pos := q } C M := by
    unfold sstSize
    rw [hl.flags.2.2.2]
    cases hr : s.hasPhon with
    | true =>
      rw [hr] at v3
      obtain ⟨g1, g2⟩ := view_unpacki hl.phonLen v3
      refine ⟨q1 + 4, ?_, g2⟩
      simp only [↓reduceIte, bind, Except.bind, pure, Except.pure]
      simp only at g1
      rw [g1]
    | false =>
      rw [hr] at v3
      refine ⟨q1, ?_, by simpa using v3⟩
      simp [hl.phon hr, pure, Except.pure]
  obtain ⟨q2, r2, v4⟩ := hph
  rw [← hC, ← hM] at v4
  obtain ⟨p2, c1, c2⟩ := sstChars_ok tab s.segs hl.segs tab.length _ s.seg.opt s.seg.wide t ts [] _ hk hl.flags.2.1 hfit hts v4
  rw [hnum, List.nil_append, ← htext] at c1
  rw [recordsOf_some] at c2
  -- runs
  obtain ⟨p3, d1, d2⟩ := sstRuns_ok tab s.runss hl.runss s.runs p2 Rs hl.runs c2
  have hruns : ∃ p4, sstRunsOpt tab s.allRuns.length p2 = .ok (s.value.2, p4) ∧
      View tab p4 (recordsOf Rs).1 (recordsOf Rs).2 := by
    unfold sstRunsOpt
    by_cases h0 : s.allRuns = []
    · have e1 : s.runs = [] := (List.append_eq_nil_iff.mp h0).1
      have e2 : s.runss = [] := by
        cases hr : s.runss with
        | nil => rfl
        | cons g gs =>
          have := hl.runss g (by simp [hr])
          simp [SStr.allRuns, hr] at h0
          exact absurd h0.2.1 this
      rw [e1, e2] at c2
      refine ⟨p2, ?_, by simpa [runItems] using c2⟩
      simp [SStr.value, h0, pure, Except.pure]
    · refine ⟨p3, ?_, d2⟩
      have hne : s.allRuns.length ≠ 0 := fun hx => h0 (List.length_eq_zero_iff.mp hx)
      rw [if_pos hne]
      have d1' : sstRuns tab s.allRuns.length p2 = .ok (s.allRuns, p3) := d1
      simp [d1', bind, Except.bind, pure, Except.pure, SStr.value, h0]
  obtain ⟨p4, k1, k2⟩ := hruns
  refine ⟨p4, k2, ?_⟩
  unfold sstString
  rw [f1]
  simp only [bind, Except.bind]
  rw [f2]
  simp only [r1, r2, c1, k1]
  cases sstSkip tab p4 s.allPhon.length last <;> simp [Except.map, pure, Except.pure, SStr.value]

/-- Reading a string that is not the last. -/
theorem sstString_ok (tab : List Bytes) (s : SStr) (hl : s.Legal) (hh : s.Handled) (p : SstPos) (rest : Items) (last : Bool)
    (hk : s.segs.length ≤ tab.length) (hrest : (recordsOf rest).1 ≠ [])
    (hv : View tab p (recordsOf (s.items ++ rest)).1 (recordsOf (s.items ++ rest)).2) :
    ∃ p', sstString tab p last = .ok (s.value.1, s.value.2, p') ∧ View tab p' (recordsOf rest).1 (recordsOf rest).2 := by
  obtain ⟨p1, v1, e1⟩ := sstString_upto tab s hl hh p rest last hk hv
  have : ∃ p', sstSkip tab p1 s.allPhon.length last = .ok p' ∧ View tab p' (recordsOf rest).1 (recordsOf rest).2 := by
    rcases hh.phons with h0 | ⟨h1, hb⟩
    · rw [h0] at v1
      simp only [phonItems, List.flatMap_nil, List.append_nil] at v1
      have ha : s.allPhon = s.phon := by simp [SStr.allPhon, h0]
      rw [ha]
      cases hb : s.brk with
      | false =>
        rw [hb] at v1
        exact sstSkip_inside tab p1 s.phon _ _ last (by simpa [recordsOf] using v1) hrest
      | true =>
        rw [hb] at v1
        have := sstSkip_cross tab p1 s.phon [] (recordsOf rest).1 (recordsOf rest).2 last (by simpa [recordsOf] using v1)
        simpa using this
    · obtain ⟨ph, hph⟩ := List.length_eq_one_iff.mp h1
      rw [hph, hb] at v1
      have ha : s.allPhon = s.phon ++ ph := by simp [SStr.allPhon, hph]
      rw [ha]
      exact sstSkip_cross tab p1 s.phon ph (recordsOf rest).1 (recordsOf rest).2 last
        (by simpa [recordsOf, phonItems] using v1)
  obtain ⟨p', e2, e3⟩ := this
  exact ⟨p', by rw [e1, e2]; rfl, e3⟩

theorem items_header_ne (s : SStr) (rest : Items) : (recordsOf (s.items ++ rest)).1 ≠ [] := by
  simp [SStr.items, recordsOf, SStr.header, le16]

theorem sstLoop_ok (tab : List Bytes) (ss : List SStr) (hl : ∀ s ∈ ss, s.Legal ∧ s.Handled ∧ s.segs.length ≤ tab.length)
    (p : SstPos) (hv : View tab p (recordsOf (ss.flatMap SStr.items)).1 (recordsOf (ss.flatMap SStr.items)).2) :
    sstLoop tab ss.length p = .ok (ss.map SStr.value) := by
  induction ss generalizing p with
  | nil => rfl
  | cons s ss ih =>
    obtain ⟨h1, h2, h3⟩ := hl s (by simp)
    simp only [List.flatMap_cons] at hv
    cases ss with
    | nil =>
      obtain ⟨p1, v1, e1⟩ := sstString_upto tab s h1 h2 p _ true h3 hv
      obtain ⟨p2, e2⟩ := sstSkip_last tab p1 s.allPhon.length
      rw [e2] at e1
      simp only [List.length_cons, List.length_nil, sstLoop, bind, Except.bind, pure, Except.pure]
      simp only [Nat.zero_add, sstLoop, decide_true, e1, bind, Except.bind, Except.map, pure, Except.pure]
      rfl
    | cons s' ss' =>
      obtain ⟨p1, e1, v1⟩ := sstString_ok tab s h1 h2 p _ false h3 (by rw [List.flatMap_cons]; exact items_header_ne s' _) hv
      have := ih (fun x hx => hl x (by simp at hx ⊢; exact .inr hx)) p1 v1
      rw [List.length_cons, sstLoop]
      have hlast : (decide ((s' :: ss').length = 0)) = false := by simp
      rw [hlast, e1]
      simp only [bind, Except.bind, this, pure, Except.pure]
      rfl

end Xlrd
