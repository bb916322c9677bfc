import Verif.Lemmas.OldHead

/-!
# Reading files of BIFF3 and BIFF4: the whole sheet
-/
set_option linter.unusedSimpArgs false
namespace Xlrd
open Spec

theorem dim_bytes (env : OpenEnv) {v : Nat} {x : DimRec} (hs : (x.bytes v).length < 65536) : (∃ a b, dimTuple v (x.bytes v) = .ok (a, b)) ∧ (x.bytes v).length ≠ 0 := by
  constructor
  · obtain ⟨s', ⟨a, b, _, h⟩, _⟩ := dim_step (env := readEnv env v newBook) 0 {} x hs
      (mem := encRecs [(0x200, x.bytes v)] ++ []) (p := 0) rfl
    exact ⟨a, b, h⟩
  · unfold DimRec.bytes
    split_ifs <;> simp [le16, le32]

theorem epilogue_textDec (env : OpenEnv) (v : Nat) (b : Book) : textDec env v (runEpilogue env b) = textDec env v b := by
  have h : (chooseEncoding (env.recEnv v) (runEpilogue env b)).encoding = (chooseEncoding (env.recEnv v) b).encoding := by
    unfold chooseEncoding
    by_cases ho : (env.recEnv v).override ≠ []
    · rw [if_pos ho, if_pos ho]
    · rw [if_neg ho, if_neg ho]
      show (match b.codepage with | none => _ | some cp => _ : Book).encoding = _
      cases b.codepage with
      | none => simp only; split_ifs <;> rfl
      | some cp => rfl
  funext x
  unfold textDec libDec
  rw [h]
  rfl

/-- The DIMENSION record. -/
theorem old_dim {env : OpenEnv} {v : Nat} {mem rest : Bytes} {o fin : OldSt} {x : DimRec} (hs : (x.bytes v).length < 65536) {p k : Nat} (hver : o.bv = v)
    (hm : mem.drop p = encRecs [(0x200, x.bytes v)] ++ rest) (h : oldLoop env v mem (k + 1) o (p : Int) = .ok fin) :
    ∃ s', applyDim (readEnv env v o.book) o.sheet (some x) s' ∧
      oldLoop env v mem k { o with sheet := s', book := if (v = 21 ∨ v = 30 ∨ v = 40) ∧ o.book.fmt.xfList ≠ [] ∧ o.book.xfDone = false then runEpilogue env o.book else o.book }
        ((p + (encRecs [(0x200, x.bytes v)]).length : Nat) : Int) = .ok fin := by
  obtain ⟨⟨a, b, h1⟩, h2⟩ := dim_bytes env hs
  have hm' : mem.drop p = encRec 0x200 (x.bytes v) ++ rest := by simpa [encRecs] using hm
  rw [oldLoop, getRecordParts_at (by decide) hs hm'] at h
  simp only [bind, Except.bind] at h
  rw [if_neg (by decide)] at h
  have hr : oldRecord env v mem o ((p + 4 + (x.bytes v).length : Nat) : Int) 0x200 (x.bytes v).length (x.bytes v) =
      (oldDimension env v o (x.bytes v).length (x.bytes v)).map fun o => (o, ((p + 4 + (x.bytes v).length : Nat) : Int)) := by
    unfold oldRecord
    rw [if_neg (by decide), if_neg (by decide), if_neg (by decide), if_neg (by decide), if_pos (by decide)]
    cases oldDimension env v o (x.bytes v).length (x.bytes v) <;> rfl
  rw [hr] at h
  refine ⟨_, ⟨a, b, rfl, h1⟩, ?_⟩
  have hd : oldDimension env v o (x.bytes v).length (x.bytes v) = .ok { o with
      sheet := { o.sheet with store := { o.sheet.store with nrows := 0, ncols := 0 }, dimnrows := a, dimncols := b }
      book := if (v = 21 ∨ v = 30 ∨ v = 40) ∧ o.book.fmt.xfList ≠ [] ∧ o.book.xfDone = false then runEpilogue env o.book else o.book } := by
    have hrd : recDimension (o.env env) o.sheet (x.bytes v).length (x.bytes v) =
        .ok { o.sheet with store := { o.sheet.store with nrows := 0, ncols := 0 }, dimnrows := a, dimncols := b } := by
      unfold recDimension
      rw [if_neg h2, show (o.env env).bv = v from hver, h1]
      rfl
    unfold oldDimension OldSt.onSheet
    rw [hrd]
    simp only [bind, Except.bind, pure, Except.pure]
    by_cases hc : (v = 21 ∨ v = 30 ∨ v = 40) ∧ o.book.fmt.xfList ≠ [] ∧ o.book.xfDone = false
    · rw [if_pos ⟨h2, hc⟩, if_pos hc]
    · rw [if_neg (fun h => hc h.2), if_neg hc]
  rw [hd] at h
  have hlen : ((p + 4 + (x.bytes v).length : Nat) : Int) = ((p + (encRecs [(0x200, x.bytes v)]).length : Nat) : Int) := by
    simp [encRecs, encRec_length]; ring
  rw [← hlen]
  exact h

theorem headSettings_mem {head : List OldItem} {y : SheetItem} : OldItem.sheet y ∈ head ↔ y ∈ headSettings head := by
  unfold headSettings
  rw [List.mem_filterMap]
  constructor
  · intro h; exact ⟨_, h, rfl⟩
  · rintro ⟨i, h, hi⟩
    cases i with
    | book c d => cases hi
    | sheet z => cases hi; exact h

theorem headSettings_records (v : Nat) (head : List OldItem) {q : Nat × Bytes} (h : q ∈ (headSettings head).flatMap (·.records v)) : q ∈ head.flatMap (·.records v) := by
  obtain ⟨y, hy, hq⟩ := List.mem_flatMap.mp h
  exact List.mem_flatMap.mpr ⟨.sheet y, headSettings_mem.mpr hy, hq⟩

theorem layout_ok {v : Nat} {dec : Bytes → R PyStr} {sst : List PyStr} {F : OldFile} (hF : F.Ok v dec sst) : F.layout.Ok v dec sst := by
  obtain ⟨_, h2, h3, _, h5⟩ := hF
  refine ⟨fun i hi => (h3 i hi).1, fun i hi => ?_, fun q hq => h5 q ?_⟩
  · have := h2 i hi
    cases i <;> first | rfl | cases this
  · simp only [Layout.records, OldFile.layout, Layout.dimRecords, List.mem_append] at hq
    simp only [OldFile.records, List.mem_append]
    rcases hq with ((hq | hq) | hq) | hq
    · exact .inl (.inl (.inl (headSettings_records v F.head hq)))
    · exact .inl (.inl (.inr hq))
    · exact .inl (.inr hq)
    · exact .inr hq

/-- Reading the records of a file of BIFF3, BIFF4 or of a sheet of BIFF4W: the records about the whole file make the book, and the sheet is what its other records say. -/
theorem old_file {env : OpenEnv} {v : Nat} (hv : v = 30 ∨ v = 40 ∨ v = 45) {F : OldFile} {b0 : Book} (hb0 : b0.xfDone = false) {dec : Bytes → R PyStr} {sst : List PyStr}
    (hF : F.Ok v dec sst)
    (hdec : ∀ b1, applyGlobals (env.recEnv v) b0 (F.book.map newItem) = .ok b1 → textDec env v b1 = dec ∧ b1.sst.map Prod.fst = sst)
    {pre rest : Bytes} {o : OldSt} (h : oldRead env v (pre ++ encRecs (F.records v) ++ rest) b0 (pre.length : Int) = .ok o) :
    ∃ b1 b2, applyGlobals (env.recEnv v) b0 (F.book.map newItem) = .ok b1 ∧ (b2 = b1 ∨ b2 = runEpilogue env b1) ∧
      (v = 30 ∨ v = 40 → b1.fmt.xfList ≠ [] → b2 = runEpilogue env b1) ∧ InText env v b2 o.book ∧ o.bv = v ∧
      sheetRead (readEnv env v b2) (encRecs (F.layout.records v)) 0 = .ok o.sheet := by
  have h8 : v < 80 := by omega
  have h30 : 30 ≤ v := by omega
  set mem := pre ++ encRecs (F.records v) ++ rest with hmem
  have h1 : mem.drop pre.length = encRecs (F.head.flatMap (·.records v)) ++ (encRecs [(0x200, F.dim.bytes v)] ++ (encRecs (F.body.flatMap (·.records v)) ++
      (encRecs [(0xa, F.eof)] ++ rest))) := by
    rw [hmem, List.append_assoc, List.drop_left]
    simp only [OldFile.records, encRecs_append, List.append_assoc]
  have h2 := drop_at h1 rfl
  have h3 := drop_at h2 rfl
  have h4 := drop_at h3 rfl
  have hL := layout_ok hF
  obtain ⟨c1, c2, c3, c4, c5⟩ := hF
  have hmemR : ∀ q, (q ∈ F.head.flatMap (·.records v) ∨ q = (0x200, F.dim.bytes v) ∨ q ∈ F.body.flatMap (·.records v) ∨ q = (0xa, F.eof)) → q.2.length < 65536 := by
    intro q hq
    apply c5
    simp only [OldFile.records, List.mem_append, List.mem_singleton]
    tauto
  -- fuel
  have hlen := congrArg List.length h1
  simp only [List.length_drop, List.length_append] at hlen
  have f1 := encRecs_length_ge (F.head.flatMap (·.records v))
  have f2 := encRecs_length_ge (F.body.flatMap (·.records v))
  have f3 := encRecs_length_ge [(0x200, F.dim.bytes v)]
  have g1 : F.head.length ≤ (F.head.flatMap (·.records v)).length := by
    have : ∀ l : List OldItem, (∀ y, OldItem.sheet y ∈ l → y.isSetting = true ∧ y.OldOk v dec sst) → l.length ≤ (l.flatMap (·.records v)).length := by
      intro l
      induction l with
      | nil => intro _; simp
      | cons i l ih =>
        intro hl
        have := ih fun y hy => hl y (List.mem_cons_of_mem _ hy)
        rw [List.flatMap_cons, List.length_append, List.length_cons]
        have : 1 ≤ (i.records v).length := by
          cases i with
          | book c d => simp [OldItem.records]
          | sheet y =>
            obtain ⟨c, d, hr, _⟩ := setting_record (hl y (by simp)).1 (hl y (by simp)).2
            show 1 ≤ (y.records v).length
            rw [hr]; simp
        omega
    exact this F.head fun y hy => ⟨c2 y (headSettings_mem.mp hy), c3 y (List.mem_append_left _ (headSettings_mem.mp hy))⟩
  have g2 := flatMap_records_length v F.body
  simp only [List.length_singleton] at f3
  obtain ⟨k, hk⟩ : ∃ k, mem.length + 1 = (k + 1 + (F.body.map itemLoops).sum + 1) + F.head.length :=
    ⟨mem.length - (F.body.map itemLoops).sum - 1 - F.head.length, by omega⟩
  unfold oldRead at h
  obtain ⟨fin, hl, hfin⟩ := bind_ok h
  rw [hk] at hl
  obtain ⟨b1, o1, styled, e1, e2, e3, e4, e5, e6⟩ := head_step hv (mem := mem) (dec := dec) (sst := sst) _ F.head pre.length { bv := v, book := b0 } b0 false rfl rfl hb0 c1
    (fun y hy => ⟨c2 y (headSettings_mem.mp hy), c3 y (List.mem_append_left _ (headSettings_mem.mp hy))⟩) (fun h => Bool.noConfusion h) c4
    (fun q hq => hmemR q (.inl hq)) h1 hl
  obtain ⟨s2, d1, d2⟩ := old_dim (hmemR _ (.inr (.inl rfl))) e3 h2 e6
  obtain ⟨b2, hb2⟩ : ∃ b2, b2 = (if (v = 21 ∨ v = 30 ∨ v = 40) ∧ o1.book.fmt.xfList ≠ [] ∧ o1.book.xfDone = false then runEpilogue env o1.book else o1.book) := ⟨_, rfl⟩
  rw [← hb2] at d2
  have hbb : (b2 = b1 ∨ b2 = runEpilogue env b1) ∧ (v = 30 ∨ v = 40 → b1.fmt.xfList ≠ [] → b2 = runEpilogue env b1) := by
    rw [e4] at hb2
    cases styled with
    | true =>
      rw [if_neg (by simp [headState, runEpilogue])] at hb2
      exact ⟨.inr hb2, fun _ _ => hb2⟩
    | false =>
      simp only [headState, Bool.false_eq_true, if_false] at hb2
      by_cases hc : (v = 21 ∨ v = 30 ∨ v = 40) ∧ b1.fmt.xfList ≠ [] ∧ b1.xfDone = false
      · rw [if_pos hc] at hb2
        exact ⟨.inr hb2, fun _ _ => hb2⟩
      · rw [if_neg hc] at hb2
        exact ⟨.inl hb2, fun a b => absurd ⟨.inr a, b, e2⟩ hc⟩
  obtain ⟨hd1, hd2⟩ := hdec b1 e1
  have hdec2 : textDec env v b2 = dec ∧ b2.sst.map Prod.fst = sst := by
    rcases hbb.1 with h | h
    · rw [h]; exact ⟨hd1, hd2⟩
    · rw [h, epilogue_textDec]; exact ⟨hd1, hd2⟩
  have hat : At env v b2 { o1 with sheet := s2, book := b2 } { o1 with sheet := s2, book := b2 } := ⟨e3, .inl rfl, rfl, rfl⟩
  obtain ⟨o3, i1, i2, i3⟩ := old_items h8 h30 F.body hat (fun x hx => by
    have := c3 x (List.mem_append_right _ hx)
    refine ⟨fits_old h30 this, ?_, fun q hq => hmemR q (.inr (.inr (.inl (List.mem_flatMap.mpr ⟨x, hx, hq⟩))))⟩
    rw [hdec2.1, hdec2.2]; exact this.1) h3 d2
  have hq' : mem.drop (pre.length + (encRecs (F.head.flatMap (·.records v))).length + (encRecs [(0x200, F.dim.bytes v)]).length +
      (encRecs (F.body.flatMap (·.records v))).length) = encRec 0xa F.eof ++ rest := by simpa [encRecs] using h4
  rw [oldLoop, getRecordParts_at (by decide) (hmemR (0xa, F.eof) (.inr (.inr (.inr rfl)))) hq'] at i3
  simp only [bind, Except.bind] at i3
  rw [if_pos (by decide)] at i3
  cases i3
  unfold OldSt.onSheet at hfin
  obtain ⟨s4, hf1, hf2⟩ := bind_ok hfin
  cases hf2
  refine ⟨b1, b2, e1, hbb.1, hbb.2, i2.book, i2.ver, ?_⟩
  have hL' : F.layout.Ok (readEnv env v b2).bv (readEnv env v b2).dec (readEnv env v b2).sst := by
    have : (readEnv env v b2).dec = dec ∧ (readEnv env v b2).sst = sst := hdec2
    rw [this.1, this.2]; exact hL
  have key := sheetRead_layout (readEnv env v b2) h30 F.layout hL' [] []
  rw [List.append_nil, List.nil_append] at key
  have e5' : applyItems (readEnv env v b2) {} F.layout.head = .ok o1.sheet := e5 b2
  rcases key with ⟨e, k1, _⟩ | ⟨t1, t2, k1, k2, k3⟩
  · rw [e5'] at k1; cases k1
  · rw [e5'] at k1
    cases k1
    have : t2 = s2 := by
      obtain ⟨a, b, r1, r2⟩ := k2
      obtain ⟨a', b', r1', r2'⟩ := d1
      have r2 : dimTuple v (F.dim.bytes v) = .ok (a, b) := r2
      have r2' : dimTuple v (F.dim.bytes v) = .ok (a', b') := r2'
      rw [r2] at r2'
      cases r2'
      rw [r1, r1']
    subst this
    have k3 : sheetRead (readEnv env v b2) (encRecs (F.layout.records v)) 0 = _ := k3
    rw [k3]
    have i1 : applyItems (readEnv env v b2) t2 F.layout.body = .ok fin.sheet := i1
    rw [i1]
    simp only [Except.bind]
    have hcfg : (fin.env env).cfg = (readEnv env v b2).cfg := by
      have := i2.book.env
      obtain ⟨d, hd⟩ : ∃ d, fin.env env = { readEnv env v b2 with dec := d } := ⟨_, by
        have := i2.book.env
        unfold OldSt.env
        rw [i2.ver]
        exact this⟩
      rw [hd]
    unfold sheetFinish at hf1 ⊢
    rw [← hcfg]
    exact hf1

end Xlrd
