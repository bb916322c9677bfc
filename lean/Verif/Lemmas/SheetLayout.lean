import Verif.Lemmas.SheetItems

/-!
# A whole worksheet
-/
set_option linter.unusedSimpArgs false
namespace Xlrd
open Spec

/-- What a list of items does to the sheet. -/
def applyItems (env : SheetEnv) (s : SheetSt) (items : List SheetItem) : R SheetSt := items.foldlM (applyItem env) s

theorem applyItems_cons (env : SheetEnv) (s : SheetSt) (x : SheetItem) (xs : List SheetItem) :
    applyItems env s (x :: xs) = (applyItem env s x).bind fun s => applyItems env s xs := by
  unfold applyItems; rw [List.foldlM_cons]; rfl

theorem items_step {β : Type} {env : SheetEnv} {mem : Bytes} {bad : List Nat} {loop : Nat → SheetSt → Int → R β} (hL : StepsLike env mem bad loop) (items : List SheetItem) :
    ∀ (p fuel : Nat) (s : SheetSt) (rest : Bytes), (∀ x ∈ items, FitsItem env.bv bad x ∧ x.Ok env.bv env.dec env.sst ∧ x.Short env.bv) →
      mem.drop p = encRecs (items.flatMap (·.records env.bv)) ++ rest →
      loop (fuel + (items.map itemLoops).sum) s (p : Int) =
        (applyItems env s items).bind fun s => loop fuel s ((p + (encRecs (items.flatMap (·.records env.bv))).length : Nat) : Int) := by
  induction items with
  | nil => intro p fuel s rest _ _; simp [applyItems, encRecs]; rfl
  | cons x xs ih =>
    intro p fuel s rest hx h
    rw [List.flatMap_cons, encRecs_append, List.append_assoc] at h
    have h1 := item_step hL (fuel + (xs.map itemLoops).sum) s x (hx x (by simp)).1 (hx x (by simp)).2.1 (hx x (by simp)).2.2 h
    have h2 := fun s => ih (p + (encRecs (x.records env.bv)).length) fuel s rest (fun y hy => hx y (by simp [hy])) (drop_at h rfl)
    rw [List.map_cons, List.sum_cons, show fuel + (itemLoops x + (xs.map itemLoops).sum) = fuel + (xs.map itemLoops).sum + itemLoops x by omega, h1, applyItems_cons]
    cases applyItem env s x with
    | error e => rfl
    | ok s1 =>
      simp only [Except.bind]
      rw [h2]
      simp only [List.flatMap_cons, encRecs_append, List.length_append, ← Nat.add_assoc]
      rfl

/-- What a DIMENSION record does to the sheet. -/
def applyDim (env : SheetEnv) (s : SheetSt) : Option DimRec → SheetSt → Prop
  | none, s' => s' = s
  | some x, s' => ∃ a b, s' = { s with store := { s.store with nrows := 0, ncols := 0 }, dimnrows := a, dimncols := b } ∧
      dimTuple env.bv (x.bytes env.bv) = .ok (a, b)

theorem dim_step (env : SheetEnv) {mem rest : Bytes} {p : Nat} (fuel : Nat) (s : SheetSt) (x : DimRec)
    (hs : (x.bytes env.bv).length < 65536) (h : mem.drop p = encRecs [(0x200, x.bytes env.bv)] ++ rest) :
    ∃ s', applyDim env s (some x) s' ∧ sheetLoop env mem (fuel + 1) s (p : Int) =
      sheetLoop env mem fuel s' ((p + (encRecs [(0x200, x.bytes env.bv)]).length : Nat) : Int) := by
  have h1 := plain_step (sheetLoop_follows env mem) fuel s (c := 0x200) (by decide) (by decide) (by decide) (by decide) (by decide) (by simp) hs h
  rw [show ∀ n d, plainRecord env s 0x200 n d = recDimension env s n d from fun _ _ => rfl] at h1
  have hd : ∃ a b, dimTuple env.bv (x.bytes env.bv) = .ok (a, b) ∧ (x.bytes env.bv).length ≠ 0 := by
    unfold dimTuple DimRec.bytes
    by_cases hv : 80 ≤ env.bv
    · rw [if_neg (by omega), if_pos hv]
      have hl : (le32 x.r1 ++ (le16 x.c0 ++ le16 x.c1)).length = 8 := rfl
      have : slice (le32 x.r0 ++ le32 x.r1 ++ le16 x.c0 ++ le16 x.c1 ++ x.junk) 4 12 = le32 x.r1 ++ (le16 x.c0 ++ le16 x.c1) := by
        have := slice_mid (a := le32 x.r0) (x := le32 x.r1 ++ (le16 x.c0 ++ le16 x.c1)) (y := x.junk) (i := 4) (j := 12) (m := 4) (n := 8) rfl rfl rfl hl
        simpa only [List.append_assoc] using this
      rw [this, unpackN_ok hl]
      exact ⟨_, _, rfl, by simp [le32, le16]⟩
    · rw [if_pos (by omega), if_neg hv]
      have hl : (le16 x.r1 ++ (le16 x.c0 ++ le16 x.c1)).length = 6 := rfl
      have : slice (le16 x.r0 ++ le16 x.r1 ++ le16 x.c0 ++ le16 x.c1 ++ x.junk) 2 8 = le16 x.r1 ++ (le16 x.c0 ++ le16 x.c1) := by
        have := slice_mid (a := le16 x.r0) (x := le16 x.r1 ++ (le16 x.c0 ++ le16 x.c1)) (y := x.junk) (i := 2) (j := 8) (m := 2) (n := 6) rfl rfl rfl hl
        simpa only [List.append_assoc] using this
      rw [this, unpackN_ok hl]
      exact ⟨_, _, rfl, by simp [le16]⟩
  obtain ⟨a, b, e1, e2⟩ := hd
  refine ⟨{ s with store := { s.store with nrows := 0, ncols := 0 }, dimnrows := a, dimncols := b }, ⟨a, b, rfl, e1⟩, ?_⟩
  rw [h1]
  unfold recDimension
  rw [if_neg e2, e1]
  rfl

theorem encRecs_length_ge (l : List (Nat × Bytes)) : 4 * l.length ≤ (encRecs l).length := by
  induction l with
  | nil => simp [encRecs]
  | cons q l ih => simp only [encRecs, List.flatMap_cons, List.length_append, encRec_length, List.length_cons] at ih ⊢; omega

theorem records_loops (bv : Nat) (x : SheetItem) : itemLoops x ≤ (x.records bv).length := by
  cases x with
  | cell y => cases y <;> simp [SheetItem.records, CellRec.records, itemLoops]
  | extra y =>
    cases y with
    | link y tip => cases tip <;> simp [SheetItem.records, ExtraRec.records, itemLoops, extraLoops]
    | box b => simp [SheetItem.records, ExtraRec.records, BoxRec.records, itemLoops, extraLoops]; omega
    | note n => cases n <;> simp [SheetItem.records, ExtraRec.records, NoteRec.records, itemLoops, extraLoops]
    | _ => simp [SheetItem.records, ExtraRec.records, itemLoops, extraLoops]
  | _ => simp [SheetItem.records, itemLoops]

theorem flatMap_records_length (bv : Nat) (items : List SheetItem) : (items.map itemLoops).sum ≤ (items.flatMap (·.records bv)).length := by
  induction items with
  | nil => simp
  | cons x xs ih => have := records_loops bv x; simp only [List.flatMap_cons, List.length_append, List.map_cons, List.sum_cons]; omega

/-- Reading a well formed worksheet: the items one after the other, then the epilogue. -/
theorem sheetRead_layout (env : SheetEnv) (h30 : 30 ≤ env.bv) (L : Layout) (hL : L.Ok env.bv env.dec env.sst) (pre rest : Bytes) :
    (∃ e, applyItems env {} L.head = .error e ∧ sheetRead env (pre ++ encRecs (L.records env.bv) ++ rest) (pre.length : Int) = .error e) ∨
    ∃ s1 s2, applyItems env {} L.head = .ok s1 ∧ applyDim env s1 L.dim s2 ∧
      sheetRead env (pre ++ encRecs (L.records env.bv) ++ rest) (pre.length : Int) =
        (applyItems env s2 L.body).bind fun s => sheetFinish env s := by
  obtain ⟨hi, hc, hs⟩ := hL
  set mem := pre ++ encRecs (L.records env.bv) ++ rest with hmem
  have hdrop : mem.drop pre.length = encRecs (L.records env.bv) ++ rest := by rw [hmem, List.append_assoc, List.drop_left]
  -- the four parts
  obtain ⟨dr, hdr⟩ : ∃ dr : List (Nat × Bytes), dr = L.dimRecords env.bv := ⟨_, rfl⟩
  have hrec : L.records env.bv = L.head.flatMap (·.records env.bv) ++ (dr ++ (L.body.flatMap (·.records env.bv) ++ [(0xa, L.eof)])) := by
    rw [hdr]; simp only [Layout.records, List.append_assoc]
  have hshort : ∀ x ∈ L.head ++ L.body, x.Short env.bv := by
    intro x hx q hq
    apply hs
    rw [hrec]
    simp only [List.mem_append, List.mem_flatMap]
    rcases List.mem_append.mp hx with h | h
    · exact .inl ⟨x, h, hq⟩
    · exact .inr (.inr (.inl ⟨x, h, hq⟩))
  have h1 : mem.drop pre.length = encRecs (L.head.flatMap (·.records env.bv)) ++ (encRecs dr ++ (encRecs (L.body.flatMap (·.records env.bv)) ++
      (encRecs [(0xa, L.eof)] ++ rest))) := by
    rw [hdrop, hrec]; simp only [encRecs_append, List.append_assoc]
  have h2 := drop_at h1 rfl
  have h3 := drop_at h2 rfl
  have h4 := drop_at h3 rfl
  -- fuel
  have hlen := congrArg List.length h1
  simp only [List.length_drop, List.length_append] at hlen
  have f1 := encRecs_length_ge (L.head.flatMap (·.records env.bv))
  have f2 := encRecs_length_ge (L.body.flatMap (·.records env.bv))
  have f3 := encRecs_length_ge dr
  have g1 := flatMap_records_length env.bv L.head
  have g2 := flatMap_records_length env.bv L.body
  have hdl : dr.length ≤ 1 := by rw [hdr, Layout.dimRecords]; cases L.dim <;> simp
  obtain ⟨k, hk⟩ : ∃ k, mem.length + 1 = (k + 1 + (L.body.map itemLoops).sum + dr.length) + (L.head.map itemLoops).sum :=
    ⟨mem.length - (L.body.map itemLoops).sum - dr.length - (L.head.map itemLoops).sum, by omega⟩
  have e1 := items_step (sheetLoop_follows env mem) L.head pre.length (k + 1 + (L.body.map itemLoops).sum + dr.length) {} _
    (fun x hx => ⟨fits_new h30 x, hi x (by simp [Layout.items, hx]), hshort x (by simp [hx])⟩) h1
  have eEof : ∀ s (q : Nat), mem.drop q = encRecs [(0xa, L.eof)] ++ rest → sheetLoop env mem (k + 1) s (q : Int) = .ok s := by
    intro s q hq
    have hq' : mem.drop q = encRec 0xa L.eof ++ rest := by simpa [encRecs] using hq
    rw [sheetLoop, getRecordParts_at (by decide) (hs (0xa, L.eof) (by simp [Layout.records])) hq']
    rfl
  have e3 := fun s => items_step (sheetLoop_follows env mem) L.body _ (k + 1) s _
    (fun x hx => ⟨fits_new h30 x, hi x (by simp [Layout.items, hx]), hshort x (by simp [hx])⟩) h3
  unfold sheetRead
  rw [hk, e1]
  cases ha : applyItems env {} L.head with
  | error e => exact .inl ⟨e, rfl, rfl⟩
  | ok s1 =>
    refine .inr ⟨s1, ?_⟩
    simp only [Except.bind]
    cases hd : L.dim with
    | none =>
      rw [Layout.dimRecords, hd] at hdr
      simp only at hdr
      subst hdr
      refine ⟨s1, trivial, rfl, ?_⟩
      have e3' := e3 s1
      simp only [encRecs, List.flatMap_nil, List.length_nil, Nat.add_zero] at e3' h4 ⊢
      rw [e3']
      cases applyItems env s1 L.body with
      | error e => rfl
      | ok s3 =>
        simp only [Except.bind]
        rw [eEof s3 _ h4]; rfl
    | some d =>
      rw [Layout.dimRecords, hd] at hdr
      simp only at hdr
      subst hdr
      obtain ⟨s2, hs2, e2⟩ := dim_step env (k + 1 + (L.body.map itemLoops).sum) s1 d
        (hs (0x200, d.bytes env.bv) (by rw [hrec]; simp)) h2
      refine ⟨s2, trivial, hs2, ?_⟩
      rw [List.length_singleton, e2, e3 s2]
      cases applyItems env s2 L.body with
      | error e => rfl
      | ok s3 =>
        simp only [Except.bind]
        rw [eEof s3 _ h4]; rfl

end Xlrd
