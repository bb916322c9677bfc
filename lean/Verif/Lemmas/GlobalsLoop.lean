import Verif.Lemmas.Globals
import Verif.Lemmas.StringRec
import Verif.Props.Strings

/-!
# `parse_globals` goes through the items of the globals substream
-/
set_option linter.unusedSimpArgs false
namespace Xlrd
open Spec

theorem encRecs_cons (r : Nat × Bytes) (rs : List (Nat × Bytes)) : encRecs (r :: rs) = encRec r.1 r.2 ++ encRecs rs := by simp [encRecs]

theorem encItems_cons (it : GItem) (items : List GItem) (tl : Bytes) :
    encRecs ((it :: items).flatMap GItem.recs) ++ tl = encRecs it.recs ++ (encRecs (items.flatMap GItem.recs) ++ tl) := by
  simp [encRecs_append]

/-- The record after an SST item is not CONTINUE. -/
theorem next_record (bv : Nat) (items : List GItem) (h : GlobalsOk bv items) (c0 : Nat) (b0 r0 : Bytes) (hc0 : c0 < 65536)
    (hb0 : b0.length < 65536) (hn0 : c0 ≠ 0x3c) (hs : ∀ d rest, items ≠ .one 0x3c d :: rest) :
    ∃ c b r, encRecs (items.flatMap GItem.recs) ++ (encRec c0 b0 ++ r0) = encRec c b ++ r ∧ c < 65536 ∧ b.length < 65536 ∧ c ≠ 0x3c := by
  cases items with
  | nil => exact ⟨c0, b0, r0, by simp [encRecs], hc0, hb0, hn0⟩
  | cons it items =>
    have hz := h.sized it (List.mem_cons_self ..)
    rw [encItems_cons]
    cases it with
    | one c d =>
      have := hz (c, d) (by simp [GItem.recs])
      refine ⟨c, d, _, by rw [GItem.recs, encRecs_cons, List.append_assoc], this.1, this.2, ?_⟩
      rintro rfl
      exact hs d items rfl
    | sst d more =>
      have := hz (0xfc, d) (by simp [GItem.recs])
      exact ⟨0xfc, d, _, by rw [GItem.recs, encRecs_cons, List.append_assoc], this.1, this.2, by decide⟩
    | extern d more =>
      have := hz (0x17, d) (by simp [GItem.recs])
      exact ⟨0x17, d, _, by rw [GItem.recs, encRecs_cons, List.append_assoc], this.1, this.2, by decide⟩

theorem unpackN_err_or {n : Nat} {b : Bytes} : unpackN n b = .ok b ∨ unpackN n b = .error .struct := by
  unfold unpackN
  by_cases h : b.length = n
  · rw [if_pos h]; exact Or.inl rfl
  · rw [if_neg h]; exact Or.inr rfl

/-- Collecting the CONTINUE records of an EXTERNSHEET record. -/
theorem externContinue_at (mem : Bytes) (more : List Bytes) : ∀ (fuel p reqd : Nat) (data rest : Bytes),
    mem.drop p = encRecs (more.map fun m => (0x3c, m)) ++ rest → (∀ m ∈ more, m.length < 65536) → more.length < fuel →
    (∀ k, k < more.length → (data ++ (more.take k).flatten).length < reqd) → reqd ≤ (data ++ more.flatten).length →
    externContinue mem reqd fuel data (p : Int) =
      .ok (data ++ more.flatten, ((p + (encRecs (more.map fun m => (0x3c, m))).length : Nat) : Int)) := by
  induction more with
  | nil =>
    intro fuel p reqd data rest h hl hf _ hr
    obtain ⟨f, rfl⟩ : ∃ f, fuel = f + 1 := ⟨fuel - 1, by simp at hf; omega⟩
    simp only [List.flatten_nil, List.append_nil] at hr ⊢
    rw [externContinue, if_neg (by omega)]
    simp [encRecs]
  | cons m more ih =>
    intro fuel p reqd data rest h hl hf hk hr
    obtain ⟨f, rfl⟩ : ∃ f, fuel = f + 1 := ⟨fuel - 1, by simp at hf; omega⟩
    have h0 := hk 0 (by simp)
    simp only [List.take_zero, List.flatten_nil, List.append_nil] at h0
    rw [externContinue, if_pos h0]
    have hm := hl m (List.mem_cons_self ..)
    have h1 : mem.drop p = encRec 0x3c m ++ (encRecs (more.map fun m => (0x3c, m)) ++ rest) := by
      rw [h, List.map_cons, encRecs_cons, List.append_assoc]
    rw [getRecordParts_at (by decide) hm h1]
    simp only [bind, Except.bind]
    rw [if_neg (by simp [XL_CONTINUE])]
    have h2 := drop_at h1 (encRec_length 0x3c m)
    rw [show p + 4 + m.length = p + (4 + m.length) by omega]
    rw [ih f (p + (4 + m.length)) reqd (data ++ m) rest h2 (fun x hx => hl x (List.mem_cons_of_mem _ hx)) (by simp at hf; omega)
      (fun k hk' => by
        have := hk (k + 1) (by simp; omega)
        simpa [List.append_assoc] using this) (by simpa [List.append_assoc] using hr)]
    simp only [List.flatten_cons, List.append_assoc, List.map_cons, encRecs_cons, List.length_append, encRec_length]
    congr 3
    omega

theorem handleSst_at (mem : Bytes) (p : Nat) (d : Bytes) (more : List Bytes) (c : Nat) (cb r : Bytes)
    (h : mem.drop p = encRecs (more.map fun m => (0x3c, m)) ++ (encRec c cb ++ r)) (hm : ∀ m ∈ more, m.length < 65536)
    (hc : c < 65536) (hb : cb.length < 65536) (hc2 : c ≠ 0x3c) (b : Book) :
    globalsSst mem b d (p : Int) = (do
      let b ← (do
        let unique ← unpacki (slice d 4 8)
        let t ← unpackSstTable (d :: more) unique
        pure { b with sst := t } : R Book)
      pure (b, ((p + (encRecs (more.map fun m => (0x3c, m))).length : Nat) : Int))) := by
  have hlen : more.length ≤ mem.length := by
    have h1 := congrArg List.length h
    have h2 : more.length ≤ (encRecs (more.map fun m => (0x3c, m))).length := by
      clear h hm h1
      induction more with
      | nil => simp
      | cons m more ih => simp only [List.map_cons, encRecs_cons, List.length_append, encRec_length, List.length_cons]; omega
    simp only [List.length_drop, List.length_append] at h1
    omega
  have hcont := sstContinues_ok mem more hm c cb hc hc2 hb (mem.length + 1) p r (by omega) (by
    rw [h]
    rfl)
  unfold globalsSst handleSst
  rw [hcont]
  simp only [bind, Except.bind, pure, Except.pure]
  cases unpacki (slice d 4 8) with
  | error e => rfl
  | ok u =>
    simp only
    cases unpackSstTable (d :: more) u with
    | error e => rfl
    | ok t => rfl

theorem sizes {it : GItem} (hz : it.Sized) : ∀ d more, (it = .sst d more ∨ it = .extern d more) → d.length < 65536 ∧ ∀ m ∈ more, m.length < 65536 := by
  rintro d more (rfl | rfl)
  · exact ⟨(hz (0xfc, d) (by simp [GItem.recs])).2, fun m hm => (hz (0x3c, m) (by simp [GItem.recs, hm])).2⟩
  · exact ⟨(hz (0x17, d) (by simp [GItem.recs])).2, fun m hm => (hz (0x3c, m) (by simp [GItem.recs, hm])).2⟩

theorem handleExternsheet_at (env : BookEnv) (mem : Bytes) (p : Nat) (d : Bytes) (more : List Bytes) (rest : Bytes)
    (h : mem.drop p = encRecs (more.map fun m => (0x3c, m)) ++ rest) (hm : ∀ m ∈ more, m.length < 65536)
    (hx : ExternComplete env.bv d more) (b : Book) :
    handleExternsheet env mem b d (p : Int) = (do
      let b ← applyGItem env b (.extern d more)
      pure (b, ((p + (encRecs (more.map fun m => (0x3c, m))).length : Nat) : Int))) := by
  unfold handleExternsheet
  simp only [applyGItem, bind, Except.bind, pure, Except.pure]
  cases externBegin env b with
  | error e => rfl
  | ok b1 =>
    simp only
    unfold ExternComplete at hx
    by_cases h8 : env.bv ≥ 80
    · rw [if_pos h8] at hx ⊢
      rw [if_pos h8]
      obtain ⟨n, body, rfl, hn, hle, hmin⟩ := hx
      have hH : unpackH (slice (le16 n ++ body) 0 2) = .ok n := unpackH_at (p := 0) hn rfl
      rw [hH]
      simp only
      have hlen : more.length ≤ mem.length := by
        have h1 := congrArg List.length h
        have h2 : more.length ≤ (encRecs (more.map fun m => (0x3c, m))).length := by
          clear h hm h1 hle hmin
          induction more with
          | nil => simp
          | cons m more ih => simp only [List.map_cons, encRecs_cons, List.length_append, encRec_length, List.length_cons]; omega
        simp only [List.length_drop, List.length_append] at h1
        omega
      rw [externContinue_at mem more (mem.length + 1) p (n * 6 + 2) (le16 n ++ body) rest h hm (by omega)
        (fun k hk => by
          have := hmin k hk
          simp only [List.append_assoc, List.length_append, le16_length] at this ⊢
          omega)
        (by simp only [List.append_assoc, List.length_append, le16_length] at hle ⊢; omega)]
    · rw [if_neg h8] at hx ⊢
      rw [if_neg h8]
      subst hx
      simp [encRecs]

theorem stray_tail {it : GItem} {items : List GItem} (h : NoStrayContinue (it :: items)) : NoStrayContinue items := by
  cases it with
  | one c d => simpa [NoStrayContinue] using h
  | extern d more => simpa [NoStrayContinue] using h
  | sst d more =>
    cases items with
    | nil => trivial
    | cons x xs =>
      cases x with
      | sst d' m' => simpa [NoStrayContinue] using h
      | extern d' m' => simpa [NoStrayContinue] using h
      | one c d' =>
        by_cases hc : c = 0x3c
        · subst hc; simp [NoStrayContinue] at h
        · rw [NoStrayContinue] at h
          · exact h
          · intro _ _ _ _ _ h2
            simp_all

theorem globalsOk_tail {bv : Nat} {it : GItem} {items : List GItem} (h : GlobalsOk bv (it :: items)) : GlobalsOk bv items :=
  ⟨fun x hx => h.sized x (List.mem_cons_of_mem _ hx), fun x hx => h.plain x (List.mem_cons_of_mem _ hx), stray_tail h.stray⟩

/-- The loop over well-formed items applies them one after the other; another record follows. -/
theorem globalsLoop_prefix (env : BookEnv) (mem : Bytes) (c0 : Nat) (b0 r0 : Bytes) (hc0 : c0 < 65536) (hb0 : b0.length < 65536)
    (hn0 : c0 ≠ 0x3c) (items : List GItem) :
    GlobalsOk env.bv items → ∀ (k p : Nat) (b : Book),
    mem.drop p = encRecs (items.flatMap GItem.recs) ++ (encRec c0 b0 ++ r0) →
    globalsLoop env mem (items.length + k) b (p : Int) = (do
      let b ← applyGlobals env b items
      globalsLoop env mem k b ((p + (encRecs (items.flatMap GItem.recs)).length : Nat) : Int)) := by
  induction items with
  | nil =>
    intro _ k p b h
    simp [applyGlobals, encRecs, bind, Except.bind]
  | cons it items ih =>
    intro hok k p b h
    rw [show (it :: items).length + k = (items.length + k) + 1 by simp only [List.length_cons]; omega]
    have hz := hok.sized it (List.mem_cons_self ..)
    have hpl := hok.plain it (List.mem_cons_self ..)
    have hok' := globalsOk_tail hok
    have ih := ih hok' k
    rw [encItems_cons] at h
    have hL : (encRecs ((it :: items).flatMap GItem.recs)).length = (encRecs it.recs).length + (encRecs (items.flatMap GItem.recs)).length := by
      simp [encRecs_append]
    rw [hL, ← Nat.add_assoc p]
    have h3 := drop_at h rfl
    have step : globalsLoop env mem (items.length + k + 1) b (p : Int) = (do
        let b ← applyGItem env b it
        globalsLoop env mem (items.length + k) b ((p + (encRecs it.recs).length : Nat) : Int)) := by
      cases it with
      | one c d =>
        obtain ⟨n1, n2, n3, n4⟩ := hpl
        have hs := hz (c, d) (by simp [GItem.recs])
        have h1 : mem.drop p = encRec c d ++ (encRecs (items.flatMap GItem.recs) ++ (encRec c0 b0 ++ r0)) := by
          rw [h]; simp [GItem.recs, encRecs]
        rw [globalsLoop, getRecordParts_at hs.1 hs.2 h1]
        simp only [bind, Except.bind, applyGItem]
        rw [if_neg n4]
        unfold globalsStep
        rw [if_neg n1, if_neg n2, if_neg n3]
        simp only [bind, Except.bind, pure, Except.pure]
        cases globalsRecord env b c d with
        | error e => rfl
        | ok b1 =>
          simp only [GItem.recs, encRecs_cons, List.length_append, encRec_length]
          rw [show p + (4 + d.length + (encRecs []).length) = p + 4 + d.length by simp [encRecs]; omega]
      | sst d more =>
        have hs := sizes hz d more (Or.inl rfl)
        have h1 : mem.drop p = encRec 0xfc d ++ (encRecs (more.map fun m => (0x3c, m)) ++ (encRecs (items.flatMap GItem.recs) ++ (encRec c0 b0 ++ r0))) := by
          rw [h]; simp only [GItem.recs, encRecs_cons, List.append_assoc]
        rw [globalsLoop, getRecordParts_at (by decide) hs.1 h1]
        simp only [bind, Except.bind]
        rw [if_neg (by decide)]
        unfold globalsStep
        rw [if_pos (by rfl)]
        obtain ⟨c, cb, r, e1, e2, e3, e4⟩ := next_record env.bv items hok' c0 b0 r0 hc0 hb0 hn0 (by
          rintro d' rest rfl
          have := hok.stray
          simp [NoStrayContinue] at this)
        have h2 := drop_at h1 (encRec_length 0xfc d)
        rw [show p + 4 + d.length = p + (4 + d.length) by omega]
        rw [handleSst_at mem (p + (4 + d.length)) d more c cb r (by rw [h2, e1]) hs.2 e2 e3 e4 b]
        have hAG : (do
          let unique ← unpacki (slice d 4 8)
          let t ← unpackSstTable (d :: more) unique
          pure { b with sst := t } : R Book) = applyGItem env b (.sst d more) := rfl
        rw [hAG]
        simp only [bind, Except.bind]
        cases applyGItem env b (.sst d more) with
        | error e => rfl
        | ok b1 =>
          simp only [pure, Except.pure, GItem.recs, encRecs_cons, List.length_append, encRec_length]
          rw [Nat.add_assoc p]
      | extern d more =>
        have hs := sizes hz d more (Or.inr rfl)
        have h1 : mem.drop p = encRec 0x17 d ++ (encRecs (more.map fun m => (0x3c, m)) ++ (encRecs (items.flatMap GItem.recs) ++ (encRec c0 b0 ++ r0))) := by
          rw [h]; simp only [GItem.recs, encRecs_cons, List.append_assoc]
        rw [globalsLoop, getRecordParts_at (by decide) hs.1 h1]
        simp only [bind, Except.bind]
        rw [if_neg (by decide)]
        unfold globalsStep
        rw [if_neg (by decide), if_pos (by rfl)]
        have h2 := drop_at h1 (encRec_length 0x17 d)
        rw [show p + 4 + d.length = p + (4 + d.length) by omega]
        rw [handleExternsheet_at env mem (p + (4 + d.length)) d more _ h2 hs.2 hpl b]
        simp only [bind, Except.bind]
        cases applyGItem env b (.extern d more) with
        | error e => rfl
        | ok b1 =>
          simp only [pure, Except.pure, GItem.recs, encRecs_cons, List.length_append, encRec_length]
          rw [Nat.add_assoc p]
    rw [step]
    simp only [applyGlobals, bind, Except.bind]
    cases applyGItem env b it with
    | error e => rfl
    | ok b1 =>
      simp only
      rw [ih _ b1 h3]
      rfl

/-- The loop over a well-formed globals substream applies its items one after the other. -/
theorem globalsLoop_items (env : BookEnv) (mem post eof : Bytes) (he : eof.length < 65536) (items : List GItem)
    (hok : GlobalsOk env.bv items) (fuel p : Nat) (b : Book) (h : mem.drop p = encGlobals items eof ++ post) (hf : items.length < fuel) :
    globalsLoop env mem fuel b (p : Int) = (do
      let b ← applyGlobals env b items
      let b ← globalsEof env b
      pure (b, ((p + (encGlobals items eof).length : Nat) : Int))) := by
  obtain ⟨k, rfl⟩ : ∃ k, fuel = items.length + (k + 1) := ⟨fuel - items.length - 1, by omega⟩
  have h' : mem.drop p = encRecs (items.flatMap GItem.recs) ++ (encRec 0x0a eof ++ post) := by
    rw [h]; simp [encGlobals]
  rw [globalsLoop_prefix env mem 0x0a eof post (by decide) he (by decide) items hok (k + 1) p b h']
  simp only [bind, Except.bind]
  cases applyGlobals env b items with
  | error e => rfl
  | ok b1 =>
    have h1 := drop_at h' rfl
    simp only
    rw [globalsLoop, getRecordParts_at (by decide) he h1]
    simp only [bind, Except.bind]
    rw [if_pos trivial]
    cases globalsEof env b1 with
    | error e => rfl
    | ok b2 =>
      simp only [pure, Except.pure, encGlobals, List.length_append, encRec_length]
      congr 3
      omega

theorem items_le_bytes (items : List GItem) : items.length ≤ (encRecs (items.flatMap GItem.recs)).length := by
  induction items with
  | nil => simp
  | cons it items ih =>
    have : 1 ≤ (encRecs it.recs).length := by
      cases it <;> simp only [GItem.recs, encRecs_cons, List.length_append, encRec_length] <;> omega
    simp only [List.flatMap_cons, encRecs_append, List.length_append, List.length_cons]
    omega

/-- `parse_globals` on a well-formed substream. -/
theorem parseGlobals_items (env : BookEnv) (pre post eof : Bytes) (he : eof.length < 65536) (items : List GItem)
    (hok : GlobalsOk env.bv items) (b : Book) :
    parseGlobals env (pre ++ encGlobals items eof ++ post) b (pre.length : Int) = (do
      let f ← initialiseColourMap env.bv env.fi b.fmt
      let b ← applyGlobals env { b with fmt := f } items
      let b ← globalsEof env b
      pure (b, ((pre ++ encGlobals items eof).length : Int))) := by
  unfold parseGlobals
  simp only [bind, Except.bind]
  cases initialiseColourMap env.bv env.fi b.fmt with
  | error e => rfl
  | ok f =>
    simp only
    have := items_le_bytes items
    rw [globalsLoop_items env _ post eof he items hok _ pre.length _ (by simp) (by simp only [encGlobals, List.length_append]; omega)]
    simp only [List.length_append]
    rfl

/-- The books between two points of the record loop: items were applied, and SHEETHDR records were dealt with. -/
inductive GRun (env : BookEnv) (mem : Bytes) : Book → Book → Prop where
  | nil (b : Book) : GRun env mem b b
  | item {b b1 b2 : Book} (it : GItem) (h : applyGItem env b it = .ok b1)
      (hc : ∀ c d, it = GItem.one c d → c ≠ 0xfc ∧ c ≠ 0x17 ∧ c ≠ 0x8f ∧ c ≠ 0x0a) (t : GRun env mem b1 b2) : GRun env mem b b2
  | hdr {b b1 b2 : Book} (d : Bytes) (p p' : Int) (h : env.sheethdr mem b d p = .ok (b1, p')) (t : GRun env mem b1 b2) : GRun env mem b b2

/-- What items and SHEETHDR records preserve is preserved. -/
theorem GRun.inv {env : BookEnv} {mem : Bytes} (P : Book → Prop) (hi : ∀ b it b', P b → applyGItem env b it = .ok b' → P b')
    (hh : ∀ b d p b' p', P b → env.sheethdr mem b d p = .ok (b', p') → P b') {b b' : Book} (t : GRun env mem b b') (h : P b) : P b' := by
  induction t with
  | nil => exact h
  | item it h1 _ _ ih => exact ih (hi _ _ _ h h1)
  | hdr d p p' h1 _ ih => exact ih (hh _ _ _ _ _ h h1)

/-- The same for a property that lists of items preserve. -/
theorem GRun.lists {env : BookEnv} {mem : Bytes} (P : Book → Prop) (hi : ∀ b items b', P b → applyGlobals env b items = .ok b' → P b')
    (hh : ∀ b d p b' p', P b → env.sheethdr mem b d p = .ok (b', p') → P b') {b b' : Book} (t : GRun env mem b b') (h : P b) : P b' :=
  t.inv P (fun b it b' hb ha => hi b [it] b' hb (by simp only [applyGlobals, ha, bind, Except.bind])) hh h

/-- Without SHEETHDR records, a list of items was applied. -/
theorem GRun.items {env : BookEnv} {mem : Bytes} (hh : ∀ b d p b' p', env.sheethdr mem b d p = .ok (b', p') → ∃ s, b'.embedded = b.embedded ++ [s])
    {b b' : Book} (t : GRun env mem b b') (he : b'.embedded = []) :
    ∃ items, applyGlobals env b items = .ok b' ∧ ∀ c d, GItem.one c d ∈ items → c ≠ 0xfc ∧ c ≠ 0x17 ∧ c ≠ 0x8f ∧ c ≠ 0x0a := by
  have grow : ∀ {x y : Book}, GRun env mem x y → y.embedded = [] → x.embedded = [] := by
    intro x y t
    induction t with
    | nil => exact id
    | item it h1 _ _ ih => intro h; rw [← item_embedded h1]; exact ih h
    | hdr d p p' h1 _ ih =>
      intro h
      obtain ⟨s, hs⟩ := hh _ _ _ _ _ h1
      have := ih h
      rw [hs] at this
      simp at this
  induction t with
  | nil b => exact ⟨[], rfl, by simp⟩
  | item it h1 h2 t ih =>
    obtain ⟨items, i1, i2⟩ := ih he
    refine ⟨it :: items, by simp only [applyGlobals, h1, bind, Except.bind]; exact i1, ?_⟩
    intro c d hm
    rcases List.mem_cons.mp hm with hm | hm
    · exact h2 c d hm.symm
    · exact i2 c d hm
  | hdr d p p' h1 t ih =>
    obtain ⟨s, hs⟩ := hh _ _ _ _ _ h1
    have := grow t he
    rw [hs] at this
    simp at this

/-- Conversely, whatever the bytes are, a successful record loop has applied items and dealt with SHEETHDR records. -/
theorem globalsLoop_sound (env : BookEnv) (mem : Bytes) : ∀ (fuel : Nat) (b : Book) (pos : Int) (b' : Book) (pos' : Int),
    globalsLoop env mem fuel b pos = .ok (b', pos') → ∃ b1, GRun env mem b b1 ∧ globalsEof env b1 = .ok b' := by
  intro fuel
  induction fuel with
  | zero => intro b pos b' pos' h; cases h
  | succ f ih =>
    intro b pos b' pos' h
    rw [globalsLoop] at h
    obtain ⟨⟨⟨rc, l, data⟩, p1⟩, _, h⟩ := bind_ok h
    simp only at h
    by_cases hE : rc = XL_EOF
    · rw [if_pos hE] at h
      obtain ⟨b1, h1, h⟩ := bind_ok h
      cases h
      exact ⟨b, .nil b, h1⟩
    · rw [if_neg hE] at h
      obtain ⟨⟨b2, p2⟩, h1, h⟩ := bind_ok h
      simp only at h
      obtain ⟨b1, i1, i2⟩ := ih _ _ _ _ h
      have hitem : (∃ it, applyGItem env b it = .ok b2 ∧ ∀ c d, it = GItem.one c d → c ≠ 0xfc ∧ c ≠ 0x17 ∧ c ≠ 0x8f ∧ c ≠ 0x0a) ∨
          env.sheethdr mem b data p1 = .ok (b2, p2) := by
        unfold globalsStep at h1
        by_cases c1 : rc = XL_SST
        · rw [if_pos c1] at h1
          unfold globalsSst handleSst at h1
          obtain ⟨⟨t, p3⟩, h2, h1⟩ := bind_ok h1
          obtain ⟨u, h3, h2⟩ := bind_ok h2
          obtain ⟨⟨more, p4⟩, _, h2⟩ := bind_ok h2
          obtain ⟨t', h4, h2⟩ := bind_ok h2
          cases h2
          cases h1
          exact Or.inl ⟨.sst data more, by simp only [applyGItem, h3, h4, bind, Except.bind]; rfl, by simp⟩
        · rw [if_neg c1] at h1
          by_cases c2 : rc = XL_EXTERNSHEET
          · rw [if_pos c2] at h1
            unfold handleExternsheet at h1
            obtain ⟨b3, h2, h1⟩ := bind_ok h1
            by_cases h8 : env.bv ≥ 80
            · rw [if_pos h8] at h1
              obtain ⟨n, _, h1⟩ := bind_ok h1
              obtain ⟨⟨d2, p3⟩, h4, h1⟩ := bind_ok h1
              obtain ⟨b4, h5, h1⟩ := bind_ok h1
              cases h1
              have : ∀ (k : Nat) (x y : Bytes) (p q : Int), externContinue mem (n * 6 + 2) k x p = .ok (y, q) → ∃ more : List Bytes, y = x ++ more.flatten := by
                intro k
                induction k with
                | zero => intro x y p q hh; cases hh
                | succ k ihk =>
                  intro x y p q hh
                  rw [externContinue] at hh
                  by_cases hx : x.length < n * 6 + 2
                  · rw [if_pos hx] at hh
                    obtain ⟨⟨⟨c, l2, d3⟩, p4⟩, _, hh⟩ := bind_ok hh
                    simp only at hh
                    by_cases hc : c ≠ XL_CONTINUE
                    · rw [if_pos hc] at hh; cases hh
                    · rw [if_neg hc] at hh
                      obtain ⟨more, rfl⟩ := ihk _ _ _ _ hh
                      exact ⟨d3 :: more, by simp⟩
                  · rw [if_neg hx] at hh; cases hh
                    exact ⟨[], by simp⟩
              obtain ⟨more, rfl⟩ := this _ _ _ _ _ h4
              exact Or.inl ⟨.extern data more, by simp only [applyGItem, h2, bind, Except.bind]; rw [if_pos h8]; exact h5, by simp⟩
            · rw [if_neg h8] at h1
              obtain ⟨b4, h5, h1⟩ := bind_ok h1
              cases h1
              exact Or.inl ⟨.extern data [], by simp only [applyGItem, h2, bind, Except.bind]; rw [if_neg h8]; exact h5, by simp⟩
          · rw [if_neg c2] at h1
            by_cases c3 : rc = XL_SHEETHDR
            · rw [if_pos c3] at h1; exact Or.inr h1
            · rw [if_neg c3] at h1
              obtain ⟨b3, h2, h1⟩ := bind_ok h1
              cases h1
              refine Or.inl ⟨.one rc data, h2, ?_⟩
              intro c d hcd
              cases hcd
              exact ⟨c1, c2, c3, hE⟩
      rcases hitem with ⟨it, h2, h3⟩ | h2
      · exact ⟨b1, .item it h2 h3 i1, i2⟩
      · exact ⟨b1, .hdr data p1 p2 h2 i1, i2⟩

theorem parseGlobals_sound (env : BookEnv) (mem : Bytes) (b : Book) (pos : Int) (b' : Book) (pos' : Int)
    (h : parseGlobals env mem b pos = .ok (b', pos')) :
    ∃ f b1, initialiseColourMap env.bv env.fi b.fmt = .ok f ∧ GRun env mem { b with fmt := f } b1 ∧ globalsEof env b1 = .ok b' := by
  unfold parseGlobals at h
  obtain ⟨f, h1, h⟩ := bind_ok h
  obtain ⟨b1, h2, h3⟩ := globalsLoop_sound env mem _ _ _ _ _ h
  exact ⟨f, b1, h1, h2, h3⟩

end Xlrd
