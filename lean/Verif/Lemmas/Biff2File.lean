import Verif.Lemmas.Biff2Body
import Verif.Lemmas.OldFormats
import Verif.Lemmas.Efont
import Verif.Props.SheetRead

/-!
# Reading files of BIFF2
-/
set_option linter.unusedSimpArgs false
namespace Xlrd
open Spec

/-! ## The records before the DIMENSION record -/

/-- What a record that has nothing to do with XFs does. -/
theorem free_step {E E' : SheetEnv} (h : E'.cfg.fmtInfo = E.cfg.fmtInfo) {it : B2Item} (hf : it.isFree = true) {dec : Bytes → R PyStr} (ho : it.Ok dec) (f f' : CellAttr → Nat)
    (g : Nat → Nat) (s : SheetSt) : stepB2 E' f' g s it = stepB2 E f g s it := by
  unfold stepB2
  rw [h]
  cases it with
  | ixfe x => rfl
  | colwidth a b w j => rfl
  | setting x => exact plain_apply h ho.1 s
  | _ => cases hf

theorem free_ok {it : B2Item} (hf : it.isFree = true) {dec dec' : Bytes → R PyStr} (ho : it.Ok dec) : it.Ok dec' := by
  cases it with
  | ixfe x => exact ho
  | colwidth a b w j => exact ho
  | setting x => exact ⟨ho.1, setting_ok (plain_setting ho.1) ho.2.1, ho.2.2⟩
  | _ => cases hf

/-- Whether there are XF records. -/
def hasXfs (b : Book) : Bool := !b.fmt.xfList.isEmpty

theorem hasXfs_true {b : Book} : hasXfs b = true ↔ b.fmt.xfList ≠ [] := by unfold hasXfs; cases b.fmt.xfList <;> simp
theorem hasXfs_false {b : Book} : hasXfs b = false ↔ b.fmt.xfList = [] := by unfold hasXfs; cases b.fmt.xfList <;> simp

theorem free_item {env : OpenEnv} {mem rest : Bytes} {o fin : OldSt} {it : B2Item} {p k : Nat} (hv : o.bv = 21) (ha : o.attrXf = fun _ => none) (hf : it.isFree = true) {dec : Bytes → R PyStr} (ho : it.Ok dec)
    (hs : ∀ q ∈ it.records, q.2.length < 65536) (hm : mem.drop p = encRecs it.records ++ rest) (h : oldLoop env 21 mem (k + 1) o (p : Int) = .ok fin) :
    ∃ s', (∀ (E : SheetEnv) f g, E.cfg.fmtInfo = env.fi → stepB2 E f g o.sheet it = .ok s') ∧
      oldLoop env 21 mem k { o with sheet := s', ixfe := nextIxfe o.ixfe it } ((p + (encRecs it.records).length : Nat) : Int) = .ok fin := by
  cases it with
  | ixfe x =>
    obtain ⟨o', h1, h2⟩ := sheet_item (by decide) (hs _ (List.mem_singleton.mpr rfl)) hm h
    have hx : x < 65536 := ho
    have h1 : (do let y ← unpackH (le16 x); pure { o with ixfe := some y } : R OldSt) = .ok o' := h1
    have hu : unpackH (le16 x) = .ok x := by
      unfold unpackH
      rw [unpackN_ok (by rfl)]
      simp [bind, Except.bind, pure, Except.pure, fld_le16 x hx]
    rw [hu] at h1
    cases h1
    exact ⟨o.sheet, fun E f g _ => rfl, h2⟩
  | colwidth first last w junk =>
    obtain ⟨o', h1, h2⟩ := sheet_item (by decide) (hs _ (List.mem_singleton.mpr rfl)) hm h
    have h1 : recColWidth env o ([first, last] ++ le16 w ++ junk) = .ok o' := h1
    have hfr : ∃ s, o' = { o with sheet := s } := by
      unfold recColWidth at h1
      cases hb : env.fi with
      | false => rw [hb] at h1; cases h1; exact ⟨_, rfl⟩
      | true =>
        rw [hb] at h1
        simp only [if_true] at h1
        obtain ⟨b, _, h1⟩ := bind_ok h1
        by_cases hc : fld b 0 1 ≤ fld b 1 1
        · rw [if_pos hc] at h1; cases h1; exact ⟨_, rfl⟩
        · rw [if_neg hc] at h1; cases h1; exact ⟨_, rfl⟩
    obtain ⟨s', rfl⟩ := hfr
    obtain ⟨f0, g0, hst⟩ : ∃ f g, stepB2 (o.env env) f g o.sheet (.colwidth first last w junk) = .ok s' := by
      have hi : B2Inv env (hasXfs o.book) (textDec env o.bv o.book) o :=
        ⟨rfl, .inl hv, fun h => ⟨hv, hasXfs_true.mp h⟩, fun h => ⟨fun _ => hasXfs_false.mp h, ⟨fun _ => ha, fun hh => absurd (hasXfs_false.mp h) hh,
          fun _ _ h => (by rw [ha] at h; cases h), fun _ _ _ h => (by rw [ha] at h; cases h), fun _ _ h => (by rw [ha] at h; cases h)⟩⟩⟩
      exact ⟨_, _, (colwidth_done hi ho h1).step⟩
    refine ⟨s', fun E f g hE => ?_, h2⟩
    have := free_step (E := o.env env) (E' := E) (show E.cfg.fmtInfo = env.fi from hE) (it := .colwidth first last w junk) rfl ho f0 f g o.sheet
    rw [this]
    exact hst
  | setting x =>
    obtain ⟨s', h1, h2⟩ := setting_item (.inl hv) ho.1 ho.2 hs hm h
    exact ⟨s', fun E f g hE => h1 E hE, h2⟩
  | _ => cases hf

def b2Book (l : List B2Head) : List GItem := l.filterMap fun i => match i with | .book c d => some (.one c d) | _ => none
def b2Items (l : List B2Head) : List B2Item := l.filterMap fun i => match i with | .item x => some x | _ => none

/-- The IXFE record in force after items. -/
def lastIxfe (i : Option Nat) (items : List B2Item) : Option Nat := items.foldl nextIxfe i

theorem efonts_tail {it : B2Head} {head : List B2Head} {cs : List (Option Nat)}
    (h : ∀ pre c post, it :: head = pre ++ .efont c :: post → c < 65536 ∧ (cs ≠ [] ∨ ∃ d, .book (fontCode 21) d ∈ pre)) :
    ∀ pre c post, head = pre ++ .efont c :: post → c < 65536 ∧ (addColour cs it ≠ [] ∨ ∃ d, .book (fontCode 21) d ∈ pre) := by
  intro pre c post e
  obtain ⟨e1, e2⟩ := h (it :: pre) c post (by rw [e]; rfl)
  refine ⟨e1, ?_⟩
  rcases e2 with e2 | ⟨d, hd⟩
  · exact .inl (addColour_ne e2 it)
  · rcases List.mem_cons.mp hd with rfl | hd
    · left; simp [addColour]
    · exact .inr ⟨d, hd⟩

theorem b2_head {env : OpenEnv} {mem rest : Bytes} {fin : OldSt} {dec : Bytes → R PyStr} (k : Nat) : ∀ (head : List B2Head) (p : Nat) (o : OldSt) (b : Book) (cs : List (Option Nat)),
    o.bv = 21 → o.attrXf = (fun _ => none) → PaintedBook env.fi cs b o.book → b.xfDone = false → (∀ c d, B2Head.book c d ∈ head → c ∈ bookCodes 21 ∧ c ≠ 0x293) →
    (∀ pre c post, head = pre ++ .efont c :: post → c < 65536 ∧ (cs ≠ [] ∨ ∃ d, .book (fontCode 21) d ∈ pre)) →
    (∀ x, B2Head.item x ∈ head → x.isFree = true ∧ x.Ok dec) → (∀ q ∈ head.flatMap B2Head.records, q.2.length < 65536) →
    mem.drop p = encRecs (head.flatMap B2Head.records) ++ rest → oldLoop env 21 mem (k + head.length) o (p : Int) = .ok fin →
    ∃ b1 b1' s1, applyGlobals (env.recEnv 21) b ((b2Book head).map newItem) = .ok b1 ∧ PaintedBook env.fi (head.foldl addColour cs) b1 b1' ∧ b1.xfDone = false ∧
      (∀ (E : SheetEnv) f, E.cfg.fmtInfo = env.fi → stepsB2 E f o.ixfe o.sheet (b2Items head) = .ok s1) ∧
      oldLoop env 21 mem k { o with sheet := s1, book := b1', ixfe := lastIxfe o.ixfe (b2Items head) } ((p + (encRecs (head.flatMap B2Head.records)).length : Nat) : Int) = .ok fin := by
  intro head
  induction head with
  | nil =>
    intro p o b cs h1 _ hp h2 _ _ _ _ _ h
    exact ⟨b, o.book, o.sheet, rfl, hp, h2, fun _ _ _ => rfl, h⟩
  | cons it head ih =>
    intro p o b cs h1 ha hp h2 hc hef hy hs hm h
    rw [List.flatMap_cons, encRecs_append, List.append_assoc] at hm
    have hm2 := drop_at hm rfl
    have hs2 : ∀ q ∈ head.flatMap B2Head.records, q.2.length < 65536 := fun q hq => hs q (by rw [List.flatMap_cons]; exact List.mem_append_right _ hq)
    have hc2 : ∀ c d, B2Head.book c d ∈ head → c ∈ bookCodes 21 ∧ c ≠ 0x293 := fun c d hm => hc c d (List.mem_cons_of_mem _ hm)
    have hy2 : ∀ x, B2Head.item x ∈ head → x.isFree = true ∧ x.Ok dec := fun y hm => hy y (List.mem_cons_of_mem _ hm)
    have hef2 := efonts_tail hef
    have hlen : ∀ n, p + n + (encRecs (head.flatMap B2Head.records)).length = p + (n + (encRecs (head.flatMap B2Head.records)).length) := by intro n; omega
    rw [List.length_cons, show k + (head.length + 1) = k + head.length + 1 by omega] at h
    cases it with
    | item x =>
      obtain ⟨s', e1, e2⟩ := free_item h1 ha (hy x (by simp)).1 (hy x (by simp)).2
        (fun q hq => hs q (by rw [List.flatMap_cons]; exact List.mem_append_left _ hq)) hm h
      obtain ⟨b1, b1', s1, g1, gp, g2, g3, g4⟩ := ih _ { o with sheet := s', ixfe := nextIxfe o.ixfe x } b cs h1 ha hp h2 hc2 hef2 hy2 hs2 hm2 e2
      refine ⟨b1, b1', s1, g1, gp, g2, fun E f hE => ?_, ?_⟩
      · show stepsB2 E f o.ixfe o.sheet (x :: b2Items head) = _
        rw [stepsB2, e1 E _ _ hE]
        exact g3 E f hE
      · rw [List.flatMap_cons, encRecs_append, List.length_append, ← hlen]
        exact g4
    | efont c =>
      obtain ⟨h16, hne⟩ := hef [] c head rfl
      have hcs : cs ≠ [] := by
        rcases hne with hne | ⟨d, hd⟩
        · exact hne
        · cases hd
      have hm' : mem.drop p = encRec 0x45 (le16 c) ++ (encRecs (head.flatMap B2Head.records) ++ rest) := by rw [hm]; simp [B2Head.records, encRecs]
      rw [oldLoop, getRecordParts_at (by decide) (by rw [le16_length]; omega) hm'] at h
      simp only [bind, Except.bind] at h
      rw [if_neg (show ¬ (0x45 : Nat) = XL_EOF by decide)] at h
      obtain ⟨b', e1, e2⟩ := hp.efont mem h1 ((p + 4 + (le16 c).length : Nat) : Int) (le16 c).length h16 hcs
      rw [e1] at h
      simp only at h
      have hpos : ((p + 4 + (le16 c).length : Nat) : Int) = ((p + (encRecs (B2Head.records (.efont c))).length : Nat) : Int) := by
        simp [B2Head.records, encRecs, encRec_length]; ring
      rw [hpos] at h
      obtain ⟨b1, b1', s1, g1, gp, g2, g3, g4⟩ := ih _ { o with book := b' } b _ h1 ha e2 h2 hc2 hef2 hy2 hs2 hm2 h
      refine ⟨b1, b1', s1, g1, gp, g2, g3, ?_⟩
      rw [List.flatMap_cons, encRecs_append, List.length_append, ← hlen]
      exact g4
    | book c d =>
      have hv : (21 : Nat) = 21 ∨ (21 : Nat) = 30 ∨ (21 : Nat) = 40 ∨ (21 : Nat) = 45 := .inl rfl
      obtain ⟨hcc, hn⟩ := hc c d (by simp)
      have hl : d.length < 65536 := hs (c, d) (by simp [B2Head.records])
      have hm' : mem.drop p = encRec c d ++ (encRecs (head.flatMap B2Head.records) ++ rest) := by rw [hm]; simp [B2Head.records, encRecs]
      obtain ⟨hlt, hne⟩ := bookCodes_lt hv hcc
      rw [oldLoop, getRecordParts_at hlt hl hm'] at h
      simp only [bind, Except.bind] at h
      rw [if_neg (show ¬ c = XL_EOF from hne)] at h
      obtain ⟨⟨o', q⟩, h4, h5⟩ := bind_ok h
      obtain ⟨rfl, b', rfl, h6⟩ := book_step hv h1 hcc h4
      rw [if_neg (fun h => hn h.1)] at h6
      obtain ⟨b2, h7, hp2⟩ : ∃ b2, globalsRecord (env.recEnv 21) b (newCode c) d = .ok b2 ∧ PaintedBook env.fi (addColour cs (.book c d)) b2 b' := by
        rcases hp.record hcc hn d with ⟨e, _, k2⟩ | ⟨b2, b2', k1, k2, k3⟩
        · rw [k2] at h6; cases h6
        · rw [k2] at h6; cases h6; exact ⟨b2, k1, k3⟩
      have hx : b2.xfDone = false := by
        rw [record_done ?_ h7]
        · exact h2
        · rcases newCode_cases hv hcc with ⟨_, n2⟩ | ⟨_, n2⟩ | ⟨_, _, n3, n4⟩
          · rw [n2]; decide
          · rw [n2]; decide
          · rw [n3]; exact List.mem_cons_of_mem _ (List.mem_cons_of_mem _ n4)
      have hpos : ((p + 4 + d.length : Nat) : Int) = ((p + (encRecs (B2Head.records (.book c d))).length : Nat) : Int) := by
        simp [B2Head.records, encRecs, encRec_length]; ring
      rw [hpos] at h5
      obtain ⟨b1, b1', s1, g1, gp, g2, g3, g4⟩ := ih _ { o with book := b' } b2 _ h1 ha hp2 hx hc2 hef2 hy2 hs2 hm2 h5
      refine ⟨b1, b1', s1, ?_, gp, g2, g3, ?_⟩
      · show applyGlobals _ _ (.one (newCode c) d :: (b2Book head).map newItem) = _
        simp only [applyGlobals, applyGItem]
        rw [h7]
        exact g1
      · rw [List.flatMap_cons, encRecs_append, List.length_append, ← hlen]
        exact g4

/-! ## The DIMENSION record -/

theorem b2_dim {env : OpenEnv} {mem rest : Bytes} {o fin : OldSt} {x : DimRec} (hs : (x.bytes 21).length < 65536) {p k : Nat} (hver : o.bv = 21)
    (hm : mem.drop p = encRecs [(0x0, x.bytes 21)] ++ rest) (h : oldLoop env 21 mem (k + 1) o (p : Int) = .ok fin) :
    ∃ a b, oldLoop env 21 mem k { o with
        sheet := { o.sheet with store := { o.sheet.store with nrows := 0, ncols := 0 }, dimnrows := a, dimncols := b }
        book := if o.book.fmt.xfList ≠ [] ∧ o.book.xfDone = false then runEpilogue env o.book else o.book }
      ((p + (encRecs [(0x0, x.bytes 21)]).length : Nat) : Int) = .ok fin := by
  obtain ⟨⟨a, b, h1⟩, h2⟩ := dim_bytes env hs
  have hm' : mem.drop p = encRec 0x0 (x.bytes 21) ++ rest := by simpa [encRecs] using hm
  rw [oldLoop, getRecordParts_at (by decide) hs hm'] at h
  simp only [bind, Except.bind] at h
  rw [if_neg (by decide)] at h
  have hr : oldRecord env 21 mem o ((p + 4 + (x.bytes 21).length : Nat) : Int) 0x0 (x.bytes 21).length (x.bytes 21) =
      (oldDimension env 21 o (x.bytes 21).length (x.bytes 21)).map fun o => (o, ((p + 4 + (x.bytes 21).length : Nat) : Int)) := by
    unfold oldRecord
    rw [if_neg (by decide), if_neg (by decide), if_neg (by decide), if_neg (by decide), if_pos (by decide)]
    cases oldDimension env 21 o (x.bytes 21).length (x.bytes 21) <;> rfl
  rw [hr] at h
  refine ⟨a, b, ?_⟩
  have hd : oldDimension env 21 o (x.bytes 21).length (x.bytes 21) = .ok { o with
      sheet := { o.sheet with store := { o.sheet.store with nrows := 0, ncols := 0 }, dimnrows := a, dimncols := b }
      book := if o.book.fmt.xfList ≠ [] ∧ o.book.xfDone = false then runEpilogue env o.book else o.book } := by
    have hrd : recDimension (o.env env) o.sheet (x.bytes 21).length (x.bytes 21) =
        .ok { o.sheet with store := { o.sheet.store with nrows := 0, ncols := 0 }, dimnrows := a, dimncols := b } := by
      unfold recDimension
      rw [if_neg h2, show (o.env env).bv = 21 from hver, h1]
      rfl
    unfold oldDimension OldSt.onSheet
    rw [hrd]
    simp only [bind, Except.bind, pure, Except.pure]
    by_cases hc : o.book.fmt.xfList ≠ [] ∧ o.book.xfDone = false
    · rw [if_pos ⟨h2, (by decide), hc⟩, if_pos hc]
    · rw [if_neg (fun h => hc h.2.2), if_neg hc]
  rw [hd] at h
  have hlen : ((p + 4 + (x.bytes 21).length : Nat) : Int) = ((p + (encRecs [(0x0, x.bytes 21)]).length : Nat) : Int) := by
    simp [encRecs, encRec_length]; ring
  rw [← hlen]
  exact h

/-! ## The whole file -/

theorem b2Items_mem {head : List B2Head} {y : B2Item} : B2Head.item y ∈ head ↔ y ∈ b2Items head := by
  unfold b2Items
  rw [List.mem_filterMap]
  constructor
  · intro h; exact ⟨_, h, rfl⟩
  · rintro ⟨i, h, hi⟩
    cases i with
    | book c d => cases hi
    | efont c => cases hi
    | item z => cases hi; exact h

theorem withIxfe_append (a b : List B2Item) : ∀ i, withIxfe i (a ++ b) = withIxfe i a ++ withIxfe (lastIxfe i a) b := by
  induction a with
  | nil => intro i; rfl
  | cons x a ih =>
    intro i
    rw [List.cons_append, withIxfe_cons, withIxfe_cons, ih, List.cons_append]
    rfl

theorem withIxfe_mem {q : Option Nat × B2Item} : ∀ {items : List B2Item} {i}, q ∈ withIxfe i items → q.2 ∈ items := by
  intro items
  induction items with
  | nil => intro i h; cases h
  | cons x items ih =>
    intro i h
    rw [withIxfe_cons] at h
    rcases List.mem_cons.mp h with rfl | h
    · exact List.mem_cons_self ..
    · exact List.mem_cons_of_mem _ (ih h)

/-- What reading the records of a file of BIFF2 comes to. -/
structure B2Read (env : OpenEnv) (dec : Bytes → R PyStr) (F : B2File) (b0 b1 : Book) (o : OldSt) : Prop where
  head : applyGlobals (env.recEnv 21) b0 (F.book.map newItem) = .ok b1
  inv : B2Inv env (hasXfs b1) dec o
  ext : ∃ l o2, o2.book = withFonts l (if hasXfs b1 then runEpilogue env b1 else b1) ∧ B2Ext env (hasXfs b1) o2 o ∧ (env.fi = true → Painted (fontColours F.head) b1.fmt.fontList l)
  steps : ∃ s1 a b s3, stepsB2 (o.env env) (xfOf (hasXfs b1) o) none {} F.headItems = .ok s1 ∧
    stepsB2 (o.env env) (xfOf (hasXfs b1) o) (lastIxfe none F.headItems) { s1 with store := { s1.store with nrows := 0, ncols := 0 }, dimnrows := a, dimncols := b } F.body = .ok s3 ∧
    sheetFinish (o.env env) s3 = .ok o.sheet
  known : ∀ q ∈ withIxfe none F.items, ∀ a ∈ q.2.attrs env.fi, B2Known (hasXfs b1) o q.1 a
  num : hasXfs b1 = false → Num (attrsB2 env.fi F.items) o
  rows : ∀ q ∈ withIxfe none F.items, ∀ y ∈ q.2.rowNumbers env.fi, hasXfs b1 = true ∧ (y = 63 → q.1 ≠ none)

theorem b2_fuel (items : List B2Item) : (∀ x ∈ items, x.records ≠ []) → items.length ≤ (items.flatMap B2Item.records).length := by
  induction items with
  | nil => intro _; simp
  | cons x items ih =>
    intro h
    have := ih fun y hy => h y (List.mem_cons_of_mem _ hy)
    have h1 := List.length_pos_iff.mpr (h x (List.mem_cons_self ..))
    rw [List.flatMap_cons, List.length_append, List.length_cons]
    omega

theorem b2_records_ne {dec : Bytes → R PyStr} {x : B2Item} (h : x.Ok dec) : x.records ≠ [] := by
  cases x with
  | setting y =>
    obtain ⟨c, d, hr, _⟩ := setting_record (plain_setting h.1) h.2
    show y.records 21 ≠ []
    rw [hr]; simp
  | _ => simp [B2Item.records]

theorem b2_file {env : OpenEnv} {F : B2File} {b0 : Book} (hb0 : b0.xfDone = false) (hf0 : b0.fmt.fontList = []) {dec : Bytes → R PyStr} (hF : F.Ok dec)
    (hdec : ∀ b1, applyGlobals (env.recEnv 21) b0 (F.book.map newItem) = .ok b1 → textDec env 21 b1 = dec)
    {pre rest : Bytes} {o : OldSt} (h : oldRead env 21 (pre ++ encRecs F.records ++ rest) b0 (pre.length : Int) = .ok o) : ∃ b1, B2Read env dec F b0 b1 o := by
  set mem := pre ++ encRecs F.records ++ rest with hmem
  have h1 : mem.drop pre.length = encRecs (F.head.flatMap B2Head.records) ++ (encRecs [(0x0, F.dim.bytes 21)] ++ (encRecs (F.body.flatMap B2Item.records) ++
      (encRecs [(0xa, F.eof)] ++ rest))) := by
    rw [hmem, List.append_assoc, List.drop_left]
    simp only [B2File.records, encRecs_append, List.append_assoc]
  have h2 := drop_at h1 rfl
  have h3 := drop_at h2 rfl
  have h4 := drop_at h3 rfl
  obtain ⟨c1, c1e, c2, c3, c5⟩ := hF
  have hmemR : ∀ q, (q ∈ F.head.flatMap B2Head.records ∨ q = (0x0, F.dim.bytes 21) ∨ q ∈ F.body.flatMap B2Item.records ∨ q = (0xa, F.eof)) → q.2.length < 65536 := by
    intro q hq
    apply c5
    simp only [B2File.records, List.mem_append, List.mem_singleton]
    tauto
  have hhead : ∀ x, B2Head.item x ∈ F.head → x.isFree = true ∧ x.Ok dec := fun x hx =>
    ⟨c2 x (b2Items_mem.mp hx), c3 x (List.mem_append_left _ (b2Items_mem.mp hx))⟩
  have hbody : ∀ x ∈ F.body, x.Ok dec := fun x hx => c3 x (List.mem_append_right _ hx)
  -- fuel
  have hlen := congrArg List.length h1
  simp only [List.length_drop, List.length_append] at hlen
  have f1 := encRecs_length_ge (F.head.flatMap B2Head.records)
  have f2 := encRecs_length_ge (F.body.flatMap B2Item.records)
  have f3 := encRecs_length_ge [(0x0, F.dim.bytes 21)]
  have g1 : F.head.length ≤ (F.head.flatMap B2Head.records).length := by
    have : ∀ l : List B2Head, (∀ x, B2Head.item x ∈ l → x.Ok dec) → l.length ≤ (l.flatMap B2Head.records).length := by
      intro l
      induction l with
      | nil => intro _; simp
      | cons i l ih =>
        intro hl
        have := ih fun y hy => hl y (List.mem_cons_of_mem _ hy)
        rw [List.flatMap_cons, List.length_append, List.length_cons]
        have : 1 ≤ (i.records).length := by
          cases i with
          | book c d => simp [B2Head.records]
          | efont c => simp [B2Head.records]
          | item y => exact List.length_pos_iff.mpr (b2_records_ne (hl y (by simp)))
        omega
    exact this F.head fun x hx => (hhead x hx).2
  have g2 := b2_fuel F.body fun x hx => b2_records_ne (hbody x hx)
  simp only [List.length_singleton] at f3
  obtain ⟨k, hk⟩ : ∃ k, mem.length + 1 = (k + 1 + F.body.length + 1) + F.head.length :=
    ⟨mem.length - F.body.length - 1 - F.head.length, by omega⟩
  unfold oldRead at h
  obtain ⟨fin, hl, hfin⟩ := bind_ok h
  rw [hk] at hl
  obtain ⟨b1, b1', s1, e1, ⟨l, rfl, ep1, ep2⟩, e2, e3, e4⟩ := b2_head _ F.head pre.length { bv := 21, book := b0 } b0 [] rfl rfl
    ⟨b0.fmt.fontList, rfl, fun _ => rfl, fun _ => by rw [hf0]; exact Painted.nil⟩ hb0 c1 (fun pre c post e => ⟨(c1e pre c post e).1, .inr (c1e pre c post e).2⟩) hhead
    (fun q hq => hmemR q (.inl hq)) h1 hl
  obtain ⟨a, b, d1⟩ := b2_dim (hmemR _ (.inr (.inl rfl))) rfl h2 e4
  have hbk : (if (withFonts l b1).fmt.xfList ≠ [] ∧ (withFonts l b1).xfDone = false then runEpilogue env (withFonts l b1) else withFonts l b1) =
      withFonts l (if hasXfs b1 then runEpilogue env b1 else b1) := by
    by_cases hx : b1.fmt.xfList = []
    · rw [if_neg (fun h => h.1 hx), hasXfs_false.mpr hx]; rfl
    · rw [if_pos ⟨hx, e2⟩, hasXfs_true.mpr hx]; rfl
  simp only [hbk] at d1
  have hi : B2Inv env (hasXfs b1) dec { ({ bv := 21, book := b0 } : OldSt) with
        sheet := { s1 with store := { s1.store with nrows := 0, ncols := 0 }, dimnrows := a, dimncols := b }
        book := withFonts l (if hasXfs b1 then runEpilogue env b1 else b1), ixfe := lastIxfe none (b2Items F.head) } := by
    refine ⟨?_, .inl rfl, fun hm => ⟨rfl, ?_⟩, fun hm => ⟨fun _ => ?_, ?_⟩⟩
    · show textDec env 21 (withFonts l (if hasXfs b1 then runEpilogue env b1 else b1)) = dec
      rw [textDec_fonts, ← hdec b1 e1]
      by_cases hx : hasXfs b1 = true
      · rw [if_pos hx, epilogue_textDec]
      · rw [if_neg hx]
    · show (if hasXfs b1 then runEpilogue env b1 else b1).fmt.xfList ≠ []
      rw [if_pos hm]
      have := hasXfs_true.mp hm
      show (xfEpilogue env.fi b1.fmt).xfList ≠ []
      rw [xfEpilogue_list]
      simpa using this
    · show (if hasXfs b1 then runEpilogue env b1 else b1).fmt.xfList = []
      rw [hm]; exact hasXfs_false.mp hm
    · have hx : (if hasXfs b1 then runEpilogue env b1 else b1).fmt.xfList = [] := by rw [hm]; exact hasXfs_false.mp hm
      exact ⟨fun _ => rfl, fun h => absurd hx h, fun _ _ h => (by cases h), fun _ _ _ h => (by cases h), fun _ _ h => (by cases h)⟩
  obtain ⟨o3, i1, i2, i3, i4, i6, i7, i5⟩ := b2_items F.body _ _ hi hbody (fun q hq => hmemR q (.inr (.inr (.inl hq)))) h3 d1
  have hq' : mem.drop (pre.length + (encRecs (F.head.flatMap B2Head.records)).length + (encRecs [(0x0, F.dim.bytes 21)]).length +
      (encRecs (F.body.flatMap B2Item.records)).length) = encRec 0xa F.eof ++ rest := by simpa [encRecs] using h4
  rw [oldLoop, getRecordParts_at (by decide) (hmemR (0xa, F.eof) (.inr (.inr (.inr rfl)))) hq'] at i5
  simp only [bind, Except.bind] at i5
  rw [if_pos (by decide)] at i5
  cases i5
  unfold OldSt.onSheet at hfin
  obtain ⟨s4, hf1, hf2⟩ := bind_ok hfin
  cases hf2
  refine ⟨b1, e1, i1.sheet s4 _, ⟨l, _, rfl, i2.sheet s4 _, ep2⟩, ⟨s1, a, b, _, e3 _ _ rfl, i3, hf1⟩, ?_, fun hm => ?_, ?_⟩
  intro q hq a ha
  rw [show F.items = b2Items F.head ++ F.body from rfl, withIxfe_append] at hq
  rcases List.mem_append.mp hq with hq | hq
  · have := (hhead q.2 (b2Items_mem.mpr (withIxfe_mem hq))).1
    obtain ⟨i, it⟩ := q
    cases it <;> first | (cases this; done) | (simp [B2Item.attrs] at ha)
  · exact i4 q hq a ha
  have hnil : attrsB2 env.fi F.headItems = [] := by
    unfold attrsB2
    rw [List.flatMap_eq_nil_iff]
    intro x hx
    have := c2 x hx
    cases x <;> first | (cases this; done) | rfl
  have h0 := i6 hm [] ⟨fun a => by simp [ownXfs], by simp [hm, show (withFonts l b1).fmt.xfList = [] from hasXfs_false.mp hm, ownXfs]⟩
  have : attrsB2 env.fi F.items = attrsB2 env.fi F.body := by
    show List.flatMap _ (F.headItems ++ F.body) = _
    rw [List.flatMap_append, show List.flatMap (fun x : B2Item => x.attrs env.fi) F.headItems = [] from hnil]
    rfl
  rw [this]
  exact h0.congr rfl rfl
  intro q hq y hy
  rw [show F.items = b2Items F.head ++ F.body from rfl, withIxfe_append] at hq
  rcases List.mem_append.mp hq with hq | hq
  · have := (hhead q.2 (b2Items_mem.mpr (withIxfe_mem hq))).1
    obtain ⟨i, it⟩ := q
    cases it <;> first | (cases this; done) | (simp [B2Item.rowNumbers] at hy)
  · exact i7 q hq y hy

end Xlrd
