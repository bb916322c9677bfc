import Verif.Spec.OpenW
import Verif.Lemmas.OldOpenOk
import Verif.Lemmas.Biff4w

/-!
# Reading BIFF4 workbooks succeeds
-/
set_option linter.unusedSimpArgs false
namespace Xlrd
open Spec

/-- What is known of the book after the records `pre`; `H` are all of them. -/
structure WOk (env : OpenEnv) (H pre : List GItem) (b : Book) : Prop where
  w : WInv (env.recEnv 45) pre b
  o : OpenInv (env.recEnv 45) (H.map newItem) (pre.map newItem) b
  nameless : b.nameObjs = []
  len : b.sheetVisibility.length = b.sheetNames.length
  off : Occurs 0x8e pre → b.sheetsoffset.isSome = true
  listed : ∃ ns, SheetNames4 (textAt (env.recEnv 45)) pre ns

theorem OpenInv.based {env : OpenEnv} {base : Int} {items pre : List GItem} {b : Book} (h : OpenInv (env.recEnv 45) items pre b) :
    OpenInv (env.bookEnv 45 base) items pre b :=
  ⟨⟨h.enc.enc, h.enc.page, h.enc.page', h.enc.unset, h.enc.set, h.enc.old⟩, h.raw, h.country, h.palette, h.style, h.sup, h.count, h.extNames⟩

theorem OpenInv.plain {env : OpenEnv} {base : Int} {items pre : List GItem} {b : Book} (h : OpenInv (env.bookEnv 45 base) items pre b) :
    OpenInv (env.recEnv 45) items pre b :=
  ⟨⟨h.enc.enc, h.enc.page, h.enc.page', h.enc.unset, h.enc.set, h.enc.old⟩, h.raw, h.country, h.palette, h.style, h.sup, h.count, h.extNames⟩

theorem OpenInv.skip {env : BookEnv} {items pre : List GItem} {b : Book} (hi : OpenInv env items pre b) {c : Nat} {d : Bytes} (hc : c ∉ [0x42, 0x1ae]) :
    OpenInv env items (pre ++ [.one c d]) b := by
  have hx : externsOf (pre ++ [.one c d]) = externsOf pre := by simp [externsOf]
  have hcp : codepageOf (.one c d) = none := by
    unfold codepageOf
    split
    · rename_i h; cases h; simp at hc
    · rfl
  refine ⟨hi.enc.skip hcp, hi.raw, ?_, ?_, ?_, ?_, by rw [hx]; exact hi.count, by rw [hx]; exact hi.extNames⟩
  · rcases hi.country with h | ⟨e, h1, h2⟩
    · exact Or.inl h
    · exact Or.inr ⟨e, List.mem_append_left _ h1, h2⟩
  · intro hf hn; exact hi.palette hf (fun h => hn (occurs_snoc.mpr (Or.inl h)))
  · intro hn; exact hi.style (fun h => hn (occurs_snoc.mpr (Or.inl h)))
  · intro hn
    rcases occurs_snoc.mp hn with h | ⟨e, h⟩
    · exact hi.sup h
    · cases h; simp at hc

/-- The encoding may change, and the formatting except the colours and styles. -/
theorem OpenInv.same {env : BookEnv} {items pre : List GItem} {b b' : Book} (hi : OpenInv env items pre b) (he : EncInv env pre b') (hr : RawOk env items b')
    (h1 : b'.countries = b.countries) (h2 : b'.fmt.paletteRecord = b.fmt.paletteRecord) (h3 : b'.fmt.colourMap = b.fmt.colourMap) (h4 : b'.fmt.styleMap = b.fmt.styleMap)
    (h5 : b'.supbookTypes = b.supbookTypes) (h6 : b'.extnshtCount = b.extnshtCount) (h7 : b'.extnshtNameFromNum = b.extnshtNameFromNum) : OpenInv env items pre b' := by
  refine ⟨he, hr, ?_, ?_, ?_, ?_, ?_, ?_⟩
  · rw [h1]; exact hi.country
  · rw [h2, h3]; exact hi.palette
  · rw [h4]; exact hi.style
  · rw [h5]; exact hi.sup
  · rw [h6]; exact hi.count
  · rw [h7]; exact hi.extNames

/-- The next state after an item of the globals. -/
theorem WOk.next {env : OpenEnv} {base : Int} {H pre : List GItem} {b b' : Book} {it : GItem} (h : WOk env H pre b) (hs : ∀ d more, it ≠ .sst d more)
    (ha : applyGItem (env.bookEnv 45 base) b it = .ok b') (ho : OpenInv (env.recEnv 45) (H.map newItem) ((pre ++ [it]).map newItem) b')
    (hl : ∃ ns, SheetNames4 (textAt (env.recEnv 45)) (pre ++ [it]) ns) : WOk env H (pre ++ [it]) b' := by
  have hw : WInv (env.recEnv 45) (pre ++ [it]) b' := h.w.items (base := base) [it] (by
    intro d m hm
    exact hs d m (List.mem_singleton.mp hm).symm) (by simp only [applyGlobals, ha, bind, Except.bind])
  have hocc : Occurs 0x8e (pre ++ [it]) → (∃ d, it = .one 0x8e d) ∨ Occurs 0x8e pre := fun hh => (occurs_snoc.mp hh).symm
  cases it with
  | sst d more => exact absurd rfl (hs d more)
  | extern d more =>
    obtain ⟨_, _, _, _, _, _, _, _, rfl⟩ := extern_frame ha
    refine ⟨hw, ho, h.nameless, h.len, fun hh => ?_, hl⟩
    rcases hocc hh with ⟨d, e⟩ | hh
    · cases e
    · exact h.off hh
  | one c d =>
    have hf := record_frame ha
    refine ⟨hw, ho, ?_, ?_, ?_, hl⟩
    · by_cases hc : c = 0x18
      · subst hc
        have : handleName (env.bookEnv 45 base) b d = .ok b' := ha
        unfold handleName at this
        rw [if_pos (show (env.bookEnv 45 base).bv < 50 from (by decide : 45 < 50))] at this
        cases this
        exact h.nameless
      · rw [hf.names hc]; exact h.nameless
    · by_cases hc : c = 0x85
      · subst hc
        have ha : handleBoundsheet _ b d = .ok b' := ha
        unfold handleBoundsheet at ha
        obtain ⟨b1, h1, ha⟩ := bind_ok ha
        obtain ⟨⟨p, v, t, name⟩, h2, ha⟩ := bind_ok ha
        cases ha
        obtain ⟨_, _, _, _, rfl⟩ := derive_frame h1
        unfold addSheet
        by_cases ht : t ≠ 0
        · rw [if_pos ht]; exact h.len
        · rw [if_neg ht]
          simp only [List.length_append, List.length_singleton]
          exact congrArg (· + 1) h.len
      · rw [hf.visibility hc, hf.sheetNames hc]; exact h.len
    · intro hh
      by_cases hc : c = 0x8e
      · subst hc
        have ha : handleSheetsoffset b d = .ok b' := ha
        unfold handleSheetsoffset at ha
        obtain ⟨n, h1, ha⟩ := bind_ok ha
        cases ha
        rfl
      · rw [hf.offset hc]
        rcases hocc hh with ⟨d', e⟩ | hh
        · cases e; exact absurd rfl hc
        · exact h.off hh

theorem usable_new {env : OpenEnv} {H : List GItem} (hu : ∀ q, q <+: H → CodecUsable 45 env.override env.codec (lastCodepage q)) :
    ∀ q, q <+: H.map newItem → CodecUsable 45 env.override env.codec (lastCodepage q) := by
  intro q hq
  have : q = (H.take q.length).map newItem := by
    rw [List.map_take]; exact List.prefix_iff_eq_take.mp hq
  rw [this, lastCodepage_new]
  exact hu _ (List.take_prefix _ _)

/-- An item of the globals is read. -/
theorem w_item_ok {env : OpenEnv} {base : Int} {H pre : List GItem} {b : Book} {it : GItem} (hq : pre ++ [it] <+: H)
    (hu : ∀ q, q <+: H → CodecUsable 45 env.override env.codec (lastCodepage q)) (hs : ∀ d more, it ≠ .sst d more) (hi : WOk env H pre b)
    (hr : WReadable (textAt (env.recEnv 45)) H pre it) : ∃ b', applyGItem (env.bookEnv 45 base) b it = .ok b' ∧ WOk env H (pre ++ [it]) b' := by
  have hq' : pre.map newItem ++ [newItem it] <+: H.map newItem := by
    have := hq.map newItem
    simpa using this
  have hp' : pre.map newItem <+: H.map newItem := (List.prefix_append _ [newItem it]).trans hq'
  have hu' := usable_new hu
  obtain ⟨ns, hns⟩ := hi.listed
  have hl : ∃ ns, SheetNames4 (textAt (env.recEnv 45)) (pre ++ [it]) ns := by
    cases hr with
    | boundsheet name txt tail h ho => exact ⟨_, .take hns rfl ⟨txt, tail, h, rfl⟩⟩
    | format d s h => exact ⟨ns, .skip hns (by rintro c d ⟨⟩; decide)⟩
    | name d => exact ⟨ns, .skip hns (by rintro c d ⟨⟩; decide)⟩
    | other it hc h => exact ⟨ns, .skip hns (fun c d e => by rintro rfl; exact (hc d).2.1 e)⟩
  have fin : newItem it = it → (∃ b', applyGItem (env.bookEnv 45 base) b it = .ok b' ∧ OpenInv (env.bookEnv 45 base) (H.map newItem) (pre.map newItem ++ [it]) b') →
      ∃ b', applyGItem (env.bookEnv 45 base) b it = .ok b' ∧ WOk env H (pre ++ [it]) b' := by
    rintro he ⟨b', h1, h2⟩
    refine ⟨b', h1, hi.next hs h1 ?_ hl⟩
    rw [List.map_append, List.map_singleton, he]
    exact h2.plain
  have one : ∀ {c d b'}, it = .one c d → applyGItem (env.bookEnv 45 base) b (.one c d) = .ok b' → RawOk (env.bookEnv 45 base) (H.map newItem) b' → newItem it = it →
      ∃ b', applyGItem (env.bookEnv 45 base) b it = .ok b' ∧ WOk env H (pre ++ [it]) b' := by
    rintro c d b' rfl h1 h2 he
    exact fin he ⟨b', h1, one_inv hi.o.based h1 h2⟩
  cases hr with
  | boundsheet name txt tail h ho =>
    obtain ⟨b1, h1, h2⟩ := derive_ok (env := env.bookEnv 45 base) hp' (hu' _ hp') hi.o.based.enc hi.o.based.raw
    have i2 := (derive_inv hi.o.based.enc h1).2 (.inl (by decide : 45 < 80))
    obtain ⟨_, _, _, _, hb1⟩ := derive_frame h1
    have hdec : Book.dec (env.bookEnv 45 base) b1 = textAt (env.recEnv 45) pre := by
      rw [dec_eq i2, lastCodepage_new]; rfl
    have h3 := (textField_read (dec := textAt (env.recEnv 45) pre) (dec' := Book.dec (env.bookEnv 45 base) b1) (data := txt ++ tail) (p := 0) (r := tail) (.inl rfl) (fun _ => hdec) h
      (by rfl)).1 (by decide)
    rw [Nat.cast_zero] at h3
    have hoff : ∃ x, b1.sheetsoffset = some x := by
      rw [hb1]; exact Option.isSome_iff_exists.mp (hi.off ho)
    obtain ⟨x, hoff⟩ := hoff
    have h4 : ∃ p, boundsheetFields (env.bookEnv 45 base) b1 (txt ++ tail) = .ok (p, 0, 0, name) := by
      unfold boundsheetFields
      rw [if_pos (show (env.bookEnv 45 base).bv = 45 from rfl)]
      simp only [h3, bind, Except.bind]
      by_cases hz : b1.shAbsPosn.length = 0
      · rw [if_pos hz, hoff]; exact ⟨_, rfl⟩
      · rw [if_neg hz]; exact ⟨_, rfl⟩
    obtain ⟨p, h4⟩ := h4
    refine one (c := 0x85) (d := txt ++ tail) (b' := addSheet b1 p 0 0 name) rfl ?_ ?_ rfl
    · have e : applyGItem (env.bookEnv 45 base) b (.one 0x85 (txt ++ tail)) = handleBoundsheet (env.bookEnv 45 base) b (txt ++ tail) := rfl
      rw [e]
      unfold handleBoundsheet
      simp only [h1, h4, bind, Except.bind]
      rfl
    · intro data hd
      have : (addSheet b1 p 0 0 name).rawUser = b1.rawUser := rfl
      rw [this, h2] at hd
      cases hd
  | format d s h =>
    have hr2 : OldReadable (env.bookEnv 45 base).bv (textAt (env.bookEnv 45 base)) H pre (.one (formatCode 45) d) := .format d s h
    obtain ⟨b', h1, h2⟩ := old_item_ok (env := env.bookEnv 45 base) (.inr (.inr (.inr rfl))) (items := H) (pre := pre) hq hu hi.o.based hr2
    exact ⟨b', h1, hi.next hs h1 h2.plain hl⟩
  | name d =>
    refine one (c := 0x18) (d := d) (b' := b) rfl ?_ hi.o.based.raw rfl
    have e : applyGItem (env.bookEnv 45 base) b (.one 0x18 d) = handleName (env.bookEnv 45 base) b d := rfl
    rw [e]
    unfold handleName
    rw [if_pos (show (env.bookEnv 45 base).bv < 50 from (by decide : 45 < 50))]
  | other it hc h =>
    by_cases he : newItem it = it
    · rw [he] at hq'
      exact fin he (gitem_step (env := env.bookEnv 45 base) (.inr hc) hq' hu' hi.o.based (readable_new (env := env.bookEnv 45 base) h))
    · cases it with
      | sst d more => exact absurd rfl he
      | extern d more => exact absurd rfl he
      | one c d =>
        have hcc : c = 0x43 ∨ c = 0x243 ∨ c = 0x443 ∨ c = 0x1e := by
          by_contra hx
          apply he
          show GItem.one (newCode c) d = _
          unfold newCode
          rw [if_neg (by omega), if_neg (by omega)]
        have h1 : applyGItem (env.bookEnv 45 base) b (.one c d) = .ok b := by rcases hcc with rfl | rfl | rfl | rfl <;> rfl
        refine ⟨b, h1, hi.next hs h1 ?_ hl⟩
        rw [List.map_append]
        refine hi.o.skip (c := newCode c) ?_
        rcases hcc with rfl | rfl | rfl | rfl <;> decide

/-- The items of the globals before a sheet are read. -/
theorem w_items_ok {env : OpenEnv} {base : Int} {H : List GItem} (hu : ∀ q, q <+: H → CodecUsable 45 env.override env.codec (lastCodepage q)) :
    ∀ (items pre : List GItem) (b : Book), pre ++ items <+: H → NoSst items → (∀ p it q, items = p ++ it :: q → WReadable (textAt (env.recEnv 45)) H (pre ++ p) it) →
      WOk env H pre b → ∃ b', applyGlobals (env.bookEnv 45 base) b items = .ok b' ∧ WOk env H (pre ++ items) b' := by
  intro items
  induction items with
  | nil => intro pre b _ _ _ hi; exact ⟨b, rfl, by simpa using hi⟩
  | cons it items ih =>
    intro pre b hq hs hr hi
    have hq1 : pre ++ [it] <+: H := List.IsPrefix.trans ⟨items, by simp⟩ hq
    obtain ⟨b1, h1, h2⟩ := w_item_ok (base := base) hq1 hu (fun d m e => hs d m (by rw [e]; simp)) hi (by simpa using hr [] it items rfl)
    obtain ⟨b2, h3, h4⟩ := ih (pre ++ [it]) b1 (by simpa using hq) (fun d m hm => hs d m (List.mem_cons_of_mem _ hm))
      (fun p it' q e => by simpa using hr (it :: p) it' q (by rw [e]; rfl)) h2
    exact ⟨b2, by simp only [applyGlobals, h1, bind, Except.bind, h3], by simpa using h4⟩

/-- The records about the whole file in a sheet are read. -/
theorem w_sheet_items_ok {env : OpenEnv} {H : List GItem} (hu : ∀ q, q <+: H → CodecUsable 45 env.override env.codec (lastCodepage q)) :
    ∀ (items pre : List GItem) (b : Book), pre ++ items <+: H → (∀ p it q, items = p ++ it :: q → OldReadable 45 (textAt (env.recEnv 45)) H (pre ++ p) it) →
      OpenInv (env.recEnv 45) (H.map newItem) (pre.map newItem) b →
      ∃ b', applyGlobals (env.recEnv 45) b (items.map newItem) = .ok b' ∧ OpenInv (env.recEnv 45) (H.map newItem) ((pre ++ items).map newItem) b' := by
  intro items
  induction items with
  | nil => intro pre b _ _ hi; exact ⟨b, rfl, by simpa using hi⟩
  | cons it items ih =>
    intro pre b hq hr hi
    have hq1 : pre ++ [it] <+: H := List.IsPrefix.trans ⟨items, by simp⟩ hq
    obtain ⟨b1, h1, h2⟩ := old_item_ok (env := env.recEnv 45) (.inr (.inr (.inr rfl))) (items := H) hq1 hu hi (show OldReadable 45 (textAt (env.recEnv 45)) H pre it by simpa using hr [] it items rfl)
    obtain ⟨b2, h3, h4⟩ := ih (pre ++ [it]) b1 (by simpa using hq) (fun p it' q e => by simpa using hr (it :: p) it' q (by rw [e]; rfl)) h2
    exact ⟨b2, by simp only [List.map_cons, applyGlobals, h1, bind, Except.bind, h3], by simpa using h4⟩

theorem listed_names {dec : List GItem → Bytes → R PyStr} {ns : List PyStr} : ∀ {items pre : List GItem}, BookItems 45 items → SheetNames4 dec pre ns → SheetNames4 dec (pre ++ items) ns := by
  intro items
  induction items with
  | nil => intro pre _ h; simpa using h
  | cons it items ih =>
    intro pre hi h
    obtain ⟨c, d, rfl, hc⟩ := hi it (List.mem_cons_self ..)
    have := ih (pre := pre ++ [.one c d]) (fun i hm => hi i (List.mem_cons_of_mem _ hm)) (.skip h (by
      rintro c' d' e rfl
      cases e
      revert hc
      decide))
    simpa using this

theorem listed_book {dec : List GItem → Bytes → R PyStr} {items pre : List GItem} (hi : BookItems 45 items) (h : ∃ ns, SheetNames4 dec pre ns) : ∃ ns, SheetNames4 dec (pre ++ items) ns :=
  h.elim fun ns h => ⟨ns, listed_names hi h⟩

theorem OpenInv.initialised {env : BookEnv} {items pre : List GItem} {b : Book} (hi : OpenInv env items pre b) : OpenInv env items pre (initialiseFormatInfo b) :=
  hi.same (hi.enc.congr rfl rfl) (raw_of hi.raw (.inr rfl)) rfl rfl rfl rfl rfl rfl rfl

theorem OpenInv.epilogued {env : BookEnv} {env' : OpenEnv} {items pre : List GItem} {b : Book} (hi : OpenInv env items pre b) : OpenInv env items pre (runEpilogue env' b) :=
  hi.same (hi.enc.congr rfl rfl) (raw_of hi.raw (.inr rfl)) rfl rfl rfl rfl rfl rfl rfl

theorem OpenInv.derived {env : BookEnv} {items pre : List GItem} {b b' : Book} (hq : pre <+: items) (hu : CodecUsable env.bv env.override env.codec (lastCodepage pre))
    (hi : OpenInv env items pre b) (h : deriveEncoding env b = .ok b') : OpenInv env items pre b' := by
  obtain ⟨b2, h1, h2⟩ := derive_ok hq hu hi.enc hi.raw
  rw [h] at h1; cases h1
  have he := (derive_inv hi.enc h).1
  obtain ⟨e, c, u, r, rfl⟩ := derive_frame h
  exact hi.same he (raw_of hi.raw (.inl h2)) rfl rfl rfl rfl rfl rfl rfl

theorem OpenInv.ensured {env : BookEnv} {items pre : List GItem} {b b' : Book} (hq : pre <+: items) (hu : CodecUsable env.bv env.override env.codec (lastCodepage pre))
    (hi : OpenInv env items pre b) (h : ensureEncoding env b = .ok b') : OpenInv env items pre b' := by
  obtain ⟨b2, h1, h2⟩ := ensure_ok hq hu hi.enc hi.raw
  rw [h] at h1; cases h1
  have he := (ensure_inv hi.enc h).1
  obtain ⟨e, c, u, r, rfl⟩ := ensure_frame h
  exact hi.same he (raw_of hi.raw h2) rfl rfl rfl rfl rfl rfl rfl

theorem initialised_known (b : Book) : KnownInv 0 (initialiseFormatInfo b).fmt := by
  refine ⟨rfl, fun i x hx => (by cases hx), fun k => ?_⟩
  show ((if k = 0 then some XL_CELL_NUMBER else none : Option Nat)).isSome = true ↔ _
  by_cases hk : k = 0 <;> simp [hk]

/-- The names and other things that records of a sheet do not change. -/
theorem sheet_items_kept {env : BookEnv} {items : List GItem} (hv : env.bv = 45) (hi : BookItems 45 items) : ∀ {b b' : Book}, applyGlobals env b (items.map newItem) = .ok b' →
    b'.nameObjs = b.nameObjs ∧ b'.sheetVisibility = b.sheetVisibility ∧ b'.sheetNames = b.sheetNames ∧ b'.sheetsoffset = b.sheetsoffset := by
  induction items with
  | nil => intro b b' h; cases h; exact ⟨rfl, rfl, rfl, rfl⟩
  | cons it items ih =>
    intro b b' h
    obtain ⟨b1, h1, h2⟩ := bind_ok h
    obtain ⟨c, d, rfl, hc⟩ := hi it (List.mem_cons_self ..)
    have hf := record_frame (show globalsRecord env b (newCode c) d = .ok b1 from h1)
    obtain ⟨k1, k2, k3, k4⟩ := ih (fun i hm => hi i (List.mem_cons_of_mem _ hm)) h2
    have hn : newCode c ≠ 0x18 ∧ newCode c ≠ 0x85 ∧ newCode c ≠ 0x8e := by
      have : ∀ c ∈ bookCodes 45, newCode c ≠ 0x18 ∧ newCode c ≠ 0x85 ∧ newCode c ≠ 0x8e := by decide
      exact this c hc
    exact ⟨k1.trans (hf.names hn.1), k2.trans (hf.visibility hn.2.1), k3.trans (hf.sheetNames hn.2.1), k4.trans (hf.offset hn.2.2)⟩

theorem not_occurs_book {items : List GItem} (hi : BookItems 45 items) : ¬ Occurs 0x8e items := by
  rintro ⟨d, h⟩
  obtain ⟨c, d', e, hc⟩ := hi _ h
  cases e
  revert hc
  decide

/-- The condition for the sheet of a part to be read. -/
def Fits (env : OpenEnv) (x : SheetPart) : Prop :=
  CellsFit 16384 env.fi (xfRecords 45 x.file.book) (cellsOf fl env.fi [] x.file.layout.items) (mergedRanges env.fi x.file.layout.items)

section sheet
variable {env : OpenEnv} {mem pre post : Bytes} {H hist : List GItem} {x : SheetPart} {dec : List GItem → Bytes → R PyStr}
  (hdec : ∀ items, dec items = textAt (env.recEnv 45) (hist ++ items)) (hx : x.Ok dec) (hm : mem = pre ++ x.sheet ++ post)
  (hu : ∀ q, q <+: H → CodecUsable 45 env.override env.codec (lastCodepage q)) (hq : hist ++ x.book <+: H)
  (hr : ∀ p it q, x.file.book = p ++ it :: q → OldReadable 45 (textAt (env.recEnv 45)) H (hist ++ x.before ++ p) it)
  {b : Book} (hb : WOk env H (hist ++ x.before) b)
include hdec hx hm hu hq hr hb

/-- The records of the sheet about the whole file are read. -/
theorem sheet_book_ok {b1 : Book} (h1 : deriveEncoding (env.recEnv 45) b = .ok b1) :
    ∃ b3, applyGlobals (env.recEnv 45) (initialiseFormatInfo b1) (x.file.book.map newItem) = .ok b3 ∧ OpenInv (env.recEnv 45) (H.map newItem) ((hist ++ x.book).map newItem) b3 ∧
      textDec env 45 b3 = dec x.book ∧ b3.sst = [] ∧ KnownInv (xfRecords 45 x.file.book) b3.fmt := by
  have hbk : hist ++ x.book = hist ++ x.before ++ x.file.book := by unfold SheetPart.book; rw [List.append_assoc]
  have hit : BookItems 45 x.file.book := headBook_items hx.file.codes
  have hp : (hist ++ x.before).map newItem <+: H.map newItem := by
    refine List.IsPrefix.map _ (List.IsPrefix.trans ⟨x.file.book, ?_⟩ hq)
    rw [hbk]
  have hu' := usable_new hu
  have ho := (hb.o.derived hp (hu' _ hp) h1).initialised
  obtain ⟨b3, e1, e2⟩ := w_sheet_items_ok (env := env) hu x.file.book (hist ++ x.before) (initialiseFormatInfo b1) (by rw [← hbk]; exact hq) hr ho
  have hb2 : WInv (env.recEnv 45) (hist ++ x.before) (initialiseFormatInfo b1) := by
    obtain ⟨_, _, _, _, hb1⟩ := derive_frame h1
    have i1 := (derive_inv hb.w.enc h1).1
    exact hb.w.keep (i1.congr rfl rfl) (by rw [hb1]; rfl) (by rw [hb1]; rfl) (by rw [hb1]; rfl) (by rw [hb1]; rfl) (by rw [hb1]; rfl) (by rw [hb1]; rfl)
      ((hb.w.user.derive (show 45 < 80 by omega) hb.w.enc h1).congr ⟨rfl, rfl, rfl⟩)
  have hw := hb2.sheetItems _ hit e1
  refine ⟨b3, e1, by rw [hbk]; exact e2, ?_, hw.sst, known_xfs (env := env.recEnv 45) (.inr (.inr (.inr rfl))) (initialised_known b1) _ hit e1⟩
  rw [WInv.text hw.enc, hdec, hbk]

theorem sheethdr_next {b' : Book} {p : Int} (h : handleSheethdr env 45 mem b x.hdr (pre.length : Int) = .ok (b', p)) :
    WOk env H (hist ++ x.book) b' ∧ p = ((pre ++ x.sheet).length : Int) ∧ b'.embedded.length = b.embedded.length + 1 ∧
    b.sheetNames[b.embedded.length]? = some x.name ∧ Fits env x := by
  obtain ⟨r1, r2, sh, r3, r4, r5⟩ := sheethdr_run hdec hx hm hb.w h
  have hbk : hist ++ x.book = hist ++ x.before ++ x.file.book := by unfold SheetPart.book; rw [List.append_assoc]
  have hit : BookItems 45 x.file.book := headBook_items hx.file.codes
  unfold handleSheethdr at h
  obtain ⟨b1, h1, h⟩ := bind_ok h
  obtain ⟨len, h2, h⟩ := bind_ok h
  obtain ⟨name, h3, h⟩ := bind_ok h
  obtain ⟨shown, h4, h⟩ := bind_ok h
  obtain ⟨_, h5, h⟩ := bind_ok h
  obtain ⟨⟨v, p1⟩, h6, h⟩ := bind_ok h
  obtain ⟨vis, h7, h⟩ := bind_ok h
  obtain ⟨o, h8, h⟩ := bind_ok h
  cases h
  obtain ⟨b3, f1, f2, f3, f4, f5⟩ := sheet_book_ok hdec hx hm hu hq hr hb h1
  have hpos : v = 40 ∧ p1 = ((pre ++ encRec x.op x.bof).length : Int) := by
    have := C52_sheet_bof hx.bof pre (encRecs (x.file.records 45) ++ x.skipped ++ post)
    rw [if_pos rfl] at this
    have hmem : mem = pre ++ encRec x.op x.bof ++ (encRecs (x.file.records 45) ++ x.skipped ++ post) := by
      rw [hm]; simp only [SheetPart.sheet, List.append_assoc]
    rw [hmem, this] at h6
    cases h6
    exact ⟨rfl, rfl⟩
  obtain ⟨rfl, rfl⟩ := hpos
  have h8' : oldRead env 45 (pre ++ encRec x.op x.bof ++ encRecs (x.file.records 45) ++ (x.skipped ++ post)) (initialiseFormatInfo b1) ((pre ++ encRec x.op x.bof).length : Int) = .ok o := by
    have hmem : mem = pre ++ encRec x.op x.bof ++ encRecs (x.file.records 45) ++ (x.skipped ++ post) := by
      rw [hm]; simp only [SheetPart.sheet, List.append_assoc]
    rw [← hmem]; exact h8
  obtain ⟨b3', b4, g1, g2, _, g4, _, g6⟩ := old_file (.inr (.inr rfl)) (b0 := initialiseFormatInfo b1) rfl hx.file
    (fun y hy => by rw [f1] at hy; cases hy; exact ⟨f3, by rw [f4]; rfl⟩) h8'
  rw [f1] at g1
  cases g1
  obtain ⟨_, _, _, _, hb1⟩ := derive_frame h1
  obtain ⟨k1, k2, k3, k4⟩ := sheet_items_kept (env := env.recEnv 45) rfl hit f1
  have i1 : (initialiseFormatInfo b1).nameObjs = b.nameObjs := by rw [hb1]; rfl
  have i2 : (initialiseFormatInfo b1).sheetVisibility = b.sheetVisibility := by rw [hb1]; rfl
  have i3 : (initialiseFormatInfo b1).sheetNames = b.sheetNames := by rw [hb1]; rfl
  have i4 : (initialiseFormatInfo b1).sheetsoffset = b.sheetsoffset := by rw [hb1]; rfl
  rw [i1] at k1
  rw [i2] at k2
  rw [i3] at k3
  rw [i4] at k4
  have ho4 : OpenInv (env.recEnv 45) (H.map newItem) ((hist ++ x.book).map newItem) b4 := by
    rcases g2 with rfl | rfl
    · exact f2
    · exact f2.epilogued
  have hp : (hist ++ x.book).map newItem <+: H.map newItem := List.IsPrefix.map _ hq
  have ho5 : OpenInv (env.recEnv 45) (H.map newItem) ((hist ++ x.book).map newItem) o.book := by
    rcases g4 with g4 | g4
    · rw [g4]; exact ho4
    · exact ho4.ensured hp (usable_new hu _ hp) g4
  have kept : o.book.nameObjs = b3.nameObjs ∧ o.book.sheetVisibility = b3.sheetVisibility ∧ o.book.sheetNames = b3.sheetNames ∧ o.book.sheetsoffset = b3.sheetsoffset := by
    obtain ⟨_, _, _, _, hg⟩ := g4.same
    rw [hg]
    rcases g2 with rfl | rfl <;> exact ⟨rfl, rfl, rfl, rfl⟩
  obtain ⟨m1, m2, m3, m4⟩ := kept
  refine ⟨⟨r1, ?_, ?_, ?_, ?_, ?_⟩, r2, ?_, ?_, ?_⟩
  · exact ho5.same (ho5.enc.congr rfl rfl) (raw_of ho5.raw (.inr rfl)) rfl rfl rfl rfl rfl rfl rfl
  · show o.book.nameObjs = []
    rw [m1, k1]; exact hb.nameless
  · show o.book.sheetVisibility.length = o.book.sheetNames.length
    rw [m2, m3, k2, k3]; exact hb.len
  · intro hocc
    show o.book.sheetsoffset.isSome = true
    rw [m4, k4]
    refine hb.off ?_
    rw [hbk] at hocc
    obtain ⟨d, hd⟩ := hocc
    rcases List.mem_append.mp hd with hd | hd
    · exact ⟨d, hd⟩
    · exact absurd ⟨d, hd⟩ (not_occurs_book hit)
  · rw [hbk]; exact listed_book hit hb.listed
  · rw [r3]; simp
  · have e1 : o.book.embedded ++ [⟨shown, b1.embedded.length, vis, o.sheet⟩] = b.embedded ++ [sh] := r3
    have e2 := congrArg List.getLast? e1
    simp only [List.getLast?_append, List.getLast?_singleton, Option.some_or, Option.some.injEq] at e2
    have e3 : shown = x.name := by rw [← r4, ← e2]
    have := idx_some h4
    rw [hb1] at this
    rw [e3] at this
    exact this
  · have hs4 : b4.sst = [] := by rcases g2 with rfl | rfl <;> exact f4
    have hd4 : textDec env 45 b4 = dec x.book := by
      rcases g2 with rfl | rfl
      · exact f3
      · rw [epilogue_textDec]; exact f3
    have := (old_sheet_fits (by omega) (by omega) f5 g2 (L := x.file.layout) (by rw [hs4, hd4]; exact layout_ok hx.file)).mp ⟨_, g6⟩
    rw [hs4] at this
    exact this

theorem sheethdr_ok (hn : b.sheetNames[b.embedded.length]? = some x.name) (hf : Fits env x) :
    ∃ r, handleSheethdr env 45 mem b x.hdr (pre.length : Int) = .ok r := by
  have hbk : hist ++ x.book = hist ++ x.before ++ x.file.book := by unfold SheetPart.book; rw [List.append_assoc]
  have hp : (hist ++ x.before).map newItem <+: H.map newItem := by
    refine List.IsPrefix.map _ (List.IsPrefix.trans ⟨x.file.book, ?_⟩ hq)
    rw [hbk]
  obtain ⟨b1, h1, _⟩ := derive_ok hp (usable_new hu _ hp) hb.o.enc hb.o.raw
  obtain ⟨b3, f1, f2, f3, f4, f5⟩ := sheet_book_ok hdec hx hm hu hq hr hb h1
  have hp2 : (hist ++ x.book).map newItem <+: H.map newItem := List.IsPrefix.map _ hq
  obtain ⟨i1, i2⟩ := derive_inv hb.w.enc h1
  obtain ⟨_, _, _, _, hb1⟩ := derive_frame h1
  obtain ⟨b', he, _⟩ := ensure_ok hp2 (usable_new hu _ hp2) f2.enc f2.raw
  have h56 : ∀ d, GItem.one 0x56 d ∈ x.file.book → 2 ≤ d.length := by
    intro d hmem
    obtain ⟨p, q, hpq⟩ := List.append_of_mem hmem
    have hr := hr p _ q hpq
    generalize hit : GItem.one 0x56 d = it at hr
    cases hr with
    | format d' s h => injection hit with e1 e2; exact absurd e1 (by decide)
    | xf d' x h => injection hit with e1 e2; exact absurd e1 (by decide)
    | formatCount n tail => injection hit with e1 e2; rw [e2]; simp [le16_length]
    | other c d' hc h => injection hit with e1 e2; exact absurd (e1 ▸ hc) (by decide)
  have hsheet : ∀ b2, (b2 = b3 ∨ b2 = runEpilogue env b3) → ∃ s, sheetRead (readEnv env 45 b2) (encRecs (x.file.layout.records 45)) 0 = .ok s := by
    intro b2 hb2
    have e1 : b2.sst = [] := by rcases hb2 with rfl | rfl <;> exact f4
    have e2 : textDec env 45 b2 = dec x.book := by
      rcases hb2 with rfl | rfl
      · exact f3
      · rw [epilogue_textDec]; exact f3
    refine (old_sheet_fits (by omega) (by omega) f5 hb2 (by rw [e1, e2]; exact layout_ok hx.file)).mpr ?_
    rw [e1]; exact hf
  obtain ⟨o, hor⟩ := old_file_ok (.inr (.inr rfl)) (b0 := initialiseFormatInfo b1) rfl hx.file h56 f1 ⟨f3, by rw [f4]; rfl⟩ ⟨b', he⟩ hsheet (pre ++ encRec x.op x.bof) (x.skipped ++ post)
  have hor' : oldRead env 45 mem (initialiseFormatInfo b1) ((pre ++ encRec x.op x.bof).length : Int) = .ok o := by
    have hmem : mem = pre ++ encRec x.op x.bof ++ encRecs (x.file.records 45) ++ (x.skipped ++ post) := by
      rw [hm]; simp only [SheetPart.sheet, List.append_assoc]
    rw [hmem]; exact hor
  have hpos : getbof mem (pre.length : Int) XL_WORKSHEET = .ok (40, ((pre ++ encRec x.op x.bof).length : Int)) := by
    have := C52_sheet_bof hx.bof pre (encRecs (x.file.records 45) ++ x.skipped ++ post)
    rw [if_pos rfl] at this
    have hmem : mem = pre ++ encRec x.op x.bof ++ (encRecs (x.file.records 45) ++ x.skipped ++ post) := by
      rw [hm]; simp only [SheetPart.sheet, List.append_assoc]
    rw [hmem]; exact this
  have hlen : ∃ n, unpacki (sliceTo x.hdr 4) = .ok n := by
    have : sliceTo x.hdr 4 = le32 x.sheet.length := by
      unfold SheetPart.hdr
      rw [List.append_assoc]
      exact sliceTo_app rfl (le32_length _)
    rw [this]
    simp only [unpacki, unpackN_ok (le32_length _), bind, Except.bind, pure, Except.pure]
    exact ⟨_, rfl⟩
  obtain ⟨n, hlen⟩ := hlen
  have hname : unpackString (libDec env b1) x.hdr 4 1 = .ok x.name := by
    have hd : libDec env b1 = dec x.before := by
      rw [hdec]
      funext y
      unfold libDec
      rw [i2 (.inl (show 45 < 80 by omega))]
      rfl
    have := (textField_read (dec' := libDec env b1) (data := x.hdr) (p := 4) (r := x.more) (.inl rfl) (fun _ => hd) hx.text (by
      unfold SheetPart.hdr
      rw [List.append_assoc]
      exact List.drop_left' (le32_length _))).1 (by omega)
    rw [show ((4 : Nat) : Int) = 4 from rfl] at this
    exact this
  have hshown : idx b1.sheetNames (b1.embedded.length : Int) = .ok x.name := by
    rw [idx_nat, show b1.sheetNames = b.sheetNames by rw [hb1], show b1.embedded = b.embedded by rw [hb1], hn]
  have hvis : ∃ v, idx (initialiseFormatInfo b1).sheetVisibility (b1.embedded.length : Int) = .ok v := by
    have hlt : b.embedded.length < b.sheetVisibility.length := by
      rw [hb.len]; exact (List.getElem?_eq_some_iff.mp hn).1
    rw [idx_nat, show (initialiseFormatInfo b1).sheetVisibility = b.sheetVisibility by rw [hb1]; rfl, show b1.embedded = b.embedded by rw [hb1], List.getElem?_eq_getElem hlt]
    exact ⟨_, rfl⟩
  obtain ⟨v, hvis⟩ := hvis
  unfold handleSheethdr
  simp only [h1, hlen, hname, hshown, hpos, hvis, hor', bind, Except.bind, pyAssert, decide_true, if_true]
  exact ⟨_, rfl⟩

end sheet

/-- What happens at the end of the globals succeeds. -/
theorem w_eof_ok {ops : PyOps} {env : OpenEnv} {base : Int} (hev : EvaluatesNames ops (env.bookEnv 45 base)) {H : List GItem} {b : Book} (hb : WOk env H H b)
    (hu : ∀ q, q <+: H → CodecUsable 45 env.override env.codec (lastCodepage q)) : ∃ b', globalsEof (env.bookEnv 45 base) b = .ok b' := by
  have hs : setScopes (env.bookEnv 45 base) { b with fmt := xfEpilogue (env.bookEnv 45 base).fi b.fmt } b.nameObjs = .ok [] := by
    rw [hb.nameless]
    rfl
  have hev' := hev { b with fmt := xfEpilogue (env.bookEnv 45 base).fi b.fmt, nameObjs := [] }
  have hn : (env.bookEnv 45 base).evalNames { b with fmt := xfEpilogue (env.bookEnv 45 base).fi b.fmt, nameObjs := [] } = .ok () := by
    rw [hev']
    rfl
  have hp : H.map newItem <+: H.map newItem := List.prefix_rfl
  obtain ⟨b2, h2, _⟩ := ensure_ok (env := env.bookEnv 45 base) hp (usable_new hu _ hp)
    (b := { b with
      fmt := paletteEpilogue (xfEpilogue (env.bookEnv 45 base).fi b.fmt)
      nameObjs := []
      nameAndScopeMap := (([] : List NameObj).foldl (enterName (env.bookEnv 45 base).lower) (fun _ => none, fun _ => none)).1
      nameMap := fun k => ((([] : List NameObj).foldl (enterName (env.bookEnv 45 base).lower) (fun _ => none, fun _ => none)).2 k).map fun l => (sortByScope l).map Prod.snd })
    (hb.o.based.enc.congr rfl rfl) (raw_of hb.o.based.raw (.inr rfl))
  refine ⟨b2, ?_⟩
  unfold globalsEof namesEpilogue
  simp only [bind, Except.bind, hs]
  rw [hn]
  exact h2

/-- The record loop ends well exactly if each sheet has the name listed for it and its cells fit. -/
theorem w_loop_iff {ops : PyOps} {env : OpenEnv} {base : Int} (hev : EvaluatesNames ops (env.bookEnv 45 base)) {mem post eof : Bytes} (he : eof.length < 65536) {last H : List GItem}
    (hl : GlobalsOk 45 last) (hl2 : NoSst last) (hu : ∀ q, q <+: H → CodecUsable 45 env.override env.codec (lastCodepage q)) (parts : List SheetPart) :
    ∀ (hist : List GItem) (pre : Bytes) (b : Book) (fuel : Nat),
    (∀ q y r, parts = q ++ y :: r → y.Ok fun items => textAt (env.recEnv 45) (hist ++ bookOf q ++ items)) →
    (∀ q y r, parts = q ++ y :: r → ∀ p it p', y.before = p ++ it :: p' → WReadable (textAt (env.recEnv 45)) H (hist ++ bookOf q ++ p) it) →
    (∀ q y r, parts = q ++ y :: r → ∀ p it p', y.file.book = p ++ it :: p' → OldReadable 45 (textAt (env.recEnv 45)) H (hist ++ bookOf q ++ y.before ++ p) it) →
    (∀ p it q, last = p ++ it :: q → WReadable (textAt (env.recEnv 45)) H (hist ++ bookOf parts ++ p) it) →
    hist ++ bookOf parts ++ last = H →
    mem = pre ++ parts.flatMap SheetPart.bytes ++ encGlobals last eof ++ post → passes parts + last.length < fuel →
    WOk env H hist b →
    ((∃ r, globalsLoop (env.bookEnv 45 base) mem fuel b (pre.length : Int) = .ok r) ↔
      ∀ q y r, parts = q ++ y :: r → (∃ ns, SheetNames4 (textAt (env.recEnv 45)) (hist ++ bookOf q ++ y.before) ns ∧ ns[b.embedded.length + q.length]? = some y.name) ∧ Fits env y) := by
  induction parts with
  | nil =>
    intro hist pre b fuel _ _ _ hlr hH hm hf hb
    rw [globalsLoop_items (env.bookEnv 45 base) mem post eof he last hl fuel pre.length b (by rw [hm]; simp) (by simpa [passes] using hf)]
    have hH' : hist ++ last = H := by simpa [bookOf] using hH
    obtain ⟨b1, h1, h2⟩ := w_items_ok (base := base) hu last hist b (by rw [hH']; exact List.prefix_rfl) hl2 (by simpa [bookOf] using hlr) hb
    rw [hH'] at h2
    obtain ⟨b2, h3⟩ := w_eof_ok hev h2 hu
    refine ⟨fun _ q y r e => by simp at e, fun _ => ?_⟩
    simp only [h1, h3, bind, Except.bind]
    exact ⟨_, rfl⟩
  | cons x xs ih =>
    intro hist pre b fuel hok hwr hsr hlr hH hm hf hb
    have hx := hok [] x xs rfl
    simp only [bookOf, List.flatMap_nil, List.append_nil] at hx
    have hmem : mem = pre ++ (encRecs (x.before.flatMap GItem.recs) ++ (encRec 0x8f x.hdr ++ (x.sheet ++ (xs.flatMap SheetPart.bytes ++ encGlobals last eof ++ post)))) := by
      rw [hm]; simp only [List.flatMap_cons, SheetPart.bytes, List.append_assoc]
    have hd1 : mem.drop pre.length = encRecs (x.before.flatMap GItem.recs) ++ (encRec 0x8f x.hdr ++ (x.sheet ++ (xs.flatMap SheetPart.bytes ++ encGlobals last eof ++ post))) := by
      rw [hmem, List.drop_left]
    have hp : passes (x :: xs) = x.before.length + 1 + passes xs := by simp [passes]
    have hH1 : hist ++ x.book ++ bookOf xs ++ last = H := by
      rw [← hH]; simp [bookOf]
    have hq1 : hist ++ x.book <+: H := ⟨bookOf xs ++ last, by rw [← hH1]; simp⟩
    have hq0 : hist ++ x.before <+: H := List.IsPrefix.trans ⟨x.file.book, by simp [SheetPart.book]⟩ hq1
    obtain ⟨k, rfl⟩ : ∃ k, fuel = x.before.length + (k + 1) := ⟨fuel - x.before.length - 1, by omega⟩
    rw [globalsLoop_prefix (env.bookEnv 45 base) mem 0x8f x.hdr _ (by decide) hx.short (by decide) x.before hx.items (k + 1) pre.length b hd1]
    obtain ⟨b1, h1, hw1⟩ := w_items_ok (base := base) hu x.before hist b hq0 hx.sst (by
      have := hwr [] x xs rfl
      simpa [bookOf] using this) hb
    have hemb1 : b1.embedded = b.embedded := applied_embedded h1
    have hd2 := drop_at hd1 rfl
    simp only [h1, bind, Except.bind]
    rw [globalsLoop, getRecordParts_at (by decide) hx.short hd2]
    simp only [bind, Except.bind]
    rw [if_neg (by decide)]
    have hstep : globalsStep (env.bookEnv 45 base) mem b1 0x8f x.hdr ((pre.length + (encRecs (x.before.flatMap GItem.recs)).length + 4 + x.hdr.length : Nat) : Int) =
        handleSheethdr env 45 mem b1 x.hdr ((pre.length + (encRecs (x.before.flatMap GItem.recs)).length + 4 + x.hdr.length : Nat) : Int) := by
      unfold globalsStep
      rw [if_neg (by decide), if_neg (by decide), if_pos (by rfl)]
      rfl
    rw [hstep]
    set pre2 := pre ++ encRecs (x.before.flatMap GItem.recs) ++ encRec 0x8f x.hdr with hpre2
    have hlen2 : pre.length + (encRecs (x.before.flatMap GItem.recs)).length + 4 + x.hdr.length = pre2.length := by
      rw [hpre2, List.length_append, List.length_append, encRec_length]; omega
    rw [hlen2]
    have hsr0 : ∀ p it p', x.file.book = p ++ it :: p' → OldReadable 45 (textAt (env.recEnv 45)) H (hist ++ x.before ++ p) it := by
      have := hsr [] x xs rfl
      simpa [bookOf] using this
    have hmm : mem = pre2 ++ x.sheet ++ (xs.flatMap SheetPart.bytes ++ encGlobals last eof ++ post) := by rw [hmem, hpre2]; simp only [List.append_assoc]
    have first : (∃ ns, SheetNames4 (textAt (env.recEnv 45)) (hist ++ x.before) ns ∧ ns[b.embedded.length]? = some x.name) ↔ b1.sheetNames[b1.embedded.length]? = some x.name := by
      rw [hemb1]
      constructor
      · rintro ⟨ns, e1, e2⟩
        rw [hw1.w.names ns e1]; exact e2
      · intro e
        obtain ⟨ns, e1⟩ := hw1.listed
        exact ⟨ns, e1, by rw [← hw1.w.names ns e1]; exact e⟩
    have rest : ∀ {b2 : Book} {p2 : Int}, handleSheethdr env 45 mem b1 x.hdr (pre2.length : Int) = .ok (b2, p2) →
        ((∃ r, globalsLoop (env.bookEnv 45 base) mem k b2 p2 = .ok r) ↔
          ∀ q y r, xs = q ++ y :: r → (∃ ns, SheetNames4 (textAt (env.recEnv 45)) (hist ++ x.book ++ bookOf q ++ y.before) ns ∧ ns[b.embedded.length + 1 + q.length]? = some y.name) ∧ Fits env y) := by
      intro b2 p2 hh
      obtain ⟨n1, n2, n3, n4, n5⟩ := sheethdr_next (env := env) (hist := hist) (fun _ => rfl) hx hmm hu hq1 hsr0 hw1 hh
      have := ih (hist ++ x.book) (pre2 ++ x.sheet) b2 k (partsOk_tail hok)
        (fun q y r e p it p' e' => by
          have := hwr (x :: q) y r (by rw [e]; rfl) p it p' e'
          simpa [bookOf, List.append_assoc] using this)
        (fun q y r e p it p' e' => by
          have := hsr (x :: q) y r (by rw [e]; rfl) p it p' e'
          simpa [bookOf, List.append_assoc] using this)
        (fun p it q e => by
          have := hlr p it q e
          simpa [bookOf, List.append_assoc] using this)
        hH1 (by rw [hmm]; simp only [List.append_assoc]) (by omega) n1
      rw [n2, this, n3, hemb1]
    constructor
    · rintro ⟨r, h⟩
      cases hh : handleSheethdr env 45 mem b1 x.hdr (pre2.length : Int) with
      | error e => rw [hh] at h; cases h
      | ok q =>
        obtain ⟨b2, p2⟩ := q
        rw [hh] at h
        obtain ⟨n1, n2, n3, n4, n5⟩ := sheethdr_next (env := env) (hist := hist) (fun _ => rfl) hx hmm hu hq1 hsr0 hw1 hh
        have ht := (rest hh).mp ⟨r, h⟩
        intro q y r' e
        cases q with
        | nil =>
          rw [List.nil_append, List.cons.injEq] at e
          obtain ⟨rfl, rfl⟩ := e
          refine ⟨?_, n5⟩
          have := first.mpr n4
          simpa [bookOf] using this
        | cons z q =>
          rw [List.cons_append, List.cons.injEq] at e
          obtain ⟨rfl, e⟩ := e
          have := ht q y r' e
          simpa [bookOf, List.append_assoc, Nat.add_assoc, Nat.add_comm, Nat.add_left_comm] using this
    · intro hc
      obtain ⟨c1, c2⟩ := hc [] x xs rfl
      obtain ⟨⟨b2, p2⟩, hh⟩ := sheethdr_ok (env := env) (hist := hist) (fun _ => rfl) hx hmm hu hq1 hsr0 hw1 (first.mp (by simpa [bookOf] using c1)) c2
      rw [hh]
      refine (rest hh).mpr fun q y r e => ?_
      have := hc (x :: q) y r (by rw [e]; rfl)
      simpa [bookOf, List.append_assoc, Nat.add_assoc, Nat.add_comm, Nat.add_left_comm] using this

end Xlrd
