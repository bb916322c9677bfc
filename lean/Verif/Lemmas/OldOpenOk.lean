import Verif.Spec.OldOpen
import Verif.Lemmas.OpenOk
import Verif.Props.OldFile

/-!
# Files of BIFF3 and BIFF4 that can be read
-/
set_option linter.unusedSimpArgs false
namespace Xlrd
open Spec

/-! ## The records about the whole file -/

theorem occurs_new {c : Nat} (h1 : c ≠ 0xe0) (h2 : c ≠ 0x41e) {items : List GItem} (h : Occurs c (items.map newItem)) : Occurs c items := by
  obtain ⟨d, h⟩ := h
  obtain ⟨it, hm, he⟩ := List.mem_map.mp h
  cases it with
  | one c' d' =>
    have he : GItem.one (newCode c') d' = .one c d := he
    injection he with e1 e2
    have := newCode_ne h1 h2 e1
    exact ⟨d', by rw [← this]; exact hm⟩
  | sst d more => cases he
  | extern d more => cases he

theorem readable_new {env : BookEnv} {items pre : List GItem} {it : GItem} (h : Readable env.bv (textAt env) items pre it) :
    Readable env.bv (textAt env) (items.map newItem) (pre.map newItem) it := by
  have ht := textAt_new env pre
  cases h with
  | font c d f hcc h => exact .font c d f hcc (by rw [ht]; exact h)
  | format d f h => exact .format d f (by rw [ht]; exact h)
  | xf d x h => exact .xf d x h
  | boundsheet d s h => exact .boundsheet d s (by rw [ht]; exact h)
  | datemode m tail h => exact .datemode m tail h
  | codepage cp tail h => exact .codepage cp tail h
  | country a b tail ha hb same =>
    refine .country a b tail ha hb ?_
    intro d hm
    obtain ⟨it, h1, h2⟩ := List.mem_map.mp hm
    cases it with
    | one c' d' =>
      have h2 : GItem.one (newCode c') d' = .one 0x8c d := h2
      injection h2 with e1 e2
      have := newCode_ne (by decide) (by decide) e1
      subst this e2
      exact same _ h1
    | sst d more => cases h2
    | extern d more => cases h2
  | supbook d h => exact .supbook d h
  | externname8 opts tail u h8 ho hf hs =>
    obtain ⟨d, hd⟩ := hs
    exact .externname8 opts tail u h8 ho hf ⟨d, List.mem_map.mpr ⟨_, hd, rfl⟩⟩
  | externname d h8 => exact .externname d h8
  | writeaccess8 u tail h8 hf => exact .writeaccess8 u tail h8 hf
  | writeaccess raw tail h8 hl h =>
    refine .writeaccess raw tail h8 hl ?_
    intro q hq
    obtain ⟨s, hs⟩ := h (items.take q.length) (List.take_prefix _ _)
    refine ⟨s, ?_⟩
    have : q = (items.take q.length).map newItem := by
      rw [List.map_take]; exact List.prefix_iff_eq_take.mp hq
    rw [this, textAt_new]; exact hs
  | name d o h => exact .name d o (by rw [ht]; exact h)
  | palette cs tail h hl htl first => exact .palette cs tail h hl htl fun ho => first (occurs_new (by decide) (by decide) ho)
  | style d s h hcp => exact .style d s (by rw [ht]; exact h) (by rw [lastCodepage_new]; exact hcp)
  | normal first => exact .normal fun ho => first (occurs_new (by decide) (by decide) ho)
  | sheetsoffset d h => exact .sheetsoffset d h
  | extern8 d more h8 h => exact .extern8 d more h8 h
  | extern nc ty rest more h8 h => exact .extern nc ty rest more h8 (by rw [ht]; exact h)
  | sst total ss d more hs hn h => exact .sst total ss d more hs hn h
  | unknown c d h => exact .unknown c d h

theorem old_item_ok {env : BookEnv} (hv : env.bv = 21 ∨ env.bv = 30 ∨ env.bv = 40 ∨ env.bv = 45) {items pre : List GItem} {b : Book} {it : GItem} (hq : pre ++ [it] <+: items)
    (hu : ∀ q, q <+: items → CodecUsable env.bv env.override env.codec (lastCodepage q)) (hi : OpenInv env (items.map newItem) (pre.map newItem) b)
    (hr : OldReadable env.bv (textAt env) items pre it) :
    ∃ b', applyGItem env b (newItem it) = .ok b' ∧ OpenInv env (items.map newItem) ((pre ++ [it]).map newItem) b' := by
  have hq' : pre.map newItem ++ [newItem it] <+: items.map newItem := by
    have := hq.map newItem
    simpa using this
  have hp : pre.map newItem <+: items.map newItem := (List.prefix_append _ [newItem it]).trans hq'
  have hu' : ∀ q, q <+: items.map newItem → CodecUsable env.bv env.override env.codec (lastCodepage q) := by
    intro q hq
    have : q = (items.take q.length).map newItem := by
      rw [List.map_take]; exact List.prefix_iff_eq_take.mp hq
    rw [this, lastCodepage_new]
    exact hu _ (List.take_prefix _ _)
  have fin : ∀ c d, newItem it = .one c d → (∃ b', applyGItem env b (.one c d) = .ok b' ∧ RawOk env (items.map newItem) b') →
      ∃ b', applyGItem env b (newItem it) = .ok b' ∧ OpenInv env (items.map newItem) ((pre ++ [it]).map newItem) b' := by
    rintro c d he ⟨b', h1, h2⟩
    rw [he]
    refine ⟨b', h1, ?_⟩
    rw [List.map_append, List.map_singleton, he]
    exact one_inv hi h1 h2
  cases hr with
  | format d s h =>
    refine fin 0x41e d (by show GItem.one (newCode (formatCode env.bv)) d = _; rcases hv with h | h | h | h <;> rw [h] <;> rfl) ?_
    obtain ⟨b1, h1, h2⟩ := ensure_ok hp (hu' _ hp) hi.enc hi.raw
    have i2 := (ensure_inv hi.enc h1).2
    have e : applyGItem env b (.one 0x41e d) = bookFormat env b d := rfl
    rw [e]
    unfold bookFormat
    simp only [h1, bind, Except.bind]
    obtain ⟨pad, txt, tail, hp, ht, rfl⟩ := h
    have h5 : ¬ env.bv ≥ 50 := by omega
    have hstr : formatStrOf env.bv (b1.dec env) (pad ++ txt ++ tail) = .ok s := by
      have hp' : (pad ++ txt ++ tail).drop pad.length = txt ++ tail := by rw [List.append_assoc, List.drop_left]
      unfold formatStrOf
      rw [if_neg (by omega)]
      have := (textField_read (Or.inl rfl) (fun h9 => (dec_eq (i2 (Or.inl h9))).trans (by rw [lastCodepage_new])) ht hp').1 (by omega)
      rw [hp] at this
      have hcast : (((if env.bv ≤ 30 then 0 else 2 : Nat)) : Int) = if env.bv ≤ 30 then 0 else 2 := by split_ifs <;> rfl
      rw [hcast] at this
      exact this
    unfold handleFormat
    simp only [Bool.false_eq_true, if_false]
    have hkey : formatKeyOf env.bv b1.fmt.actualfmtcount (pad ++ txt ++ tail) = .ok b1.fmt.actualfmtcount := by unfold formatKeyOf; rw [if_neg h5]
    simp only [hkey, hstr, bind, Except.bind]
    exact ⟨_, rfl, raw_of hi.raw h2⟩
  | xf d x h =>
    refine fin 0xe0 d (by show GItem.one (newCode (xfCode env.bv)) d = _; rcases hv with h | h | h | h <;> rw [h] <;> rfl) ?_
    have e : applyGItem env b (.one 0xe0 d) = bookXf env b d := rfl
    rw [e]
    unfold bookXf handleXf
    rw [decodeXf_record h]
    exact ⟨_, rfl, hi.raw⟩
  | formatCount n tail => exact fin 0x56 _ rfl ⟨b, rfl, hi.raw⟩
  | other c d hc h =>
    have hc' : c ∈ [0x31, 0x231, 0x293, 0x92, 0x22, 0x42, 0x5c, 0x8c] := by
      have h1 : ∀ c ∈ [0x31, 0x293, 0x92, 0x22, 0x42, 0x5c, 0x8c], c ∈ [0x31, 0x231, 0x293, 0x92, 0x22, 0x42, 0x5c, 0x8c] := by decide
      have h2 : ∀ c ∈ [0x231, 0x293, 0x92, 0x22, 0x42, 0x5c, 0x8c], c ∈ [0x31, 0x231, 0x293, 0x92, 0x22, 0x42, 0x5c, 0x8c] := by decide
      unfold fontCode at hc
      by_cases h30 : env.bv < 30
      · rw [if_pos h30] at hc; exact h1 c hc
      · rw [if_neg h30] at hc; exact h2 c hc
    have hn : newCode c = c := (by decide : ∀ c ∈ [0x31, 0x231, 0x293, 0x92, 0x22, 0x42, 0x5c, 0x8c], newCode c = c) c hc'
    have hit : newItem (.one c d) = .one c d := by show GItem.one (newCode c) d = _; rw [hn]
    refine fin c d hit ?_
    rw [hit] at hq'
    have hne : c ≠ 0x41e ∧ c ≠ 0x85 ∧ c ≠ 0x18 := (by decide : ∀ c ∈ [0x31, 0x231, 0x293, 0x92, 0x22, 0x42, 0x5c, 0x8c], c ≠ 0x41e ∧ c ≠ 0x85 ∧ c ≠ 0x18) c hc'
    exact item_ok (.inr fun d => ⟨fun e => hne.1 (by injection e), fun e => hne.2.1 (by injection e), fun e => hne.2.2 (by injection e)⟩) hq' hu' hi (readable_new h)

theorem old_book_ok {env : BookEnv} (hv : env.bv = 21 ∨ env.bv = 30 ∨ env.bv = 40 ∨ env.bv = 45) {items : List GItem}
    (hu : ∀ q, q <+: items → CodecUsable env.bv env.override env.codec (lastCodepage q))
    (hr : ∀ pre it post, items = pre ++ it :: post → OldReadable env.bv (textAt env) items pre it) : ∀ (post pre : List GItem) (b : Book),
    items = pre ++ post → OpenInv env (items.map newItem) (pre.map newItem) b →
      ∃ b', applyGlobals env b (post.map newItem) = .ok b' ∧ OpenInv env (items.map newItem) (items.map newItem) b' := by
  intro post
  induction post with
  | nil => intro pre b he hi; rw [List.append_nil] at he; subst he; exact ⟨b, rfl, hi⟩
  | cons it post ih =>
    intro pre b he hi
    obtain ⟨b1, h1, h2⟩ := old_item_ok hv ⟨post, by rw [he]; simp⟩ hu hi (hr pre it post he)
    obtain ⟨b2, h3, h4⟩ := ih (pre ++ [it]) b1 (by rw [he]; simp) h2
    exact ⟨b2, by simp only [List.map_cons, applyGlobals, h1, bind, Except.bind, h3], h4⟩

theorem old_inv0 {env : BookEnv} (hv : env.bv = 21 ∨ env.bv = 30 ∨ env.bv = 40) (items : List GItem) :
    ∃ f, initialiseColourMap env.bv env.fi newBook.fmt = .ok f ∧ OpenInv env items [] (oldStart f) := by
  obtain ⟨dflt, hd, hl⟩ : ∃ dflt, defaultPalette env.bv = .ok dflt ∧ dflt.length = paletteSize env.bv := by
    rcases hv with h | h | h <;> rw [h] <;> exact ⟨_, rfl, by decide⟩
  obtain ⟨f, h1, h2⟩ := C37_initial_colour_map env.bv dflt hd env.fi newBook.fmt
  obtain ⟨m, hf⟩ := colour_map_fields h1
  refine ⟨f, h1, ⟨oldStart_enc env f, ?_, Or.inl rfl, ?_, ?_, ?_, rfl, ?_⟩⟩
  · intro d hd; cases hd
  · intro hfi _
    refine ⟨by show f.paletteRecord = _; rw [hf], dflt, hd, hl, fun i => ?_⟩
    have := h2 i
    rw [if_pos hfi] at this
    exact this
  · intro _; show f.styleMap _ = _; rw [hf]
  · rintro ⟨d, h⟩; cases h
  · intro _ k nc rest h; simp [externsOf] at h

/-! ## The records of the sheet -/

theorem At.encoding_ok {env : OpenEnv} {bv : Nat} (h8 : bv < 80) {b : Book} {o0 o : OldSt} (h : At env bv b o0 o) (n : Bool)
    (he : n = true → ∃ b', ensureEncoding (env.recEnv bv) b = .ok b') : ∃ o', o.withEncoding env n = .ok o' := by
  unfold OldSt.withEncoding
  cases n with
  | false => exact ⟨o, rfl⟩
  | true =>
    obtain ⟨b', hb⟩ : ∃ b', ensureEncoding (env.recEnv o.bv) o.book = .ok b' := by
      rw [h.ver]
      rcases h.book with hb | hb
      · rw [hb]; exact he rfl
      · exact ⟨o.book, ensure_again (ensure_some (env := env.recEnv bv) h8 hb)⟩
    simp only [if_true]
    unfold OldSt.onBook
    rw [hb]
    exact ⟨_, rfl⟩

theorem old_step_ok {env : OpenEnv} {bv : Nat} (h8 : bv < 80) {mem : Bytes} {b : Book} {o0 o : OldSt} (h : At env bv b o0 o)
    {pos p' : Int} {rc len : Nat} (he : rc ∈ [XL_LABEL, XL_RSTRING, XL_NOTE] ++ XL_FORMULA_OPCODES → ∃ b', ensureEncoding (env.recEnv bv) b = .ok b')
    {data : Bytes} {s' : SheetSt} (hb : rc ∉ oldBad)
    (hf : 30 ≤ bv ∨ rc ∉ XL_FORMULA_OPCODES) (hr : sheetRecord (readEnv env bv b) mem o.sheet pos rc len data = .ok (s', p')) :
    ∃ o', oldRecord env bv mem o pos rc len data = .ok (o', p') := by
  have hb1 : rc ∉ oldBookCodes := fun h => hb (by simp only [oldBad, List.mem_append]; tauto)
  have hb2 : rc ∉ oldSheetCodes := fun h => hb (by simp only [oldBad, List.mem_append]; tauto)
  have hb3 : rc ≠ XL_COUNTRY := by rintro rfl; exact hb (by decide)
  have hb4 : ¬ (rc = XL_DIMENSION ∨ rc = XL_DIMENSION2) := by rintro (rfl | rfl) <;> exact hb (by decide)
  unfold oldRecord
  unfold sheetRecord at hr
  by_cases c1 : rc ∈ XL_FORMULA_OPCODES
  · have h30 : 30 ≤ bv := by rcases hf with h | h; · exact h
                             · exact absurd c1 h
    rw [if_pos c1] at hr ⊢
    unfold oldFormula
    rw [if_pos h30]
    obtain ⟨o1, h1⟩ := h.encoding_ok h8 (decide (bv < 80) && textResult (slice data 6 14)) fun _ => he (List.mem_append_right _ c1)
    obtain ⟨a1, a2, a3, d, a4⟩ := h.withEncoding h8 h1
    have hrec : recFormula (o1.env env) mem o1.sheet pos data = .ok (s', p') := by
      rw [a2, ← hr]
      by_cases ht : textResult (slice data 6 14) = true
      · rw [a3 (by simp [h8, ht])]
      · rw [a4]
        have ht' : textResult (slice data 6 14) = false := by simpa using ht
        unfold recFormula
        cases hu : unpackN 16 (slice data 0 16) with
        | error e => rfl
        | ok x =>
          obtain rfl : slice data 0 16 = x := by
            rcases unpackN_err_or (n := 16) (b := slice data 0 16) with h' | h' <;> rw [h'] at hu <;> cases hu
            rfl
          simp only [bind, Except.bind, slice_slice]
          rw [formulaResult_dec _ d _ _ _ ht']
          rfl
    simp only [h1, hrec, bind, Except.bind]
    exact ⟨_, rfl⟩
  rw [if_neg c1] at hr ⊢
  by_cases c2 : rc ∈ bofcodes
  · rw [if_pos c2] at hr ⊢
    obtain ⟨q, h1, hr⟩ := bind_ok hr
    cases hr
    rw [h1]
    exact ⟨_, rfl⟩
  rw [if_neg c2, if_neg hb3]
  rw [if_neg c2] at hr
  by_cases c3 : rc ∈ otherCodes
  · rw [if_pos c3] at hr ⊢
    obtain ⟨o1, h1⟩ := h.encoding_ok h8 (decide (rc = XL_NOTE ∧ bv < 80)) fun h => he (by rw [(of_decide_eq_true h).1]; decide)
    obtain ⟨a1, a2, a3, d, a4⟩ := h.withEncoding h8 h1
    obtain ⟨⟨e, q⟩, h2, hr⟩ := bind_ok hr
    obtain ⟨rfl, rfl⟩ : _ = s' ∧ q = p' := by simpa [pure, Except.pure] using hr
    have : extraRecord (o1.env env) mem o1.sheet.ext pos rc data = .ok (e, q) := by
      rw [a2]
      by_cases hn : rc = XL_NOTE
      · rw [a3 (by simp [hn, h8]), h2]
      · rw [a4, extra_dec _ _ _ _ _ (fun h => hn h.1)]
        exact h2
    simp only [h1, this, bind, Except.bind]
    exact ⟨_, rfl⟩
  rw [if_neg c3, if_neg hb4, if_neg (fun h => hb1 h.2), if_neg (fun h => hb2 h.2)]
  rw [if_neg c3] at hr
  obtain ⟨o1, h1⟩ := h.encoding_ok h8 (decide ((rc = XL_LABEL ∨ rc = XL_RSTRING) ∧ bv < 80))
    fun h => he (by rcases (of_decide_eq_true h).1 with h | h <;> rw [h] <;> decide)
  obtain ⟨a1, a2, a3, d, a4⟩ := h.withEncoding h8 h1
  obtain ⟨s, h2, hr⟩ := bind_ok hr
  obtain ⟨rfl, rfl⟩ : s = s' ∧ pos = p' := by simpa [pure, Except.pure] using hr
  have : plainRecord (o1.env env) o1.sheet rc len data = .ok s := by
    rw [a2]
    by_cases hn : rc = XL_LABEL ∨ rc = XL_RSTRING
    · rw [a3 (by simp [hn, h8]), h2]
    · rw [a4, plain_dec _ _ _ (fun h => hn h.1)]
      exact h2
  simp only [h1, OldSt.onSheet, this, bind, Except.bind]
  exact ⟨_, rfl⟩

theorem old_rounds_ok {env : OpenEnv} {bv : Nat} (h8 : bv < 80) {mem : Bytes} {b : Book} {o0 : OldSt} (he : ∃ b', ensureEncoding (env.recEnv bv) b = .ok b') {bad : List Nat}
    (hbad : ∀ c ∈ oldBad, c ∈ bad) (hf : 30 ≤ bv ∨ ∀ c ∈ XL_FORMULA_OPCODES, c ∈ bad) (k : Nat) : ∀ (n : Nat) (o : OldSt) (pos : Int) (s' : SheetSt) (pos' : Int), At env bv b o0 o →
    rounds (readEnv env bv b) mem bad n o.sheet pos = .ok (some (s', pos')) →
    ∃ o', o'.sheet = s' ∧ At env bv b o0 o' ∧ oldLoop env bv mem (k + n) o pos = oldLoop env bv mem k o' pos' := by
  intro n
  induction n with
  | zero =>
    intro o pos s' pos' ha h
    cases h
    exact ⟨o, rfl, ha, rfl⟩
  | succ n ih =>
    intro o pos s' pos' ha h
    rw [rounds] at h
    obtain ⟨⟨⟨rc, len, data⟩, q⟩, h1, h⟩ := bind_ok h
    simp only at h
    by_cases hb : rc = 0xa ∨ rc ∈ bad
    · rw [if_pos hb] at h; cases h
    · rw [if_neg hb] at h
      obtain ⟨⟨s1, q1⟩, h2, h⟩ := bind_ok h
      obtain ⟨o1, h3⟩ := old_step_ok h8 ha (fun _ => he) (fun h => hb (.inr (hbad _ h))) (hf.imp id fun hh h => hb (.inr (hh _ h))) h2
      obtain ⟨a1, a2⟩ := old_step h8 ha (fun h => hb (.inr (hbad _ h))) (hf.imp id fun hh h => hb (.inr (hh _ h))) h3
      rw [h2] at a2
      cases a2
      obtain ⟨o', i1, i2, i3⟩ := ih o1 q1 s' pos' a1 h
      refine ⟨o', i1, i2, ?_⟩
      rw [← i3, show k + (n + 1) = (k + n) + 1 by omega, oldLoop, h1]
      simp only [bind, Except.bind]
      rw [if_neg (show ¬ rc = XL_EOF by tauto), h3]

/-- Worksheet items in an old sheet are read if they can be read in a worksheet. -/
theorem old_items_ok {env : OpenEnv} {bv : Nat} (h8 : bv < 80) (h30 : 30 ≤ bv) {mem rest : Bytes} {b : Book} {o0 o : OldSt} (items : List SheetItem) {p k : Nat}
    (ha : At env bv b o0 o) (he : ∃ b', ensureEncoding (env.recEnv bv) b = .ok b')
    (hx : ∀ x ∈ items, FitsItem bv oldBad x ∧ x.Ok bv (textDec env bv b) (b.sst.map Prod.fst) ∧ x.Short bv)
    (hm : mem.drop p = encRecs (items.flatMap (·.records bv)) ++ rest) {s' : SheetSt} (h : applyItems (readEnv env bv b) o.sheet items = .ok s') :
    ∃ o', o'.sheet = s' ∧ At env bv b o0 o' ∧ oldLoop env bv mem (k + (items.map itemLoops).sum) o (p : Int) =
      oldLoop env bv mem k o' ((p + (encRecs (items.flatMap (·.records bv))).length : Nat) : Int) := by
  have h1 := items_step (rounds_follows (readEnv env bv b) mem oldBad good_old) items p 0 o.sheet rest hx hm
  rw [Nat.zero_add, h] at h1
  exact old_rounds_ok h8 he (bad := oldBad) (fun _ h => h) (.inl h30) k _ o p s' _ ha h1

theorem setting_step_ok {env : OpenEnv} {v : Nat} (h8 : v < 80) (h30 : 30 ≤ v) {mem rest : Bytes} {o : OldSt} {x : SheetItem} (hx : x.isSetting = true)
    {dec : Bytes → R PyStr} {sst : List PyStr} (ho : x.OldOk v dec sst) (hs : x.Short v) {p k : Nat} (hver : o.bv = v)
    (hm : mem.drop p = encRecs (x.records v) ++ rest) {s' : SheetSt} (h : applyItem (readEnv env v o.book) o.sheet x = .ok s') :
    oldLoop env v mem (k + 1) o (p : Int) = oldLoop env v mem k { o with sheet := s' } ((p + (encRecs (x.records v)).length : Nat) : Int) := by
  obtain ⟨c, d, hr, c1, c2, c3, c4⟩ := setting_record hx ho
  have hl : d.length < 65536 := hs (c, d) (by rw [hr]; simp)
  have hn : ∀ y, x ≠ .extra y := by rintro y rfl; cases hx
  have h1 := plainItem_step (rounds_follows (readEnv env v o.book) mem oldBad good_old) 0 o.sheet x hn (fits_old h30 ho) (setting_ok hx ho.1) hs hm
  have hm' : mem.drop p = encRec c d ++ rest := by rw [hm, hr]; simp [encRecs]
  have hg := getRecordParts_at c1 hl hm'
  rw [rounds, hg, h] at h1
  simp only [bind, Except.bind] at h1
  rw [if_neg (by tauto)] at h1
  cases hs2 : sheetRecord (readEnv env v o.book) mem o.sheet ((p + 4 + d.length : Nat) : Int) c d.length d with
  | error e => rw [hs2] at h1; cases h1
  | ok r =>
    obtain ⟨s2, q⟩ := r
    rw [hs2] at h1
    simp only [rounds, Except.ok.injEq, Option.some.injEq, Prod.mk.injEq] at h1
    obtain ⟨rfl, rfl⟩ := h1
    have ha : At env v o.book o o := ⟨hver, .inl rfl, rfl, rfl⟩
    have hplain : ∃ o', oldRecord env v mem o ((p + 4 + d.length : Nat) : Int) c d.length d = .ok (o', ((p + (encRecs (x.records v)).length : Nat) : Int)) := by
      exact old_step_ok h8 ha (fun h => absurd h c4) c3 (.inl h30) hs2
    obtain ⟨o', h3⟩ := hplain
    obtain ⟨_, a2⟩ := old_step h8 ha c3 (.inl h30) h3
    have a3 := old_step_same c3 c4 h3
    rw [hs2] at a2
    simp only [Except.ok.injEq, Prod.mk.injEq] at a2
    rw [oldLoop, hg]
    simp only [bind, Except.bind]
    rw [if_neg (show ¬ c = XL_EOF from c2), h3]
    rw [a3, ← a2.1]

/-! ## The records before the DIMENSION record -/

theorem book_step_ok {env : OpenEnv} {v : Nat} (hv : v = 21 ∨ v = 30 ∨ v = 40 ∨ v = 45) {mem : Bytes} {o : OldSt} {pos : Int} {c len : Nat} {d : Bytes} {b' : Book}
    (hver : o.bv = v) (hc : c ∈ bookCodes v) (h56 : c = 0x56 → 2 ≤ d.length)
    (hr : globalsRecord (env.recEnv v) (if c = 0x293 ∧ o.book.xfDone = false then runEpilogue env o.book else o.book) (newCode c) d = .ok b') :
    oldRecord env v mem o pos c len d = .ok ({ o with book := b' }, pos) := by
  have key : ∀ r : R Book, oldRecord env v mem o pos c len d = (do pure (← o.onBook r, pos)) → r = .ok b' →
      oldRecord env v mem o pos c len d = .ok ({ o with book := b' }, pos) := by
    rintro r h rfl
    rw [h]
    rfl
  obtain ⟨bv0, book, sheet, ixfe, attr⟩ := o
  subst hver
  simp only at hv
  simp only [bookCodes, List.mem_cons, List.not_mem_nil, or_false] at hc
  rcases hc with rfl | rfl | rfl | rfl | rfl | rfl | rfl | rfl | rfl | rfl
  · rcases hv with rfl | rfl | rfl | rfl <;> exact key _ rfl hr
  · rcases hv with rfl | rfl | rfl | rfl <;> exact key _ rfl hr
  · rcases hv with rfl | rfl | rfl | rfl <;> exact key _ rfl hr
  · refine key (oldStyle env ⟨bv0, book, sheet, ixfe, attr⟩ d) (by rcases hv with rfl | rfl | rfl | rfl <;> rfl) ?_
    have hr : bookStyle _ (if (0x293 : Nat) = 0x293 ∧ book.xfDone = false then runEpilogue env book else book) d = _ := hr
    unfold oldStyle
    simp only
    cases hx : book.xfDone with
    | false => rw [if_neg (by simp [hx])]; rw [if_pos ⟨rfl, hx⟩] at hr; exact hr
    | true => rw [if_pos rfl]; rw [if_neg (by simp [hx])] at hr; exact hr
  · rcases hv with rfl | rfl | rfl | rfl <;> exact key _ rfl hr
  · refine key (handleBuiltinfmtcount book d) (by rcases hv with rfl | rfl | rfl | rfl <;> rfl) ?_
    have hr : Except.ok (if (0x56 : Nat) = 0x293 ∧ book.xfDone = false then runEpilogue env book else book) = Except.ok b' := hr
    rw [if_neg (by simp)] at hr
    cases hr
    unfold handleBuiltinfmtcount
    have h2 := h56 rfl
    obtain ⟨n, hn⟩ : ∃ n, unpackH (slice d 0 2) = .ok n := by
      have hs := slice_nat d 0 2
      have hl : (slice d 0 2).length = 2 := by
        rw [show slice d 0 2 = _ from hs]
        simp; omega
      unfold unpackH
      simp only [unpackN, if_pos hl, bind, Except.bind, pure, Except.pure]
      exact ⟨_, rfl⟩
    rw [hn]; rfl
  · rcases hv with rfl | rfl | rfl | rfl <;> exact key _ rfl hr
  · rcases hv with rfl | rfl | rfl | rfl <;> exact key _ rfl hr
  · rcases hv with rfl | rfl | rfl | rfl <;> exact key _ rfl hr
  · rcases hv with rfl | rfl | rfl | rfl <;> exact key _ rfl hr

theorem head_book_ok {env : OpenEnv} {v : Nat} (hv : v = 21 ∨ v = 30 ∨ v = 40 ∨ v = 45) {c : Nat} {d : Bytes} (hcc : c ∈ bookCodes v) {bk b b2 : Book} {styled : Bool}
    (h2 : bk = headState env styled b) (h3 : b.xfDone = false) (hst : styled = true → c ≠ xfCode v ∧ c ≠ formatCode v)
    (h6 : globalsRecord (env.recEnv v) b (newCode c) d = .ok b2) :
    ∃ b', globalsRecord (env.recEnv v) (if c = 0x293 ∧ bk.xfDone = false then runEpilogue env bk else bk) (newCode c) d = .ok b' := by
  rcases newCode_cases hv hcc with ⟨n1, n2⟩ | ⟨n1, n2⟩ | ⟨n1, n2, n3, n4⟩
  · have hns : styled = false := by
      cases styled with
      | false => rfl
      | true => exact absurd n1 (hst rfl).2
    subst hns
    have hne : c ≠ 0x293 := by rw [n1]; rcases hv with rfl | rfl | rfl | rfl <;> decide
    rw [if_neg (fun h => hne h.1), h2]
    exact ⟨_, h6⟩
  · have hns : styled = false := by
      cases styled with
      | false => rfl
      | true => exact absurd n1 (hst rfl).1
    subst hns
    have hne : c ≠ 0x293 := by rw [n1]; rcases hv with rfl | rfl | rfl | rfl <;> decide
    rw [if_neg (fun h => hne h.1), h2]
    exact ⟨_, h6⟩
  · have hE : ∃ b', globalsRecord (env.recEnv v) (runEpilogue env b) (newCode c) d = .ok b' := by
      rw [n3, globals_epilogue b n4, ← n3, h6]
      exact ⟨_, rfl⟩
    cases styled with
    | true => rw [if_neg (by rw [h2]; simp [headState, runEpilogue]), h2]; exact hE
    | false =>
      have hd : bk.xfDone = false := by rw [h2]; exact h3
      by_cases hc9 : c = 0x293
      · rw [if_pos ⟨hc9, hd⟩, h2]; exact hE
      · rw [if_neg (fun h => hc9 h.1), h2]; exact ⟨_, h6⟩

theorem head_step_ok {env : OpenEnv} {v : Nat} (hv : v = 30 ∨ v = 40 ∨ v = 45) {mem rest : Bytes} {dec : Bytes → R PyStr} {sst : List PyStr} (k : Nat) :
    ∀ (head : List OldItem) (p : Nat) (o : OldSt) (b b1 : Book) (styled : Bool) (s1 : SheetSt), o.bv = v → o.book = headState env styled b → b.xfDone = false →
      (∀ c d, OldItem.book c d ∈ head → c ∈ bookCodes v ∧ (c = 0x56 → 2 ≤ d.length)) →
      (∀ y, OldItem.sheet y ∈ head → y.isSetting = true ∧ y.OldOk v dec sst) →
      (styled = true → ∀ d', OldItem.book (xfCode v) d' ∉ head ∧ OldItem.book (formatCode v) d' ∉ head) →
      (∀ pre d post, head = pre ++ .book 0x293 d :: post → ∀ d', OldItem.book (xfCode v) d' ∉ post ∧ OldItem.book (formatCode v) d' ∉ post) →
      (∀ q ∈ head.flatMap (·.records v), q.2.length < 65536) →
      mem.drop p = encRecs (head.flatMap (·.records v)) ++ rest →
      applyGlobals (env.recEnv v) b ((headBook head).map newItem) = .ok b1 →
      (∀ b, applyItems (readEnv env v b) o.sheet (headSettings head) = .ok s1) →
      ∃ o1 styled', o1.bv = v ∧ o1.book = headState env styled' b1 ∧ b1.xfDone = false ∧ o1.sheet = s1 ∧
        oldLoop env v mem (k + head.length) o (p : Int) = oldLoop env v mem k o1 ((p + (encRecs (head.flatMap (·.records v))).length : Nat) : Int) := by
  have h8 : v < 80 := by omega
  have h30 : 30 ≤ v := by omega
  intro head
  induction head with
  | nil =>
    intro p o b b1 styled s1 h1 h2 h3 _ _ _ _ _ _ hg hs
    cases hg
    have : applyItems (readEnv env v b) o.sheet [] = .ok s1 := hs b
    cases this
    exact ⟨o, styled, h1, h2, h3, rfl, rfl⟩
  | cons it head ih =>
    intro p o b b1 styled s1 h1 h2 h3 hc hy hst hsty hs hm hg hset
    rw [List.flatMap_cons, encRecs_append, List.append_assoc] at hm
    have hm2 := drop_at hm rfl
    have hs2 : ∀ q ∈ head.flatMap (·.records v), q.2.length < 65536 := fun q hq => hs q (by rw [List.flatMap_cons]; exact List.mem_append_right _ hq)
    have hc2 : ∀ c d, OldItem.book c d ∈ head → c ∈ bookCodes v ∧ (c = 0x56 → 2 ≤ d.length) := fun c d hm => hc c d (List.mem_cons_of_mem _ hm)
    have hy2 : ∀ y, OldItem.sheet y ∈ head → y.isSetting = true ∧ y.OldOk v dec sst := fun y hm => hy y (List.mem_cons_of_mem _ hm)
    have hst2 : styled = true → ∀ d', OldItem.book (xfCode v) d' ∉ head ∧ OldItem.book (formatCode v) d' ∉ head := fun h d' =>
      ⟨fun hm => (hst h d').1 (List.mem_cons_of_mem _ hm), fun hm => (hst h d').2 (List.mem_cons_of_mem _ hm)⟩
    have hsty2 : ∀ pre d post, head = pre ++ .book 0x293 d :: post → ∀ d', OldItem.book (xfCode v) d' ∉ post ∧ OldItem.book (formatCode v) d' ∉ post :=
      fun pre d post he => hsty (it :: pre) d post (by rw [he]; rfl)
    have hlen : ∀ n, p + n + (encRecs (head.flatMap (·.records v))).length = p + (n + (encRecs (head.flatMap (·.records v))).length) := by intro n; omega
    rw [List.length_cons, show k + (head.length + 1) = k + head.length + 1 by omega, List.flatMap_cons, encRecs_append, List.length_append, ← hlen]
    cases it with
    | sheet y =>
      have hset' : ∀ b, applyItems (readEnv env v b) o.sheet (y :: headSettings head) = .ok s1 := hset
      obtain ⟨s', e1, e2⟩ : ∃ s', applyItem (readEnv env v o.book) o.sheet y = .ok s' ∧ applyItems (readEnv env v o.book) s' (headSettings head) = .ok s1 := by
        have := hset' o.book
        rw [applyItems_cons] at this
        exact bind_ok this
      rw [setting_step_ok (k := k + head.length) h8 h30 (hy y (by simp)).1 (hy y (by simp)).2
        (fun q hq => hs q (by rw [List.flatMap_cons]; exact List.mem_append_left _ hq)) h1 hm e1]
      refine ih _ { o with sheet := s' } b b1 styled s1 h1 h2 h3 hc2 hy2 hst2 hsty2 hs2 hm2 hg ?_
      intro b'
      have := hset' b'
      rw [applyItems_cons, setting_apply (hy y (by simp)).1 b' o.book, e1] at this
      exact this
    | book c d =>
      obtain ⟨hcc, h56⟩ := hc c d (by simp)
      have hl : d.length < 65536 := hs (c, d) (by simp [OldItem.records])
      have hm' : mem.drop p = encRec c d ++ (encRecs (head.flatMap (·.records v)) ++ rest) := by rw [hm]; simp [OldItem.records, encRecs]
      obtain ⟨hlt, hne⟩ := bookCodes_lt (.inr hv) hcc
      obtain ⟨b2, g1, g2⟩ : ∃ b2, globalsRecord (env.recEnv v) b (newCode c) d = .ok b2 ∧ applyGlobals (env.recEnv v) b2 ((headBook head).map newItem) = .ok b1 := by
        have : applyGlobals (env.recEnv v) b (.one (newCode c) d :: (headBook head).map newItem) = .ok b1 := hg
        exact bind_ok this
      have hstc : styled = true → c ≠ xfCode v ∧ c ≠ formatCode v := fun h => ⟨fun e => (hst h d).1 (by rw [e]; simp), fun e => (hst h d).2 (by rw [e]; simp)⟩
      obtain ⟨b', h6⟩ := head_book_ok (.inr hv) hcc h2 h3 hstc g1
      obtain ⟨b2', styled2, k1, k2, k3, k4⟩ := head_book (.inr hv) hcc h2 h3 hstc h6
      rw [g1] at k1
      cases k1
      rw [oldLoop, getRecordParts_at hlt hl hm']
      simp only [bind, Except.bind]
      rw [if_neg (show ¬ c = XL_EOF from hne), book_step_ok (.inr hv) h1 hcc h56 h6]
      have hpos : ((p + 4 + d.length : Nat) : Int) = ((p + (encRecs (OldItem.records v (.book c d))).length : Nat) : Int) := by
        simp [OldItem.records, encRecs, encRec_length]; ring
      simp only
      rw [hpos]
      have k5 : styled2 = true → ∀ d', OldItem.book (xfCode v) d' ∉ head ∧ OldItem.book (formatCode v) d' ∉ head := by
        intro h
        rcases k4 h with k | rfl
        · exact hst2 k
        · exact hsty [] d head rfl
      exact ih _ { o with book := b' } b2 b1 styled2 s1 h1 k2 k3 hc2 hy2 k5 hsty2 hs2 hm2 g2 hset

/-- The DIMENSION record. -/
theorem old_dim_ok {env : OpenEnv} {v : Nat} {mem rest : Bytes} {o : OldSt} {x : DimRec} (hs : (x.bytes v).length < 65536) {p k : Nat} (hver : o.bv = v)
    (hm : mem.drop p = encRecs [(0x200, x.bytes v)] ++ rest) {s' : SheetSt} (hd : applyDim (readEnv env v o.book) o.sheet (some x) s') :
    oldLoop env v mem (k + 1) o (p : Int) = oldLoop env v mem k { o with sheet := s', book := if (v = 21 ∨ v = 30 ∨ v = 40) ∧ o.book.fmt.xfList ≠ [] ∧ o.book.xfDone = false then runEpilogue env o.book else o.book }
        ((p + (encRecs [(0x200, x.bytes v)]).length : Nat) : Int) := by
  obtain ⟨a, b, rfl, h1⟩ := hd
  have h1 : dimTuple v (x.bytes v) = .ok (a, b) := h1
  have h2 := (dim_bytes env hs).2
  have hm' : mem.drop p = encRec 0x200 (x.bytes v) ++ rest := by simpa [encRecs] using hm
  rw [oldLoop, getRecordParts_at (by decide) hs hm']
  simp only [bind, Except.bind]
  rw [if_neg (by decide)]
  have hr : oldRecord env v mem o ((p + 4 + (x.bytes v).length : Nat) : Int) 0x200 (x.bytes v).length (x.bytes v) =
      (oldDimension env v o (x.bytes v).length (x.bytes v)).map fun o => (o, ((p + 4 + (x.bytes v).length : Nat) : Int)) := by
    unfold oldRecord
    rw [if_neg (by decide), if_neg (by decide), if_neg (by decide), if_neg (by decide), if_pos (by decide)]
    cases oldDimension env v o (x.bytes v).length (x.bytes v) <;> rfl
  rw [hr]
  have hd : oldDimension env v o (x.bytes v).length (x.bytes v) = .ok { o with
      sheet := { o.sheet with store := { o.sheet.store with nrows := 0, ncols := 0 }, dimnrows := a, dimncols := b }
      book := if (v = 21 ∨ v = 30 ∨ v = 40) ∧ o.book.fmt.xfList ≠ [] ∧ o.book.xfDone = false then runEpilogue env o.book else o.book } := by
    have hrd : recDimension (o.env env) o.sheet (x.bytes v).length (x.bytes v) =
        .ok { o.sheet with store := { o.sheet.store with nrows := 0, ncols := 0 }, dimnrows := a, dimncols := b } := by
      unfold recDimension
      rw [if_neg h2, show (o.env env).bv = v from hver, h1]
      rfl
    unfold oldDimension OldSt.onSheet
    rw [hrd]
    simp only [bind, Except.bind, pure, Except.pure]
    by_cases hc : (v = 21 ∨ v = 30 ∨ v = 40) ∧ o.book.fmt.xfList ≠ [] ∧ o.book.xfDone = false
    · rw [if_pos ⟨h2, hc⟩, if_pos hc]
    · rw [if_neg (fun h => hc h.2), if_neg hc]
  rw [hd]
  have hlen : ((p + 4 + (x.bytes v).length : Nat) : Int) = ((p + (encRecs [(0x200, x.bytes v)]).length : Nat) : Int) := by
    simp [encRecs, encRec_length]; ring
  rw [← hlen]
  rfl

/-! ## The whole file -/

theorem settings_apply {env : OpenEnv} {v : Nat} (b b' : Book) : ∀ (l : List SheetItem) (s : SheetSt), (∀ y ∈ l, y.isSetting = true) →
    applyItems (readEnv env v b) s l = applyItems (readEnv env v b') s l := by
  intro l
  induction l with
  | nil => intro s _; rfl
  | cons y l ih =>
    intro s h
    rw [applyItems_cons, applyItems_cons, setting_apply (h y (by simp)) b b']
    cases applyItem (readEnv env v b') s y with
    | error e => rfl
    | ok s1 => exact ih s1 fun z hz => h z (List.mem_cons_of_mem _ hz)

theorem book_mem {F : OldFile} {c : Nat} {d : Bytes} : OldItem.book c d ∈ F.head ↔ GItem.one c d ∈ F.book := by
  unfold OldFile.book
  rw [List.mem_filterMap]
  constructor
  · intro h; exact ⟨_, h, rfl⟩
  · rintro ⟨i, h, hi⟩
    cases i with
    | book c' d' => cases hi; exact h
    | sheet z => cases hi

/-- A file of BIFF3, BIFF4 or a sheet of BIFF4W is read if its records about the whole file can be read, and the sheet can be read. -/
theorem old_file_ok {env : OpenEnv} {v : Nat} (hv : v = 30 ∨ v = 40 ∨ v = 45) {F : OldFile} {b0 : Book} (hb0 : b0.xfDone = false) {dec : Bytes → R PyStr} {sst : List PyStr}
    (hF : F.Ok v dec sst) (h56 : ∀ d, GItem.one 0x56 d ∈ F.book → 2 ≤ d.length) {b1 : Book}
    (h : applyGlobals (env.recEnv v) b0 (F.book.map newItem) = .ok b1) (hdec : textDec env v b1 = dec ∧ b1.sst.map Prod.fst = sst)
    (henc : ∃ b', ensureEncoding (env.recEnv v) b1 = .ok b')
    (hsheet : ∀ b2, (b2 = b1 ∨ b2 = runEpilogue env b1) → ∃ s, sheetRead (readEnv env v b2) (encRecs (F.layout.records v)) 0 = .ok s)
    (pre rest : Bytes) : ∃ o, oldRead env v (pre ++ encRecs (F.records v) ++ rest) b0 (pre.length : Int) = .ok o := by
  have h8 : v < 80 := by omega
  have h30 : 30 ≤ v := by omega
  set mem := pre ++ encRecs (F.records v) ++ rest with hmem
  have h1 : mem.drop pre.length = encRecs (F.head.flatMap (·.records v)) ++ (encRecs [(0x200, F.dim.bytes v)] ++ (encRecs (F.body.flatMap (·.records v)) ++
      (encRecs [(0xa, F.eof)] ++ rest))) := by
    rw [hmem, List.append_assoc, List.drop_left]
    simp only [OldFile.records, encRecs_append, List.append_assoc]
  have h2 := drop_at h1 rfl
  have h3 := drop_at h2 rfl
  have h4 := drop_at h3 rfl
  have hL := layout_ok hF
  obtain ⟨c1, c2, c3, c4, c5⟩ := hF
  have hmemR : ∀ q, (q ∈ F.head.flatMap (·.records v) ∨ q = (0x200, F.dim.bytes v) ∨ q ∈ F.body.flatMap (·.records v) ∨ q = (0xa, F.eof)) → q.2.length < 65536 := by
    intro q hq
    apply c5
    simp only [OldFile.records, List.mem_append, List.mem_singleton]
    tauto
  -- fuel
  have hlen := congrArg List.length h1
  simp only [List.length_drop, List.length_append] at hlen
  have f1 := encRecs_length_ge (F.head.flatMap (·.records v))
  have f2 := encRecs_length_ge (F.body.flatMap (·.records v))
  have f3 := encRecs_length_ge [(0x200, F.dim.bytes v)]
  have g1 : F.head.length ≤ (F.head.flatMap (·.records v)).length := by
    have : ∀ l : List OldItem, (∀ y, OldItem.sheet y ∈ l → y.isSetting = true ∧ y.OldOk v dec sst) → l.length ≤ (l.flatMap (·.records v)).length := by
      intro l
      induction l with
      | nil => intro _; simp
      | cons i l ih =>
        intro hl
        have := ih fun y hy => hl y (List.mem_cons_of_mem _ hy)
        rw [List.flatMap_cons, List.length_append, List.length_cons]
        have : 1 ≤ (i.records v).length := by
          cases i with
          | book c d => simp [OldItem.records]
          | sheet y =>
            obtain ⟨c, d, hr, _⟩ := setting_record (hl y (by simp)).1 (hl y (by simp)).2
            show 1 ≤ (y.records v).length
            rw [hr]; simp
        omega
    exact this F.head fun y hy => ⟨c2 y (headSettings_mem.mp hy), c3 y (List.mem_append_left _ (headSettings_mem.mp hy))⟩
  have g2 := flatMap_records_length v F.body
  simp only [List.length_singleton] at f3
  obtain ⟨k, hk⟩ : ∃ k, mem.length + 1 = (k + 1 + (F.body.map itemLoops).sum + 1) + F.head.length :=
    ⟨mem.length - (F.body.map itemLoops).sum - 1 - F.head.length, by omega⟩
  -- the sheet alone
  have hdec2 : ∀ b2, (b2 = b1 ∨ b2 = runEpilogue env b1) → textDec env v b2 = dec ∧ b2.sst.map Prod.fst = sst := by
    rintro b2 (rfl | rfl)
    · exact hdec
    · rw [epilogue_textDec]; exact hdec
  have hparts : ∀ b2, (b2 = b1 ∨ b2 = runEpilogue env b1) → ∃ s1 s2 s3 s, applyItems (readEnv env v b2) {} F.layout.head = .ok s1 ∧ applyDim (readEnv env v b2) s1 (some F.dim) s2 ∧
      applyItems (readEnv env v b2) s2 F.body = .ok s3 ∧ sheetFinish (readEnv env v b2) s3 = .ok s := by
    intro b2 hb2
    obtain ⟨s, hs⟩ := hsheet b2 hb2
    have hL' : F.layout.Ok (readEnv env v b2).bv (readEnv env v b2).dec (readEnv env v b2).sst := by
      have : (readEnv env v b2).dec = dec ∧ (readEnv env v b2).sst = sst := hdec2 b2 hb2
      rw [this.1, this.2]; exact hL
    obtain ⟨s1, s2, s3, r1, r2, r3, r4⟩ := read_state h30 hL' (pre := []) (rest := []) (s := s) (by
      rw [List.append_nil, List.nil_append]; exact hs)
    exact ⟨s1, s2, s3, s, r1, r2, r3, r4⟩
  obtain ⟨s1, _, _, _, hs1, _⟩ := hparts b1 (.inl rfl)
  have hset : ∀ b, applyItems (readEnv env v b) ({ bv := v, book := b0 } : OldSt).sheet (headSettings F.head) = .ok s1 := by
    intro b
    exact (settings_apply b b1 (headSettings F.head) _ c2).trans hs1
  obtain ⟨o1, styled, e3, e4, e2, e5, e6⟩ := head_step_ok hv (mem := mem) (dec := dec) (sst := sst) (k + 1 + (F.body.map itemLoops).sum + 1) F.head pre.length
    { bv := v, book := b0 } b0 b1 false s1 rfl rfl hb0
    (fun c d hm => ⟨c1 c d hm, fun e => h56 d (by rw [← e]; exact book_mem.mp hm)⟩)
    (fun y hy => ⟨c2 y (headSettings_mem.mp hy), c3 y (List.mem_append_left _ (headSettings_mem.mp hy))⟩) (fun h => Bool.noConfusion h) c4
    (fun q hq => hmemR q (.inl hq)) h1 h hset
  obtain ⟨b2, hb2⟩ : ∃ b2, b2 = (if (v = 21 ∨ v = 30 ∨ v = 40) ∧ o1.book.fmt.xfList ≠ [] ∧ o1.book.xfDone = false then runEpilogue env o1.book else o1.book) := ⟨_, rfl⟩
  have hbb : b2 = b1 ∨ b2 = runEpilogue env b1 := by
    rw [e4] at hb2
    cases styled with
    | true =>
      rw [if_neg (by simp [headState, runEpilogue])] at hb2
      exact .inr hb2
    | false =>
      simp only [headState, Bool.false_eq_true, if_false] at hb2
      by_cases hc : (v = 21 ∨ v = 30 ∨ v = 40) ∧ b1.fmt.xfList ≠ [] ∧ b1.xfDone = false
      · rw [if_pos hc] at hb2
        exact .inr hb2
      · rw [if_neg hc] at hb2
        exact .inl hb2
  have henc2 : ∃ b', ensureEncoding (env.recEnv v) b2 = .ok b' := by
    rcases hbb with hb | hb
    · rw [hb]; exact henc
    · obtain ⟨b', hb'⟩ := henc
      rw [hb]
      unfold runEpilogue
      rw [ensure_fmt, hb']
      exact ⟨_, rfl⟩
  obtain ⟨t1, s2, s3, s, r1, r2, r3, r4⟩ := hparts b2 hbb
  have ht : t1 = s1 := by
    have := hset b2
    rw [show applyItems (readEnv env v b2) ({ bv := v, book := b0 } : OldSt).sheet (headSettings F.head) = .ok t1 from r1] at this
    cases this; rfl
  subst ht
  have r2' : applyDim (readEnv env v o1.book) o1.sheet (some F.dim) s2 := by
    rw [e5]; exact r2
  have d2 := old_dim_ok (k := k + 1 + (F.body.map itemLoops).sum) (hmemR _ (.inr (.inl rfl))) e3 h2 r2'
  rw [← hb2] at d2
  have hat : At env v b2 { o1 with sheet := s2, book := b2 } { o1 with sheet := s2, book := b2 } := ⟨e3, .inl rfl, rfl, rfl⟩
  obtain ⟨o3, i1, i2, i3⟩ := old_items_ok h8 h30 F.body (k := k + 1) hat henc2 (fun x hx => by
    have := c3 x (List.mem_append_right _ hx)
    refine ⟨fits_old h30 this, ?_, fun q hq => hmemR q (.inr (.inr (.inl (List.mem_flatMap.mpr ⟨x, hx, hq⟩))))⟩
    rw [(hdec2 b2 hbb).1, (hdec2 b2 hbb).2]; exact this.1) h3 r3
  have hq' : mem.drop (pre.length + (encRecs (F.head.flatMap (·.records v))).length + (encRecs [(0x200, F.dim.bytes v)]).length +
      (encRecs (F.body.flatMap (·.records v))).length) = encRec 0xa F.eof ++ rest := by simpa [encRecs] using h4
  unfold oldRead
  rw [hk, e6, d2, i3, oldLoop, getRecordParts_at (by decide) (hmemR (0xa, F.eof) (.inr (.inr (.inr rfl)))) hq']
  simp only [bind, Except.bind]
  rw [if_pos (by decide)]
  simp only [OldSt.onSheet]
  have hcfg : (o3.env env).cfg = (readEnv env v b2).cfg := by
    obtain ⟨d, hd⟩ : ∃ d, o3.env env = { readEnv env v b2 with dec := d } := ⟨_, by
      have := i2.book.env
      unfold OldSt.env
      rw [i2.ver]
      exact this⟩
    rw [hd]
  have hfin : sheetFinish (o3.env env) o3.sheet = .ok s := by
    rw [i1, ← r4]
    unfold sheetFinish
    rw [hcfg]
  refine ⟨{ o3 with sheet := s }, ?_⟩
  show (sheetFinish (o3.env env) o3.sheet >>= fun s => pure { o3 with sheet := s }) = _
  rw [hfin]
  rfl

/-! ## Known XFs -/

/-- XFs are numbered in order; those with a known cell type are XF 0 and the XFs of the file. -/
structure KnownInv (n : Nat) (f : FmtSt) : Prop where
  len : f.xfList.length = n
  num : ∀ (i : Nat) x, f.xfList[i]? = some x → x.xfIndex = i
  known : ∀ k, (f.typeMap k).isSome = true ↔ k = 0 ∨ k < n

theorem xfRecords_append (v : Nat) (a b : List GItem) : xfRecords v (a ++ b) = xfRecords v a + xfRecords v b := List.countP_append ..

theorem known_xfs {env : BookEnv} (hv : env.bv = 21 ∨ env.bv = 30 ∨ env.bv = 40 ∨ env.bv = 45) {b0 : Book} (h0 : KnownInv 0 b0.fmt) (items : List GItem) :
    BookItems env.bv items → ∀ {b : Book}, applyGlobals env b0 (items.map newItem) = .ok b → KnownInv (xfRecords env.bv items) b.fmt := by
  induction items using List.reverseRecOn with
  | nil => intro _ b h; cases h; exact h0
  | append_singleton pre it ih =>
    intro hi b h
    rw [List.map_append] at h
    obtain ⟨b1, e1, e2⟩ := gItems_snoc h
    obtain ⟨i1, i2, i3⟩ := ih hi.init.1 e1
    obtain ⟨c, d, rfl, hc⟩ := hi.init.2
    have e2 : globalsRecord env b1 (newCode c) d = .ok b := e2
    have hf := record_frame e2
    have skip : c ≠ xfCode env.bv → newCode c ≠ XL_XF → KnownInv (xfRecords env.bv (pre ++ [.one c d])) b.fmt := by
      intro hne hne'
      have : xfRecords env.bv (pre ++ [.one c d]) = xfRecords env.bv pre := by
        rw [xfRecords_append]; simp [xfRecords, recordCount, hne]
      rw [this]
      exact ⟨by rw [hf.xfList hne']; exact i1, by rw [hf.xfList hne']; exact i2, by rw [hf.typeMap hne']; exact i3⟩
    rcases newCode_cases hv hc with ⟨n1, n2⟩ | ⟨n1, n2⟩ | ⟨n1, n2, n3, n4⟩
    · exact skip (by rw [n1]; rcases hv with h | h | h | h <;> rw [h] <;> decide) (by rw [n2]; decide)
    · have hcount : xfRecords env.bv (pre ++ [.one c d]) = xfRecords env.bv pre + 1 := by
        rw [xfRecords_append]; simp [xfRecords, recordCount, n1]
      rw [hcount]
      rw [n2] at e2
      obtain ⟨g, h3, e2⟩ := bind_ok (show bookXf env b1 d = .ok b from e2)
      cases e2
      unfold handleXf at h3
      obtain ⟨x, _, h3⟩ := bind_ok h3
      cases h3
      refine ⟨by simp [i1], ?_, ?_⟩
      · intro i y hy
        simp only at hy
        by_cases hlt : i < b1.fmt.xfList.length
        · rw [List.getElem?_append_left hlt] at hy
          exact i2 i y hy
        · rw [List.getElem?_append_right (by omega)] at hy
          have hz : i - b1.fmt.xfList.length = 0 := by
            by_contra hne
            rw [List.getElem?_eq_none (by simp; omega)] at hy
            cases hy
          rw [hz] at hy
          cases hy
          simp only
          omega
      · intro k
        simp only [dictSet]
        by_cases hk : k = b1.fmt.xfList.length
        · rw [if_pos hk]; simp; omega
        · rw [if_neg hk, i3 k]; omega
    · exact skip n2 (by rw [n3]; exact (by decide : ∀ c ∈ [0x31, 0x231, 0x293, 0x92, 0x56, 0x22, 0x42, 0x5c, 0x8c], c ≠ XL_XF) c n4)

theorem known_fold (g : XF → Nat) : ∀ (l : List XF) (tm : Nat → Option Nat) (k : Nat),
    ((l.foldl (fun tm x => dictSet tm x.xfIndex (g x)) tm) k).isSome = true ↔ (tm k).isSome = true ∨ ∃ x ∈ l, x.xfIndex = k := by
  intro l
  induction l with
  | nil => intro tm k; simp
  | cons x l ih =>
    intro tm k
    rw [List.foldl_cons, ih]
    simp only [dictSet]
    by_cases hk : k = x.xfIndex
    · rw [if_pos hk]; simp [hk]
    · rw [if_neg hk]
      constructor
      · rintro (h | ⟨y, hy, e⟩)
        · exact .inl h
        · exact .inr ⟨y, List.mem_cons_of_mem _ hy, e⟩
      · rintro (h | ⟨y, hy, e⟩)
        · exact .inl h
        · rcases List.mem_cons.mp hy with rfl | hy
          · exact absurd e.symm hk
          · exact .inr ⟨y, hy, e⟩

theorem known_epilogue {fi : Bool} {n : Nat} {f : FmtSt} (h : KnownInv n f) (k : Nat) : ((xfEpilogue fi f).typeMap k).isSome = true ↔ k = 0 ∨ k < n := by
  unfold xfEpilogue
  simp only
  rw [known_fold, h.known]
  constructor
  · rintro (h1 | ⟨x, hx, e⟩)
    · exact h1
    · obtain ⟨i, hi, rfl⟩ := List.getElem_of_mem hx
      have := h.num i _ (List.getElem?_eq_getElem hi)
      have := h.len
      omega
  · exact .inl

/-- Which sheets can be read, given the records about the whole file. -/
theorem old_sheet_fits {env : OpenEnv} {v : Nat} (h8 : v < 80) (h30 : 30 ≤ v) {L : Layout} {n : Nat} {b1 b2 : Book} (hk : KnownInv n b1.fmt) (hb : b2 = b1 ∨ b2 = runEpilogue env b1)
    (hL : L.Ok v (textDec env v b2) (b2.sst.map Prod.fst)) :
    (∃ s, sheetRead (readEnv env v b2) (encRecs (L.records v)) 0 = .ok s) ↔
      CellsFit 16384 env.fi n (cellsOf fl env.fi (b2.sst.map Prod.fst) L.items) (mergedRanges env.fi L.items) := by
  have hmax : (readEnv env v b2).cfg.maxRows = 16384 := by
    show (if v ≥ 80 then 65536 else 16384) = _
    rw [if_neg (by omega)]
  have htm : ∀ x : Int, (∃ t, (readEnv env v b2).cfg.typeMap x = some t) ↔ x = 0 ∨ 0 ≤ x ∧ x < n := by
    intro x
    have hx : (readEnv env v b2).cfg.typeMap x = if 0 ≤ x then b2.fmt.typeMap x.toNat else none := rfl
    rw [hx, ← Option.isSome_iff_exists]
    by_cases h0 : 0 ≤ x
    · rw [if_pos h0]
      have : (b2.fmt.typeMap x.toNat).isSome = true ↔ x.toNat = 0 ∨ x.toNat < n := by
        rcases hb with rfl | rfl
        · exact hk.known _
        · exact known_epilogue hk _
      rw [this]; omega
    · rw [if_neg h0]; simp; omega
  have hiff := C12_load_succeeds_iff (readEnv env v b2).cfg (cellsOf fl env.fi (b2.sst.map Prod.fst) L.items) (mergedRanges env.fi L.items) (merged_pos _ _)
  rw [hmax] at hiff
  constructor
  · rintro ⟨s, hs⟩
    have hc := C31_sheet_is_its_cells (readEnv env v b2) h30 L hL [] [] s (by rw [List.append_nil, List.nil_append]; exact hs)
    obtain ⟨h1, h2⟩ := hiff.mp ⟨_, hc⟩
    exact ⟨fun w hw => ⟨(h1 w hw).1, (h1 w hw).2.1⟩, fun w hw hn => (htm _).mp ((h1 w hw).2.2.1 hn), fun hfi w hw => (h1 w hw).2.2.2 hfi, fun hh => (h2 hh).1⟩
  · rintro ⟨h1, h2, h3, h4⟩
    obtain ⟨st, hst⟩ := hiff.mpr ⟨fun w hw => ⟨(h1 w hw).1, (h1 w hw).2, fun hn => (htm _).mpr (h2 w hw hn), fun hfi => h3 hfi w hw⟩,
      fun hh => ⟨h4 hh, (by decide : 0 < 256)⟩⟩
    obtain ⟨s, hs, _⟩ := C31_sheet_loads (readEnv env v b2) h30 (fun _ => ⟨_, rfl⟩) L hL [] [] st hst
    rw [List.append_nil, List.nil_append] at hs
    exact ⟨s, hs⟩

end Xlrd
