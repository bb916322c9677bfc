import Verif.Lemmas.Biff2Xf
import Verif.Lemmas.OldRead
import Verif.Lemmas.UserHist

/-!
# One record of a BIFF2 worksheet
-/
set_option linter.unusedSimpArgs false
namespace Xlrd
open Spec

/-! ## What an item does to the sheet -/

def rowsInto (d : Int → Option Rowinfo) (l : List (Nat × Rowinfo)) : Int → Option Rowinfo := l.foldl (fun d p => dictSet d (p.1 : Int) p.2) d
def widthsInto (d : Int → Option Colinfo) (l : List (Nat × Nat)) : Int → Option Colinfo :=
  l.foldl (fun d p => dictSet d (p.1 : Int) { (d p.1).getD newColinfo with width := p.2 }) d
def defaultsInto (d : Int → Option Colinfo) (l : List (Nat × Nat)) : Int → Option Colinfo :=
  l.foldl (fun d p => dictSet d (p.1 : Int) { (d p.1).getD newColinfo with xfIndex := (p.2 : Int) }) d

/-- A WINDOW2 record: the five options become 1 whatever is in the file. -/
def windowB2 (E : SheetEnv) (s : SheetSt) (top left : Nat) (auto r g b : UInt8) : R SheetSt := do
  let k ← E.nearest (r.toNat, g.toNat, b.toNat)
  pure { s with window2 := (List.replicate 5 1 ++ s.window2.drop 5).set 5 auto.toNat, firstVisibleRowx := top, firstVisibleColx := left,
                gridlineColourRgb := some (r.toNat, g.toNat, b.toNat), gridlineColourIndex := k }

def otherB2 (E : SheetEnv) (s : SheetSt) : B2Item → R SheetSt
  | .setting x => applyItem E s x
  | .window _ top left auto r g b _ => windowB2 E s top left auto r g b
  | _ => .ok s

/-- The effect of an item, `f` and `g` giving the XF indexes. -/
def stepB2 (E : SheetEnv) (f : CellAttr → Nat) (g : Nat → Nat) (s : SheetSt) (it : B2Item) : R SheetSt := do
  let s ← s.puts E (it.cells E.cfg.fmtInfo f)
  otherB2 E { s with rowinfo := rowsInto s.rowinfo (it.rows E.cfg.fmtInfo f g)
                     colinfo := defaultsInto (widthsInto s.colinfo (it.widths E.cfg.fmtInfo)) (it.defaults E.cfg.fmtInfo f) } it

theorem resolve_congr {cfg cfg' : SheetCfg} {ct : Option Nat} {xf : Int} (h : ct = none → cfg'.typeMap xf = cfg.typeMap xf) :
    resolveType cfg' ct xf = resolveType cfg ct xf := by
  unfold resolveType
  cases ct with
  | some t => rfl
  | none => simp only [h rfl]

theorem assign_congr (cfg cfg' : SheetCfg) (h : cfg'.fmtInfo = cfg.fmtInfo) (s : Store) (r c t : Nat) (v : Val) (xf : Int) :
    assign3 cfg' s r c t v xf = assign3 cfg s r c t v xf := by unfold assign3; rw [h]

theorem putCell_congr {cfg cfg' : SheetCfg} (hc : cfg' = { cfg with typeMap := cfg'.typeMap }) (s : Store) (r c : Nat) {ct : Option Nat} (v : Val) {xf : Int}
    (h : ct = none → cfg'.typeMap xf = cfg.typeMap xf) : putCell cfg' s r c ct v xf = putCell cfg s r c ct v xf := by
  have hr := resolve_congr h
  obtain ⟨a, b, c', d, e⟩ := cfg
  obtain ⟨a', b', c'', d', e'⟩ := cfg'
  simp only [SheetCfg.mk.injEq, true_and, and_true] at hc
  obtain ⟨rfl, rfl, rfl, rfl⟩ := hc
  unfold putCell putCellUnragged putCellRagged
  simp only [hr]
  rfl

theorem puts_congr {E E' : SheetEnv} (hc : E'.cfg = { E.cfg with typeMap := E'.cfg.typeMap }) (ws : List Write) :
    ∀ s : SheetSt, (∀ w ∈ ws, w.ctype = none → E'.cfg.typeMap w.xf = E.cfg.typeMap w.xf) → s.puts E' ws = s.puts E ws := by
  induction ws with
  | nil => intro s _; rfl
  | cons w ws ih =>
    intro s h
    rw [puts_cons, puts_cons E]
    have : s.puts E' [w] = s.puts E [w] := by
      unfold SheetSt.puts putAll
      simp only [List.foldlM_cons, List.foldlM_nil]
      rw [putCell_congr hc _ _ _ _ (h w (by simp))]
    rw [this]
    congr 1
    funext s
    exact ih s fun w hw => h w (List.mem_cons_of_mem _ hw)

/-- The effect of an item depends on the XFs of its attributes only. -/
theorem step_transport {E E' : SheetEnv} {f f' : CellAttr → Nat} {g : Nat → Nat} (s : SheetSt) {it : B2Item}
    (hc : E'.cfg = { E.cfg with typeMap := E'.cfg.typeMap }) (hn : E'.nearest = E.nearest) (hp : ∀ x, it = .setting x → x.isPlain = true)
    (hf : ∀ a ∈ it.attrs E.cfg.fmtInfo, f' a = f a ∧ E'.cfg.typeMap (f a) = E.cfg.typeMap (f a)) :
    stepB2 E' f' g s it = stepB2 E f g s it := by
  have hfi : E'.cfg.fmtInfo = E.cfg.fmtInfo := by rw [hc]
  have h1 : it.cells E'.cfg.fmtInfo f' = it.cells E.cfg.fmtInfo f ∧ ∀ w ∈ it.cells E.cfg.fmtInfo f, w.ctype = none → E'.cfg.typeMap w.xf = E.cfg.typeMap w.xf := by
    rw [hfi]
    cases it with
    | blank r c a junk =>
      simp only [B2Item.attrs, B2Item.cells] at hf ⊢
      cases hb : E.cfg.fmtInfo with
      | false => exact ⟨rfl, fun w hw => by cases hw⟩
      | true =>
        rw [hb] at hf
        simp only [if_true, List.mem_singleton, forall_eq] at hf ⊢
        exact ⟨by rw [hf.1], fun h => by cases h⟩
    | number r c a x =>
      simp only [B2Item.attrs, B2Item.cells, List.mem_singleton, forall_eq] at hf ⊢
      exact ⟨by rw [hf.1], fun _ => hf.2⟩
    | integer r c a x =>
      simp only [B2Item.attrs, B2Item.cells, List.mem_singleton, forall_eq] at hf ⊢
      exact ⟨by rw [hf.1], fun _ => hf.2⟩
    | label r c a t b junk =>
      simp only [B2Item.attrs, B2Item.cells, List.mem_singleton, forall_eq] at hf ⊢
      exact ⟨by rw [hf.1], fun h => by cases h⟩
    | boolerr r c a i v =>
      simp only [B2Item.attrs, B2Item.cells, List.mem_singleton, forall_eq] at hf ⊢
      exact ⟨by rw [hf.1], fun h => by cases h⟩
    | formula r c a res code flags junk =>
      simp only [B2Item.attrs, B2Item.cells, List.mem_singleton, forall_eq] at hf ⊢
      exact ⟨by rw [hf.1], fun _ => hf.2⟩
    | _ => exact ⟨rfl, fun w hw => by cases hw⟩
  have h2 : it.rows E'.cfg.fmtInfo f' g = it.rows E.cfg.fmtInfo f g := by
    rw [hfi]
    cases it with
    | row r p h d q rest xf =>
      cases xf with
      | attr p a junk =>
        simp only [B2Item.attrs, B2Item.rows] at hf ⊢
        by_cases hb : E.cfg.fmtInfo = true ∧ r < 16384
        · rw [if_pos hb] at hf ⊢
          simp only [List.mem_singleton, forall_eq] at hf
          simp only [RowXf.xfIndex, hf.1, if_pos hb]
        · rw [if_neg hb, if_neg hb]
      | _ => rfl
    | _ => rfl
  have h3 : it.defaults E'.cfg.fmtInfo f' = it.defaults E.cfg.fmtInfo f := by
    rw [hfi]
    cases it with
    | coldefault first as junk =>
      simp only [B2Item.attrs, B2Item.defaults] at hf ⊢
      cases hb : E.cfg.fmtInfo with
      | false => rfl
      | true =>
        rw [hb] at hf
        simp only [if_true] at hf ⊢
        apply List.ext_getElem?
        intro i
        rw [List.getElem?_mapIdx, List.getElem?_mapIdx]
        cases hi : as[i]? with
        | none => rfl
        | some a => simp only [Option.map_some]; rw [(hf a (List.mem_of_getElem? hi)).1]
    | _ => rfl
  have h4 : ∀ s, otherB2 E' s it = otherB2 E s it := by
    intro s
    cases it with
    | setting x =>
      have := hp x rfl
      show applyItem E' s x = applyItem E s x
      cases x <;> first | rfl | (cases this; done) | (simp only [applyItem, hfi])
    | window o top left auto r g b junk => show windowB2 E' _ _ _ _ _ _ _ = _; unfold windowB2; rw [hn]; rfl
    | _ => rfl
  unfold stepB2
  rw [h1.1, h2, h3, puts_congr hc _ s h1.2, hfi]
  simp only [h4]

/-! ## Invariants -/

/-- The XF of attributes: `m` says that there are XF records. -/
def xfOf (m : Bool) (o : OldSt) (i : Option Nat) (a : CellAttr) : Nat := if m then ixfeIndex i a.slot else (o.attrXf a.bytes).getD 0

structure B2Inv (env : OpenEnv) (m : Bool) (dec : Bytes → R PyStr) (o : OldSt) : Prop where
  dec : textDec env o.bv o.book = dec
  ver : o.bv = 21 ∨ o.bv = 20
  xfs : m = true → o.bv = 21 ∧ o.book.fmt.xfList ≠ []
  none : m = false → (o.bv = 21 → o.book.fmt.xfList = []) ∧ Good o

structure B2Ext (env : OpenEnv) (m : Bool) (o o' : OldSt) : Prop where
  fmt : FmtExt o.book.fmt o'.book.fmt
  same : m = true → o'.book.fmt = o.book.fmt
  attr : ∀ a k, o.attrXf a = some k → o'.attrXf a = some k
  book : ∃ e c u r, o'.book = { o.book with encoding := e, codepage := c, userName := u, rawUser := r, fmt := o'.book.fmt }
  user : ∀ hist, EncInv (env.recEnv 21) hist o.book → UserHist (env.recEnv 21) hist o.book → EncInv (env.recEnv 21) hist o'.book ∧ UserHist (env.recEnv 21) hist o'.book
  enc : o.book.encoding ≠ none → o'.book.encoding ≠ none

theorem B2Ext.refl (env : OpenEnv) (m : Bool) (o : OldSt) : B2Ext env m o o := ⟨FmtExt.refl _, fun _ => rfl, fun _ _ h => h, ⟨_, _, _, _, rfl⟩, fun _ h1 h2 => ⟨h1, h2⟩, fun h => h⟩

theorem B2Ext.trans {env : OpenEnv} {m : Bool} {a b c : OldSt} (h1 : B2Ext env m a b) (h2 : B2Ext env m b c) : B2Ext env m a c where
  fmt := h1.fmt.trans h2.fmt
  same h := (h2.same h).trans (h1.same h)
  attr x k h := h2.attr x k (h1.attr x k h)
  book := by
    obtain ⟨e, c', u, r, hb⟩ := h1.book
    obtain ⟨e2, c2, u2, r2, hc⟩ := h2.book
    exact ⟨e2, c2, u2, r2, by rw [hc, hb]⟩
  user hist h h' := h2.user hist (h1.user hist h h').1 (h1.user hist h h').2
  enc h := h2.enc (h1.enc h)

/-- What is known of attributes that have been used. -/
def B2Known (m : Bool) (o : OldSt) (i : Option Nat) (a : CellAttr) : Prop :=
  (m = true → a.slot = 63 → i ≠ none) ∧ (m = false → a.slot = 0 ∧ ∃ k, o.attrXf a.bytes = some k)

theorem B2Known.ext {env : OpenEnv} {m : Bool} {o o' : OldSt} {i : Option Nat} {a : CellAttr} (h : B2Known m o i a) (he : B2Ext env m o o') : B2Known m o' i a ∧ xfOf m o' i a = xfOf m o i a := by
  refine ⟨⟨h.1, fun hm => ?_⟩, ?_⟩
  · obtain ⟨h1, k, hk⟩ := h.2 hm
    exact ⟨h1, k, he.attr _ _ hk⟩
  · unfold xfOf
    cases m with
    | true => rfl
    | false =>
      obtain ⟨_, k, hk⟩ := h.2 rfl
      rw [hk, he.attr _ _ hk]

theorem codepage_bv {v w : Nat} (hv : v < 80) (hw : w < 80) (cp : Nat) : codepageEncoding v cp = codepageEncoding w cp := by
  unfold codepageEncoding
  have h1 : ¬ v ≥ 80 := by omega
  have h2 : ¬ w ≥ 80 := by omega
  simp only [h1, h2]

theorem choose_bv {env : OpenEnv} {v w : Nat} (hv : v < 80) (hw : w < 80) (b : Book) : chooseEncoding (env.recEnv v) b = chooseEncoding (env.recEnv w) b := by
  unfold chooseEncoding
  have h1 : (env.recEnv v).bv < 80 := hv
  have h2 : (env.recEnv w).bv < 80 := hw
  simp only [if_pos h1, if_pos h2]
  show (if env.override ≠ [] then _ else _) = (if env.override ≠ [] then _ else _)
  by_cases ho : env.override ≠ []
  · rw [if_pos ho, if_pos ho]; rfl
  · rw [if_neg ho, if_neg ho]
    cases b.codepage with
    | none => rfl
    | some cp => simp only [codepage_bv h1 h2]

theorem textDec_bv {env : OpenEnv} {v w : Nat} (hv : v < 80) (hw : w < 80) (b : Book) : textDec env v b = textDec env w b := by
  funext x
  unfold textDec
  rw [choose_bv hv hw]

theorem textDec_fmt (env : OpenEnv) (v : Nat) (b : Book) (f : FmtSt) : textDec env v { b with fmt := f } = textDec env v b := by
  funext x
  unfold textDec
  have := choose_fmt (env.recEnv v) b f b.xfDone
  rw [show chooseEncoding (env.recEnv v) { b with fmt := f } = _ from this]
  cases b.encoding <;> rfl

/-- Attributes of a cell become an XF index. -/
theorem fix_step {env : OpenEnv} {m : Bool} {dec : Bytes → R PyStr} {o o' : OldSt} (h : B2Inv env m dec o) {a : CellAttr} {x : Nat}
    (hf : fixXf o (some a.bytes) none = .ok (x, o')) :
    B2Inv env m dec o' ∧ B2Ext env m o o' ∧ o'.sheet = o.sheet ∧ o'.ixfe = o.ixfe ∧ x = xfOf m o' o.ixfe a ∧ B2Known m o' o.ixfe a ∧
      (m = false → ∀ as, Num as o → Num (as ++ [a]) o') := by
  unfold fixXf at hf
  cases m with
  | true =>
    rw [if_pos (h.xfs rfl)] at hf
    have hb : recordedXf (some a.bytes) none = .ok a.slot := by
      show (do let x ← byteAt a.bytes 0; pure (x &&& 0x3F)) = _
      rw [show byteAt a.bytes 0 = .ok a.a0.toNat from rfl]
      show Except.ok (a.a0.toNat &&& 0x3F) = _
      rw [(attr_bits0 ⟨a.a0.toNat, a.a0.toNat_lt⟩).1]; rfl
    rw [hb] at hf
    simp only [bind, Except.bind] at hf
    by_cases h63 : a.slot = 0x3F
    · rw [if_pos h63] at hf
      cases hi : o.ixfe with
      | none => rw [hi] at hf; cases hf
      | some i =>
        rw [hi] at hf
        cases hf
        exact ⟨h, B2Ext.refl _ _ _, rfl, hi, by simp [xfOf, ixfeIndex, h63, hi], ⟨fun _ _ => by simp [hi], fun h => by cases h⟩, fun h => by cases h⟩
    · rw [if_neg h63] at hf
      cases hf
      exact ⟨h, B2Ext.refl _ _ _, rfl, rfl, by simp [xfOf, ixfeIndex, h63], ⟨fun _ hh => absurd hh h63, fun h => by cases h⟩, fun h => by cases h⟩
  | false =>
    obtain ⟨h1, h2⟩ := h.none rfl
    rw [if_neg (fun hh => hh.2 (h1 hh.1))] at hf
    have h3 : ∃ o1, (if o.bv = 21 then { o with bv := 20 } else o) = o1 ∧ o1 = { o with bv := 20 } := by
      refine ⟨_, rfl, ?_⟩
      by_cases hv : o.bv = 21
      · rw [if_pos hv]
      · rw [if_neg hv]
        have : o.bv = 20 := by have := h.ver; omega
        rw [← this]
    obtain ⟨o1, e1, e2⟩ := h3
    simp only [e1] at hf
    have hg : Good o1 := by rw [e2]; exact ⟨h2.empty, h2.len, h2.lt, h2.inj, h2.stands⟩
    obtain ⟨k, o2, g1, g2, g3, g4, g5, g6, g7⟩ := attr_index hg a (attr_index_slot hf)
    have hnum : ∀ as, Num as o → Num (as ++ [a]) o2 := fun as hn => attr_num hg (hn.congr (by rw [e2]) (by rw [e2])) g1
    rw [g1] at hf
    cases hf
    have hbook : o'.book = { o.book with fmt := o'.book.fmt } := by rw [g6, e2]
    have hbv : o'.bv = 20 := by rw [g6, e2]
    rw [e2] at g4 g5
    refine ⟨⟨?_, .inr hbv, fun h => (by cases h), fun _ => ⟨fun h => by omega, g2⟩⟩, ⟨g5, fun h => (by cases h), g4, ⟨_, _, _, _, hbook⟩, fun _ hx hy => ⟨hx.congr (by rw [hbook]) (by rw [hbook]), hy.congr (by rw [hbook]; exact ⟨rfl, rfl, rfl⟩)⟩, fun h => by rw [hbook]; exact h⟩, ?_, ?_, ?_, ?_, fun _ => hnum⟩
    · rw [hbook, textDec_fmt, hbv, ← h.dec]
      exact textDec_bv (by decide) (by have := h.ver; omega) _
    · rw [g6, e2]
    · rw [g6, e2]
    · simp [xfOf, g3]
    · exact ⟨fun h => (by cases h), fun _ => ⟨attr_index_slot g1, x, g3⟩⟩

/-- The versions before BIFF8 do not differ in this. -/
theorem ensure_21 (env : OpenEnv) {v : Nat} (h8 : v < 80) (b : Book) : ensureEncoding (env.recEnv v) b = ensureEncoding (env.recEnv 21) b := by
  have hc : chooseEncoding (env.recEnv v) b = chooseEncoding (env.recEnv 21) b := by
    unfold chooseEncoding codepageEncoding
    show (if env.override ≠ [] then _ else _) = (if env.override ≠ [] then _ else _)
    simp only [show (env.recEnv v).bv = v from rfl, show (env.recEnv 21).bv = 21 from rfl, if_pos h8, if_pos (show 21 < 80 by omega), if_neg (show ¬ v ≥ 80 by omega), if_neg (show ¬ 21 ≥ 80 by omega)]
    rfl
  unfold ensureEncoding deriveEncoding
  rw [hc]
  rfl

theorem ensured_21 {env : OpenEnv} {v : Nat} (h8 : v < 80) {hist : List GItem} {b b' : Book} (hb : ensureEncoding (env.recEnv v) b = .ok b') (h : EncInv (env.recEnv 21) hist b)
    (hu : UserHist (env.recEnv 21) hist b) : EncInv (env.recEnv 21) hist b' ∧ UserHist (env.recEnv 21) hist b' := by
  rw [ensure_21 env h8] at hb
  exact ⟨(ensure_inv h hb).1, hu.ensure (show 21 < 80 by omega) h hb⟩

/-- The encoding is determined. -/
theorem encoding_step {env : OpenEnv} {m : Bool} {dec : Bytes → R PyStr} {o o' : OldSt} (h : B2Inv env m dec o) {n : Bool} (he : o.withEncoding env n = .ok o') :
    B2Inv env m dec o' ∧ B2Ext env m o o' ∧ o' = { o with book := o'.book } ∧ (n = true → (o'.env env).dec = dec) ∧ o'.book.fmt = o.book.fmt := by
  unfold OldSt.withEncoding at he
  cases n with
  | false =>
    simp only [Bool.false_eq_true, if_false, Except.ok.injEq] at he
    subst he
    exact ⟨h, B2Ext.refl _ _ _, rfl, fun h => (by cases h), rfl⟩
  | true =>
    simp only [if_true] at he
    unfold OldSt.onBook at he
    obtain ⟨b', hb, he⟩ := bind_ok he
    cases he
    have h8 : o.bv < 80 := by have := h.ver; omega
    have hsome := ensure_some (env := env.recEnv o.bv) h8 hb
    have hd : libDec env b' = textDec env o.bv o.book := by
      have := ensured_env hb
      exact congrArg SheetEnv.dec this
    have hd2 : textDec env o.bv b' = libDec env b' := by
      funext x
      unfold textDec libDec
      cases hc : b'.encoding with
      | none => rw [hc] at hsome; cases hsome
      | some e => rfl
    obtain ⟨e, c, u, r, hbb⟩ := ensure_frame hb
    have hfmt : b'.fmt = o.book.fmt := by rw [hbb]
    refine ⟨⟨?_, h.ver, fun hm => ?_, fun hm => ?_⟩, ⟨?_, fun _ => hfmt, fun _ _ h => h, ⟨e, c, u, r, ?_⟩, fun hist hx hy => ensured_21 h8 hb hx hy, fun _ => by show b'.encoding ≠ none; intro hn; rw [hn] at hsome; cases hsome⟩, rfl, fun _ => ?_, hfmt⟩
    · show textDec env o.bv b' = dec
      rw [hd2, hd, h.dec]
    · exact ⟨(h.xfs hm).1, by show b'.fmt.xfList ≠ []; rw [hfmt]; exact (h.xfs hm).2⟩
    · obtain ⟨h1, h2⟩ := h.none hm
      refine ⟨fun hv => by show b'.fmt.xfList = []; rw [hfmt]; exact h1 hv, ?_⟩
      refine ⟨fun hh => h2.empty (by rw [← hfmt]; exact hh), fun hh => ?_, fun a k hk => ?_, h2.inj, fun a k hk => ?_⟩
      · show 16 ≤ b'.fmt.xfList.length; rw [hfmt]; exact h2.len (by rw [← hfmt]; exact hh)
      · show k < b'.fmt.xfList.length; rw [hfmt]; exact h2.lt a k hk
      · have := h2.stands a k hk
        unfold Stands at this ⊢
        simp only [hfmt]
        exact this
    · show FmtExt o.book.fmt b'.fmt; rw [hfmt]; exact FmtExt.refl _
    · show b' = { o.book with encoding := e, codepage := c, userName := u, rawUser := r, fmt := b'.fmt }
      rw [hbb]
    · show libDec env b' = dec
      rw [hd, h.dec]

theorem B2Inv.sheet {env : OpenEnv} {m : Bool} {dec : Bytes → R PyStr} {o : OldSt} (h : B2Inv env m dec o) (s : SheetSt) (i : Option Nat) :
    B2Inv env m dec { o with sheet := s, ixfe := i } :=
  ⟨h.dec, h.ver, h.xfs, fun hm => ⟨(h.none hm).1, ⟨(h.none hm).2.empty, (h.none hm).2.len, (h.none hm).2.lt, (h.none hm).2.inj, (h.none hm).2.stands⟩⟩⟩

theorem B2Ext.sheet {env : OpenEnv} {m : Bool} {o o' : OldSt} (h : B2Ext env m o o') (s : SheetSt) (i : Option Nat) : B2Ext env m o { o' with sheet := s, ixfe := i } :=
  ⟨h.fmt, h.same, h.attr, h.book, h.user, h.enc⟩

/-- The environments of two moments differ in the cell types only. -/
theorem env_ext {env : OpenEnv} {m : Bool} {dec : Bytes → R PyStr} {o o' : OldSt} (h : B2Inv env m dec o) (h' : B2Inv env m dec o') (he : B2Ext env m o o') :
    (o'.env env).cfg = { (o.env env).cfg with typeMap := (o'.env env).cfg.typeMap } ∧ (o'.env env).nearest = (o.env env).nearest := by
  have hv : ¬ o.bv ≥ 80 := by have := h.ver; omega
  have hv' : ¬ o'.bv ≥ 80 := by have := h'.ver; omega
  refine ⟨?_, ?_⟩
  · show SheetCfg.mk _ _ (if o'.bv ≥ 80 then 65536 else 16384) _ _ = SheetCfg.mk _ _ (if o.bv ≥ 80 then 65536 else 16384) _ _
    rw [if_neg hv, if_neg hv']
    rfl
  · funext rgb
    show Except.ok (nearestColourIndex o'.book.fmt.colourMap rgb) = Except.ok (nearestColourIndex o.book.fmt.colourMap rgb)
    rw [he.fmt.rest]

/-- The XF indexes of attributes in use, and their cell types, stay as they are. -/
theorem known_ext {env : OpenEnv} {m : Bool} {dec : Bytes → R PyStr} {o o' : OldSt} (h : B2Inv env m dec o) (he : B2Ext env m o o') {i : Option Nat} {a : CellAttr}
    (hk : B2Known m o i a) : xfOf m o' i a = xfOf m o i a ∧ (o'.env env).cfg.typeMap (xfOf m o i a) = (o.env env).cfg.typeMap (xfOf m o i a) := by
  refine ⟨(hk.ext he).2, ?_⟩
  show (if (0 : Int) ≤ ((xfOf m o i a : Nat) : Int) then o'.book.fmt.typeMap ((xfOf m o i a : Nat) : Int).toNat else none) =
    (if (0 : Int) ≤ ((xfOf m o i a : Nat) : Int) then o.book.fmt.typeMap ((xfOf m o i a : Nat) : Int).toNat else none)
  rw [if_pos (Int.natCast_nonneg _), if_pos (Int.natCast_nonneg _), Int.toNat_natCast]
  cases m with
  | true => rw [he.same rfl]
  | false =>
    obtain ⟨_, k, hk'⟩ := hk.2 rfl
    have : xfOf false o i a = k := by simp [xfOf, hk']
    rw [this]
    exact he.fmt.types k ((h.none rfl).2.lt _ _ hk')

/-- The IXFE record in force after an item. -/
def nextIxfe (i : Option Nat) : B2Item → Option Nat
  | .ixfe x => some x
  | _ => i

/-- An item has been read. -/
structure B2Done (env : OpenEnv) (m : Bool) (dec : Bytes → R PyStr) (o o' : OldSt) (it : B2Item) : Prop where
  inv : B2Inv env m dec o'
  ext : B2Ext env m o o'
  ixfe : o'.ixfe = nextIxfe o.ixfe it
  step : stepB2 (o'.env env) (xfOf m o' o.ixfe) (ixfeIndex o.ixfe) o.sheet it = .ok o'.sheet
  known : ∀ a ∈ it.attrs env.fi, B2Known m o' o.ixfe a
  num : m = false → ∀ as, Num as o → Num (as ++ it.attrs env.fi) o'

end Xlrd
