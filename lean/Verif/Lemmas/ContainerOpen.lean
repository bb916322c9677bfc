import Verif.Lemmas.Container
import Verif.Props.CompDoc
import Mathlib.Data.List.Nodup
import Mathlib.Data.List.Perm.Subperm

/-! # Lemmas: opening a stored compound document and reading its streams -/
set_option linter.unusedSimpArgs false
namespace Xlrd
open Spec

theorem nodup_length {l : List Nat} {n : Nat} (hn : l.Nodup) (h : ∀ k ∈ l, k < n) : l.length ≤ n := by
  have := (List.subperm_of_subset hn (l₂ := List.range n) (fun k hk => List.mem_range.mpr (h k hk))).length_le
  simpa using this

theorem chain_lt {sat s secs} (h : Chain sat s secs) : ∀ k ∈ secs, k < sat.length := by
  induction h with
  | done => simp
  | next k n rest hk _ ih =>
    intro j hj
    rcases List.mem_cons.mp hj with rfl | hj
    · by_contra hx; rw [List.getElem?_eq_none (by omega)] at hk; cases hk
    · exact ih j hj

theorem whole_length {mem : Bytes} {sec : Nat} {l : List Nat} (hn : l.Nodup) (h : ∀ k ∈ l, Whole mem 512 sec k) :
    l.length * sec ≤ mem.length - 512 := by
  rcases Nat.eq_zero_or_pos sec with h0 | h0
  · subst h0; simp
  · rw [← Nat.le_div_iff_mul_le h0]
    refine nodup_length hn fun k hk => ?_
    have := h k hk
    unfold Whole at this
    have e : k + 1 ≤ (mem.length - 512) / sec := by
      rw [Nat.le_div_iff_mul_le h0]; omega
    omega

theorem Header.sec_facts (h : Header) (ok : h.Ok) : h.sec % 4 = 0 ∧ 8 ≤ h.sec := by
  have e : h.sec = 8 * 2 ^ (h.sectorExp - 3) := by
    unfold Header.sec
    rw [show (8 : Nat) = 2 ^ 3 from rfl, ← pow_add]
    congr 1
    have := ok.expLo; omega
  have := Nat.two_pow_pos (h.sectorExp - 3)
  omega

theorem sectors_length (mem : Bytes) (sec : Nat) (l : List Nat) (h : ∀ k ∈ l, Whole mem 512 sec k) :
    (sectors mem 512 sec l).length = l.length * sec := by
  induction l with
  | nil => simp [sectors]
  | cons k ks ih =>
    have := ih fun j hj => h j (by simp [hj])
    simp only [sectors, List.flatMap_cons, List.length_append, List.length_cons] at this ⊢
    rw [this, sector_length _ _ _ _ (h k (by simp))]
    ring

theorem begun_lt {mem : Bytes} {sec k : Nat} (hs : 0 < sec) (h : Begun mem sec k) : k < memDataSecs mem.length sec := (begun_iff mem sec k hs).mp h

/-- What sectors hold is not more than the file has. -/
theorem holds_size_le {mem : Bytes} {sec : Nat} {secs : List Nat} {size : Nat} (hh : Holds mem sec secs size) (hn : secs.Nodup)
    (hs : size ≤ secs.length * sec) : size ≤ mem.length - 512 := by
  rcases List.eq_nil_or_concat secs with rfl | ⟨l, k, rfl⟩
  · simp at hs; omega
  · rw [List.concat_eq_append] at hn hs hh
    have hw := hh.whole
    have hl := hh.last k (by simp)
    rw [List.dropLast_concat] at hw
    simp only [List.length_append, List.length_cons, List.length_nil, Nat.zero_add, Nat.add_sub_cancel] at hl hs
    by_cases hk : Whole mem 512 sec k
    · have := whole_length hn (fun j hj => by
        rcases List.mem_append.mp hj with hj | hj
        · exact hw j hj
        · rw [List.mem_singleton] at hj; exact hj ▸ hk)
      simp only [List.length_append, List.length_cons, List.length_nil, Nat.zero_add] at this
      omega
    · obtain ⟨n1, _, dj⟩ := List.nodup_append.mp hn
      have hlt : ∀ j ∈ l, j < k := by
        intro j hj
        have h1 := dj j hj k (by simp)
        by_contra hx
        apply hk
        have := hw j hj
        unfold Whole at this ⊢
        have := Nat.mul_le_mul_right sec (show k + 1 ≤ j + 1 by omega)
        omega
      have := Nat.mul_le_mul_right sec (nodup_length n1 hlt)
      have := hh.begun k (by simp)
      unfold Begun at this
      omega

theorem holds_length {mem : Bytes} {sec : Nat} {secs : List Nat} {size : Nat} (hh : Holds mem sec secs size) (hn : secs.Nodup) (hs : 0 < sec) :
    secs.length ≤ mem.length :=
  Nat.le_trans (nodup_length hn fun k hk => begun_lt hs (hh.begun k hk)) (memDataSecs_le mem.length sec hs)

theorem holds_sectors {mem : Bytes} {sec : Nat} {secs : List Nat} {size : Nat} (hh : Holds mem sec secs size)
    (hs : size ≤ secs.length * sec) : size ≤ (sectors mem 512 sec secs).length := by
  rcases List.eq_nil_or_concat secs with rfl | ⟨l, k, rfl⟩
  · simp at hs; omega
  · rw [List.concat_eq_append] at hs hh ⊢
    have hw := hh.whole
    have hl := hh.last k (by simp)
    rw [List.dropLast_concat] at hw
    simp only [List.length_append, List.length_cons, List.length_nil, Nat.zero_add, Nat.add_sub_cancel] at hl hs
    have := sectors_length mem sec l hw
    have e : Spec.sectors mem 512 sec (l ++ [k]) = Spec.sectors mem 512 sec l ++ sector mem 512 sec k := by simp [Spec.sectors]
    rw [e, List.length_append, this]
    unfold sector
    rw [List.length_take, List.length_drop]
    rw [Nat.add_mul] at hs
    omega

/-- A document that has been opened, and from which the sectors `used` have been read. -/
structure Opened (mem : Bytes) (h : Header) (p : Parts) (t : DTree) (used : List Nat) (cd : CompDoc) : Prop where
  bytes : cd.mem = mem
  secSize : cd.secSize = h.sec
  shortSecSize : cd.shortSecSize = h.shortSec
  minSize : cd.minSizeStd = h.minSize
  len : cd.memDataLen = (mem.length : Int) - 512
  sat : cd.sat = p.sat
  ssat : cd.ssat = p.ssat
  sscs : 0 < p.root.size → cd.sscs = some (p.shorts mem h)
  kids : Kids cd.dirlist 0 t
  nodes : ∀ (j : Nat) e, p.entries[j]? = some e → ∃ n, cd.dirlist[j]? = some n ∧ n.name = e.name ∧ n.etype = e.kind.toNat ∧
    n.firstSid = e.first ∧ n.totSize = e.size ∧ n.did = j
  used : Used (memDataSecs mem.length h.sec) cd.seen used

theorem readSscs_enc (mem : Bytes) (h : Header) (p : Parts) (hs : ShortParts mem h p) (fuel : Nat) (hf : mem.length < fuel)
    (hw : Holds mem h.sec p.shortSecs p.root.size) (d : DirNode) (h1 : d.firstSid = p.root.first) (h2 : d.totSize = p.root.size)
    (seen seen') (hm : Marked seen p.shortSecs 4 seen') (hl : seen'.length = seen.length) (hsec : 8 ≤ h.sec) :
    readSscs fuel seen mem p.sat h.sec d = some (.ok (if 0 < p.root.size then some (p.shorts mem h) else none, seen')) := by
  unfold readSscs
  rw [h1, h2]
  cases hs with
  | none a b =>
    rw [b] at hm
    have e : seen' = seen := by apply List.ext_getElem?; intro k; simpa using hm.after k
    rw [if_pos (by omega), if_neg (by omega), e]
  | some a b c =>
    have hlen := holds_length hw (Chain.nodup c) (by omega)
    have hneg : ¬ p.root.first < 0 := by
      intro hx
      rw [(chain_neg c hx).2] at b; simp at b; omega
    rw [if_neg (by omega), if_pos a]
    rw [show (512 : Int) = ((512 : Nat) : Int) from rfl, getStream_complete seen mem 512 p.sat h.sec p.root.first _ (some 4) (by simp) p.shortSecs c seen'
      ⟨hm, hl, fun _ => by omega⟩ fuel (by omega)]
    simp only
    rw [piecesOf_some mem 512 h.sec p.shortSecs _ hw.whole]
    rfl

theorem init_enc (mem : Bytes) (h : Header) (p : Parts) (t : DTree) (doc : Document mem h p t) (ignore : Bool) (fuel depth : Nat)
    (hf : mem.length < fuel) (hd : t.height ≤ depth) :
    ∃ cd, compDocInit fuel depth mem ignore = some (.ok cd) ∧ Opened mem h p t p.secs cd ∧ cd.ignore = ignore := by
  obtain ⟨hsec4, hsec8⟩ := Header.sec_facts h doc.headerOk
  obtain ⟨e1, e2⟩ := cdHeader_enc mem h doc.headerOk doc.header
  have hn := memDataSecs_le mem.length h.sec (by omega)
  obtain ⟨hw1, hw2, hw3, hw5⟩ : (∀ k ∈ p.extSecs, Whole mem 512 h.sec k) ∧ (∀ k ∈ p.satSecs, Whole mem 512 h.sec k) ∧
      (∀ k ∈ p.dirSecs, Whole mem 512 h.sec k) ∧ (∀ k ∈ p.ssatSecs, Whole mem 512 h.sec k) := by
    refine ⟨?_, ?_, ?_, ?_⟩ <;> intro k hk <;> exact doc.whole k (by simp [hk])
  have hw4 := doc.shorts
  have lt : ∀ k, Whole mem 512 h.sec k → k < memDataSecs mem.length h.sec := fun k hk => whole_lt mem h.sec k (by omega) hk
  have hnd := doc.distinct
  unfold Parts.secs at hnd
  obtain ⟨hnd, n5, dj5⟩ := List.nodup_append.mp hnd
  obtain ⟨hnd, n4, dj4⟩ := List.nodup_append.mp hnd
  obtain ⟨hnd, n3, dj3⟩ := List.nodup_append.mp hnd
  obtain ⟨n1, n2, dj2⟩ := List.nodup_append.mp hnd
  have u0 : Used (memDataSecs mem.length h.sec) (List.replicate (memDataSecs mem.length h.sec) 0) [] :=
    ⟨by simp, fun k hk _ => by rw [List.getElem?_replicate, if_pos hk]⟩
  obtain ⟨s1, m1, l1⟩ := marked_exists _ p.extSecs 1 n1 (fun k hk => u0.fresh (lt k (hw1 k hk)) (by simp))
  have u1 := u0.marked m1 l1
  obtain ⟨s2, m2, l2⟩ := marked_exists s1 p.satSecs 2 n2 (fun k hk => u1.fresh (lt k (hw2 k hk)) fun hx => dj2 k (by simpa using hx) k hk rfl)
  have u2 := u1.marked m2 l2
  obtain ⟨s3, m3, l3⟩ := marked_exists s2 p.dirSecs 3 n3 (fun k hk => u2.fresh (lt k (hw3 k hk)) fun hx => dj3 k (by simpa using hx) k hk rfl)
  have u3 := u2.marked m3 l3
  obtain ⟨s4, m4, l4⟩ := marked_exists s3 p.shortSecs 4 n4 (fun k hk => u3.fresh (begun_lt (by omega) (hw4.begun k hk)) fun hx => dj4 k (by simpa using hx) k hk rfl)
  have u4 := u3.marked m4 l4
  obtain ⟨s5, m5, l5⟩ := marked_exists s4 p.ssatSecs 5 n5 (fun k hk => u4.fresh (lt k (hw5 k hk)) fun hx => dj5 k (by simpa using hx) k hk rfl)
  have u5 := u4.marked m5 l5
  have len : ∀ l : List Nat, l.Nodup → (∀ k ∈ l, Whole mem 512 h.sec k) → l.length ≤ fuel := by
    intro l hl hwl
    have := nodup_length hl (fun k hk => lt k (hwl k hk)); omega
  -- the master table
  have em : (if (h.extCount : Int) = 0 ∧ (h.extFirst = EOCSID ∨ h.extFirst = FREESID ∨ h.extFirst = 0)
      then some (.ok (h.msat, List.replicate (memDataSecs mem.length h.sec) 0))
      else msatLoop fuel (List.replicate (memDataSecs mem.length h.sec) 0) mem h.sec h.msat h.extFirst) = some (.ok (h.msat ++ p.ext, s1)) := by
    by_cases hc : (h.extCount : Int) = 0 ∧ (h.extFirst = EOCSID ∨ h.extFirst = FREESID ∨ h.extFirst = 0)
    · rw [if_pos hc]
      have h0 : p.extSecs = [] := by
        have := doc.extCount; rw [List.eq_nil_iff_length_eq_zero]; omega
      rw [h0] at m1
      have e : s1 = List.replicate (memDataSecs mem.length h.sec) 0 := by apply List.ext_getElem?; intro k; simpa using m1.after k
      have e' : p.ext = [] := by
        rcases doc.ext with hx | ⟨_, _, hx⟩
        · rw [h0] at hx
          generalize hq : p.ext = q at hx
          generalize hf : h.extFirst = f at hx
          cases hx; rfl
        · exact hx
      rw [e, e', List.append_nil]
    · rw [if_neg hc]
      rcases doc.ext with hx | ⟨hx1, hx2, _⟩
      · exact msatLoop_enc mem h.sec hsec4 _ _ _ hx fuel (len _ n1 hw1) _ _ s1 hw1 m1 l1
      · have := doc.extCount
        rw [hx2] at this
        exact absurd ⟨by simp [this], Or.inr (Or.inr hx1)⟩ hc
  have es := satLoop_enc mem h.sec hsec4 (by omega) (h.msat ++ p.ext) p.satSecs doc.satSecs doc.unused hw2 p.sat doc.sat doc.satInts s1 s2 m2 u1.1
  have ed := getStream_complete s2 mem 512 p.sat h.sec h.dirFirst none (some 3) (by simp) p.dirSecs doc.dir s3 ⟨m3, l3, fun _ => by omega⟩ fuel
    (len _ n3 hw3)
  rw [piecesOf_none, doc.entries] at ed
  have en := dirNodes_enc p.entries doc.entriesOk 0 (p.entries.flatMap Entry.enc).length (by
    have : ∀ l : List Entry, (∀ e ∈ l, e.Ok) → l.length ≤ (l.flatMap Entry.enc).length := by
      intro l hl
      induction l with
      | nil => simp
      | cons e es ih =>
        have := ih fun x hx => hl x (by simp [hx])
        have h2 := Entry.enc_length e (hl e (by simp))
        simp only [List.flatMap_cons, List.length_append, List.length_cons, h2]; omega
    exact this _ doc.entriesOk)
  have en' : dirNodes (p.entries.flatMap Entry.enc).length 0 (p.entries.flatMap Entry.enc) = .ok (nodesOf p.entries) := by
    rw [en]; simp [nodesOf]
  have hr : (nodesOf p.entries)[0]? = some (p.root.node 0) := by
    simp [nodesOf, List.getElem?_mapIdx, doc.root]
  obtain ⟨dl, eb, kids, keep⟩ := C24_children_partial depth (nodesOf p.entries) t (p.root.node 0) hr doc.tree hd doc.once (by
    intro n hn
    obtain ⟨i, hi, e⟩ := List.mem_iff_getElem.mp hn
    simp [nodesOf] at e
    rw [← e]; rfl)
  obtain ⟨r, er, k1, k2, k3, k4, k5⟩ := keep 0 _ hr
  have esc := readSscs_enc mem h p doc.short fuel hf hw4 r k3 k4 s3 s4 m4 l4 hsec8
  have ess : (if r.totSize > 0 then if (h.ssatCount : Int) < 0 then .error .assertion
      else ssatLoop mem h.sec p.sat (h.ssatCount : Int).toNat h.ssatFirst s4 else .ok ([], s4)) = Except.ok (p.ssat, s5) := by
    have k4' : r.totSize = (p.root.size : Int) := k4
    rw [k4']
    cases doc.short with
    | none a b c d =>
      rw [c] at m5
      have e : s5 = s4 := by apply List.ext_getElem?; intro k; simpa using m5.after k
      rw [if_neg (by omega), d, e]
    | some a b c d e f g =>
      rw [if_pos (by omega), if_neg (by omega), Int.toNat_natCast, e]
      exact ssatLoop_enc mem h.sec hsec4 (by omega) p.sat _ _ d hw5 p.ssat f g s4 s5 m5
  have edir : (do
      let dl ← dirNodes (p.entries.flatMap Entry.enc).length 0 (p.entries.flatMap Entry.enc)
      let r ← idx dl 0
      let dl ← buildFamilyTree depth dl 0 r.root
      let r ← idx dl 0
      pyAssert (r.etype = 5)
      pure (dl, r) : R (List DirNode × DirNode)) = .ok (dl, r) := by
    have i1 : idx (nodesOf p.entries) 0 = .ok (p.root.node 0) := (idx_ok_nat _ 0 _).mpr hr
    have i2 : idx dl 0 = .ok r := (idx_ok_nat _ 0 _).mpr er
    have k2' : r.etype = 5 := by rw [k2]; show p.root.kind.toNat = 5; rw [doc.rootKind]; rfl
    simp only [en', bind, Except.bind, i1, eb, i2, k2', pyAssert, decide_true, if_true, pure, Except.pure]
    try rfl
  refine ⟨{ mem := mem, secSize := h.sec, shortSecSize := h.shortSec, minSizeStd := h.minSize, memDataLen := (mem.length : Int) - 512, sat := p.sat,
            ssat := p.ssat, sscs := if 0 < p.root.size then some (p.shorts mem h) else none, dirlist := dl, seen := s5, ignore := ignore }, ?_, ?_, rfl⟩
  · unfold compDocInit
    rw [e1]
    simp only
    rw [e2]
    simp only
    rw [if_neg (by omega), em]
    simp only
    rw [es]
    simp only
    rw [show (512 : Int) = ((512 : Nat) : Int) from rfl, ed]
    simp only
    rw [edir]
    simp only
    rw [esc]
    simp only
    rw [ess]
  · refine ⟨rfl, rfl, rfl, rfl, rfl, rfl, rfl, fun h0 => if_pos h0, kids, ?_, ?_⟩
    · intro j e he
      have hj : (nodesOf p.entries)[j]? = some (e.node j) := by simp [nodesOf, List.getElem?_mapIdx, he]
      obtain ⟨n, a0, a1, a2, a3, a4, a5⟩ := keep j _ hj
      exact ⟨n, a0, a1, a2, a3, a4, a5⟩
    · have : p.secs = [] ++ p.extSecs ++ p.satSecs ++ p.dirSecs ++ p.shortSecs ++ p.ssatSecs := by simp [Parts.secs]
      rw [this]; exact u5

/-! ## Finding entries -/

/-- The two lists of entries agree about names and kinds wherever the tree points. -/
def SameEntries (t : DTree) (dl dl' : List DirNode) : Prop :=
  ∀ d ∈ t.ids, ∃ n n', dl[d]? = some n ∧ dl'[d]? = some n' ∧ n'.name = n.name ∧ n'.etype = n.etype

theorem siblings_ids {t : DTree} {d : Nat} (h : d ∈ t.siblings) : d ∈ t.ids := by
  induction t with
  | leaf => simp [DTree.siblings] at h
  | node e l r s il ir _ =>
    simp only [DTree.siblings, List.mem_append, List.mem_cons] at h
    simp only [DTree.ids, List.mem_cons, List.mem_append]
    rcases h with h | h | h
    · exact Or.inr (Or.inl (Or.inl (il h)))
    · exact Or.inl h
    · exact Or.inr (Or.inl (Or.inr (ir h)))

theorem within_ids {t d s} (h : Within t d s) : ∀ i ∈ s.ids, i ∈ t.ids := by
  intro i hi
  induction h with
  | here => simp only [DTree.ids, List.mem_cons, List.mem_append]; exact Or.inr (Or.inr hi)
  | left _ _ _ _ _ _ _ ih => simp only [DTree.ids, List.mem_cons, List.mem_append]; exact Or.inr (Or.inl (Or.inl (ih hi)))
  | right _ _ _ _ _ _ _ ih => simp only [DTree.ids, List.mem_cons, List.mem_append]; exact Or.inr (Or.inl (Or.inr (ih hi)))

theorem first_same {lower dl dl' t h d n} (s : SameEntries t dl dl') (f : First lower dl t h d n) :
    ∃ n', First lower dl' t h d n' ∧ n'.etype = n.etype := by
  obtain ⟨pre, post, e, e2, e3, e4⟩ := f
  have hin : d ∈ t.siblings := by rw [e]; simp
  obtain ⟨m, m', a, b, c, k⟩ := s d (siblings_ids hin)
  rw [e2] at a; injection a with a; subst a
  refine ⟨m', ⟨pre, post, e, b, by rw [c]; exact e3, ?_⟩, k⟩
  intro x hx y hy
  have hxin : x ∈ t.siblings := by rw [e]; simp [hx]
  obtain ⟨q, q', a', b', c', _⟩ := s x (siblings_ids hxin)
  rw [hy] at b'; injection b' with b'; subst b'
  rw [c']; exact e4 x hx q a'

theorem finds_same {lower dl dl' t path d} (f : Finds lower dl t path d) (s : SameEntries t dl dl') : Finds lower dl' t path d := by
  induction f with
  | stream t h d n hf he =>
    obtain ⟨n', f', e'⟩ := first_same s hf
    exact .stream t h d n' f' (e'.trans he)
  | storage t h tl d n s' d' hf he hne w _ ih =>
    obtain ⟨n', f', e'⟩ := first_same s hf
    exact .storage t h tl d n' s' d' f' (e'.trans he) hne w (ih fun i hi => s i (within_ids w i hi))

theorem missing_same {lower dl dl' t path} (f : Missing lower dl t path) (s : SameEntries t dl dl') : Missing lower dl' t path := by
  induction f with
  | here t h tl hm =>
    refine .here t h tl fun e he m hme => ?_
    obtain ⟨q, q', a', b', c', _⟩ := s e (siblings_ids he)
    rw [hme] at b'; injection b' with b'; subst b'
    rw [c']; exact hm e he q a'
  | inside t h tl d n s' hf he hne w _ ih =>
    obtain ⟨n', f', e'⟩ := first_same s hf
    exact .inside t h tl d n' s' f' (e'.trans he) hne w (ih fun i hi => s i (within_ids w i hi))

theorem opened_same {mem h p t used cd} (doc : Document mem h p t) (o : Opened mem h p t used cd) :
    SameEntries t (nodesOf p.entries) cd.dirlist := by
  intro d hd
  have hlt := describes_ids doc.tree d hd
  simp only [nodesOf, List.length_mapIdx] at hlt
  have he : p.entries[d]? = some p.entries[d] := List.getElem?_eq_getElem hlt
  obtain ⟨n, a, b, c, _⟩ := o.nodes d _ he
  exact ⟨_, n, by simp [nodesOf, List.getElem?_mapIdx, he]; rfl, a, b, c⟩

theorem splitSlash_ne (q : PyStr) : splitSlash q ≠ [] := by
  cases q with
  | nil => simp [splitSlash]
  | cons c cs =>
    unfold splitSlash
    split_ifs
    · simp
    · split <;> simp

theorem opened_find {mem h p t used cd lower q d e} (doc : Document mem h p t) (o : Opened mem h p t used cd)
    (f : Finds lower (nodesOf p.entries) t (splitSlash q) d) (he : p.entries[d]? = some e) :
    ∃ n, dirSearch lower cd.dirlist (splitSlash q) 0 = .ok (some n) ∧ n.firstSid = e.first ∧ n.totSize = e.size ∧ n.did = d := by
  obtain ⟨n, h1, _, h3⟩ := (C24_lookup_partial lower cd.dirlist t o.kids (splitSlash q) (splitSlash_ne q)).1 d (finds_same f (opened_same doc o))
  obtain ⟨n', a, _, _, c, g, k⟩ := o.nodes d e he
  rw [h1] at a; injection a with a; subst a
  exact ⟨n, h3, c, g, k⟩

/-- the state after another stream has been read -/
theorem Opened.read {mem h p t used cd seen' secs id} (o : Opened mem h p t used cd) (m : Marked cd.seen secs id seen')
    (hl : seen'.length = cd.seen.length) : Opened mem h p t (used ++ secs) { cd with seen := seen' } :=
  ⟨o.bytes, o.secSize, o.shortSecSize, o.minSize, o.len, o.sat, o.ssat, o.sscs, o.kids, o.nodes, o.used.marked m hl⟩

theorem stream_read {mem h p t used cd lower q d e secs b} (doc : Document mem h p t) (o : Opened mem h p t used cd)
    (f : Finds lower (nodesOf p.entries) t (splitSlash q) d) (he : p.entries[d]? = some e) (hd : d ≤ 249)
    (st : StreamAt mem h p e secs b) (hdis : ∀ k ∈ secs, k ∉ used) (fuel : Nat) (hf : mem.length < fuel) :
    (∃ cd', getNamedStream fuel lower cd q = some (.ok (some b, cd')) ∧ Opened mem h p t (used ++ secs) cd' ∧ cd'.ignore = cd.ignore) ∧
    (∃ m off cd', locateNamedStream fuel lower cd q = some (.ok ((some m, off, e.size), cd')) ∧ slice m off (off + e.size) = b ∧
      0 ≤ off ∧ Opened mem h p t (used ++ secs) cd' ∧ cd'.ignore = cd.ignore) := by
  obtain ⟨hsec4, hsec8⟩ := Header.sec_facts h doc.headerOk
  obtain ⟨n, e1, n1, n2, n3⟩ := opened_find doc o f he
  have hn := memDataSecs_le mem.length h.sec (by omega)
  cases st with
  | long secs hmin hc hne hnot hw hlo hhi =>
    have hfr : ∀ k ∈ secs, cd.seen[k]? = some 0 := fun k hk => o.used.fresh (begun_lt (by omega) (hw.begun k hk)) (hdis k hk)
    have hnd := Chain.nodup hc
    obtain ⟨seen', m, l⟩ := marked_exists cd.seen secs (d + 6) hnd hfr
    have hlen := holds_length hw hnd (by omega)
    have hsize := holds_size_le hw hnd hhi
    have hbig : n.totSize ≥ cd.minSizeStd := by rw [n2, o.minSize]; omega
    have hfit : ¬ n.totSize > cd.memDataLen := by rw [n2, o.len]; omega
    constructor
    · refine ⟨_, ?_, o.read m l, rfl⟩
      unfold getNamedStream
      rw [e1]
      simp only
      rw [if_pos hbig, o.bytes, o.sat, o.secSize, n1, n2, n3, show (512 : Int) = ((512 : Nat) : Int) from rfl,
        getStream_complete cd.seen mem 512 p.sat h.sec e.first _ (some (d + 6)) (by simp) secs hc seen' ⟨m, l, fun _ => by omega⟩ fuel (by omega),
        piecesOf_some mem 512 h.sec secs e.size hw.whole]
    · obtain ⟨⟨m', off, len'⟩, el⟩ := locateStream_complete cd.seen cd.ignore mem 512 p.sat h.sec (by omega) e.first e.size (d + 6) (by omega) (by omega) secs hc hne
        hhi hlo seen' m fuel (by omega)
      obtain ⟨secs', c1, _, c3, _, c5, _, _, c7, _⟩ := locateStream_sound fuel cd.seen cd.ignore mem 512 p.sat h.sec (by omega) e.first e.size (d + 6) (by omega)
        m' off len' seen' el
      have := Chain.det c1 hc
      subst this
      subst c3
      refine ⟨m', off, _, ?_, c7, c5, o.read m l, rfl⟩
      unfold locateNamedStream
      rw [e1]
      simp only
      rw [if_neg hfit, if_pos hbig, o.bytes, o.sat, o.secSize, n1, n2, n3]
      rw [show (512 : Int) = ((512 : Nat) : Int) from rfl, el]
  | short secs hmin hroot hsz hc hw =>
    have hsmall : ¬ n.totSize ≥ cd.minSizeStd := by rw [n2, o.minSize]; omega
    have hwT : ∀ k ∈ p.ssatSecs, Whole mem 512 h.sec k := fun k hk => doc.whole k (by simp [hk])
    obtain ⟨hfit, hlen⟩ : ¬ n.totSize > cd.memDataLen ∧ secs.length ≤ fuel := by
      cases doc.short with
      | none a => omega
      | some a b c g1 g2 g3 g4 =>
        have l1 := holds_size_le doc.shorts (Chain.nodup c) b
        have l2 := whole_length (Chain.nodup g1) hwT
        have l3 := congrArg List.length g3
        rw [sectors_length mem h.sec _ hwT, encInts_length] at l3
        have l4 := nodup_length (Chain.nodup hc) (chain_lt hc)
        constructor
        · rw [n2, o.len]; omega
        · omega
    have eg := getStream_complete cd.seen (p.shorts mem h) 0 p.ssat h.shortSec e.first (some (e.size : Int)) none (by simp) secs hc cd.seen rfl fuel hlen
    rw [piecesOf_some _ 0 h.shortSec secs e.size hw] at eg
    have eg' : getStream fuel cd.seen cd.sscs 0 cd.ssat cd.shortSecSize n.firstSid (some n.totSize) none =
        some (.ok ((sectors (p.shorts mem h) 0 h.shortSec secs).take e.size, cd.seen)) := by
      rw [o.sscs hroot, o.ssat, o.shortSecSize, n1, n2]; exact eg
    have oo : Opened mem h p t (used ++ []) { cd with seen := cd.seen } := by rw [List.append_nil]; exact o
    constructor
    · refine ⟨_, ?_, oo, rfl⟩
      unfold getNamedStream
      rw [e1]
      simp only
      rw [if_neg hsmall, eg']
    · refine ⟨(sectors (p.shorts mem h) 0 h.shortSec secs).take e.size, 0, _, ?_, ?_, by omega, oo, rfl⟩
      · unfold locateNamedStream
        rw [e1]
        simp only
        rw [if_neg hfit, if_neg hsmall, eg']
        simp only [n2]
      · rw [show (0 : Int) = ((0 : Nat) : Int) from rfl, show (((0 : Nat) : Int) + (e.size : Int)) = ((e.size : Nat) : Int) by simp, slice_nat, List.drop_zero,
          List.take_take, Nat.min_self]

end Xlrd
