import Verif.Spec.Container
import Verif.Lemmas.CompDocInit
import Verif.Lemmas.Directory
import Verif.Lemmas.Records
import Mathlib.Tactic.Ring

/-! # Lemmas: reading a stored compound document -/
set_option linter.unusedSimpArgs false
namespace Xlrd
open Spec

/-! ## Numbers -/

@[simp] theorem sle32_length (i : Int) : (sle32 i).length = 4 := rfl

theorem sgn_sle32 (i : Int) (h : IsInt32 i) (r : Bytes) : sgn 32 (le ((sle32 i ++ r).take 4)) = i := by
  obtain ⟨h1, h2⟩ := h
  unfold sle32
  rw [le_le32 _ (by omega)]
  unfold sgn
  split_ifs <;> omega

theorem sgn_le32 (n : Nat) (h : n < 2147483648) (r : Bytes) : sgn 32 (le ((le32 n ++ r).take 4)) = n := by
  rw [le_le32 _ (by omega)]
  unfold sgn
  split_ifs <;> omega

theorem encInts_length (l : List Int) : (encInts l).length = 4 * l.length := by
  induction l with
  | nil => rfl
  | cons a as ih => simp only [encInts, List.flatMap_cons, List.length_append, List.length_cons] at ih ⊢; rw [ih, sle32_length]; omega

theorem encInts_append (a b : List Int) : encInts (a ++ b) = encInts a ++ encInts b := by simp [encInts]

theorem encInts_get (l : List Int) (h : ∀ i ∈ l, IsInt32 i) (k : Nat) (hk : k < l.length) :
    sgn 32 (fld (encInts l) (4 * k) 4) = l[k] := by
  induction l generalizing k with
  | nil => simp at hk
  | cons a as ih =>
    have e : encInts (a :: as) = sle32 a ++ encInts as := by simp [encInts]
    rw [e]
    cases k with
    | zero => exact sgn_sle32 a (h a (by simp)) _
    | succ k =>
      rw [show 4 * (k + 1) = 4 + 4 * k by ring, fld_skip' _ _ _ _ _ (sle32_length a)]
      simpa using ih (fun i hi => h i (by simp [hi])) k (by simpa using hk)

theorem unpackInts_enc (l : List Int) (n : Nat) (hn : l.length = n) (h : ∀ i ∈ l, IsInt32 i) :
    unpackInts n (encInts l) = .ok l := by
  subst hn
  unfold unpackInts
  rw [unpackN_ok (encInts_length l)]
  simp only [bind, Except.bind, pure, Except.pure]
  refine congrArg Except.ok ?_
  apply List.ext_getElem (by simp)
  intro k h1 h2
  simp only [List.getElem_map, List.getElem_range]
  exact encInts_get l h k h2

theorem encInts_split (l : List Int) (a b : Bytes) (n : Nat) (h : a ++ b = encInts l) (ha : a.length = 4 * n) :
    a = encInts (l.take n) ∧ b = encInts (l.drop n) ∧ (l.take n).length = n := by
  have hl := congrArg List.length h
  rw [encInts_length, List.length_append] at hl
  have hn : (l.take n).length = n := by rw [List.length_take]; omega
  have e : a ++ b = encInts (l.take n) ++ encInts (l.drop n) := by rw [← encInts_append, List.take_append_drop]; exact h
  have := List.append_inj e (by rw [encInts_length, hn, ha])
  exact ⟨this.1, this.2, hn⟩

/-! ## The header -/

theorem Header.enc_length (h : Header) (ok : h.Ok) : h.enc.length = 512 := by
  simp [Header.enc, ok.clsid, ok.misc, ok.misc2, encInts_length, ok.msatLen]

theorem cdHeader_enc (mem : Bytes) (h : Header) (ok : h.Ok) (hm : mem.take 512 = h.enc) :
    cdHeader mem = .ok ⟨h.sec, h.shortSec, h.dirFirst, h.minSize, h.ssatFirst, h.ssatCount, h.extFirst, h.extCount⟩ ∧
      unpackInts 109 (slice mem 76 512) = .ok h.msat := by
  have hmem : mem = h.enc ++ mem.drop 512 := by rw [← hm, List.take_append_drop]
  generalize mem.drop 512 = r at hmem
  have d0 : mem.drop 0 = [0xD0, 0xCF, 0x11, 0xE0, 0xA1, 0xB1, 0x1A, 0xE1] ++ (h.clsid ++ ((le16 h.revision ++ le16 h.version) ++ ([0xFE, 0xFF] ++
    ((le16 h.sectorExp ++ le16 h.shortExp) ++ (h.misc ++ ((le32 h.satCount ++ (sle32 h.dirFirst ++ (h.misc2 ++ (le32 h.minSize ++
    (sle32 h.ssatFirst ++ (le32 h.ssatCount ++ (sle32 h.extFirst ++ le32 h.extCount))))))) ++ (encInts h.msat ++ r))))))) := by
    rw [hmem]; simp [Header.enc]
  have d8 := drop_at (n := 8) d0 rfl
  have d24 := drop_at d8 ok.clsid
  have d28 := drop_at (n := 4) d24 rfl
  have d30 := drop_at (n := 2) d28 rfl
  have d34 := drop_at (n := 4) d30 rfl
  have d44 := drop_at d34 ok.misc
  have l44 : (le32 h.satCount ++ (sle32 h.dirFirst ++ (h.misc2 ++ (le32 h.minSize ++
    (sle32 h.ssatFirst ++ (le32 h.ssatCount ++ (sle32 h.extFirst ++ le32 h.extCount))))))).length = 32 := by simp [ok.misc2]
  have d76 := drop_at d44 l44
  have s0 : slice mem 0 8 = SIGNATURE := slice_at (p := 0) (n := 8) d0 rfl
  have s28 : slice mem 28 30 = [0xFE, 0xFF] := slice_at (p := 28) (n := 2) d28 rfl
  have s24 : slice mem 24 28 = le16 h.revision ++ le16 h.version := slice_at (p := 24) (n := 4) d24 rfl
  have s30 : slice mem 30 34 = le16 h.sectorExp ++ le16 h.shortExp := slice_at (p := 30) (n := 4) d30 rfl
  have s44 := slice_at (p := 44) (n := 32) d44 l44
  have s76 : slice mem 76 512 = encInts h.msat := slice_at (p := 76) (n := 436) d76 (by rw [encInts_length, ok.msatLen])
  constructor
  · have e44 : slice mem 44 76 = _ := s44
    have hs1 : fld (le16 h.sectorExp ++ le16 h.shortExp) 0 2 = h.sectorExp := by
      have := le_le16 h.sectorExp (by have := ok.expHi; omega) (le16 h.shortExp); simpa [fld] using this
    have hs2 : fld (le16 h.sectorExp ++ le16 h.shortExp) 2 2 = h.shortExp := by
      rw [fld_skip _ _ _ _ (le16_length _)]
      have := le_le16 h.shortExp (by have := ok.expHi; have := ok.short; omega) []; simpa using this
    unfold cdHeader
    rw [s0, s28, s24, s30, e44]
    simp only [ne_eq, not_true_eq_false, if_false, bind, Except.bind, pure, Except.pure, unpackN_ok l44,
      unpackN_ok (show (le16 h.revision ++ le16 h.version).length = 4 from rfl),
      unpackN_ok (show (le16 h.sectorExp ++ le16 h.shortExp).length = 4 from rfl), hs1, hs2]
    rw [if_neg (by have := ok.expHi; omega), if_neg (by have := ok.short; omega)]
    have f4 := fld_skip' (le32 h.satCount) (sle32 h.dirFirst ++ (h.misc2 ++ (le32 h.minSize ++
      (sle32 h.ssatFirst ++ (le32 h.ssatCount ++ (sle32 h.extFirst ++ le32 h.extCount)))))) 4 
    have g1 : ∀ (k : Nat) (x : Bytes), fld (sle32 h.dirFirst ++ x) (4 + k) 4 = fld x k 4 := fun k x => fld_skip' _ _ _ _ _ rfl
    have g2 : ∀ (k : Nat) (x : Bytes), fld (h.misc2 ++ x) (4 + k) 4 = fld x k 4 := fun k x => fld_skip' _ _ _ _ _ ok.misc2
    have g3 : ∀ (k n : Nat) (x : Bytes), fld (le32 n ++ x) (4 + k) 4 = fld x k 4 := fun k n x => fld_skip' _ _ _ _ _ rfl
    have g4 : ∀ (k : Nat) (n : Int) (x : Bytes), fld (sle32 n ++ x) (4 + k) 4 = fld x k 4 := fun k n x => fld_skip' _ _ _ _ _ rfl
    refine congrArg Except.ok ?_
    rw [show (28 : Nat) = 4 + (4 + (4 + (4 + (4 + (4 + (4 + 0)))))) from rfl, show (24 : Nat) = 4 + (4 + (4 + (4 + (4 + (4 + 0))))) from rfl,
      show (20 : Nat) = 4 + (4 + (4 + (4 + (4 + 0)))) from rfl, show (16 : Nat) = 4 + (4 + (4 + (4 + 0))) from rfl,
      show (12 : Nat) = 4 + (4 + (4 + 0)) from rfl]
    have q1 : ∀ x, sgn 32 (fld (sle32 h.dirFirst ++ x) 0 4) = h.dirFirst := fun x => sgn_sle32 _ ok.dirFirst x
    have q2 : ∀ x, sgn 32 (fld (le32 h.minSize ++ x) 0 4) = h.minSize := fun x => sgn_le32 _ ok.minSize x
    have q3 : ∀ x, sgn 32 (fld (sle32 h.ssatFirst ++ x) 0 4) = h.ssatFirst := fun x => sgn_sle32 _ ok.ssatFirst x
    have q4 : ∀ x, sgn 32 (fld (le32 h.ssatCount ++ x) 0 4) = h.ssatCount := fun x => sgn_le32 _ ok.ssatCount x
    have q5 : ∀ x, sgn 32 (fld (sle32 h.extFirst ++ x) 0 4) = h.extFirst := fun x => sgn_sle32 _ ok.extFirst x
    have q6 : sgn 32 (fld (le32 h.extCount) 0 4) = h.extCount := by
      have := sgn_le32 _ ok.extCount []; rw [List.append_nil] at this; exact this
    have p4 : ∀ x, fld (le32 h.satCount ++ x) 4 4 = fld x 0 4 := fun x => g3 0 _ x
    simp only [g3, g4, g2, p4, q1, q2, q3, q4, q5, q6, Header.sec, Header.shortSec]
  · rw [s76]; exact unpackInts_enc _ _ ok.msatLen ok.msat

/-! ## Marks -/

/-- Of `n` sectors, those not in `used` are unmarked. -/
def Used (n : Nat) (seen used : List Nat) : Prop :=
  seen.length = n ∧ ∀ (k : Nat), k < n → k ∉ used → seen[k]? = some 0

theorem Used.fresh {n seen used k} (h : Used n seen used) (hk : k < n) (hn : k ∉ used) : seen[k]? = some 0 := h.2 k hk hn

theorem Used.marked {n seen used secs id seen'} (h : Used n seen used) (m : Marked seen secs id seen') (hl : seen'.length = seen.length) :
    Used n seen' (used ++ secs) := by
  refine ⟨hl.trans h.1, fun k hk hn => ?_⟩
  rw [List.mem_append, not_or] at hn
  rw [m.after, if_neg hn.2]
  exact h.2 k hk hn.1

theorem whole_lt (mem : Bytes) (sec k : Nat) (hs : 0 < sec) (h : Whole mem 512 sec k) : k < memDataSecs mem.length sec := by
  unfold Whole at h
  unfold memDataSecs
  have h1 : ((k : Int) + 1) ≤ ((mem.length : Int) - 512) / sec := by
    rw [Int.le_ediv_iff_mul_le (by omega)]
    have : (((k + 1) * sec : Nat) : Int) ≤ (mem.length : Int) - 512 := by omega
    push_cast at this; exact this
  simp only
  split_ifs <;> omega

/-- The sectors of a file are those that begin in it. -/
theorem begun_iff (mem : Bytes) (sec k : Nat) (hs : 0 < sec) : Begun mem sec k ↔ k < memDataSecs mem.length sec := by
  unfold Begun memDataSecs
  simp only
  have h0 := Int.emod_nonneg ((mem.length : Int) - 512) (show (sec : Int) ≠ 0 by omega)
  have h1 := Int.emod_lt_of_pos ((mem.length : Int) - 512) (show (0 : Int) < sec by omega)
  have h2 := Int.mul_ediv_add_emod ((mem.length : Int) - 512) sec
  generalize ((mem.length : Int) - 512) / sec = q at *
  generalize ((mem.length : Int) - 512) % sec = r at *
  have e : ((k * sec : Nat) : Int) = (sec : Int) * k := by push_cast; ring
  constructor
  · intro h
    have h3 : (sec : Int) * k < sec * q + r := by omega
    split_ifs with hr
    · have : (k : Int) < q + 1 := by
        by_contra hx
        have := Int.mul_le_mul_of_nonneg_left (show q + 1 ≤ (k : Int) by omega) (show (0 : Int) ≤ sec by omega)
        rw [Int.mul_add] at this; omega
      omega
    · have : (k : Int) < q := by
        by_contra hx
        have := Int.mul_le_mul_of_nonneg_left (show q ≤ (k : Int) by omega) (show (0 : Int) ≤ sec by omega)
        omega
      omega
  · intro h
    have h3 : (sec : Int) * k < sec * q + r := by
      split_ifs at h with hr
      · have := Int.mul_le_mul_of_nonneg_left (show (k : Int) ≤ q by omega) (show (0 : Int) ≤ sec by omega)
        omega
      · have := Int.mul_le_mul_of_nonneg_left (show (k : Int) + 1 ≤ q by omega) (show (0 : Int) ≤ sec by omega)
        rw [Int.mul_add] at this; omega
    omega

theorem whole_begun {mem : Bytes} {sec k : Nat} (hs : 0 < sec) (h : Whole mem 512 sec k) : Begun mem sec k := by
  unfold Whole at h
  unfold Begun
  rw [Nat.add_mul] at h; omega

/-! ## The tables -/

theorem sector_slice (mem : Bytes) (sec k : Nat) :
    slice mem (512 + (sec : Int) * (k : Int)) (512 + (sec : Int) * (k : Int) + sec) = sector mem 512 sec k := by
  have e : (512 + (sec : Int) * (k : Int)) = ((512 + k * sec : Nat) : Int) := by push_cast; ring
  have e2 : (512 + (sec : Int) * (k : Int) + sec) = ((512 + (k + 1) * sec : Nat) : Int) := by push_cast; ring
  rw [e2, e]; exact slice_one mem 512 sec k

theorem mark_fresh {seen : List Nat} {k id : Nat} (h : seen[k]? = some 0) (hid : id ≤ 255) : mark seen k id = .ok (seen.set k id) :=
  (mark_ok _ _ _ _).mpr ⟨h, hid, rfl⟩

theorem msatLoop_enc (mem : Bytes) (sec : Nat) (hsec : sec % 4 = 0) (s : Int) (secs : List Nat) (ext : List Int)
    (hx : Extension mem sec s secs ext) (fuel : Nat) (hf : secs.length ≤ fuel) (seen msat seen')
    (hw : ∀ k ∈ secs, Whole mem 512 sec k) (hm : Marked seen secs 1 seen') (hl : seen'.length = seen.length) :
    msatLoop fuel seen mem sec msat s = some (.ok (msat ++ ext, seen')) := by
  induction hx generalizing fuel seen msat with
  | done i hi =>
    have : seen' = seen := by apply List.ext_getElem?; intro k; simpa using hm.after k
    unfold msatLoop
    rw [if_pos (by simp only [EOCSID, FREESID, MSATSID]; omega), this, List.append_nil]
  | next k chunk link secs rest hs hc hlk _ ih =>
    obtain ⟨f, rfl⟩ : ∃ f, fuel = f + 1 := ⟨fuel - 1, by simp at hf; omega⟩
    have h0 := hm.fresh k (by simp)
    have hlt : k < seen.length := by
      by_contra hx; rw [List.getElem?_eq_none (by omega)] at h0; cases h0
    have hlen : (chunk ++ [link]).length = sec / 4 := by
      have := sector_length mem 512 sec k (hw k (by simp))
      rw [hs, encInts_length] at this
      omega
    unfold msatLoop
    rw [if_neg (by simp only [EOCSID, FREESID, MSATSID]; omega)]
    simp only
    rw [if_neg (by omega), if_neg (by omega), mark_fresh h0 (by omega)]
    simp only
    rw [sector_slice, hs, unpackInts_enc _ _ hlen (by
      intro i hi
      rcases List.mem_append.mp hi with hi | hi
      · exact hc i hi
      · rw [List.mem_singleton] at hi; exact hi ▸ hlk)]
    simp only [List.dropLast_concat, List.getLastD_concat]
    rw [ih f (by simp at hf; omega) (seen.set k 1) (msat ++ chunk) (fun j hj => hw j (by simp [hj]))
      ((Marked.cons_iff (by omega) h0).mpr hm) (by simpa using hl), List.append_assoc]

theorem satLoop_enc (mem : Bytes) (sec : Nat) (hsec : sec % 4 = 0) (hs0 : 0 < sec) (msat : List Int) (secs : List Nat)
    (hf : msat.filter (fun i : Int => decide (0 ≤ i ∧ 512 + i * sec < mem.length)) = secs.map Int.ofNat) (hu : ∀ i ∈ msat, i < 0 → i = -1 ∨ i = -2)
    (hw : ∀ k ∈ secs, Whole mem 512 sec k) (sat : List Int) (hsat : sectors mem 512 sec secs = encInts sat) (hi : ∀ i ∈ sat, IsInt32 i)
    (seen seen') (hm : Marked seen secs 2 seen') (hlen : seen.length = memDataSecs mem.length sec) : satLoop mem sec msat seen = .ok (sat, seen') := by
  induction msat generalizing secs sat seen with
  | nil =>
    have : secs = [] := by simpa using hf.symm
    subst this
    have e : seen' = seen := by apply List.ext_getElem?; intro k; simpa using hm.after k
    have e2 : sat = [] := by
      have := congrArg List.length hsat
      rw [encInts_length] at this
      simp [sectors] at this; exact this
    subst e2; subst e
    rfl
  | cons a as ih =>
    unfold satLoop
    by_cases ha : 0 ≤ a ∧ 512 + a * sec < mem.length
    · rw [List.filter_cons_of_pos (by simpa using ha)] at hf
      cases secs with
      | nil => simp at hf
      | cons k ks =>
        simp only [List.map_cons, List.cons.injEq] at hf
        obtain ⟨rfl, hf⟩ := hf
        have h0 := hm.fresh k (by simp)
        have hlt : k < seen.length := by
          by_contra hx; rw [List.getElem?_eq_none (by omega)] at h0; cases h0
        have hwk := hw k (by simp)
        have hsl := sector_length mem 512 sec k hwk
        have hlen' : (seen.set k 2).length = memDataSecs mem.length sec := by rw [List.length_set]; exact hlen
        simp only [sectors, List.flatMap_cons] at hsat
        obtain ⟨e1, e2, e3⟩ := encInts_split sat _ _ (sec / 4) hsat (by rw [hsl]; omega)
        simp only [Int.ofNat_eq_natCast]
        rw [if_neg (by simp only [EOCSID, FREESID]; omega), if_neg (by omega), if_neg (by omega)]
        simp only [bind, Except.bind, mark_fresh h0 (show 2 ≤ 255 by omega)]
        rw [sector_slice, e1, unpackInts_enc _ _ e3 (fun i hh => hi i (List.mem_of_mem_take hh))]
        simp only
        rw [ih ks hf (fun i hh => hu i (by simp [hh])) (fun j hj => hw j (by simp [hj])) (sat.drop (sec / 4)) e2
          (fun i hh => hi i (List.mem_of_mem_drop hh)) _ ((Marked.cons_iff (by omega) h0).mpr hm) hlen']
        simp [pure, Except.pure]
    · rw [List.filter_cons_of_neg (by simpa using ha)] at hf
      by_cases hneg : a < 0
      · have := hu a (by simp) (by omega)
        rw [if_pos (by simp only [EOCSID, FREESID]; omega)]
        exact ih secs hf (fun i hh => hu i (by simp [hh])) hw sat hsat hi seen hm hlen
      · obtain ⟨k, rfl⟩ := Int.eq_ofNat_of_zero_le (show 0 ≤ a by omega)
        have hb : ¬ Begun mem sec k := by
          unfold Begun
          intro hx
          have e : ((k * sec : Nat) : Int) = (k : Int) * sec := by push_cast; ring
          exact ha ⟨by omega, by omega⟩
        rw [begun_iff mem sec k hs0, ← hlen] at hb
        rw [if_neg (by simp only [EOCSID, FREESID]; omega), if_pos (by omega)]
        exact ih secs hf (fun i hh => hu i (by simp [hh])) hw sat hsat hi seen hm hlen

theorem ssatLoop_enc (mem : Bytes) (sec : Nat) (hsec : sec % 4 = 0) (hs0 : 0 < sec) (sat : List Int) (s : Int) (secs : List Nat)
    (hc : Chain sat s secs) (hw : ∀ k ∈ secs, Whole mem 512 sec k) (ssat : List Int) (hsat : sectors mem 512 sec secs = encInts ssat)
    (hi : ∀ i ∈ ssat, IsInt32 i) (seen seen') (hm : Marked seen secs 5 seen') :
    ssatLoop mem sec sat secs.length s seen = .ok (ssat, seen') := by
  induction hc generalizing ssat seen with
  | done =>
    have e : seen' = seen := by apply List.ext_getElem?; intro k; simpa using hm.after k
    have e2 : ssat = [] := by
      have := congrArg List.length hsat
      rw [encInts_length] at this
      simp [sectors] at this; exact this
    subst e2; subst e
    unfold ssatLoop
    simp [EOCSID]
  | next k n ks hk _ ih =>
    have h0 := hm.fresh k (by simp)
    have hsl := sector_length mem 512 sec k (hw k (by simp))
    simp only [sectors, List.flatMap_cons] at hsat
    obtain ⟨e1, e2, e3⟩ := encInts_split ssat _ _ (sec / 4) hsat (by rw [hsl]; omega)
    unfold ssatLoop
    rw [if_pos (by omega)]
    simp only [List.length_cons, bind, Except.bind, mark_fresh h0 (show 5 ≤ 255 by omega)]
    rw [show (512 + (k : Int) * (sec : Int)) = 512 + (sec : Int) * k by ring, sector_slice, e1,
      unpackInts_enc _ _ e3 (fun i hh => hi i (List.mem_of_mem_take hh))]
    simp only [(idx_ok_nat _ _ _).mpr hk]
    rw [ih (fun j hj => hw j (by simp [hj])) (ssat.drop (sec / 4)) e2
      (fun i hh => hi i (List.mem_of_mem_drop hh)) _ ((Marked.cons_iff (by omega) h0).mpr hm)]
    simp [pure, Except.pure]

/-! ## The directory -/

theorem Entry.enc_length (e : Entry) (ok : e.Ok) : e.enc.length = 128 := by
  have h1 : ((utf16 e.name).flatMap le16).length = 2 * (utf16 e.name).length := by
    induction utf16 e.name with
    | nil => rfl
    | cons a as ih => simp only [List.flatMap_cons, List.length_append, le16_length, ih, List.length_cons]; omega
  have := ok.size64
  simp only [Entry.enc, List.length_append, h1, ok.misc, ok.stamps, ok.tail, sle32_length, le32_length, le16_length, List.length_cons, List.length_nil]
  omega

theorem dirNode_enc (did : Nat) (e : Entry) (ok : e.Ok) : dirNode did e.enc = .ok (e.node did) := by
  have h1 : ((utf16 e.name).flatMap le16).length = 2 * (utf16 e.name).length := by
    induction utf16 e.name with
    | nil => rfl
    | cons a as ih => simp only [List.flatMap_cons, List.length_append, le16_length, ih, List.length_cons]; omega
  have h64 := ok.size64
  have d0 : e.enc.drop 0 = ((utf16 e.name).flatMap le16 ++ e.pad) ++ ((le16 e.nameSize ++ ([e.kind, e.colour] ++ (sle32 e.left ++ (sle32 e.right ++ sle32 e.child)))) ++ (e.misc ++
    (e.stamps ++ ((sle32 e.first ++ le32 e.size) ++ e.tail)))) := by simp [Entry.enc]
  have d64 := drop_at (n := 64) d0 (by rw [List.length_append, h1]; exact h64)
  have l64 : (le16 e.nameSize ++ ([e.kind, e.colour] ++ (sle32 e.left ++ (sle32 e.right ++ sle32 e.child)))).length = 16 := rfl
  have d80 := drop_at d64 l64
  have d100 := drop_at d80 ok.misc
  have d116 := drop_at d100 ok.stamps
  have s64 : slice e.enc 64 80 = _ := slice_at (p := 64) (n := 16) d64 l64
  have s100 : slice e.enc 100 116 = _ := slice_at (p := 100) (n := 16) d100 ok.stamps
  have s116 : slice e.enc 116 124 = _ := slice_at (p := 116) (n := 8) d116 rfl
  have hns : e.nameSize < 65536 := by have := ok.nameSize; omega
  have f0 : ∀ x, fld (le16 e.nameSize ++ x) 0 2 = e.nameSize := fun x => by
    have := le_le16 e.nameSize hns x; simpa [fld] using this
  have f2 : ∀ x, fld (le16 e.nameSize ++ ([e.kind, e.colour] ++ x)) 2 1 = e.kind.toNat := fun x => by
    rw [fld_skip _ _ _ _ (le16_length _)]; simp [le]
  have g0 : ∀ (k : Nat) (x : Bytes), fld (le16 e.nameSize ++ ([e.kind, e.colour] ++ x)) (4 + k) 4 = fld x k 4 := fun k x => by
    rw [← List.append_assoc]; exact fld_skip' _ _ _ _ _ rfl
  have g4 : ∀ (k : Nat) (n : Int) (x : Bytes), fld (sle32 n ++ x) (4 + k) 4 = fld x k 4 := fun k n x => fld_skip' _ _ _ _ _ rfl
  have q1 : ∀ x, sgn 32 (fld (sle32 e.left ++ x) 0 4) = e.left := fun x => sgn_sle32 _ ok.left x
  have q2 : ∀ x, sgn 32 (fld (sle32 e.right ++ x) 0 4) = e.right := fun x => sgn_sle32 _ ok.right x
  have q3 : sgn 32 (fld (sle32 e.child) 0 4) = e.child := by
    have := sgn_sle32 _ ok.child []; rw [List.append_nil] at this; exact this
  have q4 : ∀ x, sgn 32 (fld (sle32 e.first ++ x) 0 4) = e.first := fun x => sgn_sle32 _ ok.first x
  have q5 : sgn 32 (fld (le32 e.size) 0 4) = e.size := by
    have := sgn_le32 _ ok.size []; rw [List.append_nil] at this; exact this
  have hname : (if e.nameSize = 0 then (pure [] : R PyStr) else utf16leDecode (slice e.enc 0 ((e.nameSize : Int) - 2))) = .ok e.name := by
    rcases ok.nameSize with hn | ⟨hn1, hn2⟩
    · rw [if_neg (by omega), hn]
      have d0' : e.enc.drop 0 = (utf16 e.name).flatMap le16 ++ (e.pad ++ ((le16 e.nameSize ++ ([e.kind, e.colour] ++ (sle32 e.left ++ (sle32 e.right ++ sle32 e.child)))) ++ (e.misc ++
        (e.stamps ++ ((sle32 e.first ++ le32 e.size) ++ e.tail))))) := by rw [d0, List.append_assoc]
      have := slice_at (p := 0) d0' h1
      rw [show (((2 * (utf16 e.name).length + 2 : Nat) : Int) - 2) = ((0 : Nat) : Int) + ((2 * (utf16 e.name).length : Nat) : Int) by push_cast; ring,
        show (0 : Int) = ((0 : Nat) : Int) from rfl, this]
      exact utf16_decode' e.name
    · rw [if_pos hn2, hn1]; rfl
  unfold dirNode
  rw [s64, s100, s116]
  simp only [bind, Except.bind, unpackN_ok l64, unpackN_ok ok.stamps, unpackN_ok (show (sle32 e.first ++ le32 e.size).length = 8 from rfl), f0]
  have p4 : ∀ x, fld (le16 e.nameSize ++ ([e.kind, e.colour] ++ x)) 4 4 = fld x 0 4 := fun x => g0 0 x
  have p5 : ∀ x, fld (sle32 e.first ++ x) 4 4 = fld x 0 4 := fun x => g4 0 _ x
  rw [show (12 : Nat) = 4 + (4 + (4 + 0)) from rfl, show (8 : Nat) = 4 + (4 + 0) from rfl, f2]
  simp only [g0, g4, p4, p5, q1, q2, q3, q4, q5, Entry.node]
  by_cases h0 : e.nameSize = 0
  · rw [if_pos h0] at hname ⊢
    simp only [pure, Except.pure, Except.ok.injEq] at hname
    simp only [pure, Except.pure, ← hname]
  · rw [if_neg h0] at hname ⊢
    rw [hname]
    rfl

theorem dirNodes_enc (es : List Entry) (ok : ∀ e ∈ es, e.Ok) (did n : Nat) (hn : es.length ≤ n) :
    dirNodes n did (es.flatMap Entry.enc) = .ok (es.mapIdx fun i e => e.node (did + i)) := by
  induction es generalizing did n with
  | nil => cases n <;> rfl
  | cons e es ih =>
    obtain ⟨m, rfl⟩ : ∃ m, n = m + 1 := ⟨n - 1, by simp at hn; omega⟩
    have hl := Entry.enc_length e (ok e (by simp))
    have hb : ∃ a b, (e :: es).flatMap Entry.enc = a :: b := by
      cases hx : (e :: es).flatMap Entry.enc with
      | nil => rw [List.flatMap_cons] at hx; have := congrArg List.length hx; simp [hl] at this
      | cons a b => exact ⟨a, b, rfl⟩
    obtain ⟨a, b, hab⟩ := hb
    have h1 : (a :: b).take 128 = e.enc := by rw [← hab, List.flatMap_cons, ← hl, List.take_left]
    have h2 : (a :: b).drop 128 = es.flatMap Entry.enc := by rw [← hab, List.flatMap_cons, ← hl, List.drop_left]
    rw [hab]
    simp only [dirNodes, bind, Except.bind]
    rw [h1, h2, dirNode_enc did e (ok e (by simp)), ih (fun x hx => ok x (by simp [hx])) (did + 1) m (by simp at hn; omega)]
    simp only [pure, Except.pure, List.mapIdx_cons]
    refine congrArg Except.ok ?_
    simp [Nat.add_assoc, Nat.add_comm 1]

end Xlrd
