import Verif.Lemmas.Hyperlinks

/-!
# Reading OBJ, TXO and NOTE records
-/
set_option linter.unusedSimpArgs false
namespace Xlrd
open Spec

/-! ## OBJ -/

theorem bit8 (n : Nat) : (n >>> 8) &&& 1 = n / 256 % 2 := by
  rw [Nat.and_one_is_mod, Nat.shiftRight_eq_div_pow]

theorem objLoop_end {data : Bytes} {p id a fl : Nat} (en : ObjEnd) (fuel : Nat) (hp : 0 < p) (ha : a = fl / 256 % 2)
    (he : match en with | .done => True | .zeros n => 4 ≤ n | .list n _ => n < 65536 ∧ fl / 256 % 2 = 1)
    (h : data.drop p = en.bytes) : objLoop data (fuel + 1) p (some (id, a)) = .ok (some (id, a)) := by
  have hl := congrArg List.length h
  simp only [List.length_drop] at hl
  cases en with
  | done =>
    simp only [ObjEnd.bytes, List.length_nil] at hl
    rw [objLoop, if_neg (by omega)]; rfl
  | zeros n =>
    simp only [ObjEnd.bytes, List.length_replicate] at hl h he
    obtain ⟨k, rfl⟩ : ∃ k, n = 4 + k := ⟨n - 4, by omega⟩
    have h' : data.drop p = [0, 0, 0, 0] ++ List.replicate k 0 := by rw [h, List.replicate_add]; rfl
    have s := slice_at h' (n := 4) rfl
    have e : slice data (p : Int) ((p : Int) + 4) = [0, 0, 0, 0] := by rw [← s]; rfl
    rw [objLoop, if_pos (by omega)]
    push_cast
    rw [e, unpackN_ok (n := 4) rfl]
    simp only [bind, Except.bind]
    rw [if_neg (by decide), if_pos (by decide), h, if_pos (by simp)]; rfl
  | list n junk =>
    simp only [ObjEnd.bytes] at h hl he
    have s := slice_at h (n := 4) rfl
    have e : slice data (p : Int) ((p : Int) + 4) = le16 0x13 ++ le16 n := by rw [← s]; rfl
    simp only [List.length_append, le16_length] at hl
    rw [objLoop, if_pos (by omega)]
    push_cast
    rw [e, unpackN_ok (n := 4) rfl]
    have f0 : fld (le16 0x13 ++ le16 n) 0 2 = 0x13 := fld_head _ (by decide) _
    simp only [bind, Except.bind, f0]
    rw [if_neg (by decide), if_neg (by decide), if_neg (by decide), if_pos trivial, if_pos (by rw [ha, he.2]; decide)]; rfl

theorem objLoop_parts {data : Bytes} {id a fl : Nat} (en : ObjEnd) (ha : a = fl / 256 % 2)
    (he : match en with | .done => True | .zeros n => 4 ≤ n | .list n _ => n < 65536 ∧ fl / 256 % 2 = 1) (parts : List (Nat × Bytes)) :
    ∀ (p fuel : Nat), 0 < p → parts.length < fuel →
      (∀ q ∈ parts, q.1 < 65536 ∧ q.1 ≠ 0 ∧ q.1 ≠ 0x15 ∧ q.2.length < 65536 ∧ (q.1 = 0x0C → 14 ≤ q.2.length) ∧ (q.1 = 0x13 → fl / 256 % 2 = 0)) →
      data.drop p = encRecs parts ++ en.bytes → objLoop data fuel p (some (id, a)) = .ok (some (id, a)) := by
  induction parts with
  | nil =>
    intro p fuel hp hf _ h
    obtain ⟨fuel, rfl⟩ : ∃ k, fuel = k + 1 := ⟨fuel - 1, by simp at hf; omega⟩
    exact objLoop_end en fuel hp ha he (by simpa [encRecs] using h)
  | cons q parts ih =>
    intro p fuel hp hf hq h
    obtain ⟨fuel, rfl⟩ : ∃ k, fuel = k + 1 := ⟨fuel - 1, by simp at hf; omega⟩
    obtain ⟨q1, q2, q3, q4, q5, q6⟩ := hq q (by simp)
    obtain ⟨ft, b⟩ := q
    simp only at q1 q2 q3 q4 q5 q6
    have h' : data.drop p = (le16 ft ++ le16 b.length) ++ (b ++ (encRecs parts ++ en.bytes)) := by
      rw [h]; simp [encRecs, encRec]
    have s := slice_at h' (n := 4) rfl
    have e : slice data (p : Int) ((p : Int) + 4) = le16 ft ++ le16 b.length := by rw [← s]; rfl
    have h2 := drop_at h' (n := 4) rfl
    have h3 := drop_at h2 (n := b.length) rfl
    have hlen := congrArg List.length h'
    simp only [List.length_drop, List.length_append, le16_length] at hlen
    have f0 : fld (le16 ft ++ le16 b.length) 0 2 = ft := fld_head _ q1 _
    have f2 : fld (le16 ft ++ le16 b.length) 2 2 = b.length := by rw [fld_tail _ _ _ _ (by decide)]; exact fld_only _ q4
    have next := ih (p + b.length + 4) fuel (by omega) (by simp at hf; omega) (fun x hx => hq x (by simp [hx]))
      (by rw [show p + b.length + 4 = p + 4 + b.length by omega]; exact h3)
    rw [objLoop, if_pos (by omega)]
    push_cast
    rw [e, unpackN_ok (n := 4) rfl]
    simp only [bind, Except.bind, f0, f2]
    rw [if_neg q3, if_neg q2]
    by_cases hc : ft = 0x0C
    · rw [if_pos hc]
      have hb := q5 hc
      have : data.drop (p + 8) = (b.drop 4).take 10 ++ ((b.drop 14) ++ (encRecs parts ++ en.bytes)) := by
        rw [show p + 8 = p + 4 + 4 by omega, ← List.drop_drop, h2, List.drop_append_of_le_length (by omega)]
        have : b.drop 4 = (b.drop 4).take 10 ++ b.drop 14 := by
          rw [show (14 : Nat) = 4 + 10 from rfl, ← List.drop_drop, List.take_append_drop]
        conv_lhs => rw [this]
        rw [List.append_assoc]
      have hl10 : ((b.drop 4).take 10).length = 10 := by rw [List.length_take, List.length_drop]; omega
      have s10 := slice_at this hl10
      have e10 : slice data ((p : Int) + 8) ((p : Int) + 18) = (b.drop 4).take 10 := by
        rw [← s10]; congr 1
      rw [e10, unpackN_ok hl10]
      exact next
    · rw [if_neg hc]
      by_cases h13 : ft = 0x13
      · have : a = 0 := by rw [ha]; exact q6 h13
        rw [if_pos h13, if_neg (by rw [this]; simp)]
        exact next
      · rw [if_neg h13]; exact next

theorem handleObj_ok {bv : Nat} (h80 : 80 ≤ bv) (x : ObjRec) (hx : x.Ok) : handleObj bv x.bytes = .ok (some x.id) := by
  set H := le16 0x15 ++ (le16 18 ++ (le16 x.kind ++ (le16 x.id ++ le16 x.flags))) with hH
  have hb : x.bytes = H ++ (x.reserved ++ (encRecs x.parts ++ x.ending.bytes)) := by simp only [ObjRec.bytes, hH, List.append_assoc]
  set D := x.bytes with hD
  have h0 : D.drop 0 = (le16 0x15 ++ le16 18) ++ ((le16 x.kind ++ (le16 x.id ++ le16 x.flags)) ++ (x.reserved ++ (encRecs x.parts ++ x.ending.bytes))) := by
    rw [List.drop_zero, hb, hH]; simp only [List.append_assoc]
  have s4 := slice_at h0 (n := 4) rfl
  have e4 : slice D 0 4 = le16 0x15 ++ le16 18 := by rw [← s4]; rfl
  have h4 := drop_at h0 (n := 4) rfl
  have s10 := slice_at h4 (n := 6) rfl
  have h10 := drop_at h4 (n := 6) rfl
  have h22 := drop_at h10 hx.reserved
  have hlen : D.length = 10 + (12 + ((encRecs x.parts).length + x.ending.bytes.length)) := by
    rw [hb]; simp only [List.length_append, hx.reserved]; rw [show H.length = 10 from rfl]
  have hne : D ≠ [] := by intro h; rw [h] at hlen; simp at hlen; omega
  have hcnt : x.parts.length ≤ (encRecs x.parts).length := by
    have : ∀ l : List (Nat × Bytes), l.length ≤ (encRecs l).length := by
      intro l
      induction l with
      | nil => simp [encRecs]
      | cons q l ih => simp only [encRecs, List.flatMap_cons, List.length_append, encRec_length, List.length_cons] at ih ⊢; omega
    exact this _
  unfold handleObj
  rw [if_neg (by omega), if_neg hne, e4, unpackN_ok (n := 4) rfl]
  simp only [bind, Except.bind]
  have f0 : fld (le16 0x15 ++ le16 18) 0 2 = 0x15 := rfl
  have f2 : fld (le16 0x15 ++ le16 18) 2 2 = 18 := rfl
  rw [if_pos ⟨f0, f2⟩, objLoop, if_pos (by omega)]
  push_cast
  simp only [zero_add]
  rw [e4, unpackN_ok (n := 4) rfl]
  simp only [bind, Except.bind, f0, f2, ↓reduceIte, decide_true, pyAssert]
  have e10 : slice D 4 10 = le16 x.kind ++ (le16 x.id ++ le16 x.flags) := by rw [← s10]; rfl
  rw [e10, unpackN_ok (n := 6) rfl]
  have g2 : fld (le16 x.kind ++ (le16 x.id ++ le16 x.flags)) 2 2 = x.id := by rw [fld_tail _ _ _ _ (by decide)]; exact fld_head _ hx.id _
  have g4 : fld (le16 x.kind ++ (le16 x.id ++ le16 x.flags)) 4 2 = x.flags := by
    rw [fld_tail _ _ _ _ (by decide), fld_tail _ _ _ _ (by decide)]; exact fld_only _ hx.flags
  simp only [g2, g4]
  rw [bit8, objLoop_parts x.ending rfl hx.ending x.parts (18 + 4) D.length (by omega) (by omega) hx.parts h22]
  rfl

/-! ## TXO -/

theorem piece_units (p : Piece) (h : p.text ≠ []) : 0 < (utf16 p.text).length := by
  cases ht : p.text with
  | nil => exact absurd ht h
  | cons c t => simp only [utf16, List.flatMap_cons, List.length_append]; unfold unitsOf; split_ifs <;> simp <;> omega

theorem piece_length (p : Piece) : p.bytes.length = 1 + (if p.wide then 2 else 1) * (utf16 p.text).length := by
  rw [Piece.bytes, List.length_cons, encUnits_length]; ring

theorem piece_read (p : Piece) (h : Fits p.wide (utf16 p.text)) :
    unpackUnicodeUpdatePos p.bytes 0 2 (some ((utf16 p.text).length : Nat)) = .ok (p.text, (p.bytes.length : Int)) := by
  have hb : p.bytes = (⟨p.text, if p.wide then 1 else 0, p.wide, none, none⟩ : UStr).body ++ [] := by
    unfold Piece.bytes UStr.body; cases p.wide <;> simp
  have hok : (⟨p.text, if p.wide then 1 else 0, p.wide, none, none⟩ : UStr).Ok :=
    ⟨by cases p.wide <;> simp only [Flags] <;> decide, h, fun _ h => (by cases h), fun _ h => (by cases h)⟩
  have := unicodeBody_at (data := p.bytes) (r := []) (p := 0) _ hok 2 (by rw [List.drop_zero]; exact hb)
  simp only [Nat.cast_zero, Nat.zero_add] at this
  rw [this, hb, List.append_nil]

theorem units_append (a b : PyStr) : (utf16 (a ++ b)).length = (utf16 a).length + (utf16 b).length := by simp [utf16]

theorem txoText_ok {mem : Bytes} (cch : Nat) (ps : List Piece) :
    ∀ (fuel tot p : Nat) (acc : PyStr) (rest : Bytes), ps.length < fuel →
      (∀ q ∈ ps, q.text ≠ [] ∧ Fits q.wide (utf16 q.text) ∧ q.bytes.length < 65536) →
      tot + (utf16 (ps.map Piece.text).flatten).length = cch →
      mem.drop p = encRecs (ps.map fun q => (0x3c, q.bytes)) ++ rest →
      txoText mem cch fuel tot acc (p : Int) =
        .ok (acc ++ (ps.map Piece.text).flatten, ((p + (encRecs (ps.map fun q => (0x3c, q.bytes))).length : Nat) : Int)) := by
  induction ps with
  | nil =>
    intro fuel tot p acc rest hf _ ht _
    obtain ⟨fuel, rfl⟩ : ∃ k, fuel = k + 1 := ⟨fuel - 1, by simp at hf; omega⟩
    simp [utf16] at ht
    rw [txoText, if_neg (by omega)]
    simp [encRecs, pure, Except.pure]
  | cons q ps ih =>
    intro fuel tot p acc rest hf hq ht h
    obtain ⟨fuel, rfl⟩ : ∃ k, fuel = k + 1 := ⟨fuel - 1, by simp at hf; omega⟩
    obtain ⟨q1, q2, q3⟩ := hq q (by simp)
    have hu := piece_units q q1
    simp only [List.map_cons, List.flatten_cons, units_append] at ht
    have h' : mem.drop p = encRec 0x3c q.bytes ++ (encRecs (ps.map fun q => (0x3c, q.bytes)) ++ rest) := by rw [h]; simp [encRecs]
    have h2 := drop_at h' (encRec_length _ _)
    have next := ih fuel (tot + (utf16 q.text).length) (p + (4 + q.bytes.length)) (acc ++ q.text) rest (by simp at hf; omega)
      (fun x hx => hq x (by simp [hx])) (by omega) h2
    have hpl := piece_length q
    have hrd := piece_read q q2
    have hlen : ((p + 4 + q.bytes.length : Nat) : Int) = ((p + (4 + q.bytes.length) : Nat) : Int) := by push_cast; ring
    have hfin : txoText mem cch fuel (tot + (utf16 q.text).length) (acc ++ q.text) ((p + 4 + q.bytes.length : Nat) : Int) =
        .ok (acc ++ (List.map Piece.text (q :: ps)).flatten, ((p + (encRecs ((q :: ps).map fun q => (0x3c, q.bytes))).length : Nat) : Int)) := by
      rw [hlen, next]
      simp only [List.map_cons, List.flatten_cons, List.append_assoc, encRecs, List.flatMap_cons, List.length_append, encRec_length, Except.ok.injEq,
        Prod.mk.injEq, true_and]
      push_cast; ring
    rw [txoText, if_pos (by omega), getRecordParts_at (by decide) q3 h']
    simp only [bind, Except.bind, pyAssert, XL_CONTINUE, decide_true, ↓reduceIte]
    cases hw : q.wide with
    | true =>
      rw [hw] at hpl
      simp only [↓reduceIte] at hpl
      have hb0 : byteAt q.bytes 0 = .ok 1 := by
        have : q.bytes.drop 0 = 1 :: encUnits true (utf16 q.text) := by rw [List.drop_zero, Piece.bytes, hw]; rfl
        exact byteAt_at (p := 0) this
      have e1 : ((q.bytes.length : Nat) : Int) - 1 = 2 * ((utf16 q.text).length : Int) := by rw [hpl]; push_cast; ring
      rw [hb0]
      simp only [ne_eq, one_ne_zero, not_false_eq_true, ↓reduceIte, e1]
      rw [show (2 * ((utf16 q.text).length : Int)) % 2 = 0 by omega, show (2 * ((utf16 q.text).length : Int)) / 2 = ((utf16 q.text).length : Int) by omega]
      simp only [decide_true, ↓reduceIte, hrd, Int.toNat_natCast]
      exact hfin
    | false =>
      rw [hw] at hpl
      simp only [Bool.false_eq_true, ↓reduceIte, one_mul] at hpl
      have hb0 : byteAt q.bytes 0 = .ok 0 := by
        have : q.bytes.drop 0 = 0 :: encUnits false (utf16 q.text) := by rw [List.drop_zero, Piece.bytes, hw]; rfl
        exact byteAt_at (p := 0) this
      have e1 : ((q.bytes.length : Nat) : Int) - 1 = ((utf16 q.text).length : Int) := by rw [hpl]; push_cast; ring
      rw [hb0]
      simp only [ne_eq, not_true_eq_false, ↓reduceIte, e1]
      simp only [decide_true, ↓reduceIte, hrd, Int.toNat_natCast]
      exact hfin

theorem boxRun_length (rs : List BoxRun) : (rs.flatMap BoxRun.bytes).length = 8 * rs.length := by
  induction rs with
  | nil => rfl
  | cons r rs ih =>
    simp only [List.flatMap_cons, List.length_append, ih, List.length_cons, BoxRun.bytes, le16_length, le32_length]; ring

theorem txoRuns1_ok {data : Bytes} (rs : List BoxRun) :
    ∀ (p : Nat) (rest : Bytes), (∀ r ∈ rs, r.start < 65536 ∧ r.font < 65536 ∧ r.reserved < 4294967296) →
      data.drop p = rs.flatMap BoxRun.bytes ++ rest → txoRuns1 data rs.length p = .ok (rs.map fun r => (r.start, r.font)) := by
  induction rs with
  | nil => intro p rest _ _; rfl
  | cons r rs ih =>
    intro p rest hr h
    obtain ⟨k1, k2, k3⟩ := hr r (by simp)
    have h' : data.drop p = (le16 r.start ++ (le16 r.font ++ le32 r.reserved)) ++ (rs.flatMap BoxRun.bytes ++ rest) := by
      rw [h]; simp [BoxRun.bytes]
    have s := slice_at h' (n := 8) rfl
    have h2 := drop_at h' (n := 8) rfl
    have next := ih (p + 8) rest (fun x hx => hr x (by simp [hx])) h2
    have e : slice data (p : Int) ((p : Int) + 8) = le16 r.start ++ (le16 r.font ++ le32 r.reserved) := by rw [← s]; rfl
    rw [List.length_cons, txoRuns1]
    push_cast
    rw [e, unpackN_ok (n := 8) rfl]
    have f0 : fld (le16 r.start ++ (le16 r.font ++ le32 r.reserved)) 0 2 = r.start := fld_head _ k1 _
    have f2 : fld (le16 r.start ++ (le16 r.font ++ le32 r.reserved)) 2 2 = r.font := by
      rw [fld_tail _ _ _ _ (by decide)]; exact fld_head _ k2 _
    simp only [bind, Except.bind, next, f0, f2, pure, Except.pure, List.map_cons]

theorem txoRuns_ok {mem : Bytes} (cb : Nat) (rss : List (List BoxRun)) :
    ∀ (fuel tot p : Nat) (acc : List (Nat × Nat)) (rest : Bytes), rss.length < fuel →
      (∀ rs ∈ rss, rs ≠ [] ∧ (∀ r ∈ rs, r.start < 65536 ∧ r.font < 65536 ∧ r.reserved < 4294967296) ∧ (rs.flatMap BoxRun.bytes).length < 65536) →
      tot + 8 * rss.flatten.length = cb →
      mem.drop p = encRecs (rss.map fun rs => (0x3c, rs.flatMap BoxRun.bytes)) ++ rest →
      txoRuns mem cb fuel tot acc (p : Int) =
        .ok (acc ++ rss.flatten.map fun r => (r.start, r.font), ((p + (encRecs (rss.map fun rs => (0x3c, rs.flatMap BoxRun.bytes))).length : Nat) : Int)) := by
  induction rss with
  | nil =>
    intro fuel tot p acc rest hf _ ht _
    obtain ⟨fuel, rfl⟩ : ∃ k, fuel = k + 1 := ⟨fuel - 1, by simp at hf; omega⟩
    simp at ht
    rw [txoRuns, if_neg (by omega)]
    simp [encRecs, pure, Except.pure]
  | cons q ps ih =>
    intro fuel tot p acc rest hf hq ht h
    obtain ⟨fuel, rfl⟩ : ∃ k, fuel = k + 1 := ⟨fuel - 1, by simp at hf; omega⟩
    obtain ⟨q1, q2, q3⟩ := hq q (by simp)
    have hu : 0 < q.length := List.length_pos_of_ne_nil q1
    simp only [List.flatten_cons, List.length_append] at ht
    have h' : mem.drop p = encRec 0x3c (q.flatMap BoxRun.bytes) ++ (encRecs (ps.map fun rs => (0x3c, rs.flatMap BoxRun.bytes)) ++ rest) := by
      rw [h]; simp [encRecs]
    have h2 := drop_at h' (encRec_length _ _)
    have next := ih fuel (tot + 8 * q.length) (p + (4 + (q.flatMap BoxRun.bytes).length)) (acc ++ q.map fun r => (r.start, r.font)) rest
      (by simp at hf; omega) (fun x hx => hq x (by simp [hx])) (by omega) h2
    have hl := boxRun_length q
    have hr := txoRuns1_ok (data := q.flatMap BoxRun.bytes) q 0 [] q2 (by simp)
    rw [txoRuns, if_pos (by omega), getRecordParts_at (by decide) q3 h']
    simp only [bind, Except.bind, pyAssert, XL_CONTINUE, decide_true, ↓reduceIte]
    rw [show ((p + 4 + (q.flatMap BoxRun.bytes).length : Nat) : Int) = ((p + (4 + (q.flatMap BoxRun.bytes).length) : Nat) : Int) by push_cast; ring]
    rw [hl] at next ⊢
    rw [show 8 * q.length % 8 = 0 by omega, show 8 * q.length / 8 = q.length by omega]
    simp only [decide_true, ↓reduceIte, hr]
    rw [next]
    simp only [List.map_cons, List.flatten_cons, List.map_append, List.append_assoc, encRecs, List.flatMap_cons, List.length_append, encRec_length,
      Except.ok.injEq, Prod.mk.injEq, true_and, hl]
    push_cast; ring

/-- The text of a box as the library keeps it. -/
def boxTxo (x : BoxRec) : Txo := ⟨x.text, trimRuns (utf16 x.text).length (x.runs.flatten.map fun r => (r.start, r.font))⟩

theorem encRecs_ge (l : List (Nat × Bytes)) : l.length ≤ (encRecs l).length := by
  induction l with
  | nil => simp [encRecs]
  | cons q l ih => simp only [encRecs, List.flatMap_cons, List.length_append, encRec_length, List.length_cons] at ih ⊢; omega

/-- The CONTINUE records of a text box. -/
def BoxRec.tail (x : BoxRec) : List (Nat × Bytes) :=
  x.pieces.map (fun p => (0x3c, p.bytes)) ++ x.runs.map fun rs => (0x3c, rs.flatMap BoxRun.bytes)

theorem handleTxo_ok {bv p : Nat} {mem rest : Bytes} (h80 : 80 ≤ bv) (x : BoxRec) (hx : x.Ok) (hs : ∀ q ∈ BoxRec.tail x, q.2.length < 65536)
    (h : mem.drop p = encRecs (BoxRec.tail x) ++ rest) :
    handleTxo bv mem x.txo (p : Int) = .ok (some (boxTxo x), ((p + (encRecs (BoxRec.tail x)).length : Nat) : Int)) := by
  have hl := congrArg List.length h
  have g := encRecs_ge (BoxRec.tail x)
  simp only [List.length_drop, List.length_append] at hl
  have gl : (BoxRec.tail x).length = x.pieces.length + x.runs.length := by simp [BoxRec.tail]
  set H := le16 x.flags ++ (le16 x.rotation ++ (x.control ++ (le16 (utf16 x.text).length ++ (le16 (8 * x.runs.flatten.length) ++ le16 x.font)))) with hH
  have hb : x.txo = H ++ x.formula := by simp only [BoxRec.txo, hH, List.append_assoc]
  have hl16 : H.length = 16 := by rw [hH]; simp only [List.length_append, le16_length, hx.control]
  have e16 : sliceTo x.txo 16 = H := by rw [hb]; exact sliceTo_app (n := 16) rfl hl16
  have hH2 : H = (le16 x.flags ++ (le16 x.rotation ++ x.control)) ++ (le16 (utf16 x.text).length ++ (le16 (8 * x.runs.flatten.length) ++ le16 x.font)) := by
    rw [hH]; simp only [List.append_assoc]
  have hl10 : (le16 x.flags ++ (le16 x.rotation ++ x.control)).length = 10 := by simp only [List.length_append, le16_length, hx.control]
  have f10 : fld H 10 2 = (utf16 x.text).length := by
    rw [hH2, show (10 : Nat) = 10 + 0 from rfl, fld_skip' _ _ 10 _ _ hl10]; exact fld_head _ hx.text _
  have f12 : fld H 12 2 = 8 * x.runs.flatten.length := by
    rw [hH2, show (12 : Nat) = 10 + 2 from rfl, fld_skip' _ _ 10 _ _ hl10, fld_tail _ _ _ _ (by decide)]; exact fld_head _ hx.runCount _
  have h' := h
  rw [BoxRec.tail, encRecs_append, List.append_assoc] at h'
  have h2 := drop_at h' rfl
  unfold handleTxo
  rw [if_neg (by omega), e16, unpackN_ok hl16]
  simp only [bind, Except.bind, f10, f12]
  rw [txoText_ok (utf16 x.text).length x.pieces (mem.length + 1) 0 p [] _ (by omega)
    (fun q hq => ⟨(hx.pieces q hq).1, (hx.pieces q hq).2, hs (0x3c, q.bytes) (by simp only [BoxRec.tail, List.mem_append, List.mem_map]; exact .inl ⟨q, hq, rfl⟩)⟩)
    (by simp [BoxRec.text]) h']
  simp only []
  rw [txoRuns_ok (8 * x.runs.flatten.length) x.runs (mem.length + 1) 0 _ [] _ (by omega)
    (fun q hq => ⟨(hx.runs q hq).1, (hx.runs q hq).2, hs (0x3c, q.flatMap BoxRun.bytes) (by simp only [BoxRec.tail, List.mem_append, List.mem_map]; exact .inr ⟨q, hq, rfl⟩)⟩)
    (by simp) h2]
  simp only [pure, Except.pure, boxTxo, List.nil_append, BoxRec.tail, encRecs_append, List.length_append, Except.ok.injEq, Prod.mk.injEq, BoxRec.text,
    Nat.add_assoc, true_and]

theorem recTxo_ok {bv p id : Nat} {mem rest : Bytes} {e : Extras} (h80 : 80 ≤ bv) (x : BoxRec) (hx : x.Ok) (hid : id ≠ 0) (he : e.saved = some (some id))
    (hs : ∀ q ∈ BoxRec.tail x, q.2.length < 65536) (h : mem.drop p = encRecs (BoxRec.tail x) ++ rest) :
    recTxo bv mem e x.txo (p : Int) = .ok ({ e with txos := fun k => if k = id then some (boxTxo x) else e.txos k, saved := some none },
      ((p + (encRecs (BoxRec.tail x)).length : Nat) : Int)) := by
  unfold recTxo
  rw [handleTxo_ok h80 x hx hs h]
  simp only [bind, Except.bind, he, if_neg hid, pure, Except.pure]

/-! ## NOTE -/

theorem flagBit (n k : Nat) : (n >>> k) &&& 1 = n / 2 ^ k % 2 := by rw [Nat.and_one_is_mod, Nat.shiftRight_eq_div_pow]

theorem handleNote_boxed {bv : Nat} {dec : Bytes → R PyStr} {mem : Bytes} {pos : Int} {e : Extras} (h80 : 80 ≤ bv) {row col flags obj : Nat} {author : UStr}
    {pad : Option UInt8} (hx : (NoteRec.boxed row col flags obj author pad).Ok bv dec) :
    handleNote bv dec mem e (le16 row ++ le16 col ++ le16 flags ++ le16 obj ++ le16 (utf16 author.text).length ++ author.body ++ pad.toList) pos =
      .ok ((match e.txos obj with
        | none => e
        | some t => { e with notes := fun p => if p = (row, col) then (
            some ⟨row, col, t.text, t.runs, author.text, flags / 2 % 2, flags / 128 % 2, flags / 256 % 2⟩ : Option Note) else e.notes p }), pos) := by
  obtain ⟨_, k1, k2, k3, k4, k5, k6⟩ := hx
  set H := le16 row ++ (le16 col ++ (le16 flags ++ le16 obj)) with hH
  set D := le16 row ++ le16 col ++ le16 flags ++ le16 obj ++ le16 (utf16 author.text).length ++ author.body ++ pad.toList with hD
  have hb : D = H ++ (le16 (utf16 author.text).length ++ (author.body ++ pad.toList)) := by simp only [hD, hH, List.append_assoc]
  have e8 : sliceTo D 8 = H := by rw [hb]; exact sliceTo_app (n := 8) rfl rfl
  have f0 : fld H 0 2 = row := fld_head _ k1 _
  have f2 : fld H 2 2 = col := by rw [hH, fld_tail _ _ _ _ (by decide)]; exact fld_head _ k2 _
  have f4 : fld H 4 2 = flags := by rw [hH, fld_tail _ _ _ _ (by decide), fld_tail _ _ _ _ (by decide)]; exact fld_head _ k3 _
  have f6 : fld H 6 2 = obj := by
    rw [hH, fld_tail _ _ _ _ (by decide), fld_tail _ _ _ _ (by decide), fld_tail _ _ _ _ (by decide)]; exact fld_only _ k4
  have h8 : D.drop 8 = encLen 2 (utf16 author.text).length ++ (author.body ++ pad.toList) := by
    rw [hb, show (8 : Nat) = H.length from rfl, List.drop_left]; rfl
  have hu := unicodeLen_at (data := D) (p := 8) (l := 2) author k5 (.inr rfl) (by norm_num; exact k6) h8
  have hlen : D.length = 8 + 2 + author.body.length + pad.toList.length := by
    rw [hb]; simp only [List.length_append, le16_length]; rw [show H.length = 8 from rfl]; ring
  have hpad : pad.toList.length = 0 ∨ pad.toList.length = 1 := by cases pad <;> simp
  have ha : pyAssert (decide ((D.length : Int) - ((8 + 2 + author.body.length : Nat) : Int) = 0 ∨ (D.length : Int) - ((8 + 2 + author.body.length : Nat) : Int) = 1)) = .ok () := by
    rw [hlen]; unfold pyAssert; rw [if_pos]; simp only [decide_eq_true_eq]; push_cast
    rcases hpad with h | h <;> rw [h] <;> [left; right] <;> push_cast <;> ring
  unfold handleNote noteNew
  rw [if_neg (by omega), e8, unpackN_ok (n := 8) rfl]
  simp only [bind, Except.bind]
  rw [show (8 : Int) = ((8 : Nat) : Int) from rfl, hu]
  simp only []
  rw [ha]
  simp only [f6]
  cases e.txos obj with
  | none => rfl
  | some t =>
    simp only [pure, Except.pure, f0, f2, f4, flagBit]
    norm_num

theorem notePieces_ok {mem : Bytes} (more : List (Nat × Bytes)) :
    ∀ (fuel p : Nat) (acc : Bytes) (rest : Bytes), more.length < fuel →
      (∀ q ∈ more, q.1 < 65536 ∧ q.2 ≠ [] ∧ 6 + q.2.length < 65536) →
      mem.drop p = encRecs (more.map fun q => (0x1c, le16 0xFFFF ++ le16 q.1 ++ le16 q.2.length ++ q.2)) ++ rest →
      notePieces mem fuel (((more.map fun q => q.2.length).sum : Nat) : Int) acc (p : Int) =
        .ok (acc ++ more.flatMap Prod.snd, ((p + (encRecs (more.map fun q => (0x1c, le16 0xFFFF ++ le16 q.1 ++ le16 q.2.length ++ q.2))).length : Nat) : Int)) := by
  induction more with
  | nil =>
    intro fuel p acc rest hf _ _
    obtain ⟨fuel, rfl⟩ : ∃ k, fuel = k + 1 := ⟨fuel - 1, by simp at hf; omega⟩
    rw [notePieces]
    simp [encRecs, pure, Except.pure, pyAssert, bind, Except.bind]
  | cons q more ih =>
    intro fuel p acc rest hf hq h
    obtain ⟨fuel, rfl⟩ : ∃ k, fuel = k + 1 := ⟨fuel - 1, by simp at hf; omega⟩
    obtain ⟨q1, q2, q3⟩ := hq q (by simp)
    have hu : 0 < q.2.length := List.length_pos_of_ne_nil q2
    set D := le16 0xFFFF ++ le16 q.1 ++ le16 q.2.length ++ q.2 with hD
    have hDl : D.length = 6 + q.2.length := by rw [hD]; simp; omega
    have h' : mem.drop p = encRec 0x1c D ++ (encRecs (more.map fun q => (0x1c, le16 0xFFFF ++ le16 q.1 ++ le16 q.2.length ++ q.2)) ++ rest) := by
      rw [h]; simp [encRecs, hD]
    have h2 := drop_at h' (encRec_length _ _)
    have next := ih fuel (p + (4 + D.length)) (acc ++ q.2) rest (by simp at hf; omega) (fun x hx => hq x (by simp [hx])) h2
    set H := le16 0xFFFF ++ (le16 q.1 ++ le16 q.2.length) with hH
    have hb : D = H ++ q.2 := by simp only [hD, hH, List.append_assoc]
    have e6 : sliceTo D 6 = H := by rw [hb]; exact sliceTo_app (n := 6) rfl rfl
    have f0 : fld H 0 2 = 0xFFFF := fld_head _ (by decide) _
    have f4 : fld H 4 2 = q.2.length := by rw [hH, fld_tail _ _ _ _ (by decide), fld_tail _ _ _ _ (by decide)]; exact fld_only _ (by omega)
    have ef : sliceFrom D 6 = q.2 := by
      rw [show (6 : Int) = ((6 : Nat) : Int) from rfl, sliceFrom_nat _ _ (by omega), hb, show (6 : Nat) = H.length from rfl, List.drop_left]
    rw [notePieces, if_pos (by simp; omega), getRecordParts_at (by decide) (by omega) h']
    simp only [bind, Except.bind, pyAssert, decide_true, ↓reduceIte]
    rw [e6, unpackN_ok (n := 6) rfl]
    simp only [f0, f4, decide_true, ↓reduceIte, ef]
    have ha : decide ((q.2.length : Int) = (D.length : Int) - 6) = true := by rw [hDl]; simp
    simp only [ha, ↓reduceIte]
    rw [show ((((q :: more).map fun q => q.2.length).sum : Nat) : Int) - (q.2.length : Int) = (((more.map fun q => q.2.length).sum : Nat) : Int) by
      simp, show ((p + 4 + D.length : Nat) : Int) = ((p + (4 + D.length) : Nat) : Int) by push_cast; ring, next]
    simp only [List.map_cons, List.flatMap_cons, List.append_assoc, encRecs, List.length_append, encRec_length, Except.ok.injEq,
      Prod.mk.injEq, true_and, hD]
    push_cast; ring

theorem handleNote_plain {bv : Nat} {dec : Bytes → R PyStr} {mem rest : Bytes} {p : Nat} {e : Extras} {row col : Nat} {text : PyStr} {first : Bytes}
    {more : List (Nat × Bytes)} (hx : (NoteRec.plain row col text first more).Ok bv dec) (hs : ∀ q ∈ more, 6 + q.2.length < 65536)
    (h : mem.drop p = encRecs (more.map fun q => (0x1c, le16 0xFFFF ++ le16 q.1 ++ le16 q.2.length ++ q.2)) ++ rest) :
    handleNote bv dec mem e (le16 row ++ le16 col ++ le16 (first.length + (more.map fun q => q.2.length).sum) ++ first) (p : Int) =
      .ok ({ e with notes := fun p => if p = (row, col) then some ⟨row, col, text, [(0, 0)], [], 0, 0, 0⟩ else e.notes p },
        ((p + (encRecs (more.map fun q => (0x1c, le16 0xFFFF ++ le16 q.1 ++ le16 q.2.length ++ q.2))).length : Nat) : Int)) := by
  obtain ⟨h80, k1, k2, k3, k4, k5⟩ := hx
  set n := first.length + (more.map fun q => q.2.length).sum with hn
  set H := le16 row ++ (le16 col ++ le16 n) with hH
  set D := le16 row ++ le16 col ++ le16 n ++ first with hD
  have hb : D = H ++ first := by simp only [hD, hH, List.append_assoc]
  have hDl : D.length = 6 + first.length := by rw [hD]; simp; omega
  have e6 : sliceTo D 6 = H := by rw [hb]; exact sliceTo_app (n := 6) rfl rfl
  have f0 : fld H 0 2 = row := fld_head _ k1 _
  have f2 : fld H 2 2 = col := by rw [hH, fld_tail _ _ _ _ (by decide)]; exact fld_head _ k2 _
  have f4 : fld H 4 2 = n := by rw [hH, fld_tail _ _ _ _ (by decide), fld_tail _ _ _ _ (by decide)]; exact fld_only _ k3
  have ef : sliceFrom D 6 = first := by
    rw [show (6 : Int) = ((6 : Nat) : Int) from rfl, sliceFrom_nat _ _ (by omega), hb, show (6 : Nat) = H.length from rfl, List.drop_left]
  have hl := congrArg List.length h
  have g := encRecs_ge (more.map fun q => (0x1c, le16 0xFFFF ++ le16 q.1 ++ le16 q.2.length ++ q.2))
  simp only [List.length_drop, List.length_append, List.length_map] at hl g
  have hp := notePieces_ok more (mem.length + 1) p first rest (by omega) (fun q hq => ⟨(k4 q hq).1, (k4 q hq).2, hs q hq⟩) h
  unfold handleNote noteOld
  rw [if_pos h80, e6, unpackN_ok (n := 6) rfl]
  simp only [bind, Except.bind, f0, f2, f4, ef, pyAssert]
  have ha : decide ((D.length : Int) - 6 ≤ (n : Int)) = true := by rw [hDl, hn]; simp
  have hd : (n : Int) - ((D.length : Int) - 6) = (((more.map fun q => q.2.length).sum : Nat) : Int) := by rw [hDl, hn]; push_cast; ring
  simp only [ha, ↓reduceIte, hd, hp, k5, pure, Except.pure]

/-! ## What an item does -/

/-- What one of these records does to the sheet. -/
def applyExtra (e : Extras) : ExtraRec → Extras
  | .link x tip => { e with links := e.links ++ [x.value tip], linkMap := mapLink e.linkMap (x.value none) e.links.length }
  | .shape x => { e with saved := some (some x.id) }
  | .oldShape _ => { e with saved := some none }
  | .box x => { e with txos := fun k => if k = x.obj.id then some (boxTxo x) else e.txos k, saved := some none }
  | .note (.boxed row col flags obj author _) =>
      match e.txos obj with
      | none => e
      | some t => { e with notes := fun p => if p = (row, col) then
          (some ⟨row, col, t.text, t.runs, author.text, flags / 2 % 2, flags / 128 % 2, flags / 256 % 2⟩ : Option Note) else e.notes p }
  | .note (.plain row col text _ _) =>
      { e with notes := fun p => if p = (row, col) then some ⟨row, col, text, [(0, 0)], [], 0, 0, 0⟩ else e.notes p }
  | _ => e

theorem recCondFmt_ok (env : SheetEnv) (s : SheetSt) (head junk : Bytes) (rs : List Rect) (h80 : 80 ≤ env.bv) (hh : head.length = 12) (hl : rs.length < 65536)
    (hr : ∀ r ∈ rs, rectOk r) : recCondFmt env s (head ++ le16 rs.length ++ rs.flatMap (encRange 8) ++ junk) = .ok s := by
  set D := head ++ le16 rs.length ++ rs.flatMap (encRange 8) ++ junk with hD
  have h0 : D.drop 0 = head ++ (le16 rs.length ++ (rs.flatMap (encRange 8) ++ junk)) := by rw [List.drop_zero, hD]; simp only [List.append_assoc]
  have h12 := drop_at h0 hh
  have s0 := slice_at h0 hh
  have e0 : slice D 0 12 = head := by rw [← s0]; rfl
  have h14 := drop_at h12 (le16_length _)
  have e12 := unpackH_at (p := 12) hl (by rw [show (12 : Nat) = 0 + 12 from rfl]; exact h12)
  have hu := unpackRanges_at (data := D) 8 (.inr rfl) rs (fun r hm => (by
    obtain ⟨a, b, c, d⟩ := hr r hm
    exact ⟨a, b, c, d⟩)) 14 junk h14
  unfold recCondFmt
  by_cases hf : env.cfg.fmtInfo = true
  · rw [if_pos hf, e0, unpackN_ok hh]
    unfold unpackCellRangeAddressList
    simp only [bind, Except.bind, pyAssert, ge_iff_le, h80, decide_true, ↓reduceIte]
    push_cast at e12 hu
    rw [show (12 : Int) + 2 = 14 by norm_num] at *
    rw [e12]
    simp only []
    rw [hu]
    rw [if_pos (by simp)]; rfl
  · rw [if_neg hf]; rfl

theorem cf_bits (a b c d : Bool) (low high : Nat) (h1 : low < 2 ^ 26) :
    ((low + 2 ^ 26 * ofBits [a, b, c, d] + 2 ^ 30 * high) >>> 26 &&& 1 = bit a) ∧
    ((low + 2 ^ 26 * ofBits [a, b, c, d] + 2 ^ 30 * high) >>> 28 &&& 1 = bit c) ∧
    ((low + 2 ^ 26 * ofBits [a, b, c, d] + 2 ^ 30 * high) >>> 29 &&& 1 = bit d) := by
  simp only [flagBit, ofBits]
  cases a <;> cases b <;> cases c <;> cases d <;> simp only [bit] <;> refine ⟨?_, ?_, ?_⟩ <;> norm_num <;> omega

theorem recCf_ok (env : SheetEnv) (s : SheetSt) (x : CfRec) (hx : x.Ok) : recCf env s x.bytes.length x.bytes = .ok s := by
  obtain ⟨b26, b28, b29⟩ := cf_bits x.hasFont x.bit27 x.hasBorder x.hasPattern x.low x.high hx.low
  have hfl : x.flags < 2 ^ 32 := by
    have h1 := hx.low; have h2 := hx.high
    have : ofBits [x.hasFont, x.bit27, x.hasBorder, x.hasPattern] < 16 := by
      cases x.hasFont <;> cases x.bit27 <;> cases x.hasBorder <;> cases x.hasPattern <;> decide
    unfold CfRec.flags; omega
  set H := le16 x.kind ++ (le16 x.formula1.length ++ (le16 x.formula2.length ++ le32 x.flags)) with hH
  have hlH : H.length = 10 := rfl
  have hb : x.bytes = H ++ (le16 x.unused ++ (x.font ++ (x.border ++ (x.pattern ++ (x.formula1 ++ x.formula2))))) := by
    simp only [CfRec.bytes, hH, List.append_assoc]
  have hlen : x.bytes.length = 12 + x.font.length + x.border.length + x.pattern.length + x.formula1.length + x.formula2.length := by
    rw [hb]; simp only [List.length_append, hlH, le16_length]; ring
  have h0 : x.bytes.drop 0 = H ++ (le16 x.unused ++ (x.font ++ (x.border ++ (x.pattern ++ (x.formula1 ++ x.formula2))))) := by rw [List.drop_zero, hb]
  have s0 := slice_at h0 hlH
  have e0 : slice x.bytes 0 10 = H := by rw [← s0]; rfl
  have h12 := drop_at (drop_at h0 hlH) (le16_length _)
  have f2 : fld H 2 2 = x.formula1.length := by rw [hH, fld_tail _ _ _ _ (by decide)]; exact fld_head _ hx.formula1 _
  have f4 : fld H 4 2 = x.formula2.length := by rw [hH, fld_tail _ _ _ _ (by decide), fld_tail _ _ _ _ (by decide)]; exact fld_head _ hx.formula2 _
  have f6 : fld H 6 4 = x.flags := by
    rw [hH, fld_tail _ _ _ _ (by decide), fld_tail _ _ _ _ (by decide), fld_tail _ _ _ _ (by decide)]; exact fld_le32 _ hfl
  unfold recCf
  by_cases hf : env.cfg.fmtInfo = true
  swap
  · rw [if_neg hf]; rfl
  have hfont : cfFont x.flags x.bytes = .ok (12 + (x.font.length : Int)) := by
    unfold cfFont CfRec.flags
    rw [b26]
    cases hb : x.hasFont with
    | false => have := hx.font; rw [hb] at this; rw [if_neg (by simp [bit]), this]; rfl
    | true =>
      have hl := hx.font; rw [hb] at hl
      simp only [↓reduceIte] at hl
      have sf := slice_at h12 hl
      have ef : slice x.bytes 12 130 = x.font := by rw [← sf]; rfl
      rw [if_pos (by simp [bit]), ef, unpackN_ok hl, hl]; rfl
  rw [if_pos hf, e0, unpackN_ok hlH]
  simp only [bind, Except.bind, f2, f4, f6, hfont, pure, Except.pure, pyAssert]
  rw [show x.flags >>> 28 &&& 1 = bit x.hasBorder from b28, show x.flags >>> 29 &&& 1 = bit x.hasPattern from b29]
  have hbo := hx.border
  have hpa := hx.pattern
  cases hB : x.hasBorder <;> cases hP : x.hasPattern <;> rw [hB] at hbo <;> rw [hP] at hpa <;> simp only [bit, hlen, hbo, hpa, ↓reduceIte, Bool.false_eq_true,
    ne_eq, not_true_eq_false, one_ne_zero, not_false_eq_true] <;> rw [if_pos (by simp)]

end Xlrd
