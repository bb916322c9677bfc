import Verif.Model.SheetRead
import Verif.Spec.SheetRecords
import Verif.Props.Strings
import Verif.Lemmas.Numbers

/-!
# Cell records in the record loop of a sheet
-/
set_option linter.unusedSimpArgs false
namespace Xlrd
open Spec

/-! ## Fields of little-endian layouts -/

theorem fld_head (a : Nat) (h : a < 65536) (x : Bytes) : fld (le16 a ++ x) 0 2 = a := by
  have := le_le16 a h x; simpa [fld] using this

theorem fld_tail (a : Nat) (x : Bytes) (o n : Nat) (h : 2 ≤ o) : fld (le16 a ++ x) o n = fld x (o - 2) n := by
  obtain ⟨k, rfl⟩ := Nat.exists_eq_add_of_le h
  rw [fld_skip' _ _ _ _ _ (le16_length a)]; congr 1; omega

theorem fld_only (a : Nat) (h : a < 65536) : fld (le16 a) 0 2 = a := fld_le16 a h

theorem sliceTo_app {x y : Bytes} {k : Int} {n : Nat} (hk : k = n) (h : x.length = n) : sliceTo (x ++ y) k = x := by
  subst hk
  rw [sliceTo, clampIdx, if_neg (by omega), Int.toNat_natCast, Nat.min_eq_left (by simp [h])]
  exact List.take_left' h

theorem slice0_app {x y : Bytes} {k : Int} {n : Nat} (hk : k = n) (h : x.length = n) : slice (x ++ y) 0 k = x := by
  have := slice_at (data := x ++ y) (p := 0) (x := x) (r := y) (by simp) h
  rw [hk]; simpa using this

theorem slice_mid {a x y : Bytes} {i j : Int} {m n : Nat} (hi : i = m) (hj : j = (m + n : Nat)) (ha : a.length = m) (h : x.length = n) :
    slice (a ++ (x ++ y)) i j = x := by
  have := slice_at (data := a ++ (x ++ y)) (p := m) (x := x) (r := y) (by rw [← ha, List.drop_left]) h
  rw [hi, hj, Int.natCast_add]; exact this

@[simp] theorem head3_length (r c xf : Nat) : (head3 r c xf).length = 6 := rfl

theorem head3_fld {r c xf : Nat} (hr : r < 65536) (hc : c < 65536) (hx : xf < 65536) (y : Bytes) :
    fld (head3 r c xf ++ y) 0 2 = r ∧ fld (head3 r c xf ++ y) 2 2 = c ∧ fld (head3 r c xf ++ y) 4 2 = xf := by
  unfold head3
  simp only [List.append_assoc]
  refine ⟨fld_head r hr _, ?_, ?_⟩
  · rw [fld_tail _ _ _ _ (by decide)]; exact fld_head c hc _
  · rw [fld_tail _ _ _ _ (by decide), fld_tail _ _ _ _ (by decide)]; exact fld_head xf hx _

theorem head3_fld' {r c xf : Nat} (hr : r < 65536) (hc : c < 65536) (hx : xf < 65536) :
    fld (head3 r c xf) 0 2 = r ∧ fld (head3 r c xf) 2 2 = c ∧ fld (head3 r c xf) 4 2 = xf := by
  have := head3_fld hr hc hx []; simpa using this

/-! ## Writes -/

/-- A sequence of `put_cell` calls. -/
def putAll (cfg : SheetCfg) (st : Store) (ws : List Write) : R Store :=
  ws.foldlM (fun s w => putCell cfg s w.row w.col w.ctype w.val w.xf) st

def SheetSt.puts (env : SheetEnv) (s : SheetSt) (ws : List Write) : R SheetSt := do
  let st ← putAll env.cfg s.store ws
  pure { s with store := st }

theorem puts_nil (env : SheetEnv) (s : SheetSt) : s.puts env [] = .ok s := rfl

theorem puts_cons (env : SheetEnv) (s : SheetSt) (w : Write) (ws : List Write) :
    s.puts env (w :: ws) = (s.puts env [w]).bind fun s => s.puts env ws := by
  unfold SheetSt.puts putAll
  simp only [List.foldlM_cons, List.foldlM_nil, bind, Except.bind, pure, Except.pure]
  cases putCell env.cfg s.store w.row w.col w.ctype w.val w.xf <;> rfl

theorem put_eq (env : SheetEnv) (s : SheetSt) (r c : Nat) (ct : Option Nat) (v : Val) (xf : Nat) :
    s.put env r c ct v xf = s.puts env [⟨r, c, ct, v, xf⟩] := by
  unfold SheetSt.put SheetSt.puts putAll
  simp only [List.foldlM_cons, List.foldlM_nil, bind, Except.bind, pure, Except.pure]
  cases putCell env.cfg s.store r c ct v xf <;> rfl

theorem putAll_append (cfg : SheetCfg) (st : Store) (a b : List Write) :
    putAll cfg st (a ++ b) = (putAll cfg st a).bind fun st => putAll cfg st b := by
  unfold putAll; rw [List.foldlM_append]; rfl

/-! ## Cell records in one record -/

theorem recNumber_ok (env : SheetEnv) (s : SheetSt) {r c xf : Nat} {x : B64} (junk : Bytes) (hr : r < 65536) (hc : c < 65536)
    (hx : xf < 65536) (h : x.Ok) :
    recNumber env s (head3 r c xf ++ x.bytes ++ junk) = s.puts env [⟨r, c, none, .num x.value, xf⟩] := by
  obtain ⟨e1, e2, e3⟩ := head3_fld hr hc hx x.bytes
  have hl : (head3 r c xf ++ x.bytes).length = 14 := rfl
  have e4 : f64OfBits (fld (head3 r c xf ++ x.bytes) 6 8) = x.value := by
    rw [show 6 = 6 + 0 from rfl, fld_skip' _ _ _ _ _ (head3_length r c xf)]
    have := unpackd_bytes x h
    simpa [unpackd, unpackN_ok (B64.bytes_length x), bind, Except.bind, pure, Except.pure] using this
  unfold recNumber
  rw [sliceTo_app (k := 14) (n := 14) rfl hl, unpackN_ok hl]
  simp only [bind, Except.bind, e1, e2, e3, e4, put_eq]

theorem Rk.bytes_length (x : Rk) : x.bytes.length = 4 := rfl

theorem recRk_ok (env : SheetEnv) (s : SheetSt) {r c xf : Nat} {x : Rk} (junk : Bytes) (hr : r < 65536) (hc : c < 65536)
    (hx : xf < 65536) (h : x.Ok) :
    recRk env s (head3 r c xf ++ x.bytes ++ junk) = s.puts env [⟨r, c, none, .num (x.value fl), xf⟩] := by
  obtain ⟨e1, e2, e3⟩ := head3_fld' hr hc hx
  unfold recRk
  rw [List.append_assoc, sliceTo_app (k := 6) (n := 6) rfl (head3_length r c xf), unpackN_ok (head3_length r c xf),
    slice_mid (i := 6) (j := 10) (m := 6) (n := 4) rfl rfl (head3_length r c xf) (Rk.bytes_length x), unpackRK_ok x h]
  simp only [bind, Except.bind, e1, e2, e3, put_eq]

theorem recLabelSst_ok (env : SheetEnv) (s : SheetSt) {r c xf i : Nat} (hr : r < 65536) (hc : c < 65536)
    (hx : xf < 65536) (hi : i < env.sst.length) (hi2 : i < 2 ^ 31) :
    recLabelSst env s (head3 r c xf ++ le32 i) =
      (s.puts env [⟨r, c, some XL_CELL_TEXT, .text (env.sst.getD i []), xf⟩]).map fun s => sstRich env s r c i := by
  obtain ⟨e1, e2, e3⟩ := head3_fld hr hc hx (le32 i)
  have hl : (head3 r c xf ++ le32 i).length = 10 := rfl
  have e4 : sgn 32 (fld (head3 r c xf ++ le32 i) 6 4) = (i : Int) := by
    rw [show 6 = 6 + 0 from rfl, fld_skip' _ _ _ _ _ (head3_length r c xf), fld_le32 i (by omega)]
    unfold sgn; rw [if_pos (by omega)]
  have e5 : idx env.sst (i : Int) = .ok (env.sst.getD i []) := by
    rw [idx_ok_nat]; rw [List.getD_eq_getElem?_getD, List.getElem?_eq_getElem hi]; rfl
  unfold recLabelSst
  rw [unpackN_ok hl]
  simp only [bind, Except.bind, e1, e2, e3, e4, e5, put_eq, pure, Except.pure]
  cases s.puts env [⟨r, c, some XL_CELL_TEXT, .text (env.sst.getD i []), xf⟩] <;> rfl

theorem labelText_ok (env : SheetEnv) {t : PyStr} {body : Bytes} (pre junk : Bytes) (hp : pre.length = 6)
    (h : LabelText env.bv env.dec t body) : labelText env (pre ++ body ++ junk) = .ok t := by
  unfold LabelText at h
  unfold labelText
  by_cases hb : 80 ≤ env.bv
  · rw [if_pos hb] at h
    obtain ⟨u, hu, ht, hl, rfl⟩ := h
    subst ht
    rw [if_neg (by omega)]
    have := C27_unpack_unicode pre junk u hu 2 (.inr rfl) (by simpa using hl)
    rw [hp] at this
    simpa [encLen] using this
  · rw [if_neg hb] at h
    obtain ⟨b, hd, hl, rfl⟩ := h
    rw [if_pos (by omega)]
    have := C28_unpack_string env.dec pre junk b 2 (.inr rfl) (by simpa using hl)
    rw [hp] at this
    rw [← hd]
    simpa [encLen] using this

theorem recLabel_ok (env : SheetEnv) (s : SheetSt) {r c xf : Nat} {t : PyStr} {body : Bytes} (junk : Bytes) (hr : r < 65536)
    (hc : c < 65536) (hx : xf < 65536) (h : LabelText env.bv env.dec t body) :
    recLabel env s (head3 r c xf ++ body ++ junk) = s.puts env [⟨r, c, some XL_CELL_TEXT, .text t, xf⟩] := by
  obtain ⟨e1, e2, e3⟩ := head3_fld' hr hc hx
  unfold recLabel
  rw [labelText_ok env (head3 r c xf) junk rfl h, List.append_assoc, slice0_app (k := 6) (n := 6) rfl (head3_length r c xf),
    unpackN_ok (head3_length r c xf)]
  simp only [bind, Except.bind, e1, e2, e3, put_eq]

theorem runList_ok (w : Nat) (hw : w = 1 ∨ w = 2) (data : Bytes) (runs : List (Nat × Nat)) :
    ∀ (p : Nat) (rest : Bytes), (∀ r ∈ runs, r.1 < 256 ^ w ∧ r.2 < 256 ^ w) →
      data.drop p = runs.flatMap (fun r => encLen w r.1 ++ encLen w r.2) ++ rest →
      runList w data runs.length (p : Int) = .ok (runs, ((p + 2 * w * runs.length : Nat) : Int)) := by
  induction runs with
  | nil => intro p rest _ _; simp [runList]
  | cons r rs ih =>
    intro p rest hr h
    rw [List.flatMap_cons, List.append_assoc] at h
    have l1 := encLen_length w r.1 hw
    have l2 := encLen_length w r.2 hw
    have hl : (encLen w r.1 ++ encLen w r.2).length = 2 * w := by rw [List.length_append, l1, l2]; omega
    have hs := slice_at h hl
    have hrec := ih (p + 2 * w) rest (fun x hx => hr x (by simp [hx])) (drop_at h hl)
    have f0 : ∀ n, n < 256 ^ w → fld (encLen w n) 0 w = n := by
      intro n hn
      rcases hw with rfl | rfl
      · simp [encLen, fld, le, u8_toNat_ofNat]; omega
      · simp [encLen]; exact fld_le16 n (by omega)
    have f1 : fld (encLen w r.1 ++ encLen w r.2) 0 w = r.1 := by
      have := f0 r.1 (hr r (by simp)).1
      unfold fld at this ⊢
      rw [List.drop_zero] at this ⊢
      rw [List.take_left' l1]
      rw [List.take_of_length_le (by omega)] at this; exact this
    have f2 : fld (encLen w r.1 ++ encLen w r.2) w w = r.2 := by
      have := fld_skip' (encLen w r.1) (encLen w r.2) w 0 w l1
      rw [Nat.add_zero] at this
      rw [this]; exact f0 r.2 (hr r (by simp)).2
    rw [List.length_cons, runList]
    rw [show (2 : Int) * (w : Int) = ((2 * w : Nat) : Int) by push_cast; rfl, hs, unpackN_ok hl]
    simp only [bind, Except.bind]
    rw [← Int.natCast_add, hrec]
    simp only [pure, Except.pure, f1, f2, Except.ok.injEq, Prod.mk.injEq, true_and]
    push_cast; ring

theorem rstringText_ok (env : SheetEnv) {t : PyStr} {body : Bytes} {runs : List (Nat × Nat)} (pre : Bytes) (hp : pre.length = 6)
    (h : LabelText env.bv env.dec t body)
    (hr : if 80 ≤ env.bv then runs.length < 65536 ∧ ∀ p ∈ runs, p.1 < 65536 ∧ p.2 < 65536
       else runs.length < 256 ∧ ∀ p ∈ runs, p.1 < 256 ∧ p.2 < 256) :
    rstringText env (pre ++ body ++ encRuns env.bv runs) = .ok (t, runs) := by
  unfold LabelText at h
  unfold rstringText
  by_cases hb : 80 ≤ env.bv
  · rw [if_pos hb] at h hr
    obtain ⟨u, hu, ht, hl, rfl⟩ := h
    subst ht
    rw [if_neg (by omega)]
    have h1 := C27_unpack_unicode_update_pos pre (encRuns env.bv runs) u hu 2 (.inr rfl) (by simpa using hl)
    rw [hp] at h1
    simp only [encLen, if_neg (show ¬ (2 = 1) by decide)] at h1
    have hd : (pre ++ (le16 (utf16 u.text).length ++ u.body) ++ encRuns env.bv runs) =
      (pre ++ le16 (utf16 u.text).length ++ u.body) ++ (le16 runs.length ++ (runs.flatMap encRun)) := by
      simp [encRuns, hb]
    have hd' : pre ++ le16 (utf16 u.text).length ++ u.body ++ encRuns env.bv runs =
      (pre ++ le16 (utf16 u.text).length ++ u.body) ++ (le16 runs.length ++ (runs.flatMap encRun)) := by
      simp [encRuns, hb]
    rw [hd'] at h1
    rw [hd]
    set P := pre ++ le16 (utf16 u.text).length ++ u.body with hP
    set D := P ++ (le16 runs.length ++ runs.flatMap encRun) with hD
    have hdrop : D.drop P.length = le16 runs.length ++ runs.flatMap encRun := by rw [hD, List.drop_left]
    have h2 := unpackH_at (p := P.length) hr.1 hdrop
    have h3 := runList_ok 2 (.inr rfl) D runs (P.length + 2) [] (by simpa using hr.2)
      (by rw [drop_at hdrop (le16_length _), List.append_nil]; rfl)
    have h1' : unpackUnicodeUpdatePos D 6 2 none = .ok (u.text, (P.length : Int)) := h1
    rw [h1']
    simp only [bind, Except.bind]
    rw [h2]
    simp only []
    rw [show (P.length : Int) + 2 = ((P.length + 2 : Nat) : Int) by push_cast; rfl, h3]
    simp only []
    have hlen : D.length = P.length + 2 + 2 * 2 * runs.length := by
      rw [hD]; simp only [List.length_append, le16_length, flatMap_run_length]; omega
    rw [hlen]
    simp [pyAssert, pure, Except.pure]
  · rw [if_neg hb] at h hr
    obtain ⟨b, hdec, hl, rfl⟩ := h
    rw [if_pos (by omega)]
    have h1 := C28_unpack_string_update_pos env.dec pre (encRuns env.bv runs) b 2 (.inr rfl) (by simpa using hl)
    rw [hp, hdec] at h1
    simp only [encLen, if_neg (show ¬ (2 = 1) by decide), Except.map] at h1
    have hd : (pre ++ (le16 b.length ++ b) ++ encRuns env.bv runs) =
      (pre ++ le16 b.length ++ b) ++ (UInt8.ofNat runs.length :: runs.flatMap fun r => [UInt8.ofNat r.1, UInt8.ofNat r.2]) := by
      simp [encRuns, hb]
    have hd' : pre ++ le16 b.length ++ b ++ encRuns env.bv runs =
      (pre ++ le16 b.length ++ b) ++ (UInt8.ofNat runs.length :: runs.flatMap fun r => [UInt8.ofNat r.1, UInt8.ofNat r.2]) := by
      simp [encRuns, hb]
    rw [hd'] at h1
    rw [hd]
    set P := pre ++ le16 b.length ++ b with hP
    set D := P ++ (UInt8.ofNat runs.length :: runs.flatMap fun r => [UInt8.ofNat r.1, UInt8.ofNat r.2]) with hD
    have hdrop : D.drop P.length = UInt8.ofNat runs.length :: runs.flatMap fun r => [UInt8.ofNat r.1, UInt8.ofNat r.2] := by
      rw [hD, List.drop_left]
    have h2 := byteAt_at (p := P.length) hdrop
    rw [flags_byte _ hr.1] at h2
    have h3 := runList_ok 1 (.inl rfl) D runs (P.length + 1) [] (by simpa using hr.2)
      (by rw [← List.drop_drop, hdrop, List.append_nil]; rfl)
    have h1' : unpackStringUpdatePos env.dec D 6 2 none = .ok (t, (P.length : Int)) := h1
    rw [h1']
    simp only [bind, Except.bind]
    rw [h2]
    simp only []
    rw [show (P.length : Int) + 1 = ((P.length + 1 : Nat) : Int) by push_cast; rfl, h3]
    simp only []
    have hl2 : (runs.flatMap fun r => [UInt8.ofNat r.1, UInt8.ofNat r.2]).length = 2 * runs.length := by
      clear * -
      induction runs with
      | nil => rfl
      | cons r rs ih => simp only [List.flatMap_cons, List.length_append, ih, List.length_cons, List.length_nil]; omega
    have hlen : D.length = P.length + 1 + 2 * 1 * runs.length := by
      rw [hD]; simp only [List.length_append, List.length_cons, hl2]; omega
    rw [hlen]
    simp [pyAssert, pure, Except.pure]

theorem recRString_ok (env : SheetEnv) (s : SheetSt) {r c xf : Nat} {t : PyStr} {body : Bytes} {runs : List (Nat × Nat)}
    (hr : r < 65536) (hc : c < 65536) (hx : xf < 65536) (h : LabelText env.bv env.dec t body)
    (hrs : if 80 ≤ env.bv then runs.length < 65536 ∧ ∀ p ∈ runs, p.1 < 65536 ∧ p.2 < 65536
       else runs.length < 256 ∧ ∀ p ∈ runs, p.1 < 256 ∧ p.2 < 256) :
    recRString env s (head3 r c xf ++ body ++ encRuns env.bv runs) =
      (s.puts env [⟨r, c, some XL_CELL_TEXT, .text t, xf⟩]).map fun s => { s with rich := dictSet s.rich (r, c) runs } := by
  obtain ⟨e1, e2, e3⟩ := head3_fld' hr hc hx
  unfold recRString
  rw [rstringText_ok env (head3 r c xf) rfl h hrs, List.append_assoc, slice0_app (k := 6) (n := 6) rfl (head3_length r c xf),
    unpackN_ok (head3_length r c xf)]
  simp only [bind, Except.bind, e1, e2, e3, put_eq, pure, Except.pure]
  cases s.puts env [⟨r, c, some XL_CELL_TEXT, .text t, xf⟩] <;> rfl

theorem recBoolErr_ok (env : SheetEnv) (s : SheetSt) {r c xf : Nat} (isErr : Bool) (v : UInt8) (junk : Bytes) (hr : r < 65536)
    (hc : c < 65536) (hx : xf < 65536) :
    recBoolErr env s (head3 r c xf ++ [v, if isErr then 1 else 0] ++ junk) =
      s.puts env [⟨r, c, some (if isErr then XL_CELL_ERROR else XL_CELL_BOOLEAN), .int v.toNat, xf⟩] := by
  obtain ⟨e1, e2, e3⟩ := head3_fld hr hc hx [v, if isErr then 1 else 0]
  have hl : (head3 r c xf ++ [v, if isErr then 1 else 0]).length = 8 := rfl
  have e4 : fld (head3 r c xf ++ [v, if isErr then 1 else 0]) 6 1 = v.toNat := by
    rw [show 6 = 6 + 0 from rfl, fld_skip' _ _ _ _ _ (head3_length r c xf)]; simp [fld, le]
  have e5 : fld (head3 r c xf ++ [v, if isErr then 1 else 0]) 7 1 = if isErr then 1 else 0 := by
    rw [show 7 = 6 + 1 from rfl, fld_skip' _ _ _ _ _ (head3_length r c xf)]; cases isErr <;> simp [fld, le]
  unfold recBoolErr
  rw [sliceTo_app (k := 8) (n := 8) rfl hl, unpackN_ok hl]
  simp only [bind, Except.bind, e1, e2, e3, e4, e5, put_eq]
  cases isErr <;> rfl

theorem recBlank_ok (env : SheetEnv) (s : SheetSt) {r c xf : Nat} (junk : Bytes) (hr : r < 65536) (hc : c < 65536) (hx : xf < 65536) :
    recBlank env s (head3 r c xf ++ junk) =
      s.puts env (if env.cfg.fmtInfo then [⟨r, c, some XL_CELL_BLANK, .text [], xf⟩] else []) := by
  obtain ⟨e1, e2, e3⟩ := head3_fld' hr hc hx
  unfold recBlank
  by_cases h : env.cfg.fmtInfo = true
  · rw [if_pos h, if_pos h, sliceTo_app (k := 6) (n := 6) rfl (head3_length r c xf), unpackN_ok (head3_length r c xf)]
    simp only [bind, Except.bind, e1, e2, e3, put_eq, emptyVal]
  · rw [if_neg h, if_neg h]; rfl

theorem mulRk_loop_ok (env : SheetEnv) (data : Bytes) (r : Nat) (cells : List (Nat × Rk)) :
    ∀ (c p : Nat) (s : SheetSt) (rest : Bytes), (∀ q ∈ cells, q.1 < 65536 ∧ q.2.Ok) →
      data.drop p = cells.flatMap (fun q => le16 q.1 ++ q.2.bytes) ++ rest →
      mulRkLoop env data r cells.length c (p : Int) s =
        s.puts env (cells.mapIdx fun k q => ⟨r, c + k, none, .num (q.2.value fl), q.1⟩) := by
  induction cells with
  | nil => intro c p s rest _ _; rfl
  | cons q qs ih =>
    intro c p s rest hq h
    obtain ⟨h1, h2⟩ := hq q (by simp)
    rw [List.flatMap_cons, List.append_assoc, List.append_assoc] at h
    have hb := drop_at h (le16_length q.1)
    have hn := drop_at hb (Rk.bytes_length q.2)
    have e1 := unpackH_at h1 h
    have e2 := slice_at hb (Rk.bytes_length q.2)
    have hrec := fun s => ih (c + 1) (p + 2 + 4) s rest (fun x hx => hq x (by simp [hx])) hn
    rw [List.length_cons, mulRkLoop, e1]
    simp only [bind, Except.bind]
    rw [show (p : Int) + 2 = ((p + 2 : Nat) : Int) by push_cast; rfl, show (p : Int) + 6 = ((p + 2 : Nat) : Int) + (4 : Nat) by push_cast; ring, e2,
      unpackRK_ok q.2 h2]
    simp only [put_eq]
    rw [List.mapIdx_cons, puts_cons env s _ (List.mapIdx _ _)]
    simp only [Nat.add_zero]
    cases s.puts env [⟨r, c, none, .num (q.2.value fl), q.1⟩] with
    | error e => rfl
    | ok s1 =>
      simp only [Except.bind]
      rw [show ((p + 2 : Nat) : Int) + (4 : Nat) = ((p + 2 + 4 : Nat) : Int) by push_cast; ring, hrec]
      congr 1
      apply List.mapIdx_eq_mapIdx_iff.mpr
      intro i hi
      simp only [Write.mk.injEq, true_and, and_true]
      omega

theorem sliceFrom_last2 (x : Bytes) (n : Nat) : sliceFrom (x ++ le16 n) (-2) = le16 n := by
  unfold sliceFrom clampIdx
  rw [if_pos (by decide)]
  have : (-2 + ((x ++ le16 n).length : Int)).toNat = x.length := by simp
  rw [this, List.drop_left]

theorem recMulRk_ok (env : SheetEnv) (s : SheetSt) {r c : Nat} {cells : List (Nat × Rk)} (hr : r < 65536) (hne : cells ≠ [])
    (hc : c + cells.length ≤ 65536) (h : ∀ p ∈ cells, p.1 < 65536 ∧ p.2.Ok) :
    recMulRk env s (le16 r ++ le16 c ++ (cells.flatMap fun p => le16 p.1 ++ p.2.bytes) ++ le16 (c + cells.length - 1)) =
      s.puts env (cells.mapIdx fun k p => ⟨r, c + k, none, .num (p.2.value fl), p.1⟩) := by
  have hlen : 0 < cells.length := List.length_pos_iff.mpr hne
  have hl : (le16 r ++ le16 c).length = 4 := rfl
  have e1 : fld (le16 r ++ le16 c) 0 2 = r := fld_head r hr _
  have e2 : fld (le16 r ++ le16 c) 2 2 = c := by rw [fld_tail _ _ _ _ (by decide)]; exact fld_only c (by omega)
  have e3 : unpackH (le16 (c + cells.length - 1)) = .ok (c + cells.length - 1) := by
    simp [unpackH, unpackN_ok (le16_length _), bind, Except.bind, pure, Except.pure, fld_le16 (c + cells.length - 1) (by omega)]
  unfold recMulRk
  rw [sliceFrom_last2, e3]
  have hs : slice (le16 r ++ le16 c ++ (cells.flatMap fun p => le16 p.1 ++ p.2.bytes) ++ le16 (c + cells.length - 1)) 0 4 = le16 r ++ le16 c := by
    rw [List.append_assoc]; exact slice0_app (k := 4) (n := 4) rfl hl
  rw [hs, unpackN_ok hl]
  simp only [bind, Except.bind, e1, e2]
  rw [show c + cells.length - 1 + 1 - c = cells.length by omega]
  exact mulRk_loop_ok env _ r cells c 4 s (le16 (c + cells.length - 1)) h
    (by rw [List.append_assoc]; exact List.drop_left' hl)

theorem mulBlank_loop_ok (env : SheetEnv) (data : Bytes) (r : Nat) (xfs : List Nat) :
    ∀ (c k : Nat) (s : SheetSt) (rest : Bytes), (∀ x ∈ xfs, x < 65536) → data.drop (2 * k) = xfs.flatMap le16 ++ rest →
      mulBlankLoop env data r xfs.length c k s =
        s.puts env (xfs.mapIdx fun k (xf : Nat) => ⟨r, c + k, some XL_CELL_BLANK, .text [], xf⟩) := by
  induction xfs with
  | nil => intro c k s rest _ _; rfl
  | cons x xs ih =>
    intro c k s rest hx h
    have h1 := hx x (by simp)
    rw [List.flatMap_cons, List.append_assoc] at h
    have e : fld data (2 * k) 2 = x := by
      unfold fld; rw [h]; exact le_le16 x h1 _
    have hrec := fun s => ih (c + 1) (k + 1) s rest (fun y hy => hx y (by simp [hy]))
      (by rw [show 2 * (k + 1) = 2 * k + 2 by ring]; exact drop_at h (le16_length x))
    rw [List.length_cons, mulBlankLoop, e]
    simp only [bind, Except.bind, put_eq, emptyVal]
    rw [List.mapIdx_cons, puts_cons env s _ (List.mapIdx _ _)]
    simp only [Nat.add_zero]
    cases s.puts env [⟨r, c, some XL_CELL_BLANK, .text [], x⟩] with
    | error e => rfl
    | ok s1 =>
      simp only [Except.bind]
      rw [hrec]
      congr 1
      apply List.mapIdx_eq_mapIdx_iff.mpr
      intro i hi
      simp only [Write.mk.injEq, true_and, and_true]
      omega

theorem recMulBlank_ok (env : SheetEnv) (s : SheetSt) {r c : Nat} {xfs : List Nat} (hr : r < 65536) (hne : xfs ≠ [])
    (hc : c + xfs.length ≤ 65536) (h : ∀ x ∈ xfs, x < 65536) (len : Nat)
    (hlen : len = (le16 r ++ le16 c ++ xfs.flatMap le16 ++ le16 (c + xfs.length - 1)).length) :
    recMulBlank env s len (le16 r ++ le16 c ++ xfs.flatMap le16 ++ le16 (c + xfs.length - 1)) =
      s.puts env (if env.cfg.fmtInfo then xfs.mapIdx fun k (xf : Nat) => ⟨r, c + k, some XL_CELL_BLANK, .text [], xf⟩ else []) := by
  unfold recMulBlank
  by_cases hf : env.cfg.fmtInfo = true
  swap
  · rw [if_neg hf, if_neg hf]; rfl
  rw [if_pos hf, if_pos hf]
  have hpos : 0 < xfs.length := List.length_pos_iff.mpr hne
  have hL : (le16 r ++ le16 c ++ xfs.flatMap le16 ++ le16 (c + xfs.length - 1)).length = 2 * (xfs.length + 3) := by
    simp only [List.length_append, le16_length, flatMap_le16_length]; omega
  rw [hL] at hlen
  subst hlen
  have hn : 2 * (xfs.length + 3) / 2 = xfs.length + 3 := by omega
  simp only [hn]
  rw [unpackN_ok hL]
  simp only [bind, Except.bind]
  rw [if_neg (by omega)]
  have e1 : fld (le16 r ++ le16 c ++ xfs.flatMap le16 ++ le16 (c + xfs.length - 1)) 0 2 = r := by
    simp only [List.append_assoc]; exact fld_head r hr _
  have e2 : fld (le16 r ++ le16 c ++ xfs.flatMap le16 ++ le16 (c + xfs.length - 1)) 2 2 = c := by
    simp only [List.append_assoc]; rw [fld_tail _ _ _ _ (by decide)]; exact fld_head c (by omega) _
  have e3 : fld (le16 r ++ le16 c ++ xfs.flatMap le16 ++ le16 (c + xfs.length - 1)) (2 * (xfs.length + 3 - 1)) 2 = c + xfs.length - 1 := by
    rw [show 2 * (xfs.length + 3 - 1) = 2 * (xfs.length + 2) + 0 by omega, fld_skip' _ _ (2 * (xfs.length + 2)) 0 2
      (by simp only [List.length_append, le16_length, flatMap_le16_length]; omega)]
    exact fld_only _ (by omega)
  rw [e1, e2, e3]
  have ha : pyAssert (decide (((xfs.length + 3 : Nat) : Int) = ((c + xfs.length - 1 : Nat) : Int) + 4 - (c : Int))) = .ok () := by
    unfold pyAssert; rw [if_pos (by rw [decide_eq_true_eq]; omega)]
  rw [ha]
  simp only []
  rw [show c + xfs.length - 1 + 1 - c = xfs.length by omega]
  exact mulBlank_loop_ok env _ r xfs c 2 s (le16 (c + xfs.length - 1)) h
    (by rw [List.append_assoc]; exact List.drop_left' (by simp [le16]))

/-! ## Formula records -/

theorem fetchString_ok {mem rest : Bytes} {p code : Nat} {first : Bytes} (skip : Option (Nat × Bytes))
    (hs : ∀ s, skip = some s → s.2.length < 65536 ∧ (s.1 = 0x0221 ∧ 14 ≤ s.2.length ∨ s.1 = 0x04bc ∧ 10 ≤ s.2.length ∨
        s.1 = 0x236 ∨ s.1 = 0x37 ∨ s.1 = 0x21 ∨ s.1 = 0x36))
    (hc : code = 0x207 ∨ code = 0x7) (hf : first.length < 65536)
    (h : mem.drop p = encRecs (skip.toList ++ [(code, first)]) ++ rest) :
    fetchString mem (p : Int) = .ok (first, ((p + (encRecs (skip.toList ++ [(code, first)])).length : Nat) : Int)) := by
  have hcode : code < 65536 := by rcases hc with rfl | rfl <;> decide
  have hc' : code = XL_STRING ∨ code = XL_STRING_B2 := hc
  cases skip with
  | none =>
    have h' : mem.drop p = encRec code first ++ rest := by simpa [encRecs] using h
    unfold fetchString
    rw [getRecordParts_at hcode hf h']
    simp only [bind, Except.bind]
    rw [if_pos hc']
    simp [pure, Except.pure, encRecs, encRec_length]; ring
  | some sk =>
    obtain ⟨sc, sd⟩ := sk
    obtain ⟨hsl, hsc⟩ := hs _ rfl
    simp only at hsl hsc
    have h' : mem.drop p = encRec sc sd ++ (encRec code first ++ rest) := by simpa [encRecs] using h
    have hsc16 : sc < 65536 := by rcases hsc with ⟨rfl, _⟩ | ⟨rfl, _⟩ | rfl | rfl | rfl | rfl <;> decide
    have h2 : mem.drop (p + (4 + sd.length)) = encRec code first ++ rest := drop_at h' (encRec_length _ _)
    have hskip : beforeString sc sd = .ok () := by
      unfold beforeString
      have hk : ∀ n : Nat, n ≤ sd.length → unpackN n (sliceTo sd (n : Int)) = .ok (sd.take n) := by
        intro n hn
        have : sliceTo sd (n : Int) = sd.take n := by
          rw [sliceTo, clampIdx, if_neg (by omega), Int.toNat_natCast, Nat.min_eq_left hn]
        rw [this]; exact unpackN_ok (by rw [List.length_take]; omega)
      rcases hsc with ⟨rfl, hl⟩ | ⟨rfl, hl⟩ | rfl | rfl | rfl | rfl
      · rw [if_pos rfl, show (14 : Int) = ((14 : Nat) : Int) from rfl, hk 14 hl]; rfl
      · rw [if_neg (by decide), if_pos rfl, show (10 : Int) = ((10 : Nat) : Int) from rfl, hk 10 hl]; rfl
      all_goals rfl
    have hn : ¬ (sc = XL_STRING ∨ sc = XL_STRING_B2) := by
      rcases hsc with ⟨rfl, _⟩ | ⟨rfl, _⟩ | rfl | rfl | rfl | rfl <;> decide
    unfold fetchString
    rw [getRecordParts_at hsc16 hsl h']
    simp only [bind, Except.bind]
    rw [if_neg hn]
    rw [hskip]
    simp only []
    rw [show ((p + 4 + sd.length : Nat) : Int) = ((p + (4 + sd.length) : Nat) : Int) by push_cast; ring, getRecordParts_at hcode hf h2]
    simp only []
    rw [if_pos hc']
    simp [pure, Except.pure, encRecs, encRec_length]; ring

theorem encRecs_append (a b : List (Nat × Bytes)) : encRecs (a ++ b) = encRecs a ++ encRecs b := by simp [encRecs]

theorem stringRec_at (env : SheetEnv) {mem rest : Bytes} {p : Nat} {t : PyStr} {first : Bytes} {more : List Bytes}
    (hs : StringRec env.bv env.dec t first more) (hp : p ≤ mem.length)
    (h : mem.drop p = encRecs (more.map fun d => (0x3c, d)) ++ rest) :
    stringRecordContents env.bv env.dec mem (p : Int) first =
      .ok (t, ((p + (encRecs (more.map fun d => (0x3c, d))).length : Nat) : Int)) := by
  have hpre : (mem.take p).length = p := by rw [List.length_take]; omega
  have hm : mem = mem.take p ++ encRecs (more.map fun d => (0x3c, d)) ++ rest := by
    rw [List.append_assoc, ← h, List.take_append_drop]
  unfold StringRec at hs
  by_cases hb : 80 ≤ env.bv
  · rw [if_pos hb] at hs
    obtain ⟨g, gs, h1, h2, h3, h4, h5, rfl, rfl⟩ := hs
    have := C29_string_result_partial env.bv hb env.dec t h1 h2 g gs h3 h4 h5 (mem.take p) rest
    rw [List.map_map] at hm ⊢
    have he : (gs.map fun x => (0x3c, x.payload)) = gs.map ((fun d => (0x3c, d)) ∘ Seg.payload) := rfl
    rw [he, ← hm, hpre, List.length_append, hpre] at this
    exact this
  · rw [if_neg hb] at hs
    obtain ⟨b, t0, ts, h1, h2, h3, h4, h5, rfl, h6, rfl⟩ := hs
    have := C29_string_result_before_biff8 env.bv (by omega) env.dec t0 b ts more h1 h2 h3 h4 h5 h6 (mem.take p) rest
    have he : encLen (if env.bv ≥ 30 then 2 else 1) (t0 ++ ts.flatten).length =
        (if 30 ≤ env.bv then le16 (t0 ++ ts.flatten).length else [UInt8.ofNat (t0 ++ ts.flatten).length]) := by
      by_cases h30 : 30 ≤ env.bv
      · rw [if_pos h30, if_pos h30]; rfl
      · rw [if_neg h30, if_neg h30]; rfl
    rw [he, ← hm, hpre] at this
    have hl : (mem.take p ++ encRecs (more.map fun d => (0x3c, d))).length = p + (encRecs (more.map fun d => (0x3c, d))).length := by
      rw [List.length_append, hpre]
    rw [hl] at this
    exact this

theorem formulaResult_ok (env : SheetEnv) {mem rest : Bytes} {p : Nat} {res : FResult} (h : res.Ok env.bv env.dec)
    (hm : mem.drop p = encRecs res.records ++ rest) (hp : p ≤ mem.length) :
    formulaResult env mem (p : Int) res.bytes = .ok (res.value.1, res.value.2, ((p + (encRecs res.records).length : Nat) : Int)) := by
  cases res with
  | num x =>
    obtain ⟨h1, h2⟩ := h
    have hne : slice (FResult.num x).bytes 6 8 ≠ [0xFF, 0xFF] := by
      intro he
      apply h2
      have hsl : slice (FResult.num x).bytes 6 8 = (x.bytes.drop 6) := by
        have := B64.bytes_length x
        simp only [FResult.bytes]
        rw [show (6 : Int) = ((6 : Nat) : Int) from rfl, show (8 : Int) = ((8 : Nat) : Int) from rfl, slice_nat,
          List.take_of_length_le (by omega)]
      rw [hsl] at he
      have hbits : x.bits < 2 ^ 64 := by
        obtain ⟨a, b⟩ := h1
        unfold B64.bits; split_ifs <;> omega
      have hd6 : x.bytes.drop 6 = le16 (x.bits / 2 ^ 32 / 65536) := rfl
      rw [hd6] at he
      have := le_le16 (x.bits / 2 ^ 32 / 65536) (by omega) []
      rw [he] at this
      have h255 : le (([0xFF, 0xFF] ++ [] : Bytes).take 2) = 65535 := by decide
      rw [h255] at this
      omega
    unfold formulaResult
    rw [if_neg hne]
    simp only [FResult.bytes, unpackd_bytes x h1, bind, Except.bind, pure, Except.pure, FResult.value, FResult.records]
    simp [encRecs]
  | bool v q r => simp [formulaResult, FResult.bytes, FResult.value, FResult.records, encRecs, slice, clampIdx, byteAt, idx, bind, Except.bind, pure, Except.pure]
  | err v q r => simp [formulaResult, FResult.bytes, FResult.value, FResult.records, encRecs, slice, clampIdx, byteAt, idx, bind, Except.bind, pure, Except.pure]
  | empty q => simp [formulaResult, FResult.bytes, FResult.value, FResult.records, encRecs, slice, clampIdx, byteAt, idx, bind, Except.bind, pure, Except.pure]
  | str q t skip code first more =>
    obtain ⟨h1, h2, h3, h4⟩ := h
    simp only [FResult.records] at hm
    rw [encRecs_append _ (more.map _), List.append_assoc] at hm
    have e1 := fetchString_ok skip h1 h2 h3 hm
    have hd := drop_at hm rfl
    have hp' : p + (encRecs (skip.toList ++ [(code, first)])).length ≤ mem.length := by
      have := congrArg List.length hm
      rw [List.length_drop, List.length_append] at this; omega
    have e2 := stringRec_at env h4 hp' hd
    have hs : slice (FResult.str q t skip code first more).bytes 6 8 = [0xFF, 0xFF] := by
      simp [FResult.bytes, slice, clampIdx]
    have hb : byteAt (FResult.str q t skip code first more).bytes 0 = .ok 0 := by
      simp [FResult.bytes, byteAt, idx, bind, Except.bind, pure, Except.pure]
    unfold formulaResult
    rw [if_pos hs, hb]
    simp only [bind, Except.bind, if_pos, e1, e2, pure, Except.pure, FResult.value, FResult.records]
    rw [encRecs_append _ (more.map _), List.length_append, Nat.add_assoc]

theorem FResult.bytes_length (x : FResult) : x.bytes.length = 8 := by cases x <;> rfl

theorem recFormula_ok (env : SheetEnv) (s : SheetSt) {mem rest : Bytes} {p : Nat} {res : FResult} {r c xf flags : Nat}
    (junk : Bytes) (hr : r < 65536) (hc : c < 65536) (hx : xf < 65536) (h : res.Ok env.bv env.dec)
    (hm : mem.drop p = encRecs res.records ++ rest) (hp : p ≤ mem.length) :
    recFormula env mem s (p : Int) (head3 r c xf ++ res.bytes ++ le16 flags ++ junk) =
      (s.puts env [⟨r, c, res.value.1, res.value.2, xf⟩]).map fun s => (s, ((p + (encRecs res.records).length : Nat) : Int)) := by
  have hl : (head3 r c xf ++ res.bytes ++ le16 flags).length = 16 := by
    simp [FResult.bytes_length]
  obtain ⟨e1, e2, e3⟩ := head3_fld hr hc hx (res.bytes ++ le16 flags)
  rw [← List.append_assoc] at e1 e2 e3
  have e4 : ((head3 r c xf ++ res.bytes ++ le16 flags).drop 6).take 8 = res.bytes := by
    rw [List.append_assoc, List.drop_left' (head3_length r c xf), List.take_left' (FResult.bytes_length res)]
  unfold recFormula
  rw [slice0_app (k := 16) (n := 16) rfl hl, unpackN_ok hl]
  simp only [bind, Except.bind, e1, e2, e3, e4, formulaResult_ok env h hm hp, put_eq, pure, Except.pure]
  cases s.puts env [⟨r, c, res.value.1, res.value.2, xf⟩] <;> rfl

end Xlrd
