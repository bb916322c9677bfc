import Verif.Spec.DateCells
import Verif.Props.XlDate
import Verif.Props.Whole
import Verif.Props.OldFile
import Verif.Props.Biff2
import Verif.Props.Biff4w

/-!
# C86: dates and times stored in cells
-/
set_option linter.unusedSimpArgs false
namespace Xlrd

open Spec

/-- Integers that are nearer than 1. -/
theorem int_of_near {a b : ℤ} {q e1 e2 : ℚ} (h1 : |(a : ℚ) - q| ≤ e1) (h2 : |q - b| < e2) (h : e1 + e2 ≤ 1) : a = b := by
  rw [abs_le] at h1
  rw [abs_lt] at h2
  have l1 : (a : ℚ) - b < 1 := by linarith
  have l2 : (b : ℚ) - a < 1 := by linarith
  have l3 : ((a - b : ℤ) : ℚ) < (1 : ℤ) := by push_cast; exact l1
  have l4 : ((b - a : ℤ) : ℚ) < (1 : ℤ) := by push_cast; exact l2
  have := Int.cast_lt.mp l3
  have := Int.cast_lt.mp l4
  omega

theorem near_day {x : ℚ} {day : Int} {T : Nat} (hT : T < 86400) (h : NearSecond x day T) : dayOf x = day ∧ sodOf x = T := by
  have h1 := secOf_near x
  rw [← total_eq x] at h1
  have h2 : |x * 86400 - ((day * 86400 + T : ℤ) : ℚ)| < 1 / 2 - 1 / 2 ^ 34 := by push_cast; exact h
  have := int_of_near h1 h2 (by norm_num)
  have hb := sodOf_bounds x
  omega

theorem near_nonneg {x : ℚ} {day : Int} {T : Nat} (hd : 1 ≤ day) (h : NearSecond x day T) : 0 ≤ x := by
  unfold NearSecond at h
  rw [abs_lt] at h
  have : (1 : ℚ) ≤ day := by exact_mod_cast hd
  have hT : (0 : ℚ) ≤ T := Nat.cast_nonneg T
  by_contra hx
  linarith [h.1]

theorem hms_nat (T : Nat) : ((T / 3600 : Nat) : Int) = (T : Int) / 60 / 60 ∧ ((T / 60 % 60 : Nat) : Int) = (T : Int) / 60 % 60 ∧ ((T % 60 : Nat) : Int) = (T : Int) % 60 := by
  omega

/-- C86 (tuples): a number that is nearer than half a second to that of a day and second is converted to exactly that date and time. -/
theorem C86_number_as_tuple (mode1904 : Bool) (y m d second : Nat) (hday : Day mode1904 y m d) (hs : second < 86400) (x : ℚ)
    (h : NearSecond x (serial mode1904 y m d) second) : xldateAsTuple x (if mode1904 then 1 else 0) = .ok (atSecond y m d second) := by
  obtain ⟨h1, h2⟩ := near_day hs h
  have hpos : 1 ≤ firstSerial mode1904 := by unfold firstSerial; split <;> omega
  have := asTuple_of x mode1904 y m d second (near_nonneg (le_trans hpos hday.numbered) h) hday.valid ⟨hday.first, hday.last⟩ hday.numbered h1 h2
  unfold atSecond
  rw [(hms_nat second).1, (hms_nat second).2.1, (hms_nat second).2.2]
  exact this

/-- C86 (times): a number that is nearer than half a second to that of a second of the day without a date is converted to that time and no date. -/
theorem C86_number_as_time (mode1904 : Bool) (second : Nat) (hs : second < 86400) (x : ℚ) (hx : 0 ≤ x)
    (h : NearSecond x 0 second) : xldateAsTuple x (if mode1904 then 1 else 0) = .ok (atSecond 0 0 0 second) := by
  obtain ⟨h1, h2⟩ := near_day hs h
  have hend := endSerial_eq mode1904
  have hl : (0 : Int) < endSerial mode1904 := by rw [hend]; cases mode1904 <;> decide
  show xldateAsTuple x (modeInt mode1904) = _
  unfold atSecond
  rw [(hms_nat second).1, (hms_nat second).2.1, (hms_nat second).2.2]
  rcases asTuple_nonneg x mode1904 hx with hr | hr | hr | hr
  · omega
  · rw [hr.2, h2]; rfl
  · omega
  · have := hr.1
    have : 1 ≤ firstSerial mode1904 := by unfold firstSerial; split <;> omega
    omega

/-- The milliseconds that the code finds, with the day they belong to. -/
theorem datetime_near (x : ℚ) : |((truncQ x * 86400000 + rne (fl (fl (x - (truncQ x : ℚ)) * 86400000)) : ℤ) : ℚ) - x * 86400000| ≤ 1 / 2 + 1 / 2 ^ 24 := by
  set f := x - (truncQ x : ℚ) with hf
  have hfb : |f| ≤ 1 := by
    rw [hf]
    unfold truncQ
    split
    · have h1 := Int.floor_le (-x)
      have h2 := Int.lt_floor_add_one (-x)
      push_cast
      rw [abs_le]; constructor <;> linarith
    · have h1 := Int.floor_le x
      have h2 := Int.lt_floor_add_one x
      rw [abs_le]; constructor <;> linarith
  have e2 := fl_near hfb
  rw [abs_le] at e2 hfb
  have e3 := fl_near (q := fl f * 86400000) (B := 86400001) (by rw [abs_le]; constructor <;> linarith)
  rw [abs_le] at e3
  have e4 := rne_err (fl (fl f * 86400000))
  rw [abs_le] at e4
  push_cast
  rw [abs_le]
  constructor <;> linarith

/-- A datetime for a number near a day and millisecond, counted from the epoch that applies. -/
theorem datetime_at {x : ℚ} {dm day : Int} {ms : Nat} (hms : ms < 86400000) (h : NearMillisecond x day ms) (ep : Int)
    (he : (if dm ≠ 0 then epoch1904 else if x < 60 then epoch1900 else epoch1900m1) = ep) (h1 : 1 ≤ ep + day) (h2 : ep + day ≤ 3652059) :
    xldateAsDatetime x dm = .ok ⟨ep + day, ms⟩ := by
  have hn := datetime_near x
  have h' : |x * 86400000 - ((day * 86400000 + ms : ℤ) : ℚ)| < 1 / 2 - 1 / 2 ^ 24 := by push_cast; exact h
  have e := int_of_near hn h' (by norm_num)
  unfold xldateAsDatetime
  simp only [he]
  set S := rne (fl (fl (x - (truncQ x : ℚ)) * 86400000)) with hS
  unfold addDelta
  have e5 : S / 1000 * 1000 + S % 1000 = S := by omega
  simp only [e5]
  have e6 : ep + truncQ x + S / 86400000 = ep + day := by omega
  have e7 : S % 86400000 = ms := by omega
  rw [e6, e7, if_pos ⟨h1, h2⟩]

theorem dayNumber_range {y m d : Nat} (hv : ValidDate y m d) (hy : 1900 ≤ y) (hy2 : y ≤ 9999) : dayNumber y m d < 3652426 := by
  rw [← dayNumber_10000_1_1]
  exact dayNumber_year_lt y m d 10000 1 1 hv (by decide) (by omega)

theorem dayNumber_1 : dayNumber 1 1 1 = 367 := by decide

/-- C86 (datetimes): a number that is nearer than half a millisecond to that of a day and millisecond is converted to exactly that datetime. -/
theorem C86_number_as_datetime (mode1904 : Bool) (y m d ms : Nat) (hday : Day mode1904 y m d) (hms : ms < 86400000) (x : ℚ)
    (h : NearMillisecond x (serial mode1904 y m d) ms) : xldateAsDatetime x (if mode1904 then 1 else 0) = .ok ⟨ordinal y m d, ms⟩ := by
  have hr := dayNumber_range hday.valid hday.first hday.last
  have e2 := dayNumber_1900_3_1
  have e3 := dayNumber_1904_1_1
  have e1 := dayNumber_1
  have hnum := hday.numbered
  cases mode1904 with
  | true =>
    have hser : serial true y m d = (dayNumber y m d : Int) - 695422 := by unfold serial; rw [if_pos rfl, e3]; rfl
    have hf : firstSerial true = 1 := rfl
    have hk := datetime_at (dm := 1) hms h epoch1904 (by rw [if_pos (by decide)]) (by unfold epoch1904; omega) (by unfold epoch1904; omega)
    rw [if_pos rfl, hk]
    have e : epoch1904 + serial true y m d = ordinal y m d := by
      unfold ordinal epoch1904
      rw [hser, e1]
      push_cast
      omega
    rw [e]
  | false =>
    have hser : serial false y m d = (dayNumber y m d : Int) - 694021 + 61 := by unfold serial; rw [if_neg (by decide), e2]; rfl
    have hf : firstSerial false = 61 := rfl
    have hx : ¬ x < 60 := by
      unfold NearMillisecond at h
      rw [abs_lt] at h
      have : ((61 : ℤ) : ℚ) ≤ (serial false y m d : ℚ) := by exact_mod_cast (hf ▸ hnum)
      have hT : (0 : ℚ) ≤ ms := Nat.cast_nonneg ms
      push_cast at this
      intro hx
      linarith [h.1]
    have hk := datetime_at (dm := 0) hms h epoch1900m1 (by rw [if_neg (by decide), if_neg hx]) (by unfold epoch1900m1; omega) (by unfold epoch1900m1; omega)
    rw [if_neg (by decide), hk]
    have e : epoch1900m1 + serial false y m d = ordinal y m d := by
      unfold ordinal epoch1900m1
      rw [hser, e1]
      push_cast
      omega
    rw [e]

/-- C86 (datetimes of January and February 1900, for which tuples are refused): in the 1900 system these days have numbers from 1 on; there, too, the result is exact. -/
theorem C86_number_as_early_datetime (m d ms : Nat) (hm : m ≤ 2) (hv : ValidDate 1900 m d) (hms : ms < 86400000) (x : ℚ)
    (h : NearMillisecond x (serial false 1900 m d - 1) ms) : xldateAsDatetime x 0 = .ok ⟨ordinal 1900 m d, ms⟩ := by
  have e2 := dayNumber_1900_3_1
  have e1 := dayNumber_1
  have hser : serial false 1900 m d = (dayNumber 1900 m d : Int) - 694021 + 61 := by unfold serial; rw [if_neg (by decide), e2]; rfl
  have hlt := dayNumber_month_lt 1900 m d 3 1 hv (by decide) (by omega)
  have hge : 693962 ≤ dayNumber 1900 m d := by
    have := daysBeforeYear_eq 1900
    have h1 : 1 ≤ d := hv.2.2.1
    unfold dayNumber
    omega
  have hx : x < 60 := by
    unfold NearMillisecond at h
    rw [abs_lt] at h
    have hs : serial false 1900 m d - 1 ≤ 59 := by omega
    have : ((serial false 1900 m d - 1 : ℤ) : ℚ) ≤ 59 := by exact_mod_cast hs
    have hT : (ms : ℚ) ≤ 86399999 := by exact_mod_cast (by omega : ms ≤ 86399999)
    linarith [h.2]
  have hk := datetime_at (dm := 0) hms h epoch1900 (by rw [if_neg (by decide), if_pos hx]) (by unfold epoch1900; omega) (by unfold epoch1900; omega)
  rw [hk]
  have e : epoch1900 + (serial false 1900 m d - 1) = ordinal 1900 m d := by
    unfold ordinal epoch1900
    rw [hser, e1]
    push_cast
    omega
  rw [e]

/-! ## Cells -/

/-- A place with a record is on the sheet. -/
theorem place_inside {cells : List Write} {merged : List CRange} {r c : Nat} {w : Write} (hl : lastAt cells r c = some w) :
    r < height cells merged ∧ c < width cells merged := by
  have hm := List.mem_of_find?_eq_some hl
  rw [List.mem_reverse] at hm
  have hp := List.find?_some hl
  simp only [decide_eq_true_eq] at hp
  have q1 := le_maxOf (List.mem_map_of_mem (f := fun w : Write => w.row + 1) hm)
  have q2 := le_maxOf (List.mem_map_of_mem (f := fun w : Write => w.col + 1) hm)
  unfold height width
  omega

/-- The last record for a place says what the cell is. -/
theorem shown_cell {sh : LSheet} {fi : Bool} {types : Int → Option Nat} {cells : List Write} {merged : List CRange} (hs : SheetShows sh fi types cells merged) {r c : Nat} {w : Write}
    (hl : lastAt cells r c = some w) : sh.st.store.cellType r c = .ok (stored types w).ty ∧ sh.st.store.cellValue r c = .ok w.val := by
  obtain ⟨h1, h2⟩ := place_inside (merged := merged) hl
  obtain ⟨h3, h4, _⟩ := hs.inside r c h1 h2
  have e : cellAt types cells r c = stored types w := by unfold cellAt; rw [hl]
  rw [e] at h3 h4
  exact ⟨h3, h4⟩

theorem opened_datemode {env : OpenEnv} {v : Nat} (h50 : 50 ≤ v) {mem : Bytes} {base : Nat} {items : List GItem} {sheets : List SheetRec}
    (hw : WorkbookStream v (textAt (env.bookEnv v base)) mem base items sheets) {ms : List Nat} (hm : Datemodes items ms) {l : Lib} (h : openStream env mem base = .ok l) :
    l.book.datemode = ms.getLast?.getD 0 ∧ (l.book.datemode = 0 ∨ l.book.datemode = 1) := by
  obtain ⟨p, b, q, _, hg, ho, pre, eof, post, he, hmem, hp⟩ := stream_opened h50 hw h
  subst hp
  rw [hmem] at hg
  have := C64_datemode (env.bookEnv v base) pre post eof he items hw.ok ms hm b q hg
  obtain ⟨_, ⟨c, hc⟩, _⟩ := openSheets_frame ho
  rw [hc]
  exact this

theorem shows_date {sh : LSheet} {datemode : Nat} (h01 : datemode = 0 ∨ datemode = 1) {r c : Nat} {x : ℚ} (h1 : sh.st.store.cellType r c = .ok XL_CELL_DATE)
    (h2 : sh.st.store.cellValue r c = .ok (.num (.fin x))) : ShowsDate sh datemode (decide (datemode = 1)) r c x := by
  have hdm : (datemode : Int) = if decide (datemode = 1) = true then 1 else 0 := by
    rcases h01 with rfl | rfl <;> rfl
  refine ⟨h1, h2, fun y m d second hday hsec hn => ?_, fun y m d ms hday hms hn => ?_, fun h0 second hsec hn => ?_⟩
  · rw [hdm]; exact C86_number_as_tuple _ y m d second hday hsec x hn
  · rw [hdm]; exact C86_number_as_datetime _ y m d ms hday hms x hn
  · rw [hdm]; exact C86_number_as_time _ second hsec x h0 hn

/-- C86 (cells): whatever has been done with an opened book, a cell whose last record holds the number `x` with an XF whose number format is a date format is shown as a date cell
with that number, and converting it with the date mode of the book gives the date and time that it stands for in the date system of the last DATEMODE record (without one, in the
1900 system). -/
theorem C86_date_cell (env : OpenEnv) (hrag : env.ragged = false) (v : Nat) (h50 : 50 ≤ v) (mem : Bytes) (base : Nat) (items : List GItem) (sheets : List SheetRec)
    (hw : WorkbookStream v (textAt (env.bookEnv v base)) mem base items sheets) (fmts : List (Nat × PyStr)) (hf : Formats v (textAt (env.bookEnv v base)) items fmts)
    (xfs : List XF) (hx : Xfs v (textAt (env.bookEnv v base)) items xfs) (ss : List SStr) (hss : SharedStrings items ss) (ms : List Nat) (hm : Datemodes items ms)
    (l : Lib) (h : openStream env mem base = .ok l) (k : Nat) (s : SheetRec) (hk : worksheet sheets k = some s) (L : Layout)
    (hL : SheetAt v mem (base + s.offset) L) (hok : L.Ok v (env.codec (textEncoding v env.override (lastCodepage items))) (ss.map SStr.text))
    (cs : List Call) (sh : LSheet) (hr : (sheetByIndex env (libCalls env l cs).2 (k : Int)).1 = .ok sh)
    (r c xf : Nat) (x : ℚ) (hlast : lastAt (cellsOf fl env.fi (ss.map SStr.text) L.items) r c = some ⟨r, c, none, .num (.fin x), xf⟩)
    (f : XF) (hxf : xfs[xf]? = some f) (hdate : DateKey fmts f.formatKey) :
    ShowsDate sh l.book.datemode (decide (ms.getLast?.getD 0 = 1)) r c x := by
  obtain ⟨_, _, hs⟩ := C67_sheet_shows env hrag v h50 mem base items sheets hw fmts hf xfs hx ss hss l h k s hk L hL hok cs sh hr
  obtain ⟨h1, h2⟩ := shown_cell hs hlast
  obtain ⟨d1, d2⟩ := opened_datemode h50 hw hm h
  rw [← d1]
  refine shows_date d2 (h1.trans ?_) h2
  have e : numberType fmts xfs (xf : Int) = some XL_CELL_DATE := by
    unfold numberType
    rw [if_pos (Int.natCast_nonneg xf), Int.toNat_natCast, hxf]
    simp only [if_pos hdate]
  simp only [stored, e]
  rfl

/-- The same for files of BIFF3 and BIFF4. -/
theorem C86_date_cell_old (env : OpenEnv) (hrag : env.ragged = false) (v : Nat) (file : Bytes) (F : OldFile) (hw : OldWorkbook v (textAt (env.recEnv v)) file F)
    (fmts : List PyStr) (hf : OldFormats v (textAt (env.recEnv v)) F.book fmts) (hne : fmts ≠ []) (xfs : List XF)
    (hx : OldXfs v (textAt (env.recEnv v)) F.book xfs) (ms : List Nat) (hm : Datemodes F.book ms) (cn : List (Nat × Nat)) (hcn : Countries F.book cn) (l : Lib)
    (h : openStream env file 0 = .ok l) (cs : List Call) (sh : LSheet) (hr : (sheetByIndex env (libCalls env l cs).2 0).1 = .ok sh)
    (r c xf : Nat) (x : ℚ) (hlast : lastAt (cellsOf fl env.fi [] F.layout.items) r c = some ⟨r, c, none, .num (.fin x), xf⟩)
    (f : XF) (hxf : xfs[xf]? = some f) (hdate : ∀ s, fmts[f.formatKey]? = some s → IsDateFormat s) :
    ShowsDate sh l.book.datemode (decide (ms.getLast?.getD 0 = 1)) r c x := by
  obtain ⟨tm, t1, t2, t3, t4⟩ := C73_cell_partial env hrag v file F hw fmts hf hne xfs hx l h cs sh hr
  obtain ⟨d1, d2, _⟩ := C73_settings env v file F hw l h ms hm cn hcn
  rw [← d1]
  obtain ⟨i1, i2⟩ := place_inside (merged := mergedRanges env.fi F.layout.items) hlast
  obtain ⟨h1, h2, _⟩ := (t4 r c).1 ⟨by rw [t2]; exact i1, by rw [t3]; exact i2⟩
  have e : cellAt tm (cellsOf fl env.fi [] F.layout.items) r c = stored tm ⟨r, c, none, .num (.fin x), xf⟩ := by unfold cellAt; rw [hlast]
  rw [e] at h1 h2
  obtain ⟨s, q1, q2, _⟩ := t1 xf f hxf
  refine shows_date d2 (h1.trans ?_) h2
  simp only [stored, q2 (hdate s q1)]
  rfl

/-- The same for files of BIFF2 with XF records. -/
theorem C86_date_cell_biff2 (env : OpenEnv) (hrag : env.ragged = false) (file : Bytes) (F : B2File) (hw : B2Workbook (textAt (env.recEnv 21)) file F)
    (fmts : List PyStr) (hf : OldFormats 21 (textAt (env.recEnv 21)) F.book fmts) (hne : fmts ≠ []) (xfs : List XF)
    (hx : OldXfs 21 (textAt (env.recEnv 21)) F.book xfs) (hxn : xfs ≠ []) (ms : List Nat) (hm : Datemodes F.book ms) (cn : List (Nat × Nat)) (hcn : Countries F.book cn) (l : Lib)
    (h : openStream env file 0 = .ok l) (cs : List Call) (sh : LSheet) (hr : (sheetByIndex env (libCalls env l cs).2 0).1 = .ok sh)
    (r c xf : Nat) (x : ℚ) (hlast : lastAt (cellsB2 env.fi (fun ixfe a => ixfeIndex ixfe a.slot) F.items) r c = some ⟨r, c, none, .num (.fin x), xf⟩)
    (f : XF) (hxf : xfs[xf]? = some f) (hdate : ∀ s, fmts[f.formatKey]? = some s → IsDateFormat s) :
    ShowsDate sh l.book.datemode (decide (ms.getLast?.getD 0 = 1)) r c x := by
  obtain ⟨_, tm, t1, t2, t3, t4⟩ := C74_cell env hrag file F hw fmts hf hne xfs hx hxn l h cs sh hr
  obtain ⟨d1, d2, _⟩ := C74_settings env file F hw l h ms hm cn hcn
  rw [← d1]
  obtain ⟨i1, i2⟩ := place_inside (merged := []) hlast
  obtain ⟨h1, h2, _⟩ := (t4 r c).1 ⟨by rw [t2]; exact i1, by rw [t3]; exact i2⟩
  have e : cellAt tm (cellsB2 env.fi (fun ixfe a => ixfeIndex ixfe a.slot) F.items) r c = stored tm ⟨r, c, none, .num (.fin x), xf⟩ := by unfold cellAt; rw [hlast]
  rw [e] at h1 h2
  obtain ⟨s, q1, q2, _⟩ := t1 xf f hxf
  refine shows_date d2 (h1.trans ?_) h2
  simp only [stored, q2 (hdate s q1)]
  rfl

/-- Cells depend only on the numbers of the attributes in use. -/
theorem cellsB2_congr (fi : Bool) (f g : CellAttr → Nat) (items : List B2Item) (h : ∀ a ∈ attrsB2 fi items, f a = g a) :
    cellsB2 fi (fun _ => f) items = cellsB2 fi (fun _ => g) items := by
  unfold cellsB2
  have key : ∀ (i : Option Nat) (its : List B2Item), (∀ x ∈ its, x ∈ items) →
      (withIxfe i its).flatMap (fun q => q.2.cells fi f) = (withIxfe i its).flatMap fun q => q.2.cells fi g := by
    intro i its
    induction its generalizing i with
    | nil => intro _; rfl
    | cons x its ih =>
      intro hm
      have hx : x.cells fi f = x.cells fi g := by
        have ha : ∀ a ∈ x.attrs fi, f a = g a := fun a h1 => h a (List.mem_flatMap.mpr ⟨x, hm x (by simp), h1⟩)
        cases x with
        | blank r c a j =>
          cases fi with
          | false => rfl
          | true => simp only [B2Item.cells, B2Item.attrs, if_true] at ha ⊢; rw [ha a (by simp)]
        | number r c a v => simp only [B2Item.cells, B2Item.attrs] at ha ⊢; rw [ha a (by simp)]
        | integer r c a v => simp only [B2Item.cells, B2Item.attrs] at ha ⊢; rw [ha a (by simp)]
        | label r c a t b j => simp only [B2Item.cells, B2Item.attrs] at ha ⊢; rw [ha a (by simp)]
        | boolerr r c a b v => simp only [B2Item.cells, B2Item.attrs] at ha ⊢; rw [ha a (by simp)]
        | formula r c a v j1 j2 j3 => simp only [B2Item.cells, B2Item.attrs] at ha ⊢; rw [ha a (by simp)]
        | _ => rfl
      cases x <;> simp only [withIxfe, List.flatMap_cons, hx] <;> rw [ih _ (fun y hy => hm y (List.mem_cons_of_mem _ hy))]
  exact key none items (fun x hx => hx)

/-- The same for files of BIFF2 without XF records, where the format of a cell is that of its attributes. -/
theorem C86_date_cell_attributes (env : OpenEnv) (hrag : env.ragged = false) (file : Bytes) (F : B2File) (hw : B2Workbook (textAt (env.recEnv 21)) file F)
    (fmts : List PyStr) (hf : OldFormats 21 (textAt (env.recEnv 21)) F.book fmts) (hx : OldXfs 21 (textAt (env.recEnv 21)) F.book [])
    (ms : List Nat) (hm : Datemodes F.book ms) (cn : List (Nat × Nat)) (hcn : Countries F.book cn) (l : Lib)
    (h : openStream env file 0 = .ok l) (cs : List Call) (sh : LSheet) (hr : (sheetByIndex env (libCalls env l cs).2 0).1 = .ok sh)
    (r c : Nat) (a : CellAttr) (ha : a ∈ attrsB2 env.fi F.items) (x : ℚ)
    (hlast : lastAt (cellsB2 env.fi (fun _ => attrNumber (attrsB2 env.fi F.items)) F.items) r c = some ⟨r, c, none, .num (.fin x), attrNumber (attrsB2 env.fi F.items) a⟩)
    (s : PyStr) (hfmt : fmts[a.format]? = some s) (hdate : IsDateFormat s) :
    ShowsDate sh l.book.datemode (decide (ms.getLast?.getD 0 = 1)) r c x := by
  obtain ⟨_, tm, num, n1, _, n2, t2, t3, t4, _⟩ := C75_cell_partial env hrag file F hw fmts hf hx l h cs sh hr
  obtain ⟨d1, d2, _⟩ := C74_settings env file F hw l h ms hm cn hcn
  rw [← d1]
  rw [← cellsB2_congr env.fi num _ F.items n2, ← n2 a ha] at hlast
  obtain ⟨i1, i2⟩ := place_inside (merged := []) hlast
  obtain ⟨h1, h2, _⟩ := (t4 r c).1 ⟨by rw [t2]; exact i1, by rw [t3]; exact i2⟩
  have e : cellAt tm (cellsB2 env.fi (fun _ => num) F.items) r c = stored tm ⟨r, c, none, .num (.fin x), num a⟩ := by unfold cellAt; rw [hlast]
  rw [e] at h1 h2
  have q := (n1 a ha).2.2.2.1 (by rw [hfmt]; exact hdate)
  refine shows_date d2 (h1.trans ?_) h2
  simp only [stored, q]
  rfl

/-- The same for a sheet of a BIFF4 workbook, which has its own formats; the date system is that of the last DATEMODE record of the whole file. -/
theorem C86_date_cell_biff4w (env : OpenEnv) (hrag : env.ragged = false) (file : Bytes) (parts : List SheetPart) (last : List GItem)
    (hw : Biff4w (textAt (env.recEnv 45)) file parts last) (l : Lib) (h : openStream env file 0 = .ok l) (names : List PyStr)
    (hn : SheetNames4 (textAt (env.recEnv 45)) (bookOf parts ++ last) names) (hlen : names.length = parts.length)
    (pre : List SheetPart) (p : SheetPart) (post : List SheetPart) (hp : parts = pre ++ p :: post)
    (fmts : List PyStr) (hf : OldFormats 45 (fun its => textAt (env.recEnv 45) (bookOf pre ++ p.before ++ its)) p.file.book fmts)
    (xfs : List XF) (hx : SheetXfs (fun its => textAt (env.recEnv 45) (bookOf pre ++ p.before ++ its)) p.file.book xfs)
    (ms : List Nat) (hm : Datemodes (bookOf parts ++ last) ms) (cn : List (Nat × Nat)) (hcn : Countries (bookOf parts ++ last) cn)
    (cs : List Call) (sh : LSheet) (hr : (sheetByIndex env (libCalls env l cs).2 (pre.length : Int)).1 = .ok sh)
    (r c xf : Nat) (x : ℚ) (hlast : lastAt (cellsOf fl env.fi [] p.file.layout.items) r c = some ⟨r, c, none, .num (.fin x), xf⟩)
    (f : XF) (hxf : xfs[xf]? = some f) (hdate : ∀ s, fmts[f.formatKey]? = some s → IsDateFormat s) :
    ShowsDate sh l.book.datemode (decide (ms.getLast?.getD 0 = 1)) r c x := by
  obtain ⟨tm, t1, t2, t3, t4⟩ := C76_cell_partial env hrag file parts last hw l h names hn hlen pre p post hp fmts hf xfs hx cs sh hr
  obtain ⟨d1, d2, _⟩ := C76_settings env file parts last hw l h ms hm cn hcn
  rw [← d1]
  obtain ⟨i1, i2⟩ := place_inside (merged := mergedRanges env.fi p.file.layout.items) hlast
  obtain ⟨h1, h2, _⟩ := (t4 r c).1 ⟨by rw [t2]; exact i1, by rw [t3]; exact i2⟩
  have e : cellAt tm (cellsOf fl env.fi [] p.file.layout.items) r c = stored tm ⟨r, c, none, .num (.fin x), xf⟩ := by unfold cellAt; rw [hlast]
  rw [e] at h1 h2
  obtain ⟨s, q1, q2, _⟩ := t1 xf f hxf
  refine shows_date d2 (h1.trans ?_) h2
  simp only [stored, q2 (hdate s q1)]
  rfl

end Xlrd
