import Verif.Props.Loops
import Verif.Props.Biff4wExamples

/-!
# Opening a file ends: a file for which it does not, and ones for which it does (C77)
-/
set_option linter.unusedSimpArgs false
namespace Xlrd
open Spec

/-! ## A workbook of BIFF4 whose only sheet leads back to its own name -/

namespace Endless

/-- Forty-four bytes: BOF of a workbook of BIFF4, SHEETSOFFSET, then from byte 16 BOUNDSHEET "A" and SHEETHDR "A" with the length -16, which leads from byte 32 back to
byte 16; there the BOF and the EOF of the sheet. -/
def mem : Bytes :=
  [0x09, 0x04, 4, 0, 0, 0, 0x00, 0x01] ++ [0x8e, 0, 4, 0, 0, 0, 0, 0] ++ [0x85, 0, 2, 0, 1, 0x41] ++ [0x8f, 0, 6, 0, 0xf0, 0xff, 0xff, 0xff, 1, 0x41] ++
  [0x09, 0x04, 4, 0, 0, 0, 0x10, 0] ++ [0x0a, 0, 0, 0]

/-- Text in ISO 8859-1 (the encoding of a file that does not give one) can be read; no other encoding is asked for. -/
structure Plain (env : OpenEnv) : Prop where
  noOverride : env.override = []
  trial : ∃ t, env.codec "iso-8859-1".toList [0x74, 0x72, 0x69, 0x61, 0x6c] = .ok t
  letter : env.codec "iso-8859-1".toList [0x41] = .ok ['A']

/-- The book each time byte 16 is reached: as many sheets have been read as have been named. -/
structure At (b : Book) (k : Nat) : Prop where
  codepage : b.codepage = none
  user : b.rawUser = none
  offset : b.sheetsoffset = some 0
  names : b.sheetNames = List.replicate k ['A']
  shown : b.sheetVisibility = List.replicate k 0
  loaded : b.embedded.length = k

theorem derive (env : OpenEnv) (h : Plain env) (base : Int) (sh) (b : Book) (hc : b.codepage = none) (hu : b.rawUser = none) :
    deriveEncoding { env.recEnv 45 with base := base, sheethdr := sh } b = .ok { b with encoding := some "iso-8859-1".toList } := by
  obtain ⟨t, ht⟩ := h.trial
  unfold deriveEncoding
  have e1 : chooseEncoding { env.recEnv 45 with base := base, sheethdr := sh } b = { b with encoding := some "iso-8859-1".toList } := by
    unfold chooseEncoding
    have : ({ env.recEnv 45 with base := base, sheethdr := sh } : BookEnv).override = [] := h.noOverride
    rw [if_neg (by rw [this]; simp), hc]
    rfl
  rw [e1]
  have e2 : trialDecode { env.recEnv 45 with base := base, sheethdr := sh } { b with encoding := some "iso-8859-1".toList } = .ok () := by
    unfold trialDecode
    rw [if_pos (by rw [show ({ b with encoding := some "iso-8859-1".toList } : Book).codepage = none from hc]; simp)]
    have : Book.dec { env.recEnv 45 with base := base, sheethdr := sh } { b with encoding := some "iso-8859-1".toList } [0x74, 0x72, 0x69, 0x61, 0x6c] = .ok t := ht
    rw [this]; rfl
  simp only [e2, bind, Except.bind]
  unfold decodeUserName
  rw [show ({ b with encoding := some "iso-8859-1".toList } : Book).rawUser = none from hu]

theorem rec16 : getRecordParts mem 16 = .ok ((0x85, 2, [1, 0x41]), 22) := by decide +kernel
theorem rec22 : getRecordParts mem 22 = .ok ((0x8f, 6, [0xf0, 0xff, 0xff, 0xff, 1, 0x41]), 32) := by decide +kernel
theorem rec8 : getRecordParts mem 8 = .ok ((0x8e, 4, [0, 0, 0, 0]), 16) := by decide +kernel
theorem rec40 : getRecordParts mem 40 = .ok ((0x0a, 0, []), 44) := by decide +kernel
theorem bof32 : getbof mem 32 XL_WORKSHEET = .ok (40, 40) := by decide +kernel

/-- The named sheet. -/
theorem pass16 (env : OpenEnv) (h : Plain env) (b : Book) (k : Nat) (hb : At b k) : ∃ b', globalsPass (env.bookEnv 45 0) mem (b, 16) = .ok (.inr (b', 22)) ∧
    b'.codepage = none ∧ b'.rawUser = none ∧ b'.sheetsoffset = some 0 ∧ b'.sheetNames = List.replicate (k + 1) ['A'] ∧
    b'.sheetVisibility = List.replicate (k + 1) 0 ∧ b'.embedded.length = k := by
  have hs : ∃ posn, boundsheetFields (env.bookEnv 45 0) { b with encoding := some "iso-8859-1".toList } [1, 0x41] = .ok (posn, 0, 0, ['A']) := by
    unfold boundsheetFields
    rw [if_pos (show (env.bookEnv 45 0).bv = 45 from rfl)]
    have : unpackString (Book.dec (env.bookEnv 45 0) { b with encoding := some "iso-8859-1".toList }) [1, 0x41] 0 1 = .ok ['A'] := h.letter
    simp only [this, bind, Except.bind]
    by_cases hz : b.shAbsPosn.length = 0
    · rw [if_pos hz]
      simp only [hb.offset]
      exact ⟨_, rfl⟩
    · rw [if_neg hz]; exact ⟨_, rfl⟩
  obtain ⟨posn, hs⟩ := hs
  refine ⟨addSheet { b with encoding := some "iso-8859-1".toList } posn 0 0 ['A'], ?_, hb.codepage, hb.user, hb.offset, ?_, ?_, hb.loaded⟩
  · unfold globalsPass
    simp only [rec16, bind, Except.bind]
    rw [if_neg (by decide)]
    have : globalsStep (env.bookEnv 45 0) mem b 0x85 [1, 0x41] 22 = .ok (addSheet { b with encoding := some "iso-8859-1".toList } posn 0 0 ['A'], 22) := by
      rw [globalsStep, if_neg (by decide), if_neg (by decide), if_neg (by decide), globalsRecord, if_neg (by decide), if_neg (by decide), if_neg (by decide), if_pos (by decide)]
      unfold handleBoundsheet
      have := derive env h 0 (handleSheethdr env 45) b hb.codepage hb.user
      simp only [OpenEnv.bookEnv] at hs ⊢
      simp only [this, hs, bind, Except.bind]
      rfl
    rw [this]
    rfl
  · show b.sheetNames ++ [['A']] = _
    rw [hb.names, List.replicate_succ']
  · show b.sheetVisibility ++ [0] = _
    rw [hb.shown, List.replicate_succ']

theorem finish (env : SheetEnv) : ∃ s, sheetFinish env {} = .ok s := by
  have : ∃ st, tidyDimensions env.cfg ({} : SheetSt).store [] = .ok st := by
    unfold tidyDimensions
    cases h : env.cfg.ragged <;> exact ⟨_, rfl⟩
  obtain ⟨st, h⟩ := this
  refine ⟨updateCooked { store := st }, ?_⟩
  unfold sheetFinish
  show (do let st ← tidyDimensions env.cfg ({} : SheetSt).store []; pure (updateCooked { store := st })) = _
  rw [h]
  rfl

/-- The sheet itself is empty. -/
theorem sheet (env : OpenEnv) (b : Book) : ∃ s, oldRead env 45 mem b 40 = .ok { bv := 45, book := b, sheet := s } := by
  obtain ⟨s, hs⟩ := finish (OldSt.env env { bv := 45, book := b })
  refine ⟨s, ?_⟩
  unfold oldRead
  have : oldLoop env 45 mem (mem.length + 1) { bv := 45, book := b } 40 = .ok { bv := 45, book := b } := by
    rw [oldLoop]
    simp only [rec40, bind, Except.bind]
    rw [if_pos (by decide)]
    rfl
  simp only [this, bind, Except.bind]
  show (OldSt.onSheet { bv := 45, book := b } (sheetFinish (OldSt.env env { bv := 45, book := b }) {})) = _
  rw [hs]
  rfl

/-- And back to its name. -/
theorem pass22 (env : OpenEnv) (h : Plain env) (b : Book) (k : Nat) (hc : b.codepage = none) (hu : b.rawUser = none) (ho : b.sheetsoffset = some 0)
    (hn : b.sheetNames = List.replicate (k + 1) ['A']) (hv : b.sheetVisibility = List.replicate (k + 1) 0) (hl : b.embedded.length = k) :
    ∃ b', globalsPass (env.bookEnv 45 0) mem (b, 22) = .ok (.inr (b', 16)) ∧ At b' (k + 1) := by
  obtain ⟨s, hs⟩ := sheet env (initialiseFormatInfo { b with encoding := some "iso-8859-1".toList })
  refine ⟨{ initialiseFormatInfo { b with encoding := some "iso-8859-1".toList } with embedded := b.embedded ++ [⟨['A'], k, 0, s⟩] }, ?_,
    ⟨hc, hu, ho, hn, hv, by simp [hl]⟩⟩
  unfold globalsPass
  simp only [rec22, bind, Except.bind]
  rw [if_neg (by decide)]
  have : globalsStep (env.bookEnv 45 0) mem b 0x8f [0xf0, 0xff, 0xff, 0xff, 1, 0x41] 32 =
      .ok ({ initialiseFormatInfo { b with encoding := some "iso-8859-1".toList } with embedded := b.embedded ++ [⟨['A'], k, 0, s⟩] }, 16) := by
    show handleSheethdr env 45 mem b [0xf0, 0xff, 0xff, 0xff, 1, 0x41] 32 = _
    unfold handleSheethdr
    have e1 : deriveEncoding (env.recEnv 45) b = .ok { b with encoding := some "iso-8859-1".toList } :=
      derive env h 0 (fun _ _ _ _ => .error .attr) b hc hu
    have e2 : unpacki (sliceTo [0xf0, 0xff, 0xff, 0xff, 1, 0x41] 4) = .ok (-16) := by decide +kernel
    have e3 : unpackString (libDec env { b with encoding := some "iso-8859-1".toList }) [0xf0, 0xff, 0xff, 0xff, 1, 0x41] 4 1 = .ok ['A'] := h.letter
    have e4 : idx b.sheetNames ((b.embedded.length : Nat) : Int) = .ok ['A'] := by
      rw [idx_nat, hn, hl]; simp
    have e5 : idx b.sheetVisibility ((b.embedded.length : Nat) : Int) = .ok 0 := by
      rw [idx_nat, hv, hl]; simp
    simp only [e1, e2, e3, e4, bind, Except.bind]
    have e6 : pyAssert (decide True) = .ok () := rfl
    simp only [e6, bof32]
    have e7 : idx (initialiseFormatInfo { b with encoding := some "iso-8859-1".toList }).sheetVisibility ((k : Nat) : Int) = .ok 0 := hl ▸ e5
    simp only [hl, e7, hs]
    rfl
  rw [this]
  rfl

theorem no_end (env : OpenEnv) (h : Plain env) (n : Nat) : ∀ (b : Book) (k : Nat) (r : R (Book × Int)), At b k → ¬ Loop (globalsPass (env.bookEnv 45 0) mem) n (b, 16) r := by
  induction n using Nat.strong_induction_on with
  | _ n ih =>
    intro b k r hb hl
    obtain ⟨b1, p1, c1, c2, c3, c4, c5, c6⟩ := pass16 env h b k hb
    obtain ⟨b2, p2, hb2⟩ := pass22 env h b1 k c1 c2 c3 c4 c5 c6
    cases hl with
    | done e => rw [p1] at e; cases e
    | fail e => rw [p1] at e; cases e
    | next e hl =>
      rw [p1] at e
      cases e
      cases hl with
      | done e => rw [p2] at e; cases e
      | fail e => rw [p2] at e; cases e
      | next e hl =>
        rw [p2] at e
        cases e
        exact ih _ (by omega) b2 (k + 1) r hb2 hl

end Endless

/-- C77, the claim is false without the condition on SHEETHDR records: opening this file of 44 bytes (a workbook of BIFF4) never ends.  Its first record is accepted as
that of a workbook of BIFF4, and the loop over the globals that follows comes to no end, with neither a result nor an exception. -/
theorem C77_endless_file (env : OpenEnv) (h : Endless.Plain env) :
    firstBof Endless.mem 0 = .ok (45, 8) ∧ ∀ (f : FmtSt) (n : Nat) (r : R (Book × Int)), ¬ Loop (globalsPass (env.bookEnv 45 0) Endless.mem) n ({ newBook with fmt := f }, 8) r := by
  refine ⟨by decide +kernel, ?_⟩
  intro f n r hl
  have p : globalsPass (env.bookEnv 45 0) Endless.mem ({ newBook with fmt := f }, 8) = .ok (.inr ({ newBook with fmt := f, sheetsoffset := some 0 }, 16)) := by
    unfold globalsPass
    simp only [Endless.rec8, bind, Except.bind]
    rfl
  cases hl with
  | done e => rw [p] at e; cases e
  | fail e => rw [p] at e; cases e
  | next e hl =>
    rw [p] at e
    cases e
    exact Endless.no_end env h _ _ 0 r ⟨rfl, rfl, rfl, rfl, rfl, rfl⟩ hl

/-- The environment of the examples is such a one. -/
example : Endless.Plain (SampleFile.env false) := ⟨rfl, ⟨_, rfl⟩, rfl⟩

/-- The condition can be checked at the positions at which there are four bytes. -/
theorem noWayBack_of (mem : Bytes) (h : ∀ i, i < 2 * mem.length →
    (match getRecordParts mem ((i : Int) - mem.length) with
      | .ok ((0x8f, _, data), _) => (match unpacki (sliceTo data 4) with | .ok n => decide (0 ≤ n) | _ => true)
      | _ => true) = true) : NoWayBack mem := by
  intro p len data p' n hr hn
  obtain ⟨m1, m2, _⟩ := record_moves hr
  have := h (p + mem.length).toNat (by omega)
  rw [show (((p + mem.length).toNat : Nat) : Int) - mem.length = p by omega, hr] at this
  simp only [hn] at this
  simpa using this

/-- A workbook of BIFF8 and one of BIFF4 with two sheets meet the condition. -/
example : NoWayBack SampleFile.mem ∧ NoWayBack Sample4w.mem := ⟨noWayBack_of _ (by decide +kernel), noWayBack_of _ (by decide +kernel)⟩

/-- The file above does not. -/
example : ¬ NoWayBack Endless.mem := fun h => absurd (h 22 6 _ 32 (-16) Endless.rec22 (by decide +kernel)) (by decide)

end Xlrd
