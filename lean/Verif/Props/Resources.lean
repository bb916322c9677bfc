import Verif.Spec.Resources
import Verif.Props.Life
import Verif.Props.Files

/-!
# C88: Files and mappings are closed
-/
set_option linter.unusedSimpArgs false
set_option linter.unusedVariables false
namespace Xlrd
open Spec

/-- A call on a book and the files it closes. -/
def handleCall (k : Keeps) (w : World) : Call → Keeps × World
  | .release => releaseHandles k w
  | _ => (k, w)

/-- A sequence of calls on a book and the files they close. -/
def handleCalls (k : Keeps) (w : World) : List Call → Keeps × World
  | [] => (k, w)
  | c :: cs => handleCalls (handleCall k w c).1 (handleCall k w c).2 cs

/-! ## Lemmas -/

theorem acquire_close (w : World) : (w.acquire.close w.next).live = w.live := by
  simp [World.acquire, World.close]

/-- A book holds nothing of its own, or one mapping that it has opened, as its contents or as both contents and stream. -/
inductive OwnMap (before : World) : Keeps → World → Prop
  | idle {k : Keeps} {w : World} (hm : ∀ h, k.mem ≠ .mapping h) (hf : ∀ h, k.filestr ≠ .mapping h) (hl : w.live = before.live) : OwnMap before k w
  | file {k : Keeps} {w : World} (h : Nat) (hm : ∀ h, k.mem ≠ .mapping h) (hf : k.filestr = .mapping h) (hl : w.live = h :: before.live)
      (hn : before.next ≤ h) : OwnMap before k w
  | both {k : Keeps} {w : World} (h : Nat) (hm : k.mem = .mapping h) (hf : k.filestr = .mapping h) (hl : w.live = h :: before.live)
      (hn : before.next ≤ h) : OwnMap before k w

theorem closeContent_no {w : World} {c : Content} (h : ∀ n, c ≠ .mapping n) : w.closeContent c = w := by
  cases c with
  | mapping n => exact absurd rfl (h n)
  | nothing => rfl
  | bytes => rfl

theorem erase_own {before : World} (hw : Sound before) {h : Nat} (hn : before.next ≤ h) : before.live.erase h = before.live := by
  apply List.erase_of_not_mem
  intro hm
  have := hw h hm
  omega

theorem OwnMap.release {before : World} (hw : Sound before) {k : Keeps} {w : World} (h : OwnMap before k w) :
    (releaseHandles k w).2.live = before.live := by
  unfold releaseHandles
  cases h with
  | idle hm hf hl =>
    show ((w.closeContent k.mem).closeContent k.filestr).live = _
    rw [closeContent_no hm, closeContent_no hf, hl]
  | file n hm hf hl hn =>
    show ((w.closeContent k.mem).closeContent k.filestr).live = _
    rw [closeContent_no hm, hf]
    show w.live.erase n = _
    rw [hl]; simp
  | both n hm hf hl hn =>
    show ((w.closeContent k.mem).closeContent k.filestr).live = _
    rw [hm, hf]
    show (w.live.erase n).erase n = _
    rw [hl]
    simp [erase_own hw hn]

theorem fetchFile_own {path : Option Disk} {given : Given} {um : Bool} {w : World} (hw : Sound w) (hg : NoMapping given) :
    OwnMap w (fetchFile path given um {} w).2.1 (fetchFile path given um {} w).2.2 ∧ ∀ h, (fetchFile path given um {} w).2.1.mem ≠ .mapping h := by
  unfold fetchFile
  have no : ∀ h, ({} : Keeps).mem ≠ .mapping h := by intro h e; cases e
  have nof : ∀ h, ({} : Keeps).filestr ≠ .mapping h := by intro h e; cases e
  cases ht : given.truth with
  | some x =>
    obtain ⟨c, b⟩ := x
    refine ⟨.idle no ?_ rfl, no⟩
    intro h e
    have e' : c = .mapping h := e
    cases given with
    | absent => cases ht
    | bytes b' =>
      simp only [Given.truth] at ht
      by_cases hb : b' = []
      · rw [if_pos hb] at ht; cases ht
      · rw [if_neg hb] at ht; cases ht; cases e'
    | mapping h' b' => exact hg h' b' rfl
  | none =>
    cases path with
    | none => exact ⟨.idle no nof rfl, no⟩
    | some d =>
      simp only
      cases ho : d.opens with
      | error e => exact ⟨.idle no nof rfl, no⟩
      | ok u =>
        simp only
        unfold readFile
        cases hm : d.measures with
        | error e => exact ⟨.idle no nof (acquire_close w), no⟩
        | ok u =>
          simp only
          by_cases hd : d.data = []
          · rw [if_pos hd]; exact ⟨.idle no nof (acquire_close w), no⟩
          · rw [if_neg hd]
            by_cases hu : um = true
            · rw [if_pos hu]
              cases hp : d.maps with
              | error e => exact ⟨.idle no nof (acquire_close w), no⟩
              | ok u =>
                refine ⟨.file (w.next + 1) no rfl ?_ (by omega), no⟩
                show ((w.next + 1) :: w.next :: w.live).erase w.next = _
                rw [List.erase_cons_tail (by simp)]
                simp
            · rw [if_neg hu]
              cases hp : d.reads with
              | error e => exact ⟨.idle no nof (acquire_close w), no⟩
              | ok u => exact ⟨.idle no nof (acquire_close w), no⟩

theorem load_own {env : OpenEnv} {path : Option Disk} {given : Given} {um ip : Bool} {w : World} (hw : Sound w) (hg : NoMapping given)
    {r : R (Bytes × Int)} {k : Keeps} {w' : World} (h : loadBook env path given um ip {} w = some (r, k, w')) : OwnMap w k w' := by
  obtain ⟨h1, h2⟩ := fetchFile_own (path := path) (given := given) (um := um) hw hg
  unfold loadBook at h
  generalize hf : fetchFile path given um {} w = x at h h1 h2
  obtain ⟨r1, k1, w1⟩ := x
  simp only at h1 h2
  cases r1 with
  | error e => simp only at h; injection h with h; injection h with _ h; injection h with e1 e2; subst e1; subst e2; exact h1
  | ok file =>
    simp only at h
    have same : OwnMap w { k1 with mem := k1.filestr } w1 := by
      cases h1 with
      | idle hm hf hl => exact .idle hf hf hl
      | file n hm hf hl hn => exact .both n hf hf hl hn
      | both n hm hf hl hn => exact absurd hm (h2 n)
    by_cases hs : sliceTo file 8 ≠ SIGNATURE
    · rw [if_pos hs] at h; injection h with h; injection h with _ h; injection h with e1 e2; subst e1; subst e2; exact same
    · rw [if_neg hs] at h
      cases hc : compDocInit env.fuel env.depth file env.ignore with
      | none => rw [hc] at h; cases h
      | some c =>
        rw [hc] at h
        cases c with
        | error e => simp only at h; injection h with h; injection h with _ h; injection h with e1 e2; subst e1; subst e2; exact h1
        | ok cd =>
          simp only at h
          cases hq : findStream env.fuel env.lower cd ["Workbook".toList, "Book".toList] with
          | none => rw [hq] at h; cases h
          | some q =>
            rw [hq] at h
            cases q with
            | error e =>
              simp only at h; injection h with h; injection h with _ h; injection h with e1 e2; subst e1; subst e2
              cases h1 with
              | idle hm hf hl => exact .idle (by intro h e; cases e) hf hl
              | file n hm hf hl hn => exact .file n (by intro h e; cases e) hf hl hn
              | both n hm hf hl hn => exact absurd hm (h2 n)
            | ok x =>
              simp only at h
              by_cases hi : ip = true
              · rw [if_pos hi] at h; injection h with h; injection h with _ h; injection h with e1 e2; subst e1; subst e2; exact same
              · rw [if_neg hi] at h; injection h with h; injection h with _ h; injection h with e1 e2; subst e1; subst e2
                refine .idle (by intro h e; cases e) (by intro h e; cases e) ?_
                cases h1 with
                | idle hm hf hl => rw [closeContent_no hf]; exact hl
                | file n hm hf hl hn =>
                  rw [hf]
                  show w1.live.erase n = _
                  rw [hl]; simp
                | both n hm hf hl hn => exact absurd hm (h2 n)

theorem openStream_released {env : OpenEnv} {mem : Bytes} {base : Int} {l : Lib} (h : openStream env mem base = .ok l) :
    l.released = !demandLeft env mem base := by
  unfold openStream at h
  unfold demandLeft
  cases hv : firstBof mem base with
  | error e => rw [hv] at h; cases h
  | ok x =>
    obtain ⟨v, p⟩ := x
    rw [hv] at h
    simp only [bind, Except.bind] at h
    by_cases h4 : v ≤ 40
    · rw [if_pos h4] at h
      simp only [if_pos h4]
      unfold openSingle at h
      simp only [bind, Except.bind, pure, Except.pure] at h
      split at h
      · cases h
      · split at h
        · cases h
        · split at h
          · cases h
          · cases h; rfl
    · rw [if_neg h4] at h
      simp only [if_neg h4]
      split at h
      · cases h
      · by_cases h45 : v = 45
        · rw [if_pos h45] at h
          cases h
          rw [if_pos h45]; rfl
        · rw [if_neg h45] at h
          rw [if_neg h45]
          unfold openSheets at h
          by_cases hd : env.onDemand = true
          · rw [if_pos hd] at h; cases h; rw [hd]; rfl
          · rw [if_neg hd] at h
            have hd' : env.onDemand = false := by simpa using hd
            simp only [bind, Except.bind, pure, Except.pure] at h
            split at h
            · cases h
            · cases h; rw [hd']; rfl

/-- `biff2_8_load` does not release anything. -/
theorem load_unreleased {env : OpenEnv} {path : Option Disk} {given : Given} {um ip : Bool} {w : World} {r : R (Bytes × Int)} {k : Keeps} {w' : World}
    (h : loadBook env path given um ip {} w = some (r, k, w')) : k.released = false := by
  have h1 : (fetchFile path given um {} w).2.1.released = false := by
    unfold fetchFile
    cases given.truth with
    | some x => rfl
    | none =>
      cases path with
      | none => rfl
      | some d =>
        simp only
        cases d.opens with
        | error e => rfl
        | ok u =>
          simp only [readFile]
          cases d.measures with
          | error e => rfl
          | ok u =>
            simp only
            by_cases hd : d.data = []
            · rw [if_pos hd]
            · rw [if_neg hd]
              by_cases hu : um = true
              · rw [if_pos hu]; cases d.maps <;> rfl
              · rw [if_neg hu]; cases d.reads <;> rfl
  unfold loadBook at h
  generalize fetchFile path given um {} w = x at h h1
  obtain ⟨r1, k1, w1⟩ := x
  simp only at h1
  cases r1 with
  | error e => simp only at h; injection h with h; injection h with _ h; injection h with e1 e2; subst e1; exact h1
  | ok file =>
    simp only at h
    by_cases hs : sliceTo file 8 ≠ SIGNATURE
    · rw [if_pos hs] at h; injection h with h; injection h with _ h; injection h with e1 e2; subst e1; exact h1
    · rw [if_neg hs] at h
      cases hc : compDocInit env.fuel env.depth file env.ignore with
      | none => rw [hc] at h; cases h
      | some c =>
        rw [hc] at h
        cases c with
        | error e => simp only at h; injection h with h; injection h with _ h; injection h with e1 e2; subst e1; exact h1
        | ok cd =>
          simp only at h
          cases hq : findStream env.fuel env.lower cd ["Workbook".toList, "Book".toList] with
          | none => rw [hq] at h; cases h
          | some q =>
            rw [hq] at h
            cases q with
            | error e => simp only at h; injection h with h; injection h with _ h; injection h with e1 e2; subst e1; exact h1
            | ok x =>
              simp only at h
              by_cases hi : ip = true
              · rw [if_pos hi] at h; injection h with h; injection h with _ h; injection h with e1 e2; subst e1; exact h1
              · rw [if_neg hi] at h; injection h with h; injection h with _ h; injection h with e1 e2; subst e1; exact h1

/-- What a book returned or an exception leaves behind. -/
theorem xls_own {env : OpenEnv} {path : Option Disk} {given : Given} {um ip : Bool} {w : World} (hw : Sound w) (hg : NoMapping given)
    {r : R Lib} {k : Keeps} {w' : World} (h : openXlsHandles env path given um ip w = some (r, k, w')) :
    ((∃ e, r = .error e) ∧ w'.live = w.live ∧ k.released = true) ∨
    (∃ l, r = .ok l ∧ k.released = l.released ∧ (l.released = true → w'.live = w.live) ∧ (l.released = false → OwnMap w k w')) := by
  unfold openXlsHandles at h
  cases hl : loadBook env path given um ip {} w with
  | none => rw [hl] at h; cases h
  | some x =>
    obtain ⟨r1, k1, w1⟩ := x
    rw [hl] at h
    have own := load_own hw hg hl
    have rel := own.release hw
    cases r1 with
    | error e =>
      simp only at h; injection h with h; injection h with e0 h
      refine Or.inl ⟨⟨e, e0.symm⟩, ?_, ?_⟩
      · rw [h] at rel; exact rel
      · have := congrArg (fun x => x.1.released) h; exact this.symm
    | ok x =>
      obtain ⟨mem, base⟩ := x
      simp only at h
      cases ho : openStream env mem base with
      | error e =>
        rw [ho] at h; simp only at h; injection h with h; injection h with e0 h
        refine Or.inl ⟨⟨e, e0.symm⟩, ?_, ?_⟩
        · rw [h] at rel; exact rel
        · have := congrArg (fun x => x.1.released) h; exact this.symm
      | ok l =>
        rw [ho] at h; simp only at h
        have hr := openStream_released ho
        by_cases hd : demandLeft env mem base = true
        · rw [if_pos hd] at h; injection h with h; injection h with e0 h; injection h with e1 e2; subst e1; subst e2
          rw [hd] at hr
          refine Or.inr ⟨l, e0.symm, ?_, ?_, fun _ => own⟩
          · rw [hr]
            exact load_unreleased hl
          · intro hc; rw [hr] at hc; cases hc
        · rw [if_neg hd] at h; injection h with h; injection h with e0 h
          have hd' : demandLeft env mem base = false := by simpa using hd
          rw [hd'] at hr
          refine Or.inr ⟨l, e0.symm, ?_, ?_, ?_⟩
          · rw [hr]; have := congrArg (fun x => x.1.released) h; exact this.symm
          · intro _; rw [h] at rel; exact rel
          · intro hc; rw [hr] at hc; cases hc


theorem peek_zip (data : Bytes) : ZIP_SIGNATURE.isPrefixOf (sliceTo data 8) = true ↔ ZIP_SIGNATURE <+: data := by
  constructor
  · intro h
    obtain ⟨r, hr⟩ := (peek_prefix _ _ (by decide)).mp h
    exact ⟨r, hr.symm⟩
  · rintro ⟨r, hr⟩
    exact (peek_prefix _ _ (by decide)).mpr ⟨r, hr.symm⟩

/-- Looking at the format of a file that is not a ZIP file opens and closes the file. -/
theorem inspect_same {zip : Bytes → R (List PyStr)} {lower : PyStr → PyStr} {seen : Option Disk} {given : Given} {w : World}
    (hz : NotZip seen ∨ given.truth.isSome = true) :
    (inspectHandles zip lower seen given w).2.live = w.live ∧ w.next ≤ (inspectHandles zip lower seen given w).2.next := by
  unfold inspectHandles
  cases ht : given.truth with
  | some x => exact ⟨rfl, le_refl _⟩
  | none =>
    rw [ht] at hz
    have hz : NotZip seen := hz.resolve_right (by simp)
    cases seen with
    | none => exact ⟨rfl, le_refl _⟩
    | some d =>
      simp only
      cases d.opens with
      | error e => exact ⟨rfl, le_refl _⟩
      | ok u =>
        have hb : (w.acquire.close w.next).live = w.live ∧ w.next ≤ (w.acquire.close w.next).next := ⟨acquire_close w, Nat.le_succ _⟩
        simp only
        cases d.reads with
        | error e => exact hb
        | ok u =>
          simp only
          cases inspectFormat zip lower d.data with
          | error e => exact hb
          | ok f =>
            simp only
            by_cases h1 : SIGNATURE.isPrefixOf (sliceTo d.data 8) = true
            · rw [if_pos h1]; exact hb
            · rw [if_neg h1, if_neg (fun h => hz d rfl ((peek_zip _).mp h))]; exact hb

theorem sound_same {w w' : World} (h : Sound w) (hl : w'.live = w.live) (hn : w.next ≤ w'.next) : Sound w' := by
  intro x hx
  rw [hl] at hx
  have := h x hx
  omega

theorem OwnMap.back {w w1 : World} {k : Keeps} {w' : World} (h : OwnMap w1 k w') (hl : w1.live = w.live) (hn : w.next ≤ w1.next) : OwnMap w k w' := by
  cases h with
  | idle hm hf h => exact .idle hm hf (h.trans hl)
  | file n hm hf h hb => exact .file n hm hf (by rw [h, hl]) (le_trans hn hb)
  | both n hm hf h hb => exact .both n hm hf (by rw [h, hl]) (le_trans hn hb)

/-- What `open_workbook` leaves behind. -/
theorem open_own {zip : Bytes → R (List PyStr)} {lower : PyStr → PyStr} {env : OpenEnv} {seen path : Option Disk} {given : Given} {um ip : Bool} {w : World}
    (hw : Sound w) (hg : NoMapping given) (hz : NotZip seen ∨ given.truth.isSome = true) {r : R Lib} {k : Option Keeps} {w' : World}
    (h : openHandles zip lower env seen path given um ip w = some (r, k, w')) :
    ((∃ e, r = .error e) ∧ w'.live = w.live) ∨
    (∃ l k', r = .ok l ∧ k = some k' ∧ k'.released = l.released ∧ (l.released = true → w'.live = w.live) ∧ (l.released = false → OwnMap w k' w')) := by
  obtain ⟨hl, hn⟩ := inspect_same (zip := zip) (lower := lower) (w := w) hz
  unfold openHandles at h
  generalize inspectHandles zip lower seen given w = x at h hl hn
  obtain ⟨r1, w1⟩ := x
  simp only at hl hn
  cases r1 with
  | error e => simp only at h; injection h with h; injection h with e0 h; injection h with e1 e2; subst e2; exact Or.inl ⟨⟨e, e0.symm⟩, hl⟩
  | ok f =>
    simp only at h
    by_cases hf : f = none ∨ f = some "xls"
    · rw [if_pos hf] at h
      cases hx : openXlsHandles env path given um ip w1 with
      | none => rw [hx] at h; cases h
      | some y =>
        obtain ⟨r2, k2, w2⟩ := y
        rw [hx] at h
        simp only at h; injection h with h; injection h with e0 h; injection h with e1 e2; subst e0; subst e1; subst e2
        rcases xls_own (sound_same hw hl hn) hg hx with ⟨a, b, c⟩ | ⟨l, a, b, c, d⟩
        · exact Or.inl ⟨a, b.trans hl⟩
        · exact Or.inr ⟨l, k2, a, rfl, b, fun x => (c x).trans hl, fun x => (d x).back hl hn⟩
    · rw [if_neg hf] at h; injection h with h; injection h with e0 h; injection h with e1 e2; subst e2; exact Or.inl ⟨⟨_, e0.symm⟩, hl⟩

/-- Without loading on demand a book returned is released. -/
theorem xls_eager {env : OpenEnv} {path : Option Disk} {given : Given} {um ip : Bool} {w : World} {l : Lib} {k : Keeps} {w' : World}
    (h : openXlsHandles env path given um ip w = some (.ok l, k, w')) (hd : env.onDemand = false) : l.released = true := by
  unfold openXlsHandles at h
  cases hl : loadBook env path given um ip {} w with
  | none => rw [hl] at h; cases h
  | some x =>
    obtain ⟨r1, k1, w1⟩ := x
    rw [hl] at h
    cases r1 with
    | error e => simp only at h; injection h with h; injection h with e0 h; cases e0
    | ok x =>
      obtain ⟨mem, base⟩ := x
      simp only at h
      cases ho : openStream env mem base with
      | error e => rw [ho] at h; simp only at h; injection h with h; injection h with e0 h; cases e0
      | ok l' =>
        rw [ho] at h; simp only at h
        have hr := openStream_released ho
        have : demandLeft env mem base = false := by
          unfold demandLeft
          rw [hd]
          cases firstBof mem base with
          | error e => rfl
          | ok x => simp
        rw [this] at h hr
        simp only [Bool.false_eq_true, if_false] at h
        injection h with h; injection h with e0 h; injection e0 with e0; subst e0
        exact hr

theorem open_eager {zip : Bytes → R (List PyStr)} {lower : PyStr → PyStr} {env : OpenEnv} {seen path : Option Disk} {given : Given} {um ip : Bool} {w : World}
    {r : R Lib} {k : Option Keeps} {w' : World} {l : Lib} (h : openHandles zip lower env seen path given um ip w = some (r, k, w')) (hr : r = .ok l)
    (hd : env.onDemand = false) : l.released = true := by
  subst hr
  unfold openHandles at h
  generalize inspectHandles zip lower seen given w = x at h
  obtain ⟨r1, w1⟩ := x
  cases r1 with
  | error e => simp only at h; injection h with h; injection h with e0 h; cases e0
  | ok f =>
    simp only at h
    by_cases hf : f = none ∨ f = some "xls"
    · rw [if_pos hf] at h
      cases hx : openXlsHandles env path given um ip w1 with
      | none => rw [hx] at h; cases h
      | some y =>
        obtain ⟨r2, k2, w2⟩ := y
        rw [hx] at h
        simp only at h; injection h with h; injection h with e0 h; subst e0
        exact xls_eager hx hd
    · rw [if_neg hf] at h; injection h with h; injection h with e0 h; cases e0

/-! ## Theorems -/

/-- C88: whatever the system answers and whatever is in the file, when `open_workbook` raises an exception, or returns a book without loading on demand, the same files and mappings
are open as before.  (ZIP files: `C88_zip_left_open`; a mapping as argument: `C88_mapping_closed`.) -/
theorem C88_nothing_left_open_partial (zip : Bytes → R (List PyStr)) (lower : PyStr → PyStr) (env : OpenEnv) (seen path : Option Disk) (given : Given)
    (um ip : Bool) (w w' : World) (r : R Lib) (k : Option Keeps)
    (hw : Sound w) (hg : NoMapping given) (hz : NotZip seen ∨ given.truth.isSome = true)
    (h : openHandles zip lower env seen path given um ip w = some (r, k, w'))
    (hr : env.onDemand = false ∨ ∃ e, r = .error e) : SameOpen w w' := by
  rcases open_own hw hg hz h with ⟨_, b⟩ | ⟨l, k', a, b, c, d, e⟩
  · exact b
  · rcases hr with hd | ⟨x, hx⟩
    · apply d
      exact open_eager h a hd
    · rw [a] at hx; cases hx

/-! ### Calls on a book -/

theorem OwnMap.calls {before : World} (hw : Sound before) (cs : List Call) : ∀ {k : Keeps} {w : World}, OwnMap before k w →
    OwnMap before (handleCalls k w cs).1 (handleCalls k w cs).2 := by
  induction cs with
  | nil => intro k w h; exact h
  | cons c cs ih =>
    intro k w h
    unfold handleCalls
    apply ih
    cases c with
    | release => exact .idle (by intro h e; cases e) (by intro h e; cases e) (h.release hw)
    | _ => exact h

theorem byIndex_released_same (env : OpenEnv) (l : Lib) (n : Int) : (sheetByIndex env l n).2.released = l.released := by
  unfold sheetByIndex
  cases idx l.sheetList n with
  | error e => rfl
  | ok x =>
    cases x with
    | some sh => rfl
    | none =>
      simp only
      cases hg : getSheet env l n with
      | error e =>
        show (if l.released then l else l.left env n).released = _
        by_cases hr : l.released = true
        · rw [if_pos hr]
        · rw [if_neg hr]; rfl
      | ok y =>
        obtain ⟨sh, l'⟩ := y
        unfold getSheet at hg
        by_cases hr : l.released = true
        · rw [if_pos hr] at hg; cases hg
        · rw [if_neg hr] at hg
          simp only [bind, Except.bind, pure, Except.pure] at hg
          split at hg
          · cases hg
          · split at hg
            · cases hg
            · injection hg with hg; injection hg with e1 e2; subst e2; rfl

theorem loadAll_released_same (env : OpenEnv) (m : Nat) : ∀ (a : Nat) (l : Lib), (loadAll env m a l).2.released = l.released := by
  induction m with
  | zero => intro a l; rfl
  | succ m ih =>
    intro a l
    have h := byIndex_released_same env l (a : Int)
    unfold loadAll
    generalize sheetByIndex env l (a : Int) = x at h
    obtain ⟨r, l'⟩ := x
    cases r with
    | error e => exact h
    | ok sh => exact (ih (a + 1) l').trans h

theorem byName_released_same (env : OpenEnv) (l : Lib) (s : PyStr) : (sheetByName env l s).2.released = l.released := by
  unfold sheetByName
  cases nameIndex s l.book.sheetNames with
  | none => rfl
  | some n => exact byIndex_released_same env l n

theorem call_released_same (env : OpenEnv) (l : Lib) (c : Call) (k : Keeps) (w : World) (h : k.released = l.released) :
    (handleCall k w c).1.released = (libCall env l c).2.released := by
  cases c with
  | byIndex n => exact h.trans (byIndex_released_same env l n).symm
  | byName s => exact h.trans (byName_released_same env l s).symm
  | item key =>
    cases key with
    | index n => exact h.trans (byIndex_released_same env l n).symm
    | name s => exact h.trans (byName_released_same env l s).symm
  | loaded key => exact h
  | unload key =>
    refine h.trans ?_
    show _ = (unloadSheet l key).2.released
    unfold unloadSheet
    cases keyIndex l key with
    | error e => rfl
    | ok n => simp only; cases setIdx l.sheetList n none <;> rfl
  | release => rfl
  | sheets =>
    refine h.trans ?_
    show _ = (bookSheets env l).2.released
    have := loadAll_released_same env l.sheetList.length 0 l
    unfold bookSheets
    generalize loadAll env l.sheetList.length 0 l = x at this
    obtain ⟨r, l'⟩ := x
    cases r with
    | error e => exact this.symm
    | ok u => exact this.symm
  | names => exact h

theorem calls_released_same (env : OpenEnv) (cs : List Call) : ∀ (l : Lib) (k : Keeps) (w : World), k.released = l.released →
    (handleCalls k w cs).1.released = (libCalls env l cs).2.released := by
  induction cs with
  | nil => intro l k w h; exact h
  | cons c cs ih => intro l k w h; exact ih _ _ _ (call_released_same env l c k w h)

theorem released_own {w : World} {k : Keeps} {w' : World} (h : (k.released = true → k.mem = .nothing ∧ k.filestr = .nothing)) (c : Call) :
    ((handleCall k w' c).1.released = true → (handleCall k w' c).1.mem = .nothing ∧ (handleCall k w' c).1.filestr = .nothing) := by
  cases c with
  | release => intro _; exact ⟨rfl, rfl⟩
  | _ => exact h

theorem calls_nothing (cs : List Call) : ∀ {k : Keeps} {w : World}, (k.released = true → k.mem = .nothing ∧ k.filestr = .nothing) →
    (handleCalls k w cs).1.released = true → (handleCalls k w cs).1.mem = .nothing ∧ (handleCalls k w cs).1.filestr = .nothing := by
  induction cs with
  | nil => intro k w h; exact h
  | cons c cs ih => intro k w h; exact ih (released_own (w := w) h c)

/-- A book returned that has been released holds nothing. -/
theorem open_released_nothing {zip : Bytes → R (List PyStr)} {lower : PyStr → PyStr} {env : OpenEnv} {seen path : Option Disk} {given : Given} {um ip : Bool} {w : World}
    {l : Lib} {k : Option Keeps} {w' : World} {k' : Keeps} (h : openHandles zip lower env seen path given um ip w = some (.ok l, k, w')) (hk : k = some k')
    (hr : k'.released = true) : k'.mem = .nothing ∧ k'.filestr = .nothing := by
  subst hk
  unfold openHandles at h
  generalize inspectHandles zip lower seen given w = x at h
  obtain ⟨r1, w1⟩ := x
  cases r1 with
  | error e => simp only at h; injection h with h; injection h with e0 h; cases e0
  | ok f =>
    simp only at h
    by_cases hf : f = none ∨ f = some "xls"
    · rw [if_pos hf] at h
      cases hx : openXlsHandles env path given um ip w1 with
      | none => rw [hx] at h; cases h
      | some y =>
        obtain ⟨r2, k2, w2⟩ := y
        rw [hx] at h
        simp only at h; injection h with h; injection h with e0 h; injection h with e1 e2; injection e1 with e1; subst e0; subst e1
        unfold openXlsHandles at hx
        cases hl : loadBook env path given um ip {} w1 with
        | none => rw [hl] at hx; cases hx
        | some z =>
          obtain ⟨r3, k3, w3⟩ := z
          rw [hl] at hx
          cases r3 with
          | error e => simp only at hx; injection hx with hx; injection hx with e0 hx; cases e0
          | ok z =>
            obtain ⟨mem, base⟩ := z
            simp only at hx
            cases ho : openStream env mem base with
            | error e => rw [ho] at hx; simp only at hx; injection hx with hx; injection hx with e0 hx; cases e0
            | ok l' =>
              rw [ho] at hx; simp only at hx
              by_cases hd : demandLeft env mem base = true
              · rw [if_pos hd] at hx; injection hx with hx; injection hx with e0 hx; injection hx with e1 e3; subst e1
                rw [load_unreleased hl] at hr; cases hr
              · rw [if_neg hd] at hx; injection hx with hx; injection hx with e0 hx
                have := congrArg Prod.fst hx
                rw [← show _ = k2 from this]
                exact ⟨rfl, rfl⟩
    · rw [if_neg hf] at h; injection h with h; injection h with e0 h; cases e0

/-- What a book that has been returned holds. -/
theorem open_book_own {zip : Bytes → R (List PyStr)} {lower : PyStr → PyStr} {env : OpenEnv} {seen path : Option Disk} {given : Given} {um ip : Bool} {w : World}
    (hw : Sound w) (hg : NoMapping given) (hz : NotZip seen ∨ given.truth.isSome = true) {l : Lib} {k : Option Keeps} {w' : World}
    (h : openHandles zip lower env seen path given um ip w = some (.ok l, k, w')) :
    ∃ k', k = some k' ∧ k'.released = l.released ∧ OwnMap w k' w' := by
  rcases open_own hw hg hz h with ⟨⟨e, a⟩, _⟩ | ⟨l', k', a, b, c, d, e⟩
  · cases a
  · injection a with a; subst a
    refine ⟨k', b, c, ?_⟩
    cases hr : l.released with
    | false => exact e hr
    | true =>
      obtain ⟨h1, h2⟩ := open_released_nothing h (by rw [b]) (c.trans hr)
      exact .idle (by intro x; rw [h1]; intro e; cases e) (by intro x; rw [h2]; intro e; cases e) (d hr)

/-- C88: the block of a `with` statement: whatever is done with the book in it, and whether or not an exception ends it, the same files and mappings are open afterwards as before
`open_workbook`. -/
theorem C88_with_block_partial (zip : Bytes → R (List PyStr)) (lower : PyStr → PyStr) (env : OpenEnv) (seen path : Option Disk) (given : Given)
    (um ip : Bool) (w w' : World) (l : Lib) (k : Option Keeps)
    (hw : Sound w) (hg : NoMapping given) (hz : NotZip seen ∨ given.truth.isSome = true)
    (h : openHandles zip lower env seen path given um ip w = some (.ok l, k, w')) (cs : List Call) :
    ∃ k', k = some k' ∧ SameOpen w (exitWith (handleCalls k' w' cs).1 (handleCalls k' w' cs).2).2 := by
  obtain ⟨k', h1, h2, h3⟩ := open_book_own hw hg hz h
  exact ⟨k', h1, (h3.calls hw cs).release hw⟩

/-- C88: until it is released a book that loads sheets on demand has at most one file or mapping open, and what it reads sheets from is never a mapping that has been closed; afterwards nothing. -/
theorem C88_open_while_needed_partial (zip : Bytes → R (List PyStr)) (lower : PyStr → PyStr) (env : OpenEnv) (seen path : Option Disk) (given : Given)
    (um ip : Bool) (w w' : World) (l : Lib) (k : Option Keeps)
    (hw : Sound w) (hg : NoMapping given) (hz : NotZip seen ∨ given.truth.isSome = true)
    (h : openHandles zip lower env seen path given um ip w = some (.ok l, k, w')) (cs : List Call) :
    ∃ k', k = some k' ∧
      ((libCalls env l cs).2.released = false →
        (SameOpen w (handleCalls k' w' cs).2 ∨ ∃ n, OneMore w (handleCalls k' w' cs).2 n) ∧
        ∀ n, (handleCalls k' w' cs).1.mem = .mapping n → n ∈ (handleCalls k' w' cs).2.live) ∧
      ((libCalls env l cs).2.released = true → SameOpen w (handleCalls k' w' cs).2) := by
  obtain ⟨k', h1, h2, h3⟩ := open_book_own hw hg hz h
  have own := h3.calls hw cs
  refine ⟨k', h1, ?_, ?_⟩
  · intro _
    cases own with
    | idle hm hf hl => exact ⟨Or.inl hl, fun n e => absurd e (hm n)⟩
    | file n hm hf hl hn => exact ⟨Or.inr ⟨n, hl, hn⟩, fun n e => absurd e (hm n)⟩
    | both n hm hf hl hn =>
      refine ⟨Or.inr ⟨n, hl, hn⟩, fun x e => ?_⟩
      rw [hm] at e; injection e with e; subst e
      rw [hl]; exact List.mem_cons_self
  · intro hr
    have hk : (handleCalls k' w' cs).1.released = true := (calls_released_same env cs l k' w' h2).trans hr
    have hn : (handleCalls k' w' cs).1.mem = .nothing ∧ (handleCalls k' w' cs).1.filestr = .nothing :=
      calls_nothing cs (fun e => open_released_nothing h (by rw [h1]) e) hk
    cases own with
    | idle hm hf hl => exact hl
    | file n hm hf hl hn' => rw [hn.2] at hf; cases hf
    | both n hm hf hl hn' => rw [hn.2] at hf; cases hf

/-- C88: releasing again has no effect. -/
theorem C88_release_again (k : Keeps) (w : World) : releaseHandles (releaseHandles k w).1 (releaseHandles k w).2 = releaseHandles k w := rfl

/-! ### Results -/

theorem fetchFile_data {d : Disk} (hd : DiskWorks d) (um : Bool) (w : World) :
    (fetchFile (some d) .absent um {} w).1 = if d.data = [] then .error .xlrd else .ok d.data := by
  unfold fetchFile
  simp only [Given.truth, hd.opens, readFile, hd.measures, hd.maps, hd.reads]
  by_cases h : d.data = []
  · rw [if_pos h, if_pos h]
  · rw [if_neg h, if_neg h]
    cases um <;> rfl

theorem load_result (env : OpenEnv) (path : Option Disk) (given : Given) (um ip : Bool) (w : World) {file : Bytes}
    (h : (fetchFile path given um {} w).1 = if file = [] then .error .xlrd else .ok file) :
    (loadBook env path given um ip {} w).map Prod.fst = loadStream env file := by
  unfold loadBook loadStream
  generalize fetchFile path given um {} w = x at h
  obtain ⟨r, k, w1⟩ := x
  simp only at h
  by_cases hf : file = []
  · rw [if_pos hf] at h; rw [if_pos hf]; subst h; rfl
  · rw [if_neg hf] at h; rw [if_neg hf]; subst h
    simp only
    by_cases hs : sliceTo file 8 ≠ SIGNATURE
    · rw [if_pos hs, if_pos hs]; rfl
    · rw [if_neg hs, if_neg hs]
      cases compDocInit env.fuel env.depth file env.ignore with
      | none => rfl
      | some c =>
        cases c with
        | error e => rfl
        | ok cd =>
          simp only
          cases findStream env.fuel env.lower cd ["Workbook".toList, "Book".toList] with
          | none => rfl
          | some q =>
            cases q with
            | error e => rfl
            | ok x => cases ip <;> rfl

theorem xls_result (env : OpenEnv) (path : Option Disk) (given : Given) (um ip : Bool) (w : World) {file : Bytes}
    (h : (fetchFile path given um {} w).1 = if file = [] then .error .xlrd else .ok file) :
    (openXlsHandles env path given um ip w).map Prod.fst = openXls env file := by
  have hl := load_result env path given um ip w h
  unfold openXlsHandles openXls
  rw [← hl]
  cases loadBook env path given um ip {} w with
  | none => rfl
  | some x =>
    obtain ⟨r, k, w1⟩ := x
    cases r with
    | error e => rfl
    | ok y =>
      obtain ⟨mem, base⟩ := y
      simp only [Option.map]
      cases openStream env mem base with
      | error e => rfl
      | ok l => simp only; cases demandLeft env mem base <;> rfl

/-- What `open_workbook` gives for the bytes of a file. -/
def openResult (zip : Bytes → R (List PyStr)) (lower : PyStr → PyStr) (env : OpenEnv) (file : Bytes) : Option (R Lib) :=
  match openWorkbook zip lower (openXls env) file with
  | .inl (e, _) => some (.error e)
  | .inr x => x

theorem described {zip : Bytes → R (List PyStr)} {lower : PyStr → PyStr} {file : Bytes} {f : String} (h : inspectFormat zip lower file = .ok (some f)) :
    ∃ d, fileFormatDescriptions.lookup f = some d := by
  cases (C51_recognised zip lower file (some f)).mp h <;> exact ⟨_, rfl⟩

theorem open_result (zip : Bytes → R (List PyStr)) (lower : PyStr → PyStr) (env : OpenEnv) (seen path : Option Disk) (given : Given) (um ip : Bool) (w : World) {file : Bytes}
    (hi : (inspectHandles zip lower seen given w).1 = inspectFormat zip lower file)
    (h : ∀ w, (fetchFile path given um {} w).1 = if file = [] then .error .xlrd else .ok file) :
    (openHandles zip lower env seen path given um ip w).map Prod.fst = openResult zip lower env file := by
  unfold openHandles openResult openWorkbook
  generalize inspectHandles zip lower seen given w = x at hi
  obtain ⟨r, w1⟩ := x
  simp only at hi
  rw [← hi]
  have hx := xls_result env path given um ip w1 (h w1)
  have tail : (match openXlsHandles env path given um ip w1 with
      | none => none
      | some (r, k, w) => some (r, some k, w)).map Prod.fst = openXls env file := by
    rw [← hx]
    cases openXlsHandles env path given um ip w1 with
    | none => rfl
    | some y => rfl
  cases r with
  | error e => rfl
  | ok f =>
    cases f with
    | none => simp only [true_or, if_true]; exact tail
    | some f =>
      by_cases hf : f = "xls"
      · subst hf
        simp only [or_true, if_true]; exact tail
      · obtain ⟨d, hd⟩ := described hi.symm
        simp only [if_neg hf, hd]
        rw [if_neg (by rintro (e | e); · cases e
                       · injection e with e; exact hf e)]
        rfl

theorem inspect_data {zip : Bytes → R (List PyStr)} {lower : PyStr → PyStr} {d : Disk} (hd : DiskWorks d) (w : World) :
    (inspectHandles zip lower (some d) .absent w).1 = inspectFormat zip lower d.data := by
  unfold inspectHandles
  simp only [Given.truth, hd.opens, hd.reads]
  cases inspectFormat zip lower d.data with
  | error e => rfl
  | ok f =>
    simp only
    by_cases h1 : SIGNATURE.isPrefixOf (sliceTo d.data 8) = true
    · rw [if_pos h1]
    · rw [if_neg h1]
      by_cases h2 : ZIP_SIGNATURE.isPrefixOf (sliceTo d.data 8) = true
      · rw [if_pos h2]
      · rw [if_neg h2]

/-- C88: the book returned or the exception raised depends only on the bytes of the file, not on whether they are read from a path, mapped or given, and not on what
else is open. -/
theorem C88_same_result (zip : Bytes → R (List PyStr)) (lower : PyStr → PyStr) (env : OpenEnv) (d : Disk) (hd : DiskWorks d) (hne : d.data ≠ [])
    (um um' ip ip' : Bool) (w w' : World) (h : Nat) (other : Option Disk) :
    (openHandles zip lower env (some d) (some d) .absent um ip w).map Prod.fst = openResult zip lower env d.data ∧
    (openHandles zip lower env other other (.bytes d.data) um' ip' w').map Prod.fst = openResult zip lower env d.data ∧
    (openHandles zip lower env other other (.mapping h d.data) um' ip' w').map Prod.fst = openResult zip lower env d.data := by
  refine ⟨open_result zip lower env _ _ _ um ip w (inspect_data hd w) (fetchFile_data hd um), ?_, ?_⟩
  · refine open_result zip lower env _ _ _ um' ip' w' ?_ ?_
    · unfold inspectHandles; simp only [Given.truth, if_neg hne]
    · intro w; unfold fetchFile; simp only [Given.truth, if_neg hne]
  · refine open_result zip lower env _ _ _ um' ip' w' ?_ ?_
    · unfold inspectHandles; simp only [Given.truth, if_neg hne]
    · intro w; unfold fetchFile; simp only [Given.truth, if_neg hne]

/-- C88: an empty file gives an `XLRDError`. -/
theorem C88_empty_file (zip : Bytes → R (List PyStr)) (lower : PyStr → PyStr) (env : OpenEnv) (d : Disk) (hd : DiskWorks d) (hne : d.data = []) (um ip : Bool) (w : World) :
    (openHandles zip lower env (some d) (some d) .absent um ip w).map Prod.fst = some (.error .xlrd) := by
  rw [open_result zip lower env _ _ _ um ip w (inspect_data hd w) (fetchFile_data hd um), hne]
  rfl

/-! ### What is left open or closed otherwise -/

/-- C88: a ZIP file at the path is refused, and it is left open: the `ZipFile` object is dropped without having been closed. -/
theorem C88_zip_left_open (zip : Bytes → R (List PyStr)) (lower : PyStr → PyStr) (env : OpenEnv) (d : Disk) (hd : DiskWorks d) (rest : Bytes) (hz : d.data = ZIP_SIGNATURE ++ rest)
    (names : List PyStr) (hn : zip d.data = .ok names) (path : Option Disk) (um ip : Bool) (w : World) :
    ∃ w', openHandles zip lower env (some d) path .absent um ip w = some (.error .xlrd, none, w') ∧ OneMore w w' (w.next + 1) ∧ w.next + 1 ∈ w'.dropped := by
  have hp : ZIP_SIGNATURE.isPrefixOf (sliceTo d.data 8) = true := (peek_zip _).mpr ⟨rest, hz.symm⟩
  have hs : ¬ SIGNATURE.isPrefixOf (sliceTo d.data 8) = true := by
    intro h
    obtain ⟨r, hr⟩ := (peek_prefix _ _ (by decide)).mp h
    rw [hz] at hr
    simp [SIGNATURE, ZIP_SIGNATURE] at hr
  have hi : inspectFormat zip lower d.data = .ok (some (zipFormat lower names)) := by
    unfold inspectFormat
    simp only [if_neg hs, if_pos hp, hn]
    rfl
  have hf : zipFormat lower names ≠ "xls" := by
    unfold zipFormat
    simp only
    split_ifs <;> decide
  refine ⟨(w.acquire.close w.next).acquire.drop (w.next + 1), ?_, ⟨?_, by omega⟩, List.mem_cons_self⟩
  · unfold openHandles inspectHandles
    simp only [Given.truth, hd.opens, hd.reads, hi, if_neg hs, if_pos hp]
    rw [if_neg (by rintro (e | e); · cases e
                   · injection e with e; exact hf e)]
    rfl
  · show _ :: (w.next :: w.live).erase w.next = _
    simp
    rfl

/-- A book that has been given a mapping. -/
inductive GivenMap (h : Nat) (before : World) : Keeps → World → Prop
  | held {k : Keeps} {w : World} (hm : k.mem = .mapping h ∨ ∀ n, k.mem ≠ .mapping n) (hf : k.filestr = .mapping h) (hl : w.live = before.live) : GivenMap h before k w
  | closed {k : Keeps} {w : World} (hm : ∀ n, k.mem ≠ .mapping n) (hf : ∀ n, k.filestr ≠ .mapping n) (hl : w.live = before.live.erase h) : GivenMap h before k w

theorem GivenMap.release {h : Nat} {before : World} (hd : before.live.Nodup) {k : Keeps} {w : World} (g : GivenMap h before k w) :
    (releaseHandles k w).2.live = before.live.erase h := by
  show ((w.closeContent k.mem).closeContent k.filestr).live = _
  cases g with
  | held hm hf hl =>
    rcases hm with hm | hm
    · rw [hm, hf]
      show (w.live.erase h).erase h = _
      rw [hl]
      exact List.erase_of_not_mem (fun e => ((hd.mem_erase_iff).mp e).1 rfl)
    · rw [closeContent_no hm, hf]
      show w.live.erase h = _
      rw [hl]
  | closed hm hf hl => rw [closeContent_no hm, closeContent_no hf, hl]

theorem load_given {env : OpenEnv} {path : Option Disk} {h : Nat} {b : Bytes} (hb : b ≠ []) {um ip : Bool} {w : World}
    {r : R (Bytes × Int)} {k : Keeps} {w' : World} (hl : loadBook env path (.mapping h b) um ip {} w = some (r, k, w')) : GivenMap h w k w' := by
  unfold loadBook fetchFile at hl
  simp only [Given.truth, if_neg hb] at hl
  have no : ∀ n, Content.bytes ≠ .mapping n := by intro n e; cases e
  have no' : ∀ n, Content.nothing ≠ .mapping n := by intro n e; cases e
  by_cases hs : sliceTo b 8 ≠ SIGNATURE
  · rw [if_pos hs] at hl; injection hl with hl; injection hl with _ hl; injection hl with e1 e2; subst e1; subst e2
    exact .held (Or.inl rfl) rfl rfl
  · rw [if_neg hs] at hl
    cases hc : compDocInit env.fuel env.depth b env.ignore with
    | none => rw [hc] at hl; cases hl
    | some c =>
      rw [hc] at hl
      cases c with
      | error e => simp only at hl; injection hl with hl; injection hl with _ hl; injection hl with e1 e2; subst e1; subst e2; exact .held (Or.inr no) rfl rfl
      | ok cd =>
        simp only at hl
        cases hq : findStream env.fuel env.lower cd ["Workbook".toList, "Book".toList] with
        | none => rw [hq] at hl; cases hl
        | some q =>
          rw [hq] at hl
          cases q with
          | error e => simp only at hl; injection hl with hl; injection hl with _ hl; injection hl with e1 e2; subst e1; subst e2; exact .held (Or.inr no') rfl rfl
          | ok x =>
            simp only at hl
            by_cases hi : ip = true
            · rw [if_pos hi] at hl; injection hl with hl; injection hl with _ hl; injection hl with e1 e2; subst e1; subst e2; exact .held (Or.inl rfl) rfl rfl
            · rw [if_neg hi] at hl; injection hl with hl; injection hl with _ hl; injection hl with e1 e2; subst e1; subst e2; exact .closed no no rfl

/-- C88: a mapping that the caller passes as `file_contents` is closed, with nothing else, when `open_workbook` raises an exception while reading it, and also when it returns a book without
loading on demand. -/
theorem C88_mapping_closed (zip : Bytes → R (List PyStr)) (lower : PyStr → PyStr) (env : OpenEnv) (seen path : Option Disk) (h : Nat) (b : Bytes) (hb : b ≠ [])
    (um ip : Bool) (w w' : World) (hd : w.live.Nodup) (r : R Lib) (k : Keeps)
    (ho : openHandles zip lower env seen path (.mapping h b) um ip w = some (r, some k, w')) (hr : env.onDemand = false ∨ ∃ e, r = .error e) : OneLess w w' h := by
  unfold openHandles inspectHandles at ho
  simp only [Given.truth, if_neg hb] at ho
  cases hi : inspectFormat zip lower b with
  | error e => rw [hi] at ho; simp only at ho; injection ho with ho; injection ho with e0 ho; injection ho with e1 _; cases e1
  | ok f =>
    rw [hi] at ho
    simp only at ho
    by_cases hf : f = none ∨ f = some "xls"
    · rw [if_pos hf] at ho
      cases hx : openXlsHandles env path (.mapping h b) um ip w with
      | none => rw [hx] at ho; cases ho
      | some y =>
        obtain ⟨r2, k2, w2⟩ := y
        rw [hx] at ho
        simp only at ho; injection ho with ho; injection ho with e0 ho; injection ho with e1 e2; injection e1 with e1; subst e0; subst e1; subst e2
        have eager := fun (l : Lib) (hl : r2 = .ok l) => xls_eager (l := l) (show openXlsHandles env path (.mapping h b) um ip w = some (.ok l, k2, w2) by rw [hx, hl])
        unfold openXlsHandles at hx
        cases hl : loadBook env path (.mapping h b) um ip {} w with
        | none => rw [hl] at hx; cases hx
        | some z =>
          obtain ⟨r3, k3, w3⟩ := z
          have rel := (load_given hb hl).release hd
          rw [hl] at hx
          cases r3 with
          | error e => simp only at hx; injection hx with hx; injection hx with e0 hx; rw [hx] at rel; exact rel
          | ok z =>
            obtain ⟨mem, base⟩ := z
            simp only at hx
            cases hs : openStream env mem base with
            | error e => rw [hs] at hx; simp only at hx; injection hx with hx; injection hx with e0 hx; rw [hx] at rel; exact rel
            | ok l =>
              rw [hs] at hx; simp only at hx
              have hrel := openStream_released hs
              by_cases hd2 : demandLeft env mem base = true
              · rw [if_pos hd2] at hx; injection hx with hx; injection hx with e0 hx
                rcases hr with hr | ⟨e, hr⟩
                · have := eager l e0.symm hr
                  rw [hrel, hd2] at this; cases this
                · rw [← e0] at hr; cases hr
              · rw [if_neg hd2] at hx; injection hx with hx; injection hx with e0 hx
                rw [hx] at rel; exact rel
    · rw [if_neg hf] at ho; injection ho with ho; injection ho with e0 ho; injection ho with e1 _; cases e1

/-- C88: `dump` and `count_records` leave nothing open but for a mapping of the file to which nothing refers any more. -/
theorem C88_dump_partial (env : OpenEnv) (path : Option Disk) (ip : Bool) (w w' : World) (hw : Sound w) (h : dumpHandles env path ip w = some w') :
    SameOpen w w' ∨ ∃ n, OneMore w w' n ∧ n ∈ w'.dropped := by
  unfold dumpHandles at h
  cases hl : loadBook env path .absent true ip {} w with
  | none => rw [hl] at h; cases h
  | some x =>
    obtain ⟨r, k, w1⟩ := x
    rw [hl] at h
    simp only at h; injection h with h; subst h
    have own := load_own hw (by intro h b e; cases e) hl
    cases own with
    | idle hm hf hl =>
      left
      cases hk : k.filestr with
      | mapping n => exact absurd hk (hf n)
      | nothing => exact hl
      | bytes => exact hl
    | file n hm hf hl hn => right; rw [hf]; exact ⟨n, ⟨hl, hn⟩, List.mem_cons_self⟩
    | both n hm hf hl hn => right; rw [hf]; exact ⟨n, ⟨hl, hn⟩, List.mem_cons_self⟩

/-- C88: `dump` leaves the mapping of a file that is not a compound document to the garbage collector. -/
theorem C88_dump_left_open (env : OpenEnv) (d : Disk) (hd : DiskWorks d) (hne : d.data ≠ []) (hs : ¬ SIGNATURE <+: d.data) (ip : Bool) (w : World) :
    ∃ w', dumpHandles env (some d) ip w = some w' ∧ OneMore w w' (w.next + 1) ∧ w.next + 1 ∈ w'.dropped := by
  have hp : sliceTo d.data 8 ≠ SIGNATURE := by
    intro h
    apply hs
    have := (peek_prefix SIGNATURE d.data (by decide)).mp (by rw [h]; decide)
    obtain ⟨r, hr⟩ := this
    exact ⟨r, hr.symm⟩
  refine ⟨((w.acquire.acquire).close w.next).drop (w.next + 1), ?_, ?_, ?_⟩
  · unfold dumpHandles loadBook fetchFile
    simp only [Given.truth, hd.opens, readFile, hd.measures, hd.maps, if_neg hne, if_true, if_pos hp]
    rfl
  · refine ⟨?_, by omega⟩
    show ((w.next + 1) :: w.next :: w.live).erase w.next = _
    rw [List.erase_cons_tail (by simp)]
    simp
  · exact List.mem_cons_self

end Xlrd
