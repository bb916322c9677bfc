import Verif.Spec.Loop
import Verif.Props.Biff4w

/-!
# The record loops end
-/
set_option linter.unusedSimpArgs false
namespace Xlrd
open Spec

/-- A loop that gets ahead in a stream of `N` bytes ends. -/
theorem loop_ends {σ ρ : Type} (N : Nat) (pass : σ → R (ρ ⊕ σ)) (loop : Nat → σ → R ρ) (rank : σ → Int)
    (h0 : ∀ fuel s, loop (fuel + 1) s = match pass s with | .error e => .error e | .ok (.inl x) => .ok x | .ok (.inr s') => loop fuel s')
    (hp : ∀ s s', pass s = .ok (.inr s') → -(N : Int) ≤ rank s ∧ rank s + 4 ≤ N ∧ rank s + 4 ≤ rank s') (s : σ) :
    ∃ n, n ≤ N + 1 ∧ Loop pass n s (loop (N + 1) s) := by
  have key : ∀ (fuel : Nat) (s : σ), 0 < fuel → (-(N : Int) ≤ rank s → (N : Int) - rank s < 4 * fuel) → ∃ n, n ≤ fuel ∧ Loop pass n s (loop fuel s) := by
    intro fuel
    induction fuel with
    | zero => intro s h; omega
    | succ fuel ih =>
      intro s _ hr
      rw [h0]
      cases hs : pass s with
      | error e => exact ⟨1, by omega, .fail hs⟩
      | ok y =>
        cases y with
        | inl x => exact ⟨1, by omega, .done hs⟩
        | inr s' =>
          obtain ⟨h1, h2, h3⟩ := hp s s' hs
          have h4 := hr h1
          obtain ⟨n, hn, hl⟩ := ih s' (by omega) (by intro _; omega)
          exact ⟨n + 1, by omega, .next hs hl⟩
  exact key (N + 1) s (by omega) (by intro h; push_cast; omega)

theorem unpackN_len {n : Nat} {b c : Bytes} (h : unpackN n b = .ok c) : b.length = n := by
  unfold unpackN at h
  by_contra hn
  rw [if_neg hn] at h
  cases h

/-- Four bytes of a stream lie inside it. -/
theorem slice4_inside {mem : Bytes} {pos : Int} (h : (slice mem pos (pos + 4)).length = 4) : -(mem.length : Int) ≤ pos ∧ pos + 4 ≤ mem.length := by
  unfold slice clampIdx at h
  rw [List.length_drop, List.length_take] at h
  by_cases h1 : pos < 0
  · rw [if_pos h1] at h
    by_cases h2 : pos + 4 < 0
    · rw [if_pos h2] at h
      omega
    · rw [if_neg h2] at h
      omega
  · rw [if_neg h1, if_neg (by omega)] at h
    omega

theorem record_moves {mem : Bytes} {pos pos' : Int} {c l : Nat} {d : Bytes} (h : getRecordParts mem pos = .ok ((c, l, d), pos')) :
    -(mem.length : Int) ≤ pos ∧ pos + 4 ≤ mem.length ∧ pos + 4 ≤ pos' := by
  unfold getRecordParts at h
  obtain ⟨b, h1, h⟩ := bind_ok h
  have := slice4_inside (unpackN_len h1)
  cases h
  exact ⟨this.1, this.2, by omega⟩

/-! ## Loops within the handling of one record -/

/-- One pass of the loop that skips an embedded substream. -/
def embeddedPass (mem : Bytes) (pos : Int) : R (Int ⊕ Int) := do
  let ((rc, _, _), pos) ← getRecordParts mem pos
  if rc = XL_EOF then pure (.inl pos) else pure (.inr pos)

theorem embedded_ends (mem : Bytes) (pos : Int) : ∃ n, n ≤ mem.length + 1 ∧ Loop (embeddedPass mem) n pos (skipEmbedded mem (mem.length + 1) pos) := by
  refine loop_ends mem.length (embeddedPass mem) (skipEmbedded mem) id ?_ ?_ pos
  · intro fuel s
    rw [skipEmbedded]
    unfold embeddedPass
    cases h : getRecordParts mem s with
    | error e => rfl
    | ok y =>
      obtain ⟨⟨c, l, d⟩, p⟩ := y
      simp only [bind, Except.bind]
      by_cases hc : c = XL_EOF
      · simp only [if_pos hc]; rfl
      · simp only [if_neg hc]; rfl
  · intro s s' h
    unfold embeddedPass at h
    obtain ⟨⟨⟨c, l, d⟩, p⟩, h1, h⟩ := bind_ok h
    simp only at h
    by_cases hc : c = XL_EOF
    · rw [if_pos hc] at h; cases h
    · rw [if_neg hc] at h; cases h; exact record_moves h1

theorem embedded_forward {mem : Bytes} {fuel : Nat} {pos pos' : Int} (h : skipEmbedded mem fuel pos = .ok pos') : pos ≤ pos' := by
  induction fuel generalizing pos with
  | zero => cases h
  | succ fuel ih =>
    rw [skipEmbedded] at h
    obtain ⟨⟨⟨c, l, d⟩, p⟩, h1, h⟩ := bind_ok h
    have := (record_moves h1).2.2
    simp only at h
    by_cases hc : c = XL_EOF
    · rw [if_pos hc] at h; cases h; omega
    · rw [if_neg hc] at h; have := ih h; omega

/-- One pass of the loop that collects the continuations of the shared strings. -/
def sstPass (mem : Bytes) (s : List Bytes × Int) : R ((List Bytes × Int) ⊕ (List Bytes × Int)) := do
  let (r, pos) ← getRecordPartsConditional mem s.2 XL_CONTINUE
  match r with
  | none => pure (.inl (s.1, pos))
  | some (_, _, data) => pure (.inr (s.1 ++ [data], pos))

theorem conditional_moves {mem : Bytes} {pos pos' : Int} {k : Nat} {r : Option (Nat × Nat × Bytes)} (h : getRecordPartsConditional mem pos k = .ok (r, pos')) :
    -(mem.length : Int) ≤ pos ∧ pos + 4 ≤ mem.length ∧ (r.isSome → pos + 4 ≤ pos') ∧ (r = none → pos' = pos) := by
  unfold getRecordPartsConditional at h
  obtain ⟨b, h1, h⟩ := bind_ok h
  have := slice4_inside (unpackN_len h1)
  simp only at h
  by_cases hc : fld b 0 2 ≠ k
  · rw [if_pos hc] at h; cases h; exact ⟨this.1, this.2, fun h => (by cases h), fun _ => rfl⟩
  · rw [if_neg hc] at h; cases h; exact ⟨this.1, this.2, fun _ => (by omega), fun h => (by cases h)⟩

theorem sst_ends (mem : Bytes) (acc : List Bytes) (pos : Int) : ∃ n, n ≤ mem.length + 1 ∧
    Loop (sstPass mem) n (acc, pos) ((sstContinues mem (mem.length + 1) pos).map fun p => (acc ++ p.1, p.2)) := by
  refine loop_ends mem.length (sstPass mem) (fun fuel s => (sstContinues mem fuel s.2).map fun p => (s.1 ++ p.1, p.2)) (fun s => s.2) ?_ ?_ (acc, pos)
  · intro fuel s
    rw [sstContinues]
    unfold sstPass
    cases h : getRecordPartsConditional mem s.2 XL_CONTINUE with
    | error e => rfl
    | ok y =>
      obtain ⟨r, p⟩ := y
      cases r with
      | none => simp [bind, Except.bind, pure, Except.pure, Except.map]
      | some z =>
        obtain ⟨c, l, d⟩ := z
        simp only [bind, Except.bind, pure, Except.pure]
        cases sstContinues mem fuel p with
        | error e => rfl
        | ok q => simp [Except.map]
  · intro s s' h
    unfold sstPass at h
    obtain ⟨⟨r, p⟩, h1, h⟩ := bind_ok h
    obtain ⟨m1, m2, m3, m4⟩ := conditional_moves h1
    cases r with
    | none => cases h
    | some z => cases h; exact ⟨m1, m2, m3 rfl⟩

theorem sst_forward {mem : Bytes} {fuel : Nat} {pos pos' : Int} {ds : List Bytes} (h : sstContinues mem fuel pos = .ok (ds, pos')) : pos ≤ pos' := by
  induction fuel generalizing pos ds with
  | zero => cases h
  | succ fuel ih =>
    rw [sstContinues] at h
    obtain ⟨⟨r, p⟩, h1, h⟩ := bind_ok h
    obtain ⟨_, _, m3, m4⟩ := conditional_moves h1
    cases r with
    | none => cases h; have := m4 rfl; omega
    | some z =>
      obtain ⟨⟨es, q⟩, h2, h⟩ := bind_ok h
      cases h
      have := ih h2
      have := m3 rfl
      omega

/-- One pass of the loop that collects the continuations of an EXTERNSHEET record. -/
def externPass (mem : Bytes) (reqd : Nat) (s : Bytes × Int) : R ((Bytes × Int) ⊕ (Bytes × Int)) :=
  if s.1.length < reqd then do
    let ((code, _, data2), pos) ← getRecordParts mem s.2
    if code ≠ XL_CONTINUE then .error .xlrd else pure (.inr (s.1 ++ data2, pos))
  else .ok (.inl s)

theorem extern_ends (mem : Bytes) (reqd : Nat) (data : Bytes) (pos : Int) : ∃ n, n ≤ mem.length + 1 ∧
    Loop (externPass mem reqd) n (data, pos) (externContinue mem reqd (mem.length + 1) data pos) := by
  refine loop_ends mem.length (externPass mem reqd) (fun fuel s => externContinue mem reqd fuel s.1 s.2) (fun s => s.2) ?_ ?_ (data, pos)
  · intro fuel s
    rw [externContinue]
    unfold externPass
    by_cases hl : s.1.length < reqd
    · simp only [if_pos hl]
      cases h : getRecordParts mem s.2 with
      | error e => rfl
      | ok y =>
        obtain ⟨⟨c, l, d⟩, p⟩ := y
        simp only [bind, Except.bind]
        by_cases hc : c ≠ XL_CONTINUE
        · simp only [if_pos hc]
        · simp only [if_neg hc]; rfl
    · simp only [if_neg hl]
  · intro s s' h
    unfold externPass at h
    by_cases hl : s.1.length < reqd
    · rw [if_pos hl] at h
      obtain ⟨⟨⟨c, l, d⟩, p⟩, h1, h⟩ := bind_ok h
      simp only at h
      by_cases hc : c ≠ XL_CONTINUE
      · rw [if_pos hc] at h; cases h
      · rw [if_neg hc] at h; cases h; exact record_moves h1
    · rw [if_neg hl] at h; cases h

theorem extern_forward {mem : Bytes} {reqd fuel : Nat} {pos pos' : Int} {data data' : Bytes} (h : externContinue mem reqd fuel data pos = .ok (data', pos')) : pos ≤ pos' := by
  induction fuel generalizing pos data with
  | zero => cases h
  | succ fuel ih =>
    rw [externContinue] at h
    by_cases hl : data.length < reqd
    · rw [if_pos hl] at h
      obtain ⟨⟨⟨c, l, d⟩, p⟩, h1, h⟩ := bind_ok h
      have := (record_moves h1).2.2
      simp only at h
      by_cases hc : c ≠ XL_CONTINUE
      · rw [if_pos hc] at h; cases h
      · rw [if_neg hc] at h; have := ih h; omega
    · rw [if_neg hl] at h; cases h; omega

/-- One pass of the loop over the records that hold the text of a formula's result. -/
def stringPass (bv : Nat) (dec : Bytes → R PyStr) (mem : Bytes) (expected : Nat) (s : Bytes × Int × Int × PyStr) : R ((PyStr × Int) ⊕ (Bytes × Int × Int × PyStr)) := do
  let chunk ← stringChunk bv dec s.1 s.2.1
  if (s.2.2.2 ++ chunk).length = expected then pure (.inl (s.2.2.2 ++ chunk, s.2.2.1))
  else if (s.2.2.2 ++ chunk).length > expected then .error .xlrd
  else do
    let ((rc, _, data), pos) ← getRecordParts mem s.2.2.1
    if rc ≠ XL_CONTINUE then .error .xlrd else pure (.inr (data, 0, pos, s.2.2.2 ++ chunk))

theorem string_ends (bv : Nat) (dec : Bytes → R PyStr) (mem : Bytes) (expected : Nat) (data : Bytes) (off pos : Int) (acc : PyStr) : ∃ n, n ≤ mem.length + 1 ∧
    Loop (stringPass bv dec mem expected) n (data, off, pos, acc) (stringRecLoop bv dec mem expected (mem.length + 1) data off pos acc) := by
  refine loop_ends mem.length (stringPass bv dec mem expected) (fun fuel s => stringRecLoop bv dec mem expected fuel s.1 s.2.1 s.2.2.1 s.2.2.2) (fun s => s.2.2.1) ?_ ?_
    (data, off, pos, acc)
  · intro fuel s
    rw [stringRecLoop]
    unfold stringPass
    cases hch : stringChunk bv dec s.1 s.2.1 with
    | error e => rfl
    | ok chunk =>
      simp only [bind, Except.bind]
      by_cases h1 : (s.2.2.2 ++ chunk).length = expected
      · simp only [if_pos h1]; rfl
      · simp only [if_neg h1]
        by_cases h2 : (s.2.2.2 ++ chunk).length > expected
        · simp only [if_pos h2]
        · simp only [if_neg h2]
          cases h : getRecordParts mem s.2.2.1 with
          | error e => rfl
          | ok y =>
            obtain ⟨⟨c, l, d⟩, p⟩ := y
            simp only
            by_cases hc : c ≠ XL_CONTINUE
            · simp only [if_pos hc]
            · simp only [if_neg hc]; rfl
  · intro s s' h
    unfold stringPass at h
    obtain ⟨chunk, _, h⟩ := bind_ok h
    by_cases h1 : (s.2.2.2 ++ chunk).length = expected
    · rw [if_pos h1] at h; cases h
    · rw [if_neg h1] at h
      by_cases h2 : (s.2.2.2 ++ chunk).length > expected
      · rw [if_pos h2] at h; cases h
      · rw [if_neg h2] at h
        obtain ⟨⟨⟨c, l, d⟩, p⟩, h3, h⟩ := bind_ok h
        simp only at h
        by_cases hc : c ≠ XL_CONTINUE
        · rw [if_pos hc] at h; cases h
        · rw [if_neg hc] at h; cases h; exact record_moves h3

theorem string_forward {bv : Nat} {dec : Bytes → R PyStr} {mem : Bytes} {expected fuel : Nat} {data : Bytes} {off pos pos' : Int} {acc t : PyStr}
    (h : stringRecLoop bv dec mem expected fuel data off pos acc = .ok (t, pos')) : pos ≤ pos' := by
  induction fuel generalizing data off pos acc with
  | zero => cases h
  | succ fuel ih =>
    rw [stringRecLoop] at h
    obtain ⟨chunk, _, h⟩ := bind_ok h
    simp only at h
    by_cases h1 : (acc ++ chunk).length = expected
    · rw [if_pos h1] at h; cases h; omega
    · rw [if_neg h1] at h
      by_cases h2 : (acc ++ chunk).length > expected
      · rw [if_pos h2] at h; cases h
      · rw [if_neg h2] at h
        obtain ⟨⟨⟨c, l, d⟩, p⟩, h3, h⟩ := bind_ok h
        have := (record_moves h3).2.2
        simp only at h
        by_cases hc : c ≠ XL_CONTINUE
        · rw [if_pos hc] at h; cases h
        · rw [if_neg hc] at h; have := ih h; omega

/-- One pass of the loop over the records that hold the text of a text box. -/
def boxPass (mem : Bytes) (cch : Nat) (s : Nat × PyStr × Int) : R ((PyStr × Int) ⊕ (Nat × PyStr × Int)) :=
  if s.1 < cch then do
    let ((rc, len, data), pos) ← getRecordParts mem s.2.2
    pyAssert (decide (rc = XL_CONTINUE))
    let nb ← byteAt data 0
    if nb ≠ 0 then do
      pyAssert (decide (((len : Int) - 1) % 2 = 0))
      let (t, e) ← unpackUnicodeUpdatePos data 0 2 (some (((len : Int) - 1) / 2))
      pyAssert (decide (e = len))
      pure (.inr (s.1 + (((len : Int) - 1) / 2).toNat, s.2.1 ++ t, pos))
    else do
      let (t, e) ← unpackUnicodeUpdatePos data 0 2 (some ((len : Int) - 1))
      pyAssert (decide (e = len))
      pure (.inr (s.1 + ((len : Int) - 1).toNat, s.2.1 ++ t, pos))
  else pure (.inl s.2)

theorem box_ends (mem : Bytes) (cch tot : Nat) (acc : PyStr) (pos : Int) : ∃ n, n ≤ mem.length + 1 ∧
    Loop (boxPass mem cch) n (tot, acc, pos) (txoText mem cch (mem.length + 1) tot acc pos) := by
  refine loop_ends mem.length (boxPass mem cch) (fun fuel s => txoText mem cch fuel s.1 s.2.1 s.2.2) (fun s => s.2.2) ?_ ?_ (tot, acc, pos)
  · intro fuel s
    rw [txoText]
    unfold boxPass
    by_cases h1 : s.1 < cch
    · simp only [if_pos h1]
      cases h : getRecordParts mem s.2.2 with
      | error e => rfl
      | ok y =>
        obtain ⟨⟨c, l, d⟩, p⟩ := y
        simp only [bind, Except.bind]
        cases pyAssert (decide (c = XL_CONTINUE)) with
        | error e => rfl
        | ok u =>
          simp only
          cases byteAt d 0 with
          | error e => rfl
          | ok nb =>
            simp only
            by_cases hb : nb ≠ 0
            · simp only [if_pos hb]
              cases pyAssert (decide (((l : Int) - 1) % 2 = 0)) with
              | error e => rfl
              | ok u =>
                simp only
                cases unpackUnicodeUpdatePos d 0 2 (some (((l : Int) - 1) / 2)) with
                | error e => rfl
                | ok te =>
                  obtain ⟨t, e⟩ := te
                  simp only
                  cases pyAssert (decide (e = (l : Int))) with
                  | error e => rfl
                  | ok u => rfl
            · simp only [if_neg hb]
              cases unpackUnicodeUpdatePos d 0 2 (some ((l : Int) - 1)) with
              | error e => rfl
              | ok te =>
                obtain ⟨t, e⟩ := te
                simp only
                cases pyAssert (decide (e = (l : Int))) with
                | error e => rfl
                | ok u => rfl
    · simp only [if_neg h1]; rfl
  · intro s s' h
    unfold boxPass at h
    by_cases h1 : s.1 < cch
    · rw [if_pos h1] at h
      obtain ⟨⟨⟨c, l, d⟩, p⟩, h2, h⟩ := bind_ok h
      obtain ⟨_, _, h⟩ := bind_ok h
      obtain ⟨nb, _, h⟩ := bind_ok h
      simp only at h
      by_cases hb : nb ≠ 0
      · rw [if_pos hb] at h
        obtain ⟨_, _, h⟩ := bind_ok h
        obtain ⟨⟨t, e⟩, _, h⟩ := bind_ok h
        obtain ⟨_, _, h⟩ := bind_ok h
        cases h
        exact record_moves h2
      · rw [if_neg hb] at h
        obtain ⟨⟨t, e⟩, _, h⟩ := bind_ok h
        obtain ⟨_, _, h⟩ := bind_ok h
        cases h
        exact record_moves h2
    · rw [if_neg h1] at h; cases h

/-- A loop that ends with a result leaves the stream at a later position. -/
theorem Loop.forward {σ ρ : Type} {pass : σ → R (ρ ⊕ σ)} (rank : σ → Int) (out : ρ → Int) (h1 : ∀ s x, pass s = .ok (.inl x) → rank s ≤ out x)
    (h2 : ∀ s s', pass s = .ok (.inr s') → rank s ≤ rank s') {n : Nat} {s : σ} {r : R ρ} (h : Loop pass n s r) : ∀ {x : ρ}, r = .ok x → rank s ≤ out x := by
  induction h with
  | done h => intro x hx; cases hx; exact h1 _ _ h
  | fail h => intro x hx; cases hx
  | next h _ ih => intro x hx; exact (h2 _ _ h).trans (ih hx)

theorem box_moves {mem : Bytes} {cch : Nat} {s s' : Nat × PyStr × Int} (h : boxPass mem cch s = .ok (.inr s')) : s.2.2 ≤ s'.2.2 := by
  unfold boxPass at h
  by_cases h1 : s.1 < cch
  · rw [if_pos h1] at h
    obtain ⟨⟨⟨c, l, d⟩, p⟩, h2, h⟩ := bind_ok h
    have := (record_moves h2).2.2
    obtain ⟨_, _, h⟩ := bind_ok h
    obtain ⟨nb, _, h⟩ := bind_ok h
    simp only at h
    by_cases hb : nb ≠ 0
    · rw [if_pos hb] at h
      obtain ⟨_, _, h⟩ := bind_ok h
      obtain ⟨⟨t, e⟩, _, h⟩ := bind_ok h
      obtain ⟨_, _, h⟩ := bind_ok h
      cases h
      simp only; omega
    · rw [if_neg hb] at h
      obtain ⟨⟨t, e⟩, _, h⟩ := bind_ok h
      obtain ⟨_, _, h⟩ := bind_ok h
      cases h
      simp only; omega
  · rw [if_neg h1] at h; cases h

theorem box_forward {mem : Bytes} {cch tot : Nat} {acc t : PyStr} {pos pos' : Int} (h : txoText mem cch (mem.length + 1) tot acc pos = .ok (t, pos')) : pos ≤ pos' := by
  obtain ⟨n, _, hl⟩ := box_ends mem cch tot acc pos
  refine Loop.forward (fun s => s.2.2) (fun x => x.2) ?_ (fun s s' hs => box_moves hs) hl h
  intro s x hs
  unfold boxPass at hs
  by_cases h1 : s.1 < cch
  · rw [if_pos h1] at hs
    obtain ⟨⟨⟨c, l, d⟩, p⟩, h2, hs⟩ := bind_ok hs
    obtain ⟨_, _, hs⟩ := bind_ok hs
    obtain ⟨nb, _, hs⟩ := bind_ok hs
    simp only at hs
    by_cases hb : nb ≠ 0
    · rw [if_pos hb] at hs
      obtain ⟨_, _, hs⟩ := bind_ok hs
      obtain ⟨⟨t, e⟩, _, hs⟩ := bind_ok hs
      obtain ⟨_, _, hs⟩ := bind_ok hs
      cases hs
    · rw [if_neg hb] at hs
      obtain ⟨⟨t, e⟩, _, hs⟩ := bind_ok hs
      obtain ⟨_, _, hs⟩ := bind_ok hs
      cases hs
  · rw [if_neg h1] at hs; cases hs; exact le_refl _

/-- One pass of the loop over the records that hold the formatting runs of a text box. -/
def runsPass (mem : Bytes) (cb : Nat) (s : Nat × List (Nat × Nat) × Int) : R ((List (Nat × Nat) × Int) ⊕ (Nat × List (Nat × Nat) × Int)) :=
  if s.1 < cb then do
    let ((rc, len, data), pos) ← getRecordParts mem s.2.2
    pyAssert (decide (rc = XL_CONTINUE))
    pyAssert (decide (len % 8 = 0))
    let rs ← txoRuns1 data (len / 8) 0
    pure (.inr (s.1 + 8 * (len / 8), s.2.1 ++ rs, pos))
  else pure (.inl s.2)

theorem runs_ends (mem : Bytes) (cb tot : Nat) (acc : List (Nat × Nat)) (pos : Int) : ∃ n, n ≤ mem.length + 1 ∧
    Loop (runsPass mem cb) n (tot, acc, pos) (txoRuns mem cb (mem.length + 1) tot acc pos) := by
  refine loop_ends mem.length (runsPass mem cb) (fun fuel s => txoRuns mem cb fuel s.1 s.2.1 s.2.2) (fun s => s.2.2) ?_ ?_ (tot, acc, pos)
  · intro fuel s
    rw [txoRuns]
    unfold runsPass
    by_cases h1 : s.1 < cb
    · simp only [if_pos h1]
      cases h : getRecordParts mem s.2.2 with
      | error e => rfl
      | ok y =>
        obtain ⟨⟨c, l, d⟩, p⟩ := y
        simp only [bind, Except.bind]
        cases pyAssert (decide (c = XL_CONTINUE)) with
        | error e => rfl
        | ok u =>
          simp only
          cases pyAssert (decide (l % 8 = 0)) with
          | error e => rfl
          | ok u =>
            simp only
            cases txoRuns1 d (l / 8) 0 with
            | error e => rfl
            | ok rs => rfl
    · simp only [if_neg h1]; rfl
  · intro s s' h
    unfold runsPass at h
    by_cases h1 : s.1 < cb
    · rw [if_pos h1] at h
      obtain ⟨⟨⟨c, l, d⟩, p⟩, h2, h⟩ := bind_ok h
      obtain ⟨_, _, h⟩ := bind_ok h
      obtain ⟨_, _, h⟩ := bind_ok h
      obtain ⟨rs, _, h⟩ := bind_ok h
      cases h
      exact record_moves h2
    · rw [if_neg h1] at h; cases h

theorem runs_forward {mem : Bytes} {cb tot : Nat} {acc t : List (Nat × Nat)} {pos pos' : Int} (h : txoRuns mem cb (mem.length + 1) tot acc pos = .ok (t, pos')) : pos ≤ pos' := by
  obtain ⟨n, _, hl⟩ := runs_ends mem cb tot acc pos
  refine Loop.forward (fun s => s.2.2) (fun x => x.2) ?_ ?_ hl h
  · intro s x hs
    unfold runsPass at hs
    by_cases h1 : s.1 < cb
    · rw [if_pos h1] at hs
      obtain ⟨⟨⟨c, l, d⟩, p⟩, h2, hs⟩ := bind_ok hs
      obtain ⟨_, _, hs⟩ := bind_ok hs
      obtain ⟨_, _, hs⟩ := bind_ok hs
      obtain ⟨rs, _, hs⟩ := bind_ok hs
      cases hs
    · rw [if_neg h1] at hs; cases hs; exact le_refl _
  · intro s s' hs
    unfold runsPass at hs
    by_cases h1 : s.1 < cb
    · rw [if_pos h1] at hs
      obtain ⟨⟨⟨c, l, d⟩, p⟩, h2, hs⟩ := bind_ok hs
      have := (record_moves h2).2.2
      obtain ⟨_, _, hs⟩ := bind_ok hs
      obtain ⟨_, _, hs⟩ := bind_ok hs
      obtain ⟨rs, _, hs⟩ := bind_ok hs
      cases hs
      simp only; omega
    · rw [if_neg h1] at hs; cases hs

/-- One pass of the loop over the NOTE records that hold the text of a note before BIFF8. -/
def notePass (mem : Bytes) (s : Int × Bytes × Int) : R ((Bytes × Int) ⊕ (Int × Bytes × Int)) :=
  if s.1 > 0 then do
    let ((rc, len, data), pos) ← getRecordParts mem s.2.2
    pyAssert (decide (rc = 0x1c))
    let b ← unpackN 6 (sliceTo data 6)
    pyAssert (decide (fld b 0 2 = 0xFFFF))
    pyAssert (decide ((fld b 4 2 : Int) = (len : Int) - 6))
    pure (.inr (s.1 - fld b 4 2, s.2.1 ++ sliceFrom data 6, pos))
  else do
    pyAssert (decide (s.1 = 0))
    pure (.inl s.2)

theorem note_ends (mem : Bytes) (expected : Int) (acc : Bytes) (pos : Int) : ∃ n, n ≤ mem.length + 1 ∧
    Loop (notePass mem) n (expected, acc, pos) (notePieces mem (mem.length + 1) expected acc pos) := by
  refine loop_ends mem.length (notePass mem) (fun fuel s => notePieces mem fuel s.1 s.2.1 s.2.2) (fun s => s.2.2) ?_ ?_ (expected, acc, pos)
  · intro fuel s
    rw [notePieces]
    unfold notePass
    by_cases h1 : s.1 > 0
    · simp only [if_pos h1]
      cases h : getRecordParts mem s.2.2 with
      | error e => rfl
      | ok y =>
        obtain ⟨⟨c, l, d⟩, p⟩ := y
        simp only [bind, Except.bind]
        cases pyAssert (decide (c = 0x1c)) with
        | error e => rfl
        | ok u =>
          simp only
          cases unpackN 6 (sliceTo d 6) with
          | error e => rfl
          | ok b =>
            simp only
            cases pyAssert (decide (fld b 0 2 = 0xFFFF)) with
            | error e => rfl
            | ok u =>
              simp only
              cases pyAssert (decide ((fld b 4 2 : Int) = (l : Int) - 6)) with
              | error e => rfl
              | ok u => rfl
    · simp only [if_neg h1, bind, Except.bind]
      cases pyAssert (decide (s.1 = 0)) with
      | error e => rfl
      | ok u => rfl
  · intro s s' h
    unfold notePass at h
    by_cases h1 : s.1 > 0
    · rw [if_pos h1] at h
      obtain ⟨⟨⟨c, l, d⟩, p⟩, h2, h⟩ := bind_ok h
      obtain ⟨_, _, h⟩ := bind_ok h
      obtain ⟨b, _, h⟩ := bind_ok h
      obtain ⟨_, _, h⟩ := bind_ok h
      obtain ⟨_, _, h⟩ := bind_ok h
      cases h
      exact record_moves h2
    · rw [if_neg h1] at h
      obtain ⟨_, _, h⟩ := bind_ok h
      cases h

theorem note_forward {mem : Bytes} {expected : Int} {acc t : Bytes} {pos pos' : Int} (h : notePieces mem (mem.length + 1) expected acc pos = .ok (t, pos')) : pos ≤ pos' := by
  obtain ⟨n, _, hl⟩ := note_ends mem expected acc pos
  refine Loop.forward (fun s => s.2.2) (fun x => x.2) ?_ ?_ hl h
  · intro s x hs
    unfold notePass at hs
    by_cases h1 : s.1 > 0
    · rw [if_pos h1] at hs
      obtain ⟨⟨⟨c, l, d⟩, p⟩, h2, hs⟩ := bind_ok hs
      obtain ⟨_, _, hs⟩ := bind_ok hs
      obtain ⟨b, _, hs⟩ := bind_ok hs
      obtain ⟨_, _, hs⟩ := bind_ok hs
      obtain ⟨_, _, hs⟩ := bind_ok hs
      cases hs
    · rw [if_neg h1] at hs
      obtain ⟨_, _, hs⟩ := bind_ok hs
      cases hs; exact le_refl _
  · intro s s' hs
    unfold notePass at hs
    by_cases h1 : s.1 > 0
    · rw [if_pos h1] at hs
      obtain ⟨⟨⟨c, l, d⟩, p⟩, h2, hs⟩ := bind_ok hs
      have := (record_moves h2).2.2
      obtain ⟨_, _, hs⟩ := bind_ok hs
      obtain ⟨b, _, hs⟩ := bind_ok hs
      obtain ⟨_, _, hs⟩ := bind_ok hs
      obtain ⟨_, _, hs⟩ := bind_ok hs
      cases hs
      simp only; omega
    · rw [if_neg h1] at hs
      obtain ⟨_, _, hs⟩ := bind_ok hs
      cases hs

/-- One pass of the loop over the parts of an OBJ record. -/
def objPass (data : Bytes) (s : Nat × Option (Nat × Nat)) : R (Option (Nat × Nat) ⊕ (Nat × Option (Nat × Nat))) :=
  if s.1 < data.length then do
    let b ← unpackN 4 (slice data s.1 (s.1 + 4))
    if fld b 0 2 = 0x15 then do
      pyAssert (decide (s.1 = 0))
      let c ← unpackN 6 (slice data (s.1 + 4) (s.1 + 10))
      pure (.inr (s.1 + fld b 2 2 + 4, some (fld c 2 2, (fld c 4 2 >>> 8) &&& 1)))
    else if fld b 0 2 = 0x00 then
      if (data.drop s.1).all (· = 0) then pure (.inl s.2) else .error .xlrd
    else if fld b 0 2 = 0x0C then do
      let _ ← unpackN 10 (slice data (s.1 + 8) (s.1 + 18))
      pure (.inr (s.1 + fld b 2 2 + 4, s.2))
    else if fld b 0 2 = 0x13 then
      match s.2 with
      | none => .error .attr
      | some (_, a) => if a ≠ 0 then pure (.inl s.2) else pure (.inr (s.1 + fld b 2 2 + 4, s.2))
    else pure (.inr (s.1 + fld b 2 2 + 4, s.2))
  else pure (.inl s.2)

theorem obj_ends (data : Bytes) (pos : Nat) (o : Option (Nat × Nat)) : ∃ n, n ≤ data.length + 1 ∧ Loop (objPass data) n (pos, o) (objLoop data (data.length + 1) pos o) := by
  refine loop_ends data.length (objPass data) (fun fuel s => objLoop data fuel s.1 s.2) (fun s => (s.1 : Int)) ?_ ?_ (pos, o)
  · intro fuel s
    rw [objLoop]
    unfold objPass
    by_cases h1 : s.1 < data.length
    · simp only [if_pos h1]
      cases unpackN 4 (slice data s.1 (s.1 + 4)) with
      | error e => rfl
      | ok b =>
        simp only [bind, Except.bind]
        by_cases h2 : fld b 0 2 = 0x15
        · simp only [if_pos h2]
          cases pyAssert (decide (s.1 = 0)) with
          | error e => rfl
          | ok u =>
            simp only
            cases unpackN 6 (slice data (s.1 + 4) (s.1 + 10)) with
            | error e => rfl
            | ok c => rfl
        · simp only [if_neg h2]
          by_cases h3 : fld b 0 2 = 0x00
          · simp only [if_pos h3]
            by_cases h4 : (data.drop s.1).all (· = 0)
            · simp only [if_pos h4]; rfl
            · simp only [if_neg h4]
          · simp only [if_neg h3]
            by_cases h4 : fld b 0 2 = 0x0C
            · simp only [if_pos h4]
              cases unpackN 10 (slice data (s.1 + 8) (s.1 + 18)) with
              | error e => rfl
              | ok c => rfl
            · simp only [if_neg h4]
              by_cases h5 : fld b 0 2 = 0x13
              · simp only [if_pos h5]
                cases s.2 with
                | none => rfl
                | some y =>
                  obtain ⟨i, a⟩ := y
                  simp only
                  by_cases h6 : a ≠ 0
                  · simp only [if_pos h6]; rfl
                  · simp only [if_neg h6]; rfl
              · simp only [if_neg h5]; rfl
    · simp only [if_neg h1]; rfl
  · intro s s' h
    have key : ∀ b, unpackN 4 (slice data s.1 (s.1 + 4)) = .ok b → s'.1 = s.1 + fld b 2 2 + 4 → -(data.length : Int) ≤ (s.1 : Int) ∧ (s.1 : Int) + 4 ≤ data.length ∧ (s.1 : Int) + 4 ≤ s'.1 := by
      intro b hb he
      have := slice4_inside (unpackN_len hb)
      exact ⟨this.1, this.2, by omega⟩
    unfold objPass at h
    by_cases h1 : s.1 < data.length
    · rw [if_pos h1] at h
      obtain ⟨b, hb, h⟩ := bind_ok h
      refine key b hb ?_
      by_cases h2 : fld b 0 2 = 0x15
      · rw [if_pos h2] at h
        obtain ⟨_, _, h⟩ := bind_ok h
        obtain ⟨c, _, h⟩ := bind_ok h
        cases h; rfl
      · rw [if_neg h2] at h
        by_cases h3 : fld b 0 2 = 0x00
        · rw [if_pos h3] at h
          by_cases h4 : (data.drop s.1).all (· = 0)
          · rw [if_pos h4] at h; cases h
          · rw [if_neg h4] at h; cases h
        · rw [if_neg h3] at h
          by_cases h4 : fld b 0 2 = 0x0C
          · rw [if_pos h4] at h
            obtain ⟨_, _, h⟩ := bind_ok h
            cases h; rfl
          · rw [if_neg h4] at h
            by_cases h5 : fld b 0 2 = 0x13
            · rw [if_pos h5] at h
              cases hs : s.2 with
              | none => rw [hs] at h; cases h
              | some y =>
                obtain ⟨i, a⟩ := y
                rw [hs] at h
                simp only at h
                by_cases h6 : a ≠ 0
                · rw [if_pos h6] at h; cases h
                · rw [if_neg h6] at h; cases h; rfl
            · rw [if_neg h5] at h; cases h; rfl
    · rw [if_neg h1] at h; cases h

end Xlrd
