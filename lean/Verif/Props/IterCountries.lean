import Verif.Props.Iter

/-!
# Iterating over a book opened on demand, for every file (C82)
-/
set_option linter.unusedSimpArgs false
namespace Xlrd
open Spec

/-! ## Only `release_resources` releases -/

theorem sheetByIndex_released (env : OpenEnv) (l : Lib) (i : Int) : (sheetByIndex env l i).2.released = l.released := by
  unfold sheetByIndex
  cases idx l.sheetList i with
  | error e => rfl
  | ok x =>
    cases x with
    | some sh => rfl
    | none =>
      simp only
      cases hg : getSheet env l i with
      | error e =>
        simp only
        by_cases hr : l.released = true
        · rw [if_pos hr]
        · rw [if_neg hr]; rfl
      | ok x =>
        simp only
        unfold getSheet at hg
        by_cases hr : l.released = true
        · rw [if_pos hr] at hg; cases hg
        · rw [if_neg hr] at hg
          obtain ⟨sh, _, hg⟩ := bind_ok hg
          obtain ⟨sl, _, hg⟩ := bind_ok hg
          cases hg
          rfl

theorem sheetByName_released (env : OpenEnv) (l : Lib) (s : PyStr) : (sheetByName env l s).2.released = l.released := by
  unfold sheetByName
  cases nameIndex s l.book.sheetNames with
  | none => rfl
  | some n => exact sheetByIndex_released env l _

theorem loadAll_released (env : OpenEnv) (m : Nat) : ∀ (l : Lib) (a : Nat), (loadAll env m a l).2.released = l.released := by
  induction m with
  | zero => intro l a; rfl
  | succ m ih =>
    intro l a
    have h1 := sheetByIndex_released env l (a : Int)
    unfold loadAll
    rcases hz : sheetByIndex env l (a : Int) with ⟨r, l1⟩
    rw [hz] at h1
    cases r with
    | error e => exact h1
    | ok sh => exact (ih l1 (a + 1)).trans h1

theorem libCall_released (env : OpenEnv) (l : Lib) (c : Call) (hc : c ≠ .release) : (libCall env l c).2.released = l.released := by
  cases c with
  | byIndex n => exact sheetByIndex_released env l n
  | byName x => exact sheetByName_released env l x
  | item k =>
    cases k with
    | index n => exact sheetByIndex_released env l n
    | name x => exact sheetByName_released env l x
  | loaded k => rfl
  | unload k =>
    simp only [libCall, unloadSheet]
    cases keyIndex l k with
    | error e => rfl
    | ok n => simp only; cases setIdx l.sheetList n none <;> rfl
  | release => exact absurd rfl hc
  | sheets =>
    have h1 := loadAll_released env l.sheetList.length l 0
    simp only [libCall, bookSheets]
    rcases hz : loadAll env l.sheetList.length 0 l with ⟨r, l1⟩
    rw [hz] at h1
    cases r <;> exact h1
  | names => rfl

/-! ## A request -/

/-- What a request gives is the sheet of that number, or the exception that reading it raises, while the book holds some countries. -/
def ReadAs (env : OpenEnv) (l : Lib) (m : Nat) (o : Out) : Prop := ∃ c, o.Alike (.item (readSheet env (l.withCountries c) (m : Int)))

theorem ask_read {env : OpenEnv} {l0 l : Lib} (hp : l0.Parallel) (h : Held env l0 l) (hr : l.released = false) {m : Nat} (hm : m < l0.book.sheetNames.length) :
    ReadAs env l0 m (.item (sheetByIndex env l (m : Int)).1) := by
  have hno : (l0.file env).sheetNo (m : Int) = some m := sheetNo_nat (f := l0.file env) hm
  cases hx : (sheetByIndex env l (m : Int)).1 with
  | ok sh =>
    obtain ⟨k, c, x, h1, h2, h3⟩ := (held_ask hp h (m : Int)).2 sh hx
    rw [hno] at h1
    cases h1
    refine ⟨c, ?_⟩
    rw [h2]
    exact ⟨sh.number, h3⟩
  | error e =>
    obtain ⟨c, hc⟩ := readSheet_held h
    refine ⟨c, ?_⟩
    rw [← hc]
    have hml : m < l.sheetList.length := by rw [h.len]; exact hm
    unfold sheetByIndex at hx
    cases hs : l.sheetList[m]? with
    | none => rw [List.getElem?_eq_getElem hml] at hs; cases hs
    | some y =>
      rw [(idx_ok_nat _ _ _).mpr hs] at hx
      cases y with
      | some sh => cases hx
      | none =>
        simp only [getSheet] at hx
        rw [if_neg (by rw [hr]; simp)] at hx
        cases hrd : readSheet env l (m : Int) with
        | error e' => rw [hrd] at hx; cases hx; rfl
        | ok sh =>
          rw [hrd] at hx
          simp only [bind, Except.bind] at hx
          rw [setIdx_sheetNo (f := l0.file env) _ h.len, hno] at hx
          cases hx

/-- Where an iterator is after `m` requests, all of which gave a sheet unless `bad`. -/
def IterAt (n m : Nat) (bad : Bool) (it : BookIter) : Prop :=
  if bad then it = .done else m ≤ n ∧ it = if m = 0 then .fresh else .going m n

theorem next_at {env : OpenEnv} {l0 l : Lib} (hp : l0.Parallel) (h : Held env l0 l) (hr : l.released = false) (its : Nat → BookIter) (j m : Nat) (bad : Bool)
    (hj : IterAt l0.book.sheetNames.length m bad (its j)) :
    (if bad = false ∧ m < l0.book.sheetNames.length then ReadAs env l0 m (bookStep env l its (.next j)).1 else (bookStep env l its (.next j)).1 = .stop) ∧
    IterAt l0.book.sheetNames.length (m + 1) (match (bookStep env l its (.next j)).1 with | .item (.ok _) => false | _ => true) ((bookStep env l its (.next j)).2.2 j) ∧
    Held env l0 (bookStep env l its (.next j)).2.1 ∧ (bookStep env l its (.next j)).2.1.released = false := by
  unfold bookStep
  simp only
  cases bad with
  | true =>
    have hd : its j = .done := by simpa [IterAt] using hj
    rw [hd]
    simp only [iterNext]
    exact ⟨by simp, by simp [IterAt], h, hr⟩
  | false =>
    have hd : m ≤ l0.book.sheetNames.length ∧ its j = if m = 0 then .fresh else .going m l0.book.sheetNames.length := by simpa [IterAt] using hj
    have hgo : iterNext env l (its j) = iterGo env l m l0.book.sheetNames.length := by
      rw [hd.2]
      by_cases h0 : m = 0
      · subst h0
        rw [if_pos rfl]
        simp only [iterNext]
        rw [h.len]
      · rw [if_neg h0]; rfl
    rw [hgo]
    unfold iterGo
    by_cases hm : m < l0.book.sheetNames.length
    · rw [if_pos hm]
      have h1 := ask_read hp h hr hm
      have h2 := (held_ask hp h (m : Int)).1
      have h3 := (sheetByIndex_released env l (m : Int)).trans hr
      rcases hz : sheetByIndex env l (m : Int) with ⟨r, l1⟩
      rw [hz] at h1 h2 h3
      cases r with
      | error e =>
        refine ⟨?_, ?_, h2, h3⟩
        · rw [if_pos ⟨rfl, hm⟩]; exact h1
        · simp [IterAt]
      | ok sh =>
        refine ⟨?_, ?_, h2, h3⟩
        · rw [if_pos ⟨rfl, hm⟩]; exact h1
        · simp only [if_true]
          unfold IterAt
          rw [if_neg (by simp)]
          exact ⟨hm, by rw [if_neg (by omega)]⟩
    · rw [if_neg hm]
      refine ⟨?_, ?_, h, hr⟩
      · rw [if_neg (fun hx => hm hx.2)]
      · simp [IterAt]

/-- All requests to iterator `j` among the first `q` steps gave a sheet. -/
def AllGiven (j : Nat) (st : List Step) (outs : List Out) (q : Nat) : Prop :=
  ∀ q' < q, st[q']? = some (.next j) → ∃ sh, outs[q']? = some (.item (.ok sh))

open Classical in
theorem run_on_demand {env : OpenEnv} {l0 : Lib} (hp : l0.Parallel) (st : List Step) : ∀ {l : Lib} (its : Nat → BookIter) (cnt : Nat → Nat) (bad : Nat → Bool),
    Held env l0 l → l.released = false → NoRelease st → (∀ j, IterAt l0.book.sheetNames.length (cnt j) (bad j) (its j)) →
    ∀ (q j : Nat), st[q]? = some (.next j) → ∃ o, (bookSteps env l its st)[q]? = some o ∧
      if bad j = false ∧ cnt j + requests j (st.take q) < l0.book.sheetNames.length ∧ AllGiven j st (bookSteps env l its st) q then
        ReadAs env l0 (cnt j + requests j (st.take q)) o
      else o = .stop := by
  induction st with
  | nil => intro l its cnt bad _ _ _ _ q j hq; simp at hq
  | cons a st ih =>
    intro l its cnt bad hh hr hst hi q j hq
    have hst' : NoRelease st := fun hm => hst (List.mem_cons_of_mem _ hm)
    cases q with
    | zero =>
      simp only [List.getElem?_cons_zero, Option.some.injEq] at hq
      subst hq
      refine ⟨_, rfl, ?_⟩
      have h1 := (next_at hp hh hr its j (cnt j) (bad j) (hi j)).1
      simp only [List.take_zero, requests, Nat.add_zero]
      by_cases c : bad j = false ∧ cnt j < l0.book.sheetNames.length
      · rw [if_pos c] at h1
        rw [if_pos ⟨c.1, c.2, fun q' hq' => absurd hq' (by omega)⟩]
        exact h1
      · rw [if_neg c] at h1
        rw [if_neg (fun hx => c ⟨hx.1, hx.2.1⟩)]
        exact h1
    | succ q =>
      simp only [List.getElem?_cons_succ] at hq
      cases a with
      | call c =>
        have hc : c ≠ .release := by rintro rfl; exact hst (List.mem_cons_self)
        obtain ⟨o, ho, hx⟩ := ih (l := (libCall env l c).2) its cnt bad (held_call hp hh c) ((libCall_released env l c hc).trans hr) hst' hi q j hq
        refine ⟨o, ho, ?_⟩
        have hg : AllGiven j (.call c :: st) (bookSteps env l its (.call c :: st)) (q + 1) ↔ AllGiven j st (bookSteps env (libCall env l c).2 its st) q := by
          constructor
          · intro h q' hq' hs
            exact h (q' + 1) (by omega) hs
          · intro h q' hq' hs
            cases q' with
            | zero => cases hs
            | succ q' => exact h q' (by omega) hs
        simp only [List.take_succ_cons, requests]
        simp only [hg]
        exact hx
      | next i =>
        obtain ⟨_, h2, h3, h4⟩ := next_at hp hh hr its i (cnt i) (bad i) (hi i)
        have hits : ∀ k, k ≠ i → (bookStep env l its (.next i)).2.2 k = its k := fun k hk => by
          unfold bookStep; simp only; rw [if_neg hk]
        obtain ⟨o, ho, hx⟩ := ih (l := (bookStep env l its (.next i)).2.1) (bookStep env l its (.next i)).2.2 (fun k => if k = i then cnt i + 1 else cnt k)
          (fun k => if k = i then (match (bookStep env l its (.next i)).1 with | .item (.ok _) => false | _ => true) else bad k) h3 h4 hst' (by
            intro k
            by_cases hk : k = i
            · subst hk; simp only [if_true]; exact h2
            · simp only [if_neg hk]; rw [hits k hk]; exact hi k) q j hq
        refine ⟨o, ho, ?_⟩
        simp only [List.take_succ_cons, requests]
        by_cases hk : j = i
        · subst hk
          simp only [if_true] at hx ⊢
          rw [show cnt j + (1 + requests j (st.take q)) = cnt j + 1 + requests j (st.take q) by omega]
          have hbad : (match (bookStep env l its (.next j)).1 with | .item (.ok _) => false | _ => true) = false → bad j = false := by
            intro hb
            by_contra hc
            have hc : bad j = true := by simpa using hc
            have h1 := (next_at hp hh hr its j (cnt j) (bad j) (hi j)).1
            rw [if_neg (fun hx => by rw [hc] at hx; cases hx.1)] at h1
            rw [h1] at hb
            cases hb
          have hg : ((match (bookStep env l its (.next j)).1 with | .item (.ok _) => false | _ => true) = false ∧
                AllGiven j st (bookSteps env (bookStep env l its (.next j)).2.1 (bookStep env l its (.next j)).2.2 st) q) ↔
              (bad j = false ∧ AllGiven j (.next j :: st) (bookSteps env l its (.next j :: st)) (q + 1)) := by
            constructor
            · rintro ⟨hb, hg⟩
              refine ⟨hbad hb, ?_⟩
              intro q' hq' hs
              cases q' with
              | zero =>
                cases ho0 : (bookStep env l its (.next j)).1 with
                | reply r => rw [ho0] at hb; cases hb
                | stop => rw [ho0] at hb; cases hb
                | item r =>
                  cases r with
                  | error e => rw [ho0] at hb; cases hb
                  | ok sh => exact ⟨sh, by simp only [bookSteps, List.getElem?_cons_zero, ho0]⟩
              | succ q' => exact hg q' (by omega) hs
            · rintro ⟨hb, hg⟩
              refine ⟨?_, fun q' hq' hs => hg (q' + 1) (by omega) hs⟩
              obtain ⟨sh, hsh⟩ := hg 0 (by omega) rfl
              simp only [bookSteps, List.getElem?_cons_zero, Option.some.injEq] at hsh
              rw [hsh]
          by_cases c : bad j = false ∧ cnt j + 1 + requests j (st.take q) < l0.book.sheetNames.length ∧
              AllGiven j (.next j :: st) (bookSteps env l its (.next j :: st)) (q + 1)
          · rw [if_pos c]
            have := hg.mpr ⟨c.1, c.2.2⟩
            rw [if_pos ⟨this.1, c.2.1, this.2⟩] at hx
            exact hx
          · rw [if_neg c]
            rw [if_neg (fun hy => c ⟨(hg.mp ⟨hy.1, hy.2.2⟩).1, hy.2.1, (hg.mp ⟨hy.1, hy.2.2⟩).2⟩)] at hx
            exact hx
        · have hg : AllGiven j (.next i :: st) (bookSteps env l its (.next i :: st)) (q + 1) ↔
              AllGiven j st (bookSteps env (bookStep env l its (.next i)).2.1 (bookStep env l its (.next i)).2.2 st) q := by
            constructor
            · intro h q' hq' hs
              exact h (q' + 1) (by omega) hs
            · intro h q' hq' hs
              cases q' with
              | zero =>
                simp only [List.getElem?_cons_zero, Option.some.injEq, Step.next.injEq] at hs
                exact absurd hs.symm hk
              | succ q' => exact h q' (by omega) hs
          rw [if_neg hk] at hx
          simp only [if_neg hk] at hx
          have e0 : (if i = j then 1 else 0) = 0 := if_neg (fun e => hk e.symm)
          simp only [e0, Nat.zero_add, hg]
          exact hx

open Classical in
/-- C82: a program uses a book opened on demand, with any number of iterators over it and any calls in between, except `release_resources`.  As long as an iterator has
given a sheet each time, its `m`-th request gives the `m`-th sheet of the file, or the exception that reading it raises; after the last sheet or an exception it is at its end.
(Reading a sheet can depend on the countries that the book holds at the time, see `C41_conflicting_countries`.) -/
theorem C82_on_demand (env : OpenEnv) (mem : Bytes) (base : Int) (v : Nat) (p : Int) (l : Lib) (hv : firstBof mem base = .ok (v, p)) (h50 : 50 ≤ v)
    (hd : env.onDemand = true) (h : openStream env mem base = .ok l) (st : List Step) (hst : NoRelease st) (q j : Nat) (hq : st[q]? = some (.next j)) :
    ∃ o, (bookSteps env l (fun _ => .fresh) st)[q]? = some o ∧
      if requests j (st.take q) < l.book.sheetNames.length ∧ AllGiven j st (bookSteps env l (fun _ => .fresh) st) q then
        ReadAs env l (requests j (st.take q)) o
      else o = .stop := by
  obtain ⟨b, q0, hg, ho⟩ := openStream_new hv h50 h
  obtain ⟨h1, h2, _⟩ := C43_parallel _ _ _ _ _ _ _ hg
  unfold openSheets at ho
  rw [if_pos hd] at ho
  cases ho
  have := run_on_demand (env := env) (l0 := ⟨v, b, mem, List.replicate b.sheetNames.length none, false⟩) ⟨h1, h2⟩ st (fun _ => .fresh) (fun _ => 0) (fun _ => false)
    (held_fresh rfl) rfl hst (fun j => by simp [IterAt]) q j hq
  simpa using this

end Xlrd
