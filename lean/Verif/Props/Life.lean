import Verif.Props.Open

/-!
# The life of a book (C41, C42)

Any sequence of the calls that load, unload and look up sheets gives the replies that `Spec.File.calls` says, both after opening
on demand and after opening with all sheets.
-/
set_option linter.unusedSimpArgs false
namespace Xlrd
open Spec

/-- A call on a book. -/
def libCall (env : OpenEnv) (l : Lib) : Call → Reply × Lib
  | .byIndex n => ((Reply.sheet (sheetByIndex env l n).1), (sheetByIndex env l n).2)
  | .byName s => ((Reply.sheet (sheetByName env l s).1), (sheetByName env l s).2)
  | .item k => ((Reply.sheet (bookItem env l k).1), (bookItem env l k).2)
  | .loaded k => (.flag (sheetLoaded l k), l)
  | .unload k => ((Reply.done (unloadSheet l k).1), (unloadSheet l k).2)
  | .release => (.done (.ok ()), releaseResources l)
  | .sheets => ((Reply.all (bookSheets env l).1), (bookSheets env l).2)
  | .names => (.names l.book.sheetNames, l)

/-- A sequence of calls on a book: the replies and the book. -/
def libCalls (env : OpenEnv) (l : Lib) : List Call → List Reply × Lib
  | [] => ([], l)
  | c :: cs => ((libCall env l c).1 :: (libCalls env (libCall env l c).2 cs).1, (libCalls env (libCall env l c).2 cs).2)

/-- The file behind a book: what reading each sheet gives. -/
def Lib.file (env : OpenEnv) (l : Lib) : File := ⟨l.book.sheetNames, fun k => readSheet env l (k : Int)⟩

/-- The lists about the sheets go together (this is what C43 shows of every book). -/
structure Lib.Parallel (l : Lib) : Prop where
  posn : l.book.shAbsPosn.length = l.book.sheetNames.length
  vis : l.book.sheetVisibility.length = l.book.sheetNames.length

/-- Reading a sheet leaves the countries of the book as they are. -/
def Lib.Steady (env : OpenEnv) (l : Lib) : Prop := ∀ k : Nat, k < l.book.sheetNames.length → leftCountries env l (k : Int) = l.book.countries

/-- Between the book and what has happened to it. -/
structure Sim (env : OpenEnv) (f : File) (l : Lib) (s : Life) : Prop where
  names : l.book.sheetNames = f.names
  whole : l.released = false → (l.Parallel ∧ l.Steady env) ∧ l.file env = f
  rel : l.released = s.released
  len : l.sheetList.length = f.names.length
  cell : ∀ (k : Nat), k < f.names.length → l.sheetList[k]? = some ((s.loaded k).bind fun n => (f.content k).toOption.map fun sh => { sh with number := n })
  good : ∀ (k : Nat) (n : Int), s.loaded k = some n → ∃ sh, f.content k = .ok sh

theorem nameIndex_eq (s : PyStr) (l : List PyStr) : nameIndex s l = if s ∈ l then some (l.idxOf s) else none := by
  induction l with
  | nil => rfl
  | cons x xs ih =>
    unfold nameIndex
    by_cases h : x = s
    · subst h; rw [if_pos rfl, if_pos (by simp), List.idxOf_cons_self]
    · rw [if_neg h, ih, List.idxOf_cons_ne _ h]
      by_cases hm : s ∈ xs
      · rw [if_pos hm, if_pos (by simp [hm])]; rfl
      · rw [if_neg hm, if_neg (by simp [hm, Ne.symm h])]; rfl

theorem sheetNo_lt {f : File} {i : Int} {k : Nat} (h : f.sheetNo i = some k) : k < f.names.length := by
  unfold File.sheetNo at h
  split_ifs at h with a b <;> simp at h <;> omega

theorem sheetNo_nat {f : File} {k : Nat} (h : k < f.names.length) : f.sheetNo (k : Int) = some k := by
  unfold File.sheetNo
  rw [if_pos ⟨by omega, by exact_mod_cast h⟩]; simp

theorem idx_sheetNo {α : Type} {f : File} (l : List α) (h : l.length = f.names.length) (i : Int) :
    idx l i = match f.sheetNo i with
      | none => .error .index
      | some k => idx l (k : Int) := by
  unfold File.sheetNo
  by_cases c1 : 0 ≤ i ∧ i < f.names.length
  · rw [if_pos c1]; simp only
    rw [show ((i.toNat : Nat) : Int) = i by omega]
  · rw [if_neg c1]
    by_cases c2 : i < 0 ∧ 0 ≤ i + f.names.length
    · rw [if_pos c2]; simp only
      unfold idx
      simp only [if_pos c2.1]
      rw [h, if_neg (by omega), if_neg (by omega), if_neg (by omega)]
      rfl
    · rw [if_neg c2]; simp only
      unfold idx
      simp only
      by_cases c3 : i < 0
      · rw [if_pos c3, if_pos (by omega)]
      · rw [if_neg c3, if_neg c3, List.getElem?_eq_none (by omega)]

theorem setIdx_sheetNo {α : Type} {f : File} (l : List α) (h : l.length = f.names.length) (i : Int) (x : α) :
    setIdx l i x = match f.sheetNo i with
      | none => .error .index
      | some k => .ok (l.set k x) := by
  unfold File.sheetNo setIdx
  simp only
  by_cases c1 : 0 ≤ i ∧ i < f.names.length
  · rw [if_pos c1]; simp only
    rw [if_neg (show ¬ i < 0 by omega), if_neg (by omega), if_pos (by omega)]
  · rw [if_neg c1]
    by_cases c2 : i < 0 ∧ 0 ≤ i + f.names.length
    · rw [if_pos c2]; simp only
      rw [if_pos c2.1, h, if_neg (by omega), if_pos (by omega)]
    · rw [if_neg c2]; simp only
      by_cases c3 : i < 0
      · rw [if_pos c3, if_pos (by omega)]
      · rw [if_neg c3, if_neg c3, if_neg (by omega)]

theorem sheetStart_no {env : OpenEnv} {l : Lib} (hp : l.Parallel) {i : Int} {k : Nat} (h : (l.file env).sheetNo i = some k) :
    sheetStart l i = sheetStart l (k : Int) := by
  have e : ∀ {α : Type} (x : List α), x.length = l.book.sheetNames.length → idx x i = idx x (k : Int) := by
    intro α x hx
    rw [idx_sheetNo (f := l.file env) x hx i, h]
  unfold sheetStart
  rw [e _ hp.posn, e _ rfl, e _ hp.vis]

/-- Reading a sheet by a negative index is reading the sheet it stands for, except for its number. -/
theorem readSheet_no {env : OpenEnv} {l : Lib} (hp : l.Parallel) {i : Int} {k : Nat} (h : (l.file env).sheetNo i = some k) :
    readSheet env l i = (readSheet env l (k : Int)).map fun sh => { sh with number := i } := by
  unfold readSheet
  rw [sheetStart_no hp h]
  simp only [bind, Except.bind]
  cases sheetStart l (k : Int) with
  | error _ => rfl
  | ok q =>
    simp only
    cases sheetRead (env.sheetEnv l.bv l.book) l.mem q.1 <;> rfl

theorem leftCountries_no {env : OpenEnv} {l : Lib} (hp : l.Parallel) {i : Int} {k : Nat} (h : (l.file env).sheetNo i = some k) :
    leftCountries env l i = leftCountries env l (k : Int) := by
  unfold leftCountries
  rw [sheetStart_no hp h]

theorem left_steady {env : OpenEnv} {l : Lib} (hp : l.Parallel) (hs : l.Steady env) {i : Int} {k : Nat} (h : (l.file env).sheetNo i = some k) :
    l.left env i = l := by
  unfold Lib.left Lib.withCountries
  rw [leftCountries_no hp h, hs k (sheetNo_lt h)]

/-- `sheet_by_index` -/
theorem sim_ask {env : OpenEnv} {f : File} {l : Lib} {s : Life} (h : Sim env f l s) (i : Int) :
    (sheetByIndex env l i).1 = (f.ask s i).1 ∧ Sim env f (sheetByIndex env l i).2 (f.ask s i).2 := by
  unfold sheetByIndex File.ask
  rw [idx_sheetNo (f := f) _ h.len i]
  cases hk : f.sheetNo i with
  | none => exact ⟨rfl, h⟩
  | some k =>
    simp only
    have hkl := sheetNo_lt hk
    have hc := h.cell k hkl
    rw [(idx_ok_nat _ _ _).mpr hc]
    cases hl : s.loaded k with
    | some n =>
      obtain ⟨sh, hsh⟩ := h.good k n hl
      rw [hl, hsh] at *
      exact ⟨rfl, h⟩
    | none =>
      simp only [Option.bind_none]
      unfold getSheet
      rw [h.rel]
      by_cases hr : s.released = true
      · rw [if_pos hr, if_pos hr]; simp only [if_pos hr]; exact ⟨trivial, h⟩
      · obtain ⟨⟨hpar, hst⟩, hfile⟩ := h.whole (by rw [h.rel]; simpa using hr)
        rw [left_steady hpar hst (hfile ▸ hk)]
        simp only [if_neg hr]
        rw [readSheet_no hpar (i := i) (k := k) (hfile ▸ hk)]
        have hset : ∀ x, setIdx l.sheetList i x = .ok (l.sheetList.set k x) := fun x => by rw [setIdx_sheetNo (f := f) _ h.len, hk]
        have hcont : f.content k = readSheet env l (k : Int) := by rw [← hfile]; rfl
        rw [← hcont]
        cases hcv : f.content k with
        | error e => simp only [Except.map, bind, Except.bind, if_neg hr]; exact ⟨trivial, h⟩
        | ok sh =>
          simp only [Except.map, bind, Except.bind]
          rw [hset]
          simp only [pure, Except.pure]
          refine ⟨trivial, ⟨h.names, fun _ => ⟨⟨⟨hpar.posn, hpar.vis⟩, hst⟩, hfile⟩, h.rel, ?_, ?_, ?_⟩⟩
          · exact (List.length_set ..).trans h.len
          · intro j hj
            simp only
            by_cases hjk : j = k
            · subst hjk
              rw [if_pos rfl, hcv]
              simp [List.getElem?_set, h.len, hj, Except.toOption]
            · rw [if_neg hjk, List.getElem?_set_ne (Ne.symm hjk)]
              exact h.cell j hj
          · intro j n hn
            simp only at hn
            by_cases hjk : j = k
            · subst hjk; exact ⟨sh, hcv⟩
            · rw [if_neg hjk] at hn; exact h.good j n hn

theorem sim_keyNo {env : OpenEnv} {f : File} {l : Lib} {s : Life} (h : Sim env f l s) (k : SheetKey) : keyIndex l k = f.keyNo k := by
  have hn := h.names
  cases k with
  | index n => rfl
  | name x =>
    simp only [keyIndex, File.keyNo]
    rw [nameIndex_eq, hn]
    split_ifs <;> rfl

theorem ask_no {f : File} {s : Life} {i : Int} {k : Nat} {sh : LSheet} {s' : Life} (h : f.ask s i = (.ok sh, s')) (hk : f.sheetNo i = some k) :
    ∃ n c, s'.loaded k = some n ∧ f.content k = .ok c ∧ sh = { c with number := n } := by
  unfold File.ask at h
  rw [hk] at h
  simp only at h
  cases hl : s.loaded k with
  | some n =>
    rw [hl] at h
    simp only [Prod.mk.injEq] at h
    obtain ⟨h1, rfl⟩ := h
    cases hc : f.content k with
    | error e => rw [hc] at h1; cases h1
    | ok c =>
      rw [hc] at h1
      exact ⟨n, c, hl, rfl, by cases h1; rfl⟩
  | none =>
    rw [hl] at h
    simp only at h
    by_cases hr : s.released = true
    · rw [if_pos hr] at h; cases h
    · rw [if_neg hr] at h
      cases hc : f.content k with
      | error e => rw [hc] at h; cases h
      | ok c =>
        rw [hc] at h
        simp only [Prod.mk.injEq, Except.ok.injEq] at h
        obtain ⟨rfl, rfl⟩ := h
        exact ⟨i, c, by simp, rfl, rfl⟩

theorem ask_keeps {f : File} {s : Life} {i : Int} {k : Nat} {n : Int} (h : s.loaded k = some n) : (f.ask s i).2.loaded k = some n := by
  unfold File.ask
  cases hk : f.sheetNo i with
  | none => exact h
  | some j =>
    simp only
    cases hl : s.loaded j with
    | some m => exact h
    | none =>
      simp only
      by_cases hr : s.released = true
      · rw [if_pos hr]; exact h
      · rw [if_neg hr]
        cases f.content j with
        | error e => exact h
        | ok c =>
          simp only
          rw [if_neg (by rintro rfl; rw [h] at hl; cases hl)]
          exact h

theorem askAll_keeps {f : File} (m : Nat) : ∀ {s : Life} {a k : Nat} {n : Int}, s.loaded k = some n → (f.askAll m a s).2.loaded k = some n := by
  induction m with
  | zero => intro s a k n h; exact h
  | succ m ih =>
    intro s a k n h
    have h1 := ask_keeps (f := f) (i := (a : Int)) h
    unfold File.askAll
    rcases hx : f.ask s (a : Int) with ⟨r, s'⟩
    rw [hx] at h1
    cases r with
    | error e => exact h1
    | ok sh =>
      simp only
      have h2 := ih (a := a + 1) h1
      rcases hy : f.askAll m (a + 1) s' with ⟨r2, s2⟩
      rw [hy] at h2
      cases r2 <;> exact h2

/-- What `askAll` returns is what is loaded afterwards. -/
theorem askAll_list {f : File} (m : Nat) : ∀ {s s' : Life} {a : Nat} {l : List LSheet}, a + m ≤ f.names.length → f.askAll m a s = (.ok l, s') →
    l.length = m ∧ ∀ (j : Nat), j < m → ∃ n c, s'.loaded (a + j) = some n ∧ f.content (a + j) = .ok c ∧ l[j]? = some { c with number := n } := by
  induction m with
  | zero => intro s s' a l _ h; cases h; exact ⟨rfl, fun j hj => absurd hj (by omega)⟩
  | succ m ih =>
    intro s s' a l hm h
    unfold File.askAll at h
    rcases hx : f.ask s (a : Int) with ⟨r, s1⟩
    rw [hx] at h
    cases r with
    | error e => cases h
    | ok sh =>
      simp only at h
      rcases hy : f.askAll m (a + 1) s1 with ⟨r2, s2⟩
      rw [hy] at h
      cases r2 with
      | error e => cases h
      | ok l2 =>
        simp only [Prod.mk.injEq, Except.ok.injEq] at h
        obtain ⟨rfl, rfl⟩ := h
        obtain ⟨h1, h2⟩ := ih (by omega) hy
        refine ⟨by simp [h1], ?_⟩
        intro j hj
        cases j with
        | zero =>
          obtain ⟨n, c, e1, e2, e3⟩ := ask_no hx (sheetNo_nat (by omega))
          refine ⟨n, c, ?_, by simpa using e2, by simp [e3]⟩
          have := askAll_keeps (f := f) m (a := a + 1) e1
          rw [hy] at this
          simpa using this
        | succ j =>
          obtain ⟨n, c, e1, e2, e3⟩ := h2 j (by omega)
          rw [show a + 1 + j = a + (j + 1) by omega] at e1 e2
          exact ⟨n, c, e1, e2, by simpa using e3⟩

theorem sim_loadAll {env : OpenEnv} {f : File} (m : Nat) : ∀ {l : Lib} {s : Life} (a : Nat), Sim env f l s →
    (loadAll env m a l).1 = ((f.askAll m a s).1.map fun _ => ()) ∧ Sim env f (loadAll env m a l).2 (f.askAll m a s).2 := by
  induction m with
  | zero => intro l s a h; exact ⟨rfl, h⟩
  | succ m ih =>
    intro l s a h
    obtain ⟨h1, h2⟩ := sim_ask h (a : Int)
    unfold loadAll File.askAll
    rcases hx : f.ask s (a : Int) with ⟨r, s1⟩
    rcases hz : sheetByIndex env l (a : Int) with ⟨r', l1⟩
    rw [hx, hz] at h1 h2
    simp only at h1 h2
    subst h1
    cases r' with
    | error e => exact ⟨rfl, h2⟩
    | ok sh =>
      simp only
      obtain ⟨h3, h4⟩ := ih (a + 1) h2
      rcases hy : f.askAll m (a + 1) s1 with ⟨r2, s2⟩
      rw [hy] at h3 h4
      cases r2 with
      | error e => exact ⟨h3, h4⟩
      | ok l2 => exact ⟨h3, h4⟩

theorem sim_sheets {env : OpenEnv} {f : File} {l : Lib} {s : Life} (h : Sim env f l s) :
    (bookSheets env l).1 = (f.askAll f.names.length 0 s).1.map (·.map some) ∧ Sim env f (bookSheets env l).2 (f.askAll f.names.length 0 s).2 := by
  unfold bookSheets
  rw [h.len]
  obtain ⟨h1, h2⟩ := sim_loadAll (env := env) f.names.length 0 h
  rcases hx : f.askAll f.names.length 0 s with ⟨r, s1⟩
  rcases hz : loadAll env f.names.length 0 l with ⟨r', l1⟩
  rw [hx, hz] at h1 h2
  simp only at h1 h2
  subst h1
  cases r with
  | error e => exact ⟨rfl, h2⟩
  | ok xs =>
    simp only [Except.map] at h2 ⊢
    refine ⟨?_, h2⟩
    refine congrArg Except.ok ?_
    obtain ⟨hl, hs⟩ := askAll_list f.names.length (a := 0) (by omega) hx
    apply List.ext_getElem?
    intro j
    by_cases hj : j < f.names.length
    · obtain ⟨n, c, e1, e2, e3⟩ := hs j hj
      rw [Nat.zero_add] at e1 e2
      rw [h2.cell j hj, e1, e2, List.getElem?_map, e3]
      rfl
    · rw [List.getElem?_eq_none (by rw [h2.len]; omega), List.getElem?_eq_none (by simp; omega)]

theorem sim_name {env : OpenEnv} {f : File} {l : Lib} {s : Life} (h : Sim env f l s) (x : PyStr) :
    (Reply.sheet (sheetByName env l x).1) = (f.call s (.byName x)).1 ∧ Sim env f (sheetByName env l x).2 (f.call s (.byName x)).2 := by
  have hn := h.names
  simp only [sheetByName, File.call]
  rw [nameIndex_eq, hn]
  by_cases hm : x ∈ f.names
  · rw [if_pos hm, if_pos hm]
    obtain ⟨h1, h2⟩ := sim_ask h (f.names.idxOf x : Int)
    exact ⟨congrArg Reply.sheet h1, h2⟩
  · rw [if_neg hm, if_neg hm]; exact ⟨rfl, h⟩

/-- One call. -/
theorem sim_call {env : OpenEnv} {f : File} {l : Lib} {s : Life} (h : Sim env f l s) (c : Call) :
    (libCall env l c).1 = (f.call s c).1 ∧ Sim env f (libCall env l c).2 (f.call s c).2 := by
  have hn := h.names
  cases c with
  | byIndex n =>
    obtain ⟨h1, h2⟩ := sim_ask h n
    exact ⟨congrArg Reply.sheet h1, h2⟩
  | byName x => exact sim_name h x
  | item k =>
    cases k with
    | index n =>
      obtain ⟨h1, h2⟩ := sim_ask h n
      exact ⟨congrArg Reply.sheet h1, h2⟩
    | name x => exact sim_name h x
  | loaded k =>
    simp only [libCall, File.call, sheetLoaded]
    rw [sim_keyNo h]
    cases hk : f.keyNo k with
    | error e => exact ⟨rfl, h⟩
    | ok n =>
      simp only [bind, Except.bind]
      rw [idx_sheetNo (f := f) _ h.len]
      cases hj : f.sheetNo n with
      | none => exact ⟨rfl, h⟩
      | some j =>
        simp only
        rw [(idx_ok_nat _ _ _).mpr (h.cell j (sheetNo_lt hj))]
        refine ⟨?_, h⟩
        cases hl : s.loaded j with
        | none => rfl
        | some m =>
          obtain ⟨sh, hsh⟩ := h.good j m hl
          rw [hsh]; rfl
  | unload k =>
    simp only [libCall, File.call, unloadSheet]
    rw [sim_keyNo h]
    cases hk : f.keyNo k with
    | error e => exact ⟨rfl, h⟩
    | ok n =>
      simp only
      rw [setIdx_sheetNo (f := f) _ h.len]
      cases hj : f.sheetNo n with
      | none => exact ⟨rfl, h⟩
      | some j =>
        refine ⟨rfl, ⟨h.names, fun hr => ⟨⟨⟨(h.whole hr).1.1.posn, (h.whole hr).1.1.vis⟩, (h.whole hr).1.2⟩, (h.whole hr).2⟩, h.rel, (List.length_set ..).trans h.len, ?_, ?_⟩⟩
        · intro i hi
          simp only
          by_cases hij : i = j
          · subst hij
            rw [if_pos rfl]
            simp [List.getElem?_set, h.len, hi]
          · rw [if_neg hij, List.getElem?_set_ne (Ne.symm hij)]
            exact h.cell i hi
        · intro i m hm
          simp only at hm
          by_cases hij : i = j
          · rw [if_pos hij] at hm; cases hm
          · rw [if_neg hij] at hm; exact h.good i m hm
  | release => exact ⟨rfl, ⟨h.names, fun hr => (by cases hr), rfl, h.len, h.cell, h.good⟩⟩
  | sheets =>
    obtain ⟨h1, h2⟩ := sim_sheets h
    exact ⟨congrArg Reply.all h1, h2⟩
  | names => exact ⟨congrArg Reply.names hn, h⟩

theorem sim_calls {env : OpenEnv} {f : File} (cs : List Call) : ∀ {l : Lib} {s : Life}, Sim env f l s →
    (libCalls env l cs).1 = (f.calls s cs).1 ∧ Sim env f (libCalls env l cs).2 (f.calls s cs).2 := by
  induction cs with
  | nil => intro l s h; exact ⟨rfl, h⟩
  | cons c cs ih =>
    intro l s h
    obtain ⟨h1, h2⟩ := sim_call h c
    obtain ⟨h3, h4⟩ := ih h2
    unfold libCalls File.calls
    exact ⟨by rw [h1, h3], h4⟩

/-! ## C41 -/

theorem openStream_new {env : OpenEnv} {mem : Bytes} {base : Int} {v : Nat} {p : Int} {l : Lib}
    (hv : firstBof mem base = .ok (v, p)) (h50 : 50 ≤ v) (h : openStream env mem base = .ok l) :
    ∃ b q, parseGlobals (env.bookEnv v base) mem newBook p = .ok (b, q) ∧
      openSheets env ⟨v, b, mem, List.replicate b.sheetNames.length none, false⟩ = .ok l := by
  unfold openStream at h
  rw [hv] at h
  simp only [bind, Except.bind] at h
  rw [if_neg (by omega)] at h
  cases hg : parseGlobals (env.bookEnv v base) mem newBook p with
  | error e => rw [hg] at h; cases h
  | ok x =>
    rw [hg] at h
    simp only at h
    rw [if_neg (by omega)] at h
    exact ⟨x.1, x.2, rfl, h⟩

theorem sim_fresh {env : OpenEnv} {l : Lib} (hp : l.Parallel) (hs : l.Steady env) (hl : l.sheetList = List.replicate l.book.sheetNames.length none) (hr : l.released = false) :
    Sim env (l.file env) l Life.fresh := by
  refine ⟨rfl, fun _ => ⟨⟨hp, hs⟩, rfl⟩, hr, by rw [hl]; simp [Lib.file], ?_, ?_⟩
  · intro k hk
    rw [hl, List.getElem?_replicate, if_pos (show k < l.book.sheetNames.length from hk)]
    rfl
  · intro k n h; cases h

/-- Loading all sheets of a book of which none of the sheets from `a` on is loaded. -/
theorem sim_getSheets {env : OpenEnv} {f : File} (m : Nat) : ∀ {l l' : Lib} (a : Nat), a + m = f.names.length →
    Sim env f l ⟨fun k => if k < a then some (k : Int) else none, false⟩ → getSheets env m a l = .ok l' →
    Sim env f l' ⟨fun k => if k < a + m then some (k : Int) else none, false⟩ := by
  induction m with
  | zero => intro l l' a _ h hg; cases hg; exact h
  | succ m ih =>
    intro l l' a ha h hg
    unfold getSheets at hg
    have hask := sim_ask h (a : Int)
    have hcell := h.cell a (by omega)
    simp only [Nat.lt_irrefl, if_false, Option.bind_none] at hcell
    unfold sheetByIndex at hask
    rw [(idx_ok_nat _ _ _).mpr hcell] at hask
    simp only at hask
    cases hs : getSheet env l (a : Int) with
    | error e => rw [hs] at hg; cases hg
    | ok x =>
      rw [hs] at hg hask
      obtain ⟨sh, l1⟩ := x
      simp only [bind, Except.bind] at hg hask
      refine (show a + (m + 1) = a + 1 + m by omega) ▸ ih (a + 1) (by omega) ?_ hg
      have h2 := hask.2
      have h1 := hask.1
      unfold File.ask at h1 h2
      rw [sheetNo_nat (by omega)] at h1 h2
      simp only [Nat.lt_irrefl, if_false, Bool.false_eq_true] at h1 h2
      cases hc : f.content a with
      | error e => rw [hc] at h1; cases h1
      | ok c =>
        rw [hc] at h2
        have : (fun j => if j = a then some (a : Int) else if j < a then some (j : Int) else none) = fun k => if k < a + 1 then some (k : Int) else none := by
          funext j
          by_cases hj : j = a
          · subst hj; simp
          · rw [if_neg hj]
            by_cases hja : j < a
            · rw [if_pos hja, if_pos (by omega)]
            · rw [if_neg hja, if_neg (by omega)]
        rw [this] at h2
        exact h2

/-- Whether reading a sheet changes what the book says about countries: the book is opened on demand and one sheet is asked for. -/
def SheetsKeepCountries (env : OpenEnv) (mem : Bytes) (base : Int) : Prop :=
  ∀ l, openStream { env with onDemand := true } mem base = .ok l → ∀ k : Nat,
    (sheetByIndex { env with onDemand := true } l (k : Int)).2.book.countries = l.book.countries

theorem openStream_demand {env : OpenEnv} {mem : Bytes} {base : Int} {v : Nat} {p : Int} {b : Book} {q : Int} (hv : firstBof mem base = .ok (v, p)) (h50 : 50 ≤ v)
    (hg : parseGlobals (env.bookEnv v base) mem newBook p = .ok (b, q)) :
    openStream { env with onDemand := true } mem base = .ok ⟨v, b, mem, List.replicate b.sheetNames.length none, false⟩ := by
  unfold openStream
  rw [hv]
  simp only [bind, Except.bind]
  rw [if_neg (by omega)]
  have hg' : parseGlobals (OpenEnv.bookEnv { env with onDemand := true } v base) mem newBook p = .ok (b, q) := by
    rw [bookEnv_onDemand]; exact hg
  rw [hg']
  simp only
  rw [if_neg (by omega)]
  unfold openSheets
  simp

theorem leftCountries_demand (env : OpenEnv) (l : Lib) (n : Int) (x : Bool) : leftCountries { env with onDemand := x } l n = leftCountries env l n := rfl

theorem ask_countries {env : OpenEnv} {l : Lib} {k : Nat} (hl : l.sheetList[k]? = some none) (hr : l.released = false) :
    (sheetByIndex env l (k : Int)).2.book.countries = leftCountries env l (k : Int) := by
  unfold sheetByIndex getSheet
  rw [(idx_ok_nat _ _ _).mpr hl]
  simp only [hr, Bool.false_eq_true, if_false]
  cases readSheet env l (k : Int) with
  | error e => rfl
  | ok sh =>
    simp only [bind, Except.bind]
    rw [setIdx_nat _ _ _ (List.getElem?_eq_some_iff.mp hl).1]
    rfl

theorem keep_steady {env : OpenEnv} {mem : Bytes} {base : Int} {v : Nat} {p : Int} {b : Book} {q : Int} (hv : firstBof mem base = .ok (v, p)) (h50 : 50 ≤ v)
    (hg : parseGlobals (env.bookEnv v base) mem newBook p = .ok (b, q)) (hk : SheetsKeepCountries env mem base) :
    (⟨v, b, mem, List.replicate b.sheetNames.length none, false⟩ : Lib).Steady env := by
  intro k hkl
  have h1 := hk _ (openStream_demand hv h50 hg) k
  rw [ask_countries (by simp only [List.getElem?_replicate]; rw [if_pos hkl]) rfl] at h1
  exact h1

theorem getSheets_steady {env : OpenEnv} (m : Nat) : ∀ (a : Nat) (x y : Lib), x.Parallel → x.Steady env → getSheets env m a x = .ok y →
    y.bv = x.bv ∧ y.book = x.book ∧ y.mem = x.mem := by
  induction m with
  | zero => intro a x y _ _ hxy; cases hxy; exact ⟨rfl, rfl, rfl⟩
  | succ m ih =>
    intro a x y hp hs hxy
    unfold getSheets getSheet at hxy
    by_cases hr : x.released = true
    · rw [if_pos hr] at hxy; cases hxy
    · rw [if_neg hr] at hxy
      cases hrd : readSheet env x (a : Int) with
      | error e => rw [hrd] at hxy; cases hxy
      | ok sh =>
        have ha : a < x.book.sheetNames.length := by
          by_contra hc
          unfold readSheet sheetStart at hrd
          rw [idx_nat_ge x.book.shAbsPosn a (by rw [hp.posn]; omega)] at hrd
          cases hrd
        rw [hrd, left_steady hp hs (sheetNo_nat ha)] at hxy
        simp only [bind, Except.bind] at hxy
        cases hst : setIdx x.sheetList (a : Int) (some sh) with
        | error e => rw [hst] at hxy; cases hxy
        | ok sl =>
          rw [hst] at hxy
          have hy : getSheets env m (a + 1) { x with sheetList := sl } = .ok y := hxy
          exact ih _ { x with sheetList := sl } _ ⟨hp.posn, hp.vis⟩ hs hy

/-- C41 (for files in which reading a sheet does not change the countries of the book; see `C41_conflicting_countries` for others): after opening a file
on demand, every sequence of calls gives the replies that the file's contents say: sheets are read when
first asked for, stay until unloaded, and none can be read after the resources have been released. -/
theorem C41_on_demand_partial (env : OpenEnv) (mem : Bytes) (base : Int)
    (v : Nat) (p : Int) (l : Lib) (hv : firstBof mem base = .ok (v, p)) (h50 : 50 ≤ v) (hkeep : SheetsKeepCountries env mem base) (hd : env.onDemand = true)
    (h : openStream env mem base = .ok l) (cs : List Call) :
    (libCalls env l cs).1 = ((l.file env).calls Life.fresh cs).1 := by
  obtain ⟨b, q, hg, ho⟩ := openStream_new hv h50 h
  have hs := keep_steady hv h50 hg hkeep
  unfold openSheets at ho
  rw [if_pos hd] at ho
  cases ho
  obtain ⟨h1, h2, _⟩ := C43_parallel _ _ _ _ _ _ _ hg
  exact (sim_calls cs (sim_fresh ⟨h1, h2⟩ hs rfl rfl)).1

theorem eager_sim {env : OpenEnv} {mem : Bytes} {base : Int}
    {v : Nat} {p : Int} {l : Lib} (hv : firstBof mem base = .ok (v, p)) (h50 : 50 ≤ v) (hkeep : SheetsKeepCountries env mem base) (hd : env.onDemand = false)
    (h : openStream env mem base = .ok l) : Sim env (l.file env) l (l.file env).eager := by
  obtain ⟨b, q, hg, ho⟩ := openStream_new hv h50 h
  have hs := keep_steady hv h50 hg hkeep
  unfold openSheets at ho
  rw [if_neg (by rw [hd]; decide)] at ho
  obtain ⟨h1, h2, _⟩ := C43_parallel _ _ _ _ _ _ _ hg
  generalize hl0 : (⟨v, b, mem, List.replicate b.sheetNames.length none, false⟩ : Lib) = l0 at ho hs
  have hsim : Sim env (l0.file env) l0 ⟨fun k => if k < 0 then some (k : Int) else none, false⟩ := by
    have := sim_fresh (env := env) (l := l0) (by subst hl0; exact ⟨h1, h2⟩) hs (by subst hl0; rfl) (by subst hl0; rfl)
    simpa [Life.fresh] using this
  cases hgs : getSheets env l0.book.sheetNames.length 0 l0 with
  | error e => rw [hgs] at ho; cases ho
  | ok l1 =>
    rw [hgs] at ho
    cases ho
    have h3 := sim_getSheets (env := env) l0.book.sheetNames.length 0 (Nat.zero_add _) hsim hgs
    rw [Nat.zero_add] at h3
    have hf : (releaseResources l1).file env = l0.file env := (h3.whole h3.rel).2
    rw [hf]
    exact ⟨h3.names, fun hr => (by cases hr), rfl, h3.len, h3.cell, h3.good⟩

theorem opened_sim {env : OpenEnv} {mem : Bytes} {base : Int}
    {v : Nat} {p : Int} {l : Lib} (hv : firstBof mem base = .ok (v, p)) (h50 : 50 ≤ v) (hkeep : SheetsKeepCountries env mem base)
    (h : openStream env mem base = .ok l) :
    Sim env (l.file env) l (if env.onDemand then Life.fresh else (l.file env).eager) := by
  cases hd : env.onDemand with
  | false => exact eager_sim hv h50 hkeep hd h
  | true =>
    obtain ⟨b, q, hg, ho⟩ := openStream_new hv h50 h
    have hs := keep_steady hv h50 hg hkeep
    unfold openSheets at ho
    rw [if_pos hd] at ho
    cases ho
    obtain ⟨h1, h2, _⟩ := C43_parallel _ _ _ _ _ _ _ hg
    exact sim_fresh ⟨h1, h2⟩ hs rfl rfl

/-- C41 (for files in which reading a sheet does not change the countries of the book): a file opened with all its sheets replies to every sequence of calls
as if each sheet had been asked for and the resources then
released.  In particular it has been possible to read every sheet. -/
theorem C41_eager_partial (env : OpenEnv) (mem : Bytes) (base : Int)
    (v : Nat) (p : Int) (l : Lib) (hv : firstBof mem base = .ok (v, p)) (h50 : 50 ≤ v) (hkeep : SheetsKeepCountries env mem base) (hd : env.onDemand = false)
    (h : openStream env mem base = .ok l) (cs : List Call) :
    (libCalls env l cs).1 = ((l.file env).calls (l.file env).eager cs).1 ∧ ∀ (k : Nat), k < l.book.sheetNames.length → ∃ sh, (l.file env).content k = .ok sh := by
  have h4 := eager_sim hv h50 hkeep hd h
  refine ⟨(sim_calls cs h4).1, ?_⟩
  intro k hk
  exact h4.good k (k : Int) (if_pos hk)

/-- C41 (for files in which reading a sheet does not change the countries of the book): the two ways of opening agree on what the file contains: a file that
opens with all its sheets also opens on demand, with the same names
and the same sheets. -/
theorem C41_same_file_partial (env : OpenEnv) (mem : Bytes) (base : Int)
    (v : Nat) (p : Int) (l : Lib) (hv : firstBof mem base = .ok (v, p)) (h50 : 50 ≤ v) (hkeep : SheetsKeepCountries env mem base)
    (h : openStream { env with onDemand := false } mem base = .ok l) :
    ∃ l', openStream { env with onDemand := true } mem base = .ok l' ∧ l'.book = l.book ∧
      l'.file { env with onDemand := true } = l.file { env with onDemand := false } := by
  obtain ⟨b, q, hg, ho⟩ := openStream_new hv h50 h
  obtain ⟨h1, h2, _⟩ := C43_parallel _ _ _ _ _ _ _ hg
  have hg' : parseGlobals (env.bookEnv v base) mem newBook p = .ok (b, q) := by
    rw [bookEnv_onDemand] at hg; exact hg
  have hs := keep_steady hv h50 hg' hkeep
  refine ⟨⟨v, b, mem, List.replicate b.sheetNames.length none, false⟩, openStream_demand hv h50 hg', ?_, ?_⟩
  all_goals
    unfold openSheets at ho
    simp only [Bool.false_eq_true, if_false] at ho
    cases hgs : getSheets { env with onDemand := false } b.sheetNames.length 0 ⟨v, b, mem, List.replicate b.sheetNames.length none, false⟩ with
    | error e => rw [hgs] at ho; cases ho
    | ok l1 =>
      rw [hgs] at ho
      cases ho
      obtain ⟨i1, i2, i3⟩ := getSheets_steady (env := { env with onDemand := false }) _ _ _ _ ⟨h1, h2⟩ hs hgs
      first
        | exact i2.symm
        | (unfold Lib.file readSheet sheetStart releaseResources
           rw [i1, i2, i3]
           rfl)

/-! ### Whatever reading sheets does to the countries -/

/-- The loaded sheets of a book have been read from the file, with some countries. -/
structure Held (env : OpenEnv) (l0 l : Lib) : Prop where
  bv : l.bv = l0.bv
  mem : l.mem = l0.mem
  book : ∃ c, l.book = { l0.book with countries := c }
  len : l.sheetList.length = l0.book.sheetNames.length
  cell : ∀ (k : Nat) (sh : LSheet), l.sheetList[k]? = some (some sh) →
    ∃ c x, readSheet env (l0.withCountries c) (k : Int) = .ok x ∧ sh = { x with number := sh.number }

theorem Held.names {env : OpenEnv} {l0 l : Lib} (h : Held env l0 l) : l.book.sheetNames = l0.book.sheetNames := by
  obtain ⟨c, hc⟩ := h.book; rw [hc]

theorem Held.left {env : OpenEnv} {l0 l : Lib} (h : Held env l0 l) (n : Int) : Held env l0 (l.left env n) := by
  obtain ⟨c, hc⟩ := h.book
  exact ⟨h.bv, h.mem, ⟨leftCountries env l n, by unfold Lib.left Lib.withCountries; simp only [hc]⟩, h.len, h.cell⟩

theorem readSheet_held {env : OpenEnv} {l0 l : Lib} (h : Held env l0 l) : ∃ c, ∀ n, readSheet env l n = readSheet env (l0.withCountries c) n := by
  obtain ⟨c, hc⟩ := h.book
  refine ⟨c, fun n => ?_⟩
  unfold readSheet sheetStart
  rw [h.bv, h.mem, hc]
  rfl

theorem held_ask {env : OpenEnv} {l0 l : Lib} (hp : l0.Parallel) (h : Held env l0 l) (i : Int) :
    Held env l0 (sheetByIndex env l i).2 ∧ ∀ sh, (sheetByIndex env l i).1 = .ok sh → ∃ k c x,
      (l0.file env).sheetNo i = some k ∧ readSheet env (l0.withCountries c) (k : Int) = .ok x ∧ sh = { x with number := sh.number } := by
  unfold sheetByIndex
  rw [idx_sheetNo (f := l0.file env) _ h.len i]
  cases hk : (l0.file env).sheetNo i with
  | none => exact ⟨h, fun sh hs => (by cases hs)⟩
  | some k =>
    simp only
    have hkl : k < l.sheetList.length := by rw [h.len]; exact sheetNo_lt hk
    rcases hc : l.sheetList[k]? with _ | x
    · rw [List.getElem?_eq_getElem hkl] at hc; cases hc
    rw [(idx_ok_nat _ _ _).mpr hc]
    cases x with
    | some sh =>
      refine ⟨h, fun sh' hs => ?_⟩
      cases hs
      obtain ⟨c, x, h1, h2⟩ := h.cell k sh hc
      exact ⟨k, c, x, rfl, h1, h2⟩
    | none =>
      simp only
      unfold getSheet
      by_cases hr : l.released = true
      · rw [if_pos hr]; simp only [if_pos hr]
        exact ⟨h, fun sh' hs => (by cases hs)⟩
      · rw [if_neg hr]
        obtain ⟨c, hcs⟩ := readSheet_held h
        have hno := readSheet_no (env := env) (l := l0.withCountries c) ⟨hp.posn, hp.vis⟩ (i := i) (k := k) hk
        rw [hcs i, hno]
        cases hrd : readSheet env (l0.withCountries c) (k : Int) with
        | error e =>
          simp only [Except.map, bind, Except.bind, if_neg hr]
          exact ⟨h.left i, fun sh' hs => (by cases hs)⟩
        | ok x =>
          simp only [Except.map, bind, Except.bind]
          rw [setIdx_sheetNo (f := l0.file env) _ h.len, hk]
          simp only [pure, Except.pure]
          refine ⟨⟨h.bv, h.mem, (h.left i).book, (List.length_set ..).trans h.len, ?_⟩, ?_⟩
          · intro j sh hj
            simp only at hj
            by_cases hjk : j = k
            · subst hjk
              rw [List.getElem?_set_self hkl] at hj
              cases hj
              exact ⟨c, x, hrd, rfl⟩
            · rw [List.getElem?_set_ne (Ne.symm hjk)] at hj
              exact h.cell j sh hj
          · intro sh hs
            cases hs
            exact ⟨k, c, x, rfl, hrd, rfl⟩

theorem held_all {env : OpenEnv} {l0 : Lib} (hp : l0.Parallel) (m : Nat) : ∀ {l : Lib} (a : Nat), Held env l0 l → Held env l0 (loadAll env m a l).2 := by
  induction m with
  | zero => intro l a h; exact h
  | succ m ih =>
    intro l a h
    have h1 := (held_ask hp h (a : Int)).1
    unfold loadAll
    rcases hz : sheetByIndex env l (a : Int) with ⟨r, l1⟩
    rw [hz] at h1
    cases r with
    | error e => exact h1
    | ok sh => exact ih (a + 1) h1

theorem held_name {env : OpenEnv} {l0 l : Lib} (hp : l0.Parallel) (h : Held env l0 l) (s : PyStr) : Held env l0 (sheetByName env l s).2 := by
  unfold sheetByName
  cases nameIndex s l.book.sheetNames with
  | none => exact h
  | some n => exact (held_ask hp h _).1

theorem held_call {env : OpenEnv} {l0 l : Lib} (hp : l0.Parallel) (h : Held env l0 l) (c : Call) : Held env l0 (libCall env l c).2 := by
  cases c with
  | byIndex n => exact (held_ask hp h n).1
  | byName x => exact held_name hp h x
  | item k =>
    cases k with
    | index n => exact (held_ask hp h n).1
    | name x => exact held_name hp h x
  | loaded k => exact h
  | unload k =>
    simp only [libCall, unloadSheet]
    cases keyIndex l k with
    | error e => exact h
    | ok n =>
      simp only
      rw [setIdx_sheetNo (f := l0.file env) _ h.len]
      cases (l0.file env).sheetNo n with
      | none => exact h
      | some j =>
        refine ⟨h.bv, h.mem, h.book, (List.length_set ..).trans h.len, ?_⟩
        intro i sh hi
        simp only at hi
        by_cases hij : i = j
        · subst hij
          by_cases hl : i < l.sheetList.length
          · rw [List.getElem?_set_self hl] at hi; cases hi
          · rw [List.getElem?_eq_none (by rw [List.length_set]; omega)] at hi; cases hi
        · rw [List.getElem?_set_ne (Ne.symm hij)] at hi
          exact h.cell i sh hi
  | release => exact ⟨h.bv, h.mem, h.book, h.len, h.cell⟩
  | sheets =>
    have h1 := held_all hp l.sheetList.length 0 h
    simp only [libCall, bookSheets]
    rcases hz : loadAll env l.sheetList.length 0 l with ⟨r, l1⟩
    rw [hz] at h1
    cases r <;> exact h1
  | names => exact h

theorem held_calls {env : OpenEnv} {l0 : Lib} (hp : l0.Parallel) (cs : List Call) : ∀ {l : Lib}, Held env l0 l → Held env l0 (libCalls env l cs).2 := by
  induction cs with
  | nil => intro l h; exact h
  | cons c cs ih => intro l h; exact ih (held_call hp h c)

theorem held_getSheets {env : OpenEnv} {l0 : Lib} (hp : l0.Parallel) (m : Nat) : ∀ {l l' : Lib} (a : Nat), Held env l0 l →
    getSheets env m a l = .ok l' → Held env l0 l' := by
  induction m with
  | zero => intro l l' a h hg; cases hg; exact h
  | succ m ih =>
    intro l l' a h hg
    unfold getSheets getSheet at hg
    by_cases hr : l.released = true
    · rw [if_pos hr] at hg; cases hg
    · rw [if_neg hr] at hg
      cases hrd : readSheet env l (a : Int) with
      | error e => rw [hrd] at hg; cases hg
      | ok sh =>
        rw [hrd] at hg
        simp only [bind, Except.bind] at hg
        cases hst : setIdx l.sheetList (a : Int) (some sh) with
        | error e => rw [hst] at hg; cases hg
        | ok sl =>
          rw [hst] at hg
          have hy : getSheets env m (a + 1) { l.left env a with sheetList := sl } = .ok l' := hg
          refine ih (a + 1) ?_ hy
          rw [setIdx_sheetNo (f := l0.file env) _ h.len] at hst
          cases hk : (l0.file env).sheetNo (a : Int) with
          | none => rw [hk] at hst; cases hst
          | some k =>
            rw [hk] at hst
            cases hst
            have hkl : k < l.sheetList.length := by rw [h.len]; exact sheetNo_lt hk
            obtain ⟨c, hcs⟩ := readSheet_held h
            refine ⟨h.bv, h.mem, (h.left a).book, (List.length_set ..).trans h.len, ?_⟩
            intro j s hj
            simp only at hj
            by_cases hjk : j = k
            · subst hjk
              rw [List.getElem?_set_self hkl] at hj
              cases hj
              have hno := readSheet_no (env := env) (l := l0.withCountries c) ⟨hp.posn, hp.vis⟩ (i := (a : Int)) (k := j) hk
              rw [← hcs, hrd] at hno
              cases hx : readSheet env (l0.withCountries c) (j : Int) with
              | error e => rw [hx] at hno; cases hno
              | ok x => rw [hx] at hno; cases hno; exact ⟨c, x, hx, rfl⟩
            · rw [List.getElem?_set_ne (Ne.symm hjk)] at hj
              exact h.cell j s hj

theorem held_fresh {env : OpenEnv} {l : Lib} (hl : l.sheetList = List.replicate l.book.sheetNames.length none) : Held env l l := by
  refine ⟨rfl, rfl, ⟨l.book.countries, rfl⟩, by rw [hl, List.length_replicate], ?_⟩
  intro k sh hk
  rw [hl, List.getElem?_replicate] at hk
  by_cases hc : k < l.book.sheetNames.length
  · rw [if_pos hc] at hk; cases hk
  · rw [if_neg hc] at hk; cases hk

theorem opened_held {env : OpenEnv} {mem : Bytes} {base : Int}
    {v : Nat} {p : Int} {l : Lib} (hv : firstBof mem base = .ok (v, p)) (h50 : 50 ≤ v) (h : openStream env mem base = .ok l) :
    ∃ b q, parseGlobals (env.bookEnv v base) mem newBook p = .ok (b, q) ∧
      (⟨v, b, mem, List.replicate b.sheetNames.length none, false⟩ : Lib).Parallel ∧
      Held env ⟨v, b, mem, List.replicate b.sheetNames.length none, false⟩ l := by
  obtain ⟨b, q, hg, ho⟩ := openStream_new hv h50 h
  obtain ⟨h1, h2, _⟩ := C43_parallel _ _ _ _ _ _ _ hg
  refine ⟨b, q, hg, ⟨h1, h2⟩, ?_⟩
  unfold openSheets at ho
  by_cases hd : env.onDemand = true
  · rw [if_pos hd] at ho
    cases ho
    exact held_fresh rfl
  · rw [if_neg hd] at ho
    cases hgs : getSheets env b.sheetNames.length 0 ⟨v, b, mem, List.replicate b.sheetNames.length none, false⟩ with
    | error e => rw [hgs] at ho; cases ho
    | ok l1 =>
      rw [hgs] at ho
      cases ho
      have := held_getSheets (env := env) (l0 := ⟨v, b, mem, List.replicate b.sheetNames.length none, false⟩) ⟨h1, h2⟩ _ 0 (held_fresh rfl) hgs
      exact ⟨this.bv, this.mem, this.book, this.len, this.cell⟩

/-- C41: whatever has been done with a book, a sheet it returns for an index is the sheet of the file with that
index, read while the book held some countries, except for `number`, which is the index it was first asked for with. -/
theorem C41_returned_sheet (env : OpenEnv) (mem : Bytes) (base : Int)
    (v : Nat) (p : Int) (l : Lib) (hv : firstBof mem base = .ok (v, p)) (h50 : 50 ≤ v)
    (h : openStream env mem base = .ok l) (cs : List Call) (i : Int) (sh : LSheet)
    (hr : (sheetByIndex env (libCalls env l cs).2 i).1 = .ok sh) :
    ∃ k c x, (l.file env).sheetNo i = some k ∧ readSheet env (l.withCountries c) (k : Int) = .ok x ∧ sh = { x with number := sh.number } := by
  obtain ⟨b, q, _, hp, hh⟩ := opened_held hv h50 h
  obtain ⟨k, c, x, h1, h2, h3⟩ := (held_ask hp (held_calls hp cs hh) i).2 sh hr
  refine ⟨k, c, x, ?_, ?_, h3⟩
  · unfold File.sheetNo at h1 ⊢
    simp only [Lib.file, hh.names] at h1 ⊢
    exact h1
  · rw [← h2]
    obtain ⟨c', hc'⟩ := hh.book
    unfold readSheet sheetStart Lib.withCountries
    simp only [hh.bv, hh.mem, hc']

/-- C41 (for files in which reading a sheet does not change the countries of the book): such a sheet is that of the opened file. -/
theorem C41_returned_sheet_partial (env : OpenEnv) (mem : Bytes) (base : Int)
    (v : Nat) (p : Int) (l : Lib) (hv : firstBof mem base = .ok (v, p)) (h50 : 50 ≤ v) (hkeep : SheetsKeepCountries env mem base)
    (h : openStream env mem base = .ok l) (cs : List Call) (i : Int) (sh : LSheet)
    (hr : (sheetByIndex env (libCalls env l cs).2 i).1 = .ok sh) :
    ∃ k c, (l.file env).sheetNo i = some k ∧ readSheet env l (k : Int) = .ok c ∧ sh = { c with number := sh.number } := by
  have h3 := (sim_calls (env := env) cs (opened_sim hv h50 hkeep h)).2
  have h4 := (sim_ask h3 i).1
  rw [hr] at h4
  generalize ((l.file env).calls _ cs).2 = s at h4
  rcases hk : (l.file env).sheetNo i with _ | k
  · unfold File.ask at h4; rw [hk] at h4; cases h4
  · obtain ⟨n, c, e1, e2, e3⟩ := ask_no (f := l.file env) (s := s) (i := i) (sh := sh) (s' := ((l.file env).ask s i).2) (by rw [h4]) hk
    exact ⟨k, c, rfl, e2, by rw [e3]⟩

/-- What a book holds. -/
def Lib.held (l : Lib) : File := ⟨l.book.sheetNames, fun k => match l.sheetList[k]? with | some (some sh) => .ok sh | _ => .error .xlrd⟩

theorem released_sim {env : OpenEnv} {l : Lib} (hr : l.released = true) (hl : l.sheetList.length = l.book.sheetNames.length)
    (hs : ∀ (k : Nat), k < l.book.sheetNames.length → ∃ sh, l.sheetList[k]? = some (some sh) ∧ sh.number = (k : Int)) :
    Sim env l.held l l.held.eager := by
  refine ⟨rfl, fun h => (by rw [hr] at h; cases h), hr, hl, ?_, ?_⟩
  · intro k hk
    obtain ⟨sh, h1, h2⟩ := hs k hk
    have : l.held.content k = .ok sh := by simp only [Lib.held, h1]
    rw [h1, this]
    simp only [File.eager, if_pos hk, Option.bind_some, Except.toOption, Option.map_some, ← h2]
  · intro k n h
    have hk : k < l.book.sheetNames.length := by
      by_contra hk
      simp only [File.eager] at h
      rw [if_neg (show ¬ k < l.held.names.length from hk)] at h
      cases h
    obtain ⟨sh, h1, h2⟩ := hs k hk
    exact ⟨sh, by simp only [Lib.held, h1]⟩

/-- C41 (for files in which reading a sheet does not change the countries of the book): a sheet that is loaded can be had at any time, whatever has been released; one that is not loaded cannot be had once the resources have been
released (an XLRDError); an index outside the book is an IndexError. -/
theorem C41_availability_partial (env : OpenEnv) (mem : Bytes) (base : Int)
    (v : Nat) (p : Int) (l : Lib) (hv : firstBof mem base = .ok (v, p)) (h50 : 50 ≤ v) (hkeep : SheetsKeepCountries env mem base)
    (h : openStream env mem base = .ok l) (cs : List Call) (i : Int) :
    ((l.file env).sheetNo i = none → (sheetByIndex env (libCalls env l cs).2 i).1 = .error .index) ∧
    (sheetLoaded (libCalls env l cs).2 (.index i) = .ok true → ∃ sh, (sheetByIndex env (libCalls env l cs).2 i).1 = .ok sh) ∧
    (sheetLoaded (libCalls env l cs).2 (.index i) = .ok false → (libCalls env l cs).2.released = true →
      (sheetByIndex env (libCalls env l cs).2 i).1 = .error .xlrd) ∧
    (∀ k, (l.file env).sheetNo i = some k → (libCalls env l cs).2.released = false →
      ((∃ sh, (sheetByIndex env (libCalls env l cs).2 i).1 = .ok sh) ↔ ∃ c, readSheet env l (k : Int) = .ok c)) := by
  have h3 := (sim_calls (env := env) cs (opened_sim hv h50 hkeep h)).2
  have h4 := (sim_ask h3 i).1
  have h5 := (sim_call h3 (.loaded (.index i))).1
  have hrel := h3.rel
  have hgood := h3.good
  generalize ((l.file env).calls _ cs).2 = s at h4 h5 hrel hgood
  generalize (libCalls env l cs).2 = l' at h4 h5 hrel
  simp only [libCall, File.call, File.keyNo] at h5
  rw [h4]
  unfold File.ask
  rcases hk : (l.file env).sheetNo i with _ | k
  · rw [hk] at h5
    simp only [Reply.flag.injEq] at h5
    refine ⟨fun _ => rfl, ?_, ?_, ?_⟩
    · intro a; rw [h5] at a; cases a
    · intro a; rw [h5] at a; cases a
    · intro k a; cases a
  · rw [hk] at h5
    simp only [Reply.flag.injEq] at h5
    rw [h5]
    simp only
    have hc : (l.file env).content k = readSheet env l (k : Int) := rfl
    cases hl : s.loaded k with
    | some n =>
      obtain ⟨sh, hsh⟩ := hgood k n hl
      rw [hsh]
      refine ⟨fun a => (by cases a), fun _ => ⟨_, rfl⟩, fun a => (by cases a), ?_⟩
      intro k' hk' _
      cases hk'
      exact ⟨fun _ => ⟨sh, hc ▸ hsh⟩, fun _ => ⟨_, rfl⟩⟩
    | none =>
      simp only
      refine ⟨fun a => (by cases a), fun a => (by cases a), ?_, ?_⟩
      · intro _ a; rw [if_pos (hrel ▸ a)]
      · intro k' hk' a
        cases hk'
        rw [if_neg (by rw [← hrel, a]; decide), hc]
        cases readSheet env l (k : Int) with
        | error e => exact ⟨fun ⟨_, a⟩ => (by cases a), fun ⟨_, a⟩ => (by cases a)⟩
        | ok c => exact ⟨fun _ => ⟨c, rfl⟩, fun _ => ⟨_, rfl⟩⟩

/-! ## C42 -/

/-- C42: in any state of any book, asking for a sheet by name is asking for the first sheet with that name by its index, and an XLRDError (which
leaves the book as it is) if there is none. -/
theorem C42_by_name (env : OpenEnv) (l : Lib) (s : PyStr) :
    (∀ n : Nat, n < l.book.sheetNames.length → l.book.sheetNames[n]? = some s → (∀ (m : Nat), m < n → l.book.sheetNames[m]? ≠ some s) →
      sheetByName env l s = sheetByIndex env l (n : Int)) ∧
    (s ∉ l.book.sheetNames → sheetByName env l s = (.error .xlrd, l)) := by
  constructor
  · intro n hn h1 h2
    have hmem : s ∈ l.book.sheetNames := List.mem_of_getElem? h1
    have : l.book.sheetNames.idxOf s = n := by
      rcases Nat.lt_trichotomy (l.book.sheetNames.idxOf s) n with hlt | heq | hgt
      · have hl := List.idxOf_lt_length_of_mem hmem
        exact absurd (by rw [List.getElem?_eq_getElem hl, List.getElem_idxOf]) (h2 _ hlt)
      · exact heq
      · have hne := List.not_of_lt_findIdx (p := (· == s)) hgt
        rw [List.getElem?_eq_getElem hn] at h1
        simp only [Option.some.injEq] at h1
        simp [h1] at hne
    unfold sheetByName
    rw [nameIndex_eq, if_pos hmem, this]
  · intro hn
    unfold sheetByName
    rw [nameIndex_eq, if_neg hn]

/-- C42: `book[key]` is `sheet_by_index` or `sheet_by_name`, and `sheet_loaded` and `unload_sheet` take names the same way: a name stands for the
index of the first sheet with that name. -/
theorem C42_keys (env : OpenEnv) (l : Lib) (s : PyStr) (hs : s ∈ l.book.sheetNames) :
    ∃ n : Nat, l.book.sheetNames[n]? = some s ∧ (∀ (m : Nat), m < n → l.book.sheetNames[m]? ≠ some s) ∧
      bookItem env l (.name s) = bookItem env l (.index n) ∧ sheetByName env l s = sheetByIndex env l n ∧
      sheetLoaded l (.name s) = sheetLoaded l (.index n) ∧ unloadSheet l (.name s) = unloadSheet l (.index n) := by
  have hl := List.idxOf_lt_length_of_mem hs
  have e1 : l.book.sheetNames[l.book.sheetNames.idxOf s]? = some s := by rw [List.getElem?_eq_getElem hl, List.getElem_idxOf]
  have e2 : ∀ (m : Nat), m < l.book.sheetNames.idxOf s → l.book.sheetNames[m]? ≠ some s := by
    intro m hm heq
    have hne := List.not_of_lt_findIdx (p := (· == s)) hm
    rw [List.getElem?_eq_getElem (by omega)] at heq
    simp only [Option.some.injEq] at heq
    simp [heq] at hne
  have e3 := (C42_by_name env l s).1 _ hl e1 e2
  refine ⟨_, e1, e2, e3, e3, ?_, ?_⟩
  all_goals simp only [sheetLoaded, unloadSheet, keyIndex, nameIndex_eq, if_pos hs]

/-- C42: an unknown name is refused with an XLRDError by every call, and the book stays as it is. -/
theorem C42_unknown (env : OpenEnv) (l : Lib) (s : PyStr) (hs : s ∉ l.book.sheetNames) :
    bookItem env l (.name s) = (.error .xlrd, l) ∧ sheetByName env l s = (.error .xlrd, l) ∧ sheetLoaded l (.name s) = .error .xlrd ∧
      unloadSheet l (.name s) = (.error .xlrd, l) := by
  have e3 := (C42_by_name env l s).2 hs
  refine ⟨e3, e3, ?_, ?_⟩
  all_goals simp only [sheetLoaded, unloadSheet, keyIndex, nameIndex_eq, if_neg hs, bind, Except.bind]

end Xlrd
