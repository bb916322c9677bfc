import Verif.Props.UserNames
import Verif.Lemmas.PySemantics

/-!
# C87: names with an odd number of blanks behind them
-/
set_option linter.unusedSimpArgs false
namespace Xlrd
open Spec

theorem isSpaceByte_spec (x : UInt8) : isSpaceByte x = true ↔ BlankByte x := by
  have : ∀ n : Fin 256, isSpaceByte (UInt8.ofNat n) = decide (UInt8.ofNat n ∈ ([0x20, 0x09, 0x0a, 0x0b, 0x0c, 0x0d] : List UInt8)) := by decide +kernel
  have h := this ⟨x.toNat, x.toNat_lt⟩
  simp only [UInt8.ofNat_toNat] at h
  rw [h]
  simp [BlankByte]

theorem strip_padded {core pad : Bytes} (hp : ∀ x ∈ pad, BlankByte x) (h1 : ∀ x, core.head? = some x → ¬ BlankByte x) (h2 : ∀ x, core.getLast? = some x → ¬ BlankByte x)
    (hne : core ≠ []) : bytesStrip (core ++ pad) = core := by
  have key : ∀ (l : Bytes), (∀ x, l.head? = some x → ¬ BlankByte x) → l.dropWhile isSpaceByte = l := by
    intro l hl
    cases l with
    | nil => rfl
    | cons a l =>
      have : isSpaceByte a = false := by
        cases hx : isSpaceByte a with
        | false => rfl
        | true => exact absurd ((isSpaceByte_spec a).mp hx) (hl a rfl)
      rw [List.dropWhile_cons, this]
      rfl
  unfold bytesStrip
  rw [key (core ++ pad) (by intro x hx; apply h1; cases core with
    | nil => exact absurd rfl hne
    | cons a l => exact hx), List.reverse_append]
  have hpad : ∀ (p q : Bytes), (∀ x ∈ p, BlankByte x) → (p ++ q).dropWhile isSpaceByte = q.dropWhile isSpaceByte := by
    intro p q hp
    induction p with
    | nil => rfl
    | cons a p ih =>
      rw [List.cons_append, List.dropWhile_cons, (isSpaceByte_spec a).mpr (hp a (by simp))]
      simp only [if_true]
      exact ih fun x hx => hp x (List.mem_cons_of_mem _ hx)
  rw [hpad _ _ (by intro x hx; exact hp x (List.mem_reverse.mp hx)), key core.reverse (by rw [List.head?_reverse]; exact h2), List.reverse_reverse]

theorem unpackUnicode_short {n : Nat} {body : Bytes} (h0 : n ≠ 0) (hn : n < 65536) (hb : body.length ≤ 2 * n) :
    unpackUnicode (le16 n ++ 1 :: body) 0 2 = utf16leDecode body := by
  unfold unpackUnicode
  have d0 : (le16 n ++ 1 :: body : Bytes).drop 0 = encLen 2 n ++ (1 :: body) := rfl
  rw [show (0 : Int) = ((0 : Nat) : Int) from rfl, unpackLen_at (Or.inr rfl) (by simpa using hn) d0]
  simp only [bind, Except.bind, pure, Except.pure]
  rw [if_neg h0, ← Int.natCast_add, byteAt_at (b := 1) (r := body) (drop_at d0 (encLen_length 2 _ (Or.inr rfl)))]
  have e0 : (UInt8.toNat 1).testBit 0 = true := by decide
  have e2 : (UInt8.toNat 1).testBit 2 = false := by decide
  have e3 : (UInt8.toNat 1).testBit 3 = false := by decide
  simp only [e0, e2, e3, if_true, Bool.false_eq_true, if_false]
  have : slice (le16 n ++ 1 :: body) (((0 + 2 : Nat) : Int) + 1) (((0 + 2 : Nat) : Int) + 1 + 2 * (n : Int)) = body := by
    rw [show (((0 + 2 : Nat) : Int) + 1) = ((3 : Nat) : Int) by rfl, show (((3 : Nat) : Int) + 2 * (n : Int)) = ((3 + 2 * n : Nat) : Int) by push_cast; rfl, slice_nat]
    have hl : (le16 n ++ 1 :: body : Bytes).length = 3 + body.length := by simp [le16]; omega
    rw [List.take_of_length_le (by omega)]
    rfl
  rw [this]

/-- **C87** (BIFF8).  If the count of a name in 16-bit characters includes the blanks behind it, and these are an odd number of bytes (the record was cut short), the name
is the text before them. -/
theorem C87_padded_name (env : BookEnv) (h8 : 80 ≤ env.bv) (b : Book) (n : Nat) (t : PyStr) (pad : Bytes) (hn : n < 65536) (hlen : 2 * (utf16 t).length + pad.length ≤ 2 * n)
    (hp : ∀ x ∈ pad, BlankByte x) (hodd : pad.length % 2 = 1) (hfirst : ¬ BlankByte (UInt8.ofNat (n % 256)))
    (hlast : ∀ x, ((utf16 t).flatMap le16).getLast? = some x → ¬ BlankByte x) :
    ∃ b', applyGItem env b (.one 0x5c (le16 n ++ 1 :: ((utf16 t).flatMap le16 ++ pad))) = .ok b' ∧ b'.userName = env.rstrip t := by
  have hw := flatMap_le16_length (utf16 t)
  have h0 : n ≠ 0 := by omega
  have e1 : unpackUnicode (le16 n ++ 1 :: ((utf16 t).flatMap le16 ++ pad)) 0 2 = .error .unicode := by
    rw [unpackUnicode_short h0 hn (by rw [List.length_append, hw]; omega)]
    cases hd : utf16leDecode ((utf16 t).flatMap le16 ++ pad) with
    | ok s =>
      have := congrArg List.length ((utf16leDecode_iff _ _).mp hd)
      rw [List.length_append, hw, flatMap_le16_length] at this
      omega
    | error e =>
      unfold utf16leDecode at hd
      split at hd
      · cases hd
      · cases hd; rfl
  have e2 : bytesStrip (le16 n ++ 1 :: ((utf16 t).flatMap le16 ++ pad)) = le16 n ++ 1 :: (utf16 t).flatMap le16 := by
    have : (le16 n ++ 1 :: ((utf16 t).flatMap le16 ++ pad) : Bytes) = (le16 n ++ 1 :: (utf16 t).flatMap le16) ++ pad := by simp
    rw [this]
    refine strip_padded hp ?_ ?_ (by simp)
    · intro x hx
      have hx' : x = UInt8.ofNat (n % 256) := by simpa [le16] using hx.symm
      rw [hx']; exact hfirst
    · intro x hx
      cases hq : (utf16 t).flatMap le16 with
      | nil =>
        rw [hq] at hx
        have hx' : x = 1 := by simpa [le16] using hx.symm
        rw [hx']; unfold BlankByte; decide
      | cons a l =>
        apply hlast
        rw [hq] at hx ⊢
        rw [← hx]
        rw [List.getLast?_append]
        simp only [List.getLast?_cons_cons]
        rw [List.getLast?_eq_some_getLast (List.cons_ne_nil a l)]
        rfl
  have e3 : writeaccess8 (le16 n ++ 1 :: ((utf16 t).flatMap le16 ++ pad)) = .ok t := by
    unfold writeaccess8
    rw [e1]
    show unpackUnicode (bytesStrip _) 0 2 = _
    rw [e2, unpackUnicode_short h0 hn (by rw [hw]; omega)]
    exact (utf16leDecode_iff _ _).mpr rfl
  refine ⟨{ b with userName := env.rstrip t }, ?_, rfl⟩
  show handleWriteaccess env b _ = _
  unfold handleWriteaccess
  rw [if_neg (by omega), e3]
  rfl

/-- The name "me" in a field for five characters that is cut after seven bytes of blanks and tabs. -/
example (env : BookEnv) (h8 : 80 ≤ env.bv) (b : Book) :
    ∃ b', applyGItem env b (.one 0x5c [5, 0, 1, 0x6d, 0, 0x65, 0, 0x20, 0x09, 0x20]) = .ok b' ∧ b'.userName = env.rstrip "me".toList :=
  C87_padded_name env h8 b 5 "me".toList [0x20, 0x09, 0x20] (by decide) (by decide) (by unfold BlankByte; decide) (by decide) (by unfold BlankByte; decide)
    (by intro x hx; have : x = 0 := by simpa [utf16, unitsOf, le16] using hx.symm
        rw [this]; unfold BlankByte; decide)

end Xlrd
