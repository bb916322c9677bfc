import Verif.Lemmas.Dump
import Verif.Lemmas.Records

/-!
# The loops of `biff_dump`
-/
namespace Xlrd
open Spec
set_option linter.unusedSimpArgs false

namespace DumpL

/-- The bytes from `a` up to `b`. -/
def seg (mem : Bytes) (a b : Nat) : Bytes := (mem.drop a).take (b - a)

theorem seg_self (mem : Bytes) (a : Nat) : seg mem a a = [] := by simp [seg]

theorem seg_length (mem : Bytes) (a b : Nat) : (seg mem a b).length = min (b - a) (mem.length - a) := by simp [seg]

theorem seg_append (mem : Bytes) (a b c : Nat) (h1 : a ≤ b) (h2 : b ≤ c) : seg mem a b ++ seg mem b c = seg mem a c := by
  simp only [seg]
  have e : mem.drop b = (mem.drop a).drop (b - a) := by rw [List.drop_drop]; congr 1; omega
  rw [e, show c - a = (b - a) + (c - b) by omega, List.take_add]

theorem seg_prefix (mem : Bytes) (a b : Nat) : seg mem a b <+: mem.drop a := List.take_prefix _ _

theorem seg_beyond (mem : Bytes) (a b : Nat) (h : a ≤ b) : seg mem a (min b (max a mem.length)) = seg mem a b := by
  simp only [seg]
  by_cases hb : b ≤ max a mem.length
  · rw [Nat.min_eq_left hb]
  · rw [Nat.min_eq_right (by omega), List.take_of_length_le (by simp), List.take_of_length_le (by simp; omega)]

theorem slice_seg (mem : Bytes) (a b : Nat) : slice mem (a : Int) (b : Int) = seg mem a b := by
  rw [slice_nat, List.drop_take, seg]

theorem sliceFrom_drop (mem : Bytes) (a : Nat) : sliceFrom mem (a : Int) = mem.drop a := by
  rw [sliceFrom, clampIdx, if_neg (by omega), Int.toNat_natCast]
  by_cases h : a ≤ mem.length
  · rw [Nat.min_eq_left h]
  · rw [Nat.min_eq_right (by omega), List.drop_eq_nil_of_le (by omega), List.drop_eq_nil_of_le (by omega)]

theorem hexLoop_reads (mem : Bytes) (ofs b0 endpos : Nat) (nb : Bool) (more : List PyStr) (he : endpos ≤ mem.length) :
    ∀ (fuel pos : Nat), ofs ≤ pos → pos ≤ endpos → endpos < pos + fuel →
      readDump nb (b0 + (pos - ofs)) (hexLoop mem ofs b0 nb endpos fuel pos ++ more) = (readDump nb (b0 + (endpos - ofs)) more).map (seg mem pos endpos ++ ·) := by
  intro fuel
  induction fuel with
  | zero => intro pos _ h1 h2; omega
  | succ fuel ih =>
    intro pos h0 h1 h2
    rw [hexLoop]
    by_cases hp : pos < endpos
    · rw [if_pos hp]
      simp only []
      generalize hs : min (pos + 16) endpos = endsub
      have hs1 : pos < endsub := by omega
      have hs2 : endsub ≤ endpos := by omega
      rw [slice_seg, if_neg (by rw [seg_length]; omega)]
      have hn : ((b0 : Int) + (pos : Int) - (ofs : Int)) = ((b0 + (pos - ofs) : Nat) : Int) := by omega
      rw [hn, hexLine, List.append_assoc, List.append_assoc, List.cons_append, ← List.append_assoc "     ".toList]
      rw [readDump_line nb _ _ (seg mem pos endsub) _ (fun hc => by cases hc) (readBody_hex _ (by rw [seg_length]; omega))]
      rw [show b0 + (pos - ofs) + (seg mem pos endsub).length = b0 + (endsub - ofs) by rw [seg_length]; omega]
      rw [ih endsub (by omega) hs2 (by omega), Option.map_map]
      congr 1
      funext x
      simp only [Function.comp]
      rw [← List.append_assoc, seg_append mem pos endsub endpos (by omega) hs2]
    · have : pos = endpos := by omega
      subst this
      rw [if_neg hp, List.nil_append, seg_self]
      cases readDump nb (b0 + (pos - ofs)) more <;> rfl

theorem hexCharDump_reads (mem : Bytes) (ofs dlen b0 : Nat) (nb : Bool) (more : List PyStr) (h : ofs ≤ mem.length) :
    readDump nb b0 (hexCharDump mem ofs dlen b0 nb ++ more) = (readDump nb (b0 + min dlen (mem.length - ofs)) more).map (seg mem ofs (ofs + dlen) ++ ·) := by
  have := hexLoop_reads mem ofs b0 (min (ofs + dlen) mem.length) nb more (by omega) (min (ofs + dlen) mem.length + 1) ofs (Nat.le_refl _) (by omega) (by omega)
  simp only [Nat.sub_self, Nat.add_zero] at this
  rw [hexCharDump, this, show min (ofs + dlen) mem.length - ofs = min dlen (mem.length - ofs) by omega]
  have e := seg_beyond mem ofs (ofs + dlen) (by omega)
  rw [Nat.max_eq_right h] at e
  rw [e]

/-- The first four bytes of a record. -/
theorem head_at (mem : Bytes) (pos : Nat) (h : pos + 4 ≤ mem.length) :
    ∃ rc len : Nat, rc < 65536 ∧ len < 65536 ∧ seg mem pos (pos + 4) = le16 rc ++ le16 len ∧ mem.drop pos = le16 rc ++ le16 len ++ mem.drop (pos + 4) := by
  have hl : (seg mem pos (pos + 4)).length = 4 := by rw [seg_length]; omega
  have hd : mem.drop pos = seg mem pos (pos + 4) ++ mem.drop (pos + 4) := by
    rw [seg, show mem.drop (pos + 4) = (mem.drop pos).drop 4 by rw [List.drop_drop], show pos + 4 - pos = 4 by omega, List.take_append_drop]
  rw [hd]
  generalize seg mem pos (pos + 4) = s at hl
  match s, hl with
  | [a, b, c, d], _ =>
    have ha := a.toNat_lt
    have hb := b.toNat_lt
    have hc := c.toNat_lt
    have hd := d.toNat_lt
    have e : [a, b, c, d] = le16 (a.toNat + 256 * b.toNat) ++ le16 (c.toNat + 256 * d.toNat) := by
      simp only [le16, List.cons_append, List.nil_append, List.cons.injEq, and_true]
      refine ⟨?_, ?_, ?_, ?_⟩ <;> apply UInt8.toNat.inj <;> rw [UInt8.toNat_ofNat'] <;> omega
    exact ⟨_, _, by omega, by omega, e, by rw [← e]⟩

theorem head_fld (rc len : Nat) (h1 : rc < 65536) (h2 : len < 65536) : fld (le16 rc ++ le16 len) 0 2 = rc ∧ fld (le16 rc ++ le16 len) 2 2 = len := by
  simp only [fld, le16, List.cons_append, List.nil_append, List.drop, List.take, le, UInt8.toNat_ofNat']
  omega

/-- What has been written so far is the stream up to the position, without zeros that are still to be written. -/
structure Inv (mem : Bytes) (off : Nat) (nb : Bool) (st : DumpSt) : Prop where
  le : off + st.dummies ≤ st.pos
  zeros : st.dummies ≠ 0 → st.savpos + st.dummies = st.pos ∧ st.pos ≤ mem.length ∧ seg mem st.savpos st.pos = List.replicate st.dummies 0
  reads : ∀ more, readDump nb 0 (st.lines ++ more) = (readDump nb (min (st.pos - st.dummies) mem.length - off) more).map (seg mem off (st.pos - st.dummies) ++ ·)

theorem Inv.zeroLine {mem : Bytes} {off : Nat} {nb : Bool} {st : DumpSt} (h : Inv mem off nb st) (more : List PyStr) :
    readDump nb 0 (st.lines ++ zeroLine nb (0 - (off : Int)) st.savpos st.dummies ++ more) = (readDump nb (min st.pos mem.length - off) more).map (seg mem off st.pos ++ ·) := by
  rw [List.append_assoc, h.reads, Xlrd.zeroLine]
  by_cases hd : st.dummies = 0
  · rw [if_neg (by simpa using hd), hd]; rfl
  · rw [if_pos hd]
    obtain ⟨h1, h2, h3⟩ := h.zeros hd
    have hle := h.le
    have e1 : st.pos - st.dummies = st.savpos := by omega
    rw [e1, Nat.min_eq_left (by omega), Nat.min_eq_left h2]
    have hn : (0 - (off : Int) + (st.savpos : Int)) = ((st.savpos - off : Nat) : Int) := by omega
    rw [hn, List.append_assoc, List.append_assoc, List.cons_append, List.nil_append, ← List.append_assoc "---- ".toList]
    rw [readDump_line nb _ _ _ _ (fun hc => by cases hc) (readBody_zeros _), List.length_replicate, Option.map_map]
    rw [show st.savpos - off + st.dummies = st.pos - off by omega]
    congr 1
    funext x
    simp only [Function.comp]
    rw [← h3, ← List.append_assoc, seg_append mem off st.savpos st.pos (by omega) (by omega)]

theorem dumpLoop_inv (mem : Bytes) (off streamEnd : Nat) (nb : Bool) (hs : streamEnd ≤ mem.length) :
    ∀ (fuel : Nat) (st : DumpSt), streamEnd - st.pos < fuel → Inv mem off nb st → (st.dummies ≠ 0 → mem.drop st.pos ≠ List.replicate (streamEnd - st.pos) 0) →
      ∃ st', dumpLoop mem streamEnd (0 - (off : Int)) nb fuel st = .ok st' ∧ Inv mem off nb st' ∧ ¬ st'.pos + 4 ≤ streamEnd := by
  intro fuel
  induction fuel with
  | zero => intro st h; omega
  | succ fuel ih =>
    intro st hf hi hz
    rw [dumpLoop]
    by_cases hp : st.pos + 4 ≤ streamEnd
    · rw [if_pos hp, slice_seg]
      obtain ⟨rc, len, hrc, hlen, hseg, hdrop⟩ := head_at mem st.pos (by omega)
      rw [hseg, unpackN_ok (by simp [le16])]
      simp only [bind, Except.bind]
      rw [(head_fld rc len hrc hlen).1, (head_fld rc len hrc hlen).2]
      have hle := hi.le
      by_cases h0 : rc = 0 ∧ len = 0
      · rw [if_pos h0, sliceFrom_drop]
        have hseg0 : seg mem st.pos (st.pos + 4) = List.replicate 4 0 := by rw [hseg, h0.1, h0.2]; rfl
        by_cases hall : mem.drop st.pos = List.replicate (streamEnd - st.pos) 0
        · rw [if_pos hall]
          have hd0 : st.dummies = 0 := by
            by_contra hc; exact hz hc hall
          refine ⟨_, rfl, ⟨by show off + (streamEnd - st.pos) ≤ streamEnd; omega, fun _ => ⟨by show st.pos + (streamEnd - st.pos) = streamEnd; omega, hs, ?_⟩, fun more => ?_⟩, by show ¬ streamEnd + 4 ≤ streamEnd; omega⟩
          · show seg mem st.pos streamEnd = _
            rw [seg, hall]; simp
          · show readDump nb 0 (st.lines ++ more) = (readDump nb (min (streamEnd - (streamEnd - st.pos)) mem.length - off) more).map (seg mem off (streamEnd - (streamEnd - st.pos)) ++ ·)
            rw [hi.reads, hd0, show streamEnd - (streamEnd - st.pos) = st.pos - 0 by omega]
        · rw [if_neg hall]
          have hnz : mem.drop (st.pos + 4) ≠ List.replicate (streamEnd - (st.pos + 4)) 0 := by
            intro hc
            apply hall
            rw [hdrop, h0.1, h0.2, hc, show streamEnd - st.pos = 4 + (streamEnd - (st.pos + 4)) by omega, ← List.replicate_append_replicate]
            rfl
          refine ih _ (by show streamEnd - (st.pos + 4) < fuel; omega) ⟨?_, fun _ => ⟨?_, by show st.pos + 4 ≤ mem.length; omega, ?_⟩, fun more => ?_⟩ (fun _ => hnz)
          · show off + (if st.dummies ≠ 0 then st.dummies + 4 else 4) ≤ st.pos + 4
            by_cases hd : st.dummies ≠ 0
            · rw [if_pos hd]; omega
            · rw [if_neg hd]; omega
          · show (if st.dummies ≠ 0 then st.savpos else st.pos) + (if st.dummies ≠ 0 then st.dummies + 4 else 4) = st.pos + 4
            by_cases hd : st.dummies ≠ 0
            · rw [if_pos hd, if_pos hd]; have := (hi.zeros hd).1; omega
            · rw [if_neg hd, if_neg hd]
          · show seg mem (if st.dummies ≠ 0 then st.savpos else st.pos) (st.pos + 4) = List.replicate (if st.dummies ≠ 0 then st.dummies + 4 else 4) 0
            by_cases hd : st.dummies ≠ 0
            · rw [if_pos hd, if_pos hd]
              obtain ⟨h1, h2, h3⟩ := hi.zeros hd
              rw [← seg_append mem st.savpos st.pos (st.pos + 4) (by omega) (by omega), h3, hseg0, List.replicate_append_replicate]
            · rw [if_neg hd, if_neg hd, hseg0]
          · show readDump nb 0 (st.lines ++ more) = (readDump nb (min (st.pos + 4 - (if st.dummies ≠ 0 then st.dummies + 4 else 4)) mem.length - off) more).map (seg mem off (st.pos + 4 - (if st.dummies ≠ 0 then st.dummies + 4 else 4)) ++ ·)
            have e : st.pos + 4 - (if st.dummies ≠ 0 then st.dummies + 4 else 4) = st.pos - st.dummies := by
              by_cases hd : st.dummies ≠ 0
              · rw [if_pos hd]; omega
              · rw [if_neg hd]; omega
            rw [e, hi.reads]
      · rw [if_neg h0]
        refine ih _ (by show streamEnd - (st.pos + 4 + len) < fuel; omega) ⟨by show off + 0 ≤ st.pos + 4 + len; omega, fun hc => absurd rfl hc, fun more => ?_⟩ (fun hc => absurd rfl hc)
        show readDump nb 0 (st.lines ++ Xlrd.zeroLine nb (0 - (off : Int)) st.savpos st.dummies ++ (recLine nb (0 - (off : Int) + st.pos) rc len ::
              hexCharDump mem (st.pos + 4) len (0 - (off : Int) + (st.pos + 4 : Nat)) nb) ++ more)
            = (readDump nb (min (st.pos + 4 + len - 0) mem.length - off) more).map (seg mem off (st.pos + 4 + len - 0) ++ ·)
        rw [List.append_assoc _ _ more, hi.zeroLine, Nat.min_eq_left (by omega)]
        have hn1 : (0 - (off : Int) + (st.pos : Int)) = ((st.pos - off : Nat) : Int) := by omega
        have hn2 : (0 - (off : Int) + ((st.pos + 4 : Nat) : Int)) = ((st.pos + 4 - off : Nat) : Int) := by omega
        rw [hn1, hn2, recLine]
        simp only [List.append_assoc, List.cons_append]
        have hb := readBody_rec rc len hrc hlen
        simp only [List.append_assoc, List.cons_append] at hb
        rw [readDump_line nb _ _ _ _ ?_ hb]
        · rw [show st.pos - off + (le16 rc ++ le16 len).length = st.pos + 4 - off by simp [le16]; omega]
          rw [hexCharDump_reads mem (st.pos + 4) len _ nb more (by omega), Option.map_map, Option.map_map]
          rw [show st.pos + 4 - off + min len (mem.length - (st.pos + 4)) = min (st.pos + 4 + len - 0) mem.length - off by omega]
          congr 1
          funext x
          simp only [Function.comp, Nat.sub_zero]
          rw [← hseg, ← List.append_assoc (seg mem st.pos _), seg_append mem st.pos (st.pos + 4) (st.pos + 4 + len) (by omega) (by omega), ← List.append_assoc, seg_append mem off st.pos _ (by omega) (by omega)]
        · intro hc
          simp only [hex4, List.cons_append, List.head?_cons, Option.some.injEq] at hc
          exact (hexLow_char (rc / 4096) (by omega)).2.2.1 hc
    · rw [if_neg hp]
      exact ⟨st, rfl, hi, hp⟩

end DumpL
end Xlrd
