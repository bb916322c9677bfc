import Verif.Model.Cells
import Verif.Spec.Numbers

/-!
# Cell records as a writer produces them, and the cells they describe
-/
namespace Xlrd.Spec

abbrev Pad3 := UInt8 × UInt8 × UInt8
abbrev Pad5 := UInt8 × UInt8 × UInt8 × UInt8 × UInt8

/-- The stored result of a formula (with the unused bytes of the field). -/
inductive FResult
  | num (x : B64)
  | bool (v p : UInt8) (q : Pad3)
  | err (v p : UInt8) (q : Pad3)
  | empty (p : Pad5)
  /-- a text in a STRING record `(code, first)` continued in the records `more`, possibly after a
  shared-formula, array or table record `skip` -/
  | str (p : Pad5) (t : PyStr) (skip : Option (Nat × Bytes)) (code : Nat) (first : Bytes) (more : List Bytes)

def FResult.bytes : FResult → Bytes
  | .num x => x.bytes
  | .bool v p q => [1, p, v, q.1, q.2.1, q.2.2, 0xFF, 0xFF]
  | .err v p q => [2, p, v, q.1, q.2.1, q.2.2, 0xFF, 0xFF]
  | .empty p => [3, p.1, p.2.1, p.2.2.1, p.2.2.2.1, p.2.2.2.2, 0xFF, 0xFF]
  | .str p .. => [0, p.1, p.2.1, p.2.2.1, p.2.2.2.1, p.2.2.2.2, 0xFF, 0xFF]

/-- The records after the FORMULA record. -/
def FResult.records : FResult → List (Nat × Bytes)
  | .str _ _ skip code first more => skip.toList ++ [(code, first)] ++ more.map fun d => (0x3c, d)
  | _ => []

/-- Type (`none`: a number) and value. -/
def FResult.value : FResult → Option Nat × Val
  | .num x => (none, .num x.value)
  | .bool v _ _ => (some XL_CELL_BOOLEAN, .int v.toNat)
  | .err v _ _ => (some XL_CELL_ERROR, .int v.toNat)
  | .empty _ => (some XL_CELL_TEXT, .text [])
  | .str _ t .. => (some XL_CELL_TEXT, .text t)

/-- A text written as the payload `first` of a STRING record and the payloads `more` of CONTINUE records:
from BIFF8 on in parts with their own character width (basic multilingual plane only, see C29), before in
the file's codec (with a length of one byte before BIFF3). -/
def StringRec (bv : Nat) (dec : Bytes → R PyStr) (t : PyStr) (first : Bytes) (more : List Bytes) : Prop :=
  if 80 ≤ bv then ∃ (g : Seg) (gs : List Seg), Bmp t ∧ (utf16 t).length < 65536 ∧
      g.units ++ gs.flatMap Seg.units = utf16 t ∧
      (∀ x ∈ g :: gs, x.opt < 256 ∧ x.opt.testBit 0 = x.wide ∧ Fits x.wide x.units) ∧
      (∀ x ∈ gs, x.units ≠ [] ∧ x.payload.length < 65536) ∧
      first = le16 (utf16 t).length ++ g.payload ∧ more = gs.map Seg.payload
  else ∃ (b : Bytes) (t0 : PyStr) (ts : List PyStr), more.length = ts.length ∧ dec b = .ok t0 ∧
      (∀ (i : Nat) d t, more[i]? = some d → ts[i]? = some t → dec d = .ok t) ∧ (∀ t ∈ ts, t ≠ []) ∧
      (∀ d ∈ more, d.length < 65536) ∧ t = t0 ++ ts.flatten ∧ t.length < (if 30 ≤ bv then 65536 else 256) ∧
      first = (if 30 ≤ bv then le16 t.length else [UInt8.ofNat t.length]) ++ b

/-- A text written as `body` in one record: from BIFF8 on as a Unicode string, before in the file's codec.
`tail` is what follows it. -/
def LabelText (bv : Nat) (dec : Bytes → R PyStr) (t : PyStr) (body : Bytes) : Prop :=
  if 80 ≤ bv then ∃ u : UStr, u.Ok ∧ u.text = t ∧ (utf16 t).length < 65536 ∧ body = le16 (utf16 t).length ++ u.body
  else ∃ b : Bytes, dec b = .ok t ∧ b.length < 65536 ∧ body = le16 b.length ++ b

def FResult.Ok (bv : Nat) (dec : Bytes → R PyStr) : FResult → Prop
  | .num x => x.Ok ∧ x.bits / 2 ^ 48 ≠ 0xFFFF
  | .str _ t skip code first more =>
      (∀ s, skip = some s → s.2.length < 65536 ∧ (s.1 = 0x0221 ∧ 14 ≤ s.2.length ∨ s.1 = 0x04bc ∧ 10 ≤ s.2.length ∨
        s.1 = 0x236 ∨ s.1 = 0x37 ∨ s.1 = 0x21 ∨ s.1 = 0x36)) ∧
      (code = 0x207 ∨ code = 0x7) ∧ first.length < 65536 ∧ StringRec bv dec t first more
  | _ => True

/-- The cell records of a sheet (`r` row, `c` column, `xf` XF index, `junk` ignored bytes at the end). -/
inductive CellRec
  | number (r c xf : Nat) (x : B64) (junk : Bytes)
  | rk (r c xf : Nat) (x : Rk) (junk : Bytes)
  | mulrk (r c : Nat) (cells : List (Nat × Rk))
  | labelsst (r c xf i : Nat)
  | label (r c xf : Nat) (t : PyStr) (body junk : Bytes)
  | rstring (r c xf : Nat) (t : PyStr) (body : Bytes) (runs : List (Nat × Nat))
  | boolerr (r c xf : Nat) (isErr : Bool) (v : UInt8) (junk : Bytes)
  | blank (r c xf : Nat) (junk : Bytes)
  | mulblank (r c : Nat) (xfs : List Nat)
  | formula (r c xf : Nat) (res : FResult) (code flags : Nat) (junk : Bytes)

def head3 (r c xf : Nat) : Bytes := le16 r ++ le16 c ++ le16 xf

/-- Runs of an RSTRING record: from BIFF8 on in 16-bit fields, before in bytes. -/
def encRuns (bv : Nat) (runs : List (Nat × Nat)) : Bytes :=
  if 80 ≤ bv then le16 runs.length ++ runs.flatMap encRun
  else UInt8.ofNat runs.length :: runs.flatMap fun r => [UInt8.ofNat r.1, UInt8.ofNat r.2]

/-- The records: the cell record and those belonging to it. -/
def CellRec.records (bv : Nat) : CellRec → List (Nat × Bytes)
  | .number r c xf x junk => [(0x203, head3 r c xf ++ x.bytes ++ junk)]
  | .rk r c xf x junk => [(0x27e, head3 r c xf ++ x.bytes ++ junk)]
  | .mulrk r c cells =>
      [(0xbd, le16 r ++ le16 c ++ (cells.flatMap fun p => le16 p.1 ++ p.2.bytes) ++ le16 (c + cells.length - 1))]
  | .labelsst r c xf i => [(0xfd, head3 r c xf ++ le32 i)]
  | .label r c xf _ body junk => [(0x204, head3 r c xf ++ body ++ junk)]
  | .rstring r c xf _ body runs => [(0xd6, head3 r c xf ++ body ++ encRuns bv runs)]
  | .boolerr r c xf isErr v junk => [(0x205, head3 r c xf ++ [v, if isErr then 1 else 0] ++ junk)]
  | .blank r c xf junk => [(0x201, head3 r c xf ++ junk)]
  | .mulblank r c xfs => [(0xbe, le16 r ++ le16 c ++ xfs.flatMap le16 ++ le16 (c + xfs.length - 1))]
  | .formula r c xf res code flags junk => (code, head3 r c xf ++ res.bytes ++ le16 flags ++ junk) :: res.records

/-- The cells described: blank cells count only when formatting information is kept; a number is given no
type here, since that depends on its number format. -/
def CellRec.cells (fl : ℚ → ℚ) (fmtInfo : Bool) (sst : List PyStr) : CellRec → List Write
  | .number r c xf x _ => [⟨r, c, none, .num x.value, xf⟩]
  | .rk r c xf x _ => [⟨r, c, none, .num (x.value fl), xf⟩]
  | .mulrk r c cells => cells.mapIdx fun k p => ⟨r, c + k, none, .num (p.2.value fl), p.1⟩
  | .labelsst r c xf i => [⟨r, c, some XL_CELL_TEXT, .text (sst.getD i []), xf⟩]
  | .label r c xf t _ _ => [⟨r, c, some XL_CELL_TEXT, .text t, xf⟩]
  | .rstring r c xf t _ _ => [⟨r, c, some XL_CELL_TEXT, .text t, xf⟩]
  | .boolerr r c xf isErr v _ => [⟨r, c, some (if isErr then XL_CELL_ERROR else XL_CELL_BOOLEAN), .int v.toNat, xf⟩]
  | .blank r c xf _ => if fmtInfo then [⟨r, c, some XL_CELL_BLANK, .text [], xf⟩] else []
  | .mulblank r c xfs => if fmtInfo then xfs.mapIdx fun k (xf : Nat) => ⟨r, c + k, some XL_CELL_BLANK, .text [], xf⟩ else []
  | .formula r c xf res _ _ _ => [⟨r, c, res.value.1, res.value.2, xf⟩]

/-- The fields fit. -/
def CellRec.Ok (bv : Nat) (dec : Bytes → R PyStr) (sst : List PyStr) : CellRec → Prop
  | .number r c xf x _ => r < 65536 ∧ c < 65536 ∧ xf < 65536 ∧ x.Ok
  | .rk r c xf x _ => r < 65536 ∧ c < 65536 ∧ xf < 65536 ∧ x.Ok
  | .mulrk r c cells => r < 65536 ∧ cells ≠ [] ∧ c + cells.length ≤ 65536 ∧ ∀ p ∈ cells, p.1 < 65536 ∧ p.2.Ok
  | .labelsst r c xf i => r < 65536 ∧ c < 65536 ∧ xf < 65536 ∧ i < sst.length ∧ i < 2 ^ 31
  | .label r c xf t body _ => r < 65536 ∧ c < 65536 ∧ xf < 65536 ∧ LabelText bv dec t body
  | .rstring r c xf t body runs => r < 65536 ∧ c < 65536 ∧ xf < 65536 ∧ LabelText bv dec t body ∧
      (if 80 ≤ bv then runs.length < 65536 ∧ ∀ p ∈ runs, p.1 < 65536 ∧ p.2 < 65536
       else runs.length < 256 ∧ ∀ p ∈ runs, p.1 < 256 ∧ p.2 < 256)
  | .boolerr r c xf _ _ _ => r < 65536 ∧ c < 65536 ∧ xf < 65536
  | .blank r c xf _ => r < 65536 ∧ c < 65536 ∧ xf < 65536
  | .mulblank r c xfs => r < 65536 ∧ xfs ≠ [] ∧ c + xfs.length ≤ 65536 ∧ ∀ x ∈ xfs, x < 65536
  | .formula r c xf res code flags _ => r < 65536 ∧ c < 65536 ∧ xf < 65536 ∧ flags < 65536 ∧
      (code = 0x6 ∨ code = 0x206 ∨ code = 0x406) ∧ res.Ok bv dec

end Xlrd.Spec
