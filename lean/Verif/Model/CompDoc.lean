import Verif.Model.Codec

/-!
# Compound documents: `xlrd/compdoc.py`

`DEBUG` is 0 throughout; log output is dropped.  Loops that follow chains take a `fuel`; the result
`none` means that the fuel ran out.  Recursion takes a depth (Python's recursion limit).
-/
namespace Xlrd

/-- compdoc.py 21 `SIGNATURE` -/
def SIGNATURE : Bytes := [0xD0, 0xCF, 0x11, 0xE0, 0xA1, 0xB1, 0x1A, 0xE1]
/-- compdoc.py 23 `EOCSID` -/
def EOCSID : Int := -2
/-- compdoc.py 24 `FREESID` -/
def FREESID : Int := -1
/-- compdoc.py 26 `MSATSID` -/
def MSATSID : Int := -4

/-- compdoc.py 32-51 `DirNode`; `colour` and `tsinfo` are not kept. -/
structure DirNode where
  did : Nat
  etype : Nat
  left : Int
  right : Int
  root : Int
  firstSid : Int
  totSize : Int
  name : PyStr
  children : List Int
  parent : Int
  deriving DecidableEq

/-- compdoc.py 34-51 `DirNode.__init__`. -/
def dirNode (did : Nat) (dent : Bytes) : R DirNode := do
  let a ← unpackN 16 (slice dent 64 80)
  let b ← unpackN 8 (slice dent 116 124)
  let cbufsize := fld a 0 2
  let name ← if cbufsize = 0 then pure [] else utf16leDecode (slice dent 0 ((cbufsize : Int) - 2))
  let _ ← unpackN 16 (slice dent 100 116)
  pure { did := did, etype := fld a 2 1, left := sgn 32 (fld a 4 4), right := sgn 32 (fld a 8 4),
         root := sgn 32 (fld a 12 4), firstSid := sgn 32 (fld b 0 4), totSize := sgn 32 (fld b 4 4),
         name := name, children := [], parent := -1 }

/-- compdoc.py 230-234: one `DirNode` per 128 bytes. -/
def dirNodes : Nat → Nat → Bytes → R (List DirNode)
  | 0, _, _ => .ok []
  | n + 1, did, b =>
    match b with
    | [] => .ok []
    | _ => do
      let d ← dirNode did (b.take 128)
      let ds ← dirNodes n (did + 1) (b.drop 128)
      pure (d :: ds)

/-- compdoc.py 64-71 `_build_family_tree`; the first argument is the remaining recursion depth. -/
def buildFamilyTree : Nat → List DirNode → Int → Int → R (List DirNode)
  | 0, _, _, _ => .error .recursion
  | depth + 1, dl, parent, child =>
    if child < 0 then .ok dl
    else do
      let n1 ← idx dl child
      let dl ← buildFamilyTree depth dl parent n1.left
      let p ← idx dl parent
      let dl ← setIdx dl parent { p with children := p.children ++ [child] }
      let c ← idx dl child
      let dl ← setIdx dl child { c with parent := parent }
      let n2 ← idx dl child
      let dl ← buildFamilyTree depth dl parent n2.right
      let n3 ← idx dl child
      if n3.etype = 1 then buildFamilyTree depth dl child n3.root else .ok dl

/-- compdoc.py 293-295, 310-312, 426-430: check and set `self.seen[s]` (an `array('B')`);
`check = false` is the ignore_workbook_corruption case of 427. -/
def mark (seen : List Nat) (s : Int) (id : Nat) (check : Bool := true) : R (List Nat) := do
  let v ← idx seen s
  if v ≠ 0 ∧ check then .error .compdoc
  else if id > 255 then .error .overflow
  else setIdx seen s id

/-- compdoc.py 292-295 / 309-312: marking is skipped when `seen_id is None`. -/
def markOpt (seen : List Nat) (s : Int) (id : Option Nat) : R (List Nat) :=
  match id with
  | none => .ok seen
  | some i => mark seen s i

/-- compdoc.py 299-304: `sat[s]`, an IndexError becoming CompDocError. -/
def satNext (sat : List Int) (s : Int) : R Int :=
  match idx sat s with
  | .ok n => .ok n
  | .error _ => .error .compdoc

/-- compdoc.py 314-316 (and 297): how many bytes to take from a sector. -/
def grabOf (sec : Nat) : Option Int → Int
  | none => sec
  | some t => if (sec : Int) > t then t else sec

/-- compdoc.py 289-326: the loop of `_get_stream`, sectors in order.  `todo = none` is `size is None`.
The assertion on the final `s` is included. -/
def getLoop : Nat → List Nat → Bytes → Int → List Int → Nat → Int → Option Int → Option Nat →
    Option (R (List Bytes × List Nat))
  | fuel, seen, mem, base, sat, sec, s, todo, id =>
    if s ≥ 0 then
      match fuel with
      | 0 => none
      | fuel + 1 =>
        match markOpt seen s id with
        | .error e => some (.error e)
        | .ok seen =>
          let start := base + s * sec
          let grab := grabOf sec todo
          let piece := slice mem start (start + grab)
          match satNext sat s with
          | .error e => some (.error e)
          | .ok n =>
            match getLoop fuel seen mem base sat sec n (todo.map (· - grab)) id with
            | none => none
            | some (.error e) => some (.error e)
            | some (.ok (ps, seen')) => some (.ok (piece :: ps, seen'))
    else if s = EOCSID then some (.ok ([], seen)) else some (.error .assertion)

/-- compdoc.py 285-332 `_get_stream`.  `mem = none` is the `str` object `""` stored by line 252, whose
slices cannot be joined to bytes.  Returns the bytes and the updated `seen`. -/
def getStream (fuel : Nat) (seen : List Nat) (mem : Option Bytes) (base : Int) (sat : List Int) (sec : Nat)
    (start : Int) (size : Option Int) (id : Option Nat) : Option (R (Bytes × List Nat)) :=
  match getLoop fuel seen (mem.getD []) base sat sec start size id with
  | none => none
  | some (.error e) => some (.error e)
  | some (.ok (ps, seen')) =>
    if mem = none ∧ ps ≠ [] then some (.error .type) else some (.ok (ps.flatten, seen'))

/-- compdoc.py 419-423: the variables of the loop of `_locate_stream`. -/
structure LocState where
  p : Int
  startPos : Int
  endPos : Int
  slices : List (Int × Int)
  found : Nat

/-- compdoc.py 431, 438-448: recording one sector. -/
def locStep (base : Int) (sec : Nat) (st : LocState) (s : Int) : LocState :=
  if s = st.p + 1 then { st with endPos := st.endPos + sec, p := s, found := st.found + 1 }
  else { p := s, startPos := base + s * sec, endPos := base + s * sec + sec, found := st.found + 1,
         slices := if st.p ≥ 0 then st.slices ++ [(st.startPos, st.endPos)] else st.slices }

/-- compdoc.py 425-451: the loop of `_locate_stream` and the assertions after it. -/
def locLoop : Nat → List Nat → Bool → Int → List Int → Nat → Int → Int → Nat → LocState →
    Option (R (LocState × List Nat))
  | fuel, seen, ignore, base, sat, sec, limit, s, id, st =>
    if s ≥ 0 then
      match fuel with
      | 0 => none
      | fuel + 1 =>
        match mark seen s id (!ignore) with
        | .error e => some (.error e)
        | .ok seen =>
          if ((st.found + 1 : Nat) : Int) > limit then some (.error .compdoc)
          else
            match idx sat s with
            | .error e => some (.error e)
            | .ok n => locLoop fuel seen ignore base sat sec limit n id (locStep base sec st s)
    else if s = EOCSID ∧ (st.found : Int) = limit then some (.ok (st, seen)) else some (.error .assertion)

/-- compdoc.py 414-458 `_locate_stream`: (memory, offset, length) and the updated `seen`. -/
def locateStream (fuel : Nat) (seen : List Nat) (ignore : Bool) (mem : Bytes) (base : Int) (sat : List Int)
    (sec : Nat) (start : Int) (size : Int) (id : Nat) : Option (R ((Bytes × Int × Int) × List Nat)) :=
  if start < 0 then some (.error .compdoc)
  else
    let limit := (size + sec - 1) / sec
    match locLoop fuel seen ignore base sat sec limit start id ⟨-99, -9999, -8888, [], 0⟩ with
    | none => none
    | some (.error e) => some (.error e)
    | some (.ok (st, seen')) =>
      if st.slices = [] then some (.ok ((mem, st.startPos, size), seen'))
      else
        let parts := (st.slices ++ [(st.startPos, st.endPos)]).map fun se => slice mem se.1 se.2
        some (.ok ((parts.flatten, 0, size), seen'))

/-- The attributes of a `CompDoc` used after construction. -/
structure CompDoc where
  mem : Bytes
  secSize : Nat
  shortSecSize : Nat
  minSizeStd : Int
  memDataLen : Int
  sat : List Int
  ssat : List Int
  sscs : Option Bytes
  dirlist : List DirNode
  seen : List Nat
  ignore : Bool
  deriving DecidableEq

/-- `unpack("<%di" % nent, b)`: `n` signed 32-bit integers. -/
def unpackInts (n : Nat) (b : Bytes) : R (List Int) := do
  let b ← unpackN (4 * n) b
  pure ((List.range n).map fun k => sgn 32 (fld b (4 * k) 4))

/-- compdoc.py 148-170: following the MSAT extension. -/
def msatLoop : Nat → List Nat → Bytes → Nat → List Int → Int → Option (R (List Int × List Nat))
  | fuel, seen, mem, sec, msat, sid =>
    if sid = EOCSID ∨ sid = FREESID ∨ sid = MSATSID then some (.ok (msat, seen))
    else match fuel with
      | 0 => none
      | fuel + 1 =>
        if sid ≥ seen.length then some (.error .compdoc)
        else if sid < 0 then some (.error .compdoc)
        else match mark seen sid 1 with
          | .error e => some (.error e)
          | .ok seen =>
            let offset := 512 + (sec : Int) * sid
            match unpackInts (sec / 4) (slice mem offset (offset + sec)) with
            | .error e => some (.error e)
            | .ok ns => msatLoop fuel seen mem sec (msat ++ ns.dropLast) (ns.getLastD 0)

/-- compdoc.py 183-207: reading the SAT sectors listed in the MSAT. -/
def satLoop (mem : Bytes) (sec : Nat) : List Int → List Nat → R (List Int × List Nat)
  | [], seen => .ok ([], seen)
  | msid :: rest, seen =>
    if msid = FREESID ∨ msid = EOCSID then satLoop mem sec rest seen
    else if msid ≥ seen.length then satLoop mem sec rest seen
    else if msid < -2 then .error .compdoc
    else do
      let seen ← mark seen msid 2
      let offset := 512 + (sec : Int) * msid
      let ns ← unpackInts (sec / 4) (slice mem offset (offset + sec))
      let (more, seen) ← satLoop mem sec rest seen
      pure (ns ++ more, seen)

/-- compdoc.py 265-277: reading the SSAT; `nsecs` counts down. -/
def ssatLoop (mem : Bytes) (sec : Nat) (sat : List Int) : Nat → Int → List Nat → R (List Int × List Nat)
  | nsecs, sid, seen =>
    if sid ≥ 0 then
      match nsecs with
      | 0 => .error .assertion
      | n + 1 => do
        let seen ← mark seen sid 5
        let start := 512 + sid * sec
        let ns ← unpackInts (sec / 4) (slice mem start (start + sec))
        let next ← idx sat sid
        let (more, seen) ← ssatLoop mem sec sat n next seen
        pure (ns ++ more, seen)
    else if nsecs = 0 ∧ sid = EOCSID then .ok ([], seen) else .error .assertion

/-- The header fields, compdoc.py 92-113. -/
structure CDHeader where
  sec : Nat
  shortSec : Nat
  dirFirst : Int
  minSizeStd : Int
  ssatFirst : Int
  ssatTot : Int
  msatxFirst : Int
  msatxTot : Int
  deriving DecidableEq

/-- compdoc.py 88-113: checks and fields of the header. -/
def cdHeader (mem : Bytes) : R CDHeader := do
  if slice mem 0 8 ≠ SIGNATURE then throw .compdoc
  if slice mem 28 30 ≠ [0xFE, 0xFF] then throw .compdoc
  let _ ← unpackN 4 (slice mem 24 28)
  let b ← unpackN 4 (slice mem 30 34)
  let ssz := if fld b 0 2 > 20 then 9 else fld b 0 2
  let sssz := if fld b 2 2 > ssz then 6 else fld b 2 2
  let h ← unpackN 32 (slice mem 44 76)
  pure { sec := 2 ^ ssz, shortSec := 2 ^ sssz, dirFirst := sgn 32 (fld h 4 4), minSizeStd := sgn 32 (fld h 12 4),
         ssatFirst := sgn 32 (fld h 16 4), ssatTot := sgn 32 (fld h 20 4),
         msatxFirst := sgn 32 (fld h 24 4), msatxTot := sgn 32 (fld h 28 4) }

/-- compdoc.py 114-123: number of data sectors, a partial one included (`[0] * n` is empty for
negative `n`). -/
def memDataSecs (len sec : Nat) : Nat :=
  let dl : Int := (len : Int) - 512
  (dl / sec + (if dl % sec ≠ 0 then 1 else 0)).toNat

/-- compdoc.py 243-256: the short-stream container; the `""` of line 252 is `none`. -/
def readSscs (fuel : Nat) (seen : List Nat) (mem : Bytes) (sat : List Int) (sec : Nat) (d : DirNode) :
    Option (R (Option Bytes × List Nat)) :=
  if d.firstSid < 0 ∨ d.totSize = 0 then some (.ok (none, seen))
  else match getStream fuel seen (some mem) 512 sat sec d.firstSid (some d.totSize) (some 4) with
    | none => none
    | some (.error e) => some (.error e)
    | some (.ok (b, seen)) => some (.ok (some b, seen))

/-- compdoc.py 84-283 `CompDoc.__init__`.  `depth` is the recursion depth available to
`_build_family_tree`. -/
def compDocInit (fuel depth : Nat) (mem : Bytes) (ignore : Bool) : Option (R CompDoc) :=
  match cdHeader mem with
  | .error e => some (.error e)
  | .ok h =>
    let secs := memDataSecs mem.length h.sec
    let seen := List.replicate secs 0
    match unpackInts 109 (slice mem 76 512) with
    | .error e => some (.error e)
    | .ok msat0 =>
      -- 139-140: divisions by nent and nent - 1
      if h.sec / 4 = 0 ∨ h.sec / 4 = 1 then some (.error .zeroDiv)
      else
        let msatR : Option (R (List Int × List Nat)) :=
          if h.msatxTot = 0 ∧ (h.msatxFirst = EOCSID ∨ h.msatxFirst = FREESID ∨ h.msatxFirst = 0)
          then some (.ok (msat0, seen))
          else msatLoop fuel seen mem h.sec msat0 h.msatxFirst
        match msatR with
        | none => none
        | some (.error e) => some (.error e)
        | some (.ok (msat, seen)) =>
          match satLoop mem h.sec msat seen with
          | .error e => some (.error e)
          | .ok (sat, seen) =>
            match getStream fuel seen (some mem) 512 sat h.sec h.dirFirst none (some 3) with
            | none => none
            | some (.error e) => some (.error e)
            | some (.ok (dbytes, seen)) =>
              match (do
                let dl ← dirNodes dbytes.length 0 dbytes
                let r ← idx dl 0
                let dl ← buildFamilyTree depth dl 0 r.root
                let r ← idx dl 0
                pyAssert (r.etype = 5)
                pure (dl, r)) with
              | .error e => some (.error e)
              | .ok (dl, r) =>
                match readSscs fuel seen mem sat h.sec r with
                | none => none
                | some (.error e) => some (.error e)
                | some (.ok (sscs, seen)) =>
                  match (if r.totSize > 0 then
                        -- a negative count fails the assertion of line 277
                        if h.ssatTot < 0 then .error .assertion
                        else ssatLoop mem h.sec sat h.ssatTot.toNat h.ssatFirst seen
                      else .ok ([], seen)) with
                  | .error e => some (.error e)
                  | .ok (ssat, seen) =>
                    some (.ok {
                      mem := mem, secSize := h.sec, shortSecSize := h.shortSec,
                      minSizeStd := h.minSizeStd, memDataLen := (mem.length : Int) - 512, sat := sat,
                      ssat := ssat, sscs := sscs, dirlist := dl, seen := seen, ignore := ignore })

/-- compdoc.py 339-350: the loop over the children; `descend` is the treatment of a storage. -/
def scanChildren (lower : PyStr → PyStr) (dl : List DirNode) (head : PyStr)
    (descend : Int → R (Option DirNode)) : List Int → R (Option DirNode)
  | [] => .ok none
  | child :: rest => do
    let c ← idx dl child
    if lower c.name = lower head then
      if c.etype = 2 then .ok (some c)
      else if c.etype = 1 then descend child
      else .error .compdoc
    else scanChildren lower dl head descend rest

/-- compdoc.py 334-350 `_dir_search`; `lower` is `str.lower`. -/
def dirSearch (lower : PyStr → PyStr) (dl : List DirNode) : List PyStr → Int → R (Option DirNode)
  | [], _ => .error .index
  | head :: tail, storage => do
    let st ← idx dl storage
    scanChildren lower dl head
      (fun child => if tail = [] then .error .compdoc else dirSearch lower dl tail child) st.children

/-- `qname.split("/")` -/
def splitSlash : PyStr → List PyStr
  | [] => [[]]
  | c :: cs =>
    if c = '/' then [] :: splitSlash cs
    else match splitSlash cs with
      | [] => [[c]]
      | w :: ws => (c :: w) :: ws

/-- compdoc.py 353-372 `get_named_stream`. -/
def getNamedStream (fuel : Nat) (lower : PyStr → PyStr) (cd : CompDoc) (qname : PyStr) :
    Option (R (Option Bytes × CompDoc)) :=
  match dirSearch lower cd.dirlist (splitSlash qname) 0 with
  | .error e => some (.error e)
  | .ok none => some (.ok (none, cd))
  | .ok (some d) =>
    let r := if d.totSize ≥ cd.minSizeStd
      then getStream fuel cd.seen (some cd.mem) 512 cd.sat cd.secSize d.firstSid (some d.totSize) (some (d.did + 6))
      else getStream fuel cd.seen cd.sscs 0 cd.ssat cd.shortSecSize d.firstSid (some d.totSize) none
    match r with
    | none => none
    | some (.error e) => some (.error e)
    | some (.ok (b, seen)) => some (.ok (some b, { cd with seen := seen }))

/-- compdoc.py 374-412 `locate_named_stream`. -/
def locateNamedStream (fuel : Nat) (lower : PyStr → PyStr) (cd : CompDoc) (qname : PyStr) :
    Option (R ((Option Bytes × Int × Int) × CompDoc)) :=
  match dirSearch lower cd.dirlist (splitSlash qname) 0 with
  | .error e => some (.error e)
  | .ok none => some (.ok ((none, 0, 0), cd))
  | .ok (some d) =>
    if d.totSize > cd.memDataLen then some (.error .compdoc)
    else if d.totSize ≥ cd.minSizeStd then
      match locateStream fuel cd.seen cd.ignore cd.mem 512 cd.sat cd.secSize d.firstSid d.totSize (d.did + 6) with
      | none => none
      | some (.error e) => some (.error e)
      | some (.ok ((m, o, l), seen)) => some (.ok ((some m, o, l), { cd with seen := seen }))
    else
      match getStream fuel cd.seen cd.sscs 0 cd.ssat cd.shortSecSize d.firstSid (some d.totSize) none with
      | none => none
      | some (.error e) => some (.error e)
      | some (.ok (b, seen)) => some (.ok ((some b, 0, d.totSize), { cd with seen := seen }))

end Xlrd
