/-
average/AvgEngine as a state machine over the output database.
-/
import Verif.Model.Etree
import Verif.Model.Octant
import Verif.Model.Run

namespace CenCalVM

namespace AvgEngine

/-- One element of the array of pending octants: `OctantPendingStruct` with its `PendingDataStruct`,
libsrc/cencalvm/average/AvgEngine.h:73-86. -/
structure Pending (K : Type) where
  sum : Payload K
  num : Nat
  addr : Addr
  mask : BitVec 8
  valid : Bool

/-- `CounterStruct`, libsrc/cencalvm/average/AvgEngine.h:88-100 (unbounded instead of 64 bits). -/
structure Counters where
  input : Nat
  output : Nat
  interior : Nat
  incX : Nat
  incY : Nat
  incZ : Nat
  incXY : Nat
  incYZ : Nat
  incXZ : Nat
  incXYZ : Nat
  incInvalid : Nat
  deriving DecidableEq, Repr

/-- An `AvgEngine` object with its output database, libsrc/cencalvm/average/AvgEngine.h:182-189.  `ncur` is
`_pendingCursor + 1`; `pending` is the array of 32 elements (index checks are explicit in the functions); `log`
records for every operation that writes to the output database whether it succeeded. -/
structure Engine (K : Type) where
  out : Db K
  pending : Nat → Pending K
  ncur : Nat
  cnt : Counters
  log : List Bool

/-- The environment: which operation on the output database fails, which read or advance of the input cursor
fails (by number), the contents of uninitialised payloads, `etree_straddr`, and the rounding of results of type
`float`. -/
structure Env (K : Type) where
  writeFault : Nat → Bool
  getFault : Nat → Bool
  advFault : Nat → Bool
  junk : Payload K
  str : Addr → String
  rd : K → K := id

/-- `_pendingSize`, libsrc/cencalvm/average/AvgEngine.cc:41,55. -/
def pendingSize : Nat := ETREE_MAXLEVEL + 1

variable {K : Type} [Field K] [LinearOrder K]

/-- Constructor, libsrc/cencalvm/average/AvgEngine.cc:33-68. -/
def init (env : Env K) (out : Db K) : Engine K :=
  { out := out
    pending := fun _ => { sum := env.junk, num := 0, addr := ⟨⟨0, 0, 0, 0⟩, .leaf⟩, mask := 0, valid := false }
    ncur := 0
    cnt := ⟨0, 0, 0, 0, 0, 0, 0, 0, 0, 0, 0⟩
    log := [] }

/-- An operation on the output database; `r` is what libetree does if there is no fault. -/
def write (env : Env K) (s : Engine K) (r : Option (Db K)) (msg : String) : Run (Engine K) Unit :=
  if env.writeFault s.log.length then .exc msg { s with log := s.log ++ [false] }
  else match r with
    | some d => .ok { s with out := d, log := s.log ++ [true] } ()
    | none => .exc msg { s with log := s.log ++ [false] }

/-- Store one element of the array of pending octants. -/
def setPending (s : Engine K) (i : Nat) (p : Pending K) : Engine K :=
  { s with pending := fun j => if j = i then p else s.pending j }

/-- Sum of the six real values, rounded; fault block and zone of the sum are left alone,
libsrc/cencalvm/average/AvgEngine.cc:226-232. -/
def addPayload (rd : K → K) (a b : Payload K) : Payload K :=
  { a with vp := rd (a.vp + b.vp), vs := rd (a.vs + b.vs), density := rd (a.density + b.density),
           qp := rd (a.qp + b.qp), qs := rd (a.qs + b.qs), depth := rd (a.depth + b.depth) }

/-- Replacement of the six real values. -/
def replacePayload (a b : Payload K) : Payload K :=
  { a with vp := b.vp, vs := b.vs, density := b.density, qp := b.qp, qs := b.qs, depth := b.depth }

/-- Contribution of a child to the sum and the number of children, libsrc/cencalvm/average/AvgEngine.cc:223-256. -/
def accumulate (rd : K → K) (acc : Payload K × Nat) (child : Payload K) : Payload K × Nat :=
  if child.vs > 0 then
    if acc.1.vs > 0 then (addPayload rd acc.1 child, acc.2 + 1)
    else (replacePayload acc.1 child, 1)
  else if child.vp > 0 then
    if acc.1.vs ≤ 0 then (addPayload rd acc.1 child, acc.2 + 1)
    else acc
  else acc

/-- Message of the consistency check, libsrc/cencalvm/average/AvgEngine.cc:206-213. -/
def consistencyMessage (env : Env K) (child parent : Addr) (ncur : Nat) : String :=
  "Consistency check for parent/child failed while trying to add\nchild " ++ env.str child ++ " to\nparent " ++
    env.str parent ++ "\npendingCursor: " ++ toString ((ncur : Int) - 1) ++ "\n"

/-- `_addToParent`, libsrc/cencalvm/average/AvgEngine.cc:192-257; `i` is the index of the parent's element. -/
def addToParent (env : Env K) (s : Engine K) (i : Nat) (child : Addr) (p : Payload K) : Run (Engine K) Unit :=
  (Run.assert s (decide (child.level = (s.pending i).addr.level + 1))).bind fun s _ =>
  if (s.pending i).mask &&& childOctantBit child ≠ 0 then
    .exc (consistencyMessage env child (s.pending i).addr s.ncur) s
  else
    let acc := accumulate env.rd ((s.pending i).sum, (s.pending i).num) p
    .ok (setPending s i { s.pending i with
      mask := (s.pending i).mask ||| childOctantBit child, sum := acc.1, num := acc.2 }) ()

/-- Counting of incomplete octants, libsrc/cencalvm/average/AvgEngine.cc:281-328. -/
def countIncomplete (c : Counters) (mask : BitVec 8) : Counters :=
  if mask = 0xFF then c
  else if mask = 0x55 then { c with incX := c.incX + 1 }
  else if mask = 0x33 then { c with incY := c.incY + 1 }
  else if mask = 0x0F then { c with incZ := c.incZ + 1 }
  else if mask = 0x11 then { c with incXY := c.incXY + 1 }
  else if mask = 0x03 then { c with incYZ := c.incYZ + 1 }
  else if mask = 0x05 then { c with incXZ := c.incXZ + 1 }
  else if mask = 0x01 then { c with incXYZ := c.incXYZ + 1 }
  else { c with incInvalid := c.incInvalid + 1 }

/-- The payload of a completed octant, libsrc/cencalvm/average/AvgEngine.cc:330-353. -/
def finalPayload (rd : K → K) (sum : Payload K) (num : Nat) : Payload K :=
  if num > 0 then
    { vp := rd (sum.vp / num), vs := rd (sum.vs / num), density := rd (sum.density / num), qp := rd (sum.qp / num),
      qs := rd (sum.qs / num), depth := rd (sum.depth / num), faultBlock := INTERIORBLOCK, zone := INTERIORZONE }
  else
    { vp := NODATAVAL, vs := NODATAVAL, density := NODATAVAL, qp := NODATAVAL, qs := NODATAVAL,
      depth := NODATAVAL, faultBlock := INTERIORBLOCK, zone := INTERIORZONE }

/-- The part of `_processOctant` passing the result on to the parent, libsrc/cencalvm/average/AvgEngine.cc:356-361. -/
def passUp (env : Env K) (s : Engine K) (i : Nat) (p : Payload K) : Run (Engine K) Unit :=
  match i with
  | 0 => .ok s ()
  | j + 1 =>
    (Run.assert s (decide ((s.pending j).addr.level + 1 = (s.pending i).addr.level))).bind fun s _ =>
    addToParent env s j (s.pending i).addr p

/-- `_processOctant`, libsrc/cencalvm/average/AvgEngine.cc:276-366, with `_updateOctant`, 262-271. -/
def processOctant (env : Env K) (s : Engine K) (i : Nat) : Run (Engine K) Unit :=
  (Run.assert s (decide (i < pendingSize))).bind fun s _ =>
  (Run.assert s (s.pending i).valid).bind fun s _ =>
  let s := { s with cnt := countIncomplete s.cnt (s.pending i).mask }
  let payload := finalPayload env.rd (s.pending i).sum (s.pending i).num
  (write env s (s.out.update (s.pending i).addr.toKey payload)
    "Could not update octant in etree database.").bind fun s _ =>
  (passUp env s i payload).bind fun s _ =>
  let s := setPending s i { s.pending i with valid := false }
  (Run.assert s (decide (s.ncur = i + 1))).bind fun s _ =>
  .ok { s with ncur := i } ()

/-- First loop of `_findParent`, libsrc/cencalvm/average/AvgEngine.cc:389-393; the loop variable is `n - 1`. -/
def processDown (env : Env K) (levelCur : Nat) : Nat → Engine K → Run (Engine K) Unit
  | 0, s => .ok s ()
  | n + 1, s =>
    if n ≥ levelCur then (processOctant env s n).bind fun s _ => processDown env levelCur n s
    else .ok s ()

/-- Second loop of `_findParent`, libsrc/cencalvm/average/AvgEngine.cc:396-398; result and argument are
`pendingLevel + 1`. -/
def lowestValid (s : Engine K) : Nat → Nat
  | 0 => 0
  | n + 1 => if (s.pending n).valid then n + 1 else lowestValid s n

/-- Body of the third loop of `_findParent`: whether the octant has to be completed,
libsrc/cencalvm/average/AvgEngine.cc:402-410. -/
def mustClose (s : Engine K) (n : Nat) (ancestor : Addr) : Bool :=
  !sameAddr ancestor (s.pending n).addr || decide ((s.pending n).mask = 0xFF)

/-- Third loop of `_findParent`, libsrc/cencalvm/average/AvgEngine.cc:400-417; result and argument are
`pendingLevel + 1`. -/
def closeLoop (env : Env K) (addr : Addr) : Nat → Engine K → Run (Engine K) Nat
  | 0, s => .ok s 0
  | n + 1, s =>
    if (s.pending n).valid then
      match findAncestor addr n with
      | .ok a =>
        if mustClose s n a then
          (Run.assert s (decide (s.ncur = n + 1))).bind fun s _ =>
          (processOctant env s n).bind fun s _ => closeLoop env addr n s
        else .ok s (n + 1)
      | .exc m => .exc m s
      | .ub => .ub
    else .ok s (n + 1)

/-- A newly created pending octant, libsrc/cencalvm/average/AvgEngine.cc:464-477. -/
def newPending (addr : Addr) : Pending K :=
  { sum := { vp := 0, vs := 0, density := 0, qp := 0, qs := 0, depth := 0,
             faultBlock := INTERIORBLOCK, zone := INTERIORZONE }
    num := 0, addr := addr, mask := 0, valid := true }

/-- `_createOctant`, libsrc/cencalvm/average/AvgEngine.cc:449-482.  The payload appended is uninitialised.
Indexing outside the array of pending octants is undefined. -/
def createOctant (env : Env K) (s : Engine K) (addr : Addr) : Run (Engine K) Unit :=
  (Run.assert s (decide (addr.level < pendingSize))).bind fun s _ =>
  (Run.assert s (!(s.pending addr.level).valid)).bind fun s _ =>
  (Run.assert s (decide (addr.level = s.ncur))).bind fun s _ =>
  (write env s (s.out.append ⟨addr, env.junk⟩) "Error occurred while appending new octant to etree.").bind fun s _ =>
  let s := setPending s addr.level (newPending addr)
  .ok { s with
    ncur := addr.level + 1
    cnt := { s.cnt with output := s.cnt.output + 1, interior := s.cnt.interior + 1 } } ()

/-- Last loop of `_findParent`, libsrc/cencalvm/average/AvgEngine.cc:420-424: levels `n, ..., n + count - 1`. -/
def createLoop (env : Env K) (addr : Addr) : Nat → Nat → Engine K → Run (Engine K) Unit
  | _, 0, s => .ok s ()
  | n, count + 1, s =>
    match findAncestor addr n with
    | .ok a => (createOctant env s a).bind fun s _ => createLoop env addr (n + 1) count s
    | .exc m => .exc m s
    | .ub => .ub

/-- `_findParent` for a level above 0, libsrc/cencalvm/average/AvgEngine.cc:371-427; returns `pendingLevel`
before the final decrement of the return statement.  The assertion compares the level with the array size. -/
def findParent (env : Env K) (s : Engine K) (addr : Addr) : Run (Engine K) Nat :=
  (Run.assert s (decide (addr.level ≤ pendingSize))).bind fun s _ =>
  (processDown env addr.level s.ncur s).bind fun s _ =>
  (closeLoop env addr (lowestValid s addr.level) s).bind fun s n =>
  (createLoop env addr n (addr.level - n) s).bind fun s _ =>
  .ok s (max n addr.level)

/-- The loop completing full octants in `_averageOctant`, libsrc/cencalvm/average/AvgEngine.cc:176-184; result and
argument are `pendingLevel + 1`. -/
def fullLoop (env : Env K) : Nat → Engine K → Run (Engine K) Nat
  | 0, s => .ok s 0
  | n + 1, s =>
    if (s.pending n).mask = 0xFF then
      (Run.assert s (s.pending n).valid).bind fun s _ =>
      (Run.assert s (decide (s.ncur = n + 1))).bind fun s _ =>
      (processOctant env s n).bind fun s _ => fullLoop env n s
    else .ok s (n + 1)

/-- `_averageOctant`, libsrc/cencalvm/average/AvgEngine.cc:151-187. -/
def averageOctant (env : Env K) (s : Engine K) (e : Entry K) : Run (Engine K) Unit :=
  if e.addr.level = 0 then .ok s ()
  else
    (findParent env s e.addr).bind fun s n =>
    (Run.assert s (decide (n = e.addr.level) && decide (n ≤ s.ncur))).bind fun s _ =>
    (write env s (s.out.append e) "Error occurred while trying to append octant to etree.").bind fun s _ =>
    let s := { s with cnt := { s.cnt with input := s.cnt.input + 1, output := s.cnt.output + 1 } }
    (addToParent env s (n - 1) e.addr e.payload).bind fun s _ =>
    (fullLoop env n s).bind fun s n =>
    Run.assert s (decide (n ≤ s.ncur))

/-- `_finishProcessing`, libsrc/cencalvm/average/AvgEngine.cc:432-444; the loop variable is `n - 1`. -/
def finishProcessing (env : Env K) : Nat → Engine K → Run (Engine K) Unit
  | 0, s => .ok s ()
  | n + 1, s =>
    if (s.pending n).valid then
      (Run.assert s (decide (s.ncur = n + 1))).bind fun s _ =>
      (processOctant env s n).bind fun s _ => finishProcessing env n s
    else finishProcessing env n s

/-- The loop of `fillOctants`, libsrc/cencalvm/average/AvgEngine.cc:108-115.  `etree_advcursor` returns the same
value at the end of the database and on failure. -/
def inputLoop (env : Env K) : Nat → List (Entry K) → Engine K → Run (Engine K) Unit
  | _, [], s => .ok s ()
  | i, e :: es, s =>
    if env.getFault i then
      .exc "Error occurred while trying to get payload at current cursor position." s
    else
      (averageOctant env s e).bind fun s _ =>
      if env.advFault i then .ok s () else inputLoop env (i + 1) es s

/-- `fillOctants`, libsrc/cencalvm/average/AvgEngine.cc:86-123.  `etree_initcursor` fails on an empty database. -/
def fillOctants (env : Env K) (input : Db K) (s : Engine K) : Run (Engine K) Unit :=
  if input.entries = [] then .exc "Error occurred while initializing etree cursor." s
  else
    (write env s (some s.out) "Error occurred while trying to initiate appending of etree.").bind fun s _ =>
    (inputLoop env 0 input.entries s).bind fun s _ =>
    (finishProcessing env pendingSize s).bind fun s _ =>
    write env s (some s.out) "Error occurred while trying to terminate appending of etree."

/-- Averaging a database into an empty one (`Averager::average`, libsrc/cencalvm/average/Averager.cc:58-135, without
opening, schema and metadata). -/
def average (env : Env K) (input : Db K) : Run (Engine K) Unit := fillOctants env input (init env Db.empty)

end AvgEngine
end CenCalVM
