/-
The conversion of a location to an octant address with numbers that may be infinite or not a number, and with overflow.
-/
import Verif.Model.Float

namespace CenCalVM

/-- A value of type `double`: finite, infinite (`neg` tells the sign) or not a number.  The two zeros are not told apart. -/
inductive Num (K : Type) where
  | fin (x : K)
  | inf (neg : Bool)
  | nan
  deriving DecidableEq, Repr

namespace Num
variable {K : Type} [Field K] [LinearOrder K]

/-- The largest finite `double`. -/
def maxDouble : K := (2 ^ 53 - 1) * 2 ^ 971

/-- The `double` for an exact result: rounded by `rd`, infinite if that exceeds the largest finite one.  (The directions of rounding
that stop at the largest finite number are left out, and so is gradual underflow.) -/
def ofExact (rd : K → K) (x : K) : Num K := if |rd x| ≤ maxDouble then .fin (rd x) else .inf (decide (x < 0))

/-- Sum of IEEE 754. -/
def add (rd : K → K) : Num K → Num K → Num K
  | .fin x, .fin y => ofExact rd (x + y)
  | .nan, _ => .nan
  | _, .nan => .nan
  | .inf s, .inf t => if s = t then .inf s else .nan
  | .inf s, .fin _ => .inf s
  | .fin _, .inf t => .inf t

/-- Change of sign. -/
def neg : Num K → Num K
  | .fin x => .fin (-x)
  | .inf s => .inf (!s)
  | .nan => .nan

/-- Difference of IEEE 754. -/
def sub (rd : K → K) (a b : Num K) : Num K := add rd a (neg b)

/-- Product with a finite constant. -/
def mul (rd : K → K) : Num K → K → Num K
  | .fin x, c => ofExact rd (x * c)
  | .inf s, c => if c = 0 then .nan else .inf (if c < 0 then !s else s)
  | .nan, _ => .nan

/-- Quotient by a finite constant other than zero. -/
def div (rd : K → K) : Num K → K → Num K
  | .fin x, c => ofExact rd (x / c)
  | .inf s, c => .inf (if c < 0 then !s else s)
  | .nan, _ => .nan

/-- `a < b`; false if either is not a number. -/
def lt : Num K → Num K → Bool
  | .fin x, .fin y => decide (x < y)
  | .nan, _ => false
  | _, .nan => false
  | .inf s, .inf t => s && !t
  | .inf s, .fin _ => s
  | .fin _, .inf t => !t

end Num

namespace GeomCenCA
variable {K : Type} [Field K] [LinearOrder K] [FloorRing K]

/-- First root axis, libsrc/cencalvm/storage/GeomCenCA.cc:88-89. -/
def rootPNum (rd : K → K) (f : Frame K) (x y : Num K) : Num K :=
  .sub rd (.mul rd (.sub rd x (.fin f.xNWRoot)) f.cosAz) (.mul rd (.sub rd y (.fin f.yNWRoot)) f.sinAz)
/-- Second root axis, libsrc/cencalvm/storage/GeomCenCA.cc:90-91. -/
def rootQNum (rd : K → K) (f : Frame K) (x y : Num K) : Num K :=
  .add rd (.mul rd (.sub rd x (.fin f.xNWRoot)) f.sinAz) (.mul rd (.sub rd y (.fin f.yNWRoot)) f.cosAz)
/-- Vertical root axis, libsrc/cencalvm/storage/GeomCenCA.cc:92. -/
def rootRNum (rd : K → K) (elev : Num K) : Num K :=
  .add rd (.mul rd (.sub rd elev (.fin MAXELEV)) VERTEXAG) (.fin ROOTLEN)

/-- Conversion to `etree_tick_t` and product with the tick length, libsrc/cencalvm/storage/GeomCenCA.cc:103-108.  The conversion of a
number that the unsigned type cannot hold is undefined. -/
def tickNum (rd : K → K) (p : Num K) (level : Nat) : Outcome (BitVec 32) :=
  match Num.div rd p (edgeLenFl rd level) with
  | .fin v => if -1 < v ∧ v < 2 ^ 32 then .ok (tickLen level * BitVec.ofNat 32 ⌊v⌋₊) else .ub
  | .inf _ => .ub
  | .nan => .ub

/-- `GeomCenCA::lonLatElevToAddr`, libsrc/cencalvm/storage/GeomCenCA.cc:70-112, with any arguments.  The projection may return any
numbers.  The members of the frame and the constants are finite. -/
def lonLatElevToAddrNum (rd : K → K) (f : Frame K) (project : Num K → Num K → Outcome (Num K × Num K)) (a : Addr)
    (lon lat elev : Num K) : Outcome (Addr × Int) :=
  if a.level < 32 then
    match project lon lat with
    | .exc m => .exc m
    | .ub => .ub
    | .ok (x, y) =>
      let p := rootPNum rd f x y
      let q := rootQNum rd f x y
      let r := rootRNum rd elev
      if p.lt (.fin 0) || Num.lt (.fin ROOTLEN) p || q.lt (.fin 0) || Num.lt (.fin ROOTLEN) q || r.lt (.fin 0) ||
          Num.lt (.fin ROOTLEN) r then
        .ok ({ a with x := -1, y := -1, z := -1 }, 1)
      else
        match tickNum rd p a.level, tickNum rd q a.level, tickNum rd r a.level with
        | .ok i, .ok j, .ok k => .ok ({ a with x := i, y := j, z := k }, 0)
        | _, _, _ => .ub
  else .ub

end GeomCenCA
end CenCalVM
