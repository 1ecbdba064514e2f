import Mathlib.Data.Rat.Defs
import Mathlib.Algebra.Order.Ring.Rat
import Mathlib.Algebra.BigOperators.Group.List.Basic

/-! Model of the running window statistics in src/eustace/postprocess/outlier_check.py.

A field of `n` latitude rows and `m` longitude columns is a function of the two indices; only indices below `n` and `m` matter.
Windows are odd (`2 * r + 1` rows and `2 * s + 1` columns), as in every call. Floating point numbers are rational numbers,
NaN in results is `none`; NaN in the data is not modelled. -/
namespace Verif.Eustace.Smooth

/-- A field of two dimensions. -/
abbrev Field (α : Type) := Nat → Nat → α

/-- Source index of `numpy.pad(..., 'reflect')` at position `j` relative to the first element (negative or beyond the end
inside the padding); numpy reflects repeatedly when the padding is wider than the array, and repeats a single element. -/
def reflectIndex (n : Nat) (j : Int) : Nat :=
  if n ≤ 1 then 0 else
    let k := (j % (2 * ((n : Int) - 1))).toNat
    if k < n then k else 2 * (n - 1) - k

/-- Source index of `numpy.pad(..., 'wrap')`. -/
def wrapIndex (m : Nat) (j : Int) : Nat := (j % (m : Int)).toNat

/-- One window of `strided_image`, outlier_check.py 117-123 and 164-170: the padded values around cell `(i, j)`. -/
def windowAt {α : Type} (n m r s : Nat) (image : Field α) (i j : Nat) : List α :=
  (List.range (2 * r + 1)).flatMap fun a : Nat => (List.range (2 * s + 1)).map fun b : Nat =>
    image (reflectIndex n ((i : Int) + a - r)) (wrapIndex m ((j : Int) + b - s))

/-- The slice of block `step` of `steps`: the last one is open, outlier_check.py 143-151 and 185-193. -/
def inSlice (size blocks step length i : Nat) : Bool :=
  if step = blocks - 1 then step * size ≤ i && i < length else step * size ≤ i && i < (step + 1) * size

/-- The loops over blocks, outlier_check.py 141-158 and 183-198: each block assigns its part of the result. -/
def blocked {α β : Type} (stat : List α → β) (n m r s size latSteps lonSteps : Nat) (image : Field α) (initial : Field β) :
    Field β :=
  (List.range latSteps).foldl (fun out p =>
    (List.range lonSteps).foldl (fun out q => fun i j =>
      if inSlice size latSteps p n i && inSlice size lonSteps q m j then stat (windowAt n m r s image i j) else out i j) out) initial

/-- `int(numpy.ceil(float(n) / size))`. -/
def ceilDiv (n size : Nat) : Nat := (n + size - 1) / size

/-- `COMPUTATION_BLOCKSIZE` and the block size in `compute_window_mean`, outlier_check.py 62 and 175-176. -/
def blockSize : Nat := 10

/-- `compute_window_median_quartiles`, outlier_check.py 112-160, for an arbitrary statistic of a window in the place of the
three percentiles; the result starts as an array of zeros. -/
def windowQuartiles {α β : Type} (stat : List α → β) (zero : β) (n m r s : Nat) (image : Field α) : Field β :=
  blocked stat n m r s blockSize (ceilDiv n blockSize) (ceilDiv m blockSize) image fun _ _ => zero

/-- `numpy.mean` over a window. -/
def mean (l : List Rat) : Rat := l.sum / l.length

/-- `compute_window_mean`, outlier_check.py 163-200. -/
def windowMean (n m r s : Nat) (image : Field Rat) : Field Rat :=
  blocked mean n m r s blockSize (n / blockSize) (m / blockSize) image fun _ _ => 0

/-- Booleans as numbers. -/
def asNumber (b : Bool) : Rat := if b then 1 else 0

/-- `numpy.int64(x)`: truncation toward zero. -/
def truncate (x : Rat) : Int := if 0 ≤ x then x.floor else -((-x).floor)

/-- Extension of flagged regions, outlier_check.py 294-295 and 341-342:
`numpy.int64(1.0 - compute_window_mean(flags, w, w)) == 0`. -/
def extend (n m r s : Nat) (flagged : Field Bool) : Field Bool := fun i j =>
  truncate (1 - windowMean n m r s (fun i j => asNumber (flagged i j)) i j) == 0

/-- `block_iqr_by_range`, outlier_check.py 202-263, for an arbitrary statistic. The latitude range in cells is the same for
every block, the longitude range depends on the block; both are parameters (their computation from kilometres is not
modelled). Rows not assigned stay NaN. The number of blocks is an integer division in Python 2, so the surrounding `ceil` has
no effect. -/
def blockStatistics {α β : Type} (stat : List α → β) (zero : β) (n m size r : Nat) (lonRange : Nat → Nat) (image : Field α) :
    Field (Option β) :=
  (List.range (n / size)).foldl (fun out block =>
    let lat0 := block * size
    let lat1 := min ((block + 1) * size) n
    let ext0 := lat0 - r
    let ext1 := min ((block + 1) * size + r) n
    let result := windowQuartiles stat zero (ext1 - ext0) m r (lonRange block) fun i j => image (ext0 + i) j
    fun i j => if lat0 ≤ i && i < lat1 then some (result (i - lat0 + (lat0 - ext0)) j) else out i j) fun _ _ => none

end Verif.Eustace.Smooth
