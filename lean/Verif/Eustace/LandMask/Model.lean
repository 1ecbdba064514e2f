import Verif.Eustace.LandModel.Model

/-! The grid of the model of air temperature over land and the joining of the two masks of ice, in IDL
(`src/eustace/surfaceairmodel/model_land_idl.pro` 254-287 and `model_land_idl_setup_satellite.pro`).

Real numbers for floats; surface types as integers rather than bytes.  Longitudes and latitudes are vectors: `lat_mask[0, *]`, and the
longitudes of the first row. -/

namespace Verif.Eustace.LandMask

open Verif Verif.Eustace.LandModel

noncomputable section

/-- Number of places of a strip, before it is checked (model_land_idl_setup_satellite.pro 1500-1515). -/
def stripLength (p1 p2 res : ℝ) (gridPoints : Bool) : ℝ := |(p2 - p1) / res| + if gridPoints then 1 else 0

open Classical in
/-- The strip of latitudes or of longitudes (model_land_idl_setup_satellite.pro 1500-1535).  `FIX` gives 16 bits. -/
def strip (p1 p2 res : ℝ) (gridPoints : Bool) : Except PyErr (List ℝ) :=
  let offset := if gridPoints then 0 else res / 2
  let n := stripLength p1 p2 res gridPoints
  if (fix ⌊n⌋ : ℝ) ≠ n then .error .other
  else if p1 < p2 then .ok ((List.range (fix ⌊n⌋).toNat).map fun (i : ℕ) => p1 + offset + i * res)
  else .ok ((List.range (fix ⌊n⌋).toNat).map fun (i : ℕ) => p1 - offset - i * res)

/-- `generate_lat_long_grid`: the strips of which the grid is made (model_land_idl_setup_satellite.pro 1455-1544). -/
def generateGrid (lat1 lat2 lon1 lon2 latres lonres : ℝ) (gridPoints : Bool) : Except PyErr (List ℝ × List ℝ) :=
  match strip lat1 lat2 latres gridPoints, strip lon1 lon2 lonres gridPoints with
  | .ok lats, .ok lons => .ok (lats, lons)
  | .error e, _ => .error e
  | _, .error e => .error e

/-- An element of the combined list: its value, which vector it is of (false for `a`) and its subscript
(model_land_idl_setup_satellite.pro 133-135). -/
abbrev Elem := ℝ × Bool × ℕ

/-- `c`, `ind` and `vec` before sorting (model_land_idl_setup_satellite.pro 133-135). -/
def combined (a b : List ℝ) : List Elem := (a.zipIdx.map fun x => (x.1, false, x.2)) ++ b.zipIdx.map fun x => (x.1, true, x.2)

/-- Neighbours in the list. -/
def neighbours : List Elem → List (Elem × Elem)
  | x :: y :: rest => (x, y) :: neighbours (y :: rest)
  | _ => []

/-- The last and the first, which `shift` makes neighbours; the subscript beyond the end of `ind[dup]` is clipped to the last
(model_land_idl_setup_satellite.pro 148, 158-163). -/
def around (c : List Elem) : List (Elem × Elem × Elem) :=
  match c.head?, c.getLast? with
  | some f, some l => [(l, f, l)]
  | _, _ => []

open Classical in
/-- Pairs of neighbours with the same value from different vectors (model_land_idl_setup_satellite.pro 148, 158-161). -/
def duplicates (c : List Elem) : List (Elem × Elem) :=
  ((neighbours c).map fun p => (p.1, p.2, p.2)).filterMap (fun p => if p.1.1 = p.2.1.1 ∧ p.1.2.1 ≠ p.2.1.2.1 then some (p.1, p.2.2) else none)
    ++ (around c).filterMap fun p => if p.1.1 = p.2.1.1 ∧ p.1.2.1 ≠ p.2.1.2.1 then some (p.1, p.2.2) else none

/-- Subscripts of one of the vectors in the pairs (model_land_idl_setup_satellite.pro 162-165). -/
def subscripts (which : Bool) (d : List (Elem × Elem)) : List ℕ :=
  ((d.flatMap fun p => [p.1, p.2]).filter fun x => x.2.1 == which).map fun x => x.2.2

/-- `match` for floats and vectors of more than one element (model_land_idl_setup_satellite.pro 12-204), given the sorted list: the order
which `sort` gives to equal elements is not known.  If nothing matches, the subscripts are vectors of the element -1, which are clipped to
nought where they are used. -/
def matchSorted (c : List Elem) : List ℕ × List ℕ :=
  let d := duplicates c
  if d = [] then ([0], [0]) else (subscripts false d, subscripts true d)

/-- Surface types by column and row. -/
abbrev Types := ℕ → ℕ → ℤ

/-- `global_mask_temp[*, rows]=surface_type_mask[*, subs]` (model_land_idl.pro 284-285). -/
def putRows (temp mask : Types) : List (ℕ × ℕ) → Types
  | [] => temp
  | (row, sub) :: rest => putRows (fun x y => if y = row then mask x sub else temp x y) mask rest

/-- A file of a mask (model_land_idl.pro 266-271). -/
structure MaskFile where
  lats : List ℝ
  lons : List ℝ
  types : Types

/-- The greatest of a list. -/
def greatest (l : List ℝ) : ℝ := l.foldl max (l.headD 0)

/-- The least of a list. -/
def least (l : List ℝ) : ℝ := l.foldl min (l.headD 0)

open Classical in
/-- Cells of ice of the joined masks, as given to the model of air temperature (model_land_idl.pro 258-286).  The sorted lists of the two
calls of `match` are given. -/
def joinMasks (latres lonres : ℝ) (m1 m2 : MaskFile) (sorted1 sorted2 : List Elem) : Except PyErr Types :=
  match generateGrid (-90) 90 (-180) 180 latres lonres false with
  | .error e => .error e
  | .ok (_, lons) =>
    if greatest m1.lons ≠ greatest lons ∨ least m1.lons ≠ least lons then .error .other
    else
      let s1 := matchSorted sorted1
      let s2 := matchSorted sorted2
      .ok (putRows (putRows (fun _ _ => 0) m1.types (s1.2.zip s1.1)) m2.types (s2.2.zip s2.1))

end

end Verif.Eustace.LandMask
