import Verif.Eumopps.Checksum.Model

/-! Specification vocabulary for the checksum properties. -/
namespace Verif.Eumopps.Checksum

/-- The half-open ranges, listed one after the other, run through `0, 1, ..., n-1` exactly once and in order,
and none of them is empty. -/
def ExactPartition (ranges : List (Nat × Nat)) (n : Nat) : Prop :=
  (∀ r ∈ ranges, r.1 < r.2) ∧
  ranges.flatMap (fun r => List.range' r.1 (r.2 - r.1)) = List.range n

/-- What a single sequential pass stores in an entry. -/
def checksummed (read : Reader) (e : Entry) : Entry :=
  match read e.name with
  | some (c, s) => { e with checksum := some c, size := some s }
  | none => e

end Verif.Eumopps.Checksum
