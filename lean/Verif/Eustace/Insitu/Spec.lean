import Verif.Eustace.Insitu.Model

/-! What is expected of in-situ measurements over land. -/

namespace Verif.Eustace.Insitu.Spec

open Verif.Eustace.Insitu

/-- A quantity, its variable and the variable of its flags. -/
inductive Quantity : String → String → String → Prop
  | minimum : Quantity "Tmin" "tasmin" "tasmin_qc"
  | maximum : Quantity "Tmax" "tasmax" "tasmax_qc"

/-- The same text in fields which may have different lengths and are filled with zeros. -/
def SameText (a b : List UInt8) : Prop := ∃ c m n, a = c ++ List.replicate m 0 ∧ b = c ++ List.replicate n 0

/-- Station `j` is in the list of those held out, if there is one. -/
def HeldOut (file : StationFile) (hold : Option HoldOut) (j : Nat) : Prop :=
  ∃ list, hold = some list ∧ ∃ k < list.count, SameText (file.code j) (list.code k)

/-- The measurement in row `t` of station `j` is to be used: it is there, it passed the checks if that is asked for, and the
station is not held out. -/
def Usable (file : StationFile) (variable_ flags : String) (hold : Option HoldOut) (qc : Bool) (t j : Nat) : Prop :=
  file.missing variable_ t j = false ∧ (qc = true → file.flag flags t j = 0) ∧ ¬ HeldOut file hold j

/-- Row `t` is the only one of a day. -/
def OnlyRow (times : List ℚ) (day : Int) (t : Nat) : Prop :=
  times[t]? = some (day : ℚ) ∧ ∀ t' : Nat, times[t']? = some (day : ℚ) → t' = t

/-- All lists have `n` elements. -/
def Sized (o : RawBinary.Observations ℝ) (n : Nat) : Prop :=
  o.mask.length = n ∧ o.location.length = n ∧ o.measurement.length = n ∧ o.uncorrelated.length = n ∧ o.correlated = []

end Verif.Eustace.Insitu.Spec
