/-!
Small transcription layer for the Python 2 constructs used by the modelled code.
Exceptions are values of `Except PyErr`.
-/
namespace Verif

/-- Python exceptions that the modelled code can raise (by class). -/
inductive PyErr where
  | valueError | keyError | indexError | typeError | zeroDivision | nameError | attributeError
  | notImplemented
  /-- `OperationException` of src/eumopps/catalogue/placeholder.py 12-17 (a subclass of ValueError). -/
  | operationError
  | runtimeError
  | other
  deriving DecidableEq, Repr

instance [DecidableEq ε] [DecidableEq α] : DecidableEq (Except ε α)
  | .error a, .error b => if h : a = b then isTrue (by rw [h]) else isFalse (by intro e; cases e; exact h rfl)
  | .ok a, .ok b => if h : a = b then isTrue (by rw [h]) else isFalse (by intro e; cases e; exact h rfl)
  | .error _, .ok _ => isFalse (by intro e; cases e)
  | .ok _, .error _ => isFalse (by intro e; cases e)

namespace Py

/-- Python 2 `range(start, stop, step)` for natural arguments and `step > 0`. -/
def range3 (start stop step : Nat) : List Nat :=
  (List.range ((stop - start + step - 1) / step)).map (fun i => start + i * step)

/-- `l[-1] = f(l[-1])`: IndexError on the empty list. -/
def setLast (l : List α) (f : α → α) : Except PyErr (List α) :=
  match l.getLast? with
  | none => .error .indexError
  | some a => .ok (l.dropLast ++ [f a])

/-- `int(x)` for a quotient `a / b` of an integer by a positive integer: truncation toward zero. -/
def truncDiv (a : Int) (b : Int) : Int := Int.tdiv a b

/-- `l[i]` for a non-negative index: IndexError when out of range. -/
def idx (l : List α) (i : Nat) : Except PyErr α :=
  match l[i]? with
  | some a => .ok a
  | none => .error .indexError

/-- `l[i]` for any integer: negative indices count from the end. -/
def getItem (l : List α) (i : Int) : Except PyErr α :=
  if 0 ≤ i then idx l i.toNat
  else if 0 ≤ (l.length : Int) + i then idx l ((l.length : Int) + i).toNat
  else .error .indexError

/-- Insert before the first element whose key is not smaller. -/
def insertBy (f : α → Int) (x : α) : List α → List α
  | [] => [x]
  | y :: ys => if f x ≤ f y then x :: y :: ys else y :: insertBy f x ys

/-- `sorted(l, key=f)`: a stable sort on integer keys (any stable sort gives this result; see `sortedBy_filter`). -/
def sortedBy (f : α → Int) (l : List α) : List α := l.foldr (insertBy f) []

/-- `itertools.groupby(l, key=f)`: maximal runs of consecutive elements with equal keys. -/
def groupby (f : α → Int) : List α → List (Int × List α)
  | [] => []
  | x :: xs =>
    match groupby f xs with
    | (k, g) :: rest => if f x = k then (k, x :: g) :: rest else (f x, [x]) :: (k, g) :: rest
    | [] => [(f x, [x])]

/-- Lookup in a dictionary built by a comprehension over `l`: the last binding of a key wins. -/
def dictGet [DecidableEq κ] (l : List (κ × β)) (k : κ) : Option β :=
  (l.reverse.find? (fun e => decide (e.1 = k))).map (·.2)

end Py
end Verif
