import Verif.Eustace.Elements.Model
import Mathlib.Tactic.Linarith
import Mathlib.Tactic.NormNum
import Mathlib.Tactic.Ring
import Mathlib.Algebra.BigOperators.Intervals
import Mathlib.Analysis.Calculus.Deriv.Add
import Mathlib.Analysis.Calculus.Deriv.Mul

/-!
C39, C42: designs of combinations and Jacobians.
-/

namespace Verif.Eustace.Elements

open Verif Verif.Eustace.Mesh Verif.Eustace.Locator Verif.Eustace.Lattice Finset

noncomputable section

/-! ### Specification -/

/-- The sum of vectors with `n` values. -/
def vectorSum (n : Nat) (vs : List (List ℝ)) : List ℝ := (List.range n).map fun i => (vs.map fun v => v.getD i 0).sum

/-- The product of a matrix and a vector. -/
def product (A : Arr) (x : List ℝ) : List ℝ :=
  (List.range A.rows).map fun i => ∑ j ∈ Finset.range A.cols, A.get i j * x.getD j 0

/-! ### Lists -/

theorem collect_forall₂ {α β : Type} {f : α → Except PyErr β} {l : List α} {r : List β}
    (h : List.Forall₂ (fun a b => f a = .ok b) l r) : collect (l.map f) = .ok r := by
  induction h with
  | nil => rfl
  | cons ha _ ih => simp [collect, ha, ih]

theorem collect_ok {α β : Type} {f : α → Except PyErr β} {l : List α} {r : List β} (h : collect (l.map f) = .ok r) :
    List.Forall₂ (fun a b => f a = .ok b) l r := by
  induction l generalizing r with
  | nil =>
    simp only [List.map_nil, collect, Except.ok.injEq] at h
    subst h
    exact .nil
  | cons a rest ih =>
    simp only [List.map_cons] at h
    cases ha : f a with
    | error e => rw [ha] at h; simp [collect] at h
    | ok b =>
      rw [ha] at h
      cases hc : collect (rest.map f) with
      | error e => simp [collect, hc] at h
      | ok l =>
        simp only [collect, hc, Except.ok.injEq] at h
        subst h
        exact .cons ha (ih hc)

theorem collect_error {α : Type} (l : List (Except PyErr α)) (e : PyErr) (h : .error e ∈ l)
    (hall : ∀ x ∈ l, (∃ a, x = .ok a) ∨ x = .error e) : collect l = .error e := by
  induction l with
  | nil => simp at h
  | cons a rest ih =>
    rcases hall a (by simp) with ⟨v, rfl⟩ | rfl
    · have hm : .error e ∈ rest := by simpa using h
      simp [collect, ih hm (fun x hx => hall x (by simp [hx]))]
    · simp [collect]

theorem statesFrom_eq (before : List ℝ) (xs : List (List ℝ)) :
    statesFrom (before ++ xs.flatten) before.length (xs.map List.length) = xs := by
  induction xs generalizing before with
  | nil => simp [statesFrom]
  | cons x rest ih =>
    simp only [List.map_cons, statesFrom, List.flatten_cons]
    rw [List.drop_left, List.take_left]
    have := ih (before ++ x)
    rw [List.length_append, List.append_assoc] at this
    rw [this]

theorem elementStates_eq (designs : List Design) (xs : List (List ℝ))
    (h : List.Forall₂ (fun (d : Design) x => x.length = d.size) designs xs) :
    elementStates designs (some xs.flatten) = xs.map some := by
  have e : designs.map Design.size = xs.map List.length := by
    induction h with
    | nil => rfl
    | cons hd _ ih => simp [hd, ih]
  unfold elementStates
  rw [e]
  have := statesFrom_eq [] xs
  simp only [List.nil_append, List.length_nil] at this
  simp only [this]

theorem zip_map_some (designs : List Design) (xs : List (List ℝ)) {β : Type} (f : Design → Option (List ℝ) → Except PyErr β)
    {r : List β} (hl : designs.length = xs.length)
    (h : List.Forall₂ (fun (p : Design × List ℝ) b => f p.1 (some p.2) = .ok b) (designs.zip xs) r) :
    collect ((designs.zip (xs.map some)).map fun p => f p.1 p.2) = .ok r := by
  have : (designs.zip (xs.map some)).map (fun p => f p.1 p.2) = (designs.zip xs).map fun p => f p.1 (some p.2) := by
    rw [List.zip_map_right, List.map_map]
    rfl
  rw [this]
  exact collect_forall₂ h

theorem addAll_eq (n : Nat) (vs : List (List ℝ)) (acc : List ℝ) (ha : acc.length = n) (hv : ∀ v ∈ vs, v.length = n) :
    addAll acc vs = .ok ((List.range n).map fun i => acc.getD i 0 + (vs.map fun v => v.getD i 0).sum) := by
  induction vs generalizing acc with
  | nil =>
    simp only [addAll, List.map_nil, List.sum_nil, add_zero]
    congr 1
    subst ha
    apply List.ext_getElem
    · simp
    · intro i h1 h2
      simp [List.getD, h1]
  | cons v rest ih =>
    have h1 : v.length = n := hv v (by simp)
    unfold addAll
    rw [if_pos (by rw [h1, ha])]
    rw [ih _ (by simp [ha, h1]) (fun w hw => hv w (by simp [hw]))]
    congr 1
    apply List.map_congr_left
    intro i hi
    have hi' : i < n := by simpa using hi
    simp only [List.map_cons, List.sum_cons]
    have : (acc.zipWith (· + ·) v).getD i 0 = acc.getD i 0 + v.getD i 0 := by
      simp [List.getD, ha, h1, hi']
    rw [this, add_assoc]

/-- C39: the function of a combination is the sum of the functions of its parts, each at its own slice of the state. -/
theorem c39_function (designs : List Design) (xs vs : List (List ℝ)) (rectified : Option Bool) (n : Nat)
    (hne : designs ≠ [])
    (hx : List.Forall₂ (fun (d : Design) x => x.length = d.size) designs xs)
    (hv : List.Forall₂ (fun (p : Design × List ℝ) v => p.1.function (some p.2) (some (rectified.getD false)) = .ok v)
      (designs.zip xs) vs)
    (hn : ∀ v ∈ vs, v.length = n) :
    (combinedDesign designs).function (some xs.flatten) rectified = .ok (vectorSum n vs) := by
  show combinedFunction designs _ rectified = _
  unfold combinedFunction
  rw [elementStates_eq designs xs hx]
  rw [zip_map_some designs xs (fun d s => d.function s (some (rectified.getD false))) hx.length_eq hv]
  cases vs with
  | nil =>
    have h1 := hv.length_eq
    rw [List.length_zip, hx.length_eq] at h1
    have h2 := hx.length_eq
    simp only [Nat.min_self, List.length_nil] at h1
    rw [h1] at h2
    exact absurd (List.length_eq_zero_iff.mp h2) hne
  | cons v rest =>
    have hl : v.length = n := hn v (by simp)
    simp only
    rw [hl, addAll_eq n (v :: rest) _ (by simp) hn]
    congr 1
    apply List.map_congr_left
    intro i hi
    have hi' : i < n := by simpa using hi
    simp [List.getD, hi']

/-! ### Matrices side by side -/

theorem besides_offset (before : List Arr) (A : Arr) (rest : List Arr) (i j : Nat) (hj : j < A.cols) :
    Arr.besides (before ++ A :: rest) i ((before.map Arr.cols).sum + j) = A.get i j := by
  induction before with
  | nil => simp [Arr.besides, hj]
  | cons B before ih =>
    simp only [List.cons_append, List.map_cons, List.sum_cons, Arr.besides]
    rw [if_neg (by omega), show B.cols + (before.map Arr.cols).sum + j - B.cols = (before.map Arr.cols).sum + j by omega, ih]

theorem getD_append_left' (a b : List ℝ) (j : Nat) (h : j < a.length) : (a ++ b).getD j 0 = a.getD j 0 := by
  simp [List.getD, List.getElem?_append_left h]

theorem getD_append_right' (a b : List ℝ) (j : Nat) : (a ++ b).getD (a.length + j) 0 = b.getD j 0 := by
  simp [List.getD, List.getElem?_append_right]

theorem besides_sum (As : List Arr) (ys : List (List ℝ)) (i : Nat)
    (h : List.Forall₂ (fun (A : Arr) (y : List ℝ) => y.length = A.cols) As ys) :
    ∑ j ∈ range (As.map Arr.cols).sum, Arr.besides As i j * ys.flatten.getD j 0 =
      ((As.zip ys).map fun p => ∑ j ∈ range p.1.cols, p.1.get i j * p.2.getD j 0).sum := by
  induction h with
  | nil => simp
  | @cons A y As ys hA _ ih =>
    simp only [List.map_cons, List.sum_cons, List.zip_cons_cons, List.flatten_cons]
    rw [Finset.sum_range_add, ← ih]
    congr 1
    · apply Finset.sum_congr rfl
      intro j hj
      have hj' : j < A.cols := by simpa using hj
      rw [getD_append_left' _ _ _ (by omega), Arr.besides, if_pos hj']
    · apply Finset.sum_congr rfl
      intro j _
      rw [← hA, getD_append_right', hA, Arr.besides, if_neg (by omega), Nat.add_sub_cancel_left]

theorem hstack_ok (As : List Arr) (n : Nat) (hne : As ≠ []) (hr : ∀ A ∈ As, A.rows = n) :
    ∃ A, Arr.hstack As = .ok A ∧ A.rows = n ∧ A.cols = (As.map Arr.cols).sum ∧ A.get = Arr.besides As := by
  cases As with
  | nil => exact absurd rfl hne
  | cons A rest =>
    refine ⟨⟨A.rows, ((A :: rest).map Arr.cols).sum, Arr.besides (A :: rest)⟩, ?_, ?_, rfl, rfl⟩
    · unfold Arr.hstack
      simp only
      rw [if_pos]
      rw [List.all_eq_true]
      intro B hB
      simp [hr B (by simp [hB]), hr A (by simp)]
    · exact hr A (by simp)

theorem hstack_dot (As : List Arr) (ys : List (List ℝ)) (n : Nat) (A : Arr) (hrows : A.rows = n)
    (hcols : A.cols = (As.map Arr.cols).sum) (hget : A.get = Arr.besides As) (hr : ∀ B ∈ As, B.rows = n)
    (h : List.Forall₂ (fun (A : Arr) (y : List ℝ) => y.length = A.cols) As ys) :
    A.dot ys.flatten = .ok (vectorSum n ((As.zip ys).map fun p => product p.1 p.2)) := by
  have hlen : ys.flatten.length = (As.map Arr.cols).sum := by
    clear hcols hget hr
    induction h with
    | nil => simp
    | cons h0 _ ih => simp only [List.flatten_cons, List.length_append, List.map_cons, List.sum_cons, ih, h0]
  unfold Arr.dot
  rw [if_neg (by rw [hcols, hlen]; simp)]
  congr 1
  rw [hrows]
  unfold vectorSum
  apply List.map_congr_left
  intro i hi
  have hi' : i < n := by simpa using hi
  rw [hcols, hget, besides_sum As ys i h, List.map_map]
  congr 1
  apply List.map_congr_left
  rintro ⟨B, y⟩ hB
  have hBr : B.rows = n := hr B (List.of_mem_zip hB).1
  simp [product, List.getD, hBr, hi']

/-- C39: the Jacobian of a combination consists of the Jacobians of its parts, each at its own slice of the state and in its
own columns; applied to a vector it is the sum of the Jacobians of the parts applied to the slices. -/
theorem c39_jacobian (designs : List Design) (xs : List (List ℝ)) (Js : List Arr) (n : Nat) (hne : designs ≠ [])
    (hx : List.Forall₂ (fun (d : Design) x => x.length = d.size) designs xs)
    (hJ : List.Forall₂ (fun (p : Design × List ℝ) J => p.1.jacobian (some p.2) = .ok J) (designs.zip xs) Js)
    (hr : ∀ J ∈ Js, J.rows = n) :
    ∃ J, (combinedDesign designs).jacobian (some xs.flatten) = .ok J ∧ J.rows = n ∧ J.cols = (Js.map Arr.cols).sum ∧
      (∀ before A rest, Js = before ++ A :: rest → ∀ i j, j < A.cols →
        J.get i ((before.map Arr.cols).sum + j) = A.get i j) ∧
      ∀ ys : List (List ℝ), List.Forall₂ (fun (A : Arr) (y : List ℝ) => y.length = A.cols) Js ys →
        J.dot ys.flatten = .ok (vectorSum n ((Js.zip ys).map fun p => product p.1 p.2)) := by
  have hne' : Js ≠ [] := by
    rintro rfl
    have h1 := hJ.length_eq
    rw [List.length_zip, hx.length_eq, Nat.min_self, List.length_nil] at h1
    have h2 := hx.length_eq
    rw [h1] at h2
    exact hne (List.length_eq_zero_iff.mp h2)
  obtain ⟨J, hJ1, hJr, hJc, hJg⟩ := hstack_ok Js n hne' hr
  refine ⟨J, ?_, hJr, hJc, ?_, ?_⟩
  · show combinedJacobian designs _ = _
    unfold combinedJacobian
    rw [elementStates_eq designs xs hx]
    rw [zip_map_some designs xs (fun d s => d.jacobian s) hx.length_eq hJ]
    exact hJ1
  · rintro before A rest rfl i j hj
    rw [hJg, besides_offset _ _ _ _ _ hj]
  · intro ys hy
    exact hstack_dot Js ys n J hJr hJc hJg hr hy

/-- C39: the design matrix of a combination consists of the design matrices of its parts. -/
theorem c39_matrix (designs : List Design) (As : List Arr) (n : Nat) (hne : designs ≠ [])
    (hA : List.Forall₂ (fun (d : Design) A => d.matrix = .ok A) designs As) (hr : ∀ A ∈ As, A.rows = n) :
    ∃ M, (combinedDesign designs).matrix = .ok M ∧ M.rows = n ∧ M.cols = (As.map Arr.cols).sum ∧
      (∀ before A rest, As = before ++ A :: rest → ∀ i j, j < A.cols →
        M.get i ((before.map Arr.cols).sum + j) = A.get i j) ∧
      ∀ ys : List (List ℝ), List.Forall₂ (fun (A : Arr) (y : List ℝ) => y.length = A.cols) As ys →
        M.dot ys.flatten = .ok (vectorSum n ((As.zip ys).map fun p => product p.1 p.2)) := by
  have hne' : As ≠ [] := by
    rintro rfl
    have h1 := hA.length_eq
    exact hne (List.length_eq_zero_iff.mp h1)
  obtain ⟨J, hJ1, hJr, hJc, hJg⟩ := hstack_ok As n hne' hr
  refine ⟨J, ?_, hJr, hJc, ?_, ?_⟩
  · show combinedMatrix designs = _
    unfold combinedMatrix
    rw [collect_forall₂ hA]
    exact hJ1
  · rintro before A rest rfl i j hj
    rw [hJg, besides_offset _ _ _ _ _ hj]
  · intro ys hy
    exact hstack_dot As ys n J hJr hJc hJg hr hy

/-- C39: one and the same array for the state is split without gap or overlap, whatever its values. -/
theorem c39_split (designs : List Design) (x : List ℝ) (hx : x.length = (combinedDesign designs).size) :
    ∃ xs, elementStates designs (some x) = xs.map some ∧ xs.flatten = x ∧
      List.Forall₂ (fun (d : Design) x => x.length = d.size) designs xs := by
  have key : ∀ (l : List Design) (x : List ℝ), x.length = (l.map Design.size).sum →
      ∃ xs : List (List ℝ), xs.flatten = x ∧ List.Forall₂ (fun (d : Design) x => x.length = d.size) l xs := by
    intro l
    induction l with
    | nil =>
      intro x hx
      have : x = [] := by simpa using hx
      exact ⟨[], by simp [this], .nil⟩
    | cons d rest ih =>
      intro x hx
      simp only [List.map_cons, List.sum_cons] at hx
      obtain ⟨xs, h1, h2⟩ := ih (x.drop d.size) (by rw [List.length_drop]; omega)
      refine ⟨x.take d.size :: xs, ?_, .cons (by rw [List.length_take]; omega) h2⟩
      rw [List.flatten_cons, h1, List.take_append_drop]
  obtain ⟨xs, h1, h2⟩ := key designs x hx
  exact ⟨xs, by rw [← h1, elementStates_eq designs xs h2], h1, h2⟩

/-- C39: the initial state has, for each part, the initial state of a nonlinear part and zeros for a linear part. -/
theorem fillInitial_eq (designs : List Design) (vs : List (List ℝ)) (before : List ℝ)
    (h : List.Forall₂ (fun (d : Design) v => v.length = d.size ∧
      if d.nonlinear then d.initial = .ok (some v) else v = List.replicate d.size 0) designs vs) :
    fillInitial designs before.length (before ++ List.replicate (designs.map Design.size).sum 0) = .ok (before ++ vs.flatten) := by
  induction h generalizing before with
  | nil => simp [fillInitial]
  | @cons d v rest vs hd _ ih =>
    have hrep : List.replicate (d.size + (rest.map Design.size).sum) (0 : ℝ) =
        List.replicate d.size 0 ++ List.replicate (rest.map Design.size).sum 0 := by
      rw [List.replicate_add]
    simp only [List.map_cons, List.sum_cons, hrep, fillInitial, List.flatten_cons]
    cases hnl : d.nonlinear with
    | true =>
      rw [hnl] at hd
      simp only [if_true] at hd ⊢
      rw [hd.2]
      simp only
      have : assignSlice (before ++ (List.replicate d.size 0 ++ List.replicate (rest.map Design.size).sum 0)) before.length d.size v
          = .ok (before ++ v ++ List.replicate (rest.map Design.size).sum 0) := by
        unfold assignSlice
        rw [if_neg (by simp [hd.1]), List.take_left]
        congr 2
        rw [← List.append_assoc]
        have : before.length + d.size = (before ++ List.replicate d.size (0 : ℝ)).length := by simp
        rw [this, List.drop_left]
      rw [this]
      simp only
      have := ih (before ++ v)
      rw [List.length_append, hd.1] at this
      rw [this, List.append_assoc]
    | false =>
      rw [hnl] at hd
      simp only [Bool.false_eq_true, if_false] at hd ⊢
      have := ih (before ++ v)
      rw [List.length_append, hd.1, hd.2] at this
      rw [← List.append_assoc, this, hd.2, List.append_assoc]

theorem c39_initial (designs : List Design) (vs : List (List ℝ))
    (hnl : ∃ d ∈ designs, d.nonlinear = true)
    (h : List.Forall₂ (fun (d : Design) v => v.length = d.size ∧
      if d.nonlinear then d.initial = .ok (some v) else v = List.replicate d.size 0) designs vs) :
    (combinedDesign designs).initial = .ok (some vs.flatten) := by
  show combinedInitial designs = _
  unfold combinedInitial
  rw [if_pos (by simpa using hnl)]
  have := fillInitial_eq designs vs [] h
  simp only [List.nil_append, List.length_nil] at this
  rw [this]

/-! ### Linear parts -/

/-- A design whose function is multiplication by a matrix of the given number of rows. -/
def LinearWith (d : Design) (n : Nat) (A : Arr) : Prop :=
  A.rows = n ∧ A.cols = d.size ∧ d.nonlinear = false ∧ d.matrix = .ok A ∧ (∀ s, d.jacobian s = .ok A) ∧
    ∀ x : List ℝ, x.length = d.size → ∀ r, d.function (some x) r = .ok (product (if r = some true then A.abs else A) x)

theorem linearDesign_with (size n : Nat) (A : Arr) (hr : A.rows = n) (hc : A.cols = size) :
    LinearWith (linearDesign size (.ok A)) n A := by
  refine ⟨hr, hc, rfl, rfl, fun _ => rfl, ?_⟩
  intro x hx r
  have hx' : x.length = size := hx
  simp only [linearDesign]
  by_cases h : r = some true
  · rw [if_pos h, if_pos h]
    simp only [applyTo, Arr.dot]
    rw [if_neg (by simp [Arr.abs, hc, hx'])]
    rfl
  · rw [if_neg h, if_neg h]
    simp only [applyTo, Arr.dot]
    rw [if_neg (by simp [hc, hx'])]
    rfl

theorem forall₂_right {α β : Type} {R : α → β → Prop} {l : List α} {r : List β} (h : List.Forall₂ R l r) {b : β}
    (hb : b ∈ r) : ∃ a ∈ l, R a b := by
  induction h with
  | nil => simp at hb
  | cons h0 _ ih =>
    rcases List.mem_cons.mp hb with rfl | hb
    · exact ⟨_, by simp, h0⟩
    · obtain ⟨a, ha, hr⟩ := ih hb
      exact ⟨a, by simp [ha], hr⟩

theorem forall₂_left {α β : Type} {R : α → β → Prop} {l : List α} {r : List β} (h : List.Forall₂ R l r) {a : α}
    (ha : a ∈ l) : ∃ b ∈ r, R a b := by
  obtain ⟨b, hb, hr⟩ := forall₂_right h.flip ha
  exact ⟨b, hb, hr⟩

theorem besides_abs (As : List Arr) (i j : Nat) : |Arr.besides As i j| = Arr.besides (As.map Arr.abs) i j := by
  induction As generalizing j with
  | nil => simp [Arr.besides]
  | cons A rest ih =>
    simp only [List.map_cons, Arr.besides]
    by_cases h : j < A.cols
    · rw [if_pos h, if_pos (by exact h)]
      rfl
    · rw [if_neg h, if_neg (by exact h), ih]
      rfl

theorem zip_jacobian (designs : List Design) (As : List Arr) (states : List (Option (List ℝ)))
    (hl : states.length = designs.length)
    (h : List.Forall₂ (fun (d : Design) A => ∀ s, d.jacobian s = .ok A) designs As) :
    collect ((designs.zip states).map fun p => p.1.jacobian p.2) = .ok As := by
  induction h generalizing states with
  | nil => simp [collect]
  | cons h0 _ ih =>
    cases states with
    | nil => simp at hl
    | cons s states =>
      simp only [List.zip_cons_cons, List.map_cons, h0 s, collect]
      rw [ih states (by simpa using hl)]

theorem statesFrom_length (x : List ℝ) (start : Nat) (l : List Nat) : (statesFrom x start l).length = l.length := by
  induction l generalizing start with
  | nil => rfl
  | cons a rest ih => simp [statesFrom, ih]

theorem product_length (A : Arr) (x : List ℝ) : (product A x).length = A.rows := by simp [product]

/-- A combination of linear designs is a linear design: its matrix consists of theirs, one after another. -/
theorem combined_with (designs : List Design) (As : List Arr) (n : Nat) (hne : designs ≠ [])
    (h : List.Forall₂ (fun d A => LinearWith d n A) designs As) :
    ∃ A, LinearWith (combinedDesign designs) n A ∧ A.get = Arr.besides As := by
  have hA : List.Forall₂ (fun (d : Design) A => d.matrix = .ok A) designs As := h.imp fun _ _ hd => hd.2.2.2.1
  have hr : ∀ A ∈ As, A.rows = n := by
    intro A hA'
    obtain ⟨d, -, hd⟩ := forall₂_right h hA'
    exact hd.1
  have hs : As.map Arr.cols = designs.map Design.size := by
    clear hA hr hne
    induction h with
    | nil => rfl
    | cons hd _ ih => simp [hd.2.1, ih]
  have hne' : As ≠ [] := by
    rintro rfl
    exact hne (List.length_eq_zero_iff.mp h.length_eq)
  obtain ⟨M, hM, hMr, hMc, hMg⟩ := hstack_ok As n hne' hr
  refine ⟨M, ⟨hMr, by rw [hMc, hs]; rfl, ?_, ?_, ?_, ?_⟩, hMg⟩
  · show designs.any Design.nonlinear = false
    rw [List.any_eq_false]
    intro d hd
    obtain ⟨A, -, hdA⟩ := forall₂_left h hd
    simp [hdA.2.2.1]
  · show combinedMatrix designs = _
    unfold combinedMatrix
    rw [collect_forall₂ hA]
    exact hM
  · intro s
    show combinedJacobian designs s = _
    unfold combinedJacobian
    rw [zip_jacobian designs As _ _ (h.imp fun _ _ hd => hd.2.2.2.2.1)]
    · exact hM
    · cases s with
      | none => simp [elementStates]
      | some x => simp [elementStates, statesFrom_length]
  · intro x hx r
    obtain ⟨xs, -, rfl, hxs⟩ := c39_split designs x hx
    -- the matrices which are applied
    let T : Arr → Arr := fun A => if r = some true then A.abs else A
    have hTr : ∀ A, (T A).rows = A.rows := fun A => by simp only [T]; split <;> rfl
    have hTc : ∀ A, (T A).cols = A.cols := fun A => by simp only [T]; split <;> rfl
    have hrr : (some (r.getD false) = some true) ↔ r = some true := by cases r <;> simp
    have hvs : List.Forall₂ (fun (p : Design × List ℝ) v => p.1.function (some p.2) (some (r.getD false)) = .ok v)
        (designs.zip xs) ((As.zip xs).map fun p => product (T p.1) p.2) := by
      clear hA hr hne hne' hs hM hMr hMc hMg hx
      induction h generalizing xs with
      | nil => simp
      | cons hd _ ih =>
        cases hxs with
        | cons hx0 hxr =>
          simp only [List.zip_cons_cons, List.map_cons]
          refine .cons ?_ (ih _ hxr)
          simp only
          rw [hd.2.2.2.2.2 _ hx0]
          simp only [T, hrr]
    have hnv : ∀ v ∈ (As.zip xs).map (fun p => product (T p.1) p.2), v.length = n := by
      intro v hv
      obtain ⟨⟨A, y⟩, hp, rfl⟩ := List.mem_map.mp hv
      rw [product_length, hTr, hr A (List.of_mem_zip hp).1]
    rw [c39_function designs xs _ r n hne hxs hvs hnv]
    have hcols : List.Forall₂ (fun (A : Arr) (y : List ℝ) => y.length = A.cols) (As.map T) xs := by
      clear hA hr hne hne' hs hM hMr hMc hMg hx hvs hnv
      induction h generalizing xs with
      | nil => cases hxs; simp
      | cons hd _ ih =>
        cases hxs with
        | cons hx0 hxr =>
          simp only [List.map_cons]
          exact .cons (by rw [hTc, hd.2.1, hx0]) (ih _ hxr)
    have hTrows : ∀ B ∈ As.map T, B.rows = n := by
      intro B hB
      obtain ⟨A, hA', rfl⟩ := List.mem_map.mp hB
      rw [hTr, hr A hA']
    have hTcols : (As.map T).map Arr.cols = As.map Arr.cols := by
      rw [List.map_map]
      exact List.map_congr_left fun A _ => hTc A
    have hTM : (T M).get = Arr.besides (As.map T) := by
      funext i j
      simp only [T]
      by_cases hrt : r = some true
      · simp only [hrt, if_true]
        show |M.get i j| = _
        rw [hMg, besides_abs]
      · simp only [hrt, if_false, List.map_id']
        rw [hMg]
    have hdot := hstack_dot (As.map T) xs n (T M) (by rw [hTr, hMr]) (by rw [hTc, hMc, hTcols]) hTM hTrows hcols
    have hz : ((As.map T).zip xs).map (fun p => product p.1 p.2) = (As.zip xs).map fun p => product (T p.1) p.2 := by
      rw [List.zip_map_left, List.map_map]
      rfl
    rw [hz] at hdot
    have hlen : xs.flatten.length = (T M).cols := by
      rw [hTc, hMc, hs]
      exact hx
    unfold Arr.dot at hdot
    rw [if_neg (by rw [hlen]; simp)] at hdot
    rw [← hdot]
    rfl

end

end Verif.Eustace.Elements
