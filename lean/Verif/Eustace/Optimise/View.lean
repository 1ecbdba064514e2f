import Verif.Eustace.Optimise.Split
import Verif.Eustace.SphereView.Locations

/-!
C154: the state of a local view, taken out of the global state, gives the global field inside the view.
-/

namespace Verif.Eustace.Optimise

open Verif Verif.Eustace.Elements Verif.Eustace.Mesh Verif.Eustace.Locator Verif.Eustace.SphereView

noncomputable section

/-- The rows of observations are those of the locator for the mesh of a level. -/
def RowsOf (srt : Argsort) (L : Nat) (obs : Elements.Obs) : Prop :=
  ∀ l ∈ obs.locations, ∀ s, locate (sphereMesh srt 0) (polarToCartesian l.1 l.2) L = some s →
    ∀ j, obs.sphereRow (sphereMesh srt L) l j = designRow (sphereMesh srt L) s L j

theorem takeAt_ok (x : List ℝ) (indices : List Nat) (h : ∀ i ∈ indices, i < x.length) :
    takeAt x indices = .ok (indices.map fun i => x.getD i 0) := by
  induction indices with
  | nil => rfl
  | cons i rest ih =>
    have hi := h i (by simp)
    simp only [takeAt, List.getElem?_eq_getElem hi, ih fun j hj => h j (by simp [hj]), List.map_cons, List.getD,
      Option.getD_some]

/-- The state which is written for views of one part. -/
theorem extractView_one (x : List ℝ) (indices : List Nat) (h : ∀ i ∈ indices, i < x.length) :
    extractView [x.length] [some indices] (some x) = .ok (indices.map fun i => x.getD i 0) := by
  have hs : priorStates [x.length] (some x) = [some x] := by simp [priorStates, statesFrom]
  unfold extractView
  rw [hs]
  simp only [viewStates, takeAt_ok x indices h, List.flatten_cons, List.flatten_nil, List.append_nil]

/-- **C154.**  From the state of the global field, one value for every point of the mesh, the values at the active points of a
view are taken.  With these, the local view gives at every location inside it the value of the global field, and zero at
every location outside. -/
theorem c154_view (srt : Argsort) (L : Nat) (hL : L ≤ 28) (view : List Nat) (obs : Elements.Obs) (hrow : RowsOf srt L obs)
    (x : List ℝ) (hx : x.length = (sphereMesh srt L).points.length) :
    ∃ y v w, extractView [(sphereMesh srt L).points.length] [some (activeVertices (sphereMesh srt L) view)] (some x) = .ok y ∧
      ((Element.stationary (sphereMesh srt L)).design obs).function (some x) none = .ok v ∧
      (viewDesign (sphereMesh srt L) (sphereMesh srt 0) L view obs).function (some y) none = .ok w ∧
      (viewDesign (sphereMesh srt L) (sphereMesh srt 0) L view obs).size = y.length ∧
      v.length = obs.locations.length ∧ w.length = obs.locations.length ∧
      ∀ i (hi : i < obs.locations.length), w.getD i 0 =
        if inDomain (sphereMesh srt 0) L view (polarToCartesian obs.locations[i].1 obs.locations[i].2) then v.getD i 0 else 0 := by
  have hsound : SphereSpde.Sound (sphereMesh srt L) := Definitions.sound_mesh srt L hL
  have hlt : ∀ k ∈ activeVertices (sphereMesh srt L) view, k < x.length := by
    intro k hk
    rw [hx]
    exact active_lt hsound hk
  obtain ⟨v, hv1, hv2, hv3⟩ := (c91_local (sphereMesh srt L) obs x hx).1
  let y := (activeVertices (sphereMesh srt L) view).map fun i => x.getD i 0
  have hy : y.length = size (sphereMesh srt L) view := by simp [y]
  let A : Arr := ⟨obs.locations.length, size (sphereMesh srt L) view, fun i c =>
      if h : c < size (sphereMesh srt L) view then
        viewRow (sphereMesh srt L) (sphereMesh srt 0) L view
          (polarToCartesian (obs.locations.getD i (0, 0)).1 (obs.locations.getD i (0, 0)).2) ⟨c, h⟩
      else 0⟩
  have hw := (linearDesign_with (size (sphereMesh srt L) view) obs.locations.length A rfl rfl).2.2.2.2.2 y hy none
  refine ⟨y, v, product A y, ?_, hv1, ?_, hy.symm, hv2, by simp [product, A], ?_⟩
  · rw [← hx]
    exact extractView_one x _ hlt
  · rw [if_neg (by simp)] at hw
    exact hw
  · intro i hi
    rw [hv3 i hi]
    have hget : obs.locations.getD i (0, 0) = obs.locations[i] := by simp [List.getD, hi]
    have hprod : (product A y).getD i 0 = ∑ c : Fin (size (sphereMesh srt L) view),
        viewRow (sphereMesh srt L) (sphereMesh srt 0) L view (polarToCartesian obs.locations[i].1 obs.locations[i].2) c *
          x.getD (activeVertices (sphereMesh srt L) view)[c.val] 0 := by
      have hr : i < A.rows := hi
      simp only [product, List.getD, List.getElem?_map, List.getElem?_range hr, Option.map_some, Option.getD_some]
      rw [Finset.sum_range (n := A.cols)]
      refine Finset.sum_congr rfl fun c _ => ?_
      simp only [A]
      rw [dif_pos c.isLt]
      congr 1
      · rw [← hget]
      · simp [y]
    rw [hprod]
    obtain ⟨s, i', t, h1, -, -, h4⟩ := c103_rows srt good_plain (polar_ne obs.locations[i].1 obs.locations[i].2) L hL
    obtain ⟨hd, hin, hout⟩ := h4 view
    have hrows := hrow obs.locations[i] (List.getElem_mem hi) s h1
    by_cases hm : i' ∈ view
    · rw [if_pos (show inDomain (sphereMesh srt 0) L view
        (polarToCartesian obs.locations[i].1 obs.locations[i].2) = true from hd.2 hm)]
      obtain ⟨e1, e2, -⟩ := hin hm
      unfold fieldAt
      rw [hget]
      rw [← sum_active hsound view fun j => obs.sphereRow (sphereMesh srt L) obs.locations[i] j * x.getD (0 + j) 0]
      · refine Finset.sum_congr rfl fun c _ => ?_
        have e3 := e1 c
        rw [hrows, zero_add]
        exact congrArg (· * _) e3
      · intro k hk
        rw [hrows]
        exact mul_eq_zero_of_left (e2 k hk) _
    · rw [if_neg (show ¬ inDomain (sphereMesh srt 0) L view
        (polarToCartesian obs.locations[i].1 obs.locations[i].2) = true from fun h => hm (hd.1 h))]
      refine Finset.sum_eq_zero fun c _ => ?_
      exact mul_eq_zero_of_left (congrFun (hout hm) c) _

/-- A mesh, a view and observations which meet the conditions. -/
example : ∃ obs : Elements.Obs, RowsOf stableArgsort 3 obs ∧ obs.locations = [(50, 10), (-30, 100)] := by
  open Classical in
  refine ⟨⟨[(50, 10), (-30, 100)], 5, 1900.5, fun _ => none, fun m l j =>
    match locate (sphereMesh stableArgsort 0) (polarToCartesian l.1 l.2) 3 with
    | none => 0
    | some s => designRow m s 3 j⟩, ?_, rfl⟩
  intro l _ s hs j
  simp only [hs]

/-- A day which has no state is refused. -/
theorem c154_none (n : Nat) (indices : List Nat) :
    extractView [n] [some indices] none = .error .typeError := rfl

end

end Verif.Eustace.Optimise
