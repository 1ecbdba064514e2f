import Verif.Eustace.SphereView.Regions

/-!
C65: merging the parameters of local views.
-/

namespace Verif.Eustace.SphereView

open Matrix Verif.Eustace.Linear Verif.Eustace.Mesh Verif.Eustace.Locator Verif.Eustace.Locator.V3 Verif.Eustace.SphereSpde

noncomputable section

open Classical in
/-- One when the point belongs to the region, otherwise zero. -/
def mark (m : Mesh V3) (a : List Nat) (k : Nat) : ℝ := if InRegion m a k then 1 else 0

theorem one_dot : (1.0 : ℝ) = 1 := by norm_num

theorem stationary_at (n : Nat) (c : Fin n) :
    sigmaStationary n c 0 = 1 ∧ sigmaStationary n c 1 = 0 ∧ rhoStationary n c 0 = 0 ∧ rhoStationary n c 1 = 1 := by
  simp [sigmaStationary, rhoStationary, one_dot]

theorem lifted_at (m : Mesh V3) (a : List Nat) {p : Nat} (S : Matrix (Fin (size m a)) (Fin p) ℝ) (r : ℝ) (j : Fin p)
    (hS : ∀ c, S c j = r) (k : Fin m.points.length) : ((vertexMappings m a)ᵀ * S) k j = mark m a k.val * r := by
  have h : ((vertexMappings m a)ᵀ * S) k j = ((vertexMappings m a)ᵀ *ᵥ fun c => S c j) k := rfl
  rw [h]
  unfold mark
  split
  · next hk =>
    obtain ⟨c, hc, hck⟩ := List.getElem_of_mem (mem_active.2 hk)
    rw [map_back a _ ⟨c, hc⟩ k hck, hS, one_mul]
  · next hk => rw [map_back_zero a _ k (fun h => hk (mem_active.1 h)), zero_mul]

theorem sigma_at (m : Mesh V3) (a : List Nat) (k : Fin m.points.length) :
    ((vertexMappings m a)ᵀ * sigmaStationary (size m a)) k 0 = mark m a k.val ∧
    ((vertexMappings m a)ᵀ * sigmaStationary (size m a)) k 1 = 0 := by
  rw [lifted_at m a _ 1 0 (fun c => (stationary_at _ c).1), lifted_at m a _ 0 1 (fun c => (stationary_at _ c).2.1)]
  simp

theorem rho_at (m : Mesh V3) (a : List Nat) (k : Fin m.points.length) :
    ((vertexMappings m a)ᵀ * rhoStationary (size m a)) k 0 = 0 ∧
    ((vertexMappings m a)ᵀ * rhoStationary (size m a)) k 1 = mark m a k.val := by
  rw [lifted_at m a _ 0 0 (fun c => (stationary_at _ c).2.2.1), lifted_at m a _ 1 1 (fun c => (stationary_at _ c).2.2.2)]
  simp

theorem hasEntry_iff {n p : Nat} (A : Matrix (Fin n) (Fin p) ℝ) (i : Fin n) (h : ∃ j, A i j ≠ 0) : hasEntry A i = 1 := by
  obtain ⟨j, hj⟩ := h
  rw [hasEntry, if_pos]
  exact Finset.card_pos.2 ⟨j, by simp [hj]⟩

theorem hasEntry_none {n p : Nat} (A : Matrix (Fin n) (Fin p) ℝ) (i : Fin n) (h : ∀ j, A i j = 0) : hasEntry A i = 0 := by
  rw [hasEntry, if_neg]
  rw [not_lt, Nat.le_zero, Finset.card_eq_zero, Finset.filter_eq_empty_iff]
  intro j _
  simp [h j]

theorem entry_sigma (m : Mesh V3) (a : List Nat) (k : Fin m.points.length) :
    hasEntry ((vertexMappings m a)ᵀ * sigmaStationary (size m a)) k = mark m a k.val := by
  obtain ⟨h0, h1⟩ := sigma_at m a k
  unfold mark at *
  split
  · next hk => exact hasEntry_iff _ _ ⟨0, by rw [h0, if_pos hk]; norm_num⟩
  · next hk =>
    refine hasEntry_none _ _ ?_
    rw [if_neg hk] at h0
    intro j; fin_cases j
    · exact h0
    · exact h1

theorem entry_rho (m : Mesh V3) (a : List Nat) (k : Fin m.points.length) :
    hasEntry ((vertexMappings m a)ᵀ * rhoStationary (size m a)) k = mark m a k.val := by
  obtain ⟨h0, h1⟩ := rho_at m a k
  unfold mark at *
  split
  · next hk => exact hasEntry_iff _ _ ⟨1, by rw [h1, if_pos hk]; norm_num⟩
  · next hk =>
    refine hasEntry_none _ _ ?_
    rw [if_neg hk] at h1
    intro j; fin_cases j
    · exact h0
    · exact h1

theorem entry_map (m : Mesh V3) (a : List Nat) (k : Fin m.points.length) :
    hasEntry (vertexMappings m a)ᵀ k = mark m a k.val := by
  unfold mark
  split
  · next hk =>
    obtain ⟨c, hc, hck⟩ := List.getElem_of_mem (mem_active.2 hk)
    exact hasEntry_iff _ _ ⟨⟨c, hc⟩, by simp [vertexMappings, hck]⟩
  · next hk =>
    refine hasEntry_none _ _ fun c => ?_
    rw [transpose_apply, vertexMappings, Matrix.of_apply, if_neg]
    intro e
    exact hk (mem_active.1 (e ▸ List.getElem_mem _))

/-! ### Sums over the views which contain a point -/

/-- How many regions contain the point. -/
def countAt (m : Mesh V3) (views : List (List Nat × Vec 2)) (k : Nat) : ℝ := (views.map fun r => mark m r.1 k).sum

theorem countAt_eq (m : Mesh V3) (views : List (List Nat × Vec 2)) (k : Nat) :
    countAt m views k = ((saidAt m views k).length : ℝ) := by
  classical
  unfold countAt saidAt
  induction views with
  | nil => simp
  | cons r l ih =>
    rw [List.map_cons, List.sum_cons, ih, mark]
    by_cases h : InRegion m r.1 k
    · rw [if_pos h, List.filter_cons_of_pos (by simpa using h)]
      simp only [List.map_cons, List.length_cons]; push_cast; ring
    · rw [if_neg h, List.filter_cons_of_neg (by simpa using h), zero_add]

theorem sumAt_eq (m : Mesh V3) (views : List (List Nat × Vec 2)) (k : Nat) (f : Vec 2 → ℝ) :
    (views.map fun r => mark m r.1 k * f r.2).sum = ((saidAt m views k).map f).sum := by
  classical
  unfold saidAt
  induction views with
  | nil => simp
  | cons r l ih =>
    rw [List.map_cons, List.sum_cons, ih, mark]
    by_cases h : InRegion m r.1 k
    · rw [if_pos h, List.filter_cons_of_pos (by simpa using h)]; simp
    · rw [if_neg h, List.filter_cons_of_neg (by simpa using h)]; simp

/-! ### The loop -/

theorem gather_fold (m : Mesh V3) (l : List (List Nat × Vec 2)) (g : Gathered m.points.length) :
    l.foldl (gatherStep m) g =
      { sigma := g.sigma ++ l.map fun r => (vertexMappings m r.1)ᵀ * sigmaStationary (size m r.1)
        rho := g.rho ++ l.map fun r => (vertexMappings m r.1)ᵀ * rhoStationary (size m r.1)
        theta := g.theta ++ l.map Prod.snd
        sigmaCount := fun k => g.sigmaCount k + countAt m l k.val
        rhoCount := fun k => g.rhoCount k + countAt m l k.val } := by
  induction l generalizing g with
  | nil => simp [countAt]
  | cons r l ih =>
    rw [List.foldl_cons, ih]
    simp only [gatherStep, entry_sigma, entry_rho, List.append_assoc, List.cons_append, List.nil_append, List.map_cons]
    congr 1 <;> funext k <;> simp only [countAt, List.map_cons, List.sum_cons] <;> ring

theorem gather_views (m : Mesh V3) (views : List (List Nat)) (thetas : List (Vec 2)) :
    gatherViews m views thetas =
      { sigma := (views.zip thetas).map fun r => (vertexMappings m r.1)ᵀ * sigmaStationary (size m r.1)
        rho := (views.zip thetas).map fun r => (vertexMappings m r.1)ᵀ * rhoStationary (size m r.1)
        theta := (views.zip thetas).map Prod.snd
        sigmaCount := fun k => countAt m (views.zip thetas) k.val
        rhoCount := fun k => countAt m (views.zip thetas) k.val } := by
  rw [gatherViews, gather_fold]; simp

theorem row_sum (c : ℝ) {N : Nat} (k : Fin N) (l : List (List Nat × Vec 2))
    (D : List Nat × Vec 2 → Matrix (Fin N) (Fin 2) ℝ) (f : ℝ → ℝ) :
    rowDot ((hstack (l.map D) k).map fun x => c * x) ((concatenate (l.map Prod.snd)).map f) =
      c * (l.map fun r => D r k 0 * f (r.2 0) + D r k 1 * f (r.2 1)).sum := by
  induction l with
  | nil => simp [rowDot, hstack, concatenate]
  | cons r l ih =>
    have e1 : hstack ((r :: l).map D) k = D r k 0 :: D r k 1 :: hstack (l.map D) k := by simp [hstack]
    have e2 : concatenate ((r :: l).map Prod.snd) = r.2 0 :: r.2 1 :: concatenate (l.map Prod.snd) := by simp [concatenate]
    rw [e1, e2]
    simp only [List.map_cons, rowDot, List.zipWith_cons_cons, List.sum_cons] at *
    rw [ih]; ring

theorem sigma_row (m : Mesh V3) (l : List (List Nat × Vec 2)) (k : Fin m.points.length) (f : ℝ → ℝ) :
    rowDot (normalise (fun k => countAt m l k.val)
        (hstack (l.map fun r => (vertexMappings m r.1)ᵀ * sigmaStationary (size m r.1))) k)
      ((concatenate (l.map Prod.snd)).map f) = average ((saidAt m l k.val).map fun t => f (t 0)) := by
  unfold normalise
  rw [row_sum]
  have : (l.map fun r => ((vertexMappings m r.1)ᵀ * sigmaStationary (size m r.1)) k 0 * f (r.2 0) +
      ((vertexMappings m r.1)ᵀ * sigmaStationary (size m r.1)) k 1 * f (r.2 1)) =
      l.map fun r => mark m r.1 k.val * f (r.2 0) := by
    refine List.map_congr_left fun r _ => ?_
    rw [(sigma_at m r.1 k).1, (sigma_at m r.1 k).2]; ring
  rw [this, sumAt_eq m l k.val fun t => f (t 0)]
  simp only [countAt_eq]
  rw [average, List.length_map, one_dot]
  ring

theorem rho_row (m : Mesh V3) (l : List (List Nat × Vec 2)) (k : Fin m.points.length) (f : ℝ → ℝ) :
    rowDot (normalise (fun k => countAt m l k.val)
        (hstack (l.map fun r => (vertexMappings m r.1)ᵀ * rhoStationary (size m r.1))) k)
      ((concatenate (l.map Prod.snd)).map f) = average ((saidAt m l k.val).map fun t => f (t 1)) := by
  unfold normalise
  rw [row_sum]
  have : (l.map fun r => ((vertexMappings m r.1)ᵀ * rhoStationary (size m r.1)) k 0 * f (r.2 0) +
      ((vertexMappings m r.1)ᵀ * rhoStationary (size m r.1)) k 1 * f (r.2 1)) =
      l.map fun r => mark m r.1 k.val * f (r.2 1) := by
    refine List.map_congr_left fun r _ => ?_
    rw [(rho_at m r.1 k).1, (rho_at m r.1 k).2]; ring
  rw [this, sumAt_eq m l k.val fun t => f (t 1)]
  simp only [countAt_eq]
  rw [average, List.length_map, one_dot]
  ring

/-! ### C65: direct averages -/

/-- **C65.**  With `direct_average` the merged design gives at every point the mean of the logarithms which the views
containing the point have, for both parameters.  At a point of no view it gives zero. -/
theorem c65_direct_average (m : Mesh V3) (views : List (List Nat)) (thetas : List (Vec 2)) (hne : views.zip thetas ≠ []) :
    ∃ r theta, mergeLocal m views thetas "direct_average" = .ok r ∧ r.theta = theta.map some ∧
      ∀ k : Fin m.points.length,
        rowDot (r.sigma k) theta = average ((saidAt m (views.zip thetas) k.val).map fun t => t 0) ∧
        rowDot (r.rho k) theta = average ((saidAt m (views.zip thetas) k.val).map fun t => t 1) := by
  have hn : ¬ ((views.zip thetas).map Prod.snd).isEmpty = true := by
    simp only [List.isEmpty_iff, List.map_eq_nil_iff]; exact hne
  refine ⟨⟨(concatenate ((views.zip thetas).map Prod.snd)).map some, normalise (fun k => countAt m (views.zip thetas) k.val)
        (hstack ((views.zip thetas).map fun r => (vertexMappings m r.1)ᵀ * sigmaStationary (size m r.1))),
      normalise (fun k => countAt m (views.zip thetas) k.val)
        (hstack ((views.zip thetas).map fun r => (vertexMappings m r.1)ᵀ * rhoStationary (size m r.1)))⟩,
    concatenate ((views.zip thetas).map Prod.snd), ?_, rfl, ?_⟩
  · unfold mergeLocal
    simp only [gather_views]
    rw [if_neg hn, if_pos trivial]
  · intro k
    have h1 := sigma_row m (views.zip thetas) k id
    have h2 := rho_row m (views.zip thetas) k id
    rw [List.map_id] at h1 h2
    exact ⟨h1, h2⟩

/-! ### C65: averages of the exponentials -/

theorem average_exp_pos {α : Type} (f : α → ℝ) {l : List α} (h : l ≠ []) : 0 < average (l.map fun a => Real.exp (f a)) := by
  unfold average
  have hl : 0 < l.length := List.length_pos_iff.2 h
  apply div_pos
  · cases l with
    | nil => exact absurd rfl h
    | cons a l =>
      refine list_sum_pos (a := Real.exp (f a)) ?_ (by simp) (Real.exp_pos _)
      intro b hb
      obtain ⟨c, _, rfl⟩ := List.mem_map.1 hb
      exact (Real.exp_pos _).le
  · rw [List.length_map]; exact_mod_cast hl

theorem average_nil : average [] = 0 := by simp [average]

theorem said_nil_iff (m : Mesh V3) (views : List (List Nat × Vec 2)) (k : Nat) :
    saidAt m views k = [] ↔ ∀ r ∈ views, ¬ InRegion m r.1 k := by
  classical
  unfold saidAt
  rw [List.map_eq_nil_iff, List.filter_eq_nil_iff]
  simp

/-- The logarithm of the mean, which exists at the points of at least one view. -/
theorem npLog_average {α : Type} (f : α → ℝ) (l : List α) :
    npLog (average (l.map fun a => Real.exp (f a))) =
      if l = [] then none else some (Real.log (average (l.map fun a => Real.exp (f a)))) := by
  by_cases h : l = []
  · rw [if_pos h, h, List.map_nil, average_nil, npLog, if_neg (by norm_num)]
  · rw [if_neg h, npLog, if_pos (average_exp_pos f h)]

/-- The two halves which both ways of merging give. -/
def logMean (m : Mesh V3) (views : List (List Nat × Vec 2)) (j : Fin 2) (k : Nat) : Option ℝ :=
  npLog (average ((saidAt m views k).map fun t => Real.exp (t j)))

/-- **C65.**  With `exp_average` the merged parameters are, at every point of at least one view, the logarithm of the mean
of the values which the views containing the point have; at any other point they are not finite. -/
theorem c65_exp_average (m : Mesh V3) (views : List (List Nat)) (thetas : List (Vec 2)) (hne : views.zip thetas ≠ []) :
    ∃ r, mergeLocal m views thetas "exp_average" = .ok r ∧ r.theta.length = m.points.length + m.points.length ∧
      ∀ k : Fin m.points.length,
        r.theta[k.val]? = some (if saidAt m (views.zip thetas) k.val = [] then none
          else some (Real.log (average ((saidAt m (views.zip thetas) k.val).map fun t => Real.exp (t 0))))) ∧
        r.theta[m.points.length + k.val]? = some (if saidAt m (views.zip thetas) k.val = [] then none
          else some (Real.log (average ((saidAt m (views.zip thetas) k.val).map fun t => Real.exp (t 1))))) := by
  have hn : ¬ ((views.zip thetas).map Prod.snd).isEmpty = true := by
    simp only [List.isEmpty_iff, List.map_eq_nil_iff]; exact hne
  refine ⟨⟨((List.finRange m.points.length).map fun k => logMean m (views.zip thetas) 0 k.val) ++
    (List.finRange m.points.length).map fun k => logMean m (views.zip thetas) 1 k.val, eyeThenZeros, zerosThenEye⟩, ?_, ?_, ?_⟩
  · unfold mergeLocal
    simp only [gather_views]
    rw [if_neg hn, if_neg (by decide), if_pos trivial]
    congr 2
    congr 1
    · refine List.map_congr_left fun k _ => ?_
      rw [sigma_row]; rfl
    · refine List.map_congr_left fun k _ => ?_
      rw [rho_row]; rfl
  · simp
  · intro k
    have hk : k.val < ((List.finRange m.points.length).map fun k => logMean m (views.zip thetas) 0 k.val).length := by
      simp [k.isLt]
    constructor
    · simp only
      rw [List.getElem?_append_left hk, List.getElem?_map, List.getElem?_eq_getElem (by simp [k.isLt])]
      simp only [List.getElem_finRange, Option.map_some, Fin.cast_mk, Fin.eta]
      rw [logMean, npLog_average]
    · simp only
      rw [List.getElem?_append_right (by simp), List.getElem?_map, List.getElem?_eq_getElem (by simp [k.isLt])]
      simp only [List.getElem_finRange, Option.map_some, Fin.cast_mk, List.length_map, List.length_finRange,
        Nat.add_sub_cancel_left, Fin.eta]
      rw [logMean, npLog_average]

theorem zip_eye {N : Nat} (f : Fin N → ℝ) (k : Fin N) :
    (List.zipWith (· * ·) ((List.finRange N).map fun j => if k = j then (1 : ℝ) else 0) ((List.finRange N).map f)).sum =
      f k := by
  rw [List.zipWith_map_left, List.zipWith_map_right, List.zipWith_self, ← List.ofFn_eq_map, List.sum_ofFn]
  rw [Finset.sum_eq_single k]
  · simp
  · intro j _ hj; simp [Ne.symm hj]
  · intro h; exact absurd (Finset.mem_univ _) h

theorem zip_zeros {n : Nat} (l : List ℝ) : (List.zipWith (· * ·) (List.replicate n (0 : ℝ)) l).sum = 0 := by
  induction l generalizing n with
  | nil => simp
  | cons a l ih =>
    cases n with
    | zero => simp
    | succ n => simp [List.replicate_succ, ih]

/-- **C65.**  The design matrices which go with the expanded parameters pick the value of each point. -/
theorem c65_expanded_design {N : Nat} (logSigma logRho : Fin N → ℝ) (k : Fin N) :
    rowDot (eyeThenZeros k) ((List.finRange N).map logSigma ++ (List.finRange N).map logRho) = logSigma k ∧
    rowDot (zerosThenEye k) ((List.finRange N).map logSigma ++ (List.finRange N).map logRho) = logRho k := by
  constructor
  · rw [rowDot, eyeThenZeros, List.zipWith_append (by simp), List.sum_append, zip_eye, zip_zeros, add_zero]
  · rw [rowDot, zerosThenEye, List.zipWith_append (by simp), List.sum_append, zip_eye, zip_zeros, zero_add]

/-- **C65.**  Without any view, and for any other name of a method, merging is refused. -/
theorem c65_refused (m : Mesh V3) (views : List (List Nat)) (thetas : List (Vec 2)) (method : String)
    (h : views.zip thetas = [] ∨ (method ≠ "direct_average" ∧ method ≠ "exp_average")) :
    mergeLocal m views thetas method = .error .valueError := by
  unfold mergeLocal
  simp only [gather_views]
  by_cases he : ((views.zip thetas).map Prod.snd).isEmpty = true
  · rw [if_pos he]
  · rw [if_neg he]
    rcases h with h | ⟨h1, h2⟩
    · rw [h] at he; simp at he
    · rw [if_neg h1, if_neg h2]

/-! ### C65: accumulating view by view -/

theorem lifted_exp (m : Mesh V3) (a : List Nat) (x : Vec (size m a)) (r : ℝ) (hx : ∀ c, x c = r) (k : Fin m.points.length) :
    ((vertexMappings m a)ᵀ *ᵥ x) k = mark m a k.val * r := by
  unfold mark
  split
  · next hk =>
    obtain ⟨c, hc, hck⟩ := List.getElem_of_mem (mem_active.2 hk)
    rw [map_back a _ ⟨c, hc⟩ k hck, hx, one_mul]
  · next hk => rw [map_back_zero a _ k (fun h => hk (mem_active.1 h)), zero_mul]

theorem accumulate_some (m : Mesh V3) (a : Accumulators m.points.length) (view : List Nat) (theta : Vec 2) :
    accumulate m (some a) view theta =
      ⟨fun k => a.sigma k + mark m view k.val * Real.exp (theta 0), fun k => a.rho k + mark m view k.val * Real.exp (theta 1),
        fun k => a.counter k + mark m view k.val⟩ := by
  unfold accumulate
  simp only
  congr 1
  · funext k
    rw [lifted_exp m view _ (Real.exp (theta 0))]
    intro c
    congr 1
    simp [mulVec, dotProduct, Fin.sum_univ_two, (stationary_at _ c).1, (stationary_at _ c).2.1]
  · funext k
    rw [lifted_exp m view _ (Real.exp (theta 1))]
    intro c
    congr 1
    simp [mulVec, dotProduct, Fin.sum_univ_two, (stationary_at _ c).2.2.1, (stationary_at _ c).2.2.2]
  · funext k
    rw [entry_map]

theorem accumulate_none (m : Mesh V3) (view : List Nat) (theta : Vec 2) :
    accumulate m none view theta = accumulate m (some ⟨0, 0, 0⟩) view theta := by
  unfold accumulate
  simp

theorem accumulate_fold (m : Mesh V3) (l : List (List Nat × Vec 2)) (a : Accumulators m.points.length) :
    l.foldl (fun acc r => accumulate m (some acc) r.1 r.2) a =
      ⟨fun k => a.sigma k + ((saidAt m l k.val).map fun t => Real.exp (t 0)).sum,
       fun k => a.rho k + ((saidAt m l k.val).map fun t => Real.exp (t 1)).sum,
       fun k => a.counter k + ((saidAt m l k.val).length : ℝ)⟩ := by
  induction l generalizing a with
  | nil => simp [saidAt]
  | cons r l ih =>
    rw [List.foldl_cons, ih, accumulate_some]
    simp only [← countAt_eq, ← sumAt_eq m _ _ fun t => Real.exp (t 0), ← sumAt_eq m _ _ fun t => Real.exp (t 1)]
    congr 1 <;> funext k <;> simp only [countAt, List.map_cons, List.sum_cons] <;> ring

/-- The accumulators after the given views, from `None` on (example_optimization.py 250-268). -/
def accumulateAll (m : Mesh V3) (l : List (List Nat × Vec 2)) : Option (Accumulators m.points.length) :=
  l.foldl (fun acc r => some (accumulate m acc r.1 r.2)) none

theorem fold_some (m : Mesh V3) (l : List (List Nat × Vec 2)) (a : Accumulators m.points.length) :
    l.foldl (fun acc r => some (accumulate m acc r.1 r.2)) (some a) =
      some (l.foldl (fun acc r => accumulate m (some acc) r.1 r.2) a) := by
  induction l generalizing a with
  | nil => rfl
  | cons r l ih => rw [List.foldl_cons, List.foldl_cons, ih]

theorem accumulateAll_eq (m : Mesh V3) (l : List (List Nat × Vec 2)) : accumulateAll m l = if l = [] then none else
    some ⟨fun k => ((saidAt m l k.val).map fun t => Real.exp (t 0)).sum,
       fun k => ((saidAt m l k.val).map fun t => Real.exp (t 1)).sum, fun k => ((saidAt m l k.val).length : ℝ)⟩ := by
  cases l with
  | nil => rfl
  | cons r l =>
    have e := accumulate_fold m (r :: l) ⟨0, 0, 0⟩
    rw [List.foldl_cons] at e
    rw [if_neg (by simp), accumulateAll, List.foldl_cons, accumulate_none, fold_some, e]
    simp

theorem finalise_at {N : Nat} (s c : ℝ) (l : List (Vec 2)) (j : Fin 2) (hs : s = (l.map fun t => Real.exp (t j)).sum)
    (hc : c = (l.length : ℝ)) :
    (npDiv s c).bind npLog = if l = [] then none else some (Real.log (average (l.map fun t => Real.exp (t j)))) := by
  by_cases h : l = []
  · rw [if_pos h, npDiv, if_pos (by rw [hc, h]; simp)]; rfl
  · have hl : c ≠ 0 := by
      rw [hc]
      have := List.length_pos_iff.2 h
      positivity
    rw [if_neg h, npDiv, if_neg hl]
    have : s / c = average (l.map fun t => Real.exp (t j)) := by rw [average, hs, hc, List.length_map]
    rw [this, Option.bind_some, npLog_average, if_neg h]

/-- **C65.**  Adding up view by view and finalising gives, at every point of at least one view, the logarithm of the mean of
the values of the views which contain it, and nothing finite elsewhere. -/
theorem c65_accumulated (m : Mesh V3) (l : List (List Nat × Vec 2)) (hne : l ≠ []) :
    ∃ a, accumulateAll m l = some a ∧ ∀ k : Fin m.points.length,
      (finalise a).1 k = (if saidAt m l k.val = [] then none
        else some (Real.log (average ((saidAt m l k.val).map fun t => Real.exp (t 0))))) ∧
      (finalise a).2 k = (if saidAt m l k.val = [] then none
        else some (Real.log (average ((saidAt m l k.val).map fun t => Real.exp (t 1))))) := by
  refine ⟨_, by rw [accumulateAll_eq, if_neg hne], fun k => ?_⟩
  constructor
  · exact finalise_at (N := 0) _ _ (saidAt m l k.val) 0 rfl rfl
  · exact finalise_at (N := 0) _ _ (saidAt m l k.val) 1 rfl rfl

/-- **C65.**  Both ways of merging give the same parameters. -/
theorem c65_ways_agree (m : Mesh V3) (views : List (List Nat)) (thetas : List (Vec 2)) (hne : views.zip thetas ≠ []) :
    ∃ r a, mergeLocal m views thetas "exp_average" = .ok r ∧ accumulateAll m (views.zip thetas) = some a ∧
      finaliseQ a = r := by
  obtain ⟨a, ha, h⟩ := c65_accumulated m (views.zip thetas) hne
  have hn : ¬ ((views.zip thetas).map Prod.snd).isEmpty = true := by
    simp only [List.isEmpty_iff, List.map_eq_nil_iff]; exact hne
  refine ⟨_, a, ?_, ha, rfl⟩
  unfold mergeLocal
  simp only [gather_views]
  rw [if_neg hn, if_neg (by decide), if_pos trivial]
  unfold finaliseQ
  congr 2
  congr 1
  · refine List.map_congr_left fun k _ => ?_
    rw [sigma_row, npLog_average]
    exact ((h k).1).symm
  · refine List.map_congr_left fun k _ => ?_
    rw [rho_row, npLog_average]
    exact ((h k).2).symm

/-- **C65.**  The order of the views does not matter. -/
theorem c65_order (m : Mesh V3) {l l' : List (List Nat × Vec 2)} (h : l.Perm l') : accumulateAll m l = accumulateAll m l' := by
  classical
  have hs : ∀ k, (saidAt m l k).Perm (saidAt m l' k) := fun k => (h.filter _).map _
  rw [accumulateAll_eq, accumulateAll_eq]
  by_cases hl : l = []
  · subst hl
    rw [if_pos rfl, if_pos (List.nil_perm.1 h)]
  · rw [if_neg hl, if_neg (fun e => hl (by subst e; exact List.perm_nil.1 h))]
    congr 2
    · funext k; exact ((hs k.val).map _).sum_eq
    · funext k; exact ((hs k.val).map _).sum_eq
    · funext k; rw [(hs k.val).length_eq]

end

end Verif.Eustace.SphereView
