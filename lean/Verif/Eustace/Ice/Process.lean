import Verif.Eustace.Ice.Quality

/-! The ice model at a cell. -/

namespace Verif.Eustace.Ice

open Verif

noncomputable section

theorem guard_iff {α : Type} (P : Prop) [Decidable (¬ P)] (e : PyErr) (r : Except PyErr α) (y : α) :
    (if ¬ P then .error e else r) = .ok y ↔ P ∧ r = .ok y := by
  by_cases h : P
  · rw [if_neg (not_not.mpr h)]; exact ⟨fun c => ⟨h, c⟩, fun c => c.2⟩
  · rw [if_pos h]
    constructor
    · intro c; cases c
    · intro c; exact absurd c.1 h

theorem construct_iff (x y : Inputs) : construct x = .ok y ↔ y = x ∧ Shaped x := by
  unfold construct
  simp only [ne_eq]
  rw [guard_iff, guard_iff, guard_iff, guard_iff, guard_iff, guard_iff, guard_iff, guard_iff, guard_iff, guard_iff, guard_iff]
  constructor
  · rintro ⟨h1, h2, h3, h4, h5, h6, -, h8, h9, h10, h11, h⟩
    cases h
    exact ⟨rfl, h1, h2.symm, h3.symm, h4.symm, h5.symm, h6.symm, h8.symm, h9.symm, h11.symm, h10.symm⟩
  · rintro ⟨rfl, h⟩
    exact ⟨h.ts, h.tsMin.symm, h.tsMax.symm, h.tsStd.symm, h.ts3d.symm, h.nobs3d.symm, trivial, h.fraction.symm,
      h.uncorrelated.symm, h.largeScale.symm, h.synoptic.symm, rfl⟩

theorem put_map (v : ℕ → ℝ) (idx : List ℕ) (f : ℕ → Option ℝ) (k : ℕ) :
    put idx (idx.map v) f k = if k ∈ idx then some (v k) else f k := by
  induction idx generalizing f with
  | nil => simp [put]
  | cons a idx ih =>
    simp only [List.map_cons, put, ih, List.mem_cons]
    by_cases h : k ∈ idx
    · simp [h]
    · by_cases ha : k = a
      · subst ha; simp [h]
      · simp [h, ha]

theorem mem_positions (p : ℕ → Bool) (idx : List ℕ) (k : ℕ) :
    k ∈ positions p idx ↔ ∃ i, idx[k]? = some i ∧ p i = true := by
  unfold positions
  rw [List.mem_filter, List.mem_range]
  constructor
  · rintro ⟨h, hp⟩
    rw [List.getElem?_eq_getElem h] at hp ⊢
    exact ⟨_, rfl, hp⟩
  · rintro ⟨i, hi, hp⟩
    obtain ⟨h, -⟩ := List.getElem?_eq_some_iff.mp hi
    refine ⟨h, ?_⟩
    rw [hi]; exact hp

theorem mem_delete (idx missing : List ℕ) (i : ℕ) : i ∈ delete idx missing ↔ ∃ k, k ∉ missing ∧ idx[k]? = some i := by
  unfold delete
  simp only [List.mem_filterMap, List.mem_filter, List.mem_range, decide_eq_true_eq]
  constructor
  · rintro ⟨k, ⟨-, h⟩, hk⟩; exact ⟨k, h, hk⟩
  · rintro ⟨k, h, hk⟩
    obtain ⟨hl, -⟩ := List.getElem?_eq_some_iff.mp hk
    exact ⟨k, ⟨hl, h⟩, hk⟩

theorem mem_nonzero (size : ℕ) (p : ℕ → Bool) (k : ℕ) : k ∈ nonzero size p ↔ k < size ∧ p k = true := by
  unfold nonzero
  rw [List.mem_filter, List.mem_range]

theorem mem_deleteMissing (p q r : ℕ → Bool) (idx : List ℕ) (k : ℕ) :
    k ∈ (if (positions p idx ++ positions q idx ++ positions r idx).length ≠ 0
      then delete idx (positions p idx ++ positions q idx ++ positions r idx) else idx) ↔
      k ∈ idx ∧ p k = false ∧ q k = false ∧ r k = false := by
  have key : ∀ n, idx[n]? = some k → (n ∉ positions p idx ++ positions q idx ++ positions r idx ↔
      p k = false ∧ q k = false ∧ r k = false) := by
    intro n hn
    rw [List.mem_append, List.mem_append, mem_positions, mem_positions, mem_positions, hn]
    simp only [Option.some.injEq, exists_eq_left', not_or, Bool.not_eq_true, and_assoc]
  split_ifs with h
  · rw [mem_delete]
    constructor
    · rintro ⟨n, hm, hn⟩
      exact ⟨List.mem_of_getElem? hn, (key n hn).mp hm⟩
    · rintro ⟨hk, hp⟩
      obtain ⟨n, hn⟩ := List.mem_iff_getElem?.mp hk
      exact ⟨n, (key n hn).mpr hp, hn⟩
  · rw [not_not, List.length_eq_zero_iff] at h
    constructor
    · intro hk
      obtain ⟨n, hn⟩ := List.mem_iff_getElem?.mp hk
      exact ⟨hk, (key n hn).mp (by rw [h]; simp)⟩
    · exact fun hk => hk.1

theorem mem_partIndices (x : Inputs) (s : Surface) (t : Grid (Option ℝ)) (k : ℕ) :
    k ∈ partIndices x s t ↔ k < t.rows * t.cols ∧ (ravel t k).isSome = true ∧ partMask x s (k / t.cols) (k % t.cols) = false ∧
      (ravel x.uncorrelated k).isSome = true ∧ (ravel x.synoptic k).isSome = true ∧ (ravel x.largeScale k).isSome = true := by
  unfold partIndices
  dsimp only
  rw [mem_deleteMissing, mem_nonzero]
  simp only [beq_iff_eq, Bool.or_eq_false_iff, Option.isNone_eq_false_iff]
  tauto

/-- The cells of a part, seen as rows and columns. -/
theorem partMask_iff (x : Inputs) (s : Surface) (i j : ℕ) : partMask x s i j = false ↔ IsSurface x i j s := by
  cases s with
  | landIce => exact landIceMask_iff x i j
  | seaIce =>
    unfold partMask seaIceMask IsSurface
    rw [Bool.or_eq_false_iff, concentrationMask_iff, Bool.not_eq_false', ← landIceMask_iff]
    simp only [Bool.not_eq_false]
    tauto

/-- The value of a part at a flat index. -/
def partFields (o : Observable) (x : Inputs) (h : Hemisphere) (s : Surface) (t : Grid (Option ℝ)) (c0 c1 c2 c3 : ℝ) (k : ℕ) : List ℝ :=
  [airTemperature c0 c1 c2 c3 x.daynumber ((ravel t k).getD 0), uncorrelatedOf h s o c1 ((ravel x.uncorrelated k).getD 0),
    synopticOf s o c1 ((ravel x.synoptic k).getD 0), largeScaleOf c1, cloudOf o c1 ((ravel x.largeScale k).getD 0)]

/-- The five fields at a flat index. -/
def Fields.at' (f : Fields) (k : ℕ) : List (Option ℝ) := [f.air k, f.uncorrelated k, f.synoptic k, f.largeScale k, f.cloud k]

theorem processPart_eq (o : Observable) (x : Inputs) (h : Hemisphere) (s : Surface) (t : Grid (Option ℝ)) (c0 c1 c2 c3 : ℝ)
    (more : List ℝ) (f : Fields) (hf : ∀ k ∈ partIndices x s t, f.air k = none) :
    ∃ f', processPart o x h s t (c0 :: c1 :: c2 :: c3 :: more) f = .ok f' ∧
      ∀ k, f'.at' k = if k ∈ partIndices x s t then (partFields o x h s t c0 c1 c2 c3 k).map some else f.at' k := by
  unfold processPart
  dsimp only
  rw [if_neg (by
    rw [not_not, List.length_eq_zero_iff, List.filter_eq_nil_iff]
    intro k hk
    rw [hf k hk]; simp)]
  refine ⟨_, rfl, ?_⟩
  intro k
  simp only [Fields.at', dataAt, List.map_map]
  have e := fun (v : ℕ → ℝ) (f : ℕ → Option ℝ) => put_map v (partIndices x s t) f k
  rw [e, e, e, e, e]
  split_ifs <;> simp [partFields]

theorem surfaceTemperature_eq (x : Inputs) (hs : Shaped x) (hc : Counts x) (hb : 8 ≤ x.nobs3d.bins) (hb' : 8 ≤ x.ts3d.bins)
    (o : Observable) :
    ∃ g, surfaceTemperature x o = .ok g ∧ g.shape = x.ts.shape ∧
      ∀ i j t, g.at' i j = some t ↔ (inputOf x o).at' i j = some t ∧ Kept x (inputOf x o) (goodOf x o) i j := by
  cases o with
  | tas => exact c114_mean x hc hb
  | tasmin =>
    obtain ⟨g, h1, h2, h3⟩ := c114_min_partial x hc hb hb'
    exact ⟨g, h1, h2.trans hs.tsMin, h3⟩
  | tasmax =>
    obtain ⟨g, h1, h2, h3⟩ := c114_max x hc (by omega) (by omega)
    exact ⟨g, h1, h2.trans hs.tsMax, h3⟩

/-- Four or more coefficients. -/
def HasFour (c : List ℝ) (c0 c1 c2 c3 : ℝ) : Prop := ∃ more, c = c0 :: c1 :: c2 :: c3 :: more

theorem processParts_eq (m : Model) (x : Inputs) (h : Hemisphere) (o : Observable) (p : Parameters) (hp : m h = some p)
    (C : Surface → Observable → List ℝ) (hC : ∀ s, lookup p s.name = .ok (C s)) (c : Surface → ℕ → ℝ)
    (hc : ∀ s, HasFour (C s o) (c s 0) (c s 1) (c s 2) (c s 3)) (t : Grid (Option ℝ)) (ht : surfaceTemperature x o = .ok t) :
    ∃ f, processParts m x h o [.landIce, .seaIce] masked = .ok f ∧
      ∀ k, f.at' k =
        if k ∈ partIndices x .seaIce t then (partFields o x h .seaIce t (c .seaIce 0) (c .seaIce 1) (c .seaIce 2) (c .seaIce 3) k).map some
        else if k ∈ partIndices x .landIce t then
          (partFields o x h .landIce t (c .landIce 0) (c .landIce 1) (c .landIce 2) (c .landIce 3) k).map some
        else masked.at' k := by
  obtain ⟨m1, e1⟩ := hc .landIce
  obtain ⟨m2, e2⟩ := hc .seaIce
  obtain ⟨f1, h1, v1⟩ := processPart_eq o x h .landIce t (c .landIce 0) (c .landIce 1) (c .landIce 2) (c .landIce 3) m1 masked
    (fun _ _ => rfl)
  obtain ⟨f2, h2, v2⟩ := processPart_eq o x h .seaIce t (c .seaIce 0) (c .seaIce 1) (c .seaIce 2) (c .seaIce 3) m2 f1 (by
    intro k hk
    have hn : k ∉ partIndices x .landIce t := by
      intro hl
      rw [mem_partIndices] at hk hl
      have h1 := (partMask_iff x .seaIce _ _).mp hk.2.2.1
      have h2 := (partMask_iff x .landIce _ _).mp hl.2.2.1
      exact h1.1 h2
    have := v1 k
    rw [if_neg hn] at this
    simp only [Fields.at', masked, List.cons.injEq] at this
    exact this.1)
  refine ⟨f2, ?_, ?_⟩
  · simp only [processParts, hp, hC, ht, e1, h1, e2, h2]
  · intro k
    rw [v2, v1]

theorem rootSumSquares_some (l : List ℝ) : rootSumSquares (l.map some) = some (Real.sqrt ((l.map (· ^ 2)).sum)) := by
  unfold rootSumSquares
  rw [if_pos (by simp)]
  simp [List.map_map, Function.comp_def]

theorem hSampling (h : Hemisphere) (s : Surface) (o : Observable) : sampling h s o = entry (samplingTenths h s) o := by
  cases h <;> cases s <;> cases o <;> norm_num [sampling, entry, samplingTenths]

theorem hRelation (s : Surface) (o : Observable) : relation s o = entry (relationTenths s) o := by
  cases s <;> cases o <;> norm_num [relation, entry, relationTenths]

/-- The cell computed by the program. -/
def cellOf (h : Hemisphere) (s : Surface) (o : Observable) (c0 c1 c2 c3 day t ur us ul : ℝ) : Cell where
  air := airTemperature c0 c1 c2 c3 day t
  uncorrelated := uncorrelatedOf h s o c1 ur
  synoptic := synopticOf s o c1 us
  largeScale := largeScaleOf c1
  cloud := cloudOf o c1 ul
  noCloud := Real.sqrt (uncorrelatedOf h s o c1 ur ^ 2 + (synopticOf s o c1 us ^ 2 + largeScaleOf c1 ^ 2))
  total := Real.sqrt (uncorrelatedOf h s o c1 ur ^ 2 + (synopticOf s o c1 us ^ 2 + (largeScaleOf c1 ^ 2 + cloudOf o c1 ul ^ 2)))

theorem cellOf_isCell (h : Hemisphere) (s : Surface) (o : Observable) (c0 c1 c2 c3 day t ur us ul : ℝ) :
    IsCell h s o c0 c1 c2 c3 day t ur us ul (cellOf h s o c0 c1 c2 c3 day t ur us ul) where
  air := by
    simp only [cellOf, airTemperature, temperatureOffset, dayOffset, dayScale]
    have e1 : (273.15 : ℝ) = 27315 / 100 := by norm_num
    have e2 : (365.2425 : ℝ) = 3652425 / 10000 := by norm_num
    rw [e1, e2, mul_div_assoc]
    ring
  uncorrelated := by
    simp only [cellOf, uncorrelatedOf, mul_pow, hSampling]
    rw [Real.sq_sqrt (by positivity)]; ring
  uncorrelatedSign := fun hc => mul_nonneg (Real.sqrt_nonneg _) hc
  synoptic := by
    simp only [cellOf, synopticOf, hRelation]
    rw [Real.sq_sqrt (by positivity)]; ring
  synopticSign := Real.sqrt_nonneg _
  largeScale := by simp only [cellOf, largeScaleOf, globalLargeScale]; norm_num
  cloud := by
    cases o <;> simp [cellOf, cloudOf, globalLargeScale, cloudOffset] <;> norm_num
  noCloud := by
    simp only [cellOf]
    rw [Real.sq_sqrt (by positivity)]; ring
  noCloudSign := Real.sqrt_nonneg _
  total := by
    simp only [cellOf]
    rw [Real.sq_sqrt (by positivity), Real.sq_sqrt (by positivity)]; ring
  totalSign := Real.sqrt_nonneg _

theorem isSurface_exists (x : Inputs) (i j : ℕ) (h : OnLandIce x i j ∨ Concentrated x i j) : ∃ s, IsSurface x i j s := by
  by_cases hl : OnLandIce x i j
  · exact ⟨.landIce, hl⟩
  · exact ⟨.seaIce, hl, h.resolve_left hl⟩

/-- A cell which can be used belongs to one surface, and all seven fields of an observable hold what the model of this surface gives;
a cell which cannot be used is missing in all seven. The parts never overlap: there is always a result. -/
theorem c115_process (m : Model) (x : Inputs) (hx : construct x = .ok x) (hn : Counts x) (hb : 8 ≤ x.nobs3d.bins)
    (hb' : 8 ≤ x.ts3d.bins) (h : Hemisphere) (hh : hemisphere x = .ok h) (o : Observable) (p : Parameters) (hp : m h = some p)
    (C : Surface → Observable → List ℝ) (hC : ∀ s, lookup p s.name = .ok (C s)) (c : Surface → ℕ → ℝ)
    (hc : ∀ s, HasFour (C s o) (c s 0) (c s 1) (c s 2) (c s 3)) :
    ∃ r, processObservable m x o = .ok r ∧ r.map Prod.fst = fieldNames o ∧ (∀ e ∈ r, e.2.shape = x.ts.shape) ∧
      ∀ i < x.ts.rows, ∀ j < x.ts.cols,
        (∀ s t ur us ul, IsSurface x i j s → Usable x o i j t ur us ul →
          ∃ cell, IsCell h s o (c s 0) (c s 1) (c s 2) (c s 3) x.daynumber t ur us ul cell ∧
            valuesAt r i j = (cell.fields o).map fun e => (e.1, some e.2)) ∧
        ((¬ ∃ t ur us ul, Usable x o i j t ur us ul) → ∀ e ∈ valuesAt r i j, e.2 = none) := by
  obtain ⟨-, hs⟩ := (construct_iff x x).mp hx
  obtain ⟨t, ht, htS, htV⟩ := surfaceTemperature_eq x hs hn hb hb' o
  obtain ⟨f, hf, hv⟩ := processParts_eq m x h o p hp C hC c hc t ht
  have hrows : t.rows = x.ts.rows := congrArg Prod.fst htS
  have hcols : t.cols = x.ts.cols := congrArg Prod.snd htS
  have hU : x.uncorrelated.cols = x.ts.cols := congrArg Prod.snd hs.uncorrelated
  have hS : x.synoptic.cols = x.ts.cols := congrArg Prod.snd hs.synoptic
  have hL : x.largeScale.cols = x.ts.cols := congrArg Prod.snd hs.largeScale
  unfold processObservable
  rw [hh]
  dsimp only
  rw [hf]
  dsimp only
  refine ⟨_, rfl, rfl, ?_, ?_⟩
  · intro e he
    simp only [List.mem_cons, List.not_mem_nil, or_false] at he
    rcases he with rfl | rfl | rfl | rfl | rfl | rfl | rfl <;> rfl
  · intro i hi j hj
    have hk1 : (i * x.ts.cols + j) / x.ts.cols = i := by
      rw [mul_comm, Nat.mul_add_div (by omega), Nat.div_eq_of_lt hj, add_zero]
    have hk2 : (i * x.ts.cols + j) % x.ts.cols = j := by
      rw [mul_comm, Nat.mul_add_mod, Nat.mod_eq_of_lt hj]
    have hlt : i * x.ts.cols + j < x.ts.rows * x.ts.cols := by
      calc i * x.ts.cols + j < i * x.ts.cols + x.ts.cols := by omega
        _ = (i + 1) * x.ts.cols := by ring
        _ ≤ x.ts.rows * x.ts.cols := Nat.mul_le_mul_right _ hi
    set k := i * x.ts.cols + j with hk
    have rt : ravel t k = t.at' i j := by unfold ravel; rw [hcols, hk1, hk2]
    have rU : ravel x.uncorrelated k = x.uncorrelated.at' i j := by unfold ravel; rw [hU, hk1, hk2]
    have rS : ravel x.synoptic k = x.synoptic.at' i j := by unfold ravel; rw [hS, hk1, hk2]
    have rL : ravel x.largeScale k = x.largeScale.at' i j := by unfold ravel; rw [hL, hk1, hk2]
    have hmem : ∀ s, k ∈ partIndices x s t ↔ IsSurface x i j s ∧ ∃ t' ur us ul, Usable x o i j t' ur us ul := by
      intro s
      rw [mem_partIndices, rt, rU, rS, rL, hrows, hcols, hk1, hk2, partMask_iff]
      constructor
      · rintro ⟨-, h1, h2, h3, h4, h5⟩
        obtain ⟨a, ha⟩ := Option.isSome_iff_exists.mp h1
        obtain ⟨b, hb⟩ := Option.isSome_iff_exists.mp h3
        obtain ⟨c, hc⟩ := Option.isSome_iff_exists.mp h4
        obtain ⟨d, hd⟩ := Option.isSome_iff_exists.mp h5
        have := (htV i j a).mp ha
        exact ⟨h2, a, b, c, d, this.1, this.2, hb, hc, hd⟩
      · rintro ⟨h1, a, b, c, d, h2, h3, h4, h5, h6⟩
        rw [(htV i j a).mpr ⟨h2, h3⟩, h4, h5, h6]
        exact ⟨hlt, rfl, h1, rfl, rfl, rfl⟩
    constructor
    · intro s a ur us ul hs' hu
      have hmem' := (hmem s).mpr ⟨hs', a, ur, us, ul, hu⟩
      have hval : f.at' k = (partFields o x h s t (c s 0) (c s 1) (c s 2) (c s 3) k).map some := by
        rw [hv]
        cases s with
        | seaIce => rw [if_pos hmem']
        | landIce =>
          have hn' : k ∉ partIndices x .seaIce t := by
            intro hsea
            exact ((hmem .seaIce).mp hsea).1.1 hs'
          rw [if_neg hn', if_pos hmem']
      obtain ⟨u1, u2, u3, u4, u5⟩ := hu
      refine ⟨cellOf h s o (c s 0) (c s 1) (c s 2) (c s 3) x.daynumber a ur us ul, cellOf_isCell .., ?_⟩
      simp only [Fields.at', partFields, List.map_cons, List.map_nil, List.cons.injEq, and_true, rt, rU, rS, rL,
        (htV i j a).mpr ⟨u1, u2⟩, u3, u4, u5, Option.getD_some] at hval
      obtain ⟨v1, v2, v3, v4, v5⟩ := hval
      have q1 := rootSumSquares_some [uncorrelatedOf h s o (c s 1) ur, synopticOf s o (c s 1) us, largeScaleOf (c s 1)]
      have q2 := rootSumSquares_some
        [uncorrelatedOf h s o (c s 1) ur, synopticOf s o (c s 1) us, largeScaleOf (c s 1), cloudOf o (c s 1) ul]
      simp only [List.map_cons, List.map_nil, List.sum_cons, List.sum_nil, add_zero] at q1 q2
      simp only [valuesAt, field, List.map_cons, List.map_nil, ← hk, v1, v2, v3, v4, v5, q1, q2, Cell.fields, cellOf]
    · intro hno
      have hval : f.at' k = masked.at' k := by
        rw [hv, if_neg (fun hm => hno ((hmem _).mp hm).2), if_neg (fun hm => hno ((hmem _).mp hm).2)]
      simp only [Fields.at', masked, List.cons.injEq, and_true] at hval
      obtain ⟨v1, v2, v3, v4, v5⟩ := hval
      intro e he
      simp only [valuesAt, field, List.map_cons, List.map_nil, ← hk, v1, v2, v3, v4, v5, List.mem_cons, List.not_mem_nil,
        or_false] at he
      rcases he with rfl | rfl | rfl | rfl | rfl | rfl | rfl <;> simp [rootSumSquares]

end

end Verif.Eustace.Ice
