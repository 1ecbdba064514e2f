import Verif.Eustace.Insitu.Land
import Verif.Eustace.Geography.Props
import Mathlib.Tactic.Linarith

/-! C133: adjustment of measurements of stations to the altitude of a reference surface. -/

namespace Verif.Eustace.Insitu

open Verif Verif.Eustace.RawBinary Spec

theorem collect_map {α β : Type} (f : α → Except PyErr β) (g : α → β) (l : List α) (h : ∀ x ∈ l, f x = .ok (g x)) :
    collect (l.map f) = .ok (l.map g) := by
  induction l with
  | nil => rfl
  | cons x l ih =>
    rw [List.map_cons, h x List.mem_cons_self, collect, ih fun y hy => h y (List.mem_cons_of_mem _ hy)]
    rfl

theorem referenceAltitudes_ok (file : StationFile) (a : Adjustment) (r : Nat → ℝ)
    (hr : ∀ j < file.stations, referenceAltitude a (file.latitude j, wrapLongitude (file.longitude j)) = .ok (r j)) :
    referenceAltitudes file a = .ok ((List.range file.stations).map r) := by
  rw [referenceAltitudes, locationLookup, List.map_map]
  exact collect_map _ _ _ fun j hj => hr j (List.mem_range.1 hj)

/-- **C133**: with a reference surface an observation of a day is masked unless it may be used and the elevation of its station is known.
The value of what is not masked is the measurement, raised by 6.5 K for each kilometre by which the station is above the
surface; its error is that of a measurement, 0.3 K, and 1.1 K for each kilometre of difference, as independent errors. -/
theorem c133_day (file : StationFile) {observable variable_ flags : String} (hq : Quantity observable variable_ flags)
    (qc : Bool) (day : Int) (t : Nat) (ht : OnlyRow file.times day t) (hold : Option HoldOut) (a : Adjustment) (r : Nat → ℝ)
    (hr : ∀ j < file.stations, referenceAltitude a (file.latitude j, wrapLongitude (file.longitude j)) = .ok (r j)) :
    ∃ o, observations file (some day) hold (some a) observable qc = .ok (some o) ∧ Sized o file.stations ∧
      o.time = .array (List.replicate file.stations (day : ℚ)) ∧
      ∀ j < file.stations, o.location[j]? = some (UInt64.ofNat j) ∧
        (o.mask[j]? = some false → Usable file variable_ flags hold qc t j ∧ file.noElevation j = false) ∧
        (hold = none ∨ qc = false ∨ file.flag flags 0 j = 0 →
          Usable file variable_ flags hold qc t j ∧ file.noElevation j = false → o.mask[j]? = some false) ∧
        (o.mask[j]? = some false →
          o.measurement[j]? = some (file.value variable_ t j + 6.5 * (file.elevation j / 1000 - r j)) ∧
          o.uncorrelated[j]? = some (Real.sqrt ((1.1 * (file.elevation j / 1000 - r j)) ^ 2 + 0.3 ^ 2))) := by
  obtain ⟨mask, mask', h1, h2, hrows, hc, hat⟩ := day_mask file variable_ flags qc day t ht hold
  obtain ⟨hv, hf⟩ := names_of hq
  obtain ⟨new, h3, h4, h5, h6⟩ := or_assign mask' (⟨1, file.stations, fun _ j => file.noElevation j⟩ : Grid Bool) hc.symm
    (.inr (.inl rfl))
  have hrefs : ∀ j < file.stations, ((List.range file.stations).map r).getD j 0 = r j := by
    intro j hj
    rw [List.getD_eq_getElem?_getD, List.getElem?_map, List.getElem?_range hj]
    rfl
  have hobs : observations file (some day) hold (some a) observable qc = .ok (some (formulate file [t] {
      mask := assignMask mask' new
      value := fun i j =>
        if mask'.at_ i j || file.noElevation j then file.value variable_ ([t].getD i 0) j
        else adjustmentOf (kilometres file j) (((List.range file.stations).map r).getD j 0) +
          file.value variable_ ([t].getD i 0) j
      error := fun i j =>
        if mask'.at_ i j || file.noElevation j then 0.3
        else Real.sqrt (adjustmentUncertainty (kilometres file j) (((List.range file.stations).map r).getD j 0) ^ 2 +
          0.3 ^ 2) })) := by
    rw [observations, hv, hf]
    dsimp only
    rw [h1]
    dsimp only
    rw [h2]
    dsimp only
    rw [adjustAltitude, referenceAltitudes_ok file a r hr]
    dsimp only
    rw [h3]
  have hsized : ∀ m : Measured, m.mask = assignMask mask' new → Sized (formulate file [t] m) file.stations := by
    intro m hm
    have := formulate_sized file [t] m (by rw [hm, h4, hrows]; rfl) (by rw [hm, h5, hc])
    simpa using this
  refine ⟨_, hobs, ?_, ?_, ?_⟩
  · exact hsized _ rfl
  · rw [formulate]
    dsimp only
    congr 1
    rw [List.eq_replicate_iff]
    constructor
    · rw [ravel_length]
      exact Nat.one_mul _
    · intro x hx
      rw [Grid.ravel, List.mem_map] at hx
      obtain ⟨k, hk, rfl⟩ := hx
      rw [List.mem_range] at hk
      dsimp only at hk ⊢
      have hz : k / file.stations = 0 := by
        rw [List.length_singleton, Nat.one_mul] at hk
        exact Nat.div_eq_of_lt hk
      rw [hz, List.getD_eq_getElem?_getD, List.getD_eq_getElem?_getD]
      simp [ht.1]
  · intro j hj
    have hz : ∀ {α : Type} (f : Nat → Nat → α), (Grid.ravel ⟨[t].length, file.stations, f⟩)[j]? = some (f 0 j) := by
      intro α f
      have := ravel_get ⟨[t].length, file.stations, f⟩ 0 j (by simp) hj
      simpa using this
    have hm : (assignMask mask' new).ravel[j]? = some (mask'.at_ 0 j || file.noElevation j) := by
      have := ravel_get (assignMask mask' new) 0 j (by omega) (by omega)
      rw [h6 0 (by omega) j (by omega)] at this
      simpa using this
    have hmask : (assignMask mask' new).ravel[j]? = some false ↔
        (Usable file variable_ flags hold qc t j ∧ (hold ≠ none → qc = true → file.flag flags 0 j = 0)) ∧
          file.noElevation j = false := by
      rw [hm, Option.some.injEq, Bool.or_eq_false_iff, hat j hj]
    refine ⟨hz _, fun h => ?_, fun hor hu => ?_, fun h => ?_⟩
    · exact ⟨(hmask.1 h).1.1, (hmask.1 h).2⟩
    · refine hmask.2 ⟨⟨hu.1, fun hne hqc => ?_⟩, hu.2⟩
      rcases hor with h | h | h
      · exact absurd h hne
      · rw [h] at hqc
        cases hqc
      · exact h
    · have hfalse : (mask'.at_ 0 j || file.noElevation j) = false := by
        have : (assignMask mask' new).ravel[j]? = some false := h
        rw [hm] at this
        exact Option.some.inj this
      constructor
      · rw [formulate]
        dsimp only
        rw [hz, hfalse, if_neg (by simp), hrefs j hj, adjustmentOf, kilometres, lapseRate]
        congr 1
        simp only [List.getD_cons_zero]
        ring
      · rw [formulate]
        dsimp only
        rw [hz, hfalse, if_neg (by simp), hrefs j hj, adjustmentUncertainty, kilometres, lapseRateUncertainty, mul_pow, sq_abs, mul_pow]
        congr 4
        ring

/-- **C133**: a station at a point of the grid of the reference surface, at the altitude which is given there, keeps its
measurement: the reference altitude is the value of the grid in kilometres. -/
theorem c133_grid_point (a : Adjustment) {lat0 lon0 s : ℝ} (h : Geography.Regular a.latitude a.longitude lat0 lon0 s)
    (hs : ∃ m : ℤ, s = m / 100) (i : Fin a.R) (j : Fin a.C) :
    referenceAltitude a (a.latitude i j, a.longitude i j) = .ok (a.rescale * a.covariate i j) := by
  rw [referenceAltitude, Geography.compute, Geography.c89_grid_point h hs]

/-- Non-vacuity: a reference surface at sea level with points at both stations of the example, of which one is adjusted by nothing
and the other by half a kilometre. -/
noncomputable def surface0 : Adjustment where
  R := 3
  C := 17
  latitude := fun i _ => 0 + i.val * 10
  longitude := fun _ j => -160 + j.val * 10
  covariate := fun _ _ => 0
  rescale := 0.001

theorem surface0_regular : Geography.Regular surface0.latitude surface0.longitude 0 (-160) 10 :=
  ⟨by show 2 ≤ 3; norm_num, by show 2 ≤ 17; norm_num, by norm_num, fun _ _ => rfl, fun _ _ => rfl⟩

theorem surface0_reference : ∀ j < file0.stations,
    referenceAltitude surface0 (file0.latitude j, wrapLongitude (file0.longitude j)) = .ok ((fun _ => 0) j) := by
  intro j hj
  have key := fun i k => c133_grid_point surface0 surface0_regular ⟨1000, by norm_num⟩ i k
  match j, hj with
  | 0, _ =>
    have := key (⟨0, by show 0 < 3; norm_num⟩ : Fin 3) (⟨16, by show 16 < 17; norm_num⟩ : Fin 17)
    rw [show surface0.rescale * surface0.covariate _ _ = 0 from mul_zero _] at this
    rw [← this]
    congr 2
    · show (10 : ℝ) * ((0 : Nat) : ℝ) = 0 + ((0 : Nat) : ℝ) * 10
      norm_num
    · show wrapLongitude (200 * ((0 : Nat) : ℝ)) = -160 + ((16 : Nat) : ℝ) * 10
      norm_num [wrapLongitude]
  | 1, _ =>
    have := key (⟨1, by show 1 < 3; norm_num⟩ : Fin 3) (⟨0, by show 0 < 17; norm_num⟩ : Fin 17)
    rw [show surface0.rescale * surface0.covariate _ _ = 0 from mul_zero _] at this
    rw [← this]
    congr 2
    · show (10 : ℝ) * ((1 : Nat) : ℝ) = 0 + ((1 : Nat) : ℝ) * 10
      norm_num
    · show wrapLongitude (200 * ((1 : Nat) : ℝ)) = -160 + ((0 : Nat) : ℝ) * 10
      norm_num [wrapLongitude]

example : ∃ o : Observations ℝ, observations file0 (some 101) none (some surface0) "Tmax" false = .ok (some o) ∧
    o.measurement[1]? = some (291 + 6.5 * 0.5 : ℝ) := by
  obtain ⟨o, h1, _, _, h⟩ := c133_day file0 .maximum false 101 1 row0 none surface0 (fun _ => 0) surface0_reference
  refine ⟨o, h1, ?_⟩
  obtain ⟨_, _, h2, h3⟩ := h 1 (by show 1 < 2; norm_num)
  rw [(h3 (h2 (.inl rfl) ⟨⟨rfl, fun h => absurd h (by simp), by rintro ⟨_, h, _⟩; cases h⟩, rfl⟩)).1]
  norm_num [file0]

/-- **C133**: the adjustment preserves differences of altitude: of two stations with the same measurement and reference the higher one
is the warmer one afterwards, by 6.5 K for each kilometre. -/
theorem c133_direction (altitude altitude' reference : ℝ) :
    adjustmentOf altitude' reference - adjustmentOf altitude reference = 6.5 * (altitude' - altitude) := by
  rw [adjustmentOf, adjustmentOf, lapseRate]
  ring

/-- **C133**: the error of a measurement which was adjusted is not less than that of the measurement, and not more than the sum. -/
theorem c133_error (altitude reference e : ℝ) (he : 0 ≤ e) :
    e ≤ Real.sqrt (adjustmentUncertainty altitude reference ^ 2 + e ^ 2) ∧
      Real.sqrt (adjustmentUncertainty altitude reference ^ 2 + e ^ 2) ≤ 1.1 * |altitude - reference| + e := by
  have hu : adjustmentUncertainty altitude reference = 1.1 * |altitude - reference| := rfl
  have h0 : 0 ≤ 1.1 * |altitude - reference| := by positivity
  rw [hu]
  constructor
  · exact Real.le_sqrt_of_sq_le (by nlinarith [sq_nonneg (1.1 * |altitude - reference|)])
  · rw [Real.sqrt_le_iff]
    constructor
    · linarith
    · nlinarith [mul_nonneg h0 he]

end Verif.Eustace.Insitu
