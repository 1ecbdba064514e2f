import Verif.Eustace.HadCRUT.Model

/-!
C169: the fields of HadCRUT4 as observations of a month.
-/

namespace Verif.Eustace.HadCRUT

open Verif Verif.Eustace.RawBinary Verif.Eustace.ObsSource Verif.Calendar

/-! ### Months -/

/-- C169: the time of a month is that of the steps of the catalogue. -/
theorem c169_midmonth (epoch : Date) (n : Nat) : midmonth epoch n = Dates.midMonthTime epoch n := rfl

/-- Two months do not have the same middle. -/
theorem midmonth_inj {epoch : Date} {a b : Nat} (h : midmonth epoch a = midmonth epoch b) : a = b := by
  have h1 := (Dates.midMonthDate_ord epoch a).2
  have h2 := (Dates.midMonthDate_ord epoch b).2
  have : Dates.midMonthDate epoch a = Dates.midMonthDate epoch b := by
    unfold Dates.midMonthDate; rw [← c169_midmonth, ← c169_midmonth, h]
  rw [this] at h1
  omega

/-- C169: from a variable with one field for each month since the epoch, in order, exactly the field of the requested month is
selected, and nothing beyond the end of the file. -/
theorem c169_select {α : Type} (epoch : Date) (fields : List α) (n : Nat) :
    selectTime epoch n (((List.range fields.length).map (Dates.midMonthTime epoch)).zip fields)
      = (match fields[n]? with | some f => [f] | none => []) := by
  have key : ∀ (l : List α) (k : Nat),
      selectTime epoch n (((List.range' k l.length).map (Dates.midMonthTime epoch)).zip l)
        = (if k ≤ n then (match l[n - k]? with | some f => [f] | none => []) else []) := by
    intro l
    induction l with
    | nil => intro k; simp [selectTime]
    | cons x rest ih =>
      intro k
      have ih' := ih (k + 1)
      unfold selectTime at ih' ⊢
      rw [List.length_cons, List.range'_succ, List.map_cons, List.zip_cons_cons, List.filter_cons]
      by_cases hk : k = n
      · subst hk
        rw [if_neg (by omega)] at ih'
        rw [if_pos (by simp [c169_midmonth]), List.map_cons, ih']
        simp
      · rw [if_neg (by
          simp only [decide_eq_true_eq]
          rw [← c169_midmonth]
          exact fun e => hk (midmonth_inj e)), ih']
        by_cases hle : k ≤ n
        · have hlt : k + 1 ≤ n := by omega
          obtain ⟨d, rfl⟩ := Nat.exists_eq_add_of_le hlt
          rw [if_pos hlt, if_pos hle, show k + 1 + d - (k + 1) = d by omega, show k + 1 + d - k = d + 1 by omega]
          simp
        · rw [if_neg (by omega), if_neg hle]
  have := key fields 0
  rw [if_pos (Nat.zero_le n), Nat.sub_zero] at this
  rw [List.range_eq_range']
  exact this

example : selectTime ⟨1850, 1, 1⟩ 1 (((List.range 3).map (Dates.midMonthTime ⟨1850, 1, 1⟩)).zip ["a", "b", "c"]) = ["b"] :=
  c169_select ⟨1850, 1, 1⟩ ["a", "b", "c"] 1

/-! ### Locations -/

theorem lookup_length (lat lon : List ℝ) : (locationLookup lat lon).length = lat.length * lon.length := by
  unfold locationLookup
  induction lat with
  | nil => simp
  | cons y rest ih => rw [List.flatMap_cons, List.length_append, List.length_map, ih, List.length_cons]; ring

/-- C169: the location of a box of the grid, counted by rows, has the latitude of the row and the longitude of the column. -/
theorem c169_location (lat lon : List ℝ) (row col : Nat) (hr : row < lat.length) (hc : col < lon.length) :
    (locationLookup lat lon)[row * lon.length + col]? = some (lat[row], lon[col]) := by
  unfold locationLookup
  induction lat generalizing row with
  | nil => exact absurd hr (by simp)
  | cons y rest ih =>
    rw [List.flatMap_cons]
    cases row with
    | zero =>
      rw [List.getElem?_append_left (by simpa using hc)]
      simp [hc]
    | succ r =>
      have hr' : r < rest.length := by simpa using hr
      rw [List.getElem?_append_right (by simp only [List.length_map]; nlinarith), List.length_map,
        show (r + 1) * lon.length + col - lon.length = r * lon.length + col by
          rw [Nat.succ_mul]; omega, ih r hr']
      simp

/-! ### Observations -/

/-- The uncertainty of a box: that of two independent errors, or 0.1 K² if nothing is known of it. -/
noncomputable def Uncertainty (a b : ℝ) : ℝ :=
  open Classical in if Real.sqrt (a * a + b * b) < 1 / 1000 then Real.sqrt (1 / 10) else Real.sqrt (a * a + b * b)

/-- A field with a mask for all its boxes. -/
def Full (n : Nat) (f : Masked) (m : List Bool) : Prop := f.values.length = n ∧ f.mask = some m ∧ m.length = n

/-- Uncertainty is known wherever there is a temperature. -/
def Covers (m u : List Bool) : Prop := ∀ i : Nat, m[i]? = some false → u[i]? = some false

theorem gather_any {m u : List Bool} (hl : u.length = m.length) :
    ∃ l, gather u (validPlaces m) = .ok l ∧ (l.any id = false ↔ Covers m u) := by
  refine ⟨_, gather_ok u true (validPlaces m) (fun i hi => ?_), ?_⟩
  · rw [hl]; exact (List.getElem?_eq_some_iff.1 ((mem_validPlaces m i).1 hi)).1
  · rw [List.any_eq_false]
    constructor
    · intro h i hi
      have := h (u.getD i true) (List.mem_map.2 ⟨i, (mem_validPlaces m i).2 hi, rfl⟩)
      have hb : i < u.length := by rw [hl]; exact (List.getElem?_eq_some_iff.1 hi).1
      rw [List.getD_eq_getElem?_getD, List.getElem?_eq_getElem hb] at this
      rw [List.getElem?_eq_getElem hb]
      simpa using this
    · intro h x hx
      obtain ⟨i, hi, rfl⟩ := List.mem_map.1 hx
      rw [List.getD_eq_getElem?_getD, h i ((mem_validPlaces m i).1 hi)]
      simp

/-- C169: a field without an uncertainty at one of its temperatures is refused. -/
theorem c169_missing (month n : Nat) (tas u0 u1 : Masked) (m m0 m1 : List Bool) (more : List Masked) (h : Full n tas m)
    (h0 : Full n u0 m0) (h1 : Full n u1 m1) (hc : ¬ (Covers m m0 ∧ Covers m m1)) :
    observations "Tmean" month tas (u0 :: u1 :: more) = .error .valueError := by
  obtain ⟨l0, e0, c0⟩ := gather_any (m := m) (u := m0) (h0.2.2.trans h.2.2.symm)
  obtain ⟨l1, e1, c1⟩ := gather_any (m := m) (u := m1) (h1.2.2.trans h.2.2.symm)
  unfold observations
  rw [if_pos rfl]
  simp only [h.2.1, h0.2.1, h1.2.1, maskAt, validIndices, e0, Except.bind]
  by_cases hb : l0.any id = true
  · rw [if_pos hb]; simp [hb]
  · rw [if_neg hb]
    simp only [e1]
    have hb0 := c0.1 (by simpa using hb)
    have : l1.any id = true := by
      by_contra hb1
      exact hc ⟨hb0, c1.1 (by simpa using hb1)⟩
    simp [this]

/-- C169: otherwise the observations are the temperatures of the field with its mask, at the locations 0, 1, …, and each temperature has
the combined uncertainty. -/
theorem c169_observations (month n : Nat) (tas u0 u1 : Masked) (m m0 m1 : List Bool) (more : List Masked) (h : Full n tas m)
    (h0 : Full n u0 m0) (h1 : Full n u1 m1) (hc0 : Covers m m0) (hc1 : Covers m m1) :
    ∃ obs, observations "Tmean" month tas (u0 :: u1 :: more) = .ok (some obs) ∧ obs.mask = m ∧ obs.time = .scalar month ∧
      obs.measurement = tas.values ∧ obs.location.length = n ∧ obs.uncorrelated.length = n ∧
      (∀ i < n, obs.location[i]? = some (UInt64.ofNat i)) ∧
      (∀ i : Nat, m[i]? = some false → ∃ a b, u0.values[i]? = some a ∧ u1.values[i]? = some b ∧
        obs.uncorrelated[i]? = some (Uncertainty a b)) ∧
      (∀ i : Nat, m[i]? = some true → obs.uncorrelated[i]? = some 0) := by
  obtain ⟨l0, e0, c0⟩ := gather_any (m := m) (u := m0) (h0.2.2.trans h.2.2.symm)
  obtain ⟨l1, e1, c1⟩ := gather_any (m := m) (u := m1) (h1.2.2.trans h.2.2.symm)
  have b0 := c0.2 hc0
  have b1 := c1.2 hc1
  have inb : ∀ i ∈ validPlaces m, i < n := fun i hi => by
    rw [← h.2.2]; exact (List.getElem?_eq_some_iff.1 ((mem_validPlaces m i).1 hi)).1
  have g0 := gather_ok u0.values 0 (validPlaces m) (fun i hi => by rw [h0.1]; exact inb i hi)
  have g1 := gather_ok u1.values 0 (validPlaces m) (fun i hi => by rw [h1.1]; exact inb i hi)
  have hcomb : combined tas u0 u1 = .ok ((List.range n).map fun i =>
      if i ∈ validPlaces m then combine (u0.values.getD i 0) (u1.values.getD i 0) else 0) := by
    unfold combined
    simp only [h.2.1, validIndices, g0, g1, Except.bind, h.1]
    rw [if_pos (by simpa using inb)]
  refine ⟨{ mask := m, time := .scalar month, location := (List.range n).map UInt64.ofNat, measurement := tas.values,
            uncorrelated := adjusted (some m) ((List.range n).map fun i =>
              if i ∈ validPlaces m then combine (u0.values.getD i 0) (u1.values.getD i 0) else 0), correlated := [] },
    ?_, rfl, rfl, rfl, by simp, by simp [adjusted], ?_, ?_, ?_⟩
  · unfold observations
    rw [if_pos rfl]
    simp only [h.2.1, h0.2.1, h1.2.1, maskAt, validIndices, e0, Except.bind, b0, e1, b1, hcomb, h.1, ravelMask]
    simp [e1, b1]
  · intro i hi
    simp [hi]
  · intro i hi
    have hv := (mem_validPlaces m i).2 hi
    have hn := inb i hv
    refine ⟨u0.values[i]'(by rw [h0.1]; exact hn), u1.values[i]'(by rw [h1.1]; exact hn),
      List.getElem?_eq_getElem _, List.getElem?_eq_getElem _, ?_⟩
    simp only [adjusted, List.length_map, List.length_range, List.getElem?_map, List.getElem?_range hn, Option.map_some,
      List.getD_eq_getElem?_getD, hv, if_true, Option.getD_some, unmasked, hi, beq_self_eq_true, true_and,
      List.getElem?_eq_getElem (show i < u0.values.length by rw [h0.1]; exact hn),
      List.getElem?_eq_getElem (show i < u1.values.length by rw [h1.1]; exact hn), combine, Uncertainty]
    norm_num [pow_two]
  · intro i hi
    have hn : i < n := by rw [← h.2.2]; exact (List.getElem?_eq_some_iff.1 hi).1
    have hv : i ∉ validPlaces m := fun hv => by
      have := (mem_validPlaces m i).1 hv
      rw [hi] at this; simp at this
    simp [adjusted, hn, unmasked, hi, hv]

/-- C169: the uncertainty of a temperature is never zero, so that its precision is a number. -/
theorem c169_positive (a b : ℝ) : 1 / 1000 ≤ Uncertainty a b := by
  unfold Uncertainty
  split
  · exact Real.le_sqrt_of_sq_le (by norm_num)
  · rename_i h; exact not_lt.1 h

example : ∃ obs, observations "Tmean" 3 ⟨[1, 2], some [false, true]⟩ [⟨[3, 0], some [false, true]⟩, ⟨[4, 0], some [false, false]⟩]
    = .ok (some obs) ∧ obs.measurement = [1, 2] ∧ obs.uncorrelated[0]? = some 5 := by
  obtain ⟨obs, h, -, -, hm, -, -, -, hu, -⟩ := c169_observations 3 2 ⟨[1, 2], some [false, true]⟩ ⟨[3, 0], some [false, true]⟩
    ⟨[4, 0], some [false, false]⟩ [false, true] [false, true] [false, false] [] ⟨rfl, rfl, rfl⟩ ⟨rfl, rfl, rfl⟩ ⟨rfl, rfl, rfl⟩
    (by intro i hi
        match i with
        | 0 => rfl
        | 1 => simp at hi
        | (k + 2) => simp at hi)
    (by intro i hi
        match i with
        | 0 => rfl
        | 1 => simp at hi
        | (k + 2) => simp at hi)
  refine ⟨obs, h, hm, ?_⟩
  obtain ⟨a, b, ha, hb, hu⟩ := hu 0 rfl
  simp only [List.getElem?_cons_zero, Option.some.injEq] at ha hb
  subst ha; subst hb
  rw [hu, Uncertainty, show (3 : ℝ) * 3 + 4 * 4 = 5 ^ 2 by norm_num, Real.sqrt_sq (by norm_num), if_neg (by norm_num)]

/-! ### As the analysis sees them -/

/-- C169: the methods of the connector give for each box with a temperature the latitude of its row and the longitude of its column, from
-180 up to 180. -/
theorem c169_places (lat lon : List ℝ) (obs : Observations ℝ) (hn : obs.mask.length = lat.length * lon.length)
    (hsmall : lat.length * lon.length < 2 ^ 64) (hl : obs.location = (List.range (lat.length * lon.length)).map UInt64.ofNat) :
    polarCoordinates (locationLookup lat lon) obs
      = .ok ((validPlaces obs.mask).map fun i =>
          (lat.getD (i / lon.length) 0, wrapLongitude (lon.getD (i % lon.length) 0))) := by
  have inb : ∀ i ∈ validPlaces obs.mask, i < lat.length * lon.length := fun i hi => by
    rw [← hn]; exact (List.getElem?_eq_some_iff.1 ((mem_validPlaces _ i).1 hi)).1
  unfold polarCoordinates
  rw [gather_ok obs.location 0 _ (fun i hi => by rw [hl]; simpa using inb i hi)]
  have hids : ((validPlaces obs.mask).map fun i => obs.location.getD i 0).map UInt64.toNat = validPlaces obs.mask := by
    rw [List.map_map]
    conv_rhs => rw [← List.map_id (validPlaces obs.mask)]
    refine List.map_congr_left fun i hi => ?_
    have := inb i hi
    simp only [Function.comp, hl, List.getD_eq_getElem?_getD, List.getElem?_map, List.getElem?_range this, Option.map_some,
      Option.getD_some, id]
    exact UInt64.toNat_ofNat_of_lt' (this.trans hsmall)
  simp only [hids]
  rw [gather_ok (locationLookup lat lon) (0, 0) _ (fun i hi => by rw [lookup_length]; exact inb i hi)]
  simp only [List.map_map]
  congr 1
  refine List.map_congr_left fun i hi => ?_
  have hi' := inb i hi
  have hc : 0 < lon.length := Nat.pos_of_ne_zero fun h => by rw [h] at hi'; omega
  have hr : i / lon.length < lat.length := Nat.div_lt_of_lt_mul (by rw [Nat.mul_comm]; exact hi')
  have hm := Nat.mod_lt i hc
  have := c169_location lat lon (i / lon.length) (i % lon.length) hr hm
  rw [show i / lon.length * lon.length + i % lon.length = i by rw [Nat.mul_comm]; exact Nat.div_add_mod i _] at this
  simp [List.getD_eq_getElem?_getD, this, List.getElem?_eq_getElem hr, List.getElem?_eq_getElem hm]

/-! ### Violations -/

/-- C169 fails: no field of HadCRUT4 can be given to the analysis, whatever the files: the connector asks for the names of the files of
the source in an attribute which the source does not have. -/
theorem c169_structure_violated (observable : String) (month : Nat) (tas : Masked) (uncs : List Masked) :
    ∀ s, loadObservationStructure observable month tas uncs ≠ .ok s := by
  intro s h
  unfold loadObservationStructure connect at h
  cases e : observations observable month tas uncs with
  | error x => rw [e] at h; simp [Except.bind] at h
  | ok o => rw [e] at h; cases o <;> simp [Except.bind] at h

/-- C169: with the observations of `c169_observations` the error is that of a missing attribute. -/
theorem c169_structure_error (observable : String) (month : Nat) (tas : Masked) (uncs : List Masked) (o : Option (Observations ℝ))
    (h : observations observable month tas uncs = .ok o) :
    loadObservationStructure observable month tas uncs = .error .attributeError := by
  unfold loadObservationStructure connect
  rw [h]
  cases o <;> rfl

/-- C169 fails for a field with a temperature in all its boxes and no mask: the uncertainties of the files are used for the first box
only, all others have the value for unknown uncertainty, and only the first box counts as an observation. -/
theorem c169_nomask_violated (month n : Nat) (tas u0 u1 : Masked) (m0 m1 : List Bool) (hn : 0 < n) (h : tas.values.length = n)
    (hm : tas.mask = none) (h0 : Full n u0 m0) (h1 : Full n u1 m1) (k0 : m0[0]? = some false) (k1 : m1[0]? = some false) :
    ∃ obs, observations "Tmean" month tas [u0, u1] = .ok (some obs) ∧ observationCount obs = 1 ∧
      ∀ i : Nat, 0 < i → i < n → obs.uncorrelated[i]? = some (Real.sqrt (1 / 10)) := by
  have e0 : gather m0 [0] = .ok [false] := by simp [gather, k0]
  have e1 : gather m1 [0] = .ok [false] := by simp [gather, k1]
  have l0 := h0.1
  have l1 := h1.1
  have g0 := gather_ok u0.values 0 [0] (by simpa [l0] using hn)
  have g1 := gather_ok u1.values 0 [0] (by simpa [l1] using hn)
  have hcomb : combined tas u0 u1 = .ok ((List.range n).map fun i =>
      if i ∈ [0] then combine (u0.values.getD i 0) (u1.values.getD i 0) else 0) := by
    unfold combined
    simp only [hm, validIndices, g0, g1, Except.bind, h]
    rw [if_pos (by simpa using hn)]
  refine ⟨{ mask := [false], time := .scalar month, location := (List.range n).map UInt64.ofNat, measurement := tas.values,
            uncorrelated := adjusted none ((List.range n).map fun i =>
              if i ∈ [0] then combine (u0.values.getD i 0) (u1.values.getD i 0) else 0), correlated := [] }, ?_, by
              simp [observationCount, validPlaces, List.range_succ], ?_⟩
  · unfold observations
    rw [if_pos rfl]
    simp only [hm, h0.2.1, h1.2.1, maskAt, validIndices, e0, Except.bind, hcomb, h, ravelMask]
    simp [e1]
  · intro i hi hin
    simp only [adjusted, List.length_map, List.length_range, List.getElem?_map, List.getElem?_range hin, Option.map_some,
      List.getD_eq_getElem?_getD, unmasked, List.mem_singleton, show i ≠ 0 by omega, if_false, Option.getD_some, true_and]
    norm_num

/-- C169 fails for uncertainties which are known everywhere and have no mask: they are not read. -/
theorem c169_known_violated (month : Nat) (tas u0 : Masked) (more : List Masked) (h : u0.mask = none) :
    observations "Tmean" month tas (u0 :: u0 :: more) = .error .indexError := by
  unfold observations
  rw [if_pos rfl]
  simp [h, maskAt, Except.bind]

example : ∃ obs, observations "Tmean" 0 ⟨[1, 2], none⟩ [⟨[3, 3], some [false, false]⟩, ⟨[4, 4], some [false, false]⟩] = .ok (some obs) ∧
    obs.uncorrelated[1]? = some (Real.sqrt (1 / 10)) := by
  obtain ⟨obs, h, -, hu⟩ := c169_nomask_violated 0 2 ⟨[1, 2], none⟩ ⟨[3, 3], some [false, false]⟩ ⟨[4, 4], some [false, false]⟩
    [false, false] [false, false] (by omega) rfl rfl ⟨rfl, rfl, rfl⟩ ⟨rfl, rfl, rfl⟩ rfl rfl
  exact ⟨obs, h, hu 1 (by omega) (by omega)⟩

end Verif.Eustace.HadCRUT
