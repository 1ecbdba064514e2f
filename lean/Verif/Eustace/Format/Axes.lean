import Verif.Eustace.Format.Fields

/-! C124: the axes, days and local times of global fields. -/
namespace Verif.Eustace.Format
open Verif Verif.Float32 Spec

theorem rne_even (x : ℚ) (h : |(rne x : ℚ) - x| = 1 / 2) : rne x % 2 = 0 := by
  have h1 := Int.floor_le x
  have h2 := Int.lt_floor_add_one x
  unfold rne at h ⊢
  split
  · rename_i c
    rw [if_pos c, abs_sub_comm, abs_of_nonneg (by linarith)] at h
    linarith
  · rename_i c
    rw [if_neg c] at h
    split
    · rename_i c'
      rw [if_pos c'] at h
      push_cast at h
      rw [abs_of_nonneg (by linarith)] at h
      linarith
    · split
      · assumption
      · omega

theorem rne_neg (x : ℚ) : rne (-x) = -rne x := by
  have a := abs_le.1 (rne_near x)
  have b := abs_le.1 (rne_near (-x))
  have key : ∀ n : ℤ, rne (-x) + rne x = n → n = 0 := by
    intro n hn
    have hq : ((rne (-x) : ℤ) : ℚ) + rne x = n := by exact_mod_cast hn
    have l1 : (-1 : ℚ) ≤ n := by linarith
    have l2 : (n : ℚ) ≤ 1 := by linarith
    have l1 : -1 ≤ n := by exact_mod_cast l1
    have l2 : n ≤ 1 := by exact_mod_cast l2
    by_contra hc
    have : n = 1 ∨ n = -1 := by omega
    rcases this with rfl | rfl
    · push_cast at hq
      have e1 := rne_even x (by rw [show (rne x : ℚ) - x = 1 / 2 by linarith]; norm_num)
      have e2 := rne_even (-x) (by rw [show (rne (-x) : ℚ) - -x = 1 / 2 by linarith]; norm_num)
      omega
    · push_cast at hq
      have e1 := rne_even x (by rw [show (rne x : ℚ) - x = -(1 / 2) by linarith]; norm_num)
      have e2 := rne_even (-x) (by rw [show (rne (-x) : ℚ) - -x = -(1 / 2) by linarith]; norm_num)
      omega
  have := key _ rfl
  omega

theorem f32_neg (x : ℚ) : f32 (-x) = -f32 x := by
  unfold f32
  have hu : ulp (-x) = ulp x := by unfold ulp; rw [abs_neg]
  by_cases h : x = 0
  · simp [h]
  · rw [if_neg h, if_neg (by simpa using h), hu, neg_div, rne_neg]
    push_cast
    ring

/-- Whole numbers of eighths up to 2 ^ 21 are exact in single precision. -/
theorem f32_eighth (m : ℤ) (h : |m| ≤ 2 ^ 24) : f32 (m / 8) = m / 8 := by
  have key : ∀ n : ℤ, 0 ≤ n → n ≤ 2 ^ 24 → f32 (n / 8) = n / 8 := by
    intro n h0 h1
    have h0' : (0 : ℚ) ≤ n := by exact_mod_cast h0
    refine f32_rep (by positivity) ⟨n, -3, h0, h1, ?_⟩
    rw [zpow_neg]
    norm_num [div_eq_mul_inv]
  rcases le_total 0 m with hm | hm
  · exact key m hm (by rwa [abs_of_nonneg hm] at h)
  · have := key (-m) (by omega) (by rwa [abs_of_nonpos hm] at h)
    push_cast at this
    rw [neg_div, f32_neg] at this
    exact neg_injective this

/-- Whole numbers up to 2 ^ 24 are exact in single precision. -/
theorem f32_whole (m : ℤ) (h : |m| ≤ 2 ^ 24) : f32 m = m := by
  have key : ∀ n : ℤ, 0 ≤ n → n ≤ 2 ^ 24 → f32 n = n := by
    intro n h0 h1
    exact f32_rep (by exact_mod_cast h0) ⟨n, 0, h0, h1, by simp⟩
  rcases le_total 0 m with hm | hm
  · exact key m hm (by rwa [abs_of_nonneg hm] at h)
  · have := key (-m) (by omega) (by rwa [abs_of_nonpos hm] at h)
    push_cast at this
    rw [f32_neg] at this
    exact neg_injective this

/-- The error of single precision for numbers below 1/2. -/
theorem f32_near_half {x : ℚ} (h : |x| ≤ 1 / 2) : |f32 x - x| ≤ 2 ^ (-26 : ℤ) := by
  rcases le_total 0 x with hx | hx
  · rw [abs_of_nonneg hx] at h
    exact f32_near (e := -2) hx (h.trans (by norm_num))
  · rw [abs_of_nonpos hx] at h
    have := f32_near (x := -x) (e := -2) (by linarith) (h.trans (by norm_num))
    rw [f32_neg, show -f32 x - -x = -(f32 x - x) by ring, abs_neg] at this
    exact this

/-! ### Reading variables without packing -/

/-- Variables of single precision numbers without packing or fill value. -/
structure Plain (v : OutVar) : Prop where
  dtype : v.dtype = .float32
  fill : v.fill = none
  scale : numberAttr v.metadata "scale_factor" = none
  offset : numberAttr v.metadata "add_offset" = none

theorem get_none {key : String} : ∀ {k : Keywords}, (∀ a ∈ k, a.1 ≠ key) → k.get key = none
  | [], _ => rfl
  | (a, v) :: t, h => by
    rw [Keywords.get, if_neg (h (a, v) List.mem_cons_self)]
    exact get_none fun b hb => h b (List.mem_cons_of_mem _ hb)

theorem plain_plain (name : String) (longName : Option String) {k : Keywords} (h : KeepsPacking k) :
    Plain (plain name longName k) := by
  refine ⟨rfl, rfl, ?_, ?_⟩
  · unfold numberAttr
    rw [metadata_members _ (by decide)]
    show (match k.get "scale_factor" with | some (.number q) => some q | _ => none) = none
    rw [get_none fun a ha => (h a ha).1]
  · unfold numberAttr
    rw [metadata_members _ (by decide)]
    show (match k.get "add_offset" with | some (.number q) => some q | _ => none) = none
    rw [get_none fun a ha => (h a ha).2]

theorem plain_timeVar : Plain timeVar := plain_plain _ _ (by
  intro a ha
  simp only [List.mem_cons, List.not_mem_nil, or_false] at ha
  rcases ha with rfl | rfl | rfl | rfl | rfl | rfl <;> exact ⟨by decide, by decide⟩)
theorem plain_timeBoundsVar : Plain timeBoundsVar := plain_plain _ _ (by intro a ha; cases ha)
theorem plain_latitudeVar : Plain latitudeVar := plain_plain _ _ (by
  intro a ha
  simp only [List.mem_cons, List.not_mem_nil, or_false] at ha
  rcases ha with rfl | rfl | rfl <;> exact ⟨by decide, by decide⟩)
theorem plain_longitudeVar : Plain longitudeVar := plain_plain _ _ (by
  intro a ha
  simp only [List.mem_cons, List.not_mem_nil, or_false] at ha
  rcases ha with rfl | rfl | rfl <;> exact ⟨by decide, by decide⟩)
theorem plain_timeOffsetVar : Plain timeOffsetVar := plain_plain _ _ (by
  intro a ha
  simp only [List.mem_cons, List.not_mem_nil, or_false] at ha
  subst ha
  exact ⟨by decide, by decide⟩)

theorem plain_cell {v : OutVar} (h : Plain v) {x : ℚ} (hx : f32 x ≠ defaultFill .float32) :
    unpackCell v.dtype v.fill v.metadata (packCell v.dtype v.fill v.metadata (some x)) = some (f32 x) := by
  rw [h.dtype, h.fill]
  simp only [packCell, pack, h.scale, h.offset, isInteger, Bool.false_eq_true, if_false, castTo, unpackCell, fillOf,
    Option.getD_none, if_neg hx]

/-- Numbers below 2 ^ 30 are not mistaken for missing values. -/
theorem f32_small {x : ℚ} (h : |x| ≤ 2 ^ 30) : f32 x ≠ defaultFill .float32 := by
  have hr : Rep (2 ^ 30) := ⟨1, 30, by norm_num, by norm_num, by norm_num⟩
  have h0 : f32 x ≤ 2 ^ 30 := by
    rcases lt_trichotomy 0 x with hx | hx | hx
    · exact f32_le hx (by rwa [abs_of_pos hx] at h) hr
    · rw [← hx, f32_zero]; norm_num
    · have := f32_nonneg (x := -x) (by linarith)
      rw [f32_neg] at this
      have : f32 x ≤ 0 := by linarith
      exact this.trans (by norm_num)
  intro e
  rw [e] at h0
  norm_num [defaultFill] at h0

theorem read_plain {g : File} {name : String} {v : OutVar} (h : Plain v) {dims : List String} {l : List ℚ}
    (hv : g.vars name = some (written v dims (l.map some))) (hx : ∀ x ∈ l, |x| ≤ 2 ^ 30) (he : g.extent dims = l.length) :
    g.read name = some (l.map fun x => some (f32 x)) := by
  unfold File.read
  rw [hv, Option.map_some]
  unfold written
  dsimp only
  rw [he]
  simp only [List.length_map, Nat.sub_self, List.replicate_zero, List.append_nil, List.map_map]
  congr 1
  apply List.map_congr_left
  intro x hx'
  exact plain_cell h (f32_small (hx x hx'))

/-! ### The grid -/

theorem linspace_get {a b : ℚ} {n i : ℕ} (h : i < n) : (linspace a b n)[i]? = some (a + i * ((b - a) / (n - 1))) := by
  unfold linspace
  rw [List.getElem?_map, List.getElem?_range h, Option.map_some]

theorem latitudes_get {i : ℕ} (h : i < 720) : latitudes[i]? = some (centre (-90) i) := by
  unfold latitudes centre resolution
  rw [linspace_get h]
  congr 1
  push_cast
  ring

theorem longitudes_get {i : ℕ} (h : i < 1440) : longitudes[i]? = some (centre (-180) i) := by
  unfold longitudes centre resolution
  rw [linspace_get h]
  congr 1
  push_cast
  ring

theorem timeOffsets_eq : timeOffsets = longitudes.map (· / 360) := rfl

theorem mem_latitudes {x : ℚ} (h : x ∈ latitudes) : ∃ i < 720, x = centre (-90) i := by
  obtain ⟨i, hi, e⟩ := List.mem_iff_getElem.1 h
  rw [latitudes_length] at hi
  refine ⟨i, hi, ?_⟩
  have := latitudes_get hi
  rw [List.getElem?_eq_getElem (by rw [latitudes_length]; exact hi), e] at this
  injection this

theorem mem_longitudes {x : ℚ} (h : x ∈ longitudes) : ∃ i < 1440, x = centre (-180) i := by
  obtain ⟨i, hi, e⟩ := List.mem_iff_getElem.1 h
  rw [longitudes_length] at hi
  refine ⟨i, hi, ?_⟩
  have := longitudes_get hi
  rw [List.getElem?_eq_getElem (by rw [longitudes_length]; exact hi), e] at this
  injection this

theorem centre_bounds {n i : ℕ} (h : i < n) {a : ℚ} : a < centre a i ∧ centre a i < a + n / 4 := by
  unfold centre
  have h1 : ((i : ℚ)) + 1 ≤ n := by exact_mod_cast h
  have h0 : (0 : ℚ) ≤ i := by positivity
  constructor <;> linarith

theorem f32_centre {a : ℤ} {i : ℕ} (ha : |a| ≤ 180) (hi : i < 1440) : f32 (centre a i) = centre a i := by
  have e : centre (a : ℚ) i = ((8 * a + 2 * i + 1 : ℤ) : ℚ) / 8 := by
    unfold centre
    push_cast
    ring
  rw [e]
  apply f32_eighth
  rw [abs_le] at ha ⊢
  constructor <;> omega

theorem latitudes_f32 : (latitudes.map fun x => some (f32 x)) = latitudes.map some := by
  apply List.map_congr_left
  intro x hx
  obtain ⟨i, hi, rfl⟩ := mem_latitudes hx
  have := f32_centre (a := -90) (i := i) (by norm_num) (by omega)
  push_cast at this
  rw [this]

theorem longitudes_f32 : (longitudes.map fun x => some (f32 x)) = longitudes.map some := by
  apply List.map_congr_left
  intro x hx
  obtain ⟨i, hi, rfl⟩ := mem_longitudes hx
  have := f32_centre (a := -180) (i := i) (by norm_num) hi
  push_cast at this
  rw [this]

section
variable {day : ℚ} {dataset institution comment history source : String} {f g : File}
  (hf : newGlobalField day dataset institution comment history source = .ok f) {l : List (OutVar × Values)}
  (hg : addFields f l = .ok g) (hl : Global l)
include hf hg

omit hg in
theorem new_eq : f.vars = newVars day ∧ Dims f := by
  rw [newGlobalField_ok] at hf
  injection hf with hf
  subst hf
  exact ⟨rfl, newDims_dims _ _⟩

theorem var_kept {name : String} {w : NcVar} (h : newVars day name = some w) : g.vars name = some w :=
  (addFields_grown hg).vars _ _ (by rw [(new_eq hf).1]; exact h)

include hl in
theorem dims_kept : Dims g := by
  have hd := (new_eq hf).2
  have e := addFields_dims hd (fun a ha => (hl a ha).1) hg
  exact ⟨e ▸ hd.time, e ▸ hd.bounds, e ▸ hd.latitude, e ▸ hd.longitude⟩

include hl

theorem read_latitude : g.read "latitude" = some (latitudes.map some) := by
  rw [read_plain plain_latitudeVar (l := latitudes) (dims := ["latitude"]) (var_kept hf hg (by simp [newVars])) ?_ ?_,
    latitudes_f32]
  · intro x hx
    obtain ⟨i, hi, rfl⟩ := mem_latitudes hx
    have := centre_bounds (a := -90) hi
    rw [abs_le]
    constructor <;> norm_num at this ⊢ <;> linarith [this.1, this.2]
  · simp [File.extent, (dims_kept hf hg hl).latitude, latitudes_length]

theorem read_longitude : g.read "longitude" = some (longitudes.map some) := by
  rw [read_plain plain_longitudeVar (l := longitudes) (dims := ["longitude"]) (var_kept hf hg (by simp [newVars])) ?_ ?_,
    longitudes_f32]
  · intro x hx
    obtain ⟨i, hi, rfl⟩ := mem_longitudes hx
    have := centre_bounds (a := -180) hi
    rw [abs_le]
    constructor <;> norm_num at this ⊢ <;> linarith [this.1, this.2]
  · simp [File.extent, (dims_kept hf hg hl).longitude, longitudes_length]

/-- C124: row `i` and column `j` of every file are at the centres of the cells of a quarter of a degree counted from the
south pole and from the antimeridian, without rounding, and there are no others. -/
theorem c124_places : ∃ lats lons, g.read "latitude" = some lats ∧ g.read "longitude" = some lons ∧
    lats.length = 720 ∧ lons.length = 1440 ∧
    (∀ i < 720, Holds lats i (centre (-90) i)) ∧ (∀ j < 1440, Holds lons j (centre (-180) j)) := by
  refine ⟨_, _, read_latitude hf hg hl, read_longitude hf hg hl, by rw [List.length_map, latitudes_length],
    by rw [List.length_map, longitudes_length], fun i hi => ?_, fun j hj => ?_⟩
  · unfold Holds; rw [List.getElem?_map, latitudes_get hi]; rfl
  · unfold Holds; rw [List.getElem?_map, longitudes_get hj]; rfl

/-- C124: the offset of local time in each column is its longitude as a part of a turn, to within 2 ^ -26 of a day (a
thousandth of a second or so). -/
theorem c124_local_time : ∃ offsets, g.read "timeoffset" = some offsets ∧ offsets.length = 1440 ∧
    ∀ j < 1440, ∃ x, Holds offsets j x ∧ |x - centre (-180) j / 360| ≤ 2 ^ (-26 : ℤ) := by
  have hb : ∀ x ∈ timeOffsets, |x| ≤ 1 / 2 := by
    intro x hx
    rw [timeOffsets_eq, List.mem_map] at hx
    obtain ⟨y, hy, rfl⟩ := hx
    obtain ⟨i, hi, rfl⟩ := mem_longitudes hy
    have := centre_bounds (a := -180) hi
    rw [abs_le]
    constructor <;> norm_num at this ⊢ <;> linarith [this.1, this.2]
  refine ⟨_, read_plain plain_timeOffsetVar (l := timeOffsets) (dims := ["longitude"])
    (var_kept hf hg (by simp [newVars])) (fun x hx => (hb x hx).trans (by norm_num)) ?_, ?_, ?_⟩
  · simp [File.extent, (dims_kept hf hg hl).longitude, timeOffsets_length]
  · rw [List.length_map, timeOffsets_length]
  · intro j hj
    have e : timeOffsets[j]? = some (centre (-180) j / 360) := by
      rw [timeOffsets_eq, List.getElem?_map, longitudes_get hj]; rfl
    refine ⟨f32 (centre (-180) j / 360), ?_, ?_⟩
    · unfold Holds; rw [List.getElem?_map, e]; rfl
    · exact f32_near_half (hb _ (List.mem_of_getElem? e))

/-- C124: the time of a file is its day number and its bounds are that day and the next, without rounding. -/
theorem c124_day {d : ℤ} (hd : day = d) (h1 : -2 ^ 24 ≤ d) (h2 : d < 2 ^ 24) :
    g.read "time" = some [some day] ∧ g.read "timebounds" = some [some day, some (day + 1)] := by
  have e1 : f32 day = day := by rw [hd]; exact f32_whole d (by rw [abs_le]; constructor <;> omega)
  have e2 : f32 (day + 1) = day + 1 := by
    have := f32_whole (d + 1) (by rw [abs_le]; constructor <;> omega)
    push_cast at this
    rw [hd]; exact this
  have b1 : |day| ≤ 2 ^ 30 := by
    have g1 : (-2 ^ 24 : ℚ) ≤ d := by exact_mod_cast h1
    have g2 : (d : ℚ) < 2 ^ 24 := by exact_mod_cast h2
    rw [hd, abs_le]; constructor <;> norm_num at g1 g2 ⊢ <;> linarith
  have b2 : |day + 1| ≤ 2 ^ 30 := by
    have g1 : (-2 ^ 24 : ℚ) ≤ d := by exact_mod_cast h1
    have g2 : (d : ℚ) < 2 ^ 24 := by exact_mod_cast h2
    rw [hd, abs_le]; constructor <;> norm_num at g1 g2 ⊢ <;> linarith
  constructor
  · rw [read_plain plain_timeVar (l := [day]) (dims := ["time"]) (var_kept hf hg (by simp [newVars, e1])) ?_ ?_]
    · simp [e1]
    · simpa using b1
    · simp [File.extent, (dims_kept hf hg hl).time]
  · rw [read_plain plain_timeBoundsVar (l := [day, day + 1]) (dims := ["time", "bounds"])
      (var_kept hf hg (by simp [newVars, e1, e2])) ?_ ?_]
    · simp [e1, e2]
    · intro x hx
      rcases List.mem_cons.1 hx with rfl | hx
      · exact b1
      · rw [List.mem_singleton] at hx; subst hx; exact b2
    · simp [File.extent, (dims_kept hf hg hl).time, (dims_kept hf hg hl).bounds]

end

/-- C124: the axes of the gridding programs (`GlobalFieldAxes2D`) are those written to files. -/
theorem c124_axes : axisLatitudes = latitudes ∧ axisLongitudes = longitudes := by
  constructor
  · apply List.ext_getElem?
    intro i
    by_cases h : i < 720
    · rw [latitudes_get h]
      unfold axisLatitudes regular resolution centre
      rw [List.getElem?_map, List.getElem?_range h, Option.map_some]
      congr 1
      ring
    · rw [List.getElem?_eq_none (by unfold axisLatitudes regular; rw [List.length_map, List.length_range]; omega),
        List.getElem?_eq_none (by rw [latitudes_length]; omega)]
  · apply List.ext_getElem?
    intro i
    by_cases h : i < 1440
    · rw [longitudes_get h]
      unfold axisLongitudes regular resolution centre
      rw [List.getElem?_map, List.getElem?_range h, Option.map_some]
      congr 1
      ring
    · rw [List.getElem?_eq_none (by unfold axisLongitudes regular; rw [List.length_map, List.length_range]; omega),
        List.getElem?_eq_none (by rw [longitudes_length]; omega)]

theorem f32_large : f32 16777217 = 16777216 := by
  have hu : ulp 16777217 = 2 := by
    rw [ulp_eq (e := 24) (by norm_num) (by norm_num)]; norm_num
  unfold f32
  rw [if_neg (by norm_num), hu]
  have : rne (16777217 / 2) = 8388608 := by decide +kernel
  rw [this]
  norm_num

/-- C124 fails for large day numbers: those from 2 ^ 24 on are rounded (45954 years after the epoch). -/
theorem c124_day_violated : ∃ f, newGlobalField 16777217 "" "" "" "" "" = .ok f ∧ f.read "time" = some [some 16777216] := by
  refine ⟨_, newGlobalField_ok _ _ _ _ _ _, ?_⟩
  have e : f32 (16777216 : ℚ) = 16777216 := by exact_mod_cast f32_whole 16777216 (by norm_num)
  rw [read_plain plain_timeVar (l := [16777216]) (dims := ["time"]) (by simp [newVars, f32_large]) ?_ ?_]
  · simp [e]
  · intro x hx
    rw [List.mem_singleton] at hx
    subst hx
    norm_num
  · simp [File.extent, newDims]

example : ∃ f g v, newGlobalField 1 "" "" "" "" "" = .ok f ∧ addFields f [(v, uniform 288)] = .ok g ∧
    g.read "time" = some [some 1] ∧ g.read "timebounds" = some [some 1, some (1 + 1)] := by
  obtain ⟨v, _, hn⟩ := tas_ok
  obtain ⟨f, g, hf, hg⟩ := single_file v 288 (by rw [hn]; simp)
  exact ⟨f, g, v, hf, hg, c124_day hf hg (uniform_global v 288) (d := 1) (by norm_num) (by norm_num) (by norm_num)⟩

end Verif.Eustace.Format
