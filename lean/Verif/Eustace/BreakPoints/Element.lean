import Verif.Eustace.BreakPoints.Props
import Verif.Eustace.Elements.Trees

/-!
C108: the biases of stations, from the file of breaks to the design of an observation
(`src/eustace/analysis/advanced_standard/elements/bias_insitu_land.py`,
`src/eustace/analysis/advanced_standard/examples/station_bias_model.py`).
-/

namespace Verif.Eustace.BreakPoints

open Verif Verif.Eustace.ObsSource Verif.Eustace.Elements

noncomputable section

/-! ### Model -/

/-- `break_station` and `break_time` as `insitu_land_covariate_effect` uses them (observation_source_surface_effects.py 60-61). -/
def pairsOf (b : Breaks) : List (Int × ℚ) := b.station.zip (b.time.map fun (t : Int) => (t : ℚ))

/-- `insitu_land_covariate_effect` for a collection of breaks; arrays of two dimensions cannot be used as index
(observation_source_surface_effects.py 66). -/
def breaksEffect (b : Breaks) (time : Int) (observed : List Int) : Except PyErr (Option (List (Nat × Nat))) :=
  if b.wrapped then .error .indexError else stationEffect time observed (pairsOf b)

/-- `InsituLandBiasDesign.design_matrix` (bias_insitu_land.py 57-93), for the stations of the observations. -/
def stationDesign (b : Breaks) (time : Int) (observed : List Int) : Except PyErr Arr :=
  match breaksEffect b time observed with
  | .error e => .error e
  | .ok effect => effectMatrix observed.length (numberOfBiases b) effect

/-- `max(model['expanded_station_indices']) + 1` (station_bias_model.py 71, 99). -/
def gridStations (b : Breaks) : Except PyErr Nat :=
  match b.station.map (fun s => s - 1) with
  | [] => .error .valueError
  | x :: rest => .ok (rest.foldl max x + 1).toNat

/-- `bias_grid[effect[:,0],ind] = model['biases'][effect[:,1]]` (station_bias_model.py 107-112): a column of the grid, `none` where it
is not a number. -/
def gridColumn (b : Breaks) (biases : List ℝ) (n : Nat) (time : Int) : Except PyErr (List (Option ℝ)) :=
  match breaksEffect b time ((List.range n).map fun (k : Nat) => (k : Int)) with
  | .error e => .error e
  | .ok none => .ok (List.replicate n none)
  | .ok (some effect) =>
    match gather biases (effect.map Prod.snd) with
    | .error e => .error e
    | .ok values =>
      .ok ((List.range n).map fun k => (((effect.map Prod.fst).zip values).reverse.find? fun p => p.1 == k).map Prod.snd)

/-- `build_bias_matrix` (station_bias_model.py 92-117): the columns of `bias_grid`.  Simplified: the first days of the years are given
as day numbers. -/
def biasGrid (b : Breaks) (biases : List ℝ) (times : List Int) : Except PyErr (List (List (Option ℝ))) :=
  match gridStations b with
  | .error e => .error e
  | .ok n => collect (times.map (gridColumn b biases n))

/-! ### Specification -/

/-- A break of the file which is used: its likelihood is there and reaches the cut value, if there is one. -/
def Kept (f : File) (cut : Option ℝ) (r : Row) : Prop := (r, false) ∈ f.rows ∧ ∀ θ, cut = some θ → θ ≤ (r.2.2 : ℝ)

/-- The break which ends the period of a station (numbered from zero) in which a time falls: the first used one after it. -/
def Ends (f : File) (cut : Option ℝ) (time s : Int) (r : Row) : Prop :=
  Kept f cut r ∧ r.2.1 = s + 1 ∧ time < r.1 ∧ ∀ r', Kept f cut r' → r'.2.1 = s + 1 → time < r'.1 → r.1 ≤ r'.1

/-- Breaks by station and then by time. -/
def RowOrder (l : List Row) : Prop := l.Pairwise fun p q => p.2.1 < q.2.1 ∨ p.2.1 = q.2.1 ∧ p.1 < q.1

/-! ### Theorems -/

/-- **C108**: the element has one bias for each break of the file which is used, in the order of the file. -/
theorem c108_element (f : File) (hf : f.Complete) (hm : f.mask ≠ .nomask) (cut : Option ℝ) :
    ∃ b, biasBreaks f cut = .ok b ∧ b.Aligned ∧ b.wrapped = false ∧ numberOfBiases b = b.rows.length ∧
      b.rows.Sublist (f.rows.map Prod.fst) ∧ ∀ r, r ∈ b.rows ↔ Kept f cut r := by
  obtain ⟨b, h1, h2, h3, _, h5⟩ := c107_read f hf hm
  have hlen : ∀ b : Breaks, b.Aligned → numberOfBiases b = b.rows.length := by
    intro b hb
    have := hb.station
    have := hb.likelihood
    rw [Breaks.rows, List.length_zip, List.length_zip, numberOfBiases]
    omega
  have hmem : ∀ r, r ∈ b.rows ↔ (r, false) ∈ f.rows := by
    intro r
    rw [h5, List.mem_map]
    constructor
    · rintro ⟨⟨r', m⟩, h, rfl⟩
      rw [List.mem_filter] at h
      cases m
      · exact h.1
      · simp at h
    · intro h
      exact ⟨(r, false), List.mem_filter.2 ⟨h, rfl⟩, rfl⟩
  have hsub : b.rows.Sublist (f.rows.map Prod.fst) := by
    rw [h5]
    exact List.filter_sublist.map _
  cases cut with
  | none =>
    refine ⟨b, ?_, h2, h3, hlen b h2, hsub, fun r => ?_⟩
    · rw [biasBreaks, h1]
    · rw [hmem, Kept]
      simp
  | some θ =>
    obtain ⟨b', e1, e2, e3, _, e5, e6⟩ := c107_cutoff b h2 h3 θ 0
    refine ⟨b', ?_, e2, e3, hlen b' e2, e5.trans hsub, fun r => ?_⟩
    · rw [biasBreaks, h1]
      exact e1
    · rw [e6, hmem, Kept]
      simp

theorem pairsOf_eq (b : Breaks) (hb : b.Aligned) : pairsOf b = b.rows.map fun r => (r.2.1, (r.1 : ℚ)) := by
  have h1 := hb.station
  have h2 := hb.likelihood
  apply List.ext_getElem?
  intro i
  unfold pairsOf Breaks.rows
  rw [List.getElem?_map]
  by_cases h : i < b.time.length
  · have e1 : b.time[i]? = some b.time[i] := List.getElem?_eq_getElem h
    have e2 : b.station[i]? = some (b.station[i]'(by omega)) := List.getElem?_eq_getElem (by omega)
    have e3 : b.likelihood[i]? = some (b.likelihood[i]'(by omega)) := List.getElem?_eq_getElem (by omega)
    have e4 : (b.time.zip (b.station.zip b.likelihood))[i]? =
        some (b.time[i], b.station[i]'(by omega), b.likelihood[i]'(by omega)) :=
      List.getElem?_zip_eq_some.2 ⟨e1, List.getElem?_zip_eq_some.2 ⟨e2, e3⟩⟩
    rw [e4]
    exact List.getElem?_zip_eq_some.2 ⟨e2, by rw [List.getElem?_map, e1]; rfl⟩
  · rw [List.getElem?_eq_none, List.getElem?_eq_none]
    · rfl
    · rw [List.length_zip]; omega
    · rw [List.length_zip, List.length_map]; omega

theorem inOrder_pairs (b : Breaks) (hb : b.Aligned) (ho : RowOrder b.rows) : InOrder (pairsOf b) := by
  rw [pairsOf_eq b hb, InOrder, List.pairwise_map]
  refine ho.imp ?_
  rintro p q (h | ⟨h, h'⟩)
  · exact .inl h
  · exact .inr ⟨h, by show (p.1 : ℚ) < (q.1 : ℚ); exact_mod_cast h'⟩

/-- The next break of the list of pairs, in terms of the file. -/
theorem nextBreak_iff (f : File) (cut : Option ℝ) (b : Breaks) (hb : b.Aligned) (hk : ∀ r, r ∈ b.rows ↔ Kept f cut r)
    (time s : Int) (c : Nat) : NextBreak time (pairsOf b) s c ↔ ∃ r, b.rows[c]? = some r ∧ Ends f cut time s r := by
  rw [pairsOf_eq b hb]
  have hget : ∀ c : Nat, (b.rows.map fun r => (r.2.1, (r.1 : ℚ)))[c]? = (b.rows[c]?).map fun r => (r.2.1, (r.1 : ℚ)) :=
    fun c => List.getElem?_map
  constructor
  · rintro ⟨tb, h1, h2, h3⟩
    rw [hget] at h1
    match hr : b.rows[c]? with
    | none => rw [hr] at h1; cases h1
    | some r =>
      rw [hr, Option.map_some, Option.some.injEq, Prod.mk.injEq] at h1
      obtain ⟨h4, rfl⟩ := h1
      refine ⟨r, rfl, (hk r).1 (List.mem_of_getElem? hr), h4, by exact_mod_cast h2, ?_⟩
      intro r' hr' hs' ht'
      obtain ⟨c', hc'⟩ := List.mem_iff_getElem?.1 ((hk r').2 hr')
      have := h3 c' (r'.1 : ℚ) (by rw [hget, hc', Option.map_some, hs']) (by exact_mod_cast ht')
      exact_mod_cast this
  · rintro ⟨r, hr, h1, h2, h3, h4⟩
    refine ⟨(r.1 : ℚ), by rw [hget, hr, Option.map_some, h2], by exact_mod_cast h3, ?_⟩
    intro c' tb' hc' ht'
    rw [hget] at hc'
    match hr' : b.rows[c']? with
    | none => rw [hr'] at hc'; cases hc'
    | some r' =>
      rw [hr', Option.map_some, Option.some.injEq, Prod.mk.injEq] at hc'
      obtain ⟨h5, rfl⟩ := hc'
      have := h4 r' ((hk r').1 (List.mem_of_getElem? hr')) h5 (by exact_mod_cast ht')
      exact_mod_cast this

theorem rowOrder_get (l : List Row) (h : RowOrder l) (c c' : Nat) (r r' : Row) (hc : l[c]? = some r) (hc' : l[c']? = some r')
    (hs : r.2.1 = r'.2.1) (ht : r.1 = r'.1) : c = c' := by
  obtain ⟨h1, rfl⟩ := List.getElem?_eq_some_iff.1 hc
  obtain ⟨h2, rfl⟩ := List.getElem?_eq_some_iff.1 hc'
  rcases Nat.lt_trichotomy c c' with h' | h' | h'
  · rcases (List.pairwise_iff_getElem.1 h) c c' h1 h2 h' with h3 | h3 <;> omega
  · exact h'
  · rcases (List.pairwise_iff_getElem.1 h) c' c h2 h1 h' with h3 | h3 <;> omega

/-- The effect of a collection of breaks: the list of pairs of observation and break. -/
theorem breaksEffect_ok (f : File) (cut : Option ℝ) (b : Breaks) (hb : b.Aligned) (hw : b.wrapped = false) (ho : RowOrder b.rows)
    (hk : ∀ r, r ∈ b.rows ↔ Kept f cut r) (time : Int) (observed : List Int) (hs : observed.Pairwise (· < ·)) :
    ∃ effect : List (Nat × Nat),
      breaksEffect b time observed = .ok (if effect.length = 0 then none else some effect) ∧
      effect.Pairwise (fun p q => p.1 < q.1) ∧
      ∀ k c, (k, c) ∈ effect ↔ ∃ s, observed[k]? = some s ∧ ∃ r, b.rows[c]? = some r ∧ Ends f cut time s r := by
  obtain ⟨effect, h1, h2, h3⟩ := stationEffect_ok (time : ℚ) observed (pairsOf b) (inOrder_pairs b hb ho) hs
  refine ⟨effect, ?_, h2, ?_⟩
  · rw [breaksEffect, hw, if_neg (by simp)]
    exact h1
  · intro k c
    rw [h3]
    constructor
    · rintro ⟨s, h4, h5⟩
      exact ⟨s, h4, (nextBreak_iff f cut b hb hk time s c).1 h5⟩
    · rintro ⟨s, h4, h5⟩
      exact ⟨s, h4, (nextBreak_iff f cut b hb hk time s c).2 h5⟩

/-- **C108**, design: for a file in order of stations and times and observations in order of stations, the design matrix has a row for
each observation and a column for each bias, with a one exactly where the break ends the period of the observation. -/
theorem c108_design (f : File) (hf : f.Complete) (hm : f.mask ≠ .nomask) (ho : RowOrder (f.rows.map Prod.fst)) (cut : Option ℝ)
    (b : Breaks) (hb : biasBreaks f cut = .ok b) (time : Int) (observed : List Int) (hs : observed.Pairwise (· < ·)) :
    ∃ A, stationDesign b time observed = .ok A ∧ A.rows = observed.length ∧ A.cols = b.rows.length ∧
      ∀ (k : Nat) (s : Int) (c : Nat) (r : Row), observed[k]? = some s → b.rows[c]? = some r →
        (Ends f cut time s r → A.get k c = 1) ∧ (¬ Ends f cut time s r → A.get k c = 0) := by
  obtain ⟨b', e1, e2, e3, e4, e5, e6⟩ := c108_element f hf hm cut
  rw [hb] at e1
  cases e1
  obtain ⟨effect, h1, h2, h3⟩ := breaksEffect_ok f cut b e2 e3 (ho.sublist e5) e6 time observed hs
  by_cases h0 : effect.length = 0
  · rw [if_pos h0] at h1
    refine ⟨Arr.zero observed.length (numberOfBiases b), ?_, rfl, e4, ?_⟩
    · rw [stationDesign, h1]
      rfl
    · intro k s c r hk hc
      refine ⟨fun h => ?_, fun _ => rfl⟩
      have := (h3 k c).2 ⟨s, hk, r, hc, h⟩
      rw [List.length_eq_zero_iff.1 h0] at this
      simp at this
  · rw [if_neg h0] at h1
    refine ⟨⟨observed.length, numberOfBiases b, fun i j => if (i, j) ∈ effect then 1.0 else 0⟩, ?_, rfl, e4, ?_⟩
    · rw [stationDesign, h1]
      dsimp only
      rw [effectMatrix, if_pos]
      rw [List.all_eq_true]
      rintro ⟨k, c⟩ hp
      obtain ⟨s, h4, r, h5, _⟩ := (h3 k c).1 hp
      have h6 := (List.getElem?_eq_some_iff.1 h4).1
      have h7 := (List.getElem?_eq_some_iff.1 h5).1
      rw [← e4] at h7
      simp [h6, h7]
    · intro k s c r hk hc
      constructor
      · intro h
        dsimp only
        rw [if_pos ((h3 k c).2 ⟨s, hk, r, hc, h⟩)]
        norm_num
      · intro h
        dsimp only
        rw [if_neg]
        intro hmem
        obtain ⟨s', h4, r', h5, h6⟩ := (h3 k c).1 hmem
        rw [hk] at h4
        rw [hc] at h5
        cases h4
        cases h5
        exact h h6

/-- At most one break ends the period of an observation. -/
theorem ends_unique (f : File) (cut : Option ℝ) (b : Breaks) (ho : RowOrder b.rows) (hk : ∀ r, r ∈ b.rows ↔ Kept f cut r)
    (time s : Int) (c c' : Nat) (r r' : Row) (hc : b.rows[c]? = some r) (hc' : b.rows[c']? = some r')
    (h : Ends f cut time s r) (h' : Ends f cut time s r') : c = c' := by
  refine rowOrder_get _ ho c c' r r' hc hc' (by rw [h.2.1, h'.2.1]) ?_
  exact le_antisymm (h.2.2.2 r' h'.1 h'.2.1 h'.2.2.1) (h'.2.2.2 r h.1 h.2.1 h.2.2.1)

/-- **C108**, values: the bias of an observation is the state of the break which ends its period, and zero after the last break of its
station and for stations without breaks. -/
theorem c108_value (f : File) (hf : f.Complete) (hm : f.mask ≠ .nomask) (ho : RowOrder (f.rows.map Prod.fst)) (cut : Option ℝ)
    (b : Breaks) (hb : biasBreaks f cut = .ok b) (time : Int) (observed : List Int) (hs : observed.Pairwise (· < ·)) (x : List ℝ)
    (hx : x.length = numberOfBiases b) :
    ∃ A v, stationDesign b time observed = .ok A ∧ A.dot x = .ok v ∧ v.length = observed.length ∧
      ∀ (k : Nat) (s : Int), observed[k]? = some s →
        (∀ (c : Nat) (r : Row), b.rows[c]? = some r → Ends f cut time s r → v[k]? = x[c]?) ∧
        ((∀ r, ¬ Ends f cut time s r) → v[k]? = some 0) := by
  obtain ⟨b', e1, e2, e3, e4, e5, e6⟩ := c108_element f hf hm cut
  rw [hb] at e1
  cases e1
  obtain ⟨A, h1, h2, h3, h4⟩ := c108_design f hf hm ho cut b hb time observed hs
  have ho' : RowOrder b.rows := ho.sublist e5
  refine ⟨A, (List.range A.rows).map fun i => ∑ j ∈ Finset.range A.cols, A.get i j * x.getD j 0, h1, ?_, ?_, ?_⟩
  · rw [Arr.dot, if_neg]
    rw [not_not, h3, hx, e4]
  · simp [h2]
  · intro k s hk
    have hkl : k < A.rows := by rw [h2]; exact (List.getElem?_eq_some_iff.1 hk).1
    constructor
    · intro c r hc h
      have hcl : c < A.cols := by rw [h3]; exact (List.getElem?_eq_some_iff.1 hc).1
      have hcx : c < x.length := by rw [hx, e4, ← h3]; exact hcl
      rw [List.getElem?_map, List.getElem?_range hkl, Option.map_some, List.getElem?_eq_getElem hcx, Option.some.injEq,
        Finset.sum_eq_single c]
      · rw [(h4 k s c r hk hc).1 h, one_mul, List.getD_eq_getElem?_getD, List.getElem?_eq_getElem hcx]
        rfl
      · intro j hj hjc
        rw [Finset.mem_range, h3] at hj
        have hj' : b.rows[j]? = some b.rows[j] := List.getElem?_eq_getElem hj
        rw [(h4 k s j _ hk hj').2, zero_mul]
        intro h'
        exact hjc (ends_unique f cut b ho' e6 time s j c _ r hj' hc h' h)
      · intro h'
        exact absurd (Finset.mem_range.2 hcl) h'
    · intro h
      rw [List.getElem?_map, List.getElem?_range hkl, Option.map_some, Option.some.injEq]
      refine Finset.sum_eq_zero fun j hj => ?_
      rw [Finset.mem_range, h3] at hj
      have hj' : b.rows[j]? = some b.rows[j] := List.getElem?_eq_getElem hj
      rw [(h4 k s j _ hk hj').2 (h _), zero_mul]

/-- There is a break which ends the period of a time, unless there is no used break of the station after it. -/
theorem ends_exists (f : File) (cut : Option ℝ) (time s : Int) (r : Row) (h : Kept f cut r) (hs : r.2.1 = s + 1) (ht : time < r.1) :
    ∃ r', Ends f cut time s r' ∧ r'.1 ≤ r.1 := by
  generalize hn : (r.1 - time).toNat = n
  induction n using Nat.strong_induction_on generalizing r with
  | _ n ih =>
    by_cases hmin : ∀ r', Kept f cut r' → r'.2.1 = s + 1 → time < r'.1 → r.1 ≤ r'.1
    · exact ⟨r, ⟨h, hs, ht, hmin⟩, le_refl _⟩
    · push Not at hmin
      obtain ⟨r', h1, h2, h3, h4⟩ := hmin
      obtain ⟨r'', h5, h6⟩ := ih (r'.1 - time).toNat (by omega) r' h1 h2 h3 rfl
      exact ⟨r'', h5, by omega⟩

/-- **C108**, periods: an earlier and a later observation of a station have the same bias, whatever the state, exactly if no break
of the station is after the earlier one and not after the later one. -/
theorem c108_periods (f : File) (hf : f.Complete) (hm : f.mask ≠ .nomask) (ho : RowOrder (f.rows.map Prod.fst)) (cut : Option ℝ)
    (b : Breaks) (hb : biasBreaks f cut = .ok b) (t₁ t₂ : Int) (ht : t₁ ≤ t₂) (o₁ o₂ : List Int) (h₁ : o₁.Pairwise (· < ·))
    (h₂ : o₂.Pairwise (· < ·)) (k₁ k₂ : Nat) (s : Int) (hk₁ : o₁[k₁]? = some s) (hk₂ : o₂[k₂]? = some s) :
    ∃ A₁ A₂, stationDesign b t₁ o₁ = .ok A₁ ∧ stationDesign b t₂ o₂ = .ok A₂ ∧
      ((∀ c < b.rows.length, A₁.get k₁ c = A₂.get k₂ c) ↔
        ¬ ∃ r, Kept f cut r ∧ r.2.1 = s + 1 ∧ t₁ < r.1 ∧ r.1 ≤ t₂) := by
  obtain ⟨b', e1, e2, e3, e4, e5, e6⟩ := c108_element f hf hm cut
  rw [hb] at e1
  cases e1
  obtain ⟨A₁, a1, a2, a3, a4⟩ := c108_design f hf hm ho cut b hb t₁ o₁ h₁
  obtain ⟨A₂, b1, b2, b3, b4⟩ := c108_design f hf hm ho cut b hb t₂ o₂ h₂
  refine ⟨A₁, A₂, a1, b1, ?_⟩
  constructor
  · rintro h ⟨r, hr, hs, hr1, hr2⟩
    obtain ⟨r', h5, h6⟩ := ends_exists f cut t₁ s r hr hs hr1
    obtain ⟨c, hc⟩ := List.mem_iff_getElem?.1 ((e6 r').2 h5.1)
    have hcl := (List.getElem?_eq_some_iff.1 hc).1
    have h7 := (a4 k₁ s c r' hk₁ hc).1 h5
    have h8 := (b4 k₂ s c r' hk₂ hc).2 fun h9 => by
      have := h9.2.2.1
      omega
    rw [h c hcl, h8] at h7
    norm_num at h7
  · intro h c hc
    have hc' : b.rows[c]? = some b.rows[c] := List.getElem?_eq_getElem hc
    have hiff : Ends f cut t₁ s b.rows[c] ↔ Ends f cut t₂ s b.rows[c] := by
      constructor
      · rintro ⟨h3, h4, h5, h6⟩
        refine ⟨h3, h4, ?_, fun r' hr' hs' ht' => h6 r' hr' hs' (by omega)⟩
        by_contra h7
        exact h ⟨_, h3, h4, h5, by omega⟩
      · rintro ⟨h3, h4, h5, h6⟩
        refine ⟨h3, h4, by omega, fun r' hr' hs' ht' => ?_⟩
        by_cases h7 : t₂ < r'.1
        · exact h6 r' hr' hs' h7
        · exact absurd ⟨r', hr', hs', ht', by omega⟩ h
    by_cases h3 : Ends f cut t₁ s b.rows[c]
    · rw [(a4 k₁ s c _ hk₁ hc').1 h3, (b4 k₂ s c _ hk₂ hc').1 (hiff.1 h3)]
    · rw [(a4 k₁ s c _ hk₁ hc').2 h3, (b4 k₂ s c _ hk₂ hc').2 fun h4 => h3 (hiff.2 h4)]

/-- A file with two stations, the second of which has two breaks. -/
def orderedFile : File :=
  ⟨[100, 150, 300], [1, 3, 3], [5, 2, 100], .array [false, false, false], 8, [1, 0, 2], [10, 20, 30], [0, 190, 350]⟩

/-- Non-vacuity: with the cut value of the analysis the break of low likelihood is not used, and the period of the third station at
time 120 ends at time 300. -/
example : orderedFile.Complete ∧ orderedFile.mask ≠ .nomask ∧ RowOrder (orderedFile.rows.map Prod.fst) ∧
    biasBreaks orderedFile (some 3) = .ok ⟨[100, 300], [1, 3], [5, 100], [1, 0, 2], false, 8⟩ ∧
    Ends orderedFile (some 3) 120 2 (300, 3, 100) ∧ [(0 : Int), 2].Pairwise (· < ·) := by
  have hrows : orderedFile.rows = [((100, 1, 5), false), ((150, 3, 2), false), ((300, 3, 100), false)] := rfl
  refine ⟨⟨rfl, rfl, rfl⟩, by simp [orderedFile], ?_, ?_, ⟨⟨by rw [hrows]; simp, ?_⟩, rfl, by norm_num, ?_⟩, by simp⟩
  · rw [hrows]
    simp [RowOrder]
  · rw [biasBreaks]
    have e : observations orderedFile none = .ok ⟨[100, 150, 300], [1, 3, 3], [5, 2, 100], [1, 0, 2], false, 8⟩ := rfl
    rw [e]
    dsimp only
    rw [applyPolicy, if_pos rfl, basePolicy]
    have hmask : ([5, 2, 100] : List Int).map (fun (l : Int) => decide ((3 : ℝ) ≤ (l : ℝ))) = [true, false, true] := by
      norm_num
    have : keep ⟨[100, 150, 300], [1, 3, 3], [5, 2, 100], [1, 0, 2], false, 8⟩ [true, false, true] =
        .ok ⟨[100, 300], [1, 3], [5, 100], [1, 0, 2], false, 8⟩ := rfl
    rw [← this, ← hmask]
  · intro θ h
    cases h
    norm_num
  · intro r' ⟨h1, h2⟩ h3 h4
    rw [hrows] at h1
    simp only [List.mem_cons, Prod.mk.injEq, and_true, List.not_mem_nil, or_false] at h1
    rcases h1 with rfl | rfl | rfl
    · simp at h3
    · have := h2 3 rfl
      norm_num at this
    · simp

/-- **C108 violated**: where the breaks of a file are not in order of stations, observations get the bias of a later period. -/
theorem c108_order_violated : ∃ (b : Breaks) (A : Arr), b.Aligned ∧ b.rows = [(10, 1, 5), (5, 2, 5), (20, 1, 5)] ∧
    stationDesign b 0 [0, 1] = .ok A ∧ A.get 0 0 = 0 ∧ A.get 0 1 = 1 := by
  refine ⟨⟨[10, 5, 20], [1, 2, 1], [5, 5, 5], [], false, 8⟩,
    ⟨2, 3, fun i j => if (i, j) ∈ [(0, 1), (1, 2)] then 1.0 else 0⟩, ⟨rfl, rfl⟩, rfl, ?_, ?_, ?_⟩
  · have e : breaksEffect ⟨[10, 5, 20], [1, 2, 1], [5, 5, 5], [], false, 8⟩ 0 [0, 1] = .ok (some [(0, 1), (1, 2)]) := by
      rw [breaksEffect, if_neg (by simp)]
      have hp : pairsOf ⟨[10, 5, 20], [1, 2, 1], [5, 5, 5], [], false, 8⟩ = [(1, 10), (2, 5), (1, 20)] := by
        simp [pairsOf]
      rw [hp]
      have hl : laterBreaks ((0 : Int) : ℚ) [(1, 10), (2, 5), (1, 20)] = [⟨0, 10, 0⟩, ⟨1, 5, 1⟩, ⟨0, 20, 2⟩] := by
        simp [laterBreaks]
      have ha : activeBreaks [⟨0, 10, 0⟩, ⟨1, 5, 1⟩, ⟨0, 20, 2⟩] = [⟨1, 5, 1⟩, ⟨0, 20, 2⟩] := by
        simp [activeBreaks, roll, select]
      unfold stationEffect
      dsimp only
      rw [hl, ha]
      rfl
    rw [stationDesign, e]
    rfl
  · norm_num
  · norm_num

/-! ### The grid of biases -/

theorem foldl_max_le (x : Int) (l : List Int) : x ≤ l.foldl max x ∧ ∀ y ∈ l, y ≤ l.foldl max x := by
  induction l generalizing x with
  | nil => simp
  | cons z l ih =>
    obtain ⟨h1, h2⟩ := ih (max x z)
    rw [List.foldl_cons]
    refine ⟨le_trans (le_max_left _ _) h1, fun y hy => ?_⟩
    rcases List.mem_cons.1 hy with rfl | hy
    · exact le_trans (le_max_right _ _) h1
    · exact h2 y hy

theorem foldl_max_mem (x : Int) (l : List Int) : l.foldl max x = x ∨ l.foldl max x ∈ l := by
  induction l generalizing x with
  | nil => simp
  | cons z l ih =>
    rw [List.foldl_cons]
    rcases ih (max x z) with h | h
    · rw [h]
      rcases max_choice x z with h' | h'
      · exact .inl h'
      · rw [h']; exact .inr List.mem_cons_self
    · exact .inr (List.mem_cons_of_mem _ h)

/-- **C108**: the grid of biases has a row for every station up to the last one with a used break; without breaks it fails. -/
theorem c108_stations (b : Breaks) (hpos : ∀ s ∈ b.station, 1 ≤ s) :
    (b.station ≠ [] → ∃ n, gridStations b = .ok n ∧ (∀ s ∈ b.station, s ≤ n) ∧ (n : Int) ∈ b.station) ∧
    (b.station = [] → gridStations b = .error .valueError) := by
  constructor
  · intro hne
    match hst : b.station with
    | [] => exact absurd hst hne
    | x :: rest =>
      have e : gridStations b = .ok ((rest.map fun s => s - 1).foldl max (x - 1) + 1).toNat := by
        rw [gridStations, hst]
        rfl
      obtain ⟨h1, h2⟩ := foldl_max_le (x - 1) (rest.map fun s => s - 1)
      have h3 := foldl_max_mem (x - 1) (rest.map fun s => s - 1)
      have hx : 1 ≤ x := hpos x (by rw [hst]; exact List.mem_cons_self)
      generalize (rest.map fun s => s - 1).foldl max (x - 1) = m at e h1 h2 h3
      refine ⟨_, e, ?_, ?_⟩
      · intro s hs
        rcases List.mem_cons.1 hs with rfl | hs
        · omega
        · have := h2 (s - 1) (List.mem_map.2 ⟨s, hs, rfl⟩)
          omega
      · have hm : (((m + 1).toNat : Nat) : Int) = m + 1 := by omega
        rw [hm]
        rcases h3 with h3 | h3
        · rw [h3]
          have : x - 1 + 1 = x := by ring
          rw [this]
          exact List.mem_cons_self
        · obtain ⟨s, hs, hsm⟩ := List.mem_map.1 h3
          have : m + 1 = s := by omega
          rw [this]
          exact List.mem_cons_of_mem _ hs
  · intro h
    rw [gridStations, h]
    rfl

/-- Non-vacuity: stations one and three. -/
example : ∀ s ∈ ([1, 3, 3] : List Int), 1 ≤ s := by decide

theorem range_sorted (n : Nat) : ((List.range n).map fun (k : Nat) => (k : Int)).Pairwise (· < ·) := by
  rw [List.pairwise_map]
  exact List.pairwise_lt_range.imp fun h => by exact_mod_cast h

theorem find_zip_none (ks : List Nat) (vs : List ℝ) (k : Nat) (h : k ∉ ks) :
    ((ks.zip vs).reverse.find? fun p => p.1 == k) = none := by
  rw [List.find?_eq_none]
  rintro ⟨a, v⟩ hp
  have := (List.of_mem_zip (List.mem_reverse.1 hp)).1
  simp only [beq_iff_eq]
  intro h'
  subst h'
  exact h this

theorem find_zip_some (ks : List Nat) (vs : List ℝ) (hnd : ks.Nodup) (i k : Nat) (v : ℝ) (hk : ks[i]? = some k)
    (hv : vs[i]? = some v) : ((ks.zip vs).reverse.find? fun p => p.1 == k) = some (k, v) := by
  have hmem : (k, v) ∈ (ks.zip vs).reverse := by
    rw [List.mem_reverse]
    exact List.mem_of_getElem? (List.getElem?_zip_eq_some.2 ⟨hk, hv⟩)
  match hf : (ks.zip vs).reverse.find? fun p => p.1 == k with
  | none =>
    rw [List.find?_eq_none] at hf
    exact absurd (by simp) (hf _ hmem)
  | some p =>
    have h1 := List.find?_some hf
    have h2 := List.mem_reverse.1 (List.mem_of_find?_eq_some hf)
    obtain ⟨j, hj⟩ := List.mem_iff_getElem?.1 h2
    obtain ⟨h3, h4⟩ := List.getElem?_zip_eq_some.1 hj
    simp only [beq_iff_eq] at h1
    have hij : i = j := by
      obtain ⟨h5, h6⟩ := List.getElem?_eq_some_iff.1 hk
      obtain ⟨h7, h8⟩ := List.getElem?_eq_some_iff.1 h3
      exact (List.Nodup.getElem_inj_iff hnd).1 (by rw [h6, h8, h1])
    subst hij
    rw [hv] at h4
    obtain ⟨a, w⟩ := p
    simp only at h1 h4
    rw [hf, h1, ← Option.some.inj h4]

/-- **C108**, grid: a column of the grid has for every station the bias of its period, and no number after its last break. -/
theorem c108_column (f : File) (hf : f.Complete) (hm : f.mask ≠ .nomask) (ho : RowOrder (f.rows.map Prod.fst)) (cut : Option ℝ)
    (b : Breaks) (hb : biasBreaks f cut = .ok b) (x : List ℝ) (hx : x.length = numberOfBiases b) (n : Nat) (time : Int) :
    ∃ column, gridColumn b x n time = .ok column ∧ column.length = n ∧ ∀ s : Nat, s < n →
      (∀ (c : Nat) (r : Row), b.rows[c]? = some r → Ends f cut time s r → ∃ v, x[c]? = some v ∧ column[s]? = some (some v)) ∧
      ((∀ r, ¬ Ends f cut time s r) → column[s]? = some none) := by
  obtain ⟨b', e1, e2, e3, e4, e5, e6⟩ := c108_element f hf hm cut
  rw [hb] at e1
  cases e1
  obtain ⟨effect, h1, h2, h3⟩ := breaksEffect_ok f cut b e2 e3 (ho.sublist e5) e6 time _ (range_sorted n)
  have hobs : ∀ s < n, ((List.range n).map fun (k : Nat) => (k : Int))[s]? = some (s : Int) := by
    intro s hs
    rw [List.getElem?_map, List.getElem?_range hs]
    rfl
  by_cases h0 : effect.length = 0
  · rw [if_pos h0] at h1
    refine ⟨List.replicate n none, ?_, by simp, ?_⟩
    · rw [gridColumn, h1]
    · intro s hs
      refine ⟨fun c r hc h => ?_, fun _ => by simp [List.getElem?_replicate, hs]⟩
      have := (h3 s c).2 ⟨s, hobs s hs, r, hc, h⟩
      rw [List.length_eq_zero_iff.1 h0] at this
      simp at this
  · rw [if_neg h0] at h1
    have hg := gather_ok x 0 (effect.map Prod.snd) (by
      intro c hc
      obtain ⟨⟨k, c'⟩, hp, rfl⟩ := List.mem_map.1 hc
      obtain ⟨s, _, r, h5, _⟩ := (h3 k c').1 hp
      rw [hx, e4]
      exact (List.getElem?_eq_some_iff.1 h5).1)
    have hnd : (effect.map Prod.fst).Nodup := by
      rw [List.Nodup, List.pairwise_map]
      exact h2.imp fun h => Nat.ne_of_lt h
    refine ⟨_, by rw [gridColumn, h1]; dsimp only; rw [hg], by simp, ?_⟩
    intro s hs
    rw [List.getElem?_map, List.getElem?_range hs, Option.map_some]
    constructor
    · intro c r hc h
      have hmem := (h3 s c).2 ⟨s, hobs s hs, r, hc, h⟩
      obtain ⟨i, hi⟩ := List.mem_iff_getElem?.1 hmem
      have hcx : c < x.length := by rw [hx, e4]; exact (List.getElem?_eq_some_iff.1 hc).1
      refine ⟨x[c], List.getElem?_eq_getElem hcx, ?_⟩
      rw [find_zip_some _ _ hnd i s x[c] (by rw [List.getElem?_map, hi]; rfl)]
      · rfl
      · rw [List.getElem?_map, List.getElem?_map, hi, Option.map_some, Option.map_some, List.getD_eq_getElem?_getD,
          List.getElem?_eq_getElem hcx]
        rfl
    · intro h
      rw [find_zip_none]
      · rfl
      · intro hmem
        obtain ⟨⟨k, c⟩, hp, hk⟩ := List.mem_map.1 hmem
        dsimp only at hk
        subst hk
        obtain ⟨s', h4, r, h5, h6⟩ := (h3 k c).1 hp
        rw [hobs k hs] at h4
        cases h4
        exact h r h6

/-- **C108**, grid: with at least one used break, a column for each time, each as above. -/
theorem c108_grid (f : File) (hf : f.Complete) (hm : f.mask ≠ .nomask) (ho : RowOrder (f.rows.map Prod.fst)) (cut : Option ℝ)
    (b : Breaks) (hb : biasBreaks f cut = .ok b) (hne : b.station ≠ []) (hpos : ∀ s ∈ b.station, 1 ≤ s) (x : List ℝ)
    (hx : x.length = numberOfBiases b) (times : List Int) :
    ∃ n grid, gridStations b = .ok n ∧ biasGrid b x times = .ok grid ∧ grid.length = times.length ∧
      ∀ (i : Nat) (time : Int), times[i]? = some time → ∃ column, grid[i]? = some column ∧ column.length = n ∧
        ∀ s : Nat, s < n →
          (∀ (c : Nat) (r : Row), b.rows[c]? = some r → Ends f cut time s r → ∃ v, x[c]? = some v ∧ column[s]? = some (some v)) ∧
          ((∀ r, ¬ Ends f cut time s r) → column[s]? = some none) := by
  obtain ⟨n, hn, _, _⟩ := (c108_stations b hpos).1 hne
  have hcol := c108_column f hf hm ho cut b hb x hx n
  choose col hcol1 hcol2 using hcol
  have hcollect : collect (times.map (gridColumn b x n)) = .ok (times.map col) := by
    clear hpos hne
    induction times with
    | nil => rfl
    | cons t times ih => rw [List.map_cons, hcol1 t, collect, ih]; rfl
  refine ⟨n, times.map col, hn, ?_, by simp, ?_⟩
  · rw [biasGrid, hn]
    exact hcollect
  · intro i time hi
    refine ⟨col time, by rw [List.getElem?_map, hi]; rfl, hcol2 time⟩

end

end Verif.Eustace.BreakPoints
