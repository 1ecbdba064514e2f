import Verif.Eustace.ObsSource.Props

/-!
C96: the biases of stations between breaks of homogeneity
(`src/eustace/analysis/advanced_standard/fileio/observation_source_surface_effects.py`).
-/

namespace Verif.Eustace.ObsSource

open Verif

/-! ### Model -/

/-- A break which is later than the time of the observations: station, time difference, place in the list of all breaks. -/
structure Later where
  station : Int
  difference : ℚ
  index : Nat

/-- `break_stations - BREAK_STATION_INDEX_SHIFT`, time differences and indices, restricted to differences above zero
(observation_source_surface_effects.py 60-68).  Each break is a station, numbered from one, and a time. -/
def laterBreaks (time : ℚ) (breaks : List (Int × ℚ)) : List Later :=
  (breaks.zipIdx.map fun p => (⟨p.1.1 - 1, p.1.2 - time, p.2⟩ : Later)).filter fun p => decide (0 < p.difference)

/-- `numpy.roll(l, 1)`. -/
def roll (l : List Int) : List Int :=
  match l.getLast? with
  | none => []
  | some x => x :: l.dropLast

/-- `l[mask]` for a mask of booleans. -/
def select {α : Type} : List Bool → List α → List α
  | b :: bs, x :: xs => if b then x :: select bs xs else select bs xs
  | _, _ => []

/-- `numpy.argmin` after the first element: the place of the best so far, its value, the place of the next. -/
def argminFrom : Nat → ℚ → Nat → List ℚ → Nat
  | best, _, _, [] => best
  | best, value, next, x :: rest => if x < value then argminFrom next x (next + 1) rest else argminFrom best value (next + 1) rest

/-- `numpy.argmin`. -/
def argmin : List ℚ → Nat
  | [] => 0
  | x :: rest => argminFrom 0 x 1 rest

/-- The adjustments which are active: for each change of the station in the list the break there, or the earliest break where
the station never changes (observation_source_surface_effects.py 71-79). -/
def activeBreaks (later : List Later) : List Later :=
  let stations := later.map Later.station
  let starts := List.zipWith (fun a b => decide (a ≠ b)) stations (roll stations)
  if 0 < starts.length ∧ starts.countP id = 0 then
    match later[argmin (later.map Later.difference)]? with
    | some x => [x]
    | none => []
  else select starts later

/-- `numpy.nonzero(numpy.isin(x, y))[0]` (observation_source_surface_effects.py 82-83). -/
def placesIn (x y : List Int) : List Nat :=
  (List.range x.length).filter fun i =>
    match x[i]? with
    | some v => y.contains v
    | none => false

/-- `insitu_land_covariate_effect` (observation_source_surface_effects.py 9-94), with the stations of the observations: rows of an
observation and the break whose bias it has.  Simplified: the time is a number, not an array with one. -/
def stationEffect (time : ℚ) (observed : List Int) (breaks : List (Int × ℚ)) :
    Except PyErr (Option (List (Nat × Nat))) :=
  let active := activeBreaks (laterBreaks time breaks)
  let stations := active.map Later.station
  let left := placesIn observed stations
  match gather (active.map Later.index) (placesIn stations observed) with
  | .error e => .error e
  | .ok right =>
    if left.length ≠ right.length then .error .valueError
    else if (left.zip right).length = 0 then .ok none
    else .ok (some (left.zip right))

/-! ### Specification -/

/-- Breaks in the order of the file: by station, then by time. -/
def InOrder (breaks : List (Int × ℚ)) : Prop := breaks.Pairwise fun p q => p.1 < q.1 ∨ p.1 = q.1 ∧ p.2 < q.2

/-- `c` is the first break, after the given time, of a station (numbered from zero). -/
def NextBreak (time : ℚ) (breaks : List (Int × ℚ)) (station : Int) (c : Nat) : Prop :=
  ∃ tb, breaks[c]? = some (station + 1, tb) ∧ time < tb ∧
    ∀ (c' : Nat) (tb' : ℚ), breaks[c']? = some (station + 1, tb') → time < tb' → tb ≤ tb'

/-! ### Lemmas -/

/-- Later breaks in order. -/
def LaterOrder (l : List Later) : Prop :=
  l.Pairwise fun p q => p.station < q.station ∨ p.station = q.station ∧ p.difference < q.difference

theorem laterBreaks_order (time : ℚ) (breaks : List (Int × ℚ)) (h : InOrder breaks) :
    LaterOrder (laterBreaks time breaks) := by
  refine List.Pairwise.filter _ ?_
  rw [List.pairwise_map]
  have h' : (breaks.zipIdx.map Prod.fst).Pairwise fun p q : Int × ℚ => p.1 < q.1 ∨ p.1 = q.1 ∧ p.2 < q.2 := by
    rw [List.zipIdx_map_fst]
    exact h
  rw [List.pairwise_map] at h'
  refine h'.imp ?_
  rintro p q (h | ⟨h1, h2⟩)
  · exact .inl (by simpa using h)
  · exact .inr ⟨by simp [h1], by simpa using h2⟩

theorem mem_laterBreaks (time : ℚ) (breaks : List (Int × ℚ)) (x : Later) :
    x ∈ laterBreaks time breaks ↔ breaks[x.index]? = some (x.station + 1, x.difference + time) ∧ 0 < x.difference := by
  rw [laterBreaks, List.mem_filter, List.mem_map]
  constructor
  · rintro ⟨⟨⟨p, i⟩, hp, rfl⟩, h⟩
    rw [List.mk_mem_zipIdx_iff_getElem?] at hp
    refine ⟨?_, by simpa using h⟩
    show breaks[i]? = some (p.1 - 1 + 1, p.2 - time + time)
    rw [hp]
    simp
  · rintro ⟨h1, h2⟩
    refine ⟨⟨((x.station + 1, x.difference + time), x.index), List.mk_mem_zipIdx_iff_getElem?.2 h1, ?_⟩, by simpa using h2⟩
    cases x
    simp

/-- The first of each run of the same station. -/
def heads : Option Int → List Later → List Later
  | _, [] => []
  | before, x :: rest => if some x.station = before then heads (some x.station) rest else x :: heads (some x.station) rest

/-- Where the station changes. -/
def changes : Int → List Int → List Bool
  | _, [] => []
  | before, x :: rest => decide (x ≠ before) :: changes x rest

theorem zipWith_changes (before x : Int) (rest : List Int) :
    List.zipWith (fun a b => decide (a ≠ b)) (x :: rest) (before :: (x :: rest).dropLast) = changes before (x :: rest) := by
  induction rest generalizing before x with
  | nil => rfl
  | cons y rest ih =>
    have := ih x y
    rw [List.dropLast_cons_cons, List.zipWith_cons_cons, this]
    rfl

theorem select_changes (before : Int) (l : List Later) :
    select (changes before (l.map Later.station)) l = heads (some before) l := by
  induction l generalizing before with
  | nil => rfl
  | cons x rest ih =>
    rw [List.map_cons, changes, select, heads, ih]
    by_cases h : x.station = before
    · simp [h]
    · simp [h]

theorem countP_changes (before : Int) (l : List Int) : (changes before l).countP id = 0 ↔ ∀ x ∈ l, x = before := by
  induction l generalizing before with
  | nil => simp [changes]
  | cons y rest ih =>
    rw [changes]
    by_cases h : y = before
    · subst h
      simp only [ne_eq, not_true, decide_false, List.countP_cons, id_eq, Bool.false_eq_true, if_false, Nat.add_zero, ih,
        List.mem_cons, forall_eq_or_imp, true_and]
    · simp [h]

theorem changes_length (before : Int) (l : List Int) : (changes before l).length = l.length := by
  induction l generalizing before with
  | nil => rfl
  | cons y rest ih => simp [changes, ih]

theorem argminFrom_first (value : ℚ) (next : Nat) (best : Nat) (l : List ℚ) (h : ∀ x ∈ l, value ≤ x) :
    argminFrom best value next l = best := by
  induction l generalizing next with
  | nil => rfl
  | cons x rest ih =>
    rw [argminFrom, if_neg (not_lt.2 (h x List.mem_cons_self))]
    exact ih _ fun y hy => h y (List.mem_cons_of_mem _ hy)

theorem heads_same (s : Int) (l : List Later) (h : ∀ x ∈ l, x.station = s) : heads (some s) l = [] := by
  induction l with
  | nil => rfl
  | cons x rest ih =>
    have hx := h x List.mem_cons_self
    rw [heads, if_pos (by rw [hx]), hx]
    exact ih fun y hy => h y (List.mem_cons_of_mem _ hy)

/-- With breaks in order, the active breaks are the first of each station. -/
theorem activeBreaks_eq (l : List Later) (h : LaterOrder l) : activeBreaks l = heads none l := by
  match l with
  | [] => rfl
  | x :: rest =>
    have hlast : ∃ before, ((x :: rest).map Later.station).getLast? = some before ∧
        ∃ z ∈ x :: rest, z.station = before := by
      refine ⟨((x :: rest).map Later.station).getLast (by simp), List.getLast?_eq_getLast_of_ne_nil (by simp), ?_⟩
      have := List.getLast_mem (l := (x :: rest).map Later.station) (by simp)
      obtain ⟨z, hz, hz'⟩ := List.mem_map.1 this
      exact ⟨z, hz, hz'⟩
    obtain ⟨before, hb, z, hz, hzb⟩ := hlast
    have hstarts : List.zipWith (fun a b => decide (a ≠ b)) ((x :: rest).map Later.station)
        (roll ((x :: rest).map Later.station)) = changes before ((x :: rest).map Later.station) := by
      rw [roll, hb]
      exact zipWith_changes before x.station (rest.map Later.station)
    have hx : ∀ y ∈ rest, x.station < y.station ∨ x.station = y.station ∧ x.difference < y.difference :=
      fun y hy => List.rel_of_pairwise_cons h hy
    unfold activeBreaks
    dsimp only
    rw [hstarts, changes_length]
    by_cases hall : (changes before ((x :: rest).map Later.station)).countP id = 0
    · rw [if_pos ⟨by simp, hall⟩]
      rw [countP_changes] at hall
      have hst : ∀ y ∈ x :: rest, y.station = before := fun y hy => hall _ (List.mem_map.2 ⟨y, hy, rfl⟩)
      have hmin : argmin ((x :: rest).map Later.difference) = 0 := by
        rw [List.map_cons, argmin]
        refine argminFrom_first _ _ _ _ fun d hd => ?_
        obtain ⟨y, hy, rfl⟩ := List.mem_map.1 hd
        rcases hx y hy with h' | h'
        · rw [hst x List.mem_cons_self, hst y (List.mem_cons_of_mem _ hy)] at h'
          exact absurd h' (lt_irrefl _)
        · exact le_of_lt h'.2
      rw [hmin, List.getElem?_cons_zero, heads, if_neg (by simp), hst x List.mem_cons_self,
        heads_same before rest fun y hy => hst y (List.mem_cons_of_mem _ hy)]
    · rw [if_neg fun h' => hall h'.2, select_changes, heads, heads]
      have hne : x.station ≠ before := by
        intro hxb
        apply hall
        rw [countP_changes]
        intro s hs
        obtain ⟨y, hy, rfl⟩ := List.mem_map.1 hs
        have hle : ∀ y ∈ x :: rest, x.station ≤ y.station := by
          intro y hy
          rcases List.mem_cons.1 hy with rfl | hy
          · exact le_refl _
          · rcases hx y hy with h' | h'
            · exact le_of_lt h'
            · exact le_of_eq h'.1
        -- the last station is the first, and stations do not decrease
        have hge : ∀ (l : List Later), LaterOrder l → ∀ y ∈ l, ∀ b, (l.map Later.station).getLast? = some b →
            y.station ≤ b := by
          intro l hl
          induction l with
          | nil => simp
          | cons w l ih =>
            intro y hy b hb'
            match l with
            | [] =>
              simp only [List.map_cons, List.map_nil, List.getLast?_singleton, Option.some.injEq] at hb'
              simp only [List.mem_singleton] at hy
              rw [hy, hb']
            | v :: l =>
              rw [List.map_cons, List.map_cons, List.getLast?_cons_cons, ← List.map_cons] at hb'
              have hl' := (List.pairwise_cons.1 hl)
              rcases List.mem_cons.1 hy with rfl | hy
              · have h1 : y.station ≤ v.station := by
                  rcases hl'.1 v List.mem_cons_self with h' | h'
                  · exact le_of_lt h'
                  · exact le_of_eq h'.1
                exact le_trans h1 (ih hl'.2 v List.mem_cons_self b hb')
              · exact ih hl'.2 y hy b hb'
        have h1 := hge _ h y hy before hb
        have h2 := hle y hy
        omega
      rw [if_neg (by simpa using hne), if_neg (by simp)]

theorem heads_sublist (before : Option Int) (l : List Later) : (heads before l).Sublist l := by
  induction l generalizing before with
  | nil => exact List.Sublist.refl _
  | cons x rest ih =>
    rw [heads]
    split
    · exact (ih _).cons _
    · exact (ih _).cons_cons _

theorem heads_sorted (before : Option Int) (l : List Later) (h : LaterOrder l)
    (hb : ∀ s, before = some s → ∀ x ∈ l, s ≤ x.station) :
    (heads before l).Pairwise (fun p q => p.station < q.station) ∧
      ∀ s, before = some s → ∀ x ∈ heads before l, s < x.station := by
  induction l generalizing before with
  | nil => simp [heads]
  | cons x rest ih =>
    have hx : ∀ y ∈ rest, x.station ≤ y.station := by
      intro y hy
      rcases (List.pairwise_cons.1 h).1 y hy with h' | h'
      · exact le_of_lt h'
      · exact le_of_eq h'.1
    obtain ⟨h1, h2⟩ := ih (some x.station) (List.pairwise_cons.1 h).2 (by
      intro s hs y hy
      cases hs
      exact hx y hy)
    rw [heads]
    split
    · rename_i heq
      refine ⟨h1, fun s hs y hy => ?_⟩
      rw [← heq] at hs
      exact h2 s hs y hy
    · rename_i hne
      refine ⟨List.pairwise_cons.2 ⟨fun y hy => h2 _ rfl y hy, h1⟩, fun s hs y hy => ?_⟩
      have hsx : s < x.station := by
        have := hb s hs x List.mem_cons_self
        have : s ≠ x.station := fun h' => hne (by rw [hs, h'])
        omega
      rcases List.mem_cons.1 hy with rfl | hy
      · exact hsx
      · exact lt_trans hsx (h2 _ rfl y hy)

/-- The heads are the earliest of each station. -/
theorem mem_heads (before : Option Int) (l : List Later) (h : LaterOrder l)
    (hb : ∀ s, before = some s → ∀ x ∈ l, s ≤ x.station) (x : Later) :
    x ∈ heads before l ↔ x ∈ l ∧ before ≠ some x.station ∧ ∀ y ∈ l, y.station = x.station → x.difference ≤ y.difference := by
  induction l generalizing before with
  | nil => simp [heads]
  | cons w rest ih =>
    obtain ⟨hw, hrest⟩ := List.pairwise_cons.1 h
    have hle : ∀ y ∈ rest, w.station ≤ y.station := by
      intro y hy
      rcases hw y hy with h' | h'
      · exact le_of_lt h'
      · exact le_of_eq h'.1
    have ih' := ih (some w.station) hrest (by
      intro s hs y hy
      cases hs
      exact hle y hy)
    have hmain : (x ∈ heads (some w.station) rest ↔
        x ∈ rest ∧ w.station ≠ x.station ∧ ∀ y ∈ w :: rest, y.station = x.station → x.difference ≤ y.difference) := by
      rw [ih']
      constructor
      · rintro ⟨h1, h2, h3⟩
        refine ⟨h1, fun h' => h2 (by rw [h']), fun y hy hyx => ?_⟩
        rcases List.mem_cons.1 hy with rfl | hy
        · exact absurd (by rw [hyx]) h2
        · exact h3 y hy hyx
      · rintro ⟨h1, h2, h3⟩
        exact ⟨h1, fun h' => h2 (Option.some.inj h'), fun y hy => h3 y (List.mem_cons_of_mem _ hy)⟩
    rw [heads]
    split
    · rename_i heq
      rw [hmain]
      constructor
      · rintro ⟨h1, h2, h3⟩
        exact ⟨List.mem_cons_of_mem _ h1, fun h' => h2 (Option.some.inj (heq.trans h')), h3⟩
      · rintro ⟨h1, h2, h3⟩
        have hne : w.station ≠ x.station := fun h' => h2 (by rw [← heq, h'])
        rcases List.mem_cons.1 h1 with rfl | h1
        · exact absurd rfl hne
        · exact ⟨h1, hne, h3⟩
    · rename_i hne
      rw [List.mem_cons, hmain]
      constructor
      · rintro (rfl | ⟨h1, h2, h3⟩)
        · refine ⟨List.mem_cons_self, fun h' => hne h'.symm, fun y hy hyx => ?_⟩
          rcases List.mem_cons.1 hy with rfl | hy
          · exact le_refl _
          · rcases hw y hy with h' | h'
            · rw [hyx] at h'
              exact absurd h' (lt_irrefl _)
            · exact le_of_lt h'.2
        · refine ⟨List.mem_cons_of_mem _ h1, fun h' => ?_, h3⟩
          have h4 := hb _ h' w List.mem_cons_self
          have h5 := hle x h1
          omega
      · rintro ⟨h1, h2, h3⟩
        rcases List.mem_cons.1 h1 with rfl | h1
        · exact .inl rfl
        · refine .inr ⟨h1, fun h' => ?_, h3⟩
          have h4 := h3 w List.mem_cons_self h'
          rcases hw x h1 with h5 | h5
          · omega
          · exact absurd h5.2 (not_lt.2 h4)

theorem mem_placesIn (x y : List Int) (i : Nat) : i ∈ placesIn x y ↔ ∃ v, x[i]? = some v ∧ v ∈ y := by
  rw [placesIn, List.mem_filter, List.mem_range]
  constructor
  · rintro ⟨h, h'⟩
    rw [List.getElem?_eq_getElem h] at h'
    exact ⟨_, List.getElem?_eq_getElem h, by simpa using h'⟩
  · rintro ⟨v, h, h'⟩
    refine ⟨(List.getElem?_eq_some_iff.1 h).1, ?_⟩
    rw [h]
    simpa using h'

theorem placesIn_sorted (x y : List Int) : (placesIn x y).Pairwise (· < ·) := List.Pairwise.filter _ List.pairwise_lt_range

theorem sortedInt_unique (a b : List Int) (ha : a.Pairwise (· < ·)) (hb : b.Pairwise (· < ·)) (h : ∀ i, i ∈ a ↔ i ∈ b) :
    a = b := by
  refine List.Perm.eq_of_pairwise (le := (· ≤ ·)) (fun _ _ _ _ => Int.le_antisymm) (ha.imp Int.le_of_lt)
    (hb.imp Int.le_of_lt) ?_
  exact (List.perm_ext_iff_of_nodup (ha.imp fun h => Int.ne_of_lt h) (hb.imp fun h => Int.ne_of_lt h)).2 h

/-- The values at the places of common elements. -/
theorem placesIn_values (x y : List Int) (hx : x.Pairwise (· < ·)) :
    ((placesIn x y).map fun i => x.getD i 0).Pairwise (· < ·) ∧
      ∀ v, v ∈ (placesIn x y).map (fun i => x.getD i 0) ↔ v ∈ x ∧ v ∈ y := by
  constructor
  · rw [List.pairwise_map]
    refine List.Pairwise.imp_of_mem ?_ (placesIn_sorted x y)
    intro i j hi hj hij
    obtain ⟨v, hv, _⟩ := (mem_placesIn _ _ _).1 hi
    obtain ⟨w, hw, _⟩ := (mem_placesIn _ _ _).1 hj
    obtain ⟨hil, rfl⟩ := List.getElem?_eq_some_iff.1 hv
    obtain ⟨hjl, rfl⟩ := List.getElem?_eq_some_iff.1 hw
    rw [List.getD_eq_getElem?_getD, List.getD_eq_getElem?_getD, hv, hw]
    exact (List.pairwise_iff_getElem.1 hx) i j hil hjl hij
  · intro v
    rw [List.mem_map]
    constructor
    · rintro ⟨i, hi, rfl⟩
      obtain ⟨w, hw, hwy⟩ := (mem_placesIn _ _ _).1 hi
      rw [List.getD_eq_getElem?_getD, hw]
      exact ⟨List.mem_of_getElem? hw, hwy⟩
    · rintro ⟨h1, h2⟩
      obtain ⟨i, hi, rfl⟩ := List.mem_iff_getElem.1 h1
      refine ⟨i, (mem_placesIn _ _ _).2 ⟨_, List.getElem?_eq_getElem hi, h2⟩, ?_⟩
      rw [List.getD_eq_getElem?_getD, List.getElem?_eq_getElem hi]
      rfl

/-! ### Theorems -/

/-- The list of pairs which the function makes. -/
theorem stationEffect_ok (time : ℚ) (observed : List Int) (breaks : List (Int × ℚ)) (hb : InOrder breaks)
    (ho : observed.Pairwise (· < ·)) : ∃ effect : List (Nat × Nat),
      stationEffect time observed breaks = .ok (if effect.length = 0 then none else some effect) ∧
      effect.Pairwise (fun p q => p.1 < q.1) ∧
      ∀ k c, (k, c) ∈ effect ↔ ∃ s, observed[k]? = some s ∧ NextBreak time breaks s c := by
  have horder := laterBreaks_order time breaks hb
  have hactive := activeBreaks_eq _ horder
  set active := activeBreaks (laterBreaks time breaks) with hactivedef
  have hsorted : active.Pairwise fun p q => p.station < q.station := by
    rw [hactive]
    exact (heads_sorted none _ horder (by simp)).1
  have hmem : ∀ x, x ∈ active ↔ x ∈ laterBreaks time breaks ∧
      ∀ y ∈ laterBreaks time breaks, y.station = x.station → x.difference ≤ y.difference := by
    intro x
    rw [hactive, mem_heads none _ horder (by simp)]
    simp
  set stations := active.map Later.station with hstations
  have hss : stations.Pairwise (· < ·) := by rw [hstations, List.pairwise_map]; exact hsorted
  obtain ⟨hl1, hl2⟩ := placesIn_values observed stations ho
  obtain ⟨hr1, hr2⟩ := placesIn_values stations observed hss
  have hvalues : (placesIn observed stations).map (fun i => observed.getD i 0) =
      (placesIn stations observed).map fun i => stations.getD i 0 :=
    sortedInt_unique _ _ hl1 hr1 fun v => by rw [hl2, hr2, and_comm]
  have hlen : (placesIn observed stations).length = (placesIn stations observed).length := by
    have := congrArg List.length hvalues
    simpa using this
  have hgather := gather_ok (active.map Later.index) 0 (placesIn stations observed) (by
    intro i hi
    obtain ⟨v, hv, _⟩ := (mem_placesIn _ _ _).1 hi
    have := (List.getElem?_eq_some_iff.1 hv).1
    rw [hstations, List.length_map] at this
    rw [List.length_map]; exact this)
  set left := placesIn observed stations with hleft
  set places := placesIn stations observed with hplaces
  set right := places.map fun i => (active.map Later.index).getD i 0 with hright
  have hrl : left.length = right.length := by rw [hright, List.length_map, hlen]
  refine ⟨left.zip right, ?_, ?_, ?_⟩
  · unfold stationEffect
    dsimp only
    rw [← hactivedef, ← hstations, ← hplaces, hgather, ← hleft]
    dsimp only
    rw [if_neg (by simpa using hrl)]
    split <;> rfl
  · have h1 := placesIn_sorted observed stations
    rw [← hleft] at h1
    rw [List.pairwise_iff_getElem] at h1 ⊢
    intro i j hi hj hij
    rw [List.length_zip] at hi hj
    rw [List.getElem_zip, List.getElem_zip]
    exact h1 i j (by omega) (by omega) hij
  · intro k c
    constructor
    · intro hkc
      obtain ⟨n, hn, hnkc⟩ := List.mem_iff_getElem.1 hkc
      rw [List.length_zip] at hn
      rw [List.getElem_zip, Prod.mk.injEq] at hnkc
      obtain ⟨hk, hc⟩ := hnkc
      have hnl : n < left.length := by omega
      have hnp : n < places.length := by omega
      have hv := congrArg (fun l => l[n]?) hvalues
      simp only [List.getElem?_map, List.getElem?_eq_getElem hnl, List.getElem?_eq_getElem hnp, Option.map_some,
        Option.some.injEq] at hv
      obtain ⟨s, hs, _⟩ := (mem_placesIn _ _ _).1 (List.getElem_mem hnl)
      obtain ⟨s', hs', _⟩ := (mem_placesIn _ _ _).1 (List.getElem_mem hnp)
      have hss' : s = s' := by
        rw [List.getD_eq_getElem?_getD, List.getD_eq_getElem?_getD] at hv
        rw [hs, hs'] at hv
        exact hv
      rw [hk] at hs
      refine ⟨s, hs, ?_⟩
      rw [hss']
      -- the active break at the place
      rw [hstations, List.getElem?_map] at hs'
      match hact : active[places[n]]? with
      | none => rw [hact] at hs'; cases hs'
      | some x =>
        rw [hact] at hs'
        simp only [Option.map_some, Option.some.injEq] at hs'
        have hcx : c = x.index := by
          have e : right[n]? = some x.index := by
            rw [hright, List.getElem?_map, List.getElem?_eq_getElem hnp, Option.map_some, List.getD_eq_getElem?_getD,
              List.getElem?_map, hact]
            rfl
          rw [← hc]
          exact (List.getElem?_eq_some_iff.1 e).2
        obtain ⟨hx1, hx2⟩ := (hmem x).1 (List.mem_of_getElem? hact)
        obtain ⟨hx3, hx4⟩ := (mem_laterBreaks _ _ _).1 hx1
        refine ⟨x.difference + time, by rw [hcx, ← hs']; exact hx3, by linarith, ?_⟩
        intro c' tb' hc' ht'
        have hy : (⟨s', tb' - time, c'⟩ : Later) ∈ laterBreaks time breaks :=
          (mem_laterBreaks _ _ _).2 ⟨by simpa using hc', by simpa using ht'⟩
        have := hx2 _ hy hs'.symm
        dsimp only at this
        linarith
    · rintro ⟨s, hs, tb, hc, ht, hmin⟩
      have hx : (⟨s, tb - time, c⟩ : Later) ∈ active := by
        rw [hmem]
        refine ⟨(mem_laterBreaks _ _ _).2 ⟨by simpa using hc, by simpa using ht⟩, ?_⟩
        intro y hy hys
        obtain ⟨hy1, hy2⟩ := (mem_laterBreaks _ _ _).1 hy
        dsimp only at hys
        rw [hys] at hy1
        have := hmin _ _ hy1 (by linarith)
        dsimp only
        linarith
      have hst : s ∈ stations := by rw [hstations]; exact List.mem_map.2 ⟨_, hx, rfl⟩
      have hk : k ∈ left := (mem_placesIn _ _ _).2 ⟨s, hs, hst⟩
      obtain ⟨n, hn, hnk⟩ := List.mem_iff_getElem.1 hk
      have hnp : n < places.length := by omega
      have hv := congrArg (fun l => l[n]?) hvalues
      simp only [List.getElem?_map, List.getElem?_eq_getElem hn, List.getElem?_eq_getElem hnp, Option.map_some,
        Option.some.injEq] at hv
      obtain ⟨s', hs', _⟩ := (mem_placesIn _ _ _).1 (List.getElem_mem hnp)
      have hss' : s = s' := by
        rw [List.getD_eq_getElem?_getD, List.getD_eq_getElem?_getD] at hv
        rw [hnk, hs, hs'] at hv
        exact hv
      rw [hstations, List.getElem?_map] at hs'
      match hact : active[places[n]]? with
      | none => rw [hact] at hs'; cases hs'
      | some x =>
        rw [hact] at hs'
        simp only [Option.map_some, Option.some.injEq] at hs'
        have hxx : x = ⟨s, tb - time, c⟩ := by
          obtain ⟨i, hi, hix⟩ := List.mem_iff_getElem.1 hx
          obtain ⟨hj, hjx⟩ := List.getElem?_eq_some_iff.1 hact
          by_contra hne
          rcases Nat.lt_trichotomy i places[n] with hlt | heq | hgt
          · have := (List.pairwise_iff_getElem.1 hsorted) i _ hi hj hlt
            rw [hix, hjx] at this
            dsimp only at this
            omega
          · apply hne
            rw [← hix, ← hjx]
            congr 1
            exact heq.symm
          · have := (List.pairwise_iff_getElem.1 hsorted) _ i hj hi hgt
            rw [hix, hjx] at this
            dsimp only at this
            omega
        rw [List.mem_iff_getElem]
        refine ⟨n, by rw [List.length_zip]; omega, ?_⟩
        rw [List.getElem_zip, Prod.mk.injEq]
        refine ⟨hnk, ?_⟩
        have e : right[n]? = some c := by
          rw [hright, List.getElem?_map, List.getElem?_eq_getElem hnp, Option.map_some, List.getD_eq_getElem?_getD,
            List.getElem?_map, hact, hxx]
          rfl
        exact (List.getElem?_eq_some_iff.1 e).2

/-- **C96**, for any breaks in order of stations and times, and observations in order of stations: an observation has the bias of
the first break of its station which is later than the time, and no other; observations after the last break of their station
have none.  With no biases at all there is no effect. -/
theorem c96_stations (time : ℚ) (observed : List Int) (breaks : List (Int × ℚ)) (hb : InOrder breaks)
    (ho : observed.Pairwise (· < ·)) :
    (∃ effect, stationEffect time observed breaks = .ok (some effect) ∧ effect ≠ [] ∧ (effect.map Prod.fst).Nodup ∧
      ∀ k c, (k, c) ∈ effect ↔ ∃ s, observed[k]? = some s ∧ NextBreak time breaks s c) ∨
    (stationEffect time observed breaks = .ok none ∧ ∀ (k : Nat) (s : Int), observed[k]? = some s →
      ∀ c, ¬ NextBreak time breaks s c) := by
  obtain ⟨effect, h1, h2, h3⟩ := stationEffect_ok time observed breaks hb ho
  by_cases h : effect.length = 0
  · rw [if_pos h] at h1
    refine .inr ⟨h1, fun k s hs c hc => ?_⟩
    have := (h3 k c).2 ⟨s, hs, hc⟩
    rw [List.length_eq_zero_iff.1 h] at this
    simp at this
  · rw [if_neg h] at h1
    refine .inl ⟨effect, h1, fun h' => h (by rw [h']; rfl), ?_, h3⟩
    rw [List.Nodup, List.pairwise_map]
    exact h2.imp fun h => Nat.ne_of_lt h

/-- Non-vacuity: two stations with breaks, the second one observed as well as a third. -/
example : InOrder [(1, 10), (1, 20), (3, 5), (3, 30)] ∧ [(2 : Int), 7].Pairwise (· < ·) ∧
    NextBreak 15 [(1, 10), (1, 20), (3, 5), (3, 30)] 2 3 := by
  refine ⟨by norm_num [InOrder], by simp, 30, by norm_num, by norm_num, ?_⟩
  intro c' tb' h1 h2
  match c', h1 with
  | 0, h1 => norm_num at h1
  | 1, h1 => norm_num at h1
  | 2, h1 => norm_num at h1; subst h1; norm_num at h2
  | 3, h1 => norm_num at h1; subst h1; norm_num
  | n + 4, h1 => simp at h1

/-- **C96 violated**: observations in another order of stations get the biases of each other. -/
theorem c96_order_violated : ∃ (time : ℚ) (observed : List Int) (breaks : List (Int × ℚ)), InOrder breaks ∧ observed.Nodup ∧
    stationEffect time observed breaks = .ok (some [(0, 0), (1, 1)]) ∧ observed[0]? = some 1 ∧ observed[1]? = some 0 ∧
    breaks[0]? = some (1, 10) ∧ breaks[1]? = some (2, 20) := by
  refine ⟨0, [1, 0], [(1, 10), (2, 20)], by norm_num [InOrder], by simp, ?_, rfl, rfl, rfl, rfl⟩
  decide +kernel

/-- **C96 violated**: two observations of one station are an error. -/
theorem c96_repeated_violated : ∃ (time : ℚ) (observed : List Int) (breaks : List (Int × ℚ)), InOrder breaks ∧
    stationEffect time observed breaks = .error .valueError := by
  refine ⟨0, [0, 0], [(1, 10)], by norm_num [InOrder], ?_⟩
  decide +kernel

/-- **C96 violated**: breaks which are not grouped by station, or not in order of time, lose biases or give the wrong ones. -/
theorem c96_breaks_order_violated :
    stationEffect 0 [0, 1] [(1, 10), (2, 20), (1, 30)] = .ok (some [(0, 1), (1, 2)]) ∧
    stationEffect 0 [0, 1] [(1, 30), (1, 10), (2, 20)] = .ok (some [(0, 0), (1, 2)]) := by
  constructor <;> decide +kernel

end Verif.Eustace.ObsSource
