import Verif.Eustace.Projector.Latent
import Verif.Eustace.Flags.Model

/-! C176: flags of latent variables for the days of a month.
`/repo/src/eustace/postprocess/` latent_variable_check.py 28-185 and flags.py. -/

namespace Verif.Eustace.Projector

open Verif Verif.Eustace.Elements Verif.Eustace.Storage
open Verif.Eustace.Flags (Word)

noncomputable section

/-! ### Model -/

/-- The names of module `flags` (flags.py 15-70): those of two flags are in comments (flags.py 42-43). -/
def flagsNames : List String :=
  ["FLAG_TYPE", "TYPE_NAME", "FLAG_MAX_N", "FLAG_MAX_USED", "NULL_FLAG", "DAY_FLAG", "PRIOR_WINDOW_FLAG", "POST_WINDOW_FLAG",
   "PRIOR_CALENDAR_FLAG", "POST_CALENDAR_FLAG", "CLIMATOLOGY_UNC_FLAG", "LARGE_SCALE_UNC_FLAG", "AREAL_LOW_FLAG", "AREAL_HIGH_FLAG",
   "EXTREME_LOW_FLAG", "EXTREME_HIGH_FLAG", "PERSISTANT_OUTLIER_FLAG", "MISSING_MARINE_FLAG", "LOCATION_LOW_FLAG", "LOCATION_HIGH_FLAG",
   "MISSING_FLAG_FLAG", "CALENDAR_DAY_FLAG", "FLAG_MEANINGS"]

/-- The attributes of `flags` which the module takes when it is imported, in order (latent_variable_check.py 29-66). -/
def usedNames : List String :=
  ["FLAG_TYPE", "TYPE_NAME", "FLAG_MAX_N", "FLAG_MAX_USED", "NULL_FLAG", "DAY_FLAG", "PRIOR_WINDOW_FLAG", "POST_WINDOW_FLAG",
   "CALENDAR_DAY_FLAG", "PRIOR_CALENDAR_FLAG", "POST_CALENDAR_FLAG", "CLIMATOLOGY_UNC_FLAG", "LARGE_SCALE_UNC_FLAG", "AREAL_LOW_FLAG",
   "AREAL_HIGH_FLAG", "EXTREME_LOW_FLAG", "EXTREME_HIGH_FLAG", "AREAL_LOW_FLAG", "MISSING_FLAG_FLAG", "FLAG_MEANINGS",
   "CLIMATOLOGY_LATENT_FLAG", "LARGE_SCALE_LATENT_FLAG"]

/-- Import of latent_variable_check.py (29-66), with the names which `flags` has. -/
def importLatent (names : List String) : List String → Except PyErr Unit
  | [] => .ok ()
  | n :: rest => if n ∈ names then importLatent names rest else .error .attributeError

/-- The files of states and samples (latent_variable_check.py 88-96) for a directory and an iteration. -/
def latentPaths (_directory : String) (_iteration : Int) : List String :=
  let root := "/work/scratch/cmorice/advanced_standard/"
  [root ++ "climatology_solution_9/climatology_solution_9.pickle",
   root ++ "climatology_solution_sample_9/climatology_solution_sample_9.pickle",
   root ++ "climatology_solution_prior_sample_9/climatology_solution_prior_sample_9.pickle",
   root ++ "large_scale_solution_9/large_scale_solution_9.pickle",
   root ++ "large_scale_solution_sample_9/large_scale_solution_sample_9.pickle",
   root ++ "large_scale_solution_prior_sample_9/large_scale_solution_prior_sample_9.pickle"]

/-- `CONSTRAINT_THRESHOLD` (latent_variable_check.py 67). -/
def latentThreshold : ℝ := 0.2

/-- The projector of a component and the constraints of its variables, on the first day or from an earlier one
(latent_variable_check.py 153-157, 171-175).  Without samples `numpy.std` fails. -/
def latentKnown (g : Grid) (c : Component) (time : Int) : Option (Projector × List ℝ) → Except PyErr (Projector × List ℝ)
  | some x => .ok x
  | none =>
    match (g.projector time).setComponent c false with
    | .error e => .error e
    | .ok p =>
      match p.samples, p.prior with
      | some S, some P => .ok (p, constraint S P)
      | _, _ => .error .valueError

/-- One component of one day (latent_variable_check.py 153-162, 171-180). -/
def latentStep (w : World) (g : Grid) (c : Component) (time : Int) (previous : Option (Projector × List ℝ)) :
    Except PyErr ((Projector × List ℝ) × List Bool) :=
  match latentKnown g c time previous with
  | .error e => .error e
  | .ok (p, k) =>
    match (p.updateTimeIndex time false).evaluateDesign w with
    | .error e => .error e
    | .ok q =>
      match q.design with
      | none => .error .attributeError
      | some A =>
        match constraintStatistic A k latentThreshold with
        | .error e => .error e
        | .ok flags => .ok ((q, k), flags)

/-- `flag_values[where] = flag_values[where] | flag` (latent_variable_check.py 166, 182). -/
def setWhere (flag : Word) (where_ : List Bool) (values : List Word) : List Word :=
  List.zipWith (fun b v => if b then v ||| flag else v) where_ values

/-- The loop over the days (latent_variable_check.py 141-185), with the two words: what is saved for each day.  Simplified: cells in
one list; the size of the grid is that of the field of flags, both being `GLOBAL_FIELD_SHAPE`. -/
def latentLoop (w : World) (g : Grid) (a b : Component) (climatology largeScale : Word) :
    List Int → Option (Projector × List ℝ) → Option (Projector × List ℝ) → Except PyErr (List (Int × List Word))
  | [], _, _ => .ok []
  | time :: rest, p, q =>
    match latentStep w g a time p with
    | .error e => .error e
    | .ok (p', f) =>
      match latentStep w g b time q with
      | .error e => .error e
      | .ok (q', f') =>
        match latentLoop w g a b climatology largeScale rest (some p') (some q') with
        | .error e => .error e
        | .ok l =>
          .ok ((time, setWhere largeScale f'
            (setWhere climatology f (List.replicate (Regrid.gridLocations g.latitudes g.longitudes).length 0))) :: l)

/-- `latent_variable_flag` (latent_variable_check.py 84-185), with the components which the files give. -/
def latentFlags (w : World) (g : Grid) (a b : Component) (climatology largeScale : Word) (days : List Int) :
    Except PyErr (List (Int × List Word)) := latentLoop w g a b climatology largeScale days none none

/-! ### Specification -/

open Classical in
/-- Which variables the observations leave free: those of which the posterior draws keep more than four fifths of the variance of the
prior draws. -/
def free (S P : Arr) : List ℝ :=
  (List.range S.rows).map fun j => if 0.8 * std (rowOf P j) ^ 2 < std (rowOf S j) ^ 2 then 1 else 0

/-- The free variables together add to the value of a cell on a day. -/
def Reached (w : World) (g : Grid) (e : Element) (time : Int) (S P : Arr) (i : Nat) : Prop :=
  0 < cellValue w g e time (free S P) i

/-- A component of which draws of posterior and prior are stored, one set for all days. -/
structure Drawn (w : World) (g : Grid) (c : Component) (S P : Arr) : Prop where
  evaluable : Evaluable w c.element (pointsIn g.latitudes g.longitudes g.resolution g.sampling)
  stored : ∃ read x, c.solution = .indexFree read ∧ read .state = .ok x ∧ read .sample = .ok (some S) ∧
    read .priorSample = .ok (some P)
  sizes : S.rows = stateSize w c.element
  spread : ∀ j < S.rows, 0 < std (rowOf P j)

/-! ### Proofs -/

/-- What the checks keep from day to day does not matter. -/
def LatentReady (w : World) (g : Grid) (c : Component) (p : Option (Projector × List ℝ)) : Prop :=
  ∀ t, latentStep w g c t p = latentStep w g c t none

theorem latent_ready (w : World) (g : Grid) (c : Component) (hc : IndexFree c) (t : Int) {x : Projector × List ℝ} {f : List Bool}
    (h : latentStep w g c t none = .ok (x, f)) : LatentReady w g c (some x) := by
  obtain ⟨read, hc⟩ := hc
  intro t'
  have hread : ∀ q t, readQuantity q t c.solution = read q := by
    intro q t; rw [hc]; rfl
  unfold latentStep latentKnown Projector.setComponent at h ⊢
  simp only [hread] at h ⊢
  cases h1 : read .state with
  | error e => simp only [h1] at h; exact (nomatch h)
  | ok x1 =>
    cases h2 : read .sample with
    | error e => simp only [h1, h2] at h; exact (nomatch h)
    | ok x2 =>
      cases h3 : read .priorSample with
      | error e => simp only [h1, h2, h3] at h; exact (nomatch h)
      | ok x3 =>
        cases x2 with
        | none => simp only [h1, h2, h3] at h; exact (nomatch h)
        | some S =>
          cases x3 with
          | none => simp only [h1, h2, h3] at h; exact (nomatch h)
          | some P =>
            simp only [h1, h2, h3] at h ⊢
            split at h
            · exact (nomatch h)
            · rename_i q hq
              obtain ⟨A, rfl⟩ := evaluate_ok w _ _ hq
              simp only at h
              split at h
              · exact (nomatch h)
              · have := (Prod.mk.inj (Except.ok.inj h)).1
                subst this
                rfl

/-- The days one after another, each from its own run: the first failure stops. -/
def eachLatent (day : Int → Except PyErr (List (Int × List Word))) : List Int → Except PyErr (List (Int × List Word))
  | [] => .ok []
  | t :: rest =>
    match day t with
    | .error e => .error e
    | .ok o =>
      match eachLatent day rest with
      | .error e => .error e
      | .ok os => .ok (o ++ os)

theorem latent_days (w : World) (g : Grid) (a b : Component) (ha : IndexFree a) (hb : IndexFree b) (u v : Word) :
    ∀ (days : List Int) (p q : Option (Projector × List ℝ)), LatentReady w g a p → LatentReady w g b q →
      latentLoop w g a b u v days p q = eachLatent (fun t => latentFlags w g a b u v [t]) days := by
  intro days
  induction days with
  | nil => intro p q _ _; rfl
  | cons t rest ih =>
    intro p q hp hq
    unfold eachLatent latentFlags
    simp only [latentLoop]
    rw [hp t, hq t]
    cases h1 : latentStep w g a t none with
    | error e => rfl
    | ok x =>
      dsimp only
      cases h2 : latentStep w g b t none with
      | error e => rfl
      | ok y =>
        dsimp only
        rw [ih (some x.1) (some y.1) (latent_ready w g a ha t h1) (latent_ready w g b hb t h2)]
        rfl

/-- **C176**: the flags of the days of a month are those of each day alone, although projectors and constraints are used again. -/
theorem c176_days (w : World) (g : Grid) (a b : Component) (ha : IndexFree a) (hb : IndexFree b) (u v : Word) (days : List Int) :
    latentFlags w g a b u v days = eachLatent (fun t => latentFlags w g a b u v [t]) days :=
  latent_days w g a b ha hb u v days none none (fun _ => rfl) fun _ => rfl

theorem free_eq (S P : Arr) (h : ∀ j < S.rows, 0 < std (rowOf P j)) : open Classical in
    ((constraint S P).map fun c => if c < latentThreshold then (1 : ℝ) else 0) = free S P := by
  classical
  unfold free constraint
  rw [List.map_map]
  refine List.map_congr_left fun j hj => ?_
  have hj := List.mem_range.1 hj
  obtain ⟨_, _, _, h4⟩ := c111_constraint S P j hj
  have h5 := h4 latentThreshold (by norm_num [latentThreshold]) (h j hj)
  have e : (constraint S P).getD j 0 = 1 - min (std (rowOf S j) ^ 2 / std (rowOf P j) ^ 2) 1 := by
    unfold constraint
    rw [getD_map' _ _ j (by simpa using hj) 0]
    simp [List.getD, hj]
  rw [e, show (1 - latentThreshold) = 0.8 by norm_num [latentThreshold]] at h5
  simp only [Function.comp_apply]
  by_cases hlt : 0.8 * std (rowOf P j) ^ 2 < std (rowOf S j) ^ 2
  · rw [if_pos hlt, if_pos (h5.2 hlt)]
  · rw [if_neg hlt, if_neg fun h => hlt (h5.1 h)]

/-- One component of one day. -/
theorem latentStep_ok (w : World) (g : Grid) (h1 : 0 < g.sampling.1) (h2 : 0 < g.sampling.2) (c : Component) (S P : Arr)
    (hd : Drawn w g c S P) (t : Int) : ∃ x f, latentStep w g c t none = .ok (x, f) ∧ f.length = g.size ∧
      ∀ i < g.size, (f.getD i false = true ↔ Reached w g c.element t S P i) := by
  classical
  obtain ⟨read, x0, s1, s2, s3, s4⟩ := hd.stored
  set p : Projector := { g.projector t with component := some c, state := x0, samples := some S, prior := some P, design := none } with hp
  have hset : (g.projector t).setComponent c false = .ok p := by
    unfold Projector.setComponent
    rw [s1]
    simp only [readQuantity, s2, s3, s4]
    rfl
  obtain ⟨A, a1, a2, a3, a4⟩ := c110_cells w p c rfl h1 h2 hd.evaluable
  have hrows : A.rows = g.size := a2
  have hlen : (constraint S P).length = A.cols := by rw [a3, ← hd.sizes]; simp [constraint]
  have hdot : ∃ f, constraintStatistic A (constraint S P) latentThreshold = .ok f ∧ f.length = A.rows ∧
      ∀ i < A.rows, (f.getD i false = true ↔ 0 < ∑ j ∈ Finset.range A.cols, A.get i j * (free S P).getD j 0) := by
    unfold constraintStatistic Arr.dot
    rw [← free_eq S P hd.spread]
    simp only [List.length_map, hlen, ne_eq, not_true_eq_false, if_false]
    refine ⟨_, rfl, by simp, fun i hi => ?_⟩
    rw [List.map_map, getD_map' _ _ i (by simpa using hi) 0]
    have h0 : (List.range A.rows).getD i 0 = i := by simp [List.getD, hi]
    rw [h0]
    simp only [Function.comp_apply, decide_eq_true_eq]
  obtain ⟨f, f1, f2, f3⟩ := hdot
  refine ⟨({ p with design := some A }, constraint S P), f, ?_, by rw [f2, hrows], fun i hi => ?_⟩
  · unfold latentStep latentKnown
    simp only [hset]
    have hup : p.updateTimeIndex t false = p := rfl
    have hs : p.samples = some S := rfl
    have hq : p.prior = some P := rfl
    simp only [hs, hq, hup, a1, f1]
  · rw [f3 i (by rw [hrows]; exact hi)]
    have hfl : (free S P).length = stateSize w c.element := by rw [← hd.sizes]; simp [free]
    obtain ⟨Y, y1, _, _, y4⟩ := a4 ⟨stateSize w c.element, 1, fun j _ => (free S P).getD j 0⟩ rfl
    rw [mul_times A _ a3] at y1
    have hY := (Except.ok.inj y1).symm
    have hv := y4 i (by rw [hrows]; exact hi) 0
    rw [hY] at hv
    have hcol : column ⟨stateSize w c.element, 1, fun j _ => (free S P).getD j 0⟩ 0 = free S P := by
      unfold column
      apply List.ext_getElem
      · simp [hfl]
      · intro n h1 h2
        simp [List.getD, h2]
    rw [hcol] at hv
    have hv' : ∑ j ∈ Finset.range A.cols, A.get i j * (free S P).getD j 0 = cellValue w g c.element t (free S P) i := hv
    rw [hv']
    rfl

theorem setWhere_get (flag : Word) (f : List Bool) (values : List Word) (i : Nat) (h1 : i < f.length) (h2 : i < values.length) :
    (setWhere flag f values).getD i 0 = if f.getD i false = true then values.getD i 0 ||| flag else values.getD i 0 := by
  unfold setWhere
  simp only [List.getD_eq_getElem?_getD, List.getElem?_zipWith, List.getElem?_eq_getElem h1, List.getElem?_eq_getElem h2,
    Option.getD_some]

open Classical in
/-- **C176**, for all grids, components, draws and days, if module `flags` had the two words: a cell has the first word if the free
variables of the climatology add to its value on that day, the second if those of the large scale do, and nothing else. -/
theorem c176_flags (w : World) (g : Grid) (h1 : 0 < g.sampling.1) (h2 : 0 < g.sampling.2) (a b : Component) (S P S' P' : Arr)
    (ha : Drawn w g a S P) (hb : Drawn w g b S' P') (u v : Word) (days : List Int) :
    ∃ l, latentFlags w g a b u v days = .ok l ∧ l.map Prod.fst = days ∧ ∀ x ∈ l, x.2.length = g.size ∧ ∀ i < g.size,
      x.2.getD i 0 = (if Reached w g a.element x.1 S P i then u else 0) ||| (if Reached w g b.element x.1 S' P' i then v else 0) := by
  have hia : IndexFree a := ⟨_, ha.stored.choose_spec.choose_spec.1⟩
  have hib : IndexFree b := ⟨_, hb.stored.choose_spec.choose_spec.1⟩
  rw [c176_days w g a b hia hib]
  induction days with
  | nil => exact ⟨[], rfl, rfl, fun x hx => by simp at hx⟩
  | cons t rest ih =>
    obtain ⟨l, l1, l2, l3⟩ := ih
    obtain ⟨x, f, f1, f2, f3⟩ := latentStep_ok w g h1 h2 a S P ha t
    obtain ⟨y, f', f1', f2', f3'⟩ := latentStep_ok w g h1 h2 b S' P' hb t
    unfold eachLatent
    rw [l1]
    simp only [latentFlags, latentLoop, f1, f1']
    refine ⟨_, rfl, by rw [List.map_append, l2]; rfl, fun z hz => ?_⟩
    rcases List.mem_append.1 hz with hz | hz
    · obtain rfl := List.mem_singleton.1 hz
      have hz1 : (setWhere u f (List.replicate g.size 0)).length = g.size := by simp [setWhere, f2]
      refine ⟨?_, fun i hi => ?_⟩
      · show (setWhere v f' (setWhere u f (List.replicate g.size 0))).length = g.size
        rw [setWhere, List.length_zipWith, f2', hz1, Nat.min_self]
      · show (setWhere v f' (setWhere u f (List.replicate g.size 0))).getD i 0 = _
        rw [setWhere_get v f' _ i (by rw [f2']; exact hi) (by rw [hz1]; exact hi),
          setWhere_get u f _ i (by rw [f2]; exact hi) (by simpa using hi)]
        have h0 : (List.replicate g.size (0 : Word)).getD i 0 = 0 := by simp [List.getD, hi]
        rw [h0]
        simp only [f3 i hi, f3' i hi]
        by_cases c1 : Reached w g a.element t S P i <;> by_cases c2 : Reached w g b.element t S' P' i <;> simp [c1, c2]
    · exact l3 z hz

/-! ### What fails -/

/-- **C176 violated**: the check cannot be run: module `flags` has no flags for latent variables, and the import ends with
AttributeError. -/
theorem c176_import_violated : importLatent flagsNames usedNames = .error .attributeError ∧
    "CLIMATOLOGY_LATENT_FLAG" ∈ usedNames ∧ "CLIMATOLOGY_LATENT_FLAG" ∉ flagsNames := by
  decide

/-- With the two names it could. -/
theorem c176_import_partial (names : List String) (h : ∀ n ∈ usedNames, n ∈ names) : importLatent names usedNames = .ok () := by
  have gen : ∀ l : List String, (∀ n ∈ l, n ∈ names) → importLatent names l = .ok () := by
    intro l
    induction l with
    | nil => intro _; rfl
    | cons n l ih =>
      intro h
      rw [importLatent, if_pos (h n List.mem_cons_self)]
      exact ih fun m hm => h m (List.mem_cons_of_mem _ hm)
  exact gen usedNames h

/-- **C176 violated**: the words of the comments (flags.py 42-43) are those which flag values too low and too high for their place,
so that with them a cell of an uncertain climatology would read as one of too low a temperature. -/
theorem c176_words_violated (w : World) (g : Grid) (h1 : 0 < g.sampling.1) (h2 : 0 < g.sampling.2) (a b : Component) (S P S' P' : Arr)
    (ha : Drawn w g a S P) (hb : Drawn w g b S' P') (t : Int) (i : Nat) (hi : i < g.size) :
    ∃ words, latentFlags w g a b (Flags.bit 13) (Flags.bit 14) [t] = .ok [(t, words)] ∧
      (words.getD i 0 &&& Flags.LOCATION_LOW = Flags.LOCATION_LOW ↔ Reached w g a.element t S P i) ∧
      (words.getD i 0 &&& Flags.LOCATION_HIGH = Flags.LOCATION_HIGH ↔ Reached w g b.element t S' P' i) := by
  classical
  obtain ⟨l, l1, l2, l3⟩ := c176_flags w g h1 h2 a b S P S' P' ha hb (Flags.bit 13) (Flags.bit 14) [t]
  match l, l2 with
  | [(t', words)], l2 =>
    obtain rfl : t' = t := by simpa using l2
    refine ⟨words, l1, ?_⟩
    obtain ⟨_, l4⟩ := l3 _ List.mem_cons_self
    have l5 := l4 i hi
    simp only at l5
    rw [l5]
    by_cases c1 : Reached w g a.element t' S P i <;> by_cases c2 : Reached w g b.element t' S' P' i <;>
      simp only [c1, c2, if_true, if_false, iff_true, iff_false] <;> decide

/-- **C176 violated**: the files of the ninth iteration in one directory are read, whatever directory and iteration are asked for. -/
theorem c176_iteration_violated (d d' : String) (i i' : Int) : latentPaths d i = latentPaths d' i' := rfl

/-! ### Non-vacuity -/

/-- Two draws of a number, with a given distance from nought. -/
def pair (x : ℝ) : Arr := ⟨1, 2, fun _ k => if k = 0 then x else -x⟩

/-- A mean with draws. -/
def drawnMean (s p : ℝ) : Component := ⟨.grandMean, .indexFree fun
  | .sample => .ok (some (pair s))
  | .priorSample => .ok (some (pair p))
  | _ => .ok none⟩

theorem pair_std (x : ℝ) : std (rowOf (pair x) 0) ^ 2 = x ^ 2 := by
  have hr : rowOf (pair x) 0 = [x, -x] := by simp [rowOf, pair, List.range_succ]
  rw [hr]
  unfold std
  rw [Real.sq_sqrt (by simp; positivity)]
  simp

theorem drawn_mean (w : World) (s p : ℝ) (hp : p ≠ 0) : Drawn w oneCell (drawnMean s p) (pair s) (pair p) where
  evaluable := mean_evaluable w _
  stored := ⟨_, _, rfl, rfl, rfl, rfl⟩
  sizes := rfl
  spread := by
    intro j (hj : j < 1)
    obtain rfl : j = 0 := by omega
    have := pair_std p
    have h0 : 0 < std (rowOf (pair p) 0) ^ 2 := by rw [this]; positivity
    have hn : 0 ≤ std (rowOf (pair p) 0) := by unfold std; positivity
    rcases hn.lt_or_eq with h | h
    · exact h
    · rw [← h] at h0
      norm_num at h0

/-- With draws as wide as those of the prior the cell is flagged, with much narrower ones it is not. -/
example (w : World) : Reached w oneCell .grandMean 0 (pair 1) (pair 1) 0 ∧ ¬ Reached w oneCell .grandMean 0 (pair 0.5) (pair 1) 0 := by
  have h : ∀ s : ℝ, free (pair s) (pair 1) = [if 0.8 < s ^ 2 then 1 else 0] := by
    intro s
    unfold free
    have : (pair s).rows = 1 := rfl
    rw [this]
    simp [List.range_succ, pair_std]
  have hv : ∀ x, cellValue w oneCell .grandMean 0 [x] 0 = x := fun x => mean_value w 0 x
  constructor
  · unfold Reached
    rw [h, hv]
    norm_num
  · unfold Reached
    rw [h, hv]
    norm_num

example (w : World) := c176_flags w oneCell Nat.one_pos Nat.one_pos (drawnMean 1 1) (drawnMean 0.5 1) _ _ _ _
  (drawn_mean w 1 1 one_ne_zero) (drawn_mean w 0.5 1 one_ne_zero) (Flags.bit 13) (Flags.bit 14) [0, 1]

end

end Verif.Eustace.Projector
