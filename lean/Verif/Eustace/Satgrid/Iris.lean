import Verif.Eustace.Satgrid.Held

/-!
C98: the pipeline of satgrid_iris (`src/eustace/satgrid_iris/` pipeline.py, satellite.py, gridbin/).

Simplifications as in `Satgrid.Model`.  The names of fields are those of modis.py 15-30.  `numpy.ma` division masks quotients whose
divisor is zero.
-/

namespace Verif.Eustace.Satgrid

open Verif Verif.Eustace.ObsSource

/-! ### Model -/

/-- What Iris loads: arrays, and the masks of those which have any (satellite.py 105-107).  Simplified: coordinates have no mask. -/
structure IrisFile where
  file : SatelliteFile
  primaryMask : Option (List Bool)
  qcMask : Option (List Bool)
  ranMask : Option (List Bool)
  atmMask : Option (List Bool)
  sfcMask : Option (List Bool)
  sysMasked : Bool

/-- One auxiliary field (satellite.py 110-121): the attribute `mask` of a primary field without mask raises. -/
def coverAux (primary aux : Option (List Bool)) : Except PyErr (Option (List Bool)) :=
  match aux with
  | none => .ok primary
  | some m =>
    match primary with
    | none => .error .attributeError
    | some p =>
      if (List.zipWith (fun p m => !p && m) p m).any id then .ok (some (List.zipWith or p m)) else .ok (some p)

/-- The loop over auxiliary fields (satellite.py 110-121). -/
def coverAll : Option (List Bool) → List (Option (List Bool)) → Except PyErr (Option (List Bool))
  | primary, [] => .ok primary
  | primary, aux :: rest =>
    match coverAux primary aux with
    | .error e => .error e
    | .ok p => coverAll p rest

/-- `SatelliteCollection.load` (satellite.py 93-149). -/
def irisLoad (f : IrisFile) : Except PyErr (SatelliteFile × Option (List Bool)) :=
  match coverAll f.primaryMask [f.qcMask, f.ranMask, f.atmMask, f.sfcMask] with
  | .error e => .error e
  | .ok m =>
    if f.sysMasked then
      match m with
      | none => .error .attributeError
      | some p => if p.any not then .error .valueError else .ok ({ f.file with sys := 0 }, some p)
    else .ok (f.file, m)

/-- `ERRORVALUE` (satellite.py 16). -/
noncomputable def errorValue : ℝ := -32768

/-- `generate_safety_mask` (satellite.py 168-178). -/
noncomputable def safety (f : SatelliteFile) (i : Nat) : Bool :=
  open Classical in decide (f.lat.getD i 0 = errorValue) || decide (f.lon.getD i 0 = errorValue)

/-- `get_filter_from_qc_flags` (satellite.py 180-195). -/
noncomputable def filterMask (f : SatelliteFile) (mask filter : Nat) : List Bool :=
  (List.range f.qc.length).map fun i => !((f.qc[i]?).any fun q => decide (q &&& mask = filter)) || safety f i

/-- `apply_filter` (satellite.py 159-166). -/
def applyFilter (m : Option (List Bool)) (filter : List Bool) : List Bool :=
  match m with
  | some m => List.zipWith or m filter
  | none => filter

/-- The indices which a mask leaves (gridbin.py 66). -/
def mapFrom (mask : List Bool) : List Nat := (List.range mask.length).filter fun i => (mask[i]?).any not

/-- Indices into the grid (gridbin.py 68-78). -/
noncomputable def flatFieldIndices (latitude longitude : GridFieldAxis) (coordinates : List (ℝ × ℝ)) :
    Except PyErr (List Nat) :=
  match latitude.computeIndices (coordinates.map Prod.fst) with
  | .error e => .error e
  | .ok rows =>
    match longitude.computeIndices (coordinates.map Prod.snd) with
    | .error e => .error e
    | .ok columns => .ok (List.zipWith (fun r c => r * longitude.count + c) rows columns)

/-- `GridBinPipelineSatellite` (pipeline.py 108-116). -/
structure Pipeline where
  latitude : GridFieldAxis
  longitude : GridFieldAxis
  maskObs : Nat
  filterObs : Nat
  maskValid : Nat
  filterValid : Nat

/-- `compute_input_map` (gridbin.py 56-81). -/
noncomputable def mapTo (a : Pipeline) (f : SatelliteFile) (indices : List Nat) : Except PyErr (List Nat) :=
  match coordinatesAt f indices with
  | .error e => .error e
  | .ok coordinates => flatFieldIndices a.latitude a.longitude coordinates

/-- The fields of the grid.  All operations of the first batch use the same map, so that they unmask the same boxes
(operation.py 66-70). -/
structure Bins where
  total : Nat → Nat
  stats : Nat → Stats
  ran : Nat → ℝ
  atm : Nat → ℝ
  sfc : Nat → ℝ
  sys : Nat → ℝ
  seen : Nat → Bool
  devSq : Nat → ℝ
  seenDev : Nat → Bool

/-- Fields when they are created (pipeline.py 127-161, gridfieldlist.py 89-102). -/
noncomputable def Bins.empty : Bins :=
  ⟨fun _ => 0, fun _ => ⟨0, 0, 10 ^ 20, -10 ^ 20⟩, fun _ => 0, fun _ => 0, fun _ => 0, fun _ => 0, fun _ => false, fun _ => 0,
    fun _ => false⟩

/-- One turn of the loop of `GridBinOperationSumCountMaxMin` (sumcountmaxmin.pyx 43-50). -/
noncomputable def sumCountMaxMin (s : Stats) (x : ℝ) : Stats := ⟨s.count + 1, s.sum + x, min s.min x, max s.max x⟩

/-- The unmasking of boxes (operation.py 66-70). -/
def unmask (seen : Nat → Bool) (mapto : List Nat) : Nat → Bool := fun g => seen g || decide (g ∈ mapto)

/-- A file in the first loop (pipeline.py 246-284; sumsq.pyx 30-36, 53-60; count.pyx 25-31). -/
noncomputable def irisFirst (a : Pipeline) (s : Bins) (f : SatelliteFile) (m : Option (List Bool)) : Except PyErr Bins :=
  let valid := mapFrom (applyFilter m (filterMask f a.maskValid a.filterValid))
  match mapTo a f (mapFrom (filterMask f a.maskObs a.filterObs)) with
  | .error e => .error e
  | .ok obs =>
    match mapTo a f valid with
    | .error e => .error e
    | .ok mapto =>
      match gather f.lst valid, gather f.ran valid, gather f.atm valid, gather f.sfc valid with
      | .ok lst, .ok ran, .ok atm, .ok sfc => .ok { s with
          total := scatter (fun b (_ : Unit) => b + 1) s.total (obs.map fun i => (i, ()))
          stats := scatter sumCountMaxMin s.stats (mapto.zip lst)
          ran := scatter (fun b x => b + x * x) s.ran (mapto.zip ran)
          atm := scatter (fun b x => b + x * x) s.atm (mapto.zip atm)
          sfc := scatter (fun b x => b + x * x) s.sfc (mapto.zip sfc)
          sys := scatter (fun b x => b + x) s.sys (mapto.map fun i => (i, f.sys * f.sys))
          seen := unmask s.seen mapto }
      | _, _, _, _ => .error .indexError

/-- A masked quotient. -/
noncomputable def maskedDiv (valid : Bool) (x y : ℝ) : Option ℝ := open Classical in if valid ∧ y ≠ 0 then some (x / y) else none

/-- `PostProcessMean` (pipeline.py 43-46). -/
noncomputable def Bins.mean (s : Bins) (g : Nat) : Option ℝ := maskedDiv (s.seen g) (s.stats g).sum (s.stats g).count

/-- A file in the second loop (pipeline.py 299-318; sumsqdev.pyx 28-37). -/
noncomputable def irisSecond (a : Pipeline) (mean : Nat → ℝ) (s : Bins) (f : SatelliteFile) (m : Option (List Bool)) :
    Except PyErr Bins :=
  let valid := mapFrom (applyFilter m (filterMask f a.maskValid a.filterValid))
  match mapTo a f valid with
  | .error e => .error e
  | .ok mapto =>
    match gather f.lst valid with
    | .error e => .error e
    | .ok lst => .ok { s with
        devSq := scatter (fun b x => b + x) s.devSq ((mapto.zip lst).map fun p => (p.1, (p.2 - mean p.1) * (p.2 - mean p.1)))
        seenDev := unmask s.seenDev mapto }

/-- A loop over loaded files. -/
def irisLoop (step : Bins → SatelliteFile → Option (List Bool) → Except PyErr Bins) :
    Bins → List (SatelliteFile × Option (List Bool)) → Except PyErr Bins
  | s, [] => .ok s
  | s, f :: rest =>
    match step s f.1 f.2 with
    | .error e => .error e
    | .ok s' => irisLoop step s' rest

/-- The fields which are left in the end (pipeline.py 325-331): `none` is masked. -/
structure IrisOutput where
  number : Nat → Nat
  total : Nat → Nat
  mean : Nat → Option ℝ
  min : Nat → Option ℝ
  max : Nat → Option ℝ
  ran : Nat → Option ℝ
  atm : Nat → Option ℝ
  sfc : Nat → Option ℝ
  sys : Nat → Option ℝ
  variance : Nat → Option ℝ
  sampling : Nat → Option ℝ

/-- The postprocessing (pipeline.py 38-92): the fields of sums have no negative values, so that roots mask nothing. -/
noncomputable def postprocess (s : Bins) : IrisOutput where
  number g := (s.stats g).count
  total := s.total
  mean := s.mean
  min g := if s.seen g then some (s.stats g).min else none
  max g := if s.seen g then some (s.stats g).max else none
  ran g := (maskedDiv (s.seen g) (s.ran g) ((s.stats g).count * (s.stats g).count)).map Real.sqrt
  atm g := (maskedDiv (s.seen g) (s.atm g) (s.stats g).count).map Real.sqrt
  sfc g := (maskedDiv (s.seen g) (s.sfc g) (s.stats g).count).map Real.sqrt
  sys g := (maskedDiv (s.seen g) (s.sys g) (s.stats g).count).map Real.sqrt
  variance g := maskedDiv (s.seenDev g) (s.devSq g) ((s.stats g).count - 1)
  sampling g := (maskedDiv (s.seenDev g) (s.devSq g) ((s.stats g).count - 1)).bind fun v =>
    maskedDiv true (((s.total g : ℝ) - (s.stats g).count) * Real.sqrt v) ((s.total g : ℝ) - 1)

/-- `run` (pipeline.py 118-331): `none` for files which are not readable; files which fail to load are left out; the result is
`none` without any file. -/
noncomputable def irisRun (a : Pipeline) (files : List (Option IrisFile)) : Except PyErr (Option IrisOutput) :=
  let loaded := files.filterMap fun f => f.bind fun f => (irisLoad f).toOption
  if loaded = [] then .ok none
  else
    match irisLoop (irisFirst a) Bins.empty loaded with
    | .error e => .error e
    | .ok s =>
      match irisLoop (irisSecond a fun g => (s.mean g).getD 0) s loaded with
      | .error e => .error e
      | .ok s' => .ok (some (postprocess s'))

/-- The arguments of the command line (command.py 92-108). -/
structure Arguments where
  y0 : ℝ
  ys : ℝ
  yn : Nat
  x0 : ℝ
  xs : ℝ
  xn : Nat
  wrap : Bool
  maskObs : Nat
  filterObs : Nat
  maskValid : Nat
  filterValid : Nat

/-- `SatelliteFileAggregator` from arguments (file_aggregate_grid.py 205-213). -/
def Arguments.satgrid (g : Arguments) : Aggregator :=
  ⟨axisOfArguments g.y0 g.ys g.yn g.wrap, axisOfArguments g.x0 g.xs g.xn g.wrap, g.maskObs, g.filterObs, g.maskValid, g.filterValid⟩

/-- `GridBinPipelineSatellite.from_command_arguments` (pipeline.py 95-106). -/
noncomputable def Arguments.iris (g : Arguments) : Pipeline :=
  ⟨fieldAxisOfArguments g.y0 g.ys g.yn g.wrap, fieldAxisOfArguments g.x0 g.xs g.xn g.wrap, g.maskObs, g.filterObs, g.maskValid,
    g.filterValid⟩

/-! ### Specification -/

/-- A mask covers a pixel. -/
def masked (m : Option (List Bool)) (i : Nat) : Bool := m.any fun l => l.getD i false

/-- Nothing about a pixel is masked. -/
def IrisFile.clear (f : IrisFile) (i : Nat) : Prop :=
  masked f.primaryMask i = false ∧ masked f.qcMask i = false ∧ masked f.ranMask i = false ∧ masked f.atmMask i = false ∧
    masked f.sfcMask i = false

/-- The coordinates of a pixel are not those which stand for errors. -/
def Pixel.somewhere (p : Pixel) : Prop := p.lat ≠ -32768 ∧ p.lon ≠ -32768

/-- All arrays have the same length. -/
structure IrisFile.Sized (f : IrisFile) : Prop where
  file : f.file.Sized
  primary : ∀ m, f.primaryMask = some m → m.length = f.file.qc.length
  qc : ∀ m, f.qcMask = some m → m.length = f.file.qc.length
  ran : ∀ m, f.ranMask = some m → m.length = f.file.qc.length
  atm : ∀ m, f.atmMask = some m → m.length = f.file.qc.length
  sfc : ∀ m, f.sfcMask = some m → m.length = f.file.qc.length

/-- A file which is not left out: if any field has a mask then so has the primary field, and a file without systematic
uncertainty has no pixel with all fields. -/
def IrisFile.Loadable (f : IrisFile) : Prop :=
  (f.primaryMask = none → f.qcMask = none ∧ f.ranMask = none ∧ f.atmMask = none ∧ f.sfcMask = none ∧ f.sysMasked = false) ∧
    (f.sysMasked = true → ∀ i < f.file.qc.length, ¬ f.clear i)

/-- The valid pixels of a file. -/
noncomputable def IrisFile.valid (mask filter : Nat) (f : IrisFile) : List Pixel :=
  open Classical in
  ((List.range f.file.qc.length).filter fun i => decide (f.clear i)).map f.file.pixel |>.filter fun p =>
    decide (p.qc &&& mask = filter ∧ p.somewhere)

/-- The pixels of interest of a file. -/
noncomputable def IrisFile.obs (mask filter : Nat) (f : IrisFile) : List Pixel :=
  open Classical in f.file.pixels.filter fun p => decide (p.qc &&& mask = filter ∧ p.somewhere)

/-- The files which are not left out. -/
noncomputable def usable (files : List (Option IrisFile)) : List IrisFile :=
  open Classical in (files.filterMap id).filter fun f => decide f.Loadable

/-- What the fields say of a box. -/
structure DescribesMasked (o : IrisOutput) (g : Nat) (valid obs : List Pixel) : Prop where
  number : o.number g = valid.length
  total : o.total g = obs.length
  empty : valid = [] → o.mean g = none ∧ o.min g = none ∧ o.max g = none ∧ o.ran g = none ∧ o.atm g = none ∧ o.sfc g = none ∧
    o.sys g = none
  mean : valid ≠ [] → o.mean g = some ((valid.map Pixel.value).sum / valid.length)
  min : valid ≠ [] → ∃ x, o.min g = some x ∧ IsLeast {x | ∃ p ∈ valid, p.value = x} x
  max : valid ≠ [] → ∃ x, o.max g = some x ∧ IsGreatest {x | ∃ p ∈ valid, p.value = x} x
  ran : valid ≠ [] → o.ran g = some (Real.sqrt ((valid.map fun p => p.ran ^ 2).sum) / valid.length)
  atm : valid ≠ [] → o.atm g = some (Real.sqrt ((valid.map fun p => p.atm ^ 2).sum / valid.length))
  sfc : valid ≠ [] → o.sfc g = some (Real.sqrt ((valid.map fun p => p.sfc ^ 2).sum / valid.length))
  sys : valid ≠ [] → o.sys g = some (Real.sqrt ((valid.map fun p => p.sys ^ 2).sum / valid.length))
  few : valid.length < 2 → o.variance g = none ∧ o.sampling g = none
  variance : 2 ≤ valid.length → o.variance g =
    some ((valid.map fun p => (p.value - (valid.map Pixel.value).sum / valid.length) ^ 2 : List ℝ).sum / (valid.length - 1 : ℝ))
  sampling : 2 ≤ valid.length → obs.length ≠ 1 → o.sampling g = some (((obs.length : ℝ) - valid.length) * Real.sqrt
    ((valid.map fun p => (p.value - (valid.map Pixel.value).sum / valid.length) ^ 2 : List ℝ).sum / (valid.length - 1 : ℝ)) /
      (obs.length - 1))
  single : obs.length = 1 → o.sampling g = none

/-! ### Loading -/

theorem masked_or (p m : List Bool) (h : p.length = m.length) (i : Nat) :
    (List.zipWith or p m).getD i false = (p.getD i false || m.getD i false) := by
  simp only [List.getD_eq_getElem?_getD, List.getElem?_zipWith]
  by_cases hi : i < p.length
  · rw [List.getElem?_eq_getElem hi, List.getElem?_eq_getElem (h ▸ hi)]
    rfl
  · rw [List.getElem?_eq_none (by omega), List.getElem?_eq_none (by omega)]
    rfl

theorem any_zip_false (p m : List Bool) (h : p.length = m.length)
    (hz : ¬ (List.zipWith (fun p m => !p && m) p m).any id = true) (i : Nat) :
    p.getD i false = (p.getD i false || m.getD i false) := by
  simp only [List.any_eq_true, not_exists, not_and, id] at hz
  simp only [List.getD_eq_getElem?_getD]
  by_cases hi : i < p.length
  · have := hz (!p[i] && m[i]'(h ▸ hi)) (by
      rw [List.mem_iff_getElem?]
      refine ⟨i, ?_⟩
      rw [List.getElem?_zipWith, List.getElem?_eq_getElem hi, List.getElem?_eq_getElem (h ▸ hi)])
    rw [List.getElem?_eq_getElem hi, List.getElem?_eq_getElem (h ▸ hi)]
    revert this
    simp only [Option.getD_some]
    cases p[i] <;> cases m[i]'(h ▸ hi) <;> simp
  · rw [List.getElem?_eq_none (by omega), List.getElem?_eq_none (by omega)]
    rfl

/-- One auxiliary field. -/
theorem coverAux_spec (p aux : Option (List Bool)) (n : Nat) (hp : ∀ m, p = some m → m.length = n)
    (ha : ∀ m, aux = some m → m.length = n) :
    (coverAux p aux = .error .attributeError ∧ p = none ∧ aux ≠ none) ∨
    ∃ q, coverAux p aux = .ok q ∧ (q = none ↔ p = none) ∧ (p = none → aux = none) ∧ (∀ m, q = some m → m.length = n) ∧
      ∀ i, masked q i = (masked p i || masked aux i) := by
  unfold coverAux
  cases aux with
  | none => exact Or.inr ⟨p, rfl, Iff.rfl, fun _ => rfl, hp, fun i => by simp [masked]⟩
  | some m =>
    cases p with
    | none => exact Or.inl ⟨rfl, rfl, by simp⟩
    | some p =>
      right
      have h1 := hp p rfl
      have h2 := ha m rfl
      simp only
      split
      · refine ⟨_, rfl, by simp, by simp, ?_, ?_⟩
        · rintro _ h
          simp only [Option.some.injEq] at h
          rw [← h, List.length_zipWith, h1, h2, Nat.min_self]
        · intro i
          exact masked_or p m (by omega) i
      · rename_i hz
        refine ⟨_, rfl, by simp, by simp, ?_, ?_⟩
        · rintro _ h
          simp only [Option.some.injEq] at h
          rw [← h, h1]
        · intro i
          exact any_zip_false p m (by omega) hz i

theorem coverAll_spec (aux : List (Option (List Bool))) (n : Nat) (ha : ∀ x ∈ aux, ∀ m, x = some m → m.length = n) :
    ∀ p : Option (List Bool), (∀ m, p = some m → m.length = n) →
    (coverAll p aux = .error .attributeError ∧ p = none ∧ ∃ x ∈ aux, x ≠ none) ∨
    ∃ q, coverAll p aux = .ok q ∧ (q = none ↔ p = none) ∧ (p = none → ∀ x ∈ aux, x = none) ∧
      (∀ m, q = some m → m.length = n) ∧ ∀ i, masked q i = (masked p i || aux.any fun x => masked x i) := by
  induction aux with
  | nil =>
    intro p hp
    exact Or.inr ⟨p, rfl, Iff.rfl, by simp, hp, fun i => by simp⟩
  | cons x rest ih =>
    intro p hp
    rw [coverAll]
    rcases coverAux_spec p x n hp (ha x (by simp)) with ⟨h1, h2, h3⟩ | ⟨q, h1, h2, h3, h4, h5⟩
    · rw [h1]
      exact Or.inl ⟨rfl, h2, x, by simp, h3⟩
    · rw [h1]
      simp only
      rcases ih (fun y hy => ha y (by simp [hy])) q h4 with ⟨e1, e2, y, hy, e3⟩ | ⟨r, e1, e2, e3, e4, e5⟩
      · exact Or.inl ⟨e1, h2.1 e2, y, by simp [hy], e3⟩
      · refine Or.inr ⟨r, e1, e2.trans h2, ?_, e4, ?_⟩
        · intro hn y hy
          rcases List.mem_cons.1 hy with rfl | hy
          · exact h3 hn
          · exact e3 (h2.2 hn) y hy
        · intro i
          rw [e5, h5, List.any_cons, Bool.or_assoc]

theorem clear_iff (f : IrisFile) (q : Option (List Bool))
    (hq : ∀ i, masked q i = (masked f.primaryMask i || [f.qcMask, f.ranMask, f.atmMask, f.sfcMask].any fun x => masked x i))
    (i : Nat) : masked q i = false ↔ f.clear i := by
  rw [hq]
  simp [IrisFile.clear]

/-- C98, loading: exactly the loadable files are used, with the pixels whose fields are all there. -/
theorem c98_load (f : IrisFile) (hf : f.Sized) :
    (f.Loadable ∧ ∃ file m, irisLoad f = .ok (file, m) ∧
      file = (if f.sysMasked then { f.file with sys := 0 } else f.file) ∧
      (∀ l, m = some l → l.length = f.file.qc.length) ∧ ∀ i, masked m i = false ↔ f.clear i) ∨
    (¬ f.Loadable ∧ ∃ e, irisLoad f = .error e) := by
  unfold irisLoad
  rcases coverAll_spec [f.qcMask, f.ranMask, f.atmMask, f.sfcMask] f.file.qc.length (by
      intro x hx m hm
      simp only [List.mem_cons, List.not_mem_nil, or_false] at hx
      rcases hx with rfl | rfl | rfl | rfl
      · exact hf.qc m hm
      · exact hf.ran m hm
      · exact hf.atm m hm
      · exact hf.sfc m hm) f.primaryMask hf.primary with ⟨h1, h2, x, hx, h3⟩ | ⟨q, h1, h2, h3, h4, h5⟩
  · right
    rw [h1]
    refine ⟨?_, _, rfl⟩
    rintro ⟨hl, _⟩
    obtain ⟨a1, a2, a3, a4, _⟩ := hl h2
    simp only [List.mem_cons, List.not_mem_nil, or_false] at hx
    rcases hx with rfl | rfl | rfl | rfl
    · exact h3 a1
    · exact h3 a2
    · exact h3 a3
    · exact h3 a4
  · rw [h1]
    simp only
    have hclear := clear_iff f q h5
    by_cases hs : f.sysMasked = true
    · rw [if_pos hs]
      cases q with
      | none =>
        right
        refine ⟨?_, _, rfl⟩
        rintro ⟨hl, _⟩
        have := (hl (h2.1 rfl)).2.2.2.2
        rw [hs] at this
        exact absurd this (by simp)
      | some p =>
        simp only
        by_cases hp : p.any not = true
        · right
          rw [if_pos hp]
          refine ⟨?_, _, rfl⟩
          rintro ⟨_, hl⟩
          obtain ⟨b, hb, hnot⟩ := List.any_eq_true.1 hp
          obtain ⟨i, hi⟩ := List.mem_iff_getElem?.1 hb
          have hlt : i < p.length := (List.getElem?_eq_some_iff.1 hi).1
          apply hl hs i (by rw [← h4 p rfl]; exact hlt)
          rw [← hclear]
          simp only [masked, Option.any_some, List.getD_eq_getElem?_getD, hi, Option.getD_some]
          simpa using hnot
        · left
          rw [if_neg hp]
          refine ⟨⟨?_, ?_⟩, _, _, rfl, by rw [if_pos hs], h4, hclear⟩
          · intro hn
            exact absurd (h2.2 hn) (by simp)
          · intro _ i hi hc
            apply hp
            rw [← hclear] at hc
            rw [List.any_eq_true]
            have hlt : i < p.length := by rw [h4 p rfl]; exact hi
            refine ⟨p[i], List.getElem_mem _, ?_⟩
            simp only [masked, Option.any_some, List.getD_eq_getElem?_getD, List.getElem?_eq_getElem hlt,
              Option.getD_some] at hc
            simp [hc]
    · rw [if_neg hs]
      left
      refine ⟨⟨?_, fun h => absurd h hs⟩, _, _, rfl, by rw [if_neg hs], h4, hclear⟩
      intro hn
      have := h3 hn
      exact ⟨this _ (by simp), this _ (by simp), this _ (by simp), this _ (by simp), by simpa using hs⟩

/-! ### Maps -/

theorem gather_at (f : SatelliteFile) (idx : List Nat) (hidx : ∀ i ∈ idx, i < f.qc.length) (l : List ℝ)
    (hl : l.length = f.qc.length) (field : Pixel → ℝ) (hf : ∀ i, field (f.pixel i) = l.getD i 0) :
    gather l idx = .ok ((idx.map f.pixel).map field) := by
  rw [gather_ok l 0 _ fun i hi => hl ▸ hidx i hi, List.map_map]
  congr 1
  apply List.map_congr_left
  intro i _
  exact (hf i).symm

/-- The grids of both programs have positive cells. -/
def Arguments.Regular (g : Arguments) : Prop := 0 < g.ys ∧ 0 < g.xs

theorem flatField_eq (g : Arguments) (hg : g.Regular) (coordinates : List (ℝ × ℝ)) :
    flatFieldIndices g.iris.latitude g.iris.longitude coordinates =
      flatIndices g.satgrid.latitude g.satgrid.longitude coordinates := by
  unfold flatFieldIndices flatIndices Arguments.iris Arguments.satgrid
  simp only
  rw [c59_field_axis _ _ hg.1.ne', c59_field_axis _ _ hg.2.ne']
  rfl

theorem mapTo_ok (g : Arguments) (hg : g.Regular) (f : SatelliteFile) (hf : f.Sized) (idx : List Nat)
    (hidx : ∀ i ∈ idx, i < f.qc.length) (r : List Nat) :
    mapTo g.iris f idx = .ok r ↔ Boxed g.satgrid (idx.map f.pixel) r := by
  unfold mapTo coordinatesAt
  rw [gather_at f idx hidx f.lat hf.2.1 Pixel.lat fun _ => rfl, gather_at f idx hidx f.lon hf.2.2.1 Pixel.lon fun _ => rfl]
  simp only
  rw [flatField_eq g hg, c59_flat _ _ hg.1 hg.2, List.zip_map', List.forall₂_map_left_iff]
  rfl

theorem filterMask_get (f : SatelliteFile) (mask filter i : Nat) (hi : i < f.qc.length) :
    (filterMask f mask filter)[i]? = some (!(decide ((f.pixel i).qc &&& mask = filter)) || safety f i) := by
  rw [filterMask, List.getElem?_map, List.getElem?_range hi]
  simp only [Option.map_some, SatelliteFile.pixel, List.getD_eq_getElem?_getD, List.getElem?_eq_getElem hi, Option.getD_some,
    Option.any_some]

theorem safety_iff (f : SatelliteFile) (i : Nat) : safety f i = false ↔ (f.pixel i).somewhere := by
  rw [safety, errorValue, Bool.or_eq_false_iff, Pixel.somewhere]
  exact ⟨fun h => ⟨of_decide_eq_false h.1, of_decide_eq_false h.2⟩, fun h => ⟨decide_eq_false h.1, decide_eq_false h.2⟩⟩

theorem mapFrom_obs (f : SatelliteFile) (mask filter : Nat) : open Classical in
    (mapFrom (filterMask f mask filter)).map f.pixel =
      f.pixels.filter fun p => decide (p.qc &&& mask = filter ∧ p.somewhere) := by
  classical
  unfold mapFrom SatelliteFile.pixels
  have hlen : (filterMask f mask filter).length = f.qc.length := by simp [filterMask]
  rw [hlen, List.filter_map]
  congr 1
  apply List.filter_congr
  intro i hi
  rw [filterMask_get f mask filter i (List.mem_range.1 hi)]
  have := safety_iff f i
  simp only [Option.any_some, Function.comp]
  by_cases h1 : (f.pixel i).qc &&& mask = filter <;> by_cases h2 : (f.pixel i).somewhere
  · simp [h1, h2, this.2 h2]
  · have h3 : safety f i = true := by
      cases h : safety f i
      · exact absurd (this.1 h) h2
      · rfl
    simp [h1, h2, h3]
  · simp [h1]
  · simp [h1]

theorem mapFrom_valid (f : SatelliteFile) (m : Option (List Bool)) (hm : ∀ l, m = some l → l.length = f.qc.length)
    (mask filter : Nat) : open Classical in
    (mapFrom (applyFilter m (filterMask f mask filter))).map f.pixel =
      (((List.range f.qc.length).filter fun i => decide (masked m i = false)).map f.pixel).filter fun p =>
        decide (p.qc &&& mask = filter ∧ p.somewhere) := by
  classical
  have hlen : (filterMask f mask filter).length = f.qc.length := by simp [filterMask]
  rw [List.filter_map, List.filter_filter]
  have hl : (applyFilter m (filterMask f mask filter)).length = f.qc.length := by
    unfold applyFilter
    split
    · rw [List.length_zipWith, hlen, hm _ rfl, Nat.min_self]
    · exact hlen
  unfold mapFrom
  rw [hl]
  congr 1
  apply List.filter_congr
  intro i hi
  have hi := List.mem_range.1 hi
  have hget : (applyFilter m (filterMask f mask filter))[i]? =
      some (masked m i || (!(decide ((f.pixel i).qc &&& mask = filter)) || safety f i)) := by
    unfold applyFilter
    split
    · rename_i l
      have hil : i < l.length := by rw [hm l rfl]; exact hi
      rw [List.getElem?_zipWith, filterMask_get f mask filter i hi, List.getElem?_eq_getElem hil]
      simp only [masked, Option.any_some, List.getD_eq_getElem?_getD, List.getElem?_eq_getElem hil, Option.getD_some]
    · rw [filterMask_get f mask filter i hi]
      simp [masked]
  rw [hget]
  have := safety_iff f i
  simp only [Option.any_some, Function.comp]
  by_cases h1 : (f.pixel i).qc &&& mask = filter <;> by_cases h2 : (f.pixel i).somewhere <;> cases h4 : masked m i
  · simp [h1, h2, this.2 h2]
  · simp
  · have h3 : safety f i = true := by
      cases h : safety f i
      · exact absurd (this.1 h) h2
      · rfl
    simp [h1, h2, h3]
  · simp
  · simp [h1]
  · simp
  · simp [h1]
  · simp

theorem mapFrom_lt (f : SatelliteFile) (m : Option (List Bool)) (hm : ∀ l, m = some l → l.length = f.qc.length)
    (mask filter i : Nat) (h : i ∈ mapFrom (applyFilter m (filterMask f mask filter))) : i < f.qc.length := by
  have hlen : (filterMask f mask filter).length = f.qc.length := by simp [filterMask]
  have hl : (applyFilter m (filterMask f mask filter)).length = f.qc.length := by
    unfold applyFilter
    split
    · rw [List.length_zipWith, hlen, hm _ rfl, Nat.min_self]
    · exact hlen
  have := List.mem_range.1 (List.mem_filter.1 h).1
  omega

theorem mapFrom_obs_lt (f : SatelliteFile) (mask filter i : Nat) (h : i ∈ mapFrom (filterMask f mask filter)) :
    i < f.qc.length := by
  have hlen : (filterMask f mask filter).length = f.qc.length := by simp [filterMask]
  have := List.mem_range.1 (List.mem_filter.1 h).1
  omega

/-! ### Loops -/

/-- The pixels which a loaded file gives: valid ones and those of interest. -/
structure Gives (g : Arguments) (x : SatelliteFile × Option (List Bool)) (valid obs : List Pixel) : Prop where
  sized : x.1.Sized
  mask : ∀ l, x.2 = some l → l.length = x.1.qc.length
  validEq : (mapFrom (applyFilter x.2 (filterMask x.1 g.maskValid g.filterValid))).map x.1.pixel = valid
  obsEq : (mapFrom (filterMask x.1 g.maskObs g.filterObs)).map x.1.pixel = obs
  boxes : ∀ p, p ∈ valid ∨ p ∈ obs → ∃ k, Located g.satgrid p k

/-- The grid after some files, which gave these pixels. -/
structure Seen (g : Arguments) (s : Bins) (valid obs : List Pixel) : Prop where
  total : ∀ k, s.total k = (inBox g.satgrid obs k).length
  stats : ∀ k, s.stats k = ((inBox g.satgrid valid k).map Pixel.value).foldl Stats.add ⟨0, 0, 10 ^ 20, -10 ^ 20⟩
  ran : ∀ k, s.ran k = ((inBox g.satgrid valid k).map fun p => p.ran * p.ran).sum
  atm : ∀ k, s.atm k = ((inBox g.satgrid valid k).map fun p => p.atm * p.atm).sum
  sfc : ∀ k, s.sfc k = ((inBox g.satgrid valid k).map fun p => p.sfc * p.sfc).sum
  sys : ∀ k, s.sys k = ((inBox g.satgrid valid k).map fun p => p.sys * p.sys).sum
  seen : ∀ k, s.seen k = true ↔ inBox g.satgrid valid k ≠ []
  devSq : s.devSq = fun _ => 0
  seenDev : s.seenDev = fun _ => false

theorem sumCountMaxMin_eq : sumCountMaxMin = Stats.add := by
  funext s x
  unfold sumCountMaxMin Stats.add
  simp only [Stats.mk.injEq, true_and]
  constructor
  · split
    · rename_i h
      exact min_eq_right h.le
    · rename_i h
      exact min_eq_left (not_lt.1 h)
  · split
    · rename_i h
      exact max_eq_right h.le
    · rename_i h
      exact max_eq_left (not_lt.1 h)

theorem foldl_sq (l : List ℝ) (b : ℝ) : l.foldl (fun b x => b + x * x) b = b + (l.map fun x => x * x).sum := by
  induction l generalizing b with
  | nil => simp
  | cons x rest ih => rw [List.foldl_cons, ih, List.map_cons, List.sum_cons]; ring

theorem boxed_mem (a : Aggregator) (ha : a.Regular) (sel : List Pixel) (boxes : List Nat) (hb : Boxed a sel boxes) (k : Nat) :
    k ∈ boxes ↔ inBox a sel k ≠ [] := by
  have := pick a ha sel boxes hb (fun _ => ()) k
  constructor
  · intro hk hn
    rw [hn, List.map_nil, List.map_eq_nil_iff, List.filter_eq_nil_iff] at this
    obtain ⟨i, hi⟩ := List.mem_iff_getElem?.1 hk
    have hlen : (sel.map fun _ => ()).length = boxes.length := by rw [List.length_map, hb.length_eq]
    have hlt : i < boxes.length := (List.getElem?_eq_some_iff.1 hi).1
    apply this (k, ())
    · rw [List.mem_iff_getElem?]
      refine ⟨i, ?_⟩
      rw [List.getElem?_zip_eq_some]
      exact ⟨hi, by rw [List.getElem?_eq_getElem (by omega)]⟩
    · simp
  · intro hne
    by_contra hk
    apply hne
    rw [← List.map_eq_nil_iff (f := fun _ => ()), ← this, List.map_eq_nil_iff, List.filter_eq_nil_iff]
    intro p hp
    simp only [decide_eq_true_eq]
    rintro rfl
    exact hk (List.of_mem_zip hp).1

theorem irisFirst_ok (g : Arguments) (hg : g.Regular) (s : Bins) (x : SatelliteFile × Option (List Bool))
    (valid obs valid0 obs0 : List Pixel) (hx : Gives g x valid obs) (hs : Seen g s valid0 obs0) :
    ∃ s', irisFirst g.iris s x.1 x.2 = .ok s' ∧ Seen g s' (valid0 ++ valid) (obs0 ++ obs) := by
  obtain ⟨f, m⟩ := x
  have hreg : g.satgrid.Regular := hg
  obtain ⟨hsz, hm, hv, ho, hc⟩ := hx
  simp only at hsz hm hv ho hc
  obtain ⟨mapto, hb⟩ := boxed_exists g.satgrid valid fun p hp => hc p (Or.inl hp)
  obtain ⟨obto, hob⟩ := boxed_exists g.satgrid obs fun p hp => hc p (Or.inr hp)
  have hlt := mapFrom_lt f m hm g.maskValid g.filterValid
  have e1 := (mapTo_ok g hg f hsz _ (mapFrom_obs_lt f g.maskObs g.filterObs) obto).2 (by rw [ho]; exact hob)
  have e2 := (mapTo_ok g hg f hsz _ hlt mapto).2 (by rw [hv]; exact hb)
  have e3 := gather_at f _ hlt f.lst hsz.1 Pixel.value fun _ => rfl
  have e4 := gather_at f _ hlt f.ran hsz.2.2.2.1 Pixel.ran fun _ => rfl
  have e5 := gather_at f _ hlt f.atm hsz.2.2.2.2.1 Pixel.atm fun _ => rfl
  have e6 := gather_at f _ hlt f.sfc hsz.2.2.2.2.2 Pixel.sfc fun _ => rfl
  rw [hv] at e3 e4 e5 e6
  have hsys : ∀ p ∈ valid, p.sys * p.sys = f.sys * f.sys := by
    intro p hp
    rw [← hv] at hp
    obtain ⟨i, _, rfl⟩ := List.mem_map.1 hp
    rfl
  unfold irisFirst
  simp only [show g.iris.maskValid = g.maskValid from rfl, show g.iris.filterValid = g.filterValid from rfl,
    show g.iris.maskObs = g.maskObs from rfl, show g.iris.filterObs = g.filterObs from rfl]
  rw [e1, e2]
  simp only
  rw [e3, e4, e5, e6]
  refine ⟨_, rfl, ?_, ?_, ?_, ?_, ?_, ?_, ?_, hs.devSq, hs.seenDev⟩ <;> intro k <;> simp only
  · rw [scatter_get, constant_zip g.satgrid obs obto hob () (fun _ => ()) (fun _ _ => rfl), pick g.satgrid hreg obs obto hob,
      foldl_unit, List.length_map, hs.total, inBox_append, List.length_append]
  · rw [scatter_get, pick g.satgrid hreg valid mapto hb, sumCountMaxMin_eq, hs.stats, inBox_append, List.map_append,
      List.foldl_append]
  · rw [scatter_get, pick g.satgrid hreg valid mapto hb, foldl_sq, List.map_map, hs.ran, inBox_append, List.map_append,
      List.sum_append]
    rfl
  · rw [scatter_get, pick g.satgrid hreg valid mapto hb, foldl_sq, List.map_map, hs.atm, inBox_append, List.map_append,
      List.sum_append]
    rfl
  · rw [scatter_get, pick g.satgrid hreg valid mapto hb, foldl_sq, List.map_map, hs.sfc, inBox_append, List.map_append,
      List.sum_append]
    rfl
  · rw [scatter_get, constant_zip g.satgrid valid mapto hb (f.sys * f.sys) (fun p => p.sys * p.sys) hsys,
      pick g.satgrid hreg valid mapto hb, foldl_add, hs.sys, inBox_append, List.map_append, List.sum_append]
  · rw [unmask, Bool.or_eq_true, hs.seen, decide_eq_true_eq, boxed_mem g.satgrid hreg valid mapto hb, inBox_append, ne_eq,
      ne_eq, ne_eq, List.append_eq_nil_iff]
    tauto

theorem irisFirst_loop (g : Arguments) (hg : g.Regular) (pixels : IrisFile → List Pixel × List Pixel)
    (l : List ((SatelliteFile × Option (List Bool)) × IrisFile))
    (hl : ∀ x ∈ l, Gives g x.1 (pixels x.2).1 (pixels x.2).2) : ∀ (s : Bins) (valid0 obs0 : List Pixel), Seen g s valid0 obs0 →
    ∃ s', irisLoop (irisFirst g.iris) s (l.map Prod.fst) = .ok s' ∧
      Seen g s' (valid0 ++ l.flatMap fun x => (pixels x.2).1) (obs0 ++ l.flatMap fun x => (pixels x.2).2) := by
  induction l with
  | nil =>
    intro s valid0 obs0 hs
    refine ⟨s, rfl, ?_⟩
    simpa using hs
  | cons x rest ih =>
    intro s valid0 obs0 hs
    obtain ⟨s1, e1, h1⟩ := irisFirst_ok g hg s x.1 _ _ _ _ (hl x (by simp)) hs
    obtain ⟨s2, e2, h2⟩ := ih (fun y hy => hl y (by simp [hy])) s1 _ _ h1
    refine ⟨s2, ?_, ?_⟩
    · rw [List.map_cons, irisLoop, e1]
      exact e2
    · rw [List.flatMap_cons, List.flatMap_cons, ← List.append_assoc, ← List.append_assoc]
      exact h2

theorem irisSecond_loop (g : Arguments) (hg : g.Regular) (mean : Nat → ℝ) (pixels : IrisFile → List Pixel × List Pixel)
    (l : List ((SatelliteFile × Option (List Bool)) × IrisFile))
    (hl : ∀ x ∈ l, Gives g x.1 (pixels x.2).1 (pixels x.2).2) : ∀ (s : Bins),
    ∃ s', irisLoop (irisSecond g.iris mean) s (l.map Prod.fst) = .ok s' ∧ s'.total = s.total ∧ s'.stats = s.stats ∧
      s'.ran = s.ran ∧ s'.atm = s.atm ∧ s'.sfc = s.sfc ∧ s'.sys = s.sys ∧ s'.seen = s.seen ∧
      (∀ k, s'.devSq k = s.devSq k + ((inBox g.satgrid (l.flatMap fun x => (pixels x.2).1) k).map fun p =>
        (p.value - mean k) * (p.value - mean k)).sum) ∧
      (∀ k, s'.seenDev k = true ↔ s.seenDev k = true ∨ inBox g.satgrid (l.flatMap fun x => (pixels x.2).1) k ≠ []) := by
  have hreg : g.satgrid.Regular := hg
  induction l with
  | nil =>
    intro s
    exact ⟨s, rfl, rfl, rfl, rfl, rfl, rfl, rfl, rfl, by simp [inBox], by simp [inBox]⟩
  | cons x rest ih =>
    intro s
    obtain ⟨⟨f, m⟩, o⟩ := x
    obtain ⟨hsz, hm, hv, ho, hc⟩ := hl _ List.mem_cons_self
    simp only at hsz hm hv ho hc
    obtain ⟨mapto, hb⟩ := boxed_exists g.satgrid (pixels o).1 fun p hp => hc p (Or.inl hp)
    have hlt := mapFrom_lt f m hm g.maskValid g.filterValid
    have e2 := (mapTo_ok g hg f hsz _ hlt mapto).2 (by rw [hv]; exact hb)
    have e3 := gather_at f _ hlt f.lst hsz.1 Pixel.value fun _ => rfl
    rw [hv] at e3
    have h1 : irisSecond g.iris mean s f m = .ok { s with
        devSq := scatter (fun b x => b + x) s.devSq ((mapto.zip ((pixels o).1.map Pixel.value)).map fun p =>
          (p.1, (p.2 - mean p.1) * (p.2 - mean p.1)))
        seenDev := unmask s.seenDev mapto } := by
      unfold irisSecond
      simp only [show g.iris.maskValid = g.maskValid from rfl, show g.iris.filterValid = g.filterValid from rfl]
      rw [e2, e3]
    obtain ⟨s2, h2, a1, a2, a3, a4, a5, a6, a7, a8, a9⟩ := ih (fun y hy => hl y (by simp [hy])) { s with
        devSq := scatter (fun b x => b + x) s.devSq ((mapto.zip ((pixels o).1.map Pixel.value)).map fun p =>
          (p.1, (p.2 - mean p.1) * (p.2 - mean p.1)))
        seenDev := unmask s.seenDev mapto }
    refine ⟨s2, by rw [List.map_cons, irisLoop, h1]; exact h2, a1, a2, a3, a4, a5, a6, a7, ?_, ?_⟩
    · intro k
      rw [a8]
      simp only
      rw [scatter_get, pick_dev g.satgrid hreg _ mapto hb, foldl_add, List.flatMap_cons, inBox_append, List.map_append,
        List.sum_append, add_assoc]
    · intro k
      rw [a9]
      simp only
      rw [unmask, Bool.or_eq_true, decide_eq_true_eq, boxed_mem g.satgrid hreg _ mapto hb, List.flatMap_cons, inBox_append, ne_eq,
        ne_eq, ne_eq, List.append_eq_nil_iff]
      tauto

/-- The pixels of interest of a file, as loaded. -/
noncomputable def obsOf (g : Arguments) (f : IrisFile) : List Pixel :=
  open Classical in
  ((if f.sysMasked then { f.file with sys := 0 } else f.file : SatelliteFile).pixels).filter fun p =>
    decide (p.qc &&& g.maskObs = g.filterObs ∧ p.somewhere)

theorem gives_of_load (g : Arguments) (f : IrisFile) (hf : f.Sized) (hl : f.Loadable)
    (hc : ∀ p, p ∈ f.valid g.maskValid g.filterValid ∨ p ∈ f.obs g.maskObs g.filterObs → ∃ k, Located g.satgrid p k) :
    ∃ x, irisLoad f = .ok x ∧ Gives g x (f.valid g.maskValid g.filterValid) (obsOf g f) ∧
      (∀ k, (inBox g.satgrid (obsOf g f) k).length = (inBox g.satgrid (f.obs g.maskObs g.filterObs) k).length) := by
  classical
  rcases c98_load f hf with ⟨_, file, m, h1, h2, h3, h4⟩ | ⟨h, _⟩
  · refine ⟨(file, m), h1, ?_⟩
    have hqc : file.qc = f.file.qc := by rw [h2]; split <;> rfl
    have hsz : file.Sized := by
      have := hf.file
      rw [h2]
      split
      · exact this
      · exact this
    have hpix : ∀ i, (file.pixel i).qc = (f.file.pixel i).qc ∧ (file.pixel i).lat = (f.file.pixel i).lat ∧
        (file.pixel i).lon = (f.file.pixel i).lon := by
      intro i
      rw [h2]
      split <;> exact ⟨rfl, rfl, rfl⟩
    have hval : ((((List.range file.qc.length).filter fun i => decide (masked m i = false)).map file.pixel).filter fun p =>
        decide (p.qc &&& g.maskValid = g.filterValid ∧ p.somewhere)) = f.valid g.maskValid g.filterValid := by
      unfold IrisFile.valid
      rw [hqc]
      by_cases hs : f.sysMasked = true
      · have hno := hl.2 hs
        have e1 : ((List.range f.file.qc.length).filter fun i => decide (masked m i = false)) = [] := by
          rw [List.filter_eq_nil_iff]
          intro i hi
          simp only [decide_eq_true_eq]
          rw [h4]
          exact hno i (List.mem_range.1 hi)
        have e2 : ((List.range f.file.qc.length).filter fun i => decide (f.clear i)) = [] := by
          rw [List.filter_eq_nil_iff]
          intro i hi
          simp only [decide_eq_true_eq]
          exact hno i (List.mem_range.1 hi)
        rw [e1, e2]
        rfl
      · rw [h2, if_neg hs]
        congr 2
        apply List.filter_congr
        intro i _
        simp only [h4]
    have hobs : ∀ k, (inBox g.satgrid (file.pixels.filter fun p =>
        decide (p.qc &&& g.maskObs = g.filterObs ∧ p.somewhere)) k).length =
        (inBox g.satgrid (f.obs g.maskObs g.filterObs) k).length := by
      intro k
      unfold inBox IrisFile.obs SatelliteFile.pixels
      rw [hqc]
      simp only [List.filter_map, List.filter_filter, List.length_map]
      congr 1
      apply List.filter_congr
      intro i _
      obtain ⟨a1, a2, a3⟩ := hpix i
      simp only [Function.comp, Located, Pixel.somewhere, a1, a2, a3]
      congr 1 <;> exact decide_eq_decide.2 Iff.rfl
    have hof : obsOf g f = file.pixels.filter fun p => decide (p.qc &&& g.maskObs = g.filterObs ∧ p.somewhere) := by
      rw [h2]
      rfl
    rw [hof]
    refine ⟨⟨hsz, by rw [hqc]; exact h3, (mapFrom_valid file m (by rw [hqc]; exact h3) _ _).trans hval,
      mapFrom_obs file _ _, ?_⟩, hobs⟩
    rintro p (hp | hp)
    · exact hc p (Or.inl hp)
    · obtain ⟨hp1, hp2⟩ := List.mem_filter.1 hp
      obtain ⟨i, hi, rfl⟩ := List.mem_map.1 hp1
      obtain ⟨a1, a2, a3⟩ := hpix i
      have hp2 : (file.pixel i).qc &&& g.maskObs = g.filterObs ∧ (file.pixel i).somewhere := by simpa using hp2
      obtain ⟨k, hk⟩ := hc (f.file.pixel i) (Or.inr (List.mem_filter.2 ⟨List.mem_map.2 ⟨i, by rw [← hqc]; exact hi, rfl⟩, by
        simpa [Pixel.somewhere, ← a1, ← a2, ← a3] using hp2⟩))
      exact ⟨k, by simpa [Located, a2, a3] using hk⟩
  · exact absurd hl h

/-- The loaded file. -/
def loadedOf (f : IrisFile) : SatelliteFile × Option (List Bool) :=
  match irisLoad f with
  | .ok x => x
  | .error _ => (f.file, none)

theorem loaded_eq (files : List (Option IrisFile)) (hf : ∀ f ∈ files.filterMap id, f.Sized) :
    (files.filterMap fun f => f.bind fun f => (irisLoad f).toOption) = (usable files).map loadedOf := by
  classical
  unfold usable
  induction files with
  | nil => rfl
  | cons f rest ih =>
    cases f with
    | none =>
      rw [List.filterMap_cons_none rfl, List.filterMap_cons_none rfl]
      exact ih fun f h => hf f (by simpa using h)
    | some f =>
      have ih := ih fun f' h => hf f' (by
        rw [List.filterMap_cons_some (b := f) (f := id) rfl]
        exact List.mem_cons_of_mem _ h)
      rw [List.filterMap_cons_some (b := f) (f := id) rfl]
      rcases c98_load f (hf f (by simp)) with ⟨h1, file, m, h2, _⟩ | ⟨h1, e, h2⟩
      · rw [List.filter_cons_of_pos (by simpa using h1), List.map_cons, ← ih]
        rw [List.filterMap_cons_some (b := loadedOf f)]
        simp [loadedOf, h2, Except.toOption]
      · rw [List.filter_cons_of_neg (by simpa using h1), ← ih, List.filterMap_cons_none]
        simp [h2, Except.toOption]

/-! ### Theorems -/

theorem inBox_flatMap (a : Aggregator) (l : List IrisFile) (h : IrisFile → List Pixel) (k : Nat) :
    inBox a (l.flatMap h) k = l.flatMap fun f => inBox a (h f) k := by
  induction l with
  | nil => rfl
  | cons f rest ih => rw [List.flatMap_cons, List.flatMap_cons, inBox_append, ih]

/-- C98: for any files, of which those that cannot be used are left out, the fields say of every box exactly what follows from the
pixels in it, and are masked where there is nothing to say. -/
theorem c98_fields (g : Arguments) (hg : g.Regular) (files : List (Option IrisFile)) (hf : ∀ f ∈ files.filterMap id, f.Sized)
    (hne : usable files ≠ [])
    (hc : ∀ f ∈ usable files, ∀ p, p ∈ f.valid g.maskValid g.filterValid ∨ p ∈ f.obs g.maskObs g.filterObs →
      ∃ k, Located g.satgrid p k)
    (hv : ∀ f ∈ usable files, ∀ p ∈ f.valid g.maskValid g.filterValid, |p.value| ≤ 10 ^ 20) :
    ∃ o, irisRun g.iris files = .ok (some o) ∧ ∀ k, DescribesMasked o k
      (inBox g.satgrid ((usable files).flatMap fun f => f.valid g.maskValid g.filterValid) k)
      (inBox g.satgrid ((usable files).flatMap fun f => f.obs g.maskObs g.filterObs) k) := by
  classical
  have husable : ∀ f ∈ usable files, f.Sized ∧ f.Loadable := by
    intro f h
    obtain ⟨h1, h2⟩ := List.mem_filter.1 h
    exact ⟨hf f h1, by simpa using h2⟩
  have hgives : ∀ f ∈ usable files, Gives g (loadedOf f) (f.valid g.maskValid g.filterValid) (obsOf g f) ∧
      ∀ k, (inBox g.satgrid (obsOf g f) k).length = (inBox g.satgrid (f.obs g.maskObs g.filterObs) k).length := by
    intro f h
    obtain ⟨x, e, h1, h2⟩ := gives_of_load g f (husable f h).1 (husable f h).2 (hc f h)
    have : loadedOf f = x := by simp [loadedOf, e]
    rw [this]
    exact ⟨h1, h2⟩
  have hl : ∀ x ∈ (usable files).map fun f => (loadedOf f, f),
      Gives g x.1 (x.2.valid g.maskValid g.filterValid, obsOf g x.2).1 (x.2.valid g.maskValid g.filterValid, obsOf g x.2).2 := by
    intro x hx
    obtain ⟨f, h, rfl⟩ := List.mem_map.1 hx
    exact (hgives f h).1
  have hmap : ((usable files).map fun f => (loadedOf f, f)).map Prod.fst = (usable files).map loadedOf := by
    rw [List.map_map]
    rfl
  obtain ⟨s, e1, hs⟩ := irisFirst_loop g hg (fun f => (f.valid g.maskValid g.filterValid, obsOf g f)) _ hl Bins.empty [] []
    ⟨fun _ => rfl, fun _ => rfl, fun _ => rfl, fun _ => rfl, fun _ => rfl, fun _ => rfl, fun k => by simp [Bins.empty, inBox],
      rfl, rfl⟩
  obtain ⟨s', e2, t1, t2, t3, t4, t5, t6, t7, t8, t9⟩ := irisSecond_loop g hg (fun k => (s.mean k).getD 0)
    (fun f => (f.valid g.maskValid g.filterValid, obsOf g f)) _ hl s
  rw [hmap] at e1 e2
  refine ⟨postprocess s', ?_, ?_⟩
  · unfold irisRun
    simp only
    rw [loaded_eq files hf, if_neg (by simpa using hne), e1]
    simp only
    rw [e2]
  intro k
  have hvalid : ((usable files).map fun f => (loadedOf f, f)).flatMap (fun x => x.2.valid g.maskValid g.filterValid) =
      (usable files).flatMap fun f => f.valid g.maskValid g.filterValid := by
    rw [List.flatMap_map]
  have hobs : (inBox g.satgrid (((usable files).map fun f => (loadedOf f, f)).flatMap (fun x => obsOf g x.2)) k).length =
      (inBox g.satgrid ((usable files).flatMap fun f => f.obs g.maskObs g.filterObs) k).length := by
    rw [List.flatMap_map, inBox_flatMap, inBox_flatMap, List.length_flatMap, List.length_flatMap]
    congr 1
    apply List.map_congr_left
    intro f h
    exact (hgives f h).2 k
  have etotal := hs.total k
  have estats := hs.stats k
  have eran := hs.ran k
  have eatm := hs.atm k
  have esfc := hs.sfc k
  have esys := hs.sys k
  have eseen := hs.seen k
  have edev := t8 k
  have eseend := t9 k
  rw [hs.devSq] at edev
  rw [hs.seenDev] at eseend
  simp only [List.nil_append, hvalid, zero_add, Bool.false_eq_true, false_or] at etotal estats eran eatm esfc esys eseen edev eseend
  rw [hobs] at etotal
  have hv' : ∀ p ∈ inBox g.satgrid ((usable files).flatMap fun f => f.valid g.maskValid g.filterValid) k,
      |p.value| ≤ 10 ^ 20 := by
    intro p hp
    obtain ⟨f, h, hp⟩ := List.mem_flatMap.1 (List.mem_filter.1 hp).1
    exact hv f h p hp
  generalize inBox g.satgrid ((usable files).flatMap fun f => f.valid g.maskValid g.filterValid) k = valid at *
  generalize inBox g.satgrid ((usable files).flatMap fun f => f.obs g.maskObs g.filterObs) k = obs at *
  have hcount : (s.stats k).count = valid.length := by rw [estats, stats_count]; simp
  have hsum : (s.stats k).sum = (valid.map Pixel.value).sum := by rw [estats, stats_sum]; simp
  have hlen0 : valid ≠ [] → (valid.length : ℝ) ≠ 0 := by
    intro h
    have : valid.length ≠ 0 := by simpa using h
    exact_mod_cast this
  have hmean : valid ≠ [] → s.mean k = some ((valid.map Pixel.value).sum / valid.length) := by
    intro h
    rw [Bins.mean, maskedDiv, hcount, hsum, if_pos ⟨eseen.2 h, hlen0 h⟩]
  have hvar : 2 ≤ valid.length → maskedDiv (s'.seenDev k) (s'.devSq k) ((s'.stats k).count - 1) =
      some ((valid.map fun p => (p.value - (valid.map Pixel.value).sum / valid.length) ^ 2).sum / (valid.length - 1 : ℝ)) := by
    intro h2
    have hne : valid ≠ [] := by
      rintro rfl
      simp at h2
    have h1 : (valid.length : ℝ) - 1 ≠ 0 := by
      have : (2 : ℝ) ≤ valid.length := by exact_mod_cast h2
      linarith
    rw [maskedDiv, t2, hcount, if_pos ⟨eseend.2 hne, h1⟩, edev, hmean hne]
    congr 4
    funext p
    rw [Option.getD_some, sq]
  have hfew : valid.length < 2 → maskedDiv (s'.seenDev k) (s'.devSq k) ((s'.stats k).count - 1) = none := by
    intro hlt
    rw [maskedDiv, t2, hcount, if_neg]
    rintro ⟨h1, h2⟩
    have hne := eseend.1 h1
    have : valid.length ≠ 0 := by simpa using hne
    have h3 : valid.length = 1 := by omega
    apply h2
    rw [h3]
    norm_num
  constructor
  · show (s'.stats k).count = _
    rw [t2, hcount]
  · show s'.total k = _
    rw [t1, etotal]
  · intro h0
    have : s.seen k = false := by
      cases h : s.seen k
      · rfl
      · exact absurd h0 (eseen.1 h)
    simp [postprocess, Bins.mean, maskedDiv, t7, this]
  · intro h
    show s'.mean k = _
    rw [Bins.mean, t7, t2]
    exact hmean h
  · intro h
    refine ⟨(s.stats k).min, by simp [postprocess, t7, t2, eseen.2 h], ?_⟩
    obtain ⟨m1, m2, m3⟩ := stats_min (valid.map Pixel.value) ⟨0, 0, 10 ^ 20, -10 ^ 20⟩
    rw [← estats] at m1 m2 m3
    have hlow : ∀ p ∈ valid, (s.stats k).min ≤ p.value := fun p hp => m1 _ (List.mem_map.2 ⟨p, hp, rfl⟩)
    refine ⟨?_, ?_⟩
    · rcases m3 with m3 | m3
      · obtain ⟨p, hp⟩ := List.exists_mem_of_ne_nil valid h
        refine ⟨p, hp, le_antisymm ?_ (hlow p hp)⟩
        rw [m3]
        exact le_trans (le_abs_self _) (hv' p hp)
      · obtain ⟨p, hp, hx⟩ := List.mem_map.1 m3
        exact ⟨p, hp, hx⟩
    · rintro x ⟨p, hp, rfl⟩
      exact hlow p hp
  · intro h
    refine ⟨(s.stats k).max, by simp [postprocess, t7, t2, eseen.2 h], ?_⟩
    obtain ⟨m1, m2, m3⟩ := stats_max (valid.map Pixel.value) ⟨0, 0, 10 ^ 20, -10 ^ 20⟩
    rw [← estats] at m1 m2 m3
    have hlow : ∀ p ∈ valid, p.value ≤ (s.stats k).max := fun p hp => m1 _ (List.mem_map.2 ⟨p, hp, rfl⟩)
    refine ⟨?_, ?_⟩
    · rcases m3 with m3 | m3
      · obtain ⟨p, hp⟩ := List.exists_mem_of_ne_nil valid h
        refine ⟨p, hp, le_antisymm (hlow p hp) ?_⟩
        rw [m3]
        exact (abs_le.1 (hv' p hp)).1
      · obtain ⟨p, hp, hx⟩ := List.mem_map.1 m3
        exact ⟨p, hp, hx⟩
    · rintro x ⟨p, hp, rfl⟩
      exact hlow p hp
  · intro h
    show (maskedDiv (s'.seen k) (s'.ran k) ((s'.stats k).count * (s'.stats k).count)).map Real.sqrt = _
    rw [t7, t2, t3, maskedDiv, hcount, if_pos ⟨eseen.2 h, mul_ne_zero (hlen0 h) (hlen0 h)⟩, eran, Option.map_some, ← sq,
      Real.sqrt_div', Real.sqrt_sq (Nat.cast_nonneg _)]
    · simp only [sq]
    · positivity
  · intro h
    show (maskedDiv (s'.seen k) (s'.atm k) (s'.stats k).count).map Real.sqrt = _
    rw [t7, t2, t4, maskedDiv, hcount, if_pos ⟨eseen.2 h, hlen0 h⟩, eatm, Option.map_some]
    simp only [sq]
  · intro h
    show (maskedDiv (s'.seen k) (s'.sfc k) (s'.stats k).count).map Real.sqrt = _
    rw [t7, t2, t5, maskedDiv, hcount, if_pos ⟨eseen.2 h, hlen0 h⟩, esfc, Option.map_some]
    simp only [sq]
  · intro h
    show (maskedDiv (s'.seen k) (s'.sys k) (s'.stats k).count).map Real.sqrt = _
    rw [t7, t2, t6, maskedDiv, hcount, if_pos ⟨eseen.2 h, hlen0 h⟩, esys, Option.map_some]
    simp only [sq]
  · intro hlt
    simp only [postprocess]
    rw [hfew hlt]
    exact ⟨rfl, rfl⟩
  · intro h2
    exact hvar h2
  · intro h2 h1
    simp only [postprocess]
    rw [hvar h2, Option.bind_some, maskedDiv, t1, etotal, t2, hcount, if_pos]
    refine ⟨rfl, ?_⟩
    intro h
    apply h1
    have : (obs.length : ℝ) = 1 := by linarith
    exact_mod_cast this
  · intro h1
    simp only [postprocess]
    rw [t1, etotal, h1]
    cases maskedDiv (s'.seenDev k) (s'.devSq k) ((s'.stats k).count - 1) with
    | none => rfl
    | some v => simp [maskedDiv]

/-- C98, both programs: for files without masks and without coordinates which stand for errors, satgrid and satgrid_iris with the
same arguments give the same fields, with `-1` in the one where there is a mask in the other. -/
theorem c98_agree (g : Arguments) (hg : g.Regular) (hm : g.maskValid &&& g.maskObs = g.maskObs)
    (hfl : g.filterValid &&& g.maskObs = g.filterObs) (files : List (Option SatelliteFile)) (hne : files.filterMap id ≠ [])
    (hf : ∀ f ∈ files.filterMap id, f.Sized) (hc : Covered g.satgrid (files.filterMap id))
    (hgood : ∀ f ∈ files.filterMap id, ∀ p ∈ f.pixels, p.somewhere)
    (hv : ∀ p ∈ validPixels g.satgrid (files.filterMap id), |p.value| ≤ 10 ^ 20) :
    ∃ o o', run g.satgrid files = .ok (some o) ∧
      irisRun g.iris (files.map fun f => f.map fun f => ⟨f, none, none, none, none, none, false⟩) = .ok (some o') ∧
      ∀ k, o'.number k = o.first.number k ∧ o'.total k = o.total k ∧ (o'.mean k).getD (-1) = o.first.mean k ∧
        (o'.min k).getD (-1) = o.first.min k ∧ (o'.max k).getD (-1) = o.first.max k ∧ (o'.ran k).getD (-1) = o.first.ran k ∧
        (o'.atm k).getD (-1) = o.first.atm k ∧ (o'.sfc k).getD (-1) = o.first.sfc k ∧ (o'.sys k).getD (-1) = o.first.sys k ∧
        (o'.variance k).getD (-1) = o.variance k ∧ (o'.sampling k).getD (-1) = o.sampling k := by
  classical
  have hmax : (10 : ℝ) ^ 20 ≤ floatMax := by
    rw [floatMax]
    norm_num
  obtain ⟨o, h1, h2⟩ := c60_fields g.satgrid hg files hne hf hc fun p hp => le_trans (hv p hp) hmax
  have hid : (files.map fun f => f.map fun f => (⟨f, none, none, none, none, none, false⟩ : IrisFile)).filterMap id =
      (files.filterMap id).map fun f => ⟨f, none, none, none, none, none, false⟩ := by
    rw [List.filterMap_map, List.map_filterMap]
    rfl
  have hus : usable (files.map fun f => f.map fun f => ⟨f, none, none, none, none, none, false⟩) =
      (files.filterMap id).map fun f => ⟨f, none, none, none, none, none, false⟩ := by
    unfold usable
    rw [hid, List.filter_eq_self]
    intro f h
    obtain ⟨f, _, rfl⟩ := List.mem_map.1 h
    simp [IrisFile.Loadable]
  have hclear : ∀ (f : SatelliteFile) i, (⟨f, none, none, none, none, none, false⟩ : IrisFile).clear i := by
    intro f i
    exact ⟨rfl, rfl, rfl, rfl, rfl⟩
  have hpix : ∀ f ∈ files.filterMap id, ∀ mask filter,
      (⟨f, none, none, none, none, none, false⟩ : IrisFile).obs mask filter = flagged mask filter [f] ∧
      (⟨f, none, none, none, none, none, false⟩ : IrisFile).valid mask filter = flagged mask filter [f] := by
    intro f h mask filter
    have key : f.pixels.filter (fun p => decide (p.qc &&& mask = filter ∧ p.somewhere)) = flagged mask filter [f] := by
      unfold flagged
      rw [List.flatMap_cons, List.flatMap_nil, List.append_nil]
      apply List.filter_congr
      intro p hp
      have := hgood f h p hp
      simp [this]
    refine ⟨key, ?_⟩
    rw [← key]
    unfold IrisFile.valid SatelliteFile.pixels
    congr 2
    rw [List.filter_eq_self]
    intro i _
    simpa using hclear f i
  have hflat : ∀ mask filter, (files.filterMap id).flatMap (fun f => flagged mask filter [f]) =
      flagged mask filter (files.filterMap id) := by
    intro mask filter
    generalize files.filterMap id = l
    induction l with
    | nil => rfl
    | cons f rest ih => rw [List.flatMap_cons, ih, ← flagged_cons]
  have hvalid : (usable (files.map fun f => f.map fun f => ⟨f, none, none, none, none, none, false⟩)).flatMap
      (fun f => f.valid g.maskValid g.filterValid) = validPixels g.satgrid (files.filterMap id) := by
    rw [hus, List.flatMap_map]
    rw [show validPixels g.satgrid (files.filterMap id) = flagged g.maskValid g.filterValid (files.filterMap id) from rfl,
      ← hflat]
    apply List.flatMap_congr
    intro f h
    exact (hpix f h _ _).2
  have hobs : (usable (files.map fun f => f.map fun f => ⟨f, none, none, none, none, none, false⟩)).flatMap
      (fun f => f.obs g.maskObs g.filterObs) = obsPixels g.satgrid (files.filterMap id) := by
    rw [hus, List.flatMap_map]
    rw [show obsPixels g.satgrid (files.filterMap id) = flagged g.maskObs g.filterObs (files.filterMap id) from rfl,
      ← hflat]
    apply List.flatMap_congr
    intro f h
    exact (hpix f h _ _).1
  obtain ⟨o', h1', h2'⟩ := c98_fields g hg (files.map fun f => f.map fun f => ⟨f, none, none, none, none, none, false⟩)
    (by
      intro f h
      rw [hid] at h
      obtain ⟨f, hmem, rfl⟩ := List.mem_map.1 h
      exact ⟨hf f hmem, by simp, by simp, by simp, by simp, by simp⟩)
    (by
      rw [hus]
      simpa using hne)
    (by
      intro f h p hp
      apply hc p
      rw [← hvalid, ← hobs]
      rcases hp with hp | hp
      · exact Or.inl (List.mem_flatMap.2 ⟨f, h, hp⟩)
      · exact Or.inr (List.mem_flatMap.2 ⟨f, h, hp⟩))
    (by
      intro f h p hp
      apply hv p
      rw [← hvalid]
      exact List.mem_flatMap.2 ⟨f, h, hp⟩)
  rw [hvalid, hobs] at h2'
  refine ⟨o, o', h1, h1', ?_⟩
  intro k
  have a := h2 k
  have b := h2' k
  have hle := (c60_sampling g.satgrid hm hfl (files.filterMap id) o k a).1
  rw [a.number, a.total] at hle
  generalize inBox g.satgrid (validPixels g.satgrid (files.filterMap id)) k = valid at a b hle
  generalize inBox g.satgrid (obsPixels g.satgrid (files.filterMap id)) k = obs at a b hle
  have hvar : (o'.variance k).getD (-1) = o.variance k ∧ (o'.sampling k).getD (-1) = o.sampling k := by
    by_cases h : 2 ≤ valid.length
    · rw [b.variance h, b.sampling h (by omega), a.sampling h, a.variance h]
      exact ⟨rfl, rfl⟩
    · rw [(b.few (by omega)).1, (b.few (by omega)).2, (a.few (by omega)).1, (a.few (by omega)).2]
      exact ⟨rfl, rfl⟩
  refine ⟨by rw [a.number, b.number], by rw [a.total, b.total], ?_⟩
  by_cases h : valid = []
  · obtain ⟨a1, a2, a3, a4, a5, a6, a7⟩ := a.empty h
    obtain ⟨b1, b2, b3, b4, b5, b6, b7⟩ := b.empty h
    exact ⟨by rw [a1, b1]; rfl, by rw [a2, b2]; rfl, by rw [a3, b3]; rfl, by rw [a4, b4]; rfl, by rw [a5, b5]; rfl,
      by rw [a6, b6]; rfl, by rw [a7, b7]; rfl, hvar⟩
  · obtain ⟨x, hx, hx'⟩ := b.min h
    obtain ⟨y, hy, hy'⟩ := b.max h
    refine ⟨by rw [a.mean h, b.mean h]; rfl, ?_, ?_, by rw [a.ran h, b.ran h]; rfl, by rw [a.atm h, b.atm h]; rfl,
      by rw [a.sfc h, b.sfc h]; rfl, by rw [a.sys h, b.sys h]; rfl, hvar⟩
    · rw [hx]
      exact hx'.unique (a.min h)
    · rw [hy]
      exact hy'.unique (a.max h)

/-- C98 fails for files whose primary field is complete while another field is not: the whole file is left out. -/
theorem c98_complete_violated (f : IrisFile) (h : f.primaryMask = none) (m : List Bool) (hm : f.ranMask = some m)
    (hq : f.qcMask = none) : irisLoad f = .error .attributeError := by
  simp [irisLoad, coverAll, coverAux, h, hm, hq]

/-- C98, coordinates which stand for errors: satgrid refuses all files, satgrid_iris leaves the pixels out (`c98_fields`). -/
theorem c98_error_coordinates_violated (g : Arguments) (hg : g.Regular) (hstart : -32768 ≤ g.y0 - g.ys)
    (files : List (Option SatelliteFile)) (hf : ∀ f ∈ files.filterMap id, f.Sized) (p : Pixel)
    (hp : p ∈ validPixels g.satgrid (files.filterMap id)) (hlat : p.lat = -32768) :
    run g.satgrid files = .error .valueError := by
  apply c60_refused g.satgrid hg files hf
  intro hc
  obtain ⟨k, ⟨_, hk⟩, _⟩ := hc p (Or.inl hp)
  have hys : 0 < g.ys := hg.1
  rw [hlat] at hk
  rcases hk with ⟨h1, _⟩ | ⟨_, h1, _⟩ | ⟨_, _, h1, _⟩
  · have : g.y0 + ((k / g.satgrid.longitude.length : Nat) : ℝ) * g.ys ≤ -32768 := h1
    have h0 : (0 : ℝ) ≤ ((k / g.satgrid.longitude.length : Nat) : ℝ) * g.ys := mul_nonneg (Nat.cast_nonneg _) hys.le
    linarith
  · have : g.y0 - g.ys < -32768 := h1
    linarith
  · have : g.y0 + (g.yn : ℝ) * g.ys ≤ -32768 := h1
    have h0 : (0 : ℝ) ≤ (g.yn : ℝ) * g.ys := mul_nonneg (Nat.cast_nonneg _) hys.le
    linarith

/-- The arguments by default, with a pixel of two in the file masked. -/
example : ∃ o, irisRun (⟨-90, 1 / 4, 720, -180, 1 / 4, 1440, true, 1, 0, 7, 0⟩ : Arguments).iris
    [none, some ⟨⟨[0, 0], [280, 281], [1 / 8, 1 / 8], [1 / 8, 1 / 8], [1, 1], [1, 1], [1, 1], 1⟩, some [false, false], none,
      some [false, true], none, none, false⟩] = .ok (some o) := by
  have hus : usable [none, some ⟨⟨[0, 0], [280, 281], [1 / 8, 1 / 8], [1 / 8, 1 / 8], [1, 1], [1, 1], [1, 1], 1⟩,
      some [false, false], none, some [false, true], none, none, false⟩] =
      [⟨⟨[0, 0], [280, 281], [1 / 8, 1 / 8], [1 / 8, 1 / 8], [1, 1], [1, 1], [1, 1], 1⟩, some [false, false], none,
        some [false, true], none, none, false⟩] := by
    unfold usable
    rw [List.filter_eq_self.2]
    · rfl
    · intro f hf
      simp only [List.filterMap_cons, id, List.filterMap_nil, List.mem_singleton] at hf
      subst hf
      simp [IrisFile.Loadable]
  have hall : ∀ p ∈ (⟨[0, 0], [280, 281], [1 / 8, 1 / 8], [1 / 8, 1 / 8], [1, 1], [1, 1], [1, 1], 1⟩ : SatelliteFile).pixels,
      |p.value| ≤ 10 ^ 20 ∧ p.lat = 1 / 8 ∧ p.lon = 1 / 8 := by
    intro p hp
    obtain ⟨i, hi, rfl⟩ := List.mem_map.1 hp
    have := List.mem_range.1 hi
    simp only [List.length_cons, List.length_nil] at this
    rcases (by omega : i = 0 ∨ i = 1) with rfl | rfl <;> norm_num [SatelliteFile.pixel]
  obtain ⟨o, h, _⟩ := c98_fields ⟨-90, 1 / 4, 720, -180, 1 / 4, 1440, true, 1, 0, 7, 0⟩ ⟨by norm_num, by norm_num⟩
    [none, some ⟨⟨[0, 0], [280, 281], [1 / 8, 1 / 8], [1 / 8, 1 / 8], [1, 1], [1, 1], [1, 1], 1⟩, some [false, false], none,
      some [false, true], none, none, false⟩]
    (by
      intro f hf
      simp only [List.filterMap_cons, id, List.filterMap_nil, List.mem_singleton] at hf
      subst hf
      constructor <;> simp [SatelliteFile.Sized])
    (by rw [hus]; simp)
    (by
      intro f hf p hp
      rw [hus, List.mem_singleton] at hf
      subst hf
      have : p ∈ (⟨[0, 0], [280, 281], [1 / 8, 1 / 8], [1 / 8, 1 / 8], [1, 1], [1, 1], [1, 1], 1⟩ : SatelliteFile).pixels := by
        rcases hp with hp | hp
        · have hp := (List.mem_filter.1 hp).1
          obtain ⟨i, hi, rfl⟩ := List.mem_map.1 hp
          exact List.mem_map.2 ⟨i, (List.mem_filter.1 hi).1, rfl⟩
        · exact (List.mem_filter.1 hp).1
      obtain ⟨_, h1, h2⟩ := hall p this
      refine ⟨360 * 1440 + 720, ⟨?_, Or.inl ?_⟩, ⟨?_, Or.inl ?_⟩⟩ <;>
      norm_num [Arguments.satgrid, axisOfArguments, InCell, h1, h2])
    (by
      intro f hf p hp
      rw [hus, List.mem_singleton] at hf
      subst hf
      have hp := (List.mem_filter.1 hp).1
      obtain ⟨i, hi, rfl⟩ := List.mem_map.1 hp
      exact (hall _ (List.mem_map.2 ⟨i, (List.mem_filter.1 hi).1, rfl⟩)).1)
  exact ⟨o, h⟩

end Verif.Eustace.Satgrid
