import Verif.Eustace.Satgrid.Model
import Verif.Eustace.ObsSource.Props
import Mathlib.Algebra.BigOperators.Group.List.Basic
import Mathlib.Algebra.BigOperators.Group.Finset.Piecewise
import Mathlib.Algebra.BigOperators.Group.Finset.Basic
import Mathlib.Order.Bounds.Basic

/-!
C60: what the aggregation of satellite files computes.
-/

namespace Verif.Eustace.Satgrid

open Verif Verif.Eustace.ObsSource

/-! ### Specification -/

/-- One pixel of a file. -/
structure Pixel where
  qc : Nat
  value : ℝ
  lat : ℝ
  lon : ℝ
  ran : ℝ
  atm : ℝ
  sfc : ℝ
  sys : ℝ

/-- All variables of a file have the same number of pixels. -/
def SatelliteFile.Sized (f : SatelliteFile) : Prop :=
  f.lst.length = f.qc.length ∧ f.lat.length = f.qc.length ∧ f.lon.length = f.qc.length ∧ f.ran.length = f.qc.length ∧
    f.atm.length = f.qc.length ∧ f.sfc.length = f.qc.length

/-- Pixel `i` of a file. -/
def SatelliteFile.pixel (f : SatelliteFile) (i : Nat) : Pixel :=
  ⟨f.qc.getD i 0, f.lst.getD i 0, f.lat.getD i 0, f.lon.getD i 0, f.ran.getD i 0, f.atm.getD i 0, f.sfc.getD i 0, f.sys⟩

/-- The pixels of a file. -/
def SatelliteFile.pixels (f : SatelliteFile) : List Pixel := (List.range f.qc.length).map f.pixel

/-- The pixels of several files with given quality flags. -/
def flagged (mask filter : Nat) (files : List SatelliteFile) : List Pixel :=
  (files.flatMap SatelliteFile.pixels).filter fun p => decide (p.qc &&& mask = filter)

/-- A pixel is put in a box of the grid: rows of latitude after each other. -/
def Located (a : Aggregator) (p : Pixel) (g : Nat) : Prop :=
  PutAt a.latitude.start a.latitude.increment a.latitude.length a.latitude.wrap p.lat (g / a.longitude.length) ∧
  PutAt a.longitude.start a.longitude.increment a.longitude.length a.longitude.wrap p.lon (g % a.longitude.length)

/-- The pixels of a list in a box. -/
noncomputable def inBox (a : Aggregator) (l : List Pixel) (g : Nat) : List Pixel :=
  open Classical in l.filter fun p => decide (Located a p g)

/-- The pixels of all files which are valid. -/
def validPixels (a : Aggregator) (files : List SatelliteFile) : List Pixel := flagged a.maskValid a.filterValid files

/-- The pixels of all files which are of interest. -/
def obsPixels (a : Aggregator) (files : List SatelliteFile) : List Pixel := flagged a.maskObs a.filterObs files

/-- The grid has cells of positive size, and all pixels which are looked at lie on it. -/
def Covered (a : Aggregator) (files : List SatelliteFile) : Prop :=
  ∀ p, p ∈ validPixels a files ∨ p ∈ obsPixels a files → ∃ g, Located a p g

/-- What the output says about a box, from its valid pixels and its pixels of interest. -/
structure Describes (o : Output) (g : Nat) (valid obs : List Pixel) : Prop where
  number : o.first.number g = valid.length
  total : o.total g = obs.length
  empty : valid = [] → o.first.mean g = -1 ∧ o.first.min g = -1 ∧ o.first.max g = -1 ∧ o.first.ran g = -1 ∧
    o.first.atm g = -1 ∧ o.first.sfc g = -1 ∧ o.first.sys g = -1
  mean : valid ≠ [] → o.first.mean g = (valid.map Pixel.value).sum / valid.length
  min : valid ≠ [] → IsLeast {x | ∃ p ∈ valid, p.value = x} (o.first.min g)
  max : valid ≠ [] → IsGreatest {x | ∃ p ∈ valid, p.value = x} (o.first.max g)
  ran : valid ≠ [] → o.first.ran g = Real.sqrt ((valid.map fun p => p.ran ^ 2).sum) / valid.length
  atm : valid ≠ [] → o.first.atm g = Real.sqrt ((valid.map fun p => p.atm ^ 2).sum / valid.length)
  sfc : valid ≠ [] → o.first.sfc g = Real.sqrt ((valid.map fun p => p.sfc ^ 2).sum / valid.length)
  sys : valid ≠ [] → o.first.sys g = Real.sqrt ((valid.map fun p => p.sys ^ 2).sum / valid.length)
  few : valid.length < 2 → o.variance g = -1 ∧ o.sampling g = -1
  variance : 2 ≤ valid.length →
    o.variance g = (valid.map fun p => (p.value - (valid.map Pixel.value).sum / valid.length) ^ 2).sum / (valid.length - 1)
  sampling : 2 ≤ valid.length →
    o.sampling g = (obs.length - valid.length) * Real.sqrt (o.variance g) / (obs.length - 1)

/-! ### Lemmas -/

theorem scatter_get {α β : Type} (op : β → α → β) (bins : Nat → β) (l : List (Nat × α)) (g : Nat) :
    scatter op bins l g = ((l.filter fun p => decide (p.1 = g)).map Prod.snd).foldl op (bins g) := by
  induction l generalizing bins with
  | nil => rfl
  | cons p rest ih =>
    rw [scatter, ih]
    by_cases h : p.1 = g
    · rw [List.filter_cons_of_pos (by simpa using h)]
      subst h
      simp
    · rw [List.filter_cons_of_neg (by simpa using h), Function.update_of_ne (Ne.symm h)]

theorem put_unique (start step : ℝ) (hs : 0 < step) (n : Nat) (wrap : Bool) (v : ℝ) (i j : Nat)
    (hi : PutAt start step n wrap v i) (hj : PutAt start step n wrap v j) : i = j := by
  have h1 := (wrapped_range start step hs n wrap v i hi.1).2 hi
  have h2 := (wrapped_range start step hs n wrap v j hj.1).2 hj
  rw [h1] at h2
  exact_mod_cast h2

/-- The cells of both axes have positive size. -/
def Aggregator.Regular (a : Aggregator) : Prop := 0 < a.latitude.increment ∧ 0 < a.longitude.increment

theorem located_unique (a : Aggregator) (ha : a.Regular) (p : Pixel) (i j : Nat) (hi : Located a p i) (hj : Located a p j) :
    i = j := by
  have h1 := put_unique _ _ ha.1 _ _ _ _ _ hi.1 hj.1
  have h2 := put_unique _ _ ha.2 _ _ _ _ _ hi.2 hj.2
  rw [← Nat.div_add_mod i a.longitude.length, ← Nat.div_add_mod j a.longitude.length, h1, h2]

/-- Boxes of a list of pixels. -/
def Boxed (a : Aggregator) (sel : List Pixel) (boxes : List Nat) : Prop := List.Forall₂ (Located a) sel boxes

theorem pick {γ : Type} (a : Aggregator) (ha : a.Regular) (sel : List Pixel) (boxes : List Nat) (hb : Boxed a sel boxes)
    (h : Pixel → γ) (g : Nat) :
    ((boxes.zip (sel.map h)).filter fun p => decide (p.1 = g)).map Prod.snd = (inBox a sel g).map h := by
  unfold inBox
  induction hb with
  | nil => rfl
  | @cons p b sel boxes h0 _ ih =>
    rw [List.map_cons, List.zip_cons_cons]
    by_cases hg : b = g
    · rw [List.filter_cons_of_pos (by simpa using hg), List.filter_cons_of_pos (by simpa [← hg] using h0)]
      simp [ih]
    · rw [List.filter_cons_of_neg (by simpa using hg), List.filter_cons_of_neg]
      · exact ih
      · simp only [decide_eq_true_eq]
        exact fun hl => hg (located_unique a ha p b g h0 hl)

theorem constant_zip {γ : Type} (a : Aggregator) (sel : List Pixel) (boxes : List Nat) (hb : Boxed a sel boxes) (k : γ)
    (h : Pixel → γ) (hk : ∀ p ∈ sel, h p = k) : (boxes.map fun i => (i, k)) = boxes.zip (sel.map h) := by
  induction hb with
  | nil => rfl
  | cons h0 _ ih =>
    rw [List.map_cons, List.map_cons, List.zip_cons_cons, ih fun p hp => hk p (by simp [hp]), hk _ (by simp)]

theorem pick_dev (a : Aggregator) (ha : a.Regular) (sel : List Pixel) (boxes : List Nat) (hb : Boxed a sel boxes)
    (mean : Nat → ℝ) (g : Nat) :
    ((((boxes.zip (sel.map Pixel.value)).map fun p => (p.1, (p.2 - mean p.1) * (p.2 - mean p.1))).filter
      fun p => decide (p.1 = g)).map Prod.snd) =
    (inBox a sel g).map fun p => (p.value - mean g) * (p.value - mean g) := by
  unfold inBox
  induction hb with
  | nil => rfl
  | @cons p b sel boxes h0 _ ih =>
    rw [List.map_cons, List.zip_cons_cons, List.map_cons]
    by_cases hg : b = g
    · rw [List.filter_cons_of_pos (by simpa using hg), List.filter_cons_of_pos (by simpa [← hg] using h0)]
      simp [ih, hg]
    · rw [List.filter_cons_of_neg (by simpa using hg), List.filter_cons_of_neg]
      · exact ih
      · simp only [decide_eq_true_eq]
        exact fun hl => hg (located_unique a ha p b g h0 hl)

theorem foldl_add (l : List ℝ) (b : ℝ) : l.foldl (fun b x => b + x) b = b + l.sum := by
  induction l generalizing b with
  | nil => simp
  | cons x rest ih => rw [List.foldl_cons, ih, List.sum_cons]; ring

theorem qcIndices_lt (qc : List Nat) (mask filter i : Nat) (h : i ∈ qcIndices qc mask filter) : i < qc.length :=
  List.mem_range.1 (List.mem_filter.1 h).1

/-- The pixels with given flags, by their indices. -/
theorem qc_pixels (f : SatelliteFile) (mask filter : Nat) :
    (qcIndices f.qc mask filter).map f.pixel = flagged mask filter [f] := by
  unfold qcIndices flagged SatelliteFile.pixels
  rw [List.flatMap_cons, List.flatMap_nil, List.append_nil, List.filter_map]
  congr 1
  apply List.filter_congr
  intro i hi
  have hi := List.mem_range.1 hi
  rw [List.getElem?_eq_getElem hi]
  simp only [Option.any_some, Function.comp, SatelliteFile.pixel, List.getD_eq_getElem?_getD, List.getElem?_eq_getElem hi,
    Option.getD_some]

theorem gather_field (f : SatelliteFile) (mask filter : Nat) (l : List ℝ) (hl : l.length = f.qc.length) (field : Pixel → ℝ)
    (hf : ∀ i, field (f.pixel i) = l.getD i 0) :
    gather l (qcIndices f.qc mask filter) = .ok ((flagged mask filter [f]).map field) := by
  rw [gather_ok l 0 _ fun i hi => hl ▸ qcIndices_lt _ _ _ _ hi, ← qc_pixels, List.map_map]
  congr 1
  apply List.map_congr_left
  intro i _
  exact (hf i).symm

theorem boxesAt_ok (a : Aggregator) (ha : a.Regular) (f : SatelliteFile) (hf : f.Sized) (mask filter : Nat) (r : List Nat) :
    boxesAt a f (qcIndices f.qc mask filter) = .ok r ↔ Boxed a (flagged mask filter [f]) r := by
  unfold boxesAt coordinatesAt
  rw [gather_field f mask filter f.lat hf.2.1 Pixel.lat fun _ => rfl,
    gather_field f mask filter f.lon hf.2.2.1 Pixel.lon fun _ => rfl]
  simp only
  rw [c59_flat _ _ ha.1 ha.2, List.zip_map', List.forall₂_map_left_iff]
  rfl

theorem flagged_cons (mask filter : Nat) (f : SatelliteFile) (rest : List SatelliteFile) :
    flagged mask filter (f :: rest) = flagged mask filter [f] ++ flagged mask filter rest := by
  simp [flagged]

theorem inBox_append (a : Aggregator) (l m : List Pixel) (g : Nat) : inBox a (l ++ m) g = inBox a l g ++ inBox a m g := by
  simp [inBox]

theorem boxed_exists (a : Aggregator) (l : List Pixel) (h : ∀ p ∈ l, ∃ g, Located a p g) : ∃ r, Boxed a l r := by
  induction l with
  | nil => exact ⟨[], .nil⟩
  | cons p rest ih =>
    obtain ⟨g, hg⟩ := h p (by simp)
    obtain ⟨r, hr⟩ := ih fun q hq => h q (by simp [hq])
    exact ⟨g :: r, .cons hg hr⟩

/-- The state after the first pass. -/
structure First (a : Aggregator) (s0 s : Collected) (files : List SatelliteFile) : Prop where
  stats : ∀ g, s.output.stats g = ((inBox a (validPixels a files) g).map Pixel.value).foldl Stats.add (s0.output.stats g)
  ran : ∀ g, s.output.ran g = s0.output.ran g + ((inBox a (validPixels a files) g).map fun p => p.ran * p.ran).sum
  atm : ∀ g, s.output.atm g = s0.output.atm g + ((inBox a (validPixels a files) g).map fun p => p.atm * p.atm).sum
  sfc : ∀ g, s.output.sfc g = s0.output.sfc g + ((inBox a (validPixels a files) g).map fun p => p.sfc * p.sfc).sum
  sys : ∀ g, s.output.sys g = s0.output.sys g + ((inBox a (validPixels a files) g).map fun p => p.sys * p.sys).sum
  obs : ∀ g, s.obs g = s0.obs g + (inBox a (obsPixels a files) g).length
  devSq : s.devSq = s0.devSq

theorem pixel_sys (f : SatelliteFile) (mask filter : Nat) (p : Pixel) (hp : p ∈ flagged mask filter [f]) : p.sys = f.sys := by
  rw [← qc_pixels] at hp
  obtain ⟨i, _, rfl⟩ := List.mem_map.1 hp
  rfl

theorem aggregateSum_get (a : Aggregator) (ha : a.Regular) (sel : List Pixel) (boxes : List Nat) (hb : Boxed a sel boxes)
    (bins : Nat → ℝ) (field : Pixel → ℝ) (g : Nat) :
    aggregateSum bins ((sel.map field).map fun x => x * x) boxes g =
      bins g + ((inBox a sel g).map fun p => field p * field p).sum := by
  rw [aggregateSum, scatter_get, List.map_map, pick a ha sel boxes hb, foldl_add]
  rfl

theorem foldl_unit (l : List Unit) (b : Nat) : l.foldl (fun b _ => b + 1) b = b + l.length := by
  induction l generalizing b with
  | nil => rfl
  | cons x rest ih => rw [List.foldl_cons, ih, List.length_cons]; omega

theorem aggregateFile_ok (a : Aggregator) (ha : a.Regular) (s : Collected) (f : SatelliteFile) (hf : f.Sized)
    (hc : Covered a [f]) : ∃ s', aggregateFile a s f = .ok s' ∧ First a s s' [f] := by
  obtain ⟨boxes, hb⟩ := boxed_exists a (validPixels a [f]) fun p hp => hc p (Or.inl hp)
  obtain ⟨obs, ho⟩ := boxed_exists a (obsPixels a [f]) fun p hp => hc p (Or.inr hp)
  unfold aggregateFile
  simp only
  rw [gather_field f a.maskValid a.filterValid f.lst hf.1 Pixel.value fun _ => rfl,
    gather_field f a.maskValid a.filterValid f.ran hf.2.2.2.1 Pixel.ran fun _ => rfl,
    gather_field f a.maskValid a.filterValid f.atm hf.2.2.2.2.1 Pixel.atm fun _ => rfl,
    gather_field f a.maskValid a.filterValid f.sfc hf.2.2.2.2.2 Pixel.sfc fun _ => rfl,
    (boxesAt_ok a ha f hf a.maskValid a.filterValid boxes).2 hb, (boxesAt_ok a ha f hf a.maskObs a.filterObs obs).2 ho]
  refine ⟨_, rfl, ?_, ?_, ?_, ?_, ?_, ?_, rfl⟩
  · intro g
    show aggregateCountSumMinMax s.output.stats ((validPixels a [f]).map Pixel.value) boxes g = _
    rw [aggregateCountSumMinMax, scatter_get, pick a ha _ boxes hb]
  · exact fun g => aggregateSum_get a ha _ boxes hb _ _ g
  · exact fun g => aggregateSum_get a ha _ boxes hb _ _ g
  · exact fun g => aggregateSum_get a ha _ boxes hb _ _ g
  · intro g
    show aggregateConstant _ _ _ g = _
    rw [aggregateConstant, scatter_get, constant_zip a _ boxes hb (f.sys * f.sys) (fun p => p.sys * p.sys)
      (fun p hp => by rw [pixel_sys f _ _ p hp]), pick a ha _ boxes hb, foldl_add]
  · intro g
    show aggregateCount _ _ g = _
    rw [aggregateCount, scatter_get, constant_zip a _ obs ho () (fun _ => ()) (fun p hp => rfl), pick a ha _ obs ho, foldl_unit,
      List.length_map]

theorem covered_cons (a : Aggregator) (f : SatelliteFile) (rest : List SatelliteFile) (h : Covered a (f :: rest)) :
    Covered a [f] ∧ Covered a rest := by
  unfold Covered validPixels obsPixels at h ⊢
  rw [flagged_cons, flagged_cons a.maskObs] at h
  constructor
  · intro p hp
    exact h p (by rcases hp with hp | hp <;> simp [hp])
  · intro p hp
    exact h p (by rcases hp with hp | hp <;> simp [hp])

theorem firstPass (a : Aggregator) (ha : a.Regular) (s : Collected) (files : List SatelliteFile) (hf : ∀ f ∈ files, f.Sized)
    (hc : Covered a files) : ∃ s', forFiles (aggregateFile a) s files = .ok s' ∧ First a s s' files := by
  induction files generalizing s with
  | nil =>
    refine ⟨s, rfl, ?_⟩
    constructor <;> simp [validPixels, obsPixels, flagged, inBox]
  | cons f rest ih =>
    obtain ⟨hc1, hc2⟩ := covered_cons a f rest hc
    obtain ⟨s1, h1, e1⟩ := aggregateFile_ok a ha s f (hf f (by simp)) hc1
    obtain ⟨s2, h2, e2⟩ := ih s1 (fun f hf' => hf f (by simp [hf'])) hc2
    refine ⟨s2, by rw [forFiles, h1]; exact h2, ?_⟩
    have hv : ∀ g, inBox a (validPixels a (f :: rest)) g = inBox a (validPixels a [f]) g ++ inBox a (validPixels a rest) g := by
      intro g
      rw [validPixels, flagged_cons, inBox_append]
      rfl
    have ho : ∀ g, inBox a (obsPixels a (f :: rest)) g = inBox a (obsPixels a [f]) g ++ inBox a (obsPixels a rest) g := by
      intro g
      rw [obsPixels, flagged_cons, inBox_append]
      rfl
    constructor
    · intro g
      rw [e2.stats, e1.stats, hv, List.map_append, List.foldl_append]
    · intro g
      rw [e2.ran, e1.ran, hv, List.map_append, List.sum_append, add_assoc]
    · intro g
      rw [e2.atm, e1.atm, hv, List.map_append, List.sum_append, add_assoc]
    · intro g
      rw [e2.sfc, e1.sfc, hv, List.map_append, List.sum_append, add_assoc]
    · intro g
      rw [e2.sys, e1.sys, hv, List.map_append, List.sum_append, add_assoc]
    · intro g
      rw [e2.obs, e1.obs, ho, List.length_append, add_assoc]
    · rw [e2.devSq, e1.devSq]

theorem secondPass (a : Aggregator) (ha : a.Regular) (mean : Nat → ℝ) (s : Collected) (files : List SatelliteFile)
    (hf : ∀ f ∈ files, f.Sized) (hc : Covered a files) : ∃ s', forFiles (aggregateSecond a mean) s files = .ok s' ∧
    s'.output = s.output ∧ s'.obs = s.obs ∧
    ∀ g, s'.devSq g = s.devSq g +
      ((inBox a (validPixels a files) g).map fun p => (p.value - mean g) * (p.value - mean g)).sum := by
  induction files generalizing s with
  | nil =>
    exact ⟨s, rfl, rfl, rfl, by simp [validPixels, flagged, inBox]⟩
  | cons f rest ih =>
    obtain ⟨hc1, hc2⟩ := covered_cons a f rest hc
    obtain ⟨boxes, hb⟩ := boxed_exists a (validPixels a [f]) fun p hp => hc1 p (Or.inl hp)
    have h1 : aggregateSecond a mean s f = .ok { s with
        devSq := aggregateSumDevSq s.devSq mean ((validPixels a [f]).map Pixel.value) boxes } := by
      unfold aggregateSecond
      simp only
      rw [gather_field f a.maskValid a.filterValid f.lst (hf f (by simp)).1 Pixel.value fun _ => rfl,
        (boxesAt_ok a ha f (hf f (by simp)) a.maskValid a.filterValid boxes).2 hb]
      rfl
    obtain ⟨s2, h2, e1, e2, e3⟩ := ih { s with
        devSq := aggregateSumDevSq s.devSq mean ((validPixels a [f]).map Pixel.value) boxes }
      (fun f hf' => hf f (by simp [hf'])) hc2
    refine ⟨s2, by rw [forFiles, h1]; exact h2, e1, e2, ?_⟩
    intro g
    rw [e3]
    simp only
    rw [aggregateSumDevSq, scatter_get, pick_dev a ha _ boxes hb, foldl_add]
    have hv : inBox a (validPixels a (f :: rest)) g = inBox a (validPixels a [f]) g ++ inBox a (validPixels a rest) g := by
      rw [validPixels, flagged_cons, inBox_append]
      rfl
    rw [hv, List.map_append, List.sum_append, add_assoc]

theorem stats_count (l : List ℝ) (s : Stats) : (l.foldl Stats.add s).count = s.count + l.length := by
  induction l generalizing s with
  | nil => rfl
  | cons x rest ih => rw [List.foldl_cons, ih]; simp only [Stats.add, List.length_cons]; omega

theorem stats_sum (l : List ℝ) (s : Stats) : (l.foldl Stats.add s).sum = s.sum + l.sum := by
  induction l generalizing s with
  | nil => simp
  | cons x rest ih => rw [List.foldl_cons, ih]; simp only [Stats.add, List.sum_cons]; ring

theorem stats_min (l : List ℝ) (s : Stats) : (∀ x ∈ l, (l.foldl Stats.add s).min ≤ x) ∧ (l.foldl Stats.add s).min ≤ s.min ∧
    ((l.foldl Stats.add s).min = s.min ∨ (l.foldl Stats.add s).min ∈ l) := by
  induction l generalizing s with
  | nil => simp
  | cons x rest ih =>
    rw [List.foldl_cons]
    obtain ⟨h1, h2, h3⟩ := ih (s.add x)
    have ha : (s.add x).min ≤ x ∧ (s.add x).min ≤ s.min ∧ ((s.add x).min = s.min ∨ (s.add x).min = x) := by
      unfold Stats.add
      simp only
      split
      · rename_i h
        exact ⟨le_refl _, h.le, Or.inr rfl⟩
      · rename_i h
        exact ⟨not_lt.1 h, le_refl _, Or.inl rfl⟩
    refine ⟨?_, le_trans h2 ha.2.1, ?_⟩
    · intro y hy
      rcases List.mem_cons.1 hy with rfl | hy
      · exact le_trans h2 ha.1
      · exact h1 y hy
    · rcases h3 with h3 | h3
      · rw [h3]
        rcases ha.2.2 with h | h
        · exact Or.inl h
        · exact Or.inr (by rw [h]; simp)
      · exact Or.inr (by simp [h3])

theorem stats_max (l : List ℝ) (s : Stats) : (∀ x ∈ l, x ≤ (l.foldl Stats.add s).max) ∧ s.max ≤ (l.foldl Stats.add s).max ∧
    ((l.foldl Stats.add s).max = s.max ∨ (l.foldl Stats.add s).max ∈ l) := by
  induction l generalizing s with
  | nil => simp
  | cons x rest ih =>
    rw [List.foldl_cons]
    obtain ⟨h1, h2, h3⟩ := ih (s.add x)
    have ha : x ≤ (s.add x).max ∧ s.max ≤ (s.add x).max ∧ ((s.add x).max = s.max ∨ (s.add x).max = x) := by
      unfold Stats.add
      simp only
      split
      · rename_i h
        exact ⟨le_refl _, h.le, Or.inr rfl⟩
      · rename_i h
        exact ⟨not_lt.1 h, le_refl _, Or.inl rfl⟩
    refine ⟨?_, le_trans ha.2.1 h2, ?_⟩
    · intro y hy
      rcases List.mem_cons.1 hy with rfl | hy
      · exact le_trans ha.1 h2
      · exact h1 y hy
    · rcases h3 with h3 | h3
      · rw [h3]
        rcases ha.2.2 with h | h
        · exact Or.inl h
        · exact Or.inr (by rw [h]; simp)
      · exact Or.inr (by simp [h3])

/-! ### Theorems -/

/-- C60: for any files whose pixels lie on the grid, the output says of every box exactly what follows from the pixels in it. -/
theorem c60_fields (a : Aggregator) (ha : a.Regular) (files : List (Option SatelliteFile)) (hne : files.filterMap id ≠ [])
    (hf : ∀ f ∈ files.filterMap id, f.Sized) (hc : Covered a (files.filterMap id))
    (hv : ∀ p ∈ validPixels a (files.filterMap id), |p.value| ≤ floatMax) : ∃ o, run a files = .ok (some o) ∧
    ∀ g, Describes o g (inBox a (validPixels a (files.filterMap id)) g) (inBox a (obsPixels a (files.filterMap id)) g) := by
  obtain ⟨s, h1, e⟩ := firstPass a ha ⟨Running.empty, fun _ => 0, fun _ => 0⟩ _ hf hc
  obtain ⟨s', h2, e1, e2, e3⟩ := secondPass a ha (s.output.computeFields flagInvalid).mean s _ hf hc
  refine ⟨secondOrder (s.output.computeFields flagInvalid) s', ?_, ?_⟩
  · unfold run
    simp only
    rw [if_neg hne, h1]
    simp only
    rw [h2]
  intro g
  have hv' : ∀ p ∈ inBox a (validPixels a (files.filterMap id)) g, |p.value| ≤ floatMax := by
    intro p hp
    exact hv p (List.mem_filter.1 hp).1
  have estats := e.stats g
  have eran := e.ran g
  have eatm := e.atm g
  have esfc := e.sfc g
  have esys := e.sys g
  have eobs := e.obs g
  have edev := e3 g
  rw [e.devSq] at edev
  simp only [Running.empty, zero_add] at estats eran eatm esfc esys eobs edev
  generalize inBox a (validPixels a (files.filterMap id)) g = valid at *
  generalize inBox a (obsPixels a (files.filterMap id)) g = obs at *
  have hcount : (s.output.stats g).count = valid.length := by rw [estats, stats_count]; simp
  have hsum : (s.output.stats g).sum = (valid.map Pixel.value).sum := by rw [estats, stats_sum]; simp
  have hmean : valid ≠ [] → (s.output.computeFields flagInvalid).mean g = (valid.map Pixel.value).sum / valid.length := by
    intro hne
    simp only [Running.computeFields]
    rw [if_pos (by rw [hcount]; simpa using hne), hcount, hsum]
  have hpos : valid ≠ [] → (s.output.stats g).count ≠ 0 := by
    intro h
    rw [hcount]
    simpa using h
  have hvar : 2 ≤ valid.length → varianceOf s' g =
      (valid.map fun p => (p.value - (valid.map Pixel.value).sum / valid.length) ^ 2).sum / (valid.length - 1) := by
    intro h2
    have hne : valid ≠ [] := by
      rintro rfl
      simp at h2
    unfold varianceOf
    rw [edev, e1, hcount, hmean hne]
    congr 3
    funext p
    rw [sq]
  constructor
  · show (if (s.output.stats g).count ≠ 0 then (s.output.stats g).count else 0) = _
    rw [hcount]
    split
    · rfl
    · rename_i h
      exact (not_not.1 h).symm
  · show s'.obs g = _
    rw [e2, eobs]
  · intro h0
    have h0 : (s.output.stats g).count = 0 := by rw [hcount, h0]; rfl
    simp [secondOrder, Running.computeFields, h0, flagInvalid]
  · exact hmean
  · intro hne
    have : (secondOrder (s.output.computeFields flagInvalid) s').first.min g = (s.output.stats g).min := by
      simp only [secondOrder, Running.computeFields]
      rw [if_pos (hpos hne)]
    rw [this]
    obtain ⟨m1, m2, m3⟩ := stats_min (valid.map Pixel.value) ⟨0, 0, floatMax, -floatMax⟩
    rw [← estats] at m1 m2 m3
    have hlow : ∀ p ∈ valid, (s.output.stats g).min ≤ p.value := fun p hp => m1 _ (List.mem_map.2 ⟨p, hp, rfl⟩)
    refine ⟨?_, ?_⟩
    · rcases m3 with m3 | m3
      · obtain ⟨p, hp⟩ := List.exists_mem_of_ne_nil valid hne
        refine ⟨p, hp, le_antisymm ?_ (hlow p hp)⟩
        rw [m3]
        exact le_trans (le_abs_self _) (hv' p hp)
      · obtain ⟨p, hp, hx⟩ := List.mem_map.1 m3
        exact ⟨p, hp, hx⟩
    · rintro x ⟨p, hp, rfl⟩
      exact hlow p hp
  · intro hne
    have : (secondOrder (s.output.computeFields flagInvalid) s').first.max g = (s.output.stats g).max := by
      simp only [secondOrder, Running.computeFields]
      rw [if_pos (hpos hne)]
    rw [this]
    obtain ⟨m1, m2, m3⟩ := stats_max (valid.map Pixel.value) ⟨0, 0, floatMax, -floatMax⟩
    rw [← estats] at m1 m2 m3
    have hlow : ∀ p ∈ valid, p.value ≤ (s.output.stats g).max := fun p hp => m1 _ (List.mem_map.2 ⟨p, hp, rfl⟩)
    refine ⟨?_, ?_⟩
    · rcases m3 with m3 | m3
      · obtain ⟨p, hp⟩ := List.exists_mem_of_ne_nil valid hne
        refine ⟨p, hp, le_antisymm (hlow p hp) ?_⟩
        rw [m3]
        have := abs_le.1 (hv' p hp)
        exact this.1
      · obtain ⟨p, hp, hx⟩ := List.mem_map.1 m3
        exact ⟨p, hp, hx⟩
    · rintro x ⟨p, hp, rfl⟩
      exact hlow p hp
  · intro hne
    simp only [secondOrder, Running.computeFields]
    rw [if_pos (hpos hne), hcount, eran, ← sq, Real.sqrt_div', Real.sqrt_sq (Nat.cast_nonneg _)]
    · simp only [sq]
    · positivity
  · intro hne
    simp only [secondOrder, Running.computeFields]
    rw [if_pos (hpos hne), hcount, eatm]
    simp only [sq]
  · intro hne
    simp only [secondOrder, Running.computeFields]
    rw [if_pos (hpos hne), hcount, esfc]
    simp only [sq]
  · intro hne
    simp only [secondOrder, Running.computeFields]
    rw [if_pos (hpos hne), hcount, esys]
    simp only [sq]
  · intro hlt
    simp only [secondOrder]
    rw [if_neg, if_neg]
    · exact ⟨rfl, rfl⟩
    · rw [e1, hcount]
      omega
    · rw [e1, hcount]
      omega
  · intro h2
    simp only [secondOrder]
    rw [if_pos (by rw [e1, hcount]; omega), hvar h2]
  · intro h2
    simp only [secondOrder]
    rw [if_pos (by rw [e1, hcount]; omega), if_pos (by rw [e1, hcount]; omega), e1, hcount, e2, eobs]

/-- The output of a box is determined by the collection of its pixels, in any order. -/
theorem c60_unique (o o' : Output) (g : Nat) (valid valid' obs obs' : List Pixel) (h : Describes o g valid obs)
    (h' : Describes o' g valid' obs') (hv : valid.Perm valid') (ho : obs.Perm obs') :
    o.first.number g = o'.first.number g ∧ o.total g = o'.total g ∧ o.first.mean g = o'.first.mean g ∧
    o.first.min g = o'.first.min g ∧ o.first.max g = o'.first.max g ∧ o.first.ran g = o'.first.ran g ∧
    o.first.atm g = o'.first.atm g ∧ o.first.sfc g = o'.first.sfc g ∧ o.first.sys g = o'.first.sys g ∧
    o.variance g = o'.variance g ∧ o.sampling g = o'.sampling g := by
  have hlen := hv.length_eq
  have hlen' := ho.length_eq
  have hvar : o.variance g = o'.variance g := by
    by_cases h2 : 2 ≤ valid.length
    · rw [h.variance h2, h'.variance (by omega), hlen, (hv.map Pixel.value).sum_eq, (hv.map _).sum_eq]
    · rw [(h.few (by omega)).1, (h'.few (by omega)).1]
  have hsam : o.sampling g = o'.sampling g := by
    by_cases h2 : 2 ≤ valid.length
    · rw [h.sampling h2, h'.sampling (by omega), hlen, hlen', hvar]
    · rw [(h.few (by omega)).2, (h'.few (by omega)).2]
  refine ⟨by rw [h.number, h'.number, hlen], by rw [h.total, h'.total, hlen'], ?_⟩
  by_cases hne : valid = []
  · have hne' : valid' = [] := by
      rw [hne] at hlen
      simpa using hlen.symm
    obtain ⟨a1, a2, a3, a4, a5, a6, a7⟩ := h.empty hne
    obtain ⟨b1, b2, b3, b4, b5, b6, b7⟩ := h'.empty hne'
    exact ⟨by rw [a1, b1], by rw [a2, b2], by rw [a3, b3], by rw [a4, b4], by rw [a5, b5], by rw [a6, b6], by rw [a7, b7],
      hvar, hsam⟩
  · have hne' : valid' ≠ [] := by
      rintro rfl
      simp at hlen
      exact hne hlen
    have hset : {x | ∃ p ∈ valid, p.value = x} = {x | ∃ p ∈ valid', p.value = x} := by
      ext x
      simp only [Set.mem_setOf_eq, hv.mem_iff]
    refine ⟨?_, ?_, ?_, ?_, ?_, ?_, ?_, hvar, hsam⟩
    · rw [h.mean hne, h'.mean hne', hlen, (hv.map _).sum_eq]
    · exact (h.min hne).unique (by rw [hset]; exact h'.min hne')
    · exact (h.max hne).unique (by rw [hset]; exact h'.max hne')
    · rw [h.ran hne, h'.ran hne', hlen, (hv.map _).sum_eq]
    · rw [h.atm hne, h'.atm hne', hlen, (hv.map _).sum_eq]
    · rw [h.sfc hne, h'.sfc hne', hlen, (hv.map _).sum_eq]
    · rw [h.sys hne, h'.sys hne', hlen, (hv.map _).sum_eq]

/-- C60, order and batches: two lists of files with the same pixels, however ordered and divided into files, give the same
output. -/
theorem c60_order (a : Aggregator) (ha : a.Regular) (files files' : List (Option SatelliteFile))
    (hne : files.filterMap id ≠ []) (hne' : files'.filterMap id ≠ [])
    (hf : ∀ f ∈ files.filterMap id, f.Sized) (hf' : ∀ f ∈ files'.filterMap id, f.Sized)
    (hp : ((files.filterMap id).flatMap SatelliteFile.pixels).Perm ((files'.filterMap id).flatMap SatelliteFile.pixels))
    (hc : Covered a (files.filterMap id))
    (hv : ∀ p ∈ validPixels a (files.filterMap id), |p.value| ≤ floatMax) : run a files = run a files' := by
  have hvalid : (validPixels a (files.filterMap id)).Perm (validPixels a (files'.filterMap id)) := hp.filter _
  have hobs : (obsPixels a (files.filterMap id)).Perm (obsPixels a (files'.filterMap id)) := hp.filter _
  obtain ⟨o, h1, h2⟩ := c60_fields a ha files hne hf hc hv
  obtain ⟨o', h1', h2'⟩ := c60_fields a ha files' hne' hf'
    (fun p h => hc p (by rw [hvalid.mem_iff, hobs.mem_iff]; exact h))
    (fun p h => hv p (by rw [hvalid.mem_iff]; exact h))
  rw [h1, h1']
  have all := fun g => c60_unique o o' g _ _ _ _ (h2 g) (h2' g) (hvalid.filter _) (hobs.filter _)
  have : o = o' := by
    obtain ⟨⟨_, _, _, _, _, _, _, _⟩, _, _, _⟩ := o
    obtain ⟨⟨_, _, _, _, _, _, _, _⟩, _, _, _⟩ := o'
    simp only at all
    simp only [Output.mk.injEq, Fields.mk.injEq]
    refine ⟨⟨?_, ?_, ?_, ?_, ?_, ?_, ?_, ?_⟩, ?_, ?_, ?_⟩ <;> funext g
    · exact (all g).2.2.1
    · exact (all g).2.2.2.1
    · exact (all g).2.2.2.2.1
    · exact (all g).2.2.2.2.2.1
    · exact (all g).2.2.2.2.2.2.1
    · exact (all g).2.2.2.2.2.2.2.1
    · exact (all g).2.2.2.2.2.2.2.2.1
    · exact (all g).1
    · exact (all g).2.1
    · exact (all g).2.2.2.2.2.2.2.2.2.1
    · exact (all g).2.2.2.2.2.2.2.2.2.2
  rw [this]

/-- The parts of a list in boxes of the grid together have its length. -/
theorem sum_inBox (a : Aggregator) (ha : a.Regular) (l : List Pixel) (h : ∀ p ∈ l, ∃ g, Located a p g) :
    ∑ g ∈ Finset.range (a.latitude.length * a.longitude.length), (inBox a l g).length = l.length := by
  induction l with
  | nil => simp [inBox]
  | cons p rest ih =>
    obtain ⟨g, hg⟩ := h p (by simp)
    have hlt : g < a.latitude.length * a.longitude.length := by
      have h1 := hg.1.1
      have h2 := hg.2.1
      exact Nat.lt_mul_of_div_lt h1 (by omega)
    have : ∀ k, (inBox a (p :: rest) k).length = (inBox a rest k).length + if k = g then 1 else 0 := by
      intro k
      unfold inBox
      by_cases hk : k = g
      · subst hk
        rw [List.filter_cons_of_pos (by simpa using hg)]
        simp
      · rw [List.filter_cons_of_neg, if_neg hk, Nat.add_zero]
        simp only [decide_eq_true_eq]
        exact fun hl => hk (located_unique a ha p k g hl hg)
    simp only [this, Finset.sum_add_distrib, Finset.sum_ite_eq', Finset.mem_range, hlt, if_true, List.length_cons]
    rw [ih fun q hq => h q (by simp [hq])]

/-- C60, every observation counts once: the numbers of all boxes add up to the numbers of pixels. -/
theorem c60_total (a : Aggregator) (ha : a.Regular) (files : List (Option SatelliteFile)) (hne : files.filterMap id ≠ [])
    (hf : ∀ f ∈ files.filterMap id, f.Sized) (hc : Covered a (files.filterMap id))
    (hv : ∀ p ∈ validPixels a (files.filterMap id), |p.value| ≤ floatMax) : ∃ o, run a files = .ok (some o) ∧
    ∑ g ∈ Finset.range (a.latitude.length * a.longitude.length), o.first.number g =
      (validPixels a (files.filterMap id)).length ∧
    ∑ g ∈ Finset.range (a.latitude.length * a.longitude.length), o.total g = (obsPixels a (files.filterMap id)).length := by
  obtain ⟨o, h1, h2⟩ := c60_fields a ha files hne hf hc hv
  refine ⟨o, h1, ?_, ?_⟩
  · rw [Finset.sum_congr rfl fun g _ => (h2 g).number]
    exact sum_inBox a ha _ fun p hp => hc p (Or.inl hp)
  · rw [Finset.sum_congr rfl fun g _ => (h2 g).total]
    exact sum_inBox a ha _ fun p hp => hc p (Or.inr hp)

theorem aggregateFile_refused (a : Aggregator) (ha : a.Regular) (s : Collected) (f : SatelliteFile) (hf : f.Sized)
    (hc : ¬ Covered a [f]) : aggregateFile a s f = .error .valueError := by
  have herr : ∀ mask filter, (¬ ∃ r, Boxed a (flagged mask filter [f]) r) →
      boxesAt a f (qcIndices f.qc mask filter) = .error .valueError := by
    intro mask filter hno
    have hno' : ∀ r, boxesAt a f (qcIndices f.qc mask filter) ≠ .ok r := fun r hr =>
      hno ⟨r, (boxesAt_ok a ha f hf mask filter r).1 hr⟩
    unfold boxesAt coordinatesAt flatIndices at hno' ⊢
    rw [gather_field f mask filter f.lat hf.2.1 Pixel.lat fun _ => rfl,
      gather_field f mask filter f.lon hf.2.2.1 Pixel.lon fun _ => rfl] at hno' ⊢
    simp only at hno' ⊢
    have ok_or : ∀ (x : GridAxis) (v : List ℝ), (∃ r, x.computeIndices v = .ok r) ∨ x.computeIndices v = .error .valueError := by
      intro x v
      by_cases hx : ∃ r, x.computeIndices v = .ok r
      · exact Or.inl hx
      · exact Or.inr (checked_error _ _ fun r hr => hx ⟨r, hr⟩)
    rcases ok_or a.latitude (((List.map Pixel.lat (flagged mask filter [f])).zip
      (List.map Pixel.lon (flagged mask filter [f]))).map Prod.fst) with ⟨r, hr⟩ | hr
    · rcases ok_or a.longitude (((List.map Pixel.lat (flagged mask filter [f])).zip
        (List.map Pixel.lon (flagged mask filter [f]))).map Prod.snd) with ⟨r', hr'⟩ | hr'
      · rw [hr, hr'] at hno'
        exact absurd rfl (hno' _)
      · rw [hr, hr']
    · rw [hr]
  unfold aggregateFile
  simp only
  rw [gather_field f a.maskValid a.filterValid f.lst hf.1 Pixel.value fun _ => rfl,
    gather_field f a.maskValid a.filterValid f.ran hf.2.2.2.1 Pixel.ran fun _ => rfl,
    gather_field f a.maskValid a.filterValid f.atm hf.2.2.2.2.1 Pixel.atm fun _ => rfl,
    gather_field f a.maskValid a.filterValid f.sfc hf.2.2.2.2.2 Pixel.sfc fun _ => rfl]
  simp only
  by_cases h1 : ∃ r, Boxed a (flagged a.maskValid a.filterValid [f]) r
  · by_cases h2 : ∃ r, Boxed a (flagged a.maskObs a.filterObs [f]) r
    · exfalso
      apply hc
      obtain ⟨r, hr⟩ := h1
      obtain ⟨r', hr'⟩ := h2
      have each : ∀ (l : List Pixel) (r : List Nat), Boxed a l r → ∀ p ∈ l, ∃ g, Located a p g := by
        intro l r h
        induction h with
        | nil => simp
        | cons h0 _ ih =>
          intro p hp
          rcases List.mem_cons.1 hp with rfl | hp
          · exact ⟨_, h0⟩
          · exact ih p hp
      rintro p (hp | hp)
      · exact each _ _ hr p hp
      · exact each _ _ hr' p hp
    · obtain ⟨r, hr⟩ := h1
      rw [(boxesAt_ok a ha f hf a.maskValid a.filterValid r).2 hr, herr _ _ h2]
  · rw [herr _ _ h1]

/-- C60, pixels outside of the grid: one such pixel and nothing is made of any of the files. -/
theorem c60_refused (a : Aggregator) (ha : a.Regular) (files : List (Option SatelliteFile))
    (hf : ∀ f ∈ files.filterMap id, f.Sized) (hc : ¬ Covered a (files.filterMap id)) :
    run a files = .error .valueError := by
  have : ∀ s, forFiles (aggregateFile a) s (files.filterMap id) = .error .valueError := by
    generalize files.filterMap id = l at hf hc
    induction l with
    | nil =>
      exfalso
      apply hc
      intro p hp
      simp [validPixels, obsPixels, flagged] at hp
    | cons f rest ih =>
      intro s
      rw [forFiles]
      by_cases h1 : Covered a [f]
      · obtain ⟨s', hs', _⟩ := aggregateFile_ok a ha s f (hf f (by simp)) h1
        rw [hs']
        apply ih (fun f hf' => hf f (by simp [hf']))
        intro h2
        apply hc
        intro p hp
        unfold validPixels obsPixels at hp
        rw [flagged_cons, flagged_cons a.maskObs, List.mem_append, List.mem_append] at hp
        rcases hp with (hp | hp) | (hp | hp)
        · exact h1 p (Or.inl hp)
        · exact h2 p (Or.inl hp)
        · exact h1 p (Or.inr hp)
        · exact h2 p (Or.inr hp)
      · rw [aggregateFile_refused a ha s f (hf f (by simp)) h1]
  unfold run
  simp only
  rw [if_neg, this]
  intro hnil
  rw [hnil] at hc
  apply hc
  intro p hp
  simp [validPixels, obsPixels, flagged] at hp

/-- C60, sampling uncertainty: where the flags of valid pixels include those of interest, a box has no more valid pixels than
pixels of interest, and the sampling uncertainty lies between zero and the standard deviation. -/
theorem c60_sampling (a : Aggregator) (hm : a.maskValid &&& a.maskObs = a.maskObs)
    (hfl : a.filterValid &&& a.maskObs = a.filterObs) (files : List SatelliteFile) (o : Output) (g : Nat)
    (h : Describes o g (inBox a (validPixels a files) g) (inBox a (obsPixels a files) g)) :
    o.first.number g ≤ o.total g ∧
    (2 ≤ o.first.number g → 0 ≤ o.sampling g ∧ o.sampling g ≤ Real.sqrt (o.variance g)) := by
  have hle : (inBox a (validPixels a files) g).length ≤ (inBox a (obsPixels a files) g).length := by
    apply List.Sublist.length_le
    apply List.Sublist.filter
    apply List.monotone_filter_right
    intro p hp
    have hp : p.qc &&& a.maskValid = a.filterValid := by simpa using hp
    have : p.qc &&& a.maskObs = a.filterObs := by
      rw [← hfl, ← hp, Nat.and_assoc, hm]
    simpa using this
  refine ⟨by rw [h.number, h.total]; exact hle, ?_⟩
  intro h2
  rw [h.number] at h2
  rw [h.sampling h2]
  have h0 := Real.sqrt_nonneg (o.variance g)
  have hn : (2 : ℝ) ≤ (inBox a (validPixels a files) g).length := by exact_mod_cast h2
  have hnt : ((inBox a (validPixels a files) g).length : ℝ) ≤ (inBox a (obsPixels a files) g).length := by exact_mod_cast hle
  constructor
  · apply div_nonneg
    · exact mul_nonneg (by linarith) h0
    · linarith
  · rw [div_le_iff₀ (by linarith)]
    nlinarith

/-- The flags of the command line (command.py 98-101) are such. -/
example : 7 &&& 1 = 1 ∧ 0 &&& 1 = 0 := by decide

/-- Two files, one of them missing, with three pixels in a grid of two by two boxes, one of them cloudy. -/
def exampleAxes : Aggregator := ⟨⟨0, 1, 2, true⟩, ⟨0, 1, 2, true⟩, 1, 0, 7, 0⟩

noncomputable def exampleFile : SatelliteFile :=
  ⟨[0, 2, 0], [280, 300, 281], [1 / 2, 1 / 2, 3 / 2], [1 / 2, 1 / 2, 1 / 2], [1, 1, 1], [1, 1, 1], [1, 1, 1], 1⟩

example : ∃ o, run exampleAxes [none, some exampleFile] = .ok (some o) := by
  have hb : ∀ p ∈ exampleFile.pixels, ∃ g, Located exampleAxes p g := by
    intro p hp
    simp only [SatelliteFile.pixels, exampleFile, List.length_cons, List.length_nil] at hp
    have : p = exampleFile.pixel 0 ∨ p = exampleFile.pixel 1 ∨ p = exampleFile.pixel 2 := by
      obtain ⟨i, hi, rfl⟩ := List.mem_map.1 hp
      have := List.mem_range.1 hi
      rcases (by omega : i = 0 ∨ i = 1 ∨ i = 2) with rfl | rfl | rfl
      · exact Or.inl rfl
      · exact Or.inr (Or.inl rfl)
      · exact Or.inr (Or.inr rfl)
    rcases this with rfl | rfl | rfl
    · refine ⟨0, ⟨by norm_num [exampleAxes], Or.inl ?_⟩, ⟨by norm_num [exampleAxes], Or.inl ?_⟩⟩ <;>
      norm_num [exampleAxes, InCell, SatelliteFile.pixel, exampleFile]
    · refine ⟨0, ⟨by norm_num [exampleAxes], Or.inl ?_⟩, ⟨by norm_num [exampleAxes], Or.inl ?_⟩⟩ <;>
      norm_num [exampleAxes, InCell, SatelliteFile.pixel, exampleFile]
    · refine ⟨2, ⟨by norm_num [exampleAxes], Or.inl ?_⟩, ⟨by norm_num [exampleAxes], Or.inl ?_⟩⟩ <;>
      norm_num [exampleAxes, InCell, SatelliteFile.pixel, exampleFile]
  have hsub : ∀ mask filter, ∀ p ∈ flagged mask filter [exampleFile], p ∈ exampleFile.pixels := by
    intro mask filter p hp
    simpa [flagged] using (List.mem_filter.1 hp).1
  obtain ⟨o, ho, _⟩ := c60_fields exampleAxes ⟨by norm_num [exampleAxes], by norm_num [exampleAxes]⟩ [none, some exampleFile]
    (by simp) (by simp [SatelliteFile.Sized, exampleFile])
    (by
      rintro p (hp | hp)
      · exact hb p (hsub _ _ p (by simpa [validPixels, obsPixels] using hp))
      · exact hb p (hsub _ _ p (by simpa [validPixels, obsPixels] using hp)))
    (by
      intro p hp
      have hp := hsub _ _ p (by simpa [validPixels] using hp)
      obtain ⟨i, hi, rfl⟩ := List.mem_map.1 hp
      have := List.mem_range.1 hi
      simp only [exampleFile, List.length_cons, List.length_nil] at this
      rcases (by omega : i = 0 ∨ i = 1 ∨ i = 2) with rfl | rfl | rfl <;>
      · norm_num [SatelliteFile.pixel, exampleFile, floatMax]
        try rw [abs_of_pos] <;> norm_num)
  exact ⟨o, ho⟩

end Verif.Eustace.Satgrid
