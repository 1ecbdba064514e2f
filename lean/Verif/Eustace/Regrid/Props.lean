import Verif.Eustace.Regrid.Lemmas
import Mathlib.Tactic.NormNum
import Mathlib.Algebra.BigOperators.Field

/-! C62: averages over grid cells. -/

namespace Verif.Eustace.Regrid

open Verif

/-! ### Specification -/

/-- The centre of part `i` of an interval around `x`, of `width`, in `n` equal parts. -/
noncomputable def part (x width : ℝ) (n i : Nat) : ℝ := x - width / 2 + ((i : ℝ) + 1 / 2) * (width / n)

/-- The weight of a latitude in degrees. -/
noncomputable def weight (latitude : ℝ) : ℝ := Real.cos (latitude * Real.pi / 180)

/-- The average of a function over a cell: the mean of its values at the centres of parts, with the cosine of latitude as weight. -/
noncomputable def cellAverage (f : ℝ × ℝ → ℝ) (height width : ℝ) (nlat nlon : Nat) (latitude longitude : ℝ) : ℝ :=
  (∑ i ∈ Finset.range nlat, ∑ j ∈ Finset.range nlon,
    weight (part latitude height nlat i) * f (part latitude height nlat i, part longitude width nlon j)) /
  ∑ i ∈ Finset.range nlat, ∑ _j ∈ Finset.range nlon, weight (part latitude height nlat i)

/-- The averages over all cells of a grid, rows of latitude after each other. -/
noncomputable def averages (f : ℝ × ℝ → ℝ) (height width : ℝ) (nlat nlon : Nat) (latitudes longitudes : List ℝ) : List ℝ :=
  latitudes.flatMap fun a => longitudes.map fun x => cellAverage f height width nlat nlon a x

/-! ### Lemmas -/

theorem point_part (s : ℝ) (n : Nat) (hn : 0 < n) (x : ℝ) (i : Nat) : point s n x i = part x s n i := by
  have : (0 : ℝ) < n := by exact_mod_cast hn
  unfold point part
  field_simp
  ring

theorem sum_range (n : Nat) (g : Nat → ℝ) : ((List.range n).map g).sum = ∑ i ∈ Finset.range n, g i := by
  induction n with
  | zero => rfl
  | succ n ih => rw [List.range_succ, List.map_append, List.sum_append, ih, Finset.sum_range_succ]; simp

theorem sum_flatMap {α : Type} (l : List α) (g : α → List ℝ) : (l.flatMap g).sum = (l.map fun x => (g x).sum).sum := by
  induction l with
  | nil => rfl
  | cons x rest ih => rw [List.flatMap_cons, List.sum_append, ih, List.map_cons, List.sum_cons]

theorem zipWith_weights (row : List ℝ) (lrow : List ℝ) (h : row.length = lrow.length) (f : ℝ × ℝ → ℝ) (n : ℝ) :
    (List.zipWith (fun a b => a * b) (row.map fun x => harmonic x / n) ((row.zip lrow).map f)).sum =
      ((row.zip lrow).map fun p => harmonic p.1 * f p).sum / n := by
  induction row generalizing lrow with
  | nil => simp
  | cons a row ih =>
    cases lrow with
    | nil => simp at h
    | cons b lrow =>
      rw [List.map_cons, List.zip_cons_cons, List.map_cons, List.zipWith_cons_cons, List.sum_cons, ih lrow (by simpa using h),
        List.map_cons, List.sum_cons]
      ring

theorem row_sum (nlon : Nat) (sub : List ℝ) (g : ℝ → ℝ) :
    ((List.replicate nlon sub).flatten.map g).sum = nlon * (sub.map g).sum := by
  induction nlon with
  | zero => simp
  | succ n ih =>
    rw [List.replicate_succ, List.flatten_cons, List.map_append, List.sum_append, ih]
    push_cast
    ring

/-- One cell. -/
theorem cell_eq (f : ℝ × ℝ → ℝ) (slat slon : ℝ) (nlat nlon : Nat) (hlat : 0 < nlat) (hlon : 0 < nlon) (w : List Nat)
    (hw : w.Perm (List.range nlon)) (a x : ℝ) :
    (List.zipWith (fun p q => p * q) (weights (List.replicate nlon (subPoints slat nlat a)).flatten)
      (((List.replicate nlon (subPoints slat nlat a)).flatten.zip
        (w.flatMap fun j => List.replicate nlat (point slon nlon x j))).map f)).sum =
      cellAverage f slat slon nlat nlon a x := by
  have hwl : w.length = nlon := by rw [hw.length_eq, List.length_range]
  unfold weights
  rw [zipWith_weights]
  · unfold cellAverage
    congr 1
    · have hz := row_zip w (subPoints slat nlat a) (point slon nlon x)
      rw [hwl, subPoints_length] at hz
      rw [hz, List.map_flatMap, sum_flatMap, (hw.map _).sum_eq, sum_range, Finset.sum_comm]
      apply Finset.sum_congr rfl
      intro j _
      rw [List.map_map, subPoints_eq, List.map_map, sum_range]
      apply Finset.sum_congr rfl
      intro i _
      show harmonic (point slat nlat a i) * f (point slat nlat a i, point slon nlon x j) = _
      rw [point_part _ _ hlat, point_part _ _ hlon]
      rfl
    · rw [row_sum, subPoints_eq, List.map_map, sum_range, Finset.mul_sum]
      apply Finset.sum_congr rfl
      intro i _
      rw [Finset.sum_const, Finset.card_range, nsmul_eq_mul]
      show (nlon : ℝ) * harmonic (point slat nlat a i) = _
      rw [point_part _ _ hlat]
      rfl
  · simp [List.length_flatMap, subPoints_length, hwl]

theorem zipWith_rows (f : ℝ × ℝ → ℝ) : ∀ a b : List (List ℝ),
    List.zipWith (fun w v => (List.zipWith (fun p q => p * q) w v).sum) (a.map weights)
      ((List.zipWith (fun x y => x.zip y) a b).map fun r => r.map f) =
    List.zipWith (fun x y => (List.zipWith (fun p q => p * q) (weights x) ((x.zip y).map f)).sum) a b
  | [], _ => rfl
  | _ :: _, [] => rfl
  | x :: a, y :: b => by
    rw [List.map_cons, List.zipWith_cons_cons, List.map_cons, List.zipWith_cons_cons, List.zipWith_cons_cons, zipWith_rows f a b]

/-- One block: latitudes come out in ascending order. -/
theorem blocked_eq (argsort : List ℝ → List Nat) (ha : Sorts argsort) (r : Regridder) (hlat : 0 < r.nlat) (hlon : 0 < r.nlon)
    (flag : String) (s : Solution) (f : ℝ × ℝ → ℝ) (hf : s.field flag = .ok f) (b b' : List ℝ) (hp : b'.Perm b)
    (hs : b'.Pairwise (· < ·)) :
    r.blocked argsort flag b s =
      .ok (averages f r.latitudeSpacing r.longitudeSpacing r.nlat r.nlon b' r.longitudes) := by
  unfold Regridder.blocked
  rw [hf]
  dsimp only
  unfold Regridder.subCellGrids
  have hm1 : (r.longitudes.flatMap (subPoints r.longitudeSpacing r.nlon)).length / r.nlon = r.longitudes.length := by
    rw [List.length_flatMap]
    simp only [subPoints_length, List.map_const', List.sum_replicate, smul_eq_mul]
    exact Nat.mul_div_cancel _ hlon
  have hm2 : (b.flatMap (subPoints r.latitudeSpacing r.nlat)).length / r.nlat = b'.length := by
    rw [List.length_flatMap]
    simp only [subPoints_length, List.map_const', List.sum_replicate, smul_eq_mul]
    rw [hp.length_eq]
    exact Nat.mul_div_cancel _ hlat
  have h1 := latitude_rows argsort ha r.latitudeSpacing r.nlat r.nlon _ hlat hlon
    (r.longitudes.flatMap (subPoints r.longitudeSpacing r.nlon)) hm1 b b' hp hs
  obtain ⟨w, hw, h2⟩ := longitude_rows argsort ha r.longitudeSpacing r.nlat r.nlon _ hlon
    (b.flatMap (subPoints r.latitudeSpacing r.nlat)) hm2 r.longitudes
  have hwl : w.length = r.nlon := by rw [hw.length_eq, List.length_range]
  unfold Structure.locations
  rw [h1, h2]
  have hr1 : ∀ x ∈ b'.flatMap fun x => List.replicate r.longitudes.length
      (List.replicate r.nlon (subPoints r.latitudeSpacing r.nlat x)).flatten, x.length = r.nlat * r.nlon := by
    intro x hx
    obtain ⟨y, _, hy⟩ := List.mem_flatMap.1 hx
    rw [List.eq_of_mem_replicate hy]
    simp [subPoints_length, Nat.mul_comm]
  have hr2 : ∀ x ∈ (List.replicate b'.length (r.longitudes.map fun x => w.flatMap fun j =>
      List.replicate r.nlat (point r.longitudeSpacing r.nlon x j))).flatten, x.length = r.nlat * r.nlon := by
    intro x hx
    obtain ⟨rows, hrows, hx⟩ := List.mem_flatten.1 hx
    rw [List.eq_of_mem_replicate hrows] at hx
    obtain ⟨y, _, rfl⟩ := List.mem_map.1 hx
    simp [List.length_flatMap, hwl, Nat.mul_comm]
  have hll : (b'.flatMap fun x => List.replicate r.longitudes.length
      (List.replicate r.nlon (subPoints r.latitudeSpacing r.nlat x)).flatten).length =
      (List.replicate b'.length (r.longitudes.map fun x => w.flatMap fun j =>
      List.replicate r.nlat (point r.longitudeSpacing r.nlon x j))).flatten.length := by
    simp [List.length_flatMap]
  rw [flatten_zip (r.nlat * r.nlon) _ _ hll hr1 hr2, List.map_flatten, reshape_flatten (r.nlat * r.nlon) (Nat.mul_pos hlat hlon),
    zipWith_rows, grid_zip]
  · congr 1
    unfold averages
    apply List.flatMap_congr
    intro a _
    apply List.map_congr_left
    intro x _
    exact cell_eq f _ _ _ _ hlat hlon w hw a x
  · intro x hx
    obtain ⟨y, hy, rfl⟩ := List.mem_map.1 hx
    rw [List.length_map]
    obtain ⟨k, hk, rfl⟩ := List.getElem_of_mem hy
    rw [List.getElem_zipWith, List.length_zip, hr1 _ (List.getElem_mem _), hr2 _ (List.getElem_mem _), Nat.min_self]

theorem blocks_flatten (n : Nat) (hn : 0 < n) (l : List ℝ) (h : n ≤ l.length) : (latitudeBlocks n l).flatten = l := by
  have key : ∀ k, k * n ≤ l.length →
      ((List.range k).map fun i => (l.take ((i + 1) * n)).drop (i * n)).flatten = l.take (k * n) := by
    intro k
    induction k with
    | zero => intro _; simp
    | succ k ih =>
      intro hk
      rw [List.range_succ, List.map_append, List.flatten_append, ih (by rw [Nat.add_mul] at hk; omega)]
      simp only [List.map_cons, List.map_nil, List.flatten_cons, List.flatten_nil, List.append_nil]
      have h1 : l.take (k * n) = (l.take ((k + 1) * n)).take (k * n) := by
        rw [List.take_take, Nat.min_eq_left (Nat.mul_le_mul_right _ (Nat.le_succ _))]
      rw [h1, List.take_append_drop]
  have hdiv : l.length / n * n ≤ l.length := Nat.div_mul_le_self _ _
  have hpos : 0 < l.length / n := Nat.div_pos h hn
  unfold latitudeBlocks
  rw [List.flatten_append, key _ hdiv]
  by_cases hr : l.length % n ≠ 0
  · rw [if_pos hr]
    have : l.length / n - 1 + 1 = l.length / n := by omega
    rw [this]
    simp
  · rw [if_neg hr]
    have h2 : l.length / n * n = l.length := by
      have := Nat.div_add_mod l.length n
      rw [not_not.1 hr] at this
      rw [Nat.mul_comm]
      omega
    rw [h2]
    simp

theorem loop_eq (argsort : List ℝ → List Nat) (ha : Sorts argsort) (r : Regridder) (hlat : 0 < r.nlat) (hlon : 0 < r.nlon)
    (flag : String) (s : Solution) (f : ℝ × ℝ → ℝ) (hf : s.field flag = .ok f) : ∀ blocks : List (List ℝ),
    (∀ b ∈ blocks, b.Pairwise (· < ·)) →
    r.loop argsort flag s blocks =
      .ok (averages f r.latitudeSpacing r.longitudeSpacing r.nlat r.nlon blocks.flatten r.longitudes)
  | [], _ => rfl
  | b :: rest, h => by
    rw [Regridder.loop, blocked_eq argsort ha r hlat hlon flag s f hf b b (List.Perm.refl _) (h b (by simp))]
    dsimp only
    rw [loop_eq argsort ha r hlat hlon flag s f hf rest fun x hx => h x (List.mem_cons_of_mem _ hx)]
    dsimp only
    rw [List.flatten_cons]
    unfold averages
    rw [List.flatMap_append]

/-! ### Theorems -/

/-- C62: on a grid with ascending latitudes, the result for each cell is the weighted average over the parts of that cell and no
others, whatever the blocking. -/
theorem c62_average (argsort : List ℝ → List Nat) (ha : Sorts argsort) (r : Regridder) (hlat : 0 < r.nlat) (hlon : 0 < r.nlon)
    (hb : 0 < r.blocking) (hne : r.latitudes ≠ []) (hs : r.latitudes.Pairwise (· < ·)) (flag : String) (s : Solution)
    (f : ℝ × ℝ → ℝ) (hf : s.field flag = .ok f) :
    r.compute argsort flag s =
      .ok (averages f r.latitudeSpacing r.longitudeSpacing r.nlat r.nlon r.latitudes r.longitudes) := by
  have hl : 0 < r.latitudes.length := List.length_pos_iff.2 hne
  have hm : 0 < min r.blocking r.latitudes.length := lt_min hb hl
  unfold Regridder.compute
  rw [if_neg hm.ne', loop_eq argsort ha r hlat hlon flag s f hf, blocks_flatten _ hm _ (min_le_right _ _)]
  intro b hbm
  have hsub : b.Sublist r.latitudes := by
    have := List.sublist_flatten_of_mem hbm
    rwa [blocks_flatten _ hm _ (min_le_right _ _)] at this
  exact hs.sublist hsub

/-- C62: the result does not depend on the blocking. -/
theorem c62_blocking (argsort : List ℝ → List Nat) (ha : Sorts argsort) (r : Regridder) (hlat : 0 < r.nlat) (hlon : 0 < r.nlon)
    (hb : 0 < r.blocking) (hne : r.latitudes ≠ []) (hs : r.latitudes.Pairwise (· < ·)) (n : Nat) (hn : 0 < n) (flag : String)
    (s : Solution) : ({ r with blocking := n }).compute argsort flag s = r.compute argsort flag s := by
  cases hf : s.field flag with
  | ok f =>
    rw [c62_average argsort ha r hlat hlon hb hne hs flag s f hf,
      c62_average argsort ha { r with blocking := n } hlat hlon hn hne hs flag s f hf]
  | error e =>
    have hl : 0 < r.latitudes.length := List.length_pos_iff.2 hne
    have key : ∀ q : Regridder, 0 < q.blocking → q.latitudes = r.latitudes → q.compute argsort flag s = .error e := by
      intro q hq hql
      have hm : 0 < min q.blocking q.latitudes.length := lt_min hq (by rw [hql]; exact hl)
      unfold Regridder.compute
      rw [if_neg hm.ne']
      cases hblocks : latitudeBlocks (min q.blocking q.latitudes.length) q.latitudes with
      | nil =>
        have := blocks_flatten _ hm q.latitudes (min_le_right _ _)
        rw [hblocks] at this
        exact absurd this.symm (by rw [hql]; exact hne)
      | cons b rest =>
        rw [Regridder.loop]
        unfold Regridder.blocked
        rw [hf]
    rw [key r hb rfl]
    exact key { r with blocking := n } hn rfl

/-- C62: within a cell between the poles, the result is an average: the weights are positive and add up to one, and the result is
between any bounds of the values at the points of the cell. -/
theorem c62_convex (f : ℝ × ℝ → ℝ) (height width : ℝ) (nlat nlon : Nat) (hlat : 0 < nlat) (hlon : 0 < nlon) (a x : ℝ)
    (hp : ∀ i < nlat, -90 < part a height nlat i ∧ part a height nlat i < 90) :
    (∀ i < nlat, 0 < weight (part a height nlat i)) ∧
    (∑ i ∈ Finset.range nlat, ∑ _j ∈ Finset.range nlon, weight (part a height nlat i) /
      ∑ i ∈ Finset.range nlat, ∑ _j ∈ Finset.range nlon, weight (part a height nlat i)) = 1 ∧
    ∀ lo hi, (∀ i < nlat, ∀ j < nlon, lo ≤ f (part a height nlat i, part x width nlon j) ∧
        f (part a height nlat i, part x width nlon j) ≤ hi) →
      lo ≤ cellAverage f height width nlat nlon a x ∧ cellAverage f height width nlat nlon a x ≤ hi := by
  have hw : ∀ i < nlat, 0 < weight (part a height nlat i) := by
    intro i hi
    obtain ⟨h1, h2⟩ := hp i hi
    apply Real.cos_pos_of_mem_Ioo
    have := Real.pi_pos
    constructor <;> nlinarith
  have htotal : 0 < ∑ i ∈ Finset.range nlat, ∑ _j ∈ Finset.range nlon, weight (part a height nlat i) := by
    apply Finset.sum_pos
    · intro i hi
      apply Finset.sum_pos
      · intro _ _
        exact hw i (Finset.mem_range.1 hi)
      · exact ⟨0, Finset.mem_range.2 hlon⟩
    · exact ⟨0, Finset.mem_range.2 hlat⟩
  refine ⟨hw, ?_, ?_⟩
  · simp only [← Finset.sum_div]
    exact div_self htotal.ne'
  · intro lo hi h
    unfold cellAverage
    rw [le_div_iff₀ htotal, div_le_iff₀ htotal, Finset.mul_sum, Finset.mul_sum]
    constructor
    · apply Finset.sum_le_sum
      intro i hi
      rw [Finset.mul_sum]
      apply Finset.sum_le_sum
      intro j hj
      have hi' := Finset.mem_range.1 hi
      rw [mul_comm]
      exact mul_le_mul_of_nonneg_left (h i hi' j (Finset.mem_range.1 hj)).1 (hw i hi').le
    · apply Finset.sum_le_sum
      intro i hm
      rw [Finset.mul_sum]
      apply Finset.sum_le_sum
      intro j hj
      have hi' := Finset.mem_range.1 hm
      rw [mul_comm hi]
      exact mul_le_mul_of_nonneg_left (h i hi' j (Finset.mem_range.1 hj)).2 (hw i hi').le

/-- C62: with one point in each cell the average is the value at the centre of the cell. -/
theorem c62_one_point (f : ℝ × ℝ → ℝ) (height width a x : ℝ) (ha : -90 < a ∧ a < 90) : cellAverage f height width 1 1 a x = f (a, x) := by
  have h1 : ∀ y w : ℝ, part y w 1 0 = y := by
    intro y w
    unfold part
    norm_num
    ring
  have h2 : 0 < weight a := by
    apply Real.cos_pos_of_mem_Ioo
    have := Real.pi_pos
    constructor <;> nlinarith
  unfold cellAverage
  simp only [Finset.sum_range_one, h1]
  field_simp

/-- C62: spacings which are multiples of a thousandth of a degree are kept. -/
theorem c62_spacing (k : Int) : round3 ((k : ℝ) / 1000) = (k : ℝ) / 1000 := by
  have h1 : ∀ n : Int, ⌊(n : ℝ) / 1000 * 1000 + 1 / 2⌋ = n := by
    intro n
    rw [Int.floor_eq_iff]
    constructor <;> linarith
  unfold round3
  split
  · rw [h1]
  · have : -((k : ℝ) / 1000) * 1000 + 1 / 2 = (((-k : Int) : ℝ)) / 1000 * 1000 + 1 / 2 := by push_cast; ring
    rw [this, h1]
    push_cast
    ring

/-- C62 fails for other spacings: the points are those of cells of another size.  A spacing of a third of a degree with two points
in each cell. -/
theorem c62_rounding_violated (x : ℝ) : subPoints (round3 (1 / 3)) 2 x ≠ [part x (1 / 3) 2 0, part x (1 / 3) 2 1] := by
  have h : round3 (1 / 3) = 333 / 1000 := by
    unfold round3
    rw [if_pos (by norm_num)]
    have : ⌊(1 / 3 : ℝ) * 1000 + 1 / 2⌋ = 333 := by
      rw [Int.floor_eq_iff]
      norm_num
    rw [this]
    norm_num
  rw [h]
  intro he
  simp only [subPoints, part, List.range_succ_eq_map, List.range_zero, List.map_cons, List.map_nil, List.cons.injEq] at he
  have := he.1
  norm_num at this
  linarith

/-- C62 fails at the poles: for a cell with its centre at a pole the weights of points add up to zero, and the code divides by
that. -/
theorem c62_pole_violated (height : ℝ) (n m : Nat) :
    ∑ i ∈ Finset.range n, ∑ _j ∈ Finset.range m, weight (part 90 height n i) = 0 := by
  have hsym : ∀ i < n, weight (part 90 height n (n - 1 - i)) = -weight (part 90 height n i) := by
    intro i hi
    have hn : (0 : ℝ) < n := by
      have : 0 < n := by omega
      exact_mod_cast this
    have hc : ((n - 1 - i : Nat) : ℝ) = n - 1 - i := by
      rw [Nat.cast_sub (by omega), Nat.cast_sub (by omega)]
      simp
    have h1 : part 90 height n (n - 1 - i) = 180 - part 90 height n i := by
      unfold part
      rw [hc]
      field_simp
      ring
    unfold weight
    rw [h1, ← Real.cos_pi_sub]
    congr 1
    ring
  have h : ∑ i ∈ Finset.range n, ∑ _j ∈ Finset.range m, weight (part 90 height n i) =
      -∑ i ∈ Finset.range n, ∑ _j ∈ Finset.range m, weight (part 90 height n i) := by
    conv_lhs => rw [← Finset.sum_range_reflect]
    rw [← Finset.sum_neg_distrib]
    apply Finset.sum_congr rfl
    intro i hi
    rw [hsym i (Finset.mem_range.1 hi), Finset.sum_neg_distrib]
  linarith

/-- C62 fails for descending latitudes: with blocks of more than one latitude, the results of a block come out in the opposite order
of its latitudes. -/
theorem c62_descending_violated (argsort : List ℝ → List Nat) (ha : Sorts argsort) (r : Regridder) (hlat : 0 < r.nlat)
    (hlon : 0 < r.nlon) (hb : r.latitudes.length ≤ r.blocking) (hne : r.latitudes ≠ []) (hs : r.latitudes.Pairwise (· > ·))
    (flag : String) (s : Solution) (f : ℝ × ℝ → ℝ) (hf : s.field flag = .ok f) :
    r.compute argsort flag s =
      .ok (averages f r.latitudeSpacing r.longitudeSpacing r.nlat r.nlon r.latitudes.reverse r.longitudes) := by
  have hl : 0 < r.latitudes.length := List.length_pos_iff.2 hne
  unfold Regridder.compute
  rw [Nat.min_eq_right hb, if_neg hl.ne']
  have hblocks : latitudeBlocks r.latitudes.length r.latitudes = [r.latitudes] := by
    unfold latitudeBlocks
    rw [Nat.div_self hl, Nat.mod_self]
    simp
  rw [hblocks, Regridder.loop, blocked_eq argsort ha r hlat hlon flag s f hf r.latitudes r.latitudes.reverse (List.reverse_perm _)
    (List.pairwise_reverse.2 hs)]
  dsimp only
  rw [Regridder.loop]
  dsimp only
  rw [List.append_nil]

/-- C62, blocks of one latitude are right whatever the order of latitudes. -/
theorem c62_blocks_of_one (argsort : List ℝ → List Nat) (ha : Sorts argsort) (r : Regridder) (hlat : 0 < r.nlat)
    (hlon : 0 < r.nlon) (hb : r.blocking = 1) (hne : r.latitudes ≠ []) (flag : String) (s : Solution) (f : ℝ × ℝ → ℝ)
    (hf : s.field flag = .ok f) :
    r.compute argsort flag s =
      .ok (averages f r.latitudeSpacing r.longitudeSpacing r.nlat r.nlon r.latitudes r.longitudes) := by
  have hl : 0 < r.latitudes.length := List.length_pos_iff.2 hne
  unfold Regridder.compute
  rw [hb, Nat.min_eq_left hl, if_neg (by omega), loop_eq argsort ha r hlat hlon flag s f hf, blocks_flatten 1 (by omega) _ hl]
  intro b hbm
  unfold latitudeBlocks at hbm
  rw [Nat.mod_one, if_neg (by simp), List.append_nil] at hbm
  obtain ⟨i, hi, rfl⟩ := List.mem_map.1 hbm
  have hlen : ((r.latitudes.take ((i + 1) * 1)).drop (i * 1)).length ≤ 1 := by
    rw [List.length_drop, List.length_take]
    omega
  match h : (r.latitudes.take ((i + 1) * 1)).drop (i * 1) with
  | [] => simp
  | [x] => simp
  | x :: y :: rest => rw [h] at hlen; simp at hlen

/-- C62 fails: on a grid with descending latitudes the result depends on the blocking. -/
theorem c62_blocking_violated (argsort : List ℝ → List Nat) (ha : Sorts argsort) :
    ∃ (r : Regridder) (s : Solution), Regridder.init [1, 0] [0, 1] 1 1 100 = .ok r ∧
      r.compute argsort "MAP" s = .ok [0, 0, 1, 1] ∧
      ({ r with blocking := 1 }).compute argsort "MAP" s = .ok [1, 1, 0, 0] := by
  refine ⟨⟨[1, 0], [0, 1], 1, 1, 100, round3 (0 - 1), round3 (1 - 0)⟩, ⟨fun p => p.1, fun _ => 0, fun _ => 0⟩, rfl, ?_, ?_⟩
  · rw [c62_descending_violated argsort ha _ (by simp) (by simp) (by simp) (by simp) (by simp) "MAP" _ (fun p => p.1) rfl]
    simp only [averages, List.reverse_cons, List.reverse_nil, List.nil_append, List.singleton_append, List.flatMap_cons,
      List.flatMap_nil, List.map_cons, List.map_nil, List.append_nil, List.cons_append]
    rw [c62_one_point _ _ _ _ _ (by norm_num), c62_one_point _ _ _ _ _ (by norm_num), c62_one_point _ _ _ _ _ (by norm_num),
      c62_one_point _ _ _ _ _ (by norm_num)]
  · rw [c62_blocks_of_one argsort ha _ (by simp) (by simp) (by simp) (by simp) "MAP" _ (fun p => p.1) rfl]
    simp only [averages, List.flatMap_cons,
      List.flatMap_nil, List.map_cons, List.map_nil, List.append_nil, List.cons_append, List.nil_append]
    rw [c62_one_point _ _ _ _ _ (by norm_num), c62_one_point _ _ _ _ _ (by norm_num), c62_one_point _ _ _ _ _ (by norm_num),
      c62_one_point _ _ _ _ _ (by norm_num)]

/-- A way of sorting: `Sorts` can be met. -/
noncomputable def insertionArgsort (l : List ℝ) : List Nat :=
  open Classical in List.insertionSort (fun i j => l.getD i 0 ≤ l.getD j 0) (List.range l.length)

example : Sorts insertionArgsort := by
  classical
  constructor
  · intro l
    unfold insertionArgsort
    exact List.perm_insertionSort _ _
  · intro l
    rw [List.pairwise_map]
    unfold insertionArgsort
    have : IsTrans Nat fun i j => l.getD i 0 ≤ l.getD j 0 := ⟨fun i j k h1 h2 => le_trans h1 h2⟩
    have : Std.Total fun i j : Nat => l.getD i 0 ≤ l.getD j 0 := ⟨fun i j => le_total _ _⟩
    exact List.pairwise_insertionSort _ _

/-- A grid which meets the hypotheses of `c62_average`. -/
example : ∃ r, Regridder.init [-1 / 2, 0, 1 / 2] [0, 1] 2 3 2 = .ok r ∧ 0 < r.nlat ∧ 0 < r.nlon ∧ 0 < r.blocking ∧
    r.latitudes ≠ [] ∧ r.latitudes.Pairwise (· < ·) := by
  refine ⟨_, rfl, by norm_num, by norm_num, by norm_num, by simp, by norm_num⟩

end Verif.Eustace.Regrid
