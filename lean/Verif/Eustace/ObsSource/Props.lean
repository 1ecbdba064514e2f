import Verif.Eustace.ObsSource.Model

/-!
C26: means of two collections of observations, and collections appended to each other.
-/

namespace Verif.Eustace.ObsSource

open Verif Verif.Eustace.RawBinary

/-! ### Specification -/

/-- All arrays have one element for each of `n` observations. -/
def Sized {R : Type} (obs : Observations R) (n : Nat) : Prop :=
  obs.mask.length = n ∧ obs.location.length = n ∧ obs.measurement.length = n ∧ obs.uncorrelated.length = n ∧
    ∀ c ∈ obs.correlated, c.length = n

/-- The observations of `a` and `b` at common locations, in the same order in both: pairs of places. -/
def Paired (a b : List UInt64) (pairs : List (Nat × Nat)) : Prop :=
  pairs.Pairwise (fun p q => p.1 < q.1 ∧ p.2 < q.2) ∧
  (∀ p ∈ pairs, ∃ x, a[p.1]? = some x ∧ b[p.2]? = some x) ∧
  (∀ (i : Nat) (x : UInt64), a[i]? = some x → x ∈ b → ∃ p ∈ pairs, p.1 = i) ∧
  (∀ (j : Nat) (x : UInt64), b[j]? = some x → x ∈ a → ∃ p ∈ pairs, p.2 = j)

/-! ### Lemmas -/

theorem gather_ok {α : Type} (l : List α) (d : α) (indices : List Nat) (h : ∀ i ∈ indices, i < l.length) :
    gather l indices = .ok (indices.map fun i => l.getD i d) := by
  induction indices with
  | nil => rfl
  | cons i rest ih =>
    have hi := h i List.mem_cons_self
    rw [gather, List.getElem?_eq_getElem hi, ih fun j hj => h j (List.mem_cons_of_mem _ hj), List.map_cons,
      List.getD_eq_getElem?_getD, List.getElem?_eq_getElem hi]
    rfl

theorem mem_restriction (x y : List UInt64) (i : Nat) :
    i ∈ restriction x y ↔ ∃ v, x[i]? = some v ∧ v ∈ y := by
  rw [restriction, List.mem_filter, List.mem_range]
  constructor
  · rintro ⟨h, h'⟩
    rw [List.getElem?_eq_getElem h] at h'
    exact ⟨_, List.getElem?_eq_getElem h, by simpa using h'⟩
  · rintro ⟨v, h, h'⟩
    refine ⟨(List.getElem?_eq_some_iff.1 h).1, ?_⟩
    rw [h]
    simpa using h'

theorem restriction_sorted (x y : List UInt64) : (restriction x y).Pairwise (· < ·) :=
  List.Pairwise.filter _ List.pairwise_lt_range

theorem sorted_unique (a b : List Nat) (ha : a.Pairwise (· < ·)) (hb : b.Pairwise (· < ·)) (h : ∀ i, i ∈ a ↔ i ∈ b) :
    a = b := by
  refine List.Perm.eq_of_pairwise (le := (· ≤ ·)) (fun _ _ _ _ => Nat.le_antisymm) (ha.imp Nat.le_of_lt)
    (hb.imp Nat.le_of_lt) ?_
  exact (List.perm_ext_iff_of_nodup (ha.imp fun h => Nat.ne_of_lt h) (hb.imp fun h => Nat.ne_of_lt h)).2 h

theorem restriction_fst (a b : List UInt64) (pairs : List (Nat × Nat)) (h : Paired a b pairs) :
    restriction a b = pairs.map Prod.fst := by
  obtain ⟨h1, h2, h3, h4⟩ := h
  refine sorted_unique _ _ (restriction_sorted a b) (List.pairwise_map.2 (h1.imp And.left)) fun i => ?_
  rw [mem_restriction, List.mem_map]
  constructor
  · rintro ⟨v, hv, hb⟩
    exact h3 i v hv hb
  · rintro ⟨p, hp, rfl⟩
    obtain ⟨x, hx, hx'⟩ := h2 p hp
    exact ⟨x, hx, List.mem_of_getElem? hx'⟩

theorem restriction_snd (a b : List UInt64) (pairs : List (Nat × Nat)) (h : Paired a b pairs) :
    restriction b a = pairs.map Prod.snd := by
  obtain ⟨h1, h2, h3, h4⟩ := h
  refine sorted_unique _ _ (restriction_sorted b a) (List.pairwise_map.2 (h1.imp And.right)) fun i => ?_
  rw [mem_restriction, List.mem_map]
  constructor
  · rintro ⟨v, hv, hb⟩
    exact h4 i v hv hb
  · rintro ⟨p, hp, rfl⟩
    obtain ⟨x, hx, hx'⟩ := h2 p hp
    exact ⟨x, hx', List.mem_of_getElem? hx⟩

theorem allEqual_self {α : Type} [DecidableEq α] (l : List α) : allEqual l l = true := by
  unfold allEqual
  split <;> simp

theorem allEqual_eq {α : Type} [DecidableEq α] (x y : List α) (hl : x.length = y.length) (h : allEqual x y = true) :
    x = y := by
  unfold allEqual at h
  split at h
  · match y, hl with
    | [w], _ => simpa using h
  · match x, hl with
    | [v], _ => simpa using h
  · simpa using h

theorem maskOr_map {ι : Type} (l : List ι) (f g : ι → Bool) :
    maskOr (l.map f) (l.map g) = .ok (l.map fun p => f p || g p) := by
  match l with
  | [] => rfl
  | [p] => rfl
  | p :: q :: rest =>
    have h : ∀ (l : List ι), List.zipWith (· || ·) (l.map f) (l.map g) = l.map fun p => f p || g p := by
      intro l
      induction l with
      | nil => rfl
      | cons p l ih => simp only [List.map_cons, List.zipWith_cons_cons, ih]
    rw [← h, maskOr, if_pos (by simp)]
    · intro x hx; simp at hx
    · intro x hx; simp at hx

theorem masked_map {ι : Type} (op : Bool → ℝ → ℝ → ℝ) (l : List ι) (m : ι → Bool) (f g : ι → ℝ) :
    masked op (l.map m) (l.map f) (l.map g) = .ok (l.map fun p => op (m p) (f p) (g p)) := by
  rw [masked, if_pos (by simp)]
  congr 1
  induction l with
  | nil => rfl
  | cons p l ih => simp only [List.map_cons, List.zip_cons_cons, List.zipWith_cons_cons, ih]

theorem meanCorrelated_ok (pairs : List (Nat × Nat)) (m : Nat × Nat → Bool) (na nb : Nat)
    (ha : ∀ p ∈ pairs, p.1 < na) (hb : ∀ p ∈ pairs, p.2 < nb) (as bs : List (List ℝ)) (hl : as.length = bs.length)
    (hsa : ∀ c ∈ as, c.length = na) (hsb : ∀ c ∈ bs, c.length = nb) :
    meanCorrelated (pairs.map Prod.fst) (pairs.map Prod.snd) (pairs.map m) as bs =
      .ok (List.zipWith (fun ca cb => pairs.map fun p => rmsValue (m p) (ca.getD p.1 0) (cb.getD p.2 0)) as bs) := by
  induction as generalizing bs with
  | nil =>
    match bs, hl with
    | [], _ => rfl
  | cons a as ih =>
    match bs, hl with
    | b :: bs, hl =>
      have h1 := gather_ok a 0 (pairs.map Prod.fst) (by
        intro i hi
        obtain ⟨p, hp, rfl⟩ := List.mem_map.1 hi
        rw [hsa a List.mem_cons_self]; exact ha p hp)
      have h2 := gather_ok b 0 (pairs.map Prod.snd) (by
        intro i hi
        obtain ⟨p, hp, rfl⟩ := List.mem_map.1 hi
        rw [hsb b List.mem_cons_self]; exact hb p hp)
      rw [List.map_map] at h1 h2
      rw [meanCorrelated, h1, h2]
      simp only [Function.comp_def]
      rw [masked_map, ih bs (by simpa using hl) (fun c hc => hsa c (List.mem_cons_of_mem _ hc))
        fun c hc => hsb c (List.mem_cons_of_mem _ hc)]
      rfl

theorem mean_eq (a b : Observations ℝ) (na nb : Nat) (ha : Sized a na) (hb : Sized b nb) (pairs : List (Nat × Nat))
    (hp : Paired a.location b.location pairs) (ht : timesEqual a.time b.time = true)
    (hc : a.correlated.length = b.correlated.length) :
    mean a b = .ok ⟨pairs.map fun p => a.mask.getD p.1 true || b.mask.getD p.2 true, a.time,
      pairs.map fun p => a.location.getD p.1 0,
      pairs.map fun p => meanValue (a.mask.getD p.1 true || b.mask.getD p.2 true) (a.measurement.getD p.1 0)
        (b.measurement.getD p.2 0),
      pairs.map fun p => rmsValue (a.mask.getD p.1 true || b.mask.getD p.2 true) (a.uncorrelated.getD p.1 0)
        (b.uncorrelated.getD p.2 0),
      List.zipWith (fun ca cb => pairs.map fun p => rmsValue (a.mask.getD p.1 true || b.mask.getD p.2 true) (ca.getD p.1 0)
        (cb.getD p.2 0)) a.correlated b.correlated⟩ := by
  obtain ⟨ha1, ha2, ha3, ha4, ha5⟩ := ha
  obtain ⟨hb1, hb2, hb3, hb4, hb5⟩ := hb
  have hlta : ∀ p ∈ pairs, p.1 < na := fun p h => by
    obtain ⟨x, hx, _⟩ := hp.2.1 p h
    rw [← ha2]; exact (List.getElem?_eq_some_iff.1 hx).1
  have hltb : ∀ p ∈ pairs, p.2 < nb := fun p h => by
    obtain ⟨x, _, hx⟩ := hp.2.1 p h
    rw [← hb2]; exact (List.getElem?_eq_some_iff.1 hx).1
  have hra := restriction_fst _ _ _ hp
  have hrb := restriction_snd _ _ _ hp
  have ga : ∀ {α : Type} (l : List α) (d : α), l.length = na →
      gather l (pairs.map Prod.fst) = .ok (pairs.map fun p => l.getD p.1 d) := by
    intro α l d hl
    rw [gather_ok l d _ (by
      intro i hi
      obtain ⟨p, hpp, rfl⟩ := List.mem_map.1 hi
      rw [hl]; exact hlta p hpp), List.map_map]
    rfl
  have gb : ∀ {α : Type} (l : List α) (d : α), l.length = nb →
      gather l (pairs.map Prod.snd) = .ok (pairs.map fun p => l.getD p.2 d) := by
    intro α l d hl
    rw [gather_ok l d _ (by
      intro i hi
      obtain ⟨p, hpp, rfl⟩ := List.mem_map.1 hi
      rw [hl]; exact hltb p hpp), List.map_map]
    rfl
  have hloc : (pairs.map fun p => b.location.getD p.2 0) = pairs.map fun p => a.location.getD p.1 0 := by
    refine List.map_congr_left fun p h => ?_
    obtain ⟨x, hx, hx'⟩ := hp.2.1 p h
    rw [List.getD_eq_getElem?_getD, List.getD_eq_getElem?_getD, hx, hx']
  have hcor := meanCorrelated_ok pairs (fun p => a.mask.getD p.1 true || b.mask.getD p.2 true) na nb hlta hltb a.correlated
    b.correlated hc ha5 hb5
  rw [mean, hra, hrb, ga a.location 0 ha2, gb b.location 0 hb2, hloc]
  dsimp only
  rw [if_neg (by rw [allEqual_self]; simp), ga a.mask true ha1, gb b.mask true hb1]
  dsimp only
  rw [maskOr_map]
  dsimp only
  rw [if_neg (by rw [ht]; simp), ga a.measurement 0 ha3, gb b.measurement 0 hb3]
  dsimp only
  rw [masked_map]
  dsimp only
  rw [ga a.uncorrelated 0 ha4, gb b.uncorrelated 0 hb4]
  dsimp only
  rw [masked_map]
  dsimp only
  rw [if_neg (by simpa using hc), hcor]

/-! ### The mean -/

/-- **C26**, the mean: for any two collections with common locations in the same order, equal times and the same number of
correlated components.  One entry for each pair, invalid where either is invalid, otherwise with the mean of the measurements and
the root of the mean square of each kind of error. -/
theorem c26_mean (a b : Observations ℝ) (na nb : Nat) (ha : Sized a na) (hb : Sized b nb) (pairs : List (Nat × Nat))
    (hp : Paired a.location b.location pairs) (ht : timesEqual a.time b.time = true)
    (hc : a.correlated.length = b.correlated.length) :
    ∃ r, mean a b = .ok r ∧ Sized r pairs.length ∧ r.time = a.time ∧ r.correlated.length = a.correlated.length ∧
      ∀ k i j : Nat, pairs[k]? = some (i, j) → ∃ (ma mb : Bool) (va vb ua ub : ℝ),
        a.mask[i]? = some ma ∧ b.mask[j]? = some mb ∧ a.measurement[i]? = some va ∧ b.measurement[j]? = some vb ∧
        a.uncorrelated[i]? = some ua ∧ b.uncorrelated[j]? = some ub ∧
        r.mask[k]? = some (ma || mb) ∧ r.location[k]? = a.location[i]? ∧
        (ma = false → mb = false →
          r.measurement[k]? = some ((va + vb) / 2) ∧ r.uncorrelated[k]? = some (Real.sqrt ((ua ^ 2 + ub ^ 2) / 2)) ∧
          ∀ (c : Nat) (ca cb : List ℝ), a.correlated[c]? = some ca → b.correlated[c]? = some cb → ∃ (cr : List ℝ) (xa xb : ℝ), r.correlated[c]? = some cr ∧
            ca[i]? = some xa ∧ cb[j]? = some xb ∧ cr[k]? = some (Real.sqrt ((xa ^ 2 + xb ^ 2) / 2))) := by
  refine ⟨_, mean_eq a b na nb ha hb pairs hp ht hc, ?_, rfl, ?_, ?_⟩
  · refine ⟨by simp, by simp, by simp, by simp, ?_⟩
    intro c hcc
    obtain ⟨i, hi, rfl⟩ := List.mem_iff_getElem.1 hcc
    rw [List.getElem_zipWith]
    simp
  · simp [hc]
  · intro k i j hk
    obtain ⟨ha1, ha2, ha3, ha4, ha5⟩ := ha
    obtain ⟨hb1, hb2, hb3, hb4, hb5⟩ := hb
    have hmem : (i, j) ∈ pairs := List.mem_of_getElem? hk
    obtain ⟨x, hx, hx'⟩ := hp.2.1 _ hmem
    have hi : i < na := by rw [← ha2]; exact (List.getElem?_eq_some_iff.1 hx).1
    have hj : j < nb := by rw [← hb2]; exact (List.getElem?_eq_some_iff.1 hx').1
    have get : ∀ {α : Type} (l : List α) (d : α) (n q : Nat), l.length = n → q < n → l[q]? = some (l.getD q d) := by
      intro α l d n q hl hq
      rw [List.getD_eq_getElem?_getD, List.getElem?_eq_getElem (by omega)]
      rfl
    refine ⟨_, _, _, _, _, _, get a.mask true na i ha1 hi, get b.mask true nb j hb1 hj, get a.measurement 0 na i ha3 hi,
      get b.measurement 0 nb j hb3 hj, get a.uncorrelated 0 na i ha4 hi, get b.uncorrelated 0 nb j hb4 hj, ?_, ?_, ?_⟩
    · rw [List.getElem?_map, hk]; rfl
    · rw [List.getElem?_map, hk, get a.location 0 na i ha2 hi]; rfl
    · intro h1 h2
      refine ⟨?_, ?_, ?_⟩
      · rw [List.getElem?_map, hk, Option.map_some, h1, h2]
        congr 1
        simp only [meanValue, Bool.or_self, Bool.false_eq_true, if_false]
        ring
      · rw [List.getElem?_map, hk, Option.map_some, h1, h2]
        congr 1
        simp only [rmsValue, Bool.or_self, Bool.false_eq_true, if_false]
        congr 1
        ring
      · intro c ca cb hca hcb
        refine ⟨_, _, _, by rw [List.getElem?_zipWith, hca, hcb], get ca 0 na i (ha5 ca (List.mem_of_getElem? hca)) hi,
          get cb 0 nb j (hb5 cb (List.mem_of_getElem? hcb)) hj, ?_⟩
        rw [List.getElem?_map, hk, Option.map_some, h1, h2]
        congr 1
        simp only [rmsValue, Bool.or_self, Bool.false_eq_true, if_false]
        congr 1
        ring

/-- **C26**: with the same locations in both collections every entry has its pair. -/
theorem c26_same_locations (l : List UInt64) : Paired l l ((List.range l.length).map fun i => (i, i)) := by
  refine ⟨?_, ?_, ?_, ?_⟩
  · rw [List.pairwise_map]
    exact List.pairwise_lt_range.imp fun h => ⟨h, h⟩
  · intro p hp
    obtain ⟨i, hi, rfl⟩ := List.mem_map.1 hp
    exact ⟨_, List.getElem?_eq_getElem (List.mem_range.1 hi), List.getElem?_eq_getElem (List.mem_range.1 hi)⟩
  · intro i x hx _
    exact ⟨(i, i), List.mem_map.2 ⟨i, List.mem_range.2 (List.getElem?_eq_some_iff.1 hx).1, rfl⟩, rfl⟩
  · intro i x hx _
    exact ⟨(i, i), List.mem_map.2 ⟨i, List.mem_range.2 (List.getElem?_eq_some_iff.1 hx).1, rfl⟩, rfl⟩

/-- **C26**: where no location is listed twice, the pairs are all those of the same location. -/
theorem c26_pairs (a b : List UInt64) (ha : a.Nodup) (hb : b.Nodup) (pairs : List (Nat × Nat)) (hp : Paired a b pairs)
    (i j : Nat) : (i, j) ∈ pairs ↔ ∃ x, a[i]? = some x ∧ b[j]? = some x := by
  constructor
  · exact fun h => hp.2.1 _ h
  · rintro ⟨x, h1, h2⟩
    obtain ⟨p, hpp, hpi⟩ := hp.2.2.1 i x h1 (List.mem_of_getElem? h2)
    obtain ⟨y, h3, h4⟩ := hp.2.1 p hpp
    rw [hpi, h1] at h3
    cases h3
    have : p.2 = j := by
      obtain ⟨h5, h6⟩ := List.getElem?_eq_some_iff.1 h4
      obtain ⟨h7, h8⟩ := List.getElem?_eq_some_iff.1 h2
      exact (List.Nodup.getElem_inj_iff hb).1 (h6.trans h8.symm)
    rw [← hpi, ← this]
    exact hpp

/-- **C26**: only collections with common locations in the same order and equal times have a mean; others are refused. -/
theorem c26_refused (a b r : Observations ℝ) (na nb : Nat) (ha : Sized a na) (hb : Sized b nb) (h : mean a b = .ok r) :
    (∃ pairs, Paired a.location b.location pairs) ∧ timesEqual a.time b.time = true ∧
      a.correlated.length = b.correlated.length := by
  obtain ⟨ha1, ha2, ha3, ha4, ha5⟩ := ha
  obtain ⟨hb1, hb2, hb3, hb4, hb5⟩ := hb
  have hra : ∀ i ∈ restriction a.location b.location, i < na := by
    intro i hi
    obtain ⟨v, hv, _⟩ := (mem_restriction _ _ _).1 hi
    rw [← ha2]; exact (List.getElem?_eq_some_iff.1 hv).1
  have hrb : ∀ i ∈ restriction b.location a.location, i < nb := by
    intro i hi
    obtain ⟨v, hv, _⟩ := (mem_restriction _ _ _).1 hi
    rw [← hb2]; exact (List.getElem?_eq_some_iff.1 hv).1
  have ga : ∀ {α : Type} (l : List α) (d : α), l.length = na → gather l (restriction a.location b.location) =
      .ok ((restriction a.location b.location).map fun i => l.getD i d) := fun l d hl =>
    gather_ok l d _ fun i hi => by rw [hl]; exact hra i hi
  have gb : ∀ {α : Type} (l : List α) (d : α), l.length = nb → gather l (restriction b.location a.location) =
      .ok ((restriction b.location a.location).map fun i => l.getD i d) := fun l d hl =>
    gather_ok l d _ fun i hi => by rw [hl]; exact hrb i hi
  rw [mean, ga a.location 0 ha2, gb b.location 0 hb2] at h
  dsimp only at h
  split at h
  · cases h
  rename_i hloc
  rw [ga a.mask true ha1, gb b.mask true hb1] at h
  dsimp only at h
  split at h
  · cases h
  rename_i mask _
  split at h
  · cases h
  rename_i htime
  rw [ga a.measurement 0 ha3, gb b.measurement 0 hb3] at h
  dsimp only at h
  split at h
  · cases h
  rename_i measurement hmeas
  rw [ga a.uncorrelated 0 ha4, gb b.uncorrelated 0 hb4] at h
  dsimp only at h
  split at h
  · cases h
  split at h
  · cases h
  rename_i hcor
  have hlen : (restriction a.location b.location).length = (restriction b.location a.location).length := by
    rw [masked] at hmeas
    split at hmeas
    · rename_i hl
      rw [List.length_map, List.length_map] at hl
      omega
    · cases hmeas
  have heq := allEqual_eq ((restriction a.location b.location).map fun i => a.location.getD i 0)
    ((restriction b.location a.location).map fun i => b.location.getD i 0) (by rw [List.length_map, List.length_map, hlen]) (by simpa using hloc)
  refine ⟨⟨(restriction a.location b.location).zip (restriction b.location a.location), ?_, ?_, ?_, ?_⟩,
    by simpa using htime, by simpa using hcor⟩
  · have h1 := restriction_sorted a.location b.location
    have h2 := restriction_sorted b.location a.location
    rw [List.pairwise_iff_getElem] at h1 h2 ⊢
    intro i j hi hj hij
    rw [List.getElem_zip, List.getElem_zip]
    rw [List.length_zip] at hi hj
    exact ⟨h1 i j (by omega) (by omega) hij, h2 i j (by omega) (by omega) hij⟩
  · intro p hpp
    obtain ⟨k, hk, rfl⟩ := List.mem_iff_getElem.1 hpp
    rw [List.length_zip] at hk
    rw [List.getElem_zip]
    obtain ⟨v, hv, _⟩ := (mem_restriction _ _ _).1 (List.getElem_mem (by omega : k < (restriction a.location b.location).length))
    obtain ⟨w, hw, _⟩ := (mem_restriction _ _ _).1 (List.getElem_mem (by omega : k < (restriction b.location a.location).length))
    have hk' := congrArg (fun l => l[k]?) heq
    simp only [List.getElem?_map] at hk'
    rw [List.getElem?_eq_getElem (by omega : k < (restriction a.location b.location).length),
      List.getElem?_eq_getElem (by omega : k < (restriction b.location a.location).length)] at hk'
    simp only [Option.map_some, Option.some.injEq, List.getD_eq_getElem?_getD, hv, hw, Option.getD_some] at hk'
    exact ⟨v, hv, by rw [hk']; exact hw⟩
  · intro i x hx hxb
    have hi := (mem_restriction _ _ _).2 ⟨x, hx, hxb⟩
    obtain ⟨k, hk, hki⟩ := List.mem_iff_getElem.1 hi
    exact ⟨_, List.getElem_mem (by rw [List.length_zip]; omega : k < _), by rw [List.getElem_zip]; exact hki⟩
  · intro i x hx hxb
    have hi := (mem_restriction _ _ _).2 ⟨x, hx, hxb⟩
    obtain ⟨k, hk, hki⟩ := List.mem_iff_getElem.1 hi
    exact ⟨_, List.getElem_mem (by rw [List.length_zip]; omega : k < _), by rw [List.getElem_zip]; exact hki⟩

/-- Two collections with different first locations. -/
noncomputable def firstTwo : Observations ℝ := ⟨[false, false], .array [5, 6], [1, 2], [280, 290], [3, 4], []⟩

/-- See `firstTwo`. -/
noncomputable def lastTwo : Observations ℝ := ⟨[false, false], .array [5, 6], [2, 3], [300, 310], [3, 4], []⟩

theorem twoPaired : Paired firstTwo.location lastTwo.location [(1, 0)] := by
  refine ⟨by simp, by simp [firstTwo, lastTwo], ?_, ?_⟩
  · intro i x hx hb
    match i with
    | 0 =>
      simp only [firstTwo, List.getElem?_cons_zero, Option.some.injEq] at hx
      subst hx
      simp [lastTwo] at hb
    | 1 => exact ⟨(1, 0), by simp, rfl⟩
    | i + 2 => simp [firstTwo] at hx
  · intro i x hx hb
    match i with
    | 0 => exact ⟨(1, 0), by simp, rfl⟩
    | 1 =>
      simp only [lastTwo, List.getElem?_cons_succ, List.getElem?_cons_zero, Option.some.injEq] at hx
      subst hx
      simp [firstTwo] at hb
    | i + 2 => simp [lastTwo] at hx

/-- Non-vacuity of `c26_mean`: one common location out of three. -/
example : ∃ r, mean firstTwo lastTwo = .ok r ∧ r.location = [2] ∧ r.measurement = [295] := by
  refine ⟨_, mean_eq firstTwo lastTwo 2 2 (by simp [Sized, firstTwo]) (by simp [Sized, lastTwo]) _ twoPaired
    (by simp [timesEqual, firstTwo, lastTwo, allEqual]) rfl, rfl, ?_⟩
  norm_num [meanValue, firstTwo, lastTwo]

/-- **C26 violated**: times in arrays are not restricted to the common locations.  The result has two times for one observation,
and the mean is taken of observations of different times. -/
theorem c26_time_violated : ∃ a b r, Sized a 2 ∧ Sized b 2 ∧ mean a b = .ok r ∧ r.measurement.length = 1 ∧
    r.time = .array [5, 6] ∧ (∃ i j : Nat, a.location[i]? = some 2 ∧ b.location[j]? = some 2 ∧
      ∃ ta tb, a.time = .array ta ∧ b.time = .array tb ∧ ta[i]? = some 6 ∧ tb[j]? = some 5) := by
  refine ⟨firstTwo, lastTwo, _, by simp [Sized, firstTwo], by simp [Sized, lastTwo], mean_eq firstTwo lastTwo 2 2
    (by simp [Sized, firstTwo]) (by simp [Sized, lastTwo]) _ twoPaired
    (by simp [timesEqual, firstTwo, lastTwo, allEqual]) rfl, by simp, rfl, 1, 0, rfl, rfl, _, _, rfl, rfl, rfl, rfl⟩

/-! ### The mean of minimum and maximum -/

theorem restriction_nil (x : List UInt64) : restriction x [] = [] := by
  rw [List.eq_nil_iff_forall_not_mem]
  intro i hi
  obtain ⟨v, _, h⟩ := (mem_restriction _ _ _).1 hi
  simp at h

theorem mean_none (daynumber : Int) (obs : Observations ℝ) (ht : obs.time = .scalar daynumber) :
    mean (load daynumber none) obs =
      if obs.correlated.length = 0 then .ok ⟨[], .scalar daynumber, [], [], [], []⟩ else .error .valueError := by
  have h1 : restriction (load daynumber none).location obs.location = [] := rfl
  have h2 : restriction obs.location (load daynumber none).location = [] := restriction_nil _
  rw [mean, h1, h2, ht]
  have h3 : timesEqual (load daynumber none).time (.scalar daynumber) = true := by simp [load, timesEqual]
  simp only [gather, allEqual, maskOr, h3, masked, List.length_nil, decide_true, Bool.true_eq_false, if_false, and_self,
    if_true, List.zip_nil_left, List.zipWith_nil_right]
  by_cases h : obs.correlated.length = 0
  · rw [if_pos h, if_neg (by rw [h]; simp [load])]
    rw [List.length_eq_zero_iff.1 h]
    rfl
  · rw [if_neg h, if_pos (by simpa [load] using Ne.symm h)]

/-- **C26**: where neither minimum nor maximum has a file there are no observations of the mean, which is not an error. -/
theorem c26_both_missing (daynumber : Int) :
    computedMean daynumber ⟨none, some none, some none⟩ = .ok ⟨[], .scalar daynumber, [], [], [], []⟩ := by
  rw [computedMean]
  exact (mean_none daynumber (load daynumber none) rfl).trans rfl

/-- **C26 violated**: where only the minimum has no file, the mean is an error instead of no observations, unless there are no
correlated components. -/
theorem c26_one_missing_violated (daynumber : Int) (obs : Observations ℝ) (ht : obs.time = .scalar daynumber)
    (hc : obs.correlated ≠ []) :
    computedMean daynumber ⟨none, some none, some (some obs)⟩ = .error .valueError := by
  rw [computedMean]
  refine (mean_none daynumber obs ht).trans (if_neg ?_)
  simpa using hc

/-! ### Appending -/

/-- One observation of a collection. -/
def entry {R : Type} (obs : Observations R) (k : Nat) : Option Bool × Option UInt64 × Option R × Option R × List (Option R) :=
  (obs.mask[k]?, obs.location[k]?, obs.measurement[k]?, obs.uncorrelated[k]?, obs.correlated.map fun c => c[k]?)

/-- **C26**, appending: every entry is kept; those of the second collection follow, with their locations moved. -/
theorem c26_append {R : Type} (self other : Observations R) (n m : Nat) (hs : Sized self n) (ho : Sized other m) (day : Int)
    (ht : self.time = .scalar day) (ht' : other.time = .scalar day) (hc : self.correlated.length = other.correlated.length)
    (offset : UInt64) : ∃ r, append self other offset = (r, .ok ()) ∧ Sized r (n + m) ∧ r.time = .scalar day ∧
      (∀ k, k < n → entry r k = entry self k) ∧
      ∀ k, k < m → entry r (n + k) = ((entry other k).1, (entry other k).2.1.map (· + offset), (entry other k).2.2) := by
  obtain ⟨h1, h2, h3, h4, h5⟩ := hs
  obtain ⟨g1, g2, g3, g4, g5⟩ := ho
  have hd : timesDiffer self.time other.time = .ok false := by
    rw [ht, ht']
    simp [timesDiffer, Time.values]
  have happ : append self other offset = ({ self with
      mask := self.mask ++ other.mask
      location := self.location ++ other.location.map (· + offset)
      measurement := self.measurement ++ other.measurement
      uncorrelated := self.uncorrelated ++ other.uncorrelated
      correlated := List.zipWith (· ++ ·) self.correlated other.correlated }, .ok ()) := by
    rw [append, hd]
    exact if_neg (by simpa using hc)
  refine ⟨_, happ, ?_, ht, ?_, ?_⟩
  · refine ⟨by simp [h1, g1], by simp [h2, g2], by simp [h3, g3], by simp [h4, g4], ?_⟩
    intro c hcc
    obtain ⟨i, hi, rfl⟩ := List.mem_iff_getElem.1 hcc
    rw [List.getElem_zipWith, List.length_append, h5 _ (List.getElem_mem _), g5 _ (List.getElem_mem _)]
  · intro k hk
    unfold entry
    simp only [List.getElem?_append_left (h1 ▸ hk : k < self.mask.length),
      List.getElem?_append_left (h2 ▸ hk : k < self.location.length),
      List.getElem?_append_left (h3 ▸ hk : k < self.measurement.length),
      List.getElem?_append_left (h4 ▸ hk : k < self.uncorrelated.length)]
    congr 4
    refine List.ext_getElem (by simp [hc]) fun i hi hi' => ?_
    rw [List.getElem_map, List.getElem_map, List.getElem_zipWith]
    exact List.getElem?_append_left (by rw [h5 _ (List.getElem_mem _)]; exact hk)
  · intro k hk
    unfold entry
    rw [List.getElem?_append_right (by omega), List.getElem?_append_right (by omega), List.getElem?_append_right (by omega),
      List.getElem?_append_right (by omega), h1, h2, h3, h4, Nat.add_sub_cancel_left, List.getElem?_map]
    congr 4
    refine List.ext_getElem (by simp [hc]) fun i hi hi' => ?_
    rw [List.getElem_map, List.getElem_map, List.getElem_zipWith, List.getElem?_append_right (by
      rw [h5 _ (List.getElem_mem _)]; omega), h5 _ (List.getElem_mem _), Nat.add_sub_cancel_left]

/-- Non-vacuity of `c26_append`. -/
example : Sized (⟨[false], .scalar 3, [7], [280], [1], [[2]]⟩ : Observations ℝ) 1 := by simp [Sized]

/-- **C26 violated**: a collection which is refused has changed the first one nevertheless: its mask is longer than its
measurements. -/
theorem c26_append_refused_violated {R : Type} (self other : Observations R) (n m : Nat) (hs : Sized self n)
    (ho : Sized other m) (hm : 0 < m) (day day' : Int) (ht : self.time = .scalar day) (ht' : other.time = .scalar day')
    (hd : day ≠ day') (offset : UInt64) : ∃ r, append self other offset = (r, .error .valueError) ∧
      r.measurement.length < r.mask.length := by
  have hdiff : timesDiffer self.time other.time = .ok true := by
    rw [ht, ht']
    simp [timesDiffer, Time.values, hd]
  refine ⟨_, by rw [append, hdiff], ?_⟩
  have h1 := hs.1
  have h2 := hs.2.2.1
  have h3 := ho.1
  rw [List.length_append]
  show self.measurement.length < _
  omega

end Verif.Eustace.ObsSource
