import Verif.Eustace.Satgrid.Props

/-!
C61: holding all values of a box in an array, and keeping running sums, give the same fields.
-/

namespace Verif.Eustace.Satgrid

open Verif

/-! ### Specification -/

/-- All arrays of a batch have the same length. -/
def Batch.Sized (b : Batch) : Prop :=
  b.observations.length = b.indices.length ∧ b.ran.length = b.indices.length ∧ b.atm.length = b.indices.length ∧
    b.sfc.length = b.indices.length

/-- The values which a batch has for a box. -/
def Batch.valuesIn (b : Batch) (g : Nat) : List ℝ :=
  ((b.indices.zip b.observations).filter fun p => decide (p.1 = g)).map Prod.snd

/-- The values which several batches have for a box. -/
def valuesIn (batches : List Batch) (g : Nat) : List ℝ := batches.flatMap fun b => b.valuesIn g

/-- Calls of `aggregate_at_indices`, one after the other, of an `AggregateGridArray` (aggregate_grid.py 101-143). -/
noncomputable def Held.aggregateAll (boxes room : Nat) : Held → List Batch → Except PyErr Held
  | s, [] => .ok s
  | s, b :: rest =>
    match s.aggregate boxes room b with
    | .error e => .error e
    | .ok s' => Held.aggregateAll boxes room s' rest

/-- Calls of `aggregate_at_indices`, one after the other, of an `AggregateGridCountSumMinMax` (aggregate_grid.py 222-233). -/
noncomputable def Running.aggregateAll (s : Running) (batches : List Batch) : Running := batches.foldl Running.aggregate s

/-! ### Lemmas -/

/-- Both objects have seen the same values. -/
structure Alike (boxes room : Nat) (s : Held) (r : Running) (seen : Nat → List ℝ) : Prop where
  count : ∀ g, s.count g = (seen g).length
  stats : ∀ g, r.stats g = (seen g).foldl Stats.add ⟨0, 0, floatMax, -floatMax⟩
  ran : s.ran = r.ran
  atm : s.atm = r.atm
  sfc : s.sfc = r.sfc
  sys : s.sys = r.sys
  values : ∀ g k, g < boxes → k < room → s.values (g * room + k) = (seen g).getD k 0

theorem place_unique (room g g' k k' : Nat) (h : k < room) (h' : k' < room) (e : g * room + k = g' * room + k') :
    g = g' ∧ k = k' := by
  have hr : 0 < room := by omega
  have h1 : (g * room + k) / room = g := by
    rw [Nat.mul_comm, Nat.mul_add_div hr, Nat.div_eq_of_lt h, Nat.add_zero]
  have h2 : (g' * room + k') / room = g' := by
    rw [Nat.mul_comm, Nat.mul_add_div hr, Nat.div_eq_of_lt h', Nat.add_zero]
  have : g = g' := by rw [← h1, ← h2, e]
  subst this
  exact ⟨rfl, by omega⟩

theorem getD_snoc (l : List ℝ) (x : ℝ) (k : Nat) : (l ++ [x]).getD k 0 = if k = l.length then x else l.getD k 0 := by
  simp only [List.getD_eq_getElem?_getD]
  split
  · rename_i h
    rw [h, List.getElem?_append_right (le_refl _)]
    simp
  · rename_i h
    by_cases hk : k < l.length
    · rw [List.getElem?_append_left hk]
    · rw [List.getElem?_append_right (by omega), List.getElem?_eq_none (by simp; omega), List.getElem?_eq_none (by omega)]

/-- One value more. -/
theorem alike_add (boxes room : Nat) (s : Held) (r : Running) (seen : Nat → List ℝ) (h : Alike boxes room s r seen)
    (g : Nat) (x ran atm sfc sys : ℝ) (hg : g < boxes) (hroom : (seen g).length < room) :
    ∃ s', Held.add boxes room sys s g x ran atm sfc = .ok s' ∧
      Alike boxes room s' (r.aggregate ⟨[g], [x], [ran], [atm], [sfc], sys⟩)
        (Function.update seen g (seen g ++ [x])) := by
  unfold Held.add
  rw [if_neg]
  · refine ⟨_, rfl, ?_, ?_, ?_, ?_, ?_, ?_, ?_⟩
    · intro g'
      by_cases e : g' = g
      · subst e
        simp [h.count g']
      · simp [Function.update_of_ne e, h.count g']
    · intro g'
      show aggregateCountSumMinMax r.stats [x] [g] g' = _
      simp only [aggregateCountSumMinMax, List.zip_cons_cons, List.zip_nil_left, scatter]
      by_cases e : g' = g
      · subst e
        rw [Function.update_self, Function.update_self, List.foldl_append, h.stats g']
        rfl
      · rw [Function.update_of_ne e, Function.update_of_ne e, h.stats g']
    · show Function.update s.ran g _ = Function.update r.ran g _
      rw [h.ran]
    · show Function.update s.atm g _ = Function.update r.atm g _
      rw [h.atm]
    · show Function.update s.sfc g _ = Function.update r.sfc g _
      rw [h.sfc]
    · show Function.update s.sys g _ = Function.update r.sys g _
      rw [h.sys]
    · intro g' k hg' hk
      simp only
      rw [h.count g]
      by_cases e : g' * room + k = g * room + (seen g).length
      · obtain ⟨e1, e2⟩ := place_unique room g' g k (seen g).length hk hroom e
        subst e1
        rw [e, Function.update_self, Function.update_self, getD_snoc, if_pos e2]
      · rw [Function.update_of_ne e, h.values g' k hg' hk]
        by_cases e1 : g' = g
        · subst e1
          rw [Function.update_self, getD_snoc, if_neg]
          rintro rfl
          exact e rfl
        · rw [Function.update_of_ne e1]
  · rw [h.count g, not_le]
    calc g * room + (seen g).length < g * room + room := by omega
      _ = (g + 1) * room := by ring
      _ ≤ boxes * room := Nat.mul_le_mul_right _ hg

theorem valuesIn_cons (g : Nat) (gs : List Nat) (x : ℝ) (xs rs as fs rs' as' fs' : List ℝ) (sys : ℝ) (g' : Nat) :
    (Batch.mk (g :: gs) (x :: xs) rs as fs sys).valuesIn g' =
      (if g = g' then [x] else []) ++ (Batch.mk gs xs rs' as' fs' sys).valuesIn g' := by
  unfold Batch.valuesIn
  rw [List.zip_cons_cons]
  by_cases h : g = g'
  · rw [List.filter_cons_of_pos (by simpa using h), if_pos h]
    rfl
  · rw [List.filter_cons_of_neg (by simpa using h), if_neg h]
    rfl

theorem alike_loop (boxes room : Nat) (sys : ℝ) (gs : List Nat) : ∀ (s : Held) (r : Running) (seen : Nat → List ℝ)
    (xs rs as fs : List ℝ), Alike boxes room s r seen → (Batch.mk gs xs rs as fs sys).Sized → (∀ g ∈ gs, g < boxes) →
    (∀ g, (seen g ++ (Batch.mk gs xs rs as fs sys).valuesIn g).length ≤ room) →
    ∃ s', Held.loop boxes room sys s gs xs rs as fs = .ok s' ∧
      Alike boxes room s' (r.aggregate ⟨gs, xs, rs, as, fs, sys⟩)
        (fun g => seen g ++ (Batch.mk gs xs rs as fs sys).valuesIn g) := by
  induction gs with
  | nil =>
    intro s r seen xs rs as fs h hs _ _
    obtain ⟨h1, h2, h3, h4⟩ := hs
    simp only [List.length_nil, List.length_eq_zero_iff] at h1 h2 h3 h4
    subst h1 h2 h3 h4
    refine ⟨s, rfl, ?_⟩
    have : (fun g => seen g ++ (Batch.mk [] [] [] [] [] sys).valuesIn g) = seen := by
      funext g
      simp [Batch.valuesIn]
    rw [this]
    exact h
  | cons g gs ih =>
    intro s r seen xs rs as fs h hs hg hroom
    obtain ⟨h1, h2, h3, h4⟩ := hs
    obtain ⟨x, xs, rfl⟩ := List.exists_cons_of_length_eq_add_one h1
    obtain ⟨ran, rs, rfl⟩ := List.exists_cons_of_length_eq_add_one h2
    obtain ⟨atm, as, rfl⟩ := List.exists_cons_of_length_eq_add_one h3
    obtain ⟨sfc, fs, rfl⟩ := List.exists_cons_of_length_eq_add_one h4
    have hvals : ∀ g', Function.update seen g (seen g ++ [x]) g' ++ (Batch.mk gs xs rs as fs sys).valuesIn g' =
        seen g' ++ (Batch.mk (g :: gs) (x :: xs) (ran :: rs) (atm :: as) (sfc :: fs) sys).valuesIn g' := by
      intro g'
      rw [valuesIn_cons g gs x xs _ _ _ rs as fs]
      by_cases e : g = g'
      · subst e
        rw [Function.update_self, if_pos rfl, List.append_assoc]
      · rw [Function.update_of_ne (Ne.symm e), if_neg e, List.nil_append]
    obtain ⟨s1, e1, a1⟩ := alike_add boxes room s r seen h g x ran atm sfc sys (hg g (by simp)) (by
      have := hroom g
      rw [valuesIn_cons g gs x xs _ _ _ rs as fs, if_pos rfl] at this
      simp only [List.length_append, List.length_cons, List.length_nil] at this
      omega)
    obtain ⟨s2, e2, a2⟩ := ih s1 _ _ xs rs as fs a1
      ⟨by simpa using h1, by simpa using h2, by simpa using h3, by simpa using h4⟩
      (fun k hk => hg k (by simp [hk])) (fun k => by rw [hvals]; exact hroom k)
    refine ⟨s2, by rw [Held.loop, e1]; exact e2, ?_⟩
    have : (fun g' => Function.update seen g (seen g ++ [x]) g' ++ (Batch.mk gs xs rs as fs sys).valuesIn g') =
        fun g' => seen g' ++ (Batch.mk (g :: gs) (x :: xs) (ran :: rs) (atm :: as) (sfc :: fs) sys).valuesIn g' := funext hvals
    rw [this] at a2
    exact a2

theorem alike_all (boxes room : Nat) (batches : List Batch) : ∀ (s : Held) (r : Running) (seen : Nat → List ℝ),
    Alike boxes room s r seen → (∀ b ∈ batches, b.Sized ∧ ∀ g ∈ b.indices, g < boxes) →
    (∀ g, (seen g ++ valuesIn batches g).length ≤ room) →
    ∃ s', s.aggregateAll boxes room batches = .ok s' ∧
      Alike boxes room s' (r.aggregateAll batches) (fun g => seen g ++ valuesIn batches g) := by
  induction batches with
  | nil =>
    intro s r seen h _ _
    refine ⟨s, rfl, ?_⟩
    simpa [valuesIn, Running.aggregateAll] using h
  | cons b rest ih =>
    intro s r seen h hs hroom
    have hv : ∀ g, valuesIn (b :: rest) g = b.valuesIn g ++ valuesIn rest g := fun g => by simp [valuesIn]
    obtain ⟨gs, xs, rs, as, fs, sys⟩ := b
    obtain ⟨s1, e1, a1⟩ := alike_loop boxes room sys gs s r seen xs rs as fs h (hs _ List.mem_cons_self).1
      (hs _ List.mem_cons_self).2 (fun g => by
      have := hroom g
      rw [hv] at this
      simp only [List.length_append] at this ⊢
      omega)
    obtain ⟨s2, e2, a2⟩ := ih s1 _ _ a1 (fun b hb => hs b (by simp [hb])) (fun g => by
      rw [List.append_assoc, ← hv]
      exact hroom g)
    refine ⟨s2, ?_, ?_⟩
    · rw [Held.aggregateAll, Held.aggregate, e1]
      exact e2
    · have : (fun g => (seen g ++ (Batch.mk gs xs rs as fs sys).valuesIn g) ++ valuesIn rest g) =
          fun g => seen g ++ valuesIn (⟨gs, xs, rs, as, fs, sys⟩ :: rest) g := by
        funext g
        rw [hv, List.append_assoc]
      rw [this] at a2
      exact a2

theorem alike_empty (boxes room : Nat) : Alike boxes room Held.empty Running.empty fun _ => [] :=
  ⟨fun _ => rfl, fun _ => rfl, rfl, rfl, rfl, rfl, fun _ _ _ _ => rfl⟩

theorem range_getD (l : List ℝ) (n : Nat) (h : l.length ≤ n) :
    (List.range n).map (fun k => l.getD k 0) = l ++ List.replicate (n - l.length) 0 := by
  apply List.ext_getElem?
  intro k
  rw [List.getElem?_map]
  by_cases hk : k < n
  · rw [List.getElem?_range hk]
    by_cases h1 : k < l.length
    · rw [List.getElem?_append_left h1]
      simp [h1]
    · rw [List.getElem?_append_right (by omega), List.getElem?_replicate, if_pos (by omega)]
      simp [List.getD_eq_getElem?_getD, List.getElem?_eq_none (not_lt.1 h1)]
  · rw [List.getElem?_eq_none (by simp; omega), List.getElem?_eq_none (by simp; omega)]
    rfl

theorem alike_row {boxes room : Nat} {s : Held} {r : Running} {seen : Nat → List ℝ} (h : Alike boxes room s r seen) (g : Nat)
    (hg : g < boxes) (hl : (seen g).length ≤ room) : s.row room g = seen g ++ List.replicate (room - (seen g).length) 0 := by
  rw [← range_getD _ _ hl]
  unfold Held.row
  apply List.map_congr_left
  intro k hk
  exact h.values g k hg (List.mem_range.1 hk)

theorem filter_row (l : List ℝ) (n : Nat) : open Classical in
    (l ++ List.replicate n 0).filter (fun x => decide (x ≠ 0)) = l.filter fun x => decide (x ≠ 0) := by
  classical
  rw [List.filter_append]
  have : (List.replicate n (0 : ℝ)).filter (fun x => decide (x ≠ 0)) = [] := by
    rw [List.filter_eq_nil_iff]
    intro x hx
    rw [List.eq_of_mem_replicate hx]
    simp
  rw [this, List.append_nil]

theorem foldl_max_greatest (x : ℝ) (l : List ℝ) : IsGreatest {y | y ∈ x :: l} (l.foldl max x) := by
  induction l generalizing x with
  | nil => exact ⟨by simp, by simp [mem_upperBounds]⟩
  | cons z rest ih =>
    rw [List.foldl_cons]
    obtain ⟨h1, h2⟩ := ih (max x z)
    refine ⟨?_, ?_⟩
    · rcases List.mem_cons.1 h1 with h | h
      · rcases max_choice x z with e | e
        · rw [e] at h
          simp only [Set.mem_setOf_eq]
          rw [e, h]
          simp
        · rw [e] at h
          simp only [Set.mem_setOf_eq]
          rw [e, h]
          simp
      · simp only [Set.mem_setOf_eq]
        exact List.mem_cons_of_mem _ (List.mem_cons_of_mem _ h)
    · intro y hy
      have hm : max x z ≤ rest.foldl max (max x z) := h2 (by simp)
      rcases List.mem_cons.1 hy with rfl | hy
      · exact le_trans (le_max_left _ _) hm
      · rcases List.mem_cons.1 hy with rfl | hy
        · exact le_trans (le_max_right _ _) hm
        · exact h2 (by simp [hy])

theorem foldl_min_least (x : ℝ) (l : List ℝ) : IsLeast {y | y ∈ x :: l} (l.foldl min x) := by
  induction l generalizing x with
  | nil => exact ⟨by simp, by simp [mem_lowerBounds]⟩
  | cons z rest ih =>
    rw [List.foldl_cons]
    obtain ⟨h1, h2⟩ := ih (min x z)
    refine ⟨?_, ?_⟩
    · rcases List.mem_cons.1 h1 with h | h
      · rcases min_choice x z with e | e
        · rw [e] at h
          simp only [Set.mem_setOf_eq]
          rw [e, h]
          simp
        · rw [e] at h
          simp only [Set.mem_setOf_eq]
          rw [e, h]
          simp
      · simp only [Set.mem_setOf_eq]
        exact List.mem_cons_of_mem _ (List.mem_cons_of_mem _ h)
    · intro y hy
      have hm : rest.foldl min (min x z) ≤ min x z := h2 (by simp)
      rcases List.mem_cons.1 hy with rfl | hy
      · exact le_trans hm (min_le_left _ _)
      · rcases List.mem_cons.1 hy with rfl | hy
        · exact le_trans hm (min_le_right _ _)
        · exact h2 (by simp [hy])

theorem masked_greatest (l : List ℝ) (n : Nat) (hne : l ≠ []) (h0 : (0 : ℝ) ∉ l) :
    IsGreatest {y | y ∈ l} (maskedMax (l ++ List.replicate n 0)) := by
  classical
  have hf : (l ++ List.replicate n 0).filter (fun x => decide (x ≠ 0)) = l := by
    rw [filter_row, List.filter_eq_self]
    intro x hx
    simp only [decide_eq_true_eq]
    rintro rfl
    exact h0 hx
  obtain ⟨x, rest, rfl⟩ := List.exists_cons_of_ne_nil hne
  unfold maskedMax
  have := foldl_max_greatest x rest
  rw [hf]
  exact this

theorem masked_least (l : List ℝ) (n : Nat) (hne : l ≠ []) (h0 : (0 : ℝ) ∉ l) :
    IsLeast {y | y ∈ l} (maskedMin (l ++ List.replicate n 0)) := by
  classical
  have hf : (l ++ List.replicate n 0).filter (fun x => decide (x ≠ 0)) = l := by
    rw [filter_row, List.filter_eq_self]
    intro x hx
    simp only [decide_eq_true_eq]
    rintro rfl
    exact h0 hx
  obtain ⟨x, rest, rfl⟩ := List.exists_cons_of_ne_nil hne
  unfold maskedMin
  have := foldl_min_least x rest
  rw [hf]
  exact this

theorem running_greatest (l : List ℝ) (hne : l ≠ []) (h : ∀ x ∈ l, |x| ≤ floatMax) :
    IsGreatest {y | y ∈ l} (l.foldl Stats.add ⟨0, 0, floatMax, -floatMax⟩).max := by
  obtain ⟨m1, m2, m3⟩ := stats_max l ⟨0, 0, floatMax, -floatMax⟩
  refine ⟨?_, fun x hx => m1 x hx⟩
  rcases m3 with m3 | m3
  · obtain ⟨x, hx⟩ := List.exists_mem_of_ne_nil l hne
    have : x = (l.foldl Stats.add ⟨0, 0, floatMax, -floatMax⟩).max := by
      refine le_antisymm (m1 x hx) ?_
      rw [m3]
      exact (abs_le.1 (h x hx)).1
    rw [← this]
    exact hx
  · exact m3

theorem running_least (l : List ℝ) (hne : l ≠ []) (h : ∀ x ∈ l, |x| ≤ floatMax) :
    IsLeast {y | y ∈ l} (l.foldl Stats.add ⟨0, 0, floatMax, -floatMax⟩).min := by
  obtain ⟨m1, m2, m3⟩ := stats_min l ⟨0, 0, floatMax, -floatMax⟩
  refine ⟨?_, fun x hx => m1 x hx⟩
  rcases m3 with m3 | m3
  · obtain ⟨x, hx⟩ := List.exists_mem_of_ne_nil l hne
    have : x = (l.foldl Stats.add ⟨0, 0, floatMax, -floatMax⟩).min := by
      refine le_antisymm ?_ (m1 x hx)
      rw [m3]
      exact (abs_le.1 (h x hx)).2
    rw [← this]
    exact hx
  · exact m3

theorem valuesIn_outside (boxes : Nat) (batches : List Batch) (h : ∀ b ∈ batches, b.Sized ∧ ∀ g ∈ b.indices, g < boxes)
    (g : Nat) (hg : ¬ g < boxes) : valuesIn batches g = [] := by
  unfold valuesIn
  rw [List.flatMap_eq_nil_iff]
  intro b hb
  unfold Batch.valuesIn
  rw [List.map_eq_nil_iff, List.filter_eq_nil_iff]
  intro p hp
  simp only [decide_eq_true_eq]
  rintro rfl
  exact hg ((h b hb).2 _ (List.of_mem_zip hp).1)

/-! ### Theorems -/

/-- C61, the part that holds: as long as no box has more values than there is room for, no value is zero and all are within the
range of the format, both objects give the same fields after any calls, for any flag. -/
theorem c61_same_partial (boxes room : Nat) (batches : List Batch) (flag : ℝ)
    (hs : ∀ b ∈ batches, b.Sized ∧ ∀ g ∈ b.indices, g < boxes)
    (hroom : ∀ g, (valuesIn batches g).length ≤ room) (h0 : ∀ g, ∀ x ∈ valuesIn batches g, x ≠ 0 ∧ |x| ≤ floatMax) :
    ∃ s, Held.empty.aggregateAll boxes room batches = .ok s ∧
      s.computeFields room flag = (Running.empty.aggregateAll batches).computeFields flag := by
  obtain ⟨s, e, a⟩ := alike_all boxes room batches _ _ _ (alike_empty boxes room) hs (fun g => by simpa using hroom g)
  simp only [List.nil_append] at a
  refine ⟨s, e, ?_⟩
  generalize Running.empty.aggregateAll batches = r at a
  have hcount : ∀ g, (r.stats g).count = s.count g := by
    intro g
    rw [a.stats, a.count, stats_count]
    simp
  have hrow : ∀ g, s.count g ≠ 0 →
      s.row room g = valuesIn batches g ++ List.replicate (room - (valuesIn batches g).length) 0 ∧ valuesIn batches g ≠ [] := by
    intro g hg
    have hne : valuesIn batches g ≠ [] := by
      intro hn
      rw [a.count, hn] at hg
      exact hg rfl
    refine ⟨alike_row a g ?_ (hroom g), hne⟩
    by_contra hlt
    exact hne (valuesIn_outside boxes batches hs g hlt)
  have hno : ∀ g, (0 : ℝ) ∉ valuesIn batches g := fun g hm => (h0 g 0 hm).1 rfl
  unfold Held.computeFields Running.computeFields
  simp only [hcount, a.ran, a.atm, a.sfc, a.sys, Fields.mk.injEq, true_and, and_true]
  refine ⟨?_, ?_, ?_⟩ <;> funext g
  · split
    · rename_i hg
      obtain ⟨hr, _⟩ := hrow g hg
      rw [hr, a.stats, stats_sum, List.sum_append]
      simp
    · rfl
  · split
    · rename_i hg
      obtain ⟨hr, hne⟩ := hrow g hg
      rw [hr, a.stats]
      exact (masked_least _ _ hne (hno g)).unique (running_least _ hne fun x hx => (h0 g x hx).2)
    · rfl
  · split
    · rename_i hg
      obtain ⟨hr, hne⟩ := hrow g hg
      rw [hr, a.stats]
      exact (masked_greatest _ _ hne (hno g)).unique (running_greatest _ hne fun x hx => (h0 g x hx).2)
    · rfl

example : ∃ s, Held.empty.aggregateAll 2 2 [⟨[0, 1, 0], [280, 290, 281], [1, 1, 1], [1, 1, 1], [1, 1, 1], 1⟩] = .ok s ∧
    s.computeFields 2 (-1) =
      (Running.empty.aggregateAll [⟨[0, 1, 0], [280, 290, 281], [1, 1, 1], [1, 1, 1], [1, 1, 1], 1⟩]).computeFields (-1) := by
  have hv : ∀ g : Nat, valuesIn [⟨[0, 1, 0], [280, 290, 281], [1, 1, 1], [1, 1, 1], [1, 1, 1], 1⟩] g =
      if g = 0 then [280, 281] else if g = 1 then [290] else [] := by
    intro g
    rcases g with _ | _ | g
    · norm_num [valuesIn, Batch.valuesIn]
    · norm_num [valuesIn, Batch.valuesIn]
    · norm_num [valuesIn, Batch.valuesIn]
  apply c61_same_partial
  · simp [Batch.Sized]
  · intro g
    rw [hv]
    split
    · simp
    · split <;> simp
  · intro g x hx
    rw [hv] at hx
    have : x = 280 ∨ x = 281 ∨ x = 290 := by
      split at hx
      · simp at hx
        tauto
      · split at hx
        · simp at hx
          tauto
        · simp at hx
    rcases this with rfl | rfl | rfl <;>
    · refine ⟨by norm_num, ?_⟩
      rw [abs_of_pos (by norm_num), floatMax]
      norm_num

/-- C61 fails for zeros: a box of values from zero on with a zero in it has minimum zero, and the array gives a larger number. -/
theorem c61_zero_violated (boxes room : Nat) (batches : List Batch) (flag : ℝ)
    (hs : ∀ b ∈ batches, b.Sized ∧ ∀ g ∈ b.indices, g < boxes)
    (hroom : ∀ g, (valuesIn batches g).length ≤ room) (g : Nat) (hzero : (0 : ℝ) ∈ valuesIn batches g)
    (hpos : ∀ x ∈ valuesIn batches g, 0 ≤ x ∧ x ≤ floatMax) :
    ∃ s, Held.empty.aggregateAll boxes room batches = .ok s ∧
      ((Running.empty.aggregateAll batches).computeFields flag).min g = 0 ∧ 0 < (s.computeFields room flag).min g := by
  classical
  obtain ⟨s, e, a⟩ := alike_all boxes room batches _ _ _ (alike_empty boxes room) hs (fun g => by simpa using hroom g)
  simp only [List.nil_append] at a
  refine ⟨s, e, ?_⟩
  generalize Running.empty.aggregateAll batches = r at a
  have hne : valuesIn batches g ≠ [] := List.ne_nil_of_mem hzero
  have hg : g < boxes := by
    by_contra hlt
    exact hne (valuesIn_outside boxes batches hs g hlt)
  have hcount : s.count g ≠ 0 := by
    rw [a.count]
    simpa using hne
  have hcount' : (r.stats g).count ≠ 0 := by
    rw [a.stats, stats_count]
    simpa using hne
  constructor
  · simp only [Running.computeFields]
    rw [if_pos hcount', a.stats]
    have hl := running_least _ hne fun x hx => by rw [abs_of_nonneg (hpos x hx).1]; exact (hpos x hx).2
    exact le_antisymm (hl.2 hzero) (hpos _ hl.1).1
  · simp only [Held.computeFields]
    rw [if_pos hcount, alike_row a g hg (hroom g)]
    unfold maskedMin
    simp only [filter_row]
    split
    · norm_num
    · rename_i x rest hx
      have hm : rest.foldl min x ∈ (valuesIn batches g).filter fun x => decide (x ≠ 0) := by
        rw [hx]
        exact (foldl_min_least x rest).1
      obtain ⟨h1, h2⟩ := List.mem_filter.1 hm
      have h2 : rest.foldl min x ≠ 0 := by simpa using h2
      exact lt_of_le_of_ne (hpos _ h1).1 (Ne.symm h2)

/-- A box with nothing but zero. -/
example : ∃ s, Held.empty.aggregateAll 1 1 [⟨[0], [0], [1], [1], [1], 1⟩] = .ok s ∧
    ((Running.empty.aggregateAll [⟨[0], [0], [1], [1], [1], 1⟩]).computeFields (-1)).min 0 = 0 ∧
    0 < (s.computeFields 1 (-1)).min 0 := by
  have hv : ∀ g : Nat, valuesIn [⟨[0], [0], [1], [1], [1], 1⟩] g = if g = 0 then [0] else [] := by
    intro g
    rcases g with _ | g
    · norm_num [valuesIn, Batch.valuesIn]
    · norm_num [valuesIn, Batch.valuesIn]
  apply c61_zero_violated
  · simp [Batch.Sized]
  · intro g
    rw [hv]
    split <;> simp
  · rw [hv]
    simp
  · rw [hv]
    intro x hx
    simp at hx
    subst hx
    refine ⟨le_refl _, ?_⟩
    rw [floatMax]
    norm_num

/-- C61 fails for full boxes: one more value for a box which is full goes to the first place of the next box, and the mean of the
full box counts it without its value. -/
theorem c61_overflow_violated (boxes room : Nat) (batches : List Batch) (flag : ℝ)
    (hs : ∀ b ∈ batches, b.Sized ∧ ∀ g ∈ b.indices, g < boxes)
    (hroom : ∀ g, (valuesIn batches g).length ≤ room) (g : Nat) (hfull : (valuesIn batches g).length = room) (hr : 0 < room)
    (hg : g + 1 < boxes) (x ran atm sfc sys : ℝ) :
    ∃ s, Held.empty.aggregateAll boxes room (batches ++ [⟨[g], [x], [ran], [atm], [sfc], sys⟩]) = .ok s ∧
      s.values ((g + 1) * room) = x ∧
      (s.computeFields room flag).mean g = (valuesIn batches g).sum / (room + 1) ∧
      ((Running.empty.aggregateAll (batches ++ [⟨[g], [x], [ran], [atm], [sfc], sys⟩])).computeFields flag).mean g =
        ((valuesIn batches g).sum + x) / (room + 1) := by
  obtain ⟨s, e, a⟩ := alike_all boxes room batches _ _ _ (alike_empty boxes room) hs (fun g => by simpa using hroom g)
  simp only [List.nil_append] at a
  have happ : ∀ (l m : List Batch) (s : Held), s.aggregateAll boxes room (l ++ m) =
      match s.aggregateAll boxes room l with
      | .error e => .error e
      | .ok s' => s'.aggregateAll boxes room m := by
    intro l m
    induction l with
    | nil => intro s; rfl
    | cons b rest ih =>
      intro s
      rw [List.cons_append, Held.aggregateAll, Held.aggregateAll]
      split
      · rfl
      · exact ih _
  have hcount : s.count g = room := by rw [a.count, hfull]
  have hplace : ¬ boxes * room ≤ g * room + room := by
    rw [not_le]
    calc g * room + room = (g + 1) * room := by ring
      _ < boxes * room := Nat.mul_lt_mul_of_pos_right hg hr
  rw [happ, e]
  simp only [Held.aggregateAll, Held.aggregate, Held.loop, Held.add, hcount, if_neg hplace]
  refine ⟨_, rfl, ?_, ?_, ?_⟩
  · simp only
    rw [show (g + 1) * room = g * room + room by ring, Function.update_self]
  · simp only [Held.computeFields, Held.row, Function.update_self]
    rw [if_pos (by omega)]
    have : (List.range room).map (fun k => Function.update s.values (g * room + room) x (g * room + k)) =
        valuesIn batches g := by
      have h1 := alike_row a g (by omega) (hroom g)
      rw [hfull, Nat.sub_self, List.replicate_zero, List.append_nil] at h1
      rw [← h1]
      unfold Held.row
      apply List.map_congr_left
      intro k hk
      have := List.mem_range.1 hk
      rw [Function.update_of_ne (by omega)]
    rw [this]
    push_cast
    rfl
  · have hstats : ((Running.empty.aggregateAll (batches ++ [⟨[g], [x], [ran], [atm], [sfc], sys⟩])).stats g) =
        (valuesIn batches g ++ [x]).foldl Stats.add ⟨0, 0, floatMax, -floatMax⟩ := by
      rw [Running.aggregateAll, List.foldl_append]
      show aggregateCountSumMinMax (Running.empty.aggregateAll batches).stats [x] [g] g = _
      simp only [aggregateCountSumMinMax, List.zip_cons_cons, List.zip_nil_left, scatter]
      rw [Function.update_self, List.foldl_append, a.stats g]
      rfl
    simp only [Running.computeFields]
    rw [hstats, stats_count, stats_sum, if_pos (by simp), List.length_append, hfull, List.sum_append]
    simp

/-- C61 fails for the last box: one more value and the call raises. -/
theorem c61_last_box_violated (boxes room : Nat) (batches : List Batch)
    (hs : ∀ b ∈ batches, b.Sized ∧ ∀ g ∈ b.indices, g < boxes + 1)
    (hroom : ∀ g, (valuesIn batches g).length ≤ room) (hfull : (valuesIn batches boxes).length = room)
    (x ran atm sfc sys : ℝ) : ∃ s, Held.empty.aggregateAll (boxes + 1) room batches = .ok s ∧
    s.aggregate (boxes + 1) room ⟨[boxes], [x], [ran], [atm], [sfc], sys⟩ = .error .indexError := by
  obtain ⟨s, e, a⟩ := alike_all (boxes + 1) room batches _ _ _ (alike_empty _ room) hs (fun g => by simpa using hroom g)
  simp only [List.nil_append] at a
  refine ⟨s, e, ?_⟩
  have hcount : s.count boxes = room := by rw [a.count, hfull]
  simp only [Held.aggregate, Held.loop, Held.add, hcount]
  rw [if_pos]
  rw [Nat.succ_mul]

/-- Boxes with room for one value, one of them full. -/
example : ∃ s, Held.empty.aggregateAll 2 1 ([⟨[0], [5], [1], [1], [1], 1⟩] ++ [⟨[0], [7], [1], [1], [1], 1⟩]) = .ok s ∧
    s.values ((0 + 1) * 1) = 7 ∧
    (s.computeFields 1 (-1)).mean 0 = (valuesIn [⟨[0], [5], [1], [1], [1], 1⟩] 0).sum / ((1 : Nat) + 1) ∧
    ((Running.empty.aggregateAll ([⟨[0], [5], [1], [1], [1], 1⟩] ++ [⟨[0], [7], [1], [1], [1], 1⟩])).computeFields (-1)).mean 0 =
      ((valuesIn [⟨[0], [5], [1], [1], [1], 1⟩] 0).sum + 7) / ((1 : Nat) + 1) := by
  have hv : ∀ g : Nat, valuesIn [⟨[0], [5], [1], [1], [1], 1⟩] g = if g = 0 then [5] else [] := by
    intro g
    rcases g with _ | g
    · norm_num [valuesIn, Batch.valuesIn]
    · norm_num [valuesIn, Batch.valuesIn]
  apply c61_overflow_violated
  · simp [Batch.Sized]
  · intro g
    rw [hv]
    split <;> simp
  · rw [hv]
    simp
  · norm_num
  · norm_num

end Verif.Eustace.Satgrid
