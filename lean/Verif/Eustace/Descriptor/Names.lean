import Verif.Eustace.Descriptor.Flow
import Std.Data.String.ToNat

/-! C142: data sets and operations of a descriptor have different names. -/

namespace Verif.Eustace.Descriptor
open Verif

theorem toString_int_underscore (i : ℤ) : '_' ∉ (toString i).toList := by
  have key : ∀ n : ℕ, '_' ∉ (toString n).toList := by
    intro n hc
    have : '_' ∈ Nat.toDigits 10 n := by simpa using hc
    have h := Nat.isDigit_of_mem_toDigits (by decide) (by decide) this
    exact absurd h (by decide)
  cases i with
  | ofNat n => exact key n
  | negSucc n =>
    have : toString (Int.negSucc n) = "-" ++ toString (n + 1) := rfl
    rw [this, String.toList_append, List.mem_append, not_or]
    exact ⟨by decide, key (n + 1)⟩

theorem toString_int_inj {i j : ℤ} (h : toString i = toString j) : i = j := by
  have key : ∀ n : ℕ, '-' ∉ (toString n).toList := by
    intro n hc
    have : '-' ∈ Nat.toDigits 10 n := by simpa using hc
    have h := Nat.isDigit_of_mem_toDigits (by decide) (by decide) this
    exact absurd h (by decide)
  have hneg : ∀ n : ℕ, toString (Int.negSucc n) = "-" ++ toString (n + 1) := fun _ => rfl
  have hpos : ∀ n : ℕ, toString (Int.ofNat n) = toString n := fun _ => rfl
  cases i with
  | ofNat m =>
    cases j with
    | ofNat n => rw [hpos, hpos] at h; rw [Nat.repr_injective h]
    | negSucc n =>
      rw [hpos, hneg] at h
      exact absurd (by rw [h, String.toList_append]; exact List.mem_append_left _ (by decide)) (key m)
  | negSucc m =>
    cases j with
    | ofNat n =>
      rw [hpos, hneg] at h
      exact absurd (by rw [← h, String.toList_append]; exact List.mem_append_left _ (by decide)) (key n)
    | negSucc n =>
      rw [hneg, hneg] at h
      have h1 := congrArg String.toList h
      rw [String.toList_append, String.toList_append] at h1
      have h2 := Nat.repr_injective (String.toList_inj.1 (List.append_cancel_left h1))
      rw [Nat.succ_injective h2]

theorem numbered_inj {a b : String} {i j : ℤ} (h : numbered a i = numbered b j) : a = b ∧ i = j := by
  have h1 := congrArg String.toList h
  unfold numbered at h1
  rw [String.toList_append, String.toList_append, String.toList_append, String.toList_append, List.append_assoc, List.append_assoc] at h1
  have hu : "_".toList = ['_'] := rfl
  rw [hu, List.singleton_append, List.singleton_append] at h1
  have key : ∀ (a : String) (i : ℤ), (a.toList ++ '_' :: (toString i).toList).reverse.takeWhile (fun x => decide (x ≠ '_')) = (toString i).toList.reverse := by
    intro a i
    rw [List.reverse_append, List.reverse_cons, List.append_assoc, List.singleton_append, List.takeWhile_append_of_pos]
    · simp
    · intro x hx
      have : x ∈ (toString i).toList := List.mem_reverse.1 hx
      rw [decide_eq_true_eq]
      rintro rfl
      exact toString_int_underscore i this
  have h2 := key a i
  rw [h1, key b j] at h2
  have h3 : toString j = toString i := String.toList_inj.1 (List.reverse_injective h2)
  have hij := toString_int_inj h3
  rw [h3] at h1
  exact ⟨String.toList_inj.1 (List.append_cancel_right h1), hij.symm⟩

theorem sample_numbered (s : String) (i : ℤ) : numberedSample s i = numbered (s ++ "_sample") i := by
  unfold numberedSample numbered
  have h : s ++ "_sample" ++ "_" = s ++ ("_sample" ++ "_") := String.append_assoc
  rw [h]
  rfl

theorem prior_numbered (s : String) (i : ℤ) : numberedPrior s i = numbered (s ++ "_prior_sample") i := by
  unfold numberedPrior numbered
  have h : s ++ "_prior_sample" ++ "_" = s ++ ("_prior_sample" ++ "_") := String.append_assoc
  rw [h]
  rfl

/-- The data sets which operations add, together. -/
def created (l : List Facts) : List String := l.flatMap fun x => x.creates.getD []

theorem measurement0_creates (c : Config) (i : ℤ) : (measurement0Facts c i).creates = some [numbered c.measurementClimatologyName i] := by
  by_cases hi : i = 0
  · rw [measurement0Facts, if_pos hi, hi]; rfl
  · rw [measurement0Facts, if_neg hi]; rfl

theorem measurement1_creates (c : Config) (i : ℤ) : (measurement1Facts c i).creates = some [numbered c.measurementLargeScaleName i] := by
  by_cases hi : i = 0
  · rw [measurement1Facts, if_pos hi, hi]; rfl
  · rw [measurement1Facts, if_neg hi]; rfl

theorem measurement0_command (c : Config) (i : ℤ) : (measurement0Facts c i).command = some (numbered c.measurementClimatologyCommand i) := by
  by_cases hi : i = 0
  · rw [measurement0Facts, if_pos hi, hi]; rfl
  · rw [measurement0Facts, if_neg hi]; rfl

theorem measurement1_command (c : Config) (i : ℤ) : (measurement1Facts c i).command = some (numbered c.measurementLargeScaleCommand i) := by
  by_cases hi : i = 0
  · rw [measurement1Facts, if_pos hi, hi]; rfl
  · rw [measurement1Facts, if_neg hi]; rfl

theorem created_iteration (c : Config) (i : ℤ) : ∃ l : List String, l.Sublist (stems c) ∧ created (iterationFacts c i) = l.map fun s => numbered s i := by
  by_cases hg : c.gridNow i
  · refine ⟨griddedStems c, by rw [stems, if_pos hg.2], ?_⟩
    rw [iterationFacts, if_pos hg, griddedFacts]
    simp only [created, List.flatMap_cons, List.flatMap_nil, measurement0_creates, measurement1_creates]
    simp [solution0_gridFacts, solution1_gridFacts, prior0Facts, prior1Facts, local_gridFacts, gridFacts, griddedStems, sample_numbered, prior_numbered]
  · refine ⟨plainStems c, plain_sublist c, ?_⟩
    rw [iterationFacts, if_neg hg, plainFacts]
    simp only [created, List.flatMap_cons, List.flatMap_nil, measurement0_creates, measurement1_creates]
    simp [solution0_plainFacts, solution1_plainFacts, local_plainFacts, plainStems]

theorem commands_iteration (c : Config) (i : ℤ) : ∃ l : List String, l.Sublist (commandStems c) ∧
    (iterationFacts c i).map Facts.command = l.map fun s => some (numbered s i) := by
  by_cases hg : c.gridNow i
  · refine ⟨griddedCommands c, by rw [commandStems, if_pos hg.2], ?_⟩
    rw [iterationFacts, if_pos hg, griddedFacts]
    simp only [List.map_cons, List.map_nil, measurement0_command, measurement1_command]
    simp [solution0_gridFacts, solution1_gridFacts, prior0Facts, prior1Facts, local_gridFacts, gridFacts, griddedCommands, prior_numbered]
  · refine ⟨plainCommands c, plain_commands_sublist c, ?_⟩
    rw [iterationFacts, if_neg hg, plainFacts]
    simp only [List.map_cons, List.map_nil, measurement0_command, measurement1_command]
    simp [solution0_plainFacts, solution1_plainFacts, local_plainFacts, plainCommands]

theorem range_nodup (c : Config) : c.range.Nodup := by
  unfold Config.range
  refine List.Nodup.map ?_ List.nodup_range
  intro a b h
  simpa using h

theorem numbered_iterations {f : ℤ → List String} (hf : ∀ i, ∃ l : List String, l.Nodup ∧ f i = l.map fun s => numbered s i) {is : List ℤ}
    (hi : is.Nodup) : (is.flatMap f).Nodup := by
  rw [List.nodup_flatMap]
  refine ⟨?_, ?_⟩
  · intro i _
    obtain ⟨l, hl, h⟩ := hf i
    rw [h]
    exact hl.map fun a b h => (numbered_inj h).1
  · refine hi.imp ?_
    intro a b hab x ha hb
    obtain ⟨l, _, h⟩ := hf a
    obtain ⟨l', _, h'⟩ := hf b
    rw [h] at ha
    rw [h'] at hb
    obtain ⟨s, _, rfl⟩ := List.mem_map.1 ha
    obtain ⟨t, _, ht⟩ := List.mem_map.1 hb
    exact hab (numbered_inj ht).2.symm

/-- **C142.** No two operations of a descriptor add data sets of the same name, nor does one operation twice. -/
theorem c142_created_once {c : Config} (h0 : 0 ≤ c.first) (hn : (stems c).Nodup) {d : Json} (hd : createBatchDescriptor c false = .ok d) :
    ((Spec.operations d).flatMap fun op => (Spec.creates op).getD []).Nodup := by
  have h1 : ((Spec.operations d).flatMap fun op => (Spec.creates op).getD []) = created ((Spec.operations d).map facts) := by
    rw [created, List.flatMap_map]; rfl
  rw [h1, operations_facts h0 hn hd, created, List.flatMap_assoc]
  refine numbered_iterations (fun i => ?_) (range_nodup c)
  obtain ⟨l, hl, h⟩ := created_iteration c i
  exact ⟨l, hn.sublist hl, h⟩

/-- **C142.** All operations of a descriptor have names, which are different. -/
theorem c142_commands {c : Config} (h0 : 0 ≤ c.first) (hn : (stems c).Nodup) (hc : (commandStems c).Nodup) {d : Json}
    (hd : createBatchDescriptor c false = .ok d) :
    ∃ names : List String, (Spec.operations d).map Spec.command = names.map some ∧ names.Nodup := by
  have h1 : (Spec.operations d).map Spec.command = ((Spec.operations d).map facts).map Facts.command := by
    rw [List.map_map]; rfl
  rw [h1, operations_facts h0 hn hd, List.map_flatMap]
  refine ⟨c.range.flatMap fun i => ((iterationFacts c i).map Facts.command).map fun o => o.getD "", ?_, ?_⟩
  · rw [List.map_flatMap]
    congr 1
    funext i
    obtain ⟨l, _, h⟩ := commands_iteration c i
    rw [h, List.map_map, List.map_map]
    rfl
  · refine numbered_iterations (fun i => ?_) (range_nodup c)
    obtain ⟨l, hl, h⟩ := commands_iteration c i
    exact ⟨l, hc.sublist hl, by rw [h, List.map_map]; rfl⟩

theorem observations_unnumbered : ∀ n ∈ Spec.observations, ∀ s i, n ≠ numbered s i := by
  have hd : Spec.observations.all (fun n => !(n.toList.getLast?.any fun x => x.isDigit)) = true := by decide +kernel
  intro n hn s i h
  have h1 := List.all_eq_true.1 hd n hn
  have h2 : ∃ x, n.toList.getLast? = some x ∧ x.isDigit = true := by
    rw [h]
    unfold numbered
    rw [String.toList_append]
    have key : ∀ m : ℕ, ∃ x, (toString m).toList.getLast? = some x ∧ x.isDigit = true := by
      intro m
      have hm : (toString m).toList = Nat.toDigits 10 m := by simp
      rw [hm]
      have hne : Nat.toDigits 10 m ≠ [] := Nat.toDigits_ne_nil
      refine ⟨_, List.getLast?_eq_some_getLast hne, ?_⟩
      exact Nat.isDigit_of_mem_toDigits (by decide) (by decide) (List.getLast_mem hne)
    have hi : ∃ x, (toString i).toList.getLast? = some x ∧ x.isDigit = true := by
      cases i with
      | ofNat m => exact key m
      | negSucc m =>
        have : toString (Int.negSucc m) = "-" ++ toString (m + 1) := rfl
        rw [this, String.toList_append]
        obtain ⟨x, hx, hd⟩ := key (m + 1)
        exact ⟨x, by rw [List.getLast?_append, hx]; rfl, hd⟩
    obtain ⟨x, hx, hd⟩ := hi
    exact ⟨x, by rw [List.getLast?_append, hx]; rfl, hd⟩
  obtain ⟨x, hx, hdig⟩ := h2
  rw [hx] at h1
  simp [hdig] at h1

/-- **C142.** No operation of a descriptor writes a data set of observations. -/
theorem c142_observations_kept {c : Config} (h0 : 0 ≤ c.first) (hn : (stems c).Nodup) {d : Json} (hd : createBatchDescriptor c false = .ok d)
    {op : Json} (ho : op ∈ Spec.operations d) {n : String} (hw : n ∈ Spec.writes op) : n ∉ Spec.observations := by
  obtain ⟨l, p, h1, h2, -, -⟩ := c142_declared h0 hn hd ho
  have hm : n ∈ created ((Spec.operations d).map facts) := by
    rw [created, List.mem_flatMap]
    refine ⟨facts op, List.mem_map_of_mem ho, ?_⟩
    change n ∈ (Spec.creates op).getD []
    rw [h1]
    exact h2.mem_iff.2 hw
  rw [operations_facts h0 hn hd, created, List.flatMap_assoc] at hm
  obtain ⟨i, _, hm⟩ := List.mem_flatMap.1 hm
  obtain ⟨l', _, h⟩ := created_iteration c i
  change n ∈ created (iterationFacts c i) at hm
  rw [h] at hm
  obtain ⟨s, _, rfl⟩ := List.mem_map.1 hm
  exact fun hc => observations_unnumbered _ hc s i rfl

end Verif.Eustace.Descriptor
