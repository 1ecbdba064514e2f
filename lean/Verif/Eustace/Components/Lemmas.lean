import Verif.Eustace.Components.Spec
import Verif.Eustace.Linear.Lemmas
import Mathlib.Data.List.Perm.Basic
import Mathlib.Algebra.BigOperators.Group.List.Basic

namespace Verif.Eustace.Components

open Matrix Verif.Eustace.Linear

/-! ### Offsets -/

theorem foldl_sum {α : Type} {m : Nat} (f : α → Vec m) (l : List α) (z : Vec m) :
    l.foldl (fun acc j => acc + f j) z = z + (l.map f).sum := by
  induction l generalizing z with
  | nil => simp
  | cons a l ih => simp [ih, add_assoc]

theorem foldl_sum_if {α : Type} [DecidableEq α] {m : Nat} (f : α → Vec m) (k : α) (l : List α) (z : Vec m) :
    l.foldl (fun acc j => if j ≠ k then acc + f j else acc) z =
      z + (l.map fun j => if j ≠ k then f j else 0).sum := by
  induction l generalizing z with
  | nil => simp
  | cons a l ih =>
    rw [List.foldl_cons, ih, List.map_cons, List.sum_cons]
    by_cases h : a = k
    · simp [h]
    · simp [h, add_assoc]

theorem offset_eq (A : Analysis) (S : Store A) (k : Fin A.K) (o : Obs) :
    subtractOffset A S k o = ∑ j, if j ≠ k then expectedValue (A.comp j) (S j) o else 0 := by
  rw [subtractOffset, foldl_sum_if]
  simp [Fin.sum_univ_def]

theorem map_eq (A : Analysis) (S : Store A) (o : Obs) :
    evaluateMap A S o = ∑ j, expectedValue (A.comp j) (S j) o := by
  rw [evaluateMap, foldl_sum]
  simp [Fin.sum_univ_def]

theorem offset_congr {A : Analysis} {S S' : Store A} {k : Fin A.K} (h : ∀ j, j ≠ k → S j = S' j) (o : Obs) :
    subtractOffset A S k o = subtractOffset A S' k o := by
  rw [offset_eq, offset_eq]
  refine Finset.sum_congr rfl fun j _ => ?_
  by_cases hj : j = k
  · simp [hj]
  · simp [hj, h j hj]

/-! ### Accumulation within a time step -/

variable {n : Nat}

/-- Accumulated measurement, as in the last branch of `process_observations`. -/
def accum (m : Option (Update n)) (u : Update n) : Option (Update n) :=
  match m with
  | none => some u
  | some v => some (v.append u)

theorem accum_getD (us : List (Update n)) (m : Option (Update n)) :
    (us.foldl accum m).getD (createBlank n) = us.foldl Update.append (m.getD (createBlank n)) := by
  induction us generalizing m with
  | nil => rfl
  | cons u us ih =>
    rw [List.foldl_cons, ih, List.foldl_cons]
    cases m with
    | none => simp [accum, append_blank]
    | some v => simp [accum]

theorem accum_isSome (us : List (Update n)) (m : Option (Update n)) (h : m.isSome ∨ us ≠ []) :
    (us.foldl accum m).isSome := by
  induction us generalizing m with
  | nil => simpa using h
  | cons u us ih =>
    rw [List.foldl_cons]
    apply ih
    left
    cases m <;> rfl

/-- The batch which a component sees: observations less the given offset. -/
def batchOf {c : Comp} (J : ∀ o : Obs, Matrix (Fin o.m) (Fin c.n) ℝ) (offset : ∀ o : Obs, Vec o.m) (o : Obs) :
    Batch c.n := ⟨o.m, J o, o.R, o.y - offset o⟩

/-- Loaders with observations on the day. -/
def dayData (loaders : List Loader) (t : Int) : List Obs := (dayObs loaders t).filter fun o => 0 < o.m

theorem hasData_iff (loaders : List Loader) (t : Int) : HasData loaders t ↔ dayData loaders t ≠ [] := by
  constructor
  · rintro ⟨l, hl, h⟩ he
    have : l t ∈ dayData loaders t := by
      simp only [dayData, dayObs, List.mem_filter, List.mem_map]
      exact ⟨⟨l, hl, rfl⟩, by simpa using h⟩
    rw [he] at this
    cases this
  · intro h
    obtain ⟨o, ho⟩ := List.exists_mem_of_ne_nil _ h
    simp only [dayData, dayObs, List.mem_filter, List.mem_map] at ho
    obtain ⟨⟨l, hl, rfl⟩, h⟩ := ho
    exact ⟨l, hl, by simpa using h⟩

theorem dayData_cons (l : Loader) (ls : List Loader) (t : Int) :
    dayData (l :: ls) t = if 0 < (l t).m then l t :: dayData ls t else dayData ls t := by
  simp only [dayData, dayObs, List.map_cons, List.filter_cons]
  by_cases h : 0 < (l t).m <;> simp [h]

theorem stLoaders_eq {A : Analysis} (S : Store A) (k : Fin A.K)
    {J : ∀ o : Obs, Matrix (Fin o.m) (Fin (A.comp k).n) ℝ} (hJ : IsLinear (A.comp k) J) (t : Int)
    (ls : List Loader) (ht : ∀ l ∈ ls, (l t).time = t)
    (st : Storage (A.comp k).n) (sol : STSolution (A.comp k).n) (hs : sol.time = none ∨ sol.time = some t) :
    stLoaders A S k t ls (st, sol) = .ok (st,
      ⟨((dayData ls t).map fun o => (batchOf J (subtractOffset A S k) o).update).foldl accum sol.measurement,
        if dayData ls t = [] then sol.time else some t⟩) := by
  induction ls generalizing sol with
  | nil => rfl
  | cons l ls ih =>
    have htl := ht l (by simp)
    have ih := ih (fun l hl => ht l (by simp [hl]))
    rw [stLoaders, dayData_cons]
    by_cases hm : 0 < (l t).m
    · rw [if_pos hm, if_pos hm]
      have hp : stProcess (A.comp k).toElement st sol (l t) (subtractOffset A S k (l t)) =
          .ok (st, ⟨accum sol.measurement (batchOf J (subtractOffset A S k) (l t)).update, some t⟩) := by
        have hlin : linearise (A.comp k).toElement st (l t) ((l t).y - subtractOffset A S k (l t)) =
            (st, st.state, (l t).y - subtractOffset A S k (l t)) := by
          simp [linearise, hJ.linear]
        have hu : createFromSystem ((A.comp k).jacobian (l t) st.state) (l t).R
            ((l t).y - subtractOffset A S k (l t)) = (batchOf J (subtractOffset A S k) (l t)).update := by
          rw [hJ.jacobian]; rfl
        unfold stProcess
        rw [hlin]
        dsimp only
        rw [hu, htl]
        rcases hs with h | h
        · rw [h]; cases sol.measurement <;> rfl
        · rw [h]; cases sol.measurement <;> simp [accum]
      rw [hp]
      dsimp only
      rw [ih _ (Or.inr rfl)]
      simp
    · rw [if_neg hm, if_neg hm]
      exact ih sol hs

theorem spLoaders_eq {A : Analysis} (S : Store A) (k : Fin A.K)
    {J : ∀ o : Obs, Matrix (Fin o.m) (Fin (A.comp k).n) ℝ} (hJ : IsLinear (A.comp k) J) (t : Int)
    (ls : List Loader) (ht : ∀ l ∈ ls, (l t).time = t) (s : System (A.comp k).n) :
    spLoaders A S k t ls ⟨some s, some t⟩ =
      .ok ⟨some (((dayData ls t).map fun o => (batchOf J (subtractOffset A S k) o).update).foldl
        System.append s), some t⟩ := by
  induction ls generalizing s with
  | nil => rfl
  | cons l ls ih =>
    have htl := ht l (by simp)
    have ih := ih (fun l hl => ht l (by simp [hl]))
    rw [spLoaders, dayData_cons]
    by_cases hm : 0 < (l t).m
    · rw [if_pos hm, if_pos hm]
      have hp : spProcess (A.comp k).toElement ⟨some s, some t⟩ (l t) (subtractOffset A S k (l t)) =
          .ok ⟨some (s.append (batchOf J (subtractOffset A S k) (l t)).update), some t⟩ := by
        simp only [spProcess, hJ.jacobian, htl, if_true]
        rfl
      rw [hp]
      dsimp only
      rw [ih]
      simp
    · rw [if_neg hm, if_neg hm]
      exact ih s

theorem spLoaders_new {A : Analysis} (S : Store A) (k : Fin A.K)
    {J : ∀ o : Obs, Matrix (Fin o.m) (Fin (A.comp k).n) ℝ} (hJ : IsLinear (A.comp k) J) (t : Int)
    (ls : List Loader) (ht : ∀ l ∈ ls, (l t).time = t) :
    spLoaders A S k t ls (SpSolution.new _) =
      .ok (if dayData ls t = [] then SpSolution.new _ else
        ⟨some (systemOf (A.comp k).prior ((dayData ls t).map (batchOf J (subtractOffset A S k)))), some t⟩) := by
  induction ls with
  | nil => rfl
  | cons l ls ih =>
    have htl := ht l (by simp)
    have ih := ih (fun l hl => ht l (by simp [hl]))
    rw [spLoaders, dayData_cons]
    by_cases hm : 0 < (l t).m
    · rw [if_pos hm, if_pos hm]
      have hp : spProcess (A.comp k).toElement (SpSolution.new _) (l t) (subtractOffset A S k (l t)) =
          .ok ⟨some ((System.new (A.comp k).prior).append
            (batchOf J (subtractOffset A S k) (l t)).update), some t⟩ := by
        simp only [spProcess, SpSolution.new, hJ.jacobian, htl]
        rfl
      rw [hp]
      dsimp only
      rw [spLoaders_eq S k hJ t ls (fun l hl => ht l (by simp [hl]))]
      simp only [reduceCtorEq, if_false, systemOf, List.map_cons, List.foldl_cons, List.foldl_map]
    · rw [if_neg hm, if_neg hm]
      exact ih

/-! ### Dictionary -/

theorem dictWrite_keys {α β : Type} [DecidableEq α] (k : α) (v : β) (d : List (α × β)) :
    (dictWrite k v d).map Prod.fst = if k ∈ d.map Prod.fst then d.map Prod.fst else d.map Prod.fst ++ [k] := by
  induction d with
  | nil => simp [dictWrite]
  | cons p d ih =>
    obtain ⟨a, b⟩ := p
    by_cases h : a = k
    · simp [dictWrite, h]
    · rw [dictWrite, if_neg h, List.map_cons, ih]
      have hk : ¬ k = a := fun e => h e.symm
      by_cases h2 : k ∈ d.map Prod.fst
      · rw [if_pos h2, if_pos (by simp only [List.map_cons]; exact List.mem_cons_of_mem _ h2)]
        rfl
      · rw [if_neg h2, if_neg (by simp only [List.map_cons, List.mem_cons, not_or]; exact ⟨hk, h2⟩)]
        rfl

theorem dictWrite_nodup {α β : Type} [DecidableEq α] (k : α) (v : β) {d : List (α × β)}
    (h : (d.map Prod.fst).Nodup) : ((dictWrite k v d).map Prod.fst).Nodup := by
  rw [dictWrite_keys]
  split
  · exact h
  · rename_i hk
    rw [List.nodup_append]
    refine ⟨h, by simp, ?_⟩
    intro a ha b hb hab
    simp only [List.mem_singleton] at hb
    exact hk (by rw [← hb, ← hab]; exact ha)

theorem dictWrite_mem {α β : Type} [DecidableEq α] (k : α) (v : β) {d : List (α × β)}
    (h : (d.map Prod.fst).Nodup) (a : α) (b : β) :
    (a, b) ∈ dictWrite k v d ↔ (a = k ∧ b = v) ∨ (a ≠ k ∧ (a, b) ∈ d) := by
  induction d with
  | nil => simp [dictWrite]
  | cons p d ih =>
    obtain ⟨c, e⟩ := p
    simp only [List.map_cons, List.nodup_cons] at h
    rw [dictWrite]
    by_cases hc : c = k
    · rw [if_pos hc]
      subst hc
      have hn : ∀ b, (c, b) ∉ d := fun b hb => h.1 (List.mem_map.2 ⟨_, hb, rfl⟩)
      simp only [List.mem_cons, Prod.mk.injEq]
      constructor
      · rintro (⟨rfl, rfl⟩ | hm)
        · exact Or.inl ⟨rfl, rfl⟩
        · by_cases hac : a = c
          · subst hac; exact absurd hm (hn b)
          · exact Or.inr ⟨hac, Or.inr hm⟩
      · rintro (⟨rfl, rfl⟩ | ⟨hac, ⟨rfl, -⟩ | hm⟩)
        · exact Or.inl ⟨rfl, rfl⟩
        · exact absurd rfl hac
        · exact Or.inr hm
    · rw [if_neg hc]
      simp only [List.mem_cons, Prod.mk.injEq, ih h.2]
      constructor
      · rintro (⟨rfl, rfl⟩ | ⟨rfl, rfl⟩ | ⟨h1, h2⟩)
        · exact Or.inr ⟨hc, Or.inl ⟨rfl, rfl⟩⟩
        · exact Or.inl ⟨rfl, rfl⟩
        · exact Or.inr ⟨h1, Or.inr h2⟩
      · rintro (⟨rfl, rfl⟩ | ⟨h1, ⟨rfl, rfl⟩ | h2⟩)
        · exact Or.inr (Or.inl ⟨rfl, rfl⟩)
        · exact Or.inl ⟨rfl, rfl⟩
        · exact Or.inr (Or.inr ⟨h1, h2⟩)

/-- Writing one entry for every time. -/
def writeAll (f : Int → Option (Update n)) (times : List Int) (d : List (Option Int × Option (Update n))) :
    List (Option Int × Option (Update n)) :=
  times.foldl (fun d t => dictWrite (some t) (f t) d) d

theorem writeAll_nodup (f : Int → Option (Update n)) (times : List Int)
    {d : List (Option Int × Option (Update n))} (h : (d.map Prod.fst).Nodup) :
    ((writeAll f times d).map Prod.fst).Nodup := by
  induction times generalizing d with
  | nil => exact h
  | cons t ts ih => exact ih (dictWrite_nodup _ _ h)

theorem writeAll_mem (f : Int → Option (Update n)) (times : List Int)
    {d : List (Option Int × Option (Update n))} (h : (d.map Prod.fst).Nodup) (a : Option Int)
    (b : Option (Update n)) :
    (a, b) ∈ writeAll f times d ↔
      (∃ t ∈ times, a = some t ∧ b = f t) ∨ ((∀ t ∈ times, a ≠ some t) ∧ (a, b) ∈ d) := by
  induction times generalizing d with
  | nil => simp [writeAll]
  | cons t ts ih =>
    have hw : writeAll f (t :: ts) d = writeAll f ts (dictWrite (some t) (f t) d) := rfl
    rw [hw, ih (dictWrite_nodup _ _ h), dictWrite_mem _ _ h]
    constructor
    · rintro (⟨u, hu, h1, h2⟩ | ⟨h1, ⟨h2, h3⟩ | ⟨h2, h3⟩⟩)
      · exact Or.inl ⟨u, by simp [hu], h1, h2⟩
      · exact Or.inl ⟨t, by simp, h2, h3⟩
      · refine Or.inr ⟨?_, h3⟩
        intro u hu
        rcases List.mem_cons.1 hu with rfl | hu
        · exact h2
        · exact h1 u hu
    · rintro (⟨u, hu, h1, h2⟩ | ⟨h1, h2⟩)
      · rcases List.mem_cons.1 hu with rfl | hu
        · by_cases hin : ∃ u' ∈ ts, a = some u'
          · obtain ⟨u', hu', h3⟩ := hin
            refine Or.inl ⟨u', hu', h3, ?_⟩
            rw [h1, Option.some.injEq] at h3
            rw [← h3]; exact h2
          · refine Or.inr ⟨fun u' hu' he => hin ⟨u', hu', he⟩, Or.inl ⟨h1, h2⟩⟩
        · exact Or.inl ⟨u, hu, h1, h2⟩
      · exact Or.inr ⟨fun u hu => h1 u (by simp [hu]), Or.inr ⟨h1 t (by simp), h2⟩⟩

/-- The dictionary holds measurements of the given times only. -/
def Stored (times : List Int) (d : List (Option Int × Option (Update n))) : Prop :=
  (d.map Prod.fst).Nodup ∧ ∀ p ∈ d, ∃ t ∈ times, p.1 = some t

theorem writeAll_stored {f : Int → Option (Update n)} {times : List Int}
    {d : List (Option Int × Option (Update n))} (h : Stored times d) : Stored times (writeAll f times d) := by
  refine ⟨writeAll_nodup _ _ h.1, ?_⟩
  rintro ⟨a, b⟩ hp
  rcases (writeAll_mem f times h.1 a b).1 hp with ⟨t, ht, h1, -⟩ | ⟨-, h2⟩
  · exact ⟨t, ht, h1⟩
  · exact h.2 _ h2

theorem writeAll_perm (f : Int → Option (Update n)) {times : List Int} (hn : times.Nodup)
    {d : List (Option Int × Option (Update n))} (h : Stored times d) :
    (writeAll f times d).Perm (times.map fun t => (some t, f t)) := by
  have h1 : (writeAll f times d).Nodup := (writeAll_nodup f times h.1).of_map
  have h2 : (times.map fun t => (some t, f t)).Nodup := by
    apply List.Nodup.map _ hn
    intro a b hab
    simpa using congrArg Prod.fst hab
  rw [List.perm_ext_iff_of_nodup h1 h2]
  rintro ⟨a, b⟩
  rw [writeAll_mem f times h.1]
  simp only [List.mem_map, Prod.mk.injEq]
  constructor
  · rintro (⟨t, ht, rfl, rfl⟩ | ⟨h3, h4⟩)
    · exact ⟨t, ht, rfl, rfl⟩
    · obtain ⟨t, ht, he⟩ := h.2 _ h4
      exact absurd he (h3 t ht)
  · rintro ⟨t, ht, rfl, rfl⟩
    exact Or.inl ⟨t, ht, rfl, rfl⟩

/-- Solving with all measurements present. -/
theorem appendAll_some (l : List (Option Int × Option (Update n))) (s : System n)
    (h : ∀ p ∈ l, p.2.isSome) :
    appendAll l s = .ok ((l.map fun p => p.2.getD (createBlank n)).foldl System.append s) := by
  induction l generalizing s with
  | nil => rfl
  | cons p l ih =>
    obtain ⟨a, b⟩ := p
    cases b with
    | none => simpa using h (a, none) (by simp)
    | some u =>
      rw [appendAll, ih _ (fun p hp => h p (by simp [hp]))]
      rfl

theorem append_sums (us : List (Update n)) (s : System n) :
    us.foldl System.append s = ⟨s.prior, s.measurement.precision + (us.map Update.precision).sum,
      s.measurement.vector + (us.map Update.vector).sum⟩ := by
  rw [foldl_append, foldl_sums]

theorem append_perm {us vs : List (Update n)} (h : us.Perm vs) (s : System n) :
    us.foldl System.append s = vs.foldl System.append s := by
  rw [append_sums, append_sums, (h.map _).sum_eq, (h.map _).sum_eq]

/-- Appending per day or per batch is the same. -/
theorem append_days (days : List (List (Update n))) (s : System n) :
    (days.map fun us => us.foldl Update.append (createBlank n)).foldl System.append s =
      days.flatten.foldl System.append s := by
  induction days generalizing s with
  | nil => rfl
  | cons us days ih =>
    rw [List.map_cons, List.foldl_cons, ih, List.flatten_cons, List.foldl_append]
    congr 1
    rw [foldl_sums, append_sums]
    simp [System.append, Update.append, createBlank]

/-! ### Update of a space-time component -/

theorem updateTimes_spaceTime {A : Analysis} (k : Fin A.K) (hk : (A.comp k).kind = .spaceTime)
    {J : ∀ o : Obs, Matrix (Fin o.m) (Fin (A.comp k).n) ℝ} (hJ : IsLinear (A.comp k) J)
    (loaders : List Loader) (times : List Int) (ht : ∀ l ∈ loaders, ∀ t ∈ times, (l t).time = t)
    (hd : ∀ t ∈ times, HasData loaders t) (S : Store A) :
    updateTimes A loaders k times S = .ok (Function.update S k { S k with
      measurement := writeAll (fun t => ((dayData loaders t).map fun o =>
        (batchOf J (subtractOffset A S k) o).update).foldl accum none) times (S k).measurement }) := by
  induction times generalizing S with
  | nil => simp [updateTimes, writeAll]
  | cons t ts ih =>
    have hne : loaders ≠ [] := by
      obtain ⟨l, hl, -⟩ := hd t (by simp)
      exact List.ne_nil_of_mem hl
    rw [updateTimes, updateComponentTime, if_neg hne, hk]
    dsimp only
    rw [stLoaders_eq S k hJ t loaders (fun l hl => ht l hl t (by simp)) _ _ (Or.inl rfl)]
    dsimp only
    rw [ih (fun l hl u hu => ht l hl u (by simp [hu])) (fun u hu => hd u (by simp [hu]))]
    have hdt := (hasData_iff loaders t).1 (hd t (by simp))
    have hoff : ∀ v, subtractOffset A (Function.update S k v) k = subtractOffset A S k := by
      intro v
      funext o
      exact offset_congr (fun j hj => by simp [hj]) o
    simp only [hoff, Function.update_self, Function.update_idem, stUpdateTimeStep, if_neg hdt, STSolution.new]
    rfl

/-- The batches which component `k` is fitted to. -/
def batches {A : Analysis} {k : Fin A.K} (J : ∀ o : Obs, Matrix (Fin o.m) (Fin (A.comp k).n) ℝ)
    (S : Store A) (loaders : List Loader) (times : List Int) : List (Batch (A.comp k).n) :=
  times.flatMap fun t => (dayData loaders t).map (batchOf J (subtractOffset A S k))

theorem updateComponent_spaceTime {A : Analysis} (k : Fin A.K) (hk : (A.comp k).kind = .spaceTime)
    {J : ∀ o : Obs, Matrix (Fin o.m) (Fin (A.comp k).n) ℝ} (hJ : IsLinear (A.comp k) J)
    (loaders : List Loader) (times : List Int) (hn : times.Nodup)
    (ht : ∀ l ∈ loaders, ∀ t ∈ times, (l t).time = t)
    (hd : ∀ t ∈ times, HasData loaders t) (S : Store A) (hs : Stored times (S k).measurement) :
    ∃ st : Storage (A.comp k).n, updateComponent A loaders times k S = .ok (Function.update S k st) ∧
      st.state = some (systemOf (A.comp k).prior (batches J S loaders times)).maximumAPosteriori ∧
      st.std = (if (A.comp k).computeUncertainties then
        some (marginalStdOf (systemOf (A.comp k).prior (batches J S loaders times))) else (S k).std) ∧
      Stored times st.measurement ∧ st.states = (S k).states ∧ st.stds = (S k).stds := by
  set f : Int → Option (Update (A.comp k).n) := fun t => ((dayData loaders t).map fun o =>
        (batchOf J (subtractOffset A S k) o).update).foldl accum none with hf
  set d := writeAll f times (S k).measurement with hdd
  have hperm := writeAll_perm f hn hs
  have hsome : ∀ p ∈ d, p.2.isSome := by
    intro p hp
    rw [hdd] at hp
    have := hperm.mem_iff.1 hp
    obtain ⟨t, htt, rfl⟩ := List.mem_map.1 this
    apply accum_isSome
    right
    simpa using (hasData_iff loaders t).1 (hd t htt)
  have hsys : (d.map fun p => p.2.getD (createBlank (A.comp k).n)).foldl System.append
      (System.new (A.comp k).prior) = systemOf (A.comp k).prior (batches J S loaders times) := by
    rw [append_perm (hperm.map _), List.map_map]
    have : ((fun p : Option Int × Option (Update (A.comp k).n) => p.2.getD (createBlank _)) ∘
        fun t => (some t, f t)) = fun t => ((dayData loaders t).map fun o =>
          (batchOf J (subtractOffset A S k) o).update).foldl Update.append (createBlank _) := by
      funext t
      simp only [Function.comp, hf, accum_getD, Option.getD_none]
    rw [this]
    have := append_days (times.map fun t => (dayData loaders t).map fun o =>
          (batchOf J (subtractOffset A S k) o).update) (System.new (A.comp k).prior)
    rw [List.map_map] at this
    refine this.trans ?_
    rw [systemOf, batches, ← List.flatMap_def]
    have hm : (times.flatMap fun t => (dayData loaders t).map fun o =>
          (batchOf J (subtractOffset A S k) o).update) =
        (times.flatMap fun t => (dayData loaders t).map (batchOf J (subtractOffset A S k))).map
          Batch.update := by
      simp [List.map_flatMap, Function.comp_def]
    rw [hm, List.foldl_map]
  refine ⟨{ S k with
    measurement := d
    state := some (systemOf (A.comp k).prior (batches J S loaders times)).maximumAPosteriori
    std := if (A.comp k).computeUncertainties then
      some (marginalStdOf (systemOf (A.comp k).prior (batches J S loaders times))) else (S k).std }, ?_, rfl, rfl,
      writeAll_stored hs, rfl, rfl⟩
  rw [updateComponent, updateTimes_spaceTime k hk hJ loaders times ht hd S]
  dsimp only
  rw [updateComponentSolution, hk]
  dsimp only
  rw [stUpdate, Function.update_self]
  dsimp only
  rw [appendAll_some _ _ hsome, hsys]
  dsimp only
  rw [hJ.linear]
  simp
  rfl

/-! ### Update of a spatial component -/

/-- A day of a spatial component written to storage. -/
noncomputable def spWrite {A : Analysis} {k : Fin A.K} (J : ∀ o : Obs, Matrix (Fin o.m) (Fin (A.comp k).n) ℝ)
    (S : Store A) (loaders : List Loader) (st : Storage (A.comp k).n) (t : Int) : Storage (A.comp k).n :=
  (spUpdateTimeStep (A.comp k) st (if dayData loaders t = [] then SpSolution.new _ else
    ⟨some (systemOf (A.comp k).prior ((dayData loaders t).map (batchOf J (subtractOffset A S k)))),
      some t⟩)).1

theorem updateTimes_spatial {A : Analysis} (k : Fin A.K) (hk : (A.comp k).kind = .spatial)
    {J : ∀ o : Obs, Matrix (Fin o.m) (Fin (A.comp k).n) ℝ} (hJ : IsLinear (A.comp k) J)
    (loaders : List Loader) (hne : loaders ≠ []) (times : List Int)
    (ht : ∀ l ∈ loaders, ∀ t ∈ times, (l t).time = t) (S : Store A) :
    updateTimes A loaders k times S =
      .ok (Function.update S k (times.foldl (spWrite J S loaders) (S k))) := by
  induction times generalizing S with
  | nil => simp [updateTimes]
  | cons t ts ih =>
    rw [updateTimes, updateComponentTime, if_neg hne, hk]
    dsimp only
    rw [spLoaders_new S k hJ t loaders (fun l hl => ht l hl t (by simp))]
    dsimp only
    rw [ih (fun l hl u hu => ht l hl u (by simp [hu]))]
    have hoff : ∀ v, subtractOffset A (Function.update S k v) k = subtractOffset A S k := by
      intro v
      funext o
      exact offset_congr (fun j hj => by simp [hj]) o
    have hw : ∀ v, spWrite J (Function.update S k v) loaders = spWrite J S loaders := by
      intro v
      funext st t
      simp only [spWrite, hoff]
    simp only [hw, Function.update_self, Function.update_idem, List.foldl_cons]
    rfl

theorem spWrite_states {A : Analysis} {k : Fin A.K} (J : ∀ o : Obs, Matrix (Fin o.m) (Fin (A.comp k).n) ℝ)
    (S : Store A) (loaders : List Loader) (st : Storage (A.comp k).n) (t u : Int) :
    (spWrite J S loaders st t).states u = if u = t ∧ HasData loaders t then
      some (systemOf (A.comp k).prior
        ((dayData loaders t).map (batchOf J (subtractOffset A S k)))).maximumAPosteriori
      else st.states u := by
  unfold spWrite
  by_cases h : dayData loaders t = []
  · have hn : ¬ HasData loaders t := fun hd => (hasData_iff loaders t).1 hd h
    simp [h, hn, SpSolution.new, spUpdateTimeStep]
  · have hy := (hasData_iff loaders t).2 h
    simp [h, hy, spUpdateTimeStep]

theorem spWrite_stds {A : Analysis} {k : Fin A.K} (J : ∀ o : Obs, Matrix (Fin o.m) (Fin (A.comp k).n) ℝ)
    (S : Store A) (loaders : List Loader) (st : Storage (A.comp k).n) (t u : Int) :
    (spWrite J S loaders st t).stds u =
      if u = t ∧ HasData loaders t ∧ (A.comp k).computeUncertainties = true then
      some (marginalStdOf (systemOf (A.comp k).prior
        ((dayData loaders t).map (batchOf J (subtractOffset A S k)))))
      else st.stds u := by
  unfold spWrite
  by_cases h : dayData loaders t = []
  · have hn : ¬ HasData loaders t := fun hd => (hasData_iff loaders t).1 hd h
    simp [h, hn, SpSolution.new, spUpdateTimeStep]
  · have hy := (hasData_iff loaders t).2 h
    simp [h, hy, spUpdateTimeStep]

theorem spWrite_rest {A : Analysis} {k : Fin A.K} (J : ∀ o : Obs, Matrix (Fin o.m) (Fin (A.comp k).n) ℝ)
    (S : Store A) (loaders : List Loader) (st : Storage (A.comp k).n) (t : Int) :
    (spWrite J S loaders st t).state = st.state ∧ (spWrite J S loaders st t).std = st.std ∧
      (spWrite J S loaders st t).measurement = st.measurement := by
  unfold spWrite
  by_cases h : dayData loaders t = []
  · simp [h, SpSolution.new, spUpdateTimeStep]
  · simp [h, spUpdateTimeStep]

theorem updateComponent_spatial {A : Analysis} (k : Fin A.K) (hk : (A.comp k).kind = .spatial)
    {J : ∀ o : Obs, Matrix (Fin o.m) (Fin (A.comp k).n) ℝ} (hJ : IsLinear (A.comp k) J)
    (loaders : List Loader) (hne : loaders ≠ []) (times : List Int)
    (ht : ∀ l ∈ loaders, ∀ t ∈ times, (l t).time = t) (S : Store A) :
    ∃ st : Storage (A.comp k).n, updateComponent A loaders times k S = .ok (Function.update S k st) ∧
      (∀ t, st.states t = if t ∈ times ∧ HasData loaders t then
        some (systemOf (A.comp k).prior
          ((dayData loaders t).map (batchOf J (subtractOffset A S k)))).maximumAPosteriori
        else (S k).states t) ∧
      (∀ t, st.stds t = if t ∈ times ∧ HasData loaders t ∧ (A.comp k).computeUncertainties = true then
        some (marginalStdOf (systemOf (A.comp k).prior
          ((dayData loaders t).map (batchOf J (subtractOffset A S k)))))
        else (S k).stds t) ∧
      st.state = (S k).state ∧ st.std = (S k).std ∧ st.measurement = (S k).measurement := by
  refine ⟨times.foldl (spWrite J S loaders) (S k), ?_, ?_, ?_, ?_⟩
  · rw [updateComponent, updateTimes_spatial k hk hJ loaders hne times ht S]
    dsimp only
    rw [updateComponentSolution, hk]
  · intro u
    generalize S k = st
    induction times generalizing st with
    | nil => simp
    | cons t ts ih =>
      rw [List.foldl_cons, ih (fun l hl v hv => ht l hl v (by simp [hv])), spWrite_states]
      by_cases h1 : u ∈ ts ∧ HasData loaders u
      · rw [if_pos h1, if_pos ⟨by simp [h1.1], h1.2⟩]
      · rw [if_neg h1]
        by_cases h2 : u = t ∧ HasData loaders t
        · obtain ⟨rfl, h2⟩ := h2
          rw [if_pos ⟨rfl, h2⟩, if_pos ⟨by simp, h2⟩]
        · rw [if_neg h2, if_neg]
          rintro ⟨h3, h4⟩
          rcases List.mem_cons.1 h3 with rfl | h3
          · exact h2 ⟨rfl, h4⟩
          · exact h1 ⟨h3, h4⟩
  · intro u
    generalize S k = st
    induction times generalizing st with
    | nil => simp
    | cons t ts ih =>
      rw [List.foldl_cons, ih (fun l hl v hv => ht l hl v (by simp [hv])), spWrite_stds]
      by_cases h1 : u ∈ ts ∧ HasData loaders u ∧ (A.comp k).computeUncertainties = true
      · rw [if_pos h1, if_pos ⟨by simp [h1.1], h1.2⟩]
      · rw [if_neg h1]
        by_cases h2 : u = t ∧ HasData loaders t ∧ (A.comp k).computeUncertainties = true
        · obtain ⟨rfl, h2⟩ := h2
          rw [if_pos ⟨rfl, h2⟩, if_pos ⟨by simp, h2⟩]
        · rw [if_neg h2, if_neg]
          rintro ⟨h3, h4⟩
          rcases List.mem_cons.1 h3 with rfl | h3
          · exact h2 ⟨rfl, h4⟩
          · exact h1 ⟨h3, h4⟩
  · generalize S k = st
    induction times generalizing st with
    | nil => simp
    | cons t ts ih =>
      rw [List.foldl_cons]
      have h1 := ih (fun l hl v hv => ht l hl v (by simp [hv])) (spWrite J S loaders st t)
      have h2 := spWrite_rest J S loaders st t
      exact ⟨h1.1.trans h2.1, h1.2.1.trans h2.2.1, h1.2.2.trans h2.2.2⟩

end Verif.Eustace.Components
