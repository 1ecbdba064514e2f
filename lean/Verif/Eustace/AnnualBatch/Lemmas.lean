import Verif.Eustace.AnnualBatch.Model
import Verif.Eumopps.Periods.Props
import Verif.Eumopps.Placeholder.Lemmas
import Verif.Eumopps.Names.Props

/-! C63, C100, C101: specification and lemmas. -/

namespace Verif.Eustace.AnnualBatch

open Verif Verif.Py Verif.Calendar Verif.Eumopps.Catalogue Verif.Eumopps.Placeholder Verif.Eumopps.Periods Verif.Eumopps.Time Verif.Eumopps.Names

/-! ### Specification -/

/-- Start of day `D` of the analysis: days are numbered from 1 January 1850. -/
def dayStart (D : Int) : Int := midnight ⟨1850, 1, 1⟩ + D * dayUs

/-- The days of year `y` which have some time in the period from `start` to `stop`, in order. -/
structure IsDays (start stop : Int) (y : Nat) (l : List Int) : Prop where
  sorted : l.Pairwise (· < ·)
  mem : ∀ D, D ∈ l ↔ (yearStart y ≤ dayStart D ∧ dayStart D < yearStart (y + 1)) ∧ start < dayStart (D + 1) ∧ dayStart D ≤ stop

/-- Entry `j` of the catalogue is a file with time on day `D`. -/
def FileOn (entries : List FileEntry) (D : Int) (j : Nat) : Prop :=
  ∃ e t, entries[j]? = some e ∧ e.time = some t ∧ dayStart D ≤ t ∧ t < dayStart (D + 1)

/-- What is given for a day: the last file of the day in the catalogue, or -1. -/
def Slot (entries : List FileEntry) (D : Int) (v : Int) : Prop :=
  (v = -1 ∧ ∀ j, ¬ FileOn entries D j) ∨ ∃ j : Nat, v = j ∧ FileOn entries D j ∧ ∀ j', j < j' → ¬ FileOn entries D j'

/-- Some file has a time in the year. -/
def YearHasFile (entries : List FileEntry) (y : Nat) : Prop :=
  ∃ e ∈ entries, ∃ t, e.time = some t ∧ yearStart y ≤ t ∧ t < yearStart (y + 1)

/-- Times of files at whole seconds and not in the last second of a year. -/
def GoodTimes (entries : List FileEntry) : Prop :=
  ∀ e ∈ entries, ∃ t, e.time = some t ∧ 0 ≤ t ∧ t % secUs = 0 ∧ ∀ y, ¬ (yearStart y - secUs ≤ t ∧ t < yearStart y)

theorem bind_ok {α β : Type} (a : α) (f : α → Except PyErr β) : (Except.ok a : Except PyErr α).bind f = f a := rfl

/-- What is returned for references `refs` under each policy for missing data: if it is not allowed, an error if a year has no references;
if years are to be skipped, those without references are marked in addition. -/
def Outcome (missing : Missing) (skip : List Bool) (refs : List (List Int)) (result : Except PyErr (List (List Int) × List Bool)) : Prop :=
  match missing with
  | .notAllowed => (result = .ok (refs, skip) ∧ ∀ r ∈ refs, r ≠ []) ∨ (result = .error .nameError ∧ ∃ r ∈ refs, r = [])
  | .skip => ∃ skip', result = .ok (refs, skip') ∧ skip'.length = skip.length ∧
      ∀ i < skip.length, (skip'[i]? = some true ↔ skip[i]? = some true ∨ refs[i]? = some [])
  | _ => result = .ok (refs, skip)

theorem policy_outcome (inp : InputFileList) {skip : List Bool} {refs : List (List Int)} (hl : skip.length = refs.length) :
    Outcome inp.missingData skip refs (policy inp skip refs) := by
  unfold Outcome policy finish
  cases hm : inp.missingData with
  | notAllowed =>
    simp only
    by_cases h : (missingOf refs).length > 0
    · rw [if_pos h]
      right
      obtain ⟨i, hi⟩ := List.exists_mem_of_length_pos h
      exact ⟨rfl, [], List.mem_of_getElem? ((mem_missingOf refs i).1 hi), rfl⟩
    · rw [if_neg h]
      left
      refine ⟨rfl, fun r hr hc => ?_⟩
      obtain ⟨i, hi⟩ := List.mem_iff_getElem?.1 hr
      rw [hc] at hi
      exact h (List.length_pos_of_mem ((mem_missingOf refs i).2 hi))
  | skip =>
    simp only
    obtain ⟨sk', h1, h2, h3⟩ := foldlM_skip (missingOf refs) skip (by
      intro i hi
      rw [hl]
      exact (List.getElem?_eq_some_iff.1 ((mem_missingOf refs i).1 hi)).1)
    rw [h1]
    refine ⟨sk', rfl, h2, fun i hi => ?_⟩
    have hb : skip[i]? = some skip[i] := by simp
    rw [h3 i _ hb, hb]
    simp only [Option.some.injEq, Bool.or_eq_true, decide_eq_true_eq, mem_missingOf]
  | allowed => rfl
  | other => rfl

/-! ### Days -/

theorem epoch_eq : epoch = yearStart 1850 := by unfold epoch yearStart; with_reducible rfl

theorem midnight_mod (d : Date) : midnight d % dayUs = 0 := by unfold midnight dayUs; omega

theorem epoch_mod' : epoch % 86400000000 = 0 := by unfold epoch; exact midnight_mod _

theorem dayStart_eq (D : Int) : dayStart D = epoch + D * 86400000000 := by unfold dayStart epoch dayUs; with_reducible rfl

theorem yearStart_mod (y : Nat) : yearStart y % 86400000000 = 0 := by unfold yearStart; exact midnight_mod _

theorem arith_year {E Y Z D : Int} (e : E % 86400000000 = 0) (y : Y % 86400000000 = 0) (z : Z % 86400000000 = 0) :
    ((Y - E) / dayUs ≤ D ∧ D < (Z - E) / dayUs) ↔ Y ≤ E + D * 86400000000 ∧ E + D * 86400000000 < Z := by
  unfold dayUs; omega

theorem arith_period {E s t D : Int} :
    ((s - E) / dayUs ≤ D ∧ D ≤ (t - E) / dayUs) ↔ s < E + (D + 1) * 86400000000 ∧ E + D * 86400000000 ≤ t := by
  unfold dayUs; omega

theorem arith_whole {E t : Int} (e : E % 86400000000 = 0) (h : t % secUs = 0) : (t - E) % secUs = 0 := by
  unfold secUs at *; omega

theorem arith_midnight {E t : Int} (e : E % 86400000000 = 0) (h : t % dayUs = 0) : t - E = ((t - E) / dayUs) * dayUs := by
  unfold dayUs at *; omega

theorem whole_epoch {t : Int} (h : t % secUs = 0) : WholeSeconds epoch t := by
  rw [whole_mod]
  exact arith_whole epoch_mod' h

theorem daysSince_whole {t : Int} (h : t % secUs = 0) : daysSince t = ((t - epoch : Int) : ℚ) / dayUs :=
  c14_elapsed_partial (whole_epoch h)

theorem floor_daysSince {t : Int} (h : t % secUs = 0) : ⌊daysSince t⌋ = (t - epoch) / dayUs := by
  rw [daysSince_whole h, floor_div_int _ _ (by decide)]

/-- A midnight is a whole number of days. -/
theorem daysSince_midnight {t : Int} (h : t % dayUs = 0) : daysSince t = (((t - epoch) / dayUs : Int) : ℚ) := by
  have hs : t % secUs = 0 := by unfold dayUs secUs at *; omega
  rw [daysSince_whole hs]
  have : t - epoch = ((t - epoch) / dayUs) * dayUs := arith_midnight epoch_mod' h
  have hd : ((dayUs : Int) : ℚ) ≠ 0 := by norm_num [dayUs]
  conv_lhs => rw [this]
  push_cast
  rw [mul_div_assoc, div_self hd, mul_one]

theorem intOf_int (n : Int) : intOf (n : ℚ) = n := by unfold intOf; split <;> simp

/-- Day number of a year's start. -/
theorem day_year (y : Nat) : intOf (daysSince (yearStart y)) = (yearStart y - epoch) / dayUs := by
  rw [daysSince_midnight (yearStart_mod y), intOf_int]

theorem mem_range2 {a b d : Int} : d ∈ range2 a b ↔ a ≤ d ∧ d < b := by
  unfold range2
  simp only [List.mem_map, List.mem_range]
  constructor
  · rintro ⟨k, hk, rfl⟩; omega
  · intro h; exact ⟨(d - a).toNat, by omega, by omega⟩

theorem sorted_range2 (a b : Int) : (range2 a b).Pairwise (· < ·) := by
  unfold range2
  rw [List.pairwise_map]
  exact List.pairwise_lt_range.imp (by intro x y h; omega)

theorem dayNumbers_ok (start : Int) (i : Int) (hi : 0 ≤ ((dateOf start).year : Int) + i) :
    dayNumbersInYear start i = .ok (range2 ((yearStart (((dateOf start).year : Int) + i).toNat - epoch) / dayUs)
      ((yearStart ((((dateOf start).year : Int) + i).toNat + 1) - epoch) / dayUs)) := by
  have : (((dateOf start).year : Int) + (i + 1)).toNat = (((dateOf start).year : Int) + i).toNat + 1 := by omega
  unfold dayNumbersInYear
  rw [(c15_annual_time start i hi).1, (c15_annual_time start (i + 1) (by omega)).1, this, bind_ok, bind_ok, day_year, day_year]

/-- The days between limits, for any limits. -/
theorem available_ok (start : Int) (lo hi : ℚ) (i : Int) (h : 0 ≤ ((dateOf start).year : Int) + i) :
    ∃ l, available start lo hi i = .ok l ∧ l.Pairwise (· < ·) ∧ ∀ D, D ∈ l ↔
      (yearStart (((dateOf start).year : Int) + i).toNat ≤ dayStart D ∧
        dayStart D < yearStart ((((dateOf start).year : Int) + i).toNat + 1)) ∧ lo ≤ (D : ℚ) ∧ (D : ℚ) ≤ hi := by
  unfold available
  rw [dayNumbers_ok start i h, bind_ok]
  refine ⟨_, rfl, (sorted_range2 _ _).filter _, fun D => ?_⟩
  rw [List.mem_filter, mem_range2, Bool.and_eq_true, decide_eq_true_iff, decide_eq_true_iff]
  refine and_congr ?_ Iff.rfl
  rw [dayStart_eq]
  exact arith_year epoch_mod' (yearStart_mod _) (yearStart_mod _)

/-- The limits rounded down: the days with some time in the period. -/
theorem available_floor {start stop : Int} (hs : start % secUs = 0) (he : stop % secUs = 0) (s0 : Int) (i : Int)
    (h : 0 ≤ ((dateOf s0).year : Int) + i) :
    ∃ l, available s0 (⌊daysSince start⌋ : Int) (⌊daysSince stop⌋ : Int) i = .ok l ∧
      IsDays start stop (((dateOf s0).year : Int) + i).toNat l := by
  obtain ⟨l, h1, h2, h3⟩ := available_ok s0 (⌊daysSince start⌋ : Int) (⌊daysSince stop⌋ : Int) i h
  refine ⟨l, h1, h2, fun D => ?_⟩
  rw [h3]
  refine and_congr Iff.rfl ?_
  rw [Int.cast_le, Int.cast_le, floor_daysSince hs, floor_daysSince he, dayStart_eq, dayStart_eq]
  exact arith_period

/-- Days of a year are determined by the specification. -/
theorem IsDays.unique {start stop : Int} {y : Nat} {l l' : List Int} (h : IsDays start stop y l) (h' : IsDays start stop y l') : l = l' := by
  refine List.Perm.eq_of_pairwise (le := (· < ·)) (fun a b _ _ h1 h2 => by omega) h.sorted h'.sorted ?_
  rw [List.perm_ext_iff_of_nodup (h.sorted.imp fun {a b} h => by omega) (h'.sorted.imp fun {a b} h => by omega)]
  intro D
  rw [h.mem, h'.mem]

/-- Years from start to stop. -/
theorem annual_count {start stop : Int} (h0 : 0 ≤ stop) (hle : (dateOf start).year ≤ (dateOf stop).year) :
    annualCount start stop = .ok (if yearStart ((dateOf stop).year + 1) - secUs ≤ stop then ((dateOf stop).year : Int) - (dateOf start).year + 2
      else ((dateOf stop).year : Int) - (dateOf start).year + 1) := by
  obtain ⟨k, hk, hc⟩ := c15_annual_count h0 hle
  obtain ⟨b1, b2⟩ := year_bounds h0
  have hs : (0 : Int) ≤ secUs := by decide
  have g := yearStart_gap ((dateOf stop).year + 1)
  rw [hc]
  by_cases hl : yearStart ((dateOf stop).year + 1) - secUs ≤ stop
  · rw [if_pos hl]
    have := (c15_annual_index (start := start) h0 (((dateOf stop).year : Int) - (dateOf start).year + 1) (by omega)).2
      (by
        have e : (((dateOf start).year : Int) + (((dateOf stop).year : Int) - (dateOf start).year + 1)).toNat = (dateOf stop).year + 1 := by omega
        rw [e]
        constructor
        · exact hl
        · omega)
    rw [hk] at this
    injection this with this
    rw [this]
    congr 1; omega
  · rw [if_neg hl]
    have := (c15_annual_index (start := start) h0 (((dateOf stop).year : Int) - (dateOf start).year) (by omega)).2
      (by
        have e : (((dateOf start).year : Int) + (((dateOf stop).year : Int) - (dateOf start).year)).toNat = (dateOf stop).year := by omega
        rw [e]
        constructor
        · omega
        · omega)
    rw [hk] at this
    injection this with this
    rw [this]

/-- Number of steps. -/
def steps (start stop : Int) : Nat := if yearStart ((dateOf stop).year + 1) - secUs ≤ stop then (dateOf stop).year - (dateOf start).year + 2
  else (dateOf stop).year - (dateOf start).year + 1

theorem count_steps {start stop : Int} (h0 : 0 ≤ stop) (hle : (dateOf start).year ≤ (dateOf stop).year) :
    annualCount start stop = .ok (steps start stop : Int) := by
  rw [annual_count h0 hle]
  unfold steps
  congr 1
  split <;> omega

/-- A comprehension over steps succeeds if each of its elements does. -/
theorem overSteps_ok {α : Type} {start stop : Int} (h0 : 0 ≤ stop) (hle : (dateOf start).year ≤ (dateOf stop).year)
    {f : Nat → Except PyErr α} (hf : ∀ i < steps start stop, ∃ a, f i = .ok a) :
    ∃ L, overSteps start stop f = .ok L ∧ L.length = steps start stop ∧ ∀ i < steps start stop, ∃ a, L[i]? = some a ∧ f i = .ok a := by
  unfold overSteps
  rw [count_steps h0 hle, bind_ok, Int.toNat_natCast]
  obtain ⟨L, hL⟩ := mapM_total (f := f) (l := List.range (steps start stop)) (fun i hi => hf i (by simpa using hi))
  obtain ⟨h1, h2⟩ := mapM_ok hL
  refine ⟨L, hL, by simpa using h1, fun i hi => h2 i i (by simp [hi])⟩

/-! ### Slots -/

/-- In an increasing list the number of smaller elements is the position. -/
theorem searchsorted_get : ∀ {l : List Int}, l.Pairwise (· < ·) → ∀ {k : Nat} {d : Int}, l[k]? = some d → searchsorted l d = k
  | [], _, k, d, h => by simp at h
  | x :: xs, hp, k, d, h => by
    obtain ⟨h1, h2⟩ := List.pairwise_cons.1 hp
    unfold searchsorted
    cases k with
    | zero =>
      have hx : x = d := by simpa using h
      subst hx
      rw [List.filter_cons, if_neg (by simp)]
      have : xs.filter (fun y => decide (y < x)) = [] := by
        rw [List.filter_eq_nil_iff]
        intro y hy
        have := h1 y hy
        simp; omega
      rw [this]; rfl
    | succ k =>
      have hd : xs[k]? = some d := by simpa using h
      have hlt := h1 d (List.mem_of_getElem? hd)
      rw [List.filter_cons, if_pos (by simpa using hlt), List.length_cons]
      have := searchsorted_get h2 hd
      unfold searchsorted at this
      rw [this]

/-- Each slot holds the file of the last pair with its number. -/
theorem place_spec : ∀ (pairs : List (Nat × Nat)) (slots : List Int), (∀ p ∈ pairs, p.1 < slots.length) →
    ∃ out, place slots pairs = .ok out ∧ out.length = slots.length ∧
      ∀ k, out[k]? = match (pairs.filter fun p => decide (p.1 = k)).getLast? with
        | some p => if k < slots.length then some (p.2 : Int) else none
        | none => slots[k]?
  | [], slots, _ => ⟨slots, rfl, rfl, fun k => by simp⟩
  | (a, b) :: rest, slots, h => by
    have ha : a < slots.length := h (a, b) (by simp)
    obtain ⟨out, h1, h2, h3⟩ := place_spec rest (slots.set a (b : Int)) (fun p hp => by
      rw [List.length_set]; exact h p (by simp [hp]))
    refine ⟨out, by rw [place, if_pos ha, h1], by rw [h2, List.length_set], fun k => ?_⟩
    rw [h3 k, List.filter_cons, List.length_set]
    by_cases hk : a = k
    · subst hk
      rw [if_pos (by simp)]
      cases hr : (rest.filter fun p => decide (p.1 = a)).getLast? with
      | none =>
        have : rest.filter (fun p => decide (p.1 = a)) = [] := List.getLast?_eq_none_iff.1 hr
        rw [this]
        simp [ha]
      | some p =>
        have hne : rest.filter (fun p => decide (p.1 = a)) ≠ [] := by
          intro hc; rw [hc] at hr; simp at hr
        rw [List.getLast?_cons, hr]
        simp
    · rw [if_neg (by simpa using hk)]
      cases hr : (rest.filter fun p => decide (p.1 = k)).getLast? with
      | none => simp only; rw [List.getElem?_set_ne hk]
      | some p => rfl

/-- The last of a strictly increasing list. -/
theorem last_greatest {l : List (Nat × Nat)} (h : l.Pairwise fun a b => a.2 < b.2) {p : Nat × Nat} (hp : l.getLast? = some p) :
    p ∈ l ∧ ∀ q ∈ l, q.2 ≤ p.2 := by
  obtain ⟨ys, rfl⟩ := List.getLast?_eq_some_iff.1 hp
  refine ⟨by simp, fun q hq => ?_⟩
  rw [List.pairwise_append] at h
  rcases List.mem_append.1 hq with hq | hq
  · exact (h.2.2 q hq p (by simp)).le
  · simp at hq; rw [hq]

end Verif.Eustace.AnnualBatch
