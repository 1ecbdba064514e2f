import Verif.Eustace.MonthlyBatch.Inputs

/-! C149: files found by name, and where the code departs from the property. -/

namespace Verif.Eustace.MonthlyBatch

open Verif Verif.Py Verif.Calendar Verif.Eumopps.Catalogue Verif.Eumopps.Placeholder Verif.Eumopps.Placeholder.Spec Verif.Eumopps.Periods
  Verif.Eumopps.Time Verif.Eumopps.Names
open Verif.Eustace.AnnualBatch (epoch daysSince range2 place searchsorted dateTimeOf nameToIndex policy addEntries dayStart FileOn
  Slot bind_ok Outcome policy_outcome midnight_mod epoch_mod' dayStart_eq arith_year arith_period floor_daysSince daysSince_midnight intOf_int
  mem_range2 sorted_range2 daysSince_whole searchsorted_get place_spec last_greatest pairwise_flatten_lt dayStart_lt numberToDays_int dictGet_mapM
  day_of_time arith_exact arith_exact' dateTime_midnight filename_total dictGet_filterMap nameDict' NamedSlots triples_length arith_seconds IsOutput
  dayStart_mod output_entry unique_ne_nil addEntries_append addEntries_length addEntries_spec forall₂_flatten forall₂_comp exampleOutputs
  arith_file exampleByName no_year)

/-! ### Lookup by name -/

/-- The limits not rounded: days which begin in the period. -/
theorem available_exact {start stop : Int} (hs : start % secUs = 0) (he : stop % secUs = 0) (i : Int) (h : 0 ≤ ((monthOf start) : Int) + i) :
    ∃ l, available start (daysSince start) (daysSince stop) i = .ok l ∧ l.Pairwise (· < ·) ∧ ∀ D, D ∈ l ↔
      (monthStart (((monthOf start) : Int) + i).toNat ≤ dayStart D ∧
        dayStart D < monthStart ((((monthOf start) : Int) + i).toNat + 1)) ∧ start ≤ dayStart D ∧ dayStart D ≤ stop := by
  obtain ⟨l, h1, h2, h3⟩ := available_ok start (daysSince start) (daysSince stop) i h
  refine ⟨l, h1, h2, fun D => ?_⟩
  rw [h3]
  refine and_congr Iff.rfl ?_
  rw [daysSince_whole hs, daysSince_whole he, arith_exact, arith_exact', ← dayStart_eq]

theorem dateOf_monthStart (o : Nat) : dateOf (monthStart o) = ⟨o / 12, o % 12 + 1, 1⟩ := by
  unfold monthStart
  exact dateOf_midnight (firstOf_valid o)

theorem monthName_ok (start : Int) (p : List String) (i : Nat) :
    monthName start p i = filename (p.map String.toList) ⟨⟨((monthOf start) + i) / 12, ((monthOf start) + i) % 12 + 1, 1⟩, 0, 0, 0⟩ := by
  have hy : (((monthOf start) : Int) + (i : Int)).toNat = (monthOf start) + i := by omega
  unfold monthName
  rw [month_time start (i : Int) (by omega), bind_ok, hy, dateTime_midnight (monthStart_mod _), dateOf_monthStart]

/-- The lookup by name. -/
theorem byName_spec {start stop : Int} (hs : start % secUs = 0) (he : stop % secUs = 0) (h0 : 0 ≤ stop)
    (hle : (monthOf start) ≤ (monthOf stop)) {p : List String} (hp : p ≠ []) (entries : List FileEntry) :
    ∃ groups, byName start stop (daysSince start) (daysSince stop) p entries = .ok groups ∧
      ∀ i < steps start stop, ∃ name l, filename (p.map String.toList) ⟨⟨((monthOf start) + i) / 12, ((monthOf start) + i) % 12 + 1, 1⟩, 0, 0, 0⟩ = .ok name ∧
        available start (daysSince start) (daysSince stop) (i : Int) = .ok l ∧
        dictGet groups (i : Int) = (dictGet (nameToIndex entries) (String.ofList name)).map fun j => l.map fun _ => (j : Int) := by
  have hat : ∀ i : Nat, ∃ name l, filename (p.map String.toList) ⟨⟨((monthOf start) + i) / 12, ((monthOf start) + i) % 12 + 1, 1⟩, 0, 0, 0⟩ = .ok name ∧
      available start (daysSince start) (daysSince stop) (i : Int) = .ok l ∧
      byNameAt start (daysSince start) (daysSince stop) p entries i =
        .ok ((dictGet (nameToIndex entries) (String.ofList name)).map fun j => ((i : Int), l.map fun _ => (j : Int))) := by
    intro i
    obtain ⟨name, hn⟩ := filename_total hp ⟨⟨((monthOf start) + i) / 12, ((monthOf start) + i) % 12 + 1, 1⟩, 0, 0, 0⟩
    obtain ⟨l, hl, _⟩ := available_exact hs he (i : Int) (by omega)
    refine ⟨name, l, hn, hl, ?_⟩
    unfold byNameAt
    rw [monthName_ok, hn, bind_ok]
    cases hd : dictGet (nameToIndex entries) (String.ofList name) with
    | none => rfl
    | some j =>
      show (available start (daysSince start) (daysSince stop) (i : Int)).bind _ = _
      rw [hl, bind_ok]
      rfl
  obtain ⟨L, h1, h2, h3⟩ := overSteps_ok h0 he hle (f := byNameAt start (daysSince start) (daysSince stop) p entries) (fun i _ => by
    obtain ⟨_, _, _, _, h⟩ := hat i
    exact ⟨_, h⟩)
  refine ⟨L.filterMap id, by unfold byName; rw [h1, bind_ok], fun i hi => ?_⟩
  obtain ⟨name, l, n1, n2, n3⟩ := hat i
  refine ⟨name, l, n1, n2, ?_⟩
  rw [dictGet_filterMap]
  · obtain ⟨a, ha, hb⟩ := h3 i hi
    rw [n3] at hb
    injection hb with hb
    rw [ha, ← hb]
    cases dictGet (nameToIndex entries) (String.ofList name) <;> rfl
  · intro j k v hj
    obtain ⟨a, ha, hb⟩ := h3 j (by rw [← h2]; exact (List.getElem?_eq_some_iff.1 hj).1)
    obtain ⟨name', l', _, _, n3'⟩ := hat j
    rw [n3'] at hb
    injection hb with hb
    rw [hj] at ha
    injection ha with ha
    rw [← ha] at hb
    cases hd : dictGet (nameToIndex entries) (String.ofList name') with
    | none => rw [hd] at hb; cases hb
    | some q =>
      rw [hd] at hb
      injection hb with hb
      injection hb with hb
      exact hb.symm

/-- Files by name, for any start: days which begin in the period. -/
theorem by_name_general {inp : InputFileList} {skip : List Bool} {cat : Catalogue} {start stop : Int} {s : Subset} {p : List String}
    (hsub : cat.datasubset inp.datasetname inp.subsetindex = some s) (hpat : s.patterns = some p) (hp : p ≠ [])
    (hY : ¬ (HasField 'Y' (p.map String.toList).flatten ∧ HasField 'm' (p.map String.toList).flatten))
    (hs : start % secUs = 0) (he : stop % secUs = 0) (h0 : 0 ≤ stop) (hle : (monthOf start) ≤ (monthOf stop))
    (hskip : skip.length = (monthOf stop) - (monthOf start) + 1) :
    ∃ (refs : List (List Int)) (d : Nat), cat.datasetindex inp.datasetname = some d ∧ refs.length = skip.length ∧
      (∀ (i : Nat) r, refs[i]? = some r → ∃ name l, filename (p.map String.toList) ⟨⟨((monthOf start) + i) / 12, ((monthOf start) + i) % 12 + 1, 1⟩, 0, 0, 0⟩ = .ok name ∧
        available start (daysSince start) (daysSince stop) (i : Int) = .ok l ∧
        NamedSlots s.entries name inp.missingData d inp.subsetindex l r) ∧
      Outcome inp.missingData skip refs (findReferences inp skip cat start stop) := by
  obtain ⟨d, hd, _⟩ := datasetindex_of_subset hsub
  have hyu : monthUnique p = false := by rw [← Bool.not_eq_true, hasYm]; exact hY
  have hlim : limits start stop p = (daysSince start, daysSince stop) := by
    unfold limits; rw [if_neg (by simp [hyu])]
  obtain ⟨groups, g1, g2⟩ := byName_spec hs he h0 hle hp s.entries
  have hgr : slotGroups start stop p s.entries = .ok groups := by
    unfold slotGroups
    rw [hlim]
    simp only [hyu, Bool.false_eq_true, if_false]
    exact g1
  have hstep : ∀ i < steps start stop, ∃ r, stepSlots inp d start stop p groups i = .ok r ∧
      ∃ name l, filename (p.map String.toList) ⟨⟨((monthOf start) + i) / 12, ((monthOf start) + i) % 12 + 1, 1⟩, 0, 0, 0⟩ = .ok name ∧
        available start (daysSince start) (daysSince stop) (i : Int) = .ok l ∧
        NamedSlots s.entries name inp.missingData d inp.subsetindex l r := by
    intro i hi
    obtain ⟨name, l, n1, n2, n3⟩ := g2 i hi
    have hdict := nameDict' s.entries (String.ofList name)
    unfold stepSlots
    rw [hlim]
    simp only
    rw [n2, bind_ok, n3]
    cases hdg : dictGet (nameToIndex s.entries) (String.ofList name) with
    | none =>
      rw [hdg] at hdict
      simp only at hdict
      by_cases hm : inp.missingData = .allowed
      · rw [if_pos hm]
        refine ⟨_, rfl, name, l, n1, rfl, fun j hj _ => absurd hj (hdict j), fun _ => ?_⟩
        rw [if_pos hm, List.map_const']
        rfl
      · rw [if_neg hm]
        refine ⟨_, rfl, name, l, n1, rfl, fun j hj _ => absurd hj (hdict j), fun _ => ?_⟩
        rw [if_neg hm]
        rfl
    | some j =>
      rw [hdg] at hdict
      simp only at hdict
      have huniq : ∀ j2, Named s.entries (String.ofList name) j2 → (∀ j', j2 < j' → ¬ Named s.entries (String.ofList name) j') → j2 = j := by
        intro j2 a b
        rcases Nat.lt_trichotomy j2 j with h | h | h
        · exact absurd hdict.1 (b j h)
        · exact h
        · exact absurd a (hdict.2 j2 h)
      by_cases hm : inp.missingData = .allowed
      · rw [if_pos hm]
        exact ⟨_, rfl, name, l, n1, rfl, fun j2 a b => by rw [huniq j2 a b]; rfl, fun hc => absurd hdict.1 (hc j)⟩
      · rw [if_neg hm]
        exact ⟨_, rfl, name, l, n1, rfl, fun j2 a b => by rw [huniq j2 a b]; rfl, fun hc => absurd hdict.1 (hc j)⟩
  obtain ⟨refs, r1, r2, r3⟩ := overSteps_ok h0 he hle (f := stepSlots inp d start stop p groups) (fun i hi => by
    obtain ⟨r, h, _⟩ := hstep i hi
    exact ⟨r, h⟩)
  have hlen : refs.length = skip.length := by rw [r2, hskip]; rfl
  refine ⟨refs, d, hd, hlen, fun i r hr => ?_, ?_⟩
  · have hi : i < steps start stop := by rw [← r2]; exact (List.getElem?_eq_some_iff.1 hr).1
    obtain ⟨a, h1, h2⟩ := r3 i hi
    obtain ⟨r', h3, h4⟩ := hstep i hi
    rw [hr] at h1
    injection h1 with h1
    rw [h3] at h2
    injection h2 with h2
    rw [h1, ← h2]
    exact h4
  · have : findReferences inp skip cat start stop = policy inp skip refs := by
      unfold findReferences
      rw [hsub, hd]
      simp only [hpat]
      rw [hgr, bind_ok, r1, bind_ok]
    rw [this]
    exact policy_outcome inp hlen.symm

/-- **C149, files by name, partial.** If the patterns have no month and the period begins at midnight, each batch is given the (last) entry
with the name which the patterns give, once for each of its days; if there is no such file, -1 for all days if missing data is allowed and
nothing otherwise.  Missing from the full claim: periods which do not begin at midnight, see `c149_name_violated`. -/
theorem c149_by_name_partial {inp : InputFileList} {skip : List Bool} {cat : Catalogue} {start stop : Int} {s : Subset} {p : List String}
    (hsub : cat.datasubset inp.datasetname inp.subsetindex = some s) (hpat : s.patterns = some p) (hp : p ≠ [])
    (hY : ¬ (HasField 'Y' (p.map String.toList).flatten ∧ HasField 'm' (p.map String.toList).flatten))
    (hs : start % dayUs = 0) (he : stop % secUs = 0) (h0 : 0 ≤ stop) (hle : (monthOf start) ≤ (monthOf stop))
    (hskip : skip.length = (monthOf stop) - (monthOf start) + 1) :
    ∃ (refs : List (List Int)) (d : Nat), cat.datasetindex inp.datasetname = some d ∧ refs.length = skip.length ∧
      (∀ (i : Nat) r, refs[i]? = some r → ∀ days, IsDays start stop ((monthOf start) + i) days →
        ∃ name, filename (p.map String.toList) ⟨⟨((monthOf start) + i) / 12, ((monthOf start) + i) % 12 + 1, 1⟩, 0, 0, 0⟩ = .ok name ∧
          NamedSlots s.entries name inp.missingData d inp.subsetindex days r) ∧
      Outcome inp.missingData skip refs (findReferences inp skip cat start stop) := by
  have hs' : start % secUs = 0 := by unfold dayUs secUs at *; omega
  obtain ⟨refs, d, h1, h2, h3, h4⟩ := by_name_general hsub hpat hp hY hs' he h0 hle hskip
  refine ⟨refs, d, h1, h2, fun i r hr days hdays => ?_, h4⟩
  obtain ⟨name, l, a1, a2, a3⟩ := h3 i r hr
  refine ⟨name, a1, ?_⟩
  have : l = days := by
    obtain ⟨l', b1, b2, b3⟩ := available_exact hs' he (i : Int) (by omega : 0 ≤ ((monthOf start) : Int) + i)
    rw [a2] at b1
    injection b1 with b1
    subst b1
    refine IsDays.unique ⟨b2, fun D => ?_⟩ hdays
    rw [b3, show (((monthOf start) : Int) + (i : Int)).toNat = (monthOf start) + i by omega]
    refine and_congr Iff.rfl (and_congr ?_ Iff.rfl)
    have e := epoch_mod'
    rw [dayStart_eq, dayStart_eq]
    generalize epoch = E at *
    unfold dayUs at hs
    omega
  rw [← this]
  exact a3

/-! ### Departures -/

/-- **C149, negative result.** If the period does not begin at midnight, files found by name are given for fewer days than the batch of the
first month has (the first day is left out), so that days and files no longer correspond. -/
theorem c149_name_violated {inp : InputFileList} {skip : List Bool} {cat : Catalogue} {start stop : Int} {s : Subset} {p : List String}
    (hsub : cat.datasubset inp.datasetname inp.subsetindex = some s) (hpat : s.patterns = some p) (hp : p ≠ [])
    (hY : ¬ (HasField 'Y' (p.map String.toList).flatten ∧ HasField 'm' (p.map String.toList).flatten)) (hs : start % secUs = 0) (he : stop % secUs = 0) (hpos : 0 ≤ start) (hle : start ≤ stop)
    (hmid : start % dayUs ≠ 0) (hm : inp.missingData = .allowed)
    (hskip : skip.length = (monthOf stop) - (monthOf start) + 1) :
    ∃ refs L r l, findReferences inp skip cat start stop = .ok (refs, skip) ∧ dayIndices start stop = .ok L ∧
      refs[0]? = some r ∧ L[0]? = some l ∧ r.length < 3 * l.length := by
  have hy := month_mono hpos hle
  have hnn : 0 ≤ stop := le_trans hpos hle
  obtain ⟨refs, d, h1, h2, h3, h4⟩ := by_name_general hsub hpat hp hY hs he hnn hy hskip
  obtain ⟨L, d1, d2, d3⟩ := c149_days hs he hnn hy
  have l1 : 0 < L.length := by rw [d2]; omega
  have l2 : 0 < refs.length := by rw [h2, hskip]; omega
  have hr := List.getElem?_eq_getElem l2
  have hl := List.getElem?_eq_getElem l1
  refine ⟨refs, L, _, _, ?_, d1, hr, hl, ?_⟩
  · rw [hm] at h4; exact h4
  obtain ⟨name, l, a1, a2, a3⟩ := h3 0 _ hr
  have hdays := d3 0 _ hl
  generalize refs[0] = r at *
  generalize L[0] = days at *
  have hrlen : r.length = 3 * l.length := by
    by_cases hn : ∃ j, Named s.entries (String.ofList name) j
    · have hdict := nameDict' s.entries (String.ofList name)
      cases hdg : dictGet (nameToIndex s.entries) (String.ofList name) with
      | none => rw [hdg] at hdict; obtain ⟨j, hj⟩ := hn; exact absurd hj (hdict j)
      | some j =>
        rw [hdg] at hdict
        rw [a3.1 j hdict.1 hdict.2, triples_length, List.length_map]
    · rw [a3.2 (fun j hj => hn ⟨j, hj⟩), if_pos hm, triples_length, List.length_map]
  rw [hrlen]
  obtain ⟨l', b1, b2, b3⟩ := available_exact hs he (0 : Int) (by omega : 0 ≤ ((monthOf start) : Int) + 0)
  rw [show ((0 : Nat) : Int) = 0 from rfl] at a2
  rw [a2] at b1
  injection b1 with b1
  subst b1
  rw [show (((monthOf start) : Int) + 0).toNat = (monthOf start) + 0 by omega] at b3
  -- the day of the start
  have hD : dayStart ((start - epoch) / dayUs) ≤ start ∧ start < dayStart ((start - epoch) / dayUs + 1) := day_of_time.1 rfl
  have hne : dayStart ((start - epoch) / dayUs) ≠ start := by
    intro hc
    apply hmid
    rw [← hc, dayStart_eq]
    have e := epoch_mod'
    generalize epoch = E at *
    unfold dayUs
    omega
  have hin : (start - epoch) / dayUs ∈ days := by
    rw [hdays.mem, day_of_month hD]
    exact ⟨by rw [Nat.add_zero]; exact bounds hpos, hD.2, le_trans hD.1 hle⟩
  have hout : (start - epoch) / dayUs ∉ l := by
    rw [b3]
    intro hc
    exact hne (le_antisymm hD.1 hc.2.1)
  have hnd : l.Nodup := b2.imp fun {a b} h => by omega
  have hsub' : ((start - epoch) / dayUs) :: l ⊆ days := by
    intro x hx
    rcases List.mem_cons.1 hx with rfl | hx
    · exact hin
    · have hx' := (b3 x).1 hx
      rw [hdays.mem]
      refine ⟨hx'.1, lt_of_le_of_lt hx'.2.1 ?_, hx'.2.2⟩
      rw [dayStart_lt]; omega
  have := (List.subperm_of_subset (List.nodup_cons.2 ⟨hout, hnd⟩) hsub').length_le
  rw [List.length_cons] at this
  omega

end Verif.Eustace.MonthlyBatch
