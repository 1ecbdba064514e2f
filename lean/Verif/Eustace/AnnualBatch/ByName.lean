import Verif.Eustace.AnnualBatch.Inputs

/-! C63: files found by name, and where the code departs from the property. -/

namespace Verif.Eustace.AnnualBatch

open Verif Verif.Py Verif.Calendar Verif.Eumopps.Catalogue Verif.Eumopps.Placeholder Verif.Eumopps.Placeholder.Spec Verif.Eumopps.Periods
  Verif.Eumopps.Time Verif.Eumopps.Names

/-! ### Lookup by name -/

theorem arith_exact {E s D : Int} : ((s - E : Int) : ℚ) / dayUs ≤ (D : ℚ) ↔ s ≤ E + D * 86400000000 := by
  have hd : (0 : ℚ) < ((dayUs : Int) : ℚ) := by norm_num [dayUs]
  rw [div_le_iff₀ hd]
  have : ((D : ℚ) * ((dayUs : Int) : ℚ)) = ((D * dayUs : Int) : ℚ) := by push_cast; ring
  rw [this, Int.cast_le]
  unfold dayUs
  omega

theorem arith_exact' {E s D : Int} : (D : ℚ) ≤ ((s - E : Int) : ℚ) / dayUs ↔ E + D * 86400000000 ≤ s := by
  have hd : (0 : ℚ) < ((dayUs : Int) : ℚ) := by norm_num [dayUs]
  rw [le_div_iff₀ hd]
  have : ((D : ℚ) * ((dayUs : Int) : ℚ)) = ((D * dayUs : Int) : ℚ) := by push_cast; ring
  rw [this, Int.cast_le]
  unfold dayUs
  omega

/-- The limits not rounded: days which begin in the period. -/
theorem available_exact {start stop : Int} (hs : start % secUs = 0) (he : stop % secUs = 0) (i : Int) (h : 0 ≤ ((dateOf start).year : Int) + i) :
    ∃ l, available start (daysSince start) (daysSince stop) i = .ok l ∧ l.Pairwise (· < ·) ∧ ∀ D, D ∈ l ↔
      (yearStart (((dateOf start).year : Int) + i).toNat ≤ dayStart D ∧
        dayStart D < yearStart ((((dateOf start).year : Int) + i).toNat + 1)) ∧ start ≤ dayStart D ∧ dayStart D ≤ stop := by
  obtain ⟨l, h1, h2, h3⟩ := available_ok start (daysSince start) (daysSince stop) i h
  refine ⟨l, h1, h2, fun D => ?_⟩
  rw [h3]
  refine and_congr Iff.rfl ?_
  rw [daysSince_whole hs, daysSince_whole he, arith_exact, arith_exact', ← dayStart_eq]

/-- Time and date at midnight. -/
theorem dateTime_midnight {t : Int} (h : t % 86400000000 = 0) : dateTimeOf t = ⟨dateOf t, 0, 0, 0⟩ := by
  unfold dateTimeOf
  have h1 : t % dayUs / (3600 * secUs) = 0 := by unfold dayUs secUs; omega
  have h2 : t % (3600 * secUs) / (60 * secUs) = 0 := by unfold secUs; omega
  have h3 : t % (60 * secUs) / secUs = 0 := by unfold secUs; omega
  rw [h1, h2, h3]
  rfl

theorem dateOf_yearStart (y : Nat) : dateOf (yearStart y) = ⟨y, 1, 1⟩ := by
  unfold yearStart
  refine dateOf_midnight ⟨Nat.le_refl 1, (by show 1 ≤ 12; omega), Nat.le_refl 1, ?_⟩
  show 1 ≤ daysInMonth y 1
  unfold daysInMonth
  simp

theorem yearName_ok (start : Int) (p : List String) (i : Nat) :
    yearName start p i = filename (p.map String.toList) ⟨⟨(dateOf start).year + i, 1, 1⟩, 0, 0, 0⟩ := by
  have hy : (((dateOf start).year : Int) + (i : Int)).toNat = (dateOf start).year + i := by omega
  unfold yearName
  rw [(c15_annual_time start (i : Int) (by omega)).1, bind_ok, hy, dateTime_midnight (yearStart_mod _), dateOf_yearStart]

theorem filename_total {p : List String} (hp : p ≠ []) (t : DateTime) : ∃ n, filename (p.map String.toList) t = .ok n := by
  cases p with
  | nil => exact absurd rfl hp
  | cons a l => exact ⟨_, rfl⟩

theorem dictGet_filterMap {β : Type} {L : List (Option (Int × β))} (h : ∀ (i : Nat) k v, L[i]? = some (some (k, v)) → k = (i : Int)) (i : Nat) :
    dictGet (L.filterMap id) (i : Int) = (L[i]?).bind fun o => o.map Prod.snd := by
  have hn : ((L.filterMap id).map Prod.fst).Nodup := by
    rw [List.Nodup, List.pairwise_map, List.pairwise_filterMap, List.pairwise_iff_getElem]
    intro a b ha hb hab x hx y hy
    have hx' := h a x.1 x.2 (by rw [List.getElem?_eq_getElem ha]; exact congrArg some hx)
    have hy' := h b y.1 y.2 (by rw [List.getElem?_eq_getElem hb]; exact congrArg some hy)
    rw [hx', hy']
    omega
  have hmem : ∀ k v, (k, v) ∈ L.filterMap id ↔ ∃ j : Nat, L[j]? = some (some (k, v)) := by
    intro k v
    rw [List.mem_filterMap]
    constructor
    · rintro ⟨o, ho, hv⟩
      obtain ⟨j, hj⟩ := List.mem_iff_getElem?.1 ho
      exact ⟨j, by rw [hj]; exact congrArg some hv⟩
    · rintro ⟨j, hj⟩
      exact ⟨some (k, v), List.mem_of_getElem? hj, rfl⟩
  have none_case : (∀ v, L[i]? ≠ some (some ((i : Int), v))) → dictGet (L.filterMap id) (i : Int) = none := by
    intro hv
    rw [dictGet_none_iff]
    rintro ⟨k, v⟩ he hc
    obtain ⟨j, hj⟩ := (hmem k v).1 he
    have e1 := h j k v hj
    have e2 : k = (i : Int) := hc
    have : j = i := by omega
    subst this
    rw [e1] at hj
    exact hv v hj
  cases hL : L[i]? with
  | none => rw [none_case (by rw [hL]; intro v hc; cases hc)]; rfl
  | some o =>
    cases o with
    | none => rw [none_case (by rw [hL]; intro v hc; injection hc with hc; cases hc)]; rfl
    | some kv =>
      have hk := h i kv.1 kv.2 hL
      refine dictGet_eq_some hn ((hmem _ _).2 ⟨i, ?_⟩)
      rw [hL, ← hk]

theorem nameDict' (entries : List FileEntry) (n : String) :
    match dictGet (nameToIndex entries) n with
    | none => ∀ j, ¬ Named entries n j
    | some j => Named entries n j ∧ ∀ j', j < j' → ¬ Named entries n j' := nameDict entries n

/-- The lookup by name. -/
theorem byName_spec {start stop : Int} (hs : start % secUs = 0) (he : stop % secUs = 0) (h0 : 0 ≤ stop)
    (hle : (dateOf start).year ≤ (dateOf stop).year) {p : List String} (hp : p ≠ []) (entries : List FileEntry) :
    ∃ groups, byName start stop (daysSince start) (daysSince stop) p entries = .ok groups ∧
      ∀ i < steps start stop, ∃ name l, filename (p.map String.toList) ⟨⟨(dateOf start).year + i, 1, 1⟩, 0, 0, 0⟩ = .ok name ∧
        available start (daysSince start) (daysSince stop) (i : Int) = .ok l ∧
        dictGet groups (i : Int) = (dictGet (nameToIndex entries) (String.ofList name)).map fun j => l.map fun _ => (j : Int) := by
  have hat : ∀ i : Nat, ∃ name l, filename (p.map String.toList) ⟨⟨(dateOf start).year + i, 1, 1⟩, 0, 0, 0⟩ = .ok name ∧
      available start (daysSince start) (daysSince stop) (i : Int) = .ok l ∧
      byNameAt start (daysSince start) (daysSince stop) p entries i =
        .ok ((dictGet (nameToIndex entries) (String.ofList name)).map fun j => ((i : Int), l.map fun _ => (j : Int))) := by
    intro i
    obtain ⟨name, hn⟩ := filename_total hp ⟨⟨(dateOf start).year + i, 1, 1⟩, 0, 0, 0⟩
    obtain ⟨l, hl, _⟩ := available_exact hs he (i : Int) (by omega)
    refine ⟨name, l, hn, hl, ?_⟩
    unfold byNameAt
    rw [yearName_ok, hn, bind_ok]
    cases hd : dictGet (nameToIndex entries) (String.ofList name) with
    | none => rfl
    | some j =>
      show (available start (daysSince start) (daysSince stop) (i : Int)).bind _ = _
      rw [hl, bind_ok]
      rfl
  obtain ⟨L, h1, h2, h3⟩ := overSteps_ok h0 hle (f := byNameAt start (daysSince start) (daysSince stop) p entries) (fun i _ => by
    obtain ⟨_, _, _, _, h⟩ := hat i
    exact ⟨_, h⟩)
  refine ⟨L.filterMap id, by unfold byName; rw [h1, bind_ok], fun i hi => ?_⟩
  obtain ⟨name, l, n1, n2, n3⟩ := hat i
  refine ⟨name, l, n1, n2, ?_⟩
  rw [dictGet_filterMap]
  · obtain ⟨a, ha, hb⟩ := h3 i hi
    rw [n3] at hb
    injection hb with hb
    rw [ha, ← hb]
    cases dictGet (nameToIndex entries) (String.ofList name) <;> rfl
  · intro j k v hj
    obtain ⟨a, ha, hb⟩ := h3 j (by rw [← h2]; exact (List.getElem?_eq_some_iff.1 hj).1)
    obtain ⟨name', l', _, _, n3'⟩ := hat j
    rw [n3'] at hb
    injection hb with hb
    rw [hj] at ha
    injection ha with ha
    rw [← ha] at hb
    cases hd : dictGet (nameToIndex entries) (String.ofList name') with
    | none => rw [hd] at hb; cases hb
    | some q =>
      rw [hd] at hb
      injection hb with hb
      injection hb with hb
      exact hb.symm

/-- What is given for a year when files are found by name, for days `l`. -/
def NamedSlots (entries : List FileEntry) (name : List Char) (missing : Missing) (d si : Int) (l : List Int) (r : List Int) : Prop :=
  (∀ j, Named entries (String.ofList name) j → (∀ j', j < j' → ¬ Named entries (String.ofList name) j') → r = triples d si (l.map fun _ => (j : Int))) ∧
  ((∀ j, ¬ Named entries (String.ofList name) j) → r = if missing = .allowed then triples d si (l.map fun _ => -1) else [])

/-- Files by name, for any start: days which begin in the period. -/
theorem by_name_general {inp : InputFileList} {skip : List Bool} {cat : Catalogue} {start stop : Int} {s : Subset} {p : List String}
    (hsub : cat.datasubset inp.datasetname inp.subsetindex = some s) (hpat : s.patterns = some p) (hp : p ≠ [])
    (hY : ¬ HasField 'Y' (p.map String.toList).flatten)
    (hs : start % secUs = 0) (he : stop % secUs = 0) (h0 : 0 ≤ stop) (hle : (dateOf start).year ≤ (dateOf stop).year)
    (hskip : skip.length = (dateOf stop).year - (dateOf start).year + (if yearStart ((dateOf stop).year + 1) - secUs ≤ stop then 2 else 1)) :
    ∃ (refs : List (List Int)) (d : Nat), cat.datasetindex inp.datasetname = some d ∧ refs.length = skip.length ∧
      (∀ (i : Nat) r, refs[i]? = some r → ∃ name l, filename (p.map String.toList) ⟨⟨(dateOf start).year + i, 1, 1⟩, 0, 0, 0⟩ = .ok name ∧
        available start (daysSince start) (daysSince stop) (i : Int) = .ok l ∧
        NamedSlots s.entries name inp.missingData d inp.subsetindex l r) ∧
      Outcome inp.missingData skip refs (findReferences inp skip cat start stop) := by
  obtain ⟨d, hd, _⟩ := datasetindex_of_subset hsub
  have hyu : yearUnique p = false := by rw [← Bool.not_eq_true, hasY]; exact hY
  have hlim : limits start stop p = (daysSince start, daysSince stop) := by
    unfold limits; rw [if_neg (by simp [hyu])]
  obtain ⟨groups, g1, g2⟩ := byName_spec hs he h0 hle hp s.entries
  have hgr : slotGroups start stop p s.entries = .ok groups := by
    unfold slotGroups
    rw [hlim]
    simp only [hyu, Bool.false_eq_true, if_false]
    exact g1
  have hstep : ∀ i < steps start stop, ∃ r, stepSlots inp d start stop p groups i = .ok r ∧
      ∃ name l, filename (p.map String.toList) ⟨⟨(dateOf start).year + i, 1, 1⟩, 0, 0, 0⟩ = .ok name ∧
        available start (daysSince start) (daysSince stop) (i : Int) = .ok l ∧
        NamedSlots s.entries name inp.missingData d inp.subsetindex l r := by
    intro i hi
    obtain ⟨name, l, n1, n2, n3⟩ := g2 i hi
    have hdict := nameDict' s.entries (String.ofList name)
    unfold stepSlots
    rw [hlim]
    simp only
    rw [n2, bind_ok, n3]
    cases hdg : dictGet (nameToIndex s.entries) (String.ofList name) with
    | none =>
      rw [hdg] at hdict
      simp only at hdict
      by_cases hm : inp.missingData = .allowed
      · rw [if_pos hm]
        refine ⟨_, rfl, name, l, n1, rfl, fun j hj _ => absurd hj (hdict j), fun _ => ?_⟩
        rw [if_pos hm, List.map_const']
        rfl
      · rw [if_neg hm]
        refine ⟨_, rfl, name, l, n1, rfl, fun j hj _ => absurd hj (hdict j), fun _ => ?_⟩
        rw [if_neg hm]
        rfl
    | some j =>
      rw [hdg] at hdict
      simp only at hdict
      have huniq : ∀ j2, Named s.entries (String.ofList name) j2 → (∀ j', j2 < j' → ¬ Named s.entries (String.ofList name) j') → j2 = j := by
        intro j2 a b
        rcases Nat.lt_trichotomy j2 j with h | h | h
        · exact absurd hdict.1 (b j h)
        · exact h
        · exact absurd a (hdict.2 j2 h)
      by_cases hm : inp.missingData = .allowed
      · rw [if_pos hm]
        exact ⟨_, rfl, name, l, n1, rfl, fun j2 a b => by rw [huniq j2 a b]; rfl, fun hc => absurd hdict.1 (hc j)⟩
      · rw [if_neg hm]
        exact ⟨_, rfl, name, l, n1, rfl, fun j2 a b => by rw [huniq j2 a b]; rfl, fun hc => absurd hdict.1 (hc j)⟩
  obtain ⟨refs, r1, r2, r3⟩ := overSteps_ok h0 hle (f := stepSlots inp d start stop p groups) (fun i hi => by
    obtain ⟨r, h, _⟩ := hstep i hi
    exact ⟨r, h⟩)
  have hlen : refs.length = skip.length := by rw [r2, hskip]; unfold steps; split <;> rfl
  refine ⟨refs, d, hd, hlen, fun i r hr => ?_, ?_⟩
  · have hi : i < steps start stop := by rw [← r2]; exact (List.getElem?_eq_some_iff.1 hr).1
    obtain ⟨a, h1, h2⟩ := r3 i hi
    obtain ⟨r', h3, h4⟩ := hstep i hi
    rw [hr] at h1
    injection h1 with h1
    rw [h3] at h2
    injection h2 with h2
    rw [h1, ← h2]
    exact h4
  · have : findReferences inp skip cat start stop = policy inp skip refs := by
      unfold findReferences
      rw [hsub, hd]
      simp only [hpat]
      rw [hgr, bind_ok, r1, bind_ok]
    rw [this]
    exact policy_outcome inp hlen.symm

/-- **C63, files by name, partial.** If the patterns have no year and the period begins at midnight, each batch is given the (last) entry
with the name which the patterns give, once for each of its days; if there is no such file, -1 for all days if missing data is allowed and
nothing otherwise.  Missing from the full claim: periods which do not begin at midnight, see `c63_name_violated`. -/
theorem c63_by_name_partial {inp : InputFileList} {skip : List Bool} {cat : Catalogue} {start stop : Int} {s : Subset} {p : List String}
    (hsub : cat.datasubset inp.datasetname inp.subsetindex = some s) (hpat : s.patterns = some p) (hp : p ≠ [])
    (hY : ¬ HasField 'Y' (p.map String.toList).flatten)
    (hs : start % dayUs = 0) (he : stop % secUs = 0) (h0 : 0 ≤ stop) (hle : (dateOf start).year ≤ (dateOf stop).year)
    (hskip : skip.length = (dateOf stop).year - (dateOf start).year + (if yearStart ((dateOf stop).year + 1) - secUs ≤ stop then 2 else 1)) :
    ∃ (refs : List (List Int)) (d : Nat), cat.datasetindex inp.datasetname = some d ∧ refs.length = skip.length ∧
      (∀ (i : Nat) r, refs[i]? = some r → ∀ days, IsDays start stop ((dateOf start).year + i) days →
        ∃ name, filename (p.map String.toList) ⟨⟨(dateOf start).year + i, 1, 1⟩, 0, 0, 0⟩ = .ok name ∧
          NamedSlots s.entries name inp.missingData d inp.subsetindex days r) ∧
      Outcome inp.missingData skip refs (findReferences inp skip cat start stop) := by
  have hs' : start % secUs = 0 := by unfold dayUs secUs at *; omega
  obtain ⟨refs, d, h1, h2, h3, h4⟩ := by_name_general hsub hpat hp hY hs' he h0 hle hskip
  refine ⟨refs, d, h1, h2, fun i r hr days hdays => ?_, h4⟩
  obtain ⟨name, l, a1, a2, a3⟩ := h3 i r hr
  refine ⟨name, a1, ?_⟩
  have : l = days := by
    obtain ⟨l', b1, b2, b3⟩ := available_exact hs' he (i : Int) (by omega : 0 ≤ ((dateOf start).year : Int) + i)
    rw [a2] at b1
    injection b1 with b1
    subst b1
    refine IsDays.unique ⟨b2, fun D => ?_⟩ hdays
    rw [b3, show (((dateOf start).year : Int) + (i : Int)).toNat = (dateOf start).year + i by omega]
    refine and_congr Iff.rfl (and_congr ?_ Iff.rfl)
    have e := epoch_mod'
    rw [dayStart_eq, dayStart_eq]
    generalize epoch = E at *
    unfold dayUs at hs
    omega
  rw [← this]
  exact a3

/-! ### Departures -/

theorem triples_length (d s : Int) (es : List Int) : (triples d s es).length = 3 * es.length := by
  induction es with
  | nil => rfl
  | cons e es ih => simp only [triples, List.flatMap_cons, List.length_append] at ih ⊢; rw [ih]; simp; omega

/-- **C63, negative result.** If the period does not begin at midnight, files found by name are given for fewer days than the batch of the
first year has (the first day is left out), so that days and files no longer correspond. -/
theorem c63_name_violated {inp : InputFileList} {skip : List Bool} {cat : Catalogue} {start stop : Int} {s : Subset} {p : List String}
    (hsub : cat.datasubset inp.datasetname inp.subsetindex = some s) (hpat : s.patterns = some p) (hp : p ≠ [])
    (hY : ¬ HasField 'Y' (p.map String.toList).flatten) (hs : start % secUs = 0) (he : stop % secUs = 0) (hpos : 0 ≤ start) (hle : start ≤ stop)
    (hmid : start % dayUs ≠ 0) (hm : inp.missingData = .allowed)
    (hskip : skip.length = (dateOf stop).year - (dateOf start).year + (if yearStart ((dateOf stop).year + 1) - secUs ≤ stop then 2 else 1)) :
    ∃ refs L r l, findReferences inp skip cat start stop = .ok (refs, skip) ∧ dayIndices start stop = .ok L ∧
      refs[0]? = some r ∧ L[0]? = some l ∧ r.length < 3 * l.length := by
  have hy := year_mono hpos hle
  have hnn : 0 ≤ stop := le_trans hpos hle
  obtain ⟨refs, d, h1, h2, h3, h4⟩ := by_name_general hsub hpat hp hY hs he hnn hy hskip
  obtain ⟨L, d1, d2, d3⟩ := c63_days hs he hnn hy
  have l1 : 0 < L.length := by rw [d2]; split <;> omega
  have l2 : 0 < refs.length := by rw [h2, hskip]; split <;> omega
  have hr := List.getElem?_eq_getElem l2
  have hl := List.getElem?_eq_getElem l1
  refine ⟨refs, L, _, _, ?_, d1, hr, hl, ?_⟩
  · rw [hm] at h4; exact h4
  obtain ⟨name, l, a1, a2, a3⟩ := h3 0 _ hr
  have hdays := d3 0 _ hl
  generalize refs[0] = r at *
  generalize L[0] = days at *
  have hrlen : r.length = 3 * l.length := by
    by_cases hn : ∃ j, Named s.entries (String.ofList name) j
    · have hdict := nameDict' s.entries (String.ofList name)
      cases hdg : dictGet (nameToIndex s.entries) (String.ofList name) with
      | none => rw [hdg] at hdict; obtain ⟨j, hj⟩ := hn; exact absurd hj (hdict j)
      | some j =>
        rw [hdg] at hdict
        rw [a3.1 j hdict.1 hdict.2, triples_length, List.length_map]
    · rw [a3.2 (fun j hj => hn ⟨j, hj⟩), if_pos hm, triples_length, List.length_map]
  rw [hrlen]
  obtain ⟨l', b1, b2, b3⟩ := available_exact hs he (0 : Int) (by omega : 0 ≤ ((dateOf start).year : Int) + 0)
  rw [show ((0 : Nat) : Int) = 0 from rfl] at a2
  rw [a2] at b1
  injection b1 with b1
  subst b1
  rw [show (((dateOf start).year : Int) + 0).toNat = (dateOf start).year + 0 by omega] at b3
  -- the day of the start
  have hD : dayStart ((start - epoch) / dayUs) ≤ start ∧ start < dayStart ((start - epoch) / dayUs + 1) := day_of_time.1 rfl
  have hne : dayStart ((start - epoch) / dayUs) ≠ start := by
    intro hc
    apply hmid
    rw [← hc, dayStart_eq]
    have e := epoch_mod'
    generalize epoch = E at *
    unfold dayUs
    omega
  have hin : (start - epoch) / dayUs ∈ days := by
    rw [hdays.mem, day_of_year hD]
    exact ⟨by rw [Nat.add_zero]; exact year_bounds hpos, hD.2, le_trans hD.1 hle⟩
  have hout : (start - epoch) / dayUs ∉ l := by
    rw [b3]
    intro hc
    exact hne (le_antisymm hD.1 hc.2.1)
  have hnd : l.Nodup := b2.imp fun {a b} h => by omega
  have hsub' : ((start - epoch) / dayUs) :: l ⊆ days := by
    intro x hx
    rcases List.mem_cons.1 hx with rfl | hx
    · exact hin
    · have hx' := (b3 x).1 hx
      rw [hdays.mem]
      refine ⟨hx'.1, lt_of_le_of_lt hx'.2.1 ?_, hx'.2.2⟩
      rw [dayStart_lt]; omega
  have := (List.subperm_of_subset (List.nodup_cons.2 ⟨hout, hnd⟩) hsub').length_le
  rw [List.length_cons] at this
  omega

theorem byTime_single {start : Int} {lo hi : ℚ} {e : FileEntry} {i D : Int} {err : PyErr} (h1 : matchWithStep start (e, 0) = .ok (0, i, D))
    (h2 : yearSlots start lo hi i [(0, D)] = .error err) : byTime start lo hi [e] = .error err := by
  have hm : [e].zipIdx.mapM (matchWithStep start) = .ok [(0, i, D)] := by
    rw [show [e].zipIdx = [(e, 0)] from rfl, List.mapM_cons, h1, List.mapM_nil]
    rfl
  have hg : groupby (fun m : Nat × Int × Int => m.2.1) (sortedBy (fun m : Nat × Int × Int => m.2.1) [(0, i, D)]) = [(i, [(0, i, D)])] := rfl
  unfold byTime
  rw [hm, bind_ok, hg, List.mapM_cons]
  simp only [List.map_cons, List.map_nil]
  rw [h2]
  generalize (List.mapM _ ([] : List (Int × List (Nat × Int × Int))) : Except PyErr (List (Int × List Int))) = z
  rfl

theorem arith_last {E Y Z : Int} (e : E % 86400000000 = 0) (y : Y % 86400000000 = 0) (z : Z % 86400000000 = 0) (h : Y + secUs < Z) :
    (Y - E) / dayUs ≤ (Z - secUs - E) / dayUs ∧ (Z - secUs - E) / dayUs ≤ (Z - dayUs - E) / dayUs := by
  unfold dayUs secUs at *
  omega

theorem arith_seconds {Z : Int} (z : Z % 86400000000 = 0) : Z % secUs = 0 ∧ (Z - dayUs) % secUs = 0 ∧ (Z - secUs) % secUs = 0 := by
  unfold dayUs secUs
  omega

/-- **C63, negative result.** If a file has a time in the last second of the last year of the period, references can not be made: the file
is taken to be of the next year, which has no days. -/
theorem c63_last_second_violated {inp : InputFileList} {skip : List Bool} {cat : Catalogue} {s : Subset} {p : List String} (y : Nat)
    (hsub : cat.datasubset inp.datasetname inp.subsetindex = some s) (hpat : s.patterns = some p)
    (hY : HasField 'Y' (p.map String.toList).flatten) {name : String}
    (hent : s.entries = [⟨name, some (yearStart (y + 1) - secUs)⟩]) :
    findReferences inp skip cat (yearStart y) (yearStart (y + 1) - dayUs) = .error .indexError := by
  obtain ⟨d, hd, _⟩ := datasetindex_of_subset hsub
  have hyu : yearUnique p = true := hasY.2 hY
  have m0 := yearStart_mod y
  have m1 := yearStart_mod (y + 1)
  have hs : yearStart y % secUs = 0 := (arith_seconds m0).1
  have he : (yearStart (y + 1) - dayUs) % secUs = 0 := (arith_seconds m1).2.1
  have ht : (yearStart (y + 1) - secUs) % secUs = 0 := (arith_seconds m1).2.2
  have hidx := c15_annual_violated (yearStart y) 0
  rw [year_yearStart, show ((0 : Nat) : Int) + 1 = 1 from rfl, Nat.add_zero] at hidx
  have hmatch : matchWithStep (yearStart y) (⟨name, some (yearStart (y + 1) - secUs)⟩, 0) = .ok (0, 1, (yearStart (y + 1) - secUs - epoch) / dayUs) := by
    unfold matchWithStep
    show (annualIndex (yearStart y) (yearStart (y + 1) - secUs)).bind _ = _
    rw [hidx, bind_ok, floor_daysSince ht]
  obtain ⟨days, a1, a2⟩ := available_floor hs he (yearStart y) (1 : Int) (by omega)
  have hdays : days = [] := by
    rw [List.eq_nil_iff_forall_not_mem]
    intro D hD
    have := (a2.mem D).1 hD
    rw [year_yearStart, show ((y : Int) + 1).toNat = y + 1 by omega] at this
    have hpos : (0 : Int) < dayUs := by decide
    linarith [this.1.1, this.2.2]
  subst hdays
  have hslots : yearSlots (yearStart y) (⌊daysSince (yearStart y)⌋ : Int) (⌊daysSince (yearStart (y + 1) - dayUs)⌋ : Int) 1
      [(0, (yearStart (y + 1) - secUs - epoch) / dayUs)] = .error .indexError := by
    unfold yearSlots
    rw [a1, bind_ok, List.filter_cons, if_pos]
    · rfl
    · rw [Bool.and_eq_true, decide_eq_true_iff, decide_eq_true_iff, Int.cast_le, Int.cast_le, floor_daysSince hs, floor_daysSince he]
      exact arith_last epoch_mod' m0 m1 (yearStart_gap y)
  have hby : byTime (yearStart y) (⌊daysSince (yearStart y)⌋ : Int) (⌊daysSince (yearStart (y + 1) - dayUs)⌋ : Int) s.entries = .error .indexError := by
    rw [hent]
    exact byTime_single hmatch hslots
  unfold findReferences
  rw [hsub, hd]
  simp only [hpat]
  have : slotGroups (yearStart y) (yearStart (y + 1) - dayUs) p s.entries = .error .indexError := by
    unfold slotGroups limits
    simp only [hyu, if_true]
    exact hby
  rw [this]
  rfl

end Verif.Eustace.AnnualBatch
