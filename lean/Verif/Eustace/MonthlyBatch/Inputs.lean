import Verif.Eustace.MonthlyBatch.Props

/-! C149: input files of batches of a month. -/

namespace Verif.Eustace.MonthlyBatch

open Verif Verif.Py Verif.Calendar Verif.Eumopps.Catalogue Verif.Eumopps.Placeholder Verif.Eumopps.Placeholder.Spec Verif.Eumopps.Periods
  Verif.Eumopps.Time Verif.Eumopps.Names
open Verif.Eustace.AnnualBatch (epoch daysSince range2 place searchsorted dateTimeOf nameToIndex policy addEntries dayStart FileOn
  Slot bind_ok Outcome policy_outcome midnight_mod epoch_mod' dayStart_eq arith_year arith_period floor_daysSince daysSince_midnight intOf_int
  mem_range2 sorted_range2 daysSince_whole searchsorted_get place_spec last_greatest pairwise_flatten_lt dayStart_lt numberToDays_int dictGet_mapM
  day_of_time arith_exact arith_exact' dateTime_midnight filename_total dictGet_filterMap nameDict' NamedSlots triples_length arith_seconds IsOutput
  dayStart_mod output_entry unique_ne_nil addEntries_append addEntries_length addEntries_spec forall₂_flatten forall₂_comp exampleOutputs
  arith_file exampleByName no_year)

/-! ### Lookup by time -/

/-- A match: position, step and day. -/
theorem match_ok {start t : Int} {e : FileEntry} {j : Nat} (he : e.time = some t) (h0 : 0 ≤ t) (hw : t % secUs = 0) :
    matchWithStep start (e, j) = .ok (j, ((monthOf t) : Int) - (monthOf start), (t - epoch) / dayUs) := by
  unfold matchWithStep
  rw [he]
  have hy : (((monthOf start) : Int) + (((monthOf t) : Int) - (monthOf start))).toNat = (monthOf t) := by omega
  have := (month_index (start := start) h0 hw (((monthOf t) : Int) - (monthOf start)) (by omega)).2
    (by rw [hy]; exact bounds h0)
  show (monthlyIndex start t).bind _ = _
  rw [this, bind_ok, floor_daysSince hw]

/-- What a list of matches says about the entries. -/
structure Found (start : Int) (entries : List FileEntry) (found : List (Nat × Int × Int)) : Prop where
  sorted : found.Pairwise fun a b => a.1 < b.1
  mem : ∀ j i D, (j, i, D) ∈ found ↔ ∃ e t, entries[j]? = some e ∧ e.time = some t ∧ 0 ≤ t ∧
    i = ((monthOf t) : Int) - (monthOf start) ∧ D = (t - epoch) / dayUs

theorem found_ok (start : Int) {entries : List FileEntry} (hg : GoodTimes entries) :
    ∃ found, entries.zipIdx.mapM (matchWithStep start) = .ok found ∧ Found start entries found := by
  have key : ∀ (j : Nat) e, entries[j]? = some e → ∃ t, e.time = some t ∧ 0 ≤ t ∧
      matchWithStep start (e, j) = .ok (j, ((monthOf t) : Int) - (monthOf start), (t - epoch) / dayUs) := by
    intro j e he
    obtain ⟨t, h1, h2, h3⟩ := hg e (List.mem_of_getElem? he)
    exact ⟨t, h1, h2, match_ok h1 h2 h3⟩
  have hz : ∀ (j : Nat), entries.zipIdx[j]? = (entries[j]?).map fun e => (e, j) := by intro j; simp
  obtain ⟨found, hf⟩ := mapM_total (f := matchWithStep start) (l := entries.zipIdx) (by
    intro a ha
    obtain ⟨j, hj⟩ := List.mem_iff_getElem?.1 ha
    rw [hz] at hj
    cases he : entries[j]? with
    | none => rw [he] at hj; cases hj
    | some e =>
      rw [he] at hj
      simp only [Option.map_some, Option.some.injEq] at hj
      obtain ⟨t, _, _, h⟩ := key j e he
      exact ⟨_, by rw [← hj]; exact h⟩)
  obtain ⟨hlen, hget⟩ := mapM_ok hf
  rw [List.length_zipIdx] at hlen
  have hg2 : ∀ (j : Nat) e, entries[j]? = some e → ∃ t, e.time = some t ∧ 0 ≤ t ∧
      found[j]? = some (j, ((monthOf t) : Int) - (monthOf start), (t - epoch) / dayUs) := by
    intro j e he
    obtain ⟨t, h1, h2, h3⟩ := key j e he
    obtain ⟨b, hb, hb'⟩ := hget j (e, j) (by rw [hz, he]; rfl)
    rw [h3] at hb'
    injection hb' with hb'
    exact ⟨t, h1, h2, by rw [hb, ← hb']⟩
  refine ⟨found, hf, ?_, ?_⟩
  · rw [List.pairwise_iff_getElem]
    intro i j hi hj hij
    have fst : ∀ (k : Nat) (hk : k < found.length), (found[k]).1 = k := by
      intro k hk
      obtain ⟨t, _, _, h⟩ := hg2 k _ (List.getElem?_eq_getElem (by omega : k < entries.length))
      rw [List.getElem?_eq_getElem hk] at h
      injection h with h
      rw [h]
    rw [fst i hi, fst j hj]
    exact hij
  · intro j i D
    constructor
    · intro h
      obtain ⟨k, hk⟩ := List.mem_iff_getElem?.1 h
      have hk' : k < entries.length := by rw [← hlen]; exact (List.getElem?_eq_some_iff.1 hk).1
      obtain ⟨t, h1, h2, h3⟩ := hg2 k _ (List.getElem?_eq_getElem hk')
      rw [hk] at h3
      injection h3 with h3
      injection h3 with e1 e2
      injection e2 with e2 e3
      subst e1
      exact ⟨_, t, List.getElem?_eq_getElem hk', h1, h2, e2, e3⟩
    · rintro ⟨e, t, h1, h2, h3, h4, h5⟩
      obtain ⟨t', h1', _, h3'⟩ := hg2 j e h1
      rw [h2] at h1'
      injection h1' with h1'
      rw [← h1', ← h4, ← h5] at h3'
      exact List.mem_of_getElem? h3'

/-- The slots of a list of files with their days, all in one month. -/
theorem monthSlots_spec {start stop : Int} (hs : start % secUs = 0) (he : stop % secUs = 0) (i : Int)
    (hi : 0 ≤ ((monthOf start) : Int) + i) {group : List (Nat × Int)} (hp : group.Pairwise fun a b => a.1 < b.1)
    (hin : ∀ m ∈ group, monthStart (((monthOf start) : Int) + i).toNat ≤ dayStart m.2 ∧
      dayStart m.2 < monthStart ((((monthOf start) : Int) + i).toNat + 1)) :
    ∃ slots, monthSlots start (⌊daysSince start⌋ : Int) (⌊daysSince stop⌋ : Int) i group = .ok slots ∧
      ∀ days, IsDays start stop (((monthOf start) : Int) + i).toNat days → List.Forall₂ (fun (D v : Int) =>
        (v = -1 ∧ ∀ j : Nat, (j, D) ∉ group) ∨ ∃ j : Nat, v = j ∧ (j, D) ∈ group ∧ ∀ j', j < j' → (j', D) ∉ group) days slots := by
  obtain ⟨days, h1, h2⟩ := available_floor hs he start i hi
  -- a file within the limits is on one of the days
  have hday : ∀ m ∈ group, ((decide (((⌊daysSince start⌋ : Int) : ℚ) ≤ (m.2 : ℚ)) && decide ((m.2 : ℚ) ≤ ((⌊daysSince stop⌋ : Int) : ℚ))) = true ↔
      m.2 ∈ days) := by
    intro m hm
    rw [Bool.and_eq_true, decide_eq_true_iff, decide_eq_true_iff, Int.cast_le, Int.cast_le, h2.mem, floor_daysSince hs, floor_daysSince he,
      arith_period, ← dayStart_eq, ← dayStart_eq]
    exact ⟨fun h => ⟨hin m hm, h⟩, fun h => h.2⟩
  set valid := group.filter fun m => decide (((⌊daysSince start⌋ : Int) : ℚ) ≤ (m.2 : ℚ)) && decide ((m.2 : ℚ) ≤ ((⌊daysSince stop⌋ : Int) : ℚ)) with hv
  have hvalid : ∀ m, m ∈ valid ↔ m ∈ group ∧ m.2 ∈ days := by
    intro m
    rw [hv, List.mem_filter]
    constructor
    · rintro ⟨a, b⟩; exact ⟨a, (hday m a).1 b⟩
    · rintro ⟨a, b⟩; exact ⟨a, (hday m a).2 b⟩
  have hpos : ∀ m ∈ valid, ∃ k : Nat, days[k]? = some m.2 ∧ searchsorted days m.2 = k := by
    intro m hm
    obtain ⟨k, hk⟩ := List.mem_iff_getElem?.1 ((hvalid m).1 hm).2
    exact ⟨k, hk, searchsorted_get h2.sorted hk⟩
  obtain ⟨slots, p1, p2, p3⟩ := place_spec (valid.map fun m => (searchsorted days m.2, m.1)) (List.replicate days.length (-1)) (by
    intro p hp
    obtain ⟨m, hm, rfl⟩ := List.mem_map.1 hp
    obtain ⟨k, hk, hk'⟩ := hpos m hm
    rw [List.length_replicate]
    show searchsorted days m.2 < _
    rw [hk']
    exact (List.getElem?_eq_some_iff.1 hk).1)
  rw [List.length_replicate] at p2
  refine ⟨slots, ?_, fun days' hd' => ?_⟩
  · unfold monthSlots
    rw [h1, bind_ok]
    exact p1
  · rw [hd'.unique h2]
    rw [List.forall₂_iff_get]
    refine ⟨p2.symm, fun k hk hk' => ?_⟩
    have hD : days[k]? = some (days.get ⟨k, hk⟩) := List.getElem?_eq_getElem hk
    have hS : slots[k]? = some (slots.get ⟨k, hk'⟩) := List.getElem?_eq_getElem hk'
    generalize days.get ⟨k, hk⟩ = D at *
    generalize slots.get ⟨k, hk'⟩ = v at *
    have hk3 := p3 k
    rw [hS] at hk3
    -- pairs of this slot are the files of the day
    have hmem : ∀ q, q ∈ (valid.map fun m => (searchsorted days m.2, m.1)).filter (fun p => decide (p.1 = k)) ↔
        q.1 = k ∧ (q.2, D) ∈ group := by
      intro q
      rw [List.mem_filter, List.mem_map, decide_eq_true_iff]
      constructor
      · rintro ⟨⟨m, hm, rfl⟩, hq⟩
        obtain ⟨k', hk1, hk2⟩ := hpos m hm
        have hq' : searchsorted days m.2 = k := hq
        rw [hk2] at hq'
        rw [hq', hD] at hk1
        injection hk1 with hk1
        refine ⟨hq, ?_⟩
        show (m.1, D) ∈ group
        rw [hk1]
        exact ((hvalid m).1 hm).1
      · rintro ⟨hq, hg⟩
        refine ⟨⟨(q.2, D), (hvalid _).2 ⟨hg, List.mem_of_getElem? hD⟩, ?_⟩, hq⟩
        show (searchsorted days D, q.2) = q
        rw [searchsorted_get h2.sorted hD, ← hq]
    have hsort : ((valid.map fun m => (searchsorted days m.2, m.1)).filter (fun p => decide (p.1 = k))).Pairwise (fun a b => a.2 < b.2) := by
      apply List.Pairwise.filter
      rw [List.pairwise_map]
      exact hp.filter _
    cases hlast : ((valid.map fun m => (searchsorted days m.2, m.1)).filter (fun p => decide (p.1 = k))).getLast? with
    | none =>
      rw [hlast] at hk3
      simp only at hk3
      rw [List.getElem?_replicate, if_pos hk] at hk3
      injection hk3 with hk3
      refine Or.inl ⟨hk3, fun j hj => ?_⟩
      have := (hmem (k, j)).2 ⟨rfl, hj⟩
      rw [List.getLast?_eq_none_iff] at hlast
      rw [hlast] at this
      cases this
    | some p =>
      rw [hlast] at hk3
      simp only at hk3
      rw [List.length_replicate, if_pos hk] at hk3
      injection hk3 with hk3
      obtain ⟨g1, g2⟩ := last_greatest hsort hlast
      refine Or.inr ⟨p.2, hk3, ((hmem p).1 g1).2, fun j' hj hc => ?_⟩
      have := g2 (k, j') ((hmem _).2 ⟨rfl, hc⟩)
      simp only at this
      omega

theorem day_of_month {t D : Int} (h : dayStart D ≤ t ∧ t < dayStart (D + 1)) {y : Nat} :
    (monthStart y ≤ dayStart D ∧ dayStart D < monthStart (y + 1)) ↔ (monthStart y ≤ t ∧ t < monthStart (y + 1)) := by
  have a := monthStart_mod y
  have b := monthStart_mod (y + 1)
  have e := epoch_mod'
  rw [dayStart_eq, dayStart_eq] at h
  rw [dayStart_eq]
  generalize epoch = E at *
  generalize monthStart y = Y at *
  generalize monthStart (y + 1) = Z at *
  omega

theorem month_unique {t : Int} (h0 : 0 ≤ t) {y : Nat} : (monthOf t) = y ↔ monthStart y ≤ t ∧ t < monthStart (y + 1) := by
  constructor
  · rintro rfl; exact bounds h0
  · intro h
    have b := bounds h0
    rcases Nat.lt_trichotomy (monthOf t) y with hlt | heq | hgt
    · have := monthStart_mono (show (monthOf t) + 1 ≤ y by omega); linarith [b.2, h.1]
    · exact heq
    · have := monthStart_mono (show y + 1 ≤ (monthOf t) by omega); linarith [b.1, h.2]

/-- The lookup by time. -/
theorem byTime_spec {start stop : Int} (hs : start % secUs = 0) (he : stop % secUs = 0) {entries : List FileEntry} (hg : GoodTimes entries) :
    ∃ groups, byTime start (⌊daysSince start⌋ : Int) (⌊daysSince stop⌋ : Int) entries = .ok groups ∧
      ∀ i : Int, 0 ≤ ((monthOf start) : Int) + i →
        (dictGet groups i = none → ¬ MonthHasFile entries (((monthOf start) : Int) + i).toNat) ∧
        (∀ slots, dictGet groups i = some slots → MonthHasFile entries (((monthOf start) : Int) + i).toNat ∧
          ∀ days, IsDays start stop (((monthOf start) : Int) + i).toNat days → List.Forall₂ (Slot entries) days slots) := by
  obtain ⟨found, f1, f2⟩ := found_ok start hg
  obtain ⟨g1, g2, _, _⟩ := groupby_spec (fun m : Nat × Int × Int => m.2.1) _ (sortedBy_pairwise (fun m : Nat × Int × Int => m.2.1) found)
  set gs := groupby (fun m : Nat × Int × Int => m.2.1) (sortedBy (fun m => m.2.1) found) with hgs
  have hgroup : ∀ g ∈ gs, g.2 ≠ [] ∧ g.2 = found.filter fun m => decide (m.2.1 = g.1) := by
    intro g hg'
    obtain ⟨a, b⟩ := g2 g hg'
    exact ⟨a, by rw [b, sortedBy_filter]⟩
  have hnodup : (gs.map (·.1)).Nodup := by
    rw [List.Nodup, List.pairwise_map]
    exact g1.imp fun {a b} h => by omega
  have hmemg : ∀ g ∈ gs, ∀ m, m ∈ g.2.map (fun m => (m.1, m.2.2)) ↔ (m.1, g.1, m.2) ∈ found := by
    intro g hg' m
    rw [(hgroup g hg').2, List.mem_map]
    constructor
    · rintro ⟨q, hq, rfl⟩
      rw [List.mem_filter, decide_eq_true_iff] at hq
      obtain ⟨q1, q2, q3⟩ := q
      have hq2 : q2 = g.1 := hq.2
      rw [← hq2]
      exact hq.1
    · intro h
      exact ⟨_, List.mem_filter.2 ⟨h, by simp⟩, rfl⟩
  -- the month of a group
  have hyear : ∀ g ∈ gs, 0 ≤ ((monthOf start) : Int) + g.1 := by
    intro g hg'
    obtain ⟨a, b⟩ := hgroup g hg'
    obtain ⟨m, hm⟩ := List.exists_mem_of_ne_nil _ a
    have := (hmemg g hg' (m.1, m.2.2)).1 (List.mem_map.2 ⟨m, hm, rfl⟩)
    obtain ⟨e, t, _, _, _, h4, _⟩ := (f2.mem _ _ _).1 this
    rw [h4]; omega
  have hslots : ∀ g ∈ gs, ∃ slots, monthSlots start (⌊daysSince start⌋ : Int) (⌊daysSince stop⌋ : Int) g.1 (g.2.map fun m => (m.1, m.2.2)) = .ok slots ∧
      ∀ days, IsDays start stop (((monthOf start) : Int) + g.1).toNat days → List.Forall₂ (fun (D v : Int) =>
        (v = -1 ∧ ∀ j : Nat, (j, D) ∉ g.2.map fun m => (m.1, m.2.2)) ∨ ∃ j : Nat, v = j ∧ (j, D) ∈ (g.2.map fun m => (m.1, m.2.2)) ∧
          ∀ j', j < j' → (j', D) ∉ g.2.map fun m => (m.1, m.2.2)) days slots := by
    intro g hg'
    refine monthSlots_spec hs he g.1 (hyear g hg') ?_ ?_
    · rw [List.pairwise_map, (hgroup g hg').2]
      exact f2.sorted.filter _
    · intro m hm
      obtain ⟨e, t, h1, h2, h3, h4, h5⟩ := (f2.mem _ _ _).1 ((hmemg g hg' m).1 hm)
      have hy : (((monthOf start) : Int) + g.1).toNat = (monthOf t) := by omega
      rw [hy, day_of_month (day_of_time.1 h5)]
      exact bounds h3
  obtain ⟨R, hR⟩ := mapM_total (l := gs) (f := fun g : Int × List (Nat × Int × Int) =>
      (monthSlots start (⌊daysSince start⌋ : Int) (⌊daysSince stop⌋ : Int) g.1 (g.2.map fun m => (m.1, m.2.2))).bind fun slots => .ok (g.1, slots))
    (by
      intro g hg'
      obtain ⟨s, h, _⟩ := hslots g hg'
      exact ⟨(g.1, s), by simp only [h, bind_ok]⟩)
  refine ⟨R, ?_, fun i hi => ?_⟩
  · unfold byTime
    rw [f1, bind_ok]
    exact hR
  have hd := dictGet_mapM (h := fun g : Int × List (Nat × Int × Int) =>
    monthSlots start (⌊daysSince start⌋ : Int) (⌊daysSince stop⌋ : Int) g.1 (g.2.map fun m => (m.1, m.2.2))) hnodup hR i
  have hgi := dictGet_groupby (fun m : Nat × Int × Int => m.2.1) found i
  rw [← hgs] at hgi
  -- files of the month are the group
  have hyf : MonthHasFile entries (((monthOf start) : Int) + i).toNat ↔ ∃ j D, (j, i, D) ∈ found := by
    constructor
    · rintro ⟨e, he', t, h1, h2⟩
      obtain ⟨j, hj⟩ := List.mem_iff_getElem?.1 he'
      obtain ⟨t', a1, a2, _⟩ := hg e he'
      rw [h1] at a1
      injection a1 with a1
      rw [← a1] at a2
      have := (month_unique a2).2 h2
      exact ⟨j, _, (f2.mem _ _ _).2 ⟨e, t, hj, h1, a2, by omega, rfl⟩⟩
    · rintro ⟨j, D, h⟩
      obtain ⟨e, t, h1, h2, h3, h4, h5⟩ := (f2.mem _ _ _).1 h
      exact ⟨e, List.mem_of_getElem? h1, t, h2, (month_unique h3).1 (by omega)⟩
  by_cases hnil : found.filter (fun m => decide (m.2.1 = i)) = []
  · rw [if_pos hnil] at hgi
    refine ⟨fun _ => ?_, fun slots hsl => ?_⟩
    · rw [hyf]
      rintro ⟨j, D, h⟩
      have : (j, i, D) ∈ found.filter (fun m => decide (m.2.1 = i)) := List.mem_filter.2 ⟨h, by simp⟩
      rw [hnil] at this
      cases this
    · rw [hd.1 hgi] at hsl
      cases hsl
  · rw [if_neg hnil] at hgi
    obtain ⟨s, e1, e2⟩ := hd.2 _ hgi
    refine ⟨fun hc => (by rw [e2] at hc; cases hc), fun slots hsl => ?_⟩
    rw [e2] at hsl
    injection hsl with hsl
    subst hsl
    have hmg : (i, found.filter fun m => decide (m.2.1 = i)) ∈ gs := mem_of_dictGet hgi
    refine ⟨?_, fun days hdays => ?_⟩
    · rw [hyf]
      obtain ⟨m, hm⟩ := List.exists_mem_of_ne_nil _ hnil
      rw [List.mem_filter, decide_eq_true_iff] at hm
      obtain ⟨m1, m2, m3⟩ := m
      have : m2 = i := hm.2
      rw [← this]
      exact ⟨m1, m3, hm.1⟩
    · obtain ⟨s', h1, h2⟩ := hslots _ hmg
      have hss : s' = s := by
        have := h1.symm.trans e1
        injection this
      subst hss
      have hf := h2 days hdays
      -- files of a day of the month
      have hon : ∀ D ∈ days, ∀ j, FileOn entries D j ↔ (j, D) ∈ (found.filter fun m => decide (m.2.1 = i)).map (fun m => (m.1, m.2.2)) := by
        intro D hD j
        rw [hmemg _ hmg (j, D)]
        constructor
        · rintro ⟨e, t, a1, a2, a3⟩
          obtain ⟨t', b1, b2, _⟩ := hg e (List.mem_of_getElem? a1)
          rw [a2] at b1
          injection b1 with b1
          rw [← b1] at b2
          have hy := (month_unique b2).2 ((day_of_month a3).1 ((hdays.mem D).1 hD).1)
          exact (f2.mem _ _ _).2 ⟨e, t, a1, a2, b2, by omega, day_of_time.2 a3⟩
        · intro h
          obtain ⟨e, t, a1, a2, _, _, a5⟩ := (f2.mem _ _ _).1 h
          exact ⟨e, t, a1, a2, day_of_time.1 a5⟩
      rw [List.forall₂_iff_get] at hf ⊢
      refine ⟨hf.1, fun k hk hk' => ?_⟩
      have hDm : days.get ⟨k, hk⟩ ∈ days := List.get_mem _ _
      rcases hf.2 k hk hk' with ⟨a, b⟩ | ⟨j, a, b, c⟩
      · exact Or.inl ⟨a, fun j hj => b j ((hon _ hDm j).1 hj)⟩
      · exact Or.inr ⟨j, a, (hon _ hDm j).2 b, fun j' hj' hc => c j' hj' ((hon _ hDm j').1 hc)⟩

theorem hasYm {p : List String} : monthUnique p = true ↔ HasField 'Y' (p.map String.toList).flatten ∧ HasField 'm' (p.map String.toList).flatten := by
  unfold monthUnique; rw [Bool.and_eq_true, hasSub_field, hasSub_field]

/-- References to no files. -/
theorem none_slots {entries : List FileEntry} (hg : GoodTimes entries) {start stop : Int} {y : Nat} {days : List Int} (hd : IsDays start stop y days)
    (hn : ¬ MonthHasFile entries y) : List.Forall₂ (Slot entries) days (List.replicate days.length (-1)) := by
  rw [List.forall₂_iff_get]
  refine ⟨by simp, fun k hk hk' => Or.inl ⟨by simp, fun j hj => hn ?_⟩⟩
  obtain ⟨e, t, h1, h2, h3⟩ := hj
  exact ⟨e, List.mem_of_getElem? h1, t, h2, (day_of_month h3).1 ((hd.mem _).1 (List.get_mem _ _)).1⟩

/-- **C149, files with times.** If the patterns have a month (times of files known to the second), each
batch of a month with some file is given one reference for each of its days, in order: the last file of the day in the catalogue, or -1.
A month without any file is given -1 for all days if missing data is allowed, and nothing otherwise. -/
theorem c149_inputs {inp : InputFileList} {skip : List Bool} {cat : Catalogue} {start stop : Int} {s : Subset} {p : List String}
    (hsub : cat.datasubset inp.datasetname inp.subsetindex = some s) (hpat : s.patterns = some p)
    (hY : HasField 'Y' (p.map String.toList).flatten) (hm : HasField 'm' (p.map String.toList).flatten) (hg : GoodTimes s.entries)
    (hs : start % secUs = 0) (he : stop % secUs = 0) (h0 : 0 ≤ stop) (hle : (monthOf start) ≤ (monthOf stop))
    (hskip : skip.length = (monthOf stop) - (monthOf start) + 1) :
    ∃ (refs : List (List Int)) (d : Nat), cat.datasetindex inp.datasetname = some d ∧ refs.length = skip.length ∧
      (∀ (i : Nat) r, refs[i]? = some r → ∀ days, IsDays start stop ((monthOf start) + i) days →
        (MonthHasFile s.entries ((monthOf start) + i) ∨ inp.missingData = .allowed →
          ∃ slots, r = triples d inp.subsetindex slots ∧ List.Forall₂ (Slot s.entries) days slots) ∧
        (¬ MonthHasFile s.entries ((monthOf start) + i) ∧ inp.missingData ≠ .allowed → r = [])) ∧
      Outcome inp.missingData skip refs (findReferences inp skip cat start stop) := by
  obtain ⟨d, hd, _⟩ := datasetindex_of_subset hsub
  have hyu : monthUnique p = true := hasYm.2 ⟨hY, hm⟩
  have hlim : limits start stop p = (((⌊daysSince start⌋ : Int) : ℚ), ((⌊daysSince stop⌋ : Int) : ℚ)) := by
    unfold limits; rw [if_pos hyu]
  obtain ⟨groups, g1, g2⟩ := byTime_spec hs he hg
  have hgr : slotGroups start stop p s.entries = .ok groups := by
    unfold slotGroups
    rw [hlim]
    simp only [hyu, if_true]
    exact g1
  have hnat : ∀ i : Nat, (((monthOf start) : Int) + (i : Int)).toNat = (monthOf start) + i := fun i => by omega
  have hstep : ∀ i : Nat, ∃ r, stepSlots inp d start stop p groups i = .ok r ∧
      ∀ days, IsDays start stop ((monthOf start) + i) days →
        (MonthHasFile s.entries ((monthOf start) + i) ∨ inp.missingData = .allowed →
          ∃ slots, r = triples d inp.subsetindex slots ∧ List.Forall₂ (Slot s.entries) days slots) ∧
        (¬ MonthHasFile s.entries ((monthOf start) + i) ∧ inp.missingData ≠ .allowed → r = []) := by
    intro i
    obtain ⟨av, a1, a2⟩ := available_floor hs he start (i : Int) (by omega)
    have gi := g2 (i : Int) (by omega)
    rw [hnat] at a2 gi
    unfold stepSlots
    rw [hlim]
    simp only
    rw [a1, bind_ok]
    by_cases hm : inp.missingData = .allowed
    · rw [if_pos hm]
      refine ⟨_, rfl, fun days hdays => ?_⟩
      refine ⟨fun _ => ⟨_, rfl, ?_⟩, fun h => absurd hm h.2⟩
      cases hdg : dictGet groups (i : Int) with
      | none => rw [a2.unique hdays]; exact none_slots hg hdays (gi.1 hdg)
      | some slots => exact (gi.2 slots hdg).2 days hdays
    · rw [if_neg hm]
      refine ⟨_, rfl, fun days hdays => ?_⟩
      cases hdg : dictGet groups (i : Int) with
      | none =>
        refine ⟨?_, fun _ => rfl⟩
        rintro (h | h)
        exacts [absurd h (gi.1 hdg), absurd h hm]
      | some slots =>
        exact ⟨fun _ => ⟨slots, rfl, (gi.2 slots hdg).2 days hdays⟩, fun h => absurd (gi.2 slots hdg).1 h.1⟩
  obtain ⟨refs, r1, r2, r3⟩ := overSteps_ok h0 he hle (f := stepSlots inp d start stop p groups) (fun i _ => by
    obtain ⟨r, h, _⟩ := hstep i
    exact ⟨r, h⟩)
  have hlen : refs.length = skip.length := by rw [r2, hskip]; rfl
  refine ⟨refs, d, hd, hlen, fun i r hr days hdays => ?_, ?_⟩
  · obtain ⟨a, h1, h2⟩ := r3 i (by rw [← r2]; exact (List.getElem?_eq_some_iff.1 hr).1)
    obtain ⟨r', h3, h4⟩ := hstep i
    rw [hr] at h1
    injection h1 with h1
    rw [h3] at h2
    injection h2 with h2
    rw [h1, ← h2]
    exact h4 days hdays
  · have : findReferences inp skip cat start stop = policy inp skip refs := by
      unfold findReferences
      rw [hsub, hd]
      simp only [hpat]
      rw [hgr, bind_ok, r1, bind_ok]
    rw [this]
    exact policy_outcome inp hlen.symm

end Verif.Eustace.MonthlyBatch
