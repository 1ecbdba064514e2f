import Verif.Eustace.Optimise.Delayed
import Verif.Eustace.AnnualBatch.Lemmas
import Verif.Eumopps.Names.Props

/-!
C156: descriptors of inputs by time, from summaries to the observations of each day.
-/

namespace Verif.Eustace.Optimise

open Verif Matrix Verif.Eustace.Linear Verif.Eustace.Components Verif.Eumopps.Names Verif.Calendar

noncomputable section

/-! ### Specification -/

/-- A date and time of the calendar, with a year of four digits. -/
def Proper (t : DateTime) : Prop := t.date.Valid ∧ t.date.year < 10000 ∧ t.hour < 24 ∧ t.minute < 60 ∧ t.second < 60

/-- The sources which come last for a key in a list. -/
def LastOf {σ : Type} (inputs : List (Summary σ)) (key : List Char) (sources : List σ) : Prop :=
  ∃ before after, inputs = before ++ (key, sources) :: after ∧ key ∉ after.map Prod.fst

/-- The number of days from 1850-01-01 to a date. -/
def daysFrom1850 (d : Date) : Int := (d.number : Int) - (Date.mk 1850 1 1).number

/-! ### Texts of times -/

theorem numberOf_eq (l : List Char) : numberOf l =
    l.foldl (fun acc c => acc.bind fun a => if c.isDigit then some (10 * a + (c.toNat - 48)) else none) (some 0) := by
  cases l <;> rfl

theorem digit_cases (n : Nat) : (digit n).isDigit = true ∧ (digit n).toNat - 48 = n % 10 := by
  have h : ∀ k < 10, (Char.ofNat (48 + k)).isDigit = true ∧ (Char.ofNat (48 + k)).toNat - 48 = k := by decide
  exact h (n % 10) (Nat.mod_lt _ (by omega))

theorem numberOf_pad : ∀ k n, n < 10 ^ k → numberOf (pad k n) = some n
  | 0, n, h => by
    simp only [Nat.pow_zero] at h
    have : n = 0 := by omega
    subst this
    rfl
  | k + 1, n, h => by
    have ih := numberOf_pad k (n / 10) (by rw [Nat.pow_succ] at h; omega)
    rw [numberOf_eq] at ih ⊢
    rw [pad, List.foldl_append, ih]
    obtain ⟨h1, h2⟩ := digit_cases n
    simp only [List.foldl_cons, List.foldl_nil, Option.bind_some, h1, if_true, h2]
    congr 1
    omega

theorem isoT_eq (t : DateTime) : isoT t = pad 4 t.date.year ++ ['-'] ++ pad 2 t.date.month ++ ['-'] ++ pad 2 t.date.day ++
    ['T'] ++ pad 2 t.hour ++ [':'] ++ pad 2 t.minute ++ [':'] ++ pad 2 t.second := by
  unfold isoT isoformat
  obtain ⟨a, b, c, d, h1⟩ := list_of_length4 (pad_length 4 t.date.year)
  obtain ⟨e, f, h2⟩ := list_of_length2 (pad_length 2 t.date.month)
  obtain ⟨g, h, h3⟩ := list_of_length2 (pad_length 2 t.date.day)
  obtain ⟨i, j, h4⟩ := list_of_length2 (pad_length 2 t.hour)
  obtain ⟨k, l, h5⟩ := list_of_length2 (pad_length 2 t.minute)
  obtain ⟨m, n, h6⟩ := list_of_length2 (pad_length 2 t.second)
  rw [h1, h2, h3, h4, h5, h6]
  rfl

/-- **C156, times.**  What is written for a time is read as the same time. -/
theorem c156_time (t : DateTime) (h : Proper t) : parseIso (isoT t) = .ok t := by
  obtain ⟨⟨v1, v2, v3, v4⟩, hy, hh, hm, hs⟩ := h
  have hday : t.date.day < 10 ^ 2 := by
    have : daysInMonth t.date.year t.date.month ≤ 31 := by
      unfold daysInMonth
      split <;> (try split) <;> omega
    omega
  have n1 := numberOf_pad 4 t.date.year (by omega)
  have n2 := numberOf_pad 2 t.date.month (by omega)
  have n3 := numberOf_pad 2 t.date.day hday
  have n4 := numberOf_pad 2 t.hour (by omega)
  have n5 := numberOf_pad 2 t.minute (by omega)
  have n6 := numberOf_pad 2 t.second (by omega)
  rw [isoT_eq]
  obtain ⟨a, b, c, d, h1⟩ := list_of_length4 (pad_length 4 t.date.year)
  obtain ⟨e, f, h2⟩ := list_of_length2 (pad_length 2 t.date.month)
  obtain ⟨g, h, h3⟩ := list_of_length2 (pad_length 2 t.date.day)
  obtain ⟨i, j, h4⟩ := list_of_length2 (pad_length 2 t.hour)
  obtain ⟨k, l, h5⟩ := list_of_length2 (pad_length 2 t.minute)
  obtain ⟨m, n, h6⟩ := list_of_length2 (pad_length 2 t.second)
  rw [h1] at n1
  rw [h2] at n2
  rw [h3] at n3
  rw [h4] at n4
  rw [h5] at n5
  rw [h6] at n6
  rw [h1, h2, h3, h4, h5, h6]
  simp only [parseIso, slice, List.cons_append, List.nil_append, List.drop_succ_cons, List.drop_zero, List.take_succ_cons,
    List.take_zero, Nat.reduceSub, n1, n2, n3, n4, n5, n6]
  rw [if_pos (by refine ⟨rfl, rfl, rfl, rfl, rfl, rfl⟩), if_pos ⟨v1, v2, v3, v4, hh, hm, hs⟩]

theorem isoT_injective {t u : DateTime} (ht : Proper t) (hu : Proper u) (h : isoT t = isoT u) : t = u := by
  have h1 := c156_time t ht
  rw [h, c156_time u hu] at h1
  injection h1 with h1
  exact h1.symm

theorem first_le {y : Nat} {d : Date} (h : y ≤ d.year) : (Date.mk y 1 1).number ≤ d.number := by
  have := daysBeforeYear_mono h
  unfold Date.number
  have h1 : daysBeforeMonth y 1 = 0 := by simp [daysBeforeMonth]
  dsimp only
  omega

/-- **C156, days.**  The index of the day of a time is the number of days from 1850-01-01 to its date, whatever the time of
day. -/
theorem c156_day (t : DateTime) (h : Proper t) (hy : 1850 ≤ t.date.year) : dayIndex t = daysFrom1850 t.date := by
  have hn := first_le hy
  obtain ⟨-, -, hh, hm, hs⟩ := h
  have key : ∀ (E N : Nat) (x : Int), E ≤ N → x = ((N : Int) - E) * 86400000000 + (t.hour * 3600 + t.minute * 60 + t.second : Nat) * 1000000 →
      0 ≤ x ∧ x % 1000000 = 0 ∧ x / 86400000000 = (N : Int) - E := by
    intro E N x h1 h2
    subst h2
    omega
  have hep : AnnualBatch.epoch = ((Date.mk 1850 1 1).number : Int) * 86400000000 := by
    unfold AnnualBatch.epoch Eumopps.Periods.midnight
    rfl
  have hin : instantOf t = (t.date.number : Int) * 86400000000 + (t.hour * 3600 + t.minute * 60 + t.second : Nat) * 1000000 := rfl
  obtain ⟨k1, k2, k3⟩ := key (Date.mk 1850 1 1).number t.date.number (instantOf t - AnnualBatch.epoch) hn (by
    rw [hep, hin]
    ring)
  unfold dayIndex AnnualBatch.daysSince daysFrom1850
  rw [Eumopps.Time.c14_elapsed_partial (Eumopps.Time.whole_mod.2 k2), Eumopps.Time.intOf_nonneg, Eumopps.Time.floor_div_int _ _ (by
    unfold Eumopps.Time.dayUs
    omega)]
  · exact k3
  · have : (0 : ℚ) ≤ ((instantOf t - AnnualBatch.epoch : Int) : ℚ) := by exact_mod_cast k1
    refine div_nonneg this ?_
    unfold Eumopps.Time.dayUs
    norm_num

/-! ### Summaries and descriptors -/

/-- **C156, summaries.**  The merged file has the summaries of all files in the order of the files, and nothing else; one file
which is missing is an error. -/
theorem c156_merge {σ : Type} (disk : List Char → Option (Summary σ)) (files : List (List Char)) (l : List (Summary σ)) :
    mergeSummaries disk files = .ok l ↔ List.Forall₂ (fun f s => disk f = some s) files l := by
  induction files generalizing l with
  | nil =>
    constructor
    · intro h
      simp only [mergeSummaries, Except.ok.injEq] at h
      subst h
      exact .nil
    · intro h
      cases h
      rfl
  | cons f files ih =>
    rw [mergeSummaries]
    cases hf : disk f with
    | none =>
      constructor
      · intro h
        cases h
      · intro h
        cases h with
        | cons h0 _ => rw [hf] at h0; cases h0
    | some s =>
      dsimp only
      cases hm : mergeSummaries disk files with
      | error e =>
        constructor
        · intro h
          cases h
        · intro h
          cases h with
          | cons _ h1 => rw [(ih _).2 h1] at hm; cases hm
      | ok m =>
        constructor
        · intro h
          simp only [Except.ok.injEq] at h
          subst h
          exact .cons hf ((ih m).1 hm)
        · intro h
          cases h with
          | cons h0 h1 =>
            rw [hf] at h0
            injection h0 with h0
            rw [(ih _).2 h1] at hm
            injection hm with hm
            rw [h0, hm]

theorem descriptorOf_append {σ : Type} (inputs : List (Summary σ)) (s : Summary σ) :
    descriptorOf (inputs ++ [s]) = dictWrite s.1 s.2 (descriptorOf inputs) := by
  simp [descriptorOf]

theorem descriptor_nodup {σ : Type} (inputs : List (Summary σ)) : ((descriptorOf inputs).map Prod.fst).Nodup :=
  (mem_writes inputs [] (by simp)).1

theorem find_of_mem {α β : Type} [BEq α] [LawfulBEq α] {d : List (α × β)} (hd : (d.map Prod.fst).Nodup) {k : α} {v : β}
    (h : (k, v) ∈ d) : d.find? (fun p => p.1 == k) = some (k, v) := by
  induction d with
  | nil => cases h
  | cons p d ih =>
    simp only [List.map_cons, List.nodup_cons] at hd
    rw [List.find?_cons]
    by_cases hp : p.1 = k
    · have : p = (k, v) := by
        rcases List.mem_cons.1 h with rfl | h
        · rfl
        · exact absurd (hp ▸ List.mem_map_of_mem h) hd.1
      simp [this]
    · rcases List.mem_cons.1 h with rfl | h
      · exact absurd rfl hp
      · simp only [beq_eq_false_iff_ne.2 hp]
        exact ih hd.2 h

theorem sourcesAt_ok {σ : Type} {d : List (Summary σ)} (hd : (d.map Prod.fst).Nodup) (key : List Char) (sources : List σ) :
    sourcesAt d key = .ok sources ↔ (key, sources) ∈ d := by
  unfold sourcesAt
  constructor
  · intro h
    cases hf : d.find? fun p => p.1 == key with
    | none => rw [hf] at h; cases h
    | some p =>
      rw [hf] at h
      injection h with h
      have h1 := List.mem_of_find?_eq_some hf
      have h2 := List.find?_some hf
      rw [beq_iff_eq] at h2
      rw [← h, ← h2]
      exact h1
  · intro h
    rw [find_of_mem hd h]

/-- **C156, descriptors.**  A time which has several entries in the merged file has the sources of the last of them; a time
which has none is a `KeyError`. -/
theorem c156_descriptor {σ : Type} (inputs : List (Summary σ)) (key : List Char) :
    (∀ sources, sourcesAt (descriptorOf inputs) key = .ok sources ↔ LastOf inputs key sources) ∧
    (sourcesAt (descriptorOf inputs) key = .error .keyError ↔ key ∉ inputs.map Prod.fst) := by
  have hmem : ∀ sources, (key, sources) ∈ descriptorOf inputs ↔ LastOf inputs key sources := by
    induction inputs using List.reverseRecOn with
    | nil =>
      intro sources
      constructor
      · intro h
        cases h
      · rintro ⟨before, after, h, -⟩
        simp at h
    | append_singleton inputs s ih =>
      intro sources
      rw [descriptorOf_append, dictWrite_mem _ _ (descriptor_nodup inputs), ih]
      constructor
      · rintro (⟨h1, h2⟩ | ⟨h1, before, after, h2, h3⟩)
        · refine ⟨inputs, [], ?_, by simp⟩
          rw [h1, h2]
        · refine ⟨before, after ++ [s], by rw [h2]; simp, ?_⟩
          simp only [List.map_append, List.mem_append, List.map_cons, List.map_nil, List.mem_singleton, not_or]
          exact ⟨h3, h1⟩
      · rintro ⟨before, after, h2, h3⟩
        rcases List.eq_nil_or_concat after with rfl | ⟨after', z, rfl⟩
        · have := List.append_inj' h2 rfl
          left
          have h4 := this.2
          injection h4 with h4 _
          rw [h4]
          exact ⟨rfl, rfl⟩
        · rw [List.concat_eq_append, ← List.cons_append, ← List.append_assoc] at h2
          obtain ⟨h4, h5⟩ := List.append_inj' h2 rfl
          injection h5 with h5 _
          subst h5
          simp only [List.concat_eq_append, List.map_append, List.mem_append, List.map_cons, List.map_nil,
            List.mem_singleton, not_or] at h3
          exact Or.inr ⟨h3.2, before, after', h4, h3.1⟩
  refine ⟨fun sources => (sourcesAt_ok (descriptor_nodup inputs) key sources).trans (hmem sources), ?_⟩
  constructor
  · intro h hk
    obtain ⟨p, hp, rfl⟩ := List.mem_map.1 hk
    obtain ⟨b, hb⟩ := (mem_writes inputs [] (by simp)).2.2 p (Or.inl hp)
    have := (sourcesAt_ok (descriptor_nodup inputs) p.1 b).2 hb
    rw [h] at this
    cases this
  · intro hk
    unfold sourcesAt
    have : (descriptorOf inputs).find? (fun p => p.1 == key) = none := by
      rw [List.find?_eq_none]
      intro p hp
      rw [beq_iff_eq]
      intro he
      rcases (mem_writes inputs [] (by simp)).2.1 p hp with h | h
      · exact hk (he ▸ List.mem_map_of_mem h)
      · cases h
    rw [this]

/-- A time with two entries. -/
example : LastOf [("a".toList, [1]), ("b".toList, [2]), ("a".toList, [3])] "a".toList [3] ∧
    sourcesAt (descriptorOf [("a".toList, [1]), ("b".toList, [2]), ("a".toList, [3])]) "a".toList = .ok [3] :=
  ⟨⟨[("a".toList, [1]), ("b".toList, [2])], [], rfl, by simp⟩, by decide⟩

/-- **C156, order.**  The order of the descriptor is that of the summaries, as long as their times are different. -/
theorem c156_order {σ : Type} (inputs : List (Summary σ)) (h : (inputs.map Prod.fst).Nodup) : descriptorOf inputs = inputs := by
  have := writes_new inputs [] (by simpa using h)
  exact this

/-- **C156, order fails.**  The descriptor is not in order of time, as its description says, unless the files were: summaries of
two times, the later first, stay so. -/
theorem c156_order_violated {σ : Type} (a b : List σ) (t u : DateTime) (ht : Proper t) (hu : Proper u)
    (hlt : instantOf t < instantOf u) : (descriptorOf [inputSummary u b, inputSummary t a]).map Prod.fst = [isoT u, isoT t] := by
  have hne : isoT u ≠ isoT t := fun h => by
    have := isoT_injective hu ht h
    rw [this] at hlt
    exact lt_irrefl _ hlt
  rw [c156_order _ (by simpa [inputSummary] using hne)]
  rfl

/-! ### The component -/

variable {A : Analysis} {σ : Type}

/-- **C156, inputs.**  With a descriptor made from summaries of different times, processing some of these times in any order
gives every one of them the sources of its own summary, on the day of its own date. -/
theorem c156_inputs (load : Int → σ → Loader) (k : Fin A.K) (summaries : List (DateTime × List σ))
    (hp : ∀ p ∈ summaries, Proper p.1) (hn : (summaries.map Prod.fst).Nodup) (wanted : List (DateTime × List σ))
    (hw : ∀ p ∈ wanted, p ∈ summaries) (S : Store A) :
    dsInputs load A k (descriptorOf (summaries.map fun p => inputSummary p.1 p.2)) (wanted.map fun p => isoT p.1) S =
      dsDays A k (wanted.map fun p => (dayIndex p.1, p.2.map (load (dayIndex p.1)))) S := by
  have hinj : ((summaries.map fun p => inputSummary p.1 p.2).map Prod.fst).Nodup := by
    rw [List.map_map]
    have hpw : summaries.Pairwise fun a b => a.1 ≠ b.1 := List.pairwise_map.1 hn
    refine List.pairwise_map.2 (hpw.imp_of_mem ?_)
    intro a b ha hb hab h
    exact hab (isoT_injective (hp a ha) (hp b hb) h)
  rw [c156_order _ hinj]
  induction wanted generalizing S with
  | nil => rfl
  | cons p wanted ih =>
    have hps := hw p (by simp)
    have hs : sourcesAt (summaries.map fun p => inputSummary p.1 p.2) (isoT p.1) = .ok p.2 :=
      (sourcesAt_ok hinj _ _).2 (List.mem_map.2 ⟨p, hps, rfl⟩)
    rw [List.map_cons, List.map_cons, dsInputs, dsDays, c156_time p.1 (hp p hps)]
    dsimp only
    rw [hs]
    dsimp only
    cases dsTime A (p.2.map (load (dayIndex p.1))) k (dayIndex p.1) S with
    | error e => rfl
    | ok S' => exact ih (fun q hq => hw q (by simp [hq])) S'

/-- **C156, the whole step.**  Summaries of different days from 1850 on are merged; the component is then updated for some of
their times.  Each of these days has observations from the sources of its own summary.  Then the component has, for each day, the
one most probable state given that day's observations, and the other components; nothing else has changed. -/
theorem c156_component {J : Designs A} (hJ : ∀ k, IsLinear (A.comp k) (J k)) (k : Fin A.K) (hQ : (A.comp k).prior.PosDef)
    (load : Int → σ → Loader) (hload : ∀ d s, (load d s d).time = d ∧ (load d s d).R.PosSemidef)
    (summaries : List (DateTime × List σ)) (hp : ∀ p ∈ summaries, Proper p.1 ∧ 1850 ≤ p.1.date.year)
    (hn : (summaries.map fun p => p.1.date).Nodup) (wanted : List (DateTime × List σ)) (hw : wanted.Sublist summaries)
    (hd : ∀ p ∈ wanted, ∃ s ∈ p.2, 0 < (load (daysFrom1850 p.1.date) s (daysFrom1850 p.1.date)).m)
    (S : Store A) (he : (S k).measurement = []) (opt : Options) (approximated : System (A.comp k).n → Vec (A.comp k).n) :
    ∃ S', dsComponent load A k opt approximated (descriptorOf (summaries.map fun p => inputSummary p.1 p.2))
        (wanted.map fun p => isoT p.1) S = .ok S' ∧
      (∀ j, j ≠ k → S' j = S j) ∧
      (∀ p ∈ wanted, ∃ x, (S' k).states (daysFrom1850 p.1.date) = some x ∧ ∀ z, z ≠ x →
        dayCost J (statesOf S) k (p.2.map fun s => load (daysFrom1850 p.1.date) s (daysFrom1850 p.1.date)) x <
          dayCost J (statesOf S) k (p.2.map fun s => load (daysFrom1850 p.1.date) s (daysFrom1850 p.1.date)) z) ∧
      ∀ t, t ∉ wanted.map (fun p => daysFrom1850 p.1.date) → (S' k).states t = (S k).states t := by
  have hmem : ∀ p ∈ wanted, p ∈ summaries := fun p hp => hw.subset hp
  have hday : ∀ p ∈ wanted, dayIndex p.1 = daysFrom1850 p.1.date :=
    fun p h => c156_day p.1 (hp p (hmem p h)).1 (hp p (hmem p h)).2
  have hnt : (summaries.map Prod.fst).Nodup := by
    have hpw : summaries.Pairwise fun a b => a.1.date ≠ b.1.date := List.pairwise_map.1 hn
    exact List.pairwise_map.2 (hpw.imp fun hab h => hab (by rw [h]))
  have hin := c156_inputs load k summaries (fun p h => (hp p h).1) hnt wanted hmem S
  have hmap : (wanted.map fun p => (dayIndex p.1, p.2.map (load (dayIndex p.1)))) =
      wanted.map fun p => (daysFrom1850 p.1.date, p.2.map (load (daysFrom1850 p.1.date))) :=
    List.map_congr_left fun p h => by rw [hday p h]
  rw [hmap] at hin
  have hfst : ((wanted.map fun p => (daysFrom1850 p.1.date, p.2.map (load (daysFrom1850 p.1.date)))).map Prod.fst) =
      wanted.map fun p => daysFrom1850 p.1.date := by
    rw [List.map_map]
    rfl
  have hnd : (wanted.map fun p => daysFrom1850 p.1.date).Nodup := by
    have hpw : wanted.Pairwise fun a b => a.1.date ≠ b.1.date := (List.pairwise_map.1 hn).sublist hw
    refine List.pairwise_map.2 (hpw.imp_of_mem ?_)
    intro a b ha hb hab h
    refine hab (number_inj (hp a (hmem a ha)).1.1 (hp b (hmem b hb)).1.1 ?_)
    unfold daysFrom1850 at h
    omega
  have hin' : ∀ q ∈ wanted.map fun p => (daysFrom1850 p.1.date, p.2.map (load (daysFrom1850 p.1.date))),
      ∃ p ∈ wanted, q = (daysFrom1850 p.1.date, p.2.map (load (daysFrom1850 p.1.date))) := by
    intro q hq
    obtain ⟨p, h1, h2⟩ := List.mem_map.1 hq
    exact ⟨p, h1, h2.symm⟩
  obtain ⟨S₁, st, h1, h2, h3, h4, h5⟩ := c155_solution hJ k hQ
    (wanted.map fun p => (daysFrom1850 p.1.date, p.2.map (load (daysFrom1850 p.1.date)))) (by rw [hfst]; exact hnd)
    (by
      intro q hq
      obtain ⟨p, hpw, rfl⟩ := hin' q hq
      obtain ⟨s, hs, hpos⟩ := hd p hpw
      exact ⟨_, List.mem_map_of_mem hs, hpos⟩)
    (by
      intro q hq l hl
      obtain ⟨p, hpw, rfl⟩ := hin' q hq
      obtain ⟨s, hs, rfl⟩ := List.mem_map.1 hl
      exact (hload _ s).1)
    (by
      intro q hq l hl
      obtain ⟨p, hpw, rfl⟩ := hin' q hq
      obtain ⟨s, hs, rfl⟩ := List.mem_map.1 hl
      exact (hload _ s).2) S he opt approximated
  refine ⟨Function.update S₁ k st, ?_, ?_, ?_, ?_⟩
  · unfold dsComponent
    rw [hin, h1]
    dsimp only
    rw [h2]
  · intro j hj
    rw [Function.update_of_ne hj]
    exact h3 j hj
  · intro p hpw
    obtain ⟨x, hx1, hx2⟩ := h4 _ (List.mem_map.2 ⟨p, hpw, rfl⟩)
    refine ⟨x, by rw [Function.update_self]; exact hx1, ?_⟩
    intro z hz
    have := hx2 z hz
    simp only [dayObs, List.map_map] at this
    exact this
  · intro t ht
    rw [Function.update_self]
    exact (h5 t (by rw [hfst]; exact ht)).1

/-- Two summaries, the later one first; the earlier day only is wanted. -/
example : ∃ S', dsComponent (fun _ y => oneObservation y) twoFields localField defaultOptions (fun _ => 0)
    (descriptorOf ([((⟨⟨2006, 2, 1⟩, 0, 0, 0⟩ : DateTime), [(3 : ℝ)]), (⟨⟨2006, 1, 31⟩, 0, 0, 0⟩, [4, 5])].map fun p =>
      inputSummary p.1 p.2)) ([((⟨⟨2006, 1, 31⟩, 0, 0, 0⟩ : DateTime), [(4 : ℝ), 5])].map fun p => isoT p.1) twoStore = .ok S' ∧
    S' fullField = twoStore fullField := by
  obtain ⟨S', h1, h2, -⟩ := c156_component twoFields_linear localField twoFields_prior (fun _ y => oneObservation y)
    (fun d s => ⟨rfl, (Matrix.PosSemidef.one : (1 : Mat 1).PosSemidef)⟩)
    [((⟨⟨2006, 2, 1⟩, 0, 0, 0⟩ : DateTime), [(3 : ℝ)]), (⟨⟨2006, 1, 31⟩, 0, 0, 0⟩, [4, 5])]
    (by
      intro p hp
      simp only [List.mem_cons, List.not_mem_nil, or_false] at hp
      rcases hp with rfl | rfl
      · exact ⟨by unfold Proper; decide, by decide⟩
      · exact ⟨by unfold Proper; decide, by decide⟩) (by decide)
    [((⟨⟨2006, 1, 31⟩, 0, 0, 0⟩ : DateTime), [(4 : ℝ), 5])] (.cons _ (List.Sublist.refl _))
    (by
      intro p hp
      simp only [List.mem_cons, List.not_mem_nil, or_false] at hp
      subst hp
      exact ⟨4, List.mem_cons_self, Nat.one_pos⟩) twoStore twoStore_empty defaultOptions (fun _ => 0)
  exact ⟨S', h1, h2 fullField fun h => absurd (congrArg Fin.val h) (by decide)⟩

/-- **C156 fails for two times on one day**: the observations of the first are lost, for each day has one measurement, which is
written again. -/
theorem c156_same_day_violated (k : Fin A.K) {J : ∀ o : Obs, Matrix (Fin o.m) (Fin (A.comp k).n) ℝ}
    (hJ : IsLinear (A.comp k) J) (t : Int) (a b : List Loader) (ha : HasData a t) (hb : HasData b t)
    (hta : ∀ l ∈ a, (l t).time = t) (htb : ∀ l ∈ b, (l t).time = t) (S : Store A) (he : (S k).measurement = []) :
    dsDays A k [(t, a), (t, b)] S = dsDays A k [(t, b)] S := by
  have hne : ∀ l : List Loader, HasData l t → l ≠ [] := by
    rintro l ⟨x, hx, -⟩ rfl
    cases hx
  rw [dsDays_eq k hJ _ (by
    intro p hp
    simp only [List.mem_cons, List.not_mem_nil, or_false] at hp
    rcases hp with rfl | rfl
    · exact ⟨hne a ha, hta⟩
    · exact ⟨hne b hb, htb⟩), dsDays_eq k hJ _ (by
    intro p hp
    simp only [List.mem_cons, List.not_mem_nil, or_false] at hp
    subst hp
    exact ⟨hne b hb, htb⟩)]
  obtain ⟨u, hu, -⟩ := entry_system J S (t, a) ha
  obtain ⟨v, hv, -⟩ := entry_system J S (t, b) hb
  simp only [List.map_cons, List.map_nil, List.foldl_cons, List.foldl_nil, hu, hv, he]
  simp [dictWrite]

end

end Verif.Eustace.Optimise
