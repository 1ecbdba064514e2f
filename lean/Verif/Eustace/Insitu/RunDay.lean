import Verif.Eustace.Insitu.Altitude
import Verif.Eustace.RawBinary.Props

/-! C134: files of single days of stations over land. -/

namespace Verif.Eustace.Insitu

open Verif Verif.Eustace.RawBinary Spec

/-- Coordinates agree as far as is asked for. -/
def Close (a b : ℝ × ℝ) : Prop := |a.1 - b.1| ≤ 0.0001 ∧ |a.2 - b.2| ≤ 0.0001

/-- What is read from the file of a day with given stations. -/
def dayContents (bits : ℝ → UInt64) (day : Int) (kept : List Nat) (value error : Nat → ℝ) : Observations UInt64 where
  mask := kept.map fun _ => false
  time := .scalar day
  location := kept.map UInt64.ofNat
  measurement := kept.map fun j => bits (value j)
  uncorrelated := kept.map fun j => bits (error j)
  correlated := []

theorem collect_ok_iff {α : Type} (l : List (Except PyErr α)) (xs : List α) : collect l = .ok xs ↔ l = xs.map .ok := by
  induction l generalizing xs with
  | nil =>
    rw [collect]
    cases xs <;> simp
  | cons e l ih =>
    cases e with
    | error e =>
      rw [collect]
      cases xs <;> simp
    | ok x =>
      rw [collect]
      cases h : collect l with
      | error e =>
        dsimp only
        cases xs with
        | nil => simp
        | cons y ys =>
          have : l ≠ ys.map .ok := fun hl => by
            have := (ih ys).2 hl
            rw [h] at this
            cases this
          simp [this]
      | ok ys =>
        dsimp only
        have hl := (ih ys).1 h
        constructor
        · rintro rfl'
          injection rfl' with h'
          rw [← h', hl]
          rfl
        · intro h'
          cases xs with
          | nil => cases h'
          | cons z zs =>
            rw [List.map_cons, List.cons.injEq] at h'
            have : ys = zs := by
              have := (ih zs).2 h'.2
              rw [h] at this
              injection this
            obtain ⟨h1, _⟩ := h'
            injection h1 with h1
            rw [h1, this]

/-- Picking the coordinates of all stations in turn. -/
theorem pick_ok (table : List (ℝ × ℝ)) (location : List UInt64) (n : Nat) (hn : n ≤ 2 ^ 64) (hl : location.length = n)
    (hat : ∀ j < n, location[j]? = some (UInt64.ofNat j)) (xs : List (ℝ × ℝ)) :
    pick table location = .ok xs ↔ n ≤ table.length ∧ xs = table.take n := by
  have hloc : location = (List.range n).map UInt64.ofNat := by
    apply List.ext_getElem?
    intro j
    by_cases hj : j < n
    · rw [hat j hj, List.getElem?_map, List.getElem?_range hj]
      rfl
    · rw [List.getElem?_eq_none (by omega), List.getElem?_eq_none (by simp; omega)]
  rw [pick, collect_ok_iff, hloc, List.map_map]
  constructor
  · intro h
    have hlen : xs.length = n := by
      have := congrArg List.length h
      simpa using this.symm
    have hx : ∀ j < n, table[j]? = xs[j]? ∧ j < table.length := by
      intro j hj
      have := congrArg (fun l => l[j]?) h
      rw [List.getElem?_map, List.getElem?_map, List.getElem?_range hj, Option.map_some, Function.comp_apply, UInt64.toNat_ofNat',
        Nat.mod_eq_of_lt (by omega), List.getElem?_eq_getElem (l := xs) (by omega), Option.map_some, Option.some.injEq] at this
      rw [List.getElem?_eq_getElem (l := xs) (by omega)]
      cases ht : table[j]? with
      | none => rw [ht] at this; cases this
      | some y =>
        rw [ht] at this
        injection this with this
        exact ⟨congrArg some this, (List.getElem?_eq_some_iff.1 ht).1⟩
    have hle : n ≤ table.length := by
      by_contra hc
      have := (hx table.length (by omega)).2
      omega
    refine ⟨hle, ?_⟩
    apply List.ext_getElem?
    intro j
    by_cases hj : j < n
    · rw [← (hx j hj).1, List.getElem?_take_of_lt hj]
    · rw [List.getElem?_eq_none (by omega), List.getElem?_eq_none (by simp; omega)]
  · rintro ⟨hle, rfl⟩
    apply List.ext_getElem?
    intro j
    rw [List.getElem?_map, List.getElem?_map]
    by_cases hj : j < n
    · rw [List.getElem?_range hj, List.getElem?_take_of_lt hj, List.getElem?_eq_getElem (by omega), Option.map_some, Option.map_some,
        Function.comp_apply, UInt64.toNat_ofNat', Nat.mod_eq_of_lt (by omega), List.getElem?_eq_getElem (by omega)]
    · rw [List.getElem?_eq_none (by simp; omega), List.getElem?_eq_none (by simp; omega)]
      rfl

/-- The comparison of coordinates. -/
theorem mismatch_false (n : Nat) (hn : 0 < n) (a b : List (ℝ × ℝ)) (ha : n ≤ a.length) (hb : n ≤ b.length) :
    ∃ found, mismatch (a.take n) (b.take n) = .ok found ∧
      (found = false ↔ ∀ j < n, ∃ p q, a[j]? = some p ∧ b[j]? = some q ∧ Close p q) := by
  have hne : a.take n ≠ [] := by
    intro h
    have := congrArg List.length h
    rw [List.length_take, List.length_nil] at this
    omega
  refine ⟨_, by rw [mismatch, if_neg hne], ?_⟩
  rw [List.any_eq_false]
  constructor
  · intro h j hj
    refine ⟨a[j], b[j], List.getElem?_eq_getElem _, List.getElem?_eq_getElem _, ?_⟩
    have hmem : (a[j]'(by omega), b[j]'(by omega)) ∈ (a.take n).zip (b.take n) := by
      rw [List.mem_iff_getElem?]
      refine ⟨j, ?_⟩
      rw [List.getElem?_zip_eq_some]
      constructor
      · rw [List.getElem?_take_of_lt hj]
        exact List.getElem?_eq_getElem _
      · rw [List.getElem?_take_of_lt hj]
        exact List.getElem?_eq_getElem _
    have := h _ hmem
    simp only [Bool.or_eq_true, decide_eq_true_eq, not_or, not_lt] at this
    exact this
  · intro h p hp
    obtain ⟨j, hj⟩ := List.mem_iff_getElem?.1 hp
    rw [List.getElem?_zip_eq_some] at hj
    have hjn : j < n := by
      have := (List.getElem?_eq_some_iff.1 hj.1).1
      rw [List.length_take] at this
      omega
    obtain ⟨p', q', h1, h2, h3⟩ := h j hjn
    rw [List.getElem?_take_of_lt hjn, h1] at hj
    rw [List.getElem?_take_of_lt hjn, h2] at hj
    obtain ⟨e1, e2⟩ := hj
    simp only [Bool.or_eq_true, decide_eq_true_eq, not_or, not_lt]
    rw [← Option.some.inj e1, ← Option.some.inj e2]
    exact h3

/-- The verification and the file for observations with one place for each station. -/
theorem store_ok (bits : ℝ → UInt64) (uuid verify : Bytes) (hu : uuid.length = 16) (reference mine : List (ℝ × ℝ)) (day : Int)
    (hd : 0 ≤ day) (n : Nat) (hn : 0 < n) (hn' : n ≤ 2 ^ 64) (hm : mine.length = n) (o : Observations ℝ) (hs : Sized o n)
    (ht : o.time = .array (List.replicate n (day : ℚ))) (hl : ∀ j < n, o.location[j]? = some (UInt64.ofNat j)) :
    ((∀ j < n, ∃ p q, reference[j]? = some p ∧ mine[j]? = some q ∧ Close p q) →
      ∃ file kept, storeDay bits uuid reference mine day (some o) = .ok file ∧ kept.Pairwise (· < ·) ∧
        (∀ j, j ∈ kept ↔ o.mask[j]? = some false) ∧
        ∀ value error : Nat → ℝ, (∀ j < n, o.mask[j]? = some false → o.measurement[j]? = some (value j) ∧
            o.uncorrelated[j]? = some (error j)) →
          readDay 0 (some file) verify day = .ok (dayContents bits day kept value error)) ∧
    (∀ file, storeDay bits uuid reference mine day (some o) = .ok file →
      ∀ j < n, ∃ p q, reference[j]? = some p ∧ mine[j]? = some q ∧ Close p q) := by
  obtain ⟨hs1, hs2, hs3, hs4, hs5⟩ := hs
  constructor
  · intro hclose
    have hlen : n ≤ reference.length := by
      by_contra hc
      obtain ⟨p, _, hp, _⟩ := hclose reference.length (by omega)
      exact absurd (List.getElem?_eq_some_iff.1 hp).1 (by omega)
    obtain ⟨found, hf, hiff⟩ := mismatch_false n hn reference mine hlen (by omega)
    obtain rfl := hiff.2 hclose
    set obs : Observations UInt64 := ⟨o.mask, o.time, o.location, o.measurement.map bits, o.uncorrelated.map bits,
      o.correlated.map fun l => l.map bits⟩ with hobs
    have hsized : obs.Sized n := by
      refine ⟨hs1, hs2, by simpa [obs] using hs3, by simpa [obs] using hs4, ?_⟩
      intro c hc
      rw [hobs] at hc
      dsimp only at hc
      rw [hs5] at hc
      simp at hc
    have htime : TimeSized obs.time n := by
      rw [hobs]
      dsimp only
      rw [ht]
      refine ⟨by simp, fun t ht => ?_⟩
      rw [(List.mem_replicate.1 ht).2]
      exact_mod_cast hd
    obtain ⟨file, kept, h1, h2, h3, _⟩ := c24_round_trip uuid verify hu obs n hsized htime day
    have hcor : obs.correlated = [] := by
      rw [hobs]
      dsimp only
      rw [hs5]
      rfl
    have hkept : ∀ j, j ∈ kept ↔ o.mask[j]? = some false := by
      intro j
      rw [h2.2]
      constructor
      · exact fun h => h.1
      · intro h
        have hj : j < n := by
          have := (List.getElem?_eq_some_iff.1 h).1
          omega
        refine ⟨h, ?_⟩
        rw [hobs]
        dsimp only
        rw [ht]
        refine ⟨day, ?_, le_rfl, by linarith⟩
        rw [List.getElem?_replicate, if_pos hj]
    refine ⟨file, kept, ?_, h2.1, hkept, ?_⟩
    · rw [storeDay, (pick_ok reference o.location n hn' hs2 hl _).2 ⟨hlen, rfl⟩, (pick_ok mine o.location n hn' hs2 hl _).2 ⟨by omega, rfl⟩]
      dsimp only
      rw [hf]
      exact h1
    · intro value error hval
      rw [hcor] at h3
      rw [show ([] : List (List UInt64)).length = 0 from rfl] at h3
      rw [h3, selection, dayContents, hcor]
      have hj : ∀ j ∈ kept, j < n ∧ o.mask[j]? = some false := by
        intro j hj
        have h := (hkept j).1 hj
        refine ⟨?_, h⟩
        have := (List.getElem?_eq_some_iff.1 h).1
        omega
      congr 2
      · refine List.map_congr_left fun j hk => ?_
        rw [List.getD_eq_getElem?_getD]
        show (o.location[j]?).getD 0 = _
        rw [hl j (hj j hk).1]
        rfl
      · refine List.map_congr_left fun j hk => ?_
        rw [List.getD_eq_getElem?_getD]
        show ((o.measurement.map bits)[j]?).getD 0 = _
        rw [List.getElem?_map, (hval j (hj j hk).1 (hj j hk).2).1]
        rfl
      · refine List.map_congr_left fun j hk => ?_
        rw [List.getD_eq_getElem?_getD]
        show ((o.uncorrelated.map bits)[j]?).getD 0 = _
        rw [List.getElem?_map, (hval j (hj j hk).1 (hj j hk).2).2]
        rfl
  · intro file h
    rw [storeDay] at h
    cases hp : pick reference o.location with
    | error e => rw [hp] at h; cases h' : pick mine o.location <;> rw [h'] at h <;> cases h
    | ok expected =>
      cases hq : pick mine o.location with
      | error e => rw [hp, hq] at h; cases h
      | ok got =>
        rw [hp, hq] at h
        dsimp only at h
        obtain ⟨hlen, rfl⟩ := (pick_ok reference o.location n hn' hs2 hl _).1 hp
        obtain ⟨hlen', rfl⟩ := (pick_ok mine o.location n hn' hs2 hl _).1 hq
        obtain ⟨found, hf, hiff⟩ := mismatch_false n hn reference mine hlen (by omega)
        rw [hf] at h
        cases found with
        | true => cases h
        | false => exact hiff.1 rfl

theorem lookup_length (file : StationFile) : (locationLookup file).length = file.stations := by
  rw [locationLookup, List.length_map, List.length_range]

/-- The places of stations, with longitudes from -180. -/
noncomputable def place (file : StationFile) (j : Nat) : ℝ × ℝ := (file.latitude j, wrapLongitude (file.longitude j))

theorem lookup_get (file : StationFile) (j : Nat) (hj : j < file.stations) : (locationLookup file)[j]? = some (place file j) := by
  rw [locationLookup, List.getElem?_map, List.getElem?_range hj]
  rfl

theorem close_iff (file : StationFile) (reference : List (ℝ × ℝ)) (j : Nat) (hj : j < file.stations) :
    (∃ p q, reference[j]? = some p ∧ (locationLookup file)[j]? = some q ∧ Close p q) ↔
      ∃ p, reference[j]? = some p ∧ Close p (place file j) := by
  rw [lookup_get file j hj]
  constructor
  · rintro ⟨p, q, h1, h2, h3⟩
    obtain rfl := Option.some.inj h2
    exact ⟨p, h1, h3⟩
  · rintro ⟨p, h1, h3⟩
    exact ⟨p, _, h1, rfl, h3⟩

/-- **C134**: places of stations have longitudes from -180 up to 180, and are the same places. -/
theorem c134_place (file : StationFile) (j : Nat) (h : -180 ≤ file.longitude j ∧ file.longitude j < 540) :
    (place file j).1 = file.latitude j ∧ -180 ≤ (place file j).2 ∧ (place file j).2 < 180 ∧
      ∃ k : ℤ, (place file j).2 = file.longitude j + 360 * k := by
  refine ⟨rfl, ?_⟩
  show -180 ≤ wrapLongitude (file.longitude j) ∧ wrapLongitude (file.longitude j) < 180 ∧
    ∃ k : ℤ, wrapLongitude (file.longitude j) = file.longitude j + 360 * k
  rw [wrapLongitude]
  split
  · exact ⟨by linarith, by linarith, -1, by push_cast; ring⟩
  · exact ⟨h.1, by linarith, 0, by push_cast; ring⟩

/-- Non-vacuity: a longitude of 200 degrees. -/
example : (place file0 1).2 = -160 := by
  show wrapLongitude (200 * ((1 : Nat) : ℝ)) = -160
  norm_num [wrapLongitude]

/-- **C134**: without a reference surface, if the stations are where the reference table has them, the file of a day is written, and
reading it gives the measurements of all stations which may be used on that day and nothing else, in the order of stations, except
that with checks and a list flags of the first row are used as well. -/
theorem c134_written (bits : ℝ → UInt64) (uuid verify : Bytes) (hu : uuid.length = 16) (reference : List (ℝ × ℝ))
    (file : StationFile) (hS : 0 < file.stations) (hS' : file.stations ≤ 2 ^ 64) {observable variable_ flags : String}
    (hq : Quantity observable variable_ flags) (qc : Bool) (day : Int) (hd : 0 ≤ day) (t : Nat)
    (ht : OnlyRow file.times day t) (hold : Option HoldOut)
    (hfirst : hold = none ∨ qc = false ∨ ∀ j < file.stations, file.flag flags 0 j = 0)
    (hplace : ∀ j < file.stations, ∃ p, reference[j]? = some p ∧ Close p (place file j)) :
    ∃ new kept, runDayLand bits uuid reference file day observable hold qc none = .ok new ∧ kept.Pairwise (· < ·) ∧
      (∀ j, j ∈ kept ↔ j < file.stations ∧ Usable file variable_ flags hold qc t j) ∧
      readDay 0 (some new) verify day = .ok (dayContents bits day kept (fun j => file.value variable_ t j) fun _ => 0.3) := by
  obtain ⟨o, h1, h2, h3, h4, hmask⟩ : ∃ o, landDay file day observable hold qc none = .ok (some o) ∧ Sized o file.stations ∧
      o.time = .array (List.replicate file.stations (day : ℚ)) ∧
      (∀ j < file.stations, o.location[j]? = some (UInt64.ofNat j) ∧ o.measurement[j]? = some (file.value variable_ t j) ∧
        o.uncorrelated[j]? = some 0.3) ∧
      ∀ j < file.stations, (o.mask[j]? = some false ↔ Usable file variable_ flags hold qc t j) := by
    have hland : landDay file day observable hold qc none = observations file (some day) hold none observable qc := by
      cases hold <;> rfl
    obtain ⟨o, h1, h2, h3, h4⟩ := c132_day file hq qc day t ht hold
    refine ⟨o, by rw [hland, h1], h2, h3, fun j hj => ⟨(h4 j hj).1, (h4 j hj).2.1, (h4 j hj).2.2.1⟩, fun j hj => ⟨(h4 j hj).2.2.2.1, ?_⟩⟩
    rcases hfirst with h | h | h
    · exact (h4 j hj).2.2.2.2 (.inl h)
    · exact (h4 j hj).2.2.2.2 (.inr h)
    · cases hold with
      | none => exact (h4 j hj).2.2.2.2 (.inl rfl)
      | some list =>
        cases qc with
        | false => exact (h4 j hj).2.2.2.2 (.inr rfl)
        | true =>
          obtain ⟨o', h1', _, h4'⟩ := c132_hold_out_partial file hq day t ht list
          rw [h1] at h1'
          injection h1' with h1'
          obtain rfl := Option.some.inj h1'
          exact fun hu => (h4' j hj).2 ⟨hu, h j hj⟩
  obtain ⟨hyes, _⟩ := store_ok bits uuid verify hu reference (locationLookup file) day hd file.stations hS hS' (lookup_length file)
    o h2 h3 fun j hj => (h4 j hj).1
  obtain ⟨new, kept, h5, h6, h7, h8⟩ := hyes fun j hj => (close_iff file reference j hj).2 (hplace j hj)
  refine ⟨new, kept, by rw [runDayLand, h1]; exact h5, h6, fun j => ?_, h8 _ _ fun j hj _ => (h4 j hj).2⟩
  rw [h7]
  constructor
  · intro h
    have hj : j < file.stations := by
      have := (List.getElem?_eq_some_iff.1 h).1
      rw [h2.1] at this
      exact this
    exact ⟨hj, (hmask j hj).1 h⟩
  · rintro ⟨hj, hu⟩
    exact (hmask j hj).2 hu

/-- **C134**: the same with a reference surface and a list of stations to be held out: the file has the adjusted measurements of the
stations which may be used and have an elevation. -/
theorem c134_adjusted (bits : ℝ → UInt64) (uuid verify : Bytes) (hu : uuid.length = 16) (reference : List (ℝ × ℝ))
    (file : StationFile) (hS : 0 < file.stations) (hS' : file.stations ≤ 2 ^ 64) {observable variable_ flags : String}
    (hq : Quantity observable variable_ flags) (qc : Bool) (day : Int) (hd : 0 ≤ day) (t : Nat)
    (ht : OnlyRow file.times day t) (list : HoldOut)
    (hfirst : qc = false ∨ ∀ j < file.stations, file.flag flags 0 j = 0)
    (hplace : ∀ j < file.stations, ∃ p, reference[j]? = some p ∧ Close p (place file j))
    (a : Adjustment) (r : Nat → ℝ) (hr : ∀ j < file.stations, referenceAltitude a (place file j) = .ok (r j)) :
    ∃ new kept, runDayLand bits uuid reference file day observable (some list) qc (some a) = .ok new ∧ kept.Pairwise (· < ·) ∧
      (∀ j, j ∈ kept ↔ j < file.stations ∧ Usable file variable_ flags (some list) qc t j ∧ file.noElevation j = false) ∧
      readDay 0 (some new) verify day = .ok (dayContents bits day kept
        (fun j => file.value variable_ t j + 6.5 * (file.elevation j / 1000 - r j))
        fun j => Real.sqrt ((1.1 * (file.elevation j / 1000 - r j)) ^ 2 + 0.3 ^ 2)) := by
  obtain ⟨o, h1, h2, h3, h4⟩ := c133_day file hq qc day t ht (some list) a r hr
  have hland : landDay file day observable (some list) qc (some a) = .ok (some o) := h1
  obtain ⟨hyes, _⟩ := store_ok bits uuid verify hu reference (locationLookup file) day hd file.stations hS hS' (lookup_length file)
    o h2 h3 fun j hj => (h4 j hj).1
  obtain ⟨new, kept, h5, h6, h7, h8⟩ := hyes fun j hj => (close_iff file reference j hj).2 (hplace j hj)
  refine ⟨new, kept, by rw [runDayLand, hland]; exact h5, h6, fun j => ?_, h8 _ _ fun j hj hm => (h4 j hj).2.2.2 hm⟩
  rw [h7]
  constructor
  · intro h
    have hj : j < file.stations := by
      have := (List.getElem?_eq_some_iff.1 h).1
      rw [h2.1] at this
      exact this
    exact ⟨hj, (h4 j hj).2.1 h⟩
  · rintro ⟨hj, hu⟩
    refine (h4 j hj).2.2.1 ?_ hu
    rcases hfirst with h | h
    · exact .inr (.inl h)
    · exact .inr (.inr (h j hj))

/-- Non-vacuity: the reference table has the places of the stations. -/
example : ∀ j < file0.stations, ∃ p, (locationLookup file0)[j]? = some p ∧ Close p (place file0 j) := by
  intro j hj
  refine ⟨_, lookup_get file0 j hj, ?_⟩
  constructor <;> rw [sub_self, abs_zero] <;> norm_num

/-- **C134**: nothing is written if a station is not where the reference table has it, or if the table has no such station. -/
theorem c134_refused (bits : ℝ → UInt64) (uuid : Bytes) (hu : uuid.length = 16) (reference : List (ℝ × ℝ)) (file : StationFile)
    (hS : 0 < file.stations) (hS' : file.stations ≤ 2 ^ 64) {observable variable_ flags : String}
    (hq : Quantity observable variable_ flags) (qc : Bool) (day : Int) (hd : 0 ≤ day) (hold : Option HoldOut)
    (adjustment : Option Adjustment)
    (j : Nat) (hj : j < file.stations) (hplace : ∀ p, reference[j]? = some p → ¬ Close p (place file j)) :
    ∃ e, runDayLand bits uuid reference file day observable hold qc adjustment = .error e := by
  cases h : runDayLand bits uuid reference file day observable hold qc adjustment with
  | error e => exact ⟨e, rfl⟩
  | ok new =>
    exfalso
    rw [runDayLand] at h
    cases hl : landDay file day observable hold qc adjustment with
    | error e => rw [hl] at h; cases h
    | ok data =>
      rw [hl] at h
      dsimp only at h
      cases data with
      | none => cases h
      | some o =>
        -- the observations have one place for each station
        have hshape : Sized o file.stations ∧ o.time = .array (List.replicate file.stations (day : ℚ)) ∧
            ∀ j < file.stations, o.location[j]? = some (UInt64.ofNat j) := by
          have key : ∀ hold adj, observations file (some day) hold adj observable qc = .ok (some o) →
              Sized o file.stations ∧ o.time = .array (List.replicate file.stations (day : ℚ)) ∧
                ∀ j < file.stations, o.location[j]? = some (UInt64.ofNat j) := by
            intro hold adj ho
            have hex : ∃ t, OnlyRow file.times day t := by
              by_contra hc
              exact c132_absent file observable qc day hold adj hc o ho
            obtain ⟨t, ht⟩ := hex
            cases adj with
            | none =>
              obtain ⟨o', h1, h2, h3, h4⟩ := c132_day file hq qc day t ht hold
              rw [ho] at h1
              injection h1 with h1
              obtain rfl := Option.some.inj h1
              exact ⟨h2, h3, fun j hj => (h4 j hj).1⟩
            | some a =>
              have hrefs : ∃ r : Nat → ℝ, ∀ j < file.stations, referenceAltitude a (place file j) = .ok (r j) := by
                cases hc : referenceAltitudes file a with
                | error e =>
                  obtain ⟨hv, hf⟩ := names_of hq
                  obtain ⟨mask, mask', h1, h2, _⟩ := day_mask file variable_ flags qc day t ht hold
                  rw [observations, hv, hf] at ho
                  dsimp only at ho
                  rw [h1] at ho
                  dsimp only at ho
                  rw [h2] at ho
                  dsimp only at ho
                  rw [adjustAltitude, hc] at ho
                  cases ho
                | ok rs =>
                  rw [referenceAltitudes, collect_ok_iff, locationLookup, List.map_map] at hc
                  refine ⟨fun j => rs.getD j 0, fun j hj => ?_⟩
                  have := congrArg (fun l => l[j]?) hc
                  rw [List.getElem?_map, List.getElem?_range hj, List.getElem?_map, Option.map_some] at this
                  cases hrs : rs[j]? with
                  | none => rw [hrs] at this; cases this
                  | some x =>
                    rw [hrs] at this
                    dsimp only
                    rw [List.getD_eq_getElem?_getD, hrs]
                    exact Option.some.inj this
              obtain ⟨r, hr⟩ := hrefs
              obtain ⟨o', h1, h2, h3, h4⟩ := c133_day file hq qc day t ht hold a r hr
              rw [ho] at h1
              injection h1 with h1
              obtain rfl := Option.some.inj h1
              exact ⟨h2, h3, fun j hj => (h4 j hj).1⟩
          cases hold with
          | none =>
            cases adjustment with
            | none => exact key none none hl
            | some a => cases hl
          | some list => exact key (some list) adjustment hl
        obtain ⟨h2, h3, h4⟩ := hshape
        obtain ⟨_, hno⟩ := store_ok bits uuid [] hu reference (locationLookup file) day hd file.stations hS hS' (lookup_length file)
          o h2 h3 h4
        obtain ⟨p, hp, hc⟩ := (close_iff file reference j hj).1 (hno new h j hj)
        exact hplace p hp hc

/-- Non-vacuity: the second station has moved by one degree. -/
example : ∀ p, [((0 : ℝ), (0 : ℝ)), (11, -160)][1]? = some p → ¬ Close p (place file0 1) := by
  intro p hp hc
  obtain rfl := Option.some.inj hp
  have := hc.1
  have h : |(11 : ℝ) - 10 * ((1 : Nat) : ℝ)| ≤ 0.0001 := this
  norm_num at h

/-- **C134**: nothing is written for a day which is not in the file exactly once. -/
theorem c134_absent (bits : ℝ → UInt64) (uuid : Bytes) (reference : List (ℝ × ℝ)) (file : StationFile) (observable : String)
    (qc : Bool) (day : Int) (hold : Option HoldOut) (adjustment : Option Adjustment) (h : ¬ ∃ t, OnlyRow file.times day t) :
    ∃ e, runDayLand bits uuid reference file day observable hold qc adjustment = .error e := by
  rw [runDayLand]
  cases hl : landDay file day observable hold qc adjustment with
  | error e => exact ⟨e, rfl⟩
  | ok data =>
    cases data with
    | none => exact ⟨_, rfl⟩
    | some o =>
      exfalso
      cases hold with
      | none =>
        cases adjustment with
        | none => exact c132_absent file observable qc day none none h o hl
        | some a => cases hl
      | some list => exact c132_absent file observable qc day (some list) adjustment h o hl

/-- **C134 violated**: with a reference surface but without a list of stations to be held out, no file is ever written: the
reference surface is taken for the name of the list. -/
theorem c134_adjustment_violated (bits : ℝ → UInt64) (uuid : Bytes) (reference : List (ℝ × ℝ)) (file : StationFile) (day : Int)
    (observable : String) (qc : Bool) (a : Adjustment) :
    runDayLand bits uuid reference file day observable none qc (some a) = .error .typeError := rfl

end Verif.Eustace.Insitu
