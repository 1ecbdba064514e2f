import Verif.Eustace.Prepare.Spec
import Verif.Eustace.Insitu.RunDay

/-! Steps of the preparation of satellite data. -/

namespace Verif.Eustace.Prepare

open Verif Verif.Eustace.RawBinary Verif.Eustace.Prepare.Spec
open Verif.Eustace.Insitu hiding Spec.Quantity

theorem mesh_length (lats lons : List ℝ) : (mesh lats lons).length = lats.length * lons.length := by
  induction lats with
  | nil => simp [mesh]
  | cons a l ih =>
    have : mesh (a :: l) lons = lons.map (fun b => (a, b)) ++ mesh l lons := rfl
    rw [this, List.length_append, ih, List.length_map, List.length_cons]
    ring

/-- Cell `k` of a grid is in row `k / columns` and in column `k % columns`. -/
theorem mesh_get (lats lons : List ℝ) (k : Nat) (a b : ℝ) (ha : lats[k / lons.length]? = some a)
    (hb : lons[k % lons.length]? = some b) : (mesh lats lons)[k]? = some (a, b) := by
  induction lats generalizing k with
  | nil => simp at ha
  | cons x l ih =>
    have e : mesh (x :: l) lons = lons.map (fun b => (x, b)) ++ mesh l lons := rfl
    have hpos : 0 < lons.length := by
      by_contra hc
      have : lons = [] := List.length_eq_zero_iff.1 (by omega)
      subst this
      simp at hb
    rw [e]
    by_cases hk : k < lons.length
    · rw [Nat.div_eq_of_lt hk] at ha
      rw [Nat.mod_eq_of_lt hk] at hb
      rw [List.getElem?_append_left (by simpa using hk), List.getElem?_map, hb]
      simp only [List.getElem?_cons_zero, Option.some.injEq] at ha
      rw [ha]
      rfl
    · rw [List.getElem?_append_right (by simp; omega), List.length_map]
      apply ih
      · have : k / lons.length = (k - lons.length) / lons.length + 1 := by
          rw [← Nat.add_div_right _ hpos, Nat.sub_add_cancel (by omega)]
        rw [this, List.getElem?_cons_succ] at ha
        exact ha
      · rw [← Nat.mod_eq_sub_mod (by omega)]
        exact hb

theorem field_only {s : Source} {name : String} {c : Cube} (h : Only s.cubes name c) : s.field name = .ok c := by
  obtain ⟨before, after, h1, h2, h3⟩ := h
  have e1 : before.filter (fun c => c.name = name) = [] := by
    rw [List.filter_eq_nil_iff]
    intro x hx
    simpa using h3 x (List.mem_append_left _ hx)
  have e2 : after.filter (fun c => c.name = name) = [] := by
    rw [List.filter_eq_nil_iff]
    intro x hx
    simpa using h3 x (List.mem_append_right _ hx)
  have : s.cubes.filter (fun c => c.name = name) = [c] := by
    rw [h1, List.filter_append, e1, List.filter_cons, e2]
    simp [h2]
  rw [Source.field, this]

theorem source_ok {sourcename observable m u : String} (hs : Surface sourcename) (hq : Prepare.Spec.Quantity observable m u) (file : List Cube) :
    sourceOf sourcename observable file = .ok ⟨observable, m, u, file⟩ := by
  have h : satstace observable file = .ok ⟨observable, m, u, file⟩ := by
    cases hq <;> simp [satstace, mapLookup]
  rw [sourceOf, if_pos (by cases hs <;> simp), h]

/-- The places of the cells of a file. -/
theorem locations_ok {s : Source} {c : Cube} {g : Grid} (h : Only s.cubes s.measurement c) (ha : At c g) :
    ∃ table, s.locations = .ok table ∧ table.length = g.size ∧ ∀ k < g.size, table[k]? = some (g.place k) := by
  obtain ⟨lats, r1, e1, l1, h1⟩ := ha.latitude
  obtain ⟨lons, r2, e2, l2, h2⟩ := ha.longitude
  refine ⟨mesh lats lons, ?_, by rw [mesh_length, l1, l2, Grid.size], fun k hk => ?_⟩
  · rw [Source.locations, field_only h]
    simp only
    rw [e1, e2]
    rfl
  · rw [Grid.size] at hk
    have hc : 0 < g.cols := by
      by_contra hc
      have : g.cols = 0 := by omega
      rw [this] at hk
      omega
    refine mesh_get lats lons k _ _ ?_ ?_
    · rw [l2]
      exact h1 _ (Nat.div_lt_of_lt_mul (by rw [Nat.mul_comm]; exact hk))
    · rw [l2]
      exact h2 _ (Nat.mod_lt _ hc)

/-- The observations of a file. -/
theorem observations_ok {observable m u : String} {file : List Cube} {g : Grid} (h : Has file m u g) :
    ∃ mask values errors, (Source.mk observable m u file).observations observable =
        .ok ⟨mask, .array [g.time], (List.range g.size).map UInt64.ofNat, values, errors, []⟩ ∧
      mask.length = g.size ∧ values.length = g.size ∧ errors.length = g.size ∧
      (∀ k < g.size, mask[k]? = some (! g.present k)) ∧
      ∀ k < g.size, g.present k = true → values[k]? = some (g.measurement k) ∧ errors[k]? = some (g.uncertainty k) := by
  obtain ⟨c, hc, ha, ⟨r1, r2, ht⟩, ⟨mask, hm, hml, hmk⟩, hdl, hdk⟩ := h.measured
  obtain ⟨d, hd, ⟨mask', hm'⟩, hel, hek⟩ := h.uncertain
  refine ⟨mask, c.data, d.data, ?_, hml, hdl, hel, hmk, fun k hk hp => ⟨hdk k hk hp, hek k hk hp⟩⟩
  have f1 : (Source.mk observable m u file).field m = .ok c := field_only hc
  have f2 : (Source.mk observable m u file).field u = .ok d := field_only hd
  rw [Source.observations, if_neg (not_not.2 rfl)]
  simp only
  rw [f1]
  simp only
  rw [Source.count]
  simp only
  rw [f1]
  simp only
  rw [firstTime, ht]
  simp only [first]
  rw [f2]
  simp only [maskOf, dataOf, hm, hm', ha.size]

/-- One time for all cells is the same as an array with that time for each. -/
theorem dayNumbers_one (n : Nat) (t : ℚ) : dayNumbers n (.array [t]) = dayNumbers n (.array (List.replicate n t)) := by
  simp only [dayNumbers, List.length_replicate, if_true, List.map_replicate, List.length_singleton, List.map_cons, List.map_nil]
  by_cases h : 1 = n
  · subst h
    rfl
  · rw [if_neg h]

/-- The records do not depend on the time. -/
theorem populate_time (o : RawBinary.Observations UInt64) (t : Time) (l : List Nat) : populate { o with time := t } l = populate o l := by
  induction l with
  | nil => rfl
  | cons i l ih => simp only [populate, ih]

/-- Writing of observations of one time, with the reading of the file. -/
theorem write_at (bits : ℝ → UInt64) (uuid verify : Bytes) (hu : uuid.length = 16) (g : Grid) (day : Int) (ht : 0 ≤ g.time)
    (mask : List Bool) (values errors : List ℝ) (h1 : mask.length = g.size) (h2 : values.length = g.size)
    (h3 : errors.length = g.size) (h4 : ∀ k < g.size, mask[k]? = some (! g.present k))
    (h5 : ∀ k < g.size, g.present k = true → values[k]? = some (g.measurement k) ∧ errors[k]? = some (g.uncertainty k)) :
    ∃ file kept, writeDay uuid ⟨mask, .array [g.time], (List.range g.size).map UInt64.ofNat, values.map bits, errors.map bits, []⟩
        day = .ok file ∧ Selected g day kept ∧
      readDay 0 (some file) verify day = .ok (dayContents bits day kept g.measurement g.uncertainty) := by
  set obs : RawBinary.Observations UInt64 := ⟨mask, .array (List.replicate g.size g.time), (List.range g.size).map UInt64.ofNat,
    values.map bits, errors.map bits, []⟩ with hobs
  have hsized : obs.Sized g.size := by
    refine ⟨h1, by simp [hobs], by simpa [hobs] using h2, by simpa [hobs] using h3, ?_⟩
    intro c hc
    rw [hobs] at hc
    simp at hc
  have htime : TimeSized obs.time g.size := by
    refine ⟨by simp, fun t h => ?_⟩
    rw [(List.mem_replicate.1 h).2]
    exact ht
  obtain ⟨file, kept, w1, w2, w3, _⟩ := c24_round_trip uuid verify hu obs g.size hsized htime day
  have hsel : Selected g day kept := by
    refine ⟨w2.1, fun k => ?_⟩
    rw [w2.2]
    constructor
    · rintro ⟨a, b⟩
      have hk : k < g.size := by
        have := (List.getElem?_eq_some_iff.1 a).1
        rw [← h1]
        exact this
      obtain ⟨t, b1, b2, b3⟩ := b
      rw [List.getElem?_replicate, if_pos hk, Option.some.injEq] at b1
      have a' : mask[k]? = some false := a
      rw [h4 k hk] at a'
      refine ⟨hk, by simpa using a', b1 ▸ b2, b1 ▸ b3⟩
    · rintro ⟨hk, hp, b1, b2⟩
      refine ⟨?_, g.time, by rw [List.getElem?_replicate, if_pos hk], b1, b2⟩
      show mask[k]? = some false
      rw [h4 k hk, hp]
      rfl
  refine ⟨file, kept, ?_, hsel, ?_⟩
  · rw [writeDay] at w1 ⊢
    simp only [← populate_time obs (.array [g.time])] at w1
    rw [show dayNumbers mask.length (.array [g.time]) = dayNumbers obs.mask.length obs.time by
      rw [dayNumbers_one, h1]]
    exact w1
  · have w3' : readDay 0 (some file) verify day = .ok (selection obs kept day) := w3
    rw [w3', selection, dayContents]
    congr 2
    · refine List.map_congr_left fun k hk => ?_
      have hk' := ((hsel.2 k).1 hk).1
      rw [List.getD_eq_getElem?_getD]
      show (((List.range g.size).map UInt64.ofNat)[k]?).getD 0 = _
      rw [List.getElem?_map, List.getElem?_range hk']
      rfl
    · refine List.map_congr_left fun k hk => ?_
      have hk' := (hsel.2 k).1 hk
      rw [List.getD_eq_getElem?_getD]
      show ((values.map bits)[k]?).getD 0 = _
      rw [List.getElem?_map, (h5 k hk'.1 hk'.2.1).1]
      rfl
    · refine List.map_congr_left fun k hk => ?_
      have hk' := (hsel.2 k).1 hk
      rw [List.getD_eq_getElem?_getD]
      show ((errors.map bits)[k]?).getD 0 = _
      rw [List.getElem?_map, (h5 k hk'.1 hk'.2.1).2]
      rfl

/-- All cells of a grid are where the table of locations has them. -/
def Agrees (table : List (ℝ × ℝ)) (g : Grid) : Prop :=
  0 < g.size ∧ ∀ k < g.size, ∃ p, table[k]? = some p ∧ Close p (g.place k)

/-- The verification of the locations. -/
theorem store_at (bits : ℝ → UInt64) (uuid : Bytes) (reference mine : List (ℝ × ℝ)) (day : Int) (g : Grid) (hn : g.size ≤ 2 ^ 64)
    (hm : mine.length = g.size) (hp : ∀ k < g.size, mine[k]? = some (g.place k)) (o : RawBinary.Observations ℝ)
    (hl : o.location = (List.range g.size).map UInt64.ofNat) :
    (Agrees reference g → storeDay bits uuid reference mine day (some o) =
      writeDay uuid ⟨o.mask, o.time, o.location, o.measurement.map bits, o.uncorrelated.map bits,
        o.correlated.map fun l => l.map bits⟩ day) ∧
    (¬ Agrees reference g → ∃ e, storeDay bits uuid reference mine day (some o) = .error e) := by
  have hlen : o.location.length = g.size := by rw [hl]; simp
  have hat : ∀ j < g.size, o.location[j]? = some (UInt64.ofNat j) := by
    intro j hj
    rw [hl, List.getElem?_map, List.getElem?_range hj]
    rfl
  have hmine := (pick_ok mine o.location g.size hn hlen hat _).2 ⟨by omega, rfl⟩
  constructor
  · rintro ⟨hpos, ha⟩
    have hle : g.size ≤ reference.length := by
      by_contra hc
      obtain ⟨p, h, _⟩ := ha reference.length (by omega)
      exact absurd (List.getElem?_eq_some_iff.1 h).1 (by omega)
    obtain ⟨found, hf, hiff⟩ := mismatch_false g.size hpos reference mine hle (by omega)
    have : found = false := hiff.2 fun k hk => by
      obtain ⟨p, h, hc⟩ := ha k hk
      exact ⟨p, _, h, hp k hk, hc⟩
    subst this
    rw [storeDay, (pick_ok reference o.location g.size hn hlen hat _).2 ⟨hle, rfl⟩, hmine]
    simp only
    rw [hf]
  · intro hna
    cases hr : pick reference o.location with
    | error e => exact ⟨e, by rw [storeDay, hr]⟩
    | ok expected =>
      obtain ⟨hle, rfl⟩ := (pick_ok reference o.location g.size hn hlen hat _).1 hr
      by_cases hpos : 0 < g.size
      · obtain ⟨found, hf, hiff⟩ := mismatch_false g.size hpos reference mine hle (by omega)
        have : found = true := by
          cases found with
          | true => rfl
          | false =>
            refine absurd ⟨hpos, fun k hk => ?_⟩ hna
            obtain ⟨p, q, a, b, c⟩ := hiff.1 rfl k hk
            rw [hp k hk, Option.some.injEq] at b
            exact ⟨p, a, b ▸ c⟩
        subst this
        refine ⟨.valueError, ?_⟩
        rw [storeDay, hr, hmine]
        simp only
        rw [hf]
      · have h0 : g.size = 0 := by omega
        refine ⟨.valueError, ?_⟩
        rw [storeDay, hr, hmine]
        simp only
        rw [h0, mismatch, if_pos (by simp)]

end Verif.Eustace.Prepare
