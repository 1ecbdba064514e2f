import Mathlib.Analysis.SpecialFunctions.Log.Basic
import Verif.Eustace.BreakPoints.Lemmas

/-!
C107: the breaks which are kept, their stations and their counts, in Python and in C++.
-/

namespace Verif.Eustace.BreakPoints

open Verif Verif.Eustace.ObsSource

/-! ### Reading -/

/-- The likelihood mask, where it is an array, says what is not missing. -/
theorem likelihoodMask_eq (f : File) (hf : f.Complete) (h : f.mask ≠ .nomask) :
    likelihoodMask f = some (f.missing.map not) := by
  unfold likelihoodMask File.missing
  match hm : f.mask with
  | .plain =>
    dsimp only
    rw [List.map_map, Option.some.injEq]
    have := hf.likelihood
    apply List.ext_getElem
    · simp [this]
    · intro i h1 h2
      simp
  | .nomask => exact absurd hm h
  | .array m => rfl

theorem masked_ok (f : File) (hf : f.Complete) (m : List Bool) (hm : m.length = f.time.length) (x : List Int) :
    masked f m x = .ok ⟨select m f.time, select m f.station, select m f.likelihood, x, false, f.bits⟩ := by
  unfold masked boolIndex
  rw [if_pos hm, if_pos (by rw [hm, hf.station]), if_pos (by rw [hm, hf.likelihood])]

/-- A selection from a file as a filter of its rows. -/
theorem select_file (f : File) (hf : f.Complete) (m : List Bool) (hm : m.length = f.time.length) (p : Row × Bool → Bool)
    (hp : m = f.rows.map p) :
    (select m f.time).zip ((select m f.station).zip (select m f.likelihood)) = (f.rows.filter p).map Prod.fst := by
  have h1 := hf.station
  have h2 := hf.likelihood
  have h3 := hf.missing
  rw [select_zip _ _ _ (by omega), select_zip _ _ _ (by rw [List.length_zip]; omega)]
  have e : f.time.zip (f.station.zip f.likelihood) = f.rows.map Prod.fst := by
    rw [File.rows, List.map_fst_zip]
    rw [List.length_zip, List.length_zip]
    omega
  rw [e, hp]
  generalize f.rows = l
  induction l with
  | nil => rfl
  | cons r l ih =>
    rw [List.map_cons, List.map_cons, select, List.filter_cons]
    cases p r <;> simp [ih]

theorem rows_length (f : File) (hf : f.Complete) : f.rows.length = f.time.length := by
  have h1 := hf.station
  have h2 := hf.likelihood
  have h3 := hf.missing
  rw [File.rows, List.length_zip, List.length_zip, List.length_zip]
  omega

theorem rows_missing (f : File) (hf : f.Complete) : f.rows.map Prod.snd = f.missing := by
  have h1 := hf.station
  have h2 := hf.likelihood
  have h3 := hf.missing
  rw [File.rows, List.map_snd_zip]
  rw [List.length_zip, List.length_zip]
  omega

theorem rows_station (f : File) (hf : f.Complete) : f.rows.map (fun r => r.1.2.1) = f.station := by
  have h1 := hf.station
  have h2 := hf.likelihood
  have h3 := hf.missing
  have e1 : f.rows.map Prod.fst = f.time.zip (f.station.zip f.likelihood) := by
    rw [File.rows, List.map_fst_zip]
    rw [List.length_zip, List.length_zip]
    omega
  have e2 : (f.time.zip (f.station.zip f.likelihood)).map Prod.snd = f.station.zip f.likelihood :=
    List.map_snd_zip (by rw [List.length_zip]; omega)
  have e3 : (f.station.zip f.likelihood).map Prod.fst = f.station := List.map_fst_zip (by omega)
  have e4 : f.rows.map (fun r => r.1.2.1) = (((f.rows.map Prod.fst).map Prod.snd).map Prod.fst) := by
    rw [List.map_map, List.map_map]
    rfl
  rw [e4, e1, e2, e3]

/-- **C107**, reading all stations: exactly the breaks whose likelihood is not missing, in the order of the file, with time, station
and likelihood of the same break. -/
theorem c107_read (f : File) (hf : f.Complete) (hm : f.mask ≠ .nomask) :
    ∃ b, observations f none = .ok b ∧ b.Aligned ∧ b.wrapped = false ∧ b.feasibility = f.feasibility ∧
      b.rows = (f.rows.filter fun r => !r.2).map Prod.fst := by
  have hl : (f.missing.map not).length = f.time.length := by rw [List.length_map, hf.missing]
  refine ⟨⟨select (f.missing.map not) f.time, select (f.missing.map not) f.station, select (f.missing.map not) f.likelihood,
    f.feasibility, false, f.bits⟩, ?_, ?_, rfl, rfl, ?_⟩
  · rw [observations, likelihoodMask_eq f hf hm]
    exact masked_ok f hf _ hl _
  · exact ⟨select_length _ _ _ hf.station, select_length _ _ _ hf.likelihood⟩
  · refine select_file f hf _ hl (fun r => !r.2) ?_
    rw [← rows_missing f hf, List.map_map]
    rfl

theorem zipWith_and_map {α : Type} (p q : α → Bool) (l : List α) :
    List.zipWith and (l.map p) (l.map q) = l.map fun x => p x && q x := by
  induction l with
  | nil => rfl
  | cons x l ih => simp [ih]

/-- **C107**, reading one station: exactly its breaks whose likelihood is not missing; also where the likelihoods have no mask. -/
theorem c107_read_station (f : File) (hf : f.Complete) (s : Int) (h0 : 0 ≤ s) (hs : s < f.feasibility.length) :
    ∃ b, observations f (some s) = .ok b ∧ b.Aligned ∧ b.wrapped = false ∧
      b.rows = (f.rows.filter fun r => r.1.2.1 == s && !r.2).map Prod.fst := by
  have hitem : ∃ x, item f.feasibility s = .ok x := by
    unfold item
    rw [if_neg (by omega)]
    have : s.toNat < f.feasibility.length := by omega
    rw [List.getElem?_eq_getElem this]
    exact ⟨_, if_neg (by omega)⟩
  obtain ⟨x, hx⟩ := hitem
  have hst : f.station.map (fun x => x == s) = f.rows.map fun r => r.1.2.1 == s := by
    rw [← rows_station f hf, List.map_map]
    rfl
  have hfin : ∃ m : List Bool, m.length = f.time.length ∧ m = f.rows.map (fun r => r.1.2.1 == s && !r.2) ∧
      observations f (some s) = masked f m [x] := by
    by_cases hm : f.mask = .nomask
    · refine ⟨f.station.map fun x => x == s, by rw [List.length_map, hf.station], ?_, ?_⟩
      · rw [hst]
        apply List.map_congr_left
        intro r hr
        have : r.2 = false := by
          have hr' : r.2 ∈ f.rows.map Prod.snd := List.mem_map_of_mem hr
          rw [rows_missing f hf, File.missing, hm] at hr'
          simp only [List.mem_map] at hr'
          obtain ⟨_, _, h⟩ := hr'
          exact h.symm
        simp [this]
      · unfold observations likelihoodMask
        rw [hm]
        dsimp only
        rw [hx]
    · refine ⟨f.rows.map (fun r => r.1.2.1 == s && !r.2), by rw [List.length_map, rows_length f hf], rfl, ?_⟩
      unfold observations
      dsimp only
      rw [hx, likelihoodMask_eq f hf hm]
      dsimp only
      rw [logicalAnd, if_pos (by rw [List.length_map, List.length_map, hf.station, hf.missing]), hst, ← rows_missing f hf,
        List.map_map, zipWith_and_map]
      rfl
  obtain ⟨m, hm1, hm2, hm3⟩ := hfin
  refine ⟨⟨select m f.time, select m f.station, select m f.likelihood, [x], false, f.bits⟩, ?_, ?_, rfl, ?_⟩
  · rw [hm3]
    exact masked_ok f hf _ hm1 _
  · exact ⟨select_length _ _ _ hf.station, select_length _ _ _ hf.likelihood⟩
  · exact select_file f hf _ hm1 _ hm2

/-- A file with three stations, numbered from one, and four breaks, the likelihood of one of which is missing. -/
noncomputable def exampleFile : File :=
  ⟨[100, 200, 150, 300], [1, 1, 3, 3], [5, -128, 2, 100], .array [false, true, false, false], 8, [1, 0, 2], [10, 20, 30],
    [0, 190, 350]⟩

/-- Non-vacuity: the file is complete, and stations one and two can be read. -/
example : exampleFile.Complete ∧ exampleFile.mask ≠ .nomask ∧ (0 : Int) ≤ 2 ∧ (2 : Int) < exampleFile.feasibility.length :=
  ⟨⟨rfl, rfl, rfl⟩, by simp [exampleFile], by simp, by simp [exampleFile]⟩

/-- **C107**: the number of breaks of a file is that of the breaks which are read exactly if none of their likelihoods is missing. -/
theorem c107_count (f : File) (hf : f.Complete) (hm : f.mask ≠ .nomask) (b : Breaks) (hb : observations f none = .ok b) :
    fileCount f none = numberOfObservations b ↔ ∀ r ∈ f.rows, r.2 = false := by
  obtain ⟨b', h1, h2, h3, _, h5⟩ := c107_read f hf hm
  rw [hb] at h1
  cases h1
  have hlen : b.rows.length = b.time.length := by
    have := h2.station
    have := h2.likelihood
    rw [Breaks.rows, List.length_zip, List.length_zip]
    omega
  have e : numberOfObservations b = (f.rows.filter fun r => !r.2).length := by
    rw [numberOfObservations, h3, if_neg (by simp), ← hlen, h5, List.length_map]
  rw [e, fileCount, ← rows_length f hf, eq_comm, List.length_filter_eq_length_iff]
  simp

theorem sum_indicator (a : Int) (l : List Int) (hl : l.Nodup) (ha : a ∈ l) :
    (l.map fun s => if a == s then 1 else 0).sum = 1 := by
  induction l with
  | nil => simp at ha
  | cons b l ih =>
    obtain ⟨hb, hl'⟩ := List.nodup_cons.mp hl
    rw [List.map_cons, List.sum_cons]
    by_cases e : a = b
    · subst e
      rw [if_pos (by simp)]
      have : l.map (fun s => if a == s then 1 else 0) = l.map fun _ => 0 :=
        List.map_congr_left fun s h => by
          rw [if_neg]
          simp only [beq_iff_eq]
          rintro rfl
          exact hb h
      rw [this]; simp
    · rw [if_neg (by simpa using e), ih hl' ((List.mem_cons.mp ha).resolve_left e)]

/-- **C107**: the number of breaks of one station of a file is the number of rows with this station, and the numbers of all stations
add up to the number of breaks. -/
theorem c107_file_station (f : File) (hf : f.Complete) :
    (∀ s, fileCount f (some s) = (f.rows.filter fun r => r.1.2.1 == s).length) ∧
    ∀ l : List Int, l.Nodup → (∀ s ∈ f.station, s ∈ l) → (l.map fun s => fileCount f (some s)).sum = fileCount f none := by
  have h1 := hf.station
  have h2 := hf.likelihood
  have h3 := hf.missing
  have hst : f.rows.map (fun r => r.1.2.1) = f.station := by
    have e : (fun r : Row × Bool => r.1.2.1) = Prod.fst ∘ Prod.snd ∘ Prod.fst := rfl
    rw [e, ← List.map_map, ← List.map_map, File.rows, List.map_fst_zip, List.map_snd_zip, List.map_fst_zip]
    · omega
    · rw [List.length_zip]; omega
    · rw [List.length_zip, List.length_zip]; omega
  refine ⟨fun s => ?_, fun l hl hs => ?_⟩
  · rw [fileCount, ← hst, List.countP_map, List.countP_eq_length_filter]
    rfl
  · simp only [fileCount]
    rw [← h1]
    clear h1 h2 h3 hst
    generalize f.station = st at hs
    induction st with
    | nil => simp
    | cons a st ih =>
      have ih := ih (fun s h => hs s (by simp [h]))
      have e : (l.map fun s => (a :: st).countP fun x => x == s)
          = l.map fun s => (st.countP fun x => x == s) + if a == s then 1 else 0 := by
        refine List.map_congr_left fun s _ => ?_
        rw [List.countP_cons]
      have h1 := sum_indicator a l hl (hs a (by simp))
      rw [e, List.sum_map_add, ih, h1, List.length_cons]

/-- Non-vacuity: stations of the file above. -/
example : fileCount exampleFile (some 3) = 2 ∧ (∀ s ∈ exampleFile.station, s ∈ [(1 : Int), 2, 3]) := by
  refine ⟨rfl, ?_⟩
  intro s hs
  simp only [exampleFile, List.mem_cons, List.not_mem_nil, or_false] at hs ⊢
  omega

/-- **C107 violated**: the count of a file includes breaks which are not read. -/
theorem c107_count_violated : ∃ (f : File) (b : Breaks), f.Complete ∧ observations f none = .ok b ∧
    numberOfObservations b = 3 ∧ fileCount f none = 4 := by
  refine ⟨exampleFile, ⟨[100, 150, 300], [1, 3, 3], [5, 2, 100], [1, 0, 2], false, 8⟩, ⟨rfl, rfl, rfl⟩, rfl, rfl, rfl⟩

/-- **C107 violated**: where likelihoods come as masked array with nothing masked, the arrays get a dimension too many; any cut-off
which keeps a break fails, and there seems to be one break. -/
theorem c107_nomask_violated (f : File) (hf : f.Complete) (hm : f.mask = .nomask) (threshold decay : ℝ) (l : Int)
    (hl : l ∈ f.likelihood) (ht : threshold ≤ l) :
    ∃ b, observations f none = .ok b ∧ numberOfObservations b = 1 ∧ fileCount f none = f.time.length ∧
      applyPolicy "HARD_CUTOFF" threshold decay b = .error .valueError := by
  classical
  refine ⟨⟨f.time, f.station, f.likelihood, f.feasibility, true, f.bits⟩, ?_, rfl, rfl, ?_⟩
  · unfold observations likelihoodMask
    rw [hm]
  · rw [applyPolicy, if_pos rfl, basePolicy, keep]
    dsimp only
    rw [if_pos rfl, if_neg]
    obtain ⟨i, hi, rfl⟩ := List.mem_iff_getElem.1 hl
    intro h0
    have hmem : i ∈ argwhere (f.likelihood.map fun (l : Int) => decide (threshold ≤ (l : ℝ))) := by
      rw [argwhere, List.mem_filter, List.mem_range, List.length_map]
      refine ⟨hi, ?_⟩
      rw [List.getElem?_map, List.getElem?_eq_getElem hi]
      simpa using ht
    rw [List.length_eq_zero_iff.1 h0] at hmem
    simp at hmem

/-- Non-vacuity: such a file. -/
example : ∃ f : File, f.Complete ∧ f.mask = .nomask ∧ 7 ∈ f.likelihood :=
  ⟨⟨[100], [1], [7], .nomask, 8, [1], [10], [0]⟩, ⟨rfl, rfl, rfl⟩, rfl, by simp⟩

/-- **C107 violated**: stations are numbered from one, but the feasibility of detection of a station is looked up with the same number
counted from zero: it is that of the next station, and the last station cannot be read. -/
theorem c107_feasibility_violated :
    (∀ (f : File) (s : Nat) (b : Breaks) (x : Int), f.Complete → f.feasibility[s]? = some x → observations f (some s) = .ok b →
      b.feasibility = [x]) ∧
    (∀ (f : File), f.Complete → observations f (some f.feasibility.length) = .error .indexError) := by
  constructor
  · intro f s b x hf hx hb
    have hlt := (List.getElem?_eq_some_iff.1 hx).1
    have hitem : item f.feasibility (s : Int) = .ok x := by
      unfold item
      rw [if_neg (by omega), Int.toNat_natCast, hx]
      exact if_neg (by omega)
    unfold observations at hb
    dsimp only at hb
    rw [hitem] at hb
    dsimp only at hb
    have hmk : ∀ m, masked f m [x] = .ok b → b.feasibility = [x] := by
      intro m h
      unfold masked at h
      split at h
      · cases h; rfl
      · cases h
      · cases h
      · cases h
    split at hb
    · exact hmk _ hb
    · split at hb
      · cases hb
      · exact hmk _ hb
  · intro f _
    have hitem : item f.feasibility (f.feasibility.length : Int) = .error .indexError := by
      unfold item
      rw [if_neg (by omega), Int.toNat_natCast, List.getElem?_eq_none (le_refl _)]
    unfold observations
    dsimp only
    rw [hitem]

/-- Non-vacuity: the first station is given the value of the second. -/
example : ∃ b, observations exampleFile (some (1 : Nat)) = .ok b ∧ exampleFile.feasibility[1]? = some 0 ∧
    exampleFile.feasibility[0]? = some 1 := ⟨⟨[100], [1], [5], [0], false, 8⟩, rfl, rfl, rfl⟩

/-- **C107**: the lookup of stations has every station with its latitude and its longitude, shifted by a full circle into
`[-180, 180)`. -/
theorem c107_lookup (f : File) (h : f.latitude.length = f.longitude.length) (hr : ∀ x ∈ f.longitude, -180 ≤ x ∧ x < 540) :
    ∃ lookup, locationLookup f = .ok lookup ∧ lookup.length = f.latitude.length ∧
      ∀ (i : Nat) (lat lon : ℝ), f.latitude[i]? = some lat → f.longitude[i]? = some lon → ∃ lon', lookup[i]? = some (lat, lon') ∧
        -180 ≤ lon' ∧ lon' < 180 ∧ (lon' = lon ∨ lon' = lon - 360) := by
  refine ⟨_, if_pos h, by rw [List.length_zip, List.length_map, h, Nat.min_self], ?_⟩
  intro i lat lon h1 h2
  refine ⟨locationLookup.wrapLongitudes lon, List.getElem?_zip_eq_some.2 ⟨h1, by rw [List.getElem?_map, h2]; rfl⟩, ?_⟩
  obtain ⟨h3, h4⟩ := hr lon (List.mem_of_getElem? h2)
  unfold locationLookup.wrapLongitudes
  split
  · exact ⟨by linarith, by linarith, .inr rfl⟩
  · exact ⟨h3, by linarith, .inl rfl⟩

/-- Non-vacuity. -/
example : exampleFile.latitude.length = exampleFile.longitude.length ∧ ∀ x ∈ exampleFile.longitude, -180 ≤ x ∧ x < 540 := by
  refine ⟨rfl, ?_⟩
  intro x hx
  simp only [exampleFile, List.mem_cons, List.not_mem_nil, or_false] at hx
  rcases hx with rfl | rfl | rfl <;> norm_num

/-! ### Policies -/

/-- The breaks with a condition on the likelihood. -/
def kept (b : Breaks) (p : Int → Bool) : Breaks :=
  ⟨select (b.likelihood.map p) b.time, select (b.likelihood.map p) b.station, select (b.likelihood.map p) b.likelihood,
    b.feasibility, b.wrapped, b.bits⟩

theorem keep_eq (b : Breaks) (hb : b.Aligned) (hw : b.wrapped = false) (p : Int → Bool) :
    keep b (b.likelihood.map p) = .ok (kept b p) := by
  have h1 := hb.station
  have h2 := hb.likelihood
  rw [keep, hw]
  rw [if_neg (by simp), gather_argwhere _ _ (by rw [List.length_map]; omega),
    gather_argwhere _ _ (by rw [List.length_map]; omega), gather_argwhere _ _ (by rw [List.length_map])]
  dsimp only
  rw [kept, hw]

/-- Keeping by a condition on the likelihood is a filter of the breaks. -/
theorem keep_ok (b : Breaks) (hb : b.Aligned) (hw : b.wrapped = false) (p : Int → Bool) :
    ∃ b', keep b (b.likelihood.map p) = .ok b' ∧ b'.Aligned ∧ b'.wrapped = false ∧ b'.bits = b.bits ∧
      b'.feasibility = b.feasibility ∧ b'.rows = b.rows.filter fun r => p r.2.2 :=
  ⟨kept b p, keep_eq b hb hw p, ⟨select_length _ _ _ hb.station, select_length _ _ _ hb.likelihood⟩, hw, rfl, rfl,
    select_rows p _ _ _ hb.station hb.likelihood⟩

/-- **C107**, cut-off: exactly the breaks with at least the given likelihood are kept, in order, with all their values. -/
theorem c107_cutoff (b : Breaks) (hb : b.Aligned) (hw : b.wrapped = false) (threshold decay : ℝ) :
    ∃ b', applyPolicy "HARD_CUTOFF" threshold decay b = .ok b' ∧ b'.Aligned ∧ b'.wrapped = false ∧
      b'.feasibility = b.feasibility ∧ b'.rows.Sublist b.rows ∧
      ∀ r, r ∈ b'.rows ↔ r ∈ b.rows ∧ threshold ≤ (r.2.2 : ℝ) := by
  classical
  obtain ⟨b', h1, h2, h3, _, h5, h6⟩ := keep_ok b hb hw fun (l : Int) => decide (threshold ≤ (l : ℝ))
  refine ⟨b', ?_, h2, h3, h5, ?_, ?_⟩
  · rw [applyPolicy, if_pos rfl, basePolicy]
    convert h1
  · rw [h6]; exact List.filter_sublist
  · intro r
    rw [h6, List.mem_filter, decide_eq_true_iff]

/-- The number of breaks which a cut-off keeps: no break is lost or doubled. -/
theorem c107_cutoff_rows (b : Breaks) (hb : b.Aligned) (hw : b.wrapped = false) (threshold decay : ℝ) (accept : Int → Bool)
    (ha : ∀ l, accept l = true ↔ threshold ≤ (l : ℝ)) (b' : Breaks)
    (h : applyPolicy "HARD_CUTOFF" threshold decay b = .ok b') : b'.rows = b.rows.filter fun r => accept r.2.2 := by
  classical
  obtain ⟨b'', h1, h2, h3, _, h5, h6⟩ := keep_ok b hb hw fun (l : Int) => decide (threshold ≤ (l : ℝ))
  have e : applyPolicy "HARD_CUTOFF" threshold decay b = .ok b'' := by
    rw [applyPolicy, if_pos rfl, basePolicy]
    convert h1
  rw [h] at e
  cases e
  rw [h6]
  apply List.filter_congr
  intro r _
  rw [Bool.eq_iff_iff, decide_eq_true_iff, ha]

theorem wrap_small (bits : Nat) (hb : 1 ≤ bits) (x : Int) (h1 : -2 ^ (bits - 1) ≤ x) (h2 : x < 2 ^ (bits - 1)) :
    wrap bits x = x := by
  unfold wrap
  have e : (2 : Int) ^ bits = 2 * 2 ^ (bits - 1) := by
    rw [← pow_succ']
    congr 1
    omega
  rw [Int.emod_eq_of_lt (by linarith) (by rw [e]; linarith)]
  ring

/-- For likelihoods between 0 and 127 the kernel is that of the distance from the largest likelihood, in 8 bits and more. -/
theorem kernel_eq (bits : Nat) (hb : 8 ≤ bits) (decay : ℝ) (l : Int) (h0 : 0 ≤ l) (h1 : l ≤ 127) :
    kernel bits decay l = Real.exp (-decay * (127 - l)) := by
  have hp : (128 : Int) ≤ 2 ^ (bits - 1) := by
    have : (2 : Int) ^ 7 ≤ 2 ^ (bits - 1) := pow_le_pow_right₀ (by norm_num) (by omega)
    linarith [this]
  unfold kernel
  rw [wrap_small bits (by omega) (l - 127) (by linarith) (by linarith)]
  have e : |l - 127| = 127 - l := by
    rw [abs_of_nonpos (by linarith)]
    ring
  rw [e, wrap_small bits (by omega) (127 - l) (by linarith) (by linarith)]
  push_cast
  ring_nf

/-- **C107**, kernel: for likelihoods between 0 and 127, a positive decay and a positive threshold, the kernel keeps exactly the breaks
which a cut-off at `127 + log(threshold) / decay` keeps. -/
theorem c107_kernel (b : Breaks) (hb : b.Aligned) (hw : b.wrapped = false) (hbits : 8 ≤ b.bits)
    (hl : ∀ l ∈ b.likelihood, 0 ≤ l ∧ l ≤ 127) (threshold decay : ℝ) (ht : 0 < threshold) (hd : 0 < decay) :
    ∃ b', applyPolicy "LAPLACE_KERNEL" threshold decay b = .ok b' ∧ b'.Aligned ∧ b'.wrapped = false ∧ b'.rows.Sublist b.rows ∧
      (∀ r, r ∈ b'.rows ↔ r ∈ b.rows ∧ 127 + Real.log threshold / decay ≤ (r.2.2 : ℝ)) ∧
      applyPolicy "HARD_CUTOFF" (127 + Real.log threshold / decay) 0 b = .ok b' := by
  classical
  have hiff : ∀ l ∈ b.likelihood, (threshold ≤ kernel b.bits decay l ↔ 127 + Real.log threshold / decay ≤ (l : ℝ)) := by
    intro l hmem
    obtain ⟨h0, h1⟩ := hl l hmem
    rw [kernel_eq b.bits hbits decay l h0 h1, ← Real.log_le_iff_le_exp ht]
    have : Real.log threshold = Real.log threshold / decay * decay := by field_simp
    constructor
    · intro h
      rw [this] at h
      have h' : Real.log threshold / decay * decay ≤ -(127 - (l : ℝ)) * decay := by linarith
      have := le_of_mul_le_mul_right h' hd
      linarith
    · intro h
      rw [this]
      have : Real.log threshold / decay ≤ -(127 - (l : ℝ)) := by linarith
      have := mul_le_mul_of_nonneg_right this (le_of_lt hd)
      linarith
  have hmask : (b.likelihood.map fun (l : Int) => decide (threshold ≤ kernel b.bits decay l)) =
      b.likelihood.map fun (l : Int) => decide (127 + Real.log threshold / decay ≤ (l : ℝ)) := by
    apply List.map_congr_left
    intro l hmem
    rw [decide_eq_decide]
    exact hiff l hmem
  obtain ⟨b', h1, h2, h3, h4, h5, h6⟩ := c107_cutoff b hb hw (127 + Real.log threshold / decay) 0
  refine ⟨b', ?_, h2, h3, h5, h6, h1⟩
  rw [← h1, applyPolicy, if_neg (by decide), if_pos rfl, applyPolicy, if_pos rfl, kernelPolicy, basePolicy]
  congr 1

/-- A collection which has been read. -/
def exampleBreaks : Breaks := ⟨[100, 150, 300], [1, 3, 3], [5, 2, 100], [1, 0, 2], false, 8⟩

/-- Non-vacuity of the theorems on policies. -/
example : exampleBreaks.Aligned ∧ exampleBreaks.wrapped = false ∧ 8 ≤ exampleBreaks.bits ∧
    ∀ l ∈ exampleBreaks.likelihood, 0 ≤ l ∧ l ≤ 127 := by
  refine ⟨⟨rfl, rfl⟩, rfl, by simp [exampleBreaks], ?_⟩
  intro l hl
  simp only [exampleBreaks, List.mem_cons, List.not_mem_nil, or_false] at hl
  rcases hl with rfl | rfl | rfl <;> norm_num

/-- **C107**: a threshold which is not positive keeps everything under the kernel. -/
theorem c107_kernel_all (b : Breaks) (hb : b.Aligned) (hw : b.wrapped = false) (threshold decay : ℝ) (ht : threshold ≤ 0) :
    ∃ b', applyPolicy "LAPLACE_KERNEL" threshold decay b = .ok b' ∧ b'.rows = b.rows := by
  classical
  obtain ⟨b', h1, h2, h3, _, h5, h6⟩ := keep_ok b hb hw fun (l : Int) => decide (threshold ≤ kernel b.bits decay l)
  refine ⟨b', ?_, ?_⟩
  · rw [applyPolicy, if_neg (by decide), if_pos rfl, kernelPolicy]
    convert h1
  · rw [h6, List.filter_eq_self]
    intro r _
    rw [decide_eq_true_iff]
    exact le_trans ht (le_of_lt (Real.exp_pos _))

/-- **C107 violated**: in 8 bits a likelihood of -1 has the largest kernel of all, above 1 for any positive decay: its distance from 127
overflows to a negative number.  A likelihood of -2 has the kernel of likelihood 0. -/
theorem c107_negative_violated (decay : ℝ) (hd : 0 < decay) :
    1 < kernel 8 decay (-1) ∧ (∀ l, 0 ≤ l → l ≤ 127 → kernel 8 decay l < kernel 8 decay (-1)) ∧
      kernel 8 decay (-2) = kernel 8 decay 0 := by
  have e1 : wrap 8 |wrap 8 (-1 - 127)| = -128 := by decide
  have hk : kernel 8 decay (-1) = Real.exp (128 * decay) := by
    unfold kernel
    rw [e1]
    congr 1
    push_cast
    ring
  have h1 : 1 < kernel 8 decay (-1) := by
    rw [hk]
    exact Real.one_lt_exp_iff.2 (by positivity)
  refine ⟨h1, fun l h0 h127 => lt_of_le_of_lt ?_ h1, ?_⟩
  · rw [kernel_eq 8 (le_refl _) decay l h0 h127, Real.exp_le_one_iff]
    have h2 : (l : ℝ) ≤ 127 := by exact_mod_cast h127
    have h3 : 0 ≤ decay * (127 - (l : ℝ)) := mul_nonneg (le_of_lt hd) (by linarith)
    linarith
  · have e2 : wrap 8 |wrap 8 (-2 - 127)| = wrap 8 |wrap 8 (0 - 127)| := by decide
    unfold kernel
    rw [e2]

/-- **C107**: any other name of a policy is refused. -/
theorem c107_codes (b : Breaks) (code : String) (threshold decay : ℝ) (h : code ≠ "HARD_CUTOFF" ∧ code ≠ "LAPLACE_KERNEL") :
    applyPolicy code threshold decay b = .error .valueError := by
  rw [applyPolicy, if_neg h.1, if_neg h.2]

/-- **C107**: cut-offs one after the other are the cut-off at the larger threshold. -/
theorem c107_twice (b b₁ b₂ b₃ : Breaks) (hb : b.Aligned) (hw : b.wrapped = false) (x y decay : ℝ)
    (h1 : applyPolicy "HARD_CUTOFF" x decay b = .ok b₁) (h2 : applyPolicy "HARD_CUTOFF" y decay b₁ = .ok b₂)
    (h3 : applyPolicy "HARD_CUTOFF" (max x y) decay b = .ok b₃) : b₂.rows = b₃.rows := by
  classical
  obtain ⟨b', e1, a1, w1, _⟩ := c107_cutoff b hb hw x decay
  rw [h1] at e1
  cases e1
  rw [c107_cutoff_rows b₁ a1 w1 y decay (fun l => decide (y ≤ (l : ℝ))) (by simp) b₂ h2,
    c107_cutoff_rows b hb hw x decay (fun l => decide (x ≤ (l : ℝ))) (by simp) b₁ h1,
    c107_cutoff_rows b hb hw (max x y) decay (fun l => decide (max x y ≤ (l : ℝ))) (by simp) b₃ h3, List.filter_filter]
  apply List.filter_congr
  intro r _
  rw [Bool.eq_iff_iff]
  simp [and_comm]

/-! ### Stations -/

/-- **C107**, stations: the list of stations is strictly increasing and has exactly the stations with breaks; its counts are the
numbers of breaks, which add up to all breaks. -/
theorem c107_stations (b : Breaks) :
    (stationsCollection b).Pairwise (· < ·) ∧ (∀ s, s ∈ stationsCollection b ↔ s ∈ b.station) ∧
      stationsCount b = (stationsCollection b).map (fun s => b.station.count s) ∧
      (stationsCount b).sum = b.station.length ∧ numberOfStations b = (stationsCount b).length := by
  obtain ⟨h1, h2, h3⟩ := runs_spec (sort b.station) (sort_sorted _)
  have hcount : stationsCount b = (stationsCollection b).map (fun s => b.station.count s) := by
    rw [stationsCount, stationsCollection, List.map_map]
    apply List.map_congr_left
    intro p hp
    rw [h3 p hp]
    exact (sort_perm b.station).count_eq _
  refine ⟨h1, fun s => ?_, hcount, ?_, ?_⟩
  · rw [stationsCollection, stationStatistics, h2, (sort_perm b.station).mem_iff]
  · rw [hcount]
    have hnd : (stationsCollection b).Nodup := h1.imp fun h => ne_of_lt h
    have hmem : ∀ s ∈ b.station, s ∈ stationsCollection b := by
      intro s hs
      rw [stationsCollection, stationStatistics, h2, (sort_perm b.station).mem_iff]
      exact hs
    generalize stationsCollection b = c at hnd hmem
    clear hcount h1 h2 h3
    generalize b.station = l at hmem
    induction l with
    | nil => simp
    | cons x l ih =>
      have ih' := ih fun s hs => hmem s (List.mem_cons_of_mem _ hs)
      have hx := hmem x List.mem_cons_self
      have : (c.map fun s => (x :: l).count s) = c.map fun s => l.count s + if x == s then 1 else 0 := by
        apply List.map_congr_left
        intro s _
        rw [List.count_cons]
      rw [this, List.sum_map_add, ih', List.length_cons]
      congr 1
      have e : (c.map fun s => if x == s then 1 else 0).sum = c.count x := by
        clear this ih' ih hmem hx hnd
        induction c with
        | nil => rfl
        | cons y c ih =>
          rw [List.map_cons, List.sum_cons, ih, List.count_cons, Nat.add_comm]
          congr 1
          by_cases hxy : x = y
          · subst hxy; simp
          · have hyx : y ≠ x := fun h => hxy h.symm
            simp [hxy, hyx]
      rw [e, List.count_eq_one_of_mem hnd hx]
  · rw [numberOfStations, stationsCollection, stationsCount, List.length_map, List.length_map]

theorem placesIn_single (stations : List Int) (s : Int) : placesIn stations [s] = argwhere (stations.map fun x => x == s) := by
  rw [placesIn, argwhere, List.length_map]
  apply List.filter_congr
  intro i hi
  rw [List.getElem?_map]
  match stations[i]? with
  | none => rfl
  | some v => by_cases h : v = s <;> simp [h]

/-- **C107**: the breaks of a station are the times of its breaks in order. -/
theorem c107_filtered (b : Breaks) (hb : b.Aligned) (s : Int) :
    ∃ times, filteredBreakPoints b s = .ok times ∧ times = ((b.rows.filter fun r => r.2.1 == s).map Prod.fst) ∧
      times.length = b.station.count s := by
  have h1 := hb.station
  have h2 := hb.likelihood
  have e1 : select (b.station.map fun x => x == s) b.time = (b.rows.filter fun r => r.2.1 == s).map Prod.fst := by
    have e2 : b.station.map (fun x => x == s) = b.rows.map fun r => r.2.1 == s := by
      have e3 : b.rows.map Prod.snd = b.station.zip b.likelihood :=
        List.map_snd_zip (by rw [List.length_zip]; omega)
      have e4 : (b.station.zip b.likelihood).map Prod.fst = b.station := List.map_fst_zip (by omega)
      have e5 : b.rows.map (fun r => r.2.1 == s) = (((b.rows.map Prod.snd).map Prod.fst).map fun x => x == s) := by
        rw [List.map_map, List.map_map]
        rfl
      rw [e5, e3, e4]
    have e6 : b.time = b.rows.map Prod.fst := (List.map_fst_zip (by rw [List.length_zip]; omega)).symm
    rw [e2, e6]
    generalize b.rows = l
    induction l with
    | nil => rfl
    | cons r l ih =>
      rw [List.map_cons, List.map_cons, select, List.filter_cons, ih]
      cases r.2.1 == s <;> rfl
  refine ⟨select (b.station.map fun x => x == s) b.time, ?_, e1, ?_⟩
  · rw [filteredBreakPoints, placesIn_single, gather_argwhere _ _ (by rw [List.length_map]; omega)]
  · rw [select_length _ b.time b.station h1.symm, select_map, ← List.countP_eq_length_filter]
    rfl

/-- Non-vacuity: the third station has the two last breaks. -/
example : exampleBreaks.Aligned ∧ exampleBreaks.station.count 3 = 2 := ⟨⟨rfl, rfl⟩, rfl⟩

/-! ### C++ -/

/-- **C107**, C++ and Python: for any aligned collection, stations, their counts, and the breaks of any station are the same. -/
theorem c107_cpp_stations (b : Breaks) (hb : b.Aligned) (s : Int) :
    let c : CppBreaks := ⟨b.time, b.station, b.likelihood⟩
    cppStations c = stationsCollection b ∧ cppCounts c = stationsCount b ∧
      ∃ times, cppFiltered c s = .ok times ∧ filteredBreakPoints b s = .ok times := by
  dsimp only
  have h1 : cppStations ⟨b.time, b.station, b.likelihood⟩ = stationsCollection b := by
    rw [cppStations, stationsCollection, stationStatistics]
    exact unique_runs _
  refine ⟨h1, ?_, select (b.station.map fun x => x == s) b.time, ?_, ?_⟩
  · rw [cppCounts, h1, (c107_stations b).2.2.1]
    rfl
  · rw [cppFiltered, cppFilteredFrom_ok _ _ _ _ (by dsimp only; rw [hb.station]; omega)]
    rfl
  · rw [filteredBreakPoints, placesIn_single, gather_argwhere _ _ (by rw [List.length_map]; exact hb.station)]

theorem cppReject_ok {α : Type} (c : CppBreaks) (hc : c.Aligned) (ds : List α) (hds : ds.length = c.time.length)
    (accept : α → Bool) : cppReject c ds accept =
      .ok ⟨select (ds.map accept) c.time, select (ds.map accept) c.station, select (ds.map accept) c.likelihood⟩ := by
  have h1 := hc.station
  have h2 := hc.likelihood
  unfold cppReject
  rw [rejectFrom_ok _ _ _ _ (by omega), rejectFrom_ok _ _ _ _ (by omega), rejectFrom_ok _ _ _ _ (by omega)]
  rfl

/-- **C107**, C++ and Python: for any aligned collection the policies keep the same breaks; for the kernel, where likelihoods are
between 0 and 127. -/
theorem c107_cpp_policies (b : Breaks) (hb : b.Aligned) (hw : b.wrapped = false) (threshold decay : ℝ) :
    let c : CppBreaks := ⟨b.time, b.station, b.likelihood⟩
    (∃ c' b', cppPolicy 0 threshold decay c = .ok c' ∧ applyPolicy "HARD_CUTOFF" threshold decay b = .ok b' ∧
      c' = ⟨b'.time, b'.station, b'.likelihood⟩) ∧
    (8 ≤ b.bits → (∀ l ∈ b.likelihood, 0 ≤ l ∧ l ≤ 127) →
      ∃ c' b', cppPolicy 1 threshold decay c = .ok c' ∧ applyPolicy "LAPLACE_KERNEL" threshold decay b = .ok b' ∧
        c' = ⟨b'.time, b'.station, b'.likelihood⟩) := by
  classical
  have h1 := hb.station
  have h2 := hb.likelihood
  constructor
  · refine ⟨_, kept b fun (l : Int) => decide (threshold ≤ (l : ℝ)), ?_, ?_, rfl⟩
    · rw [cppPolicy, if_pos rfl, cppBasePolicy, cppReject_ok _ ⟨h1, h2⟩ _ (by dsimp only; omega)]
      congr
    · rw [applyPolicy, if_pos rfl, basePolicy]
      have := keep_eq b hb hw fun (l : Int) => decide (threshold ≤ (l : ℝ))
      convert this
  · intro hbits hl
    have hmask : ((b.likelihood.map fun (l : Int) => Real.exp (-((|l - 127| : Int) : ℝ) * decay)).map fun d =>
        decide (threshold ≤ d)) = b.likelihood.map fun (l : Int) => decide (threshold ≤ kernel b.bits decay l) := by
      rw [List.map_map]
      apply List.map_congr_left
      intro l hmem
      obtain ⟨h0, h127⟩ := hl l hmem
      rw [Function.comp_apply, decide_eq_decide, kernel_eq b.bits hbits decay l h0 h127, abs_of_nonpos (by linarith)]
      push_cast
      ring_nf
    refine ⟨_, kept b fun (l : Int) => decide (threshold ≤ kernel b.bits decay l), ?_, ?_, rfl⟩
    · rw [cppPolicy, if_neg (by decide), if_pos rfl, cppKernelPolicy,
        cppReject_ok _ ⟨h1, h2⟩ _ (by rw [List.length_map]; dsimp only; omega)]
      rw [kept, ← hmask]
    · rw [applyPolicy, if_neg (by decide), if_pos rfl, kernelPolicy]
      have := keep_eq b hb hw fun (l : Int) => decide (threshold ≤ kernel b.bits decay l)
      convert this

/-- **C107**: other codes of policies are refused in C++. -/
theorem c107_cpp_codes (c : CppBreaks) (code : Int) (threshold decay : ℝ) (h : code ≠ 0 ∧ code ≠ 1) :
    cppPolicy code threshold decay c = .error .runtimeError := by
  rw [cppPolicy, if_neg h.1, if_neg h.2]

/-- Missing likelihoods are stored as a fill value, and all others are larger (definitions.py 535-540). -/
def Filled (f : File) (fill : Int) : Prop := ∀ r ∈ f.rows, (r.2 = true → r.1.2.2 = fill) ∧ (r.2 = false → fill < r.1.2.2)

/-- **C107**, from the file to the breaks kept: the C++ reader keeps breaks without likelihood, with the fill value in its place, but
after a cut-off above the fill value both programs have the same breaks. -/
theorem c107_cpp_file (f : File) (hf : f.Complete) (hm : f.mask ≠ .nomask) (h8 : f.bits = 8) (fill : Int) (hfill : Filled f fill)
    (threshold decay : ℝ) (ht : (fill : ℝ) < threshold) :
    ∃ c c' b b', cppObservation f = .ok c ∧ cppPolicy 0 threshold decay c = .ok c' ∧ observations f none = .ok b ∧
      applyPolicy "HARD_CUTOFF" threshold decay b = .ok b' ∧ c'.rows = b'.rows := by
  classical
  obtain ⟨b, h1, h2, h3, _, h5⟩ := c107_read f hf hm
  obtain ⟨b', h6, _⟩ := c107_cutoff b h2 h3 threshold decay
  have hc : (CppBreaks.mk f.time f.station f.likelihood).Aligned := ⟨hf.station, hf.likelihood⟩
  have e : cppPolicy 0 threshold decay ⟨f.time, f.station, f.likelihood⟩ = .ok
      ⟨select (f.likelihood.map fun (l : Int) => decide (threshold ≤ (l : ℝ))) f.time,
        select (f.likelihood.map fun (l : Int) => decide (threshold ≤ (l : ℝ))) f.station,
        select (f.likelihood.map fun (l : Int) => decide (threshold ≤ (l : ℝ))) f.likelihood⟩ := by
    rw [cppPolicy, if_pos rfl, cppBasePolicy, cppReject_ok _ hc _ (by dsimp only; exact hf.likelihood)]
  refine ⟨⟨f.time, f.station, f.likelihood⟩, _, b, b', if_pos (.inl h8), e, h1, h6, ?_⟩
  rw [c107_cutoff_rows b h2 h3 threshold decay (fun l => decide (threshold ≤ (l : ℝ))) (by simp) b' h6, h5, CppBreaks.rows]
  dsimp only
  rw [select_rows (fun (l : Int) => decide (threshold ≤ (l : ℝ))) _ _ _ hf.station hf.likelihood]
  have e2 : f.time.zip (f.station.zip f.likelihood) = f.rows.map Prod.fst := by
    have h1 := hf.station
    have h2 := hf.likelihood
    have h3 := hf.missing
    rw [File.rows, List.map_fst_zip]
    rw [List.length_zip, List.length_zip]
    omega
  rw [e2, List.filter_map, List.filter_map, List.filter_filter]
  congr 1
  apply List.filter_congr
  intro r hr
  obtain ⟨h7, h8⟩ := hfill r hr
  cases hr2 : r.2 with
  | false => simp
  | true =>
    simp only [Function.comp_apply, h7 hr2, Bool.not_true, Bool.and_false, decide_eq_false_iff_not, not_le]
    exact ht

/-- Non-vacuity. -/
example : exampleFile.Complete ∧ exampleFile.mask ≠ .nomask ∧ exampleFile.bits = 8 ∧ Filled exampleFile (-128) := by
  refine ⟨⟨rfl, rfl, rfl⟩, by simp [exampleFile], rfl, ?_⟩
  intro r hr
  simp only [File.rows, File.missing, exampleFile, List.zip_cons_cons, List.zip_nil_right, List.mem_cons, List.not_mem_nil,
    or_false] at hr
  rcases hr with rfl | rfl | rfl | rfl <;> simp

/-- **C107 violated**: without a cut-off the C++ program has breaks which the Python program does not have, and with the kernel for any
threshold up to `exp(-255 decay)`. -/
theorem c107_cpp_missing_violated : ∃ (f : File) (c : CppBreaks) (b : Breaks), f.Complete ∧ cppObservation f = .ok c ∧
    observations f none = .ok b ∧ c.rows.length = 4 ∧ b.rows.length = 3 ∧ (200, 1, -128) ∈ c.rows ∧ (200, 1, -128) ∉ b.rows :=
  ⟨exampleFile, ⟨[100, 200, 150, 300], [1, 1, 3, 3], [5, -128, 2, 100]⟩, exampleBreaks, ⟨rfl, rfl, rfl⟩, if_pos (.inl rfl), rfl, rfl,
    rfl, by decide, by decide⟩

/-- **C107 violated**: the C++ reader overruns its buffer for files with likelihoods of 32 bits, which is what the Python definitions say
(definitions.py 535-540); and its lookup of locations uses memory it does not own for every file with stations. -/
theorem c107_cpp_memory_violated :
    (∀ f : File, f.bits = 32 → f.time ≠ [] → cppObservation f = .error .undefined) ∧
    (∀ f : File, f.latitude.length = f.longitude.length → f.latitude ≠ [] → cppLookup f = .error .undefined ∧
      ∃ lookup, locationLookup f = .ok lookup) := by
  constructor
  · intro f h1 h2
    refine if_neg ?_
    rintro (h | h)
    · omega
    · exact h2 (List.length_eq_zero_iff.1 h)
  · intro f h1 h2
    refine ⟨?_, _, if_pos h1⟩
    rw [cppLookup, if_neg (by simpa using h1), if_pos]
    exact List.length_pos_iff.2 h2

end Verif.Eustace.BreakPoints
