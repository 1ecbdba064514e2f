import Verif.Eustace.StationFiles.Model
import Verif.Eustace.Format.Verify

/-! C164: files of station data and their verification. -/
namespace Verif.Eustace.StationFiles
open Verif Verif.Float32 Verif.Eustace.Format

/-! ### The verdict -/

/-- What is expected can only be met by itself: it is no list of equal numbers. -/
def Proper : Option AttrValue → Prop
  | some (.numbers l) => ∃ x ∈ l, ∃ y ∈ l, x ≠ y
  | _ => True

theorem zip_eq {l k : List ℚ} (h : l.length = k.length) : (l.zip k).all (fun p => decide (p.1 = p.2)) = true ↔ k = l := by
  induction l generalizing k with
  | nil => cases k <;> simp at h ⊢
  | cons a t ih =>
    cases k with
    | nil => simp at h
    | cons b r =>
      have := ih (k := r) (by simpa using h)
      simp only [List.zip_cons_cons, List.all_cons, Bool.and_eq_true, decide_eq_true_eq, this, List.cons.injEq]
      exact ⟨fun ⟨a, b⟩ => ⟨a.symm, b⟩, fun ⟨a, b⟩ => ⟨a.symm, b⟩⟩

theorem compareList_true {l : List ℚ} (hp : ∃ x ∈ l, ∃ y ∈ l, x ≠ y) (a : AttrValue) :
    compareList l a = .ok true ↔ a = .numbers l := by
  obtain ⟨x, hx, y, hy, hxy⟩ := hp
  have hall : ∀ q : ℚ, ¬ l.all (fun x => decide (x = q)) = true := by
    intro q h
    rw [List.all_eq_true] at h
    have h1 := of_decide_eq_true (h x hx)
    have h2 := of_decide_eq_true (h y hy)
    exact hxy (h1.trans h2.symm)
  cases a with
  | text s => simp [compareList]
  | number q =>
    simp only [compareList, Except.ok.injEq, reduceCtorEq, iff_false]
    exact hall q
  | numbers k =>
    simp only [compareList, pairs, AttrValue.numbers.injEq]
    split
    · rename_i e
      split at e
      · cases e
      · rename_i hl
        constructor
        · intro h; cases h
        · intro h; exact absurd (by rw [h]) hl
    · rename_i r e
      split at e
      · rename_i hl
        injection e with e
        subst e
        rw [Except.ok.injEq]
        exact zip_eq hl
      · rename_i hl
        have hne : ¬ k = l := fun h => hl (by rw [h])
        simp only [hne, iff_false, Except.ok.injEq]
        split at e
        · rename_i q
          injection e with e
          subst e
          rw [List.all_map]
          exact hall q
        · simp only [List.mem_singleton] at hx hy
          exact absurd (hx.trans hy.symm) hxy
        · cases e

theorem compare_true {a : Option AttrValue} {e : AttrValue} (hp : Proper (some e)) :
    compare a e = .ok true ↔ a = some e := by
  cases a with
  | none => simp [compare]
  | some a =>
    cases e with
    | numbers l =>
      rw [Option.some.injEq]
      exact compareList_true hp a
    | text s => simp [compare]
    | number q => simp [compare]

/-- All outcomes of a result. -/
def Passes (r : Except PyErr (List Bool)) : Prop := ∃ l, r = .ok l ∧ l.all id = true

theorem passes_checkMetadata {v : NcVar} {key : String} {e : Option AttrValue} (hp : Proper e) :
    Passes (checkMetadata v key e) ↔ MetaOk v key e := by
  cases e with
  | none => simp [Passes, checkMetadata, MetaOk, Option.ne_none_iff_exists']
  | some e =>
    unfold Passes checkMetadata MetaOk
    dsimp only
    rw [← compare_true hp]
    cases h : compare (v.attrs key) e with
    | error x => simp
    | ok b =>
      constructor
      · rintro ⟨l, hl, ha⟩
        injection hl with hl
        subst hl
        simp only [List.all_cons, List.all_nil, id, Bool.and_true, Bool.and_eq_true] at ha
        rw [ha.2]
      · intro hb
        injection hb with hb
        subst hb
        have := (compare_true hp).1 h
        exact ⟨_, rfl, by simp [this]⟩

theorem passes_checkAllMetadata {v : NcVar} {l : List (String × Option AttrValue)} (hp : ∀ m ∈ l, Proper m.2) :
    Passes (checkAllMetadata v l) ↔ ∀ m ∈ l, MetaOk v m.1 m.2 := by
  induction l with
  | nil => simp [Passes, checkAllMetadata]
  | cons m t ih =>
    have h1 := passes_checkMetadata (v := v) (key := m.1) (hp m List.mem_cons_self)
    have h2 := ih fun m hm => hp m (List.mem_cons_of_mem _ hm)
    rw [List.forall_mem_cons, ← h1, ← h2]
    simp only [checkAllMetadata]
    cases checkMetadata v m.1 m.2 with
    | error e => simp [Passes]
    | ok a =>
      cases checkAllMetadata v t with
      | error e => simp [Passes]
      | ok b => simp [Passes]

theorem passes_checkVariable {f : File} {s : VarSpec} (hp : ∀ m ∈ s.metadata, Proper m.2) :
    Passes (checkVariable f s) ↔
      ∀ v, f.vars s.name = some v → (∀ t, s.dtype = some t → v.dtype = t) ∧ ∀ m ∈ s.metadata, MetaOk v m.1 m.2 := by
  unfold checkVariable
  cases hv : f.vars s.name with
  | none => simp [Passes]
  | some v =>
    have h1 := passes_checkAllMetadata (v := v) hp
    have : (∀ w, some v = some w → (∀ t, s.dtype = some t → w.dtype = t) ∧ ∀ m ∈ s.metadata, MetaOk w m.1 m.2) ↔
        (∀ t, s.dtype = some t → v.dtype = t) ∧ Passes (checkAllMetadata v s.metadata) := by
      rw [h1]
      constructor
      · intro h; exact h v rfl
      · intro h w hw
        injection hw with hw
        subst hw
        exact h
    rw [this]
    dsimp only
    cases checkAllMetadata v s.metadata with
    | error e => simp [Passes]
    | ok l => cases s.dtype <;> simp [Passes]

theorem passes_checkEach {f : File} {l : List VarSpec} (hp : ∀ s ∈ l, ∀ m ∈ s.metadata, Proper m.2) :
    Passes (checkEach f l) ↔ ∀ s ∈ l, ∀ v, f.vars s.name = some v →
      (∀ t, s.dtype = some t → v.dtype = t) ∧ ∀ m ∈ s.metadata, MetaOk v m.1 m.2 := by
  induction l with
  | nil => simp [Passes, checkEach]
  | cons s t ih =>
    rw [List.forall_mem_cons, ← passes_checkVariable (hp s List.mem_cons_self),
      ← ih fun s hs => hp s (List.mem_cons_of_mem _ hs)]
    simp only [checkEach]
    cases checkVariable f s with
    | error e => simp [Passes]
    | ok a =>
      cases checkEach f t with
      | error e => simp [Passes]
      | ok b => simp [Passes]

theorem passes_checkFile {logged : List Bool} {file : Option File} {spec : FileSpec}
    (hp : ∀ s ∈ spec.vars, ∀ m ∈ s.metadata, Proper m.2) :
    Passes (checkFile logged file spec) ↔ (logged.all id = true) ∧ ∃ f, file = some f ∧ Conforms f spec := by
  cases file with
  | none => simp [Passes, checkFile]
  | some f =>
    have h1 := passes_checkEach (f := f) hp
    have hc : (∃ g, some f = some g ∧ Conforms g spec) ↔ Conforms f spec :=
      ⟨fun ⟨g, e, h⟩ => by injection e with e; rw [e]; exact h, fun h => ⟨f, rfl, h⟩⟩
    rw [hc]
    have key : Conforms f spec ↔ (spec.attributes.flatMap (fun a => checkAttribute f a.1 a.2)).all id = true ∧
        spec.vars.any (fun s => (f.vars s.name).isSome) = true ∧ Passes (checkEach f spec.vars) ∧
        (spec.dimensions.map (fun d => checkDimension f d.1 d.2)).all id = true := by
      rw [h1, List.all_flatMap, List.all_map]
      constructor
      · rintro ⟨a, b, c, d, e⟩
        refine ⟨List.all_eq_true.2 fun x hx => (all_checkAttribute _ _ _).2 (a x hx), ?_,
          fun s hs v hv => ⟨c s hs v hv, d s hs v hv⟩,
          List.all_eq_true.2 fun x hx => (checkDimension_iff _ _ _).2 (e x hx)⟩
        obtain ⟨s, hs, hv⟩ := b
        exact List.any_eq_true.2 ⟨s, hs, Option.isSome_iff_exists.2 hv⟩
      · rintro ⟨a, b, c, d⟩
        refine ⟨fun x hx => (all_checkAttribute _ _ _).1 (List.all_eq_true.1 a x hx), ?_,
          fun s hs v hv => (c s hs v hv).1, fun s hs v hv => (c s hs v hv).2,
          fun x hx => (checkDimension_iff _ _ _).1 (List.all_eq_true.1 d x hx)⟩
        obtain ⟨s, hs, hv⟩ := List.any_eq_true.1 b
        exact ⟨s, hs, Option.isSome_iff_exists.1 hv⟩
    rw [key]
    unfold checkFile
    dsimp only
    cases checkEach f spec.vars with
    | error e => simp [Passes]
    | ok l =>
      simp only [Passes, Except.ok.injEq, exists_eq_left', List.all_append, List.all_cons, List.all_nil, Bool.and_eq_true,
        Bool.and_true, id]
      tauto

theorem proper_temperature : ∀ s ∈ specTemperatureFile.vars, ∀ m ∈ s.metadata, Proper m.2 := by
  intro s hs m hm
  simp only [specTemperatureFile, specTemperature, List.mem_cons, List.not_mem_nil, or_false] at hs
  rcases hs with rfl | rfl | rfl | rfl | rfl | rfl | rfl | rfl | rfl <;>
    simp only [List.mem_cons, List.not_mem_nil, or_false] at hm <;>
    rcases hm with rfl | rfl | rfl | rfl | rfl <;> trivial

theorem proper_status : ∀ s ∈ specStatusFile.vars, ∀ m ∈ s.metadata, Proper m.2 := by
  intro s hs m hm
  have two : ∃ x ∈ ([0, 2] : List ℚ), ∃ y ∈ ([0, 2] : List ℚ), x ≠ y := ⟨0, by simp, 2, by simp, by norm_num⟩
  have three : ∃ x ∈ ([0, 1, 2] : List ℚ), ∃ y ∈ ([0, 1, 2] : List ℚ), x ≠ y := ⟨0, by simp, 2, by simp, by norm_num⟩
  simp only [specStatusFile, specDetectionQc, List.mem_cons, List.not_mem_nil, or_false] at hs
  rcases hs with rfl | rfl | rfl | rfl | rfl | rfl | rfl | rfl | rfl | rfl | rfl <;>
    simp only [List.mem_cons, List.not_mem_nil, or_false] at hm <;>
    rcases hm with rfl | rfl | rfl | rfl | rfl <;> first | trivial | exact two | exact three

/-- C164: the program ends with status 0 if and only if both files are there and conform to their specifications. -/
theorem c164_verdict (disk : Disk) (namePrefix : Text) : exitStatus disk namePrefix = 0 ↔ namePrefix ≠ [] ∧
    ∃ t s, disk (namePrefix ++ "_temperature.nc".toList) = some t ∧ disk (namePrefix ++ "_status.nc".toList) = some s ∧
      Conforms t specTemperatureFile ∧ Conforms s specStatusFile := by
  have h0 : exitStatus disk namePrefix = 0 ↔ verifyStations disk namePrefix = .ok true := by
    unfold exitStatus
    split
    · rename_i h; simpa using h
    · rename_i h; simpa using h
  have h1 : verifyStations disk namePrefix = .ok true ↔ ∃ l,
      checkFile [] (openFile disk namePrefix temperatureSuffix) specTemperatureFile = .ok l ∧
        Passes (checkFile l (openFile disk namePrefix statusSuffix) specStatusFile) := by
    unfold verifyStations
    cases checkFile [] (openFile disk namePrefix temperatureSuffix) specTemperatureFile with
    | error e => simp
    | ok l =>
      simp only [Except.ok.injEq, exists_eq_left']
      cases checkFile l (openFile disk namePrefix statusSuffix) specStatusFile with
      | error e => simp [Passes]
      | ok r => simp [Passes, hasPassed]
  have h2 : (∃ l, checkFile [] (openFile disk namePrefix temperatureSuffix) specTemperatureFile = .ok l ∧
      Passes (checkFile l (openFile disk namePrefix statusSuffix) specStatusFile)) ↔
      (∃ f, openFile disk namePrefix temperatureSuffix = some f ∧ Conforms f specTemperatureFile) ∧
      (∃ f, openFile disk namePrefix statusSuffix = some f ∧ Conforms f specStatusFile) := by
    have ht := passes_checkFile (logged := []) (file := openFile disk namePrefix temperatureSuffix) proper_temperature
    simp only [List.all_nil, true_and] at ht
    rw [← ht]
    simp only [passes_checkFile proper_status]
    constructor
    · rintro ⟨l, h, ha, hs⟩
      exact ⟨⟨l, h, ha⟩, hs⟩
    · rintro ⟨⟨l, h, ha⟩, hs⟩
      exact ⟨l, h, ha, hs⟩
  rw [h0, h1, h2]
  unfold openFile temperatureSuffix statusSuffix
  by_cases hn : namePrefix = []
  · simp [hn]
  · simp only [hn, if_false, ne_eq, not_false_eq_true, true_and]
    constructor
    · rintro ⟨⟨t, ht, ct⟩, s, hs, cs⟩
      exact ⟨t, s, ht, hs, ct, cs⟩
    · rintro ⟨t, s, ht, hs, ct, cs⟩
      exact ⟨⟨t, ht, ct⟩, s, hs, cs⟩

end Verif.Eustace.StationFiles
