import Verif.Eustace.Format.Axes

/-! C122: verification of global fields. -/
namespace Verif.Eustace.Format
open Verif Verif.Float32 Spec

/-- An attribute is as expected. -/
def AttrOk (f : File) (key : String) : Expected → Prop
  | .exists => ∃ v, f.attrs key = some v
  | .text s => f.attrs key = some (.text s)

/-- An item of metadata is as expected, or there if anything will do. -/
def MetaOk (v : NcVar) (key : String) : Option AttrValue → Prop
  | none => ∃ a, v.attrs key = some a
  | some e => v.attrs key = some e

/-- A dimension is as expected. -/
def DimOk (f : File) (key : String) : Option ℕ → Prop
  | none => ∃ n, f.dims key = some ⟨n, true⟩
  | some n => f.dims key = some ⟨n, false⟩

/-- A file conforms to a specification: its attributes and dimensions are as expected, at least one of the variables of the
specification is in it, and those that are have the type and the metadata expected. -/
structure Conforms (f : File) (spec : FileSpec) : Prop where
  attributes : ∀ a ∈ spec.attributes, AttrOk f a.1 a.2
  recognised : ∃ s ∈ spec.vars, ∃ v, f.vars s.name = some v
  types : ∀ s ∈ spec.vars, ∀ v, f.vars s.name = some v → ∀ t, s.dtype = some t → v.dtype = t
  metadata : ∀ s ∈ spec.vars, ∀ v, f.vars s.name = some v → ∀ m ∈ s.metadata, MetaOk v m.1 m.2
  dimensions : ∀ d ∈ spec.dimensions, DimOk f d.1 d.2

theorem all_checkAttribute (f : File) (key : String) (e : Expected) :
    (checkAttribute f key e).all id = true ↔ AttrOk f key e := by
  cases e with
  | «exists» => simp [checkAttribute, AttrOk, Option.isSome_iff_exists]
  | text s =>
    unfold checkAttribute AttrOk
    cases h : f.attrs key <;> simp

theorem all_checkMetadata (v : NcVar) (key : String) (e : Option AttrValue) :
    (checkMetadata v key e).all id = true ↔ MetaOk v key e := by
  cases e with
  | none => simp [checkMetadata, MetaOk, Option.isSome_iff_exists]
  | some e =>
    simp only [checkMetadata, MetaOk, List.all_cons, List.all_nil, id, Bool.and_true, Bool.and_eq_true,
      decide_eq_true_eq, Option.isSome_iff_exists]
    exact ⟨fun h => h.2, fun h => ⟨⟨e, h⟩, h⟩⟩

theorem all_checkVariable (f : File) (s : VarSpec) : (checkVariable f s).all id = true ↔
    ∀ v, f.vars s.name = some v → (∀ t, s.dtype = some t → v.dtype = t) ∧ ∀ m ∈ s.metadata, MetaOk v m.1 m.2 := by
  unfold checkVariable
  cases hv : f.vars s.name with
  | none => simp
  | some v =>
    simp only [List.all_append, Bool.and_eq_true, List.all_flatMap]
    constructor
    · rintro ⟨h1, h2⟩ w hw
      injection hw with hw
      subst hw
      refine ⟨fun t ht => ?_, fun m hm => (all_checkMetadata _ _ _).1 (List.all_eq_true.1 h2 m hm)⟩
      rw [ht] at h1
      simpa using h1
    · intro h
      obtain ⟨h1, h2⟩ := h v rfl
      refine ⟨?_, List.all_eq_true.2 fun m hm => (all_checkMetadata _ _ _).2 (h2 m hm)⟩
      cases ht : s.dtype with
      | none => rfl
      | some t => simpa using h1 t ht

theorem checkDimension_iff (f : File) (key : String) (e : Option ℕ) : checkDimension f key e = true ↔ DimOk f key e := by
  unfold checkDimension
  cases h : f.dims key with
  | none => cases e <;> simp [DimOk, h]
  | some d =>
    obtain ⟨n, u⟩ := d
    cases e with
    | none =>
      simp only [DimOk, h, Option.some.injEq, Dim.mk.injEq]
      exact ⟨fun hu => ⟨n, rfl, hu⟩, fun ⟨_, _, hu⟩ => hu⟩
    | some m =>
      simp only [DimOk, h, Option.some.injEq, Dim.mk.injEq, Bool.and_eq_true, Bool.not_eq_true', decide_eq_true_eq]
      exact ⟨fun ⟨a, b⟩ => ⟨b, a⟩, fun ⟨a, b⟩ => ⟨b, a⟩⟩

/-- C122: a file passes if and only if it conforms, when nothing has failed before. -/
theorem c122_verdict (f : File) (spec : FileSpec) (logged : List Bool) :
    hasPassed (checkFile logged (some f) spec) = true ↔ (∀ b ∈ logged, b = true) ∧ Conforms f spec := by
  have hl : logged.all id = true ↔ ∀ b ∈ logged, b = true := by simp [List.all_eq_true]
  simp only [hasPassed, checkFile, List.all_append, Bool.and_eq_true, List.all_cons, List.all_nil, List.all_flatMap, hl,
    checkVariables, List.all_map, id, Bool.and_true]
  constructor
  · rintro ⟨⟨⟨h0, h1⟩, h2, h3⟩, h4⟩
    refine ⟨h0, ?_, ?_, ?_, ?_, ?_⟩
    · intro a ha
      exact (all_checkAttribute _ _ _).1 (List.all_eq_true.1 h1 a ha)
    · obtain ⟨s, hs, hv⟩ := List.any_eq_true.1 h2
      exact ⟨s, hs, Option.isSome_iff_exists.1 hv⟩
    · intro s hs v hv
      exact ((all_checkVariable _ _).1 (List.all_eq_true.1 h3 s hs) v hv).1
    · intro s hs v hv
      exact ((all_checkVariable _ _).1 (List.all_eq_true.1 h3 s hs) v hv).2
    · intro d hd
      exact (checkDimension_iff _ _ _).1 (List.all_eq_true.1 h4 d hd)
  · rintro ⟨h0, h1, h2, h3, h4, h5⟩
    refine ⟨⟨⟨h0, ?_⟩, ?_, ?_⟩, ?_⟩
    · exact List.all_eq_true.2 fun a ha => (all_checkAttribute _ _ _).2 (h1 a ha)
    · obtain ⟨s, hs, hv⟩ := h2
      exact List.any_eq_true.2 ⟨s, hs, Option.isSome_iff_exists.2 hv⟩
    · exact List.all_eq_true.2 fun s hs => (all_checkVariable _ _).2 fun v hv => ⟨h3 s hs v hv, h4 s hs v hv⟩
    · exact List.all_eq_true.2 fun d hd => (checkDimension_iff _ _ _).2 (h5 d hd)

/-- C122: a file which cannot be opened does not pass. -/
theorem c122_unopened (logged : List Bool) : (verifyGlobalField logged none).2 = false := by
  simp [verifyGlobalField, checkFile, hasPassed]

/-! ### The temperatures -/

theorem metadata_longName (v : OutVar) : v.metadata "long_name" = v.longName.map (fun s => .text (String.ofList s)) := by
  simp [OutVar.metadata]

theorem fromTemplate_longName {base : Template} {name : String} {k : Keywords} {v : OutVar}
    (h : fromTemplate base name k = .ok v) : longNameOf base k = .ok v.longName := by
  unfold fromTemplate at h
  split at h
  · cases h
  · rename_i e
    split at h
    · injection h with h; subst h; exact e
    · cases h

/-- What the specification asks of a temperature. -/
structure TemperatureOk (v : OutVar) (longName method : String) : Prop where
  dtype : v.dtype = .int16
  standard : v.metadata "standard_name" = some (.text "air_temperature")
  long : v.metadata "long_name" = some (.text longName)
  units : v.metadata "units" = some (.text "K")
  method : v.metadata "cell_methods" = some (.text method)

theorem temperatureOk {name q m long : String} {v : OutVar}
    (h : fromTemplate templateTemperature name (quantityOver q m) = .ok v)
    (hl : longNameOf templateTemperature (quantityOver q m) = .ok (some long.toList)) : TemperatureOk v long m := by
  have hm : ∀ key, key ≠ "quantity" → key ≠ "cell_methods" → v.members key = templateTemperature.members key := by
    intro key h1 h2
    refine fromTemplate_members h fun a ha => ?_
    simp only [quantityOver, List.mem_cons, List.not_mem_nil, or_false] at ha
    rcases ha with rfl | rfl
    · exact fun e => h1 e.symm
    · exact fun e => h2 e.symm
  refine ⟨(fromTemplate_eq h).2.1, ?_, ?_, ?_, ?_⟩
  · rw [metadata_members _ (by decide), hm _ (by decide) (by decide)]
    simp [templateTemperature, packed, Keywords.get]
  · rw [metadata_longName]
    have := fromTemplate_longName h
    rw [hl] at this
    injection this with this
    rw [← this]
    simp
  · rw [metadata_members _ (by decide), hm _ (by decide) (by decide)]
    simp [templateTemperature, packed, Keywords.get]
  · rw [metadata_members _ (by decide), (fromTemplate_eq h).2.2.2]
    have : unused templateTemperature (quantityOver q m) = [("cell_methods", some (.text m))] := by
      have hk : templateTemperature.keywords = ["quantity".toList] := by decide +kernel
      unfold unused
      rw [hk]
      simp [quantityOver]
    rw [this]
    simp [Keywords.get]

theorem long_tas : longNameOf templateTemperature (quantityOver "average" "time: mean") =
    .ok (some "Average daily surface air temperature".toList) := by decide +kernel
theorem long_tasmin : longNameOf templateTemperature (quantityOver "minimum" "time: minimum") =
    .ok (some "Minimum daily surface air temperature".toList) := by decide +kernel
theorem long_tasmax : longNameOf templateTemperature (quantityOver "maximum" "time: maximum") =
    .ok (some "Maximum daily surface air temperature".toList) := by decide +kernel

/-- The variables with names of temperatures are those of definitions.py 182-184. -/
def UsesDefinitions (l : List (OutVar × Values)) : Prop := ∀ a ∈ l,
  (a.1.name = "tas" → fromTemplate templateTemperature "tas" (quantityOver "average" "time: mean") = .ok a.1) ∧
  (a.1.name = "tasmin" → fromTemplate templateTemperature "tasmin" (quantityOver "minimum" "time: minimum") = .ok a.1) ∧
  (a.1.name = "tasmax" → fromTemplate templateTemperature "tasmax" (quantityOver "maximum" "time: maximum") = .ok a.1)

theorem create_conforms {f : File} {title institution comment history source : String}
    (h : f.attrs = (create title institution comment history source).attrs) :
    ∀ a ∈ specGlobalField.attributes, AttrOk f a.1 a.2 := by
  intro a ha
  simp only [specGlobalField, specAttributes, List.mem_cons, List.not_mem_nil, or_false] at ha
  rcases ha with rfl | rfl | rfl | rfl | rfl <;> simp [AttrOk, h, create]

theorem metaOk {w : NcVar} {v : OutVar} (e : w.attrs = v.metadata) {l : List (String × Option AttrValue)}
    (h : ∀ m ∈ l, m.2 ≠ none ∧ v.metadata m.1 = m.2) : ∀ m ∈ l, MetaOk w m.1 m.2 := by
  intro m hm
  obtain ⟨h1, h2⟩ := h m hm
  obtain ⟨key, val⟩ := m
  cases val with
  | none => exact absurd rfl h1
  | some a => exact (congrFun e _).trans h2

section
variable {day : ℚ} {dataset institution comment history source : String} {f g : File}
  (hf : newGlobalField day dataset institution comment history source = .ok f) {l : List (OutVar × Values)}
  (hg : addFields f l = .ok g)
include hf hg

theorem attrs_kept : g.attrs =
    (create ("EUSTACE Surface Air Temperature Estimates " ++ dataset) institution comment history source).attrs := by
  rw [(addFields_grown hg).attrs]
  rw [newGlobalField_ok] at hf
  injection hf with hf
  rw [← hf]

theorem var_new {name : String} {v : OutVar} {dims : List String} {cells : List (Option ℚ)}
    (h : newVars day name = some (written v dims cells)) {w : NcVar} (hw : g.vars name = some w) :
    w.dtype = v.dtype ∧ w.attrs = v.metadata := by
  rw [var_kept hf hg h] at hw
  injection hw with hw
  subst hw
  exact ⟨rfl, rfl⟩

theorem var_added {name : String} (hn : newVars day name = none) {w : NcVar} (hw : g.vars name = some w) :
    ∃ a ∈ l, a.1.name = name ∧ w.dtype = a.1.dtype ∧ w.attrs = a.1.metadata := by
  rcases addFields_vars_cases hg name with ⟨a, ha, rfl⟩ | e
  · refine ⟨a, ha, rfl, ?_⟩
    rw [(addFields_var hg a ha).2] at hw
    injection hw with hw
    subst hw
    exact ⟨rfl, rfl⟩
  · rw [e, (new_eq hf).1, hn] at hw
    cases hw

theorem temperature_conforms (hu : UsesDefinitions l) {w : NcVar} {name longName method : String}
    (hn : newVars day name = none) (hw : g.vars name = some w)
    (hd : ∀ a ∈ l, a.1.name = name → TemperatureOk a.1 longName method) :
    w.dtype = .int16 ∧ ∀ m ∈ (specTemperature name longName method).metadata, MetaOk w m.1 m.2 := by
  obtain ⟨a, ha, e, h1, h2⟩ := var_added hf hg hn hw
  have ht := hd a ha e
  refine ⟨h1.trans ht.dtype, fun m hm => ?_⟩
  simp only [specTemperature, List.mem_cons, List.not_mem_nil, or_false] at hm
  rcases hm with rfl | rfl | rfl | rfl
  · exact (congrFun h2 _).trans ht.standard
  · exact (congrFun h2 _).trans ht.long
  · exact (congrFun h2 _).trans ht.units
  · exact (congrFun h2 _).trans ht.method

/-- C122: every file that is built passes, whatever else is added to it. -/
theorem c122_built (hu : UsesDefinitions l) : (verifyGlobalField [] (some g)).2 = true := by
  unfold verifyGlobalField
  dsimp only
  rw [c122_verdict]
  have hd := (new_eq hf).2
  have hgr := addFields_grown hg
  refine ⟨by simp, ?_, ?_, ?_, ?_, ?_⟩
  · exact create_conforms (attrs_kept hf hg)
  · exact ⟨_, List.mem_cons_self, _, var_kept hf hg (name := "time") (w := written timeVar ["time"] [some (f32 day)])
      (by simp [newVars])⟩
  · intro s hs w hw t ht
    simp only [specGlobalField, List.mem_cons, List.not_mem_nil, or_false] at hs
    rcases hs with rfl | rfl | rfl | rfl | rfl | rfl | rfl | rfl <;> have ht := Option.some.inj ht <;> rw [← ht]
    · exact (var_new hf hg (v := timeVar) (dims := ["time"]) (cells := [some (f32 day)]) (by simp [newVars]) hw).1
    · exact (var_new hf hg (v := timeBoundsVar) (dims := ["time", "bounds"]) (cells := [some (f32 day), some (f32 (day + 1))])
        (by simp [newVars]) hw).1
    · exact (var_new hf hg (v := timeOffsetVar) (dims := ["longitude"]) (cells := timeOffsets.map some)
        (by simp [newVars]) hw).1
    · exact (var_new hf hg (v := latitudeVar) (dims := ["latitude"]) (cells := latitudes.map some) (by simp [newVars]) hw).1
    · exact (var_new hf hg (v := longitudeVar) (dims := ["longitude"]) (cells := longitudes.map some) (by simp [newVars]) hw).1
    · exact (temperature_conforms hf hg hu (by simp [newVars, specTemperature]) hw
        (fun a ha e => temperatureOk ((hu a ha).1 e) long_tas)).1
    · exact (temperature_conforms hf hg hu (by simp [newVars, specTemperature]) hw
        (fun a ha e => temperatureOk ((hu a ha).2.1 e) long_tasmin)).1
    · exact (temperature_conforms hf hg hu (by simp [newVars, specTemperature]) hw
        (fun a ha e => temperatureOk ((hu a ha).2.2 e) long_tasmax)).1
  · intro s hs w hw
    simp only [specGlobalField, List.mem_cons, List.not_mem_nil, or_false] at hs
    rcases hs with rfl | rfl | rfl | rfl | rfl | rfl | rfl | rfl
    · exact metaOk (var_new hf hg (v := timeVar) (dims := ["time"]) (cells := [some (f32 day)]) (by simp [newVars]) hw).2 (by decide +kernel)
    · intro m hm
      cases hm
    · exact metaOk (var_new hf hg (v := timeOffsetVar) (dims := ["longitude"]) (cells := timeOffsets.map some)
        (by simp [newVars]) hw).2 (by decide +kernel)
    · exact metaOk (var_new hf hg (v := latitudeVar) (dims := ["latitude"]) (cells := latitudes.map some)
        (by simp [newVars]) hw).2 (by decide +kernel)
    · exact metaOk (var_new hf hg (v := longitudeVar) (dims := ["longitude"]) (cells := longitudes.map some)
        (by simp [newVars]) hw).2 (by decide +kernel)
    · exact (temperature_conforms hf hg hu (by simp [newVars, specTemperature]) hw
        (fun a ha e => temperatureOk ((hu a ha).1 e) long_tas)).2
    · exact (temperature_conforms hf hg hu (by simp [newVars, specTemperature]) hw
        (fun a ha e => temperatureOk ((hu a ha).2.1 e) long_tasmin)).2
    · exact (temperature_conforms hf hg hu (by simp [newVars, specTemperature]) hw
        (fun a ha e => temperatureOk ((hu a ha).2.2 e) long_tasmax)).2
  · intro d hdm
    simp only [specGlobalField, List.mem_cons, List.not_mem_nil, or_false] at hdm
    rcases hdm with rfl | rfl | rfl | rfl
    · obtain ⟨d', e, u, s⟩ := hgr.dims _ _ hd.latitude
      obtain ⟨n, b⟩ := d'
      dsimp only at u s
      subst u
      simp only [DimOk, e, s rfl]
    · obtain ⟨d', e, u, s⟩ := hgr.dims _ _ hd.longitude
      obtain ⟨n, b⟩ := d'
      dsimp only at u s
      subst u
      simp only [DimOk, e, s rfl]
    · obtain ⟨d', e, u, s⟩ := hgr.dims _ _ hd.time
      obtain ⟨n, b⟩ := d'
      dsimp only at u s
      subst u
      exact ⟨n, e⟩
    · obtain ⟨d', e, u, s⟩ := hgr.dims _ _ hd.bounds
      obtain ⟨n, b⟩ := d'
      dsimp only at u s
      subst u
      simp only [DimOk, e, s rfl]

end

/-- C122: fields of the right shape with names of their own can be added. -/
theorem c122_accepts {day : ℚ} {dataset institution comment history source : String} {l : List (OutVar × Values)}
    (hs : ∀ a ∈ l, a.2.shape = fieldShape) (hn : (l.map fun a => a.1.name).Nodup)
    (hx : ∀ a ∈ l, a.1.name ∉ ["time", "timebounds", "latitude", "longitude", "timeoffset"]) :
    ∃ f g, newGlobalField day dataset institution comment history source = .ok f ∧ addFields f l = .ok g := by
  obtain ⟨g, hg⟩ := addFields_ok (l := l)
    (f := ⟨(create ("EUSTACE Surface Air Temperature Estimates " ++ dataset) institution comment history source).attrs,
      newDims, newVars day⟩) (newDims_dims _ _) hs hn (by
      intro a ha
      have h := hx a ha
      simp only [List.mem_cons, List.not_mem_nil, or_false, not_or] at h
      simp only [newVars]
      rw [Function.update_of_ne h.2.2.2.2, Function.update_of_ne h.2.2.2.1, Function.update_of_ne h.2.2.1,
        Function.update_of_ne h.2.1, Function.update_of_ne h.1])
  exact ⟨_, g, newGlobalField_ok _ _ _ _ _ _, hg⟩

/-- C122: a name cannot be used twice, and the names of the axes cannot be used again. -/
theorem c122_names {f g : File} {l : List (OutVar × Values)} (hg : addFields f l = .ok g) :
    (l.map fun a => a.1.name).Nodup ∧ ∀ a ∈ l, f.vars a.1.name = none := by
  refine ⟨?_, fun a ha => (addFields_var hg a ha).1⟩
  induction l generalizing f with
  | nil => simp
  | cons a t ih =>
    obtain ⟨v, values⟩ := a
    simp only [addFields] at hg
    split at hg
    · cases hg
    · rename_i f' e
      rw [List.map_cons, List.nodup_cons]
      refine ⟨fun hm => ?_, ih hg⟩
      obtain ⟨b, hb, hn⟩ := List.mem_map.1 hm
      have h1 := (addFields_var hg b hb).1
      rw [hn, (addVariable_var e).2] at h1
      cases h1

/-- A field file with the temperatures of `tas` meets the hypotheses of `c122_built`. -/
example : ∃ f g v, newGlobalField 1 "" "" "" "" "" = .ok f ∧ addFields f [(v, uniform 288)] = .ok g ∧ v.name = "tas" ∧
    (verifyGlobalField [] (some g)).2 = true := by
  obtain ⟨v, hv, hn⟩ := tas_ok
  obtain ⟨f, g, hf, hg⟩ := single_file v 288 (by rw [hn]; simp)
  refine ⟨f, g, v, hf, hg, hn, c122_built hf hg ?_⟩
  intro a ha
  rw [List.mem_singleton] at ha
  subst ha
  refine ⟨fun _ => hv, fun e => ?_, fun e => ?_⟩ <;> (dsimp only at e; rw [hn] at e; simp at e)

/-- A file without temperatures, latitudes, longitudes or times. -/
def bareFile : File :=
  ⟨(create "t" "i" "c" "h" "s").attrs, newDims,
   fun n => if n = "timebounds" then some ⟨.float32, [], fun _ => none, none, []⟩ else none⟩

/-- C122 fails to show that a file holds any data: one without temperatures, latitudes, longitudes and times passes. -/
theorem c122_complete_violated : (verifyGlobalField [] (some bareFile)).2 = true ∧ bareFile.read "tas" = none ∧
    bareFile.read "tasmin" = none ∧ bareFile.read "tasmax" = none ∧ bareFile.read "latitude" = none ∧
    bareFile.read "longitude" = none ∧ bareFile.read "time" = none := by
  refine ⟨?_, by simp [File.read, bareFile], by simp [File.read, bareFile], by simp [File.read, bareFile],
    by simp [File.read, bareFile], by simp [File.read, bareFile], by simp [File.read, bareFile]⟩
  unfold verifyGlobalField
  dsimp only
  rw [c122_verdict]
  refine ⟨by simp, ?_, ?_, ?_, ?_, ?_⟩
  · intro a ha
    simp only [specGlobalField, specAttributes, List.mem_cons, List.not_mem_nil, or_false] at ha
    rcases ha with rfl | rfl | rfl | rfl | rfl <;> simp [AttrOk, bareFile, create]
  · exact ⟨_, List.mem_cons_of_mem _ List.mem_cons_self, ⟨.float32, [], fun _ => none, none, []⟩, by simp [bareFile]⟩
  · intro s hs w hw t ht
    simp only [specGlobalField, specTemperature, List.mem_cons, List.not_mem_nil, or_false] at hs
    rcases hs with rfl | rfl | rfl | rfl | rfl | rfl | rfl | rfl <;> simp [bareFile] at hw
    subst hw
    injection ht
  · intro s hs w hw m hm
    simp only [specGlobalField, specTemperature, List.mem_cons, List.not_mem_nil, or_false] at hs
    rcases hs with rfl | rfl | rfl | rfl | rfl | rfl | rfl | rfl <;> simp [bareFile] at hw
    cases hm
  · intro d hd
    simp only [specGlobalField, List.mem_cons, List.not_mem_nil, or_false] at hd
    rcases hd with rfl | rfl | rfl | rfl <;> simp [DimOk, bareFile, newDims]

/-- C122 fails for a verifier which is used again: once it has seen a bad file, good ones do not pass. -/
theorem c122_reuse_violated : ∃ f, (verifyGlobalField [] (some f)).2 = true ∧
    (verifyGlobalField (verifyGlobalField [] none).1 (some f)).2 = false := by
  refine ⟨bareFile, c122_complete_violated.1, ?_⟩
  rw [← Bool.not_eq_true]
  intro h
  unfold verifyGlobalField at h
  dsimp only at h
  rw [c122_verdict] at h
  have := h.1 false (by simp [checkFile])
  cases this

end Verif.Eustace.Format
