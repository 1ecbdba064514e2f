import Verif.Eustace.StationFiles.Props

/-! C164: the files which the builder makes pass verification. -/
namespace Verif.Eustace.StationFiles
open Verif Verif.Float32 Verif.Eustace.Format

/-! ### What a variable of a definition brings -/

/-- A variable as the specification wants it. -/
def good (spec : FileSpec) (v : OutVar) : Bool :=
  spec.vars.all fun s => decide (s.name ≠ v.name) ||
    ((match s.dtype with
      | none => true
      | some t => decide (v.dtype = t)) &&
     s.metadata.all fun m => match m.2 with
      | none => (v.metadata m.1).isSome
      | some e => decide (v.metadata m.1 = some e))

theorem good_temperature : ∀ v ∈ temperatureDefinitions, good specTemperatureFile v = true := by decide +kernel

theorem good_status : ∀ v ∈ statusDefinitions, good specStatusFile v = true := by decide +kernel

/-- The variables of a file which have names of the specification are as it wants. -/
def Good (spec : FileSpec) (f : File) : Prop := ∀ s ∈ spec.vars, ∀ w, f.vars s.name = some w →
  (∀ t, s.dtype = some t → w.dtype = t) ∧ ∀ m ∈ s.metadata, MetaOk w m.1 m.2

theorem createDimension_ok {f g : File} {name : String} {size : Option ℕ} (h : createDimension f name size = .ok g) :
    f.dims name = none ∧ g.attrs = f.attrs ∧ g.vars = f.vars ∧
      g.dims = Function.update f.dims name (some ⟨size.getD 0, size.isNone⟩) := by
  unfold createDimension at h
  split at h
  · cases h
  · rename_i hd
    injection h with h
    subst h
    exact ⟨hd, rfl, rfl, rfl⟩

theorem createDimension_grown {f g : File} {name : String} {size : Option ℕ} (h : createDimension f name size = .ok g) :
    Grown f g := by
  obtain ⟨hd, ha, hv, he⟩ := createDimension_ok h
  refine ⟨ha, fun n v e => by rw [hv]; exact e, fun n d e => ?_⟩
  have : n ≠ name := by rintro rfl; rw [hd] at e; cases e
  exact ⟨d, by rw [he, Function.update_of_ne this]; exact e, rfl, fun _ => rfl⟩

theorem createDimension_good {spec : FileSpec} {f g : File} {name : String} {size : Option ℕ}
    (h : createDimension f name size = .ok g) (hf : Good spec f) : Good spec g := by
  obtain ⟨_, _, hv, _⟩ := createDimension_ok h
  intro s hs w hw
  rw [hv] at hw
  exact hf s hs w hw

theorem addVariable_vars {f g : File} {v : OutVar} {names : List String} {values : Values}
    (h : addVariable f v names values = .ok g) {n : String} (hn : n ≠ v.name) : g.vars n = f.vars n := by
  unfold addVariable at h
  split at h
  · cases h
  · split at h
    · cases h
    · injection h with h
      subst h
      dsimp only
      rw [Function.update_of_ne hn]

theorem addVariable_good {spec : FileSpec} {f g : File} {v : OutVar} {names : List String} {values : Values}
    (h : addVariable f v names values = .ok g) (hv : good spec v = true) (hf : Good spec f) : Good spec g := by
  intro s hs w hw
  by_cases hn : s.name = v.name
  · rw [hn, (addVariable_var h).2] at hw
    injection hw with hw
    subst hw
    have := List.all_eq_true.1 hv s hs
    simp only [hn, ne_eq, not_true_eq_false, decide_false, Bool.false_or, Bool.and_eq_true] at this
    obtain ⟨h1, h2⟩ := this
    refine ⟨fun t ht => ?_, fun m hm => ?_⟩
    · rw [ht] at h1
      simpa using h1
    · have := List.all_eq_true.1 h2 m hm
      unfold MetaOk
      cases he : m.2 with
      | none =>
        rw [he] at this
        exact Option.isSome_iff_exists.1 this
      | some e =>
        rw [he] at this
        simpa using this
  · rw [addVariable_vars h hn] at hw
    exact hf s hs w hw

theorem grow_none : ∀ {names : List String} {shape : List ℕ} {dims dims' : String → Option Dim},
    grow dims names shape = .ok dims' → ∀ {n}, dims n = none → dims' n = none
  | [], [], dims, dims', h, n, e => by
    simp only [grow] at h
    injection h with h
    subst h
    exact e
  | [], _ :: _, _, _, h, _, _ => by simp [grow] at h
  | _ :: _, [], _, _, h, _, _ => by simp [grow] at h
  | m :: ms, k :: ks, dims, dims', h, n, e => by
    simp only [grow] at h
    split at h
    · cases h
    · rename_i dim hdim
      have hn : n ≠ m := by rintro rfl; rw [hdim] at e; cases e
      split at h
      · exact grow_none h (by rw [Function.update_of_ne hn]; exact e)
      · split at h
        · exact grow_none h e
        · cases h

theorem addVariable_dims {f g : File} {v : OutVar} {names : List String} {values : Values}
    (h : addVariable f v names values = .ok g) {n : String} (hn : f.dims n = none) : g.dims n = none := by
  unfold addVariable at h
  split at h
  · cases h
  · split at h
    · cases h
    · rename_i hd
      injection h with h
      subst h
      exact grow_none hd hn

/-! ### The axes of temperatures -/

theorem setDimensions_parts {f g : File} {stations : List Station} {times : List ℚ}
    (h : setTemperatureDimensions f stations times = .ok g) : ∃ f1 f2 f3 f4 f5 f6,
      createDimension f "station" (some stations.length) = .ok f1 ∧ createDimension f1 "name_strlen" (some 32) = .ok f2 ∧
      addVariable f2 stationNameVar ["station", "name_strlen"] (nameValues stations) = .ok f3 ∧
      createDimension f3 "time" none = .ok f4 ∧ addVariable f4 timeVar ["time"] (vector times) = .ok f5 ∧
      createDimension f5 "bounds" (some 2) = .ok f6 ∧
      addVariable f6 timeBoundsVar ["time", "bounds"] (boundsValues times) = .ok g := by
  unfold setTemperatureDimensions addAxis at h
  split at h
  · cases h
  rename_i f1 h1
  split at h
  · cases h
  rename_i f2 h2
  split at h
  · cases h
  rename_i f3 h3
  split at h
  · cases h
  rename_i f5 h5
  split at h5
  · cases h5
  rename_i f4 h4
  split at h
  · cases h
  rename_i f6 h6
  exact ⟨f1, f2, f3, f4, f5, f6, h1, h2, h3, h4, h5, h6, h⟩

theorem setDimensions_grown {f g : File} {stations : List Station} {times : List ℚ}
    (h : setTemperatureDimensions f stations times = .ok g) : Grown f g := by
  obtain ⟨_, _, _, _, _, _, h1, h2, h3, h4, h5, h6, h7⟩ := setDimensions_parts h
  exact (createDimension_grown h1).trans ((createDimension_grown h2).trans ((addVariable_grown h3).trans
    ((createDimension_grown h4).trans ((addVariable_grown h5).trans ((createDimension_grown h6).trans
      (addVariable_grown h7))))))

theorem setDimensions_good {f g : File} {stations : List Station} {times : List ℚ}
    (h : setTemperatureDimensions f stations times = .ok g) (hf : Good specTemperatureFile f) :
    Good specTemperatureFile g := by
  obtain ⟨_, _, _, _, _, _, h1, h2, h3, h4, h5, h6, h7⟩ := setDimensions_parts h
  refine addVariable_good h7 (good_temperature _ (by simp [temperatureDefinitions])) (createDimension_good h6 ?_)
  refine addVariable_good h5 (good_temperature _ (by simp [temperatureDefinitions])) (createDimension_good h4 ?_)
  exact addVariable_good h3 (good_temperature _ (by simp [temperatureDefinitions]))
    (createDimension_good h2 (createDimension_good h1 hf))

/-- The axis of time is unlimited and there is a variable for it. -/
theorem setDimensions_time {f g : File} {stations : List Station} {times : List ℚ}
    (h : setTemperatureDimensions f stations times = .ok g) :
    (∃ d, g.dims "time" = some d ∧ d.unlimited = true) ∧ ∃ w, g.vars "time" = some w := by
  obtain ⟨_, _, f3, f4, f5, f6, h1, h2, h3, h4, h5, h6, h7⟩ := setDimensions_parts h
  have g4 : Grown f4 g := (addVariable_grown h5).trans ((createDimension_grown h6).trans (addVariable_grown h7))
  have g5 : Grown f5 g := (createDimension_grown h6).trans (addVariable_grown h7)
  constructor
  · obtain ⟨_, _, _, he⟩ := createDimension_ok h4
    obtain ⟨d, e, u, _⟩ := g4.dims "time" ⟨0, true⟩ (by rw [he]; simp)
    exact ⟨d, e, u⟩
  · exact ⟨_, g5.vars "time" _ (addVariable_var h5).2⟩

/-! ### Calls in order -/

theorem step_grown {b c : Builder} {s : Step} (h : step b s = .ok c) :
    Grown b.temperature c.temperature ∧ Grown b.status c.status := by
  cases s with
  | dimensions stations times =>
    simp only [step] at h
    split at h
    · cases h
    · rename_i f e
      injection h with h
      subst h
      exact ⟨setDimensions_grown e, .refl _⟩
  | temperature v values =>
    simp only [step] at h
    split at h
    · cases h
    · rename_i f e
      injection h with h
      subst h
      exact ⟨addVariable_grown e, .refl _⟩
  | statusDimension name size =>
    simp only [step] at h
    split at h
    · cases h
    · rename_i f e
      injection h with h
      subst h
      exact ⟨.refl _, createDimension_grown e⟩
  | statusVariable dim v values bounds =>
    simp only [step] at h
    split at h
    · cases h
    · rename_i f e
      injection h with h
      subst h
      exact ⟨.refl _, addVariable_grown e⟩

theorem steps_cons {b c : Builder} {s : Step} {l : List Step} (h : steps b (s :: l) = .ok c) :
    ∃ b', step b s = .ok b' ∧ steps b' l = .ok c := by
  simp only [steps] at h
  split at h
  · cases h
  · rename_i b' e
    exact ⟨b', e, h⟩

theorem steps_grown : ∀ {l : List Step} {b c : Builder}, steps b l = .ok c →
    Grown b.temperature c.temperature ∧ Grown b.status c.status
  | [], b, c, h => by
    simp only [steps] at h
    injection h with h
    subst h
    exact ⟨.refl _, .refl _⟩
  | s :: t, b, c, h => by
    obtain ⟨b', h1, h2⟩ := steps_cons h
    have a := step_grown h1
    have r := steps_grown h2
    exact ⟨a.1.trans r.1, a.2.trans r.2⟩

theorem steps_mem : ∀ {l : List Step} {b c : Builder}, steps b l = .ok c → ∀ {s}, s ∈ l →
    ∃ b1 b2, step b1 s = .ok b2 ∧ Grown b2.temperature c.temperature ∧ Grown b2.status c.status
  | [], _, _, _, _, hs => by cases hs
  | s' :: t, b, c, h, s, hs => by
    obtain ⟨b', h1, h2⟩ := steps_cons h
    rcases List.mem_cons.1 hs with rfl | hs
    · exact ⟨b, b', h1, steps_grown h2⟩
    · exact steps_mem h2 hs

/-- Variables with names of the specifications are those of definitions.py. -/
def UsesDefinitions (l : List Step) : Prop := ∀ s ∈ l, match s with
  | .temperature v _ => v.name ∈ specTemperatureFile.vars.map VarSpec.name → v ∈ temperatureDefinitions ∨
      fromTemplate templateTemperature "tasmin" (quantityOver "minimum" "time: minimum") = .ok v ∨
      fromTemplate templateTemperature "tasmax" (quantityOver "maximum" "time: maximum") = .ok v
  | .statusVariable _ v _ _ => v.name ∈ specStatusFile.vars.map VarSpec.name → v ∈ statusDefinitions
  | _ => True

theorem good_other {spec : FileSpec} {v : OutVar} (h : v.name ∉ spec.vars.map VarSpec.name) : good spec v = true := by
  refine List.all_eq_true.2 fun s hs => ?_
  have : s.name ≠ v.name := fun e => h (e ▸ List.mem_map.2 ⟨s, hs, rfl⟩)
  simp [this]

theorem good_of_temperatureOk {v : OutVar} {name long method : String} (hn : v.name = name)
    (h : TemperatureOk v long method)
    (hs : ∀ s ∈ specTemperatureFile.vars, s.name = name → s = specTemperature name long method) :
    good specTemperatureFile v = true := by
  refine List.all_eq_true.2 fun s hm => ?_
  by_cases e : s.name = v.name
  · rw [hs s hm (e.trans hn)]
    simp [specTemperature, hn, h.dtype, h.standard, h.long, h.units, h.method]
  · simp [e]

theorem only_tasmin : ∀ s ∈ specTemperatureFile.vars, s.name = "tasmin" →
    s = specTemperature "tasmin" "Minimum daily surface air temperature" "time: minimum" := by
  intro s hs e
  simp only [specTemperatureFile, List.mem_cons, List.not_mem_nil, or_false] at hs
  rcases hs with rfl | rfl | rfl | rfl | rfl | rfl | rfl | rfl | rfl <;> simp [specTemperature] at e ⊢

theorem only_tasmax : ∀ s ∈ specTemperatureFile.vars, s.name = "tasmax" →
    s = specTemperature "tasmax" "Maximum daily surface air temperature" "time: maximum" := by
  intro s hs e
  simp only [specTemperatureFile, List.mem_cons, List.not_mem_nil, or_false] at hs
  rcases hs with rfl | rfl | rfl | rfl | rfl | rfl | rfl | rfl | rfl <;> simp [specTemperature] at e ⊢

theorem steps_good : ∀ {l : List Step} {b c : Builder}, steps b l = .ok c → UsesDefinitions l →
    Good specTemperatureFile b.temperature → Good specStatusFile b.status →
    Good specTemperatureFile c.temperature ∧ Good specStatusFile c.status
  | [], b, c, h, _, ht, hs => by
    simp only [steps] at h
    injection h with h
    subst h
    exact ⟨ht, hs⟩
  | s :: t, b, c, h, hu, ht, hs => by
    obtain ⟨b', h1, h2⟩ := steps_cons h
    have hu1 := hu s List.mem_cons_self
    have hb : Good specTemperatureFile b'.temperature ∧ Good specStatusFile b'.status := by
      cases s with
      | dimensions stations times =>
        simp only [step] at h1
        split at h1
        · cases h1
        · rename_i f e
          injection h1 with h1
          subst h1
          exact ⟨setDimensions_good e ht, hs⟩
      | temperature v values =>
        simp only [step] at h1
        split at h1
        · cases h1
        · rename_i f e
          injection h1 with h1
          subst h1
          refine ⟨addVariable_good e ?_ ht, hs⟩
          by_cases hn : v.name ∈ specTemperatureFile.vars.map VarSpec.name
          · rcases hu1 hn with hv | hv | hv
            · exact good_temperature v hv
            · exact good_of_temperatureOk (fromTemplate_eq hv).1 (temperatureOk hv long_tasmin) only_tasmin
            · exact good_of_temperatureOk (fromTemplate_eq hv).1 (temperatureOk hv long_tasmax) only_tasmax
          · exact good_other hn
      | statusDimension name size =>
        simp only [step] at h1
        split at h1
        · cases h1
        · rename_i f e
          injection h1 with h1
          subst h1
          exact ⟨ht, createDimension_good e hs⟩
      | statusVariable dim v values bounds =>
        simp only [step] at h1
        split at h1
        · cases h1
        · rename_i f e
          injection h1 with h1
          subst h1
          refine ⟨ht, addVariable_good e ?_ hs⟩
          by_cases hn : v.name ∈ specStatusFile.vars.map VarSpec.name
          · exact good_status v (hu1 hn)
          · exact good_other hn
    exact steps_good h2 (fun s hs => hu s (List.mem_cons_of_mem _ hs)) hb.1 hb.2

/-- A dimension of the status file was there before or was asked for. -/
theorem status_dims_from : ∀ {l : List Step} {b c : Builder}, steps b l = .ok c → ∀ {n},
    b.status.dims n = none → c.status.dims n ≠ none → ∃ size, Step.statusDimension n size ∈ l
  | [], b, c, h, n, hn, hc => by
    simp only [steps] at h
    injection h with h
    subst h
    exact absurd hn hc
  | s :: t, b, c, h, n, hn, hc => by
    obtain ⟨b', h1, h2⟩ := steps_cons h
    by_cases hb : b'.status.dims n = none
    · obtain ⟨size, hm⟩ := status_dims_from h2 hb hc
      exact ⟨size, List.mem_cons_of_mem _ hm⟩
    · cases s with
      | dimensions stations times =>
        simp only [step] at h1
        split at h1
        · cases h1
        · injection h1 with h1
          subst h1
          exact absurd hn hb
      | temperature v values =>
        simp only [step] at h1
        split at h1
        · cases h1
        · injection h1 with h1
          subst h1
          exact absurd hn hb
      | statusDimension name size =>
        simp only [step] at h1
        split at h1
        · cases h1
        · rename_i f e
          injection h1 with h1
          subst h1
          by_cases e' : n = name
          · exact ⟨size, by rw [e']; exact List.mem_cons_self⟩
          · refine absurd ?_ hb
            rw [(createDimension_ok e).2.2.2, Function.update_of_ne e']
            exact hn
      | statusVariable dim v values bounds =>
        simp only [step] at h1
        split at h1
        · cases h1
        · rename_i f e
          injection h1 with h1
          subst h1
          exact absurd (addVariable_dims e hn) hb

/-- A variable of the status file was there before or was added. -/
theorem status_vars_from : ∀ {l : List Step} {b c : Builder}, steps b l = .ok c → ∀ {n},
    b.status.vars n = none → c.status.vars n ≠ none → ∃ dim v values bounds, Step.statusVariable dim v values bounds ∈ l ∧
      v.name = n
  | [], b, c, h, n, hn, hc => by
    simp only [steps] at h
    injection h with h
    subst h
    exact absurd hn hc
  | s :: t, b, c, h, n, hn, hc => by
    obtain ⟨b', h1, h2⟩ := steps_cons h
    by_cases hb : b'.status.vars n = none
    · obtain ⟨dim, v, values, bounds, hm, e⟩ := status_vars_from h2 hb hc
      exact ⟨dim, v, values, bounds, List.mem_cons_of_mem _ hm, e⟩
    · cases s with
      | dimensions stations times =>
        simp only [step] at h1
        split at h1
        · cases h1
        · injection h1 with h1
          subst h1
          exact absurd hn hb
      | temperature v values =>
        simp only [step] at h1
        split at h1
        · cases h1
        · injection h1 with h1
          subst h1
          exact absurd hn hb
      | statusDimension name size =>
        simp only [step] at h1
        split at h1
        · cases h1
        · rename_i f e
          injection h1 with h1
          subst h1
          refine absurd ?_ hb
          rw [(createDimension_ok e).2.2.1]
          exact hn
      | statusVariable dim v values bounds =>
        simp only [step] at h1
        split at h1
        · cases h1
        · rename_i f e
          injection h1 with h1
          subst h1
          by_cases e' : n = v.name
          · exact ⟨dim, v, values, bounds, List.mem_cons_self, e'.symm⟩
          · refine absurd ?_ hb
            rw [addVariable_vars e e']
            exact hn

/-- The axis of time was there before or was asked for. -/
theorem time_from : ∀ {l : List Step} {b c : Builder}, steps b l = .ok c →
    b.temperature.dims "time" = none → c.temperature.dims "time" ≠ none → ∃ stations times,
      Step.dimensions stations times ∈ l
  | [], b, c, h, hn, hc => by
    simp only [steps] at h
    injection h with h
    subst h
    exact absurd hn hc
  | s :: t, b, c, h, hn, hc => by
    obtain ⟨b', h1, h2⟩ := steps_cons h
    by_cases hb : b'.temperature.dims "time" = none
    · obtain ⟨stations, times, hm⟩ := time_from h2 hb hc
      exact ⟨stations, times, List.mem_cons_of_mem _ hm⟩
    · cases s with
      | dimensions stations times => exact ⟨stations, times, List.mem_cons_self⟩
      | temperature v values =>
        simp only [step] at h1
        split at h1
        · cases h1
        · rename_i f e
          injection h1 with h1
          subst h1
          exact absurd (addVariable_dims e hn) hb
      | statusDimension name size =>
        simp only [step] at h1
        split at h1
        · cases h1
        · injection h1 with h1
          subst h1
          exact absurd hn hb
      | statusVariable dim v values bounds =>
        simp only [step] at h1
        split at h1
        · cases h1
        · injection h1 with h1
          subst h1
          exact absurd hn hb

/-! ### Files which are built -/

theorem new_ok {institution comment history source : String} {b : Builder}
    (h : newStationData institution comment history source = .ok b) :
    (∀ a ∈ specAttributes, AttrOk b.temperature a.1 a.2) ∧ (∀ a ∈ specAttributes, AttrOk b.status a.1 a.2) ∧
    (∀ n, b.temperature.vars n = none) ∧ (∀ n, b.status.vars n = none) ∧ (∀ n, b.temperature.dims n = none) ∧
    b.status.dims "bounds" = some ⟨2, false⟩ ∧ ∀ n, n ≠ "bounds" → b.status.dims n = none := by
  unfold newStationData at h
  simp only [createDimension, create] at h
  injection h with h
  subst h
  refine ⟨?_, ?_, fun _ => rfl, fun _ => rfl, fun _ => rfl, by simp, fun n hn => by simp [hn]⟩
  · intro a ha
    simp only [specAttributes, List.mem_cons, List.not_mem_nil, or_false] at ha
    rcases ha with rfl | rfl | rfl | rfl | rfl <;> simp [AttrOk, Function.update]
  · intro a ha
    simp only [specAttributes, List.mem_cons, List.not_mem_nil, or_false] at ha
    rcases ha with rfl | rfl | rfl | rfl | rfl <;> simp [AttrOk]

theorem attrOk_grown {f g : File} (h : Grown f g) {key : String} {e : Expected} (hf : AttrOk f key e) : AttrOk g key e := by
  unfold AttrOk at hf ⊢
  rw [h.attrs]
  exact hf

theorem built_temperature {institution comment history source : String} {b c : Builder} {l : List Step}
    (hb : newStationData institution comment history source = .ok b) (hc : steps b l = .ok c) (hu : UsesDefinitions l) :
    Conforms c.temperature specTemperatureFile ↔ ∃ stations times, Step.dimensions stations times ∈ l := by
  obtain ⟨ha, _, hv, hv', hd, _, _⟩ := new_ok hb
  constructor
  · intro h
    have := h.dimensions ("time", none) (by simp [specTemperatureFile])
    obtain ⟨n, hn⟩ := this
    exact time_from hc (hd _) (by rw [hn]; simp)
  · rintro ⟨stations, times, hm⟩
    obtain ⟨b1, b2, hs, g1, _⟩ := steps_mem hc hm
    simp only [step] at hs
    split at hs
    · cases hs
    rename_i f e
    injection hs with hs
    subst hs
    obtain ⟨⟨d, hd1, hd2⟩, w, hw⟩ := setDimensions_time e
    have hgood := (steps_good hc hu (fun s _ w hw => by rw [hv] at hw; cases hw)
      (fun s _ w hw => by rw [hv'] at hw; cases hw)).1
    refine ⟨fun a ha' => attrOk_grown (steps_grown hc).1 (ha a ha'), ?_, fun s hs w hw => (hgood s hs w hw).1,
      fun s hs w hw => (hgood s hs w hw).2, ?_⟩
    · refine ⟨specTemperatureFile.vars.head (by simp [specTemperatureFile]), List.head_mem _, w, ?_⟩
      exact g1.vars "time" w hw
    · intro x hx
      simp only [specTemperatureFile, List.mem_singleton] at hx
      subst hx
      obtain ⟨d', e', u', _⟩ := g1.dims "time" d hd1
      obtain ⟨n, u⟩ := d'
      rw [hd2] at u'
      dsimp only at u'
      subst u'
      exact ⟨n, e'⟩

theorem built_status {institution comment history source : String} {b c : Builder} {l : List Step}
    (hb : newStationData institution comment history source = .ok b) (hc : steps b l = .ok c) (hu : UsesDefinitions l) :
    Conforms c.status specStatusFile ↔
      (∀ d ∈ ["detection_time", "tasmin_break", "tasmax_break"], Step.statusDimension d none ∈ l) ∧
      ∃ dim v values bounds, Step.statusVariable dim v values bounds ∈ l ∧
        v.name ∈ specStatusFile.vars.map VarSpec.name := by
  obtain ⟨_, ha, hv', hv, _, hbounds, hd⟩ := new_ok hb
  have made : ∀ {n size}, Step.statusDimension n size ∈ l → ∃ d, c.status.dims n = some d ∧ d.unlimited = size.isNone := by
    intro n size hm
    obtain ⟨b1, b2, hs, _, g2⟩ := steps_mem hc hm
    simp only [step] at hs
    split at hs
    · cases hs
    rename_i f e
    injection hs with hs
    subst hs
    obtain ⟨d, e', u, _⟩ := g2.dims n ⟨size.getD 0, size.isNone⟩ (by rw [(createDimension_ok e).2.2.2]; simp)
    exact ⟨d, e', u⟩
  constructor
  · intro h
    constructor
    · intro d hdm
      have hne : d ≠ "bounds" := by
        rintro rfl
        simp at hdm
      have hin : (d, none) ∈ specStatusFile.dimensions := by
        simp only [List.mem_cons, List.not_mem_nil, or_false] at hdm
        rcases hdm with rfl | rfl | rfl <;> simp [specStatusFile]
      obtain ⟨n, hn⟩ := h.dimensions _ hin
      obtain ⟨size, hm⟩ := status_dims_from hc (hd d hne) (by rw [hn]; simp)
      obtain ⟨d', e', u'⟩ := made hm
      dsimp only at hn
      rw [hn] at e'
      injection e' with e'
      subst e'
      dsimp only at u'
      cases size with
      | none => exact hm
      | some k => simp at u'
    · obtain ⟨s, hs, w, hw⟩ := h.recognised
      obtain ⟨dim, v, values, bounds, hm, e⟩ := status_vars_from hc (hv s.name) (by rw [hw]; simp)
      exact ⟨dim, v, values, bounds, hm, by rw [e]; exact List.mem_map.2 ⟨s, hs, rfl⟩⟩
  · rintro ⟨h1, dim, v, values, bounds, hm, hn⟩
    have hgood := (steps_good hc hu (fun s _ w hw => by rw [hv'] at hw; cases hw)
      (fun s _ w hw => by rw [hv] at hw; cases hw)).2
    refine ⟨fun a ha' => attrOk_grown (steps_grown hc).2 (ha a ha'), ?_, fun s hs w hw => (hgood s hs w hw).1,
      fun s hs w hw => (hgood s hs w hw).2, ?_⟩
    · obtain ⟨s, hs, e⟩ := List.mem_map.1 hn
      obtain ⟨b1, b2, hst, _, g2⟩ := steps_mem hc hm
      simp only [step] at hst
      split at hst
      · cases hst
      rename_i f ef
      injection hst with hst
      subst hst
      exact ⟨s, hs, _, by rw [e]; exact g2.vars _ _ (addVariable_var ef).2⟩
    · intro x hx
      have unl : ∀ n, n ∈ ["detection_time", "tasmin_break", "tasmax_break"] → DimOk c.status n none := by
        intro n hn
        obtain ⟨d, e, u⟩ := made (h1 n hn)
        obtain ⟨k, u'⟩ := d
        dsimp only at u
        subst u
        exact ⟨k, e⟩
      simp only [specStatusFile, List.mem_cons, List.not_mem_nil, or_false] at hx
      rcases hx with rfl | rfl | rfl | rfl
      · exact unl _ (by simp)
      · exact unl _ (by simp)
      · exact unl _ (by simp)
      · obtain ⟨d, e, u, hsz⟩ := (steps_grown hc).2.dims "bounds" _ hbounds
        obtain ⟨k, u'⟩ := d
        dsimp only at u hsz
        subst u
        simp only [DimOk, e, hsz rfl]

theorem componentPath_suffix (directory region version suffix : Text) :
    componentPath directory region version suffix = componentPath directory region version [] ++ suffix := by
  unfold componentPath Eumopps.Names.join2
  by_cases h : directory = [] ∨ directory.getLast? = some '/'
  · simp [h]
  · simp [h]

/-- C164: files saved by the builder pass verification, when the variables are those of the definitions, if and only if the
axes of temperatures were set, the three dimensions of the status file were made without limit, and it was given a variable
known to the specification. -/
theorem c164_built {institution comment history source : String} {b c : Builder} {l : List Step}
    (hb : newStationData institution comment history source = .ok b) (hc : steps b l = .ok c) (hu : UsesDefinitions l)
    (disk : Disk) (directory region version : Text) :
    exitStatus (save disk directory region version c) (componentPath directory region version []) = 0 ↔
      (∃ stations times, Step.dimensions stations times ∈ l) ∧
      (∀ d ∈ ["detection_time", "tasmin_break", "tasmax_break"], Step.statusDimension d none ∈ l) ∧
      ∃ dim v values bounds, Step.statusVariable dim v values bounds ∈ l ∧
        v.name ∈ specStatusFile.vars.map VarSpec.name := by
  have hne : componentPath directory region version [] ≠ [] := by
    unfold componentPath Eumopps.Names.join2
    rw [if_neg (by simp)]
    split <;> simp
  have ht : save disk directory region version c (componentPath directory region version [] ++ "_temperature.nc".toList) =
      some c.temperature := by
    unfold save
    rw [componentPath_suffix _ _ _ temperatureSuffix, componentPath_suffix _ _ _ statusSuffix, Function.update_of_ne]
    · exact Function.update_self _ _ _
    · intro e
      have := List.append_cancel_left e
      revert this
      decide
  have hs : save disk directory region version c (componentPath directory region version [] ++ "_status.nc".toList) =
      some c.status := by
    unfold save
    rw [componentPath_suffix _ _ _ statusSuffix]
    exact Function.update_self _ _ _
  rw [c164_verdict, ht, hs, ← built_temperature hb hc hu, ← built_status hb hc hu]
  constructor
  · rintro ⟨_, t, s, e1, e2, h1, h2⟩
    injection e1 with e1
    injection e2 with e2
    subst e1 e2
    exact ⟨h1, h2⟩
  · rintro ⟨h1, h2⟩
    exact ⟨hne, _, _, rfl, rfl, h1, h2⟩

end Verif.Eustace.StationFiles
