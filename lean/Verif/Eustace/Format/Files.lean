import Verif.Eustace.Format.Packing
import Mathlib.Logic.Function.Basic
import Mathlib.Data.List.GetD

/-! Files as they are built: what stays when variables are added, and the file of a new global field. -/
namespace Verif.Eustace.Format
open Verif Verif.Float32 Spec

/-- A file which has grown from another: nothing that was there is lost or changed, but unlimited dimensions may be
longer. -/
structure Grown (f g : File) : Prop where
  attrs : g.attrs = f.attrs
  vars : ∀ n v, f.vars n = some v → g.vars n = some v
  dims : ∀ n d, f.dims n = some d → ∃ d', g.dims n = some d' ∧ d'.unlimited = d.unlimited ∧
    (d.unlimited = false → d'.size = d.size)

theorem Grown.refl (f : File) : Grown f f := ⟨rfl, fun _ _ h => h, fun _ d h => ⟨d, h, rfl, fun _ => rfl⟩⟩

theorem Grown.trans {f g h : File} (a : Grown f g) (b : Grown g h) : Grown f h := by
  refine ⟨b.attrs.trans a.attrs, fun n v e => b.vars n v (a.vars n v e), fun n d e => ?_⟩
  obtain ⟨d1, e1, u1, s1⟩ := a.dims n d e
  obtain ⟨d2, e2, u2, s2⟩ := b.dims n d1 e1
  exact ⟨d2, e2, u2.trans u1, fun hu => (s2 (u1.trans hu)).trans (s1 hu)⟩

theorem grow_dims : ∀ {names : List String} {shape : List ℕ} {dims dims' : String → Option Dim},
    grow dims names shape = .ok dims' → ∀ n d, dims n = some d → ∃ d', dims' n = some d' ∧ d'.unlimited = d.unlimited ∧
      (d.unlimited = false → d'.size = d.size)
  | [], [], dims, dims', h, n, d, e => by
    simp only [grow] at h
    injection h with h
    subst h
    exact ⟨d, e, rfl, fun _ => rfl⟩
  | [], _ :: _, _, _, h, _, _, _ => by simp [grow] at h
  | _ :: _, [], _, _, h, _, _, _ => by simp [grow] at h
  | m :: ms, k :: ks, dims, dims', h, n, d, e => by
    simp only [grow] at h
    split at h
    · cases h
    · rename_i dim hdim
      split at h
      · rename_i hu
        by_cases hn : n = m
        · subst hn
          rw [hdim] at e
          injection e with e
          subst e
          obtain ⟨d', e', u', _⟩ := grow_dims h n ⟨max dim.size k, true⟩ (by simp)
          exact ⟨d', e', by rw [u', hu], fun hc => by rw [hu] at hc; cases hc⟩
        · exact grow_dims h n d (by rw [Function.update_of_ne hn]; exact e)
      · split at h
        · exact grow_dims h n d e
        · cases h

theorem addVariable_grown {f g : File} {v : OutVar} {names : List String} {values : Values}
    (h : addVariable f v names values = .ok g) : Grown f g := by
  unfold addVariable at h
  split at h
  · cases h
  · rename_i hv
    split at h
    · cases h
    · rename_i dims hd
      injection h with h
      subst h
      refine ⟨rfl, fun n w e => ?_, fun n d e => grow_dims hd n d e⟩
      have : n ≠ v.name := by rintro rfl; rw [hv] at e; cases e
      dsimp only
      rw [Function.update_of_ne this]
      exact e

/-- The variable that was added. -/
theorem addVariable_var {f g : File} {v : OutVar} {names : List String} {values : Values}
    (h : addVariable f v names values = .ok g) : f.vars v.name = none ∧
      g.vars v.name = some ⟨v.dtype, names, v.metadata, v.fill, values.cells.map (packCell v.dtype v.fill v.metadata)⟩ := by
  unfold addVariable at h
  split at h
  · cases h
  · rename_i hv
    split at h
    · cases h
    · rename_i dims hd
      injection h with h
      subst h
      exact ⟨hv, by simp⟩

theorem addFields_grown : ∀ {l : List (OutVar × Values)} {f g : File}, addFields f l = .ok g → Grown f g
  | [], f, g, h => by
    simp only [addFields] at h
    injection h with h
    subst h
    exact .refl f
  | (v, values) :: t, f, g, h => by
    simp only [addFields] at h
    split at h
    · cases h
    · rename_i f' e
      exact (addVariable_grown e).trans (addFields_grown h)

/-- Every field that was added is in the file, and its name was not in use. -/
theorem addFields_var : ∀ {l : List (OutVar × Values)} {f g : File}, addFields f l = .ok g → ∀ a ∈ l, f.vars a.1.name = none ∧
    g.vars a.1.name = some ⟨a.1.dtype, ["time", "latitude", "longitude"], a.1.metadata, a.1.fill,
      a.2.cells.map (packCell a.1.dtype a.1.fill a.1.metadata)⟩
  | [], _, _, _, _, ha => by cases ha
  | (v, values) :: t, f, g, h, a, ha => by
    simp only [addFields] at h
    split at h
    · cases h
    · rename_i f' e
      rcases List.mem_cons.1 ha with rfl | ha
      · obtain ⟨h1, h2⟩ := addVariable_var e
        exact ⟨h1, (addFields_grown h).vars _ _ h2⟩
      · obtain ⟨h1, h2⟩ := addFields_var h a ha
        refine ⟨?_, h2⟩
        by_contra hc
        obtain ⟨w, hw⟩ := Option.ne_none_iff_exists'.1 hc
        rw [(addVariable_grown e).vars _ _ hw] at h1
        cases h1

/-- The variables of a file come from the file before or were added. -/
theorem addFields_vars_cases : ∀ {l : List (OutVar × Values)} {f g : File}, addFields f l = .ok g → ∀ n, 
    (∃ a ∈ l, a.1.name = n) ∨ g.vars n = f.vars n
  | [], f, g, h, n => by
    simp only [addFields] at h
    injection h with h
    subst h
    exact .inr rfl
  | (v, values) :: t, f, g, h, n => by
    simp only [addFields] at h
    split at h
    · cases h
    · rename_i f' e
      rcases addFields_vars_cases h n with ⟨a, ha, hn⟩ | hn
      · exact .inl ⟨a, List.mem_cons_of_mem _ ha, hn⟩
      · by_cases hv : v.name = n
        · exact .inl ⟨(v, values), List.mem_cons_self, hv⟩
        · right
          rw [hn]
          unfold addGlobalField addVariable at e
          split at e
          · cases e
          · split at e
            · cases e
            · injection e with e
              subst e
              dsimp only
              rw [Function.update_of_ne (Ne.symm hv)]

/-- The dimensions of a file of global fields. -/
structure Dims (f : File) : Prop where
  time : f.dims "time" = some ⟨1, true⟩
  bounds : f.dims "bounds" = some ⟨2, false⟩
  latitude : f.dims "latitude" = some ⟨720, false⟩
  longitude : f.dims "longitude" = some ⟨1440, false⟩

theorem grow_field {f : File} (h : Dims f) : grow f.dims ["time", "latitude", "longitude"] fieldShape = .ok f.dims := by
  have e : Function.update f.dims "time" (some ⟨1, true⟩) = f.dims := by
    rw [← h.time, Function.update_eq_self]
  simp only [grow, fieldShape, h.time, if_true, max_self, e, h.latitude, h.longitude]
  simp

theorem addGlobalField_dims {f g : File} {v : OutVar} {values : Values} (h : Dims f) (hs : values.shape = fieldShape)
    (e : addGlobalField f v values = .ok g) : g.dims = f.dims := by
  unfold addGlobalField addVariable at e
  rw [hs, grow_field h] at e
  split at e
  · cases e
  · injection e with e
    subst e
    rfl

theorem addFields_dims : ∀ {l : List (OutVar × Values)} {f g : File}, Dims f → (∀ a ∈ l, a.2.shape = fieldShape) →
    addFields f l = .ok g → g.dims = f.dims
  | [], f, g, _, _, h => by
    simp only [addFields] at h
    injection h with h
    subst h
    rfl
  | (v, values) :: t, f, g, hd, hs, h => by
    simp only [addFields] at h
    split at h
    · cases h
    · rename_i f' e
      have e1 := addGlobalField_dims hd (hs _ List.mem_cons_self) e
      have hd' : Dims f' := ⟨e1 ▸ hd.time, e1 ▸ hd.bounds, e1 ▸ hd.latitude, e1 ▸ hd.longitude⟩
      exact (addFields_dims hd' (fun a ha => hs a (List.mem_cons_of_mem _ ha)) h).trans e1

/-- Fields with names of their own are added without error. -/
theorem addFields_ok : ∀ {l : List (OutVar × Values)} {f : File}, Dims f → (∀ a ∈ l, a.2.shape = fieldShape) →
    (l.map fun a => a.1.name).Nodup → (∀ a ∈ l, f.vars a.1.name = none) → ∃ g, addFields f l = .ok g
  | [], f, _, _, _, _ => ⟨f, rfl⟩
  | (v, values) :: t, f, hd, hs, hn, hv => by
    have e : addGlobalField f v values = .ok { f with
        vars := Function.update f.vars v.name (some ⟨v.dtype, ["time", "latitude", "longitude"], v.metadata, v.fill,
          values.cells.map (packCell v.dtype v.fill v.metadata)⟩) } := by
      unfold addGlobalField addVariable
      rw [hv _ List.mem_cons_self, hs _ List.mem_cons_self, grow_field hd]
    simp only [addFields, e]
    rw [List.map_cons, List.nodup_cons] at hn
    refine addFields_ok ⟨hd.time, hd.bounds, hd.latitude, hd.longitude⟩
      (fun a ha => hs a (List.mem_cons_of_mem _ ha)) hn.2 (fun a ha => ?_)
    have : a.1.name ≠ v.name := by
      intro e
      exact hn.1 (List.mem_map.2 ⟨a, ha, e⟩)
    dsimp only
    rw [Function.update_of_ne this]
    exact hv a (List.mem_cons_of_mem _ ha)

/-! ### The file of a new global field -/

theorem linspace_length (a b : ℚ) (n : ℕ) : (linspace a b n).length = n := by simp [linspace]

/-- What a plain variable holds when it has been written. -/
def written (v : OutVar) (dims : List String) (values : List (Option ℚ)) : NcVar :=
  ⟨v.dtype, dims, v.metadata, v.fill, values.map (packCell v.dtype v.fill v.metadata)⟩

/-- The dimensions of a new file. -/
def newDims : String → Option Dim :=
  Function.update (Function.update (Function.update (Function.update (fun _ => none) "time" (some ⟨1, true⟩))
    "bounds" (some ⟨2, false⟩)) "latitude" (some ⟨720, false⟩)) "longitude" (some ⟨1440, false⟩)

/-- The variables of a new file. -/
def newVars (day : ℚ) : String → Option NcVar :=
  Function.update (Function.update (Function.update (Function.update (Function.update (fun _ => none)
    "time" (some (written timeVar ["time"] [some (f32 day)])))
    "timebounds" (some (written timeBoundsVar ["time", "bounds"] [some (f32 day), some (f32 (day + 1))])))
    "latitude" (some (written latitudeVar ["latitude"] (latitudes.map some))))
    "longitude" (some (written longitudeVar ["longitude"] (longitudes.map some))))
    "timeoffset" (some (written timeOffsetVar ["longitude"] (timeOffsets.map some)))

theorem latitudes_length : latitudes.length = 720 := linspace_length _ _ _
theorem longitudes_length : longitudes.length = 1440 := linspace_length _ _ _
theorem timeOffsets_length : timeOffsets.length = 1440 := by
  unfold timeOffsets; rw [List.length_map, linspace_length]

theorem addVariable_ok {f : File} {v : OutVar} {names : List String} {values : Values} {dims : String → Option Dim}
    (h : f.vars v.name = none) (hd : grow f.dims names values.shape = .ok dims) :
    addVariable f v names values = .ok ⟨f.attrs, dims, Function.update f.vars v.name (some (written v names values.cells))⟩ := by
  unfold addVariable
  rw [h, hd]
  rfl

theorem createDimension_ok {f : File} {n : String} (size : Option ℕ) (h : f.dims n = none) :
    createDimension f n size = .ok ⟨f.attrs, Function.update f.dims n (some ⟨size.getD 0, size.isNone⟩), f.vars⟩ := by
  unfold createDimension
  rw [h]

/-- An axis of fixed size. -/
theorem addAxis_fixed {f : File} {n : String} {v : OutVar} {values : List ℚ} (h : f.dims n = none)
    (hv : f.vars v.name = none) :
    addAxis f n v values false = .ok ⟨f.attrs, Function.update f.dims n (some ⟨values.length, false⟩),
      Function.update f.vars v.name (some (written v [n] (values.map some)))⟩ := by
  unfold addAxis
  simp only [Bool.false_eq_true, if_false]
  rw [createDimension_ok _ h]
  exact addVariable_ok (f := ⟨f.attrs, Function.update f.dims n (some ⟨values.length, false⟩), f.vars⟩)
    (values := vector values) hv (by simp [grow, vector])

/-- An unlimited axis. -/
theorem addAxis_unlimited {f : File} {n : String} {v : OutVar} {values : List ℚ} (h : f.dims n = none)
    (hv : f.vars v.name = none) :
    addAxis f n v values true = .ok ⟨f.attrs, Function.update f.dims n (some ⟨values.length, true⟩),
      Function.update f.vars v.name (some (written v [n] (values.map some)))⟩ := by
  unfold addAxis
  simp only [if_true]
  rw [createDimension_ok _ h]
  exact addVariable_ok (f := ⟨f.attrs, Function.update f.dims n (some ⟨0, true⟩), f.vars⟩)
    (values := vector values) hv (by simp [grow, vector])

theorem timeVar_name : timeVar.name = "time" := rfl
theorem timeBoundsVar_name : timeBoundsVar.name = "timebounds" := rfl
theorem latitudeVar_name : latitudeVar.name = "latitude" := rfl
theorem longitudeVar_name : longitudeVar.name = "longitude" := rfl
theorem timeOffsetVar_name : timeOffsetVar.name = "timeoffset" := rfl

/-- A new global field has the axes of the grid and its day. -/
theorem newGlobalField_ok (day : ℚ) (dataset institution comment history source : String) :
    newGlobalField day dataset institution comment history source =
      .ok ⟨(create ("EUSTACE Surface Air Temperature Estimates " ++ dataset) institution comment history source).attrs,
        newDims, newVars day⟩ := by
  unfold newGlobalField
  rw [addAxis_unlimited (by rfl) (by rfl)]
  dsimp only
  rw [createDimension_ok _ (by simp [create])]
  dsimp only
  rw [addVariable_ok (v := timeBoundsVar) (by simp [timeBoundsVar, plain, timeVar, create])
    (dims := Function.update (Function.update (fun _ => none) "time" (some ⟨1, true⟩)) "bounds" (some ⟨2, false⟩))]
  · dsimp only
    rw [addAxis_fixed (by simp) (by simp [timeBoundsVar, latitudeVar, plain, timeVar, create])]
    dsimp only
    rw [addAxis_fixed (by simp) (by simp [timeBoundsVar, latitudeVar, longitudeVar, plain, timeVar, create])]
    dsimp only
    rw [addVariable_ok (v := timeOffsetVar)
      (by simp [timeBoundsVar, latitudeVar, longitudeVar, timeOffsetVar, plain, timeVar, create])
      (dims := newDims)]
    · simp only [newVars, vector, timeVar_name, timeBoundsVar_name, latitudeVar_name, longitudeVar_name,
        timeOffsetVar_name, List.map_cons, List.map_nil, create]
    · rw [latitudes_length, longitudes_length]
      simp only [vector, timeOffsets_length, grow, newDims, Function.update_self]
      simp
  · simp only [grow, create]
    simp only [Function.update_self, Function.update_of_ne (show ("time" : String) ≠ "bounds" by decide),
      Function.update_of_ne (show ("bounds" : String) ≠ "time" by decide)]
    simp only [if_true, Option.isNone_some, Bool.false_eq_true, if_false, Option.getD_some, List.length_singleton,
      max_self]
    rw [Function.update_comm (show ("time" : String) ≠ "bounds" by decide), Function.update_idem]

theorem newDims_dims (a : String → Option AttrValue) (v : String → Option NcVar) : Dims ⟨a, newDims, v⟩ := by
  constructor <;> simp [newDims]

end Verif.Eustace.Format
