import Verif.Eustace.Prepare.Props
import Verif.Eustace.Format.Axes
import Verif.Eustace.Format.Names

/-! C174: from the fields which are written to a file of satellite data to what the analysis reads. -/

namespace Verif.Eustace.Prepare

open Verif Verif.Eustace.RawBinary Verif.Eustace.Prepare.Spec
open Verif.Eustace.Insitu (dayContents)
open Verif.Eustace.Format (File OutVar Values Global KeepsPacking newGlobalField addFields fromTemplate templateTemperature
  templateUncertainty extend Keywords)
open Verif.Eustace.Format.Spec (centre Holds)

/-- The points of a coordinate. -/
noncomputable def axis (f : File) (name : String) : List ℝ := ((f.read name).getD []).map fun c => ((c.getD 0 : ℚ) : ℝ)

/-- A field of a file as Iris loads it (`iris.load`, cubemap.py 38): a masked array if any cell is missing, a plain one otherwise, with
the coordinates of the names of its dimensions.  Simplified: the same number `under` is beneath all masked cells. -/
noncomputable def cubeOf (under : ℝ) (f : File) (name : String) : Option Cube :=
  match f.vars name, f.read name with
  | some v, some cells =>
    if v.dims = ["time", "latitude", "longitude"] then
      some ⟨name, v.dims.map fun d => ((f.dims d).map Format.Dim.size).getD 0,
        if cells.any Option.isNone then some (cells.map Option.isNone) else none,
        cells.map (fun c => (c.map fun x : ℚ => (x : ℝ)).getD under),
        [axis f "latitude"], [axis f "longitude"], [((f.read "time").getD []).map fun c => c.getD 0]⟩
    else none
  | _, _ => none

/-- The fields of a file among those of given names (`iris.load`, cubemap.py 38): variables which are not over the grid are not
among them.  The order and what else is loaded do not matter here. -/
noncomputable def load (under : ℝ) (f : File) (names : List String) : List Cube := names.filterMap (cubeOf under f)

theorem cubeOf_name {under : ℝ} {f : File} {name : String} {c : Cube} (h : cubeOf under f name = some c) : c.name = name := by
  unfold cubeOf at h
  split at h
  · split at h
    · injection h with h
      rw [← h]
    · cases h
  · cases h

theorem only_load {under : ℝ} {f : File} {names : List String} {name : String} {c : Cube} (hn : names.Nodup) (hm : name ∈ names)
    (h : cubeOf under f name = some c) : Only (load under f names) name c := by
  obtain ⟨a, b, rfl⟩ := List.append_of_mem hm
  refine ⟨a.filterMap (cubeOf under f), b.filterMap (cubeOf under f), ?_, cubeOf_name h, ?_⟩
  · rw [load, List.filterMap_append, List.filterMap_cons, h]
  · intro x hx
    rw [← List.filterMap_append] at hx
    obtain ⟨n, hn', hx⟩ := List.mem_filterMap.1 hx
    rw [cubeOf_name hx]
    rintro rfl
    rw [List.nodup_append] at hn
    rcases List.mem_append.1 hn' with h' | h'
    · exact hn.2.2 _ h' _ List.mem_cons_self rfl
    · exact (List.nodup_cons.1 hn.2.1).1 h'

section
variable {day : ℚ} {dataset institution comment history source : String} {f g : File}
  (hf : newGlobalField day dataset institution comment history source = .ok f) {l : List (OutVar × Values)}
  (hg : addFields f l = .ok g) (hl : Global l)
include hf hg hl

/-- A field which was added is loaded. -/
theorem cube_field (under : ℝ) {v : OutVar} {values : Values} (hm : (v, values) ∈ l) {cells : List (Option ℚ)}
    (hr : g.read v.name = some cells) :
    cubeOf under g v.name = some ⟨v.name, [1, 720, 1440],
      if cells.any Option.isNone then some (cells.map Option.isNone) else none,
      cells.map (fun c => (c.map fun x : ℚ => (x : ℝ)).getD under),
      [axis g "latitude"], [axis g "longitude"], [((g.read "time").getD []).map fun c => c.getD 0]⟩ := by
  have hv := (Format.addFields_var hg _ hm).2
  have hd := Format.dims_kept hf hg hl
  rw [cubeOf, hr, hv]
  simp only [if_true, List.map_cons, List.map_nil, hd.time, hd.latitude, hd.longitude, Option.map_some, Option.getD_some]

/-- The coordinates of a field which was added are those of the global grid. -/
theorem field_at {r : Grid} (h1 : r.rows = 720) (h2 : r.cols = 1440) (h3 : ∀ i < 720, r.latitude i = (centre (-90) i : ℚ))
    (h4 : ∀ j < 1440, r.longitude j = (centre (-180) j : ℚ)) {c : Cube} (hs : c.shape = [1, 720, 1440])
    (ha : c.latitude = [axis g "latitude"]) (ho : c.longitude = [axis g "longitude"]) : At c r := by
  obtain ⟨lats, lons, e1, e2, l1, l2, p1, p2⟩ := Format.c124_places hf hg hl
  refine ⟨by rw [hs, Grid.size, h1, h2]; rfl, ⟨_, _, ha, ?_, ?_⟩, ⟨_, _, ho, ?_, ?_⟩⟩
  · rw [axis, e1, Option.getD_some, List.length_map, l1, h1]
  · intro i hi
    rw [h1] at hi
    have := p1 i hi
    unfold Holds at this
    rw [axis, e1, Option.getD_some, List.getElem?_map, this, h3 i hi]
    rfl
  · rw [axis, e2, Option.getD_some, List.length_map, l2, h2]
  · intro i hi
    rw [h2] at hi
    have := p2 i hi
    unfold Holds at this
    rw [axis, e2, Option.getD_some, List.getElem?_map, this, h4 i hi]
    rfl

end

/-- The global grid with what was read from two fields. -/
noncomputable def globalGrid (under : ℝ) (time : ℚ) (cells errors : List (Option ℚ)) : Grid where
  rows := 720
  cols := 1440
  latitude := fun i => (centre (-90) i : ℚ)
  longitude := fun j => (centre (-180) j : ℚ)
  time := time
  present := fun k => ((cells[k]?).getD none).isSome
  measurement := fun k => ((((cells[k]?).getD none).map fun x : ℚ => (x : ℝ)).getD under)
  uncertainty := fun k => ((((errors[k]?).getD none).map fun x : ℚ => (x : ℝ)).getD under)

theorem near_isSome {e : ℚ} {a b : Option ℚ} (h : Format.Spec.Near e a b) : a.isSome = b.isSome := by
  cases h <;> rfl

/-- **C174**: a file of the satellite data of a day is made with the measurements and uncertainties of a surface, some cells of
which are missing.  The analysis reads for that day the cells which have a measurement and no others, with the measurement to within
0.0025 K, the uncertainty to within 0.0005 K, and the centre of the cell as its place. -/
theorem c174_written (bits : ℝ → UInt64) (value : UInt64 → ℝ)
    (hv : ∀ i < 720, value (bits (centre (-90) i : ℚ)) = (centre (-90) i : ℚ))
    (hv' : ∀ j < 1440, value (bits (centre (-180) j : ℚ)) = (centre (-180) j : ℚ))
    (uuid verify : Bytes) (hu : uuid.length = 16) {reference sourcename observable m u : String} (hr : Surface reference)
    (hs : Surface sourcename) (hq : Quantity observable m u)
    -- the file of which the table of locations is made
    {day' : ℚ} {a1 a2 a3 a4 a5 : String} {f' g' : File} (hf' : newGlobalField day' a1 a2 a3 a4 a5 = .ok f')
    {l' : List (OutVar × Values)} (hg' : addFields f' l' = .ok g') (hl' : Global l') {v' : OutVar} {values' : Values}
    (hm' : (v', values') ∈ l') (hn' : v'.name = "tasmin") {names' : List String} (hd' : names'.Nodup) (ht' : "tasmin" ∈ names')
    -- the file of the day
    {day : ℤ} (h0 : 0 ≤ day) (h1 : day < 2 ^ 24) {b1 b2 b3 b4 b5 : String} {f g : File}
    (hf : newGlobalField day b1 b2 b3 b4 b5 = .ok f) {l : List (OutVar × Values)} (hg : addFields f l = .ok g) (hl : Global l)
    {k : Keywords} (hk : KeepsPacking k) {v : OutVar} {values : Values} (hm : (v, values) ∈ l)
    (hvt : fromTemplate templateTemperature m k = .ok v) (hvr : ∀ x, some x ∈ values.cells → 109.3125 < x ∧ x < 436.9875)
    {k' : Keywords} (hk' : KeepsPacking k') {t : List Char} {w : OutVar} {errors : Values} (hw : (w, errors) ∈ l)
    (hwt : fromTemplate (extend templateUncertainty t) u k' = .ok w) (hwr : ∀ x, some x ∈ errors.cells → 0 ≤ x ∧ x ≤ 32.767)
    (hgap : none ∈ values.cells) (hgap' : none ∈ errors.cells)
    {names : List String} (hd : names.Nodup) (htm : m ∈ names) (htu : u ∈ names) (under under' : ℝ) :
    ∃ lookup table output kept measurement error, runLookup bits uuid (load under' g' names') reference = .ok lookup ∧
      readLookup lookup = .ok (uuid, table) ∧
      runDay bits value lookup (load under g names) day sourcename observable = .ok output ∧
      readDay 0 (some output) verify day = .ok (dayContents bits day kept measurement error) ∧
      kept.Pairwise (· < ·) ∧ (∀ c, c ∈ kept ↔ ∃ x, Holds values.cells c x) ∧
      ∀ c x, Holds values.cells c x → |measurement c - x| ≤ 0.0025 ∧ (∀ y, Holds errors.cells c y → |error c - y| ≤ 0.0005) ∧
        table[c]? = some (bits (centre (-90) (c / 1440) : ℚ), bits (centre (-180) (c % 1440) : ℚ)) := by
  have hname : v.name = m := (Format.fromTemplate_eq hvt).1
  have hname' : w.name = u := (Format.fromTemplate_eq hwt).1
  obtain ⟨cells, c1, c2⟩ := Format.c121_temperatures hf hg hl hm hk (.inl hvt) hvr
  obtain ⟨errs, e1, e2⟩ := Format.c121_uncertainties hf hg hl hw hk' t (.inl hwt) hwr
  have hlenv : values.cells.length = 1036800 := (hl _ hm).2
  have hlenw : errors.cells.length = 1036800 := (hl _ hw).2
  have hlenc : cells.length = 1036800 := by rw [← c2.length_eq, hlenv]
  have hlene : errs.length = 1036800 := by rw [← e2.length_eq, hlenw]
  have near : ∀ (e : ℚ) (a b : List (Option ℚ)), List.Forall₂ (Format.Spec.Near e) a b → ∀ i : ℕ, ∀ x, a[i]? = some x →
      ∃ y, b[i]? = some y ∧ Format.Spec.Near e x y := by
    intro e a b h
    induction h with
    | nil => intro i x hx; simp at hx
    | cons h _ ih =>
      intro i x hx
      cases i with
      | zero =>
        simp only [List.getElem?_cons_zero, Option.some.injEq] at hx ⊢
        exact ⟨_, rfl, hx ▸ h⟩
      | succ i => simpa using ih i x (by simpa using hx)
  have gap : ∀ (e : ℚ) (a b : List (Option ℚ)), List.Forall₂ (Format.Spec.Near e) a b → none ∈ a → b.any Option.isNone = true := by
    intro e a b h hn
    obtain ⟨i, hi⟩ := List.mem_iff_getElem?.1 hn
    obtain ⟨y, hy, hz⟩ := near e a b h i none hi
    cases hz
    exact List.any_eq_true.2 ⟨none, List.mem_of_getElem? hy, rfl⟩
  have hgapc := gap _ _ _ c2 hgap
  have hgape := gap _ _ _ e2 hgap'
  set G := globalGrid under day cells errs with hG
  have hsize : G.size = 1036800 := by rw [Grid.size, hG]; norm_num [globalGrid]
  -- the reference
  have hc' := cube_field hf' hg' hl' under' hm' (Format.read_field hf' hg' hl' hm')
  rw [hn'] at hc'
  have honly' := only_load hd' ht' hc'
  have hat' : ∀ c : Cube, c.shape = [1, 720, 1440] → c.latitude = [axis g' "latitude"] → c.longitude = [axis g' "longitude"] → At c G :=
    fun c => field_at hf' hg' hl' (r := G) rfl rfl (fun _ _ => rfl) (fun _ _ => rfl) (c := c)
  have hvG : ∀ c < G.size, value (bits (G.place c).1) = (G.place c).1 ∧ value (bits (G.place c).2) = (G.place c).2 := by
    intro c hc
    rw [hsize] at hc
    exact ⟨hv (c / 1440) (by omega), hv' (c % 1440) (by omega)⟩
  -- the day
  have hc := cube_field hf hg hl under hm c1
  rw [hname] at hc
  have he := cube_field hf hg hl under hw e1
  rw [hname'] at he
  have honly := only_load hd htm hc
  have honly'' := only_load hd htu he
  have htime := (Format.c124_day hf hg hl (d := day) rfl (by omega) h1).1
  have hsomeC : ∀ i < G.size, ∃ y, cells[i]? = some y := fun i hi => ⟨_, List.getElem?_eq_getElem (by rw [hlenc]; omega)⟩
  have hsomeE : ∀ i < G.size, ∃ y, errs[i]? = some y := fun i hi => ⟨_, List.getElem?_eq_getElem (by rw [hlene]; omega)⟩
  have hhas : Has (load under g names) m u G := by
    refine ⟨⟨_, honly, field_at hf hg hl (r := G) rfl rfl (fun _ _ => rfl) (fun _ _ => rfl) rfl rfl rfl, ?_, ?_, ?_, ?_⟩,
      ⟨_, honly'', ?_, ?_, ?_⟩⟩
    · refine ⟨[], [], ?_⟩
      simp only
      rw [htime]
      rfl
    · refine ⟨cells.map Option.isNone, by simp only [hgapc, if_true], by rw [List.length_map, hlenc, hsize], fun i hi => ?_⟩
      obtain ⟨y, hy⟩ := hsomeC i hi
      rw [List.getElem?_map, hy]
      have : G.present i = y.isSome := by
        show ((cells[i]?).getD none).isSome = _
        rw [hy]
        rfl
      rw [this]
      cases y <;> rfl
    · rw [List.length_map, hlenc, hsize]
    · intro i hi _
      obtain ⟨y, hy⟩ := hsomeC i hi
      rw [List.getElem?_map, hy]
      show _ = some ((((cells[i]?).getD none).map fun x : ℚ => (x : ℝ)).getD under)
      rw [hy]
      rfl
    · exact ⟨errs.map Option.isNone, by simp only [hgape, if_true]⟩
    · rw [List.length_map, hlene, hsize]
    · intro i hi _
      obtain ⟨y, hy⟩ := hsomeE i hi
      rw [List.getElem?_map, hy]
      show _ = some ((((errs[i]?).getD none).map fun x : ℚ => (x : ℝ)).getD under)
      rw [hy]
      rfl
  have hplaces : SamePlaces G G := c174_one_table (by rw [hsize]; norm_num) rfl rfl (fun _ _ => rfl) fun _ _ => rfl
  obtain ⟨lookup, table, t1, t2, _, t4⟩ := c174_lookup bits uuid hu hr honly' (hat' _ rfl rfl rfl)
  obtain ⟨lookup', r1, r2, _⟩ := c174_day bits value uuid verify hu hr hs hq honly' (hat' _ rfl rfl rfl) hvG hhas (by rw [hsize]; norm_num)
    (show (0 : ℚ) ≤ (day : ℚ) by exact_mod_cast h0) day
  have : lookup' = lookup := Except.ok.inj (r1.symm.trans t1)
  subst this
  obtain ⟨output, kept, r3, r4, r5⟩ := r2 hplaces
  refine ⟨lookup', table, output, kept, G.measurement, G.uncertainty, t1, t2, r3, r5, r4.1, fun c => ?_, fun c x hx => ?_⟩
  · rw [r4.2]
    constructor
    · rintro ⟨hc1, hc2, _⟩
      obtain ⟨y, hy⟩ : ∃ y, values.cells[c]? = some y := ⟨_, List.getElem?_eq_getElem (by rw [hlenv]; omega)⟩
      obtain ⟨z, hz, hyz⟩ := near _ _ _ c2 c y hy
      have : z.isSome = true := by
        have h : G.present c = ((cells[c]?).getD none).isSome := rfl
        rw [hz] at h
        exact h.symm.trans hc2
      rw [← near_isSome hyz] at this
      obtain ⟨x, rfl⟩ := Option.isSome_iff_exists.1 this
      exact ⟨x, hy⟩
    · rintro ⟨x, hx⟩
      have hlt : c < G.size := by
        rw [hsize, ← hlenv]
        exact (List.getElem?_eq_some_iff.1 hx).1
      obtain ⟨z, hz, hyz⟩ := near _ _ _ c2 c _ hx
      refine ⟨hlt, ?_, le_refl (day : ℚ), ?_⟩
      · show ((cells[c]?).getD none).isSome = true
        rw [hz]
        exact (near_isSome hyz).symm
      · show (day : ℚ) < day + 1
        linarith
  · have hlt : c < G.size := by
      rw [hsize, ← hlenv]
      exact (List.getElem?_eq_some_iff.1 hx).1
    obtain ⟨z, hz, hyz⟩ := near _ _ _ c2 c _ hx
    refine ⟨?_, fun y hy => ?_, t4 c hlt⟩
    · cases hyz with
      | value h =>
        show |((((cells[c]?).getD none).map fun x : ℚ => (x : ℝ)).getD under) - _| ≤ _
        rw [hz]
        simp only [Option.getD_some, Option.map_some]
        have h' : ((_ : ℚ) : ℝ) ≤ _ := Rat.cast_le.2 h
        push_cast at h'
        norm_num at h' ⊢
        exact h'
    · obtain ⟨z', hz', hyz'⟩ := near _ _ _ e2 c _ hy
      cases hyz' with
      | value h =>
        show |((((errs[c]?).getD none).map fun x : ℚ => (x : ℝ)).getD under) - _| ≤ _
        rw [hz']
        simp only [Option.getD_some, Option.map_some]
        have h' : ((_ : ℚ) : ℝ) ≤ _ := Rat.cast_le.2 h
        push_cast at h'
        norm_num at h' ⊢
        exact h'

/-! ### A case -/

/-- A field which is missing in the first cell. -/
def gapped (x : ℚ) : Values := ⟨Format.fieldShape, none :: List.replicate 1036799 (some x)⟩

theorem gapped_mem {x y : ℚ} (h : some y ∈ (gapped x).cells) : y = x := by
  rcases List.mem_cons.1 h with h | h
  · cases h
  · exact Option.some.inj (List.mem_replicate.1 h).2

theorem gapped_length (x : ℚ) : (gapped x).cells.length = 1036800 := by
  rw [gapped]
  simp only [List.length_cons, List.length_replicate]

/-- A file with minima and their uncertainties. -/
theorem gapped_file : ∃ f g v w, newGlobalField ((57000 : ℤ) : ℚ) "" "" "" "" "" = .ok f ∧
    addFields f [(v, gapped 280), (w, gapped 1)] = .ok g ∧ Global [(v, gapped 280), (w, gapped 1)] ∧
    fromTemplate templateTemperature "tasmin" (Format.quantityOver "minimum" "time: minimum") = .ok v ∧
    fromTemplate Format.templateUncertaintyTotal "tasminuncertainty" (Format.quantity "mimimum") = .ok w := by
  obtain ⟨v, hv⟩ := Format.c123_definitions.1 (templateTemperature, "tasmin", Format.quantityOver "minimum" "time: minimum")
    (by simp [Format.definitions])
  obtain ⟨w, hw⟩ := Format.c123_definitions.1 (Format.templateUncertaintyTotal, "tasminuncertainty", Format.quantity "mimimum")
    (by simp [Format.definitions])
  have hn : v.name = "tasmin" := (Format.fromTemplate_eq hv).1
  have hn' : w.name = "tasminuncertainty" := (Format.fromTemplate_eq hw).1
  have hglobal : Global [(v, gapped 280), (w, gapped 1)] := by
    intro a ha
    simp only [List.mem_cons, List.not_mem_nil, or_false] at ha
    rcases ha with rfl | rfl
    · exact ⟨rfl, gapped_length _⟩
    · exact ⟨rfl, gapped_length _⟩
  obtain ⟨g, hg⟩ := Format.addFields_ok (l := [(v, gapped 280), (w, gapped 1)])
    (f := ⟨(Format.create ("EUSTACE Surface Air Temperature Estimates " ++ "") "" "" "" "").attrs, Format.newDims,
      Format.newVars ((57000 : ℤ) : ℚ)⟩)
    (Format.newDims_dims _ _) (fun a ha => (hglobal a ha).1) (by simp [hn, hn']) (by
      intro a ha
      simp only [List.mem_cons, List.not_mem_nil, or_false] at ha
      rcases ha with rfl | rfl
      · simp [hn, Format.newVars, Function.update]
      · simp [hn', Format.newVars, Function.update])
  exact ⟨_, g, v, w, Format.newGlobalField_ok _ _ _ _ _ _, hg, hglobal, hv, hw⟩

theorem latitudes_exact : ∀ i < 720, exampleValue (exampleBits (centre (-90) i : ℚ)) = (centre (-90) i : ℚ) := by
  intro i hi
  refine example_exact _ (7281 + 2 * i) (by omega) ?_
  rw [centre]
  push_cast
  ring

theorem longitudes_exact : ∀ j < 1440, exampleValue (exampleBits (centre (-180) j : ℚ)) = (centre (-180) j : ℚ) := by
  intro i hi
  refine example_exact _ (6561 + 2 * i) (by omega) ?_
  rw [centre]
  push_cast
  ring

/-- Non-vacuity: that file meets the hypotheses of `c174_written`, both for the table and for the day. -/
example : ∃ g : File, ∃ lookup output kept measurement error,
    runLookup exampleBits (List.replicate 16 0) (load 0 g ["tasmin", "tasminuncertainty"]) "surfaceairmodel_ice" = .ok lookup ∧
      runDay exampleBits exampleValue lookup (load 0 g ["tasmin", "tasminuncertainty"]) 57000 "surfaceairmodel_land" "Tmin" = .ok output ∧
      readDay 0 (some output) [] 57000 = .ok (dayContents exampleBits 57000 kept measurement error) ∧ 0 ∉ kept ∧ 1 ∈ kept ∧
      |measurement 1 - 280| ≤ 0.0025 := by
  obtain ⟨f, g, v, w, hf, hg, hl, h1, h2⟩ := gapped_file
  have get : ∀ x, Holds (gapped x).cells 1 x := by
    intro x
    unfold Holds gapped
    simp only [List.getElem?_cons_succ]
    rw [List.getElem?_replicate, if_pos (by norm_num)]
  obtain ⟨lookup, table, output, kept, measurement, error, r1, _, r3, r4, _, r6, r7⟩ := c174_written exampleBits exampleValue latitudes_exact
    longitudes_exact (List.replicate 16 0) [] (by simp) .ice .land .minimum hf hg hl (List.mem_cons_self)
    (Format.fromTemplate_eq h1).1 (names' := ["tasmin", "tasminuncertainty"]) (by simp) (by simp) (by norm_num) (by norm_num) hf hg hl
    (Format.quantityOver_keeps _ _) List.mem_cons_self h1 (fun x hx => by rw [gapped_mem hx]; norm_num)
    (k' := Format.quantity "mimimum") (by intro a ha; simp [Format.quantity] at ha; subst ha; exact ⟨by simp, by simp⟩)
    (List.mem_cons_of_mem _ List.mem_cons_self) h2 (fun x hx => by rw [gapped_mem hx]; norm_num) List.mem_cons_self List.mem_cons_self
    (names := ["tasmin", "tasminuncertainty"]) (by simp) (by simp) (by simp) 0 0
  refine ⟨g, lookup, output, kept, measurement, error, r1, r3, r4, fun h => ?_, (r6 1).2 ⟨_, get _⟩, ?_⟩
  · obtain ⟨x, hx⟩ := (r6 0).1 h
    unfold Holds gapped at hx
    simp only [List.getElem?_cons_zero] at hx
    exact (nomatch Option.some.inj hx)
  · exact_mod_cast (r7 1 _ (get _)).1

end Verif.Eustace.Prepare
