import Verif.Eustace.Format.Files

/-! C121: fields keep their values in output files. -/
namespace Verif.Eustace.Format
open Verif Verif.Float32 Spec

/-- Keyword arguments which leave the packing of a template as it is. -/
def KeepsPacking (k : Keywords) : Prop := ∀ a ∈ k, a.1 ≠ "scale_factor" ∧ a.1 ≠ "add_offset"

theorem fromTemplate_eq {base : Template} {name : String} {k : Keywords} {v : OutVar}
    (h : fromTemplate base name k = .ok v) : v.name = name ∧ v.dtype = base.dtype ∧ v.fill = base.fill ∧
      v.members = fun key => if (unused base k).any (fun a => a.1 = key) then (unused base k).get key else base.metadata key := by
  unfold fromTemplate at h
  split at h
  · cases h
  · split at h
    · injection h with h; subst h; exact ⟨rfl, rfl, rfl, rfl⟩
    · cases h

theorem fromTemplate_members {base : Template} {name : String} {k : Keywords} {v : OutVar}
    (h : fromTemplate base name k = .ok v) {key : String} (hk : ∀ a ∈ k, a.1 ≠ key) : v.members key = base.members key := by
  rw [(fromTemplate_eq h).2.2.2]
  have : (unused base k).any (fun a => a.1 = key) = false := by
    rw [List.any_eq_false]
    intro a ha
    have := hk a (List.mem_of_mem_filter ha)
    simp [this]
  simp only [this, Bool.false_eq_true, if_false, Template.metadata]

theorem metadata_members (v : OutVar) {key : String} (h : key ≠ "long_name") : v.metadata key = v.members key := by
  simp [OutVar.metadata, h]

theorem fromTemplate_packs {base : Template} {name : String} {k : Keywords} {v : OutVar} {s o : ℚ}
    (h : fromTemplate base name k = .ok v) (hk : KeepsPacking k) (hp : Packs base.members s o) : Packs v.metadata s o := by
  have h1 := fromTemplate_members h (key := "scale_factor") (fun a ha => (hk a ha).1)
  have h2 := fromTemplate_members h (key := "add_offset") (fun a ha => (hk a ha).2)
  constructor
  · have := hp.1
    unfold numberAttr at this ⊢
    rw [metadata_members v (by decide), h1]
    exact this
  · have := hp.2
    unfold numberAttr at this ⊢
    rw [metadata_members v (by decide), h2]
    exact this

/-- Variables stored as integers of 16 bits with the fill value -32768. -/
structure Stored (v : OutVar) (s o : ℚ) : Prop where
  dtype : v.dtype = .int16
  fill : v.fill = some (-32768)
  packs : Packs v.metadata s o
  pos : 0 < s

theorem kept_map {v : OutVar} {s o : ℚ} (h : Stored v s o) {cells : List (Option ℚ)}
    (hr : ∀ x, some x ∈ cells → |x - o| < 65535 / 2 * s) :
    Kept (s / 2) cells ((cells.map (packCell v.dtype v.fill v.metadata)).map (unpackCell v.dtype v.fill v.metadata)) := by
  rw [h.dtype, h.fill, List.map_map]
  unfold Kept
  rw [List.forall₂_map_right_iff, List.forall₂_same]
  intro c hc
  cases c with
  | none => rw [Function.comp_apply, cell_missing]; exact .missing
  | some x => exact cell_near h.packs h.pos (hr x hc)

theorem extent_field {f : File} (h : Dims f) : f.extent ["time", "latitude", "longitude"] = 1036800 := by
  simp [File.extent, h.time, h.latitude, h.longitude]

/-- Fields for the whole globe. -/
def Global (l : List (OutVar × Values)) : Prop := ∀ a ∈ l, a.2.shape = fieldShape ∧ a.2.cells.length = 1036800

/-- What is read of a field. -/
theorem read_field {day : ℚ} {dataset institution comment history source : String} {f g : File}
    (hf : newGlobalField day dataset institution comment history source = .ok f) {l : List (OutVar × Values)}
    (hg : addFields f l = .ok g) (hl : Global l) {v : OutVar} {values : Values} (hm : (v, values) ∈ l) :
    g.read v.name = some ((values.cells.map (packCell v.dtype v.fill v.metadata)).map (unpackCell v.dtype v.fill v.metadata)) := by
  rw [newGlobalField_ok] at hf
  injection hf with hf
  have hd : Dims f := by rw [← hf]; exact newDims_dims _ _
  have e := addFields_dims hd (fun a ha => (hl a ha).1) hg
  have hd' : Dims g := ⟨e ▸ hd.time, e ▸ hd.bounds, e ▸ hd.latitude, e ▸ hd.longitude⟩
  have hv := (addFields_var hg _ hm).2
  have hlen := (hl _ hm).2
  unfold File.read
  dsimp only at hv
  rw [hv, Option.map_some]
  dsimp only
  rw [extent_field hd', List.length_map]
  dsimp only at hlen
  rw [hlen, Nat.sub_self, List.replicate_zero, List.append_nil]

theorem field_kept {day : ℚ} {dataset institution comment history source : String} {f g : File}
    (hf : newGlobalField day dataset institution comment history source = .ok f) {l : List (OutVar × Values)}
    (hg : addFields f l = .ok g) (hl : Global l) {v : OutVar} {values : Values} (hm : (v, values) ∈ l) {s o : ℚ}
    (h : Stored v s o) (hr : ∀ x, some x ∈ values.cells → |x - o| < 65535 / 2 * s) :
    ∃ cells, g.read v.name = some cells ∧ Kept (s / 2) values.cells cells :=
  ⟨_, read_field hf hg hl hm, kept_map h hr⟩

theorem stored_of_template {base : Template} {name : String} {k : Keywords} {v : OutVar} {s o : ℚ}
    (hv : fromTemplate base name k = .ok v) (hk : KeepsPacking k) (hd : base.dtype = .int16)
    (hf : base.fill = some (-32768)) (hp : Packs base.members s o) (hs : 0 < s) : Stored v s o :=
  ⟨(fromTemplate_eq hv).2.1.trans hd, (fromTemplate_eq hv).2.2.1.trans hf, fromTemplate_packs hv hk hp, hs⟩

theorem packs_packed (s o : ℚ) (rest : Keywords) : Packs (packed s o rest).get s o := by
  constructor <;> simp [numberAttr, packed, Keywords.get]

theorem temperature_stored {name : String} {k : Keywords} {v : OutVar} (hk : KeepsPacking k)
    (hv : fromTemplate templateTemperature name k = .ok v ∨ fromTemplate templateEnsemble name k = .ok v) :
    Stored v (5 / 1000) (27315 / 100) := by
  rcases hv with hv | hv <;> exact stored_of_template hv hk rfl rfl (packs_packed _ _ _) (by norm_num)

theorem uncertainty_stored {name : String} {k : Keywords} {v : OutVar} (hk : KeepsPacking k) (t : List Char)
    (hv : fromTemplate (extend templateUncertainty t) name k = .ok v) : Stored v (1 / 1000) 0 :=
  stored_of_template hv hk rfl rfl (packs_packed _ _ _) (by norm_num)

theorem parameter_stored (name longName : String) : Stored (uncertaintyParameter name longName) (1 / 1000) 0 := by
  refine ⟨rfl, rfl, ?_, by norm_num⟩
  constructor <;> simp [numberAttr, uncertaintyParameter, OutVar.metadata, packed, Keywords.get]

theorem perturbation_stored {name : String} {k : Keywords} {v : OutVar} (hk : KeepsPacking k)
    (hv : fromTemplate templatePerturbation name k = .ok v) : Stored v (5 / 1000) 0 :=
  stored_of_template hv hk rfl rfl (packs_packed _ _ _) (by norm_num)

theorem fraction_stored {name : String} {k : Keywords} {v : OutVar} (hk : KeepsPacking k)
    (hv : fromTemplate templateFraction name k = .ok v ∨ fromTemplate templateInfluence name k = .ok v) :
    Stored v (15625 / 1000000000) (1 / 2) := by
  rcases hv with hv | hv <;> exact stored_of_template hv hk rfl rfl (packs_packed _ _ _) (by norm_num)

section
variable {day : ℚ} {dataset institution comment history source : String} {f g : File}
  (hf : newGlobalField day dataset institution comment history source = .ok f) {l : List (OutVar × Values)}
  (hg : addFields f l = .ok g) (hl : Global l) {name : String} {k : Keywords} {v : OutVar} {values : Values}
  (hm : (v, values) ∈ l) (hk : KeepsPacking k)
include hf hg hl hm

/-- C121: temperatures between 109.3125 K and 436.9875 K are read back to within 0.0025 K, and missing values as missing,
whatever else is in the file. -/
theorem c121_temperatures (hk : KeepsPacking k)
    (hv : fromTemplate templateTemperature name k = .ok v ∨ fromTemplate templateEnsemble name k = .ok v)
    (hr : ∀ x, some x ∈ values.cells → 109.3125 < x ∧ x < 436.9875) :
    ∃ cells, g.read v.name = some cells ∧ Kept 0.0025 values.cells cells := by
  obtain ⟨cells, h1, h2⟩ := field_kept hf hg hl hm (temperature_stored hk hv) (fun x hx => by
    have := hr x hx
    rw [abs_lt]
    constructor <;> norm_num at this ⊢ <;> linarith [this.1, this.2])
  exact ⟨cells, h1, by norm_num at h2 ⊢; exact h2⟩

/-- C121: differences of temperature up to 163.83 K are read back to within 0.0025 K. -/
theorem c121_perturbations (hk : KeepsPacking k) (hv : fromTemplate templatePerturbation name k = .ok v)
    (hr : ∀ x, some x ∈ values.cells → |x| < 163.8375) :
    ∃ cells, g.read v.name = some cells ∧ Kept 0.0025 values.cells cells := by
  obtain ⟨cells, h1, h2⟩ := field_kept hf hg hl hm (perturbation_stored hk hv) (fun x hx => by
    have := hr x hx
    norm_num at this ⊢
    exact this)
  exact ⟨cells, h1, by norm_num at h2 ⊢; exact h2⟩

/-- C121: uncertainties up to 32.767 K are read back to within 0.0005 K. -/
theorem c121_uncertainties (hk : KeepsPacking k) (t : List Char)
    (hv : fromTemplate (extend templateUncertainty t) name k = .ok v ∨ ∃ n longName, v = uncertaintyParameter n longName)
    (hr : ∀ x, some x ∈ values.cells → 0 ≤ x ∧ x ≤ 32.767) :
    ∃ cells, g.read v.name = some cells ∧ Kept 0.0005 values.cells cells := by
  have hs : Stored v (1 / 1000) 0 := by
    rcases hv with hv | ⟨n, m, rfl⟩
    · exact uncertainty_stored hk t hv
    · exact parameter_stored n m
  obtain ⟨cells, h1, h2⟩ := field_kept hf hg hl hm hs (fun x hx => by
    have := hr x hx
    rw [abs_lt]
    constructor <;> norm_num at this ⊢ <;> linarith [this.1, this.2])
  exact ⟨cells, h1, by norm_num at h2 ⊢; exact h2⟩

/-- C121: fractions are read back to within 1 / 128000. -/
theorem c121_fractions (hk : KeepsPacking k)
    (hv : fromTemplate templateFraction name k = .ok v ∨ fromTemplate templateInfluence name k = .ok v)
    (hr : ∀ x, some x ∈ values.cells → 0 ≤ x ∧ x ≤ 1) :
    ∃ cells, g.read v.name = some cells ∧ Kept (1 / 128000) values.cells cells := by
  obtain ⟨cells, h1, h2⟩ := field_kept hf hg hl hm (fraction_stored hk hv) (fun x hx => by
    have := hr x hx
    rw [abs_lt]
    constructor <;> norm_num <;> linarith [this.1, this.2])
  exact ⟨cells, h1, by norm_num at h2 ⊢; exact h2⟩

/-- C121: a value outside the range is lost: it is read back as missing, or is off by at least 65535 steps (327 K for
temperatures and 65 K for uncertainties), with no error from the program. -/
theorem c121_outside {s o : ℚ} (h : Stored v s o) {i : ℕ} {x : ℚ} (hi : values.cells[i]? = some (some x))
    (hx : 65535 / 2 * s ≤ |x - o|) :
    ∃ cells, g.read v.name = some cells ∧ (cells[i]? = some none ∨ ∃ y, cells[i]? = some (some y) ∧ 65535 * s ≤ |y - x|) := by
  refine ⟨_, read_field hf hg hl hm, ?_⟩
  rw [h.dtype, h.fill, List.getElem?_map, List.getElem?_map, hi, Option.map_some, Option.map_some]
  cases hy : unpackCell .int16 (some (-32768)) v.metadata (packCell .int16 (some (-32768)) v.metadata (some x)) with
  | none => exact .inl rfl
  | some y => exact .inr ⟨y, rfl, cell_far h.packs h.pos (not_lt.2 hx) hy⟩

/-- C121: values in range at any two cells of two fields stored alike keep their order, so that a minimum stays below a
maximum. -/
theorem c121_order {v' : OutVar} {values' : Values} (hm' : (v', values') ∈ l) {s o : ℚ} (h : Stored v s o)
    (h' : Stored v' s o) {i : ℕ} {x x' : ℚ} (hi : values.cells[i]? = some (some x)) (hi' : values'.cells[i]? = some (some x'))
    (hx : |x - o| < 65535 / 2 * s) (hx' : |x' - o| < 65535 / 2 * s) (hle : x ≤ x') :
    ∃ cells cells' y y', g.read v.name = some cells ∧ g.read v'.name = some cells' ∧ Holds cells i y ∧ Holds cells' i y' ∧
      y ≤ y' := by
  have n1 := cell_near h.packs h.pos hx
  have n2 := cell_near h'.packs h'.pos hx'
  cases hy : unpackCell .int16 (some (-32768)) v.metadata (packCell .int16 (some (-32768)) v.metadata (some x)) with
  | none => rw [hy] at n1; cases n1
  | some y =>
    cases hy' : unpackCell .int16 (some (-32768)) v'.metadata (packCell .int16 (some (-32768)) v'.metadata (some x')) with
    | none => rw [hy'] at n2; cases n2
    | some y' =>
      refine ⟨_, _, y, y', read_field hf hg hl hm, read_field hf hg hl hm', ?_, ?_, ?_⟩
      · unfold Holds
        rw [h.dtype, h.fill, List.getElem?_map, List.getElem?_map, hi, Option.map_some, Option.map_some, hy]
      · unfold Holds
        rw [h'.dtype, h'.fill, List.getElem?_map, List.getElem?_map, hi', Option.map_some, Option.map_some, hy']
      · refine cell_mono h.packs h.pos hx hx' hle hy ?_
        rw [← hy']
        simp only [packCell, pack_int16 h.packs, pack_int16 h'.packs, unpack_int16 h.packs, unpack_int16 h'.packs]

end

/-- C121: a field which is read and written again is stored as the same numbers, so that copies do not drift. -/
theorem c121_rewrite {v : OutVar} {s o : ℚ} (h : Stored v s o) (cells : List (Option ℚ)) :
    let stored := cells.map (packCell v.dtype v.fill v.metadata)
    (stored.map (unpackCell v.dtype v.fill v.metadata)).map (packCell v.dtype v.fill v.metadata) = stored := by
  intro stored
  rw [List.map_map, List.map_map, h.dtype, h.fill]
  apply List.map_congr_left
  intro c _
  simp only [Function.comp_apply]
  have : ∃ k : ℤ, packCell .int16 (some (-32768)) v.metadata c = k ∧ -32768 ≤ k ∧ k ≤ 32767 := by
    cases c with
    | none => exact ⟨-32768, by norm_num [packCell, fillOf], by norm_num, by norm_num⟩
    | some x => exact ⟨_, pack_int16 h.packs x, signed_range _⟩
  obtain ⟨k, e, h1, h2⟩ := this
  rw [e, cell_again h.packs h.pos h1 h2, h.dtype, h.fill, e]

/-- A field which has the same value everywhere. -/
def uniform (x : ℚ) : Values := ⟨fieldShape, List.replicate 1036800 (some x)⟩

theorem uniform_global (v : OutVar) (x : ℚ) : Global [(v, uniform x)] := by
  intro a ha
  rw [List.mem_singleton] at ha
  subst ha
  exact ⟨rfl, List.length_replicate⟩

theorem uniform_mem {x y : ℚ} (h : some y ∈ (uniform x).cells) : y = x := by
  have := List.eq_of_mem_replicate h
  injection this

theorem uniform_get (x : ℚ) : (uniform x).cells[0]? = some (some x) := by
  unfold uniform
  dsimp only
  rw [List.getElem?_replicate, if_pos (by norm_num)]

/-- A file with one field. -/
theorem single_file (v : OutVar) (x : ℚ) (hn : v.name ∉ ["time", "timebounds", "latitude", "longitude", "timeoffset"]) :
    ∃ f g, newGlobalField 1 "" "" "" "" "" = .ok f ∧ addFields f [(v, uniform x)] = .ok g := by
  have hv : newVars 1 v.name = none := by
    simp only [List.mem_cons, List.not_mem_nil, or_false, not_or] at hn
    simp only [newVars]
    rw [Function.update_of_ne hn.2.2.2.2, Function.update_of_ne hn.2.2.2.1, Function.update_of_ne hn.2.2.1,
      Function.update_of_ne hn.2.1, Function.update_of_ne hn.1]
  obtain ⟨g, hg⟩ := addFields_ok (l := [(v, uniform x)])
    (f := ⟨(create ("EUSTACE Surface Air Temperature Estimates " ++ "") "" "" "" "").attrs, newDims, newVars 1⟩)
    (newDims_dims _ _) (fun a ha => (uniform_global v x a ha).1) (by simp) (by
      intro a ha
      rw [List.mem_singleton] at ha
      subst ha
      exact hv)
  exact ⟨_, g, newGlobalField_ok _ _ _ _ _ _, hg⟩

/-- The definition of `TAS`, definitions.py 182, is accepted. -/
theorem tas_ok : ∃ v, fromTemplate templateTemperature "tas" (quantityOver "average" "time: mean") = .ok v ∧ v.name = "tas" := by
  have h : ∃ v, fromTemplate templateTemperature "tas" (quantityOver "average" "time: mean") = .ok v := by
    unfold fromTemplate
    simp [longNameOf, templateTemperature, formatText, textOf, quantityOver, Keywords.get, unused, Template.keywords,
      findFields, wordChar, metadataKeywords]
  obtain ⟨v, hv⟩ := h
  exact ⟨v, hv, (fromTemplate_eq hv).1⟩

theorem quantityOver_keeps (q m : String) : KeepsPacking (quantityOver q m) := by
  intro a ha
  simp only [quantityOver, List.mem_cons, List.not_mem_nil, or_false] at ha
  rcases ha with rfl | rfl <;> exact ⟨by simp, by simp⟩

/-- A file whose temperatures are 288 K everywhere meets the hypotheses of `c121_temperatures`. -/
example : ∃ f g v, newGlobalField 1 "" "" "" "" "" = .ok f ∧ addFields f [(v, uniform 288)] = .ok g ∧ v.name = "tas" ∧
    ∃ cells, g.read "tas" = some cells ∧ Kept 0.0025 (uniform 288).cells cells := by
  obtain ⟨v, hv, hn⟩ := tas_ok
  obtain ⟨f, g, hf, hg⟩ := single_file v 288 (by rw [hn]; simp)
  refine ⟨f, g, v, hf, hg, hn, ?_⟩
  rw [← hn]
  exact c121_temperatures hf hg (uniform_global v 288) (List.mem_singleton.2 rfl) (quantityOver_keeps _ _) (.inl hv)
    (fun x hx => by rw [uniform_mem hx]; norm_num)

/-- C121 fails for large uncertainties: one of 40 K is not read back as anything near it. -/
theorem c121_uncertainties_violated : ∃ f g v, newGlobalField 1 "" "" "" "" "" = .ok f ∧
    addFields f [(v, uniform 40)] = .ok g ∧ v = uncertaintyParameter "tasuncertainty" "Total uncertainty" ∧
    ∃ cells, g.read "tasuncertainty" = some cells ∧ Holds cells 0 (-25.536) := by
  obtain ⟨f, g, hf, hg⟩ := single_file (uncertaintyParameter "tasuncertainty" "Total uncertainty") 40
    (by simp [uncertaintyParameter])
  refine ⟨f, g, _, hf, hg, rfl, _, read_field hf hg (uniform_global _ 40) (List.mem_singleton.2 rfl), ?_⟩
  have h := parameter_stored "tasuncertainty" "Total uncertainty"
  unfold Holds
  rw [h.dtype, h.fill, List.getElem?_map, List.getElem?_map, uniform_get, Option.map_some, Option.map_some]
  simp only [packCell, pack_int16 h.packs, unpack_int16 h.packs]
  have : signed 32768 (rne ((40 - 0) / (1 / 1000))) = -25536 := by decide +kernel
  rw [this]
  norm_num

/-- C121 fails for low temperatures: one of 109.31 K is read back as missing. -/
theorem c121_low_violated : ∃ f g v, newGlobalField 1 "" "" "" "" "" = .ok f ∧
    addFields f [(v, uniform 109.31)] = .ok g ∧ v.name = "tas" ∧
    ∃ cells, g.read "tas" = some cells ∧ cells[0]? = some none := by
  obtain ⟨v, hv, hn⟩ := tas_ok
  obtain ⟨f, g, hf, hg⟩ := single_file v 109.31 (by rw [hn]; simp)
  refine ⟨f, g, v, hf, hg, hn, ?_⟩
  rw [← hn]
  refine ⟨_, read_field hf hg (uniform_global _ _) (List.mem_singleton.2 rfl), ?_⟩
  have h := temperature_stored (quantityOver_keeps _ _) (.inl hv)
  rw [h.dtype, h.fill, List.getElem?_map, List.getElem?_map, uniform_get, Option.map_some, Option.map_some]
  simp only [packCell, pack_int16 h.packs, unpack_int16 h.packs]
  have : signed 32768 (rne ((109.31 - 27315 / 100) / (5 / 1000))) = -32768 := by decide +kernel
  rw [this]
  simp

/-- C121 fails to keep small uncertainties above zero: one of 0.0004 K is read back as zero. -/
theorem c121_small_violated : ∃ f g v, newGlobalField 1 "" "" "" "" "" = .ok f ∧
    addFields f [(v, uniform 0.0004)] = .ok g ∧ v = uncertaintyParameter "tasuncertainty" "Total uncertainty" ∧
    ∃ cells, g.read "tasuncertainty" = some cells ∧ Holds cells 0 0 := by
  obtain ⟨f, g, hf, hg⟩ := single_file (uncertaintyParameter "tasuncertainty" "Total uncertainty") 0.0004
    (by simp [uncertaintyParameter])
  refine ⟨f, g, _, hf, hg, rfl, _, read_field hf hg (uniform_global _ _) (List.mem_singleton.2 rfl), ?_⟩
  have h := parameter_stored "tasuncertainty" "Total uncertainty"
  unfold Holds
  rw [h.dtype, h.fill, List.getElem?_map, List.getElem?_map, uniform_get, Option.map_some, Option.map_some]
  simp only [packCell, pack_int16 h.packs, unpack_int16 h.packs]
  have : signed 32768 (rne ((0.0004 - 0) / (1 / 1000))) = 0 := by decide +kernel
  rw [this]
  norm_num

end Verif.Eustace.Format
