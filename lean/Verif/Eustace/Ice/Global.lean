import Verif.Eustace.Ice.Process

/-! Loading parameters, and the two hemispheres as one global field. -/

namespace Verif.Eustace.Ice

open Verif

noncomputable section

theorem lookup_cons (name name' : String) (g : Observable → List ℝ) (acc : Parameters) :
    lookup ((name, g) :: acc) name' = if name = name' then .ok g else lookup acc name' := by
  unfold lookup
  rw [List.find?_cons]
  by_cases h : name = name' <;> simp [h]

theorem loadLoop_eq (vectors : List (List (List ℝ))) (names : List String) (k : ℕ) (acc p : Parameters) (hn : names.Nodup)
    (h : loadLoop vectors names k acc = .ok p) :
    (∀ name, name ∉ names → lookup p name = lookup acc name) ∧
    ∀ n name, names[n]? = some name → ∃ a b c g, vectors[k + n]? = some [a, b, c] ∧ lookup p name = .ok g ∧
      g .tas = a ∧ g .tasmin = b ∧ g .tasmax = c := by
  induction names generalizing k acc with
  | nil =>
    cases h
    exact ⟨fun _ _ => rfl, fun n name hn => by simp at hn⟩
  | cons a names ih =>
    obtain ⟨ha, hn'⟩ := List.nodup_cons.mp hn
    unfold loadLoop at h
    cases hv : vectors[k]? with
    | none => rw [hv] at h; cases h
    | some v =>
      rw [hv] at h
      dsimp only at h
      by_cases hl : v.length = 3
      · rw [if_neg (not_not.mpr hl)] at h
        obtain ⟨h1, h2⟩ := ih _ _ hn' h
        refine ⟨?_, ?_⟩
        · intro name hname
          rw [List.mem_cons, not_or] at hname
          rw [h1 name hname.2, lookup_cons, if_neg (Ne.symm hname.1)]
        · intro n name hname
          cases n with
          | zero =>
            simp only [List.getElem?_cons_zero, Option.some.injEq] at hname
            subst hname
            match v, hl with
            | [b, c, d], _ =>
              refine ⟨b, c, d, _, by rw [Nat.add_zero]; exact hv, by rw [h1 a ha, lookup_cons, if_pos rfl], rfl, rfl, rfl⟩
          | succ n =>
            rw [List.getElem?_cons_succ] at hname
            obtain ⟨b, c, d, g, e1, e2⟩ := h2 n name hname
            exact ⟨b, c, d, g, by rw [← e1]; congr 1; omega, e2⟩
      · rw [if_pos hl] at h; cases h

/-- A file of parameters which is accepted has both surfaces, and gives each observable of each surface its own vector: the order in
the file is average, minimum, maximum. -/
theorem c115_load (f : ParameterFile) (p : Parameters) (hn : f.names.Nodup) (h : loadHemisphere f = .ok p) :
    (∀ s : Surface, ∃ n : ℕ, f.names[n]? = some s.name) ∧
    ∀ (n : ℕ) (s : Surface), f.names[n]? = some s.name → ∃ a b c g, f.vectors[n]? = some [a, b, c] ∧ lookup p s.name = .ok g ∧
      g .tas = a ∧ g .tasmin = b ∧ g .tasmax = c := by
  unfold loadHemisphere at h
  by_cases h1 : Surface.landIce.name ∈ f.names
  · rw [if_neg (not_not.mpr h1)] at h
    by_cases h2 : Surface.seaIce.name ∈ f.names
    · rw [if_neg (not_not.mpr h2)] at h
      refine ⟨fun s => ?_, fun n s hs => ?_⟩
      · cases s
        · exact List.mem_iff_getElem?.mp h1
        · exact List.mem_iff_getElem?.mp h2
      · have := (loadLoop_eq f.vectors f.names 0 [] p hn h).2 n s.name hs
        rw [Nat.zero_add] at this
        exact this
    · rw [if_pos h2] at h; cases h
  · rw [if_pos h1] at h; cases h

/-- The entry of a dictionary of fields. -/
def entryOf (r : List (String × Grid (Option ℝ))) (name : String) : Option (Grid (Option ℝ)) :=
  (r.find? (fun e => e.1 = name)).map Prod.snd

theorem entryOf_append (r : List (String × Grid (Option ℝ))) (name name' : String) (g : Grid (Option ℝ))
    (h : entryOf r name = none) :
    entryOf (r ++ [(name, g)]) name' = if name' = name then some g else entryOf r name' := by
  unfold entryOf at *
  rw [List.find?_append]
  by_cases hn : name' = name
  · subst hn
    rw [Option.map_eq_none_iff] at h
    simp [h]
  · rw [if_neg hn]
    cases hf : r.find? (fun e => e.1 = name') with
    | some e => simp
    | none => simp [Ne.symm hn]

theorem entryOf_replace (r : List (String × Grid (Option ℝ))) (name name' : String) (g g0 : Grid (Option ℝ))
    (h : entryOf r name = some g0) :
    entryOf (r.map fun e => if e.1 = name then (name, g) else e) name' = if name' = name then some g else entryOf r name' := by
  induction r with
  | nil => simp [entryOf] at h
  | cons a r ih =>
    unfold entryOf at *
    rw [List.map_cons, List.find?_cons]
    by_cases ha : a.1 = name
    · by_cases hn : name' = name
      · subst hn; simp [ha]
      · rw [if_neg hn]
        simp only [ha, if_true, List.find?_cons]
        rw [decide_eq_false (Ne.symm hn)]
        dsimp only
        -- the rest does not see the replaced entries
        clear ih h
        induction r with
        | nil => rfl
        | cons b r ih' =>
          rw [List.map_cons, List.find?_cons, List.find?_cons]
          by_cases hb : b.1 = name
          · simp only [hb, if_true]
            rw [decide_eq_false (Ne.symm hn)]
            exact ih'
          · simp only [hb, if_false]
            by_cases hb' : b.1 = name'
            · simp [hb']
            · rw [decide_eq_false hb']; exact ih'
    · rw [List.find?_cons, decide_eq_false ha] at h
      have ih := ih h
      simp only [ha, if_false, List.find?_cons]
      by_cases hb : a.1 = name'
      · have : name' ≠ name := fun e => ha (hb.trans e)
        simp [hb, this]
      · rw [decide_eq_false hb]
        exact ih

/-- Rows put into a larger field. -/
def placed (base : Grid (Option ℝ)) (start : ℕ) (data : Grid (Option ℝ)) : Grid (Option ℝ) :=
  { base with at' := fun i j => if start ≤ i ∧ i < start + data.rows then data.at' (i - start) j else base.at' i j }

theorem assignRows_eq (base data : Grid (Option ℝ)) (start : ℕ) (h : start + data.rows ≤ base.rows) (hc : data.cols = base.cols) :
    assignRows base start ((start : ℤ) + data.rows) data = .ok (placed base start data) := by
  have e1 : clip base.rows start = start := by
    unfold clip
    rw [if_neg (by omega), Int.toNat_natCast]; omega
  have e2 : clip base.rows ((start : ℤ) + data.rows) = start + data.rows := by
    unfold clip
    rw [if_neg (by omega), show ((start : ℤ) + data.rows) = ((start + data.rows : ℕ) : ℤ) by push_cast; rfl, Int.toNat_natCast]
    omega
  unfold assignRows
  dsimp only
  rw [e1, e2, if_neg (by
    rw [not_or, not_not, not_not]
    exact ⟨by omega, hc⟩)]
  rfl

/-- What was there before a field was put in. -/
def baseOf (rows cols : ℕ) (r : List (String × Grid (Option ℝ))) (name : String) : Grid (Option ℝ) :=
  (entryOf r name).getD ⟨rows, cols, fun _ _ => none⟩

theorem insertField_eq (rows cols start n : ℕ) (name : String) (data : Grid (Option ℝ)) (r : List (String × Grid (Option ℝ)))
    (hd : data.shape = (n, cols)) (hs : start + n ≤ rows) (hr : ∀ g, entryOf r name = some g → g.shape = (rows, cols)) :
    ∃ r', insertField rows cols start ((start : ℤ) + n) name data r = .ok r' ∧
      ∀ name', entryOf r' name' = if name' = name then some (placed (baseOf rows cols r name) start data) else entryOf r name' := by
  have hd1 : data.rows = n := congrArg Prod.fst hd
  have hd2 : data.cols = cols := congrArg Prod.snd hd
  subst hd1
  unfold insertField
  cases hf : r.find? (fun e => e.1 = name) with
  | none =>
    have he : entryOf r name = none := by unfold entryOf; rw [hf]; rfl
    dsimp only
    rw [assignRows_eq _ _ _ hs hd2]
    refine ⟨_, rfl, fun name' => ?_⟩
    rw [entryOf_append _ _ _ _ he]
    unfold baseOf
    rw [he]; rfl
  | some e =>
    have he : entryOf r name = some e.2 := by unfold entryOf; rw [hf]; rfl
    have hg := hr _ he
    have hg1 : e.2.rows = rows := congrArg Prod.fst hg
    have hg2 : e.2.cols = cols := congrArg Prod.snd hg
    dsimp only
    rw [assignRows_eq _ _ _ (by omega) (by omega)]
    refine ⟨_, rfl, fun name' => ?_⟩
    have := entryOf_replace r name name' (placed e.2 start data) e.2 he
    rw [this]
    unfold baseOf
    rw [he]; rfl

theorem insertFields_eq (rows cols start n : ℕ) (fields r : List (String × Grid (Option ℝ)))
    (hn : (fields.map Prod.fst).Nodup)
    (hd : ∀ e ∈ fields, e.2.shape = (n, cols)) (hs : start + n ≤ rows) (hr : ∀ name g, entryOf r name = some g → g.shape = (rows, cols)) :
    ∃ r', insertFields rows cols start ((start : ℤ) + n) fields r = .ok r' ∧
      (∀ name g, entryOf r' name = some g → g.shape = (rows, cols)) ∧
      ∀ name, entryOf r' name = match entryOf fields name with
        | some data => some (placed (baseOf rows cols r name) start data)
        | none => entryOf r name := by
  induction fields generalizing r with
  | nil => exact ⟨r, rfl, hr, fun name => rfl⟩
  | cons a fields ih =>
    obtain ⟨name, data⟩ := a
    rw [List.map_cons, List.nodup_cons] at hn
    obtain ⟨r1, h1, v1⟩ := insertField_eq rows cols start n name data r (hd (name, data) (by simp)) hs (hr name)
    have hr1 : ∀ name' g, entryOf r1 name' = some g → g.shape = (rows, cols) := by
      intro name' g hg
      rw [v1] at hg
      split_ifs at hg with he
      · cases hg
        unfold placed baseOf Grid.shape
        dsimp only
        cases hb : entryOf r name with
        | none => rfl
        | some b => exact hr _ _ hb
      · exact hr _ _ hg
    obtain ⟨r2, h2, s2, v2⟩ := ih r1 hn.2 (fun e he => hd e (by simp [he])) hr1
    refine ⟨r2, ?_, s2, ?_⟩
    · simp only [insertFields, h1, h2]
    · intro name'
      rw [v2]
      unfold entryOf at *
      rw [List.find?_cons]
      by_cases he : name = name'
      · subst he
        have hno : fields.find? (fun e => e.1 = name) = none := by
          rw [List.find?_eq_none]
          intro e he' hc
          exact hn.1 (List.mem_map.mpr ⟨e, he', by simpa using hc⟩)
        rw [hno]
        simp only [Option.map_none, decide_true, Option.map_some]
        rw [v1, if_pos rfl]
      · rw [decide_eq_false he]
        dsimp only
        have hb : baseOf rows cols r1 name' = baseOf rows cols r name' := by
          unfold baseOf entryOf
          rw [v1, if_neg (Ne.symm he)]
        rw [hb]
        have := v1 name'
        rw [if_neg (Ne.symm he)] at this
        rw [this]

/-- Latitudes near the points of a grid. -/
def OnGrid (first step : ℝ) (start : ℕ) (latitudes : List ℝ) : Prop :=
  ∀ (k : ℕ) v, latitudes[k]? = some v → |v - (first + (start + k) * step)| ≤ 1 / 1000000

theorem truncate_eq (first step v : ℝ) (n : ℕ) (hs : 2 / 1000000 < step) (hv : |v - (first + n * step)| ≤ 1 / 1000000) :
    truncate ((v - first + 0.000001) / step) = n := by
  have e : (0.000001 : ℝ) = 1 / 1000000 := by norm_num
  have hp : 0 < step := lt_trans (by norm_num) hs
  rw [abs_le] at hv
  have h0 : (n : ℝ) ≤ (v - first + 0.000001) / step := by
    rw [le_div_iff₀ hp, e]; linarith [hv.1]
  have h1 : (v - first + 0.000001) / step < n + 1 := by
    rw [div_lt_iff₀ hp, e]; linarith [hv.2]
  unfold truncate
  rw [if_pos (le_trans (Nat.cast_nonneg n) h0), Int.floor_eq_iff]
  push_cast
  exact ⟨h0, h1⟩

/-- All that is needed to run the model on the input of one hemisphere. -/
structure Ready (m : Model) (x : Inputs) (h : Hemisphere) (c : Surface → Observable → ℕ → ℝ) : Prop where
  shaped : construct x = .ok x
  counts : Counts x
  nobs : 8 ≤ x.nobs3d.bins
  bins : 8 ≤ x.ts3d.bins
  hemi : hemisphere x = .ok h
  parameters : ∃ p, m h = some p ∧ ∃ C : Surface → Observable → List ℝ, (∀ s, lookup p s.name = .ok (C s)) ∧
    ∀ s o, HasFour (C s o) (c s o 0) (c s o 1) (c s o 2) (c s o 3)

/-- What the fields of an observable hold at a cell of the input of a hemisphere. -/
def Correct (x : Inputs) (h : Hemisphere) (c : Surface → Observable → ℕ → ℝ) (o : Observable) (i j : ℕ)
    (values : List (String × Option ℝ)) : Prop :=
  (∀ s t ur us ul, IsSurface x i j s → Usable x o i j t ur us ul →
    ∃ cell, IsCell h s o (c s o 0) (c s o 1) (c s o 2) (c s o 3) x.daynumber t ur us ul cell ∧
      values = (cell.fields o).map fun e => (e.1, some e.2)) ∧
  ((¬ ∃ t ur us ul, Usable x o i j t ur us ul) → ∀ e ∈ values, e.2 = none)

theorem observable_ready (m : Model) (x : Inputs) (h : Hemisphere) (c : Surface → Observable → ℕ → ℝ) (hr : Ready m x h c)
    (o : Observable) :
    ∃ r, processObservable m x o = .ok r ∧ r.map Prod.fst = fieldNames o ∧ (∀ e ∈ r, e.2.shape = x.ts.shape) ∧
      ∀ i < x.ts.rows, ∀ j < x.ts.cols, Correct x h c o i j (valuesAt r i j) := by
  obtain ⟨p, hp, C, hC, hc⟩ := hr.parameters
  exact c115_process m x hr.shaped hr.counts hr.nobs hr.bins h hr.hemi o p hp C hC (fun s => c s o) (fun s => hc s o)

theorem names_nodup : (fieldNames .tas ++ (fieldNames .tasmin ++ fieldNames .tasmax)).Nodup := by decide

/-- One hemisphere: twenty-one fields with different names. -/
theorem hemisphere_ready (m : Model) (x : Inputs) (h : Hemisphere) (c : Surface → Observable → ℕ → ℝ) (hr : Ready m x h c) :
    ∃ r : Observable → List (String × Grid (Option ℝ)),
      processHemisphere m x observables = .ok (r .tas ++ (r .tasmin ++ r .tasmax)) ∧
      ∀ o, (r o).map Prod.fst = fieldNames o ∧ (∀ e ∈ r o, e.2.shape = x.ts.shape) ∧
        ∀ i < x.ts.rows, ∀ j < x.ts.cols, Correct x h c o i j (valuesAt (r o) i j) := by
  obtain ⟨r1, h1, v1⟩ := observable_ready m x h c hr .tas
  obtain ⟨r2, h2, v2⟩ := observable_ready m x h c hr .tasmin
  obtain ⟨r3, h3, v3⟩ := observable_ready m x h c hr .tasmax
  refine ⟨fun o => match o with | .tas => r1 | .tasmin => r2 | .tasmax => r3, ?_, ?_⟩
  · simp only [observables, processHemisphere, h1, h2, h3, List.append_nil]
  · intro o
    cases o
    · exact v1
    · exact v2
    · exact v3

theorem entryOf_none (r : List (String × Grid (Option ℝ))) (name : String) : entryOf r name = none ↔ name ∉ r.map Prod.fst := by
  unfold entryOf
  rw [Option.map_eq_none_iff, List.find?_eq_none, List.mem_map]
  constructor
  · rintro h ⟨e, he, rfl⟩
    exact h e he (by simp)
  · intro h e he hc
    exact h ⟨e, he, by simpa using hc⟩

theorem entryOf_mem (r : List (String × Grid (Option ℝ))) (hn : (r.map Prod.fst).Nodup) (name : String) (g : Grid (Option ℝ))
    (h : (name, g) ∈ r) : entryOf r name = some g := by
  induction r with
  | nil => simp at h
  | cons a r ih =>
    rw [List.map_cons, List.nodup_cons] at hn
    unfold entryOf at *
    rw [List.find?_cons]
    rcases List.mem_cons.mp h with rfl | h
    · simp
    · have : a.1 ≠ name := fun e => hn.1 (List.mem_map.mpr ⟨(name, g), h, e.symm⟩)
      rw [decide_eq_false this]
      exact ih hn.2 h

/-- The rows of both hemispheres, wherever the rows of the north are put. -/
theorem global_rows (m : Model) (south north : Inputs) (cs : Checked) (hchk : check south north = .ok cs)
    (S N : Surface → Observable → ℕ → ℝ) (hS : Ready m south .south S) (hN : Ready m north .north N)
    (hlon : south.longitude.length = north.longitude.length) (start total : ℕ)
    (hs : ∀ l, south.latitude[0]? = some l → truncate ((l - cs.first + 0.000001) / cs.resolution) = 0)
    (hn : ∀ l, north.latitude[0]? = some l → truncate ((l - cs.first + 0.000001) / cs.resolution) = start)
    (ht : truncate ((cs.last - cs.first + 0.000001) / cs.resolution) + 1 = total)
    (h1 : south.latitude.length ≤ total) (h2 : start + north.latitude.length ≤ total) :
    ∃ r, processGlobal m south north = .ok (south.daynumber, r) ∧
      ∀ o, ∃ rs rn, processObservable m south o = .ok rs ∧ processObservable m north o = .ok rn ∧
        ∀ name gs gn, (name, gs) ∈ rs → (name, gn) ∈ rn → ∃ g, entryOf r name = some g ∧
          g.shape = (total, south.longitude.length) ∧
          ∀ i j, g.at' i j = if start ≤ i ∧ i < start + north.latitude.length then gn.at' (i - start) j
            else if i < south.latitude.length then gs.at' i j else none := by
  obtain ⟨rs, es, vs⟩ := hemisphere_ready m south .south S hS
  obtain ⟨rn, en, vn⟩ := hemisphere_ready m north .north N hN
  have shS : south.ts.shape = (south.latitude.length, south.longitude.length) := ((construct_iff _ _).mp hS.shaped).2.ts
  have shN : north.ts.shape = (north.latitude.length, south.longitude.length) := by
    rw [((construct_iff _ _).mp hN.shaped).2.ts, hlon]
  have names : ∀ r : Observable → List (String × Grid (Option ℝ)), (∀ o, (r o).map Prod.fst = fieldNames o) →
      ((r .tas ++ (r .tasmin ++ r .tasmax)).map Prod.fst).Nodup := by
    intro r hr
    rw [List.map_append, List.map_append, hr, hr, hr]
    exact names_nodup
  have shape : ∀ (r : Observable → List (String × Grid (Option ℝ))) (q : ℕ × ℕ), (∀ o, ∀ e ∈ r o, e.2.shape = q) →
      ∀ e ∈ r .tas ++ (r .tasmin ++ r .tasmax), e.2.shape = q := by
    intro r q hr e he
    rw [List.mem_append, List.mem_append] at he
    rcases he with he | he | he <;> exact hr _ e he
  have nS := names rs (fun o => (vs o).1)
  have nN := names rn (fun o => (vn o).1)
  have oS := shape rs _ (fun o e he => ((vs o).2.1 e he).trans shS)
  have oN := shape rn _ (fun o e he => ((vn o).2.1 e he).trans shN)
  set fs := rs .tas ++ (rs .tasmin ++ rs .tasmax)
  set fn := rn .tas ++ (rn .tasmin ++ rn .tasmax)
  obtain ⟨r1, i1, s1, v1⟩ := insertFields_eq total south.longitude.length 0 south.latitude.length fs [] nS oS (by omega) (by
    intro name g hg; simp [entryOf] at hg)
  obtain ⟨r2, i2, s2, v2⟩ := insertFields_eq total south.longitude.length start north.latitude.length fn r1 nN oN h2 s1
  have hls : ∃ l, south.latitude[0]? = some l := by
    have := hS.hemi
    unfold hemisphere at this
    cases h : south.latitude[0]? with
    | none => rw [h] at this; cases this
    | some l => exact ⟨l, rfl⟩
  have hln : ∃ l, north.latitude[0]? = some l := by
    have := hN.hemi
    unfold hemisphere at this
    cases h : north.latitude[0]? with
    | none => rw [h] at this; cases this
    | some l => exact ⟨l, rfl⟩
  obtain ⟨ls, hls⟩ := hls
  obtain ⟨ln, hln⟩ := hln
  refine ⟨r2, ?_, ?_⟩
  · unfold processGlobal
    rw [hchk]
    dsimp only
    rw [ht, if_neg (by omega), Int.toNat_natCast]
    have a1 : insertHemisphere m cs.first cs.resolution total south.longitude.length south [] = .ok r1 := by
      unfold insertHemisphere
      rw [hls]
      dsimp only
      rw [es, hs ls hls]
      exact i1
    have a2 : insertHemisphere m cs.first cs.resolution total south.longitude.length north r1 = .ok r2 := by
      unfold insertHemisphere
      rw [hln]
      dsimp only
      rw [en, hn ln hln]
      exact i2
    rw [a1]
    dsimp only
    rw [a2]
  · intro o
    obtain ⟨ro, eo, -⟩ := observable_ready m south .south S hS o
    obtain ⟨rno, eno, -⟩ := observable_ready m north .north N hN o
    have part : ∀ (x : Inputs) (r : Observable → List (String × Grid (Option ℝ))) (ro : List (String × Grid (Option ℝ))),
        processHemisphere m x observables = .ok (r .tas ++ (r .tasmin ++ r .tasmax)) → processObservable m x o = .ok ro →
        ∀ e ∈ ro, e ∈ r .tas ++ (r .tasmin ++ r .tasmax) := by
      intro x r ro hr ho e he
      simp only [observables, processHemisphere] at hr
      cases h1 : processObservable m x .tas with
      | error e => rw [h1] at hr; cases hr
      | ok a1 =>
        cases h2 : processObservable m x .tasmin with
        | error e => rw [h1, h2] at hr; cases hr
        | ok a2 =>
          cases h3 : processObservable m x .tasmax with
          | error e => rw [h1, h2, h3] at hr; cases hr
          | ok a3 =>
            rw [h1, h2, h3] at hr
            simp only [Except.ok.injEq, List.append_nil] at hr
            rw [← hr]
            cases o
            · rw [h1] at ho; cases ho; simp [he]
            · rw [h2] at ho; cases ho; simp [he]
            · rw [h3] at ho; cases ho; simp [he]
    refine ⟨ro, rno, eo, eno, ?_⟩
    intro name gs gn hgs hgn
    have ms := entryOf_mem fs nS name gs (part south rs ro es eo _ hgs)
    have mn := entryOf_mem fn nN name gn (part north rn rno en eno _ hgn)
    have e1 := v1 name
    rw [ms] at e1
    dsimp only at e1
    have e2 := v2 name
    rw [mn] at e2
    dsimp only at e2
    refine ⟨_, e2, s2 _ _ e2, ?_⟩
    intro i j
    have rgn : gn.rows = north.latitude.length := congrArg Prod.fst (oN _ (part north rn rno en eno _ hgn))
    have rgs : gs.rows = south.latitude.length := congrArg Prod.fst (oS _ (part south rs ro es eo _ hgs))
    unfold baseOf at e1 e2 ⊢
    rw [e1]
    unfold placed
    simp only [Option.getD_some, rgn, rgs, Nat.zero_le, true_and, Nat.zero_add, Nat.sub_zero]
    split_ifs <;> simp [entryOf]

theorem check_facts (south north : Inputs) (cs : Checked) (h : check south north = .ok cs) :
    south.daynumber = north.daynumber ∧ south.longitude.length = north.longitude.length ∧
    south.latitude[0]? = some cs.first ∧ south.latitude[1]? = some (cs.first + cs.resolution) ∧
    north.latitude.getLast? = some cs.last ∧ 0 < cs.resolution := by
  unfold check at h
  split at h
  · by_cases h1 : south.daynumber = north.daynumber
    · rw [if_neg (not_not.mpr h1)] at h
      by_cases h2 : south.longitude.length = north.longitude.length
      · rw [if_neg (not_not.mpr h2)] at h
        split at h
        · rename_i hl0 _ _ hl
          split_ifs at h with h3 h4
          split at h
          · cases h
          · cases h
          · split at h
            · cases h
            · cases h
            · cases h
              refine ⟨h1, h2, ?_, ?_, hl, by linarith⟩
              · rw [hl0]; rfl
              · rw [hl0]
                simp
        · cases h
      · rw [if_pos h2] at h; cases h
    · rw [if_pos h1] at h; cases h
  all_goals cases h

/-- Every row of both hemispheres is put at its own latitude in the global field, when the latitudes of both lie on one grid; rows of
the grid between the hemispheres are missing. -/
theorem c116_rows (m : Model) (south north : Inputs) (cs : Checked) (hchk : check south north = .ok cs)
    (S N : Surface → Observable → ℕ → ℝ) (hS : Ready m south .south S) (hN : Ready m north .north N)
    (n : ℕ) (hstep : 2 / 1000000 < cs.resolution) (hgn : OnGrid cs.first cs.resolution n north.latitude)
    (hns : south.latitude.length ≤ n) :
    ∃ r, processGlobal m south north = .ok (south.daynumber, r) ∧
      ∀ o, ∃ rs rn, processObservable m south o = .ok rs ∧ processObservable m north o = .ok rn ∧
        ∀ name gs gn, (name, gs) ∈ rs → (name, gn) ∈ rn → ∃ g, entryOf r name = some g ∧
          g.shape = (n + north.latitude.length, south.longitude.length) ∧
          (∀ i < south.latitude.length, ∀ j, g.at' i j = gs.at' i j) ∧
          (∀ i, south.latitude.length ≤ i → i < n → ∀ j, g.at' i j = none) ∧
          (∀ i < north.latitude.length, ∀ j, g.at' (n + i) j = gn.at' i j) := by
  obtain ⟨-, hlon, hf, -, hl, hpos⟩ := check_facts south north cs hchk
  obtain ⟨q, hq⟩ : ∃ q, north.latitude.length = q + 1 := by
    cases h : north.latitude with
    | nil => rw [h] at hl; simp at hl
    | cons a b => exact ⟨b.length, rfl⟩
  have hlast : truncate ((cs.last - cs.first + 0.000001) / cs.resolution) = ((n + q : ℕ) : ℤ) := by
    refine truncate_eq _ _ _ _ hstep ?_
    have := hgn q cs.last (by rw [← hl, List.getLast?_eq_getElem?, hq]; rfl)
    push_cast
    exact this
  obtain ⟨r, hr, hv⟩ := global_rows m south north cs hchk S N hS hN hlon n (n + north.latitude.length)
    (by
      intro l hl'
      rw [hf] at hl'
      cases hl'
      have := truncate_eq cs.first cs.resolution cs.first 0 hstep (by simp)
      exact_mod_cast this)
    (by
      intro l hl'
      refine truncate_eq _ _ _ _ hstep ?_
      have := hgn 0 l hl'
      simpa using this)
    (by rw [hlast, hq]; push_cast; ring) (by omega) (by omega)
  refine ⟨r, hr, fun o => ?_⟩
  obtain ⟨rs, rn, e1, e2, hv⟩ := hv o
  refine ⟨rs, rn, e1, e2, fun name gs gn h1 h2 => ?_⟩
  obtain ⟨g, hg, hsh, hat⟩ := hv name gs gn h1 h2
  refine ⟨g, hg, hsh, ?_, ?_, ?_⟩
  · intro i hi j
    rw [hat, if_neg (by omega), if_pos hi]
  · intro i hi hi' j
    rw [hat, if_neg (by omega), if_neg (by omega)]
  · intro i hi j
    rw [hat, if_pos (by omega), Nat.add_sub_cancel_left]

end

end Verif.Eustace.Ice
