import Verif.Eustace.SurfaceAir.Fields

/-! C118: cells over land in which the minimum is above the maximum. -/

namespace Verif.Eustace.SurfaceAir

open Verif

/-- The fields over land which are treated: all of them. -/
def processed : List String := landPairs.map (fun p => p.1) ++ ["tasminuncertainty", "tasmaxuncertainty"]

/-- The fields have masks of their own and, if they have a gap, as many cells as the minimum. -/
def Treatable (r : Results) (n : ℕ) (name : String) : Prop :=
  ∃ a, r.fields name = some a ∧ a.plain = false ∧ (none ∈ a.cells → a.cells.length = n)

/-- What is left of a field besides its cells. -/
def frame (a : Option Arr) : Option (List ℕ × ℕ × Bool) := a.map fun a => (a.shape, a.cells.length, a.plain)

theorem maskLoop_ok (update : List Bool) (names : List String) :
    ∀ r, names.Nodup → ∀ out, maskLoop update names r = .ok out →
      (∀ name ∈ names, ∃ a b, r.fields name = some a ∧ setMask update a = .ok b ∧ out.fields name = some b) ∧
        (∀ name, name ∉ names → out.fields name = r.fields name) ∧ out.day = r.day := by
  induction names with
  | nil =>
    intro r _ out h
    cases h
    simp
  | cons name rest ih =>
    intro r hn out h
    rw [maskLoop] at h
    unfold entry at h
    cases hf : r.fields name with
    | none => rw [hf] at h; cases h
    | some a =>
      rw [hf] at h
      dsimp only at h
      cases hs : setMask update a with
      | error e => rw [hs] at h; cases h
      | ok b =>
        rw [hs] at h
        dsimp only at h
        obtain ⟨hnot, hn'⟩ := List.nodup_cons.1 hn
        obtain ⟨h1, h2, h3⟩ := ih _ hn' out h
        refine ⟨?_, ?_, h3⟩
        · intro m hm
          rcases List.mem_cons.1 hm with rfl | hm
          · exact ⟨a, b, hf, hs, by rw [h2 m hnot]; simp⟩
          · obtain ⟨a', b', ha', hb', ho'⟩ := h1 m hm
            have hne : m ≠ name := fun hc => hnot (hc ▸ hm)
            dsimp only at ha'
            rw [Function.update_of_ne hne] at ha'
            exact ⟨a', b', ha', hb', ho'⟩
        · intro m hm
          rw [List.mem_cons, not_or] at hm
          rw [h2 m hm.2]
          dsimp only
          rw [Function.update_of_ne hm.1]

theorem maskLoop_succeeds (update : List Bool) (names : List String) :
    ∀ r, names.Nodup → ((∃ out, maskLoop update names r = .ok out) ↔
      ∀ name ∈ names, ∃ a b, r.fields name = some a ∧ setMask update a = .ok b) := by
  induction names with
  | nil => intro r _; simp [maskLoop]
  | cons name rest ih =>
    intro r hn
    obtain ⟨hnot, hn'⟩ := List.nodup_cons.1 hn
    rw [maskLoop]
    unfold entry
    cases hf : r.fields name with
    | none =>
      simp only [reduceCtorEq, exists_false, false_iff, List.mem_cons, forall_eq_or_imp, not_and]
      rintro ⟨a, b, ha, _⟩
      rw [hf] at ha
      cases ha
    | some a =>
      dsimp only
      cases hs : setMask update a with
      | error e =>
        simp only [reduceCtorEq, exists_false, false_iff, List.mem_cons, forall_eq_or_imp, not_and]
        rintro ⟨a', b, ha, hb⟩
        rw [hf] at ha
        cases ha
        rw [hs] at hb
        cases hb
      | ok b =>
        dsimp only
        rw [ih _ hn']
        constructor
        · intro h m hm
          rcases List.mem_cons.1 hm with rfl | hm
          · exact ⟨a, b, hf, hs⟩
          · obtain ⟨a', b', ha', hb'⟩ := h m hm
            dsimp only at ha'
            rw [Function.update_of_ne (show m ≠ name from fun hc => hnot (hc ▸ hm))] at ha'
            exact ⟨a', b', ha', hb'⟩
        · intro h m hm
          obtain ⟨a', b', ha', hb'⟩ := h m (List.mem_cons_of_mem _ hm)
          refine ⟨a', b', ?_, hb'⟩
          dsimp only
          rw [Function.update_of_ne (show m ≠ name from fun hc => hnot (hc ▸ hm))]
          exact ha'

theorem setMask_iff (update : List Bool) (a : Arr) :
    (∃ b, setMask update a = .ok b) ↔ a.plain = false ∧ (none ∈ a.cells → a.cells.length = update.length) := by
  unfold setMask
  have hany : a.cells.any Option.isNone = true ↔ none ∈ a.cells := by
    rw [List.any_eq_true]
    constructor
    · rintro ⟨c, hc, hn⟩
      cases c with
      | none => exact hc
      | some v => cases hn
    · intro h
      exact ⟨none, h, rfl⟩
  cases hp : a.plain with
  | true => simp
  | false =>
    by_cases hn : none ∈ a.cells
    · rw [if_neg (by simp), if_pos (hany.2 hn)]
      by_cases hl : a.cells.length = update.length
      · rw [if_neg (by simpa using hl)]
        simp [hl]
      · rw [if_pos (by simpa using hl)]
        simp [hn, hl]
    · rw [if_neg (by simp), if_neg (fun h => hn (hany.1 h))]
      simp [hn]

theorem setMask_cells {update : List Bool} {a b : Arr} (h : setMask update a = .ok b) :
    b.shape = a.shape ∧ b.plain = a.plain ∧ b.cells.length = a.cells.length ∧
      ∀ k, b.cells.getD k none = if none ∈ a.cells ∧ update.getD k false = true then none else a.cells.getD k none := by
  have hok := (setMask_iff update a).1 ⟨b, h⟩
  unfold setMask at h
  rw [if_neg (by simp [hok.1])] at h
  by_cases hn : a.cells.any Option.isNone = true
  · rw [if_pos hn] at h
    have hmem : none ∈ a.cells := by
      obtain ⟨c, hc, hcn⟩ := List.any_eq_true.1 hn
      cases c with
      | none => exact hc
      | some v => cases hcn
    have hl := hok.2 hmem
    rw [if_neg (by simpa using hl)] at h
    cases h
    refine ⟨rfl, rfl, by simp [hl], ?_⟩
    intro k
    dsimp only
    by_cases hk : k < a.cells.length
    · rw [List.getD_eq_getElem _ _ (by rw [List.length_zipWith]; omega), List.getElem_zipWith,
        List.getD_eq_getElem _ _ (by omega), List.getD_eq_getElem _ _ hk]
      by_cases hu : update[k] = true
      · rw [if_pos hu, if_pos ⟨hmem, hu⟩]
      · rw [if_neg hu, if_neg (fun hc => hu hc.2)]
    · rw [List.getD_eq_default _ _ (by rw [List.length_zipWith]; omega), List.getD_eq_default a.cells _ (by omega)]
      simp
  · rw [if_neg hn] at h
    cases h
    refine ⟨rfl, rfl, rfl, ?_⟩
    intro k
    rw [if_neg]
    rintro ⟨hmem, _⟩
    exact hn (List.any_eq_true.2 ⟨none, hmem, rfl⟩)

/-- The order in which the code goes through the names. -/
theorem names_eq : ["tasmin", "tasminuncertainty", "tasmax", "tasmaxuncertainty"] ++ landAncillary
    = ["tasmin", "tasminuncertainty", "tasmax", "tasmaxuncertainty"] ++ (landPairs.drop 2).map (fun p => p.1) := rfl

theorem names_mem (name : String) :
    name ∈ ["tasmin", "tasminuncertainty", "tasmax", "tasmaxuncertainty"] ++ landAncillary ↔ name ∈ processed := by
  simp only [processed, landPairs, landAncillary, List.map_cons, List.map_nil, List.mem_append, List.mem_cons, List.not_mem_nil, or_false]
  tauto

theorem names_nodup : (["tasmin", "tasminuncertainty", "tasmax", "tasmaxuncertainty"] ++ landAncillary).Nodup := by
  simp [landAncillary]

theorem problem_iff (a b : Option ℝ) : problem a b = true ↔ ∃ x y, a = some x ∧ b = some y ∧ y < x := by
  cases a <;> cases b <;> simp [problem]

theorem crossed_iff {r : Results} {tmin tmax : Arr} (h1 : r.fields "tasmin" = some tmin) (h2 : r.fields "tasmax" = some tmax)
    (hl : tmin.cells.length = tmax.cells.length) (k : ℕ) :
    (List.zipWith problem tmin.cells tmax.cells).getD k false = true ↔ Crossed r.fields k := by
  unfold Crossed value
  rw [h1, h2]
  dsimp only
  by_cases hk : k < tmin.cells.length
  · rw [List.getD_eq_getElem _ _ (by rw [List.length_zipWith]; omega), List.getElem_zipWith, problem_iff,
      List.getD_eq_getElem _ _ hk, List.getD_eq_getElem _ _ (by omega)]
  · rw [List.getD_eq_default _ _ (by rw [List.length_zipWith]; omega), List.getD_eq_default _ _ (by omega)]
    simp

open Classical in
theorem countP_eq_card (l : List Bool) :
    l.countP (fun m => m) = ((Finset.range l.length).filter fun k => l.getD k false = true).card := by
  induction l with
  | nil => simp
  | cons a rest ih =>
    have hr : Finset.range (a :: rest).length = insert 0 ((Finset.range rest.length).map ⟨Nat.succ, Nat.succ_injective⟩) := by
      ext k
      simp only [List.length_cons, Finset.mem_range, Finset.mem_insert, Finset.mem_map, Function.Embedding.coeFn_mk]
      constructor
      · intro h
        cases k with
        | zero => exact Or.inl rfl
        | succ k => exact Or.inr ⟨k, by omega, rfl⟩
      · rintro (rfl | ⟨j, hj, rfl⟩)
        · omega
        · have : j.succ = j + 1 := rfl
          omega
    rw [hr, Finset.filter_insert, List.countP_cons, ih]
    have hm : (((Finset.range rest.length).map ⟨Nat.succ, Nat.succ_injective⟩).filter fun k => (a :: rest).getD k false = true)
        = ((Finset.range rest.length).filter fun k => rest.getD k false = true).map ⟨Nat.succ, Nat.succ_injective⟩ := by
      ext k
      simp only [Finset.mem_filter, Finset.mem_map, Function.Embedding.coeFn_mk]
      constructor
      · rintro ⟨⟨j, hj, rfl⟩, hk⟩
        exact ⟨j, ⟨hj, by simpa using hk⟩, rfl⟩
      · rintro ⟨j, ⟨hj, hk⟩, rfl⟩
        exact ⟨⟨j, hj, rfl⟩, by simpa using hk⟩
    rw [hm]
    cases a with
    | true =>
      rw [if_pos rfl, if_pos (by simp), Finset.card_insert_of_notMem (by simp), Finset.card_map]
    | false =>
      rw [if_neg (by simp), if_neg (by simp), Finset.card_map]
      rfl

open Classical in
/-- C118: post-processing succeeds exactly if all fields are there with masks of their own, the minimum and maximum fit, and so do fields
with gaps. Then in each field of land which had a gap just the cells become missing in which the minimum is above the maximum, fields
without a gap are left as they were, and the count is the number of those cells. -/
theorem c118_post (r : Results) :
    ((∃ out n, postProcess landAncillary r = .ok (out, n)) ↔
      ∃ tmin tmax, r.fields "tasmin" = some tmin ∧ r.fields "tasmax" = some tmax ∧ tmin.shape = tmax.shape ∧
        tmin.cells.length = tmax.cells.length ∧ ∀ name ∈ processed, Treatable r tmin.cells.length name) ∧
    ∀ out n, postProcess landAncillary r = .ok (out, n) →
      (∀ name ∈ processed, ∀ k, value out.fields name k
        = if Crossed r.fields k ∧ HasGap r.fields name then none else value r.fields name k) ∧
      (∀ name, name ∉ processed → out.fields name = r.fields name) ∧
      (∀ name, frame (out.fields name) = frame (r.fields name)) ∧
      out.day = r.day ∧
      ∀ tmin, r.fields "tasmin" = some tmin → n = ((Finset.range tmin.cells.length).filter fun k => Crossed r.fields k).card := by
  cases h1 : r.fields "tasmin" with
  | none =>
    have he : ∀ out n, postProcess landAncillary r ≠ .ok (out, n) := by
      intro out n h
      simp [postProcess, entry, h1] at h
    refine ⟨?_, fun out n h => absurd h (he out n)⟩
    constructor
    · rintro ⟨out, n, h⟩
      exact absurd h (he out n)
    · rintro ⟨tmin, tmax, h, _⟩
      cases h
  | some tmin =>
    cases h2 : r.fields "tasmax" with
    | none =>
      have he : ∀ out n, postProcess landAncillary r ≠ .ok (out, n) := by
        intro out n h
        simp [postProcess, entry, h1, h2] at h
      refine ⟨?_, fun out n h => absurd h (he out n)⟩
      constructor
      · rintro ⟨out, n, h⟩
        exact absurd h (he out n)
      · rintro ⟨tmin, tmax, _, h, _⟩
        cases h
    | some tmax =>
      have hmem1 : "tasmin" ∈ processed := by simp [processed, landPairs]
      have hmem2 : "tasmax" ∈ processed := by simp [processed, landPairs]
      by_cases hp : tmin.plain = true ∨ tmax.plain = true
      · have he : ∀ out n, postProcess landAncillary r ≠ .ok (out, n) := by
          intro out n h
          simp only [postProcess, entry, h1, h2] at h
          rw [if_pos hp] at h
          cases h
        refine ⟨?_, fun out n h => absurd h (he out n)⟩
        constructor
        · rintro ⟨out, n, h⟩
          exact absurd h (he out n)
        · rintro ⟨a, b, ha, hb, _, _, ht⟩
          obtain ⟨a', ha', hpa, _⟩ := ht _ hmem1
          obtain ⟨b', hb', hpb, _⟩ := ht _ hmem2
          rw [h1] at ha'
          rw [h2] at hb'
          cases ha'
          cases hb'
          rcases hp with hp | hp
          · rw [hpa] at hp; cases hp
          · rw [hpb] at hp; cases hp
      · by_cases hs : tmin.shape ≠ tmax.shape ∨ tmin.cells.length ≠ tmax.cells.length
        · have he : ∀ out n, postProcess landAncillary r ≠ .ok (out, n) := by
            intro out n h
            simp only [postProcess, entry, h1, h2] at h
            rw [if_neg hp, if_pos hs] at h
            cases h
          refine ⟨?_, fun out n h => absurd h (he out n)⟩
          constructor
          · rintro ⟨out, n, h⟩
            exact absurd h (he out n)
          · rintro ⟨a, b, ha, hb, hsh, hln, _⟩
            cases ha
            cases hb
            rcases hs with hs | hs
            · exact absurd hsh hs
            · exact absurd hln hs
        · rw [not_or, not_not, not_not] at hs
          obtain ⟨hsh, hln⟩ := hs
          have hlen : (List.zipWith problem tmin.cells tmax.cells).length = tmin.cells.length := by
            rw [List.length_zipWith]; omega
          have heq : ∀ out n, postProcess landAncillary r = .ok (out, n) ↔
              maskLoop (List.zipWith problem tmin.cells tmax.cells)
                (["tasmin", "tasminuncertainty", "tasmax", "tasmaxuncertainty"] ++ landAncillary) r = .ok out ∧
                n = (List.zipWith problem tmin.cells tmax.cells).countP fun m => m := by
            intro out n
            simp only [postProcess, entry, h1, h2]
            rw [if_neg hp, if_neg (by rw [not_or, not_not, not_not]; exact ⟨hsh, hln⟩)]
            cases maskLoop (List.zipWith problem tmin.cells tmax.cells)
                (["tasmin", "tasminuncertainty", "tasmax", "tasmaxuncertainty"] ++ landAncillary) r with
            | error e => simp
            | ok o =>
              simp only [Except.ok.injEq, Prod.mk.injEq]
              constructor
              · rintro ⟨a, b⟩
                exact ⟨a, b.symm⟩
              · rintro ⟨a, b⟩
                exact ⟨a, b.symm⟩
          constructor
          · constructor
            · rintro ⟨out, n, h⟩
              refine ⟨tmin, tmax, rfl, rfl, hsh, hln, ?_⟩
              intro name hname
              obtain ⟨a, b, ha, hb⟩ := (maskLoop_succeeds _ _ r names_nodup).1 ⟨out, ((heq out n).1 h).1⟩ name ((names_mem name).2 hname)
              have := (setMask_iff _ a).1 ⟨b, hb⟩
              rw [hlen] at this
              exact ⟨a, ha, this.1, this.2⟩
            · rintro ⟨a, b, ha, hb, _, _, ht⟩
              cases ha
              cases hb
              obtain ⟨out, ho⟩ := (maskLoop_succeeds (List.zipWith problem tmin.cells tmax.cells) _ r names_nodup).2 (by
                intro name hname
                obtain ⟨a, ha, hpl, hgap⟩ := ht name ((names_mem name).1 hname)
                obtain ⟨b, hb⟩ := (setMask_iff (List.zipWith problem tmin.cells tmax.cells) a).2 ⟨hpl, by rw [hlen]; exact hgap⟩
                exact ⟨a, b, ha, hb⟩)
              exact ⟨out, _, (heq out _).2 ⟨ho, rfl⟩⟩
          · intro out n h
            obtain ⟨hm, hn⟩ := (heq out n).1 h
            obtain ⟨hin, hout, hday⟩ := maskLoop_ok _ _ r names_nodup out hm
            refine ⟨?_, ?_, ?_, hday, ?_⟩
            · intro name hname k
              obtain ⟨a, b, ha, hb, ho⟩ := hin name ((names_mem name).2 hname)
              have hc := (setMask_cells hb).2.2.2 k
              have hg : HasGap r.fields name ↔ none ∈ a.cells := by
                constructor
                · rintro ⟨a', ha', hg⟩
                  rw [ha] at ha'
                  cases ha'
                  exact hg
                · intro hg
                  exact ⟨a, ha, hg⟩
              have hv : value out.fields name k = b.cells.getD k none := by rw [value, ho]
              have hv' : value r.fields name k = a.cells.getD k none := by rw [value, ha]
              rw [hv, hv', hc]
              by_cases hx : Crossed r.fields k ∧ HasGap r.fields name
              · rw [if_pos hx, if_pos ⟨hg.1 hx.2, (crossed_iff h1 h2 hln k).2 hx.1⟩]
              · rw [if_neg hx, if_neg (fun hc => hx ⟨(crossed_iff h1 h2 hln k).1 hc.2, hg.2 hc.1⟩)]
            · intro name hname
              exact hout name fun hc => hname ((names_mem name).1 hc)
            · intro name
              by_cases hname : name ∈ processed
              · obtain ⟨a, b, ha, hb, ho⟩ := hin name ((names_mem name).2 hname)
                obtain ⟨e1, e2, e3, _⟩ := setMask_cells hb
                rw [ha, ho]
                simp [frame, e1, e2, e3]
              · rw [hout name fun hc => hname ((names_mem name).1 hc)]
            · intro t ht
              cases ht
              rw [hn, countP_eq_card, hlen]
              congr 1
              ext k
              simp only [Finset.mem_filter, and_congr_right_iff]
              intro _
              exact crossed_iff h1 h2 hln k

/-- C118 (partial: only if a cell of the minimum or of the maximum is missing before): then the minimum is nowhere above the maximum
afterwards. -/
theorem c118_ordered_partial (r out : Results) (n : ℕ) (h : postProcess landAncillary r = .ok (out, n))
    (hgap : HasGap r.fields "tasmin" ∨ HasGap r.fields "tasmax") (k : ℕ) (a b : ℝ)
    (ha : value out.fields "tasmin" k = some a) (hb : value out.fields "tasmax" k = some b) : a ≤ b := by
  classical
  obtain ⟨hv, _⟩ := (c118_post r).2 out n h
  have h1 := hv "tasmin" (by simp [processed, landPairs]) k
  have h2 := hv "tasmax" (by simp [processed, landPairs]) k
  by_contra hlt
  rw [not_le] at hlt
  rw [ha] at h1
  rw [hb] at h2
  have e1 : value r.fields "tasmin" k = some a := by
    split at h1
    · cases h1
    · exact h1.symm
  have e2 : value r.fields "tasmax" k = some b := by
    split at h2
    · cases h2
    · exact h2.symm
  have hc : Crossed r.fields k := ⟨a, b, e1, e2, hlt⟩
  rcases hgap with hg | hg
  · rw [if_pos ⟨hc, hg⟩] at h1
    cases h1
  · rw [if_pos ⟨hc, hg⟩] at h2
    cases h2

/-- Fields for examples. -/
def sampleResults (tmin tmax other : Arr) : Results :=
  ⟨some 5, fun name => some (if name = "tasmin" then tmin else if name = "tasmax" then tmax else other)⟩

/-- C118 is violated if no cell is missing: the minimum stays above the maximum, although the cell is counted as removed. -/
theorem c118_ordered_violated :
    ∃ r out, postProcess landAncillary r = .ok (out, 1) ∧
      value out.fields "tasmin" 0 = some 300 ∧ value out.fields "tasmax" 0 = some 290 := by
  classical
  let r := sampleResults ⟨[1], [some 300], false⟩ ⟨[1], [some 290], false⟩ ⟨[1], [some 1], false⟩
  obtain ⟨out, n, h⟩ := (c118_post r).1.2 ⟨⟨[1], [some 300], false⟩, ⟨[1], [some 290], false⟩, rfl, rfl, rfl, rfl, by
    intro name _
    refine ⟨_, rfl, ?_, ?_⟩
    · split
      · rfl
      · split <;> rfl
    · split
      · simp
      · split <;> simp⟩
  obtain ⟨hv, _, _, _, hn⟩ := (c118_post r).2 out n h
  have hcross : Crossed r.fields 0 := ⟨300, 290, rfl, rfl, by norm_num⟩
  have hn1 : n = 1 := by
    rw [hn ⟨[1], [some 300], false⟩ rfl]
    rw [show (Finset.range ([some (300 : ℝ)] : List (Option ℝ)).length) = {0} from rfl, Finset.filter_singleton, if_pos hcross]
    rfl
  rw [hn1] at h
  have hno1 : ¬ HasGap r.fields "tasmin" := by
    rintro ⟨a, ha, hg⟩
    cases ha
    simp at hg
  have hno2 : ¬ HasGap r.fields "tasmax" := by
    rintro ⟨a, ha, hg⟩
    cases ha
    simp at hg
  refine ⟨r, out, h, ?_, ?_⟩
  · rw [hv "tasmin" (by simp [processed, landPairs]) 0, if_neg (fun hc => hno1 hc.2)]
    rfl
  · rw [hv "tasmax" (by simp [processed, landPairs]) 0, if_neg (fun hc => hno2 hc.2)]
    rfl

/-- With a gap elsewhere the same cell is removed, and the uncertainty with it. -/
example : ∃ out, postProcess landAncillary (sampleResults ⟨[3], [some 300, none, some 280], false⟩
      ⟨[3], [some 290, some 1, some 285], false⟩ ⟨[3], [some 1, none, some 2], false⟩) = .ok (out, 1) ∧
    value out.fields "tasmin" 0 = none ∧ value out.fields "tasmin_unc_sys" 0 = none ∧
    value out.fields "tasmin_unc_sys" 2 = some 2 ∧ value out.fields "tasmax" 0 = some 290 := by
  classical
  set r := sampleResults ⟨[3], [some 300, none, some 280], false⟩
      ⟨[3], [some 290, some 1, some 285], false⟩ ⟨[3], [some 1, none, some 2], false⟩ with hr
  obtain ⟨out, n, h⟩ := (c118_post r).1.2 ⟨⟨[3], [some 300, none, some 280], false⟩,
      ⟨[3], [some 290, some 1, some 285], false⟩, rfl, rfl, rfl, rfl, by
    intro name _
    refine ⟨_, rfl, ?_, ?_⟩
    · split
      · rfl
      · split <;> rfl
    · split
      · simp
      · split <;> simp⟩
  obtain ⟨hv, _, _, _, hn⟩ := (c118_post r).2 out n h
  have hc0 : Crossed r.fields 0 := ⟨300, 290, rfl, rfl, by norm_num⟩
  have hc1 : ¬ Crossed r.fields 1 := by
    rintro ⟨a, b, ha, hb, _⟩
    cases ha
  have hc2 : ¬ Crossed r.fields 2 := by
    rintro ⟨a, b, ha, hb, hlt⟩
    have ha' : (some (280 : ℝ)) = some a := ha
    have hb' : (some (285 : ℝ)) = some b := hb
    cases ha'
    cases hb'
    norm_num at hlt
  have hn1 : n = 1 := by
    rw [hn ⟨[3], [some 300, none, some 280], false⟩ rfl]
    rw [show (Finset.range ([some (300 : ℝ), none, some 280] : List (Option ℝ)).length) = {0, 1, 2} from rfl, Finset.filter_insert,
      Finset.filter_insert, Finset.filter_singleton, if_pos hc0, if_neg hc1, if_neg hc2]
    rfl
  rw [hn1] at h
  refine ⟨out, h, ?_, ?_, ?_, ?_⟩
  · rw [hv "tasmin" (by simp [processed, landPairs]) 0, if_pos ⟨hc0, _, rfl, by simp⟩]
  · rw [hv "tasmin_unc_sys" (by simp [processed, landPairs]) 0, if_pos ⟨hc0, _, rfl, by simp⟩]
  · rw [hv "tasmin_unc_sys" (by simp [processed, landPairs]) 2, if_neg (fun hc => hc2 hc.1)]
    simp [value, hr, sampleResults]
  · rw [hv "tasmax" (by simp [processed, landPairs]) 0, if_neg]
    · rfl
    · rintro ⟨_, a, ha, hg⟩
      cases ha
      simp at hg

end Verif.Eustace.SurfaceAir
