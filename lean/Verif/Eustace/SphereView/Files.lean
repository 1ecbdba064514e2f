import Verif.Eustace.SphereView.Merge

/-!
C65: merging the files of all regions.
-/

namespace Verif.Eustace.SphereView

open Matrix Verif.Eustace.Linear Verif.Eustace.Mesh Verif.Eustace.Locator Verif.Eustace.Locator.V3 Verif.Eustace.SphereSpde

noncomputable section

/-- The regions whose file exists, with what the file says. -/
def presentFiles (views : List (List Nat)) (files : List (Option (Vec 2))) : List (List Nat × Vec 2) :=
  (views.zip files).filterMap fun r => r.2.map fun t => (r.1, t)

theorem mergeLoop_eq (m : Mesh V3) (level : Nat) (views : List (List Nat)) (files : List (Option (Vec 2))) (k : Nat)
    (acc : Option (Accumulators m.points.length)) (hl : views.length = files.length)
    (h : ∀ j a, views[j]? = some a → makeSuper m level (k + j) = .ok a) :
    mergeLoop m level k files acc =
      .ok ((presentFiles views files).foldl (fun acc r => some (accumulate m acc r.1 r.2)) acc) := by
  induction files generalizing views k acc with
  | nil => simp [presentFiles, mergeLoop]
  | cons f files ih =>
    cases views with
    | nil => simp at hl
    | cons a views =>
      have hr : ∀ j b, views[j]? = some b → makeSuper m level (k + 1 + j) = .ok b := by
        intro j b hb
        have := h (j + 1) b (by simpa using hb)
        rw [← this]; congr 1; omega
      have hl' : views.length = files.length := by simpa using hl
      cases f with
      | none =>
        rw [mergeLoop, ih views (k + 1) acc hl' hr]
        simp [presentFiles]
      | some theta =>
        have h0 : makeSuper m level k = .ok a := h 0 a (by simp)
        rw [mergeLoop, h0]
        simp only
        rw [ih views (k + 1) _ hl' hr]
        simp [presentFiles]

/-- **C65.**  Merging the files of all regions of a level gives at every point the logarithm of the mean of the values of
those regions with the point whose file exists, and nothing finite at a point of no such region; it fails if there is no
file at all. -/
theorem c65_files (srt : Argsort) {pts : List V3} (hn : pts.length = 12) (L : Nat) (hL : L ≤ 28) (l : Nat) (hl : l ≤ L)
    (files : List (Option (Vec 2))) (hf : files.length = nTrianglesAtLevel l) :
    ∃ views : List (List Nat), views.length = nTrianglesAtLevel l ∧
      (∀ j a, views[j]? = some a → makeSuper (build srt midOnSphere pts L) l j = .ok a) ∧
      ((∀ f ∈ files, f = none) → mergeFiles (build srt midOnSphere pts L) l files = .error .typeError) ∧
      ((∃ f ∈ files, f ≠ none) → ∃ r, mergeFiles (build srt midOnSphere pts L) l files = .ok r ∧
        ∀ k : Fin (build srt midOnSphere pts L).points.length,
          r.1 k = (if saidAt (build srt midOnSphere pts L) (presentFiles views files) k.val = [] then none
            else some (Real.log (average ((saidAt (build srt midOnSphere pts L) (presentFiles views files) k.val).map
              fun t => Real.exp (t 0))))) ∧
          r.2 k = (if saidAt (build srt midOnSphere pts L) (presentFiles views files) k.val = [] then none
            else some (Real.log (average ((saidAt (build srt midOnSphere pts L) (presentFiles views files) k.val).map
              fun t => Real.exp (t 1)))))) := by
  obtain ⟨views, h1, h2, _, _⟩ := c65_tiling srt hn L hL l hl
  have hloop := mergeLoop_eq (build srt midOnSphere pts L) l views files 0 none (h1.trans hf.symm)
    (fun j a h => by rw [Nat.zero_add]; exact h2 j a h)
  refine ⟨views, h1, h2, ?_, ?_⟩
  · intro hnone
    have hp : presentFiles views files = [] := by
      rw [presentFiles, List.filterMap_eq_nil_iff]
      intro r hr
      rw [hnone r.2 (List.of_mem_zip hr).2]; rfl
    rw [mergeFiles, hloop, hp]; rfl
  · rintro ⟨f, hfm, hfn⟩
    have hp : presentFiles views files ≠ [] := by
      rw [presentFiles, Ne, List.filterMap_eq_nil_iff]
      intro hall
      obtain ⟨j, hj, rfl⟩ := List.getElem_of_mem hfm
      have hjv : j < views.length := by rw [h1, ← hf]; exact hj
      have := hall (views[j], files[j]) (List.mem_iff_getElem.2 ⟨j, by simp [hjv, hj], by simp⟩)
      simp only [Option.map_eq_none_iff] at this
      exact hfn this
    obtain ⟨a, ha, hk⟩ := c65_accumulated (build srt midOnSphere pts L) _ hp
    refine ⟨finalise a, ?_, hk⟩
    rw [accumulateAll] at ha
    rw [mergeFiles, hloop, ha]

/-- **C65.**  When the files of all regions exist, every point gets finite parameters. -/
theorem c65_files_complete (srt : Argsort) {pts : List V3} (hg : GoodPoints pts) (L : Nat) (hL : L ≤ 28) (l : Nat)
    (hl : l ≤ L) (files : List (Vec 2)) (hf : files.length = nTrianglesAtLevel l) :
    ∃ (r : _) (logSigma logRho : Vec (build srt midOnSphere pts L).points.length),
      mergeFiles (build srt midOnSphere pts L) l (files.map some) = .ok r ∧
      (∀ k, r.1 k = some (logSigma k)) ∧ ∀ k, r.2 k = some (logRho k) := by
  have hn := hg.num
  obtain ⟨views, h1, h2, _, h3⟩ := c65_files srt hn L hL l hl (files.map some) (by simpa using hf)
  obtain ⟨views', h1', h2', h3', _⟩ := c65_tiling srt hn L hL l hl
  have hsame : views = views' := by
    refine List.ext_getElem (h1.trans h1'.symm) ?_
    intro j hj hj'
    have e1 := h2 j _ (List.getElem?_eq_getElem hj)
    have e2 := h2' j _ (List.getElem?_eq_getElem hj')
    rw [e1] at e2
    injection e2
  subst hsame
  have hpos : 0 < files.length := by
    rw [hf, c28_n_triangles srt midOnSphere pts hn l, (c28_counts srt midOnSphere pts hn l).2.2]; positivity
  obtain ⟨f, fs, rfl⟩ := List.exists_cons_of_length_pos hpos
  obtain ⟨r, hr, hk⟩ := h3 ⟨some f, by simp, by simp⟩
  have hne : ∀ k : Fin (build srt midOnSphere pts L).points.length,
      saidAt (build srt midOnSphere pts L) (presentFiles views ((f :: fs).map some)) k.val ≠ [] := by
    intro k
    rw [Ne, said_nil_iff]
    intro hall
    obtain ⟨t, ht, htk⟩ := (c45_mesh srt hg L hL).used k.val k.isLt
    obtain ⟨i, hi, rfl⟩ := List.getElem_of_mem ht
    obtain ⟨j, ⟨a, hja, hia⟩, _⟩ := h3' i hi
    obtain ⟨hj, rfl⟩ := List.getElem?_eq_some_iff.1 hja
    have hjf : j < ((f :: fs).map some).length := by
      rw [List.length_map, hf, ← h1]; exact hj
    refine hall (views[j], (f :: fs)[j]'(by simpa using hjf)) ?_ ⟨i, hia, _, List.getElem?_eq_getElem hi, htk⟩
    rw [presentFiles, List.mem_filterMap]
    refine ⟨(views[j], ((f :: fs).map some)[j]), List.mem_iff_getElem.2 ⟨j, by rw [List.length_zip]; exact lt_min hj hjf,
      List.getElem_zip⟩, ?_⟩
    simp only [List.getElem_map, Option.map_some]
  refine ⟨r, fun k => Real.log (average ((saidAt (build srt midOnSphere pts L) (presentFiles views ((f :: fs).map some))
      k.val).map fun t => Real.exp (t 0))),
    fun k => Real.log (average ((saidAt (build srt midOnSphere pts L) (presentFiles views ((f :: fs).map some))
      k.val).map fun t => Real.exp (t 1))), hr, ?_, ?_⟩
  · intro k
    rw [(hk k).1, if_neg (hne k)]
  · intro k
    rw [(hk k).2, if_neg (hne k)]

/-- **C65.**  A point all of whose triangles belong to regions without a file gets no finite parameters, and the merging
does not fail. -/
theorem c65_missing_file (srt : Argsort) {pts : List V3} (hn : pts.length = 12) (L : Nat) (hL : L ≤ 28) (l : Nat) (hl : l ≤ L)
    (files : List (Option (Vec 2))) (hf : files.length = nTrianglesAtLevel l) (hsome : ∃ f ∈ files, f ≠ none)
    (k : Fin (build srt midOnSphere pts L).points.length)
    (hk : ∀ j t, files[j]? = some (some t) → ∀ a, makeSuper (build srt midOnSphere pts L) l j = .ok a →
      ¬ InRegion (build srt midOnSphere pts L) a k.val) :
    ∃ r, mergeFiles (build srt midOnSphere pts L) l files = .ok r ∧ r.1 k = none ∧ r.2 k = none := by
  obtain ⟨views, h1, h2, _, h3⟩ := c65_files srt hn L hL l hl files hf
  obtain ⟨r, hr, h⟩ := h3 hsome
  have hnil : saidAt (build srt midOnSphere pts L) (presentFiles views files) k.val = [] := by
    rw [said_nil_iff]
    intro p hp
    rw [presentFiles, List.mem_filterMap] at hp
    obtain ⟨⟨a, f⟩, hmem, hfp⟩ := hp
    obtain ⟨j, hj, hje⟩ := List.getElem_of_mem hmem
    rw [List.getElem_zip] at hje
    have hjl := hj
    rw [List.length_zip, lt_min_iff] at hjl
    obtain ⟨t, rfl, rfl⟩ := Option.map_eq_some_iff.1 hfp
    obtain ⟨e1, e2⟩ := Prod.mk.inj hje
    refine hk j t ?_ a (h2 j a ?_)
    · rw [List.getElem?_eq_getElem hjl.2, e2]
    · rw [List.getElem?_eq_getElem hjl.1, e1]
  exact ⟨r, hr, by rw [(h k).1, if_pos hnil], by rw [(h k).2, if_pos hnil]⟩

/-- The files of the twenty regions of level 0 when those around point 0 are missing. -/
def holeFiles : List (Option (Vec 2)) :=
  baseTriangles.map fun t => if t.p0 = 0 ∨ t.p1 = 0 ∨ t.p2 = 0 then none else some ![0, 0]

/-- **C65, violated.**  Merging does not notice that files are missing: the merged parameters of a point are then not
finite, although the merging reports success. -/
theorem c65_missing_file_violated (srt : Argsort) {pts : List V3} (hn : pts.length = 12) :
    ∃ r, mergeFiles (build srt midOnSphere pts 0) 0 holeFiles = .ok r ∧
      ∃ k, r.1 k = none ∧ r.2 k = none := by
  have hp : (build srt midOnSphere pts 0).points.length = 12 := by rw [(c28_counts srt midOnSphere pts hn 0).1]; rfl
  have h := c65_missing_file srt hn 0 (by norm_num) 0 le_rfl holeFiles (by rfl)
    ⟨some ![0, 0], by simp [holeFiles, baseTriangles], by simp⟩ ⟨0, by omega⟩ ?_
  · obtain ⟨r, h1, h2⟩ := h
    exact ⟨r, h1, _, h2⟩
  · intro j θ hj a ha
    rintro ⟨i, hi, t, ht, htk⟩
    have hT : (build srt midOnSphere pts 0).triangles = baseTriangles := rfl
    have hj20 : j < 20 * 4 ^ 0 := (List.getElem?_eq_some_iff.1 hj).1
    rw [makeSuper_ok srt hn 0 (by norm_num) 0 le_rfl j hj20] at ha
    injection ha with ha
    subst ha
    have hij : i = j := by
      simp only [core, List.mem_range'_1] at hi
      simp at hi; omega
    subst hij
    rw [hT] at ht
    rw [holeFiles, List.getElem?_map, ht, Option.map_some] at hj
    simp only at htk
    rw [if_pos (by omega)] at hj
    simp at hj

/-! ### Expanded parameters -/

/-- **C65.**  Expanded parameters survive being written to an array and read back. -/
theorem c65_expanded_array {α : Type} (h : List α × List α) (hl : h.1.length = h.2.length) :
    expandedSet (expandedGet h) = h := by
  unfold expandedSet expandedGet
  have e : (h.1 ++ h.2).length / 2 = h.1.length := by rw [List.length_append, ← hl]; omega
  rw [e, List.take_left, List.drop_left]

/-! ### The hypotheses can be met -/

example : Sound (build stableArgsort midOnSphere basePoints 3) ∧ GoodPoints basePoints ∧ (3 : Nat) ≤ 28 :=
  ⟨c45_mesh stableArgsort good_plain 3 (by norm_num), good_plain, by norm_num⟩

/-- A division of the triangles into regions, as `c102_assembly` asks for. -/
example : ∃ parts : List (List Nat), 1 < parts.length ∧
    parts.flatten.Perm (List.range (build stableArgsort midOnSphere basePoints 3).triangles.length) := by
  obtain ⟨views, h, _, _, h4⟩ := c65_tiling stableArgsort good_plain.num 3 (by norm_num) 1 (by norm_num)
  exact ⟨views, by rw [h]; decide, h4⟩

/-- Two views which share a point, and what is said there. -/
example : ∃ k : Fin (build stableArgsort midOnSphere basePoints 0).points.length,
    saidAt (build stableArgsort midOnSphere basePoints 0) ([[0, 1], [1, 2], [7]].zip [![0, 0], ![1, 2], ![3, 4]]) k.val =
      [![(0 : ℝ), 0], ![1, 2]] := by
  have hp : (build stableArgsort midOnSphere basePoints 0).points.length = 12 := by
    rw [(c28_counts stableArgsort midOnSphere basePoints good_plain.num 0).1]; rfl
  have hT : (build stableArgsort midOnSphere basePoints 0).triangles = baseTriangles := rfl
  refine ⟨⟨4, by omega⟩, ?_⟩
  have h1 : InRegion (build stableArgsort midOnSphere basePoints 0) [0, 1] 4 :=
    ⟨0, by simp, _, by rw [hT]; rfl, by decide⟩
  have h2 : InRegion (build stableArgsort midOnSphere basePoints 0) [1, 2] 4 :=
    ⟨1, by simp, _, by rw [hT]; rfl, by decide⟩
  have h3 : ¬ InRegion (build stableArgsort midOnSphere basePoints 0) [7] 4 := by
    rintro ⟨i, hi, t, ht, h⟩
    rw [List.mem_singleton.1 hi, hT] at ht
    have : t = baseTriangles[7] := by
      rw [List.getElem?_eq_getElem (by decide)] at ht
      exact (Option.some.inj ht).symm
    subst this
    revert h
    decide
  simp [saidAt, h1, h2, h3]

example : (List.replicate 80 (![0, 1] : Vec 2)).length = nTrianglesAtLevel 1 := by decide

example : ([1, 2, 3] : List ℝ).length = ([4, 5, 6] : List ℝ).length := rfl

end

end Verif.Eustace.SphereView
