import Verif.Eustace.Merge.Results

/-! C112: merging of the daily files of several instruments. -/

namespace Verif.Eustace.Merge

open Verif

noncomputable section

/-- One instrument on one day. -/
structure Source where
  main : Path
  ancillary : Path
  label : List Char
  mainData : Data
  ancillaryData : Data

/-- Files which can be merged: of at least two instruments with different labels, of one day, with all fields on one grid; the
names of the fields are different and none looks like a labelled one; and for each ancillary field there are correlations. -/
structure Ready (m : Merger) (disc : Disc) (sources : List Source) (day : ℝ) (size : Nat) (Rs : List (Nat → Nat → ℝ)) : Prop where
  many : 2 ≤ sources.length
  main : ∀ x ∈ sources, disc x.main = some x.mainData ∧ x.mainData.day = day ∧ HasLabel x.main x.label
  ancillary : ∀ x ∈ sources, disc x.ancillary = some x.ancillaryData ∧ x.ancillaryData.day = day ∧ HasLabel x.ancillary x.label
  labels : (sources.map Source.label).Nodup
  paths : (sources.map Source.main ++ sources.map Source.ancillary).Nodup
  mainFields : ∀ name ∈ m.primaries ++ m.uncertainties, Readable m.alwaysMask size name (sources.map Source.mainData)
  ancillaryFields : ∀ name ∈ m.ancillaries, Readable m.alwaysMask size name (sources.map Source.ancillaryData)
  names : (m.primaries ++ m.uncertainties ++ m.ancillaries).Nodup
  plain : ∀ name ∈ m.primaries ++ m.uncertainties ++ m.ancillaries, ∀ name' ∈ m.primaries ++ m.uncertainties ++ m.ancillaries,
    ∀ x ∈ sources, name ≠ name' ++ '_' :: x.label
  correlations : ∀ R ∈ Rs, IsCorrelation sources.length R
  number : m.ancillaries.length = Rs.length
  indexes : m.indexes = Rs.map fun R => upper R (List.range sources.length)

/-- What merging is to leave: the merged files, which hold the means, the uncertainties of the means and all of the fields of the
sources; the files of the sources are gone, and no other file has changed. -/
structure Merged (m : Merger) (disc disc' : Disc) (sources : List Source) (day : ℝ) (size : Nat) (Rs : List (Nat → Nat → ℝ))
    (outMain outAncillary : Path) (M A : Data) : Prop where
  main : disc' outMain = some M
  ancillary : disc' outAncillary = some A
  gone : ∀ x ∈ sources, disc' x.main = none ∧ disc' x.ancillary = none
  others : ∀ p, p ≠ outMain → p ≠ outAncillary → (∀ x ∈ sources, p ≠ x.main ∧ p ≠ x.ancillary) → disc' p = disc p
  day : M.day = day ∧ A.day = day
  comment : M.comment = m.commentPrefix ++ ", ".toList.intercalate (sources.map Source.label) ++ " retrievals.".toList ∧
    A.comment = M.comment
  mean : ∀ name ∈ m.primaries, name ∈ mainNames →
    ∃ f, M.vars name = some f ∧ IsMean size (sources.map fun x => fieldOf name x.mainData) f
  uncertainty : ∀ name ∈ m.uncertainties, name ∈ mainNames →
    ∃ f, M.vars name = some f ∧ IsPropagated size uncorrelated (sources.map fun x => fieldOf name x.mainData) f
  only : ∀ name, name ∉ mainNames → M.vars name = none
  ancillaryFields : List.Forall₂ (fun name R => ∃ f, A.vars name = some f ∧
    IsPropagated size R (sources.map fun x => fieldOf name x.ancillaryData) f) m.ancillaries Rs
  originalMain : ∀ x ∈ sources, ∀ name ∈ m.primaries ++ m.uncertainties,
    A.vars (name ++ '_' :: x.label) = x.mainData.vars name
  originalAncillary : ∀ x ∈ sources, ∀ name ∈ m.ancillaries, A.vars (name ++ '_' :: x.label) = x.ancillaryData.vars name

lemma openAll_ok {α : Type} (disc : Disc) (l : List α) (path : α → Path) (data : α → Data)
    (h : ∀ x ∈ l, disc (path x) = some (data x)) : openAll disc (l.map path) = .ok (l.map data) := by
  induction l with
  | nil => rfl
  | cons x t ih =>
    rw [List.map_cons, openAll, h x List.mem_cons_self]
    simp only []
    rw [ih fun y hy => h y (List.mem_cons_of_mem _ hy)]
    rfl

lemma commonDay_ok (l : List Data) (day : ℝ) (hne : l ≠ []) (h : ∀ d ∈ l, d.day = day) : commonDay l = .ok day := by
  cases l with
  | nil => exact absurd rfl hne
  | cons d t =>
    have h1 := h d List.mem_cons_self
    rw [commonDay, if_pos, h1]
    rw [List.all_eq_true]
    intro e he
    rw [decide_eq_true_iff, h1, h e (List.mem_cons_of_mem _ he)]

lemma labels_ok (l : List Source) (h : ∀ x ∈ l, HasLabel x.main x.label) :
    Merge.labels (l.map Source.main) = .ok (l.map Source.label) := by
  induction l with
  | nil => rfl
  | cons x t ih =>
    rw [List.map_cons, Merge.labels, label_eq _ _ (h x List.mem_cons_self)]
    simp only []
    rw [ih fun y hy => h y (List.mem_cons_of_mem _ hy)]
    rfl

lemma forall₂_zip (l : List Source) (path : Source → Path) (data : Source → Data) (P : Path × Data → List Char → Prop) :
    List.Forall₂ P ((l.map path).zip (l.map data)) (l.map Source.label) ↔ ∀ x ∈ l, P (path x, data x) x.label := by
  induction l with
  | nil => simp
  | cons x t ih => simp [ih]

lemma mergeFiles_ok {m : Merger} {disc : Disc} {sources : List Source} {day : ℝ} {size : Nat} {Rs : List (Nat → Nat → ℝ)}
    (h : Ready m disc sources day size Rs) :
    ∃ r, mergeFiles m disc (sources.map Source.main) (sources.map Source.ancillary) = .ok (day, r) ∧
      (∀ name ∈ m.primaries, ∃ f, r name = some f ∧ IsMean size (sources.map fun x => fieldOf name x.mainData) f) ∧
      (∀ name ∈ m.uncertainties, ∃ f, r name = some f ∧
        IsPropagated size uncorrelated (sources.map fun x => fieldOf name x.mainData) f) ∧
      List.Forall₂ (fun name R => ∃ f, r name = some f ∧
        IsPropagated size R (sources.map fun x => fieldOf name x.ancillaryData) f) m.ancillaries Rs ∧
      (∀ x ∈ sources, ∀ name ∈ m.primaries ++ m.uncertainties, r (labelled name x.label) = x.mainData.vars name) ∧
      ∀ x ∈ sources, ∀ name ∈ m.ancillaries, r (labelled name x.label) = x.ancillaryData.vars name := by
  have hne : sources ≠ [] := by
    intro e
    have := h.many
    rw [e] at this
    cases this
  have hu : ∀ l ∈ sources.map Source.label, '_' ∉ l := by
    intro l hl
    obtain ⟨x, hx, rfl⟩ := List.mem_map.1 hl
    exact (h.main x hx).2.2.clean
  have hnd := List.nodup_append.1 h.names
  have hnd' := List.nodup_append.1 hnd.1
  have h1 := openAll_ok disc sources Source.main Source.mainData fun x hx => (h.main x hx).1
  have h2 := openAll_ok disc sources Source.ancillary Source.ancillaryData fun x hx => (h.ancillary x hx).1
  have h3 := commonDay_ok (sources.map Source.mainData ++ sources.map Source.ancillaryData) day (by simpa using hne) (by
    intro d hd
    rcases List.mem_append.1 hd with hd | hd
    · obtain ⟨x, hx, rfl⟩ := List.mem_map.1 hd
      exact (h.main x hx).2.1
    · obtain ⟨x, hx, rfl⟩ := List.mem_map.1 hd
      exact (h.ancillary x hx).2.1)
  have hz : ∀ (path : Source → Path) (data : Source → Data) (P : Path × Data → Prop), (∀ x ∈ sources, P (path x, data x)) →
      ∀ e ∈ (sources.map path).zip (sources.map data), P e := by
    intro path data P hP e he
    rw [List.zip_map'] at he
    obtain ⟨x, hx, rfl⟩ := List.mem_map.1 he
    exact hP x hx
  obtain ⟨r1, a1, a2, a3⟩ := appendOriginal_ok (m.primaries ++ m.uncertainties) hnd.1
    ((sources.map Source.main).zip (sources.map Source.mainData)) (sources.map Source.label) (fun _ => none) h.labels hu
    ((forall₂_zip _ _ _ _).2 fun x hx => label_eq _ _ (h.main x hx).2.2)
    (hz _ _ _ fun x hx name hn => by
      obtain ⟨f, hf, _⟩ := h.mainFields name hn x.mainData (List.mem_map_of_mem hx)
      exact ⟨f, hf⟩)
  obtain ⟨r2, b1, b2, b3⟩ := appendOriginal_ok m.ancillaries hnd.2.1
    ((sources.map Source.ancillary).zip (sources.map Source.ancillaryData)) (sources.map Source.label) r1 h.labels hu
    ((forall₂_zip _ _ _ _).2 fun x hx => label_eq _ _ (h.ancillary x hx).2.2)
    (hz _ _ _ fun x hx name hn => by
      obtain ⟨f, hf, _⟩ := h.ancillaryFields name hn x.ancillaryData (List.mem_map_of_mem hx)
      exact ⟨f, hf⟩)
  obtain ⟨r3, c1, c2, c3⟩ := meanFields_ok (alwaysMask := m.alwaysMask) (size := size) (sources.map Source.mainData)
    (by simpa using hne) m.primaries r2 hnd'.1 fun name hn => h.mainFields name (List.mem_append_left _ hn)
  obtain ⟨r4, d1, d2, d3⟩ := uncertaintyFields_ok (alwaysMask := m.alwaysMask) (size := size) (sources.map Source.mainData)
    (by simpa using hne) m.uncertainties (List.replicate m.uncertainties.length uncorrelated) r3 hnd'.2.1 (by simp)
    (fun R hR => by rw [List.eq_of_mem_replicate hR]; exact uncorrelated_ok _)
    fun name hn => h.mainFields name (List.mem_append_right _ hn)
  obtain ⟨r5, e1, e2, e3⟩ := uncertaintyFields_ok (alwaysMask := m.alwaysMask) (size := size) (sources.map Source.ancillaryData)
    (by simpa using hne) m.ancillaries Rs r4 hnd.2.1 h.number (by rw [List.length_map]; exact h.correlations)
    fun name hn => h.ancillaryFields name hn
  rw [List.map_replicate, List.length_map, ← upper_uncorrelated] at d1
  rw [List.length_map, ← h.indexes] at e1
  simp only [List.map_map] at c2 d2 e2
  have hplain : ∀ x ∈ sources, ∀ name ∈ m.primaries ++ m.uncertainties ++ m.ancillaries,
      r5 (labelled name x.label) = r2 (labelled name x.label) := by
    intro x hx name hn
    have hk : labelled name x.label ∉ m.primaries ++ m.uncertainties ++ m.ancillaries := fun hmem =>
      h.plain _ hmem name hn x hx rfl
    simp only [List.mem_append, not_or] at hk
    rw [e3 _ hk.2, d3 _ hk.1.2, c3 _ hk.1.1]
  refine ⟨r5, ?_, ?_, ?_, e2, ?_, ?_⟩
  · unfold mergeFiles
    rw [h1]
    simp only [h2, h3, a1, b1, c1, List.length_map, d1, e1]
  · intro name hn
    obtain ⟨f, hf, hf'⟩ := c2 name hn
    refine ⟨f, ?_, hf'⟩
    rw [e3 _ fun hmem => hnd.2.2 name (List.mem_append_left _ hn) name hmem rfl, d3 _ fun hmem => hnd'.2.2 name hn name hmem rfl, hf]
  · intro name hn
    obtain ⟨k, hk, rfl⟩ := List.getElem_of_mem hn
    have hd := List.forall₂_iff_get.1 d2
    obtain ⟨f, hf, hf'⟩ := hd.2 k hk (by simpa using hk)
    simp only [List.get_eq_getElem, List.getElem_replicate] at hf hf'
    refine ⟨f, ?_, hf'⟩
    rw [e3 _ fun hmem => hnd.2.2 _ (List.mem_append_right _ hn) _ hmem rfl, hf]
  · intro x hx name hn
    rw [hplain x hx name (List.mem_append_left _ hn), b3 _ ?_]
    · exact (forall₂_zip _ _ _ _).1 a2 x hx name hn
    · intro n hn' l hl he
      have h4 := labelled_inj (h.main x hx).2.2.clean (hu l hl) he
      exact hnd.2.2 name hn n hn' h4.1
  · intro x hx name hn
    rw [hplain x hx name (List.mem_append_right _ hn)]
    exact (forall₂_zip _ _ _ _).1 b2 x hx name hn

lemma removeAll_ok (paths : List Path) : ∀ disc : Disc, paths.Nodup → (∀ p ∈ paths, ∃ d, disc p = some d) →
    ∃ disc', removeAll disc paths = (disc', .ok ()) ∧ (∀ p ∈ paths, disc' p = none) ∧ ∀ p, p ∉ paths → disc' p = disc p := by
  induction paths with
  | nil => intro disc _ _; exact ⟨disc, rfl, by simp, by simp⟩
  | cons p rest ih =>
    intro disc hnd h
    rw [List.nodup_cons] at hnd
    obtain ⟨d, hd⟩ := h p List.mem_cons_self
    obtain ⟨disc', h1, h2, h3⟩ := ih (Function.update disc p none) hnd.2 (by
      intro q hq
      rw [Function.update_of_ne (fun e : q = p => hnd.1 (e ▸ hq))]
      exact h q (List.mem_cons_of_mem _ hq))
    refine ⟨disc', ?_, ?_, ?_⟩
    · rw [removeAll, hd]
      exact h1
    · intro q hq
      rcases List.mem_cons.1 hq with rfl | hq
      · rw [h3 _ hnd.1, Function.update_self]
      · exact h2 q hq
    · intro q hq
      rw [List.mem_cons, not_or] at hq
      rw [h3 q hq.2, Function.update_of_ne hq.1]

lemma comment_eq (p : List Char) (sources : List (List Char)) (h : sources ≠ []) :
    comment p sources = p ++ ", ".toList.intercalate sources ++ " retrievals.".toList := by
  unfold comment
  congr 2
  have h1 : ∀ l : List (List Char), l ≠ [] → l.flatMap (fun s => s ++ ", ".toList) = ", ".toList.intercalate l ++ [',', ' '] := by
    intro l
    induction l with
    | nil => intro e; exact absurd rfl e
    | cons a t ih =>
      intro _
      cases t with
      | nil => simp [List.intercalate]
      | cons b t =>
        rw [List.flatMap_cons, ih (by simp), List.intercalate_cons_cons]
        simp
  rw [h1 _ h]
  rw [show ([',', ' '] : List Char) = [','] ++ [' '] from rfl, ← List.append_assoc, List.dropLast_concat, List.dropLast_concat]

lemma ancillaryNames_nodup {m : Merger} {disc : Disc} {sources : List Source} {day : ℝ} {size : Nat}
    {Rs : List (Nat → Nat → ℝ)} (h : Ready m disc sources day size Rs) :
    (ancillaryNames m (sources.map Source.label)).Nodup := by
  have hnd := List.nodup_append.1 h.names
  have hu : ∀ l ∈ sources.map Source.label, '_' ∉ l := by
    intro l hl
    obtain ⟨x, hx, rfl⟩ := List.mem_map.1 hl
    exact (h.main x hx).2.2.clean
  unfold ancillaryNames
  rw [List.nodup_append]
  refine ⟨hnd.2.1, ?_, ?_⟩
  · rw [List.nodup_flatMap]
    constructor
    · intro name _
      exact (List.nodup_map_iff_inj_on h.labels).2 fun l hl l' hl' he => (labelled_inj (hu l hl) (hu l' hl') he).2
    · refine List.Pairwise.imp_of_mem ?_ h.names
      intro a b _ _ hab k hk hk'
      obtain ⟨l, hl, rfl⟩ := List.mem_map.1 hk
      obtain ⟨l', hl', he⟩ := List.mem_map.1 hk'
      exact hab (labelled_inj (hu l' hl') (hu l hl) he).1.symm
  · intro a ha b hb
    rintro rfl
    obtain ⟨name, hn, hb⟩ := List.mem_flatMap.1 hb
    obtain ⟨l, hl, rfl⟩ := List.mem_map.1 hb
    obtain ⟨x, hx, rfl⟩ := List.mem_map.1 hl
    exact h.plain _ (List.mem_append_right _ ha) name hn x hx rfl

/-- C112: files which can be merged are merged into files named like those of the first source without its label. -/
theorem c112_merge (m : Merger) (disc : Disc) (first : Source) (rest : List Source) (day : ℝ) (size : Nat)
    (Rs : List (Nat → Nat → ℝ)) (h : Ready m disc (first :: rest) day size Rs) (pre post pre' post' : List Char)
    (hm : first.main = pre ++ '_' :: first.label ++ post) (hm1 : OnlyAt ('_' :: first.label) pre post)
    (ha : first.ancillary = pre' ++ '_' :: first.label ++ post') (ha1 : OnlyAt ('_' :: first.label) pre' post')
    (hne : pre ++ post ≠ pre' ++ post')
    (hnew : ∀ x ∈ first :: rest, x.main ≠ pre ++ post ∧ x.main ≠ pre' ++ post' ∧ x.ancillary ≠ pre ++ post ∧
      x.ancillary ≠ pre' ++ post') :
    ∃ disc' M A, mergeDay m disc ((first :: rest).map Source.main) ((first :: rest).map Source.ancillary) =
        (disc', .ok ([pre ++ post], [pre' ++ post'])) ∧
      Merged m disc disc' (first :: rest) day size Rs (pre ++ post) (pre' ++ post') M A := by
  classical
  obtain ⟨r, h1, h2, h3, h4, h5, h6⟩ := mergeFiles_ok h
  have hl := labels_ok (first :: rest) fun x hx => (h.main x hx).2.2
  have hmany := h.many
  have hpaths := h.paths
  have hnames := ancillaryNames_nodup h
  have hp : primaryVariables.Nodup := by unfold primaryVariables; decide
  have hcm := comment_eq m.commentPrefix ((first :: rest).map Source.label) (by simp)
  have hrm := remove_only ('_' :: first.label) pre post (by simp) hm1
  have hra := remove_only ('_' :: first.label) pre' post' (by simp) ha1
  rw [← hm] at hrm
  rw [← ha] at hra
  set text := comment m.commentPrefix ((first :: rest).map Source.label) with htext
  set M : Data := ⟨day, fun n => if n ∈ primaryVariables then r n else none, text⟩ with hM
  set A : Data := ⟨day, fun n => if n ∈ ancillaryNames m ((first :: rest).map Source.label) then r n else none, text⟩ with hA
  set disc1 := Function.update disc (pre ++ post) (some M) with hdisc1
  set disc2 := Function.update disc1 (pre' ++ post') (some A) with hdisc2
  have hkeep : ∀ p, p ≠ pre ++ post → p ≠ pre' ++ post' → disc2 p = disc p := by
    intro p hp1 hp2
    rw [hdisc2, Function.update_of_ne hp2, hdisc1, Function.update_of_ne hp1]
  have hin : ∀ p ∈ (first :: rest).map Source.main ++ (first :: rest).map Source.ancillary,
      (∃ d, disc p = some d) ∧ p ≠ pre ++ post ∧ p ≠ pre' ++ post' := by
    intro p hp
    rcases List.mem_append.1 hp with hp | hp
    · obtain ⟨x, hx, rfl⟩ := List.mem_map.1 hp
      exact ⟨⟨_, (h.main x hx).1⟩, (hnew x hx).1, (hnew x hx).2.1⟩
    · obtain ⟨x, hx, rfl⟩ := List.mem_map.1 hp
      exact ⟨⟨_, (h.ancillary x hx).1⟩, (hnew x hx).2.2.1, (hnew x hx).2.2.2⟩
  obtain ⟨disc', g1, g2, g3⟩ := removeAll_ok ((first :: rest).map Source.main ++ (first :: rest).map Source.ancillary) disc2 hpaths
    (fun p hp => by
      obtain ⟨hd, hp1, hp2⟩ := hin p hp
      rw [hkeep p hp1 hp2]
      exact hd)
  have hout : pre ++ post ∉ (first :: rest).map Source.main ++ (first :: rest).map Source.ancillary := fun hmem =>
    (hin _ hmem).2.1 rfl
  have hout' : pre' ++ post' ∉ (first :: rest).map Source.main ++ (first :: rest).map Source.ancillary := fun hmem =>
    (hin _ hmem).2.2 rfl
  have hw1 : writeElement disc (pre ++ post) day text r primaryVariables = (disc1, .ok ()) := by
    unfold writeElement
    dsimp only
    rw [if_pos (hp.filter _)]
  have hw2 : writeElement disc1 (pre' ++ post') day text r (ancillaryNames m ((first :: rest).map Source.label)) =
      (disc2, .ok ()) := by
    unfold writeElement
    dsimp only
    rw [if_pos (hnames.filter _)]
  refine ⟨disc', M, A, ?_, ?_⟩
  · unfold mergeDay
    rw [if_neg (by rw [List.length_map]; omega)]
    unfold mergeMany
    rw [h1]
    simp only []
    rw [hl]
    simp only [List.map_cons] at hw2 g1 htext ⊢
    simp only [hrm, hra]
    rw [← htext, hw1]
    simp only []
    rw [hw2]
    simp only []
    rw [g1]
  · have hmemA : ∀ name ∈ m.primaries ++ m.uncertainties ++ m.ancillaries, ∀ x ∈ first :: rest,
        labelled name x.label ∈ ancillaryNames m ((first :: rest).map Source.label) := by
      intro name hn x hx
      unfold ancillaryNames
      exact List.mem_append_right _ (List.mem_flatMap.2 ⟨name, hn, List.mem_map_of_mem (List.mem_map_of_mem hx)⟩)
    constructor
    · rw [g3 _ hout, hdisc2, Function.update_of_ne hne, hdisc1, Function.update_self]
    · rw [g3 _ hout', hdisc2, Function.update_self]
    · intro x hx
      exact ⟨g2 _ (List.mem_append_left _ (List.mem_map_of_mem hx)), g2 _ (List.mem_append_right _ (List.mem_map_of_mem hx))⟩
    · intro p hp1 hp2 hp3
      rw [g3 _ ?_, hkeep p hp1 hp2]
      intro hmem
      rcases List.mem_append.1 hmem with hmem | hmem
      · obtain ⟨x, hx, rfl⟩ := List.mem_map.1 hmem
        exact (hp3 x hx).1 rfl
      · obtain ⟨x, hx, rfl⟩ := List.mem_map.1 hmem
        exact (hp3 x hx).2 rfl
    · exact ⟨rfl, rfl⟩
    · exact ⟨hcm, rfl⟩
    · intro name hn hmain
      obtain ⟨f, hf, hf'⟩ := h2 name hn
      exact ⟨f, by rw [hM]; simp only []; rw [if_pos (show name ∈ primaryVariables from hmain), hf], hf'⟩
    · intro name hn hmain
      obtain ⟨f, hf, hf'⟩ := h3 name hn
      exact ⟨f, by rw [hM]; simp only []; rw [if_pos (show name ∈ primaryVariables from hmain), hf], hf'⟩
    · intro name hmain
      rw [hM]
      exact if_neg (show name ∉ primaryVariables from hmain)
    · refine List.forall₂_iff_get.2 ⟨h.number, fun k hk hk' => ?_⟩
      obtain ⟨f, hf, hf'⟩ := (List.forall₂_iff_get.1 h4).2 k hk hk'
      refine ⟨f, ?_, hf'⟩
      rw [hA]
      simp only []
      rw [if_pos (show m.ancillaries.get ⟨k, hk⟩ ∈ ancillaryNames m ((first :: rest).map Source.label) from
        List.mem_append_left _ (List.get_mem _ _)), hf]
    · intro x hx name hn
      rw [hA]
      simp only []
      have := hmemA name (List.mem_append_left _ hn) x hx
      unfold labelled at this
      rw [if_pos this]
      exact h5 x hx name hn
    · intro x hx name hn
      rw [hA]
      simp only []
      have := hmemA name (List.mem_append_right _ hn) x hx
      unfold labelled at this
      rw [if_pos this]
      exact h6 x hx name hn

/-! ### Consequences for the uncertainties -/

/-- C112: a cell is missing after merging just when it is missing in all sources, for correlations which are those of some errors
(so that no sum of errors has a negative variance). -/
theorem c112_missing (size : Nat) (R : Nat → Nat → ℝ) (fields : List Field) (f : Field) (h : IsPropagated size R fields f)
    (hR : ∀ (S : Finset Nat) (u : Nat → ℝ), 0 ≤ ∑ i ∈ S, ∑ j ∈ S, R i j * u i * u j) (c : Nat) (hc : c < size) :
    f[c]? = some none ↔ ∀ g ∈ fields, g[c]? = some none := by
  rw [(h.2 c hc).1]
  constructor
  · rintro (h1 | h1)
    · exact h1
    · exact absurd (hR _ _) (not_le.2 h1)
  · exact Or.inl

/-- C112: for uncertainties which are not negative and correlations between minus one and one, the uncertainty of the mean is at
most the mean of the uncertainties. -/
theorem c112_bound (size : Nat) (R : Nat → Nat → ℝ) (fields : List Field) (f : Field) (h : IsPropagated size R fields f)
    (hR : ∀ i j, R i j ≤ 1) (c : Nat) (hc : c < size) (hu : ∀ g ∈ fields, ∀ y, g[c]? = some (some y) → 0 ≤ y) (x : ℝ)
    (hx : f[c]? = some (some x)) :
    x * ((having fields c).card : ℝ) ≤ ∑ i ∈ having fields c, valueAt fields c i := by
  obtain ⟨h1, h2⟩ := (h.2 c hc).2 x hx
  have hv : ∀ i, 0 ≤ valueAt fields c i := by
    intro i
    unfold valueAt
    by_cases hi : i < fields.length
    · have h3 := hu fields[i] (List.getElem_mem hi)
      simp only [List.getD, List.getElem?_eq_getElem hi, Option.getD_some]
      cases h4 : fields[i][c]? with
      | none => simp
      | some z =>
        cases z with
        | none => simp
        | some y => simpa using h3 y h4
    · simp [List.getD, List.getElem?_eq_none (not_lt.1 hi)]
  have h3 : sumVariance R fields c ≤ (∑ i ∈ having fields c, valueAt fields c i) ^ 2 := by
    rw [sq, Finset.sum_mul_sum]
    unfold sumVariance
    apply Finset.sum_le_sum
    intro i _
    apply Finset.sum_le_sum
    intro j _
    rw [mul_assoc]
    have := mul_le_mul_of_nonneg_right (hR i j) (mul_nonneg (hv i) (hv j))
    linarith
  apply le_of_sq_le_sq _ (Finset.sum_nonneg fun i _ => hv i)
  rw [mul_pow, h2]
  exact h3

/-- C112: for sources without correlation the square of the uncertainty is the sum of the squares over the square of the
number. -/
theorem c112_independent (size : Nat) (fields : List Field) (f : Field) (h : IsPropagated size uncorrelated fields f) (c : Nat)
    (hc : c < size) :
    (f[c]? = some none ↔ ∀ g ∈ fields, g[c]? = some none) ∧
    ∀ x, f[c]? = some (some x) → 0 ≤ x ∧
      x ^ 2 * ((having fields c).card : ℝ) ^ 2 = ∑ i ∈ having fields c, valueAt fields c i ^ 2 := by
  have h1 : ∀ (S : Finset Nat) (u : Nat → ℝ), ∑ i ∈ S, ∑ j ∈ S, uncorrelated i j * u i * u j = ∑ i ∈ S, u i ^ 2 := by
    intro S u
    apply Finset.sum_congr rfl
    intro i hi
    rw [Finset.sum_eq_single i]
    · unfold uncorrelated
      rw [if_pos rfl]
      ring
    · intro j _ hj
      unfold uncorrelated
      rw [if_neg (Ne.symm hj)]
      ring
    · intro hn
      exact absurd hi hn
  constructor
  · exact c112_missing size uncorrelated fields f h (fun S u => by rw [h1]; exact Finset.sum_nonneg fun i _ => sq_nonneg _) c hc
  · intro x hx
    obtain ⟨h2, h3⟩ := (h.2 c hc).2 x hx
    refine ⟨h2, ?_⟩
    rw [h3]
    exact h1 _ _

/-- C112: for full correlation the uncertainty is the mean of the uncertainties (which are not negative). -/
theorem c112_correlated (size : Nat) (fields : List Field) (f : Field) (h : IsPropagated size (fun _ _ => 1) fields f) (c : Nat)
    (hc : c < size) (hu : ∀ i, 0 ≤ valueAt fields c i) (x : ℝ) (hx : f[c]? = some (some x)) :
    x * ((having fields c).card : ℝ) = ∑ i ∈ having fields c, valueAt fields c i := by
  obtain ⟨h1, h2⟩ := (h.2 c hc).2 x hx
  rw [← sq_eq_sq₀ (by positivity) (Finset.sum_nonneg fun i _ => hu i), mul_pow, h2, sq, Finset.sum_mul_sum]
  unfold sumVariance
  simp

end

end Verif.Eustace.Merge
