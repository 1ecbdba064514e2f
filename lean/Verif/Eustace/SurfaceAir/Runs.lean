import Verif.Eustace.SurfaceAir.Mask
import Verif.Eustace.SurfaceAir.Names

/-! C119: runs of one or several days. -/

namespace Verif.Eustace.SurfaceAir

open Verif

/-! ### Writing -/

theorem writable_iff (a : Arr) : writable a = .ok () ↔ a.plain = false ∧ a.shape = [720, 1440] := by
  unfold writable globalShape
  cases a.plain with
  | true => simp
  | false =>
    by_cases h : a.shape = [720, 1440] <;> simp [h]

open Classical in
theorem writeLoop_ok (r : Results) (names : List String) :
    ∀ vars, ((writeLoop r names vars).2 = .ok () ↔ ∀ n ∈ names, ∀ a, r.fields n = some a → a.plain = false ∧ a.shape = [720, 1440]) ∧
      ((writeLoop r names vars).2 = .ok () → ∀ n, (writeLoop r names vars).1 n
        = if n ∈ names ∧ (r.fields n).isSome then (r.fields n).map (fun a => a.cells) else vars n) := by
  induction names with
  | nil => intro vars; simp [writeLoop]
  | cons name rest ih =>
    intro vars
    rw [writeLoop]
    cases hf : r.fields name with
    | none =>
      dsimp only
      obtain ⟨h1, h2⟩ := ih vars
      refine ⟨?_, ?_⟩
      · rw [h1]
        constructor
        · intro h n hn a ha
          rcases List.mem_cons.1 hn with rfl | hn
          · rw [hf] at ha; cases ha
          · exact h n hn a ha
        · intro h n hn
          exact h n (List.mem_cons_of_mem _ hn)
      · intro hok n
        rw [h2 hok n]
        by_cases hn : n = name
        · subst hn
          rw [if_neg (by simp [hf]), if_neg (by simp [hf])]
        · simp [hn]
    | some a =>
      dsimp only
      cases hw : writable a with
      | error e =>
        have hnot : ¬ (a.plain = false ∧ a.shape = [720, 1440]) := by
          intro hc
          rw [(writable_iff a).2 hc] at hw
          cases hw
        simp only [reduceCtorEq, false_iff, false_implies, and_true]
        intro h
        exact hnot (h name (List.mem_cons_self ..) a hf)
      | ok u =>
        dsimp only
        obtain ⟨h1, h2⟩ := ih (Function.update vars name (some a.cells))
        refine ⟨?_, ?_⟩
        · rw [h1]
          constructor
          · intro h n hn b hb
            rcases List.mem_cons.1 hn with rfl | hn
            · rw [hf] at hb
              cases hb
              exact (writable_iff a).1 hw
            · exact h n hn b hb
          · intro h n hn
            exact h n (List.mem_cons_of_mem _ hn)
        · intro hok n
          rw [h2 hok n]
          by_cases hn : n = name
          · subst hn
            rw [hf]
            by_cases hr : n ∈ rest
            · simp [hr]
            · simp [hr]
          · simp [hn]

/-- What a file written from results has. -/
def FileOf (f : Option File) (at' : Attributes) (r : Results) (names : List String) : Prop :=
  ∃ f', f = some f' ∧ r.day = some f'.day ∧ f'.comment = at'.comment ∧ f'.institution = at'.institution ∧
    f'.catalogue = at'.catalogue ∧ (∀ n ∈ names, f'.vars n = (r.fields n).map fun a => a.cells) ∧ ∀ n, n ∉ names → f'.vars n = none

theorem writeElement_ok {at' : Attributes} {disc d : Disc} {path : Path} {r : Results} {names : List String}
    (h : writeElement at' disc path r names = (d, .ok ())) :
    FileOf (d path) at' r names ∧ (∀ p, p ≠ path → d p = disc p) ∧
      ∀ n ∈ names, ∀ a, r.fields n = some a → a.plain = false ∧ a.shape = [720, 1440] := by
  classical
  unfold writeElement at h
  cases hd : r.day with
  | none => rw [hd] at h; cases h
  | some day =>
    rw [hd] at h
    dsimp only at h
    obtain ⟨h1, h2⟩ := Prod.mk.inj h
    obtain ⟨w1, w2⟩ := writeLoop_ok r names fun _ => none
    have hw := w2 h2
    subst h1
    refine ⟨⟨_, by rw [Function.update_self], hd, rfl, rfl, rfl, ?_, ?_⟩, ?_, w1.1 h2⟩
    · intro n hn
      dsimp only
      rw [hw n]
      cases hf : r.fields n with
      | none => simp
      | some a => simp [hn]
    · intro n hn
      dsimp only
      rw [hw n, if_neg (fun hc => hn hc.1)]
    · intro p hp
      rw [Function.update_of_ne hp]

theorem writeElement_succeeds (at' : Attributes) (disc : Disc) (path : Path) (r : Results) (names : List String) :
    (∃ d, writeElement at' disc path r names = (d, .ok ())) ↔
      r.day.isSome ∧ ∀ n ∈ names, ∀ a, r.fields n = some a → a.plain = false ∧ a.shape = [720, 1440] := by
  classical
  unfold writeElement
  cases hd : r.day with
  | none => simp
  | some day =>
    dsimp only
    rw [← (writeLoop_ok r names fun _ => none).1]
    simp

theorem writeBoth_iff {at' : Attributes} {ancillary : List String} {disc d : Disc} {main anc : Path} {r : Results} :
    writeBoth at' ancillary disc main anc r = (d, .ok ()) ↔
      ∃ d1, writeElement at' disc main r primaryVariables = (d1, .ok ()) ∧ writeElement at' d1 anc r ancillary = (d, .ok ()) := by
  unfold writeBoth
  cases hw : writeElement at' disc main r primaryVariables with
  | mk d1 e =>
    cases e with
    | error e => simp
    | ok u => simp

/-- The fields of the main file: the six variables. -/
theorem writeBoth_ok {at' : Attributes} {ancillary : List String} {disc d : Disc} {main anc : Path} {r : Results}
    (h : writeBoth at' ancillary disc main anc r = (d, .ok ())) :
    (main ≠ anc → FileOf (d main) at' r primaryVariables) ∧ FileOf (d anc) at' r ancillary ∧
      ∀ p, p ≠ main → p ≠ anc → d p = disc p := by
  obtain ⟨d1, h1, h2⟩ := writeBoth_iff.1 h
  obtain ⟨f1, o1, _⟩ := writeElement_ok h1
  obtain ⟨f2, o2, _⟩ := writeElement_ok h2
  refine ⟨?_, f2, ?_⟩
  · intro hne
    rw [o2 main hne]
    exact f1
  · intro p hp hq
    rw [o2 p hq, o1 p hp]

/-! ### One day -/

/-- C119 (land): a run of one day which succeeds had a day and a night file of the same date, ran the program with its own parameters, and
wrote two files: the first with the six main fields, the second with the ten others, all as read and post-processed, and nothing else. -/
theorem c119_land_day (idl : LandModel → LandEntry → Option Nc) (disc d : Disc) (x : LandDay)
    (h : runLandDay idl disc x = (d, .ok ())) :
    ∃ date nc r out n, fileDate x.day = .ok date ∧ fileDate x.night = .ok date ∧
      idl ⟨x.parameters, x.fraction, x.sampling⟩ ⟨date, x.fvc, x.dem, x.mask, x.snow, x.day, x.night⟩ = some nc ∧
      readFields landMapping nc = .ok r ∧ postProcess landAncillary r = .ok (out, n) ∧
      (x.main ≠ x.ancillary → FileOf (d x.main) ⟨x.institution, x.catalogue, dayComment n⟩ out
        ["tas", "tasmin", "tasmax", "tasuncertainty", "tasminuncertainty", "tasmaxuncertainty"]) ∧
      FileOf (d x.ancillary) ⟨x.institution, x.catalogue, dayComment n⟩ out ((landPairs.drop 2).map fun p => p.1) ∧
      ∀ p, p ≠ x.main → p ≠ x.ancillary → d p = disc p := by
  unfold runLandDay landEntry at h
  cases h1 : fileDate x.day with
  | error e => rw [h1] at h; cases h
  | ok date =>
    rw [h1] at h
    dsimp only at h
    cases h2 : fileDate x.night with
    | error e => rw [h2] at h; cases h
    | ok check =>
      rw [h2] at h
      dsimp only at h
      by_cases hd : date = check
      · subst hd
        rw [if_neg (by simp)] at h
        dsimp only at h
        unfold runIdl at h
        cases h3 : idl ⟨x.parameters, x.fraction, x.sampling⟩ ⟨date, x.fvc, x.dem, x.mask, x.snow, x.day, x.night⟩ with
        | none => rw [h3] at h; cases h
        | some nc =>
          rw [h3] at h
          dsimp only at h
          unfold finishLand at h
          cases h4 : readFields landMapping nc with
          | error e => rw [h4] at h; cases h
          | ok r =>
            rw [h4] at h
            dsimp only at h
            cases h5 : postProcess landAncillary r with
            | error e => rw [h5] at h; cases h
            | ok o =>
              rw [h5] at h
              dsimp only at h
              obtain ⟨w1, w2, w3⟩ := writeBoth_ok h
              exact ⟨date, nc, r, o.1, o.2, rfl, rfl, h3, h4, h5, w1, w2, w3⟩
      · rw [if_pos hd] at h
        cases h

/-- C119 (ocean): the same for the ocean. -/
theorem c119_ocean_day (date : Path → Option (ℕ × ℕ × ℕ)) (idl : OceanModel → OceanEntry → Option Nc) (disc d : Disc) (x : OceanDay)
    (h : runOceanDay date idl disc x = (d, .ok ())) :
    ∃ t nc r, date x.satellite = some t ∧ idl (x.parameters, x.uncertainty, x.stdev) (t, x.satellite) = some nc ∧
      readFields oceanMapping nc = .ok r ∧
      (x.main ≠ x.ancillary → FileOf (d x.main) ⟨x.institution, x.catalogue, ""⟩ r
        ["tas", "tasmin", "tasmax", "tasuncertainty", "tasminuncertainty", "tasmaxuncertainty"]) ∧
      FileOf (d x.ancillary) ⟨x.institution, x.catalogue, ""⟩ r (oceanPairs.map fun p => p.1) ∧
      ∀ p, p ≠ x.main → p ≠ x.ancillary → d p = disc p := by
  unfold runOceanDay oceanEntry at h
  cases h1 : date x.satellite with
  | none => rw [h1] at h; cases h
  | some t =>
    rw [h1] at h
    dsimp only at h
    unfold runIdl at h
    cases h3 : idl (x.parameters, x.uncertainty, x.stdev) (t, x.satellite) with
    | none => rw [h3] at h; cases h
    | some nc =>
      rw [h3] at h
      dsimp only at h
      unfold finishOcean at h
      cases h4 : readFields oceanMapping nc with
      | error e => rw [h4] at h; cases h
      | ok r =>
        rw [h4] at h
        dsimp only at h
        obtain ⟨w1, w2, w3⟩ := writeBoth_ok h
        exact ⟨t, nc, r, rfl, h3, h4, w1, w2, w3⟩

/-- C119: days and nights of different dates are refused, and nothing is written. -/
theorem c119_mismatch (idl : LandModel → LandEntry → Option Nc) (disc : Disc) (x : LandDay) (a b : ℕ × ℕ × ℕ)
    (ha : fileDate x.day = .ok a) (hb : fileDate x.night = .ok b) (h : a ≠ b) :
    runLandDay idl disc x = (disc, .error .valueError) := by
  unfold runLandDay landEntry
  rw [ha, hb]
  dsimp only
  rw [if_pos h]

/-! ### Several days -/

/-- A run over several days in general. -/
def multi {X E : Type} (f : X → Except PyErr E) (g : E → Except PyErr Nc) (fin : Disc → X → Nc → Disc × Except PyErr Unit)
    (disc : Disc) (days : List X) : Disc × Except PyErr Unit :=
  match mapAll f days with
  | .error e => (disc, .error e)
  | .ok es =>
    match mapAll g es with
    | .error e => (disc, .error e)
    | .ok ncs => finishAll fin disc (days.zip ncs)

theorem multi_cons {X E : Type} (f : X → Except PyErr E) (g : E → Except PyErr Nc)
    (fin : Disc → X → Nc → Disc × Except PyErr Unit) (disc d : Disc) (x : X) (rest : List X) :
    multi f g fin disc (x :: rest) = (d, .ok ()) ↔
      ∃ e nc d1, f x = .ok e ∧ g e = .ok nc ∧ fin disc x nc = (d1, .ok ()) ∧ multi f g fin d1 rest = (d, .ok ()) := by
  unfold multi
  rw [mapAll]
  cases h1 : f x with
  | error e => simp
  | ok e =>
    dsimp only
    cases h2 : mapAll f rest with
    | error e => simp
    | ok es =>
      dsimp only
      rw [mapAll]
      cases h3 : g e with
      | error e' =>
        dsimp only
        constructor
        · intro h
          simp at h
        · rintro ⟨e1, nc, d1, he, hg, _⟩
          cases he
          rw [h3] at hg
          cases hg
      | ok nc =>
        dsimp only
        cases h4 : mapAll g es with
        | error e' => simp
        | ok ncs =>
          dsimp only
          rw [List.zip_cons_cons, finishAll]
          cases h5 : fin disc x nc with
          | mk d1 o =>
            cases o with
            | error e' =>
              dsimp only
              constructor
              · intro h
                simp at h
              · rintro ⟨e1, nc1, d2, he, hg, hfin, _⟩
                cases he
                rw [h3] at hg
                cases hg
                rw [h5] at hfin
                simp at hfin
            | ok u =>
              dsimp only
              constructor
              · intro h
                exact ⟨e, nc, d1, rfl, h3, h5, h⟩
              · rintro ⟨e1, nc1, d2, he, hg, hfin, hrest⟩
                cases he
                rw [h3] at hg
                cases hg
                rw [h5] at hfin
                cases hfin
                exact hrest

theorem oneByOne_cons {X : Type} (run : Disc → X → Disc × Except PyErr Unit) (disc d : Disc) (x : X) (rest : List X) :
    oneByOne run disc (x :: rest) = (d, .ok ()) ↔
      ∃ d1, run disc x = (d1, .ok ()) ∧ oneByOne run d1 rest = (d, .ok ()) := by
  rw [oneByOne]
  cases h : run disc x with
  | mk d1 o =>
    cases o with
    | error e => simp
    | ok u => simp

/-- Runs one by one and together end alike if the steps do. -/
theorem multi_oneByOne {X E : Type} (f : X → Except PyErr E) (g : E → Except PyErr Nc)
    (fin fin' : Disc → X → Nc → Disc × Except PyErr Unit) (run : Disc → X → Disc × Except PyErr Unit)
    (rel : Disc → Disc → Prop)
    (hfin : ∀ d d' x nc, rel d d' → ((fin d x nc).2 = (fin' d' x nc).2) ∧ rel (fin d x nc).1 (fin' d' x nc).1)
    (days : List X)
    (hrun : ∀ x ∈ days, ∀ d e, run d x = (e, .ok ()) ↔ ∃ b nc, f x = .ok b ∧ g b = .ok nc ∧ fin d x nc = (e, .ok ())) :
    ∀ d d', rel d d' →
      (∀ e, oneByOne run d days = (e, .ok ()) → ∃ e', multi f g fin' d' days = (e', .ok ()) ∧ rel e e') ∧
      ∀ e', multi f g fin' d' days = (e', .ok ()) → ∃ e, oneByOne run d days = (e, .ok ()) ∧ rel e e' := by
  induction days with
  | nil =>
    intro d d' hr
    constructor
    · intro e h
      cases h
      exact ⟨d', rfl, hr⟩
    · intro e h
      cases h
      exact ⟨d, rfl, hr⟩
  | cons x rest ih =>
    intro d d' hr
    have ih' := ih fun y hy => hrun y (List.mem_cons_of_mem _ hy)
    constructor
    · intro e h
      obtain ⟨d1, h1, h2⟩ := (oneByOne_cons _ _ _ _ _).1 h
      obtain ⟨b, nc, hb, hg, hf⟩ := (hrun x (List.mem_cons_self ..) d d1).1 h1
      obtain ⟨q1, q2⟩ := hfin d d' x nc hr
      rw [hf] at q1 q2
      obtain ⟨e', m1, m2⟩ := (ih' d1 _ q2).1 e h2
      refine ⟨e', (multi_cons _ _ _ _ _ _ _).2 ⟨b, nc, _, hb, hg, ?_, m1⟩, m2⟩
      rw [← Prod.eta (fin' d' x nc), ← q1]
    · intro e' h
      obtain ⟨b, nc, d1, hb, hg, hf, h2⟩ := (multi_cons _ _ _ _ _ _ _).1 h
      obtain ⟨q1, q2⟩ := hfin d d' x nc hr
      rw [hf] at q1 q2
      obtain ⟨e, m1, m2⟩ := (ih' _ d1 q2).2 e' h2
      refine ⟨e, (oneByOne_cons _ _ _ _ _).2 ⟨_, (hrun x (List.mem_cons_self ..) d _).2 ⟨b, nc, hb, hg, ?_⟩, m1⟩, m2⟩
      rw [← Prod.eta (fin d x nc), q1]

theorem writeElement_same (a b : Attributes) (d e : Disc) (p : Path) (r : Results) (names : List String)
    (h1 : a.institution = b.institution) (h2 : a.catalogue = b.catalogue) (hs : SameFiles d e) :
    (writeElement a d p r names).2 = (writeElement b e p r names).2 ∧
      SameFiles (writeElement a d p r names).1 (writeElement b e p r names).1 := by
  unfold writeElement
  cases r.day with
  | none => exact ⟨rfl, hs⟩
  | some day =>
    refine ⟨rfl, ?_⟩
    intro q
    dsimp only
    by_cases hq : q = p
    · subst hq
      rw [Function.update_self, Function.update_self]
      simp [uncommented, h1, h2]
    · rw [Function.update_of_ne hq, Function.update_of_ne hq]
      exact hs q

theorem writeBoth_same (a b : Attributes) (anc : List String) (d e : Disc) (p q : Path) (r : Results)
    (h1 : a.institution = b.institution) (h2 : a.catalogue = b.catalogue) (hs : SameFiles d e) :
    (writeBoth a anc d p q r).2 = (writeBoth b anc e p q r).2 ∧
      SameFiles (writeBoth a anc d p q r).1 (writeBoth b anc e p q r).1 := by
  unfold writeBoth
  obtain ⟨w1, w2⟩ := writeElement_same a b d e p r primaryVariables h1 h2 hs
  cases ha : writeElement a d p r primaryVariables with
  | mk d1 o =>
    cases hb : writeElement b e p r primaryVariables with
    | mk e1 o' =>
      rw [ha, hb] at w1 w2
      dsimp only at w1 w2
      subst w1
      cases o with
      | error err => exact ⟨rfl, w2⟩
      | ok u => exact writeElement_same a b d1 e1 q r anc h1 h2 w2

theorem finishLand_same (a b : Attributes) (s t : ℕ → String) (d e : Disc) (p q : Path) (nc : Nc)
    (h1 : a.institution = b.institution) (h2 : a.catalogue = b.catalogue) (hs : SameFiles d e) :
    (finishLand a s d p q nc).2 = (finishLand b t e p q nc).2 ∧
      SameFiles (finishLand a s d p q nc).1 (finishLand b t e p q nc).1 := by
  unfold finishLand
  cases readFields landMapping nc with
  | error err => exact ⟨rfl, hs⟩
  | ok r =>
    dsimp only
    cases postProcess landAncillary r with
    | error err => exact ⟨rfl, hs⟩
    | ok o => exact writeBoth_same _ _ _ d e p q _ h1 h2 hs

theorem finishOcean_same (a b : Attributes) (d e : Disc) (p q : Path) (nc : Nc)
    (h1 : a.institution = b.institution) (h2 : a.catalogue = b.catalogue) (hs : SameFiles d e) :
    (finishOcean a d p q nc).2 = (finishOcean b e p q nc).2 ∧
      SameFiles (finishOcean a d p q nc).1 (finishOcean b e p q nc).1 := by
  unfold finishOcean
  cases readFields oceanMapping nc with
  | error err => exact ⟨rfl, hs⟩
  | ok r => exact writeBoth_same _ _ _ d e p q _ h1 h2 hs

theorem runLandDays_multi (idl : LandModel → LandEntry → Option Nc) (disc : Disc) (first : LandDay) (rest : List LandDay) :
    runLandDays idl disc (first :: rest) = multi
      (fun x => landEntry first.fvc first.dem first.mask (some (x.snow.getD "MISSING".toList)) x.day x.night)
      (runIdl idl ⟨first.parameters, first.fraction, first.sampling⟩)
      (fun d x nc => finishLand ⟨first.institution, first.catalogue, ""⟩ daysComment d x.main x.ancillary nc) disc (first :: rest) := by
  unfold runLandDays multi
  dsimp only
  cases mapAll (fun x => landEntry first.fvc first.dem first.mask (some (x.snow.getD "MISSING".toList)) x.day x.night)
      (first :: rest) with
  | error e => rfl
  | ok es =>
    dsimp only
    cases mapAll (runIdl idl ⟨first.parameters, first.fraction, first.sampling⟩) es with
    | error e => rfl
    | ok ncs => rfl

theorem runOceanDays_multi (date : Path → Option (ℕ × ℕ × ℕ)) (idl : OceanModel → OceanEntry → Option Nc) (disc : Disc)
    (first : OceanDay) (rest : List OceanDay) :
    runOceanDays date idl disc (first :: rest) = multi
      (fun x => oceanEntry date x.satellite)
      (runIdl idl (first.parameters, first.uncertainty, first.stdev))
      (fun d x nc => finishOcean ⟨first.institution, first.catalogue, ""⟩ d x.main x.ancillary nc) disc (first :: rest) := by
  unfold runOceanDays multi
  dsimp only
  cases mapAll (fun x : OceanDay => oceanEntry date x.satellite) (first :: rest) with
  | error e => rfl
  | ok es =>
    dsimp only
    cases mapAll (runIdl idl (first.parameters, first.uncertainty, first.stdev)) es with
    | error e => rfl
    | ok ncs => rfl

/-- C119 (land): if the days share all but their own files, and the snow file of each is given, a run over all of them succeeds exactly if
runs one by one do, and the files are the same apart from the comments. -/
theorem c119_land_days (idl : LandModel → LandEntry → Option Nc) (disc : Disc) (first : LandDay) (rest : List LandDay)
    (hshared : ∀ x ∈ rest, first.Shared x) (hsnow : ∀ x ∈ first :: rest, x.snow.isSome) :
    (∀ d, oneByOne (runLandDay idl) disc (first :: rest) = (d, .ok ()) →
      ∃ e, runLandDays idl disc (first :: rest) = (e, .ok ()) ∧ SameFiles d e) ∧
    ∀ e, runLandDays idl disc (first :: rest) = (e, .ok ()) →
      ∃ d, oneByOne (runLandDay idl) disc (first :: rest) = (d, .ok ()) ∧ SameFiles d e := by
  have hsh : ∀ x ∈ first :: rest, first.Shared x := by
    intro x hx
    rcases List.mem_cons.1 hx with rfl | hx
    · exact ⟨rfl, rfl, rfl, rfl, rfl, rfl, rfl, rfl⟩
    · exact hshared x hx
  rw [runLandDays_multi]
  exact multi_oneByOne
    (fun x => landEntry first.fvc first.dem first.mask (some (x.snow.getD "MISSING".toList)) x.day x.night)
    (runIdl idl ⟨first.parameters, first.fraction, first.sampling⟩)
    (fun d x nc => finishLand ⟨first.institution, first.catalogue, ""⟩ dayComment d x.main x.ancillary nc)
    (fun d x nc => finishLand ⟨first.institution, first.catalogue, ""⟩ daysComment d x.main x.ancillary nc)
    (runLandDay idl) SameFiles
    (fun d d' x nc h => finishLand_same _ _ _ _ d d' _ _ nc rfl rfl h)
    (first :: rest)
    (by
      intro x hx d e
      obtain ⟨s1, s2, s3, s4, s5, s6, s7, s8⟩ := hsh x hx
      obtain ⟨snow, hs⟩ := Option.isSome_iff_exists.1 (hsnow x hx)
      rw [s1, s2, s3, s4, s5, s6, s7, s8, hs, Option.getD_some]
      unfold runLandDay
      rw [hs]
      cases landEntry x.fvc x.dem x.mask (some snow) x.day x.night with
      | error err => simp
      | ok b =>
        dsimp only
        cases hi : runIdl idl ⟨x.parameters, x.fraction, x.sampling⟩ b with
        | error err => simp [hi]
        | ok nc => simp [hi])
    disc disc (fun _ => rfl)

/-- C119 (ocean): the same for the ocean. -/
theorem c119_ocean_days (date : Path → Option (ℕ × ℕ × ℕ)) (idl : OceanModel → OceanEntry → Option Nc) (disc : Disc) (first : OceanDay)
    (rest : List OceanDay) (hshared : ∀ x ∈ rest, first.Shared x) :
    (∀ d, oneByOne (runOceanDay date idl) disc (first :: rest) = (d, .ok ()) →
      ∃ e, runOceanDays date idl disc (first :: rest) = (e, .ok ()) ∧ SameFiles d e) ∧
    ∀ e, runOceanDays date idl disc (first :: rest) = (e, .ok ()) →
      ∃ d, oneByOne (runOceanDay date idl) disc (first :: rest) = (d, .ok ()) ∧ SameFiles d e := by
  have hsh : ∀ x ∈ first :: rest, first.Shared x := by
    intro x hx
    rcases List.mem_cons.1 hx with rfl | hx
    · exact ⟨rfl, rfl, rfl, rfl, rfl⟩
    · exact hshared x hx
  rw [runOceanDays_multi]
  exact multi_oneByOne
    (fun x => oceanEntry date x.satellite)
    (runIdl idl (first.parameters, first.uncertainty, first.stdev))
    (fun d x nc => finishOcean ⟨first.institution, first.catalogue, ""⟩ d x.main x.ancillary nc)
    (fun d x nc => finishOcean ⟨first.institution, first.catalogue, ""⟩ d x.main x.ancillary nc)
    (runOceanDay date idl) SameFiles
    (fun d d' x nc h => finishOcean_same _ _ d d' _ _ nc rfl rfl h)
    (first :: rest)
    (by
      intro x hx d e
      obtain ⟨s1, s2, s3, s4, s5⟩ := hsh x hx
      rw [s1, s2, s3, s4, s5]
      unfold runOceanDay
      cases oceanEntry date x.satellite with
      | error err => simp
      | ok b =>
        dsimp only
        cases hi : runIdl idl (x.parameters, x.uncertainty, x.stdev) b with
        | error err => simp [hi]
        | ok nc => simp [hi])
    disc disc (fun _ => rfl)

/-- C119: if the program fails for one of the days, a run over several days has written nothing. -/
theorem c119_untouched (idl : LandModel → LandEntry → Option Nc) (disc : Disc) (first : LandDay) (rest : List LandDay) (x : LandDay)
    (hx : x ∈ first :: rest) (hidl : ∀ m e, e.day = x.day → idl m e = none) :
    ∃ err, runLandDays idl disc (first :: rest) = (disc, .error err) := by
  have hall : ∀ {α β : Type} (f : α → Except PyErr β) (l : List α) (bs : List β), mapAll f l = .ok bs → ∀ a ∈ l, ∃ b ∈ bs, f a = .ok b := by
    intro α β f l
    induction l with
    | nil => intro bs _ a ha; cases ha
    | cons c l ih =>
      intro bs h a ha
      rw [mapAll] at h
      cases hc : f c with
      | error e => rw [hc] at h; cases h
      | ok b =>
        rw [hc] at h
        dsimp only at h
        cases hl : mapAll f l with
        | error e => rw [hl] at h; cases h
        | ok bs' =>
          rw [hl] at h
          cases h
          rcases List.mem_cons.1 ha with rfl | ha
          · exact ⟨b, List.mem_cons_self .., hc⟩
          · obtain ⟨b', hb', hf⟩ := ih bs' hl a ha
            exact ⟨b', List.mem_cons_of_mem _ hb', hf⟩
  unfold runLandDays
  dsimp only
  cases h1 : mapAll (fun x => landEntry first.fvc first.dem first.mask (some (x.snow.getD "MISSING".toList)) x.day x.night)
      (first :: rest) with
  | error e => exact ⟨e, rfl⟩
  | ok entries =>
    dsimp only
    cases h2 : mapAll (runIdl idl ⟨first.parameters, first.fraction, first.sampling⟩) entries with
    | error e => exact ⟨e, rfl⟩
    | ok ncs =>
      exfalso
      obtain ⟨b, hb, hf⟩ := hall _ _ _ h1 x hx
      obtain ⟨nc, _, hg⟩ := hall _ _ _ h2 b hb
      have hday : b.day = x.day := by
        unfold landEntry at hf
        cases hd : fileDate x.day with
        | error e => rw [hd] at hf; cases hf
        | ok date =>
          rw [hd] at hf
          dsimp only at hf
          cases hn : fileDate x.night with
          | error e => rw [hn] at hf; cases hf
          | ok check =>
            rw [hn] at hf
            dsimp only at hf
            split at hf
            · cases hf
            · cases hf
              rfl
      unfold runIdl at hg
      rw [hidl _ b hday] at hg
      cases hg

/-- The parameters of a day replaced. -/
def LandDay.withParameters (y x : LandDay) : LandDay :=
  { y with main := x.main, ancillary := x.ancillary, day := x.day, night := x.night, snow := x.snow }

theorem mapAll_map {α β γ : Type} (f : β → Except PyErr γ) (g : α → β) (l : List α) : mapAll f (l.map g) = mapAll (fun a => f (g a)) l := by
  induction l with
  | nil => rfl
  | cons a l ih => rw [List.map_cons, mapAll, mapAll, ih]

theorem finishAll_map {α β : Type} (fin : Disc → β → Nc → Disc × Except PyErr Unit) (g : α → β) (l : List α) :
    ∀ (ncs : List Nc) (d : Disc), finishAll fin d ((l.map g).zip ncs) = finishAll (fun d a => fin d (g a)) d (l.zip ncs) := by
  induction l with
  | nil => intro ncs d; rfl
  | cons a l ih =>
    intro ncs d
    cases ncs with
    | nil => rfl
    | cons nc ncs =>
      rw [List.map_cons, List.zip_cons_cons, List.zip_cons_cons, finishAll, finishAll]
      cases fin d (g a) nc with
      | mk d1 o => cases o with
        | error e => rfl
        | ok u => exact ih ncs d1

/-- C119 is violated if the days have parameters, masks, elevations or vegetation of their own (vegetation changes through the year): for
all days but the first they have no influence on the run over several days. -/
theorem c119_parameters_violated (idl : LandModel → LandEntry → Option Nc) (disc : Disc) (first y : LandDay) (rest : List LandDay) :
    runLandDays idl disc (first :: rest) = runLandDays idl disc (first :: rest.map fun x => y.withParameters x) := by
  have hmap : ∀ f : LandDay → Except PyErr LandEntry, (∀ x, f (y.withParameters x) = f x) →
      mapAll f (first :: rest.map fun x => y.withParameters x) = mapAll f (first :: rest) := by
    intro f hf
    rw [mapAll, mapAll, mapAll_map]
    have : (fun a => f (y.withParameters a)) = f := funext hf
    rw [this]
  unfold runLandDays
  dsimp only
  rw [hmap _ (fun x => rfl)]
  cases mapAll (fun x => landEntry first.fvc first.dem first.mask (some (x.snow.getD "MISSING".toList)) x.day x.night)
      (first :: rest) with
  | error e => rfl
  | ok entries =>
    dsimp only
    cases mapAll (runIdl idl ⟨first.parameters, first.fraction, first.sampling⟩) entries with
    | error e => rfl
    | ok ncs =>
      dsimp only
      cases ncs with
      | nil => rfl
      | cons nc ncs =>
        rw [List.zip_cons_cons, List.zip_cons_cons, finishAll, finishAll]
        cases finishLand ⟨first.institution, first.catalogue, ""⟩ daysComment disc first.main first.ancillary nc with
        | mk d1 o => cases o with
          | error e => rfl
          | ok u =>
            dsimp only
            rw [finishAll_map]
            rfl

/-! ### A run which succeeds -/

theorem finishLand_ok (goodNc : Nc) (g : Arr) (hv : ∀ n, goodNc.vars n = some g) (hg : IsGlobal g) (hgp : g.plain = false)
    (a : Attributes) (s : ℕ → String) (disc : Disc) (p q : Path) : ∃ d, finishLand a s disc p q goodNc = (d, .ok ()) := by
  obtain ⟨r, hr⟩ := (c117_land goodNc).1.2 ⟨fun p _ => by rw [hv]; rfl, fun n _ => ⟨g, hv n, hg⟩⟩
  obtain ⟨hday, hf, ⟨t1, ht1, hT1⟩, ⟨t2, ht2, hT2⟩, hnone⟩ := (c117_land goodNc).2 r hr
  have hfield : ∀ p ∈ landPairs, ∃ a, r.fields p.1 = some a ∧ a.cells.length = cellCount ∧ a.plain = false ∧ a.shape = [720, 1440] := by
    intro p hp
    obtain ⟨a, ha, b, hb, h1, h2, h3⟩ := hf p hp
    rw [hv] at hb
    cases hb
    exact ⟨a, ha, by rw [h1]; exact hg.2, by rw [h2]; exact hgp, by rw [h3]; exact hg.1⟩
  obtain ⟨tmin, hmin, lmin, pmin, smin⟩ := hfield ("tasmin", "tasmin") (by simp [landPairs])
  obtain ⟨tmax, hmax, lmax, pmax, smax⟩ := hfield ("tasmax", "tasmax") (by simp [landPairs])
  dsimp only at hmin hmax
  have hproc : ∀ name ∈ processed, ∃ a, r.fields name = some a ∧ a.cells.length = cellCount ∧ a.plain = false ∧ a.shape = [720, 1440] := by
    intro name hname
    rcases List.mem_append.1 hname with hname | hname
    · obtain ⟨p, hp, rfl⟩ := List.mem_map.1 hname
      exact hfield p hp
    · simp only [List.mem_cons, List.not_mem_nil, or_false] at hname
      rcases hname with rfl | rfl
      · exact ⟨t1, ht1, hT1.2.2.1, hT1.2.1, hT1.1⟩
      · exact ⟨t2, ht2, hT2.2.2.1, hT2.2.1, hT2.1⟩
  obtain ⟨out, n, ho⟩ := (c118_post r).1.2 ⟨tmin, tmax, hmin, hmax, smin.trans smax.symm, lmin.trans lmax.symm, by
    intro name hname
    obtain ⟨a, ha, h1, h2, _⟩ := hproc name hname
    exact ⟨a, ha, h2, fun _ => h1.trans lmin.symm⟩⟩
  obtain ⟨_, hothers, hframe, hoday, _⟩ := (c118_post r).2 out n ho
  have hw : ∀ name a, out.fields name = some a → a.plain = false ∧ a.shape = [720, 1440] := by
    intro name b hb
    have hfr := hframe name
    by_cases hname : name ∈ processed
    · obtain ⟨a, ha, _, h2, h3⟩ := hproc name hname
      rw [ha, hb] at hfr
      simp only [frame, Option.map_some, Option.some.injEq, Prod.mk.injEq] at hfr
      exact ⟨hfr.2.2.trans h2, hfr.1.trans h3⟩
    · rw [hothers name hname, hnone name (fun hc => hname (List.mem_append_left _ hc))
        (fun hc => hname (by rw [hc]; exact List.mem_append_right _ (by simp)))
        (fun hc => hname (by rw [hc]; exact List.mem_append_right _ (by simp)))] at hb
      cases hb
  unfold finishLand
  rw [hr]
  dsimp only
  rw [ho]
  dsimp only
  obtain ⟨d1, h1⟩ := (writeElement_succeeds { a with comment := s n } disc p out primaryVariables).2
    ⟨by rw [hoday, hday]; rfl, fun m _ b hb => hw m b hb⟩
  obtain ⟨d2, h2⟩ := (writeElement_succeeds { a with comment := s n } d1 q out landAncillary).2
    ⟨by rw [hoday, hday]; rfl, fun m _ b hb => hw m b hb⟩
  exact ⟨d2, writeBoth_iff.2 ⟨d1, h1, h2⟩⟩

/-- A day for the examples. -/
noncomputable def sampleDay (parameters : List Path) (snow : Option Path) : LandDay :=
  ⟨"c", "i", "m".toList, "a".toList, parameters, "d.20160101.nc".toList, "n.20160101.nc".toList, snow,
    ("x".toList, "y".toList), "dem".toList, "fvc".toList, 1, 1⟩

/-- C119 is violated: with parameters for which the program fails on the second of two days, the runs one by one fail, but the run over
both succeeds, with the parameters of the first day for both. -/
theorem c119_parameters_fail_violated (disc : Disc) : ∃ (idl : LandModel → LandEntry → Option Nc) (x y : LandDay),
      (∃ d, runLandDays idl disc [x, y] = (d, .ok ())) ∧ (∀ d, oneByOne (runLandDay idl) disc [x, y] ≠ (d, .ok ())) := by
  classical
  obtain ⟨t, ht1, ht2⟩ : ∃ t, fileDate "d.20160101.nc".toList = .ok t ∧ fileDate "n.20160101.nc".toList = .ok t :=
    ⟨(2016, 1, 1), rfl, rfl⟩
  obtain ⟨nc, hnc⟩ : ∃ nc : Nc, ∀ n, nc.vars n = some (sampleArr (some 1) none) := ⟨⟨7.5, fun _ => some (sampleArr (some 1) none)⟩, fun _ => rfl⟩
  have hfin := fun a s d p q => finishLand_ok nc _ hnc (sampleArr_global _ _) rfl a s d p q
  refine ⟨fun m _ => if m.parameters = [] then none else some nc, sampleDay ["p".toList] (some []), sampleDay [] (some []), ?_, ?_⟩
  · rw [runLandDays_multi]
    have hidl : ∀ e, runIdl (fun (m : LandModel) (_ : LandEntry) => if m.parameters = [] then none else some nc)
        ⟨(sampleDay ["p".toList] (some [])).parameters, (sampleDay ["p".toList] (some [])).fraction,
          (sampleDay ["p".toList] (some [])).sampling⟩ e = .ok nc := by
      intro e
      simp [runIdl, sampleDay]
    have hentry : ∀ ps qs : List Path, ∃ e, landEntry (sampleDay ps (some [])).fvc (sampleDay ps (some [])).dem
        (sampleDay ps (some [])).mask (some ((sampleDay qs (some [])).snow.getD "MISSING".toList)) (sampleDay qs (some [])).day
        (sampleDay qs (some [])).night = .ok e := by
      intro ps qs
      refine ⟨⟨t, "fvc".toList, "dem".toList, ("x".toList, "y".toList), some [], "d.20160101.nc".toList, "n.20160101.nc".toList⟩, ?_⟩
      unfold landEntry sampleDay
      dsimp only
      rw [ht1, ht2]
      simp
    obtain ⟨e1, he1⟩ := hentry ["p".toList] ["p".toList]
    obtain ⟨e2, he2⟩ := hentry ["p".toList] []
    obtain ⟨d1, hd1⟩ := hfin ⟨(sampleDay ["p".toList] (some [])).institution, (sampleDay ["p".toList] (some [])).catalogue, ""⟩
      daysComment disc (sampleDay ["p".toList] (some [])).main (sampleDay ["p".toList] (some [])).ancillary
    obtain ⟨d2, hd2⟩ := hfin ⟨(sampleDay ["p".toList] (some [])).institution, (sampleDay ["p".toList] (some [])).catalogue, ""⟩
      daysComment d1 (sampleDay [] (some [])).main (sampleDay [] (some [])).ancillary
    exact ⟨d2, (multi_cons ..).2 ⟨e1, nc, d1, he1, hidl e1, hd1, (multi_cons ..).2 ⟨e2, nc, d2, he2, hidl e2, hd2, rfl⟩⟩⟩
  · intro d h
    obtain ⟨d1, _, h2⟩ := (oneByOne_cons ..).1 h
    obtain ⟨d2, h3, _⟩ := (oneByOne_cons ..).1 h2
    obtain ⟨_, _, _, _, _, _, _, h4, _⟩ := c119_land_day _ _ _ _ h3
    simp [sampleDay] at h4

end Verif.Eustace.SurfaceAir
