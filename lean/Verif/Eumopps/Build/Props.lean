import Verif.Eumopps.Build.Model
import Verif.Eumopps.Run.Props

/-! Property C21: updates of a catalogue only append. -/
namespace Verif.Eumopps.Build
open Verif Verif.Py Verif.Eumopps.Catalogue Verif.Eumopps.Operation Verif.Eumopps.Operation.Spec Verif.Eumopps.Run
open Verif.Eumopps.Placeholder Verif.Eumopps.Placeholder.Spec Verif.Eumopps.Reference

/-- Growth of a catalogue: data sets keep their position, name and path, and a subset with entries never changes. -/
def Grows (c c' : Catalogue) : Prop :=
  ∀ (d : Nat) (ds : DataSet), c.datasets[d]? = some ds → ∃ ds', c'.datasets[d]? = some ds' ∧
    ds'.name = ds.name ∧ ds'.path = ds.path ∧
    ∀ (s : Nat) (sub : Subset), ds.subsets[s]? = some sub → ∃ sub', ds'.subsets[s]? = some sub' ∧
      (sub.entries ≠ [] → sub' = sub)

theorem Grows.refl (c : Catalogue) : Grows c c :=
  fun _ ds h => ⟨ds, h, rfl, rfl, fun _ sub hs => ⟨sub, hs, fun _ => rfl⟩⟩

theorem Grows.trans {a b c : Catalogue} (h : Grows a b) (h' : Grows b c) : Grows a c := by
  intro d ds hd
  obtain ⟨ds1, e1, e2, e3, e4⟩ := h d ds hd
  obtain ⟨ds2, f1, f2, f3, f4⟩ := h' d ds1 e1
  refine ⟨ds2, f1, f2.trans e2, f3.trans e3, ?_⟩
  intro s sub hs
  obtain ⟨s1, g1, g2⟩ := e4 s sub hs
  obtain ⟨s2, k1, k2⟩ := f4 s s1 g1
  refine ⟨s2, k1, fun hne => ?_⟩
  have := g2 hne
  subst this
  exact k2 hne

theorem Grows.append (c : Catalogue) (l : List DataSet) : Grows c ⟨c.datasets ++ l⟩ := by
  intro d ds hd
  have hlt := (List.getElem?_eq_some_iff.1 hd).1
  exact ⟨ds, by simp only; rw [List.getElem?_append_left hlt]; exact hd, rfl, rfl, fun _ sub hs => ⟨sub, hs, fun _ => rfl⟩⟩

theorem Grows.of_keeps {c c' : Catalogue} (h : Keeps c c') : Grows c c' := by
  obtain ⟨⟨hn, hp⟩, hk⟩ := h
  intro d ds hd
  have hlen : c.datasets.length = c'.datasets.length := by
    have := congrArg List.length hn; simpa using this.symm
  have hlt := (List.getElem?_eq_some_iff.1 hd).1
  obtain ⟨ds', hd'⟩ : ∃ ds', c'.datasets[d]? = some ds' := ⟨c'.datasets[d]'(by omega), by simp [hlen ▸ hlt]⟩
  have hat := congrArg (fun l => l[d]?) hn
  simp only [List.getElem?_map, hd, hd', Option.map_some, Option.some.injEq, Prod.mk.injEq] at hat
  refine ⟨ds', hd', by rw [hat.1], by rw [hat.2.1], ?_⟩
  intro s sub hs
  have hlt' := (List.getElem?_eq_some_iff.1 hs).1
  have hs' : ∃ sub', ds'.subsets[s]? = some sub' := ⟨ds'.subsets[s]'(by omega), by simp⟩
  obtain ⟨sub', hs'⟩ := hs'
  refine ⟨sub', hs', fun hne => ?_⟩
  have := hk d s sub (by simp [subsetAt, hd, hs]) hne
  simp only [subsetAt, hd', Option.bind_some, hs', Option.some.injEq] at this
  exact this

/-- A reference that gives a path (or the missing-file marker) keeps giving it. -/
theorem Grows.path {c c' : Catalogue} (h : Grows c c') {r : DataReference} {q : Option String}
    (hq : loadDataPathname c r = .ok q) : loadDataPathname c' r = .ok q := by
  unfold loadDataPathname at hq
  cases hds : groupAt c.datasets r.dataset with
  | error e => rw [hds] at hq; cases hq
  | ok ds =>
    rw [hds] at hq
    simp only at hq
    cases hsub : groupAt ds.subsets r.subset with
    | error e => rw [hsub] at hq; cases hq
    | ok s =>
      rw [hsub] at hq
      simp only at hq
      obtain ⟨d0, d1⟩ := groupAt_ok.1 hds
      obtain ⟨s0, s1⟩ := groupAt_ok.1 hsub
      obtain ⟨ds', e1, _, e3, e4⟩ := h _ ds d1
      obtain ⟨s', f1, f2⟩ := e4 _ s s1
      split at hq
      · cases hq
      · rename_i hne
        have hs' := f2 hne
        subst hs'
        unfold loadDataPathname
        rw [groupAt_ok.2 ⟨d0, e1⟩]
        simp only
        rw [groupAt_ok.2 ⟨s0, f1⟩]
        simp only
        rw [if_neg hne, e3]
        exact hq

theorem resolve_grows {op : Op} {cat cat' : Catalogue} {pd : Option String} {t' : Tree} {n : Nat}
    (h : resolveOperationReferences op cat pd = .ok (t', n, cat')) : Grows cat cat' := by
  obtain ⟨cat1, keep, ⟨new, hn, _⟩, hk, _⟩ := c09_core h
  have : cat1 = ⟨cat.datasets ++ new⟩ := by cases cat1; simp only at hn; rw [hn]
  subst this
  exact (Grows.append cat new).trans (Grows.of_keeps hk)

theorem expand_grows {env : Env} {pd : Option String} : ∀ {os : List OpDesc} {cat cat' : Catalogue} {l : List StoredOp},
    expand env pd os cat = .ok (l, cat') → Grows cat cat'
  | [], cat, cat', l, h => by simp only [expand, Except.ok.injEq, Prod.mk.injEq] at h; rw [← h.2]; exact Grows.refl _
  | o :: os, cat, cat', l, h => by
    unfold expand at h
    split at h
    · cases h
    · rename_i t n c1 hr
      split at h
      · cases h
      · rename_i rest c2 he
        cases h
        exact (resolve_grows hr).trans (expand_grows he)

theorem build_ok {env : Env} {file : Option FullCatalogue} {d : Description} {update : Bool} {filter pd : Option String}
    {f' : FullCatalogue} (h : build env file d update filter pd = .ok f') :
    ∃ (od : List DataSet) (oo new : List StoredOp), Grows ⟨od⟩ ⟨f'.datasets⟩ ∧ f'.operations = oo ++ new ∧
      (update = true → ∃ f, file = some f ∧ od = f.datasets ∧ oo = f.operations) := by
  unfold build at h
  split at h
  · cases h
  · split at h
    · cases h
    · rename_i found _
      split at h
      · cases h
      · rename_i od oo hu
        split at h
        · cases h
        · rename_i new cat he
          cases h
          refine ⟨od, oo, new, (Grows.append ⟨od⟩ found).trans (expand_grows he), rfl, ?_⟩
          intro hup
          subst hup
          simp only [if_true] at hu
          cases file with
          | none => cases hu
          | some f => cases hu; exact ⟨f, rfl, rfl, rfl⟩

/-- **C21.** Along every history of build requests without overwriting (successful or failing, in any order, starting from
any catalogue file), the file keeps existing; every reference that gave a path name gives the same one at the end; every
data set keeps its number and name; and every stored operation keeps its number and its resolved parameters. -/
theorem c21_append_only (f : FullCatalogue) (rs : List Request) (hno : ∀ r ∈ rs, r.overwrite = false) :
    ∃ f', rs.foldl request (some f) = some f' ∧
      (∀ r q, loadDataPathname ⟨f.datasets⟩ r = .ok q → loadDataPathname ⟨f'.datasets⟩ r = .ok q) ∧
      (∀ (k : Nat) (ds : DataSet), f.datasets[k]? = some ds → ∃ ds', f'.datasets[k]? = some ds' ∧ ds'.name = ds.name) ∧
      (∃ new, f'.operations = f.operations ++ new) := by
  suffices h : ∃ f', rs.foldl request (some f) = some f' ∧ Grows ⟨f.datasets⟩ ⟨f'.datasets⟩ ∧
      ∃ new, f'.operations = f.operations ++ new by
    obtain ⟨f', h1, h2, h3⟩ := h
    refine ⟨f', h1, fun r q hq => h2.path hq, ?_, h3⟩
    intro k ds hk
    obtain ⟨ds', a, b, _⟩ := h2 k ds hk
    exact ⟨ds', a, b⟩
  induction rs generalizing f with
  | nil => exact ⟨f, rfl, Grows.refl _, [], by simp⟩
  | cons r rs ih =>
    have hone : ∃ f1, request (some f) r = some f1 ∧ Grows ⟨f.datasets⟩ ⟨f1.datasets⟩ ∧
        ∃ new, f1.operations = f.operations ++ new := by
      unfold request
      cases hb : buildFromFile r.env (some f) r.description r.update r.overwrite r.filter r.pathdefault with
      | error e => exact ⟨f, rfl, Grows.refl _, [], by simp⟩
      | ok f1 =>
        refine ⟨f1, rfl, ?_⟩
        unfold buildFromFile at hb
        split at hb
        · cases hb
        · rename_i hc
          have hup : r.update = true := by
            cases hu : r.update with
            | true => rfl
            | false => exact absurd ⟨rfl, hu, hno r (by simp)⟩ hc
          obtain ⟨od, oo, new, g, e, hu⟩ := build_ok hb
          obtain ⟨f0, h1, rfl, rfl⟩ := hu hup
          cases h1
          exact ⟨g, new, e⟩
    obtain ⟨f1, h1, h2, n1, h3⟩ := hone
    obtain ⟨f', h4, h5, n2, h6⟩ := ih f1 (fun r hr => hno r (by simp [hr]))
    refine ⟨f', by simp only [List.foldl_cons, h1, h4], h2.trans h5, n1 ++ n2, by rw [h6, h3]; simp⟩

/-- **C21.** An existing catalogue file is never replaced unless updating or overwriting was requested, and a request that
raises leaves the file as it was. -/
theorem c21_protected {f : FullCatalogue} {r : Request} :
    (r.update = false → r.overwrite = false → request (some f) r = some f) ∧
    (∀ e file, buildFromFile r.env file r.description r.update r.overwrite r.filter r.pathdefault = .error e →
      request file r = file) := by
  constructor
  · intro h1 h2
    simp [request, buildFromFile, h1, h2]
  · intro e file h
    simp [request, h]

/-- What is stored for an operation of the description: its names, the tool chain of its module at build time, and
parameters all of whose per-operation lists have the stored count as length. -/
def StoredFor (env : Env) (o : OpDesc) (g : StoredOp) : Prop :=
  g.name = o.name ∧ g.pythonClass = o.pythonClass ∧ g.pythonFunction = o.pythonFunction ∧
    g.toolchain = env.toolchain o ∧ ∀ kd ps, Occurs (.plist kd ps) g.runmodule → ps.length = g.count

theorem expand_stored {env : Env} {pd : Option String} : ∀ {os : List OpDesc} {cat cat' : Catalogue} {l : List StoredOp},
    expand env pd os cat = .ok (l, cat') → List.Forall₂ (StoredFor env) os l
  | [], cat, cat', l, h => by simp only [expand, Except.ok.injEq, Prod.mk.injEq] at h; rw [← h.1]; exact .nil
  | o :: os, cat, cat', l, h => by
    unfold expand at h
    split at h
    · cases h
    · rename_i t n c1 hr
      split at h
      · cases h
      · rename_i rest c2 he
        cases h
        exact .cons ⟨rfl, rfl, rfl, rfl, fun kd ps ho => c09_lengths hr kd ps ho⟩ (expand_stored he)

/-- **C21, C23.** A successful build stores, after the operations already there, one operation for each of the
description, in order, with its names and the tool chain of the module at build time; and gives the catalogue a new
identifier. -/
theorem c21_stored {env : Env} {file : Option FullCatalogue} {d : Description} {update : Bool} {pd : Option String}
    {f' : FullCatalogue} (h : build env file d update none pd = .ok f') :
    f'.identifier = env.newIdentifier ∧ ∃ new, List.Forall₂ (StoredFor env) d.operations new ∧
      f'.operations = (if update then (file.map (·.operations)).getD [] else []) ++ new := by
  unfold build applyFilter at h
  simp only at h
  split at h
  · cases h
  · split at h
    · cases h
    · rename_i od oo hu
      split at h
      · cases h
      · rename_i new cat he
        cases h
        refine ⟨rfl, new, expand_stored he, ?_⟩
        cases update with
        | false => simp only [Bool.false_eq_true, if_false, Except.ok.injEq, Prod.mk.injEq] at hu; simp [← hu.2]
        | true =>
          simp only [if_true] at hu ⊢
          cases file with
          | none => cases hu
          | some f => cases hu; rfl

theorem forall₂_mem {R : α → β → Prop} {l : List α} {m : List β} (h : List.Forall₂ R l m) : ∀ b ∈ m, ∃ a, R a b := by
  induction h with
  | nil => intro b hb; simp at hb
  | cons h1 _ ih =>
    intro b hb
    rcases List.mem_cons.1 hb with rfl | hb
    · exact ⟨_, h1⟩
    · exact ih b hb

/-- **C21.** Along every history of requests starting without a file, all per-operation lists of every stored operation
have the stored count as their length (so selecting an operation never fails with a count mismatch). -/
theorem c21_counts (rs : List Request) (f : FullCatalogue) (h : rs.foldl request none = some f) :
    ∀ g ∈ f.operations, ∀ kd ps, Occurs (.plist kd ps) g.runmodule → ps.length = g.count := by
  suffices hs : ∀ (rs : List Request) (file : Option FullCatalogue),
      (∀ f0, file = some f0 → ∀ g ∈ f0.operations, ∀ kd ps, Occurs (.plist kd ps) g.runmodule → ps.length = g.count) →
      ∀ f, rs.foldl request file = some f →
        ∀ g ∈ f.operations, ∀ kd ps, Occurs (.plist kd ps) g.runmodule → ps.length = g.count from
    hs rs none (fun _ h => by cases h) f h
  clear h f rs
  intro rs
  induction rs with
  | nil => intro file hf f h; exact hf f h
  | cons r rs ih =>
    intro file hf f h
    refine ih (request file r) ?_ f h
    intro f0 h0 g hg kd ps ho
    unfold request at h0
    split at h0
    · rename_i f1 hb
      cases h0
      unfold buildFromFile at hb
      split at hb
      · cases hb
      · have hfil : build r.env file r.description r.update none r.pathdefault = .ok f0 := by
          cases hfl : r.filter with
          | none => rw [hfl] at hb; exact hb
          | some s =>
            rw [hfl] at hb
            by_cases hs : s = ""
            · subst hs; simpa [build, applyFilter] using hb
            · exfalso
              unfold build applyFilter at hb
              simp only [hs, if_false] at hb
              split at hb
              · cases hb
              · rename_i heq
                split at heq <;> cases heq
        obtain ⟨_, new, hn, ho'⟩ := c21_stored hfil
        rw [ho'] at hg
        rcases List.mem_append.1 hg with hg | hg
        · split at hg
          · cases file with
            | none => simp at hg
            | some f2 => exact hf f2 rfl g (by simpa using hg) kd ps ho
          · simp at hg
        · have := forall₂_mem hn g hg
          obtain ⟨o, hst⟩ := this
          exact hst.2.2.2.2 kd ps ho
    · exact hf f0 h0 g hg kd ps ho

/-- **C21, negative result.** Restricting a build to one data set never works: a known name raises TypeError, an unknown
one ValueError. -/
theorem c21_filter_violated (env : Env) (file : Option FullCatalogue) (d : Description) (update : Bool) (f : String)
    (hf : f ≠ "") (pd : Option String) :
    (build env file d update (some f) pd = .error .typeError ∧ ∃ ds ∈ d.datasets, ds.name = f) ∨
    (build env file d update (some f) pd = .error .valueError ∧ ∀ ds ∈ d.datasets, ds.name ≠ f) := by
  unfold build applyFilter
  simp only [hf, if_false]
  unfold Catalogue.datasetindex
  cases hi : d.datasets.findIdx? (fun x => x.name == f) with
  | none =>
    right
    refine ⟨rfl, ?_⟩
    rw [List.findIdx?_eq_none_iff] at hi
    intro ds hds he
    have := hi ds hds
    simp [he] at this
  | some k =>
    left
    refine ⟨rfl, ?_⟩
    obtain ⟨hk, hp, _⟩ := List.findIdx?_eq_some_iff_getElem.1 hi
    exact ⟨_, List.getElem_mem hk, by simpa using hp⟩

/-- Non-vacuity: two successive updates; a reference of the first keeps its path although the second adds outputs. -/
def demoFull : FullCatalogue := ⟨demoCat.datasets, [], "a"⟩
def demoRequest : Request :=
  ⟨⟨.ok, fun _ => ["v"], "b"⟩, ⟨[⟨"more", "/more", []⟩], [⟨some "op", none, some "f", demoOp⟩]⟩, true, false, none, some "/new"⟩
example : ((request (some demoFull) demoRequest).map (fun f => (f.datasets.map (·.name), f.operations.map (·.count), f.identifier))) =
    some (["in", "out", "fix", "more", "new"], [2], "b") := by decide +kernel
/-- Running the same request again fails, since its output subset is found in the first data set with this name, and the
file is left alone. -/
example : request (request (some demoFull) demoRequest) demoRequest = request (some demoFull) demoRequest := by
  decide +kernel

end Verif.Eumopps.Build
