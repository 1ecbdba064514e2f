import Verif.Eustace.MeshFile.Model
import Verif.Eustace.Mesh.Topology
import Verif.Eustace.Locator.Design

/-! C158: files which hold a mesh. -/

namespace Verif.Eustace.MeshFile

open Verif Verif.Eustace.Mesh Verif.Eustace.Locator V3

noncomputable section

/-! ### Coordinates -/

/-- A point of the sphere is found again from its latitude and longitude. -/
theorem polar_back {p : V3} (h : len p = 1) : polarToCartesian (cartesianToPolar p).1 (cartesianToPolar p).2 = p := by
  have hpi := Real.pi_ne_zero
  have hs : p.x * p.x + p.y * p.y + p.z * p.z = 1 := by
    have := congrArg (fun t => t ^ 2) h
    simp only [len, one_pow] at this
    rw [Real.sq_sqrt (by unfold dot; nlinarith [mul_self_nonneg p.x, mul_self_nonneg p.y, mul_self_nonneg p.z])] at this
    exact this
  have hz1 : -1 ≤ p.z := by nlinarith [mul_self_nonneg p.x, mul_self_nonneg p.y]
  have hz2 : p.z ≤ 1 := by nlinarith [mul_self_nonneg p.x, mul_self_nonneg p.y]
  have d1 : ∀ t : ℝ, t * (180 / Real.pi) * (Real.pi / 180) = t := by
    intro t
    field_simp
  unfold polarToCartesian cartesianToPolar
  simp only [h, div_one, d1]
  have hn : ‖(⟨p.x, p.y⟩ : ℂ)‖ = Real.cos (Real.arcsin p.z) := by
    rw [Real.cos_arcsin, Complex.norm_def, Complex.normSq_mk]
    congr 1
    nlinarith
  ext
  · simp only
    rw [← hn, mul_comm]
    exact Complex.norm_mul_cos_arg ⟨p.x, p.y⟩
  · simp only
    rw [← hn, mul_comm]
    exact Complex.norm_mul_sin_arg ⟨p.x, p.y⟩
  · exact Real.sin_arcsin hz1 hz2

theorem index_ofNat {n : Nat} (h : n < 2 ^ 31) : index (BitVec.ofNat 32 n) = n := by
  unfold index
  rw [BitVec.signExtend_eq_setWidth_of_msb_false]
  · rw [BitVec.toNat_setWidth, BitVec.toNat_ofNat]
    omega
  · rw [BitVec.msb_eq_decide]
    simp only [BitVec.toNat_ofNat, decide_eq_false_iff_not, not_le]
    omega

theorem toInt_ofNat {n : Nat} (h : n < 2 ^ 31) : (BitVec.ofNat 32 n).toInt = (n : Int) := by
  rw [BitVec.toInt_eq_toNat_cond, BitVec.toNat_ofNat]
  have : n % 2 ^ 32 = n := by omega
  rw [this, if_pos (by omega)]

theorem zipWith_map {α β γ δ : Type} (f : β → γ → δ) (g : α → β) (h : α → γ) (l : List α) :
    List.zipWith f (l.map g) (l.map h) = l.map fun a => f (g a) (h a) := by
  induction l with
  | nil => rfl
  | cons a l ih => simp [ih]

/-- Points on the sphere, and indices which fit. -/
structure Storable (m : MeshObject) : Prop where
  unit : ∀ p ∈ m.points, len p = 1
  triangles : ∀ t ∈ m.triangles, t.p0 < 2 ^ 31 ∧ t.p1 < 2 ^ 31 ∧ t.p2 < 2 ^ 31
  edges : ∀ e ∈ m.edges, e.a < 2 ^ 31 ∧ e.b < 2 ^ 31 ∧ e.k0 < 3 ∧ e.k1 < 3

/-- **C158.**  A mesh with points on the sphere and indices below `2^31`, written and read in Python, has the same points,
triangles and edges. -/
theorem c158_python {m : MeshObject} (h : Storable m) {level : Nat} (hl : m.level = some level) :
    ∃ c, toCubes m = .ok c ∧ (fromCubes c).points = m.points ∧ (fromCubes c).triangles = m.triangles ∧
      (fromCubes c).edges = m.edges := by
  unfold toCubes
  rw [hl]
  refine ⟨_, rfl, ?_, ?_, ?_⟩
  · simp only [fromCubes, zipWith_map]
    exact (List.map_congr_left fun p hp => polar_back (h.unit p hp)).trans (List.map_id' _)
  · simp only [fromCubes, zipWith_map]
    refine (List.map_congr_left fun t ht => ?_).trans (List.map_id' _)
    obtain ⟨h0, h1, h2⟩ := h.triangles t ht
    rw [index_ofNat h0, index_ofNat h1, index_ofNat h2]
  · simp only [fromCubes, zipWith_map]
    refine (List.map_congr_left fun e he => ?_).trans (List.map_id' _)
    obtain ⟨h0, h1, h2, h3⟩ := h.edges e he
    rw [index_ofNat h0, index_ofNat h1, BitVec.toNat_ofNat, BitVec.toNat_ofNat, Nat.mod_eq_of_lt (by omega),
      Nat.mod_eq_of_lt (by omega)]

/-! ### The meshes of the analysis -/

theorem mesh_unit (srt : Argsort) {pts : List V3} (hg : GoodPoints pts) {n : Nat} (hn : n ≤ 28) :
    ∀ p ∈ (build srt midOnSphere pts n).points, len p = 1 := by
  intro p hp
  obtain ⟨v, hv, rfl⟩ := List.mem_iff_getElem.1 hp
  have hd := c75_degree srt midOnSphere pts hg.num n hn v hv
  have hpos : 0 < degree (build srt midOnSphere pts n).triangles v := by
    rw [hd]; split <;> omega
  unfold degree at hpos
  obtain ⟨t, ht⟩ := List.exists_mem_of_length_pos hpos
  obtain ⟨ht, hc⟩ := List.mem_filter.1 ht
  obtain ⟨j, hj⟩ := List.mem_iff_getElem?.1 ht
  have hpr := mesh_proper srt hg n hn j t hj
  rw [← List.getD_eq_getElem _ default hv]
  rcases of_decide_eq_true hc with h | h | h
  · rw [h]; exact hpr.u0
  · rw [h]; exact hpr.u1
  · rw [h]; exact hpr.u2

theorem edge_numbers {m : Mesh V3} {n : Nat} (hg : Good n m) : ∀ e ∈ m.edges, e.k0 < 3 ∧ e.k1 < 3 := by
  intro e he
  have key : ∀ h ∈ e.halves, h.k < 3 := by
    intro h hh
    have := hg.halves.mem_iff.1 (List.mem_flatMap.2 ⟨e, he, hh⟩)
    obtain ⟨t, -, ht⟩ := List.mem_flatMap.1 this
    simp only [Tri.halves, List.mem_cons, List.not_mem_nil, or_false] at ht
    rcases ht with rfl | rfl | rfl <;> simp
  constructor
  · exact key _ (by simp [Edge.halves]; left; rfl)
  · exact key _ (by simp [Edge.halves]; right; rfl)

theorem mesh_storable (srt : Argsort) {pts : List V3} (hp : GoodPoints pts) {n : Nat} (hn : n ≤ 13) :
    Storable (ofMesh (build srt midOnSphere pts n)) := by
  have hn' : n ≤ 28 := by omega
  have hg := good_build srt midOnSphere pts hp.num n hn'
  have hsize : (build srt midOnSphere pts n).points.length < 2 ^ 31 := by
    rw [hg.numPoints]
    have : 4 ^ n ≤ 4 ^ 13 := Nat.pow_le_pow_right (by norm_num) hn
    norm_num at this ⊢
    omega
  constructor
  · exact mesh_unit srt hp hn'
  · intro t ht
    obtain ⟨h0, h1, h2⟩ := c29_points srt midOnSphere pts hp.num n hn' t ht
    exact ⟨h0.trans hsize, h1.trans hsize, h2.trans hsize⟩
  · intro e he
    obtain ⟨h0, h1, -⟩ := hg.ends e he
    obtain ⟨h2, h3⟩ := edge_numbers hg e he
    exact ⟨h0.trans hsize, h1.trans hsize, h2, h3⟩

theorem boolOption_eq (text : Option String) : boolOption text = false ↔ text = some "" := by
  unfold boolOption
  cases text <;> simp

theorem boolOption_true {text : Option String} (h : text ≠ some "") : boolOption text = true := by
  cases hb : boolOption text with
  | true => rfl
  | false => exact absurd ((boolOption_eq text).1 hb) h

/-- **C158.**  The mesh of thirteen or fewer levels of subdivision which is written by the program is the one which is read. -/
theorem c158_mesh (srt : Argsort) {n : Nat} (hn : n ≤ 13) (text : Option String) :
    ∃ (m : Mesh V3) (c : Cubes), (text = some "" → m = sphereMesh srt n) ∧ (text ≠ some "" → m = rotatedMesh srt n) ∧ written srt n text = .ok c ∧
      (fromCubes c).points = m.points ∧ (fromCubes c).triangles = m.triangles ∧ (fromCubes c).edges = m.edges ∧
      c.level.toNat = n := by
  have hn' : n ≤ 28 := by omega
  have go : ∀ (pts : List V3), GoodPoints pts → ∃ c, toCubes (ofMesh (build srt midOnSphere pts n)) = .ok c ∧
      (fromCubes c).points = (build srt midOnSphere pts n).points ∧
      (fromCubes c).triangles = (build srt midOnSphere pts n).triangles ∧
      (fromCubes c).edges = (build srt midOnSphere pts n).edges ∧ c.level.toNat = n := by
    intro pts hp
    obtain ⟨c, hc, h1, h2, h3⟩ := c158_python (mesh_storable srt hp hn) (level := (build srt midOnSphere pts n).level) rfl
    refine ⟨c, hc, h1, h2, h3, ?_⟩
    unfold toCubes ofMesh at hc
    simp only [Except.ok.injEq] at hc
    rw [← hc]
    simp only [BitVec.toNat_ofNat]
    rw [(good_build srt midOnSphere pts hp.num n hn').level]
    omega
  unfold written
  by_cases ht : text = some ""
  · rw [(boolOption_eq text).2 ht]
    obtain ⟨c, hc⟩ := go _ good_plain
    exact ⟨sphereMesh srt n, c, fun _ => rfl, fun h => absurd ht h, hc⟩
  · rw [boolOption_true ht]
    obtain ⟨c, hc⟩ := go _ good_poles
    exact ⟨rotatedMesh srt n, c, fun h => absurd h ht, fun _ => rfl, hc⟩

/-! ### C++ -/

/-- The coordinates of points, one after another. -/
def flatPoints (points : List V3) : List ℝ := (points.map fun p => [p.x, p.y, p.z]).flatten

/-- The corners of triangles, one after another. -/
def flatTriangles (triangles : List Tri) : List Int := (triangles.map fun t => [(t.p0 : Int), (t.p1 : Int), (t.p2 : Int)]).flatten

theorem cppPoint_eq (latitude longitude : ℝ) : cppPoint latitude longitude =
    [(polarToCartesian latitude longitude).x, (polarToCartesian latitude longitude).y, (polarToCartesian latitude longitude).z] := by
  unfold cppPoint polarToCartesian
  simp only [mul_div_assoc]

theorem overlay_full {α : Type} (a : α) (l : List α) : overlay (List.replicate l.length a) l = .ok l := by
  unfold overlay
  rw [if_pos (by simp)]
  simp

/-- **C158.**  The reader in C++ gives the points and corners of the mesh which was written in Python. -/
theorem c158_cpp (words : ℝ → List Int) {m : MeshObject} (h : Storable m) {c : Cubes} (hc : toCubes m = .ok c) :
    cppRead words (fileOf c) = .ok (flatPoints m.points, flatTriangles m.triangles) := by
  unfold toCubes at hc
  cases hl : m.level with
  | none => rw [hl] at hc; cases hc
  | some level =>
    rw [hl] at hc
    simp only [Except.ok.injEq] at hc
    have ex : variableOf (fileOf c) "Mesh2_node_x" = some ⟨"Mesh2_node_x", [c.nodeX.length], .doubles c.nodeX⟩ := rfl
    have ey : variableOf (fileOf c) "Mesh2_node_y" = some ⟨"Mesh2_node_y", [c.nodeY.length], .doubles c.nodeY⟩ := rfl
    have ef : variableOf (fileOf c) "Mesh2_face_nodes" = some ⟨"Mesh2_face_nodes", [c.faceNodes.length, 3],
      .ints (c.faceNodes.flatMap fun f => [f.1.toInt, f.2.1.toInt, f.2.2.toInt])⟩ := rfl
    have hxy : c.nodeX.length = c.nodeY.length := by rw [← hc]; simp
    have hf : 3 * c.faceNodes.length = (c.faceNodes.flatMap fun f => [f.1.toInt, f.2.1.toInt, f.2.2.toInt]).length := by
      rw [List.length_flatMap]
      simp [mul_comm]
    have eints : (c.faceNodes.flatMap fun f => [f.1.toInt, f.2.1.toInt, f.2.2.toInt]) = flatTriangles m.triangles := by
      rw [← hc, List.flatMap_def, flatTriangles, List.map_map]
      congr 1
      refine List.map_congr_left fun t ht => ?_
      obtain ⟨h0, h1, h2⟩ := h.triangles t ht
      simp only [Function.comp, toInt_ofNat h0, toInt_ofNat h1, toInt_ofNat h2]
    unfold cppRead dimensionsOf readDoubles readInts
    rw [ex, ey, ef]
    simp only
    rw [overlay_full]
    simp only
    rw [hxy, overlay_full]
    simp only
    rw [hf, overlay_full]
    simp only
    rw [eints]
    congr 2
    rw [← hc]
    simp only [zipWith_map]
    unfold flatPoints
    congr 1
    refine List.map_congr_left fun p hp => ?_
    rw [cppPoint_eq, polar_back (h.unit p hp)]

/-- Every mesh of thirteen or fewer levels is read by C++ as it was written. -/
theorem c158_cpp_mesh (words : ℝ → List Int) (srt : Argsort) {n : Nat} (hn : n ≤ 13) (text : Option String) :
    ∃ (m : Mesh V3) (c : Cubes), (text = some "" → m = sphereMesh srt n) ∧ (text ≠ some "" → m = rotatedMesh srt n) ∧ written srt n text = .ok c ∧
      cppRead words (fileOf c) = .ok (flatPoints m.points, flatTriangles m.triangles) := by
  unfold written
  by_cases ht : text = some ""
  · rw [(boolOption_eq text).2 ht]
    exact ⟨sphereMesh srt n, _, fun _ => rfl, fun h => absurd ht h, rfl, c158_cpp words (mesh_storable srt good_plain hn) rfl⟩
  · rw [boolOption_true ht]
    exact ⟨rotatedMesh srt n, _, fun h => absurd h ht, fun _ => rfl, rfl,
      c158_cpp words (mesh_storable srt good_poles hn) rfl⟩

/-! ### Where the claim fails -/

/-- **C158, violated.**  A mesh which was read cannot be written. -/
theorem c158_again_violated (c : Cubes) : toCubes (fromCubes c) = .error .attributeError := rfl

/-- **C158, violated.**  At fourteen levels an index of a point is kept as a negative number, which is read as one of more than
`2^63`. -/
theorem c158_index_violated {n : Nat} (h : 2 ^ 31 ≤ n) (h2 : n < 2 ^ 32) :
    (BitVec.ofNat 32 n).toInt < 0 ∧ 2 ^ 63 ≤ index (BitVec.ofNat 32 n) := by
  have hn : n % 2 ^ 32 = n := by omega
  have hmsb : (BitVec.ofNat 32 n).msb = true := by
    rw [BitVec.msb_eq_decide, BitVec.toNat_ofNat, hn]
    simpa using h
  constructor
  · rw [BitVec.toInt_eq_toNat_cond, BitVec.toNat_ofNat, hn, if_neg (by omega)]
    omega
  · unfold index
    have : ((BitVec.ofNat 32 n).signExtend 64).msb = true := by
      rw [BitVec.msb_signExtend]
      simpa using hmsb
    rw [BitVec.msb_eq_decide] at this
    simpa using this

/-- **C158, violated.**  A mesh of fourteen levels is not read with the triangles with which it was written. -/
theorem c158_fourteen_violated (srt : Argsort) : ∃ c, toCubes (ofMesh (sphereMesh srt 14)) = .ok c ∧
    (fromCubes c).triangles ≠ (sphereMesh srt 14).triangles := by
  refine ⟨_, rfl, ?_⟩
  intro h
  have hlen : (build srt midOnSphere basePoints 14).points.length = 10 * 4 ^ 14 + 2 :=
    (good_build srt midOnSphere basePoints rfl 14 (by norm_num)).numPoints
  have hd := c75_degree srt midOnSphere basePoints rfl 14 (by norm_num) (2 ^ 31) (by rw [hlen]; norm_num)
  rw [if_neg (by norm_num)] at hd
  unfold degree at hd
  obtain ⟨t, ht⟩ := List.exists_mem_of_length_pos (by rw [hd]; norm_num)
  obtain ⟨ht, hc⟩ := List.mem_filter.1 ht
  simp only [fromCubes, zipWith_map] at h
  have hall := List.map_inj_left.1 (h.trans (List.map_id _).symm) t ht
  simp only [id] at hall
  have hbig := (c158_index_violated (n := 2 ^ 31) (le_refl _) (by norm_num)).2
  rcases of_decide_eq_true hc with e | e | e
  · have := congrArg Tri.p0 hall
    simp only [← e] at this
    omega
  · have := congrArg Tri.p1 hall
    simp only [← e] at this
    omega
  · have := congrArg Tri.p2 hall
    simp only [← e] at this
    omega

/-- **C158, violated.**  The reader in C++ does not refuse a file without triangles: the memory of an empty vector is read. -/
theorem c158_missing_violated (words : ℝ → List Int) (c : Cubes) :
    cppRead words ((fileOf c).filter fun v => v.name != "Mesh2_face_nodes") = .undefined := by
  have e : (fileOf c).filter (fun v => v.name != "Mesh2_face_nodes") =
      [⟨"Mesh2", [], .ints [-1]⟩, ⟨"Mesh2_node_x", [c.nodeX.length], .doubles c.nodeX⟩,
        ⟨"Mesh2_node_y", [c.nodeY.length], .doubles c.nodeY⟩,
        ⟨"Mesh2_edge_nodes", [c.edgeNodes.length, 2], .ints (c.edgeNodes.flatMap fun f => [f.1.toInt, f.2.toInt])⟩] := rfl
  rw [e]
  rfl

/-- **C158, violated.**  If there are fewer latitudes than longitudes in a file, the reader in C++ puts the other points on the
equator, and says nothing. -/
theorem c158_short_violated (words : ℝ → List Int) (c : Cubes) (hx : c.nodeX.length = c.nodeY.length + 1) :
    ∃ points triangles, cppRead words (fileOf c) = .ok (points, triangles) ∧ points.length = 3 * c.nodeX.length ∧
      points.getLast? = some 0 := by
  have ex : variableOf (fileOf c) "Mesh2_node_x" = some ⟨"Mesh2_node_x", [c.nodeX.length], .doubles c.nodeX⟩ := rfl
  have ey : variableOf (fileOf c) "Mesh2_node_y" = some ⟨"Mesh2_node_y", [c.nodeY.length], .doubles c.nodeY⟩ := rfl
  have ef : variableOf (fileOf c) "Mesh2_face_nodes" = some ⟨"Mesh2_face_nodes", [c.faceNodes.length, 3],
    .ints (c.faceNodes.flatMap fun f => [f.1.toInt, f.2.1.toInt, f.2.2.toInt])⟩ := rfl
  have hf : 3 * c.faceNodes.length = (c.faceNodes.flatMap fun f => [f.1.toInt, f.2.1.toInt, f.2.2.toInt]).length := by
    rw [List.length_flatMap]
    simp [mul_comm]
  have ho : overlay (List.replicate c.nodeX.length (0 : ℝ)) c.nodeY = .ok (c.nodeY ++ [0]) := by
    unfold overlay
    rw [if_pos (by simp; omega)]
    simp [hx]
  refine ⟨(List.zipWith cppPoint (c.nodeY ++ [0]) c.nodeX).flatten,
    c.faceNodes.flatMap fun f => [f.1.toInt, f.2.1.toInt, f.2.2.toInt], ?_, ?_, ?_⟩
  rotate_left
  · have : ∀ l ∈ List.zipWith cppPoint (c.nodeY ++ [0]) c.nodeX, l.length = 3 := by
      intro l hl
      obtain ⟨i, hi, rfl⟩ := List.mem_iff_getElem.1 hl
      simp [cppPoint]
    rw [List.length_flatten, List.map_congr_left this, List.map_const', List.sum_replicate, List.length_zipWith]
    simp [hx, mul_comm]
  · obtain ⟨xs, x, hxs⟩ : ∃ xs x, c.nodeX = xs ++ [x] := by
      rcases List.eq_nil_or_concat c.nodeX with h | ⟨xs, x, h⟩
      · rw [h] at hx; simp at hx
      · exact ⟨xs, x, by simpa using h⟩
    have hlen : c.nodeY.length = xs.length := by rw [hxs] at hx; simp at hx; omega
    rw [hxs, List.zipWith_append hlen]
    simp [cppPoint]
  · unfold cppRead dimensionsOf readDoubles readInts
    rw [ex, ey, ef]
    simp only
    rw [overlay_full]
    simp only
    rw [ho]
    simp only
    rw [hf, overlay_full]

/-- **C158, violated.**  From a file which has longitudes as its first variable but no latitudes, the reader in C++ takes longitudes for
latitudes, and says nothing. -/
theorem c158_latitudes_violated (words : ℝ → List Int) (c : Cubes) :
    ∃ triangles, cppRead words [⟨"Mesh2_node_x", [c.nodeX.length], .doubles c.nodeX⟩,
      ⟨"Mesh2_face_nodes", [c.faceNodes.length, 3], .ints (c.faceNodes.flatMap fun f => [f.1.toInt, f.2.1.toInt, f.2.2.toInt])⟩] =
      .ok (flatPoints (c.nodeX.map fun x => polarToCartesian x x), triangles) := by
  have hf : 3 * c.faceNodes.length = (c.faceNodes.flatMap fun f => [f.1.toInt, f.2.1.toInt, f.2.2.toInt]).length := by
    rw [List.length_flatMap]
    simp [mul_comm]
  refine ⟨c.faceNodes.flatMap fun f => [f.1.toInt, f.2.1.toInt, f.2.2.toInt], ?_⟩
  generalize hfile : ([⟨"Mesh2_node_x", [c.nodeX.length], .doubles c.nodeX⟩,
      ⟨"Mesh2_face_nodes", [c.faceNodes.length, 3], .ints (c.faceNodes.flatMap fun f => [f.1.toInt, f.2.1.toInt, f.2.2.toInt])⟩] :
      List Variable) = file
  have ex : variableOf file "Mesh2_node_x" = some ⟨"Mesh2_node_x", [c.nodeX.length], .doubles c.nodeX⟩ := by rw [← hfile]; rfl
  have ey : variableOf file "Mesh2_node_y" = some ⟨"Mesh2_node_x", [c.nodeX.length], .doubles c.nodeX⟩ := by rw [← hfile]; rfl
  have ef : variableOf file "Mesh2_face_nodes" = some ⟨"Mesh2_face_nodes", [c.faceNodes.length, 3],
    .ints (c.faceNodes.flatMap fun f => [f.1.toInt, f.2.1.toInt, f.2.2.toInt])⟩ := by rw [← hfile]; rfl
  unfold cppRead dimensionsOf readDoubles readInts
  rw [ex, ey, ef]
  simp only
  rw [overlay_full]
  simp only
  rw [hf, overlay_full]
  simp only
  congr 2
  unfold flatPoints
  rw [List.zipWith_self, List.map_map]
  congr 1
  exact List.map_congr_left fun x _ => cppPoint_eq x x

/-- The first point of a mesh is the first of the icosahedron. -/
theorem first_point (srt : Argsort) (p : V3) (pts : List V3) (n : Nat) :
    (build srt midOnSphere (p :: pts) n).points.head? = some p := by
  induction n with
  | zero => rfl
  | succ n ih =>
    show (subdivide srt midOnSphere (build srt midOnSphere (p :: pts) n)).points.head? = some p
    unfold subdivide
    simp only
    rw [List.head?_append, ih]
    rfl

/-- **C158, violated.**  Whatever is given for `--face_centre_at_poles`, be it `False` or `0`, the mesh is rotated: it is never
that of the analysis, which is not. -/
theorem c158_option_violated (srt : Argsort) (n : Nat) (text : String) (ht : text ≠ "") :
    written srt n (some text) = toCubes (ofMesh (rotatedMesh srt n)) ∧
      (rotatedMesh srt n).points ≠ (sphereMesh srt n).points := by
  constructor
  · unfold written boolOption
    simp [ht]
  · intro h
    have h1 : (rotatedMesh srt n).points.head? = some (rotateY interVertexAngle ⟨goldenA, goldenB, 0⟩) :=
      first_point srt _ _ n
    have h2 : (sphereMesh srt n).points.head? = some ⟨goldenA, goldenB, 0⟩ := first_point srt _ _ n
    rw [h, h2] at h1
    have hz := congrArg V3.z (Option.some.inj h1)
    simp only [rotateY] at hz
    have hs : 0 < Real.sin interVertexAngle := by
      rw [angle_sin_cos.1]
      positivity
    nlinarith [mul_pos hs goldenA_pos]

/-! ### An example -/

/-- One triangle, on the three axes. -/
def octant : MeshObject :=
  ⟨[⟨1, 0, 0⟩, ⟨0, 1, 0⟩, ⟨0, 0, 1⟩], [⟨5#64, 0, 1, 2⟩], [⟨0, 1, 5#64, 0, 5#64, 2⟩], some 0⟩

/-- The hypotheses of the claims can be met: by one triangle, and by the meshes of the analysis. -/
example : Storable octant := by
  constructor
  · intro p hp
    simp only [octant, List.mem_cons, List.not_mem_nil, or_false] at hp
    rcases hp with rfl | rfl | rfl <;> simp [len, dot]
  · intro t ht
    simp only [octant, List.mem_cons, List.not_mem_nil, or_false] at ht
    subst ht
    simp
  · intro e he
    simp only [octant, List.mem_cons, List.not_mem_nil, or_false] at he
    subst he
    simp

example (srt : Argsort) : Storable (ofMesh (sphereMesh srt 7)) := mesh_storable srt good_plain (by norm_num)

example : ∃ c : Cubes, c.nodeX.length = c.nodeY.length + 1 := ⟨⟨0, [0], [], [], [], [], []⟩, rfl⟩

end

end Verif.Eustace.MeshFile
