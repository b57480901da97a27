import Verif.Props.Mesh
import Verif.Props.Rounded
import Verif.Lemmas.RoundedMesh
import Verif.Spec.RoundedMesh

/-!
# Functions of meshes in floating point arithmetic
-/

namespace Geo

open Spec Matrix Rounded

/-- Without rounding the functions are those of `Model/Mesh`. -/
theorem C130_exact (m : Mesh) (i : ℕ) :
    Rounded.filterOverlappingVertices id m = m.filterOverlappingVertices ∧ Rounded.getSquaredMaxRadius id m = m.getSquaredMaxRadius ∧
      Rounded.getMaxRadius id m = m.getMaxRadius ∧ Rounded.getTriangleNormal id m i = m.getTriangleNormal i := by
  refine ⟨?_, rfl, rfl, rfl⟩
  unfold Rounded.filterOverlappingVertices Mesh.filterOverlappingVertices
  rw [filterLoop_eq fun _ _ => rfl]

/-- Merging succeeds, keeps old points only and indices valid, leaves no two points in a cell, is idempotent, and moves every
corner of a triangle within a cell. -/
theorem C130_merge {u : ℝ} {rnd : ℝ → ℝ} (h : RelErr u rnd) (m : Mesh) (hv : Valid m.points m.tris)
    (hr : ∀ p ∈ m.points, RoundedIntRange u p) (hl : m.points.length ≤ 2 ^ 32) :
    ∃ m' m'', Rounded.filterOverlappingVertices rnd m = .ok m' ∧ Rounded.filterOverlappingVertices rnd m' = .ok m'' ∧
      m''.points = m'.points ∧ m''.tris = m'.tris ∧ Valid m'.points m'.tris ∧ m'.points.Sublist m.points ∧
      m'.points.Pairwise (fun p q => ¬ SameRoundedCell rnd p q) ∧
      ∃ l l', soup m.points m.tris = some l ∧ soup m'.points m'.tris = some l' ∧
        List.Forall₂ (fun c c' => (SameRoundedCell rnd c.1 c'.1 ∧ SameRoundedCell rnd c.2.1 c'.2.1 ∧ SameRoundedCell rnd c.2.2 c'.2.2) ∧
          CellMove3 u c.1 c'.1 ∧ CellMove3 u c.2.1 c'.2.1 ∧ CellMove3 u c.2.2 c'.2.2) l l' := by
  obtain ⟨m1, m2, f1, f2, e1, e2, v1, -, pw, l, l', s1, s2, mv⟩ :=
    C13_merge { m with points := m.points.map (cellPoint rnd) } (valid_map hv) (by
      intro p hp
      obtain ⟨q, hq, rfl⟩ := List.mem_map.1 hp
      exact range_cellPoint h (hr q hq)) (by simpa using hl)
  rw [filter_map] at f1
  obtain ⟨m', g1, rfl⟩ := map_ok f1
  rw [filter_map] at f2
  obtain ⟨m'', g2, rfl⟩ := map_ok f2
  have sub := filter_sub g1
  have sub2 := filter_sub g2
  have ep : m''.points = m'.points := by
    refine sub2.eq_of_length ?_
    have := congrArg List.length e1
    simpa using this
  have v' : Valid m'.points m'.tris := of_valid_map v1
  obtain ⟨k, hk⟩ := soup_of_valid hv
  obtain ⟨k', hk'⟩ := soup_of_valid v'
  refine ⟨m', m'', g1, g2, ep, e2, v', sub, ?_, k, k', hk, hk', ?_⟩
  · rw [List.pairwise_map] at pw
    exact pw.imp fun a b => a (cell_iff.2 b)
  · rw [soup_map _ hk, Option.some_inj] at s1
    rw [soup_map _ hk', Option.some_inj] at s2
    rw [← s1, ← s2, List.forall₂_map_left_iff, List.forall₂_map_right_iff] at mv
    refine mv.imp ?_
    rintro c c' ⟨a, b, d⟩
    exact ⟨⟨cell_iff.1 a, cell_iff.1 b, cell_iff.1 d⟩, move h a, move h b, move h d⟩

/-- If every coordinate is clear of the borders of the cells, rounding changes nothing. -/
theorem C130_cells {u : ℝ} {rnd : ℝ → ℝ} (h : RelErr u rnd) (hu : u ≤ 1) (m : Mesh)
    (hc : ∀ p ∈ m.points, ClearOfBorders u p.x ∧ ClearOfBorders u p.y ∧ ClearOfBorders u p.z) :
    Rounded.filterOverlappingVertices rnd m = m.filterOverlappingVertices := by
  unfold Rounded.filterOverlappingVertices Mesh.filterOverlappingVertices
  rw [filterLoop_eq]
  intro v hv
  obtain ⟨a, b, c⟩ := hc v hv
  unfold Rounded.cellKey Mesh.cellKey castInt
  rw [trunc_eq hu (h _) a, trunc_eq hu (h _) b, trunc_eq hu (h _) c]

/-- On a border double precision merges points that exact arithmetic keeps apart: 0.009, as a `double`, is a little below 9 mm,
but the product with 1000 is rounded to 9. -/
theorem C130_border :
    let x : ℝ := 5188146770730811 / 2 ^ 59
    let m : Mesh := ⟨[⟨x, 0, 0⟩, ⟨19 / 2048, 0, 0⟩], [], [], 0, 0⟩
    toDouble 0.009 = x ∧ toDouble (19 / 2048) = 19 / 2048 ∧
      (∃ m', Rounded.filterOverlappingVertices toDouble m = .ok m' ∧ m'.points.length = 1) ∧
      ∃ m', m.filterOverlappingVertices = .ok m' ∧ m'.points.length = 2 := by
  intro x m
  have z := toDouble_zero
  have t0 : trunc 0 = 0 := by simp [trunc]
  have a : toDouble (1000 * x) = 9 := by
    have := toDouble_eq (x := 1000 * x) (-49) (m := 9 * 2 ^ 49) (by norm_num [x]) (by norm_num [x]) (by norm_num [x, abs_lt])
    rw [this]; norm_num
  have b : toDouble (1000 * (19 / 2048)) = 2375 / 256 := by
    have := toDouble_eq (x := 1000 * (19 / 2048)) (-49) (m := 2375 * 2 ^ 41) (by norm_num) (by norm_num) (by norm_num)
    rw [this]; norm_num
  have c9 : castInt 9 = .ok 9 := by
    have : trunc 9 = 9 := trunc_of_pos (by norm_num) (by norm_num) (by norm_num)
    simp [castInt, this]
  have c9' : castInt (2375 / 256) = .ok 9 := by
    have : trunc (2375 / 256) = 9 := trunc_of_pos (by norm_num) (by norm_num) (by norm_num)
    simp [castInt, this]
  have c8 : castInt (1000 * x) = .ok 8 := by
    have : trunc (1000 * x) = 8 := trunc_of_pos (by norm_num) (by norm_num [x]) (by norm_num [x])
    simp [castInt, this]
  have c9'' : castInt (1000 * (19 / 2048)) = .ok 9 := by
    have : trunc (1000 * (19 / 2048)) = 9 := trunc_of_pos (by norm_num) (by norm_num) (by norm_num)
    simp [castInt, this]
  have c0 : castInt 0 = .ok 0 := by simp [castInt, t0]
  refine ⟨?_, ?_, ⟨⟨[⟨x, 0, 0⟩], [], [], 0, 0⟩, ?_, rfl⟩, ⟨⟨[⟨x, 0, 0⟩, ⟨19 / 2048, 0, 0⟩], [], [], 0, 0⟩, ?_, rfl⟩⟩
  · have := toDouble_eq (x := 0.009) (-59) (m := 5188146770730811) (by norm_num) (by norm_num) (by norm_num [abs_lt])
    rw [this]; norm_num [x]
  · have := toDouble_eq (x := 19 / 2048) (-59) (m := 19 * 2 ^ 48) (by norm_num) (by norm_num) (by norm_num)
    rw [this]; norm_num
  · simp [m, Rounded.filterOverlappingVertices, Rounded.filterLoop, Rounded.cellKey, a, b, z, c0, c9, c9', bind, Except.bind, pure,
      Except.pure, Mesh.invalidateCache, List.lookup]
  · have k : ((9, 0, 0) == ((8, 0, 0) : ℤ × ℤ × ℤ)) = false := by decide
    simp [m, k, Mesh.filterOverlappingVertices, Mesh.filterLoop, Mesh.cellKey, c0, c8, c9'', bind, Except.bind, pure,
      Except.pure, Mesh.invalidateCache, List.lookup]

/-- The computed radii of a mesh without cached values, and what a second query answers. -/
theorem C130_radius {u : ℝ} {rnd : ℝ → ℝ} (h : RelErr u rnd) (hu : u ≤ 1 / 1000) (m : Mesh) (h1 : m.maxR = 0) (h2 : m.maxR2 = 0) {r : ℝ}
    (hr : IsRadius m.points r) :
    |(Rounded.getSquaredMaxRadius rnd m).2 - r ^ 2| ≤ 3.01 * u * r ^ 2 ∧ |(Rounded.getMaxRadius rnd m).2 - r| ≤ 2.52 * u * r ∧
      (Rounded.getSquaredMaxRadius rnd (Rounded.getSquaredMaxRadius rnd m).1).2 = (Rounded.getSquaredMaxRadius rnd m).2 ∧
      (Rounded.getMaxRadius rnd (Rounded.getMaxRadius rnd m).1).2 = (Rounded.getMaxRadius rnd m).2 ∧
      (Rounded.getMaxRadius rnd (Rounded.getSquaredMaxRadius rnd m).1).2 = (Rounded.getMaxRadius rnd m).2 := by
  have r0 := radius_nonneg hr
  have R : Rnd u r rnd := ⟨r0, relErr_nonneg h, hu, h⟩
  have s := R.sqMax hr
  have e : (Rounded.getSquaredMaxRadius rnd m).2 = Rounded.sqMaxRadius rnd m.points := by
    simp [Rounded.getSquaredMaxRadius, h2, Rounded.sqMaxRadius]
  have e' : (Rounded.getMaxRadius rnd m).2 = rnd (Real.sqrt (Rounded.getSquaredMaxRadius rnd m).2) := by
    simp [Rounded.getMaxRadius, h1]
  have q : ∀ m : Mesh, (Rounded.getSquaredMaxRadius rnd (Rounded.getSquaredMaxRadius rnd m).1).2 = (Rounded.getSquaredMaxRadius rnd m).2 :=
    sq_again rnd
  refine ⟨by rw [e]; exact s, by rw [e', e]; exact R.sqrt r0 s, q m, again rnd m, ?_⟩
  have : (Rounded.getSquaredMaxRadius rnd m).1.maxR = 0 := by
    unfold Rounded.getSquaredMaxRadius
    split_ifs; exact h1
  rw [e', ← q m]
  simp [Rounded.getMaxRadius, this]

/-- The computed normal of a triangle whose angle at the first corner has a sine of at least `σ`. -/
theorem C130_normal {u : ℝ} {rnd : ℝ → ℝ} (h : RelErr u rnd) (hu : u ≤ 1 / 1000) (m : Mesh) {i : ℕ} {t : TriI} {p1 p2 p3 n : Vec3}
    (ht : m.tris[i]? = some t) (h1 : m.points[t.i1]? = some p1) (h2 : m.points[t.i2]? = some p2) (h3 : m.points[t.i3]? = some p3)
    (hn : UnitAlong ((p3 - p1).cross (p2 - p1)) n) {σ : ℝ} (h0 : 0 < σ)
    (hs : σ * (Spec.dist p3 p1 * Spec.dist p2 p1) ≤ Spec.dist ((p3 - p1).cross (p2 - p1)) ⟨0, 0, 0⟩) (hσ : 8 * u ≤ σ) :
    ∃ n', Rounded.getTriangleNormal rnd m i = .ok n' ∧ Spec.dist n' n ≤ 14 * u / σ + 3.6 * u := by
  refine ⟨normalized rnd (cross rnd (sub rnd p3 p1) (sub rnd p2 p1)), ?_, ?_⟩
  · simp [Rounded.getTriangleNormal, vget, ht, h1, h2, h3, bind, Except.bind, pure, Except.pure]
  · rw [dist_eq_len]
    exact normal_err h hu hn h0 hs hσ

/-- C130 case: double precision, two points of one cell, a triangle with a right angle at its first corner. -/
example : ∃ m : Mesh, RelErr (1 / 2 ^ 53) toDouble ∧ Valid m.points m.tris ∧ (∀ p ∈ m.points, RoundedIntRange (1 / 2 ^ 53) p) ∧
    m.points.length ≤ 2 ^ 32 ∧ m.maxR = 0 ∧ m.maxR2 = 0 ∧ IsRadius m.points 2 ∧
    (∃ p q, m.points[0]? = some p ∧ m.points[3]? = some q ∧ p ≠ q ∧ SameRoundedCell toDouble p q) ∧
    ∃ t p1 p2 p3, m.tris[0]? = some t ∧ m.points[t.i1]? = some p1 ∧ m.points[t.i2]? = some p2 ∧ m.points[t.i3]? = some p3 ∧
      UnitAlong ((p3 - p1).cross (p2 - p1)) ⟨0, 0, -1⟩ ∧
      1 * (Spec.dist p3 p1 * Spec.dist p2 p1) ≤ Spec.dist ((p3 - p1).cross (p2 - p1)) ⟨0, 0, 0⟩ := by
  have z := toDouble_zero
  have c : toDouble (1000 * (1 / 2048)) = 125 / 256 := by
    have := toDouble_eq (x := 1000 * (1 / 2048)) (-54) (m := 125 * 2 ^ 46) (by norm_num) (by norm_num) (by norm_num)
    rw [this]; norm_num
  have t0 : trunc 0 = 0 := trunc_of_small (by norm_num)
  have t : trunc (125 / 256) = 0 := trunc_of_small (by norm_num [abs_lt])
  refine ⟨⟨[⟨0, 0, 0⟩, ⟨1, 0, 0⟩, ⟨0, 2, 0⟩, ⟨1 / 2048, 0, 0⟩], [⟨0, 1, 2⟩], [], 0, 0⟩, C93_roundings.1, by simp [Valid], ?_, by norm_num, rfl, rfl,
    ?_, ⟨⟨0, 0, 0⟩, ⟨1 / 2048, 0, 0⟩, rfl, rfl, ?_, ?_⟩, ⟨0, 1, 2⟩, ⟨0, 0, 0⟩, ⟨1, 0, 0⟩, ⟨0, 2, 0⟩, rfl, rfl, rfl, rfl, ?_, ?_⟩
  · simp only [List.mem_cons, List.not_mem_nil, or_false, forall_eq_or_imp, forall_eq, RoundedIntRange]
    norm_num
  · constructor
    · simp only [List.mem_cons, List.not_mem_nil, or_false, forall_eq_or_imp, forall_eq, Spec.dist, distSq]
      refine ⟨?_, ?_, ?_, ?_⟩ <;> (refine (Real.sqrt_le_left (by norm_num)).2 ?_; norm_num)
    · refine Or.inl ⟨⟨0, 2, 0⟩, by simp, ?_⟩
      rw [Spec.dist, distSq, Real.sqrt_eq_iff_mul_self_eq (by norm_num) (by norm_num)]
      norm_num
  · simp
  · simp only [SameRoundedCell, mul_zero, z, c, t, t0, and_self]
  · refine ⟨by norm_num, 2, by norm_num, ?_, ?_, ?_⟩ <;>
      simp [Vec3.cross, HSub.hSub, Sub.sub]
  · have e : ∀ a b : ℝ, 0 ≤ b → a = b ^ 2 → Real.sqrt a = b := by
      rintro a b hb rfl
      exact Real.sqrt_sq hb
    rw [Spec.dist, Spec.dist, Spec.dist, e (distSq _ _) 2 (by norm_num) (by norm_num [distSq]), e (distSq _ _) 1 (by norm_num) (by norm_num [distSq]),
      e (distSq _ _) 2 (by norm_num) (by simp [distSq, Vec3.cross, HSub.hSub, Sub.sub])]
    norm_num

/-- C130 case: a coordinate of about 9.28 mm is clear of the borders in double precision. -/
example : ClearOfBorders (1 / 2 ^ 53) (19 / 2048) := by
  intro k _
  rw [show (1000 * (19 / 2048) : ℝ) = 2375 / 256 by norm_num, abs_of_pos (show (0 : ℝ) < 2375 / 256 by norm_num)]
  rcases le_or_gt k 9 with h | h
  · have : (k : ℝ) ≤ 9 := by exact_mod_cast h
    rw [abs_of_pos (by linarith)]
    linarith
  · have : (10 : ℝ) ≤ k := by exact_mod_cast h
    rw [abs_of_neg (by linarith)]
    linarith

end Geo
