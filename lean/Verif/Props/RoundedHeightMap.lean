import Verif.Lemmas.RoundedHeightMap
import Verif.Props.HeightMap
import Verif.Props.RoundedBox
import Verif.Props.RoundedMesh

/-!
# Property theorems C135: height maps in floating point arithmetic
-/

namespace Geo

open Spec

/-- C135: without rounding the functions are those of `Model/HeightMap`. -/
theorem C135_exact (grid : List (List ℝ)) (res : ℝ) (h : HeightMap) (o d : Vec3) (t0 t1 d0 : ℝ) :
    RoundedHeightMap.fromGrid id grid res = HeightMap.fromGrid grid res ∧
    RoundedHeightMap.intersectRay id id h (Rounded.rayNew id o d) t0 t1 d0 = h.intersectRay (Ray.new o d) t0 t1 d0 :=
  ⟨RoundedHeightMap.fromGrid_id grid res fun m => (C130_exact m 0).1, RoundedHeightMap.nodeRay_id _ _ _ _ _⟩

/-- C135: casting any ray on the height map is true iff casting it on the box of some positive column, with rounded corners, is, and
then reports the distance to such a column: no column is lost by rounding in the tree. -/
theorem C135_columns {u : ℝ} {rnd toF : ℝ → ℝ} (hr : RelErr u rnd) (hmr : Monotone rnd) (hmF : Monotone toF)
    (grid : List (List ℝ)) (m n : ℕ) (res : ℝ) (hg : Rectangular grid m n) (hm : 0 < m) (hm' : m ≤ 2 ^ 31) (hn : n ≤ 2 ^ 31)
    (hres : 0 ≤ res) (h : HeightMap) (hh : RoundedHeightMap.fromGrid rnd grid res = .ok h) (o d : Vec3) (t0 t1 d0 : ℝ) :
    let r := RoundedHeightMap.intersectRay rnd toF h (Rounded.rayNew rnd o d) t0 t1 d0
    let column := fun c : ℕ × ℕ =>
      Rounded.boxRay rnd toF (Box.new (flat rnd (columnLo res c)) (flat rnd (columnHi res grid c))) (Rounded.rayNew rnd o d) t0 t1 0
    (r.1 = true ↔ ∃ c : ℕ × ℕ, 0 < height grid c.1 c.2 ∧ (column c).1 = true) ∧
    (r.1 = true → ∃ c : ℕ × ℕ, 0 < height grid c.1 c.2 ∧ (column c).1 = true ∧ r.2 = (column c).2) := by
  have hz : rnd 0 = 0 := by
    have := hr 0
    simpa using this
  obtain ⟨k, h1, h2, h3⟩ := RoundedHeightMap.root_of_okR hg hm hm' hn hh
  obtain ⟨hit, D, c1, c2, c3⟩ := RoundedHeightMap.castR hmr hmF hz
    (RoundedHeightMap.nested_round hmr (HeightMap.nested_quad (height grid) hres k 0 0)) o d t0 t1
  have leaf : ∀ l, l ∈ leaves (RoundedHeightMap.roundTree rnd (HeightMap.quad (height grid) res k 0 0)) ↔
      ∃ c : ℕ × ℕ, 0 < height grid c.1 c.2 ∧ l = Box.new (flat rnd (columnLo res c)) (flat rnd (columnHi res grid c)) := by
    intro l
    rw [RoundedHeightMap.leaves_round, List.mem_map]
    constructor
    · rintro ⟨b, hb, rfl⟩
      obtain ⟨c, hc, rfl⟩ := (HeightMap.leaf_iff hg h1 h2 b).1 hb
      exact ⟨c, hc, rfl⟩
    · rintro ⟨c, hc, rfl⟩
      exact ⟨_, (HeightMap.leaf_iff hg h1 h2 _).2 ⟨c, hc, rfl⟩, rfl⟩
  intro r column
  have er : r = RoundedHeightMap.nodeRay rnd toF (RoundedHeightMap.roundTree rnd (HeightMap.quad (height grid) res k 0 0))
      (Rounded.rayNew rnd o d) t0 t1 d0 := by
    show RoundedHeightMap.nodeRay _ _ h.root _ _ _ _ = _
    rw [h3]
  rw [er]
  constructor
  · rw [(c1 d0).1, c2]
    constructor
    · rintro ⟨l, hl, q⟩
      obtain ⟨c, hc, rfl⟩ := (leaf l).1 hl
      exact ⟨c, hc, q⟩
    · rintro ⟨c, hc, q⟩
      exact ⟨_, (leaf _).2 ⟨c, hc, rfl⟩, q⟩
  · intro hit'
    rw [(c1 d0).1] at hit'
    obtain ⟨l, hl, q1, q2⟩ := c3 hit'
    obtain ⟨c, hc, rfl⟩ := (leaf l).1 hl
    exact ⟨c, hc, q1, by rw [(c1 d0).2 hit']; exact q2⟩

/-- C135, geometrically, for rays nearly parallel to no coordinate plane: a ray that passes through a positive column less a margin is
reported, and a reported hit comes from a positive column enlarged by that margin; the reported distance is off by a small relative
error from where the line enters this column with rounded corners. The margin is a small multiple of the distance, plus the rounding
of the corners. -/
theorem C135_geometric {u v : ℝ} {rnd toF : ℝ → ℝ} (hr : RelErr u rnd) (hmr : Monotone rnd) (hF : RelErr v toF) (hmF : Monotone toF)
    (hu : u ≤ 1 / 1000) (hv : v ≤ 1 / 1000)
    (grid : List (List ℝ)) (m n : ℕ) (res : ℝ) (hg : Rectangular grid m n) (hm : 0 < m) (hm' : m ≤ 2 ^ 31) (hn : n ≤ 2 ^ 31)
    (hres : 0 ≤ res) (h : HeightMap) (hh : RoundedHeightMap.fromGrid rnd grid res = .ok h) (o d e : Vec3) (he : UnitAlong d e)
    (hob : 1e-9 * (1 + 8 * u) ≤ |e.x| ∧ 1e-9 * (1 + 8 * u) ≤ |e.y| ∧ 1e-9 * (1 + 8 * u) ≤ |e.z|) (t0 t1 d0 : ℝ) (ht : t0 < t1) :
    let r := RoundedHeightMap.intersectRay rnd toF h (Rounded.rayNew rnd o d) t0 t1 d0
    let w := 8 * u + 2 * v
    (∀ c : ℕ × ℕ, 0 < height grid c.1 c.2 → ∀ lo hi, lo = columnLo res c → hi = columnHi res grid c → ∀ s k, t0 < s → s < t1 →
      k = w * |s| →
      InBox ⟨lo.x + u * lo.x + k, lo.y + u * lo.y + k, lo.z + k⟩ ⟨hi.x - u * hi.x - k, hi.y - u * hi.y - k, hi.z - k⟩ (along o e s) →
      r.1 = true) ∧
    (r.1 = true → ∃ c : ℕ × ℕ, 0 < height grid c.1 c.2 ∧ ∃ lo hi, lo = columnLo res c ∧ hi = columnHi res grid c ∧
      (∃ s k, t0 < s ∧ s < t1 ∧ k = w * |s| ∧
        InBox ⟨lo.x - u * lo.x - k, lo.y - u * lo.y - k, lo.z - k⟩ ⟨hi.x + u * hi.x + k, hi.y + u * hi.y + k, hi.z + k⟩
          (along o e s)) ∧
      ∀ a, IsLeast {s | InBox (flat rnd lo) (flat rnd hi) (along o e s)} a → |r.2 - a| ≤ w * |a|) := by
  intro r w
  obtain ⟨a1, a2⟩ := C135_columns hr hmr hmF grid m n res hg hm hm' hn hres h hh o d t0 t1 d0
  have hp : ∀ c : ℕ × ℕ, 0 < height grid c.1 c.2 → Proper (flat rnd (columnLo res c)) (flat rnd (columnHi res grid c)) := fun c hc =>
    ⟨hmr (mul_le_mul_of_nonneg_right (by linarith) hres), hmr (mul_le_mul_of_nonneg_right (by linarith) hres), hc.le⟩
  have near : ∀ x : ℝ, 0 ≤ x → x - u * x ≤ rnd x ∧ rnd x ≤ x + u * x := by
    intro x hx
    have := abs_le.1 (hr x)
    rw [abs_of_nonneg hx] at this
    constructor <;> linarith
  have nn : ∀ k : ℕ, 0 ≤ (k : ℝ) * res ∧ 0 ≤ ((k : ℝ) + 1) * res := fun k =>
    ⟨mul_nonneg (Nat.cast_nonneg _) hres, mul_nonneg (by positivity) hres⟩
  constructor
  · rintro c hc lo hi rfl rfl s k h1 h2 hk ⟨b1, b2, b3, b4, b5, b6⟩
    refine a1.2 ⟨c, hc, (C122_ray hr hmr hF hmF hu hv (hp c hc) he hob t0 t1 0 ht).2.1 s k h1 h2 hk ?_⟩
    have n1 := near _ (nn c.1).1
    have n2 := near _ (nn c.1).2
    have n3 := near _ (nn c.2).1
    have n4 := near _ (nn c.2).2
    simp only [InBox, flat, columnLo, columnHi] at b1 b2 b3 b4 b5 b6 ⊢
    exact ⟨by linarith, by linarith, by linarith, by linarith, b5, b6⟩
  · intro hit
    obtain ⟨c, hc, q1, q2⟩ := a2 hit
    obtain ⟨c1, -, c3⟩ := C122_ray hr hmr hF hmF hu hv (o := o) (hp c hc) he hob t0 t1 0 ht
    obtain ⟨s, k, h1, h2, hk, b1, b2, b3, b4, b5, b6⟩ := c1 q1
    refine ⟨c, hc, _, _, rfl, rfl, ⟨s, k, h1, h2, hk, ?_⟩, fun a ha => ?_⟩
    · have n1 := near _ (nn c.1).1
      have n2 := near _ (nn c.1).2
      have n3 := near _ (nn c.2).1
      have n4 := near _ (nn c.2).2
      simp only [InBox, flat, columnLo, columnHi] at b1 b2 b3 b4 b5 b6 ⊢
      exact ⟨by linarith, by linarith, by linarith, by linarith, b5, b6⟩
    · rw [q2]
      exact c3 q1 a ha

/-- C135: where different heights are at least 2e-10 apart, `fromGrid` succeeds, and the mesh consists of the same top rectangles and
walls as in exact arithmetic, with corners rounded and then moved by the vertex merge within a cell: tops cover the positive
cells, cells of their height only, and the walls are exactly the steps between neighbouring cells. -/
theorem C135_mesh {u : ℝ} {rnd : ℝ → ℝ} (hr : RelErr u rnd) (hu : u ≤ 1 / 1000) (grid : List (List ℝ)) (m n : ℕ) (res : ℝ)
    (hg : Rectangular grid m n) (hm : 0 < m) (ha : HeightsApart grid) (hrange : RoundedGridInRange u grid m n res) :
    ∃ (h : HeightMap) (tops wallsX wallsY : List Face) (S : List (Vec3 × Vec3 × Vec3)),
      RoundedHeightMap.fromGrid rnd grid res = .ok h ∧
      (∀ f ∈ tops, GoodTop grid m n f) ∧ (∀ x y, 0 < height grid x y → ∃ f ∈ tops, f.Covers x y) ∧
      (∀ f ∈ wallsX, WallXIn grid m n f) ∧ (∀ f ∈ wallsY, WallYIn grid m n f) ∧ WallsX grid wallsX ∧ WallsY grid wallsY ∧
      soup h.mesh.points h.mesh.tris = some S ∧
      List.Forall₂ (fun c c' => CellMove3 u (flat rnd c.1) c'.1 ∧ CellMove3 u (flat rnd c.2.1) c'.2.1 ∧
          CellMove3 u (flat rnd c.2.2) c'.2.2)
        ((tops ++ wallsX ++ wallsY).flatMap (Face.tris res)) S ∧
      Valid h.mesh.points h.mesh.tris ∧ h.mesh.points.Pairwise (fun p q => ¬ SameRoundedCell rnd p q) ∧
      ∀ p ∈ h.mesh.points, ∃ q, InGrid grid m n res q ∧ p = flat rnd q := by
  obtain ⟨r1, r2, r3⟩ := id hrange
  have hmn : (m + 1) * (n + 1) = m * n + m + n + 1 := by ring
  have hmn' : (n + 1) * (m + 1) = m * n + m + n + 1 := by ring
  obtain ⟨k, F, WX, WY, l1, l2, l3, p1, p2, p3, p4, p5, p6, e⟩ :=
    RoundedHeightMap.fromGrid_eqR hr hu ha hg hm (by nlinarith) (by nlinarith) res
  have hb := HeightMap.built_faces res (F ++ WX ++ WY) HeightMap.built_new (by
    have : Mesh.new.points.length = 0 := rfl
    simp only [List.length_append, this]
    rw [hmn] at r1 l2
    rw [hmn'] at l3
    omega)
  rw [List.nil_append] at hb
  have hin : ∀ p ∈ ((F ++ WX ++ WY).foldl (HeightMap.addFace res) Mesh.new).points, InGrid grid m n res p := by
    intro p hp
    obtain ⟨t, ht, hpt⟩ := hb.2.2 p hp
    rw [List.mem_flatMap] at ht
    obtain ⟨f, hf, htf⟩ := ht
    have hf' : GoodTop grid m n f ∨ WallXIn grid m n f ∨ WallYIn grid m n f := by
      rw [List.mem_append, List.mem_append] at hf
      rcases hf with (hf | hf) | hf
      · exact .inl (p1 f hf)
      · exact .inr (.inl (p3 f hf))
      · exact .inr (.inr (p4 f hf))
    obtain ⟨q1, q2, q3⟩ := HeightMap.face_in hg hf' t htf
    rcases hpt with rfl | rfl | rfl
    exacts [q1, q2, q3]
  have hsoup := Rounded.soup_map (flat rnd) hb.1
  obtain ⟨m', m'', c1, -, -, -, c2, c3, c4, S0, S, s1, s2, s3⟩ := C130_merge hr
    (RoundedHeightMap.flatMesh rnd ((F ++ WX ++ WY).foldl (HeightMap.addFace res) Mesh.new)) (Mesh.valid_of_soup hsoup) (by
      intro p hp
      obtain ⟨q, hq, rfl⟩ := List.mem_map.1 hp
      exact RoundedHeightMap.range_flat hr hrange (hin q hq))
    (by
      show (List.map _ _).length ≤ _
      rw [List.length_map, hb.2.1]
      have e2 : ∀ F : List Face, (F.flatMap (Face.tris res)).length = 2 * F.length := by
        intro F
        induction F with
        | nil => rfl
        | cons f F ih =>
          rw [List.flatMap_cons, List.length_append, ih, List.length_cons]
          have : (f.tris res).length = 2 := by cases f <;> rfl
          omega
      rw [e2]
      simp only [List.length_append]
      rw [hmn] at r1 l2
      rw [hmn'] at l3
      omega)
  have s1' := hsoup.symm.trans s1
  rw [Option.some_inj] at s1'
  subst s1'
  rw [List.forall₂_map_left_iff] at s3
  refine ⟨_, F, WX, WY, S, by rw [e, c1]; rfl, p1, p2, p3, p4, p5, p6, s2, s3.imp fun _ _ a => a.2, c2, c4, ?_⟩
  intro p hp
  obtain ⟨q, hq, e⟩ := List.mem_map.1 (c3.subset hp)
  exact ⟨q, hin q hq, e.symm⟩

/-- C135 case: two columns of height 10 in `double` and `float`: the map is built, and the ray from (-1, -2, 1) towards (1, 2, 2) is
reported. -/
example : HeightsApart [[10], [10]] ∧ RoundedGridInRange (1 / 2 ^ 53) [[10], [10]] 2 1 1 ∧
    ∃ h, RoundedHeightMap.fromGrid toDouble [[10], [10]] 1 = .ok h ∧
      (RoundedHeightMap.intersectRay toDouble toFloat h (Rounded.rayNew toDouble ⟨-1, -2, 1⟩ ⟨1, 2, 2⟩) 0 100 0).1 = true := by
  obtain ⟨hg, hr, e0, e1⟩ := twoColumns
  have hap : HeightsApart [[10], [10]] := by
    intro a b h1 h2
    simp only [List.mem_cons, List.not_mem_nil, or_false, or_self, exists_eq_left] at h1 h2
    rcases h1 with rfl | rfl <;> rcases h2 with rfl | rfl <;> norm_num [abs_of_pos]
  have hra : RoundedGridInRange (1 / 2 ^ 53) [[10], [10]] 2 1 1 := by
    have c : ∀ x : ℕ, x ≤ 2 → (1 + 1 / 2 ^ 53 : ℝ) * ((1 + 1 / 2 ^ 53) * |1000 * (1 * (x : ℝ))|) < 2 ^ 31 := by
      intro x hx
      have : (x : ℝ) ≤ 2 := by exact_mod_cast hx
      rw [abs_of_nonneg (by positivity)]
      norm_num
      linarith
    refine ⟨by norm_num, fun x y hx hy => ⟨c x hx, c y (by omega)⟩, fun x y => ?_⟩
    have := HeightMap.height_bound (grid := [[10], [10]]) (B := 20000) (by norm_num) (by
      intro row hrow v hv
      simp only [List.mem_cons, List.not_mem_nil, or_false, or_self] at hrow
      subst hrow
      simp only [List.mem_singleton] at hv
      subst hv
      norm_num [abs_of_pos]) x y
    norm_num at this ⊢
    linarith
  obtain ⟨h, -, -, -, -, hh, -⟩ := C135_mesh C93_roundings.1 (by norm_num) _ 2 1 1 hg (by norm_num) hap hra
  refine ⟨hap, hra, h, hh, (C135_geometric C93_roundings.1 toDouble_mono C93_roundings.2 toFloat_mono (by norm_num) (by norm_num) _ 2 1 1
    hg (by norm_num) (by norm_num) (by norm_num) zero_le_one h hh ⟨-1, -2, 1⟩ ⟨1, 2, 2⟩ ⟨1 / 3, 2 / 3, 2 / 3⟩ unit122.1
    ⟨by norm_num [abs_of_pos], by norm_num [abs_of_pos], by norm_num [abs_of_pos]⟩ 0 100 0 (by norm_num)).1 (0, 0)
    (by rw [e0]; norm_num) _ _ rfl rfl 4 _ (by norm_num) (by norm_num) rfl ?_⟩
  rw [abs_of_pos (by norm_num)]
  simp only [InBox, along, columnLo, columnHi, e0]
  norm_num

end Geo
