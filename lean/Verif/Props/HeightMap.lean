import Verif.Lemmas.HeightMapUse
import Verif.Lemmas.HeightMapOrder

/-!
# Properties of height maps (C42–C45, C74, C75)
-/

namespace Geo

open Spec

/-! ## C42 -/

/-- C42: on a non-empty rectangular grid, whatever its values, the tree that `fromGrid` builds has as occupied leaves,
one each, the columns of the cells with positive height; boxes of nodes contain those of their children. The
assertion never fails and the loops end. -/
theorem C42_tree (grid : List (List ℝ)) (m n : ℕ) (res : ℝ) (hg : Rectangular grid m n) (hm : 0 < m)
    (hm' : m ≤ 2 ^ 31) (hn : n ≤ 2 ^ 31) :
    (∀ h, HeightMap.fromGrid grid res = .ok h →
      (∃ cells : List (ℕ × ℕ), cells.Nodup ∧ (∀ c, c ∈ cells ↔ 0 < height grid c.1 c.2) ∧
        leaves h.root = cells.map fun c => Box.new (columnLo res c) (columnHi res grid c)) ∧
      (0 ≤ res → Nested h.root)) ∧
    HeightMap.fromGrid grid res ≠ .error .exception ∧ HeightMap.fromGrid grid res ≠ .error .hang := by
  constructor
  · intro h hh
    obtain ⟨k, ⟨h1, -⟩, h2, h3⟩ := HeightMap.root_of_ok hg hm hm' hn hh
    rw [h3]
    refine ⟨⟨_, (HeightMap.cells_nodup k 0 0).filter _, fun c => ?_, HeightMap.leaves_quad _ _ _ _ _⟩,
      fun hr => HeightMap.nested_quad _ hr _ _ _⟩
    simp only [List.mem_filter, decide_eq_true_eq, HeightMap.mem_cells]
    constructor
    · exact fun h => h.2
    · intro h
      refine ⟨?_, h⟩
      have : c.1 < m ∧ c.2 < n := by
        by_contra hc
        rw [HeightMap.height_out hg (by omega)] at h
        exact lt_irrefl _ h
      omega
  · obtain ⟨k, F, WX, WY, -, -, -, -, -, -, -, -, -, -, e⟩ := HeightMap.fromGrid_eq hg hm hm' hn res
    have ub : OnlyUb (HeightMap.fromGrid grid res) := by
      rw [e]
      exact (OnlyUb.filter _).bind fun _ => .ok _
    exact ⟨fun hc => by simpa using ub _ hc, fun hc => by simpa using ub _ hc⟩

/-- C42: on a grid in range `fromGrid` returns. -/
theorem C42_returns (grid : List (List ℝ)) (m n : ℕ) (res : ℝ) (hg : Rectangular grid m n) (hm : 0 < m)
    (hr : GridInRange grid m n res) : ∃ h, HeightMap.fromGrid grid res = .ok h := by
  obtain ⟨h, -, -, -, -, e, -⟩ := HeightMap.fromGrid_ok hg hm hr
  exact ⟨h, e⟩

/-- C42: the grid must be non-empty and no row may be shorter than the first: otherwise the behaviour is
undefined. -/
theorem C42_ragged (grid : List (List ℝ)) (res : ℝ) :
    (grid = [] → HeightMap.fromGrid grid res = .error .ub) ∧
    (∀ row0 rest, grid = row0 :: rest → grid.length ≤ 2 ^ 31 → row0.length ≤ 2 ^ 31 →
      (∃ row ∈ grid, row.length < row0.length) → HeightMap.fromGrid grid res = .error .ub) := by
  constructor
  · rintro rfl
    rfl
  · rintro row0 rest rfl h1 h2 ⟨row, hrow, hlt⟩
    have e1 : u32 (row0 :: rest).length = (row0 :: rest).length := Nat.mod_eq_of_lt (by omega)
    have e2 : u32 row0.length = row0.length := Nat.mod_eq_of_lt (by omega)
    have hv : vget (row0 :: rest) 0 = .ok row0 := rfl
    obtain ⟨k, hk, -, hpow⟩ := HeightMap.powSize (size := max (row0 :: rest).length row0.length) (max_le h1 h2)
    have hbad : HeightMap.powGrid (row0 :: rest) row0.length (2 ^ k) = .error .ub := by
      cases hp : HeightMap.powGrid (row0 :: rest) row0.length (2 ^ k) with
      | error e => rw [OnlyUb.powGrid _ _ _ e hp]
      | ok map =>
        exfalso
        unfold HeightMap.powGrid at hp
        rw [Exec.bind_ok] at hp
        obtain ⟨rows, hrows, -⟩ := hp
        rw [mapM_ok_iff] at hrows
        obtain ⟨r, -, hr⟩ := forall₂_mem hrows hrow
        rw [Exec.bind_ok] at hr
        obtain ⟨cs, hcs, -⟩ := hr
        rw [mapM_ok_iff] at hcs
        obtain ⟨v, -, hv⟩ := forall₂_mem hcs (a := row.length) (by simpa using hlt)
        rw [vget_ok] at hv
        simp at hv
    unfold HeightMap.fromGrid
    simp only [e1, e2, hv, hpow, hbad, bind, Except.bind]

/-- C42 case: a 2 × 3 grid with empty, positive and negative cells. -/
example : Rectangular [[1, 0, 2.5], [-1, 2, 2]] 2 3 ∧ GridInRange [[1, 0, 2.5], [-1, 2, 2]] 2 3 0.05 ∧
    height [[1, 0, 2.5], [-1, 2, 2]] 0 2 = 2.5 ∧ height [[1, 0, 2.5], [-1, 2, 2]] 2 0 = 0 := by
  refine ⟨⟨rfl, by simp⟩, HeightMap.small_inRange (by norm_num) (by norm_num) (by norm_num [abs_of_pos]) ?_, by simp [height],
    by simp [height]⟩
  intro row hrow v hv
  simp only [List.mem_cons, List.not_mem_nil, or_false] at hrow
  rcases hrow with rfl | rfl <;> simp only [List.mem_cons, List.not_mem_nil, or_false] at hv <;>
    rcases hv with rfl | rfl | rfl <;> norm_num [abs_of_pos]

/-! ## C43 -/

/-- C43: casting any ray on a height map built from a grid is true iff casting it on the box of some positive column
is, and then reports the distance to such a column. -/
theorem C43_ray (grid : List (List ℝ)) (m n : ℕ) (res : ℝ) (hg : Rectangular grid m n) (hm : 0 < m)
    (hm' : m ≤ 2 ^ 31) (hn : n ≤ 2 ^ 31) (hres : 0 ≤ res) (h : HeightMap)
    (hh : HeightMap.fromGrid grid res = .ok h) (o d : Vec3) (t0 t1 d0 : ℝ) :
    let r := h.intersectRay (Ray.new o d) t0 t1 d0
    let column := fun c : ℕ × ℕ => (Box.new (columnLo res c) (columnHi res grid c)).intersectRay (Ray.new o d) t0 t1 0
    (r.1 = true ↔ ∃ c : ℕ × ℕ, 0 < height grid c.1 c.2 ∧ (column c).1 = true) ∧
    (r.1 = true → ∃ c : ℕ × ℕ, 0 < height grid c.1 c.2 ∧ (column c).1 = true ∧ r.2 = (column c).2) := by
  obtain ⟨k, ⟨h1, -⟩, h2, h3⟩ := HeightMap.root_of_ok hg hm hm' hn hh
  obtain ⟨hit, D, c1, c2, c3⟩ := HNode.cast (HeightMap.nested_quad (height grid) hres k 0 0) o d t0 t1
  intro r column
  have hr : r = (HeightMap.quad (height grid) res k 0 0).intersectRay (Ray.new o d) t0 t1 d0 := by
    show h.root.intersectRay _ _ _ _ = _
    rw [h3]
  rw [hr]
  constructor
  · rw [(c1 d0).1, c2]
    constructor
    · rintro ⟨l, hl, q⟩
      obtain ⟨c, hc, rfl⟩ := (HeightMap.leaf_iff hg h1 h2 l).1 hl
      exact ⟨c, hc, q⟩
    · rintro ⟨c, hc, q⟩
      exact ⟨_, (HeightMap.leaf_iff hg h1 h2 _).2 ⟨c, hc, rfl⟩, q⟩
  · intro hit'
    rw [(c1 d0).1] at hit'
    obtain ⟨l, hl, q1, q2⟩ := c3 hit'
    obtain ⟨c, hc, rfl⟩ := (HeightMap.leaf_iff hg h1 h2 l).1 hl
    exact ⟨c, hc, q1, by rw [(c1 d0).2 hit']; exact q2⟩

/-- C43, geometrically: for a direction without components below 1e-9, the cast is true iff the ray meets a positive
column within the range. -/
theorem C43_geometric (grid : List (List ℝ)) (m n : ℕ) (res : ℝ) (hg : Rectangular grid m n) (hm : 0 < m)
    (hm' : m ≤ 2 ^ 31) (hn : n ≤ 2 ^ 31) (hres : 0 ≤ res) (h : HeightMap)
    (hh : HeightMap.fromGrid grid res = .ok h) (o d u : Vec3) (hu : UnitAlong d u) (hx : 1e-9 ≤ |u.x|)
    (hy : 1e-9 ≤ |u.y|) (hz : 1e-9 ≤ |u.z|) (t0 t1 d0 : ℝ) (ht : t0 < t1) :
    let r := h.intersectRay (Ray.new o d) t0 t1 d0
    (r.1 = true ↔ ∃ t c, t0 < t ∧ t < t1 ∧ 0 < height grid c.1 c.2 ∧
      InBox (columnLo res c) (columnHi res grid c) (along o u t)) ∧
    (r.1 = true → ∃ c : ℕ × ℕ, 0 < height grid c.1 c.2 ∧
      IsLeast {t | InBox (columnLo res c) (columnHi res grid c) (along o u t)} r.2) := by
  intro r
  obtain ⟨a1, a2⟩ := C43_ray grid m n res hg hm hm' hn hres h hh o d t0 t1 d0
  have hp : ∀ c : ℕ × ℕ, 0 < height grid c.1 c.2 → Proper (columnLo res c) (columnHi res grid c) := by
    intro c hc
    exact ⟨mul_le_mul_of_nonneg_right (by linarith) hres, mul_le_mul_of_nonneg_right (by linarith) hres, hc.le⟩
  constructor
  · rw [a1]
    constructor
    · rintro ⟨c, hc, q⟩
      obtain ⟨t, q1, q2, q3⟩ := (C26_ray _ _ o d u t0 t1 0 (hp c hc) hu hx hy hz ht).1.1 q
      exact ⟨t, c, q1, q2, hc, q3⟩
    · rintro ⟨t, c, q1, q2, hc, q3⟩
      exact ⟨c, hc, (C26_ray _ _ o d u t0 t1 0 (hp c hc) hu hx hy hz ht).1.2 ⟨t, q1, q2, q3⟩⟩
  · intro hit
    obtain ⟨c, hc, q1, q2⟩ := a2 hit
    refine ⟨c, hc, ?_⟩
    have := (C26_ray _ _ o d u t0 t1 0 (hp c hc) hu hx hy hz ht).2 q1
    rw [← q2] at this
    exact this

/-- C43: a default-constructed height map is never hit. -/
theorem C43_empty (r : Ray) (t0 t1 d0 : ℝ) : (HeightMap.new.intersectRay r t0 t1 d0) = (false, d0) := rfl

/-- The grid of two columns of height 10. -/
theorem twoColumns : Rectangular [[10], [10]] 2 1 ∧ GridInRange [[10], [10]] 2 1 1 ∧
    height [[10], [10]] 0 0 = 10 ∧ height [[10], [10]] 1 0 = 10 := by
  refine ⟨⟨rfl, by simp⟩, HeightMap.small_inRange (by norm_num) (by norm_num) (by norm_num [abs_of_pos]) ?_, by simp [height],
    by simp [height]⟩
  intro row hrow v hv
  simp only [List.mem_cons, List.not_mem_nil, or_false, or_self] at hrow
  subst hrow
  simp only [List.mem_singleton] at hv
  subst hv
  norm_num [abs_of_pos]

/-- C43 case: two columns of height 10 and an oblique ray hitting them. -/
example : ∃ h, Rectangular [[10], [10]] 2 1 ∧ HeightMap.fromGrid [[10], [10]] 1 = .ok h ∧
    (h.intersectRay (Ray.new ⟨-1, -1 / 2, 0⟩ ⟨1, 2, 2⟩) 0 100 0).1 = false ∧
    (h.intersectRay (Ray.new ⟨-1, -2, 0⟩ ⟨1, 2, 2⟩) 0 100 0).1 = true := by
  obtain ⟨hg, hr, e0, e1⟩ := twoColumns
  obtain ⟨h, hh⟩ := C42_returns _ 2 1 1 hg (by norm_num) hr
  refine ⟨h, hg, hh, ?_, ?_⟩
  · rw [← Bool.not_eq_true, (C43_geometric _ 2 1 1 hg (by norm_num) (by norm_num) (by norm_num) (by norm_num) h hh
      ⟨-1, -1 / 2, 0⟩ ⟨1, 2, 2⟩ _ unit122.1 unit122.2.1 unit122.2.2.1 unit122.2.2.2 0 100 0 (by norm_num)).1]
    rintro ⟨t, c, q1, q2, hc, b1, b2, b3, b4, b5, b6⟩
    simp only [along, columnLo, columnHi] at b1 b2 b3 b4
    have hc2 : c.2 = 0 := by
      by_contra hn
      rw [HeightMap.height_out hg (.inr (by omega))] at hc
      exact lt_irrefl _ hc
    have hc1 : (0:ℝ) ≤ c.1 := Nat.cast_nonneg _
    rw [hc2] at b3 b4
    norm_num at b1 b2 b3 b4
    linarith
  · rw [(C43_geometric _ 2 1 1 hg (by norm_num) (by norm_num) (by norm_num) (by norm_num) h hh
      ⟨-1, -2, 0⟩ ⟨1, 2, 2⟩ _ unit122.1 unit122.2.1 unit122.2.2.1 unit122.2.2.2 0 100 0 (by norm_num)).1]
    refine ⟨3.5, (0, 0), by norm_num, by norm_num, by rw [e0]; norm_num, ?_⟩
    simp only [InBox, along, columnLo, columnHi, e0]
    norm_num

/-! ## C44 -/

/-- C44, partial: full statement: the same for directions of any sign; false, see `C44_nearest_wrong`.
For rays whose x and y components are positive (at least 1e-9), starting at a non-negative parameter, the reported
distance is the smallest over all columns hit. -/
theorem C44_nearest_partial (grid : List (List ℝ)) (m n : ℕ) (res : ℝ) (hg : Rectangular grid m n) (hm : 0 < m)
    (hm' : m ≤ 2 ^ 31) (hn : n ≤ 2 ^ 31) (hres : 0 ≤ res) (h : HeightMap)
    (hh : HeightMap.fromGrid grid res = .ok h) (o d u : Vec3) (hu : UnitAlong d u) (hx : 1e-9 ≤ u.x)
    (hy : 1e-9 ≤ u.y) (hz : 1e-9 ≤ |u.z|) (t0 t1 d0 : ℝ) (h0 : 0 ≤ t0) (ht : t0 < t1)
    (hit : (h.intersectRay (Ray.new o d) t0 t1 d0).1 = true) :
    ∀ c : ℕ × ℕ, 0 < height grid c.1 c.2 → ∀ t, t0 < t → t < t1 →
      InBox (columnLo res c) (columnHi res grid c) (along o u t) →
      (h.intersectRay (Ray.new o d) t0 t1 d0).2 ≤ t := by
  intro c hc t ht0 ht1 hin
  obtain ⟨k, ⟨h1, -⟩, h2, h3⟩ := HeightMap.root_of_ok hg hm hm' hn hh
  have hp : Proper (columnLo res c) (columnHi res grid c) :=
    ⟨mul_le_mul_of_nonneg_right (by linarith) hres, mul_le_mul_of_nonneg_right (by linarith) hres, hc.le⟩
  have hbox := C26_ray _ _ o d u t0 t1 0 hp hu (le_trans hx (le_abs_self _)) (le_trans hy (le_abs_self _)) hz ht
  have hboxhit := hbox.1.2 ⟨t, ht0, ht1, hin⟩
  have hl := (HeightMap.leaf_iff hg (res := res) h1 h2 _).2 ⟨c, hc, rfl⟩
  unfold HeightMap.intersectRay at hit ⊢
  rw [h3] at hit ⊢
  exact le_trans (HeightMap.nearest hres hu hx hy hz h0 ht k 0 0 d0 hit _ hl hboxhit) ((hbox.2 hboxhit).2 hin)

/-- C44 case: the direction (1, 2, 2). -/
example : ∃ h, HeightMap.fromGrid [[10], [10]] 1 = .ok h ∧ (1e-9 : ℝ) ≤ 1 / 3 ∧ (1e-9 : ℝ) ≤ 2 / 3 ∧
    UnitAlong ⟨1, 2, 2⟩ ⟨1 / 3, 2 / 3, 2 / 3⟩ := by
  obtain ⟨hg, hr, -, -⟩ := twoColumns
  obtain ⟨h, hh⟩ := C42_returns _ 2 1 1 hg (by norm_num) hr
  exact ⟨h, hh, by norm_num, by norm_num, unit122.1⟩

/-- C44 is violated by the code: with two columns side by side, a ray coming from larger x meets column (1, 0) at
distance 1.5, but distance 3, to the column behind, is reported. -/
theorem C44_nearest_wrong : ∃ h, HeightMap.fromGrid [[10], [10]] 1 = .ok h ∧
    UnitAlong ⟨-2, 1, -2⟩ ⟨-2 / 3, 1 / 3, -2 / 3⟩ ∧
    h.intersectRay (Ray.new ⟨3, -1 / 4, 5⟩ ⟨-2, 1, -2⟩) 0 100 0 = (true, 3) ∧
    0 < height [[10], [10]] 1 0 ∧
    InBox (columnLo 1 (1, 0)) (columnHi 1 [[10], [10]] (1, 0)) (along ⟨3, -1 / 4, 5⟩ ⟨-2 / 3, 1 / 3, -2 / 3⟩ 1.5) := by
  obtain ⟨hg, hr, e0, e1⟩ := twoColumns
  obtain ⟨h, hh⟩ := C42_returns _ 2 1 1 hg (by norm_num) hr
  have hu : UnitAlong ⟨-2, 1, -2⟩ ⟨-2 / 3, 1 / 3, -2 / 3⟩ := ⟨by norm_num, 3, by norm_num⟩
  have hx : (1e-9 : ℝ) ≤ |(-2 / 3 : ℝ)| := by norm_num [abs_of_neg]
  have hy : (1e-9 : ℝ) ≤ |(1 / 3 : ℝ)| := by norm_num [abs_of_pos]
  refine ⟨h, hh, hu, ?_, by rw [e1]; norm_num, ?_⟩
  · obtain ⟨k, ⟨h1, h1'⟩, h2, h3⟩ := HeightMap.root_of_ok hg (by norm_num) (by norm_num) (by norm_num) hh
    have hk : k = 1 := by
      have g1 : 1 ≤ k := by
        by_contra hc
        have : k = 0 := by omega
        subst this
        norm_num at h1
      by_contra hc
      have := h1' 1 (by omega)
      norm_num at this
    subst hk
    have hn := HeightMap.nested_quad (height [[10], [10]]) (zero_le_one (α := ℝ)) 1 0 0
    -- the distance to the column behind
    have hcol := C26_ray (columnLo 1 (0, 0)) (columnHi 1 [[10], [10]] (0, 0)) ⟨3, -1 / 4, 5⟩ ⟨-2, 1, -2⟩ _ 0 100 0
      (by simp only [Proper, columnLo, columnHi, e0]; norm_num) hu hx hy hx (by norm_num)
    have hcolhit := hcol.1.2 ⟨3.5, by norm_num, by norm_num, by
      simp only [InBox, along, columnLo, columnHi, e0]; norm_num⟩
    have hcold : ((Box.new (columnLo 1 (0, 0)) (columnHi 1 [[10], [10]] (0, 0))).intersectRay
        (Ray.new ⟨3, -1 / 4, 5⟩ ⟨-2, 1, -2⟩) 0 100 0).2 = 3 := by
      refine (hcol.2 hcolhit).unique ⟨?_, ?_⟩
      · simp only [Set.mem_ofPred_eq, InBox, along, columnLo, columnHi, e0]; norm_num
      · intro t ht
        simp only [Set.mem_ofPred_eq, InBox, along, columnLo, columnHi, e0] at ht
        have := ht.2.1
        norm_num at this
        linarith
    -- the tree
    have hmax : HeightMap.quad (height [[10], [10]]) 1 1 0 0 ≠ .null := by
      intro hc
      have := (HeightMap.leaf_iff hg (res := 1) h1 h2 _).2 ⟨(0, 0), by rw [e0]; norm_num, rfl⟩
      rw [hc] at this
      simp [leaves] at this
    obtain ⟨B, hq⟩ : ∃ B, HeightMap.quad (height [[10], [10]]) 1 1 0 0 = .node B false
        ![HeightMap.quad (height [[10], [10]]) 1 0 0 0, HeightMap.quad (height [[10], [10]]) 1 0 1 0,
          HeightMap.quad (height [[10], [10]]) 1 0 0 1, HeightMap.quad (height [[10], [10]]) 1 0 1 1] := by
      by_cases hm : maxH (height [[10], [10]]) 0 0 (2 ^ (0 + 1)) = 0
      · exact absurd (if_pos hm) hmax
      · exact ⟨_, if_neg hm⟩
    generalize hch : (![HeightMap.quad (height [[10], [10]]) 1 0 0 0, HeightMap.quad (height [[10], [10]]) 1 0 1 0,
      HeightMap.quad (height [[10], [10]]) 1 0 0 1, HeightMap.quad (height [[10], [10]]) 1 0 1 1] : Fin 4 → HNode) = ch at hq
    rw [hq] at hn
    choose b g g1 g2 g3 using fun i => HNode.cast (hn.2 i).1 ⟨3, -1 / 4, 5⟩ ⟨-2, 1, -2⟩ 0 100
    have hl0 : leaves (ch 0) = [Box.new (columnLo 1 (0, 0)) (columnHi 1 [[10], [10]] (0, 0))] := by
      rw [← hch]
      show leaves (HeightMap.quad (height [[10], [10]]) 1 0 0 0) = _
      rw [HeightMap.leaves_quad, HeightMap.cells]
      simp only [List.filter_cons, e0]
      norm_num [columnHi, e0]
    have hb0 : b 0 = true := (g2 0).2 ⟨_, by rw [hl0]; simp, hcolhit⟩
    have hg0 : g 0 = 3 := by
      obtain ⟨l, q1, q2, q3⟩ := g3 0 hb0
      rw [hl0, List.mem_singleton] at q1
      rw [q3, q1, hcold]
    have hsel : ∀ i, (ch i).boxContains (Ray.new ⟨3, -1 / 4, 5⟩ ⟨-2, 1, -2⟩).origin = false := by
      intro i
      have hreg : ∀ x y, x ≤ 1 → y ≤ 1 → (HeightMap.quad (height [[10], [10]]) 1 0 x y).boxContains
          (Ray.new ⟨3, -1 / 4, 5⟩ ⟨-2, 1, -2⟩).origin = false := by
        intro x y hx' hy'
        cases hc : HeightMap.quad (height [[10], [10]]) 1 0 x y with
        | null => rfl
        | node b' o' c' =>
          have hb' := HeightMap.quad_box (height [[10], [10]]) 1 0 x y (b := b') (by rw [hc]; rfl)
          rw [hb', ← Bool.not_eq_true]
          intro hc'
          have q := (of_decide_eq_true hc').2.1
          simp only [Box.new_hi, Ray.new] at q
          have : (x:ℝ) ≤ 1 := by exact_mod_cast hx'
          norm_num at q
          linarith
      rw [← hch]
      fin_cases i
      exacts [hreg 0 0 (by norm_num) (by norm_num), hreg 1 0 (by norm_num) (by norm_num),
        hreg 0 1 (by norm_num) (by norm_num), hreg 1 1 (by norm_num) (by norm_num)]
    have hB : (B.intersectRay (Ray.new ⟨3, -1 / 4, 5⟩ ⟨-2, 1, -2⟩) 0 100 0).1 = true := by
      have hin := HNode.leaves_in hn B rfl (Box.new (columnLo 1 (0, 0)) (columnHi 1 [[10], [10]] (0, 0)))
        (HNode.mem_leaves.2 ⟨0, by rw [hl0]; simp⟩)
      exact box_mono hin.1 hin.2 _ _ hcolhit
    have eq : (HNode.node B false ch).intersectRay (Ray.new ⟨3, -1 / 4, 5⟩ ⟨-2, 1, -2⟩) 0 100 0 =
        (let first := HNode.loopOrigin (fun i => (ch i).boxContains (Ray.new ⟨3, -1 / 4, 5⟩ ⟨-2, 1, -2⟩).origin)
          (fun i d' => HNode.intersectRay (ch i) (Ray.new ⟨3, -1 / 4, 5⟩ ⟨-2, 1, -2⟩) 0 100 d') [0, 1, 2, 3]
          (B.intersectRay (Ray.new ⟨3, -1 / 4, 5⟩ ⟨-2, 1, -2⟩) 0 100 0).2 none
        if first.1 then (true, first.2.1) else HNode.loopRest first.2.2
          (fun i d' => HNode.intersectRay (ch i) (Ray.new ⟨3, -1 / 4, 5⟩ ⟨-2, 1, -2⟩) 0 100 d') [0, 1, 2, 3]
          first.2.1) := by
      conv_lhs => unfold HNode.intersectRay
      simp [hB]
    obtain ⟨L1, i, L2⟩ := HNode.loops
      (sel := fun i => (ch i).boxContains (Ray.new ⟨3, -1 / 4, 5⟩ ⟨-2, 1, -2⟩).origin) g1
      (B.intersectRay (Ray.new ⟨3, -1 / 4, 5⟩ ⟨-2, 1, -2⟩) 0 100 0).2
    unfold HeightMap.intersectRay
    rw [h3, hq, eq]
    have hhit := L1.2 ⟨0, hb0⟩
    obtain ⟨ev, -, hor⟩ := L2 _ hhit
    have hi : i = 0 := by
      rcases hor with ⟨hs, -⟩ | ⟨-, hlt⟩
      · rw [hsel i] at hs; simp at hs
      · by_contra hne
        have := hlt 0 (Fin.pos_of_ne_zero hne)
        rw [hb0] at this; simp at this
    rw [hi, hg0] at ev
    exact Prod.ext hhit ev
  · simp only [InBox, along, columnLo, columnHi, e1]
    norm_num

/-- C44, what the code computes: for a ray hitting some column, the reported distance is the one at which the line of
the ray enters the column that comes first in the order of the search (`Sooner`) among those hit. There always is
such a column. -/
theorem C44_order (grid : List (List ℝ)) (m n : ℕ) (res : ℝ) (hg : Rectangular grid m n) (hm : 0 < m)
    (hm' : m ≤ 2 ^ 31) (hn : n ≤ 2 ^ 31) (hres : 0 ≤ res) (h : HeightMap)
    (hh : HeightMap.fromGrid grid res = .ok h) (o d u : Vec3) (hu : UnitAlong d u) (hx : 1e-9 ≤ |u.x|)
    (hy : 1e-9 ≤ |u.y|) (hz : 1e-9 ≤ |u.z|) (t0 t1 d0 : ℝ) (ht : t0 < t1)
    (Hit : ℕ × ℕ → Prop) (hHit : ∀ c, Hit c ↔ 0 < height grid c.1 c.2 ∧ ∃ t, t0 < t ∧ t < t1 ∧
      InBox (columnLo res c) (columnHi res grid c) (along o u t))
    (hit : (h.intersectRay (Ray.new o d) t0 t1 d0).1 = true) :
    (∃ c, Hit c ∧ ∀ c', Hit c' → c' = c ∨ Sooner grid res o c c') ∧
    ∀ c, Hit c → (∀ c', Hit c' → c' = c ∨ Sooner grid res o c c') →
      IsLeast {t | InBox (columnLo res c) (columnHi res grid c) (along o u t)}
        (h.intersectRay (Ray.new o d) t0 t1 d0).2 := by
  obtain ⟨k, ⟨h1, -⟩, h2, h3⟩ := HeightMap.root_of_ok hg hm hm' hn hh
  have col : ∀ c : ℕ × ℕ, 0 < height grid c.1 c.2 →
      ((((Box.new (columnLo res c) (columnHi res grid c)).intersectRay (Ray.new o d) t0 t1 0).1 = true ↔ Hit c) ∧
      (Hit c → IsLeast {t | InBox (columnLo res c) (columnHi res grid c) (along o u t)}
        ((Box.new (columnLo res c) (columnHi res grid c)).intersectRay (Ray.new o d) t0 t1 0).2)) := by
    intro c hc
    have hp : Proper (columnLo res c) (columnHi res grid c) :=
      ⟨mul_le_mul_of_nonneg_right (by linarith) hres, mul_le_mul_of_nonneg_right (by linarith) hres, hc.le⟩
    have hbox := C26_ray _ _ o d u t0 t1 0 hp hu hx hy hz ht
    have e : ((Box.new (columnLo res c) (columnHi res grid c)).intersectRay (Ray.new o d) t0 t1 0).1 = true ↔ Hit c := by
      rw [hHit]
      exact hbox.1.trans ⟨fun q => ⟨hc, q⟩, fun q => q.2⟩
    exact ⟨e, fun q => hbox.2 (e.2 q)⟩
  have low : ∀ c : ℕ × ℕ, 0 < height grid c.1 c.2 → c.1 / 2 ^ k = 0 ∧ c.2 / 2 ^ k = 0 := by
    intro c hc
    have : c.1 < m ∧ c.2 < n := by
      by_contra hcc
      rw [HeightMap.height_out hg (by omega)] at hc
      exact lt_irrefl _ hc
    exact ⟨Nat.div_eq_of_lt (by omega), Nat.div_eq_of_lt (by omega)⟩
  unfold HeightMap.intersectRay at hit ⊢
  rw [h3] at hit ⊢
  have z : (0:ℕ) * 2 ^ k = 0 := Nat.zero_mul _
  have key := HeightMap.first_hit (grid := grid) hres (o := o) (d := d) (t0 := t0) (t1 := t1) k 0 0 d0
  rw [z] at key
  obtain ⟨c, -, -, c3, c4, c5, c6⟩ := key hit
  have hc := (col c c3).1.1 c4
  have first : ∀ c', Hit c' → c' = c ∨ Sooner grid res o c c' := by
    intro c' hc'
    have p := ((hHit c').1 hc').1
    exact c6 c' (low c' p).1 (low c' p).2 p ((col c' p).1.2 hc')
  refine ⟨⟨c, hc, first⟩, fun c' hc' first' => ?_⟩
  have : c' = c := by
    rcases first c' hc' with e | e
    · exact e
    · rcases first' c hc with e' | e'
      · exact e'.symm
      · exact absurd e' e.asymm
  rw [this, c5]
  exact (col c c3).2 hc

/-- C44 case: the order of the two columns of `C44_nearest_wrong`, seen from outside: column (0, 0) comes first; from
a point over column (1, 0) the order is reversed. -/
example : Sooner [[10], [10]] 1 ⟨3, -1 / 4, 5⟩ (0, 0) (1, 0) ∧
    Sooner [[10], [10]] 1 ⟨3 / 2, 1 / 2, 5⟩ (1, 0) (0, 0) := by
  refine ⟨⟨0, by norm_num, by norm_num, by norm_num, .inr ⟨?_, by norm_num [quarter]⟩⟩,
    ⟨0, by norm_num, by norm_num, by norm_num, .inl ⟨?_, ?_⟩⟩⟩
  · simp only [InBlock]
    norm_num
  · simp only [InBlock]
    norm_num [height]
  · simp only [InBlock]
    norm_num

/-! ## C45 -/

/-- C45: for a rectangular grid in range, the mesh consists of top rectangles and walls (two triangles each, corners
moved by the vertex merge within cells of a millimetre). Every cell of positive height is covered by a top rectangle;
top rectangles cover only cells of their height, up to 1e-10; all indices are valid, and all vertices are above
corners of grid cells, at heights that occur in the grid, or 0. -/
theorem C45_mesh (grid : List (List ℝ)) (m n : ℕ) (res : ℝ) (hg : Rectangular grid m n) (hm : 0 < m)
    (hr : GridInRange grid m n res) :
    ∃ (h : HeightMap) (tops walls : List Face) (S : List (Vec3 × Vec3 × Vec3)),
      HeightMap.fromGrid grid res = .ok h ∧
      (∀ f ∈ tops, GoodTop grid m n f) ∧ (∀ x y, 0 < height grid x y → ∃ f ∈ tops, f.Covers x y) ∧
      (∀ f ∈ walls, WallXIn grid m n f ∨ WallYIn grid m n f) ∧
      soup h.mesh.points h.mesh.tris = some S ∧
      List.Forall₂ (fun c c' => SameCell3 c.1 c'.1 ∧ SameCell3 c.2.1 c'.2.1 ∧ SameCell3 c.2.2 c'.2.2)
        ((tops ++ walls).flatMap (Face.tris res)) S ∧
      Valid h.mesh.points h.mesh.tris ∧ ∀ p ∈ h.mesh.points, InGrid grid m n res p := by
  obtain ⟨h, F, WX, WY, S, e, ⟨p1, -⟩, p2, p3, p4, -, s1, s2, s3⟩ := HeightMap.fromGrid_ok hg hm hr
  refine ⟨h, F, WX ++ WY, S, e, p1, p2, ?_, s1, by rw [← List.append_assoc]; exact s2, Mesh.valid_of_soup s1, s3⟩
  intro f hf
  rw [List.mem_append] at hf
  exact hf.imp (p3 f) (p4 f)

/-- C45 case: two equal columns: one rectangle covers both cells. -/
example : Rectangular [[10], [10]] 2 1 ∧ GridInRange [[10], [10]] 2 1 1 ∧ GoodTop [[10], [10]] 2 1 (.top 0 0 2 1 10) := by
  obtain ⟨hg, hr, e0, e1⟩ := twoColumns
  refine ⟨hg, hr, by norm_num, by norm_num, by norm_num, by norm_num, e0.symm, by norm_num, ?_, .inl rfl, .inl rfl⟩
  intro x y _ hx _ hy
  have hy0 : y = 0 := by omega
  subst hy0
  interval_cases x
  · rw [e0]; norm_num
  · rw [e1]; norm_num

/-! ## C74 -/

/-- C74: when different heights differ by more than 1e-10, there is exactly one wall for every pair of neighbouring
cells of different height (the surroundings counting as height 0), reaching between the two heights, and no other;
and every triangle of the surface faces outwards. -/
theorem C74_walls (grid : List (List ℝ)) (m n : ℕ) (res : ℝ) (hg : Rectangular grid m n) (hm : 0 < m)
    (hr : GridInRange grid m n res) (hs : Separated grid) (hres : 0 < res) :
    ∃ (h : HeightMap) (tops wallsX wallsY : List Face) (S : List (Vec3 × Vec3 × Vec3)),
      HeightMap.fromGrid grid res = .ok h ∧
      (∀ f ∈ tops, GoodTop grid m n f) ∧ (∀ x y, 0 < height grid x y → ∃ f ∈ tops, f.Covers x y) ∧
      (∀ f ∈ wallsX, WallXIn grid m n f) ∧ WallsX grid wallsX ∧
      (∀ f ∈ wallsY, WallYIn grid m n f) ∧ WallsY grid wallsY ∧
      soup h.mesh.points h.mesh.tris = some S ∧
      List.Forall₂ (fun c c' => SameCell3 c.1 c'.1 ∧ SameCell3 c.2.1 c'.2.1 ∧ SameCell3 c.2.2 c'.2.2)
        ((tops ++ wallsX ++ wallsY).flatMap (Face.tris res)) S ∧
      ∀ f ∈ tops ++ wallsX ++ wallsY, ∀ t ∈ f.tris res, ∀ q, 0 < side t q ↔ f.Outside res q := by
  obtain ⟨h, F, WX, WY, S, e, ⟨p1, -⟩, p2, p3, p4, p5, s1, s2, s3⟩ := HeightMap.fromGrid_ok hg hm hr
  obtain ⟨w1, w2⟩ := p5 hs
  refine ⟨h, F, WX, WY, S, e, p1, p2, p3, w1, p4, w2, s1, s2, ?_⟩
  have sgn : ∀ a b c : ℝ, 0 < c → (0 < c * ((a - b)) ↔ b < a) := by
    intro a b c hc
    rw [mul_pos_iff_of_pos_left hc, sub_pos]
  have sgn2 : ∀ h h2 x y c : ℝ, 0 < c → (0 < c * ((h2 - h) * (x - y)) ↔ (h2 < h ∧ x < y) ∨ (h < h2 ∧ y < x)) := by
    intro h h2 x y c hc
    rw [mul_pos_iff_of_pos_left hc, mul_pos_iff]
    simp only [sub_pos, sub_neg]
    exact or_comm
  intro f hf t ht q
  rw [List.mem_append, List.mem_append] at hf
  rcases hf with (hf | hf) | hf
  · have hgood := p1 f hf
    cases f with
    | wallX => exact hgood.elim
    | wallY => exact hgood.elim
    | top x0 y0 x1 y1 z =>
      obtain ⟨g1, -, g3, -⟩ := hgood
      have g1' : (x0:ℝ) < x1 := by exact_mod_cast g1
      have g3' : (y0:ℝ) < y1 := by exact_mod_cast g3
      have hc : 0 < res * res * (x1 - x0) * (y1 - y0) :=
        mul_pos (mul_pos (mul_pos hres hres) (by linarith)) (by linarith)
      rw [show (Face.top x0 y0 x1 y1 z).Outside res q ↔ z < q.z from Iff.rfl]
      refine Iff.trans ?_ (sgn _ _ _ hc)
      simp only [Face.tris, List.mem_cons, List.not_mem_nil, or_false] at ht
      rcases ht with rfl | rfl <;> (simp only [side]; ring_nf)
  · have hgood := p3 f hf
    cases f with
    | top => exact hgood.elim
    | wallY => exact hgood.elim
    | wallX x y0 y1 z z2 =>
      obtain ⟨-, g1, -⟩ := hgood
      have g1' : (y0:ℝ) < y1 := by exact_mod_cast g1
      have hc : 0 < res * (y1 - y0) := mul_pos hres (by linarith)
      rw [show (Face.wallX x y0 y1 z z2).Outside res q ↔ (z2 < z ∧ q.x < res * x) ∨ (z < z2 ∧ res * x < q.x) from Iff.rfl]
      refine Iff.trans ?_ (sgn2 _ _ _ _ _ hc)
      simp only [Face.tris, List.mem_cons, List.not_mem_nil, or_false] at ht
      rcases ht with rfl | rfl <;> (simp only [side]; ring_nf)
  · have hgood := p4 f hf
    cases f with
    | top => exact hgood.elim
    | wallX => exact hgood.elim
    | wallY y x0 x1 z z2 =>
      obtain ⟨-, g1, -⟩ := hgood
      have g1' : (x0:ℝ) < x1 := by exact_mod_cast g1
      have hc : 0 < res * (x1 - x0) := mul_pos hres (by linarith)
      rw [show (Face.wallY y x0 x1 z z2).Outside res q ↔ (z2 < z ∧ q.y < res * y) ∨ (z < z2 ∧ res * y < q.y) from Iff.rfl]
      refine Iff.trans ?_ (sgn2 _ _ _ _ _ hc)
      simp only [Face.tris, List.mem_cons, List.not_mem_nil, or_false] at ht
      rcases ht with rfl | rfl <;> (simp only [side]; ring_nf)

/-- C74 case: the two columns of height 10 are separated, and there is a step at the start of the grid. -/
example : Separated [[10], [10]] ∧ height [[10], [10]] 0 0 ≠ heightLeft [[10], [10]] 0 0 := by
  obtain ⟨hg, -, e0, e1⟩ := twoColumns
  have hv : ∀ x y, height [[10], [10]] x y = 10 ∨ height [[10], [10]] x y = 0 := by
    intro x y
    by_cases hx : x < 2 ∧ y < 1
    · have hy0 : y = 0 := by omega
      subst hy0
      have := hx.1
      interval_cases x
      · exact .inl e0
      · exact .inl e1
    · exact .inr (HeightMap.height_out hg (by omega))
  refine ⟨?_, by rw [e0]; norm_num [heightLeft]⟩
  intro x y x' y'
  rcases hv x y with h | h <;> rcases hv x' y' with h' | h' <;> rw [h, h'] <;> norm_num [abs_of_pos]

/-! ## C75 -/

/-- C75, partial: full statement: no cell is covered by two top rectangles; false, see
`C75_tops_disjoint_wrong`. The rectangles are made in the order of their first cells, and no rectangle starts at
a cell that an earlier one covers. -/
theorem C75_tops_disjoint_partial (grid : List (List ℝ)) (m n : ℕ) (res : ℝ) (hg : Rectangular grid m n) (hm : 0 < m)
    (hr : GridInRange grid m n res) :
    ∃ (h : HeightMap) (tops walls : List Face) (S : List (Vec3 × Vec3 × Vec3)),
      HeightMap.fromGrid grid res = .ok h ∧
      (∀ f ∈ tops, GoodTop grid m n f) ∧ tops.Pairwise Face.StartsOutside ∧
      (∀ f ∈ walls, WallXIn grid m n f ∨ WallYIn grid m n f) ∧
      soup h.mesh.points h.mesh.tris = some S ∧
      List.Forall₂ (fun c c' => SameCell3 c.1 c'.1 ∧ SameCell3 c.2.1 c'.2.1 ∧ SameCell3 c.2.2 c'.2.2)
        ((tops ++ walls).flatMap (Face.tris res)) S := by
  obtain ⟨h, F, WX, WY, S, e, ⟨p1, p1'⟩, p2, p3, p4, -, s1, s2, s3⟩ := HeightMap.fromGrid_ok hg hm hr
  refine ⟨h, F, WX ++ WY, S, e, p1, p1', ?_, s1, by rw [← List.append_assoc]; exact s2⟩
  intro f hf
  rw [List.mem_append] at hf
  exact hf.imp (p3 f) (p4 f)

/-- A grid with an L of three equal cells. -/
theorem lShape : Rectangular [[2, 1], [1, 1]] 2 2 ∧ GridInRange [[2, 1], [1, 1]] 2 2 1 ∧
    height [[2, 1], [1, 1]] 0 0 = 2 ∧ height [[2, 1], [1, 1]] 0 1 = 1 ∧ height [[2, 1], [1, 1]] 1 0 = 1 ∧
    height [[2, 1], [1, 1]] 1 1 = 1 := by
  refine ⟨⟨rfl, by simp⟩, HeightMap.small_inRange (by norm_num) (by norm_num) (by norm_num [abs_of_pos]) ?_, by simp [height],
    by simp [height], by simp [height], by simp [height]⟩
  intro row hrow v hv
  simp only [List.mem_cons, List.not_mem_nil, or_false] at hrow
  rcases hrow with rfl | rfl <;> simp only [List.mem_cons, List.not_mem_nil, or_false, or_self] at hv
  · rcases hv with rfl | rfl <;> norm_num [abs_of_pos]
  · subst hv; norm_num [abs_of_pos]

/-- C75 case. -/
example : Rectangular [[2, 1], [1, 1]] 2 2 ∧ GridInRange [[2, 1], [1, 1]] 2 2 1 ∧
    Face.StartsOutside (.top 0 1 2 2 1) (.top 1 0 2 2 1) :=
  ⟨lShape.1, lShape.2.1, by omega, fun h => by have := h.2.2.1; omega⟩

/-- The L of `lShape` has two overlapping top rectangles. -/
theorem lShape_tops {F : List Face} (p1 : ∀ f ∈ F, GoodTop [[2, 1], [1, 1]] 2 2 f)
    (p2 : ∀ x y, 0 < height [[2, 1], [1, 1]] x y → ∃ f ∈ F, f.Covers x y) :
    Face.top 1 0 2 2 1 ∈ F ∧ Face.top 0 1 2 2 1 ∈ F := by
  obtain ⟨-, -, e0, e1, e2, e3⟩ := lShape
  have hf : Face.top 1 0 2 2 1 ∈ F := by
    obtain ⟨f, hf, hcov⟩ := p2 1 0 (by rw [e2]; norm_num)
    have hgood := p1 f hf
    cases f with
    | wallX => exact hcov.elim
    | wallY => exact hcov.elim
    | top x0 y0 x1 y1 z =>
      obtain ⟨a1, a2, a3, a4⟩ := hcov
      obtain ⟨b1, b2, b3, b4, b5, b6, b7, b8, b9⟩ := hgood
      have hy0 : y0 = 0 := by omega
      subst hy0
      have hx0 : x0 = 1 := by
        by_contra hne
        have := b7 0 0 (by omega) (by omega) le_rfl (by omega)
        have h2 := b7 1 0 (by omega) (by omega) le_rfl (by omega)
        rw [e0, abs_le] at this
        rw [e2, abs_le] at h2
        norm_num at this h2
        linarith [this.1, this.2, h2.1, h2.2]
      subst hx0
      have hx1 : x1 = 2 := by omega
      subst hx1
      rw [e2] at b5
      subst b5
      have hy1 : y1 = 2 := by
        rcases b9 with h | h
        · exact h
        · by_contra hne
          have : y1 = 1 := by omega
          subst this
          rw [e3] at h
          norm_num at h
      subst hy1
      exact hf
  have hg : Face.top 0 1 2 2 1 ∈ F := by
    obtain ⟨f, hf, hcov⟩ := p2 0 1 (by rw [e1]; norm_num)
    have hgood := p1 f hf
    cases f with
    | wallX => exact hcov.elim
    | wallY => exact hcov.elim
    | top x0 y0 x1 y1 z =>
      obtain ⟨a1, a2, a3, a4⟩ := hcov
      obtain ⟨b1, b2, b3, b4, b5, b6, b7, b8, b9⟩ := hgood
      have hx0 : x0 = 0 := by omega
      subst hx0
      have hy0 : y0 = 1 := by
        by_contra hne
        have := b7 0 0 (by omega) (by omega) (by omega) (by omega)
        have h2 := b7 0 1 (by omega) (by omega) (by omega) (by omega)
        rw [e0, abs_le] at this
        rw [e1, abs_le] at h2
        norm_num at this h2
        linarith [this.1, this.2, h2.1, h2.2]
      subst hy0
      have hy1 : y1 = 2 := by omega
      subst hy1
      rw [e1] at b5
      subst b5
      have hx1 : x1 = 2 := by
        rcases b8 with h | ⟨y, y1, y2, h⟩
        · exact h
        · by_contra hne
          have : x1 = 1 := by omega
          subst this
          have : y = 1 := by omega
          subst this
          rw [e3] at h
          norm_num at h
      subst hx1
      exact hf
  exact ⟨hf, hg⟩

/-- C75 is violated by the code: for an L of three equal cells, two different triangles at the same height of the mesh
contain the point (1.7, 1.7, 1) in their interior. -/
theorem C75_tops_disjoint_wrong : ∃ h S, HeightMap.fromGrid [[2, 1], [1, 1]] 1 = .ok h ∧
    soup h.mesh.points h.mesh.tris = some S ∧
    ∃ t ∈ S, ∃ t' ∈ S, t ≠ t' ∧ InteriorPoint t ⟨1.7, 1.7, 1⟩ ∧ InteriorPoint t' ⟨1.7, 1.7, 1⟩ := by
  obtain ⟨hg, hr, e0, e1, e2, e3⟩ := lShape
  obtain ⟨h, F, WX, WY, S, e, ⟨p1, -⟩, p2, -, -, -, s1, s2, s3⟩ := HeightMap.fromGrid_ok hg (by norm_num) hr
  refine ⟨h, S, e, s1, ?_⟩
  -- vertices in the same cell are equal
  have hint : ∀ x y, ∃ k : ℤ, height [[2, 1], [1, 1]] x y = k := by
    intro x y
    by_cases hx : x < 2 ∧ y < 2
    · obtain ⟨hx, hy⟩ := hx
      interval_cases x <;> interval_cases y
      exacts [⟨2, by rw [e0]; norm_num⟩, ⟨1, by rw [e1]; norm_num⟩, ⟨1, by rw [e2]; norm_num⟩, ⟨1, by rw [e3]; norm_num⟩]
    · exact ⟨0, by rw [HeightMap.height_out hg (by omega)]; norm_num⟩
  have hcell : ∀ a b : ℤ, ∀ x y : ℝ, x = a → y = b → SameCell x y → y = x := by
    rintro a b _ _ rfl rfl ⟨k, hk⟩
    have : |(a - b : ℤ)| < 1 := by
      have h' : |(a:ℝ) - b| < 1 := by
        rcases hk with ⟨q1, q2, -⟩ | ⟨-, q1, q2, q3, q4⟩ | ⟨-, q1, q2, q3, q4⟩
        · rw [abs_lt] at q1 q2 ⊢
          constructor <;> linarith [q1.1, q1.2, q2.1, q2.2]
        · rw [abs_lt]; constructor <;> linarith
        · rw [abs_lt]; constructor <;> linarith
      exact_mod_cast h'
    have : a - b = 0 := Int.abs_lt_one_iff.1 this
    have : a = b := by omega
    rw [this]
  have hsame : ∀ (a b c : ℤ) (q : Vec3), q ∈ h.mesh.points → SameCell3 ⟨a, b, c⟩ q → q = ⟨a, b, c⟩ := by
    intro a b c q hq hs
    obtain ⟨x, y, -, -, ex, ey, x', y', ez⟩ := s3 q hq
    obtain ⟨k, hk⟩ := hint x' y'
    ext
    · exact hcell a x _ _ rfl (by rw [ex]; norm_num) hs.1
    · exact hcell b y _ _ rfl (by rw [ey]; norm_num) hs.2.1
    · exact hcell c k _ _ rfl (by rw [ez, hk]) hs.2.2
  have htri : ∀ (a1 a2 a3 b1 b2 b3 c1 c2 c3 : ℤ),
      ((⟨a1, a2, a3⟩ : Vec3), (⟨b1, b2, b3⟩ : Vec3), (⟨c1, c2, c3⟩ : Vec3)) ∈ F.flatMap (Face.tris 1) →
      ((⟨a1, a2, a3⟩ : Vec3), (⟨b1, b2, b3⟩ : Vec3), (⟨c1, c2, c3⟩ : Vec3)) ∈ S := by
    intro a1 a2 a3 b1 b2 b3 c1 c2 c3 hmem
    obtain ⟨t, ht, q1, q2, q3⟩ := forall₂_mem s2 (a := ((⟨a1, a2, a3⟩ : Vec3), (⟨b1, b2, b3⟩ : Vec3), (⟨c1, c2, c3⟩ : Vec3)))
      (by rw [List.flatMap_append, List.flatMap_append]; simp [hmem])
    obtain ⟨m1, m2, m3⟩ := soup_mem s1 ht
    rw [← hsame _ _ _ _ m1 q1, ← hsame _ _ _ _ m2 q2, ← hsame _ _ _ _ m3 q3]
    exact ht
  obtain ⟨hf, hg'⟩ := lShape_tops p1 p2
  have h1 := htri 2 0 1 2 2 1 1 2 1 (List.mem_flatMap.2 ⟨_, hf, by simp [Face.tris]⟩)
  have h2 := htri 2 1 1 2 2 1 0 2 1 (List.mem_flatMap.2 ⟨_, hg', by simp [Face.tris]⟩)
  refine ⟨_, h1, _, h2, ?_, ⟨0.15, 0.55, 0.3, ?_⟩, ⟨0.3, 0.55, 0.15, ?_⟩⟩
  · simp
  · norm_num
  · norm_num

end Geo
