import Verif.Lemmas.Single
import Verif.Lemmas.OctreeUse

/-!
# Properties C90 and C91: ray queries in single precision
-/

namespace Geo

open Spec

/-! ## C91 -/

/-- C91: for an oblique ray, the ray test of a box in single precision. If the line of the ray is in the box from
parameter `a` to parameter `b`, the test says whether the rounded `b` is after the start of the range and the rounded `a`
before its end, and the distance is the rounded `a`. And if the test says yes, there is a parameter in the range at which
the line is in the box, up to a relative error of `2^-23` of the parameter. -/
theorem C91_box (lo hi o d u : Vec3) (t0 t1 d0 : ℝ) (hp : Proper lo hi) (hu : UnitAlong d u) (hob : Oblique u) :
    (∀ a b, IsLeast {s | InBox lo hi (along o u s)} a → IsGreatest {s | InBox lo hi (along o u s)} b →
      (((Box.new lo hi).intersectRayF toFloat (Ray.new o d) t0 t1 d0).1 = true ↔ t0 < toFloat b ∧ toFloat a < t1) ∧
      ((Box.new lo hi).intersectRayF toFloat (Ray.new o d) t0 t1 d0).2 = toFloat a) ∧
    (t0 < t1 → ((Box.new lo hi).intersectRayF toFloat (Ray.new o d) t0 t1 d0).1 = true →
      ∃ s e, t0 < s ∧ s < t1 ∧ e = |s| / 2 ^ 23 ∧
        InBox ⟨lo.x - e, lo.y - e, lo.z - e⟩ ⟨hi.x + e, hi.y + e, hi.z + e⟩ (along o u s)) := by
  obtain ⟨ox, oy, oz⟩ := hob
  have hrnd : Rounding toFloat := toFloat_near
  obtain ⟨r1, r2⟩ := rayF_spec toFloat lo hi o d u t0 t1 d0 hu _ _ _ _ _ _ rfl rfl rfl rfl rfl rfl
  have sx := fun t => slab_mem (lo := lo.x) (hi := hi.x) (o := o.x) (t := t) ox
  have sy := fun t => slab_mem (lo := lo.y) (hi := hi.y) (o := o.y) (t := t) oy
  have sz := fun t => slab_mem (lo := lo.z) (hi := hi.z) (o := o.z) (t := t) oz
  have lx := slab_le (o := o.x) (u := u.x) hp.1
  have ly := slab_le (o := o.y) (u := u.y) hp.2.1
  have lz := slab_le (o := o.z) (u := u.z) hp.2.2
  have hmem : ∀ s, InBox lo hi (along o u s) ↔
      max (slabLo lo.z hi.z o.z u.z) (max (slabLo lo.y hi.y o.y u.y) (slabLo lo.x hi.x o.x u.x)) ≤ s ∧
      s ≤ min (slabHi lo.z hi.z o.z u.z) (min (slabHi lo.y hi.y o.y u.y) (slabHi lo.x hi.x o.x u.x)) := by
    intro s
    simp only [InBox, along, max_le_iff, le_min_iff]
    constructor
    · rintro ⟨x1, x2, y1, y2, z1, z2⟩
      have x := (sx s).2 ⟨x1, x2⟩
      have y := (sy s).2 ⟨y1, y2⟩
      have z := (sz s).2 ⟨z1, z2⟩
      exact ⟨⟨z.1, y.1, x.1⟩, z.2, y.2, x.2⟩
    · rintro ⟨⟨z1, y1, x1⟩, z2, y2, x2⟩
      have x := (sx s).1 ⟨x1, x2⟩
      have y := (sy s).1 ⟨y1, y2⟩
      have z := (sz s).1 ⟨z1, z2⟩
      exact ⟨x.1, x.2, y.1, y.2, z.1, z.2⟩
  have ux : |u.x| ≤ 1 := abs_le_of_sq_le_sq (by have := hu.1; nlinarith [sq_nonneg u.y, sq_nonneg u.z]) (by norm_num)
  have uy : |u.y| ≤ 1 := abs_le_of_sq_le_sq (by have := hu.1; nlinarith [sq_nonneg u.x, sq_nonneg u.z]) (by norm_num)
  have uz : |u.z| ≤ 1 := abs_le_of_sq_le_sq (by have := hu.1; nlinarith [sq_nonneg u.x, sq_nonneg u.y]) (by norm_num)
  -- a parameter in a rounded slab is near the slab
  have near : ∀ {lo hi o v L H s : ℝ}, |v| ≤ 1 → L ≤ H → (∀ t, (L ≤ t ∧ t ≤ H) ↔ (lo ≤ o + t * v ∧ o + t * v ≤ hi)) →
      toFloat L ≤ s → s ≤ toFloat H → lo - |s| / 2 ^ 23 ≤ o + s * v ∧ o + s * v ≤ hi + |s| / 2 ^ 23 := by
    intro lo hi o v L H s hv hLH hm h1 h2
    have key : ∃ s', L ≤ s' ∧ s' ≤ H ∧ |s - s'| ≤ |s| / 2 ^ 23 := by
      have aux : ∀ K : ℝ, |s - K| ≤ |K| / 2 ^ 24 → |s - K| ≤ |s| / 2 ^ 23 := by
        intro K hK
        have : |K| ≤ |s| + |s - K| := by
          have := abs_sub_abs_le_abs_sub K s
          rw [abs_sub_comm] at this
          linarith
        have e : |K| / 2 ^ 24 ≤ |K| / 2 := by
          have := abs_nonneg K
          rw [div_le_div_iff₀ (by norm_num) (by norm_num)]
          nlinarith
        have : |K| ≤ 2 * |s| := by linarith
        calc |s - K| ≤ |K| / 2 ^ 24 := hK
          _ ≤ (2 * |s|) / 2 ^ 24 := by gcongr
          _ = |s| / 2 ^ 23 := by ring
      rcases lt_or_ge s L with hs | hs
      · refine ⟨L, le_rfl, hLH, aux L ?_⟩
        have := abs_le.1 (hrnd L)
        rw [abs_of_neg (by linarith)]
        linarith
      · rcases lt_or_ge H s with hs' | hs'
        · refine ⟨H, hLH, le_rfl, aux H ?_⟩
          have := abs_le.1 (hrnd H)
          rw [abs_of_pos (by linarith)]
          linarith
        · exact ⟨s, hs, hs', by simp; positivity⟩
    obtain ⟨s', k1, k2, k3⟩ := key
    have hin := (hm s').1 ⟨k1, k2⟩
    have e : o + s * v = o + s' * v + (s - s') * v := by ring
    have : |(s - s') * v| ≤ |s| / 2 ^ 23 := by
      rw [abs_mul]
      calc |s - s'| * |v| ≤ |s - s'| * 1 := by gcongr
        _ ≤ _ := by rw [mul_one]; exact k3
    rw [abs_le] at this
    rw [e]
    constructor <;> linarith
  generalize slabLo lo.x hi.x o.x u.x = a1 at *
  generalize slabHi lo.x hi.x o.x u.x = a2 at *
  generalize slabLo lo.y hi.y o.y u.y = b1 at *
  generalize slabHi lo.y hi.y o.y u.y = b2 at *
  generalize slabLo lo.z hi.z o.z u.z = c1 at *
  generalize slabHi lo.z hi.z o.z u.z = c2 at *
  have mo := toFloat_mono
  constructor
  · intro a b ha hb
    have hab := (hmem a).1 ha.1
    have hne := hab.1.trans hab.2
    have hba := (hmem b).1 hb.1
    have ea : a = max c1 (max b1 a1) := le_antisymm (ha.2 ((hmem _).2 ⟨le_rfl, hne⟩)) hab.1
    have eb : b = min c2 (min b2 a2) := le_antisymm hba.2 (hb.2 ((hmem _).2 ⟨hne, le_rfl⟩))
    simp only [max_le_iff, le_min_iff] at hne
    obtain ⟨⟨q1, q2, q3⟩, ⟨q4, q5, q6⟩, ⟨q7, q8, q9⟩⟩ := hne
    have ok : toFloat a1 ≤ toFloat b2 ∧ toFloat b1 ≤ toFloat a2 ∧ max (toFloat b1) (toFloat a1) ≤ toFloat c2 ∧
        toFloat c1 ≤ min (toFloat b2) (toFloat a2) :=
      ⟨mo q6, mo q8, max_le (mo q2) (mo q3), le_min (mo q4) (mo q7)⟩
    rw [r1, r2 ok, ea, eb, mo.map_max, mo.map_max, mo.map_min, mo.map_min]
    simp [ok]
  · intro ht hflag
    obtain ⟨⟨i1, i2, i3, i4⟩, f1, f2⟩ := r1.1 hflag
    have i3' := max_le_iff.1 i3
    have i4' := le_min_iff.1 i4
    have hle : max (toFloat c1) (max (toFloat b1) (toFloat a1)) ≤ min (toFloat c2) (min (toFloat b2) (toFloat a2)) :=
      max_le (le_min (mo lz) i4) (max_le (le_min i3'.1 (le_min (mo ly) i2)) (le_min i3'.2 (le_min i1 (mo lx))))
    obtain ⟨s, s1, s2, s3, s4⟩ : ∃ s, max (toFloat c1) (max (toFloat b1) (toFloat a1)) ≤ s ∧
        s ≤ min (toFloat c2) (min (toFloat b2) (toFloat a2)) ∧ t0 < s ∧ s < t1 := by
      rcases hle.lt_or_eq with h | h
      · obtain ⟨s, h1, h2⟩ := exists_between (max_lt (lt_min f1 ht) (lt_min h f2))
        exact ⟨s, (le_max_right _ _).trans h1.le, h2.le.trans (min_le_left _ _), (le_max_left _ _).trans_lt h1,
          h2.trans_le (min_le_right _ _)⟩
      · exact ⟨_, le_rfl, hle, h ▸ f1, f2⟩
    simp only [max_le_iff, le_min_iff] at s1 s2
    refine ⟨s, _, s3, s4, rfl, ?_⟩
    obtain ⟨x1, x2⟩ := near ux lx sx s1.2.2 s2.2.2
    obtain ⟨y1, y2⟩ := near uy ly sy s1.2.1 s2.2.1
    obtain ⟨z1, z2⟩ := near uz lz sz s1.1 s2.1
    exact ⟨x1, x2, y1, y2, z1, z2⟩

/-- C91 case: the unit box seen from (-1, -2, -2): the line is in it from parameter 3 to 4.5. -/
example : Proper ⟨0, 0, 0⟩ ⟨1, 1, 1⟩ ∧ UnitAlong ⟨1, 2, 2⟩ ⟨1 / 3, 2 / 3, 2 / 3⟩ ∧ Oblique ⟨1 / 3, 2 / 3, 2 / 3⟩ ∧
    IsLeast {s | InBox ⟨0, 0, 0⟩ ⟨1, 1, 1⟩ (along ⟨-1, -2, -2⟩ ⟨1 / 3, 2 / 3, 2 / 3⟩ s)} 3 ∧
    IsGreatest {s | InBox ⟨0, 0, 0⟩ ⟨1, 1, 1⟩ (along ⟨-1, -2, -2⟩ ⟨1 / 3, 2 / 3, 2 / 3⟩ s)} 4.5 := by
  refine ⟨by norm_num [Proper], unit122.1, unit122.2, ⟨by norm_num [InBox, along], ?_⟩, ⟨by norm_num [InBox, along], ?_⟩⟩
  · rintro s ⟨h, -⟩
    simp only [along] at h
    linarith
  · rintro s ⟨-, -, -, h, -⟩
    simp only [along] at h
    norm_num
    linarith

/-! ## C90 -/

/-- C90, partial: full statement: with the parameters held in `float`, casting and tracing a ray ends for every tree, ray
and range, and a reported hit is at a point of an occupied cube. Proved for ranges from 0 on and rays that are in the tree
for no parameter beyond 800000 cells. The hit is at a point of an occupied cube if the tree has more than one cell, and
then the parameter of that point is the written distance plus a tenth of a cell, rounded, unless the distance was left
unwritten. For rays from further away see `C90_stuck_wrong`. -/
theorem C90_ends_partial (size : ℝ) (t : Octree) (S : ℕ × ℕ × ℕ → Prop) (h : OctReach size t)
    (hS : Shows t t.resolution t.offset S) (o d u : Vec3) (hu : UnitAlong d u) (t0 t1 d0 : ℝ) (h0 : 0 ≤ t0)
    (hfar : ∀ s, InBox t.offset t.max (along o u s) → s ≤ 800000 * t.resolution) :
    (∃ hit d', t.intersectRayF toFloat (Ray.new o d) t0 t1 d0 = .ok (hit, d') ∧
      (hit = true → t.resolution < size → ∃ s c, S c ∧
        InBox (cellLo t.resolution t.offset c) (cellHi t.resolution t.offset c) (along o u s) ∧
        (d' = d0 ∨ s = toFloat (d' + t.resolution * 0.1)))) ∧
    ∃ t', t.raytraceF toFloat (Ray.new o d) t0 t1 = .ok t' := by
  obtain ⟨k, hg⟩ := Octree.reach_good h
  have hS' := Octree.shows_unique hg.pos hS (Octree.good_shows hg)
  have hfar' : ∀ s, OctNode.InCube size (along (o - t.offset) u s) → s ≤ 800000 * t.resolution := by
    intro s hs
    rw [OctNode.along_sub, Octree.cube_iff hg] at hs
    exact hfar s hs
  constructor
  · cases hhit : ((Box.new t.offset t.max).intersectRayF toFloat (Ray.new o d) t0 t1 0).1 with
    | false =>
      refine ⟨false, d0, ?_, fun h => by simp at h⟩
      unfold Octree.intersectRayF
      simp [hhit]
    | true =>
      obtain ⟨hit, d', f, a1, a2⟩ := Octree.intersectRayF_good toFloat_near hg hu h0 t1 d0 hfar' hhit
      refine ⟨hit, d', a1, ?_⟩
      rintro rfl hsz
      obtain ⟨s, c, c1, c2, c3⟩ := OctNode.intersectRayF_sound (Octree.unit_of hu) t1 f k t.root _ _ d0 d'
        (Octree.root_wf hg) a2
      refine ⟨s, c, by rw [hS']; exact c1, ?_, ?_⟩
      · have hk : k ≠ 0 := by
          rintro rfl
          have := hg.res
          simp at this
          linarith
        replace c2 := c2.resolve_right (fun h => hk h.1)
        rw [OctNode.along_sub, Octree.near_iff] at c2
        exact c2
      · rcases c3 with ⟨-, rfl⟩ | c3
        · exact Or.inl rfl
        · exact Or.inr c3
  · obtain ⟨t', a1, -⟩ := Octree.raytraceF_good toFloat_near hg hu h0 t1 hfar'
    exact ⟨t', a1⟩

/-- C90 case: a hit in single precision. -/
example : ∃ t S, OctReach 2 t ∧ Shows t t.resolution t.offset S ∧ S (1, 1, 1) ∧
    (∀ s, InBox t.offset t.max (along ⟨-3, -6, -6⟩ ⟨1 / 3, 2 / 3, 2 / 3⟩ s) → s ≤ 800000 * t.resolution) ∧
    t.resolution < 2 := by
  obtain ⟨t0, t, h1, h2, h3, h4, h5, h6, h7, h8, h9⟩ := tree2
  refine ⟨t, _, h5, Octree.good_shows h3, (h8 _).2 rfl, ?_, by rw [h4]; norm_num⟩
  rintro s ⟨-, h, -⟩
  rw [h7] at h
  simp only [along] at h
  rw [h4]
  linarith

/-- C90 fails: an empty tree of one cell of size 1, and a ray through its centre from 2^26 cells away. The step of a tenth
of a cell is lost in rounding, and neither casting nor tracing ends. -/
theorem C90_stuck_wrong : ∃ t, Octree.new 1 1 = .ok t ∧ UnitAlong ⟨1, 2, 2⟩ ⟨1 / 3, 2 / 3, 2 / 3⟩ ∧
    (∀ d0, t.intersectRayF toFloat (Ray.new ⟨-2 ^ 26 / 3, -2 ^ 27 / 3, -2 ^ 27 / 3⟩ ⟨1, 2, 2⟩) 0 (2 ^ 27) d0 = .error .hang) ∧
    t.raytraceF toFloat (Ray.new ⟨-2 ^ 26 / 3, -2 ^ 27 / 3, -2 ^ 27 / 3⟩ ⟨1, 2, 2⟩) 0 (2 ^ 27) = .error .hang := by
  have ht := Octree.new_eq (size := 1) (r := 1) 0 (by norm_num) (by simp)
  have hu := unit122.1
  have hun := Octree.unit_of hu
  have near : ∀ x : ℝ, |x - 2 ^ 26| < 2 → toFloat x = 2 ^ 26 := by
    intro x hx
    obtain ⟨h1, h2⟩ := abs_lt.1 hx
    norm_num at h1 h2
    rcases lt_or_ge x (2 ^ 26) with h | h
    · rw [toFloat_eq (x := x) 2 (m := 2 ^ 24) (by norm_num; linarith) (by norm_num at h ⊢; linarith)
        (by rw [abs_lt]; norm_num; constructor <;> linarith)]
      norm_num
    · rw [toFloat_eq (x := x) 3 (m := 2 ^ 23) (by norm_num at h ⊢; linarith) (by norm_num; linarith)
        (by rw [abs_lt]; norm_num; constructor <;> linarith)]
      norm_num
  set o : Vec3 := ⟨-2 ^ 26 / 3, -2 ^ 27 / 3, -2 ^ 27 / 3⟩ with ho
  set u : Vec3 := ⟨1 / 3, 2 / 3, 2 / 3⟩ with hu'
  have sl : ∀ lo hi p v : ℝ, 1e-9 < v → slabLo lo hi p v = (lo - p) * (1 / v) ∧ slabHi lo hi p v = (hi - p) * (1 / v) := by
    intro lo hi p v hv
    unfold slabLo slabHi invComponent
    have : 1e-9 < |v| := hv.trans_le (le_abs_self _)
    have h3 : ¬ v < 0 := by norm_num at hv ⊢; linarith
    simp [not_lt.2 this.le, h3]
  have t1 : ∀ q : ℝ, |q| < 2 → toFloat (2 ^ 26 + q) = 2 ^ 26 := fun q hq => near _ (by simpa using hq)
  -- the cube of the tree is hit, at the rounded distance of its centre
  have hit := rayF_spec toFloat ⟨-1 / 2, -1 / 2, -1 / 2⟩ ⟨1 / 2, 1 / 2, 1 / 2⟩ o ⟨1, 2, 2⟩ u 0 (2 ^ 27) 0 hu
    (2 ^ 26) (2 ^ 26) (2 ^ 26) (2 ^ 26) (2 ^ 26) (2 ^ 26)
    (by rw [(sl _ _ _ _ (by norm_num [hu'])).1, ← t1 (-1.5) (by norm_num [abs_lt])]; congr 1; norm_num [ho, hu'])
    (by rw [(sl _ _ _ _ (by norm_num [hu'])).2, ← t1 1.5 (by norm_num [abs_lt])]; congr 1; norm_num [ho, hu'])
    (by rw [(sl _ _ _ _ (by norm_num [hu'])).1, ← t1 (-0.75) (by norm_num [abs_lt])]; congr 1; norm_num [ho, hu'])
    (by rw [(sl _ _ _ _ (by norm_num [hu'])).2, ← t1 0.75 (by norm_num [abs_lt])]; congr 1; norm_num [ho, hu'])
    (by rw [(sl _ _ _ _ (by norm_num [hu'])).1, ← t1 (-0.75) (by norm_num [abs_lt])]; congr 1; norm_num [ho, hu'])
    (by rw [(sl _ _ _ _ (by norm_num [hu'])).2, ← t1 0.75 (by norm_num [abs_lt])]; congr 1; norm_num [ho, hu'])
  norm_num at hit
  obtain ⟨hit1, hit2⟩ := hit
  -- the probe is the centre of the cube and stays there
  have hp : along (o - ⟨-1 / 2, -1 / 2, -1 / 2⟩) u (2 ^ 26) = ⟨1 / 2, 1 / 2, 1 / 2⟩ := by
    apply Vec3.ext <;> norm_num [along, ho, hu']
  have hin : OctNode.InCube 1 (along (o - ⟨-1 / 2, -1 / 2, -1 / 2⟩) u (2 ^ 26)) := by
    rw [hp]; norm_num [OctNode.InCube]
  have hnext : OctNode.nextTF toFloat 1 1 (o - ⟨-1 / 2, -1 / 2, -1 / 2⟩) u (2 ^ 26) (2 ^ 27) = 2 ^ 26 := by
    have h1 := OctNode.exitF_le toFloat_near hun (OctNode.inOct_octOf hin) (toFloat (2 ^ 27 - 2 ^ 26))
    have h2 : -1 ≤ OctNode.exitDistF toFloat 1 true true true ⟨1 / 2, 1 / 2, 1 / 2⟩ u (toFloat (2 ^ 27 - 2 ^ 26)) := by
      have hz : toFloat (slabLo (1 / 2) (1 / 2 + 1 / 2) (1 / 2) (-(2 / 3))) = toFloat (-0.75) := by
        congr 1
        unfold slabLo invComponent
        norm_num [abs_lt]
      have hz' := (Rounding.nonpos toFloat_near (x := -0.75) (by norm_num)).1
      unfold OctNode.exitDistF
      simp only
      rw [OctNode.insideF_written toFloat_near _ _ _ _ _ _ (by
        show InBox (OctNode.shift 1 true true true) ⟨_, _, _⟩ _
        norm_num [InBox, OctNode.shift]),
        hun.neg.normalized]
      refine le_trans ?_ (le_max_left _ _)
      have e : toFloat (slabLo (OctNode.shift 1 true true true).z ((OctNode.shift 1 true true true).z + 1 / 2) (1 / 2) (-u).z) =
          toFloat (-0.75) := by rw [← hz]; simp [OctNode.shift, hu']
      show -1 ≤ toFloat (slabLo (OctNode.shift 1 true true true).z ((OctNode.shift 1 true true true).z + 1 / 2) (1 / 2) (-u).z)
      rw [e]
      norm_num at hz' ⊢
      linarith
    have h3 : OctNode.octOf 1 (⟨1 / 2, 1 / 2, 1 / 2⟩ : Vec3) = (true, true, true) := by
      simp [OctNode.octOf]
    unfold OctNode.nextTF OctNode.nextD
    rw [hp, h3] at h1 ⊢
    simp only at h1 ⊢
    generalize OctNode.exitDistF _ _ _ _ _ _ _ _ = e at *
    refine near _ ?_
    rw [abs_lt]
    constructor <;> norm_num <;> linarith
  have hstart : toFloat (0 + Max.max ((2:ℝ) ^ 26) 0 + 1 / 2 ^ 0 * 0.1) = 2 ^ 26 := by
    refine near _ ?_
    rw [max_eq_left (by norm_num), abs_lt]
    constructor <;> norm_num
  have hnew : OctNode.new 1 = .node 1 false fun _ => .null := rfl
  have hs1 : ∀ f d, OctNode.intersectRayF toFloat 1 f (.node 1 false fun _ => .null)
      (Ray.new (o - ⟨-1 / 2, -1 / 2, -1 / 2⟩) u) (2 ^ 26) (2 ^ 27) d = .error .hang := by
    intro f
    induction f with
    | zero => intro d; rfl
    | succ f ih =>
      intro d
      rw [OctNode.intersectRayF_null hun hin rfl, hnext]
      exact ih _
  have hs2 : ∀ f, OctNode.raytraceF toFloat 1 f (.node 1 false fun _ => .null)
      (o - ⟨-1 / 2, -1 / 2, -1 / 2⟩) u (2 ^ 26) (2 ^ 27) = .error .hang := by
    intro f
    induction f with
    | zero => rfl
    | succ f ih =>
      rw [OctNode.raytraceF_null (by norm_num) hin rfl, hnext]
      exact ih
  have hbox : ((Box.new ⟨-1 / 2, -1 / 2, -1 / 2⟩ ⟨1 / 2, 1 / 2, 1 / 2⟩).intersectRayF toFloat (Ray.new o ⟨1, 2, 2⟩) 0
      (2 ^ 27) 0) = (true, 2 ^ 26) := by
    apply Prod.ext
    · norm_num; exact hit1
    · norm_num; exact hit2
  refine ⟨_, ht, hu, fun d0 => ?_, ?_⟩
  · unfold Octree.intersectRayF
    simp only [hbox, hstart]
    rw [show (Ray.new o ⟨1, 2, 2⟩).direction = u from unitAlong_normalized hu, hnew,
      show (1:ℝ) / 2 ^ 0 = 1 by norm_num]
    simp only [Bool.not_true, Bool.false_eq_true, if_false]
    unfold unbounded
    rw [dif_neg]
    push Not
    exact fun n => hs1 n d0
  · unfold Octree.raytraceF
    simp only [hbox, hstart]
    rw [show (Ray.new o ⟨1, 2, 2⟩).direction = u from unitAlong_normalized hu, hnew,
      show (1:ℝ) / 2 ^ 0 = 1 by norm_num]
    simp only [Bool.not_true, Bool.false_eq_true, if_false]
    unfold unbounded
    rw [dif_neg]
    · rfl
    push Not
    exact fun n => hs2 n

end Geo
