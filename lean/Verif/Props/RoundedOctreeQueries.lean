import Verif.Lemmas.RoundedOctreeQueries
import Verif.Props.RoundedMesh
import Verif.Props.RoundedOctree

/-!
# Property theorems C136: queries of octrees in floating point arithmetic
-/

namespace Geo
open Spec

/-- C136, model: without roundings the functions are those of `Model/Octree`. -/
theorem C136_exact (t : Octree) (p : Vec3) (b : Box) :
    Rounded.octContains id t p = t.contains p ∧ Rounded.octBox id t b = t.intersectBox b ∧ Rounded.octMesh id t = t.getMesh ∧
      Rounded.octBoundingBox id t = t.getBoundingBox := by
  have hm : Rounded.octMesh id t = t.getMesh := by
    unfold Rounded.octMesh Octree.getMesh
    rw [(C120_exact 0 0 t p []).2.2.1, (C130_exact _ 0).1]
  refine ⟨?_, ?_, hm, ?_⟩
  · unfold Rounded.octContains Octree.contains
    simp only [nodeContains_id]
    rfl
  · unfold Rounded.octBox Octree.intersectBox
    simp only [nodeBox_id]
    rfl
  · unfold Rounded.octBoundingBox Octree.getBoundingBox
    rw [hm]

/-- C136, boxes: with roundings to `double`, if the query with a box finds something, then the box widened by size / 2^53 meets a cell of the
tree in a point of the tree; and if the box narrowed by as much meets one, the query finds something. -/
theorem C136_box (size : ℝ) (hs : toDouble size = size) (t : Octree) (n : ℕ) (S : ℕ × ℕ × ℕ → Prop) (h : OctReach size t)
    (hn : t.resolution * n = size) (hS : Shows t t.resolution t.offset S) (b : Box) (hb : Proper b.lo b.hi) {e : ℝ}
    (he : e = size / 2 ^ 53) :
    (Rounded.octBox toDouble t b = true → ∃ q c, InWide e b q ∧ InBox t.offset t.max q ∧ InCell t.resolution n t.offset c q ∧ S c) ∧
    ((∃ q c, InWide (-e) b q ∧ InBox t.offset t.max q ∧ InCell t.resolution n t.offset c q ∧ S c) → Rounded.octBox toDouble t b = true) := by
  obtain ⟨k, hg⟩ := Octree.reach_good h
  have hpos := hg.size_pos
  have he0 : 0 ≤ e := by rw [he]; positivity
  have lo : ∀ x : ℝ, x ≤ size / 2 → |Octree.snap size (max x (-size / 2)) - max x (-size / 2)| ≤ e := fun x hx => by
    rw [he]; exact (Octree.snap_near hs (le_max_right _ _) (max_le hx (by linarith))).2
  have hi : ∀ x : ℝ, -size / 2 ≤ x → |Octree.snap size (min x (size / 2)) - min x (size / 2)| ≤ e := fun x hx => by
    rw [he]; exact (Octree.snap_near hs (le_min hx (by linarith)) (min_le_right _ _)).2
  have prop : ∀ x y : ℝ, x ≤ y → x ≤ size / 2 → -size / 2 ≤ y →
      Octree.snap size (max x (-size / 2)) ≤ Octree.snap size (min y (size / 2)) := fun x y h1 h2 h3 =>
    Octree.snap_mono size (max_le (le_min h1 h2) (le_min h3 (by linarith)))
  have main := fun (h1 : -size / 2 ≤ b.hi.x ∧ -size / 2 ≤ b.hi.y ∧ -size / 2 ≤ b.hi.z)
      (h2 : b.lo.x ≤ size / 2 ∧ b.lo.y ≤ size / 2 ∧ b.lo.z ≤ size / 2) =>
    C38_box size t n S h hn hS (Box.new
      (Octree.snap3 size ⟨max b.lo.x (-size / 2), max b.lo.y (-size / 2), max b.lo.z (-size / 2)⟩)
      (Octree.snap3 size ⟨min b.hi.x (size / 2), min b.hi.y (size / 2), min b.hi.z (size / 2)⟩)) (by
        rw [Box.new_lo, Box.new_hi]
        exact ⟨prop _ _ hb.1 h2.1 h1.1, prop _ _ hb.2.1 h2.2.1 h1.2.1, prop _ _ hb.2.2 h2.2.2 h1.2.2⟩)
  constructor
  · intro ht
    have hin : (-size / 2 ≤ b.hi.x ∧ -size / 2 ≤ b.hi.y ∧ -size / 2 ≤ b.hi.z) ∧
        (b.lo.x ≤ size / 2 ∧ b.lo.y ≤ size / 2 ∧ b.lo.z ≤ size / 2) := by
      unfold Rounded.octBox at ht
      split_ifs at ht with hc
      rw [hg.off, hg.max] at hc
      push Not at hc
      exact ⟨⟨hc.1, hc.2.1, hc.2.2.1⟩, hc.2.2.2.1, hc.2.2.2.2.1, hc.2.2.2.2.2⟩
    obtain ⟨h1, h2⟩ := hin
    rw [Octree.octBox_snap hg hs h1 h2, main h1 h2, Box.new_lo, Box.new_hi] at ht
    obtain ⟨q, c, ⟨q1, q2, q3, q4, q5, q6⟩, r⟩ := ht
    refine ⟨q, c, ?_, r⟩
    have low : ∀ x y : ℝ, x ≤ size / 2 → Octree.snap size (max x (-size / 2)) ≤ y → x - e ≤ y := fun x y a1 a2 => by
      have := abs_le.1 (lo x a1)
      linarith [le_max_left x (-size / 2), this.1]
    have high : ∀ x y : ℝ, -size / 2 ≤ x → y ≤ Octree.snap size (min x (size / 2)) → y ≤ x + e := fun x y a1 a2 => by
      have := abs_le.1 (hi x a1)
      linarith [min_le_left x (size / 2), this.2]
    exact ⟨low _ _ h2.1 q1, high _ _ h1.1 q2, low _ _ h2.2.1 q3, high _ _ h1.2.1 q4, low _ _ h2.2.2 q5, high _ _ h1.2.2 q6⟩
  · rintro ⟨q, c, ⟨q1, q2, q3, q4, q5, q6⟩, hq, r⟩
    have hq' := hq
    rw [hg.off, hg.max] at hq'
    obtain ⟨o1, o2, o3, o4, o5, o6⟩ := hq'
    simp only at q1 q2 q3 q4 q5 q6 o1 o2 o3 o4 o5 o6
    have h1 : -size / 2 ≤ b.hi.x ∧ -size / 2 ≤ b.hi.y ∧ -size / 2 ≤ b.hi.z := ⟨by linarith, by linarith, by linarith⟩
    have h2 : b.lo.x ≤ size / 2 ∧ b.lo.y ≤ size / 2 ∧ b.lo.z ≤ size / 2 := ⟨by linarith, by linarith, by linarith⟩
    rw [Octree.octBox_snap hg hs h1 h2, main h1 h2, Box.new_lo, Box.new_hi]
    refine ⟨q, c, ?_, hq, r⟩
    have low : ∀ x y : ℝ, x ≤ size / 2 → -size / 2 ≤ y → x - -e ≤ y → Octree.snap size (max x (-size / 2)) ≤ y := fun x y a1 a2 a3 => by
      rcases le_total x (-size / 2) with c | c
      · rw [max_eq_right c, Octree.snap_low]; exact a2
      · have := abs_le.1 (lo x a1)
        rw [max_eq_left c] at this ⊢
        linarith [this.2]
    have high : ∀ x y : ℝ, -size / 2 ≤ x → y ≤ size / 2 → y ≤ x + -e → y ≤ Octree.snap size (min x (size / 2)) := fun x y a1 a2 a3 => by
      rcases le_total x (size / 2) with c | c
      · have := abs_le.1 (hi x a1)
        rw [min_eq_left c] at this ⊢
        linarith [this.1]
      · rw [min_eq_right c, Octree.snap_high hs]; exact a2
    exact ⟨low _ _ h2.1 o1 q1, high _ _ h1.1 o2 q2, low _ _ h2.2.1 o3 q3, high _ _ h1.2.1 o4 q4, low _ _ h2.2.2 o5 q5, high _ _ h1.2.2 o6 q6⟩

/-- C136, added points: after any additions of points of the tree and clearings, with roundings in all operations, the query with a box that
holds a point added since the last clearing finds something; no margin is needed. -/
theorem C136_added (size request : ℝ) (hs : toDouble size = size) (hpos : 0 < size) (hr : 0 < request) (t0 : Octree)
    (h0 : Rounded.octNew toDouble size request = .ok t0) (h1 : 1e-10 ≤ t0.resolution) (h2 : t0.resolution ≤ 2 ^ 19)
    (ops : List (Option Vec3))
    (hp : ∀ p, some p ∈ ops → InBox ⟨-size / 2, -size / 2, -size / 2⟩ ⟨size / 2, size / 2, size / 2⟩ p) :
    ∃ t, Rounded.octRun toDouble ops t0 = .ok t ∧
      ∀ b : Box, ∀ p ∈ kept ops [], InBox b.lo b.hi p → Rounded.octBox toDouble t b = true := by
  have h0' : Octree.new size request = .ok t0 := by rw [← Octree.octNew_eq hs]; exact h0
  obtain ⟨k, hg0, -, hm, -⟩ := Octree.good_new hr h0' h1
  obtain ⟨t, e1, e2, hg, -⟩ := Octree.octRun_snap hs ops t0 hg0 h2 hp (by rw [hm]; rfl) (by rw [hm]; rfl)
  refine ⟨t, e1, fun b p hk hb => ?_⟩
  have hin : InBox ⟨-size / 2, -size / 2, -size / 2⟩ ⟨size / 2, size / 2, size / 2⟩ p := by
    refine hp p ?_
    have : ∀ (os : List (Option Vec3)) (ps : List Vec3), p ∈ kept os ps → p ∈ ps ∨ some p ∈ os := by
      intro os
      induction os with
      | nil => intro ps h; exact .inl h
      | cons o os ih =>
        intro ps h
        cases o with
        | none =>
          rcases ih [] h with h | h
          · simp at h
          · exact .inr (by simp [h])
        | some q =>
          rcases ih _ h with h | h
          · rcases List.mem_append.1 h with h | h
            · exact .inl h
            · exact .inr (by rw [List.mem_singleton] at h; simp [h])
          · exact .inr (by simp [h])
    rcases this ops [] hk with h | h
    · simp at h
    · exact h
  obtain ⟨o1, o2, o3, o4, o5, o6⟩ := hin
  obtain ⟨b1, b2, b3, b4, b5, b6⟩ := hb
  simp only at o1 o2 o3 o4 o5 o6
  have g1 : -size / 2 ≤ b.hi.x ∧ -size / 2 ≤ b.hi.y ∧ -size / 2 ≤ b.hi.z := ⟨by linarith, by linarith, by linarith⟩
  have g2 : b.lo.x ≤ size / 2 ∧ b.lo.y ≤ size / 2 ∧ b.lo.z ≤ size / 2 := ⟨by linarith, by linarith, by linarith⟩
  have low : ∀ x y : ℝ, -size / 2 ≤ y → x ≤ y → Octree.snap size (max x (-size / 2)) ≤ Octree.snap size y := fun x y a1 a2 =>
    Octree.snap_mono size (max_le a2 a1)
  have high : ∀ x y : ℝ, y ≤ size / 2 → y ≤ x → Octree.snap size y ≤ Octree.snap size (min x (size / 2)) := fun x y a1 a2 =>
    Octree.snap_mono size (le_min a2 a1)
  have l1 := low _ _ o1 b1
  have l2 := low _ _ o3 b3
  have l3 := low _ _ o5 b5
  have u1 := high _ _ o2 b2
  have u2 := high _ _ o4 b4
  have u3 := high _ _ o6 b6
  have hun : Untraced (asOps (ops.map (Option.map (Octree.snap3 size)))) := by
    intro r a b h
    obtain ⟨o, -, ho⟩ := List.mem_map.1 h
    cases o <;> cases ho
  rw [Octree.octBox_snap hg hs g1 g2]
  refine (C38_added_partial size request t0 t _ hpos hr h0' h1 hun e2 _ ?_).1 (Octree.snap3 size p) ?_ ?_ ?_
  · rw [Box.new_lo, Box.new_hi]
    exact ⟨l1.trans u1, l2.trans u2, l3.trans u3⟩
  · rw [kept_live]
    have := Octree.kept_map (Octree.snap3 size) ops []
    rw [List.map_nil] at this
    rw [this]
    exact List.mem_map_of_mem hk
  · rw [Box.new_lo, Box.new_hi]
    exact ⟨l1, u1, l2, u2, l3, u3⟩
  · rw [hg.off, hg.max]
    have n1 := (Octree.snap_near hs o1 o2).1
    have n2 := (Octree.snap_near hs o3 o4).1
    have n3 := (Octree.snap_near hs o5 o6).1
    exact ⟨n1.1, n1.2, n2.1, n2.2, n3.1, n3.2⟩

/-- C136, points: with roundings to `double` the query with a point is false outside the tree; inside, it is decided by the cell of a point that
differs by at most size / 2^53 along each axis: as with real numbers (`C37_computed`), it tells whether the tree has the cell whose number
has all digits below the leading one set. -/
theorem C136_contains (size : ℝ) (hs : toDouble size = size) (t : Octree) (n : ℕ) (S : ℕ × ℕ × ℕ → Prop) (h : OctReach size t)
    (hn : t.resolution * n = size) (hS : Shows t t.resolution t.offset S) (p : Vec3) :
    (¬ InBox t.offset t.max p → Rounded.octContains toDouble t p = false) ∧
    (InBox t.offset t.max p → ∃ p', Moved (size / 2 ^ 53) p' p ∧ InBox t.offset t.max p' ∧
      ∀ a b c i j l : ℕ, InCell t.resolution n t.offset (a, b, c) p' → a < 2 ^ i ∧ (i = 0 ∨ 2 ^ (i - 1) ≤ a) →
        b < 2 ^ j ∧ (j = 0 ∨ 2 ^ (j - 1) ≤ b) → c < 2 ^ l ∧ (l = 0 ∨ 2 ^ (l - 1) ≤ c) →
        (Rounded.octContains toDouble t p = true ↔ S (2 ^ i - 1, 2 ^ j - 1, 2 ^ l - 1))) := by
  obtain ⟨k, hg⟩ := Octree.reach_good h
  constructor
  · intro hout
    unfold Rounded.octContains
    rw [if_pos]
    by_contra hc
    push Not at hc
    exact hout ⟨hc.1, hc.2.2.2.1, hc.2.1, hc.2.2.2.2.1, hc.2.2.1, hc.2.2.2.2.2⟩
  · intro hin
    rw [hg.off, hg.max] at hin
    have n1 := Octree.snap_near hs hin.1 hin.2.1
    have n2 := Octree.snap_near hs hin.2.2.1 hin.2.2.2.1
    have n3 := Octree.snap_near hs hin.2.2.2.2.1 hin.2.2.2.2.2
    have hin' : InBox t.offset t.max (Octree.snap3 size p) := by
      rw [hg.off, hg.max]
      exact ⟨n1.1.1, n1.1.2, n2.1.1, n2.1.2, n3.1.1, n3.1.2⟩
    refine ⟨Octree.snap3 size p, ⟨n1.2, n2.2, n3.2⟩, hin', fun a b c i j l hc ha hb hl => ?_⟩
    rw [Octree.octContains_snap hg hs hin]
    exact C37_computed size t n S h hn hS _ hin' hc ha hb hl

/-- C136, mesh: after any additions of points of the tree and clearings, with roundings in all operations, the mesh of a tree smaller than
4000 km has the triangles of the listed cubes, their corners moved within millimetre cells. -/
theorem C136_mesh (size request : ℝ) (hs : toDouble size = size) (hpos : 0 < size) (hr : 0 < request) (t0 : Octree)
    (h0 : Rounded.octNew toDouble size request = .ok t0) (h1 : 1e-10 ≤ t0.resolution) (h2 : t0.resolution ≤ 2 ^ 19)
    (ops : List (Option Vec3))
    (hp : ∀ p, some p ∈ ops → InBox ⟨-size / 2, -size / 2, -size / 2⟩ ⟨size / 2, size / 2, size / 2⟩ p) (N : ℕ)
    (hN : t0.resolution * 2 ^ N = size) (hN' : N ≤ 2 ^ 40) (hsize : size < 4000000) :
    ∃ t, Rounded.octRun toDouble ops t0 = .ok t ∧ ((Rounded.octCubes toDouble t).length ≤ 2 ^ 29 →
      ∃ t' m l, Rounded.octMesh toDouble t = .ok (t', m) ∧ Rounded.octCubes toDouble t' = Rounded.octCubes toDouble t ∧
        soup m.points m.tris = some l ∧ (∀ p ∈ m.points, ∃ b ∈ Rounded.octCubes toDouble t, p ∈ corners8 b.lo b.hi) ∧
        List.Forall₂ (fun c c' => CellMove3 (1 / 2 ^ 53) c.1 c'.1 ∧ CellMove3 (1 / 2 ^ 53) c.2.1 c'.2.1 ∧ CellMove3 (1 / 2 ^ 53) c.2.2 c'.2.2)
          ((Rounded.octCubes toDouble t).flatMap fun b => trianglesOf b.mesh) l) := by
  have h0' : Octree.new size request = .ok t0 := by rw [← Octree.octNew_eq hs]; exact h0
  obtain ⟨k, hg0, -, hm, -⟩ := Octree.good_new hr h0' h1
  obtain ⟨t, e1, e2, hg, m1, m2⟩ := Octree.octRun_snap hs ops t0 hg0 h2 hp (by rw [hm]; rfl) (by rw [hm]; rfl)
  refine ⟨t, e1, fun hcount => ?_⟩
  have hok : ∀ o ∈ asOps (ops.map (Option.map (Octree.snap3 size))), OctOpOk o := by
    intro o h
    obtain ⟨o, -, rfl⟩ := List.mem_map.1 h
    cases o <;> trivial
  have hres := Octree.run_res e2
  have hcub := C120_cubes size hs t ⟨hpos, by rw [hres]; exact h1, request, t0, _, hr, h0', hok, e2⟩ N (by rw [hres]; exact hN)
    (hN'.trans (by norm_num))
  have hin := cubes_in hg
  set cs := Rounded.octCubes toDouble t with hcs
  obtain ⟨f1, f2⟩ := Octree.fold_soup cs (nodeCubes_new _ _ _) t.mesh [] (by rw [m1, m2]; rfl) (by
    rw [m2, List.length_nil]; omega)
  set r := cs.foldl (fun m b => m.add b.mesh) t.mesh with hr'
  rw [m2, List.nil_append] at f1
  rw [List.nil_append] at f2
  have hrange : ∀ p ∈ r.points, RoundedIntRange (1 / 2 ^ 53) p := by
    intro p hp
    rw [f1] at hp
    obtain ⟨b, hb, hp⟩ := List.mem_flatMap.1 hp
    obtain ⟨b', hb', ⟨c1, c2, c3⟩, d1, d2, d3⟩ := forall2_left hcub b hb
    obtain ⟨⟨a1, a2, a3, a4, a5, a6⟩, g1, g2, g3, g4, g5, g6⟩ := hin b' hb'
    have eps : ((N : ℝ) + 1) * (size / 2 ^ 53) ≤ 1000 := by
      have hNr : (N : ℝ) + 1 ≤ 2 ^ 41 := by
        have : (N : ℝ) ≤ 2 ^ 40 := by exact_mod_cast hN'
        linarith [show (1 : ℝ) ≤ 2 ^ 40 by norm_num]
      calc ((N : ℝ) + 1) * (size / 2 ^ 53) ≤ 2 ^ 41 * (4000000 / 2 ^ 53) := by
            apply mul_le_mul hNr (by gcongr) (by positivity) (by norm_num)
        _ ≤ 1000 := by norm_num
    have key : ∀ x y : ℝ, |x - y| ≤ ((N : ℝ) + 1) * (size / 2 ^ 53) → -size / 2 ≤ y → y ≤ size / 2 →
        (1 + 1 / 2 ^ 53) * |1000 * x| < 2 ^ 31 := by
      intro x y h1 h2 h3
      have h1' := abs_le.1 (h1.trans eps)
      have : |1000 * x| ≤ 2001000000 := abs_le.2 ⟨by linarith [h1'.1], by linarith [h1'.2]⟩
      calc (1 + 1 / 2 ^ 53) * |1000 * x| ≤ (1 + 1 / 2 ^ 53) * 2001000000 := by gcongr
        _ < 2 ^ 31 := by norm_num
    have kx := key _ _ c1 a1 a2
    have ky := key _ _ c2 a3 a4
    have kz := key _ _ c3 a5 a6
    have lx := key _ _ d1 g1 g2
    have ly := key _ _ d2 g3 g4
    have lz := key _ _ d3 g5 g6
    simp only [corners8, List.mem_cons, List.not_mem_nil, or_false] at hp
    rcases hp with rfl | rfl | rfl | rfl | rfl | rfl | rfl | rfl <;> refine ⟨?_, ?_, ?_⟩ <;> assumption
  have hlen : r.points.length ≤ 2 ^ 32 := by
    rw [f1]
    have : ∀ l : List Box, (l.flatMap fun b => corners8 b.lo b.hi).length = 8 * l.length := by
      intro l
      induction l with
      | nil => rfl
      | cons a l ih => rw [List.flatMap_cons, List.length_append, ih, List.length_cons]; simp [corners8]; omega
    rw [this]; omega
  obtain ⟨m', m'', g1, -, -, -, -, g2, -, l, l', g3, g4, g5⟩ := C130_merge C93_roundings.1 r (Mesh.valid_of_soup f2) hrange hlen
  rw [f2, Option.some.injEq] at g3
  subst g3
  refine ⟨{ t with mesh := m' }, m', l', ?_, rfl, g4, ?_, g5.imp fun _ _ a => a.2⟩
  · unfold Rounded.octMesh
    have : t.mesh.empty = true := by simp [Mesh.empty, m1]
    rw [if_pos this, ← hcs, ← hr', g1]
    rfl
  · intro p hp
    have := g2.subset hp
    rw [f1] at this
    obtain ⟨b, hb, hp⟩ := List.mem_flatMap.1 this
    exact ⟨b, hb, hp⟩

/-- C136, bounding box: after any additions of points of the tree and clearings, with roundings in all operations, the bounding box of a tree
smaller than 4000 km, asked for once, holds the listed cubes up to 2 mm and a billionth of a metre, and the points added since the last clearing up to
(levels + 2) size / 2^53 more; and it is inside every box that holds all listed cubes. -/
theorem C136_bounding_box (size request : ℝ) (hs : toDouble size = size) (hpos : 0 < size) (hr : 0 < request) (t0 : Octree)
    (h0 : Rounded.octNew toDouble size request = .ok t0) (h1 : 1e-10 ≤ t0.resolution) (h2 : t0.resolution ≤ 2 ^ 19)
    (ops : List (Option Vec3))
    (hp : ∀ p, some p ∈ ops → InBox ⟨-size / 2, -size / 2, -size / 2⟩ ⟨size / 2, size / 2, size / 2⟩ p) (N : ℕ)
    (hN : t0.resolution * 2 ^ N = size) (hN' : N ≤ 2 ^ 40) (hsize : size < 4000000) :
    ∃ t, Rounded.octRun toDouble ops t0 = .ok t ∧ ((Rounded.octCubes toDouble t).length ≤ 2 ^ 29 →
      ∃ t' b, Rounded.octBoundingBox toDouble t = .ok (t', b) ∧
        (∀ e ∈ Rounded.octCubes toDouble t, InWide 0.002000001 b e.lo ∧ InWide 0.002000001 b e.hi) ∧
        (∀ p ∈ kept ops [], InWide (0.002000001 + (N + 2) * (size / 2 ^ 53)) b p) ∧
        ∀ l h : Vec3, Rounded.octCubes toDouble t ≠ [] → (∀ e ∈ Rounded.octCubes toDouble t, InBox l h e.lo ∧ InBox l h e.hi) →
          l.x ≤ b.lo.x ∧ l.y ≤ b.lo.y ∧ l.z ≤ b.lo.z ∧ b.hi.x ≤ h.x ∧ b.hi.y ≤ h.y ∧ b.hi.z ≤ h.z) := by
  have h0' : Octree.new size request = .ok t0 := by rw [← Octree.octNew_eq hs]; exact h0
  obtain ⟨k, hg0, -, hm, hbb⟩ := Octree.good_new hr h0' h1
  obtain ⟨t, e1, e2, hg, -⟩ := Octree.octRun_snap hs ops t0 hg0 h2 hp (by rw [hm]; rfl) (by rw [hm]; rfl)
  refine ⟨t, e1, fun hcount => ?_⟩
  obtain ⟨tm, em1, em2⟩ := C136_mesh size request hs hpos hr t0 h0 h1 h2 ops hp N hN hN' hsize
  rw [e1, Except.ok.injEq] at em1
  subst em1
  obtain ⟨t', m, l, a1, -, a3, a4, a5⟩ := em2 hcount
  obtain ⟨tp, ep1, ep2, -⟩ := C120_points size request hs hpos hr t0 h0 h1 h2 ops hp N hN (hN'.trans (by norm_num))
  rw [e1, Except.ok.injEq] at ep1
  subst ep1
  have hok : ∀ o ∈ asOps (ops.map (Option.map (Octree.snap3 size))), OctOpOk o := by
    intro o h
    obtain ⟨o, -, rfl⟩ := List.mem_map.1 h
    cases o <;> trivial
  have hnb : Octree.Op.getBoundingBox ∉ asOps (ops.map (Option.map (Octree.snap3 size))) := by
    intro h
    obtain ⟨o, -, ho⟩ := List.mem_map.1 h
    cases o <;> cases ho
  rw [← run_bb hnb hok hg0 e2] at hbb
  have hres := Octree.run_res e2
  have hcub := C120_cubes size hs t ⟨hpos, by rw [hres]; exact h1, request, t0, _, hr, h0', hok, e2⟩ N (by rw [hres]; exact hN)
    (hN'.trans (by norm_num))
  have hin := cubes_in hg
  have hnew : ∀ e ∈ Rounded.octCubes toDouble t, ∃ lo hi, e = Box.new lo hi := nodeCubes_new _ _ _
  set cs := Rounded.octCubes toDouble t with hcs
  have small : ∀ e ∈ cs, ∀ p ∈ corners8 e.lo e.hi, |p.x| ≤ 2001000 ∧ |p.y| ≤ 2001000 ∧ |p.z| ≤ 2001000 := by
    intro b hb p hp
    obtain ⟨b', hb', ⟨c1, c2, c3⟩, d1, d2, d3⟩ := forall2_left hcub b hb
    obtain ⟨⟨i1, i2, i3, i4, i5, i6⟩, g1, g2, g3, g4, g5, g6⟩ := hin b' hb'
    have eps : ((N : ℝ) + 1) * (size / 2 ^ 53) ≤ 1000 := by
      have hNr : (N : ℝ) + 1 ≤ 2 ^ 41 := by
        have : (N : ℝ) ≤ 2 ^ 40 := by exact_mod_cast hN'
        linarith [show (1 : ℝ) ≤ 2 ^ 40 by norm_num]
      calc ((N : ℝ) + 1) * (size / 2 ^ 53) ≤ 2 ^ 41 * (4000000 / 2 ^ 53) := by
            apply mul_le_mul hNr (by gcongr) (by positivity) (by norm_num)
        _ ≤ 1000 := by norm_num
    have key : ∀ x y : ℝ, |x - y| ≤ ((N : ℝ) + 1) * (size / 2 ^ 53) → -size / 2 ≤ y → y ≤ size / 2 → |x| ≤ 2001000 := by
      intro x y h1 h2 h3
      have h1' := abs_le.1 (h1.trans eps)
      exact abs_le.2 ⟨by linarith [h1'.1], by linarith [h1'.2]⟩
    have kx := key _ _ c1 i1 i2
    have ky := key _ _ c2 i3 i4
    have kz := key _ _ c3 i5 i6
    have lx := key _ _ d1 g1 g2
    have ly := key _ _ d2 g3 g4
    have lz := key _ _ d3 g5 g6
    simp only [corners8, List.mem_cons, List.not_mem_nil, or_false] at hp
    rcases hp with rfl | rfl | rfl | rfl | rfl | rfl | rfl | rfl <;> refine ⟨?_, ?_, ?_⟩ <;> assumption
  have near : ∀ p, (∃ e ∈ cs, p ∈ corners8 e.lo e.hi) → ∃ q ∈ m.points, Moved 0.002000001 p q := by
    rintro p ⟨e, he, hp⟩
    have sp := small e he p hp
    obtain ⟨lo, hi, rfl⟩ := hnew e he
    rw [Box.new_lo, Box.new_hi] at hp
    rw [← box_trianglesOf] at hp
    obtain ⟨tr, htr, hp⟩ := List.mem_flatMap.1 hp
    have hmem : tr ∈ cs.flatMap fun b => trianglesOf b.mesh := List.mem_flatMap.2 ⟨_, he, htr⟩
    obtain ⟨tr', h1, h2⟩ := forall₂_mem a5 hmem
    have h3 := soup_mem a3 h1
    have move : ∀ x y : ℝ, |x| ≤ 2001000 → |y| ≤ 2001000 → CellMove (1 / 2 ^ 53) x y → |x - y| ≤ 0.002000001 := by
      intro x y b1 b2 c
      refine c.1.le.trans ?_
      have : 1 / 2 ^ 53 * (|x| + |y|) ≤ 1 / 2 ^ 53 * (2001000 + 2001000) := by gcongr
      refine (add_le_add le_rfl this).trans (by norm_num)
    have fin : ∀ q ∈ m.points, CellMove3 (1 / 2 ^ 53) p q → Moved 0.002000001 p q := by
      intro q hq c
      obtain ⟨e', he', hq'⟩ := a4 q hq
      have sq := small e' he' q hq'
      exact ⟨move _ _ sp.1 sq.1 c.1, move _ _ sp.2.1 sq.2.1 c.2.1, move _ _ sp.2.2 sq.2.2 c.2.2⟩
    simp only [List.mem_cons, List.not_mem_nil, or_false] at hp
    rcases hp with rfl | rfl | rfl
    · exact ⟨_, h3.1, fin _ h3.1 h2.1⟩
    · exact ⟨_, h3.2.1, fin _ h3.2.1 h2.2.1⟩
    · exact ⟨_, h3.2.2, fin _ h3.2.2 h2.2.2⟩
  have hsp := boundsOf_spec m.points ⟨1e9, 1e9, 1e9⟩ ⟨-1e9, -1e9, -1e9⟩
  set bd := Shape.boundsOf m.points ⟨1e9, 1e9, 1e9⟩ ⟨-1e9, -1e9, -1e9⟩ with hbd
  obtain ⟨-, s2, s3⟩ := hsp
  have hold : ∀ e ∈ cs, ∀ p ∈ corners8 e.lo e.hi, InWide 0.002000001 (Box.new bd.1 bd.2) p := by
    intro e he p hp
    obtain ⟨q, q1, q2, q3, q4⟩ := near p ⟨e, he, hp⟩
    obtain ⟨i1, i2, i3, i4, i5, i6⟩ := s2 q q1
    have k2 := abs_le.1 q2
    have k3 := abs_le.1 q3
    have k4 := abs_le.1 q4
    unfold InWide
    rw [Box.new_lo, Box.new_hi]
    exact ⟨by linarith [k2.1], by linarith [k2.2], by linarith [k3.1], by linarith [k3.2], by linarith [k4.1], by linarith [k4.2]⟩
  have hold' : ∀ e ∈ cs, InWide 0.002000001 (Box.new bd.1 bd.2) e.lo ∧ InWide 0.002000001 (Box.new bd.1 bd.2) e.hi := fun e he =>
    ⟨hold e he ⟨e.lo.x, e.lo.y, e.lo.z⟩ (by simp [corners8]), hold e he ⟨e.hi.x, e.hi.y, e.hi.z⟩ (by simp [corners8])⟩
  refine ⟨{ t' with base := { t'.base with bbMin := bd.1, bbMax := bd.2, bbValid := true } }, Box.new bd.1 bd.2, ?_, hold', ?_, ?_⟩
  · unfold Rounded.octBoundingBox
    simp only [hbb, Bool.false_eq_true, if_false, a1, bind, Except.bind, pure, Except.pure]
    rfl
  · intro p hp
    obtain ⟨e, he, w1, w2, w3, w4, w5, w6⟩ := ep2 p hp
    obtain ⟨⟨v1, -, v3, -, v5, -⟩, -, v2, -, v4, -, v6⟩ := hold' e he
    simp only at w1 w2 w3 w4 w5 w6 v1 v2 v3 v4 v5 v6
    exact ⟨by simp only; linarith, by simp only; linarith, by simp only; linarith, by simp only; linarith, by simp only; linarith,
      by simp only; linarith⟩
  · intro l h hne hall
    rw [Box.new_lo, Box.new_hi]
    obtain ⟨e, he⟩ := List.exists_mem_of_ne_nil _ hne
    have se := small e he ⟨e.lo.x, e.lo.y, e.lo.z⟩ (by simp [corners8])
    obtain ⟨x1, x2, y1, y2, z1, z2⟩ := (hall e he).1
    have sx := abs_le.1 se.1
    have sy := abs_le.1 se.2.1
    have sz := abs_le.1 se.2.2
    simp only at sx sy sz
    refine s3 l h ?_ ⟨?_, ?_, ?_, ?_, ?_, ?_⟩
    · intro p hp
      obtain ⟨e', he', hp'⟩ := a4 p hp
      obtain ⟨⟨f1, f2, f3, f4, f5, f6⟩, g1, g2, g3, g4, g5, g6⟩ := hall e' he'
      simp only [corners8, List.mem_cons, List.not_mem_nil, or_false] at hp'
      rcases hp' with rfl | rfl | rfl | rfl | rfl | rfl | rfl | rfl <;> refine ⟨?_, ?_, ?_, ?_, ?_, ?_⟩ <;> assumption
    all_goals norm_num
    · linarith [sx.2]
    · linarith [sy.2]
    · linarith [sz.2]
    · linarith [sx.1]
    · linarith [sy.1]
    · linarith [sz.1]

/-- C136 case: the tree of size 10 after a point, a clearing and two points: a box that only touches a point. -/
example : ∃ t0 t, Rounded.octRun toDouble [some ⟨1, 1, 1⟩, none, some ⟨2, -3, 4⟩, some ⟨0.1, 5, -0.3⟩] t0 = .ok t ∧
    Rounded.octBox toDouble t (Box.new ⟨0.1, 5, -0.3⟩ ⟨0.1, 5.5, 1⟩) = true := by
  obtain ⟨hd, t0, h1, -, h3⟩ := ten
  obtain ⟨t, e1, e2⟩ := C136_added 10 3 hd (by norm_num) (by norm_num) t0 h1 (by rw [h3]; norm_num) (by rw [h3]; norm_num) _ ten_points
  exact ⟨t0, t, e1, e2 _ ⟨0.1, 5, -0.3⟩ (by simp [kept]) (by rw [Box.new_lo, Box.new_hi]; norm_num [InBox])⟩

/-- C136 case: the mesh of that tree, and its bounding box. -/
example : ∃ t0 t t' m t'' b, Rounded.octRun toDouble [some ⟨1, 1, 1⟩, none, some ⟨2, -3, 4⟩, some ⟨0.1, 5, -0.3⟩] t0 = .ok t ∧
    Rounded.octMesh toDouble t = .ok (t', m) ∧ Rounded.octBoundingBox toDouble t = .ok (t'', b) ∧ InWide 0.0021 b ⟨2, -3, 4⟩ := by
  obtain ⟨hd, t0, h1, h2, h3⟩ := ten
  obtain ⟨t, e1, e2⟩ := C136_mesh 10 3 hd (by norm_num) (by norm_num) t0 h1 (by rw [h3]; norm_num) (by rw [h3]; norm_num) _ ten_points
    2 (by rw [h3]; norm_num) (by norm_num) (by norm_num)
  -- there are at most 4³ cubes
  obtain ⟨k, hg0, -, hm, -⟩ := Octree.good_new (by norm_num) h2 (by rw [h3]; norm_num)
  obtain ⟨t1, f1, f2, hg, -⟩ := Octree.octRun_snap hd _ t0 hg0 (by rw [h3]; norm_num) ten_points (by rw [hm]; rfl) (by rw [hm]; rfl)
  rw [e1, Except.ok.injEq] at f1
  subst f1
  have hr : t.resolution = 2.5 := by rw [Octree.run_res f2, h3]
  have hcub := C120_cubes 10 hd t ⟨by norm_num, by rw [hr]; norm_num, 3, t0, _, by norm_num, h2, by
    intro o h
    obtain ⟨o, -, rfl⟩ := List.mem_map.1 h
    cases o <;> trivial, f2⟩ 2 (by rw [hr]; norm_num) (by norm_num)
  have hk : (2 : ℕ) ^ k = 4 := by
    have := hg.res
    rw [hr] at this
    have : (2 : ℝ) ^ k = 4 := by linarith
    exact_mod_cast this
  obtain ⟨cells, c1, c2, c3⟩ := Octree.good_shows hg
  have hlen : cells.length ≤ 64 := by
    rw [← List.toFinset_card_of_nodup c1]
    refine (Finset.card_le_card (t := Finset.range 4 ×ˢ Finset.range 4 ×ˢ Finset.range 4) ?_).trans (by simp)
    intro c hc
    obtain ⟨q1, q2, q3⟩ := ((c2 c).1 (List.mem_toFinset.1 hc)).lt
    rw [hk] at q1 q2 q3
    simp [q1, q2, q3]
  have hcount : (Rounded.octCubes toDouble t).length ≤ 2 ^ 29 := by
    rw [hcub.length_eq, c3, List.length_map]
    omega
  obtain ⟨t', m, l, g, -⟩ := e2 hcount
  obtain ⟨t2, b1, b2⟩ := C136_bounding_box 10 3 hd (by norm_num) (by norm_num) t0 h1 (by rw [h3]; norm_num) (by rw [h3]; norm_num) _ ten_points
    2 (by rw [h3]; norm_num) (by norm_num) (by norm_num)
  rw [e1, Except.ok.injEq] at b1
  subst b1
  obtain ⟨t'', b, b3, -, b4, -⟩ := b2 hcount
  obtain ⟨w1, w2, w3, w4, w5, w6⟩ := b4 ⟨2, -3, 4⟩ (by simp [kept])
  refine ⟨t0, t, t', m, t'', b, e1, g, b3, ?_⟩
  norm_num [InWide, InBox] at w1 w2 w3 w4 w5 w6 ⊢
  exact ⟨by linarith, by linarith, by linarith, by linarith, by linarith, by linarith⟩

/-- C136 case: a point and a box in the tree of size 10 with one point, which is in the cell (2, 0, 3) of the 4³ cells. -/
example : ∃ (t : Octree) (S : ℕ × ℕ × ℕ → Prop), OctReach 10 t ∧ toDouble 10 = 10 ∧ t.resolution * (4 : ℕ) = 10 ∧
    Shows t t.resolution t.offset S ∧ InBox t.offset t.max ⟨2, -3, 4⟩ ∧
    Proper (Box.new ⟨1, -4, 3⟩ ⟨3, -2, 4.5⟩).lo (Box.new ⟨1, -4, 3⟩ ⟨3, -2, 4.5⟩).hi := by
  obtain ⟨hd, t0, -, h2, h3⟩ := ten
  obtain ⟨k, hg, -⟩ := Octree.good_new (by norm_num) h2 (by rw [h3]; norm_num)
  obtain ⟨t, e1, e2, e3, -⟩ := Octree.add_good hg ⟨2, -3, 4⟩
  refine ⟨t, _, ⟨by norm_num, by rw [e3, h3]; norm_num, 3, t0, [.add ⟨2, -3, 4⟩], by norm_num, h2,
    by intro o ho; rw [List.mem_singleton] at ho; subst ho; trivial, by simp [Octree.run, Octree.step, e1, bind, Except.bind]⟩, hd,
    by rw [e3, h3]; norm_num, Octree.good_shows e2, ?_, ?_⟩
  · rw [e2.off, e2.max]; norm_num [InBox]
  · rw [Box.new_lo, Box.new_hi]; norm_num [Proper]

end Geo
