import Verif.Lemmas.RoundedOctreeSame
import Verif.Props.RoundedOctreeOutside

/-!
# Property theorem C138: in floating point arithmetic octrees remember only the points
-/

namespace Geo
open Spec

/-- C138: with roundings to `double`, two histories of additions and clearings after which the same points are kept, or points with the same nearest
points in the tree, leave octrees that cannot be told apart: they list the same cubes in the same order, give the same answers for every point and every
box, and have the same mesh and the same bounding box. -/
theorem C138_same (size request : ℝ) (hs : toDouble size = size) (hpos : 0 < size) (hr : 0 < request) (t0 : Octree)
    (h0 : Rounded.octNew toDouble size request = .ok t0) (h1 : 1e-10 ≤ t0.resolution) (h2 : t0.resolution ≤ 2 ^ 19)
    (ops ops' : List (Option Vec3))
    (h : ∀ q, (∃ p ∈ kept ops [], clampTo size p = q) ↔ ∃ p ∈ kept ops' [], clampTo size p = q) :
    ∃ t t', Rounded.octRun toDouble ops t0 = .ok t ∧ Rounded.octRun toDouble ops' t0 = .ok t' ∧
      Rounded.octCubes toDouble t = Rounded.octCubes toDouble t' ∧
      (∀ p, Rounded.octContains toDouble t p = Rounded.octContains toDouble t' p) ∧
      (∀ b, Rounded.octBox toDouble t b = Rounded.octBox toDouble t' b) ∧
      (Rounded.octMesh toDouble t).map Prod.snd = (Rounded.octMesh toDouble t').map Prod.snd ∧
      (Rounded.octBoundingBox toDouble t).map Prod.snd = (Rounded.octBoundingBox toDouble t').map Prod.snd := by
  have h0' : Octree.new size request = .ok t0 := by rw [← Octree.octNew_eq hs]; exact h0
  obtain ⟨k, hg0, hno, hm, -⟩ := Octree.good_new hr h0' h1
  have hp : ∀ (os : List (Option Vec3)) (p : Vec3), some p ∈ os.map (Option.map (clampTo size)) →
      InBox ⟨-size / 2, -size / 2, -size / 2⟩ ⟨size / 2, size / 2, size / 2⟩ p := by
    intro os p h
    obtain ⟨o, -, ho⟩ := List.mem_map.1 h
    cases o with
    | none => cases ho
    | some q =>
      simp only [Option.map_some, Option.some.injEq] at ho
      exact ho ▸ clamp_in hpos q
  have hk : ∀ os : List (Option Vec3), kept (os.map (Option.map (clampTo size))) [] = (kept os []).map (clampTo size) := fun os => by
    simpa using Octree.kept_map (clampTo size) os []
  obtain ⟨t, e1, e2⟩ := C137_nearest size request hs hpos hr t0 h0 h1 h2 ops
  obtain ⟨t', e1', e2'⟩ := C137_nearest size request hs hpos hr t0 h0 h1 h2 ops'
  obtain ⟨u, f1, f2, f3⟩ := Octree.octRun_occ hs hg0 h2 hno hm (hp ops)
  obtain ⟨u', f1', f2', f3'⟩ := Octree.octRun_occ hs hg0 h2 hno hm (hp ops')
  rw [e2, Except.ok.injEq] at f1
  rw [e2', Except.ok.injEq] at f1'
  subst f1 f1'
  rw [hk] at f3 f3'
  have hc : ∀ c, OctNode.Occ k t.root c ↔ OctNode.Occ k t'.root c := by
    intro c
    rw [f3, f3']
    constructor
    · rintro ⟨q, hq, e⟩
      obtain ⟨p, p1, p2⟩ := (h q).1 (by obtain ⟨p, a, b⟩ := List.mem_map.1 hq; exact ⟨p, a, b⟩)
      exact ⟨q, List.mem_map.2 ⟨p, p1, p2⟩, e⟩
    · rintro ⟨q, hq, e⟩
      obtain ⟨p, p1, p2⟩ := (h q).2 (by obtain ⟨p, a, b⟩ := List.mem_map.1 hq; exact ⟨p, a, b⟩)
      exact ⟨q, List.mem_map.2 ⟨p, p1, p2⟩, e⟩
  obtain ⟨g1, g2, g3⟩ := Octree.oct_same toDouble f2 f2' hc
  obtain ⟨m1, m2⟩ := Octree.octRun_caches toDouble ops t0 t hm e1
  obtain ⟨m1', m2'⟩ := Octree.octRun_caches toDouble ops' t0 t' hm e1'
  have hmesh : (Rounded.octMesh toDouble t).map Prod.snd = (Rounded.octMesh toDouble t').map Prod.snd := by
    unfold Rounded.octMesh
    rw [m1, m1', g1]
    cases Rounded.filterOverlappingVertices toDouble ((Rounded.octCubes toDouble t').foldl (fun m b => m.add b.mesh) Mesh.new) with
    | error e => rfl
    | ok m => rfl
  refine ⟨t, t', e1, e1', g1, g2, g3, hmesh, ?_⟩
  unfold Rounded.octBoundingBox
  rw [m2, m2']
  cases hb : t0.base.bbValid with
  | true => rfl
  | false =>
    cases a : Rounded.octMesh toDouble t with
    | error e =>
      cases a' : Rounded.octMesh toDouble t' with
      | error e' =>
        rw [a, a'] at hmesh
        simp only [Except.map, Except.error.injEq] at hmesh
        subst hmesh
        rfl
      | ok r => rw [a, a'] at hmesh; cases hmesh
    | ok r =>
      cases a' : Rounded.octMesh toDouble t' with
      | error e' => rw [a, a'] at hmesh; cases hmesh
      | ok r' =>
        obtain ⟨v, m⟩ := r
        obtain ⟨v', m'⟩ := r'
        rw [a, a'] at hmesh
        simp only [Except.map, Except.ok.injEq] at hmesh
        subst hmesh
        rfl

/-- C138 case: another order, a repetition, a point before a clearing, and a point outside in place of the one on the border. -/
example : ∃ t0 t t', Rounded.octRun toDouble [some ⟨1, 1, 1⟩, none, some ⟨2, -3, 4⟩, some ⟨0.1, 5, -0.3⟩] t0 = .ok t ∧
    Rounded.octRun toDouble [some ⟨0.1, 70, -0.3⟩, some ⟨2, -3, 4⟩, some ⟨0.1, 6, -0.3⟩] t0 = .ok t' ∧
    Rounded.octCubes toDouble t = Rounded.octCubes toDouble t' := by
  obtain ⟨hd, t0, h1, -, h3⟩ := ten
  obtain ⟨t, t', e1, e2, e3, -⟩ := C138_same 10 3 hd (by norm_num) (by norm_num) t0 h1 (by rw [h3]; norm_num) (by rw [h3]; norm_num)
    [some ⟨1, 1, 1⟩, none, some ⟨2, -3, 4⟩, some ⟨0.1, 5, -0.3⟩] [some ⟨0.1, 70, -0.3⟩, some ⟨2, -3, 4⟩, some ⟨0.1, 6, -0.3⟩] (by
      have c1 : clampTo 10 ⟨2, -3, 4⟩ = ⟨2, -3, 4⟩ := by norm_num [clampTo]
      have c2 : clampTo 10 ⟨0.1, 5, -0.3⟩ = ⟨0.1, 5, -0.3⟩ := by norm_num [clampTo]
      have c3 : clampTo 10 ⟨0.1, 70, -0.3⟩ = ⟨0.1, 5, -0.3⟩ := by norm_num [clampTo]
      have c4 : clampTo 10 ⟨0.1, 6, -0.3⟩ = ⟨0.1, 5, -0.3⟩ := by norm_num [clampTo]
      intro q
      simp only [kept, List.nil_append, List.cons_append, List.mem_cons, List.not_mem_nil, or_false, exists_eq_or_imp, exists_eq_left, c1, c2, c3, c4]
      tauto)
  exact ⟨t0, t, t', e1, e2, e3⟩

end Geo
