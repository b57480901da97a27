import Verif.Props.RoundedOctreeOutside

/-!
# Helper lemma for the octrees that are reached in floating point arithmetic
-/

namespace Geo

open Spec

/-- The trees that are reached. -/
theorem reached {size request : ℝ} (hs : toDouble size = size) (hpos : 0 < size) (hr : 0 < request) {t0 t : Octree}
    (h0 : Rounded.octNew toDouble size request = .ok t0) (h1 : 1e-10 ≤ t0.resolution) (h2 : t0.resolution ≤ 2 ^ 19) {ops : List (Option Vec3)}
    (ht : Rounded.octRun toDouble ops t0 = .ok t) : ∃ k, Octree.Good k size t ∧ t.resolution = t0.resolution := by
  have h0' : Octree.new size request = .ok t0 := by rw [← Octree.octNew_eq hs]; exact h0
  obtain ⟨k, hg0, -, hm, -⟩ := Octree.good_new hr h0' h1
  obtain ⟨u, e1, e2⟩ := C137_nearest size request hs hpos hr t0 h0 h1 h2 ops
  rw [ht, Except.ok.injEq] at e1
  subst e1
  have hp : ∀ p, some p ∈ ops.map (Option.map (clampTo size)) → InBox ⟨-size / 2, -size / 2, -size / 2⟩ ⟨size / 2, size / 2, size / 2⟩ p := by
    intro p h
    obtain ⟨o, -, ho⟩ := List.mem_map.1 h
    cases o with
    | none => cases ho
    | some q =>
      simp only [Option.map_some, Option.some.injEq] at ho
      exact ho ▸ clamp_in hpos q
  obtain ⟨w, g1, g2, hg, -⟩ := Octree.octRun_snap hs _ t0 hg0 h2 hp (by rw [hm]; rfl) (by rw [hm]; rfl)
  rw [e2, Except.ok.injEq] at g1
  subst g1
  exact ⟨k, hg, Octree.run_res g2⟩

end Geo
