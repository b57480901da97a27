import Verif.Lemmas.RoundedOctreeAsked
import Verif.Props.RoundedOctreeOutside

/-!
# Helper lemmas for calls to octrees that come to an end, in floating point arithmetic
-/

namespace Geo
open Spec

namespace Octree

theorem changes_append (l l' : List Rounded.OctCall) : changes (l ++ l') = changes l ++ changes l' := by
  induction l with
  | nil => rfl
  | cons o l ih => cases o <;> simp [changes, ih]

theorem octCalls_append (rnd : ℝ → ℝ) (l l' : List Rounded.OctCall) (t : Octree) :
    Rounded.octCalls rnd (l ++ l') t = (Rounded.octCalls rnd l t).bind (Rounded.octCalls rnd l') := by
  induction l generalizing t with
  | nil => rfl
  | cons o l ih =>
    simp only [List.cons_append, Rounded.octCalls, bind, Except.bind]
    cases Rounded.octStep rnd t o with
    | error e => rfl
    | ok t1 => exact ih t1

theorem octRun_append (rnd : ℝ → ℝ) (l l' : List (Option Vec3)) (t : Octree) :
    Rounded.octRun rnd (l ++ l') t = (Rounded.octRun rnd l t).bind (Rounded.octRun rnd l') := by
  induction l generalizing t with
  | nil => rfl
  | cons o l ih =>
    cases o with
    | none => exact ih t.clear
    | some p =>
      simp only [List.cons_append, Rounded.octRun, bind, Except.bind]
      cases Rounded.octAdd rnd t p with
      | error e => rfl
      | ok t1 => exact ih t1

/-- After any history the mesh can be made. -/
theorem octRun_mesh {size request : ℝ} (hs : toDouble size = size) (hpos : 0 < size) (hr : 0 < request) {t0 : Octree}
    (h0 : Rounded.octNew toDouble size request = .ok t0) (h1 : 1e-10 ≤ t0.resolution) (h2 : t0.resolution ≤ 2 ^ 19) {N : ℕ}
    (hN : t0.resolution * 2 ^ N = size) (hN' : N ≤ 9) (hsize : size < 4000000) (ops : List (Option Vec3)) :
    ∃ u u' m, Rounded.octRun toDouble ops t0 = .ok u ∧ Rounded.octMesh toDouble u = .ok (u', m) := by
  have h0' : Octree.new size request = .ok t0 := by rw [← Octree.octNew_eq hs]; exact h0
  obtain ⟨k, hg0, -, hm, -⟩ := Octree.good_new hr h0' h1
  obtain ⟨u, e1, e2⟩ := C137_nearest size request hs hpos hr t0 h0 h1 h2 ops
  have hp : ∀ p, some p ∈ ops.map (Option.map (clampTo size)) → InBox ⟨-size / 2, -size / 2, -size / 2⟩ ⟨size / 2, size / 2, size / 2⟩ p := by
    intro p h
    obtain ⟨o, -, ho⟩ := List.mem_map.1 h
    cases o with
    | none => cases ho
    | some q =>
      simp only [Option.map_some, Option.some.injEq] at ho
      exact ho ▸ clamp_in hpos q
  obtain ⟨v, f1, f2⟩ := C136_mesh size request hs hpos hr t0 h0 h1 h2 _ hp N hN (hN'.trans (by norm_num)) hsize
  rw [e2, Except.ok.injEq] at f1
  subst f1
  obtain ⟨w, g1, g2, hg, -⟩ := Octree.octRun_snap hs _ t0 hg0 h2 hp (by rw [hm]; rfl) (by rw [hm]; rfl)
  rw [e2, Except.ok.injEq] at g1
  subst g1
  have hres := Octree.run_res g2
  have hcub := C120_cubes size hs u ⟨hpos, by rw [hres]; exact h1, request, t0, _, hr, h0', by
    intro o h
    obtain ⟨o, -, rfl⟩ := List.mem_map.1 h
    cases o <;> trivial, g2⟩ N (by rw [hres]; exact hN) (hN'.trans (by norm_num))
  have hk : (2 : ℕ) ^ k ≤ 512 := by
    have a := hg0.res
    have b : (2 : ℝ) ^ k = 2 ^ N := by
      have h3 : 0 < t0.resolution := by linarith
      refine mul_left_cancel₀ h3.ne' ?_
      linarith
    have c : (2 : ℕ) ^ k = 2 ^ N := by exact_mod_cast b
    rw [c]
    exact (Nat.pow_le_pow_right (by norm_num) hN').trans (by norm_num)
  obtain ⟨cells, c1, c2, c3⟩ := Octree.good_shows hg
  have hlen : cells.length ≤ 2 ^ k * (2 ^ k * 2 ^ k) := by
    rw [← List.toFinset_card_of_nodup c1]
    refine (Finset.card_le_card (t := Finset.range (2 ^ k) ×ˢ Finset.range (2 ^ k) ×ˢ Finset.range (2 ^ k)) ?_).trans
      (by simp only [Finset.card_product, Finset.card_range, le_refl])
    intro c hc
    obtain ⟨q1, q2, q3⟩ := ((c2 c).1 (List.mem_toFinset.1 hc)).lt
    simp only [Finset.mem_product, Finset.mem_range]
    exact ⟨q1, q2, q3⟩
  have hcount : cells.length ≤ 2 ^ 29 := hlen.trans ((Nat.mul_le_mul hk (Nat.mul_le_mul hk hk)).trans (by norm_num))
  obtain ⟨u', m, l, g, -⟩ := f2 (by rw [hcub.length_eq, c3, List.length_map]; exact hcount)
  exact ⟨u, u', m, e1, g⟩

end Octree

end Geo
