import Verif.Lemmas.RoundedOctreeOutside
import Verif.Lemmas.OctreeUse

/-! # Helper lemmas: octrees with the same occupied cells -/

namespace Geo
open Spec

namespace OctNode

theorem children_occ {k : ℕ} {s s' : ℝ} {o o' : Bool} {ch ch' : Fin 8 → OctNode}
    (h : ∀ c, Occ (k + 1) (.node s o ch) c ↔ Occ (k + 1) (.node s' o' ch') c) (b : Bool × Bool × Bool) (c : ℕ × ℕ × ℕ) :
    Occ k (ch (index b.1 b.2.1 b.2.2)) c ↔ Occ k (ch' (index b.1 b.2.1 b.2.2)) c := by
  constructor
  · intro hc
    have hl := hc.lt
    exact (occ_up hl).1 ((h _).1 ((occ_up hl).2 hc))
  · intro hc
    have hl := hc.lt
    exact (occ_up hl).1 ((h _).2 ((occ_up hl).2 hc))

theorem index_surj (i : Fin 8) : ∃ b : Bool × Bool × Bool, index b.1 b.2.1 b.2.2 = i := by
  revert i; decide

/-- A tree without occupied cells. -/
theorem node_empty (rnd : ℝ → ℝ) : ∀ (k : ℕ) (s : ℝ) (t : OctNode), WF k s t → (∀ c, ¬ Occ k t c) →
    (∀ o, Rounded.nodeCubes rnd t o = []) ∧ (∀ p, Rounded.nodeContains rnd t p = false) ∧ ∀ lo hi, Rounded.nodeBox rnd t lo hi = false
  | k, s, .null, _, _ => ⟨fun _ => rfl, fun _ => rfl, fun _ _ => rfl⟩
  | 0, s, .node s' o ch, hw, hc => by
    have ho : o = false := by
      by_contra h
      exact hc (0, 0, 0) ⟨by simpa using h, rfl⟩
    obtain ⟨-, hch⟩ := hw
    subst ho
    refine ⟨fun o => ?_, fun p => ?_, fun lo hi => ?_⟩
    · simp [Rounded.nodeCubes, hch]
    · simp [Rounded.nodeContains, hch]
    · simp [Rounded.nodeBox, hch]
  | k + 1, s, .node s' o ch, hw, hc => by
    obtain ⟨-, rfl, hch⟩ := hw
    have ih : ∀ i, _ := fun i => node_empty rnd k (s / 2) (ch i) (hch i) (by
      intro c h
      obtain ⟨b, rfl⟩ := index_surj i
      exact hc _ ((occ_up h.lt).2 h))
    refine ⟨fun o => ?_, fun p => ?_, fun lo hi => ?_⟩
    · simp [Rounded.nodeCubes, fun i => (ih i).1]
    · simp [Rounded.nodeContains, fun i => (ih i).2.1]
    · simp [Rounded.nodeBox, fun i => (ih i).2.2]

/-- Trees with the same occupied cells answer alike. -/
theorem node_same (rnd : ℝ → ℝ) : ∀ (k : ℕ) (s : ℝ) (t t' : OctNode), WF k s t → WF k s t' → (∀ c, Occ k t c ↔ Occ k t' c) →
    (∀ o, Rounded.nodeCubes rnd t o = Rounded.nodeCubes rnd t' o) ∧ (∀ p, Rounded.nodeContains rnd t p = Rounded.nodeContains rnd t' p) ∧
      ∀ lo hi, Rounded.nodeBox rnd t lo hi = Rounded.nodeBox rnd t' lo hi
  | k, s, .null, t', _, hw', hc => by
    obtain ⟨a, b, c⟩ := node_empty rnd k s t' hw' fun c h => not_occ_null ((hc c).2 h)
    exact ⟨fun o => (a o).symm, fun p => (b p).symm, fun lo hi => (c lo hi).symm⟩
  | k, s, .node s1 o ch, .null, hw, _, hc => by
    obtain ⟨a, b, c⟩ := node_empty rnd k s _ hw fun c h => not_occ_null ((hc c).1 h)
    exact ⟨fun o => a o, fun p => b p, fun lo hi => c lo hi⟩
  | 0, s, .node s1 o ch, .node s2 o' ch', hw, hw', hc => by
    obtain ⟨rfl, h1⟩ := hw
    obtain ⟨rfl, h2⟩ := hw'
    have ho : o = o' := by
      have := hc (0, 0, 0)
      unfold Occ at this
      simp only [and_true] at this
      exact Bool.eq_iff_iff.2 this
    have hch : ch = ch' := by
      funext i
      rw [h1, h2]
    subst ho hch
    exact ⟨fun _ => rfl, fun _ => rfl, fun _ _ => rfl⟩
  | k + 1, s, .node s1 o ch, .node s2 o' ch', hw, hw', hc => by
    obtain ⟨rfl, rfl, h1⟩ := hw
    obtain ⟨rfl, rfl, h2⟩ := hw'
    have ih : ∀ i, _ := fun i => node_same rnd k _ (ch i) (ch' i) (h1 i) (h2 i) (by
      obtain ⟨b, rfl⟩ := index_surj i
      exact children_occ hc b)
    refine ⟨fun o => ?_, fun p => ?_, fun lo hi => ?_⟩
    · unfold Rounded.nodeCubes
      simp only [fun i => (ih i).1]
    · unfold Rounded.nodeContains
      simp only [fun i => (ih i).2.1]
    · unfold Rounded.nodeBox
      simp only [fun i => (ih i).2.2]

end OctNode

namespace Octree

/-- Octrees with the same occupied cells answer alike. -/
theorem oct_same (rnd : ℝ → ℝ) {k : ℕ} {size : ℝ} {t t' : Octree} (h : Good k size t) (h' : Good k size t')
    (hc : ∀ c, OctNode.Occ k t.root c ↔ OctNode.Occ k t'.root c) :
    Rounded.octCubes rnd t = Rounded.octCubes rnd t' ∧ (∀ p, Rounded.octContains rnd t p = Rounded.octContains rnd t' p) ∧
      ∀ b, Rounded.octBox rnd t b = Rounded.octBox rnd t' b := by
  obtain ⟨a, b, c⟩ := OctNode.node_same rnd k size _ _ h.wf h'.wf hc
  refine ⟨?_, fun p => ?_, fun bx => ?_⟩
  · unfold Rounded.octCubes
    rw [a, h.off, h'.off]
  · unfold Rounded.octContains
    rw [b, h.off, h'.off, h.max, h'.max]
  · unfold Rounded.octBox
    rw [c, h.off, h'.off, h.max, h'.max]

/-- What additions and clearings do to the caches. -/
theorem octRun_caches (rnd : ℝ → ℝ) : ∀ (ops : List (Option Vec3)) (t0 t : Octree), t0.mesh = Mesh.new → Rounded.octRun rnd ops t0 = .ok t →
    t.mesh = Mesh.new ∧ t.base = t0.base
  | [], t0, t, hm, h => by
    simp only [Rounded.octRun, Except.ok.injEq] at h
    exact h ▸ ⟨hm, rfl⟩
  | none :: ops, t0, t, hm, h => by
    have := octRun_caches rnd ops t0.clear t rfl h
    exact ⟨this.1, this.2⟩
  | some p :: ops, t0, t, hm, h => by
    simp only [Rounded.octRun, Exec.bind_ok] at h
    obtain ⟨t1, a, b⟩ := h
    unfold Rounded.octAdd at a
    rw [Exec.bind_ok] at a
    obtain ⟨root, -, c⟩ := a
    simp only [pure, Except.pure, Except.ok.injEq] at c
    subst c
    have := octRun_caches rnd ops _ t rfl b
    exact ⟨this.1, this.2⟩

/-- The cells that are occupied after a history. -/
theorem octRun_occ {k : ℕ} {size : ℝ} (hs : toDouble size = size) {t0 : Octree} (hg0 : Good k size t0) (h2 : t0.resolution ≤ 2 ^ 19)
    (hno : ∀ c, ¬ OctNode.Occ k t0.root c) (hm : t0.mesh = Mesh.new) {ops : List (Option Vec3)}
    (hp : ∀ p, some p ∈ ops → InBox ⟨-size / 2, -size / 2, -size / 2⟩ ⟨size / 2, size / 2, size / 2⟩ p) :
    ∃ t, Rounded.octRun toDouble ops t0 = .ok t ∧ Good k size t ∧
      ∀ c, OctNode.Occ k t.root c ↔ ∃ p ∈ kept ops [], c = OctNode.cellOf k size (snap3 size p - t0.offset) := by
  obtain ⟨t, e1, e2, hg, -⟩ := octRun_snap hs ops t0 hg0 h2 hp (by rw [hm]; rfl) (by rw [hm]; rfl)
  refine ⟨t, e1, hg, fun c => ?_⟩
  have hun : Untraced (asOps (ops.map (Option.map (snap3 size)))) := by
    intro r a b h
    obtain ⟨o, -, ho⟩ := List.mem_map.1 h
    cases o <;> cases ho
  have := live_occ hun hg0 (ps := []) (by simpa using hno) e2 c
  have hk := kept_map (snap3 size) ops []
  rw [List.map_nil] at hk
  rw [kept_live, hk, hg.off] at this
  rw [this, hg0.off]
  constructor
  · rintro ⟨p', h, e⟩
    obtain ⟨p, h', rfl⟩ := List.mem_map.1 h
    exact ⟨p, h', e⟩
  · rintro ⟨p, h, e⟩
    exact ⟨_, List.mem_map_of_mem h, e⟩

end Octree

end Geo
