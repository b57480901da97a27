import Verif.Lemmas.OctreeMesh

/-!
# Helper lemmas for the octree properties, and the trees used in examples
-/

namespace Geo

open Spec

theorem untraced_ok {ops : List Octree.Op} (h : Untraced ops) : ∀ o ∈ ops, OctOpOk o := by
  intro o ho
  cases o with
  | raytrace r t0 t1 => exact absurd ho (h r t0 t1)
  | _ => trivial

theorem live_occ {k : ℕ} {size : ℝ} {ops : List Octree.Op} (hq : Untraced ops) :
    ∀ {t t' : Octree} {ps : List Vec3}, Octree.Good k size t →
      (∀ c, OctNode.Occ k t.root c ↔ ∃ p ∈ ps, c = OctNode.cellOf k size (p - t.offset)) →
      t.run ops = .ok t' →
      ∀ c, OctNode.Occ k t'.root c ↔ ∃ p ∈ live ops ps, c = OctNode.cellOf k size (p - t'.offset) := by
  induction ops with
  | nil =>
    intro t t' ps _ h hrun
    simp only [Octree.run, Except.ok.injEq] at hrun
    subst hrun
    exact h
  | cons op ops ih =>
    intro t t' ps hg h hrun
    have hq' : Untraced ops := fun r a b hm => hq r a b (by simp [hm])
    obtain ⟨t1, h1, h2⟩ := Octree.run_cons hrun
    have hok := untraced_ok hq op (by simp)
    have hg1 := (Octree.step_good hg hok h1).1
    have hoff : t1.offset = t.offset := by rw [hg1.off, hg.off]
    have key : ∀ ps', live (op :: ops) ps = live ops ps' →
        (∀ c, OctNode.Occ k t1.root c ↔ ∃ p ∈ ps', c = OctNode.cellOf k size (p - t1.offset)) →
        ∀ c, OctNode.Occ k t'.root c ↔ ∃ p ∈ live (op :: ops) ps, c = OctNode.cellOf k size (p - t'.offset) := by
      intro ps' e hp
      rw [e]
      exact ih hq' hg1 hp h2
    cases op with
    | add p =>
      obtain ⟨t'', a1, -, -, -, -, a2⟩ := Octree.add_good hg p
      have e : t'' = t1 := by simpa [Octree.step, a1] using h1
      subst e
      refine key (ps ++ [p]) rfl fun c => ?_
      rw [a2, h, hoff]
      simp only [List.mem_append, List.mem_singleton, or_and_right, exists_or, exists_eq_left]
    | clear =>
      simp only [Octree.step, Except.ok.injEq] at h1
      subst h1
      refine key [] rfl fun c => ?_
      simp [(Octree.clear_good hg).2 c]
    | raytrace r a b => exact absurd (by simp) (hq r a b)
    | getMesh =>
      have hr : t1.root = t.root := by
        unfold Octree.step at h1
        cases hgm : t.getMesh with
        | error e => rw [hgm] at h1; simp [bind, Except.bind] at h1
        | ok x =>
          obtain ⟨t2, m⟩ := x
          rw [hgm] at h1
          simp only [bind, Except.bind, pure, Except.pure, Except.ok.injEq] at h1
          subst h1
          exact (Octree.getMesh_good hg hgm).2.1
      exact key ps rfl fun c => by rw [hr, hoff]; exact h c
    | getBoundingBox =>
      have hr : t1.root = t.root := by
        unfold Octree.step at h1
        cases hgm : t.getBoundingBox with
        | error e => rw [hgm] at h1; simp [bind, Except.bind] at h1
        | ok x =>
          obtain ⟨t2, m⟩ := x
          rw [hgm] at h1
          simp only [bind, Except.bind, pure, Except.pure, Except.ok.injEq] at h1
          subst h1
          rcases Octree.getBoundingBox_eq hgm with ⟨-, e, -⟩ | ⟨-, t3, m3, b1, b2, -⟩
          · rw [e]
          · rw [b2]; exact (Octree.getMesh_good hg b1).2.1
      exact key ps rfl fun c => by rw [hr, hoff]; exact h c

/-- A tree made by adding one point to a new tree. -/
theorem single {size r : ℝ} (k : ℕ) (hr : 0 < r) (h1 : size / 2 ^ k ≤ r) (h2 : ∀ j < k, r < size / 2 ^ j)
    (htol : 1e-10 ≤ size / 2 ^ k) (p : Vec3) :
    ∃ t0 t, Octree.new size r = .ok t0 ∧ t0.run [.add p] = .ok t ∧ Octree.Good k size t ∧
      t.resolution = size / 2 ^ k ∧ OctReach size t ∧ t.mesh = Mesh.new ∧ t.base = Shape.new ∧
      ∀ c, OctNode.Occ k t.root c ↔ c = OctNode.cellOf k size (p - ⟨-size / 2, -size / 2, -size / 2⟩) := by
  have h := Octree.new_eq k h1 h2
  have hg : Octree.Good k size ⟨size / 2 ^ k, ⟨-size / 2, -size / 2, -size / 2⟩,
      ⟨size / 2, size / 2, size / 2⟩, size, OctNode.new size, Mesh.new, Shape.new⟩ :=
    ⟨rfl, by simp, htol, rfl, rfl, by simp [OctNode.new], OctNode.WF.new _ _⟩
  obtain ⟨t, a1, a2, a3, a4, a5, a6⟩ := Octree.add_good hg p
  have hrun : Octree.run ⟨size / 2 ^ k, ⟨-size / 2, -size / 2, -size / 2⟩,
      ⟨size / 2, size / 2, size / 2⟩, size, OctNode.new size, Mesh.new, Shape.new⟩ [.add p] = .ok t := by
    simp only [Octree.run, Octree.step, a1, bind, Except.bind]
  refine ⟨_, t, h, hrun, a2, a3, ⟨a2.size_pos, a3 ▸ htol, r, _, [.add p], hr, h, by simp [OctOpOk], hrun⟩,
    a4, a5, fun c => ?_⟩
  rw [a6]
  simp [OctNode.not_occ_new]

theorem contains_eq {k : ℕ} {size : ℝ} {t : Octree} (h : Octree.Good k size t) {p : Vec3}
    (hp : InBox t.offset t.max p) :
    t.contains p = true ↔ OctNode.Occ k t.root (OctNode.bugCell k size (p - t.offset)) := by
  have hw := OctNode.contains_spec k (Octree.root_wf h) (p - t.offset)
  rw [h.res] at hw
  rw [← hw]
  unfold Octree.contains
  obtain ⟨a, b, c, d, e, f⟩ := hp
  rw [if_neg]
  push Not
  refine ⟨?_, ?_, ?_, ?_, ?_, ?_⟩ <;> linarith

theorem axis_between {r : ℝ} (hr : 0 < r) {k : ℕ} {a b : ℝ} (hab : a ≤ b) {c : ℕ} :
    (axisIdx k (r * 2 ^ k) a ≤ c ∧ c ≤ axisIdx k (r * 2 ^ k) b) ↔
      ∃ x, a ≤ x ∧ x ≤ b ∧ InSlab r (2 ^ k) c x := by
  have ha := axisIdx_spec k r a
  have hb := axisIdx_spec k r b
  set ca := axisIdx k (r * 2 ^ k) a
  set cb := axisIdx k (r * 2 ^ k) b
  have mono : ∀ {i j : ℕ} {x y : ℝ}, InSlab r (2 ^ k) i x → InSlab r (2 ^ k) j y → x ≤ y → i ≤ j := by
    rintro i j x y ⟨i1, i2, i3⟩ ⟨j1, j2, j3⟩ hxy
    by_contra hlt
    push Not at hlt
    have h1 : (i:ℝ) * r < x := by
      rcases i2 with i2 | i2
      · omega
      · exact i2
    have h2 : y ≤ (j + 1) * r := by
      rcases j3 with j3 | j3
      · omega
      · exact j3
    have h3 : ((j:ℝ) + 1) ≤ i := by exact_mod_cast hlt
    have := mul_le_mul_of_nonneg_right h3 hr.le
    linarith
  constructor
  · rintro ⟨h1, h2⟩
    rcases h2.eq_or_lt with h2 | h2
    · exact ⟨b, hab, le_rfl, h2 ▸ hb⟩
    · have hcb := hb.1
      have b1 : (cb:ℝ) * r < b := by
        rcases hb.2.1 with h | h
        · omega
        · exact h
      have a1 : a ≤ (ca + 1) * r := by
        rcases ha.2.2 with h | h
        · omega
        · exact h
      have e1 : ((c:ℝ) + 1) ≤ cb := by exact_mod_cast h2
      have e2 : (ca:ℝ) ≤ c := by exact_mod_cast h1
      have e1' := mul_le_mul_of_nonneg_right e1 hr.le
      have e2' := mul_le_mul_of_nonneg_right e2 hr.le
      refine ⟨(c + 1) * r, by linarith, by linarith, by omega, Or.inr (by linarith), Or.inr le_rfl⟩
  · rintro ⟨x, h1, h2, h3⟩
    exact ⟨mono ha h3 h1, mono h3 hb h2⟩

theorem box_hit {k : ℕ} {size : ℝ} {t : Octree} (h : Octree.Good k size t) {o d u : Vec3} (hu : UnitAlong d u)
    (hob : Oblique u) {t0 t1 : ℝ} (ht : t0 < t1) :
    (((Box.new t.offset t.max).intersectRay (Ray.new o d) t0 t1 0).1 = true ↔
      ∃ s, t0 < s ∧ s < t1 ∧ InBox t.offset t.max (along o u s)) ∧
    (((Box.new t.offset t.max).intersectRay (Ray.new o d) t0 t1 0).1 = true →
      IsLeast {s | InBox t.offset t.max (along o u s)}
        ((Box.new t.offset t.max).intersectRay (Ray.new o d) t0 t1 0).2) := by
  refine C26_ray t.offset t.max o d u t0 t1 0 ?_ hu hob.1 hob.2.1 hob.2.2 ht
  rw [h.off, h.max]
  have := h.size_pos
  refine ⟨?_, ?_, ?_⟩ <;> simp only <;> linarith

theorem occ_cube {k : ℕ} {size : ℝ} {t : Octree} (h : Octree.Good k size t) {c : ℕ × ℕ × ℕ}
    (hc : OctNode.Occ k t.root c) {o u : Vec3} {x y s : ℝ} (hth : OctNode.Thick t.resolution (o - t.offset) u c x y)
    (h1 : x < s) (h2 : s < y) : InBox t.offset t.max (along o u s) := by
  rw [← Octree.cube_iff h, ← OctNode.along_sub, ← h.res]
  exact OctNode.Near.cube h.pos hc.lt (hth.2 s h1 h2).near

theorem start_in {k : ℕ} {size : ℝ} {t : Octree} (h : Octree.Good k size t) {o d u : Vec3} (hu : UnitAlong d u)
    (hob : Oblique u) {t0 t1 : ℝ} (ht : t0 < t1) {c : ℕ × ℕ × ℕ} {x y : ℝ} (hc : OctNode.Occ k t.root c)
    (hth : OctNode.Thick t.resolution (o - t.offset) u c x y)
    (hx : (t0 = 0 ∧ 0 ≤ x) ∨ (InBox t.offset t.max o ∧ 0 ≤ t0 ∧ t0 ≤ x))
    (hin : ∃ s, t0 < s ∧ s < t1 ∧ InBox t.offset t.max (along o u s)) :
    ((Box.new t.offset t.max).intersectRay (Ray.new o d) t0 t1 0).1 = true ∧
    t.start (Ray.new o d) t0 t1 ≤ x + t.resolution * 0.1 ∧
    OctNode.InCube (t.resolution * 2 ^ k) (along (o - t.offset) u (t.start (Ray.new o d) t0 t1)) := by
  obtain ⟨b1, b2⟩ := box_hit h hu hob (o := o) ht
  have hhit := b1.2 hin
  obtain ⟨l1, l2⟩ := b2 hhit
  have hr : 0 < t.resolution * 0.1 := mul_pos h.pos (by norm_num)
  refine ⟨hhit, ?_⟩
  unfold Octree.start
  set e := ((Box.new t.offset t.max).intersectRay (Ray.new o d) t0 t1 0).2 with he
  have hxy := hth.1
  have hex : e ≤ x := by
    by_contra hlt
    push Not at hlt
    have hlt' : x < min e y := lt_min hlt (by linarith)
    have m1 : x < (x + min e y) / 2 := by linarith
    have m2 : (x + min e y) / 2 < min e y := by linarith
    have := l2 (occ_cube h hc hth m1 (lt_of_lt_of_le m2 (min_le_right _ _)))
    have := min_le_left e y
    linarith
  have hs0 : t0 + Max.max e 0 ≤ x ∧ 0 ≤ t0 := by
    rcases hx with ⟨rfl, hx⟩ | ⟨hx1, hx2, hx3⟩
    · exact ⟨by have := max_le hex hx; linarith, le_rfl⟩
    · have : e ≤ 0 := l2 (by simpa [along] using hx1)
      rw [max_eq_right this]
      exact ⟨by linarith, hx2⟩
  refine ⟨by linarith, ?_⟩
  rw [h.res]
  have hmid : InBox t.offset t.max (along o u ((x + t.resolution * 0.1 + y) / 2)) :=
    occ_cube h hc hth (by linarith) (by linarith)
  have hle := le_max_left e 0
  have l1' : InBox t.offset t.max (along o u e) := l1
  rw [← Octree.cube_iff h, ← OctNode.along_sub] at hmid l1'
  exact OctNode.cube_convex l1' hmid (by linarith) (by linarith)

/-- The direction used in the examples. -/
theorem unit122 : UnitAlong ⟨1, 2, 2⟩ ⟨1 / 3, 2 / 3, 2 / 3⟩ ∧ Oblique ⟨1 / 3, 2 / 3, 2 / 3⟩ := by
  refine ⟨⟨by norm_num, 3, by norm_num⟩, ?_, ?_, ?_⟩ <;> norm_num [abs_of_pos]

/-- The tree used in the examples: size 2, unit cells, the cell with the highest coordinates occupied. -/
theorem tree2 : ∃ t0 t, Octree.new 2 1 = .ok t0 ∧ t0.run [.add ⟨0.5, 0.5, 0.5⟩] = .ok t ∧
    Octree.Good 1 2 t ∧ t.resolution = 1 ∧ OctReach 2 t ∧ t.offset = ⟨-1, -1, -1⟩ ∧ t.max = ⟨1, 1, 1⟩ ∧
    (∀ c, OctNode.Occ 1 t.root c ↔ c = (1, 1, 1)) ∧
    t.getCubes = [Box.new ⟨0, 0, 0⟩ ⟨1, 1, 1⟩] := by
  obtain ⟨t0, t, h1, h2, h3, h4, h5, -, -, h6⟩ := single (size := 2) (r := 1) 1 (by norm_num) (by norm_num)
    (by intro j hj; interval_cases j; norm_num) (by norm_num) ⟨0.5, 0.5, 0.5⟩
  have e1 : (0.5 - -2 / 2 : ℝ) = 1.5 := by norm_num
  have i2 : axisIdx 1 2 1.5 = 1 := by norm_num [axisIdx]
  simp only [OctNode.cellOf, Vec3.sub_x, e1, Vec3.sub_y, Vec3.sub_z, i2] at h6
  have ho : t.offset = ⟨-1, -1, -1⟩ := by rw [h3.off]; norm_num
  have hr : t.resolution = 1 := by rw [h4]; norm_num
  refine ⟨t0, t, h1, h2, h3, hr, h5, ho, by rw [h3.max]; norm_num, h6, ?_⟩
  obtain ⟨cells, c1, c2, c3⟩ := Octree.good_shows h3
  have : cells.Perm [(1, 1, 1)] := (List.perm_ext_iff_of_nodup c1 (by simp)).2 fun c => by
    rw [c2, h6]; simp
  rw [c3, List.perm_singleton.1 this, ho, hr]
  simp only [List.map_cons, List.map_nil, cellLo, cellHi]
  norm_num

/-- An empty tree of one cell. -/
theorem tree1 : ∃ t, Octree.new 1 1 = .ok t ∧ Octree.Good 0 1 t ∧ t.resolution = 1 ∧ t.getCubes = [] ∧
    OctReach 1 t ∧ t.offset = ⟨-0.5, -0.5, -0.5⟩ ∧ t.max = ⟨0.5, 0.5, 0.5⟩ ∧ ∀ c, ¬ OctNode.Occ 0 t.root c := by
  have h := Octree.new_eq (size := 1) (r := 1) 0 (by norm_num) (by simp)
  refine ⟨_, h, ⟨rfl, by simp, by norm_num, rfl, rfl, by simp [OctNode.new], OctNode.WF.new _ _⟩, by norm_num, ?_,
    ⟨by norm_num, by norm_num, 1, _, [], by norm_num, h, by simp, rfl⟩, by norm_num, by norm_num,
    fun c => OctNode.not_occ_new _ _ _⟩
  simp [Octree.getCubes, OctNode.new, OctNode.getCubes, OctNode.octants]

theorem cubes_in {k : ℕ} {size : ℝ} {t : Octree} (hg : Octree.Good k size t) : ∀ b ∈ t.getCubes,
    InBox ⟨-size / 2, -size / 2, -size / 2⟩ ⟨size / 2, size / 2, size / 2⟩ b.lo ∧
    InBox ⟨-size / 2, -size / 2, -size / 2⟩ ⟨size / 2, size / 2, size / 2⟩ b.hi := by
  obtain ⟨cells, c1, c2, c3⟩ := Octree.good_shows hg
  have hpos := hg.pos
  have hsz : t.resolution * ((2 ^ k : ℕ) : ℝ) = size := by push_cast; exact hg.res
  have bound : ∀ c : ℕ, c < 2 ^ k → (0:ℝ) ≤ c * t.resolution ∧ ((c:ℝ) + 1) * t.resolution ≤ size := by
    intro c hc
    refine ⟨by positivity, ?_⟩
    have : ((c:ℝ) + 1) ≤ ((2 ^ k : ℕ) : ℝ) := by exact_mod_cast hc
    have := mul_le_mul_of_nonneg_left this hpos.le
    linarith
  intro b hb
  rw [c3] at hb
  obtain ⟨c, hc, rfl⟩ := List.mem_map.1 hb
  obtain ⟨q1, q2, q3⟩ := ((c2 c).1 hc).lt
  have b1 := bound _ q1
  have b2 := bound _ q2
  have b3 := bound _ q3
  rw [hg.off]
  simp only [Box.new_lo, Box.new_hi, InBox, cellLo, cellHi]
  refine ⟨⟨?_, ?_, ?_, ?_, ?_, ?_⟩, ?_, ?_, ?_, ?_, ?_, ?_⟩ <;> linarith

theorem run_bb {k : ℕ} {size : ℝ} {ops : List Octree.Op} (hnb : Octree.Op.getBoundingBox ∉ ops)
    (hok : ∀ o ∈ ops, OctOpOk o) : ∀ {t t' : Octree}, Octree.Good k size t → t.run ops = .ok t' →
      t'.base = t.base := by
  induction ops with
  | nil => intro t t' _ h; simp only [Octree.run, Except.ok.injEq] at h; rw [h]
  | cons op ops ih =>
    intro t t' hg h
    obtain ⟨t1, h1, h2⟩ := Octree.run_cons h
    have hg1 := (Octree.step_good hg (hok op (by simp)) h1).1
    rw [ih (fun hm => hnb (by simp [hm])) (fun o ho => hok o (by simp [ho])) hg1 h2]
    cases op with
    | add p =>
      obtain ⟨t'', a1, -, -, -, a2, -⟩ := Octree.add_good hg p
      have e : t'' = t1 := by simpa [Octree.step, a1] using h1
      exact e ▸ a2
    | clear => simp only [Octree.step, Except.ok.injEq] at h1; rw [← h1]; rfl
    | raytrace r a b =>
      obtain ⟨o, d, u, hu, rfl⟩ := hok _ (List.mem_cons_self ..)
      cases hh : ((Box.new t.offset t.max).intersectRay (Ray.new o d) a b 0).1 with
      | true =>
        obtain ⟨f, n, t'', b1, b2, b3, b4, b5, b6, -⟩ := Octree.raytrace_good hg hu a b hh
        have e : t'' = t1 := by simpa [Octree.step, b2] using h1
        exact e ▸ b6
      | false =>
        have e : t = t1 := by simpa [Octree.step, Octree.raytrace_miss hh] using h1
        rw [e]
    | getMesh =>
      unfold Octree.step at h1
      cases hgm : t.getMesh with
      | error e => rw [hgm] at h1; simp [bind, Except.bind] at h1
      | ok x =>
        obtain ⟨t2, m⟩ := x
        rw [hgm] at h1
        simp only [bind, Except.bind, pure, Except.pure, Except.ok.injEq] at h1
        subst h1
        exact (Octree.getMesh_good hg hgm).2.2.2.2.1
    | getBoundingBox => exact absurd (List.mem_cons_self ..) hnb

theorem forall₂_mem {α β : Type} {R : α → β → Prop} {l : List α} {l' : List β} (h : List.Forall₂ R l l') {a : α}
    (ha : a ∈ l) : ∃ b ∈ l', R a b := by
  induction h with
  | nil => simp at ha
  | cons h1 h2 ih =>
    rcases List.mem_cons.1 ha with rfl | ha
    · exact ⟨_, by simp, h1⟩
    · obtain ⟨b, hb, hr⟩ := ih ha
      exact ⟨b, by simp [hb], hr⟩

theorem soup_mem {ps : List Vec3} {ts : List TriI} {l : List (Vec3 × Vec3 × Vec3)} (h : soup ps ts = some l)
    {c : Vec3 × Vec3 × Vec3} (hc : c ∈ l) : c.1 ∈ ps ∧ c.2.1 ∈ ps ∧ c.2.2 ∈ ps := by
  rw [Mesh.soup_some] at h
  induction h with
  | nil => simp at hc
  | cons h1 h2 ih =>
    rcases List.mem_cons.1 hc with rfl | hc
    · exact ⟨List.mem_of_getElem? h1.1, List.mem_of_getElem? h1.2.1, List.mem_of_getElem? h1.2.2⟩
    · exact ih hc

end Geo
