import Verif.Lemmas.DepthCameraTriangle
import Verif.Lemmas.DepthCameraBuffer
import Verif.Lemmas.DepthCameraClip
import Verif.Lemmas.LaserRangeFinderSlice

/-!
# Rendering a mesh with the depth camera
-/

namespace Geo

open Spec Raster

/-! ## The clipped triangles -/

theorem onTriangle_first (A B C : Vec3) : OnTriangle A B C A :=
  ⟨1, 0, 0, by norm_num, le_rfl, le_rfl, by norm_num, by ring, by ring, by ring⟩

theorem onTriangle_second (A B C : Vec3) : OnTriangle A B C B :=
  ⟨0, 1, 0, le_rfl, by norm_num, le_rfl, by norm_num, by ring, by ring, by ring⟩

theorem onTriangle_third (A B C : Vec3) : OnTriangle A B C C :=
  ⟨0, 0, 1, le_rfl, le_rfl, by norm_num, by norm_num, by ring, by ring, by ring⟩

/-- The cases of the clipping. -/
theorem clipped_cases (p1 p2 p3 : Vec3) :
    (¬ p1.z < nearClip ∧ ¬ p2.z < nearClip ∧ ¬ p3.z < nearClip ∧ clipped p1 p2 p3 = []) ∨
    (p1.z < nearClip ∧ p2.z < nearClip ∧ p3.z < nearClip ∧ clipped p1 p2 p3 = [(p1, p2, p3)]) ∨
    (∃ v w1 w2, ((v, w1, w2) = (p1, p2, p3) ∨ (v, w1, w2) = (p2, p3, p1) ∨ (v, w1, w2) = (p3, p1, p2)) ∧
      v.z < nearClip ∧ ¬ w1.z < nearClip ∧ ¬ w2.z < nearClip ∧ clipped p1 p2 p3 = [(v, clip v w1, clip v w2)]) ∨
    (∃ v0 v1 w, ((v0, v1, w) = (p1, p2, p3) ∨ (v0, v1, w) = (p2, p3, p1) ∨ (v0, v1, w) = (p3, p1, p2)) ∧
      v0.z < nearClip ∧ v1.z < nearClip ∧ ¬ w.z < nearClip ∧
      clipped p1 p2 p3 = [(v0, v1, clip v0 w), (clip v0 w, v1, clip v1 w)]) := by
  unfold clipped
  by_cases h1 : p1.z < nearClip <;> by_cases h2 : p2.z < nearClip <;> by_cases h3 : p3.z < nearClip <;>
    simp only [h1, h2, h3, decide_true, decide_false]
  · right; left
    exact ⟨trivial, trivial, trivial, trivial⟩
  · right; right; right
    exact ⟨p1, p2, p3, .inl rfl, h1, h2, h3, rfl⟩
  · right; right; right
    exact ⟨p3, p1, p2, .inr (.inr rfl), h3, h1, h2, rfl⟩
  · right; right; left
    exact ⟨p1, p2, p3, .inl rfl, h1, h2, h3, rfl⟩
  · right; right; right
    exact ⟨p2, p3, p1, .inr (.inl rfl), h2, h3, h1, rfl⟩
  · right; right; left
    exact ⟨p2, p3, p1, .inr (.inl rfl), h2, h3, h1, rfl⟩
  · right; right; left
    exact ⟨p3, p1, p2, .inr (.inr rfl), h3, h1, h2, rfl⟩
  · left
    exact ⟨not_false, not_false, not_false, trivial⟩

theorem rotations {p1 p2 p3 a b c : Vec3} (h : (a, b, c) = (p1, p2, p3) ∨ (a, b, c) = (p2, p3, p1) ∨ (a, b, c) = (p3, p1, p2)) :
    (∀ q, OnTriangle a b c q ↔ OnTriangle p1 p2 p3 q) ∧ normalOf a b c = normalOf p1 p2 p3 ∧
      (∀ P : Vec3 → Prop, (P a ∨ P b ∨ P c) ↔ (P p1 ∨ P p2 ∨ P p3)) := by
  rcases h with h | h | h <;> simp only [Prod.mk.injEq] at h <;> obtain ⟨rfl, rfl, rfl⟩ := h
  · exact ⟨fun _ => Iff.rfl, rfl, fun _ => Iff.rfl⟩
  · exact ⟨fun _ => onTriangle_rotate_iff.symm, normal_rotate _ _ _, fun P => by tauto⟩
  · exact ⟨fun _ => onTriangle_rotate_iff, (normal_rotate _ _ _).symm, fun P => by tauto⟩

/-- The clipped triangles together are the part in front of the plane. -/
theorem clipped_spec (p1 p2 p3 : Vec3) :
    (p1.z < nearClip ∨ p2.z < nearClip ∨ p3.z < nearClip → ∀ q,
      (∃ t ∈ clipped p1 p2 p3, OnTriangle t.1 t.2.1 t.2.2 q) ↔ OnTriangle p1 p2 p3 q ∧ q.z ≤ nearClip) ∧
    (¬ (p1.z < nearClip ∨ p2.z < nearClip ∨ p3.z < nearClip) → clipped p1 p2 p3 = []) ∧
    (∀ t ∈ clipped p1 p2 p3, ∃ k, 0 ≤ k ∧ normalOf t.1 t.2.1 t.2.2 =
      ⟨k * (normalOf p1 p2 p3).x, k * (normalOf p1 p2 p3).y, k * (normalOf p1 p2 p3).z⟩) := by
  rcases clipped_cases p1 p2 p3 with ⟨h1, h2, h3, e⟩ | ⟨h1, h2, h3, e⟩ | ⟨v, w1, w2, hr, h1, h2, h3, e⟩ |
    ⟨v0, v1, w, hr, h1, h2, h3, e⟩ <;> rw [e]
  · exact ⟨fun h => absurd h (by tauto), fun _ => rfl, by simp⟩
  · refine ⟨fun _ q => ?_, fun h => absurd (.inl h1) h, fun t ht => ?_⟩
    · simp only [List.mem_singleton, exists_eq_left]
      refine ⟨fun h => ⟨h, ?_⟩, fun h => h.1⟩
      obtain ⟨a, b, c, ha, hb, hc, e, -, -, qz⟩ := h
      have e1 := mul_le_mul_of_nonneg_left h1.le ha
      have e2 := mul_le_mul_of_nonneg_left h2.le hb
      have e3 := mul_le_mul_of_nonneg_left h3.le hc
      have h5 : a * nearClip + b * nearClip + c * nearClip = nearClip := by linear_combination nearClip * e
      linarith
    · rw [List.mem_singleton] at ht
      subst ht
      exact ⟨1, zero_le_one, by simp⟩
  · obtain ⟨r1, r2, r3⟩ := rotations hr
    refine ⟨fun _ q => ?_, fun h => absurd ((r3 (fun p => p.z < nearClip)).1 (.inl h1)) h, fun t ht => ?_⟩
    · simp only [List.mem_singleton, exists_eq_left]
      rw [clip_one h1 h2 h3, r1]
    · rw [List.mem_singleton] at ht
      subst ht
      obtain ⟨k, hk, hn⟩ := clip_one_normal h1 h2 h3
      exact ⟨k, hk.le, by rw [hn, r2]⟩
  · obtain ⟨r1, r2, r3⟩ := rotations hr
    refine ⟨fun _ q => ?_, fun h => absurd ((r3 (fun p => p.z < nearClip)).1 (.inl h1)) h, fun t ht => ?_⟩
    · simp only [List.mem_cons, List.not_mem_nil, or_false, exists_eq_or_imp, exists_eq_left]
      rw [clip_two h1 h2 h3, r1]
    · obtain ⟨⟨k, hk, hn⟩, ⟨k', hk', hn'⟩⟩ := clip_two_normal h1 h2 h3
      simp only [List.mem_cons, List.not_mem_nil, or_false] at ht
      rcases ht with rfl | rfl
      · exact ⟨k, hk, by rw [hn, r2]⟩
      · exact ⟨k', hk', by rw [hn', r2]⟩

/-- The corners of the clipped triangles are points of the triangle in front of the plane. -/
theorem clipped_corner {p1 p2 p3 : Vec3} {t : Vec3 × Vec3 × Vec3} (ht : t ∈ clipped p1 p2 p3) {q : Vec3}
    (hq : q = t.1 ∨ q = t.2.1 ∨ q = t.2.2) : OnTriangle p1 p2 p3 q ∧ q.z ≤ nearClip := by
  obtain ⟨h1, h2, -⟩ := clipped_spec p1 p2 p3
  have hv : p1.z < nearClip ∨ p2.z < nearClip ∨ p3.z < nearClip := by
    by_contra h
    rw [h2 h] at ht
    simp at ht
  refine (h1 hv q).1 ⟨t, ht, ?_⟩
  rcases hq with rfl | rfl | rfl
  · exact onTriangle_first _ _ _
  · exact onTriangle_second _ _ _
  · exact onTriangle_third _ _ _

theorem Spec.OnTriangle.bound {A B C q : Vec3} (h : OnTriangle A B C q) {K : ℝ} (hA : |A.x| ≤ K ∧ |A.y| ≤ K)
    (hB : |B.x| ≤ K ∧ |B.y| ≤ K) (hC : |C.x| ≤ K ∧ |C.y| ≤ K) : |q.x| ≤ K ∧ |q.y| ≤ K := by
  obtain ⟨a, b, c, ha, hb, hc, e, qx, qy, -⟩ := h
  have key : ∀ u v w : ℝ, |u| ≤ K → |v| ≤ K → |w| ≤ K → |a * u + b * v + c * w| ≤ K := by
    intro u v w hu hv hw
    rw [abs_le] at *
    have e1 := mul_le_mul_of_nonneg_left hu.2 ha
    have e2 := mul_le_mul_of_nonneg_left hv.2 hb
    have e3 := mul_le_mul_of_nonneg_left hw.2 hc
    have f1 := mul_le_mul_of_nonneg_left hu.1 ha
    have f2 := mul_le_mul_of_nonneg_left hv.1 hb
    have f3 := mul_le_mul_of_nonneg_left hw.1 hc
    have h5 : a * K + b * K + c * K = K := by linear_combination K * e
    constructor <;> linarith
  rw [qx, qy]
  exact ⟨key _ _ _ hA.1 hB.1 hC.1, key _ _ _ hA.2 hB.2 hC.2⟩

theorem corner_small {c : Camera} {K : ℝ} (hc : Moderate c K) {p : Vec3} (hp : |p.x| ≤ K ∧ |p.y| ≤ K)
    (hz : p.z ≤ nearClip) : Small (corner c p) := by
  have hz' : 1 / 10 ≤ -p.z := by unfold nearClip at hz; linarith
  have hK : 0 ≤ K := (abs_nonneg _).trans hp.1
  have key : ∀ f u T o B : ℝ, |u| ≤ K → 10 * (|f| * K + |T|) + |o| < B → |(f * u + T) / -p.z + o| < B := by
    intro f u T o B hu hB
    have h1 : |f * u + T| ≤ |f| * K + |T| := by
      refine (abs_add_le _ _).trans ?_
      rw [abs_mul]
      have := mul_le_mul_of_nonneg_left hu (abs_nonneg f)
      linarith
    have h2 : |(f * u + T) / -p.z| ≤ 10 * (|f| * K + |T|) := by
      rw [abs_div, abs_of_pos (by linarith : 0 < -p.z), div_le_iff₀ (by linarith)]
      have h3 : 0 ≤ |f| * K + |T| := add_nonneg (mul_nonneg (abs_nonneg _) hK) (abs_nonneg _)
      have := mul_le_mul_of_nonneg_left hz' (by linarith : 0 ≤ 10 * (|f| * K + |T|))
      linarith
    have := abs_add_le ((f * u + T) / -p.z) o
    linarith
  refine ⟨key _ _ _ _ _ hp.1 hc.1, ?_⟩
  exact key c.fy (-p.y) c.Ty c.cy _ (by rw [abs_neg]; exact hp.2) hc.2

/-! ## The calls of a list of triangles -/

theorem triangles3D_ok (c : Camera) (width height : ℕ) (culling : Bool) (tri : ℕ) : ∀ ts : List (Vec3 × Vec3 × Vec3),
    (∀ t ∈ ts, Small (corner c t.1) ∧ Small (corner c t.2.1) ∧ Small (corner c t.2.2)) →
    ∃ cs, triangles3D c width height culling tri ts = .ok cs ∧ ∀ p ∈ cs, InImage width height p.x p.y ∧ p.tri = tri
  | [], _ => ⟨[], rfl, by simp⟩
  | (p1, p2, p3) :: ts, h => by
    obtain ⟨s1, s2, s3⟩ := h _ List.mem_cons_self
    obtain ⟨cs, e1, e2, e3⟩ := triangle2D_ok width height culling tri s1 s2 s3
    obtain ⟨rs, f1, f2⟩ := triangles3D_ok c width height culling tri ts (fun t ht => h t (List.mem_cons_of_mem _ ht))
    refine ⟨cs ++ rs, ?_, fun p hp => ?_⟩
    · simp only [triangles3D, e1, f1, bind, Except.bind, pure, Except.pure]
    · rcases List.mem_append.1 hp with hp | hp
      · by_cases hw : (culling = true ∧ culls (corner c p1) (corner c p2) (corner c p3)) ∨
          ¬ InWindow width height (corner c p1) (corner c p2) (corner c p3)
        · rw [e2 hw] at hp
          simp at hp
        · rw [not_or, not_not] at hw
          have := (e3 hw.1 hw.2).1 p hp
          exact ⟨this.1, this.2.1⟩
      · exact f2 p hp

/-- The points of a posed mesh. -/
theorem posed_bound {m : Mesh} {T : Transform3} {K : ℝ} (h : Near m T K) {p : Vec3}
    (hp : p ∈ m.points.map fun p => T.apply p) : |p.x| ≤ K ∧ |p.y| ≤ K := by
  obtain ⟨q, hq, rfl⟩ := List.mem_map.1 hp
  exact h q hq

theorem clipped_small {c : Camera} {K : ℝ} (hc : Moderate c K) {p1 p2 p3 : Vec3} (h1 : |p1.x| ≤ K ∧ |p1.y| ≤ K)
    (h2 : |p2.x| ≤ K ∧ |p2.y| ≤ K) (h3 : |p3.x| ≤ K ∧ |p3.y| ≤ K) :
    ∀ t ∈ clipped p1 p2 p3, Small (corner c t.1) ∧ Small (corner c t.2.1) ∧ Small (corner c t.2.2) := by
  intro t ht
  have key : ∀ q, (q = t.1 ∨ q = t.2.1 ∨ q = t.2.2) → Small (corner c q) := by
    intro q hq
    obtain ⟨a, b⟩ := clipped_corner ht hq
    exact corner_small hc (a.bound h1 h2 h3) b
  exact ⟨key _ (.inl rfl), key _ (.inr (.inl rfl)), key _ (.inr (.inr rfl))⟩

/-- Any invariant of the state that pixels inside the image keep is kept by rendering, which does not fail. -/
theorem loop_ok {σ : Type} (k : Sink σ) (c : Camera) (width height : ℕ) (culling : Bool) {K : ℝ} (hc : Moderate c K)
    {points : List Vec3} (hp : ∀ p ∈ points, |p.x| ≤ K ∧ |p.y| ≤ K) (I : σ → Prop)
    (hI : ∀ s p, I s → InImage width height p.x p.y → ∃ s', k.pixel s p = .ok s' ∧ I s') :
    ∀ (ts : List TriI) (i : ℕ) (s : σ), Valid points ts → I s →
      ∃ s', loop k c width height culling points i ts s = .ok s' ∧ I s'
  | [], _, s, _, hs => ⟨s, rfl, hs⟩
  | t :: ts, i, s, hv, hs => by
    obtain ⟨v1, v2, v3⟩ := hv t List.mem_cons_self
    obtain ⟨cs, e1, e2⟩ := triangles3D_ok c width height culling i _ (clipped_small hc (hp _ (List.getElem_mem v1))
      (hp _ (List.getElem_mem v2)) (hp _ (List.getElem_mem v3)))
    have hpx : ∀ (cs : List PixelCall) (s : σ), (∀ p ∈ cs, InImage width height p.x p.y) → I s →
        ∃ s', k.pixels cs s = .ok s' ∧ I s' := by
      intro cs
      induction cs with
      | nil => exact fun s _ hs => ⟨s, rfl, hs⟩
      | cons p ps ih =>
        intro s hin hs
        obtain ⟨s1, g1, g2⟩ := hI s p hs (hin p List.mem_cons_self)
        obtain ⟨s2, g3, g4⟩ := ih s1 (fun q hq => hin q (List.mem_cons_of_mem _ hq)) g2
        exact ⟨s2, by simp only [Sink.pixels, g1, bind, Except.bind]; exact g3, g4⟩
    obtain ⟨s1, f1, f2⟩ := hpx cs s (fun p hp => (e2 p hp).1) hs
    simp only [loop, vget_lt v1, vget_lt v2, vget_lt v3, e1, f1, bind, Except.bind, pure, Except.pure]
    by_cases hst : k.stopped s1 = true
    · rw [if_pos hst]
      exact ⟨s1, rfl, f2⟩
    · rw [if_neg hst]
      exact loop_ok k c width height culling hc hp I hI ts _ s1 (fun t ht => hv t (List.mem_cons_of_mem _ ht)) f2

theorem valid_map {ps : List Vec3} {ts : List TriI} (h : Valid ps ts) (f : Vec3 → Vec3) : Valid (ps.map f) ts := by
  intro t ht
  obtain ⟨h1, h2, h3⟩ := h t ht
  exact ⟨by simpa using h1, by simpa using h2, by simpa using h3⟩

/-! ## Early returns -/

/-- Nothing in view, nothing drawn. -/
theorem loop_none {σ : Type} (k : Sink σ) (c : Camera) (width height : ℕ) (culling : Bool) {points : List Vec3}
    (hp : ∀ p ∈ points, ¬ p.z < nearClip) : ∀ (ts : List TriI) (i : ℕ) (s : σ), Valid points ts →
      loop k c width height culling points i ts s = .ok s
  | [], _, s, _ => rfl
  | t :: ts, i, s, hv => by
    obtain ⟨v1, v2, v3⟩ := hv t List.mem_cons_self
    have : clipped points[t.i1] points[t.i2] points[t.i3] = [] :=
      (clipped_spec _ _ _).2.1 (by
        have a := hp _ (List.getElem_mem v1)
        have b := hp _ (List.getElem_mem v2)
        have c := hp _ (List.getElem_mem v3)
        tauto)
    simp only [loop, vget_lt v1, vget_lt v2, vget_lt v3, this, triangles3D, Sink.pixels, bind, Except.bind, pure,
      Except.pure]
    rw [loop_none k c width height culling hp ts _ s (fun t ht => hv t (List.mem_cons_of_mem _ ht))]
    split_ifs <;> rfl

theorem radius_behind {m : Mesh} {T : Transform3} (hT : Rigid T) (hm : GoodMesh m) (h : m.getMaxRadius.2 < T.t.z) :
    ∀ p ∈ m.points.map (fun p => T.apply p), ¬ p.z < nearClip := by
  obtain ⟨⟨ops, hops⟩, hv⟩ := hm
  have hrad : IsRadius m.points m.getMaxRadius.2 := by
    rw [(Mesh.getMaxRadius_ok (Mesh.coherent_run Mesh.coherent_new hops)).1]
    exact Mesh.sqMax_isRadius _
  have hR : 0 ≤ m.getMaxRadius.2 := by
    rw [(Mesh.getMaxRadius_ok (Mesh.coherent_run Mesh.coherent_new hops)).1]
    exact Real.sqrt_nonneg _
  intro p hp
  obtain ⟨q, hq, rfl⟩ := List.mem_map.1 hp
  have hd := posed_dist hT hR (hrad.1 q hq)
  have hz : ((T.apply q).z - T.t.z) ^ 2 ≤ m.getMaxRadius.2 ^ 2 := by
    unfold distSq at hd
    nlinarith [sq_nonneg ((T.apply q).x - T.t.x), sq_nonneg ((T.apply q).y - T.t.y)]
  have := (abs_le_of_sq_le_sq' hz hR).1
  unfold nearClip
  linarith

theorem render_eq_loop {σ : Type} (k : Sink σ) (c : Camera) (width height : ℕ) {m : Mesh} {T : Transform3} (hT : Rigid T)
    (hm : GoodMesh m) (culling : Bool) (s : σ) :
    render k c width height m T culling s =
      loop k c width height culling (m.points.map fun p => T.apply p) 0 m.tris s := by
  have hv := valid_map hm.2 fun p => T.apply p
  unfold render
  dsimp only
  split_ifs with h1 h2
  · exact (loop_none k c width height culling (radius_behind hT hm h1) m.tris 0 s hv).symm
  · rfl
  · exact (loop_none k c width height culling (fun p hp h => h2 ⟨p, hp, h⟩) m.tris 0 s hv).symm

/-- Rendering a mesh keeps any invariant that pixels inside the image keep, and does not fail. -/
theorem render_ok {σ : Type} (k : Sink σ) (c : Camera) (width height : ℕ) (culling : Bool) {K : ℝ} (hc : Moderate c K)
    {m : Mesh} {T : Transform3} (hv : Valid m.points m.tris) (hn : Near m T K) (I : σ → Prop)
    (hI : ∀ s p, I s → InImage width height p.x p.y → ∃ s', k.pixel s p = .ok s' ∧ I s') (s : σ) (hs : I s) :
    ∃ s', render k c width height m T culling s = .ok s' ∧ I s' := by
  unfold render
  dsimp only
  split_ifs
  · exact ⟨s, rfl, hs⟩
  · exact loop_ok k c width height culling hc (fun p hp => posed_bound hn hp) I hI m.tris 0 s (valid_map hv _) hs
  · exact ⟨s, rfl, hs⟩

/-! ## Stopping -/

theorem pixels_tri {y : ℤ} {dd : Fl} {tri : ℕ} {n : ℕ} {x : ℤ} {d : Fl} : ∀ c ∈ pixels y dd tri n x d, c.tri = tri := by
  intro c hc
  obtain ⟨k, -, rfl⟩ := (mem_pixels _ _ _).1 hc
  rfl

theorem row_tri {width : ℕ} {y : ℤ} {xs xe ds de : Fl} {tri : ℕ} {cs : List PixelCall}
    (h : row width y xs xe ds de tri = .ok cs) : ∀ c ∈ cs, c.tri = tri := by
  unfold row at h
  by_cases hx : xs.lt (.fin 0) = true
  · rw [if_pos hx] at h
    simp only [bind, Except.bind, pure, Except.pure] at h
    cases he : xe.toInt with
    | error => rw [he] at h; cases h
    | ok => rw [he] at h; cases h; exact pixels_tri
  · rw [if_neg hx] at h
    simp only [bind, Except.bind, pure, Except.pure] at h
    cases hs : xs.toInt with
    | error => rw [hs] at h; cases h
    | ok =>
      cases he : xe.toInt with
      | error => rw [hs, he] at h; cases h
      | ok => rw [hs, he] at h; cases h; exact pixels_tri

theorem rows_tri {width tri : ℕ} : ∀ {n : ℕ} {y : ℤ} {s e : Edge} {cs : List PixelCall},
    rows width tri n y s e = .ok cs → ∀ c ∈ cs, c.tri = tri
  | 0, _, _, _, _, h => by cases h; simp
  | n + 1, y, s, e, cs, h => by
    simp only [rows, bind, Except.bind, pure, Except.pure] at h
    cases h1 : row width y s.x e.x s.d e.d tri with
    | error => rw [h1] at h; cases h
    | ok a =>
      cases h2 : rows width tri n (y + 1) s.next e.next with
      | error => rw [h1, h2] at h; cases h
      | ok b =>
        rw [h1, h2] at h
        cases h
        intro c hc
        rcases List.mem_append.1 hc with hc | hc
        · exact row_tri h1 c hc
        · exact rows_tri h2 c hc

theorem part_tri {width height : ℕ} {y0 y1 : ℤ} {s e : Edge} {tri : ℕ} {cs : List PixelCall}
    (h : part width height y0 y1 s e tri = .ok cs) : ∀ c ∈ cs, c.tri = tri := by
  unfold part at h
  by_cases hy : y0 < 0
  · rw [if_pos hy] at h
    simp only [bind, Except.bind, pure, Except.pure] at h
    cases hi : intOp (-y0) with
    | error => rw [hi] at h; cases h
    | ok => rw [hi] at h; exact rows_tri h
  · rw [if_neg hy] at h
    simp only [bind, Except.bind, pure, Except.pure] at h
    exact rows_tri h

theorem triangle2D_tri {width height : ℕ} {culling : Bool} {p1 p2 p3 : Vec3} {tri : ℕ} {cs : List PixelCall}
    (h : triangle2D width height culling p1 p2 p3 tri = .ok cs) : ∀ c ∈ cs, c.tri = tri := by
  unfold triangle2D at h
  by_cases hc : culling = true ∧ culls p1 p2 p3
  · rw [if_pos hc] at h
    cases h
    simp
  rw [if_neg hc] at h
  simp only [bind, Except.bind, pure, Except.pure] at h
  repeat' split at h
  all_goals first
    | (cases h; done)
    | (cases h; intro c hc; simp at hc; done)
    | exact part_tri h
    | (cases h
       intro c hc
       rename_i h1 _ _ h2
       rcases List.mem_append.1 hc with hc | hc
       · exact part_tri h1 c hc
       · exact part_tri h2 c hc)

theorem triangles3D_tri {c : Camera} {width height : ℕ} {culling : Bool} {tri : ℕ} :
    ∀ {ts : List (Vec3 × Vec3 × Vec3)} {cs : List PixelCall}, triangles3D c width height culling tri ts = .ok cs →
      ∀ p ∈ cs, p.tri = tri
  | [], _, h => by cases h; simp
  | (p1, p2, p3) :: ts, cs, h => by
    simp only [triangles3D, bind, Except.bind, pure, Except.pure] at h
    cases h1 : triangle2D width height culling (corner c p1) (corner c p2) (corner c p3) tri with
    | error => rw [h1] at h; cases h
    | ok a =>
      cases h2 : triangles3D c width height culling tri ts with
      | error => rw [h1, h2] at h; cases h
      | ok b =>
        rw [h1, h2] at h
        cases h
        intro p hp
        rcases List.mem_append.1 hp with hp | hp
        · exact triangle2D_tri h1 p hp
        · exact triangles3D_tri h2 p hp

/-- The pixels of some triangles are the pixels of one after another. -/
theorem triangles3D_flat {c : Camera} {width height : ℕ} {culling : Bool} {tri : ℕ} :
    ∀ {ts : List (Vec3 × Vec3 × Vec3)} {cs : List PixelCall}, triangles3D c width height culling tri ts = .ok cs →
      ∃ css, List.Forall₂ (fun t cs => triangle2D width height culling (corner c t.1) (corner c t.2.1) (corner c t.2.2) tri =
        .ok cs) ts css ∧ cs = css.flatten
  | [], _, h => by cases h; exact ⟨[], .nil, rfl⟩
  | (p1, p2, p3) :: ts, cs, h => by
    simp only [triangles3D, bind, Except.bind, pure, Except.pure] at h
    cases h1 : triangle2D width height culling (corner c p1) (corner c p2) (corner c p3) tri with
    | error => rw [h1] at h; cases h
    | ok a =>
      cases h2 : triangles3D c width height culling tri ts with
      | error => rw [h1, h2] at h; cases h
      | ok b =>
        rw [h1, h2] at h
        cases h
        obtain ⟨css, f1, rfl⟩ := triangles3D_flat h2
        exact ⟨a :: css, .cons h1 f1, rfl⟩

theorem loop_stop {σ : Type} (k : Sink σ) (c : Camera) (width height : ℕ) (culling : Bool) (points : List Vec3) :
    ∀ (ts : List TriI) (i : ℕ) (s s' : σ), i + ts.length ≤ 2 ^ 32 →
      loop k c width height culling points i ts s = .ok s' →
      ∃ n ≤ ts.length, ∃ st : ℕ → σ, st 0 = s ∧ st n = s' ∧ (n = 0 → ts = []) ∧
        (∀ j < n, ∃ t p1 p2 p3 calls, ts[j]? = some t ∧ points[t.i1]? = some p1 ∧ points[t.i2]? = some p2 ∧
          points[t.i3]? = some p3 ∧ triangles3D c width height culling (i + j) (clipped p1 p2 p3) = .ok calls ∧
          k.pixels calls (st j) = .ok (st (j + 1))) ∧
        (∀ j, 0 < j → j < n → k.stopped (st j) = false) ∧ (n < ts.length → k.stopped s' = true)
  | [], i, s, s', _, h => by
    cases h
    exact ⟨0, le_rfl, fun _ => s, rfl, rfl, fun _ => rfl, by simp, by simp, by simp⟩
  | t :: ts, i, s, s', hi, h => by
    simp only [List.length_cons] at hi
    simp only [loop, bind, Except.bind, pure, Except.pure] at h
    cases h1 : vget points t.i1 with
    | error => rw [h1] at h; cases h
    | ok p1 =>
    cases h2 : vget points t.i2 with
    | error => rw [h1, h2] at h; cases h
    | ok p2 =>
    cases h3 : vget points t.i3 with
    | error => rw [h1, h2, h3] at h; cases h
    | ok p3 =>
    simp only [h1, h2, h3] at h
    cases h4 : triangles3D c width height culling i (clipped p1 p2 p3) with
    | error => rw [h4] at h; cases h
    | ok calls =>
    simp only [h4] at h
    cases h5 : k.pixels calls s with
    | error => rw [h5] at h; cases h
    | ok s1 =>
    simp only [h5] at h
    rw [vget_ok] at h1 h2 h3
    by_cases hst : k.stopped s1 = true
    · rw [if_pos hst] at h
      cases h
      refine ⟨1, by simp, fun j => if j = 0 then s else s', rfl, rfl, by simp, ?_, ?_, fun _ => hst⟩
      · intro j hj
        obtain rfl : j = 0 := by omega
        exact ⟨t, p1, p2, p3, calls, rfl, h1, h2, h3, h4, h5⟩
      · intro j a b
        omega
    · rw [if_neg hst] at h
      have h' : loop k c width height culling points (i + 1) ts s1 = .ok s' := by
        cases ts with
        | nil => exact h
        | cons t' ts' =>
          have hu : u32 (i + 1) = i + 1 := by
            unfold u32
            simp only [List.length_cons] at hi
            omega
          rwa [hu] at h
      obtain ⟨n, hn, st, g0, g1, g2, g3, g4, g5⟩ := loop_stop k c width height culling points ts (i + 1) s1 s' (by omega) h'
      refine ⟨n + 1, by simpa using hn, fun j => if j = 0 then s else st (j - 1), rfl, by simpa using g1, by simp, ?_, ?_,
        fun hlt => g5 (by simpa using hlt)⟩
      · intro j hj
        cases j with
        | zero => exact ⟨t, p1, p2, p3, calls, rfl, h1, h2, h3, h4, by simpa [g0] using h5⟩
        | succ j =>
          obtain ⟨t', q1, q2, q3, cs, e1, e2, e3, e4, e5, e6⟩ := g3 j (by omega)
          refine ⟨t', q1, q2, q3, cs, by simpa using e1, e2, e3, e4, ?_, by simpa using e6⟩
          rw [show i + (j + 1) = i + 1 + j by ring]
          exact e5
      · intro j a b
        cases j with
        | zero => omega
        | succ j =>
          cases j with
          | zero =>
            show k.stopped (st 0) = false
            rw [g0]
            simpa using hst
          | succ j =>
            show k.stopped (st (j + 1)) = false
            exact g4 (j + 1) (by omega) (by omega)

/-! ## Maps -/

namespace DefaultResult

theorem resize_roomy {α : Type} {m : List (List α)} {cols rows : ℕ} (v : α) (h : ∀ col ∈ m, rows ≤ col.length) :
    Roomy (if misfit m cols rows = true then resize m cols rows v else m) cols rows := by
  by_cases hm : misfit m cols rows = true
  · rw [if_pos hm]
    unfold resize
    refine ⟨by simp; omega, fun col hc => ?_⟩
    rcases List.mem_append.1 hc with hc | hc
    · exact h col (List.mem_of_mem_take hc)
    · rw [List.eq_of_mem_replicate hc]
      simp
  · rw [if_neg hm]
    refine ⟨?_, h⟩
    cases m with
    | nil => simp [misfit] at hm
    | cons col m =>
      simp [misfit] at hm
      simp
      omega

theorem new_fit {image : DepthImage} {pointer : ℕ} {pm : List (List ℕ)} {tm : List (List ℤ)}
    (hp : ∀ col ∈ pm, image.rows ≤ col.length) (ht : ∀ col ∈ tm, image.rows ≤ col.length) : Fit (new image pointer pm tm) := by
  refine ⟨?_, fun h => ?_⟩
  · exact resize_roomy _ ht
  · have := resize_roomy (cols := image.cols) 0 hp
    have e : (new image pointer pm tm).pointerMap = if misfit pm image.cols image.rows = true then
        resize pm image.cols image.rows 0 else pm := by
      show (if pointer ≠ 0 ∧ misfit pm image.cols image.rows = true then _ else _) = _
      have h' : pointer ≠ 0 := h
      simp only [h', ne_eq, not_false_eq_true, true_and]
    rw [e]
    exact this

theorem resize_cols {α : Type} {m : List (List α)} {cols rows n : ℕ} (v : α) (h : ∀ col ∈ m, n ≤ col.length) (hn : n ≤ rows) :
    ∀ col ∈ resize m cols rows v, n ≤ col.length := by
  intro col hc
  rcases List.mem_append.1 hc with hc | hc
  · exact h col (List.mem_of_mem_take hc)
  · rw [List.eq_of_mem_replicate hc]
    simpa using hn

theorem cols_lengths {α β : Type} {m : List (List α)} {m' : List (List β)} (h : m'.map List.length = m.map List.length) {n : ℕ}
    (hm : ∀ col ∈ m, n ≤ col.length) : ∀ col ∈ m', n ≤ col.length := by
  intro col hc
  have : col.length ∈ m.map List.length := by
    rw [← h]
    exact List.mem_map_of_mem hc
  obtain ⟨c, h1, h2⟩ := List.mem_map.1 this
  rw [← h2]
  exact hm c h1

/-- The columns after a call are the earlier ones and columns of the height of the image. -/
theorem new_cols {image : DepthImage} {pointer : ℕ} {pm : List (List ℕ)} {tm : List (List ℤ)} {n : ℕ} (hn : n ≤ image.rows)
    (hp : ∀ col ∈ pm, n ≤ col.length) (ht : ∀ col ∈ tm, n ≤ col.length) :
    (∀ col ∈ (new image pointer pm tm).pointerMap, n ≤ col.length) ∧
      (∀ col ∈ (new image pointer pm tm).triangleMap, n ≤ col.length) := by
  unfold new
  dsimp only
  constructor
  · split_ifs
    · exact resize_cols _ hp hn
    · exact hp
  · split_ifs
    · exact resize_cols _ ht hn
    · exact ht

end DefaultResult

/-- Rasterising into maps whose columns are long enough. -/
theorem rasterize_ok {c : Camera} {K : ℝ} (hc : Moderate c K) {m : Mesh} {T : Transform3} (hv : Valid m.points m.tris)
    (hn : Near m T K) {image : DepthImage} {pointer : ℕ} {pm : List (List ℕ)} {tm : List (List ℤ)}
    (hp : ∀ col ∈ pm, image.rows ≤ col.length) (ht : ∀ col ∈ tm, image.rows ≤ col.length) :
    ∃ r, rasterize c m T image pm pointer tm = .ok r ∧ DefaultResult.Same (.new image pointer pm tm) r := by
  have hf := DefaultResult.new_fit (pointer := pointer) hp ht
  obtain ⟨r, h1, h2⟩ := render_ok DefaultResult.sink c image.cols image.rows true hc hv hn
    (fun r => DefaultResult.Same (.new image pointer pm tm) r) (fun s p hs hi => by
      obtain ⟨s', e1, e2, -⟩ := DefaultResult.pixel_ok (r := s) (c := p) (by rw [hs.cols, hs.rows]; exact hi) (hs.fit hf)
      exact ⟨s', e1, hs.trans e2⟩) _ (.refl _)
  exact ⟨r, h1, h2⟩

end Geo
