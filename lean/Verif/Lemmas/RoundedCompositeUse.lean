import Verif.Spec.RoundedComposite
import Verif.Lemmas.RoundedComposite
import Verif.Lemmas.RoundedPose
import Verif.Lemmas.RoundedBoxTests

/-! # Queries of composites in floating point arithmetic -/

namespace Geo.Rounded
open Spec Matrix

variable {u δ ρ τ : ℝ} {rnd : ℝ → ℝ} {l : List (ShapeObj × Transform3)}

theorem mem_partCorners {x : ShapeObj × Transform3} (hx : x ∈ l) {c : Vec3} (hc : c ∈ cornersOf (trianglesOf x.1.mesh)) :
    apply rnd x.2 c ∈ partCorners rnd l :=
  List.mem_flatMap.2 ⟨x, hx, List.mem_map.2 ⟨c, hc, rfl⟩⟩

/-- Error of a computed corner. -/
theorem corner_err (h : RelErr u rnd) (hu : u ≤ 1 / 1000) (hδ : δ ≤ 1 / 10) {x : ShapeObj × Transform3}
    (hx : PartOk δ ρ τ x) {c : Vec3} (hc : c ∈ cornersOf (trianglesOf x.1.mesh)) :
    |(apply rnd x.2 c).x - (x.2.apply c).x| ≤ 8 * u * (ρ + τ) ∧ |(apply rnd x.2 c).y - (x.2.apply c).y| ≤ 8 * u * (ρ + τ) ∧
    |(apply rnd x.2 c).z - (x.2.apply c).z| ≤ 8 * u * (ρ + τ) := by
  have hu0 := relErr_nonneg h
  obtain ⟨h1, h2, h3⟩ := RoundedBox.apply_coord h hu hδ hx.orth (hx.near c hc)
  have : 8 * u * (ρ + len (V x.2.t)) ≤ 8 * u * (ρ + τ) :=
    mul_le_mul_of_nonneg_left (by linarith [hx.shift]) (by positivity)
  exact ⟨h1.trans this, h2.trans this, h3.trans this⟩

/-- Length of a corner in the frame of the whole. -/
theorem corner_len (h : RelErr u rnd) (hu : u ≤ 1 / 1000) (hδ : δ ≤ 1 / 10) {x : ShapeObj × Transform3}
    (hx : PartOk δ ρ τ x) {c : Vec3} (hc : c ∈ cornersOf (trianglesOf x.1.mesh)) :
    len (V (x.2.apply c)) ≤ 1.15 * ρ + τ ∧ len (V (apply rnd x.2 c) - V (x.2.apply c)) ≤ 8 * u * (ρ + τ) := by
  have hu0 := relErr_nonneg h
  constructor
  · rw [V_apply]
    have h1 := len_add (M x.2.R *ᵥ V c) (V x.2.t)
    have h2 := len_up hx.orth (V c)
    have h3 : (1 + 1.5 * δ) * len (V c) ≤ 1.15 * len (V c) := mul_le_mul_of_nonneg_right (by linarith) (len_nonneg _)
    linarith [hx.shift, hx.near c hc]
  · have h1 := apply_len h hu0 hu (hx.orth.small hδ) c
    rw [V_apply]
    refine h1.trans (mul_le_mul_of_nonneg_left ?_ (by positivity))
    linarith [hx.shift, hx.near c hc]

/-- The bounding box contains the posed hulls up to the error of a corner. -/
theorem hull_inBox (h : RelErr u rnd) (hu : u ≤ 1 / 1000) (hδ : δ ≤ 1 / 10) {lo hi : Vec3}
    (hb : ∀ p ∈ partCorners rnd l, InBox lo hi p) {x : ShapeObj × Transform3} (hx : x ∈ l) (hp : PartOk δ ρ τ x) {y : Vec3}
    (hy : InHull (cornersOf (trianglesOf x.1.mesh)) y) {m : ℝ} (hm : m = 8 * u * (ρ + τ)) :
    InBox ⟨lo.x - m, lo.y - m, lo.z - m⟩ ⟨hi.x + m, hi.y + m, hi.z + m⟩ (x.2.apply y) := by
  apply (hy.apply x.2).inBox
  intro z hz
  obtain ⟨c, hc, rfl⟩ := List.mem_map.1 hz
  obtain ⟨h1, h2, h3⟩ := corner_err h hu hδ hp hc
  rw [← hm, abs_le] at h1 h2 h3
  obtain ⟨b1, b2, b3, b4, b5, b6⟩ := hb _ (mem_partCorners hx hc)
  refine ⟨?_, ?_, ?_, ?_, ?_, ?_⟩ <;> simp only <;> linarith

theorem dist_axis (p : Vec3) {e : ℝ} (he : 0 ≤ e) :
    Spec.dist p ⟨p.x - e, p.y, p.z⟩ = e ∧ Spec.dist p ⟨p.x + e, p.y, p.z⟩ = e ∧ Spec.dist p ⟨p.x, p.y - e, p.z⟩ = e ∧
    Spec.dist p ⟨p.x, p.y + e, p.z⟩ = e ∧ Spec.dist p ⟨p.x, p.y, p.z - e⟩ = e ∧ Spec.dist p ⟨p.x, p.y, p.z + e⟩ = e := by
  refine ⟨?_, ?_, ?_, ?_, ?_, ?_⟩ <;>
  · unfold Spec.dist distSq
    have hs := Real.sqrt_sq he
    ring_nf at hs ⊢
    exact hs

/-- A point with room around it in a part is in the bounding box. -/
theorem ball_inBox (h : RelErr u rnd) (hu : u ≤ 1 / 1000) (hδ : δ ≤ 1 / 10) {lo hi : Vec3}
    (hb : ∀ p ∈ partCorners rnd l, InBox lo hi p) {x : ShapeObj × Transform3} (hx : x ∈ l) (hp : PartOk δ ρ τ x) {e : ℝ}
    (he : 8 * u * (ρ + τ) ≤ e) (he0 : 0 ≤ e) {p : Vec3}
    (hy : ∀ p', Spec.dist p p' ≤ e → ∃ y, x.2.apply y = p' ∧ InHull (cornersOf (trianglesOf x.1.mesh)) y) :
    InBox lo hi p := by
  obtain ⟨d1, d2, d3, d4, d5, d6⟩ := dist_axis p he0
  obtain ⟨y1, e1, h1⟩ := hy _ d1.le
  obtain ⟨y2, e2, h2⟩ := hy _ d2.le
  obtain ⟨y3, e3, h3⟩ := hy _ d3.le
  obtain ⟨y4, e4, h4⟩ := hy _ d4.le
  obtain ⟨y5, e5, h5⟩ := hy _ d5.le
  obtain ⟨y6, e6, h6⟩ := hy _ d6.le
  have k1 := (hull_inBox h hu hδ hb hx hp h1 rfl).1
  have k2 := (hull_inBox h hu hδ hb hx hp h2 rfl).2.1
  have k3 := (hull_inBox h hu hδ hb hx hp h3 rfl).2.2.1
  have k4 := (hull_inBox h hu hδ hb hx hp h4 rfl).2.2.2.1
  have k5 := (hull_inBox h hu hδ hb hx hp h5 rfl).2.2.2.2.1
  have k6 := (hull_inBox h hu hδ hb hx hp h6 rfl).2.2.2.2.2
  rw [e1] at k1
  rw [e2] at k2
  rw [e3] at k3
  rw [e4] at k4
  rw [e5] at k5
  rw [e6] at k6
  simp only at k1 k2 k3 k4 k5 k6
  refine ⟨?_, ?_, ?_, ?_, ?_, ?_⟩ <;> linarith

/-- A point of the box widened by `m` is near a point of the box. -/
theorem clamp_near {lo hi p : Vec3} {m : ℝ} (hp : Proper lo hi)
    (hb : InBox ⟨lo.x - m, lo.y - m, lo.z - m⟩ ⟨hi.x + m, hi.y + m, hi.z + m⟩ p) (hm : 0 ≤ m) :
    ∃ q, InBox lo hi q ∧ Spec.dist p q ≤ 1.7321 * m := by
  obtain ⟨b1, b2, b3, b4, b5, b6⟩ := hb
  simp only at b1 b2 b3 b4 b5 b6
  have one : ∀ {a b x : ℝ}, a ≤ b → a - m ≤ x → x ≤ b + m → ∃ y, a ≤ y ∧ y ≤ b ∧ (x - y) ^ 2 ≤ m ^ 2 := by
    intro a b x h1 h2 h3
    refine ⟨Max.max a (Min.min x b), le_max_left _ _, max_le h1 (min_le_right _ _), ?_⟩
    apply sq_le_sq'
    · rcases le_total x b with h | h
      · rw [min_eq_left h]
        have := max_le (show a ≤ x + m by linarith) (show x ≤ x + m by linarith)
        linarith
      · rw [min_eq_right h, max_eq_right h1]; linarith
    · rcases le_total x b with h | h
      · rw [min_eq_left h]
        have := le_max_right a x
        linarith
      · rw [min_eq_right h, max_eq_right h1]; linarith
  obtain ⟨x, x1, x2, x3⟩ := one hp.1 b1 b2
  obtain ⟨y, y1, y2, y3⟩ := one hp.2.1 b3 b4
  obtain ⟨z, z1, z2, z3⟩ := one hp.2.2 b5 b6
  refine ⟨⟨x, y, z⟩, ⟨x1, x2, y1, y2, z1, z2⟩, ?_⟩
  unfold Spec.dist distSq
  rw [Real.sqrt_le_left (by positivity)]
  simp only
  have := sq_nonneg m
  nlinarith

/-- What the loops over the parts answer. -/
theorem any_parts (h : RelErr u rnd) (hu : u ≤ 1 / 1000) (hδ : δ ≤ 1 / 10)
    (hl : ∀ x ∈ l, PartOk δ ρ τ x) (hρ : 0 ≤ ρ) {p : Vec3} {ε : ℝ} (hε : (24 * u + 5 * δ) * (ρ + τ + len (V p)) ≤ ε)
    (f : ShapeObj → Vec3 → Exec Bool) (hf : ∀ x ∈ l, ∀ q, ∃ b, f x.1 q = .ok b) :
    let r := anyOf (fun s : ShapeObj × Transform3 => f s.1 (apply rnd s.2 p)) (l.map fun x => (x.1, inverse rnd x.2))
    ((∃ x ∈ l, ∀ p', Spec.dist p p' ≤ ε → Posed x.2 (fun q => f x.1 q = .ok true) p') → r = .ok true) ∧
    ((∀ x ∈ l, ∀ p', Spec.dist p p' ≤ ε → ¬ Posed x.2 (fun q => f x.1 q = .ok true) p') → r = .ok false) := by
  have hu0 := relErr_nonneg h
  obtain ⟨b, hb, hbi⟩ := Composite.anyOf_total (fun s : ShapeObj × Transform3 => f s.1 (apply rnd s.2 p))
    (l.map fun x => (x.1, inverse rnd x.2)) (by
      intro a ha
      obtain ⟨y, hy, rfl⟩ := List.mem_map.1 ha
      exact hf y hy _)
  have near : ∀ x ∈ l, Spec.dist p (x.2.apply (apply rnd (inverse rnd x.2) p)) ≤ ε := by
    intro x hx
    refine ((local_dist h hu (hl x hx).orth hδ p).trans ?_).trans hε
    have h0 := delta_nonneg (hl x hx).orth
    exact mul_le_mul_of_nonneg_left (by linarith [(hl x hx).shift]) (by positivity)
  intro r
  have hr : r = .ok b := hb
  constructor
  · rintro ⟨x, hx, hp⟩
    obtain ⟨q, hq, hfq⟩ := hp _ (near x hx)
    have := injective (hl x hx).orth hδ hq
    rw [hr, hbi.2 ⟨(x.1, inverse rnd x.2), List.mem_map.2 ⟨x, hx, rfl⟩, by rw [← this]; exact hfq⟩]
  · intro hn
    rw [hr]
    congr 1
    rw [← Bool.not_eq_true, hbi]
    rintro ⟨a, ha, hfa⟩
    obtain ⟨x, hx, rfl⟩ := List.mem_map.1 ha
    exact hn x hx _ (near x hx) ⟨_, rfl, hfa⟩

end Geo.Rounded

namespace Geo.Rounded
open Spec Matrix

variable {u δ ρ τ : ℝ} {rnd : ℝ → ℝ} {l : List (ShapeObj × Transform3)}

theorem mem_posed_iff {p : Vec3} :
    p ∈ cornersOf (posedTriangles l) ↔ ∃ x ∈ l, ∃ c ∈ cornersOf (trianglesOf x.1.mesh), x.2.apply c = p := by
  induction l with
  | nil => simp [posedTriangles, cornersOf]
  | cons x l ih =>
    rw [Composite.posedTriangles_cons, List.mem_append, ih]
    simp [posedCorners]

theorem len_coord (p : Vec3) : |p.x| ≤ len (V p) ∧ |p.y| ≤ len (V p) ∧ |p.z| ≤ len (V p) :=
  ⟨RoundedBox.abs_le_len (V p) 0, RoundedBox.abs_le_len (V p) 1, RoundedBox.abs_le_len (V p) 2⟩

/-- The points of a hull are no longer than its corners. -/
theorem hull_len {S : List Vec3} {q : Vec3} (h : InHull S q) {r : ℝ} (hr : ∀ x ∈ S, len (V x) ≤ r) : len (V q) ≤ r := by
  have dot : ∀ a b : Vec3, a.x * b.x + a.y * b.y + a.z * b.z = V a ⬝ᵥ V b := by
    intro a b
    simp [V, dotProduct, Fin.sum_univ_three]
  have h0 := len_nonneg (V q)
  have h1 := h q.x q.y q.z (len (V q) * r) (by
    intro x hx
    rw [dot]
    refine ((le_abs_self _).trans (Chains.dot_len _ _)).trans ?_
    exact mul_le_mul_of_nonneg_left (hr x hx) h0)
  rw [dot, ← Chains.len_sq] at h1
  rcases h0.lt_or_eq with h2 | h2
  · rw [pow_two] at h1
    exact le_of_mul_le_mul_left h1 h2
  · obtain ⟨x, hx⟩ := h.nonempty
    rw [← h2]
    exact (len_nonneg _).trans (hr x hx)

/-- The length that the code computes for a corner. -/
theorem corner_length (h : RelErr u rnd) (hu : u ≤ 1 / 1000) (hδ : δ ≤ 1 / 10) (hρ : 0 ≤ ρ) {x : ShapeObj × Transform3}
    (hx : PartOk δ ρ τ x) {c : Vec3} (hc : c ∈ cornersOf (trianglesOf x.1.mesh)) :
    |length rnd (apply rnd x.2 c) - len (V (x.2.apply c))| ≤ 12 * u * (ρ + τ) := by
  have hu0 := relErr_nonneg h
  have R : Rnd u 0 rnd := ⟨le_rfl, hu0, hu, h⟩
  obtain ⟨h1, h2⟩ := corner_len h hu hδ hx hc
  have h3 := R.length (apply rnd x.2 c)
  have e : (apply rnd x.2 c).length = len (V (apply rnd x.2 c)) := by
    simp [len, V, Vec3.length, Fin.sum_univ_three, pow_two]
  rw [e] at h3
  have h4 := Chains.len_sub (V (apply rnd x.2 c)) (V (apply rnd x.2 c) - V (x.2.apply c))
  have h5 := len_add (V (apply rnd x.2 c) - V (x.2.apply c)) (V (x.2.apply c))
  rw [sub_add_cancel] at h5
  rw [sub_sub_cancel] at h4
  have t0 : 0 ≤ τ := (len_nonneg _).trans hx.shift
  have u1 : 0 ≤ u * (ρ + τ) := by positivity
  have u2 : u * (u * (ρ + τ)) ≤ 1 / 1000 * (u * (ρ + τ)) := mul_le_mul_of_nonneg_right hu u1
  have u3 : 0 ≤ u * ρ := by positivity
  have u4 : 0 ≤ u * τ := by positivity
  have h6 : u * len (V (apply rnd x.2 c)) ≤ u * (1.15 * ρ + τ + 8 * u * (ρ + τ)) :=
    mul_le_mul_of_nonneg_left (by linarith) hu0
  rw [abs_le] at h3 ⊢
  constructor <;> linarith [h3.1, h3.2]

end Geo.Rounded
