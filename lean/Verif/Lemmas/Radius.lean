import Verif.Spec.Radius
import Verif.Lemmas.Sphere
import Verif.Lemmas.Box
import Verif.Lemmas.Composite

/-!
# Lemmas on sphere tests as a function of the radius (C105)
-/

namespace Geo
open Spec

/-- The test of an edge passes for larger spheres as well. -/
theorem checkLinesegment_grows {p a ab : Vec3} {r r' : ℝ} (h : r ≤ r') (hc : checkLinesegment p r a ab = true) :
    checkLinesegment p r' a ab = true := by
  unfold checkLinesegment at hc ⊢
  dsimp only at hc ⊢
  split_ifs at hc ⊢
  rw [decide_eq_true_eq] at hc ⊢
  exact ⟨hc.1, by nlinarith [hc.2]⟩

/-- The test of a triangle passes for larger spheres as well. -/
theorem sphereHitsTriangle_grows {p v1 v2 v3 : Vec3} {r r' : ℝ} (h : r ≤ r')
    (hc : Shape.sphereHitsTriangle p r v1 v2 v3 = true) : Shape.sphereHitsTriangle p r' v1 v2 v3 = true := by
  unfold Shape.sphereHitsTriangle at hc ⊢
  dsimp only at hc ⊢
  by_cases a1 : (v1 - p).length2 < r'
  · rw [if_pos a1]
  by_cases a2 : (v2 - p).length2 < r'
  · rw [if_neg a1, if_pos a2]
  by_cases a3 : (v3 - p).length2 < r'
  · rw [if_neg a1, if_neg a2, if_pos a3]
  rw [if_neg (by linarith), if_neg (by linarith), if_neg (by linarith)] at hc
  rw [if_neg a1, if_neg a2, if_neg a3]
  by_cases b1 : checkLinesegment p r' v1 (v2 - v1) = true
  · rw [if_pos b1]
  by_cases b2 : checkLinesegment p r' v2 (v3 - v2) = true
  · rw [if_neg b1, if_pos b2]
  by_cases b3 : checkLinesegment p r' v3 (v1 - v3) = true
  · rw [if_neg b1, if_neg b2, if_pos b3]
  rw [if_neg (fun e => b1 (checkLinesegment_grows h e)), if_neg (fun e => b2 (checkLinesegment_grows h e)),
    if_neg (fun e => b3 (checkLinesegment_grows h e))] at hc
  rw [if_neg b1, if_neg b2, if_neg b3]
  split_ifs at hc with c1 c2
  rw [if_neg c1, if_neg (by linarith)]
  exact hc

/-- The loop over the triangles passes for larger spheres as well. -/
theorem sphereLoop_grows {p : Vec3} {ps : List Vec3} {is : List TriI} {ts : List (Vec3 × Vec3 × Vec3)} (hs : soup ps is = some ts)
    {r r' : ℝ} (h : r ≤ r') (hc : Shape.sphereLoop p r ps is = .ok true) : Shape.sphereLoop p r' ps is = .ok true := by
  obtain ⟨b, e1, e2⟩ := sphereLoop_true (p := p) (R2 := r) hs
  obtain ⟨b', f1, f2⟩ := sphereLoop_true (p := p) (R2 := r') hs
  rw [hc, Except.ok.injEq] at e1
  obtain ⟨t, ht, hh⟩ := e2.1 e1.symm
  rw [f1, f2.2 ⟨t, ht, sphereHitsTriangle_grows h hh⟩]

/-- A coordinate between the bounds is its own closest point. -/
theorem Box.closestCoord_self {lo hi p : ℝ} (h1 : lo ≤ p) (h2 : p ≤ hi) : Box.closestCoord lo hi ((lo + hi) / 2) p = p := by
  unfold Box.closestCoord
  split_ifs with h3 h4
  · rfl
  · have : ¬ p < hi := fun e => h3 ⟨by linarith, e⟩
    linarith
  · have : ¬ lo < p := fun e => by
      have : ¬ p < hi := fun e' => h3 ⟨e, e'⟩
      linarith
    linarith

/-- The sphere test of a box, for any two corners. -/
theorem Box.sphere_grows (b : Box) (p : Vec3) : Grows (fun r => .ok (b.intersectSphere p r)) (.ok (b.contains p)) := by
  refine ⟨fun r => ⟨_, rfl⟩, fun r r' h hc => ?_, ?_⟩
  · rw [Except.ok.injEq] at hc ⊢
    unfold Box.intersectSphere at hc ⊢
    dsimp only at hc ⊢
    by_cases h1 : r ≤ 0
    · rw [if_pos h1] at hc
      by_cases h2 : r' ≤ 0
      · rw [if_pos h2]; exact hc
      · rw [if_neg h2]
        unfold Box.contains at hc
        rw [decide_eq_true_eq] at hc ⊢
        obtain ⟨a1, a2, a3, a4, a5, a6⟩ := hc
        simp only [Box.getCenter, Vec3.div_x, Vec3.div_y, Vec3.div_z, Vec3.add_x, Vec3.add_y, Vec3.add_z]
        rw [closestCoord_self a1 a2, closestCoord_self a3 a4, closestCoord_self a5 a6]
        have : (p - ⟨p.x, p.y, p.z⟩ : Vec3).length2 = 0 := by simp [Vec3.length2]
        rw [this]
        exact mul_self_nonneg _
    · rw [if_neg h1, decide_eq_true_eq] at hc
      rw [if_neg (by linarith), decide_eq_true_eq]
      push Not at h1
      nlinarith
  · simp [Box.intersectSphere]

/-- The sphere test of a mesh with another point test behind it, `Shape::intersect` as octrees inherit it, src/Shape.cpp:205-270.
(Device of the proofs.) -/
noncomputable def sphereThen (m : Mesh) (inside : Exec Bool) (p : Vec3) (radius : ℝ) : Exec Bool := open Classical in
  if p.length - radius > m.getMaxRadius.2 then .ok false
  else if radius > 0 then do
    let hit ← Shape.sphereLoop p (radius * radius) m.points m.tris
    if hit then return true else inside
  else inside

/-- `sphereThen` answers and does not lose hits. -/
theorem sphereThen_grows {m : Mesh} {ts : List (Vec3 × Vec3 × Vec3)} (hs : soup m.points m.tris = some ts) (p : Vec3)
    {inside : Exec Bool} (hi : ∃ b, inside = .ok b) :
    (∀ r, ∃ b, sphereThen m inside p r = .ok b) ∧
      ∀ r r', r ≤ r' → sphereThen m inside p r = .ok true → sphereThen m inside p r' = .ok true := by
  obtain ⟨v, rfl⟩ := hi
  constructor
  · intro r
    unfold sphereThen
    split_ifs
    · exact ⟨_, rfl⟩
    · obtain ⟨b, e1, -⟩ := sphereLoop_true (p := p) (R2 := r * r) hs
      rw [e1]
      cases b <;> exact ⟨_, rfl⟩
    · exact ⟨_, rfl⟩
  · intro r r' h hc
    unfold sphereThen at hc ⊢
    split_ifs at hc with h1 h2
    · simp at hc
    · rw [if_neg (by linarith), if_pos (by linarith)]
      obtain ⟨b, e1, -⟩ := sphereLoop_true (p := p) (R2 := r * r) hs
      obtain ⟨b', f1, -⟩ := sphereLoop_true (p := p) (R2 := r' * r') hs
      rw [e1] at hc
      rw [f1]
      cases b with
      | true =>
        have := sphereLoop_grows hs (r' := r' * r') (by nlinarith) e1
        rw [f1, Except.ok.injEq] at this
        subst this
        rfl
      | false =>
        cases b' with
        | true => rfl
        | false => exact hc
    · rw [if_neg (by linarith), hc]
      split_ifs
      · obtain ⟨b', f1, -⟩ := sphereLoop_true (p := p) (R2 := r' * r') hs
        rw [f1]
        cases b' <;> rfl
      · rfl

end Geo
