import Verif.Spec.NanComposite
import Verif.Lemmas.OctreeUse

/-!
# Ray queries with NaN: agreement with the queries on numbers
-/

namespace Geo

open Spec

/-- A box writes the distance on every hit. -/
theorem Box.rayN_agrees (b : Box) (r : Ray) (t0 t1 d0 : ℝ) (d : Fl) :
    (b.intersectRay r t0 t1 d0).1 = (b.intersectRayN r t0 (.fin t1) d).1 ∧
    ((b.intersectRay r t0 t1 d0).1 = true → (b.intersectRayN r t0 (.fin t1) d).2 = .fin (b.intersectRay r t0 t1 d0).2) := by
  unfold Box.intersectRay Box.intersectRayN
  dsimp only
  split_ifs <;> simp [Fl.lt]

/-- With NaN as the end of the range a box is never hit. -/
theorem Box.rayN_nan (b : Box) (r : Ray) (t0 : ℝ) (d : Fl) : (b.intersectRayN r t0 .nan d).1 = false := by
  unfold Box.intersectRayN
  dsimp only
  split_ifs <;> simp [Fl.lt]

/-- The loop over the children that contain the origin. -/
theorem HNode.loopOriginN_agrees (sel : Fin 4 → Bool) (f : Fin 4 → ℝ → Bool × ℝ) (g : Fin 4 → Fl → Bool × Fl)
    (h : ∀ i d d', (f i d).1 = (g i d').1 ∧ ((f i d).1 = true → (g i d').2 = .fin (f i d).2)) (l : List (Fin 4)) :
    ∀ d d' k, (loopOrigin sel f l d k).1 = (loopOriginN sel g l d' k).1 ∧
      ((loopOrigin sel f l d k).1 = true → (loopOriginN sel g l d' k).2.1 = .fin (loopOrigin sel f l d k).2.1) ∧
      (loopOrigin sel f l d k).2.2 = (loopOriginN sel g l d' k).2.2 := by
  induction l with
  | nil => intro d d' k; simp [loopOrigin, loopOriginN]
  | cons i l ih =>
    intro d d' k
    simp only [loopOrigin, loopOriginN]
    obtain ⟨h1, h2⟩ := h i d d'
    split_ifs with a b c c
    · exact ⟨rfl, fun _ => h2 b, rfl⟩
    · rw [h1] at b; exact absurd b c
    · rw [h1] at b; exact absurd c b
    · exact ih _ _ _
    · exact ih _ _ _

/-- The loop over the other children. -/
theorem HNode.loopRestN_agrees (skip : Option (Fin 4)) (f : Fin 4 → ℝ → Bool × ℝ) (g : Fin 4 → Fl → Bool × Fl)
    (h : ∀ i d d', (f i d).1 = (g i d').1 ∧ ((f i d).1 = true → (g i d').2 = .fin (f i d).2)) (l : List (Fin 4)) :
    ∀ d d', (loopRest skip f l d).1 = (loopRestN skip g l d').1 ∧
      ((loopRest skip f l d).1 = true → (loopRestN skip g l d').2 = .fin (loopRest skip f l d).2) := by
  induction l with
  | nil => intro d d'; simp [loopRest, loopRestN]
  | cons i l ih =>
    intro d d'
    simp only [loopRest, loopRestN]
    obtain ⟨h1, h2⟩ := h i d d'
    split_ifs with a b c c
    · exact ⟨rfl, fun _ => h2 b⟩
    · rw [h1] at b; exact absurd b c
    · rw [h1] at b; exact absurd c b
    · exact ih _ _
    · exact ih _ _

/-- A height map writes the distance on every hit. -/
theorem HNode.rayN_agrees (n : HNode) (r : Ray) (t0 t1 : ℝ) : ∀ (d0 : ℝ) (d : Fl),
    (n.intersectRay r t0 t1 d0).1 = (n.intersectRayN r t0 (.fin t1) d).1 ∧
    ((n.intersectRay r t0 t1 d0).1 = true → (n.intersectRayN r t0 (.fin t1) d).2 = .fin (n.intersectRay r t0 t1 d0).2) := by
  induction n with
  | null => intro d0 d; simp [HNode.intersectRay, HNode.intersectRayN]
  | node box oc ch ih =>
    intro d0 d
    unfold HNode.intersectRay HNode.intersectRayN
    dsimp only
    obtain ⟨h1, h2⟩ := Box.rayN_agrees box r t0 t1 d0 d
    rw [← h1]
    by_cases hb : (box.intersectRay r t0 t1 d0).1 = true
    · simp only [hb, Bool.not_true, Bool.false_eq_true, if_false]
      by_cases ho : oc = true
      · simp only [ho, if_true]
        exact ⟨trivial, fun _ => h2 hb⟩
      · simp only [ho, Bool.false_eq_true, if_false]
        obtain ⟨l1, l2, l3⟩ := HNode.loopOriginN_agrees (fun i => (ch i).boxContains r.origin)
          (fun i d => (ch i).intersectRay r t0 t1 d) (fun i d => (ch i).intersectRayN r t0 (.fin t1) d) ih [0, 1, 2, 3]
          (box.intersectRay r t0 t1 d0).2 (box.intersectRayN r t0 (.fin t1) d).2 none
        rw [← l1, ← l3]
        split_ifs with hf
        · exact ⟨rfl, fun _ => l2 hf⟩
        · exact HNode.loopRestN_agrees _ _ _ ih _ _ _
    · simp [hb]

/-- With NaN as the end of the range a height map is never hit. -/
theorem HNode.rayN_nan (n : HNode) (r : Ray) (t0 : ℝ) (d : Fl) : (n.intersectRayN r t0 .nan d).1 = false := by
  cases n with
  | null => rfl
  | node box oc ch =>
    unfold HNode.intersectRayN
    simp [Box.rayN_nan]

/-- The exit from an octant does not depend on the range. -/
theorem OctNode.exitDist_range (size : ℝ) (x y z : Bool) (o dir : Vec3) (a b : ℝ) :
    OctNode.exitDist size x y z o dir a = OctNode.exitDist size x y z o dir b := by
  unfold OctNode.exitDist Box.intersectRay
  dsimp only
  split_ifs <;> rfl

/-- What the search in an octree leaves in the out-parameter: either in all cases what was there before, or a number that does not
depend on it. -/
theorem OctNode.rayN_cases (res : ℝ) (t1 : ℝ) (n : ℕ) : ∀ (c : OctNode) (r : Ray) (t0 : ℝ),
    (∃ e, (∀ d0, c.intersectRay res n r t0 t1 d0 = .error e) ∧ ∀ d, c.intersectRayN res n r t0 d = .error e) ∨
    (∃ h, (∀ d0, c.intersectRay res n r t0 t1 d0 = .ok (h, d0)) ∧ ∀ d, c.intersectRayN res n r t0 d = .ok (h, d)) ∨
    (∃ h x, (∀ d0, c.intersectRay res n r t0 t1 d0 = .ok (h, x)) ∧ ∀ d, c.intersectRayN res n r t0 d = .ok (h, .fin x)) := by
  induction n with
  | zero => intro c r t0; exact .inl ⟨.hang, fun _ => by cases c <;> rfl, fun _ => by cases c <;> rfl⟩
  | succ n ih =>
    intro c r t0
    cases c with
    | null => exact .inl ⟨.ub, fun _ => rfl, fun _ => rfl⟩
    | node size occ ch =>
      by_cases ho : occ = true
      · exact .inr (.inl ⟨true, fun d0 => by simp [OctNode.intersectRay, ho], fun d => by simp [OctNode.intersectRayN, ho]⟩)
      by_cases hout : OctNode.Outside size (r.origin + t0 * r.direction)
      · exact .inr (.inl ⟨false, fun d0 => by simp [OctNode.intersectRay, ho, hout],
          fun d => by simp [OctNode.intersectRayN, ho, hout]⟩)
      have e1 : ∀ d0, (OctNode.node size occ ch).intersectRay res (n + 1) r t0 t1 d0 =
          (let o := r.origin + t0 * r.direction
          let x := decide (o.x ≥ size / 2)
          let y := decide (o.y ≥ size / 2)
          let z := decide (o.z ≥ size / 2)
          match (match ch (OctNode.index x y z) with
            | .null => .ok (false, d0)
            | c => OctNode.intersectRay res n c (Ray.new (r.origin - OctNode.shift size x y z) r.direction) t0 t1 d0 :
              Exec (Bool × ℝ)) with
          | .error e => .error e
          | .ok (true, d') => .ok (true, d')
          | .ok (false, _) =>
            let distance := t0 - OctNode.exitDist size x y z o r.direction (t1 - t0)
            OctNode.intersectRay res n (.node size occ ch) r (distance + res * 0.1) t1 distance) := by
        intro d0
        rw [OctNode.intersectRay]
        simp only [ho, hout, Bool.false_eq_true, if_false]
        rfl
      have e2 : ∀ d, (OctNode.node size occ ch).intersectRayN res (n + 1) r t0 d =
          (let o := r.origin + t0 * r.direction
          let x := decide (o.x ≥ size / 2)
          let y := decide (o.y ≥ size / 2)
          let z := decide (o.z ≥ size / 2)
          match (match ch (OctNode.index x y z) with
            | .null => .ok (false, d)
            | c => OctNode.intersectRayN res n c (Ray.new (r.origin - OctNode.shift size x y z) r.direction) t0 d :
              Exec (Bool × Fl)) with
          | .error e => .error e
          | .ok (true, d') => .ok (true, d')
          | .ok (false, _) =>
            let distance := t0 - OctNode.exitDist size x y z o r.direction 0
            OctNode.intersectRayN res n (.node size occ ch) r (distance + res * 0.1) (.fin distance)) := by
        intro d
        rw [OctNode.intersectRayN]
        simp only [ho, hout, Bool.false_eq_true, if_false]
        rfl
      simp only [e1, e2]
      clear e1 e2
      generalize decide ((r.origin + t0 * r.direction).x ≥ size / 2) = x
      generalize decide ((r.origin + t0 * r.direction).y ≥ size / 2) = y
      generalize decide ((r.origin + t0 * r.direction).z ≥ size / 2) = z
      rw [OctNode.exitDist_range _ _ _ _ _ _ (t1 - t0) 0]
      generalize t0 - OctNode.exitDist size x y z (r.origin + t0 * r.direction) r.direction 0 = dist
      -- the continuation, whose distance is written
      have tail : (∃ e, OctNode.intersectRay res n (.node size occ ch) r (dist + res * 0.1) t1 dist = .error e ∧
            OctNode.intersectRayN res n (.node size occ ch) r (dist + res * 0.1) (.fin dist) = .error e) ∨
          (∃ h x, OctNode.intersectRay res n (.node size occ ch) r (dist + res * 0.1) t1 dist = .ok (h, x) ∧
            OctNode.intersectRayN res n (.node size occ ch) r (dist + res * 0.1) (.fin dist) = .ok (h, .fin x)) := by
        rcases ih (.node size occ ch) r (dist + res * 0.1) with ⟨e, a, b⟩ | ⟨h, a, b⟩ | ⟨h, x, a, b⟩
        · exact .inl ⟨e, a _, b _⟩
        · exact .inr ⟨h, dist, a _, b _⟩
        · exact .inr ⟨h, x, a _, b _⟩
      have fin : (∃ e, (∀ _ : ℝ, OctNode.intersectRay res n (.node size occ ch) r (dist + res * 0.1) t1 dist = .error e) ∧
            ∀ _ : Fl, OctNode.intersectRayN res n (.node size occ ch) r (dist + res * 0.1) (.fin dist) = .error e) ∨
          (∃ h x, (∀ _ : ℝ, OctNode.intersectRay res n (.node size occ ch) r (dist + res * 0.1) t1 dist = .ok (h, x)) ∧
            ∀ _ : Fl, OctNode.intersectRayN res n (.node size occ ch) r (dist + res * 0.1) (.fin dist) = .ok (h, .fin x)) := by
        rcases tail with ⟨e, a, b⟩ | ⟨h, x, a, b⟩
        · exact .inl ⟨e, fun _ => a, fun _ => b⟩
        · exact .inr ⟨h, x, fun _ => a, fun _ => b⟩
      generalize OctNode.intersectRay res n (.node size occ ch) r (dist + res * 0.1) t1 dist = A at fin
      generalize OctNode.intersectRayN res n (.node size occ ch) r (dist + res * 0.1) (.fin dist) = B at fin
      cases hc : ch (OctNode.index x y z) with
      | null =>
        rcases fin with ⟨e, a, b⟩ | ⟨h, x, a, b⟩
        · exact .inl ⟨e, fun d => a d, fun d => b d⟩
        · exact .inr (.inr ⟨h, x, fun d => a d, fun d => b d⟩)
      | node s' o' c' =>
        simp only
        rcases ih (.node s' o' c') (Ray.new (r.origin - OctNode.shift size x y z) r.direction) t0 with
          ⟨e, a, b⟩ | ⟨h, a, b⟩ | ⟨h, w, a, b⟩
        · exact .inl ⟨e, fun d => by rw [a], fun d => by rw [b]⟩
        · cases h
          · rcases fin with ⟨e, a', b'⟩ | ⟨h, x, a', b'⟩
            · exact .inl ⟨e, fun d => by rw [a]; exact a' d, fun d => by rw [b]; exact b' d⟩
            · exact .inr (.inr ⟨h, x, fun d => by rw [a]; exact a' d, fun d => by rw [b]; exact b' d⟩)
          · exact .inr (.inl ⟨true, fun d => by rw [a], fun d => by rw [b]⟩)
        · cases h
          · rcases fin with ⟨e, a', b'⟩ | ⟨h, x, a', b'⟩
            · exact .inl ⟨e, fun d => by rw [a]; exact a' d, fun d => by rw [b]; exact b' d⟩
            · exact .inr (.inr ⟨h, x, fun d => by rw [a]; exact a' d, fun d => by rw [b]; exact b' d⟩)
          · exact .inr (.inr ⟨true, w, fun d => by rw [a], fun d => by rw [b]⟩)

open Classical in
/-- The outcome of an unbounded loop is that of its first run that does not run out of fuel. -/
theorem unbounded_least {α : Type _} {f : ℕ → Exec α} {m : ℕ} (h1 : f m ≠ .error .hang) (h2 : ∀ k < m, f k = .error .hang) :
    unbounded f = f m := by
  unfold unbounded
  rw [dif_pos ⟨m, h1⟩]
  congr 1
  refine (Nat.find_eq_iff _).2 ⟨h1, fun k hk => ?_⟩
  simp [h2 k hk]

/-- An octree, likewise. -/
theorem Octree.rayN_cases (t : Octree) (r : Ray) (t0 t1 : ℝ) :
    (∃ e, (∀ d0, t.intersectRay r t0 t1 d0 = .error e) ∧ ∀ d, t.intersectRayN r t0 (.fin t1) d = .error e) ∨
    (∃ h, (∀ d0, t.intersectRay r t0 t1 d0 = .ok (h, d0)) ∧ ∀ d, t.intersectRayN r t0 (.fin t1) d = .ok (h, d)) ∨
    (∃ h x, (∀ d0, t.intersectRay r t0 t1 d0 = .ok (h, x)) ∧ ∀ d, t.intersectRayN r t0 (.fin t1) d = .ok (h, .fin x)) := by
  unfold Octree.intersectRay Octree.intersectRayN
  obtain ⟨h1, h2⟩ := Box.rayN_agrees (Box.new t.offset t.max) r t0 t1 0 .nan
  by_cases hb : ((Box.new t.offset t.max).intersectRay r t0 t1 0).1 = true
  · have e : (Box.new t.offset t.max).intersectRayN r t0 (.fin t1) .nan =
        (true, .fin ((Box.new t.offset t.max).intersectRay r t0 t1 0).2) := Prod.ext (by rw [← h1, hb]) (h2 hb)
    rw [e]
    simp only [hb, Bool.not_true, Bool.false_eq_true, if_false]
    have key := fun n => OctNode.rayN_cases t.resolution t1 n t.root (Ray.new (r.origin - t.offset) r.direction)
      (t0 + Max.max ((Box.new t.offset t.max).intersectRay r t0 t1 0).2 0 + t.resolution * 0.1)
    generalize t0 + Max.max ((Box.new t.offset t.max).intersectRay r t0 t1 0).2 0 + t.resolution * 0.1 = s at key
    generalize Ray.new (r.origin - t.offset) r.direction = q at key
    have hang : ∀ n d0 d, t.root.intersectRay t.resolution n q s t1 d0 ≠ .error .hang ↔
        t.root.intersectRayN t.resolution n q s d ≠ .error .hang := by
      intro n d0 d
      rcases key n with ⟨e, a, b⟩ | ⟨h, a, b⟩ | ⟨h, x, a, b⟩ <;> rw [a, b] <;> simp
    by_cases hex : ∃ n, t.root.intersectRay t.resolution n q s t1 0 ≠ .error .hang
    · classical
      have k1 := Nat.find_spec hex
      have k2 := fun k (hk : k < Nat.find hex) => not_not.1 (Nat.find_min hex hk)
      have g1 : ∀ d0, unbounded (fun n => t.root.intersectRay t.resolution n q s t1 d0) =
          t.root.intersectRay t.resolution (Nat.find hex) q s t1 d0 := fun d0 =>
        unbounded_least ((hang _ d0 .nan).2 ((hang _ 0 .nan).1 k1)) fun k hk => by
          by_contra hn
          exact (hang k 0 .nan).2 ((hang k d0 .nan).1 hn) (k2 k hk)
      have g2 : ∀ d, unbounded (fun n => t.root.intersectRayN t.resolution n q s d) =
          t.root.intersectRayN t.resolution (Nat.find hex) q s d := fun d =>
        unbounded_least ((hang _ 0 d).1 k1) fun k hk => by
          by_contra hn
          exact (hang k 0 d).2 hn (k2 k hk)
      simp only [g1, g2]
      exact key _
    · refine .inl ⟨.hang, fun d0 => ?_, fun d => ?_⟩ <;> unfold unbounded <;> rw [dif_neg]
      · rintro ⟨n, hn⟩
        exact hex ⟨n, (hang n 0 .nan).2 ((hang n d0 .nan).1 hn)⟩
      · rintro ⟨n, hn⟩
        exact hex ⟨n, (hang n 0 d).2 hn⟩
  · refine .inr (.inl ⟨false, fun d0 => by simp [hb], fun d => ?_⟩)
    rw [h1] at hb
    split
    · next heq => rw [heq] at hb; simp at hb
    · rfl

/-- With NaN as the end of the range an octree is never hit. -/
theorem Octree.rayN_nan (t : Octree) (r : Ray) (t0 : ℝ) (d : Fl) : t.intersectRayN r t0 .nan d = .ok (false, d) := by
  unfold Octree.intersectRayN
  have := Box.rayN_nan (Box.new t.offset t.max) r t0 .nan
  split
  · next heq => rw [heq] at this; simp at this
  · rfl

/-- The parts of a composite that was built, in order. -/
theorem Composite.build_shapes (l : List (ShapeObj × Transform3)) : ∀ c c',
    l.foldlM (fun (c : Composite) x => c.addShape x.1 x.2) c = .ok c' →
    c'.shapes = c.shapes ++ l.map fun x => (x.1, x.2.inverse) := by
  induction l with
  | nil => intro c c' h; simp only [List.foldlM_nil, pure, Except.pure, Except.ok.injEq] at h; simp [h]
  | cons x l ih =>
    intro c c' h
    simp only [List.foldlM_cons, bind, Except.bind] at h
    cases h1 : c.addShape x.1 x.2 with
    | error e => rw [h1] at h; simp at h
    | ok c1 =>
      rw [h1] at h
      rw [ih c1 c' h]
      unfold Composite.addShape at h1
      cases h2 : x.1.mesh.getTriangles with
      | error e => rw [h2] at h1; simp [bind, Except.bind] at h1
      | ok p =>
        rw [h2] at h1
        simp only [bind, Except.bind, pure, Except.pure, Except.ok.injEq] at h1
        rw [← h1]
        simp

/-- The loop over the parts. -/
theorem Composite.rayLoopN_agrees (r : Ray) (t0 : ℝ) (l : List (NanPart × Transform3)) (h : ∀ x ∈ l, Writes x.1) : ∀ hit md,
    (∃ e, Composite.rayLoop r t0 (l.map fun x => (x.1.obj, x.2)) hit md = .error e ∧
      Composite.rayLoopN r t0 l hit (.fin md) = .error e) ∨
    ∃ hit' md', Composite.rayLoop r t0 (l.map fun x => (x.1.obj, x.2)) hit md = .ok (hit', md') ∧
      Composite.rayLoopN r t0 l hit (.fin md) = .ok (hit', .fin md') := by
  induction l with
  | nil => intro hit md; exact .inr ⟨hit, md, rfl, rfl⟩
  | cons x l ih =>
    intro hit md
    obtain ⟨p, pose⟩ := x
    have hp := h (p, pose) (by simp) (Ray.new (pose.apply r.origin) (pose.R.mulVec r.direction)) t0 md 0 .nan
    have hl := ih fun x hx => h x (by simp [hx])
    simp only [List.map_cons, Composite.rayLoop, Composite.rayLoopN, bind, Except.bind]
    unfold Agrees at hp
    split at hp
    · next e e' h1 h2 => rw [h1, h2, hp]; exact .inl ⟨_, rfl, rfl⟩
    · next a b h1 h2 =>
      rw [h1, h2]
      obtain ⟨a1, a2⟩ := a
      obtain ⟨b1, b2⟩ := b
      obtain ⟨q1, q2⟩ := hp
      dsimp only at q1 q2 ⊢
      subst q1
      cases a1
      · exact hl _ _
      · rw [q2 rfl]; exact hl _ _
    · exact hp.elim

end Geo
