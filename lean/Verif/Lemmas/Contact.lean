import Verif.Lemmas.Shape
import Mathlib.Algebra.BigOperators.Group.Finset.Basic
import Mathlib.Algebra.BigOperators.Group.Finset.Piecewise

/-!
# Helper lemmas for `Shape::contains`: probes through edges and vertices
-/

namespace Geo

open Spec

/-- Which contact pattern holds, in terms of the side products. -/
theorem meets_iff {p P v1 v2 v3 : Vec3} {za zb zc : Prop}
    (hnz : ¬ (vol4 p P v1 v2 = 0 ∧ vol4 p P v2 v3 = 0 ∧ vol4 p P v3 v1 = 0)) :
    Meets p P (v1, v2, v3) za zb zc ↔
      side (v1, v2, v3) p * side (v1, v2, v3) P ≤ 0 ∧
      ((0 ≤ vol4 p P v1 v2 ∧ 0 ≤ vol4 p P v2 v3 ∧ 0 ≤ vol4 p P v3 v1) ∨
       (vol4 p P v1 v2 ≤ 0 ∧ vol4 p P v2 v3 ≤ 0 ∧ vol4 p P v3 v1 ≤ 0)) ∧
      (vol4 p P v2 v3 = 0 ↔ za) ∧ (vol4 p P v3 v1 = 0 ↔ zb) ∧ (vol4 p P v1 v2 = 0 ↔ zc) := by
  have hsum := side_sum p P v1 v2 v3
  constructor
  · rintro ⟨s, a, b, c, hs0, hs1, ha, hb, hc, h1, hza, hzb, hzc, hx⟩
    obtain ⟨e1, e2, e3, -⟩ := line_hit h1 hx
    have hE : side (v1, v2, v3) p ≠ side (v1, v2, v3) P := by
      intro h
      rw [h] at e1 e2 e3
      exact hnz ⟨by simp [e1], by simp [e2], by simp [e3]⟩
    have hE' : side (v1, v2, v3) P - side (v1, v2, v3) p ≠ 0 := fun h => hE (by linarith)
    have hin : InTri (v1, v2, v3) (lerp p P s) := ⟨a, b, c, ha, hb, hc, h1, hx⟩
    refine ⟨((seg_pattern hE).1 ⟨s, hs0, hs1, hin⟩).2, (tri_pattern hE).2 ⟨s, hin⟩, ?_, ?_, ?_⟩
    · rw [e2, mul_eq_zero, ← hza]; simp [hE']
    · rw [e3, mul_eq_zero, ← hzb]; simp [hE']
    · rw [e1, mul_eq_zero, ← hzc]; simp [hE']
  · rintro ⟨hfg, hpat, hza, hzb, hzc⟩
    have hE : side (v1, v2, v3) p ≠ side (v1, v2, v3) P := by
      intro h
      apply hnz
      rcases hpat with ⟨a, b, c⟩ | ⟨a, b, c⟩
      · refine ⟨?_, ?_, ?_⟩ <;> linarith
      · refine ⟨?_, ?_, ?_⟩ <;> linarith
    obtain ⟨s, h0, h1, a, b, c, ha, hb, hc, h, hx⟩ := (seg_pattern hE).2 ⟨(tri_pattern hE).1 hpat, hfg⟩
    obtain ⟨e1, e2, e3, -⟩ := line_hit h hx
    have hE' : side (v1, v2, v3) P - side (v1, v2, v3) p ≠ 0 := fun h => hE (by linarith)
    rw [e2, mul_eq_zero] at hza
    rw [e3, mul_eq_zero] at hzb
    rw [e1, mul_eq_zero] at hzc
    simp only [hE', or_false] at hza hzb hzc
    exact ⟨s, a, b, c, h0, h1, ha, hb, hc, h, hza, hzb, hzc, hx⟩

/-- The key of an undirected edge. -/
def symKey (e : Sym2 ℕ) : ℕ × ℕ := e.lift ⟨Shape.edgeKey, by
  intro i j
  rcases lt_trichotomy i j with h | h | h
  · simp [Shape.edgeKey, h, h.not_gt]
  · subst h; simp
  · simp [Shape.edgeKey, h, h.not_gt]⟩

theorem symKey_mk (i j : ℕ) : symKey s(i, j) = Shape.edgeKey i j := rfl

theorem symKey_inj {e e' : Sym2 ℕ} (h : ∀ i ∈ e, i < 2 ^ 32) (h' : ∀ i ∈ e', i < 2 ^ 32)
    (heq : symKey e = symKey e') : e = e' := by
  induction e with | _ i j =>
  induction e' with | _ i' j' =>
  have a1 := h i (by simp)
  have a2 := h j (by simp)
  have b1 := h' i' (by simp)
  have b2 := h' j' (by simp)
  simp only [symKey_mk, Shape.edgeKey, u32, Prod.mk.injEq] at heq
  rw [Sym2.eq_iff]
  split_ifs at heq <;> omega

/-- The effect of meeting the surface at a given place with a given heading. -/
noncomputable def bump (st : Shape.HitState) (d : ℤ) : Option Contact → Shape.HitState
  | none => st
  | some .face => { st with count := st.count + d }
  | some (.edge e) =>
    if st.edge (symKey e) = d then st else
      { st with count := st.count + d,
                edge := Function.update st.edge (symKey e) (st.edge (symKey e) + d) }
  | some (.vertex i) =>
    if st.vertex i = d then st else
      { st with count := st.count + d, vertex := Function.update st.vertex i (st.vertex i + d) }

theorem dist_length (x y : Vec3) : Spec.dist x y = (x - y).length := by
  unfold Spec.dist distSq Vec3.length
  congr 1
  simp only [Vec3.sub_x, Vec3.sub_y, Vec3.sub_z]
  ring

theorem near_edge {p x y : Vec3} (h : 1e-12 < |Spec.dist p x + Spec.dist y p - Spec.dist y x|)
    (b : Prop) [Decidable b] :
    ¬ |(p - if b then y else x).length + ((if b then x else y) - p).length -
      ((if b then x else y) - if b then y else x).length| ≤ 1e-12 := by
  have sym : ∀ u v : Vec3, (u - v).length = (v - u).length := by
    intro u v
    unfold Vec3.length
    congr 1
    simp only [Vec3.sub_x, Vec3.sub_y, Vec3.sub_z]
    ring
  rw [not_le]
  simp only [dist_length] at h
  split_ifs
  · rw [sym p y, sym x p, sym x y, add_comm]; exact h
  · exact h

theorem corner_ne {p x y : Vec3} (h : 1e-12 < |Spec.dist p x + Spec.dist y p - Spec.dist y x|) :
    x ≠ p ∧ y ≠ p := by
  have sym : ∀ u v : Vec3, Spec.dist u v = Spec.dist v u := by
    intro u v; unfold Spec.dist distSq; congr 1; ring
  have zero : ∀ u : Vec3, Spec.dist u u = 0 := by intro u; simp [Spec.dist, distSq]
  constructor
  · rintro rfl
    rw [zero] at h; norm_num at h
  · rintro rfl
    rw [zero, sym] at h; norm_num at h

set_option linter.unusedSimpArgs false in
set_option maxHeartbeats 1000000 in
/-- One iteration of the loop when every side product is zero or clearly nonzero. -/
theorem step_contact {v1 v2 v3 p P : Vec3} (it : TriI) (st : Shape.HitState)
    (hcl : Clear p P (v1, v2, v3)) :
    Shape.containsStep p P it v1 v2 v3 st =
      .go (bump st (heading p P (v1, v2, v3)) (contact p P (it, v1, v2, v3))) := by
  obtain ⟨h, hnz, hseg, hfar, hedge⟩ := hcl
  simp only [heron_eq] at hfar
  have h1 := h (v1, v2) (by simp [rim])
  have h2 := h (v2, v3) (by simp [rim])
  have h3 := h (v3, v1) (by simp [rim])
  have d1 := hedge (v1, v2) (by simp [rim])
  have d2 := hedge (v2, v3) (by simp [rim])
  have d3 := hedge (v3, v1) (by simp [rim])
  simp only at h1 h2 h3 d1 d2 d3
  have hnz' : ¬ (vol4 p P v1 v2 = 0 ∧ vol4 p P v2 v3 = 0 ∧ vol4 p P v3 v1 = 0) := by
    rintro ⟨z1, z2, z3⟩
    obtain ⟨e, he, hne⟩ := hnz
    simp only [rim, List.mem_cons, List.not_mem_nil, or_false] at he
    rcases he with rfl | rfl | rfl <;> contradiction
  have hsum := side_sum p P v1 v2 v3
  have n1 := fun b [Decidable b] => near_edge d1 b
  have n2 := fun b [Decidable b] => near_edge d2 b
  have n3 := fun b [Decidable b] => near_edge d3 b
  have c1 := (corner_ne d1).1
  have c2 := (corner_ne d2).1
  have c3 := (corner_ne d3).1
  unfold Shape.containsStep contact heading
  simp only [meets_iff hnz', sideProduct_vol, (vol4_side P v1 v2 v3).1, (vol4_side p v1 v2 v3).2]
  rw [show -side (v1, v2, v3) P * side (v1, v2, v3) p =
    -(side (v1, v2, v3) p * side (v1, v2, v3) P) by ring]
  have hnear : ¬ |triangleArea v2 p v3 + triangleArea p v1 v3 + triangleArea p v1 v2
      - triangleArea v1 v2 v3| < 1e-12 := not_lt.2 hfar
  clear hedge h hnz d1 d2 d3 hfar
  generalize triangleArea v2 p v3 + triangleArea p v1 v3 + triangleArea p v1 v2
      - triangleArea v1 v2 v3 = A at *
  generalize vol4 p P v1 v2 = s1 at *
  generalize vol4 p P v2 v3 = s2 at *
  generalize vol4 p P v3 v1 = s3 at *
  generalize side (v1, v2, v3) p = f at *
  generalize side (v1, v2, v3) P = g at *
  have tri : ∀ s : ℝ, (s = 0 ∨ 1e-16 < |s|) →
      (s = 0) ∨
      (0 < s ∧ s ≥ -1e-16 ∧ s > 1e-16 ∧ ¬ s ≤ 1e-16 ∧ ¬ s < -1e-16 ∧ ¬ |s| < 1e-16 ∧ |s| > 1e-16 ∧
        s ≠ 0 ∧ ¬ s ≤ 0 ∧ 0 ≤ s) ∨
      (s < 0 ∧ ¬ s ≥ -1e-16 ∧ ¬ s > 1e-16 ∧ s ≤ 1e-16 ∧ s < -1e-16 ∧ ¬ |s| < 1e-16 ∧ |s| > 1e-16 ∧
        s ≠ 0 ∧ ¬ 0 ≤ s ∧ s ≤ 0) := by
    intro s hs
    have h0 : (0:ℝ) < 1e-16 := by norm_num
    rcases hs with hs | hs
    · left; exact hs
    · rcases lt_abs.1 hs with hh | hh
      · right; left
        refine ⟨by linarith, by linarith, hh, by linarith, by linarith, by linarith, hs, ?_, ?_, ?_⟩
        · intro h; linarith
        · intro h; linarith
        · linarith
      · right; right
        refine ⟨by linarith, by linarith, by linarith, by linarith, by linarith, by linarith, hs, ?_, ?_,
          ?_⟩
        · intro h; linarith
        · intro h; linarith
        · linarith
  have hsegd : (-(f * g) ≥ -1e-16) ↔ f * g ≤ 0 := by
    have h0 : (0:ℝ) < 1e-16 := by norm_num
    constructor
    · intro h; rcases hseg with h' | h'
      · exact h'
      · linarith
    · intro h; linarith
  have z1 : (0:ℝ) ≥ -1e-16 := by norm_num
  have z2 : ¬ (0:ℝ) > 1e-16 := by norm_num
  have z3 : (0:ℝ) ≤ 1e-16 := by norm_num
  have z4 : ¬ (0:ℝ) < -1e-16 := by norm_num
  have z5 : |(0:ℝ)| < 1e-16 := by norm_num
  have z7 : (0:ℝ) < 1e-16 := by norm_num
  have z6 : ¬ |(0:ℝ)| > 1e-16 := by norm_num
  have hDp : 0 ≤ s1 → 0 ≤ s2 → 0 ≤ s3 → f < g := by
    intro a b c
    by_contra hc
    exact hnz' ⟨by linarith, by linarith, by linarith⟩
  have hDn : s1 ≤ 0 → s2 ≤ 0 → s3 ≤ 0 → ¬ f < g := by
    intro a b c hc
    linarith
  simp only [hsegd]
  clear hseg hsegd hsum
  generalize f * g = w
  rcases tri s1 h1 with rfl | ⟨p1, q1⟩ | ⟨p1, q1⟩ <;>
  rcases tri s2 h2 with rfl | ⟨p2, q2⟩ | ⟨p2, q2⟩ <;>
  rcases tri s3 h3 with rfl | ⟨p3, q3⟩ | ⟨p3, q3⟩ <;> clear tri h1 h2 h3
  · simp at hnz'
  all_goals by_cases hX : w ≤ 0
  all_goals try simp only [q1, true_and, not_false_eq_true] at hDp hDn
  all_goals try simp only [q2, true_and, not_false_eq_true] at hDp hDn
  all_goals try simp only [q3, true_and, not_false_eq_true] at hDp hDn
  all_goals simp only [le_refl, forall_const, IsEmpty.forall_iff] at hDp hDn
  all_goals simp [*, Shape.count3, bump, symKey_mk]
  all_goals
    first
    | (rw [if_neg (by split_ifs <;> assumption)]; split_ifs <;> rfl)
    | (split_ifs <;> rfl)

/-- The counter kept for a place. -/
def valOf (st : Shape.HitState) : Contact → ℤ
  | .face => 0
  | .edge e => st.edge (symKey e)
  | .vertex i => st.vertex i

/-- How the counter of a place reacts to one more heading. -/
def stepVal : Contact → ℤ → ℤ → ℤ
  | .face, v, d => v + d
  | _, v, d => if v = d then v else v + d

/-- What a list of headings adds to the count at a place. -/
def gain (c : Contact) (v : ℤ) (ds : List ℤ) : ℤ := ds.foldl (stepVal c) v - v

theorem gain_cons (c : Contact) (v d : ℤ) (ds : List ℤ) :
    gain c v (d :: ds) = (stepVal c v d - v) + gain c (stepVal c v d) ds := by
  simp only [gain, List.foldl_cons]; ring

theorem gain_face (v : ℤ) (ds : List ℤ) : gain .face v ds = ds.sum := by
  induction ds generalizing v with
  | nil => simp [gain]
  | cons d ds ih => rw [gain_cons, ih]; simp [stepVal]

open Classical in
theorem headings_cons (p q : Vec3) (x : TriI × (Vec3 × Vec3 × Vec3))
    (L : List (TriI × (Vec3 × Vec3 × Vec3))) (c : Contact) :
    headings p q (x :: L) c =
      if contact p q x = some c then heading p q x.2 :: headings p q L c else headings p q L c := by
  unfold headings
  by_cases h : contact p q x = some c <;> simp [h]

theorem heading_unit (p q : Vec3) (t : Vec3 × Vec3 × Vec3) :
    heading p q t = 1 ∨ heading p q t = -1 := by
  unfold heading; split_ifs <;> simp

theorem headings_unit {p q : Vec3} {L : List (TriI × (Vec3 × Vec3 × Vec3))} {c : Contact} {d : ℤ}
    (h : d ∈ headings p q L c) : d = 1 ∨ d = -1 := by
  unfold headings at h
  rw [List.mem_map] at h
  obtain ⟨x, -, rfl⟩ := h
  exact heading_unit _ _ _

/-- The indices of an edge fit the unsigned type. -/
def Small (c : Contact) : Prop := ∀ e, c = .edge e → ∀ i ∈ e, i < 2 ^ 32

/-- The effect of one triangle on the count and on the counters. -/
theorem bump_val {st : Shape.HitState} {d : ℤ} {c0 : Contact} (h0 : Small c0) :
    (bump st d (some c0)).count = st.count + (stepVal c0 (valOf st c0) d - valOf st c0) ∧
    (∀ c, Small c → c ≠ c0 → valOf (bump st d (some c0)) c = valOf st c) ∧
    (c0 ≠ .face → valOf (bump st d (some c0)) c0 = stepVal c0 (valOf st c0) d) := by
  cases c0 with
  | face =>
    refine ⟨by simp [bump, stepVal, valOf], ?_, by simp⟩
    intro c _ _
    cases c <;> simp [bump, valOf]
  | edge e0 =>
    by_cases hd : st.edge (symKey e0) = d
    · have hb : bump st d (some (.edge e0)) = st := by simp [bump, hd]
      rw [hb]
      refine ⟨by simp [stepVal, valOf, hd], fun _ _ _ => rfl, by simp [stepVal, valOf, hd]⟩
    · refine ⟨by simp [bump, stepVal, valOf, hd], ?_, by simp [bump, stepVal, valOf, hd]⟩
      intro c hc hne
      cases c with
      | face => rfl
      | vertex i => simp [bump, valOf, hd]
      | edge e =>
        have : symKey e ≠ symKey e0 := fun h => hne (by rw [symKey_inj (hc e rfl) (h0 e0 rfl) h])
        simp [bump, valOf, hd, Function.update_of_ne this]
  | vertex i0 =>
    by_cases hd : st.vertex i0 = d
    · have hb : bump st d (some (.vertex i0)) = st := by simp [bump, hd]
      rw [hb]
      refine ⟨by simp [stepVal, valOf, hd], fun _ _ _ => rfl, by simp [stepVal, valOf, hd]⟩
    · refine ⟨by simp [bump, stepVal, valOf, hd], ?_, by simp [bump, stepVal, valOf, hd]⟩
      intro c hc hne
      cases c with
      | face => rfl
      | edge i => simp [bump, valOf, hd]
      | vertex i =>
        have : i ≠ i0 := fun h => hne (by rw [h])
        simp [bump, valOf, hd, Function.update_of_ne this]

/-- The count after all triangles. -/
theorem run_count {p q : Vec3} (L : List (TriI × (Vec3 × Vec3 × Vec3))) (C : Finset Contact)
    (hC : ∀ x ∈ L, ∀ c, contact p q x = some c → c ∈ C) (hS : ∀ c ∈ C, Small c)
    (st : Shape.HitState) :
    (L.foldl (fun st x => bump st (heading p q x.2) (contact p q x)) st).count =
      st.count + ∑ c ∈ C, gain c (valOf st c) (headings p q L c) := by
  classical
  induction L generalizing st with
  | nil => simp [headings, gain]
  | cons x L ih =>
    rw [List.foldl_cons, ih (fun y hy => hC y (by simp [hy]))]
    cases hx : contact p q x with
    | none =>
      simp only [bump, headings_cons, hx]
      simp
    | some c0 =>
      have hc0 := hC x (by simp) c0 hx
      obtain ⟨b1, b2, b3⟩ := @bump_val st (heading p q x.2) c0 (hS c0 hc0)
      rw [b1]
      have : ∀ c ∈ C, gain c (valOf st c) (headings p q (x :: L) c) =
          gain c (valOf (bump st (heading p q x.2) (some c0)) c) (headings p q L c) +
          if c0 = c then (stepVal c0 (valOf st c0) (heading p q x.2) - valOf st c0) else 0 := by
        intro c hc
        rw [headings_cons, hx]
        by_cases h : c = c0
        · subst h
          simp only [if_true]
          rw [gain_cons]
          by_cases hf : c = .face
          · subst hf
            rw [gain_face, gain_face]; ring
          · rw [b3 hf]; ring
        · have h' : c0 ≠ c := fun e => h e.symm
          rw [if_neg (by simpa using h'), if_neg h', b2 c (hS c hc) h]; ring
      rw [Finset.sum_congr rfl this, Finset.sum_add_distrib, Finset.sum_ite_eq, if_pos hc0]
      ring

/-- The saturating walk is what the counters do. -/
theorem gain_score (c : Contact) (ds : List ℤ) (h : ∀ d ∈ ds, d = 1 ∨ d = -1) :
    gain c 0 ds = score c ds := by
  have key : ∀ c : Contact, c ≠ .face → ∀ v : ℤ, v = -1 ∨ v = 0 ∨ v = 1 →
      ds.foldl (stepVal c) v = ds.foldl (fun e d => max (-1) (min 1 (e + d))) v := by
    intro c hc
    induction ds with
    | nil => intro v _; rfl
    | cons d ds ih =>
      intro v hv
      have hd := h d (by simp)
      have he : stepVal c v d = max (-1) (min 1 (v + d)) := by
        cases c with
        | face => exact absurd rfl hc
        | edge e => rcases hv with rfl | rfl | rfl <;> rcases hd with rfl | rfl <;> simp [stepVal]
        | vertex e => rcases hv with rfl | rfl | rfl <;> rcases hd with rfl | rfl <;> simp [stepVal]
      simp only [List.foldl_cons]
      rw [he]
      apply ih (fun x hx => h x (by simp [hx]))
      rcases hv with rfl | rfl | rfl <;> rcases hd with rfl | rfl <;> simp
  cases c with
  | face => rw [gain_face]; rfl
  | edge e => simp only [gain, score, walk]; rw [key _ (by simp) 0 (by simp)]; ring
  | vertex e => simp only [gain, score, walk]; rw [key _ (by simp) 0 (by simp)]; ring

/-- The whole loop for a probe with a clear relation to every triangle. -/
theorem loop_contact {p P : Vec3} {ps : List Vec3} {is : List TriI}
    {ts : List (Vec3 × Vec3 × Vec3)} (hs : soup ps is = some ts)
    (h : ∀ t ∈ ts, Clear p P t) (st : Shape.HitState) :
    Shape.containsLoop p P ps is st =
      .ok (decide (((is.zip ts).foldl
        (fun st x => bump st (heading p P x.2) (contact p P x)) st).count = 1)) := by
  rw [Mesh.soup_some] at hs
  induction hs generalizing st with
  | nil =>
    unfold Shape.containsLoop
    simp only [List.zip_nil_right, List.foldl_nil]
    congr 1
    split_ifs with h
    · simp; omega
    · push Not at h; simp; omega
  | @cons i c is ts hc _ ih =>
    unfold Shape.containsLoop
    rw [vget_ok.2 hc.1, vget_ok.2 hc.2.1, vget_ok.2 hc.2.2]
    simp only [bind, Except.bind]
    rw [step_contact i st (h c (by simp))]
    simp only
    rw [ih (fun t ht => h t (by simp [ht]))]
    rfl

theorem contact_small {p q : Vec3} {ps : List Vec3} {is : List TriI}
    {ts : List (Vec3 × Vec3 × Vec3)} (hs : soup ps is = some ts) (hn : ps.length ≤ 2 ^ 32)
    {x : TriI × (Vec3 × Vec3 × Vec3)} (hx : x ∈ is.zip ts) {c : Contact}
    (hc : contact p q x = some c) : Small c := by
  rw [Mesh.soup_some] at hs
  have hb : x.1.i1 < 2 ^ 32 ∧ x.1.i2 < 2 ^ 32 ∧ x.1.i3 < 2 ^ 32 := by
    induction hs with
    | nil => simp at hx
    | @cons i c' is ts hi3 _ ih =>
      simp only [List.zip_cons_cons, List.mem_cons] at hx
      rcases hx with rfl | hx
      · obtain ⟨a1, a2, a3⟩ := hi3
        refine ⟨?_, ?_, ?_⟩
        · exact lt_of_lt_of_le (List.getElem?_eq_some_iff.1 a1).1 hn
        · exact lt_of_lt_of_le (List.getElem?_eq_some_iff.1 a2).1 hn
        · exact lt_of_lt_of_le (List.getElem?_eq_some_iff.1 a3).1 hn
      · exact ih hx
  intro e he
  subst he
  unfold contact at hc
  obtain ⟨b1, b2, b3⟩ := hb
  split_ifs at hc <;> simp only [Option.some.injEq, Contact.edge.injEq, reduceCtorEq] at hc <;> subst hc <;>
    intro i hi <;> rw [Sym2.mem_iff] at hi <;> rcases hi with rfl | rfl <;> assumption

/-- Interior contacts weigh twice. -/
def double : Contact → ℤ → ℤ
  | .face, n => 2 * n
  | _, n => n

/-- Sum of the half weights, place by place. -/
theorem weight_sum {p q : Vec3} (L : List (TriI × (Vec3 × Vec3 × Vec3))) (C : Finset Contact)
    (hC : ∀ x ∈ L, ∀ c, contact p q x = some c → c ∈ C)
    (hv : ∀ x ∈ L, ∀ i, contact p q x ≠ some (.vertex i)) :
    (L.map (weight2 p q)).sum = ∑ c ∈ C, double c (headings p q L c).sum := by
  classical
  induction L with
  | nil =>
    symm
    apply Finset.sum_eq_zero
    intro c _
    cases c <;> simp [headings, double]
  | cons x L ih =>
    rw [List.map_cons, List.sum_cons, ih (fun y hy => hC y (by simp [hy])) (fun y hy => hv y (by simp [hy]))]
    cases hx : contact p q x with
    | none =>
      simp only [weight2, headings_cons, hx]
      simp
    | some c0 =>
      have hc0 := hC x (by simp) c0 hx
      have : ∀ c ∈ C, double c (headings p q (x :: L) c).sum =
          double c (headings p q L c).sum + if c0 = c then weight2 p q x else 0 := by
        intro c hc
        rw [headings_cons, hx]
        by_cases h : c0 = c
        · subst h
          simp only [if_true]
          cases c0 with
          | face => simp only [weight2, hx, List.sum_cons, double]; ring
          | edge e => simp only [weight2, hx, List.sum_cons, double]; ring
          | vertex i => exact absurd hx (hv x (by simp) i)
        · rw [if_neg (by simpa using h), if_neg h]; ring
      rw [Finset.sum_congr rfl this, Finset.sum_add_distrib, Finset.sum_ite_eq, if_pos hc0]
      ring

end Geo
