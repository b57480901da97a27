import Verif.Lemmas.MeshFilter
import Verif.Spec.Shape
import Verif.Spec.Box
import Verif.Spec.Math

/-!
# Helper lemmas on closed triangle soups and their volume
-/

namespace Geo
open Spec

theorem rim_flatMap_map (f : Vec3 → Vec3) (ts : List (Vec3 × Vec3 × Vec3)) :
    (ts.map fun c => (f c.1, f c.2.1, f c.2.2)).flatMap rim = (ts.flatMap rim).map (Prod.map f f) := by
  induction ts with
  | nil => rfl
  | cons t ts ih =>
    obtain ⟨a, b, c⟩ := t
    simp [ih, rim]

/-- A map of the points keeps a closed soup closed. -/
theorem closed_map (f : Vec3 → Vec3) {ts : List (Vec3 × Vec3 × Vec3)} (h : ClosedSoup ts) :
    ClosedSoup (ts.map fun c => (f c.1, f c.2.1, f c.2.2)) := by
  unfold ClosedSoup at *
  rw [rim_flatMap_map, List.map_map]
  have := h.map (Prod.map f f)
  rw [List.map_map] at this
  exact this

theorem closed_append {ts us : List (Vec3 × Vec3 × Vec3)} (h : ClosedSoup ts) (h' : ClosedSoup us) : ClosedSoup (ts ++ us) := by
  unfold ClosedSoup at *
  rw [List.flatMap_append, List.map_append]
  exact h.append h'

/-- An edge function that changes its sign with the direction sums to zero. -/
theorem closed_edge_sum {ts : List (Vec3 × Vec3 × Vec3)} (h : ClosedSoup ts) (g : Vec3 × Vec3 → ℝ) (hg : ∀ a b, g (b, a) = -g (a, b)) :
    ((ts.flatMap rim).map g).sum = 0 := by
  have e := (h.map g).sum_eq
  rw [List.map_map] at e
  have : (g ∘ Prod.swap) = fun x => -g x := by
    funext ⟨a, b⟩
    exact hg a b
  rw [this] at e
  have n : ∀ l : List (Vec3 × Vec3), (l.map fun x => -g x).sum = -(l.map g).sum := by
    intro l
    induction l with
    | nil => simp
    | cons x l ih => simp only [List.map_cons, List.sum_cons, ih]; ring
  rw [n] at e
  linarith

/-- The volume of a moved soup, by its edges. -/
theorem vol6_apply_sum (T : Transform3) (ts : List (Vec3 × Vec3 × Vec3)) :
    ((ts.map fun c => (T.apply c.1, T.apply c.2.1, T.apply c.2.2)).map vol6).sum =
      (M T.R).det * (ts.map vol6).sum + ((ts.flatMap rim).map fun e => T.t.dot ((T.R.mulVec e.1).cross (T.R.mulVec e.2))).sum := by
  induction ts with
  | nil => simp
  | cons t ts ih =>
    simp only [List.map_cons, List.sum_cons, List.flatMap_cons, List.map_append, List.sum_append]
    rw [ih]
    have e : vol6 (T.apply t.1, T.apply t.2.1, T.apply t.2.2) =
        (M T.R).det * vol6 t + ((rim t).map fun e => T.t.dot ((T.R.mulVec e.1).cross (T.R.mulVec e.2))).sum := by
      rw [Matrix.det_fin_three]
      simp only [M, vol6, rim, Transform3.apply, Mat3.mulVec, Vec3.dot, Vec3.cross, Vec3.add_x, Vec3.add_y, Vec3.add_z,
        List.map_cons, List.map_nil, List.sum_cons, List.sum_nil]
      simp
      ring
    rw [e]
    ring

theorem vol6_moved {ts : List (Vec3 × Vec3 × Vec3)} (h : ClosedSoup ts) (T : Transform3) :
    ((ts.map fun c => (T.apply c.1, T.apply c.2.1, T.apply c.2.2)).map vol6).sum = (M T.R).det * (ts.map vol6).sum := by
  rw [vol6_apply_sum, closed_edge_sum h, add_zero]
  intro a b
  simp only [Vec3.dot, Vec3.cross]
  ring

/-- Moving the corners by less than `δ` per axis changes the product of three coordinates little. -/
theorem triple_close {a b c a' b' c' B δ : ℝ} (hB : 0 ≤ B) (ha : |a| ≤ B) (hb' : |b'| ≤ B) (hb : |b| ≤ B) (hc' : |c'| ≤ B)
    (h1 : |a' - a| ≤ δ) (h2 : |b' - b| ≤ δ) (h3 : |c' - c| ≤ δ) :
    |a' * b' * c' - a * b * c| ≤ 3 * (δ * B ^ 2) := by
  have e : a' * b' * c' - a * b * c = (a' - a) * b' * c' + a * (b' - b) * c' + a * b * (c' - c) := by ring
  rw [e]
  have hδ : 0 ≤ δ := (abs_nonneg _).trans h1
  have t1 : |(a' - a) * b' * c'| ≤ δ * B * B := by
    rw [abs_mul, abs_mul]
    exact mul_le_mul (mul_le_mul h1 hb' (abs_nonneg _) hδ) hc' (abs_nonneg _) (mul_nonneg hδ hB)
  have t2 : |a * (b' - b) * c'| ≤ B * δ * B := by
    rw [abs_mul, abs_mul]
    exact mul_le_mul (mul_le_mul ha h2 (abs_nonneg _) hB) hc' (abs_nonneg _) (mul_nonneg hB hδ)
  have t3 : |a * b * (c' - c)| ≤ B * B * δ := by
    rw [abs_mul, abs_mul]
    exact mul_le_mul (mul_le_mul ha hb (abs_nonneg _) hB) h3 (abs_nonneg _) (mul_nonneg hB hB)
  refine (abs_add_three _ _ _).trans ?_
  linarith [pow_two B]

/-- The coordinates of a point are at most `B`. (Device of the proofs.) -/
def AtMost3 (B : ℝ) (p : Vec3) : Prop := |p.x| ≤ B ∧ |p.y| ≤ B ∧ |p.z| ≤ B

/-- The coordinates of two points differ by at most `δ`. (Device of the proofs.) -/
def Close3 (δ : ℝ) (p q : Vec3) : Prop := |q.x - p.x| ≤ δ ∧ |q.y - p.y| ≤ δ ∧ |q.z - p.z| ≤ δ

theorem vol6_close {B δ : ℝ} (hB : 0 ≤ B) {c c' : Vec3 × Vec3 × Vec3} (a1 : AtMost3 B c.1) (a2 : AtMost3 B c.2.1) (b2 : AtMost3 B c'.2.1)
    (b3 : AtMost3 B c'.2.2) (h1 : Close3 δ c.1 c'.1) (h2 : Close3 δ c.2.1 c'.2.1) (h3 : Close3 δ c.2.2 c'.2.2) :
    |vol6 c' - vol6 c| ≤ 18 * (δ * B ^ 2) := by
  obtain ⟨a, b, d⟩ := c
  obtain ⟨a', b', d'⟩ := c'
  obtain ⟨a11, a12, a13⟩ := a1
  obtain ⟨a21, a22, a23⟩ := a2
  obtain ⟨b21, b22, b23⟩ := b2
  obtain ⟨b31, b32, b33⟩ := b3
  obtain ⟨h11, h12, h13⟩ := h1
  obtain ⟨h21, h22, h23⟩ := h2
  obtain ⟨h31, h32, h33⟩ := h3
  dsimp only at *
  have t1 := abs_le.1 (triple_close hB a11 b22 a22 b33 h11 h22 h33)
  have t2 := abs_le.1 (triple_close hB a11 b23 a23 b32 h11 h23 h32)
  have t3 := abs_le.1 (triple_close hB a12 b21 a21 b33 h12 h21 h33)
  have t4 := abs_le.1 (triple_close hB a12 b23 a23 b31 h12 h23 h31)
  have t5 := abs_le.1 (triple_close hB a13 b21 a21 b32 h13 h21 h32)
  have t6 := abs_le.1 (triple_close hB a13 b22 a22 b31 h13 h22 h31)
  simp only [vol6]
  rw [abs_le]
  constructor <;> linarith

theorem vol6_close_sum {B δ : ℝ} (hB : 0 ≤ B) {l l' : List (Vec3 × Vec3 × Vec3)}
    (h : List.Forall₂ (fun c c' => (AtMost3 B c.1 ∧ AtMost3 B c.2.1 ∧ AtMost3 B c'.2.1 ∧ AtMost3 B c'.2.2) ∧
      Close3 δ c.1 c'.1 ∧ Close3 δ c.2.1 c'.2.1 ∧ Close3 δ c.2.2 c'.2.2) l l') :
    |(l'.map vol6).sum - (l.map vol6).sum| ≤ l.length * (18 * (δ * B ^ 2)) := by
  induction h with
  | nil => simp
  | cons hx _ ih =>
    obtain ⟨⟨w1, w2, w3, w4⟩, c1, c2, c3⟩ := hx
    have := vol6_close hB w1 w2 w3 w4 c1 c2 c3
    simp only [List.map_cons, List.sum_cons, List.length_cons]
    push_cast
    rw [abs_le] at *
    constructor <;> linarith

/-- The corners of a soup are points of the mesh. -/
theorem soup_corners_mem {ps : List Vec3} {ts : List TriI} {l : List (Vec3 × Vec3 × Vec3)} (h : soup ps ts = some l) :
    ∀ c ∈ l, c.1 ∈ ps ∧ c.2.1 ∈ ps ∧ c.2.2 ∈ ps := by
  rw [Mesh.soup_some] at h
  induction h with
  | nil => simp
  | cons hx _ ih =>
    intro c hc
    rcases List.mem_cons.1 hc with rfl | hc
    · exact ⟨List.mem_of_getElem? hx.1, List.mem_of_getElem? hx.2.1, List.mem_of_getElem? hx.2.2⟩
    · exact ih c hc

/-- Corners that are the only points of a list in their cells are a function of the corners they come from. -/
theorem cells_map {l l' : List (Vec3 × Vec3 × Vec3)} {ps : List Vec3} (hp : ps.Pairwise fun p q => ¬ SameCell3 p q)
    (hm : ∀ c ∈ l', c.1 ∈ ps ∧ c.2.1 ∈ ps ∧ c.2.2 ∈ ps)
    (h : List.Forall₂ (fun c c' => SameCell3 c.1 c'.1 ∧ SameCell3 c.2.1 c'.2.1 ∧ SameCell3 c.2.2 c'.2.2) l l') :
    ∃ f : Vec3 → Vec3, l' = l.map fun c => (f c.1, f c.2.1, f c.2.2) := by
  classical
  have symm : ∀ {p q : Vec3}, SameCell3 p q → SameCell3 q p := fun h => (Mesh.key_eq_iff _ _).1 ((Mesh.key_eq_iff _ _).2 h).symm
  have trans : ∀ {p q r : Vec3}, SameCell3 p q → SameCell3 p r → SameCell3 q r := fun h h' =>
    (Mesh.key_eq_iff _ _).1 (((Mesh.key_eq_iff _ _).2 h).symm.trans ((Mesh.key_eq_iff _ _).2 h'))
  have uniq : ∀ {q r : Vec3}, q ∈ ps → r ∈ ps → SameCell3 q r → q = r := by
    intro q r hq hr hs
    by_contra hne
    have : Std.Symm fun p q => ¬ SameCell3 p q := ⟨fun _ _ h h' => h (symm h')⟩
    exact (hp.forall hq hr hne) hs
  let f : Vec3 → Vec3 := fun p => if h : ∃ q ∈ ps, SameCell3 p q then h.choose else p
  have hf : ∀ {p q : Vec3}, q ∈ ps → SameCell3 p q → f p = q := by
    intro p q hq hs
    have hex : ∃ q ∈ ps, SameCell3 p q := ⟨q, hq, hs⟩
    have e : f p = hex.choose := dif_pos hex
    rw [e]
    exact uniq hex.choose_spec.1 hq (trans hex.choose_spec.2 hs)
  refine ⟨f, ?_⟩
  induction h with
  | nil => rfl
  | @cons c c' l l' hx _ ih =>
    obtain ⟨m1, m2, m3⟩ := hm c' List.mem_cons_self
    rw [List.map_cons, ← ih (fun c hc => hm c (List.mem_cons_of_mem _ hc)), hf m1 hx.1, hf m2 hx.2.1, hf m3 hx.2.2]

end Geo
