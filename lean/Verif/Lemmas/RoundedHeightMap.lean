import Verif.Model.RoundedHeightMap
import Verif.Spec.RoundedHeightMap
import Verif.Lemmas.HeightMapUse
import Verif.Lemmas.HeightMapRay
import Verif.Lemmas.RoundedBox

/-!
# Helper lemmas about height maps in floating point arithmetic
-/

namespace Geo.RoundedHeightMap
open Spec HeightMap HNode RoundedBox

variable {u : ℝ} {rnd toF : ℝ → ℝ}

/-! ## Rays -/

theorem inv_sign (hm : Monotone rnd) (h0 : rnd 0 = 0) (n : ℝ) :
    (n < 0 → Rounded.invComponent rnd n ≤ 0) ∧ (¬ n < 0 → 0 ≤ Rounded.invComponent rnd n) := by
  unfold Rounded.invComponent
  constructor
  · intro h
    split_ifs
    · exact le_rfl
    · have := hm (one_div_neg.2 h).le
      rwa [h0] at this
  · intro h
    split_ifs
    · exact le_rfl
    · have := hm (one_div_nonneg.2 (not_lt.1 h))
      rwa [h0] at this

theorem slabR_mono (hm : Monotone rnd) (hmF : Monotone toF) (h0 : rnd 0 = 0) {lo hi lo' hi' o n : ℝ} (h1 : lo ≤ lo') (h2 : hi' ≤ hi) :
    lowF rnd toF lo hi o n ≤ lowF rnd toF lo' hi' o n ∧ highF rnd toF lo' hi' o n ≤ highF rnd toF lo hi o n := by
  obtain ⟨s1, s2⟩ := inv_sign hm h0 n
  unfold lowF highF
  by_cases h : n < 0
  · simp only [if_pos h]
    exact ⟨hmF (hm (mul_le_mul_of_nonpos_right (hm (by linarith)) (s1 h))),
      hmF (hm (mul_le_mul_of_nonpos_right (hm (by linarith)) (s1 h)))⟩
  · simp only [if_neg h]
    exact ⟨hmF (hm (mul_le_mul_of_nonneg_right (hm (by linarith)) (s2 h))),
      hmF (hm (mul_le_mul_of_nonneg_right (hm (by linarith)) (s2 h)))⟩

/-- A larger box is hit whenever a smaller one is. -/
theorem box_monoR (hm : Monotone rnd) (hmF : Monotone toF) (h0 : rnd 0 = 0) {b b' : Box} (h1 : InBox b.lo b.hi b'.lo)
    (h2 : InBox b.lo b.hi b'.hi) (o d : Vec3) {t0 t1 d0 d1 : ℝ}
    (h : (Rounded.boxRay rnd toF b' (Rounded.rayNew rnd o d) t0 t1 d0).1 = true) :
    (Rounded.boxRay rnd toF b (Rounded.rayNew rnd o d) t0 t1 d1).1 = true := by
  rw [boxRay_eq] at h ⊢
  dsimp only at h ⊢
  rw [slabs_flag] at h ⊢
  obtain ⟨x1, x2⟩ := slabR_mono hm hmF h0 (o := o.x) (n := (Rounded.normalized rnd d).x) h1.1 h2.2.1
  obtain ⟨y1, y2⟩ := slabR_mono hm hmF h0 (o := o.y) (n := (Rounded.normalized rnd d).y) h1.2.2.1 h2.2.2.2.1
  obtain ⟨z1, z2⟩ := slabR_mono hm hmF h0 (o := o.z) (n := (Rounded.normalized rnd d).z) h1.2.2.2.2.1 h2.2.2.2.2.2
  obtain ⟨g1, g2, g3, g4, g5, g6, g7, g8, g9, g10, g11, g12⟩ := h
  refine ⟨?_, ?_, ?_, ?_, ?_, ?_, ?_, ?_, ?_, ?_, ?_, ?_⟩ <;> linarith

theorem box_initR (rnd toF : ℝ → ℝ) (b : Box) (o d : Vec3) (t0 t1 d0 d1 : ℝ) :
    (Rounded.boxRay rnd toF b (Rounded.rayNew rnd o d) t0 t1 d0).1 = (Rounded.boxRay rnd toF b (Rounded.rayNew rnd o d) t0 t1 d1).1 ∧
    ((Rounded.boxRay rnd toF b (Rounded.rayNew rnd o d) t0 t1 d0).1 = true →
      (Rounded.boxRay rnd toF b (Rounded.rayNew rnd o d) t0 t1 d0).2 = (Rounded.boxRay rnd toF b (Rounded.rayNew rnd o d) t0 t1 d1).2) := by
  rw [boxRay_eq, boxRay_eq]
  dsimp only
  split_ifs <;> simp

/-- Casting a ray on the tree: flag and distance, in terms of the leaves. -/
theorem castR (hm : Monotone rnd) (hmF : Monotone toF) (hz : rnd 0 = 0) {n : HNode} (hn : Nested n) (o d : Vec3) (t0 t1 : ℝ) :
    ∃ (hit : Bool) (D : ℝ), (∀ d0, (nodeRay rnd toF n (Rounded.rayNew rnd o d) t0 t1 d0).1 = hit ∧
        (hit = true → (nodeRay rnd toF n (Rounded.rayNew rnd o d) t0 t1 d0).2 = D)) ∧
      (hit = true ↔ ∃ l ∈ leaves n, (Rounded.boxRay rnd toF l (Rounded.rayNew rnd o d) t0 t1 0).1 = true) ∧
      (hit = true → ∃ l ∈ leaves n, (Rounded.boxRay rnd toF l (Rounded.rayNew rnd o d) t0 t1 0).1 = true ∧
        D = (Rounded.boxRay rnd toF l (Rounded.rayNew rnd o d) t0 t1 0).2) := by
  induction n with
  | null =>
    refine ⟨false, 0, fun d0 => ⟨rfl, by simp⟩, by simp [leaves], by simp⟩
  | node b0 occ ch ih =>
    have hbox := fun d0 => box_initR rnd toF b0 o d t0 t1 d0 0
    cases hb : (Rounded.boxRay rnd toF b0 (Rounded.rayNew rnd o d) t0 t1 0).1 with
    | false =>
      refine ⟨false, 0, fun d0 => ⟨?_, by simp⟩, ?_, by simp⟩
      · unfold nodeRay
        simp [(hbox d0).1, hb]
      · simp only [Bool.false_eq_true, false_iff]
        rintro ⟨l, hl, hh⟩
        obtain ⟨q1, q2⟩ := leaves_in hn b0 rfl l hl
        rw [box_monoR hm hmF hz q1 q2 o d hh] at hb
        simp at hb
    | true =>
      cases occ with
      | true =>
        refine ⟨true, (Rounded.boxRay rnd toF b0 (Rounded.rayNew rnd o d) t0 t1 0).2, fun d0 => ⟨?_, fun _ => ?_⟩, ?_, fun _ => ?_⟩
        · unfold nodeRay
          simp [(hbox d0).1, hb]
        · unfold nodeRay
          simp [(hbox d0).1, hb, (hbox d0).2 ((hbox d0).1.trans hb)]
        · simp [leaves, hb]
        · exact ⟨b0, by simp [leaves], hb, rfl⟩
      | false =>
        choose b g h1 h2 h3 using fun i => ih i (hn.2 i).1
        have eq : ∀ d0, nodeRay rnd toF (HNode.node b0 false ch) (Rounded.rayNew rnd o d) t0 t1 d0 =
            (let first := loopOrigin (fun i => (ch i).boxContains (Rounded.rayNew rnd o d).origin)
              (fun i d' => nodeRay rnd toF (ch i) (Rounded.rayNew rnd o d) t0 t1 d') [0, 1, 2, 3]
              (Rounded.boxRay rnd toF b0 (Rounded.rayNew rnd o d) t0 t1 d0).2 none
            if first.1 then (true, first.2.1) else loopRest first.2.2
              (fun i d' => nodeRay rnd toF (ch i) (Rounded.rayNew rnd o d) t0 t1 d') [0, 1, 2, 3] first.2.1) := by
          intro d0
          conv_lhs => unfold nodeRay
          simp [(hbox d0).1, hb]
        have L := fun d' => loops (sel := fun i => (ch i).boxContains (Rounded.rayNew rnd o d).origin) h1 d'
        obtain ⟨-, i, hi⟩ := L 0
        classical
        refine ⟨decide (∃ i, b i = true), g i, fun d0 => ⟨?_, fun hh => ?_⟩, ?_, fun hh => ?_⟩
        · rw [eq d0, Bool.eq_iff_iff, decide_eq_true_eq]
          exact (L _).1
        · rw [eq d0]
          exact (hi _ ((L _).1.2 (by simpa using hh))).1
        · simp only [decide_eq_true_eq, h2, mem_leaves]
          constructor
          · rintro ⟨i, l, h, h'⟩; exact ⟨l, ⟨i, h⟩, h'⟩
          · rintro ⟨l, ⟨i, h⟩, h'⟩; exact ⟨i, l, h, h'⟩
        · have := (hi 0 ((L 0).1.2 (by simpa using hh))).2.1
          obtain ⟨l, hl, q⟩ := h3 i this
          exact ⟨l, mem_leaves.2 ⟨i, hl⟩, q⟩

/-! ## The tree -/

/-- The tree with rounded horizontal coordinates. (Device of the proofs.) -/
noncomputable def roundTree (rnd : ℝ → ℝ) : HNode → HNode
  | .null => .null
  | .node b occ ch => .node (Box.new (flat rnd b.lo) (flat rnd b.hi)) occ fun i => roundTree rnd (ch i)

theorem leaves_round (n : HNode) : leaves (roundTree rnd n) = (leaves n).map fun b => Box.new (flat rnd b.lo) (flat rnd b.hi) := by
  induction n with
  | null => rfl
  | node b occ ch ih =>
    cases occ with
    | true => rfl
    | false => simp only [roundTree, leaves, ih, List.map_append]

theorem inBox_round (hm : Monotone rnd) {lo hi p : Vec3} (h : InBox lo hi p) : InBox (flat rnd lo) (flat rnd hi) (flat rnd p) :=
  ⟨hm h.1, hm h.2.1, hm h.2.2.1, hm h.2.2.2.1, h.2.2.2.2.1, h.2.2.2.2.2⟩

theorem nested_round (hm : Monotone rnd) {n : HNode} (h : Nested n) : Nested (roundTree rnd n) := by
  induction n with
  | null => trivial
  | node b occ ch ih =>
    obtain ⟨⟨p1, p2, p3⟩, hc⟩ := h
    refine ⟨⟨hm p1, hm p2, p3⟩, fun i => ⟨ih i (hc i).1, ?_⟩⟩
    have := (hc i).2
    intro b' hb
    cases hi : ch i with
    | null => simp [hi, roundTree, boxOf] at hb
    | node b1 o1 c1 =>
      rw [hi] at this
      simp only [hi, roundTree, boxOf, Option.some.injEq] at hb
      subst hb
      obtain ⟨q1, q2⟩ := this b1 rfl
      exact ⟨inBox_round hm q1, inBox_round hm q2⟩

open Classical in
theorem createQuadTree_round (rnd : ℝ → ℝ) (map : List (List ℝ)) (res : ℝ) : ∀ (n x0 y0 x1 y1 : ℕ), x1 - x0 = n →
    createQuadTree rnd map x0 y0 x1 y1 res = (HeightMap.createQuadTree map x0 y0 x1 y1 res).map (roundTree rnd) := by
  intro n
  induction n using Nat.strong_induction_on with
  | _ n ih =>
    intro x0 y0 x1 y1 hn
    rw [createQuadTree, HeightMap.createQuadTree]
    cases maxHeight map x0 y0 x1 y1 with
    | error f => rfl
    | ok mh =>
      simp only [Except.bind]
      by_cases c1 : mh = 0
      · simp only [if_pos c1]; rfl
      simp only [if_neg c1]
      by_cases c2 : x1 - x0 = 1 ∨ y1 - y0 = 1
      · simp only [if_pos c2]
        split_ifs
        · rfl
        · rfl
      simp only [if_neg c2]
      by_cases c3 : x1 - x0 = 0
      · simp only [dif_pos c3]; rfl
      simp only [dif_neg c3]
      rw [ih ((x1 + x0) / 2 - x0) (by omega) _ _ _ _ rfl, ih (x1 - (x1 + x0) / 2) (by omega) _ _ _ _ rfl,
        ih ((x1 + x0) / 2 - x0) (by omega) _ _ _ _ rfl, ih (x1 - (x1 + x0) / 2) (by omega) _ _ _ _ rfl]
      cases HeightMap.createQuadTree map x0 y0 ((x1 + x0) / 2) ((y1 + y0) / 2) res with
      | error f => rfl
      | ok c0 =>
      cases HeightMap.createQuadTree map ((x1 + x0) / 2) y0 x1 ((y1 + y0) / 2) res with
      | error f => rfl
      | ok c1 =>
      cases HeightMap.createQuadTree map x0 ((y1 + y0) / 2) ((x1 + x0) / 2) y1 res with
      | error f => rfl
      | ok c2 =>
      cases HeightMap.createQuadTree map ((x1 + x0) / 2) ((y1 + y0) / 2) x1 y1 res with
      | error f => rfl
      | ok c3 =>
        simp only [Except.map, roundTree]
        congr 2
        funext i
        fin_cases i <;> rfl

/-! ## The mesh -/

/-- A number that occurs as a height. (Device of the proofs.) -/
def Occurs (grid : List (List ℝ)) (a : ℝ) : Prop := a = 0 ∨ ∃ row ∈ grid, a ∈ row

theorem cell_occurs {grid : List (List ℝ)} {x y : ℕ} {v : ℝ} (h : cell grid x y = .ok v) : Occurs grid v := by
  unfold cell at h
  rw [Exec.bind_ok] at h
  obtain ⟨row, h1, h2⟩ := h
  exact .inr ⟨row, List.mem_of_getElem? (vget_ok.1 h1), List.mem_of_getElem? (vget_ok.1 h2)⟩

/-- The mesh with rounded horizontal coordinates. (Device of the proofs.) -/
def flatMesh (rnd : ℝ → ℝ) (m : Mesh) : Mesh := { m with points := m.points.map (flat rnd) }

section
variable (hr : RelErr u rnd) (hu : u ≤ 1 / 1000)
include hr hu

/-- Comparing a rounded number with the rounded tolerance. -/
theorem tol {d : ℝ} (hd : d = 0 ∨ 1.9e-10 ≤ d) : (rnd d > rnd 1e-10 ↔ d > 1e-10) ∧ (rnd d < rnd 1e-10 ↔ d < 1e-10) := by
  have hu0 := Rounded.relErr_nonneg hr
  have h1 := abs_le.1 (hr 1e-10)
  rw [abs_of_pos (by norm_num : (0 : ℝ) < 1e-10)] at h1
  have h0 := hr 0
  simp only [abs_zero, mul_zero, sub_zero, abs_nonpos_iff] at h0
  have h2 : u * 1e-10 ≤ 1 / 1000 * 1e-10 := mul_le_mul_of_nonneg_right hu (by norm_num)
  rcases hd with rfl | hd
  · rw [h0]
    norm_num at h1 h2 ⊢
    exact ⟨by linarith, by linarith⟩
  · have h3 := abs_le.1 (hr d)
    rw [abs_of_pos (by linarith : 0 < d)] at h3
    have h4 : u * d ≤ 1 / 1000 * d := mul_le_mul_of_nonneg_right hu (by linarith)
    have a : rnd d > rnd 1e-10 := by
      norm_num at h1 h2 ⊢
      linarith
    have b : d > 1e-10 := by linarith
    exact ⟨⟨fun _ => b, fun _ => a⟩, ⟨fun h => absurd h (not_lt.2 a.le), fun h => absurd h (not_lt.2 b.le)⟩⟩

theorem abs_rnd {d : ℝ} (hd : d = 0 ∨ 2e-10 ≤ |d|) : |rnd d| = 0 ∧ |d| = 0 ∨ 1.99e-10 ≤ |rnd d| ∧ 2e-10 ≤ |d| := by
  have hu0 := Rounded.relErr_nonneg hr
  have h := hr d
  rcases hd with rfl | hd
  · left
    simp only [abs_zero, mul_zero, sub_zero, abs_nonpos_iff] at h
    simp [h]
  · right
    have h4 : u * |d| ≤ 1 / 1000 * |d| := mul_le_mul_of_nonneg_right hu (abs_nonneg _)
    have := abs_sub_abs_le_abs_sub d (rnd d)
    rw [abs_sub_comm] at this
    exact ⟨by linarith, hd⟩

theorem tol_abs {d : ℝ} (hd : d = 0 ∨ 2e-10 ≤ |d|) : (|rnd d| > rnd 1e-10 ↔ |d| > 1e-10) ∧ (|rnd d| < rnd 1e-10 ↔ |d| < 1e-10) := by
  have hu0 := Rounded.relErr_nonneg hr
  have h1 := abs_le.1 (hr 1e-10)
  rw [abs_of_pos (by norm_num : (0 : ℝ) < 1e-10)] at h1
  have h2 : u * 1e-10 ≤ 1 / 1000 * 1e-10 := mul_le_mul_of_nonneg_right hu (by norm_num)
  norm_num at h1 h2 ⊢
  rcases abs_rnd hr hu hd with ⟨a, b⟩ | ⟨a, b⟩
  · rw [a, b]
    exact ⟨⟨fun h => by linarith, fun h => by linarith⟩, ⟨fun h => by norm_num, fun h => by linarith⟩⟩
  · norm_num at a b
    exact ⟨⟨fun h => by linarith, fun h => by linarith⟩, ⟨fun h => by linarith, fun h => by linarith⟩⟩

theorem tol_sum {d e : ℝ} (hd : d = 0 ∨ 2e-10 ≤ |d|) (he : e = 0 ∨ 2e-10 ≤ |e|) :
    rnd (|rnd d| + |rnd e|) > rnd 1e-10 ↔ |d| + |e| > 1e-10 := by
  rcases abs_rnd hr hu hd with ⟨a, b⟩ | ⟨a, b⟩ <;> rcases abs_rnd hr hu he with ⟨a', b'⟩ | ⟨a', b'⟩
  · rw [a, a', b, b']
    have := (tol hr hu (d := 0 + 0) (by norm_num)).1
    exact this
  all_goals
    have := (tol hr hu (d := |rnd d| + |rnd e|) (by right; linarith)).1
    rw [this]
    exact ⟨fun _ => by linarith, fun _ => by linarith⟩

variable {grid : List (List ℝ)} (ha : HeightsApart grid)
include ha

omit hr hu in
theorem apart {a b : ℝ} (h1 : Occurs grid a) (h2 : Occurs grid b) : a - b = 0 ∨ 2e-10 ≤ |a - b| := by
  rcases ha a b h1 h2 with h | h
  · exact .inl (by linarith)
  · exact .inr h

theorem growRow_eq {h : ℝ} (hh : Occurs grid h) (y2 : ℕ) : ∀ n x2 mx, growRow rnd grid h y2 n x2 mx = HeightMap.growRow grid h y2 n x2 mx
  | 0, _, _ => rfl
  | n + 1, x2, mx => by
    unfold growRow HeightMap.growRow
    cases hc : cell grid x2 y2 with
    | error f => rfl
    | ok v =>
      simp only [bind, Except.bind, (tol_abs hr hu (apart ha (cell_occurs hc) hh)).1, growRow_eq hh y2 n]

theorem growRect_eq {h : ℝ} (hh : Occurs grid h) (mx : ℕ) : ∀ n y2 max_x max_y,
    growRect rnd grid h mx n y2 max_x max_y = HeightMap.growRect grid h mx n y2 max_x max_y
  | 0, _, _, _ => rfl
  | n + 1, y2, max_x, max_y => by
    unfold growRect HeightMap.growRect
    cases hc : cell grid mx y2 with
    | error f => rfl
    | ok v =>
      simp only [bind, Except.bind, (tol_abs hr hu (apart ha (cell_occurs hc) hh)).2, growRow_eq hr hu ha hh, growRect_eq hh mx n]

theorem topCell_eq (res : ℝ) (mxm mym : ℕ) (s : (ℕ → ℕ → Bool) × Mesh) (mx my : ℕ) :
    topCell rnd grid res mxm mym (s.1, flatMesh rnd s.2) mx my =
      (HeightMap.topCell grid res mxm mym s mx my).map fun s => (s.1, flatMesh rnd s.2) := by
  unfold topCell HeightMap.topCell
  cases hc : cell grid mx my with
  | error f => rfl
  | ok h =>
    simp only [bind, Except.bind]
    by_cases c : s.1 mx my = false ∧ h > 0
    · simp only [if_pos c, growRect_eq hr hu ha (cell_occurs hc)]
      cases HeightMap.growRect grid h mx (mym - my) my mxm my with
      | error f => rfl
      | ok r =>
        simp [addCorners, flatMesh, Mesh.addPoint, Mesh.addTriangle, Mesh.invalidateCache, flat, pure, Except.pure, Except.map]
    · simp only [if_neg c]
      rfl

omit hr hu ha in
theorem foldlM_sim {S A : Type} (g : S → S) (I : S → Prop) {F G : S → A → Exec S} : ∀ (l : List A),
    (∀ s, I s → ∀ a ∈ l, F (g s) a = (G s a).map g ∧ ∀ s', G s a = .ok s' → I s') → ∀ s, I s →
    l.foldlM F (g s) = (l.foldlM G s).map g
  | [], _, _, _ => rfl
  | a :: l, h, s, hs => by
    obtain ⟨h1, h2⟩ := h s hs a (by simp)
    rw [List.foldlM_cons, List.foldlM_cons, h1]
    cases hG : G s a with
    | error f => rfl
    | ok s' => exact foldlM_sim g I l (fun s hs a ha => h s hs a (by simp [ha])) s' (h2 s' hG)

theorem tops_eq (res : ℝ) (mxm mym : ℕ) (m : Mesh) :
    tops rnd grid res mxm mym (flatMesh rnd m) = (HeightMap.tops grid res mxm mym m).map (flatMesh rnd) := by
  unfold tops HeightMap.tops
  have := foldlM_sim (fun s : (ℕ → ℕ → Bool) × Mesh => (s.1, flatMesh rnd s.2)) (fun _ => True)
    (F := fun s mx => (List.range mym).foldlM (fun s my => topCell rnd grid res mxm mym s mx my) s)
    (G := fun s mx => (List.range mym).foldlM (fun s my => HeightMap.topCell grid res mxm mym s mx my) s) (List.range mxm)
    (fun s _ mx _ => ⟨foldlM_sim (fun s : (ℕ → ℕ → Bool) × Mesh => (s.1, flatMesh rnd s.2)) (fun _ => True) (List.range mym)
      (fun s _ my _ => ⟨topCell_eq hr hu ha res mxm mym s mx my, fun _ _ => trivial⟩) s trivial, fun _ _ => trivial⟩)
    ((fun _ _ => false), m) trivial
  simp only at this
  rw [this]
  cases (List.range mxm).foldlM (fun s mx => (List.range mym).foldlM (fun s my => HeightMap.topCell grid res mxm mym s mx my) s)
    ((fun _ _ => false), m) <;> rfl

/-- The state of a side with rounded mesh. (Device of the proofs.) -/
def flatSide (rnd : ℝ → ℝ) (s : SideState) : SideState := { s with mesh := flatMesh rnd s.mesh }

theorem sideBody_eq {q q' : Mesh → ℕ → ℕ → ℝ → ℝ → Mesh} (hq : ∀ m a b h h2, q' (flatMesh rnd m) a b h h2 = flatMesh rnd (q m a b h h2))
    {s : SideState} (h1 : Occurs grid s.h_last) (h2 : Occurs grid s.h2_last) (i : ℕ) {a b : ℝ} (oa : Occurs grid a)
    (ob : Occurs grid b) : sideBody rnd q' (flatSide rnd s) i a b = flatSide rnd (HeightMap.sideBody q s i a b) := by
  unfold sideBody HeightMap.sideBody flatSide
  simp only [(tol_abs hr hu (apart ha oa ob)).1, tol_sum hr hu (apart ha oa h1) (apart ha ob h2), hq]
  cases s.start with
  | none => rfl
  | some i0 => split_ifs <;> rfl

omit hr hu ha in
theorem sideBody_last (q : Mesh → ℕ → ℕ → ℝ → ℝ → Mesh) (s : SideState) (i : ℕ) (a b : ℝ) :
    (HeightMap.sideBody q s i a b).h_last = a ∧ (HeightMap.sideBody q s i a b).h2_last = b := by
  unfold HeightMap.sideBody
  cases s.start with
  | none => exact ⟨rfl, rfl⟩
  | some i0 => dsimp only; split_ifs <;> exact ⟨rfl, rfl⟩

omit hr hu ha in
theorem quad_eq (rnd : ℝ → ℝ) (res : ℝ) (k : ℕ) (m : Mesh) (a b : ℕ) (h h2 : ℝ) :
    quadX rnd res k (flatMesh rnd m) a b h h2 = flatMesh rnd (HeightMap.quadX res k m a b h h2) ∧
    quadY rnd res k (flatMesh rnd m) a b h h2 = flatMesh rnd (HeightMap.quadY res k m a b h h2) := by
  constructor <;> simp [quadX, quadY, HeightMap.quadX, HeightMap.quadY, addCorners, flatMesh, Mesh.addPoint, Mesh.addTriangle,
    Mesh.invalidateCache, flat]

omit hr hu ha in
theorem guarded_occurs {c : Bool} {x y : ℕ} {v : ℝ} (h : guarded grid c x y = .ok v) : Occurs grid v := by
  unfold guarded at h
  split_ifs at h
  · exact cell_occurs h
  · exact .inl (by cases h; rfl)

theorem line_eq {q q' : Mesh → ℕ → ℕ → ℝ → ℝ → Mesh} (hq : ∀ m a b h h2, q' (flatMesh rnd m) a b h h2 = flatMesh rnd (q m a b h h2))
    {A B : ℕ → Exec ℝ} (hA : ∀ i v, A i = .ok v → Occurs grid v) (hB : ∀ i v, B i = .ok v → Occurs grid v) (l : List ℕ) (m : Mesh) :
    (do
      let s ← l.foldlM (fun s i => do
        let h ← A i
        let h2 ← B i
        return sideBody rnd q' s i h h2) (⟨0, 0, none, flatMesh rnd m⟩ : SideState)
      return s.mesh : Exec Mesh) =
    (do
      let s ← l.foldlM (fun s i => do
        let h ← A i
        let h2 ← B i
        return HeightMap.sideBody q s i h h2) (⟨0, 0, none, m⟩ : SideState)
      return s.mesh : Exec Mesh).map (flatMesh rnd) := by
  have := foldlM_sim (flatSide rnd) (fun s => Occurs grid s.h_last ∧ Occurs grid s.h2_last)
    (F := fun s i => do
        let h ← A i
        let h2 ← B i
        return sideBody rnd q' s i h h2)
    (G := fun s i => do
        let h ← A i
        let h2 ← B i
        return HeightMap.sideBody q s i h h2) l (by
    intro s hs i _
    cases h1 : A i with
    | error f => exact ⟨rfl, fun s' h => nomatch h⟩
    | ok a =>
    cases h2 : B i with
    | error f => exact ⟨rfl, fun s' h => nomatch h⟩
    | ok b =>
      refine ⟨congrArg Except.ok (sideBody_eq hr hu ha hq hs.1 hs.2 i (hA i a h1) (hB i b h2)), fun s' h => ?_⟩
      obtain rfl := Except.ok.inj h
      obtain ⟨e1, e2⟩ := sideBody_last q s i a b
      rw [e1, e2]
      exact ⟨hA i a h1, hB i b h2⟩) ⟨0, 0, none, m⟩ ⟨.inl rfl, .inl rfl⟩
  rw [show (⟨0, 0, none, flatMesh rnd m⟩ : SideState) = flatSide rnd ⟨0, 0, none, m⟩ from rfl, this]
  cases l.foldlM (fun s i => do
        let h ← A i
        let h2 ← B i
        return HeightMap.sideBody q s i h h2) (⟨0, 0, none, m⟩ : SideState) <;> rfl

theorem sidesX_eq (res : ℝ) (mxm mym : ℕ) (m : Mesh) :
    sidesX rnd grid res mxm mym (flatMesh rnd m) = (HeightMap.sidesX grid res mxm mym m).map (flatMesh rnd) := by
  unfold sidesX HeightMap.sidesX
  exact foldlM_sim (flatMesh rnd) (fun _ => True) _ (fun s _ mx _ => ⟨line_eq hr hu ha (fun m a b h h2 => (quad_eq rnd res mx m a b h h2).1)
    (fun i v => guarded_occurs) (fun i v => guarded_occurs) _ s, fun _ _ => trivial⟩) m trivial

theorem sidesY_eq (res : ℝ) (mxm mym : ℕ) (m : Mesh) :
    sidesY rnd grid res mxm mym (flatMesh rnd m) = (HeightMap.sidesY grid res mxm mym m).map (flatMesh rnd) := by
  unfold sidesY HeightMap.sidesY
  exact foldlM_sim (flatMesh rnd) (fun _ => True) _ (fun s _ my _ => ⟨line_eq hr hu ha (fun m a b h h2 => (quad_eq rnd res my m a b h h2).2)
    (fun i v => guarded_occurs) (fun i v => guarded_occurs) _ s, fun _ _ => trivial⟩) m trivial

end

/-! ## The whole function -/

section
variable {grid : List (List ℝ)} {m n : ℕ}

theorem root_of_okR (hg : Rectangular grid m n) (hm : 0 < m) (hm' : m ≤ 2 ^ 31) (hn : n ≤ 2 ^ 31) {res : ℝ}
    {hmap : HeightMap} (h : fromGrid rnd grid res = .ok hmap) :
    ∃ k, m ≤ 2 ^ k ∧ n ≤ 2 ^ k ∧ hmap.root = roundTree rnd (quad (height grid) res k 0 0) := by
  have hlen := hg.1
  have hrow : vget grid 0 = .ok grid[0] := vget_lt (by omega)
  have hrl : grid[0].length = n := hg.2 _ (List.getElem_mem _)
  have e1 : u32 m = m := Nat.mod_eq_of_lt (by omega)
  have e2 : u32 n = n := Nat.mod_eq_of_lt (by omega)
  obtain ⟨k, hk, hkmin, hpow⟩ := powSize (size := max m n) (max_le hm' hn)
  have hmk : m ≤ 2 ^ k := le_trans (le_max_left _ _) hk
  have hnk : n ≤ 2 ^ k := le_trans (le_max_right _ _) hk
  obtain ⟨map, hmap, hcell⟩ := powGrid_eq hg hmk hnk
  have htree := createQuadTree_eq (map := map) (H := height grid) (res := res) k 0 0
    (fun x y a b => hcell x y (by omega) (by omega))
  simp only [Nat.zero_add] at htree
  refine ⟨k, hmk, hnk, ?_⟩
  unfold fromGrid at h
  simp only [hlen, hrow, bind, Except.bind, hrl, e1, e2, hpow, hmap, createQuadTree_round rnd map res _ 0 0 _ _ rfl, htree,
    Except.map] at h
  cases h1 : tops rnd grid res m n Mesh.new with
  | error f => rw [h1] at h; cases h
  | ok m1 =>
    rw [h1] at h
    dsimp only at h
    cases h2 : sidesX rnd grid res m n m1 with
    | error f => rw [h2] at h; cases h
    | ok m2 =>
      rw [h2] at h
      dsimp only at h
      cases h3 : sidesY rnd grid res m n m2 with
      | error f => rw [h3] at h; cases h
      | ok m3 =>
        rw [h3] at h
        dsimp only at h
        cases h4 : Rounded.filterOverlappingVertices rnd m3 with
        | error f => rw [h4] at h; cases h
        | ok m4 =>
          rw [h4] at h
          simp only [pure, Except.pure, Except.ok.injEq] at h
          rw [← h]

theorem height_occurs (x y : ℕ) : Occurs grid (height grid x y) := by
  unfold height
  rcases lt_or_ge x grid.length with hx | hx
  · rcases lt_or_ge y grid[x].length with hy | hy
    · simp only [List.getD_eq_getElem?_getD, hx, hy, List.getElem?_eq_getElem, Option.getD_some]
      exact .inr ⟨_, List.getElem_mem hx, List.getElem_mem hy⟩
    · exact .inl (by simp [hx, hy])
  · exact .inl (by simp [hx])

theorem separated_of_apart (ha : HeightsApart grid) : Separated grid := by
  intro x y x' y' hne
  rcases ha _ _ (height_occurs x y) (height_occurs x' y') with h | h
  · exact absurd h hne
  · exact lt_of_lt_of_le (by norm_num) h

/-- `fromGrid` up to the vertex merge. -/
theorem fromGrid_eqR (hr : RelErr u rnd) (hu : u ≤ 1 / 1000) (ha : HeightsApart grid) (hg : Rectangular grid m n) (hm : 0 < m)
    (hm' : m ≤ 2 ^ 31) (hn : n ≤ 2 ^ 31) (res : ℝ) :
    ∃ (k : ℕ) (F WX WY : List Face), F.length ≤ m * n ∧ WX.length ≤ (m + 1) * (n + 1) ∧ WY.length ≤ (n + 1) * (m + 1) ∧
      (∀ f ∈ F, GoodTop grid m n f) ∧ (∀ x y, 0 < height grid x y → ∃ f ∈ F, f.Covers x y) ∧
      (∀ f ∈ WX, WallXIn grid m n f) ∧ (∀ f ∈ WY, WallYIn grid m n f) ∧ WallsX grid WX ∧ WallsY grid WY ∧
      fromGrid rnd grid res = (do
        let m' ← Rounded.filterOverlappingVertices rnd (flatMesh rnd ((F ++ WX ++ WY).foldl (addFace res) Mesh.new))
        return ⟨roundTree rnd (quad (height grid) res k 0 0), m'⟩) := by
  have hlen := hg.1
  have hrow : vget grid 0 = .ok grid[0] := vget_lt (by omega)
  have hrl : grid[0].length = n := hg.2 _ (List.getElem_mem _)
  have e1 : u32 m = m := Nat.mod_eq_of_lt (by omega)
  have e2 : u32 n = n := Nat.mod_eq_of_lt (by omega)
  obtain ⟨k, hk, hkmin, hpow⟩ := powSize (size := max m n) (max_le hm' hn)
  have hmk : m ≤ 2 ^ k := le_trans (le_max_left _ _) hk
  have hnk : n ≤ 2 ^ k := le_trans (le_max_right _ _) hk
  obtain ⟨map, hmap, hcell⟩ := powGrid_eq hg hmk hnk
  have htree := createQuadTree_eq (map := map) (H := height grid) (res := res) k 0 0
    (fun x y a b => hcell x y (by omega) (by omega))
  simp only [Nat.zero_add] at htree
  obtain ⟨m1, F, f1, f2, f3, f4, f6, f5⟩ := tops_ok hg res Mesh.new
  obtain ⟨m2, WX, x1, x2, x3, x4, x5⟩ := sidesX_ok hg res m1
  obtain ⟨m3, WY, y1, y2, y3, y4, y5⟩ := sidesY_ok hg res m2
  have hs := separated_of_apart ha
  refine ⟨k, F, WX, WY, f3, x3, y3, f4, f5, x4, y4, x5 hs, y5 hs, ?_⟩
  have t1 : tops rnd grid res m n Mesh.new = .ok (flatMesh rnd m1) := by
    have := tops_eq hr hu ha res m n Mesh.new
    rw [f1] at this
    exact this
  have t2 := sidesX_eq hr hu ha res m n m1
  rw [x1] at t2
  have t3 := sidesY_eq hr hu ha res m n m2
  rw [y1] at t3
  unfold fromGrid
  simp only [hlen, hrow, bind, Except.bind, hrl, e1, e2, hpow, hmap, createQuadTree_round rnd map res _ 0 0 _ _ rfl, htree,
    Except.map, t1] at t2 t3 ⊢
  simp only [t2, t3]
  rw [List.foldl_append, List.foldl_append, ← f2, ← x2, ← y2]

/-- Points above corners of cells stay in range. -/
theorem range_flat (hr : RelErr u rnd) {res : ℝ} (hg : RoundedGridInRange u grid m n res) {p : Vec3} (hp : InGrid grid m n res p) :
    RoundedIntRange u (flat rnd p) := by
  have hu0 := Rounded.relErr_nonneg hr
  obtain ⟨x, y, hx, hy, ex, ey, x', y', ez⟩ := hp
  obtain ⟨-, r2, r3⟩ := hg
  obtain ⟨k1, k2⟩ := r2 x y hx hy
  have key : ∀ a : ℝ, (1 + u) * ((1 + u) * |1000 * a|) < 2 ^ 31 → (1 + u) * |1000 * rnd a| < 2 ^ 31 := by
    intro a h
    refine lt_of_le_of_lt ?_ h
    refine mul_le_mul_of_nonneg_left ?_ (by linarith)
    rw [abs_mul, abs_mul, abs_of_pos (by norm_num : (0:ℝ) < 1000)]
    have h1 := hr a
    have h2 : |rnd a| ≤ |rnd a - a| + |a| := by
      have := abs_add_le (rnd a - a) a
      rwa [sub_add_cancel] at this
    nlinarith
  exact ⟨key _ (by rw [ex]; exact k1), key _ (by rw [ey]; exact k2), by show (1 + u) * |1000 * p.z| < _; rw [ez]; exact r3 x' y'⟩

end

/-! ## Without rounding -/

theorem nodeRay_id (n : HNode) (r : Ray) (t0 t1 : ℝ) : ∀ d, nodeRay id id n r t0 t1 d = n.intersectRay r t0 t1 d := by
  induction n with
  | null => intro d; rfl
  | node b oc ch ih =>
    intro d
    unfold nodeRay HNode.intersectRay
    have e : ∀ d, Rounded.boxRay id id b r t0 t1 d = b.intersectRay r t0 t1 d := fun _ => rfl
    simp only [e, ih]

open Classical in
theorem createQuadTree_id (map : List (List ℝ)) (res : ℝ) : ∀ (n x0 y0 x1 y1 : ℕ), x1 - x0 = n →
    createQuadTree id map x0 y0 x1 y1 res = HeightMap.createQuadTree map x0 y0 x1 y1 res := by
  intro n
  induction n using Nat.strong_induction_on with
  | _ n ih =>
    intro x0 y0 x1 y1 hn
    rw [createQuadTree, HeightMap.createQuadTree]
    cases maxHeight map x0 y0 x1 y1 with
    | error f => rfl
    | ok mh =>
      simp only [Except.bind, id]
      by_cases c1 : mh = 0
      · simp only [if_pos c1]
      simp only [if_neg c1]
      by_cases c2 : x1 - x0 = 1 ∨ y1 - y0 = 1
      · simp only [if_pos c2]
      simp only [if_neg c2]
      by_cases c3 : x1 - x0 = 0
      · simp only [dif_pos c3]
      simp only [dif_neg c3]
      rw [ih ((x1 + x0) / 2 - x0) (by omega) _ _ _ _ rfl, ih (x1 - (x1 + x0) / 2) (by omega) _ _ _ _ rfl,
        ih ((x1 + x0) / 2 - x0) (by omega) _ _ _ _ rfl, ih (x1 - (x1 + x0) / 2) (by omega) _ _ _ _ rfl]

theorem growRow_id (grid : List (List ℝ)) (h : ℝ) (y2 : ℕ) : ∀ n x2 mx, growRow id grid h y2 n x2 mx = HeightMap.growRow grid h y2 n x2 mx
  | 0, _, _ => rfl
  | n + 1, x2, mx => by
    unfold growRow HeightMap.growRow
    simp only [id, growRow_id grid h y2 n]

theorem growRect_id (grid : List (List ℝ)) (h : ℝ) (mx : ℕ) : ∀ n y2 max_x max_y,
    growRect id grid h mx n y2 max_x max_y = HeightMap.growRect grid h mx n y2 max_x max_y
  | 0, _, _, _ => rfl
  | n + 1, y2, max_x, max_y => by
    unfold growRect HeightMap.growRect
    simp only [id, growRow_id, growRect_id grid h mx n]

theorem fromGrid_id (grid : List (List ℝ)) (res : ℝ) (hf : ∀ m, Rounded.filterOverlappingVertices id m = m.filterOverlappingVertices) :
    fromGrid id grid res = HeightMap.fromGrid grid res := by
  have t : ∀ a b m, tops id grid res a b m = HeightMap.tops grid res a b m := by
    intro a b m
    have e : ∀ s mx my, topCell id grid res a b s mx my = HeightMap.topCell grid res a b s mx my := by
      intro s mx my
      unfold topCell HeightMap.topCell
      simp only [growRect_id, id]
    unfold tops HeightMap.tops
    simp only [e]
  have x : ∀ a b m, sidesX id grid res a b m = HeightMap.sidesX grid res a b m := fun _ _ _ => rfl
  have y : ∀ a b m, sidesY id grid res a b m = HeightMap.sidesY grid res a b m := fun _ _ _ => rfl
  have q : ∀ map x0 y0 x1 y1, createQuadTree id map x0 y0 x1 y1 res = HeightMap.createQuadTree map x0 y0 x1 y1 res := by
    intro map x0 y0 x1 y1
    exact createQuadTree_id map res _ x0 y0 x1 y1 rfl
  unfold fromGrid HeightMap.fromGrid
  simp only [t, x, y, q, hf]

end Geo.RoundedHeightMap
