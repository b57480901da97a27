import Verif.Lemmas.Triangle
import Mathlib.LinearAlgebra.CrossProduct

/-!
# Property theorems C10 - C16 (Mesh, Triangle)
-/

namespace Geo

open Spec Matrix

/-- A small mesh used in the examples: a right triangle with legs 3 and 4. (Device of the proofs.) -/
def demoOps : List Mesh.Op :=
  [.addPoint ⟨0, 0, 0⟩, .addPoint ⟨3, 0, 0⟩, .addPoint ⟨0, 4, 0⟩, .queryMaxRadius,
   .addTriangle 0 1 2, .queryTriangles]

/-! ## C10 -/

/-- C10: after any history the answers do not depend on the caches: they are what the same mesh
with emptied caches answers; the triangles are the triangle soup of the current points and indices. -/
theorem C10_caches_unobservable (ops : List Mesh.Op) (m : Mesh) (h : Mesh.new.run ops = .ok m) :
    (∀ r, m.getTriangles = .ok r →
      soup m.points m.tris = some (r.2.map fun t => (t.p1, t.p2, t.p3))) ∧
    (∀ e, m.getTriangles = .error e → soup m.points m.tris = none) ∧
    (let fresh : Mesh := ⟨m.points, m.tris, [], 0, 0⟩
     m.getTriangles.map Prod.snd = fresh.getTriangles.map Prod.snd ∧
     m.getSquaredMaxRadius.2 = fresh.getSquaredMaxRadius.2 ∧
     m.getMaxRadius.2 = fresh.getMaxRadius.2) := by
  have hc : m.Coherent := Mesh.coherent_run Mesh.coherent_new h
  have hf : (⟨m.points, m.tris, [], 0, 0⟩ : Mesh).Coherent := by simp [Mesh.Coherent]
  obtain ⟨h1, h2⟩ := Mesh.getTriangles_ok hc
  obtain ⟨f1, f2⟩ := Mesh.getTriangles_ok hf
  refine ⟨?_, ?_, ?_, ?_, ?_⟩
  · intro r hr
    exact Mesh.mapM_corners_soup.1 (h1 r hr).1
  · intro e he
    obtain ⟨e', he'⟩ := h2 e he
    by_contra hne
    obtain ⟨l, hl⟩ := Option.ne_none_iff_exists'.1 hne
    obtain ⟨l', hl'⟩ := Mesh.soup_valid (Mesh.valid_of_soup hl)
    rw [hl'] at he'; simp at he'
  · rcases hm : m.getTriangles with e | r
    · obtain ⟨e', he'⟩ := h2 e hm
      unfold Mesh.getTriangles at hm
      split_ifs at hm with hc0
      · unfold Mesh.getTriangles
        simp only [List.isEmpty_nil, if_true]
        rcases hmm : m.tris.mapM (Mesh.corners m.points) with e2 | l
        · rw [hmm] at hm
          simp [bind, Except.bind] at hm
          simp [bind, Except.bind, Except.map, hm]
        · rw [hmm] at he'; simp at he'
    · rcases hg : (⟨m.points, m.tris, [], 0, 0⟩ : Mesh).getTriangles with e | r'
      · obtain ⟨e', he'⟩ := f2 e hg
        rw [(h1 r hm).1] at he'; simp at he'
      · have a := (h1 r hm).1
        have b := (f1 r' hg).1
        rw [a] at b
        simp at b
        simp [Except.map, b]
  · rw [Mesh.getSquaredMaxRadius_ok hc, Mesh.getSquaredMaxRadius_ok hf]
  · rw [(Mesh.getMaxRadius_ok hc).1, (Mesh.getMaxRadius_ok hf).1]

/-- C10: queries leave no trace: dropping them from a history gives the same points and triangles. -/
theorem C10_queries_erasable (ops : List Mesh.Op) (m : Mesh) (h : Mesh.new.run ops = .ok m) :
    ∃ m', Mesh.new.run (ops.filter fun o => match o with
        | .queryTriangles | .querySquaredMaxRadius | .queryMaxRadius => false
        | _ => true) = .ok m' ∧
      m'.points = m.points ∧ m'.tris = m.tris := by
  obtain ⟨n', h1, h2⟩ := Mesh.run_erase (n := Mesh.new) ⟨rfl, rfl⟩ h
  refine ⟨n', ?_, h2.1.symm, h2.2.symm⟩
  have : (fun o : Mesh.Op => !o.isQuery) = (fun o => match o with
        | .queryTriangles | .querySquaredMaxRadius | .queryMaxRadius => false
        | _ => true) := by
    funext o; cases o <;> rfl
  rw [← this]; exact h1

/-- C10 case: a history with queries before and after the last modification; it runs without fault
and the soup is the triangle. -/
example : ∃ m, Mesh.new.run demoOps = .ok m ∧
    soup m.points m.tris = some [(⟨0, 0, 0⟩, ⟨3, 0, 0⟩, ⟨0, 4, 0⟩)] := by
  refine ⟨_, by simp [demoOps, Mesh.run, Mesh.step, Mesh.addPoint, Mesh.addTriangle, Mesh.new,
    Mesh.invalidateCache, Mesh.getMaxRadius, Mesh.getSquaredMaxRadius, Mesh.getTriangles,
    Mesh.corners, vget, bind, Except.bind, pure, Except.pure]; rfl, ?_⟩
  simp [soup]

/-! ## C11 -/

/-- C11: in an admissible history nothing is read out of range: the history runs without fault, all
indices stay valid, and all further queries succeed. -/
theorem C11_indices_valid (ops : List Mesh.Op) (h : Admissible Mesh.new ops) :
    ∃ m, Mesh.new.run ops = .ok m ∧ Valid m.points m.tris ∧ (∃ r, m.getTriangles = .ok r) ∧
      (∀ i < m.tris.length, ∃ n, m.getTriangleNormal i = .ok n) := by
  obtain ⟨m, h1, h2⟩ := Mesh.run_valid (m := Mesh.new) (by simp [Valid, Mesh.new, Mesh.invalidateCache])
    (by simp [Mesh.new, Mesh.invalidateCache]) h
  refine ⟨m, h1, h2, ?_, fun i hi => Mesh.getTriangleNormal_ok h2 hi⟩
  obtain ⟨l, hl⟩ := Mesh.soup_valid h2
  unfold Mesh.getTriangles
  rw [hl]
  split_ifs <;> exact ⟨_, rfl⟩

/-- C11: the index returned by `addPoint` keeps denoting the added point until the mesh is cleared,
filtered or replaced. -/
theorem C11_index_stable (m m' : Mesh) (p : Vec3) (ops : List Mesh.Op)
    (hl : m.points.length < 2 ^ 32) (hr : ∀ o ∈ ops, ¬ Renumbers o)
    (h : (m.addPoint p).1.run ops = .ok m') : m'.points[(m.addPoint p).2]? = some p := by
  refine Mesh.run_stable h hr ?_
  simp only [Mesh.addPoint, Mesh.invalidateCache, u32, Nat.mod_eq_of_lt hl]
  simp

/-- C11 case: an admissible history with triangles, a merge and an added mesh. -/
example : Admissible Mesh.new (demoOps ++ [.filter, .add ⟨[⟨1, 1, 1⟩], [⟨0, 0, 0⟩], [], 0, 0⟩]) := by
  simp only [demoOps, List.cons_append, List.nil_append, Admissible, CallOk, Mesh.step]
  simp only [Except.ok.injEq, forall_eq']
  simp only [Mesh.new, Mesh.addPoint, Mesh.addTriangle, Mesh.invalidateCache]
  refine ⟨by norm_num, by norm_num, by norm_num, trivial, ?_, trivial, ?_⟩
  · simp [Mesh.getMaxRadius, Mesh.getSquaredMaxRadius]
  · intro m' hm'
    simp [Mesh.getMaxRadius, Mesh.getSquaredMaxRadius, Mesh.getTriangles, Mesh.corners, vget,
      bind, Except.bind, pure, Except.pure] at hm'
    subst hm'
    refine ⟨by simp [InIntRange]; norm_num [abs_of_pos], ?_⟩
    intro m'' hm''
    refine ⟨⟨by simp [Valid], ?_⟩, by simp⟩
    obtain ⟨imap, h1, _⟩ := Mesh.filter_ok hm''
    obtain ⟨p, x, i, h2, h3⟩ := Mesh.filterLoop_inv (dn := []) (vs := [⟨0, 0, 0⟩, ⟨3, 0, 0⟩, ⟨0, 4, 0⟩])
      (by simp [InIntRange]; norm_num [abs_of_pos]) (by norm_num) Mesh.FInv.init
    simp only [] at h1
    have := h1.symm.trans h2
    simp at this
    have h4 := h3.sub.length_le
    rw [this.1]
    simp at h4 ⊢
    omega

/-! ## C12 -/

/-- C12: adding a mesh appends its points and its triangle soup. -/
theorem C12_add (m n : Mesh) (l k : List (Vec3 × Vec3 × Vec3))
    (hm : soup m.points m.tris = some l) (hn : soup n.points n.tris = some k)
    (hl : m.points.length + n.points.length ≤ 2 ^ 32) :
    (m.add n).points = m.points ++ n.points ∧
    soup (m.add n).points (m.add n).tris = some (l ++ k) := by
  refine ⟨rfl, ?_⟩
  have hq : n.points ≠ [] ∨ n.tris = [] := by
    rcases ht : n.tris with _ | ⟨t, ts⟩
    · right; rfl
    · left
      intro h0
      have := Mesh.valid_of_soup hn t (by simp [ht])
      rw [h0] at this; simp at this
  exact Mesh.soup_append hm (Mesh.soup_shift hl hq hn)

/-- C12: `size()` is the number of triangles, `empty()` says that there are none, and sizes add up. -/
theorem C12_size (m n : Mesh) (l k : List (Vec3 × Vec3 × Vec3))
    (hm : soup m.points m.tris = some l) (hn : soup n.points n.tris = some k)
    (hl : m.points.length + n.points.length ≤ 2 ^ 32) :
    m.size = l.length ∧ (m.empty = true ↔ l = []) ∧ (m.add n).size = l.length + k.length := by
  have key : ∀ (p : List Vec3) (t : List TriI) l, soup p t = some l → t.length = l.length := by
    intro p t
    induction t with
    | nil => intro l h; simp [soup] at h; simp [h]
    | cons a t ih =>
      intro l h
      simp only [soup, List.mapM_cons, Option.bind_eq_bind, Option.pure_def, Option.bind_eq_some_iff, Option.some.injEq] at h
      obtain ⟨b, -, l', h1, rfl⟩ := h
      simpa using ih l' h1
  have k1 := key _ _ _ hm
  refine ⟨k1, ?_, ?_⟩
  · rw [Mesh.empty, List.isEmpty_iff, ← List.length_eq_zero_iff, k1, List.length_eq_zero_iff]
  · have := key _ _ _ (C12_add m n l k hm hn hl).2
    simpa [Mesh.size] using this

/-- C12: a mesh added to itself is outside the contract: undefined behaviour. -/
theorem C12_add_self_ub (m : Mesh) : m.step .addSelf = .error .ub := rfl

/-- C12 case. -/
example : soup [⟨0, 0, 0⟩, ⟨3, 0, 0⟩, ⟨0, 4, 0⟩] [⟨0, 1, 2⟩] =
      some [(⟨0, 0, 0⟩, ⟨3, 0, 0⟩, ⟨0, 4, 0⟩)] ∧
    ([⟨0, 0, 0⟩, ⟨3, 0, 0⟩, ⟨0, 4, 0⟩] : List Vec3).length + 3 ≤ 2 ^ 32 := by
  constructor
  · simp [soup]
  · norm_num

/-! ## C13 -/

/-- C13: merging overlapping vertices succeeds, keeps the number of triangles, moves every triangle
corner within its truncated-millimetre cell (by less than 2 mm per axis; by less than 1 mm if the
coordinate is at least 1 mm in magnitude), leaves no two points in a cell, keeps only old points, and
is idempotent. -/
theorem C13_merge (m : Mesh) (hv : Valid m.points m.tris)
    (hr : ∀ p ∈ m.points, InIntRange p) (hl : m.points.length ≤ 2 ^ 32) :
    ∃ m' m'', m.filterOverlappingVertices = .ok m' ∧ m'.filterOverlappingVertices = .ok m'' ∧
      m''.points = m'.points ∧ m''.tris = m'.tris ∧
      Valid m'.points m'.tris ∧ m'.points.Sublist m.points ∧
      m'.points.Pairwise (fun p q => ¬ SameCell3 p q) ∧
      ∃ l l', soup m.points m.tris = some l ∧ soup m'.points m'.tris = some l' ∧
        List.Forall₂ (fun c c' => SameCell3 c.1 c'.1 ∧ SameCell3 c.2.1 c'.2.1 ∧
          SameCell3 c.2.2 c'.2.2) l l' := by
  obtain ⟨m', imap, h1, h2, h3, h4, h5⟩ := Mesh.filter_spec hv hr hl
  have hv' := Mesh.valid_of_filter hv h4 h5
  obtain ⟨m'', h6, h7, h8⟩ := Mesh.filter_idem hv' (fun p hp => hr p (h2.subset hp))
    (le_trans h2.length_le hl) h3
  obtain ⟨l, hl1⟩ := Mesh.soup_valid hv
  obtain ⟨l', hl2⟩ := Mesh.soup_valid hv'
  refine ⟨m', m'', h1, h6, h7, h8, hv', h2, ?_, _, _, Mesh.mapM_corners_soup.1 hl1,
    Mesh.mapM_corners_soup.1 hl2, ?_⟩
  · rw [List.Nodup, List.pairwise_map] at h3
    exact h3.imp (fun hne h => hne ((Mesh.key_eq_iff _ _).2 h))
  · rw [mapM_ok_iff] at hl1 hl2
    generalize m.tris = ts at h5 hl1
    generalize m'.tris = ts' at h5 hl2
    clear h8
    have aux : ∀ (j i : ℕ) (a b : Vec3), imap[j]? = some i → m.points[j]? = some a →
        m'.points[i]? = some b → SameCell3 a b := by
      intro j i a b hj ha hb
      obtain ⟨i', q, e1, e2, e3⟩ := h4 j a ha
      rw [hj] at e1; simp at e1; subst e1
      rw [hb] at e2; simp at e2; subst e2
      exact (Mesh.key_eq_iff _ _).1 e3.symm
    induction h5 generalizing l l' with
    | nil => cases hl1; cases hl2; exact .nil
    | cons ha _ ih =>
      cases hl1 with
      | cons hb hl1 =>
        cases hl2 with
        | cons hc hl2 =>
          rw [Mesh.corners_ok] at hb hc
          simp only [List.map_cons]
          exact .cons ⟨aux _ _ _ _ ha.1 hb.1 hc.1, aux _ _ _ _ ha.2.1 hb.2.1 hc.2.1,
            aux _ _ _ _ ha.2.2 hb.2.2 hc.2.2⟩ (ih _ _ hl1 hl2)

/-- C13: points of one cell are close. -/
theorem C13_cell_size (p q : Vec3) (h : SameCell3 p q) :
    |p.x - q.x| < 2 / 1000 ∧ |p.y - q.y| < 2 / 1000 ∧ |p.z - q.z| < 2 / 1000 ∧
    (1 / 1000 ≤ |p.x| → |p.x - q.x| < 1 / 1000) ∧ (1 / 1000 ≤ |p.y| → |p.y - q.y| < 1 / 1000) ∧
    (1 / 1000 ≤ |p.z| → |p.z - q.z| < 1 / 1000) :=
  ⟨(sameCell_close h.1).1, (sameCell_close h.2.1).1, (sameCell_close h.2.2).1,
    (sameCell_close h.1).2, (sameCell_close h.2.1).2, (sameCell_close h.2.2).2⟩

/-- C13: the 2 mm bound cannot be improved to 1 mm: around zero, truncation merges points that are
1.8 mm apart. -/
theorem C13_zero_cell_double : SameCell3 ⟨-0.0009, 0, 0⟩ ⟨0.0009, 0, 0⟩ := by
  refine ⟨⟨0, Or.inl ⟨?_, ?_, rfl⟩⟩, ⟨0, Or.inl ?_⟩, ⟨0, Or.inl ?_⟩⟩ <;> norm_num [abs_lt]

/-- C13: a coordinate outside the range of `int` after scaling is undefined behaviour. -/
theorem C13_out_of_range_ub :
    (⟨[⟨3000000, 0, 0⟩], [], [], 0, 0⟩ : Mesh).filterOverlappingVertices = .error .ub := by
  have : castInt (1000 * 3000000) = .error .ub := by
    unfold castInt trunc
    rw [if_neg]
    rw [if_pos (by norm_num), show (1000 * 3000000 : ℝ) = ((3000000000 : ℤ) : ℝ) by norm_num,
      Int.floor_intCast]
    norm_num
  simp [Mesh.filterOverlappingVertices, Mesh.filterLoop, Mesh.cellKey, this, bind, Except.bind]

/-- C13 case: two of three points share a cell. -/
example : ∃ m : Mesh, Valid m.points m.tris ∧ (∀ p ∈ m.points, InIntRange p) ∧
    m.points.length ≤ 2 ^ 32 ∧ 
    ∃ p q, m.points = [p, q, ⟨0, 0, 0⟩] ∧ SameCell3 p q := by
  refine ⟨⟨[⟨1.0001, 2, 3⟩, ⟨1.0002, 2, 3⟩, ⟨0, 0, 0⟩], [⟨0, 1, 2⟩], [], 0, 0⟩, ?_, ?_, ?_, _, _, rfl, ?_⟩
  · simp [Valid]
  · simp [InIntRange]; norm_num [abs_of_pos]
  · norm_num
  · refine ⟨⟨1000, Or.inr (Or.inl ?_)⟩, ⟨2000, Or.inr (Or.inl ?_)⟩, ⟨3000, Or.inr (Or.inl ?_)⟩⟩ <;>
      norm_num

/-! ## C14 -/

/-- C14: transforming a mesh keeps the connectivity and transforms the triangle soup; it composes; a
rotation about the origin keeps the maximum radius. -/
theorem C14_transform (m : Mesh) (A B T : Transform3) :
    (m.getTransformed T).tris = m.tris ∧
    (∀ l, soup m.points m.tris = some l →
      soup (m.getTransformed T).points (m.getTransformed T).tris =
        some (l.map fun c => (T.apply c.1, T.apply c.2.1, T.apply c.2.2))) ∧
    (m.getTransformed B).getTransformed A = m.getTransformed (A.mul B) ∧
    (Orthogonal T.R → T.t = ⟨0, 0, 0⟩ → ∀ r, IsRadius m.points r →
      (m.getTransformed T).getMaxRadius.2 = r) := by
  refine ⟨rfl, ?_, ?_, ?_⟩
  · intro l hl
    rw [Mesh.soup_some] at hl ⊢
    rw [List.forall₂_map_right_iff]
    refine hl.imp ?_
    rintro t c ⟨a, b, d⟩
    simp [Mesh.getTransformed, a, b, d]
  · simp only [Mesh.getTransformed, List.map_map, Mesh.mk.injEq, and_true]
    refine List.map_congr_left fun v _ => ?_
    simp only [Function.comp]
    ext <;> simp [Transform3.apply, Transform3.mul, Mat3.mulVec, Mat3.mul] <;> ring
  · intro ho ht r hr
    have hd : ∀ p, Spec.dist (T.apply p) ⟨0, 0, 0⟩ = Spec.dist p ⟨0, 0, 0⟩ := by
      intro p
      have h0 : T.apply ⟨0, 0, 0⟩ = ⟨0, 0, 0⟩ := by
        ext <;> simp [Transform3.apply, Mat3.mulVec, ht]
      have := rigid_apply_sq (T := T) ho p ⟨0, 0, 0⟩
      rw [h0] at this
      unfold Spec.dist; rw [this]
    have hc : (m.getTransformed T).Coherent := by
      simp [Mesh.Coherent, Mesh.getTransformed, Mesh.new, Mesh.invalidateCache]
    rw [(Mesh.getMaxRadius_ok hc).1]
    obtain ⟨a1, a2⟩ := Mesh.sqMax_isRadius (m.getTransformed T).points
    generalize Real.sqrt (Mesh.sqMax (m.getTransformed T).points 0) = s at a1 a2
    obtain ⟨b1, b2⟩ := hr
    have hp : (m.getTransformed T).points = m.points.map T.apply := rfl
    rw [hp] at a1 a2
    rcases a2 with ⟨q, hq, e⟩ | ⟨e1, e2⟩
    · obtain ⟨p, hp, rfl⟩ := List.mem_map.1 hq
      rw [hd] at e
      rcases b2 with ⟨p', hp', e'⟩ | ⟨e1, _⟩
      · apply le_antisymm
        · rw [← e]; exact b1 p hp
        · rw [← e', ← hd]; exact a1 _ (List.mem_map.2 ⟨p', hp', rfl⟩)
      · rw [e1] at hp; simp at hp
    · have e3 : m.points = [] := by simpa using e1
      rcases b2 with ⟨p', hp', e'⟩ | ⟨_, e4⟩
      · rw [e3] at hp'; simp at hp'
      · rw [e2, e4]

/-- C14 case: a quarter turn about z of a point at distance 5. -/
example : Orthogonal (⟨⟨0, -1, 0, 1, 0, 0, 0, 0, 1⟩, ⟨0, 0, 0⟩⟩ : Transform3).R ∧
    IsRadius [⟨3, 4, 0⟩] 5 := by
  constructor
  · rw [orth_iff]; norm_num
  · have : Spec.dist ⟨3, 4, 0⟩ ⟨0, 0, 0⟩ = 5 := by
      unfold Spec.dist distSq
      rw [show ((3 : ℝ) - 0) ^ 2 + (4 - 0) ^ 2 + (0 - 0) ^ 2 = 5 ^ 2 by norm_num]
      exact Real.sqrt_sq (by norm_num)
    simp [IsRadius, this]

/-! ## C15 -/

/-- C15: after any history the maximum radius is the tight bound on the distances of the points to
the origin (0 without points), and the squared radius is its square. -/
theorem C15_radius (ops : List Mesh.Op) (m : Mesh) (h : Mesh.new.run ops = .ok m) :
    IsRadius m.points m.getMaxRadius.2 ∧ m.getSquaredMaxRadius.2 = m.getMaxRadius.2 ^ 2 ∧
    IsRadius m.points m.getMaxRadius.1.getMaxRadius.2 := by
  have hc : m.Coherent := Mesh.coherent_run Mesh.coherent_new h
  obtain ⟨h1, h2, _, h4⟩ := Mesh.getMaxRadius_ok hc
  refine ⟨?_, ?_, ?_⟩
  · rw [h1]; exact Mesh.sqMax_isRadius _
  · rw [h1, Mesh.getSquaredMaxRadius_ok hc, Real.sq_sqrt]
    exact (Mesh.sqMax_spec m.points 0).1
  · rw [(Mesh.getMaxRadius_ok h4).1, h2]; exact Mesh.sqMax_isRadius _

/-- C15 case: the demo mesh is reachable and its farthest point is at distance 4. -/
example : ∃ m, Mesh.new.run demoOps = .ok m ∧ IsRadius m.points 4 := by
  refine ⟨_, by simp [demoOps, Mesh.run, Mesh.step, Mesh.addPoint, Mesh.addTriangle, Mesh.new,
    Mesh.invalidateCache, Mesh.getMaxRadius, Mesh.getSquaredMaxRadius, Mesh.getTriangles,
    Mesh.corners, vget, bind, Except.bind, pure, Except.pure]; rfl, ?_⟩
  have h3 : Spec.dist ⟨3, 0, 0⟩ ⟨0, 0, 0⟩ = 3 := by
    unfold Spec.dist distSq
    rw [show ((3 : ℝ) - 0) ^ 2 + (0 - 0) ^ 2 + (0 - 0) ^ 2 = 3 ^ 2 by norm_num]
    exact Real.sqrt_sq (by norm_num)
  have h4 : Spec.dist ⟨0, 4, 0⟩ ⟨0, 0, 0⟩ = 4 := by
    unfold Spec.dist distSq
    rw [show ((0 : ℝ) - 0) ^ 2 + (4 - 0) ^ 2 + (0 - 0) ^ 2 = 4 ^ 2 by norm_num]
    exact Real.sqrt_sq (by norm_num)
  have h0 : Spec.dist ⟨0, 0, 0⟩ ⟨0, 0, 0⟩ = 0 := by simp [Spec.dist, distSq]
  simp only [IsRadius]
  simp [h3, h4, h0]
  norm_num

/-! ## C16 -/

/-- C16: `triangleArea` is the area of the triangle: non-negative and given by Heron's formula in the
squared side lengths, hence invariant under permutation of the corners and rigid motion; it is zero
exactly for collinear corners. -/
theorem C16_area (p q r : Vec3) (T : Transform3) (hT : Rigid T) :
    0 ≤ triangleArea p q r ∧
    16 * (triangleArea p q r) ^ 2 =
      2 * distSq p q * distSq q r + 2 * distSq q r * distSq r p + 2 * distSq r p * distSq p q
        - distSq p q ^ 2 - distSq q r ^ 2 - distSq r p ^ 2 ∧
    triangleArea q p r = triangleArea p q r ∧ triangleArea q r p = triangleArea p q r ∧
    triangleArea (T.apply p) (T.apply q) (T.apply r) = triangleArea p q r ∧
    (triangleArea p q r = 0 ↔ Collinear3 p q r) := by
  refine ⟨area_nonneg _ _ _, area_heron _ _ _, ?_, ?_, ?_, area_zero⟩
  · apply area_eq_of_distSq
    rw [area_heron, area_heron, distSq_comm' q p, distSq_comm' p r, distSq_comm' r q]; ring
  · apply area_eq_of_distSq
    rw [area_heron, area_heron]; ring
  · apply area_eq_of_distSq
    rw [area_heron, area_heron, rigid_apply_sq hT, rigid_apply_sq hT, rigid_apply_sq hT]

/-- C16: `Triangle::area` is given by Heron's formula as well. -/
theorem C16_triangle (t : Tri) : 0 ≤ t.area ∧
    16 * t.area ^ 2 =
      2 * distSq t.p1 t.p2 * distSq t.p2 t.p3 + 2 * distSq t.p2 t.p3 * distSq t.p3 t.p1 +
          2 * distSq t.p3 t.p1 * distSq t.p1 t.p2 - distSq t.p1 t.p2 ^ 2 - distSq t.p2 t.p3 ^ 2 - distSq t.p3 t.p1 ^ 2 :=
  ⟨area_nonneg _ _ _, area_heron _ _ _⟩

example : (⟨⟨0, 0, 0⟩, ⟨3, 0, 0⟩, ⟨0, 4, 0⟩⟩ : Tri).area = 6 := by
  obtain ⟨h1, h2⟩ := C16_triangle ⟨⟨0, 0, 0⟩, ⟨3, 0, 0⟩, ⟨0, 4, 0⟩⟩
  norm_num [distSq] at h2
  nlinarith

/-- C16: the normal of a non-degenerate triangle is a unit vector orthogonal to the edges, on the
clockwise side (its product with the counter-clockwise normal is minus twice the area), and reversed
when the winding is reversed. -/
theorem C16_normal (m : Mesh) (i : ℕ) (t : TriI) (p q r : Vec3) (ht : m.tris[i]? = some t)
    (hp : m.points[t.i1]? = some p) (hq : m.points[t.i2]? = some q) (hr : m.points[t.i3]? = some r)
    (hnd : ¬ Collinear3 p q r) :
    ∃ n, m.getTriangleNormal i = .ok n ∧ V n ⬝ᵥ V n = 1 ∧
      V n ⬝ᵥ (V q - V p) = 0 ∧ V n ⬝ᵥ (V r - V p) = 0 ∧
      V n ⬝ᵥ (crossProduct (V q - V p) (V r - V p)) = -(2 * triangleArea p q r) ∧
      0 < triangleArea p q r ∧
      (∀ m' : Mesh, m'.points = m.points → m'.tris[i]? = some ⟨t.i1, t.i3, t.i2⟩ →
        ∃ n', m'.getTriangleNormal i = .ok n' ∧ V n' = -V n) := by
  set c := (r - p).cross (q - p) with hc
  have e1 : ∀ (m' : Mesh) (s : TriI) (a b d : Vec3), m'.tris[i]? = some s →
      m'.points[s.i1]? = some a → m'.points[s.i2]? = some b → m'.points[s.i3]? = some d →
      m'.getTriangleNormal i = .ok ((d - a).cross (b - a)).normalized := by
    intro m' s a b d h1 h2 h3 h4
    unfold Mesh.getTriangleNormal
    rw [vget_ok.2 h1]
    simp only [bind, Except.bind, vget_ok.2 h2, vget_ok.2 h3, vget_ok.2 h4]
    rfl
  have hlen : triangleArea p q r = 0.5 * c.length := by
    unfold triangleArea
    congr 1
    unfold Vec3.length
    congr 1
    simp only [hc, Vec3.cross, Vec3.sub_x, Vec3.sub_y, Vec3.sub_z]
    ring
  have hpos : 0 < triangleArea p q r :=
    lt_of_le_of_ne (area_nonneg _ _ _) (fun h => hnd (area_zero.1 h.symm))
  have hL : 0 < c.length := by linarith
  have hsq : c.length * c.length = c.x * c.x + c.y * c.y + c.z * c.z := by
    have := vlength_sq c
    rw [pow_two] at this; exact this
  refine ⟨_, e1 m t p q r ht hp hq hr, ?_, ?_, ?_, ?_, hpos, ?_⟩
  · rw [← hc]
    simp only [V, Vec3.normalized, dotProduct, Fin.sum_univ_three]
    simp
    field_simp
    linarith
  · rw [← hc]
    simp only [V, Vec3.normalized, dotProduct, Fin.sum_univ_three]
    simp
    field_simp
    simp only [hc, Vec3.cross, Vec3.sub_x, Vec3.sub_y, Vec3.sub_z]
    ring
  · rw [← hc]
    simp only [V, Vec3.normalized, dotProduct, Fin.sum_univ_three]
    simp
    field_simp
    simp only [hc, Vec3.cross, Vec3.sub_x, Vec3.sub_y, Vec3.sub_z]
    ring
  · rw [← hc, hlen]
    have e : crossProduct (V q - V p) (V r - V p) = ![-c.x, -c.y, -c.z] := by
      ext j
      fin_cases j <;> simp [crossProduct, V, hc, Vec3.cross] <;> ring
    rw [e]
    simp only [V, Vec3.normalized, dotProduct, Fin.sum_univ_three]
    simp
    field_simp
    linarith
  · intro m' h1 h2
    refine ⟨_, e1 m' _ p r q h2 (by rw [h1]; exact hp) (by rw [h1]; exact hr)
      (by rw [h1]; exact hq), ?_⟩
    have e : (q - p).cross (r - p) = -c := by
      ext <;> simp [hc, Vec3.cross] <;> ring
    rw [e, ← hc]
    clear_value c
    have e2 : (-c).length = c.length := by
      unfold Vec3.length
      congr 1
      simp
    ext j
    fin_cases j <;> simp [V, Vec3.normalized, e2] <;> ring

/-- C16 case: the 3-4-5 triangle is not degenerate and has area 6; its normal is `-z`. -/
example : ¬ Collinear3 ⟨0, 0, 0⟩ ⟨3, 0, 0⟩ ⟨0, 4, 0⟩ ∧
    triangleArea ⟨0, 0, 0⟩ ⟨3, 0, 0⟩ ⟨0, 4, 0⟩ = 6 := by
  constructor
  · rintro ⟨a, b, c, h0, hs, hx, hy, _⟩
    simp at hx hy
    subst hx hy
    simp at hs
    subst hs
    simp at h0
  · unfold triangleArea Vec3.length Vec3.cross
    norm_num

end Geo
