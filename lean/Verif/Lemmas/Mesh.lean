import Verif.Spec.Mesh
import Verif.Lemmas.Math

/-! # Helper lemmas about meshes -/

namespace Geo

open Spec

section exec

theorem Exec.bind_ok {α β : Type _} {x : Exec α} {f : α → Exec β} {b : β} :
    (x >>= f) = .ok b ↔ ∃ a, x = .ok a ∧ f a = .ok b := by
  cases x <;> simp [bind, Except.bind]

theorem vget_ok {α : Type _} {l : List α} {i : ℕ} {a : α} : vget l i = .ok a ↔ l[i]? = some a := by
  unfold vget
  cases l[i]? <;> simp

theorem vget_lt {α : Type _} {l : List α} {i : ℕ} (h : i < l.length) : vget l i = .ok l[i] := by
  rw [vget_ok]; simp [h]

theorem mapM_ok_iff {α β : Type _} {f : α → Exec β} {l : List α} {r : List β} :
    l.mapM f = .ok r ↔ List.Forall₂ (fun a b => f a = .ok b) l r := by
  induction l generalizing r with
  | nil => simp [pure, Except.pure, eq_comm]
  | cons a l ih =>
    simp only [List.mapM_cons, Exec.bind_ok, pure, Except.pure, Except.ok.injEq]
    constructor
    · rintro ⟨b, hb, bs, hbs, rfl⟩
      exact .cons hb (ih.1 hbs)
    · intro h
      cases h with
      | cons h1 h2 => exact ⟨_, h1, _, ih.2 h2, rfl⟩

theorem mapM_ok_of {α β : Type _} {f : α → Exec β} {g : α → β} {l : List α}
    (h : ∀ a ∈ l, f a = .ok (g a)) : l.mapM f = .ok (l.map g) := by
  induction l with
  | nil => rfl
  | cons a l ih =>
    simp [h a (by simp), ih (fun b hb => h b (by simp [hb])), bind, Except.bind, pure, Except.pure]

theorem mapM_some_iff {α β : Type _} {f : α → Option β} {l : List α} {r : List β} :
    l.mapM f = some r ↔ List.Forall₂ (fun a b => f a = some b) l r := by
  induction l generalizing r with
  | nil => simp [pure, eq_comm]
  | cons a l ih =>
    simp only [List.mapM_cons, pure, Option.bind_eq_bind, Option.bind_eq_some_iff, Option.some.injEq]
    constructor
    · rintro ⟨b, hb, bs, hbs, rfl⟩
      exact .cons hb (ih.1 hbs)
    · intro h
      cases h with
      | cons h1 h2 => exact ⟨_, h1, _, ih.2 h2, rfl⟩

end exec

/-- The corners as a triple. -/
def Tri.triple (t : Tri) : Vec3 × Vec3 × Vec3 := (t.p1, t.p2, t.p3)

namespace Mesh

theorem corners_ok {ps : List Vec3} {t : TriI} {T : Tri} : corners ps t = .ok T ↔
    ps[t.i1]? = some T.p1 ∧ ps[t.i2]? = some T.p2 ∧ ps[t.i3]? = some T.p3 := by
  unfold corners
  simp only [Exec.bind_ok, vget_ok, pure, Except.pure, Except.ok.injEq]
  constructor
  · rintro ⟨a, ha, b, hb, c, hc, rfl⟩; exact ⟨ha, hb, hc⟩
  · rintro ⟨ha, hb, hc⟩; exact ⟨_, ha, _, hb, _, hc, rfl⟩

theorem soup_some {ps : List Vec3} {ts : List TriI} {l : List (Vec3 × Vec3 × Vec3)} :
    soup ps ts = some l ↔ List.Forall₂ (fun t c => ps[t.i1]? = some c.1 ∧ ps[t.i2]? = some c.2.1 ∧
      ps[t.i3]? = some c.2.2) ts l := by
  unfold soup
  rw [mapM_some_iff]
  have : ∀ (t : TriI) (c : Vec3 × Vec3 × Vec3), ((match ps[t.i1]?, ps[t.i2]?, ps[t.i3]? with
      | some a, some b, some c => some (a, b, c)
      | _, _, _ => none) = some c) ↔ (ps[t.i1]? = some c.1 ∧ ps[t.i2]? = some c.2.1 ∧
      ps[t.i3]? = some c.2.2) := by
    rintro t ⟨x, y, z⟩
    cases ps[t.i1]? <;> cases ps[t.i2]? <;> cases ps[t.i3]? <;> simp
  refine Iff.of_eq (congrArg (fun R => List.Forall₂ R ts l) ?_)
  funext t c
  exact propext (this t c)

theorem mapM_corners_soup {ps : List Vec3} {ts : List TriI} {l : List Tri} :
    ts.mapM (corners ps) = .ok l ↔ soup ps ts = some (l.map Tri.triple) := by
  rw [mapM_ok_iff, soup_some, List.forall₂_map_right_iff]
  simp only [corners_ok, Tri.triple]

theorem soup_valid {ps : List Vec3} {ts : List TriI} (h : Valid ps ts) :
    ∃ l, ts.mapM (corners ps) = .ok l := by
  induction ts with
  | nil => exact ⟨[], rfl⟩
  | cons t ts ih =>
    obtain ⟨l, hl⟩ := ih (fun s hs => h s (by simp [hs]))
    obtain ⟨h1, h2, h3⟩ := h t (by simp)
    refine ⟨⟨ps[t.i1], ps[t.i2], ps[t.i3]⟩ :: l, ?_⟩
    rw [mapM_ok_iff] at hl ⊢
    refine .cons ?_ hl
    rw [corners_ok]; simp [h1, h2, h3]

theorem valid_of_soup {ps : List Vec3} {ts : List TriI} {l} (h : soup ps ts = some l) :
    Valid ps ts := by
  rw [soup_some] at h
  induction h with
  | nil => simp [Valid]
  | cons h1 _ ih =>
    intro t ht
    rcases List.mem_cons.1 ht with rfl | ht
    · obtain ⟨a, b, c⟩ := h1
      exact ⟨(List.getElem?_eq_some_iff.1 a).1, (List.getElem?_eq_some_iff.1 b).1,
        (List.getElem?_eq_some_iff.1 c).1⟩
    · exact ih t ht

/-- Maximum of the squared lengths. -/
noncomputable def sqMax (ps : List Vec3) (a : ℝ) : ℝ := ps.foldl (fun acc p => max acc p.length2) a

theorem sqMax_spec (ps : List Vec3) (a : ℝ) :
    a ≤ sqMax ps a ∧ (∀ p ∈ ps, p.length2 ≤ sqMax ps a) ∧
    (sqMax ps a = a ∨ ∃ p ∈ ps, p.length2 = sqMax ps a) := by
  induction ps generalizing a with
  | nil => simp [sqMax]
  | cons q ps ih =>
    obtain ⟨h1, h2, h3⟩ := ih (max a q.length2)
    have e : sqMax (q :: ps) a = sqMax ps (max a q.length2) := rfl
    rw [e]
    refine ⟨le_trans (le_max_left _ _) h1, ?_, ?_⟩
    · intro p hp
      rcases List.mem_cons.1 hp with rfl | hp
      · exact le_trans (le_max_right _ _) h1
      · exact h2 p hp
    · rcases h3 with h3 | ⟨p, hp, h⟩
      · rcases max_choice a q.length2 with h | h
        · left; rw [h3, h]
        · right; exact ⟨q, by simp, by rw [h3, h]⟩
      · right; exact ⟨p, by simp [hp], h⟩

theorem length2_nonneg (p : Vec3) : 0 ≤ p.length2 := by
  have h : p.length2 = p.x * p.x + p.y * p.y + p.z * p.z := rfl
  rw [h]; nlinarith [mul_self_nonneg p.x, mul_self_nonneg p.y, mul_self_nonneg p.z]

theorem dist_origin (p : Vec3) : Spec.dist p ⟨0, 0, 0⟩ = Real.sqrt p.length2 := by
  unfold Spec.dist Spec.distSq Vec3.length2
  simp [pow_two]

theorem sqMax_isRadius (ps : List Vec3) : IsRadius ps (Real.sqrt (sqMax ps 0)) := by
  obtain ⟨h1, h2, h3⟩ := sqMax_spec ps 0
  constructor
  · intro p hp
    rw [dist_origin]
    exact Real.sqrt_le_sqrt (h2 p hp)
  · rcases h3 with h3 | ⟨p, hp, h⟩
    · cases ps with
      | nil => right; simp [sqMax]
      | cons q ps =>
        left
        refine ⟨q, by simp, ?_⟩
        rw [dist_origin]
        have := h2 q (by simp)
        have h0 := length2_nonneg q
        rw [h3] at this ⊢
        rw [le_antisymm this h0]
    · left; exact ⟨p, hp, by rw [dist_origin, h]⟩

/-- The caches agree with the points and triangles. -/
def Coherent (m : Mesh) : Prop :=
  (m.triCache = [] ∨ m.tris.mapM (corners m.points) = .ok m.triCache) ∧
  (m.maxR2 = 0 ∨ m.maxR2 = sqMax m.points 0) ∧
  (m.maxR = 0 ∨ m.maxR = Real.sqrt (sqMax m.points 0))

theorem coherent_invalidate (m : Mesh) : (invalidateCache m).Coherent := by
  simp [Coherent, invalidateCache]

theorem getTriangles_ok {m : Mesh} (h : m.Coherent) :
    (∀ r, m.getTriangles = .ok r → m.tris.mapM (corners m.points) = .ok r.2 ∧
      r.1 = { m with triCache := r.2 }) ∧
    (∀ e, m.getTriangles = .error e → ∃ e', m.tris.mapM (corners m.points) = .error e') := by
  unfold getTriangles
  rcases hc : m.triCache with _ | ⟨t, ts⟩
  · simp only [List.isEmpty_nil, if_true]
    rcases hm : m.tris.mapM (corners m.points) with e | l
    · simp [bind, Except.bind]
    · simp [bind, Except.bind, pure, Except.pure]
  · have h1 := h.1
    rw [hc] at h1
    simp at h1
    simp only [List.isEmpty_cons]
    constructor
    · intro r hr
      simp at hr
      subst hr
      simp [h1, ← hc]
    · simp

theorem getSquaredMaxRadius_ok {m : Mesh} (h : m.Coherent) :
    m.getSquaredMaxRadius = ({ m with maxR2 := sqMax m.points 0 }, sqMax m.points 0) := by
  unfold getSquaredMaxRadius
  split_ifs with h0
  · simp [h0, sqMax]
  · have := h.2.1.resolve_left h0
    rw [← this]

theorem getMaxRadius_ok {m : Mesh} (h : m.Coherent) :
    m.getMaxRadius.2 = Real.sqrt (sqMax m.points 0) ∧
    m.getMaxRadius.1.points = m.points ∧ m.getMaxRadius.1.tris = m.tris ∧
    m.getMaxRadius.1.Coherent := by
  unfold getMaxRadius
  split_ifs with h0
  · rw [getSquaredMaxRadius_ok h]
    refine ⟨rfl, rfl, rfl, ?_⟩
    exact ⟨h.1, Or.inr rfl, Or.inr rfl⟩
  · exact ⟨h.2.2.resolve_left h0, rfl, rfl, h⟩

/-- Calls that only read. -/
def Op.isQuery : Op → Bool
  | .queryTriangles | .querySquaredMaxRadius | .queryMaxRadius => true
  | _ => false

theorem filterLoop_nil : filterLoop [] [] [] [] = .ok ([], []) := rfl

theorem filter_ok {m m' : Mesh} (h : m.filterOverlappingVertices = .ok m') :
    ∃ imap, filterLoop m.points [] [] [] = .ok (m'.points, imap) ∧
      m.tris.mapM (fun t => do
        let a ← vget imap t.i1
        let b ← vget imap t.i2
        let c ← vget imap t.i3
        return (⟨a, b, c⟩ : TriI)) = .ok m'.tris ∧
      m' = { (if m.points.isEmpty then m else invalidateCache m) with
              points := m'.points, tris := m'.tris } := by
  unfold filterOverlappingVertices at h
  rw [Exec.bind_ok] at h
  obtain ⟨⟨pts, imap⟩, h1, h2⟩ := h
  simp only [Exec.bind_ok] at h2
  obtain ⟨ts, h2, h3⟩ := h2
  simp only [pure, Except.pure, Except.ok.injEq] at h3
  subst h3
  exact ⟨imap, h1, by simpa [Exec.bind_ok] using h2, rfl⟩

theorem coherent_step {m m' : Mesh} {o : Op} (hm : m.Coherent) (h : m.step o = .ok m') :
    m'.Coherent := by
  cases o with
  | addPoint p => simp [step, addPoint] at h; rw [← h]; exact coherent_invalidate _
  | addTriangle i j k => simp [step, addTriangle] at h; rw [← h]; exact coherent_invalidate _
  | add n => simp [step, add] at h; rw [← h]; exact coherent_invalidate _
  | addSelf => simp [step, addSelf] at h
  | clear => simp [step, clear] at h; rw [← h]; exact coherent_invalidate _
  | filter =>
    simp only [step] at h
    obtain ⟨imap, h1, h2, h3⟩ := filter_ok h
    rcases hp : m.points with _ | ⟨p, ps⟩
    · rw [hp, filterLoop_nil] at h1
      simp at h1
      obtain ⟨h1, rfl⟩ := h1
      have ht : m.tris = [] ∧ m'.tris = [] := by
        rw [mapM_ok_iff] at h2
        generalize m.tris = ts, m'.tris = ts' at h2
        cases h2 with
        | nil => simp
        | cons a b => simp [vget, bind, Except.bind] at a
      have e : m' = m := by
        rw [h3, hp]
        ext <;> simp [← h1, hp, ht.1, ht.2]
      rw [e]; exact hm
    · rw [h3, hp]
      simp [Coherent, invalidateCache]
  | transform T =>
    simp [step, getTransformed] at h
    rw [← h]; simp [Coherent, new, invalidateCache]
  | queryTriangles =>
    simp only [step, Exec.bind_ok] at h
    obtain ⟨r, h1, h2⟩ := h
    simp [pure, Except.pure] at h2
    obtain ⟨h3, h4⟩ := (getTriangles_ok hm).1 r h1
    rw [← h2, h4]
    exact ⟨Or.inr h3, hm.2⟩
  | querySquaredMaxRadius =>
    simp [step, getSquaredMaxRadius_ok hm] at h
    rw [← h]
    exact ⟨hm.1, Or.inr rfl, hm.2.2⟩
  | queryMaxRadius =>
    simp [step] at h
    rw [← h]; exact (getMaxRadius_ok hm).2.2.2

theorem coherent_run {m m' : Mesh} {os : List Op} (hm : m.Coherent) (h : m.run os = .ok m') :
    m'.Coherent := by
  induction os generalizing m with
  | nil => simp [run] at h; rwa [← h]
  | cons o os ih =>
    simp only [run, Exec.bind_ok] at h
    obtain ⟨m1, h1, h2⟩ := h
    exact ih (coherent_step hm h1) h2

theorem coherent_new : new.Coherent := coherent_invalidate _

/-- Same points and triangles. -/
def Same (m n : Mesh) : Prop := m.points = n.points ∧ m.tris = n.tris

theorem query_same {m m' : Mesh} {o : Op} (ho : o.isQuery = true) (h : m.step o = .ok m') :
    Same m' m := by
  cases o <;> simp [Op.isQuery] at ho
  · simp only [step, Exec.bind_ok] at h
    obtain ⟨r, h1, h2⟩ := h
    simp [pure, Except.pure] at h2
    subst h2
    unfold getTriangles at h1
    split_ifs at h1
    · simp only [Exec.bind_ok] at h1
      obtain ⟨_, _, h1⟩ := h1
      simp [pure, Except.pure] at h1
      subst h1; exact ⟨rfl, rfl⟩
    · simp at h1; subst h1; exact ⟨rfl, rfl⟩
  · simp [step] at h; subst h
    unfold getSquaredMaxRadius; split_ifs <;> exact ⟨rfl, rfl⟩
  · simp [step] at h; subst h
    unfold getMaxRadius getSquaredMaxRadius; split_ifs <;> exact ⟨rfl, rfl⟩

theorem step_same {m m' n : Mesh} {o : Op} (ho : o.isQuery = false) (hs : Same m n)
    (h : m.step o = .ok m') : ∃ n', n.step o = .ok n' ∧ Same m' n' := by
  obtain ⟨hp, ht⟩ := hs
  cases o with
  | addPoint p => simp [step, addPoint] at h ⊢; subst h; simp [Same, invalidateCache, hp, ht]
  | addTriangle i j k => simp [step, addTriangle] at h ⊢; subst h; simp [Same, invalidateCache, hp, ht]
  | add k => simp [step, add] at h ⊢; subst h; simp [Same, invalidateCache, hp, ht]
  | addSelf => simp [step, addSelf] at h
  | clear => simp [step, clear] at h ⊢; subst h; simp [Same, invalidateCache]
  | filter =>
    simp only [step] at h ⊢
    obtain ⟨imap, h1, h2, h3⟩ := filter_ok h
    unfold filterOverlappingVertices
    rw [← hp, h1, ← ht]
    simp only [pure, Except.pure, bind, Except.bind] at h2 ⊢
    rw [h2]
    exact ⟨_, rfl, rfl, rfl⟩
  | transform T => simp [step, getTransformed] at h ⊢; subst h; simp [Same, hp, ht]
  | queryTriangles => simp [Op.isQuery] at ho
  | querySquaredMaxRadius => simp [Op.isQuery] at ho
  | queryMaxRadius => simp [Op.isQuery] at ho

theorem Same.trans' {a b c : Mesh} (h : Same a b) (h' : Same b c) : Same a c :=
  ⟨h.1.trans h'.1, h.2.trans h'.2⟩

theorem run_erase {m m' n : Mesh} {os : List Op} (hs : Same m n) (h : m.run os = .ok m') :
    ∃ n', n.run (os.filter (fun o => !o.isQuery)) = .ok n' ∧ Same m' n' := by
  induction os generalizing m n with
  | nil => simp [run] at h; subst h; exact ⟨n, rfl, hs⟩
  | cons o os ih =>
    simp only [run, Exec.bind_ok] at h
    obtain ⟨m1, h1, h2⟩ := h
    cases ho : o.isQuery with
    | true =>
      simp only [List.filter, ho, Bool.not_true]
      exact ih ((query_same ho h1).trans' hs) h2
    | false =>
      obtain ⟨n1, h3, h4⟩ := step_same ho hs h1
      obtain ⟨n', h5, h6⟩ := ih h4 h2
      refine ⟨n', ?_, h6⟩
      simp only [List.filter, ho, Bool.not_false, run, h3]
      exact h5

end Mesh
end Geo
