import Verif.Spec.Import
import Verif.Lemmas.MeshFilter
import Verif.Lemmas.Shapes

/-!
# Helper lemmas about imported scenes
-/

namespace Geo.Import

open Spec

theorem castInt_some {x : ℝ} {k : ℤ} (h : castInt x = .ok k) : k = trunc x := by
  unfold castInt at h
  split_ifs at h
  exact (Except.ok.inj h).symm

theorem key_some {scale v : Vec3} {k : ℤ × ℤ × ℤ} (h : key scale v = .ok k) : k = Mesh.key (scaled scale v) := by
  unfold key at h
  simp only [bind, Except.bind, pure, Except.pure] at h
  cases h1 : castInt (1000 * scale.x * v.x) with
  | error e => rw [h1] at h; cases h
  | ok x =>
    rw [h1] at h
    simp only at h
    cases h2 : castInt (1000 * scale.y * v.y) with
    | error e => rw [h2] at h; cases h
    | ok y =>
      rw [h2] at h
      simp only at h
      cases h3 : castInt (1000 * scale.z * v.z) with
      | error e => rw [h3] at h; cases h
      | ok z =>
        rw [h3] at h
        simp only [Except.ok.injEq] at h
        rw [← h, castInt_some h1, castInt_some h2, castInt_some h3]
        simp only [Mesh.key, scaled, mul_assoc]

theorem key_ok {scale v : Vec3} (h : InIntRange (scaled scale v)) : key scale v = .ok (Mesh.key (scaled scale v)) := by
  unfold key
  obtain ⟨h1, h2, h3⟩ := h
  simp only [scaled, ← mul_assoc] at h1 h2 h3
  rw [castInt_ok h1, castInt_ok h2, castInt_ok h3]
  simp only [Mesh.key, scaled, mul_assoc]
  rfl

theorem asUInt_toInt32 {i : ℕ} (h : i < 2 ^ 32) : Shapes.asUInt (toInt32 i) = i := by
  unfold Shapes.asUInt toInt32
  split_ifs <;> omega

theorem toInt32_inj {i j : ℕ} (hi : i < 2 ^ 32) (hj : j < 2 ^ 32) (h : toInt32 i = toInt32 j) : i = j := by
  rw [← asUInt_toInt32 hi, ← asUInt_toInt32 hj, h]

/-- Loop invariant of the vertex loop: `sel` are the vertices kept among those done. -/
structure VInv (scale : Vec3) (transform : Bool) (pose : Transform3) (m0 : Mesh) (dn : List Vec3) (m : Mesh)
    (xyz : List ((ℤ × ℤ × ℤ) × ℤ)) (imap : List ℤ) (sel : List Vec3) : Prop where
  tris : m.tris = m0.tris
  points : m.points = m0.points ++ sel.map (place scale transform pose)
  sub : sel.Sublist dn
  nodup : (sel.map fun v => Mesh.key (scaled scale v)).Nodup
  len : imap.length = dn.length
  look : ∀ k ip, xyz.lookup k = some ip ↔ ∃ (i : ℕ) (v : Vec3), ip = toInt32 (m0.points.length + i) ∧ sel[i]? = some v ∧
    Mesh.key (scaled scale v) = k
  map : ∀ (j : ℕ) (v : Vec3), dn[j]? = some v → ∃ (i : ℕ) (v' : Vec3), imap[j]? = some (toInt32 (m0.points.length + i)) ∧ sel[i]? = some v' ∧
    Mesh.key (scaled scale v') = Mesh.key (scaled scale v)

theorem VInv.nil (scale : Vec3) (transform : Bool) (pose : Transform3) (m0 : Mesh) :
    VInv scale transform pose m0 [] m0 [] [] [] where
  tris := rfl
  points := by simp
  sub := List.Sublist.refl _
  nodup := List.nodup_nil
  len := rfl
  look := by simp
  map := by simp

theorem lookup_cons_iff {k k' : ℤ × ℤ × ℤ} {a i : ℤ} {l : List ((ℤ × ℤ × ℤ) × ℤ)} :
    List.lookup k ((k', a) :: l) = some i ↔ (k = k' ∧ a = i) ∨ (k ≠ k' ∧ l.lookup k = some i) := by
  by_cases h : k = k'
  · subst h; simp [List.lookup]
  · have : (k == k') = false := by simpa using h
    simp [List.lookup, this, h]

theorem VInv.old {scale : Vec3} {transform : Bool} {pose : Transform3} {m0 m : Mesh} {dn sel : List Vec3}
    {xyz : List ((ℤ × ℤ × ℤ) × ℤ)} {imap : List ℤ} (h : VInv scale transform pose m0 dn m xyz imap sel) {v : Vec3} {ip : ℤ}
    (hl : xyz.lookup (Mesh.key (scaled scale v)) = some ip) :
    VInv scale transform pose m0 (dn ++ [v]) m xyz (imap ++ [ip]) sel where
  tris := h.tris
  points := h.points
  sub := h.sub.trans (List.sublist_append_left _ _)
  nodup := h.nodup
  len := by simp [h.len]
  look := h.look
  map := by
    intro j w hj
    rcases Nat.lt_or_ge j dn.length with hlt | hge
    · rw [List.getElem?_append_left hlt] at hj
      obtain ⟨i, v', h1, h2⟩ := h.map j w hj
      exact ⟨i, v', by rw [List.getElem?_append_left (by rw [h.len]; exact hlt)]; exact h1, h2⟩
    · rw [List.getElem?_append_right hge, List.getElem?_singleton] at hj
      split_ifs at hj with h0
      cases hj
      obtain ⟨i, v', h1, h2, h3⟩ := (h.look _ _).1 hl
      refine ⟨i, v', ?_, h2, h3⟩
      rw [List.getElem?_append_right (by rw [h.len]; exact hge), h.len, h0, List.getElem?_singleton, if_pos rfl, h1]

theorem VInv.fresh {scale : Vec3} {transform : Bool} {pose : Transform3} {m0 m : Mesh} {dn sel : List Vec3}
    {xyz : List ((ℤ × ℤ × ℤ) × ℤ)} {imap : List ℤ} (h : VInv scale transform pose m0 dn m xyz imap sel) {v : Vec3}
    (hl : xyz.lookup (Mesh.key (scaled scale v)) = none) (h32 : m.points.length < 2 ^ 32) :
    VInv scale transform pose m0 (dn ++ [v]) (m.addPoint (place scale transform pose v)).1
      ((Mesh.key (scaled scale v), toInt32 (m.addPoint (place scale transform pose v)).2) :: xyz)
      (imap ++ [toInt32 (m.addPoint (place scale transform pose v)).2]) (sel ++ [v]) := by
  have hn : (m.addPoint (place scale transform pose v)).2 = m0.points.length + sel.length := by
    show u32 m.points.length = _
    rw [Shapes.u32_small h32, h.points]
    simp
  have hnew : ∀ (i : ℕ) (v' : Vec3), sel[i]? = some v' → Mesh.key (scaled scale v') ≠ Mesh.key (scaled scale v) := by
    intro i v' hi he
    have := (h.look (Mesh.key (scaled scale v)) _).2 ⟨i, v', rfl, hi, he⟩
    rw [hl] at this
    cases this
  rw [hn]
  refine ⟨h.tris, ?_, ?_, ?_, by simp [h.len], ?_, ?_⟩
  · show m.points ++ _ = _
    rw [h.points]
    simp
  · exact h.sub.append (List.Sublist.refl _)
  · rw [List.map_append, List.nodup_append]
    refine ⟨h.nodup, by simp, ?_⟩
    intro a ha b hb
    simp only [List.map_cons, List.map_nil, List.mem_singleton] at hb
    obtain ⟨w, hw, rfl⟩ := List.mem_map.1 ha
    obtain ⟨i, hi, rfl⟩ := List.mem_iff_getElem.1 hw
    rw [hb]
    exact hnew i _ (List.getElem?_eq_getElem hi)
  · intro k ip
    rw [lookup_cons_iff, h.look]
    constructor
    · rintro (⟨rfl, rfl⟩ | ⟨hk, i, w, h1, h2, h3⟩)
      · exact ⟨sel.length, v, rfl, by simp, rfl⟩
      · exact ⟨i, w, h1, by rw [List.getElem?_append_left (List.getElem?_eq_some_iff.1 h2).1]; exact h2, h3⟩
    · rintro ⟨i, w, h1, h2, h3⟩
      rcases Nat.lt_or_ge i sel.length with hlt | hge
      · rw [List.getElem?_append_left hlt] at h2
        refine .inr ⟨?_, i, w, h1, h2, h3⟩
        rw [← h3]
        exact hnew i w h2
      · rw [List.getElem?_append_right hge, List.getElem?_singleton] at h2
        split_ifs at h2 with h0
        cases h2
        refine .inl ⟨h3.symm, ?_⟩
        rw [h1, show i = sel.length by omega]
  · intro j w hj
    rcases Nat.lt_or_ge j dn.length with hlt | hge
    · rw [List.getElem?_append_left hlt] at hj
      obtain ⟨i, v', h1, h2, h3⟩ := h.map j w hj
      exact ⟨i, v', by rw [List.getElem?_append_left (by rw [h.len]; exact hlt)]; exact h1,
        by rw [List.getElem?_append_left (List.getElem?_eq_some_iff.1 h2).1]; exact h2, h3⟩
    · rw [List.getElem?_append_right hge, List.getElem?_singleton] at hj
      split_ifs at hj with h0
      cases hj
      refine ⟨sel.length, v, ?_, by simp, rfl⟩
      rw [List.getElem?_append_right (by rw [h.len]; exact hge), h.len, h0, List.getElem?_singleton, if_pos rfl]

theorem vertexLoop_grow {scale : Vec3} {transform : Bool} {pose : Transform3} : ∀ (vs : List Vec3) (m : Mesh)
    (xyz : List ((ℤ × ℤ × ℤ) × ℤ)) (imap : List ℤ) {r : Mesh × List ℤ},
    vertexLoop scale transform pose vs m xyz imap = .ok r → m.points.length ≤ r.1.points.length
  | [], m, xyz, imap, r, h => by cases h; exact le_rfl
  | v :: vs, m, xyz, imap, r, h => by
    unfold vertexLoop at h
    cases hk : key scale v with
    | error e => rw [hk] at h; cases h
    | ok k =>
      rw [hk] at h
      simp only [bind, Except.bind] at h
      cases hl : xyz.lookup k with
      | some i => rw [hl] at h; exact vertexLoop_grow vs _ _ _ h
      | none =>
        rw [hl] at h
        have := vertexLoop_grow vs _ _ _ h
        have e : (m.addPoint (place scale transform pose v)).1.points.length = m.points.length + 1 := by
          simp [Mesh.addPoint, Mesh.invalidateCache]
        omega

theorem vertexLoop_inv {scale : Vec3} {transform : Bool} {pose : Transform3} {m0 : Mesh} : ∀ (vs dn : List Vec3) (m : Mesh)
    (xyz : List ((ℤ × ℤ × ℤ) × ℤ)) (imap : List ℤ) (sel : List Vec3) {r : Mesh × List ℤ},
    VInv scale transform pose m0 dn m xyz imap sel → vertexLoop scale transform pose vs m xyz imap = .ok r →
    r.1.points.length ≤ 2 ^ 32 →
    ∃ xyz' sel', VInv scale transform pose m0 (dn ++ vs) r.1 xyz' r.2 sel'
  | [], dn, m, xyz, imap, sel, r, hi, h, _ => by
    cases h
    exact ⟨xyz, sel, by simpa using hi⟩
  | v :: vs, dn, m, xyz, imap, sel, r, hi, h, h32 => by
    unfold vertexLoop at h
    cases hk : key scale v with
    | error e => rw [hk] at h; cases h
    | ok k =>
      rw [hk] at h
      rw [key_some hk] at h
      simp only [bind, Except.bind] at h
      rw [show dn ++ v :: vs = (dn ++ [v]) ++ vs by simp]
      cases hl : xyz.lookup (Mesh.key (scaled scale v)) with
      | some i =>
        rw [hl] at h
        exact vertexLoop_inv vs _ _ _ _ _ (hi.old hl) h h32
      | none =>
        rw [hl] at h
        have := vertexLoop_grow vs _ _ _ h
        have e : (m.addPoint (place scale transform pose v)).1.points.length = m.points.length + 1 := by
          simp [Mesh.addPoint, Mesh.invalidateCache]
        exact vertexLoop_inv vs _ _ _ _ _ (hi.fresh hl (by omega)) h h32

theorem vertexLoop_ok {scale : Vec3} {transform : Bool} {pose : Transform3} : ∀ (vs : List Vec3) (m : Mesh)
    (xyz : List ((ℤ × ℤ × ℤ) × ℤ)) (imap : List ℤ), (∀ v ∈ vs, InIntRange (scaled scale v)) →
    ∃ r, vertexLoop scale transform pose vs m xyz imap = .ok r ∧ r.2.length = imap.length + vs.length
  | [], m, xyz, imap, _ => ⟨_, rfl, rfl⟩
  | v :: vs, m, xyz, imap, h => by
    unfold vertexLoop
    rw [key_ok (h v (List.mem_cons_self ..))]
    simp only [bind, Except.bind]
    have hr := fun m xyz imap => vertexLoop_ok (transform := transform) (pose := pose) vs m xyz imap
      (fun w hw => h w (List.mem_cons_of_mem _ hw))
    cases xyz.lookup (Mesh.key (scaled scale v)) with
    | some i =>
      obtain ⟨r, h1, h2⟩ := hr m xyz (imap ++ [i])
      exact ⟨r, h1, by rw [h2]; simp only [List.length_append, List.length_cons, List.length_nil]; omega⟩
    | none =>
      obtain ⟨r, h1, h2⟩ := hr _ _ _
      exact ⟨r, h1, by rw [h2]; simp only [List.length_append, List.length_cons, List.length_nil]; omega⟩

/-! ## Faces -/

/-- The triangle added for a triple of indices. -/
def toTri (k : ℤ × ℤ × ℤ) : TriI := ⟨Shapes.asUInt k.1, Shapes.asUInt k.2.1, Shapes.asUInt k.2.2⟩

/-- Loop invariant of the face loop. -/
structure FInv (imap : List ℤ) (m0 : Mesh) (dn : List (List ℕ)) (m : Mesh) (seen : List (ℤ × ℤ × ℤ)) : Prop where
  points : m.points = m0.points
  tris : m.tris = m0.tris ++ seen.reverse.map toTri
  nodup : seen.Nodup
  all : ∀ a b c, [a, b, c] ∈ dn → ∃ ix iy iz, imap[a]? = some ix ∧ imap[b]? = some iy ∧ imap[c]? = some iz ∧ (ix, iy, iz) ∈ seen
  only : ∀ ix iy iz, (ix, iy, iz) ∈ seen → ∃ a b c, [a, b, c] ∈ dn ∧ imap[a]? = some ix ∧ imap[b]? = some iy ∧
    imap[c]? = some iz

theorem vget_some {α : Type} {l : List α} {i : ℕ} {a : α} (h : vget l i = .ok a) : l[i]? = some a := by
  unfold vget at h
  cases h' : l[i]? with
  | none => rw [h'] at h; cases h
  | some b => rw [h'] at h; cases h; rfl

theorem vget_lt {α : Type} {l : List α} {i : ℕ} (h : i < l.length) : ∃ a, vget l i = .ok a := by
  unfold vget
  rw [List.getElem?_eq_getElem h]
  exact ⟨_, rfl⟩

/-- A face with another number of vertices than 3 is skipped. -/
theorem faceLoop_skip (imap : List ℤ) (f : List ℕ) (fs : List (List ℕ)) (m : Mesh) (seen : List (ℤ × ℤ × ℤ))
    (hf : ∀ a b c, f ≠ [a, b, c]) : faceLoop imap (f :: fs) m seen = faceLoop imap fs m seen := by
  rcases f with _ | ⟨a, _ | ⟨b, _ | ⟨c, _ | ⟨d, l⟩⟩⟩⟩
  · rfl
  · rfl
  · rfl
  · exact absurd rfl (hf a b c)
  · rfl

theorem faceLoop_inv {imap : List ℤ} {m0 : Mesh} : ∀ (fs dn : List (List ℕ)) (m : Mesh) (seen : List (ℤ × ℤ × ℤ)) {r : Mesh},
    FInv imap m0 dn m seen → faceLoop imap fs m seen = .ok r → ∃ seen', FInv imap m0 (dn ++ fs) r seen'
  | [], dn, m, seen, r, hi, h => by
    cases h
    exact ⟨seen, by simpa using hi⟩
  | f :: fs, dn, m, seen, r, hi, h => by
    rw [show dn ++ f :: fs = (dn ++ [f]) ++ fs by simp]
    by_cases hf : ∃ a b c, f = [a, b, c]
    · obtain ⟨a, b, c, rfl⟩ := hf
      unfold faceLoop at h
      simp only [bind, Except.bind] at h
      cases ha : vget imap a with
      | error e => rw [ha] at h; cases h
      | ok ix =>
        rw [ha] at h
        simp only at h
        cases hb : vget imap b with
        | error e => rw [hb] at h; cases h
        | ok iy =>
          rw [hb] at h
          simp only at h
          cases hc : vget imap c with
          | error e => rw [hc] at h; cases h
          | ok iz =>
            rw [hc] at h
            simp only at h
            have key : ∀ seen' : List (ℤ × ℤ × ℤ), (∀ x ∈ seen, x ∈ seen') → (ix, iy, iz) ∈ seen' → ∀ a' b' c', [a', b', c'] ∈ dn ++ [[a, b, c]] →
                ∃ ix iy iz, imap[a']? = some ix ∧ imap[b']? = some iy ∧ imap[c']? = some iz ∧ (ix, iy, iz) ∈ seen' := by
              intro seen' hs hm a' b' c' hd
              rcases List.mem_append.1 hd with hd | hd
              · obtain ⟨x, y, z, h1, h2, h3, h4⟩ := hi.all a' b' c' hd
                exact ⟨x, y, z, h1, h2, h3, hs _ h4⟩
              · simp only [List.mem_singleton, List.cons.injEq, and_true] at hd
                obtain ⟨rfl, rfl, rfl⟩ := hd
                exact ⟨ix, iy, iz, vget_some ha, vget_some hb, vget_some hc, hm⟩
            split_ifs at h with hm
            · refine faceLoop_inv fs _ m seen ⟨hi.points, hi.tris, hi.nodup, key seen (fun x h => h) hm, ?_⟩ h
              intro x y z hx
              obtain ⟨a', b', c', h1, h2⟩ := hi.only x y z hx
              exact ⟨a', b', c', List.mem_append_left _ h1, h2⟩
            · refine faceLoop_inv fs _ (m.addTriangle (Shapes.asUInt ix) (Shapes.asUInt iy) (Shapes.asUInt iz)) _
                ⟨hi.points, ?_, List.nodup_cons.2 ⟨hm, hi.nodup⟩,
                key _ (fun x h => List.mem_cons_of_mem _ h) (List.mem_cons_self ..), ?_⟩ h
              · show m.tris ++ _ = _
                rw [hi.tris]
                simp [toTri]
              · intro x y z hx
                rcases List.mem_cons.1 hx with hx | hx
                · simp only [Prod.mk.injEq] at hx
                  obtain ⟨rfl, rfl, rfl⟩ := hx
                  exact ⟨a, b, c, by simp, vget_some ha, vget_some hb, vget_some hc⟩
                · obtain ⟨a', b', c', h1, h2⟩ := hi.only x y z hx
                  exact ⟨a', b', c', List.mem_append_left _ h1, h2⟩
    · push Not at hf
      rw [faceLoop_skip _ _ _ _ _ hf] at h
      refine faceLoop_inv fs _ m seen ⟨hi.points, hi.tris, hi.nodup, ?_, ?_⟩ h
      · intro a b c hd
        rcases List.mem_append.1 hd with hd | hd
        · exact hi.all a b c hd
        · exact absurd (List.mem_singleton.1 hd).symm (hf a b c)
      · intro x y z hx
        obtain ⟨a', b', c', h1, h2⟩ := hi.only x y z hx
        exact ⟨a', b', c', List.mem_append_left _ h1, h2⟩

theorem faceLoop_ok {imap : List ℤ} : ∀ (fs : List (List ℕ)) (m : Mesh) (seen : List (ℤ × ℤ × ℤ)),
    (∀ a b c, [a, b, c] ∈ fs → a < imap.length ∧ b < imap.length ∧ c < imap.length) → ∃ r, faceLoop imap fs m seen = .ok r
  | [], m, seen, _ => ⟨m, rfl⟩
  | f :: fs, m, seen, h => by
    have hr := fun m seen => faceLoop_ok fs m seen (fun a b c hm => h a b c (List.mem_cons_of_mem _ hm))
    by_cases hf : ∃ a b c, f = [a, b, c]
    · obtain ⟨a, b, c, rfl⟩ := hf
      obtain ⟨h1, h2, h3⟩ := h a b c (List.mem_cons_self ..)
      obtain ⟨x, hx⟩ := vget_lt h1
      obtain ⟨y, hy⟩ := vget_lt h2
      obtain ⟨z, hz⟩ := vget_lt h3
      unfold faceLoop
      simp only [hx, hy, hz, bind, Except.bind]
      split_ifs
      · exact hr _ _
      · exact hr _ _
    · push Not at hf
      rw [faceLoop_skip _ _ _ _ _ hf]
      exact hr _ _

/-! ## One mesh -/

theorem addMesh_spec {scene : List AiMesh} {scale : Vec3} {transform : Bool} {P : Transform3} {m m' : Mesh} {k : ℕ}
    (h : addMesh scene scale transform P m k = .ok m') (h32 : m'.points.length ≤ 2 ^ 32) :
    ∃ M l lt, scene[k]? = some M ∧ m'.points = m.points ++ l ∧ m'.tris = m.tris ++ lt ∧ lt.Nodup ∧
      (∀ p ∈ l, ∃ v ∈ M.vertices, p = scaled scale (if transform then P.apply v else v)) ∧
      (∀ t ∈ lt, m.points.length ≤ t.i1 ∧ ∃ a b c, [a, b, c] ∈ M.faces ∧ ShowsFace scale transform P M m'.points t a b c) ∧
      (∀ a b c, [a, b, c] ∈ M.faces → ∃ t ∈ lt, ShowsFace scale transform P M m'.points t a b c) := by
  unfold addMesh at h
  cases hM : vget scene k with
  | error e => rw [hM] at h; cases h
  | ok M =>
    rw [hM] at h
    simp only [bind, Except.bind] at h
    cases hv : vertexLoop scale transform P M.vertices m [] [] with
    | error e => rw [hv] at h; cases h
    | ok r =>
      rw [hv] at h
      simp only at h
      obtain ⟨seen, hF⟩ := faceLoop_inv (m0 := r.1) M.faces [] r.1 [] ⟨rfl, by simp, List.nodup_nil, by simp, by simp⟩ h
      rw [hF.points] at h32
      obtain ⟨xyz, sel, hV⟩ := vertexLoop_inv M.vertices [] m [] [] [] (VInv.nil _ _ _ _) hv h32
      rw [List.nil_append] at hV hF
      have hlen : m.points.length + sel.length ≤ 2 ^ 32 := by
        rw [hV.points] at h32
        simpa using h32
      -- an entry of the index map
      have ent : ∀ (a : ℕ) (ip : ℤ), r.2[a]? = some ip → ∃ v i p, M.vertices[a]? = some v ∧ ip = toInt32 i ∧ i < 2 ^ 32 ∧
          m.points.length ≤ i ∧ m'.points[i]? = some p ∧ StandsFor scale transform P M v p := by
        intro a ip ha
        have hlt : a < M.vertices.length := by
          rw [← hV.len]
          exact (List.getElem?_eq_some_iff.1 ha).1
        obtain ⟨i, v', h1, h2, h3⟩ := hV.map a _ (List.getElem?_eq_getElem hlt)
        rw [ha, Option.some.injEq] at h1
        have hi := (List.getElem?_eq_some_iff.1 h2).1
        refine ⟨_, _, place scale transform P v', List.getElem?_eq_getElem hlt, h1, by omega, by omega, ?_, v',
          hV.sub.subset (List.mem_of_getElem? h2), (Mesh.key_eq_iff _ _).1 h3, rfl⟩
        rw [hF.points, hV.points, List.getElem?_append_right (by omega), Nat.add_sub_cancel_left, List.getElem?_map, h2]
        rfl
      refine ⟨M, sel.map (place scale transform P), seen.reverse.map toTri, vget_some hM, by rw [hF.points, hV.points],
        by rw [hF.tris, hV.tris], ?_, ?_, ?_, ?_⟩
      · refine List.Nodup.map_on ?_ (List.nodup_reverse.2 hF.nodup)
        rintro ⟨x, y, z⟩ hx ⟨x', y', z'⟩ hx' he
        obtain ⟨a, b, c, -, ha, hb, hc⟩ := hF.only x y z (List.mem_reverse.1 hx)
        obtain ⟨a', b', c', -, ha', hb', hc'⟩ := hF.only x' y' z' (List.mem_reverse.1 hx')
        obtain ⟨-, i1, -, -, rfl, l1, -⟩ := ent a x ha
        obtain ⟨-, i2, -, -, rfl, l2, -⟩ := ent b y hb
        obtain ⟨-, i3, -, -, rfl, l3, -⟩ := ent c z hc
        obtain ⟨-, j1, -, -, rfl, k1, -⟩ := ent a' x' ha'
        obtain ⟨-, j2, -, -, rfl, k2, -⟩ := ent b' y' hb'
        obtain ⟨-, j3, -, -, rfl, k3, -⟩ := ent c' z' hc'
        simp only [toTri, asUInt_toInt32 l1, asUInt_toInt32 l2, asUInt_toInt32 l3, asUInt_toInt32 k1, asUInt_toInt32 k2,
          asUInt_toInt32 k3, TriI.mk.injEq] at he
        rw [he.1, he.2.1, he.2.2]
      · intro p hp
        obtain ⟨v, hv, rfl⟩ := List.mem_map.1 hp
        exact ⟨v, hV.sub.subset hv, rfl⟩
      · intro t ht
        obtain ⟨⟨x, y, z⟩, hx, rfl⟩ := List.mem_map.1 ht
        obtain ⟨a, b, c, hf, ha, hb, hc⟩ := hF.only x y z (List.mem_reverse.1 hx)
        obtain ⟨va, i1, pa, a1, rfl, a3, a4, a5, a6⟩ := ent a x ha
        obtain ⟨vb, i2, pb, b1, rfl, b3, b4, b5, b6⟩ := ent b y hb
        obtain ⟨vc, i3, pc, c1, rfl, c3, c4, c5, c6⟩ := ent c z hc
        simp only [toTri, asUInt_toInt32 a3, asUInt_toInt32 b3, asUInt_toInt32 c3]
        exact ⟨a4, a, b, c, hf, va, vb, vc, pa, pb, pc, a1, b1, c1, a5, b5, c5, a6, b6, c6⟩
      · intro a b c hf
        obtain ⟨x, y, z, ha, hb, hc, hs⟩ := hF.all a b c hf
        refine ⟨_, List.mem_map.2 ⟨_, List.mem_reverse.2 hs, rfl⟩, ?_⟩
        obtain ⟨va, i1, pa, a1, rfl, a3, a4, a5, a6⟩ := ent a x ha
        obtain ⟨vb, i2, pb, b1, rfl, b3, b4, b5, b6⟩ := ent b y hb
        obtain ⟨vc, i3, pc, c1, rfl, c3, c4, c5, c6⟩ := ent c z hc
        simp only [toTri, asUInt_toInt32 a3, asUInt_toInt32 b3, asUInt_toInt32 c3]
        exact ⟨va, vb, vc, pa, pb, pc, a1, b1, c1, a5, b5, c5, a6, b6, c6⟩

theorem addMesh_ok {scene : List AiMesh} {scale : Vec3} {transform : Bool} {P : Transform3} {m : Mesh} {k : ℕ} {M : AiMesh}
    (hM : scene[k]? = some M) (hv : ∀ v ∈ M.vertices, InIntRange (scaled scale v))
    (hf : ∀ a b c, [a, b, c] ∈ M.faces → a < M.vertices.length ∧ b < M.vertices.length ∧ c < M.vertices.length) :
    ∃ m', addMesh scene scale transform P m k = .ok m' := by
  unfold addMesh vget
  rw [hM]
  simp only [bind, Except.bind]
  obtain ⟨r, h1, h2⟩ := vertexLoop_ok (transform := transform) (pose := P) M.vertices m [] [] hv
  rw [h1]
  simp only
  apply faceLoop_ok
  rw [h2]
  simpa using hf

/-! ## The tree -/

mutual

/-- The meshes shown by a node, with their poses, in the order in which they are added. -/
def placements : AiNode → Transform3 → List (ℕ × Transform3)
  | .mk t children meshes, parent =>
    placementsL children (parent.mul t.pose) ++ meshes.map fun k => (k, parent.mul t.pose)

/-- The same for a list of nodes. -/
def placementsL : List AiNode → Transform3 → List (ℕ × Transform3)
  | [], _ => []
  | n :: ns, pose => placements n pose ++ placementsL ns pose

end

mutual

theorem mem_placements : ∀ (n : AiNode) (parent : Transform3) (k : ℕ) (P : Transform3),
    (k, P) ∈ placements n parent ↔ Placed n parent k P
  | .mk t children meshes, parent, k, P => by
    rw [placements, List.mem_append, mem_placementsL children (parent.mul t.pose) k P, List.mem_map]
    constructor
    · rintro (⟨c, hc, h⟩ | ⟨k', hk, he⟩)
      · exact .child hc h
      · cases he
        exact .here hk
    · intro h
      cases h with
      | here hk => exact .inr ⟨k, hk, rfl⟩
      | child hc h => exact .inl ⟨_, hc, h⟩

theorem mem_placementsL : ∀ (ns : List AiNode) (pose : Transform3) (k : ℕ) (P : Transform3),
    (k, P) ∈ placementsL ns pose ↔ ∃ c ∈ ns, Placed c pose k P
  | [], pose, k, P => by simp [placementsL]
  | n :: ns, pose, k, P => by
    rw [placementsL, List.mem_append, mem_placements n pose k P, mem_placementsL ns pose k P]
    simp

end

theorem foldlM_append' {α β : Type} (f : β → α → Exec β) (l l' : List α) (b : β) :
    (l ++ l').foldlM f b = (do let b ← l.foldlM f b; l'.foldlM f b) := by
  rw [List.foldlM_append]

mutual

theorem constructMesh_eq (scene : List AiMesh) (scale : Vec3) (transform : Bool) : ∀ (n : AiNode) (parent : Transform3)
    (m : Mesh), constructMesh scene scale transform n parent m =
      (placements n parent).foldlM (fun m (kP : ℕ × Transform3) => addMesh scene scale transform kP.2 m kP.1) m
  | .mk t children meshes, parent, m => by
    rw [constructMesh, placements, foldlM_append', constructChildren_eq scene scale transform children (parent.mul t.pose) m]
    simp only [List.foldlM_map]

theorem constructChildren_eq (scene : List AiMesh) (scale : Vec3) (transform : Bool) : ∀ (ns : List AiNode) (pose : Transform3)
    (m : Mesh), constructChildren scene scale transform ns pose m =
      (placementsL ns pose).foldlM (fun m (kP : ℕ × Transform3) => addMesh scene scale transform kP.2 m kP.1) m
  | [], pose, m => by
    rw [constructChildren, placementsL]
    rfl
  | n :: ns, pose, m => by
    rw [constructChildren, placementsL, foldlM_append', constructMesh_eq scene scale transform n pose m]
    congr 1
    funext m
    exact constructChildren_eq scene scale transform ns pose m

end

/-! ## All meshes -/

theorem getElem?_append_some {α : Type} {l : List α} {i : ℕ} {a : α} (h : l[i]? = some a) (l' : List α) :
    (l ++ l')[i]? = some a := by
  rw [List.getElem?_append_left (List.getElem?_eq_some_iff.1 h).1]
  exact h

theorem ShowsFace.append {scale : Vec3} {transform : Bool} {P : Transform3} {M : AiMesh} {points : List Vec3} {t : TriI}
    {a b c : ℕ} (h : ShowsFace scale transform P M points t a b c) (l : List Vec3) :
    ShowsFace scale transform P M (points ++ l) t a b c := by
  obtain ⟨va, vb, vc, pa, pb, pc, h1, h2, h3, h4, h5, h6, h7⟩ := h
  exact ⟨va, vb, vc, pa, pb, pc, h1, h2, h3, getElem?_append_some h4 l, getElem?_append_some h5 l, getElem?_append_some h6 l, h7⟩

theorem ShowsFace.lt {scale : Vec3} {transform : Bool} {P : Transform3} {M : AiMesh} {points : List Vec3} {t : TriI}
    {a b c : ℕ} (h : ShowsFace scale transform P M points t a b c) :
    t.i1 < points.length ∧ t.i2 < points.length ∧ t.i3 < points.length := by
  obtain ⟨va, vb, vc, pa, pb, pc, h1, h2, h3, h4, h5, h6, h7⟩ := h
  exact ⟨(List.getElem?_eq_some_iff.1 h4).1, (List.getElem?_eq_some_iff.1 h5).1, (List.getElem?_eq_some_iff.1 h6).1⟩

theorem addMesh_grow {scene : List AiMesh} {scale : Vec3} {transform : Bool} {P : Transform3} {m m' : Mesh} {k : ℕ}
    (h : addMesh scene scale transform P m k = .ok m') : m.points.length ≤ m'.points.length := by
  unfold addMesh at h
  cases hM : vget scene k with
  | error e => rw [hM] at h; cases h
  | ok M =>
    rw [hM] at h
    simp only [bind, Except.bind] at h
    cases hv : vertexLoop scale transform P M.vertices m [] [] with
    | error e => rw [hv] at h; cases h
    | ok r =>
      rw [hv] at h
      simp only at h
      obtain ⟨seen, hF⟩ := faceLoop_inv (m0 := r.1) M.faces [] r.1 [] ⟨rfl, by simp, List.nodup_nil, by simp, by simp⟩ h
      rw [hF.points]
      exact vertexLoop_grow _ _ _ _ hv

theorem fold_grow {scene : List AiMesh} {scale : Vec3} {transform : Bool} : ∀ (L : List (ℕ × Transform3)) {m m' : Mesh},
    L.foldlM (fun m (kP : ℕ × Transform3) => addMesh scene scale transform kP.2 m kP.1) m = .ok m' →
    m.points.length ≤ m'.points.length
  | [], m, m', h => by cases h; exact le_rfl
  | (k, P) :: L, m, m', h => by
    rw [List.foldlM_cons] at h
    cases h1 : addMesh scene scale transform P m k with
    | error e => rw [h1] at h; cases h
    | ok m1 =>
      rw [h1] at h
      exact (addMesh_grow h1).trans (fold_grow L h)

theorem fold_spec {scene : List AiMesh} {scale : Vec3} {transform : Bool} : ∀ (L : List (ℕ × Transform3)) {m m' : Mesh},
    L.foldlM (fun m (kP : ℕ × Transform3) => addMesh scene scale transform kP.2 m kP.1) m = .ok m' →
    m'.points.length ≤ 2 ^ 32 →
    ∃ l lt, m'.points = m.points ++ l ∧ m'.tris = m.tris ++ lt ∧ lt.Nodup ∧
      (∀ p ∈ l, ∃ k P M v, (k, P) ∈ L ∧ scene[k]? = some M ∧ v ∈ M.vertices ∧
        p = scaled scale (if transform then P.apply v else v)) ∧
      (∀ t ∈ lt, m.points.length ≤ t.i1 ∧ ∃ k P M a b c, (k, P) ∈ L ∧ scene[k]? = some M ∧ [a, b, c] ∈ M.faces ∧
        ShowsFace scale transform P M m'.points t a b c) ∧
      (∀ k P, (k, P) ∈ L → ∃ M, scene[k]? = some M ∧ ∀ a b c, [a, b, c] ∈ M.faces →
        ∃ t ∈ lt, ShowsFace scale transform P M m'.points t a b c)
  | [], m, m', h, _ => by
    cases h
    exact ⟨[], [], by simp, by simp, List.nodup_nil, by simp, by simp, by simp⟩
  | (k, P) :: L, m, m', h, h32 => by
    rw [List.foldlM_cons] at h
    cases h1 : addMesh scene scale transform P m k with
    | error e => rw [h1] at h; cases h
    | ok m1 =>
      rw [h1] at h
      have hg := fold_grow L h
      obtain ⟨l2, lt2, a1, a2, a3, a4, a5, a6⟩ := fold_spec L h h32
      obtain ⟨M, l1, lt1, b0, b1, b2, b3, b4, b5, b6⟩ := addMesh_spec h1 (hg.trans h32)
      refine ⟨l1 ++ l2, lt1 ++ lt2, by rw [a1, b1, List.append_assoc], by rw [a2, b2, List.append_assoc], ?_, ?_, ?_, ?_⟩
      · refine List.Nodup.append b3 a3 ?_
        intro t ht ht'
        obtain ⟨-, a, b, c, -, hs⟩ := b5 t ht
        have := (ShowsFace.lt hs).1
        have := (a5 t ht').1
        omega
      · intro p hp
        rcases List.mem_append.1 hp with hp | hp
        · obtain ⟨v, hv, he⟩ := b4 p hp
          exact ⟨k, P, M, v, List.mem_cons_self .., b0, hv, he⟩
        · obtain ⟨k', P', M', v, hk, h'⟩ := a4 p hp
          exact ⟨k', P', M', v, List.mem_cons_of_mem _ hk, h'⟩
      · intro t ht
        rcases List.mem_append.1 ht with ht | ht
        · obtain ⟨hge, a, b, c, hf, hs⟩ := b5 t ht
          refine ⟨hge, k, P, M, a, b, c, List.mem_cons_self .., b0, hf, ?_⟩
          rw [a1]
          exact ShowsFace.append hs l2
        · obtain ⟨hge, k', P', M', a, b, c, hk, h'⟩ := a5 t ht
          have : m.points.length ≤ m1.points.length := by rw [b1]; simp
          exact ⟨by omega, k', P', M', a, b, c, List.mem_cons_of_mem _ hk, h'⟩
      · intro k' P' hk
        rcases List.mem_cons.1 hk with hk | hk
        · cases hk
          refine ⟨M, b0, fun a b c hf => ?_⟩
          obtain ⟨t, ht, hs⟩ := b6 a b c hf
          refine ⟨t, List.mem_append_left _ ht, ?_⟩
          rw [a1]
          exact ShowsFace.append hs l2
        · obtain ⟨M', hM', h'⟩ := a6 k' P' hk
          refine ⟨M', hM', fun a b c hf => ?_⟩
          obtain ⟨t, ht, hs⟩ := h' a b c hf
          exact ⟨t, List.mem_append_right _ ht, hs⟩

theorem addMesh_block {scene : List AiMesh} {scale : Vec3} {transform : Bool} {P : Transform3} {m m' : Mesh} {k : ℕ}
    (h : addMesh scene scale transform P m k = .ok m') (h32 : m'.points.length ≤ 2 ^ 32) :
    ∃ l, m'.points = m.points ++ l ∧ Block scene scale transform (k, P) l := by
  unfold addMesh at h
  cases hM : vget scene k with
  | error e => rw [hM] at h; cases h
  | ok M =>
    rw [hM] at h
    simp only [bind, Except.bind] at h
    cases hv : vertexLoop scale transform P M.vertices m [] [] with
    | error e => rw [hv] at h; cases h
    | ok r =>
      rw [hv] at h
      simp only at h
      obtain ⟨seen, hF⟩ := faceLoop_inv (m0 := r.1) M.faces [] r.1 [] ⟨rfl, by simp, List.nodup_nil, by simp, by simp⟩ h
      rw [hF.points] at h32
      obtain ⟨xyz, sel, hV⟩ := vertexLoop_inv M.vertices [] m [] [] [] (VInv.nil _ _ _ _) hv h32
      rw [List.nil_append] at hV
      refine ⟨sel.map (place scale transform P), by rw [hF.points, hV.points], M, sel, vget_some hM, hV.sub, ?_, ?_, rfl⟩
      · have := hV.nodup
        rw [List.Nodup, List.pairwise_map] at this
        exact this.imp fun hne hs => hne ((Mesh.key_eq_iff _ _).2 hs)
      · intro v hv
        obtain ⟨j, hj⟩ := List.mem_iff_getElem?.1 hv
        obtain ⟨i, v', -, h2, h3⟩ := hV.map j v hj
        exact ⟨v', List.mem_of_getElem? h2, (Mesh.key_eq_iff _ _).1 h3⟩

theorem fold_blocks {scene : List AiMesh} {scale : Vec3} {transform : Bool} : ∀ (L : List (ℕ × Transform3)) {m m' : Mesh},
    L.foldlM (fun m (kP : ℕ × Transform3) => addMesh scene scale transform kP.2 m kP.1) m = .ok m' →
    m'.points.length ≤ 2 ^ 32 →
    ∃ blocks, List.Forall₂ (Block scene scale transform) L blocks ∧ m'.points = m.points ++ blocks.flatten
  | [], m, m', h, _ => by
    cases h
    exact ⟨[], .nil, by simp⟩
  | (k, P) :: L, m, m', h, h32 => by
    rw [List.foldlM_cons] at h
    cases h1 : addMesh scene scale transform P m k with
    | error e => rw [h1] at h; cases h
    | ok m1 =>
      rw [h1] at h
      obtain ⟨l, a1, a2⟩ := addMesh_block h1 ((fold_grow L h).trans h32)
      obtain ⟨blocks, b1, b2⟩ := fold_blocks L h h32
      exact ⟨l :: blocks, .cons a2 b1, by rw [b2, a1]; simp⟩

mutual

theorem placements_length : ∀ (n : AiNode) (parent : Transform3), (placements n parent).length = placeCount n
  | .mk t children meshes, parent => by
    rw [placements, placeCount, List.length_append, List.length_map, placementsL_length children (parent.mul t.pose)]

theorem placementsL_length : ∀ (ns : List AiNode) (pose : Transform3), (placementsL ns pose).length = placeCountL ns
  | [], _ => rfl
  | n :: ns, pose => by
    rw [placementsL, placeCountL, List.length_append, placements_length n pose, placementsL_length ns pose]

end

theorem fold_ok {scene : List AiMesh} {scale : Vec3} {transform : Bool} : ∀ (L : List (ℕ × Transform3)) (m : Mesh),
    (∀ k P, (k, P) ∈ L → ∃ M, scene[k]? = some M ∧ (∀ v ∈ M.vertices, InIntRange (scaled scale v)) ∧
      ∀ a b c, [a, b, c] ∈ M.faces → a < M.vertices.length ∧ b < M.vertices.length ∧ c < M.vertices.length) →
    ∃ m', L.foldlM (fun m (kP : ℕ × Transform3) => addMesh scene scale transform kP.2 m kP.1) m = .ok m'
  | [], m, _ => ⟨m, rfl⟩
  | (k, P) :: L, m, h => by
    obtain ⟨M, h1, h2, h3⟩ := h k P (List.mem_cons_self ..)
    obtain ⟨m1, hm⟩ := addMesh_ok (transform := transform) (P := P) (m := m) h1 h2 h3
    obtain ⟨m', h'⟩ := fold_ok L m1 (fun k P hk => h k P (List.mem_cons_of_mem _ hk))
    exact ⟨m', by rw [List.foldlM_cons, hm]; exact h'⟩

theorem mul_assoc' (A B C : Transform3) : (A.mul B).mul C = A.mul (B.mul C) := by
  ext <;> simp [Transform3.mul, Mat3.mul, Mat3.mulVec] <;> ring

/-- The parent frame does not matter for which meshes are placed. -/
theorem placed_parent {n : AiNode} {parent : Transform3} {k : ℕ} {P : Transform3} (parent' : Transform3)
    (h : Placed n parent k P) : ∃ P', Placed n parent' k P' := by
  induction h generalizing parent' with
  | here hk => exact ⟨_, .here hk⟩
  | child hc _ ih =>
    obtain ⟨P', hP'⟩ := ih _
    exact ⟨P', .child hc hP'⟩

theorem placed_mul {n : AiNode} {B : Transform3} {k : ℕ} {P : Transform3} (A : Transform3) (h : Placed n B k P) :
    Placed n (A.mul B) k (A.mul P) := by
  induction h with
  | here hk =>
    rw [← mul_assoc']
    exact .here hk
  | child hc _ ih =>
    rw [← mul_assoc'] at ih
    exact .child hc ih

theorem placed_mul_inv {n : AiNode} {A B X : Transform3} {k : ℕ} {P : Transform3} (h : Placed n X k P) (hX : X = A.mul B) :
    ∃ P', Placed n B k P' ∧ P = A.mul P' := by
  induction h generalizing B with
  | here hk => exact ⟨_, .here hk, by rw [hX, mul_assoc']⟩
  | @child t _ _ _ _ _ _ hc _ ih =>
    obtain ⟨P', h1, h2⟩ := ih (B := B.mul t.pose) (by rw [hX, mul_assoc'])
    exact ⟨P', .child hc h1, h2⟩

theorem placed_root {t t' : AiMatrix} {children : List AiNode} {meshes : List ℕ} {parent parent' A : Transform3}
    (h : parent.mul t.pose = A.mul (parent'.mul t'.pose)) (k : ℕ) (P : Transform3) :
    Placed (.mk t children meshes) parent k P ↔ ∃ P', Placed (.mk t' children meshes) parent' k P' ∧ P = A.mul P' := by
  constructor
  · intro hP
    cases hP with
    | here hk => exact ⟨_, .here hk, h⟩
    | child hc hP =>
      obtain ⟨P', h1, h2⟩ := placed_mul_inv hP h
      exact ⟨P', .child hc h1, h2⟩
  · rintro ⟨P', hP, rfl⟩
    cases hP with
    | here hk =>
      rw [← h]
      exact .here hk
    | child hc hP =>
      have := placed_mul A hP
      rw [← h] at this
      exact .child hc this

theorem substr_last (stem : List Char) (a b c : Char) :
    substr (stem ++ [a, b, c]) (sizeMinus (stem ++ [a, b, c]) 3) = .ok [a, b, c] := by
  unfold substr sizeMinus
  rw [if_pos (by simp), if_pos (by simp)]
  congr 1
  rw [show (stem ++ [a, b, c]).length - 3 = stem.length by simp, List.drop_left]

theorem read_result {e : Exec Mesh} {sh : Shape} (h : (e >>= fun m => pure (some (Shape.new.setMesh m))) = .ok (some sh)) :
    ∃ m, e = .ok m ∧ sh = Shape.new.setMesh m := by
  cases e with
  | error f => cases h
  | ok m =>
    refine ⟨m, rfl, ?_⟩
    cases h
    rfl

theorem standsFor_identity {scale : Vec3} {P : Transform3} {m : AiMesh} {v p : Vec3} (h : StandsFor scale false P m v p) :
    StandsFor scale true Transform3.identity m v p := by
  obtain ⟨v', h1, h2, h3⟩ := h
  refine ⟨v', h1, h2, ?_⟩
  rw [h3]
  simp [Transform3.apply, Transform3.identity, Mat3.identity, Mat3.mulVec, scaled]

theorem showsFace_identity {scale : Vec3} {P : Transform3} {m : AiMesh} {points : List Vec3} {t : TriI} {a b c : ℕ}
    (h : ShowsFace scale false P m points t a b c) : ShowsFace scale true Transform3.identity m points t a b c := by
  obtain ⟨va, vb, vc, pa, pb, pc, h1, h2, h3, h4, h5, h6, s1, s2, s3⟩ := h
  exact ⟨va, vb, vc, pa, pb, pc, h1, h2, h3, h4, h5, h6, standsFor_identity s1, standsFor_identity s2, standsFor_identity s3⟩

theorem entries {A B : Mat3} {r : ℝ} (h : M A = r • M B) :
    A = ⟨r * B.xx, r * B.xy, r * B.xz, r * B.yx, r * B.yy, r * B.yz, r * B.zx, r * B.zy, r * B.zz⟩ := by
  have e := fun i j => congrFun (congrFun h i) j
  ext
  · simpa [M] using e 0 0
  · simpa [M] using e 0 1
  · simpa [M] using e 0 2
  · simpa [M] using e 1 0
  · simpa [M] using e 1 1
  · simpa [M] using e 1 2
  · simpa [M] using e 2 0
  · simpa [M] using e 2 1
  · simpa [M] using e 2 2

theorem normalized_scaled {Q : Mat3} {r : ℝ} (hr : 0 < r) (hQ : Orthogonal Q) :
    (⟨r * Q.xx, r * Q.xy, r * Q.xz, r * Q.yx, r * Q.yy, r * Q.yz, r * Q.zx, r * Q.zy, r * Q.zz⟩ : Mat3).normalized = Q := by
  obtain ⟨c1, c2, c3, -, -, -⟩ := (orth_iff Q).1 hQ
  have len : ∀ x y z : ℝ, x * x + y * y + z * z = 1 → (⟨r * x, r * y, r * z⟩ : Vec3).normalized = ⟨x, y, z⟩ := by
    intro x y z h
    have : (⟨r * x, r * y, r * z⟩ : Vec3).length = r := by
      unfold Vec3.length
      dsimp only
      rw [show (r * x) * (r * x) + (r * y) * (r * y) + (r * z) * (r * z) = r ^ 2 by linear_combination r ^ 2 * h]
      exact Real.sqrt_sq hr.le
    unfold Vec3.normalized
    rw [this]
    ext <;> simp only <;> field_simp
  unfold Mat3.normalized
  have g0 : (⟨r * Q.xx, r * Q.xy, r * Q.xz, r * Q.yx, r * Q.yy, r * Q.yz, r * Q.zx, r * Q.zy, r * Q.zz⟩ : Mat3).getColumn 0 =
    ⟨r * Q.xx, r * Q.yx, r * Q.zx⟩ := by simp [Mat3.getColumn, Mat3.get]
  have g1 : (⟨r * Q.xx, r * Q.xy, r * Q.xz, r * Q.yx, r * Q.yy, r * Q.yz, r * Q.zx, r * Q.zy, r * Q.zz⟩ : Mat3).getColumn 1 =
    ⟨r * Q.xy, r * Q.yy, r * Q.zy⟩ := by simp [Mat3.getColumn, Mat3.get]
  have g2 : (⟨r * Q.xx, r * Q.xy, r * Q.xz, r * Q.yx, r * Q.yy, r * Q.yz, r * Q.zx, r * Q.zy, r * Q.zz⟩ : Mat3).getColumn 2 =
    ⟨r * Q.xz, r * Q.yz, r * Q.zz⟩ := by simp [Mat3.getColumn, Mat3.get]
  rw [g0, g1, g2]
  dsimp only
  rw [len _ _ _ c1, len _ _ _ c2, len _ _ _ c3]
  rfl

/-- What is left of the root's transformation in a dae file: its scaling. -/
theorem dae_pose {T : Transform3} {Q : Mat3} {r : ℝ} (hr : 0 < r) (hQ : Orthogonal Q) (h : M T.R = r • M Q) :
    (Transform3.inverse ⟨T.R.normalized, T.t⟩).mul T = scaledPose r Transform3.identity := by
  have e := entries h
  have n : T.R.normalized = Q := by rw [e, normalized_scaled hr hQ]
  obtain ⟨c1, c2, c3, c4, c5, c6⟩ := (orth_iff Q).1 hQ
  obtain ⟨R, t⟩ := T
  simp only at e n
  rw [n]
  subst e
  ext <;> simp [Transform3.inverse, Transform3.mul, Mat3.mul, Mat3.mulVec, Mat3.transpose, scaledPose, Transform3.identity,
    Mat3.identity]
  · linear_combination r * c1
  · linear_combination r * c4
  · linear_combination r * c5
  · linear_combination r * c4
  · linear_combination r * c2
  · linear_combination r * c6
  · linear_combination r * c5
  · linear_combination r * c6
  · linear_combination r * c3
  all_goals ring

end Geo.Import
