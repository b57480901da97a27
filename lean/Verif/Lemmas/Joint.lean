import Verif.Spec.Joint
import Verif.Spec.Scan
import Verif.Lemmas.LaserRangeFinderMesh
import Verif.Lemmas.DepthCameraRender
import Verif.Lemmas.Composite

/-!
# Lemmas about sensors that see several objects
-/

namespace Geo

open Spec

/-! ## Laser -/

/-- The effect of drawing something at depth `d`, if anything. (Device of the proofs.) -/
noncomputable def dab (o : Option EReal) (r : EReal) : EReal := match o with | none => r | some d => combine r d

/-- A drawing operation that sets every beam to the nearer of its value and its own depth. (Device of the proofs.) -/
def Draws (l : LRF) (F : RenderResult → Exec RenderResult) (f : ℕ → Option EReal) : Prop :=
  (∀ j d, f j = some d → 0 < d) ∧ ∀ res, res.ranges.length = l.numBeams → ∃ res', F res = .ok res' ∧
    res'.ranges.length = l.numBeams ∧ ∀ j, res'.ranges[j]? = (res.ranges[j]?).map (dab (f j))

theorem combine_combine {r d e : EReal} (hd : 0 < d) : combine (combine r d) e = combine r (combine d e) := by
  unfold combine
  by_cases h0 : r = 0
  · subst h0
    simp [hd.ne']
  · by_cases h1 : d < r <;> by_cases h2 : e < d <;> by_cases h3 : e < r <;>
      simp [h0, h1, h2, h3, hd.ne'] <;> order

theorem combine_pos {d e : EReal} (hd : 0 < d) (he : 0 < e) : 0 < combine d e := by
  unfold combine
  split_ifs <;> assumption

/-- The nearer of two depths. (Device of the proofs.) -/
noncomputable def both (o o' : Option EReal) : Option EReal :=
  match o, o' with
  | none, o' => o'
  | some d, none => some d
  | some d, some e => some (combine d e)

theorem dab_both {o o' : Option EReal} (h : ∀ d, o = some d → 0 < d) (h' : ∀ d, o' = some d → 0 < d) (r : EReal) :
    dab o' (dab o r) = dab (both o o') r := by
  rcases o with _ | d <;> rcases o' with _ | e <;> simp only [dab, both]
  exact combine_combine (h d rfl)

theorem both_pos {o o' : Option EReal} (h : ∀ d, o = some d → 0 < d) (h' : ∀ d, o' = some d → 0 < d) :
    ∀ d, both o o' = some d → 0 < d := by
  rcases o with _ | d <;> rcases o' with _ | e <;> simp only [both] <;> intro x hx
  · exact h' x hx
  · exact h' x hx
  · exact h x hx
  · rw [Option.some.injEq] at hx; subst hx; exact combine_pos (h d rfl) (h' e rfl)

theorem Draws.id (l : LRF) : Draws l (fun res => .ok res) fun _ => none :=
  ⟨fun j d h => by simp at h, fun res hl => ⟨res, rfl, hl, fun j => by
    have : dab none = _root_.id := rfl
    rw [this, Option.map_id, _root_.id]⟩⟩

theorem Draws.then {l : LRF} {F G : RenderResult → Exec RenderResult} {f g : ℕ → Option EReal} (hF : Draws l F f)
    (hG : Draws l G g) : Draws l (fun res => do let r ← F res; G r) fun j => both (f j) (g j) := by
  refine ⟨fun j => both_pos (hF.1 j) (hG.1 j), fun res hl => ?_⟩
  obtain ⟨r1, e1, e2, e3⟩ := hF.2 res hl
  obtain ⟨r2, f1, f2, f3⟩ := hG.2 r1 e2
  refine ⟨r2, by simp only [e1, bind, Except.bind, f1], f2, fun j => ?_⟩
  rw [f3, e3, Option.map_map]
  congr 1
  funext r
  exact dab_both (hF.1 j) (hG.1 j) r

open Classical in
theorem drawn_dab (l : LRF) (p1 s : Vec2) (a b j : ℕ) :
    drawn l p1 s a b j = dab (if a ≤ j ∧ j < b then hit l p1 s j else none) := by
  funext r
  unfold drawn dab
  split_ifs <;> rfl

/-- The parts of a line do not depend on the result. -/
theorem parts_free {l : LRF} (h : Fine l) (p1 p2 : Vec2) :
    (∀ res, RenderResult.parts l p1 p2 res = .ok none) ∨
    ∃ a1 b1 a2 b2, ∀ res, ∃ lo hi, RenderResult.parts l p1 p2 res = .ok (some ((a1, b1), (a2, b2), (lo, hi))) := by
  obtain ⟨o, ho⟩ := parts_ok h p1 p2 ⟨0, 0, []⟩
  unfold RenderResult.parts at ho ⊢
  cases e1 : l.getAngleUpperIndexRaw2 p1.x p1.y with
  | error e => simp [e1, bind, Except.bind] at ho
  | ok i1 =>
    cases e2 : l.getAngleUpperIndexRaw2 p2.x p2.y with
    | error e => simp [e1, e2, bind, Except.bind] at ho
    | ok i2 =>
      cases e3 : intOp (max i1 i2 - min i1 i2) with
      | error e => simp [e1, e2, e3, bind, Except.bind] at ho
      | ok k =>
        simp only [bind, Except.bind, e3]
        split_ifs
        · exact .inl fun _ => rfl
        · exact .inl fun _ => rfl
        · exact .inr ⟨_, _, _, _, fun _ => ⟨_, _, rfl⟩⟩
        · exact .inl fun _ => rfl
        · exact .inr ⟨_, _, _, _, fun _ => ⟨_, _, rfl⟩⟩

theorem renderLine_draws {l : LRF} (h : Fine l) (p1 p2 : Vec2) :
    ∃ f, Draws l (fun res => RenderResult.renderLine l res p1 p2) f := by
  classical
  have t := (LRF.ready_inv h.ready).1.2.1
  unfold RenderResult.renderLine
  dsimp only
  split_ifs with c1 c2
  · exact ⟨_, Draws.id l⟩
  · exact ⟨_, Draws.id l⟩
  · rcases parts_free h p1 p2 with hp | ⟨a1, b1, a2, b2, hp⟩
    · simp only [hp, bind, Except.bind]
      exact ⟨_, Draws.id l⟩
    · have hpos : ∀ (a b j : ℕ) d, (if a ≤ j ∧ j < b then hit l p1 (p2 - p1) j else none) = some d → 0 < d := by
        intro a b j d hd
        split_ifs at hd
        exact hit_pos hd
      refine ⟨fun j => both (if a1 ≤ j ∧ j < b1 then hit l p1 (p2 - p1) j else none)
        (if a2 ≤ j ∧ j < b2 then hit l p1 (p2 - p1) j else none),
        fun j => both_pos (hpos _ _ _) (hpos _ _ _), fun res hl => ?_⟩
      obtain ⟨lo, hi, hpr⟩ := hp res
      obtain ⟨e1, e2⟩ := parts_le hpr
      obtain ⟨r1, d1, d2, d3⟩ := drawPart_range l p1 (p2 - p1) a1 b1 res.ranges (by omega) (by omega)
      obtain ⟨r2, f1, f2, f3⟩ := drawPart_range l p1 (p2 - p1) a2 b2 r1 (by omega) (by omega)
      simp only [hpr, bind, Except.bind, d1, f1]
      refine ⟨_, rfl, f2.trans (d2.trans hl), fun j => ?_⟩
      simp only [f3, d3, Option.map_map]
      congr 1
      funext r
      rw [drawn_dab, drawn_dab]
      exact dab_both (hpos _ _ _) (hpos _ _ _) r

/-- The loop over triangles given by their corners. (Device of the proofs.) -/
noncomputable def renderSoup (l : LRF) (T : Transform3) : List (Vec3 × Vec3 × Vec3) → RenderResult → Exec RenderResult
  | [], res => .ok res
  | (a, b, c) :: ts, res =>
    match LRF.slice (LRF.planar T a) (LRF.planar T b) (LRF.planar T c) (LRF.height T a) (LRF.height T b) (LRF.height T c) with
    | none => renderSoup l T ts res
    | some (q1, q2) => do
      let r ← RenderResult.renderLine l res q1 q2
      renderSoup l T ts r

theorem soup_cons {points : List Vec3} {t : TriI} {ts : List TriI} {S : List (Vec3 × Vec3 × Vec3)}
    (h : soup points (t :: ts) = some S) : ∃ a b c S', points[t.i1]? = some a ∧ points[t.i2]? = some b ∧
      points[t.i3]? = some c ∧ soup points ts = some S' ∧ S = (a, b, c) :: S' := by
  unfold soup at h ⊢
  rw [List.mapM_cons] at h
  cases e1 : points[t.i1]? with
  | none => simp [e1] at h
  | some a =>
    cases e2 : points[t.i2]? with
    | none => simp [e1, e2] at h
    | some b =>
      cases e3 : points[t.i3]? with
      | none => simp [e1, e2, e3] at h
      | some c =>
        simp only [e1, e2, e3, Option.bind_eq_bind, Option.bind_some, Option.pure_def] at h
        rw [Option.bind_eq_some_iff] at h
        obtain ⟨S', h1, h2⟩ := h
        exact ⟨a, b, c, S', rfl, rfl, rfl, h1, (Option.some.inj h2).symm⟩

theorem renderTriangles_soup (l : LRF) (T : Transform3) (points : List Vec3) : ∀ (ts : List TriI) (S) (res : RenderResult),
    soup points ts = some S → LRF.renderTriangles l T points ts res = renderSoup l T S res
  | [], S, res, h => by
    simp only [soup, List.mapM_nil, Option.pure_def, Option.some.injEq] at h
    subst h; rfl
  | t :: ts, S, res, h => by
    obtain ⟨a, b, c, S', h1, h2, h3, h4, rfl⟩ := soup_cons h
    have ih := fun r => renderTriangles_soup l T points ts S' r h4
    simp only [LRF.renderTriangles, renderSoup, vget, h1, h2, h3, bind, Except.bind]
    split <;> rename_i heq <;> rw [heq] <;> simp only [ih]

theorem renderSoup_draws {l : LRF} (h : Fine l) (T : Transform3) : ∀ S : List (Vec3 × Vec3 × Vec3),
    ∃ f, Draws l (renderSoup l T S) f
  | [] => ⟨_, Draws.id l⟩
  | (a, b, c) :: S => by
    obtain ⟨f, hf⟩ := renderSoup_draws h T S
    cases e : LRF.slice (LRF.planar T a) (LRF.planar T b) (LRF.planar T c) (LRF.height T a) (LRF.height T b)
        (LRF.height T c) with
    | none =>
      have : renderSoup l T ((a, b, c) :: S) = renderSoup l T S := by
        funext res
        simp only [renderSoup, e]
      exact ⟨f, this ▸ hf⟩
    | some q =>
      obtain ⟨g, hg⟩ := renderLine_draws h q.1 q.2
      have : renderSoup l T ((a, b, c) :: S) =
          fun res => (do let r ← RenderResult.renderLine l res q.1 q.2; renderSoup l T S r) := by
        funext res
        simp only [renderSoup, e]
      exact ⟨_, this ▸ hg.then hf⟩

theorem renderSoup_append (l : LRF) (T : Transform3) : ∀ (S S' : List (Vec3 × Vec3 × Vec3)) (res : RenderResult),
    renderSoup l T (S ++ S') res = (do let r ← renderSoup l T S res; renderSoup l T S' r)
  | [], S', res => rfl
  | (a, b, c) :: S, S', res => by
    have ih := renderSoup_append l T S S'
    simp only [List.cons_append, renderSoup, ih]
    split
    · rfl
    · rename_i q1 q2 _
      cases RenderResult.renderLine l res q1 q2 <;> rfl

theorem apply_mul (T P : Transform3) (p : Vec3) : (T.mul P).apply p = T.apply (P.apply p) := by
  ext <;> simp [Transform3.apply, Transform3.mul, Mat3.mulVec, Mat3.mul] <;> ring

theorem renderSoup_move (l : LRF) (T P : Transform3) : ∀ (S : List (Vec3 × Vec3 × Vec3)) (res : RenderResult),
    renderSoup l T (S.map fun t => (P.apply t.1, P.apply t.2.1, P.apply t.2.2)) res = renderSoup l (T.mul P) S res
  | [], res => rfl
  | (a, b, c) :: S, res => by
    have ih := renderSoup_move l T P S
    simp only [List.map_cons, renderSoup, ih, height_eq, planar_eq, apply_mul]

theorem render_draws {l : LRF} (h : Fine l) {m : Mesh} (hv : Valid m.points m.tris) (T : Transform3) :
    ∃ f : ℕ → Option EReal, (∀ j d, f j = some d → 0 < d) ∧ ∀ ranges : List EReal,
      ∃ res, l.render m T ranges = .ok res ∧ res.ranges.length = l.numBeams ∧
        ∀ j < l.numBeams, res.ranges[j]? = some (dab (f j) ((ranges[j]?).getD 0)) := by
  have t := (LRF.ready_inv h.ready).1.2.1
  have key : ∃ f, Draws l (fun res => if l.skips T m.getMaxRadius.2 then .ok res else
      l.renderTriangles T m.points m.tris res) f := by
    split_ifs
    · exact ⟨_, Draws.id l⟩
    · obtain ⟨S, hS⟩ := Mesh.soup_valid hv
      rw [Mesh.mapM_corners_soup] at hS
      obtain ⟨f, hf⟩ := renderSoup_draws h T (S.map Tri.triple)
      have : (fun res => l.renderTriangles T m.points m.tris res) =
          renderSoup l T (S.map Tri.triple) := by
        funext res
        exact renderTriangles_soup l T _ _ _ _ hS
      exact ⟨f, this ▸ hf⟩
  obtain ⟨f, hf1, hf2⟩ := key
  refine ⟨f, hf1, fun ranges => ?_⟩
  obtain ⟨res', e1, e2, e3⟩ := hf2 ⟨0, u32 l.rayDirs.length, LRF.resizeRanges ranges l.rayDirs.length⟩
    (by simp [resize_length, t])
  refine ⟨res', e1, e2, fun j hj => ?_⟩
  rw [e3]
  simp only [resize_get ranges l.rayDirs.length (j := j) (by omega), Option.map_some]

theorem Draws.frame {l : LRF} {F : RenderResult → Exec RenderResult} {f : ℕ → Option EReal} (h : Draws l F f)
    {res res' : RenderResult} (he : res.ranges = res'.ranges) (hl : res.ranges.length = l.numBeams) :
    ∃ r r', F res = .ok r ∧ F res' = .ok r' ∧ r.ranges = r'.ranges ∧ r.ranges.length = l.numBeams := by
  obtain ⟨r, e1, e2, e3⟩ := h.2 res hl
  obtain ⟨r', f1, f2, f3⟩ := h.2 res' (he ▸ hl)
  refine ⟨r, r', e1, f1, List.ext_getElem? fun j => ?_, e2⟩
  rw [e3, f3, he]

theorem render_all (l : LRF) {m : Mesh} {T : Transform3} (hT : Rigid T) (hm : GoodMesh m) (hR : 0 < l.rangeMax)
    (ranges : List EReal) : l.render m T ranges = l.renderTriangles T m.points m.tris
      ⟨0, u32 l.rayDirs.length, LRF.resizeRanges ranges l.rayDirs.length⟩ := by
  unfold LRF.render
  dsimp only
  split_ifs with hs
  · exact (skips_lossless hT hm hR hs _).symm
  · rfl

theorem rigid_mul {T P : Transform3} (hT : Rigid T) (hP : Rigid P) : Rigid (T.mul P) := by
  have e : M (T.mul P).R = M T.R * M P.R := by
    ext i j
    fin_cases i <;> fin_cases j <;> simp [M, Transform3.mul, Mat3.mul, Matrix.mul_apply, Fin.sum_univ_three]
  unfold Rigid Orthogonal at *
  rw [e, Matrix.transpose_mul, Matrix.mul_assoc, ← Matrix.mul_assoc _ (M T.R), hT, Matrix.one_mul, hP]

/-- Drawing a composite is drawing its parts one after another. -/
theorem composite_scan {l : LRF} (h : Fine l) (hR : 0 < l.rangeMax) {T : Transform3} (hT : Rigid T) :
    ∀ (parts : List (ShapeObj × Transform3)), (∀ x ∈ parts, GoodMesh x.1.mesh) → (∀ x ∈ parts, Rigid x.2) →
      ∀ res : RenderResult, res.ranges.length = l.numBeams → ∃ r, renderSoup l T (posedTriangles parts) res = .ok r ∧
        scanAll l (partsIn T parts) res.ranges = .ok r.ranges
  | [], _, _, res, _ => ⟨res, rfl, rfl⟩
  | x :: xs, hm, hr, res, hl => by
    have t := (LRF.ready_inv h.ready).1.2.1
    have hx := hm x (by simp)
    obtain ⟨f, hf⟩ := renderSoup_draws h (T.mul x.2) (trianglesOf x.1.mesh)
    have hres : LRF.resizeRanges res.ranges l.rayDirs.length = res.ranges := by
      unfold LRF.resizeRanges
      rw [List.take_of_length_le (by omega), show l.rayDirs.length - res.ranges.length = 0 by omega]
      simp
    obtain ⟨r1, r2, e1, e2, e3, e4⟩ := hf.frame (res := res)
      (res' := ⟨0, u32 l.rayDirs.length, LRF.resizeRanges res.ranges l.rayDirs.length⟩) hres.symm hl
    obtain ⟨r, g1, g2⟩ := composite_scan h hR hT xs (fun y hy => hm y (by simp [hy])) (fun y hy => hr y (by simp [hy])) r1 e4
    refine ⟨r, ?_, ?_⟩
    · have : posedTriangles (x :: xs) = (trianglesOf x.1.mesh).map
          (fun t => (x.2.apply t.1, x.2.apply t.2.1, x.2.apply t.2.2)) ++ posedTriangles xs := by simp [posedTriangles]
      rw [this, renderSoup_append, renderSoup_move, e1]
      exact g1
    · have hr2 : l.render x.1.mesh (T.mul x.2) res.ranges = .ok r2 := by
        rw [render_all l (rigid_mul hT (hr x (by simp))) hx hR,
          renderTriangles_soup _ _ _ _ _ _ (good_soup hx).1, e2]
      simp only [partsIn, List.map_cons, scanAll, hr2, bind, Except.bind]
      rw [← e3]
      exact g2

theorem scanAll_append (l : LRF) : ∀ (xs ys : List (Mesh × Transform3)) (ranges : List EReal),
    scanAll l (xs ++ ys) ranges = (do let rs ← scanAll l xs ranges; scanAll l ys rs)
  | [], ys, ranges => rfl
  | x :: xs, ys, ranges => by
    simp only [List.cons_append, scanAll, scanAll_append l xs ys]
    cases l.render x.1 x.2 ranges <;> rfl

/-! ## Depth camera -/

namespace Raster

/-- A pixel call with another triangle index. (Device of the proofs.) -/
def retag (i : ℕ) (c : PixelCall) : PixelCall := { c with tri := i }

theorem pixels_retag (y : ℤ) (dd : Fl) (i : ℕ) : ∀ (n : ℕ) (x : ℤ) (d : Fl),
    pixels y dd i n x d = (pixels y dd 0 n x d).map (retag i)
  | 0, _, _ => rfl
  | n + 1, x, d => by simp only [pixels, List.map_cons, pixels_retag y dd i n, retag]

theorem map_bind' {α β γ : Type} (x : Exec α) (f : α → Exec β) (g : β → γ) :
    Except.map g (x >>= f) = x >>= fun a => Except.map g (f a) := by
  cases x <;> rfl

theorem row_retag (w : ℕ) (y : ℤ) (xs xe ds de : Fl) (i : ℕ) :
    row w y xs xe ds de i = (row w y xs xe ds de 0).map (List.map (retag i)) := by
  unfold row
  simp only [pixels_retag y _ i]
  split_ifs <;> simp only [map_bind'] <;> rfl

theorem rows_retag (w i : ℕ) : ∀ (n : ℕ) (y : ℤ) (s e : Edge),
    rows w i n y s e = (rows w 0 n y s e).map (List.map (retag i))
  | 0, _, _, _ => rfl
  | n + 1, y, s, e => by
    simp only [rows, row_retag w y _ _ _ _ i, rows_retag w i n]
    cases row w y s.x e.x s.d e.d 0 with
    | error e => rfl
    | ok cs =>
      cases rows w 0 n (y + 1) s.next e.next with
      | error e => rfl
      | ok cs' => simp [bind, Except.bind, Except.map, pure, Except.pure]

theorem part_retag (w h : ℕ) (ys ye : ℤ) (s e : Edge) (i : ℕ) :
    part w h ys ye s e i = (part w h ys ye s e 0).map (List.map (retag i)) := by
  unfold part
  split_ifs
  · cases intOp (-ys) with
    | error e => rfl
    | ok n => exact rows_retag _ _ _ _ _ _
  · exact rows_retag _ _ _ _ _ _

theorem append_retag (i : ℕ) (x y : Exec (List PixelCall)) :
    (do
      let a ← x.map (List.map (retag i))
      let b ← y.map (List.map (retag i))
      pure (a ++ b)) = Except.map (List.map (retag i)) (do
        let a ← x
        let b ← y
        pure (a ++ b)) := by
  cases x <;> cases y <;> simp [bind, Except.bind, Except.map, pure, Except.pure]

theorem triangle2D_retag (w h : ℕ) (culling : Bool) (p1 p2 p3 : Vec3) (i : ℕ) :
    triangle2D w h culling p1 p2 p3 i = (triangle2D w h culling p1 p2 p3 0).map (List.map (retag i)) := by
  unfold triangle2D
  split_ifs
  · rfl
  simp only [map_bind']
  iterate 6
    refine congrArg _ (funext fun _ => ?_)
  split_ifs
  · simp only [map_bind', part_retag w h _ _ _ _ i]
  · simp only [map_bind']
    iterate 6
      refine congrArg _ (funext fun _ => ?_)
    simp only [part_retag w h _ _ _ _ i, append_retag]
    simp only [map_bind']
  · rfl

theorem triangles3D_retag (c : Camera) (w h : ℕ) (culling : Bool) (i : ℕ) : ∀ ts,
    triangles3D c w h culling i ts = (triangles3D c w h culling 0 ts).map (List.map (retag i))
  | [] => rfl
  | (p1, p2, p3) :: ts => by
    simp only [triangles3D, triangle2D_retag w h culling _ _ _ i, triangles3D_retag c w h culling i ts]
    cases triangle2D w h culling (corner c p1) (corner c p2) (corner c p3) 0 with
    | error e => rfl
    | ok cs =>
      cases triangles3D c w h culling 0 ts with
      | error e => rfl
      | ok cs' => simp [bind, Except.bind, Except.map, pure, Except.pure]

/-- Results that differ in the numbers of the triangle map at most. (Device of the proofs.) -/
structure Alike (r r' : DefaultResult) : Prop where
  image : r.image = r'.image
  pointer : r.pointer = r'.pointer
  pointerMap : r.pointerMap = r'.pointerMap
  stop : r.stop = r'.stop
  shape : r.triangleMap.map List.length = r'.triangleMap.map List.length

/-- The same error or results alike. (Device of the proofs.) -/
def AlikeE (o o' : Exec DefaultResult) : Prop :=
  (∃ r r', o = .ok r ∧ o' = .ok r' ∧ Alike r r') ∨ ∃ e, o = .error e ∧ o' = .error e

theorem AlikeE.bind {o o' : Exec DefaultResult} (h : AlikeE o o') {f g : DefaultResult → Exec DefaultResult}
    (hf : ∀ r r', Alike r r' → AlikeE (f r) (g r')) : AlikeE (o >>= f) (o' >>= g) := by
  rcases h with ⟨r, r', rfl, rfl, ha⟩ | ⟨e, rfl, rfl⟩
  · exact hf r r' ha
  · exact .inr ⟨e, rfl, rfl⟩

theorem store_shape {m m' : List (List ℤ)} (h : m.map List.length = m'.map List.length) (x y : ℕ) (v v' : ℤ) :
    (∃ n n', DefaultResult.store m x y v = .ok n ∧ DefaultResult.store m' x y v' = .ok n' ∧
      n.map List.length = n'.map List.length) ∨
    ∃ e, DefaultResult.store m x y v = .error e ∧ DefaultResult.store m' x y v' = .error e := by
  have hx : (m[x]?).map List.length = (m'[x]?).map List.length := by
    rw [← List.getElem?_map, ← List.getElem?_map, h]
  unfold DefaultResult.store vget
  cases e1 : m[x]? with
  | none =>
    cases e2 : m'[x]? with
    | none => exact .inr ⟨_, rfl, rfl⟩
    | some col' => simp [e1, e2] at hx
  | some col =>
    cases e2 : m'[x]? with
    | none => simp [e1, e2] at hx
    | some col' =>
      have hl : col.length = col'.length := by simpa [e1, e2] using hx
      simp only [bind, Except.bind]
      rw [hl]
      split_ifs
      · refine .inl ⟨_, _, rfl, rfl, ?_⟩
        rw [List.map_set, List.map_set, h]
        simp [hl]
      · exact .inr ⟨_, rfl, rfl⟩

theorem pixel_alike {r r' : DefaultResult} (h : Alike r r') {p p' : PixelCall} (hx : p.x = p'.x) (hy : p.y = p'.y)
    (hd : p.depth = p'.depth) : AlikeE (DefaultResult.sink.pixel r p) (DefaultResult.sink.pixel r' p') := by
  obtain ⟨image, pointer, pm, tm, stop⟩ := r
  obtain ⟨image', pointer', pm', tm', stop'⟩ := r'
  obtain ⟨rfl, rfl, rfl, rfl, hs⟩ := h
  dsimp only at hs
  have he : tm.isEmpty = tm'.isEmpty := by
    have := congrArg List.isEmpty hs
    simpa using this
  simp only [DefaultResult.sink, DefaultResult.pixel, ← hx, ← hy, ← hd, ← he]
  have st := store_shape hs p.x.toNat p.y.toNat (toInt32 p.tri) (toInt32 p'.tri)
  split_ifs with c1 c2 c3 c4 c4
  · cases DefaultResult.store pm p.x.toNat p.y.toNat pointer with
    | error e => exact .inr ⟨_, rfl, rfl⟩
    | ok q => exact .inl ⟨_, _, rfl, rfl, rfl, rfl, rfl, rfl, hs⟩
  · cases DefaultResult.store pm p.x.toNat p.y.toNat pointer with
    | error e => exact .inr ⟨_, rfl, rfl⟩
    | ok q =>
      rcases st with ⟨n, n', e1, e2, e3⟩ | ⟨e, e1, e2⟩
      · rw [e1, e2]
        exact .inl ⟨_, _, rfl, rfl, rfl, rfl, rfl, rfl, e3⟩
      · rw [e1, e2]
        exact .inr ⟨_, rfl, rfl⟩
  · exact .inl ⟨_, _, rfl, rfl, rfl, rfl, rfl, rfl, hs⟩
  · rcases st with ⟨n, n', e1, e2, e3⟩ | ⟨e, e1, e2⟩
    · rw [e1, e2]
      exact .inl ⟨_, _, rfl, rfl, rfl, rfl, rfl, rfl, e3⟩
    · rw [e1, e2]
      exact .inr ⟨_, rfl, rfl⟩
  · exact .inl ⟨_, _, rfl, rfl, rfl, rfl, rfl, rfl, hs⟩
  · exact .inr ⟨_, rfl, rfl⟩

theorem pixels_alike (i : ℕ) : ∀ (cs : List PixelCall) (r r' : DefaultResult), Alike r r' →
    AlikeE (DefaultResult.sink.pixels (cs.map (retag i)) r) (DefaultResult.sink.pixels cs r')
  | [], r, r', h => .inl ⟨r, r', rfl, rfl, h⟩
  | c :: cs, _, _, h => (pixel_alike h (p := retag i c) (p' := c) rfl rfl rfl).bind fun _ _ ha => pixels_alike i cs _ _ ha

theorem Alike.symm {r r' : DefaultResult} (h : Alike r r') : Alike r' r :=
  ⟨h.image.symm, h.pointer.symm, h.pointerMap.symm, h.stop.symm, h.shape.symm⟩

theorem Alike.trans {r r' s : DefaultResult} (h : Alike r r') (g : Alike r' s) : Alike r s :=
  ⟨h.image.trans g.image, h.pointer.trans g.pointer, h.pointerMap.trans g.pointerMap, h.stop.trans g.stop,
    h.shape.trans g.shape⟩

theorem AlikeE.symm {o o' : Exec DefaultResult} (h : AlikeE o o') : AlikeE o' o := by
  rcases h with ⟨r, r', h1, h2, h⟩ | ⟨e, h1, h2⟩
  · exact .inl ⟨r', r, h2, h1, h.symm⟩
  · exact .inr ⟨e, h2, h1⟩

theorem AlikeE.trans {o o' p : Exec DefaultResult} (h : AlikeE o o') (g : AlikeE o' p) : AlikeE o p := by
  rcases h with ⟨r, r', h1, h2, h⟩ | ⟨e, h1, h2⟩ <;> rcases g with ⟨s, s', g1, g2, g⟩ | ⟨e', g1, g2⟩ <;>
    rw [h2] at g1
  · cases g1
    exact .inl ⟨r, s', h1, g2, h.trans g⟩
  · cases g1
  · cases g1
  · cases g1
    exact .inr ⟨e, h1, g2⟩

/-- The loop over triangles given by their corners. (Device of the proofs.) -/
noncomputable def loopSoup (c : Camera) (w h : ℕ) : ℕ → List (Vec3 × Vec3 × Vec3) → DefaultResult → Exec DefaultResult
  | _, [], s => .ok s
  | i, (p1, p2, p3) :: ts, s => do
    let calls ← triangles3D c w h true i (clipped p1 p2 p3)
    let s ← DefaultResult.sink.pixels calls s
    if s.stop then return s else loopSoup c w h (u32 (i + 1)) ts s

theorem loop_soup (c : Camera) (w h : ℕ) (points : List Vec3) : ∀ (ts : List TriI) (i : ℕ) (S) (s : DefaultResult),
    soup points ts = some S → loop DefaultResult.sink c w h true points i ts s = loopSoup c w h i S s
  | [], i, S, s, hS => by
    simp only [soup, List.mapM_nil, Option.pure_def, Option.some.injEq] at hS
    subst hS; rfl
  | t :: ts, i, S, s, hS => by
    obtain ⟨a, b, c', S', h1, h2, h3, h4, rfl⟩ := soup_cons hS
    have ih := fun i s => loop_soup c w h points ts i S' s h4
    simp only [loop, loopSoup, vget, h1, h2, h3, ih]
    rfl

theorem loopSoup_alike (c : Camera) (w h : ℕ) : ∀ (S : List (Vec3 × Vec3 × Vec3)) (i i' : ℕ) (r r' : DefaultResult), Alike r r' →
    AlikeE (loopSoup c w h i S r) (loopSoup c w h i' S r')
  | [], _, _, r, r', ha => .inl ⟨r, r', rfl, rfl, ha⟩
  | (p1, p2, p3) :: S, i, i', r, r', ha => by
    simp only [loopSoup]
    rw [triangles3D_retag c w h true i, triangles3D_retag c w h true i']
    cases triangles3D c w h true 0 (clipped p1 p2 p3) with
    | error e => exact .inr ⟨e, rfl, rfl⟩
    | ok cs =>
      refine AlikeE.bind ((pixels_alike i cs _ _ ha).trans (pixels_alike i' cs r' r' ⟨rfl, rfl, rfl, rfl, rfl⟩).symm) ?_
      intro s s' hs
      rw [hs.stop]
      split_ifs
      · exact .inl ⟨_, _, rfl, rfl, hs⟩
      · exact loopSoup_alike c w h S _ _ _ _ hs

/-- What drawing keeps. (Device of the proofs.) -/
structure Keeps (r r' : DefaultResult) : Prop where
  pointer : r'.pointer = r.pointer
  stop : r'.stop = r.stop
  cols : r'.image.cols = r.image.cols
  rows : r'.image.rows = r.image.rows
  pm : r'.pointerMap.length = r.pointerMap.length
  tm : r'.triangleMap.length = r.triangleMap.length

theorem Keeps.trans {r r' s : DefaultResult} (h : Keeps r r') (g : Keeps r' s) : Keeps r s :=
  ⟨g.pointer.trans h.pointer, g.stop.trans h.stop, g.cols.trans h.cols, g.rows.trans h.rows, g.pm.trans h.pm, g.tm.trans h.tm⟩

theorem store_length {α : Type} {m n : List (List α)} {x y : ℕ} {v : α} (h : DefaultResult.store m x y v = .ok n) :
    n.length = m.length := by
  unfold DefaultResult.store at h
  cases e : vget m x with
  | error e' => simp [e, bind, Except.bind] at h
  | ok col =>
    simp only [e, bind, Except.bind] at h
    split_ifs at h
    cases h
    simp

theorem pixel_keeps {r r' : DefaultResult} {p : PixelCall} (h : DefaultResult.sink.pixel r p = .ok r') : Keeps r r' := by
  simp only [DefaultResult.sink, DefaultResult.pixel] at h
  split_ifs at h with c1 c2 c3 c4 c4
  · cases e : DefaultResult.store r.pointerMap p.x.toNat p.y.toNat r.pointer with
    | error e' => rw [e] at h; cases h
    | ok q => rw [e] at h; cases h; exact ⟨rfl, rfl, rfl, rfl, store_length e, rfl⟩
  · cases e : DefaultResult.store r.pointerMap p.x.toNat p.y.toNat r.pointer with
    | error e' => rw [e] at h; cases h
    | ok q =>
      rw [e] at h
      cases e' : DefaultResult.store r.triangleMap p.x.toNat p.y.toNat (toInt32 p.tri) with
      | error e' => rw [e'] at h; cases h
      | ok q' => rw [e'] at h; cases h; exact ⟨rfl, rfl, rfl, rfl, store_length e, store_length e'⟩
  · cases h; exact ⟨rfl, rfl, rfl, rfl, rfl, rfl⟩
  · cases e' : DefaultResult.store r.triangleMap p.x.toNat p.y.toNat (toInt32 p.tri) with
    | error e' => rw [e'] at h; cases h
    | ok q' => rw [e'] at h; cases h; exact ⟨rfl, rfl, rfl, rfl, rfl, store_length e'⟩
  · cases h; exact ⟨rfl, rfl, rfl, rfl, rfl, rfl⟩

theorem pixels_keeps : ∀ (cs : List PixelCall) {r r' : DefaultResult}, DefaultResult.sink.pixels cs r = .ok r' → Keeps r r'
  | [], r, r', h => by cases h; exact ⟨rfl, rfl, rfl, rfl, rfl, rfl⟩
  | c :: cs, r, r', h => by
    simp only [Sink.pixels] at h
    cases e : DefaultResult.sink.pixel r c with
    | error e' => rw [e] at h; cases h
    | ok s => rw [e] at h; exact (pixel_keeps e).trans (pixels_keeps cs h)

theorem loopSoup_keeps (c : Camera) (w h : ℕ) : ∀ (S : List (Vec3 × Vec3 × Vec3)) (i : ℕ) {r r' : DefaultResult},
    loopSoup c w h i S r = .ok r' → Keeps r r'
  | [], _, r, r', h => by cases h; exact ⟨rfl, rfl, rfl, rfl, rfl, rfl⟩
  | (p1, p2, p3) :: S, i, r, r', hr => by
    simp only [loopSoup] at hr
    cases e : triangles3D c w h true i (clipped p1 p2 p3) with
    | error e' => rw [e] at hr; cases hr
    | ok cs =>
      rw [e] at hr
      change (DefaultResult.sink.pixels cs r >>= _) = _ at hr
      cases e' : DefaultResult.sink.pixels cs r with
      | error e' => rw [e'] at hr; cases hr
      | ok s =>
        rw [e'] at hr
        change (if s.stop then _ else _) = _ at hr
        split_ifs at hr
        · cases hr; exact pixels_keeps cs e'
        · exact (pixels_keeps cs e').trans (loopSoup_keeps c w h S _ hr)

theorem loopSoup_append (c : Camera) (w h : ℕ) : ∀ (S S' : List (Vec3 × Vec3 × Vec3)) (i i' : ℕ) (r : DefaultResult),
    r.stop = false → AlikeE (loopSoup c w h i (S ++ S') r) (loopSoup c w h i S r >>= loopSoup c w h i' S')
  | [], S', i, i', r, _ => loopSoup_alike c w h S' i i' r r ⟨rfl, rfl, rfl, rfl, rfl⟩
  | (p1, p2, p3) :: S, S', i, i', r, hs => by
    simp only [List.cons_append, loopSoup]
    cases e : triangles3D c w h true i (clipped p1 p2 p3) with
    | error e' => exact .inr ⟨_, rfl, rfl⟩
    | ok cs =>
      cases e' : DefaultResult.sink.pixels cs r with
      | error e'' => simp only [bind, Except.bind, e']; exact .inr ⟨_, rfl, rfl⟩
      | ok s =>
        have := (pixels_keeps cs e').stop.trans hs
        simp only [bind, Except.bind, e', this, Bool.false_eq_true, if_false]
        exact loopSoup_append c w h S S' _ i' s this

/-- A result that its constructor would not change. (Device of the proofs.) -/
structure Settled (r : DefaultResult) : Prop where
  stop : r.stop = false
  pm : r.pointer ≠ 0 → r.pointerMap.length = r.image.cols
  tm : r.triangleMap.length = r.image.cols

theorem resize_self {α : Type} {m : List (List α)} {cols : ℕ} (h : m.length = cols) (rows : ℕ) (v : α) :
    DefaultResult.resize m cols rows v = m := by
  subst h
  simp [DefaultResult.resize]

theorem settled_eq {r : DefaultResult} (h : Settled r) :
    DefaultResult.new r.image r.pointer r.pointerMap r.triangleMap = r := by
  obtain ⟨image, pointer, pm, tm, stop⟩ := r
  obtain ⟨h1, h2, h3⟩ := h
  dsimp only at h1 h2 h3
  unfold DefaultResult.new
  simp only [DefaultResult.mk.injEq, true_and, h1, and_true]
  constructor
  · split_ifs with h
    · exact resize_self (h2 h.1) _ _
    · rfl
  · split_ifs with h
    · exact resize_self h3 _ _
    · rfl

theorem resize_len {α : Type} (m : List (List α)) (cols rows : ℕ) (v : α) : (DefaultResult.resize m cols rows v).length = cols := by
  simp [DefaultResult.resize]
  omega

theorem misfit_len {α : Type} {m : List (List α)} {cols rows : ℕ} (h : ¬ DefaultResult.misfit m cols rows = true) :
    m.length = cols := by
  cases m with
  | nil => simp [DefaultResult.misfit] at h
  | cons a m =>
    simp only [DefaultResult.misfit, Bool.or_eq_true, not_or] at h
    simpa using h.1

theorem settled_new (image : DepthImage) (pointer : ℕ) (pm : List (List ℕ)) (tm : List (List ℤ)) :
    Settled (DefaultResult.new image pointer pm tm) := by
  refine ⟨rfl, fun h0 => ?_, ?_⟩
  · simp only [DefaultResult.new] at h0 ⊢
    split_ifs with h
    · exact resize_len _ _ _ _
    · exact misfit_len fun hm => h ⟨h0, hm⟩
  · simp only [DefaultResult.new]
    split_ifs with h
    · exact resize_len _ _ _ _
    · exact misfit_len h

theorem Settled.keeps {r r' : DefaultResult} (h : Settled r) (k : Keeps r r') : Settled r' := by
  refine ⟨k.stop.trans h.stop, fun hp => ?_, ?_⟩
  · rw [k.pm, k.cols]
    exact h.pm (k.pointer ▸ hp)
  · rw [k.tm, k.cols]
    exact h.tm

/-- The posed corners of a triangle. (Device of the proofs.) -/
def move (T : Transform3) (t : Vec3 × Vec3 × Vec3) : Vec3 × Vec3 × Vec3 := (T.apply t.1, T.apply t.2.1, T.apply t.2.2)

theorem rasterize_soup (c : Camera) {m : Mesh} {T : Transform3} (hT : Rigid T) (hm : GoodMesh m) (image : DepthImage)
    (pm : List (List ℕ)) (pointer : ℕ) (tm : List (List ℤ)) :
    rasterize c m T image pm pointer tm =
      loopSoup c image.cols image.rows 0 ((trianglesOf m).map (move T)) (.new image pointer pm tm) := by
  unfold rasterize
  rw [render_eq_loop _ _ _ _ hT hm, loop_soup]
  exact (C14_transform m T T T).2.1 _ (good_soup hm).1

/-- Painting a composite is painting its parts one after another. -/
theorem composite_paint (c : Camera) {T : Transform3} (hT : Rigid T) :
    ∀ (parts : List (ShapeObj × Transform3)), (∀ x ∈ parts, GoodMesh x.1.mesh) → (∀ x ∈ parts, Rigid x.2) →
      ∀ (i : ℕ) (r r' : DefaultResult), Settled r → Alike r r' → 
        AlikeE (loopSoup c r.image.cols r.image.rows i ((posedTriangles parts).map (move T)) r)
          (paintAll c (partsIn T parts) r')
  | [], _, _, _, r, r', _, ha => .inl ⟨r, r', rfl, rfl, ha⟩
  | x :: xs, hm, hr, i, r, r', hs, ha => by
    have hx := hm x (by simp)
    have hs' : Settled r' := ⟨ha.stop ▸ hs.stop, fun h => by
      rw [← ha.pointerMap, ← ha.image]; exact hs.pm (ha.pointer ▸ h), by
      have := congrArg List.length ha.shape
      simp only [List.length_map] at this
      rw [← ha.image, ← this]; exact hs.tm⟩
    have e : (posedTriangles (x :: xs)).map (move T) =
        (trianglesOf x.1.mesh).map (move (T.mul x.2)) ++ (posedTriangles xs).map (move T) := by
      simp [posedTriangles, move, apply_mul, Function.comp_def]
    rw [e]
    refine (loopSoup_append c _ _ _ _ i 0 r hs.stop).trans ?_
    simp only [partsIn, List.map_cons, paintAll]
    rw [rasterize_soup c (rigid_mul hT (hr x (by simp))) hx, settled_eq hs', ← ha.image]
    have hb := loopSoup_alike c r.image.cols r.image.rows ((trianglesOf x.1.mesh).map (move (T.mul x.2))) i 0 r r' ha
    rcases hb with ⟨s, s', e1, e2, h⟩ | ⟨err, e1, e2⟩
    · have k := loopSoup_keeps _ _ _ _ _ e1
      have ih := composite_paint c hT xs (fun y hy => hm y (by simp [hy])) (fun y hy => hr y (by simp [hy])) 0 s s'
        (hs.keeps k) h
      rw [k.cols, k.rows] at ih
      rw [e1, e2]
      exact ih
    · rw [e1, e2]
      exact .inr ⟨_, rfl, rfl⟩

end Raster

end Geo
