import Verif.Spec.Scene
import Verif.Lemmas.Joint
import Verif.Lemmas.DepthCameraRender
import Verif.Lemmas.DepthCameraBuffer

/-!
# Depth images of several objects
-/

namespace Geo
open Spec Raster

theorem pixels_append {σ : Type} (k : Sink σ) : ∀ (a b : List PixelCall) (s : σ),
    k.pixels (a ++ b) s = (k.pixels a s >>= k.pixels b)
  | [], b, s => rfl
  | p :: a, b, s => by
    simp only [List.cons_append, Sink.pixels]
    cases e : k.pixel s p with
    | error _ => rfl
    | ok s' => exact pixels_append k a b s'

theorem recorder_pixels : ∀ (a s : List PixelCall), recorder.pixels a s = .ok (s ++ a)
  | [], s => by simp [Sink.pixels]
  | p :: a, s => by
    simp only [Sink.pixels]
    change recorder.pixels a (s ++ [p]) = _
    rw [recorder_pixels a, List.append_assoc]
    rfl

theorem pixels_inv {σ : Type} (k : Sink σ) (I : σ → Prop) (hI : ∀ s p s', I s → k.pixel s p = .ok s' → I s') :
    ∀ (a : List PixelCall) (s s' : σ), I s → k.pixels a s = .ok s' → I s'
  | [], s, s', h, e => by cases e; exact h
  | p :: a, s, s', h, e => by
    simp only [Sink.pixels] at e
    cases e1 : k.pixel s p with
    | error _ => rw [e1] at e; cases e
    | ok s1 => rw [e1] at e; exact pixels_inv k I hI a s1 s' (hI _ _ _ h e1) e

/-- What a client that never stops gets is what the recorder writes down. -/
theorem loop_recorded {σ : Type} (k : Sink σ) (I : σ → Prop) (hI : ∀ s p s', I s → k.pixel s p = .ok s' → I s')
    (hstop : ∀ s, I s → k.stopped s = false) (c : Camera) (w h : ℕ) (culling : Bool) (points : List Vec3) :
    ∀ (ts : List TriI) (i : ℕ) (s0 calls : List PixelCall), loop recorder c w h culling points i ts s0 = .ok calls →
      ∃ new, calls = s0 ++ new ∧ ∀ s, I s → loop k c w h culling points i ts s = k.pixels new s
  | [], i, s0, calls, e => by
    cases e
    exact ⟨[], by simp, fun s _ => rfl⟩
  | t :: ts, i, s0, calls, e => by
    simp only [loop] at e
    cases e1 : vget points t.i1 with
    | error _ => rw [e1] at e; cases e
    | ok p1 =>
    cases e2 : vget points t.i2 with
    | error _ => rw [e1, e2] at e; cases e
    | ok p2 =>
    cases e3 : vget points t.i3 with
    | error _ => rw [e1, e2, e3] at e; cases e
    | ok p3 =>
    cases e4 : triangles3D c w h culling i (clipped p1 p2 p3) with
    | error _ => simp only [e1, e2, e3, bind, Except.bind, e4] at e; cases e
    | ok cs =>
    simp only [e1, e2, e3, e4, bind, Except.bind, recorder_pixels] at e
    rw [if_neg (by simp [recorder])] at e
    obtain ⟨new, h1, h2⟩ := loop_recorded k I hI hstop c w h culling points ts _ _ _ e
    refine ⟨cs ++ new, by rw [h1, List.append_assoc], fun s hs => ?_⟩
    rw [pixels_append]
    simp only [loop, e1, e2, e3, e4, bind, Except.bind]
    cases e5 : k.pixels cs s with
    | error _ => rfl
    | ok s1 =>
      have := pixels_inv k I hI cs s s1 hs e5
      simp only
      rw [if_neg (by rw [hstop _ this]; simp), h2 _ this]

theorem render_recorded {σ : Type} (k : Sink σ) (I : σ → Prop) (hI : ∀ s p s', I s → k.pixel s p = .ok s' → I s')
    (hstop : ∀ s, I s → k.stopped s = false) (c : Camera) (w h : ℕ) (culling : Bool) (m : Mesh) (T : Transform3)
    {calls : List PixelCall} (e : render recorder c w h m T culling [] = .ok calls) (s : σ) (hs : I s) :
    render k c w h m T culling s = k.pixels calls s := by
  unfold render at e ⊢
  dsimp only at e ⊢
  split_ifs at e ⊢
  · cases e; rfl
  · obtain ⟨new, h1, h2⟩ := loop_recorded k I hI hstop c w h culling _ _ _ _ _ e
    rw [h2 s hs, h1, List.nil_append]
  · cases e; rfl

/-- The recorder writes down pixels of the image. -/
theorem recorder_ok (c : Camera) (w h : ℕ) (culling : Bool) {K : ℝ} (hc : Moderate c K) {m : Mesh} {T : Transform3}
    (hv : Valid m.points m.tris) (hn : Near m T K) :
    ∃ calls, render recorder c w h m T culling [] = .ok calls ∧ ∀ p ∈ calls, InImage w h p.x p.y :=
  render_ok recorder c w h culling hc hv hn (fun s => ∀ p ∈ s, InImage w h p.x p.y)
    (fun s p hs hp => ⟨_, rfl, fun q hq => by
      rcases List.mem_append.1 hq with hq | hq
      · exact hs q hq
      · rw [List.mem_singleton.1 hq]; exact hp⟩) [] (by simp)

theorem render_default {c : Camera} {w h : ℕ} {m : Mesh} {T : Transform3} {calls : List PixelCall}
    (e : render recorder c w h m T true [] = .ok calls) (r : DefaultResult) (hr : r.stop = false) :
    render DefaultResult.sink c w h m T true r = DefaultResult.sink.pixels calls r :=
  render_recorded DefaultResult.sink (fun r => r.stop = false) (fun _ _ _ hs hp => (pixel_keeps hp).stop.trans hs) (fun _ hs => hs)
    c w h true m T e r hr

/-- The maps are those of an image being drawn. (Device of the proofs.) -/
structure Canvas (w h : ℕ) (r : DefaultResult) : Prop where
  cols : r.image.cols = w
  rows : r.image.rows = h
  stop : r.stop = false
  pml : r.pointerMap.length = w
  tml : r.triangleMap.length = w
  pm : Roomy r.pointerMap w h
  tm : Roomy r.triangleMap w h

theorem Canvas.fit {w h : ℕ} {r : DefaultResult} (hr : Canvas w h r) : r.Fit :=
  ⟨by rw [hr.cols, hr.rows]; exact hr.tm, fun _ => by rw [hr.cols, hr.rows]; exact hr.pm⟩

theorem Canvas.same {w h : ℕ} {r r' : DefaultResult} (hr : Canvas w h r) (hs : DefaultResult.Same r r') : Canvas w h r' := by
  have h1 : r'.pointerMap.length = r.pointerMap.length := by simpa using congrArg List.length hs.ptr
  have h2 : r'.triangleMap.length = r.triangleMap.length := by simpa using congrArg List.length hs.tri
  exact ⟨hs.cols.trans hr.cols, hs.rows.trans hr.rows, hs.stop.trans hr.stop, h1.trans hr.pml, h2.trans hr.tml,
    DefaultResult.roomy_lengths hs.ptr hr.pm, DefaultResult.roomy_lengths hs.tri hr.tm⟩

theorem Canvas.pointer {w h : ℕ} {r : DefaultResult} (hr : Canvas w h r) (p : ℕ) : Canvas w h { r with pointer := p } :=
  ⟨hr.cols, hr.rows, hr.stop, hr.pml, hr.tml, hr.pm, hr.tm⟩

theorem Canvas.new {w h : ℕ} {r : DefaultResult} (hr : Canvas w h r) (p : ℕ) :
    DefaultResult.new r.image p r.pointerMap r.triangleMap = { r with pointer := p } :=
  settled_eq (r := { r with pointer := p }) ⟨hr.stop, fun _ => hr.pml.trans hr.cols.symm, hr.tml.trans hr.cols.symm⟩

theorem canvas_new (image : DepthImage) {p : ℕ} (hp : p ≠ 0) : Canvas image.cols image.rows (.new image p [] []) := by
  have hf : (DefaultResult.new image p [] []).Fit := DefaultResult.new_fit (by simp) (by simp)
  have hs := settled_new image p [] []
  exact ⟨rfl, rfl, rfl, hs.pm hp, hs.tm, hf.ptr hp, hf.tri⟩

theorem new_pointer (image : DepthImage) {p q : ℕ} (hp : p ≠ 0) (hq : q ≠ 0) :
    DefaultResult.new image p [] [] = { DefaultResult.new image q [] [] with pointer := p } := by
  simp [DefaultResult.new, hp, hq]

/-- The first of the nearest calls at a pixel is one. -/
theorem first_unique {x y : ℕ} {cs pre pre' post post' : List PixelCall} {a b : PixelCall} {v v' : ℝ}
    (h : cs = pre ++ a :: post) (h' : cs = pre' ++ b :: post') (ha : At x y a) (hb : At x y b) (hv : a.depth = .fin v)
    (hv' : b.depth = .fin v') (h1 : ∀ e ∈ pre, At x y e → ∃ d, e.depth = .fin d ∧ v < d)
    (h2 : ∀ e ∈ post, At x y e → ∃ d, e.depth = .fin d ∧ v ≤ d)
    (h1' : ∀ e ∈ pre', At x y e → ∃ d, e.depth = .fin d ∧ v' < d)
    (h2' : ∀ e ∈ post', At x y e → ∃ d, e.depth = .fin d ∧ v' ≤ d) : a = b := by
  have contra : ∀ {pre pre' post post' : List PixelCall} {a b : PixelCall} {v v' : ℝ}, pre ++ a :: post = pre' ++ b :: post' →
      pre.length < pre'.length → At x y a → At x y b → a.depth = .fin v → b.depth = .fin v' →
      (∀ e ∈ post, At x y e → ∃ d, e.depth = .fin d ∧ v ≤ d) →
      (∀ e ∈ pre', At x y e → ∃ d, e.depth = .fin d ∧ v' < d) → False := by
    intro pre pre' post post' a b v v' he hl ha hb hv hv' h2 h1'
    have m1 : a ∈ pre' := by
      have := congrArg (fun l => l[pre.length]?) he
      simp only [List.getElem?_append_right le_rfl, Nat.sub_self, List.getElem?_cons_zero,
        List.getElem?_append_left hl] at this
      exact List.mem_of_getElem? this.symm
    have m2 : b ∈ post := by
      have := congrArg (fun l => l[pre'.length]?) he
      rw [List.getElem?_append_right hl.le] at this
      simp only [List.getElem?_append_right le_rfl, Nat.sub_self, List.getElem?_cons_zero] at this
      obtain ⟨n, hn⟩ : ∃ n, pre'.length - pre.length = n + 1 := ⟨pre'.length - pre.length - 1, by omega⟩
      rw [hn, List.getElem?_cons_succ] at this
      exact List.mem_of_getElem? this
    obtain ⟨d, d1, d2⟩ := h1' a m1 ha
    obtain ⟨e, e1, e2⟩ := h2 b m2 hb
    rw [hv, Fl.fin.injEq] at d1
    rw [hv', Fl.fin.injEq] at e1
    linarith
  rcases lt_trichotomy pre.length pre'.length with hl | hl | hl
  · exact (contra (h.symm.trans h') hl ha hb hv hv' h2 h1').elim
  · have := congrArg (fun l => l[pre.length]?) (h.symm.trans h')
    simp only [List.getElem?_append_right le_rfl, Nat.sub_self, List.getElem?_cons_zero] at this
    rw [List.getElem?_append_right hl.ge, hl] at this
    simpa using this
  · exact (contra (h'.symm.trans h) hl hb ha hv' hv h2' h1).elim

/-- What the calls of one object do to a pixel, in terms of what they do to an empty pixel. -/
theorem step_pixel {w h x y : ℕ} {cs : List PixelCall} (hin : ∀ c ∈ cs, InImage w h c.x c.y)
    (hpos : ∀ c ∈ cs, At x y c → ∃ d, 0 < d ∧ c.depth = .fin d) {r s : DefaultResult} (hr : Canvas w h r) (hs : Canvas w h s)
    (hp : r.pointer ≠ 0) {old : ℝ} (ho : r.image.at' y x = .fin old) (h0 : 0 ≤ old) (hs0 : s.image.at' y x = .fin 0) :
    ∃ r' s', DefaultResult.sink.pixels cs r = .ok r' ∧ DefaultResult.sink.pixels cs s = .ok s' ∧ Canvas w h r' ∧
      ((r'.image.at' y x = .fin old ∧ entry r'.triangleMap x y = entry r.triangleMap x y ∧
          entry r'.pointerMap x y = entry r.pointerMap x y ∧
          (s'.image.at' y x = .fin 0 ∨ ∃ v, s'.image.at' y x = .fin v ∧ 0 < v ∧ 0 < old ∧ old ≤ v)) ∨
        ∃ v, 0 < v ∧ s'.image.at' y x = .fin v ∧ (old = 0 ∨ v < old) ∧ r'.image.at' y x = .fin v ∧
          entry r'.triangleMap x y = entry s'.triangleMap x y ∧ entry r'.pointerMap x y = some r.pointer) := by
  have hin1 : ∀ c ∈ cs, InImage r.image.cols r.image.rows c.x c.y := by rw [hr.cols, hr.rows]; exact hin
  have hin2 : ∀ c ∈ cs, InImage s.image.cols s.image.rows c.x c.y := by rw [hs.cols, hs.rows]; exact hin
  obtain ⟨r', e1, hr'⟩ := buffer_spec hr.fit x y cs old hin1 hpos ho h0
  obtain ⟨s', e2, hs'⟩ := buffer_spec hs.fit x y cs 0 hin2 hpos hs0 le_rfl
  obtain ⟨r'', e3, same⟩ := DefaultResult.pixels_ok hr.fit cs hin1
  rw [e1, Except.ok.injEq] at e3
  subst e3
  refine ⟨r', s', e1, e2, hr.same same, ?_⟩
  rcases hs' with ⟨b1, -, -, b4⟩ | ⟨pre, a, post, v, b1, b2, b3, -, b5, b6, b7, b8, -⟩
  · left
    have hno : ∀ c ∈ cs, ¬ At x y c := fun c hc hat => lt_irrefl _ (b4 c hc hat).1
    rcases hr' with ⟨a1, a2, a3, -⟩ | ⟨pre, a, post, v, a1, a2, -⟩
    · exact ⟨a1, a2, a3, .inl b1⟩
    · exact (hno a (by rw [a1]; simp) a2).elim
  · have hv : 0 < v := by
      obtain ⟨d, d1, d2⟩ := hpos a (by rw [b1]; simp) b2
      rw [b3, Fl.fin.injEq] at d2
      linarith
    rcases hr' with ⟨a1, a2, a3, a4⟩ | ⟨pre', a', post', v', a1, a2, a3, a4, a5, a6, a7, a8, a9⟩
    · left
      obtain ⟨g1, d, g2, g3⟩ := a4 a (by rw [b1]; simp) b2
      rw [b3, Fl.fin.injEq] at g2
      exact ⟨a1, a2, a3, .inr ⟨v, b7, hv, g1, by linarith⟩⟩
    · right
      have := first_unique b1 a1 b2 a2 b3 a3 b5 b6 a5 a6
      subst this
      rw [b3, Fl.fin.injEq] at a3
      subst a3
      exact ⟨v, hv, b7, a4, a7, by rw [a8, b8], by rw [a9, if_pos hp]⟩

/-- A pixel of a scene, drawn into an image in progress. -/
theorem scene_pixel (c : Camera) {image : DepthImage} {x y : ℕ} (hi : image.at' y x = .fin 0) : ∀ (xs : List SceneObject)
    (_ : ∀ o ∈ xs, o.pointer ≠ 0) (_ : ∀ o ∈ xs, ∃ calls, render recorder c image.cols image.rows o.mesh o.pose true [] = .ok calls ∧
      (∀ p ∈ calls, InImage image.cols image.rows p.x p.y) ∧ ∀ p ∈ calls, At x y p → ∃ d, 0 < d ∧ p.depth = .fin d)
    (r : DefaultResult) (_ : Canvas image.cols image.rows r) (old : ℝ) (_ : r.image.at' y x = .fin old) (_ : 0 ≤ old),
    ∃ r', paintScene c xs r = .ok r' ∧ ((r'.image.at' y x = .fin old ∧ entry r'.triangleMap x y = entry r.triangleMap x y ∧
          entry r'.pointerMap x y = entry r.pointerMap x y ∧
          ∀ o ∈ xs, ∀ s, alone c image o = .ok s → s.image.at' y x = .fin 0 ∨ ∃ v, s.image.at' y x = .fin v ∧ 0 < old ∧ old ≤ v) ∨
      ∃ pre o post s v, xs = pre ++ o :: post ∧ alone c image o = .ok s ∧ 0 < v ∧ (old = 0 ∨ v < old) ∧ s.image.at' y x = .fin v ∧
        r'.image.at' y x = .fin v ∧ entry r'.pointerMap x y = some o.pointer ∧
        entry r'.triangleMap x y = entry s.triangleMap x y ∧
        (∀ o' ∈ pre, ∀ s, alone c image o' = .ok s → s.image.at' y x = .fin 0 ∨ ∃ v', s.image.at' y x = .fin v' ∧ v < v') ∧
        (∀ o' ∈ post, ∀ s, alone c image o' = .ok s → s.image.at' y x = .fin 0 ∨ ∃ v', s.image.at' y x = .fin v' ∧ v ≤ v'))
  | [], _, _, r, _, old, ho, _ => ⟨r, rfl, .inl ⟨ho, rfl, rfl, by simp⟩⟩
  | o :: xs, hp, hx, r, hr, old, ho, h0 => by
    have hpo := hp o List.mem_cons_self
    obtain ⟨calls, c1, c2, c3⟩ := hx o List.mem_cons_self
    obtain ⟨r1, s, e1, e2, hr1, hcase⟩ := step_pixel c2 c3 (hr.pointer o.pointer) (canvas_new image hpo) hpo ho h0 hi
    have hr2 : rasterize c o.mesh o.pose r.image r.pointerMap o.pointer r.triangleMap = .ok r1 := by
      unfold rasterize
      rw [hr.new, hr.cols, hr.rows, render_default c1 { r with pointer := o.pointer } hr.stop, e1]
    have hs2 : alone c image o = .ok s := by
      unfold alone rasterize
      rw [render_default c1 _ rfl, e2]
    have hstep : paintScene c (o :: xs) r = paintScene c xs r1 := by
      simp only [paintScene, hr2, bind, Except.bind]
    rw [hstep]
    have ih := scene_pixel c hi xs (fun o' ho' => hp o' (List.mem_cons_of_mem _ ho')) (fun o' ho' => hx o' (List.mem_cons_of_mem _ ho')) r1 hr1
    rcases hcase with ⟨a1, a2, a3, a4⟩ | ⟨v, v1, v2, v3, v4, v5, v6⟩
    · have a3' : entry r1.pointerMap x y = entry r.pointerMap x y := a3
      have a2' : entry r1.triangleMap x y = entry r.triangleMap x y := a2
      obtain ⟨r', f1, f2⟩ := ih old a1 h0
      refine ⟨r', f1, ?_⟩
      rcases f2 with ⟨b1, b2, b3, b4⟩ | ⟨pre, o2, post, s2, v, b1, b2, b3, b4, b5, b6, b7, b8, b9, b10⟩
      · refine .inl ⟨b1, b2.trans a2', b3.trans a3', fun o' ho' s' hs' => ?_⟩
        rcases List.mem_cons.1 ho' with rfl | ho'
        · rw [hs2, Except.ok.injEq] at hs'
          subst hs'
          exact a4.imp id fun ⟨v, g1, _, g3, g4⟩ => ⟨v, g1, g3, g4⟩
        · exact b4 o' ho' s' hs'
      · refine .inr ⟨o :: pre, o2, post, s2, v, by rw [b1]; rfl, b2, b3, b4, b5, b6, b7, b8, fun o' ho' s' hs' => ?_, b10⟩
        rcases List.mem_cons.1 ho' with rfl | ho'
        · rw [hs2, Except.ok.injEq] at hs'
          subst hs'
          exact a4.imp id fun ⟨v', g1, _, g3, g4⟩ => ⟨v', g1, (b4.resolve_left g3.ne').trans_le g4⟩
        · exact b9 o' ho' s' hs'
    · obtain ⟨r', f1, f2⟩ := ih v v4 v1.le
      refine ⟨r', f1, .inr ?_⟩
      rcases f2 with ⟨b1, b2, b3, b4⟩ | ⟨pre, o2, post, s2, v', b1, b2, b3, b4, b5, b6, b7, b8, b9, b10⟩
      · refine ⟨[], o, xs, s, v, rfl, hs2, v1, v3, v2, b1, b3.trans v6, b2.trans v5, by simp, fun o' ho' s' hs' => ?_⟩
        exact (b4 o' ho' s' hs').imp id fun ⟨v', g1, _, g3⟩ => ⟨v', g1, g3⟩
      · have hlt := b4.resolve_left v1.ne'
        refine ⟨o :: pre, o2, post, s2, v', by rw [b1]; rfl, b2, b3, v3.imp id hlt.trans, b5, b6, b7, b8, fun o' ho' s' hs' => ?_, b10⟩
        rcases List.mem_cons.1 ho' with rfl | ho'
        · rw [hs2, Except.ok.injEq] at hs'
          subst hs'
          exact .inr ⟨v, v2, hlt⟩
        · exact b9 o' ho' s' hs'

end Geo
