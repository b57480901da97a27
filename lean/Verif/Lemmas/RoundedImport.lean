import Verif.Model.RoundedImport
import Verif.Spec.RoundedImport
import Verif.Lemmas.RoundedMesh
import Verif.Lemmas.RoundedNormalize
import Verif.Lemmas.Import
import Verif.Lemmas.RoundedOctree

/-! # Helper lemmas about import in floating point arithmetic -/

namespace Geo.RoundedImport
open Spec Import Rounded

variable {u : ℝ} {rnd : ℝ → ℝ}

/-! ## Growth of errors -/

/-- The computed number `p` is within `(g - 1) m` of `q`, which is at most `m`. (Device of the proofs.) -/
def W (g p q m : ℝ) : Prop := |p - q| ≤ (g - 1) * m ∧ |q| ≤ m

theorem W.nonneg {g p q m : ℝ} (h : W g p q m) : 0 ≤ m := (abs_nonneg _).trans h.2

theorem W.mono {g g' p q m : ℝ} (h : W g p q m) (hg : g ≤ g') : W g' p q m :=
  ⟨h.1.trans (mul_le_mul_of_nonneg_right (by linarith) h.nonneg), h.2⟩

theorem W.self (x : ℝ) : W 1 x x |x| := ⟨by simp, le_rfl⟩

theorem W.mul {g p q m : ℝ} (h : W g p q m) (x : ℝ) : W g (p * x) (q * x) (m * |x|) := by
  refine ⟨?_, ?_⟩
  · rw [← sub_mul, abs_mul, ← mul_assoc]
    exact mul_le_mul_of_nonneg_right h.1 (abs_nonneg _)
  · rw [abs_mul]
    exact mul_le_mul_of_nonneg_right h.2 (abs_nonneg _)

theorem W.mul' {g p q m : ℝ} (h : W g p q m) (x : ℝ) : W g (x * p) (x * q) (|x| * m) := by
  rw [mul_comm x p, mul_comm x q, mul_comm |x| m]
  exact h.mul x

theorem W.add {g p q m p' q' m' : ℝ} (h : W g p q m) (h' : W g p' q' m') : W g (p + p') (q + q') (m + m') := by
  refine ⟨?_, (abs_add_le _ _).trans (add_le_add h.2 h'.2)⟩
  rw [add_sub_add_comm, mul_add]
  exact (abs_add_le _ _).trans (add_le_add h.1 h'.1)

theorem W.round (hr : RelErr u rnd) {g p q m : ℝ} (h : W g p q m) : W (g * (1 + u)) (rnd p) q m := by
  have hu0 := relErr_nonneg hr
  refine ⟨?_, h.2⟩
  have a := hr p
  have b : |p| ≤ g * m := by
    have := abs_add_le (p - q) q
    rw [sub_add_cancel] at this
    have := h.1
    have := h.2
    linarith
  have c := abs_add_le (rnd p - p) (p - q)
  rw [sub_add_sub_cancel] at c
  have := mul_le_mul_of_nonneg_left b hu0
  have := h.1
  linarith

theorem W.dot3 (hr : RelErr u rnd) {g a b c a' b' c' A B C : ℝ} (hg : 1 ≤ g) (ha : W g a' a A) (hb : W g b' b B) (hc : W g c' c C)
    (x y z : ℝ) : W (g * (1 + u) ^ 3) (dot3 rnd a' b' c' x y z) (a * x + b * y + c * z) (A * |x| + B * |y| + C * |z|) := by
  have hu0 := relErr_nonneg hr
  have s1 := (((ha.mul x).round hr).add ((hb.mul y).round hr)).round hr
  have s2 := ((hc.mul z).round hr).mono (g' := g * (1 + u) * (1 + u))
    (le_mul_of_one_le_right (by positivity) (by linarith))
  have := (s1.add s2).round hr
  rw [show g * (1 + u) * (1 + u) * (1 + u) = g * (1 + u) ^ 3 by ring] at this
  exact this

/-- All coordinates of a vector. (Device of the proofs.) -/
def VecW (g : ℝ) (p q m : Vec3) : Prop := W g p.x q.x m.x ∧ W g p.y q.y m.y ∧ W g p.z q.z m.z

/-- All elements of a matrix. (Device of the proofs.) -/
structure MatW (g : ℝ) (p q m : Mat3) : Prop where
  xx : W g p.xx q.xx m.xx
  xy : W g p.xy q.xy m.xy
  xz : W g p.xz q.xz m.xz
  yx : W g p.yx q.yx m.yx
  yy : W g p.yy q.yy m.yy
  yz : W g p.yz q.yz m.yz
  zx : W g p.zx q.zx m.zx
  zy : W g p.zy q.zy m.zy
  zz : W g p.zz q.zz m.zz

theorem VecW.mono {g g' : ℝ} {p q m : Vec3} (h : VecW g p q m) (hg : g ≤ g') : VecW g' p q m :=
  ⟨h.1.mono hg, h.2.1.mono hg, h.2.2.mono hg⟩

theorem MatW.mono {g g' : ℝ} {p q m : Mat3} (h : MatW g p q m) (hg : g ≤ g') : MatW g' p q m :=
  ⟨h.xx.mono hg, h.xy.mono hg, h.xz.mono hg, h.yx.mono hg, h.yy.mono hg, h.yz.mono hg, h.zx.mono hg, h.zy.mono hg, h.zz.mono hg⟩

theorem MatW.vec (hr : RelErr u rnd) {g : ℝ} (hg : 1 ≤ g) {p q m : Mat3} (h : MatW g p q m) (v : Vec3) :
    VecW (g * (1 + u) ^ 3) (Rounded.mulVec rnd p v) (q.mulVec v) (m.mulVec (absVec v)) :=
  ⟨h.xx.dot3 hr hg h.xy h.xz v.x v.y v.z, h.yx.dot3 hr hg h.yy h.yz v.x v.y v.z, h.zx.dot3 hr hg h.zy h.zz v.x v.y v.z⟩

theorem MatW.mat (hr : RelErr u rnd) {g : ℝ} (hg : 1 ≤ g) {p q m : Mat3} (h : MatW g p q m) (a : Mat3) :
    MatW (g * (1 + u) ^ 3) (Rounded.mulMat rnd p a) (q.mul a) (m.mul (absMat a)) where
  xx := h.xx.dot3 hr hg h.xy h.xz a.xx a.yx a.zx
  xy := h.xx.dot3 hr hg h.xy h.xz a.xy a.yy a.zy
  xz := h.xx.dot3 hr hg h.xy h.xz a.xz a.yz a.zz
  yx := h.yx.dot3 hr hg h.yy h.yz a.xx a.yx a.zx
  yy := h.yx.dot3 hr hg h.yy h.yz a.xy a.yy a.zy
  yz := h.yx.dot3 hr hg h.yy h.yz a.xz a.yz a.zz
  zx := h.zx.dot3 hr hg h.zy h.zz a.xx a.yx a.zx
  zy := h.zx.dot3 hr hg h.zy h.zz a.xy a.yy a.zy
  zz := h.zx.dot3 hr hg h.zy h.zz a.xz a.yz a.zz

theorem MatW.self (m : Mat3) : MatW 1 m m (absMat m) :=
  ⟨.self _, .self _, .self _, .self _, .self _, .self _, .self _, .self _, .self _⟩

/-- All elements of a pose. (Device of the proofs.) -/
def PoseW (g : ℝ) (p q m : Transform3) : Prop := MatW g p.R q.R m.R ∧ VecW g p.t q.t m.t

theorem PoseW.self (T : Transform3) : PoseW 1 T T (absPose T) := ⟨.self _, .self _, .self _, .self _⟩

theorem grow (hu0 : 0 ≤ u) {g : ℝ} (hg : 1 ≤ g) (k : ℕ) : g ≤ g * (1 + u) ^ k :=
  le_mul_of_one_le_right (by linarith) (one_le_pow₀ (by linarith))

theorem PoseW.apply (hr : RelErr u rnd) {g : ℝ} (hg : 1 ≤ g) {p q m : Transform3} (h : PoseW g p q m) (v : Vec3) :
    VecW (g * (1 + u) ^ 4) (Rounded.apply rnd p v) (q.apply v) (m.apply (absVec v)) := by
  have hu0 := relErr_nonneg hr
  have a := h.1.vec hr hg v
  have b := h.2.mono (grow hu0 hg 3)
  have c := fun {p q m p' q' m' : ℝ} (h : W (g * (1 + u) ^ 3) p q m) (h' : W (g * (1 + u) ^ 3) p' q' m') => (h.add h').round hr
  rw [show g * (1 + u) ^ 4 = g * (1 + u) ^ 3 * (1 + u) by ring]
  exact ⟨c a.1 b.1, c a.2.1 b.2.1, c a.2.2 b.2.2⟩

theorem PoseW.mul (hr : RelErr u rnd) {g : ℝ} (hg : 1 ≤ g) {p q m : Transform3} (h : PoseW g p q m) (T : Transform3) :
    PoseW (g * (1 + u) ^ 4) (Rounded.mul rnd p T) (q.mul T) (m.mul (absPose T)) := by
  have hu0 := relErr_nonneg hr
  refine ⟨(h.1.mat hr hg T.R).mono ?_, h.apply hr hg T.t⟩
  rw [show g * (1 + u) ^ 4 = g * (1 + u) ^ 3 * (1 + u) by ring]
  exact le_mul_of_one_le_right (by positivity) (by linarith)

/-- Down a path. -/
theorem chainW (hr : RelErr u rnd) : ∀ (path : List AiMatrix) {g : ℝ} (_ : 1 ≤ g) {p q m : Transform3} (_ : PoseW g p q m),
    PoseW (g * (1 + u) ^ (4 * path.length)) (path.foldl (fun P t => Rounded.mul rnd P t.pose) p)
      (path.foldl (fun P t => P.mul t.pose) q) (absChain m path)
  | [], g, _, p, q, m, h => by simpa [absChain] using h
  | t :: path, g, hg, p, q, m, h => by
    have hu0 := relErr_nonneg hr
    have := chainW hr path (hg.trans (grow hu0 hg 4)) (h.mul hr hg t.pose)
    rw [show g * (1 + u) ^ 4 * (1 + u) ^ (4 * path.length) = g * (1 + u) ^ (4 * (t :: path).length) by
      rw [List.length_cons, mul_assoc, ← pow_add]; congr 2; ring] at this
    exact this

theorem placeW (hr : RelErr u rnd) {g : ℝ} (hg : 1 ≤ g) {p q m : Transform3} (h : PoseW g p q m) (scale : Vec3) (transform : Bool)
    (v : Vec3) :
    VecW (g * (1 + u) ^ 5) (place rnd scale transform p v) (Import.place scale transform q v) (magnitude scale transform m v) := by
  have hu0 := relErr_nonneg hr
  have key : VecW (g * (1 + u) ^ 4) (if transform then Rounded.apply rnd p v else v) (if transform then q.apply v else v)
      (if transform then m.apply (absVec v) else absVec v) := by
    cases transform
    · have : VecW 1 v v (absVec v) := ⟨.self _, .self _, .self _⟩
      exact this.mono (hg.trans (grow hu0 hg 4))
    · exact h.apply hr hg v
  rw [show g * (1 + u) ^ 5 = g * (1 + u) ^ 4 * (1 + u) by ring]
  exact ⟨(key.1.mul' scale.x).round hr, (key.2.1.mul' scale.y).round hr, (key.2.2.mul' scale.z).round hr⟩

/-! ## Keys -/

theorem same_key (h : RelErr u rnd) (hu : u ≤ 1 / 1000) {s x : ℝ} (hc : ClearKey u s x) : SameKey rnd s x := by
  have hu0 := relErr_nonneg h
  have w := (((W.self (1000 * s)).round h).mul x).round h
  have e : |rnd (rnd (1000 * s) * x) - 1000 * s * x| ≤ 2.1 * u * |1000 * s * x| := by
    refine w.1.trans ?_
    rw [← abs_mul]
    refine mul_le_mul_of_nonneg_right ?_ (abs_nonneg _)
    have : u * u ≤ 1 / 1000 * u := mul_le_mul_of_nonneg_right hu hu0
    linarith
  exact trunc_eq (by linarith) e hc

theorem key_eq {scale v : Vec3} (hx : SameKey rnd scale.x v.x) (hy : SameKey rnd scale.y v.y)
    (hz : SameKey rnd scale.z v.z) : key rnd scale v = Import.key scale v := by
  unfold key Import.key castInt
  rw [hx, hy, hz]

/-- A `float` is an integer of 24 digits times a power of two. -/
theorem float_grid {x : ℝ} (h : toFloat x = x) : ∃ m k : ℤ, |m| ≤ 2 ^ 24 ∧ x = m * 2 ^ k := by
  by_cases hx : x = 0
  · exact ⟨0, 0, by norm_num, by simp [hx]⟩
  have habs : 0 < |x| := abs_pos.2 hx
  set e := Int.log 2 |x| - 23 with he
  have hp : (0 : ℝ) < 2 ^ e := zpow_pos (by norm_num) _
  have l2 : |x| < (2 : ℝ) ^ (e + 24) := by
    have := Int.lt_zpow_succ_log_self (b := 2) one_lt_two |x|
    rw [show e + 24 = Int.log 2 |x| + 1 by omega]
    exact_mod_cast this
  have q2 : |x / 2 ^ e| ≤ (2 : ℝ) ^ 24 := by
    rw [abs_div, abs_of_pos hp, div_le_iff₀ hp, mul_comm]
    rw [zpow_add₀ two_ne_zero] at l2
    exact_mod_cast l2.le
  have hfx : toFloat x = nearestEven (x / 2 ^ e) * 2 ^ e := by
    unfold toFloat
    rw [if_neg hx]
  obtain ⟨q3, q4⟩ := abs_le.1 q2
  refine ⟨nearestEven (x / 2 ^ e), e, abs_le.2 ⟨?_, ?_⟩, by rw [← hfx, h]⟩
  · have := nearestEven_mono (p := ((-2 ^ 24 : ℤ) : ℝ)) (q := x / 2 ^ e) (by norm_num at q3 ⊢; linarith)
    rwa [nearestEven_int] at this
  · have := nearestEven_mono (p := x / 2 ^ e) (q := ((2 ^ 24 : ℤ) : ℝ)) (by norm_num at q4 ⊢; linarith)
    rwa [nearestEven_int] at this

/-- For a `float` and a scale that is a whole number of thousandths the products are exact. -/
theorem same_key_float {s x : ℝ} {N : ℤ} (hs : 1000 * s = N) (hN : |N| ≤ 2 ^ 29) (hx : toFloat x = x) : SameKey toDouble s x := by
  obtain ⟨m, k, hm, rfl⟩ := float_grid hx
  have a : toDouble (N : ℝ) = N := by
    have := toDouble_grid (m := N) (k := 0) (hN.trans (by norm_num))
    simpa using this
  have b : toDouble ((N : ℝ) * (m * 2 ^ k)) = N * (m * 2 ^ k) := by
    have := toDouble_grid (m := N * m) (k := k) (by
      rw [abs_mul]
      exact (mul_le_mul hN hm (abs_nonneg _) (by norm_num)).trans (by norm_num))
    push_cast at this
    rwa [mul_assoc] at this
  unfold SameKey
  rw [hs, a, b]

/-! ## Running both -/

/-- Both results are the same fault, or both are values in a relation. (Device of the proofs.) -/
def Rel {α β : Type} (R : α → β → Prop) : Exec α → Exec β → Prop
  | .ok a, .ok b => R a b
  | .error e, .error f => e = f
  | _, _ => False

theorem Rel.bind {α β γ δ : Type} {R : α → β → Prop} {S : γ → δ → Prop} {a : Exec α} {b : Exec β} {f : α → Exec γ} {g : β → Exec δ}
    (h : Rel R a b) (hf : ∀ x y, R x y → Rel S (f x) (g y)) : Rel S (a >>= f) (b >>= g) := by
  match a, b, h with
  | .ok x, .ok y, h => exact hf x y h
  | .error e, .error f, h => exact h

theorem Rel.refl {α : Type} (a : Exec α) : Rel Eq a a := by
  cases a with
  | ok a => exact rfl
  | error e => exact rfl

variable {e : ℝ}

theorem close_length {m' m : Mesh} (h : CloseMesh e m' m) : m'.points.length = m.points.length := h.2.length_eq

theorem vertexLoop_rel {scale : Vec3} {transform : Bool} {P' P : Transform3} : ∀ (vs : List Vec3) {m' m : Mesh}
    (_ : CloseMesh e m' m) (xyz : List ((ℤ × ℤ × ℤ) × ℤ)) (imap : List ℤ),
    (∀ v ∈ vs, key rnd scale v = Import.key scale v) →
    (∀ v ∈ vs, |(place rnd scale transform P' v).x - (Import.place scale transform P v).x| ≤ e ∧
      |(place rnd scale transform P' v).y - (Import.place scale transform P v).y| ≤ e ∧
      |(place rnd scale transform P' v).z - (Import.place scale transform P v).z| ≤ e) →
    Rel (fun a b => CloseMesh e a.1 b.1 ∧ a.2 = b.2) (vertexLoop rnd scale transform P' vs m' xyz imap)
      (Import.vertexLoop scale transform P vs m xyz imap)
  | [], m', m, h, xyz, imap, _, _ => ⟨h, rfl⟩
  | v :: vs, m', m, h, xyz, imap, hk, hp => by
    rw [vertexLoop, Import.vertexLoop, hk v (List.mem_cons_self ..)]
    refine (Rel.refl _).bind ?_
    rintro k _ rfl
    have hk' := fun w hw => hk w (List.mem_cons_of_mem _ hw)
    have hp' := fun w hw => hp w (List.mem_cons_of_mem _ hw)
    cases xyz.lookup k with
    | some i => exact vertexLoop_rel vs h xyz _ hk' hp'
    | none =>
      have hn : CloseMesh e (m'.addPoint (place rnd scale transform P' v)).1 (m.addPoint (Import.place scale transform P v)).1 :=
        ⟨h.1, List.rel_append h.2 (.cons (hp v (List.mem_cons_self ..)) .nil)⟩
      have hi : (m'.addPoint (place rnd scale transform P' v)).2 = (m.addPoint (Import.place scale transform P v)).2 :=
        congrArg u32 (close_length h)
      simp only [hi]
      exact vertexLoop_rel vs hn _ _ hk' hp'

theorem faceLoop_rel (imap : List ℤ) : ∀ (fs : List (List ℕ)) {m' m : Mesh} (_ : CloseMesh e m' m) (seen : List (ℤ × ℤ × ℤ)),
    Rel (CloseMesh e) (faceLoop imap fs m' seen) (faceLoop imap fs m seen)
  | [], m', m, h, seen => h
  | f :: fs, m', m, h, seen => by
    have skip := faceLoop_rel imap fs h seen
    match f with
    | [a, b, c] =>
      rw [faceLoop, faceLoop]
      refine (Rel.refl _).bind ?_
      rintro ix _ rfl
      refine (Rel.refl _).bind ?_
      rintro iy _ rfl
      refine (Rel.refl _).bind ?_
      rintro iz _ rfl
      split_ifs
      · exact skip
      · have hn : ∀ i j k, CloseMesh e (m'.addTriangle i j k) (m.addTriangle i j k) := by
          intro i j k
          refine ⟨?_, h.2⟩
          show m'.tris ++ _ = m.tris ++ _
          rw [h.1]
        exact faceLoop_rel imap fs (hn _ _ _) _
    | [] => simpa [faceLoop] using skip
    | [a] => simpa [faceLoop] using skip
    | [a, b] => simpa [faceLoop] using skip
    | a :: b :: c :: d :: l => simpa [faceLoop] using skip

/-- What is needed of a mesh that is shown. (Device of the proofs.) -/
def Good (rnd : ℝ → ℝ) (e : ℝ) (scene : List AiMesh) (scale : Vec3) (transform : Bool) (k : ℕ) (P' P : Transform3) : Prop :=
  ∀ m, scene[k]? = some m → ∀ v ∈ m.vertices, key rnd scale v = Import.key scale v ∧
    |(place rnd scale transform P' v).x - (Import.place scale transform P v).x| ≤ e ∧
    |(place rnd scale transform P' v).y - (Import.place scale transform P v).y| ≤ e ∧
    |(place rnd scale transform P' v).z - (Import.place scale transform P v).z| ≤ e

theorem addMesh_rel {scene : List AiMesh} {scale : Vec3} {transform : Bool} {k : ℕ} {P' P : Transform3}
    (hg : Good rnd e scene scale transform k P' P) {m' m : Mesh} (h : CloseMesh e m' m) :
    Rel (CloseMesh e) (addMesh rnd scene scale transform P' m' k) (Import.addMesh scene scale transform P m k) := by
  unfold addMesh Import.addMesh vget
  cases hs : scene[k]? with
  | none => exact rfl
  | some am =>
    refine Rel.bind (R := fun a b => a = b ∧ a = am) ⟨rfl, rfl⟩ ?_
    rintro _ _ ⟨rfl, rfl⟩
    refine (vertexLoop_rel _ h [] [] (fun v hv => (hg _ hs v hv).1) fun v hv => (hg _ hs v hv).2).bind ?_
    rintro ⟨a, i⟩ ⟨b, j⟩ ⟨hab, rfl : i = j⟩
    exact faceLoop_rel i _ hab []

theorem fold_rel {scene : List AiMesh} {scale : Vec3} {transform : Bool} {P' P : Transform3} : ∀ (ks : List ℕ)
    (_ : ∀ k ∈ ks, Good rnd e scene scale transform k P' P) {m' m : Mesh} (_ : CloseMesh e m' m),
    Rel (CloseMesh e) (ks.foldlM (addMesh rnd scene scale transform P') m') (ks.foldlM (Import.addMesh scene scale transform P) m)
  | [], _, m', m, h => h
  | k :: ks, hg, m', m, h => by
    rw [List.foldlM_cons, List.foldlM_cons]
    refine (addMesh_rel (hg k (List.mem_cons_self ..)) h).bind ?_
    intro a b hab
    exact fold_rel ks (fun k hk => hg k (List.mem_cons_of_mem _ hk)) hab

mutual

theorem construct_rel {scene : List AiMesh} {scale : Vec3} {transform : Bool} : ∀ (n : AiNode) (P' P : Transform3)
    (_ : ∀ k path, PlacedBy n k path → Good rnd e scene scale transform k (path.foldl (fun P t => Rounded.mul rnd P t.pose) P')
      (path.foldl (fun P t => P.mul t.pose) P)) (m' m : Mesh) (_ : CloseMesh e m' m),
    Rel (CloseMesh e) (constructMesh rnd scene scale transform n P' m') (Import.constructMesh scene scale transform n P m)
  | .mk t children meshes, P', P, hg, m', m, h => by
    rw [constructMesh, Import.constructMesh]
    refine Rel.bind (R := CloseMesh e) ?_ ?_
    · exact children_rel children _ _ (fun c hc k path hp => hg k (t :: path) (.child hc hp)) m' m h
    · intro a b hab
      exact fold_rel meshes (fun k hk => hg k [t] (.here hk)) hab

theorem children_rel {scene : List AiMesh} {scale : Vec3} {transform : Bool} : ∀ (ns : List AiNode) (P' P : Transform3)
    (_ : ∀ c ∈ ns, ∀ k path, PlacedBy c k path → Good rnd e scene scale transform k
      (path.foldl (fun P t => Rounded.mul rnd P t.pose) P') (path.foldl (fun P t => P.mul t.pose) P)) (m' m : Mesh) (_ : CloseMesh e m' m),
    Rel (CloseMesh e) (constructChildren rnd scene scale transform ns P' m') (Import.constructChildren scene scale transform ns P m)
  | [], P', P, _, m', m, h => by
    rw [constructChildren, Import.constructChildren]
    exact h
  | n :: ns, P', P, hg, m', m, h => by
    rw [constructChildren, Import.constructChildren]
    refine Rel.bind (construct_rel n P' P (hg n (List.mem_cons_self ..)) m' m h) ?_
    intro a b hab
    exact children_rel ns P' P (fun c hc => hg c (List.mem_cons_of_mem _ hc)) a b hab

end

/-- Everything together, for a parent pose with an error. -/
theorem import_rel (hr : RelErr u rnd) {scene : List AiMesh} {scale : Vec3} {transform : Bool} {root : AiNode}
    {P' P A : Transform3} {j n : ℕ} {B : ℝ} (hP : PoseW ((1 + u) ^ j) P' P A) (hk : KeysAgree rnd scene scale root)
    (hb : TermsWithin B n scene scale transform root A) :
    Rel (CloseMesh (((1 + u) ^ (4 * n + 5 + j) - 1) * B)) (constructMesh rnd scene scale transform root P' Mesh.new)
      (Import.constructMesh scene scale transform root P Mesh.new) := by
  have hu0 := relErr_nonneg hr
  have h1 : 1 ≤ 1 + u := by linarith
  refine construct_rel root P' P ?_ _ _ ⟨rfl, .nil⟩
  intro k path hp am hs v hv
  obtain ⟨c1, c2, c3⟩ := hk k path hp am hs v hv
  obtain ⟨hn, hB⟩ := hb k path hp
  obtain ⟨b1, b2, b3⟩ := hB am hs v hv
  refine ⟨key_eq c1 c2 c3, ?_⟩
  have w := placeW hr ((one_le_pow₀ h1).trans (grow hu0 (one_le_pow₀ h1) _)) (chainW hr path (one_le_pow₀ h1) hP) scale transform v
  have g : (1 + u) ^ j * (1 + u) ^ (4 * path.length) * (1 + u) ^ 5 ≤ (1 + u) ^ (4 * n + 5 + j) := by
    rw [← pow_add, ← pow_add]
    exact pow_le_pow_right₀ h1 (by omega)
  have fin : ∀ {p q m : ℝ}, W ((1 + u) ^ j * (1 + u) ^ (4 * path.length) * (1 + u) ^ 5) p q m → m ≤ B →
      |p - q| ≤ ((1 + u) ^ (4 * n + 5 + j) - 1) * B := by
    intro p q m hw hm
    refine (hw.mono g).1.trans (mul_le_mul_of_nonneg_left hm ?_)
    have := one_le_pow₀ h1 (n := 4 * n + 5 + j)
    linarith
  exact ⟨fin w.1 b1, fin w.2.1 b2, fin w.2.2 b3⟩

/-- The pose that compensates for the root of a Collada file. -/
theorem rootW (hr : RelErr u rnd) (hu : u ≤ 1 / 1000) {R m : Mat3} {s : Fin 3 → ℝ} (hs : Stretched R m s) (hR : UnitColumns R) (t : Vec3) :
    PoseW ((1 + u) ^ 7) (Rounded.inverse rnd ⟨RoundedNormalize.matNormalized rnd m, t⟩) (Transform3.inverse ⟨R, t⟩)
      ⟨absMat R.transpose, (absMat R.transpose).mulVec (absVec t)⟩ := by
  have hu0 := relErr_nonneg hr
  obtain ⟨pos, str⟩ := hs
  have bern : 3.6 * u ≤ (1 + u) ^ 4 - 1 := by
    have := one_add_mul_le_pow (show (-2 : ℝ) ≤ u by linarith) 4
    push_cast at this
    linarith
  have w : ∀ {p q : ℝ}, |p - q| ≤ 3.6 * u * |q| → W ((1 + u) ^ 4) p q |q| := fun h =>
    ⟨h.trans (mul_le_mul_of_nonneg_right bern (abs_nonneg _)), le_rfl⟩
  have col : ∀ j, ∀ d : Vec3, d.x = s j * M R 0 j → d.y = s j * M R 1 j → d.z = s j * M R 2 j →
      |(Rounded.normalized rnd d).x - M R 0 j| ≤ 3.6 * u * |M R 0 j| ∧ |(Rounded.normalized rnd d).y - M R 1 j| ≤ 3.6 * u * |M R 1 j| ∧
      |(Rounded.normalized rnd d).z - M R 2 j| ≤ 3.6 * u * |M R 2 j| := by
    intro j d h0 h1 h2
    exact RoundedBox.normalized_err hr hu (d := d) (e := ⟨M R 0 j, M R 1 j, M R 2 j⟩) ⟨hR j, s j, pos j, h0, h1, h2⟩
  obtain ⟨a0, a1, a2⟩ := col 0 (m.getColumn 0) (str 0 0) (str 1 0) (str 2 0)
  obtain ⟨b0, b1, b2⟩ := col 1 (m.getColumn 1) (str 0 1) (str 1 1) (str 2 1)
  obtain ⟨c0, c1, c2⟩ := col 2 (m.getColumn 2) (str 0 2) (str 1 2) (str 2 2)
  have mw : MatW ((1 + u) ^ 4) (RoundedNormalize.matNormalized rnd m).transpose R.transpose (absMat R.transpose) :=
    ⟨w a0, w a1, w a2, w b0, w b1, w b2, w c0, w c1, w c2⟩
  have h1 : 1 ≤ (1 + u) ^ 4 := one_le_pow₀ (by linarith)
  have v := mw.vec hr h1 (-t)
  rw [show absVec (-t) = absVec t by unfold absVec; ext <;> exact abs_neg _, ← pow_add] at v
  exact ⟨mw.mono (pow_le_pow_right₀ (by linarith) (by norm_num)), v⟩

theorem Rel.ok {α β : Type} {R : α → β → Prop} {a : Exec α} {b : Exec β} (h : Rel R a b) {y : β} (hb : b = .ok y) :
    ∃ x, a = .ok x ∧ R x y := by
  subst hb
  match a, h with
  | .ok x, h => exact ⟨x, rfl, h⟩

theorem Rel.error {α β : Type} {R : α → β → Prop} {a : Exec α} {b : Exec β} (h : Rel R a b) {f : Fault} (hb : b = .error f) :
    a = .error f := by
  subst hb
  match a, h with
  | .error g, h => exact congrArg _ h

/-! ## Without rounding -/

theorem vertexLoop_id (scale : Vec3) (transform : Bool) (pose : Transform3) : ∀ (vs : List Vec3) (m : Mesh) (xyz : List ((ℤ × ℤ × ℤ) × ℤ))
    (imap : List ℤ), vertexLoop id scale transform pose vs m xyz imap = Import.vertexLoop scale transform pose vs m xyz imap
  | [], m, xyz, imap => rfl
  | v :: vs, m, xyz, imap => by
    rw [vertexLoop, Import.vertexLoop]
    simp only [vertexLoop_id scale transform pose vs]
    rfl

theorem addMesh_id (scene : List AiMesh) (scale : Vec3) (transform : Bool) (pose : Transform3) :
    addMesh id scene scale transform pose = Import.addMesh scene scale transform pose := by
  funext m k
  unfold addMesh Import.addMesh
  simp only [vertexLoop_id]

mutual

theorem construct_id (scene : List AiMesh) (scale : Vec3) (transform : Bool) : ∀ (n : AiNode) (P : Transform3) (m : Mesh),
    constructMesh id scene scale transform n P m = Import.constructMesh scene scale transform n P m
  | .mk t children meshes, P, m => by
    rw [constructMesh, Import.constructMesh]
    simp only [addMesh_id, children_id scene scale transform children]
    rfl

theorem children_id (scene : List AiMesh) (scale : Vec3) (transform : Bool) : ∀ (ns : List AiNode) (P : Transform3) (m : Mesh),
    constructChildren id scene scale transform ns P m = Import.constructChildren scene scale transform ns P m
  | [], P, m => by rw [constructChildren, Import.constructChildren]
  | n :: ns, P, m => by
    rw [constructChildren, Import.constructChildren]
    simp only [construct_id scene scale transform n, children_id scene scale transform ns]

end

end Geo.RoundedImport
