import Verif.Lemmas.RoundedOctreeRayEnds

/-!
# Helper lemmas for the cubes that rays meet in octrees in floating point arithmetic
-/

namespace Geo

open Spec

namespace OctreeRay

/-- Normalising again a direction that is nearly normalised. -/
theorem renorm {E v : Vec3} {q : ℝ} (hE : E.x ^ 2 + E.y ^ 2 + E.z ^ 2 = 1) (h8 : 8 / 2 ^ 53 ≤ q) (hq : q ≤ 1 / 2 ^ 25)
    (hx : |v.x - E.x| ≤ q * |E.x|) (hy : |v.y - E.y| ≤ q * |E.y|) (hz : |v.z - E.z| ≤ q * |E.z|) :
    |(Rounded.normalized toDouble v).x - E.x| ≤ 3 * q * |E.x| ∧ |(Rounded.normalized toDouble v).y - E.y| ≤ 3 * q * |E.y| ∧
      |(Rounded.normalized toDouble v).z - E.z| ≤ 3 * q * |E.z| := by
  have hq0 : 0 < q := by norm_num at h8 ⊢; linarith
  have hq1 : q ≤ 1 / 1000 := by norm_num at hq ⊢; linarith
  have k : ∀ a b : ℝ, |a - b| ≤ q * |b| → (1 - q) ^ 2 * b ^ 2 ≤ a ^ 2 ∧ a ^ 2 ≤ (1 + q) ^ 2 * b ^ 2 := by
    intro a b h
    have h1 := abs_sub_abs_le_abs_sub b a
    rw [abs_sub_comm] at h1
    have h2 := abs_sub_abs_le_abs_sub a b
    rw [← sq_abs a, ← sq_abs b, ← mul_pow, ← mul_pow]
    have hb := abs_nonneg b
    exact ⟨pow_le_pow_left₀ (mul_nonneg (by linarith) hb) (by linarith) 2, pow_le_pow_left₀ (abs_nonneg a) (by linarith) 2⟩
  obtain ⟨l, hl0, hl⟩ : ∃ l : ℝ, 0 ≤ l ∧ l ^ 2 = v.x ^ 2 + v.y ^ 2 + v.z ^ 2 := ⟨_, Real.sqrt_nonneg _, Real.sq_sqrt (by positivity)⟩
  have l1 : 1 - q ≤ l := by
    refine le_of_sq_le_sq ?_ hl0
    nlinarith [(k _ _ hx).1, (k _ _ hy).1, (k _ _ hz).1]
  have l2 : l ≤ 1 + q := by
    refine le_of_sq_le_sq ?_ (by linarith)
    nlinarith [(k _ _ hx).2, (k _ _ hy).2, (k _ _ hz).2]
  have hlp : 0 < l := by linarith
  have he : UnitAlong v ⟨v.x / l, v.y / l, v.z / l⟩ := by
    refine ⟨?_, l, hlp, ?_, ?_, ?_⟩
    · simp only [div_pow]
      rw [← add_div, ← add_div, ← hl]
      exact div_self (by positivity)
    all_goals simp only; field_simp
  obtain ⟨nx, ny, nz⟩ := RoundedBox.normalized_err (u := 1 / 2 ^ 53) (rnd := toDouble)
    (fun x => by have := toDouble_near x; rw [one_div_mul_eq_div]; exact this) (by norm_num) he
  have key : ∀ n a b : ℝ, |a - b| ≤ q * |b| → |n - a / l| ≤ 3.6 * (1 / 2 ^ 53) * |a / l| → |n - b| ≤ 3 * q * |b| := by
    intro n a b h1 h2
    have hb := abs_nonneg b
    have h3 : |a / l - b| ≤ 2.01 * q * |b| := by
      rw [show a / l - b = (a - l * b) / l by field_simp, abs_div, abs_of_pos hlp, div_le_iff₀ hlp]
      have h4 : |a - l * b| ≤ q * |b| + q * |b| := by
        rw [show a - l * b = (a - b) + (1 - l) * b by ring]
        refine (abs_add_le _ _).trans (add_le_add h1 ?_)
        rw [abs_mul]
        exact mul_le_mul_of_nonneg_right (abs_le.2 ⟨by linarith, by linarith⟩) hb
      refine h4.trans ?_
      have : 0 ≤ q * |b| := by positivity
      nlinarith
    have h5 : |a / l| ≤ 2 * |b| := by
      have := abs_sub_abs_le_abs_sub (a / l) b
      have h6 : 2.01 * q * |b| ≤ 1 * |b| := mul_le_mul_of_nonneg_right (by norm_num at hq1 ⊢; linarith) hb
      linarith
    have h7 : 3.6 * (1 / 2 ^ 53) * |a / l| ≤ 0.95 * q * |b| := by
      have : 7.2 * (1 / 2 ^ 53) * |b| ≤ 0.95 * q * |b| := mul_le_mul_of_nonneg_right (by norm_num at h8 ⊢; linarith) hb
      norm_num at h5 this ⊢
      linarith
    have := abs_sub_le n (a / l) b
    have : 0 ≤ q * |b| := by positivity
    norm_num at *
    linarith
  exact ⟨key _ _ _ hx nx, key _ _ _ hy ny, key _ _ _ hz nz⟩

/-- A computed point of the ray, on one axis. -/
theorem probe {T a q B o v t O E : ℝ} (ht0 : 0 ≤ t) (ht : t ≤ T) (hB : |o| ≤ B) (hBT : B ≤ T) (ho : |o - O| ≤ a) (hE : |E| ≤ 1) (hv : |v - E| ≤ q * |E|)
    (hq : q ≤ 1 / 2 ^ 25) (ha : a ≤ T / 2 ^ 35) : |toDouble (o + toDouble (v * t)) - (O + t * E)| ≤ T / 2 ^ 24 := by
  have hT0 : 0 ≤ T := ht0.trans ht
  have e0 := abs_nonneg E
  have v1 : |v| ≤ 2 := by
    have := abs_sub_abs_le_abs_sub v E
    have : q * |E| ≤ 1 / 2 ^ 25 * 1 := mul_le_mul hq hE e0 (by norm_num)
    norm_num at this
    linarith
  have w1 : |v * t| ≤ 2 * T := by
    rw [abs_mul, abs_of_nonneg ht0]
    exact mul_le_mul v1 ht ht0 (by norm_num)
  have w2 : |v * t - t * E| ≤ T / 2 ^ 25 := by
    rw [show v * t - t * E = (v - E) * t by ring, abs_mul, abs_of_nonneg ht0]
    have h1 : |v - E| ≤ 1 / 2 ^ 25 := hv.trans (by
      calc q * |E| ≤ 1 / 2 ^ 25 * 1 := mul_le_mul hq hE e0 (by norm_num)
        _ = 1 / 2 ^ 25 := mul_one _)
    calc |v - E| * t ≤ 1 / 2 ^ 25 * T := mul_le_mul h1 ht ht0 (by norm_num)
      _ = T / 2 ^ 25 := by ring
  have n1 : |toDouble (v * t) - v * t| ≤ 2 * T / 2 ^ 53 := (toDouble_near (v * t)).trans (div_le_div_of_nonneg_right w1 (by norm_num))
  have s1 : |o + toDouble (v * t)| ≤ 4 * T := by
    have h1 := abs_add_le o (toDouble (v * t))
    have h2 := abs_sub_abs_le_abs_sub (toDouble (v * t)) (v * t)
    norm_num at n1 w1
    rw [← abs_mul] at w1
    linarith
  have n2 : |toDouble (o + toDouble (v * t)) - (o + toDouble (v * t))| ≤ 4 * T / 2 ^ 53 :=
    (toDouble_near _).trans (div_le_div_of_nonneg_right s1 (by norm_num))
  have z1 := abs_le.1 w2
  have z2 := abs_le.1 n1
  have z3 := abs_le.1 n2
  have z4 := abs_le.1 ho
  norm_num at ha z1 z2 z3 z4 ⊢
  rw [abs_le]
  constructor <;> linarith

/-- What is kept along the search: the node is not too far from the ray, and the ray is nearly that from `O` along `E`. (Device of the proofs.) -/
structure Fit (res : ℝ) (O E : Vec3) (k : ℕ) (s B a q : ℝ) (off : Vec3) (r : Ray) : Prop where
  pos : 0 < s
  dbl : toDouble s = s
  org : |r.origin.x| ≤ B ∧ |r.origin.y| ≤ B ∧ |r.origin.z| ≤ B
  far : 4 * (B + s) * (1 + k / 2 ^ 52) ≤ 2 ^ 18 * res
  lev : (k : ℝ) ≤ 2 ^ 10
  near : |r.origin.x - (O.x - off.x)| ≤ a ∧ |r.origin.y - (O.y - off.y)| ≤ a ∧ |r.origin.z - (O.z - off.z)| ≤ a
  acc : a + k * (2 ^ 18 * res / 2 ^ 53) ≤ 2 ^ 18 * res / 2 ^ 35
  dir : |r.direction.x - E.x| ≤ q * |E.x| ∧ |r.direction.y - E.y| ≤ q * |E.y| ∧ |r.direction.z - E.z| ≤ q * |E.z|
  big : 8 / 2 ^ 53 ≤ q
  small : q * 3 ^ k ≤ 1 / 2 ^ 25

variable {res : ℝ} {O E off : Vec3} {k : ℕ} {s B a q : ℝ} {r : Ray}

theorem Fit.q_le (h : Fit res O E k s B a q off r) : q ≤ 1 / 2 ^ 25 := by
  have h1 := h.big
  have hq : 0 ≤ q := by norm_num at h1 ⊢; linarith
  exact (le_mul_of_one_le_right hq (one_le_pow₀ (by norm_num))).trans h.small

theorem Fit.far' (h : Fit res O E k s B a q off r) : 4 * (B + s) ≤ 2 ^ 18 * res := by
  have := (abs_nonneg _).trans h.org.1
  have := h.pos
  refine le_trans (le_mul_of_one_le_right (by positivity) ?_) h.far
  have : (0 : ℝ) ≤ k / 2 ^ 52 := by positivity
  linarith

theorem Fit.long (h : Fit res O E k s B a q off r) (hE : E.x ^ 2 + E.y ^ 2 + E.z ^ 2 = 1) : Long r.direction := by
  have hq := h.q_le
  have key : ∀ a b : ℝ, |a - b| ≤ q * |b| → 0.57 ≤ |b| → 1 / 2 ≤ |a| := by
    intro a b h1 h2
    have h3 := abs_sub_abs_le_abs_sub b a
    rw [abs_sub_comm] at h3
    have h4 : q * |b| ≤ 1 / 2 ^ 25 * |b| := mul_le_mul_of_nonneg_right hq (abs_nonneg b)
    norm_num at h4 h2 ⊢
    linarith
  rcases long_unit hE with a | a | a
  · exact Or.inl (key _ _ h.dir.1 a)
  · exact Or.inr (Or.inl (key _ _ h.dir.2.1 a))
  · exact Or.inr (Or.inr (key _ _ h.dir.2.2 a))

/-- The child of an octant. -/
theorem Fit.child (h : Fit res O E (k + 1) s B a q off r) (hr : 0 < res) (hE : E.x ^ 2 + E.y ^ 2 + E.z ^ 2 = 1) (x y z : Bool) :
    Fit res O E k (s / 2) ((B + s / 2) * (1 + 1 / 2 ^ 53)) (a + 2 ^ 18 * res / 2 ^ 53) (3 * q) (off + OctNode.shift s x y z)
      (Rounded.rayNew toDouble (Rounded.sub toDouble r.origin (Rounded.octShift toDouble s x y z)) r.direction) := by
  have hp := h.pos
  have hB0 := (abs_nonneg _).trans h.org.1
  have hd := h.dbl
  have hfar := h.far'
  have hk0 : (0 : ℝ) ≤ k := Nat.cast_nonneg k
  have hlev := h.lev
  push_cast at hlev
  have a1 : ∀ (o : ℝ) (b : Bool), |o| ≤ B → |o - if b then toDouble (s / 2) else 0| ≤ B + s / 2 := by
    intro o b ho
    obtain ⟨o1, o2⟩ := abs_le.1 ho
    rw [toDouble_half hd]
    cases b
    · simp only [Bool.false_eq_true, if_false, sub_zero]
      linarith
    · simp only [if_true]
      exact abs_le.2 ⟨by linarith, by linarith⟩
  have hb : ∀ (o : ℝ) (b : Bool), |o| ≤ B → |toDouble (o - if b then toDouble (s / 2) else 0)| ≤ (B + s / 2) * (1 + 1 / 2 ^ 53) := by
    intro o b ho
    have a0 := a1 o b ho
    have a2 := toDouble_near (o - if b then toDouble (s / 2) else 0)
    have a3 := abs_sub_abs_le_abs_sub (toDouble (o - if b then toDouble (s / 2) else 0)) (o - if b then toDouble (s / 2) else 0)
    norm_num at a0 a2 a3 ⊢
    linarith
  have hn : ∀ (o c f : ℝ) (b : Bool), |o| ≤ B → |o - (c - f)| ≤ a →
      |toDouble (o - if b then toDouble (s / 2) else 0) - (c - (f + if b then s / 2 else 0))| ≤ a + 2 ^ 18 * res / 2 ^ 53 := by
    intro o c f b ho hc
    have a0 := a1 o b ho
    have a2 := abs_le.1 (toDouble_near (o - if b then toDouble (s / 2) else 0))
    have a3 : |o - if b then toDouble (s / 2) else 0| / 2 ^ 53 ≤ 2 ^ 18 * res / 2 ^ 53 := div_le_div_of_nonneg_right (by linarith) (by norm_num)
    have a4 := abs_le.1 hc
    rw [toDouble_half hd] at a2 a3 ⊢
    exact abs_le.2 ⟨by linarith [a2.1, a4.1], by linarith [a2.2, a4.2]⟩
  have hren := renorm hE h.big h.q_le h.dir.1 h.dir.2.1 h.dir.2.2
  refine ⟨by positivity, toDouble_half hd, ⟨hb _ x h.org.1, hb _ y h.org.2.1, hb _ z h.org.2.2⟩, ?_, by linarith,
    ⟨hn _ _ _ x h.org.1 h.near.1, hn _ _ _ y h.org.2.1 h.near.2.1, hn _ _ _ z h.org.2.2 h.near.2.2⟩, ?_, hren, ?_, ?_⟩
  · have hT := h.far
    refine le_trans ?_ hT
    push_cast
    rw [add_div]
    have q0 : 0 ≤ (k : ℝ) / 2 ^ 52 := by positivity
    have q1 : (k : ℝ) / 2 ^ 52 ≤ 1 := by rw [div_le_one (by positivity)]; exact (show (k : ℝ) ≤ 2 ^ 10 by linarith).trans (by norm_num)
    obtain ⟨w, hw⟩ : ∃ q, q = (k : ℝ) / 2 ^ 52 := ⟨_, rfl⟩
    rw [← hw] at q0 q1 ⊢
    have g1 : (B + s / 2) * (1 + 1 / 2 ^ 53) + s / 2 ≤ (B + s) * (1 + 1 / 2 ^ 53) := by
      norm_num
      linarith
    have g2 : (1 + 1 / 2 ^ 53) * (1 + w) ≤ 1 + (w + 1 / 2 ^ 52) := by
      norm_num
      linarith
    calc 4 * ((B + s / 2) * (1 + 1 / 2 ^ 53) + s / 2) * (1 + w) ≤ 4 * ((B + s) * (1 + 1 / 2 ^ 53)) * (1 + w) :=
          mul_le_mul_of_nonneg_right (by linarith) (by linarith)
      _ = 4 * (B + s) * ((1 + 1 / 2 ^ 53) * (1 + w)) := by ring
      _ ≤ 4 * (B + s) * (1 + (w + 1 / 2 ^ 52)) := mul_le_mul_of_nonneg_left g2 (by positivity)
  · have := h.acc
    push_cast at this
    linarith
  · have := h.big
    have : 0 ≤ q := by norm_num at this ⊢; linarith
    linarith [h.big]
  · have := h.small
    rw [pow_succ] at this
    linarith

/-- The computed point is that of the ray. -/
theorem Fit.probe (h : Fit res O E k s B a q off r) (hr : 0 < res) (hE : E.x ^ 2 + E.y ^ 2 + E.z ^ 2 = 1) {t : ℝ} (h0 : 0 ≤ t) (ht : t ≤ 2 ^ 18 * res) :
    Moved (res / 64) (Rounded.add toDouble r.origin ⟨toDouble (r.direction.x * t), toDouble (r.direction.y * t), toDouble (r.direction.z * t)⟩)
      (along (O - off) E t) := by
  have hB := (abs_nonneg _).trans h.org.1
  have hp := h.pos
  have hfar := h.far'
  have ha : a ≤ 2 ^ 18 * res / 2 ^ 35 := by
    have := h.acc
    have : 0 ≤ (k : ℝ) * (2 ^ 18 * res / 2 ^ 53) := by positivity
    linarith
  have e : res / 64 = 2 ^ 18 * res / 2 ^ 24 := by
    rw [show (2 : ℝ) ^ 24 = 2 ^ 18 * 64 by norm_num]
    field_simp
  have k1 : ∀ c d e : ℝ, c ^ 2 + d ^ 2 + e ^ 2 = 1 → |c| ≤ 1 := by
    intro c d e h
    exact abs_le_one_iff_mul_self_le_one.2 (by nlinarith [sq_nonneg d, sq_nonneg e])
  rw [e]
  exact ⟨OctreeRay.probe h0 ht h.org.1 (by linarith) h.near.1 (k1 _ E.y E.z hE) h.dir.1 h.q_le ha,
    OctreeRay.probe h0 ht h.org.2.1 (by linarith) h.near.2.1 (k1 _ E.x E.z (by linarith)) h.dir.2.1 h.q_le ha,
    OctreeRay.probe h0 ht h.org.2.2 (by linarith) h.near.2.2 (k1 _ E.x E.y (by linarith)) h.dir.2.2 h.q_le ha⟩

/-- The ray passes by the box, not before `m`. (Device of the proofs.) -/
def Pass (res m : ℝ) (O E : Vec3) (b : Box) : Prop := ∃ t, m ≤ t ∧ InWide (res / 64) b (along O E t)

/-- The octant of the computed point. -/
theorem octant_pass {o : Vec3} {t m : ℝ} (ho : ¬ OctNode.Outside s o) (hm : Moved (res / 64) o (along (O - off) E t)) (h0 : m ≤ t) (x y z : Bool)
    (hx : x = decide (o.x ≥ s / 2)) (hy : y = decide (o.y ≥ s / 2)) (hz : z = decide (o.z ≥ s / 2)) :
    Pass res m O E (Box.new (off + OctNode.shift s x y z) (off + OctNode.shift s x y z + ⟨s / 2, s / 2, s / 2⟩)) := by
  have hc : ∀ (b : Bool) (c f p : ℝ), 0 ≤ c → c ≤ s → b = decide (c ≥ s / 2) → |c - (p - f)| ≤ res / 64 →
      (f + if b then s / 2 else 0) - res / 64 ≤ p ∧ p ≤ (f + (if b then s / 2 else 0) + s / 2) + res / 64 := by
    intro b c f p h1 h2 hb h3
    subst hb
    obtain ⟨h4, h5⟩ := abs_le.1 h3
    by_cases h : c ≥ s / 2
    · simp only [h, decide_true, if_true]
      constructor <;> linarith
    · simp only [h, decide_false, Bool.false_eq_true, if_false]
      constructor <;> linarith
  unfold OctNode.Outside at ho
  push Not at ho
  obtain ⟨a1, a2, a3, a4, a5, a6⟩ := ho
  obtain ⟨m1, m2, m3⟩ := hm
  have e : ∀ a b c : ℝ, a - b + c = a + c - b := fun a b c => by ring
  have c1 := hc x o.x off.x (O.x + t * E.x) a1 a4 hx (by rw [← e]; exact m1)
  have c2 := hc y o.y off.y (O.y + t * E.y) a2 a5 hy (by rw [← e]; exact m2)
  have c3 := hc z o.z off.z (O.z + t * E.z) a3 a6 hz (by rw [← e]; exact m3)
  exact ⟨t, h0, c1.1, c1.2, c2.1, c2.2, c3.1, c3.2⟩

/-- A hit is near the ray. -/
theorem nodeRay_near {t1 m : ℝ} (hr : 0 < res) (hm0 : 0 ≤ m) (hE : E.x ^ 2 + E.y ^ 2 + E.z ^ 2 = 1) : ∀ (n k : ℕ) (s B a q : ℝ) (off : Vec3) (r : Ray) (c : OctNode) (t0 d d' : ℝ),
    Fit res O E k s B a q off r → OctNode.WF k s c → m ≤ t0 → (∀ ch, c = .node s true ch → Pass res m O E (Box.new off (off + ⟨s, s, s⟩))) →
    Rounded.nodeRay toDouble toFloat res n c r t0 t1 d = .ok (true, d') → ∃ b ∈ c.getCubes off, Pass res m O E b := by
  intro n
  induction n with
  | zero =>
    intro k s B a q off r c t0 d d' _ _ _ _ h
    simp [Rounded.nodeRay] at h
  | succ n ih =>
    intro k s B a q off r c t0 d d' hf hw hmt hin h
    have h0 := hm0.trans hmt
    cases c with
    | null => simp [Rounded.nodeRay] at h
    | node s' occ ch =>
      have hs' : s' = s := by cases k <;> exact hw.1
      subst hs'
      by_cases hocc : occ = true
      · subst hocc
        refine ⟨_, ?_, hin ch rfl⟩
        unfold OctNode.getCubes
        simp
      unfold Rounded.nodeRay at h
      rw [if_neg hocc] at h
      obtain ⟨o, ho'⟩ : ∃ o, o = Rounded.add toDouble r.origin
          ⟨toDouble (r.direction.x * t0), toDouble (r.direction.y * t0), toDouble (r.direction.z * t0)⟩ := ⟨_, rfl⟩
      simp only [← ho', toDouble_half hf.dbl] at h
      by_cases ho : OctNode.Outside s' o
      · rw [if_pos (by rw [← ho']; exact ho)] at h
        simp at h
      rw [if_neg (by rw [← ho']; exact ho)] at h
      have ht : t0 ≤ 2 ^ 18 * res := by
        by_contra hc
        refine ho ?_
        rw [ho']
        exact ray_out hf.pos hf.org (hf.long hE) (by linarith [hf.far'])
      have hm := hf.probe hr hE h0 ht
      rw [← ho'] at hm
      classical
      obtain ⟨x, hx⟩ : ∃ x, x = decide (o.x ≥ s' / 2) := ⟨_, rfl⟩
      obtain ⟨y, hy⟩ : ∃ y, y = decide (o.y ≥ s' / 2) := ⟨_, rfl⟩
      obtain ⟨z, hz⟩ : ∃ z, z = decide (o.z ≥ s' / 2) := ⟨_, rfl⟩
      have he := exit_nonpos hf.dbl ho r.direction (toFloat (t1 - t0)) x y z hx hy hz
      have hpass := octant_pass ho hm hmt x y z hx hy hz
      simp only [← hx, ← hy, ← hz] at h
      have hstep := step_far hr h0 ht he
      have hrec : ∀ d d', Rounded.nodeRay toDouble toFloat res n (.node s' occ ch) r
          (toFloat (toDouble (toDouble (t0 - Rounded.exitDist toDouble toFloat s' x y z o r.direction (toFloat (t1 - t0))) + toDouble (res * toDouble 0.1))))
          t1 d = .ok (true, d') → ∃ b ∈ (OctNode.node s' occ ch).getCubes off, Pass res m O E b := by
        intro d d' h
        refine ih k s' B a q off r _ _ d d' hf hw (by linarith) ?_ h
        intro ch' hc
        simp only [OctNode.node.injEq] at hc
        exact absurd hc.2.1 hocc
      cases hc : ch (OctNode.index x y z) with
      | null =>
        simp only [hc] at h
        exact hrec _ _ h
      | node c1 c2 c3 =>
        simp only [hc] at h
        split at h
        · cases h
        · rename_i d'' hb
          cases k with
          | zero => exact absurd (hw.2 (OctNode.index x y z)) (by rw [hc]; simp)
          | succ k =>
            have hw' := hw.2.2 (OctNode.index x y z)
            rw [hc] at hw'
            obtain ⟨b, hb1, hb2⟩ := ih k _ _ _ _ _ _ _ _ _ _ (hf.child hr hE x y z) hw' hmt (fun _ _ => hpass) hb
            refine ⟨b, ?_, hb2⟩
            unfold OctNode.getCubes
            rw [if_neg hocc, List.mem_flatMap]
            exact ⟨(x, y, z), all_octants x y z, by rw [hc]; exact hb1⟩
        · exact hrec _ _ h

/-- A hit in a tree with more than one cell is near the ray. -/
theorem octRay_near {size : ℝ} {t : Octree} (h : Octree.Good k size t) (hs : toDouble size = size) {o d e : Vec3} (he : UnitAlong d e) {B : ℝ}
    (hB : |o.x| ≤ B ∧ |o.y| ≤ B ∧ |o.z| ≤ B) (hT : B + 2 * size ≤ 2 ^ 15 * t.resolution) (hc : t.resolution < size) {t0 : ℝ} (h0 : 0 ≤ t0) {t1 d0 d' : ℝ}
    (hit : Rounded.octRay toDouble toFloat t (Rounded.rayNew toDouble o d) t0 t1 d0 = .ok (true, d')) :
    ∃ b ∈ Rounded.octCubes toDouble t, ∃ s, t0 ≤ s ∧ InWide (t.resolution / 32) b (along o e s) := by
  have hr := h.pos
  have hp := h.size_pos
  have hB0 := (abs_nonneg _).trans hB.1
  have hres := h.res
  have hk : (2 : ℝ) ^ k ≤ 2 ^ 14 := by
    refine le_of_mul_le_mul_left ?_ hr
    linarith
  have hk' : k ≤ 14 := (pow_le_pow_iff_right₀ (by norm_num : (1 : ℝ) < 2)).1 hk
  have hk'' : (k : ℝ) ≤ 14 := by exact_mod_cast hk'
  have hk0 : k ≠ 0 := by
    rintro rfl
    rw [pow_zero, mul_one] at hres
    linarith
  have hsize : size ≤ 2 ^ 14 * t.resolution := by
    rw [← hres, mul_comm]
    exact mul_le_mul_of_nonneg_right hk hr.le
  have hs2 : ∀ c : ℝ, |c| ≤ B → |c - -size / 2| ≤ B + size / 2 := by
    intro c hc
    obtain ⟨c1, c2⟩ := abs_le.1 hc
    exact abs_le.2 ⟨by linarith, by linarith⟩
  have hn : ∀ c : ℝ, |c| ≤ B → |toDouble (c - -size / 2) - (c - -size / 2)| ≤ 2 ^ 18 * t.resolution / 2 ^ 53 := by
    intro c hc
    refine (toDouble_near _).trans (div_le_div_of_nonneg_right ((hs2 c hc).trans ?_) (by norm_num))
    norm_num at hT ⊢
    linarith
  have hb : ∀ c : ℝ, |c| ≤ B → |toDouble (c - -size / 2)| ≤ B + size := by
    intro c hc
    have a1 := hs2 c hc
    have a2 := toDouble_near (c - -size / 2)
    have a3 := abs_sub_abs_le_abs_sub (toDouble (c - -size / 2)) (c - -size / 2)
    norm_num at a1 a2 a3 hT ⊢
    linarith
  obtain ⟨nx, ny, nz⟩ := RoundedBox.normalized_err (u := 1 / 2 ^ 53) (rnd := toDouble)
    (fun x => by have := toDouble_near x; rw [one_div_mul_eq_div]; exact this) (by norm_num) he
  have w : ∀ x : ℝ, 3.6 * (1 / 2 ^ 53) * |x| ≤ 8 / 2 ^ 53 * |x| := fun x => mul_le_mul_of_nonneg_right (by norm_num) (abs_nonneg x)
  have hren := renorm he.1 le_rfl (by norm_num) (nx.trans (w _)) (ny.trans (w _)) (nz.trans (w _))
  have hfit : Fit t.resolution o e k size (B + size) (2 ^ 18 * t.resolution / 2 ^ 53) (3 * (8 / 2 ^ 53)) ⟨-size / 2, -size / 2, -size / 2⟩
      (Rounded.rayNew toDouble (Rounded.sub toDouble o t.offset) (Rounded.rayNew toDouble o d).direction) := by
    rw [h.off]
    refine ⟨hp, hs, ⟨hb _ hB.1, hb _ hB.2.1, hb _ hB.2.2⟩, ?_, hk''.trans (by norm_num), ⟨hn _ hB.1, hn _ hB.2.1, hn _ hB.2.2⟩, ?_, hren, by norm_num, ?_⟩
    · have : 4 * (B + size + size) * (1 + k / 2 ^ 52) ≤ 4 * (B + size + size) * 2 := by
        refine mul_le_mul_of_nonneg_left ?_ (by positivity)
        norm_num
        linarith
      norm_num at this hT ⊢
      linarith
    · have : (k : ℝ) * (2 ^ 18 * t.resolution / 2 ^ 53) ≤ 14 * (2 ^ 18 * t.resolution / 2 ^ 53) := mul_le_mul_of_nonneg_right hk'' (by positivity)
      norm_num at this ⊢
      linarith
    · have : (3 : ℝ) ^ k ≤ 3 ^ 14 := pow_le_pow_right₀ (by norm_num) hk'
      norm_num at this ⊢
      linarith
  unfold Rounded.octRay at hit
  simp only at hit
  split_ifs at hit
  · simp at hit
  obtain ⟨n, hn'⟩ := unbounded_ok hit
  have hmax : -max (Rounded.boxRay toDouble toFloat (Box.new t.offset t.max) (Rounded.rayNew toDouble o d) t0 t1 0).2 0 ≤ 0 := by
    have := le_max_right (Rounded.boxRay toDouble toFloat (Box.new t.offset t.max) (Rounded.rayNew toDouble o d) t0 t1 0).2 0
    linarith
  have hstart : t0 ≤ toFloat (toDouble (toDouble (t0 + max (Rounded.boxRay toDouble toFloat (Box.new t.offset t.max) (Rounded.rayNew toDouble o d) t0 t1 0).2 0) +
      toDouble (t.resolution * toDouble 0.1))) := by
    by_cases hle : t0 ≤ 2 ^ 18 * t.resolution
    · have := step_far hr h0 hle hmax
      rw [sub_neg_eq_add] at this
      linarith
    exfalso
    have hfar := step_far (t := 2 ^ 18 * t.resolution)
      (e := 2 ^ 18 * t.resolution - (t0 + max (Rounded.boxRay toDouble toFloat (Box.new t.offset t.max) (Rounded.rayNew toDouble o d) t0 t1 0).2 0)) hr
      (by positivity) le_rfl (by linarith)
    rw [sub_sub_cancel] at hfar
    cases n with
    | zero => simp [Rounded.nodeRay] at hn'
    | succ n =>
      cases hroot : t.root with
      | null => exact h.root hroot
      | node s' occ ch =>
        have hw := h.wf
        rw [hroot] at hw hn'
        obtain ⟨k, rfl⟩ := Nat.exists_eq_succ_of_ne_zero hk0
        obtain ⟨rfl, rfl, -⟩ := hw
        rw [Rounded.nodeRay, if_neg (by simp)] at hn'
        simp only at hn'
        split_ifs at hn' with hout
        · simp at hn'
        · exact hout (ray_out hfit.pos hfit.org (hfit.long he.1) (by linarith [hfit.far']))
  obtain ⟨b, hb1, s, hs0, hb2⟩ := nodeRay_near hr h0 he.1 n k size _ _ _ _ _ t.root _ _ _ hfit h.wf hstart
    (by
      intro ch hroot
      have hw := h.wf
      rw [hroot] at hw
      obtain ⟨k, rfl⟩ := Nat.exists_eq_succ_of_ne_zero hk0
      exact absurd hw.2.1 (by simp))
    hn'
  have hnear := nodeCubes_near (B := size / 2) (by positivity) k size t.root ⟨-size / 2, -size / 2, -size / 2⟩ ⟨-size / 2, -size / 2, -size / 2⟩ 0 h.wf hs hp.le
    ⟨by linarith, by linarith⟩ ⟨by linarith, by linarith⟩ ⟨by linarith, by linarith⟩ (by simp [Moved]) (by omega)
  obtain ⟨b', hb', hm⟩ := forall2_right hnear b hb1
  refine ⟨b', by unfold Rounded.octCubes; rw [h.off]; exact hb', s, hs0, ?_⟩
  have hsm : ((0 + k + 1 : ℕ) : ℝ) * (2 * (size / 2) / 2 ^ 53) ≤ t.resolution / 64 := by
    push_cast
    have : (0 + (k : ℝ) + 1) * (2 * (size / 2) / 2 ^ 53) ≤ 15 * (2 * (2 ^ 14 * t.resolution / 2) / 2 ^ 53) :=
      mul_le_mul (by linarith) (by gcongr) (by positivity) (by norm_num)
    norm_num at this ⊢
    linarith
  obtain ⟨⟨l1, l2, l3⟩, u1, u2, u3⟩ := hm
  obtain ⟨i1, i2, i3, i4, i5, i6⟩ := hb2
  have l1 := abs_le.1 (l1.trans hsm)
  have l2 := abs_le.1 (l2.trans hsm)
  have l3 := abs_le.1 (l3.trans hsm)
  have u1 := abs_le.1 (u1.trans hsm)
  have u2 := abs_le.1 (u2.trans hsm)
  have u3 := abs_le.1 (u3.trans hsm)
  simp only at i1 i2 i3 i4 i5 i6
  refine ⟨?_, ?_, ?_, ?_, ?_, ?_⟩ <;> simp only <;> linarith [l1.1, l1.2, l2.1, l2.2, l3.1, l3.2, u1.1, u1.2, u2.1, u2.2, u3.1, u3.2]

theorem d2 : toDouble 2 = 2 := dbl' 2 0 (by norm_num) (by norm_num)

theorem half2 : toDouble (2 / 2) = 1 := by rw [show (2 / 2 : ℝ) = 1 by norm_num]; exact d1

theorem three_half : toDouble (1 / 2 - -2 / 2) = 3 / 2 := by
  rw [show (1 / 2 - -2 / 2 : ℝ) = 3 / 2 by norm_num]
  exact dbl' 3 1 (by norm_num) (by norm_num)

/-- A point in the last octant of the tree with eight cells. -/
theorem add_two : (unbounded fun n => Rounded.nodeAdd toDouble 1 n (OctNode.new 2) ⟨3 / 2, 3 / 2, 3 / 2⟩) =
    .ok (.node 2 false (Function.update (fun _ => .null) (OctNode.index true true true) (.node 1 true fun _ => .null))) := by
  have key : toDouble (1 - toDouble 1e-10) < 1 := by
    have h1 := toDouble_tol.1
    have h2 := toDouble_tol.2
    have h := abs_le.1 (toDouble_near (1 - toDouble 1e-10))
    rw [abs_of_pos (by linarith)] at h
    norm_num at h h1 h2 ⊢
    linarith [h.2]
  have key2 : ¬ toDouble (2 - toDouble 1e-10) < 1 := leaf_no (by norm_num) d1 (by norm_num)
  have hf : ∀ n, Rounded.nodeAdd toDouble 1 (n + 2) (OctNode.new 2) ⟨3 / 2, 3 / 2, 3 / 2⟩ =
      .ok (.node 2 false (Function.update (fun _ => .null) (OctNode.index true true true) (.node 1 true fun _ => .null))) := by
    intro n
    have hx : decide ((3 / 2 : ℝ) > 1) = true := by norm_num
    have hc : ∀ q, Rounded.nodeAdd toDouble 1 (n + 1) (OctNode.new 1) q = .ok (.node 1 true fun _ => .null) := by
      intro q
      unfold OctNode.new Rounded.nodeAdd
      rw [if_pos key]
    have hi : OctNode.new 2 = .node 2 false fun _ => .null := rfl
    rw [hi, Rounded.nodeAdd, if_neg key2]
    simp only [half2, hx, OctNode.ensure, hc, bind, Except.bind, pure, Except.pure]
  refine Tools.unbounded_eq (n := 2) (fun n => ?_) (hf 0)
  match n with
  | 0 => left; simp only [Rounded.nodeAdd]
  | 1 =>
    left
    have hi : OctNode.new 2 = .node 2 false fun _ => .null := rfl
    rw [hi, Rounded.nodeAdd, if_neg key2]
    simp only [Rounded.nodeAdd, bind, Except.bind]
  | n + 2 => right; exact hf n

/-- The ray from inside that tree. -/
theorem hit_two : Rounded.boxRay toDouble toFloat (Box.new ⟨-2 / 2, -2 / 2, -2 / 2⟩ ⟨2 / 2, 2 / 2, 2 / 2⟩)
    (Rounded.rayNew toDouble ⟨1 / 2, 1 / 2, 1 / 2⟩ ⟨1, 1 / 2 ^ 29, 1 / 2 ^ 29⟩) 0 1 0 = (true, -(3 / 2)) := by
  have a1 : toDouble (-2 / 2 - 1 / 2) = -(3 / 2) := by
    rw [show (-2 / 2 - 1 / 2 : ℝ) = -(3 / 2) by norm_num]
    exact dbl' (-3) 1 (by norm_num) (by norm_num)
  have a2 : toDouble (2 / 2 - 1 / 2) = 1 / 2 := by
    rw [show (2 / 2 - 1 / 2 : ℝ) = 1 / 2 by norm_num]
    exact dbl' 1 1 (by norm_num) (by norm_num)
  have x1 : toFloat (toDouble (-(3 / 2) * 1)) = -(3 / 2) := by
    rw [mul_one, dbl' (-3) 1 (by norm_num) (by norm_num)]
    exact flt (-(3 * 2 ^ 22)) (-23) (by norm_num) (by norm_num) (by norm_num)
  have x2 : toFloat (toDouble (1 / 2 * 1)) = 1 / 2 := by
    rw [mul_one, dbl' 1 1 (by norm_num) (by norm_num)]
    exact flt (2 ^ 23) (-24) (by norm_num) (by norm_num) (by norm_num)
  have y1 : toFloat (toDouble (-(3 / 2) * 2 ^ 29)) = -(3 * 2 ^ 28) := by
    rw [show (-(3 / 2) * 2 ^ 29 : ℝ) = -(3 * 2 ^ 28) by norm_num, dbl' (-(3 * 2 ^ 28)) 0 (by norm_num) (by norm_num)]
    exact flt (-(3 * 2 ^ 22)) 6 (by norm_num) (by norm_num) (by norm_num)
  have y2 : toFloat (toDouble (1 / 2 * 2 ^ 29)) = 2 ^ 28 := by
    rw [show (1 / 2 * 2 ^ 29 : ℝ) = 2 ^ 28 by norm_num, dbl' (2 ^ 28) 0 (by norm_num) (by norm_num)]
    exact flt (2 ^ 23) 5 (by norm_num) (by norm_num) (by norm_num)
  have m1 : max (-(3 * 2 ^ 28) : ℝ) (-(3 / 2)) = -(3 / 2) := max_eq_right (by norm_num)
  have m2 : min (2 ^ 28 : ℝ) (1 / 2) = 1 / 2 := min_eq_right (by norm_num)
  rw [ray_dir]
  simp only [Rounded.boxRay, Box.bound, Box.new_lo, Box.new_hi, a1, a2, x1, x2, y1, y2, if_true, Bool.false_eq_true, if_false, Bool.not_false, m1, m2]
  rw [if_neg (by norm_num), if_neg (by norm_num)]
  norm_num

/-- The search in that tree. -/
theorem search_two {t : ℝ} (h0 : 0 ≤ t) (h1 : t ≤ 1 / 2) (t1 d : ℝ) :
    (unbounded fun n => Rounded.nodeRay toDouble toFloat 1 n
      (.node 2 false (Function.update (fun _ => .null) (OctNode.index true true true) (.node 1 true fun _ => .null)))
      (Rounded.rayNew toDouble ⟨3 / 2, 3 / 2, 3 / 2⟩ ⟨1, 1 / 2 ^ 29, 1 / 2 ^ 29⟩) t t1 d) = .ok (true, d) := by
  have z : toDouble (1 / 2) = 1 / 2 := dbl' 1 1 (by norm_num) (by norm_num)
  have th : toDouble (3 / 2) = 3 / 2 := dbl' 3 1 (by norm_num) (by norm_num)
  have k : ∀ v : ℝ, 0 ≤ v → v ≤ 1 → 3 / 2 ≤ toDouble (3 / 2 + toDouble (v * t)) ∧ toDouble (3 / 2 + toDouble (v * t)) ≤ 2 := by
    intro v v0 v1
    have w := toDouble_range (x := v * t) toDouble_zero z (by positivity) (by nlinarith)
    exact toDouble_range th d2 (by linarith [w.1]) (by linarith [w.2])
  obtain ⟨o, ho⟩ : ∃ o, o = Rounded.add toDouble ⟨3 / 2, 3 / 2, 3 / 2⟩ ⟨toDouble (1 * t), toDouble (1 / 2 ^ 29 * t), toDouble (1 / 2 ^ 29 * t)⟩ := ⟨_, rfl⟩
  have kx : 3 / 2 ≤ o.x ∧ o.x ≤ 2 := by rw [ho]; exact k 1 (by norm_num) (by norm_num)
  have ky : 3 / 2 ≤ o.y ∧ o.y ≤ 2 := by rw [ho]; exact k (1 / 2 ^ 29) (by norm_num) (by norm_num)
  have kz : 3 / 2 ≤ o.z ∧ o.z ≤ 2 := by rw [ho]; exact k (1 / 2 ^ 29) (by norm_num) (by norm_num)
  have hin : ¬ OctNode.Outside 2 o := by
    unfold OctNode.Outside
    push Not
    exact ⟨by linarith, by linarith, by linarith, kx.2, ky.2, kz.2⟩
  have hx : decide (o.x ≥ 1) = true := decide_eq_true (by linarith)
  have hy : decide (o.y ≥ 1) = true := decide_eq_true (by linarith)
  have hz : decide (o.z ≥ 1) = true := decide_eq_true (by linarith)
  rw [ray_dir]
  refine Tools.unbounded_eq (n := 2) (fun n => ?_) ?_
  · match n with
    | 0 => left; simp only [Rounded.nodeRay]
    | 1 =>
      left
      rw [Rounded.nodeRay, if_neg (by simp)]
      simp only [← ho]
      rw [if_neg (by rw [← ho]; exact hin)]
      simp only [half2, hx, hy, hz, Function.update_self, Rounded.nodeRay]
    | n + 2 =>
      right
      rw [Rounded.nodeRay, if_neg (by simp)]
      simp only [← ho]
      rw [if_neg (by rw [← ho]; exact hin)]
      simp only [half2, hx, hy, hz, Function.update_self, Rounded.nodeRay, if_true]
  · rw [Rounded.nodeRay, if_neg (by simp)]
    simp only [← ho]
    rw [if_neg (by rw [← ho]; exact hin)]
    simp only [half2, hx, hy, hz, Function.update_self, Rounded.nodeRay, if_true]

end OctreeRay

end Geo
