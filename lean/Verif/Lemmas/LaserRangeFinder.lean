import Verif.Spec.LaserRangeFinder

/-!
# Lemmas about the beam tables and indices of the laser range finder
-/

namespace Geo

open Spec

namespace LRF

theorem beamAngles_length (incr : ℝ) : ∀ (n : ℕ) (a : ℝ), (beamAngles incr n a).length = n
  | 0, _ => rfl
  | n + 1, a => by simp [beamAngles, beamAngles_length incr n]

theorem beamAngles_get (incr : ℝ) : ∀ (n : ℕ) (a : ℝ) (i : ℕ), i < n → (beamAngles incr n a)[i]? = some (a + i * incr)
  | 0, _, _, h => absurd h (by omega)
  | n + 1, a, 0, _ => by simp [beamAngles]
  | n + 1, a, i + 1, h => by
    simp only [beamAngles, List.getElem?_cons_succ]
    rw [beamAngles_get incr n (a + incr) i (by omega)]
    push_cast
    congr 1
    ring

/-- The facts about a sensor that the setters maintain. -/
def Inv (l : LRF) : Prop :=
  0 < l.numBeams → l.aMin < l.aMax →
    TablesOk l ∧ l.angleIncr = spacing l ∧ castUInt (Real.pi / spacing l) = .ok l.iHalfCircle

theorem calculateRays_inv {l l' : LRF} (h : l.calculateRays = .ok l') :
    l'.aMin = l.aMin ∧ l'.aMax = l.aMax ∧ l'.numBeams = l.numBeams ∧ l'.rangeMin = l.rangeMin ∧
      l'.rangeMax = l.rangeMax ∧ Inv l' := by
  unfold calculateRays at h
  cases hc : castUInt (Real.pi / ((l.aMax - l.aMin) / (max (l.numBeams - 1) 1 : ℕ))) with
  | error e => simp only [hc, bind, Except.bind] at h; cases h
  | ok half =>
    simp only [hc, bind, Except.bind, pure, Except.pure, Except.ok.injEq] at h
    subst h
    refine ⟨rfl, rfl, rfl, rfl, rfl, ?_⟩
    intro _ _
    refine ⟨⟨beamAngles_length _ _ _, ?_, ?_⟩, rfl, hc⟩
    · simp [beamAngles_length]
    · intro i hi
      have := beamAngles_get ((l.aMax - l.aMin) / (max (l.numBeams - 1) 1 : ℕ)) l.numBeams l.aMin i hi
      refine ⟨this, ?_⟩
      simp only [List.getElem?_map, this, Option.map_some]
      show some ((⟨_, _, 0⟩ : Vec3) * (1 : ℝ)) = _
      congr 1
      ext <;> simp [beamAngle]

theorem step_inv {l l' : LRF} {o : Op} (hi : Inv l) (h : l.step o = .ok l') :
    Inv l' ∧
    (l'.aMin, l'.aMax) = (match o with | .angleLimits a b => (a, b) | _ => (l.aMin, l.aMax)) ∧
    (l'.rangeMin, l'.rangeMax) = (match o with | .rangeLimits a b => (a, b) | _ => (l.rangeMin, l.rangeMax)) ∧
    l'.numBeams = (match o with | .numBeams n => n | _ => l.numBeams) := by
  cases o with
  | angleLimits a b =>
    simp only [step, setAngleLimits] at h
    split_ifs at h with hc
    · obtain ⟨h1, h2, h3, h4, h5, h6⟩ := calculateRays_inv h
      exact ⟨h6, by simp [h1, h2], by simp [h4, h5], h3⟩
    · simp only [Except.ok.injEq] at h
      subst h
      refine ⟨fun c1 c2 => absurd ⟨c1, ?_⟩ hc, rfl, rfl, rfl⟩
      exact sub_pos.2 c2
  | rangeLimits a b =>
    simp only [step, setRangeLimits, Except.ok.injEq] at h
    subst h
    exact ⟨hi, rfl, rfl, rfl⟩
  | numBeams n =>
    simp only [step, setNumBeams] at h
    split_ifs at h with hc
    · obtain ⟨h1, h2, h3, h4, h5, h6⟩ := calculateRays_inv h
      exact ⟨h6, by simp [h1, h2], by simp [h4, h5], h3⟩
    · simp only [Except.ok.injEq] at h
      subst h
      refine ⟨fun c1 c2 => absurd ⟨c1, ?_⟩ hc, rfl, rfl, rfl⟩
      exact sub_pos.2 c2

theorem run_inv : ∀ (ops : List Op) (l l' : LRF), Inv l → l.run ops = .ok l' →
    Inv l' ∧
    (l'.aMin, l'.aMax) = ops.foldl (fun c o => match o with | .angleLimits a b => (a, b) | _ => c) (l.aMin, l.aMax) ∧
    (l'.rangeMin, l'.rangeMax) =
      ops.foldl (fun c o => match o with | .rangeLimits a b => (a, b) | _ => c) (l.rangeMin, l.rangeMax) ∧
    l'.numBeams = ops.foldl (fun c o => match o with | .numBeams n => n | _ => c) l.numBeams
  | [], l, l', hi, h => by
    simp only [run, Except.ok.injEq] at h
    subst h
    exact ⟨hi, rfl, rfl, rfl⟩
  | o :: ops, l, l', hi, h => by
    simp only [run, bind, Except.bind] at h
    cases hs : l.step o with
    | error e => simp [hs] at h
    | ok m =>
      simp only [hs] at h
      obtain ⟨s1, s2, s3, s4⟩ := step_inv hi hs
      obtain ⟨r1, r2, r3, r4⟩ := run_inv ops m l' s1 h
      refine ⟨r1, ?_, ?_, ?_⟩
      · rw [r2, s2, List.foldl_cons]; cases o <;> rfl
      · rw [r3, s3, List.foldl_cons]; cases o <;> rfl
      · rw [r4, s4, List.foldl_cons]; cases o <;> rfl

theorem inv_new : Inv new := by
  intro h
  exact absurd h (by simp [new])

theorem ready_inv {l : LRF} (h : Ready l) :
    TablesOk l ∧ l.angleIncr = spacing l ∧ castUInt (Real.pi / spacing l) = .ok l.iHalfCircle := by
  obtain ⟨⟨ops, hr⟩, h1, h2⟩ := h
  exact (run_inv ops new l inv_new hr).1 h1 h2

theorem spacing_pos {l : LRF} (h : Ready l) : 0 < spacing l := by
  unfold spacing
  apply div_pos (sub_pos.2 h.2.2)
  exact_mod_cast (by omega : 0 < max (l.numBeams - 1) 1)

theorem beamAngle_eq (l : LRF) (i : ℕ) : beamAngle l.aMin l.aMax l.numBeams i = l.aMin + i * spacing l := rfl

/-- The index of an angle: the rounded-down quotient plus one for angles not below the first beam. -/
theorem raw_ok {l : LRF} (h : Ready l) {a : ℝ} (ha : l.aMin ≤ a) (hb : (a - l.aMin) / spacing l < 2 ^ 31 - 1) :
    l.getAngleUpperIndexRaw a = .ok (⌊(a - l.aMin) / spacing l⌋ + 1) ∧ 0 ≤ ⌊(a - l.aMin) / spacing l⌋ := by
  have hs := spacing_pos h
  have hi := (ready_inv h).2.1
  have hq : 0 ≤ (a - l.aMin) / spacing l := div_nonneg (sub_nonneg.2 ha) hs.le
  have hf : 0 ≤ ⌊(a - l.aMin) / spacing l⌋ := Int.floor_nonneg.2 hq
  have hl : ⌊(a - l.aMin) / spacing l⌋ < 2 ^ 31 - 1 := by
    apply Int.floor_lt.2
    push_cast
    norm_num at hb ⊢
    exact hb
  refine ⟨?_, hf⟩
  unfold getAngleUpperIndexRaw
  rw [if_neg (by rw [hi]; exact hs.ne'), hi]
  have ht : trunc ((a - l.aMin) / spacing l) = ⌊(a - l.aMin) / spacing l⌋ := by rw [trunc, if_pos hq]
  simp only [castInt, ht]
  rw [if_pos ⟨by omega, by omega⟩]
  simp only [bind, Except.bind, intOp]
  rw [if_pos ⟨by omega, by omega⟩]

/-- Beams and indices: beam `j` is before the index of `a` iff its angle is at most `a`. -/
theorem lt_index {l : LRF} (h : Ready l) (a : ℝ) (j : ℕ) :
    (j : ℤ) < ⌊(a - l.aMin) / spacing l⌋ + 1 ↔ beamAngle l.aMin l.aMax l.numBeams j ≤ a := by
  have hs := spacing_pos h
  rw [Int.lt_add_one_iff, Int.le_floor, le_div_iff₀ hs, beamAngle_eq]
  push_cast
  constructor <;> intro <;> linarith

end LRF

/-! ## Rendering points -/

open Classical in
/-- The new value of a beam. -/
noncomputable def combine (r d : EReal) : EReal := if r = 0 ∨ d < r then d else r

theorem renderPoint_ok {ranges : List EReal} {i : ℕ} (d : EReal) (h : i < ranges.length) :
    RenderResult.renderPoint ranges i d = .ok (ranges.set i (combine ranges[i] d)) := by
  unfold RenderResult.renderPoint vget
  rw [List.getElem?_eq_getElem h]
  simp only [bind, Except.bind, combine]
  split_ifs with hc
  · rfl
  · rw [List.set_getElem_self]; rfl

open Classical in
/-- The depth at which beam `j` is drawn, if any. -/
noncomputable def hit (l : LRF) (p1 s : Vec2) (j : ℕ) : Option EReal :=
  match l.rayDirs[j]? with
  | none => none
  | some v => match RenderResult.quotient (p1.cross s) (v.projectTo2d.cross s) with
    | none => none
    | some d => if 0 < d then some d else none

open Classical in
/-- The effect of drawing a part on a beam. -/
noncomputable def drawn (l : LRF) (p1 s : Vec2) (a b j : ℕ) (r : EReal) : EReal :=
  if a ≤ j ∧ j < b then (match hit l p1 s j with | none => r | some d => combine r d) else r

theorem drawPart_ok (l : LRF) (p1 s : Vec2) : ∀ (n i : ℕ) (ranges : List EReal), i + n ≤ l.rayDirs.length →
    i + n ≤ ranges.length → ∃ ranges', RenderResult.drawPart l p1 s n i ranges = .ok ranges' ∧
      ranges'.length = ranges.length ∧ ∀ j, ranges'[j]? = (ranges[j]?).map (drawn l p1 s i (i + n) j)
  | 0, i, ranges, _, _ => by
    refine ⟨ranges, rfl, rfl, fun j => ?_⟩
    have : drawn l p1 s i (i + 0) j = id := by
      funext r
      unfold drawn
      rw [if_neg (by omega)]
      rfl
    rw [this, Option.map_id, id]
  | n + 1, i, ranges, h1, h2 => by
    have hv : vget l.rayDirs i = .ok l.rayDirs[i] := by
      unfold vget
      rw [List.getElem?_eq_getElem (by omega)]
    have key : ∀ (r1 : List EReal), r1.length = ranges.length →
        (∀ j, r1[j]? = (ranges[j]?).map fun r => if j = i then
          (match hit l p1 s j with | none => r | some d => combine r d) else r) →
        RenderResult.drawPart l p1 s (n + 1) i ranges = RenderResult.drawPart l p1 s n (i + 1) r1 →
        ∃ ranges', RenderResult.drawPart l p1 s (n + 1) i ranges = .ok ranges' ∧
          ranges'.length = ranges.length ∧ ∀ j, ranges'[j]? = (ranges[j]?).map (drawn l p1 s i (i + (n + 1)) j) := by
      intro r1 hl hg he
      obtain ⟨r2, g1, g2, g3⟩ := drawPart_ok l p1 s n (i + 1) r1 (by omega) (by omega)
      refine ⟨r2, he.trans g1, g2.trans hl, fun j => ?_⟩
      rw [g3, hg, Option.map_map]
      congr 1
      funext r
      simp only [Function.comp, drawn]
      by_cases hj : j = i
      · subst hj
        rw [if_neg (by omega), if_pos rfl, if_pos ⟨le_rfl, by omega⟩]
      · rw [if_neg hj]
        by_cases hb : i + 1 ≤ j ∧ j < i + 1 + n
        · rw [if_pos hb, if_pos ⟨by omega, by omega⟩]
        · rw [if_neg hb, if_neg (by omega)]
    have same : ∀ (r : List EReal), (hit l p1 s i = none) → ∀ j, r[j]? = (r[j]?).map fun x => if j = i then
          (match hit l p1 s j with | none => x | some d => combine x d) else x := by
      intro r hn j
      have : (fun x : EReal => if j = i then
          (match hit l p1 s j with | none => x | some d => combine x d) else x) = id := by
        funext x
        by_cases hj : j = i
        · subst hj; rw [if_pos rfl, hn]; rfl
        · rw [if_neg hj]; rfl
      rw [this, Option.map_id, id]
    have hh : ∀ q, RenderResult.quotient (p1.cross s) (l.rayDirs[i].projectTo2d.cross s) = q →
        hit l p1 s i = (match q with | none => none | some d => if 0 < d then some d else none) := by
      rintro q rfl
      unfold hit
      rw [List.getElem?_eq_getElem (by omega)]
    cases hq : RenderResult.quotient (p1.cross s) (l.rayDirs[i].projectTo2d.cross s) with
    | none =>
      replace hh := hh _ hq
      refine key ranges rfl (same ranges hh) ?_
      simp only [RenderResult.drawPart, hv, bind, Except.bind, hq]
    | some d =>
      replace hh := hh _ hq
      by_cases hd : 0 < d
      · refine key (ranges.set i (combine ranges[i] d)) (by simp) (fun j => ?_) ?_
        · rw [List.getElem?_set]
          by_cases hj : j = i
          · subst hj
            rw [if_pos rfl, if_pos (by omega), List.getElem?_eq_getElem (by omega)]
            simp only [if_pos hd] at hh
            simp only [hh, Option.map_some, if_true]
          · rw [if_neg (Ne.symm hj)]
            simp only [if_neg hj]
            exact (congrFun Option.map_id _).symm
        · simp only [RenderResult.drawPart, hv, bind, Except.bind, hq]
          rw [if_pos hd, renderPoint_ok d (by omega)]
      · refine key ranges rfl (same ranges (by rw [hh]; exact if_neg hd)) ?_
        simp only [RenderResult.drawPart, hv, bind, Except.bind, hq]
        rw [if_neg hd]

end Geo
