import Verif.Lemmas.Scene

/-!
# Drawing twice
-/

namespace Geo

open Spec Raster

namespace Again

open Classical in
/-- What a pixel holds after a call: a depth with something else. (Device of the proofs.) -/
noncomputable def put {α : Type} (s c : Fl × α) : Fl × α := if s.1.isZero = true ∨ c.1.lt s.1 = true then c else s

theorem lt_of_lt_of_not {d v a : Fl} (h1 : d.lt v = true) (h2 : ¬ a.lt v = true) (h3 : a ≠ .nan) : d.lt a = true := by
  cases d <;> cases v <;> cases a <;> simp_all [Fl.lt]
  linarith

theorem nan_stays {α : Type} (cs : List (Fl × α)) (s : Fl × α) (h : s.1 = .nan) : cs.foldl put s = s := by
  induction cs with
  | nil => rfl
  | cons c cs ih =>
    have e : put s c = s := by
      unfold put
      rw [h]
      cases c.1 <;> simp [Fl.isZero, Fl.lt]
    rw [List.foldl_cons, e, ih]

/-- Two runs of the calls, the second of them from the result `v` of the first. -/
theorem two_runs {α : Type} {v : Fl × α} (hz : v.1.isZero ≠ true) (hn : v.1 ≠ .nan) : ∀ (cs : List (Fl × α)) (a b : Fl × α),
    (b = a ∨ b = v ∧ (a.1.isZero = true ∨ ¬ a.1.lt v.1 = true)) → cs.foldl put a = v → cs.foldl put b = v
  | [], a, b, h, ha => by
    rcases h with rfl | ⟨rfl, -⟩
    · exact ha
    · rfl
  | c :: cs, a, b, h, ha => by
    rw [List.foldl_cons] at ha ⊢
    refine two_runs hz hn cs (put a c) (put b c) ?_ ha
    rcases h with rfl | ⟨rfl, h⟩
    · exact .inl rfl
    have han : ∀ s : Fl × α, cs.foldl put s = b → s.1 ≠ .nan := by
      rintro s hs h0
      rw [nan_stays cs s h0] at hs
      exact hn (by rw [← hs, h0])
    have ha' : a.1 ≠ .nan := by
      intro h0
      have : put a c = a := nan_stays [c] a h0
      rw [this] at ha
      exact han a ha h0
    by_cases hb : c.1.lt b.1 = true
    · have e1 : put b c = c := by unfold put; rw [if_pos (.inr hb)]
      have e2 : put a c = c := by
        unfold put
        rw [if_pos]
        rcases h with h | h
        · exact .inl h
        · exact .inr (lt_of_lt_of_not hb h ha')
      exact .inl (e1.trans e2.symm)
    · have e1 : put b c = b := by unfold put; rw [if_neg (by tauto)]
      refine .inr ⟨e1, ?_⟩
      by_cases ht : a.1.isZero = true ∨ c.1.lt a.1 = true
      · have e2 : put a c = c := by unfold put; rw [if_pos ht]
        rw [e2]
        exact .inr hb
      · have e2 : put a c = a := by unfold put; rw [if_neg ht]
        rw [e2]
        exact h

/-- Calls on an empty pixel, repeated, change nothing more. -/
theorem again {α : Type} (cs : List (Fl × α)) (s : Fl × α) (h : s.1.isZero = true) :
    cs.foldl put (cs.foldl put s) = cs.foldl put s := by
  by_cases hn : (cs.foldl put s).1 = .nan
  · exact nan_stays cs _ hn
  by_cases hz : (cs.foldl put s).1.isZero = true
  · cases cs with
    | nil => rfl
    | cons c cs =>
      have e : ∀ s : Fl × α, s.1.isZero = true → put s c = c := fun s hs => by unfold put; rw [if_pos (.inl hs)]
      rw [List.foldl_cons, e _ hz, List.foldl_cons, e _ h]
  · exact two_runs hz hn cs s _ (.inr ⟨rfl, .inl h⟩) rfl

/-- What the result and the maps hold at a pixel. (Device of the proofs.) -/
noncomputable def cell (r : DefaultResult) (x y : ℕ) : Fl × Option ℤ × Option ℕ :=
  (r.image.at' y x, entry r.triangleMap x y, entry r.pointerMap x y)

open Classical in
/-- What calls want to write to a pixel, where the pointer map keeps `k` if there is no pointer. (Device of the proofs.) -/
noncomputable def wants (p : ℕ) (k : Option ℕ) (x y : ℕ) (cs : List PixelCall) : List (Fl × Option ℤ × Option ℕ) :=
  (cs.filter fun c => At x y c).map fun c => (c.depth, some (toInt32 c.tri), if p ≠ 0 then some p else k)

theorem wants_cons_at {p : ℕ} {k : Option ℕ} {x y : ℕ} {c : PixelCall} (h : At x y c) (cs : List PixelCall) :
    wants p k x y (c :: cs) = (c.depth, some (toInt32 c.tri), if p ≠ 0 then some p else k) :: wants p k x y cs := by
  simp [wants, h]

theorem wants_cons_off {p : ℕ} {k : Option ℕ} {x y : ℕ} {c : PixelCall} (h : ¬ At x y c) (cs : List PixelCall) :
    wants p k x y (c :: cs) = wants p k x y cs := by
  simp [wants, h]

theorem pixels_cell : ∀ (cs : List PixelCall) (r : DefaultResult), r.Fit →
    (∀ c ∈ cs, InImage r.image.cols r.image.rows c.x c.y) →
    ∃ r', DefaultResult.sink.pixels cs r = .ok r' ∧ DefaultResult.Same r r' ∧
      ∀ x y k, (r.pointer = 0 → entry r.pointerMap x y = k) →
        cell r' x y = (wants r.pointer k x y cs).foldl put (cell r x y) ∧ (r.pointer = 0 → entry r'.pointerMap x y = k)
  | [], r, _, _ => ⟨r, rfl, .refl r, fun x y k hk => ⟨rfl, hk⟩⟩
  | c :: cs, r, hf, hin => by
    obtain ⟨r1, e1, e2, e3⟩ := DefaultResult.pixel_ok (hin c List.mem_cons_self) hf
    obtain ⟨r', f1, f2, f3⟩ := pixels_cell cs r1 (e2.fit hf) (fun d hd => by
      rw [e2.cols, e2.rows]; exact hin d (List.mem_cons_of_mem _ hd))
    refine ⟨r', ?_, e2.trans f2, fun x y k hk => ?_⟩
    · have : DefaultResult.sink.pixel r c = .ok r1 := e1
      simp only [Sink.pixels, this, bind, Except.bind]
      exact f1
    · obtain ⟨g1, g2, g3⟩ := e3 x y
      have hk1 : r1.pointer = 0 → entry r1.pointerMap x y = k := by
        intro h0
        rw [e2.pointer] at h0
        rw [g3, if_neg (fun h => h.1 h0), hk h0]
      obtain ⟨q1, q2⟩ := f3 x y k hk1
      rw [e2.pointer] at q1 q2
      refine ⟨?_, q2⟩
      rw [q1]
      by_cases hat : At x y c
      · rw [wants_cons_at hat, List.foldl_cons]
        congr 1
        have hx : c.x.toNat = x := by have := hat.1; omega
        have hy : c.y.toNat = y := by have := hat.2; omega
        unfold put cell
        by_cases ht : r.Takes c
        · rw [if_pos ⟨ht, hat⟩] at g1 g2
          have ht' := ht
          unfold DefaultResult.Takes at ht'
          rw [hx, hy] at ht'
          rw [if_pos ht', g1, g2, g3]
          by_cases h0 : r.pointer ≠ 0
          · rw [if_pos ⟨h0, ht, hat⟩, if_pos h0]
          · rw [if_neg (fun h => h0 h.1), if_neg h0, hk (not_not.1 h0)]
        · rw [if_neg (fun h => ht h.1)] at g1 g2
          rw [if_neg (fun h => ht h.2.1)] at g3
          have ht' := ht
          unfold DefaultResult.Takes at ht'
          rw [hx, hy] at ht'
          rw [if_neg ht', g1, g2, g3]
      · rw [wants_cons_off hat]
        congr 1
        rw [if_neg (fun h => hat h.2)] at g1 g2
        rw [if_neg (fun h => hat h.2.2)] at g3
        unfold cell
        rw [g1, g2, g3]

end Again

end Geo
