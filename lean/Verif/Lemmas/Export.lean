import Verif.Spec.Export
import Verif.Lemmas.Import

/-!
# Helper lemmas about exported scenes
-/

namespace Geo.Export

open Spec Import

theorem tolower_ascii {c : Char} (h : c.toNat < 128) : tolower c = .ok (lower c) := by
  have all : ∀ n < 128, (Char.ofNat n).toLower = lower (Char.ofNat n) := by decide
  unfold tolower
  rw [if_pos h]
  have := all c.toNat h
  rw [Char.ofNat_toNat] at this
  rw [this]

theorem mapM_ok {α β : Type} {f : α → Exec β} {g : α → β} : ∀ (l : List α), (∀ a ∈ l, f a = .ok (g a)) →
    l.mapM f = .ok (l.map g)
  | [], _ => rfl
  | a :: l, h => by
    rw [List.mapM_cons, h a (List.mem_cons_self ..), Shapes.ok_bind, mapM_ok l (fun b hb => h b (List.mem_cons_of_mem _ hb))]
    rfl

theorem mapM_error {α β : Type} {f : α → Exec β} {g : α → β} : ∀ (l : List α),
    (∀ a ∈ l, f a = .ok (g a) ∨ f a = .error .ub) → (∃ a ∈ l, f a = .error .ub) → l.mapM f = .error .ub
  | [], _, ⟨_, h, _⟩ => by cases h
  | a :: l, h, ⟨b, hb, e⟩ => by
    rw [List.mapM_cons]
    rcases h a (List.mem_cons_self ..) with ha | ha
    · rw [ha, Shapes.ok_bind, mapM_error l (fun b hb => h b (List.mem_cons_of_mem _ hb)) ⟨b, ?_, e⟩]
      · rfl
      · rcases List.mem_cons.1 hb with rfl | hb
        · rw [ha] at e
          cases e
        · exact hb
    · rw [ha]
      rfl

theorem hasSuffix_three (stem : List Char) (a b c : Char) {s : List Char} (hs : s.length = 3) :
    hasSuffix (stem ++ [a, b, c]) s = .ok (decide ([a, b, c] = s)) := by
  unfold hasSuffix
  rw [hs, substr_last]
  rfl

theorem hasSuffix_one (stem : List Char) (a b c d : Char) :
    hasSuffix (stem ++ [a, b, c]) [d] = .ok (decide (c = d)) := by
  unfold hasSuffix substr sizeMinus
  rw [if_pos (by simp), if_pos (by simp)]
  have : List.drop ((stem ++ [a, b, c]).length - 1) (stem ++ [a, b, c]) = [c] := by
    rw [show (stem ++ [a, b, c]).length - 1 = (stem ++ [a, b]).length by simp,
      show stem ++ [a, b, c] = stem ++ [a, b] ++ [c] by simp, List.drop_left]
  rw [show [d].length = 1 from rfl, this, Shapes.ok_bind]
  simp [pure, Except.pure]

/-- Vertices in cells of their own are all kept. -/
theorem vertexLoop_distinct {scale : Vec3} {transform : Bool} {pose : Transform3} : ∀ (vs : List Vec3) (m : Mesh)
    (xyz : List ((ℤ × ℤ × ℤ) × ℤ)) (imap : List ℤ), (∀ v ∈ vs, InIntRange (scaled scale v)) →
    (vs.map fun v => Mesh.key (scaled scale v)).Nodup → (∀ v ∈ vs, xyz.lookup (Mesh.key (scaled scale v)) = none) →
    ∃ r, vertexLoop scale transform pose vs m xyz imap = .ok r ∧ r.1.points = m.points ++ vs.map (place scale transform pose) ∧
      r.1.tris = m.tris ∧ r.2 = imap ++ (List.range' m.points.length vs.length).map fun i => toInt32 (u32 i)
  | [], m, xyz, imap, _, _, _ => ⟨_, rfl, by simp, rfl, by simp⟩
  | v :: vs, m, xyz, imap, h1, h2, h3 => by
    unfold vertexLoop
    rw [key_ok (h1 v (List.mem_cons_self ..)), Shapes.ok_bind, h3 v (List.mem_cons_self ..)]
    rw [List.map_cons, List.nodup_cons] at h2
    obtain ⟨r, e1, e2, e3, e4⟩ := vertexLoop_distinct (scale := scale) (transform := transform) (pose := pose) vs
      (m.addPoint (place scale transform pose v)).1
      ((Mesh.key (scaled scale v), toInt32 (m.addPoint (place scale transform pose v)).2) :: xyz)
      (imap ++ [toInt32 (m.addPoint (place scale transform pose v)).2]) (fun w hw => h1 w (List.mem_cons_of_mem _ hw)) h2.2
      (fun w hw => by
        rw [List.lookup_cons, h3 w (List.mem_cons_of_mem _ hw)]
        have : (Mesh.key (scaled scale w) == Mesh.key (scaled scale v)) = false := by
          rw [beq_eq_false_iff_ne]
          intro e
          exact h2.1 (e ▸ List.mem_map_of_mem hw)
        rw [this])
    refine ⟨r, e1, ?_, ?_, ?_⟩
    · rw [e2]
      simp [Mesh.addPoint, Mesh.invalidateCache]
    · rw [e3]
      rfl
    · rw [e4]
      simp [Mesh.addPoint, Mesh.invalidateCache, List.range'_succ]

/-- Triangles that differ are all kept. -/
theorem faceLoop_distinct {n : ℕ} (hn : n ≤ 2 ^ 32) : ∀ (ts : List TriI) (m : Mesh) (seen : List (ℤ × ℤ × ℤ)),
    (∀ t ∈ ts, t.i1 < n ∧ t.i2 < n ∧ t.i3 < n) → ts.Nodup → (∀ t ∈ ts, (toInt32 t.i1, toInt32 t.i2, toInt32 t.i3) ∉ seen) →
    ∃ r, faceLoop ((List.range' 0 n).map fun i => toInt32 (u32 i)) (ts.map fun t => [t.i1, t.i2, t.i3]) m seen = .ok r ∧
      r.points = m.points ∧ r.tris = m.tris ++ ts
  | [], m, seen, _, _, _ => ⟨m, rfl, rfl, by simp⟩
  | t :: ts, m, seen, h1, h2, h3 => by
    obtain ⟨a1, a2, a3⟩ := h1 t (List.mem_cons_self ..)
    have g : ∀ i, i < n → vget ((List.range' 0 n).map fun i => toInt32 (u32 i)) i = .ok (toInt32 i) := fun i hi => by
      unfold vget
      rw [List.getElem?_map, List.getElem?_range' hi]
      simp only [Option.map_some, Nat.zero_add, Nat.one_mul]
      rw [Shapes.u32_small (by omega)]
    rw [List.map_cons]
    unfold faceLoop
    dsimp only
    rw [g _ a1, g _ a2, g _ a3, Shapes.ok_bind, Shapes.ok_bind, Shapes.ok_bind, if_neg (h3 t (List.mem_cons_self ..)),
      asUInt_toInt32 (by omega), asUInt_toInt32 (by omega), asUInt_toInt32 (by omega)]
    rw [List.nodup_cons] at h2
    obtain ⟨r, e1, e2, e3⟩ := faceLoop_distinct hn ts (m.addTriangle t.i1 t.i2 t.i3) ((toInt32 t.i1, toInt32 t.i2, toInt32 t.i3) :: seen)
      (fun u hu => h1 u (List.mem_cons_of_mem _ hu)) h2.2 (fun u hu => by
        obtain ⟨b1, b2, b3⟩ := h1 u (List.mem_cons_of_mem _ hu)
        intro hm
        rcases List.mem_cons.1 hm with hm | hm
        · simp only [Prod.mk.injEq] at hm
          have c1 := toInt32_inj (by omega) (by omega) hm.1
          have c2 := toInt32_inj (by omega) (by omega) hm.2.1
          have c3 := toInt32_inj (by omega) (by omega) hm.2.2
          have : u = t := by
            cases u
            cases t
            simp only at c1 c2 c3
            rw [c1, c2, c3]
          exact h2.1 (this ▸ hu)
        · exact h3 u (List.mem_cons_of_mem _ hu) hm)
    exact ⟨r, e1, e2, by rw [e3]; simp [Mesh.addTriangle, Mesh.invalidateCache]⟩

theorem writeCall_eq {narrow : ℝ → ℝ} {filename format : List Char} {shape : Shape} {c : Call}
    (h : writeCall narrow filename shape format = .ok c) : ∃ fmt, c = ⟨⟨[⟨shape.mesh.points.map (narrowed narrow),
      shape.mesh.tris.map fun t => [t.i1, t.i2, t.i3]⟩], .mk ⟨1, 0, 0, 0, 0, 1, 0, 0, 0, 0, 1, 0⟩ [] [0]⟩,
      u32 shape.mesh.points.length, u32 shape.mesh.tris.length, fmt, filename⟩ := by
  unfold writeCall at h
  simp only at h
  cases h1 : format.mapM tolower with
  | error e =>
    rw [h1] at h
    cases h
  | ok f =>
    rw [h1, Shapes.ok_bind] at h
    split_ifs at h
    · cases h2 : guess filename with
      | error e =>
        rw [h2] at h
        cases h
      | ok fmt =>
        rw [h2, Shapes.ok_bind] at h
        cases h
        exact ⟨fmt, rfl⟩
    · cases h
      exact ⟨f, rfl⟩

theorem guess_three (stem : List Char) (a b x : Char) : ∃ f, guess (stem ++ [a, b, x]) = .ok f ∧
    f = ((formats.lookup [a, b, x]).getD (if x = 'x' then ['x'] else [])) := by
  refine ⟨_, ?_, rfl⟩
  unfold guess
  rw [hasSuffix_three _ _ _ _ (by decide), hasSuffix_three _ _ _ _ (by decide), hasSuffix_three _ _ _ _ (by decide),
    hasSuffix_three _ _ _ _ (by decide), hasSuffix_three _ _ _ _ (by decide), hasSuffix_three _ _ _ _ (by decide),
    hasSuffix_three _ _ _ _ (by decide), show "x".toList = ['x'] from rfl, hasSuffix_one, hasSuffix_three _ _ _ _ (by decide)]
  simp only [Shapes.ok_bind, Shapes.ok_pure, decide_eq_true_eq]
  unfold formats
  simp only [List.lookup_cons, List.lookup_nil]
  by_cases h1 : [a, b, x] = "3ds".toList
  · cases h1; rfl
  by_cases h2 : [a, b, x] = "3mf".toList
  · cases h2; rfl
  by_cases h3 : [a, b, x] = "dae".toList
  · cases h3; rfl
  by_cases h4 : [a, b, x] = "ply".toList
  · cases h4; rfl
  by_cases h5 : [a, b, x] = "obj".toList
  · cases h5; rfl
  by_cases h6 : [a, b, x] = "stp".toList
  · cases h6; rfl
  by_cases h7 : [a, b, x] = "stl".toList
  · cases h7; rfl
  rw [if_neg h1, if_neg h2, if_neg h3, if_neg h4, if_neg h5, if_neg h6, if_neg h7]
  rw [beq_eq_false_iff_ne.2 h1, beq_eq_false_iff_ne.2 h2, beq_eq_false_iff_ne.2 h3, beq_eq_false_iff_ne.2 h4,
    beq_eq_false_iff_ne.2 h5, beq_eq_false_iff_ne.2 h6, beq_eq_false_iff_ne.2 h7]
  by_cases h8 : [a, b, x] = "x3d".toList
  · cases h8; rfl
  rw [if_neg h8, beq_eq_false_iff_ne.2 h8]
  split_ifs <;> rfl

end Geo.Export
