import Verif.Spec.DepthCamera
import Verif.Lemmas.Mesh

/-!
# The image and the maps of the depth camera
-/

namespace Geo

open Spec

namespace DefaultResult

theorem store_ok {α : Type} {m : List (List α)} {x y : ℕ} (v : α) {col : List α} (hx : m[x]? = some col)
    (hy : y < col.length) : store m x y v = .ok (m.set x (col.set y v)) := by
  unfold store
  rw [vget_ok.2 hx]
  simp only [bind, Except.bind, hy, if_true, pure, Except.pure]

theorem entry_store {α : Type} {m : List (List α)} {x y : ℕ} (v : α) {col : List α} (hx : m[x]? = some col)
    (hy : y < col.length) (x' y' : ℕ) :
    entry (m.set x (col.set y v)) x' y' = if x' = x ∧ y' = y then some v else entry m x' y' := by
  have hl : x < m.length := (List.getElem?_eq_some_iff.1 hx).1
  unfold entry
  by_cases h1 : x' = x
  · subst h1
    rw [List.getElem?_set_self hl, hx]
    simp only [Option.bind_some, true_and]
    by_cases h2 : y' = y
    · subst h2
      rw [List.getElem?_set_self hy, if_pos rfl]
    · rw [List.getElem?_set_ne (Ne.symm h2), if_neg h2]
  · rw [List.getElem?_set_ne (Ne.symm h1), if_neg (fun h => h1 h.1)]

theorem lengths_store {α : Type} {m : List (List α)} {x y : ℕ} (v : α) {col : List α} (hx : m[x]? = some col) :
    (m.set x (col.set y v)).map List.length = m.map List.length := by
  rw [List.map_set]
  obtain ⟨hl, e⟩ := List.getElem?_eq_some_iff.1 hx
  apply List.ext_getElem?
  intro i
  by_cases h : i = x
  · subst h
    rw [List.getElem?_set_self (by simpa using hl)]
    simp [List.getElem?_map, hx]
  · rw [List.getElem?_set_ne (Ne.symm h)]

theorem roomy_lengths {α β : Type} {m : List (List α)} {m' : List (List β)} (h : m'.map List.length = m.map List.length)
    {cols rows : ℕ} (hm : Roomy m cols rows) : Roomy m' cols rows := by
  obtain ⟨h1, h2⟩ := hm
  have hl : m'.length = m.length := by simpa using congrArg List.length h
  refine ⟨by omega, fun col hc => ?_⟩
  have : col.length ∈ m.map List.length := by
    rw [← h]
    exact List.mem_map_of_mem hc
  obtain ⟨c, hc', e⟩ := List.mem_map.1 this
  rw [← e]
  exact h2 c hc'

/-- The maps have room for the image. -/
structure Fit (r : DefaultResult) : Prop where
  tri : Roomy r.triangleMap r.image.cols r.image.rows
  ptr : r.pointer ≠ 0 → Roomy r.pointerMap r.image.cols r.image.rows

/-- What a call does not change. -/
structure Same (r r' : DefaultResult) : Prop where
  cols : r'.image.cols = r.image.cols
  rows : r'.image.rows = r.image.rows
  pointer : r'.pointer = r.pointer
  stop : r'.stop = r.stop
  tri : r'.triangleMap.map List.length = r.triangleMap.map List.length
  ptr : r'.pointerMap.map List.length = r.pointerMap.map List.length

theorem Same.refl (r : DefaultResult) : Same r r := ⟨rfl, rfl, rfl, rfl, rfl, rfl⟩

theorem Same.trans {a b c : DefaultResult} (h : Same a b) (h' : Same b c) : Same a c :=
  ⟨h'.cols.trans h.cols, h'.rows.trans h.rows, h'.pointer.trans h.pointer, h'.stop.trans h.stop, h'.tri.trans h.tri,
    h'.ptr.trans h.ptr⟩

theorem Same.fit {a b : DefaultResult} (h : Same a b) (hf : Fit a) : Fit b := by
  refine ⟨?_, fun hp => ?_⟩
  · rw [h.cols, h.rows]
    exact roomy_lengths h.tri hf.tri
  · rw [h.cols, h.rows]
    exact roomy_lengths h.ptr (hf.ptr (by rwa [← h.pointer]))

/-- The call changes the pixel. -/
def Takes (r : DefaultResult) (c : PixelCall) : Prop :=
  (r.image.at' c.y.toNat c.x.toNat).isZero = true ∨ c.depth.lt (r.image.at' c.y.toNat c.x.toNat) = true

open Classical in
theorem pixel_ok {r : DefaultResult} {c : PixelCall} (hin : InImage r.image.cols r.image.rows c.x c.y) (hf : Fit r) :
    ∃ r', pixel r c = .ok r' ∧ Same r r' ∧ ∀ x y : ℕ,
      r'.image.at' y x = (if Takes r c ∧ At x y c then c.depth else r.image.at' y x) ∧
      entry r'.triangleMap x y = (if Takes r c ∧ At x y c then some (toInt32 c.tri) else entry r.triangleMap x y) ∧
      entry r'.pointerMap x y = (if r.pointer ≠ 0 ∧ Takes r c ∧ At x y c then some r.pointer else entry r.pointerMap x y) := by
  obtain ⟨h1, h2, h3, h4⟩ := hin
  have hat : ∀ x y : ℕ, At x y c ↔ x = c.x.toNat ∧ y = c.y.toNat := fun x y => by
    unfold At
    omega
  unfold pixel
  rw [if_neg (by simp only [not_not]; exact ⟨h1, h2, h3, h4⟩)]
  by_cases ht : Takes r c
  · have ht' := ht
    unfold Takes at ht'
    rw [← Bool.or_eq_true] at ht'
    rw [if_pos ht']
    have hx : c.x.toNat < r.triangleMap.length := by have := hf.tri.1; omega
    have hy := hf.tri.2 _ (List.getElem_mem hx)
    have hxe : r.triangleMap[c.x.toNat]? = some r.triangleMap[c.x.toNat] := List.getElem?_eq_getElem hx
    have hne : r.triangleMap.isEmpty = false := by
      cases hm : r.triangleMap with
      | nil => rw [hm] at hx; simp at hx
      | cons => rfl
    rw [store_ok (toInt32 c.tri) hxe (by omega)]
    by_cases hp : r.pointer ≠ 0
    · have px : c.x.toNat < r.pointerMap.length := by have := (hf.ptr hp).1; omega
      have py := (hf.ptr hp).2 _ (List.getElem_mem px)
      have pxe : r.pointerMap[c.x.toNat]? = some r.pointerMap[c.x.toNat] := List.getElem?_eq_getElem px
      rw [if_pos hp, store_ok r.pointer pxe (by omega)]
      simp only [bind, Except.bind, pure, Except.pure, hne, Bool.false_eq_true, if_false]
      refine ⟨_, rfl, ⟨rfl, rfl, rfl, rfl, lengths_store _ hxe, lengths_store _ pxe⟩, fun x y => ⟨?_, ?_, ?_⟩⟩
      · simp only [ht, true_and, hat, and_comm]
      · rw [entry_store _ hxe (by omega)]
        simp only [ht, true_and, hat]
      · rw [entry_store _ pxe (by omega)]
        simp only [ht, hp, true_and, hat, ne_eq, not_false_eq_true]
    · rw [if_neg hp]
      simp only [bind, Except.bind, pure, Except.pure, hne, Bool.false_eq_true, if_false]
      refine ⟨_, rfl, ⟨rfl, rfl, rfl, rfl, lengths_store _ hxe, rfl⟩, fun x y => ⟨?_, ?_, ?_⟩⟩
      · simp only [ht, true_and, hat, and_comm]
      · rw [entry_store _ hxe (by omega)]
        simp only [ht, true_and, hat]
      · rw [if_neg (fun h => hp h.1)]
  · have ht' := ht
    unfold Takes at ht'
    rw [← Bool.or_eq_true] at ht'
    rw [if_neg ht']
    refine ⟨r, rfl, .refl r, fun x y => ⟨?_, ?_, ?_⟩⟩
    · rw [if_neg (fun h => ht h.1)]
    · rw [if_neg (fun h => ht h.1)]
    · rw [if_neg (fun h => ht h.2.1)]

/-- Calls inside the image never fail. -/
theorem pixels_ok {r : DefaultResult} (hf : Fit r) : ∀ (cs : List PixelCall),
    (∀ c ∈ cs, InImage r.image.cols r.image.rows c.x c.y) → ∃ r', sink.pixels cs r = .ok r' ∧ Same r r' := by
  intro cs
  induction cs generalizing r with
  | nil => exact fun _ => ⟨r, rfl, .refl r⟩
  | cons c cs ih =>
    intro h
    obtain ⟨r1, e1, s1, -⟩ := pixel_ok (h c List.mem_cons_self) hf
    obtain ⟨r2, e2, s2⟩ := ih (s1.fit hf) (fun d hd => by
      rw [s1.cols, s1.rows]
      exact h d (List.mem_cons_of_mem _ hd))
    refine ⟨r2, ?_, s1.trans s2⟩
    show (pixel r c >>= fun s => sink.pixels cs s) = _
    rw [e1]
    exact e2

end DefaultResult

/-- What a pixel holds after some calls: what it held, or the depth and triangle of one of the calls. -/
theorem buffer_spec {r : DefaultResult} (hf : r.Fit) (x y : ℕ) : ∀ (cs : List PixelCall) (old : ℝ),
    (∀ c ∈ cs, InImage r.image.cols r.image.rows c.x c.y) → (∀ c ∈ cs, At x y c → ∃ d, 0 < d ∧ c.depth = .fin d) →
    r.image.at' y x = .fin old → 0 ≤ old →
    ∃ r', DefaultResult.sink.pixels cs r = .ok r' ∧
      ((r'.image.at' y x = .fin old ∧ entry r'.triangleMap x y = entry r.triangleMap x y ∧
          entry r'.pointerMap x y = entry r.pointerMap x y ∧
          ∀ c ∈ cs, At x y c → 0 < old ∧ ∃ d, c.depth = .fin d ∧ old ≤ d) ∨
        ∃ pre c post v, cs = pre ++ c :: post ∧ At x y c ∧ c.depth = .fin v ∧ (old = 0 ∨ v < old) ∧
          (∀ e ∈ pre, At x y e → ∃ d, e.depth = .fin d ∧ v < d) ∧
          (∀ e ∈ post, At x y e → ∃ d, e.depth = .fin d ∧ v ≤ d) ∧
          r'.image.at' y x = .fin v ∧ entry r'.triangleMap x y = some (toInt32 c.tri) ∧
          entry r'.pointerMap x y = if r.pointer ≠ 0 then some r.pointer else entry r.pointerMap x y) := by
  intro cs
  induction cs generalizing r with
  | nil => exact fun old _ _ ho _ => ⟨r, rfl, .inl ⟨ho, rfl, rfl, by simp⟩⟩
  | cons c cs ih =>
    intro old hin hpos ho h0
    obtain ⟨r1, e1, s1, hv⟩ := DefaultResult.pixel_ok (hin c List.mem_cons_self) hf
    obtain ⟨v1, v2, v3⟩ := hv x y
    have hin' : ∀ d ∈ cs, InImage r1.image.cols r1.image.rows d.x d.y := fun d hd => by
      rw [s1.cols, s1.rows]
      exact hin d (List.mem_cons_of_mem _ hd)
    have hstep : ∀ r2, DefaultResult.sink.pixels cs r1 = .ok r2 → DefaultResult.sink.pixels (c :: cs) r = .ok r2 := by
      intro r2 h
      show (DefaultResult.pixel r c >>= fun s => DefaultResult.sink.pixels cs s) = _
      rw [e1]
      exact h
    have hpos' : ∀ d ∈ cs, At x y d → ∃ e, 0 < e ∧ d.depth = .fin e := fun d hd => hpos d (List.mem_cons_of_mem _ hd)
    by_cases hc : r.Takes c ∧ At x y c
    · obtain ⟨d, hd0, hd⟩ := hpos c List.mem_cons_self hc.2
      rw [if_pos hc] at v1 v2
      have hold : old = 0 ∨ d < old := by
        have := hc.1
        unfold DefaultResult.Takes at this
        rw [show c.y.toNat = y by have := hc.2.2; omega, show c.x.toNat = x by have := hc.2.1; omega, ho, hd] at this
        simpa [Fl.isZero, Fl.lt] using this
      obtain ⟨r2, e2, h2⟩ := ih (s1.fit hf) d hin' hpos' (by rw [v1, hd]) hd0.le
      refine ⟨r2, hstep r2 e2, .inr ?_⟩
      rcases h2 with ⟨a1, a2, a3, a4⟩ | ⟨pre, b, post, v, b1, b2, b3, b4, b5, b6, b7, b8, b9⟩
      · refine ⟨[], c, cs, d, rfl, hc.2, hd, hold, by simp, fun e he hae => ?_, a1, by rw [a2, v2], ?_⟩
        · obtain ⟨-, d', h1, h2⟩ := a4 e he hae
          exact ⟨d', h1, h2⟩
        · rw [a3, v3]
          by_cases hp : r.pointer ≠ 0
          · rw [if_pos ⟨hp, hc⟩, if_pos hp]
          · rw [if_neg (fun h => hp h.1), if_neg hp]
      · have hvd : v < d := b4.resolve_left hd0.ne'
        refine ⟨c :: pre, b, post, v, by rw [b1]; rfl, b2, b3, hold.imp id hvd.trans, ?_, b6, b7, b8, ?_⟩
        · intro e he hae
          rcases List.mem_cons.1 he with rfl | he
          · exact ⟨d, hd, hvd⟩
          · exact b5 e he hae
        · rw [b9, s1.pointer, v3]
          by_cases hp : r.pointer ≠ 0
          · rw [if_pos hp, if_pos hp]
          · rw [if_neg hp, if_neg hp, if_neg (fun h => hp h.1)]
    · rw [if_neg hc] at v1 v2
      rw [if_neg (fun h => hc h.2)] at v3
      have hge : At x y c → 0 < old ∧ ∃ d, c.depth = .fin d ∧ old ≤ d := by
        intro hac
        obtain ⟨d, hd0, hd⟩ := hpos c List.mem_cons_self hac
        have ht : ¬ r.Takes c := fun h => hc ⟨h, hac⟩
        unfold DefaultResult.Takes at ht
        rw [show c.y.toNat = y by have := hac.2; omega, show c.x.toNat = x by have := hac.1; omega, ho, hd] at ht
        simp only [Fl.isZero, Fl.lt, decide_eq_true_eq, not_or, not_lt] at ht
        exact ⟨lt_of_le_of_ne h0 (Ne.symm ht.1), d, hd, ht.2⟩
      obtain ⟨r2, e2, h2⟩ := ih (s1.fit hf) old hin' hpos' (by rw [v1, ho]) h0
      refine ⟨r2, hstep r2 e2, ?_⟩
      rcases h2 with ⟨a1, a2, a3, a4⟩ | ⟨pre, b, post, v, b1, b2, b3, b4, b5, b6, b7, b8, b9⟩
      · left
        refine ⟨a1, by rw [a2, v2], by rw [a3, v3], fun e he hae => ?_⟩
        rcases List.mem_cons.1 he with rfl | he
        · exact hge hae
        · exact a4 e he hae
      · right
        refine ⟨c :: pre, b, post, v, by rw [b1]; rfl, b2, b3, b4, ?_, b6, b7, b8, ?_⟩
        · intro e he hae
          rcases List.mem_cons.1 he with rfl | he
          · obtain ⟨g0, d, g1, g2⟩ := hge hae
            refine ⟨d, g1, ?_⟩
            rcases b4 with h | h
            · exact absurd h g0.ne'
            · exact h.trans_le g2
          · exact b5 e he hae
        · rw [b9, s1.pointer, v3]

end Geo
