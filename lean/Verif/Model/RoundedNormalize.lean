import Verif.Model.RoundedBox

/-!
# Normalisation in floating point arithmetic

`Model/Math` computes with real numbers. Here the rounding `rnd` follows every operation. `Rounded.length` and `Rounded.normalized`
for vectors in space are in `Model/RoundedShape` and `Model/RoundedBox`. With the identity for `rnd` the functions are those of
`Model/Math` (`C133_exact`). Simplifications: no overflow and no subnormal numbers; products and sums are not fused; division by
zero gives 0 instead of NaN (never claimed about).
-/

namespace Geo.RoundedNormalize

/-- `Vec2T::length`, include/geolib/math_types.h:73. -/
noncomputable def length2D (rnd : ℝ → ℝ) (a : Vec2) : ℝ := rnd (Real.sqrt (rnd (rnd (a.x * a.x) + rnd (a.y * a.y))))

/-- `Vec2T::normalized`, include/geolib/math_types.h:79-83 (and `normalize`, 86-91). -/
noncomputable def normalized2D (rnd : ℝ → ℝ) (a : Vec2) : Vec2 :=
  let len := length2D rnd a
  ⟨rnd (a.x / len), rnd (a.y / len)⟩

/-- `QuaternionT::length`, include/geolib/math_types.h:443. -/
noncomputable def quatLength (rnd : ℝ → ℝ) (q : Quat) : ℝ :=
  rnd (Real.sqrt (rnd (rnd (rnd (rnd (q.x * q.x) + rnd (q.y * q.y)) + rnd (q.z * q.z)) + rnd (q.w * q.w))))

/-- `QuaternionT::normalized`, include/geolib/math_types.h:449-453 (and `normalize`, 456-463). -/
noncomputable def quatNormalized (rnd : ℝ → ℝ) (q : Quat) : Quat :=
  let len := quatLength rnd q
  ⟨rnd (q.x / len), rnd (q.y / len), rnd (q.z / len), rnd (q.w / len)⟩

/-- `Mat3T::normalize` (the new value of the matrix), include/geolib/math_types.h:687-701. -/
noncomputable def matNormalize (rnd : ℝ → ℝ) (m : Mat3) : Mat3 :=
  let len_x := Rounded.length rnd (m.getColumn 0)
  let len_y := Rounded.length rnd (m.getColumn 1)
  let len_z := Rounded.length rnd (m.getColumn 2)
  ⟨rnd (m.xx / len_x), rnd (m.xy / len_y), rnd (m.xz / len_z),
   rnd (m.yx / len_x), rnd (m.yy / len_y), rnd (m.yz / len_z),
   rnd (m.zx / len_x), rnd (m.zy / len_y), rnd (m.zz / len_z)⟩

/-- `Mat3T::normalized`, include/geolib/math_types.h:703-709. -/
noncomputable def matNormalized (rnd : ℝ → ℝ) (m : Mat3) : Mat3 :=
  let x := m.getColumn 0
  let y := m.getColumn 1
  let z := m.getColumn 2
  Mat3.ofCols (Rounded.normalized rnd x) (Rounded.normalized rnd y) (Rounded.normalized rnd z)

end Geo.RoundedNormalize
