import Verif.Model.DepthCamera
import Verif.Model.Rounded

/-!
# The projections of the depth camera in floating point arithmetic

`Model/DepthCamera` computes them with real numbers. Here the rounding `rnd` follows every operation. With `rnd` the identity the
functions are those of `Model/DepthCamera` (`C110_exact`). Simplifications: no overflow and no subnormal numbers.
-/

namespace Geo.Rounded

/-- `DepthCamera::project3Dto2D<double, double>`, include/geolib/sensors/DepthCamera.h:210-214; a change of sign is exact. -/
noncomputable def project3Dto2D (rnd : ℝ → ℝ) (c : Camera) (p : Vec3) : Vec2 :=
  ⟨rnd (rnd (rnd (rnd (c.fx * p.x) + c.Tx) / -p.z) + c.cx), rnd (rnd (rnd (rnd (c.fy * -p.y) + c.Ty) / -p.z) + c.cy)⟩

/-- `DepthCamera::project3Dto2D<double, float>`, include/geolib/sensors/DepthCamera.h:210-214: the coordinates are computed in
`double` and converted to `float` when the point is made. -/
noncomputable def project3Dto2Dfloat (rnd toF : ℝ → ℝ) (c : Camera) (p : Vec3) : Vec2 :=
  ⟨toF (project3Dto2D rnd c p).x, toF (project3Dto2D rnd c p).y⟩

/-- `DepthCamera::project3Dto2D<double, int>`, include/geolib/sensors/DepthCamera.h:210-214: the coordinates are computed in
`double` and truncated when the point is made. -/
noncomputable def project3Dto2Dint (rnd : ℝ → ℝ) (c : Camera) (p : Vec3) : Exec (ℤ × ℤ) := do
  let x ← castInt (project3Dto2D rnd c p).x
  let y ← castInt (project3Dto2D rnd c p).y
  return (x, y)

/-- `DepthCamera::project2Dto3DX`, include/geolib/sensors/DepthCamera.h:216; the conversion of an `int` is exact. -/
noncomputable def project2Dto3DX (rnd : ℝ → ℝ) (c : Camera) (x : ℤ) : ℝ := rnd (rnd (x - rnd (c.cx + c.Tx)) / c.fx)

/-- `DepthCamera::project2Dto3DY`, include/geolib/sensors/DepthCamera.h:218. -/
noncomputable def project2Dto3DY (rnd : ℝ → ℝ) (c : Camera) (y : ℤ) : ℝ := rnd (-rnd (y - rnd (c.cy + c.Ty)) / c.fy)

/-- `DepthCamera::project2Dto3D`, include/geolib/sensors/DepthCamera.h:226-229. -/
noncomputable def project2Dto3D (rnd : ℝ → ℝ) (c : Camera) (x y : ℤ) : Vec3 := ⟨project2Dto3DX rnd c x, project2Dto3DY rnd c y, -1⟩

/-- `Vec3T::operator*(T)`, include/geolib/math_types.h:202. -/
def scale (rnd : ℝ → ℝ) (v : Vec3) (d : ℝ) : Vec3 := ⟨rnd (v.x * d), rnd (v.y * d), rnd (v.z * d)⟩

end Geo.Rounded
