import Verif.Model.Rounded

/-!
# Roll, pitch and yaw in floating point arithmetic

`setRPY` and `getRPY` of `Model/Math` with the rounding `rnd` after every operation; with `rnd` the identity the functions are
those (`C128_exact`). Simplifications: those of `Model/Rounded`; the functions of the mathematical library round as an operation
does. Comparisons, changes of sign and absolute values are exact.
-/

namespace Geo.Rounded

/-- `Mat3T::setRPY`, include/geolib/math_types.h:589-610. -/
noncomputable def setRPY (rnd : ℝ → ℝ) (roll pitch yaw : ℝ) : Mat3 :=
  let ci := rnd (Real.cos roll)
  let cj := rnd (Real.cos pitch)
  let ch := rnd (Real.cos yaw)
  let si := rnd (Real.sin roll)
  let sj := rnd (Real.sin pitch)
  let sh := rnd (Real.sin yaw)
  let cc := rnd (ci * ch)
  let cs := rnd (ci * sh)
  let sc := rnd (si * ch)
  let ss := rnd (si * sh)
  ⟨rnd (cj * ch), rnd (rnd (sj * sc) - cs), rnd (rnd (sj * cc) + ss),
   rnd (cj * sh), rnd (rnd (sj * ss) + cc), rnd (rnd (sj * cs) - sc),
   -sj, rnd (cj * si), rnd (cj * ci)⟩

/-- `Transform3T::getRPY` as the triple (roll, pitch, yaw), include/geolib/math_types.h:852-867. `M_PI` is `π` rounded. -/
noncomputable def getRPY (rnd : ℝ → ℝ) (T : Transform3) : ℝ × ℝ × ℝ :=
  let epsilon : ℝ := 1e-12
  let pitch := rnd (atan2 (-T.R.zx) (rnd (Real.sqrt (rnd (rnd (T.R.zy * T.R.zy) + rnd (T.R.zz * T.R.zz))))))
  if |rnd (pitch - rnd (rnd Real.pi / 2))| < epsilon then
    (0, pitch, rnd (atan2 (-T.R.xy) T.R.yy))
  else
    (rnd (atan2 T.R.zy T.R.zz), pitch, rnd (atan2 T.R.yx T.R.xx))

/-- `Transform3T::getYaw`, include/geolib/math_types.h:869-874. -/
noncomputable def getYaw (rnd : ℝ → ℝ) (T : Transform3) : ℝ := (getRPY rnd T).2.2

end Geo.Rounded
