import Verif.Model.Math
import Verif.Model.Single

/-!
# Poses in floating point arithmetic

`Model/Math` computes with real numbers. Here the pose operations are written with the rounding `rnd` that follows every
multiplication, addition, subtraction and division. With `rnd` the identity the functions are those of `Model/Math`
(`C93_exact`). Simplifications: no overflow and no subnormal numbers; products and sums are not fused.
-/

namespace Geo

/-- Conversion of a result to `double`: the nearest number with 53 binary digits, ties to even. Models the platform (no line
in /repo). Simplification: no overflow, no subnormal numbers, no signed zero. -/
noncomputable def toDouble (x : ℝ) : ℝ :=
  if x = 0 then 0
  else
    let e := Int.log 2 |x| - 52
    nearestEven (x / 2 ^ e) * 2 ^ e

namespace Rounded

/-- `a * x + b * y + c * z`, include/geolib/math_types.h:551. -/
def dot3 (rnd : ℝ → ℝ) (a b c x y z : ℝ) : ℝ := rnd (rnd (rnd (a * x) + rnd (b * y)) + rnd (c * z))

/-- `Vec3T::operator+`, include/geolib/math_types.h:196. -/
def add (rnd : ℝ → ℝ) (a b : Vec3) : Vec3 := ⟨rnd (a.x + b.x), rnd (a.y + b.y), rnd (a.z + b.z)⟩

/-- `Mat3T::operator*(Vec3T)`, include/geolib/math_types.h:549-552. -/
def mulVec (rnd : ℝ → ℝ) (m : Mat3) (v : Vec3) : Vec3 :=
  ⟨dot3 rnd m.xx m.xy m.xz v.x v.y v.z, dot3 rnd m.yx m.yy m.yz v.x v.y v.z, dot3 rnd m.zx m.zy m.zz v.x v.y v.z⟩

/-- `Mat3T::operator*(Mat3T)`, include/geolib/math_types.h:554-565. -/
def mulMat (rnd : ℝ → ℝ) (a m : Mat3) : Mat3 :=
  ⟨dot3 rnd a.xx a.xy a.xz m.xx m.yx m.zx, dot3 rnd a.xx a.xy a.xz m.xy m.yy m.zy, dot3 rnd a.xx a.xy a.xz m.xz m.yz m.zz,
   dot3 rnd a.yx a.yy a.yz m.xx m.yx m.zx, dot3 rnd a.yx a.yy a.yz m.xy m.yy m.zy, dot3 rnd a.yx a.yy a.yz m.xz m.yz m.zz,
   dot3 rnd a.zx a.zy a.zz m.xx m.yx m.zx, dot3 rnd a.zx a.zy a.zz m.xy m.yy m.zy, dot3 rnd a.zx a.zy a.zz m.xz m.yz m.zz⟩

/-- `Transform3T::operator*(Vec3T)`, include/geolib/math_types.h:820. -/
def apply (rnd : ℝ → ℝ) (T : Transform3) (v : Vec3) : Vec3 := add rnd (mulVec rnd T.R v) T.t

/-- `Transform3T::operator*(Transform3T)`, include/geolib/math_types.h:822. -/
def mul (rnd : ℝ → ℝ) (T S : Transform3) : Transform3 := ⟨mulMat rnd T.R S.R, add rnd (mulVec rnd T.R S.t) T.t⟩

/-- `Transform3T::inverse`, include/geolib/math_types.h:844-848; a change of sign is exact. -/
def inverse (rnd : ℝ → ℝ) (T : Transform3) : Transform3 :=
  let inv := T.R.transpose
  ⟨inv, mulVec rnd inv (-T.t)⟩

/-- `Mat3T::setRotation`, include/geolib/math_types.h:644-662, with `QuaternionT::length2`, 446. -/
noncomputable def setRotation (rnd : ℝ → ℝ) (q : Quat) : Mat3 :=
  let d := rnd (rnd (rnd (rnd (q.x * q.x) + rnd (q.y * q.y)) + rnd (q.z * q.z)) + rnd (q.w * q.w))
  let s := rnd (2 / d)
  let xs := rnd (q.x * s)
  let ys := rnd (q.y * s)
  let zs := rnd (q.z * s)
  let wx := rnd (q.w * xs)
  let wy := rnd (q.w * ys)
  let wz := rnd (q.w * zs)
  let xx := rnd (q.x * xs)
  let xy := rnd (q.x * ys)
  let xz := rnd (q.x * zs)
  let yy := rnd (q.y * ys)
  let yz := rnd (q.y * zs)
  let zz := rnd (q.z * zs)
  ⟨rnd (1 - rnd (yy + zz)), rnd (xy - wz), rnd (xz + wy),
   rnd (xy + wz), rnd (1 - rnd (xx + zz)), rnd (yz - wx),
   rnd (xz - wy), rnd (yz + wx), rnd (1 - rnd (xx + yy))⟩

end Rounded

end Geo
