import Verif.Scalar
import Mathlib.Data.Fin.VecNotation

/-!
# The fragment of Eigen used by the code

Fixed-size vectors, matrices and quaternions with the coefficient formulas Eigen uses.
-/

namespace Verif

open Flt

/-- `Eigen::Matrix<P, n, 1>` -/
abbrev Vec (n : ℕ) (α : Type) := Fin n → α
/-- `Eigen::Matrix<P, m, n>` -/
abbrev Mat (m n : ℕ) (α : Type) := Matrix (Fin m) (Fin n) α

section
variable {α : Type} [Flt α] {m n k : ℕ}

/-- `Vector::Zero()` -/
def vzero : Vec n α := fun _ => lit 0
/-- `Vector::Ones()` -/
def vones : Vec n α := fun _ => lit 1
/-- `u + v` -/
def vadd (u v : Vec n α) : Vec n α := fun i => u i ⊞ v i
/-- `u - v` -/
def vsub (u v : Vec n α) : Vec n α := fun i => u i ⊟ v i
/-- `-v` -/
def vneg (v : Vec n α) : Vec n α := fun i => neg (v i)
/-- `c * v` -/
def smulL (c : α) (v : Vec n α) : Vec n α := fun i => c ⊠ v i
/-- `v * c` -/
def smulR (v : Vec n α) (c : α) : Vec n α := fun i => v i ⊠ c
/-- `v / c` -/
def sdiv (v : Vec n α) (c : α) : Vec n α := fun i => v i ⊘ c
/-- `u.cwiseProduct(v)` -/
def vmul (u v : Vec n α) : Vec n α := fun i => u i ⊠ v i
/-- `u.cwiseQuotient(v)` -/
def vdiv (u v : Vec n α) : Vec n α := fun i => u i ⊘ v i
/-- `u.dot(v)` -/
def dot (u v : Vec n α) : α := vsum fun i => u i ⊠ v i
/-- `v.squaredNorm()` -/
def normSq (v : Vec n α) : α := vsum fun i => v i ⊠ v i
/-- `v.norm()` -/
def norm (v : Vec n α) : α := sqrt (normSq v)
/-- `v.normalized()`: Eigen divides by the norm only if the squared norm is positive. -/
def normalized (v : Vec n α) : Vec n α :=
  if lt (lit 0) (normSq v) then sdiv v (sqrt (normSq v)) else v
/-- `u.cross(v)` (Eigen/Geometry/OrthoMethods.h) -/
def cross (u v : Vec 3 α) : Vec 3 α :=
  ![u 1 ⊠ v 2 ⊟ u 2 ⊠ v 1, u 2 ⊠ v 0 ⊟ u 0 ⊠ v 2, u 0 ⊠ v 1 ⊟ u 1 ⊠ v 0]

/-- `Matrix::Zero()` -/
def mzero : Mat m n α := fun _ _ => lit 0
/-- `Matrix::Identity()` -/
def mident : Mat n n α := fun i j => if i = j then lit 1 else lit 0
/-- `v.asDiagonal()` assigned to a dense matrix -/
def mdiag (v : Vec n α) : Mat n n α := fun i j => if i = j then v i else lit 0
/-- `A * v` -/
def mv (A : Mat m n α) (v : Vec n α) : Vec m α := fun i => vsum fun j => A i j ⊠ v j
/-- `A * B` -/
def mm (A : Mat m n α) (B : Mat n k α) : Mat m k α := fun i j => vsum fun l => A i l ⊠ B l j
/-- `A - B` -/
def msub (A B : Mat m n α) : Mat m n α := fun i j => A i j ⊟ B i j
/-- `-A` -/
def mneg (A : Mat m n α) : Mat m n α := fun i j => neg (A i j)
/-- `A.transpose()` -/
def mT (A : Mat m n α) : Mat n m α := fun i j => A j i
/-- `A.diagonal()` -/
def mdiagonal (A : Mat n n α) : Vec n α := fun i => A i i

/-- Eigen's coefficient-wise `sign()`: `(a > 0) - (a < 0)`. -/
def sign (a : α) : α :=
  if lt (lit 0) a then lit 1 else if lt a (lit 0) then lit (-1) else lit 0

/-- `std::clamp(v, lo, hi)` on its defined domain: `(v < lo) ? lo : (hi < v) ? hi : v`. -/
def clampVal (v lo hi : α) : α := if lt v lo then lo else if lt hi v then hi else v

end

/-- `Eigen::Quaternion<P>` -/
@[ext] structure Quat (α : Type) where
  w : α
  x : α
  y : α
  z : α

namespace Quat
variable {α : Type} [Flt α]

/-- `Quaternion::Identity()` -/
def identity : Quat α := ⟨lit 1, lit 0, lit 0, lit 0⟩
/-- `q.vec()` -/
def vec (q : Quat α) : Vec 3 α := ![q.x, q.y, q.z]
/-- `q.coeffs()`: order x, y, z, w. -/
def coeffs (q : Quat α) : Vec 4 α := ![q.x, q.y, q.z, q.w]
/-- `q.coeffs() = c` -/
def ofCoeffs (c : Vec 4 α) : Quat α := ⟨c 3, c 0, c 1, c 2⟩
/-- Hamilton product (Eigen/Geometry/Quaternion.h, `quat_product`). -/
def mul (a b : Quat α) : Quat α :=
  ⟨a.w ⊠ b.w ⊟ a.x ⊠ b.x ⊟ a.y ⊠ b.y ⊟ a.z ⊠ b.z,
   a.w ⊠ b.x ⊞ a.x ⊠ b.w ⊞ a.y ⊠ b.z ⊟ a.z ⊠ b.y,
   a.w ⊠ b.y ⊞ a.y ⊠ b.w ⊞ a.z ⊠ b.x ⊟ a.x ⊠ b.z,
   a.w ⊠ b.z ⊞ a.z ⊠ b.w ⊞ a.x ⊠ b.y ⊟ a.y ⊠ b.x⟩
/-- `q * v` (`_transformVector`): `uv = 2 (q.vec × v)`, `v + w uv + q.vec × uv`. -/
def rotate (q : Quat α) (v : Vec 3 α) : Vec 3 α :=
  let uv := cross q.vec v
  let uv := vadd uv uv
  vadd (vadd v (smulL q.w uv)) (cross q.vec uv)
/-- `q.inverse()`: conjugate over squared norm, zero quaternion if the squared norm is not positive. -/
def inverse (q : Quat α) : Quat α :=
  let n2 := normSq q.coeffs
  if lt (lit 0) n2 then ⟨q.w ⊘ n2, neg q.x ⊘ n2, neg q.y ⊘ n2, neg q.z ⊘ n2⟩
  else ⟨lit 0, lit 0, lit 0, lit 0⟩
/-- `q.normalize()` / `q.normalized()` -/
def normalized (q : Quat α) : Quat α := ofCoeffs (Verif.normalized q.coeffs)
/-- `q.toRotationMatrix()` (Eigen/Geometry/Quaternion.h). -/
def toMat (q : Quat α) : Mat 3 3 α :=
  let tx := lit 2 ⊠ q.x
  let ty := lit 2 ⊠ q.y
  let tz := lit 2 ⊠ q.z
  let twx := tx ⊠ q.w
  let twy := ty ⊠ q.w
  let twz := tz ⊠ q.w
  let txx := tx ⊠ q.x
  let txy := ty ⊠ q.x
  let txz := tz ⊠ q.x
  let tyy := ty ⊠ q.y
  let tyz := tz ⊠ q.y
  let tzz := tz ⊠ q.z
  Matrix.of ![![lit 1 ⊟ (tyy ⊞ tzz), txy ⊟ twz, txz ⊞ twy],
    ![txy ⊞ twz, lit 1 ⊟ (txx ⊞ tzz), tyz ⊟ twx],
    ![txz ⊟ twy, tyz ⊞ twx, lit 1 ⊟ (txx ⊞ tyy)]]

end Quat

end Verif
