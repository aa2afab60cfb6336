import Mathlib.Data.Real.Sqrt
import Mathlib.Algebra.Order.Archimedean.Real.Basic

/-
Vectors and matrices of skyfield/functions.py, in exact real arithmetic.  An array of shape (3, N) is N vectors, treated
elementwise by every function modelled here, so only one vector is modelled.
-/
set_option linter.unusedSectionVars false
namespace Skyfield

/-- An |xyz| array of shape (3,) — skyfield/functions.py:22-30. -/
@[ext] structure Vec3 where
  x : ℝ
  y : ℝ
  z : ℝ

namespace Vec3

/-- Elementwise `+` of arrays. Used at skyfield/functions.py:22-73. -/
instance : Add Vec3 := ⟨fun u v => ⟨u.x + v.x, u.y + v.y, u.z + v.z⟩⟩
/-- Elementwise `-` of arrays. Used at skyfield/functions.py:22-73. -/
instance : Sub Vec3 := ⟨fun u v => ⟨u.x - v.x, u.y - v.y, u.z - v.z⟩⟩
/-- Elementwise operation of arrays. Used at skyfield/functions.py:22-73. -/
instance : Neg Vec3 := ⟨fun u => ⟨-u.x, -u.y, -u.z⟩⟩
/-- Elementwise operation of arrays. Used at skyfield/functions.py:22-73. -/
instance : Zero Vec3 := ⟨⟨0, 0, 0⟩⟩
/-- Scalar times array. Used at skyfield/functions.py:22-73. -/
instance : SMul ℝ Vec3 := ⟨fun k u => ⟨k * u.x, k * u.y, k * u.z⟩⟩
/-- Elementwise `*` of arrays. Used at skyfield/functions.py:22-73. -/
instance : Mul Vec3 := ⟨fun u v => ⟨u.x * v.x, u.y * v.y, u.z * v.z⟩⟩
/-- Elementwise `/` of arrays. Used at skyfield/functions.py:22-73. -/
noncomputable instance : Div Vec3 := ⟨fun u v => ⟨u.x / v.x, u.y / v.y, u.z / v.z⟩⟩

@[simp] theorem add_x (u v : Vec3) : (u + v).x = u.x + v.x := rfl
@[simp] theorem add_y (u v : Vec3) : (u + v).y = u.y + v.y := rfl
@[simp] theorem add_z (u v : Vec3) : (u + v).z = u.z + v.z := rfl
@[simp] theorem sub_x (u v : Vec3) : (u - v).x = u.x - v.x := rfl
@[simp] theorem sub_y (u v : Vec3) : (u - v).y = u.y - v.y := rfl
@[simp] theorem sub_z (u v : Vec3) : (u - v).z = u.z - v.z := rfl
@[simp] theorem neg_x (u : Vec3) : (-u).x = -u.x := rfl
@[simp] theorem neg_y (u : Vec3) : (-u).y = -u.y := rfl
@[simp] theorem neg_z (u : Vec3) : (-u).z = -u.z := rfl
@[simp] theorem zero_x : (0 : Vec3).x = 0 := rfl
@[simp] theorem zero_y : (0 : Vec3).y = 0 := rfl
@[simp] theorem zero_z : (0 : Vec3).z = 0 := rfl
@[simp] theorem smul_x (k : ℝ) (u : Vec3) : (k • u).x = k * u.x := rfl
@[simp] theorem smul_y (k : ℝ) (u : Vec3) : (k • u).y = k * u.y := rfl
@[simp] theorem smul_z (k : ℝ) (u : Vec3) : (k • u).z = k * u.z := rfl
@[simp] theorem mul_x (u v : Vec3) : (u * v).x = u.x * v.x := rfl
@[simp] theorem mul_y (u v : Vec3) : (u * v).y = u.y * v.y := rfl
@[simp] theorem mul_z (u v : Vec3) : (u * v).z = u.z * v.z := rfl
@[simp] theorem div_x (u v : Vec3) : (u / v).x = u.x / v.x := rfl
@[simp] theorem div_y (u v : Vec3) : (u / v).y = u.y / v.y := rfl
@[simp] theorem div_z (u v : Vec3) : (u / v).z = u.z / v.z := rfl

/-- `dots` — skyfield/functions.py:22-30. -/
def dot (u v : Vec3) : ℝ := u.x * v.x + u.y * v.y + u.z * v.z

/-- `length_of` — skyfield/functions.py:50-57. -/
noncomputable def length (v : Vec3) : ℝ := √(v.x * v.x + v.y * v.y + v.z * v.z)

/-- `numpy.cross`, and `_cross` — skyfield/keplerlib.py, skyfield/planetarylib.py. -/
def cross (u v : Vec3) : Vec3 :=
  ⟨u.y * v.z - u.z * v.y, u.z * v.x - u.x * v.z, u.x * v.y - u.y * v.x⟩

end Vec3

/-- A 3×3 matrix, by rows. Used at skyfield/functions.py:32-34. -/
@[ext] structure Mat3 where
  r1 : Vec3
  r2 : Vec3
  r3 : Vec3

namespace Mat3

/-- `T` — skyfield/functions.py:32-34. -/
def transpose (m : Mat3) : Mat3 :=
  ⟨⟨m.r1.x, m.r2.x, m.r3.x⟩, ⟨m.r1.y, m.r2.y, m.r3.y⟩, ⟨m.r1.z, m.r2.z, m.r3.z⟩⟩

/-- `mxv` — skyfield/functions.py:36-38. -/
def mulVec (m : Mat3) (v : Vec3) : Vec3 := ⟨m.r1.dot v, m.r2.dot v, m.r3.dot v⟩

/-- `mxm` — skyfield/functions.py:40-42: entry (i, k) is the sum over j of `M1[i, j] * M2[j, k]`. -/
def mul (m n : Mat3) : Mat3 :=
  let t := n.transpose
  ⟨⟨m.r1.dot t.r1, m.r1.dot t.r2, m.r1.dot t.r3⟩, ⟨m.r2.dot t.r1, m.r2.dot t.r2, m.r2.dot t.r3⟩,
   ⟨m.r3.dot t.r1, m.r3.dot t.r2, m.r3.dot t.r3⟩⟩

/-- `mxmxm` — skyfield/functions.py:44-46. -/
def mul3 (a b c : Mat3) : Mat3 := (a.mul b).mul c

/-- The identity matrix. Used at skyfield/planetarylib.py:106-116 and skyfield/sgp4lib.py:204-213. -/
def one : Mat3 := ⟨⟨1, 0, 0⟩, ⟨0, 1, 0⟩, ⟨0, 0, 1⟩⟩

/-- Elementwise addition of matrices. Used at skyfield/functions.py:22-73. -/
instance : Add Mat3 := ⟨fun m n => ⟨m.r1 + n.r1, m.r2 + n.r2, m.r3 + n.r3⟩⟩

/-- The determinant (for specifications only). -/
def det (m : Mat3) : ℝ := m.r1.dot (m.r2.cross m.r3)

end Mat3
end Skyfield
