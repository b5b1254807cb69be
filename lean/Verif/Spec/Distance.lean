import Mathlib.Geometry.Euclidean.Angle.Unoriented.Basic
import Mathlib.Analysis.InnerProductSpace.PiL2
import Verif.Model.OK3D

/-!
# The distances kriging is supposed to use
-/

namespace PyKrige.Spec
noncomputable section

/-- Degrees to radians. -/
def rad (deg : ℝ) : ℝ := deg * Real.pi / 180

/-- The point of the unit sphere with the given longitude and latitude (degrees). -/
def onSphere (p : ℝ × ℝ) : EuclideanSpace ℝ (Fin 3) :=
  !₂[Real.cos (rad p.1) * Real.cos (rad p.2), Real.sin (rad p.1) * Real.cos (rad p.2), Real.sin (rad p.2)]

/-- Angle between two points of the sphere, in degrees. -/
def sphereDist (p q : ℝ × ℝ) : ℝ :=
  180 / Real.pi * InnerProductGeometry.angle (onSphere p) (onSphere q)

/-- Anisotropic distance in the plane: the difference of the points in the frame whose first axis points
in direction `angle` (degrees, counter-clockwise), its second component multiplied by `scaling`. -/
def anisoDist2 (scaling angle : ℝ) (p q : ℝ × ℝ) : ℝ :=
  let dx := p.1 - q.1
  let dy := p.2 - q.2
  let u := Real.cos (rad angle) * dx + Real.sin (rad angle) * dy
  let v := -Real.sin (rad angle) * dx + Real.cos (rad angle) * dy
  Real.sqrt (u ^ 2 + (scaling * v) ^ 2)

/-- The distance of the two-dimensional classes. -/
def distance2 (coordinatesType : String) (scaling angle : ℝ) (p q : ℝ × ℝ) : ℝ :=
  if coordinatesType = "euclidean" then anisoDist2 scaling angle p q else sphereDist p q

/-- Rotation of a vector about the x-axis by `-a` degrees. -/
def rotX (a : ℝ) (v : ℝ × ℝ × ℝ) : ℝ × ℝ × ℝ :=
  (v.1, Real.cos (rad a) * v.2.1 + Real.sin (rad a) * v.2.2, -Real.sin (rad a) * v.2.1 + Real.cos (rad a) * v.2.2)
/-- Rotation of a vector about the y-axis by `-a` degrees. -/
def rotY (a : ℝ) (v : ℝ × ℝ × ℝ) : ℝ × ℝ × ℝ :=
  (Real.cos (rad a) * v.1 - Real.sin (rad a) * v.2.2, v.2.1, Real.sin (rad a) * v.1 + Real.cos (rad a) * v.2.2)
/-- Rotation of a vector about the z-axis by `-a` degrees. -/
def rotZ (a : ℝ) (v : ℝ × ℝ × ℝ) : ℝ × ℝ × ℝ :=
  (Real.cos (rad a) * v.1 + Real.sin (rad a) * v.2.1, -Real.sin (rad a) * v.1 + Real.cos (rad a) * v.2.1, v.2.2)

/-- Anisotropic distance in space: the difference is rotated about x, then y, then z, its second and third
components are multiplied by the scalings. -/
def distance3 (an : Aniso3) (p q : ℝ × ℝ × ℝ) : ℝ :=
  let d := rotZ an.angleZ (rotY an.angleY (rotX an.angleX (p - q)))
  Real.sqrt (d.1 ^ 2 + (an.scalingY * d.2.1) ^ 2 + (an.scalingZ * d.2.2) ^ 2)

end
end PyKrige.Spec
