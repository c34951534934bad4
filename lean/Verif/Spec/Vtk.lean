import Mathlib.Algebra.Order.Ring.Rat
/-! Rectilinear grids of VTK -/
namespace Viscid.Spec.Vtk

/-- The number VTK gives to the point, or cell, `(i, j, k)` of `nx` by `ny` by … of them: the first index is the fastest -/
def vtkId (nx ny i j k : Nat) : Nat := i + nx * (j + ny * k)

end Viscid.Spec.Vtk
