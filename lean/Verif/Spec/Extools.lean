/-!
# Specification for C250: films and meshes
-/
namespace Viscid.Spec.Extools

/-- the name of a frame: `${prefix}_000001.png`, the number with at least six digits -/
def frame (pfx : List Char) (n : Nat) : List Char :=
  pfx ++ '_' :: (List.replicate (6 - (Nat.toDigits 10 n).length) '0' ++ Nat.toDigits 10 n) ++ ".png".toList

end Viscid.Spec.Extools
