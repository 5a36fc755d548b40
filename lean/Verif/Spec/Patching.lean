/-!
# Patches of an image
-/
namespace NNTile

/-- Position of the pixel in row `r`, column `c` among the patches of size `p`×`p` of an image with `W` patches per row: the number of its patch (row by row), its position in it (row by row). -/
def patchOf (p W r c : Nat) : Nat := r / p * W + c / p

/-- See `patchOf`. -/
def posIn (p r c : Nat) : Nat := r % p * p + c % p

end NNTile
