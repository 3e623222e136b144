import Verif.Model.Utils
/-
Independent specification of connection id values: the crate stores an id as a pair of a 32-bit and a 128-bit half.
-/
namespace Spec
open QuicSea (U160)

/-- The 160-bit number a `U160` stands for. -/
def cidVal (x : U160) : Nat := x.idx0.toNat * 2 ^ 128 + x.idx1.toNat

end Spec
