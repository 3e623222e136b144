import Verif.Model.Basic
/-
Model of the two raw allocation functions of src/utils.rs. They are not called anywhere in the crate.

Undefined behaviour is an outcome of its own. What is taken from the Rust documentation: `Layout::array` fails when the size, rounded up to the
alignment, is more than `isize::MAX`; `alloc` and `alloc_zeroed` are undefined for layouts of size 0, and return null when memory runs out;
`Box::from_raw` of a slice is undefined for a null pointer. Addresses are not modelled beyond null or not.
-/
namespace QuicSea

/-- A memory cell (of the buffers of src/utils.rs:467-485) holds a byte or is uninitialised. -/
abbrev Cell := Option U8

/-- A Rust type, the `T` of src/utils.rs:467-485: its size, its alignment and which contents of its memory are values of the type. -/
structure RTy where
  size : Nat
  align : Nat
  valid : List Cell → Prop

/-- What a call of the allocation functions (src/utils.rs:467-485) does: `elems` are the memory contents of the elements of the box returned. -/
inductive Boxed where
  | box (elems : List (List Cell))
  | panic (why : String)
  | undefined (why : String)
deriving DecidableEq, Repr

/-- `core::alloc::Layout::array::<T>(len)` (src/utils.rs:471, 481): size and alignment. -/
def layoutArray (t : RTy) (len : Nat) : Option (Nat × Nat) :=
  if t.size * len ≤ 2 ^ 63 - t.align then some (t.size * len, t.align) else none

/-- The memory at the pointer the allocator returns (src/utils.rs:472, 482), `none` for null. `zeroed` tells `alloc_zeroed` from `alloc`; `memory` is whether the system
has the memory asked for. -/
def rawAlloc (zeroed memory : Bool) (size : Nat) : Except String (Option (List Cell)) :=
  if size = 0 then .error "alloc of size 0"
  else if memory then .ok (some (List.replicate size (if zeroed then some 0 else none))) else .ok none

/-- The `len` elements of `size` bytes in a stretch of memory (src/utils.rs:473-474, 483-484). -/
def elements (size : Nat) : Nat → List Cell → List (List Cell)
  | 0, _ => []
  | n + 1, m => m.take size :: elements size n (m.drop size)

/-- src/utils.rs:467-475 `calloc_box_buffer` (`zeroed`) and 477-485 `alloc_box_buffer`, which differ in the allocator function only. -/
def boxBuffer (zeroed memory : Bool) (t : RTy) (len : Nat) : Boxed :=
  if len = 0 then .box []
  else match layoutArray t len with
    | none => .panic "called `Result::unwrap()` on an `Err` value"
    | some (size, _) => match rawAlloc zeroed memory size with
      | .error why => .undefined why
      | .ok none => .undefined "Box::from_raw of null"
      | .ok (some m) => .box (elements t.size len m)

/-- src/utils.rs:467-475. -/
def callocBoxBuffer (memory : Bool) (t : RTy) (len : Nat) : Boxed := boxBuffer true memory t len
/-- src/utils.rs:477-485. -/
def allocBoxBuffer (memory : Bool) (t : RTy) (len : Nat) : Boxed := boxBuffer false memory t len

end QuicSea
