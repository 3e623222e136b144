import Verif.Model.Concurrent
/-
Interleaved execution of the calls of src/routing.rs:60-197 (`Verif.Model.Concurrent`) where a thread may panic at any program counter, or at those of a given set,
for whatever reason: one that the other models do not know of, a failing output or random source, a bug introduced by a later change.

The lock of a connection is named by its id, so that the lock of a later connection with the same id has the same name, although it is another lock and not poisoned.
`C133_conn` says that this does not matter: where such a lock is poisoned so is that of the table, and no thread comes to lock a connection again.
-/
namespace QuicSea
namespace Sys

/-- One step of thread `t` in src/routing.rs:60-197, where a thread at a program counter in `F` may panic. -/
inductive StepK (F : Pc → Prop) (P : Prims) (bp : Profile) : Sys → Nat → Label → Sys → Prop where
  | step {s t l s'} (h : Step P bp s t l s') : StepK F P bp s t l s'
  | die {s t} (hF : F (s.pc t)) (hd : s.pc t ≠ .dead) : StepK F P bp s t .panicked (s.kill t)

/-- A run of the calls of src/routing.rs:60-197, where threads at program counters in `F` may panic. -/
inductive RunK (F : Pc → Prop) (P : Prims) (bp : Profile) : Sys → List (Nat × Label) → Sys → Prop where
  | nil (s) : RunK F P bp s [] s
  | snoc {s tr s' t l s''} : RunK F P bp s tr s' → StepK F P bp s' t l s'' → RunK F P bp s (tr ++ [(t, l)]) s''
end Sys

end QuicSea
