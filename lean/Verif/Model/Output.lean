import Verif.Model.Concurrent
import Verif.Model.Env
/-
Interleaved execution (`Verif.Model.Concurrent`) when standard output or standard error may not be writable: `println!` and `eprintln!` then panic.
Pointers are those of a 64-bit machine (C100 is about others), and the reading of headers does not depend on them (`header_env`).
-/
namespace QuicSea

/-- The thread at this program counter is about to print something (src/routing.rs:70, 99, 145; src/utils.rs:437) that cannot be printed. -/
def Pc.FailsToPrint (w : Env) (bp : Profile) (k : Sock) : Pc → Prop
  /- src/routing.rs:68-70: the header read prints, or line 70 does -/
  | .aPrint _ log => log = true ∧ w.stdout = false
  /- 79 (src/utils.rs:437), or 99 -/
  | .aParse d => (nextHeaderFromStreamP w (makeResultStream d.data)).1.isPanic = true
      ∨ (nextHeaderFromStreamP w (makeResultStream d.data)).1.isErr = true ∧ w.stderr = false
  /- 116 -/
  | .aRoute d => (nextHeaderFromStreamP w (makeResultStream d.data)).1.isPanic = true
  /- 161 -/
  | .aNew d => (nextHeaderFromStreamP w (makeResultStream d.data)).1.isPanic = true
  /- 135 -/
  | .pParse d => (nextHeaderFromStreamP w (makeResultStream d.data)).1.isPanic = true
  /- 142 -/
  | .pDecode d cid => w.stdout = false ∧ ∃ x, k.streams cid = some x ∧ (decodePacketsP { w with ptr := 64 } bp x.connection (makeResultStream d.data)).1.isPanic = true
  /- 145 -/
  | .pPrint _ log => log = true ∧ w.stdout = false
  | _ => False

namespace Sys
/-- One step of thread `t` in src/routing.rs:60-197 where the outputs are those of `w`. -/
inductive StepE (w : Env) (P : Prims) (bp : Profile) : Sys → Nat → Label → Sys → Prop where
  | step {s t l s'} (h : Step P bp s t l s') (hn : ¬ (s.pc t).FailsToPrint w bp s.sock) : StepE w P bp s t l s'
  | output {s t} (h : (s.pc t).FailsToPrint w bp s.sock) : StepE w P bp s t .panicked (s.kill t)

/-- A run of the calls of src/routing.rs:60-197; `logging` says whether `set_log_traffic(true)` may be called in it. -/
inductive RunE (w : Env) (logging : Bool) (P : Prims) (bp : Profile) : Sys → List (Nat × Label) → Sys → Prop where
  | nil (s) : RunE w logging P bp s [] s
  | snoc {s tr s' t l s''} : RunE w logging P bp s tr s' → StepE w P bp s' t l s'' → (logging = true ∨ s''.pc t ≠ .sLock true) →
      RunE w logging P bp s (tr ++ [(t, l)]) s''
end Sys

end QuicSea
