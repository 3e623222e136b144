import Verif.Model.Concurrent
/-
`accept` (src/routing.rs:157-187) where the random source of the operating system may fail: `rand_bytes` of src/quictls/utils.rs:5 then returns an error,
and its `unwrap` panics. The random source is a list of results, `none` for an error. In `Verif.Model.Routing` and `Verif.Model.Concurrent` it never fails.
-/
namespace QuicSea
namespace Sock

/-- src/routing.rs:170-183, with src/quictls/utils.rs:3-7: the registration loop. The id is drawn at line 172, before the table is locked. -/
def registerR (k : Sock) (stream : StreamState) : List (Option U64) → Io U160 × Sock × List (Option U64)
  | [] => (.blocked, k, [])
  | none :: rng => (.panic "called `Result::unwrap()` on an `Err` value", k, rng)
  | some srcId :: rng =>
    let key := U160.ofU64 srcId
    if (k.streams key).isNone then
      let stream := { stream with connection := stream.connection.setScid key 8 }
      (.ok key, { k with streams := tableInsert k.streams key stream }, rng)
    else registerR k stream rng

/-- src/routing.rs:157-187 `accept`; as `Sock.accept` but for the random source. -/
def acceptR (P : Prims) (k : Sock) (net : List NetEvent) (rng : List (Option U64)) :
    Io U160 × Sock × List NetEvent × List (Option U64) :=
  match k.recvNewInitialDatagram net with
  | (.ok d, k, net) =>
    match newConnectionFor P d with
    | .ok connection =>
      match k.registerR (.fromConnection connection) rng with
      | (.ok rv, k, rng) =>
        match k.streams rv with
        | some _ => (.panic "not yet implemented", k, net, rng)
        | none => (.panic "called `Option::unwrap()` on a `None` value", k, net, rng)
      | (.ioErr, k, rng) => (.ioErr, k, net, rng)
      | (.panic w, k, rng) => (.panic w, k, net, rng)
      | (.blocked, k, rng) => (.blocked, k, net, rng)
    | .err _ => (.panic "model: newConnectionFor has no error outcome", k, net, rng)
    | .panic w => (.panic w, k, net, rng)
  | (.ioErr, k, net) => (.ioErr, k, net, rng)
  | (.panic w, k, net) => (.panic w, k, net, rng)
  | (.blocked, k, net) => (.blocked, k, net, rng)

end Sock

namespace Sys
/-- One step of thread `t` in src/routing.rs:60-197, where drawing an id (172; src/quictls/utils.rs:5) may fail at any time. -/
inductive StepR (P : Prims) (bp : Profile) : Sys → Nat → Label → Sys → Prop where
  | step {s t l s'} (h : Step P bp s t l s') : StepR P bp s t l s'
  | noRandom {s t x} (h : s.pc t = .aRandom x) : StepR P bp s t .panicked (s.kill t)

/-- A run of the calls of src/routing.rs:60-197, where drawing an id may fail at any time. -/
inductive RunR (P : Prims) (bp : Profile) : Sys → List (Nat × Label) → Sys → Prop where
  | nil (s) : RunR P bp s [] s
  | snoc {s tr s' t l s''} : RunR P bp s tr s' → StepR P bp s' t l s'' → RunR P bp s (tr ++ [(t, l)]) s''
end Sys

end QuicSea
