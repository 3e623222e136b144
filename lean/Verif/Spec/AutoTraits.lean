/-
The auto traits `Send` and `Sync` of Rust, as documented by the standard library (`std::marker::Send`, `std::marker::Sync`, and the implementations listed
for `Arc`, `Mutex`, `RwLock`, `mpsc::Sender` and `mpsc::Receiver`).
-/
namespace Spec

/-- Types, as far as the auto traits depend on them. -/
inductive RTy where
  /-- A type without interior mutability or borrowed data: integers, `bool`, `&'static str`, function pointers, `SocketAddr`, `UdpSocket`. -/
  | plain
  /-- `&'static T` -/
  | shared (t : RTy)
  /-- `Vec<T>`, `Option<T>`, arrays and slices -/
  | owned (t : RTy)
  | hashMap (k v : RTy)
  | mutex (t : RTy)
  | rwLock (t : RTy)
  | arc (t : RTy)
  | sender (t : RTy)
  | receiver (t : RTy)
  /-- A struct, tuple or enum, by the types of its fields. -/
  | data (fields : List RTy)

inductive AutoTrait where
  | send
  | sync

/-- The standard library: since Rust 1.72 `mpsc::Sender<T>` is `Sync` for `T: Send`, before it never was. -/
structure Std where
  senderSync : Bool

/-- `r.Impl a t`: with the standard library `r`, the type `t` has the auto trait `a`. -/
inductive Std.Impl (r : Std) : AutoTrait → RTy → Prop where
  | plain {a} : r.Impl a .plain
  | shared {a t} : r.Impl .sync t → r.Impl a (.shared t)
  | owned {a t} : r.Impl a t → r.Impl a (.owned t)
  | hashMap {a k v} : r.Impl a k → r.Impl a v → r.Impl a (.hashMap k v)
  | mutex {a t} : r.Impl .send t → r.Impl a (.mutex t)
  | rwLockSend {t} : r.Impl .send t → r.Impl .send (.rwLock t)
  | rwLockSync {t} : r.Impl .send t → r.Impl .sync t → r.Impl .sync (.rwLock t)
  | arc {a t} : r.Impl .send t → r.Impl .sync t → r.Impl a (.arc t)
  | senderSend {t} : r.Impl .send t → r.Impl .send (.sender t)
  | senderSync {t} : r.senderSync = true → r.Impl .send t → r.Impl .sync (.sender t)
  | receiverSend {t} : r.Impl .send t → r.Impl .send (.receiver t)
  | data {a fs} : (∀ t ∈ fs, r.Impl a t) → r.Impl a (.data fs)

end Spec
