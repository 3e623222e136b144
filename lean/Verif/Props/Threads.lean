import Verif.Model.Types
/-
C105: sockets and streams can be used by several threads.
-/
namespace QuicSea
open Spec Types

/-- C105: as the types of `std::net` that the README takes as its model, a socket and a stream can be moved to another thread and shared between threads. -/
def C105Statement : Prop := ∀ a, (⟨true⟩ : Std).Impl a quicSocket ∧ (⟨true⟩ : Std).Impl a quicStream

theorem impl_data {r : Std} {a : AutoTrait} {fs : List RTy} : r.Impl a (.data fs) ↔ ∀ t ∈ fs, r.Impl a t :=
  ⟨fun h => by cases h; assumption, .data⟩
theorem impl_plain {r : Std} {a : AutoTrait} : r.Impl a .plain ↔ True := ⟨fun _ => trivial, fun _ => .plain⟩
theorem impl_shared {r : Std} {a : AutoTrait} {t : RTy} : r.Impl a (.shared t) ↔ r.Impl .sync t := ⟨fun h => by cases h; assumption, .shared⟩
theorem impl_owned {r : Std} {a : AutoTrait} {t : RTy} : r.Impl a (.owned t) ↔ r.Impl a t := ⟨fun h => by cases h; assumption, .owned⟩
theorem impl_hashMap {r : Std} {a : AutoTrait} {k v : RTy} : r.Impl a (.hashMap k v) ↔ r.Impl a k ∧ r.Impl a v :=
  ⟨fun h => by cases h; constructor <;> assumption, fun h => .hashMap h.1 h.2⟩
theorem impl_mutex {r : Std} {a : AutoTrait} {t : RTy} : r.Impl a (.mutex t) ↔ r.Impl .send t := ⟨fun h => by cases h; assumption, .mutex⟩
theorem impl_rwLock_send {r : Std} {t : RTy} : r.Impl .send (.rwLock t) ↔ r.Impl .send t := ⟨fun h => by cases h; assumption, .rwLockSend⟩
theorem impl_rwLock_sync {r : Std} {t : RTy} : r.Impl .sync (.rwLock t) ↔ r.Impl .send t ∧ r.Impl .sync t :=
  ⟨fun h => by cases h; constructor <;> assumption, fun h => .rwLockSync h.1 h.2⟩
theorem impl_arc {r : Std} {a : AutoTrait} {t : RTy} : r.Impl a (.arc t) ↔ r.Impl .send t ∧ r.Impl .sync t :=
  ⟨fun h => by cases h; constructor <;> assumption, fun h => .arc h.1 h.2⟩
theorem impl_sender_send {r : Std} {t : RTy} : r.Impl .send (.sender t) ↔ r.Impl .send t := ⟨fun h => by cases h; assumption, .senderSend⟩
theorem impl_sender_sync {r : Std} {t : RTy} : r.Impl .sync (.sender t) ↔ r.senderSync = true ∧ r.Impl .send t :=
  ⟨fun h => by cases h; constructor <;> assumption, fun h => .senderSync h.1 h.2⟩
theorem impl_receiver_send {r : Std} {t : RTy} : r.Impl .send (.receiver t) ↔ r.Impl .send t := ⟨fun h => by cases h; assumption, .receiverSend⟩
theorem impl_receiver_sync {r : Std} {t : RTy} : r.Impl .sync (.receiver t) ↔ False := ⟨fun h => (nomatch h), False.elim⟩

/-- Everything the socket is made of can be sent and shared, with the exception of the ends of the channels.
Missing for the full statement: the whole, for which it is false (`C105_never`). -/
theorem C105_parts_partial (r : Std) (a : AutoTrait) : r.Impl a connection ∧ r.Impl a datagram ∧ r.Impl a packet ∧ r.Impl a frame ∧ r.Impl a error ∧
    r.Impl a transportParameter ∧ r.Impl .send internalStream ∧ r.Impl .send internalSocket := by
  simp [connection, datagram, packet, frame, error, transportParameter, internalStream, internalSocket, internalWith, streamWith, recv, bytes, u160, version, cipherSuite, secrets, pnInfo,
    frameAck, longHeader, shortHeader, impl_data, impl_plain, impl_shared, impl_owned, impl_hashMap, impl_mutex, impl_rwLock_send, impl_sender_send, impl_receiver_send]

/-- C105, exactly: whatever type `t` the receiver of a stream has, sockets and streams can be moved to other threads just when they can be shared, and that is when `t` can be both
sent and shared, and the standard library is recent enough for its senders to be shared. -/
theorem C105_exact (r : Std) (a : AutoTrait) (t : RTy) :
    (r.Impl a (socketWith t) ↔ r.Impl .send t ∧ r.Impl .sync t ∧ r.senderSync = true) ∧ (r.Impl a (quicStreamWith t) ↔ r.Impl .send t ∧ r.Impl .sync t ∧ r.senderSync = true) := by
  obtain ⟨c, d, -⟩ := C105_parts_partial r .send
  obtain ⟨c', d', -⟩ := C105_parts_partial r .sync
  have k : r.Impl .send (internalWith t) ∧ r.Impl .sync (internalWith t) ↔ r.Impl .send t ∧ r.Impl .sync t ∧ r.senderSync = true := by
    simp [internalWith, streamWith, u160, impl_data, impl_plain, impl_hashMap, impl_mutex, impl_rwLock_send, impl_rwLock_sync, impl_sender_send, impl_sender_sync, c, c', d]
  constructor
  · rw [← k]; simp [socketWith, impl_data, impl_arc]
  · rw [← k]; simp [quicStreamWith, u160, impl_data, impl_plain, impl_arc]

/-- C105 is false of the code, with every standard library: a socket, and every stream accepted from it, stays on the thread that made it. -/
theorem C105_never (r : Std) (a : AutoTrait) : ¬ r.Impl a quicSocket ∧ ¬ r.Impl a quicStream := by
  constructor
  · intro h; exact impl_receiver_sync.1 ((C105_exact r a recv).1.1 h).2.1
  · intro h; exact impl_receiver_sync.1 ((C105_exact r a recv).2.1 h).2.1
theorem C105_false : ¬ C105Statement := fun h => (C105_never _ .send).1 (h .send).1

/-- With the receiver behind a mutex it would be true.
Missing for the full statement: the type that the code has, for which it is false (`C105_never`). -/
theorem C105_mutex_partial (a : AutoTrait) : (⟨true⟩ : Std).Impl a (socketWith (.mutex recv)) ∧ (⟨true⟩ : Std).Impl a (quicStreamWith (.mutex recv)) := by
  have h : (⟨true⟩ : Std).Impl .send (.mutex recv) ∧ (⟨true⟩ : Std).Impl .sync (.mutex recv) ∧ (⟨true⟩ : Std).senderSync = true := by
    have d := (C105_parts_partial ⟨true⟩ .send).2.1
    exact ⟨.mutex (.receiverSend d), .mutex (.receiverSend d), rfl⟩
  exact ⟨(C105_exact _ a _).1.2 h, (C105_exact _ a _).2.2 h⟩

end QuicSea
