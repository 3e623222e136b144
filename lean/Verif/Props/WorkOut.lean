import Verif.Proofs.WorkOut
import Verif.Props.Send
/-
C120: the work of writing is proportional to what is written. Work is counted by `Verif.Model.WorkOut`: buffers made, bytes written to them, iterations, bytes passed to the AEAD.
-/
namespace QuicSea
open Spec

/-- Building and writing an Initial packet, src/packet.rs:223-244 and 304-341: the packet number is written to a buffer of its own, of at most eight bytes. -/
def sendInitialT (bp : Profile) (c : Connection) (fs : List Frame) (token : Option Bytes) : Tw Bytes := do
  let p ← Tw.work 9 (PacketInitial.new bp fs token c).1
  p.serializeT (PacketInitial.new bp fs token c).2
/-- The same for Handshake packets: src/packet.rs:409-424 and 481-513. -/
def sendHandshakeT (bp : Profile) (c : Connection) (fs : List Frame) : Tw Bytes := do
  let p ← Tw.work 9 (PacketHandshake.new bp fs c).1
  p.serializeT (PacketHandshake.new bp fs c).2

theorem built_reachable {P : Prims} {bp : Profile} {c : Connection} (h : Connection.Reachable P bp c) (fs : List Frame) (token : Option Bytes) :
    Connection.Reachable P bp (PacketInitial.new bp fs token c).2 ∧ Connection.Reachable P bp (PacketHandshake.new bp fs c).2 := by
  obtain ⟨srv, v, d, n, c0, ops, hn, rfl⟩ := h
  exact ⟨⟨srv, v, d, n, c0, ops ++ [.buildInitial fs token], hn, by rw [run_append]; rfl⟩, ⟨srv, v, d, n, c0, ops ++ [.buildHandshake fs], hn, by rw [run_append]; rfl⟩⟩

theorem sendInitial_work {P : Prims} (hP : PrimLaws P) {bp : Profile} {c : Connection} (h : Connection.Reachable P bp c) (fs : List Frame) (token : Option Bytes) :
    Wr 0 (sendInitialT bp c fs token) (sendInitial bp c fs token) (10 * framesWeight fs + 3 * (token.getD []).length + 669) fun b w => b.length ≤ w ∧ w ≤ 12 * b.length + 349 := by
  unfold sendInitialT sendInitial
  refine .step (by omega) fun p hp => ?_
  obtain ⟨_, _, _, _, e2, _, e4, e5, e6, _⟩ := initialNew_facts hp
  obtain ⟨⟨k, _, _, _, hk, _⟩, _⟩ := reachable_keys hP (built_reachable h fs token).1
  obtain ⟨h1, h2⟩ := seals_of_keys hP (.inl ⟨k, hk⟩)
  obtain ⟨w1, w2, w3⟩ := initial_work h1 h2 p
  have hcl : p.header.cloned = 0 := by rw [e4]; rfl
  rw [e5, e6, hcl] at w2
  rw [hcl] at w3
  exact ⟨w1, by omega, fun x hx => by have := w3 x hx; omega⟩

theorem sendHandshake_work {P : Prims} (hP : PrimLaws P) {bp : Profile} {c : Connection} (h : Connection.Reachable P bp c) (fs : List Frame) :
    Wr 0 (sendHandshakeT bp c fs) (sendHandshake bp c fs) (10 * framesWeight fs + 669) fun b w => b.length ≤ w ∧ w ≤ 12 * b.length + 349 := by
  unfold sendHandshakeT sendHandshake
  refine .step (by omega) fun p hp => ?_
  obtain ⟨_, _, _, _, e2, _, e4, e6, _⟩ := handshakeNew_facts hp
  obtain ⟨e, he⟩ := ((reachable_keys hP (built_reachable h fs none).2).2 .handshake nofun).1
  obtain ⟨h1, h2⟩ := seals_of_keys hP (.inr ⟨e, he⟩)
  obtain ⟨w1, w2, w3⟩ := handshake_work h1 h2 p
  have hcl : p.header.cloned = 0 := by rw [e4]; rfl
  rw [e6, hcl] at w2
  rw [hcl] at w3
  exact ⟨w1, by omega, fun x hx => by have := w3 x hx; omega⟩

/-- C120. Counting changes nothing: the counting writers give what the writers give. -/
theorem C120_same (P : Prims) (hP : PrimLaws P) (bp : Profile) (c : Connection) (h : Connection.Reachable P bp c) (fs : List Frame) (token : Option Bytes) (e : Bool) :
    (sendInitialT bp c fs token).1 = sendInitial bp c fs token ∧ (sendHandshakeT bp c fs).1 = sendHandshake bp c fs ∧ (serializeFramesT fs e).1 = serializeFrames fs e :=
  ⟨(sendInitial_work hP h fs token).1, (sendHandshake_work hP h fs).1, (frames_work fs e).1⟩

/-- C120. A packet that is written takes at most twelve for each of its bytes and 349 besides, and no byte of it is left out of the count. -/
theorem C120_work (P : Prims) (hP : PrimLaws P) (bp : Profile) (c : Connection) (h : Connection.Reachable P bp c) (fs : List Frame) (token : Option Bytes) (out : Bytes)
    (ho : sendInitial bp c fs token = .ok out) : out.length ≤ (sendInitialT bp c fs token).2 ∧ (sendInitialT bp c fs token).2 ≤ 12 * out.length + 349 := by
  have := (sendInitial_work hP h fs token).2.2 out ho
  rwa [Nat.zero_add] at this

/-- C120. If nothing comes of it too, by an error or a panic, the work is proportional to the frames and the token: at most ten for each byte of data, 570 for each frame, three for
each byte of the token, 669 besides. -/
theorem C120_any_outcome (P : Prims) (hP : PrimLaws P) (bp : Profile) (c : Connection) (h : Connection.Reachable P bp c) (fs : List Frame) (token : Option Bytes) :
    (sendInitialT bp c fs token).2 ≤ 10 * (fs.map Frame.weight).sum + 570 * fs.length + 3 * (token.getD []).length + 669 ∧
    (sendHandshakeT bp c fs).2 ≤ 10 * (fs.map Frame.weight).sum + 570 * fs.length + 669 := by
  have e : ∀ fs, framesWeight fs = (fs.map Frame.weight).sum + 57 * fs.length := by
    intro fs
    induction fs with
    | nil => rfl
    | cons f fs ih =>
      show f.weight + 57 + framesWeight fs = _
      rw [ih, List.map_cons, List.sum_cons, List.length_cons]
      omega
  have h1 := (sendInitial_work hP h fs token).2.1
  have h2 := (sendHandshake_work hP h fs).2.1
  have := e fs
  omega

/-- C120. Frames alone: at most eight for each byte and one besides. -/
theorem C120_frames (fs : List Frame) (e : Bool) (out : Bytes) (ho : serializeFrames fs e = .ok out) :
    out.length ≤ (serializeFramesT fs e).2 ∧ (serializeFramesT fs e).2 ≤ 8 * out.length + 1 := by
  have := (frames_work fs e).2.2 out ho
  rw [Nat.zero_add] at this
  omega

def exSending : Connection := exConn.setScid exConn.dcid.1 8
/-- Non-trivial instances: a packet of 56 bytes with two frames and a token; an ACK of two ranges and a NEW_CONNECTION_ID, 37 bytes; an integer too large, given up after the first
frame. -/
example : (match sendInitial .debug exSending [.ping, .crypto ⟨0, 5, [1, 2, 3, 4, 5]⟩] (some [7, 7]) with | .ok b => b.length | _ => 0) = 56 ∧
    (sendInitialT .debug exSending [.ping, .crypto ⟨0, 5, [1, 2, 3, 4, 5]⟩] (some [7, 7])).2 = 510 := by decide +kernel
example : (match serializeFrames [.ack ⟨5, 0, 2, 0, [⟨1, 1⟩, ⟨2, 2⟩], none⟩, .newConnectionId ⟨1, 0, 8, .zero, 7⟩] false with | .ok b => b.length | _ => 0) = 37 ∧
    (serializeFramesT [.ack ⟨5, 0, 2, 0, [⟨1, 1⟩, ⟨2, 2⟩], none⟩, .newConnectionId ⟨1, 0, 8, .zero, 7⟩] false).2 = 161 := by decide +kernel
example : Connection.Reachable toy .debug exSending ∧ (sendInitialT .debug exSending [.ping, .maxData ⟨0x4000000000000000⟩] none).2 = 12 :=
  ⟨⟨true, .v1, _, 8, exConn, [.setScid exConn.dcid.1 8], exConn_new, rfl⟩, by decide +kernel⟩

end QuicSea
