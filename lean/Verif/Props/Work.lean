import Verif.Proofs.Work
import Verif.Props.Identity
/-
C113: the work of decoding is proportional to the bytes received. Work is counted by `Verif.Model.Work`: calls of `next`, looks at the end of a stream, bytes passed to the AEAD.
-/
namespace QuicSea
open Spec

/-- C113. Counting changes nothing: the counting reader of datagrams gives the result of the reader, and leaves what it leaves. -/
theorem C113_same (P : Prims) (hP : PrimLaws P) (bp bp' : Profile) (c : Connection) (hr : Connection.Reachable P bp c) (s : Stream) :
    ((decodePacketsT bp' c s).1, (decodePacketsT bp' c s).2.1) = decodePackets bp' c s := by
  obtain ⟨h1, h2, _⟩ := decodePacketsLoop_cost hP (bp' := bp') hr (s.length + 1) s
  show ((decodePacketsLoopT bp' c (s.length + 1) s).1, (decodePacketsLoopT bp' c (s.length + 1) s).2.1) = _
  rw [h1, h2]
  rfl

/-- C113. Decoding a datagram, whatever is in it and whether or not it succeeds, takes at most ten for each of its bytes and 75 besides. -/
theorem C113_work (P : Prims) (hP : PrimLaws P) (bp bp' : Profile) (c : Connection) (hr : Connection.Reachable P bp c) (s : Stream) :
    (decodePacketsT bp' c s).2.2 ≤ 10 * s.length + 75 :=
  (decodePacketsLoop_cost hP (bp' := bp') hr (s.length + 1) s).2.2.1

/-- C113. No byte that is taken is left out of the count. -/
theorem C113_counted (P : Prims) (hP : PrimLaws P) (bp bp' : Profile) (c : Connection) (hr : Connection.Reachable P bp c) (s : Stream) :
    s.length ≤ (decodePackets bp' c s).2.length + (decodePacketsT bp' c s).2.2 :=
  (decodePacketsLoop_cost hP (bp' := bp') hr (s.length + 1) s).2.2.2.2

/-- C113. The frames of any payload take at most three for each of its bytes and three besides. -/
theorem C113_frames (s : Stream) : ((deserializeFramesT s).1, (deserializeFramesT s).2.1) = deserializeFrames s ∧ (deserializeFramesT s).2.2 ≤ 3 * s.length + 3 ∧
    s.length ≤ (deserializeFrames s).2.length + (deserializeFramesT s).2.2 := by
  obtain ⟨h1, h2, h3⟩ := frames_cost s
  exact ⟨by rw [h1, h2], h3⟩

/-- C113. Reading a header, all that is done with a datagram before it is known whose it is, takes at most one for each byte and one besides, and never more than 517. -/
theorem C113_header (s : Stream) : ((nextHeaderFromStreamT s).1, (nextHeaderFromStreamT s).2.1) = nextHeaderFromStream s ∧ (nextHeaderFromStreamT s).2.2 ≤ s.length + 1 ∧
    (nextHeaderFromStreamT s).2.2 ≤ 517 := by
  obtain ⟨h1, h2, _, _, h5, _⟩ := nextHeader_cost 0 s
  exact ⟨by rw [h1, h2], by omega, nextHeader_ticks s⟩

/-- C113. A datagram from the socket: no more than 41035, its 4096 bytes being all that is received (src/routing.rs:63). -/
theorem C113_recv (P : Prims) (hP : PrimLaws P) (bp bp' : Profile) (c : Connection) (hr : Connection.Reachable P bp c) (raw : Bytes) :
    (decodePacketsT bp' c (makeResultStream (raw.take Sock.RECV_BUFFER_LEN))).2.2 ≤ 41035 := by
  have h := C113_work P hP bp bp' c hr (makeResultStream (raw.take Sock.RECV_BUFFER_LEN))
  rw [makeResultStream_length, List.length_take] at h
  have : Sock.RECV_BUFFER_LEN = 4096 := rfl
  omega

/-- Non-trivial instances: two packets in a datagram of 75 bytes, decrypted and delivered; an ACK frame that announces 2^62 - 1 ranges; padding, at two for each byte; the longest
header. -/
example : exMixed.length = 75 ∧ (decodePacketsT .debug exConn (makeResultStream exMixed)).2.2 = 220 ∧ (decodePackets .debug exConn (makeResultStream exMixed)).2 = [] ∧
    idsOf (okPackets (decodePacketsT .debug exConn (makeResultStream exMixed)).1) = [0x0102030405060708, 0x090909] := by decide +kernel
example : (deserializeFramesT (makeResultStream [2, 5, 0, 0xff, 0xff, 0xff, 0xff, 0xff, 0xff, 0xff, 0xff, 0, 0, 0])).2.2 ≤ 45 :=
  (C113_frames (makeResultStream [2, 5, 0, 0xff, 0xff, 0xff, 0xff, 0xff, 0xff, 0xff, 0xff, 0, 0, 0])).2.1
example : (deserializeFramesT (makeResultStream (List.replicate 50 0))).2.2 = 101 ∧
    (nextHeaderFromStreamT (makeResultStream ([0x80, 0, 0, 0, 0, 255] ++ List.replicate 255 1 ++ [255] ++ List.replicate 300 2))).2.2 = 517 := by decide +kernel

end QuicSea
