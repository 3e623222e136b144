import Verif.Model.ConnLife
import Verif.Props.Identity
import Verif.Props.Numbers
/-
C119: acknowledgements and the closing of the connection by the peer are taken into account.
-/
namespace QuicSea
open Spec

/-- The operations among what happens to a connection, in order. -/
def opsOf (hs : List Happening) : List ConnOp := hs.filterMap fun | .does op => some op | .receives _ => none
/-- What the operations returned, in order. -/
def donesOf (rs : List Result) : List ConnOut := rs.filterMap fun | .done o => some o | .delivered _ => none
/-- The packets delivered, over the whole life. -/
def deliveredIn (rs : List Result) : List Packet := (rs.map fun | .delivered (.ok ps) => ps | _ => []).flatten
/-- A CONNECTION_CLOSE frame. -/
def Closes : Frame → Prop
  | .connectionClose _ => True
  | _ => False
/-- A packet was built. -/
def Built : ConnOut → Prop
  | .initial (.ok _) | .handshake (.ok _) => True
  | _ => False

/-- C119, full statement, for every life of a connection created in either role. RFC 9000 section 13.1: an ACK frame is delivered only if the packet it names
as the largest was sent. Section 10.2.2: once a CONNECTION_CLOSE frame was delivered, no packet is built any more. -/
def C119For (P : Prims) : Prop :=
  ∀ (bp : Profile) (server : Bool) (v : Version) (d : U160) (n : Nat) (c0 : Connection), Connection.new P server v d n = .ok c0 →
    ∀ (hs : List Happening),
    (∀ p f, Packet.initial p ∈ deliveredIn (c0.live bp hs).1 → .ack f ∈ p.packetPayload → f.largestAcknowledged ∈ issuedIn .initial (donesOf (c0.live bp hs).1)) ∧
    (∀ p f, p ∈ deliveredIn (c0.live bp hs).1 → f ∈ framesOf p → Closes f → ∀ op, ¬ Built ((c0.live bp hs).2.step bp op).1)
/-- The claim, for all algorithms that obey the laws. -/
def C119Statement : Prop := ∀ P, PrimLaws P → C119For P

/-- C119 fails for everything received: the operations of a connection return what they return without any datagram, the connection is in the same
state, and each datagram gives what it gives to a connection that never sent nor received anything. -/
theorem C119_nothing_heeded (bp : Profile) (c0 : Connection) (hs : List Happening) :
    donesOf (c0.live bp hs).1 = (c0.run bp (opsOf hs)).1 ∧ (c0.live bp hs).2 = (c0.run bp (opsOf hs)).2 ∧
    ∀ (i : Nat) (bytes : Bytes), hs[i]? = some (.receives bytes) → (c0.live bp hs).1[i]? = some (.delivered (decodePackets bp c0 (makeResultStream bytes)).1) := by
  suffices h : ∀ (hs : List Happening) (ops : List ConnOp), donesOf ((c0.run bp ops).2.live bp hs).1 = ((c0.run bp ops).2.run bp (opsOf hs)).1 ∧
      ((c0.run bp ops).2.live bp hs).2 = ((c0.run bp ops).2.run bp (opsOf hs)).2 ∧
      ∀ (i : Nat) (bytes : Bytes), hs[i]? = some (.receives bytes) →
        ((c0.run bp ops).2.live bp hs).1[i]? = some (.delivered (decodePackets bp c0 (makeResultStream bytes)).1) from h hs []
  intro hs
  induction hs with
  | nil => intro ops; exact ⟨rfl, rfl, fun i bytes h => by simp at h⟩
  | cons x hs ih =>
    intro ops
    cases x with
    | receives b =>
      obtain ⟨h1, h2, h3⟩ := ih ops
      refine ⟨h1, h2, fun i bytes h => ?_⟩
      cases i with
      | zero =>
        simp only [List.getElem?_cons_zero, Option.some.injEq, Happening.receives.injEq] at h
        subst h
        simp only [Connection.live, List.getElem?_cons_zero]
        rw [C71_history_independent]
      | succ i => exact h3 i bytes (by simpa using h)
    | does op =>
      have e : ((c0.run bp ops).2.step bp op).2 = (c0.run bp (ops ++ [op])).2 := by rw [run_append]; rfl
      obtain ⟨h1, h2, h3⟩ := ih (ops ++ [op])
      rw [← e] at h1 h2 h3
      refine ⟨?_, h2, fun i bytes h => ?_⟩
      · exact congrArg (((c0.run bp ops).2.step bp op).1 :: ·) h1
      · cases i with
        | zero => simp at h
        | succ i => exact h3 i bytes (by simpa using h)

/-- C119 is false for all acknowledgements: a packet of the peer is delivered with whatever ACK frames, at any time in the life of a connection, also if
nothing was ever sent. -/
theorem C119_any_ack (P : Prims) (hP : PrimLaws P) (bp : Profile) (c0 : Connection) (hr : Connection.Reachable P bp c0) (k : Keys)
    (hk : c0.remoteSecrets .initial = .ok (secretsOf P k)) (h : LongPacketHeader) (hp : h.isProtected = false) (token pnB payload out : Bytes) (pn : U64)
    (f : FrameAck) (hw : InitialWire P k h token pnB pn.toNat payload out) (h4 : pnB.length = 4) (hv : beNat pnB = pn.toNat)
    (hfs : FramesWire [.ack f] payload) (pre post : List Happening) :
    (c0.live bp (pre ++ .receives out :: post)).1[pre.length]? =
      some (.delivered (.ok [.initial { header := h, token, packetNumber := pn, packetNumberBytes := pnB, packetPayload := [.ack f] }])) := by
  rw [(C119_nothing_heeded bp c0 (pre ++ .receives out :: post)).2.2 pre.length out (by simp),
    delivered P hP bp c0 hr k hk h hp token pnB payload out pn [.ack f] hw h4 hv hfs (fun g hg => by cases List.mem_singleton.mp hg; trivial)]

/-- C119 is false for every closing of the connection, after any life: Initial packets with any frames are built, as long as numbers are left. -/
theorem C119_after_close (P : Prims) (bp : Profile) (server : Bool) (v : Version) (d : U160) (n : Nat) (c0 : Connection)
    (h0 : Connection.new P server v d n = .ok c0) (hs : List Happening) (hn : (opsOf hs).length + 1 < 2 ^ 32) (hsc : HasScid (c0.live bp hs).2)
    (fs : List Frame) (token : Option Bytes) : Built ((c0.live bp hs).2.step bp (.buildInitial fs token)).1 := by
  rw [(C119_nothing_heeded bp c0 hs).2.1] at hsc ⊢
  obtain ⟨p, hp⟩ := C31_builds P bp server v d n c0 h0 (opsOf hs) hn hsc fs token
  show Built (.initial (PacketInitial.new bp fs token _).1)
  rw [hp]
  trivial

/-- C119, the part that holds: no acknowledgement, right or wrong, shortens the encoding of a packet number. Whatever was received, every number given out
in any space is below 2^32 and is written in full, in four bytes.
Missing for the full statement: the rest of the claim, which is false (`C119_nothing_heeded`). -/
theorem C119_numbers_partial (P : Prims) (bp : Profile) (server : Bool) (v : Version) (d : U160) (n : Nat) (c0 : Connection)
    (h0 : Connection.new P server v d n = .ok c0) (hs : List Happening) (o : ConnOut) (ho : o ∈ donesOf (c0.live bp hs).1) (sp : PnSpace) (pn : U64)
    (b : Bytes) (hi : o.issued = some (sp, pn, b)) : b.length = 4 ∧ beNat b = pn.toNat := by
  rw [(C119_nothing_heeded bp c0 hs).1] at ho
  have key : ∀ (ops : List ConnOp) (c : Connection), Connection.Reachable P bp c → o ∈ (c.run bp ops).1 → b.length = 4 ∧ beNat b = pn.toNat := by
    intro ops
    induction ops with
    | nil => intro c _ h; simp [Connection.run] at h
    | cons op ops ih =>
      intro c hr h
      rcases List.mem_cons.mp (show o ∈ (c.step bp op).1 :: ((c.step bp op).2.run bp ops).1 from h) with rfl | h
      · have ht := (getNextPn_ok (step_issued hi).2).2
        rw [(reachable_acks hr sp).1] at ht
        exact (truncatePn_none_ok ht).2
      · refine ih _ ?_ h
        obtain ⟨srv, v, d, n, c1, pre, h1, rfl⟩ := hr
        exact ⟨srv, v, d, n, c1, pre ++ [op], h1, by rw [run_append]; rfl⟩
  exact key _ _ ⟨server, v, d, n, c0, [], h0, rfl⟩ ho

/-- An ACK of packet 5 and a CONNECTION_CLOSE, to a server which never sent anything. -/
def exAckClose : Bytes := exSealed 0xc3 [0x02, 5, 0, 0, 0, 0x1c, 0, 0, 0]
/-- Both are delivered, and packets are built afterwards. -/
example : (deliveredIn (exConn.live .debug [.receives exAckClose]).1).map framesOf = [[.ack ⟨5, 0, 0, 0, [], none⟩, .connectionClose ⟨0, some 0, 0, [], false⟩]] ∧
    (match (exConn.live .debug [.does (.setScid ⟨0, 7⟩ 8), .receives exAckClose, .does (.buildInitial [.ping] none)]).1 with
      | [_, _, .done (.initial (.ok p))] => p.packetNumberBytes
      | _ => []) = [0, 0, 0, 1] := by decide +kernel
theorem C119_false : ¬ C119Statement := by
  intro h
  have h1 := (h toy toy_laws .debug true .v1 _ _ exConn exConn_new [.receives exAckClose]).1
  have h2 : (match deliveredIn (exConn.live .debug [.receives exAckClose]).1 with
      | [.initial p] => decide (p.packetPayload = [.ack ⟨5, 0, 0, 0, [], none⟩, .connectionClose ⟨0, some 0, 0, [], false⟩])
      | _ => false) = true := by decide +kernel
  split at h2
  · rename_i p e
    have := h1 p ⟨5, 0, 0, 0, [], none⟩ (by rw [e]; simp) (by rw [of_decide_eq_true h2]; simp)
    simp [Connection.live, donesOf, issuedIn] at this
  · cases h2
/-- The other half alone: the server builds an Initial packet after the CONNECTION_CLOSE. -/
theorem C119_false_close : ¬ C119Statement := by
  intro h
  have h1 := (h toy toy_laws .debug true .v1 _ _ exConn exConn_new [.does (.setScid ⟨0, 7⟩ 8), .receives exAckClose]).2
  have hb := C119_after_close toy .debug true .v1 _ _ exConn exConn_new [.does (.setScid ⟨0, 7⟩ 8), .receives exAckClose] (by decide)
    ⟨⟨0, 7⟩, 8, by decide +kernel, by decide, by decide +kernel⟩ [.ping] none
  have h2 : (match deliveredIn (exConn.live .debug [.does (.setScid ⟨0, 7⟩ 8), .receives exAckClose]).1 with
      | [p] => decide (framesOf p = [.ack ⟨5, 0, 0, 0, [], none⟩, .connectionClose ⟨0, some 0, 0, [], false⟩])
      | _ => false) = true := by decide +kernel
  split at h2
  · rename_i p e
    exact h1 p (.connectionClose ⟨0, some 0, 0, [], false⟩) (by rw [e]; simp) (by rw [of_decide_eq_true h2]; simp) trivial _ hb
  · cases h2

end QuicSea
