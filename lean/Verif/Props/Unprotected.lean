import Verif.Props.Authentic
import Verif.Props.Identity
/-
C118: packets without packet protection (Version Negotiation and Retry) and what is checked of them.
-/
namespace Spec
open QuicSea

/-- RFC 9000 section 17.2.1, the bytes of a Version Negotiation packet: a first byte with the long form bit, version 0, the two ids with their lengths,
and four bytes for each version. -/
def VnWire (b : U8) (toId fromId : Bytes) (versions : List Nat) (bytes : Bytes) : Prop :=
  128 ≤ b.toNat ∧ ∃ (n m : U8) (groups : List Bytes), n.toNat = toId.length ∧ m.toNat = fromId.length ∧ (∀ g ∈ groups, g.length = 4) ∧
    groups.map beNat = versions ∧ bytes = b :: [0, 0, 0, 0] ++ n :: toId ++ m :: fromId ++ groups.flatten

/-- RFC 9000 section 17.2.5, the beginning of a Retry packet, up to and including its source id. -/
def RetryStart (bytes : Bytes) : Prop :=
  ∃ (b n m : U8) (vb d s rest : Bytes), bytes = b :: vb ++ n :: d ++ m :: s ++ rest ∧ 128 ≤ b.toNat ∧ b.toNat / 16 % 4 = 3 ∧ vb.length = 4 ∧ beNat vb ≠ 0 ∧
    n.toNat = d.length ∧ m.toNat = s.length ∧ d.length ≤ 20 ∧ s.length ≤ 20

/-- RFC 9000 sections 6.2 and 17.2.1: which Version Negotiation packets may be acted upon. Only clients do; the ids are those of the client's own
packets, exchanged; and the version in use is not among those listed. -/
structure VnAcceptable (server : Bool) (used : Nat) (dcid : U160 × Nat) (scid : Option (U160 × Nat)) (toId fromId : Bytes) (versions : List Nat) : Prop where
  client : server = false
  echoesDestination : fromId.length = dcid.2 ∧ beNat fromId = cidVal dcid.1
  echoesSource : ∃ s, scid = some s ∧ toId.length = s.2 ∧ beNat toId = cidVal s.1
  otherVersions : used ∉ versions

end Spec

namespace QuicSea
open Spec

/-- The ids a Version Negotiation packet was delivered with. -/
def PacketVersionNegotiation.Shows (p : PacketVersionNegotiation) (toId fromId : Bytes) (versions : List Nat) : Prop :=
  p.header.versionNegotiation = some ⟨toId, fromId⟩ ∧ p.supportedVersions.map BitVec.toNat = versions

/-- C118, full statement: on a connection created in either role, after any history, a Version Negotiation packet is delivered only if it may be acted
upon and is all there is in the datagram; and a Retry packet does not take the thread with it. -/
def C118For (P : Prims) : Prop :=
  ∀ (bp bp' : Profile) (server : Bool) (v : Version) (d : U160) (n : Nat) (c0 : Connection),
    Connection.new P server v d n = .ok c0 → ∀ (ops : List ConnOp) (bytes : Bytes),
    (∀ ps, (decodePackets bp' (c0.run bp ops).2 (makeResultStream bytes)).1 = .ok ps → ∀ p, Packet.versionNegotiation p ∈ ps →
      ps = [.versionNegotiation p] ∧ ∃ toId fromId versions, p.Shows toId fromId versions ∧
        VnAcceptable server (match v with | .v1 => 1) (c0.run bp ops).2.dcid (c0.run bp ops).2.scid toId fromId versions) ∧
    (RetryStart bytes → (decodePackets bp' (c0.run bp ops).2 (makeResultStream bytes)).1.isPanic = false)
/-- The claim, for all algorithms that obey the laws. -/
def C118Statement : Prop := ∀ P, PrimLaws P → C118For P

theorem vnWire_decodes (bp : Profile) (c : Connection) {b : U8} {toId fromId bytes : Bytes} {versions : List Nat} (h : VnWire b toId fromId versions bytes) :
    ∃ p, decodeNextPacket bp c (makeResultStream bytes) = (.ok (.versionNegotiation p), []) ∧ p.Shows toId fromId versions ∧ p.header.headerByte = b := by
  obtain ⟨hb, n, m, groups, hn, hm, h4, hv, rfl⟩ := h
  have hlt : ∀ x ∈ versions, x < 2 ^ 32 := by
    rw [← hv]
    intro x hx
    obtain ⟨g, hg, rfl⟩ := List.mem_map.mp hx
    have := beNat_lt g
    rw [h4 g hg] at this
    exact this
  have hmap : (versions.map (BitVec.ofNat 32)).map BitVec.toNat = versions := by
    rw [List.map_map]
    conv => rhs; rw [← List.map_id versions]
    exact List.map_congr_left fun x hx => by simpa using Nat.mod_eq_of_lt (hlt x hx)
  refine ⟨⟨⟨b, 0, n, ⟨0, 0⟩, m, ⟨0, 0⟩, some ⟨toId, fromId⟩, false⟩, versions.map (BitVec.ofNat 32)⟩, ?_, ⟨rfl, hmap⟩, rfl⟩
  refine (C38_version_negotiation bp c _ _ _).mpr ⟨rfl, rfl, b :: [0, 0, 0, 0] ++ n :: toId ++ m :: fromId, groups, rfl, ?_, hb, rfl, h4, by rw [hv]; exact hmap.symm⟩
  exact ⟨[0, 0, 0, 0], toId, fromId, by simp, rfl, rfl, hn.symm, hm.symm, by
    rw [if_pos (show (0 : U32).toNat = 0 from rfl)]; exact ⟨rfl, cidVal_zero, cidVal_zero⟩⟩

/-- C118 is false for all of them: whatever the connection, its role, its ids and its history, any bytes in the form of a Version Negotiation packet
are delivered, with whatever ids and versions, and also after other packets which were delivered from the same datagram. -/
theorem C118_all_delivered (bp : Profile) (c : Connection) (l : List (Bytes × Packet))
    (hl : ∀ x ∈ l, ∀ s, decodeNextPacket bp c (makeResultStream x.1 ++ s) = (.ok x.2, s)) (b : U8) (toId fromId bytes : Bytes) (versions : List Nat)
    (h : VnWire b toId fromId versions bytes) :
    ∃ p, decodePackets bp c (makeResultStream ((l.map Prod.fst).flatten ++ bytes)) = (.ok (l.map Prod.snd ++ [.versionNegotiation p]), []) ∧
      p.Shows toId fromId versions := by
  obtain ⟨p, h1, h2, _⟩ := vnWire_decodes bp c h
  have hne : bytes ≠ [] := by obtain ⟨_, _, _, _, _, _, _, _, rfl⟩ := h; simp
  refine ⟨p, ?_, h2⟩
  induction l with
  | nil =>
    have hb : makeResultStream bytes ≠ [] := by simpa [makeResultStream] using hne
    simp only [List.map_nil, List.flatten_nil, List.nil_append]
    rw [decodePackets_eq bp c _ hb, Rd.bind_ok h1, Rd.bind_ok (decodePackets_nil bp c)]
    rfl
  | cons x l ih =>
    have hx := hl x (by simp) (makeResultStream ((l.map Prod.fst).flatten ++ bytes))
    have ih := ih fun y hy => hl y (by simp [hy])
    have hb : makeResultStream x.1 ++ makeResultStream ((l.map Prod.fst).flatten ++ bytes) ≠ [] := by simp [makeResultStream, hne]
    have e : makeResultStream (((x :: l).map Prod.fst).flatten ++ bytes) = makeResultStream x.1 ++ makeResultStream ((l.map Prod.fst).flatten ++ bytes) := by simp
    rw [e, decodePackets_eq bp c _ hb, Rd.bind_ok hx, Rd.bind_ok ih]
    rfl

/-- C118, exactly: a datagram is delivered as a Version Negotiation packet with these ids and these versions if and only if its bytes say so; nothing
about the connection comes into it. -/
theorem C118_exact (bp : Profile) (c : Connection) (toId fromId bytes : Bytes) (versions : List Nat) :
    (∃ p, decodePackets bp c (makeResultStream bytes) = (.ok [.versionNegotiation p], []) ∧ p.Shows toId fromId versions) ↔
      ∃ b, VnWire b toId fromId versions bytes := by
  constructor
  · rintro ⟨p, h, hi, hv⟩
    have hne : makeResultStream bytes ≠ [] := by intro e; rw [e] at h; cases h
    rw [decodePackets_eq bp c _ hne] at h
    obtain ⟨q, s1, e1, e2⟩ := Rd.bind_eq_ok h
    obtain ⟨qs, s2, e3, e4⟩ := Rd.bind_eq_ok e2
    cases e4
    obtain ⟨_, _, hb, groups, es, ⟨vb, d, s, rfl, hvl, hve, hd, hs, hrest⟩, h128, h0, h4, hg⟩ := (C38_version_negotiation bp c _ _ p).mp e1
    rw [if_pos h0, hi] at hrest
    have hds := Option.some.inj hrest.1
    have hd' : toId = d := congrArg VnFields.destinationConnectionId hds
    have hs' : fromId = s := congrArg VnFields.sourceConnectionId hds
    subst hd'; subst hs'
    have hvb : vb = [0, 0, 0, 0] := beNat_inj (by rw [hvl]; rfl) (by rw [hve, h0]; rfl)
    refine ⟨p.header.headerByte, h128, p.header.destinationConnectionIdLength, p.header.sourceConnectionIdLength, groups, hd.symm, hs.symm, h4, by rw [hg, hv], ?_⟩
    have := makeResultStream_inj es
    rw [this, hvb]
    simp
  · rintro ⟨b, h⟩
    obtain ⟨p, h1, h2⟩ := C118_all_delivered bp c [] (by simp) b toId fromId bytes versions h
    exact ⟨p, by simpa using h1, h2⟩

/-- C118 is false for every Retry packet, with a valid integrity tag or not and for clients as for servers: decoding the datagram panics, also if other
packets come before it. -/
theorem C118_retry_panics (bp : Profile) (c : Connection) (l : List (Bytes × Packet))
    (hl : ∀ x ∈ l, ∀ s, decodeNextPacket bp c (makeResultStream x.1 ++ s) = (.ok x.2, s)) (bytes : Bytes) (h : RetryStart bytes) :
    (decodePackets bp c (makeResultStream ((l.map Prod.fst).flatten ++ bytes))).1.isPanic = true := by
  induction l with
  | nil =>
    obtain ⟨b, n, m, vb, d, s, rest, rfl, h128, h3, h4, h0, hn, hm, hd, hs⟩ := h
    have hvb := beNat_lt vb
    rw [h4] at hvb
    have hver : (BitVec.ofNat 32 (beNat vb)).toNat = beNat vb := by simpa using Nat.mod_eq_of_lt hvb
    obtain ⟨x, hx⟩ := u160_of_val (beNat d) (beNat_lt_160 hd)
    obtain ⟨y, hy⟩ := u160_of_val (beNat s) (beNat_lt_160 hs)
    refine C35_retry_panics bp c ⟨b, BitVec.ofNat 32 (beNat vb), n, x, m, y, none, true⟩ _ (makeResultStream rest)
      ⟨b :: vb ++ n :: d ++ m :: s, by simp, ⟨vb, d, s, by simp, h4, hver.symm, hn.symm, hm.symm, ?_⟩, h128⟩ ?_
    · rw [if_neg (by rw [hver]; exact h0)]
      exact ⟨rfl, hd, hs, hx.symm, hy.symm⟩
    · unfold packetKind
      rw [if_neg (by show ¬ b.toNat < 128; omega), if_neg (by rw [hver]; exact h0)]
      simp [h3]
  | cons x l ih =>
    have hx := hl x (by simp) (makeResultStream ((l.map Prod.fst).flatten ++ bytes))
    have ih := ih fun y hy => hl y (by simp [hy])
    have hne : bytes ≠ [] := by obtain ⟨_, _, _, _, _, _, _, rfl, _⟩ := h; simp
    have hb : makeResultStream x.1 ++ makeResultStream ((l.map Prod.fst).flatten ++ bytes) ≠ [] := by simp [makeResultStream, hne]
    have e : makeResultStream (((x :: l).map Prod.fst).flatten ++ bytes) = makeResultStream x.1 ++ makeResultStream ((l.map Prod.fst).flatten ++ bytes) := by simp
    rw [e, decodePackets_eq bp c _ hb, Rd.bind_ok hx, Rd.bind_apply]
    rcases hd : decodePackets bp c (makeResultStream ((l.map Prod.fst).flatten ++ bytes)) with ⟨o, s'⟩
    rw [hd] at ih
    cases o <;> first | rfl | cases ih

/-- C118, the part that holds: there is at most one Version Negotiation packet in what is delivered from a datagram, and it is the last packet, ...
Missing for the full statement: all that concerns the ids, the versions and the side of the connection, which are not looked at (`C118_all_delivered`), and the packets before it. -/
theorem C118_last_partial (bp : Profile) (c : Connection) (s s' : Stream) (ps : List Packet) (h : decodePackets bp c s = (.ok ps, s'))
    (p : PacketVersionNegotiation) (hp : .versionNegotiation p ∈ ps) :
    ∃ qs, ps = qs ++ [.versionNegotiation p] ∧ ∀ q, Packet.versionNegotiation q ∉ qs := by
  induction ps generalizing s with
  | nil => simp at hp
  | cons x ps ih =>
    have hne : s ≠ [] := by intro e; rw [e] at h; cases h
    rw [decodePackets_eq bp c _ hne] at h
    obtain ⟨q, s1, e1, e2⟩ := Rd.bind_eq_ok h
    obtain ⟨qs, s2, e3, e4⟩ := Rd.bind_eq_ok e2
    cases e4
    by_cases hx : ∃ q, x = .versionNegotiation q
    · obtain ⟨q, rfl⟩ := hx
      have := ((C38_version_negotiation bp c _ _ q).mp e1).1
      subst this
      cases e3
      simp at hp
      exact ⟨[], by simp [hp], by simp⟩
    · have hp' : .versionNegotiation p ∈ ps := by
        rcases List.mem_cons.mp hp with rfl | hp
        · exact absurd ⟨_, rfl⟩ hx
        · exact hp
      obtain ⟨qs, rfl, h2⟩ := ih s1 e3 hp'
      exact ⟨x :: qs, rfl, fun q hq => by
        rcases List.mem_cons.mp hq with rfl | hq
        · exact hx ⟨_, rfl⟩
        · exact h2 q hq⟩

/-- ... and no Retry packet is ever delivered, so that none is acted upon without its integrity tag having been verified.
Missing for the full statement: that it is discarded without harm, which is false (`C118_retry_panics`). -/
theorem C118_no_retry_partial (bp : Profile) (c : Connection) (s s' : Stream) (ps : List Packet) (h : decodePackets bp c s = (.ok ps, s'))
    (p : PacketRetry) : .retry p ∉ ps := by
  intro hp
  obtain ⟨s1, s2, _, h1⟩ := decodePackets_mem h _ hp
  obtain ⟨x, s3, hx⟩ := decodeNext_header h1
  cases x with
  | short x => rw [decodeNext_short hx] at h1; obtain ⟨q, _, _, e⟩ := Rd.bind_eq_ok h1; cases e
  | long x =>
    rw [decodeNext_long hx] at h1
    cases hkind : packetKind x.headerByte x.version <;> rw [hkind] at h1 <;>
      first | (obtain ⟨q, _, _, e⟩ := Rd.bind_eq_ok h1; cases e; done) | cases h1

/-- A Version Negotiation packet for a client which sent to 0102030405060708 from 1122: the ids are others, and version 1 is listed. -/
def exVersions : Bytes := [0x80, 0, 0, 0, 0, 1, 9, 2, 8, 7, 0, 0, 0, 1, 0xff, 0, 0, 0x1d]
theorem exVersions_wire : VnWire 0x80 [9] [8, 7] [1, 0xff00001d] exVersions :=
  ⟨by decide, 1, 2, [[0, 0, 0, 1], [0xff, 0, 0, 0x1d]], rfl, rfl, by decide, by decide +kernel, by decide⟩
/-- One which may be acted upon. -/
example : VnAcceptable false 1 (exClient.run .debug exOps).2.dcid (exClient.run .debug exOps).2.scid [0x11, 0x22] [1, 2, 3, 4, 5, 6, 7, 8] [0xff00001d] :=
  ⟨rfl, by decide +kernel, ⟨(⟨0, 0x1122⟩, 2), by decide +kernel, by decide, by decide +kernel⟩, by decide⟩
/-- After an Initial packet, in one datagram, to a server. -/
example : ∃ p, okPackets (decodePackets .debug exConn (makeResultStream (exSealed 0xc3 [1] ++ exVersions))).1 =
    okPackets (decodePackets .debug exConn (makeResultStream (exSealed 0xc3 [1]))).1 ++ [.versionNegotiation p] ∧ p.Shows [9] [8, 7] [1, 0xff00001d] :=
  ⟨⟨⟨0x80, 0, 1, ⟨0, 0⟩, 2, ⟨0, 0⟩, some ⟨[9], [8, 7]⟩, false⟩, [1, 0xff00001d]⟩, by decide +kernel, rfl, by decide +kernel⟩
/-- The Retry packet of RFC 9001 appendix A.4. -/
def exRetry : Bytes := [0xff, 0, 0, 0, 1, 0, 8, 0xf0, 0x67, 0xa5, 0x50, 0x2a, 0x42, 0x62, 0xb5, 0x74, 0x6f, 0x6b, 0x65, 0x6e,
  0x04, 0xa2, 0x65, 0xba, 0x2e, 0xff, 0x4d, 0x82, 0x90, 0x58, 0xfb, 0x3f, 0x0f, 0x24, 0x96, 0xba]
theorem exRetry_start : RetryStart exRetry :=
  ⟨0xff, 0, 8, [0, 0, 0, 1], [], [0xf0, 0x67, 0xa5, 0x50, 0x2a, 0x42, 0x62, 0xb5], exRetry.drop 15, by decide, by decide, by decide, rfl, by decide +kernel,
    rfl, rfl, by decide, by decide⟩

/-- C118, false: the Version Negotiation packet above, to a client. -/
theorem C118_false : ¬ C118Statement := by
  intro h
  obtain ⟨p, h1, h2⟩ := C118_all_delivered .debug (exClient.run .debug exOps).2 [] (by simp) 0x80 [9] [8, 7] exVersions _ exVersions_wire
  obtain ⟨_, toId, fromId, versions, h3, h4⟩ := (h toy toy_laws .debug .debug false .v1 _ _ exClient exClient_new exOps exVersions).1 _ (congrArg Prod.fst h1) p (by simp)
  have : versions = [1, 0xff00001d] := by rw [← h3.2, h2.2]
  exact h4.otherVersions (by rw [this]; decide)
/-- Also for the other half alone: the Retry packet of RFC 9001. -/
theorem C118_false_retry : ¬ C118Statement := by
  intro h
  have h1 := C118_retry_panics .debug (exClient.run .debug exOps).2 [] (by simp) exRetry exRetry_start
  have h2 := (h toy toy_laws .debug .debug false .v1 _ _ exClient exClient_new exOps exRetry).2 exRetry_start
  simp only [List.map_nil, List.flatten_nil, List.nil_append] at h1
  rw [h2] at h1
  cases h1

end QuicSea
