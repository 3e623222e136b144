import Verif.Props.Life
/-
C126: which packets are built, whatever has been acknowledged.
-/
namespace Spec
open QuicSea

/-- The number after `m`, unless the build checks overflow and there is none. -/
def NextNumber (bp : Profile) (m n : Nat) : Prop := n = (m + 1) % 2 ^ 64 ∧ ¬ (bp = .debug ∧ m + 1 = 2 ^ 64)

/-- The bytes that stand for a number: four as long as nothing is acknowledged, afterwards the fewest that hold the distance to the number acknowledged,
which must be smaller. -/
def NumberBytes : Option Nat → Nat → Bytes → Prop
  | none, n, b => n < 2 ^ 32 ∧ b.length = 4 ∧ beNat b = n
  | some a, n, b => a < n ∧ n - a < 256 ^ b.length ∧ 256 ^ (b.length - 1) ≤ n - a ∧ beNat b = n % 256 ^ b.length

/-- Which numbers have bytes at all that fit a packet. -/
def FitsPacket : Option Nat → Nat → Prop
  | none, n => n < 2 ^ 32
  | some a, n => a < n ∧ n < a + 2 ^ 32

/-- The header of a new packet: the first byte has the type and the number of packet number bytes, then come the version 1 and the two ids. -/
structure NewHeader (c : Connection) (sc : U160) (sl : Nat) (first len : Nat) (h : LongPacketHeader) : Prop where
  first : h.headerByte.toNat = first + (len - 1)
  version : h.version.toNat = 1
  dcid : h.destinationConnectionId = c.dcid.1
  dcidLen : h.destinationConnectionIdLength.toNat = c.dcid.2 % 256
  scid : h.sourceConnectionId = sc
  scidLen : h.sourceConnectionIdLength.toNat = sl % 256
  plain : h.versionNegotiation = none ∧ h.isProtected = false

end Spec

namespace QuicSea
open Spec

theorem numberBytes_unique {a : Option Nat} {n : Nat} {b b' : Bytes} (h : NumberBytes a n b) (h' : NumberBytes a n b') : b = b' := by
  cases a with
  | none => exact beNat_inj (h.2.1.trans h'.2.1.symm) (h.2.2.trans h'.2.2.symm)
  | some a =>
    obtain ⟨h1, h2, h3, h4⟩ := h
    obtain ⟨g1, g2, g3, g4⟩ := h'
    have key : ∀ {i j : Nat}, n - a < 256 ^ i → 256 ^ (j - 1) ≤ n - a → j ≤ i := by
      intro i j hi hj
      have : j - 1 < i := (Nat.pow_lt_pow_iff_right (by decide : 1 < 256)).mp (Nat.lt_of_le_of_lt hj hi)
      omega
    have hl : b.length = b'.length := Nat.le_antisymm (key g2 h3) (key h2 g3)
    exact beNat_inj hl (by rw [h4, g4, hl])

/-- `truncate_pn` in both directions. -/
theorem truncatePn_iff (pn : U64) (a : Option U64) (b : Bytes) : truncatePn pn a = .ok b ↔ NumberBytes (a.map BitVec.toNat) pn.toNat b := by
  have fwd : ∀ b, truncatePn pn a = .ok b → NumberBytes (a.map BitVec.toNat) pn.toNat b := by
    intro b h
    cases a with
    | none => exact truncatePn_none_ok h
    | some x =>
      by_cases hx : x.toNat < pn.toNat
      · rw [truncatePn_some pn x hx] at h
        cases h
        refine ⟨hx, ?_, ?_, ?_⟩
        · rw [toBeBytes_length]; exact distBytes_lt _
        · rw [toBeBytes_length]; exact distBytes_min _ (by omega)
        · rw [toBeBytes_length]; exact beNat_toBeBytes _ _
      · have := truncatePn_some_err pn x (by omega)
        rw [h] at this
        cases this
  refine ⟨fwd b, fun h => ?_⟩
  have hex : ∃ b', truncatePn pn a = .ok b' := by
    cases a with
    | none => exact ⟨_, truncatePn_none pn h.1⟩
    | some x => exact ⟨_, truncatePn_some pn x h.1⟩
  obtain ⟨b', hb⟩ := hex
  rw [hb, numberBytes_unique (fwd b' hb) h]

theorem truncatePn_noPanic (pn : U64) (a : Option U64) : (truncatePn pn a).isPanic = false := by
  cases a with
  | none =>
    by_cases h : pn.toNat < 2 ^ 32
    · rw [truncatePn_none pn h]; rfl
    · have := truncatePn_none_err pn (by omega)
      cases ht : truncatePn pn none <;> rw [ht] at this <;> first | rfl | cases this
  | some x =>
    by_cases h : x.toNat < pn.toNat
    · rw [truncatePn_some pn x h]; rfl
    · have := truncatePn_some_err pn x (by omega)
      cases ht : truncatePn pn (some x) <;> rw [ht] at this <;> first | rfl | cases this

/-- A number has bytes that fit a packet exactly if it is one of `FitsPacket`. -/
theorem numberBytes_fits (a : Option Nat) (n : Nat) (hn : n < 2 ^ 64) : (∃ b, NumberBytes a n b ∧ 0 < b.length ∧ b.length ≤ 4) ↔ FitsPacket a n := by
  cases a with
  | none =>
    constructor
    · rintro ⟨b, h, -, -⟩; exact h.1
    · intro h
      exact ⟨toBeBytes 4 (BitVec.ofNat 32 n), ⟨h, toBeBytes_length _ _, by rw [beNat_toBeBytes' 4 (BitVec.ofNat 32 n)]; exact Nat.mod_eq_of_lt h⟩,
        by rw [toBeBytes_length]; decide, by rw [toBeBytes_length]; exact Nat.le_refl _⟩
  | some a =>
    constructor
    · rintro ⟨b, ⟨h1, h2, -, -⟩, -, h4⟩
      have : (256 : Nat) ^ b.length ≤ 256 ^ 4 := Nat.pow_le_pow_right (by decide) h4
      exact ⟨h1, by omega⟩
    · rintro ⟨h1, h2⟩
      refine ⟨toBeBytes (distBytes (n - a)) (BitVec.ofNat 64 n), ⟨h1, ?_, ?_, ?_⟩, ?_, ?_⟩
      · rw [toBeBytes_length]; exact distBytes_lt _
      · rw [toBeBytes_length]; exact distBytes_min _ (by omega)
      · rw [toBeBytes_length, beNat_toBeBytes, BitVec.toNat_ofNat, Nat.mod_eq_of_lt hn]
      · rw [toBeBytes_length]; exact distBytes_pos _ (by omega)
      · rw [toBeBytes_length]; exact distBytes_le (by omega)

/-- **C126**, `get_next_pn` on any connection: the number and the bytes it returns, exactly. -/
theorem C126_number (bp : Profile) (c : Connection) (sp : PnSpace) (n : U64) (b : Bytes) :
    (c.getNextPn bp sp).1 = .ok (n, b) ↔
      NextNumber bp (c.pnInfo sp).nextPn.toNat n.toNat ∧ NumberBytes ((c.pnInfo sp).largestLocalAck.map BitVec.toNat) n.toNat b := by
  have hlt := (c.pnInfo sp).nextPn.isLt
  have hsum : ((c.pnInfo sp).nextPn + 1).toNat = ((c.pnInfo sp).nextPn.toNat + 1) % 2 ^ 64 := by rw [BitVec.toNat_add]; rfl
  have heq : n.toNat = ((c.pnInfo sp).nextPn.toNat + 1) % 2 ^ 64 ↔ n = (c.pnInfo sp).nextPn + 1 :=
    ⟨fun h => BitVec.eq_of_toNat_eq (h.trans hsum.symm), fun h => by rw [h]; exact hsum⟩
  unfold NextNumber
  rw [heq]
  unfold Connection.getNextPn
  dsimp only
  have run : ((do let t ← truncatePn ((c.pnInfo sp).nextPn + 1) (c.pnInfo sp).largestLocalAck; pure ((c.pnInfo sp).nextPn + 1, t) : Out (U64 × Bytes)) = .ok (n, b)) ↔
      n = (c.pnInfo sp).nextPn + 1 ∧ NumberBytes ((c.pnInfo sp).largestLocalAck.map BitVec.toNat) n.toNat b := by
    constructor
    · intro h
      obtain ⟨t, h1, h2⟩ := Out.bind_eq_ok h
      cases h2
      exact ⟨rfl, (truncatePn_iff ..).mp h1⟩
    · rintro ⟨rfl, h⟩
      rw [(truncatePn_iff ..).mpr h]
      rfl
  cases bp with
  | release =>
    rw [addU64_release]
    exact run.trans ⟨fun ⟨h1, h2⟩ => ⟨⟨h1, fun h => nomatch h.1⟩, h2⟩, fun ⟨⟨h1, _⟩, h2⟩ => ⟨h1, h2⟩⟩
  | debug =>
    have h1 : BitVec.toNat (1 : U64) = 1 := rfl
    unfold addU64
    by_cases h : (c.pnInfo sp).nextPn.toNat + 1 < 2 ^ 64
    · rw [if_pos (by rw [h1]; exact h)]
      exact run.trans ⟨fun ⟨h1, h2⟩ => ⟨⟨h1, fun h' => by omega⟩, h2⟩, fun ⟨⟨h1, _⟩, h2⟩ => ⟨h1, h2⟩⟩
    · rw [if_neg (by rw [h1]; exact h)]
      exact ⟨nofun, fun ⟨⟨_, h'⟩, _⟩ => absurd ⟨rfl, by omega⟩ h'⟩

/-- It panics exactly where overflow is checked and the counter is at its last value. -/
theorem C126_number_panics (bp : Profile) (c : Connection) (sp : PnSpace) :
    (c.getNextPn bp sp).1.isPanic = true ↔ bp = .debug ∧ (c.pnInfo sp).nextPn.toNat + 1 = 2 ^ 64 := by
  have hlt := (c.pnInfo sp).nextPn.isLt
  have run : ((do let t ← truncatePn ((c.pnInfo sp).nextPn + 1) (c.pnInfo sp).largestLocalAck; pure ((c.pnInfo sp).nextPn + 1, t) : Out (U64 × Bytes)).isPanic) = false := by
    have := truncatePn_noPanic ((c.pnInfo sp).nextPn + 1) (c.pnInfo sp).largestLocalAck
    cases ht : truncatePn ((c.pnInfo sp).nextPn + 1) (c.pnInfo sp).largestLocalAck <;> rw [ht] at this <;> first | rfl | cases this
  unfold Connection.getNextPn
  dsimp only
  cases bp with
  | release =>
    rw [addU64_release]
    dsimp only
    rw [run]
    exact ⟨nofun, fun h => nomatch h.1⟩
  | debug =>
    have h1 : BitVec.toNat (1 : U64) = 1 := rfl
    unfold addU64
    by_cases h : (c.pnInfo sp).nextPn.toNat + 1 < 2 ^ 64
    · rw [if_pos (by rw [h1]; exact h)]
      dsimp only
      rw [run]
      exact ⟨nofun, fun h' => by omega⟩
    · rw [if_neg (by rw [h1]; exact h)]
      exact ⟨fun _ => ⟨rfl, by omega⟩, fun _ => rfl⟩

theorem newHeader_unique {c : Connection} {sc : U160} {sl first len : Nat} {h h' : LongPacketHeader} (a : NewHeader c sc sl first len h)
    (b : NewHeader c sc sl first len h') : h = h' := by
  have e1 : h.headerByte = h'.headerByte := BitVec.eq_of_toNat_eq (a.first.trans b.first.symm)
  have e2 : h.version = h'.version := BitVec.eq_of_toNat_eq (a.version.trans b.version.symm)
  have e3 := a.dcid.trans b.dcid.symm
  have e4 : h.destinationConnectionIdLength = h'.destinationConnectionIdLength := BitVec.eq_of_toNat_eq (a.dcidLen.trans b.dcidLen.symm)
  have e5 := a.scid.trans b.scid.symm
  have e6 : h.sourceConnectionIdLength = h'.sourceConnectionIdLength := BitVec.eq_of_toNat_eq (a.scidLen.trans b.scidLen.symm)
  have e7 := a.plain.1.trans b.plain.1.symm
  have e8 := a.plain.2.trans b.plain.2.symm
  cases h; cases h'
  dsimp only at e1 e2 e3 e4 e5 e6 e7 e8
  subst e1 e2 e3 e4 e5 e6 e7 e8
  rfl

/-- The header `LongPacketHeader::from_connection` writes (src/packet.rs:39-52), as one value. -/
def newLongHeader (c : Connection) (sc : U160) (sl : Nat) (byte : U8) : LongPacketHeader :=
  { headerByte := byte, version := c.getVersionField, destinationConnectionId := c.dcid.1, destinationConnectionIdLength := BitVec.ofNat 8 c.dcid.2,
    sourceConnectionId := sc, sourceConnectionIdLength := BitVec.ofNat 8 sl, versionNegotiation := none, isProtected := false }

/-- What `from_connection` returns. -/
theorem fromConnection_iff (c : Connection) (byte : U8) (h : LongPacketHeader) : LongPacketHeader.fromConnection c byte = .ok h ↔
    ∃ sc sl, c.scid = some (sc, sl) ∧ NewHeader c sc sl byte.toNat 1 h := by
  have mk : ∀ sc sl, NewHeader c sc sl byte.toNat 1
      (newLongHeader c sc sl byte) := fun sc sl =>
    ⟨rfl, version_nonzero c.version, rfl, BitVec.toNat_ofNat .., rfl, BitVec.toNat_ofNat .., rfl, rfl⟩
  unfold LongPacketHeader.fromConnection Connection.getScid Connection.getDcid
  cases hs : c.scid with
  | none => exact ⟨nofun, fun ⟨_, _, h, _⟩ => nomatch h⟩
  | some x =>
    obtain ⟨sc, sl⟩ := x
    constructor
    · intro h
      cases h
      exact ⟨sc, sl, rfl, mk sc sl⟩
    · rintro ⟨sc', sl', e, hn⟩
      cases e
      rw [newHeader_unique hn (mk sc sl)]
      rfl

theorem lenByte {l : Nat} (h : l ≤ 8) : (¬ (¬ (0 < (BitVec.ofNat 8 l : U8) ∧ (BitVec.ofNat 8 l : U8) ≤ 4)) ↔ 0 < l ∧ l ≤ 4) := by
  have : ∀ l : Fin 9, (¬ (¬ (0 < (BitVec.ofNat 8 l.val : U8) ∧ (BitVec.ofNat 8 l.val : U8) ≤ 4)) ↔ 0 < l.val ∧ l.val ≤ 4) := by decide
  exact this ⟨l, by omega⟩

/-- The first byte of both kinds of packets. -/
theorem firstByte {l : Nat} (h0 : 0 < l) (h4 : l ≤ 4) :
    (PacketInitial.newHeaderByte ((BitVec.ofNat 8 l : U8) - 1)).toNat = 0xc0 + (l - 1) ∧ (PacketHandshake.newHeaderByte ((BitVec.ofNat 8 l : U8) - 1)).toNat = 0xe0 + (l - 1) := by
  have : ∀ l : Fin 5, 0 < l.val → (PacketInitial.newHeaderByte ((BitVec.ofNat 8 l.val : U8) - 1)).toNat = 0xc0 + (l.val - 1) ∧
      (PacketHandshake.newHeaderByte ((BitVec.ofNat 8 l.val : U8) - 1)).toNat = 0xe0 + (l.val - 1) := by decide
  exact this ⟨l, by omega⟩ h0

theorem newHeader_after {bp : Profile} {c : Connection} {sp : PnSpace} {sc : U160} {sl a len : Nat} {byte : Nat} (hb : byte = a + (len - 1)) (h : LongPacketHeader) :
    NewHeader (c.getNextPn bp sp).2 sc sl byte 1 h ↔ NewHeader c sc sl a len h := by
  obtain ⟨-, g2, -⟩ := getNextPn_frame bp c sp
  subst hb
  exact ⟨fun ⟨h1, h2, h3, h4, h5, h6, h7⟩ => ⟨h1, h2, by rw [← g2]; exact h3, by rw [← g2]; exact h4, h5, h6, h7⟩,
    fun ⟨h1, h2, h3, h4, h5, h6, h7⟩ => ⟨h1, h2, by rw [g2]; exact h3, by rw [g2]; exact h4, h5, h6, h7⟩⟩

/-- **C126.** On any connection, whatever has been acknowledged, the Initial packet that is built is exactly this one: with the next number and its
bytes, if these are at most four, and with the id of the connection, if it has one. -/
theorem C126_initial (bp : Profile) (c : Connection) (fs : List Frame) (token : Option Bytes) (p : PacketInitial) :
    (PacketInitial.new bp fs token c).1 = .ok p ↔
      NextNumber bp (c.pnInfo .initial).nextPn.toNat p.packetNumber.toNat ∧
      NumberBytes ((c.pnInfo .initial).largestLocalAck.map BitVec.toNat) p.packetNumber.toNat p.packetNumberBytes ∧
      0 < p.packetNumberBytes.length ∧ p.packetNumberBytes.length ≤ 4 ∧
      (∃ sc sl, c.scid = some (sc, sl) ∧ NewHeader c sc sl 0xc0 p.packetNumberBytes.length p.header) ∧
      p.token = token.getD [] ∧ p.packetPayload = fs := by
  have hnum := C126_number bp c .initial
  have hdr : ∀ {sc : U160} {sl a len byte : Nat}, byte = a + (len - 1) → ∀ h, NewHeader (c.getNextPn bp .initial).2 sc sl byte 1 h ↔ NewHeader c sc sl a len h :=
    newHeader_after
  obtain ⟨-, -, f3⟩ := getNextPn_frame bp c .initial
  have hlen : ∀ n b, (c.getNextPn bp .initial).1 = .ok (n, b) → b.length ≤ 8 := fun n b h => truncatePn_len ((truncatePn_iff ..).mpr ((hnum n b).mp h).2)
  unfold PacketInitial.new
  generalize c.getNextPn bp .initial = r at hnum hdr f3 hlen
  obtain ⟨o, d⟩ := r
  dsimp only at hnum hdr f3 hlen
  cases o with
  | err e => exact ⟨nofun, fun ⟨h1, h2, _⟩ => nomatch (hnum _ _).mpr ⟨h1, h2⟩⟩
  | panic w => exact ⟨nofun, fun ⟨h1, h2, _⟩ => nomatch (hnum _ _).mpr ⟨h1, h2⟩⟩
  | ok x =>
    obtain ⟨n, b⟩ := x
    have hb8 := hlen n b rfl
    have hl := lenByte hb8
    dsimp only
    by_cases hc : 0 < b.length ∧ b.length ≤ 4
    · rw [if_neg (hl.mpr hc)]
      have fb := (firstByte hc.1 hc.2).1
      constructor
      · intro h
        obtain ⟨x, h1, h2⟩ := Out.bind_eq_ok h
        cases h2
        obtain ⟨sc, sl, e1, e2⟩ := (fromConnection_iff ..).mp h1
        rw [f3] at e1
        obtain ⟨g1, g2⟩ := (hnum n b).mp rfl
        exact ⟨g1, g2, hc.1, hc.2, ⟨sc, sl, e1, (hdr fb _).mp e2⟩, rfl, rfl⟩
      · rintro ⟨g1, g2, -, -, ⟨sc, sl, e1, e2⟩, e3, e4⟩
        have := (hnum _ _).mpr ⟨g1, g2⟩
        cases this
        rw [(fromConnection_iff ..).mpr ⟨sc, sl, by rw [f3]; exact e1, (hdr fb _).mpr e2⟩]
        cases p
        dsimp only at e3 e4
        subst e3 e4
        rfl
    · rw [if_pos (Classical.byContradiction fun h => hc (hl.mp h))]
      refine ⟨nofun, fun ⟨g1, g2, g3, g4, _⟩ => ?_⟩
      have := (hnum _ _).mpr ⟨g1, g2⟩
      cases this
      exact absurd ⟨g3, g4⟩ hc

/-- The same for Handshake packets. -/
theorem C126_handshake (bp : Profile) (c : Connection) (fs : List Frame) (p : PacketHandshake) :
    (PacketHandshake.new bp fs c).1 = .ok p ↔
      NextNumber bp (c.pnInfo .handshake).nextPn.toNat p.packetNumber.toNat ∧
      NumberBytes ((c.pnInfo .handshake).largestLocalAck.map BitVec.toNat) p.packetNumber.toNat p.packetNumberBytes ∧
      0 < p.packetNumberBytes.length ∧ p.packetNumberBytes.length ≤ 4 ∧
      (∃ sc sl, c.scid = some (sc, sl) ∧ NewHeader c sc sl 0xe0 p.packetNumberBytes.length p.header) ∧ p.packetPayload = fs := by
  have hnum := C126_number bp c .handshake
  have hdr : ∀ {sc : U160} {sl a len byte : Nat}, byte = a + (len - 1) → ∀ h, NewHeader (c.getNextPn bp .handshake).2 sc sl byte 1 h ↔ NewHeader c sc sl a len h :=
    newHeader_after
  obtain ⟨-, -, f3⟩ := getNextPn_frame bp c .handshake
  have hlen : ∀ n b, (c.getNextPn bp .handshake).1 = .ok (n, b) → b.length ≤ 8 := fun n b h => truncatePn_len ((truncatePn_iff ..).mpr ((hnum n b).mp h).2)
  unfold PacketHandshake.new
  generalize c.getNextPn bp .handshake = r at hnum hdr f3 hlen
  obtain ⟨o, d⟩ := r
  dsimp only at hnum hdr f3 hlen
  cases o with
  | err e => exact ⟨nofun, fun ⟨h1, h2, _⟩ => nomatch (hnum _ _).mpr ⟨h1, h2⟩⟩
  | panic w => exact ⟨nofun, fun ⟨h1, h2, _⟩ => nomatch (hnum _ _).mpr ⟨h1, h2⟩⟩
  | ok x =>
    obtain ⟨n, b⟩ := x
    have hb8 := hlen n b rfl
    have hl := lenByte hb8
    dsimp only
    by_cases hc : 0 < b.length ∧ b.length ≤ 4
    · rw [if_neg (hl.mpr hc)]
      have fb := (firstByte hc.1 hc.2).2
      constructor
      · intro h
        obtain ⟨x, h1, h2⟩ := Out.bind_eq_ok h
        cases h2
        obtain ⟨sc, sl, e1, e2⟩ := (fromConnection_iff ..).mp h1
        rw [f3] at e1
        obtain ⟨g1, g2⟩ := (hnum n b).mp rfl
        exact ⟨g1, g2, hc.1, hc.2, ⟨sc, sl, e1, (hdr fb _).mp e2⟩, rfl⟩
      · rintro ⟨g1, g2, -, -, ⟨sc, sl, e1, e2⟩, e4⟩
        have := (hnum _ _).mpr ⟨g1, g2⟩
        cases this
        rw [(fromConnection_iff ..).mpr ⟨sc, sl, by rw [f3]; exact e1, (hdr fb _).mpr e2⟩]
        cases p
        dsimp only at e4
        subst e4
        rfl
    · rw [if_pos (Classical.byContradiction fun h => hc (hl.mp h))]
      refine ⟨nofun, fun ⟨g1, g2, g3, g4, _⟩ => ?_⟩
      have := (hnum _ _).mpr ⟨g1, g2⟩
      cases this
      exact absurd ⟨g3, g4⟩ hc

theorem fromConnection_noPanic (c : Connection) (byte : U8) : (LongPacketHeader.fromConnection c byte).isPanic = false := by
  unfold LongPacketHeader.fromConnection Connection.getScid
  cases c.scid <;> rfl

/-- The other outcomes: a panic where `get_next_pn` panics and nowhere else, and an error exactly if the number does not fit a packet or there is no id. -/
theorem C126_outcomes (bp : Profile) (c : Connection) (fs : List Frame) (token : Option Bytes) :
    ((PacketInitial.new bp fs token c).1.isPanic = true ↔ bp = .debug ∧ (c.pnInfo .initial).nextPn.toNat + 1 = 2 ^ 64) ∧
    ((PacketHandshake.new bp fs c).1.isPanic = true ↔ bp = .debug ∧ (c.pnInfo .handshake).nextPn.toNat + 1 = 2 ^ 64) ∧
    ((PacketInitial.new bp fs token c).1.isOk = true ↔ ¬ (bp = .debug ∧ (c.pnInfo .initial).nextPn.toNat + 1 = 2 ^ 64) ∧ c.scid ≠ none ∧
      FitsPacket ((c.pnInfo .initial).largestLocalAck.map BitVec.toNat) (((c.pnInfo .initial).nextPn.toNat + 1) % 2 ^ 64)) ∧
    ((PacketHandshake.new bp fs c).1.isOk = true ↔ ¬ (bp = .debug ∧ (c.pnInfo .handshake).nextPn.toNat + 1 = 2 ^ 64) ∧ c.scid ≠ none ∧
      FitsPacket ((c.pnInfo .handshake).largestLocalAck.map BitVec.toNat) (((c.pnInfo .handshake).nextPn.toNat + 1) % 2 ^ 64)) := by
  have hmod : ∀ n : Nat, n % 2 ^ 64 < 2 ^ 64 := fun n => Nat.mod_lt _ (by decide)
  refine ⟨?_, ?_, ?_, ?_⟩
  · rw [← C126_number_panics bp c .initial]
    unfold PacketInitial.new
    cases c.getNextPn bp .initial with
    | mk o d =>
      cases o with
      | err e => exact Iff.rfl
      | panic w => exact Iff.rfl
      | ok x =>
        refine ⟨fun h => ?_, nofun⟩
        dsimp only at h
        split at h
        · cases h
        · have := fromConnection_noPanic d (PacketInitial.newHeaderByte (BitVec.ofNat 8 x.2.length - 1))
          cases hf : LongPacketHeader.fromConnection d (PacketInitial.newHeaderByte (BitVec.ofNat 8 x.2.length - 1)) <;> rw [hf] at h this <;>
            first | exact absurd h Bool.false_ne_true | exact absurd this.symm Bool.false_ne_true
  · rw [← C126_number_panics bp c .handshake]
    unfold PacketHandshake.new
    cases c.getNextPn bp .handshake with
    | mk o d =>
      cases o with
      | err e => exact Iff.rfl
      | panic w => exact Iff.rfl
      | ok x =>
        refine ⟨fun h => ?_, nofun⟩
        dsimp only at h
        split at h
        · cases h
        · have := fromConnection_noPanic d (PacketHandshake.newHeaderByte (BitVec.ofNat 8 x.2.length - 1))
          cases hf : LongPacketHeader.fromConnection d (PacketHandshake.newHeaderByte (BitVec.ofNat 8 x.2.length - 1)) <;> rw [hf] at h this <;>
            first | exact absurd h Bool.false_ne_true | exact absurd this.symm Bool.false_ne_true
  · constructor
    · intro h
      cases hp : (PacketInitial.new bp fs token c).1 with
      | err e => rw [hp] at h; cases h
      | panic w => rw [hp] at h; cases h
      | ok p =>
        obtain ⟨⟨g1, g2⟩, g3, g4, g5, ⟨sc, sl, e, -⟩, -⟩ := (C126_initial bp c fs token p).mp hp
        rw [g1] at g3
        exact ⟨g2, by rw [e]; exact nofun, (numberBytes_fits _ _ (hmod _)).mp ⟨_, g3, g4, g5⟩⟩
    · rintro ⟨g1, g2, g3⟩
      obtain ⟨b, h1, h2, h3⟩ := (numberBytes_fits _ _ (hmod _)).mpr g3
      obtain ⟨⟨sc, sl⟩, hs⟩ := Option.ne_none_iff_exists'.mp g2
      have hn : (BitVec.ofNat 64 ((c.pnInfo .initial).nextPn.toNat + 1)).toNat = ((c.pnInfo .initial).nextPn.toNat + 1) % 2 ^ 64 := BitVec.toNat_ofNat ..
      have := (C126_initial bp c fs token ⟨newLongHeader c sc sl (PacketInitial.newHeaderByte ((BitVec.ofNat 8 b.length : U8) - 1)), token.getD [], BitVec.ofNat 64 ((c.pnInfo .initial).nextPn.toNat + 1), b, fs⟩).mpr
        ⟨⟨hn, g1⟩, by rw [hn]; exact h1, h2, h3, ⟨sc, sl, hs, 
          ⟨(firstByte h2 h3).1, version_nonzero c.version, rfl, BitVec.toNat_ofNat .., rfl, BitVec.toNat_ofNat .., rfl, rfl⟩⟩, rfl, rfl⟩
      rw [this]
      rfl
  · constructor
    · intro h
      cases hp : (PacketHandshake.new bp fs c).1 with
      | err e => rw [hp] at h; cases h
      | panic w => rw [hp] at h; cases h
      | ok p =>
        obtain ⟨⟨g1, g2⟩, g3, g4, g5, ⟨sc, sl, e, -⟩, -⟩ := (C126_handshake bp c fs p).mp hp
        rw [g1] at g3
        exact ⟨g2, by rw [e]; exact nofun, (numberBytes_fits _ _ (hmod _)).mp ⟨_, g3, g4, g5⟩⟩
    · rintro ⟨g1, g2, g3⟩
      obtain ⟨b, h1, h2, h3⟩ := (numberBytes_fits _ _ (hmod _)).mpr g3
      obtain ⟨⟨sc, sl⟩, hs⟩ := Option.ne_none_iff_exists'.mp g2
      have hn : (BitVec.ofNat 64 ((c.pnInfo .handshake).nextPn.toNat + 1)).toNat = ((c.pnInfo .handshake).nextPn.toNat + 1) % 2 ^ 64 := BitVec.toNat_ofNat ..
      have := (C126_handshake bp c fs ⟨newLongHeader c sc sl (PacketHandshake.newHeaderByte ((BitVec.ofNat 8 b.length : U8) - 1)), b, BitVec.ofNat 64 ((c.pnInfo .handshake).nextPn.toNat + 1), fs⟩).mpr
        ⟨⟨hn, g1⟩, by rw [hn]; exact h1, h2, h3, ⟨sc, sl, hs, 
          ⟨(firstByte h2 h3).2, version_nonzero c.version, rfl, BitVec.toNat_ofNat .., rfl, BitVec.toNat_ofNat .., rfl, rfl⟩⟩, rfl⟩
      rw [this]
      rfl

/-- Number 0x1234567 after 0x1230000: the distance 0x4567 takes two bytes, and the first byte of an Initial packet says so. -/
example : NumberBytes (some 0x1230000) 0x1234567 [0x45, 0x67] ∧ FitsPacket (some 0x1230000) 0x1234567 := by
  refine ⟨⟨by decide, by decide, by decide, by decide⟩, by decide, by decide⟩
/-- A number acknowledged and one far beyond: five bytes, so no packet. -/
example : NumberBytes (some 0) 0x100000000 [1, 0, 0, 0, 0] ∧ ¬ FitsPacket (some 0) 0x100000000 := by
  refine ⟨⟨by decide, by decide, by decide, by decide⟩, fun h => ?_⟩
  exact absurd h.2 (by decide)
/-- The same on a connection: with number 0 acknowledged and 2^32 - 1 used, building is an error, not a panic. -/
example : (PacketInitial.new .debug [.ping] none
    { exConn with scid := some (⟨0, 7⟩, 8), initialPnInfo := { exConn.initialPnInfo with largestLocalAck := some 0, nextPn := 0xffffffff } }).1.isErr = true := by
  decide +kernel

end QuicSea
