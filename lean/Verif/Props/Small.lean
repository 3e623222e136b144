import Verif.Props.Later
/-
C131: sending small packets, on connections with anything acknowledged (RFC 9001 section 5.4.2: a packet is padded so that there are bytes for the sample).
-/
namespace Spec
open QuicSea

/-- A payload of `m` bytes and the bytes of the number `n` are together at least four bytes, when `a` is what was acknowledged: the sample begins four bytes
after the beginning of the number, and has the length of the tag. -/
def Sampled (a : Option Nat) (n m : Nat) : Prop := ∀ a', a = some a' → 256 ^ (3 - m) ≤ n - a'

/-- The counter is at its last value, in a build that checks overflow. -/
def CounterAtEnd (bp : Profile) (m : Nat) : Prop := bp = .debug ∧ m + 1 = 2 ^ 64

/-- Both ids can be written: the own id is set, and the lengths, cut to a byte, are at most 20. -/
def IdsWritable (c : Connection) : Prop := ∃ sc sl, c.scid = some (sc, sl) ∧ sl % 256 ≤ 20 ∧ c.dcid.2 % 256 ≤ 20

end Spec

namespace QuicSea
open Spec

theorem sampled_iff {a : Option Nat} {n : Nat} {b : Bytes} (hb : NumberBytes a n b) (h0 : 0 < b.length) (m : Nat) :
    4 ≤ b.length + m ↔ Sampled a n m := by
  cases a with
  | none => exact ⟨fun _ _ h => (by cases h), fun _ => (by rw [hb.2.1]; omega)⟩
  | some a =>
    obtain ⟨-, h2, h3, -⟩ := hb
    constructor
    · rintro h a' ⟨⟩
      exact Nat.le_trans (Nat.pow_le_pow_right (by decide) (by omega)) h3
    · intro h
      have h' := h a rfl
      refine Nat.not_lt.mp fun hlt => ?_
      have : (256 : Nat) ^ b.length ≤ 256 ^ (3 - m) := Nat.pow_le_pow_right (by decide) (by omega)
      omega

theorem getNextPn_secrets (bp : Profile) (c : Connection) (sp sp' : PnSpace) : ((c.getNextPn bp sp).2).localSecrets sp' = c.localSecrets sp' := by
  unfold Connection.getNextPn
  dsimp only
  split
  · cases sp <;> cases sp' <;> rfl
  · rfl
  · rfl

theorem initialNew_secrets (bp : Profile) (c : Connection) (fs : List Frame) (token : Option Bytes) (sp : PnSpace) :
    (PacketInitial.new bp fs token c).2.localSecrets sp = c.localSecrets sp := by
  rw [← getNextPn_secrets bp c .initial sp]
  unfold PacketInitial.new
  cases c.getNextPn bp .initial with
  | mk o d => cases o <;> rfl
theorem handshakeNew_secrets (bp : Profile) (c : Connection) (fs : List Frame) (sp : PnSpace) :
    (PacketHandshake.new bp fs c).2.localSecrets sp = c.localSecrets sp := by
  rw [← getNextPn_secrets bp c .handshake sp]
  unfold PacketHandshake.new
  cases c.getNextPn bp .handshake with
  | mk o d => cases o <;> rfl

/-- Writing, on a header that was built. -/
theorem writeKind_built {c : Connection} {sc : U160} {sl first : Nat} {b : Bytes} {h : LongPacketHeader} (hh : NewHeader c sc sl first b.length h)
    (hf : first % 4 = 0) (h0 : 0 < b.length) (h4 : b.length ≤ 4) (m : Nat) :
    writeKind true h b.length m = if 20 < c.dcid.2 % 256 ∨ 20 < sl % 256 then .panic else if b.length + m < 4 then .err else .ok := by
  have hann : announced h = b.length := by unfold announced; rw [hh.first]; omega
  unfold writeKind
  rw [hh.plain.2, hh.dcidLen, hh.scidLen, hann]
  simp only [Bool.false_eq_true, if_false, Bool.not_true]
  rw [if_neg (Nat.not_lt.mpr h4)]

/-- What both kinds of packet have in common: the three stages and how they end. -/
private theorem three_stages {α : Type} {built : Out α} {f : α → Out Bytes} {c : Connection} {fs : List Frame} {a : Option Nat} {n : Nat} {bp : Profile} {m : Nat}
    (hpan : built.isPanic = true ↔ CounterAtEnd bp m) (hok : built.isOk = true ↔ ¬ CounterAtEnd bp m ∧ c.scid ≠ none ∧ FitsPacket a n)
    (hser : ∀ p, built = .ok p → (framesKind fs ≠ .ok → kindOf (f p) = framesKind fs) ∧ ∀ payload, serializeFrames fs false = .ok payload →
      ∃ sc sl, ∃ b : Bytes, c.scid = some (sc, sl) ∧ NumberBytes a n b ∧ 0 < b.length ∧
        kindOf (f p) = if 20 < c.dcid.2 % 256 ∨ 20 < sl % 256 then .panic else if b.length + payload.length < 4 then .err else .ok) :
    (kindOf (built >>= f) = .ok ↔ ¬ CounterAtEnd bp m ∧ FitsPacket a n ∧ IdsWritable c ∧ ∃ payload, serializeFrames fs false = .ok payload ∧ Sampled a n payload.length) ∧
    (kindOf (built >>= f) = .panic ↔ CounterAtEnd bp m ∨ (FitsPacket a n ∧ c.scid ≠ none ∧ (framesKind fs = .panic ∨ framesKind fs = .ok ∧ ¬ IdsWritable c))) := by
  cases built with
  | err e =>
    have h1 : ¬ CounterAtEnd bp m := fun h => by cases hpan.mpr h
    have h2 : ¬ (c.scid ≠ none ∧ FitsPacket a n) := fun h => by cases hok.mpr ⟨h1, h⟩
    refine ⟨⟨nofun, ?_⟩, ⟨nofun, ?_⟩⟩
    · rintro ⟨-, g1, ⟨sc, sl, g2, -⟩, -⟩
      exact absurd ⟨by rw [g2]; exact nofun, g1⟩ h2
    · rintro (h | ⟨g1, g2, -⟩)
      · exact absurd h h1
      · exact absurd ⟨g2, g1⟩ h2
  | panic w =>
    have h1 : CounterAtEnd bp m := hpan.mp rfl
    exact ⟨⟨nofun, fun h => absurd h1 h.1⟩, ⟨fun _ => .inl h1, fun _ => rfl⟩⟩
  | ok p =>
    obtain ⟨h1, h2, h3⟩ := hok.mp rfl
    obtain ⟨s1, s2⟩ := hser p rfl
    rw [Out.ok_bind]
    have hfk := C114_frames fs
    cases hpl : serializeFrames fs false with
    | err e =>
      rw [hpl] at hfk
      rw [s1 (by rw [← hfk]; exact nofun), ← hfk]
      refine ⟨⟨nofun, fun ⟨_, _, _, _, h, _⟩ => (by cases h)⟩, ⟨nofun, fun h => ?_⟩⟩
      rcases h with h | ⟨_, _, h | ⟨h, _⟩⟩
      · exact absurd h h1
      · cases h
      · cases h
    | panic w =>
      rw [hpl] at hfk
      rw [s1 (by rw [← hfk]; exact nofun), ← hfk]
      exact ⟨⟨nofun, fun ⟨_, _, _, _, h, _⟩ => (by cases h)⟩, ⟨fun _ => .inr ⟨h3, h2, .inl rfl⟩, fun _ => rfl⟩⟩
    | ok payload =>
      rw [hpl] at hfk
      obtain ⟨sc, sl, b, e1, e2, e3, e4⟩ := s2 payload hpl
      have hw : IdsWritable c ↔ ¬ (20 < c.dcid.2 % 256 ∨ 20 < sl % 256) := by
        constructor
        · rintro ⟨sc', sl', h, g1, g2⟩
          rw [e1] at h
          cases h
          omega
        · intro h
          exact ⟨sc, sl, e1, by omega, by omega⟩
      have hsm := sampled_iff e2 e3 payload.length
      rw [e4, ← hfk]
      by_cases hi : 20 < c.dcid.2 % 256 ∨ 20 < sl % 256
      · rw [if_pos hi]
        exact ⟨⟨nofun, fun h => absurd hi (hw.mp h.2.2.1)⟩, ⟨fun _ => .inr ⟨h3, h2, .inr ⟨rfl, fun h => hw.mp h hi⟩⟩, fun _ => rfl⟩⟩
      · rw [if_neg hi]
        refine ⟨?_, ⟨fun h => (by split at h <;> cases h), fun h => ?_⟩⟩
        · constructor
          · intro h
            refine ⟨h1, h3, hw.mpr hi, payload, rfl, hsm.mp ?_⟩
            split at h
            · cases h
            · omega
          · rintro ⟨-, -, -, pl, g1, g2⟩
            cases g1
            rw [if_neg (by have := hsm.mpr g2; omega)]
        · rcases h with h | ⟨_, _, h | ⟨_, h⟩⟩
          · exact absurd h h1
          · cases h
          · exact absurd (hw.mpr hi) h

/-- **C131, exactly**, for Initial packets, on any connection with keys, whatever was acknowledged: when frames are sent, and when the attempt panics; otherwise
it is an error. -/
theorem C131_initial_exact (P : Prims) (hP : PrimLaws P) (bp : Profile) (c : Connection) (k : Keys) (hkl : KeyLens k)
    (hk : c.localSecrets .initial = .ok (secretsOf P k)) (fs : List Frame) (token : Option Bytes)
    (hs : ∀ payload, serializeFrames fs false = .ok payload → payload.length < 2 ^ 30) (ht : (token.getD []).length < 2 ^ 28) :
    let a := (c.pnInfo .initial).largestLocalAck.map BitVec.toNat
    let m := (c.pnInfo .initial).nextPn.toNat
    (kindOf (sendInitial bp c fs token) = .ok ↔ ¬ CounterAtEnd bp m ∧ FitsPacket a ((m + 1) % 2 ^ 64) ∧ IdsWritable c ∧
      ∃ payload, serializeFrames fs false = .ok payload ∧ Sampled a ((m + 1) % 2 ^ 64) payload.length) ∧
    (kindOf (sendInitial bp c fs token) = .panic ↔ CounterAtEnd bp m ∨ (FitsPacket a ((m + 1) % 2 ^ 64) ∧ c.scid ≠ none ∧
      (framesKind fs = .panic ∨ framesKind fs = .ok ∧ ¬ IdsWritable c))) := by
  intro a m
  obtain ⟨h1, -, h2, -⟩ := C126_outcomes bp c fs token
  refine three_stages h1 h2 fun p hp => ?_
  obtain ⟨⟨g0, -⟩, g1, g2, g3, ⟨sc, sl, g4, g5⟩, g6, g7⟩ := (C126_initial bp c fs token p).mp hp
  refine ⟨fun h => ?_, fun payload hpl => ⟨sc, sl, p.packetNumberBytes, g4, by rw [g0] at g1; exact g1, g2, ?_⟩⟩
  · rw [← g7] at h ⊢
    exact (C128_frames_first _).1 p h
  · rw [C128_initial_ends P hP (PacketInitial.new bp fs token c).2 k hkl (by rw [initialNew_secrets]; exact hk) p payload (by rw [g7]; exact hpl) (hs payload hpl)
      (by rw [g6]; exact ht) (by omega), writeKind_built g5 (by decide) g2 g3]

/-- **C131, exactly**, for Handshake packets. -/
theorem C131_handshake_exact (P : Prims) (hP : PrimLaws P) (bp : Profile) (c : Connection) (k : Keys) (hkl : KeyLens k)
    (hk : c.localSecrets .handshake = .ok (secretsOf P k)) (fs : List Frame)
    (hs : ∀ payload, serializeFrames fs false = .ok payload → payload.length < 2 ^ 30) :
    let a := (c.pnInfo .handshake).largestLocalAck.map BitVec.toNat
    let m := (c.pnInfo .handshake).nextPn.toNat
    (kindOf (sendHandshake bp c fs) = .ok ↔ ¬ CounterAtEnd bp m ∧ FitsPacket a ((m + 1) % 2 ^ 64) ∧ IdsWritable c ∧
      ∃ payload, serializeFrames fs false = .ok payload ∧ Sampled a ((m + 1) % 2 ^ 64) payload.length) ∧
    (kindOf (sendHandshake bp c fs) = .panic ↔ CounterAtEnd bp m ∨ (FitsPacket a ((m + 1) % 2 ^ 64) ∧ c.scid ≠ none ∧
      (framesKind fs = .panic ∨ framesKind fs = .ok ∧ ¬ IdsWritable c))) := by
  intro a m
  obtain ⟨-, h1, -, h2⟩ := C126_outcomes bp c fs none
  refine three_stages h1 h2 fun p hp => ?_
  obtain ⟨⟨g0, -⟩, g1, g2, g3, ⟨sc, sl, g4, g5⟩, g7⟩ := (C126_handshake bp c fs p).mp hp
  refine ⟨fun h => ?_, fun payload hpl => ⟨sc, sl, p.packetNumberBytes, g4, by rw [g0] at g1; exact g1, g2, ?_⟩⟩
  · rw [← g7] at h ⊢
    exact (C128_frames_first _).2 p h
  · rw [C128_handshake_ends P hP (PacketHandshake.new bp fs c).2 k hkl (by rw [handshakeNew_secrets]; exact hk) p payload (by rw [g7]; exact hpl) (hs payload hpl)
      (by omega), writeKind_built g5 (by decide) g2 g3]

/-- C131, full statement: frames that can be written, at least one, are sent on every connection with keys and ids whose next number fits a packet, however
few bytes they are. -/
def C131For (P : Prims) : Prop :=
  ∀ (bp : Profile) (c : Connection) (k : Keys), KeyLens k → c.localSecrets .initial = .ok (secretsOf P k) → IdsWritable c →
    (c.pnInfo .initial).nextPn.toNat + 1 < 2 ^ 64 → FitsPacket ((c.pnInfo .initial).largestLocalAck.map BitVec.toNat) ((c.pnInfo .initial).nextPn.toNat + 1) →
    ∀ (fs : List Frame) (payload : Bytes), fs ≠ [] → serializeFrames fs false = .ok payload → payload.length < 2 ^ 30 →
      kindOf (sendInitial bp c fs none) = .ok
/-- The claim, for all algorithms that obey the laws. -/
def C131Statement : Prop := ∀ P, PrimLaws P → C131For P

/-- C131, the part that holds: with nothing acknowledged, or at least three bytes of frames, the packet is sent. Missing: fewer bytes once a number is
acknowledged (`C131_small_fails`). -/
theorem C131_initial_partial (P : Prims) (hP : PrimLaws P) (bp : Profile) (c : Connection) (k : Keys) (hkl : KeyLens k)
    (hk : c.localSecrets .initial = .ok (secretsOf P k)) (hi : IdsWritable c) (hn : (c.pnInfo .initial).nextPn.toNat + 1 < 2 ^ 64)
    (hf : FitsPacket ((c.pnInfo .initial).largestLocalAck.map BitVec.toNat) ((c.pnInfo .initial).nextPn.toNat + 1)) (fs : List Frame) (token : Option Bytes)
    (payload : Bytes) (hpl : serializeFrames fs false = .ok payload) (hs : payload.length < 2 ^ 30) (ht : (token.getD []).length < 2 ^ 28)
    (h3 : (c.pnInfo .initial).largestLocalAck = none ∨ 3 ≤ payload.length) : kindOf (sendInitial bp c fs token) = .ok := by
  refine (C131_initial_exact P hP bp c k hkl hk fs token (by intro q hq; rw [hpl] at hq; cases hq; exact hs) ht).1.mpr
    ⟨fun h => ?_, by rw [Nat.mod_eq_of_lt hn]; exact hf, hi, payload, hpl, ?_⟩
  · have := h.2
    omega
  · rw [Nat.mod_eq_of_lt hn]
    rintro a' ha
    rcases h3 with h3 | h3
    · rw [h3] at ha; cases ha
    · rw [ha] at hf
      rw [show 3 - payload.length = 0 by omega]
      have := hf.1
      omega

/-- C131 fails for all small payloads: once a number is acknowledged, fewer than three bytes of frames are an error until the distance to it is 256 (two
bytes), 2^16 (one byte) or 2^24 (none), on every connection. -/
theorem C131_small_fails (P : Prims) (hP : PrimLaws P) (bp : Profile) (c : Connection) (k : Keys) (hkl : KeyLens k)
    (hk : c.localSecrets .initial = .ok (secretsOf P k)) (hi : IdsWritable c) (hn : (c.pnInfo .initial).nextPn.toNat + 1 < 2 ^ 64) (a : U64)
    (ha : (c.pnInfo .initial).largestLocalAck = some a) (fs : List Frame) (token : Option Bytes)
    (payload : Bytes) (hpl : serializeFrames fs false = .ok payload) (h3 : payload.length < 3) (ht : (token.getD []).length < 2 ^ 28)
    (hd : (c.pnInfo .initial).nextPn.toNat + 1 - a.toNat < 256 ^ (3 - payload.length)) : kindOf (sendInitial bp c fs token) = .err := by
  obtain ⟨h1, h2⟩ := C131_initial_exact P hP bp c k hkl hk fs token (by intro q hq; rw [hpl] at hq; cases hq; omega) ht
  have hfk := C114_frames fs
  rw [hpl] at hfk
  cases hk : kindOf (sendInitial bp c fs token) with
  | err => rfl
  | ok =>
    obtain ⟨-, -, -, q, hq, hsm⟩ := h1.mp hk
    rw [hpl] at hq
    cases hq
    rw [Nat.mod_eq_of_lt hn] at hsm
    have := hsm a.toNat (by rw [ha]; rfl)
    omega
  | panic =>
    rcases h2.mp hk with ⟨-, h⟩ | ⟨-, -, h | ⟨-, h⟩⟩
    · omega
    · rw [← hfk] at h; cases h
    · exact absurd hi h

theorem C131_false_any (P : Prims) (hP : PrimLaws P) : ¬ C131For P := by
  intro h
  have hl : KeyLens lateKeys := ⟨by decide, by decide, by decide⟩
  have hm : ((lateConn P 0).pnInfo .initial).nextPn.toNat = 0 := rfl
  have hd : (lateConn P 0).dcid.2 = 8 := rfl
  have hi : IdsWritable (lateConn P 0) := ⟨_, _, rfl, by decide, by rw [hd]; decide⟩
  have hn : ((lateConn P 0).pnInfo .initial).nextPn.toNat + 1 < 2 ^ 64 := by rw [hm]; decide
  have h1 := h .debug (lateConn P 0) lateKeys hl rfl hi hn (by rw [hm]; exact ⟨by decide, by decide⟩) [.ping] [1] (by decide) (by decide +kernel) (by decide)
  rw [C131_small_fails P hP .debug (lateConn P 0) lateKeys hl rfl hi hn 0 rfl [.ping] none [1] (by decide +kernel) (by decide) (by decide) (by rw [hm]; decide)] at h1
  cases h1

theorem C131_false : ¬ C131Statement := fun h => C131_false_any toy toy_laws (h toy toy_laws)

/-- Instances: a single PING is an error after an acknowledgement, three are sent; and with number 0 acknowledged and number 2^16 next a single one is sent. -/
example : kindOf (sendInitial .debug (lateConn toy 0) [.ping] none) = .err ∧ kindOf (sendInitial .debug (lateConn toy 0) [.ping, .ping, .ping] none) = .ok := by
  decide +kernel
example : Sampled (some 0) 65536 1 ∧ ¬ Sampled (some 0) 65535 1 ∧ Sampled none 1 0 := by
  refine ⟨fun a h => ?_, fun h => absurd (h 0 rfl) (by decide), nofun⟩
  cases h; decide

end QuicSea
