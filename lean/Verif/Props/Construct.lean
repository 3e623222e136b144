import Verif.Props.Frame
import Verif.Model.FrameNew
import Verif.Props.PacketNumber
/-
C69, C70: `floor_log2`, and the constructors of frames.
-/
namespace QuicSea
open Spec

/-! ## C69 -/

/-- C69, full statement: `floor_log2` of a non-zero number is the largest `n` with `2^n ≤ x`, and of 0 an error. Rust has it for 8, 16, 32 and 64
bits; here for any width. -/
def C69Statement : Prop := ∀ (w : Nat) (x : BitVec w), (x.toNat = 0 → (floorLog2 x).isErr = true) ∧
  (x.toNat ≠ 0 → ∃ n, floorLog2 x = .ok n ∧ 2 ^ n ≤ x.toNat ∧ x.toNat < 2 ^ (n + 1))

/-- C69 is false for all non-zero numbers: the result is one more, at every width. -/
theorem C69_one_more (w : Nat) (x : BitVec w) (h : x.toNat ≠ 0) :
    ∃ n, floorLog2 x = .ok (n + 1) ∧ 2 ^ n ≤ x.toNat ∧ x.toNat < 2 ^ (n + 1) := by
  refine ⟨Nat.log2 x.toNat, ?_, Nat.log2_self_le h, Nat.lt_log2_self⟩
  rw [floorLog2_eq x h]
  rw [bitLen, if_neg h]
/-- C69, the part that holds: zero is the one number without a logarithm.
Missing for the full statement: all other numbers, for which it is false (`C69_one_more`). -/
theorem C69_zero_partial (w : Nat) (x : BitVec w) : ((floorLog2 x).isErr = true ↔ x.toNat = 0) ∧ (floorLog2 x).isPanic = false := by
  by_cases h : x.toNat = 0
  · have : x = 0 := BitVec.eq_of_toNat_eq (by simpa using h)
    subst this
    simp [floorLog2]
  · rw [floorLog2_eq x h]
    simp [h]
theorem C69_false : ¬ C69Statement := by
  intro h
  obtain ⟨n, h1, h2, h3⟩ := (h 8 5).2 (by decide)
  have : floorLog2 (5 : BitVec 8) = .ok 3 := by decide +kernel
  rw [this] at h1
  cases h1
  revert h2
  decide
example : floorLog2 (255 : BitVec 8) = .ok 8 ∧ floorLog2 (256 : BitVec 16) = .ok 9 ∧ floorLog2 (1 : BitVec 64) = .ok 1 := by decide +kernel

/-! ## C70 -/

/-- The frames whose constructors only fill in the fields, made from the same arguments. -/
def simpleFrames (a b c : U64) (u : Bool) : List Frame :=
  [.resetStream (.new a b c), .stopSending (.new a b), .maxData (.new a), .maxStreamData (.new a b), .maxStreams (.new a u), .dataBlocked (.new a),
   .streamDataBlocked (.new a b), .streamsBlocked (.new a u), .retireConnectionId (.new a), .pathChallenge (.new a), .pathResponse (.new a)]

/-- C70, full statement: the frame constructors give well-formed frames for arguments that fit: data and reasons below 2^62 bytes, integers below
2^62, connection ids of up to 20 bytes. -/
def C70Statement : Prop :=
  (∀ data : Bytes, data.length < 2 ^ 62 → WellFormed (.crypto (FrameCrypto.new data))) ∧
  (∀ token : Bytes, token.length < 2 ^ 62 → WellFormed (.newToken (FrameNewToken.new token))) ∧
  (∀ (id : U64) (data : Bytes) (fin : Bool), id.toNat < 2 ^ 62 → data.length < 2 ^ 62 → WellFormed (.stream (FrameStream.new id data fin))) ∧
  (∀ (e : U64) (reason : Bytes), e.toNat < 2 ^ 62 → reason.length < 2 ^ 62 → WellFormed (.connectionClose (FrameConnectionClose.newApplicationError e reason))) ∧
  (∀ (e t : U64) (reason : Bytes), e.toNat < 2 ^ 62 → t.toNat < 2 ^ 62 → reason.length < 2 ^ 62 →
    WellFormed (.connectionClose (FrameConnectionClose.newError e t reason))) ∧
  (∀ (sn rp : U64) (cid : U160) (token : U128), sn.toNat < 2 ^ 62 → rp.toNat < 2 ^ 62 → WellFormed (.newConnectionId (FrameNewConnectionId.new sn rp cid token))) ∧
  (∃ x, FrameAck.new = .ok x ∧ WellFormed (.ack x)) ∧
  (∀ (a b c : U64) (u : Bool), a.toNat < 2 ^ 62 → b.toNat < 2 ^ 62 → c.toNat < 2 ^ 62 → ∀ f ∈ simpleFrames a b c u, WellFormed f)

theorem ofNat_len {n : Nat} (h : n < 2 ^ 62) : (BitVec.ofNat 64 n).toNat = n := by
  rw [BitVec.toNat_ofNat]
  exact Nat.mod_eq_of_lt (Nat.lt_trans h (by decide))

/-- C70 for all constructors but that of NEW_CONNECTION_ID; and what they hold is what was given.
Missing for the full statement: NEW_CONNECTION_ID and ACK, for which it is false (`C70_new_connection_id`, `C70_ack`). -/
theorem C70_others_partial :
    (∀ data : Bytes, data.length < 2 ^ 62 → WellFormed (.crypto (FrameCrypto.new data)) ∧ (FrameCrypto.new data).cryptoData = data ∧
      (FrameCrypto.new data).offset.toNat = 0) ∧
    (∀ token : Bytes, token.length < 2 ^ 62 → WellFormed (.newToken (FrameNewToken.new token)) ∧ (FrameNewToken.new token).token = token) ∧
    (∀ (id : U64) (data : Bytes) (fin : Bool), id.toNat < 2 ^ 62 → data.length < 2 ^ 62 → WellFormed (.stream (FrameStream.new id data fin)) ∧
      (FrameStream.new id data fin).streamId = id ∧ (FrameStream.new id data fin).streamData = data ∧ (FrameStream.new id data fin).isFin = fin ∧
      (FrameStream.new id data fin).offset.toNat = 0) ∧
    (∀ (e : U64) (reason : Bytes), e.toNat < 2 ^ 62 → reason.length < 2 ^ 62 → WellFormed (.connectionClose (FrameConnectionClose.newApplicationError e reason)) ∧
      (FrameConnectionClose.newApplicationError e reason).errorCode = e ∧ (FrameConnectionClose.newApplicationError e reason).reasonPhrase = reason ∧
      (FrameConnectionClose.newApplicationError e reason).isApplicationError = true) ∧
    (∀ (e t : U64) (reason : Bytes), e.toNat < 2 ^ 62 → t.toNat < 2 ^ 62 → reason.length < 2 ^ 62 →
      WellFormed (.connectionClose (FrameConnectionClose.newError e t reason)) ∧ (FrameConnectionClose.newError e t reason).errorCode = e ∧
      (FrameConnectionClose.newError e t reason).frameType = some t ∧ (FrameConnectionClose.newError e t reason).reasonPhrase = reason ∧
      (FrameConnectionClose.newError e t reason).isApplicationError = false) := by
  refine ⟨?_, ?_, ?_, ?_, ?_⟩
  · intro d h
    refine ⟨⟨?_, ofNat_len h⟩, rfl, rfl⟩
    intro v hv
    simp only [intFields, FrameCrypto.new, List.mem_cons, List.not_mem_nil, or_false] at hv
    rcases hv with rfl | rfl
    · decide
    · rw [ofNat_len h]; exact h
  · intro d h
    refine ⟨⟨?_, ofNat_len h⟩, rfl⟩
    intro v hv
    simp only [intFields, FrameNewToken.new, List.mem_cons, List.not_mem_nil, or_false] at hv
    rw [hv, ofNat_len h]; exact h
  · intro id d fin h1 h
    refine ⟨⟨?_, ofNat_len h⟩, rfl, rfl, rfl, rfl⟩
    intro v hv
    simp only [intFields, FrameStream.new, if_true, List.cons_append, List.nil_append, List.mem_cons, List.not_mem_nil, or_false] at hv
    rcases hv with rfl | rfl | rfl
    · exact h1
    · decide
    · rw [ofNat_len h]; exact h
  · intro e d h1 h
    refine ⟨⟨?_, ofNat_len h, rfl⟩, rfl, rfl, rfl⟩
    intro v hv
    simp only [intFields, FrameConnectionClose.newApplicationError, List.append_nil, List.mem_cons, List.not_mem_nil, or_false] at hv
    rcases hv with rfl | rfl
    · exact h1
    · rw [ofNat_len h]; exact h
  · intro e t d h1 h2 h
    refine ⟨⟨?_, ofNat_len h, rfl⟩, rfl, rfl, rfl, rfl⟩
    intro v hv
    simp only [intFields, FrameConnectionClose.newError, List.cons_append, List.nil_append, List.mem_cons, List.not_mem_nil, or_false] at hv
    rcases hv with rfl | rfl | rfl
    · exact h1
    · rw [ofNat_len h]; exact h
    · exact h2
/-- C70 for NEW_CONNECTION_ID: the constructor always says eight bytes, so the frame is well formed exactly for ids below 2^64; for any id, what
the peer parses is the low eight bytes, whatever the length of the id. -/
theorem C70_new_connection_id (sn rp : U64) (cid : U160) (token : U128) (h1 : sn.toNat < 2 ^ 62) (h2 : rp.toNat < 2 ^ 62) :
    (WellFormed (.newConnectionId (FrameNewConnectionId.new sn rp cid token)) ↔ cidVal cid < 2 ^ 64) ∧
    ∃ bs x, serializeFrames [.newConnectionId (FrameNewConnectionId.new sn rp cid token)] true = .ok bs ∧
      deserializeFrames (makeResultStream bs) = (.ok [.newConnectionId x], []) ∧ x.sequenceNumber = sn ∧ x.retirePriorTo = rp ∧
      x.statelessResetToken = token ∧ x.length.toNat = 8 ∧ cidVal x.connectionId = cidVal cid % 2 ^ 64 := by
  have hints : ∀ c', IntsFit true (.newConnectionId (FrameNewConnectionId.new sn rp c' token)) := by
    intro c' v hv
    simp only [intFields, FrameNewConnectionId.new, List.mem_cons, List.not_mem_nil, or_false] at hv
    rcases hv with rfl | rfl
    · exact h1
    · exact h2
  have hwf : ∀ c', WellFormed (.newConnectionId (FrameNewConnectionId.new sn rp c' token)) ↔ cidVal c' < 2 ^ 64 := by
    intro c'
    constructor
    · intro h; exact h.2.2.2
    · intro h; exact ⟨hints c', show 1 ≤ (8 : U8).toNat by decide, show (8 : U8).toNat ≤ 20 by decide, h⟩
  refine ⟨hwf cid, ?_⟩
  obtain ⟨low, hlow⟩ : ∃ low, cidVal low = cidVal cid % 2 ^ 64 := ⟨⟨0, BitVec.ofNat 128 (cidVal cid % 2 ^ 64)⟩, by
    show 0 * 2 ^ 128 + (BitVec.ofNat 128 (cidVal cid % 2 ^ 64)).toNat = _
    rw [BitVec.toNat_ofNat]
    omega⟩
  have hb : cid.toVarBytes 8 = low.toVarBytes 8 := by
    obtain ⟨b, e, l, v⟩ := toVarBytes_spec cid 8 (by decide)
    obtain ⟨b', e', l', v'⟩ := toVarBytes_spec low 8 (by decide)
    rw [e, e']
    congr 1
    refine beNat_inj (by omega) ?_
    rw [v, v', hlow]
    omega
  have hser : serializeFrames [.newConnectionId (FrameNewConnectionId.new sn rp cid token)] true =
      serializeFrames [.newConnectionId (FrameNewConnectionId.new sn rp low token)] true := by
    have : (FrameNewConnectionId.new sn rp cid token).toBytes = (FrameNewConnectionId.new sn rp low token).toBytes := by
      unfold FrameNewConnectionId.toBytes FrameNewConnectionId.new
      dsimp only
      rw [show (8 : U8).toNat = 8 from rfl, hb]
    simp only [serializeFrames, Frame.toBytes, this]
  obtain ⟨bs, e1, e2⟩ := C10_frames_round_trip [.newConnectionId (FrameNewConnectionId.new sn rp low token)] true
    (by intro f hf; rw [List.mem_singleton.mp hf]; exact (hwf low).mpr (by rw [hlow]; exact Nat.mod_lt _ (by decide)))
    (by intro f hf; rw [List.mem_singleton.mp hf]; trivial)
  exact ⟨bs, _, hser.trans e1, e2, rfl, rfl, rfl, rfl, hlow⟩
/-- C70 for the constructors that only fill in the fields: the frames are well formed for integers below 2^62, and a peer reads each argument back in
its place from what is written.
Missing for the full statement: NEW_CONNECTION_ID and ACK, for which it is false (`C70_new_connection_id`, `C70_ack`). -/
theorem C70_simple_partial (a b c : U64) (u : Bool) (ha : a.toNat < 2 ^ 62) (hb : b.toNat < 2 ^ 62) (hc : c.toNat < 2 ^ 62) :
    (∀ f ∈ simpleFrames a b c u, WellFormed f) ∧
    ∃ bs, serializeFrames (simpleFrames a b c u) false = .ok bs ∧ deserializeFrames (makeResultStream bs) =
      (.ok [.resetStream ⟨a, b, c⟩, .stopSending ⟨a, b⟩, .maxData ⟨a⟩, .maxStreamData ⟨a, b⟩, .maxStreams ⟨a, u⟩, .dataBlocked ⟨a⟩,
        .streamDataBlocked ⟨a, b⟩, .streamsBlocked ⟨a, u⟩, .retireConnectionId ⟨a⟩, .pathChallenge ⟨a⟩, .pathResponse ⟨a⟩], []) := by
  have hw : ∀ f ∈ simpleFrames a b c u, WellFormed f := by
    intro f hf
    simp only [simpleFrames, List.mem_cons, List.not_mem_nil, or_false] at hf
    rcases hf with rfl | rfl | rfl | rfl | rfl | rfl | rfl | rfl | rfl | rfl | rfl <;>
      (refine ⟨?_, trivial⟩
       intro v hv
       simp only [intFields, FrameResetStream.new, FrameStopSending.new, FrameMaxData.new, FrameMaxStreamData.new, FrameMaxStreams.new, FrameDataBlocked.new,
         FrameStreamDataBlocked.new, FrameStreamsBlocked.new, FrameRetireConnectionId.new, List.mem_cons, List.not_mem_nil, or_false] at hv
       try (rcases hv with rfl | rfl | rfl <;> assumption)
       try (rcases hv with rfl | rfl <;> assumption)
       try (subst hv; assumption))
  refine ⟨hw, ?_⟩
  obtain ⟨bs, h1, h2⟩ := C10_frames_round_trip (simpleFrames a b c u) false hw (by
    intro f hf
    simp only [simpleFrames, List.mem_cons, List.not_mem_nil, or_false] at hf
    rcases hf with rfl | rfl | rfl | rfl | rfl | rfl | rfl | rfl | rfl | rfl | rfl <;> trivial)
  exact ⟨bs, h1, h2⟩
/-- C70 for ACK: the statement fails, for the constructor gives no frame, well formed or not, and no error either: it panics. -/
theorem C70_ack : (¬ ∃ x, FrameAck.new = .ok x) ∧ (¬ ∃ e, FrameAck.new = .err e) ∧ FrameAck.new.isPanic = true :=
  ⟨nofun, nofun, rfl⟩
theorem C70_false : ¬ C70Statement := by
  intro h
  have := h.2.2.2.2.2.1 1 0 ⟨1, 0⟩ 0 (by decide) (by decide)
  exact absurd ((C70_new_connection_id 1 0 ⟨1, 0⟩ 0 (by decide) (by decide)).1.mp this) (by decide)
example : WellFormed (.connectionClose (FrameConnectionClose.newError 10 6 [0x68, 0x69])) ∧ WellFormed (.stream (FrameStream.new 4 [1, 2, 3] true)) ∧
    WellFormed (.newConnectionId (FrameNewConnectionId.new 3 1 ⟨0, 77⟩ 5)) := by decide +kernel

end QuicSea
