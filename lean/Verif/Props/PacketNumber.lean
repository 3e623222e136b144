import Verif.Proofs.PacketNumber
import Verif.Spec.Prims
/-
C26-C29, C56: packet numbers and nonces.
-/
namespace QuicSea
open Spec (beNat rfcNonce rfcDecodePn enoughBits)

/-- The connection used in the examples: a server with an 8-byte id, over the toy library instance. -/
def exConn : Connection := match Connection.new Spec.toy true .v1 ⟨0, 0x0102030405060708⟩ 8 with
  | .ok c => c
  | _ => { version := .v1, initialPnInfo := PnInfo.new, handshakePnInfo := PnInfo.new, applicationPnInfo := PnInfo.new,
           dcid := (U160.zero, 0), scid := none }

theorem exConn_new : Connection.new Spec.toy true .v1 ⟨0, 0x0102030405060708⟩ 8 = .ok exConn := by
  unfold exConn
  cases h : Connection.new Spec.toy true .v1 ⟨0, 0x0102030405060708⟩ 8 with
  | ok c => rfl
  | err e => exact absurd (show _ = true from congrArg Out.isErr h) (by decide +kernel)
  | panic e => exact absurd (show _ = true from congrArg Out.isPanic h) (by decide +kernel)

/-! ### C26 -/

/-- **C26.** The numbers handed out in one space over any history are strictly increasing, as long as the 64-bit counter
cannot be exhausted. -/
theorem C26_strictly_increasing (bp : Profile) (c : Connection) (sp : PnSpace) (ops : List ConnOp)
    (h : (c.pnInfo sp).nextPn.toNat + ops.length < 2 ^ 64) :
    (issuedIn sp (c.run bp ops).1).Pairwise (fun a b => a.toNat < b.toNat) ∧
    ∀ n ∈ issuedIn sp (c.run bp ops).1, (c.pnInfo sp).nextPn.toNat < n.toNat :=
  ⟨(run_counter bp sp ops c h).2, fun n hn => ((run_counter bp sp ops c h).1 n hn).1⟩

/-- For a new connection: any history of fewer than 2^64 operations, whichever spaces they use. -/
theorem C26_new_connection (P : Prims) (bp : Profile) (isServer : Bool) (v : Version) (d : U160) (n : Nat) (c : Connection)
    (hc : Connection.new P isServer v d n = .ok c) (sp : PnSpace) (ops : List ConnOp) (h : ops.length < 2 ^ 64) :
    (issuedIn sp (c.run bp ops).1).Pairwise (fun a b => a.toNat < b.toNat) := by
  refine (C26_strictly_increasing bp c sp ops ?_).1
  obtain ⟨_, _, _, _, _, _, rfl⟩ := new_ok hc
  cases sp <;> simpa [Connection.pnInfo, PnInfo.new] using h

/-- Spaces do not interfere: dropping from a history all operations on other spaces does not change the numbers issued in
one space. No limit on the history. -/
theorem C26_spaces_independent (bp : Profile) (c : Connection) (sp : PnSpace) (ops : List ConnOp) :
    issuedIn sp (c.run bp ops).1 =
      issuedIn sp (c.run bp (ops.filter fun op => op.space = some sp ∨ op.space = none)).1 :=
  run_agree bp sp ops c c ⟨rfl, rfl, rfl, rfl⟩

/-- Every `get_next_pn` that succeeds is counted: it hands out the successor of the previous counter value. -/
theorem C26_successor (bp : Profile) (c : Connection) (sp : PnSpace) (n : U64) (b : Bytes)
    (h : (c.getNextPn bp sp).1 = .ok (n, b)) : n = (c.pnInfo sp).nextPn + 1 ∧ (((c.getNextPn bp sp).2).pnInfo sp).nextPn = n := by
  obtain ⟨h1, h2⟩ := getNextPn_ok h
  refine ⟨h1, ?_⟩
  unfold Connection.getNextPn at h ⊢
  dsimp only at h ⊢
  cases hm : addU64 bp (c.pnInfo sp).nextPn 1 with
  | ok m =>
    dsimp only
    rw [pnInfo_set, if_pos rfl, h1]
    exact addU64_val hm
  | err e => rw [hm] at h; cases h
  | panic e => rw [hm] at h; cases h

/-- The limit is needed: in a release build 2^64 calls bring a connection back to exactly the state it was in, so every
number would be handed out again. -/
theorem C26_limit_needed (c : Connection) (sp : PnSpace) :
    (c.run .release (List.replicate (2 ^ 64) (.nextPn sp))).2 = c := by
  rw [run_replicate]
  rw [show BitVec.ofNat 64 (2 ^ 64) = 0 from by decide, show (c.pnInfo sp).nextPn + 0 = (c.pnInfo sp).nextPn from BitVec.add_zero _]
  exact setPnInfo_self c sp

/-- A history over two spaces, with a failing operation (no source id yet), and the numbers it issues. -/
example :
    let ops := [ConnOp.nextPn .initial, .nextPn .handshake, .buildInitial [] none, .setScid ⟨0, 7⟩ 8, .buildInitial [.ping] none, .nextPn .handshake]
    issuedIn .initial (exConn.run .debug ops).1 = [1, 3] ∧ issuedIn .handshake (exConn.run .debug ops).1 = [1, 2] := by
  decide +kernel

/-! ### C27 -/

/-- **C27.** The nonce is the RFC 9001 section 5.3 nonce. -/
theorem C27_nonce_is_rfc (s : Secrets) (iv : Bytes) (hiv : s.iv = some iv) (hl : 8 ≤ iv.length) (payload : Bytes) (ad : Option Bytes)
    (pn : U64) :
    s.encryptPayload payload ad pn = s.cipherSuite.encrypt s.key (some (rfcNonce iv (toBeBytes 8 pn))) ad payload ∧
    s.decryptPayload payload ad pn = s.cipherSuite.decrypt s.key (some (rfcNonce iv (toBeBytes 8 pn))) ad payload := by
  unfold Secrets.encryptPayload Secrets.decryptPayload
  rw [hiv]
  simp only [Option.map_some, packetNonce_eq iv pn hl, and_self]

/-- Different packet numbers give different nonces, of the length of the IV. -/
theorem C27_nonces_distinct (iv : Bytes) (a b : U64) (hl : 8 ≤ iv.length) (h : a ≠ b) :
    rfcNonce iv (toBeBytes 8 a) ≠ rfcNonce iv (toBeBytes 8 b) ∧ (rfcNonce iv (toBeBytes 8 a)).length = iv.length := by
  refine ⟨fun e => h (packetNonce_inj hl ?_), ?_⟩
  · rw [packetNonce_eq iv a hl, packetNonce_eq iv b hl, e]
  · rw [← packetNonce_eq iv a hl, packetNonce_length]

/-- No nonce repeats over a history of a connection in one space. -/
theorem C27_history (bp : Profile) (c : Connection) (sp : PnSpace) (ops : List ConnOp) (iv : Bytes) (hl : 8 ≤ iv.length)
    (h : (c.pnInfo sp).nextPn.toNat + ops.length < 2 ^ 64) :
    ((issuedIn sp (c.run bp ops).1).map fun n => rfcNonce iv (toBeBytes 8 n)).Pairwise (· ≠ ·) := by
  rw [List.pairwise_map]
  refine List.Pairwise.imp ?_ (C26_strictly_increasing bp c sp ops h).1
  intro a b hab
  exact (C27_nonces_distinct iv a b hl (fun e => by rw [e] at hab; omega)).1

/-- The IV of every connection's Initial secrets satisfies the length condition, for both directions. -/
theorem C27_initial_iv_length (P : Prims) (hP : Spec.PrimLaws P) (bp : Profile) (c : Connection) (h : Connection.Reachable P bp c) :
    ∃ l r iv iv', c.localSecrets .initial = .ok l ∧ c.remoteSecrets .initial = .ok r ∧ l.iv = some iv ∧ iv.length = 12 ∧
      r.iv = some iv' ∧ iv'.length = 12 := by
  obtain ⟨srv, v, d, n, c0, ops, hn, rfl⟩ := h
  obtain ⟨bytes, ss, cs, hb, hs, hc, rfl⟩ := new_ok hn
  have key : ∀ side s, Secrets.fromInitial P side bytes v = .ok s → ∃ iv, s.iv = some iv ∧ iv.length = 12 := by
    intro side s h
    unfold Secrets.fromInitial at h
    obtain ⟨sec, _, h⟩ := Out.bind_eq_ok h
    unfold Secrets.fromSecret at h
    obtain ⟨hp, _, h⟩ := Out.bind_eq_ok h
    obtain ⟨iv, hiv, h⟩ := Out.bind_eq_ok h
    obtain ⟨key, _, h⟩ := Out.bind_eq_ok h
    cases h
    unfold CipherSuite.getIvSecret at hiv
    obtain ⟨rv, hrv, hiv⟩ := Out.bind_eq_ok hiv
    cases hiv
    refine ⟨rv, rfl, ?_⟩
    change hkdfExpandLabelSha256 P sec INITIAL_VECTOR_LABEL [] 12 = .ok rv at hrv
    unfold hkdfExpandLabelSha256 at hrv
    split at hrv
    · obtain ⟨info, _, hrv⟩ := Out.bind_eq_ok hrv
      obtain ⟨o, ho, hol⟩ := hP.expand sec info.flatten 12 (by decide)
      rw [ho] at hrv
      cases hrv
      exact hol
    · cases hrv
  obtain ⟨i1, e1, l1⟩ := key true ss hs
  obtain ⟨i2, e2, l2⟩ := key false cs hc
  refine ⟨if srv then ss else cs, if srv then cs else ss, if srv then i1 else i2, if srv then i2 else i1, ?_, ?_, ?_, ?_, ?_, ?_⟩
  · unfold Connection.localSecrets; rw [(run_acks bp ops _ .initial).2.2.1]; rfl
  · unfold Connection.remoteSecrets; rw [(run_acks bp ops _ .initial).2.2.2]; rfl
  all_goals cases srv <;> assumption

/-- RFC 9001 appendix A.2 IV, packet number 2: only the last byte changes. -/
example : rfcNonce [0xfa,0x04,0x4b,0x2f,0x42,0xa3,0xfd,0x3b,0x46,0xfb,0x25,0x5c] (toBeBytes 8 (2 : U64)) =
    [0xfa,0x04,0x4b,0x2f,0x42,0xa3,0xfd,0x3b,0x46,0xfb,0x25,0x5e] := by decide +kernel
example : Connection.Reachable Spec.toy .debug exConn := ⟨true, .v1, _, 8, exConn, [], exConn_new, rfl⟩

/-! ### C28 -/

/-- The full statement of C28: sender's and receiver's view of the largest acknowledged number may differ, the receiver being
ahead. -/
def C28Statement : Prop :=
  ∀ (bp : Profile) (c : Connection) (sp : PnSpace) (pn : U64) (la la' : Option U64) (b : Bytes),
    truncatePn pn la = .ok b → b.length ≤ 4 →
    (match la, la' with
      | none, none => True
      | some x, some y => x ≤ y ∧ y < pn
      | _, _ => False) →
    (c.pnInfo sp).largestRemoteAck = la' → c.reconstructRemotePn bp sp b = .ok pn

/-- **C28, partial**: with no acknowledgement recorded on either side (the only state the crate reaches) reconstruction is
exact. Missing: recorded acknowledgements, where the code is wrong (`C28_wrong`, `C28_exact`). -/
theorem C28_partial (bp : Profile) (c : Connection) (sp : PnSpace) (pn : U64) (b : Bytes) (ht : truncatePn pn none = .ok b)
    (ha : (c.pnInfo sp).largestRemoteAck = none) : c.reconstructRemotePn bp sp b = .ok pn := by
  obtain ⟨h1, h2, h3⟩ := truncatePn_none_ok ht
  rw [reconstruct_none bp c sp b (by omega) ha, h3]
  congr 1
  exact BitVec.eq_of_toNat_eq (by rw [BitVec.toNat_ofNat]; exact Nat.mod_eq_of_lt pn.isLt)

/-- Every reachable pair of connections is in the covered case.
Missing for the full statement: connections that have recorded an acknowledgement, for which it is false (`C28_wrong`). -/
theorem C28_reachable_partial (P : Prims) (bp : Profile) (c c' : Connection) (h : Connection.Reachable P bp c)
    (h' : Connection.Reachable P bp c') (sp : PnSpace) (n : U64) (b : Bytes) (hn : (c.getNextPn bp sp).1 = .ok (n, b)) :
    c'.reconstructRemotePn bp sp b = .ok n := by
  have := (getNextPn_ok hn).2
  rw [(reachable_acks h sp).1] at this
  exact C28_partial bp c' sp n b this (reachable_acks h' sp).2

/-- When both sides recorded the same acknowledged number `la` below 2^32, the result is right exactly if the low bits of
`la`, one per *byte* of the encoding, are the low *bytes* of the number: the shift in the code counts bits instead of
bytes. -/
theorem C28_exact (bp : Profile) (c : Connection) (sp : PnSpace) (pn la : U64) (b : Bytes) (ht : truncatePn pn (some la) = .ok b)
    (hpn : pn.toNat < 2 ^ 32) (ha : (c.pnInfo sp).largestRemoteAck = some la) (h0 : pn.toNat % 256 ^ b.length ≠ 0) :
    c.reconstructRemotePn bp sp b = .ok pn ↔ la.toNat - la.toNat % 2 ^ b.length = pn.toNat - pn.toNat % 256 ^ b.length := by
  by_cases hl : la.toNat < pn.toNat
  · rw [truncatePn_some pn la hl] at ht
    have hd : distBytes (pn.toNat - la.toNat) ≤ 4 := distBytes_le (k := 4) (by show _ < 2 ^ 32; omega)
    generalize distBytes (pn.toNat - la.toNat) = k at ht hd
    injection ht with ht
    have hbl : b.length = k := by rw [← ht]; exact toBeBytes_length _ _
    have hbn : beNat b = pn.toNat % 256 ^ k := by rw [← ht]; exact beNat_toBeBytes _ _
    rw [hbl] at h0 ⊢
    have hmp := Nat.mod_le pn.toNat (256 ^ k)
    have hml := Nat.mod_le la.toNat (2 ^ k)
    rw [reconstruct_some_small bp c sp b la (by omega) ha (by omega) (by omega), hbn, hbl]
    constructor
    · intro e
      injection e with e
      have := congrArg BitVec.toNat e
      rw [BitVec.toNat_ofNat, Nat.mod_eq_of_lt (by omega)] at this
      omega
    · intro e
      congr 1
      apply BitVec.eq_of_toNat_eq
      rw [BitVec.toNat_ofNat, Nat.mod_eq_of_lt (by omega)]
      omega
  · have := truncatePn_some_err pn la (by omega)
    rw [ht] at this; cases this

/-- The same without a bound on the numbers other than that of RFC 9000, for whatever bytes arrive, from this sender or another: the result is the
number `n` exactly if the bytes, *added* to the acknowledged number rounded down (or, if they are not above its upper half, up) to a multiple of 2, 4, 8 or 16,
give `n`. -/
theorem C28_exact_all (bp : Profile) (c : Connection) (sp : PnSpace) (n la : U64) (b : Bytes) (hb : b.length ≤ 4) (hl : la.toNat < 2 ^ 62)
    (ha : (c.pnInfo sp).largestRemoteAck = some la) :
    c.reconstructRemotePn bp sp b = .ok n ↔
      (la.toNat / 2 ^ 32 < beNat b ∧ n.toNat = 2 ^ b.length * (la.toNat / 2 ^ b.length) + beNat b) ∨
      (beNat b ≤ la.toNat / 2 ^ 32 ∧ n.toNat = 2 ^ b.length * (la.toNat / 2 ^ b.length + 1) + beNat b) := by
  have hpl : beNat b < 2 ^ 32 :=
    Nat.lt_of_lt_of_le (beNat_lt b) (Nat.le_trans (Nat.pow_le_pow_right (by decide) hb) (by decide))
  have hk : 2 ^ b.length ≤ 2 ^ 4 := Nat.pow_le_pow_right (by decide) hb
  have hdm := Nat.div_add_mod la.toNat (2 ^ b.length)
  have hm := Nat.mod_le la.toNat (2 ^ b.length)
  have key (v : Nat) (hv : v < 2 ^ 64) : Out.ok (BitVec.ofNat 64 v) = Out.ok n ↔ n.toNat = v := by
    constructor
    · intro e
      injection e with e
      rw [← e, BitVec.toNat_ofNat, Nat.mod_eq_of_lt hv]
    · intro e
      rw [← e, BitVec.ofNat_toNat, BitVec.setWidth_eq]
  rw [reconstruct_some bp c sp b la hb ha hl, Nat.mul_add, Nat.mul_one]
  by_cases hv : la.toNat / 2 ^ 32 < beNat b
  · rw [if_pos hv, key _ (by omega)]
    omega
  · rw [if_neg hv, key _ (by omega)]
    omega

/-- A packet that is late, sixteen or more below the acknowledged number, is given a wrong number, whatever its encoding. -/
theorem C28_late (bp : Profile) (c : Connection) (sp : PnSpace) (n la : U64) (b : Bytes) (hl : la.toNat < 2 ^ 62)
    (ha : (c.pnInfo sp).largestRemoteAck = some la) (hn : n.toNat + 16 ≤ la.toNat) : c.reconstructRemotePn bp sp b ≠ .ok n := by
  intro e
  by_cases hb : b.length ≤ 4
  · have hk : 2 ^ b.length ≤ 2 ^ 4 := Nat.pow_le_pow_right (by decide) hb
    have hk0 : 0 < 2 ^ b.length := Nat.pow_pos (by decide)
    have hdm := Nat.div_add_mod la.toNat (2 ^ b.length)
    have hm := Nat.mod_lt la.toNat hk0
    rw [C28_exact_all bp c sp n la b hb hl ha, Nat.mul_add, Nat.mul_one] at e
    omega
  · have := reconstruct_long_panics bp c sp b (by omega)
    rw [e] at this; cases this

/-- Wrong for every number below 256 as soon as a number of 2 or more is acknowledged. -/
theorem C28_wrong (bp : Profile) (c : Connection) (sp : PnSpace) (pn la : U64) (b : Bytes) (ht : truncatePn pn (some la) = .ok b)
    (h2 : 2 ≤ la.toNat) (hpn : pn.toNat < 256) (ha : (c.pnInfo sp).largestRemoteAck = some la) :
    c.reconstructRemotePn bp sp b ≠ .ok pn := by
  by_cases hl : la.toNat < pn.toNat
  · have ht' := ht
    rw [truncatePn_some pn la hl] at ht'
    have hd : distBytes (pn.toNat - la.toNat) = 1 := by
      have := distBytes_le (d := pn.toNat - la.toNat) (k := 1) (by omega)
      have := distBytes_pos (pn.toNat - la.toNat) (by omega)
      omega
    rw [hd] at ht'
    injection ht' with ht'
    have hbl : b.length = 1 := by rw [← ht']; exact toBeBytes_length _ _
    intro e
    have := (C28_exact bp c sp pn la b ht (by omega) ha (by rw [hbl]; omega)).mp e
    rw [hbl] at this
    omega
  · have := truncatePn_some_err pn la (by omega)
    rw [ht] at this; cases this

/-- The connection of the examples, having recorded the acknowledgement of packet 100. -/
def exConnAcked : Connection := { exConn with initialPnInfo := { exConn.initialPnInfo with largestRemoteAck := some 100, largestLocalAck := some 100 } }

theorem C28_false : ¬ C28Statement := by
  intro h
  have := h .debug exConnAcked .initial 101 (some 100) (some 100) [101] (by decide +kernel) (by decide) ⟨by decide, by decide⟩ rfl
  exact C28_wrong .debug exConnAcked .initial 101 100 [101] (by decide +kernel) (by decide) (by decide) rfl this

/-- With 2^32 + 1000 acknowledged, the byte 1 is not above the upper half: the result is 2^32 + 1003. -/
example : ({ exConn with initialPnInfo := { exConn.initialPnInfo with largestRemoteAck := some 0x1000003e8 } } : Connection).reconstructRemotePn .debug .initial [1]
    = .ok 0x1000003eb := by decide +kernel
example := C28_late .debug exConnAcked .initial 80 100 [80] (by decide) rfl (by decide)

/-- The case of `C28_false`, computed: 101 comes back as 201. -/
example : exConnAcked.reconstructRemotePn .debug .initial [101] = .ok 201 := by decide +kernel
example : truncatePn 77 none = .ok [0, 0, 0, 77] ∧ exConn.reconstructRemotePn .debug .initial [0, 0, 0, 77] = .ok 77 := by decide +kernel

/-! ### C29 -/

/-- The full statement of C29. -/
def C29Statement : Prop :=
  ∀ (pn : U64) (la : Option U64) (b : Bytes), pn.toNat < 2 ^ 62 → truncatePn pn la = .ok b →
    enoughBits pn.toNat (la.map BitVec.toNat) (8 * b.length) ∧
    rfcDecodePn (la.map BitVec.toNat) (beNat b) (8 * b.length) = pn.toNat

theorem pow256 (k : Nat) : (256 : Nat) ^ k = 2 ^ (8 * k) := by
  rw [show (256 : Nat) = 2 ^ 8 from rfl, ← Nat.pow_mul]

/-- **C29, partial**: right whenever the distance is not in the upper half of a byte length, that is, not between
`128·256^(k-1)` and `256^k - 1`. Missing: those distances, where the encoding is too short (`C29_too_short`,
`C29_decoder_fails`). -/
theorem C29_partial (pn la : U64) (hl : la.toNat < pn.toNat) (hpn : pn.toNat < 2 ^ 62)
    (h : ∀ k, ¬ (128 * 256 ^ k ≤ pn.toNat - la.toNat ∧ pn.toNat - la.toNat < 256 ^ (k + 1))) :
    ∃ b, truncatePn pn (some la) = .ok b ∧ enoughBits pn.toNat (some la.toNat) (8 * b.length) ∧
      rfcDecodePn (some la.toNat) (beNat b) (8 * b.length) = pn.toNat := by
  have hlt := distBytes_lt (pn.toNat - la.toNat)
  have hpos := distBytes_pos (pn.toNat - la.toNat) (by omega)
  refine ⟨_, truncatePn_some pn la hl, ?_⟩
  rw [toBeBytes_length, beNat_toBeBytes]
  generalize distBytes (pn.toNat - la.toNat) = k at *
  obtain ⟨m, rfl⟩ : ∃ m, k = m + 1 := ⟨k - 1, by omega⟩
  have hm := h m
  have hb : 2 * (pn.toNat - la.toNat) < 2 ^ (8 * (m + 1)) := by
    rw [← pow256]
    rw [Nat.pow_succ] at hlt hm ⊢
    omega
  refine ⟨hb, ?_⟩
  rw [pow256]
  exact rfcDecode_correct _ _ _ (by omega) hl hb hpn

/-- With no acknowledgement (the only state the crate reaches) the four bytes are enough for every number the RFC allows in
four bytes, and the RFC decoder recovers the number.
Missing for the full statement: connections that have recorded an acknowledgement, for which it is false (`C29_too_short`). -/
theorem C29_no_ack_partial (pn : U64) (hpn : pn.toNat < 2 ^ 31) :
    ∃ b, truncatePn pn none = .ok b ∧ b.length = 4 ∧ enoughBits pn.toNat none (8 * b.length) ∧
      rfcDecodePn none (beNat b) (8 * b.length) = pn.toNat := by
  have ht := truncatePn_none pn (by omega)
  obtain ⟨_, h4, hv⟩ := truncatePn_none_ok ht
  refine ⟨_, ht, h4, ?_, ?_⟩
  · rw [h4]; simp only [enoughBits]; omega
  · rw [h4, hv]
    simp only [rfcDecodePn]
    rw [if_neg (by omega), if_neg (by omega)]
    omega

/-- In the other cases the encoding is shorter than RFC 9000 requires. -/
theorem C29_too_short (pn la : U64) (k : Nat) (hl : la.toNat < pn.toNat)
    (h : 128 * 256 ^ k ≤ pn.toNat - la.toNat ∧ pn.toNat - la.toNat < 256 ^ (k + 1)) :
    ∃ b, truncatePn pn (some la) = .ok b ∧ b.length = k + 1 ∧ ¬ enoughBits pn.toNat (some la.toNat) (8 * b.length) := by
  have hle := distBytes_le h.2
  have hge : k + 1 ≤ distBytes (pn.toNat - la.toNat) := by
    have hlt := distBytes_lt (pn.toNat - la.toNat)
    refine Nat.lt_of_not_le fun hc => ?_
    have h1 : (256 : Nat) ^ distBytes (pn.toNat - la.toNat) ≤ 256 ^ k := Nat.pow_le_pow_right (by decide) hc
    omega
  refine ⟨_, truncatePn_some pn la hl, ?_, ?_⟩
  · rw [toBeBytes_length]; omega
  · rw [toBeBytes_length, show distBytes (pn.toNat - la.toNat) = k + 1 by omega]
    simp only [enoughBits, ← pow256, Nat.pow_succ]
    omega

/-- And a receiver using the RFC 9000 decoder gets another number, when the acknowledged number is at least a window. -/
theorem C29_decoder_fails (pn la : U64) (k : Nat) (hw : 256 ^ (k + 1) ≤ la.toNat + 1)
    (h : 128 * 256 ^ k + 1 < pn.toNat - la.toNat ∧ pn.toNat - la.toNat < 256 ^ (k + 1)) :
    ∃ b, truncatePn pn (some la) = .ok b ∧ rfcDecodePn (some la.toNat) (beNat b) (8 * b.length) ≠ pn.toNat := by
  obtain ⟨b, ht, hbl, _⟩ := C29_too_short pn la k (by omega) ⟨by omega, h.2⟩
  refine ⟨b, ht, ?_⟩
  have hb : beNat b < 256 ^ (k + 1) := by rw [← hbl]; exact beNat_lt b
  have := rfcDecode_bound la.toNat (beNat b) (8 * b.length) (by omega) (by rw [hbl, ← pow256]; exact hw)
    (by rw [hbl, ← pow256]; exact hb)
  rw [hbl, ← pow256, Nat.pow_succ] at this
  rw [hbl]
  omega

/-- C29, exact: the encoding is as long as RFC 9000 requires exactly if the distance is not in the upper half of a byte length. -/
theorem C29_exact (pn la : U64) (hl : la.toNat < pn.toNat) (hpn : pn.toNat < 2 ^ 62) :
    ∃ b, truncatePn pn (some la) = .ok b ∧ (enoughBits pn.toNat (some la.toNat) (8 * b.length) ↔
      ∀ k, ¬ (128 * 256 ^ k ≤ pn.toNat - la.toNat ∧ pn.toNat - la.toNat < 256 ^ (k + 1))) := by
  refine ⟨_, truncatePn_some pn la hl, fun he k hk => ?_, fun h => ?_⟩
  · obtain ⟨b, h1, _, h3⟩ := C29_too_short pn la k hl hk
    rw [truncatePn_some pn la hl] at h1
    cases h1
    exact h3 he
  · obtain ⟨b, h1, h2, _⟩ := C29_partial pn la hl hpn h
    rw [truncatePn_some pn la hl] at h1
    cases h1
    exact h2

/-- C29, exact, what a receiver with the RFC 9000 decoder gets: with at least a window acknowledged, it recovers the number exactly if the distance is not
more than one above half the window; so the two distances at the limit, 128·256^k and one more, are too short by the letter of RFC 9000 and decoded all the same. -/
theorem C29_decoder_exact (pn la : U64) (hl : la.toNat < pn.toNat) (hpn : pn.toNat < 2 ^ 62)
    (hw : ∀ b, truncatePn pn (some la) = .ok b → 256 ^ b.length ≤ la.toNat + 1) :
    ∃ b, truncatePn pn (some la) = .ok b ∧ (rfcDecodePn (some la.toNat) (beNat b) (8 * b.length) = pn.toNat ↔
      ∀ k, ¬ (128 * 256 ^ k + 1 < pn.toNat - la.toNat ∧ pn.toNat - la.toNat < 256 ^ (k + 1))) := by
  refine ⟨_, truncatePn_some pn la hl, fun he k hk => ?_, fun h => ?_⟩
  · obtain ⟨b0, g1, g2, _⟩ := C29_too_short pn la k hl ⟨by omega, hk.2⟩
    have hw' := hw b0 g1
    rw [g2] at hw'
    obtain ⟨b, h1, h2⟩ := C29_decoder_fails pn la k hw' hk
    rw [truncatePn_some pn la hl] at h1
    cases h1
    exact h2 he
  · have hlt := distBytes_lt (pn.toNat - la.toNat)
    have hpos := distBytes_pos (pn.toNat - la.toNat) (by omega)
    rw [toBeBytes_length, beNat_toBeBytes]
    generalize distBytes (pn.toNat - la.toNat) = k at *
    obtain ⟨m, rfl⟩ : ∃ m, k = m + 1 := ⟨k - 1, by omega⟩
    have hm := h m
    rw [pow256]
    refine rfcDecode_window _ _ _ (by omega) hl ?_ hpn
    rw [← pow256]
    rw [Nat.pow_succ] at hlt hm ⊢
    omega
/-- The limit: with 1000 acknowledged, 1129 (distance 129) is recovered from one byte, 1130 is not. -/
example : truncatePn 1129 (some 1000) = .ok [105] ∧ rfcDecodePn (some 1000) 105 8 = 1129 ∧
    truncatePn 1130 (some 1000) = .ok [106] ∧ rfcDecodePn (some 1000) 106 8 ≠ 1130 := by decide +kernel

theorem C29_false : ¬ C29Statement := by
  intro h
  obtain ⟨b, ht, hne⟩ := C29_decoder_fails 1200 1000 0 (by decide) (by decide)
  exact hne (h 1200 (some 1000) b (by decide) ht).2

/-- Covered and violated distances. -/
example : truncatePn 1100 (some 1000) = .ok [76] ∧ rfcDecodePn (some 1000) 76 8 = 1100 := by decide +kernel
example : truncatePn 1200 (some 1000) = .ok [176] ∧ rfcDecodePn (some 1000) 176 8 = 944 := by decide +kernel
example : ∀ k, ¬ (128 * 256 ^ k ≤ (1100 : U64).toNat - (1000 : U64).toNat ∧ (1100 : U64).toNat - (1000 : U64).toNat < 256 ^ (k + 1)) := by
  intro k h
  have : 1 ≤ 256 ^ k := Nat.one_le_pow _ _ (by decide)
  have e : (1100 : U64).toNat - (1000 : U64).toNat = 100 := by decide
  omega

/-! ### C56 -/

/-- The full statement of C56: on a reachable connection every number handed out is determined by its encoding; when there is none left the answer is an error. -/
def C56For (P : Prims) : Prop :=
  ∀ (bp : Profile) (c : Connection), Connection.Reachable P bp c → ∀ sp,
    (∀ n b, (c.getNextPn bp sp).1 = .ok (n, b) → beNat b = n.toNat) ∧
    (2 ^ 32 ≤ (c.pnInfo sp).nextPn.toNat + 1 → (c.getNextPn bp sp).1.isErr = true)
/-- The claim, for all algorithms. -/
def C56Statement : Prop := ∀ P, C56For P

/-- **C56, partial.** Every number ever handed out on a reachable connection is determined by its four-byte encoding; no limit on the
history.
Missing for the full statement: the error at the end of the counter, which release builds do not give (`C56_wraps`). -/
theorem C56_encoding_determines_partial (P : Prims) (bp : Profile) (c : Connection) (h : Connection.Reachable P bp c) (sp : PnSpace) (n : U64)
    (b : Bytes) (hn : (c.getNextPn bp sp).1 = .ok (n, b)) : b.length = 4 ∧ beNat b = n.toNat := by
  have := (getNextPn_ok hn).2
  rw [(reachable_acks h sp).1] at this
  exact (truncatePn_none_ok this).2

/-- The same of every packet built.
Missing for the full statement: as in `C56_encoding_determines_partial`. -/
theorem C56_packets_partial (P : Prims) (bp : Profile) (c : Connection) (h : Connection.Reachable P bp c) :
    (∀ payload token p, (PacketInitial.new bp payload token c).1 = .ok p →
      p.packetNumberBytes.length = 4 ∧ beNat p.packetNumberBytes = p.packetNumber.toNat) ∧
    (∀ payload p, (PacketHandshake.new bp payload c).1 = .ok p →
      p.packetNumberBytes.length = 4 ∧ beNat p.packetNumberBytes = p.packetNumber.toNat) :=
  ⟨fun _ _ _ hp => C56_encoding_determines_partial P bp c h .initial _ _ (initialNew_ok hp).1,
   fun _ _ hp => C56_encoding_determines_partial P bp c h .handshake _ _ (handshakeNew_ok hp).1⟩

/-- Once the numbers that fit four bytes are used up, asking for a number and building a packet are errors. Missing: the
very last value of the 64-bit counter (`C56_wraps`). -/
theorem C56_exhausted_partial (P : Prims) (bp : Profile) (c : Connection) (h : Connection.Reachable P bp c) (sp : PnSpace)
    (hx : 2 ^ 32 ≤ (c.pnInfo sp).nextPn.toNat + 1) (hlim : (c.pnInfo sp).nextPn.toNat + 1 < 2 ^ 64) :
    (c.getNextPn bp sp).1.isErr = true ∧
    (sp = .initial → ∀ payload token, (PacketInitial.new bp payload token c).1.isErr = true) ∧
    (sp = .handshake → ∀ payload, (PacketHandshake.new bp payload c).1.isErr = true) := by
  have key : ∃ e, (c.getNextPn bp sp).1 = .err e := by
    rw [getNextPn_eq bp c sp hlim, (reachable_acks h sp).1]
    have := truncatePn_none_err ((c.pnInfo sp).nextPn + 1) (by rw [add1_toNat _ hlim]; exact hx)
    dsimp only
    cases ht : truncatePn ((c.pnInfo sp).nextPn + 1) none with
    | ok t => rw [ht] at this; cases this
    | panic w => rw [ht] at this; cases this
    | err e => exact ⟨e, rfl⟩
  obtain ⟨e, he⟩ := key
  refine ⟨by rw [he]; rfl, ?_, ?_⟩
  · rintro rfl payload token
    unfold PacketInitial.new
    generalize c.getNextPn bp .initial = r at he
    obtain ⟨o, d⟩ := r
    cases he
    rfl
  · rintro rfl payload
    unfold PacketHandshake.new
    generalize c.getNextPn bp .handshake = r at he
    obtain ⟨o, d⟩ := r
    cases he
    rfl

/-- At the very last value of the counter: a panic in debug builds, the number 0 in release builds. -/
theorem C56_wraps (P : Prims) (bp : Profile) (c : Connection) (h : Connection.Reachable P bp c) (sp : PnSpace)
    (hx : (c.pnInfo sp).nextPn.toNat + 1 = 2 ^ 64) :
    match bp with
    | .debug => (c.getNextPn bp sp).1.isPanic = true
    | .release => (c.getNextPn bp sp).1 = .ok (0, [0, 0, 0, 0]) := by
  cases bp with
  | debug =>
    unfold Connection.getNextPn
    simp only [addU64]
    rw [if_neg (show ¬ (c.pnInfo sp).nextPn.toNat + BitVec.toNat (1 : U64) < 2 ^ 64 by rw [show BitVec.toNat (1 : U64) = 1 from rfl]; omega)]
    rfl
  | release =>
    have e : (c.pnInfo sp).nextPn + 1 = 0 := by
      apply BitVec.eq_of_toNat_eq
      rw [BitVec.toNat_add, show BitVec.toNat (1 : U64) = 1 from rfl, hx]
      rfl
    unfold Connection.getNextPn
    dsimp only
    rw [addU64_release, e, (reachable_acks h sp).1]
    rfl

/-- The last counter value is reachable, by a history of 2^64 - 1 calls. -/
theorem C56_false : ¬ C56Statement := by
  intro h
  have hr : ∀ k, Connection.Reachable Spec.toy .release (exConn.run .release (List.replicate k (.nextPn .initial))).2 :=
    fun k => ⟨true, .v1, _, 8, exConn, _, exConn_new, rfl⟩
  have hr := hr (2 ^ 64 - 1)
  have hv : (((exConn.run .release (List.replicate (2 ^ 64 - 1) (.nextPn .initial))).2).pnInfo .initial).nextPn.toNat + 1 = 2 ^ 64 := by
    rw [run_replicate, pnInfo_set, if_pos rfl]
    have : (exConn.pnInfo .initial).nextPn = 0 := by decide +kernel
    rw [this]
    decide
  have h1 := (h Spec.toy .release _ hr .initial).2 (by rw [hv]; decide)
  rw [C56_wraps Spec.toy .release _ hr .initial hv] at h1
  cases h1

/-- Exhaustion is reachable: after 2^32 - 1 calls, in either profile the next one is an error. -/
example : ∃ c, Connection.Reachable Spec.toy .release c ∧ (c.getNextPn .release .initial).1.isErr = true := by
  refine ⟨(exConn.run .release (List.replicate (2 ^ 32 - 1) (.nextPn .initial))).2, ⟨true, .v1, _, 8, exConn, _, exConn_new, rfl⟩, ?_⟩
  have hv : (((exConn.run .release (List.replicate (2 ^ 32 - 1) (.nextPn .initial))).2).pnInfo .initial).nextPn.toNat = 2 ^ 32 - 1 := by
    rw [run_replicate, pnInfo_set, if_pos rfl]
    have : (exConn.pnInfo .initial).nextPn = 0 := by decide +kernel
    rw [this]
    decide
  exact (C56_exhausted_partial Spec.toy .release _ ⟨true, .v1, _, 8, exConn, _, exConn_new, rfl⟩ .initial (by rw [hv]; decide) (by rw [hv]; decide)).1

end QuicSea
