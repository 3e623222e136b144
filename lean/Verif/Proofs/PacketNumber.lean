import Verif.Model.ConnHistory
import Verif.Spec.PacketNumber
import Verif.Proofs.FrameWrite
/-
Packet numbers and nonces.
-/
namespace QuicSea
open Spec (beNat rfcNonce rfcDecodePn)

/-! ### counters -/

theorem pnInfo_set (c : Connection) (sp sp' : PnSpace) (i : PnInfo) :
    (c.setPnInfo sp i).pnInfo sp' = if sp' = sp then i else c.pnInfo sp' := by
  cases sp <;> cases sp' <;> rfl
theorem setPnInfo_other (c : Connection) (sp : PnSpace) (i : PnInfo) :
    (c.setPnInfo sp i).dcid = c.dcid ∧ (c.setPnInfo sp i).scid = c.scid ∧ (c.setPnInfo sp i).version = c.version := by
  cases sp <;> exact ⟨rfl, rfl, rfl⟩

theorem addU64_ok (bp : Profile) (a b : U64) (h : a.toNat + b.toNat < 2 ^ 64) : addU64 bp a b = .ok (a + b) := by
  cases bp <;> simp only [addU64, if_pos h]
theorem add1_toNat (a : U64) (h : a.toNat + 1 < 2 ^ 64) : (a + 1).toNat = a.toNat + 1 := by
  rw [BitVec.toNat_add]; exact Nat.mod_eq_of_lt h

theorem addU64_val {bp : Profile} {a b r : U64} (h : addU64 bp a b = .ok r) : r = a + b := by
  cases bp <;> simp only [addU64] at h <;> split at h <;> cases h <;> rfl

/-- `get_next_pn` below the counter limit. -/
theorem getNextPn_eq (bp : Profile) (c : Connection) (sp : PnSpace) (h : (c.pnInfo sp).nextPn.toNat + 1 < 2 ^ 64) :
    c.getNextPn bp sp =
      (match truncatePn ((c.pnInfo sp).nextPn + 1) (c.pnInfo sp).largestLocalAck with
        | .ok t => .ok ((c.pnInfo sp).nextPn + 1, t)
        | .err e => .err e
        | .panic w => .panic w,
       c.setPnInfo sp { c.pnInfo sp with nextPn := (c.pnInfo sp).nextPn + 1 }) := by
  unfold Connection.getNextPn
  dsimp only
  rw [addU64_ok _ _ _ (by exact h)]
  dsimp only
  congr 1
  cases truncatePn ((c.pnInfo sp).nextPn + 1) (c.pnInfo sp).largestLocalAck <;> rfl

theorem getNextPn_ok {bp : Profile} {c : Connection} {sp : PnSpace} {n b} (h : (c.getNextPn bp sp).1 = .ok (n, b)) :
    n = (c.pnInfo sp).nextPn + 1 ∧ truncatePn n (c.pnInfo sp).largestLocalAck = .ok b := by
  unfold Connection.getNextPn at h
  dsimp only at h
  split at h
  · rename_i m hm
    obtain ⟨t, ht, h⟩ := Out.bind_eq_ok h
    cases h
    exact ⟨addU64_val hm, ht⟩
  · cases h
  · cases h

/-- In general. -/
theorem getNextPn_conn (bp : Profile) (c : Connection) (sp : PnSpace) :
    (c.getNextPn bp sp).2 = c ∨ (c.getNextPn bp sp).2 = c.setPnInfo sp { c.pnInfo sp with nextPn := (c.pnInfo sp).nextPn + 1 } := by
  unfold Connection.getNextPn
  dsimp only
  split
  · rename_i h
    right
    have : _ = (c.pnInfo sp).nextPn + 1 := addU64_val h
    subst this; rfl
  · left; rfl
  · left; rfl

theorem initialNew_conn (bp : Profile) (c : Connection) (payload token) :
    (PacketInitial.new bp payload token c).2 = (c.getNextPn bp .initial).2 := by
  unfold PacketInitial.new; split <;> simp_all
theorem handshakeNew_conn (bp : Profile) (c : Connection) (payload) :
    (PacketHandshake.new bp payload c).2 = (c.getNextPn bp .handshake).2 := by
  unfold PacketHandshake.new; split <;> simp_all
theorem initialNew_ok {bp : Profile} {c : Connection} {payload token p} (h : (PacketInitial.new bp payload token c).1 = .ok p) :
    (c.getNextPn bp .initial).1 = .ok (p.packetNumber, p.packetNumberBytes) ∧
    (0 < p.packetNumberBytes.length % 256 ∧ p.packetNumberBytes.length % 256 ≤ 4) ∧
    LongPacketHeader.fromConnection (c.getNextPn bp .initial).2
      (PacketInitial.newHeaderByte (BitVec.ofNat 8 p.packetNumberBytes.length - 1)) = .ok p.header ∧
    p.token = token.getD [] ∧ p.packetPayload = payload := by
  unfold PacketInitial.new at h
  split at h
  · rename_i n b c' hg
    dsimp only at h
    split at h
    · cases h
    · rename_i hl
      obtain ⟨hd, hh, h⟩ := Out.bind_eq_ok h
      cases h
      rw [hg]
      refine ⟨rfl, ?_, hh, rfl, rfl⟩
      have hl := Classical.not_not.mp hl
      have h1 := BitVec.lt_def.mp hl.1
      have h2 := BitVec.le_def.mp hl.2
      rw [BitVec.toNat_ofNat] at h1 h2
      exact ⟨h1, h2⟩
  · cases h
  · cases h
theorem handshakeNew_ok {bp : Profile} {c : Connection} {payload p} (h : (PacketHandshake.new bp payload c).1 = .ok p) :
    (c.getNextPn bp .handshake).1 = .ok (p.packetNumber, p.packetNumberBytes) ∧
    (0 < p.packetNumberBytes.length % 256 ∧ p.packetNumberBytes.length % 256 ≤ 4) ∧
    LongPacketHeader.fromConnection (c.getNextPn bp .handshake).2
      (PacketHandshake.newHeaderByte (BitVec.ofNat 8 p.packetNumberBytes.length - 1)) = .ok p.header ∧
    p.packetPayload = payload := by
  unfold PacketHandshake.new at h
  split at h
  · rename_i n b c' hg
    dsimp only at h
    split at h
    · cases h
    · rename_i hl
      obtain ⟨hd, hh, h⟩ := Out.bind_eq_ok h
      cases h
      rw [hg]
      refine ⟨rfl, ?_, hh, rfl⟩
      have hl := Classical.not_not.mp hl
      have h1 := BitVec.lt_def.mp hl.1
      have h2 := BitVec.le_def.mp hl.2
      rw [BitVec.toNat_ofNat] at h1 h2
      exact ⟨h1, h2⟩
  · cases h
  · cases h

theorem step_conn (bp : Profile) (c : Connection) (op : ConnOp) :
    (c.step bp op).2 = match op, op.space with
      | .setScid cid len, _ => c.setScid cid len
      | _, some sp => (c.getNextPn bp sp).2
      | _, none => c := by
  cases op with
  | setScid => rfl
  | nextPn => rfl
  | buildInitial => exact initialNew_conn _ _ _ _
  | buildHandshake => exact handshakeNew_conn _ _ _
theorem step_issued {bp : Profile} {c : Connection} {op : ConnOp} {sp n b} (h : (c.step bp op).1.issued = some (sp, n, b)) :
    op.space = some sp ∧ (c.getNextPn bp sp).1 = .ok (n, b) := by
  cases op with
  | setScid => cases h
  | nextPn sp' =>
    unfold Connection.step ConnOut.issued at h
    simp only at h
    split at h
    · rename_i e; cases h; injection e with e1 e2; subst e1; exact ⟨rfl, e2⟩
    · rename_i e; cases e
    · rename_i e; cases e
    · cases h
  | buildInitial =>
    unfold Connection.step ConnOut.issued at h
    simp only at h
    split at h
    · rename_i e; cases e
    · rename_i e; cases h; injection e with e; exact ⟨rfl, (initialNew_ok e).1⟩
    · rename_i e; cases e
    · cases h
  | buildHandshake =>
    unfold Connection.step ConnOut.issued at h
    simp only at h
    split at h
    · rename_i e; cases e
    · rename_i e; cases e
    · rename_i e; cases h; injection e with e; exact ⟨rfl, (handshakeNew_ok e).1⟩
    · cases h

theorem step_pnInfo (bp : Profile) (c : Connection) (op : ConnOp) (sp : PnSpace) :
    ((c.step bp op).2).pnInfo sp = c.pnInfo sp ∨
    (op.space = some sp ∧ ((c.step bp op).2).pnInfo sp = { c.pnInfo sp with nextPn := (c.pnInfo sp).nextPn + 1 }) := by
  rw [step_conn]
  have key : ∀ sp', ((c.getNextPn bp sp').2).pnInfo sp = c.pnInfo sp ∨
      (sp' = sp ∧ ((c.getNextPn bp sp').2).pnInfo sp = { c.pnInfo sp with nextPn := (c.pnInfo sp).nextPn + 1 }) := by
    intro sp'
    rcases getNextPn_conn bp c sp' with h | h
    · rw [h]; exact .inl rfl
    · rw [h, pnInfo_set]
      by_cases e : sp = sp'
      · subst e; rw [if_pos rfl]; exact .inr ⟨rfl, rfl⟩
      · rw [if_neg e]; exact .inl rfl
  cases op with
  | setScid => left; cases sp <;> rfl
  | nextPn sp' => exact (key sp').imp id (fun h => ⟨by rw [← h.1]; rfl, h.2⟩)
  | buildInitial => exact (key .initial).imp id (fun h => ⟨by rw [← h.1]; rfl, h.2⟩)
  | buildHandshake => exact (key .handshake).imp id (fun h => ⟨by rw [← h.1]; rfl, h.2⟩)

/-- An issued number is the counter after the operation, and the counter moved. -/
theorem step_issued_val {bp : Profile} {c : Connection} {op : ConnOp} {sp n b} (h : (c.step bp op).1.issued = some (sp, n, b))
    (hlim : (c.pnInfo sp).nextPn.toNat + 1 < 2 ^ 64) :
    n = (c.pnInfo sp).nextPn + 1 ∧ (((c.step bp op).2).pnInfo sp).nextPn = (c.pnInfo sp).nextPn + 1 ∧
    truncatePn n (c.pnInfo sp).largestLocalAck = .ok b := by
  obtain ⟨h1, h2⟩ := step_issued h
  rw [getNextPn_eq bp c sp hlim] at h2
  have hc : (c.step bp op).2 = (c.getNextPn bp sp).2 := by
    rw [step_conn]
    cases op <;> simp only [ConnOp.space, Option.some.injEq] at h1 ⊢
    · cases h1
    · rw [h1]
    · rw [← h1]
    · rw [← h1]
  rw [hc, getNextPn_eq bp c sp hlim, pnInfo_set, if_pos rfl]
  dsimp only at h2 ⊢
  cases ht : truncatePn ((c.pnInfo sp).nextPn + 1) (c.pnInfo sp).largestLocalAck with
  | err e => rw [ht] at h2; cases h2
  | panic w => rw [ht] at h2; cases h2
  | ok t =>
    rw [ht] at h2
    injection h2 with h2
    injection h2 with e1 e2
    subst e1 e2
    exact ⟨rfl, rfl, ht⟩

theorem issuedIn_mem {sp : PnSpace} {outs : List ConnOut} {n : U64} (h : n ∈ issuedIn sp outs) :
    ∃ o ∈ outs, ∃ b, o.issued = some (sp, n, b) := by
  obtain ⟨o, ho, h⟩ := List.mem_filterMap.mp h
  split at h
  · rename_i sp' n' b e
    split at h
    · rename_i es; cases h; subst es; exact ⟨o, ho, b, e⟩
    · cases h
  · cases h
theorem issuedIn_cons (sp : PnSpace) (o : ConnOut) (outs : List ConnOut) :
    issuedIn sp (o :: outs) = (match o.issued with
      | some (sp', n, _) => if sp' = sp then [n] else []
      | none => []) ++ issuedIn sp outs := by
  unfold issuedIn
  rw [List.filterMap_cons]
  cases h : o.issued with
  | none => simp
  | some x =>
    obtain ⟨sp', n, b⟩ := x
    by_cases e : sp' = sp <;> simp [e]

theorem run_counter (bp : Profile) (sp : PnSpace) (ops : List ConnOp) (c : Connection)
    (h : (c.pnInfo sp).nextPn.toNat + ops.length < 2 ^ 64) :
    (∀ n ∈ issuedIn sp (c.run bp ops).1, (c.pnInfo sp).nextPn.toNat < n.toNat ∧ n.toNat ≤ (c.pnInfo sp).nextPn.toNat + ops.length) ∧
    (issuedIn sp (c.run bp ops).1).Pairwise (fun a b => a.toNat < b.toNat) := by
  induction ops generalizing c with
  | nil => exact ⟨by simp [Connection.run, issuedIn], by simp [Connection.run, issuedIn]⟩
  | cons op ops ih =>
    simp only [List.length_cons] at h
    have hlim : (c.pnInfo sp).nextPn.toNat + 1 < 2 ^ 64 := by omega
    have hstep : (((c.step bp op).2).pnInfo sp).nextPn.toNat = (c.pnInfo sp).nextPn.toNat ∨
        (((c.step bp op).2).pnInfo sp).nextPn.toNat = (c.pnInfo sp).nextPn.toNat + 1 := by
      rcases step_pnInfo bp c op sp with e | ⟨_, e⟩
      · left; rw [e]
      · right; rw [e]; exact add1_toNat _ hlim
    obtain ⟨i1, i2⟩ := ih (c.step bp op).2 (by omega)
    rw [show (c.run bp (op :: ops)).1 = (c.step bp op).1 :: ((c.step bp op).2.run bp ops).1 from rfl, issuedIn_cons]
    cases hi : (c.step bp op).1.issued with
    | none =>
      refine ⟨?_, by simpa using i2⟩
      intro n hn
      have := i1 n (by simpa using hn)
      simp only [List.length_cons]
      omega
    | some x =>
      obtain ⟨sp', n, b⟩ := x
      by_cases e : sp' = sp
      · subst e
        obtain ⟨hn, hc, _⟩ := step_issued_val hi hlim
        have hnv : n.toNat = (c.pnInfo sp').nextPn.toNat + 1 := by rw [hn]; exact add1_toNat _ hlim
        simp only [if_true, List.singleton_append]
        constructor
        · intro m hm
          rcases List.mem_cons.mp hm with rfl | hm
          · simp only [List.length_cons]; omega
          · have := i1 m hm
            simp only [List.length_cons]
            omega
        · refine List.pairwise_cons.mpr ⟨?_, i2⟩
          intro m hm
          have := (i1 m hm).1
          rw [hc, ← hn] at this
          exact this
      · simp only [if_neg e, List.nil_append]
        refine ⟨?_, i2⟩
        intro m hm
        have := i1 m hm
        simp only [List.length_cons]
        omega

/-! ### bit length -/

/-- Number of binary digits. -/
def bitLen (n : Nat) : Nat := if n = 0 then 0 else Nat.log2 n + 1
theorem bitLen_half (n : Nat) (h : n ≠ 0) : bitLen n = bitLen (n / 2) + 1 := by
  unfold bitLen
  rw [if_neg h]
  by_cases h2 : n / 2 = 0
  · have : n = 1 := by omega
    subst this; decide
  · rw [if_neg h2, Nat.log2_def, if_pos (by omega)]
theorem bitLen_lt (n : Nat) : n < 2 ^ bitLen n := by
  unfold bitLen
  split
  · omega
  · exact Nat.lt_log2_self
theorem bitLen_ge (n : Nat) (h : n ≠ 0) : 2 ^ (bitLen n - 1) ≤ n := by
  unfold bitLen
  rw [if_neg h, Nat.add_sub_cancel]
  exact Nat.log2_self_le h
theorem bitLen_pos (n : Nat) (h : n ≠ 0) : 0 < bitLen n := by
  unfold bitLen; rw [if_neg h]; omega
theorem bitLen_le (n k : Nat) (h : n < 2 ^ k) : bitLen n ≤ k := by
  by_cases h0 : n = 0
  · rw [h0]; exact Nat.zero_le _
  · have := bitLen_ge n h0
    have h1 : 2 ^ (bitLen n - 1) < 2 ^ k := by omega
    have := (Nat.pow_lt_pow_iff_right (by decide : 1 < 2)).mp h1
    omega

/-- `floor_log2` computes the bit length (not the floor of the logarithm); the loop fuel is never exhausted. -/
theorem floorLog2Loop_eq (n : Nat) (x : BitVec w) (rv : Nat) (h : x.toNat < 2 ^ n) : floorLog2Loop n x rv = rv + bitLen x.toNat := by
  induction n generalizing x rv with
  | zero =>
    have : x.toNat = 0 := by simpa using h
    rw [floorLog2Loop, this]; rfl
  | succ n ih =>
    rw [floorLog2Loop]
    split
    · rename_i h0; rw [h0]; simp [bitLen]
    · rename_i h0
      have h0' : x.toNat ≠ 0 := fun e => h0 (BitVec.eq_of_toNat_eq (by simpa using e))
      have hs : (x >>> 1).toNat = x.toNat / 2 := by rw [BitVec.toNat_ushiftRight, Nat.shiftRight_eq_div_pow]
      rw [ih _ _ (by rw [hs]; rw [Nat.pow_succ] at h; omega), hs, bitLen_half _ h0']
      omega
theorem floorLog2_eq (x : BitVec w) (h : x.toNat ≠ 0) : floorLog2 x = .ok (bitLen x.toNat) := by
  rw [floorLog2, if_neg (fun e => h (by rw [e]; simp)), floorLog2Loop_eq _ _ _ x.isLt, Nat.zero_add]

/-! ### truncation -/

/-- Bytes used for a distance `d`: the bit length rounded up to bytes. -/
def distBytes (d : Nat) : Nat := (bitLen d + 7) / 8

theorem distBytes_lt (d : Nat) : d < 256 ^ distBytes d := by
  refine Nat.lt_of_lt_of_le (bitLen_lt d) ?_
  rw [show (256 : Nat) = 2 ^ 8 from rfl, ← Nat.pow_mul]
  exact Nat.pow_le_pow_right (by decide) (by unfold distBytes; omega)
theorem distBytes_pos (d : Nat) (h : d ≠ 0) : 0 < distBytes d := by
  have := bitLen_pos d h; unfold distBytes; omega
theorem distBytes_le8 (d : Nat) (h : d < 2 ^ 64) : distBytes d ≤ 8 := by
  have := bitLen_le d 64 h; unfold distBytes; omega
theorem distBytes_le {d k : Nat} (h : d < 256 ^ k) : distBytes d ≤ k := by
  have e : (256 : Nat) ^ k = 2 ^ (8 * k) := by rw [show (256 : Nat) = 2 ^ 8 from rfl, ← Nat.pow_mul]
  rw [e] at h
  have := bitLen_le d _ h; unfold distBytes; omega
/-- Minimality: one byte less would not even hold the distance. -/
theorem distBytes_min (d : Nat) (h : d ≠ 0) : 256 ^ (distBytes d - 1) ≤ d := by
  refine Nat.le_trans ?_ (bitLen_ge d h)
  rw [show (256 : Nat) = 2 ^ 8 from rfl, ← Nat.pow_mul]
  exact Nat.pow_le_pow_right (by decide) (by have := bitLen_pos d h; unfold distBytes; omega)

theorem truncatePn_some (pn x : U64) (h : x.toNat < pn.toNat) :
    truncatePn pn (some x) = .ok (toBeBytes (distBytes (pn.toNat - x.toNat)) pn) := by
  have hd : (pn - x).toNat = pn.toNat - x.toNat := by
    have := pn.isLt
    rw [BitVec.toNat_sub]; omega
  have h0 : (pn - x).toNat ≠ 0 := by omega
  show (if pn ≤ x then _ else _ : Out Bytes) = _
  rw [if_neg (by rw [BitVec.le_def]; omega)]
  simp only [floorLog2_eq _ h0]
  have hb : bitLen (pn - x).toNat / 8 + (if bitLen (pn - x).toNat % 8 = 0 then 0 else 1) = distBytes (pn.toNat - x.toNat) := by
    rw [hd]; unfold distBytes; split <;> omega
  have h8 : distBytes (pn.toNat - x.toNat) ≤ 8 := distBytes_le8 _ (by have := pn.isLt; omega)
  show sliceFrom (toBeBytes 8 pn) (8 - (bitLen (pn - x).toNat / 8 + (if bitLen (pn - x).toNat % 8 = 0 then 0 else 1))) = _
  rw [hb, sliceFrom, if_pos (by simp), toBeBytes_drop 8 _ _ h8]
theorem truncatePn_some_err (pn x : U64) (h : pn.toNat ≤ x.toNat) : (truncatePn pn (some x)).isErr = true := by
  show (if pn ≤ x then _ else _ : Out Bytes).isErr = _
  rw [if_pos (by rw [BitVec.le_def]; exact h)]; rfl
theorem truncatePn_none (pn : U64) (h : pn.toNat < 2 ^ 32) : truncatePn pn none = .ok (toBeBytes 4 (pn.setWidth 32)) := by
  unfold truncatePn
  rw [if_neg (by omega)]
theorem truncatePn_none_err (pn : U64) (h : 2 ^ 32 ≤ pn.toNat) : (truncatePn pn none).isErr = true := by
  unfold truncatePn
  rw [if_pos (by omega)]; rfl
theorem truncatePn_none_ok {pn : U64} {b} (h : truncatePn pn none = .ok b) : pn.toNat < 2 ^ 32 ∧ b.length = 4 ∧ beNat b = pn.toNat := by
  by_cases hl : pn.toNat < 2 ^ 32
  · rw [truncatePn_none pn hl] at h
    cases h
    refine ⟨hl, toBeBytes_length _ _, ?_⟩
    rw [beNat_toBeBytes' 4 (pn.setWidth 32)]
    show (pn.setWidth 32).toNat = _
    rw [BitVec.toNat_setWidth]; exact Nat.mod_eq_of_lt hl
  · have := truncatePn_none_err pn (by omega)
    rw [h] at this; cases this

/-! ### reconstruction -/

theorem beNat_zeros (n : Nat) (bs : Bytes) : beNat (List.replicate n 0 ++ bs) = beNat bs := by
  rw [beNat_append]
  have : beNat (List.replicate n (0 : U8)) = 0 := by
    induction n with
    | zero => rfl
    | succ n ih => rw [List.replicate_succ, beNat_cons, ih]; simp
  rw [this]; omega
theorem tpPn_toNat (pn : Bytes) (h : pn.length ≤ 4) : (fromBeBytes 32 (List.replicate (4 - pn.length) 0 ++ pn) : U32).toNat = beNat pn := by
  rw [fromBeBytes_toNat (by decide), beNat_zeros]
  refine Nat.mod_eq_of_lt (Nat.lt_of_lt_of_le (beNat_lt pn) ?_)
  exact Nat.le_trans (Nat.pow_le_pow_right (by decide) h) (by decide)
theorem reconstruct_none (bp : Profile) (c : Connection) (sp : PnSpace) (pn : Bytes) (h : pn.length ≤ 4)
    (ha : (c.pnInfo sp).largestRemoteAck = none) : c.reconstructRemotePn bp sp pn = .ok (BitVec.ofNat 64 (beNat pn)) := by
  unfold Connection.reconstructRemotePn
  simp only [ha]
  rw [if_neg (by omega)]
  congr 1
  apply BitVec.eq_of_toNat_eq
  rw [BitVec.toNat_setWidth, tpPn_toNat pn h, BitVec.toNat_ofNat]
theorem reconstruct_long_panics (bp : Profile) (c : Connection) (sp : PnSpace) (pn : Bytes) (h : 4 < pn.length) :
    (c.reconstructRemotePn bp sp pn).isPanic = true := by
  unfold Connection.reconstructRemotePn
  rw [if_pos (by omega)]; rfl
theorem top4 (x : U64) : beNat ((toBeBytes 8 x).take 4) = x.toNat / 2 ^ 32 := by
  have h1 : beNat (toBeBytes 8 x) = x.toNat := beNat_toBeBytes' 8 x
  rw [← List.take_append_drop 4 (toBeBytes 8 x), beNat_append] at h1
  have h2 : ((toBeBytes 8 x).drop 4).length = 4 := by simp
  have h3 := beNat_lt ((toBeBytes 8 x).drop 4)
  rw [h2] at h1 h3
  have e : (256 : Nat) ^ 4 = 2 ^ 32 := by decide
  rw [e] at h1 h3
  omega
/-- What the code computes when the largest acknowledged number fits 32 bits and the bytes are not all zero. -/
theorem reconstruct_some_small (bp : Profile) (c : Connection) (sp : PnSpace) (pn : Bytes) (x : U64) (h : pn.length ≤ 4)
    (ha : (c.pnInfo sp).largestRemoteAck = some x) (hx : x.toNat < 2 ^ 32) (hp : 0 < beNat pn) :
    c.reconstructRemotePn bp sp pn = .ok (BitVec.ofNat 64 (x.toNat - x.toNat % 2 ^ pn.length + beNat pn)) := by
  have hpl : beNat pn < 2 ^ 32 :=
    Nat.lt_of_lt_of_le (beNat_lt pn) (Nat.le_trans (Nat.pow_le_pow_right (by decide) h) (by decide))
  unfold Connection.reconstructRemotePn
  simp only [ha]
  rw [if_neg (by omega), if_pos]
  · have e1 : ((x >>> pn.length) <<< pn.length).toNat = x.toNat - x.toNat % 2 ^ pn.length := by
      rw [BitVec.toNat_shiftLeft, BitVec.toNat_ushiftRight, Nat.shiftRight_eq_div_pow, Nat.shiftLeft_eq]
      have := Nat.div_add_mod x.toNat (2 ^ pn.length)
      rw [Nat.mul_comm] at this
      rw [Nat.mod_eq_of_lt (by omega)]
      omega
    have e2 : ((fromBeBytes 32 (List.replicate (4 - pn.length) 0 ++ pn) : U32).setWidth 64).toNat = beNat pn := by
      rw [BitVec.toNat_setWidth, tpPn_toNat pn h]; exact Nat.mod_eq_of_lt (by omega)
    rw [addU64_ok _ _ _ (by rw [e1, e2]; omega)]
    congr 1
    apply BitVec.eq_of_toNat_eq
    rw [BitVec.toNat_add, e1, e2, BitVec.toNat_ofNat]
  · show _ < _
    rw [BitVec.lt_def, tpPn_toNat pn h, fromBeBytes_toNat (by decide), top4, Nat.div_eq_of_lt hx]
    exact hp

/-- What the code computes when a number in the range of RFC 9000 is the largest acknowledged one. -/
theorem reconstruct_some (bp : Profile) (c : Connection) (sp : PnSpace) (pn : Bytes) (x : U64) (h : pn.length ≤ 4)
    (ha : (c.pnInfo sp).largestRemoteAck = some x) (hx : x.toNat < 2 ^ 62) :
    c.reconstructRemotePn bp sp pn = .ok (BitVec.ofNat 64
      (x.toNat - x.toNat % 2 ^ pn.length + (if x.toNat / 2 ^ 32 < beNat pn then 0 else 2 ^ pn.length) + beNat pn)) := by
  have hpl : beNat pn < 2 ^ 32 :=
    Nat.lt_of_lt_of_le (beNat_lt pn) (Nat.le_trans (Nat.pow_le_pow_right (by decide) h) (by decide))
  have hk : 2 ^ pn.length ≤ 2 ^ 4 := Nat.pow_le_pow_right (by decide) h
  have hk0 : 0 < 2 ^ pn.length := Nat.pow_pos (by decide)
  have hdm := Nat.div_add_mod x.toNat (2 ^ pn.length)
  have hdl := Nat.div_le_self x.toNat (2 ^ pn.length)
  have e2 : ((fromBeBytes 32 (List.replicate (4 - pn.length) 0 ++ pn) : U32).setWidth 64).toNat = beNat pn := by
    rw [BitVec.toNat_setWidth, tpPn_toNat pn h]; exact Nat.mod_eq_of_lt (by omega)
  have hc : (fromBeBytes 32 (List.replicate (4 - pn.length) 0 ++ pn) : U32) > fromBeBytes 32 ((toBeBytes 8 x).take 4) ↔
      x.toNat / 2 ^ 32 < beNat pn := by
    show _ < _ ↔ _
    rw [BitVec.lt_def, tpPn_toNat pn h, fromBeBytes_toNat (by decide), top4, Nat.mod_eq_of_lt (by omega)]
  rw [Nat.mul_comm] at hdm
  unfold Connection.reconstructRemotePn
  simp only [ha]
  rw [if_neg (by omega)]
  by_cases hv : x.toNat / 2 ^ 32 < beNat pn
  · rw [if_pos (hc.mpr hv), if_pos hv]
    have e1 : ((x >>> pn.length) <<< pn.length).toNat = x.toNat - x.toNat % 2 ^ pn.length := by
      rw [BitVec.toNat_shiftLeft, BitVec.toNat_ushiftRight, Nat.shiftRight_eq_div_pow, Nat.shiftLeft_eq]
      rw [Nat.mod_eq_of_lt (by omega)]
      omega
    rw [addU64_ok _ _ _ (by rw [e1, e2]; omega)]
    congr 1
    apply BitVec.eq_of_toNat_eq
    rw [BitVec.toNat_add, e1, e2, BitVec.toNat_ofNat]; rfl
  · rw [if_neg (fun h => hv (hc.mp h)), if_neg hv]
    have e0 : (x >>> pn.length).toNat = x.toNat / 2 ^ pn.length := by
      rw [BitVec.toNat_ushiftRight, Nat.shiftRight_eq_div_pow]
    have e3 : (x >>> pn.length + 1).toNat = x.toNat / 2 ^ pn.length + 1 := by
      rw [BitVec.toNat_add, e0]
      exact Nat.mod_eq_of_lt (by show _ + 1 < _; omega)
    rw [addU64_ok _ _ _ (by rw [e0]; show _ + 1 < _; omega)]
    show addU64 bp ((x >>> pn.length + 1) <<< pn.length) _ = _
    have e1 : ((x >>> pn.length + 1) <<< pn.length).toNat = x.toNat - x.toNat % 2 ^ pn.length + 2 ^ pn.length := by
      rw [BitVec.toNat_shiftLeft, e3, Nat.shiftLeft_eq, Nat.add_mul, Nat.one_mul, Nat.mod_eq_of_lt (by omega)]
      omega
    rw [addU64_ok _ _ _ (by rw [e1, e2]; omega)]
    congr 1
    apply BitVec.eq_of_toNat_eq
    rw [BitVec.toNat_add, e1, e2, BitVec.toNat_ofNat]

/-! ### nonces -/

theorem xorBack_length (a b : Bytes) : (xorBack a b).length = a.length := by
  induction a generalizing b with
  | nil => rfl
  | cons x xs ih =>
    cases b with
    | nil => rfl
    | cons y ys => simp [xorBack, ih]
theorem xorBack_eq (a b : Bytes) (h : b.length ≤ a.length) :
    xorBack a b = a.zipWith (· ^^^ ·) (b ++ List.replicate (a.length - b.length) 0) := by
  induction a generalizing b with
  | nil => rfl
  | cons x xs ih =>
    cases b with
    | nil =>
      have : ∀ l : Bytes, l = l.zipWith (· ^^^ ·) (List.replicate l.length 0) := by
        intro l
        induction l with
        | nil => rfl
        | cons z zs ihz =>
          rw [List.length_cons, List.replicate_succ, List.zipWith_cons_cons, ← ihz, show z ^^^ (0 : U8) = z from BitVec.xor_zero]
      exact this (x :: xs)
    | cons y ys =>
      simp only [List.length_cons, Nat.add_le_add_iff_right] at h
      simp [xorBack, ih ys h]
theorem packetNonce_eq (iv : Bytes) (pn : U64) (h : 8 ≤ iv.length) : packetNonce iv pn = rfcNonce iv (toBeBytes 8 pn) := by
  unfold packetNonce rfcNonce
  rw [xorBack_eq _ _ (by simp; omega), ← List.reverse_inj, List.reverse_reverse, List.reverse_zipWith (by simp; omega)]
  simp
theorem packetNonce_length (iv : Bytes) (pn : U64) : (packetNonce iv pn).length = iv.length := by
  unfold packetNonce; simp [xorBack_length]
theorem zipWith_xor_inj {a b c : Bytes} (hb : b.length = a.length) (hc : c.length = a.length)
    (h : a.zipWith (· ^^^ ·) b = a.zipWith (· ^^^ ·) c) : b = c := by
  induction a generalizing b c with
  | nil => rw [List.length_eq_zero_iff.mp hb, List.length_eq_zero_iff.mp hc]
  | cons x xs ih =>
    cases b with
    | nil => simp at hb
    | cons y ys =>
      cases c with
      | nil => simp at hc
      | cons z zs =>
        simp only [List.zipWith_cons_cons, List.cons.injEq, List.length_cons, Nat.add_right_cancel_iff] at h hb hc
        rw [ih hb hc h.2]
        congr 1
        have := congrArg (fun w => x ^^^ w) h.1
        simpa [← BitVec.xor_assoc] using this
theorem packetNonce_inj {iv : Bytes} {a b : U64} (hl : 8 ≤ iv.length) (h : packetNonce iv a = packetNonce iv b) : a = b := by
  rw [packetNonce_eq iv a hl, packetNonce_eq iv b hl] at h
  have := zipWith_xor_inj (by simp; omega) (by simp; omega) h
  have := (List.append_inj' this (by simp)).2
  have := congrArg beNat this
  rw [beNat_toBeBytes' 8 a, beNat_toBeBytes' 8 b] at this
  exact BitVec.eq_of_toNat_eq this

/-! ### the RFC decoder -/

/-- The window of the RFC 9000 decoder is centred on the number after the largest one. -/
theorem rfcDecode_window (pn la bits : Nat) (hb : 1 ≤ bits) (h1 : la < pn) (h2 : 2 * (pn - (la + 1)) ≤ 2 ^ bits) (hpn : pn < 2 ^ 62) :
    rfcDecodePn (some la) (pn % 2 ^ bits) bits = pn := by
  unfold rfcDecodePn
  dsimp only
  obtain ⟨m, rfl⟩ : ∃ m, bits = m + 1 := ⟨bits - 1, by omega⟩
  have e2 : (2 : Nat) ^ (m + 1) = 2 * 2 ^ m := by rw [Nat.pow_succ]; omega
  rw [e2] at h2 ⊢
  generalize hW : 2 ^ m = w at *
  have hw : 0 < w := by rw [← hW]; exact Nat.two_pow_pos m
  have d1 := Nat.div_add_mod pn (2 * w)
  have d2 := Nat.div_add_mod (la + 1) (2 * w)
  have m1 := Nat.mod_lt pn (by omega : 0 < 2 * w)
  have m2 := Nat.mod_lt (la + 1) (by omega : 0 < 2 * w)
  generalize pn / (2 * w) = q1 at *
  generalize (la + 1) / (2 * w) = q2 at *
  generalize pn % (2 * w) = r1 at *
  generalize (la + 1) % (2 * w) = r2 at *
  have hh : 2 * w / 2 = w := by omega
  rw [hh]
  have hq : q1 = q2 ∨ q1 = q2 + 1 := by
    rcases Nat.lt_trichotomy q1 q2 with h | h | h
    · exfalso
      have : (q1 + 1) * (2 * w) ≤ q2 * (2 * w) := Nat.mul_le_mul_right _ h
      rw [Nat.add_mul, Nat.mul_comm q1, Nat.mul_comm q2] at this
      omega
    · exact .inl h
    · rcases Nat.lt_trichotomy q1 (q2 + 1) with h' | h' | h'
      · omega
      · exact .inr h'
      · exfalso
        have : (q2 + 2) * (2 * w) ≤ q1 * (2 * w) := Nat.mul_le_mul_right _ h'
        rw [Nat.add_mul, Nat.mul_comm q1, Nat.mul_comm q2] at this
        omega
  rw [Nat.mul_comm q2]
  rcases hq with rfl | rfl
  · rw [if_neg (by omega), if_neg (by omega)]; omega
  · rw [Nat.mul_add] at d1
    rw [if_pos (by omega)]; omega
theorem rfcDecode_correct (pn la bits : Nat) (hb : 1 ≤ bits) (h1 : la < pn) (h2 : 2 * (pn - la) < 2 ^ bits) (hpn : pn < 2 ^ 62) :
    rfcDecodePn (some la) (pn % 2 ^ bits) bits = pn := rfcDecode_window pn la bits hb h1 (by omega) hpn
/-- The decoder never answers more than half a window above the expected number, once the expected number is a window or more. -/
theorem rfcDecode_bound (la t bits : Nat) (hb : 1 ≤ bits) (hla : 2 ^ bits ≤ la + 1) (ht : t < 2 ^ bits) :
    rfcDecodePn (some la) t bits ≤ la + 1 + 2 ^ bits / 2 := by
  unfold rfcDecodePn
  dsimp only
  obtain ⟨m, rfl⟩ : ∃ m, bits = m + 1 := ⟨bits - 1, by omega⟩
  have e2 : (2 : Nat) ^ (m + 1) = 2 * 2 ^ m := by rw [Nat.pow_succ]; omega
  rw [e2] at hla ht ⊢
  generalize hW : 2 ^ m = w at *
  have hw : 0 < w := by rw [← hW]; exact Nat.two_pow_pos m
  have d2 := Nat.div_add_mod (la + 1) (2 * w)
  have m2 := Nat.mod_lt (la + 1) (by omega : 0 < 2 * w)
  have hq : 1 ≤ (la + 1) / (2 * w) := (Nat.one_le_div_iff (by omega)).mpr hla
  generalize (la + 1) / (2 * w) = q at *
  generalize (la + 1) % (2 * w) = r at *
  have : 1 * (2 * w) ≤ q * (2 * w) := Nat.mul_le_mul_right _ hq
  rw [Nat.mul_comm q] at *
  split
  · omega
  · split <;> omega

/-! ### acknowledgements are never recorded -/

theorem step_acks (bp : Profile) (c : Connection) (op : ConnOp) (sp : PnSpace) :
    (((c.step bp op).2).pnInfo sp).largestLocalAck = (c.pnInfo sp).largestLocalAck ∧
    (((c.step bp op).2).pnInfo sp).largestRemoteAck = (c.pnInfo sp).largestRemoteAck ∧
    (((c.step bp op).2).pnInfo sp).localTlsSecrets = (c.pnInfo sp).localTlsSecrets ∧
    (((c.step bp op).2).pnInfo sp).remoteTlsSecrets = (c.pnInfo sp).remoteTlsSecrets := by
  rcases step_pnInfo bp c op sp with e | ⟨_, e⟩ <;> rw [e] <;> exact ⟨rfl, rfl, rfl, rfl⟩
theorem run_acks (bp : Profile) (ops : List ConnOp) (c : Connection) (sp : PnSpace) :
    (((c.run bp ops).2).pnInfo sp).largestLocalAck = (c.pnInfo sp).largestLocalAck ∧
    (((c.run bp ops).2).pnInfo sp).largestRemoteAck = (c.pnInfo sp).largestRemoteAck ∧
    (((c.run bp ops).2).pnInfo sp).localTlsSecrets = (c.pnInfo sp).localTlsSecrets ∧
    (((c.run bp ops).2).pnInfo sp).remoteTlsSecrets = (c.pnInfo sp).remoteTlsSecrets := by
  induction ops generalizing c with
  | nil => exact ⟨rfl, rfl, rfl, rfl⟩
  | cons op ops ih =>
    have h := ih (c.step bp op).2
    have g := step_acks bp c op sp
    exact ⟨h.1.trans g.1, h.2.1.trans g.2.1, h.2.2.1.trans g.2.2.1, h.2.2.2.trans g.2.2.2⟩
theorem new_ok {P srv v d n c} (h : Connection.new P srv v d n = .ok c) :
    ∃ bytes ss cs, d.toVarBytes n = .ok bytes ∧ Secrets.fromInitial P true bytes v = .ok ss ∧ Secrets.fromInitial P false bytes v = .ok cs ∧
      c = { version := v
            initialPnInfo := { PnInfo.new with localTlsSecrets := some (if srv then ss else cs), remoteTlsSecrets := some (if srv then cs else ss) }
            handshakePnInfo := PnInfo.new, applicationPnInfo := PnInfo.new, dcid := (d, n), scid := none } := by
  unfold Connection.new at h
  cases hb : d.toVarBytes n with
  | err e => rw [hb] at h; cases h
  | panic e => rw [hb] at h; cases h
  | ok b =>
    rw [hb] at h
    cases hs : Secrets.fromInitial P true b v with
    | err e => simp only [Out.ok_bind, hs] at h; cases h
    | panic e => simp only [Out.ok_bind, hs] at h; cases h
    | ok ss =>
      cases hc : Secrets.fromInitial P false b v with
      | err e => simp only [Out.ok_bind, hs, hc] at h; cases h
      | panic e => simp only [Out.ok_bind, hs, hc] at h; cases h
      | ok cs =>
        simp only [Out.ok_bind, hs, hc] at h
        refine ⟨b, ss, cs, rfl, hs, hc, ?_⟩
        cases srv <;> cases h <;> rfl
theorem reachable_acks {P bp c} (h : Connection.Reachable P bp c) (sp : PnSpace) :
    (c.pnInfo sp).largestLocalAck = none ∧ (c.pnInfo sp).largestRemoteAck = none := by
  obtain ⟨srv, v, d, n, c0, ops, hn, rfl⟩ := h
  obtain ⟨_, _, _, _, _, _, rfl⟩ := new_ok hn
  rw [(run_acks bp ops _ sp).1, (run_acks bp ops _ sp).2.1]
  cases sp <;> exact ⟨rfl, rfl⟩

/-! ### independence of the spaces -/

/-- Agreement on everything an operation on `sp` can read. -/
def Agree (sp : PnSpace) (c c' : Connection) : Prop :=
  c.pnInfo sp = c'.pnInfo sp ∧ c.dcid = c'.dcid ∧ c.scid = c'.scid ∧ c.version = c'.version

theorem getNextPn_agree (bp : Profile) (sp : PnSpace) (c c' : Connection) (h : Agree sp c c') :
    (c.getNextPn bp sp).1 = (c'.getNextPn bp sp).1 ∧ Agree sp (c.getNextPn bp sp).2 (c'.getNextPn bp sp).2 := by
  unfold Connection.getNextPn
  dsimp only
  rw [h.1]
  split
  · refine ⟨rfl, ?_⟩
    unfold Agree
    rw [pnInfo_set, pnInfo_set, if_pos rfl, if_pos rfl]
    obtain ⟨a1, a2, a3⟩ := setPnInfo_other c sp { c'.pnInfo sp with nextPn := ‹U64› }
    obtain ⟨b1, b2, b3⟩ := setPnInfo_other c' sp { c'.pnInfo sp with nextPn := ‹U64› }
    rw [a1, a2, a3, b1, b2, b3]
    exact ⟨rfl, h.2⟩
  · exact ⟨rfl, h⟩
  · exact ⟨rfl, h⟩
theorem fromConnection_agree (sp : PnSpace) (c c' : Connection) (b : U8) (h : Agree sp c c') :
    LongPacketHeader.fromConnection c b = LongPacketHeader.fromConnection c' b := by
  unfold LongPacketHeader.fromConnection Connection.getDcid Connection.getScid Connection.getVersionField
  rw [h.2.1, h.2.2.1, h.2.2.2]
theorem getNextPn_other (bp : Profile) (sp sp' : PnSpace) (c : Connection) (h : sp' ≠ sp) : Agree sp c (c.getNextPn bp sp').2 := by
  rcases getNextPn_conn bp c sp' with e | e
  · rw [e]; exact ⟨rfl, rfl, rfl, rfl⟩
  · rw [e]
    obtain ⟨a1, a2, a3⟩ := setPnInfo_other c sp' { c.pnInfo sp' with nextPn := (c.pnInfo sp').nextPn + 1 }
    refine ⟨?_, a1.symm, a2.symm, a3.symm⟩
    rw [pnInfo_set, if_neg (fun e => h e.symm)]
theorem Agree.trans {sp a b c} (h : Agree sp a b) (g : Agree sp b c) : Agree sp a c :=
  ⟨h.1.trans g.1, h.2.1.trans g.2.1, h.2.2.1.trans g.2.2.1, h.2.2.2.trans g.2.2.2⟩
theorem Agree.symm {sp a b} (h : Agree sp a b) : Agree sp b a :=
  ⟨h.1.symm, h.2.1.symm, h.2.2.1.symm, h.2.2.2.symm⟩

theorem initialNew_agree (bp : Profile) (c c' : Connection) (payload token) (h : Agree .initial c c') :
    (PacketInitial.new bp payload token c).1 = (PacketInitial.new bp payload token c').1 := by
  obtain ⟨h1, h2⟩ := getNextPn_agree bp .initial c c' h
  unfold PacketInitial.new
  generalize c.getNextPn bp .initial = r at *
  generalize c'.getNextPn bp .initial = r' at *
  obtain ⟨o, d⟩ := r
  obtain ⟨o', d'⟩ := r'
  simp only at h1 h2
  subst h1
  cases o with
  | err => rfl
  | panic => rfl
  | ok x => dsimp only; rw [fromConnection_agree .initial d d' _ h2]
theorem handshakeNew_agree (bp : Profile) (c c' : Connection) (payload) (h : Agree .handshake c c') :
    (PacketHandshake.new bp payload c).1 = (PacketHandshake.new bp payload c').1 := by
  obtain ⟨h1, h2⟩ := getNextPn_agree bp .handshake c c' h
  unfold PacketHandshake.new
  generalize c.getNextPn bp .handshake = r at *
  generalize c'.getNextPn bp .handshake = r' at *
  obtain ⟨o, d⟩ := r
  obtain ⟨o', d'⟩ := r'
  simp only at h1 h2
  subst h1
  cases o with
  | err => rfl
  | panic => rfl
  | ok x => dsimp only; rw [fromConnection_agree .handshake d d' _ h2]

theorem step_agree (bp : Profile) (sp : PnSpace) (c c' : Connection) (op : ConnOp) (h : Agree sp c c')
    (ho : op.space = some sp ∨ op.space = none) :
    (c.step bp op).1 = (c'.step bp op).1 ∧ Agree sp (c.step bp op).2 (c'.step bp op).2 := by
  cases op with
  | setScid cid len =>
    refine ⟨rfl, ?_, h.2.1, rfl, h.2.2.2⟩
    have := h.1
    cases sp <;> exact this
  | nextPn sp' =>
    rcases ho with ho | ho
    · cases ho
      obtain ⟨h1, h2⟩ := getNextPn_agree bp sp c c' h
      exact ⟨by unfold Connection.step; simp only [h1], h2⟩
    · cases ho
  | buildInitial payload token =>
    rcases ho with ho | ho
    · cases ho
      obtain ⟨h1, h2⟩ := getNextPn_agree bp _ c c' h
      refine ⟨congrArg ConnOut.initial (initialNew_agree bp c c' _ _ h), ?_⟩
      show Agree _ (PacketInitial.new bp payload token c).2 (PacketInitial.new bp payload token c').2
      rw [initialNew_conn, initialNew_conn]
      exact h2
    · cases ho
  | buildHandshake payload =>
    rcases ho with ho | ho
    · cases ho
      obtain ⟨h1, h2⟩ := getNextPn_agree bp _ c c' h
      refine ⟨congrArg ConnOut.handshake (handshakeNew_agree bp c c' _ h), ?_⟩
      show Agree _ (PacketHandshake.new bp payload c).2 (PacketHandshake.new bp payload c').2
      rw [handshakeNew_conn, handshakeNew_conn]
      exact h2
    · cases ho
theorem step_other (bp : Profile) (sp sp' : PnSpace) (c : Connection) (op : ConnOp) (ho : op.space = some sp') (hne : sp' ≠ sp) :
    Agree sp c (c.step bp op).2 ∧ (∀ n b, (c.step bp op).1.issued ≠ some (sp, n, b)) := by
  constructor
  · rw [step_conn]
    cases op with
    | setScid => cases ho
    | nextPn => cases ho; exact getNextPn_other bp sp _ c hne
    | buildInitial => cases ho; exact getNextPn_other bp sp _ c hne
    | buildHandshake => cases ho; exact getNextPn_other bp sp _ c hne
  · intro n b h
    have := (step_issued h).1
    rw [ho] at this
    cases this
    exact hne rfl

theorem run_agree (bp : Profile) (sp : PnSpace) (ops : List ConnOp) (c c' : Connection) (h : Agree sp c c') :
    issuedIn sp (c.run bp ops).1 = issuedIn sp (c'.run bp (ops.filter fun op => op.space = some sp ∨ op.space = none)).1 := by
  induction ops generalizing c c' with
  | nil => rfl
  | cons op ops ih =>
    by_cases ho : op.space = some sp ∨ op.space = none
    · rw [List.filter_cons_of_pos (by simpa using ho)]
      obtain ⟨h1, h2⟩ := step_agree bp sp c c' op h ho
      show issuedIn sp ((c.step bp op).1 :: ((c.step bp op).2.run bp ops).1) =
        issuedIn sp ((c'.step bp op).1 :: ((c'.step bp op).2.run bp _).1)
      rw [issuedIn_cons, issuedIn_cons, h1, ih _ _ h2]
    · rw [List.filter_cons_of_neg (by simpa using ho)]
      obtain ⟨sp', hs⟩ : ∃ sp', op.space = some sp' := by
        cases e : op.space with
        | none => exact absurd (.inr e) ho
        | some s => exact ⟨s, rfl⟩
      have hne : sp' ≠ sp := fun e => ho (.inl (e ▸ hs))
      obtain ⟨h1, h2⟩ := step_other bp sp sp' c op hs hne
      show issuedIn sp ((c.step bp op).1 :: ((c.step bp op).2.run bp ops).1) = _
      rw [issuedIn_cons, ih _ _ (h1.symm.trans h)]
      cases hi : (c.step bp op).1.issued with
      | none => rfl
      | some x =>
        obtain ⟨s, n, b⟩ := x
        have : s ≠ sp := by rintro rfl; exact h2 n b hi
        simp only [if_neg this, List.nil_append]

/-! ### the counter wraps in release builds -/

theorem addU64_release (a b : U64) : addU64 .release a b = .ok (a + b) := by
  simp only [addU64]; split <;> rfl
theorem setPnInfo_self (c : Connection) (sp : PnSpace) : c.setPnInfo sp (c.pnInfo sp) = c := by cases sp <;> rfl
theorem setPnInfo_twice (c : Connection) (sp : PnSpace) (i j : PnInfo) : (c.setPnInfo sp i).setPnInfo sp j = c.setPnInfo sp j := by
  cases sp <;> rfl
theorem getNextPn_release (c : Connection) (sp : PnSpace) :
    (c.getNextPn .release sp).2 = c.setPnInfo sp { c.pnInfo sp with nextPn := (c.pnInfo sp).nextPn + 1 } := by
  unfold Connection.getNextPn
  dsimp only
  rw [addU64_release]
theorem run_replicate (c : Connection) (sp : PnSpace) (n : Nat) :
    (c.run .release (List.replicate n (.nextPn sp))).2 =
      c.setPnInfo sp { c.pnInfo sp with nextPn := (c.pnInfo sp).nextPn + BitVec.ofNat 64 n } := by
  induction n generalizing c with
  | zero =>
    show c = _
    rw [show BitVec.ofNat 64 0 = 0 from rfl, show (c.pnInfo sp).nextPn + 0 = (c.pnInfo sp).nextPn from BitVec.add_zero _]
    exact (setPnInfo_self c sp).symm
  | succ n ih =>
    show (((c.step .release (.nextPn sp)).2).run .release (List.replicate n (.nextPn sp))).2 = _
    rw [ih, show (c.step .release (.nextPn sp)).2 = (c.getNextPn .release sp).2 from rfl, getNextPn_release, pnInfo_set, if_pos rfl,
      setPnInfo_twice]
    congr 2
    rw [Nat.add_comm n 1, BitVec.ofNat_add, ← BitVec.add_assoc]
    rfl

end QuicSea
