import Verif.Proofs.VarInt
import Verif.Spec.Cid
/-
Connection ids (`U160`).
-/
namespace QuicSea
open Spec (beNat IsVarInt cidVal)

theorem cidVal_lt (x : U160) : cidVal x < 2 ^ 160 := by
  have h0 := x.idx0.isLt
  have h1 := x.idx1.isLt
  unfold cidVal; omega
theorem cidVal_inj {x y : U160} (h : cidVal x = cidVal y) : x = y := by
  have h0 := x.idx0.isLt
  have h1 := x.idx1.isLt
  have h2 := y.idx0.isLt
  have h3 := y.idx1.isLt
  unfold cidVal at h
  have e0 : x.idx0.toNat = y.idx0.toNat := by omega
  have e1 : x.idx1.toNat = y.idx1.toNat := by omega
  cases x; cases y
  simp only at e0 e1
  rw [BitVec.eq_of_toNat_eq e0, BitVec.eq_of_toNat_eq e1]
@[simp] theorem cidVal_zero : cidVal U160.zero = 0 := by decide
theorem cidVal_ofU64 (v : U64) : cidVal (U160.ofU64 v) = v.toNat := by
  have := v.isLt
  simp only [cidVal, U160.ofU64, BitVec.toNat_setWidth]
  simp; omega

/-- One iteration of the read loop. -/
def u160Step (x : U160) (b : U8) : U160 :=
  { idx0 := (x.idx0 <<< 8) ||| (x.idx1 >>> 120).setWidth 32
    idx1 := ((x.idx1 &&& (((1 : U128) <<< 120) - 1)) <<< 8) ||| b.setWidth 128 }

theorem u160Step_val (x : U160) (b : U8) : cidVal (u160Step x b) = (cidVal x * 256 + b.toNat) % 2 ^ 160 := by
  have h0 := x.idx0.isLt
  have h1 := x.idx1.isLt
  have hb : b.toNat < 2 ^ 8 := b.isLt
  have e0 : ((x.idx0 <<< 8) ||| (x.idx1 >>> 120).setWidth 32).toNat
      = 2 ^ 8 * (x.idx0.toNat % 2 ^ 24) + x.idx1.toNat / 2 ^ 120 := by
    simp only [BitVec.toNat_or, BitVec.toNat_shiftLeft, BitVec.toNat_setWidth, BitVec.toNat_ushiftRight,
      Nat.shiftLeft_eq, Nat.shiftRight_eq_div_pow]
    have a1 : x.idx0.toNat * 2 ^ 8 % 2 ^ 32 = 2 ^ 8 * (x.idx0.toNat % 2 ^ 24) := by omega
    have a2 : x.idx1.toNat / 2 ^ 120 % 2 ^ 32 = x.idx1.toNat / 2 ^ 120 := by omega
    rw [a1, a2, ← Nat.two_pow_add_eq_or_of_lt (by omega)]
  have e1 : (((x.idx1 &&& (((1 : U128) <<< 120) - 1)) <<< 8) ||| b.setWidth 128).toNat
      = 2 ^ 8 * (x.idx1.toNat % 2 ^ 120) + b.toNat := by
    have hm : (((1 : U128) <<< 120) - 1).toNat = 2 ^ 120 - 1 := by decide +kernel
    simp only [BitVec.toNat_or, BitVec.toNat_shiftLeft, BitVec.toNat_and, BitVec.toNat_setWidth, Nat.shiftLeft_eq, hm,
      Nat.and_two_pow_sub_one_eq_mod]
    have a1 : x.idx1.toNat % 2 ^ 120 * 2 ^ 8 % 2 ^ 128 = 2 ^ 8 * (x.idx1.toNat % 2 ^ 120) := by omega
    have a2 : b.toNat % 2 ^ 128 = b.toNat := by omega
    rw [a1, a2, ← Nat.two_pow_add_eq_or_of_lt hb]
  simp only [cidVal, u160Step, e0, e1]
  omega
theorem foldl_u160Step (bs : Bytes) (x : U160) :
    cidVal (bs.foldl u160Step x) = (cidVal x * 256 ^ bs.length + beNat bs) % 2 ^ 160 := by
  induction bs generalizing x with
  | nil => simpa using (Nat.mod_eq_of_lt (cidVal_lt x)).symm
  | cons b bs ih =>
    rw [List.foldl_cons, ih, u160Step_val, beNat_cons, List.length_cons, Nat.pow_succ 256]
    generalize (2 : Nat) ^ 160 = M
    rw [Nat.add_mod, Nat.mod_mul_mod, ← Nat.add_mod]
    rw [Nat.add_mul, Nat.mul_assoc, Nat.mul_comm 256, Nat.add_assoc]

theorem u160Loop_reads (msg) (bs : Bytes) (a : U32) (b : U128) :
    Reads (u160Loop msg bs.length a b) bs (bs.foldl u160Step ⟨a, b⟩) := by
  induction bs generalizing a b with
  | nil => exact Reads.pure _
  | cons c bs ih => exact (nextOr_reads msg c).bind (ih _ _)
theorem u160Loop_sound (msg) (n : Nat) (a : U32) (b : U128) :
    Sound (u160Loop msg n a b) (fun v bs => bs.length = n ∧ v = bs.foldl u160Step ⟨a, b⟩) := by
  induction n generalizing a b with
  | zero => exact (Sound.pure _).mono (by rintro a bs ⟨rfl, rfl⟩; simp)
  | succ n ih =>
    refine ((nextOr_sound msg).bind fun c => ih ((a <<< 8) ||| (b >>> 120).setWidth 32)
      (((b &&& (((1 : U128) <<< 120) - 1)) <<< 8) ||| c.setWidth 128)).mono ?_
    rintro v bs ⟨c, b1, b2, rfl, rfl, h1, h2⟩
    exact ⟨by simp [h1], by rw [h2]; rfl⟩
theorem u160Loop_noPanic (msg) (n : Nat) (a : U32) (b : U128) : NoPanic (u160Loop msg n a b) := by
  induction n generalizing a b with
  | zero => exact NoPanic.pure _
  | succ n ih => exact (nextOr_noPanic _).bind fun c => ih _ _
theorem u160Loop_shrinks (msg) (n : Nat) (a : U32) (b : U128) : Shrinks (u160Loop msg n a b) := by
  induction n generalizing a b with
  | zero => exact Shrinks.pure _
  | succ n ih => exact (nextOr_shrinks _).bind fun c => ih _ _

/-- The id read from at most 20 bytes has their big-endian value. -/
theorem cidVal_read (bs : Bytes) (h : bs.length ≤ 20) : cidVal (bs.foldl u160Step ⟨0, 0⟩) = beNat bs := by
  rw [foldl_u160Step]
  have e : cidVal ⟨0, 0⟩ = 0 := by decide
  rw [e, Nat.zero_mul, Nat.zero_add]
  refine Nat.mod_eq_of_lt (Nat.lt_of_lt_of_le (beNat_lt bs) ?_)
  exact Nat.le_trans (Nat.pow_le_pow_right (by decide) h) (by decide)
theorem cid_reads {len : U8} {bs : Bytes} {x : U160} (hl : bs.length = len.toNat) (h20 : len.toNat ≤ 20)
    (hv : cidVal x = beNat bs) : Reads (varU160FromStream len) bs x := by
  have := u160Loop_reads "not enough bytes for var160" bs 0 0
  rw [hl] at this
  have e : x = bs.foldl u160Step ⟨0, 0⟩ := cidVal_inj (by rw [hv, cidVal_read bs (by omega)])
  rw [e]
  exact this
theorem cid_sound (len : U8) (h20 : len.toNat ≤ 20) :
    Sound (varU160FromStream len) (fun x bs => bs.length = len.toNat ∧ cidVal x = beNat bs) := by
  refine (u160Loop_sound _ _ _ _).mono ?_
  rintro x bs ⟨h1, h2⟩
  exact ⟨h1, by rw [h2, cidVal_read bs (by omega)]⟩

/-! writing -/

theorem toBytesStep_val (low : U128) (high : U32) :
    cidVal ⟨high >>> 8, (low >>> 8) ||| ((high &&& 0xff).setWidth 128 <<< 120)⟩ = cidVal ⟨high, low⟩ / 256
    ∧ ((low &&& 0xff).setWidth 8).toNat = cidVal ⟨high, low⟩ % 256 := by
  have h0 := high.isLt
  have h1 := low.isLt
  have e1 : ((low >>> 8) ||| ((high &&& 0xff).setWidth 128 <<< 120)).toNat = 2 ^ 120 * (high.toNat % 2 ^ 8) + low.toNat / 2 ^ 8 := by
    have hm : (0xff : U32).toNat = 2 ^ 8 - 1 := rfl
    simp only [BitVec.toNat_or, BitVec.toNat_shiftLeft, BitVec.toNat_and, BitVec.toNat_setWidth, BitVec.toNat_ushiftRight,
      Nat.shiftLeft_eq, Nat.shiftRight_eq_div_pow, hm, Nat.and_two_pow_sub_one_eq_mod]
    have a1 : high.toNat % 2 ^ 8 % 2 ^ 128 * 2 ^ 120 % 2 ^ 128 = 2 ^ 120 * (high.toNat % 2 ^ 8) := by omega
    rw [a1, Nat.or_comm, ← Nat.two_pow_add_eq_or_of_lt (by omega)]
  have e0 : (high >>> 8).toNat = high.toNat / 2 ^ 8 := by
    simp only [BitVec.toNat_ushiftRight, Nat.shiftRight_eq_div_pow]
  have e2 : ((low &&& 0xff).setWidth 8).toNat = low.toNat % 2 ^ 8 := by
    have hm : (0xff : U128).toNat = 2 ^ 8 - 1 := rfl
    simp only [BitVec.toNat_and, BitVec.toNat_setWidth, hm, Nat.and_two_pow_sub_one_eq_mod]
    omega
  simp only [cidVal, e0, e1, e2]
  omega
theorem toBytesLoop_spec (n : Nat) (low : U128) (high : U32) (acc : Bytes) :
    (U160.toBytesLoop n low high acc).length = n + acc.length ∧
    beNat (U160.toBytesLoop n low high acc) = (cidVal ⟨high, low⟩ % 256 ^ n) * 256 ^ acc.length + beNat acc := by
  induction n generalizing low high acc with
  | zero => simp [U160.toBytesLoop, Nat.mod_one]
  | succ n ih =>
    obtain ⟨hv, hb⟩ := toBytesStep_val low high
    rw [U160.toBytesLoop]
    obtain ⟨i1, i2⟩ := ih ((low >>> 8) ||| ((high &&& 0xff).setWidth 128 <<< 120)) (high >>> 8) ((low &&& 0xff).setWidth 8 :: acc)
    refine ⟨by rw [i1, List.length_cons]; omega, ?_⟩
    rw [i2, hv, beNat_cons, hb, List.length_cons]
    generalize cidVal ⟨high, low⟩ = V
    have hm : V % 256 ^ (n + 1) = V % 256 + 256 * (V / 256 % 256 ^ n) := by
      rw [Nat.pow_succ, Nat.mul_comm, Nat.mod_mul]
    rw [hm, Nat.pow_succ 256 acc.length, Nat.add_mul]
    generalize 256 ^ acc.length = A
    generalize V / 256 % 256 ^ n = Q
    have : Q * (A * 256) = 256 * Q * A := by rw [Nat.mul_comm 256, Nat.mul_assoc, Nat.mul_comm A]
    omega
theorem toBytes_length (x : U160) : x.toBytes.length = 20 := by
  rw [U160.toBytes, (toBytesLoop_spec 20 x.idx1 x.idx0 []).1, List.length_nil]
theorem toBytes_val (x : U160) : beNat x.toBytes = cidVal x := by
  have e2 : cidVal ⟨x.idx0, x.idx1⟩ = cidVal x := rfl
  have := (toBytesLoop_spec 20 x.idx1 x.idx0 []).2
  rw [List.length_nil, Nat.pow_zero, Nat.mul_one, beNat_nil, Nat.add_zero, e2] at this
  rw [U160.toBytes, this]
  have e : (256 : Nat) ^ 20 = 2 ^ 160 := by rw [show (256 : Nat) = 2 ^ 8 from rfl, ← Nat.pow_mul]
  rw [e]
  exact Nat.mod_eq_of_lt (cidVal_lt x)
theorem toVarBytes_eq (x : U160) (len : Nat) (h : len ≤ 20) : x.toVarBytes len = .ok (x.toBytes.drop (20 - len)) := by
  have hl := toBytes_length x
  rw [U160.toVarBytes, if_neg (by omega), rotateLeft, List.take_append_of_le_length (by simp [hl]; omega)]
  rw [List.take_of_length_le (by simp [hl]; omega)]
theorem toVarBytes_spec (x : U160) (len : Nat) (h : len ≤ 20) :
    ∃ bs, x.toVarBytes len = .ok bs ∧ bs.length = len ∧ beNat bs = cidVal x % 256 ^ len := by
  have hl := toBytes_length x
  refine ⟨_, toVarBytes_eq x len h, by simp [hl]; omega, ?_⟩
  have hlen : (x.toBytes.drop (20 - len)).length = len := by simp [hl]; omega
  have hv := toBytes_val x
  rw [← List.take_append_drop (20 - len) x.toBytes, beNat_append, hlen] at hv
  have := beNat_lt (x.toBytes.drop (20 - len))
  rw [hlen] at this
  rw [← hv, Nat.mul_comm, Nat.mul_add_mod, Nat.mod_eq_of_lt this]
theorem toVarBytes_panic (x : U160) (len : Nat) (h : 20 < len) : (x.toVarBytes len).isPanic = true := by
  rw [U160.toVarBytes, if_pos h]; rfl

end QuicSea
