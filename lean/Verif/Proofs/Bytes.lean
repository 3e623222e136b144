import Verif.Model.Utils
import Verif.Spec.Wire
import Verif.Proofs.Rd
/-
Big-endian arithmetic and byte readers.
-/
namespace QuicSea
open Spec (beNat IsVarInt)

theorem beNat_foldl (bs : Bytes) (a : Nat) :
    bs.foldl (fun a b => a * 256 + b.toNat) a = a * 256 ^ bs.length + beNat bs := by
  induction bs generalizing a with
  | nil => simp [beNat]
  | cons b bs ih =>
    have h2 := ih (0 * 256 + b.toNat)
    simp only [beNat, List.foldl_cons, List.length_cons]
    rw [ih, h2, Nat.pow_succ, Nat.zero_mul, Nat.zero_add, Nat.add_mul, Nat.add_assoc, Nat.mul_assoc, Nat.mul_comm 256]
@[simp] theorem beNat_nil : beNat [] = 0 := rfl
theorem beNat_cons (b : U8) (bs : Bytes) : beNat (b :: bs) = b.toNat * 256 ^ bs.length + beNat bs := by
  have := beNat_foldl bs (0 * 256 + b.toNat)
  simp only [Nat.zero_mul, Nat.zero_add] at this
  simpa [beNat] using this
theorem beNat_append (a b : Bytes) : beNat (a ++ b) = beNat a * 256 ^ b.length + beNat b := by
  unfold beNat; rw [List.foldl_append, beNat_foldl]; rfl
theorem beNat_lt (bs : Bytes) : beNat bs < 256 ^ bs.length := by
  induction bs with
  | nil => simp
  | cons b bs ih =>
    rw [beNat_cons, List.length_cons, Nat.pow_succ]
    have hb : b.toNat < 256 := b.isLt
    calc b.toNat * 256 ^ bs.length + beNat bs < b.toNat * 256 ^ bs.length + 256 ^ bs.length := by omega
      _ = (b.toNat + 1) * 256 ^ bs.length := by rw [Nat.add_mul, Nat.one_mul]
      _ ≤ 256 * 256 ^ bs.length := Nat.mul_le_mul_right _ hb
      _ = _ := Nat.mul_comm _ _
theorem beNat_inj {a b : Bytes} (hl : a.length = b.length) (h : beNat a = beNat b) : a = b := by
  induction a generalizing b with
  | nil => cases b <;> simp_all
  | cons x xs ih =>
    cases b with
    | nil => simp at hl
    | cons y ys =>
      simp only [List.length_cons, Nat.add_right_cancel_iff] at hl
      rw [beNat_cons, beNat_cons, hl] at h
      have h1 := beNat_lt xs
      have h2 := beNat_lt ys
      rw [hl] at h1
      have hp : 0 < 256 ^ ys.length := Nat.pow_pos (by decide)
      have hx : x.toNat = y.toNat := by
        have e1 : (x.toNat * 256 ^ ys.length + beNat xs) / 256 ^ ys.length = x.toNat := by
          rw [Nat.mul_comm, Nat.mul_add_div hp, Nat.div_eq_of_lt h1, Nat.add_zero]
        have e2 : (y.toNat * 256 ^ ys.length + beNat ys) / 256 ^ ys.length = y.toNat := by
          rw [Nat.mul_comm, Nat.mul_add_div hp, Nat.div_eq_of_lt h2, Nat.add_zero]
        rw [← e1, ← e2, h]
      have : beNat xs = beNat ys := by rw [hx] at h; omega
      rw [ih hl this, BitVec.eq_of_toNat_eq hx]

/-! `to_be_bytes` / `from_be_bytes` -/

@[simp] theorem toBeBytes_length (n : Nat) (x : BitVec w) : (toBeBytes n x).length = n := by
  induction n with
  | zero => rfl
  | succ n ih => simp [toBeBytes, ih]
theorem beNat_toBeBytes (n : Nat) (x : BitVec w) : beNat (toBeBytes n x) = x.toNat % 256 ^ n := by
  induction n with
  | zero => simp [toBeBytes, Nat.mod_one]
  | succ n ih =>
    rw [toBeBytes, beNat_cons, ih, toBeBytes_length]
    simp only [BitVec.toNat_setWidth, BitVec.toNat_ushiftRight, Nat.shiftRight_eq_div_pow]
    have h256 : (256 : Nat) ^ n = 2 ^ (8 * n) := by rw [Nat.pow_mul]
    have hm : x.toNat % 256 ^ (n + 1) = x.toNat % 256 ^ n + 256 ^ n * (x.toNat / 256 ^ n % 256) := by
      rw [Nat.pow_succ, Nat.mod_mul]
    rw [← h256, hm, Nat.mul_comm, Nat.add_comm]
theorem toBeBytes_drop (n m : Nat) (x : BitVec w) (h : m ≤ n) : (toBeBytes n x).drop (n - m) = toBeBytes m x := by
  induction n with
  | zero => have : m = 0 := by omega
            subst this; rfl
  | succ n ih =>
    by_cases hm : m = n + 1
    · subst hm; simp
    · have : n + 1 - m = (n - m) + 1 := by omega
      rw [this, toBeBytes, List.drop_succ_cons, ih (by omega)]
theorem shiftIn_toNat (r : BitVec w) (b : U8) (hw : 8 ≤ w) :
    (shiftIn r b).toNat = (r.toNat * 256 + b.toNat) % 2 ^ w := by
  have hb : b.toNat < 2 ^ 8 := b.isLt
  have h2 : (2:Nat) ^ 8 ≤ 2 ^ w := Nat.pow_le_pow_right (by decide) hw
  simp only [shiftIn, BitVec.toNat_or, BitVec.toNat_shiftLeft, BitVec.toNat_setWidth, Nat.shiftLeft_eq]
  rw [Nat.mod_eq_of_lt (Nat.lt_of_lt_of_le hb h2)]
  have e : r.toNat * 2 ^ 8 % 2 ^ w = 2 ^ 8 * (r.toNat % 2 ^ (w - 8)) := by
    have : (2:Nat) ^ w = 2 ^ 8 * 2 ^ (w - 8) := by rw [← Nat.pow_add]; congr 1; omega
    rw [this, Nat.mul_comm, Nat.mul_mod_mul_left]
  rw [e, ← Nat.two_pow_add_eq_or_of_lt hb, ← e]
  have e3 : (r.toNat * 256 + b.toNat) % 2 ^ w = r.toNat * 2 ^ 8 % 2 ^ w + b.toNat := by
    rw [show (256 : Nat) = 2 ^ 8 from rfl, Nat.add_mod]
    rw [Nat.mod_eq_of_lt (Nat.lt_of_lt_of_le hb h2)]
    apply Nat.mod_eq_of_lt
    rw [e]
    have : (2:Nat) ^ w = 2 ^ 8 * 2 ^ (w - 8) := by rw [← Nat.pow_add]; congr 1; omega
    rw [this]
    have hlt : r.toNat % 2 ^ (w - 8) < 2 ^ (w - 8) := Nat.mod_lt _ (Nat.pow_pos (by decide))
    calc 2 ^ 8 * (r.toNat % 2 ^ (w - 8)) + b.toNat < 2 ^ 8 * (r.toNat % 2 ^ (w - 8)) + 2 ^ 8 := by omega
      _ = 2 ^ 8 * (r.toNat % 2 ^ (w - 8) + 1) := by rw [Nat.mul_add, Nat.mul_one]
      _ ≤ 2 ^ 8 * 2 ^ (w - 8) := Nat.mul_le_mul_left _ hlt
  rw [e3]
theorem foldl_shiftIn_toNat (hw : 8 ≤ w) (bs : Bytes) (r : BitVec w) :
    (bs.foldl shiftIn r).toNat = (r.toNat * 256 ^ bs.length + beNat bs) % 2 ^ w := by
  induction bs generalizing r with
  | nil => simp [Nat.mod_eq_of_lt r.isLt]
  | cons b bs ih =>
    rw [List.foldl_cons, ih, shiftIn_toNat _ _ hw, beNat_cons, List.length_cons, Nat.pow_succ]
    rw [Nat.add_mod, Nat.mod_mul_mod, ← Nat.add_mod]
    congr 1
    rw [Nat.add_mul, Nat.mul_assoc, Nat.mul_comm 256, Nat.add_assoc]
theorem fromBeBytes_toNat (hw : 8 ≤ w) (bs : Bytes) : (fromBeBytes w bs).toNat = beNat bs % 2 ^ w := by
  simp [fromBeBytes, foldl_shiftIn_toNat hw]
/-- Encoding a value of `8 * n` bits and decoding is the identity. -/
theorem fromBeBytes_toBeBytes (n : Nat) (hn : 1 ≤ n) (x : BitVec (8 * n)) : fromBeBytes (8 * n) (toBeBytes n x) = x := by
  apply BitVec.eq_of_toNat_eq
  rw [fromBeBytes_toNat (by omega), beNat_toBeBytes]
  have : (256 : Nat) ^ n = 2 ^ (8 * n) := by rw [Nat.pow_mul]
  rw [this, Nat.mod_mod, Nat.mod_eq_of_lt x.isLt]
theorem toBeBytes_fromBeBytes (bs : Bytes) (hn : 1 ≤ bs.length) :
    toBeBytes bs.length (fromBeBytes (8 * bs.length) bs) = bs := by
  apply beNat_inj (by simp)
  have : (256 : Nat) ^ bs.length = 2 ^ (8 * bs.length) := by rw [Nat.pow_mul]
  rw [beNat_toBeBytes, fromBeBytes_toNat (by omega), ← this, Nat.mod_mod, Nat.mod_eq_of_lt (beNat_lt _)]

/-! byte readers -/

theorem varBytes_reads (bs : Bytes) : Reads (varBytesFromStream bs.length) bs bs := by
  induction bs with
  | nil => exact Reads.pure _
  | cons b bs ih => exact (nextOr_reads _ b).bind (Reads.map ih)
theorem varBytes_reads' {n : Nat} {bs : Bytes} (h : bs.length = n) : Reads (varBytesFromStream n) bs bs :=
  h ▸ varBytes_reads bs
theorem varBytes_sound (n : Nat) : Sound (varBytesFromStream n) (fun a bs => bs = a ∧ a.length = n) := by
  induction n with
  | zero => exact (Sound.pure _).mono (by rintro a bs ⟨rfl, rfl⟩; simp)
  | succ n ih =>
    refine ((nextOr_sound _).bind fun b => ih.bind fun bs => Sound.pure (b :: bs)).mono ?_
    rintro a bs ⟨b, b1, b2, rfl, rfl, bs', b3, b4, rfl, ⟨rfl, h⟩, rfl, rfl⟩
    simp [h]
theorem varBytes_noPanic (n : Nat) : NoPanic (varBytesFromStream n) := by
  induction n with
  | zero => exact NoPanic.pure _
  | succ n ih => exact (nextOr_noPanic _).bind fun b => ih.bind fun bs => NoPanic.pure _
theorem varBytes_shrinks (n : Nat) : Shrinks (varBytesFromStream n) := by
  induction n with
  | zero => exact Shrinks.pure _
  | succ n ih => exact (nextOr_shrinks _).bind fun b => ih.bind fun bs => Shrinks.pure _
theorem readArray_eq (msg) (bs : Bytes) : Reads (readArray msg bs.length) bs bs := by
  induction bs with
  | nil => exact Reads.pure _
  | cons b bs ih => exact (nextOr_reads _ b).bind (Reads.map ih)
theorem readArray_sound (msg) (n : Nat) : Sound (readArray msg n) (fun a bs => bs = a ∧ a.length = n) := by
  induction n with
  | zero => exact (Sound.pure _).mono (by rintro a bs ⟨rfl, rfl⟩; simp)
  | succ n ih =>
    refine ((nextOr_sound _).bind fun b => ih.bind fun bs => Sound.pure (b :: bs)).mono ?_
    rintro a bs ⟨b, b1, b2, rfl, rfl, bs', b3, b4, rfl, ⟨rfl, h⟩, rfl, rfl⟩
    simp [h]
theorem readArray_noPanic (msg) (n : Nat) : NoPanic (readArray msg n) := by
  induction n with
  | zero => exact NoPanic.pure _
  | succ n ih => exact (nextOr_noPanic _).bind fun b => ih.bind fun bs => NoPanic.pure _
theorem readArray_shrinks (msg) (n : Nat) : Shrinks (readArray msg n) := by
  induction n with
  | zero => exact Shrinks.pure _
  | succ n ih => exact (nextOr_shrinks _).bind fun b => ih.bind fun bs => Shrinks.pure _

theorem allBytes_run (bs : Bytes) : allBytesFromStream (makeResultStream bs) = (.ok bs, []) := by
  induction bs with
  | nil => rfl
  | cons b bs ih => simp [allBytesFromStream, ih]
theorem allBytes_ok {s a s'} (h : allBytesFromStream s = (.ok a, s')) : s = makeResultStream a ∧ s' = [] := by
  induction s generalizing a with
  | nil => simp [allBytesFromStream] at h; simp [h]
  | cons x s ih =>
    cases x with
    | error e => simp [allBytesFromStream] at h
    | ok b =>
      simp only [allBytesFromStream] at h
      rcases hr : allBytesFromStream s with ⟨o, s1⟩
      rw [hr] at h
      cases o with
      | ok bs =>
        simp at h
        obtain ⟨rfl, rfl⟩ := h
        have := ih hr
        simp [this]
      | err e => simp at h
      | panic w => simp at h
theorem allBytes_sound : Sound allBytesFromStream (fun a bs => bs = a) := by
  intro s a s' h
  have := allBytes_ok h
  exact ⟨a, by simp [this], rfl⟩
theorem allBytes_noPanic : NoPanic allBytesFromStream := by
  intro s
  induction s with
  | nil => rfl
  | cons x s ih =>
    cases x with
    | error e => rfl
    | ok b =>
      simp only [allBytesFromStream]
      rcases hr : allBytesFromStream s with ⟨o, s1⟩
      rw [hr] at ih
      cases o <;> simp_all
theorem allBytes_shrinks : Shrinks allBytesFromStream := by
  intro s
  induction s with
  | nil => exact List.suffix_refl _
  | cons x s ih =>
    cases x with
    | error e => exact List.suffix_cons _ _
    | ok b =>
      simp only [allBytesFromStream]
      rcases hr : allBytesFromStream s with ⟨o, s1⟩
      rw [hr] at ih
      cases o <;> exact ih.trans (List.suffix_cons _ _)

theorem u8_reads (b : U8) : Reads u8FromDatagram [b] b := by intro s; rfl
theorem u8_sound : Sound u8FromDatagram (fun b bs => bs = [b]) := by
  refine ((readArray_sound _ 1).bind fun bytes => (Sound.lift (decodeU8 bytes)).bind fun r => Sound.pure r.1).mono ?_
  rintro a bs ⟨bytes, b1, b2, rfl, ⟨rfl, hl⟩, r, b3, b4, rfl, ⟨hd, rfl⟩, rfl, rfl⟩
  match b1, hl with
  | [b], _ => simp [decodeU8] at hd; simp [← hd]
theorem u8_noPanic : NoPanic u8FromDatagram := by
  refine (readArray_noPanic _ 1).bind fun bytes => NoPanic.bind (NoPanic.lift ?_) fun r => NoPanic.pure _
  cases bytes <;> rfl
theorem u8_shrinks : Shrinks u8FromDatagram :=
  (readArray_shrinks _ 1).bind fun _ => (Shrinks.lift _).bind fun _ => Shrinks.pure _

theorem uint_reads (msg) (bs : Bytes) :
    Reads (uintFromDatagram bs.length msg) bs (fromBeBytes (8 * bs.length) bs) := by
  have h2 : Reads (Rd.lift (decodeUInt bs.length msg bs) >>= fun r => (Pure.pure r.1 : Rd _)) [] (fromBeBytes (8 * bs.length) bs) :=
    Reads.map (f := fun r : BitVec (8 * bs.length) × Nat => r.1) (a := (fromBeBytes (8 * bs.length) bs, bs.length))
      (Reads.lift (by simp [decodeUInt, fromBeBytes]))
  have := (readArray_eq msg bs).bind h2 (f := fun bytes => Rd.lift (decodeUInt bs.length msg bytes) >>= fun r => (Pure.pure r.1 : Rd _))
  rw [List.append_nil] at this
  exact this
theorem uint_sound (size : Nat) (msg) :
    Sound (uintFromDatagram size msg) (fun v bs => bs.length = size ∧ v = fromBeBytes (8 * size) bs) := by
  refine ((readArray_sound msg size).bind fun bytes =>
    (Sound.lift (decodeUInt size msg bytes)).bind fun r => Sound.pure r.1).mono ?_
  rintro a bs ⟨bytes, b1, b2, rfl, ⟨rfl, hl⟩, r, b3, b4, rfl, ⟨hd, rfl⟩, rfl, rfl⟩
  subst hl
  simp [decodeUInt] at hd
  subst hd
  simp [fromBeBytes]
theorem uint_noPanic (size : Nat) (msg) : NoPanic (uintFromDatagram size msg) := by
  refine (readArray_noPanic _ _).bind fun bytes => NoPanic.bind (NoPanic.lift ?_) fun r => NoPanic.pure _
  unfold decodeUInt; split <;> rfl
theorem uint_shrinks (size : Nat) (msg) : Shrinks (uintFromDatagram size msg) :=
  (readArray_shrinks _ _).bind fun _ => (Shrinks.lift _).bind fun _ => Shrinks.pure _

theorem uint_reads' {n : Nat} (msg) {bs : Bytes} {x : BitVec (8 * n)} (hn : 1 ≤ n) (hl : bs.length = n) (hv : beNat bs = x.toNat) :
    Reads (uintFromDatagram n msg) bs x := by
  subst hl
  have : fromBeBytes (8 * bs.length) bs = x := by
    apply BitVec.eq_of_toNat_eq
    rw [fromBeBytes_toNat (by omega), hv, Nat.mod_eq_of_lt x.isLt]
  exact this ▸ uint_reads msg bs
theorem uint_sound' (n : Nat) (hn : 1 ≤ n) (msg) :
    Sound (uintFromDatagram n msg) (fun v bs => bs.length = n ∧ beNat bs = v.toNat) := by
  refine (uint_sound n msg).mono ?_
  rintro v bs ⟨hl, rfl⟩
  refine ⟨hl, ?_⟩
  rw [fromBeBytes_toNat (by omega)]
  refine (Nat.mod_eq_of_lt ?_).symm
  have : (256 : Nat) ^ bs.length = 2 ^ (8 * n) := by rw [hl, Nat.pow_mul]
  rw [← this]; exact beNat_lt bs
theorem beNat_toBeBytes' (n : Nat) (x : BitVec (8 * n)) : beNat (toBeBytes n x) = x.toNat := by
  have h256 : (256 : Nat) ^ n = 2 ^ (8 * n) := by rw [Nat.pow_mul]
  rw [beNat_toBeBytes, h256, Nat.mod_eq_of_lt x.isLt]

end QuicSea
