import Verif.Proofs.Bytes
/-
Variable-length integers.
-/
namespace QuicSea
open Spec (beNat IsVarInt)

theorem varIntAcc_toNat (r : U64) (b : U8) : (varIntAcc r b).toNat = (r.toNat * 256 + b.toNat) % 2 ^ 64 := by
  have hb : b.toNat < 2 ^ 8 := b.isLt
  simp only [varIntAcc, BitVec.toNat_add, BitVec.toNat_shiftLeft, BitVec.toNat_setWidth, Nat.shiftLeft_eq]
  omega
theorem foldl_varIntAcc (bs : Bytes) (r : U64) :
    (bs.foldl varIntAcc r).toNat = (r.toNat * 256 ^ bs.length + beNat bs) % 2 ^ 64 := by
  induction bs generalizing r with
  | nil => simpa using (Nat.mod_eq_of_lt r.isLt).symm
  | cons b bs ih =>
    rw [List.foldl_cons, ih, varIntAcc_toNat, beNat_cons, List.length_cons, Nat.pow_succ 256]
    rw [Nat.add_mod, Nat.mod_mul_mod, ← Nat.add_mod]
    congr 1
    rw [Nat.add_mul, Nat.mul_assoc, Nat.mul_comm 256, Nat.add_assoc]

theorem varIntLoop_reads (bs : Bytes) (r : U64) : Reads (varIntLoop bs.length r) bs (bs.foldl varIntAcc r) := by
  induction bs generalizing r with
  | nil => exact Reads.pure _
  | cons b bs ih => exact (nextOr_reads _ b).bind (ih _)
theorem varIntLoop_sound (n : Nat) (r : U64) :
    Sound (varIntLoop n r) (fun v bs => bs.length = n ∧ v = bs.foldl varIntAcc r) := by
  induction n generalizing r with
  | zero => exact (Sound.pure _).mono (by rintro a bs ⟨rfl, rfl⟩; simp)
  | succ n ih =>
    refine ((nextOr_sound _).bind fun b => ih (r <<< 8 + b.setWidth 64)).mono ?_
    rintro v bs ⟨b, b1, b2, rfl, rfl, h1, h2⟩
    simp [h1, h2, varIntAcc]
theorem varIntLoop_noPanic (n : Nat) (r : U64) : NoPanic (varIntLoop n r) := by
  induction n generalizing r with
  | zero => exact NoPanic.pure _
  | succ n ih => exact (nextOr_noPanic _).bind fun b => ih _
theorem varIntLoop_shrinks (n : Nat) (r : U64) : Shrinks (varIntLoop n r) := by
  induction n generalizing r with
  | zero => exact Shrinks.pure _
  | succ n ih => exact (nextOr_shrinks _).bind fun b => ih _

theorem varIntWithBytesLoop_reads (bs : Bytes) (r : U64) (acc : Bytes) :
    Reads (varIntWithBytesLoop bs.length r acc) bs (bs.foldl varIntAcc r, acc ++ bs) := by
  induction bs generalizing r acc with
  | nil => rw [List.append_nil]; exact Reads.pure (r, acc)
  | cons b bs ih =>
    have := (nextOr_reads "not enough bytes for varint" b).bind (ih (varIntAcc r b) (acc ++ [b]))
      (f := fun nb => varIntWithBytesLoop bs.length (r <<< 8 + nb.setWidth 64) (acc ++ [nb]))
    rw [List.append_assoc] at this
    exact this
theorem varIntWithBytesLoop_sound (n : Nat) (r : U64) (acc : Bytes) :
    Sound (varIntWithBytesLoop n r acc) (fun v bs => bs.length = n ∧ v = (bs.foldl varIntAcc r, acc ++ bs)) := by
  induction n generalizing r acc with
  | zero => exact (Sound.pure _).mono (by rintro a bs ⟨rfl, rfl⟩; simp)
  | succ n ih =>
    refine ((nextOr_sound _).bind fun b => ih (r <<< 8 + b.setWidth 64) (acc ++ [b])).mono ?_
    rintro v bs ⟨b, b1, b2, rfl, rfl, h1, h2⟩
    simp [h1, h2, varIntAcc]
theorem varIntWithBytesLoop_noPanic (n : Nat) (r : U64) (acc : Bytes) : NoPanic (varIntWithBytesLoop n r acc) := by
  induction n generalizing r acc with
  | zero => exact NoPanic.pure _
  | succ n ih => exact (nextOr_noPanic _).bind fun b => ih _ _
theorem varIntWithBytesLoop_shrinks (n : Nat) (r : U64) (acc : Bytes) : Shrinks (varIntWithBytesLoop n r acc) := by
  induction n generalizing r acc with
  | zero => exact Shrinks.pure _
  | succ n ih => exact (nextOr_shrinks _).bind fun b => ih _ _

/-- Splitting a byte into the two prefix bits and the rest. -/
theorem byte_split (b : U8) : b.toNat = (b >>> 6).toNat * 64 + (b &&& 0x3f).toNat ∧ (b >>> 6).toNat ≤ 3 ∧ (b &&& 0x3f).toNat < 64 := by
  revert b; decide +kernel

/-- Number of bytes after the first for prefix `k`. -/
theorem shift_len (k : Nat) : (1 <<< k) - 1 + 1 = 2 ^ k := by
  rw [Nat.shiftLeft_eq, Nat.one_mul]
  have : 0 < 2 ^ k := Nat.pow_pos (by decide)
  omega

/-- The value computed by the decoding loop, in terms of the specification. -/
theorem varInt_value (b : U8) (rest : Bytes) (hl : rest.length = (1 <<< (b >>> 6).toNat) - 1) :
    IsVarInt (b :: rest) (rest.foldl varIntAcc ((b &&& 0x3f).setWidth 64)).toNat := by
  obtain ⟨h1, h2, h3⟩ := byte_split b
  have hlen := shift_len (b >>> 6).toNat
  refine ⟨(b >>> 6).toNat, h2, by rw [List.length_cons, hl, hlen], ?_⟩
  have hv : (rest.foldl varIntAcc ((b &&& 0x3f).setWidth 64)).toNat
      = (b &&& 0x3f).toNat * 256 ^ rest.length + beNat rest := by
    rw [foldl_varIntAcc, BitVec.toNat_setWidth, Nat.mod_eq_of_lt (a := (b &&& 0x3f).toNat) (by omega)]
    apply Nat.mod_eq_of_lt
    have hb := beNat_lt rest
    have hr : rest.length ≤ 7 := by
      rw [hl]; have := h2; clear hl hlen hb
      generalize (b >>> 6).toNat = k at *
      match k, h2 with
      | 0, _ | 1, _ | 2, _ | 3, _ => decide
    calc (b &&& 0x3f).toNat * 256 ^ rest.length + beNat rest
        < (b &&& 0x3f).toNat * 256 ^ rest.length + 256 ^ rest.length := by omega
      _ = ((b &&& 0x3f).toNat + 1) * 256 ^ rest.length := by rw [Nat.add_mul, Nat.one_mul]
      _ ≤ 64 * 256 ^ rest.length := Nat.mul_le_mul_right _ h3
      _ ≤ 64 * 256 ^ 7 := Nat.mul_le_mul_left _ (Nat.pow_le_pow_right (by decide) hr)
      _ < 2 ^ 64 := by decide
  have hpow : 64 * 256 ^ rest.length = 2 ^ (8 * 2 ^ (b >>> 6).toNat - 2) := by
    have : 8 * 2 ^ (b >>> 6).toNat - 2 = 6 + 8 * rest.length := by omega
    rw [this, Nat.pow_add, Nat.pow_mul]
  rw [hv, ← hpow, beNat_cons, h1]
  refine ⟨?_, ?_⟩
  · have hb := beNat_lt rest
    calc (b &&& 0x3f).toNat * 256 ^ rest.length + beNat rest
        < (b &&& 0x3f).toNat * 256 ^ rest.length + 256 ^ rest.length := by omega
      _ = ((b &&& 0x3f).toNat + 1) * 256 ^ rest.length := by rw [Nat.add_mul, Nat.one_mul]
      _ ≤ 64 * 256 ^ rest.length := Nat.mul_le_mul_right _ h3
  · rw [Nat.add_mul, Nat.mul_assoc, Nat.add_assoc]

/-- The specification determines prefix and value. -/
theorem _root_.Spec.IsVarInt.unique {bs : Bytes} {v w : Nat} (h1 : IsVarInt bs v) (h2 : IsVarInt bs w) : v = w := by
  obtain ⟨k, hk, l1, b1, e1⟩ := h1
  obtain ⟨j, hj, l2, b2, e2⟩ := h2
  have : k = j := (Nat.pow_right_inj (by decide)).mp (l1.symm.trans l2)
  subst this
  omega
theorem _root_.Spec.IsVarInt.lt {bs : Bytes} {v : Nat} (h : IsVarInt bs v) : v < 2 ^ 62 := by
  obtain ⟨k, hk, _, hb, _⟩ := h
  refine Nat.lt_of_lt_of_le hb (Nat.pow_le_pow_right (by decide) ?_)
  match k, hk with
  | 0, _ | 1, _ | 2, _ | 3, _ => decide
/-- A variable-length integer is a first byte whose prefix gives the number of remaining bytes. -/
theorem _root_.Spec.IsVarInt.shape {bs : Bytes} {v : Nat} (h : IsVarInt bs v) :
    ∃ b rest, bs = b :: rest ∧ rest.length = (1 <<< (b >>> 6).toNat) - 1 := by
  obtain ⟨k, hk, hl, hb, he⟩ := h
  match bs, hl with
  | [], hl => have : 0 < 2 ^ k := Nat.pow_pos (by decide)
              simp at hl; omega
  | b :: rest, hl =>
    refine ⟨b, rest, rfl, ?_⟩
    suffices (b >>> 6).toNat = k by
      rw [this]
      have := shift_len k
      simp at hl; omega
    obtain ⟨h1, h2, h3⟩ := byte_split b
    have hlen : rest.length = 2 ^ k - 1 := by simp at hl; omega
    have hpow : 2 ^ (8 * 2 ^ k - 2) = 64 * 256 ^ rest.length := by
      have h0 : 0 < 2 ^ k := Nat.pow_pos (by decide)
      have : 8 * 2 ^ k - 2 = 6 + 8 * rest.length := by omega
      rw [this, Nat.pow_add, Nat.pow_mul]
    rw [hpow, beNat_cons] at he
    rw [hpow] at hb
    have hp : 0 < 256 ^ rest.length := Nat.pow_pos (by decide)
    have hbr := beNat_lt rest
    have e1 : (b.toNat * 256 ^ rest.length + beNat rest) / (64 * 256 ^ rest.length) = b.toNat / 64 := by
      rw [Nat.mul_comm 64, ← Nat.div_div_eq_div_mul, Nat.mul_comm b.toNat, Nat.mul_add_div hp, Nat.div_eq_of_lt hbr, Nat.add_zero]
    have e2 : (k * (64 * 256 ^ rest.length) + v) / (64 * 256 ^ rest.length) = k := by
      rw [Nat.mul_comm k, Nat.mul_add_div (by omega), Nat.div_eq_of_lt hb, Nat.add_zero]
    rw [he, e2] at e1
    omega

theorem varInt_reads {bs : Bytes} {v : U64} (h : IsVarInt bs v.toNat) : Reads varIntFromStream bs v := by
  obtain ⟨b, rest, rfl, hl⟩ := h.shape
  have hv := (varInt_value b rest hl).unique h
  have hv : rest.foldl varIntAcc ((b &&& 0x3f).setWidth 64) = v := BitVec.eq_of_toNat_eq hv
  have h2 := varIntLoop_reads rest ((b &&& 0x3f).setWidth 64)
  rw [hv, hl] at h2
  exact (nextOr_reads _ b).bind h2 (f := fun firstByte : U8 => varIntLoop ((1 <<< (firstByte >>> 6).toNat) - 1) ((firstByte &&& 0x3f).setWidth 64))
theorem varInt_sound : Sound varIntFromStream (fun v bs => IsVarInt bs v.toNat) := by
  refine ((nextOr_sound _).bind fun b => varIntLoop_sound ((1 <<< (b >>> 6).toNat) - 1) ((b &&& 0x3f).setWidth 64)).mono ?_
  rintro v bs ⟨b, b1, rest, rfl, rfl, hl, rfl⟩
  exact varInt_value b rest hl
theorem varInt_noPanic : NoPanic varIntFromStream :=
  (nextOr_noPanic _).bind fun _ => varIntLoop_noPanic _ _
theorem varInt_shrinks : Shrinks varIntFromStream :=
  (nextOr_shrinks _).bind fun _ => varIntLoop_shrinks _ _
theorem varIntWithBytes_reads {bs : Bytes} {v : U64} (h : IsVarInt bs v.toNat) :
    Reads varIntWithBytesFromStream bs (v, bs) := by
  obtain ⟨b, rest, rfl, hl⟩ := h.shape
  have hv := (varInt_value b rest hl).unique h
  have hv : rest.foldl varIntAcc ((b &&& 0x3f).setWidth 64) = v := BitVec.eq_of_toNat_eq hv
  have h2 := varIntWithBytesLoop_reads rest ((b &&& 0x3f).setWidth 64) [b]
  rw [hv, hl] at h2
  exact (nextOr_reads _ b).bind h2 (f := fun firstByte : U8 => varIntWithBytesLoop ((1 <<< (firstByte >>> 6).toNat) - 1) ((firstByte &&& 0x3f).setWidth 64) [firstByte])
theorem varIntWithBytes_sound :
    Sound varIntWithBytesFromStream (fun r bs => r.2 = bs ∧ IsVarInt bs r.1.toNat) := by
  refine ((nextOr_sound _).bind fun b => varIntWithBytesLoop_sound ((1 <<< (b >>> 6).toNat) - 1) ((b &&& 0x3f).setWidth 64) [b]).mono ?_
  rintro v bs ⟨b, b1, rest, rfl, rfl, hl, rfl⟩
  exact ⟨rfl, varInt_value b rest hl⟩
theorem varIntWithBytes_noPanic : NoPanic varIntWithBytesFromStream :=
  (nextOr_noPanic _).bind fun _ => varIntWithBytesLoop_noPanic _ _ _
theorem varIntWithBytes_shrinks : Shrinks varIntWithBytesFromStream :=
  (nextOr_shrinks _).bind fun _ => varIntWithBytesLoop_shrinks _ _ _

/-! encoding -/

/-- What `encode_var_int` produces: `k` is the smallest prefix that fits. -/
theorem encodeVarInt_spec (x : U64) (h : x.toNat < 2 ^ 62) :
    ∃ bs k, encodeVarInt x = .ok bs ∧ k ≤ 3 ∧ bs.length = 2 ^ k ∧ x.toNat < 2 ^ (8 * 2 ^ k - 2)
      ∧ beNat bs = k * 2 ^ (8 * 2 ^ k - 2) + x.toNat ∧ (∀ j < k, 2 ^ (8 * 2 ^ j - 2) ≤ x.toNat) := by
  have key : ∀ (k : Nat) (lv : U64), k ≤ 3 → x.toNat < 2 ^ (8 * 2 ^ k - 2) → lv.toNat = k * 2 ^ (8 * 2 ^ k - 2) →
      beNat (toBeBytes (2 ^ k) (lv ||| x)) = k * 2 ^ (8 * 2 ^ k - 2) + x.toNat := by
    intro k lv hk hx hlv
    rw [beNat_toBeBytes, BitVec.toNat_or, hlv, Nat.mul_comm k, ← Nat.two_pow_add_eq_or_of_lt hx, Nat.mul_comm _ k]
    apply Nat.mod_eq_of_lt
    match k, hk with
    | 0, _ | 1, _ | 2, _ | 3, _ => simp at hx ⊢; omega
  unfold encodeVarInt
  simp only [BitVec.le_def]
  have e1 : VARINT_ONELEN_MAX.toNat = 2 ^ 6 - 1 := rfl
  have e2 : VARINT_TWOLEN_MAX.toNat = 2 ^ 14 - 1 := rfl
  have e3 : VARINT_THREELEN_MAX.toNat = 2 ^ 30 - 1 := rfl
  have e4 : VARINT_FOURLEN_MAX.toNat = 2 ^ 62 - 1 := rfl
  rw [e1, e2, e3, e4]
  have w0 : encodeVarIntWith 0 x = toBeBytes (2 ^ 0) ((0 : U64) ||| x) := toBeBytes_drop 8 1 _ (by decide)
  have w1 : encodeVarIntWith 1 x = toBeBytes (2 ^ 1) ((0x4000 : U64) ||| x) := toBeBytes_drop 8 2 _ (by decide)
  have w2 : encodeVarIntWith 2 x = toBeBytes (2 ^ 2) ((0x80000000 : U64) ||| x) := toBeBytes_drop 8 4 _ (by decide)
  have w3 : encodeVarIntWith 3 x = toBeBytes (2 ^ 3) ((0xc000000000000000 : U64) ||| x) := toBeBytes_drop 8 8 _ (by decide)
  split
  · refine ⟨_, 0, rfl, by decide, ?_, by simp; omega, ?_, by intro j hj; omega⟩
    · rw [w0]; simp
    · rw [w0]; exact key 0 _ (by decide) (by simp; omega) rfl
  split
  · refine ⟨_, 1, rfl, by decide, ?_, by simp; omega, ?_, ?_⟩
    · rw [w1]; simp
    · rw [w1]; exact key 1 _ (by decide) (by simp; omega) rfl
    · intro j hj; match j, hj with | 0, _ => simp; omega
  split
  · refine ⟨_, 2, rfl, by decide, ?_, by simp; omega, ?_, ?_⟩
    · rw [w2]; simp
    · rw [w2]; exact key 2 _ (by decide) (by simp; omega) rfl
    · intro j hj; match j, hj with | 0, _ | 1, _ => simp; omega
  split
  · refine ⟨_, 3, rfl, by decide, ?_, by simp; omega, ?_, ?_⟩
    · rw [w3]; simp
    · rw [w3]; exact key 3 _ (by decide) (by simp; omega) rfl
    · intro j hj; match j, hj with | 0, _ | 1, _ | 2, _ => simp; omega
  · omega

theorem encodeVarInt_overflow (x : U64) (h : 2 ^ 62 ≤ x.toNat) : encodeVarInt x = .err (.internalError "var int overflow") := by
  unfold encodeVarInt
  simp only [BitVec.le_def]
  have e1 : VARINT_ONELEN_MAX.toNat = 2 ^ 6 - 1 := rfl
  have e2 : VARINT_TWOLEN_MAX.toNat = 2 ^ 14 - 1 := rfl
  have e3 : VARINT_THREELEN_MAX.toNat = 2 ^ 30 - 1 := rfl
  have e4 : VARINT_FOURLEN_MAX.toNat = 2 ^ 62 - 1 := rfl
  rw [e1, e2, e3, e4, if_neg (by omega), if_neg (by omega), if_neg (by omega), if_neg (by omega)]

theorem encodeVarInt_isVarInt {x : U64} {bs} (h : encodeVarInt x = .ok bs) : IsVarInt bs x.toNat := by
  by_cases hx : x.toNat < 2 ^ 62
  · obtain ⟨bs', k, h1, h2, h3, h4, h5, _⟩ := encodeVarInt_spec x hx
    rw [h] at h1
    cases h1
    exact ⟨k, h2, h3, h4, h5⟩
  · rw [encodeVarInt_overflow x (by omega)] at h
    cases h
theorem encodeVarInt_ok (x : U64) (h : x.toNat < 2 ^ 62) : ∃ bs, encodeVarInt x = .ok bs := by
  obtain ⟨bs, _, h, _⟩ := encodeVarInt_spec x h
  exact ⟨bs, h⟩
theorem encodeVarInt_ok_iff (x : U64) : (∃ bs, encodeVarInt x = .ok bs) ↔ x.toNat < 2 ^ 62 := by
  constructor
  · rintro ⟨bs, h⟩; exact (encodeVarInt_isVarInt h).lt
  · exact encodeVarInt_ok x
theorem encodeVarInt_noPanic (x : U64) : (encodeVarInt x).isPanic = false := by
  by_cases hx : x.toNat < 2 ^ 62
  · obtain ⟨bs, h⟩ := encodeVarInt_ok x hx; rw [h]; rfl
  · rw [encodeVarInt_overflow x (by omega)]; rfl

end QuicSea
