import Verif.Proofs.Cid
/-
Properties C06-C09: fixed-width integers, connection ids, byte readers.
-/
namespace QuicSea
open Spec (beNat cidVal)

/-- A stream either starts with `n` bytes, or ends or yields an error before. -/
theorem stream_cases (n : Nat) (s : Stream) :
    (∃ bs s', s = makeResultStream bs ++ s' ∧ bs.length = n) ∨
    (∃ bs, bs.length < n ∧ (s = makeResultStream bs ∨ ∃ e s', s = makeResultStream bs ++ .error e :: s')) := by
  induction n generalizing s with
  | zero => exact .inl ⟨[], s, rfl, rfl⟩
  | succ n ih =>
    match s with
    | [] => exact .inr ⟨[], by simp, .inl rfl⟩
    | .error e :: s => exact .inr ⟨[], by simp, .inr ⟨e, s, rfl⟩⟩
    | .ok b :: s =>
      rcases ih s with ⟨bs, s', rfl, hl⟩ | ⟨bs, hl, rfl | ⟨e, s', rfl⟩⟩
      · exact .inl ⟨b :: bs, s', rfl, by simp [hl]⟩
      · exact .inr ⟨b :: bs, by simp [hl], .inl rfl⟩
      · exact .inr ⟨b :: bs, by simp [hl], .inr ⟨e, s', rfl⟩⟩

theorem readArray_short (msg) (n : Nat) (bs : Bytes) (h : bs.length < n) :
    readArray msg n (makeResultStream bs) = (.err (.internalError msg), []) := by
  induction bs generalizing n with
  | nil => match n, h with | n + 1, _ => rfl
  | cons b bs ih =>
    match n, h with
    | n + 1, h =>
      have := ih n (by simpa using h)
      exact (Rd.bind_ok (m := nextOr msg) (s := makeResultStream (b :: bs)) (a := b) (s' := makeResultStream bs) rfl).trans (Rd.bind_err this)
theorem readArray_err (msg) (n : Nat) (bs : Bytes) (h : bs.length < n) (e s') :
    readArray msg n (makeResultStream bs ++ .error e :: s') = (.err e, s') := by
  induction bs generalizing n with
  | nil => match n, h with | n + 1, _ => rfl
  | cons b bs ih =>
    match n, h with
    | n + 1, h =>
      have := ih n (by simpa using h)
      exact (Rd.bind_ok (m := nextOr msg) (s := makeResultStream (b :: bs) ++ .error e :: s') (a := b)
        (s' := makeResultStream bs ++ .error e :: s') rfl).trans (Rd.bind_err this)

/-- C06, streams: reading an integer of `size ≥ 1` bytes (the crate has 1, 2, 4, 8, 16) returns the big-endian value of exactly the first
`size` bytes; if the stream ends or yields an error before, that is the outcome. -/
theorem C06_uint_stream (size : Nat) (hsz : 1 ≤ size) (msg : String) (bs : Bytes) :
    (∀ s, bs.length = size → ∃ v, uintFromDatagram size msg (makeResultStream bs ++ s) = (.ok v, s) ∧ v.toNat = beNat bs) ∧
    (bs.length < size → uintFromDatagram size msg (makeResultStream bs) = (.err (.internalError msg), [])) ∧
    (∀ e s, bs.length < size → uintFromDatagram size msg (makeResultStream bs ++ .error e :: s) = (.err e, s)) := by
  refine ⟨?_, ?_, ?_⟩
  · rintro s rfl
    refine ⟨_, uint_reads msg bs s, ?_⟩
    rw [fromBeBytes_toNat (by omega)]
    have : (256 : Nat) ^ bs.length = 2 ^ (8 * bs.length) := by rw [Nat.pow_mul]
    rw [← this]
    exact Nat.mod_eq_of_lt (beNat_lt bs)
  · intro h
    exact Rd.bind_err (readArray_short msg size bs h)
  · intro e s h
    exact Rd.bind_err (readArray_err msg size bs h e s)

/-- C06, one byte. -/
theorem C06_u8_stream (s : Stream) :
    (∀ b s', s = .ok b :: s' → u8FromDatagram s = (.ok b, s')) ∧
    (s = [] → u8FromDatagram s = (.err (.internalError "not enough bytes for u8"), [])) ∧
    (∀ e s', s = .error e :: s' → u8FromDatagram s = (.err e, s')) := by
  refine ⟨?_, ?_, ?_⟩
  · rintro b s' rfl; rfl
  · rintro rfl; rfl
  · rintro e s' rfl; rfl

/-- C06, slices: success exactly when enough bytes are there, and then the value of the first `size` bytes. -/
theorem C06_uint_slice (size : Nat) (hsz : 1 ≤ size) (msg : String) (data : Bytes) :
    (size ≤ data.length → ∃ v, decodeUInt size msg data = .ok (v, size) ∧ v.toNat = beNat (data.take size)) ∧
    (data.length < size → decodeUInt size msg data = .err (.internalError msg)) := by
  refine ⟨?_, ?_⟩
  · intro h
    refine ⟨_, by unfold decodeUInt; rw [if_neg (by omega)], ?_⟩
    have hl : (data.take size).length = size := by rw [List.length_take]; omega
    rw [foldl_shiftIn_toNat (by omega)]
    simp only [BitVec.ofNat_eq_ofNat, BitVec.toNat_ofNat, Nat.zero_mod, Nat.zero_mul, Nat.zero_add]
    have h1 := beNat_lt (data.take size)
    rw [hl, show (256 : Nat) = 2 ^ 8 from rfl, ← Nat.pow_mul] at h1
    exact Nat.mod_eq_of_lt h1
  · intro h
    unfold decodeUInt; rw [if_pos h]
theorem C06_u8_slice (data : Bytes) :
    (∀ b rest, data = b :: rest → decodeU8 data = .ok (b, 1)) ∧
    (data = [] → decodeU8 data = .err (.internalError "not enough bytes for u8")) := by
  refine ⟨?_, ?_⟩
  · rintro b rest rfl; rfl
  · rintro rfl; rfl

/-- C06, encode then decode, for every width. -/
theorem C06_uint_round_trip (size : Nat) (hsz : 1 ≤ size) (msg : String) (x : BitVec (8 * size)) (s : Stream) :
    uintFromDatagram size msg (makeResultStream (toBeBytes size x) ++ s) = (.ok x, s) := by
  obtain ⟨v, h, hv⟩ := (C06_uint_stream size hsz msg (toBeBytes size x)).1 s (toBeBytes_length _ _)
  rw [h]
  have : v = x := by
    apply BitVec.eq_of_toNat_eq
    have h256 : (256 : Nat) ^ size = 2 ^ (8 * size) := by rw [Nat.pow_mul]
    rw [hv, beNat_toBeBytes, h256, Nat.mod_eq_of_lt x.isLt]
  rw [this]
example : u32FromDatagram (makeResultStream [1, 2, 3, 4, 5]) = (.ok 0x01020304, [.ok 5]) := by decide +kernel

/-- C06, the widths of the crate: 2, 4, 8 and 16 bytes, from a slice and from a stream. -/
theorem C06_widths (bs : Bytes) (s : Stream) :
    (bs.length = 2 → ∃ v : U16, decodeU16 bs = .ok (v, 2) ∧ u16FromDatagram (makeResultStream bs ++ s) = (.ok v, s) ∧ v.toNat = beNat bs) ∧
    (bs.length = 4 → ∃ v : U32, decodeU32 bs = .ok (v, 4) ∧ u32FromDatagram (makeResultStream bs ++ s) = (.ok v, s) ∧ v.toNat = beNat bs) ∧
    (bs.length = 8 → ∃ v : U64, decodeU64 bs = .ok (v, 8) ∧ u64FromDatagram (makeResultStream bs ++ s) = (.ok v, s) ∧ v.toNat = beNat bs) ∧
    (bs.length = 16 → ∃ v : U128, decodeU128 bs = .ok (v, 16) ∧ u128FromDatagram (makeResultStream bs ++ s) = (.ok v, s) ∧ v.toNat = beNat bs) := by
  have key : ∀ size msg, 1 ≤ size → bs.length = size → ∃ v : BitVec (8 * size), decodeUInt size msg bs = .ok (v, size) ∧
      uintFromDatagram size msg (makeResultStream bs ++ s) = (.ok v, s) ∧ v.toNat = beNat bs := by
    intro size msg h1 hl
    obtain ⟨v, e1, v1⟩ := (C06_uint_slice size h1 msg bs).1 (by omega)
    obtain ⟨w, e2, v2⟩ := (C06_uint_stream size h1 msg bs).1 s hl
    rw [List.take_of_length_le (by omega)] at v1
    have : w = v := BitVec.eq_of_toNat_eq (v2.trans v1.symm)
    exact ⟨v, e1, this ▸ e2, v1⟩
  exact ⟨key 2 _ (by decide), key 4 _ (by decide), key 8 _ (by decide), key 16 _ (by decide)⟩

theorem varU32_go (n : Nat) (rv : U32) (bs : Bytes) (hl : bs.length = n) (s : Stream) :
    varU32FromStream.go n rv (makeResultStream bs ++ s) = (.ok (bs.foldl shiftIn rv), s) := by
  induction bs generalizing n rv with
  | nil => subst hl; rfl
  | cons b bs ih => subst hl; exact ih bs.length _ rfl

/-- C06, `var_u32_from_stream`: the big-endian value of exactly the first `n` bytes, for `n ≤ 4`; of more bytes only the last four count.
A stream that ends or fails before is reported. -/
theorem C06_var_u32 (n : Nat) (bs : Bytes) :
    (∀ s, bs.length = n → ∃ v, varU32FromStream n (makeResultStream bs ++ s) = (.ok v, s) ∧ v.toNat = beNat bs % 2 ^ 32 ∧ (n ≤ 4 → v.toNat = beNat bs)) ∧
    (bs.length < n → varU32FromStream n (makeResultStream bs) = (.err (.internalError "not enough bytes for var_u32"), [])) ∧
    (∀ e s, bs.length < n → varU32FromStream n (makeResultStream bs ++ .error e :: s) = (.err e, s)) := by
  refine ⟨fun s hl => ⟨_, varU32_go n 0 bs hl s, ?_, fun h4 => ?_⟩, ?_, ?_⟩
  · simp [foldl_shiftIn_toNat (w := 32) (by decide)]
  · have h1 := beNat_lt bs
    have h2 : 256 ^ bs.length ≤ 256 ^ 4 := Nat.pow_le_pow_right (by decide) (by omega)
    rw [foldl_shiftIn_toNat (w := 32) (by decide)]
    simpa using Nat.mod_eq_of_lt (show beNat bs < 2 ^ 32 by omega)
  · unfold varU32FromStream
    generalize (0 : U32) = rv
    intro h
    induction bs generalizing n rv with
    | nil => cases n with
      | zero => cases h
      | succ n => rfl
    | cons b bs ih => cases n with
      | zero => cases h
      | succ n => exact ih n _ (by simpa using h)
  · unfold varU32FromStream
    generalize (0 : U32) = rv
    intro e s h
    induction bs generalizing n rv with
    | nil => cases n with
      | zero => cases h
      | succ n => rfl
    | cons b bs ih => cases n with
      | zero => cases h
      | succ n => exact ih n _ (by simpa using h)
example : varU32FromStream 3 (makeResultStream [1, 2, 3, 4]) = (.ok 0x010203, [.ok 4]) := by decide +kernel

/-- C07, reading then writing: the same bytes. -/
theorem C07_cid_read_write (len : U8) (h20 : len.toNat ≤ 20) (s : Stream) (x : U160) (s' : Stream)
    (h : varU160FromStream len s = (.ok x, s')) :
    ∃ bs, s = makeResultStream bs ++ s' ∧ bs.length = len.toNat ∧ x.toVarBytes len.toNat = .ok bs := by
  obtain ⟨bs, e, hl, hv⟩ := cid_sound len h20 _ _ _ h
  obtain ⟨bs', h1, h2, h3⟩ := toVarBytes_spec x len.toNat h20
  refine ⟨bs, e, hl, ?_⟩
  rw [h1]
  congr 1
  apply beNat_inj (by omega)
  rw [h3, hv, ← hl]
  exact Nat.mod_eq_of_lt (beNat_lt bs)

/-- C07, writing then reading: the same id, if it fits the length. -/
theorem C07_cid_write_read (x : U160) (len : U8) (h20 : len.toNat ≤ 20) (hfit : cidVal x < 256 ^ len.toNat) (s : Stream) :
    ∃ bs, x.toVarBytes len.toNat = .ok bs ∧ varU160FromStream len (makeResultStream bs ++ s) = (.ok x, s) := by
  obtain ⟨bs, h1, h2, h3⟩ := toVarBytes_spec x len.toNat h20
  exact ⟨bs, h1, cid_reads h2 h20 (by rw [h3, Nat.mod_eq_of_lt hfit]) s⟩
/-- The bound on the id is what "fits" means: an id that does not fit its length does not survive. -/
theorem C07_cid_too_big (x : U160) (len : U8) (h20 : len.toNat ≤ 20) (hfit : 256 ^ len.toNat ≤ cidVal x) (s : Stream) :
    ∃ bs y, x.toVarBytes len.toNat = .ok bs ∧ varU160FromStream len (makeResultStream bs ++ s) = (.ok y, s) ∧ y ≠ x := by
  obtain ⟨bs, h1, h2, h3⟩ := toVarBytes_spec x len.toNat h20
  refine ⟨bs, bs.foldl u160Step ⟨0, 0⟩, h1, cid_reads h2 h20 (cidVal_read bs (by omega)) s, ?_⟩
  intro e
  have := cidVal_read bs (by omega)
  rw [e, h3] at this
  have hp : 0 < 256 ^ len.toNat := Nat.pow_pos (by decide)
  have := Nat.mod_lt (cidVal x) hp
  omega
/-- C07, the 20-byte forms: big-endian value of the 160-bit number, and reading it back. -/
theorem C07_cid_20_bytes (x : U160) (s : Stream) :
    x.toBytes.length = 20 ∧ beNat x.toBytes = cidVal x ∧
    u160FromDatagram (makeResultStream x.toBytes ++ s) = (.ok x, s) := by
  refine ⟨toBytes_length x, toBytes_val x, ?_⟩
  have := u160Loop_reads "not enough bytes for u160" x.toBytes 0 0
  rw [toBytes_length] at this
  have e : x.toBytes.foldl u160Step ⟨0, 0⟩ = x :=
    cidVal_inj (by rw [cidVal_read _ (Nat.le_of_eq (toBytes_length x)), toBytes_val])
  rw [e] at this
  exact this s
/-- C07, an id made from a `u64`. -/
theorem C07_cid_of_u64 (v : U64) : cidVal (U160.ofU64 v) = v.toNat ∧ (U160.ofU64 v).toVarBytes 8 = .ok (toBeBytes 8 v) := by
  refine ⟨cidVal_ofU64 v, ?_⟩
  obtain ⟨bs, h1, h2, h3⟩ := toVarBytes_spec (U160.ofU64 v) 8 (by decide)
  rw [h1]
  congr 1
  apply beNat_inj (by simp [h2])
  rw [h3, beNat_toBeBytes, cidVal_ofU64]
example : varU160FromStream 3 (makeResultStream [1, 2, 3, 9]) = (.ok ⟨0, 0x010203⟩, [.ok 9]) := by decide +kernel
example : cidVal ⟨1, 0⟩ < 256 ^ (17 : U8).toNat ∧ (17 : U8).toNat ≤ 20 := by decide

/-- C08. -/
theorem C08_cid_write_panics_iff (x : U160) (len : Nat) :
    ((x.toVarBytes len).isPanic = true ↔ 20 < len) ∧
    (len ≤ 20 → ∃ bs, x.toVarBytes len = .ok bs ∧ bs.length = len) := by
  refine ⟨⟨?_, toVarBytes_panic x len⟩, ?_⟩
  · intro h
    refine Nat.not_le.mp fun hle => ?_
    obtain ⟨bs, h1, _⟩ := toVarBytes_spec x len hle
    rw [h1] at h
    cases h
  · intro h
    obtain ⟨bs, h1, h2, _⟩ := toVarBytes_spec x len h
    exact ⟨bs, h1, h2⟩

theorem varBytes_eq_readArray (n : Nat) : varBytesFromStream n = readArray "not enough bytes for var_bytes" n := by
  induction n with
  | zero => rfl
  | succ n ih => rw [varBytesFromStream, readArray, ih]

/-- C09, reading `n` bytes, by exhaustive cases (`C09_cases_exhaustive`). -/
theorem C09_var_bytes_exact (n : Nat) (bs : Bytes) :
    (∀ s, bs.length = n → varBytesFromStream n (makeResultStream bs ++ s) = (.ok bs, s)) ∧
    (bs.length < n → varBytesFromStream n (makeResultStream bs) = (.err (.internalError "not enough bytes for var_bytes"), [])) ∧
    (∀ e s, bs.length < n → varBytesFromStream n (makeResultStream bs ++ .error e :: s) = (.err e, s)) := by
  refine ⟨fun s h => varBytes_reads' h s, fun h => ?_, fun e s h => ?_⟩
  · rw [varBytes_eq_readArray]; exact readArray_short _ n bs h
  · rw [varBytes_eq_readArray]; exact readArray_err _ n bs h e s
/-- C09: the three cases above cover every stream. -/
theorem C09_cases_exhaustive (n : Nat) (s : Stream) :
    (∃ bs s', s = makeResultStream bs ++ s' ∧ bs.length = n) ∨
    (∃ bs, bs.length < n ∧ (s = makeResultStream bs ∨ ∃ e s', s = makeResultStream bs ++ .error e :: s')) := stream_cases n s
/-- C09, reading everything: all bytes, or the first error of the stream. -/
theorem C09_all_bytes_exact (bs : Bytes) :
    allBytesFromStream (makeResultStream bs) = (.ok bs, []) ∧
    ∀ e s, allBytesFromStream (makeResultStream bs ++ .error e :: s) = (.err e, s) := by
  refine ⟨allBytes_run bs, ?_⟩
  intro e s
  induction bs with
  | nil => rfl
  | cons b bs ih => simp only [makeResultStream_cons, List.cons_append, allBytesFromStream, ih]
/-- C09, size: however large the requested length, what is returned is never longer than what the stream held. -/
theorem C09_var_bytes_size (n : Nat) (s : Stream) (bs : Bytes) (s' : Stream) (h : varBytesFromStream n s = (.ok bs, s')) :
    bs.length = n ∧ bs.length + s'.length = s.length := by
  obtain ⟨b, e, rfl, hl⟩ := varBytes_sound n _ _ _ h
  exact ⟨hl, by rw [e]; simp⟩
example : varBytesFromStream 4 (makeResultStream [1, 2] ++ [.error .noError, .ok 3]) = (.err .noError, [.ok 3]) := by decide +kernel

/-- C09, slices: the first `n` bytes if there are as many, else an error. -/
theorem C09_decode_bytes (data : Bytes) (n : Nat) :
    (∀ bs rest, data = bs ++ rest → bs.length = n → decodeBytes data n = .ok (bs, n)) ∧ (data.length < n → ∃ e, decodeBytes data n = .err e) := by
  refine ⟨?_, fun h => ⟨_, if_pos h⟩⟩
  rintro bs rest rfl rfl
  unfold decodeBytes
  rw [if_neg (by simp), List.take_left' rfl]
example : decodeBytes [1, 2, 3] 3 = .ok ([1, 2, 3], 3) := by decide +kernel

end QuicSea
