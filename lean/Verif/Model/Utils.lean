import Verif.Model.Basic
/-
Model of src/utils.rs.
-/
namespace QuicSea

/-- Rust std `uN::to_be_bytes` (for instance src/connection.rs:42) for a value of `n` bytes (most significant first). -/
def toBeBytes : Nat → BitVec w → Bytes
  | 0, _ => []
  | n + 1, x => (x >>> (8 * n)).setWidth 8 :: toBeBytes n x

/-- One step `result <<= 8; result |= Self::from(b)` (src/utils.rs:87-88 and its copies). -/
def shiftIn (r : BitVec w) (b : U8) : BitVec w := (r <<< 8) ||| b.setWidth w

/-- Rust std `uN::from_be_bytes`, as at src/connection.rs:205. -/
def fromBeBytes (w : Nat) (bs : Bytes) : BitVec w := bs.foldl shiftIn 0

/-! ### `U160` -/

/-- src/utils.rs:6-10. -/
structure U160 where
  idx0 : U32
  idx1 : U128
deriving DecidableEq, Repr

/-- src/utils.rs:12-17 `From<u64> for U160`. -/
def U160.ofU64 (v : U64) : U160 := { idx0 := 0, idx1 := v.setWidth 128 }

/-- src/utils.rs:38-43 `U160::zero`. -/
def U160.zero : U160 := { idx0 := 0, idx1 := 0 }

/-- Loop of src/utils.rs:25-30; `acc` holds `rv[20-i..]`. -/
def U160.toBytesLoop : Nat → U128 → U32 → Bytes → Bytes
  | 0, _, _, acc => acc
  | n + 1, low, high, acc =>
    U160.toBytesLoop n
      ((low >>> 8) ||| ((high &&& 0xff).setWidth 128 <<< 120))
      (high >>> 8)
      ((low &&& 0xff).setWidth 8 :: acc)

/-- src/utils.rs:21-32 `U160::to_bytes`. -/
def U160.toBytes (x : U160) : Bytes := U160.toBytesLoop 20 x.idx1 x.idx0 []

/-- Rust std `<[T]>::rotate_left(mid)` (src/utils.rs:35) for `mid ≤ len`. -/
def rotateLeft (xs : List α) (mid : Nat) : List α := xs.drop mid ++ xs.take mid

/-- src/utils.rs:33-37 `U160::to_var_bytes`. For `len > 20` the subtraction `20 - len` panics (debug) or wraps to a
value for which `rotate_left` panics (release): a panic in both profiles. -/
def U160.toVarBytes (x : U160) (len : Nat) : Out Bytes :=
  if 20 < len then .panic "attempt to subtract with overflow / mid <= self.len()"
  else .ok ((rotateLeft x.toBytes (20 - len)).take len)

/-! ### fixed-width decoding -/

/-- src/utils.rs:68-76 `DecodeFromBytes for u8`. -/
def decodeU8 (data : Bytes) : Out (U8 × Nat) :=
  match data with
  | [] => .err (.internalError "not enough bytes for u8")
  | b :: _ => .ok (b, 1)

/-- src/utils.rs:78-140 `DecodeFromBytes` for u16, u32, u64, u128: four textual copies, identical up to the width
(`size` bytes) and the message. -/
def decodeUInt (size : Nat) (msg : String) (data : Bytes) : Out (BitVec (8 * size) × Nat) :=
  if data.length < size then .err (.internalError msg)
  else .ok ((data.take size).foldl shiftIn 0, size)

/-- src/utils.rs:78-92. -/
def decodeU16 : Bytes → Out (U16 × Nat) := decodeUInt 2 "not enough bytes for u16"
/-- src/utils.rs:94-108. -/
def decodeU32 : Bytes → Out (U32 × Nat) := decodeUInt 4 "not enough bytes for u32"
/-- src/utils.rs:110-124. -/
def decodeU64 : Bytes → Out (U64 × Nat) := decodeUInt 8 "not enough bytes for u64"
/-- src/utils.rs:126-140. -/
def decodeU128 : Bytes → Out (U128 × Nat) := decodeUInt 16 "not enough bytes for u128"

/-- Loop filling `bytes[0..size]` (src/utils.rs:150-154 and its copies). -/
def readArray (msg : String) : Nat → Rd Bytes
  | 0 => pure []
  | n + 1 => do
    let b ← nextOr msg
    let bs ← readArray msg n
    pure (b :: bs)

/-- src/utils.rs:142-158 `FromDatagram for u8`. -/
def u8FromDatagram : Rd U8 := do
  let bytes ← readArray "not enough bytes for u8" 1
  let (rv, _) ← Rd.lift (decodeU8 bytes)
  pure rv

/-- src/utils.rs:160-230 `FromDatagram` for u16, u32, u64, u128 (four copies). -/
def uintFromDatagram (size : Nat) (msg : String) : Rd (BitVec (8 * size)) := do
  let bytes ← readArray msg size
  let (rv, _) ← Rd.lift (decodeUInt size msg bytes)
  pure rv

/-- src/utils.rs:160-176. -/
def u16FromDatagram : Rd U16 := uintFromDatagram 2 "not enough bytes for u16"
/-- src/utils.rs:178-194. -/
def u32FromDatagram : Rd U32 := uintFromDatagram 4 "not enough bytes for u32"
/-- src/utils.rs:196-212. -/
def u64FromDatagram : Rd U64 := uintFromDatagram 8 "not enough bytes for u64"
/-- src/utils.rs:214-230. -/
def u128FromDatagram : Rd U128 := uintFromDatagram 16 "not enough bytes for u128"

/-- Loop body shared by src/utils.rs:241-252 and 411-422. -/
def u160Loop (msg : String) : Nat → U32 → U128 → Rd U160
  | 0, idx0, idx1 => pure { idx0, idx1 }
  | n + 1, idx0, idx1 => do
    let idx0 := idx0 <<< 8
    let idx0 := idx0 ||| (idx1 >>> 120).setWidth 32
    let idx1 := idx1 &&& (((1 : U128) <<< 120) - 1)
    let idx1 := idx1 <<< 8
    let b ← nextOr msg
    u160Loop msg n idx0 (idx1 ||| b.setWidth 128)

/-- src/utils.rs:232-255 `FromDatagram for U160`. -/
def u160FromDatagram : Rd U160 := u160Loop "not enough bytes for u160" 20 0 0

/-- src/utils.rs:405-424 `var_u160_from_stream`. -/
def varU160FromStream (nBytes : U8) : Rd U160 := u160Loop "not enough bytes for var160" nBytes.toNat 0 0

/-! ### `floor_log2` -/

/-- `while tp > 0 { rv += 1; tp >>= 1 }` (src/utils.rs:262-267 and copies). A `w`-bit value is 0 after `w` shifts, so
`w` iterations of fuel suffice (`floorLog2Loop_fuel` in the proofs). -/
def floorLog2Loop : Nat → BitVec w → Nat → Nat
  | 0, _, rv => rv
  | n + 1, tp, rv => if tp = 0 then rv else floorLog2Loop n (tp >>> 1) (rv + 1)

/-- src/utils.rs:257-316 `FloorLog2::floor_log2` for u8, u16, u32, u64 (four copies). -/
def floorLog2 (x : BitVec w) : Out Nat :=
  if x = 0 then .err (.internalError "no bits set")
  else .ok (floorLog2Loop w x 0)

/-! ### variable-length integers -/

/-- Loop of src/utils.rs:332-335: `result <<= 8; result += data[i+1]`. The addition cannot overflow because the low byte
of `result` is 0 after the shift. -/
def varIntAcc (r : U64) (b : U8) : U64 := (r <<< 8) + b.setWidth 64

/-- src/utils.rs:323-337 `decode_var_int`. -/
def decodeVarInt (data : Bytes) : Out (U64 × Nat) :=
  match data with
  | [] => .err (.internalError "missing first byte for varint")
  | b :: rest =>
    let nShifts := (b >>> 6).toNat
    if data.length < nShifts + 1 then .err (.internalError "not enough bytes for varint")
    else .ok ((rest.take nShifts).foldl varIntAcc ((b &&& 0x3f).setWidth 64), nShifts + 1)

/-- src/utils.rs:339-345 `decode_bytes`. -/
def decodeBytes (data : Bytes) (length : Nat) : Out (Bytes × Nat) :=
  if data.length < length then .err (.internalError "not enough bytes to decode")
  else .ok (data.take length, length)

/-- Loop of src/utils.rs:358-365. -/
def varIntWithBytesLoop : Nat → U64 → Bytes → Rd (U64 × Bytes)
  | 0, result, bytes => pure (result, bytes)
  | n + 1, result, bytes => do
    let result := result <<< 8
    let nextByte ← nextOr "not enough bytes for varint"
    varIntWithBytesLoop n (result + nextByte.setWidth 64) (bytes ++ [nextByte])

/-- src/utils.rs:347-367 `var_int_with_bytes_from_stream`. -/
def varIntWithBytesFromStream : Rd (U64 × Bytes) := do
  let firstByte ← nextOr "missing first byte for varint"
  let nShifts := (1 <<< (firstByte >>> 6).toNat) - 1
  varIntWithBytesLoop nShifts ((firstByte &&& 0x3f).setWidth 64) [firstByte]

/-- Loop of src/utils.rs:378-385. -/
def varIntLoop : Nat → U64 → Rd U64
  | 0, result => pure result
  | n + 1, result => do
    let result := result <<< 8
    let b ← nextOr "not enough bytes for varint"
    varIntLoop n (result + b.setWidth 64)

/-- src/utils.rs:369-387 `var_int_from_stream`. -/
def varIntFromStream : Rd U64 := do
  let firstByte ← nextOr "missing first byte for varint"
  let nShifts := (1 <<< (firstByte >>> 6).toNat) - 1
  varIntLoop nShifts ((firstByte &&& 0x3f).setWidth 64)

/-- src/utils.rs:389-403 `var_u32_from_stream`. -/
def varU32FromStream (nBytes : Nat) : Rd U32 := go nBytes 0
where
  go : Nat → U32 → Rd U32
    | 0, rv => pure rv
    | n + 1, rv => do
      let rv := rv <<< 8
      let b ← nextOr "not enough bytes for var_u32"
      go n (rv ||| b.setWidth 32)

/-- src/utils.rs:426-443 `var_bytes_from_stream`. The `println!` on failure is left out here; see `varBytesP` in
`Verif.Model.Env`. -/
def varBytesFromStream : Nat → Rd Bytes
  | 0 => pure []
  | n + 1 => do
    let b ← nextOr "not enough bytes for var_bytes"
    let rv ← varBytesFromStream n
    pure (b :: rv)

/-- src/utils.rs:445-455 `all_bytes_from_stream`. -/
def allBytesFromStream : Rd Bytes
  | [] => (.ok [], [])
  | .error e :: s => (.err e, s)
  | .ok b :: s =>
    match allBytesFromStream s with
    | (.ok bs, s') => (.ok (b :: bs), s')
    | (.err e, s') => (.err e, s')
    | (.panic w, s') => (.panic w, s')

/-- src/utils.rs:457-465 `fixed_len_dcid_from_stream`. -/
def fixedLenDcidFromStream : Rd U160 := do
  let dcid ← u64FromDatagram
  pure { idx0 := 0, idx1 := dcid.setWidth 128 }

/-- src/utils.rs:493. -/
def VARINT_ONELEN_MAX : U64 := 0x3f
/-- src/utils.rs:494. -/
def VARINT_TWOLEN_MAX : U64 := 0x3fff
/-- src/utils.rs:495. -/
def VARINT_THREELEN_MAX : U64 := 0x3fffffff
/-- src/utils.rs:496. -/
def VARINT_FOURLEN_MAX : U64 := 0x3fffffffffffffff

/-- src/utils.rs:511-514: the tail of `encode_var_int` once `n_shifts` is known. -/
def encodeVarIntWith (nShifts : U64) (x : U64) : Bytes :=
  let len : U64 := (1 : U64) <<< nShifts
  let lenVal : U64 := (nShifts <<< 6) <<< ((len - 1) * 8)
  (toBeBytes 8 (lenVal ||| x)).drop (8 - len.toNat)

/-- src/utils.rs:498-515 `encode_var_int`. -/
def encodeVarInt (x : U64) : Out Bytes :=
  if x ≤ VARINT_ONELEN_MAX then .ok (encodeVarIntWith 0 x)
  else if x ≤ VARINT_TWOLEN_MAX then .ok (encodeVarIntWith 1 x)
  else if x ≤ VARINT_THREELEN_MAX then .ok (encodeVarIntWith 2 x)
  else if x ≤ VARINT_FOURLEN_MAX then .ok (encodeVarIntWith 3 x)
  else .err (.internalError "var int overflow")

-- `calloc_box_buffer` and `alloc_box_buffer` (src/utils.rs:467-485) are in `Verif.Model.Alloc`.

/-! Unit test of src/utils.rs:522-529, replayed on the model. -/
example : encodeVarInt 0 = .ok [0x00] := by decide +kernel
example : encodeVarInt 2000 = .ok [0x47, 0xd0] := by decide +kernel

end QuicSea
