import Verif.Spec.Sha256
/-
AES-128 (FIPS 197) and its modes ECB (SP 800-38A) and GCM (SP 800-38D), on numbers, in a form the kernel can evaluate.
-/
namespace Spec
open QuicSea

/-! ### AES-128 -/

/-- FIPS 197 section 5.1.1, the S-box as a table of 256 bytes, entry 0 lowest. -/
def aesTable : Nat :=
  0x16bb54b00f2d99416842e6bf0d89a18cdf2855cee9871e9b948ed9691198f8e19e1dc186b95735610ef6034866b53e708a8bbd4b1f74dde8c6b4a61c2e2578ba08ae7a65eaf4566ca94ed58d6d37c8e779e4959162acd3c25c2406490a3a32e0db0b5ede14b8ee4688902a22dc4f816073195d643d7ea7c41744975fec130ccdd2f3ff1021dab6bcf5389d928f40a351a89f3c507f02f94585334d43fbaaefd0cf584c4a39becb6a5bb1fc20ed00d153842fe329b3d63b52a05a6e1b1a2c830975b227ebe28012079a059618c323c7041531d871f1e5a534ccf73f362693fdb7c072a49cafa2d4adf04759fa7dc982ca76abd7fe2b670130c56f6bf27b777c63
def sbox (x : Nat) : Nat := (aesTable >>> (8 * x)) % 256

/-- FIPS 197 section 4.2.1, multiplication by x. -/
def xtime (x : Nat) : Nat := if x < 128 then 2 * x else (2 * x) ^^^ 0x11b

/-- FIPS 197 section 5.1.2; the state is the list of its bytes, column by column. -/
def shiftRows : List Nat → List Nat
  | [s0, s1, s2, s3, s4, s5, s6, s7, s8, s9, s10, s11, s12, s13, s14, s15] =>
    [s0, s5, s10, s15, s4, s9, s14, s3, s8, s13, s2, s7, s12, s1, s6, s11]
  | s => s

/-- FIPS 197 section 5.1.3. -/
def mixColumns : List Nat → List Nat
  | a :: b :: c :: d :: r =>
    (xtime a ^^^ (xtime b ^^^ b) ^^^ c ^^^ d) :: (a ^^^ xtime b ^^^ (xtime c ^^^ c) ^^^ d) :: (a ^^^ b ^^^ xtime c ^^^ (xtime d ^^^ d)) ::
      ((xtime a ^^^ a) ^^^ b ^^^ c ^^^ xtime d) :: mixColumns r
  | s => s

/-- FIPS 197 section 5.1.4. -/
def addRoundKey (s k : List Nat) : List Nat := List.zipWith (· ^^^ ·) s k

/-- FIPS 197 section 5.2: the next round key, with round constant `rc`. -/
def nextRoundKey (rc : Nat) : List Nat → List Nat
  | [k0, k1, k2, k3, k4, k5, k6, k7, k8, k9, k10, k11, k12, k13, k14, k15] =>
    forceList [k0 ^^^ sbox k13 ^^^ rc, k1 ^^^ sbox k14, k2 ^^^ sbox k15, k3 ^^^ sbox k12] fun w0 =>
    forceList (List.zipWith (· ^^^ ·) w0 [k4, k5, k6, k7]) fun w1 =>
    forceList (List.zipWith (· ^^^ ·) w1 [k8, k9, k10, k11]) fun w2 =>
    forceList (List.zipWith (· ^^^ ·) w2 [k12, k13, k14, k15]) fun w3 =>
    w0 ++ w1 ++ w2 ++ w3
  | k => k

/-- FIPS 197 section 5.2: the round keys from the given one on. -/
def roundKeys : List Nat → List Nat → List (List Nat)
  | [], k => [k]
  | rc :: rcs, k => forceList k fun k => k :: roundKeys rcs (nextRoundKey rc k)

/-- FIPS 197 section 5.1, the rounds after the first key addition. -/
def aesRounds : List (List Nat) → List Nat → List Nat
  | [], s => s
  | [k], s => addRoundKey (shiftRows (s.map sbox)) k
  | k :: ks, s => forceList (s.map sbox) fun s => forceList (addRoundKey (mixColumns (shiftRows s)) k) fun s => aesRounds ks s

/-- The eleven round keys of a 16-byte key. -/
def aesKeys (key : Bytes) : List (List Nat) := roundKeys [0x01, 0x02, 0x04, 0x08, 0x10, 0x20, 0x40, 0x80, 0x1b, 0x36] (key.map (·.toNat))

/-- FIPS 197 section 5.1: the block as a number. -/
def aesBlock (keys : List (List Nat)) (block : Bytes) : Nat :=
  match keys with
  | [] => 0
  | k :: ks => forceList (addRoundKey (block.map (·.toNat)) k) fun s => forceList (aesRounds ks s) fun s => s.foldl (fun a x => a * 256 + x) 0

/-- SP 800-38A section 6.1: `n` blocks. -/
def ecbBlocks (keys : List (List Nat)) : Nat → Bytes → Bytes
  | 0, _ => []
  | n + 1, m => force (aesBlock keys (m.take 16)) fun c => natBytes 16 c ++ ecbBlocks keys n (m.drop 16)

/-- PKCS #7 padding, which `openssl::symm::encrypt` applies: to the next multiple of 16, at least one byte. -/
def pkcs7 (m : Bytes) : Bytes := m ++ List.replicate (16 - m.length % 16) (BitVec.ofNat 8 (16 - m.length % 16))

def aesEcb (key m : Bytes) : Bytes :=
  let p := pkcs7 m
  ecbBlocks (aesKeys key) (p.length / 16) p

/-! ### GCM -/

/-- SP 800-38D algorithm 1: 128 bits of `x` from bit `n - 1` down; blocks are numbers, the first bit highest. -/
def gfMul : Nat → Nat → Nat → Nat → Nat
  | 0, _, z, _ => z
  | n + 1, x, z, v =>
    force (if x.testBit n then z ^^^ v else z) fun z =>
    force (if v % 2 = 0 then v / 2 else (v / 2) ^^^ (0xe1 <<< 120)) fun v =>
    gfMul n x z v

/-- The bytes from `m` as `n` blocks, the last one filled with zeros. -/
def gcmBlocks : Nat → Bytes → List Nat
  | 0, _ => []
  | n + 1, m => bytesNat (m.take 16 ++ List.replicate (16 - m.length) 0) :: gcmBlocks n (m.drop 16)

/-- SP 800-38D algorithm 2. -/
def ghash (h : Nat) : List Nat → Nat → Nat
  | [], y => y
  | b :: bs, y => force (y ^^^ b) fun x => force (gfMul 128 x 0 h) fun y => ghash h bs y

/-- The blocks of a string. -/
def gcmString (m : Bytes) : List Nat := gcmBlocks ((m.length + 15) / 16) m

/-- SP 800-38D algorithm 3: `n` key stream blocks, the counter block before the first being `cb`. -/
def gctr (keys : List (List Nat)) : Nat → Nat → Bytes
  | 0, _ => []
  | n + 1, cb =>
    force (cb / 2 ^ 32 * 2 ^ 32 + (cb + 1) % 2 ^ 32) fun cb =>
    force (aesBlock keys (natBytes 16 cb)) fun c => natBytes 16 c ++ gctr keys n cb

/-- The state common to sealing and opening: round keys, hash key, pre-counter block (SP 800-38D algorithm 4, steps 1 and 2). -/
def gcmStart (key iv : Bytes) (f : List (List Nat) → Nat → Nat → α) : α :=
  let keys := aesKeys key
  force (aesBlock keys (List.replicate 16 0)) fun h =>
  force (if iv.length = 12 then bytesNat iv * 2 ^ 32 + 1 else ghash h (gcmString iv ++ [8 * iv.length]) 0) fun j => f keys h j

/-- SP 800-38D algorithm 4, steps 4 to 6: the 16-byte tag of a ciphertext. -/
def gcmTag (keys : List (List Nat)) (h j : Nat) (ad ct : Bytes) : Bytes :=
  natBytes 16 (ghash h (gcmString ad ++ gcmString ct ++ [8 * ad.length * 2 ^ 64 + 8 * ct.length]) 0 ^^^ aesBlock keys (natBytes 16 j))

/-- The key stream xor. -/
def gcmXor (keys : List (List Nat)) (j : Nat) (m : Bytes) : Bytes := List.zipWith (· ^^^ ·) m (gctr keys ((m.length + 15) / 16) j)

/-- SP 800-38D section 5.2.1.1, the sizes allowed. -/
def gcmSizes (iv ad m : Bytes) : Bool := decide (0 < iv.length ∧ iv.length < 2 ^ 61 ∧ ad.length < 2 ^ 61 ∧ m.length ≤ 2 ^ 36 - 32)

/-- SP 800-38D algorithm 4: ciphertext and tag. -/
def gcmSeal (key iv ad p : Bytes) : Bytes × Bytes :=
  gcmStart key iv fun keys h j => let ct := gcmXor keys j p; (ct, gcmTag keys h j ad ct)

/-- SP 800-38D algorithm 5. -/
def gcmOpen (key iv ad ct tag : Bytes) : Option Bytes :=
  gcmStart key iv fun keys h j => if tag = gcmTag keys h j ad ct then some (gcmXor keys j ct) else none

end Spec
