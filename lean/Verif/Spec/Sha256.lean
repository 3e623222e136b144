import Verif.Model.Basic
/-
SHA-256 (FIPS 180-4), HMAC (FIPS 198-1) and HKDF (RFC 5869), on numbers, in a form the kernel can evaluate.
-/
namespace Spec
open QuicSea

/-- `f n`; evaluates `n` first. -/
def force (n : Nat) (f : Nat → α) : α :=
  match n with
  | 0 => f 0
  | m + 1 => f (m + 1)

/-- `f l`; evaluates the elements of `l` first. -/
def forceList : List Nat → (List Nat → α) → α
  | [], f => f []
  | x :: xs, f => force x fun x => forceList xs fun xs => f (x :: xs)

/-- `n` in `len` bytes, big-endian. -/
def natBytes : Nat → Nat → Bytes
  | 0, _ => []
  | len + 1, n => BitVec.ofNat 8 (n >>> (8 * len)) :: natBytes len n

/-- The number with the given big-endian bytes. -/
def bytesNat (b : Bytes) : Nat := go 0 b
where
  go : Nat → Bytes → Nat
    | acc, [] => acc
    | acc, x :: xs => force (acc * 256 + x.toNat) fun acc => go acc xs

/-! ### SHA-256 -/

/-- FIPS 180-4 section 4.2.2. -/
def sha256K : List Nat :=
  [0x428a2f98, 0x71374491, 0xb5c0fbcf, 0xe9b5dba5, 0x3956c25b, 0x59f111f1, 0x923f82a4, 0xab1c5ed5,
   0xd807aa98, 0x12835b01, 0x243185be, 0x550c7dc3, 0x72be5d74, 0x80deb1fe, 0x9bdc06a7, 0xc19bf174,
   0xe49b69c1, 0xefbe4786, 0x0fc19dc6, 0x240ca1cc, 0x2de92c6f, 0x4a7484aa, 0x5cb0a9dc, 0x76f988da,
   0x983e5152, 0xa831c66d, 0xb00327c8, 0xbf597fc7, 0xc6e00bf3, 0xd5a79147, 0x06ca6351, 0x14292967,
   0x27b70a85, 0x2e1b2138, 0x4d2c6dfc, 0x53380d13, 0x650a7354, 0x766a0abb, 0x81c2c92e, 0x92722c85,
   0xa2bfe8a1, 0xa81a664b, 0xc24b8b70, 0xc76c51a3, 0xd192e819, 0xd6990624, 0xf40e3585, 0x106aa070,
   0x19a4c116, 0x1e376c08, 0x2748774c, 0x34b0bcb5, 0x391c0cb3, 0x4ed8aa4a, 0x5b9cca4f, 0x682e6ff3,
   0x748f82ee, 0x78a5636f, 0x84c87814, 0x8cc70208, 0x90befffa, 0xa4506ceb, 0xbef9a3f7, 0xc67178f2]

/-- FIPS 180-4 section 2.2.2, on 32-bit words. -/
def rotr (n x : Nat) : Nat := (x >>> n) ||| ((x <<< (32 - n)) % 2 ^ 32)
def add32 (x y : Nat) : Nat := (x + y) % 2 ^ 32

/-- FIPS 180-4 section 4.1.2. -/
def shaCh (x y z : Nat) : Nat := (x &&& y) ^^^ ((x ^^^ 0xffffffff) &&& z)
def shaMaj (x y z : Nat) : Nat := (x &&& y) ^^^ (x &&& z) ^^^ (y &&& z)
def shaS0 (x : Nat) : Nat := rotr 2 x ^^^ rotr 13 x ^^^ rotr 22 x
def shaS1 (x : Nat) : Nat := rotr 6 x ^^^ rotr 11 x ^^^ rotr 25 x
def shas0 (x : Nat) : Nat := rotr 7 x ^^^ rotr 18 x ^^^ (x >>> 3)
def shas1 (x : Nat) : Nat := rotr 17 x ^^^ rotr 19 x ^^^ (x >>> 10)

/-- The eight working variables or hash words. -/
structure Sha where
  a : Nat
  b : Nat
  c : Nat
  d : Nat
  e : Nat
  f : Nat
  g : Nat
  h : Nat

/-- FIPS 180-4 section 5.3.3. -/
def sha256Init : Sha := ⟨0x6a09e667, 0xbb67ae85, 0x3c6ef372, 0xa54ff53a, 0x510e527f, 0x9b05688c, 0x1f83d9ab, 0x5be0cd19⟩

/-- FIPS 180-4 section 6.2.2 step 3; the window holds the next sixteen words of the message schedule (step 1). -/
def shaRounds : List Nat → List Nat → Sha → Sha
  | k :: ks, w0 :: w1 :: ws, s =>
    force (add32 (shas1 (ws.getD 12 0)) (add32 (ws.getD 7 0) (add32 (shas0 w1) w0))) fun w16 =>
    force (add32 s.h (add32 (shaS1 s.e) (add32 (shaCh s.e s.f s.g) (add32 k w0)))) fun t1 =>
    force (add32 t1 (add32 (shaS0 s.a) (shaMaj s.a s.b s.c))) fun a =>
    force (add32 s.d t1) fun e =>
    shaRounds ks (w1 :: (ws ++ [w16])) ⟨a, s.a, s.b, s.c, e, s.e, s.f, s.g⟩
  | _, _, s => s

/-- FIPS 180-4 section 6.2.2 for one block of sixteen words. -/
def shaBlock (w : List Nat) (s : Sha) : Sha :=
  let t := shaRounds sha256K w s
  forceList [add32 s.a t.a, add32 s.b t.b, add32 s.c t.c, add32 s.d t.d, add32 s.e t.e, add32 s.f t.f, add32 s.g t.g, add32 s.h t.h] fun
    | [a, b, c, d, e, f, g, h] => ⟨a, b, c, d, e, f, g, h⟩
    | _ => s

/-- Bytes as 32-bit words. -/
def shaWords : Bytes → List Nat
  | a :: b :: c :: d :: r => (a.toNat * 2 ^ 24 + b.toNat * 2 ^ 16 + c.toNat * 2 ^ 8 + d.toNat) :: shaWords r
  | _ => []

/-- FIPS 180-4 section 5.1.1: a 1 bit, zeros and the length in bits, to a multiple of 64 bytes. -/
def shaPad (m : Bytes) : Bytes := m ++ 0x80 :: (List.replicate ((119 - m.length % 64) % 64) 0 ++ natBytes 8 (8 * m.length))

/-- `n` blocks. -/
def shaBlocks : Nat → List Nat → Sha → Sha
  | 0, _, s => s
  | n + 1, w, s => forceList (w.take 16) fun b => shaBlocks n (w.drop 16) (shaBlock b s)

/-- FIPS 180-4 section 6.2. -/
def sha256 (m : Bytes) : Bytes :=
  let w := shaWords (shaPad m)
  let s := shaBlocks (w.length / 16) w sha256Init
  natBytes 4 s.a ++ natBytes 4 s.b ++ natBytes 4 s.c ++ natBytes 4 s.d ++ natBytes 4 s.e ++ natBytes 4 s.f ++ natBytes 4 s.g ++ natBytes 4 s.h

/-- FIPS 198-1 section 4, with SHA-256 (block size 64). -/
def hmacSha256 (key m : Bytes) : Bytes :=
  let k0 := if key.length > 64 then sha256 key else key
  let k := k0 ++ List.replicate (64 - k0.length) 0
  sha256 (k.map (· ^^^ 0x5c) ++ sha256 (k.map (· ^^^ 0x36) ++ m))

/-- RFC 5869 section 2.2; without a salt, 32 zero bytes. -/
def hkdfExtract (salt : Option Bytes) (ikm : Bytes) : Bytes := hmacSha256 (salt.getD (List.replicate 32 0)) ikm

/-- RFC 5869 section 2.3: `T(i+1) | T(i+2) | …`, `n` blocks, after `T(i) = t`. -/
def hkdfBlocks (prk info : Bytes) : Nat → Bytes → Nat → Bytes
  | 0, _, _ => []
  | n + 1, t, i =>
    let t' := hmacSha256 prk (t ++ info ++ [BitVec.ofNat 8 (i + 1)])
    t' ++ hkdfBlocks prk info n t' (i + 1)

/-- RFC 5869 section 2.3. -/
def hkdfExpand (prk info : Bytes) (len : Nat) : Bytes := (hkdfBlocks prk info ((len + 31) / 32) [] 0).take len

end Spec
