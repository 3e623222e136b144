import Verif.Spec.RealPrims
import Verif.Model.Packet
/-
The unit tests of the crate that use the cryptographic libraries, replayed on the model with the algorithms of `Verif.Spec.RealPrims`. They are the vectors of RFC 9001 appendix A,
so they also show that the algorithms are transcribed as published, and the model of the packet code as it runs. (The other unit tests are replayed in `Verif.Model`; those
of `ring`, src/packet.rs:963-978 and src/quictls/cipher_suite.rs:199-222, call a library the crate itself does not use: the same values are below.)
-/
namespace QuicSea
open Spec

/-- FIPS 197 section 5.1.1: the S-box is the inverse in GF(2^8), here the 254th power, followed by an affine map. -/
def gf8Mul : Nat → Nat → Nat → Nat
  | 0, _, _ => 0
  | n + 1, a, b => (if b % 2 = 1 then a else 0) ^^^ gf8Mul n (xtime a) (b / 2)
/-- `r` times the 2nd, 4th, …, `2^n`-th power of `a`. -/
def gf8Powers : Nat → Nat → Nat → Nat
  | 0, _, r => r
  | n + 1, a, r => force (gf8Mul 8 a a) fun a => force (gf8Mul 8 r a) fun r => gf8Powers n a r
def gf8Inv (a : Nat) : Nat := gf8Powers 7 a 1
def affine (b : Nat) : Nat := (List.range 8).foldl (fun r i =>
  r + 2 ^ i * ((b.testBit i).toNat ^^^ (b.testBit ((i + 4) % 8)).toNat ^^^ (b.testBit ((i + 5) % 8)).toNat ^^^ (b.testBit ((i + 6) % 8)).toNat ^^^
    (b.testBit ((i + 7) % 8)).toNat ^^^ (Nat.testBit 0x63 i).toNat)) 0
theorem sbox_eq : ∀ x < 256, sbox x = affine (gf8Inv x) := by decide +kernel

namespace Vectors

/-- src/packet.rs:870-881 `SAMPLE_CRYPTO_FRAME`. -/
def cryptoFrame : Bytes :=
  natBytes 64 0x060040f1010000ed0303ebf8fa56f12939b9584a3896472ec40bb863cfd3e86804fe3a47f06a2b69484c00000413011302010000c000000010000e00000b6578
  ++ natBytes 64 0x616d706c652e636f6dff01000100000a00080006001d0017001800100007000504616c706e000500050100000000003300260024001d00209370b2c9caa47fba
  ++ natBytes 64 0xbaf4559fedba753de171fa71f50f1ce15d43e994ec74d748002b0003020304000d0010000e0403050306030203080408050806002d00020101001c0002400100
  ++ natBytes 53 0x3900320408ffffffffffffffff05048000ffff07048000ffff0801100104800075300901100f088394c8f03e51570806048000ffff
/-- src/quictls/secrets.rs:126-166 `SAMPLE_FRAME_DATA`: the same, padded. -/
def frameData : Bytes := cryptoFrame ++ List.replicate 917 0
/-- src/quictls/secrets.rs:168-208 `SAMPLE_FRAME_DATA_ENC`. -/
def frameDataEnc : Bytes :=
  natBytes 64 0xd1b1c98dd7689fb8ec11d242b123dc9bd8bab936b47d92ec356c0bab7df5976d27cd449f63300099f3991c260ec4c60d17b31f8429157bb35a1282a643a8d226
  ++ natBytes 64 0x2cad67500cadb8e7378c8eb7539ec4d4905fed1bee1fc8aafba17c750e2c7ace01e6005f80fcb7df621230c83711b39343fa028cea7f7fb5ff89eac2308249a0
  ++ natBytes 64 0x2252155e2347b63d58c5457afd84d05dfffdb20392844ae812154682e9cf012f9021a6f0be17ddd0c2084dce25ff9b06cde535d0f920a2db1bf362c23e596d11
  ++ natBytes 64 0xa4f5a6cf3948838a3aec4e15daf8500a6ef69ec4e3feb6b1d98e610ac8b7ec3faf6ad760b7bad1db4ba3485e8a94dc250ae3fdb41ed15fb6a8e5eba0fc3dd60b
  ++ natBytes 64 0xc8e30c5c4287e53805db059ae0648db2f64264ed5e39be2e20d82df566da8dd5998ccabdae053060ae6c7b4378e846d29f37ed7b4ea9ec5d82e7961b7f25a932
  ++ natBytes 64 0x3851f681d582363aa5f89937f5a67258bf63ad6f1a0b1d96dbd4faddfcefc5266ba6611722395c906556be52afe3f565636ad1b17d508b73d8743eeb524be22b
  ++ natBytes 64 0x3dcbc2c7468d54119c7468449a13d8e3b95811a198f3491de3e7fe942b330407abf82a4ed7c1b311663ac69890f4157015853d91e923037c227a33cdd5ec281c
  ++ natBytes 64 0xa3f79c44546b9d90ca00f064c99e3dd97911d39fe9c5d0b23a229a234cb36186c4819e8b9c5927726632291d6a418211cc2962e20fe47feb3edf330f2c603a9d
  ++ natBytes 64 0x48c0fcb5699dbfe5896425c5bac4aee82e57a85aaf4e2513e4f05796b07ba2ee47d80506f8d2c25e50fd14de71e6c418559302f939b0e1abd576f279c4b2e0fe
  ++ natBytes 64 0xb85c1f28ff18f58891ffef132eef2fa09346aee33c28eb130ff28f5b766953334113211996d20011a198e3fc433f9f2541010ae17c1bf202580f6047472fb368
  ++ natBytes 64 0x57fe843b19f5984009ddc324044e847a4f4a0ab34f719595de37252d6235365e9b84392b061085349d73203a4a13e96f5432ec0fd4a1ee65accdd5e3904df54c
  ++ natBytes 64 0x1da510b0ff20dcc0c77fcb2c0e0eb605cb0504db87632cf3d8b4dae6e705769d1de354270123cb11450efc60ac47683d7b8d0f811365565fd98c4c8eb936bcab
  ++ natBytes 64 0x8d069fc33bd801b03adea2e1fbc5aa463d08ca19896d2bf59a071b851e6c239052172f296bfb5e72404790a2181014f3b94a4e97d117b438130368cc39dbb2d1
  ++ natBytes 64 0x98065ae3986547926cd2162f40a29f0c3c8745c0f50fba3852e566d44575c29d39a03f0cda721984b6f440591f355e12d439ff150aab7613499dbd49adabc867
  ++ natBytes 64 0x6eef023b15b65bfc5ca06948109f23f350db82123535eb8a7433bdabcb909271a6ecbcb58b936a88cd4e8f2e6ff5800175f113253d8fa9ca8885c2f552e657dc
  ++ natBytes 64 0x603f252e1a8e308f76f0be79e2fb8f5d5fbbe2e30ecadd220723c8c0aea8078cdfcb3868263ff8f0940054da48781893a7e49ad5aff4af300cd804a6b6279ab3
  ++ natBytes 64 0xff3afb64491c85194aab760d58a606654f9f4400e8b38591356fbf6425aca26dc85244259ff2b19c41b9f96f3ca9ec1dde434da7d2d392b905ddf3d1f9af93d1
  ++ natBytes 64 0xaf5950bd493f5aa731b4056df31bd267b6b90a079831aaf579be0a39013137aac6d404f518cfd46840647e78bfe706ca4cf5e9c5453e9f7cfd2b8b4c8d169a44
  ++ natBytes 10 0xe55c88d4a9a7f9474241
/-- src/quictls/secrets.rs:210 `SAMPLE_FRAME_DATA_ENC_TAG`. -/
def frameDataEncTag : Bytes := natBytes 16 0xe221af44860018ab0856972e194cd934
/-- src/packet.rs:827-868 `SAMPLE_PACKET_DATA`. -/
def packetData : Bytes := natBytes 22 0xc000000001088394c8f03e5157080000449e7b9aec34 ++ frameDataEnc ++ frameDataEncTag
/-- The connection id of the tests, src/quictls/secrets.rs:117. -/
def cid : Bytes := natBytes 8 0x8394c8f03e515708
/-- src/quictls/secrets.rs:216: the associated data. -/
def associatedData : Bytes := natBytes 22 0xc300000001088394c8f03e5157080000449e00000002
/-- src/quictls/secrets.rs:215. -/
def clientSecret : Bytes := natBytes 32 0xc00cf151ca5be075ed0ebfb5c80323c42d6b7db67881289af4008f1f6c357aea
/-- src/quictls/secrets.rs:116. -/
def initialSecret : Bytes := natBytes 32 0x7db5df06e7a69e432496adedb00851923595221596ae2ae9fb8115c1e9ed0a44
/-- src/quictls/cipher_suite.rs:308. -/
def serverSecret : Bytes := natBytes 32 0x3c199828fd139efd216c155ad844cc81fb82fa8d7446fa7d78be803acdda951b

/-- src/quictls/secrets.rs:113-123 and src/quictls/cipher_suite.rs:365-375 `test_initial_keys`. -/
example : hkdfExtractSha256 real (some KDF_INITIAL_SALT_V1) cid = initialSecret := by decide +kernel
/-- src/quictls/cipher_suite.rs:246-363 `sample_expand_test_cases`, which includes 224-237 `test_hkdf_expand_label_sha256`. -/
example : hkdfExpandLabelSha256 real initialSecret CLIENT_INITIAL_SECRET_LABEL [] 32 = .ok clientSecret ∧
    hkdfExpandLabelSha256 real clientSecret KEY_LABEL [] 16 = .ok (natBytes 16 0x1f369613dd76d5467730efcbe3b1a22d) ∧
    hkdfExpandLabelSha256 real clientSecret INITIAL_VECTOR_LABEL [] 12 = .ok (natBytes 12 0xfa044b2f42a3fd3b46fb255c) ∧
    hkdfExpandLabelSha256 real clientSecret HEADER_PROTECTION_LABEL [] 16 = .ok (natBytes 16 0x9f50449e04a0e810283a1e9933adedd2) ∧
    hkdfExpandLabelSha256 real initialSecret SERVER_INITIAL_SECRET_LABEL [] 32 = .ok serverSecret ∧
    hkdfExpandLabelSha256 real serverSecret KEY_LABEL [] 16 = .ok (natBytes 16 0xcf3a5331653c364c88f0f379b6067e37) ∧
    hkdfExpandLabelSha256 real serverSecret INITIAL_VECTOR_LABEL [] 12 = .ok (natBytes 12 0x0ac1493ca1905853b0bba03e) ∧
    hkdfExpandLabelSha256 real serverSecret HEADER_PROTECTION_LABEL [] 16 = .ok (natBytes 16 0xc206b8d9b9f0f37644430b490eeaa314) := by decide +kernel
/-- src/quictls/cipher_suite.rs:377-388 `test_hp_mask_aes_128_ecb`. -/
example : hpMaskAes128Ecb real (natBytes 16 0x9f50449e04a0e810283a1e9933adedd2) (natBytes 16 0xd1b1c98dd7689fb8ec11d242b123dc9b) =
    .ok ⟨0x43, 0x7b, 0x9a, 0xec, 0x36⟩ := by decide +kernel
/-- src/quictls/secrets.rs:255-270 `test_initial_secrets`. -/
example : (do
    let s ← Secrets.fromInitial real false cid .v1
    pure (s.key, s.hp, s.iv) : Out _) =
    .ok (natBytes 16 0x1f369613dd76d5467730efcbe3b1a22d, natBytes 16 0x9f50449e04a0e810283a1e9933adedd2, some (natBytes 12 0xfa044b2f42a3fd3b46fb255c)) := by decide +kernel
/-- src/quictls/secrets.rs:212-232 `sample_payload_encrypt`. -/
example : (do
    let s ← Secrets.fromSecret (TLS13_AES_128_GCM_SHA256 real) clientSecret
    s.encryptPayload frameData (some associatedData) 2) = .ok (frameDataEnc ++ frameDataEncTag) := by decide +kernel
/-- src/quictls/secrets.rs:234-253 `sample_payload_decrypt`. -/
example : (do
    let s ← Secrets.fromSecret (TLS13_AES_128_GCM_SHA256 real) clientSecret
    s.decryptPayload (frameDataEnc ++ frameDataEncTag) (some associatedData) 2) = .ok frameData := by decide +kernel

/-- src/packet.rs:883-895 `test_packet_initial`. -/
def testPacketInitial (bp : Profile) (packetData : Bytes) : Out PacketInitial := do
  let header ← (nextHeaderFromStream (makeResultStream packetData)).1.unwrap
  let connection ← (Connection.new real true .v1 header.getDestinationId header.getDestinationIdLength.toNat).unwrap
  (PacketInitial.fromStream bp connection (makeResultStream packetData)).1.unwrap
/-- src/packet.rs:915-922: the frames of the packet, a CRYPTO frame read from `SAMPLE_CRYPTO_FRAME` and 917 times PADDING. -/
def sampleFrames : Out (List Frame) := do
  let cryptoFrame ← (deserializeFrame (makeResultStream cryptoFrame)).1.unwrap
  pure (cryptoFrame :: List.replicate 917 .padding)
/-- src/packet.rs:923-952: the packet, and the connection of a client. -/
def samplePacket : Out (PacketInitial × Connection) := do
  let frames ← sampleFrames
  let connection ← (Connection.new real false .v1 (.ofU64 9481424049684961032) 8).unwrap
  let connection := connection.setScid .zero 0
  let headerByte := PacketInitial.newHeaderByte 0x3
  let (scid, scidLength) ← connection.getScid.unwrap
  let header : LongPacketHeader :=
    { headerByte, version := connection.getVersionField, destinationConnectionIdLength := connection.getDcid.2, destinationConnectionId := connection.getDcid.1,
      sourceConnectionIdLength := scidLength, sourceConnectionId := scid, versionNegotiation := none, isProtected := false }
  pure ({ header, token := [], packetNumber := 2, packetNumberBytes := [0, 0, 0, 2], packetPayload := frames }, connection)

/-- src/packet.rs:913-962 `serialize_sample_initial_packet`. -/
example : (do let (p, c) ← samplePacket; (p.serialize c).unwrap) = .ok packetData := by decide +kernel
/-- src/packet.rs:897-900 `sample_initial_packet`, and more than the test asks: what is read is the packet that was written above. -/
example : (do let (p, _) ← samplePacket; let q ← testPacketInitial .debug packetData; pure (decide (q = p)) : Out Bool) = .ok true := by decide +kernel

end Vectors

end QuicSea
