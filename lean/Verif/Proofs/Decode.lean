import Verif.Proofs.PacketInv
/-
Panics, missing keys, misaligned packet numbers, Version Negotiation and the loop over coalesced packets.
-/
namespace QuicSea
open Spec

/-! ### panics -/

theorem subUsize_ok {bp : Profile} {a b : Nat} (h : b ≤ a) : subUsize bp a b = .ok (a - b) := by
  unfold subUsize; rw [if_pos h]

/-- When a tail whose ciphertext length comes from the Length field panics. -/
theorem tail_panic_iff {P : Prims} (hP : PrimLaws P) {bp : Profile} {c : Connection} {sp : PnSpace} {whole : Bool} {lenOf : Mask → Out Nat}
    {hdr : Mask → Out Bytes} {L : U64} {mid : Bytes} {k : Keys} (hk : c.remoteSecrets sp = .ok (secretsOf P k))
    (hkl : k.hp.length = 16) {first : Mask → U8} (hlen : ∀ m, lenOf m = .ok ((first m).toNat % 4 + 1)) (hhdr : ∀ m, ∃ b, hdr m = .ok b)
    (hack : (c.pnInfo sp).largestRemoteAck = none) {s : Stream} :
    (tail bp c sp whole lenOf hdr (lenBytes bp L) mid s).1.isPanic = true ↔
    ∃ pnP smp s1 m, s = makeResultStream (pnP ++ smp) ++ s1 ∧ pnP.length = 4 ∧ smp.length = 16 ∧ hpMaskAes128Ecb P k.hp smp = .ok m ∧
      ((first m).toNat % 4 + 1 ≤ L.toNat ∧ L.toNat < (first m).toNat % 4 + 1 + 16 ∨ bp = .debug ∧ L.toNat < (first m).toNat % 4 + 1) := by
  constructor
  · intro h
    obtain ⟨pnP, s1, n, m, smp, s3, e1, e2, e3, e4, e5, e6, e7⟩ := tail_panic hP hk hkl (fun m => ⟨_, hlen m, by omega⟩)
      (fun m => by obtain ⟨b, e⟩ := hhdr m; rw [e]; rfl) hack h
    rw [hlen m] at e3
    cases e3
    refine ⟨pnP, smp, s3, m, by rw [e1, e4, makeResultStream_append, List.append_assoc], e2, e5, e6, ?_⟩
    unfold lenBytes at e7
    by_cases hL : (first m).toNat % 4 + 1 ≤ L.toNat
    · rw [subUsize_ok hL] at e7
      rcases e7 with e7 | ⟨data, s2, e7, e8⟩
      · obtain ⟨a, _, e7⟩ := Rd.lift_bind_isPanic e7 rfl
        rw [varBytes_noPanic a s1] at e7
        cases e7
      · rw [Rd.bind_ok (Rd.lift_apply _ _)] at e7
        obtain ⟨bs, _, _, l⟩ := varBytes_sound _ _ _ _ e7
        left; omega
    · cases bp with
      | debug => exact .inr ⟨rfl, by omega⟩
      | release =>
        exfalso
        have hs : subUsize .release L.toNat ((first m).toNat % 4 + 1) = .ok (2 ^ 64 + L.toNat - ((first m).toNat % 4 + 1)) := by
          unfold subUsize; rw [if_neg hL]
        rw [hs] at e7
        rcases e7 with e7 | ⟨data, s2, e7, e8⟩
        · obtain ⟨a, _, e7⟩ := Rd.lift_bind_isPanic e7 rfl
          rw [varBytes_noPanic a s1] at e7
          cases e7
        · rw [Rd.bind_ok (Rd.lift_apply _ _)] at e7
          obtain ⟨bs, _, _, l⟩ := varBytes_sound _ _ _ _ e7
          omega
  · rintro ⟨pnP, smp, s1, m, rfl, h1, h2, h3, h4⟩
    have hle : (if whole then pnP.zipWith (· ^^^ ·) (maskList m) else (pnP.zipWith (· ^^^ ·) (maskList m)).take ((first m).toNat % 4 + 1)).length ≤ 4 := by
      split
      · simp [h1, maskList]
      · rw [List.length_take]; omega
    rw [makeResultStream_append, List.append_assoc, tail_eval hk h1 rfl h2 h3 (hlen m) (by omega) (reconstruct_none bp c sp _ hle hack)]
    rw [Rd.bind_apply]
    unfold lenBytes
    rcases h4 with ⟨h4, h5⟩ | ⟨rfl, h4⟩
    · rw [subUsize_ok h4, Rd.bind_ok (Rd.lift_apply _ _)]
      have hsp : makeResultStream smp ++ s1 = makeResultStream (smp.take (L.toNat - ((first m).toNat % 4 + 1))) ++
          (makeResultStream (smp.drop (L.toNat - ((first m).toNat % 4 + 1))) ++ s1) := by
        rw [← List.append_assoc, ← makeResultStream_append, List.take_append_drop]
      rw [hsp, varBytes_reads' (by rw [List.length_take]; omega) _]
      dsimp only
      obtain ⟨b, hb⟩ := hhdr m
      unfold tailEnd
      rw [Rd.bind_ok (a := b) (by rw [Rd.lift_apply, hb])]
      rw [Rd.bind_apply, Rd.lift_apply, decrypt_eq hk]
      have : (internalDecryptAes128Gcm P k.key (packetNonce k.iv (BitVec.ofNat 64 (beNat (if whole then pnP.zipWith (· ^^^ ·) (maskList m) else (pnP.zipWith (· ^^^ ·) (maskList m)).take ((first m).toNat % 4 + 1)))))
          (b ++ mid ++ (pnP.zipWith (· ^^^ ·) (maskList m)).take ((first m).toNat % 4 + 1)) (smp.take (L.toNat - ((first m).toNat % 4 + 1)))).isPanic = true :=
        internalDecrypt_panic.mpr (by rw [List.length_take]; omega)
      cases hd : (internalDecryptAes128Gcm P k.key (packetNonce k.iv (BitVec.ofNat 64 (beNat (if whole then pnP.zipWith (· ^^^ ·) (maskList m) else (pnP.zipWith (· ^^^ ·) (maskList m)).take ((first m).toNat % 4 + 1)))))
          (b ++ mid ++ (pnP.zipWith (· ^^^ ·) (maskList m)).take ((first m).toNat % 4 + 1)) (smp.take (L.toNat - ((first m).toNat % 4 + 1)))) with
      | ok a => rw [hd] at this; cases this
      | err a => rw [hd] at this; cases this
      | panic a => rfl
    · have hs : subUsize .debug L.toNat ((first m).toNat % 4 + 1) = .panic "attempt to subtract with overflow" := by
        unfold subUsize; rw [if_neg (by omega)]
      rw [hs]
      rfl

/-- When decoding an Initial packet panics. -/
theorem initial_panic_iff {P : Prims} (hP : PrimLaws P) {bp : Profile} {c : Connection} {k : Keys}
    (hk : c.remoteSecrets .initial = .ok (secretsOf P k)) (hkl : k.hp.length = 16) (hack : (c.pnInfo .initial).largestRemoteAck = none)
    {s s1 : Stream} {x : LongPacketHeader} (hx : nextHeaderFromStream s = (.ok (.long x), s1))
    (hkind : packetKind x.headerByte x.version = .initial) :
    (PacketInitial.fromStream bp c s).1.isPanic = true ↔
    ∃ tl tok lb L pnP smp s2 m, s1 = makeResultStream (tl ++ tok ++ lb ++ pnP ++ smp) ++ s2 ∧ IsVarInt tl tok.length ∧ IsVarInt lb L ∧
      pnP.length = 4 ∧ smp.length = 16 ∧ hpMaskAes128Ecb P k.hp smp = .ok m ∧
      ((x.headerByte ^^^ (m.m0 &&& 0x0f)).toNat % 4 + 1 ≤ L ∧ L < (x.headerByte ^^^ (m.m0 &&& 0x0f)).toNat % 4 + 1 + 16 ∨
        bp = .debug ∧ L < (x.headerByte ^^^ (m.m0 &&& 0x0f)).toNat % 4 + 1) := by
  obtain ⟨hb, e0, hf, h128, hp, r1, r2⟩ := long_prefix hx
  have hv : x.version.toNat ≠ 0 := kind_version (by rw [hkind]; decide) (by rw [hkind]; decide)
  rw [hkind] at hp
  have hrem := removeProtection_long (x := x) hp
  have hlen : ∀ m, (x.removeProtection m).packetNumberLength = .ok ((x.headerByte ^^^ (m.m0 &&& 0x0f)).toNat % 4 + 1) := by
    intro m; rw [hrem]; exact pnLength_eq.mpr ⟨rfl, rfl⟩
  have hhdr : ∀ m, ∃ b, (x.removeProtection m).toBytes = .ok b := by
    intro m; rw [hrem]
    exact ⟨_, longFields_toBytes (h := { x with headerByte := x.headerByte ^^^ (m.m0 &&& 0x0f), isProtected := false }) hv (unprot_fields hf)⟩
  rw [initial_eq, Rd.bind_ok r1, Rd.bind_ok r2]
  constructor
  · intro h
    obtain ⟨⟨t, tl⟩, s2, g1, h1⟩ := Rd.bind_isPanic' h varIntWithBytes_noPanic
    obtain ⟨tok, s3, g2, h2⟩ := Rd.bind_isPanic' h1 (varBytes_noPanic _)
    obtain ⟨⟨l, lb⟩, s4, g3, h3⟩ := Rd.bind_isPanic' h2 varIntWithBytes_noPanic
    clear h h1 h2
    obtain ⟨b1, a1, a2, a3⟩ := varIntWithBytes_sound _ _ _ g1
    obtain ⟨b2, c1, c2, c3⟩ := varBytes_sound _ _ _ _ g2
    obtain ⟨b3, d1, d2, d3⟩ := varIntWithBytes_sound _ _ _ g3
    dsimp only at a2 a3 d2 d3 c3 h3
    subst c2
    subst tl lb
    rcases Rd.bind_isPanic h3 with h3 | ⟨_, _, _, h3⟩
    · obtain ⟨pnP, smp, s5, m, f1, f2, f3, f4, f5⟩ :=
        (tail_panic_iff hP hk hkl (first := fun m => x.headerByte ^^^ (m.m0 &&& 0x0f)) hlen hhdr hack).mp h3
      exact ⟨b1, b2, b3, l.toNat, pnP, smp, s5, m, by rw [a1, c1, d1, f1]; simp, by rw [c3]; exact a3, d3, f2, f3, f4, f5⟩
    · cases h3
  · rintro ⟨tl, tok, lb, L, pnP, smp, s2, m, rfl, ht, hl, f2, f3, f4, f5⟩
    have hl64 : (BitVec.ofNat 64 L).toNat = L := ofNat64_toNat (by have := hl.lt; omega)
    have ht64 : (BitVec.ofNat 64 tok.length).toNat = tok.length := ofNat64_toNat (by have := ht.lt; omega)
    simp only [makeResultStream_append, List.append_assoc]
    rw [Rd.bind_ok (varIntWithBytes_reads (v := BitVec.ofNat 64 tok.length) (by rw [ht64]; exact ht) _)]
    rw [Rd.bind_ok (varBytes_reads' (by rw [ht64]) _)]
    rw [Rd.bind_ok (varIntWithBytes_reads (v := BitVec.ofNat 64 L) (by rw [hl64]; exact hl) _)]
    have h3 := (tail_panic_iff (bp := bp) (whole := false) (mid := tl ++ tok ++ lb) (L := BitVec.ofNat 64 L) (s := makeResultStream (pnP ++ smp) ++ s2) hP hk hkl
      (first := fun m => x.headerByte ^^^ (m.m0 &&& 0x0f)) hlen hhdr hack).mpr ⟨pnP, smp, s2, m, rfl, f2, f3, f4, by rw [hl64]; exact f5⟩
    rw [show makeResultStream (pnP ++ smp) ++ s2 = makeResultStream pnP ++ (makeResultStream smp ++ s2) by simp] at h3
    rw [← List.append_assoc tl, Rd.bind_apply]
    cases ht : tail bp c .initial false (fun m => (x.removeProtection m).packetNumberLength) (fun m => (x.removeProtection m).toBytes)
        (lenBytes bp (BitVec.ofNat 64 L)) (tl ++ tok ++ lb) (makeResultStream pnP ++ (makeResultStream smp ++ s2)) with
    | mk o s3 =>
      rw [ht] at h3
      cases o with
      | ok a => cases h3
      | err a => cases h3
      | panic a => rfl

/-! ### no keys -/

theorem Rd.bind_isErr {m : Rd α} {f : α → Rd β} {s : Stream} (hm : NoPanic m) (hf : ∀ a s', m s = (.ok a, s') → (f a s').1.isErr = true) :
    ((m >>= f) s).1.isErr = true := by
  rw [Rd.bind_apply]
  rcases h : m s with ⟨o, s'⟩
  cases o with
  | ok a => exact hf a s' h
  | err e => rfl
  | panic w => have := hm s; rw [h] at this; cases this
theorem Rd.bind_isErr' {m : Rd α} {f : α → Rd β} {s : Stream} (hm : (m s).1.isErr = true) : ((m >>= f) s).1.isErr = true := by
  rw [Rd.bind_apply]
  rcases h : m s with ⟨o, s'⟩
  rw [h] at hm
  cases o with
  | err e => rfl
  | ok a => cases hm
  | panic w => cases hm
theorem handshake_noKeys {bp : Profile} {c : Connection} {e : Error} (hk : c.remoteSecrets .handshake = .err e) (s : Stream) :
    (PacketHandshake.fromStream bp c s).1.isErr = true := by
  rw [handshake_eq]
  exact Rd.bind_isErr u8_noPanic fun _ _ _ => Rd.bind_isErr (long_noPanic _) fun _ _ _ => Rd.bind_isErr varIntWithBytes_noPanic fun _ _ _ =>
    Rd.bind_isErr' (tail_noKeys hk _)
theorem zeroRtt_noKeys {bp : Profile} {c : Connection} {e : Error} (hk : c.remoteSecrets .application = .err e) (s : Stream) :
    (PacketZeroRtt.fromStream bp c s).1.isErr = true := by
  rw [zeroRtt_eq]
  exact Rd.bind_isErr u8_noPanic fun _ _ _ => Rd.bind_isErr (long_noPanic _) fun _ _ _ => Rd.bind_isErr varIntWithBytes_noPanic fun _ _ _ =>
    Rd.bind_isErr' (tail_noKeys hk _)
theorem oneRtt_noKeys {bp : Profile} {c : Connection} {e : Error} (hk : c.remoteSecrets .application = .err e) (s : Stream) :
    (PacketOneRtt.fromStream bp c s).1.isErr = true := by
  rw [oneRtt_eq]
  exact Rd.bind_isErr u8_noPanic fun _ _ _ => Rd.bind_isErr (short_noPanic _) fun _ _ _ => Rd.bind_isErr' (tail_noKeys hk _)
theorem initial_noKeys {bp : Profile} {c : Connection} {e : Error} (hk : c.remoteSecrets .initial = .err e) (s : Stream) :
    (PacketInitial.fromStream bp c s).1.isErr = true := by
  rw [initial_eq]
  exact Rd.bind_isErr u8_noPanic fun _ _ _ => Rd.bind_isErr (long_noPanic _) fun _ _ _ => Rd.bind_isErr varIntWithBytes_noPanic fun _ _ _ =>
    Rd.bind_isErr (varBytes_noPanic _) fun _ _ _ => Rd.bind_isErr varIntWithBytes_noPanic fun _ _ _ => Rd.bind_isErr' (tail_noKeys hk _)

/-- Connections reachable through the API: Initial keys of both directions, nothing else. -/
theorem reachable_keys {P : Prims} (hP : PrimLaws P) {bp : Profile} {c : Connection} (h : Connection.Reachable P bp c) :
    (∃ kl kr, KeyLens kl ∧ KeyLens kr ∧ c.localSecrets .initial = .ok (secretsOf P kl) ∧ c.remoteSecrets .initial = .ok (secretsOf P kr)) ∧
    ∀ sp, sp ≠ .initial → (∃ e, c.localSecrets sp = .err e) ∧ ∃ e, c.remoteSecrets sp = .err e := by
  obtain ⟨srv, v, d, n, c0, ops, hn, rfl⟩ := h
  obtain ⟨cid, kl, kr, _, h1, h2, rfl⟩ := new_ok' hn
  refine ⟨⟨kl, kr, initialKeys_lens hP h1, initialKeys_lens hP h2, ?_, ?_⟩, ?_⟩
  · unfold Connection.localSecrets; rw [(run_acks bp ops _ .initial).2.2.1]; rfl
  · unfold Connection.remoteSecrets; rw [(run_acks bp ops _ .initial).2.2.2]; rfl
  · intro sp hsp
    unfold Connection.localSecrets Connection.remoteSecrets
    rw [(run_acks bp ops _ sp).2.2.1, (run_acks bp ops _ sp).2.2.2]
    cases sp with
    | initial => exact absurd rfl hsp
    | handshake => exact ⟨⟨_, rfl⟩, ⟨_, rfl⟩⟩
    | application => exact ⟨⟨_, rfl⟩, ⟨_, rfl⟩⟩

/-! ### Version Negotiation -/

/-- `bs` are the versions `vs`, four big-endian bytes each. -/
theorem chunks_ok {vs : List U32} {bs : Bytes} (h4 : bs.length % 4 = 0) :
    chunksToU32 bs = .ok vs ↔ ∃ cs : List Bytes, bs = cs.flatten ∧ (∀ c ∈ cs, c.length = 4) ∧ cs.map beNat = vs.map BitVec.toNat := by
  have key : ∀ n (bs : Bytes), bs.length = 4 * n → ∃ (vs : List U32) (cs : List Bytes), chunksToU32 bs = .ok vs ∧ bs = cs.flatten ∧ (∀ c ∈ cs, c.length = 4) ∧ cs.map beNat = vs.map BitVec.toNat := by
    intro n
    induction n with
    | zero => intro bs hl; exact ⟨[], [], by rw [List.eq_nil_of_length_eq_zero hl]; simp [chunksToU32]⟩
    | succ n ih =>
      intro bs hl
      match bs, hl with
      | a :: b :: c :: d :: rest, hl =>
        obtain ⟨vs, cs, e1, e2, e3, e4⟩ := ih rest (by simp only [List.length_cons] at hl; omega)
        obtain ⟨v, hv, hvn⟩ : ∃ v : U32, u32FromDatagram (makeResultStream [a, b, c, d]) = (.ok v, []) ∧ v.toNat = beNat [a, b, c, d] := by
          have hlt : beNat [a, b, c, d] < 2 ^ 32 := by
            have := beNat_lt [a, b, c, d]
            rw [show [a, b, c, d].length = 4 from rfl, show (256 : Nat) ^ 4 = 2 ^ 32 by decide] at this
            exact this
          refine ⟨BitVec.ofNat 32 (beNat [a, b, c, d]), ?_, by rw [BitVec.toNat_ofNat]; exact Nat.mod_eq_of_lt hlt⟩
          exact uint_reads' (n := 4) _ (x := BitVec.ofNat 32 (beNat [a, b, c, d])) (by decide) rfl
            (by rw [BitVec.toNat_ofNat]; exact (Nat.mod_eq_of_lt hlt).symm) []
        refine ⟨v :: vs, [a, b, c, d] :: cs, ?_, by rw [e2]; rfl, ?_, by rw [List.map_cons, List.map_cons, e4, hvn]⟩
        · rw [chunksToU32, hv, e1]; rfl
        · intro x hx
          rcases List.mem_cons.mp hx with rfl | hx
          · rfl
          · exact e3 x hx
  obtain ⟨vs', cs', e1, e2, e3, e4⟩ := key (bs.length / 4) bs (by omega)
  constructor
  · intro h
    rw [e1] at h
    cases h
    exact ⟨cs', e2, e3, e4⟩
  · rintro ⟨cs, f1, f2, f3⟩
    have hcs : ∀ (cs cs' : List Bytes), (∀ c ∈ cs, c.length = 4) → (∀ c ∈ cs', c.length = 4) → cs.flatten = cs'.flatten → cs = cs' := by
      intro cs
      induction cs with
      | nil =>
        intro cs' _ h2 e
        cases cs' with
        | nil => rfl
        | cons y ys =>
          have := congrArg List.length e
          have := h2 y (by simp)
          simp only [List.flatten_nil, List.flatten_cons, List.length_nil, List.length_append] at *
          omega
      | cons x xs ih =>
        intro cs' h1 h2 e
        cases cs' with
        | nil =>
          have := congrArg List.length e
          have := h1 x (by simp)
          simp only [List.flatten_nil, List.flatten_cons, List.length_nil, List.length_append] at *
          omega
        | cons y ys =>
          have l1 := h1 x (by simp)
          have l2 := h2 y (by simp)
          rw [List.flatten_cons, List.flatten_cons] at e
          obtain ⟨rfl, e'⟩ := List.append_inj e (by omega)
          rw [ih ys (fun c hc => h1 c (by simp [hc])) (fun c hc => h2 c (by simp [hc])) e']
    have : cs = cs' := hcs cs cs' f2 e3 (f1 ▸ e2)
    subst this
    rw [e1]
    congr 1
    have := e4.symm.trans f3
    exact (List.map_inj_right (fun _ _ => BitVec.eq_of_toNat_eq)).mp this

/-! ### misaligned packet numbers -/

theorem varBytes_len {n : Nat} {s s' : Stream} {a : Bytes} (h : varBytesFromStream n s = (.ok a, s')) : s.length = n + s'.length := by
  obtain ⟨bs, rfl, rfl, l⟩ := varBytes_sound _ _ _ _ h
  simp [l]

/-- A tail with a packet number of fewer than four bytes is read past its end. -/
theorem tail_short {P : Prims} {bp : Profile} {c : Connection} {sp : PnSpace} {whole : Bool} {lenOf : Mask → Out Nat}
    {hdr : Mask → Out Bytes} {L : U64} {mid : Bytes} {k : Keys} (hk : c.remoteSecrets sp = .ok (secretsOf P k))
    {pnB ct tag : Bytes} {m : Mask} (h4 : pnB.length ≤ 4) (hlen20 : 20 ≤ (pnB ++ ct ++ tag).length)
    (hL : L.toNat = pnB.length + (ct ++ tag).length)
    (hm : hpMaskAes128Ecb P k.hp (((pnB ++ ct ++ tag).drop 4).take 16) = .ok m) (hlen : lenOf m = .ok pnB.length) {s s' : Stream}
    {r : Mask × Bytes × U64 × List Frame}
    (h : tail bp c sp whole lenOf hdr (lenBytes bp L) mid (makeResultStream (pnB.zipWith (· ^^^ ·) (maskList m) ++ (ct ++ tag)) ++ s) = (.ok r, s')) :
    s.length = (4 - pnB.length) + s'.length := by
  obtain ⟨m', pnB', pn, fs⟩ := r
  obtain ⟨pnP, s1, smp, s2, n, ct', tag', hb', pl, e1, e2, e3, e4, e5, e6, e7, e8, e9, e10, e11, e12, e13, e14⟩ := tail_inv hk h
  have hz : (pnB.zipWith (· ^^^ ·) (maskList m)).length = pnB.length := by
    rw [List.length_zipWith]; simp only [maskList, List.length_cons, List.length_nil]; omega
  have hcl : 20 ≤ pnB.length + (ct ++ tag).length := by simp only [List.length_append] at hlen20 ⊢; omega
  have e16 : ∀ i j (y : Bytes), List.take j (List.drop i (makeResultStream y)) = makeResultStream ((y.drop i).take j) := by
    intro i j y; simp [makeResultStream, List.map_take, List.map_drop]
  have hsm : smp = ((pnB ++ ct ++ tag).drop 4).take 16 := by
    have hR : List.take 16 (List.drop 4 (makeResultStream pnP ++ s1)) = makeResultStream smp := by
      rw [List.drop_left' (by rw [makeResultStream_length, e2]), e3, List.take_left' (by rw [makeResultStream_length, e4])]
    rw [← e1, List.drop_append_of_le_length (by rw [makeResultStream_length, List.length_append, hz]; omega),
      List.take_append_of_le_length (by rw [List.length_drop, makeResultStream_length, List.length_append, hz]; omega), e16] at hR
    rw [← makeResultStream_inj hR, List.append_assoc]
    congr 1
    have hdr4 : ∀ a b : Bytes, a.length ≤ 4 → (a ++ b).drop 4 = b.drop (4 - a.length) := by
      intro a b h
      rw [List.drop_append, List.drop_eq_nil_of_le h, List.nil_append]
    rw [hdr4 _ _ (by omega), hdr4 _ _ h4, hz]
  rw [hsm, hm] at e5
  cases e5
  rw [hlen] at e6
  cases e6
  unfold lenBytes at e10
  rw [subUsize_ok (by omega), Rd.bind_ok (Rd.lift_apply _ _)] at e10
  have l1 := varBytes_len e10
  have l2 := congrArg List.length e1
  simp only [List.length_append, makeResultStream_length] at l2 hL
  rw [hz, e2] at l2
  omega

/-! ### the loop -/

theorem tail_shrinks (bp : Profile) (c : Connection) (sp : PnSpace) (whole : Bool) (lenOf : Mask → Out Nat) (hdr : Mask → Out Bytes)
    {payload : Nat → Rd Bytes} (hp : ∀ n, Shrinks (payload n)) (mid : Bytes) : Shrinks (tail bp c sp whole lenOf hdr payload mid) :=
  (varBytes_shrinks 4).bind fun _ => Shrinks.cloned.bind fun _ => (Shrinks.lift _).bind fun _ => (Shrinks.lift _).bind fun _ =>
    (Shrinks.lift _).bind fun _ => (Shrinks.lift _).bind fun _ => (Shrinks.lift _).bind fun _ => (hp _).bind fun _ =>
    (Shrinks.lift _).bind fun _ => (Shrinks.lift _).bind fun _ => (Shrinks.lift _).bind fun _ => Shrinks.pure _
theorem lenBytes_shrinks (bp : Profile) (L : U64) (n : Nat) : Shrinks (lenBytes bp L n) := (Shrinks.lift _).bind fun _ => varBytes_shrinks _

/-- `m` reads at least one byte when it succeeds. -/
def Consumes (m : Rd α) : Prop := ∀ s a s', m s = (.ok a, s') → s' <:+ s ∧ s'.length < s.length
theorem Consumes.bind {m : Rd α} {f : α → Rd β} (h1 : Consumes m) (h2 : ∀ a, Shrinks (f a)) : Consumes (m >>= f) := by
  intro s b s' h
  obtain ⟨a, s1, e, h⟩ := Rd.bind_eq_ok h
  obtain ⟨g1, l1⟩ := h1 _ _ _ e
  have g2 := h2 a s1
  rw [h] at g2
  exact ⟨g2.trans g1, Nat.lt_of_le_of_lt g2.length_le l1⟩
theorem u8_consumes : Consumes u8FromDatagram := by
  intro s a s' h
  obtain ⟨bs, rfl, rfl⟩ := u8_sound _ _ _ h
  simp

theorem initial_consumes (bp : Profile) (c : Connection) : Consumes (PacketInitial.fromStream bp c) := by
  rw [initial_eq]
  exact u8_consumes.bind fun _ => (long_shrinks _).bind fun _ => varIntWithBytes_shrinks.bind fun _ => (varBytes_shrinks _).bind fun _ =>
    varIntWithBytes_shrinks.bind fun _ => (tail_shrinks bp c _ _ _ _ (lenBytes_shrinks bp _) _).bind fun _ => Shrinks.pure _
theorem handshake_consumes (bp : Profile) (c : Connection) : Consumes (PacketHandshake.fromStream bp c) := by
  rw [handshake_eq]
  exact u8_consumes.bind fun _ => (long_shrinks _).bind fun _ => varIntWithBytes_shrinks.bind fun _ =>
    (tail_shrinks bp c _ _ _ _ (lenBytes_shrinks bp _) _).bind fun _ => Shrinks.pure _
theorem zeroRtt_consumes (bp : Profile) (c : Connection) : Consumes (PacketZeroRtt.fromStream bp c) := by
  rw [zeroRtt_eq]
  exact u8_consumes.bind fun _ => (long_shrinks _).bind fun _ => varIntWithBytes_shrinks.bind fun _ =>
    (tail_shrinks bp c _ _ _ _ (lenBytes_shrinks bp _) _).bind fun _ => Shrinks.pure _
theorem oneRtt_consumes (bp : Profile) (c : Connection) : Consumes (PacketOneRtt.fromStream bp c) := by
  rw [oneRtt_eq]
  exact u8_consumes.bind fun _ => (short_shrinks _).bind fun _ =>
    (tail_shrinks bp c _ _ _ _ (fun _ => allBytes_shrinks) _).bind fun _ => Shrinks.pure _
theorem Out.bind_noPanic {x : Out α} {f : α → Out β} (h : x.isPanic = false) (hf : ∀ a, (f a).isPanic = false) : (x >>= f).isPanic = false := by
  cases x with
  | ok a => exact hf a
  | err e => rfl
  | panic w => cases h
theorem chunks_noPanic (bs : Bytes) : (chunksToU32 bs).isPanic = false := by
  induction bs using chunksToU32.induct with
  | case1 => rfl
  | case2 a b c d rest ih =>
    rw [chunksToU32]
    exact Out.bind_noPanic (uint_noPanic 4 _ _) fun _ => Out.bind_noPanic ih fun _ => rfl
  | case3 short h1 h2 =>
    rw [chunksToU32]
    · exact Out.bind_noPanic (uint_noPanic 4 _ _) fun _ => rfl
    · exact h1
    · exact h2
theorem vn_noPanic : NoPanic PacketVersionNegotiation.fromStream :=
  u8_noPanic.bind fun _ => (long_noPanic _).bind fun _ => allBytes_noPanic.bind fun _ =>
    (NoPanic.fail _).ite ((NoPanic.lift (chunks_noPanic _)).bind fun _ => NoPanic.pure _)
theorem vn_consumes : Consumes PacketVersionNegotiation.fromStream := by
  unfold PacketVersionNegotiation.fromStream
  exact u8_consumes.bind fun _ => (long_shrinks _).bind fun _ => allBytes_shrinks.bind fun _ =>
    Shrinks.ite (Shrinks.fail _) ((Shrinks.lift _).bind fun _ => Shrinks.pure _)

theorem Consumes.map {m : Rd α} (h : Consumes m) (f : α → β) : Consumes (m >>= fun a => pure (f a)) := h.bind fun _ => Shrinks.pure _

theorem decodeNext_consumes (bp : Profile) (c : Connection) : Consumes (decodeNextPacket bp c) := by
  intro s p s' h
  obtain ⟨x, s1, hx⟩ := decodeNext_header h
  cases x with
  | short x =>
    rw [decodeNext_short hx] at h
    exact (oneRtt_consumes bp c).map _ _ _ _ h
  | long x =>
    rw [decodeNext_long hx] at h
    cases hk : packetKind x.headerByte x.version <;> rw [hk] at h
    case oneRtt => cases h
    case statelessReset => cases h
    case initial => exact (initial_consumes bp c).map _ _ _ _ h
    case handshake => exact (handshake_consumes bp c).map _ _ _ _ h
    case zeroRtt => exact (zeroRtt_consumes bp c).map _ _ _ _ h
    case versionNegotiation => exact vn_consumes.map _ _ _ _ h
    case retry => obtain ⟨_, _, e, _⟩ := Rd.bind_eq_ok h; cases e

/-- Fuel: the loop does not depend on it once there is one unit per entry of the stream. -/
theorem loop_fuel (bp : Profile) (c : Connection) : ∀ n s, s.length < n →
    decodePacketsLoop bp c n s = decodePacketsLoop bp c (s.length + 1) s := by
  intro n
  induction n using Nat.strongRecOn with
  | ind n ih =>
    intro s hs
    match n, s, hs with
    | n + 1, [], _ => rfl
    | n + 1, x :: s, hs =>
      simp only [decodePacketsLoop]
      rcases h : decodeNextPacket bp c (x :: s) with ⟨o, s'⟩
      cases o with
      | ok p =>
        obtain ⟨hsuf, hl⟩ := decodeNext_consumes bp c _ _ _ h
        have hlx : (x :: s).length = s.length + 1 := rfl
        have e1 := ih n (by omega) s' (by omega)
        have e2 : decodePacketsLoop bp c ((x :: s).length) s' = decodePacketsLoop bp c (s'.length + 1) s' := by
          by_cases hn : (x :: s).length < n + 1
          · exact ih _ (by omega) s' (by omega)
          · omega
        simp only [e1, e2]
      | err e => rfl
      | panic w => rfl

/-- The loop of `decode_packets`. -/
theorem decodePackets_eq (bp : Profile) (c : Connection) (s : Stream) (hs : s ≠ []) : decodePackets bp c s =
    (do let p ← decodeNextPacket bp c; let ps ← decodePackets bp c; pure (p :: ps) : Rd (List Packet)) s := by
  match s, hs with
  | x :: s, _ =>
    unfold decodePackets
    simp only [decodePacketsLoop]
    rw [Rd.bind_apply]
    rcases h : decodeNextPacket bp c (x :: s) with ⟨o, s'⟩
    cases o with
    | ok p =>
      obtain ⟨hsuf, hl⟩ := decodeNext_consumes bp c _ _ _ h
      dsimp only
      rw [loop_fuel bp c _ s' hl]
      refine Eq.trans ?_ (Rd.bind_apply _ _ _).symm
      rcases decodePacketsLoop bp c (s'.length + 1) s' with ⟨o, s2⟩
      cases o <;> rfl
    | err e => rfl
    | panic w => rfl
theorem decodePackets_nil (bp : Profile) (c : Connection) : decodePackets bp c [] = (.ok [], []) := rfl

theorem decodeNext_nil (bp : Profile) (c : Connection) : (decodeNextPacket bp c []).1.isPanic = true := rfl

/-- A datagram made of decodable packets. -/
theorem decodePackets_flatten {bp : Profile} {c : Connection} {l : List (Bytes × Packet)}
    (h : ∀ x ∈ l, Reads (decodeNextPacket bp c) x.1 x.2) :
    decodePackets bp c (makeResultStream (l.map Prod.fst).flatten) = (.ok (l.map Prod.snd), []) := by
  induction l with
  | nil => rfl
  | cons x l ih =>
    have hx := h x (by simp)
    have hne : x.1 ≠ [] := by
      intro e
      have := hx []
      rw [e] at this
      have hp := decodeNext_nil bp c
      rw [show makeResultStream [] ++ [] = ([] : Stream) from rfl] at this
      rw [this] at hp
      cases hp
    rw [List.map_cons, List.flatten_cons, makeResultStream_append, decodePackets_eq _ _ _ (by
      intro e
      have := congrArg List.length e
      rw [List.length_append, makeResultStream_length] at this
      cases hx1 : x.1 with
      | nil => exact hne hx1
      | cons _ _ => rw [hx1] at this; simp at this)]
    rw [Rd.bind_ok (hx _), Rd.bind_ok (ih fun y hy => h y (by simp [hy]))]
    rfl

/-- Where a panic of `decode_packets` comes from. -/
theorem decodePackets_panic {bp : Profile} {c : Connection} {s : Stream} (h : (decodePackets bp c s).1.isPanic = true) :
    ∃ s1, s1 <:+ s ∧ s1 ≠ [] ∧ (decodeNextPacket bp c s1).1.isPanic = true := by
  generalize hn : s.length = n
  induction n using Nat.strongRecOn generalizing s with
  | ind n ih =>
    by_cases hs : s = []
    · subst hs; cases h
    · rw [decodePackets_eq _ _ _ hs] at h
      rcases Rd.bind_isPanic h with h | ⟨p, s', e, h⟩
      · exact ⟨s, List.suffix_refl _, hs, h⟩
      · obtain ⟨hsuf, hl⟩ := decodeNext_consumes bp c _ _ _ e
        rcases Rd.bind_isPanic h with h | ⟨p, s2, e2, h⟩
        · obtain ⟨s1, h1, h2⟩ := ih _ (by omega) h rfl
          exact ⟨s1, h1.trans hsuf, h2⟩
        · cases h

end QuicSea
