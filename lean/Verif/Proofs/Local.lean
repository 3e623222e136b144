import Verif.Proofs.PacketInv
/-
Readers that depend only on the bytes they consume.
-/
namespace QuicSea
open Spec

/-- Whenever `m` succeeds, it would have succeeded with the same result on the bytes it consumed, whatever follows them. -/
def Local (m : Rd α) : Prop := ∀ s a s', m s = (.ok a, s') → ∃ bs, s = makeResultStream bs ++ s' ∧ Reads m bs a

theorem Local.pure (a : α) : Local (Pure.pure a) := by
  intro s x s' h
  cases h
  exact ⟨[], rfl, Reads.pure a⟩
theorem Local.bind {m : Rd α} {f : α → Rd β} (h1 : Local m) (h2 : ∀ a, Local (f a)) : Local (m >>= f) := by
  intro s b s'' h
  obtain ⟨a, s', hm, hf⟩ := Rd.bind_eq_ok h
  obtain ⟨b1, e1, r1⟩ := h1 _ _ _ hm
  obtain ⟨b2, e2, r2⟩ := h2 _ _ _ _ hf
  exact ⟨b1 ++ b2, by simp [e1, e2], r1.bind r2⟩
theorem Local.lift (x : Out α) : Local (Rd.lift x) := by
  intro s a s' h
  rw [Rd.lift_apply] at h
  obtain ⟨h1, rfl⟩ := Prod.mk.inj h
  exact ⟨[], rfl, Reads.lift h1⟩
theorem u8_local : Local u8FromDatagram := by
  intro s a s' h
  obtain ⟨bs, e, rfl⟩ := u8_sound _ _ _ h
  exact ⟨_, e, u8_reads a⟩
theorem varBytes_local (n : Nat) : Local (varBytesFromStream n) := by
  intro s a s' h
  obtain ⟨bs, e, rfl, hl⟩ := varBytes_sound _ _ _ _ h
  exact ⟨_, e, varBytes_reads' hl⟩
theorem varIntWithBytes_local : Local varIntWithBytesFromStream := by
  intro s a s' h
  obtain ⟨bs, e, h1, h2⟩ := varIntWithBytes_sound _ _ _ h
  obtain ⟨v, b⟩ := a
  cases h1
  exact ⟨_, e, varIntWithBytes_reads h2⟩
theorem lenBytes_local (bp : Profile) (L : U64) (n : Nat) : Local (lenBytes bp L n) := (Local.lift _).bind fun _ => varBytes_local _
theorem longHeader_local {b : U8} (hb : 128 ≤ b.toNat) : Local (LongPacketHeader.fromStream b) := by
  intro s a s' h
  obtain ⟨bs, e, rfl, h2, h3⟩ := long_sound b hb _ _ _ h
  exact ⟨bs, e, long_reads h2 hb h3⟩

/-- The keys of a space are absent, or AES keys as `Secrets::new` makes them. -/
def KeysOrNone (P : Prims) (c : Connection) (sp : PnSpace) : Prop :=
  (∃ k, c.remoteSecrets sp = .ok (secretsOf P k)) ∨ ∃ e, c.remoteSecrets sp = .err e

/-- The end of a packet. The sample of the header protection is taken from a copy of the stream; it is always within the payload of a packet that is
authentic. -/
theorem tail_local {P : Prims} {bp : Profile} {c : Connection} {sp : PnSpace} {whole : Bool} {lenOf : Mask → Out Nat} {hdr : Mask → Out Bytes} {L : U64}
    {mid : Bytes} (hk : KeysOrNone P c sp) : Local (tail bp c sp whole lenOf hdr (lenBytes bp L) mid) := by
  rcases hk with ⟨k, hk⟩ | ⟨e, hk⟩
  · rintro s ⟨m, pnB, pn, fs⟩ s' h
    obtain ⟨pnP, s1, smp, s2, n, ct, tag, hb, pl, e1, e2, e3, e4, e5, e6, e7, e8, e9, e10, e11, e12, e13, e14⟩ := tail_inv hk h
    obtain ⟨bs, f1, f2⟩ := lenBytes_local bp L n _ _ _ e10
    obtain ⟨bs', f1', rfl⟩ := lenBytes_sound bp L n _ _ _ e10
    have hbs : bs = ct ++ tag := makeResultStream_inj (List.append_cancel_right (f1.symm.trans f1'))
    subst hbs
    have hlen : 16 ≤ (ct ++ tag).length := by rw [List.length_append]; omega
    have hsmp := take16 (f1.symm.trans e3) e4 hlen
    refine ⟨pnP ++ (ct ++ tag), by rw [e1, f1]; simp, fun t => ?_⟩
    rw [makeResultStream_append, List.append_assoc]
    subst e8
    rw [tail_eval hk e2 (s1 := makeResultStream ((ct ++ tag).drop 16) ++ t) (smp := smp) ?_ e4 e5 e6 e7 e9]
    · rw [Rd.bind_ok (f2 t)]
      exact tailEnd_run hk e12 e11 e13 e14 t
    · rw [← List.append_assoc, ← makeResultStream_append, hsmp, List.take_append_drop]
  · intro s a s' h
    unfold tail at h
    obtain ⟨_, s1, _, h⟩ := Rd.bind_eq_ok h
    obtain ⟨_, s2, h2, h⟩ := Rd.bind_eq_ok h
    obtain ⟨_, s3, h3, h⟩ := Rd.bind_eq_ok h
    rw [Rd.lift_apply, getRemoteHpMask_noKeys hk] at h3
    cases h3

/-- A reader that begins with a long header, on a stream that begins with one. -/
theorem long_local {f : LongPacketHeader → Rd β} (hf : ∀ x, Local (f x)) {s s1 s' : Stream} {x : LongPacketHeader} {p : β}
    (hx : nextHeaderFromStream s = (.ok (.long x), s1))
    (h : (do let b ← u8FromDatagram; let hd ← LongPacketHeader.fromStream b; f hd : Rd β) s = (.ok p, s')) :
    ∃ bs, s = makeResultStream bs ++ s' ∧ (∃ hb, LongFields x (x.headerByte :: hb) ∧ (x.headerByte :: hb) <+: bs) ∧
      Reads (do let b ← u8FromDatagram; let hd ← LongPacketHeader.fromStream b; f hd : Rd β) bs p := by
  obtain ⟨hb, e0, hfl, h128, hp, r1, r2⟩ := long_prefix hx
  rw [Rd.bind_ok r1, Rd.bind_ok r2] at h
  obtain ⟨bs, e, r⟩ := hf x _ _ _ h
  refine ⟨x.headerByte :: hb ++ bs, by rw [e0, e]; simp, ⟨hb, hfl, by simp⟩, ?_⟩
  exact (u8_reads x.headerByte).bind' ((long_reads hfl h128 hp).bind r) (by simp)

theorem initial_local {P : Prims} {bp : Profile} {c : Connection} (hk : KeysOrNone P c .initial) {s s1 s' : Stream} {x : LongPacketHeader} {p : PacketInitial}
    (hx : nextHeaderFromStream s = (.ok (.long x), s1)) (h : PacketInitial.fromStream bp c s = (.ok p, s')) :
    ∃ bs, s = makeResultStream bs ++ s' ∧ (∃ hb, LongFields x (x.headerByte :: hb) ∧ (x.headerByte :: hb) <+: bs) ∧ Reads (PacketInitial.fromStream bp c) bs p := by
  rw [initial_eq] at h ⊢
  exact long_local (fun x => varIntWithBytes_local.bind fun _ => (varBytes_local _).bind fun _ => varIntWithBytes_local.bind fun _ =>
    (tail_local hk).bind fun _ => Local.pure _) hx h
theorem handshake_local {P : Prims} {bp : Profile} {c : Connection} (hk : KeysOrNone P c .handshake) {s s1 s' : Stream} {x : LongPacketHeader} {p : PacketHandshake}
    (hx : nextHeaderFromStream s = (.ok (.long x), s1)) (h : PacketHandshake.fromStream bp c s = (.ok p, s')) :
    ∃ bs, s = makeResultStream bs ++ s' ∧ (∃ hb, LongFields x (x.headerByte :: hb) ∧ (x.headerByte :: hb) <+: bs) ∧ Reads (PacketHandshake.fromStream bp c) bs p := by
  rw [handshake_eq] at h ⊢
  exact long_local (fun x => varIntWithBytes_local.bind fun _ => (tail_local hk).bind fun _ => Local.pure _) hx h
theorem zeroRtt_local {P : Prims} {bp : Profile} {c : Connection} (hk : KeysOrNone P c .application) {s s1 s' : Stream} {x : LongPacketHeader} {p : PacketZeroRtt}
    (hx : nextHeaderFromStream s = (.ok (.long x), s1)) (h : PacketZeroRtt.fromStream bp c s = (.ok p, s')) :
    ∃ bs, s = makeResultStream bs ++ s' ∧ (∃ hb, LongFields x (x.headerByte :: hb) ∧ (x.headerByte :: hb) <+: bs) ∧ Reads (PacketZeroRtt.fromStream bp c) bs p := by
  rw [zeroRtt_eq] at h ⊢
  exact long_local (fun x => varIntWithBytes_local.bind fun _ => (tail_local hk).bind fun _ => Local.pure _) hx h

/-- The header is found again when other bytes follow. -/
theorem nextHeader_again {s s1 : Stream} {x : LongPacketHeader} (hx : nextHeaderFromStream s = (.ok (.long x), s1)) {hb bs : Bytes}
    (hf : LongFields x (x.headerByte :: hb)) (hp : (x.headerByte :: hb) <+: bs) (t : Stream) :
    ∃ s2, nextHeaderFromStream (makeResultStream bs ++ t) = (.ok (.long x), s2) := by
  obtain ⟨r, rfl⟩ := hp
  obtain ⟨_, _, _, h128, hpr⟩ := nextHeader_long_iff.mp hx
  exact ⟨_, nextHeader_long_iff.mpr ⟨_, by rw [makeResultStream_append, List.append_assoc], hf, h128, hpr⟩⟩

/-- The packets that have a Length field. -/
def hasLength : Packet → Bool
  | .initial _ | .handshake _ | .zeroRtt _ => true
  | _ => false

theorem decodeNext_local {P : Prims} {bp : Profile} {c : Connection} (hk : ∀ sp, KeysOrNone P c sp) {s s' : Stream} {p : Packet} (hp : hasLength p = true)
    (h : decodeNextPacket bp c s = (.ok p, s')) :
    ∃ bs, s = makeResultStream bs ++ s' ∧ Reads (decodeNextPacket bp c) bs p := by
  cases p with
  | initial p =>
    obtain ⟨x, s1, hx, hkd, h⟩ := decodeNext_initial h
    obtain ⟨bs, e, ⟨hb, g1, g2⟩, r⟩ := initial_local (hk _) hx h
    refine ⟨bs, e, fun t => ?_⟩
    obtain ⟨s2, h2⟩ := nextHeader_again hx g1 g2 t
    rw [decodeNext_long h2, hkd]
    exact Rd.bind_ok (r t)
  | handshake p =>
    obtain ⟨x, s1, hx, hkd, h⟩ := decodeNext_handshake h
    obtain ⟨bs, e, ⟨hb, g1, g2⟩, r⟩ := handshake_local (hk _) hx h
    refine ⟨bs, e, fun t => ?_⟩
    obtain ⟨s2, h2⟩ := nextHeader_again hx g1 g2 t
    rw [decodeNext_long h2, hkd]
    exact Rd.bind_ok (r t)
  | zeroRtt p =>
    obtain ⟨x, s1, hx, hkd, h⟩ := decodeNext_zeroRtt h
    obtain ⟨bs, e, ⟨hb, g1, g2⟩, r⟩ := zeroRtt_local (hk _) hx h
    refine ⟨bs, e, fun t => ?_⟩
    obtain ⟨s2, h2⟩ := nextHeader_again hx g1 g2 t
    rw [decodeNext_long h2, hkd]
    exact Rd.bind_ok (r t)
  | _ => cases hp

end QuicSea
