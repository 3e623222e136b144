import Verif.Proofs.Work
import Verif.Props.Oracle
/-
How many bytes are gone over until a forged packet is refused (`Verif.Model.Work`), from the place of the packet number on.
-/
namespace Spec
open QuicSea
/-- The bytes gone over once the header protection mask is known, until a forged packet with Length `L`, `R` bytes after the first four of the packet number and
a packet number of `l` bytes is refused: those read from the datagram (one more try where they end), and those passed to the AEAD, with `A` bytes of associated data before the number. -/
def spent (bp : Profile) (A L R l : Nat) : Nat :=
  if L < l then (match bp with | .debug => 0 | .release => R + 1)
  else if R < L - l then R + 1
  else (L - l) + ((L - l) + (A + l))
end Spec

namespace QuicSea
open Spec

/-- The counting reader gives the results of the reader. -/
def Counts (m : Tk α) (r : Rd α) : Prop := ∀ s, (m s).1 = (r s).1 ∧ (m s).2.1 = (r s).2
theorem Cost.same {K a b : Nat} {φ : α → Nat} {m : Tk α} {r : Rd α} (h : Cost K a φ b m r) : Counts m r := fun s => ⟨(h s).1, (h s).2.1⟩

theorem Tk.bind_ok {m : Tk α} {f : α → Tk β} {s a s' n} (h : m s = (.ok a, s', n)) : ((m >>= f) s).2.2 = n + (f a s').2.2 := by
  rw [Tk.bind_apply, h]
theorem Tk.lift_ok {x : Out α} {f : α → Tk β} {s a} (h : x = .ok a) : ((Tk.lift x >>= f) s).2.2 = (f a s).2.2 := by
  rw [Tk.bind_ok (n := 0) (s' := s) (a := a) (by rw [← h]; rfl), Nat.zero_add]
theorem Tk.bind_no {m : Tk α} {f : α → Tk β} {s} (h : ∀ a, (m s).1 ≠ .ok a) : ((m >>= f) s).2.2 = (m s).2.2 := by
  rw [Tk.bind_apply]
  rcases hm : m s with ⟨o, s', n⟩
  cases o with
  | ok a => rw [hm] at h; exact absurd rfl (h a)
  | err e => rfl
  | panic e => rfl
theorem Tk.map_ticks {m : Tk α} {g : α → β} (s : Stream) : ((m >>= fun a => Pure.pure (g a)) s).2.2 = (m s).2.2 := by
  rw [Tk.bind_apply]
  rcases m s with ⟨o, s', n⟩
  cases o <;> rfl
theorem Tk.ticks_congr {m : Tk α} {f : α → Tk β} {g : α → Tk γ} {s : Stream} (h : ∀ a s', (f a s').2.2 = (g a s').2.2) : ((m >>= f) s).2.2 = ((m >>= g) s).2.2 := by
  rw [Tk.bind_apply, Tk.bind_apply]
  rcases m s with ⟨o, s', n⟩
  cases o with
  | ok a => exact congrArg (n + ·) (h a s')
  | err e => rfl
  | panic e => rfl
theorem Tk.bind_assoc (m : Tk α) (f : α → Tk β) (g : β → Tk γ) : (m >>= f) >>= g = m >>= fun x => f x >>= g := by
  funext s
  simp only [Tk.bind_apply]
  rcases m s with ⟨o, s', n⟩
  cases o with
  | ok a =>
    dsimp only
    rcases f a s' with ⟨o, s'', k⟩
    cases o <;> simp [Nat.add_assoc]
  | err e => rfl
  | panic e => rfl
theorem Tk.pure_bind (a : α) (f : α → Tk β) : (Pure.pure a : Tk α) >>= f = f a := by
  funext s
  show ((f a s).1, (f a s).2.1, 0 + (f a s).2.2) = f a s
  rw [Nat.zero_add]
theorem Tk.bind_congr {m : Tk α} {f g : α → Tk β} {s : Stream} (h : ∀ a s' n, m s = (.ok a, s', n) → f a s' = g a s') : (m >>= f) s = (m >>= g) s := by
  simp only [Tk.bind_apply]
  rcases hm : m s with ⟨o, s', n⟩
  cases o with
  | ok a => dsimp only; rw [h a s' n hm]
  | err e => rfl
  | panic w => rfl
theorem Counts.ok {m : Tk α} {r : Rd α} (h : Counts m r) {f : α → Tk β} {s a s'} (e : r s = (.ok a, s')) : ((m >>= f) s).2.2 = (m s).2.2 + (f a s').2.2 := by
  obtain ⟨h1, h2⟩ := h s
  rw [e] at h1 h2
  exact Tk.bind_ok (Prod.ext h1 (Prod.ext h2 rfl))
theorem Counts.no {m : Tk α} {r : Rd α} (h : Counts m r) {f : α → Tk β} {s} (e : ∀ a, (r s).1 ≠ .ok a) : ((m >>= f) s).2.2 = (m s).2.2 :=
  Tk.bind_no fun a => by rw [(h s).1]; exact e a
theorem Counts.bind {m : Tk α} {r : Rd α} {f : α → Tk β} {g : α → Rd β} (h1 : Counts m r) (h2 : ∀ a, Counts (f a) (g a)) : Counts (m >>= f) (r >>= g) := by
  intro s
  obtain ⟨e1, e2⟩ := h1 s
  rcases hm : m s with ⟨o, s1, n⟩
  rw [hm] at e1 e2
  have hr : r s = (o, s1) := Prod.ext e1.symm e2.symm
  rw [Tk.bind_apply, hm, Rd.bind_apply, hr]
  cases o with
  | ok x => exact h2 x s1
  | err e => exact ⟨rfl, rfl⟩
  | panic e => exact ⟨rfl, rfl⟩
theorem Counts.pure (a : α) : Counts (Pure.pure a) (Pure.pure a) := fun _ => ⟨rfl, rfl⟩

theorem varBytesT_run {bs : Bytes} (s : Stream) : varBytesFromStreamT bs.length (makeResultStream bs ++ s) = (.ok bs, s, bs.length) := by
  induction bs with
  | nil => rfl
  | cons b bs ih =>
    show (nextOrT _ >>= fun b => varBytesFromStreamT bs.length >>= fun rv => (Pure.pure (b :: rv) : Tk Bytes)) _ = _
    have e : (varBytesFromStreamT bs.length >>= fun rv => (Pure.pure (b :: rv) : Tk Bytes)) (makeResultStream bs ++ s) = (.ok (b :: bs), s, bs.length + 0) := by
      rw [Tk.bind_apply, ih]; rfl
    rw [Tk.bind_apply]
    show ((((varBytesFromStreamT bs.length >>= fun rv => (Pure.pure (b :: rv) : Tk Bytes)) (makeResultStream bs ++ s)).1,
      ((varBytesFromStreamT bs.length >>= fun rv => (Pure.pure (b :: rv) : Tk Bytes)) (makeResultStream bs ++ s)).2.1,
      1 + ((varBytesFromStreamT bs.length >>= fun rv => (Pure.pure (b :: rv) : Tk Bytes)) (makeResultStream bs ++ s)).2.2) : Out Bytes × Stream × Nat) = _
    rw [e, List.length_cons, Nat.add_zero, Nat.add_comm]
theorem varBytesT_short {n : Nat} {bs : Bytes} (h : bs.length < n) : (varBytesFromStreamT n (makeResultStream bs)).2.2 = bs.length + 1 := by
  induction n generalizing bs with
  | zero => omega
  | succ n ih =>
    show ((nextOrT _ >>= fun b => varBytesFromStreamT n >>= fun rv => (Pure.pure (b :: rv) : Tk Bytes)) _).2.2 = _
    cases bs with
    | nil => rfl
    | cons b bs =>
      rw [Tk.bind_ok (a := b) (s' := makeResultStream bs) (n := 1) rfl, Tk.map_ticks, ih (by simpa using h), List.length_cons]
      omega
theorem allBytesT_run (bs : Bytes) : allBytesFromStreamT (makeResultStream bs) = (.ok bs, [], bs.length + 1) := by
  induction bs with
  | nil => rfl
  | cons b bs ih =>
    show (match allBytesFromStreamT (makeResultStream bs) with
      | (.ok bs, s', n) => ((.ok (b :: bs), s', n + 1) : Out Bytes × Stream × Nat)
      | (.err e, s', n) => (.err e, s', n + 1)
      | (.panic w, s', n) => (.panic w, s', n + 1)) = _
    rw [ih]; rfl

/-- `tailEnd`, counting. -/
def tailEndT (c : Connection) (sp : PnSpace) (hdr : Mask → Out Bytes) (mid : Bytes) (mask : Mask) (pnB : Bytes) (pn : U64) (data : Bytes) :
    Tk (Mask × Bytes × U64 × List Frame) := do
  let hb ← Tk.lift (hdr mask)
  let frameData ← Tk.work (data.length + (hb ++ mid ++ pnB).length) (c.decryptRemotePayload sp data (hb ++ mid ++ pnB) pn)
  let fs ← deserializeFramesT.on (makeResultStream frameData)
  pure (mask, pnB, pn, fs)
/-- `tail`, counting. -/
def tailT (bp : Profile) (c : Connection) (sp : PnSpace) (whole : Bool) (lenOf : Mask → Out Nat) (hdr : Mask → Out Bytes)
    (payload : Nat → Tk Bytes) (mid : Bytes) : Tk (Mask × Bytes × U64 × List Frame) := do
  let pnP ← varBytesFromStreamT 4
  let offsetStream ← Tk.cloned
  let mask ← (c.getRemoteHpMaskT sp).on offsetStream
  let pnLength ← Tk.lift (lenOf mask)
  let pnU ← Tk.lift (xorPnProtection pnP mask)
  let pnB ← Tk.lift (sliceTo pnU pnLength)
  let pn ← Tk.lift (c.reconstructRemotePn bp sp (if whole then pnU else pnB))
  let data ← payload pnLength
  tailEndT c sp hdr mid mask pnB pn data
def lenBytesT (bp : Profile) (length : U64) (n : Nat) : Tk Bytes := do
  let k ← Tk.lift (subUsize bp length.toNat n)
  varBytesFromStreamT k

theorem initialT_eq (bp : Profile) (c : Connection) : PacketInitial.fromStreamT bp c = (do
    let headerByte ← u8FromDatagramT
    let header ← LongPacketHeader.fromStreamT headerByte
    let t ← varIntWithBytesFromStreamT
    let token ← varBytesFromStreamT t.1.toNat
    let l ← varIntWithBytesFromStreamT
    let r ← tailT bp c .initial false (fun m => (header.removeProtection m).packetNumberLength)
      (fun m => (header.removeProtection m).toBytes) (lenBytesT bp l.1) (t.2 ++ token ++ l.2)
    pure { header := header.removeProtection r.1, token, packetNumber := r.2.2.1, packetNumberBytes := r.2.1, packetPayload := r.2.2.2 }) := by
  simp only [PacketInitial.fromStreamT, tailT, tailEndT, lenBytesT, Tk.bind_assoc, Tk.pure_bind, List.append_assoc, Bool.false_eq_true, if_false]
theorem handshakeT_eq (bp : Profile) (c : Connection) : PacketHandshake.fromStreamT bp c = (do
    let headerByte ← u8FromDatagramT
    let header ← LongPacketHeader.fromStreamT headerByte
    let l ← varIntWithBytesFromStreamT
    let r ← tailT bp c .handshake true (fun m => (header.removeProtection m).packetNumberLength)
      (fun m => (header.removeProtection m).toBytes) (lenBytesT bp l.1) l.2
    pure { header := header.removeProtection r.1, packetNumber := r.2.2.1, packetNumberBytes := r.2.1, packetPayload := r.2.2.2 }) := by
  simp only [PacketHandshake.fromStreamT, tailT, tailEndT, lenBytesT, Tk.bind_assoc, Tk.pure_bind, List.append_assoc, if_true]
theorem oneRttT_eq (bp : Profile) (c : Connection) : PacketOneRtt.fromStreamT bp c = (do
    let headerByte ← u8FromDatagramT
    let header ← ShortPacketHeader.fromStreamT headerByte
    let r ← tailT bp c .application false (fun m => (header.removeProtection m).packetNumberLength)
      (fun m => (header.removeProtection m).toBytes) (fun _ => allBytesFromStreamT) []
    pure { header := header.removeProtection r.1, packetNumber := r.2.2.1, packetNumberBytes := r.2.1, packetPayload := r.2.2.2 }) := by
  simp only [PacketOneRtt.fromStreamT, tailT, tailEndT, Tk.bind_assoc, Tk.pure_bind, List.append_nil, Bool.false_eq_true, if_false]
theorem zeroRttT_eq (bp : Profile) (c : Connection) : PacketZeroRtt.fromStreamT bp c = (do
    let headerByte ← u8FromDatagramT
    let header ← LongPacketHeader.fromStreamT headerByte
    let l ← varIntWithBytesFromStreamT
    let r ← tailT bp c .application false (fun m => (header.removeProtection m).packetNumberLength)
      (fun m => (header.removeProtection m).toBytes) (lenBytesT bp l.1) l.2
    pure { header := header.removeProtection r.1, length := l.1, packetNumber := r.2.2.1, packetNumberBytes := r.2.1, packetPayload := r.2.2.2 }) := by
  funext s
  simp only [PacketZeroRtt.fromStreamT, tailT, tailEndT, lenBytesT, Tk.bind_assoc, Tk.pure_bind, List.append_assoc, Bool.false_eq_true, if_false]
  refine Tk.bind_congr fun _ _ _ _ => Tk.bind_congr fun _ _ _ _ => Tk.bind_congr fun l _ _ _ => ?_
  refine Tk.bind_congr fun _ _ _ _ => Tk.bind_congr fun _ _ _ _ => Tk.bind_congr fun _ _ _ _ => Tk.bind_congr fun n _ _ _ => ?_
  refine Tk.bind_congr fun _ _ _ _ => Tk.bind_congr fun b _ _ hb => Tk.bind_congr fun _ _ _ _ => Tk.bind_congr fun _ _ _ _ => ?_
  refine Tk.bind_congr fun _ _ _ _ => Tk.bind_congr fun _ s' _ _ => ?_
  obtain ⟨h1, h2⟩ := sliceTo_ok.mp (congrArg Prod.fst hb)
  have : sliceTo b n = .ok b := sliceTo_ok.mpr ⟨by rw [h2, List.length_take]; omega, by rw [h2, List.take_take, Nat.min_self]⟩
  rw [this]
  exact congrFun (Tk.pure_bind _ _) s'

/-! ### From the packet number on -/

variable {P : Prims} {bp : Profile} {c : Connection} {f : PnSpace → Option Keys}

/-- Without enough bytes, or without keys. -/
theorem tailT_early (hc : Holds P c f) (sp : PnSpace) (whole : Bool) {lenOf : Mask → Out Nat} {hdr : Mask → Out Bytes} (payload : Nat → Tk Bytes) (mid bs : Bytes) :
    (bs.length < 4 → (tailT bp c sp whole lenOf hdr payload mid (makeResultStream bs)).2.2 = bs.length + 1) ∧
    (4 ≤ bs.length → f sp = none → (tailT bp c sp whole lenOf hdr payload mid (makeResultStream bs)).2.2 = 4) ∧
    (4 ≤ bs.length → bs.length < 20 → ∀ k, f sp = some k → (tailT bp c sp whole lenOf hdr payload mid (makeResultStream bs)).2.2 = bs.length + 1) := by
  have split : 4 ≤ bs.length → varBytesFromStreamT 4 (makeResultStream bs) = (.ok (bs.take 4), makeResultStream (bs.drop 4), 4) := by
    intro h
    have hl : (bs.take 4).length = 4 := by rw [List.length_take]; omega
    have := varBytesT_run (bs := bs.take 4) (makeResultStream (bs.drop 4))
    rw [← makeResultStream_append, List.take_append_drop, hl] at this
    exact this
  refine ⟨fun h => ?_, fun h hn => ?_, fun h h20 k hk => ?_⟩
  · unfold tailT
    rw [(varBytes_cost 0 4).same.no (fun a => by rw [varBytes_missing h]; exact nofun), varBytesT_short h]
  · unfold tailT
    rw [Tk.bind_ok (split h), Tk.bind_ok (n := 0) (a := makeResultStream (bs.drop 4)) rfl, Tk.bind_no ?_]
    · show 4 + (0 + (c.getRemoteHpMaskT sp _).2.2) = 4
      unfold Connection.getRemoteHpMaskT
      rw [holds_none hc hn]; rfl
    · intro a
      show (c.getRemoteHpMaskT sp _).1 ≠ _
      unfold Connection.getRemoteHpMaskT
      rw [holds_none hc hn]; exact nofun
  · have hd : (bs.drop 4).length < 16 := by rw [List.length_drop]; omega
    have hm : (c.getRemoteHpMaskT sp (makeResultStream (bs.drop 4))).2.2 = (bs.drop 4).length + 1 ∧ ∀ a, (c.getRemoteHpMaskT sp (makeResultStream (bs.drop 4))).1 ≠ .ok a := by
      have hs : Counts (varBytesFromStreamT 16) (varBytesFromStream 16) := (varBytes_cost 0 16).same
      have hv : ∀ a, (varBytesFromStream 16 (makeResultStream (bs.drop 4))).1 ≠ .ok a := fun a => by rw [varBytes_missing hd]; exact nofun
      unfold Connection.getRemoteHpMaskT
      rw [holds_some hc hk]
      constructor
      · rw [Tk.lift_ok rfl]
        unfold Secrets.getHeaderProtectionMaskT
        show ((varBytesFromStreamT 16 >>= _) _).2.2 = _
        rw [hs.no hv, varBytesT_short hd]
      · intro a
        have : Counts (Tk.lift (.ok (secretsOf P k)) >>= fun s => s.getHeaderProtectionMaskT) (Rd.lift (.ok (secretsOf P k)) >>= fun s => s.getHeaderProtectionMask) :=
          Counts.bind (fun _ => ⟨rfl, rfl⟩) fun s => Counts.bind (varBytes_cost 0 _).same fun _ => fun _ => ⟨rfl, rfl⟩
        rw [(this _).1]
        rw [Rd.bind_ok (Rd.lift_apply _ _)]
        unfold Secrets.getHeaderProtectionMask
        rw [Rd.bind_err (varBytes_missing (n := (secretsOf P k).cipherSuite.sampleLen) hd)]
        exact nofun
    unfold tailT
    rw [Tk.bind_ok (split h), Tk.bind_ok (n := 0) (a := makeResultStream (bs.drop 4)) rfl, Tk.bind_no (m := (c.getRemoteHpMaskT sp).on _) (s := makeResultStream (bs.drop 4)) hm.2]
    show 4 + (0 + (c.getRemoteHpMaskT sp _).2.2) = _
    rw [hm.1, List.length_drop]; omega

/-- Up to the ciphertext. -/
theorem tailT_mask (hP : PrimLaws P) (hc : Holds P c f) (sp : PnSpace) (whole : Bool) {lenOf : Mask → Out Nat} {hdr : Mask → Out Bytes} {b mb : U8}
    (hlen : ∀ m, lenOf m = .ok ((b ^^^ (m.m0 &&& mb)).toNat % 4 + 1)) (payload : Nat → Tk Bytes) (mid pnP body : Bytes) {k : Keys} (h4 : pnP.length = 4)
    (h16 : 16 ≤ body.length) (hk : f sp = some k) : ∃ (m : Mask) (r num : Bytes),
      P.aesEcb k.hp (body.take 16) = some (m.m0 :: m.m1 :: m.m2 :: m.m3 :: m.m4 :: r) ∧ num.length ≤ 4 ∧
      (num = pnP.zipWith (· ^^^ ·) [m.m1, m.m2, m.m3, m.m4] ∨ num = (pnP.zipWith (· ^^^ ·) [m.m1, m.m2, m.m3, m.m4]).take ((b ^^^ (m.m0 &&& mb)).toNat % 4 + 1)) ∧
      (tailT bp c sp whole lenOf hdr payload mid (makeResultStream (pnP ++ body))).2.2 = 20 +
        ((payload ((b ^^^ (m.m0 &&& mb)).toNat % 4 + 1) >>= tailEndT c sp hdr mid m
          ((pnP.zipWith (· ^^^ ·) [m.m1, m.m2, m.m3, m.m4]).take ((b ^^^ (m.m0 &&& mb)).toNat % 4 + 1)) (BitVec.ofNat 64 (beNat num))) (makeResultStream body)).2.2 := by
  have hl : (body.take 16).length = 16 := by rw [List.length_take]; omega
  obtain ⟨m, hm⟩ := hpMask_noPanic hP ((hc sp).2.2 k hk).1 hl
  obtain ⟨r, hr⟩ := hpMask_ok.mp hm
  have hle : (if whole then pnP.zipWith (· ^^^ ·) (maskList m)
      else (pnP.zipWith (· ^^^ ·) (maskList m)).take ((b ^^^ (m.m0 &&& mb)).toNat % 4 + 1)).length ≤ 4 := by
    split
    · simp [h4, maskList]
    · rw [List.length_take]; omega
  refine ⟨m, r, _, hr, hle, (by cases whole; exact .inr rfl; exact .inl rfl), ?_⟩
  have hx : xorPnProtection pnP m = .ok (pnP.zipWith (· ^^^ ·) (maskList m)) := xorPn_ok.mpr ⟨by omega, rfl⟩
  have ht : sliceTo (pnP.zipWith (· ^^^ ·) (maskList m)) ((b ^^^ (m.m0 &&& mb)).toNat % 4 + 1) = .ok ((pnP.zipWith (· ^^^ ·) (maskList m)).take ((b ^^^ (m.m0 &&& mb)).toNat % 4 + 1)) :=
    sliceTo_ok.mpr ⟨by simp [h4, maskList]; omega, rfl⟩
  have hv := varBytesT_run (bs := pnP) (makeResultStream body)
  rw [h4, ← makeResultStream_append] at hv
  have hmask : (c.getRemoteHpMaskT sp (makeResultStream body)).1 = .ok m ∧ (c.getRemoteHpMaskT sp (makeResultStream body)).2.2 = 16 := by
    have hv2 := varBytesT_run (bs := body.take 16) (makeResultStream (body.drop 16))
    rw [hl, ← makeResultStream_append, List.take_append_drop] at hv2
    unfold Connection.getRemoteHpMaskT
    rw [holds_some hc hk, Tk.bind_apply]
    show ((secretsOf P k).getHeaderProtectionMaskT _).1 = _ ∧ 0 + ((secretsOf P k).getHeaderProtectionMaskT _).2.2 = 16
    unfold Secrets.getHeaderProtectionMaskT
    show ((varBytesFromStreamT 16 >>= _) _).1 = _ ∧ 0 + ((varBytesFromStreamT 16 >>= _) _).2.2 = _
    rw [Tk.bind_apply, hv2]
    exact ⟨hm, rfl⟩
  have hon : (c.getRemoteHpMaskT sp).on (makeResultStream body) (makeResultStream body) = (.ok m, makeResultStream body, 16) := by
    show ((c.getRemoteHpMaskT sp (makeResultStream body)).1, makeResultStream body, (c.getRemoteHpMaskT sp (makeResultStream body)).2.2) = _
    rw [hmask.1, hmask.2]
  unfold tailT
  rw [Tk.bind_ok hv, Tk.bind_ok (n := 0) (a := makeResultStream body) rfl, Tk.bind_ok hon,
    Tk.lift_ok (hlen m), Tk.lift_ok hx, Tk.lift_ok ht, Tk.lift_ok (reconstruct_none bp c sp _ hle (hc sp).2.1),
    show ∀ n, 4 + (0 + (16 + n)) = 20 + n from fun n => by omega]
  rfl

/-- A ciphertext that does not open: it is gone over, with the associated data, and nothing after it. -/
theorem tailEndT_spent (hc : Holds P c f) {sp : PnSpace} {k : Keys} (hk : f sp = some k)
    {hdr : Mask → Out Bytes} {hb : Bytes} {b : U8} {mid pnB data : Bytes} {m : Mask} {pn : U64} (hhdr : hdr m = .ok (b :: hb))
    (hf : ∀ ct tag, data = ct ++ tag → tag.length = 16 → P.gcmOpen k.key (packetNonce k.iv pn) (b :: (hb ++ mid) ++ pnB) ct tag = none) (s : Stream) :
    (tailEndT c sp hdr mid m pnB pn data s).2.2 = data.length + (1 + hb.length + mid.length + pnB.length) := by
  have hseen := tailEnd_seen hc hk hhdr hf s
  have hno : ∀ a, c.decryptRemotePayload sp data (b :: hb ++ mid ++ pnB) pn ≠ .ok a := by
    intro a ha
    rw [decrypt_eq (holds_some hc hk)] at ha
    obtain ⟨ct, tag, e, ht, ho⟩ := internalDecrypt_ok.mp ha
    have := hf ct tag e ht
    rw [show b :: (hb ++ mid) ++ pnB = b :: hb ++ mid ++ pnB by simp] at this
    exact absurd (this.symm.trans ho) nofun
  unfold tailEndT
  rw [Tk.lift_ok hhdr, Tk.bind_no hno]
  show data.length + _ = _
  simp only [List.length_append, List.length_cons]
  omega

/-- The whole of what follows Length. -/
theorem tailT_spent (hP : PrimLaws P) (hc : Holds P c f) (sp : PnSpace) (whole : Bool)
    {lenOf : Mask → Out Nat} {hdr : Mask → Out Bytes} {b : U8} (hlen : ∀ m, lenOf m = .ok ((b ^^^ (m.m0 &&& 0x0f)).toNat % 4 + 1))
    {hb : Bytes} (hhdr : ∀ m, hdr m = .ok ((b ^^^ (m.m0 &&& 0x0f)) :: hb)) (L : U64) (mid pnP body : Bytes) (k : Keys) (h4 : pnP.length = 4) (h16 : 16 ≤ body.length)
    (hk : f sp = some k) (hs : body.length + 4 < 2 ^ 64)
    (hf : ∀ d, d <+: body → d.length + lengthUnder P k b body = L.toNat → Shut P k 0x0f b (hb ++ mid) pnP body d) :
    (tailT bp c sp whole lenOf hdr (lenBytesT bp L) mid (makeResultStream (pnP ++ body))).2.2 =
      20 + spent bp (1 + (hb ++ mid).length) L.toNat body.length (lengthUnder P k b body) := by
  obtain ⟨m, r, num, hr, hpl, hnum, e⟩ := tailT_mask hP (bp := bp) hc sp whole hlen (hdr := hdr) (lenBytesT bp L) mid pnP body h4 h16 hk
  have hl : lengthUnder P k b body = (b ^^^ (m.m0 &&& 0x0f)).toNat % 4 + 1 := by unfold lengthUnder; rw [hr]
  have hno := fun d hd h ct tag hct ht => shut_none ((hc sp).2.2 k hk) (hf d hd h) hr hnum hpl (ct := ct) (tag := tag) hct ht
  have hpn : ((pnP.zipWith (· ^^^ ·) [m.m1, m.m2, m.m3, m.m4]).take ((b ^^^ (m.m0 &&& 0x0f)).toNat % 4 + 1)).length = (b ^^^ (m.m0 &&& 0x0f)).toNat % 4 + 1 := by
    rw [List.length_take, List.length_zipWith, h4]
    show min _ (min 4 4) = _
    omega
  rw [e, hl]
  rw [hl] at hno
  generalize hn : (b ^^^ (m.m0 &&& 0x0f)).toNat % 4 + 1 = n
  have hn4 : n ≤ 4 := by omega
  have hn1 : 1 ≤ n := by omega
  rw [hn] at hno hpn
  clear hn e hl hnum
  congr 1
  unfold spent lenBytesT
  rw [Tk.bind_assoc]
  by_cases h1 : L.toNat < n
  · rw [if_pos h1]
    cases bp with
    | debug =>
      rw [Tk.bind_no]
      · rfl
      · intro a
        show subUsize .debug L.toNat n ≠ .ok a
        unfold subUsize; rw [if_neg (by omega)]; exact nofun
    | release =>
      rw [Tk.lift_ok (a := 2 ^ 64 + L.toNat - n) (by unfold subUsize; rw [if_neg (by omega)]),
        (varBytes_cost 0 _).same.no (fun a => by rw [varBytes_missing (by omega)]; exact nofun), varBytesT_short (by omega)]
  · rw [if_neg h1, Tk.lift_ok (a := L.toNat - n) (subUsize_ok (by omega))]
    by_cases h2 : body.length < L.toNat - n
    · rw [if_pos h2, (varBytes_cost 0 _).same.no (fun a => by rw [varBytes_missing h2]; exact nofun), varBytesT_short h2]
    · rw [if_neg h2]
      have hlt : (body.take (L.toNat - n)).length = L.toNat - n := by rw [List.length_take]; omega
      have hv := varBytesT_run (bs := body.take (L.toNat - n)) (makeResultStream (body.drop (L.toNat - n)))
      rw [hlt, ← makeResultStream_append, List.take_append_drop] at hv
      rw [Tk.bind_ok hv, tailEndT_spent hc hk (hhdr m) (hno _ (List.take_prefix _ _) (by omega)), hlt, hpn, List.length_append]
      omega

end QuicSea
