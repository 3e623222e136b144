import Verif.Proofs.Timing
import Verif.Props.OracleReal
/-
C134: what the work spent on a forged packet tells about the keys.
-/
namespace Spec
open QuicSea
/-- The bytes gone over in decoding a datagram: those taken from streams (each try counts, also the one at the end) and those passed to the AEAD. -/
def workOn (bp : Profile) (c : Connection) (data : Bytes) : Nat := (decodePacketsT bp c (makeResultStream data)).2.2
end Spec

namespace QuicSea
open Spec
variable {P : Prims} {bp : Profile} {c : Connection} {f : PnSpace → Option Keys}

/-! ### The packets with a Length field -/

/-- `preReader`, counting. -/
def preReaderT : PacketType → Tk Bytes
  | .initial => do
    let t ← varIntWithBytesFromStreamT
    let token ← varBytesFromStreamT t.1.toNat
    pure (t.2 ++ token)
  | _ => pure []
theorem preReader_same (kind : PacketType) : Counts (preReaderT kind) (preReader kind) := by
  unfold preReaderT preReader
  cases kind with
  | initial => exact .bind (varIntWithBytes_cost 0).same fun _ => .bind (varBytes_cost 0 _).same fun _ => .pure _
  | _ => exact .pure _

/-- What is read before the packet number. -/
def prefixT (kind : PacketType) : Tk (LongPacketHeader × Bytes × U64 × Bytes) := do
  let b ← u8FromDatagramT
  let x ← LongPacketHeader.fromStreamT b
  let t ← preReaderT kind
  let l ← varIntWithBytesFromStreamT
  pure (x, t, l.1, l.2)
def prefixR (kind : PacketType) : Rd (LongPacketHeader × Bytes × U64 × Bytes) := do
  let b ← u8FromDatagram
  let x ← LongPacketHeader.fromStream b
  let t ← preReader kind
  let l ← varIntWithBytesFromStream
  pure (x, t, l.1, l.2)
theorem prefix_same (kind : PacketType) : Counts (prefixT kind) (prefixR kind) :=
  .bind (u8_cost 0).same fun _ => .bind (longHeader_cost 0 _).same fun _ => .bind (preReader_same _) fun _ => .bind (varIntWithBytes_cost 0).same fun _ => .pure _

/-- What follows it. -/
def restT (bp : Profile) (c : Connection) (sp : PnSpace) (whole : Bool) (r : LongPacketHeader × Bytes × U64 × Bytes) : Tk (Mask × Bytes × U64 × List Frame) :=
  tailT bp c sp whole (fun m => (r.1.removeProtection m).packetNumberLength) (fun m => (r.1.removeProtection m).toBytes) (lenBytesT bp r.2.2.1) (r.2.1 ++ r.2.2.2)

/-- Does the kind of packet take its number from all four bytes? -/
def wholeOf : PacketType → Bool
  | .handshake => true
  | _ => false

theorem next_ticks_long {data : Bytes} {s1 : Stream} {x : LongPacketHeader} (hx : nextHeaderFromStream (makeResultStream data) = (.ok (.long x), s1))
    {sp : PnSpace} (hk : KindIn (packetKind x.headerByte x.version) sp) :
    (decodeNextPacketT bp c (makeResultStream data)).2.2 = (nextHeaderFromStreamT (makeResultStream data)).2.2 +
      ((prefixT (packetKind x.headerByte x.version) >>= restT bp c sp (wholeOf (packetKind x.headerByte x.version))) (makeResultStream data)).2.2 := by
  have h128 := (long_prefix hx).choose_spec.2.2.1
  have hT : nextHeaderFromStreamT.onUnwrap (makeResultStream data) (makeResultStream data) =
      (.ok (.long x), makeResultStream data, (nextHeaderFromStreamT (makeResultStream data)).2.2) := by
    show ((nextHeaderFromStreamT (makeResultStream data)).1.unwrap, _, _) = _
    rw [(nextHeader_cost 0 _).1, hx]; rfl
  unfold decodeNextPacketT
  rw [Tk.bind_ok (n := 0) (a := makeResultStream data) (s' := makeResultStream data) rfl, Nat.zero_add, Tk.bind_ok hT]
  congr 1
  dsimp only
  rw [Tk.lift_ok (packetType_eq x h128)]
  rcases hk with ⟨hk, rfl⟩ | ⟨hk, rfl⟩ | ⟨hk, rfl⟩
  · rw [hk]
    dsimp only
    rw [Tk.map_ticks, initialT_eq]
    simp only [prefixT, preReaderT, restT, wholeOf, Tk.bind_assoc, Tk.pure_bind]
    exact Tk.ticks_congr fun _ _ => Tk.ticks_congr fun _ _ => Tk.ticks_congr fun _ _ => Tk.ticks_congr fun _ _ => Tk.ticks_congr fun _ _ => Tk.map_ticks _
  · rw [hk]
    dsimp only
    rw [Tk.map_ticks, handshakeT_eq]
    simp only [prefixT, preReaderT, restT, wholeOf, Tk.bind_assoc, Tk.pure_bind, List.nil_append]
    exact Tk.ticks_congr fun _ _ => Tk.ticks_congr fun _ _ => Tk.ticks_congr fun _ _ => Tk.map_ticks _
  · rw [hk]
    dsimp only
    rw [Tk.map_ticks, zeroRttT_eq]
    simp only [prefixT, preReaderT, restT, wholeOf, Tk.bind_assoc, Tk.pure_bind, List.nil_append]
    exact Tk.ticks_congr fun _ _ => Tk.ticks_congr fun _ _ => Tk.ticks_congr fun _ _ => Tk.map_ticks _

/-- The work up to the packet number. -/
def longW (kind : PacketType) (data : Bytes) : Nat := (nextHeaderFromStreamT (makeResultStream data)).2.2 + (prefixT kind (makeResultStream data)).2.2

/-! ### The datagram -/

theorem holds_frugal (hP : PrimLaws P) (hc : Holds P c f) (sp : PnSpace) : Frugal c sp :=
  frugal_of_keys hP (by
    cases h : f sp with
    | none => exact .inr ⟨_, holds_none hc h⟩
    | some k => exact .inl ⟨_, holds_some hc h⟩)

/-- With a forged packet the datagram ends; if it is Version Negotiation, the end is looked at once more. -/
theorem work_one (hP : PrimLaws P) (hc : Holds P c f) {data : Bytes} (hs : data.length < 2 ^ 64) (hf : Forged P f data) (h0 : data ≠ []) :
    workOn bp c data = 1 + (decodeNextPacketT bp c (makeResultStream data)).2.2 + if seenOf (decodeNextPacket bp c (makeResultStream data)).1 = .ok then 1 else 0 := by
  have hfr := holds_frugal hP hc
  obtain ⟨e1, e2, -⟩ := decodeNext_cost (bp := bp) hfr (makeResultStream data)
  have hok := fun p s' => forged_ok hP (bp := bp) hc hs hf (p := p) (s' := s')
  unfold workOn decodePacketsT
  cases data with
  | nil => exact absurd rfl h0
  | cons b data =>
    generalize hS : makeResultStream (b :: data) = S at *
    have hne : S ≠ [] := by rw [← hS]; exact nofun
    cases S with
    | nil => exact absurd rfl hne
    | cons y S =>
      simp only [decodePacketsLoopT]
      rcases hm : decodeNextPacketT bp c (y :: S) with ⟨o, s', n⟩
      rw [hm] at e1 e2
      have hr : decodeNextPacket bp c (y :: S) = (o, s') := Prod.ext e1.symm e2.symm
      rw [hr] at hok ⊢
      cases o with
      | ok p =>
        have := hok p s' rfl
        subst this
        rw [if_pos (by rfl)]
        rfl
      | err e => rw [if_neg (by exact nofun)]; rfl
      | panic e => rw [if_neg (by exact nofun)]; rfl

theorem long_not_ok (hP : PrimLaws P) (hc : Holds P c f) {data : Bytes} (hs : data.length < 2 ^ 64) (hf : Forged P f data) {s1 : Stream} {x : LongPacketHeader}
    (hx : nextHeaderFromStream (makeResultStream data) = (.ok (.long x), s1)) {sp : PnSpace} (hki : KindIn (packetKind x.headerByte x.version) sp) :
    seenOf (decodeNextPacket bp c (makeResultStream data)).1 ≠ .ok := by
  intro hok
  rcases long_fate (bp := bp) hx hki with ⟨b, L, body, h1, h2, h3⟩ | ⟨g, hg, e⟩
  · cases hk : f sp with
    | none => rw [h3 hP hc hk] at hok; cases hok
    | some k => exact absurd ((decode_cut hP hc hs h1 h2 hk hf).symm.trans hok) (refusal_ne _ _ _ _)
  · exact absurd ((e hP hc).symm.trans hok) (hg _)

/-- A packet with a Length field. -/
theorem work_long (hP : PrimLaws P) (hc : Holds P c f) {data : Bytes} (hs : data.length < 2 ^ 64) (hf : Forged P f data) {s1 : Stream} {x : LongPacketHeader}
    (hx : nextHeaderFromStream (makeResultStream data) = (.ok (.long x), s1)) {sp : PnSpace} (hki : KindIn (packetKind x.headerByte x.version) sp) :
    workOn bp c data = 1 + longW (packetKind x.headerByte x.version) data + match prefixR (packetKind x.headerByte x.version) (makeResultStream data) with
      | (.ok r, s3) => (restT bp c sp (wholeOf (packetKind x.headerByte x.version)) r s3).2.2
      | _ => 0 := by
  have h0 : data ≠ [] := by rintro rfl; cases hx
  rw [work_one hP hc hs hf h0, if_neg (long_not_ok hP hc hs hf hx hki), next_ticks_long hx hki]
  unfold longW
  have hsame := prefix_same (packetKind x.headerByte x.version)
  rcases hp : prefixR (packetKind x.headerByte x.version) (makeResultStream data) with ⟨o, s3⟩
  cases o with
  | ok r => rw [hsame.ok hp]; dsimp only; omega
  | err e => rw [hsame.no (fun a => by rw [hp]; exact nofun)]
  | panic e => rw [hsame.no (fun a => by rw [hp]; exact nofun)]

/-- C134: the work spent on a forged packet with a Length field depends on the keys through the packet number length, which header protection hides. -/
theorem C134_long (hP : PrimLaws P) (bp : Profile) {data : Bytes} (hs : data.length < 2 ^ 64) {sp : PnSpace} {b : U8} {mid pn body : Bytes} {L : Nat}
    (h : CutAt data sp b mid L pn body) (h16 : 16 ≤ body.length) :
    ∃ W, ∀ (c : Connection) (f : PnSpace → Option Keys) (k : Keys), Holds P c f → Forged P f data → f sp = some k →
      workOn bp c data = W + spent bp (1 + mid.length) L body.length (lengthUnder P k b body) := by
  have hcut := h
  obtain ⟨x, hb, tok, lb, rfl, h128, w1, hki, w2, w3, h4, rfl, rfl⟩ := h
  have hl64 : (BitVec.ofNat 64 L).toNat = L := ofNat64_toNat (by have := w3.lt; omega)
  have hx : nextHeaderFromStream (makeResultStream (x.headerByte :: (hb ++ tok ++ lb) ++ pn ++ body)) =
      (.ok (.long { x with isProtected := protectable (packetKind x.headerByte x.version) }), makeResultStream (tok ++ lb ++ pn ++ body)) :=
    nextHeader_long_iff.mpr ⟨x.headerByte :: hb, by simp [makeResultStream_append], w1, h128, rfl⟩
  obtain ⟨hlen, hhdr⟩ := long_lens (x := { x with isProtected := protectable (packetKind x.headerByte x.version) }) w1 rfl hki
  have hpre : prefixR (packetKind x.headerByte x.version) (makeResultStream (x.headerByte :: (hb ++ tok ++ lb) ++ pn ++ body)) =
      (.ok ({ x with isProtected := protectable (packetKind x.headerByte x.version) }, tok, BitVec.ofNat 64 L, lb), makeResultStream (pn ++ body)) := by
    obtain ⟨hb', e0, -, -, -, r1, r2⟩ := long_prefix hx
    unfold prefixR
    rw [Rd.bind_ok r1, Rd.bind_ok r2]
    simp only [makeResultStream_append, List.append_assoc]
    rw [Rd.bind_ok (pre_reads w2 _), Rd.bind_ok (varIntWithBytes_reads (v := BitVec.ofNat 64 L) (by rw [hl64]; exact w3) _)]
    rfl
  refine ⟨1 + longW (packetKind x.headerByte x.version) (x.headerByte :: (hb ++ tok ++ lb) ++ pn ++ body) + 20, fun c f k hc hf hk => ?_⟩
  have hfd := fun d => hf.1 sp k _ _ L pn body d hk hcut
  rw [work_long hP hc hs hf hx hki]
  dsimp only
  rw [hpre]
  dsimp only [restT]
  rw [tailT_spent hP hc sp _ hlen hhdr _ _ pn body k h4 h16 hk (by simp at hs; omega) (fun d hd h => ?_), hl64, ← List.append_assoc hb]
  · dsimp only; omega
  · rw [← List.append_assoc]
    exact hfd d hd (by rw [hl64] at h; exact h)

/-! ### The packets with a short header -/

theorem low_bits (b m : U8) : (b ^^^ (m &&& 0x1f)).toNat % 4 = (b ^^^ (m &&& 0x0f)).toNat % 4 := by
  have e : ∀ x : U8, x.toNat % 4 = (x &&& 3).toNat := by decide +kernel
  have d : ∀ x y z : U8, (x ^^^ y) &&& z = (x &&& z) ^^^ (y &&& z) := by
    intro x y z; ext i; simp [Bool.and_xor_distrib_right]
  rw [e, e, d, d, BitVec.and_assoc, BitVec.and_assoc, show (0x1f : U8) &&& 3 = 3 by decide, show (0x0f : U8) &&& 3 = 3 by decide]

/-- A packet with a short header: what is read before the packet number, and the rest. -/
theorem work_short (hP : PrimLaws P) (hc : Holds P c f) {data : Bytes} (hs : data.length < 2 ^ 64) (hf : Forged P f data) {s1 : Stream} {x : ShortPacketHeader}
    (hx : nextHeaderFromStream (makeResultStream data) = (.ok (.short x), s1)) : ∃ hb rest, data = x.headerByte :: hb ++ rest ∧ hb.length = 8 ∧ x.headerByte.toNat < 128 ∧
      (∀ m, (x.removeProtection m).packetNumberLength = .ok ((x.headerByte ^^^ (m.m0 &&& 0x1f)).toNat % 4 + 1)) ∧
      (∀ m, (x.removeProtection m).toBytes = .ok ((x.headerByte ^^^ (m.m0 &&& 0x1f)) :: hb)) ∧
      workOn bp c data = 1 + (nextHeaderFromStreamT (makeResultStream data)).2.2 + (u8FromDatagramT (makeResultStream data)).2.2 +
        (ShortPacketHeader.fromStreamT x.headerByte (makeResultStream (hb ++ rest))).2.2 +
        (tailT bp c .application false (fun m => (x.removeProtection m).packetNumberLength) (fun m => (x.removeProtection m).toBytes)
          (fun _ => allBytesFromStreamT) [] (makeResultStream rest)).2.2 := by
  obtain ⟨bs0, e0, hsf, h128, hp⟩ := nextHeader_short_iff.mp hx
  have hsf' := hsf
  obtain ⟨hb, rfl, l8, v8⟩ := hsf'
  simp only [List.singleton_append] at e0 hsf
  obtain ⟨a, rest, e1, e2, rfl⟩ := mrs_split e0
  have e2 := makeResultStream_inj e2
  have r1 : u8FromDatagram (makeResultStream data) = (.ok x.headerByte, makeResultStream hb ++ makeResultStream rest) := by rw [e0]; rfl
  have hrem : ∀ m, x.removeProtection m = { x with headerByte := x.headerByte ^^^ (m.m0 &&& 0x1f), isProtected := false } := by
    intro m
    unfold ShortPacketHeader.removeProtection
    rw [hp]; rfl
  have h0 : data ≠ [] := by rintro rfl; cases hx
  have hT : nextHeaderFromStreamT.onUnwrap (makeResultStream data) (makeResultStream data) =
      (.ok (.short x), makeResultStream data, (nextHeaderFromStreamT (makeResultStream data)).2.2) := by
    show ((nextHeaderFromStreamT (makeResultStream data)).1.unwrap, _, _) = _
    rw [(nextHeader_cost 0 _).1, hx]; rfl
  refine ⟨hb, rest, by rw [e1, ← e2], l8, h128, fun m => by rw [hrem]; exact short_pnLength rfl, fun m => ?_, ?_⟩
  · rw [hrem]
    refine short_toBytes (h := { x with headerByte := x.headerByte ^^^ (m.m0 &&& 0x1f), isProtected := false }) ?_
    obtain ⟨d, e, l, v⟩ := hsf
    simp only [List.singleton_append, List.cons.injEq, true_and] at e
    exact ⟨d, by rw [e]; rfl, l, v⟩
  · obtain ⟨g, hg, e⟩ := short_fate (bp := bp) hx
    rw [work_one hP hc hs hf h0, if_neg (by rw [e hP hc hf]; exact hg _)]
    unfold decodeNextPacketT
    rw [Tk.bind_ok (n := 0) (a := makeResultStream data) (s' := makeResultStream data) rfl, Nat.zero_add, Tk.bind_ok hT]
    dsimp only
    rw [Tk.map_ticks, oneRttT_eq, (u8_cost 0).same.ok r1, (shortHeader_cost 0 _).same.ok (short_reads hsf hp _), Tk.map_ticks, makeResultStream_append]
    omega

/-- C134: and so does the work spent on one with a short header. -/
theorem C134_short (hP : PrimLaws P) (bp : Profile) {data : Bytes} (hs : data.length < 2 ^ 64) {b : U8} {mid pn body : Bytes} (hb : b.toNat < 128) (h8 : mid.length = 8)
    (h4 : pn.length = 4) (e : data = b :: mid ++ pn ++ body) (h16 : 16 ≤ body.length) :
    ∃ W, ∀ (c : Connection) (f : PnSpace → Option Keys) (k : Keys), Holds P c f → Forged P f data → f .application = some k →
      workOn bp c data = W + lengthUnder P k b body := by
  have hh : ∃ x s1, nextHeaderFromStream (makeResultStream data) = (.ok (.short x), s1) ∧ x.headerByte = b := by
    refine ⟨⟨b, .ofU64 (BitVec.ofNat 64 (beNat mid)), true⟩, makeResultStream (pn ++ body), nextHeader_short_iff.mpr ⟨b :: mid, ?_, ⟨mid, rfl, h8, ?_⟩, hb, rfl⟩, rfl⟩
    · rw [e, List.append_assoc, makeResultStream_append]
    · have := beNat_lt mid
      rw [h8] at this
      rw [cidVal_ofU64, ofNat64_toNat (Nat.lt_of_lt_of_le this (by decide))]
  obtain ⟨x, s1, hx, rfl⟩ := hh
  refine ⟨1 + (nextHeaderFromStreamT (makeResultStream data)).2.2 + (u8FromDatagramT (makeResultStream data)).2.2 +
    (ShortPacketHeader.fromStreamT x.headerByte (makeResultStream (mid ++ (pn ++ body)))).2.2 + (20 + (body.length + 1 + (body.length + 9))), fun c f k hc hf hk => ?_⟩
  obtain ⟨hb', rest, e1, l8, h128, hlen, hhdr, ew⟩ := work_short hP (bp := bp) hc hs hf hx
  have hsp : hb' = mid ∧ rest = pn ++ body := by
    rw [e, List.append_assoc, List.cons_append, List.cons_append] at e1
    have := List.append_inj (List.cons.inj e1).2 (by omega)
    exact ⟨this.1.symm, this.2.symm⟩
  obtain ⟨rfl, rfl⟩ := hsp
  rw [ew]
  obtain ⟨m, r, num, hr, hpl, hnum, et⟩ := tailT_mask hP (bp := bp) hc .application false hlen (hdr := fun m => (x.removeProtection m).toBytes)
    (fun _ => allBytesFromStreamT) [] pn body h4 h16 hk
  have hl : lengthUnder P k x.headerByte body = (x.headerByte ^^^ (m.m0 &&& 0x1f)).toNat % 4 + 1 := by unfold lengthUnder; rw [hr, low_bits]
  have hpn : ((pn.zipWith (· ^^^ ·) [m.m1, m.m2, m.m3, m.m4]).take ((x.headerByte ^^^ (m.m0 &&& 0x1f)).toNat % 4 + 1)).length = (x.headerByte ^^^ (m.m0 &&& 0x1f)).toNat % 4 + 1 := by
    rw [List.length_take, List.length_zipWith, h4]
    show min _ (min 4 4) = _
    omega
  rw [et, Tk.bind_ok (allBytesT_run _), tailEndT_spent hc hk (hhdr m) (fun ct tag h1 h2 => by
    rw [List.append_nil]
    exact shut_none ((hc _).2.2 k hk) (hf.2 k _ hb' pn body hk hb h8 h4 e) hr hnum hpl h1 h2), hpn, hl, l8, List.length_nil]
  omega

/-! ### The claim -/

/-- C134 as RFC 9001 section 9.5 has it: the work spent on a datagram that nobody with the keys made does not depend on the keys. -/
def C134For (P : Prims) : Prop :=
  ∀ (bp : Profile) (c c' : Connection) (f f' : PnSpace → Option Keys), Holds P c f → Holds P c' f' →
    (∀ sp, (f sp).isSome = (f' sp).isSome) → ∀ data : Bytes, data.length < 2 ^ 64 →
    Forged P f data → Forged P f' data → workOn bp c data = workOn bp c' data
/-- The claim, for all algorithms that obey the laws. -/
def C134Statement : Prop := ∀ P, PrimLaws P → C134For P

theorem tailT_early_same {c c' : Connection} {f f' : PnSpace → Option Keys} (hc : Holds P c f) (hc' : Holds P c' f') (hff : ∀ sp, (f sp).isSome = (f' sp).isSome) (sp : PnSpace)
    (whole : Bool) {lenOf : Mask → Out Nat} {hdr : Mask → Out Bytes} (payload : Nat → Tk Bytes) (mid bs : Bytes) (h : bs.length < 20 ∨ f sp = none) :
    (tailT bp c sp whole lenOf hdr payload mid (makeResultStream bs)).2.2 = (tailT bp c' sp whole lenOf hdr payload mid (makeResultStream bs)).2.2 := by
  obtain ⟨t1, t2, t3⟩ := tailT_early (bp := bp) hc sp whole (lenOf := lenOf) (hdr := hdr) payload mid bs
  obtain ⟨u1, u2, u3⟩ := tailT_early (bp := bp) hc' sp whole (lenOf := lenOf) (hdr := hdr) payload mid bs
  by_cases g : bs.length < 4
  · rw [t1 g, u1 g]
  · have := hff sp
    cases hk : f sp with
    | none =>
      cases hk' : f' sp with
      | none => rw [t2 (by omega) hk, u2 (by omega) hk']
      | some k' => rw [hk, hk'] at this; cases this
    | some k =>
      have h20 : bs.length < 20 := h.resolve_right (by rw [hk]; exact nofun)
      cases hk' : f' sp with
      | none => rw [hk, hk'] at this; cases this
      | some k' => rw [t3 (by omega) h20 k hk, u3 (by omega) h20 k' hk']

section
variable (hP : PrimLaws P) (bp : Profile) {c c' : Connection} {f f' : PnSpace → Option Keys} (hc : Holds P c f) (hc' : Holds P c' f')
  (hff : ∀ sp, (f sp).isSome = (f' sp).isSome) (data : Bytes) (hs : data.length < 2 ^ 64) (hf : Forged P f data) (hf' : Forged P f' data)
include hP hc hc' hff hs hf hf'

/-- **C134, exactly**: the work is the same under both keys if and only if the packet number lengths they show lead to the same work (packets with a Length), and
are the same (packets with a short header). -/
theorem C134_exact : workOn bp c data = workOn bp c' data ↔
    (∀ sp b mid L pn body k k', CutAt data sp b mid L pn body → 16 ≤ body.length → f sp = some k → f' sp = some k' →
      spent bp (1 + mid.length) L body.length (lengthUnder P k b body) = spent bp (1 + mid.length) L body.length (lengthUnder P k' b body)) ∧
    (∀ (b : U8) (mid pn body : Bytes) (k k' : Keys), b.toNat < 128 → mid.length = 8 → pn.length = 4 → data = b :: mid ++ pn ++ body → 16 ≤ body.length →
      f .application = some k → f' .application = some k' → lengthUnder P k b body = lengthUnder P k' b body) := by
  constructor
  · refine fun h => ⟨fun sp b mid L pn body k k' h1 h2 h3 h4 => ?_, fun b mid pn body k k' h1 h2 h3 h4 h5 h6 h7 => ?_⟩
    · obtain ⟨W, hW⟩ := C134_long hP bp hs h1 h2
      rw [hW c f k hc hf h3, hW c' f' k' hc' hf' h4] at h
      omega
    · obtain ⟨W, hW⟩ := C134_short hP bp hs h1 h2 h3 h4 h5
      rw [hW c f k hc hf h6, hW c' f' k' hc' hf' h7] at h
      omega
  · rintro ⟨hL, hS⟩
    by_cases h0 : data = []
    · rw [h0]; rfl
    rcases hx : nextHeaderFromStream (makeResultStream data) with ⟨o, s1⟩
    cases o with
    | panic w =>
      have := nextHeader_noPanic (makeResultStream data)
      rw [hx] at this; cases this
    | err e =>
      rw [work_one hP hc hs hf h0, work_one hP hc' hs hf' h0, decode_err hx, decode_err hx]
      have hT : ∀ a, (nextHeaderFromStreamT.onUnwrap (makeResultStream data) (makeResultStream data)).1 ≠ .ok a := by
        intro a
        show (nextHeaderFromStreamT (makeResultStream data)).1.unwrap ≠ _
        rw [(nextHeader_cost 0 _).1, hx]; exact nofun
      unfold decodeNextPacketT
      rw [Tk.bind_ok (n := 0) (a := makeResultStream data) (s' := makeResultStream data) rfl, Tk.bind_no hT,
        Tk.bind_ok (n := 0) (a := makeResultStream data) (s' := makeResultStream data) rfl, Tk.bind_no hT]
    | ok x =>
      cases x with
      | short x =>
        obtain ⟨hb, rest, e, l8, h128, hlen, hhdr, ew⟩ := work_short hP (bp := bp) hc hs hf hx
        obtain ⟨hb', rest', e', l8', -, -, -, ew'⟩ := work_short hP (bp := bp) hc' hs hf' hx
        have hsp : hb' = hb ∧ rest' = rest := by
          rw [e, List.cons_append, List.cons_append] at e'
          have := List.append_inj (List.cons.inj e').2 (by omega)
          exact ⟨this.1.symm, this.2.symm⟩
        obtain ⟨rfl, rfl⟩ := hsp
        by_cases g : rest'.length < 20 ∨ f .application = none
        · rw [ew, ew', tailT_early_same hc hc' hff _ _ _ _ _ g]
        · have g1 : 20 ≤ rest'.length := by omega
          have ed : data = x.headerByte :: hb' ++ rest'.take 4 ++ rest'.drop 4 := by rw [List.append_assoc, List.take_append_drop]; exact e
          have l4 : (rest'.take 4).length = 4 := by rw [List.length_take]; omega
          have l16 : 16 ≤ (rest'.drop 4).length := by rw [List.length_drop]; omega
          cases hk : f .application with
          | none => exact absurd (.inr hk) g
          | some k =>
            obtain ⟨k', hk'⟩ := Option.isSome_iff_exists.mp ((hff .application).symm.trans (by rw [hk]; rfl))
            obtain ⟨W, hW⟩ := C134_short hP bp hs h128 l8' l4 ed l16
            rw [hW c f k hc hf hk, hW c' f' k' hc' hf' hk', hS _ _ _ _ k k' h128 l8' l4 ed l16 hk hk']
      | long x =>
        rcases kindIn_dec (packetKind x.headerByte x.version) with ⟨sp, hki⟩ | ⟨⟨n1, n2, n3⟩, h⟩
        · obtain ⟨hb, e0, hlf, h128, hp, r1, r2⟩ := long_prefix hx
          rcases hpre : prefixR (packetKind x.headerByte x.version) (makeResultStream data) with ⟨o, s3⟩
          cases o with
          | err e => rw [work_long hP hc hs hf hx hki, work_long hP hc' hs hf' hx hki, hpre]
          | panic e => rw [work_long hP hc hs hf hx hki, work_long hP hc' hs hf' hx hki, hpre]
          | ok r =>
            have hpre' := hpre
            unfold prefixR at hpre'
            rw [Rd.bind_ok r1, Rd.bind_ok r2] at hpre'
            obtain ⟨t, s2, g1, hpre'⟩ := Rd.bind_eq_ok hpre'
            obtain ⟨⟨l, lb'⟩, s4, g2, hpre'⟩ := Rd.bind_eq_ok hpre'
            cases hpre'
            obtain ⟨a1, a2⟩ := pre_sound g1
            obtain ⟨lb, b1, b2, b3⟩ := varIntWithBytes_sound _ _ _ g2
            dsimp only at b2 b3
            subst b2
            have e0' := e0
            rw [a1, b1, ← List.append_assoc, ← List.append_assoc, ← makeResultStream_append, ← makeResultStream_append] at e0'
            obtain ⟨a, rest, e1, e2, rfl⟩ := mrs_split e0'
            have e2 := makeResultStream_inj e2
            by_cases g : rest.length < 20 ∨ f sp = none
            · rw [work_long hP hc hs hf hx hki, work_long hP hc' hs hf' hx hki, hpre]
              dsimp only [restT]
              rw [tailT_early_same hc hc' hff _ _ _ _ _ g]
            · have g1 : 20 ≤ rest.length := by omega
              have l16 : 16 ≤ (rest.drop 4).length := by rw [List.length_drop]; omega
              have hcut : CutAt data sp x.headerByte (hb ++ t ++ lb') l.toNat (rest.take 4) (rest.drop 4) := by
                refine ⟨x, hb, t, lb', rfl, h128, hlf, hki, a2, b3, by rw [List.length_take]; omega, rfl, ?_⟩
                rw [e1, ← e2, List.append_assoc _ (rest.take 4), List.take_append_drop]
                simp
              cases hk : f sp with
              | none => exact absurd (.inr hk) g
              | some k =>
                obtain ⟨k', hk'⟩ := Option.isSome_iff_exists.mp ((hff sp).symm.trans (by rw [hk]; rfl))
                obtain ⟨W, hW⟩ := C134_long hP bp hs hcut l16
                rw [hW c f k hc hf hk, hW c' f' k' hc' hf' hk', hL _ _ _ _ _ _ k k' hcut l16 hk hk']
        · have hnext : decodeNextPacketT bp c (makeResultStream data) = decodeNextPacketT bp c' (makeResultStream data) := by
            have h128 := (long_prefix hx).choose_spec.2.2.1
            have hT : nextHeaderFromStreamT.onUnwrap (makeResultStream data) (makeResultStream data) =
                (.ok (.long x), makeResultStream data, (nextHeaderFromStreamT (makeResultStream data)).2.2) := by
              show ((nextHeaderFromStreamT (makeResultStream data)).1.unwrap, _, _) = _
              rw [(nextHeader_cost 0 _).1, hx]; rfl
            unfold decodeNextPacketT
            refine Tk.bind_congr fun a s' n ha => Tk.bind_congr fun y s2 n' hy => ?_
            cases ha
            rw [hT] at hy
            cases hy
            dsimp only
            rw [packetType_eq x h128]
            refine Tk.bind_congr fun t s3 n' ht => ?_
            cases ht
            cases hkk : packetKind x.headerByte x.version with
            | initial => exact absurd hkk n1
            | handshake => exact absurd hkk n2
            | zeroRtt => exact absurd hkk n3
            | _ => rfl
          rw [work_one hP hc hs hf h0, work_one hP hc' hs hf' h0, hnext, decodeNext_long hx, decodeNext_long hx, h bp c c']

omit hff in
/-- C134: for packets whose Length is at least four and covers no more than is there, the work is the same if and only if two bits of the masks are. -/
theorem C134_bits {sp : PnSpace} {b : U8} {mid pn body : Bytes} {L : Nat} (h : CutAt data sp b mid L pn body) (h16 : 16 ≤ body.length) (h4 : 4 ≤ L) (hL : L ≤ body.length + 1)
    {k k' : Keys} (hk : f sp = some k) (hk' : f' sp = some k') {m0 m0' : U8} {r r' : Bytes} (hm : P.aesEcb k.hp (body.take 16) = some (m0 :: r))
    (hm' : P.aesEcb k'.hp (body.take 16) = some (m0' :: r')) :
    workOn bp c data = workOn bp c' data ↔ m0.toNat % 4 = m0'.toNat % 4 := by
  obtain ⟨W, hW⟩ := C134_long hP bp hs h h16
  rw [hW c f k hc hf hk, hW c' f' k' hc' hf' hk', ← C117_mask_bits P k k' b body m0 m0' r r' hm hm']
  have g := lengthUnder_range hP ((hc sp).2.2 k hk) b h16
  have g' := lengthUnder_range hP ((hc' sp).2.2 k' hk') b h16
  unfold spent
  rw [if_neg (by omega), if_neg (by omega), if_neg (by omega), if_neg (by omega)]
  omega

omit hff in
/-- C134: and for all packets with a short header. -/
theorem C134_bits_short {b : U8} {mid pn body : Bytes} (hb : b.toNat < 128) (h8 : mid.length = 8) (h4 : pn.length = 4) (e : data = b :: mid ++ pn ++ body)
    (h16 : 16 ≤ body.length) {k k' : Keys} (hk : f .application = some k) (hk' : f' .application = some k') {m0 m0' : U8} {r r' : Bytes}
    (hm : P.aesEcb k.hp (body.take 16) = some (m0 :: r)) (hm' : P.aesEcb k'.hp (body.take 16) = some (m0' :: r')) :
    workOn bp c data = workOn bp c' data ↔ m0.toNat % 4 = m0'.toNat % 4 := by
  obtain ⟨W, hW⟩ := C134_short hP bp hs hb h8 h4 e h16
  rw [hW c f k hc hf hk, hW c' f' k' hc' hf' hk', ← C117_mask_bits P k k' b body m0 m0' r r' hm hm']
  omega

/-- Where there are no keys, or not the bytes of the sample, the claim holds.
Missing for the full statement: packets with keys and a sample, for which it is false (`C134_false`). -/
theorem C134_before_mask_partial (h : ∀ sp b mid L pn body, CutAt data sp b mid L pn body → f sp = none ∨ body.length < 16)
    (h' : f .application = none ∨ data.length < 29) : workOn bp c data = workOn bp c' data := by
  refine (C134_exact hP bp hc hc' hff data hs hf hf').mpr ⟨fun sp b mid L pn body k k' h1 h2 h3 _ => ?_, fun b mid pn body k k' _ h2 h3 h4 h5 h6 _ => ?_⟩
  · rcases h sp b mid L pn body h1 with e | e
    · rw [e] at h3; cases h3
    · omega
  · rcases h' with e | e
    · rw [e] at h6; cases h6
    · rw [h4] at e
      simp only [List.length_append, List.length_cons] at e
      omega
end

/-- With a mask that does not depend on the keys the claim holds: what differs is the packet number length and nothing else.
Missing for the full statement: masks that depend on the keys, as those of the algorithms the crate uses (`C134_false_real`). -/
theorem C134_same_mask_partial (hP : PrimLaws P) (h : ∀ k k' s, k.length = 16 → k'.length = 16 → P.aesEcb k s = P.aesEcb k' s) : C134For P := by
  intro bp c c' f f' hc hc' hff data hs hf hf'
  refine (C134_exact hP bp hc hc' hff data hs hf hf').mpr ⟨fun sp b mid L pn body k k' _ _ hk hk' => ?_, fun b mid pn body k k' _ _ _ _ _ hk hk' => ?_⟩ <;>
  · unfold lengthUnder
    rw [h _ _ _ ((hc _).2.2 k hk).1 ((hc' _).2.2 k' hk').1]

theorem C134_false : ¬ C134Statement := by
  intro h
  obtain ⟨k, -, hc⟩ := reachable_holds toy_laws (bp := .release) ⟨true, .v1, _, 8, exConn, [], exConn_new, rfl⟩
  obtain ⟨k', -, hc'⟩ := reachable_holds toy_laws (bp := .release) ⟨true, .v1, _, 8, exConn', [], exConn'_new, rfl⟩
  have := h toy toy_laws .release _ _ _ _ hc hc' (fun sp => by split <;> rfl) (probe 22) (by decide) (probe_forged _) (probe_forged _)
  exact absurd this (by decide +kernel)

/-- The claim is false with the algorithms the crate uses, in both profiles, for two connections made through the API: 39 bytes more are gone over for one of them. -/
theorem C134_false_real (bp : Profile) : ∃ c c' f f', Connection.Reachable real bp c ∧ Connection.Reachable real bp c' ∧ Holds real c f ∧ Holds real c' f' ∧
    (∀ sp, (f sp).isSome = (f' sp).isSome) ∧ Forged real f (probe 23) ∧ Forged real f' (probe 23) ∧
    workOn bp c' (probe 23) = workOn bp c (probe 23) + 39 := by
  have hn := realConn_new realConn_8.1
  have hn' := realConn_new realConn_a.1
  have hp := realConn_8.2
  have hp' := realConn_a.2
  generalize realConn 0x0102030405060708 = c at hn hp
  generalize realConn 0x010203040506070a = c' at hn' hp'
  obtain ⟨k, hc, hf, hl⟩ := realConn_probe hn hp
  obtain ⟨k', hc', hf', hl'⟩ := realConn_probe hn' hp'
  refine ⟨c, c', _, _, ⟨true, .v1, _, 8, c, [], hn, rfl⟩, ⟨true, .v1, _, 8, c', [], hn', rfl⟩,
    hc, hc', fun sp => by split <;> rfl, hf, hf', ?_⟩
  obtain ⟨W, hW⟩ := C134_long real_laws bp (by decide) probe23_cut (by decide)
  rw [hW c _ k hc hf rfl, hW c' _ k' hc' hf' rfl, hl, hl']
  rfl

theorem C134_not_real : ¬ C134For real := by
  intro h
  obtain ⟨c, c', f, f', -, -, h1, h2, h3, h4, h5, h6⟩ := C134_false_real .release
  have := h .release c c' f f' h1 h2 h3 (probe 23) (by decide) h4 h5
  omega

/-- The hypotheses of `C134_short` and `C134_bits_short` are met, and the work does differ: connections that have keys in the application space alone. -/
def exOnlyApp (x : U8) : Connection :=
  ⟨.v1, .new, .new, { PnInfo.new with remoteTlsSecrets := some (secretsOf toy ⟨x :: List.replicate 15 0, List.replicate 12 1, List.replicate 16 2⟩) }, (⟨0, 0⟩, 8), none⟩
def exShortData : Bytes := 0x40 :: [1, 2, 3, 4, 5, 6, 7, 8] ++ [9, 10, 11, 12] ++ [0, 40, 41, 42, 43, 44, 45, 46, 47, 48, 49, 50, 51, 52, 53, 54, 55, 56, 57, 58]
theorem exOnlyApp_holds (x : U8) :
    Holds toy (exOnlyApp x) (fun sp => if sp = .application then some ⟨x :: List.replicate 15 0, List.replicate 12 1, List.replicate 16 2⟩ else none) := by
  intro sp
  cases sp
  · exact ⟨rfl, rfl, fun k h => by cases h⟩
  · exact ⟨rfl, rfl, fun k h => by cases h⟩
  · exact ⟨rfl, rfl, fun k h => by cases h; exact ⟨by simp, by simp, by simp⟩⟩
example : ∃ f f', Holds toy (exOnlyApp 1) f ∧ Holds toy (exOnlyApp 2) f' ∧ (∀ sp, (f sp).isSome = (f' sp).isSome) ∧ Forged toy f exShortData ∧ Forged toy f' exShortData ∧
    workOn .debug (exOnlyApp 1) exShortData ≠ workOn .debug (exOnlyApp 2) exShortData :=
  ⟨_, _, exOnlyApp_holds 1, exOnlyApp_holds 2, fun sp => by cases sp <;> rfl, toy_forged (by decide +kernel) _, toy_forged (by decide +kernel) _, by decide +kernel⟩

end QuicSea
