import Verif.Proofs.Fate
import Verif.Props.Decode
/-
C10, C31, C36, C53 made exact, and C76: what becomes of a genuine packet is decided by the frame parser alone.
-/
namespace QuicSea
open Spec

/-! ## C10, exact -/

/-- A frame that is written with its length and given back is plain, and what was written after it is given back too. -/
theorem given_back {f : Frame} {fs : List Frame} {a b : Bytes} (hwf : WellFormed f) (ha : f.toBytes false = .ok a)
    (hd : (deserializeFrames (makeResultStream (a ++ b))).1 = .ok (f :: fs)) :
    Plain f ∧ (deserializeFrames (makeResultStream b)).1 = .ok fs := by
  have hpl : Plain f := by
    cases f with
    | stream x =>
      exfalso
      obtain ⟨pre, bs, data, e1, e2, e3, e4, e5⟩ := C11_stream_never_round_trips x hwf b
      rw [ha] at e1
      cases e1
      rw [e4] at hd
      injection hd with hd
      injection hd with hd hd2
      injection hd with hd
      rw [← hd] at e5
      exact Nat.lt_irrefl _ e5
    | crypto x =>
      show x.offset = 0
      refine Classical.byContradiction fun ho => ?_
      obtain ⟨bs, e1, e2⟩ := C12_crypto_offset_broken x hwf ho b
      rw [ha] at e1
      cases e1
      rw [deserializeFrames_eq] at hd
      generalize hs : makeResultStream (a ++ b) = s at hd e2
      cases s with
      | nil => cases hd
      | cons y s =>
        simp only at hd
        rcases hx : deserializeFrame (y :: s) with ⟨o, s'⟩
        rw [hx] at hd e2
        cases o with
        | ok g =>
          simp only at hd
          rcases hy : deserializeFrames s' with ⟨o', s2⟩
          rw [hy] at hd
          cases o' with
          | ok gs =>
            simp only at hd
            injection hd with hd
            injection hd with hd _
            exact e2 (by rw [hd])
          | err e => cases hd
          | panic e => cases hd
        | err e => cases hd
        | panic e => cases hd
    | _ => trivial
  refine ⟨hpl, ?_⟩
  have hp := wire_parse (toBytes_wire hwf.2 ha) hpl (makeResultStream b)
  rw [deserializeFrames_eq, makeResultStream_append] at hd
  obtain ⟨t, body, _, _, ea⟩ := toBytes_wire hwf.2 ha
  subst ea
  simp only [makeResultStream_cons, List.cons_append] at hp hd
  simp only [hp] at hd
  rcases hy : deserializeFrames (makeResultStream b) with ⟨o', s2⟩
  rw [hy] at hd
  cases o' with
  | ok gs =>
    simp only at hd ⊢
    injection hd with hd
    injection hd with _ hd
    rw [hd]
  | err e => cases hd
  | panic e => cases hd

/-- C10, exact: of the lists of well-formed frames, as packets serialize them, those given back by the parser are the plain ones and no others. -/
theorem C10_exact (fs : List Frame) (hw : ∀ f ∈ fs, WellFormed f) (bs : Bytes) (h : serializeFrames fs false = .ok bs) :
    (deserializeFrames (makeResultStream bs)).1 = .ok fs ↔ ∀ f ∈ fs, Plain f := by
  constructor
  · intro hd
    induction fs generalizing bs with
    | nil => intro f hf; cases hf
    | cons f fs ih =>
      simp only [serializeFrames, Bool.false_and] at h
      cases ha : f.toBytes false with
      | err e => rw [ha] at h; cases h
      | panic e => rw [ha] at h; cases h
      | ok a =>
        rw [ha, Out.ok_bind] at h
        cases hb : serializeFrames fs false with
        | err e => rw [hb] at h; cases h
        | panic e => rw [hb] at h; cases h
        | ok b =>
          rw [hb, Out.ok_bind] at h
          cases h
          obtain ⟨hpl, hd'⟩ := given_back (hw f List.mem_cons_self) ha hd
          intro g hg
          rcases List.mem_cons.mp hg with rfl | hg
          · exact hpl
          · exact ih (fun f hf => hw f (List.mem_cons_of_mem _ hf)) b hb hd' g hg
  · intro hp
    obtain ⟨bs', h1, h2⟩ := C10_frames_round_trip fs false hw hp
    rw [h] at h1
    cases h1
    rw [h2]
/-- Both sides: a list with a plain CRYPTO frame, and one with CRYPTO at an offset behind it. -/
example : (∀ f ∈ [Frame.ping, .crypto ⟨0, 1, [7]⟩], Plain f) ∧ ¬ (∀ f ∈ [Frame.ping, .crypto ⟨0, 1, [7]⟩, .crypto ⟨1, 1, [8]⟩, .padding], Plain f) := by
  refine ⟨?_, ?_⟩
  · intro f hf
    simp only [List.mem_cons, List.not_mem_nil, or_false] at hf
    rcases hf with rfl | rfl
    · trivial
    · rfl
  · intro h
    exact absurd (h (.crypto ⟨1, 1, [8]⟩) (by simp)) (by show ¬ ((1 : U64) = 0); decide)

/-! ## C76: the frames decide -/

/-- What decoding one packet yields when the frame parser yields `o` for its payload. -/
def fate (mk : List Frame → Packet) : Out (List Frame) → Out Packet
  | .ok fs => .ok (mk fs)
  | .err e => .err e
  | .panic w => .panic w

/-- C76. Any Initial packet built by one end, with any frames that can be written (also those the parser gives back wrongly or rejects), is
taken by the other end as exactly what the frame parser makes of the payload: the same header, token and packet number with those frames, or the
parser's error; in both cases exactly the bytes of the packet are consumed. -/
theorem C76_initial (P : Prims) (hP : PrimLaws P) (bp bp' : Profile) (cs cr : Connection) (h : Peers P bp bp' cs cr) (hs : HasScid cs)
    (fs : List Frame) (token : Option Bytes) (payload : Bytes) (hpl : serializeFrames fs false = .ok payload) (hl : payload.length < 2 ^ 30)
    (ht : (token.getD []).length < 2 ^ 28) (p : PacketInitial) (hb : (PacketInitial.new bp fs token cs).1 = .ok p) (later : List ConnOp) :
    ∃ out, p.serialize (cs.run bp later).2 = .ok out ∧
      ∀ s, decodeNextPacket bp' cr (makeResultStream out ++ s) =
        (fate (fun fs' => .initial { p with packetPayload := fs' }) (deserializeFrames (makeResultStream payload)).1, s) := by
  obtain ⟨hc, ⟨k, kl, m1, m2⟩, a1, a2, _, _⟩ := peers_facts hP h hs
  obtain ⟨out, o1, o2, o3, o4, o5, o6, o7⟩ := built_initial hP (c' := (cs.run bp later).2) ((run_secrets bp later cs .initial).1.trans m1) kl hc a1 hb hpl hl ht
  refine ⟨out, o1, fun s => ?_⟩
  rcases C13_frames_total (makeResultStream payload) with ⟨fs', hf⟩ | ⟨e, hf⟩
  · rw [hf]
    exact decodeNext_initial_reads hP m2 kl.2.1 o5 o2 o3 (reconstruct_four (by omega) o4 a2) hf s
  · rw [hf]
    exact decodeNext_initial_fails hP m2 kl.2.1 o5 o2 o3 (reconstruct_four (by omega) o4 a2) hf s

/-- C76 for any RFC Initial packet with a four-byte packet number, whoever made it, and any payload. -/
theorem C76_any_initial (P : Prims) (hP : PrimLaws P) (bp : Profile) (c : Connection) (k : Keys) (hkl : KeyLens k)
    (hk : c.remoteSecrets .initial = .ok (secretsOf P k)) (ha : (c.pnInfo .initial).largestRemoteAck = none) (h : LongPacketHeader)
    (hp : h.isProtected = false) (token pnB payload out : Bytes) (pn : U64) (hw : InitialWire P k h token pnB pn.toNat payload out)
    (h4 : pnB.length = 4) (hv : beNat pnB = pn.toNat) (s : Stream) :
    decodeNextPacket bp c (makeResultStream out ++ s) =
      (fate (fun fs => .initial { header := h, token, packetNumber := pn, packetNumberBytes := pnB, packetPayload := fs })
        (deserializeFrames (makeResultStream payload)).1, s) := by
  rcases C13_frames_total (makeResultStream payload) with ⟨fs', hf⟩ | ⟨e, hf⟩
  · rw [hf]
    exact decodeNext_initial_reads hP hk hkl.2.1 hp hw h4 (reconstruct_four (by omega) hv ha) hf s
  · rw [hf]
    exact decodeNext_initial_fails hP hk hkl.2.1 hp hw h4 (reconstruct_four (by omega) hv ha) hf s
/-- C76 for any RFC Handshake packet with a four-byte packet number. -/
theorem C76_any_handshake (P : Prims) (hP : PrimLaws P) (bp : Profile) (c : Connection) (k : Keys) (hkl : KeyLens k)
    (hk : c.remoteSecrets .handshake = .ok (secretsOf P k)) (ha : (c.pnInfo .handshake).largestRemoteAck = none) (h : LongPacketHeader)
    (hp : h.isProtected = false) (pnB payload out : Bytes) (pn : U64) (hw : HandshakeWire P k h pnB pn.toNat payload out)
    (h4 : pnB.length = 4) (hv : beNat pnB = pn.toNat) (s : Stream) :
    decodeNextPacket bp c (makeResultStream out ++ s) =
      (fate (fun fs => .handshake { header := h, packetNumber := pn, packetNumberBytes := pnB, packetPayload := fs })
        (deserializeFrames (makeResultStream payload)).1, s) := by
  rcases C13_frames_total (makeResultStream payload) with ⟨fs', hf⟩ | ⟨e, hf⟩
  · rw [hf]
    exact decodeNext_handshake_reads hP hk hkl.2.1 hp hw h4 (reconstruct_four (by omega) hv ha) hf s
  · rw [hf]
    exact decodeNext_handshake_fails hP hk hkl.2.1 hp hw h4 (reconstruct_four (by omega) hv ha) hf s

/-- Non-trivial instances, computed: CRYPTO at offset 9 with one byte makes the parser run out of bytes, and that error is what decoding returns;
STREAM comes back with its length byte as data. -/
example : (exSend [.crypto ⟨9, 1, [5]⟩]).isErr = true ∧
    (match exSend [.ping, .stream ⟨4, 0, 2, [5, 6], false⟩] with
      | .ok (_, .initial q) => decide (q.packetPayload = [.ping, .stream ⟨4, 0, 3, [2, 5, 6], false⟩])
      | _ => false) = true := by decide +kernel

/-! ## C31, exact -/

/-- C31, exact: a packet of well-formed frames comes back as it was built if and only if all its frames are plain. -/
theorem C31_exact (P : Prims) (hP : PrimLaws P) (bp bp' : Profile) (cs cr : Connection) (h : Peers P bp bp' cs cr) (hs : HasScid cs)
    (fs : List Frame) (hw : ∀ f ∈ fs, WellFormed f) (token : Option Bytes)
    (hl : ∀ bs, serializeFrames fs false = .ok bs → bs.length < 2 ^ 30) (ht : (token.getD []).length < 2 ^ 28)
    (p : PacketInitial) (hb : (PacketInitial.new bp fs token cs).1 = .ok p) (later : List ConnOp) :
    ∃ out, p.serialize (cs.run bp later).2 = .ok out ∧
      ∀ s, (decodeNextPacket bp' cr (makeResultStream out ++ s)).2 = s ∧
        ((decodeNextPacket bp' cr (makeResultStream out ++ s)).1 = .ok (.initial p) ↔ ∀ f ∈ fs, Plain f) := by
  obtain ⟨bs, hbs⟩ := serialize_ok false hw
  obtain ⟨out, h1, h2⟩ := C76_initial P hP bp bp' cs cr h hs fs token bs hbs (hl bs hbs) ht p hb later
  have hp : p.packetPayload = fs := (initialNew_ok hb).2.2.2.2
  refine ⟨out, h1, fun s => ⟨by rw [h2 s], ?_⟩⟩
  rw [h2 s, ← C10_exact fs hw bs hbs]
  dsimp only
  cases (deserializeFrames (makeResultStream bs)).1 with
  | ok fs' =>
    constructor
    · intro e
      injection e with e
      injection e with e
      have := congrArg PacketInitial.packetPayload e
      rw [hp] at this
      rw [← this]
    · intro e
      cases e
      rw [fate, ← hp]
  | err e => exact ⟨fun h => (by cases h), fun h => (by cases h)⟩
  | panic e => exact ⟨fun h => (by cases h), fun h => (by cases h)⟩

/-! ## C36, exact -/

/-- One Initial packet of this sender with any well-formed frames. -/
def SentAnyInitial (bp : Profile) (cs0 : Connection) (out : Bytes) (p : PacketInitial) : Prop :=
  ∃ ops later fs token, HasScid (cs0.run bp ops).2 ∧ (∀ f ∈ fs, WellFormed f) ∧
    (∀ bs, serializeFrames fs false = .ok bs → bs.length < 2 ^ 30) ∧ (token.getD []).length < 2 ^ 28 ∧
    (PacketInitial.new bp fs token (cs0.run bp ops).2).1 = .ok p ∧ p.serialize (cs0.run bp (ops ++ later)).2 = .ok out

/-- What C36 asks. -/
def C36For (P : Prims) : Prop :=
  ∀ (bp bp' : Profile) (server : Bool) (v : Version) (d : U160) (n : Nat) (_ : n ≤ 20)
    (_ : cidVal d < 256 ^ n) (cs0 cr0 : Connection) (_ : Connection.new P server v d n = .ok cs0) (_ : Connection.new P (!server) v d n = .ok cr0)
    (ops' : List ConnOp) (l : List (Bytes × PacketInitial)) (_ : ∀ x ∈ l, SentAnyInitial bp cs0 x.1 x.2),
    decodePackets bp' (cr0.run bp' ops').2 (makeResultStream (l.map Prod.fst).flatten) = (.ok (l.map fun x => .initial x.2), [])
/-- The claim, for all algorithms that obey the laws. -/
def C36Statement : Prop := ∀ P, PrimLaws P → C36For P

/-- Each packet of a datagram is read by itself, and no packet of the datagram reads as empty. -/
theorem decodePackets_fates {bp : Profile} {c : Connection} {α : Type} (l : List (Bytes × α)) (o : Bytes × α → Out Packet)
    (h : ∀ x ∈ l, x.1 ≠ [] ∧ ∀ s, decodeNextPacket bp c (makeResultStream x.1 ++ s) = (o x, s)) (ps : List Packet) :
    (decodePackets bp c (makeResultStream (l.map Prod.fst).flatten)).1 = .ok ps ↔ l.map o = ps.map Out.ok := by
  induction l generalizing ps with
  | nil =>
    show Out.ok [] = _ ↔ _
    cases ps <;> simp
  | cons x l ih =>
    have ih := ih (fun y hy => h y (List.mem_cons_of_mem _ hy))
    obtain ⟨hne, hx⟩ := h x List.mem_cons_self
    have hx := hx (makeResultStream (l.map Prod.fst).flatten)
    have hm : makeResultStream x.1 ++ makeResultStream (l.map Prod.fst).flatten ≠ [] := by
      rcases hx1 : x.1 with _ | ⟨b, bs⟩
      · exact absurd hx1 hne
      · simp [makeResultStream]
    rw [List.map_cons, List.flatten_cons, makeResultStream_append, decodePackets_eq _ _ _ hm, Rd.bind_apply, hx]
    cases ho : o x with
    | ok q =>
      dsimp only
      rw [Rd.bind_apply]
      rcases hd : decodePackets bp c (makeResultStream (l.map Prod.fst).flatten) with ⟨r, s'⟩
      rw [hd] at ih
      dsimp only at ih
      cases ps with
      | nil =>
        cases r <;> simp [Rd.pure_apply]
      | cons p ps =>
        rw [List.map_cons, ho, List.map_cons, List.cons.injEq, ← ih ps]
        cases r with
        | ok qs => simp [Rd.pure_apply]
        | err e => simp
        | panic e => simp
    | err e => cases ps <;> simp [ho]
    | panic e => cases ps <;> simp [ho]

theorem nonempty_of_read {bp : Profile} {c : Connection} {out : Bytes} {o : Out Packet} (ho : o.isPanic = false)
    (h : ∀ s, decodeNextPacket bp c (makeResultStream out ++ s) = (o, s)) : out ≠ [] := by
  rintro rfl
  have h1 := decodeNext_nil bp c
  have h2 : decodeNextPacket bp c [] = (o, []) := h []
  rw [h2] at h1
  rw [ho] at h1
  cases h1

/-- Two lists of the same length, related element by element. -/
inductive Pairwise2 (R : α → β → Prop) : List α → List β → Prop
  | nil : Pairwise2 R [] []
  | cons {a b as bs} : R a b → Pairwise2 R as bs → Pairwise2 R (a :: as) (b :: bs)

/-- C36, exact: a datagram of any number of packets, each with any well-formed frames, decodes to those packets if and only if all frames in it are
plain; and it decodes to some list of packets if and only if the frame parser accepts each payload: then there is one packet for each, in order,
with the header, token and packet number of that one. -/
theorem C36_exact (P : Prims) (hP : PrimLaws P) (bp bp' : Profile) (server : Bool) (v : Version) (d : U160) (n : Nat) (hn : n ≤ 20)
    (hd : cidVal d < 256 ^ n) (cs0 cr0 : Connection) (h1 : Connection.new P server v d n = .ok cs0) (h2 : Connection.new P (!server) v d n = .ok cr0)
    (ops' : List ConnOp) (l : List (Bytes × PacketInitial)) (hl : ∀ x ∈ l, SentAnyInitial bp cs0 x.1 x.2) :
    ((decodePackets bp' (cr0.run bp' ops').2 (makeResultStream (l.map Prod.fst).flatten)).1 = .ok (l.map fun x => .initial x.2) ↔
      ∀ x ∈ l, ∀ f ∈ x.2.packetPayload, Plain f) ∧
    ∀ ps, (decodePackets bp' (cr0.run bp' ops').2 (makeResultStream (l.map Prod.fst).flatten)).1 = .ok ps ↔
      Pairwise2 (fun (x : Bytes × PacketInitial) p => ∃ payload fs', serializeFrames x.2.packetPayload false = .ok payload ∧
        (deserializeFrames (makeResultStream payload)).1 = .ok fs' ∧ p = .initial { x.2 with packetPayload := fs' }) l ps := by
  have key : ∀ x ∈ l, ∃ payload, serializeFrames x.2.packetPayload false = .ok payload ∧ (∀ f ∈ x.2.packetPayload, WellFormed f) ∧
      ∀ s, decodeNextPacket bp' (cr0.run bp' ops').2 (makeResultStream x.1 ++ s) =
        (fate (fun fs' => .initial { x.2 with packetPayload := fs' }) (deserializeFrames (makeResultStream payload)).1, s) := by
    intro x hx
    obtain ⟨ops, later, fs, token, g1, g2, g4, g5, g6, g7⟩ := hl x hx
    obtain ⟨bs, hbs⟩ := serialize_ok false g2
    obtain ⟨out, o1, o2⟩ := C76_initial P hP bp bp' (cs0.run bp ops).2 (cr0.run bp' ops').2
      ⟨server, v, d, n, cs0, cr0, ops, ops', hn, hd, h1, h2, rfl, rfl⟩ g1 fs token bs hbs (g4 bs hbs) g5 x.2 g6 later
    have hp : x.2.packetPayload = fs := (initialNew_ok g6).2.2.2.2
    rw [← run_append, g7] at o1
    cases o1
    exact ⟨bs, hp ▸ hbs, hp ▸ g2, o2⟩
  let o : Bytes × PacketInitial → Out Packet := fun x => match serializeFrames x.2.packetPayload false with
    | .ok payload => fate (fun fs' => .initial { x.2 with packetPayload := fs' }) (deserializeFrames (makeResultStream payload)).1
    | .err e => .err e
    | .panic e => .panic e
  have ho : ∀ x ∈ l, x.1 ≠ [] ∧ ∀ s, decodeNextPacket bp' (cr0.run bp' ops').2 (makeResultStream x.1 ++ s) = (o x, s) := by
    intro x hx
    obtain ⟨payload, k1, _, k2⟩ := key x hx
    have e : o x = fate (fun fs' => .initial { x.2 with packetPayload := fs' }) (deserializeFrames (makeResultStream payload)).1 := by
      show (match serializeFrames x.2.packetPayload false with | .ok payload => _ | .err e => _ | .panic e => _) = _
      rw [k1]
    rw [← e] at k2
    refine ⟨nonempty_of_read ?_ k2, k2⟩
    rw [e]
    rcases C13_frames_total (makeResultStream payload) with ⟨fs', hf⟩ | ⟨e, hf⟩ <;> rw [hf] <;> rfl
  have hall : ∀ ps, (decodePackets bp' (cr0.run bp' ops').2 (makeResultStream (l.map Prod.fst).flatten)).1 = .ok ps ↔
      Pairwise2 (fun (x : Bytes × PacketInitial) p => ∃ payload fs', serializeFrames x.2.packetPayload false = .ok payload ∧
        (deserializeFrames (makeResultStream payload)).1 = .ok fs' ∧ p = .initial { x.2 with packetPayload := fs' }) l ps := by
    intro ps
    rw [decodePackets_fates l o ho ps]
    clear ho hl
    induction l generalizing ps with
    | nil =>
      cases ps with
      | nil => exact ⟨fun _ => .nil, fun _ => rfl⟩
      | cons p ps => exact ⟨fun h => (by cases h), fun h => (by cases h)⟩
    | cons x l ih =>
      have ih := ih (fun y hy => key y (List.mem_cons_of_mem _ hy))
      obtain ⟨payload, k1, _, k2⟩ := key x List.mem_cons_self
      have e : o x = fate (fun fs' => .initial { x.2 with packetPayload := fs' }) (deserializeFrames (makeResultStream payload)).1 := by
        show (match serializeFrames x.2.packetPayload false with | .ok payload => _ | .err e => _ | .panic e => _) = _
        rw [k1]
      cases ps with
      | nil => exact ⟨fun h => (by cases h), fun h => (by cases h)⟩
      | cons p ps =>
        rw [List.map_cons, List.map_cons, List.cons.injEq, ih ps, e]
        constructor
        · rintro ⟨a, b⟩
          refine .cons ?_ b
          rcases C13_frames_total (makeResultStream payload) with ⟨fs', hf⟩ | ⟨e, hf⟩
          · rw [hf] at a
            injection a with a
            exact ⟨payload, fs', k1, hf, a.symm⟩
          · rw [hf] at a; cases a
        · intro h
          cases h with
          | cons a b =>
            obtain ⟨pl, fs', a1, a2, rfl⟩ := a
            rw [k1] at a1
            cases a1
            rw [a2]
            exact ⟨rfl, b⟩
  refine ⟨?_, hall⟩
  rw [hall]
  clear hall ho hl
  induction l with
  | nil => exact ⟨fun _ x hx => (by cases hx), fun _ => .nil⟩
  | cons x l ih =>
    have ih := ih (fun y hy => key y (List.mem_cons_of_mem _ hy))
    obtain ⟨payload, k1, k3, k2⟩ := key x List.mem_cons_self
    have hex := C10_exact x.2.packetPayload k3 payload k1
    rw [List.map_cons]
    constructor
    · intro h
      cases h with
      | cons a b =>
        obtain ⟨pl, fs', a1, a2, a3⟩ := a
        rw [k1] at a1
        cases a1
        injection a3 with a3
        have := congrArg PacketInitial.packetPayload a3
        dsimp only at this
        rw [← this] at a2
        intro y hy
        rcases List.mem_cons.mp hy with rfl | hy
        · exact hex.mp a2
        · exact ih.mp b y hy
    · intro h
      exact .cons ⟨payload, x.2.packetPayload, k1, hex.mpr (h x List.mem_cons_self), rfl⟩ (ih.mpr fun y hy => h y (List.mem_cons_of_mem _ hy))

/-- C36 is false of the code for datagrams with such frames. -/
theorem C36_false : ¬ C36Statement := by
  intro h
  obtain ⟨p, hp⟩ := C31_builds Spec.toy .debug false .v1 ⟨0, 0x0102030405060708⟩ 8 exClient exClient_new exOps (by decide) exScid
    [.crypto ⟨1, 1, [5]⟩, .ping] (some [9, 9, 9])
  have hlen : ∀ bs, serializeFrames [.crypto ⟨1, 1, [5]⟩, .ping] false = .ok bs → bs.length < 2 ^ 30 := by
    intro bs hbs
    have : (match serializeFrames [.crypto ⟨1, 1, [5]⟩, .ping] false with | .ok b => decide (b.length < 2 ^ 30) | _ => true) = true := by decide +kernel
    rw [hbs] at this; exact of_decide_eq_true this
  obtain ⟨out, h1, _⟩ := C31_exact Spec.toy Spec.toy_laws .debug .debug _ _ exPeers exScid [.crypto ⟨1, 1, [5]⟩, .ping] (by decide +kernel) (some [9, 9, 9])
    hlen (by decide) p hp []
  have hs : ∀ x ∈ [(out, p)], SentAnyInitial .debug exClient x.1 x.2 := by
    intro x hx
    rcases List.mem_singleton.mp hx with rfl
    exact ⟨exOps, [], _, _, exScid, by decide +kernel, hlen, by decide, hp, by rw [List.append_nil]; exact h1⟩
  have h2 := h Spec.toy Spec.toy_laws .debug .debug false .v1 ⟨0, 0x0102030405060708⟩ 8 (by decide) (by decide +kernel) exClient exConn exClient_new
    exConn_new [] [(out, p)] hs
  have h3 := (C36_exact Spec.toy Spec.toy_laws .debug .debug false .v1 ⟨0, 0x0102030405060708⟩ 8 (by decide) (by decide +kernel) exClient exConn exClient_new
    exConn_new [] [(out, p)] hs).1.mp (by rw [h2])
  have h4 := h3 (out, p) (List.mem_singleton.mpr rfl) (.crypto ⟨1, 1, [5]⟩) (by rw [show p.packetPayload = _ from (initialNew_ok hp).2.2.2.2]; simp)
  exact absurd h4 (by show ¬ ((1 : U64) = 0); decide)

/-! ## C53, exact -/

/-- C53, exact for packets the crate builds: with matching keys and no acknowledgement, a Handshake packet of well-formed frames comes back as built if
and only if its frames are plain, and in any case exactly its bytes are consumed. -/
theorem C53_exact (P : Prims) (hP : PrimLaws P) (bp bp' : Profile) (cs cs' cr : Connection) (k : Keys) (hkl : KeyLens k)
    (h1 : cs'.localSecrets .handshake = .ok (secretsOf P k)) (h2 : cr.remoteSecrets .handshake = .ok (secretsOf P k))
    (a1 : (cs.pnInfo .handshake).largestLocalAck = none) (a2 : (cr.pnInfo .handshake).largestRemoteAck = none)
    (hd : cs.dcid.2 ≤ 20 ∧ cidVal cs.dcid.1 < 256 ^ cs.dcid.2) (hs : HasScid cs)
    (fs : List Frame) (hw : ∀ f ∈ fs, WellFormed f) (hl : ∀ bs, serializeFrames fs false = .ok bs → bs.length < 2 ^ 30)
    (p : PacketHandshake) (hb : (PacketHandshake.new bp fs cs).1 = .ok p) :
    ∃ out, p.serialize cs' = .ok out ∧
      ∀ s, (decodeNextPacket bp' cr (makeResultStream out ++ s)).2 = s ∧
        ((decodeNextPacket bp' cr (makeResultStream out ++ s)).1 = .ok (.handshake p) ↔ ∀ f ∈ fs, Plain f) := by
  obtain ⟨bs, hbs⟩ := serialize_ok false hw
  have hc : IdsOk cs := by
    obtain ⟨sc, sl, f1, f2, f3⟩ := hs
    refine ⟨hd.1, hd.2, ?_, ?_⟩ <;> (intro x hx; rw [f1] at hx; cases hx; assumption)
  obtain ⟨out, o1, o2, o3, o4, o5, o7⟩ := built_handshake hP h1 hkl hc a1 hb hbs (hl bs hbs)
  refine ⟨out, o1, fun s => ?_⟩
  rw [C76_any_handshake P hP bp' cr k hkl h2 a2 p.header o5 p.packetNumberBytes bs out p.packetNumber o2 o3 o4 s]
  refine ⟨rfl, ?_⟩
  rw [← C10_exact fs hw bs hbs]
  dsimp only
  cases (deserializeFrames (makeResultStream bs)).1 with
  | ok fs' =>
    constructor
    · intro e
      injection e with e
      injection e with e
      have := congrArg PacketHandshake.packetPayload e
      rw [o7] at this
      rw [← this]
    · intro e
      cases e
      rw [fate, ← o7]
  | err e => exact ⟨fun h => (by cases h), fun h => (by cases h)⟩
  | panic e => exact ⟨fun h => (by cases h), fun h => (by cases h)⟩

/-- Non-trivial instance: the hypotheses for a CRYPTO frame at an offset, in a Handshake packet of the toy instance; it does not come back. -/
example : ∃ p out, (PacketHandshake.new .debug [.crypto ⟨1, 1, [5]⟩, .ping] exHsConn).1 = .ok p ∧ p.serialize exHsConn = .ok out ∧
    (decodeNextPacket .debug exHsConn (makeResultStream out)).1 ≠ .ok (.handshake p) := by
  have hb : (match (PacketHandshake.new .debug [.crypto ⟨1, 1, [5]⟩, .ping] exHsConn).1 with | .ok _ => true | _ => false) = true := by decide +kernel
  cases hp : (PacketHandshake.new .debug [.crypto ⟨1, 1, [5]⟩, .ping] exHsConn).1 with
  | err e => rw [hp] at hb; cases hb
  | panic e => rw [hp] at hb; cases hb
  | ok p =>
    have hlen : ∀ bs, serializeFrames [.crypto ⟨1, 1, [5]⟩, .ping] false = .ok bs → bs.length < 2 ^ 30 := by
      intro bs hbs
      have : (match serializeFrames [.crypto ⟨1, 1, [5]⟩, .ping] false with | .ok b => decide (b.length < 2 ^ 30) | _ => true) = true := by decide +kernel
      rw [hbs] at this; exact of_decide_eq_true this
    obtain ⟨out, h1, h2⟩ := C53_exact Spec.toy Spec.toy_laws .debug .debug exHsConn exHsConn exHsConn exKeys exKeys_lens rfl rfl rfl rfl
      (by decide +kernel) exScid [.crypto ⟨1, 1, [5]⟩, .ping] (by decide +kernel) hlen p hp
    refine ⟨p, out, rfl, h1, fun e => ?_⟩
    have := (h2 []).2
    rw [List.append_nil] at this
    exact absurd (this.1 e _ List.mem_cons_self) (by show ¬ ((1 : U64) = 0); decide)

end QuicSea
