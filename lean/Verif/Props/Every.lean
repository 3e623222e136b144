import Verif.Props.AppData
import Verif.Props.Application
import Verif.Props.Atomic
import Verif.Props.Endpoint
import Verif.Props.Env
import Verif.Props.Exact
import Verif.Props.Heeded
import Verif.Props.Identity
import Verif.Props.Limits
import Verif.Props.Logging
import Verif.Props.Malleable
import Verif.Props.Numbers
import Verif.Props.Output
import Verif.Props.Real
import Verif.Props.Resources
import Verif.Props.Rules
import Verif.Props.Send
import Verif.Props.Serial
import Verif.Props.ShortRules
import Verif.Props.Stale
import Verif.Props.Unprotected
import Verif.Props.Usage
/-
The claims that are false are false whatever the algorithms: the theorems `Cxx_false` refute a claim for one instance of the algorithms (`toy`, with which
packets can be computed), the theorems `Cxx_false_any` here for all that obey the laws, among them SHA-256, HKDF, AES-128 and GCM (`real_laws`).
-/
namespace QuicSea
open Spec Sock

/-! ### Protected packets exist -/

theorem nonce_length {iv nb : Bytes} (hi : iv.length = 12) (hn : nb.length = 8) : (rfcNonce iv nb).length = 12 := by
  unfold rfcNonce
  rw [List.length_zipWith, List.length_append, List.length_replicate, hi, hn]
  rfl

/-- Every payload can be protected, if with its packet number it has four bytes. -/
theorem protected_exists {P : Prims} (hP : PrimLaws P) {k : Keys} (hk : KeyLens k) (bits first : U8) (mid pnB payload : Bytes) (pn : U64)
    (hm : mid.length < 2 ^ 20) (hp : payload.length < 2 ^ 30) (h4 : pnB.length ≤ 4) (hl : 4 ≤ pnB.length + payload.length) :
    ∃ out, Protected P k bits first mid pnB pn.toNat payload out := by
  obtain ⟨ct, tag, hs⟩ := hP.sealing k.key (rfcNonce k.iv (toBeBytes 8 pn)) ([first] ++ mid ++ pnB) payload hk.2.2
    (nonce_length hk.2.1 (toBeBytes_length ..)) (by simp only [List.length_append, List.length_singleton]; omega) hp
  obtain ⟨l1, l2⟩ := hP.seal_length _ _ _ _ _ _ hs
  obtain ⟨o, ho, h5⟩ := hP.ecb k.hp (((pnB ++ ct ++ tag).drop 4).take 16) hk.1
    (by rw [List.length_take, List.length_drop]; simp only [List.length_append]; omega)
  match o, h5, ho with
  | m0 :: m1 :: m2 :: m3 :: m4 :: r, _, ho =>
    exact ⟨_, toBeBytes 8 pn, ct, tag, m0, m1, m2, m3, m4, r, toBeBytes_length .., beNat_toBeBytes' 8 pn, hs,
      by simp only [List.length_append]; omega, ho, rfl⟩

/-- A server that has just received a client's first packet, and a client, for the id `d` of the examples. -/
def anyId : U160 := ⟨0, 0x0102030405060708⟩
theorem any_conn {P : Prims} (hP : PrimLaws P) (server : Bool) : ∃ c, Connection.new P server .v1 anyId 8 = .ok c := new_total P hP server .v1 anyId 8 (by decide)
theorem any_reachable {P : Prims} (hP : PrimLaws P) (bp : Profile) : ∃ c k, Connection.Reachable P bp c ∧ KeyLens k ∧ c.remoteSecrets .initial = .ok (secretsOf P k) := by
  obtain ⟨c, hc⟩ := any_conn hP true
  have hr : Connection.Reachable P bp c := ⟨true, .v1, _, 8, c, [], hc, rfl⟩
  obtain ⟨⟨-, k, -, h1, -, h2⟩, -⟩ := reachable_keys hP hr
  exact ⟨c, k, hr, h1, h2⟩

/-- An Initial packet from its parts, all below the size of a datagram. -/
theorem initial_exists {P : Prims} (hP : PrimLaws P) {k : Keys} (hk : KeyLens k) (h : LongPacketHeader) (hb tl token lb pnB payload : Bytes) (pn : U64)
    (h1 : LongFields h (h.headerByte :: hb)) (h2 : packetKind h.headerByte h.version = .initial) (h3 : h.headerByte.toNat % 4 + 1 = pnB.length)
    (h4 : IsVarInt tl token.length) (h5 : IsVarInt lb (pnB.length + payload.length + 16)) (h6 : (hb ++ tl ++ token ++ lb).length < 2 ^ 20)
    (h7 : payload.length < 2 ^ 30) (h8 : 4 ≤ pnB.length + payload.length) : ∃ out, InitialWire P k h token pnB pn.toNat payload out := by
  obtain ⟨out, ho⟩ := protected_exists hP hk 0x0f h.headerByte (hb ++ tl ++ token ++ lb) pnB payload pn h6 h7 (by omega) h8
  exact ⟨out, hb, tl, lb, h1, h2, h3, h4, h5, ho⟩

/-- The keys of the examples for spaces in which the crate never has any. -/
def anyKeys : Keys := ⟨List.replicate 16 1, List.replicate 12 2, List.replicate 16 3⟩
theorem anyKeys_lens : KeyLens anyKeys := ⟨rfl, rfl, rfl⟩

/-! ### Claims about connections -/

theorem C56_false_any (P : Prims) (hP : PrimLaws P) : ¬ C56For P := by
  intro h
  obtain ⟨c, hc⟩ := any_conn hP true
  have hr : Connection.Reachable P .release (c.run .release (List.replicate (2 ^ 64 - 1) (.nextPn .initial))).2 := ⟨true, .v1, _, 8, c, _, hc, rfl⟩
  have hv : (((c.run .release (List.replicate (2 ^ 64 - 1) (.nextPn .initial))).2).pnInfo .initial).nextPn.toNat + 1 = 2 ^ 64 := by
    rw [run_replicate, pnInfo_set, if_pos rfl]
    have : (c.pnInfo .initial).nextPn = 0 := by
      obtain ⟨_, _, _, _, _, _, rfl⟩ := new_ok' hc
      rfl
    rw [this]
    exact show BitVec.toNat ((0 : U64) + BitVec.ofNat 64 (2 ^ 64 - 1)) + 1 = 2 ^ 64 by decide
  have h1 := (h .release _ hr .initial).2 (by rw [hv]; decide)
  rw [C56_wraps P .release _ hr .initial hv] at h1
  cases h1

theorem C82_false_any (P : Prims) (hP : PrimLaws P) : ¬ C82For P := by
  intro h
  obtain ⟨c, hc⟩ := any_conn hP true
  refine (C82_never_zero P .debug true .v1 _ 8 c hc .initial [.nextPn .initial] (by decide) ?_).2 (h .debug true .v1 _ 8 c hc .initial [.nextPn .initial] (by decide))
  obtain ⟨_, _, _, _, _, _, rfl⟩ := new_ok' hc
  exact List.cons_ne_nil _ _

theorem C107_false_any (P : Prims) (hP : PrimLaws P) : ¬ C107For P := by
  intro h
  obtain ⟨c, hc⟩ := any_conn hP false
  have h1 := h .debug false .v1 _ 8 c hc (.setScid ⟨0, 0x1122⟩ 2 :: List.replicate (2 ^ 23 + 1) (.buildInitial [.ping] none))
  rw [(C107_exceeded P hP .debug false .v1 _ 8 (by decide) (by decide +kernel) c hc ⟨0, 0x1122⟩ 2 (by decide)
    (by decide +kernel) [.ping] none [1] (by rfl) (by decide) (by decide) (2 ^ 23 + 1) (by decide)).1] at h1
  exact absurd h1 (by decide)

theorem C116_false_any (P : Prims) (hP : PrimLaws P) : ¬ C116For P := by
  intro h
  obtain ⟨c, hc⟩ := any_conn hP true
  have hr : Connection.Reachable P .debug c := ⟨true, .v1, _, 8, c, [], hc, rfl⟩
  have he : kindOf (PacketInitial.new .debug [.ping] none c).1 = .err := by
    obtain ⟨_, _, _, _, _, _, rfl⟩ := new_ok' hc
    rfl
  exact (C116_error_uses_number P .debug c hr [.ping] none he).1 (h.1 .debug c hr [.ping] none (by rw [he]; decide))

theorem C114_false_any (P : Prims) (hP : PrimLaws P) : ¬ C114For P := by
  intro h
  obtain ⟨c, hc⟩ := any_conn hP true
  have hr : Connection.Reachable P .debug c := ⟨true, .v1, _, 8, c, [], hc, rfl⟩
  have hr' : Connection.Reachable P .debug (c.setScid .zero 21) := ⟨true, .v1, _, 8, c, [.setScid .zero 21], hc, rfl⟩
  refine h .debug _ hr' [.ping] none (by intro f hf; cases hf with | head => exact .ping | tail _ hf => cases hf)
    (C114_long_source_id P .debug c hP hr .zero 21 (by decide) ?_)
  obtain ⟨_, _, _, _, _, _, rfl⟩ := new_ok' hc
  exact show (0 : Nat) + 1 < 2 ^ 32 by decide

/-- The client of the examples, whatever the algorithms. -/
theorem any_peers {P : Prims} (hP : PrimLaws P) : ∃ cs cr, Connection.new P false .v1 anyId 8 = .ok cs ∧ Connection.new P true .v1 anyId 8 = .ok cr ∧
    Peers P .debug .debug (cs.run .debug exOps).2 cr ∧ HasScid (cs.run .debug exOps).2 := by
  obtain ⟨cs, hs⟩ := any_conn hP false
  obtain ⟨cr, hr⟩ := any_conn hP true
  refine ⟨cs, cr, hs, hr, ⟨false, .v1, anyId, 8, cs, cr, exOps, [], by decide, by decide +kernel, hs, hr, rfl, rfl⟩, ⟨0, 0x1122⟩, 2, ?_, by decide, by decide +kernel⟩
  obtain ⟨_, _, _, _, _, _, rfl⟩ := new_ok' hs
  rfl
theorem any_frames_small : ∀ bs, serializeFrames [.crypto ⟨1, 1, [5]⟩, .ping] false = .ok bs → bs.length < 2 ^ 30 := by
  intro bs hbs
  have : (match serializeFrames [.crypto ⟨1, 1, [5]⟩, .ping] false with | .ok b => decide (b.length < 2 ^ 30) | _ => true) = true := by decide +kernel
  rw [hbs] at this; exact of_decide_eq_true this
theorem not_plain : ¬ ∀ f ∈ [Frame.crypto ⟨1, 1, [5]⟩, .ping], Plain f := fun h =>
  absurd (h (.crypto ⟨1, 1, [5]⟩) (by simp)) (by show ¬ ((1 : U64) = 0); decide)

theorem C31_false_any (P : Prims) (hP : PrimLaws P) : ¬ C31For P := by
  intro h
  obtain ⟨cs, cr, hs, hr, hp, hc⟩ := any_peers hP
  obtain ⟨p, hb⟩ := C31_builds P .debug false .v1 anyId 8 cs hs exOps (by decide) hc [.crypto ⟨1, 1, [5]⟩, .ping] (some [9, 9, 9])
  obtain ⟨out, h1, h2⟩ := h .debug .debug _ _ hp hc [.crypto ⟨1, 1, [5]⟩, .ping] (by decide +kernel) (some [9, 9, 9]) any_frames_small (by decide) p hb
  obtain ⟨out', g1, g2⟩ := C31_exact P hP .debug .debug _ _ hp hc [.crypto ⟨1, 1, [5]⟩, .ping] (by decide +kernel) (some [9, 9, 9]) any_frames_small (by decide) p hb []
  have e : out' = out := Out.ok.inj (g1.symm.trans h1)
  subst e
  exact not_plain ((g2 []).2.mp (by rw [h2 []]))

theorem C36_false_any (P : Prims) (hP : PrimLaws P) : ¬ C36For P := by
  intro h
  obtain ⟨cs, cr, hs, hr, hp, hc⟩ := any_peers hP
  obtain ⟨p, hb⟩ := C31_builds P .debug false .v1 anyId 8 cs hs exOps (by decide) hc [.crypto ⟨1, 1, [5]⟩, .ping] (some [9, 9, 9])
  obtain ⟨out, g1, _⟩ := C31_exact P hP .debug .debug _ _ hp hc [.crypto ⟨1, 1, [5]⟩, .ping] (by decide +kernel) (some [9, 9, 9]) any_frames_small (by decide) p hb []
  have hx : ∀ x ∈ [(out, p)], SentAnyInitial .debug cs x.1 x.2 := by
    intro x hx
    rcases List.mem_singleton.mp hx with rfl
    exact ⟨exOps, [], _, _, hc, by decide +kernel, any_frames_small, by decide, hb, by rw [List.append_nil]; exact g1⟩
  have h2 := h .debug .debug false .v1 anyId 8 (by decide) (by decide +kernel) cs cr hs hr [] [(out, p)] hx
  have h3 := (C36_exact P hP .debug .debug false .v1 anyId 8 (by decide) (by decide +kernel) cs cr hs hr [] [(out, p)] hx).1.mp (by rw [h2])
  have h4 := h3 (out, p) (List.mem_singleton.mpr rfl)
  rw [show p.packetPayload = _ from (initialNew_ok hb).2.2.2.2] at h4
  exact not_plain h4

theorem C83_false_any (P : Prims) (hP : PrimLaws P) : ¬ C83For P := by
  intro h
  obtain ⟨cs, cr, hs, hr, hp, hc⟩ := any_peers hP
  obtain ⟨p, hb⟩ := C31_builds P .debug false .v1 anyId 8 cs hs exOps (by decide) hc [.ping] none
  obtain ⟨out, h1, h2⟩ := C83_small_packets P hP .debug .v1 anyId 8 (by decide) (by decide +kernel) cs hs exOps hc [.ping] (by decide +kernel) none
    (by intro bs hbs
        have e : serializeFrames [.ping] false = .ok [1] := by decide +kernel
        rw [e] at hbs; cases hbs; decide) p hb
  have := h .debug .v1 anyId 8 (by decide) (by decide +kernel) cs hs exOps hc [.ping] (by decide +kernel) none p hb out h1
  omega

/-! ### Claims about sockets -/

theorem C48_false_any (P : Prims) : ¬ C48For P := by
  intro h
  obtain ⟨key, k', e, -⟩ := h Sock.bind exInitial.data 1 [] _ 7 [] exInitial_addressed (fun _ _ => rfl) (fun _ _ => rfl)
  exact C48_never _ _ _ _ _ _ _ _ e

theorem C50_false_any (P : Prims) (hP : PrimLaws P) : ¬ C50For P := by
  intro h
  have hreg := C48_registers_partial P hP Sock.bind [] exInitial.data 1 [] _ [] 7 []
    (by simp) exInitial_addressed (fun _ _ => rfl) (by simp) (.ofU64 7) (by decide +kernel) rfl
  obtain ⟨k1, c, dcid, e, -, -, -, -, ho⟩ := hreg
  obtain ⟨x, k2, h1, -⟩ := h Sock.bind k1 exInitial.data 1 _ 7 [] _ [] (.ofU64 7) exInitial_addressed (fun _ _ => rfl)
    (by decide +kernel) rfl e
  obtain ⟨p, hp⟩ := C49_new_initial k1 exInitial.data 1 [] _ exInitial_addressed (fun key hk => ho key (by
    rintro rfl
    exact absurd hk (by decide +kernel)) rfl)
  rw [hp] at h1
  cases h1

theorem C58_false_any (P : Prims) (hP : PrimLaws P) : ¬ C58For P := by
  intro h
  generalize e : Sock.bind.accept P [.datagram exOpening 1] [7] = r
  obtain ⟨r, k', net', rng'⟩ := r
  obtain ⟨key, c, dcid, a1, a2, a3, a4, a5⟩ := accepted hP (opens_addressed exOpening_opens) (fun _ _ => rfl) (fun _ _ => rfl) e
  have hb : ∃ p, (PacketInitial.new .debug [.ping] none (({ c with scid := some (key, 8) } : Connection).run .debug []).2).1 = .ok p ∧
      p.header.destinationConnectionIdLength = 8 := by
    obtain ⟨_, _, _, _, _, _, rfl⟩ := new_ok' a3
    have e : key = .ofU64 7 := cidVal_inj (by rw [a1, cidVal_ofU64])
    subst e
    exact ⟨_, rfl, rfl⟩
  obtain ⟨p, h2, h3⟩ := hb
  have := (h .debug Sock.bind _ exOpening 1 [] _ 1 _ _ 7 [] _ _ exOpening_opens (fun _ _ => rfl) (fun _ _ => rfl) e _ _ rfl a4 [] [.ping] none).1 p h2
  rw [SentTo, h3] at this
  exact absurd this.1 (by decide)

theorem C59_false_any (P : Prims) (hP : PrimLaws P) : ¬ C59For P := by
  intro h
  obtain ⟨key, x, kc, h1, h2, -⟩ := C59_any_version_opens P hP .debug Sock.bind _ exUnknownVersion 1 [] _ _ _ _ 7 [] _ _ exUnknownVersion_opens
    (fun _ _ => rfl) (fun _ _ => rfl) rfl
  have := h Sock.bind _ exUnknownVersion 1 _ _ _ _ [7] _ _ exUnknownVersion_opens (by decide) rfl key h1
  rw [h2] at this
  cases this

theorem C61_false_any (P : Prims) (hP : PrimLaws P) : ¬ C61For P := by
  intro h
  obtain ⟨key, h1, h2⟩ := C61_any_size_opens P hP Sock.bind _ exOpening 1 [] _ _ _ _ 7 [] _ _ exOpening_opens (fun _ _ => rfl) (fun _ _ => rfl) rfl
  have := h Sock.bind _ exOpening 1 _ _ _ _ [7] _ _ exOpening_opens (by decide) rfl key h1
  rw [this] at h2
  cases h2

theorem C62_false_any (P : Prims) (hP : PrimLaws P) : ¬ C62For P := by
  intro h
  obtain ⟨h1, h2⟩ := C62_opening_lost P hP .debug Sock.bind _ exOpening 1 [] _ _ _ _ 7 [] _ _ exOpening_opens (fun _ _ => rfl) (fun _ _ => rfl)
    (by decide) rfl
  rcases h .debug Sock.bind _ exOpening 1 [] _ _ _ _ 7 [] _ _ exOpening_opens (fun _ _ => rfl) (fun _ _ => rfl) rfl with ⟨key, x, g1, g2, g3⟩ | g
  · rw [h1 key x g1 g2] at g3
    cases g3
  · exact g (congrArg Prod.fst h2)

theorem C84_false_any (P : Prims) (hP : PrimLaws P) : ¬ C84For P := by
  intro h
  obtain ⟨key, x, h1, h2, -⟩ := C84_short_ids_open P hP Sock.bind _ exShortId 1 [] _ _ _ _ 7 [] _ _ exShortId_opens (fun _ _ => rfl) (fun _ _ => rfl) rfl
  have := h Sock.bind _ exShortId 1 _ _ _ _ [7] _ _ exShortId_opens (by decide) rfl key h1
  rw [h2] at this
  cases this

theorem C86_false_any (P : Prims) (hP : PrimLaws P) : ¬ C86For P := by
  intro hs
  obtain ⟨key, x, h1, h2, h3⟩ := C86_unauthentic_opens P hP .debug Sock.bind _ exOpening 1 [] _ 1 _ _ 7 [] _ _ exOpening_opens (by decide)
    (fun _ _ => rfl) (fun _ _ => rfl) rfl
  obtain ⟨p, s, hd⟩ := hs .debug Sock.bind _ exOpening 1 _ [7] _ _ rfl key x h1 h2
  exact h3 p s hd

theorem C88_false_any (P : Prims) (hP : PrimLaws P) : ¬ C88For P := by
  intro h
  obtain ⟨tr, s, x, x', hr, h1, h2, h3, h4⟩ := C88_crossing hP .debug 5 6 (by decide) (exCross 6) (exCross 5) 1 2 _ _
    (exCross_addressed 6) (exCross_val 6) (exCross_addressed 5) (exCross_val 5)
  obtain ⟨ops, -, e⟩ := h .debug tr s hr
  rw [← e] at h1 h2
  exact C88_serial_uncrossed P .debug ops _ _ x x' (by decide) h1 h2 ⟨h3, h4⟩

theorem C92_false_any (P : Prims) : ¬ C92For P := by
  intro h
  obtain ⟨line, e, -⟩ := h [] 0 []
  rw [C92_public_silent] at e
  cases e

theorem C96_false_any (P : Prims) (hP : PrimLaws P) : ¬ C96For P := by
  intro h
  have ha : ∃ a, AppRun P app0 a ∧ (a.1.streams (.ofU64 7)).isSome := by
    refine ⟨_, .step .start (.accept _ _ [.datagram exInitial.data 1] [7]), ?_⟩
    rw [public_accept_state]
    obtain ⟨k1, c, dcid, e, -, -, h2, -⟩ := C48_registers_partial P hP Sock.bind [] exInitial.data 1 [] _ [] 7 []
      (by simp) exInitial_addressed (fun _ _ => rfl) (by simp) (.ofU64 7) (by decide +kernel) rfl
    simp only [List.map_nil, List.nil_append] at e
    rw [e]
    exact h2 ▸ rfl
  obtain ⟨a, ha, hs⟩ := ha
  obtain ⟨b, hb, hn⟩ := h a ha _ hs
  cases hx : a.1.streams (.ofU64 7) with
  | none => rw [hx] at hs; cases hs
  | some x =>
    obtain ⟨more, e⟩ := C96_never_released ha hb _ x hx
    rw [hn] at e
    cases e

theorem C101_false_any (P : Prims) : ¬ C101For P := by
  intro h
  obtain ⟨tr, s, hr, -, hp, -⟩ := C101_any_datagram P .debug ⟨64, false, true⟩ rfl [] 0
  rw [h .debug _ tr s hr .socket] at hp
  cases hp

theorem C121_false_any (P : Prims) (hP : PrimLaws P) : ¬ C121For P := by
  intro h
  obtain ⟨a, a1, a2, s, x, hr, ht, hp, -⟩ := C121_early hP .debug 6 (exCross 5) exEarly 1 2 _ _ _ (exCross_addressed 5) exEarly_addressed
    (by decide) (by decide) (by decide)
  obtain ⟨b1, b2, ht', hp', -⟩ := h .debug a [] s 1 _ _ hr
  rw [(ht.unique ht').1, hp'] at hp
  cases hp

/-! ### Claims about datagrams -/

theorem C35_false_any (P : Prims) (hP : PrimLaws P) : ¬ C35For P := by
  intro h
  obtain ⟨c, k, hr, -⟩ := any_reachable hP .debug
  have h1 := h .debug c hr ([0xc0, 0, 0, 0, 1, 0, 0] ++ [0] ++ [] ++ [16] ++ List.replicate 20 0)
  have h2 := C35_short_length_panics P hP .debug .debug c hr ⟨0xc0, 1, 0, ⟨0, 0⟩, 0, ⟨0, 0⟩, none, true⟩
    [0xc0, 0, 0, 0, 1, 0, 0] [0] [] [16] (List.replicate 20 0) 16 ⟨[0, 0, 0, 1], [], [], by decide +kernel⟩ (by decide +kernel)
    ⟨0, by decide⟩ ⟨0, by decide⟩ (by decide) (by simp)
  rw [h1] at h2
  cases h2

theorem C118_false_any (P : Prims) (hP : PrimLaws P) : ¬ C118For P := by
  intro h
  obtain ⟨c, hc⟩ := any_conn hP false
  obtain ⟨p, h1, h2⟩ := C118_all_delivered .debug (c.run .debug exOps).2 [] (by simp) 0x80 [9] [8, 7] exVersions _ exVersions_wire
  obtain ⟨_, toId, fromId, versions, h3, h4⟩ := (h .debug .debug false .v1 _ _ c hc exOps exVersions).1 _ (congrArg Prod.fst h1) p (by simp)
  have : versions = [1, 0xff00001d] := by rw [← h3.2, h2.2]
  exact h4.otherVersions (by rw [this]; decide)

/-- A datagram that ends within the destination id makes the decoder print. -/
theorem C99_false_any (P : Prims) (hP : PrimLaws P) : ¬ C99For P := by
  intro h
  obtain ⟨c, k, hr, -⟩ := any_reachable hP .debug
  have h1 := h .debug c hr true true [0x80, 0, 0, 0, 0, 5, 1, 2]
  have h2 : (decodePacketsP ⟨64, true, true⟩ .debug c (makeResultStream [0x80, 0, 0, 0, 0, 5, 1, 2])).2.2 ≠ [] := by
    show [_] ≠ []
    simp
  rw [h1] at h2
  exact h2 rfl

/-- On a 32-bit machine a token of 2^32 bytes is no token. Both machines refuse this datagram, for different reasons; `C100_false` has one that only one
of them refuses. -/
theorem C100_false_any (P : Prims) (hP : PrimLaws P) : ¬ C100For P := by
  intro h
  obtain ⟨c, k, hr, -⟩ := any_reachable hP .debug
  have h1 := h .debug c hr 32 64 (by decide) (by decide) [0xc0, 0, 0, 0, 1, 0, 0, 0xc0, 0, 0, 1, 0, 0, 0, 0] (by decide) (by decide)
  have h2 : (decodePacketsP ⟨32, true, true⟩ .debug c (makeResultStream [0xc0, 0, 0, 0, 1, 0, 0, 0xc0, 0, 0, 1, 0, 0, 0, 0])).1 =
    .err (.internalError "missing first byte for varint") := rfl
  have h3 : (decodePacketsP ⟨64, true, true⟩ .debug c (makeResultStream [0xc0, 0, 0, 0, 1, 0, 0, 0xc0, 0, 0, 1, 0, 0, 0, 0])).1 =
    .err (.internalError "not enough bytes for var_bytes") := rfl
  rw [h2, h3] at h1
  exact absurd h1 (by decide)

/-! ### Claims about protected packets -/

/-- The headers of the examples: `first` is the first byte, to the id `d` of the client. -/
def anyHeader (first : U8) (version : U32) : LongPacketHeader := ⟨first, version, 8, anyId, 2, ⟨0, 0x1122⟩, none, false⟩
/-- The server of the examples gets an Initial packet with any first byte, version and token, and any payload of less than 40 bytes. -/
theorem any_initial {P : Prims} (hP : PrimLaws P) {k : Keys} (hk : KeyLens k) (h : LongPacketHeader) (hb tl token pnB payload : Bytes)
    (h1 : LongFields h (h.headerByte :: hb)) (h2 : packetKind h.headerByte h.version = .initial) (h3 : h.headerByte.toNat % 4 + 1 = pnB.length)
    (h4 : IsVarInt tl token.length) (h5 : (hb ++ tl ++ token).length < 1000) (h7 : payload.length < 40) (h8 : 4 ≤ pnB.length + payload.length) :
    ∃ out, InitialWire P k h token pnB 1 payload out := by
  refine initial_exists hP hk h hb tl token [BitVec.ofNat 8 (pnB.length + payload.length + 16)] pnB payload 1 h1 h2 h3 h4 ⟨0, by decide, rfl, by omega, ?_⟩ ?_
    (by omega) h8
  · rw [beNat_cons]
    show (BitVec.ofNat 8 (pnB.length + payload.length + 16)).toNat * 1 + 0 = _
    rw [BitVec.toNat_ofNat]
    omega
  · rw [List.length_append, List.length_singleton]
    omega

theorem C32_false_any (P : Prims) (hP : PrimLaws P) : ¬ C32For P := by
  intro h
  obtain ⟨c, k, hr, hl, hk⟩ := any_reachable hP .debug
  obtain ⟨out, hw⟩ := any_initial hP hl (exHeader 2) ((exMid 2).take 16) [0] [] [0, 1] exPayload ⟨[0, 0, 0, 1], [1, 2, 3, 4, 5, 6, 7, 8], [0x11, 0x22], by decide +kernel⟩
    (by decide +kernel) (by decide) ⟨0, by decide⟩ (by decide) (by decide) (by decide)
  have e := h .debug c hr k hk (exHeader 2) rfl [] [0, 1] exPayload out 1 (.ping :: List.replicate 20 .padding) hw (by decide) (by decide +kernel) []
  exact C32_short_never_decoded P hP .debug c hr k hk (exHeader 2) rfl [] [0, 1] exPayload out 1 hw (by decide) [] _ e

/-- What the server of the examples delivers: any frames of the plain kinds, in a packet with any header. -/
theorem any_delivered {P : Prims} (hP : PrimLaws P) (h : LongPacketHeader) (hp : h.isProtected = false) (hb tl token payload : Bytes) (fs : List Frame)
    (h1 : LongFields h (h.headerByte :: hb)) (h2 : packetKind h.headerByte h.version = .initial) (h3 : h.headerByte.toNat % 4 + 1 = 4)
    (h4 : IsVarInt tl token.length) (h5 : (hb ++ tl ++ token).length < 1000) (h7 : payload.length < 40)
    (hf : (deserializeFrames (makeResultStream payload)).1 = .ok fs) (server : Bool) :
    ∃ c out, Connection.new P server .v1 anyId 8 = .ok c ∧ Connection.Reachable P .debug c ∧
      ∀ s, decodeNextPacket .debug c (makeResultStream out ++ s) = (.ok (.initial ⟨h, token, 1, [0, 0, 0, 1], fs⟩), s) := by
  obtain ⟨c, hc⟩ := any_conn hP server
  have hr : Connection.Reachable P .debug c := ⟨server, .v1, _, 8, c, [], hc, rfl⟩
  obtain ⟨⟨-, k, -, hl, -, hk⟩, -⟩ := reachable_keys hP hr
  obtain ⟨out, hw⟩ := any_initial hP hl h hb tl token [0, 0, 0, 1] payload h1 h2 h3 h4 h5 h7 (by simp)
  exact ⟨c, out, hc, hr, C32_four_bytes_partial P hP .debug c hr k hk h hp token [0, 0, 0, 1] payload out 1 fs hw rfl (by decide) hf⟩
theorem decoded_alone {bp : Profile} {c : Connection} {out : Bytes} {p : Packet} (h : ∀ s, decodeNextPacket bp c (makeResultStream out ++ s) = (.ok p, s)) :
    decodePackets bp c (makeResultStream out) = (.ok [p], []) := by
  simpa using C66_copies_delivered bp c out p h 1
theorem any_fields (first : U8) : LongFields (anyHeader first 1) (first :: [0, 0, 0, 1, 8, 1, 2, 3, 4, 5, 6, 7, 8, 2, 0x11, 0x22]) :=
  ⟨[0, 0, 0, 1], [1, 2, 3, 4, 5, 6, 7, 8], [0x11, 0x22], rfl, rfl, rfl, rfl, rfl, rfl, by decide, by decide,
    show beNat _ = cidVal anyId by decide +kernel, show beNat _ = cidVal ⟨0, 0x1122⟩ by decide +kernel⟩
/-- To any payload of less than 40 bytes. -/
theorem any_payload {P : Prims} (hP : PrimLaws P) (payload : Bytes) (fs : List Frame) (h7 : payload.length < 40)
    (hf : (deserializeFrames (makeResultStream payload)).1 = .ok fs) : ∃ c out, Connection.new P true .v1 anyId 8 = .ok c ∧ Connection.Reachable P .debug c ∧
      ∀ s, decodeNextPacket .debug c (makeResultStream out ++ s) = (.ok (.initial ⟨anyHeader 0xc3 1, [], 1, [0, 0, 0, 1], fs⟩), s) :=
  any_delivered hP (anyHeader 0xc3 1) rfl _ [0] [] payload fs (any_fields 0xc3) (by decide) (by decide) ⟨0, by decide⟩ (by decide) h7 hf true

/-- A MAX_DATA and a HANDSHAKE_DONE frame, which may not be in an Initial packet. -/
theorem C63_false_any (P : Prims) (hP : PrimLaws P) : ¬ C63For P := by
  intro h
  obtain ⟨c, out, -, hr, hd⟩ := any_payload hP [0x10, 5, 0x1e] [.maxData ⟨5⟩, .handshakeDone] (by decide) (by decide +kernel)
  have := h .debug c hr _ _ _ (decoded_alone hd) _ (List.mem_singleton.mpr rfl) .handshakeDone (by simp [framesOf])
  revert this
  decide

theorem C64_false_any (P : Prims) (hP : PrimLaws P) : ¬ C64For P := by
  intro h
  obtain ⟨c, out, -, hr, hd⟩ := any_payload hP [] [] (by decide) (by decide +kernel)
  exact h .debug c hr _ _ _ (decoded_alone hd) _ (List.mem_singleton.mpr rfl) rfl

theorem C65_false_any (P : Prims) (hP : PrimLaws P) : ¬ C65For P := by
  intro h
  obtain ⟨c, out, -, hr, hd⟩ := any_delivered hP (anyHeader 0x8f 1) rfl _ [0] [] [1] [.ping] (any_fields 0x8f) (by decide) (by decide) ⟨0, by decide⟩ (by decide)
    (by decide) (by decide +kernel) true
  exact absurd (h .debug c hr _ _ _ (decoded_alone hd) _ (List.mem_singleton.mpr rfl)).1 (by decide)

theorem C66_false_any (P : Prims) (hP : PrimLaws P) : ¬ C66For P := by
  intro h
  obtain ⟨c, out, -, hr, hd⟩ := any_payload hP [1] [.ping] (by decide) (by decide +kernel)
  exact h .debug c hr _ _ _ (C66_copies_delivered .debug c out _ hd 2) [] [] [] _ _ rfl rfl

theorem C78_false_any (P : Prims) (hP : PrimLaws P) : ¬ C78For P := by
  intro h
  obtain ⟨c, out, hc, hr, hd⟩ := any_delivered hP (anyHeader 0xc3 0x6b3343cf) rfl [0x6b, 0x33, 0x43, 0xcf, 8, 1, 2, 3, 4, 5, 6, 7, 8, 2, 0x11, 0x22] [0] [] [1] [.ping]
    ⟨[0x6b, 0x33, 0x43, 0xcf], [1, 2, 3, 4, 5, 6, 7, 8], [0x11, 0x22], by decide +kernel⟩ (by decide) (by decide) ⟨0, by decide⟩ (by decide)
    (by decide) (by decide +kernel) true
  have := h .debug c hr _ _ _ (decoded_alone hd) _ (List.mem_singleton.mpr rfl)
  cases hv : c.version
  rw [hv] at this
  exact absurd this (by decide)

/-- Two packets to different ids. -/
theorem C79_false_any (P : Prims) (hP : PrimLaws P) : ¬ C79For P := by
  intro h
  obtain ⟨c, out, hc, hr, hd⟩ := any_payload hP [1] [.ping] (by decide) (by decide +kernel)
  obtain ⟨c', out', hc', -, hd'⟩ := any_delivered hP ⟨0xc3, 1, 3, ⟨0, 0x090909⟩, 2, ⟨0, 0x1122⟩, none, false⟩ rfl [0, 0, 0, 1, 3, 9, 9, 9, 2, 0x11, 0x22] [0] [] [1] [.ping]
    ⟨[0, 0, 0, 1], [9, 9, 9], [0x11, 0x22], by decide +kernel⟩ (by decide) (by decide) ⟨0, by decide⟩ (by decide) (by decide) (by decide +kernel) true
  have e : c' = c := Out.ok.inj (hc'.symm.trans hc)
  subst e
  have := C36_any_packets .debug c' [(out, _), (out', _)] (by
    intro x hx
    rcases List.mem_cons.mp hx with rfl | hx
    · exact hd
    · rcases List.mem_singleton.mp hx with rfl
      exact hd')
  exact absurd (h .debug c' hr _ _ _ this _ _ (List.mem_cons_self ..) (List.mem_cons_of_mem _ (List.mem_singleton.mpr rfl))).1 (by decide +kernel)

/-- A server's packet with a token, at a client. -/
theorem C80_false_any (P : Prims) (hP : PrimLaws P) : ¬ C80For P := by
  intro h
  obtain ⟨c, out, hc, hr, hd⟩ := any_delivered hP (anyHeader 0xc3 1) rfl _ [2] [7, 7] [1] [.ping] (any_fields 0xc3) (by decide) (by decide) ⟨0, by decide⟩ (by decide)
    (by decide) (by decide +kernel) false
  exact absurd ((h .debug .v1 anyId 8 []).2 c hc _ _ _ (decoded_alone hd) _ (List.mem_singleton.mpr rfl)) (by decide)

/-- An acknowledgement for packet 5, when none was ever sent. -/
theorem C119_false_any (P : Prims) (hP : PrimLaws P) : ¬ C119For P := by
  intro h
  obtain ⟨c, out, hc, hr, hd⟩ := any_payload hP [2, 5, 0, 0, 0] [.ack ⟨5, 0, 0, 0, [], none⟩] (by decide) (by decide +kernel)
  have h1 := (h .debug true .v1 anyId 8 c hc [.receives out]).1 ⟨anyHeader 0xc3 1, [], 1, [0, 0, 0, 1], [.ack ⟨5, 0, 0, 0, [], none⟩]⟩ ⟨5, 0, 0, 0, [], none⟩
    (by simp only [Connection.live, decoded_alone hd]; simp [deliveredIn]) (by simp)
  simp [Connection.live, donesOf, issuedIn] at h1
/-- The other half alone: packets are built after a CONNECTION_CLOSE. -/
theorem C119_false_close_any (P : Prims) (hP : PrimLaws P) : ¬ C119For P := by
  intro h
  obtain ⟨c, out, hc, hr, hd⟩ := any_payload hP [0x1c, 0, 0, 0] [.connectionClose ⟨0, some 0, 0, [], false⟩] (by decide) (by decide +kernel)
  have hs : HasScid (c.live .debug [.receives out, .does (.setScid ⟨0, 7⟩ 8)]).2 := ⟨⟨0, 7⟩, 8, rfl, by decide, by decide +kernel⟩
  have hb := C119_after_close P .debug true .v1 anyId 8 c hc [.receives out, .does (.setScid ⟨0, 7⟩ 8)] (show 1 + 1 < 2 ^ 32 by decide) hs [.ping] none
  exact (h .debug true .v1 anyId 8 c hc [.receives out, .does (.setScid ⟨0, 7⟩ 8)]).2
    (.initial ⟨anyHeader 0xc3 1, [], 1, [0, 0, 0, 1], [.connectionClose ⟨0, some 0, 0, [], false⟩]⟩) (.connectionClose ⟨0, some 0, 0, [], false⟩)
    (by simp only [Connection.live, decoded_alone hd]; simp [deliveredIn]) (by simp [framesOf]) trivial _ hb

/-- A connection that holds the receiving keys of the examples in the space of Handshake packets; and in that of application data. The crate makes neither. -/
def anyHs (P : Prims) (c : Connection) : Connection := { c with handshakePnInfo := { PnInfo.new with remoteTlsSecrets := some (secretsOf P anyKeys) } }
def anyApp (P : Prims) (c : Connection) : Connection := { c with applicationPnInfo := { PnInfo.new with remoteTlsSecrets := some (secretsOf P anyKeys) } }

theorem C53_false_any (P : Prims) (hP : PrimLaws P) : ¬ C53For P := by
  intro h
  obtain ⟨c, hc⟩ := any_conn hP true
  obtain ⟨out, ho⟩ := protected_exists hP anyKeys_lens 0x0f 0xe1 ([0, 0, 0, 1, 8, 1, 2, 3, 4, 5, 6, 7, 8, 2, 0x11, 0x22] ++ [39]) [0, 1] exPayload 1 (by decide) (by decide)
    (by decide) (by decide)
  have hw : HandshakeWire P anyKeys (anyHeader 0xe1 1) [0, 1] (1 : U64).toNat exPayload out :=
    ⟨_, [39], any_fields 0xe1, by decide, by decide, ⟨0, by decide +kernel⟩, ho⟩
  have e := h .debug (anyHs P c) anyKeys anyKeys_lens rfl rfl (anyHeader 0xe1 1) rfl [0, 1] exPayload out 1 (.ping :: List.replicate 20 .padding) hw
    (by decide +kernel) (by decide +kernel) []
  exact C53_short_never_decoded P hP .debug (anyHs P c) anyKeys anyKeys_lens rfl (anyHeader 0xe1 1) rfl [0, 1] exPayload out 1 hw (by decide +kernel) [] _ e

theorem C72_false_any (P : Prims) (hP : PrimLaws P) : ¬ C72For P := by
  intro h
  obtain ⟨c, hc⟩ := any_conn hP true
  obtain ⟨out, ho⟩ := protected_exists hP anyKeys_lens 0x0f 0xd1 ([0, 0, 0, 1, 8, 1, 2, 3, 4, 5, 6, 7, 8, 2, 0x11, 0x22] ++ [39]) [0, 1] exPayload 1 (by decide) (by decide)
    (by decide) (by decide)
  have hw : ZeroRttWire P anyKeys (anyHeader 0xd1 1) [0, 1] (1 : U64).toNat exPayload out :=
    ⟨_, [39], any_fields 0xd1, by decide, by decide, ⟨0, by decide +kernel⟩, ho⟩
  obtain ⟨p, e, -⟩ := h .debug (anyApp P c) anyKeys anyKeys_lens rfl rfl (anyHeader 0xd1 1) rfl [0, 1] exPayload out 1 (.ping :: List.replicate 20 .padding) hw
    (by decide +kernel) (by decide +kernel) []
  exact C72_short_never_decoded P hP .debug (anyApp P c) anyKeys anyKeys_lens rfl (anyHeader 0xd1 1) rfl [0, 1] exPayload out 1 hw (by decide +kernel) [] _ e

theorem any_short {P : Prims} (hP : PrimLaws P) (first : U8) (pnB payload : Bytes) (h1 : first.toNat < 128) (h2 : first.toNat % 4 + 1 = pnB.length)
    (h3 : payload.length < 40) (h4 : 4 ≤ pnB.length + payload.length) : ∃ out, OneRttWire P anyKeys ⟨first, anyId, false⟩ pnB (1 : U64).toNat payload out := by
  obtain ⟨out, ho⟩ := protected_exists hP anyKeys_lens 0x1f first [1, 2, 3, 4, 5, 6, 7, 8] pnB payload 1 (by decide) (by omega) (by omega) h4
  exact ⟨out, _, ⟨[1, 2, 3, 4, 5, 6, 7, 8], rfl, rfl, show beNat _ = cidVal anyId by decide +kernel⟩, h1, h2, ho⟩

/-- Three PADDING frames in a packet with a packet number of one byte. Should the AEAD accept the tag with the ciphertext cut off, no frame is left. -/
theorem C74_false_any (P : Prims) (hP : PrimLaws P) : ¬ C74For P := by
  intro h
  obtain ⟨c, hc⟩ := any_conn hP true
  obtain ⟨out, hw⟩ := any_short hP 0x60 [1] [0, 0, 0] (by decide) (by decide) (by decide) (by decide)
  have e := h .debug (anyApp P c) anyKeys anyKeys_lens rfl rfl _ rfl [1] [0, 0, 0] out 1 [.padding, .padding, .padding] hw (by decide +kernel) (by decide +kernel)
  obtain ⟨out', hb, pl, skip, e1, -, ⟨d, e2, l8, -⟩, -, ⟨nb, ct, tag, m0, m1, m2, m3, m4, r, pnM, g1, g2, g3, g4, g5, g6, g7, g8, g9⟩, hf⟩ :=
    oneRtt_opened (k := anyKeys) rfl rfl e
  obtain ⟨hb', ⟨d', e3, l8', -⟩, -, -, nb', ct', tag', n0, n1, n2, n3, n4, r', k1, k2, k3, k4, k5, k6⟩ := hw
  have lo : out = out' := makeResultStream_inj e1
  have lc := (hP.seal_length _ _ _ _ _ _ (hP.seal_open _ _ _ _ _ _ g3 g8)).1
  obtain ⟨lc', lt'⟩ := hP.seal_length _ _ _ _ _ _ k3
  have ll := congrArg List.length lo
  rw [k6, g9] at ll
  simp only [List.singleton_append, List.cons.injEq, true_and] at e2 e3
  subst e2 e3
  simp only [List.length_append, List.length_zipWith, List.length_cons, List.length_nil] at ll lc' g5
  have h0 : pl.length = 0 := by omega
  rw [List.length_eq_zero_iff.mp h0] at hf
  exact absurd hf (by decide +kernel)

theorem C108_false_any (P : Prims) (hP : PrimLaws P) : ¬ C108For P := by
  intro h
  obtain ⟨c, hc⟩ := any_conn hP true
  obtain ⟨out, hw⟩ := any_short hP 0x67 [0, 0, 0, 1] [1] (by decide) (by decide) (by decide) (by decide)
  obtain ⟨p, e, hb, -⟩ := C108_bit_ignored P hP .debug (anyApp P c) anyKeys anyKeys_lens rfl rfl _ rfl [0, 0, 0, 1] [1] out 1 [.ping] hw (by decide) (by decide +kernel)
    (by decide +kernel) (by decide)
  rw [h .debug (anyApp P c) anyKeys anyKeys_lens rfl rfl _ _ p e] at hb
  cases hb

theorem C109_false_any (P : Prims) (hP : PrimLaws P) : ¬ C109For P := by
  intro h
  obtain ⟨c, hc⟩ := any_conn hP true
  obtain ⟨out, hw⟩ := any_short hP 0x63 [0, 0, 0, 1] exResetTokenPayload (by decide) (by decide) (by decide) (by decide)
  have hd := C74_four_bytes_partial P hP .debug (anyApp P c) anyKeys anyKeys_lens rfl rfl _ rfl [0, 0, 0, 1] exResetTokenPayload out 1 [.newConnectionId exNcid] hw (by decide)
    (by decide +kernel) (by decide +kernel)
  obtain ⟨x, s2, h1, h2⟩ := h .debug (anyApp P c) anyKeys anyKeys_lens rfl _ _ _ hd exNcid (List.mem_singleton.mpr rfl) exResetToken exReset (by decide +kernel) exReset_is
  exact C109_never_recognised _ _ x h1 h2

/-! ### A packet with bytes that are not authenticated -/

/-- To any server a packet can be sent, with a packet number of two bytes, that is accepted whatever the two bytes after the packet number. -/
theorem any_skip {P : Prims} (hP : PrimLaws P) {bp bp' : Profile} {c : Connection} (hr : Connection.Reachable P bp c) {k : Keys} (hk : KeyLens k)
    (hs : c.remoteSecrets .initial = .ok (secretsOf P k)) :
    ∃ (out : U8 → U8 → Bytes) (ct tag : Bytes) (p : PacketInitial), (∀ a b a' b', out a b = out a' b' → a = a' ∧ b = b') ∧
      (∀ a b, decodeNextPacket bp' c (makeResultStream (out a b)) = (.ok (.initial p), [])) ∧
      ∀ a b, OpenedFrom P k 0x0f (exHeader 2).headerByte (exMid 2) (exPn 2) [0, 0, 0, 0, 0, 0, 0, 1] ct tag exPayload (out a b) := by
  obtain ⟨ct, tag, hseal⟩ := hP.sealing k.key (rfcNonce k.iv [0, 0, 0, 0, 0, 0, 0, 1]) ([(exHeader 2).headerByte] ++ exMid 2 ++ exPn 2) exPayload hk.2.2
    (nonce_length hk.2.1 rfl) (by decide +kernel) (by decide +kernel)
  obtain ⟨l1, l2⟩ := hP.seal_length _ _ _ _ _ _ hseal
  have hopen := hP.open_seal _ _ _ _ _ _ hseal
  obtain ⟨o, ho, h5⟩ := hP.ecb k.hp ((ct ++ tag).take 16) hk.1 (by rw [List.length_take, List.length_append]; omega)
  match o, h5, ho with
  | m0 :: m1 :: m2 :: m3 :: m4 :: r, _, ho =>
    have hx : exPn 2 = ((exPn 2).zipWith (· ^^^ ·) [m1, m2, m3, m4]).zipWith (· ^^^ ·) [m1, m2, m3, m4] :=
      (zipWith_xor_twice (exPn 2) [m1, m2, m3, m4] (show (2 : Nat) ≤ 4 by decide)).symm
    have hl : ct.length = 21 := l1
    refine ⟨fun a b => [(exHeader 2).headerByte ^^^ (m0 &&& 0x0f)] ++ exMid 2 ++ (exPn 2).zipWith (· ^^^ ·) [m1, m2, m3, m4] ++ [a, b] ++ ct ++ tag, ct, tag,
      exMalPacket, ?_, ?_, ?_⟩
    · intro a b a' b' h
      have h1 := List.append_cancel_right (List.append_cancel_right h)
      have h2 := List.append_cancel_left h1
      injection h2 with e1 h3
      injection h3 with e2 _
      exact ⟨e1, e2⟩
    · intro a b
      rw [← List.append_nil (makeResultStream _)]
      refine initial_accepted (p := exMalPacket) (hb := [0, 0, 0, 1, 8, 1, 2, 3, 4, 5, 6, 7, 8, 2, 0x11, 0x22]) (tl := [0]) (lb := [39]) (L := 39)
        (pl := exPayload) (skip := [a, b]) hs hk.2.1 ?_ rfl (by decide +kernel) ?_ ?_ ?_ ?_ ?_ ?_ []
      · refine ⟨[0, 0, 0, 1], [1, 2, 3, 4, 5, 6, 7, 8], [0x11, 0x22], rfl, ?_⟩
        decide +kernel
      · exact ⟨0, by decide +kernel⟩
      · exact ⟨0, by decide +kernel⟩
      · exact ⟨[0, 0, 0, 0, 0, 0, 0, 1], ct, tag, m0, m1, m2, m3, m4, r, (exPn 2).zipWith (· ^^^ ·) [m1, m2, m3, m4], rfl, by decide, l2, show (2 : Nat) = (exHeader 2).headerByte.toNat % 4 + 1 by decide +kernel, rfl, hx, ho, hopen, rfl⟩
      · simp only [List.length_append, l2, hl]
        rfl
      · rw [reconstruct_none bp' _ .initial _ (by decide) (reachable_acks hr .initial).2]
        rfl
      · decide +kernel
    · intro a b
      exact ⟨m0, m1, m2, m3, m4, r, (exPn 2).zipWith (· ^^^ ·) [m1, m2, m3, m4], [a, b], rfl, l2, show (2 : Nat) = (exHeader 2).headerByte.toNat % 4 + 1 by decide +kernel, rfl, hx, ho, hopen, rfl⟩

theorem C89_false_any (P : Prims) (hP : PrimLaws P) : ¬ C89For P := by
  intro h
  obtain ⟨c, k, hr, hk, hs⟩ := any_reachable hP .debug
  obtain ⟨out, ct, tag, p, hi, hd, ho⟩ := any_skip (bp' := .debug) hP hr hk hs
  exact absurd (hi _ _ _ _ (h .debug .debug c hr k hs (out 0 0) (out 1 2) p p (hd 0 0) (hd 1 2) _ _ _ _ _ _ _ (ho 0 0) (ho 1 2))).1 (by decide)

/-- With the algorithms the crate uses (SHA-256, HKDF, AES-128, GCM), none of the refuted claims holds. -/
theorem false_real :
    ¬ C31For real ∧ ¬ C32For real ∧ ¬ C35For real ∧ ¬ C36For real ∧ ¬ C48For real ∧ ¬ C50For real ∧ ¬ C53For real ∧ ¬ C56For real ∧ ¬ C58For real ∧
    ¬ C59For real ∧ ¬ C61For real ∧ ¬ C62For real ∧ ¬ C63For real ∧ ¬ C64For real ∧ ¬ C65For real ∧ ¬ C66For real ∧ ¬ C72For real ∧ ¬ C74For real ∧
    ¬ C78For real ∧ ¬ C79For real ∧ ¬ C80For real ∧ ¬ C82For real ∧ ¬ C83For real ∧ ¬ C84For real ∧ ¬ C86For real ∧ ¬ C88For real ∧ ¬ C89For real ∧
    ¬ C92For real ∧ ¬ C96For real ∧ ¬ C99For real ∧ ¬ C100For real ∧ ¬ C101For real ∧ ¬ C107For real ∧ ¬ C108For real ∧ ¬ C109For real ∧
    ¬ C114For real ∧ ¬ C116For real ∧ ¬ C118For real ∧ ¬ C119For real ∧ ¬ C121For real :=
  ⟨C31_false_any real real_laws, C32_false_any real real_laws, C35_false_any real real_laws, C36_false_any real real_laws, C48_false_any real,
  C50_false_any real real_laws, C53_false_any real real_laws, C56_false_any real real_laws, C58_false_any real real_laws,
  C59_false_any real real_laws, C61_false_any real real_laws, C62_false_any real real_laws, C63_false_any real real_laws,
  C64_false_any real real_laws, C65_false_any real real_laws, C66_false_any real real_laws, C72_false_any real real_laws,
  C74_false_any real real_laws, C78_false_any real real_laws, C79_false_any real real_laws, C80_false_any real real_laws,
  C82_false_any real real_laws, C83_false_any real real_laws, C84_false_any real real_laws, C86_false_any real real_laws,
  C88_false_any real real_laws, C89_false_any real real_laws, C92_false_any real, C96_false_any real real_laws, C99_false_any real real_laws,
  C100_false_any real real_laws, C101_false_any real, C107_false_any real real_laws, C108_false_any real real_laws, C109_false_any real real_laws,
  C114_false_any real real_laws, C116_false_any real real_laws, C118_false_any real real_laws, C119_false_any real real_laws,
  C121_false_any real real_laws⟩

end QuicSea
