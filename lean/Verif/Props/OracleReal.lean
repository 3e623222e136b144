import Verif.Props.Oracle
import Verif.Spec.RealPrims
/-!
C117 with the algorithms the crate uses: the refusal of one and the same forged datagram differs between two connections.
-/
namespace QuicSea
open Spec

/-- There is one way to cut off a packet. -/
theorem cutAt_unique {bytes : Bytes} {sp sp' : PnSpace} {b b' : U8} {mid mid' pn pn' body body' : Bytes} {L L' : Nat}
    (h : CutAt bytes sp b mid L pn body) (h' : CutAt bytes sp' b' mid' L' pn' body') :
    sp = sp' ∧ b = b' ∧ mid = mid' ∧ L = L' ∧ pn = pn' ∧ body = body' := by
  obtain ⟨x, hb, tok, lb, rfl, h128, w1, hki, w2, w3, h4, rfl, e⟩ := h
  obtain ⟨y, hb', tok', lb', rfl, h128', w1', hki', w2', w3', h4', rfl, e'⟩ := h'
  have hx : nextHeaderFromStream (makeResultStream bytes) =
      (.ok (.long { x with isProtected := protectable (packetKind x.headerByte x.version) }), makeResultStream (tok ++ lb ++ pn ++ body)) :=
    nextHeader_long_iff.mpr ⟨x.headerByte :: hb, by rw [e]; simp [makeResultStream_append], w1, h128, rfl⟩
  have hy : nextHeaderFromStream (makeResultStream bytes) =
      (.ok (.long { y with isProtected := protectable (packetKind y.headerByte y.version) }), makeResultStream (tok' ++ lb' ++ pn' ++ body')) :=
    nextHeader_long_iff.mpr ⟨y.headerByte :: hb', by rw [e']; simp [makeResultStream_append], w1', h128', rfl⟩
  rw [hx] at hy
  obtain ⟨h1, h2⟩ := Prod.mk.inj hy
  injection h1 with h1
  injection h1 with h1
  have eb : x.headerByte = y.headerByte := (LongPacketHeader.mk.inj h1).1
  have ev : x.version = y.version := (LongPacketHeader.mk.inj h1).2.1
  rw [eb, ev] at hki w2
  have hsp : sp = sp' := by
    rcases hki with ⟨a, rfl⟩ | ⟨a, rfl⟩ | ⟨a, rfl⟩ <;> rcases hki' with ⟨b, rfl⟩ | ⟨b, rfl⟩ | ⟨b, rfl⟩ <;>
      first | rfl | (rw [a] at b; cases b)
  have q := pre_reads w2 (makeResultStream (lb ++ pn ++ body))
  have q' := pre_reads w2' (makeResultStream (lb' ++ pn' ++ body'))
  have g : makeResultStream tok ++ makeResultStream (lb ++ pn ++ body) = makeResultStream tok' ++ makeResultStream (lb' ++ pn' ++ body') := by
    rw [← makeResultStream_append, ← makeResultStream_append]
    simpa using h2
  rw [g, q'] at q
  obtain ⟨q1, q2⟩ := Prod.mk.inj q
  injection q1 with q1
  have hl64 : (BitVec.ofNat 64 L).toNat = L := ofNat64_toNat (by have := w3.lt; omega)
  have hl64' : (BitVec.ofNat 64 L').toNat = L' := ofNat64_toNat (by have := w3'.lt; omega)
  have r := varIntWithBytes_reads (v := BitVec.ofNat 64 L) (by rw [hl64]; exact w3) (makeResultStream (pn ++ body))
  have r' := varIntWithBytes_reads (v := BitVec.ofNat 64 L') (by rw [hl64']; exact w3') (makeResultStream (pn' ++ body'))
  rw [← makeResultStream_append, ← List.append_assoc, ← q2, List.append_assoc, makeResultStream_append, r'] at r
  obtain ⟨r1, r2⟩ := Prod.mk.inj r
  injection r1 with r1
  obtain ⟨r1, r3⟩ := Prod.mk.inj r1
  have hL : L = L' := by rw [← hl64, ← hl64', r1]
  obtain ⟨s1, s2⟩ := List.append_inj (makeResultStream_inj r2) (h4'.trans h4.symm)
  subst q1 r3 hL hsp s1 s2
  refine ⟨rfl, eb, ?_, rfl, rfl, rfl⟩
  have := e.symm.trans e'
  rw [eb] at this
  simpa using this

/-- The keys a connection has for receiving Initial packets. -/
def keysAt (c : Connection) : Keys := match (c.pnInfo .initial).remoteTlsSecrets with
  | some t => ⟨t.hp, t.iv.getD [], t.key⟩
  | none => ⟨[], [], []⟩
theorem holds_keysAt {P : Prims} {c : Connection} {f : PnSpace → Option Keys} (h : Holds P c f) {k : Keys} (hk : f .initial = some k) : k = keysAt c := by
  unfold keysAt
  rw [(h .initial).1, hk]
  rfl

/-- Servers with the algorithms the crate uses; their ids differ in one bit. -/
def realConn (id : U128) : Connection := match Connection.new real true .v1 ⟨0, id⟩ 8 with
  | .ok c => c
  | _ => exConn
theorem realConn_new {id : U128} (h : (Connection.new real true .v1 ⟨0, id⟩ 8).isOk = true) : Connection.new real true .v1 ⟨0, id⟩ 8 = .ok (realConn id) := by
  unfold realConn
  cases e : Connection.new real true .v1 ⟨0, id⟩ 8 with
  | ok c => rfl
  | err x => rw [e] at h; cases h
  | panic x => rw [e] at h; cases h

def probeBody : Bytes := [0, 40, 41, 42, 43, 44, 45, 46, 47, 48, 49, 50, 51, 52, 53, 54, 55, 56, 57, 58]
theorem probe23_cut : CutAt (probe 23) .initial 0xc0 [0, 0, 0, 1, 8, 1, 2, 3, 4, 5, 6, 7, 8, 0, 0, 23] 23 [1, 2, 3, 4] probeBody := by
  refine ⟨⟨0xc0, 1, 8, ⟨0, 0x0102030405060708⟩, 0, ⟨0, 0⟩, none, true⟩,
    [0, 0, 0, 1, 8, 1, 2, 3, 4, 5, 6, 7, 8, 0], [0], [23], rfl, by decide, ?_, .inl ⟨rfl, rfl⟩, ⟨[0], [], rfl, 0, by decide⟩, ⟨0, by decide⟩, rfl, rfl, rfl⟩
  exact ⟨[0, 0, 0, 1], [1, 2, 3, 4, 5, 6, 7, 8], [], by decide +kernel⟩

theorem probe23_long : ∀ b (mid pn body : Bytes), probe 23 = b :: mid ++ pn ++ body → 128 ≤ b.toNat := by
  intro b mid pn body e
  have : (0xc0 : U8) = b := (List.cons.inj e).1
  subst this; decide

/-- It takes a packet number of three bytes for the body to be as long as Length says. -/
theorem probe23_forged {f : PnSpace → Option Keys} {k : Keys} (hf : ∀ sp, f sp = if sp = .initial then some k else none) (m0 m1 m2 m3 m4 : U8) (r : Bytes)
    (ha : real.aesEcb k.hp (probeBody.take 16) = some (m0 :: m1 :: m2 :: m3 :: m4 :: r))
    (h3 : 3 ≤ (0xc0 ^^^ (m0 &&& 0x0f)).toNat % 4 + 1 → ∀ n ∈ [4, 3],
      real.gcmOpen k.key (rfcNonce k.iv (toBeBytes 8 (BitVec.ofNat 64 (beNat (([1, 2, 3, 4].zipWith (· ^^^ ·) [m1, m2, m3, m4]).take n)))))
        ((0xc0 ^^^ (m0 &&& 0x0f)) :: [0, 0, 0, 1, 8, 1, 2, 3, 4, 5, 6, 7, 8, 0, 0, 23] ++
          ([1, 2, 3, 4].zipWith (· ^^^ ·) [m1, m2, m3, m4]).take ((0xc0 ^^^ (m0 &&& 0x0f)).toNat % 4 + 1))
        ((probeBody.take 20).take (20 - 16)) ((probeBody.take 20).drop (20 - 16)) = none)
    (h4 : (0xc0 ^^^ (m0 &&& 0x0f)).toNat % 4 + 1 < 4) : Forged real f (probe 23) := by
  constructor
  · intro sp k' b mid L pn body data hk hcut hd hlen
    obtain ⟨rfl, rfl, rfl, rfl, rfl, rfl⟩ := cutAt_unique probe23_cut hcut
    rw [hf, if_pos rfl] at hk
    cases hk
    intro n0 n1 n2 n3 n4 r' plain num nb ct tag hr hp hn hb he ect ht
    rw [ha] at hr
    cases hr
    have hlu : lengthUnder real k 0xc0 probeBody = (0xc0 ^^^ (m0 &&& 0x0f)).toNat % 4 + 1 := by unfold lengthUnder; rw [ha]
    rw [hlu] at hlen
    have hle := hd.length_le
    have h20 : probeBody.length = 20 := rfl
    have hd' : data = probeBody.take 20 := by
      rw [List.prefix_iff_eq_take.mp hd, show data.length = 20 by omega]
    have hpl : plain.length = 4 := by rw [hp]; rfl
    have hnl : num.length ≤ 4 := by
      rcases hn with rfl | rfl
      · omega
      · rw [List.length_take]; omega
    have h1 := beNat_lt num
    have h2 : 256 ^ num.length ≤ 256 ^ 4 := Nat.pow_le_pow_right (by decide) hnl
    have h2' : (256 : Nat) ^ 4 = 4294967296 := by decide
    have hv : nb = toBeBytes 8 (BitVec.ofNat 64 (beNat num)) := by
      refine beNat_inj (by rw [hb, toBeBytes_length]) ?_
      rw [he, beNat_toBeBytes' 8 _, ofNat64_toNat (by omega)]
    have hct : ct = data.take (20 - 16) ∧ tag = data.drop (20 - 16) := by
      have hl : ct.length = 4 := by
        have := congrArg List.length (hd'.symm.trans ect)
        rw [List.length_append, List.length_take, h20, ht] at this; omega
      rw [ect]
      exact ⟨(List.take_left' hl).symm, (List.drop_left' hl).symm⟩
    have hnum : ∃ n ∈ [4, 3], num = plain.take n := by
      rcases hn with rfl | rfl
      · exact ⟨4, by simp, (List.take_of_length_le (by omega)).symm⟩
      · exact ⟨3, by simp, by rw [show (0xc0 ^^^ (m0 &&& 0x0f)).toNat % 4 + 1 = 3 by omega]⟩
    obtain ⟨n, hnm, rfl⟩ := hnum
    have := h3 (by omega) n hnm
    rw [hv, hct.1, hct.2, hd', hp]
    exact this
  · intro k b mid pn body _ hb _ _ e
    exact absurd (probe23_long b mid pn body e) (by omega)

/-- Whether the hypotheses of `probe23_forged` are met, and the packet number length is `l`. -/
def probeShut (k : Keys) (l : Nat) : Bool := match real.aesEcb k.hp (probeBody.take 16) with
  | some (m0 :: m1 :: m2 :: m3 :: m4 :: _) => decide ((0xc0 ^^^ (m0 &&& 0x0f)).toNat % 4 + 1 = l) && decide (l < 4) && (decide (l < 3) ||
      [4, 3].all fun n => (real.gcmOpen k.key (rfcNonce k.iv (toBeBytes 8 (BitVec.ofNat 64 (beNat (([1, 2, 3, 4].zipWith (· ^^^ ·) [m1, m2, m3, m4]).take n)))))
        ((0xc0 ^^^ (m0 &&& 0x0f)) :: [0, 0, 0, 1, 8, 1, 2, 3, 4, 5, 6, 7, 8, 0, 0, 23] ++
          ([1, 2, 3, 4].zipWith (· ^^^ ·) [m1, m2, m3, m4]).take ((0xc0 ^^^ (m0 &&& 0x0f)).toNat % 4 + 1))
        ((probeBody.take 20).take (20 - 16)) ((probeBody.take 20).drop (20 - 16))).isNone)
  | _ => false
theorem probeShut_forged {f : PnSpace → Option Keys} {k : Keys} {l : Nat} (h : probeShut k l = true) (hf : ∀ sp, f sp = if sp = .initial then some k else none) :
    Forged real f (probe 23) ∧ lengthUnder real k 0xc0 probeBody = l := by
  unfold probeShut at h
  split at h
  · rename_i m0 m1 m2 m3 m4 r ha
    rw [Bool.and_eq_true, Bool.and_eq_true, Bool.or_eq_true, decide_eq_true_iff, decide_eq_true_iff, decide_eq_true_iff, List.all_eq_true] at h
    obtain ⟨⟨h1, h2⟩, h3⟩ := h
    refine ⟨probe23_forged hf m0 m1 m2 m3 m4 r ha (fun hl n hn => ?_) (by omega), by unfold lengthUnder; rw [ha]; exact h1⟩
    rcases h3 with h3 | h3
    · omega
    · exact Option.isNone_iff_eq_none.mp (h3 n hn)
  · cases h

/-- The two servers and what they hold. -/
theorem realConn_probe {id : U128} {l : Nat} {c : Connection} (hn : Connection.new real true .v1 ⟨0, id⟩ 8 = .ok c) (h : probeShut (keysAt c) l = true) :
    ∃ k, Holds real c (fun sp => if sp = .initial then some k else none) ∧
      Forged real (fun sp => if sp = .initial then some k else none) (probe 23) ∧ lengthUnder real k 0xc0 probeBody = l := by
  obtain ⟨k, -, hc⟩ := reachable_holds real_laws (bp := .release) (c := c) ⟨true, .v1, _, 8, c, [], hn, rfl⟩
  have hk : k = keysAt c := holds_keysAt hc (if_pos rfl)
  rw [← hk] at h
  have := probeShut_forged h (f := fun sp => if sp = .initial then some k else none) (fun _ => rfl)
  exact ⟨k, hc, this.1, this.2⟩

theorem realConn_8 : (Connection.new real true .v1 ⟨0, 0x0102030405060708⟩ 8).isOk = true ∧ probeShut (keysAt (realConn 0x0102030405060708)) 2 = true := by
  constructor <;> decide +kernel
theorem realConn_a : (Connection.new real true .v1 ⟨0, 0x010203040506070a⟩ 8).isOk = true ∧ probeShut (keysAt (realConn 0x010203040506070a)) 3 = true := by
  constructor <;> decide +kernel

/-- The claim is false with the algorithms the crate uses, in both profiles, for two connections made through the API. -/
theorem C117_false_real (bp : Profile) : ∃ c c' f f', Connection.Reachable real bp c ∧ Connection.Reachable real bp c' ∧ Holds real c f ∧ Holds real c' f' ∧
    (∀ sp, (f sp).isSome = (f' sp).isSome) ∧ Forged real f (probe 23) ∧ Forged real f' (probe 23) ∧
    seenOf (decodePackets bp c (makeResultStream (probe 23))).1 = .err notEnough ∧ seenOf (decodePackets bp c' (makeResultStream (probe 23))).1 = .err notOpened := by
  have hn := realConn_new realConn_8.1
  have hn' := realConn_new realConn_a.1
  have hp := realConn_8.2
  have hp' := realConn_a.2
  generalize realConn 0x0102030405060708 = c at hn hp
  generalize realConn 0x010203040506070a = c' at hn' hp'
  obtain ⟨k, hc, hf, hl⟩ := realConn_probe hn hp
  obtain ⟨k', hc', hf', hl'⟩ := realConn_probe hn' hp'
  refine ⟨c, c', _, _, ⟨true, .v1, _, 8, c, [], hn, rfl⟩, ⟨true, .v1, _, 8, c', [], hn', rfl⟩,
    hc, hc', fun sp => by split <;> rfl, hf, hf', ?_, ?_⟩
  · rw [C117_refusal real_laws bp hc (probe 23) (by decide) hf ⟨_, _, probe23_cut⟩ (by decide) (k := k) rfl, hl]
    rfl
  · rw [C117_refusal real_laws bp hc' (probe 23) (by decide) hf' ⟨_, _, probe23_cut⟩ (by decide) (k := k') rfl, hl']
    rfl
theorem C117_not_real : ¬ C117For real := by
  intro h
  obtain ⟨c, c', f, f', -, -, h1, h2, h3, h4, h5, h6, h7⟩ := C117_false_real .release
  have := h .release c c' f f' h1 h2 h3 (probe 23) (by decide) h4 h5
  rw [h6, h7] at this
  exact absurd this (by decide)

/-- With a mask that does not depend on the keys the claim holds: what differs is the packet number length and nothing else. -/
theorem C117_same_mask {P : Prims} (hP : PrimLaws P) (h : ∀ k k' s, k.length = 16 → k'.length = 16 → P.aesEcb k s = P.aesEcb k' s) : C117For P := by
  intro bp c c' f f' hc hc' hff data hs hf hf'
  refine (C117_exact hP bp hc hc' hff data hs hf hf').mpr fun sp b L body k k' _ _ hk hk' => ?_
  unfold lengthUnder
  rw [h _ _ _ ((hc sp).2.2 k hk).1 ((hc' sp).2.2 k' hk').1]
/-- There are lawful algorithms with such a mask; so the claim is not refuted for all of them. -/
theorem C117_some_hold : ∃ P, PrimLaws P ∧ C117For P :=
  have hP : PrimLaws { toy with aesEcb := fun _ _ => some (List.replicate 16 0) } :=
    { toy_laws with ecb := fun _ _ _ _ => ⟨_, rfl, by decide⟩ }
  ⟨_, hP, C117_same_mask hP fun _ _ _ _ _ => rfl⟩

end QuicSea
