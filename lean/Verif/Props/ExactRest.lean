import Verif.Props.Rules
import Verif.Props.Usage
/-
Exact conditions for C56, C67 and C107: not only that the property fails, but when.
-/
namespace Spec
open QuicSea

/-- Packets taken from a stream one after the other by `step`, and what is left of it. -/
inductive Chain (step : Stream → Out Packet × Stream) : Stream → List Packet → Stream → Prop where
  | nil (s) : Chain step s [] s
  | cons {s s' r p ps} (hne : s ≠ []) (h : step s = (.ok p, s')) (t : Chain step s' ps r) : Chain step s (p :: ps) r

end Spec

namespace QuicSea
open Spec

/-- C56, exactly: asking for a packet number is an error from the first number that does not fit four bytes to the last but one value of the
counter, and at no other time. -/
theorem C56_exact (P : Prims) (bp : Profile) (c : Connection) (h : Connection.Reachable P bp c) (sp : PnSpace) :
    (c.getNextPn bp sp).1.isErr = true ↔ 2 ^ 32 ≤ (c.pnInfo sp).nextPn.toNat + 1 ∧ (c.pnInfo sp).nextPn.toNat + 1 < 2 ^ 64 := by
  have hlt := (c.pnInfo sp).nextPn.isLt
  refine ⟨fun he => ?_, fun ⟨h1, h2⟩ => (C56_exhausted_partial P bp c h sp h1 h2).1⟩
  by_cases hw : (c.pnInfo sp).nextPn.toNat + 1 = 2 ^ 64
  · have := C56_wraps P bp c h sp hw
    cases bp with
    | debug =>
      cases hg : (c.getNextPn .debug sp).1 <;> rw [hg] at this he
      · cases he
      · cases this
      · cases he
    | release => rw [this] at he; cases he
  · have hlim : (c.pnInfo sp).nextPn.toNat + 1 < 2 ^ 64 := by omega
    refine ⟨?_, hlim⟩
    by_cases hs : (c.pnInfo sp).nextPn.toNat + 1 < 2 ^ 32
    · rw [getNextPn_eq bp c sp hlim, (reachable_acks h sp).1] at he
      dsimp only at he
      rw [truncatePn_none _ (by rw [add1_toNat _ hlim]; exact hs)] at he
      cases he
    · omega

/-- Instance: no error after three calls, an error after 2^32 - 1. -/
example : ((exConn.run .debug (List.replicate 3 (.nextPn .initial))).2.getNextPn .debug .initial).1.isErr = false := by decide +kernel
example : ((exConn.run .release (List.replicate (2 ^ 32 - 1) (.nextPn .initial))).2.getNextPn .release .initial).1.isErr = true := by
  have hv : (((exConn.run .release (List.replicate (2 ^ 32 - 1) (.nextPn .initial))).2).pnInfo .initial).nextPn.toNat = 2 ^ 32 - 1 := by
    rw [run_replicate, pnInfo_set, if_pos rfl]
    have : (exConn.pnInfo .initial).nextPn = 0 := by decide +kernel
    rw [this]
    decide
  exact (C56_exact toy .release _ ⟨true, .v1, _, 8, exConn, _, exConn_new, rfl⟩ .initial).2 (by rw [hv]; decide)

/-- C67, exactly. The packets are delivered if and only if all of them can be decoded; otherwise the outcome is that of the first that cannot,
whatever came before it. -/
theorem C67_exact (bp : Profile) (c : Connection) (s : Stream) :
    (∀ ps, (decodePackets bp c s).1 = .ok ps ↔ Chain (decodeNextPacket bp c) s ps []) ∧
    (∀ e, (decodePackets bp c s).1 = .err e ↔ ∃ ps r, Chain (decodeNextPacket bp c) s ps r ∧ r ≠ [] ∧ (decodeNextPacket bp c r).1 = .err e) ∧
    (∀ w, (decodePackets bp c s).1 = .panic w ↔ ∃ ps r, Chain (decodeNextPacket bp c) s ps r ∧ r ≠ [] ∧ (decodeNextPacket bp c r).1 = .panic w) := by
  generalize hn : s.length = n
  induction n using Nat.strongRecOn generalizing s with
  | ind n ih =>
    by_cases hs : s = []
    · subst hs
      rw [decodePackets_nil]
      have no : ∀ {ps r}, Chain (decodeNextPacket bp c) [] ps r → ps = [] ∧ r = [] := by
        intro ps r hc
        cases hc with
        | nil => exact ⟨rfl, rfl⟩
        | cons hne => exact absurd rfl hne
      refine ⟨fun ps => ⟨fun h => ?_, fun h => ?_⟩, fun e => ⟨nofun, ?_⟩, fun w => ⟨nofun, ?_⟩⟩
      · injection h with h; subst h; exact .nil _
      · rw [(no h).1]
      · rintro ⟨ps, r, hc, hr, -⟩; exact absurd (no hc).2 hr
      · rintro ⟨ps, r, hc, hr, -⟩; exact absurd (no hc).2 hr
    · rw [decodePackets_eq bp c s hs, Rd.bind_apply]
      rcases hd : decodeNextPacket bp c s with ⟨o, s'⟩
      cases o with
      | err e =>
        dsimp only
        have no : ∀ {ps r}, Chain (decodeNextPacket bp c) s ps r → ps = [] ∧ r = s := by
          intro ps r hc
          cases hc with
          | nil => exact ⟨rfl, rfl⟩
          | cons hne h => rw [hd] at h; cases h
        refine ⟨fun ps => ⟨nofun, fun h => ?_⟩, fun e' => ⟨fun h => ⟨[], s, .nil _, hs, by rw [hd]; injection h with h; rw [h]⟩, ?_⟩, fun w => ⟨nofun, ?_⟩⟩
        · exact absurd (no h).2.symm hs
        · rintro ⟨ps, r, hc, -, he⟩
          obtain ⟨-, rfl⟩ := no hc
          rw [hd] at he; injection he with he; rw [he]
        · rintro ⟨ps, r, hc, -, he⟩
          obtain ⟨-, rfl⟩ := no hc
          rw [hd] at he; cases he
      | panic w =>
        dsimp only
        have no : ∀ {ps r}, Chain (decodeNextPacket bp c) s ps r → ps = [] ∧ r = s := by
          intro ps r hc
          cases hc with
          | nil => exact ⟨rfl, rfl⟩
          | cons hne h => rw [hd] at h; cases h
        refine ⟨fun ps => ⟨nofun, fun h => ?_⟩, fun e => ⟨nofun, ?_⟩, fun w' => ⟨fun h => ⟨[], s, .nil _, hs, by rw [hd]; injection h with h; rw [h]⟩, ?_⟩⟩
        · exact absurd (no h).2.symm hs
        · rintro ⟨ps, r, hc, -, he⟩
          obtain ⟨-, rfl⟩ := no hc
          rw [hd] at he; cases he
        · rintro ⟨ps, r, hc, -, he⟩
          obtain ⟨-, rfl⟩ := no hc
          rw [hd] at he; injection he with he; rw [he]
      | ok p =>
        obtain ⟨-, hl⟩ := decodeNext_consumes bp c _ _ _ hd
        obtain ⟨i1, i2, i3⟩ := ih s'.length (by omega) s' rfl
        have e : ((fun p => (do let ps ← decodePackets bp c; pure (p :: ps) : Rd (List Packet))) p s').1 =
            match (decodePackets bp c s').1 with
            | .ok ps => .ok (p :: ps)
            | .err e => .err e
            | .panic w => .panic w := by
          refine (congrArg Prod.fst (Rd.bind_apply _ _ _)).trans ?_
          rcases decodePackets bp c s' with ⟨o, t⟩
          cases o <;> rfl
        have up : ∀ {ps r}, r ≠ [] → (∀ q, (decodeNextPacket bp c r).1 ≠ .ok q) → Chain (decodeNextPacket bp c) s ps r →
            ∃ ps', Chain (decodeNextPacket bp c) s' ps' r := by
          intro ps r hr hq hc
          cases hc with
          | nil => exact absurd (by rw [hd]) (hq p)
          | cons hne h t => rw [hd] at h; cases h; exact ⟨_, t⟩
        refine ⟨fun ps => ⟨fun h => ?_, fun h => ?_⟩, fun x => ⟨fun h => ?_, fun h => ?_⟩, fun x => ⟨fun h => ?_, fun h => ?_⟩⟩
        · have h := e.symm.trans h
          cases ho : (decodePackets bp c s').1 with
          | ok qs =>
            rw [ho] at h
            injection h with h
            subst h
            exact .cons hs hd ((i1 qs).1 ho)
          | err e => rw [ho] at h; cases h
          | panic w => rw [ho] at h; cases h
        · refine e.trans ?_
          cases h with
          | nil => exact absurd rfl hs
          | cons hne h t => rw [hd] at h; cases h; rw [(i1 _).2 t]
        · have h := e.symm.trans h
          cases ho : (decodePackets bp c s').1 with
          | ok qs => rw [ho] at h; cases h
          | err e =>
            rw [ho] at h
            injection h with h
            subst h
            obtain ⟨ps, r, hc, hr, he⟩ := (i2 e).1 ho
            exact ⟨_, r, .cons hs hd hc, hr, he⟩
          | panic w => rw [ho] at h; cases h
        · obtain ⟨ps, r, hc, hr, he⟩ := h
          obtain ⟨ps', hc'⟩ := up hr (by rw [he]; nofun) hc
          exact e.trans (by rw [(i2 x).2 ⟨ps', r, hc', hr, he⟩])
        · have h := e.symm.trans h
          cases ho : (decodePackets bp c s').1 with
          | ok qs => rw [ho] at h; cases h
          | err e => rw [ho] at h; cases h
          | panic w =>
            rw [ho] at h
            injection h with h
            subst h
            obtain ⟨ps, r, hc, hr, he⟩ := (i3 w).1 ho
            exact ⟨_, r, .cons hs hd hc, hr, he⟩
        · obtain ⟨ps, r, hc, hr, he⟩ := h
          obtain ⟨ps', hc'⟩ := up hr (by rw [he]; nofun) hc
          exact e.trans (by rw [(i3 x).2 ⟨ps', r, hc', hr, he⟩])

/-- Instance: a packet that decodes followed by 0-RTT data is a chain of one packet that ends at a packet that does not decode. -/
example : ∃ p r e, Chain (decodeNextPacket .debug exConn) (makeResultStream (exOut 4 ++ [0xd0, 0, 0, 0, 1, 0, 0, 1, 0])) [p] r ∧ r ≠ [] ∧
    (decodeNextPacket .debug exConn r).1 = .err e := by
  have h : ∃ p, decodeNextPacket .debug exConn (makeResultStream (exOut 4) ++ makeResultStream [0xd0, 0, 0, 0, 1, 0, 0, 1, 0]) =
      (.ok p, makeResultStream [0xd0, 0, 0, 0, 1, 0, 0, 1, 0]) :=
    ⟨_, C32_four_bytes_partial toy toy_laws .debug exConn exConn_reachable exKeys exKeys_ok (exHeader 4) rfl [] (exPn 4) exPayload (exOut 4) 1
      (.ping :: List.replicate 20 .padding) (exOut_wire 4 (by decide)) rfl (by decide +kernel) (by decide +kernel) _⟩
  obtain ⟨p, hp⟩ := h
  have hs : (decodeNextPacket .debug exConn (makeResultStream [0xd0, 0, 0, 0, 1, 0, 0, 1, 0])).1.isErr = true := by decide +kernel
  cases hd : (decodeNextPacket .debug exConn (makeResultStream [0xd0, 0, 0, 0, 1, 0, 0, 1, 0])).1 with
  | err e =>
    refine ⟨p, _, e, .cons ?_ ?_ (.nil _), ?_, hd⟩
    · rw [makeResultStream_append]
      simp [makeResultStream]
    · rw [makeResultStream_append]; exact hp
    · simp [makeResultStream]
  | ok a => rw [hd] at hs; cases hs
  | panic w => rw [hd] at hs; cases hs

/-- C107, exactly: the number of Initial packets that a history of a connection protects with its key can be anything below 2^32, and nothing
else as long as the history is shorter than 2^64. -/
theorem C107_exact (P : Prims) (hP : PrimLaws P) (bp : Profile) (server : Bool) (v : Version) (d : U160) (m : Nat) (hm : m ≤ 20) (hd : cidVal d < 256 ^ m)
    (c : Connection) (h0 : Connection.new P server v d m = .ok c) (n : Nat) :
    (∃ ops : List ConnOp, ops.length < 2 ^ 64 ∧ (protectedIn bp c ops).length = n) ↔ n < 2 ^ 32 := by
  constructor
  · rintro ⟨ops, hl, rfl⟩
    have := C107_number_limit_partial P bp server v d m c h0 ops hl
    omega
  · intro hn
    refine ⟨.setScid ⟨0, 0x1122⟩ 2 :: List.replicate n (.buildInitial [.ping] none), ?_, ?_⟩
    · rw [List.length_cons, List.length_replicate]; omega
    · exact (C107_exceeded P hP bp server v d m hm hd c h0 ⟨0, 0x1122⟩ 2 (by decide) (by decide +kernel) [.ping] none [1] (by rfl) (by decide) (by decide)
        n hn).1

example : ∃ ops : List ConnOp, ops.length < 2 ^ 64 ∧ (protectedIn .debug exClient ops).length = 2 ^ 32 - 1 :=
  (C107_exact toy toy_laws .debug false .v1 ⟨0, 0x0102030405060708⟩ 8 (by decide) (by decide +kernel) exClient exClient_new _).2 (by decide)

end QuicSea
