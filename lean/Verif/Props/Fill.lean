import Verif.Props.Size
import Verif.Props.Exact
/-
C150: an application can fill the datagrams of Initial packets itself (RFC 9000 section 14.1: "a client MUST expand the payload of all UDP datagrams carrying Initial packets to at least
the smallest allowed maximum datagram size of 1200 bytes by adding PADDING frames to the Initial packet"; the crate does not, C83).
-/
namespace Spec
open QuicSea

def C150For (P : Prims) : Prop :=
  ∀ (bp bp' : Profile) (server : Bool) (v : Version) (d : U160) (n : Nat), n ≤ 20 → cidVal d < 256 ^ n → ∀ s0 r0 : Connection, Connection.new P server v d n = .ok s0 →
    Connection.new P (!server) v d n = .ok r0 → ∀ (ops ops' later : List ConnOp), ops.length + 1 < 2 ^ 32 →
    ∀ (sc : U160) (sl : Nat), (s0.run bp ops).2.scid = some (sc, sl) → sl ≤ 20 → cidVal sc < 256 ^ sl →
    ∀ (fs : List Frame), (∀ f ∈ fs, WellFormed f ∧ Plain f) → ∀ token : Option Bytes, initialSize n sl (token.getD []).length (payloadSize false fs) ≤ 1200 →
    ∃ k p out, (PacketInitial.new bp (fs ++ List.replicate k .padding) token (s0.run bp ops).2).1 = .ok p ∧ p.serialize (s0.run bp (ops ++ later)).2 = .ok out ∧
      (out.length = 1200 ∨ out.length = 1201 ∧ n + sl + intSize (token.getD []).length + (token.getD []).length = 1128) ∧
      ∀ s, decodeNextPacket bp' (r0.run bp' ops').2 (makeResultStream out ++ s) = (.ok (.initial p), s)
/-- C150: whatever well-formed plain frames and token a connection sends in an Initial packet of at most 1200 bytes, with some number of PADDING frames after the frames the packet has 1200
bytes, or 1201 in the one case in which the Length field grows just there, and the peer receives the frames and the padding. -/
def C150Statement : Prop := ∀ P, PrimLaws P → C150For P
end Spec

namespace QuicSea
open Spec

theorem payloadSize_sum (fs : List Frame) : payloadSize false fs = (fs.map (frameSize false)).sum := by
  induction fs with
  | nil => rfl
  | cons f fs ih =>
    cases fs with
    | nil => simp [payloadSize]
    | cons g fs => rw [List.map_cons, List.sum_cons, ← ih]; rfl
theorem payloadSize_padded (fs : List Frame) (k : Nat) : payloadSize false (fs ++ List.replicate k .padding) = payloadSize false fs + k := by
  rw [payloadSize_sum, payloadSize_sum, List.map_append, List.sum_append, List.map_replicate]
  simp [frameSize]

/-- How much padding it takes. -/
theorem fill (n sl t q : Nat) (h : initialSize n sl t q ≤ 1200) :
    ∃ k, initialSize n sl t (q + k) = 1200 ∨ initialSize n sl t (q + k) = 1201 ∧ n + sl + intSize t + t = 1128 := by
  unfold initialSize at h ⊢
  generalize intSize t = i at h ⊢
  have key : ∀ m, intSize (4 + m + 16) = if m < 44 then 1 else if m < 16364 then 2 else if m < 1073741804 then 4 else 8 := by
    intro m
    unfold intSize
    by_cases h1 : m < 44
    · rw [if_pos h1, if_pos (by omega)]
    · rw [if_neg h1, if_neg (by omega)]
      by_cases h2 : m < 16364
      · rw [if_pos h2, if_pos (by omega)]
      · rw [if_neg h2, if_neg (by omega)]
        by_cases h3 : m < 1073741804
        · rw [if_pos h3, if_pos (by omega)]
        · rw [if_neg h3, if_neg (by omega)]
  simp only [key] at h ⊢
  by_cases c1 : 27 + n + sl + i + t + q = 1199
  · exact ⟨0, by split at h <;> (try split at h) <;> (try split at h) <;> first | omega | (rw [if_pos (by omega)]; omega)⟩
  · by_cases c2 : 27 + n + sl + i + t + 44 ≤ 1198
    · exact ⟨1198 - (27 + n + sl + i + t) - q, by
        have : q ≤ 1198 - (27 + n + sl + i + t) := by split at h <;> (try split at h) <;> (try split at h) <;> omega
        rw [if_neg (by omega), if_pos (by omega)]; omega⟩
    · by_cases c3 : 27 + n + sl + i + t + 44 = 1199
      · exact ⟨44 - q, by
          have : q ≤ 44 := by split at h <;> (try split at h) <;> (try split at h) <;> omega
          rw [if_neg (by omega), if_pos (by omega)]; omega⟩
      · exact ⟨1199 - (27 + n + sl + i + t) - q, by
          have : q ≤ 1199 - (27 + n + sl + i + t) ∧ 27 + n + sl + i + t ≤ 1199 := by split at h <;> (try split at h) <;> (try split at h) <;> omega
          rw [if_pos (by omega)]; omega⟩

/-- C150. -/
theorem C150_all : C150Statement := by
  intro P hP bp bp' server v d n hn hd s0 r0 h0 h1 ops ops' later hops sc sl hsc hs hs2 fs hf token hle
  obtain ⟨k, hk⟩ := fill n sl _ _ hle
  have hs3 : HasScid (s0.run bp ops).2 := ⟨sc, sl, hsc, hs, hs2⟩
  obtain ⟨p, hp⟩ := C31_builds P bp server v d n s0 h0 ops hops hs3 (fs ++ List.replicate k .padding) token
  have hall : ∀ f ∈ fs ++ List.replicate k .padding, WellFormed f ∧ Plain f := by
    intro f hm
    rcases List.mem_append.mp hm with hm | hm
    · exact hf f hm
    · rw [(List.mem_replicate.mp hm).2]
      exact ⟨by decide, trivial⟩
  have hsz : initialSize n sl (token.getD []).length (payloadSize false (fs ++ List.replicate k .padding)) ≤ 1201 := by
    rw [payloadSize_padded]
    omega
  have hb : payloadSize false (fs ++ List.replicate k .padding) ≤ 1201 ∧ (token.getD []).length ≤ 1201 := by
    unfold initialSize at hsz
    omega
  have hpeers : Peers P bp bp' (s0.run bp ops).2 (r0.run bp' ops').2 := ⟨server, v, d, n, s0, r0, ops, ops', hn, hd, h0, h1, rfl, rfl⟩
  obtain ⟨out, o1, o2⟩ := C31_exact P hP bp bp' _ _ hpeers hs3 _ (fun f hm => (hall f hm).1) token
    (fun bs hbs => by rw [C149_frames _ _ _ hbs]; omega) (by omega) p hp later
  have o1 : p.serialize (s0.run bp (ops ++ later)).2 = .ok out := by
    rw [run_append]
    exact o1
  refine ⟨k, p, out, hp, o1, ?_, fun s => Prod.ext ((o2 s).2.mpr fun f hm => (hall f hm).2) (o2 s).1⟩
  rw [C149_initial P hP bp server v d n hn hd s0 h0 ops later sc sl hsc hs hs2 _ token p hp (by omega) (by omega) out o1, payloadSize_padded]
  exact hk

/-- The hypotheses for a packet of 46 bytes, which takes 1153 bytes of padding (the Length field grows by one); and the case in which it becomes 1201: 1199 with 42 PADDING frames. -/
example : Connection.new toy false .v1 ⟨0, 0x0102030405060708⟩ 8 = .ok exClient ∧ Connection.new toy true .v1 ⟨0, 0x0102030405060708⟩ 8 = .ok exConn ∧
    (exClient.run .debug exOps).2.scid = some (⟨0, 0x1122⟩, 2) ∧
    (∀ f ∈ [Frame.crypto ⟨0, 3, [1, 2, 3]⟩, .ping], WellFormed f ∧ Plain f) ∧ initialSize 8 2 0 (payloadSize false [.crypto ⟨0, 3, [1, 2, 3]⟩, .ping]) = 46 ∧
    initialSize 8 2 0 (payloadSize false ([.crypto ⟨0, 3, [1, 2, 3]⟩, .ping] ++ List.replicate 1153 .padding)) = 1200 ∧
    initialSize 8 2 1116 (1 + 42) = 1199 ∧ initialSize 8 2 1116 (1 + 43) = 1201 :=
  ⟨exClient_new, exConn_new, by decide +kernel, by intro f hf; simp only [List.mem_cons, List.not_mem_nil, or_false] at hf; rcases hf with rfl | rfl <;> exact ⟨by decide, by first | rfl | trivial⟩,
    by decide +kernel, by rw [payloadSize_padded]; decide +kernel, by decide, by decide⟩

end QuicSea
