import Verif.Props.Authentic
/-
C107: how many packets one key protects (RFC 9001 section 6.6).
-/
namespace Spec
open QuicSea

/-- RFC 9001 section 6.6: the confidentiality limit of AEAD_AES_128_GCM, in packets. -/
def aesGcmLimit : Nat := 2 ^ 23

/-- The Initial packets built in a history. -/
def initialsIn : List ConnOut → List PacketInitial
  | [] => []
  | .initial (.ok p) :: l => p :: initialsIn l
  | _ :: l => initialsIn l

end Spec

namespace QuicSea
open Spec

/-- The Initial packets of a history that the connection protects. -/
def protectedIn (bp : Profile) (c : Connection) (ops : List ConnOp) : List PacketInitial :=
  (initialsIn (c.run bp ops).1).filter (fun p => (p.serialize (c.run bp ops).2).isOk)

/-- C107: in every history of a connection at most 2^23 Initial packets are protected with its one key for them. -/
def C107For (P : Prims) : Prop :=
  ∀ (bp : Profile) (server : Bool) (v : Version) (d : U160) (m : Nat) (c : Connection) (_ : Connection.new P server v d m = .ok c)
    (ops : List ConnOp), (protectedIn bp c ops).length ≤ aesGcmLimit
/-- The claim, for all algorithms that obey the laws. -/
def C107Statement : Prop := ∀ P, PrimLaws P → C107For P

theorem initialsIn_append (a b : List ConnOut) : initialsIn (a ++ b) = initialsIn a ++ initialsIn b := by
  induction a with
  | nil => rfl
  | cons x a ih =>
    rw [List.cons_append]
    cases x with
    | initial r => cases r <;> simp [initialsIn, ih]
    | _ => simp [initialsIn, ih]

theorem run_append_outs (bp : Profile) (a b : List ConnOp) (c : Connection) : (c.run bp (a ++ b)).1 = (c.run bp a).1 ++ ((c.run bp a).2.run bp b).1 := by
  induction a generalizing c with
  | nil => rfl
  | cons op a ih =>
    show (c.step bp op).1 :: ((c.step bp op).2.run bp (a ++ b)).1 = _
    rw [ih]; rfl

theorem initials_issued (outs : List ConnOut) : ((initialsIn outs).map (·.packetNumber)).Sublist (issuedIn .initial outs) := by
  induction outs with
  | nil => exact List.Sublist.refl _
  | cons o outs ih =>
    have skip : ∀ o : ConnOut, (issuedIn .initial outs).Sublist (issuedIn .initial (o :: outs)) := by
      intro o
      unfold issuedIn
      rw [List.filterMap_cons]
      split
      · exact List.Sublist.refl _
      · exact List.sublist_cons_self _ _
    cases o with
    | initial r =>
      cases r with
      | ok p => exact List.Sublist.cons_cons _ ih
      | err e => exact ih.trans (skip _)
      | panic e => exact ih.trans (skip _)
    | _ => exact ih.trans (skip _)

theorem sorted_length {l : List Nat} {b : Nat} (h : l.Pairwise (· < ·)) (hb : ∀ x ∈ l, 0 < x ∧ x < b) (h0 : 0 < b) : l.length ≤ b - 1 := by
  have : ∀ (l : List Nat) (a : Nat), a < b → l.Pairwise (· < ·) → (∀ x ∈ l, a < x ∧ x < b) → l.length + a ≤ b - 1 := by
    intro l
    induction l with
    | nil => intro a ha _ _; simp; omega
    | cons x l ih =>
      intro a _ hp hb
      obtain ⟨h1, h2⟩ := List.pairwise_cons.1 hp
      have hx := hb x List.mem_cons_self
      have := ih x hx.2 h2 (fun y hy => ⟨h1 y hy, (hb y (List.mem_cons_of_mem _ hy)).2⟩)
      rw [List.length_cons]; omega
  have := this l 0 h0 h hb
  omega

theorem initials_built {bp : Profile} (ops : List ConnOp) (c : Connection) : ∀ p ∈ initialsIn (c.run bp ops).1,
    ∃ pre fs token post, ops = pre ++ .buildInitial fs token :: post ∧ (PacketInitial.new bp fs token (c.run bp pre).2).1 = .ok p := by
  induction ops generalizing c with
  | nil => intro p hp; cases hp
  | cons op ops ih =>
    intro p hp
    have hr : (c.run bp (op :: ops)).1 = (c.step bp op).1 :: ((c.step bp op).2.run bp ops).1 := rfl
    rw [hr] at hp
    have next : p ∈ initialsIn ((c.step bp op).2.run bp ops).1 →
        ∃ pre fs token post, op :: ops = pre ++ .buildInitial fs token :: post ∧ (PacketInitial.new bp fs token (c.run bp pre).2).1 = .ok p := by
      intro hp
      obtain ⟨pre, fs, token, post, e, h⟩ := ih _ p hp
      exact ⟨op :: pre, fs, token, post, by rw [e]; rfl, h⟩
    cases op with
    | setScid a b => exact next hp
    | nextPn sp => exact next hp
    | buildHandshake fs => exact next hp
    | buildInitial fs token =>
      have hs : (c.step bp (.buildInitial fs token)).1 = .initial (PacketInitial.new bp fs token c).1 := rfl
      rw [hs] at hp
      cases hn : (PacketInitial.new bp fs token c).1 with
      | ok q =>
        rw [hn] at hp
        rcases List.mem_cons.1 hp with rfl | hp
        · exact ⟨[], fs, token, ops, rfl, hn⟩
        · exact next hp
      | err e => rw [hn] at hp; exact next hp
      | panic e => rw [hn] at hp; exact next hp

/-- C107, what holds: at most 2^32 - 1 packets in every history shorter than 2^64, because `truncate_pn` without an acknowledgement gives four bytes. Missing: the limit of the RFC,
2^23, which `C107_exceeded` refutes. -/
theorem C107_number_limit_partial (P : Prims) (bp : Profile) (server : Bool) (v : Version) (d : U160) (m : Nat) (c : Connection) (h0 : Connection.new P server v d m = .ok c)
    (ops : List ConnOp) (hl : ops.length < 2 ^ 64) : (protectedIn bp c ops).length ≤ 2 ^ 32 - 1 := by
  refine Nat.le_trans (List.length_filter_le _ _) ?_
  have hz : (c.pnInfo .initial).nextPn = 0 := by obtain ⟨_, _, _, _, _, _, rfl⟩ := new_ok' h0; rfl
  have hc := run_counter bp .initial ops c (by rw [hz]; simpa using hl)
  have hp : ((initialsIn (c.run bp ops).1).map (·.packetNumber.toNat)).Pairwise (· < ·) := by
    have := hc.2.sublist (initials_issued _)
    rw [List.pairwise_map] at this ⊢
    exact this
  have hb : ∀ x ∈ (initialsIn (c.run bp ops).1).map (·.packetNumber.toNat), 0 < x ∧ x < 2 ^ 32 := by
    intro x hx
    obtain ⟨p, hp, rfl⟩ := List.mem_map.1 hx
    refine ⟨?_, ?_⟩
    · have := (hc.1 p.packetNumber ((initials_issued _).subset (List.mem_map.2 ⟨p, hp, rfl⟩))).1
      omega
    · obtain ⟨pre, fs, token, post, rfl, hn⟩ := initials_built ops c p hp
      have hr : Connection.Reachable P bp (c.run bp pre).2 := ⟨server, v, d, m, c, pre, h0, rfl⟩
      obtain ⟨-, -, -, -, -, -, -, -, -, -, e9⟩ := initialNew_facts hn
      rw [(reachable_acks hr .initial).1] at e9
      obtain ⟨-, t2, t3⟩ := truncatePn_none_ok e9
      have := beNat_lt p.packetNumberBytes
      rw [t2, t3] at this
      exact this
  have := sorted_length hp hb (by decide)
  rwa [List.length_map] at this

theorem replicate_builds {P : Prims} {bp : Profile} {server : Bool} {v : Version} {d : U160} {m : Nat} {c : Connection} (h0 : Connection.new P server v d m = .ok c)
    (sc : U160) (sl : Nat) (h20 : sl ≤ 20) (hf : cidVal sc < 256 ^ sl) (fs : List Frame) (token : Option Bytes) (n : Nat) (hn : n < 2 ^ 32) :
    (initialsIn (c.run bp (.setScid sc sl :: List.replicate n (.buildInitial fs token))).1).length = n ∧
    HasScid (c.run bp (.setScid sc sl :: List.replicate n (.buildInitial fs token))).2 := by
  induction n with
  | zero => exact ⟨rfl, sc, sl, rfl, h20, hf⟩
  | succ n ih =>
    obtain ⟨i1, i2⟩ := ih (by omega)
    rw [List.replicate_succ', ← List.cons_append]
    obtain ⟨p, hp⟩ : ∃ p, (PacketInitial.new bp fs token (c.run bp (.setScid sc sl :: List.replicate n (.buildInitial fs token))).2).1 = .ok p := by
      obtain ⟨sc', sl', h1, -, -⟩ := i2
      have hr : Connection.Reachable P bp (c.run bp (.setScid sc sl :: List.replicate n (.buildInitial fs token))).2 := ⟨server, v, d, m, c, _, h0, rfl⟩
      have h2 : ((c.step bp (.setScid sc sl)).2.pnInfo .initial).nextPn = 0 := by obtain ⟨_, _, _, _, _, _, rfl⟩ := new_ok' h0; rfl
      have h3 := run_nextPn bp (List.replicate n (.buildInitial fs token)) (c.step bp (.setScid sc sl)).2 .initial (by rw [h2]; simp; omega)
      rw [h2] at h3
      exact initialNew_some h1 (reachable_acks hr .initial).1 (by
        have h3' : ((c.run bp (.setScid sc sl :: List.replicate n (.buildInitial fs token))).2.pnInfo .initial).nextPn.toNat ≤ 0 + n := by
          rw [List.length_replicate] at h3; exact h3
        omega)
    rw [run_append_outs, initialsIn_append, List.length_append, i1, run_append]
    refine ⟨?_, ?_⟩
    · show n + (initialsIn [.initial (PacketInitial.new bp fs token _).1]).length = _
      rw [hp]; rfl
    · obtain ⟨a, b, e, f, g⟩ := i2
      refine ⟨a, b, ?_, f, g⟩
      show ((PacketInitial.new bp fs token _).2).scid = _
      rw [initialNew_conn]
      exact (getNextPn_frame bp _ .initial).2.2.trans e

/-- C107 fails for every connection: it protects as many Initial packets as are built, for every number of them up to 2^32 - 1 (so the
bound of `C107_number_limit_partial` is attained), all with one key. -/
theorem C107_exceeded (P : Prims) (hP : PrimLaws P) (bp : Profile) (server : Bool) (v : Version) (d : U160) (m : Nat) (hm : m ≤ 20) (hd : cidVal d < 256 ^ m) (c : Connection)
    (h0 : Connection.new P server v d m = .ok c) (sc : U160) (sl : Nat) (h20 : sl ≤ 20) (hf : cidVal sc < 256 ^ sl) (fs : List Frame) (token : Option Bytes)
    (payload : Bytes) (hpl : serializeFrames fs false = .ok payload) (hs : payload.length < 2 ^ 30) (ht : (token.getD []).length < 2 ^ 28)
    (n : Nat) (hn : n < 2 ^ 32) :
    (protectedIn bp c (.setScid sc sl :: List.replicate n (.buildInitial fs token))).length = n ∧
    ∃ k, KeyLens k ∧ ∀ p ∈ protectedIn bp c (.setScid sc sl :: List.replicate n (.buildInitial fs token)),
      ∃ out, p.serialize (c.run bp (.setScid sc sl :: List.replicate n (.buildInitial fs token))).2 = .ok out ∧
        InitialWire P k p.header p.token p.packetNumberBytes p.packetNumber.toNat payload out := by
  obtain ⟨⟨k, -, l1, -, m1, -⟩, -⟩ := reachable_keys hP (bp := bp) (c := (c.run bp []).2) ⟨server, v, d, m, c, [], h0, rfl⟩
  have key : ∀ p ∈ initialsIn (c.run bp (.setScid sc sl :: List.replicate n (.buildInitial fs token))).1,
      ∃ out, p.serialize (c.run bp (.setScid sc sl :: List.replicate n (.buildInitial fs token))).2 = .ok out ∧
        InitialWire P k p.header p.token p.packetNumberBytes p.packetNumber.toNat payload out := by
    intro p hp
    obtain ⟨pre, fs', token', post, e, hb⟩ := initials_built _ c p hp
    cases pre with
    | nil => cases e
    | cons o pre =>
      have e' := (List.cons.inj e).2
      have eo := (List.cons.inj e).1
      subst eo
      have hall : ∀ o ∈ pre ++ .buildInitial fs' token' :: post, o = .buildInitial fs token := fun o ho => List.eq_of_mem_replicate (by rw [e']; exact ho)
      have h1 := hall (.buildInitial fs' token') (by simp)
      injection h1 with h1 h2
      subst h1 h2
      have hpre : pre = List.replicate pre.length (.buildInitial fs' token') := List.eq_replicate_iff.2 ⟨rfl, fun o ho => hall o (by simp [ho])⟩
      have hle : pre.length + 1 ≤ n := by have := congrArg List.length e'; simp at this; omega
      have hsc := (replicate_builds (bp := bp) h0 sc sl h20 hf fs' token' pre.length (by omega)).2
      rw [← hpre] at hsc
      have hr : Connection.Reachable P bp (c.run bp (.setScid sc sl :: pre)).2 := ⟨server, v, d, m, c, _, h0, rfl⟩
      have hdc : (c.run bp (.setScid sc sl :: pre)).2.dcid = (d, m) := by
        rw [(run_ids bp _ c).2]
        obtain ⟨_, _, _, _, _, _, rfl⟩ := new_ok' h0
        rfl
      have hc : IdsOk (c.run bp (.setScid sc sl :: pre)).2 := by
        obtain ⟨sc', sl', f1, f2, f3⟩ := hsc
        refine ⟨?_, ?_, ?_, ?_⟩
        · rw [hdc]; exact hm
        · rw [hdc]; exact hd
        · intro x hx; rw [f1] at hx; cases hx; exact f2
        · intro x hx; rw [f1] at hx; cases hx; exact f3
      obtain ⟨out, o1, o2, -⟩ := built_initial hP (((run_secrets bp _ c .initial).1).trans m1) l1 hc (reachable_acks hr .initial).1 hb hpl hs ht
      exact ⟨out, o1, o2⟩
  refine ⟨?_, k, l1, fun p hp => key p (List.mem_filter.1 hp).1⟩
  unfold protectedIn
  rw [List.filter_eq_self.2]
  · exact (replicate_builds h0 sc sl h20 hf fs token n hn).1
  · intro p hp
    obtain ⟨out, ho, -⟩ := key p hp
    rw [ho]; rfl

theorem C107_false : ¬ C107Statement := by
  intro h
  have h1 := h Spec.toy Spec.toy_laws .debug false .v1 ⟨0, 0x0102030405060708⟩ 8 exClient exClient_new
    (.setScid ⟨0, 0x1122⟩ 2 :: List.replicate (2 ^ 23 + 1) (.buildInitial [.ping] none))
  rw [(C107_exceeded Spec.toy Spec.toy_laws .debug false .v1 ⟨0, 0x0102030405060708⟩ 8 (by decide) (by decide +kernel) exClient exClient_new ⟨0, 0x1122⟩ 2 (by decide)
    (by decide +kernel) [.ping] none [1] (by rfl) (by decide) (by decide) (2 ^ 23 + 1) (by decide)).1] at h1
  exact absurd h1 (by decide)

/-- Instance, computed: three packets, numbered 2, 3 and 4; the build before them fails for want of a source id, and uses up number 1. -/
example : (protectedIn .debug exClient (.buildInitial [.ping] none :: .setScid ⟨0, 0x1122⟩ 2 :: List.replicate 3 (.buildInitial [.ping] (some [7])))).map
    (fun p => (p.packetNumber.toNat, p.token)) = [(2, [7]), (3, [7]), (4, [7])] := by decide +kernel

end QuicSea
