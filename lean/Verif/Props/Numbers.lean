import Verif.Props.PacketNumber
/-
C82: which packet numbers a connection gives out.
-/
namespace QuicSea

/-- How many operations of a history ask for a number of the space `sp`. -/
def attempts (sp : PnSpace) (ops : List ConnOp) : Nat := ops.countP fun op => decide (op.space = some sp)

theorem step_count {bp : Profile} {c : Connection} {op : ConnOp} {sp : PnSpace} (h : (c.pnInfo sp).nextPn.toNat + attempts sp [op] < 2 ^ 64) :
    (((c.step bp op).2).pnInfo sp).nextPn.toNat = (c.pnInfo sp).nextPn.toNat + attempts sp [op] := by
  by_cases hs : op.space = some sp
  · have ha : attempts sp [op] = 1 := by simp [attempts, hs]
    rw [ha] at h ⊢
    have hc : (c.step bp op).2 = (c.getNextPn bp sp).2 := by
      rw [step_conn]
      cases op <;> simp only [ConnOp.space, Option.some.injEq] at hs ⊢
      · cases hs
      all_goals rw [hs]
    rw [hc, getNextPn_eq bp c sp h]
    dsimp only
    rw [pnInfo_set, if_pos rfl, add1_toNat _ h]
  · have ha : attempts sp [op] = 0 := by simp [attempts, hs]
    rw [ha]
    rcases step_pnInfo bp c op sp with e | ⟨e, _⟩
    · rw [e]; rfl
    · exact absurd e hs

theorem attempts_cons (sp : PnSpace) (op : ConnOp) (ops : List ConnOp) : attempts sp (op :: ops) = attempts sp [op] + attempts sp ops := by
  unfold attempts
  rw [List.countP_cons, List.countP_cons, List.countP_nil]
  omega

theorem run_count (bp : Profile) (sp : PnSpace) (ops : List ConnOp) (c : Connection) (h : (c.pnInfo sp).nextPn.toNat + attempts sp ops < 2 ^ 64) :
    (((c.run bp ops).2).pnInfo sp).nextPn.toNat = (c.pnInfo sp).nextPn.toNat + attempts sp ops := by
  induction ops generalizing c with
  | nil => rfl
  | cons op ops ih =>
    rw [attempts_cons] at h ⊢
    have h1 := step_count (bp := bp) (c := c) (op := op) (sp := sp) (by omega)
    have h2 := ih (c.step bp op).2 (by omega)
    show (((c.step bp op).2.run bp ops).2.pnInfo sp).nextPn.toNat = _
    omega

theorem issued_attempt {bp : Profile} {c : Connection} {op : ConnOp} {sp n b} (h : (c.step bp op).1.issued = some (sp, n, b)) : attempts sp [op] = 1 := by
  simp [attempts, (step_issued h).1]

/-- Where a connection, after a history, gives out a number: it is the counter plus the operations so far that asked for a number of the space. -/
theorem issued_exact (bp : Profile) (c : Connection) (pre post : List ConnOp) (op : ConnOp) (o : ConnOut) (sp : PnSpace) (n : U64) (b : Bytes)
    (h : (c.pnInfo sp).nextPn.toNat + attempts sp pre + 1 < 2 ^ 64)
    (ho : (c.run bp (pre ++ op :: post)).1[pre.length]? = some o) (hi : o.issued = some (sp, n, b)) :
    n.toNat = (c.pnInfo sp).nextPn.toNat + attempts sp pre + 1 := by
  induction pre generalizing c with
  | nil =>
    simp only [List.nil_append, List.length_nil, Connection.run, List.getElem?_cons_zero, Option.some.injEq] at ho
    rw [← ho] at hi
    have h : (c.pnInfo sp).nextPn.toNat + 1 < 2 ^ 64 := h
    rw [(step_issued_val hi h).1, add1_toNat _ h]
    rfl
  | cons x pre ih =>
    rw [attempts_cons] at h ⊢
    have h1 := step_count (bp := bp) (c := c) (op := x) (sp := sp) (by omega)
    have := ih (c.step bp x).2 (by omega) ho
    omega

theorem issued_le_attempts (bp : Profile) (sp : PnSpace) (ops : List ConnOp) (c : Connection) :
    (issuedIn sp (c.run bp ops).1).length ≤ attempts sp ops := by
  induction ops generalizing c with
  | nil => exact Nat.le_refl _
  | cons op ops ih =>
    rw [attempts_cons]
    show (issuedIn sp ((c.step bp op).1 :: ((c.step bp op).2.run bp ops).1)).length ≤ _
    rw [issuedIn_cons, List.length_append]
    refine Nat.add_le_add ?_ (ih _)
    split
    · rename_i sp' n b hi
      by_cases e : sp' = sp
      · subst e
        rw [if_pos rfl, issued_attempt hi]
        exact Nat.le_refl 1
      · rw [if_neg e]; exact Nat.zero_le _
    · exact Nat.zero_le _

theorem issued_all (bp : Profile) (sp : PnSpace) (ops : List ConnOp) (c : Connection) (h : (c.pnInfo sp).nextPn.toNat + attempts sp ops < 2 ^ 64)
    (ha : (issuedIn sp (c.run bp ops).1).length = attempts sp ops) :
    (issuedIn sp (c.run bp ops).1).map BitVec.toNat = List.range' ((c.pnInfo sp).nextPn.toNat + 1) (attempts sp ops) := by
  induction ops generalizing c with
  | nil => rfl
  | cons op ops ih =>
    rw [attempts_cons] at h ha ⊢
    have e : (c.run bp (op :: ops)).1 = (c.step bp op).1 :: ((c.step bp op).2.run bp ops).1 := rfl
    rw [e, issuedIn_cons] at ha ⊢
    rw [List.length_append] at ha
    have hle := issued_le_attempts bp sp ops (c.step bp op).2
    have hst := step_count (bp := bp) (c := c) (op := op) (sp := sp) (by omega)
    rw [List.map_append]
    have h1 : attempts sp [op] ≤ 1 := by
      have := List.countP_le_length (p := fun op : ConnOp => decide (op.space = some sp)) (l := [op])
      exact this
    split at ha
    · rename_i sp' n b hi
      split at ha
      · rename_i es
        subst es
        have ho := issued_attempt hi
        rw [ho] at h ha hst ⊢
        have hlim : (c.pnInfo sp').nextPn.toNat + 1 < 2 ^ 64 := by omega
        rw [List.length_singleton] at ha
        have := ih (c.step bp op).2 (by omega) (by omega)
        rw [this, hst]
        rw [if_pos rfl, (step_issued_val hi hlim).1, List.map_singleton, add1_toNat _ hlim, Nat.add_comm 1 (attempts sp' ops), List.range'_succ]
        rfl
      · rename_i es
        rw [List.length_nil] at ha
        have h0 : attempts sp [op] = 0 := by omega
        rw [h0] at h ha hst ⊢
        have := ih (c.step bp op).2 (by omega) (by omega)
        rw [this, hst]
        rw [if_neg es, List.map_nil, List.nil_append, Nat.add_zero, Nat.zero_add]
    · rename_i hi
      rw [List.length_nil] at ha
      have h0 : attempts sp [op] = 0 := by omega
      rw [h0] at h ha hst ⊢
      have := ih (c.step bp op).2 (by omega) (by omega)
      rw [this, hst]
      rw [List.map_nil, List.nil_append, Nat.add_zero, Nat.zero_add]

theorem new_counter {P : Prims} {server : Bool} {v : Version} {d : U160} {m : Nat} {c : Connection} (hc : Connection.new P server v d m = .ok c) (sp : PnSpace) :
    (c.pnInfo sp).nextPn.toNat = 0 := by
  obtain ⟨_, _, _, _, _, _, rfl⟩ := new_ok hc
  cases sp <;> rfl

/-! ## C82 -/

/-- C82, full statement (RFC 9000 section 12.3: "Packet numbers in each space start at packet number 0"): the numbers a new connection gives out
in a space are 0, 1, 2, … -/
def C82For (P : Prims) : Prop := ∀ (bp : Profile) (server : Bool) (v : Version) (d : U160) (m : Nat) (c : Connection),
  Connection.new P server v d m = .ok c → ∀ (sp : PnSpace) (ops : List ConnOp), ops.length < 2 ^ 64 →
    (issuedIn sp (c.run bp ops).1).map BitVec.toNat = List.range (issuedIn sp (c.run bp ops).1).length
/-- The claim, for all algorithms. -/
def C82Statement : Prop := ∀ P, C82For P

/-- What the code does instead, over all histories: the number given out by an operation is one more than the number of earlier operations, failed
ones included, that asked for a number of the space. -/
theorem C82_numbers_are_attempts (P : Prims) (bp : Profile) (server : Bool) (v : Version) (d : U160) (m : Nat) (c : Connection)
    (hc : Connection.new P server v d m = .ok c) (pre post : List ConnOp) (op : ConnOp) (o : ConnOut) (sp : PnSpace) (n : U64) (b : Bytes)
    (hl : pre.length + 1 < 2 ^ 64) (ho : (c.run bp (pre ++ op :: post)).1[pre.length]? = some o) (hi : o.issued = some (sp, n, b)) :
    n.toNat = pre.countP (fun op => decide (op.space = some sp)) + 1 := by
  have hz := new_counter hc sp
  have hle : attempts sp pre ≤ pre.length := List.countP_le_length
  have := issued_exact bp c pre post op o sp n b (by omega) ho hi
  rw [hz, Nat.zero_add] at this
  exact this

/-- C82 fails in every history that gives out a number at all: none is 0. -/
theorem C82_never_zero (P : Prims) (bp : Profile) (server : Bool) (v : Version) (d : U160) (m : Nat) (c : Connection)
    (hc : Connection.new P server v d m = .ok c) (sp : PnSpace) (ops : List ConnOp) (hl : ops.length < 2 ^ 64) (hne : issuedIn sp (c.run bp ops).1 ≠ []) :
    (∀ n ∈ issuedIn sp (c.run bp ops).1, n.toNat ≠ 0) ∧
    (issuedIn sp (c.run bp ops).1).map BitVec.toNat ≠ List.range (issuedIn sp (c.run bp ops).1).length := by
  have hz := new_counter hc sp
  have key : ∀ n ∈ issuedIn sp (c.run bp ops).1, n.toNat ≠ 0 := by
    intro n hn
    have := ((run_counter bp sp ops c (by omega)).1 n hn).1
    omega
  refine ⟨key, fun e => ?_⟩
  have h0 : 0 ∈ List.range (issuedIn sp (c.run bp ops).1).length := List.mem_range.mpr (List.length_pos_iff.mpr hne)
  rw [← e] at h0
  obtain ⟨n, hn, h0⟩ := List.mem_map.mp h0
  exact key n hn h0

theorem C82_false : ¬ C82Statement := fun h =>
  (C82_never_zero Spec.toy .debug true .v1 _ 8 exConn exConn_new .initial [.nextPn .initial] (by decide) (by decide +kernel)).2
    (h Spec.toy .debug true .v1 _ 8 exConn exConn_new .initial [.nextPn .initial] (by decide))

/-- **C82, partial**: the numbers are 1, 2, 3, … when no operation fails; with failures, numbers are left out (`C82_numbers_are_attempts`), as many as there
are failures. Missing: number 0, and histories with failures. -/
theorem C82_no_gaps_partial (P : Prims) (bp : Profile) (server : Bool) (v : Version) (d : U160) (m : Nat) (c : Connection)
    (hc : Connection.new P server v d m = .ok c) (sp : PnSpace) (ops : List ConnOp) (hl : ops.length < 2 ^ 64)
    (ha : (issuedIn sp (c.run bp ops).1).length = ops.countP (fun op => decide (op.space = some sp))) :
    (issuedIn sp (c.run bp ops).1).map BitVec.toNat = List.range' 1 (issuedIn sp (c.run bp ops).1).length := by
  have hz := new_counter hc sp
  have hle : attempts sp ops ≤ ops.length := List.countP_le_length
  rw [issued_all bp sp ops c (by omega) ha, hz, ha]
  rfl

/-- Two successful operations; and a failing one in between (no source id yet), after which number 2 is missing. -/
example :
    issuedIn .initial (exConn.run .debug [.nextPn .initial, .setScid ⟨0, 7⟩ 8, .buildInitial [.ping] none]).1 = [1, 2] ∧
    issuedIn .initial (exConn.run .debug [.nextPn .initial, .buildInitial [] none, .setScid ⟨0, 7⟩ 8, .buildInitial [.ping] none]).1 = [1, 3] := by
  decide +kernel
/-- The hypotheses of `C82_numbers_are_attempts` with two earlier operations, one of which failed. -/
example : ((exConn.run .debug ([.nextPn .initial, .buildInitial [] none] ++ .nextPn .initial :: [])).1[2]?.map ConnOut.issued) =
    some (some (.initial, 3, [0, 0, 0, 3])) := by decide +kernel

end QuicSea
